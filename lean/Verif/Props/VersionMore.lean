import Verif.Props.VersionStyles
import Verif.Props.VersionArchive
import Verif.Lemmas.Except

/-!
# C110, C111: commands, branches, prefixes of tags and what is unreadable
-/

namespace Verif.Props

open Txt Version Vers

/-- **C110**: of the names git may have, the first one there is decides: it cannot be started, it fails, or its output counts, without spaces
around it. -/
theorem C110_command (sys : System) (before after : List Str) (g : Str) (args : List Str) (hb : ∀ d ∈ before, sys.proc d args = .missing) :
    runCommand sys before args = (none, none) ∧
    (sys.proc g args = .unable → runCommand sys (before ++ g :: after) args = (none, none)) ∧
    (∀ out rc, rc ≠ 0 → sys.proc g args = .done out rc → runCommand sys (before ++ g :: after) args = (none, some rc)) ∧
    (∀ out, sys.proc g args = .done out 0 → runCommand sys (before ++ g :: after) args = (some (stripBy isByteSpace out), some 0)) := by
  induction before with
  | nil =>
    refine ⟨rfl, fun h => ?_, fun out rc hr h => ?_, fun out h => ?_⟩
    · rw [List.nil_append, runCommand, h]
    · rw [List.nil_append, runCommand, h]; exact if_pos hr
    · rw [List.nil_append, runCommand, h]; rfl
  | cons d l ih =>
    have e : ∀ l', runCommand sys (d :: l') args = runCommand sys l' args := fun l' => by rw [runCommand, hb d (by simp)]
    rw [List.cons_append, e, e]
    exact ih fun x hx => hb x (by simp [hx])

/-- **C110**: elsewhere git is called `git`, on Windows `git.cmd` or, if there is none, `git.exe`. -/
theorem C110_programs (sys : System) (args : List Str) (out : Str) :
    (sys.windows = false → sys.proc "git".toList args = .done out 0 →
      runCommand sys (gits sys) args = (some (stripBy isByteSpace out), some 0)) ∧
    (sys.windows = true → sys.proc "git.cmd".toList args = .done out 0 →
      runCommand sys (gits sys) args = (some (stripBy isByteSpace out), some 0)) ∧
    (sys.windows = true → sys.proc "git.cmd".toList args = .missing → sys.proc "git.exe".toList args = .done out 0 →
      runCommand sys (gits sys) args = (some (stripBy isByteSpace out), some 0)) := by
  refine ⟨fun hw h => ?_, fun hw h => ?_, fun hw hm h => ?_⟩
  · rw [gits, hw]
    exact (C110_command sys [] [] _ args (by simp)).2.2.2 out h
  · rw [gits, hw]
    exact (C110_command sys [] _ _ args (by simp)).2.2.2 out h
  · rw [gits, hw]
    exact (C110_command sys ["git.cmd".toList] [] _ args (by simpa using hm)).2.2.2 out h

namespace Vers

/-- Lines. -/
theorem splitOn_lines (l : List Str) (hne : l ≠ []) (h : ∀ x ∈ l, '\n' ∉ x) : splitOn '\n' (List.intercalate ['\n'] l) = l := by
  induction l with
  | nil => exact absurd rfl hne
  | cons x l ih =>
    cases l with
    | nil =>
      have e : List.intercalate ['\n'] [x] = x := by simp [List.intercalate]
      rw [e]
      exact splitOn_none _ _ (h x (by simp))
    | cons y l =>
      have e : List.intercalate ['\n'] (x :: y :: l) = x ++ '\n' :: List.intercalate ['\n'] (y :: l) := by
        simp [List.intercalate, List.intersperse]
      rw [e, splitOn_append _ _ _ (h x (by simp)), ih (by simp) fun z hz => h z (by simp [hz])]

end Vers

/-- **C110**: on a branch the branch is the one git names. -/
theorem C110_branch (git : List Str → Option Str × Option Int) (name : Str)
    (h : git ["rev-parse".toList, "--abbrev-ref".toList, "HEAD".toList] = (some name, some 0)) (hn : strip name ≠ "HEAD".toList) :
    branchOf git = .ok (some (strip name)) := by
  unfold branchOf
  simp only [h, ne_eq, not_true_eq_false, if_false, hn]
  rfl

/-- **C110**: away from the branches, it is `master` if that is one of the branches with the commit, and otherwise the first of them, if
there is one; git lists them with two characters in front, behind a line for the commit itself. -/
theorem C110_detached (git : List Str → Option Str × Option Int) (name note : Str) (bs : List Str)
    (h : git ["rev-parse".toList, "--abbrev-ref".toList, "HEAD".toList] = (some name, some 0)) (hn : strip name = "HEAD".toList)
    (hb : git ["branch".toList, "--contains".toList] =
      (some (List.intercalate ['\n'] (("* (".toList ++ note ++ ")".toList) :: bs.map fun b => ' ' :: ' ' :: b)), some 0))
    (hl : '\n' ∉ note) (hs : ∀ b ∈ bs, '\n' ∉ b) :
    branchOf git = .ok (if "master".toList ∈ bs then some "master".toList else bs.head?) := by
  have e : "* (".toList ++ note ++ ")".toList = '*' :: ' ' :: '(' :: (note ++ [')']) := by
    have e1 : "* (".toList = ['*', ' ', '('] := by decide
    have e2 : ")".toList = [')'] := by decide
    rw [e1, e2]; simp
  rw [e] at hb
  have es : splitOn '\n' (List.intercalate ['\n'] (('*' :: ' ' :: '(' :: (note ++ [')'])) :: bs.map fun b => ' ' :: ' ' :: b)) =
      ('*' :: ' ' :: '(' :: (note ++ [')'])) :: bs.map fun b => ' ' :: ' ' :: b := by
    apply splitOn_lines _ (by simp)
    intro x hx
    rcases List.mem_cons.1 hx with rfl | hx
    · simp [hl]
    · obtain ⟨b, hb, rfl⟩ := List.mem_map.1 hx
      simp [hs b hb]
  unfold branchOf
  simp only [h, hb, ne_eq, not_true_eq_false, if_false, hn, if_true, es]
  have em : (List.map (fun b => List.drop 2 b) (List.map (fun b => ' ' :: ' ' :: b) bs)) = bs := by
    rw [List.map_map]
    exact (List.map_congr_left fun b _ => rfl).trans (List.map_id _)
  have ei : '(' ∈ (('*' :: ' ' :: '(' :: (note ++ [')'])) :: bs.map fun b => ' ' :: ' ' :: b).headD [] := by simp
  simp only [ei, if_true, List.drop_succ_cons, List.drop_zero, em]
  split <;> rfl

/-- git answers for a checkout whose closest tag is `pre ++ tag`. -/
structure Vers.AnswersFor (sys : System) (pre : Str) (text hash day time zone : Str) : Prop where
  dir : (runCommand sys (gits sys) ["rev-parse".toList, "--git-dir".toList]).2 = some 0
  describe : (runCommand sys (gits sys) ["describe".toList, "--tags".toList, "--dirty".toList, "--always".toList, "--long".toList,
    "--match".toList, pre ++ "[[:digit:]]*".toList]).1 = some text
  head : (runCommand sys (gits sys) ["rev-parse".toList, "HEAD".toList]).1 = some hash
  branch : ∃ b, branchOf (runCommand sys (gits sys)) = .ok b
  date : (runCommand sys (gits sys) ["show".toList, "-s".toList, "--format=%ci".toList, "HEAD".toList]).1 =
    some (day ++ [' '] ++ time ++ [' '] ++ zone)

/-- **C110**: configured for tags with a prefix, the prefix is not part of the version; a tag without it makes the version unknown. -/
theorem C110_prefix {sys : System} {pre text hash day time zone tag : Str} {n : Nat} {h : Str} (a : AnswersFor sys pre text hash day time zone)
    (ht : strip text = tag ++ ['-'] ++ decimal n ++ ['-', 'g'] ++ h) (hh : h ≠ [] ∧ ∀ c ∈ h, isHex c = true) (hne : tag ≠ []) (hl : '\n' ∉ tag)
    (hd : day ≠ [] ∧ ∀ a ∈ day, isSpace a = false) (hm : ∀ a ∈ time, isSpace a = false) (hz : zone ≠ [] ∧ ∀ a ∈ zone, isSpace a = false) :
    (∀ t, tag = pre ++ t → ∃ b, gitPieces sys pre = .ok (.pieces ⟨strip hash, h, b, false, some t, n, some (day ++ ['T'] ++ time ++ zone)⟩)) ∧
    (¬pre <+: tag → ∀ style, ∃ e, (do render (← gitPieces sys pre) style) = .ok ⟨"unknown".toList, some (strip hash), none, some e, none⟩) := by
  obtain ⟨b, hb⟩ := a.branch
  obtain ⟨t2, -, t3⟩ := isoDate_git hd hm hz
  have hp : parseDescribe (strip text) = some (tag, n, h) := by
    refine (C110_groups _ _ _ _ ?_).2 ⟨decimal n, ht, hne, hl, ⟨decimal_ne_nil _, decimal_digits _⟩, parseNat_decimal _, hh⟩
    rw [ht, List.getLast?_append_of_ne_nil _ hh.1]
    exact fun hc => absurd (hh.2 _ (List.mem_of_getLast? hc)) (by decide)
  have hs : "-dirty".toList.isSuffixOf (strip text) = false := by
    rw [Bool.eq_false_iff]
    intro hx
    obtain ⟨u, hu⟩ := List.isSuffixOf_iff_suffix.1 hx
    have : h.getLast? = some 'y' := by
      rw [← List.getLast?_append_of_ne_nil (tag ++ ['-'] ++ decimal n ++ ['-', 'g']) hh.1, ← ht, ← hu,
        List.getLast?_append_of_ne_nil _ (by decide)]
      decide
    exact absurd (hh.2 _ (List.mem_of_getLast? this)) (by decide)
  have hi : '-' ∈ strip text := by rw [ht]; simp
  have key : gitPieces sys pre = if ¬pre.isPrefixOf tag then
        .ok (.unreadable (strip hash) ("tag '".toList ++ tag ++ "' doesn't start with prefix '".toList ++ pre ++ "'".toList))
      else .ok (.pieces ⟨strip hash, h, b, false, some (tag.drop pre.length), n, some (day ++ ['T'] ++ time ++ zone)⟩) := by
    unfold gitPieces
    simp only [a.dir, a.head, a.date, hb, describeArgs, a.describe, hs, stripped, t2, bind, Except.bind, pure, Except.pure, t3, ne_eq,
      not_true_eq_false, if_false, Bool.false_eq_true, hi, if_true, hp]
  refine ⟨fun t et => ⟨b, ?_⟩, fun hx style => ?_⟩
  · rw [key, et, if_neg (by simp), List.drop_left]
  · rw [key, if_pos (by rwa [List.isPrefixOf_iff_prefix])]
    exact ⟨_, rfl⟩

/-- **C110**: what git says in a form that is not known leaves the version unknown in all styles, and known styles are the only ones. -/
theorem C110_unreadable (long e : Str) (p : Pieces) (style : String) :
    render (.unreadable long e) style = .ok ⟨"unknown".toList, some long, none, some e, none⟩ ∧
    (style ∉ styles → style ≠ "" → style ≠ "default" → render (.pieces p) style = .error .valueError) := by
  refine ⟨rfl, fun hs h1 h2 => ?_⟩
  simp only [styles, List.mem_cons, List.not_mem_nil, or_false, not_or] at hs
  unfold render
  simp only [h1, h2, or_self, if_false]
  split <;> first
    | exact absurd rfl hs.1
    | exact absurd rfl hs.2.1
    | exact absurd rfl hs.2.2.1
    | exact absurd rfl hs.2.2.2.1
    | exact absurd rfl hs.2.2.2.2.1
    | exact absurd rfl hs.2.2.2.2.2.1
    | exact absurd rfl hs.2.2.2.2.2.2.1
    | exact absurd rfl hs.2.2.2.2.2.2.2
    | rfl

/-- **C110**: the styles that count post-releases, for a commit behind a tag or changed. -/
theorem C110_post (p : Pieces) (t : Str) (ht : p.closestTag = some t) (hne : t ≠ []) (hp : '+' ∉ t) (hr : p.distance ≠ 0 ∨ p.dirty = true) :
    inStyle p "pep440-old" = .ok (t ++ ".post".toList ++ decimal p.distance ++ if p.dirty then ".dev0".toList else []) ∧
    inStyle p "pep440-post" =
      .ok (t ++ ".post".toList ++ decimal p.distance ++ (if p.dirty then ".dev0".toList else []) ++ "+g".toList ++ p.short) ∧
    inStyle p "pep440-post-branch" = .ok (t ++ ".post".toList ++ decimal p.distance ++
      (if p.branch = some "master".toList then [] else ".dev0".toList) ++ "+g".toList ++ p.short ++ if p.dirty then ".dirty".toList else []) := by
  have e : p.tag? = some t := by
    unfold Pieces.tag?
    rw [ht]
    cases t with
    | nil => exact absurd rfl hne
    | cons c t => rfl
  have e2 : "+g".toList = ['+', 'g'] := by decide
  have e3 : "g".toList = ['g'] := by decide
  obtain ⟨-, -, -, h4, h5, h6, -, -⟩ := style_eqs p
  rw [h4, h5, h6, renderPep440Old, renderPep440Post, renderPep440PostBranch, e]
  have ha : opt p.aside ".dev0" = if p.branch = some "master".toList then [] else ".dev0".toList := by
    unfold Pieces.aside opt
    by_cases hb : p.branch = some "master".toList <;> simp [hb]
  rw [ha]
  simp only [hr, if_true, plusOrDot, hp, if_false, opt, e2, e3]
  refine ⟨trivial, ?_, ?_⟩ <;> simp

/-- **C110**: without a tag, the versions are those of a tag `0`, and git's own forms are the abbreviation. -/
theorem C110_untagged (p : Pieces) (ht : p.closestTag = none) :
    inStyle p "pep440" = .ok ("0+untagged.".toList ++ decimal p.distance ++ ".g".toList ++ p.short ++ if p.dirty then ".dirty".toList else []) ∧
    inStyle p "pep440-pre" = .ok ("0.post0.dev".toList ++ decimal p.distance) ∧
    inStyle p "pep440-old" = .ok ("0.post".toList ++ decimal p.distance ++ if p.dirty then ".dev0".toList else []) ∧
    inStyle p "pep440-post" =
      .ok ("0.post".toList ++ decimal p.distance ++ (if p.dirty then ".dev0".toList else []) ++ "+g".toList ++ p.short) ∧
    inStyle p "pep440-post-branch" = .ok ("0.post".toList ++ decimal p.distance ++
      (if p.branch = some "master".toList then [] else ".dev0".toList) ++ "+g".toList ++ p.short ++ if p.dirty then ".dirty".toList else []) ∧
    inStyle p "git-describe" = .ok (p.short ++ if p.dirty then "-dirty".toList else []) ∧
    inStyle p "git-describe-long" = .ok (p.short ++ if p.dirty then "-dirty".toList else []) := by
  have e : p.tag? = none := by unfold Pieces.tag?; rw [ht]
  have ha : opt p.aside ".dev0" = if p.branch = some "master".toList then [] else ".dev0".toList := by
    unfold Pieces.aside opt
    by_cases hb : p.branch = some "master".toList <;> simp [hb]
  obtain ⟨h1, -, h3, h4, h5, h6, h7, h8⟩ := style_eqs p
  rw [h1, h3, h4, h5, h6, h7, h8, renderPep440, renderPep440Pre, renderPep440Old, renderPep440Post, renderPep440PostBranch, renderGitDescribe,
    renderGitDescribeLong, e]
  simp only [ha]
  exact ⟨rfl, trivial, rfl, rfl, rfl, rfl, rfl⟩

/-- **C110**: a tag that ends with `.post` is the post-release 0. -/
theorem C110_pre_bare (p : Pieces) (a : Str) (ha : 'p' ∉ a) (ht : p.closestTag = some (a ++ ".post".toList)) (hd : p.distance ≠ 0) :
    inStyle p "pep440-pre" = .ok (a ++ ".post1.dev".toList ++ decimal p.distance) := by
  obtain ⟨-, -, e3, -⟩ := style_eqs p
  have e : p.tag? = some (a ++ ".post".toList) := by
    unfold Pieces.tag?
    rw [ht]
    have : a ++ ".post".toList ≠ [] := by rw [post_text]; simp
    cases h : a ++ ".post".toList with
    | nil => exact absurd h this
    | cons c t => rfl
  have hs : splitPost (a ++ ".post".toList) = .ok (a, some 0) := by
    have := splitText_post (a ++ ".post".toList).length a [] ha (by simp) (by simp)
    rw [List.append_nil] at this
    unfold splitPost
    rw [this]
  have hx : a ++ ".post1.dev".toList = a ++ ".post".toList ++ decimal (0 + 1) ++ ".dev".toList := by
    have : ".post1.dev".toList = ".post".toList ++ decimal (0 + 1) ++ ".dev".toList := by decide +kernel
    rw [this]; simp
  rw [e3, renderPep440Pre, e, hx]
  simp only [hd, ne_eq, not_false_eq_true, if_true, hs, bind, Except.bind, pure, Except.pure]

/-- **C110**: what `ms --version` prints are two words, the second of which is the version. -/
theorem C110_shown (v : Str) (hne : v ≠ []) (h : ∀ a ∈ v, isSpace a = false) : words (shown v) = ["metsim".toList, v] := by
  have e : shown v = "metsim".toList ++ ' ' :: v := by
    have h1 : "metsim ".toList = ['m', 'e', 't', 's', 'i', 'm', ' '] := by decide +kernel
    have h2 : "metsim".toList = ['m', 'e', 't', 's', 'i', 'm'] := by decide +kernel
    unfold shown
    rw [h1, h2]
    simp only [List.cons_append, List.nil_append]
  rw [e, words_word _ _ (by decide) (by decide) (by decide)]
  have := words_word v [] (c := ' ') h (by decide) hne
  rw [words_back v [' '] (by decide)] at this
  rw [this]
  rfl

/-! ### Archives -/

/-- **C111**: with a prefix of tags, the version of an archive is one of the tags without its prefix. -/
theorem C111_prefix (kw : Keywords) (pre : Str) (v : Versions) (h : versionsFromKeywords kw pre = .ok v) (he : v.error = none) :
    ∃ refnames, kw.refnames = some refnames ∧ pre ++ v.version ∈ tagsOf (strip refnames) ∧ startsDigit v.version = true ∧
      ∀ t, pre ++ t ∈ tagsOf (strip refnames) → startsDigit t = true → pre ++ v.version ≤ pre ++ t := by
  unfold versionsFromKeywords at h
  cases hr : kw.refnames with
  | none => rw [hr] at h; simp [bind, Except.bind] at h
  | some refnames =>
    refine ⟨refnames, rfl, ?_⟩
    rw [hr] at h
    obtain ⟨r, hr', h⟩ := Verif.bind_ok.1 h
    cases hr'
    obtain ⟨date, h⟩ : ∃ date : Option Str, (if "$Format".toList.isPrefixOf (strip refnames) then .error .notThisMethod
        else
          match ((tagsOf (strip refnames)).insertionSort (· ≤ ·)).find? fun r => pre.isPrefixOf r && startsDigit (r.drop pre.length) with
          | some r => do
            let full ← required kw.full
            pure ⟨r.drop pre.length, some (strip full), some false, none, date⟩
          | none => do
            let full ← required kw.full
            pure ⟨"0+unknown".toList, some (strip full), some false, some "no suitable tags".toList, none⟩) = Except.ok v := by
      dsimp only at h
      cases hd : kw.date with
      | none => rw [hd] at h; obtain ⟨date, -, h⟩ := Verif.bind_ok.1 h; exact ⟨date, h⟩
      | some d => rw [hd] at h; obtain ⟨date, -, h⟩ := Verif.bind_ok.1 h; exact ⟨date, h⟩
    split at h
    · cases h
    split at h
    · rename_i r hf
      obtain ⟨full, -, h⟩ := Verif.bind_ok.1 h
      cases h
      obtain ⟨h1, h2, h3⟩ := find_sorted.1 _ hf
      rw [Bool.and_eq_true, List.isPrefixOf_iff_prefix] at h2
      obtain ⟨⟨u, rfl⟩, h2⟩ := h2
      rw [List.drop_left] at h2 ⊢
      refine ⟨h1, h2, fun t ht hs => h3 _ ht ?_⟩
      rw [List.drop_left, hs, Bool.and_true, List.isPrefixOf_iff_prefix]
      exact List.prefix_append _ _
    · obtain ⟨full, -, h⟩ := Verif.bind_ok.1 h
      cases h
      simp at he

/-- **C111**: an archive whose date is empty cannot be imported at all; other ways to find the version are not tried. -/
theorem C111_no_date (cfg : Cfg) (refnames : Str) (full : Option Str) (sys : System) (file : Option Str) :
    getVersions cfg ⟨some refnames, full, some []⟩ sys file = .error .indexError := by
  have e : versionsFromKeywords ⟨some refnames, full, some []⟩ cfg.tagPrefix = .error .indexError := by
    unfold versionsFromKeywords
    rfl
  unfold getVersions
  rw [e]
  rfl

end Verif.Props
