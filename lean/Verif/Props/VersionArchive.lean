import Verif.Props.Version

/-!
# C111: the version of an archive, and of a directory
-/

namespace Verif.Props

open Txt Version

namespace Vers

/-- A name in the list of `git log --decorate`. -/
def Named (d : Str) : Prop := d ≠ [] ∧ ',' ∉ d ∧ (∀ c, d.head? = some c → isSpace c = false ∧ c ≠ '(' ∧ c ≠ ')') ∧
  ∀ c, d.getLast? = some c → isSpace c = false ∧ c ≠ '(' ∧ c ≠ ')'

/-- `%d`: ` (HEAD -> master, tag: 1.0)`. -/
def decorated (names : List Str) : Str := " (".toList ++ (", ".toList).intercalate names ++ ")".toList

/-- The keywords git puts into an archive of a commit. -/
def expanded (names : List Str) (c : Checkout) : Keywords :=
  ⟨some (decorated names), some c.hash, some (c.day ++ [' '] ++ c.time ++ [' '] ++ c.zone)⟩

theorem comma : ", ".toList = [',', ' '] := by decide

theorem inter_cons (d : Str) (e : Str) (names : List Str) :
    (", ".toList).intercalate (d :: e :: names) = d ++ ',' :: ' ' :: (", ".toList).intercalate (e :: names) := by
  rw [comma]; simp [List.intercalate]

theorem inter_one (d : Str) : (", ".toList).intercalate [d] = d := by simp [List.intercalate]

theorem strip_name {d : Str} (h : Named d) : strip d = d ∧ strip (' ' :: d) = d := by
  have e1 := strip_of_decomp [] d [] (by simp) (by simp) (fun c hc => (h.2.2.1 c hc).1) (fun c hc => (h.2.2.2 c hc).1) h.1
  have e2 := strip_of_decomp [' '] d [] (by decide) (by simp) (fun c hc => (h.2.2.1 c hc).1) (fun c hc => (h.2.2.2 c hc).1) h.1
  exact ⟨by simpa using e1, by simpa using e2⟩

/-- The names separated by commas, one with a blank in front. -/
theorem split_names (d : Str) (names : List Str) (h : ∀ x ∈ d :: names, Named x) (pre : Str) (hp : pre = [] ∨ pre = [' ']) :
    (splitOn ',' (pre ++ (", ".toList).intercalate (d :: names))).map strip = d :: names := by
  induction names generalizing d pre with
  | nil =>
    have hd := h d (by simp)
    rw [inter_one, splitOn_none]
    · rcases hp with rfl | rfl
      · simp [(strip_name hd).1]
      · simp [(strip_name hd).2]
    · rcases hp with rfl | rfl
      · simpa using hd.2.1
      · simp [hd.2.1]
  | cons e names ih =>
    have hd := h d (by simp)
    rw [inter_cons, ← List.append_assoc, splitOn_append]
    · have := ih e (fun x hx => h x (by simp [List.mem_cons.1 hx])) [' '] (.inr rfl)
      rw [List.map_cons]
      simp only [List.singleton_append] at this
      rw [this]
      rcases hp with rfl | rfl
      · simp [(strip_name hd).1]
      · simp [(strip_name hd).2]
    · rcases hp with rfl | rfl
      · simpa using hd.2.1
      · simp [hd.2.1]

theorem inter_ends (d : Str) (names : List Str) (h : ∀ x ∈ d :: names, Named x) :
    (", ".toList).intercalate (d :: names) ≠ [] ∧
    (∀ c, ((", ".toList).intercalate (d :: names)).head? = some c → isSpace c = false ∧ c ≠ '(' ∧ c ≠ ')') ∧
    ∀ c, ((", ".toList).intercalate (d :: names)).getLast? = some c → isSpace c = false ∧ c ≠ '(' ∧ c ≠ ')' := by
  induction names generalizing d with
  | nil =>
    have hd := h d (by simp)
    rw [inter_one]
    exact ⟨hd.1, hd.2.2.1, hd.2.2.2⟩
  | cons e names ih =>
    have hd := h d (by simp)
    obtain ⟨i1, i2, i3⟩ := ih e fun x hx => h x (by simp [List.mem_cons.1 hx])
    rw [inter_cons]
    refine ⟨by simp, ?_, ?_⟩
    · intro c hc
      obtain ⟨x, d', rfl⟩ := List.exists_cons_of_ne_nil hd.1
      exact hd.2.2.1 c (by simpa using hc)
    · intro c hc
      apply i3 c
      have e2 : d ++ ',' :: ' ' :: (", ".toList).intercalate (e :: names) = (d ++ [',', ' ']) ++ (", ".toList).intercalate (e :: names) := by simp
      rw [e2, List.getLast?_append_of_ne_nil _ i1] at hc
      exact hc

/-- What is left of the decoration. -/
theorem decorated_names (d : Str) (names : List Str) (h : ∀ x ∈ d :: names, Named x) :
    "$Format".toList.isPrefixOf (strip (decorated (d :: names))) = false ∧
    (splitOn ',' (stripBy (fun c => c == '(' || c == ')') (strip (decorated (d :: names))))).map strip = d :: names := by
  obtain ⟨i1, i2, i3⟩ := inter_ends d names h
  have e0 : decorated (d :: names) = [' '] ++ ('(' :: (", ".toList).intercalate (d :: names) ++ [')']) ++ [] := by
    simp [decorated]
  have e1 : strip (decorated (d :: names)) = '(' :: (", ".toList).intercalate (d :: names) ++ [')'] := by
    rw [e0]
    refine strip_of_decomp _ _ _ (by decide) (by simp) ?_ ?_ (by simp)
    · intro c hc
      simp only [List.cons_append, List.head?_cons, Option.some.injEq] at hc
      rw [← hc]; decide
    · intro c hc
      rw [List.getLast?_append_of_ne_nil _ (by simp)] at hc
      simp only [List.getLast?_singleton, Option.some.injEq] at hc
      rw [← hc]; decide
  rw [e1]
  have e2 := stripBy_of_decomp (fun c => c == '(' || c == ')') ['('] _ [')'] (by simp) (by simp)
    (fun c hc => by have := i2 c hc; simp [this]) (fun c hc => by have := i3 c hc; simp [this]) i1
  refine ⟨?_, ?_⟩
  · rw [show "$Format".toList = '$' :: "Format".toList by decide]
    rfl
  · have e3 : '(' :: (", ".toList).intercalate (d :: names) ++ [')'] = ['('] ++ (", ".toList).intercalate (d :: names) ++ [')'] := rfl
    rw [e3, e2]
    simpa using split_names d names h [] (.inl rfl)

theorem find_sorted {l : List Str} {p : Str → Bool} :
    (∀ v, (l.insertionSort (· ≤ ·)).find? p = some v → v ∈ l ∧ p v = true ∧ ∀ t ∈ l, p t = true → v ≤ t) ∧
    ((l.insertionSort (· ≤ ·)).find? p = none → ∀ t ∈ l, p t = false) := by
  constructor
  · intro v hv
    obtain ⟨h1, a, b, e, h2⟩ := List.find?_eq_some_iff_append.1 hv
    have hs := List.pairwise_insertionSort (· ≤ ·) l
    have hm : ∀ t, t ∈ l ↔ t ∈ a ++ v :: b := fun t => by rw [← e]; exact (List.mem_insertionSort _).symm
    refine ⟨(hm v).2 (by simp), h1, ?_⟩
    intro t ht hp
    rcases List.mem_append.1 ((hm t).1 ht) with h | h
    · have := h2 t h
      simp [hp] at this
    · rcases List.mem_cons.1 h with rfl | h
      · exact List.le_refl _
      · rw [e] at hs
        exact (List.pairwise_cons.1 (List.pairwise_append.1 hs).2.1).1 t h
  · intro h t ht
    have := List.find?_eq_none.1 h t ((List.mem_insertionSort _).2 ht)
    simpa using this

/-- The tags git lists. -/
def listed (names : List Str) : List Str :=
  (names.filter fun r => "tag: ".toList.isPrefixOf r).map fun r => r.drop "tag: ".toList.length

theorem mem_listed {names : List Str} (t : Str) : t ∈ listed names ↔ "tag: ".toList ++ t ∈ names := by
  rw [listed, List.mem_map]
  constructor
  · rintro ⟨r, hr, rfl⟩
    obtain ⟨h1, h2⟩ := List.mem_filter.1 hr
    obtain ⟨u, rfl⟩ := List.isPrefixOf_iff_prefix.1 h2
    rwa [List.drop_left]
  · intro ht
    refine ⟨_, List.mem_filter.2 ⟨ht, List.isPrefixOf_iff_prefix.2 (List.prefix_append _ _)⟩, ?_⟩
    rw [List.drop_left]

theorem tags_of (d : Str) (names : List Str) (h : ∀ x ∈ d :: names, Named x) :
    tagsOf (strip (decorated (d :: names))) =
      if (listed (d :: names)).isEmpty then (d :: names).filter fun r => r.any isDigit else listed (d :: names) := by
  unfold tagsOf
  simp only [(decorated_names d names h).2]
  rfl

/-- The version of an archive, from the tags in question. -/
theorem of_tags (d : Str) (names : List Str) (h : ∀ x ∈ d :: names, Named x) {c : Checkout} (g : Good c) (sys : System) (file : Option Str) :
    getVersions {} (expanded (d :: names) c) sys file =
      match ((tagsOf (strip (decorated (d :: names)))).insertionSort (· ≤ ·)).find? startsDigit with
      | some v => .ok ⟨v, some c.hash, some false, none, some (c.day ++ ['T'] ++ c.time ++ c.zone)⟩
      | none => .ok ⟨"0+unknown".toList, some c.hash, some false, some "no suitable tags".toList, none⟩ := by
  have hd := isoDate_git g.day g.time g.zone
  have hh := (strip_line (t := c.hash) (by simpa using head_hex g.hash []) (by simpa using last_hex g.hash []) g.hash.1).2
  have f1 := (decorated_names d names h).1
  have key : versionsFromKeywords (expanded (d :: names) c) [] =
      match ((tagsOf (strip (decorated (d :: names)))).insertionSort (· ≤ ·)).find? startsDigit with
      | some v => .ok ⟨v, some c.hash, some false, none, some (c.day ++ ['T'] ++ c.time ++ c.zone)⟩
      | none => .ok ⟨"0+unknown".toList, some c.hash, some false, some "no suitable tags".toList, none⟩ := by
    have e : (fun r : Str => ([] : Str).isPrefixOf r && startsDigit (r.drop 0)) = startsDigit := by
      funext r; simp
    unfold versionsFromKeywords expanded
    simp only [hd.2.2, Except.map, bind, Except.bind, pure, Except.pure, f1, Bool.false_eq_true, if_false, List.length_nil, required, hh]
    rw [e]
    generalize List.find? startsDigit _ = o
    cases o with
    | none => rfl
    | some v => simp only [List.drop_zero]
  unfold getVersions
  rw [show (({} : Cfg).tagPrefix) = [] from rfl, key]
  generalize List.find? startsDigit _ = o
  cases o with
  | none => exact orElse_ok _ _
  | some v => exact orElse_ok _ _

end Vers

open Vers

/-- **C111**: an archive of a commit with tags that begin with a digit has the first of these as its version, as a dictionary would sort
them; what git and the directory say does not matter. -/
theorem C111_archive (names : List Str) (h : ∀ x ∈ names, Named x) {c : Checkout} (g : Good c) (sys : System) (file : Option Str)
    (hv : ∃ t, "tag: ".toList ++ t ∈ names ∧ startsDigit t = true) :
    ∃ v, "tag: ".toList ++ v ∈ names ∧ startsDigit v = true ∧ (∀ t, "tag: ".toList ++ t ∈ names → startsDigit t = true → v ≤ t) ∧
      getVersions {} (expanded names c) sys file =
        .ok ⟨v, some c.hash, some false, none, some (c.day ++ ['T'] ++ c.time ++ c.zone)⟩ := by
  obtain ⟨t, ht, hs⟩ := hv
  obtain ⟨d, rest, rfl⟩ : ∃ d rest, names = d :: rest := by
    cases names with
    | nil => simp at ht
    | cons d rest => exact ⟨d, rest, rfl⟩
  have hl : tagsOf (strip (decorated (d :: rest))) = listed (d :: rest) := by
    rw [tags_of d rest h, if_neg]
    have := (mem_listed t).2 ht
    intro he
    rw [List.isEmpty_iff.1 he] at this
    simp at this
  obtain ⟨k1, k2⟩ := find_sorted (l := listed (d :: rest)) (p := startsDigit)
  rw [of_tags d rest h g, hl]
  cases hf : ((listed (d :: rest)).insertionSort (· ≤ ·)).find? startsDigit with
  | none =>
    have := k2 hf t ((mem_listed t).2 ht)
    rw [hs] at this
    exact absurd this (by simp)
  | some v =>
    obtain ⟨m1, m2, m3⟩ := k1 v hf
    exact ⟨v, (mem_listed v).1 m1, m2, fun t ht hs => m3 t ((mem_listed t).2 ht) hs, rfl⟩

/-- **C111**: an archive of a commit with a single tag that begins with a digit has that version. -/
theorem C111_single (names : List Str) (h : ∀ x ∈ names, Named x) {c : Checkout} (g : Good c) (sys : System) (file : Option Str) (v : Str)
    (hm : "tag: ".toList ++ v ∈ names) (hv : startsDigit v = true) (hu : ∀ t, "tag: ".toList ++ t ∈ names → startsDigit t = true → t = v) :
    Version.version (expanded names c) sys file = .ok v := by
  obtain ⟨u, h1, h2, -, h4⟩ := C111_archive names h g sys file ⟨v, hm, hv⟩
  unfold Version.version
  rw [h4, hu u h1 h2]
  rfl

/-- **C111**: if none of the tags begins with a digit, the version is unknown, and the branches are not looked at. -/
theorem C111_other_tags (names : List Str) (h : ∀ x ∈ names, Named x) {c : Checkout} (g : Good c) (sys : System) (file : Option Str)
    (ht : ∃ t, "tag: ".toList ++ t ∈ names) (hv : ∀ t, "tag: ".toList ++ t ∈ names → startsDigit t = false) :
    getVersions {} (expanded names c) sys file =
      .ok ⟨"0+unknown".toList, some c.hash, some false, some "no suitable tags".toList, none⟩ := by
  obtain ⟨t, ht⟩ := ht
  obtain ⟨d, rest, rfl⟩ : ∃ d rest, names = d :: rest := by
    cases names with
    | nil => simp at ht
    | cons d rest => exact ⟨d, rest, rfl⟩
  have hl : tagsOf (strip (decorated (d :: rest))) = listed (d :: rest) := by
    rw [tags_of d rest h, if_neg]
    have := (mem_listed t).2 ht
    intro he
    rw [List.isEmpty_iff.1 he] at this
    simp at this
  obtain ⟨k1, -⟩ := find_sorted (l := listed (d :: rest)) (p := startsDigit)
  rw [of_tags d rest h g, hl]
  cases hf : ((listed (d :: rest)).insertionSort (· ≤ ·)).find? startsDigit with
  | none => rfl
  | some v =>
    obtain ⟨m1, m2, -⟩ := k1 v hf
    rw [hv v ((mem_listed v).1 m1)] at m2
    exact absurd m2 (by simp)

/-- **C111**: without tags, a branch that begins with a digit is taken for a version; otherwise the version is unknown. -/
theorem C111_no_tags (names : List Str) (h : ∀ x ∈ names, Named x) {c : Checkout} (g : Good c) (sys : System) (file : Option Str)
    (hne : names ≠ []) (ht : ∀ t, "tag: ".toList ++ t ∉ names) :
    (∃ v ∈ names, startsDigit v = true ∧ (∀ t ∈ names, startsDigit t = true → v ≤ t) ∧
      getVersions {} (expanded names c) sys file =
        .ok ⟨v, some c.hash, some false, none, some (c.day ++ ['T'] ++ c.time ++ c.zone)⟩) ∨
    ((∀ v ∈ names, startsDigit v = false) ∧ getVersions {} (expanded names c) sys file =
      .ok ⟨"0+unknown".toList, some c.hash, some false, some "no suitable tags".toList, none⟩) := by
  obtain ⟨d, rest, rfl⟩ := List.exists_cons_of_ne_nil hne
  have hl : tagsOf (strip (decorated (d :: rest))) = (d :: rest).filter fun r => r.any isDigit := by
    rw [tags_of d rest h, if_pos]
    rw [List.isEmpty_iff, List.eq_nil_iff_forall_not_mem]
    intro t hm
    exact ht t ((mem_listed t).1 hm)
  have hany : ∀ r : Str, startsDigit r = true → r.any isDigit = true := by
    intro r hr
    cases r with
    | nil => exact absurd hr (by decide)
    | cons x r => simp [show isDigit x = true from hr]
  obtain ⟨k1, k2⟩ := find_sorted (l := (d :: rest).filter fun r => r.any isDigit) (p := startsDigit)
  rw [of_tags d rest h g, hl]
  cases hf : (((d :: rest).filter fun r => r.any isDigit).insertionSort (· ≤ ·)).find? startsDigit with
  | none =>
    refine .inr ⟨fun v hv => ?_, rfl⟩
    by_contra hc
    have hc : startsDigit v = true := by simpa using hc
    have := k2 hf v (List.mem_filter.2 ⟨hv, hany v hc⟩)
    rw [hc] at this
    exact absurd this (by simp)
  | some v =>
    obtain ⟨m1, m2, m3⟩ := k1 v hf
    exact .inl ⟨v, (List.mem_filter.1 m1).1, m2, fun t ht hs => m3 t (List.mem_filter.2 ⟨ht, hany t hs⟩) hs, rfl⟩

/-- **C111**: a shorter version is preferred to its continuations: `2.0` to `2.0rc1`. -/
theorem C111_shorter (v t : Str) : v ≤ v ++ t := by
  induction v with
  | nil => exact List.nil_le t
  | cons c v ih => exact List.cons_le_cons_iff.2 (.inr ⟨rfl, ih⟩)

/-! ### Directories -/

namespace Vers

/-- An absolute path. -/
def path (dirs : List Str) : Str := if dirs = [] then ['/'] else (dirs.map fun d => '/' :: d).flatten

/-- Names of files. -/
def FileNames (dirs : List Str) : Prop := ∀ d ∈ dirs, d ≠ [] ∧ '/' ∉ d

theorem path_snoc (dirs : List Str) (d : Str) : path (dirs ++ [d]) = (dirs.map fun d => '/' :: d).flatten ++ '/' :: d := by
  simp [path]

theorem basename_join (a d : Str) (h : '/' ∉ d) : basename (a ++ '/' :: d) = d := by
  unfold basename
  rw [List.reverse_append, List.reverse_cons, List.append_assoc, List.takeWhile_append_of_pos]
  · simp
  · intro c hc
    have : c ≠ '/' := by rintro rfl; exact h (List.mem_reverse.1 hc)
    simpa using this

theorem dirname_join (a d : Str) (h : '/' ∉ d) : dirname (a ++ '/' :: d) =
    if (a ++ ['/']).all (· == '/') then a ++ ['/'] else ((a ++ ['/']).reverse.dropWhile (· == '/')).reverse := by
  have e : ((a ++ '/' :: d).reverse.dropWhile (· != '/')).reverse = a ++ ['/'] := by
    rw [List.reverse_append, List.reverse_cons, List.append_assoc, List.dropWhile_append_of_pos]
    · simp
    · intro c hc
      have : c ≠ '/' := by rintro rfl; exact h (List.mem_reverse.1 hc)
      simpa using this
  unfold dirname
  simp only [e]

theorem dirname_path (dirs : List Str) (d : Str) (hd : FileNames (dirs ++ [d])) : dirname (path (dirs ++ [d])) = path dirs := by
  rw [path_snoc, dirname_join _ _ (hd d (by simp)).2]
  rcases List.eq_nil_or_concat dirs with rfl | ⟨l, e, rfl⟩
  · decide
  · have he := hd e (by simp)
    have e1 : ((l.concat e).map fun d => '/' :: d).flatten = (l.map fun d => '/' :: d).flatten ++ '/' :: e := by simp
    rw [if_neg]
    · rw [List.reverse_append, List.reverse_singleton, List.singleton_append, List.dropWhile_cons_of_pos (by decide), e1, List.reverse_append,
        List.reverse_cons, List.append_assoc]
      obtain ⟨x, s, hx⟩ := List.exists_cons_of_ne_nil (show e.reverse ≠ [] by simpa using he.1)
      have hx' : x ≠ '/' := by
        rintro rfl
        exact he.2 (List.mem_reverse.1 (by rw [hx]; simp))
      rw [hx, List.cons_append, List.dropWhile_cons_of_neg (by simpa using hx'), ← List.cons_append, ← hx]
      rw [List.concat_eq_append, path_snoc]
      simp
    · intro hall
      obtain ⟨x, s, rfl⟩ := List.exists_cons_of_ne_nil he.1
      have := List.all_eq_true.1 hall x (by rw [e1]; simp)
      exact he.2 (by simp [show x = '/' by simpa using this])

theorem dirname_root : dirname (path []) = path [] := by decide

/-- The names of the directories from the root of the source tree upwards. -/
theorem search_up (pre : Str) (hp : pre ≠ []) (n : Nat) (dirs : List Str) (hd : FileNames dirs) : searchUp pre n (path dirs) =
    match (dirs.reverse.take n).find? fun d => pre.isPrefixOf d with
    | some d => .ok ⟨d.drop pre.length, none, some false, none, none⟩
    | none => .error .notThisMethod := by
  induction n generalizing dirs with
  | zero => simp [searchUp]
  | succ n ih =>
    rcases List.eq_nil_or_concat dirs with rfl | ⟨l, d, rfl⟩
    · have e : basename (path []) = [] := by decide
      have : pre.isPrefixOf ([] : Str) = false := by
        cases pre with
        | nil => exact absurd rfl hp
        | cons _ _ => rfl
      rw [searchUp]
      simp only [e, this, Bool.false_eq_true, if_false, dirname_root]
      simpa using ih [] hd
    · rw [List.concat_eq_append] at hd ⊢
      rw [searchUp, dirname_path l d hd, path_snoc, basename_join _ _ (hd d (by simp)).2]
      simp only [List.reverse_append, List.reverse_singleton, List.singleton_append, List.take_succ_cons]
      by_cases h : pre.isPrefixOf d = true
      · simp [h]
      · rw [List.find?_cons_of_neg (by simpa using h)]
        simp only [h, if_false, Bool.false_eq_true]
        exact ih l fun x hx => hd x (by simp [hx])

end Vers

/-- **C111**: without keywords and git, the version is what follows `metsim-` in the name of the root of the source tree, of the directory it
lies in or of the next one; otherwise it is unknown. -/
theorem C111_directory (sys : System) (hg : (runCommand sys (gits sys) ["rev-parse".toList, "--git-dir".toList]).2 ≠ some 0) (dirs : List Str)
    (hd : FileNames dirs) :
    getVersions {} unexpanded sys (some (path (dirs ++ ["metsim".toList, "_version.py".toList]))) =
      match (dirs.reverse.take 3).find? fun d => "metsim-".toList.isPrefixOf d with
      | some d => .ok ⟨d.drop 7, none, some false, none, none⟩
      | none => .ok ⟨"0+unknown".toList, none, none, some "unable to compute version".toList, none⟩ := by
  have hd2 : FileNames (dirs ++ ["metsim".toList, "_version.py".toList]) := by
    intro x hx
    simp only [List.mem_append, List.mem_cons, List.not_mem_nil, or_false] at hx
    rcases hx with hx | rfl | rfl
    · exact hd x hx
    · decide
    · decide
  have hroot : (splitOn '/' ({} : Cfg).versionfileSource).foldl (fun r _ => dirname r) (path (dirs ++ ["metsim".toList, "_version.py".toList])) =
      path dirs := by
    have e : splitOn '/' ({} : Cfg).versionfileSource = ["metsim".toList, "_version.py".toList] := by decide
    rw [e]
    simp only [List.foldl_cons, List.foldl_nil]
    have e2 : dirs ++ ["metsim".toList, "_version.py".toList] = (dirs ++ ["metsim".toList]) ++ ["_version.py".toList] := by simp
    rw [e2] at hd2 ⊢
    rw [dirname_path _ _ hd2, dirname_path _ _ fun x hx => hd2 x (by simp only [List.mem_append] at hx ⊢; exact .inl hx)]
  have hgit : gitPieces sys [] = .error .notThisMethod := by
    unfold gitPieces
    rw [if_pos hg]
  unfold getVersions
  rw [show (({} : Cfg).tagPrefix) = [] from rfl, not_keywords, orElse_not, hgit]
  dsimp only
  rw [hroot, show (do render (← (Except.error .notThisMethod : Except Err Found)) ({} : Cfg).style) = (.error .notThisMethod : Except Err Versions) from rfl, orElse_not,
    if_neg (by decide), versionsFromParentdir, search_up _ (by decide) 3 dirs hd]
  have e8 : "metsim-".toList.length = 7 := by decide
  rw [e8]
  split <;> rfl

/-- **C111**: an archive of a commit nothing points to has no version, but its hash. -/
theorem C111_undecorated {c : Checkout} (g : Good c) (sys : System) (file : Option Str) :
    getVersions {} ⟨some [], some c.hash, some (c.day ++ [' '] ++ c.time ++ [' '] ++ c.zone)⟩ sys file =
      .ok ⟨"0+unknown".toList, some c.hash, some false, some "no suitable tags".toList, none⟩ := by
  have hd := isoDate_git g.day g.time g.zone
  have hh := (strip_line (t := c.hash) (by simpa using head_hex g.hash []) (by simpa using last_hex g.hash []) g.hash.1).2
  have e1 : "$Format".toList.isPrefixOf (strip []) = false := by decide
  have e2 : tagsOf (strip []) = [] := by decide
  have key : versionsFromKeywords ⟨some [], some c.hash, some (c.day ++ [' '] ++ c.time ++ [' '] ++ c.zone)⟩ [] =
      .ok ⟨"0+unknown".toList, some c.hash, some false, some "no suitable tags".toList, none⟩ := by
    unfold versionsFromKeywords
    simp only [hd.2.2, Except.map, bind, Except.bind, pure, Except.pure, e1, e2, Bool.false_eq_true, if_false, List.insertionSort_nil, List.find?_nil,
      required, hh]
  unfold getVersions
  rw [show (({} : Cfg).tagPrefix) = [] from rfl, key, orElse_ok]

namespace Vers

theorem branch_error {git : List Str → Option Str × Option Int} {e : Err} (h : branchOf git = .error e) : e = .notThisMethod := by
  unfold branchOf at h
  dsimp only at h
  split at h
  · cases h; rfl
  · split at h
    · cases h; rfl
    · split at h
      · split at h
        · cases h; rfl
        · split at h
          · cases h; rfl
          · split at h <;> split at h <;> cases h
      · cases h

theorem splitlines_ne (s : Str) (h : s ≠ []) : splitlines s ≠ [] := by
  unfold splitlines
  split
  · exact absurd rfl h
  · simp
  · split
    · simp
    · split <;> simp

theorem isoDate_ok {s : Str} (h : s ≠ []) : ∃ d, isoDate s = .ok d := by
  unfold isoDate
  cases e : (splitlines s).getLast? with
  | none => exact absurd (List.getLast?_eq_none_iff.1 e) (splitlines_ne s h)
  | some l => exact ⟨_, rfl⟩

theorem pieces_error {sys : System} {out : Str} (h1 : (runCommand sys (gits sys) ["show".toList, "-s".toList, "--format=%ci".toList, "HEAD".toList]).1 =
    some out) (h2 : strip out ≠ []) (h3 : (runCommand sys (gits sys) ["rev-list".toList, "HEAD".toList, "--left-right".toList]).1.isSome)
    {pre : Str} {e : Err} (h : gitPieces sys pre = .error e) : e = .notThisMethod := by
  obtain ⟨l, hl⟩ := Option.isSome_iff_exists.1 h3
  obtain ⟨d, hd⟩ := isoDate_ok h2
  unfold gitPieces at h
  simp only [h1, hl, stripped] at h
  split at h
  · cases h; rfl
  · cases hx : (runCommand sys (gits sys) (describeArgs pre)).1 with
    | none => rw [hx] at h; cases h; rfl
    | some x =>
      cases hy : (runCommand sys (gits sys) ["rev-parse".toList, "HEAD".toList]).1 with
      | none => rw [hx, hy] at h; cases h; rfl
      | some y =>
        cases hb : branchOf (runCommand sys (gits sys)) with
        | error e' =>
          rw [hx, hy, hb] at h
          cases h
          exact branch_error hb
        | ok b =>
          exfalso
          rw [hx, hy, hb] at h
          simp only [bind, Except.bind, pure, Except.pure, hd] at h
          by_cases hm : '-' ∈ (if "-dirty".toList.isSuffixOf (strip x) = true then List.take ((strip x).length - 6) (strip x) else strip x)
          · rw [if_pos hm] at h
            split at h
            · cases h
            · split at h <;> cases h
          · rw [if_neg hm] at h
            cases h

theorem search_cases (pre : Str) (n : Nat) (root : Str) :
    (∃ v, searchUp pre n root = .ok v) ∨ searchUp pre n root = .error .notThisMethod := by
  induction n generalizing root with
  | zero => exact .inr rfl
  | succ n ih =>
    rw [searchUp]
    split
    · exact .inl ⟨_, rfl⟩
    · exact ih _

theorem getVersions_rest {sys : System} {file : Option Str}
    (h : ∀ e, gitPieces sys [] = .error e → e = .notThisMethod) : ∃ v, getVersions {} unexpanded sys file = .ok v := by
  unfold getVersions
  rw [show (({} : Cfg).tagPrefix) = [] from rfl, not_keywords, orElse_not]
  cases file with
  | none => exact ⟨_, rfl⟩
  | some file =>
    dsimp only
    generalize List.foldl _ file _ = root
    cases hg : gitPieces sys [] with
    | ok f =>
      cases f with
      | unreadable l e => exact ⟨_, rfl⟩
      | pieces p => exact ⟨_, rfl⟩
    | error e =>
      obtain rfl := h e hg
      rw [show (do render (← (Except.error .notThisMethod : Except Err Found)) ({} : Cfg).style) = (.error .notThisMethod : Except Err Versions)
        from rfl, orElse_not, if_neg (by decide), versionsFromParentdir]
      rcases search_cases ({} : Cfg).parentdirPrefix 3 root with ⟨v, hv⟩ | hv
      · rw [hv]; exact ⟨_, orElse_ok _ _⟩
      · rw [hv, orElse_not]; exact ⟨_, rfl⟩

end Vers

/-- **C111**: the version can always be found, whatever git answers otherwise, if it lists commits and knows the date of the last one. -/
theorem C111_ends {sys : System} {out : Str} (file : Option Str)
    (h1 : (runCommand sys (gits sys) ["show".toList, "-s".toList, "--format=%ci".toList, "HEAD".toList]).1 = some out) (h2 : strip out ≠ [])
    (h3 : (runCommand sys (gits sys) ["rev-list".toList, "HEAD".toList, "--left-right".toList]).1.isSome) :
    ∃ v, getVersions {} unexpanded sys file = .ok v :=
  getVersions_rest fun _ h => pieces_error h1 h2 h3 h

/-- **C111**: it can always be found where git cannot be used. -/
theorem C111_without_git {sys : System} (hg : (runCommand sys (gits sys) ["rev-parse".toList, "--git-dir".toList]).2 ≠ some 0)
    (file : Option Str) : ∃ v, getVersions {} unexpanded sys file = .ok v := by
  apply getVersions_rest
  intro e h
  unfold gitPieces at h
  rw [if_pos hg] at h
  cases h
  rfl

/-! ### Examples -/

/-- `1.10` is in front of `1.9`. -/
example : Version.version (expanded ["HEAD -> master".toList, "tag: v2".toList, "tag: 1.9".toList, "tag: 1.10".toList] sample) sampleSys none =
    .ok "1.10".toList := by decide +kernel

/-- The names in the example are such names. -/
example : ∀ d ∈ ["HEAD -> master".toList, "tag: v2".toList, "tag: 1.9".toList, "tag: 1.10".toList], Named d := by
  have h : ∀ x ∈ ["HEAD -> master".toList, "tag: v2".toList, "tag: 1.9".toList, "tag: 1.10".toList], ∃ a m b, x = a :: (m ++ [b]) ∧
      ',' ∉ x ∧ isSpace a = false ∧ a ≠ '(' ∧ a ≠ ')' ∧ isSpace b = false ∧ b ≠ '(' ∧ b ≠ ')' := by
    intro x hx
    simp only [List.mem_cons, List.not_mem_nil, or_false] at hx
    rcases hx with rfl | rfl | rfl | rfl
    · exact ⟨'H', "EAD -> maste".toList, 'r', by decide⟩
    · exact ⟨'t', "ag: v".toList, '2', by decide⟩
    · exact ⟨'t', "ag: 1.".toList, '9', by decide⟩
    · exact ⟨'t', "ag: 1.1".toList, '0', by decide⟩
  intro d hd
  obtain ⟨a, m, b, rfl, h1, h2, h3, h4, h5, h6, h7⟩ := h d hd
  refine ⟨by simp, h1, ?_, ?_⟩
  · intro c hc
    obtain rfl := Option.some.inj hc
    exact ⟨h2, h3, h4⟩
  · intro c hc
    rw [← List.cons_append, List.getLast?_append_of_ne_nil _ (by simp)] at hc
    obtain rfl := Option.some.inj hc
    exact ⟨h5, h6, h7⟩

/-- A machine without git. -/
def noGit : System := ⟨false, fun _ _ => .missing⟩

/-- Unpacked into `metsim-2.4.3`, the version is `2.4.3`; unpacked into `MetSim-2.4.3` it is unknown. -/
example : (runCommand noGit (gits noGit) ["rev-parse".toList, "--git-dir".toList]).2 ≠ some 0 ∧
    Version.version unexpanded noGit (some "/usr/src/metsim-2.4.3/metsim/_version.py".toList) = .ok "2.4.3".toList ∧
    Version.version unexpanded noGit (some "/usr/src/MetSim-2.4.3/metsim/_version.py".toList) = .ok "0+unknown".toList := by
  refine ⟨by decide, ?_, ?_⟩ <;> decide +kernel

end Verif.Props
