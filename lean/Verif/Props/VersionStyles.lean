import Verif.Props.Version

/-!
# C110: the other styles of versions
-/

namespace Verif.Props

open Txt Version Vers

namespace Vers

/-- The styles of versioneer. -/
def styles : List String :=
  ["pep440", "pep440-branch", "pep440-pre", "pep440-post", "pep440-post-branch", "pep440-old", "git-describe", "git-describe-long"]

/-- The version in some style. -/
def inStyle (p : Pieces) (s : String) : Except Err Str := (render (.pieces p) s).map Versions.version

theorem style_eqs (p : Pieces) : inStyle p "pep440" = .ok (renderPep440 p) ∧ inStyle p "pep440-branch" = .ok (renderPep440Branch p) ∧
    inStyle p "pep440-pre" = renderPep440Pre p ∧ inStyle p "pep440-post" = .ok (renderPep440Post p) ∧
    inStyle p "pep440-post-branch" = .ok (renderPep440PostBranch p) ∧ inStyle p "pep440-old" = .ok (renderPep440Old p) ∧
    inStyle p "git-describe" = .ok (renderGitDescribe p) ∧ inStyle p "git-describe-long" = .ok (renderGitDescribeLong p) := by
  refine ⟨rfl, rfl, ?_, rfl, rfl, rfl, rfl, rfl⟩
  have e : inStyle p "pep440-pre" =
      ((renderPep440Pre p).bind fun r => .ok ⟨r, some p.long, some p.dirty, none, p.date⟩ : Except Err Versions).map Versions.version := rfl
  rw [e]
  cases renderPep440Pre p <;> rfl

end Vers

/-- **C110**: an empty style and `default` stand for `pep440`. -/
theorem C110_default_style (p : Pieces) : inStyle p "" = .ok (renderPep440 p) ∧ inStyle p "default" = .ok (renderPep440 p) := ⟨rfl, rfl⟩

/-- **C110**: in all styles but `git-describe-long`, an unchanged commit with a tag has the tag as its version. -/
theorem C110_release_styles (p : Pieces) (t : Str) (ht : p.closestTag = some t) (hne : t ≠ []) (h0 : p.distance = 0) (hd : p.dirty = false)
    (s : String) (hs : s ∈ styles) (hl : s ≠ "git-describe-long") : inStyle p s = .ok t := by
  have e : p.tag? = some t := by
    unfold Pieces.tag?
    rw [ht]
    cases t with
    | nil => exact absurd rfl hne
    | cons c t => rfl
  obtain ⟨e1, e2, e3, e4, e5, e6, e7, -⟩ := style_eqs p
  simp only [styles, List.mem_cons, List.not_mem_nil, or_false] at hs
  rcases hs with rfl | rfl | rfl | rfl | rfl | rfl | rfl | rfl
  · rw [e1, renderPep440, e]; simp [h0, hd]
  · rw [e2, renderPep440Branch, e]; simp [h0, hd]
  · rw [e3, renderPep440Pre, e]; simp [h0]
  · rw [e4, renderPep440Post, e]; simp [h0, hd]
  · rw [e5, renderPep440PostBranch, e]; simp [h0, hd]
  · rw [e6, renderPep440Old, e]; simp [h0, hd]
  · rw [e7, renderGitDescribe, e]; simp [h0, hd, opt]
  · exact absurd rfl hl

/-- **C110**: on the branch `master`, the styles that look at the branch give what the others give. -/
theorem C110_master (p : Pieces) (h : p.branch = some "master".toList) : inStyle p "pep440-branch" = inStyle p "pep440" := by
  obtain ⟨e1, e2, -⟩ := style_eqs p
  have ha : p.aside = false := by simp [Pieces.aside, h]
  rw [e1, e2, renderPep440, renderPep440Branch, ha]
  cases p.tag? <;> simp [opt]

/-- **C110**: away from `master` only `.dev0` in front of the local label is added, unless it is a release. -/
theorem C110_aside (p : Pieces) (h : p.branch ≠ some "master".toList) (t : Str) (ht : p.closestTag = some t) (hne : t ≠ [])
    (hp : '+' ∉ t) (hr : p.distance ≠ 0 ∨ p.dirty = true) :
    ∃ l, inStyle p "pep440" = .ok (t ++ '+' :: l) ∧ inStyle p "pep440-branch" = .ok (t ++ ".dev0".toList ++ '+' :: l) := by
  obtain ⟨e1, e2, -⟩ := style_eqs p
  have e : p.tag? = some t := by
    unfold Pieces.tag?
    rw [ht]
    cases t with
    | nil => exact absurd rfl hne
    | cons c t => rfl
  have ha : p.aside = true := decide_eq_true h
  refine ⟨decimal p.distance ++ ".g".toList ++ p.short ++ opt p.dirty ".dirty", ?_, ?_⟩
  · rw [e1, renderPep440, e]
    simp [hr, plusOrDot, hp]
  · rw [e2, renderPep440Branch, e, ha]
    simp [hr, plusOrDot, hp, opt]

/-- **C110**: `pep440-pre` and `pep440-old` do not name the commit: with the same distance from the same tag it does not matter which. -/
theorem C110_unnamed (p q : Pieces) (h1 : p.closestTag = q.closestTag) (h2 : p.distance = q.distance) :
    inStyle p "pep440-pre" = inStyle q "pep440-pre" ∧ (p.dirty = q.dirty → inStyle p "pep440-old" = inStyle q "pep440-old") := by
  obtain ⟨-, -, e3, -, -, e6, -⟩ := style_eqs p
  obtain ⟨-, -, f3, -, -, f6, -⟩ := style_eqs q
  have e : p.tag? = q.tag? := by unfold Pieces.tag?; rw [h1]
  refine ⟨?_, fun hd => ?_⟩
  · rw [e3, f3, renderPep440Pre, renderPep440Pre, e, h2]
  · rw [e6, f6, renderPep440Old, renderPep440Old, e, h2, hd]

namespace Vers

theorem post_text : ".post".toList = ['.', 'p', 'o', 's', 't'] := by decide

theorem splitText_none (n : Nat) (b : Str) (hb : '.' ∉ b) (hn : b.length ≤ n) : splitText ".post".toList n b = [b] := by
  induction n generalizing b with
  | zero => rw [splitText]
  | succ n ih =>
    cases b with
    | nil => rw [splitText]
    | cons c b =>
      simp only [List.mem_cons, not_or] at hb
      rw [splitText, ih b hb.2 (by simpa using hn), if_neg]
      rw [post_text]
      simp [List.isPrefixOf, hb.1]

theorem splitText_post (n : Nat) (a b : Str) (ha : 'p' ∉ a) (hb : '.' ∉ b) (hn : (a ++ ".post".toList ++ b).length ≤ n) :
    splitText ".post".toList n (a ++ ".post".toList ++ b) = [a, b] := by
  induction n generalizing a with
  | zero => rw [post_text] at hn; simp at hn
  | succ n ih =>
    cases a with
    | nil =>
      have e : [] ++ ".post".toList ++ b = '.' :: ("post".toList ++ b) := by rw [post_text]; simp
      have hp : ".post".toList.isPrefixOf ('.' :: ("post".toList ++ b)) = true := by
        rw [← e]; exact List.isPrefixOf_iff_prefix.2 ⟨b, by simp⟩
      rw [e, splitText, if_pos hp, ← e, List.nil_append, List.drop_left,
        splitText_none n b hb (by rw [post_text] at hn; simp at hn; omega)]
    | cons c a =>
      simp only [List.mem_cons, not_or] at ha
      rw [List.cons_append, List.cons_append, splitText, ih a ha.2 (by simp at hn ⊢; omega), if_neg]
      intro hp
      obtain ⟨u, hu⟩ := List.isPrefixOf_iff_prefix.1 hp
      rw [post_text] at hu
      cases a with
      | nil => simp at hu
      | cons d a =>
        simp only [List.cons_append, List.cons.injEq, List.nil_append] at hu
        exact ha.2 (by simp [← hu.2.1])

theorem splitText_without (n : Nat) (a : Str) (ha : 'p' ∉ a) (hn : a.length ≤ n) : splitText ".post".toList n a = [a] := by
  induction n generalizing a with
  | zero => rw [splitText]
  | succ n ih =>
    cases a with
    | nil => rw [splitText]
    | cons c a =>
      simp only [List.mem_cons, not_or] at ha
      rw [splitText, ih a ha.2 (by simpa using hn), if_neg]
      intro hp
      obtain ⟨u, hu⟩ := List.isPrefixOf_iff_prefix.1 hp
      rw [post_text] at hu
      cases a with
      | nil => simp at hu
      | cons d a =>
        simp only [List.cons_append, List.cons.injEq, List.nil_append] at hu
        exact ha.2 (by simp [← hu.2.1])

end Vers

/-- **C110**: in the style `pep440-pre` commits behind a post-release are counted towards the next one. -/
theorem C110_pre (p : Pieces) (a : Str) (k : Nat) (ha : 'p' ∉ a) (ht : p.closestTag = some (a ++ ".post".toList ++ decimal k))
    (hd : p.distance ≠ 0) : inStyle p "pep440-pre" = .ok (a ++ ".post".toList ++ decimal (k + 1) ++ ".dev".toList ++ decimal p.distance) := by
  obtain ⟨-, -, e3, -⟩ := style_eqs p
  have e : p.tag? = some (a ++ ".post".toList ++ decimal k) := by
    unfold Pieces.tag?
    rw [ht]
    have : a ++ ".post".toList ++ decimal k ≠ [] := by rw [post_text]; simp
    cases h : a ++ ".post".toList ++ decimal k with
    | nil => exact absurd h this
    | cons c t => rfl
  have hs : splitPost (a ++ ".post".toList ++ decimal k) = .ok (a, some k) := by
    unfold splitPost
    rw [splitText_post _ a (decimal k) ha (fun hm => absurd (decimal_digits k _ hm) (by decide)) (le_refl _)]
    obtain ⟨x, s, hx⟩ := List.exists_cons_of_ne_nil (decimal_ne_nil k)
    have : (decimal k).all isDigit = true := List.all_eq_true.2 (decimal_digits k)
    rw [hx] at this ⊢
    dsimp only
    rw [if_pos this, ← hx, parseNat_decimal]
  rw [e3, renderPep440Pre, e]
  simp only [hd, ne_eq, not_false_eq_true, if_true, hs, bind, Except.bind, pure, Except.pure]

/-- **C110**: behind any other tag they are counted towards its first post-release. -/
theorem C110_pre_first (p : Pieces) (t : Str) (ht : p.closestTag = some t) (hne : t ≠ []) (hp : 'p' ∉ t) (hd : p.distance ≠ 0) :
    inStyle p "pep440-pre" = .ok (t ++ ".post0.dev".toList ++ decimal p.distance) := by
  obtain ⟨-, -, e3, -⟩ := style_eqs p
  have e : p.tag? = some t := by
    unfold Pieces.tag?
    rw [ht]
    cases t with
    | nil => exact absurd rfl hne
    | cons c t => rfl
  have hs : splitPost t = .ok (t, none) := by
    unfold splitPost
    rw [splitText_without _ t hp (le_refl _)]
  rw [e3, renderPep440Pre, e]
  simp only [hd, ne_eq, not_false_eq_true, if_true, hs, bind, Except.bind, pure, Except.pure]

end Verif.Props
