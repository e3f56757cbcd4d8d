import Verif.Np.Basic
import Verif.Spec.Filled

/-!
# Filling of missing values
-/

namespace Verif.Np

open Flt

variable {K : Type}

theorem length_ffill : ∀ (last : Flt K) (xs : List (Flt K)), (ffill last xs).length = xs.length
  | _, [] => rfl
  | last, nan :: xs => by simp only [ffill, List.length_cons, length_ffill last xs]
  | _, fin x :: xs => by simp only [ffill, List.length_cons, length_ffill (fin x) xs]

theorem length_fillBoth (xs : List (Flt K)) : (fillBoth xs).length = xs.length := by
  unfold fillBoth
  rw [List.length_reverse, length_ffill, List.length_reverse, length_ffill]

/-- The entry at `i` is the last present one at or before `i`, or what came before the list. -/
theorem ffill_spec : ∀ (xs : List (Flt K)) (last : Flt K) (i : Nat) (y : Flt K), (ffill last xs)[i]? = some y →
    (∃ j v, j ≤ i ∧ xs[j]? = some (fin v) ∧ y = fin v ∧ ∀ k, j < k → k ≤ i → xs[k]? = some nan) ∨
      (y = last ∧ ∀ k, k ≤ i → xs[k]? = some nan)
  | [], last, i, y, h => by simp [ffill] at h
  | nan :: xs, last, 0, y, h => by
    simp only [ffill, List.getElem?_cons_zero, Option.some.injEq] at h
    refine Or.inr ⟨h.symm, fun k hk => ?_⟩
    have : k = 0 := by omega
    subst this; rfl
  | nan :: xs, last, i + 1, y, h => by
    simp only [ffill, List.getElem?_cons_succ] at h
    rcases ffill_spec xs last i y h with ⟨j, v, hj, hx, hy, hk⟩ | ⟨hy, hk⟩
    · refine Or.inl ⟨j + 1, v, by omega, hx, hy, fun k h1 h2 => ?_⟩
      obtain ⟨k', rfl⟩ : ∃ k', k = k' + 1 := ⟨k - 1, by omega⟩
      exact hk k' (by omega) (by omega)
    · refine Or.inr ⟨hy, fun k h2 => ?_⟩
      rcases k with _ | k
      · rfl
      · exact hk k (by omega)
  | fin x :: xs, last, 0, y, h => by
    simp only [ffill, List.getElem?_cons_zero, Option.some.injEq] at h
    exact Or.inl ⟨0, x, le_rfl, rfl, h.symm, fun k h1 h2 => by omega⟩
  | fin x :: xs, last, i + 1, y, h => by
    simp only [ffill, List.getElem?_cons_succ] at h
    rcases ffill_spec xs (fin x) i y h with ⟨j, v, hj, hx, hy, hk⟩ | ⟨hy, hk⟩
    · refine Or.inl ⟨j + 1, v, by omega, hx, hy, fun k h1 h2 => ?_⟩
      obtain ⟨k', rfl⟩ : ∃ k', k = k' + 1 := ⟨k - 1, by omega⟩
      exact hk k' (by omega) (by omega)
    · refine Or.inl ⟨0, x, by omega, rfl, hy, fun k h1 h2 => ?_⟩
      obtain ⟨k', rfl⟩ : ∃ k', k = k' + 1 := ⟨k - 1, by omega⟩
      exact hk k' (by omega)

theorem ffill_keep {xs : List (Flt K)} {i : Nat} {v : K} (last : Flt K) (h : xs[i]? = some (fin v)) :
    (ffill last xs)[i]? = some (fin v) := by
  have hi : i < (ffill last xs).length := by rw [length_ffill]; exact (List.getElem?_eq_some_iff.1 h).1
  have hy := List.getElem?_eq_getElem hi
  rcases ffill_spec xs last i _ hy with ⟨j, w, hj, hx, he, hk⟩ | ⟨-, hk⟩
  · by_cases hji : j = i
    · subst hji
      rw [hx] at h
      rw [hy, he, Option.some.inj h]
    · have := hk i (by omega) le_rfl
      rw [h] at this; cases this
  · have := hk i le_rfl
    rw [h] at this; cases this

/-- Missing after a forward fill: missing up to there. -/
theorem ffill_nan {xs : List (Flt K)} {i : Nat} (h : (ffill nan xs)[i]? = some nan) :
    ∀ k, k ≤ i → xs[k]? = some nan := by
  rcases ffill_spec xs nan i nan h with ⟨j, w, _, _, he, _⟩ | ⟨-, hk⟩
  · cases he
  · exact hk

theorem ffill_all_nan {xs : List (Flt K)} (h : ∀ x ∈ xs, x = nan) : ffill nan xs = xs := by
  induction xs with
  | nil => rfl
  | cons x xs ih =>
    have := h x (by simp)
    subst this
    rw [ffill, ih fun y hy => h y (by simp [hy])]

theorem fillBoth_all_nan {xs : List (Flt K)} (h : ∀ x ∈ xs, x = nan) : fillBoth xs = xs := by
  unfold fillBoth
  rw [ffill_all_nan h, ffill_all_nan (fun y hy => h y (by simpa using hy)), List.reverse_reverse]

theorem getElem?_rev {α : Type} {xs : List α} {i : Nat} (h : i < xs.length) :
    xs.reverse[i]? = xs[xs.length - 1 - i]? := List.getElem?_reverse h

/-- Where an entry of a filled series comes from. -/
theorem fillBoth_spec {xs : List (Flt K)} {i : Nat} {y : Flt K} (h : (fillBoth xs)[i]? = some y) :
    (∃ j v, j ≤ i ∧ xs[j]? = some (fin v) ∧ y = fin v ∧ ∀ k, j < k → k ≤ i → xs[k]? = some nan) ∨
    (∃ j v, i < j ∧ xs[j]? = some (fin v) ∧ y = fin v ∧ ∀ k, k < j → xs[k]? = some nan) ∨
    (y = nan ∧ ∀ x ∈ xs, x = nan) := by
  have hi : i < xs.length := by
    have := (List.getElem?_eq_some_iff.1 h).1
    rwa [length_fillBoth] at this
  set f := ffill nan xs with hf
  have hfl : f.length = xs.length := length_ffill _ _
  have hrl : (ffill nan f.reverse).length = xs.length := by rw [length_ffill, List.length_reverse, hfl]
  have h' : (ffill nan f.reverse)[xs.length - 1 - i]? = some y := by
    have : (fillBoth xs)[i]? = (ffill nan f.reverse)[xs.length - 1 - i]? := by
      unfold fillBoth
      rw [← hf, getElem?_rev (by omega), hrl]
    rw [← this]; exact h
  have rev : ∀ k, k < xs.length → f.reverse[k]? = f[xs.length - 1 - k]? := fun k hk => by
    rw [getElem?_rev (by omega), hfl]
  rcases ffill_spec f.reverse nan _ y h' with ⟨j, v, hj, hx, hy, hk⟩ | ⟨hy, hk⟩
  · rw [rev j (by omega)] at hx
    rcases ffill_spec xs nan _ _ hx with ⟨j', w, hj', hx', he, hk'⟩ | ⟨he, -⟩
    · obtain rfl := Flt.fin.inj he
      by_cases hle : xs.length - 1 - j ≤ i
      · have : xs.length - 1 - j = i := by omega
        rw [this] at hj' hk'
        exact Or.inl ⟨j', v, hj', hx', hy, hk'⟩
      · -- the source lies behind `i`, everything up to it is missing
        have hnan := hk (xs.length - 1 - i) (by omega) le_rfl
        rw [rev _ (by omega), show xs.length - 1 - (xs.length - 1 - i) = i by omega] at hnan
        have hni := ffill_nan hnan
        -- all entries before the source are missing
        have hsrc : ∀ k, k < xs.length - 1 - j → xs[k]? = some nan := by
          intro k hkj
          have := hk (xs.length - 1 - (xs.length - 1 - j - 1)) (by omega) (by omega)
          rw [rev _ (by omega), show xs.length - 1 - (xs.length - 1 - (xs.length - 1 - j - 1)) = xs.length - 1 - j - 1 by omega]
            at this
          exact ffill_nan this k (by omega)
        have hj'' : j' = xs.length - 1 - j := by
          by_contra hne
          have := hsrc j' (by omega)
          rw [hx'] at this; cases this
        subst hj''
        exact Or.inr (Or.inl ⟨_, v, by omega, hx', hy, hsrc⟩)
    · cases he
  · refine Or.inr (Or.inr ⟨hy, fun x hx => ?_⟩)
    obtain ⟨k, hk1, rfl⟩ := List.getElem_of_mem hx
    by_cases hki : k ≤ i
    · have := hk (xs.length - 1 - i) le_rfl
      rw [rev _ (by omega), show xs.length - 1 - (xs.length - 1 - i) = i by omega] at this
      have := ffill_nan this k hki
      rw [List.getElem?_eq_getElem hk1] at this
      exact Option.some.inj this
    · have := hk 0 (by omega)
      rw [rev _ (by omega)] at this
      have := ffill_nan this k (by omega)
      rw [List.getElem?_eq_getElem hk1] at this
      exact Option.some.inj this

theorem fillBoth_keep {xs : List (Flt K)} {i : Nat} {v : K} (h : xs[i]? = some (fin v)) :
    (fillBoth xs)[i]? = some (fin v) := by
  have hi : i < (fillBoth xs).length := by rw [length_fillBoth]; exact (List.getElem?_eq_some_iff.1 h).1
  have hy := List.getElem?_eq_getElem hi
  rcases fillBoth_spec hy with ⟨j, w, hj, hx, he, hk⟩ | ⟨j, w, hj, hx, he, hk⟩ | ⟨-, hk⟩
  · by_cases hji : j = i
    · subst hji
      rw [hx] at h
      rw [hy, he, Option.some.inj h]
    · have := hk i (by omega) le_rfl
      rw [h] at this; cases this
  · have := hk i hj
    rw [h] at this; cases this
  · have := hk _ (List.mem_of_getElem? h)
    cases this

theorem fillBoth_of_fin {xs : List (Flt K)} (h : ∀ x ∈ xs, isFin x = true) : fillBoth xs = xs := by
  apply List.ext_getElem?
  intro i
  by_cases hi : i < xs.length
  · rw [List.getElem?_eq_getElem hi]
    obtain ⟨v, hv⟩ := (isFin_iff _).1 (h _ (List.getElem_mem hi))
    rw [hv]
    exact fillBoth_keep (by rw [List.getElem?_eq_getElem hi, hv])
  · rw [List.getElem?_eq_none (by rw [length_fillBoth]; omega), List.getElem?_eq_none (by omega)]

theorem fillBoth_filled (xs : List (Flt K)) : Spec.Filled xs (fillBoth xs) where
  length := length_fillBoth xs
  keep := fun _ _ h => fillBoth_keep h
  complete := by
    rintro ⟨i0, v0, h0⟩ i hi
    have hy := List.getElem?_eq_getElem (show i < (fillBoth xs).length by rw [length_fillBoth]; exact hi)
    rcases fillBoth_spec hy with ⟨j, w, -, -, he, -⟩ | ⟨j, w, -, -, he, -⟩ | ⟨-, hk⟩
    · exact ⟨w, by rw [hy, he]⟩
    · exact ⟨w, by rw [hy, he]⟩
    · cases hk _ (List.mem_of_getElem? h0)
  before := by
    intro i j v hji hi hj hn
    have hy := List.getElem?_eq_getElem (show i < (fillBoth xs).length by rw [length_fillBoth]; exact hi)
    rcases fillBoth_spec hy with ⟨j', w, hj', hx, he, hk⟩ | ⟨j', w, hj', hx, he, hk⟩ | ⟨-, hk⟩
    · have : j' = j := by
        rcases Nat.lt_trichotomy j' j with h | h | h
        · have := hk j h hji; rw [hj] at this; cases this
        · exact h
        · have := hn j' h hj'; rw [hx] at this; cases this
      subst this
      rw [hx] at hj
      rw [hy, he, Option.some.inj hj]
    · have := hk j (by omega); rw [hj] at this; cases this
    · cases hk _ (List.mem_of_getElem? hj)
  after := by
    intro i j v hij hj hn
    have hi : i < xs.length := lt_trans hij (List.getElem?_eq_some_iff.1 hj).1
    have hy := List.getElem?_eq_getElem (show i < (fillBoth xs).length by rw [length_fillBoth]; exact hi)
    rcases fillBoth_spec hy with ⟨j', w, hj', hx, he, hk⟩ | ⟨j', w, hj', hx, he, hk⟩ | ⟨-, hk⟩
    · have := hn j' (by omega); rw [hx] at this; cases this
    · have : j' = j := by
        rcases Nat.lt_trichotomy j' j with h | h | h
        · have := hn j' h; rw [hx] at this; cases this
        · exact h
        · have := hk j h; rw [hj] at this; cases this
      subst this
      rw [hx] at hj
      rw [hy, he, Option.some.inj hj]
    · cases hk _ (List.mem_of_getElem? hj)

theorem fillBoth_idem (xs : List (Flt K)) : fillBoth (fillBoth xs) = fillBoth xs := by
  by_cases h : ∃ (i : Nat) (v : K), xs[i]? = some (fin v)
  · apply fillBoth_of_fin
    intro x hx
    obtain ⟨i, hi, rfl⟩ := List.getElem_of_mem hx
    obtain ⟨v, hv⟩ := (fillBoth_filled xs).complete h i (by rwa [length_fillBoth] at hi)
    rw [List.getElem?_eq_getElem hi] at hv
    rw [Option.some.inj hv]; rfl
  · have : ∀ x ∈ xs, x = nan := by
      intro x hx
      obtain ⟨i, hi, rfl⟩ := List.getElem_of_mem hx
      cases hv : xs[i] with
      | nan => rfl
      | fin v => exact absurd ⟨i, v, by rw [List.getElem?_eq_getElem hi, hv]⟩ h
    rw [fillBoth_all_nan this, fillBoth_all_nan this]

end Verif.Np
