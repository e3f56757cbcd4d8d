import Verif.Lemmas.Times

/-!
# Lemmas about bins of a time axis
-/

namespace Verif.Cal

theorem daysBeforeYear_strictMono : StrictMono daysBeforeYear := by
  apply strictMono_int_of_lt_succ
  intro y
  rw [daysBeforeYear_succ]
  unfold yearLen; split <;> omega

theorem yearOf_succ (ord : Int) : (yearOf (ord + 1) = yearOf ord ∧ dayOfYear (ord + 1) = dayOfYear ord + 1) ∨
    (yearOf (ord + 1) = yearOf ord + 1 ∧ dayOfYear (ord + 1) = 1 ∧ dayOfYear ord = yearLen (yearOf ord)) := by
  obtain ⟨h3, h4⟩ := yearOf_spec ord
  rcases lt_or_eq_of_le h4 with h | h
  · left
    have e := yearOf_unique (ord := ord + 1) (y := yearOf ord) (by omega) (by omega)
    refine ⟨e, ?_⟩
    unfold dayOfYear; rw [e]; omega
  · right
    have hs := daysBeforeYear_succ (yearOf ord)
    have hs2 := daysBeforeYear_strictMono (show yearOf ord + 1 < yearOf ord + 1 + 1 by omega)
    have e := yearOf_unique (ord := ord + 1) (y := yearOf ord + 1) (by omega) (by omega)
    refine ⟨e, ?_, ?_⟩
    · unfold dayOfYear; rw [e]; omega
    · unfold dayOfYear; omega

theorem walk_step : ∀ l, ∀ k < (if l then 365 else 364),
    (walk 1 (k + 1) (monthLens l)).1 = (walk 1 k (monthLens l)).1 ∨
    (walk 1 (k + 1) (monthLens l)).1 = (walk 1 k (monthLens l)).1 + 1 := by
  decide +kernel

end Verif.Cal

namespace Verif.Times

open Cal

theorem monthIndex_succ (ord : Int) :
    monthIndex (ord + 1) = monthIndex ord ∨ monthIndex (ord + 1) = monthIndex ord + 1 := by
  have hb := dayOfYear_bounds ord
  have hb' := dayOfYear_bounds (ord + 1)
  unfold monthIndex monthDay
  rcases yearOf_succ ord with ⟨h1, h2⟩ | ⟨h1, h2, h3⟩
  · rw [h1, h2]
    rw [h1, h2] at hb'
    generalize hl : leap (yearOf ord) = l
    have hk : (dayOfYear ord - 1).toNat < (if l then 365 else 364) := by
      unfold yearLen at hb'; rw [hl] at hb'
      cases l <;> simp at hb' ⊢ <;> omega
    have e : (dayOfYear ord + 1 - 1).toNat = (dayOfYear ord - 1).toNat + 1 := by omega
    rw [e]
    rcases walk_step l _ hk with h | h <;> rw [h]
    · left; rfl
    · right; push_cast; ring
  · right
    rw [h1, h2, h3]
    generalize hl : leap (yearOf ord) = l
    generalize leap (yearOf ord + 1) = l'
    have e1 : (walk 1 (1 - 1 : Int).toNat (monthLens l')).1 = 1 := by cases l' <;> decide
    have e2 : (walk 1 (yearLen (yearOf ord) - 1).toNat (monthLens l)).1 = 12 := by
      unfold yearLen; rw [hl]; cases l <;> decide
    rw [e1, e2]; push_cast; ring

theorem monotone_of_succ {f : Int → Int} (h : ∀ n, f (n + 1) = f n ∨ f (n + 1) = f n + 1) :
    Monotone f := by
  apply monotone_int_of_le_succ
  intro n; rcases h n with h | h <;> omega

theorem monthIndex_mono : Monotone monthIndex := monotone_of_succ monthIndex_succ

theorem yearOf_succ' (ord : Int) : yearOf (ord + 1) = yearOf ord ∨ yearOf (ord + 1) = yearOf ord + 1 := by
  rcases yearOf_succ ord with ⟨h, -⟩ | ⟨h, -⟩ <;> omega

theorem yearOf_mono : Monotone yearOf := monotone_of_succ yearOf_succ'

theorem minuteOf_mono : Monotone minuteOf := fun _ _ h => Int.floor_le_floor h

theorem ordOf_mono : Monotone ordOf := by
  intro a b h
  have := minuteOf_mono h
  unfold ordOf; omega

theorem bin_mono (f : Freq) (hv : f.valid = true) (t0 : ℚ) : Monotone (f.bin t0) := by
  intro a b h
  have h1 := minuteOf_mono h
  have h2 := ordOf_mono h
  cases f with
  | minutes n => exact Int.ediv_le_ediv (by simpa [Freq.valid] using hv) (by omega)
  | hours n =>
    refine Int.ediv_le_ediv ?_ (by omega)
    have : 0 < n := by simpa [Freq.valid] using hv
    omega
  | days n =>
    refine Int.ediv_le_ediv ?_ (by omega)
    have : 0 < n := by simpa [Freq.valid] using hv
    omega
  | month => exact monthIndex_mono h2
  | year => exact yearOf_mono h2

/-! ## Splitting a sorted list by a key -/

variable {α : Type} {key : α → Int}

theorem filter_lt_append_eq (l : List α) (h : l.Pairwise (fun a b => key a ≤ key b)) (c : Int) :
    l.filter (fun x => key x < c) ++ l.filter (fun x => key x = c) = l.filter (fun x => key x < c + 1) := by
  induction l with
  | nil => rfl
  | cons x l ih =>
    rw [List.pairwise_cons] at h
    have ih' := ih h.2
    rcases lt_trichotomy (key x) c with hx | hx | hx
    · have h1 : key x ≠ c := by omega
      have h2 : key x < c + 1 := by omega
      simp [hx, h1, h2, ih']
    · have e : l.filter (fun x => decide (key x < c)) = [] := by
        rw [List.filter_eq_nil_iff]; intro a ha; have := h.1 a ha; simp; omega
      rw [e, List.nil_append] at ih'
      have h1 : ¬ key x < c := by omega
      have h2 : key x < c + 1 := by omega
      rw [List.filter_cons_of_neg (by simpa using h1), e, List.filter_cons_of_pos (by simpa using hx),
        List.filter_cons_of_pos (by simpa using h2), List.nil_append, ih']
    · have h1 : ¬ key x < c := by omega
      have h2 : ¬ key x = c := by omega
      have h3 : ¬ key x < c + 1 := by omega
      simp [h1, h2, h3, ih']

theorem flatten_bins (l : List α) (h : l.Pairwise (fun a b => key a ≤ key b)) (b0 : Int)
    (h0 : ∀ x ∈ l, b0 ≤ key x) (m : Nat) :
    ((List.range m).map fun (i : Nat) => l.filter fun x => decide (key x = b0 + i)).flatten =
      l.filter fun x => decide (key x < b0 + m) := by
  induction m with
  | zero =>
    symm
    simp only [List.range_zero, List.map_nil, List.flatten_nil, List.filter_eq_nil_iff]
    intro a ha; have := h0 a ha; simp; omega
  | succ m ih =>
    rw [List.range_succ, List.map_append, List.flatten_append, ih]
    simp only [List.map_cons, List.map_nil, List.flatten_cons, List.flatten_nil, List.append_nil]
    rw [filter_lt_append_eq l h]
    congr 1; funext x; congr 1; push_cast; rw [add_assoc]

/-- Bins that grow by at most one from stamp to stamp are all hit. -/
theorem bins_hit (l : List α) (x : α) (hc : (x :: l).IsChain (fun a b => key b ≤ key a + 1)) (b : Int)
    (h1 : key x ≤ b) (h2 : b ≤ key ((x :: l).getLast (by simp))) : ∃ a ∈ x :: l, key a = b := by
  induction l generalizing x with
  | nil => simp at h2; exact ⟨x, by simp, by omega⟩
  | cons y l ih =>
    rw [List.isChain_cons_cons] at hc
    by_cases hx : key x = b
    · exact ⟨x, by simp, hx⟩
    · obtain ⟨a, ha, e⟩ := ih y hc.2 (by omega) (by simpa using h2)
      exact ⟨a, by simp only [List.mem_cons] at ha ⊢; tauto, e⟩

end Verif.Times
