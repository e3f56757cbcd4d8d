import Verif.Model.Times
import Verif.Props.Datetime

/-!
# Lemmas about time axes
-/

namespace Verif.Times

open Datetime

/-- The regular axis of `m` stamps. -/
def grid (s : Int) (m step : Nat) : List ℚ :=
  (List.range m).map fun (k : Nat) => ((s + k * step : Int) : ℚ)

@[simp] theorem length_grid (s : Int) (m step : Nat) : (grid s m step).length = m := by simp [grid]

theorem getElem?_grid (s : Int) (m step k : Nat) (h : k < m) :
    (grid s m step)[k]? = some (((s + k * step : Int)) : ℚ) := by
  simp [grid, h]

theorem head?_grid (s : Int) (m step : Nat) (h : 0 < m) : (grid s m step).head? = some (s : ℚ) := by
  rw [List.head?_eq_getElem?, getElem?_grid _ _ _ _ h]; simp

theorem getLast?_grid (s : Int) (m step : Nat) (h : 0 < m) :
    (grid s m step).getLast? = some (((s + (m - 1) * step : Int)) : ℚ) := by
  rw [List.getLast?_eq_getElem?, length_grid, getElem?_grid _ _ _ _ (by omega)]
  congr 2
  rw [Nat.cast_sub (by omega)]; simp

theorem mem_grid_bounds {s : Int} {m step : Nat} {t : ℚ} (h : t ∈ grid s m step) :
    (s : ℚ) ≤ t ∧ t ≤ ((s + (m - 1) * step : Int) : ℚ) := by
  simp only [grid, List.mem_map, List.mem_range] at h
  obtain ⟨k, hk, rfl⟩ := h
  constructor
  · have : s ≤ s + k * step := by have : (0 : Int) ≤ (k : Int) * step := by positivity
                                  omega
    exact_mod_cast this
  · have h1 : (k : Int) * step ≤ ((m : Int) - 1) * step :=
      mul_le_mul_of_nonneg_right (by omega) (by positivity)
    have : s + k * step ≤ s + (m - 1) * step := by omega
    exact_mod_cast this

theorem dateRange_grid (cal : String) (s e : Int) (m step : Nat) (hs : 0 < step) (hm : 0 < m)
    {a b : Int} (hr : Props.HasDays cal a b) (ha : a ≤ s / 1440) (hb : e / 1440 ≤ b)
    (he : e = s + ((m : Int) - 1) * step) : dateRange cal s e step = .ok (grid s m step) := by
  have h2 : (0 : Int) < step := by exact_mod_cast hs
  have hle : s ≤ e := by
    have : (0 : Int) ≤ ((m : Int) - 1) * step := by
      apply mul_nonneg <;> omega
    omega
  have hd : e - s = ((m : Int) - 1) * step := by omega
  have hp : pdRange s e step = grid s m step := by
    unfold pdRange grid
    rw [hd, Int.fdiv_eq_ediv_of_nonneg _ h2.le, Int.mul_ediv_cancel _ h2.ne']
    congr 2
    omega
  rw [Props.dateRange_regular hr hs hle ⟨(m : Int) - 1, by rw [hd, mul_comm]⟩ ha hb, hp]

theorem grid_shift (s : Int) (m step : Nat) (o : Int) :
    grid (s + o) m step = (grid s m step).map (· + (o : ℚ)) := by
  simp only [grid, List.map_map]
  apply List.map_congr_left
  intro k _
  simp only [Function.comp]
  push_cast; ring

theorem ends_consecutive (d0 : Int) (n : Nat) (hn : 0 < n) :
    ends ((List.range n).map fun (k : Nat) => d0 + k) = .ok (d0, d0 + n - 1) := by
  unfold ends
  rw [List.head?_map, List.getLast?_map, List.head?_range, List.getLast?_range]
  rw [if_neg (by omega), if_neg (by omega)]
  simp only [Option.map_some]
  congr 2
  · simp
  · omega

theorem pairwise_grid (s : Int) (m step : Nat) (hs : 0 < step) : (grid s m step).Pairwise (· < ·) := by
  unfold grid
  rw [List.pairwise_map]
  refine List.pairwise_lt_range.imp ?_
  intro a b hab
  have : (a : Int) * step < b * step :=
    mul_lt_mul_of_pos_right (by exact_mod_cast hab) (by exact_mod_cast hs)
  have h3 : s + a * step < s + b * step := by omega
  exact_mod_cast h3

theorem cut_all {α : Type} (new : List ℚ) (frame : List (ℚ × α)) (a b : ℚ) (h1 : new.head? = some a)
    (h2 : new.getLast? = some b) (h : ∀ r ∈ frame, a ≤ r.1 ∧ r.1 ≤ b) : cut new frame = .ok frame := by
  unfold cut
  rw [h1, h2]
  simp only [Except.ok.injEq, List.filter_eq_self, decide_eq_true_eq]
  exact h

end Verif.Times
