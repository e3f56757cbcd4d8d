import Verif.Model.Disagg
import Verif.Lemmas.Solar
import Mathlib.Tactic.NormNum

/-!
# Sunrise and sunset found in a row of the solar table
-/

namespace Verif.Disagg

open Verif.Solar

theorem filter_range_single (p : Nat → Bool) (a : Nat) : ∀ n, (∀ j < n, (p j = true ↔ j = a)) →
    (List.range n).filter p = if a < n then [a] else [] := by
  intro n
  induction n with
  | zero => simp
  | succ n ih =>
    intro h
    rw [List.range_succ, List.filter_append, ih fun j hj => h j (by omega)]
    have hn := h n (by omega)
    by_cases hp : p n = true
    · have := hn.1 hp
      subst this
      simp [List.filter, hp]
    · have hp' : p n = false := by simpa using hp
      have hna : n ≠ a := fun e => hp (hn.2 e)
      by_cases ha : a < n
      · rw [if_pos ha, if_pos (by omega)]; simp [List.filter, hp']
      · rw [if_neg ha, if_neg (by omega)]; simp [List.filter, hp']

theorem lastRise_block {row : Nat → ℝ} {a b : Nat} (hab : a + 1 < b) (h : ∀ j, 0 < row j ↔ a < j ∧ j < b) :
    lastRise row = if a < 2879 then a else 0 := by
  unfold lastRise
  rw [filter_range_single _ a]
  · change (if a < 2879 then [a] else []).getLastD 0 = _
    by_cases ha : a < 2879
    · rw [if_pos ha, if_pos ha]; rfl
    · rw [if_neg ha, if_neg ha]; rfl
  · intro j _
    rw [decide_eq_true_iff, h, h]
    omega

theorem lastSet_block {row : Nat → ℝ} {a b : Nat} (hab : a + 1 < b) (h : ∀ j, 0 < row j ↔ a < j ∧ j < b) :
    lastSet row = if b - 1 < 2879 then b - 1 else 0 := by
  unfold lastSet
  rw [filter_range_single _ (b - 1)]
  · change (if b - 1 < 2879 then [b - 1] else []).getLastD 0 = _
    by_cases ha : b - 1 < 2879
    · rw [if_pos ha, if_pos ha]; rfl
    · rw [if_neg ha, if_neg ha]; rfl
  · intro j _
    rw [decide_eq_true_iff, h, h]
    omega

theorem lastRise_none {row : Nat → ℝ} (h : ∀ j < 2879, ¬ (¬ 0 < row j ∧ 0 < row (j + 1))) : lastRise row = 0 := by
  unfold lastRise
  rw [List.filter_eq_nil_iff.2]
  · rfl
  · intro j hj
    rw [decide_eq_true_iff]
    exact h j (List.mem_range.1 hj)

theorem lastSet_none {row : Nat → ℝ} (h : ∀ j < 2879, ¬ (0 < row j ∧ ¬ 0 < row (j + 1))) : lastSet row = 0 := by
  unfold lastSet
  rw [List.filter_eq_nil_iff.2]
  · rfl
  · intro j hj
    rw [decide_eq_true_iff]
    exact h j (List.mem_range.1 hj)

theorem half_eq : ((Cnst.SW_RAD_DT : Nat) : ℝ) / ((Cnst.SEC_PER_MIN : Nat) : ℝ) = 1 / 2 := by
  unfold Cnst.SW_RAD_DT Cnst.SEC_PER_MIN; norm_num
theorem slots_eq : ((Cnst.SEC_PER_DAY : Nat) : ℝ) / ((Cnst.SW_RAD_DT : Nat) : ℝ) = 2880 := by
  unfold Cnst.SW_RAD_DT Cnst.SEC_PER_DAY; norm_num

theorem riseTime_eq (row : Nat → ℝ) : riseTime row = if lastRise row = 0 then 240 else (lastRise row : ℝ) / 2 := by
  unfold riseTime
  simp only
  rw [half_eq, slots_eq]
  by_cases h : lastRise row = 0
  · rw [if_pos h, h, if_pos (by norm_num)]; norm_num
  · have : (lastRise row : ℝ) ≠ 0 := by exact_mod_cast h
    rw [if_neg h, if_neg (mul_ne_zero this (by norm_num))]
    ring

theorem setTime_eq (row : Nat → ℝ) : setTime row = if lastSet row = 0 then 960 else (lastSet row : ℝ) / 2 := by
  unfold setTime
  simp only
  rw [half_eq, slots_eq]
  by_cases h : lastSet row = 0
  · rw [if_pos h, h, if_pos (by norm_num)]; norm_num
  · have : (lastSet row : ℝ) ≠ 0 := by exact_mod_cast h
    rw [if_neg h, if_neg (mul_ne_zero this (by norm_num))]
    ring

/-- The lit block of a day whose sun rises and sets. -/
theorem row_block {g : DayGeom} (hg : Row g) (hd : g.daylength ≠ 0) (hp : g.daylength ≠ 86400) :
    ∃ a b : Nat, a + 1 < b ∧ (∀ j, 0 < g.fract j ↔ a < j ∧ j < b) ∧ a + b ≤ 2880 ∧ 2879 ≤ a + b ∧
      (a : ℝ) ≤ (86400 - g.daylength) / 60 ∧ (86400 - g.daylength) / 60 < a + 1 ∧
      (b : ℝ) - a < g.daylength / 30 + 1 ∧ g.daylength / 30 ≤ (b : ℝ) - a := by
  rcases hg.shape hd with ⟨u, u0, u1, hs, hdl, hiff⟩ | ⟨h, -⟩
  swap
  · exact absurd h hp
  have hfl0 : 0 ≤ ⌊u⌋ := Int.floor_nonneg.2 u0
  have hc0 : 0 ≤ ⌈2880 - 2 * u⌉ := Int.ceil_nonneg (by linarith)
  have eF : ((⌊u⌋.toNat : Int) : ℝ) = (⌊u⌋ : ℝ) := by rw [Int.toNat_of_nonneg hfl0]
  have eC : ((⌈2880 - 2 * u⌉.toNat : Int) : ℝ) = (⌈2880 - 2 * u⌉ : ℝ) := by rw [Int.toNat_of_nonneg hc0]
  have f1 := Int.floor_le u
  have f2 := Int.lt_floor_add_one u
  have c1 := Int.le_ceil (2880 - 2 * u)
  have c2 := Int.ceil_lt_add_one (2880 - 2 * u)
  rw [← eF] at f1 f2
  rw [← eC] at c1 c2
  generalize ⌊u⌋.toNat = F at *
  generalize ⌈2880 - 2 * u⌉.toNat = C at *
  have hC2 : F + 1 < F + C := by
    by_contra hcon
    have : ∑ j ∈ Finset.range 2880, g.fract j ≤ 0 := Finset.sum_nonpos fun j _ => by
      by_contra hj
      push Not at hj
      have := (hiff j).1 hj
      omega
    linarith
  push_cast at f1 f2 c1 c2
  refine ⟨F, F + C, hC2, hiff, ?_, ?_, ?_, ?_, ?_, ?_⟩
  · have : (2 * F + C : ℝ) < 2881 := by linarith
    have : 2 * F + C < 2881 := by exact_mod_cast this
    omega
  · have : (2878 : ℝ) < 2 * F + C := by linarith
    have : 2878 < 2 * F + C := by exact_mod_cast this
    omega
  · rw [hdl]; linarith
  · rw [hdl]; linarith
  · push_cast; rw [hdl]; linarith
  · push_cast; rw [hdl]; linarith

/-- No sunrise or sunset on days without one. -/
theorem row_none {g : DayGeom} (hg : Row g) (h : g.daylength = 0 ∨ (∀ j < 2880, 0 < g.fract j)) :
    lastRise g.fract = 0 ∧ lastSet g.fract = 0 := by
  rcases h with h | h
  · have hz := (hg.dark h).1
    exact ⟨lastRise_none fun j _ hc => (hz (j + 1)).not_gt hc.2,
      lastSet_none fun j _ hc => (hz j).not_gt hc.1⟩
  · exact ⟨lastRise_none fun j hj hc => hc.1 (h j (by omega)), lastSet_none fun j hj hc => hc.2 (h (j + 1) (by omega))⟩

/-- Sunrise, sunset and noon as the code places them. -/
theorem rise_set {g : DayGeom} (hg : Row g) :
    (riseTime g.fract = 240 ∧ setTime g.fract = 960) ∨ (riseTime g.fract = 240 ∧ setTime g.fract = 1439) ∨
      (0 < riseTime g.fract ∧ riseTime g.fract < setTime g.fract ∧ setTime g.fract ≤ 1439 ∧
        1439 ≤ riseTime g.fract + setTime g.fract ∧ riseTime g.fract + setTime g.fract ≤ 1440) := by
  have key : ∀ a b : Nat, a + 1 < b → (∀ j, 0 < g.fract j ↔ a < j ∧ j < b) → a + b ≤ 2880 → 2879 ≤ a + b →
      (riseTime g.fract = 240 ∧ setTime g.fract = 960) ∨ (riseTime g.fract = 240 ∧ setTime g.fract = 1439) ∨
      (0 < riseTime g.fract ∧ riseTime g.fract < setTime g.fract ∧ setTime g.fract ≤ 1439 ∧
        1439 ≤ riseTime g.fract + setTime g.fract ∧ riseTime g.fract + setTime g.fract ≤ 1440) := by
    intro a b hab hiff h1 h2
    rw [riseTime_eq, setTime_eq, lastRise_block hab hiff, lastSet_block hab hiff, if_pos (show a < 2879 by omega)]
    by_cases ha : a = 0
    · subst ha
      rw [if_pos rfl]
      by_cases hb : b - 1 < 2879
      · have hb' : b = 2879 := by omega
        right; left
        have hb1 : b - 1 = 2878 := by omega
        rw [hb1]
        norm_num
      · rw [if_neg hb, if_pos rfl]; left; exact ⟨rfl, rfl⟩
    · rw [if_neg ha, if_pos (show b - 1 < 2879 by omega), if_neg (show ¬ b - 1 = 0 by omega)]
      right; right
      have e : ((b - 1 : Nat) : ℝ) = (b : ℝ) - 1 := by rw [Nat.cast_sub (by omega)]; simp
      rw [e]
      have k1 : (1 : ℝ) ≤ a := by exact_mod_cast Nat.one_le_iff_ne_zero.2 ha
      have k2 : (a : ℝ) + 2 ≤ b := by exact_mod_cast hab
      have k3 : (a : ℝ) + b ≤ 2880 := by exact_mod_cast h1
      have k4 : (2879 : ℝ) ≤ (a : ℝ) + b := by exact_mod_cast h2
      exact ⟨by linarith, by linarith, by linarith, by linarith, by linarith⟩
  by_cases hd : g.daylength = 0
  · obtain ⟨h1, h2⟩ := row_none hg (Or.inl hd)
    left; rw [riseTime_eq, setTime_eq, h1, h2]; exact ⟨if_pos rfl, if_pos rfl⟩
  · rcases hg.shape hd with ⟨u, u0, u1, hs, hdl, hiff⟩ | ⟨h, hpos, -⟩
    · by_cases hp : g.daylength = 86400
      · -- u = 0
        have hu : u = 0 := by linarith
        subst hu
        have hF : ⌊(0 : ℝ)⌋.toNat = 0 := by simp
        have hC : ⌈(2880 : ℝ) - 2 * 0⌉.toNat = 2880 := by
          have : (2880 : ℝ) - 2 * 0 = ((2880 : Int) : ℝ) := by norm_num
          rw [this, Int.ceil_intCast]; rfl
        rw [hF, hC] at hiff
        exact key 0 2880 (by norm_num) (by simpa using hiff) (by norm_num) (by norm_num)
      · obtain ⟨a, b, h1, h2, h3, h4, -⟩ := row_block hg hd hp
        exact key a b h1 h2 h3 h4
    · obtain ⟨h1, h2⟩ := row_none hg (Or.inr hpos)
      left; rw [riseTime_eq, setTime_eq, h1, h2]; exact ⟨if_pos rfl, if_pos rfl⟩

end Verif.Disagg
