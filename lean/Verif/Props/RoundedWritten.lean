import Verif.Np.Fp
import Verif.Props.Physical

/-!
# What a run writes, rounded to the precision of the file
-/

namespace Verif.Props
open Verif Verif.Np Verif.Fp

theorem rnd_pos {K : Type} [Field K] [LinearOrder K] [IsStrictOrderedRing K] [FloorRing K] (q : Nat) (hq : 0 < q) {x : K} (h : 0 < x) :
    0 < rnd q x := (zpow_pos (by norm_num) _).trans_le (rnd_between q hq h).1

/-- The absolute zero in degrees Celsius is rounded upwards, in both precisions. -/
theorem rnd_zero_kelvin {q : Nat} (hq : q = 24 ∨ q = 53) : (-273.15 : ℝ) < rnd q (-273.15) := by
  have hlog : Int.log 2 |(-273.15 : ℝ)| = 8 := by
    rw [abs_of_neg (by norm_num)]
    have a := (Int.zpow_le_iff_le_log (R := ℝ) (b := 2) (by norm_num) (x := 8) (r := - -273.15) (by norm_num)).1 (by norm_num)
    have b := (Int.lt_zpow_iff_log_lt (R := ℝ) (b := 2) (by norm_num) (x := 9) (r := - -273.15) (by norm_num)).1 (by norm_num)
    omega
  unfold rnd ulp
  rw [hlog]
  rcases hq with rfl | rfl
  · have e : (-273.15 : ℝ) / 2 ^ ((8 : Int) - (((24 : Nat) : Int) - 1)) = -8950579.2 := by norm_num
    have f : ⌊(-8950579.2 : ℝ)⌋ = -8950580 := by rw [Int.floor_eq_iff]; norm_num
    rw [e]
    unfold nearest
    rw [f]
    norm_num
  · have e : (-273.15 : ℝ) / 2 ^ ((8 : Int) - (((53 : Nat) : Int) - 1)) = -(24026528090161152 / 5) := by norm_num
    have f : ⌊(-(24026528090161152 / 5) : ℝ)⌋ = -4805305618032231 := by rw [Int.floor_eq_iff]; norm_num
    rw [e]
    unfold nearest
    rw [f]
    norm_num

/-- What rounding does to the quantity behind a number with a unit. -/
theorem si_rnd {q : Nat} (hq : q = 24 ∨ q = 53) {u : String} {ts x s : ℝ} (hts : 0 < ts) {kd : Spec.Kind}
    (h : Spec.si u ts x = some (kd, s)) : ∃ s', Spec.si u ts (rnd q x) = some (kd, s') ∧ (0 ≤ s → 0 ≤ s') ∧ (0 < s → 0 < s')
      ∧ (kd = .ratio → s ≤ 1 → s' ≤ 1) ∧ (kd ≠ .temperature → |s' - s| ≤ |s| * 2 ^ (-q : Int)) := by
  have q0 : 0 < q := by rcases hq with rfl | rfl <;> norm_num
  have n0 := fun h : 0 ≤ x => rnd_nonneg q h
  have p0 := fun h : 0 < x => rnd_pos q q0 h
  have rel := rnd_rel q x
  have one : x ≤ 1 → rnd q x ≤ 1 := fun h => rnd_le q0 (by simpa using rep_nat (K := ℝ) (p := q) (n := 1) Nat.one_le_two_pow) h
  have hun : x ≤ 100 → rnd q x ≤ 100 := fun h => rnd_le q0
    (by simpa using rep_nat (K := ℝ) (p := q) (n := 100) (by rcases hq with rfl | rfl <;> norm_num)) h
  have scaled : ∀ a : ℝ, 0 < a → |a * rnd q x - a * x| ≤ |a * x| * 2 ^ (-q : Int) := by
    intro a ha
    rw [← mul_sub, abs_mul, abs_mul, abs_of_pos ha, mul_assoc]
    exact mul_le_mul_of_nonneg_left rel ha.le
  have quot : ∀ a : ℝ, 0 < a → |rnd q x / a - x / a| ≤ |x / a| * 2 ^ (-q : Int) := by
    intro a ha
    have := scaled a⁻¹ (inv_pos.2 ha)
    rwa [mul_comm, mul_comm a⁻¹ x, ← div_eq_mul_inv, ← div_eq_mul_inv] at this
  have divn : ∀ a : ℝ, 0 < a → 0 ≤ x / a → 0 ≤ rnd q x / a := fun a ha h => div_nonneg (n0 (by
    rw [le_div_iff₀ ha, zero_mul] at h; exact h)) ha.le
  have divp : ∀ a : ℝ, 0 < a → 0 < x / a → 0 < rnd q x / a := fun a ha h => div_pos (p0 (by
    rw [lt_div_iff₀ ha, zero_mul] at h; exact h)) ha
  unfold Spec.si at h
  split at h <;> simp only [Option.some.injEq, Prod.mk.injEq, reduceCtorEq] at h
  case h_5 =>
    obtain ⟨rfl, rfl⟩ := h
    refine ⟨_, rfl, fun h => ?_, fun h => ?_, fun h => (nomatch h), fun h => absurd rfl h⟩
    · have := rnd_mono q q0 (show (-273.15 : ℝ) ≤ x by linarith)
      linarith [rnd_zero_kelvin hq]
    · have := rnd_mono q q0 (show (-273.15 : ℝ) ≤ x by linarith)
      linarith [rnd_zero_kelvin hq]
  all_goals
    obtain ⟨rfl, rfl⟩ := h
    refine ⟨_, rfl, ?_, ?_, ?_, ?_⟩
  all_goals first
    | exact fun h => n0 h
    | exact fun h => p0 h
    | exact fun _ h => one h
    | (intro h; cases h; done)
    | exact fun _ => rel
    | exact fun _ h => by rw [div_le_one (by norm_num)] at h ⊢; exact hun h
    | exact fun _ => scaled _ (by norm_num)
    | exact fun _ => quot _ (by positivity)
    | exact fun h => mul_nonneg (by norm_num) (n0 (by linarith))
    | exact fun h => mul_pos (by norm_num) (p0 (by linarith))
    | exact divn _ (by positivity)
    | exact divp _ (by positivity)

/-- Possible, and dry air not asked for: a specific humidity that is almost one may be rounded to it. -/
def PossibleRounded (v : String) (s : ℝ) : Prop := if v = "spec_humid" then 0 ≤ s ∧ s ≤ 1 else Spec.Possible v s

theorem possible_rnd {q : Nat} (hq : q = 24 ∨ q = 53) {v u : String} {ts x s : ℝ} (hts : 0 < ts) {kd : Spec.Kind}
    (hk : Spec.kindOf v = some kd) (h : Spec.si u ts x = some (kd, s)) (hp : Spec.Possible v s) :
    ∃ s', Spec.si u ts (rnd q x) = some (kd, s') ∧ PossibleRounded v s' ∧ (v ≠ "temp" → |s' - s| ≤ |s| * 2 ^ (-q : Int)) := by
  obtain ⟨s', h1, h2, h3, h4, h5⟩ := si_rnd hq hts h
  refine ⟨s', h1, ?_, ?_⟩
  · unfold PossibleRounded
    unfold Spec.Possible at hp ⊢
    split at hp <;> try simp (decide := true) only [if_true, if_false]
    all_goals first
      | exact h2 hp
      | exact h3 hp
      | exact ⟨h2 hp.1, h4 (by simpa [Spec.kindOf] using hk.symm) hp.2⟩
      | exact ⟨h2 hp.1, h4 (by simpa [Spec.kindOf] using hk.symm) hp.2.le⟩
      | exact hp.elim
  · intro ht
    refine h5 ?_
    rintro rfl
    unfold Spec.Possible at hp
    split at hp <;> first | exact hp.elim | exact ht rfl | (simp [Spec.kindOf] at hk)

/-- **C101.** Rounded to the precision of the file (`out_precision` `f4` or `f8`), what an estimating run writes is still possible, and
within the precision of the quantity computed. -/
theorem C101_mtclim {q : Nat} (hq : q = 24 ∨ q = 53) (j : Job) (hj : j.Sane) (fuel : Nat) (order : List (Dict String Chunk.Slice))
    (ho : j.Schedule order) (files : Run.Files Cell.Output) (hrun : j.run fuel order = .ok files) (hsub : j.shared.ts < 1440) (hn : 2 ≤ j.n)
    (hm : j.shared.method = .mtclim) (hp : SaneParams j.shared) (hcl : Lw.upperS j.shared.lwCloud = "CLOUD_DEARDORFF")
    (c : Run.Cell) (hc : j.Computed c) (hs : Sound j.shared j.n (j.inp c))
    (hcols : ∀ k ∈ ["t_min", "t_max", "dtr", "smoothed_dtr", "prec", "seasonal_prec"],
      Dict.get? (j.inp c).data.frame k ≠ none)
    (v u : String) (hu : j.shared.outVars.get? v = some u) (hbug : ¬ (v = "air_pressure" ∧ u = "hPa")) :
    ∃ val kd, Recorded j files v c val ∧ Spec.kindOf v = some kd ∧ ∀ k < j.n, ∀ i < 1440 / j.shared.ts, ∃ x s s',
      val (j.stamp k i) = .fin x ∧ Spec.si u (j.shared.ts : ℝ) x = some (kd, s) ∧ Spec.si u (j.shared.ts : ℝ) (rnd q x) = some (kd, s')
      ∧ PossibleRounded v s' ∧ (v ≠ "temp" → |s' - s| ≤ |s| * 2 ^ (-q : Int)) := by
  obtain ⟨val, kd, h1, h2, h3⟩ := C78_mtclim_partial j hj fuel order ho files hrun hsub hn hm hp hcl c hc hs hcols v u hu hbug
  refine ⟨val, kd, h1, h2, fun k hk i hi => ?_⟩
  obtain ⟨x, s, e1, e2, e3⟩ := h3 k hk i hi
  obtain ⟨s', f1, f2, f3⟩ := possible_rnd hq (by exact_mod_cast hj.step.1) h2 e2 e3
  exact ⟨x, s, s', e1, e2, f1, f2, f3⟩

/-- **C101**, passing through. -/
theorem C101_passthrough {q : Nat} (hq : q = 24 ∨ q = 53) (j : Job) (hj : j.Sane) (fuel : Nat) (order : List (Dict String Chunk.Slice))
    (ho : j.Schedule order) (files : Run.Files Cell.Output) (hrun : j.run fuel order = .ok files) (hsub : j.shared.ts < 1440) (hn : 2 ≤ j.n)
    (hm : j.shared.method = .passthrough) (c : Run.Cell) (hc : j.Computed c) (hs : Sound j.shared j.n (j.inp c))
    (hgiven : DailyGood j.n (j.inp c).data.frame)
    (v u : String) (hu : j.shared.outVars.get? v = some u) (hbug : ¬ (v = "air_pressure" ∧ u = "hPa")) :
    ∃ val kd, Recorded j files v c val ∧ Spec.kindOf v = some kd ∧ ∀ k < j.n, ∀ i < 1440 / j.shared.ts, ∃ x s s',
      val (j.stamp k i) = .fin x ∧ Spec.si u (j.shared.ts : ℝ) x = some (kd, s) ∧ Spec.si u (j.shared.ts : ℝ) (rnd q x) = some (kd, s')
      ∧ PossibleRounded v s' ∧ (v ≠ "temp" → |s' - s| ≤ |s| * 2 ^ (-q : Int)) := by
  obtain ⟨val, kd, h1, h2, h3⟩ := C78_passthrough_partial j hj fuel order ho files hrun hsub hn hm c hc hs hgiven v u hu hbug
  refine ⟨val, kd, h1, h2, fun k hk i hi => ?_⟩
  obtain ⟨x, s, e1, e2, e3⟩ := h3 k hk i hi
  obtain ⟨s', f1, f2, f3⟩ := possible_rnd hq (by exact_mod_cast hj.step.1) h2 e2 e3
  exact ⟨x, s, s', e1, e2, f1, f2, f3⟩

/-- **C101.** Values in order stay in order, and bounds with the digits of the file stay bounds: temperatures of the file stay between
extremes of its precision. -/
theorem C101_order {q : Nat} (hq : 0 < q) {x y : ℝ} : (x ≤ y → rnd q x ≤ rnd q y) ∧ (IsRep q x → x ≤ y → x ≤ rnd q y)
    ∧ (IsRep q y → x ≤ y → rnd q x ≤ y) ∧ rnd q (rnd q x) = rnd q x :=
  ⟨rnd_mono q hq, le_rnd hq, rnd_le hq, rnd_rep hq (isRep_rnd q x)⟩

/-- The weaker bound is needed: a specific humidity below one that is written as one. -/
theorem C101_humid : ∃ s : ℚ, 0 ≤ s ∧ s < 1 ∧ rnd 24 s = 1 := ⟨1 - 1 / 2 ^ 30, by norm_num, by norm_num, by decide +kernel⟩

end Verif.Props
