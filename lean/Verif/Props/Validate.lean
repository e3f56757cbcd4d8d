import Verif.Model.Validate
import Verif.Model.LwOptions
import Verif.Props.Units
import Mathlib.Data.List.Basic
import Mathlib.Data.List.Nodup

/-!
# Properties of validation: C20, C21, C22, C23
-/

namespace Verif.Props

open Validate

/-! ## C21 -/
section C21

/-- What is documented to be wrong with a configuration, check by check. -/
inductive Wrong (c : Cfg) : Problem → Prop
  | noForcing : c.forcing = 0 → Wrong c .noForcing
  | noForcingVars : c.forcingVars = 0 → Wrong c .noForcingVars
  | outDir : (c.outDir = none ∨ c.outDir = some "") → Wrong c (.emptyValue "out_dir")
  | noTimeStep : (c.timeStep = .none ∨ c.timeStep = .empty) → Wrong c (.emptyValue "time_step")
  | forcingFmt : (c.forcingFmt = none ∨ c.forcingFmt = some "") → Wrong c (.emptyValue "forcing_fmt")
  | timeStep (ts : Int) : c.timeStep = .val ts → ¬ (ts ∣ 1440 ∧ (ts ≤ 360 ∨ ts = 1440)) →
      Wrong c .timeStep
  | junk : c.timeStep = .junk → Wrong c .timeStep
  | input (v : String) : v ∈ ["t_min", "t_max", "prec"] → v ∉ c.metVars → Wrong c (.missingInput v)
  | noOut : c.outVars = [] → Wrong c .noOutVars
  | outDaily (v : String) : c.timeStep = .val 1440 → v ∈ c.outVars → v ∉ dailyOutVars →
      Wrong c (.outVar v)
  | outSub (v : String) (ts : Int) : c.timeStep = .val ts → ts ≠ 1440 → v ∈ c.outVars →
      v ∉ subdailyOutVars → Wrong c (.outVar v)
  | precision : (∀ s, c.outPrecision = some s → s ∉ precisionOpts) → Wrong c (.option "out_precision")
  | lwCloud : (∀ s, c.lwCloud = some s → s ∉ lwCloudOpts) → Wrong c (.option "lw_cloud")
  | lwType : (∀ s, c.lwType = some s → s ∉ lwTypeOpts) → Wrong c (.option "lw_type")

/-- **C21, full statement**: the configuration is accepted iff nothing is wrong, and otherwise
refused with exactly one entry for each thing that is wrong.  False: `C21_refuted`. -/
def C21_full : Prop :=
  ∀ c : Cfg, c.outVars.Nodup →
    (validate c = .accepted ∧ (∀ p, ¬ Wrong c p)) ∨
    (∃ ps, validate c = .refused ps ∧ ps ≠ [] ∧ ps.Nodup ∧ ∀ p, p ∈ ps ↔ Wrong c p)

def goodCfg (ts : TimeStep) : Cfg :=
  { forcing := 1, forcingVars := 3, outDir := some "/out", timeStep := ts, forcingFmt := some "netcdf",
    metVars := ["t_min", "t_max", "prec"], outVars := ["prec"], outPrecision := some "f4",
    lwCloud := some "cloud_deardorff", lwType := some "prata" }

/-- **C21 is violated by the code**: an empty `time_step` is checked for, but the error raised is the
TypeError of `int(None)` (metsim.py:640), and no problem is reported. -/
theorem C21_refuted : ¬ C21_full := by
  intro h
  have := h (goodCfg .none) (by decide)
  have hv : validate (goodCfg .none) = .crashed .typeError := by decide
  rw [hv] at this
  rcases this with ⟨h, -⟩ | ⟨ps, h, -⟩ <;> cases h

theorem fmod_ne_zero_iff (ts : Int) : Int.fmod 1440 ts ≠ 0 ↔ ¬ ts ∣ 1440 := by
  rw [not_iff_not.2 (Int.dvd_iff_fmod_eq_zero (a := ts) (b := 1440))]

theorem optErr_spec (name : String) (v : Option String) (opts : List String) (p : Problem) :
    (p ∈ optErr name v opts ↔ p = .option name ∧ ∀ s, v = some s → s ∉ opts) ∧
    (optErr name v opts).Nodup := by
  cases v with
  | none => simp [optErr]
  | some s => simp only [optErr]; split_ifs with h <;> simp [h]

/-- **C21, the part that holds**: for every configuration whose time step is a non-zero number, the
outcome is acceptance iff nothing is wrong, else refusal listing each wrong thing exactly once.
Missing: time steps that are empty, zero or not a number (the run still stops, but with another
exception and without the list: `C21_no_silent_accept`). -/
theorem C21_validation_partial (c : Cfg) (hout : c.outVars.Nodup) (ts : Int) (hts : c.timeStep = .val ts)
    (h0 : ts ≠ 0) :
    (validate c = .accepted ∧ (∀ p, ¬ Wrong c p)) ∨
    (∃ ps, validate c = .refused ps ∧ ps ≠ [] ∧ ps.Nodup ∧ ∀ p, p ∈ ps ↔ Wrong c p) := by
  have hok : ∃ ps, problems c = .ok ps ∧ ps.Nodup ∧ ∀ p, p ∈ ps ↔ Wrong c p := by
    refine ⟨_, by simp only [problems, hts, if_neg h0]; rfl, ?_, ?_⟩
    · have hin : (inputErrs c).Nodup := by
        unfold inputErrs
        simp only [List.flatMap_cons, List.flatMap_nil]
        split_ifs <;> decide
      have hov : (outVarErrs c ts).Nodup := by
        unfold outVarErrs
        rw [List.nodup_flatMap]
        refine ⟨fun v _ => by split_ifs <;> simp, hout.imp ?_⟩
        intro a b hab
        simp only [Function.onFun]
        split_ifs <;> simp [Ne.symm hab]
      have hem : (emptyErrs c).Nodup := by
        unfold emptyErrs; split_ifs <;> decide
      have hf : (forcingErrs c).Nodup ∧ (forcingVarErrs c).Nodup ∧ (timeStepErrs ts).Nodup ∧
          (noOutErrs c).Nodup := by
        unfold forcingErrs forcingVarErrs timeStepErrs noOutErrs
        refine ⟨?_, ?_, ?_, ?_⟩ <;> split_ifs <;> simp
      have m1 : ∀ p ∈ forcingErrs c, p = .noForcing := by unfold forcingErrs; split_ifs <;> simp
      have m2 : ∀ p ∈ forcingVarErrs c, p = .noForcingVars := by unfold forcingVarErrs; split_ifs <;> simp
      have m3 : ∀ p ∈ emptyErrs c, ∃ s, p = .emptyValue s := by
        unfold emptyErrs; intro p; split_ifs <;> simp <;> (try rintro (rfl | rfl | rfl)) <;> simp
      have m4 : ∀ p ∈ timeStepErrs ts, p = .timeStep := by unfold timeStepErrs; split_ifs <;> simp
      have m5 : ∀ p ∈ inputErrs c, ∃ s, p = .missingInput s := by
        intro p hp
        unfold inputErrs at hp
        obtain ⟨v, -, hv⟩ := List.mem_flatMap.1 hp
        split_ifs at hv <;> simp at hv
        exact ⟨v, hv⟩
      have m6 : ∀ p ∈ noOutErrs c, p = .noOutVars := by unfold noOutErrs; split_ifs <;> simp
      have m7 : ∀ p ∈ outVarErrs c ts, ∃ s, p = .outVar s := by
        intro p hp
        unfold outVarErrs at hp
        obtain ⟨v, -, hv⟩ := List.mem_flatMap.1 hp
        split_ifs at hv <;> simp at hv
        exact ⟨v, hv⟩
      have m8 := fun p => (optErr_spec "out_precision" c.outPrecision precisionOpts p)
      have m9 := fun p => (optErr_spec "lw_cloud" c.lwCloud lwCloudOpts p)
      have m10 := fun p => (optErr_spec "lw_type" c.lwType lwTypeOpts p)
      have k8 : ∀ p ∈ optErr "out_precision" c.outPrecision precisionOpts, p = .option "out_precision" :=
        fun p hp => ((m8 p).1.1 hp).1
      have k9 : ∀ p ∈ optErr "lw_cloud" c.lwCloud lwCloudOpts, p = .option "lw_cloud" :=
        fun p hp => ((m9 p).1.1 hp).1
      have k10 : ∀ p ∈ optErr "lw_type" c.lwType lwTypeOpts, p = .option "lw_type" :=
        fun p hp => ((m10 p).1.1 hp).1
      simp only [List.nodup_append, List.mem_append]
      refine ⟨⟨⟨⟨⟨⟨⟨⟨⟨hf.1, hf.2.1, ?_⟩, hem, ?_⟩, hf.2.2.1, ?_⟩, hin, ?_⟩, hf.2.2.2, ?_⟩, hov, ?_⟩,
        (m8 .noForcing).2, ?_⟩, (m9 .noForcing).2, ?_⟩, (m10 .noForcing).2, ?_⟩
      all_goals
        rintro a ha b hb rfl
        first
        | (have hb' := m2 _ hb; subst hb'
           rcases ha with ha | ha <;> grind)
        | grind
    · intro p
      have i1 : p ∈ forcingErrs c ↔ p = .noForcing ∧ c.forcing = 0 := by
        unfold forcingErrs; split_ifs with h <;> simp [h]
      have i2 : p ∈ forcingVarErrs c ↔ p = .noForcingVars ∧ c.forcingVars = 0 := by
        unfold forcingVarErrs; split_ifs with h <;> simp [h]
      have i3 : p ∈ emptyErrs c ↔
          (p = .emptyValue "out_dir" ∧ (c.outDir = none ∨ c.outDir = some "")) ∨
          (p = .emptyValue "time_step" ∧ (c.timeStep = .none ∨ c.timeStep = .empty)) ∨
          (p = .emptyValue "forcing_fmt" ∧ (c.forcingFmt = none ∨ c.forcingFmt = some "")) := by
        unfold emptyErrs
        simp only [List.mem_append, or_assoc]
        refine or_congr ?_ (or_congr ?_ ?_) <;> split_ifs with h <;> simp [h]
      have i4 : p ∈ timeStepErrs ts ↔ p = .timeStep ∧ ¬ (ts ∣ 1440 ∧ (ts ≤ 360 ∨ ts = 1440)) := by
        have e : (Int.fmod 1440 ts ≠ 0 ∨ (ts > 6 * Cnst.MIN_PER_HOUR ∧ ts ≠ 1440)) ↔
            ¬ (ts ∣ 1440 ∧ (ts ≤ 360 ∨ ts = 1440)) := by
          rw [fmod_ne_zero_iff]
          have : ((6 * Cnst.MIN_PER_HOUR : Nat) : Int) = 360 := by decide
          simp only [Nat.cast_mul, Nat.cast_ofNat] at this
          simp only [gt_iff_lt, this]
          constructor
          · rintro (h | ⟨h1, h2⟩) ⟨h3, h4⟩
            · exact h h3
            · omega
          · intro h
            by_cases hd : ts ∣ 1440
            · right
              constructor
              · by_contra hc; exact h ⟨hd, by omega⟩
              · intro hc; exact h ⟨hd, Or.inr hc⟩
            · exact Or.inl hd
        unfold timeStepErrs
        split_ifs with h
        · simp [e.1 h]
        · simp [e.not.1 h]
      have i5 : p ∈ inputErrs c ↔ ∃ v ∈ ["t_min", "t_max", "prec"], v ∉ c.metVars ∧ p = .missingInput v := by
        unfold inputErrs
        rw [List.mem_flatMap]
        refine exists_congr fun v => and_congr_right fun _ => ?_
        split_ifs with h <;> simp [h]
      have i6 : p ∈ noOutErrs c ↔ p = .noOutVars ∧ c.outVars = [] := by
        unfold noOutErrs; split_ifs with h <;> simp [h]
      have i7 : p ∈ outVarErrs c ts ↔ ∃ v ∈ c.outVars, v ∉ outVarCheck ts ∧ p = .outVar v := by
        unfold outVarErrs
        rw [List.mem_flatMap]
        refine exists_congr fun v => and_congr_right fun _ => ?_
        split_ifs with h <;> simp [h]
      simp only [List.mem_append, (optErr_spec _ _ _ p).1, i1, i2, i3, i4, i5, i6, i7]
      constructor
      · rintro (((((((((⟨rfl, h⟩ | ⟨rfl, h⟩) | h) | ⟨rfl, h⟩) | ⟨v, hv, h, rfl⟩) | ⟨rfl, h⟩) |
          ⟨v, hv, h, rfl⟩) | ⟨rfl, h⟩) | ⟨rfl, h⟩) | ⟨rfl, h⟩)
        · exact .noForcing h
        · exact .noForcingVars h
        · rcases h with ⟨rfl, h⟩ | ⟨rfl, h⟩ | ⟨rfl, h⟩
          · exact .outDir h
          · exact .noTimeStep h
          · exact .forcingFmt h
        · exact .timeStep ts hts h
        · exact .input v hv h
        · exact .noOut h
        · unfold outVarCheck at h
          split_ifs at h with h1
          · exact .outDaily v (by rw [hts, h1]) hv h
          · exact .outSub v ts hts h1 hv h
        · exact .precision h
        · exact .lwCloud h
        · exact .lwType h
      · intro h
        cases h with
        | noForcing h => simp [h]
        | noForcingVars h => simp [h]
        | outDir h => simp [h]
        | noTimeStep h => simp [h]
        | forcingFmt h => simp [h]
        | timeStep ts' h1 h2 => rw [hts] at h1; injection h1 with h1; subst h1; simp [h2]
        | junk h => rw [hts] at h; cases h
        | input v hv h => left; left; left; left; left; right; exact ⟨v, hv, h, rfl⟩
        | noOut h => simp [h]
        | outDaily v h1 h2 h3 =>
          rw [hts] at h1; injection h1 with h1; subst h1
          left; left; left; right; exact ⟨v, h2, by simpa [outVarCheck] using h3, rfl⟩
        | outSub v ts' h1 h2 h3 h4 =>
          rw [hts] at h1; injection h1 with h1; subst h1
          left; left; left; right; exact ⟨v, h3, by simpa [outVarCheck, h2] using h4, rfl⟩
        | precision h => left; left; right; exact ⟨rfl, h⟩
        | lwCloud h => left; right; exact ⟨rfl, h⟩
        | lwType h => right; exact ⟨rfl, h⟩
  obtain ⟨ps, h1, h2, h3⟩ := hok
  cases ps with
  | nil =>
    left
    refine ⟨by simp [validate, h1], fun p hp => ?_⟩
    have := (h3 p).2 hp
    simp at this
  | cons q qs => right; exact ⟨q :: qs, by simp [validate, h1], by simp, h2, h3⟩

/-- **C21**: in the remaining cases the run is not accepted either. -/
theorem C21_no_silent_accept (c : Cfg) (h : ∀ ts : Int, c.timeStep = .val ts → ts = 0) :
    ∃ e, validate c = .crashed e := by
  unfold validate problems
  cases hts : c.timeStep with
  | val n => obtain rfl := h n hts; exact ⟨_, rfl⟩
  | none => exact ⟨_, rfl⟩
  | empty => exact ⟨_, rfl⟩
  | junk => exact ⟨_, rfl⟩

/-- Non-vacuity: an accepted configuration and one with three problems. -/
example : validate (goodCfg (.val 60)) = .accepted ∧
    validate { goodCfg (.val 1440) with outVars := ["temp"], forcing := 0, lwType := none } =
      .refused [.noForcing, .outVar "temp", .option "lw_type"] := by decide

end C21

/-! ## C20 -/
section C20

/-- **C20, full statement.** False: `C20_refuted`. -/
def C20_full : Prop :=
  ∀ n : Int, validate (goodCfg (.val n)) = .accepted ↔ (0 < n ∧ n ∣ 1440 ∧ n ≤ 360) ∨ n = 1440

/-- **C20 is violated by the code**: a negative divisor such as -60 passes. -/
theorem C20_refuted : ¬ C20_full := by
  intro h
  have := (h (-60)).1 (by decide)
  omega

/-- **C20, the part that holds**: for every non-negative number of minutes, in every otherwise correct
configuration, the step is accepted iff it is a positive divisor of a day of at most 6 hours, or a
day.  Missing: negative numbers. -/
theorem C20_time_step_partial (c : Cfg) (n : Int) (hn : 0 ≤ n) (hts : c.timeStep = .val n)
    (hout : c.outVars.Nodup) (hgood : ∀ p, Wrong c p → p = .timeStep) :
    validate c = .accepted ↔ (0 < n ∧ n ∣ 1440 ∧ n ≤ 360) ∨ n = 1440 := by
  by_cases h0 : n = 0
  · subst h0
    obtain ⟨e, he⟩ := C21_no_silent_accept c (fun ts h => by rw [hts] at h; injection h with h; exact h.symm)
    rw [he]; simp
  · rcases C21_validation_partial c hout n hts h0 with ⟨h1, h2⟩ | ⟨ps, h1, h2, -, h3⟩
    · simp only [h1, true_iff]
      have := h2 .timeStep
      by_contra hc
      apply this
      refine .timeStep n hts fun h => hc ?_
      rcases h with ⟨hd, h | h⟩
      · exact Or.inl ⟨by omega, hd, h⟩
      · exact Or.inr h
    · rw [h1]
      simp only [reduceCtorEq, false_iff]
      intro hc
      obtain ⟨p, hp⟩ := List.exists_mem_of_ne_nil ps h2
      have hw := (h3 p).1 hp
      have := hgood p hw; subst this
      cases hw with
      | timeStep ts h4 h5 =>
        rw [hts] at h4; injection h4 with h4; subst h4
        apply h5
        rcases hc with ⟨_, hd, hl⟩ | rfl
        · exact ⟨hd, Or.inl hl⟩
        · exact ⟨dvd_refl _, Or.inr rfl⟩
      | junk h => rw [hts] at h; cases h

example : (goodCfg (.val 60)).outVars.Nodup ∧ validate (goodCfg (.val 180)) = .accepted ∧
    validate (goodCfg (.val 7)) = .refused [.timeStep] ∧
    validate (goodCfg (.val 480)) = .refused [.timeStep] := by decide

end C20

/-! ## C22 -/
section C22

/-- A variable can be produced: it has a unit table and its default unit converts (so construction and
conversion succeed), and the frame has the column. -/
def Producible (metVars : List String) (ts : Int) (v : String) : Prop :=
  v ∈ Units.importAttrs.keys ∧ v ∈ columns metVars ts

/-- **C22, full statement.** False: `C22_refuted`. -/
def C22_full : Prop :=
  ∀ c ts, c.timeStep = .val ts → validate c = .accepted → ∀ v ∈ c.outVars, Producible c.metVars ts v

/-- **C22 is violated by the code**: `t_day` is accepted as daily output but has no units or converter
(the construction fails with a KeyError). -/
theorem C22_refuted : ¬ C22_full := by
  intro h
  have := h { goodCfg (.val 1440) with outVars := ["t_day"] } 1440 rfl (by decide) "t_day" (by simp)
  exact absurd this.1 (by decide)

/-- **C22 is also violated by** `wind` when no wind forcing is given. -/
theorem C22_wind_refuted : ∃ c ts, c.timeStep = .val ts ∧ validate c = .accepted ∧
    ∃ v ∈ c.outVars, v ∉ columns c.metVars ts :=
  ⟨{ goodCfg (.val 60) with outVars := ["wind"] }, 60, rfl, by decide, "wind", by simp, by decide⟩

/-- **C22, the part that holds**: every accepted variable other than `t_day`, and `wind` if wind is
among the forcing variables, has units, a converter for its default unit and a column. -/
theorem C22_producible_partial (c : Cfg) (ts : Int) (hts : c.timeStep = .val ts) (h0 : ts ≠ 0)
    (hout : c.outVars.Nodup) (ha : validate c = .accepted) (v : String) (hv : v ∈ c.outVars)
    (h1 : v ≠ "t_day") (h2 : v = "wind" → "wind" ∈ c.metVars) :
    Producible c.metVars ts v ∧ ∃ d, Units.importAttrs.get? v = some d ∧ Supported v d := by
  rcases C21_validation_partial c hout ts hts h0 with ⟨-, hw⟩ | ⟨ps, h, -⟩
  swap
  · rw [ha] at h; cases h
  have key : v ∈ Units.importAttrs.keys ∧ v ∈ columns c.metVars ts := by
    have hin : ∀ w ∈ ["t_min", "t_max", "prec"], w ∈ c.metVars := by
      intro w hw'; by_contra hc; exact hw _ (.input w hw' hc)
    by_cases hd : ts = 1440
    · subst hd
      have hm : v ∈ dailyOutVars := by by_contra hc; exact hw _ (.outDaily v hts hv hc)
      have e : columns c.metVars 1440 = dailyColumns c.metVars := by simp [columns]
      rw [e]
      simp only [dailyColumns, List.mem_append]
      simp only [dailyOutVars, List.mem_cons, List.not_mem_nil, or_false] at hm
      rcases hm with rfl | rfl | rfl | rfl | rfl | rfl | rfl | rfl | rfl | rfl
      · exact ⟨by decide, Or.inl (hin _ (by simp))⟩
      · exact ⟨by decide, Or.inl (hin _ (by simp))⟩
      · exact absurd rfl h1
      · exact ⟨by decide, Or.inl (hin _ (by simp))⟩
      · exact ⟨by decide, Or.inr (by decide)⟩
      · exact ⟨by decide, Or.inr (by decide)⟩
      · exact ⟨by decide, Or.inr (by decide)⟩
      · exact ⟨by decide, Or.inr (by decide)⟩
      · exact ⟨by decide, Or.inl (h2 rfl)⟩
      · exact ⟨by decide, Or.inr (by decide)⟩
    · have hm : v ∈ subdailyOutVars := by by_contra hc; exact hw _ (.outSub v ts hts hd hv hc)
      have hlt : ts < 1440 := by
        by_contra hc
        apply hw .timeStep
        refine .timeStep ts hts fun h => ?_
        rcases h with ⟨_, h | h⟩ <;> omega
      have e : columns c.metVars ts = subdailyColumns c.metVars := by simp [columns, hlt]
      rw [e]
      simp only [subdailyColumns, List.mem_append]
      simp only [subdailyOutVars, List.mem_cons, List.not_mem_nil, or_false] at hm
      rcases hm with rfl | rfl | rfl | rfl | rfl | rfl | rfl | rfl | rfl | rfl
      all_goals first
        | exact ⟨by decide, Or.inl (by decide)⟩
        | exact ⟨by decide, Or.inr (by rw [if_pos (h2 rfl)]; simp)⟩
  refine ⟨key, ?_⟩
  obtain ⟨t, d, f, a1, a2, a3⟩ := table_ok' v key.1
  exact ⟨d, a2, t, f, a1, a3⟩

/-- Non-vacuity: an accepted configuration asking for `wind`. -/
example : validate { goodCfg (.val 60) with
      outVars := ["temp", "wind"], metVars := ["t_min", "t_max", "prec", "wind"] } = .accepted := by
  decide

end C22

/-! ## C23 -/
section C23
open Lw

/-- **C23, full statement** (docs/configuration.rst: "Capitalization does not matter"). False:
`C23_refuted`. -/
def C23_full : Prop :=
  (∀ s, s ∈ lwTypeOpts → ∃ t, lwTypeOf s = .ok t) ∧ (∀ s, s ∈ lwCloudOpts → ∃ t, cloudOf s = .ok t) ∧
  (∀ s o, o ∈ lwTypeOpts → upperS s = upperS o → s ∈ lwTypeOpts) ∧
  (∀ s o, o ∈ lwCloudOpts → upperS s = upperS o → s ∈ lwCloudOpts)

/-- **C23 is violated by the code**: the documented spelling `PRATA` is rejected. -/
theorem C23_refuted : ¬ C23_full := by
  rintro ⟨-, -, h, -⟩
  have := h "PRATA" "prata" (by decide) (by decide)
  revert this; decide

/-- **C23, the part that holds**: every accepted option is implemented, and by the parameterisation
of that name (`default` being TVA). -/
theorem C23_accepted_implemented_partial :
    (∀ s, s ∈ lwTypeOpts → ∃ t, lwTypeOf s = .ok t) ∧ (∀ s, s ∈ lwCloudOpts → ∃ t, cloudOf s = .ok t) ∧
    lwTypeOf "default" = .ok .tva ∧ lwTypeOf "tva" = .ok .tva ∧ lwTypeOf "anderson" = .ok .anderson ∧
    lwTypeOf "brutsaert" = .ok .brutsaert ∧ lwTypeOf "satterlund" = .ok .satterlund ∧
    lwTypeOf "idso" = .ok .idso ∧ lwTypeOf "prata" = .ok .prata ∧
    cloudOf "default" = .ok .tva ∧ cloudOf "cloud_deardorff" = .ok .deardorff := by
  have key1 : ∀ s ∈ lwTypeOpts, (match lwTypeOf s with | .ok _ => true | .error _ => false) = true := by
    decide
  have key2 : ∀ s ∈ lwCloudOpts, (match cloudOf s with | .ok _ => true | .error _ => false) = true := by
    decide
  refine ⟨fun s hs => ?_, fun s hs => ?_, by decide, by decide, by decide, by decide, by decide,
    by decide, by decide, by decide, by decide⟩
  · have := key1 s hs; split at this
    · next t h => exact ⟨t, h⟩
    · cases this
  · have := key2 s hs; split at this
    · next t h => exact ⟨t, h⟩
    · cases this

end C23
end Verif.Props
