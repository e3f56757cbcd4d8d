import Verif.Props.Nightglow
import Verif.Props.Parched

/-!
# Gaps in the forcing, from files to files: C151, C153, C154, C155
-/

namespace Verif.Props

open Flt Physics Np Dataset ConfigRead Main

/-- A number in a unit says one thing. -/
theorem si_one {u : String} {ts x y s : ℝ} {kd : Spec.Kind} (hts : 0 < ts) (hx : Spec.si u ts x = some (kd, s)) (hy : Spec.si u ts y = some (kd, s)) :
    x = y := by
  have h := hx.trans hy.symm
  unfold Spec.si at h hx
  split at hx
  all_goals first
    | (simp only [Option.some.injEq, Prod.mk.injEq, true_and] at h
       first
         | exact h
         | linarith
         | (rw [div_left_inj' (by positivity)] at h; exact h))
    | cases hx

section
variable {w : Main.World} {su : Setup} {i : Worker.Inputs} {n : Nat} {freq : Option Times.Freq} {os : List (String × String)}
  {whole : DS ℝ} {mask : Arr ℝ} {dir : Nc.Dir}

/-- What a reader of a sub-daily run's files finds, with its units. -/
theorem Ended.reads {order : List (Dict String Chunk.Slice)} {fuel : Nat} (e : Ended w su i whole mask n freq os order fuel dir)
    (hsub : (sharedOf w su).ts < 1440) {c : Run.Cell} (hc : (jobOfSetup w su i e.ld n freq os).Computed c) {v u dflt : String} {kd : Spec.Kind}
    (hu : (sharedOf w su).outVars.get? v = some u) (hdf : Units.importAttrs.get? v = some dflt) (hkd : Spec.kindOf v = some kd)
    (hbug : ¬ (v = "air_pressure" ∧ u = "hPa")) {k m : Nat} (hk : k < n) (hm : m < 1440 / (sharedOf w su).ts) {y : ℝ} :
    OnDisk w su i.start n freq dir ((outputOf w su freq os).names v) c (minute (sharedOf w su) i.start k m) (fin y) ↔
      ∃ s, Reads (jobOfSetup w su i e.ld n freq os) e.files c v k m s ∧ Spec.si u ((sharedOf w su).ts : ℝ) y = some (kd, s) := by
  have hkey : v ∈ (sharedOf w su).outVars.keys := by
    by_contra hn
    rw [(Dict.get?_eq_none_iff _ _).2 hn] at hu
    cases hu
  constructor
  · intro h
    obtain ⟨elev, lat, lon, -, -, -, q, daily, sub, hd, hsu, hcol⟩ := written_sub _ e.sane e.schedule e.run hsub hc
    obtain ⟨col, val, a1, a2, a3⟩ := hcol v u hu
    have hv := onDisk_unique (e.disk v hkey c val a2 k hk m hm) h
    have hw := a3 k hk m hm
    rw [hv] at hw
    cases hx : col.getD (k * (1440 / (jobOfSetup w su i e.ld n freq os).shared.ts) + m) nan with
    | nan =>
      rw [hx] at hw
      exact absurd (C01_missing _ _ _ _ hw) (by simp)
    | fin x =>
      rw [hx] at hw
      obtain ⟨y', s, kd', b1, b2, b3, b4⟩ := convert_si hbug hdf e.sane.step.1 hw
      obtain rfl := Flt.fin.inj b1
      obtain rfl : kd = kd' := Option.some.inj (hkd.symm.trans b2)
      exact ⟨s, ⟨u, val, y, kd, hu, a2, hv, hkd, b3⟩, b3⟩
  · rintro ⟨s, ⟨u', val, y', kd', r1, r2, r3, r4, r5⟩, hs⟩
    obtain rfl := Option.some.inj (hu.symm.trans r1)
    obtain rfl := Option.some.inj (hkd.symm.trans r4)
    have hts : (0 : ℝ) < (sharedOf w su).ts := by exact_mod_cast e.sane.step.1
    obtain rfl := si_one hts hs r5
    exact r3 ▸ e.disk v hkey c val r2 k hk m hm

/-- What keeps its value keeps it on disk. -/
theorem Ended.held {order : List (Dict String Chunk.Slice)} {fuel : Nat} (e : Ended w su i whole mask n freq os order fuel dir)
    (hsub : (sharedOf w su).ts < 1440) {c : Run.Cell} (hc : (jobOfSetup w su i e.ld n freq os).Computed c) {v u dflt : String} {kd : Spec.Kind}
    (hu : (sharedOf w su).outVars.get? v = some u) (hdf : Units.importAttrs.get? v = some dflt) (hkd : Spec.kindOf v = some kd)
    (hbug : ¬ (v = "air_pressure" ∧ u = "hPa")) {d a k m : Nat} (hd : d < n) (ha : a < 1440 / (sharedOf w su).ts) (hk : k < n)
    (hm : m < 1440 / (sharedOf w su).ts)
    (h : ∀ s, Reads (jobOfSetup w su i e.ld n freq os) e.files c v d a s → Reads (jobOfSetup w su i e.ld n freq os) e.files c v k m s) {y : ℝ}
    (hy : OnDisk w su i.start n freq dir ((outputOf w su freq os).names v) c (minute (sharedOf w su) i.start d a) (fin y)) :
    OnDisk w su i.start n freq dir ((outputOf w su freq os).names v) c (minute (sharedOf w su) i.start k m) (fin y) := by
  obtain ⟨s, h1, h2⟩ := (e.reads hsub hc hu hdf hkd hbug hd ha).1 hy
  exact (e.reads hsub hc hu hdf hkd hbug hk hm).2 ⟨s, h s h1, h2⟩

/-- **C151**, what holds on disk of the rain: through days for which the files tell none, it falls as in the last step before them. -/
theorem C151_held_partial (h : Left w su i whole mask n freq os dir) (hsub : (sharedOf w su).ts < 1440) (hloc : (sharedOf w su).utcOffset = false)
    {c : Run.Cell} (hc : Active whole mask c) {u : String} (hu : (sharedOf w su).outVars.get? "prec" = some u) :
    ∃ rain : ℕ → Flt ℝ, (∀ k < n, DayTold i whole mask.dims c "prec" (i.start + k) (rain k)) ∧
      ∀ k < n, ∀ m < 1440 / (sharedOf w su).ts, ∀ d < k, (∀ b, d < b → b ≤ k → rain b = nan) → ∀ y,
        OnDisk w su i.start n freq dir ((outputOf w su freq os).names "prec") c (minute (sharedOf w su) i.start d (1440 / (sharedOf w su).ts - 1)) (fin y) →
        OnDisk w su i.start n freq dir ((outputOf w su freq os).names "prec") c (minute (sharedOf w su) i.start k m) (fin y) := by
  obtain ⟨order, fuel, ⟨e⟩, hi, hsrc⟩ := h.ended
  obtain ⟨-, -, -, hcell⟩ := e.cell hi hsrc
  obtain ⟨hcomp, -, -, -⟩ := hcell c hc
  obtain ⟨col, hcol, f2⟩ := (e.filed hi hsrc hc).told "prec" (by simp)
  refine ⟨col, f2, fun k hk m hm d hd hx y hy => ?_⟩
  exact e.held hsub hcomp hu (dflt := "mm timestep-1") rfl rfl (by simp) (hd.trans hk) (a := 1440 / (sharedOf w su).ts - 1) (by omega) hk hm
    (fun s hs => C151_rain_partial _ e.sane fuel order e.schedule e.files e.run hsub hloc c hcomp hcol hu hk hm hd hx hs) hy

/-- **C153**, what holds on disk of the radiation: through days for which the files give none, it stays as in the last step before them. -/
theorem C153_held_partial (h : Left w su i whole mask n freq os dir) (hsub : (sharedOf w su).ts < 1440) (hloc : (sharedOf w su).utcOffset = false)
    (hm : (sharedOf w su).method = .passthrough) {c : Run.Cell} (hc : Active whole mask c) (hgiven : Provided i "shortwave")
    (hshape : "shortwave" ∉ i.constants.map Prod.fst → Shaped i.forcing i.names mask.dims "shortwave")
    {u : String} (hu : (sharedOf w su).outVars.get? "shortwave" = some u) :
    ∃ sun : ℕ → Flt ℝ, (∀ k < n, GivenFor i whole mask.dims c "shortwave" (i.start + k) (sun k)) ∧
      ∀ k < n, ∀ m < 1440 / (sharedOf w su).ts, ∀ d < k, (∀ b, d < b → b ≤ k → sun b = nan) → ∀ y,
        OnDisk w su i.start n freq dir ((outputOf w su freq os).names "shortwave") c (minute (sharedOf w su) i.start d (1440 / (sharedOf w su).ts - 1))
          (fin y) →
        OnDisk w su i.start n freq dir ((outputOf w su freq os).names "shortwave") c (minute (sharedOf w su) i.start k m) (fin y) := by
  obtain ⟨order, fuel, ⟨e⟩, hi, hsrc⟩ := h.ended
  obtain ⟨-, -, -, hcell⟩ := e.cell hi hsrc
  obtain ⟨hcomp, -, -, -⟩ := hcell c hc
  obtain ⟨f1, f2⟩ := (e.filed hi hsrc hc).plain "shortwave" (by decide) hshape
  obtain ⟨col, hcol⟩ := Option.ne_none_iff_exists'.1 (f1.2 hgiven)
  refine ⟨col, f2 col hcol, fun k hk m hm' d hd hx y hy => ?_⟩
  exact e.held hsub hcomp hu (dflt := "W m-2") rfl rfl (by simp) (hd.trans hk) (a := 1440 / (sharedOf w su).ts - 1) (by omega) hk hm'
    (fun s hs => C153_hold_partial _ e.sane fuel order e.schedule e.files e.run hsub hloc hm c hcomp hcol hu hk hm' hd hx hs) hy

/-- **C153**, what holds on disk of the sky cover: each step of a day has that of the day standing in for it. -/
theorem C153_disk_partial (h : Left w su i whole mask n freq os dir) (hsub : (sharedOf w su).ts < 1440) (hloc : (sharedOf w su).utcOffset = false)
    (hm : (sharedOf w su).method = .passthrough) {c : Run.Cell} (hc : Active whole mask c) (hgiven : Provided i "tskc")
    (hshape : "tskc" ∉ i.constants.map Prod.fst → Shaped i.forcing i.names mask.dims "tskc")
    {u : String} (hu : (sharedOf w su).outVars.get? "tskc" = some u) :
    ∃ sky : ℕ → Flt ℝ, (∀ k < n, GivenFor i whole mask.dims c "tskc" (i.start + k) (sky k)) ∧
      ∀ k < n, ∀ m < 1440 / (sharedOf w su).ts, ∀ d < n, ∀ x, sky d = fin x → StandIn sky k d →
        ∃ y, OnDisk w su i.start n freq dir ((outputOf w su freq os).names "tskc") c (minute (sharedOf w su) i.start k m) (fin y) ∧
          Spec.si u ((sharedOf w su).ts : ℝ) y = some (.ratio, x) := by
  obtain ⟨order, fuel, ⟨e⟩, hi, hsrc⟩ := h.ended
  obtain ⟨-, -, -, hcell⟩ := e.cell hi hsrc
  obtain ⟨hcomp, -, -, -⟩ := hcell c hc
  obtain ⟨f1, f2⟩ := (e.filed hi hsrc hc).plain "tskc" (by decide) hshape
  obtain ⟨col, hcol⟩ := Option.ne_none_iff_exists'.1 (f1.2 hgiven)
  refine ⟨col, f2 col hcol, fun k hk m hm' d hd x hx hst => ?_⟩
  have r := C153_sky_partial _ e.sane fuel order e.schedule e.files e.run hsub hloc hm c hcomp hcol hu hk hm' hd hx hst
  obtain ⟨u', val, y, kd, r1, r2, r3, r4, r5⟩ := id r
  obtain rfl : u = u' := Option.some.inj (hu.symm.trans r1)
  obtain rfl : Spec.Kind.ratio = kd := Option.some.inj r4
  exact ⟨y, (e.reads hsub hcomp hu (dflt := "fraction") rfl rfl (by simp) hk hm').2 ⟨x, r, r5⟩, r5⟩

/-- **C155**: on disk: through days for which the files give no longwave radiation although they do for others, it stays as in the last step
before them. -/
theorem C155_disk (h : Left w su i whole mask n freq os dir) (hsub : (sharedOf w su).ts < 1440) {c : Run.Cell} (hc : Active whole mask c)
    (hgiven : Provided i "longwave") (hshape : "longwave" ∉ i.constants.map Prod.fst → Shaped i.forcing i.names mask.dims "longwave")
    {u : String} (hu : (sharedOf w su).outVars.get? "longwave" = some u) :
    ∃ glow : ℕ → Flt ℝ, (∀ k < n, GivenFor i whole mask.dims c "longwave" (i.start + k) (glow k)) ∧
      ∀ k < n, ∀ m < 1440 / (sharedOf w su).ts, ∀ d < k, (∀ b, d < b → b ≤ k → glow b = nan) → ∀ y,
        OnDisk w su i.start n freq dir ((outputOf w su freq os).names "longwave") c (minute (sharedOf w su) i.start d (1440 / (sharedOf w su).ts - 1))
          (fin y) →
        OnDisk w su i.start n freq dir ((outputOf w su freq os).names "longwave") c (minute (sharedOf w su) i.start k m) (fin y) := by
  obtain ⟨order, fuel, ⟨e⟩, hi, hsrc⟩ := h.ended
  obtain ⟨-, -, -, hcell⟩ := e.cell hi hsrc
  obtain ⟨hcomp, -, -, -⟩ := hcell c hc
  obtain ⟨f1, f2⟩ := (e.filed hi hsrc hc).plain "longwave" (by decide) hshape
  obtain ⟨col, hcol⟩ := Option.ne_none_iff_exists'.1 (f1.2 hgiven)
  refine ⟨col, f2 col hcol, fun k hk m hm d hd hx y hy => ?_⟩
  exact e.held hsub hcomp hu (dflt := "W m-2") rfl rfl (by simp) (hd.trans hk) (a := 1440 / (sharedOf w su).ts - 1) (by omega) hk hm
    (fun s hs => C155_hold _ e.sane fuel order e.schedule e.files e.run hsub c hcomp hu hk hm hd
      (fun b b1 b2 => .inl ⟨col, hcol, hx b b1 b2⟩) hs) hy

/-- **C154**: on disk: between the sunrise of a day and that of a later one, all the days between which have no vapour pressure in the files,
the vapour pressure stays as it is in the last step before. -/
theorem C154_disk (h : Left w su i whole mask n freq os dir) (hsub : (sharedOf w su).ts < 1440) (hloc : (sharedOf w su).utcOffset = false)
    (hm : (sharedOf w su).method = .passthrough) (hf : 0 < (sharedOf w su).tmaxFraction ∧ (sharedOf w su).tmaxFraction ≤ 1)
    {c : Run.Cell} (hc : Active whole mask c) (hgiven : Provided i "vapor_pressure")
    (hshape : "vapor_pressure" ∉ i.constants.map Prod.fst → Shaped i.forcing i.names mask.dims "vapor_pressure")
    (hplace : ∀ v ∈ ["elev", "lat", "lon"], v ∉ i.constants.map Prod.fst ∧ (∀ u, i.names.get? u ≠ some v) ∧
      ∀ a, whole.vars.get? v = some a → ∀ d ∈ a.dims, d ∈ mask.dims)
    (h90 : ∀ x, PlaceAt i whole mask.dims c "lat" (fin x) → |x| ≤ 90)
    {u : String} (hu : (sharedOf w su).outVars.get? "vapor_pressure" = some u) :
    ∃ (lat : ℝ) (vp : ℕ → Flt ℝ) (rise set : ℕ → ℝ), PlaceAt i whole mask.dims c "lat" (fin lat) ∧
      (∀ k < n, GivenFor i whole mask.dims c "vapor_pressure" (i.start + k) (vp k)) ∧
      SunTimes lat (i.start - 730120) n (sharedOf w su).tmaxFraction rise set ∧
      ∀ p q, p + 1 < q → q < n → (∀ b, p < b → b < q → vp b = nan) →
        ∀ d < n, ∀ a < 1440 / (sharedOf w su).ts, (1440 * p + rise p : ℝ) < 1440 * d + (sharedOf w su).ts * (a + 1 + 1) →
        ∀ k < n, ∀ m < 1440 / (sharedOf w su).ts, (1440 * d + (sharedOf w su).ts * a : ℝ) ≤ 1440 * k + (sharedOf w su).ts * m →
          (1440 * k + (sharedOf w su).ts * (m + 1) : ℝ) < 1440 * q + rise q → ∀ y,
        OnDisk w su i.start n freq dir ((outputOf w su freq os).names "vapor_pressure") c (minute (sharedOf w su) i.start d a) (fin y) →
        OnDisk w su i.start n freq dir ((outputOf w su freq os).names "vapor_pressure") c (minute (sharedOf w su) i.start k m) (fin y) := by
  obtain ⟨order, fuel, ⟨e⟩, hi, hsrc⟩ := h.ended
  obtain ⟨-, -, -, hcell⟩ := e.cell hi hsrc
  obtain ⟨hcomp, -, -, -⟩ := hcell c hc
  have fd := e.filed hi hsrc hc
  obtain ⟨f1, f2⟩ := fd.plain "vapor_pressure" (by decide) hshape
  obtain ⟨col, hcol⟩ := Option.ne_none_iff_exists'.1 (f1.2 hgiven)
  obtain ⟨-, lat, -, -, hlat, -⟩ := readout _ e.sane e.schedule e.run hsub hcomp
  have hpl := (fd.place hplace).2.1
  rw [show (inputOf e.ld c).lat = fin lat from hlat] at hpl
  obtain ⟨rise, set, s1, s2⟩ := C154_hold _ e.sane fuel order e.schedule e.files e.run hsub hloc hm c hcomp hcol hu hlat (h90 _ hpl) hf
  refine ⟨lat, col, rise, set, hpl, f2 col hcol, s1, fun p q hpq hq hx d hd a ha x1 k hk m hm' x2 x3 y hy => ?_⟩
  exact e.held hsub hcomp hu (dflt := "Pa") rfl rfl (by simp) hd ha hk hm' (s2 p q hpq hq hx d hd a ha x1 k hk m hm' x2 x3) hy

end

end Verif.Props
