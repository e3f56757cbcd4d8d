import Verif.Props.GivenGlow
import Verif.Props.GapsDisk
import Verif.Props.DailyExample

/-!
# The same day, written at once and in steps, from files to files: C159
-/

namespace Verif.Props

open Flt Physics Np Dataset ConfigRead Main

/-- On disk there is, for step `m` of day `k`, a number that in the unit asked for says `s` in SI units. -/
def Stands (w : Main.World) (su : Setup) (start : Int) (n : Nat) (freq : Option Times.Freq) (os : List (String × String)) (dir : Nc.Dir)
    (c : Run.Cell) (v : String) (k m : Nat) (s : ℝ) : Prop :=
  ∃ u y kd, (sharedOf w su).outVars.get? v = some u ∧ Spec.kindOf v = some kd ∧ Spec.si u ((sharedOf w su).ts : ℝ) y = some (kd, s) ∧
    OnDisk w su start n freq dir ((outputOf w su freq os).names v) c (minute (sharedOf w su) start k m) (fin y)

/-- The second configuration asks for daily output, and may ask for other variables, units and stamps; the rest is the same. -/
def AtDailySteps (s s' : Cell.Shared) : Prop := ∃ pe ov, s' = { s with ts := 1440, periodEnding := pe, outVars := ov }

section
variable {w : Main.World} {su : Setup} {i : Worker.Inputs} {n : Nat} {freq : Option Times.Freq} {os : List (String × String)}
  {whole : DS ℝ} {mask : Arr ℝ} {dir : Nc.Dir}

/-- Reading the files of a run is reading what it recorded. -/
theorem Ended.stands {order : List (Dict String Chunk.Slice)} {fuel : Nat} (e : Ended w su i whole mask n freq os order fuel dir)
    {c : Run.Cell} (hc : (jobOfSetup w su i e.ld n freq os).Computed c) {v : String} {k m : Nat} (hk : k < n)
    (hm : m < 1440 / (sharedOf w su).ts) {s : ℝ} :
    Stands w su i.start n freq os dir c v k m s ↔ Reads (jobOfSetup w su i e.ld n freq os) e.files c v k m s := by
  have hkey : ∀ {u}, (sharedOf w su).outVars.get? v = some u → v ∈ (sharedOf w su).outVars.keys := by
    intro u hu
    by_contra hn
    rw [(Dict.get?_eq_none_iff _ _).2 hn] at hu
    cases hu
  constructor
  · rintro ⟨u, y, kd, h1, h2, h3, h4⟩
    obtain ⟨val, hval⟩ : ∃ val, Recorded (jobOfSetup w su i e.ld n freq os) e.files v c val := by
      have hts : (jobOfSetup w su i e.ld n freq os).shared.ts ≤ 1440 := Nat.le_of_dvd (by norm_num) e.sane.step.2
      rcases Nat.lt_or_eq_of_le hts with hsub | hday
      · obtain ⟨elev, lat, lon, -, -, -, q, daily, sub, hd, hsu, hcol⟩ := written_sub _ e.sane e.schedule e.run hsub hc
        obtain ⟨col, val, -, a2, -⟩ := hcol v u h1
        exact ⟨val, a2⟩
      · obtain ⟨elev, lat, lon, -, -, -, q, rep, hr, hcol⟩ := written_daily _ e.sane e.schedule e.run hday hc
        obtain ⟨col, val, -, a2, -⟩ := hcol v u h1
        exact ⟨val, a2⟩
    have hv := onDisk_unique (e.disk v (hkey h1) c val hval k hk m hm) h4
    exact ⟨u, val, y, kd, h1, hval, hv, h2, h3⟩
  · rintro ⟨u, val, y, kd, r1, r2, r3, r4, r5⟩
    exact ⟨u, y, kd, r1, r4, r5, r3 ▸ e.disk v (hkey r1) c val r2 k hk m hm⟩

end

/-- The rain of a day falls: it is spread evenly, or (`mix`) the files tell of frost on that day, or the storm that the domain file has for
the month is one the triangle has room for. -/
def FallsTold (i : Worker.Inputs) (whole : DS ℝ) (mask : Arr ℝ) (s : Cell.Shared) (c : Run.Cell) (k : Nat) : Prop :=
  (Lw.upperS s.precType ≠ "TRIANGLE" ∧ Lw.upperS s.precType ≠ "MIX") ∨
  (Lw.upperS s.precType = "MIX" ∧ ∀ x, DayTold i whole mask.dims c "t_min" (i.start + k) x → ∃ t, x = fin t ∧ t < 0) ∨
  (Storms s ∧ (∀ v ∈ ["dur", "t_pk"], ∀ a, whole.vars.get? v = some a → ∀ d ∈ a.dims, d = "month" ∨ d ∈ mask.dims) ∧
    ∀ x y, MonthValue i whole mask.dims c "t_pk" (i.start + k) x → MonthValue i whole mask.dims c "dur" (i.start + k) y →
      ∃ tp du, x = fin tp ∧ y = fin du ∧ HasWeight tp du)

theorem falls_of_told {i : Worker.Inputs} {whole : DS ℝ} {mask : Arr ℝ} {s : Cell.Shared} {c : Run.Cell} {n : Nat}
    {x : Run.CellIn Cell.Data ℝ} (fd : Filed ⟨i, whole, mask.dims, c⟩ s n x) {k : Nat} (hk : k < n) (h : FallsTold i whole mask s c k) :
    Falls s x.data.frame k := by
  rcases h with h | ⟨h1, h2⟩ | ⟨h1, h2, h3⟩
  · exact .inl h
  · obtain ⟨col, g1, g2⟩ := fd.told "t_min" (by simp)
    obtain ⟨t, e, ht⟩ := h2 _ (g2 k hk)
    exact .inr (.inl ⟨h1, col, t, g1, e, ht⟩)
  · obtain ⟨du, d1, d2⟩ := fd.storms h1 h2 "dur" (by simp)
    obtain ⟨tp, p1, p2⟩ := fd.storms h1 h2 "t_pk" (by simp)
    obtain ⟨a, b, e1, e2, e3⟩ := h3 _ _ (p2 k hk) (d2 k hk)
    exact .inr (.inr ⟨tp, du, a, b, p1, d1, e1, e2, e3⟩)

section C159
variable {w w' : Main.World} {su su' : Setup} {i : Worker.Inputs} {n : Nat} {freq freq' : Option Times.Freq}
  {os os' : List (String × String)} {whole : DS ℝ} {mask : Arr ℝ} {dir dir' : Nc.Dir}

/-- Both runs read the same, so that the one is the daily run of the other. -/
theorem daily_twin {order order' : List (Dict String Chunk.Slice)} {fuel fuel' : Nat} (e : Ended w su i whole mask n freq os order fuel dir)
    (e' : Ended w' su' i whole mask n freq' os' order' fuel' dir') (hd : AtDailySteps (sharedOf w su) (sharedOf w' su')) :
    DailyRunOf (jobOfSetup w su i e.ld n freq os) (jobOfSetup w' su' i e'.ld n freq' os') := by
  obtain ⟨pe, ov, hsh⟩ := hd
  have hl : Worker.load i (sharedOf w' su') [] = Worker.load i (sharedOf w su) [] := by rw [hsh]; rfl
  have hld : e'.ld = e.ld := Except.ok.inj (e'.load.symm.trans (hl.trans e.load))
  refine ⟨?_, ⟨(sharedOf w su).calendar, pe, ov, ?_⟩, rfl, rfl, ?_⟩
  · show (sharedOf w' su').ts = 1440
    rw [hsh]
  · exact hsh
  · show inputOf e'.ld = inputOf e.ld
    rw [hld]

variable (h : Left w su i whole mask n freq os dir) (h' : Left w' su' i whole mask n freq' os' dir')
  (hd : AtDailySteps (sharedOf w su) (sharedOf w' su')) (hsub : (sharedOf w su).ts < 1440) (hutc : (sharedOf w su).utcOffset = false)
  {c : Run.Cell} (hc : Active whole mask c)

include h h' hd hsub hutc hc

/-- **C159**: for wind and cloud cover, each step of a day has on disk what the day has. -/
theorem C159_even {v : String} (hv : v ∈ ["wind", "tskc"]) {u : String} (hu : (sharedOf w su).outVars.get? v = some u) {k : Nat} (hk : k < n)
    {s : ℝ} (hs : Stands w' su' i.start n freq' os' dir' c v k 0 s) {m : Nat} (hm : m < 1440 / (sharedOf w su).ts) :
    Stands w su i.start n freq os dir c v k m s := by
  obtain ⟨order, fuel, ⟨e⟩, hi, hsrc⟩ := h.ended
  obtain ⟨order', fuel', ⟨e'⟩, -, hsrc'⟩ := h'.ended
  have hcomp := ((e.cell hi hsrc).2.2.2 c hc).1
  have hcomp' := ((e'.cell hi hsrc').2.2.2 c hc).1
  have ht := daily_twin e e' hd
  have h0 : 0 < 1440 / (sharedOf w' su').ts := by rw [show (sharedOf w' su').ts = 1440 from ht.ts]; norm_num
  exact (e.stands hcomp hk hm).2 (C157_even _ _ e.sane e'.sane ht fuel fuel' order order' e.schedule e'.schedule e.files e'.files e.run e'.run
    hsub hutc c hcomp hcomp' hv hu hk ((e'.stands hcomp' hk h0).1 hs) hm)

/-- **C159**: the mean of the longwave radiation on disk is that of the day, if the forcing has longwave radiation; with the default
schemes, and with temperatures, vapour pressures and a cloud cover on disk that are in range. -/
theorem C159_longwave {u : String} (hu : (sharedOf w su).outVars.get? "longwave" = some u)
    (hty : Lw.lwTypeOf (sharedOf w su).lwType = .ok .prata) (hcl : Lw.cloudOf (sharedOf w su).lwCloud = .ok .deardorff) {k : Nat} (hk : k < n)
    {l f : ℝ} (hl : Stands w' su' i.start n freq' os' dir' c "longwave" k 0 l) (hf : Stands w' su' i.start n freq' os' dir' c "tskc" k 0 f)
    (hf0 : 0 ≤ f) (hf1 : f ≤ 1) (T p : ℕ → ℝ)
    (hT : ∀ m < 1440 / (sharedOf w su).ts, Stands w su i.start n freq os dir c "temp" k m (T m) ∧ 0 < T m)
    (hp : ∀ m < 1440 / (sharedOf w su).ts, Stands w su i.start n freq os dir c "vapor_pressure" k m (p m) ∧ 0 ≤ p m) :
    ∃ L : ℕ → ℝ, (∀ m < 1440 / (sharedOf w su).ts, Stands w su i.start n freq os dir c "longwave" k m (L m) ∧ (0 ≤ l → 0 ≤ L m)) ∧
      (∑ m ∈ Finset.range (1440 / (sharedOf w su).ts), L m) / (1440 / (sharedOf w su).ts : ℕ) = l := by
  obtain ⟨order, fuel, ⟨e⟩, hi, hsrc⟩ := h.ended
  obtain ⟨order', fuel', ⟨e'⟩, -, hsrc'⟩ := h'.ended
  have hcomp := ((e.cell hi hsrc).2.2.2 c hc).1
  have hcomp' := ((e'.cell hi hsrc').2.2.2 c hc).1
  have ht := daily_twin e e' hd
  have h0 : 0 < 1440 / (sharedOf w' su').ts := by rw [show (sharedOf w' su').ts = 1440 from ht.ts]; norm_num
  obtain ⟨L, l1, l2⟩ := C158_default _ _ e.sane e'.sane ht fuel fuel' order order' e.schedule e'.schedule e.files e'.files e.run e'.run
    hsub hutc c hcomp hcomp' hu hty hcl hk ((e'.stands hcomp' hk h0).1 hl) ((e'.stands hcomp' hk h0).1 hf) hf0 hf1 T p
    (fun m hm => ⟨(e.stands hcomp hk hm).1 (hT m hm).1, (hT m hm).2⟩) (fun m hm => ⟨(e.stands hcomp hk hm).1 (hp m hm).1, (hp m hm).2⟩)
  exact ⟨L, fun m hm => ⟨(e.stands hcomp hk hm).2 (l1 m hm).1, (l1 m hm).2⟩, l2⟩

/-- **C159**: the rain on disk is, in the mean of the steps, that of the day, if it falls. -/
theorem C159_rain {u : String} (hu : (sharedOf w su).outVars.get? "prec" = some u) {k : Nat} (hk : k < n)
    (hfall : FallsTold i whole mask (sharedOf w su) c k) {s : ℝ}
    (hs : Stands w' su' i.start n freq' os' dir' c "prec" k 0 s) :
    ∃ flux : ℕ → ℝ, (∀ m < 1440 / (sharedOf w su).ts, Stands w su i.start n freq os dir c "prec" k m (flux m) ∧ (0 ≤ s → 0 ≤ flux m)) ∧
      (∑ m ∈ Finset.range (1440 / (sharedOf w su).ts), flux m) / (1440 / (sharedOf w su).ts : ℕ) = s := by
  obtain ⟨order, fuel, ⟨e⟩, hi, hsrc⟩ := h.ended
  obtain ⟨order', fuel', ⟨e'⟩, -, hsrc'⟩ := h'.ended
  have hcomp := ((e.cell hi hsrc).2.2.2 c hc).1
  have hcomp' := ((e'.cell hi hsrc').2.2.2 c hc).1
  have ht := daily_twin e e' hd
  have h0 : 0 < 1440 / (sharedOf w' su').ts := by rw [show (sharedOf w' su').ts = 1440 from ht.ts]; norm_num
  obtain ⟨flux, f1, f2⟩ := C157_rain _ _ e.sane e'.sane ht fuel fuel' order order' e.schedule e'.schedule e.files e'.files e.run e'.run
    hsub hutc c hcomp hcomp' hu hk (falls_of_told (e.filed hi hsrc hc) hk hfall) ((e'.stands hcomp' hk h0).1 hs)
  exact ⟨flux, fun m hm => ⟨(e.stands hcomp hk hm).2 (f1 m hm).1, (f1 m hm).2⟩, f2⟩

/-- **C159**: the temperature on disk lies between what the daily run left as extremes of the day, maximum of the day before and minimum of the
day after; before the first day the state file tells the maximum. -/
theorem C159_temperature (hf : 0 < (sharedOf w su).tmaxFraction) (hf1 : (sharedOf w su).tmaxFraction ≤ 1)
    (hplace : PlaceTold ⟨i, whole, mask.dims, c⟩) (h90 : ∀ x, PlaceAt i whole mask.dims c "lat" (fin x) → |x| ≤ 90) {u : String}
    (hu : (sharedOf w su).outVars.get? "temp" = some u) (lo hi : ℕ → ℝ)
    (hlo : ∀ k < n, Stands w' su' i.start n freq' os' dir' c "t_min" k 0 (lo k))
    (hhi : ∀ k < n, Stands w' su' i.start n freq' os' dir' c "t_max" k 0 (hi k)) {k : Nat} (hk : k < n) {m : Nat}
    (hm : m < 1440 / (sharedOf w su).ts) :
    ∃ b T, DayTold i whole mask.dims c "t_max" (i.start - 1) (fin b) ∧ Stands w su i.start n freq os dir c "temp" k m T ∧
      (∀ L, L ≤ (if k = 0 then b + 273.15 else hi (k - 1)) → L ≤ lo k → L ≤ hi k → (k + 1 < n → L ≤ lo (k + 1)) → L ≤ T) ∧
      (∀ U, (if k = 0 then b + 273.15 else hi (k - 1)) ≤ U → lo k ≤ U → hi k ≤ U → (k + 1 < n → lo (k + 1) ≤ U) → T ≤ U) := by
  obtain ⟨order, fuel, ⟨e⟩, hso, hsrc⟩ := h.ended
  obtain ⟨order', fuel', ⟨e'⟩, -, hsrc'⟩ := h'.ended
  have hcomp := ((e.cell hso hsrc).2.2.2 c hc).1
  have hcomp' := ((e'.cell hso hsrc').2.2.2 c hc).1
  have ht := daily_twin e e' hd
  have h0 : 0 < 1440 / (sharedOf w' su').ts := by rw [show (sharedOf w' su').ts = 1440 from ht.ts]; norm_num
  have hpl := ((e.filed hso hsrc hc).place hplace).2.1
  obtain ⟨-, -, -, -, -, a, b, hab⟩ := C152_known _ e.sane fuel order e.schedule e.files e.run c hcomp hsub
  obtain ⟨T, t1, t2, t3⟩ := C157_temperature _ _ e.sane e'.sane ht fuel fuel' order order' e.schedule e'.schedule e.files e'.files e.run e'.run
    hsub hutc c hcomp hcomp' hf hf1
    (fun lat hl => h90 lat (by rw [show (inputOf e.ld c).lat = fin lat from hl] at hpl; exact hpl)) hu lo hi
    (fun k hk => (e'.stands hcomp' hk h0).1 (hlo k hk)) (fun k hk => (e'.stands hcomp' hk h0).1 (hhi k hk)) (b := b) (by rw [hab]) hk hm
  have hbe := (e.filed hso hsrc hc).before.2
  rw [show (inputOf e.ld c).data.stateEnd = (fin a, fin b) from hab] at hbe
  exact ⟨b, T, hbe, (e.stands hcomp hk hm).2 t1, t2, t3⟩

/-- **C159**: the shortwave radiation on disk is, in the mean of the steps, that of the day, where there is night; elsewhere it is at
most that; if it is estimated, or given as a mean over the daylight. -/
theorem C159_shortwave (hmd : (sharedOf w su).method = .mtclim ∨ (sharedOf w su).swAveraging = "daylight")
    (hplace : PlaceTold ⟨i, whole, mask.dims, c⟩) (h90 : ∀ x, PlaceAt i whole mask.dims c "lat" (fin x) → |x| ≤ 90)
    (hu : (sharedOf w su).outVars.get? "shortwave" = some "W m-2") {k : Nat} (hk : k < n) {s : ℝ}
    (hs : Stands w' su' i.start n freq' os' dir' c "shortwave" k 0 s) (hu' : (sharedOf w' su').outVars.get? "shortwave" = some "W m-2") :
    ∃ lat, PlaceAt i whole mask.dims c "lat" (fin lat) ∧
    ∃ flux : ℕ → ℝ, (∀ m < 1440 / (sharedOf w su).ts, Stands w su i.start n freq os dir c "shortwave" k m (flux m)) ∧
      (daylight lat (i.start - 730120 + k) ≤ 86399 →
        (∑ m ∈ Finset.range (1440 / (sharedOf w su).ts), flux m) / (1440 / (sharedOf w su).ts : ℕ) = s) ∧
      (0 ≤ s → (∑ m ∈ Finset.range (1440 / (sharedOf w su).ts), flux m) / (1440 / (sharedOf w su).ts : ℕ) ≤ s) := by
  obtain ⟨order, fuel, ⟨e⟩, hso, hsrc⟩ := h.ended
  obtain ⟨order', fuel', ⟨e'⟩, -, hsrc'⟩ := h'.ended
  have hcomp := ((e.cell hso hsrc).2.2.2 c hc).1
  have hcomp' := ((e'.cell hso hsrc').2.2.2 c hc).1
  have ht := daily_twin e e' hd
  have h0 : 0 < 1440 / (sharedOf w' su').ts := by rw [show (sharedOf w' su').ts = 1440 from ht.ts]; norm_num
  have hpl := ((e.filed hso hsrc hc).place hplace).2.1
  obtain ⟨-, lat, -, -, hlat, -⟩ := readout _ e.sane e.schedule e.run hsub hcomp
  rw [show (inputOf e.ld c).lat = fin lat from hlat] at hpl
  obtain ⟨val, val', v1, v2, v3⟩ := C76_shortwave_partial _ _ e.sane e'.sane ht fuel fuel' order order' e.schedule e'.schedule e.files e'.files
    e.run e'.run hsub hutc hmd c hcomp hcomp' "W m-2" "W m-2" hu hu' lat hlat (h90 lat hpl)
  obtain ⟨u, val2, x, kd, r1, r2, r3, r4, r5⟩ := (e'.stands hcomp' hk h0).1 hs
  obtain rfl := Option.some.inj (hu'.symm.trans r1)
  have hx := recorded_unique _ e'.sane r2 v2 hk h0
  obtain rfl : x = s := (Prod.mk.inj (Option.some.inj r5)).2
  obtain ⟨flux, f1, f2, f3⟩ := v3 k hk x (by rw [← hx, r3])
  exact ⟨lat, hpl, flux, fun m hm => (e.stands hcomp hk hm).2 ⟨"W m-2", val, flux m, .energyFlux, hu, v1, f1 m hm, rfl, rfl⟩, f2, f3⟩

end C159

/-- **C159 is not vacuous**: two runs of INI files, in steps of six hours and of a day, leave the same rain. -/
example : ∃ fuel fuel' dir dir' os os',
    runIni (MainExample.world fun _ => true) fuel MainExample.opts MainExample.ini MainExample.chunks.reverse = .ok dir ∧
    runIni (MainExample.world fun _ => true) fuel' MainExample.opts DailyExample.ini MainExample.chunks.reverse = .ok dir' ∧
    ∃ s, Stands (MainExample.world fun _ => true) DailyExample.setup FilesExample.inputs.start 2 none os' dir' [0, 0] "prec" 0 0 s ∧
    ∃ flux : ℕ → ℝ, (∀ m < 4, Stands (MainExample.world fun _ => true) MainExample.setup FilesExample.inputs.start 2 none os dir [0, 0] "prec" 0 m (flux m)) ∧
      (∑ m ∈ Finset.range 4, flux m) / (4 : ℕ) = s := by
  obtain ⟨fuel, h⟩ := MainExample.runs_ini (fun _ => true) rfl
  obtain ⟨dir, hdir⟩ := h 0
  obtain ⟨fuel', h'⟩ := DailyExample.runs_ini (fun _ => true) rfl
  obtain ⟨dir', hdir'⟩ := h' 0
  obtain ⟨p, os, ld, hready, hrun, -⟩ := C95_ini (w := MainExample.world fun _ => true) MainExample.doc_of MainExample.from_ini
    (MainExample.named _) FilesExample.sound (MainExample.sourced _) (MainExample.unsplit _) (MainExample.plan _ _ MainExample.renamed)
    MainExample.sliced (List.reverse_perm _) (MainExample.knows _) (fuel + 0)
  obtain ⟨p', os', ld', hready', hrun', -⟩ := C95_ini (w := MainExample.world fun _ => true) DailyExample.doc_of DailyExample.from_ini
    (DailyExample.named _) FilesExample.sound (DailyExample.sourced _) (DailyExample.unsplit _) (DailyExample.plan _ _ DailyExample.renamed)
    DailyExample.sliced (List.reverse_perm _) (MainExample.knows _) (fuel' + 0)
  have hl := Left.gridded p _ _ hready (hrun ▸ hdir)
  have hl' := Left.gridded p' _ _ hready' (hrun' ▸ hdir')
  have hact := DailyExample.active 0 (by norm_num)
  obtain ⟨s, hs⟩ : ∃ s, Stands (MainExample.world fun _ => true) DailyExample.setup FilesExample.inputs.start 2 none os' dir' [0, 0] "prec" 0 0 s := by
    obtain ⟨order, fl, ⟨e⟩, hso, hsrc⟩ := hl'.ended
    have hcomp := ((e.cell hso hsrc).2.2.2 _ hact).1
    obtain ⟨col, g1, g2⟩ := (e.filed hso hsrc hact).told "prec" (by simp)
    have hx := g2 0 (by norm_num)
    unfold DayTold at hx
    rw [if_neg (by push_cast; omega)] at hx
    obtain ⟨r, hr, -⟩ := MainExample.told_rain hx
    obtain ⟨val, b1, b2⟩ := C75_daily_rain _ e.sane fl order e.schedule e.files e.run rfl [0, 0] hcomp "mm timestep-1" rfl
    obtain ⟨flux, f1, -⟩ := b2 0 (show 0 < 2 by norm_num) col r g1 hr (fun h => absurd h (lt_irrefl 1440))
    obtain ⟨x, x1, x2, -⟩ := f1 0 (show 0 < 1440 / 1440 by norm_num)
    exact ⟨flux 0, (e.stands hcomp (by norm_num) (show 0 < 1440 / 1440 by norm_num)).2 ⟨"mm timestep-1", val, x, _, rfl, b1, x1, rfl, x2⟩⟩
  obtain ⟨flux, f1, f2⟩ := C159_rain hl hl' ⟨_, _, rfl⟩ (by show 360 < 1440; norm_num) rfl hact
    (u := "mm timestep-1") rfl (by norm_num) (.inl (by constructor <;> (show Lw.upperS "uniform" ≠ _; decide))) hs
  exact ⟨_, _, dir, dir', os, os', hdir, hdir', s, hs, flux, fun m hm => (f1 m hm).1, f2⟩

end Verif.Props
