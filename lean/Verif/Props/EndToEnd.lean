import Verif.Props.Vic
import Verif.Props.FilesSound
import Verif.Props.Balance
import Verif.Props.Admissible

/-!
# C107: from the files a run reads to the files it leaves
-/

namespace Verif.Props

open Dataset ConfigRead Main Flt

/-- The stamp of step `m` of day `k` of a run, in minutes since 2000-01-01. -/
def minute (s : Cell.Shared) (start : Int) (k m : Nat) : ℚ :=
  1440 * ((start - 730120 : Int) + k) + s.ts * m + if s.periodEnding then (s.ts : ℚ) else 0

/-- What the files a run leaves hold for a cell under a name at a time: the time is in one of the files, and wherever it is the file has that
stamp and the value there. -/
def OnDisk (w : World) (su : Setup) (start : Int) (n : Nat) (freq : Option Times.Freq) (dir : Nc.Dir) (name : String) (c : Run.Cell)
    (t : ℚ) (x : Flt ℝ) : Prop :=
  ∃ G, Times.getOutputTimes (sharedOf w su).cfg freq (consecutive (start - 730120) n) = .ok G ∧ (∃ g ∈ G, t ∈ g) ∧
    ∀ g ∈ G, ∀ k : Nat, g[k]? = some t → ∃ path f tv ov,
      Times.filename (w.cfg.abspath su.outDir).toList su.outPrefix.toList g = .ok path ∧ dir (String.ofList path) = some f ∧
      f.vars.get? "time" = some tv ∧ f.vars.get? name = some ov ∧ OnCalendar (sharedOf w su).calendar t (tv.data [k]) ∧
      stored (ov.data (k :: c)) = x

/-- There is only one such value. -/
theorem onDisk_unique {w : World} {su : Setup} {start : Int} {n : Nat} {freq : Option Times.Freq} {dir : Nc.Dir} {name : String}
    {c : Run.Cell} {t : ℚ} {x y : Flt ℝ} (hx : OnDisk w su start n freq dir name c t x) (hy : OnDisk w su start n freq dir name c t y) :
    x = y := by
  obtain ⟨G, h1, ⟨g, hg, ht⟩, h2⟩ := hx
  obtain ⟨G', h1', -, h2'⟩ := hy
  obtain rfl := Except.ok.inj (h1.symm.trans h1')
  obtain ⟨k, hk⟩ := List.mem_iff_getElem?.1 ht
  obtain ⟨path, f, tv, ov, a1, a2, a3, a4, a5, a6⟩ := h2 g hg k hk
  obtain ⟨path', f', tv', ov', b1, b2, b3, b4, b5, b6⟩ := h2' g hg k hk
  obtain rfl := Except.ok.inj (a1.symm.trans b1)
  obtain rfl := Option.some.inj (a2.symm.trans b2)
  obtain rfl := Option.some.inj (a4.symm.trans b4)
  exact a6.symm.trans b6

section
variable {w : World} {p : Conf} {su : Setup} {i : Worker.Inputs} {n : Nat} {freq : Option Times.Freq}
  {os : List (String × String)} {order : List (Dict String Chunk.Slice)} {whole : DS ℝ} {mask : Arr ℝ}

/-- The cells that are to be computed are those of the run. -/
theorem computed_of {ld : Worker.Loads} {c : Run.Cell} (hc : Active ld.dom ld.mask c) : (jobOfSetup w su i ld n freq os).Computed c := by
  refine ⟨?_, hc.2⟩
  show c ∈ gridCells (maskDims ld.dom ld.mask.dims)
  unfold gridCells maskDims
  rw [List.map_map]
  exact hc.1

/-- A run that has ended, seen through what it computed. -/
structure Ended (w : World) (su : Setup) (i : Worker.Inputs) (whole : DS ℝ) (mask : Arr ℝ) (n : Nat) (freq : Option Times.Freq)
    (os : List (String × String)) (order : List (Dict String Chunk.Slice)) (fuel : Nat) (dir : Nc.Dir) where
  ld : Worker.Loads
  files : Run.Files Cell.Output
  load : Worker.load i (sharedOf w su) [] = .ok ld
  domain : ld.dom = whole
  grid : ld.mask = mask
  cells : ∀ c ∈ Worker.positions whole mask.dims, Worker.cellIn ld c = .ok (inputOf ld c)
  sane : (jobOfSetup w su i ld n freq os).Sane
  schedule : (jobOfSetup w su i ld n freq os).Schedule order
  run : (jobOfSetup w su i ld n freq os).run fuel order = .ok files
  disk : ∀ v ∈ su.shared.outVars.keys, ∀ c val, Recorded (jobOfSetup w su i ld n freq os) files v c val →
    ∀ k < n, ∀ m < 1440 / (sharedOf w su).ts, OnDisk w su i.start n freq dir ((outputOf w su freq os).names v) c
      (minute (sharedOf w su) i.start k m) (val ((jobOfSetup w su i ld n freq os).stamp k m))

theorem minute_eq (ld : Worker.Loads) (k m : Nat) :
    (jobOfSetup w su i ld n freq os).stamp k m = minute (sharedOf w su) i.start k m := rfl

theorem ended_of (hu : use w.cfg Units.importAttrs p = .ok su) (hos : outs su = .ok os) (hvars : su.shared.outVars.keys.Nodup) {fuel : Nat}
    {sim : Except PyErr Nc.Dir} (h : Outcome w p su i whole mask n freq os order fuel sim) {dir : Nc.Dir} (hdir : sim = .ok dir) :
    Nonempty (Ended w su i whole mask n freq os order fuel dir) := by
  obtain ⟨ld, hw, e1, e2, hin, hj, hsch, hiff, hval⟩ := h
  obtain ⟨hv, hd, hcr, files, hf⟩ := hiff.1 ⟨dir, hdir⟩
  have hout := outs_names (i := i) (ld := ld) hu hos hvars freq
  refine ⟨⟨ld, files, hw, e1, e2, hin, hj, hsch, hf, ?_⟩⟩
  rintro v hvk c val ⟨st, hflat, hold⟩ k hk m hm
  refine ⟨st.files, st.h_files, ?_, ?_⟩
  · have := stamp_mem _ hj st hk hm
    rw [← hflat] at this
    exact List.mem_flatten.1 this
  · intro g hg l hl
    rw [← minute_eq (freq := freq) (os := os) (n := n) (i := i) ld] at hl ⊢
    obtain ⟨hlt, hl⟩ := List.getElem?_eq_some_iff.1 hl
    obtain ⟨name, f0, f, n1, n2, n3, n4, n5⟩ := hval dir files hdir hf st g hg
    have ho' : (v, (outputOf w su freq os).names v) ∈ (filesOf w p su i ld os).outs := by
      rw [hout]; exact List.mem_map.2 ⟨v, hvk, rfl⟩
    obtain ⟨tv, t1, -, -, ⟨nums, t3, t4⟩, -⟩ := n3.time
    have htime : "time" ∉ os.map Prod.snd := by
      have hcr := (hcr st g hg).names
      intro hm
      exact (List.nodup_append.1 hcr).2.2 _ hm "time" (by simp) rfl
    obtain ⟨ov, o1, o2, o3⟩ := n5.vars _ ho'
    refine ⟨name, f, tv, ov, n1, n2, by rw [n4.others _ htime]; exact t1, o1, ?_, ?_⟩
    · rw [← hl]; exact onCalendar_of t3 t4 hlt
    · rw [o3 l hlt c]
      obtain ⟨fn, out, k1, k2, k3⟩ := hold g hg
      obtain rfl := Except.ok.inj (n1.symm.trans k1)
      unfold valueAt
      rw [k2, Option.bind_some, show Dict.get? out ((outputOf w su freq os).names v) = _ from k3, ← hl]
      simp [hlt]

/-- The cells of a run that has ended. -/
theorem Ended.cell {fuel : Nat} {dir : Nc.Dir} (e : Ended w su i whole mask n freq os order fuel dir) (hi : Worker.Sound i)
    (hsrc : Sources i (sharedOf w su) whole mask n) : Worker.Fit e.ld ∧ Dated i e.ld n ∧ Sources i (sharedOf w su) e.ld.dom e.ld.mask n ∧
      ∀ c, Active whole mask c → (jobOfSetup w su i e.ld n freq os).Computed c ∧ c ∈ Worker.positions e.ld.dom e.ld.mask.dims ∧
        Worker.cellIn e.ld c = .ok (inputOf e.ld c) ∧
        (PlausibleFiles i (sharedOf w su) whole mask.dims n c → Props.Sound (sharedOf w su) n (inputOf e.ld c)) := by
  obtain ⟨ld', hw', e1, e2, hfit, hd, -⟩ := C90_loads hi hsrc
  obtain rfl : e.ld = ld' := Except.ok.inj (e.load.symm.trans hw')
  have hsrc' : Sources i (sharedOf w su) e.ld.dom e.ld.mask n := by rw [e1, e2]; exact hsrc
  refine ⟨hfit, hd, hsrc', fun c hc => ?_⟩
  have hx := e.cells c hc.1
  have hc' : Active e.ld.dom e.ld.mask c := by rw [e1, e2]; exact hc
  exact ⟨computed_of hc', hc'.1, hx, fun hp => sound_of hi hw' hfit hd hsrc' hc'.1 hx (by rw [e1, e2]; exact hp)⟩

/-- The columns `mtclim` needs. -/
theorem Ended.columns {fuel : Nat} {dir : Nc.Dir} (e : Ended w su i whole mask n freq os order fuel dir) (hi : Worker.Sound i)
    (hsrc : Sources i (sharedOf w su) whole mask n) {c : Run.Cell} (hc : Active whole mask c) :
    ∀ k ∈ ["t_min", "t_max", "dtr", "smoothed_dtr", "prec", "seasonal_prec"], Dict.get? (inputOf e.ld c).data.frame k ≠ none := by
  obtain ⟨hfit, hd, hsrc', hcell⟩ := e.cell hi hsrc
  obtain ⟨-, hpos, hx, -⟩ := hcell c hc
  obtain ⟨prec, tmin, tmax, -, -, -, seasonal, smoothed, range, q1, q2, q3, -⟩ := C90_windows hi e.load hfit hd hpos hx
  have has : ∀ v ∈ ["prec", "t_min", "t_max"], Dict.get? (inputOf e.ld c).data.frame v ≠ none := fun v hv =>
    (frame_has hi e.load hfit hd hsrc' hx ((show ∀ v ∈ ["prec", "t_min", "t_max"], v ∉ added by decide) v hv)).2
      (Or.inr (hsrc'.named v hv).1)
  intro k hk
  simp only [List.mem_cons, List.not_mem_nil, or_false] at hk
  rcases hk with rfl | rfl | rfl | rfl | rfl | rfl
  · exact has _ (by simp)
  · exact has _ (by simp)
  · rw [q3]; simp
  · rw [q2]; simp
  · exact has _ (by simp)
  · rw [q1]; simp

/-- Radiation, humidity and cloud cover are given, and plausible. -/
def RadiationGiven (i : Worker.Inputs) (dom : DS ℝ) (mdims : List String) (n : Nat) (c : Run.Cell) : Prop :=
  ∀ v ∈ ["shortwave", "vapor_pressure", "tskc"], Provided i v ∧ (v ∉ i.constants.map Prod.fst → Shaped i.forcing i.names mdims v) ∧
    ∀ k < n, ∀ x, GivenFor i dom mdims c v (i.start + k) x → ∃ r, x = fin r ∧ 0 ≤ r ∧ (v = "tskc" → r ≤ 1)

theorem Ended.daily {fuel : Nat} {dir : Nc.Dir} (e : Ended w su i whole mask n freq os order fuel dir) (hi : Worker.Sound i)
    (hsrc : Sources i (sharedOf w su) whole mask n) {c : Run.Cell} (hc : Active whole mask c)
    (hr : RadiationGiven i whole mask.dims n c) : DailyGood n (inputOf e.ld c).data.frame := by
  obtain ⟨hfit, hd, hsrc', hcell⟩ := e.cell hi hsrc
  obtain ⟨-, hpos, hx, -⟩ := hcell c hc
  have key : ∀ v ∈ ["shortwave", "vapor_pressure", "tskc"], ∃ col, Dict.get? (inputOf e.ld c).data.frame v = some col ∧
      ∀ k < n, ∃ r, col k = fin r ∧ 0 ≤ r ∧ (v = "tskc" → r ≤ 1) := by
    intro v hv
    have ha := (show ∀ v ∈ ["shortwave", "vapor_pressure", "tskc"], v ∉ added by decide) v hv
    obtain ⟨h1, h2, h3⟩ := hr v hv
    obtain ⟨col, hcol⟩ := Option.ne_none_iff_exists'.1 ((frame_has hi e.load hfit hd hsrc' hx ha).2 h1)
    refine ⟨col, hcol, fun k hk => h3 k hk _ ?_⟩
    have hg := frame_given hi e.load hfit hd hpos hx ha (fun h => by rw [e.grid]; exact h2 h) hcol hk
    rw [e.domain, e.grid] at hg
    exact hg
  obtain ⟨a, a1, a2⟩ := key "shortwave" (by simp)
  obtain ⟨b, b1, b2⟩ := key "vapor_pressure" (by simp)
  obtain ⟨d, d1, d2⟩ := key "tskc" (by simp)
  refine ⟨⟨a, a1, fun k hk => ?_⟩, ⟨b, b1, fun k hk => ?_⟩, ⟨d, d1, fun k hk => ?_⟩⟩
  · obtain ⟨r, r1, r2, -⟩ := a2 k hk; exact ⟨r, r1, r2⟩
  · obtain ⟨r, r1, r2, -⟩ := b2 k hk; exact ⟨r, r1, r2⟩
  · obtain ⟨r, r1, r2, r3⟩ := d2 k hk; exact ⟨r, r1, r2, r3 rfl⟩

/-- The method has what possible values follow from. -/
def Sufficient (i : Worker.Inputs) (s : Cell.Shared) (dom : DS ℝ) (mdims : List String) (n : Nat) (c : Run.Cell) : Prop :=
  (s.method = .mtclim ∧ SaneParams s ∧ Lw.upperS s.lwCloud = "CLOUD_DEARDORFF") ∨
    (s.method = .passthrough ∧ RadiationGiven i dom mdims n c)

/-- Every value on disk for a cell is physically possible. -/
def PossibleOnDisk (w : World) (su : Setup) (start : Int) (n : Nat) (freq : Option Times.Freq) (os : List (String × String)) (dir : Nc.Dir)
    (c : Run.Cell) : Prop :=
  ∀ v u, (sharedOf w su).outVars.get? v = some u → ¬ (v = "air_pressure" ∧ u = "hPa") → ∃ kd, Spec.kindOf v = some kd ∧
    ∀ k < n, ∀ m < 1440 / (sharedOf w su).ts, ∃ x s, OnDisk w su start n freq dir ((outputOf w su freq os).names v) c
      (minute (sharedOf w su) start k m) (fin x) ∧ Spec.si u ((sharedOf w su).ts : ℝ) x = some (kd, s) ∧ Spec.Possible v s

theorem Ended.possible {fuel : Nat} {dir : Nc.Dir} (e : Ended w su i whole mask n freq os order fuel dir) (hi : Worker.Sound i)
    (hsrc : Sources i (sharedOf w su) whole mask n) (hsub : (sharedOf w su).ts < 1440) (hn : 2 ≤ n) {c : Run.Cell}
    (hc : Active whole mask c) (hp : PlausibleFiles i (sharedOf w su) whole mask.dims n c)
    (hm : Sufficient i (sharedOf w su) whole mask.dims n c) : PossibleOnDisk w su i.start n freq os dir c := by
  obtain ⟨-, -, -, hcell⟩ := e.cell hi hsrc
  obtain ⟨hcomp, -, -, hs⟩ := hcell c hc
  intro v u hu hbug
  have hkey : v ∈ su.shared.outVars.keys := Dict.mem_keys_of_get? _ hu
  obtain ⟨val, kd, h1, h2, h3⟩ : ∃ val kd, Recorded (jobOfSetup w su i e.ld n freq os) e.files v c val ∧ Spec.kindOf v = some kd ∧
      ∀ k < n, ∀ m < 1440 / (sharedOf w su).ts, ∃ x s, val ((jobOfSetup w su i e.ld n freq os).stamp k m) = fin x ∧
        Spec.si u ((sharedOf w su).ts : ℝ) x = some (kd, s) ∧ Spec.Possible v s := by
    rcases hm with ⟨m1, m2, m3⟩ | ⟨m1, m2⟩
    · exact C78_mtclim_partial _ e.sane fuel order e.schedule e.files e.run hsub hn m1 m2 m3 c hcomp (hs hp) (e.columns hi hsrc hc) v u hu hbug
    · exact C78_passthrough_partial _ e.sane fuel order e.schedule e.files e.run hsub hn m1 c hcomp (hs hp) (e.daily hi hsrc hc m2) v u hu hbug
  refine ⟨kd, h2, fun k hk m hm => ?_⟩
  obtain ⟨x, s, a1, a2, a3⟩ := h3 k hk m hm
  refine ⟨x, s, ?_, a2, a3⟩
  rw [← a1]
  exact e.disk v hkey c val h1 k hk m hm

/-- The rain on disk for a day is what the forcing tells for it. -/
def RainOnDisk (w : World) (su : Setup) (i : Worker.Inputs) (whole : DS ℝ) (mdims : List String) (n : Nat) (freq : Option Times.Freq)
    (os : List (String × String)) (dir : Nc.Dir) (c : Run.Cell) : Prop :=
  ∀ u, (sharedOf w su).outVars.get? "prec" = some u → ∀ k < n, ∃ (p : ℝ) (flux : ℕ → ℝ),
    Told i.forcing i.names whole mdims c "prec" (i.start + k) (fin p) ∧
    (∀ m < 1440 / (sharedOf w su).ts, ∃ x, OnDisk w su i.start n freq dir ((outputOf w su freq os).names "prec") c
      (minute (sharedOf w su) i.start k m) (fin x) ∧ Spec.si u ((sharedOf w su).ts : ℝ) x = some (.waterFlux, flux m) ∧ 0 ≤ flux m) ∧
    ∑ m ∈ Finset.range (1440 / (sharedOf w su).ts), flux m * ((sharedOf w su).ts * 60) = p

theorem Ended.rain {fuel : Nat} {dir : Nc.Dir} (e : Ended w su i whole mask n freq os order fuel dir) (hi : Worker.Sound i)
    (hsrc : Sources i (sharedOf w su) whole mask n) (hloc : (sharedOf w su).utcOffset = false) {c : Run.Cell}
    (hc : Active whole mask c) (hp : PlausibleFiles i (sharedOf w su) whole mask.dims n c) :
    RainOnDisk w su i whole mask.dims n freq os dir c := by
  obtain ⟨hfit, hd, hsrc', hcell⟩ := e.cell hi hsrc
  obtain ⟨hcomp, hpos, hx, hs⟩ := hcell c hc
  intro u hu k hk
  have hkey : "prec" ∈ su.shared.outVars.keys := Dict.mem_keys_of_get? _ hu
  obtain ⟨val, h1, h2⟩ := C75_daily_rain _ e.sane fuel order e.schedule e.files e.run hloc c hcomp u hu
  obtain ⟨col, hcol⟩ := Option.ne_none_iff_exists'.1 (e.columns hi hsrc hc "prec" (by simp))
  have hfor : Told i.forcing i.names whole mask.dims c "prec" (i.start + k) (col k) := by
    have hg := frame_given hi e.load hfit hd hpos hx (by decide) (fun _ => hd.forceShape _ (by simp)) hcol hk
    rw [e.domain, e.grid] at hg
    rcases hg with ⟨r, hr, -⟩ | ⟨-, ht⟩
    · exact absurd (List.mem_map.2 ⟨_, hr, rfl⟩) (hd.free _ (by simp))
    · exact ht
  obtain ⟨p, ep, hp0⟩ := hp.rain (i.start + k) (by omega) (by omega) (col k) (by
    unfold DayTold
    rw [if_neg (by omega)]
    exact hfor)
  obtain ⟨flux, h3, h4⟩ := h2 k hk col p hcol ep (fun _ => (hs hp).rain k hk)
  refine ⟨p, flux, ep ▸ hfor, fun m hm => ?_, h4⟩
  obtain ⟨x, a1, a2, a3⟩ := h3 m hm
  refine ⟨x, ?_, a2, a3 hp0⟩
  rw [← a1]
  exact e.disk _ hkey c val h1 k hk m hm

/-- The temperatures on disk for a day lie between what the files tell for it and its neighbours. -/
def TempsOnDisk (w : World) (su : Setup) (i : Worker.Inputs) (whole : DS ℝ) (mdims : List String) (n : Nat) (freq : Option Times.Freq)
    (os : List (String × String)) (dir : Nc.Dir) (c : Run.Cell) : Prop :=
  ∀ u, (sharedOf w su).outVars.get? "temp" = some u → ∃ lo hi : Int → ℝ,
    (∀ d, i.start - 1 ≤ d → d < i.start + n → DayTold i whole mdims c "t_min" d (fin (lo d)) ∧ DayTold i whole mdims c "t_max" d (fin (hi d))) ∧
    ∀ k < n, ∀ m < 1440 / (sharedOf w su).ts, ∃ x T, OnDisk w su i.start n freq dir ((outputOf w su freq os).names "temp") c
      (minute (sharedOf w su) i.start k m) (fin x) ∧ Spec.si u ((sharedOf w su).ts : ℝ) x = some (.temperature, T) ∧
      (∀ L, L ≤ hi (i.start + k - 1) → L ≤ lo (i.start + k) → L ≤ hi (i.start + k) → (k + 1 < n → L ≤ lo (i.start + k + 1)) → L ≤ T - 273.15) ∧
      (∀ U, hi (i.start + k - 1) ≤ U → lo (i.start + k) ≤ U → hi (i.start + k) ≤ U → (k + 1 < n → lo (i.start + k + 1) ≤ U) → T - 273.15 ≤ U)

theorem Ended.temps {fuel : Nat} {dir : Nc.Dir} (e : Ended w su i whole mask n freq os order fuel dir) (hi : Worker.Sound i)
    (hsrc : Sources i (sharedOf w su) whole mask n) (hsub : (sharedOf w su).ts < 1440) (hloc : (sharedOf w su).utcOffset = false)
    {c : Run.Cell} (hc : Active whole mask c) (hp : PlausibleFiles i (sharedOf w su) whole mask.dims n c) :
    TempsOnDisk w su i whole mask.dims n freq os dir c := by
  obtain ⟨hfit, hd, hsrc', hcell⟩ := e.cell hi hsrc
  obtain ⟨hcomp, hpos, hx, hs⟩ := hcell c hc
  intro u hu
  have hkey : "temp" ∈ su.shared.outVars.keys := Dict.mem_keys_of_get? _ hu
  have hcol := e.columns hi hsrc hc
  obtain ⟨tmin, hmin⟩ := Option.ne_none_iff_exists'.1 (hcol "t_min" (by simp))
  obtain ⟨tmax, hmax⟩ := Option.ne_none_iff_exists'.1 (hcol "t_max" (by simp))
  have hday : ∀ v ∈ ["t_min", "t_max"], ∀ col, Dict.get? (inputOf e.ld c).data.frame v = some col → ∀ k < n,
      DayTold i whole mask.dims c v (i.start + k) (col k) := by
    intro v hv col hcol k hk
    have hv' : v ∈ ["prec", "t_min", "t_max"] := List.mem_cons_of_mem _ hv
    unfold DayTold
    rw [if_neg (by omega)]
    have hg := frame_given hi e.load hfit hd hpos hx ((show ∀ v ∈ ["prec", "t_min", "t_max"], v ∉ added by decide) v hv')
      (fun _ => hd.forceShape _ hv') hcol hk
    rw [e.domain, e.grid] at hg
    rcases hg with ⟨r, hr, -⟩ | ⟨-, ht⟩
    · exact absurd (List.mem_map.2 ⟨_, hr, rfl⟩) (hd.free _ hv')
    · exact ht
  obtain ⟨_, smin, smax, p1, -, p3, -⟩ := C90_windows hi e.load hfit hd hpos hx
  have hprev := p1 89 (by norm_num)
  rw [show i.start - 90 + ((89 : ℕ) : Int) = i.start - 1 by push_cast; ring, e.domain, e.grid] at hprev
  have hbefore : ∀ v x, Told i.stateFile i.stateNames whole mask.dims c v (i.start - 1) x → DayTold i whole mask.dims c v (i.start - 1) x := by
    intro v x h
    unfold DayTold
    rw [if_pos (by omega)]
    exact h
  obtain ⟨a, ea, -⟩ := hp.temps "t_min" (by simp) (i.start - 1) (by omega) (by omega) _ (hbefore _ _ hprev.2.1)
  obtain ⟨b, eb, -⟩ := hp.temps "t_max" (by simp) (i.start - 1) (by omega) (by omega) _ (hbefore _ _ hprev.2.2)
  have hfin : ∀ v ∈ ["t_min", "t_max"], ∀ col, Dict.get? (inputOf e.ld c).data.frame v = some col → ∃ f : ℕ → ℝ, ∀ k < n, col k = fin (f k) := by
    intro v hv col hcol
    refine ⟨fun k => match col k with | .fin r => r | .nan => 0, fun k hk => ?_⟩
    obtain ⟨r, hr, -⟩ := hp.temps v hv (i.start + k) (by omega) (by omega) _ (hday v hv col hcol k hk)
    simp only [hr]
  obtain ⟨flo, hlo⟩ := hfin "t_min" (by simp) tmin hmin
  obtain ⟨fhi, hhi⟩ := hfin "t_max" (by simp) tmax hmax
  obtain ⟨val, h1, h2⟩ := C77_within_days _ e.sane fuel order e.schedule e.files e.run hsub hloc (lt_of_lt_of_le (by norm_num) hp.fraction.1) hp.fraction.2
    c hcomp (hs hp).lat u hu tmin tmax hmin hmax flo fhi hlo hhi b (by
      show (inputOf e.ld c).data.stateEnd.2 = _
      rw [p3, eb])
  refine ⟨fun d => if d < i.start then a else flo (d - i.start).toNat, fun d => if d < i.start then b else fhi (d - i.start).toNat, ?_, ?_⟩
  · intro d d1 d2
    by_cases hlt : d < i.start
    · simp only [if_pos hlt]
      obtain rfl : d = i.start - 1 := by omega
      rw [← ea, ← eb]
      exact ⟨hbefore _ _ hprev.2.1, hbefore _ _ hprev.2.2⟩
    · simp only [if_neg hlt]
      have hk : (d - i.start).toNat < n := by omega
      have e1 := hday "t_min" (by simp) tmin hmin _ hk
      have e2 := hday "t_max" (by simp) tmax hmax _ hk
      rw [show i.start + ((d - i.start).toNat : Int) = d by omega] at e1 e2
      rw [← hlo _ hk, ← hhi _ hk]
      exact ⟨e1, e2⟩
  · intro k hk m hm
    obtain ⟨x, T, a1, a2, a3, a4⟩ := h2 k hk m hm
    have n1 : ¬ i.start + (k : Int) < i.start := by omega
    have n2 : ¬ i.start + (k : Int) + 1 < i.start := by omega
    have t1 : (i.start + (k : Int) - i.start).toNat = k := by omega
    have t2 : (i.start + (k : Int) + 1 - i.start).toNat = k + 1 := by omega
    have hb : (if i.start + (k : Int) - 1 < i.start then b else fhi (i.start + (k : Int) - 1 - i.start).toNat) = if k = 0 then b else fhi (k - 1) := by
      by_cases h0 : k = 0
      · rw [if_pos h0, if_pos (by omega)]
      · rw [if_neg h0, if_neg (by omega), show (i.start + (k : Int) - 1 - i.start).toNat = k - 1 by omega]
    simp only [if_neg n1, if_neg n2, t1, t2, hb]
    refine ⟨x, T, ?_, a2, a3, a4⟩
    rw [← a1]
    exact e.disk _ hkey c val h1 k hk m hm

/-! ### Runs -/

/-- **C107**: whatever a run over plausible files leaves on disk for a computed cell is physically possible. -/
theorem C107_possible (h : Ready w p su i whole mask n freq os order) (fuel : Nat) {dir : Nc.Dir} (hdir : simulate w fuel p order = .ok dir)
    (hsub : (sharedOf w su).ts < 1440) (hn : 2 ≤ n) {c : Run.Cell} (hc : Active whole mask c)
    (hp : PlausibleFiles i (sharedOf w su) whole mask.dims n c) (hm : Sufficient i (sharedOf w su) whole mask.dims n c) :
    PossibleOnDisk w su i.start n freq os dir c := by
  obtain ⟨e⟩ := ended_of h.use h.named h.plan.vars (C95_run h fuel) hdir
  exact e.possible h.sound h.sources hsub hn hc hp hm

/-- **C107**: the rain it leaves on disk for a day is the rain the forcing file tells for that day. -/
theorem C107_rain (h : Ready w p su i whole mask n freq os order) (fuel : Nat) {dir : Nc.Dir} (hdir : simulate w fuel p order = .ok dir)
    (hloc : (sharedOf w su).utcOffset = false) {c : Run.Cell} (hc : Active whole mask c)
    (hp : PlausibleFiles i (sharedOf w su) whole mask.dims n c) : RainOnDisk w su i whole mask.dims n freq os dir c := by
  obtain ⟨e⟩ := ended_of h.use h.named h.plan.vars (C95_run h fuel) hdir
  exact e.rain h.sound h.sources hloc hc hp

/-- **C107**: the temperatures it leaves on disk lie between the extremes the files tell for the day and its neighbours. -/
theorem C107_temperature (h : Ready w p su i whole mask n freq os order) (fuel : Nat) {dir : Nc.Dir}
    (hdir : simulate w fuel p order = .ok dir) (hsub : (sharedOf w su).ts < 1440) (hloc : (sharedOf w su).utcOffset = false)
    {c : Run.Cell} (hc : Active whole mask c) (hp : PlausibleFiles i (sharedOf w su) whole mask.dims n c) :
    TempsOnDisk w su i whole mask.dims n freq os dir c := by
  obtain ⟨e⟩ := ended_of h.use h.named h.plan.vars (C95_run h fuel) hdir
  exact e.temps h.sound h.sources hsub hloc hc hp

/-- **C107**: so it is for runs over files for single cells. -/
theorem C107_vic {fs : Vic.Files} {v : Vic.Inputs} {G : Forcing.Grid ℚ ℝ} (h : VicReady w fs p su v whole mask n G freq os order)
    (fuel : Nat) {dir : Nc.Dir} (hdir : Vic.simulate w fs fuel p order = .ok dir) {c : Run.Cell} (hc : Active whole mask c)
    (hp : PlausibleFiles (joined v whole n G) (sharedOf w su) whole mask.dims n c) :
    ((sharedOf w su).ts < 1440 → 2 ≤ n → Sufficient (joined v whole n G) (sharedOf w su) whole mask.dims n c →
      PossibleOnDisk w su v.start n freq os dir c) ∧
    ((sharedOf w su).utcOffset = false → RainOnDisk w su (joined v whole n G) whole mask.dims n freq os dir c) ∧
    ((sharedOf w su).ts < 1440 → (sharedOf w su).utcOffset = false → TempsOnDisk w su (joined v whole n G) whole mask.dims n freq os dir c) := by
  obtain ⟨e⟩ := ended_of h.use h.named h.plan.vars (C102_run h fuel) hdir
  have hi := h.sources.sound
  have hs : Sources (joined v whole n G) (sharedOf w su) whole mask n := by rw [h.names.shared]; exact h.sources.sources
  exact ⟨fun h1 h2 h3 => e.possible hi hs h1 h2 hc hp h3, fun h1 => e.rain hi hs h1 hc hp, fun h1 h2 => e.temps hi hs h1 h2 hc hp⟩

end

end Verif.Props
