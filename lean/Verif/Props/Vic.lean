import Verif.Lemmas.Vic
import Verif.Props.MainEnds
import Verif.Props.MainAttrs

/-!
# C102: runs over files for single cells
-/

namespace Verif.Props

open Dataset ConfigRead Main Flt Cell Worker

/-! ### What is loaded -/

theorem vic_load_has {fs : Vic.Files} {v : Vic.Inputs} {s : Cell.Shared} {chunk : Dict String Chunk.Slice} {ld : Loads}
    (h : Vic.load fs v s chunk = .ok ld) : ∀ k ∈ ["t_min", "t_max", "prec"], k ∈ ld.met.vars.map Prod.fst := by
  unfold Vic.load at h
  simp only [bind_ok] at h
  obtain ⟨dom, h1, met0, h2, met, h3, u, h4, st, h5, mask, h6, record, h7, old, h8, new, h9, agg, h10, extra, h11, e⟩ := h
  rw [pure_ok] at e
  subst e
  exact dailies_has h9

/-! ### The run -/

/-- The files a configuration names, and the period it gives. -/
structure VicNames (w : World) (su : Setup) (v : Vic.Inputs) : Prop where
  fmt : su.forcingFmt = v.fmt
  domain : w.nc su.domain = .ok v.domFile
  domainVars : su.domainVars = some v.domNames
  forcing : ∃ l, su.forcing = .files l ∧ v.jobs = l.map String.toList
  forcingVars : su.forcingVars = some v.vars
  state : w.nc su.state = .ok v.stateFile
  stateVars : su.stateVars = some v.stateNames
  constants : su.constants = v.constants
  start : OneDay w.period (pval su.start) v.start
  stop : OneDay w.period (pval su.stop) v.stop
  encoding : w.encoding = none

/-- The parent of the run. -/
def vicParent (su : Setup) (v : Vic.Inputs) (ld : Loads) : Parent := ⟨su.shared, v.start, v.stop, ld.dom, ld.met⟩

theorem OneDay.day {period : String → Option (Int × Int)} {v : Params.PVal} {t : Int} (h : OneDay period v t) :
    Vic.day period v = .ok t := by
  rcases h with rfl | ⟨s, rfl, -, hp, -⟩
  · rfl
  · simp only [Vic.day, hp]

variable {w : World} {fs : Vic.Files} {su : Setup} {v : Vic.Inputs}

theorem VicNames.jobs (hn : VicNames w su v) : Vic.jobsOf su.forcing = .ok v.jobs := by
  obtain ⟨l, h1, h2⟩ := hn.forcing
  rw [h1, h2]; rfl

theorem VicNames.shared (hn : VicNames w su v) : sharedOf w su = su.shared := by
  unfold sharedOf; rw [hn.encoding]; rfl

theorem vic_construct_ok {ld : Loads} (hn : VicNames w su v) (hw : Vic.load fs v su.shared [] = .ok ld) :
    Vic.construct w fs su = .ok (vicParent su v ld) := by
  unfold Vic.load at hw
  simp only [bind_ok] at hw
  obtain ⟨dom, h1, met0, h2, met, h3, u, h4, st, h5, mask, h6, record, h7, old, h8, new, h9, agg, h10, extra, h11, e⟩ := hw
  rw [pure_ok] at e
  subst e
  have hcp : checkPeriod v.start v.stop (daysOf met) = .ok () := h4
  obtain ⟨first, last, hfirst, hlast, hle1, hle2⟩ : ∃ first last, (daysOf met).head? = some first ∧
      (daysOf met).getLast? = some last ∧ first ≤ v.start ∧ v.stop ≤ last := by
    unfold checkPeriod at hcp
    split at hcp
    · rename_i a b ha hb
      split at hcp
      · rename_i h; exact ⟨a, b, ha, hb, h.1, h.2⟩
      · cases hcp
    · cases hcp
  obtain ⟨q, hq, q1, q2⟩ := validate_ok
    (env := ⟨daysOf met, none, fun s => (w.period s).map Prod.fst⟩) (first := first) (last := last)
    (r := [("start", pval su.start), ("stop", pval su.stop), ("calendar", .str su.shared.calendar)])
    rfl (hn.start.resolve rfl _) rfl (hn.stop.resolve rfl _) rfl hfirst hlast hle1 hle2
  unfold Vic.construct
  simp only [hn.fmt, hn.domain, hn.domainVars, hn.forcingVars, hn.jobs, Main.required, bind, Except.bind, pure, Except.pure, h1, hn.start.day,
    hn.stop.day, hn.constants, h2, h3, hq, q1, q2]
  rfl

theorem vic_inputs_ok (hn : VicNames w su v) {pa : Parent} (h1 : pa.start = v.start) (h2 : pa.stop = v.stop) :
    Vic.inputs w su pa = .ok v := by
  unfold Vic.inputs
  simp only [hn.fmt, hn.domain, hn.domainVars, hn.forcingVars, hn.jobs, hn.state, hn.stateVars, hn.constants, Main.required, bind, Except.bind, pure,
    Except.pure, h1, h2]

/-- The file that holds the series of all cells. -/
def joined (v : Vic.Inputs) (whole : DS ℝ) (n : Nat) (G : Forcing.Grid ℚ ℝ) : Worker.Inputs :=
  Vic.asNetcdf v (Vic.gridded whole (simDays v.start n) v.vars.keys G)

variable {whole : DS ℝ} {n : Nat} {G : Forcing.Grid ℚ ℝ} {ld : Loads}

/-- Loading succeeds either way. -/
theorem vic_load {chunk : Dict String Chunk.Slice} (hi : Sound (joined v whole n G)) (hc : (chunk.map Prod.fst).Nodup)
    (hw : readDomain v.domFile (some v.domNames) [] = .ok whole) (h : Vic.Read fs v.fmt v.jobs v.vars whole n G)
    (hstop : v.stop = v.start + n - 1) {s : Cell.Shared}
    (hcal : HasDays s.calendar (v.start - 730120) (v.start + n - 1 - 730120)) (hl : Worker.load (joined v whole n G) s chunk = .ok ld) :
    ∃ ld', Vic.load fs v s chunk = .ok ld' ∧ LoadsAlike ld' ld := by
  have := Vic.load_alike hi.domFile hi.domNames hc hw h hstop s hcal
  unfold joined at hl
  rw [hl] at this
  cases h1 : Vic.load fs v s chunk with
  | error e => rw [h1] at this; exact this.elim
  | ok ld' => rw [h1] at this; exact ⟨ld', rfl, this⟩

theorem load_mask {i : Worker.Inputs} {s : Cell.Shared} {chunk : Dict String Chunk.Slice} (hw : Worker.load i s chunk = .ok ld) :
    ld.dom.vars.get? "mask" = some ld.mask ∧ readDomain i.domFile (some i.domNames) chunk = .ok ld.dom := by
  unfold Worker.load at hw
  simp only [bind_ok] at hw
  obtain ⟨dom, h1, met0, h2, met, h3, u, h4, st, h5, mask, h6, record, h7, old, h8, new, h9, agg, h10, extra, h11, e⟩ := hw
  rw [pure_ok] at e
  subst e
  exact ⟨Dict.get_ok.1 h6, h1⟩

/-- A worker of the run. -/
theorem vic_worker_eq (hn : VicNames w su v) (hi : Sound (joined v whole n G))
    (hdom : readDomain v.domFile (some v.domNames) [] = .ok whole) (h : Vic.Read fs v.fmt v.jobs v.vars whole n G)
    (hstop : v.stop = v.start + n - 1)
    (hcal : HasDays su.shared.calendar (v.start - 730120) (v.start + n - 1 - 730120)) (hout : idle ∉ su.shared.outVars.keys)
    (hw : Worker.load (joined v whole n G) su.shared [] = .ok ld) (hfit : Fit ld) (hr : Readable ld) {chunk : Dict String Chunk.Slice}
    (hch : IsChunk ld chunk) (hck : check su ld.met = .ok ()) {freq : Option Times.Freq} {axis : List ℚ} {groups : Nc.Groups}
    (hs : stamps w su su.shared freq ld.days = .ok (axis, groups)) (fuel : Nat) (os : List (String × String)) (dir : Nc.Dir) {lv : Loads} :
    Vic.worker w fs fuel su (vicParent su v lv) freq os dir chunk = (do
      let out ← Run.runSlice (Cell.cellBody fuel) (maskOf ld) (inputOf ld) ⟨su.shared, nan, nan, nan⟩
        (Run.axes (maskDims ld.dom ld.mask.dims) chunk)
      Nc.writeChunk os axis groups chunk out dir) := by
  obtain ⟨ld1, h1, h2, h3, h4, h5⟩ := Worker.load_part hi hw hfit hch
  obtain ⟨ld2, l1, l2⟩ := vic_load hi hch.nodup hdom h hstop hcal h1
  have hck' := check_same (load_has hw) (vic_load_has l1) hck
  have hdays : ld2.days = ld.days := (l2.met.days).trans h2
  have hpl : Worker.Placed ld2.dom ld2.mask.dims := by
    rw [l2.dom, l2.mask, h3]
    obtain ⟨mask, hm, hp⟩ := h.mask
    have e1 := (load_mask hw).2
    rw [show readDomain (joined v whole n G).domFile (some (joined v whole n G).domNames) [] = .ok whole from hdom] at e1
    have e2 := (load_mask hw).1
    rw [← Except.ok.inj e1, hm] at e2
    rw [← Option.some.inj e2]
    have e3 := (load_mask h1).2
    refine ⟨(cut_of hi.domFile hi.domNames hch.nodup hdom e3).wf', hp.lat, hp.lon, fun ht => ?_⟩
    rcases hp.only _ ht with e | e <;> exact absurd e (by decide)
  unfold Vic.worker Run.runSlice
  rw [vic_inputs_ok hn rfl rfl]
  simp only [bind, Except.bind, show (vicParent su v lv).shared = su.shared from rfl, l1, hdays, hs, hck']
  rw [cells_same (s := su.shared) (inp' := cellIn ld1) hout fuel _ _ _ rfl fun c hc => cellIn_same l2 hpl hc, l2.mask, l2.dom,
    cells_eq (Cell.cellBody fuel) (mask := maskOf ld) (inp := inputOf ld) (ax := axesOf ld chunk), h4]
  · rfl
  · intro l hl
    exact (h5 l (h4 ▸ hl)).1
  · intro l hl hact
    obtain ⟨x, hx⟩ := hr _ (global_position (h4 ▸ hl)) hact
    rw [(h5 l (h4 ▸ hl)).2 x hx]
    unfold inputOf
    have hx' : cellIn ld (Run.globalOf (axesOf ld chunk) l) = .ok x := hx
    rw [hx']

section run

variable {p : Conf} {freq : Option Times.Freq} {os : List (String × String)} {order : List (Dict String Chunk.Slice)}

/-- The run behind the configuration, once it has been accepted. -/
theorem vic_simulate_eq (hu : use w.cfg Units.importAttrs p = .ok su) (hn : VicNames w su v) (hi : Sound (joined v whole n G))
    (hdom : readDomain v.domFile (some v.domNames) [] = .ok whole) (h : Vic.Read fs v.fmt v.jobs v.vars whole n G)
    (hstop : v.stop = v.start + n - 1)
    (hcal : HasDays su.shared.calendar (v.start - 730120) (v.start + n - 1 - 730120)) (hw : Worker.load (joined v whole n G) su.shared [] = .ok ld) (hfit : Fit ld) (hr : Readable ld)
    (hdays : ld.days.map (· - 730120) = consecutive (v.start - 730120) n) (hfr : outFreq w su.outFreq = .ok freq)
    (hck : check su ld.met = .ok ()) (hout : idle ∉ su.shared.outVars.keys) (hos : outs su = .ok os)
    (hdir : w.isDir (w.cfg.abspath su.outDir) = true) (ho : ∀ chunk ∈ order, IsChunk ld chunk) (fuel : Nat) :
    Vic.simulate w fs fuel p order = Nc.runDir w.known (filesOf w p su (joined v whole n G) ld os) (table w su) fuel su.shared freq
      (w.cfg.abspath su.outDir).toList su.outPrefix.toList (maskOf ld) (inputOf ld) (consecutive (v.start - 730120) n) order := by
  obtain ⟨hm, hdom'⟩ := load_mask hw
  have hmask : ld.dom.vars.get "mask" = .ok ld.mask := Dict.get_ok.2 hm
  obtain ⟨lv, l1, l2⟩ := vic_load (chunk := []) hi List.nodup_nil hdom h hstop hcal hw
  have hd : daysOf lv.met = ld.days := l2.met.days
  have hck' := check_same (load_has hw) (vic_load_has l1) hck
  unfold Vic.simulate Nc.runDir
  simp only [hu, bind, Except.bind, vic_construct_ok hn l1, hfr]
  have hst : stamps w su su.shared freq ld.days = Nc.fileStamps su.shared freq (w.cfg.abspath su.outDir).toList
      su.outPrefix.toList (consecutive (v.start - 730120) n) := by
    unfold stamps; rw [hdays]
  simp only [show (vicParent su v lv).shared = su.shared from rfl, show (vicParent su v lv).met = lv.met from rfl, hd,
    show (vicParent su v lv).whole = lv.dom from rfl, hck', hos, l2.dom, hmask, hdir]
  rw [← hst]
  cases hs : stamps w su su.shared freq ld.days with
  | error e => rfl
  | ok r =>
    obtain ⟨axis, groups⟩ := r
    simp only [Bool.true_eq_false, if_false]
    rw [show fileCfg w p su (vicParent su v lv) ld.mask os = filesOf w p su (joined v whole n G) ld os by
      unfold filesOf fileCfg parentOf recorded vicParent
      rw [hn.shared, l2.dom]
      rfl]
    cases Nc.create w.known (filesOf w p su (joined v whole n G) ld os) (table w su) groups with
    | error e => rfl
    | ok d =>
      obtain ⟨d, tab⟩ := d
      simp only
      clear hm hmask hst
      induction order generalizing d with
      | nil => rfl
      | cons c cs ih =>
        rw [List.foldlM_cons, List.foldlM_cons,
          vic_worker_eq hn hi hdom h hstop hcal hout hw hfit hr (ho c (by simp)) hck hs fuel os d]
        simp only [bind, Except.bind]
        rw [show Run.axes (filesOf w p su (joined v whole n G) ld os).dims c = Run.axes (maskDims ld.dom ld.mask.dims) c from rfl]
        cases Run.runSlice (Cell.cellBody fuel) (maskOf ld) (inputOf ld) ⟨su.shared, nan, nan, nan⟩
            (Run.axes (maskDims ld.dom ld.mask.dims) c) with
        | error e => rfl
        | ok out =>
          simp only [show (filesOf w p su (joined v whole n G) ld os).outs = os from rfl]
          cases Nc.writeChunk os axis groups c out d with
          | error e => rfl
          | ok d' => exact ih (fun x hx => ho x (List.mem_cons_of_mem _ hx)) d'

/-! ### Files fit for a run -/

/-- Files fit for a run of `n` days over forcing in files for single cells: domain and state as in C90, the mask along latitude and
longitude; precipitation and temperatures among the variables; the files can be read, with the series `G`; no day colder at its warmest
than at its coldest. -/
structure VicSources (fs : Vic.Files) (v : Vic.Inputs) (s : Cell.Shared) (whole : DS ℝ) (mask : Arr ℝ) (n : Nat)
    (G : Forcing.Grid ℚ ℝ) : Prop where
  domWf : v.domFile.Wf
  domNames : (v.domNames.map Prod.fst).Nodup
  stateWf : v.stateFile.Wf
  stateNames : (v.stateNames.map Prod.fst).Nodup
  dom : readDomain v.domFile (some v.domNames) [] = .ok whole
  hasMask : whole.vars.get? "mask" = some mask
  plane : Vic.Plane mask.dims
  axes : mask.dims.Nodup
  distinct : whole.Distinct
  time : whole.sizes.get? "time" = none
  elev : (whole.vars.get? "elev").isSome
  pos : 0 < n
  stop : v.stop = v.start + n - 1
  format : v.fmt = "ascii" ∨ v.fmt = "binary"
  names : Vic.Fresh v.vars.keys
  vars : ∀ k ∈ ["prec", "t_min", "t_max"], k ∈ v.vars.keys
  grid : Forcing.processVic fs.toFloat (Vic.maskAt whole) (Vic.readFile fs v.fmt v.vars n) v.vars.keys n v.jobs = .ok G
  warm : ∀ c ∈ positions whole mask.dims, ∀ k < n,
    Flt.lt ((G "t_max" (cellLabel whole mask.dims c "lat", cellLabel whole mask.dims c "lon")).getD k nan -
      (G "t_min" (cellLabel whole mask.dims c "lat", cellLabel whole mask.dims c "lon")).getD k nan) (.fin 0) = false
  free : ∀ k ∈ ["prec", "t_min", "t_max"], k ∉ v.constants.map Prod.fst
  past : (past (joined v whole n G)).Complete whole
  pastNamed : ∀ k ∈ ["prec", "t_min", "t_max"], ∃ u, v.stateNames.get? u = some k
  pastDays : FileDays v.stateFile v.stateNames (v.start - 90) 90
  pastShape : ∀ k ∈ ["prec", "t_min", "t_max"], Shaped v.stateFile v.stateNames mask.dims k
  months : Lw.upperS s.precType = "TRIANGLE" ∨ Lw.upperS s.precType = "MIX" →
    (∀ m : Nat, m < 12 → (m : ℚ) ∈ whole.labels "month") ∧ ∀ k ∈ ["dur", "t_pk"], ∃ a, whole.vars.get? k = some a ∧ "month" ∈ a.dims
  calendar : HasDays s.calendar (v.start - 90 - 730120) (v.start + n - 1 - 730120)

variable {mask : Arr ℝ} {s : Cell.Shared}

theorem VicSources.domainWf (h : VicSources fs v s whole mask n G) : whole.Wf := (whole_ok h.domWf h.domNames h.dom).1

theorem VicSources.lat (h : VicSources fs v s whole mask n G) : (whole.sizes.get? "lat").isSome :=
  h.domainWf.var_dims _ _ h.hasMask _ h.plane.lat

theorem VicSources.lon (h : VicSources fs v s whole mask n G) : (whole.sizes.get? "lon").isSome :=
  h.domainWf.var_dims _ _ h.hasMask _ h.plane.lon

theorem VicSources.read (h : VicSources fs v s whole mask n G) : Vic.Read fs v.fmt v.jobs v.vars whole n G :=
  ⟨h.format, h.pos, h.names, h.lat, h.lon, h.time, h.distinct, ⟨mask, h.hasMask, h.plane⟩, h.grid⟩

theorem ids_get (keys : List String) (u : String) : Dict.get? (keys.map fun k => (k, k)) u = if u ∈ keys then some u else none := by
  induction keys with
  | nil => rfl
  | cons a l ih =>
    rw [List.map_cons, Dict.get?_cons]
    by_cases e : a = u
    · subst e; simp
    · simp only [e, if_false, List.mem_cons, Ne.symm e, false_or]
      exact ih

/-- What the joined file tells of a cell on a day is what the files say. -/
theorem joined_told {c : Run.Cell} {k : Nat} {name : String} {x : Flt ℝ} {dims : List String}
    (hx : Told (joined v whole n G).forcing (joined v whole n G).names whole dims c name (v.start + k) x) :
    name ∈ v.vars.keys ∧ x = (G name (cellLabel whole dims c "lat", cellLabel whole dims c "lon")).getD k nan := by
  obtain ⟨u, raw, h1, h2, arr, ix, ha, hl, hv⟩ := hx
  replace h1 : Dict.get? (v.vars.keys.map fun k => (k, k)) u = some name := h1
  rw [ids_get] at h1
  split_ifs at h1 with hu
  obtain rfl := Option.some.inj h1
  refine ⟨hu, ?_⟩
  replace ha : (Vic.gridded whole (simDays v.start n) v.vars.keys G).vars.get? u = some arr := ha
  rw [Vic.gridded_cube, Vic.cube_get, if_pos hu] at ha
  obtain rfl := Option.some.inj ha
  have nn : ∀ d, newName (joined v whole n G).names d = d := Vic.newName_id _
  simp only [nn] at hl
  have t1 := hl "lat" (by simp)
  have t2 := hl "lon" (by simp)
  have t0 := hl "time" (by simp)
  simp only [show ("lat" = "time") = False by decide, show ("lon" = "time") = False by decide, if_false, if_true] at t0 t1 t2
  replace t1 : (whole.labels "lat")[ix "lat"]? = some (cellLabel whole dims c "lat") := t1
  replace t2 : (whole.labels "lon")[ix "lon"]? = some (cellLabel whole dims c "lon") := t2
  replace t0 : (Vic.stampsOf (simDays v.start n))[ix "time"]? = some raw := t0
  unfold Vic.stampsOf simDays at t0
  rw [List.map_map, List.getElem?_map, Option.map_eq_some_iff] at t0
  obtain ⟨j, hj, hraw⟩ := t0
  obtain ⟨hjn, hj⟩ := List.getElem?_eq_some_iff.1 hj
  rw [List.getElem_range] at hj
  subst hj
  simp only [Function.comp] at hraw
  unfold fileDay at h2
  rw [← hraw, Vic.stamp_whole, Int.cast_inj] at h2
  have : ix "time" = k := by omega
  rw [← hv]
  simp only [this, List.getD_eq_getElem?_getD, t1, t2, Option.getD_some]

theorem joined_wf (h : Vic.Fresh v.vars.keys) : (joined v whole n G).forcing.Wf := by
  show (Vic.gridded _ _ _ _).Wf
  rw [Vic.gridded_cube]
  constructor
  · simp [Vic.cube]
  · simp [Vic.cube]
  · simpa [Vic.cube, Function.comp_def] using h.nodup
  · intro d c hc
    simp only [Vic.cube, Dict.get?_cons] at hc ⊢
    split_ifs at hc ⊢
    · rw [← Option.some.inj hc]
    · rw [← Option.some.inj hc]
    · rw [← Option.some.inj hc]
    · cases hc
  · intro k a ha d hd
    rw [Vic.cube_get] at ha
    split_ifs at ha
    obtain rfl := Option.some.inj ha
    simp only [List.mem_cons, List.not_mem_nil, or_false] at hd
    rcases hd with rfl | rfl | rfl <;> rfl
  · intro k a ha ix ix' hix
    rw [Vic.cube_get] at ha
    split_ifs at ha
    obtain rfl := Option.some.inj ha
    simp only [hix "time" (by simp), hix "lat" (by simp), hix "lon" (by simp)]

theorem VicSources.sound (h : VicSources fs v s whole mask n G) : Sound (joined v whole n G) :=
  ⟨h.domWf, joined_wf h.names, h.stateWf, h.domNames, by
    show ((v.vars.keys.map fun k => (k, k)).map Prod.fst).Nodup
    simpa [Function.comp_def] using h.names.nodup, h.stateNames⟩

theorem joined_size {d : String} (h : ((joined v whole n G).forcing.sizes.get? d).isSome) : d = "time" ∨ d = "lat" ∨ d = "lon" := by
  replace h : ((Vic.gridded whole (simDays v.start n) v.vars.keys G).sizes.get? d).isSome := h
  simp only [Vic.gridded, Dict.get?_cons] at h
  by_cases e1 : "time" = d
  · exact .inl e1.symm
  by_cases e2 : "lat" = d
  · exact .inr (.inl e2.symm)
  by_cases e3 : "lon" = d
  · exact .inr (.inr e3.symm)
  · simp [e1, e2, e3, Dict.get?] at h

theorem stamps_days (a : Int) (n : Nat) : (Vic.stampsOf (simDays a n)).map fileDay = Vic.stampsOf (simDays a n) := by
  unfold Vic.stampsOf
  rw [List.map_map]
  apply List.map_congr_left
  intro d _
  simp only [Function.comp, fileDay, Vic.stamp_whole]

theorem stamps_sorted (a : Int) (n : Nat) : (Vic.stampsOf (simDays a n)).Pairwise (· < ·) := by
  unfold Vic.stampsOf simDays
  rw [List.map_map, List.pairwise_map]
  refine List.pairwise_lt_range.imp ?_
  intro i j hij
  simp only [Function.comp, Int.cast_lt]
  omega

/-- The same run over the joined file has what it needs. -/
theorem VicSources.sources (h : VicSources fs v s whole mask n G) : Sources (joined v whole n G) s whole mask n := by
  have wf := h.domainWf
  have nn : ∀ d, newName (joined v whole n G).names d = d := Vic.newName_id _
  have keys : (joined v whole n G).names.map Prod.fst = v.vars.keys := by
    show (v.vars.keys.map fun k => (k, k)).map Prod.fst = _
    simp [Function.comp_def]
  have var : ∀ k ∈ v.vars.keys, ∃ b, (joined v whole n G).forcing.vars.get? k = some b ∧ b.dims = ["time", "lat", "lon"] := by
    intro k hk
    have e := Vic.cube_get (tl := Vic.stampsOf (simDays v.start n)) (la := whole.labels "lat") (lo := whole.labels "lon")
      (names := v.vars.keys) (f := fun v ix => (G v ((whole.labels "lat").getD (ix "lat") 0, (whole.labels "lon").getD (ix "lon") 0)).getD
        (ix "time") nan) k
    rw [if_pos hk] at e
    exact ⟨_, (congrArg (fun d : DS ℝ => d.vars.get? k) (Vic.gridded_cube whole (simDays v.start n) v.vars.keys G)).trans e, rfl⟩
  have apart : ∀ u ∈ v.vars.keys, (joined v whole n G).forcing.sizes.get? u = none := by
    intro u hu
    cases hs : (joined v whole n G).forcing.sizes.get? u with
    | none => rfl
    | some m =>
      rcases joined_size (v := v) (whole := whole) (n := n) (G := G) (d := u) (by rw [hs]; rfl) with rfl | rfl | rfl
      · exact absurd hu h.names.time
      · exact absurd hu h.names.lat
      · exact absurd hu h.names.lon
  have prec := h.vars "prec" (by simp)
  have ctime : (joined v whole n G).forcing.coords.get? "time" = some (Vic.stampsOf (simDays v.start n)) := rfl
  have shape : ∀ k ∈ ["prec", "t_min", "t_max"], Shaped (joined v whole n G).forcing (joined v whole n G).names mask.dims k := by
    intro k hk u b hu hb
    replace hu : Dict.get? (v.vars.keys.map fun k => (k, k)) u = some k := hu
    rw [ids_get] at hu
    split_ifs at hu with huk
    obtain ⟨b', hb', hdims⟩ := var u huk
    rw [hb] at hb'
    obtain rfl := Option.some.inj hb'
    rw [hdims]
    refine ⟨⟨"time", by simp, nn _⟩, fun d hd => ?_⟩
    rw [nn]
    simp only [List.mem_cons, List.not_mem_nil, or_false] at hd
    rcases hd with rfl | rfl | rfl
    · exact .inl rfl
    · exact .inr h.plane.lat
    · exact .inr h.plane.lon
  refine
    { dom := h.dom, hasMask := h.hasMask, distinct := h.distinct, time := h.time, axes := h.axes, month := ?_, pos := h.pos, stop := h.stop,
      force := ?_, past := h.past, named := ?_, forceDays := ?_, pastDays := h.pastDays, forceShape := shape, pastShape := h.pastShape,
      free := h.free, place := ?_, warm := ?_, months := h.months,
      calendar := h.calendar.sub le_rfl (by have := h.pos; show v.start - 1 - 730120 ≤ _; omega) }
  · intro hm
    rcases h.plane.only _ hm with e | e <;> exact absurd e (by decide)
  · refine ⟨?_, ?_, ?_, ?_, ?_, ?_⟩
    · intro u hu
      replace hu : u ∈ (joined v whole n G).names.map Prod.fst := hu
      rw [keys] at hu
      obtain ⟨b, hb, -⟩ := var u hu
      exact Option.isSome_iff_exists.2 ⟨b, hb⟩
    · intro u hu
      replace hu : u ∈ (joined v whole n G).names.map Prod.fst := hu
      rw [keys] at hu
      exact apart u hu
    · intro m m' _ _ he
      replace he : newName (joined v whole n G).names m = newName (joined v whole n G).names m' := he
      rwa [nn, nn] at he
    · intro d hd hs
      replace hd : ((joined v whole n G).forcing.sizes.get? d).isSome := hd
      replace hs : (whole.sizes.get? (newName (joined v whole n G).names d)).isSome := hs
      show ∃ c, (joined v whole n G).forcing.coords.get? d = some c ∧ c.Nodup ∧ ∀ x ∈ whole.labels (newName (joined v whole n G).names d), x ∈ c
      rw [nn] at hs ⊢
      rcases joined_size hd with rfl | rfl | rfl
      · rw [h.time] at hs; simp at hs
      · exact ⟨_, rfl, h.distinct "lat", fun x hx => hx⟩
      · exact ⟨_, rfl, h.distinct "lon", fun x hx => hx⟩
    · obtain ⟨b, hb, hd⟩ := var _ prec
      refine ⟨"prec", b, "time", _, ?_, hb, by rw [hd]; simp, nn _, ctime, ?_⟩
      · show "prec" ∈ (joined v whole n G).names.map Prod.fst
        rw [keys]; exact prec
      · rw [stamps_days]
        exact (stamps_sorted _ _).imp fun h => h.le
    · intro k hk
      simp only [List.mem_cons, List.not_mem_nil, or_false] at hk
      rcases hk with rfl | rfl | rfl
      · exact .inl h.elev
      · exact .inr h.lat
      · exact .inr h.lon
  · intro k hk
    refine ⟨⟨k, ?_⟩, h.pastNamed k hk⟩
    show Dict.get? (v.vars.keys.map fun k => (k, k)) k = some k
    rw [ids_get, if_pos (h.vars k hk)]
  · intro d hd _
    rw [nn] at hd
    subst hd
    show EveryDay (Vic.stampsOf (simDays v.start n)) v.start n
    refine ⟨by rw [stamps_days]; exact (stamps_sorted _ _).imp fun h => h.le, fun k hk => ?_⟩
    rw [stamps_days]
    refine List.count_eq_one_of_mem ((stamps_sorted _ _).imp fun h => h.ne) ?_
    exact List.mem_map.2 ⟨v.start + k, List.mem_map.2 ⟨k, List.mem_range.2 hk, rfl⟩, rfl⟩
  · intro k hk
    simp only [List.mem_cons, List.not_mem_nil, or_false] at hk
    have tmin := h.vars "t_min" (by simp)
    obtain ⟨b, hb, hd⟩ := var _ tmin
    have named : Dict.get? (v.vars.keys.map fun k => (k, k)) "t_min" = some "t_min" := by rw [ids_get, if_pos tmin]
    rcases hk with rfl | rfl | rfl
    · exact .inl h.elev
    · exact .inr ⟨h.plane.lat, "t_min", b, "lat", named, hb, by rw [hd]; simp, nn _⟩
    · exact .inr ⟨h.plane.lon, "t_min", b, "lon", named, hb, by rw [hd]; simp, nn _⟩
  · intro c hc k hk x y hx hy
    rw [(joined_told hx).2, (joined_told hy).2]
    exact h.warm c hc k hk

/-- A run over files for single cells that has what it needs (as `Ready` for gridded forcing). -/
structure VicReady (w : World) (fs : Vic.Files) (p : Conf) (su : Setup) (v : Vic.Inputs) (whole : DS ℝ) (mask : Arr ℝ) (n : Nat)
    (G : Forcing.Grid ℚ ℝ) (freq : Option Times.Freq) (os : List (String × String)) (order : List (Dict String Chunk.Slice)) : Prop where
  keys : p.keys.Nodup
  use : use w.cfg Units.importAttrs p = .ok su
  names : VicNames w su v
  sources : VicSources fs v su.shared whole mask n G
  frequency : outFreq w su.outFreq = .ok freq
  named : outs su = .ok os
  plan : Plan su.shared (outputOf w su freq os) su.chunks (maskDims whole mask.dims) (v.start - 730120) n
  order : ∃ ss, Chunk.slices su.chunks (maskDims whole mask.dims) = .ok ss ∧ order.Perm ss

/-- Some chunks of a run over files for single cells. -/
theorem vic_some (h : VicReady w fs p su v whole mask n G freq os order) {pre : List (Dict String Chunk.Slice)} (hpre : ∀ s ∈ pre, s ∈ order)
    (fuel : Nat) : OutcomeSome w p su (joined v whole n G) whole mask n freq os pre fuel (Vic.simulate w fs fuel p pre) := by
  obtain ⟨hp, hu, hn, hv, hfr, hos, hplan, ss, hs, ho⟩ := h
  have hi := hv.sound
  have hsrc := hv.sources
  have hsh := hn.shared
  refine run_some hp hu hi (by rw [hsh]; exact hsrc) hos (by rw [hsh]; exact hplan) ⟨ss, hs, fun s hm => ho.mem_iff.1 (hpre s hm)⟩ fuel ?_ ?_
  · intro ld hw hfit hr hdays hch h1 h2
    rw [hsh] at hw ⊢
    have hsize : su.timeStep ≠ 0 := by
      intro e
      have := hplan.step.pos
      rw [show su.shared.ts = su.timeStep.toNat from (use_iff.1 hu).ts, e] at this
      simp at this
    have hidle : idle ∉ su.shared.outVars.keys := by
      intro hm
      have := ((check_iff hsize (load_has hw)).1 h1).outs idle (by rw [out_keys hu]; exact hm)
      split_ifs at this
      · revert this; decide
      · revert this; decide
    exact vic_simulate_eq hu hn hi hv.dom hv.read hv.stop (hv.calendar.sub (by omega) le_rfl) hw hfit hr hdays hfr h1 hidle hos h2 hch fuel
  · intro ld hw dir h
    rw [hsh] at hw
    obtain ⟨lv, l1, l2⟩ := vic_load (chunk := []) hi List.nodup_nil hv.dom hv.read hv.stop (hv.calendar.sub (by omega) le_rfl) hw
    unfold Vic.simulate at h
    simp only [hu, bind, Except.bind, vic_construct_ok hn l1, hfr] at h
    split at h
    · cases h
    · split at h
      · cases h
      · rename_i h1
        refine ⟨check_same (vic_load_has l1) (load_has hw) h1, ?_⟩
        simp only [hos] at h
        split at h
        · cases h
        · split_ifs at h with h2
          simpa using h2

/-- **C102**: a run over files for single cells does what the run does over one gridded file that holds the series of all of them. -/
theorem C102_run (h : VicReady w fs p su v whole mask n G freq os order) (fuel : Nat) :
    Outcome w p su (joined v whole n G) whole mask n freq os order fuel (Vic.simulate w fs fuel p order) := by
  obtain ⟨ld, hw, e1, e2, hin, hj, -, hiff, hval⟩ := vic_some h (fun _ hs => hs) fuel
  obtain ⟨ss, hs, ho⟩ := h.order
  refine ⟨ld, hw, e1, e2, hin, hj, ⟨ss, ?_, ho⟩, hiff, hval⟩
  show Chunk.slices su.chunks (maskDims ld.dom ld.mask.dims) = .ok ss
  rw [e1, e2]; exact hs

/-- **C102**: what the files of such a run hold, as in C95. -/
theorem C102_values (h : VicReady w fs p su v whole mask n G freq os order) (fuel : Nat) {dir : Nc.Dir}
    (hdir : Vic.simulate w fs fuel p order = .ok dir) :
    ∃ ld, Worker.load (joined v whole n G) su.shared [] = .ok ld ∧ ld.dom = whole ∧ ld.mask = mask ∧
      (∀ c ∈ Worker.positions whole mask.dims, Worker.cellIn ld c = .ok (inputOf ld c)) ∧
      ∃ st : Stamps (jobOfSetup w su (joined v whole n G) ld n freq os), st.files.flatten = st.axis ∧
      (∀ c, (jobOfSetup w su (joined v whole n G) ld n freq os).Computed c →
        ∃ r, (jobOfSetup w su (joined v whole n G) ld n freq os).alone fuel c = .ok r ∧
        ∀ u ∈ su.shared.outVars.keys, ∃ val : ℚ → Flt ℝ, Dict.get? r u = some (st.axis.map val) ∧
          ∀ g ∈ st.files, ∃ name f tv ov, Times.filename (w.cfg.abspath su.outDir).toList su.outPrefix.toList g = .ok name ∧
            dir (String.ofList name) = some f ∧ f.vars.get? "time" = some tv ∧
            f.vars.get? ((outputOf w su freq os).names u) = some ov ∧ ov.dims = "time" :: mask.dims ∧
            ∀ (k : Nat) (hk : k < g.length), OnCalendar su.shared.calendar g[k] (tv.data [k]) ∧
              stored (ov.data (k :: c)) = val g[k]) ∧
      ∀ c, ¬ (jobOfSetup w su (joined v whole n G) ld n freq os).Computed c → ∀ u ∈ su.shared.outVars.keys, ∀ g ∈ st.files, ∃ name f ov,
        Times.filename (w.cfg.abspath su.outDir).toList su.outPrefix.toList g = .ok name ∧
        dir (String.ofList name) = some f ∧ f.vars.get? ((outputOf w su freq os).names u) = some ov ∧
        ∀ k < g.length, stored (ov.data (k :: c)) = nan := by
  have := values_of h.use h.named h.plan.vars (C102_run h fuel) hdir
  rwa [h.names.shared] at this

/-- **C102**: each file of such a run says what it holds, as in C95. -/
theorem C102_described (h : VicReady w fs p su v whole mask n G freq os order) (fuel : Nat) {dir : Nc.Dir}
    (hdir : Vic.simulate w fs fuel p order = .ok dir) : Describes w p su (joined v whole n G) n freq os dir :=
  described_of h.keys h.use h.named h.plan.vars (C102_run h fuel) hdir

/-- **C102**: a worker writes nothing unless the forcing it has read itself passes the checks. -/
theorem C102_worker_checked {fuel : Nat} {pa : Main.Parent} {dir dir' : Nc.Dir} {chunk : Dict String Chunk.Slice}
    (h : Vic.worker w fs fuel su pa freq os dir chunk = .ok dir') :
    ∃ i ld, Vic.inputs w su pa = .ok i ∧ Vic.load fs i pa.shared chunk = .ok ld ∧ Main.check su ld.met = .ok () := by
  unfold Vic.worker at h
  simp only [bind_ok] at h
  obtain ⟨i, h1, ld, h2, r, -, u, h3, -⟩ := h
  exact ⟨i, ld, h1, h2, h3⟩

/-- **C102**: the forcing of each cell is the series of the files at its latitude and longitude, one value for each day. -/
theorem C102_forcing (h : VicSources fs v s whole mask n G) : ∃ ld, Worker.load (joined v whole n G) s [] = .ok ld ∧
    ∀ c ∈ positions whole mask.dims, cellIn ld c = .ok (inputOf ld c) ∧ ∀ k ∈ ["prec", "t_min", "t_max"],
      ∃ col, Dict.get? (inputOf ld c).data.frame k = some col ∧
      ∀ t < n, col t = (G k (cellLabel whole mask.dims c "lat", cellLabel whole mask.dims c "lon")).getD t nan := by
  obtain ⟨ld, hw, e1, e2, hfit, hd, hcell⟩ := C90_loads h.sound h.sources
  obtain ⟨ld', hw', -, -, hin, -⟩ := C90_run h.sound h.sources
  obtain rfl : ld = ld' := Except.ok.inj (hw.symm.trans hw')
  refine ⟨ld, hw, fun c hc => ⟨hin c hc, fun k hk => ?_⟩⟩
  have hadd : k ∉ added := by
    have : ∀ k ∈ ["prec", "t_min", "t_max"], k ∉ added := by decide
    exact this k hk
  have hcol : ∃ col, Dict.get? (inputOf ld c).data.frame k = some col := by
    rw [frame_series h.sound hw hfit (hin c hc) hadd]
    have hm : k ∈ ld.met.vars.map Prod.fst := by
      refine load_has hw k ?_
      simp only [List.mem_cons, List.not_mem_nil, or_false] at hk ⊢
      tauto
    obtain ⟨a, ha⟩ := Option.isSome_iff_exists.1 ((Dict.isSome_iff _ _).2 hm)
    exact ⟨_, by rw [ha]; rfl⟩
  obtain ⟨col, hcol⟩ := hcol
  refine ⟨col, hcol, fun t ht => ?_⟩
  have hday : ld.days[t]? = some (v.start + t) := by
    rw [C90_days h.sound hw hfit hd]
    show (simDays v.start n)[t]? = _
    unfold simDays
    rw [List.getElem?_map, List.getElem?_range ht]; rfl
  have := C89_forcing h.sound hw hfit (by rw [e1]; exact h.sources.force.countable h.domainWf) (by rw [e1, e2]; exact hc) (hin c hc) hadd
    (h.free k hk) (by rw [e2]; exact h.sources.forceShape k hk) hcol t _ hday
  rw [e1, e2] at this
  exact (joined_told this).2

/-! ### What the series are -/

theorem vic_complete (fs : Vic.Files) (fmt : String) (vars : Dict String String) (n : Nat) :
    Complete (Vic.readFile fs fmt vars n) vars.keys := by
  intro job ds h k hk
  unfold Vic.readFile at h
  split_ifs at h
  · simp only [bind_ok] at h
    obtain ⟨rows, -, rows', -, h⟩ := h
    exact C30_readers_complete.2 vars.keys n (fun _ => rows') job ds h k hk
  · simp only [bind_ok] at h
    obtain ⟨vs, h1, -, -, bytes, -, h⟩ := h
    have : vs.map Forcing.BinVar.name = vars.keys := by
      unfold Dict.keys
      clear h hk
      induction vars generalizing vs with
      | nil =>
        obtain rfl := Except.ok.inj h1
        rfl
      | cons a l ih =>
        rw [List.mapM_cons] at h1
        simp only [bind_ok] at h1
        obtain ⟨b, hab, m, hm, e⟩ := h1
        rw [pure_ok] at e
        subst e
        rw [List.map_cons, List.map_cons, ih m hm]
        congr 1
        unfold Vic.binVar at hab
        split at hab
        · cases hab
        · split at hab
          · rw [← Except.ok.inj hab]
          · cases hab
    exact C30_readers_complete.1 vs n (fun _ => bytes) job ds h k (by rw [this]; exact hk)

/-- The mask where a cell has its latitude and longitude is the mask of the cell. -/
theorem mask_here (h : VicSources fs v s whole mask n G) {c : Run.Cell} (hc : c ∈ positions whole mask.dims) :
    Vic.maskAt whole (cellLabel whole mask.dims c "lat", cellLabel whole mask.dims c "lon") = some (mask.val (cellIndex mask.dims c)) := by
  have wf := h.domainWf
  have hp : Worker.Placed whole mask.dims := ⟨wf, h.plane.lat, h.plane.lon, fun ht => by
    rcases h.plane.only _ ht with e | e <;> exact absurd e (by decide)⟩
  have key : ∀ d ∈ mask.dims, cellLabel whole mask.dims c d ∈ whole.labels d ∧
      (whole.labels d).idxOf (cellLabel whole mask.dims c d) = cellIndex mask.dims c d := by
    intro d hd
    have hl := position_label hp hc hd
    unfold cellLabel
    rw [List.getD_eq_getElem _ _ hl]
    exact ⟨List.getElem_mem hl, (h.distinct d).idxOf_getElem _ hl⟩
  obtain ⟨a1, a2⟩ := key _ h.plane.lat
  obtain ⟨b1, b2⟩ := key _ h.plane.lon
  unfold Vic.maskAt
  rw [h.hasMask]
  simp only
  rw [if_pos ⟨h.plane.lat, h.plane.lon, List.count_eq_one_of_mem (h.distinct _) a1, List.count_eq_one_of_mem (h.distinct _) b1,
    fun d hd h1 h2 => (h.plane.only d hd).elim (absurd · h1) (absurd · h2)⟩]
  · congr 1
    apply wf.own _ _ h.hasMask
    intro d hd
    rcases h.plane.only d hd with rfl | rfl
    · simp [a2]
    · simp [b2]

/-- **C102**: the series of an active cell are those of the last readable file named after its latitude and longitude; without such a
file, and where the mask is not positive, there are none. -/
theorem C102_series (h : VicSources fs v s whole mask n G) {c : Run.Cell} (hc : c ∈ positions whole mask.dims) :
    (∀ before job after ds, v.jobs = before ++ job :: after → Flt.lt (.fin 0) (mask.val (cellIndex mask.dims c)) = true →
      Forcing.location fs.toFloat job = .ok (cellLabel whole mask.dims c "lat", cellLabel whole mask.dims c "lon") →
      Vic.readFile fs v.fmt v.vars n job = .ok ds →
      (∀ j ∈ after, Forcing.location fs.toFloat j = .ok (cellLabel whole mask.dims c "lat", cellLabel whole mask.dims c "lon") →
        ∀ ds', Vic.readFile fs v.fmt v.vars n j ≠ .ok ds') →
      ∀ k ∈ v.vars.keys, ds.get? k = some (G k (cellLabel whole mask.dims c "lat", cellLabel whole mask.dims c "lon"))) ∧
    ((Flt.lt (.fin 0) (mask.val (cellIndex mask.dims c)) = false ∨
      ∀ j ∈ v.jobs, Forcing.location fs.toFloat j = .ok (cellLabel whole mask.dims c "lat", cellLabel whole mask.dims c "lon") →
        ∀ ds', Vic.readFile fs v.fmt v.vars n j ≠ .ok ds') →
      ∀ k ∈ v.vars.keys, G k (cellLabel whole mask.dims c "lat", cellLabel whole mask.dims c "lon") = List.replicate n nan) := by
  have hm := mask_here h hc
  have hcomp := vic_complete fs v.fmt v.vars n
  constructor
  · intro before job after ds e hpos hloc hds hlast k hk
    have hcol : ∀ k ∈ v.vars.keys, ds.get? k = some ((ds.get? k).getD []) := by
      intro k hk
      obtain ⟨col, hcol⟩ := hcomp job ds hds k hk
      rw [hcol]; rfl
    have hg := h.grid
    rw [e] at hg
    rw [C30_last _ _ _ _ hcomp n before after job G hg _ (fun k => (ds.get? k).getD []) ⟨hloc, ⟨_, hm, hpos⟩, ds, hds, hcol⟩ ?_ k hk]
    · exact hcol k hk
    · rintro j hj col ⟨f1, -, ds', f2, -⟩
      exact hlast j hj f1 ds' f2
  · intro hno k hk
    rcases C30_cells _ _ _ _ hcomp n v.jobs G h.grid k hk
      (cellLabel whole mask.dims c "lat", cellLabel whole mask.dims c "lon") with ⟨job, hj, col, ⟨f1, ⟨m, f2, f3⟩, ds, f4, -⟩, -⟩ | ⟨-, e⟩
    · exfalso
      rcases hno with hno | hno
      · rw [hm] at f2
        obtain rfl := Option.some.inj f2
        rw [hno] at f3
        cases f3
      · exact hno job hj f1 ds f4
    · exact e

/-- **C102**: directories are listed in any order; with at most one readable file for each active cell the forcing does not depend on it. -/
theorem C102_listing {fs : Vic.Files} {fmt calendar : String} {jobs jobs' : List Txt.Str} {vars : Dict String String} {dom met : DS ℝ} {a b : Int}
    (hp : jobs.Perm jobs') (hone : ∀ j ∈ jobs, ∀ j' ∈ jobs, ∀ c n ds ds', Forcing.location fs.toFloat j = .ok c →
      Forcing.location fs.toFloat j' = .ok c → Vic.readFile fs fmt vars n j = .ok ds → Vic.readFile fs fmt vars n j' = .ok ds' → j = j')
    (h : Vic.metData fs fmt calendar jobs vars dom a b = .ok met) : Vic.metData fs fmt calendar jobs' vars dom a b = .ok met := by
  unfold Vic.metData at h ⊢
  by_cases hf : fmt ≠ "ascii" ∧ fmt ≠ "binary"
  · rw [if_pos hf] at h
    cases h
  by_cases hs : (dom.sizes.get? "lat").isNone ∨ (dom.sizes.get? "lon").isNone
  · rw [if_neg hf] at h
    simp only [if_pos hs, bind_ok] at h
    obtain ⟨days, -, _, h, -⟩ := h
    cases h
  rw [if_neg hf] at h ⊢
  simp only [if_neg hs, bind_ok] at h ⊢
  obtain ⟨days, h0, g, hg, h⟩ := h
  have hcomp := vic_complete fs fmt vars days.length
  have hs := (C30_succeeds fs.toFloat (Vic.maskAt dom) _ _ hcomp days.length jobs).1 ⟨g, hg⟩
  obtain ⟨g', hg'⟩ := (C30_succeeds fs.toFloat (Vic.maskAt dom) _ _ hcomp days.length jobs').2
    fun job hj => hs job (hp.mem_iff.2 hj)
  have e := C30_order_irrelevant _ _ _ _ hcomp days.length jobs jobs' hp
    (fun j hj j' hj' c ca cb h1 h2 => by
      obtain ⟨l1, -, ds, r1, -⟩ := h1
      obtain ⟨l2, -, ds', r2, -⟩ := h2
      exact hone j hj j' hj' c _ ds ds' l1 l2 r1 r2) g g' hg hg'
  refine ⟨days, h0, g', hg', ?_⟩
  have : Vic.gridded dom days vars.keys g' = Vic.gridded dom days vars.keys g := by
    unfold Vic.gridded
    congr 1
    apply List.map_congr_left
    intro k hk
    simp only [e k hk]
  rw [this]
  exact h

/-- **C102**: a text file with a number for each variable on each line and at least a line for each day gives each variable its column;
one with fewer lines is passed over. -/
theorem C102_text (fs : Vic.Files) (vars : Dict String String) (hv : vars.keys.Nodup) (n : Nat) (job : Txt.Str)
    (rows : List (List (Flt ℝ))) (ht : fs.table job = .ok rows) (hr : ∀ r ∈ rows, r.length = vars.keys.length) :
    (n ≤ rows.length → ∃ ds, Vic.readFile fs "ascii" vars n job = .ok ds ∧ ∀ (j : Nat) (hj : j < vars.keys.length),
      ds.get? vars.keys[j] = some ((rows.take n).map fun r => r.getD j nan)) ∧
    (rows.length < n → Vic.readFile fs "ascii" vars n job = .error .valueError) := by
  have hcols : Vic.columns vars.keys rows = .ok (rows.map fun r k => r.getD (vars.keys.idxOf k) nan) := by
    have hw : max ((rows.head?.map List.length).getD 0) vars.keys.length = vars.keys.length := by
      cases rows with
      | nil => simp
      | cons a l => simp [hr a (by simp)]
    unfold Vic.columns
    simp only [hw, Nat.sub_self, Nat.add_zero]
    rw [if_neg]
    simp only [List.any_eq_true, decide_eq_true_eq, not_exists, not_and, not_lt]
    intro r hr'
    exact (hr r hr').le
  have hread : Vic.readFile fs "ascii" vars n job =
      Forcing.readAscii vars.keys n (rows.map fun r k => r.getD (vars.keys.idxOf k) nan) := by
    unfold Vic.readFile
    simp only [if_true, ht, bind, Except.bind, hcols]
  rw [hread]
  unfold Forcing.readAscii
  constructor
  · intro hn
    simp only [List.length_take, List.length_map, Nat.min_eq_left hn, if_true]
    refine ⟨_, rfl, fun j hj => ?_⟩
    refine Dict.get?_of_mem _ ?_ ?_
    · simpa [Dict.keys, Function.comp_def] using hv
    · refine List.mem_map.2 ⟨vars.keys[j], List.getElem_mem hj, ?_⟩
      rw [← List.map_take, List.map_map]
      simp only [Function.comp_def, hv.idxOf_getElem j hj]
  · intro hn
    simp only [List.length_take, List.length_map]
    rw [if_neg (by omega)]

/-- **C102**: in a binary file of four variables with their scales, each variable has each fourth number, divided by its scale. -/
theorem C102_bytes (fs : Vic.Files) (vars : Dict String String) (job : Txt.Str) (vs : List (Forcing.BinVar ℝ))
    (hvs : vars.mapM (Vic.binVar fs) = .ok vs) (h4 : vs.length = 4) (rows : List (Nat → Int)) (rest : List UInt8)
    (hg : GoodFile vs rows) (hb : fs.bytes job = .ok (encode vs rows ++ rest)) :
    Vic.readFile fs "binary" vars rows.length job = .ok (decoded vs rows) := by
  unfold Vic.readFile
  rw [if_neg (by decide), if_pos rfl, hvs]
  simp only [bind, Except.bind, hb]
  have : ∃ l, (vs.mapM fun v => Forcing.signedness v.word) = .ok l := by
    have hw : ∀ q ∈ vs, q.word = "signed" ∨ q.word = "unsigned" := fun q hq => (hg.1 q hq).2
    clear hg hb hvs h4
    induction vs with
    | nil => exact ⟨[], rfl⟩
    | cons a l ih =>
      obtain ⟨r, hr⟩ := ih fun q hq => hw q (List.mem_cons_of_mem _ hq)
      have : ∃ b, Forcing.signedness a.word = .ok b := by
        rcases hw a (by simp) with e | e
        · exact ⟨true, by rw [e]; rfl⟩
        · exact ⟨false, by rw [e]; rfl⟩
      obtain ⟨b, hb⟩ := this
      exact ⟨b :: r, by rw [List.mapM_cons, hb, hr]; rfl⟩
  obtain ⟨l, hl⟩ := this
  simp only [hl]
  exact C24_binary_partial vs rows rest h4 hg

theorem words_space {sp s : Txt.Str} (h : ∀ c ∈ sp, Txt.isSpace c = true) : Vic.words (sp ++ s) = Vic.words s := by
  induction sp with
  | nil => rfl
  | cons c sp ih =>
    rw [← ih fun d hd => h d (List.mem_cons_of_mem _ hd)]
    unfold Vic.words
    rw [List.cons_append, List.splitOnP_cons, if_pos (h c (by simp))]
    simp

theorem words_word {x : Txt.Str} (hx : x ≠ []) (h : ∀ c ∈ x, Txt.isSpace c = false) : Vic.words x = [x] := by
  unfold Vic.words
  rw [List.splitOnP_eq_single fun c hc => by simp [h c hc]]
  simp [hx]

theorem words_two {x y sp : Txt.Str} (hx : x ≠ []) (hy : y ≠ []) (h : ∀ c ∈ x, Txt.isSpace c = false) (h' : ∀ c ∈ y, Txt.isSpace c = false)
    (hs : sp ≠ []) (hsp : ∀ c ∈ sp, Txt.isSpace c = true) : Vic.words (x ++ (sp ++ y)) = [x, y] := by
  obtain ⟨c, sp, rfl⟩ := List.exists_cons_of_ne_nil hs
  have hw := (words_space (s := y) fun d hd => hsp d (List.mem_cons_of_mem _ hd)).trans (words_word hy h')
  unfold Vic.words at hw ⊢
  rw [List.cons_append, List.splitOnP_first (fun d hd => by simp [h d hd]) c (hsp c (by simp))]
  rw [List.filter_cons_of_pos (by simpa using hx), hw]

/-- **C102**: a variable of binary files is given by its scale and its type. -/
theorem C102_scale (fs : Vic.Files) (k : String) {x y sp : Txt.Str} (hx : x ≠ []) (hy : y ≠ []) (h : ∀ c ∈ x, Txt.isSpace c = false)
    (h' : ∀ c ∈ y, Txt.isSpace c = false) (hs : sp ≠ []) (hsp : ∀ c ∈ sp, Txt.isSpace c = true) {r : ℚ} (hr : fs.toFloat x = some r) :
    Vic.binVar fs (k, String.ofList (x ++ (sp ++ y))) = .ok ⟨k, (r : ℝ), String.ofList y⟩ := by
  unfold Vic.binVar
  simp only [String.toList_ofList, words_two hx hy h h' hs hsp, hr]
  rfl

/-- **C102**: the days of files for single cells begin with the first day that `start` stands for, and end with the first that `stop` does. -/
theorem C102_days {period : String → Option (Int × Int)} {s : String} {a b : Int} (h : period s = some (a, b)) :
    Vic.day period (.str s) = .ok a := by
  simp only [Vic.day, h]

/-! ### The run ends -/

/-- What files on earth say, as in C96. -/
structure VicEarthly (v : Vic.Inputs) (s : Cell.Shared) (whole : DS ℝ) (mask : Arr ℝ) (n : Nat) (G : Forcing.Grid ℚ ℝ) : Prop where
  own : ∀ k ∈ ["elev", "lat", "lon"], k ∉ v.constants.map Prod.fst ∧ k ∉ v.vars.keys ∧
    ∀ a, whole.vars.get? k = some a → ∀ d ∈ a.dims, d ∈ mask.dims
  elev : ∀ c, Active whole mask c → ∀ x, PlaceAt (joined v whole n G) whole mask.dims c "elev" x → ∃ r, x = fin r ∧ s.lapseRate * r < 288.15
  lat : ∀ c, Active whole mask c → ∀ x, PlaceAt (joined v whole n G) whole mask.dims c "lat" x → ∃ r, x = fin r ∧ |r| ≤ 60
  lon : ∀ c, Active whole mask c → ∀ x, PlaceAt (joined v whole n G) whole mask.dims c "lon" x → ∃ r, x = fin r
  temps : ∀ c, Active whole mask c → ∀ k ∈ ["t_min", "t_max"], ∀ t < n, ∃ r : ℝ,
    (G k (cellLabel whole mask.dims c "lat", cellLabel whole mask.dims c "lon")).getD t nan = fin r ∧ -60 ≤ r ∧ r ≤ 60
  before : ∀ c, Active whole mask c → ∀ k ∈ ["t_min", "t_max"], ∀ x,
    Told v.stateFile v.stateNames whole mask.dims c k (v.start - 1) x → ∃ r, x = fin r
  radiation : s.method = .passthrough → "shortwave" ∈ v.constants.map Prod.fst ∨ "shortwave" ∈ v.vars.keys

theorem joined_provided {k : String} : Provided (joined v whole n G) k ↔ k ∈ v.constants.map Prod.fst ∨ k ∈ v.vars.keys := by
  have key : (∃ u, Dict.get? (v.vars.keys.map fun k => (k, k)) u = some k) ↔ k ∈ v.vars.keys := by
    constructor
    · rintro ⟨u, h⟩
      rw [ids_get] at h
      split_ifs at h with hu
      exact Option.some.inj h ▸ hu
    · intro h
      exact ⟨k, by rw [ids_get, if_pos h]⟩
  exact or_congr Iff.rfl key

/-- **C102**: as in C96, such a run over files on earth, with a file with temperatures for each active cell, comes to its end. -/
theorem C102_ends (h : VicReady w fs p su v whole mask n G freq os order) (hv : Valid su) (hdir : w.isDir (w.cfg.abspath su.outDir) = true)
    (hcal : CfTime.named su.shared.calendar ≠ none) (hnames : (os.map Prod.snd ++ "time" :: mask.dims).Nodup) (hk : ∀ t ∈ ["i4", "i8", "f4", "f8"], w.known t = true)
    (hwr : ∀ q ∈ p, Writable w q) (he : VicEarthly v su.shared whole mask n G) (hs : SaneParams su.shared)
    (hlapse : 0 < su.shared.lapseRate) (hfrac : 0 < su.shared.tmaxFraction ∧ su.shared.tmaxFraction ≤ 1)
    (hwind : "wind" ∈ su.shared.outVars.keys → "wind" ∈ v.constants.map Prod.fst ∨ "wind" ∈ v.vars.keys) :
    ∃ fuel, ∀ k, ∃ dir, Vic.simulate w fs (fuel + k) p order = .ok dir := by
  have hsh := h.names.shared
  refine ends_of h.use h.sources.sound (by rw [hsh]; exact h.sources.sources) (by rw [hsh]; exact h.plan.step) (fun fuel => C102_run h fuel)
    hv hdir (by rw [hsh]; exact hcal) hnames hk hwr ?_ hs hlapse hfrac (fun hm => joined_provided.2 (hwind hm))
  rw [hsh]
  refine ⟨?_, he.elev, he.lat, he.lon, ?_, he.before, fun hm => joined_provided.2 (he.radiation hm)⟩
  · intro k hk
    obtain ⟨h1, h2, h3⟩ := he.own k hk
    exact ⟨fun hp => (joined_provided.1 hp).elim h1 h2, h3⟩
  · intro c hc k hk t ht x hx
    rw [(joined_told hx).2]
    exact he.temps c hc k hk t ht

/-- **C102**: the run of an INI file that leaves the parameters of the method at their defaults. -/
theorem C102_ini {opts : Opts} {f : Ini.File} {d : IniDoc} {ss : List (Dict String Chunk.Slice)} (hd : d.Of w.cfg f)
    (hs : fromIni w.cfg opts f = .ok su) (hn : VicNames w su v) (hsrc : VicSources fs v su.shared whole mask n G)
    (hfr : outFreq w su.outFreq = .ok freq)
    (hplan : Plan su.shared
      ⟨freq, (w.cfg.abspath su.outDir).toList, su.outPrefix.toList, fun k => ((d.outVars.getD []).get? k).getD k⟩
      su.chunks (maskDims whole mask.dims) (v.start - 730120) n)
    (hsl : Chunk.slices su.chunks (maskDims whole mask.dims) = .ok ss) (ho : order.Perm ss)
    (hk : ∀ t ∈ ["i4", "i8", "f4", "f8"], w.known t = true) (hv : Valid su) (hdir : w.isDir (w.cfg.abspath su.outDir) = true)
    (hcal : CfTime.named su.shared.calendar ≠ none) (hnames : (su.shared.outVars.keys.map (fun k => ((d.outVars.getD []).get? k).getD k) ++ "time" :: mask.dims).Nodup)
    (he : VicEarthly v su.shared whole mask n G)
    (hdef : ∀ k ∈ ["tmax_daylength_fraction", "tday_coef", "rain_scalar", "lapse_rate", "tdew_tol"], d.main.get? k = none)
    (hwind : "wind" ∈ su.shared.outVars.keys → "wind" ∈ v.constants.map Prod.fst ∨ "wind" ∈ v.vars.keys) :
    ∃ p os, VicReady w fs p su v whole mask n G freq os order ∧
      (∀ fuel, Vic.runIni w fs fuel opts f order = Vic.simulate w fs fuel p order) ∧
      ∃ fuel, ∀ k, ∃ dir, Vic.runIni w fs (fuel + k) opts f order = .ok dir := by
  obtain ⟨conf, avail, hp, hu, hwr, hrun⟩ := ini_conf hs
  obtain ⟨os, hos, e, hnm⟩ := ini_outs hd hs
  have hready : VicReady w fs ((classParams avail).update conf) su v whole mask n G freq os order := by
    refine ⟨hp, hu, hn, hsrc, hfr, hos, ?_, ss, hsl, ho⟩
    have : outputOf w su freq os = ⟨freq, (w.cfg.abspath su.outDir).toList, su.outPrefix.toList, fun v => ((d.outVars.getD []).get? v).getD v⟩ := by
      rw [← hnm freq]; rfl
    rw [this]
    exact hplan
  have hsim : ∀ fuel, Vic.runIni w fs fuel opts f order = Vic.simulate w fs fuel ((classParams avail).update conf) order := by
    intro fuel
    unfold Vic.runIni
    rw [hrun]
    rfl
  refine ⟨_, os, hready, hsim, ?_⟩
  obtain ⟨-, -, -, -, -, -, -, -, g1, g2, -, g4, g5, g6, -⟩ := C92_parameters hd hs
  rw [hdef _ (by simp)] at g1 g2 g4 g5 g6
  have g1 : su.shared.tmaxFraction = 0.67 := g1
  have g2 : su.shared.tdayCoef = 0.45 := g2
  have g4 : su.shared.rainScalar = 0.75 := g4
  have g5 : su.shared.lapseRate = 0.0065 := g5
  have g6 : su.shared.tdewTol = 1e-6 := g6
  have hmap : os.map Prod.snd = su.shared.outVars.keys.map (fun v => ((d.outVars.getD []).get? v).getD v) := by
    rw [e, List.map_map]; rfl
  simp only [hsim]
  exact C102_ends hready hv hdir hcal (by rw [hmap]; exact hnames) hk hwr he
    ⟨by rw [g6]; norm_num, by rw [g2]; norm_num, by rw [g4]; norm_num⟩ (by rw [g5]; norm_num) (by rw [g1]; norm_num) hwind

end run

end Verif.Props
