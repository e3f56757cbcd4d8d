import Verif.Model.Main
import Verif.Props.FilesCell
import Verif.Props.NcRun
import Verif.Props.Period
import Verif.Props.ConfigRead
import Verif.Props.Validate

/-!
# C95: from the configuration to the NetCDF files
-/

namespace Verif.Props

open Dataset ConfigRead Main Flt

/-! ### Validation -/

/-- What `_validate_setup` asks of a configuration. -/
structure Valid (su : Setup) : Prop where
  forcing : su.forcing ≠ .one (.str "") ∧ su.forcing ≠ .files []
  forcingVars : ∃ q l, su.forcingVars = some (q :: l)
  outDir : su.outDir ≠ ""
  fmt : su.forcingFmt ≠ ""
  step : su.timeStep ∣ 1440 ∧ (su.timeStep ≤ 360 ∨ su.timeStep = 1440)
  some : su.outNames ≠ []
  outs : ∀ v ∈ su.outNames.map Prod.fst,
    v ∈ if su.timeStep = 1440 then Validate.dailyOutVars else Validate.subdailyOutVars
  precision : su.outPrecision ∈ ["f4", "f8"]
  lwCloud : su.shared.lwCloud ∈ ["default", "cloud_deardorff"]
  lwType : su.shared.lwType ∈ ["default", "tva", "anderson", "brutsaert", "satterlund", "idso", "prata"]

theorem check_iff {su : Setup} {met : DS ℝ} (h0 : su.timeStep ≠ 0)
    (hm : ∀ v ∈ ["t_min", "t_max", "prec"], v ∈ met.vars.map Prod.fst) : check su met = .ok () ↔ Valid su := by
  have hin : Validate.inputErrs (checked su met) = [] := by
    unfold Validate.inputErrs
    rw [List.flatMap_eq_nil_iff]
    intro v hv
    rw [if_pos]
    exact List.mem_append_left _ (hm v hv)
  have key : check su met = .ok () ↔ Validate.problems (checked su met) = .ok [] := by
    unfold check Validate.validate
    cases h : Validate.problems (checked su met) with
    | error e => simp
    | ok l => cases l <;> simp
  rw [key]
  unfold Validate.problems
  show (if su.timeStep = 0 then _ else _) = _ ↔ _
  rw [if_neg h0, Except.ok.injEq]
  simp only [List.append_eq_nil_iff, hin]
  have e1 : Validate.forcingErrs (checked su met) = [] ↔ su.forcing ≠ .one (.str "") ∧ su.forcing ≠ .files [] := by
    unfold Validate.forcingErrs checked
    cases hf : su.forcing with
    | one s => cases s <;> simp
    | files l => cases l <;> simp
    | names d => simp
    | nums d => simp
    | outs d => simp
  have e2 : Validate.forcingVarErrs (checked su met) = [] ↔ ∃ q l, su.forcingVars = some (q :: l) := by
    unfold Validate.forcingVarErrs checked
    cases hf : su.forcingVars with
    | none => simp
    | some l => cases l <;> simp
  have e3 : Validate.emptyErrs (checked su met) = [] ↔ su.outDir ≠ "" ∧ su.forcingFmt ≠ "" := by
    unfold Validate.emptyErrs checked
    simp
  have e4 : Validate.timeStepErrs su.timeStep = [] ↔ su.timeStep ∣ 1440 ∧ (su.timeStep ≤ 360 ∨ su.timeStep = 1440) := by
    unfold Validate.timeStepErrs
    have hd := fmod_ne_zero_iff su.timeStep
    have h60 : (6 * (Cnst.MIN_PER_HOUR : Int)) = 360 := by decide
    split_ifs with h
    · simp only [List.cons_ne_nil, false_iff]
      rintro ⟨h1, h2⟩
      rcases h with h | ⟨h3, h4⟩
      · exact hd.1 h h1
      · rw [h60] at h3
        rcases h2 with h2 | h2 <;> omega
    · simp only [true_iff]
      rw [not_or] at h
      refine ⟨by by_contra hc; exact h.1 (hd.2 hc), ?_⟩
      by_cases h3 : su.timeStep ≤ 360
      · exact Or.inl h3
      · refine Or.inr (by_contra fun h4 => h.2 ⟨?_, h4⟩)
        rw [h60]; omega
  have e5 : Validate.noOutErrs (checked su met) = [] ↔ su.outNames ≠ [] := by
    unfold Validate.noOutErrs checked
    simp
  have e6 : Validate.outVarErrs (checked su met) su.timeStep = [] ↔ ∀ v ∈ su.outNames.map Prod.fst,
      v ∈ if su.timeStep = 1440 then Validate.dailyOutVars else Validate.subdailyOutVars := by
    unfold Validate.outVarErrs
    rw [List.flatMap_eq_nil_iff]
    refine forall₂_congr fun v _ => ?_
    show (if v ∈ Validate.outVarCheck su.timeStep then _ else _) = _ ↔ v ∈ Validate.outVarCheck su.timeStep
    split_ifs with h <;> simp [h]
  have e7 : ∀ (name s : String) (l : List String), Validate.optErr name (some s) l = [] ↔ s ∈ l := by
    intro name s l
    unfold Validate.optErr
    simp only
    split_ifs with h <;> simp [h]
  rw [e1, e2, e3, e4, e5, e6, show (checked su met).outPrecision = some su.outPrecision from rfl,
    show (checked su met).lwCloud = some su.shared.lwCloud from rfl, show (checked su met).lwType = some su.shared.lwType from rfl, e7, e7, e7]
  constructor
  · rintro ⟨⟨⟨⟨⟨⟨⟨⟨⟨h1, h2⟩, h3⟩, h4⟩, -⟩, h5⟩, h6⟩, h7⟩, h8⟩, h9⟩
    exact ⟨h1, h2, h3.1, h3.2, h4, h5, h6, h7, h8, h9⟩
  · rintro ⟨h1, h2, h3, h3', h4, h5, h6, h7, h8, h9⟩
    exact ⟨⟨⟨⟨⟨⟨⟨⟨⟨h1, h2⟩, h3, h3'⟩, h4⟩, trivial⟩, h5⟩, h6⟩, h7⟩, h8⟩, h9⟩

/-- A worker finds the configuration as good as its parent did. -/
theorem check_same {su : Setup} {met met' : DS ℝ} (hm : ∀ v ∈ ["t_min", "t_max", "prec"], v ∈ met.vars.map Prod.fst)
    (hm' : ∀ v ∈ ["t_min", "t_max", "prec"], v ∈ met'.vars.map Prod.fst) (h : check su met = .ok ()) : check su met' = .ok () := by
  have h0 : su.timeStep ≠ 0 := by
    intro e
    unfold check Validate.validate Validate.problems at h
    simp [checked, e] at h
  exact (check_iff h0 hm').2 ((check_iff h0 hm).1 h)

theorem dailies_has {ds : DS ℝ} {mdims : List String} {f : Run.Cell → State.Daily ℝ} (h : Worker.dailies ds mdims = .ok f) :
    ∀ v ∈ ["t_min", "t_max", "prec"], v ∈ ds.vars.map Prod.fst := by
  unfold Worker.dailies at h
  simp only [bind_ok, pure_ok, Dict.get_ok] at h
  obtain ⟨p, hp, a, ha, b, hb, -⟩ := h
  intro v hv
  simp only [List.mem_cons, List.not_mem_nil, or_false] at hv
  rcases hv with rfl | rfl | rfl
  · exact Dict.mem_keys_of_get? _ ha
  · exact Dict.mem_keys_of_get? _ hb
  · exact Dict.mem_keys_of_get? _ hp

/-- Once the inputs are loaded, precipitation and temperatures are there. -/
theorem load_has {i : Worker.Inputs} {s : Cell.Shared} {chunk : Dict String Chunk.Slice} {w : Worker.Loads}
    (h : Worker.load i s chunk = .ok w) : ∀ v ∈ ["t_min", "t_max", "prec"], v ∈ w.met.vars.map Prod.fst := by
  unfold Worker.load at h
  simp only [bind_ok] at h
  obtain ⟨dom, h1, met0, h2, met, h3, u, h4, st, h5, mask, h6, record, h7, old, h8, new, h9, agg, h10, extra, h11, e⟩ := h
  rw [pure_ok] at e
  subst e
  exact dailies_has h9

/-! ### The run -/

/-- The files a configuration names, and the period it gives. -/
structure Names (w : World) (su : Setup) (i : Worker.Inputs) : Prop where
  fmt : su.forcingFmt = "netcdf"
  domain : w.nc su.domain = .ok i.domFile
  domainVars : su.domainVars = some i.domNames
  forcing : ∃ path, su.forcing = .one (.str path) ∧ w.nc path = .ok i.forcing
  forcingVars : su.forcingVars = some i.names
  state : w.nc su.state = .ok i.stateFile
  stateVars : su.stateVars = some i.stateNames
  constants : su.constants = i.constants
  start : OneDay w.period (pval su.start) i.start
  stop : OneDay w.period (pval su.stop) i.stop

/-- The parameters the cells are computed with. -/
def sharedOf (w : World) (su : Setup) : Cell.Shared := { su.shared with calendar := w.encoding.getD su.shared.calendar }

/-- The parent of the run. -/
def parentOf (w : World) (su : Setup) (i : Worker.Inputs) (ld : Worker.Loads) : Parent :=
  ⟨sharedOf w su, i.start, i.stop, ld.dom, ld.met⟩

theorem construct_ok {w : World} {su : Setup} {i : Worker.Inputs} {s : Cell.Shared} {ld : Worker.Loads} (hn : Names w su i)
    (hw : Worker.load i s [] = .ok ld) : construct w su = .ok (parentOf w su i ld) := by
  unfold Worker.load at hw
  simp only [bind_ok] at hw
  obtain ⟨dom, h1, met0, h2, met, h3, u, h4, st, h5, mask, h6, record, h7, old, h8, new, h9, agg, h10, extra, h11, e⟩ := hw
  rw [pure_ok] at e
  subst e
  obtain ⟨path, hp, hf⟩ := hn.forcing
  have hcp : Worker.checkPeriod i.start i.stop (Worker.daysOf met) = .ok () := h4
  obtain ⟨first, last, hfirst, hlast, hle1, hle2⟩ : ∃ first last, (Worker.daysOf met).head? = some first ∧
      (Worker.daysOf met).getLast? = some last ∧ first ≤ i.start ∧ i.stop ≤ last := by
    unfold Worker.checkPeriod at hcp
    split at hcp
    · rename_i a b ha hb
      split at hcp
      · rename_i h; exact ⟨a, b, ha, hb, h.1, h.2⟩
      · cases hcp
    · cases hcp
  obtain ⟨q, hq, q1, q2⟩ := validate_ok
    (env := ⟨Worker.daysOf met, w.encoding, fun s => (w.period s).map Prod.fst⟩) (first := first) (last := last)
    (r := [("start", pval su.start), ("stop", pval su.stop), ("calendar", .str su.shared.calendar)])
    rfl (hn.start.resolve rfl _) rfl (hn.stop.resolve rfl _) rfl hfirst hlast hle1 hle2
  unfold construct
  simp only [hn.fmt, ne_eq, not_true_eq_false, if_false, hn.domain, hn.domainVars, hn.forcingVars, hp, openForcing, hf, required, bind, Except.bind,
    pure, Except.pure, h1, hn.start.bound, hn.stop.bound, hn.constants]
  rw [show metData .netcdf i.forcing dom (.ok (some ((i.start - epoch : Int) : ℚ))) (.ok (some ((i.stop - epoch : Int) : ℚ))) (some i.names) =
    .ok met0 from h2]
  simp only [h3, hq, q1, q2]
  rfl

theorem inputs_ok {w : World} {su : Setup} {i : Worker.Inputs} (hn : Names w su i) {pa : Parent} (h1 : pa.start = i.start)
    (h2 : pa.stop = i.stop) : inputs w su pa = .ok i := by
  obtain ⟨path, hp, hf⟩ := hn.forcing
  unfold inputs
  simp only [hn.domain, hn.domainVars, hn.forcingVars, hp, openForcing, hf, hn.state, hn.stateVars, hn.constants, required, bind, Except.bind, pure,
    Except.pure, h1, h2]

/-- A worker of the run. -/
theorem worker_eq {w : World} {su : Setup} {i : Worker.Inputs} {ld : Worker.Loads} (hn : Names w su i) (hi : Worker.Sound i)
    (hw : Worker.load i (sharedOf w su) [] = .ok ld) (hfit : Worker.Fit ld) (hr : Readable ld) {chunk : Dict String Chunk.Slice}
    (hch : Worker.IsChunk ld chunk) (hck : check su ld.met = .ok ()) {freq : Option Times.Freq} {axis : List ℚ} {groups : Nc.Groups}
    (hs : stamps w su (sharedOf w su) freq ld.days = .ok (axis, groups)) (fuel : Nat) (os : List (String × String)) (dir : Nc.Dir) :
    worker w fuel su (parentOf w su i ld) freq os dir chunk = (do
      let out ← Run.runSlice (Cell.cellBody fuel) (maskOf ld) (inputOf ld) ⟨sharedOf w su, nan, nan, nan⟩
        (Run.axes (maskDims ld.dom ld.mask.dims) chunk)
      Nc.writeChunk os axis groups chunk out dir) := by
  obtain ⟨ld', h1, h2, h3, h4, h5⟩ := Worker.load_part hi hw hfit hch
  have hck' := check_same (load_has hw) (load_has h1) hck
  unfold worker Run.runSlice
  rw [inputs_ok hn rfl rfl]
  simp only [bind, Except.bind, show (parentOf w su i ld).shared = sharedOf w su from rfl, h1, h2, hs, hck']
  rw [cells_eq (Cell.cellBody fuel) (mask := maskOf ld) (inp := inputOf ld) (ax := Worker.axesOf ld chunk), h4]
  · rfl
  · intro l hl
    exact (h5 l (h4 ▸ hl)).1
  · intro l hl hact
    obtain ⟨x, hx⟩ := hr _ (Worker.global_position (h4 ▸ hl)) hact
    rw [(h5 l (h4 ▸ hl)).2 x hx]
    unfold inputOf
    have hx' : Worker.cellIn ld (Run.globalOf (Worker.axesOf ld chunk) l) = .ok x := hx
    rw [hx']

/-- Where and how the files are written. -/
def outputOf (w : World) (su : Setup) (freq : Option Times.Freq) (os : List (String × String)) : Worker.Output where
  freq := freq
  dir := (w.cfg.abspath su.outDir).toList
  pre := su.outPrefix.toList
  names := fun v => ((Dict.get? os v).getD v)

/-- The run of the cells. -/
noncomputable def jobOfSetup (w : World) (su : Setup) (i : Worker.Inputs) (ld : Worker.Loads) (n : Nat) (freq : Option Times.Freq)
    (os : List (String × String)) : Job :=
  jobOf (sharedOf w su) (outputOf w su freq os) su.chunks ld (i.start - 730120) n

/-- What the output files are made from. -/
def filesOf (w : World) (p : Conf) (su : Setup) (i : Worker.Inputs) (ld : Worker.Loads) (os : List (String × String)) : Nc.Cfg :=
  fileCfg w p su (parentOf w su i ld) ld.mask os

section run

variable {w : World} {p : Conf} {su : Setup} {i : Worker.Inputs} {ld : Worker.Loads} {n : Nat} {freq : Option Times.Freq}
  {os : List (String × String)} {order : List (Dict String Chunk.Slice)}

/-- The run behind the configuration, once it has been accepted. -/
theorem simulate_eq (hu : use w.cfg Units.importAttrs p = .ok su) (hn : Names w su i) (hi : Worker.Sound i)
    (hw : Worker.load i (sharedOf w su) [] = .ok ld) (hfit : Worker.Fit ld) (hr : Readable ld)
    (hdays : ld.days.map (· - 730120) = consecutive (i.start - 730120) n) (hfr : outFreq w su.outFreq = .ok freq)
    (hck : check su ld.met = .ok ()) (hos : outs su = .ok os) (hdir : w.isDir (w.cfg.abspath su.outDir) = true)
    (ho : ∀ chunk ∈ order, Worker.IsChunk ld chunk) (fuel : Nat) :
    simulate w fuel p order = Nc.runDir w.known (filesOf w p su i ld os) (table w su) fuel (sharedOf w su) freq
      (w.cfg.abspath su.outDir).toList su.outPrefix.toList (maskOf ld) (inputOf ld) (consecutive (i.start - 730120) n) order := by
  have hmask : ld.dom.vars.get "mask" = .ok ld.mask := by
    unfold Worker.load at hw
    simp only [bind_ok] at hw
    obtain ⟨dom, h1, met0, h2, met, h3, u, h4, st, h5, mask, h6, record, h7, old, h8, new, h9, agg, h10, extra, h11, e⟩ := hw
    rw [pure_ok] at e
    subst e
    exact h6
  unfold simulate Nc.runDir
  simp only [hu, bind, Except.bind, construct_ok hn hw, hfr]
  have hst : stamps w su (sharedOf w su) freq ld.days = Nc.fileStamps (sharedOf w su) freq (w.cfg.abspath su.outDir).toList
      su.outPrefix.toList (consecutive (i.start - 730120) n) := by
    unfold stamps; rw [hdays]
  simp only [show (parentOf w su i ld).shared = sharedOf w su from rfl, show (parentOf w su i ld).met = ld.met from rfl,
    show Worker.daysOf ld.met = ld.days from rfl, show (parentOf w su i ld).whole = ld.dom from rfl, hck, hos, hmask, hdir]
  rw [← hst]
  cases hs : stamps w su (sharedOf w su) freq ld.days with
  | error e => rfl
  | ok r =>
    obtain ⟨axis, groups⟩ := r
    simp only [Bool.true_eq_false, if_false]
    rw [show fileCfg w p su (parentOf w su i ld) ld.mask os = filesOf w p su i ld os from rfl]
    cases Nc.create w.known (filesOf w p su i ld os) (table w su) groups with
    | error e => rfl
    | ok d =>
      obtain ⟨d, tab⟩ := d
      simp only
      clear hmask hst
      induction order generalizing d with
      | nil => rfl
      | cons c cs ih =>
        rw [List.foldlM_cons, List.foldlM_cons, worker_eq hn hi hw hfit hr (ho c (by simp)) hck hs fuel os d]
        simp only [bind, Except.bind]
        rw [show Run.axes (filesOf w p su i ld os).dims c = Run.axes (maskDims ld.dom ld.mask.dims) c from rfl]
        cases Run.runSlice (Cell.cellBody fuel) (maskOf ld) (inputOf ld) ⟨sharedOf w su, nan, nan, nan⟩
            (Run.axes (maskDims ld.dom ld.mask.dims) c) with
        | error e => rfl
        | ok out =>
          simp only [show (filesOf w p su i ld os).outs = os from rfl]
          cases Nc.writeChunk os axis groups c out d with
          | error e => rfl
          | ok d' => exact ih (fun x hx => ho x (List.mem_cons_of_mem _ hx)) d'

/-! ### Outputs and their names -/

theorem unit_keys : ∀ {ov : Units.OutUnits} {attrs t us : Dict String String},
    Units.updateUnitAttrs attrs ov = .ok (t, us) → us.keys = ov.keys
  | [], attrs, t, us, h => by
    obtain ⟨-, rfl⟩ := Prod.mk.inj (Except.ok.inj h)
    rfl
  | (k, v) :: rest, attrs, t, us, h => by
    unfold Units.updateUnitAttrs at h
    simp only [bind_ok] at h
    obtain ⟨⟨a, u⟩, -, ⟨a', us'⟩, h2, e⟩ := h
    obtain ⟨-, rfl⟩ := Prod.mk.inj (Except.ok.inj e)
    show k :: us'.keys = k :: Dict.keys rest
    rw [unit_keys h2]

/-- The outputs that are named are those that are converted. -/
theorem out_keys (hu : use w.cfg Units.importAttrs p = .ok su) : su.outNames.map Prod.fst = su.shared.outVars.keys := by
  obtain ⟨o, -, h2, h3⟩ := (use_iff.1 hu).outs
  rw [unit_keys h2, h3]
  simp [Dict.keys, List.map_map, Function.comp_def]

theorem outs_keys {su : Setup} {os : List (String × String)} (h : outs su = .ok os) : os.map Prod.fst = su.outNames.map Prod.fst := by
  unfold outs at h
  generalize su.outNames = l at h
  induction l generalizing os with
  | nil => rw [List.mapM_nil, pure_ok] at h; subst h; rfl
  | cons a l ih =>
    rw [List.mapM_cons] at h
    simp only [bind_ok, pure_ok] at h
    obtain ⟨q, ⟨n, -, rfl⟩, r, hr, rfl⟩ := h
    simp [ih hr]

/-- The variables of the files are the outputs, under their names. -/
theorem outs_names (hu : use w.cfg Units.importAttrs p = .ok su) (hos : outs su = .ok os) (hnd : su.shared.outVars.keys.Nodup)
    (freq : Option Times.Freq) : OutsOf (filesOf w p su i ld os) (sharedOf w su).outVars.keys (outputOf w su freq os).names := by
  have hk : os.map Prod.fst = su.shared.outVars.keys := (outs_keys hos).trans (out_keys hu)
  show os = su.shared.outVars.keys.map fun v => (v, (Dict.get? os v).getD v)
  rw [← hk, List.map_map]
  conv_lhs => rw [← List.map_id os]
  apply List.map_congr_left
  intro q hq
  have : Dict.get? os q.1 = some q.2 := Dict.get?_of_mem os (by rw [← hk] at hnd; exact hnd) hq
  simp [this]

theorem recorded_keys (hp : p.keys.Nodup) (pa : Parent) : ((recorded w p pa).map Prod.fst).Nodup := by
  unfold recorded
  have h : Dict.keys (p.map fun q => (q.1, ncVal w q.2)) = p.keys := by simp [Dict.keys, List.map_map, Function.comp_def]
  exact Dict.nodup_set _ _ _ (Dict.nodup_set _ _ _ (Dict.nodup_set _ _ _ (by rw [h]; exact hp)))

/-- A run that has what it needs: parameters that are understood, complete files where the configuration says, outputs with names, a
sensible plan, and the workers in some order. -/
structure Ready (w : World) (p : Conf) (su : Setup) (i : Worker.Inputs) (whole : DS ℝ) (mask : Arr ℝ) (n : Nat) (freq : Option Times.Freq)
    (os : List (String × String)) (order : List (Dict String Chunk.Slice)) : Prop where
  keys : p.keys.Nodup
  use : use w.cfg Units.importAttrs p = .ok su
  names : Names w su i
  sound : Worker.Sound i
  sources : Sources i (sharedOf w su) whole mask n
  frequency : outFreq w su.outFreq = .ok freq
  named : outs su = .ok os
  plan : Plan (sharedOf w su) (outputOf w su freq os) su.chunks (maskDims whole mask.dims) (i.start - 730120) n
  order : ∃ ss, Chunk.slices su.chunks (maskDims whole mask.dims) = .ok ss ∧ order.Perm ss

/-- What a run does that computes the cells from the inputs `i`. -/
def Outcome (w : World) (p : Conf) (su : Setup) (i : Worker.Inputs) (whole : DS ℝ) (mask : Arr ℝ) (n : Nat) (freq : Option Times.Freq)
    (os : List (String × String)) (order : List (Dict String Chunk.Slice)) (fuel : Nat) (sim : Except PyErr Nc.Dir) : Prop :=
    ∃ ld, Worker.load i (sharedOf w su) [] = .ok ld ∧ ld.dom = whole ∧ ld.mask = mask ∧
      (∀ c ∈ Worker.positions whole mask.dims, Worker.cellIn ld c = .ok (inputOf ld c)) ∧
      (jobOfSetup w su i ld n freq os).Sane ∧ (jobOfSetup w su i ld n freq os).Schedule order ∧
      ((∃ dir, sim = .ok dir) ↔ Valid su ∧ w.isDir (w.cfg.abspath su.outDir) = true ∧
        (∀ st : Stamps (jobOfSetup w su i ld n freq os), ∀ g ∈ st.files,
          Creatable w.known (filesOf w p su i ld os) (table w su) (g.map fun t => ⌊t⌋)) ∧
        ∃ files, (jobOfSetup w su i ld n freq os).run fuel order = .ok files) ∧
      ∀ dir files, sim = .ok dir → (jobOfSetup w su i ld n freq os).run fuel order = .ok files →
        ∀ st : Stamps (jobOfSetup w su i ld n freq os), ∀ g ∈ st.files, ∃ name f0 f,
          Times.filename (w.cfg.abspath su.outDir).toList su.outPrefix.toList g = .ok name ∧ dir (String.ofList name) = some f ∧
          Described (filesOf w p su i ld os) (table w su) (g.map fun t => ⌊t⌋) f0 ∧ Frame os f0 f ∧
          FileShows (filesOf w p su i ld os) g.length f (files (String.ofList name))

/-- The same after some of the chunks. -/
def OutcomeSome (w : World) (p : Conf) (su : Setup) (i : Worker.Inputs) (whole : DS ℝ) (mask : Arr ℝ) (n : Nat) (freq : Option Times.Freq)
    (os : List (String × String)) (order : List (Dict String Chunk.Slice)) (fuel : Nat) (sim : Except PyErr Nc.Dir) : Prop :=
    ∃ ld, Worker.load i (sharedOf w su) [] = .ok ld ∧ ld.dom = whole ∧ ld.mask = mask ∧
      (∀ c ∈ Worker.positions whole mask.dims, Worker.cellIn ld c = .ok (inputOf ld c)) ∧
      (jobOfSetup w su i ld n freq os).Sane ∧ (jobOfSetup w su i ld n freq os).Among order ∧
      ((∃ dir, sim = .ok dir) ↔ Valid su ∧ w.isDir (w.cfg.abspath su.outDir) = true ∧
        (∀ st : Stamps (jobOfSetup w su i ld n freq os), ∀ g ∈ st.files,
          Creatable w.known (filesOf w p su i ld os) (table w su) (g.map fun t => ⌊t⌋)) ∧
        ∃ files, (jobOfSetup w su i ld n freq os).run fuel order = .ok files) ∧
      ∀ dir files, sim = .ok dir → (jobOfSetup w su i ld n freq os).run fuel order = .ok files →
        ∀ st : Stamps (jobOfSetup w su i ld n freq os), ∀ g ∈ st.files, ∃ name f0 f,
          Times.filename (w.cfg.abspath su.outDir).toList su.outPrefix.toList g = .ok name ∧ dir (String.ofList name) = some f ∧
          Described (filesOf w p su i ld os) (table w su) (g.map fun t => ⌊t⌋) f0 ∧ Frame os f0 f ∧
          FileShows (filesOf w p su i ld os) g.length f (files (String.ofList name))

/-- Some chunks of a run that comes down to creating the files and running the workers. -/
theorem run_some {whole : DS ℝ} {mask : Arr ℝ} {sim : Except PyErr Nc.Dir} (hp : p.keys.Nodup) (hu : use w.cfg Units.importAttrs p = .ok su)
    (hi : Worker.Sound i) (hsrc : Sources i (sharedOf w su) whole mask n) (hos : outs su = .ok os)
    (hplan : Plan (sharedOf w su) (outputOf w su freq os) su.chunks (maskDims whole mask.dims) (i.start - 730120) n)
    (hsl : ∃ ss, Chunk.slices su.chunks (maskDims whole mask.dims) = .ok ss ∧ ∀ s ∈ order, s ∈ ss) (fuel : Nat)
    (hsim : ∀ ld, Worker.load i (sharedOf w su) [] = .ok ld → Worker.Fit ld → Readable ld →
      ld.days.map (· - 730120) = consecutive (i.start - 730120) n → (∀ chunk ∈ order, Worker.IsChunk ld chunk) → check su ld.met = .ok () →
      w.isDir (w.cfg.abspath su.outDir) = true →
      sim = Nc.runDir w.known (filesOf w p su i ld os) (table w su) fuel (sharedOf w su) freq (w.cfg.abspath su.outDir).toList
        su.outPrefix.toList (maskOf ld) (inputOf ld) (consecutive (i.start - 730120) n) order)
    (hnec : ∀ ld, Worker.load i (sharedOf w su) [] = .ok ld → ∀ dir, sim = .ok dir →
      check su ld.met = .ok () ∧ w.isDir (w.cfg.abspath su.outDir) = true) :
    OutcomeSome w p su i whole mask n freq os order fuel sim := by
  obtain ⟨ss, hs, ho⟩ := hsl
  obtain ⟨ld, hw, e1, e2, hfit, hd, hcell⟩ := C90_loads hi hsrc
  obtain ⟨ld', hw', -, -, hin, hrun⟩ := C90_run hi hsrc
  obtain rfl : ld = ld' := Except.ok.inj (hw.symm.trans hw')
  have hj : (jobOfSetup w su i ld n freq os).Sane := (hrun (outputOf w su freq os) su.chunks hplan).1
  have hsch : (jobOfSetup w su i ld n freq os).Among order := by
    refine ⟨ss, ?_, ho⟩
    show Chunk.slices su.chunks (maskDims ld.dom ld.mask.dims) = .ok ss
    rw [e1, e2]; exact hs
  have hdays : ld.days.map (· - 730120) = consecutive (i.start - 730120) n := by
    rw [C90_days hi hw hfit hd]
    unfold simDays consecutive
    rw [List.map_map]
    apply List.map_congr_left
    intro k _
    simp only [Function.comp]
    omega
  have hr : Readable ld := by
    intro c hc _
    rw [e1, e2] at hc
    exact hcell c hc
  have hch : ∀ chunk ∈ order, Worker.IsChunk ld chunk := schedule_chunks hfit hj hsch
  have hsize : su.timeStep ≠ 0 := by
    intro e
    have := hplan.step.pos
    rw [show (sharedOf w su).ts = su.timeStep.toNat from (use_iff.1 hu).ts, e] at this
    simp at this
  have hvalid := check_iff hsize (load_has hw)
  replace hsim := hsim ld hw hfit hr hdays hch
  replace hnec := hnec ld hw
  have hglob : check su ld.met = .ok () → "_global" ∉ (sharedOf w su).outVars.keys := by
    intro h hm
    have := (hvalid.1 h).outs "_global" (by rw [out_keys hu]; exact hm)
    split_ifs at this
    · revert this; decide
    · revert this; decide
  have key := fun h => C94_run (jobOfSetup w su i ld n freq os) hj fuel order hsch w.known (filesOf w p su i ld os) (table w su)
    (recorded_keys hp _) (moduleTable_proper _ _ _) (outs_names hu hos hplan.vars freq) rfl (hglob h)
  refine ⟨ld, hw, e1, e2, hin, hj, hsch, ?_, ?_⟩
  · constructor
    · rintro ⟨dir, h⟩
      obtain ⟨h1, h2⟩ := hnec dir h
      rw [hsim h1 h2] at h
      obtain ⟨k1, k2⟩ := (key h1).1.1 ⟨dir, h⟩
      exact ⟨hvalid.1 h1, h2, k1, k2⟩
    · rintro ⟨h1, h2, h3, h4⟩
      rw [hsim (hvalid.2 h1) h2]
      exact (key (hvalid.2 h1)).1.2 ⟨h3, h4⟩
  · intro dir files h hf st g hg
    obtain ⟨h1, h2⟩ := hnec dir h
    rw [hsim h1 h2] at h
    exact (key h1).2 dir files h hf st g hg

/-- A run that comes down to creating the files and running the workers. -/
theorem run_of {whole : DS ℝ} {mask : Arr ℝ} {sim : Except PyErr Nc.Dir} (hp : p.keys.Nodup) (hu : use w.cfg Units.importAttrs p = .ok su)
    (hi : Worker.Sound i) (hsrc : Sources i (sharedOf w su) whole mask n) (hos : outs su = .ok os)
    (hplan : Plan (sharedOf w su) (outputOf w su freq os) su.chunks (maskDims whole mask.dims) (i.start - 730120) n)
    (hsl : ∃ ss, Chunk.slices su.chunks (maskDims whole mask.dims) = .ok ss ∧ order.Perm ss) (fuel : Nat)
    (hsim : ∀ ld, Worker.load i (sharedOf w su) [] = .ok ld → Worker.Fit ld → Readable ld →
      ld.days.map (· - 730120) = consecutive (i.start - 730120) n → (∀ chunk ∈ order, Worker.IsChunk ld chunk) → check su ld.met = .ok () →
      w.isDir (w.cfg.abspath su.outDir) = true →
      sim = Nc.runDir w.known (filesOf w p su i ld os) (table w su) fuel (sharedOf w su) freq (w.cfg.abspath su.outDir).toList
        su.outPrefix.toList (maskOf ld) (inputOf ld) (consecutive (i.start - 730120) n) order)
    (hnec : ∀ ld, Worker.load i (sharedOf w su) [] = .ok ld → ∀ dir, sim = .ok dir →
      check su ld.met = .ok () ∧ w.isDir (w.cfg.abspath su.outDir) = true) :
    Outcome w p su i whole mask n freq os order fuel sim := by
  obtain ⟨ss, hs, ho⟩ := hsl
  obtain ⟨ld, hw, e1, e2, hin, hj, -, hiff, hval⟩ := run_some hp hu hi hsrc hos hplan ⟨ss, hs, fun _ h => ho.mem_iff.1 h⟩ fuel hsim hnec
  refine ⟨ld, hw, e1, e2, hin, hj, ⟨ss, ?_, ho⟩, hiff, hval⟩
  show Chunk.slices su.chunks (maskDims ld.dom ld.mask.dims) = .ok ss
  rw [e1, e2]; exact hs

/-- What a run needs before its workers start. -/
theorem simulate_nec (hu : use w.cfg Units.importAttrs p = .ok su) (hn : Names w su i) {ld : Worker.Loads}
    (hw : Worker.load i (sharedOf w su) [] = .ok ld) (hfr : outFreq w su.outFreq = .ok freq) (hos : outs su = .ok os) {fuel : Nat} {dir : Nc.Dir}
    (h : simulate w fuel p order = .ok dir) : check su ld.met = .ok () ∧ w.isDir (w.cfg.abspath su.outDir) = true := by
  unfold simulate at h
  simp only [hu, bind, Except.bind, construct_ok hn hw, hfr] at h
  split at h
  · cases h
  · split at h
    · cases h
    · rename_i h1
      refine ⟨h1, ?_⟩
      simp only [hos] at h
      split at h
      · cases h
      · split_ifs at h with h2
        simpa using h2

/-- **C95**: with complete files and a sensible configuration, a run ends without an error exactly if `_validate_setup` accepts the
configuration, the output directory exists, the files can be created, and the run of C70-C85 from these inputs ends; then each file is
the one created, with its dimensions, stamps, coordinates and attributes, and holds under the name of each output what that run holds. -/
theorem C95_run {whole : DS ℝ} {mask : Arr ℝ} (h : Ready w p su i whole mask n freq os order) (fuel : Nat) :
    ∃ ld, Worker.load i (sharedOf w su) [] = .ok ld ∧ ld.dom = whole ∧ ld.mask = mask ∧
      (∀ c ∈ Worker.positions whole mask.dims, Worker.cellIn ld c = .ok (inputOf ld c)) ∧
      (jobOfSetup w su i ld n freq os).Sane ∧ (jobOfSetup w su i ld n freq os).Schedule order ∧
      ((∃ dir, simulate w fuel p order = .ok dir) ↔ Valid su ∧ w.isDir (w.cfg.abspath su.outDir) = true ∧
        (∀ st : Stamps (jobOfSetup w su i ld n freq os), ∀ g ∈ st.files,
          Creatable w.known (filesOf w p su i ld os) (table w su) (g.map fun t => ⌊t⌋)) ∧
        ∃ files, (jobOfSetup w su i ld n freq os).run fuel order = .ok files) ∧
      ∀ dir files, simulate w fuel p order = .ok dir → (jobOfSetup w su i ld n freq os).run fuel order = .ok files →
        ∀ st : Stamps (jobOfSetup w su i ld n freq os), ∀ g ∈ st.files, ∃ name f0 f,
          Times.filename (w.cfg.abspath su.outDir).toList su.outPrefix.toList g = .ok name ∧ dir (String.ofList name) = some f ∧
          Described (filesOf w p su i ld os) (table w su) (g.map fun t => ⌊t⌋) f0 ∧ Frame os f0 f ∧
          FileShows (filesOf w p su i ld os) g.length f (files (String.ofList name)) := by
  obtain ⟨hp, hu, hn, hi, hsrc, hfr, hos, hplan, hsl⟩ := h
  refine run_of hp hu hi hsrc hos hplan hsl fuel ?_ fun ld hw dir => simulate_nec hu hn hw hfr hos
  intro ld hw hfit hr hdays hch h1 h2
  exact simulate_eq hu hn hi hw hfit hr hdays hfr h1 hos h2 hch fuel

end run

/-! ### What the files can be created from -/

/-- The parameter can be written into a file. -/
def Writable (w : World) (q : String × Value) : Prop := ∃ a, Nc.record (q.1, ncVal w q.2) = .ok a

theorem writable_of {w : World} {q : String × Value} (h : q.1 ∈ Nc.skipped ∨ q.1 ∈ ["state_start", "state_stop", "out_freq"] ∨
    q.1 ∈ ["start", "stop", "utc_offset", "period_ending"] ∨
      (q.2 ≠ .one .null ∧ (∀ b, q.2 ≠ .one (.bool b)) ∧ ∀ d, q.2 ≠ .one (.date d))) : Writable w q := by
  unfold Writable Nc.record
  split_ifs with h1 h2 h3
  · exact ⟨_, rfl⟩
  · exact ⟨_, rfl⟩
  · exact ⟨_, rfl⟩
  · obtain ⟨k, v⟩ := q
    rcases h with h | h | h | ⟨a, b, c⟩
    · exact absurd h h1
    · exact absurd h h2
    · exact absurd h h3
    · cases v with
      | one s =>
        cases s with
        | null => exact absurd rfl a
        | bool x => exact absurd rfl (b x)
        | date x => exact absurd rfl (c x)
        | int x => exact ⟨_, rfl⟩
        | num x => exact ⟨_, rfl⟩
        | str x => exact ⟨_, rfl⟩
      | files l => exact ⟨_, rfl⟩
      | names l => exact ⟨_, rfl⟩
      | nums l => exact ⟨_, rfl⟩
      | outs l => exact ⟨_, rfl⟩

theorem mem_set {α : Type} {d : Dict String α} {k : String} {v : α} {q : String × α} (h : q ∈ d.set k v) : q = (k, v) ∨ q ∈ d := by
  induction d with
  | nil => simp only [Dict.set, List.mem_singleton] at h; exact Or.inl h
  | cons a d ih =>
    obtain ⟨x, y⟩ := a
    simp only [Dict.set] at h
    split_ifs at h with hx
    · subst hx
      rcases List.mem_cons.1 h with h | h
      · exact Or.inl h
      · exact Or.inr (List.mem_cons_of_mem _ h)
    · rcases List.mem_cons.1 h with h | h
      · exact Or.inr (h ▸ List.mem_cons_self)
      · rcases ih h with h | h
        · exact Or.inl h
        · exact Or.inr (List.mem_cons_of_mem _ h)

theorem mem_update {α : Type} {d e : Dict String α} {q : String × α} (h : q ∈ d.update e) : q ∈ e ∨ q ∈ d := by
  induction e generalizing d with
  | nil => exact Or.inr h
  | cons a e ih =>
    rw [Dict.update_cons] at h
    rcases ih h with h | h
    · exact Or.inl (List.mem_cons_of_mem _ h)
    · rcases mem_set h with h | h
      · exact Or.inl (h ▸ List.mem_cons_self)
      · exact Or.inr h

theorem class_writable (w : World) (avail : Dict String String) : ∀ q ∈ classParams avail, Writable w q := by
  unfold classParams
  simp only [List.forall_mem_cons]
  refine ⟨?_, ?_, ?_, ?_, ?_, ?_, ?_, ?_, ?_, ?_, ?_, ?_, ?_, ?_, ?_, ?_, ?_, ?_, ?_, ?_, ?_, ?_, ?_, ?_, ?_, ?_, ?_, ?_, ?_, ?_⟩
  all_goals first
    | (apply writable_of; simp [Nc.skipped]; done)
    | simp

theorem iniConf_writable {w : World} {opts : Opts} {main fv dv sv chunks : Dict String String} {cv : Option (Dict String String)}
    {forcing outDir : String} {outs : Dict String OutSpec} :
    ∀ q ∈ iniConf w.cfg opts main fv dv sv chunks cv forcing outDir outs, Writable w q := by
  intro q hq
  unfold iniConf dropEmpty at hq
  have hq := (List.mem_filter.1 hq).1
  have htexts : ∀ q ∈ texts main, Writable w q := by
    intro q hq
    obtain ⟨a, -, rfl⟩ := List.mem_map.1 hq
    apply writable_of; simp
  rcases mem_set hq with rfl | hq
  · apply writable_of; simp [Nc.skipped]
  rcases mem_update hq with hq | hq
  · simp only [List.mem_cons, List.not_mem_nil, or_false] at hq
    rcases hq with rfl | rfl | rfl | rfl | rfl | rfl | rfl
    all_goals (apply writable_of)
    all_goals first
      | (simp [Nc.skipped]; done)
      | (right; right; right; unfold forcingFiles; split <;> simp)
  rcases mem_set hq with rfl | hq
  · apply writable_of; simp
  rcases mem_set hq with rfl | hq
  · apply writable_of; simp
  have hq : q ∈ (((((texts main).set "forcing_vars" (.names fv)).set "domain_vars" (.names (Config.invertDict dv))).set
    "state_vars" (.names (Config.invertDict sv))).set "chunks" (.nums (strs chunks))) ∨ q.1 = "constant_vars" := by
    cases cv with
    | none => exact Or.inl hq
    | some c =>
      rcases mem_set hq with rfl | hq
      · exact Or.inr rfl
      · exact Or.inl hq
  rcases hq with hq | hq
  · rcases mem_set hq with rfl | hq
    · apply writable_of; simp
    rcases mem_set hq with rfl | hq
    · apply writable_of; simp [Nc.skipped]
    rcases mem_set hq with rfl | hq
    · apply writable_of; simp [Nc.skipped]
    rcases mem_set hq with rfl | hq
    · apply writable_of; simp [Nc.skipped]
    exact htexts q hq
  · apply writable_of
    left; rw [hq]; simp [Nc.skipped]

/-- Parameters that can be written still can once period and calendar are resolved. -/
theorem recorded_writable {w : World} {p : Conf} {pa : Parent} (h : ∀ q ∈ p, Writable w q) :
    ∀ q ∈ recorded w p pa, ∃ a, Nc.record q = .ok a := by
  intro q hq
  unfold recorded at hq
  rcases mem_set hq with rfl | hq
  · exact ⟨_, rfl⟩
  rcases mem_set hq with rfl | hq
  · exact ⟨_, rfl⟩
  rcases mem_set hq with rfl | hq
  · exact ⟨_, rfl⟩
  obtain ⟨a, ha, rfl⟩ := List.mem_map.1 hq
  exact h a ha

/-- The stamps of a run are whole minutes of its days, or the midnight after them. -/
theorem axis_days {j : Job} (hj : j.Sane) (st : Stamps j) :
    ∀ t ∈ st.axis, ∃ m : Int, t = m ∧ 1440 * j.d0 ≤ m ∧ m ≤ 1440 * (j.d0 + j.n) := by
  have h := st.h_axis
  rw [show j.shared.cfg = ⟨j.shared.ts, j.shared.calendar, j.shared.periodEnding⟩ from rfl,
    outputTimes_grid _ _ _ hj.step j.d0 j.n hj.pos hj.calendar] at h
  injection h with h
  rw [← h]
  intro t ht
  unfold Times.grid at ht
  obtain ⟨k, hk, rfl⟩ := List.mem_map.1 ht
  have hk := List.mem_range.1 hk
  have hmul := hj.step.mulZ
  have hpos := hj.step.1
  refine ⟨_, rfl, ?_, ?_⟩
  · have : (0 : Int) ≤ k * j.shared.ts := by positivity
    split_ifs <;> omega
  · have : (k : Int) * j.shared.ts + j.shared.ts ≤ 1440 * j.n := by
      have h3 : (k : Int) + 1 ≤ j.n * (1440 / j.shared.ts : Nat) := by exact_mod_cast hk
      have h4 : ((k : Int) + 1) * j.shared.ts ≤ (j.n * (1440 / j.shared.ts : Nat)) * j.shared.ts :=
        mul_le_mul_of_nonneg_right h3 (by positivity)
      have h5 : (j.n * (1440 / j.shared.ts : Nat) : Int) * j.shared.ts = 1440 * j.n := by
        rw [mul_assoc, hmul]; ring
      linarith
    split_ifs <;> omega

/-- A calendar cftime knows can number the stamps of the days it has. -/
theorem encode_days {calendar : String} {a b t : Int} (h : HasDays calendar a b) (hk : CfTime.named calendar ≠ none)
    (h1 : 1440 * a ≤ t) (h2 : t ≤ 1440 * b) : ∃ m, CfTime.encode calendar t = .ok m := by
  rcases h with h | ⟨c, hc, k, hn⟩
  · refine ⟨t, CfTime.encode_gregorian ?_ t⟩
    simp only [Datetime.pandasCalendars, List.mem_cons, List.not_mem_nil, or_false] at h
    rcases h with rfl | rfl | rfl
    · decide
    · decide
    · exact absurd (by decide) hk
  · exact ⟨_, CfTime.encode_ok.2 ⟨c, _, hc, hn _ (by omega) (by omega), rfl⟩⟩

/-- Everything of the run allows its files, but perhaps the names given to the outputs and that of the calendar. -/
theorem creatable_iff {w : World} {p : Conf} {su : Setup} {i : Worker.Inputs} {ld : Worker.Loads} {n : Nat} {freq : Option Times.Freq}
    {os : List (String × String)} (hj : (jobOfSetup w su i ld n freq os).Sane) (hv : Valid su)
    (hk : ∀ t ∈ ["i4", "i8", "f4", "f8"], w.known t = true) (hp : ∀ q ∈ p, Writable w q) :
    (∀ st : Stamps (jobOfSetup w su i ld n freq os), ∀ g ∈ st.files,
      Creatable w.known (filesOf w p su i ld os) (table w su) (g.map fun t => ⌊t⌋)) ↔
    CfTime.named (sharedOf w su).calendar ≠ none ∧ (os.map Prod.snd ++ "time" :: ld.mask.dims).Nodup := by
  have hdims : (filesOf w p su i ld os).dims.map Prod.fst = ld.mask.dims := by
    show (Worker.fileDims ld.dom ld.mask.dims).map Prod.fst = _
    unfold Worker.fileDims
    rw [List.map_map]; simp [Function.comp_def]
  obtain ⟨st0, hpart, -⟩ := stamps_exist _ hj
  have hfiles : ∀ st : Stamps (jobOfSetup w su i ld n freq os), st.files = st0.files := fun st =>
    Except.ok.inj (st.h_files.symm.trans st0.h_files)
  constructor
  · intro h
    have hne : st0.files ≠ [] := by
      intro e
      have h1 := hpart.2.1
      rw [e] at h1
      have h2 := Cell.axis_length hj.step hj.pos hj.calendar st0.h_axis
      rw [← h1] at h2
      have h3 := hj.step.pos
      have h4 := Nat.mul_pos hj.pos h3
      rw [← h2] at h4
      simp at h4
    obtain ⟨g, hg⟩ := List.exists_mem_of_ne_nil _ hne
    have hc := h st0 g hg
    have := hc.names
    rw [hdims] at this
    refine ⟨?_, this⟩
    obtain ⟨nums, hnums⟩ := hc.stamps
    obtain ⟨t, g', rfl⟩ := List.exists_cons_of_ne_nil (hpart.1 g hg)
    rw [List.map_cons, List.mapM_cons] at hnums
    simp only [bind_ok, pure_ok] at hnums
    obtain ⟨m, hm, -⟩ := hnums
    obtain ⟨c, -, hc, -⟩ := CfTime.encode_ok.1 hm
    rw [show (sharedOf w su).calendar = (filesOf w p su i ld os).calendar from rfl, hc]
    simp
  · rintro ⟨hcal, h⟩ st g hg
    have haxis := axis_days hj st
    have hsub : ∀ t ∈ g, t ∈ st.axis := by
      rw [hfiles st] at hg
      rw [Except.ok.inj (st.h_axis.symm.trans st0.h_axis), ← hpart.2.1]
      exact fun t ht => List.mem_flatten.2 ⟨g, hg, ht⟩
    rw [hfiles st] at hg
    have hprec : su.outPrecision = "f4" ∨ su.outPrecision = "f8" := by simpa using hv.precision
    have hkn : w.known su.outPrecision = true := by
      rcases hprec with e | e <;> rw [e] <;> exact hk _ (by simp)
    refine ⟨by rw [hdims]; exact h, hk _ (by simp), ?_, fun _ => hkn, fun _ => ⟨by simpa using hpart.1 g hg, ?_⟩, ?_, ?_, recorded_writable hp, ?_⟩
    · intro d _
      show w.known (Nc.dtypeMap su.outPrecision (w.labelType d.1)) = true
      unfold Nc.dtypeMap
      split_ifs
      · exact hk _ (by simp)
      · exact hk _ (by simp)
      · exact hk _ (by simp)
      · exact hk _ (by simp)
      · exact hkn
    · have h1 := C63_chunk_sizes su.chunks (filesOf w p su i ld os).dims
      intro s hs
      obtain ⟨k, hk, rfl⟩ := List.getElem_of_mem hs
      have hk' : k < (filesOf w p su i ld os).dims.length := by rw [h1.length_eq]; exact hk
      exact (h1.get hk' hk).2.2.2.2 hj.chunks_pos (hj.dims_pos _ (List.getElem_mem hk'))
    · have : "time" ∈ (table w su).keys := by unfold table; rw [moduleTable_keys]; simp
      exact Option.isSome_iff_exists.1 ((Dict.isSome_iff _ _).2 this)
    · have : "_global" ∈ (table w su).keys := by unfold table; rw [moduleTable_keys]; simp
      exact Option.isSome_iff_exists.1 ((Dict.isSome_iff _ _).2 this)
    · apply mapM_total
      intro t ht
      obtain ⟨q, hq, rfl⟩ := List.mem_map.1 ht
      obtain ⟨m, rfl, m1, m2⟩ := haxis q (hsub q hq)
      beta_reduce
      rw [Int.floor_intCast]
      exact encode_days hj.calendar hcal m1 m2

/-- What the files of such a run hold. -/
theorem values_some {w : World} {p : Conf} {su : Setup} {i : Worker.Inputs} {n : Nat} {freq : Option Times.Freq}
    {os : List (String × String)} {order : List (Dict String Chunk.Slice)} {whole : DS ℝ} {mask : Arr ℝ}
    (hu : use w.cfg Units.importAttrs p = .ok su) (hos : outs su = .ok os) (hvars : su.shared.outVars.keys.Nodup) {fuel : Nat}
    {sim : Except PyErr Nc.Dir} (h : OutcomeSome w p su i whole mask n freq os order fuel sim) {dir : Nc.Dir} (hdir : sim = .ok dir) :
    ∃ ld, Worker.load i (sharedOf w su) [] = .ok ld ∧ ld.dom = whole ∧ ld.mask = mask ∧
      (∀ c ∈ Worker.positions whole mask.dims, Worker.cellIn ld c = .ok (inputOf ld c)) ∧
      ∃ st : Stamps (jobOfSetup w su i ld n freq os), st.files.flatten = st.axis ∧
      (∀ c, (jobOfSetup w su i ld n freq os).Computed c → (jobOfSetup w su i ld n freq os).Done order c → ∃ r, (jobOfSetup w su i ld n freq os).alone fuel c = .ok r ∧
        ∀ v ∈ su.shared.outVars.keys, ∃ val : ℚ → Flt ℝ, Dict.get? r v = some (st.axis.map val) ∧
          ∀ g ∈ st.files, ∃ name f tv ov, Times.filename (w.cfg.abspath su.outDir).toList su.outPrefix.toList g = .ok name ∧
            dir (String.ofList name) = some f ∧ f.vars.get? "time" = some tv ∧
            f.vars.get? ((outputOf w su freq os).names v) = some ov ∧ ov.dims = "time" :: mask.dims ∧
            ∀ (k : Nat) (hk : k < g.length), OnCalendar (sharedOf w su).calendar g[k] (tv.data [k]) ∧
              stored (ov.data (k :: c)) = val g[k]) ∧
      ∀ c, ¬ ((jobOfSetup w su i ld n freq os).Computed c ∧ (jobOfSetup w su i ld n freq os).Done order c) → ∀ v ∈ su.shared.outVars.keys, ∀ g ∈ st.files, ∃ name f ov,
        Times.filename (w.cfg.abspath su.outDir).toList su.outPrefix.toList g = .ok name ∧
        dir (String.ofList name) = some f ∧ f.vars.get? ((outputOf w su freq os).names v) = some ov ∧
        ∀ k < g.length, stored (ov.data (k :: c)) = nan := by
  obtain ⟨ld, hw, e1, e2, hin, hj, hsch, hiff, hval⟩ := h
  obtain ⟨hv, hd, hcr, files, hf⟩ := hiff.1 ⟨dir, hdir⟩
  obtain ⟨st, hflat, hcomp, hnot⟩ := (files_some _ hj fuel order hsch).2 files hf
  have hout := outs_names (i := i) (ld := ld) hu hos hvars freq
  have hdims : (filesOf w p su i ld os).dims.map Prod.fst = mask.dims := by
    show (Worker.fileDims ld.dom ld.mask.dims).map Prod.fst = _
    unfold Worker.fileDims
    rw [List.map_map, e2]; simp [Function.comp_def]
  refine ⟨ld, hw, e1, e2, hin, st, hflat, ?_, ?_⟩
  · intro c hc hdone
    obtain ⟨r, hr, -, hser⟩ := hcomp c hc hdone
    refine ⟨r, hr, fun v hvk => ?_⟩
    obtain ⟨val, hval1, hold⟩ := hser v hvk
    refine ⟨val, hval1, fun g hg => ?_⟩
    obtain ⟨name, f0, f, n1, n2, n3, n4, n5⟩ := hval dir files hdir hf st g hg
    have ho' : (v, (outputOf w su freq os).names v) ∈ (filesOf w p su i ld os).outs := by
      rw [hout]; exact List.mem_map.2 ⟨v, hvk, rfl⟩
    obtain ⟨tv, t1, -, -, ⟨nums, t3, t4⟩, -⟩ := n3.time
    have htime : "time" ∉ os.map Prod.snd := by
      have hcr := (hcr st g hg).names
      intro hm
      exact (List.nodup_append.1 hcr).2.2 _ hm "time" (by simp) rfl
    obtain ⟨ov, o1, o2, o3⟩ := n5.vars _ ho'
    refine ⟨name, f, tv, ov, n1, n2, by rw [n4.others _ htime]; exact t1, o1, by rw [← hdims]; exact o2, ?_⟩
    intro k hk
    constructor
    · exact onCalendar_of t3 t4 hk
    · rw [o3 k hk c]
      obtain ⟨fn, out, k1, k2, k3⟩ := hold g hg
      obtain rfl := Except.ok.inj (n1.symm.trans k1)
      unfold valueAt
      rw [k2, Option.bind_some, show Dict.get? out ((outputOf w su freq os).names v) = _ from k3]
      simp [hk]
  · intro c hc v hvk g hg
    obtain ⟨name, f0, f, n1, n2, n3, n4, n5⟩ := hval dir files hdir hf st g hg
    have ho' : (v, (outputOf w su freq os).names v) ∈ (filesOf w p su i ld os).outs := by
      rw [hout]; exact List.mem_map.2 ⟨v, hvk, rfl⟩
    obtain ⟨ov, o1, o2, o3⟩ := n5.vars _ ho'
    refine ⟨name, f, ov, n1, n2, o1, fun k hk => ?_⟩
    rw [o3 k hk c]
    obtain ⟨fn, k1, k2⟩ := hnot c hc g hg
    obtain rfl := Except.ok.inj (n1.symm.trans k1)
    unfold valueAt
    rw [k2]
    rfl

theorem values_of {w : World} {p : Conf} {su : Setup} {i : Worker.Inputs} {n : Nat} {freq : Option Times.Freq}
    {os : List (String × String)} {order : List (Dict String Chunk.Slice)} {whole : DS ℝ} {mask : Arr ℝ}
    (hu : use w.cfg Units.importAttrs p = .ok su) (hos : outs su = .ok os) (hvars : su.shared.outVars.keys.Nodup) {fuel : Nat}
    {sim : Except PyErr Nc.Dir} (h : Outcome w p su i whole mask n freq os order fuel sim) {dir : Nc.Dir} (hdir : sim = .ok dir) :
    ∃ ld, Worker.load i (sharedOf w su) [] = .ok ld ∧ ld.dom = whole ∧ ld.mask = mask ∧
      (∀ c ∈ Worker.positions whole mask.dims, Worker.cellIn ld c = .ok (inputOf ld c)) ∧
      ∃ st : Stamps (jobOfSetup w su i ld n freq os), st.files.flatten = st.axis ∧
      (∀ c, (jobOfSetup w su i ld n freq os).Computed c → ∃ r, (jobOfSetup w su i ld n freq os).alone fuel c = .ok r ∧
        ∀ v ∈ su.shared.outVars.keys, ∃ val : ℚ → Flt ℝ, Dict.get? r v = some (st.axis.map val) ∧
          ∀ g ∈ st.files, ∃ name f tv ov, Times.filename (w.cfg.abspath su.outDir).toList su.outPrefix.toList g = .ok name ∧
            dir (String.ofList name) = some f ∧ f.vars.get? "time" = some tv ∧
            f.vars.get? ((outputOf w su freq os).names v) = some ov ∧ ov.dims = "time" :: mask.dims ∧
            ∀ (k : Nat) (hk : k < g.length), OnCalendar (sharedOf w su).calendar g[k] (tv.data [k]) ∧
              stored (ov.data (k :: c)) = val g[k]) ∧
      ∀ c, ¬ (jobOfSetup w su i ld n freq os).Computed c → ∀ v ∈ su.shared.outVars.keys, ∀ g ∈ st.files, ∃ name f ov,
        Times.filename (w.cfg.abspath su.outDir).toList su.outPrefix.toList g = .ok name ∧
        dir (String.ofList name) = some f ∧ f.vars.get? ((outputOf w su freq os).names v) = some ov ∧
        ∀ k < g.length, stored (ov.data (k :: c)) = nan := by
  obtain ⟨ld, hw, e1, e2, hin, hj, hsch, hiff, hval⟩ := h
  obtain ⟨ld', hw', -, -, -, st, h1, h2, h3⟩ := values_some hu hos hvars ⟨ld, hw, e1, e2, hin, hj, hsch.among, hiff, hval⟩ hdir
  obtain rfl : ld = ld' := Except.ok.inj (hw.symm.trans hw')
  exact ⟨ld, hw, e1, e2, hin, st, h1, fun c hc => h2 c hc (schedule_done hj hsch hc), fun c hc => h3 c fun h => hc h.1⟩

/-- **C95**: what the files of a run hold: for each computed cell and each output the series the cell gives alone, each value at the
step of its stamp; for the other cells nothing. -/
theorem C95_values {w : World} {p : Conf} {su : Setup} {i : Worker.Inputs} {n : Nat} {freq : Option Times.Freq}
    {os : List (String × String)} {order : List (Dict String Chunk.Slice)} {whole : DS ℝ} {mask : Arr ℝ}
    (h : Ready w p su i whole mask n freq os order) (fuel : Nat) {dir : Nc.Dir} (hdir : simulate w fuel p order = .ok dir) :
    ∃ ld, Worker.load i (sharedOf w su) [] = .ok ld ∧ ld.dom = whole ∧ ld.mask = mask ∧
      (∀ c ∈ Worker.positions whole mask.dims, Worker.cellIn ld c = .ok (inputOf ld c)) ∧
      ∃ st : Stamps (jobOfSetup w su i ld n freq os), st.files.flatten = st.axis ∧
      (∀ c, (jobOfSetup w su i ld n freq os).Computed c → ∃ r, (jobOfSetup w su i ld n freq os).alone fuel c = .ok r ∧
        ∀ v ∈ su.shared.outVars.keys, ∃ val : ℚ → Flt ℝ, Dict.get? r v = some (st.axis.map val) ∧
          ∀ g ∈ st.files, ∃ name f tv ov, Times.filename (w.cfg.abspath su.outDir).toList su.outPrefix.toList g = .ok name ∧
            dir (String.ofList name) = some f ∧ f.vars.get? "time" = some tv ∧
            f.vars.get? ((outputOf w su freq os).names v) = some ov ∧ ov.dims = "time" :: mask.dims ∧
            ∀ (k : Nat) (hk : k < g.length), OnCalendar (sharedOf w su).calendar g[k] (tv.data [k]) ∧
              stored (ov.data (k :: c)) = val g[k]) ∧
      ∀ c, ¬ (jobOfSetup w su i ld n freq os).Computed c → ∀ v ∈ su.shared.outVars.keys, ∀ g ∈ st.files, ∃ name f ov,
        Times.filename (w.cfg.abspath su.outDir).toList su.outPrefix.toList g = .ok name ∧
        dir (String.ofList name) = some f ∧ f.vars.get? ((outputOf w su freq os).names v) = some ov ∧
        ∀ k < g.length, stored (ov.data (k :: c)) = nan :=
  values_of h.use h.named h.plan.vars (C95_run h fuel) hdir

/-! ### INI files -/

/-- The parameters an INI file gives. -/
theorem ini_conf {w : World} {opts : Opts} {f : Ini.File} {su : Setup} (hs : fromIni w.cfg opts f = .ok su) :
    ∃ conf avail, ((classParams avail).update conf : Conf).keys.Nodup ∧
      use w.cfg Units.importAttrs ((classParams avail).update conf) = .ok su ∧ (∀ q ∈ (classParams avail).update conf, Writable w q) ∧
      readIni w.cfg opts Params.importNames f = .ok (conf, avail) := by
  unfold fromIni at hs
  rw [bind_ok] at hs
  obtain ⟨⟨conf, avail⟩, h1, h2⟩ := hs
  refine ⟨conf, avail, Dict.nodup_update _ _ (by unfold classParams Dict.keys; simp only [List.map_cons, List.map_nil]; decide), h2, ?_, ?_⟩
  · intro q hq
    rcases mem_update hq with hq | hq
    · unfold readIni at h1
      simp only [bind_ok] at h1
      obtain ⟨a1, -, a2, -, a3, -, a4, -, a5, -, a6, -, a7, -, a8, -, a9, -, a10, -, a11, -, a12, -, e⟩ := h1
      rw [pure_ok] at e
      obtain ⟨rfl, -⟩ := Prod.mk.inj e
      exact iniConf_writable q hq
    · exact class_writable w avail q hq
  · exact h1

theorem ini_params {w : World} {opts : Opts} {f : Ini.File} {d : IniDoc} {su : Setup} (_ : d.Of w.cfg f)
    (hs : fromIni w.cfg opts f = .ok su) : ∃ p : Conf, p.keys.Nodup ∧ use w.cfg Units.importAttrs p = .ok su ∧ (∀ q ∈ p, Writable w q) ∧
      ∀ fuel order, runIni w fuel opts f order = simulate w fuel p order := by
  obtain ⟨conf, avail, h1, h2, h3, h4⟩ := ini_conf hs
  refine ⟨_, h1, h2, h3, fun fuel order => ?_⟩
  unfold runIni
  rw [h4]
  rfl

/-- Every output of an INI file has a name: the one given or its own. -/
theorem ini_outs {w : World} {opts : Opts} {f : Ini.File} {d : IniDoc} {su : Setup} (hd : d.Of w.cfg f)
    (hs : fromIni w.cfg opts f = .ok su) : ∃ os, outs su = .ok os ∧
      os = su.shared.outVars.keys.map (fun v => (v, ((d.outVars.getD []).get? v).getD v)) ∧
      ∀ freq, (outputOf w su freq os).names = fun v => ((d.outVars.getD []).get? v).getD v := by
  obtain ⟨list, -, h2, -, -, h5, h6⟩ := C92_outputs hd hs
  have hval : ∀ q ∈ su.outNames, q.2 = some (((d.outVars.getD []).get? q.1).getD q.1) := by
    intro q hq
    have h := h2 q.1
    rw [Dict.get?_of_mem _ h6 hq] at h
    split_ifs at h
    exact Option.some.inj h
  have key : outs su = .ok (su.outNames.map fun q => (q.1, ((d.outVars.getD []).get? q.1).getD q.1)) := by
    unfold outs
    revert hval
    generalize su.outNames = l
    intro hval
    induction l with
    | nil => rfl
    | cons a l ih =>
      rw [List.mapM_cons, ih fun q hq => hval q (List.mem_cons_of_mem _ hq), hval a (by simp)]
      rfl
  have e : su.outNames.map (fun q => (q.1, ((d.outVars.getD []).get? q.1).getD q.1)) =
      su.shared.outVars.keys.map (fun v => (v, ((d.outVars.getD []).get? v).getD v)) := by
    rw [h5]; unfold Dict.keys; rw [List.map_map]; rfl
  refine ⟨_, key, e, fun freq => ?_⟩
  funext v
  show (Dict.get? (su.outNames.map fun q => (q.1, ((d.outVars.getD []).get? q.1).getD q.1)) v).getD v = _
  by_cases hv : v ∈ su.outNames.keys
  · obtain ⟨q, hq, rfl⟩ := List.mem_map.1 hv
    rw [Dict.get?_of_mem (v := ((d.outVars.getD []).get? q.1).getD q.1) _ (by unfold Dict.keys at h6 ⊢; rw [List.map_map]; exact h6)
      (List.mem_map.2 ⟨q, hq, rfl⟩)]
    rfl
  · rw [(Dict.get?_eq_none_iff _ _).2]
    · have : v ∉ (d.outVars.getD []).keys := by
        intro hc
        have h := h2 v
        rw [if_pos (Or.inr hc)] at h
        exact hv (Dict.mem_keys_of_get? _ h)
      rw [(Dict.get?_eq_none_iff _ _).2 this]
    · unfold Dict.keys at hv ⊢; rw [List.map_map]; exact hv

/-- **C95**: a run of an INI file with complete inputs and a sensible plan ends without an error exactly if `_validate_setup` accepts the
configuration, the output directory exists, the calendar is one cftime knows, no output is named like another one, like `time` or like a
dimension of the domain, and each cell of the mask can be computed alone; C95_values says what its files hold then. -/
theorem C95_ini {w : World} {opts : Opts} {f : Ini.File} {d : IniDoc} {su : Setup} {i : Worker.Inputs} {whole : DS ℝ} {mask : Arr ℝ}
    {n : Nat} {freq : Option Times.Freq} {order ss : List (Dict String Chunk.Slice)} (hd : d.Of w.cfg f)
    (hs : fromIni w.cfg opts f = .ok su) (hn : Names w su i) (hi : Worker.Sound i) (hsrc : Sources i (sharedOf w su) whole mask n)
    (hfr : outFreq w su.outFreq = .ok freq)
    (hplan : Plan (sharedOf w su)
      ⟨freq, (w.cfg.abspath su.outDir).toList, su.outPrefix.toList, fun v => ((d.outVars.getD []).get? v).getD v⟩
      su.chunks (maskDims whole mask.dims) (i.start - 730120) n)
    (hsl : Chunk.slices su.chunks (maskDims whole mask.dims) = .ok ss) (ho : order.Perm ss)
    (hk : ∀ t ∈ ["i4", "i8", "f4", "f8"], w.known t = true) (fuel : Nat) :
    ∃ p os ld, Ready w p su i whole mask n freq os order ∧ runIni w fuel opts f order = simulate w fuel p order ∧
      os = su.shared.outVars.keys.map (fun v => (v, ((d.outVars.getD []).get? v).getD v)) ∧
      Worker.load i (sharedOf w su) [] = .ok ld ∧ ld.dom = whole ∧ ld.mask = mask ∧
      (∀ c ∈ Worker.positions whole mask.dims, Worker.cellIn ld c = .ok (inputOf ld c)) ∧
      ((∃ dir, runIni w fuel opts f order = .ok dir) ↔ Valid su ∧ w.isDir (w.cfg.abspath su.outDir) = true ∧
        CfTime.named (sharedOf w su).calendar ≠ none ∧
        (su.shared.outVars.keys.map (fun v => ((d.outVars.getD []).get? v).getD v) ++ "time" :: mask.dims).Nodup ∧
        ∀ c, (jobOfSetup w su i ld n freq os).Computed c → ∃ r, (jobOfSetup w su i ld n freq os).alone fuel c = .ok r) := by
  obtain ⟨p, hp, hu, hwr, hrun⟩ := ini_params hd hs
  obtain ⟨os, hos, e, hnm⟩ := ini_outs hd hs
  have hready : Ready w p su i whole mask n freq os order := by
    refine ⟨hp, hu, hn, hi, hsrc, hfr, hos, ?_, ss, hsl, ho⟩
    have : outputOf w su freq os = ⟨freq, (w.cfg.abspath su.outDir).toList, su.outPrefix.toList, fun v => ((d.outVars.getD []).get? v).getD v⟩ := by
      rw [← hnm freq]; rfl
    rw [this]
    exact hplan
  obtain ⟨ld, hw, e1, e2, hin, hj, hsch, hiff, -⟩ := C95_run hready fuel
  refine ⟨p, os, ld, hready, hrun fuel order, e, hw, e1, e2, hin, ?_⟩
  have hmap : os.map Prod.snd = su.shared.outVars.keys.map (fun v => ((d.outVars.getD []).get? v).getD v) := by
    rw [e, List.map_map]; rfl
  rw [hrun, hiff]
  constructor
  · rintro ⟨h1, h2, h3, h4⟩
    have h3 := (creatable_iff hj h1 hk hwr).1 h3
    rw [hmap, e2] at h3
    exact ⟨h1, h2, h3.1, h3.2, (C70_files _ hj fuel order hsch).1.1 h4⟩
  · rintro ⟨h1, h2, hc, h3, h4⟩
    refine ⟨h1, h2, (creatable_iff hj h1 hk hwr).2 ⟨hc, ?_⟩, (C70_files _ hj fuel order hsch).1.2 h4⟩
    rw [hmap, e2]; exact h3

end Verif.Props
