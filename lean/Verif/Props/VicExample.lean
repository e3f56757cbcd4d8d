import Verif.Props.Vic
import Verif.Props.MainExample

/-!
# C102: a configuration and files for single cells that lead to a run
-/

namespace Verif.Props.VicExample

open Dataset ConfigRead Main Flt Txt FilesExample Worker

def main : Dict String String :=
  [("forcing", "data"), ("forcing_fmt", "ascii"), ("domain", "domain.nc"), ("state", "state.nc"), ("out_dir", "out"),
   ("start", "1970-01-01"), ("stop", "1970-01-02"), ("time_step", "360"), ("out_vars", "['temp', 'prec']")]

def vars : Dict String String := [("prec", "prec"), ("t_min", "t_min"), ("t_max", "t_max")]

def doc : IniDoc where
  main := main
  forcingVars := vars
  domainVars := [("mask", "mask"), ("elev", "elev"), ("lat", "lat"), ("lon", "lon")]
  stateVars := MainExample.vars
  chunks := [("lat", "1"), ("lon", "1")]
  constants := some [("wind", "3")]
  outVars := none

noncomputable def env : Env where
  walk s := if s = "data" then some ["data_45_-120", "data_44_-120"] else none
  join a b := a ++ "/" ++ b
  abspath s := s
  interp s := .ok s
  float s := if s = "3" then .ok 3 else .error .valueError

noncomputable def world (dirs : String → Bool) : World := { MainExample.world dirs with cfg := env }

def ini : Ini.File := ⟨[("MetSim".toList, main.map fun q => (q.1.toList, q.2.toList)),
  ("chunks".toList, doc.chunks.map fun q => (q.1.toList, q.2.toList)),
  ("forcing_vars".toList, vars.map fun q => (q.1.toList, q.2.toList)),
  ("domain_vars".toList, doc.domainVars.map fun q => (q.1.toList, q.2.toList)),
  ("state_vars".toList, MainExample.vars.map fun q => (q.1.toList, q.2.toList)),
  ("constant_vars".toList, [("wind".toList, "3".toList)])]⟩

theorem doc_of : doc.Of env ini where
  main := by decide +kernel
  forcingVars := by decide +kernel
  domainVars := by decide +kernel
  stateVars := by decide +kernel
  chunks := by decide +kernel
  constants := by decide +kernel
  outVars := by decide +kernel
  mainKeys := by decide +kernel
  outKeys := by decide +kernel
  apart := by decide +kernel

/-- The files with the forcing. -/
def jobs : List String := ["data/data_45_-120", "data/data_44_-120"]

/-- The parameters. -/
noncomputable def conf : Conf :=
  ((classParams Params.importNames).update (iniConf env MainExample.opts main (Config.invertDict vars) doc.domainVars MainExample.vars
    doc.chunks doc.constants "data" "out" (outSpecs Params.importNames ["temp", "prec"])))

noncomputable def setup : Setup :=
  { MainExample.setup with forcing := .files jobs, forcingFmt := "ascii", forcingVars := some vars }

theorem used : use env Units.importAttrs conf = .ok setup := by
  have fl : ∀ {k q}, one conf k = .ok (.num q) → float env conf k = .ok ((q : ℚ) : ℝ) := by
    intro k q h
    unfold float; rw [h]; rfl
  rw [use_iff]
  refine
    { method := ⟨"mtclim", by decide +kernel, rfl⟩
      timeStep := by decide +kernel
      ts := rfl
      calendar := by decide +kernel
      periodEnding := by decide +kernel
      utcOffset := by decide +kernel
      swAveraging := by decide +kernel
      precType := by decide +kernel
      lwType := by decide +kernel
      lwCloud := by decide +kernel
      thetaS := ?_
      tmaxFraction := fl (by decide +kernel)
      tdayCoef := fl (by decide +kernel)
      swPrecThresh := fl (by decide +kernel)
      rainScalar := fl (by decide +kernel)
      lapseRate := fl (by decide +kernel)
      tdewTol := fl (by decide +kernel)
      outs := ⟨outSpecs Params.importNames ["temp", "prec"], by decide +kernel, by decide +kernel, by decide +kernel⟩
      forcing := by decide +kernel
      forcingFmt := by decide +kernel
      domain := by decide +kernel
      state := by decide +kernel
      outDir := by decide +kernel
      outPrefix := by decide +kernel
      outPrecision := by decide +kernel
      outFreq := by decide +kernel
      start := by decide +kernel
      stop := by decide +kernel
      forcingVars := by decide +kernel
      domainVars := by decide +kernel
      stateVars := by decide +kernel
      chunks := by decide +kernel
      constants := ?_ }
  · unfold thetaOf
    rw [show Dict.get? conf "theta_s" = none by decide +kernel]
    rfl
  · unfold constantsOf
    rw [show Dict.get? conf "constant_vars" = some (.nums [("wind", .str "3")]) by decide +kernel]
    show (do
      let x ← (Scalar.str "3").toFloat env
      let r ← List.mapM (fun q : String × Scalar => do
        let x ← q.2.toFloat env
        pure (q.1, x)) []
      pure (("wind", x) :: r)) = _
    rfl

theorem from_ini : fromIni env MainExample.opts ini = .ok setup := by
  unfold fromIni
  rw [bind_ok]
  refine ⟨(iniConf env MainExample.opts main (Config.invertDict vars) doc.domainVars MainExample.vars doc.chunks
    doc.constants "data" "out" (outSpecs Params.importNames ["temp", "prec"]), Params.importNames), by decide +kernel, used⟩

noncomputable def inputs : Vic.Inputs where
  domFile := domFile
  domNames := FilesExample.inputs.domNames
  fmt := "ascii"
  jobs := jobs.map String.toList
  vars := vars
  stateFile := file (epoch - 90) 90
  stateNames := names
  constants := [("wind", 3)]
  start := epoch
  stop := epoch + 1

theorem named (dirs : String → Bool) : VicNames (world dirs) setup inputs where
  fmt := rfl
  domain := rfl
  domainVars := rfl
  forcing := ⟨jobs, rfl, rfl⟩
  forcingVars := rfl
  state := rfl
  stateVars := rfl
  constants := rfl
  start := Or.inr ⟨"1970-01-01", rfl, by decide, rfl, Or.inl (by decide)⟩
  stop := Or.inr ⟨"1970-01-02", rfl, by decide, rfl, Or.inl (by decide)⟩
  encoding := rfl

/-- What is in the files: the same numbers in all of them. -/
noncomputable def files : Vic.Files where
  table _ := .ok [[fin 0, fin 10, fin 20], [fin 1, fin 10, fin 20]]
  bytes _ := .ok []
  toFloat s := if s = "45".toList then some 45 else if s = "44".toList then some 44 else if s = "-120".toList then some (-120) else none

/-- The columns. -/
noncomputable def column (k : String) : List (Flt ℝ) :=
  if k = "prec" then [fin 0, fin 1] else if k = "t_min" then [fin 10, fin 10] else [fin 20, fin 20]

theorem reads_file (job : Str) : Vic.readFile files "ascii" vars 2 job = .ok (vars.keys.map fun k => (k, column k)) := by
  obtain ⟨ds, h, -⟩ := (C102_text files vars (by decide) 2 job _ rfl (by intro r hr; simp only [List.mem_cons, List.not_mem_nil, or_false] at hr; rcases hr with rfl | rfl <;> rfl)).1 (by decide)
  unfold Vic.readFile Vic.columns
  simp [files, vars, Dict.keys, bind, Except.bind, Forcing.readAscii, column, List.idxOf_cons]

theorem grid : ∃ G, Forcing.processVic files.toFloat (Vic.maskAt domFile) (Vic.readFile files "ascii" vars 2) vars.keys 2
    (jobs.map String.toList) = .ok G := by
  refine (C30_succeeds _ _ _ _ (vic_complete files "ascii" vars 2) 2 _).2 ?_
  intro job _ c _ _ e he
  rw [reads_file] at he
  cases he

variable {G : Forcing.Grid ℚ ℝ} (hG : Forcing.processVic files.toFloat (Vic.maskAt domFile) (Vic.readFile files "ascii" vars 2) vars.keys 2
    (jobs.map String.toList) = .ok G)

theorem column_of {k : String} (hk : k ∈ vars.keys) : Dict.get? (vars.keys.map fun k => (k, column k)) k = some (column k) := by
  refine Dict.get?_of_mem _ (by show ["prec", "t_min", "t_max"].Nodup; decide) ?_
  exact List.mem_map.2 ⟨k, hk, rfl⟩

include hG

theorem series (k : String) (hk : k ∈ vars.keys) (c : ℚ × ℚ) : G k c = column k ∨ G k c = List.replicate 2 nan := by
  rcases C30_cells _ _ _ _ (vic_complete files "ascii" vars 2) 2 _ G hG k hk c with ⟨job, -, col, ⟨-, -, ds, h1, h2⟩, h3⟩ | ⟨-, h⟩
  · left
    rw [reads_file] at h1
    obtain rfl := Except.ok.inj h1
    have := h2 k hk
    rw [column_of hk] at this
    rw [h3, ← Option.some.inj this]
  · exact Or.inr h

theorem sources : VicSources files inputs setup.shared domFile MainExample.mask 2 G where
  domWf := FilesExample.sound.domFile
  domNames := FilesExample.sound.domNames
  stateWf := file_wf _ _
  stateNames := by show ["Prec", "Tmin", "Tmax"].Nodup; decide
  dom := reads
  hasMask := rfl
  plane := ⟨by decide, by decide, by decide⟩
  axes := by decide
  distinct := (FilesExample.sources setup.shared rfl rfl).distinct
  time := rfl
  elev := rfl
  pos := by decide
  stop := by decide
  format := Or.inl rfl
  names := ⟨by show ["prec", "t_min", "t_max"] ≠ []; decide, by show ["prec", "t_min", "t_max"].Nodup; decide,
    by show "time" ∉ ["prec", "t_min", "t_max"]; decide, by show "lat" ∉ ["prec", "t_min", "t_max"]; decide,
    by show "lon" ∉ ["prec", "t_min", "t_max"]; decide⟩
  vars := by show ∀ k ∈ ["prec", "t_min", "t_max"], k ∈ ["prec", "t_min", "t_max"]; decide
  grid := hG
  warm := by
    intro c _ k hk
    generalize (cellLabel domFile MainExample.mask.dims c "lat", cellLabel domFile MainExample.mask.dims c "lon") = x
    rcases series hG "t_max" (by decide) x with h1 | h1 <;> rcases series hG "t_min" (by decide) x with h2 | h2 <;> rw [h1, h2] <;>
      interval_cases k <;> simp [column] <;> norm_num
  free := by
    show ∀ v ∈ ["prec", "t_min", "t_max"], v ∉ ["wind"]
    decide
  past := complete (a := epoch - 90) (n := 90) rfl rfl everyDay_past
  pastNamed := fun k hk => ((FilesExample.sources setup.shared rfl rfl).named k hk).2
  pastDays := (FilesExample.sources setup.shared rfl rfl).pastDays
  pastShape := (FilesExample.sources setup.shared rfl rfl).pastShape
  months := (FilesExample.sources setup.shared rfl rfl).months
  calendar := regular_standard _ _

theorem filled (c : Run.Cell) (hc : c ∈ positions domFile MainExample.mask.dims) (k : String) (hk : k ∈ vars.keys) :
    G k (cellLabel domFile MainExample.mask.dims c "lat", cellLabel domFile MainExample.mask.dims c "lon") = column k := by
  have key := (C102_series (sources hG) hc).1
  have hc' : c = [0, 0] ∨ c = [1, 0] := by
    have : positions domFile MainExample.mask.dims = [[0, 0], [1, 0]] := by decide +kernel
    rw [this] at hc
    simpa using hc
  have hm : Flt.lt (.fin 0) (MainExample.mask.val (cellIndex MainExample.mask.dims c)) = true := by
    show decide ((0 : ℝ) < 1) = true
    simp
  have : some (column k) = some (G k (cellLabel domFile MainExample.mask.dims c "lat",
      cellLabel domFile MainExample.mask.dims c "lon")) := (column_of hk).symm.trans (by
    rcases hc' with rfl | rfl
    · exact key [] "data/data_45_-120".toList ["data/data_44_-120".toList] _ rfl hm (by decide +kernel) (reads_file _) (by
        intro j hj h
        rw [List.mem_singleton] at hj
        subst hj
        exact absurd h (by decide +kernel)) k hk
    · exact key ["data/data_45_-120".toList] "data/data_44_-120".toList [] _ rfl hm (by decide +kernel) (reads_file _) (by simp) k hk)
  exact (Option.some.inj this).symm

theorem earthly : VicEarthly inputs setup.shared domFile MainExample.mask 2 G where
  own := by
    intro k hk
    refine ⟨?_, ?_, ((MainExample.earthly fun _ => true).own k hk).2⟩
    · revert k
      show ∀ v ∈ ["elev", "lat", "lon"], v ∈ ["wind"] → False
      decide
    · revert k
      show ∀ v ∈ ["elev", "lat", "lon"], v ∈ ["prec", "t_min", "t_max"] → False
      decide
  elev := (MainExample.earthly fun _ => true).elev
  lat := (MainExample.earthly fun _ => true).lat
  lon := (MainExample.earthly fun _ => true).lon
  temps := by
    intro c hc k hk t ht
    rw [filled hG c hc.1 k (by revert k; show ∀ k ∈ ["t_min", "t_max"], k ∈ ["prec", "t_min", "t_max"]; decide)]
    simp only [List.mem_cons, List.not_mem_nil, or_false] at hk
    rcases hk with rfl | rfl <;> interval_cases t
    · exact ⟨10, rfl, by norm_num, by norm_num⟩
    · exact ⟨10, rfl, by norm_num, by norm_num⟩
    · exact ⟨20, rfl, by norm_num, by norm_num⟩
    · exact ⟨20, rfl, by norm_num, by norm_num⟩
  before := (MainExample.earthly fun _ => true).before
  radiation := by intro h; cases h

omit hG

/-- **C102 is not vacuous**: these files make a run. -/
theorem runs (dirs : String → Bool) (hd : dirs "out" = true) :
    ∃ fuel, ∀ k, ∃ dir, Vic.runIni (world dirs) files (fuel + k) MainExample.opts ini MainExample.chunks.reverse = .ok dir := by
  obtain ⟨G, hG⟩ := grid
  obtain ⟨p, os, -, -, h⟩ := C102_ini (w := world dirs) (fs := files) (order := MainExample.chunks.reverse) doc_of from_ini (named dirs)
    (sources hG) (freq := none) rfl (MainExample.plan dirs _ MainExample.renamed) MainExample.sliced (List.reverse_perm _) (MainExample.knows dirs)
    ⟨by simp [setup, jobs], ⟨_, _, rfl⟩, MainExample.valid.outDir, by simp [setup], MainExample.valid.step, MainExample.valid.some,
      MainExample.valid.outs, MainExample.valid.precision, MainExample.valid.lwCloud, MainExample.valid.lwType⟩ hd
    (MainExample.known_calendar dirs) MainExample.distinct
    (earthly hG) (by decide +kernel) (fun h => absurd h (by show "wind" ∉ ["temp", "prec"]; decide))
  exact h

end Verif.Props.VicExample
