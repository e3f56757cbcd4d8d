import Verif.Props.OutputsDisk
import Verif.Props.EndToEndExample

/-!
# C161 is not vacuous: a run that writes what its theorems relate
-/

namespace Verif.Props.HumidExample

open Dataset ConfigRead Main Flt Txt FilesExample
open MainExample (vars env world opts mask chunks name_of)

/-- The lines of the configuration file. -/
def lines : List Str :=
  ["# a run with humidity", "[MetSim]", "forcing = forcing.nc", "forcing_fmt = netcdf", "domain = domain.nc", "state = state.nc", "out_dir = out",
   "start = 1970-01-01", "stop = 1970-01-02", "time_step = 360", "out_vars = ['temp', 'vapor_pressure', 'rel_humid', 'air_pressure', 'spec_humid']", "", "[chunks]", "lat = 1", "lon = 1",
   "[forcing_vars]", "prec = Prec", "t_min = Tmin", "t_max = Tmax", "[domain_vars]", "mask = mask", "elev = elev", "lat = lat",
   "lon = lon", "[state_vars]", "prec = Prec", "t_min = Tmin", "t_max = Tmax", "[constant_vars]", "wind = 3"].map String.toList

def main : Dict String String :=
  [("forcing", "forcing.nc"), ("forcing_fmt", "netcdf"), ("domain", "domain.nc"), ("state", "state.nc"), ("out_dir", "out"),
   ("start", "1970-01-01"), ("stop", "1970-01-02"), ("time_step", "360"), ("out_vars", "['temp', 'vapor_pressure', 'rel_humid', 'air_pressure', 'spec_humid']")]

def doc : IniDoc where
  main := main
  forcingVars := vars
  domainVars := [("mask", "mask"), ("elev", "elev"), ("lat", "lat"), ("lon", "lon")]
  stateVars := vars
  chunks := [("lat", "1"), ("lon", "1")]
  constants := some [("wind", "3")]
  outVars := none

def ini : Ini.File := ⟨[("MetSim".toList, main.map fun q => (q.1.toList, q.2.toList)),
  ("chunks".toList, doc.chunks.map fun q => (q.1.toList, q.2.toList)),
  ("forcing_vars".toList, vars.map fun q => (q.1.toList, q.2.toList)),
  ("domain_vars".toList, doc.domainVars.map fun q => (q.1.toList, q.2.toList)),
  ("state_vars".toList, vars.map fun q => (q.1.toList, q.2.toList)),
  ("constant_vars".toList, [("wind".toList, "3".toList)])]⟩

theorem read_lines : Ini.read lines = .ok ini := by decide +kernel

theorem doc_of : doc.Of env ini where
  main := by decide +kernel
  forcingVars := by decide +kernel
  domainVars := by decide +kernel
  stateVars := by decide +kernel
  chunks := by decide +kernel
  constants := by decide +kernel
  outVars := by decide +kernel
  mainKeys := by decide +kernel
  outKeys := by decide +kernel
  apart := by decide +kernel

/-- The parameters. -/
noncomputable def conf : Conf :=
  ((classParams Params.importNames).update (iniConf env opts main (Config.invertDict vars) doc.domainVars vars doc.chunks doc.constants "forcing.nc" "out"
    (outSpecs Params.importNames ["temp", "vapor_pressure", "rel_humid", "air_pressure", "spec_humid"])))

noncomputable def setup : Setup where
  shared :=
    { method := .mtclim, ts := 360, calendar := "standard", periodEnding := false, utcOffset := false, swAveraging := ""
      precType := "uniform", lwType := "prata", lwCloud := "cloud_deardorff", thetaS := 0, tmaxFraction := ((67 / 100 : ℚ) : ℝ)
      tdayCoef := ((45 / 100 : ℚ) : ℝ), swPrecThresh := ((0 : ℚ) : ℝ), rainScalar := ((3 / 4 : ℚ) : ℝ)
      lapseRate := ((65 / 10000 : ℚ) : ℝ), tdewTol := ((1 / 1000000 : ℚ) : ℝ)
      outVars := [("temp", "C"), ("vapor_pressure", "Pa"), ("rel_humid", "%"), ("air_pressure", "kPa"), ("spec_humid", "g g-1")] }
  timeStep := 360
  forcing := .one (.str "forcing.nc")
  forcingFmt := "netcdf"
  domain := "domain.nc"
  state := "state.nc"
  outDir := "out"
  outPrefix := "forcing"
  outPrecision := "f4"
  outFreq := .null
  start := .str "1970-01-01"
  stop := .str "1970-01-02"
  forcingVars := some names
  domainVars := some [("mask", "mask"), ("elev", "elev"), ("lat", "lat"), ("lon", "lon")]
  stateVars := some names
  outNames := [("temp", some "temp"), ("vapor_pressure", some "vapor_pressure"), ("rel_humid", some "rel_humid"),
    ("air_pressure", some "air_pressure"), ("spec_humid", some "spec_humid")]
  unitTable := Units.importAttrs
  chunks := [("lat", 1), ("lon", 1)]
  constants := [("wind", 3)]

theorem used : use env Units.importAttrs conf = .ok setup := by
  have fl : ∀ {k q}, one conf k = .ok (.num q) → float env conf k = .ok ((q : ℚ) : ℝ) := by
    intro k q h
    unfold float; rw [h]; rfl
  rw [use_iff]
  refine
    { method := ⟨"mtclim", by decide +kernel, rfl⟩
      timeStep := by decide +kernel
      ts := rfl
      calendar := by decide +kernel
      periodEnding := by decide +kernel
      utcOffset := by decide +kernel
      swAveraging := by decide +kernel
      precType := by decide +kernel
      lwType := by decide +kernel
      lwCloud := by decide +kernel
      thetaS := ?_
      tmaxFraction := fl (by decide +kernel)
      tdayCoef := fl (by decide +kernel)
      swPrecThresh := fl (by decide +kernel)
      rainScalar := fl (by decide +kernel)
      lapseRate := fl (by decide +kernel)
      tdewTol := fl (by decide +kernel)
      outs := ⟨outSpecs Params.importNames ["temp", "vapor_pressure", "rel_humid", "air_pressure", "spec_humid"], by decide +kernel, by decide +kernel, by decide +kernel⟩
      forcing := by decide +kernel
      forcingFmt := by decide +kernel
      domain := by decide +kernel
      state := by decide +kernel
      outDir := by decide +kernel
      outPrefix := by decide +kernel
      outPrecision := by decide +kernel
      outFreq := by decide +kernel
      start := by decide +kernel
      stop := by decide +kernel
      forcingVars := by decide +kernel
      domainVars := by decide +kernel
      stateVars := by decide +kernel
      chunks := by decide +kernel
      constants := ?_ }
  · unfold thetaOf
    rw [show Dict.get? conf "theta_s" = none by decide +kernel]
    rfl
  · unfold constantsOf
    rw [show Dict.get? conf "constant_vars" = some (.nums [("wind", .str "3")]) by decide +kernel]
    show (do
      let x ← (Scalar.str "3").toFloat env
      let r ← List.mapM (fun q : String × Scalar => do
        let x ← q.2.toFloat env
        pure (q.1, x)) []
      pure (("wind", x) :: r)) = _
    rfl

theorem from_ini : fromIni env opts ini = .ok setup := by
  unfold fromIni
  rw [bind_ok]
  refine ⟨(iniConf env opts main (Config.invertDict vars) doc.domainVars vars doc.chunks
    doc.constants "forcing.nc" "out" (outSpecs Params.importNames ["temp", "vapor_pressure", "rel_humid", "air_pressure", "spec_humid"]), Params.importNames), by decide +kernel, used⟩

theorem named (dirs : String → Bool) : Names (world dirs) setup inputs := { MainExample.named dirs with }

theorem valid : Valid setup where
  forcing := by simp [setup]
  forcingVars := ⟨_, _, rfl⟩
  outDir := by simp [setup]
  fmt := by simp [setup]
  step := by simp only [setup]; decide
  some := by simp [setup]
  outs := by simp [setup, Validate.subdailyOutVars]
  precision := by simp [setup]
  lwCloud := by simp [setup]
  lwType := by simp [setup]

theorem plan (dirs : String → Bool) (os : String → String) (hos : os = id) :
    Plan (sharedOf (world dirs) setup) ⟨none, "out".toList, "forcing".toList, os⟩
      setup.chunks (maskDims domFile mask.dims) (inputs.start - 730120) 2 where
  step := by show StepOk 360; unfold StepOk; decide
  calendar := regular_standard _ _
  freq := by rintro f h; cases h
  years := by
    intro T h t ht
    have e : Times.outputTimes (sharedOf (world dirs) setup).cfg (consecutive (inputs.start - 730120) 2) =
        .ok ((List.range 8).map fun k : Nat => ((719163 - 730120 : Int) * 1440 + 360 * k : ℚ)) := by
      show Times.outputTimes ⟨360, "standard", false⟩ (consecutive (719163 - 730120) 2) = _
      decide +kernel
    rw [e] at h
    injection h with h
    subst h
    revert t
    decide +kernel
  vars := by show ["temp", "vapor_pressure", "rel_humid", "air_pressure", "spec_humid"].Nodup; decide
  names := by subst hos; show ["temp", "vapor_pressure", "rel_humid", "air_pressure", "spec_humid"].Nodup; decide
  dims_pos := by show ∀ p ∈ [("lat", 2), ("lon", 1)], 0 < p.2; decide
  chunkKeys := by show ["lat", "lon"].Nodup; decide
  chunks_pos := by show ∀ p ∈ ([("lat", 1), ("lon", 1)] : List (String × Int)), 0 < p.2; decide
  same := Or.inr (by intro d; rfl)


theorem earthly (dirs : String → Bool) : Earthly inputs (sharedOf (world dirs) setup) domFile mask 2 := { MainExample.earthly dirs with }

theorem renamed : (fun v => ((doc.outVars.getD []).get? v).getD v) = (id : String → String) := rfl

theorem sliced : Chunk.slices setup.chunks (maskDims domFile mask.dims) = .ok chunks := by decide +kernel

theorem distinct : (setup.shared.outVars.keys.map (fun v => ((doc.outVars.getD []).get? v).getD v) ++ "time" :: mask.dims).Nodup := by
  show ["temp", "vapor_pressure", "rel_humid", "air_pressure", "spec_humid", "time", "lat", "lon"].Nodup
  decide

theorem untouched : ∀ k ∈ ["tmax_daylength_fraction", "tday_coef", "rain_scalar", "lapse_rate", "tdew_tol"], doc.main.get? k = none := by
  decide +kernel

theorem calm : "wind" ∈ setup.shared.outVars.keys → Provided inputs "wind" := fun _ => Or.inl (by show "wind" ∈ ["wind"]; decide)

theorem sourced (dirs : String → Bool) : Sources inputs (sharedOf (world dirs) setup) domFile mask 2 := sources _ rfl rfl

theorem unsplit (dirs : String → Bool) : outFreq (world dirs) setup.outFreq = .ok none := rfl

theorem inside (dirs : String → Bool) (hd : dirs "out" = true) : (world dirs).isDir ((world dirs).cfg.abspath setup.outDir) = true := hd

theorem known_calendar (dirs : String → Bool) : CfTime.named (sharedOf (world dirs) setup).calendar ≠ none := by
  show CfTime.named "standard" ≠ none
  decide

theorem runs_ini (dirs : String → Bool) (hd : dirs "out" = true) :
    ∃ fuel, ∀ k, ∃ dir, runIni (world dirs) (fuel + k) opts ini chunks.reverse = .ok dir :=
  C96_ini (w := world dirs) doc_of from_ini (named dirs) sound (sourced dirs) (unsplit dirs) (plan dirs _ renamed) sliced
    (List.reverse_perm _) (MainExample.knows dirs) valid (inside dirs hd) (known_calendar dirs) distinct (earthly dirs) untouched calm


theorem plausible (dirs : String → Bool) (c : Run.Cell) (hc : Active domFile mask c) :
    PlausibleFiles inputs (sharedOf (world dirs) setup) domFile mask.dims 2 c := { MainExample.plausible dirs c hc with }

theorem sufficient (dirs : String → Bool) (c : Run.Cell) : Sufficient inputs (sharedOf (world dirs) setup) domFile mask.dims 2 c := by
  refine Or.inl ⟨rfl, ⟨?_, ?_, ?_⟩, ?_⟩
  · show (0 : ℝ) < ((1 / 1000000 : ℚ) : ℝ)
    push_cast; norm_num
  · show (0 : ℝ) ≤ ((45 / 100 : ℚ) : ℝ) ∧ ((45 / 100 : ℚ) : ℝ) ≤ 1
    push_cast; norm_num
  · show (0 : ℝ) ≤ ((3 / 4 : ℚ) : ℝ) ∧ ((3 / 4 : ℚ) : ℝ) ≤ 1
    push_cast; norm_num
  · show Lw.upperS "cloud_deardorff" = "CLOUD_DEARDORFF"
    decide +kernel

/-- **C161 is not vacuous**: a run of an INI file ends and leaves, for the first step of the second day, a temperature and a vapour pressure, and
with them the air pressure and the relative humidity that follow. -/
example : ∃ fuel dir os, runIni (world fun _ => true) fuel opts ini chunks.reverse = .ok dir ∧ ∃ elev T p,
    Stands (world fun _ => true) setup inputs.start 2 none os dir [1, 0] "temp" 1 0 T ∧ 213.15 ≤ T ∧
    Stands (world fun _ => true) setup inputs.start 2 none os dir [1, 0] "vapor_pressure" 1 0 p ∧ 0 ≤ p ∧
    PlaceAt inputs domFile mask.dims [1, 0] "elev" (fin elev) ∧
    Stands (world fun _ => true) setup inputs.start 2 none os dir [1, 0] "air_pressure" 1 0 (Spec.hypsometric elev setup.shared.lapseRate T) ∧
    Stands (world fun _ => true) setup inputs.start 2 none os dir [1, 0] "rel_humid" 1 0 (min 1 (1000 * p / Spec.saturation (T - 273.15))) := by
  obtain ⟨fuel, h⟩ := runs_ini (fun _ => true) rfl
  obtain ⟨dir, hdir⟩ := h 0
  obtain ⟨q, os, ld, hready, hrun, -⟩ := C95_ini (w := world fun _ => true) doc_of from_ini (named _) sound (sourced _) (unsplit _)
    (plan _ _ renamed) sliced (List.reverse_perm _) (MainExample.knows _) (fuel + 0)
  have hsub : (sharedOf (world fun _ => true) setup).ts < 1440 := by show (360 : Nat) < 1440; norm_num
  rw [hrun] at hdir
  have hl := Left.gridded q _ _ hready hdir
  have hact := MainExample.active
  have hp := plausible (fun _ => true) _ hact
  have hpos := C107_possible hready _ hdir hsub (by norm_num) hact hp (sufficient _ _)
  obtain ⟨lo, hi, hday, htemp⟩ := C107_temperature hready _ hdir hsub rfl hact hp "C" rfl
  have hm : 0 < 1440 / (sharedOf (world fun _ => true) setup).ts := by show 0 < 1440 / 360; norm_num
  obtain ⟨x, T, a1, a2, a3, -⟩ := htemp 1 (by norm_num) 0 hm
  obtain ⟨kd, b1, b2⟩ := hpos "vapor_pressure" "Pa" rfl (by decide)
  obtain ⟨y, p, c1, c2, c3⟩ := b2 1 (by norm_num) 0 hm
  have hT : Stands (world fun _ => true) setup inputs.start 2 none os dir [1, 0] "temp" 1 0 T := ⟨"C", x, .temperature, rfl, rfl, a2, a1⟩
  have hP : Stands (world fun _ => true) setup inputs.start 2 none os dir [1, 0] "vapor_pressure" 1 0 p := ⟨"Pa", y, kd, rfl, b1, c2, c1⟩
  have cold : ∀ d, inputs.start - 1 ≤ d → d < inputs.start + (2 : ℕ) → -60 ≤ lo d ∧ -60 ≤ hi d := by
    intro d d1 d2
    obtain ⟨e1, e2⟩ := hday d d1 d2
    obtain ⟨r, hr, r1, -⟩ := hp.temps "t_min" (by simp) d (by omega) d2 _ e1
    obtain ⟨r', hr', r1', -⟩ := hp.temps "t_max" (by simp) d (by omega) d2 _ e2
    obtain rfl := Flt.fin.inj hr
    obtain rfl := Flt.fin.inj hr'
    exact ⟨r1, r1'⟩
  have hge : 213.15 ≤ T := by
    have := a3 (-60) (cold _ (by push_cast; omega) (by push_cast; omega)).2 (cold _ (by push_cast; omega) (by push_cast; omega)).1
      (cold _ (by push_cast; omega) (by push_cast; omega)).2 (fun h => absurd h (by norm_num))
    linarith
  obtain ⟨elev, e1, e2⟩ := C161_pressure hl hsub hact hp.place (u := "kPa") rfl (by decide)
  have helev := hp.elev elev e1
  refine ⟨_, dir, os, hrun.trans hdir, elev, T, p, hT, hge, hP, c3, e1, e2 1 (by norm_num) 0 hm T hT ?_,
    C161_relative hl hsub hact (u := "%") rfl (by norm_num) hm hT (by linarith) hP⟩
  have : (sharedOf (world fun _ => true) setup).lapseRate = ((65 / 10000 : ℚ) : ℝ) := rfl
  rw [this]
  push_cast
  linarith

end Verif.Props.HumidExample
