import Verif.Props.MainEnds
import Verif.Props.MainFail
import Verif.Props.ConfigAccept

/-!
# C95, C96: a configuration file and files that lead to a run
-/

namespace Verif.Props.MainExample

open Dataset ConfigRead Main Flt Txt FilesExample

/-- The lines of the configuration file. -/
def lines : List Str :=
  ["# a run", "[MetSim]", "forcing = forcing.nc", "forcing_fmt = netcdf", "domain = domain.nc", "state = state.nc", "out_dir = out",
   "start = 1970-01-01", "stop = 1970-01-02", "time_step = 360", "out_vars = ['temp', 'prec']", "", "[chunks]", "lat = 1", "lon = 1",
   "[forcing_vars]", "prec = Prec", "t_min = Tmin", "t_max = Tmax", "[domain_vars]", "mask = mask", "elev = elev", "lat = lat",
   "lon = lon", "[state_vars]", "prec = Prec", "t_min = Tmin", "t_max = Tmax", "[constant_vars]", "wind = 3"].map String.toList

def main : Dict String String :=
  [("forcing", "forcing.nc"), ("forcing_fmt", "netcdf"), ("domain", "domain.nc"), ("state", "state.nc"), ("out_dir", "out"),
   ("start", "1970-01-01"), ("stop", "1970-01-02"), ("time_step", "360"), ("out_vars", "['temp', 'prec']")]

def vars : Dict String String := [("prec", "Prec"), ("t_min", "Tmin"), ("t_max", "Tmax")]

def doc : IniDoc where
  main := main
  forcingVars := vars
  domainVars := [("mask", "mask"), ("elev", "elev"), ("lat", "lat"), ("lon", "lon")]
  stateVars := vars
  chunks := [("lat", "1"), ("lon", "1")]
  constants := some [("wind", "3")]
  outVars := none

noncomputable def env : Env where
  walk _ := none
  join a b := a ++ "/" ++ b
  abspath s := s
  interp s := .ok s
  float s := if s = "3" then .ok 3 else .error .valueError

def yamlMain : Dict String Scalar :=
  [("forcing", .str "forcing.nc"), ("forcing_fmt", .str "netcdf"), ("domain", .str "domain.nc"), ("state", .str "state.nc"),
   ("out_dir", .str "out"), ("start", .str "1970-01-01"), ("stop", .str "1970-01-02"), ("time_step", .int 360)]

/-- The same as a YAML file. -/
def yaml : Yaml where
  main := .dict yamlMain
  forcingVars := .dict vars
  domainVars := .dict doc.domainVars
  stateVars := .dict vars
  outVars := .dict [("temp", ⟨some "temp", none⟩), ("prec", ⟨some "prec", none⟩)]
  chunks := .dict [("lat", .int 1), ("lon", .int 1)]
  constantVars := .dict [("wind", .int 3)]

noncomputable def world (dirs : String → Bool) : World where
  cfg := env
  nc path := if path = "domain.nc" then .ok domFile else if path = "forcing.nc" then .ok (file epoch 2) else
    if path = "state.nc" then .ok (file (epoch - 90) 90) else .error .keyError
  encoding := none
  period s := if s = "1970-01-01" then some (epoch, epoch) else if s = "1970-01-02" then some (epoch + 1, epoch + 1) else none
  freq _ := .error .valueError
  isDir := dirs
  known t := decide (t ∈ ["i4", "i8", "f4", "f8"])
  labelType _ := "float64"
  history := ""
  json _ := "{}"
  shown _ := ""
  yaml _ := .ok yaml

def ini : Ini.File := ⟨[("MetSim".toList, main.map fun q => (q.1.toList, q.2.toList)),
  ("chunks".toList, doc.chunks.map fun q => (q.1.toList, q.2.toList)),
  ("forcing_vars".toList, vars.map fun q => (q.1.toList, q.2.toList)),
  ("domain_vars".toList, doc.domainVars.map fun q => (q.1.toList, q.2.toList)),
  ("state_vars".toList, vars.map fun q => (q.1.toList, q.2.toList)),
  ("constant_vars".toList, [("wind".toList, "3".toList)])]⟩

theorem read_lines : Ini.read lines = .ok ini := by decide +kernel

theorem doc_of : doc.Of env ini where
  main := by decide +kernel
  forcingVars := by decide +kernel
  domainVars := by decide +kernel
  stateVars := by decide +kernel
  chunks := by decide +kernel
  constants := by decide +kernel
  outVars := by decide +kernel
  mainKeys := by decide +kernel
  outKeys := by decide +kernel
  apart := by decide +kernel

def opts : Opts := ⟨"threading", 1, false⟩

/-- The parameters. -/
noncomputable def conf : Conf :=
  ((classParams Params.importNames).update (iniConf env opts main (Config.invertDict vars) doc.domainVars vars doc.chunks doc.constants "forcing.nc" "out"
    (outSpecs Params.importNames ["temp", "prec"])))

noncomputable def setup : Setup where
  shared :=
    { method := .mtclim, ts := 360, calendar := "standard", periodEnding := false, utcOffset := false, swAveraging := ""
      precType := "uniform", lwType := "prata", lwCloud := "cloud_deardorff", thetaS := 0, tmaxFraction := ((67 / 100 : ℚ) : ℝ)
      tdayCoef := ((45 / 100 : ℚ) : ℝ), swPrecThresh := ((0 : ℚ) : ℝ), rainScalar := ((3 / 4 : ℚ) : ℝ)
      lapseRate := ((65 / 10000 : ℚ) : ℝ), tdewTol := ((1 / 1000000 : ℚ) : ℝ)
      outVars := [("temp", "C"), ("prec", "mm timestep-1")] }
  timeStep := 360
  forcing := .one (.str "forcing.nc")
  forcingFmt := "netcdf"
  domain := "domain.nc"
  state := "state.nc"
  outDir := "out"
  outPrefix := "forcing"
  outPrecision := "f4"
  outFreq := .null
  start := .str "1970-01-01"
  stop := .str "1970-01-02"
  forcingVars := some names
  domainVars := some [("mask", "mask"), ("elev", "elev"), ("lat", "lat"), ("lon", "lon")]
  stateVars := some names
  outNames := [("temp", some "temp"), ("prec", some "prec")]
  unitTable := Units.importAttrs
  chunks := [("lat", 1), ("lon", 1)]
  constants := [("wind", 3)]

theorem used : use env Units.importAttrs conf = .ok setup := by
  have fl : ∀ {k q}, one conf k = .ok (.num q) → float env conf k = .ok ((q : ℚ) : ℝ) := by
    intro k q h
    unfold float; rw [h]; rfl
  rw [use_iff]
  refine
    { method := ⟨"mtclim", by decide +kernel, rfl⟩
      timeStep := by decide +kernel
      ts := rfl
      calendar := by decide +kernel
      periodEnding := by decide +kernel
      utcOffset := by decide +kernel
      swAveraging := by decide +kernel
      precType := by decide +kernel
      lwType := by decide +kernel
      lwCloud := by decide +kernel
      thetaS := ?_
      tmaxFraction := fl (by decide +kernel)
      tdayCoef := fl (by decide +kernel)
      swPrecThresh := fl (by decide +kernel)
      rainScalar := fl (by decide +kernel)
      lapseRate := fl (by decide +kernel)
      tdewTol := fl (by decide +kernel)
      outs := ⟨outSpecs Params.importNames ["temp", "prec"], by decide +kernel, by decide +kernel, by decide +kernel⟩
      forcing := by decide +kernel
      forcingFmt := by decide +kernel
      domain := by decide +kernel
      state := by decide +kernel
      outDir := by decide +kernel
      outPrefix := by decide +kernel
      outPrecision := by decide +kernel
      outFreq := by decide +kernel
      start := by decide +kernel
      stop := by decide +kernel
      forcingVars := by decide +kernel
      domainVars := by decide +kernel
      stateVars := by decide +kernel
      chunks := by decide +kernel
      constants := ?_ }
  · unfold thetaOf
    rw [show Dict.get? conf "theta_s" = none by decide +kernel]
    rfl
  · unfold constantsOf
    rw [show Dict.get? conf "constant_vars" = some (.nums [("wind", .str "3")]) by decide +kernel]
    show (do
      let x ← (Scalar.str "3").toFloat env
      let r ← List.mapM (fun q : String × Scalar => do
        let x ← q.2.toFloat env
        pure (q.1, x)) []
      pure (("wind", x) :: r)) = _
    rfl

theorem from_ini : fromIni env opts ini = .ok setup := by
  unfold fromIni
  rw [bind_ok]
  refine ⟨(iniConf env opts main (Config.invertDict vars) doc.domainVars vars doc.chunks
    doc.constants "forcing.nc" "out" (outSpecs Params.importNames ["temp", "prec"]), Params.importNames), by decide +kernel, used⟩

theorem named (dirs : String → Bool) : Names (world dirs) setup inputs where
  fmt := rfl
  domain := rfl
  domainVars := rfl
  forcing := ⟨"forcing.nc", rfl, rfl⟩
  forcingVars := rfl
  state := rfl
  stateVars := rfl
  constants := rfl
  start := Or.inr ⟨"1970-01-01", rfl, by decide, rfl, Or.inl (by decide)⟩
  stop := Or.inr ⟨"1970-01-02", rfl, by decide, rfl, Or.inl (by decide)⟩

theorem valid : Valid setup where
  forcing := by simp [setup]
  forcingVars := ⟨_, _, rfl⟩
  outDir := by simp [setup]
  fmt := by simp [setup]
  step := by simp only [setup]; decide
  some := by simp [setup]
  outs := by simp [setup, Validate.subdailyOutVars]
  precision := by simp [setup]
  lwCloud := by simp [setup]
  lwType := by simp [setup]

/-- The mask of the domain file. -/
noncomputable def mask : Arr ℝ := ⟨["lat", "lon"], fun _ => .fin 1⟩

theorem plan (dirs : String → Bool) (os : String → String) (hos : os = id) :
    Plan (sharedOf (world dirs) setup) ⟨none, "out".toList, "forcing".toList, os⟩
      setup.chunks (maskDims domFile mask.dims) (inputs.start - 730120) 2 where
  step := by show StepOk 360; unfold StepOk; decide
  calendar := regular_standard _ _
  freq := by rintro f h; cases h
  years := by
    intro T h t ht
    have e : Times.outputTimes (sharedOf (world dirs) setup).cfg (consecutive (inputs.start - 730120) 2) =
        .ok ((List.range 8).map fun k : Nat => ((719163 - 730120 : Int) * 1440 + 360 * k : ℚ)) := by
      show Times.outputTimes ⟨360, "standard", false⟩ (consecutive (719163 - 730120) 2) = _
      decide +kernel
    rw [e] at h
    injection h with h
    subst h
    revert t
    decide +kernel
  vars := by show ["temp", "prec"].Nodup; decide
  names := by subst hos; show ["temp", "prec"].Nodup; decide
  dims_pos := by show ∀ p ∈ [("lat", 2), ("lon", 1)], 0 < p.2; decide
  chunkKeys := by show ["lat", "lon"].Nodup; decide
  chunks_pos := by show ∀ p ∈ ([("lat", 1), ("lon", 1)] : List (String × Int)), 0 < p.2; decide
  same := Or.inr (by intro d; rfl)


theorem name_of {u v : String} (h : names.get? u = some v) :
    (u = "Prec" ∧ v = "prec") ∨ (u = "Tmin" ∧ v = "t_min") ∨ (u = "Tmax" ∧ v = "t_max") := by
  have := Dict.mem_of_get? _ h
  simpa [FilesExample.names] using this

theorem told_temp {a : Int} {n : Nat} {c : Run.Cell} {v : String} (hv : v ∈ ["t_min", "t_max"]) {day : Int} {x : Flt ℝ}
    (h : Told (file a n) names domFile ["lat", "lon"] c v day x) : ∃ r, x = fin r ∧ -60 ≤ r ∧ r ≤ 60 := by
  obtain ⟨u, raw, h1, -, b, ix, h2, h3, rfl⟩ := h
  simp only [List.mem_cons, List.not_mem_nil, or_false] at hv
  have hlat : ∀ m : ℝ, b = ⟨["time", "lat", "lon"], fun ix => .fin (m + ix "lat")⟩ → 0 ≤ m → m ≤ 20 →
      ∃ r, b.val ix = fin r ∧ -60 ≤ r ∧ r ≤ 60 := by
    rintro m rfl hm hm'
    have e := h3 "lat" (by simp)
    have hlt : ix "lat" < 2 := (List.getElem?_eq_some_iff.1 e).1
    have hle : ((ix "lat" : ℕ) : ℝ) ≤ 1 := by exact_mod_cast Nat.lt_succ_iff.1 hlt
    have h0 : (0 : ℝ) ≤ ((ix "lat" : ℕ) : ℝ) := Nat.cast_nonneg _
    exact ⟨_, rfl, by linarith, by linarith⟩
  rcases name_of h1 with ⟨rfl, rfl⟩ | ⟨rfl, rfl⟩ | ⟨rfl, rfl⟩
  · rcases hv with h | h <;> exact absurd h (by decide)
  · exact hlat 10 (Option.some.inj h2).symm (by norm_num) (by norm_num)
  · exact hlat 20 (Option.some.inj h2).symm (by norm_num) (by norm_num)

theorem earthly (dirs : String → Bool) : Earthly inputs (sharedOf (world dirs) setup) domFile mask 2 where
  own := by
    intro v hv
    refine ⟨?_, ?_⟩
    · rintro (h | ⟨u, h⟩)
      · revert v
        show ∀ v ∈ ["elev", "lat", "lon"], v ∈ ["wind"] → False
        decide
      · rcases name_of h with ⟨-, rfl⟩ | ⟨-, rfl⟩ | ⟨-, rfl⟩ <;> exact absurd hv (by decide)
    · intro a ha d hd
      have := Dict.mem_of_get? _ ha
      simp only [domFile, List.mem_cons, List.not_mem_nil, or_false, Prod.mk.injEq] at this
      rcases this with ⟨-, rfl⟩ | ⟨-, rfl⟩ <;> exact hd
  elev := by
    intro c _ x hx
    obtain ⟨u, h1, a, ix, h2, h3, rfl⟩ := hx.1 (by simp [domFile, Dict.get?_cons])
    obtain rfl : u = "elev" := by
      have := Dict.mem_of_get? _ h1
      simpa [FilesExample.inputs] using this
    have ha := (Option.some.inj h2).symm
    subst ha
    have e := h3 "lat" (by simp)
    have hlt : ix "lat" < 2 := (List.getElem?_eq_some_iff.1 e).1
    have hle : ((ix "lat" : ℕ) : ℝ) ≤ 1 := by exact_mod_cast Nat.lt_succ_iff.1 hlt
    refine ⟨_, rfl, ?_⟩
    show ((65 / 10000 : ℚ) : ℝ) * (100 * ((ix "lat" : ℕ) : ℝ)) < 288.15
    push_cast
    linarith
  lat := by
    intro c hc x hx
    rw [hx.2 rfl]
    refine ⟨_, rfl, ?_⟩
    show |(((([45, 44] : List ℚ).getD (cellIndex ["lat", "lon"] c "lat") 0 : ℚ)) : ℝ)| ≤ 60
    generalize cellIndex ["lat", "lon"] c "lat" = k
    match k with
    | 0 => simp; norm_num
    | 1 => simp; norm_num
    | k + 2 => simp
  lon := by
    intro c _ x hx
    exact ⟨_, hx.2 rfl⟩
  temps := fun c _ v hv k _ x hx => told_temp hv hx
  before := fun c _ v hv x hx => by
    obtain ⟨r, h, -⟩ := told_temp hv hx
    exact ⟨r, h⟩
  radiation := by intro h; cases h

/-- The chunks of the run. -/
def chunks : List (Dict String Chunk.Slice) := [[("lat", some (0, 1)), ("lon", some (0, 2))], [("lat", some (1, 3)), ("lon", some (0, 2))]]

theorem renamed : (fun v => ((doc.outVars.getD []).get? v).getD v) = (id : String → String) := rfl

theorem sliced : Chunk.slices setup.chunks (maskDims domFile mask.dims) = .ok chunks := by decide +kernel

theorem distinct : (setup.shared.outVars.keys.map (fun v => ((doc.outVars.getD []).get? v).getD v) ++ "time" :: mask.dims).Nodup := by
  show ["temp", "prec", "time", "lat", "lon"].Nodup
  decide

theorem untouched : ∀ k ∈ ["tmax_daylength_fraction", "tday_coef", "rain_scalar", "lapse_rate", "tdew_tol"], doc.main.get? k = none := by
  decide +kernel

theorem calm : "wind" ∈ setup.shared.outVars.keys → Provided inputs "wind" := by
  intro h
  exact absurd h (by show "wind" ∉ ["temp", "prec"]; decide)

theorem knows (dirs : String → Bool) : ∀ t ∈ ["i4", "i8", "f4", "f8"], (world dirs).known t = true := by
  intro t ht
  exact decide_eq_true ht

theorem sourced (dirs : String → Bool) : Sources inputs (sharedOf (world dirs) setup) domFile mask 2 := sources _ rfl rfl

theorem unsplit (dirs : String → Bool) : outFreq (world dirs) setup.outFreq = .ok none := rfl

theorem inside (dirs : String → Bool) (hd : dirs "out" = true) : (world dirs).isDir ((world dirs).cfg.abspath setup.outDir) = true := hd

theorem known_calendar (dirs : String → Bool) : CfTime.named (sharedOf (world dirs) setup).calendar ≠ none := by
  show CfTime.named "standard" ≠ none
  decide

theorem runs_ini (dirs : String → Bool) (hd : dirs "out" = true) :
    ∃ fuel, ∀ k, ∃ dir, runIni (world dirs) (fuel + k) opts ini chunks.reverse = .ok dir :=
  C96_ini (w := world dirs) doc_of from_ini (named dirs) sound (sourced dirs) (unsplit dirs) (plan dirs _ renamed) sliced
    (List.reverse_perm _) (knows dirs) valid (inside dirs hd) (known_calendar dirs) distinct (earthly dirs) untouched calm

theorem typed : Config.checkConfigType lines = .ini := by decide +kernel

theorem text_ini {w : World} {fuel : Nat} {opts : Opts} {ls : List Txt.Str} {f : Ini.File} {order : List (Dict String Chunk.Slice)}
    (ht : Config.checkConfigType ls = .ini) (hr : Ini.read ls = .ok f) : runText w fuel opts ls order = runIni w fuel opts f order := by
  unfold runText
  rw [ht, hr]
  rfl

/-- **C95, C96 are not vacuous**: these files make a run. -/
theorem runs (dirs : String → Bool) (hd : dirs "out" = true) :
    ∃ fuel, ∀ k, ∃ dir, runText (world dirs) (fuel + k) opts lines chunks.reverse = .ok dir := by
  obtain ⟨fuel, h⟩ := runs_ini dirs hd
  refine ⟨fuel, fun k => ?_⟩
  obtain ⟨dir, hdir⟩ := h k
  exact ⟨dir, (text_ini typed read_lines).trans hdir⟩

end Verif.Props.MainExample
