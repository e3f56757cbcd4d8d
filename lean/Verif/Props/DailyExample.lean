import Verif.Props.DailyLocalFiles
import Verif.Props.EndToEndExample

/-!
# C146 is not vacuous: a run in daily steps
-/

namespace Verif.Props.DailyExample

open Dataset ConfigRead Main Flt Txt FilesExample
open MainExample (vars env world opts mask chunks name_of)

/-- The lines of the configuration file. -/
def lines : List Str :=
  ["# a daily run", "[MetSim]", "forcing = forcing.nc", "forcing_fmt = netcdf", "domain = domain.nc", "state = state.nc", "out_dir = out",
   "start = 1970-01-01", "stop = 1970-01-02", "time_step = 1440", "out_vars = ['t_min', 'prec', 'wind']", "", "[chunks]", "lat = 1", "lon = 1",
   "[forcing_vars]", "prec = Prec", "t_min = Tmin", "t_max = Tmax", "[domain_vars]", "mask = mask", "elev = elev", "lat = lat",
   "lon = lon", "[state_vars]", "prec = Prec", "t_min = Tmin", "t_max = Tmax", "[constant_vars]", "wind = 3"].map String.toList

def main : Dict String String :=
  [("forcing", "forcing.nc"), ("forcing_fmt", "netcdf"), ("domain", "domain.nc"), ("state", "state.nc"), ("out_dir", "out"),
   ("start", "1970-01-01"), ("stop", "1970-01-02"), ("time_step", "1440"), ("out_vars", "['t_min', 'prec', 'wind']")]

def doc : IniDoc where
  main := main
  forcingVars := vars
  domainVars := [("mask", "mask"), ("elev", "elev"), ("lat", "lat"), ("lon", "lon")]
  stateVars := vars
  chunks := [("lat", "1"), ("lon", "1")]
  constants := some [("wind", "3")]
  outVars := none

def ini : Ini.File := ⟨[("MetSim".toList, main.map fun q => (q.1.toList, q.2.toList)),
  ("chunks".toList, doc.chunks.map fun q => (q.1.toList, q.2.toList)),
  ("forcing_vars".toList, vars.map fun q => (q.1.toList, q.2.toList)),
  ("domain_vars".toList, doc.domainVars.map fun q => (q.1.toList, q.2.toList)),
  ("state_vars".toList, vars.map fun q => (q.1.toList, q.2.toList)),
  ("constant_vars".toList, [("wind".toList, "3".toList)])]⟩

theorem read_lines : Ini.read lines = .ok ini := by decide +kernel

theorem doc_of : doc.Of env ini where
  main := by decide +kernel
  forcingVars := by decide +kernel
  domainVars := by decide +kernel
  stateVars := by decide +kernel
  chunks := by decide +kernel
  constants := by decide +kernel
  outVars := by decide +kernel
  mainKeys := by decide +kernel
  outKeys := by decide +kernel
  apart := by decide +kernel

/-- The parameters. -/
noncomputable def conf : Conf :=
  ((classParams Params.importNames).update (iniConf env opts main (Config.invertDict vars) doc.domainVars vars doc.chunks doc.constants "forcing.nc" "out"
    (outSpecs Params.importNames ["t_min", "prec", "wind"])))

noncomputable def setup : Setup where
  shared :=
    { method := .mtclim, ts := 1440, calendar := "standard", periodEnding := false, utcOffset := false, swAveraging := ""
      precType := "uniform", lwType := "prata", lwCloud := "cloud_deardorff", thetaS := 0, tmaxFraction := ((67 / 100 : ℚ) : ℝ)
      tdayCoef := ((45 / 100 : ℚ) : ℝ), swPrecThresh := ((0 : ℚ) : ℝ), rainScalar := ((3 / 4 : ℚ) : ℝ)
      lapseRate := ((65 / 10000 : ℚ) : ℝ), tdewTol := ((1 / 1000000 : ℚ) : ℝ)
      outVars := [("t_min", "C"), ("prec", "mm timestep-1"), ("wind", "m s-1")] }
  timeStep := 1440
  forcing := .one (.str "forcing.nc")
  forcingFmt := "netcdf"
  domain := "domain.nc"
  state := "state.nc"
  outDir := "out"
  outPrefix := "forcing"
  outPrecision := "f4"
  outFreq := .null
  start := .str "1970-01-01"
  stop := .str "1970-01-02"
  forcingVars := some names
  domainVars := some [("mask", "mask"), ("elev", "elev"), ("lat", "lat"), ("lon", "lon")]
  stateVars := some names
  outNames := [("t_min", some "t_min"), ("prec", some "prec"), ("wind", some "wind")]
  unitTable := Units.importAttrs
  chunks := [("lat", 1), ("lon", 1)]
  constants := [("wind", 3)]

theorem used : use env Units.importAttrs conf = .ok setup := by
  have fl : ∀ {k q}, one conf k = .ok (.num q) → float env conf k = .ok ((q : ℚ) : ℝ) := by
    intro k q h
    unfold float; rw [h]; rfl
  rw [use_iff]
  refine
    { method := ⟨"mtclim", by decide +kernel, rfl⟩
      timeStep := by decide +kernel
      ts := rfl
      calendar := by decide +kernel
      periodEnding := by decide +kernel
      utcOffset := by decide +kernel
      swAveraging := by decide +kernel
      precType := by decide +kernel
      lwType := by decide +kernel
      lwCloud := by decide +kernel
      thetaS := ?_
      tmaxFraction := fl (by decide +kernel)
      tdayCoef := fl (by decide +kernel)
      swPrecThresh := fl (by decide +kernel)
      rainScalar := fl (by decide +kernel)
      lapseRate := fl (by decide +kernel)
      tdewTol := fl (by decide +kernel)
      outs := ⟨outSpecs Params.importNames ["t_min", "prec", "wind"], by decide +kernel, by decide +kernel, by decide +kernel⟩
      forcing := by decide +kernel
      forcingFmt := by decide +kernel
      domain := by decide +kernel
      state := by decide +kernel
      outDir := by decide +kernel
      outPrefix := by decide +kernel
      outPrecision := by decide +kernel
      outFreq := by decide +kernel
      start := by decide +kernel
      stop := by decide +kernel
      forcingVars := by decide +kernel
      domainVars := by decide +kernel
      stateVars := by decide +kernel
      chunks := by decide +kernel
      constants := ?_ }
  · unfold thetaOf
    rw [show Dict.get? conf "theta_s" = none by decide +kernel]
    rfl
  · unfold constantsOf
    rw [show Dict.get? conf "constant_vars" = some (.nums [("wind", .str "3")]) by decide +kernel]
    show (do
      let x ← (Scalar.str "3").toFloat env
      let r ← List.mapM (fun q : String × Scalar => do
        let x ← q.2.toFloat env
        pure (q.1, x)) []
      pure (("wind", x) :: r)) = _
    rfl

theorem from_ini : fromIni env opts ini = .ok setup := by
  unfold fromIni
  rw [bind_ok]
  refine ⟨(iniConf env opts main (Config.invertDict vars) doc.domainVars vars doc.chunks
    doc.constants "forcing.nc" "out" (outSpecs Params.importNames ["t_min", "prec", "wind"]), Params.importNames), by decide +kernel, used⟩

theorem named (dirs : String → Bool) : Names (world dirs) setup inputs := { MainExample.named dirs with }

theorem valid : Valid setup where
  forcing := by simp [setup]
  forcingVars := ⟨_, _, rfl⟩
  outDir := by simp [setup]
  fmt := by simp [setup]
  step := by simp only [setup]; decide
  some := by simp [setup]
  outs := by simp [setup, Validate.dailyOutVars]
  precision := by simp [setup]
  lwCloud := by simp [setup]
  lwType := by simp [setup]

theorem plan (dirs : String → Bool) (os : String → String) (hos : os = id) :
    Plan (sharedOf (world dirs) setup) ⟨none, "out".toList, "forcing".toList, os⟩
      setup.chunks (maskDims domFile mask.dims) (inputs.start - 730120) 2 where
  step := by show StepOk 1440; unfold StepOk; decide
  calendar := regular_standard _ _
  freq := by rintro f h; cases h
  years := by
    intro T h t ht
    have e : Times.outputTimes (sharedOf (world dirs) setup).cfg (consecutive (inputs.start - 730120) 2) =
        .ok ((List.range 2).map fun k : Nat => ((719163 - 730120 : Int) * 1440 + 1440 * k : ℚ)) := by
      show Times.outputTimes ⟨1440, "standard", false⟩ (consecutive (719163 - 730120) 2) = _
      decide +kernel
    rw [e] at h
    injection h with h
    subst h
    revert t
    decide +kernel
  vars := by show ["t_min", "prec", "wind"].Nodup; decide
  names := by subst hos; show ["t_min", "prec", "wind"].Nodup; decide
  dims_pos := by show ∀ p ∈ [("lat", 2), ("lon", 1)], 0 < p.2; decide
  chunkKeys := by show ["lat", "lon"].Nodup; decide
  chunks_pos := by show ∀ p ∈ ([("lat", 1), ("lon", 1)] : List (String × Int)), 0 < p.2; decide
  same := Or.inr (by intro d; rfl)


theorem earthly (dirs : String → Bool) : Earthly inputs (sharedOf (world dirs) setup) domFile mask 2 := { MainExample.earthly dirs with }

theorem renamed : (fun v => ((doc.outVars.getD []).get? v).getD v) = (id : String → String) := rfl

theorem sliced : Chunk.slices setup.chunks (maskDims domFile mask.dims) = .ok chunks := by decide +kernel

theorem distinct : (setup.shared.outVars.keys.map (fun v => ((doc.outVars.getD []).get? v).getD v) ++ "time" :: mask.dims).Nodup := by
  show ["t_min", "prec", "wind", "time", "lat", "lon"].Nodup
  decide

theorem untouched : ∀ k ∈ ["tmax_daylength_fraction", "tday_coef", "rain_scalar", "lapse_rate", "tdew_tol"], doc.main.get? k = none := by
  decide +kernel

theorem calm : "wind" ∈ setup.shared.outVars.keys → Provided inputs "wind" := fun _ => Or.inl (by show "wind" ∈ ["wind"]; decide)

theorem sourced (dirs : String → Bool) : Sources inputs (sharedOf (world dirs) setup) domFile mask 2 := sources _ rfl rfl

theorem unsplit (dirs : String → Bool) : outFreq (world dirs) setup.outFreq = .ok none := rfl

theorem inside (dirs : String → Bool) (hd : dirs "out" = true) : (world dirs).isDir ((world dirs).cfg.abspath setup.outDir) = true := hd

theorem known_calendar (dirs : String → Bool) : CfTime.named (sharedOf (world dirs) setup).calendar ≠ none := by
  show CfTime.named "standard" ≠ none
  decide

theorem runs_ini (dirs : String → Bool) (hd : dirs "out" = true) :
    ∃ fuel, ∀ k, ∃ dir, runIni (world dirs) (fuel + k) opts ini chunks.reverse = .ok dir :=
  C96_ini (w := world dirs) doc_of from_ini (named dirs) sound (sourced dirs) (unsplit dirs) (plan dirs _ renamed) sliced
    (List.reverse_perm _) (MainExample.knows dirs) valid (inside dirs hd) (known_calendar dirs) distinct (earthly dirs) untouched calm


theorem active (k : Nat) (hk : k < 2) : Active domFile mask [k, 0] := by
  refine ⟨?_, 1, rfl, by norm_num⟩
  unfold Worker.positions
  have : k = 0 ∨ k = 1 := by omega
  rcases this with rfl | rfl <;> decide +kernel

theorem placed (c : Run.Cell) : PlaceTold ⟨inputs, domFile, mask.dims, c⟩ := by
  intro v hv
  obtain ⟨h1, h2⟩ := (earthly fun _ => true).own v hv
  exact ⟨fun h => h1 (Or.inl h), fun u h => h1 (Or.inr ⟨u, h⟩), h2⟩

theorem stormless (c : Run.Cell) : ∀ v ∈ ["dur", "t_pk"], ∀ a, (⟨inputs, domFile, mask.dims, c⟩ : Site).dom.vars.get? v = some a →
    ∀ d ∈ a.dims, d = "month" ∨ d ∈ mask.dims := fun v _ a ha d hd => by
  have := Dict.mem_of_get? _ ha
  simp only [domFile, List.mem_cons, List.not_mem_nil, or_false, Prod.mk.injEq] at this
  rcases this with ⟨-, rfl⟩ | ⟨-, rfl⟩ <;> exact Or.inr hd

/-- **C146 is not vacuous**: a run of an INI file in daily steps ends, and the wind it leaves for two cells, at different places, is the same on the
last day. -/
example : ∃ fuel dir os, runIni (world fun _ => true) fuel opts ini chunks.reverse = .ok dir ∧
    SameOnDisk (world fun _ => true) (world fun _ => true) setup setup inputs inputs 2 2 none none os os dir dir [0, 0] [1, 0] "wind" 1 := by
  obtain ⟨fuel, h⟩ := runs_ini (fun _ => true) rfl
  obtain ⟨dir, hdir⟩ := h 0
  obtain ⟨p, os, ld, hready, hrun, -⟩ := C95_ini (w := world fun _ => true) doc_of from_ini (named _) sound (sourced _) (unsplit _)
    (plan _ _ renamed) sliced (List.reverse_perm _) (MainExample.knows _) (fuel + 0)
  rw [hrun] at hdir
  have hl := Left.gridded p _ _ hready hdir
  have hreg : ∀ c, Regular ["wind"] ⟨inputs, domFile, mask.dims, c⟩ := fun c =>
    ⟨fun v hv _ h => absurd (show v ∈ ["wind"] from hv) h, stormless c⟩
  refine ⟨_, dir, os, hrun.trans hdir, C146_files (v := "wind") hl hl rfl rfl (active 0 (by norm_num)) (active 1 (by norm_num)) (placed _) (placed _) ?_
    (fun _ => by decide) (by show "seasonal_prec" ∉ ["wind"]; decide) (by decide) (hreg _) (hreg _) (by norm_num : 1 < 2) (by norm_num : 1 < 2)
    ⟨rfl, fun h => (by cases h), fun h => (by cases h), ?_, fun h => ?_⟩⟩
  · show "wind" ∈ setup.shared.outVars.keys
    decide
  · intro v hv
    have hv : v = "wind" := List.mem_singleton.1 hv
    subst hv
    refine ⟨fun h => absurd h (by decide), fun h => absurd h (by decide), fun _ _ => ⟨Iff.rfl, ?_⟩⟩
    have given : ∀ c x, GivenFor inputs domFile mask.dims c "wind" (inputs.start + (1 : Nat)) x → x = fin 3 := by
      rintro c x (⟨r, hr, rfl⟩ | ⟨h, -⟩)
      · have hr : (("wind" : String), r) ∈ [(("wind" : String), (3 : ℝ))] := hr
        obtain rfl : r = 3 := by simpa using hr
        rfl
      · exact absurd (show "wind" ∈ ["wind"] by simp) h
    intro x y hx hy
    rw [given _ x hx, given _ y hy]
  · exact absurd (show "dtr" ∈ ["wind"] ∨ "smoothed_dtr" ∈ ["wind"] from h) (by decide)

end Verif.Props.DailyExample
