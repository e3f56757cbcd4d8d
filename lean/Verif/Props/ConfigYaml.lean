import Verif.Props.ConfigAccept

/-!
# C93: INI and YAML files that say the same
-/

namespace Verif.Props

open Txt ConfigRead

/-! ### Looking things up in the dictionary of a YAML file -/

section lookup

variable {env : Env} {opts : Opts} {main ch : Dict String Scalar} {fv dv sv : Dict String String} {cv : Option (Dict String Scalar)}
  {fo od : String} {outs : Dict String OutSpec} {cls : Conf}

theorem ones_nodup (hm : main.keys.Nodup) : Dict.keys (main.map fun p => (p.1, Value.one p.2)) |>.Nodup := by
  rw [keys_map main Value.one]; exact hm

theorem yamlConf_nodup (hm : main.keys.Nodup) : (yamlConf env opts main fv dv sv ch cv fo od outs).keys.Nodup := by
  unfold yamlConf dropEmpty
  apply nodup_filter
  apply Dict.nodup_update
  cases cv <;> simp only <;> repeat (first | exact ones_nodup hm | apply Dict.nodup_set)

theorem yamlConf_get (hm : main.keys.Nodup) (k : String) :
    (yamlConf env opts main fv dv sv ch cv fo od outs).get? k =
      (if "out_dir" = k then some (Value.one (.str (env.abspath od))) else
       if "forcing" = k then some (forcingFiles env fo) else
       if "verbose" = k then some (.one (.int (level opts.verbose))) else
       if "num_workers" = k then some (.one (.int opts.numWorkers)) else
       if "scheduler" = k then some (.one (.str opts.scheduler)) else
       if "calendar" = k then some (.one ((main.get? "calendar").getD (.str "standard"))) else
       if "constant_vars" = k ∧ cv.isSome then some (.nums (cv.getD [])) else
       if "chunks" = k then some (.nums ch) else
       if "out_vars" = k then some (Value.outs outs) else
       if "state_vars" = k then some (.names (Config.invertDict sv)) else
       if "domain_vars" = k then some (.names (Config.invertDict dv)) else
       if "forcing_vars" = k then some (.names (Config.invertDict fv)) else
       (main.get? k).map Value.one).filter fun v => decide (v ≠ .files []) := by
  have ht : ∀ k, Dict.get? (main.map fun p => (p.1, Value.one p.2)) k = (main.get? k).map Value.one := fun k =>
    get?_map main Value.one k
  unfold yamlConf dropEmpty
  rw [conf_get?_filter]
  · congr 1
    cases cv <;> simp only [Dict.update_cons, Dict.update_nil, Dict.get?_set, ht, Option.isSome_none, Option.isSome_some,
      Bool.false_eq_true, and_false, and_true, if_false, Option.getD_some]
  · apply Dict.nodup_update
    cases cv <;> simp only <;> repeat (first | exact ones_nodup hm | apply Dict.nodup_set)

/-- The parameters that do not come straight from the section `MetSim`. -/
def yamlSpecial : List String :=
  ["forcing_vars", "domain_vars", "state_vars", "chunks", "constant_vars", "calendar", "scheduler", "num_workers", "verbose", "forcing",
   "out_dir", "out_vars"]

theorem yaml_plain (hm : main.keys.Nodup) {k : String} (hk : k ∉ yamlSpecial) :
    (cls.update (yamlConf env opts main fv dv sv ch cv fo od outs)).get? k = ((main.get? k).map Value.one).or (cls.get? k) := by
  rw [Dict.get?_update _ _ (yamlConf_nodup hm), yamlConf_get hm]
  simp only [yamlSpecial, List.mem_cons, List.not_mem_nil, or_false, not_or] at hk
  obtain ⟨h1, h2, h3, h4, h5, h6, h7, h8, h9, h10, h11, h12⟩ := hk
  simp only [Ne.symm h1, Ne.symm h2, Ne.symm h3, Ne.symm h4, Ne.symm h5, Ne.symm h6, Ne.symm h7, Ne.symm h8, Ne.symm h9,
    Ne.symm h10, Ne.symm h11, Ne.symm h12, if_false, false_and]
  cases main.get? k <;> rfl

theorem yaml_calendar (hm : main.keys.Nodup) : (cls.update (yamlConf env opts main fv dv sv ch cv fo od outs)).get? "calendar" =
    some (.one ((main.get? "calendar").getD (.str "standard"))) := by
  rw [Dict.get?_update _ _ (yamlConf_nodup hm), yamlConf_get hm]; rfl

theorem yaml_out_dir (hm : main.keys.Nodup) : (cls.update (yamlConf env opts main fv dv sv ch cv fo od outs)).get? "out_dir" =
    some (.one (.str (env.abspath od))) := by
  rw [Dict.get?_update _ _ (yamlConf_nodup hm), yamlConf_get hm]; rfl

theorem yaml_out_vars (hm : main.keys.Nodup) : (cls.update (yamlConf env opts main fv dv sv ch cv fo od outs)).get? "out_vars" =
    some (.outs outs) := by
  rw [Dict.get?_update _ _ (yamlConf_nodup hm), yamlConf_get hm]; rfl

theorem yaml_forcing_vars (hm : main.keys.Nodup) : (cls.update (yamlConf env opts main fv dv sv ch cv fo od outs)).get? "forcing_vars" =
    some (.names (Config.invertDict fv)) := by
  rw [Dict.get?_update _ _ (yamlConf_nodup hm), yamlConf_get hm]; rfl

theorem yaml_domain_vars (hm : main.keys.Nodup) : (cls.update (yamlConf env opts main fv dv sv ch cv fo od outs)).get? "domain_vars" =
    some (.names (Config.invertDict dv)) := by
  rw [Dict.get?_update _ _ (yamlConf_nodup hm), yamlConf_get hm]; rfl

theorem yaml_state_vars (hm : main.keys.Nodup) : (cls.update (yamlConf env opts main fv dv sv ch cv fo od outs)).get? "state_vars" =
    some (.names (Config.invertDict sv)) := by
  rw [Dict.get?_update _ _ (yamlConf_nodup hm), yamlConf_get hm]; rfl

theorem yaml_chunks (hm : main.keys.Nodup) : (cls.update (yamlConf env opts main fv dv sv ch cv fo od outs)).get? "chunks" =
    some (.nums ch) := by
  rw [Dict.get?_update _ _ (yamlConf_nodup hm), yamlConf_get hm]; rfl

theorem yaml_constants (hm : main.keys.Nodup) (hc : main.get? "constant_vars" = none) :
    (cls.update (yamlConf env opts main fv dv sv ch cv fo od outs)).get? "constant_vars" =
      (cv.map Value.nums).or (cls.get? "constant_vars") := by
  rw [Dict.get?_update _ _ (yamlConf_nodup hm), yamlConf_get hm, hc]
  cases cv <;> rfl

theorem yaml_forcing (hm : main.keys.Nodup) :
    (cls.update (yamlConf env opts main fv dv sv ch cv fo od outs)).get? "forcing" =
      ((some (forcingFiles env fo)).filter fun v => decide (v ≠ Value.files [])).or (cls.get? "forcing") := by
  rw [Dict.get?_update _ _ (yamlConf_nodup hm), yamlConf_get hm]
  rw [if_neg (by decide), if_pos rfl]
  cases (some (forcingFiles env fo)).filter fun v => decide (v ≠ Value.files []) <;> rfl

theorem ini_forcing_any {main fv dv sv ch : Dict String String} {cv : Option (Dict String String)} (hm : main.keys.Nodup) :
    (cls.update (iniConf env opts main fv dv sv ch cv fo od outs)).get? "forcing" =
      ((some (forcingFiles env fo)).filter fun v => decide (v ≠ Value.files [])).or (cls.get? "forcing") := by
  rw [Dict.get?_update _ _ (iniConf_nodup hm), iniConf_get hm]
  rw [if_neg (by decide), if_neg (by decide), if_neg (by decide), if_pos rfl]
  cases (some (forcingFiles env fo)).filter fun v => decide (v ≠ Value.files []) <;> rfl

end lookup

/-- Two dictionaries that are the same to a run. -/
structure SameUse (env : Env) (p q : Conf) : Prop where
  method : text p "method" = text q "method"
  timeStep : ConfigRead.int p "time_step" = ConfigRead.int q "time_step"
  calendar : text p "calendar" = text q "calendar"
  periodEnding : switch p "period_ending" = switch q "period_ending"
  utcOffset : switch p "utc_offset" = switch q "utc_offset"
  swAveraging : optText p "sw_averaging" = optText q "sw_averaging"
  precType : text p "prec_type" = text q "prec_type"
  lwType : text p "lw_type" = text q "lw_type"
  lwCloud : text p "lw_cloud" = text q "lw_cloud"
  thetaS : ∀ u, thetaOf p u = thetaOf q u
  floats : ∀ k ∈ floatKeys, float env p k = float env q k
  outs : outsOf p = outsOf q
  forcing : p.get "forcing" = q.get "forcing"
  forcingFmt : text p "forcing_fmt" = text q "forcing_fmt"
  domain : text p "domain" = text q "domain"
  state : text p "state" = text q "state"
  outDir : text p "out_dir" = text q "out_dir"
  outPrefix : text p "out_prefix" = text q "out_prefix"
  outPrecision : text p "out_precision" = text q "out_precision"
  outFreq : one p "out_freq" = one q "out_freq"
  start : one p "start" = one q "start"
  stop : one p "stop" = one q "stop"
  forcingVars : names p "forcing_vars" = names q "forcing_vars"
  domainVars : names p "domain_vars" = names q "domain_vars"
  stateVars : names p "state_vars" = names q "state_vars"
  chunks : chunksOf p = chunksOf q
  constants : constantsOf env p = constantsOf env q

theorem use_congr {env : Env} {attrs : Dict String String} {p q : Conf} (h : SameUse env p q) : use env attrs p = use env attrs q := by
  unfold use
  rw [h.method, h.timeStep, h.calendar, h.periodEnding, h.utcOffset, h.swAveraging, h.precType, h.lwType, h.lwCloud,
    h.floats _ (show "tmax_daylength_fraction" ∈ floatKeys by decide), h.floats _ (show "tday_coef" ∈ floatKeys by decide),
    h.floats _ (show "sw_prec_thresh" ∈ floatKeys by decide), h.floats _ (show "rain_scalar" ∈ floatKeys by decide),
    h.floats _ (show "lapse_rate" ∈ floatKeys by decide), h.floats _ (show "tdew_tol" ∈ floatKeys by decide), h.outs, h.forcing,
    h.forcingFmt, h.domain, h.state, h.outDir, h.outPrefix, h.outPrecision, h.outFreq, h.start, h.stop, h.forcingVars, h.domainVars,
    h.stateVars, h.chunks, h.constants]
  simp only [h.thetaS]

/-! ### C93 -/

/-- The parameters that are texts. -/
def textKeys : List String :=
  ["method", "calendar", "sw_averaging", "prec_type", "lw_type", "lw_cloud", "forcing", "forcing_fmt", "domain", "state", "out_dir",
   "out_prefix", "out_precision", "out_freq", "start", "stop"]

/-- The number a YAML entry shows. -/
inductive Shows : Scalar → ℚ → Prop
  | whole (n : Int) : Shows (.int n) n
  | dec (q : ℚ) : Shows (.num q) q

/-- An entry of an INI file and one of a YAML file, both missing or both there and related. -/
def Both (r : String → Scalar → Prop) : Option String → Option Scalar → Prop
  | none, none => True
  | some t, some s => r t s
  | _, _ => False

/-- A YAML file says what an INI file says. -/
structure SameConfig (env : Env) (d : IniDoc) (y : Yaml) (main : Dict String Scalar) (outs : Dict String OutSpec) : Prop where
  hmain : y.main = .dict main
  mainKeys : main.keys.Nodup
  forcingVars : y.forcingVars = .dict d.forcingVars
  domainVars : y.domainVars = .dict d.domainVars
  stateVars : y.stateVars = .dict d.stateVars
  texts : ∀ k ∈ textKeys, Both (fun t s => s = .str t) (d.main.get? k) (main.get? k)
  step : Both (fun t s => ∃ n, intText t = .ok n ∧ s = .int n) (d.main.get? "time_step") (main.get? "time_step")
  floats : ∀ k ∈ floatKeys, Both (fun t s => ∃ q : ℚ, env.float t = .ok (q : ℝ) ∧ Shows s q) (d.main.get? k) (main.get? k)
  switches : ∀ k ∈ ["utc_offset", "period_ending"],
    Both (fun t s => ∃ b, s = .bool b ∧ (b = true ↔ lower (strip t.toList) = "true".toList)) (d.main.get? k) (main.get? k)
  theta : d.main.get? "theta_s" = none ∧ main.get? "theta_s" = none
  apart : main.get? "constant_vars" = none
  chunks : ∃ c, y.chunks = .dict c ∧ List.Forall₂ (fun a b => a.1 = b.1 ∧ ∃ n, intText a.2 = .ok n ∧ b.2 = .int n) d.chunks c
  constants : (d.constants = none ∧ y.constantVars = .absent) ∨ ∃ a b, d.constants = some a ∧ y.constantVars = .dict b ∧
    List.Forall₂ (fun a b => a.1 = b.1 ∧ ∃ q : ℚ, env.float a.2 = .ok (q : ℝ) ∧ Shows b.2 q) a b
  /-- what must be given -/
  forcing : ∃ t, d.main.get? "forcing" = some t
  forcingFmt : ∃ t, d.main.get? "forcing_fmt" = some t
  outDir : ∃ t, d.main.get? "out_dir" = some t
  houts : y.outVars = .dict outs
  outputs : ∃ list, listed d.main = .ok list ∧ outs.keys = list.getD [] ++ (d.outVars.getD []).keys ∧ outs.keys.Nodup ∧
    (∀ v ∈ outs.keys, v ∈ Units.importAttrs.keys) ∧
    ∀ q ∈ outs, q.2.name = some (((d.outVars.getD []).get? q.1).getD q.1) ∧ (q.2.units = none ∨ q.2.units = Units.availableUnits.get? q.1)

theorem ofItems_nodup {α : Type} (f : String → α) (vars : List String) (h : vars.Nodup) :
    Dict.ofItems (vars.map fun v => (v, f v)) = vars.map fun v => (v, f v) := by
  have gen : ∀ (vars : List String) (acc : Dict String α), vars.Nodup → (∀ v ∈ vars, v ∉ acc.keys) →
      Dict.update acc (vars.map fun v => (v, f v)) = acc ++ vars.map fun v => (v, f v) := by
    intro vars
    induction vars with
    | nil => intro acc _ _; simp [Dict.update_nil]
    | cons v vars ih =>
      intro acc hnd hacc
      rw [List.nodup_cons] at hnd
      rw [List.map_cons, Dict.update_cons]
      have hset : acc.set v (f v) = acc ++ [(v, f v)] := by
        have : ∀ d : Dict String α, v ∉ d.keys → d.set v (f v) = d ++ [(v, f v)] := by
          intro d
          induction d with
          | nil => intro _; rfl
          | cons p d ih =>
            intro hd
            simp only [Dict.keys, List.map_cons, List.mem_cons, not_or] at hd
            show (if p.1 = v then _ else p :: Dict.set d v (f v)) = _
            rw [if_neg (Ne.symm hd.1), ih hd.2]
            rfl
        exact this acc (hacc v (by simp))
      rw [show (v, f v).2 = f v from rfl, show (v, f v).1 = v from rfl, hset, ih _ hnd.2]
      · simp
      · intro w hw hk
        simp only [Dict.keys, List.map_append, List.map_cons, List.map_nil, List.mem_append, List.mem_singleton] at hk
        rcases hk with hk | rfl
        · exact hacc w (by simp [hw]) hk
        · exact hnd.1 hw
  have := gen vars [] h (by simp [Dict.keys])
  simpa [Dict.ofItems] using this

/-- The output variables of the YAML file, completed, are those of the INI file. -/
theorem outputs_same {d : IniDoc} {list : Option (List String)} {outs : Dict String OutSpec} {avail : Dict String String}
    (hsec : (d.outVars.getD []).keys.Nodup)
    (hr : Params.readIniOut Params.importNames ⟨list, d.outVars.getD []⟩ = .ok (avail, list.getD [] ++ (d.outVars.getD []).keys))
    (hk : outs.keys = list.getD [] ++ (d.outVars.getD []).keys) (hnd : outs.keys.Nodup) (hin : ∀ v ∈ outs.keys, v ∈ Units.importAttrs.keys)
    (hq : ∀ q ∈ outs, q.2.name = some (((d.outVars.getD []).get? q.1).getD q.1) ∧
      (q.2.units = none ∨ q.2.units = Units.availableUnits.get? q.1)) :
    withUnits outs = .ok (outSpecs avail (list.getD [] ++ (d.outVars.getD []).keys)) := by
  obtain ⟨r1, -, -⟩ := readIniOut_get _ _ _ _ hsec hr
  unfold outSpecs
  rw [← hk, ofItems_nodup _ _ hnd]
  have key : ∀ q ∈ outs, q.1 ∈ Units.importAttrs.keys := fun q h => hin q.1 (List.mem_map_of_mem h)
  unfold withUnits Dict.keys
  rw [List.map_map]
  apply mapM_ok_map
  intro q hqm
  obtain ⟨h1, h2⟩ := hq q hqm
  have hu : ∃ u, Units.availableUnits.get? q.1 = some u := by
    have : ∀ v ∈ Units.importAttrs.keys, (Units.availableUnits.get? v).isSome := by decide +kernel
    exact Option.isSome_iff_exists.1 (this q.1 (key q hqm))
  obtain ⟨u, hu⟩ := hu
  have hname : avail.get? q.1 = q.2.name := by
    have : ∀ v ∈ Units.importAttrs.keys, Params.importNames.get? v = some v := by decide +kernel
    have h3 := r1 q.1
    rw [this q.1 (key q hqm)] at h3
    rw [h3, h1]
    cases (d.outVars.getD []).get? q.1 <;> rfl
  obtain ⟨k, ⟨nm, un⟩⟩ := q
  simp only [Function.comp] at *
  rw [hname, hu]
  cases un with
  | none =>
    show (Units.availableUnits.get k >>= _) = _
    rw [Dict.get_ok.2 hu]
    rfl
  | some u' =>
    rcases h2 with h2 | h2
    · cases h2
    · rw [hu] at h2
      cases h2
      rfl

theorem agree_text {a : Option String} {b : Option Scalar} (h : Both (fun t s => s = .str t) a b) : b = a.map Scalar.str := by
  cases a <;> cases b <;> simp_all [Both]

theorem get?_middle {α : Type} (l1 l2 : Dict String α) {k k' : String} (v w : α) (hk : k ≠ k') :
    Dict.get? (l1 ++ (k', v) :: l2) k = Dict.get? (l1 ++ (k', w) :: l2) k := by
  induction l1 with
  | nil =>
    rw [List.nil_append, List.nil_append, Dict.get?_cons, Dict.get?_cons, if_neg (show k' ≠ k from Ne.symm hk),
      if_neg (show k' ≠ k from Ne.symm hk)]
  | cons p l1 ih => rw [List.cons_append, List.cons_append, Dict.get?_cons, Dict.get?_cons, ih]

/-- The class defaults depend on the names of the outputs only in the outputs. -/
theorem class_get (a b : Dict String String) {k : String} (hk : k ≠ "out_vars") : (classParams a).get? k = (classParams b).get? k := by
  have e : ∀ a, classParams a = (classParams []).take 24 ++ ("out_vars", Value.outs (outSpecs a Units.defaultOutputs)) ::
      (classParams []).drop 25 := fun a => rfl
  rw [e a, e b]
  exact get?_middle _ _ _ _ hk

theorem chunks_same {a : Dict String String} {b : Dict String Scalar}
    (h : List.Forall₂ (fun a b => a.1 = b.1 ∧ ∃ n, intText a.2 = .ok n ∧ b.2 = .int n) a b) :
    (b.mapM fun q => do
      let n ← Scalar.toInt q.2
      pure (q.1, n)) = ((strs a).mapM fun q => do
      let n ← Scalar.toInt q.2
      pure (q.1, n) : Except PyErr _) := by
  induction h with
  | nil => rfl
  | @cons a b as bs h1 _ ih =>
    obtain ⟨e1, n, e2, e3⟩ := h1
    have e4 : Scalar.toInt (.str a.2) = .ok n := e2
    show List.mapM _ (b :: bs) = List.mapM _ ((a.1, .str a.2) :: strs as)
    rw [List.mapM_cons, List.mapM_cons, ih, e3, ← e1]
    simp only [e4]
    rfl

theorem constants_same {env : Env} {a : Dict String String} {b : Dict String Scalar}
    (h : List.Forall₂ (fun a b => a.1 = b.1 ∧ ∃ q : ℚ, env.float a.2 = .ok (q : ℝ) ∧ Shows b.2 q) a b) :
    (b.mapM fun q => do
      let x ← Scalar.toFloat env q.2
      pure (q.1, x)) = ((strs a).mapM fun q => do
      let x ← Scalar.toFloat env q.2
      pure (q.1, x) : Except PyErr _) := by
  induction h with
  | nil => rfl
  | @cons a b as bs h1 _ ih =>
    obtain ⟨e1, q, e2, e3⟩ := h1
    have e4 : Scalar.toFloat env (.str a.2) = .ok (q : ℝ) := e2
    have e5 : Scalar.toFloat env b.2 = .ok (q : ℝ) := by
      cases hb : b.2 <;> rw [hb] at e3 <;> cases e3
      · simp [Scalar.toFloat]
      · rfl
    show List.mapM _ (b :: bs) = List.mapM _ ((a.1, .str a.2) :: strs as)
    rw [List.mapM_cons, List.mapM_cons, ih, ← e1]
    simp only [e4, e5]

set_option maxHeartbeats 1000000 in
/-- **C93, without binary forcing**: the two files mean the same run (or the same failure). -/
theorem C93_same_run_partial {env : Env} {opts : Opts} {f : Ini.File} {d : IniDoc} (hd : d.Of env f) {y : Yaml}
    {main : Dict String Scalar} {outs : Dict String OutSpec} (h : SameConfig env d y main outs)
    (hb : d.main.get? "forcing_fmt" ≠ some "binary") : fromYaml env opts y = fromIni env opts f := by
  obtain ⟨fmt, hfmt⟩ := h.forcingFmt
  obtain ⟨od, hod⟩ := h.outDir
  obtain ⟨fo, hfo⟩ := h.forcing
  obtain ⟨list, hlist, hk, hnd, hin, hq⟩ := h.outputs
  obtain ⟨avail, hout⟩ := readIniOut_total list (d.outVars.getD []) (by
    intro v hv
    exact hin v (by rw [hk]; exact List.mem_append.2 hv))
  have hcomp := outputs_same hd.outKeys hout hk hnd hin hq
  have hm := hd.mainKeys
  have hbin : fmt ≠ "binary" := by
    rintro rfl
    exact hb hfmt
  have hread : readIni env opts Params.importNames f = .ok (iniConf env opts d.main
      (Config.invertDict d.forcingVars) d.domainVars d.stateVars d.chunks d.constants fo od
      (outSpecs avail (list.getD [] ++ (d.outVars.getD []).keys)), avail) := by
    unfold readIni
    simp only [bind_ok, pure_ok, hd.main, hd.forcingVars, hd.domainVars, hd.stateVars, hd.chunks, hd.constants, hd.outVars,
      Except.ok.injEq, Dict.get_ok]
    refine ⟨_, rfl, _, rfl, fmt, hfmt, _, rfl, _, rfl, _, rfl, _, rfl, fo, hfo, od, hod, list, hlist, _, rfl, _, hout, ?_⟩
    rw [if_pos hbin]
  obtain ⟨c, hc, hcs⟩ := h.chunks
  obtain ⟨cv, hcv, hcvs⟩ : ∃ cv, y.constantVars.optional = .ok cv ∧ ((d.constants = none ∧ cv = none) ∨ ∃ a b, d.constants = some a ∧
      cv = some b ∧ List.Forall₂ (fun a b => a.1 = b.1 ∧ ∃ q : ℚ, env.float a.2 = .ok (q : ℝ) ∧ Shows b.2 q) a b) := by
    rcases h.constants with ⟨h1, h2⟩ | ⟨a, b, h1, h2, h3⟩
    · exact ⟨none, by rw [h2]; rfl, .inl ⟨h1, rfl⟩⟩
    · exact ⟨some b, by rw [h2]; rfl, .inr ⟨a, b, h1, rfl, h3⟩⟩
  have ymain : ∀ k ∈ textKeys, main.get? k = (d.main.get? k).map Scalar.str := fun k hk => agree_text (h.texts k hk)
  have hready : readYaml env opts y = .ok (yamlConf env opts main d.forcingVars d.domainVars d.stateVars c cv fo od
      (outSpecs avail (list.getD [] ++ (d.outVars.getD []).keys))) := by
    unfold readYaml
    rw [h.hmain, h.forcingVars, h.domainVars, h.stateVars, h.houts, hc]
    simp only [bind_ok, pure_ok, Dict.get_ok]
    refine ⟨_, rfl, _, rfl, _, rfl, _, rfl, _, rfl, _, hcomp, _, rfl, _, hcv, .str fo, ?_, _, rfl, .str od, ?_, _, rfl, rfl⟩
    · rw [ymain _ (by decide), hfo]; rfl
    · rw [ymain _ (by decide), hod]; rfl
  unfold fromYaml fromIni
  rw [hready, hread]
  show use env Units.importAttrs ((classParams Params.importNames).update _) = use env Units.importAttrs ((classParams avail).update _)
  apply use_congr
  have hym := h.mainKeys
  have txt : ∀ k, k ∈ textKeys → k ∉ special → k ∉ yamlSpecial →
      ((classParams Params.importNames).update (yamlConf env opts main d.forcingVars d.domainVars d.stateVars c cv fo od
        (outSpecs avail (list.getD [] ++ (d.outVars.getD []).keys)))).get? k =
      ((classParams avail).update (iniConf env opts d.main (Config.invertDict d.forcingVars) d.domainVars d.stateVars d.chunks
        d.constants fo od (outSpecs avail (list.getD [] ++ (d.outVars.getD []).keys)))).get? k := by
    intro k h1 h2 h3
    rw [ini_plain hm h2, yaml_plain hym h3, ymain k h1, class_get Params.importNames avail (show k ≠ "out_vars" by rintro rfl; exact h2 (by decide))]
    cases d.main.get? k <;> rfl
  have htext : ∀ k, k ∈ textKeys → k ∉ special → k ∉ yamlSpecial →
      text ((classParams Params.importNames).update (yamlConf env opts main d.forcingVars d.domainVars d.stateVars c cv fo od
        (outSpecs avail (list.getD [] ++ (d.outVars.getD []).keys)))) k =
      text ((classParams avail).update (iniConf env opts d.main (Config.invertDict d.forcingVars) d.domainVars d.stateVars d.chunks
        d.constants fo od (outSpecs avail (list.getD [] ++ (d.outVars.getD []).keys)))) k := by
    intro k h1 h2 h3
    unfold text one
    rw [txt k h1 h2 h3]
  have hone : ∀ k, k ∈ textKeys → k ∉ special → k ∉ yamlSpecial →
      one ((classParams Params.importNames).update (yamlConf env opts main d.forcingVars d.domainVars d.stateVars c cv fo od
        (outSpecs avail (list.getD [] ++ (d.outVars.getD []).keys)))) k =
      one ((classParams avail).update (iniConf env opts d.main (Config.invertDict d.forcingVars) d.domainVars d.stateVars d.chunks
        d.constants fo od (outSpecs avail (list.getD [] ++ (d.outVars.getD []).keys)))) k := by
    intro k h1 h2 h3
    unfold one
    rw [txt k h1 h2 h3]
  have hsw : ∀ k, k ∈ ["utc_offset", "period_ending"] →
      switch ((classParams Params.importNames).update (yamlConf env opts main d.forcingVars d.domainVars d.stateVars c cv fo od
        (outSpecs avail (list.getD [] ++ (d.outVars.getD []).keys)))) k =
      .ok (Config.iniBool ((d.main.get? k).map String.toList)) := by
    intro k hk
    have hb := h.switches k hk
    have hns : k ∉ yamlSpecial := by
      simp only [List.mem_cons, List.not_mem_nil, or_false] at hk
      rcases hk with rfl | rfl <;> decide
    have hcl : (classParams Params.importNames).get? k = some (.one (.bool false)) := by
      simp only [List.mem_cons, List.not_mem_nil, or_false] at hk
      rcases hk with rfl | rfl <;> rfl
    unfold switch one
    rw [yaml_plain hym hns, hcl]
    unfold Both at hb
    cases h1 : d.main.get? k with
    | none =>
      rw [h1] at hb
      cases h2 : main.get? k with
      | none => rfl
      | some s => rw [h2] at hb; exact hb.elim
    | some t =>
      rw [h1] at hb
      cases h2 : main.get? k with
      | none => rw [h2] at hb; exact hb.elim
      | some s =>
        rw [h2] at hb
        obtain ⟨b, rfl, hb⟩ := hb
        show Except.ok b = Except.ok (if lower (strip t.toList) = "true".toList then true else false)
        by_cases hl : lower (strip t.toList) = "true".toList
        · rw [if_pos hl, hb.2 hl]
        · rw [if_neg hl]
          cases b with
          | false => rfl
          | true => exact absurd (hb.1 rfl) hl
  refine ⟨htext _ (by decide) (by decide) (by decide), ?_, ?_, ?_, ?_, ?_, ?_, htext _ (by decide) (by decide) (by decide),
    htext _ (by decide) (by decide) (by decide), ?_, ?_, ?_, ?_, htext _ (by decide) (by decide) (by decide),
    htext _ (by decide) (by decide) (by decide), htext _ (by decide) (by decide) (by decide), ?_,
    htext _ (by decide) (by decide) (by decide), htext _ (by decide) (by decide) (by decide),
    hone _ (by decide) (by decide) (by decide), hone _ (by decide) (by decide) (by decide),
    hone _ (by decide) (by decide) (by decide), ?_, ?_, ?_, ?_, ?_⟩
  · -- the step
    unfold ConfigRead.int one
    rw [ini_plain hm (by decide), yaml_plain hym (by decide)]
    have hb := h.step
    unfold Both at hb
    cases h1 : d.main.get? "time_step" with
    | none =>
      rw [h1] at hb
      cases h2 : main.get? "time_step" with
      | none => rfl
      | some s => rw [h2] at hb; exact hb.elim
    | some t =>
      rw [h1] at hb
      cases h2 : main.get? "time_step" with
      | none => rw [h2] at hb; exact hb.elim
      | some s =>
        rw [h2] at hb
        obtain ⟨n, hn, rfl⟩ := hb
        exact hn.symm
  · unfold text one
    rw [ini_calendar hm, yaml_calendar hym, ymain _ (by decide)]
    cases d.main.get? "calendar" <;> rfl
  · rw [hsw _ (by decide)]
    unfold switch one
    rw [ini_period_ending hm]
    rfl
  · rw [hsw _ (by decide)]
    unfold switch one
    rw [ini_utc_offset hm]
    rfl
  · unfold optText
    rw [txt _ (by decide) (by decide) (by decide)]
  · unfold text one
    rw [ini_prec_type hm, yaml_plain hym (by decide), ymain _ (by decide)]
    cases d.main.get? "prec_type" <;> rfl
  · intro u
    unfold thetaOf
    rw [ini_plain hm (by decide), yaml_plain hym (by decide), h.theta.1, h.theta.2]
    rfl
  · intro k hk
    have hb := h.floats k hk
    have n1 : k ∉ yamlSpecial := (show ∀ k ∈ floatKeys, k ∉ yamlSpecial by decide) k hk
    have n2 : k ∉ special := (show ∀ k ∈ floatKeys, k ∉ special by decide) k hk
    unfold float one
    rw [ini_plain hm n2, yaml_plain hym n1, class_get Params.importNames avail (show k ≠ "out_vars" by rintro rfl; exact n2 (by decide))]
    unfold Both at hb
    cases h1 : d.main.get? k with
    | none =>
      rw [h1] at hb
      cases h2 : main.get? k with
      | none => rfl
      | some s => rw [h2] at hb; exact hb.elim
    | some t =>
      rw [h1] at hb
      cases h2 : main.get? k with
      | none => rw [h2] at hb; exact hb.elim
      | some s =>
        rw [h2] at hb
        obtain ⟨q, hq, hs⟩ := hb
        show s.toFloat env = env.float t
        rw [hq]
        cases hs with
        | whole n => simp [Scalar.toFloat]
        | dec q => rfl
  · unfold outsOf
    rw [ini_out_vars hm, yaml_out_vars hym]
  · unfold Dict.get
    rw [ini_forcing_any hm, yaml_forcing hym]
    rfl
  · unfold text one
    rw [ini_out_dir hm, yaml_out_dir hym]
  · unfold names
    rw [ini_forcing_vars hm, yaml_forcing_vars hym]
  · unfold names
    rw [ini_domain_vars hm, yaml_domain_vars hym]
  · unfold names
    rw [ini_state_vars hm, yaml_state_vars hym]
  · unfold chunksOf
    rw [ini_chunks hm, yaml_chunks hym]
    exact chunks_same hcs
  · unfold constantsOf
    rw [ini_constants hm hd.apart, yaml_constants hym h.apart]
    rcases hcvs with ⟨h1, h2⟩ | ⟨a, b, h1, h2, h3⟩
    · rw [h1, h2]; rfl
    · rw [h1, h2]
      exact constants_same h3

/-- What a YAML file must have, and where some parameters come from. -/
theorem fromYaml_ok {env : Env} {opts : Opts} {y : Yaml} {s : Setup} (h : fromYaml env opts y = .ok s) :
    ∃ main fv dv sv ov outs ch cv fo od, y.main = .dict main ∧ y.forcingVars = .dict fv ∧ y.domainVars = .dict dv ∧
      y.stateVars = .dict sv ∧ y.outVars = .dict ov ∧ withUnits ov = .ok outs ∧ y.chunks = .dict ch ∧ y.constantVars.optional = .ok cv ∧
      main.get? "forcing" = some (.str fo) ∧ main.get? "out_dir" = some (.str od) ∧
      UseFacts env Units.importAttrs ((classParams Params.importNames).update (yamlConf env opts main fv dv sv ch cv fo od outs)) s := by
  unfold fromYaml readYaml at h
  simp only [bind_ok, pure_ok, Dict.get_ok] at h
  obtain ⟨conf, ⟨main, h1, fv, h2, dv, h3, sv, h4, ov, h5, outs, h6, ch, h7, cv, h8, fo, h9, fo', h10, od, h11, od', h12, rfl⟩, h13⟩ := h
  have part : ∀ {α : Type} {p : ConfigRead.Part α} {d : Dict String α}, p.get = .ok d → p = .dict d := by
    intro α p d hp
    cases p with
    | absent => cases hp
    | empty => cases hp
    | dict d' => rw [Except.ok.inj hp]
  have path : ∀ {a : Scalar} {t : String}, a.path = .ok t → a = .str t := by
    intro a t ha
    cases a <;> first | cases ha; done | (rw [Except.ok.inj ha])
  refine ⟨main, fv, dv, sv, ov, outs, ch, cv, fo', od', part h1, part h2, part h3, part h4, part h5, h6, part h7, h8, ?_, ?_, use_iff.1 h13⟩
  · rw [h9, path h10]
  · rw [h11, path h12]

/-- A YAML file that leaves a section without entries (`chunks:` and nothing below) is refused; so is one without the section. -/
theorem C93_bare_section {env : Env} {opts : Opts} {y : Yaml} {s : Setup} (h : fromYaml env opts y = .ok s) :
    (∃ d, y.main = .dict d) ∧ (∃ d, y.forcingVars = .dict d) ∧ (∃ d, y.domainVars = .dict d) ∧ (∃ d, y.stateVars = .dict d) ∧
      (∃ d, y.outVars = .dict d) ∧ (∃ d, y.chunks = .dict d) ∧ y.constantVars ≠ .empty := by
  obtain ⟨main, fv, dv, sv, ov, outs, ch, cv, fo, od, h1, h2, h3, h4, h5, -, h7, h8, -⟩ := fromYaml_ok h
  refine ⟨⟨_, h1⟩, ⟨_, h2⟩, ⟨_, h3⟩, ⟨_, h4⟩, ⟨_, h5⟩, ⟨_, h7⟩, ?_⟩
  intro hc
  rw [hc] at h8
  cases h8

/-- The variable names of a YAML file are turned round whatever the format of the forcing. -/
theorem C93_yaml_forcing_vars {env : Env} {opts : Opts} {y : Yaml} {s : Setup} {main : Dict String Scalar} {fv : Dict String String}
    (hm : y.main = .dict main) (hk : main.keys.Nodup) (hf : y.forcingVars = .dict fv) (h : fromYaml env opts y = .ok s) :
    s.forcingVars = some (Config.invertDict fv) := by
  obtain ⟨main', fv', dv, sv, ov, outs, ch, cv, fo, od, h1, h2, -, -, -, -, -, -, -, -, u⟩ := fromYaml_ok h
  rw [hm] at h1; rw [hf] at h2
  cases h1; cases h2
  have := u.forcingVars
  unfold names at this
  rw [yaml_forcing_vars hk] at this
  exact (Except.ok.inj this).symm

/-- A quoted switch is on whatever it says. -/
theorem C93_quoted_switch {env : Env} {opts : Opts} {y : Yaml} {s : Setup} {main : Dict String Scalar} {t : String}
    (hm : y.main = .dict main) (hk : main.keys.Nodup) (h : fromYaml env opts y = .ok s) (ht : t ≠ "") :
    (main.get? "utc_offset" = some (.str t) → s.shared.utcOffset = true) ∧
      (main.get? "period_ending" = some (.str t) → s.shared.periodEnding = true) := by
  obtain ⟨main', fv', dv, sv, ov, outs, ch, cv, fo, od, h1, -, -, -, -, -, -, -, -, -, u⟩ := fromYaml_ok h
  rw [hm] at h1
  cases h1
  constructor
  · intro hu
    have := u.utcOffset
    unfold switch one at this
    rw [yaml_plain hk (by decide), hu] at this
    rw [← Except.ok.inj this]
    simp [Scalar.truth, ht]
  · intro hu
    have := u.periodEnding
    unfold switch one at this
    rw [yaml_plain hk (by decide), hu] at this
    rw [← Except.ok.inj this]
    simp [Scalar.truth, ht]

/-- A number is taken for no name: the method, the parameterisations and the paths of the domain and of the state are texts, and used as they
stand. -/
theorem C93_texts {env : Env} {opts : Opts} {y : Yaml} {s : Setup} {main : Dict String Scalar}
    (hm : y.main = .dict main) (hk : main.keys.Nodup) (h : fromYaml env opts y = .ok s) :
    (∀ x, main.get? "method" = some x → ∃ m, x = .str m ∧ methodOf m = .ok s.shared.method) ∧
      (∀ x, main.get? "prec_type" = some x → x = .str s.shared.precType) ∧ (∀ x, main.get? "lw_type" = some x → x = .str s.shared.lwType) ∧
      (∀ x, main.get? "lw_cloud" = some x → x = .str s.shared.lwCloud) ∧ (∀ x, main.get? "domain" = some x → x = .str s.domain) ∧
      (∀ x, main.get? "state" = some x → x = .str s.state) := by
  obtain ⟨main', fv', dv, sv, ov, outs, ch, cv, fo, od, h1, -, -, -, -, -, -, -, -, -, u⟩ := fromYaml_ok h
  rw [hm] at h1
  cases h1
  have key : ∀ k r x, k ∉ yamlSpecial → text ((classParams Params.importNames).update (yamlConf env opts main fv' dv sv ch cv fo od outs)) k = .ok r →
      main.get? k = some x → x = .str r := by
    intro k r x hs ht hx
    unfold text one at ht
    rw [yaml_plain hk hs, hx] at ht
    change Scalar.text x = .ok r at ht
    unfold Scalar.text at ht
    split at ht
    · rw [Except.ok.inj ht]
    · cases ht
  obtain ⟨m, m1, m2⟩ := u.method
  exact ⟨fun x hx => ⟨m, key _ _ x (by decide) m1 hx, m2⟩, fun x => key _ _ x (by decide) u.precType, fun x => key _ _ x (by decide) u.lwType,
    fun x => key _ _ x (by decide) u.lwCloud, fun x => key _ _ x (by decide) u.domain, fun x => key _ _ x (by decide) u.state⟩

/-- The claim without a restriction. -/
def C93_full : Prop := ∀ (env : Env) (opts : Opts) (f : Ini.File) (d : IniDoc), d.Of env f → ∀ (y : Yaml) (main : Dict String Scalar)
  (outs : Dict String OutSpec), SameConfig env d y main outs → fromYaml env opts y = fromIni env opts f

namespace BinaryExample

/-- A small file. -/
def file (fmt : Str) : Ini.File := ⟨[("MetSim".toList, [("forcing".toList, "f".toList), ("forcing_fmt".toList, fmt),
  ("out_dir".toList, "o".toList)]), ("forcing_vars".toList, [("prec".toList, "40.0 unsigned".toList)]), ("domain_vars".toList, []),
  ("state_vars".toList, []), ("chunks".toList, [])]⟩

def d (fmt : Str) : IniDoc where
  main := [("forcing", "f"), ("forcing_fmt", String.ofList fmt), ("out_dir", "o")]
  forcingVars := [("prec", "40.0 unsigned")]
  domainVars := []
  stateVars := []
  chunks := []
  constants := none
  outVars := none

noncomputable def env : Env where
  walk _ := none
  join a b := a ++ "/" ++ b
  abspath s := s
  interp s := .ok s
  float _ := .error .valueError

def main (fmt : Str) : Dict String Scalar := [("forcing", .str "f"), ("forcing_fmt", .str (String.ofList fmt)), ("out_dir", .str "o")]

def yaml (fmt : Str) : Yaml where
  main := .dict (main fmt)
  forcingVars := .dict [("prec", "40.0 unsigned")]
  domainVars := .dict []
  stateVars := .dict []
  outVars := .dict []
  chunks := .dict []
  constantVars := .absent

theorem of (fmt : Str) : (d fmt).Of env (file fmt) where
  main := by rfl
  forcingVars := by rfl
  domainVars := by rfl
  stateVars := by rfl
  chunks := by rfl
  constants := by rfl
  outVars := by rfl
  mainKeys := show ["forcing", "forcing_fmt", "out_dir"].Nodup by decide
  outKeys := show ([] : List String).Nodup by decide
  apart := by rfl

theorem same (fmt : Str) : SameConfig env (d fmt) (yaml fmt) (main fmt) [] where
  hmain := rfl
  mainKeys := show ["forcing", "forcing_fmt", "out_dir"].Nodup by decide
  forcingVars := rfl
  domainVars := rfl
  stateVars := rfl
  texts := by
    intro k hk
    simp only [textKeys, List.mem_cons, List.not_mem_nil, or_false] at hk
    rcases hk with rfl | rfl | rfl | rfl | rfl | rfl | rfl | rfl | rfl | rfl | rfl | rfl | rfl | rfl | rfl | rfl <;>
      first | exact trivial | exact rfl
  step := trivial
  floats := by
    intro k hk
    simp only [floatKeys, List.mem_cons, List.not_mem_nil, or_false] at hk
    rcases hk with rfl | rfl | rfl | rfl | rfl | rfl <;> exact trivial
  switches := by
    intro k hk
    simp only [List.mem_cons, List.not_mem_nil, or_false] at hk
    rcases hk with rfl | rfl <;> exact trivial
  theta := ⟨rfl, rfl⟩
  apart := rfl
  chunks := ⟨[], rfl, .nil⟩
  constants := .inl ⟨rfl, rfl⟩
  forcing := ⟨_, rfl⟩
  forcingFmt := ⟨_, rfl⟩
  outDir := ⟨_, rfl⟩
  houts := rfl
  outputs := ⟨none, rfl, rfl, by decide, by decide, by simp⟩

theorem accepted (fmt : Str) : Acceptable env (d fmt) where
  fmt := ⟨_, rfl⟩
  outDir := ⟨_, rfl⟩
  forcing := ⟨_, rfl, by simp [env]⟩
  timeStep t ht := by cases ht
  method t ht := by cases ht
  floats k hk t ht := by
    simp only [floatKeys, List.mem_cons, List.not_mem_nil, or_false] at hk
    rcases hk with rfl | rfl | rfl | rfl | rfl | rfl <;> cases ht
  theta t ht := by cases ht
  chunks p hp := by cases hp
  constants p hp := by cases hp
  outputs := ⟨none, rfl, by simp [d, Dict.keys]⟩

/-- With NetCDF forcing both are accepted and mean the same. -/
example (opts : Opts) : ∃ s, fromIni env opts (file "netcdf".toList) = .ok s ∧ fromYaml env opts (yaml "netcdf".toList) = .ok s := by
  obtain ⟨s, hs⟩ := (C92_accepted (opts := opts) (of "netcdf".toList)).2 (accepted _)
  refine ⟨s, hs, ?_⟩
  rw [C93_same_run_partial (of "netcdf".toList) (same _) (by decide +kernel), hs]

end BinaryExample

open BinaryExample in
/-- **C93 fails for binary forcing**: the scale and type of each variable are lost in a YAML file. -/
theorem C93_refuted : ¬ C93_full := by
  intro hfull
  let opts : Opts := ⟨"threading", 1, false⟩
  obtain ⟨s, hs⟩ := (C92_accepted (opts := opts) (of "binary".toList)).2 (accepted _)
  have hy := hfull env opts _ _ (of "binary".toList) _ _ [] (same _)
  rw [hs] at hy
  have h1 := C93_yaml_forcing_vars (y := yaml "binary".toList) (main := main "binary".toList) rfl (by decide +kernel) rfl hy
  obtain ⟨-, -, h2, -⟩ := C92_sections (of _) hs
  have hfm := (C92_parameters (of _) hs).2.2.2.2.2.2.2.2.2.2.2.2.2.2.2.2.2.2.2.2.2.1
  have hb : s.forcingFmt = "binary" := by
    have : (d "binary".toList).main.get? "forcing_fmt" = some "binary" := by decide +kernel
    rw [this] at hfm
    exact (Option.some.inj hfm).symm
  rw [h1, if_pos hb] at h2
  revert h2
  decide +kernel

end Verif.Props
