import Verif.Props.ConfigRead

/-!
# C92: which INI files are accepted, and from the text of the file
-/

namespace Verif.Props

open Txt ConfigRead

/-- The parameters that are numbers. -/
def floatKeys : List String := ["tmax_daylength_fraction", "tday_coef", "sw_prec_thresh", "rain_scalar", "lapse_rate", "tdew_tol"]

/-- What a file must contain for a run to get past its parameters. -/
structure Acceptable (env : Env) (d : IniDoc) : Prop where
  fmt : ∃ t, d.main.get? "forcing_fmt" = some t
  outDir : ∃ t, d.main.get? "out_dir" = some t
  forcing : ∃ t, d.main.get? "forcing" = some t ∧ env.walk t ≠ some []
  timeStep : ∀ t, d.main.get? "time_step" = some t → ∃ n, intText t = .ok n
  method : ∀ t, d.main.get? "method" = some t → t = "mtclim" ∨ t = "passthrough"
  floats : ∀ k ∈ floatKeys, ∀ t, d.main.get? k = some t → ∃ x, env.float t = .ok x
  theta : ∀ t, d.main.get? "theta_s" = some t → ¬ ∃ u, d.main.get? "utc_offset" = some u ∧ lower (strip u.toList) = "true".toList
  chunks : ∀ p ∈ d.chunks, ∃ n, intText p.2 = .ok n
  constants : ∀ p ∈ d.constants.getD [], ∃ x, env.float p.2 = .ok x
  outputs : ∃ list, listed d.main = .ok list ∧ ∀ v, v ∈ list.getD [] ∨ v ∈ (d.outVars.getD []).keys → v ∈ Units.importAttrs.keys

theorem acceptable_of_ok {env : Env} {opts : Opts} {f : Ini.File} {d : IniDoc} (hd : d.Of env f) {s : Setup}
    (hs : fromIni env opts f = .ok s) : Acceptable env d := by
  obtain ⟨p1, -, p3, -, -, -, -, -, q1, q2, q3, q4, q5, q6, -, -, -, -, -, -, -, r1, r2, -⟩ := C92_parameters hd hs
  obtain ⟨⟨od, c1, -⟩, ⟨fo, c2, c3⟩, -, -, -, c4, c5⟩ := C92_sections hd hs
  obtain ⟨list, o1, -, -, o2, -⟩ := C92_outputs hd hs
  have conv : ∀ {α : Type} {o : Option String} {dflt : α} {cv : String → Except PyErr α} {x : α}, Given o dflt cv x →
      ∀ t, o = some t → ∃ x, cv t = .ok x := by
    intro α o dflt cv x h t ht
    subst ht
    exact ⟨x, h⟩
  refine ⟨⟨_, r1⟩, ⟨od, c1⟩, ⟨fo, c2, ?_⟩, conv p1, ?_, ?_, ?_, ?_, ?_, ⟨list, o1, o2⟩⟩
  · rcases c3 with ⟨h, -⟩ | ⟨fs, h, hne, -⟩
    · rw [h]; simp
    · rw [h]; simpa using hne
  · intro t ht
    obtain ⟨m, hm⟩ := conv p3 t ht
    unfold methodOf at hm
    by_cases h1 : t = "mtclim"
    · exact .inl h1
    · rw [if_neg h1] at hm
      by_cases h2 : t = "passthrough"
      · exact .inr h2
      · rw [if_neg h2] at hm; cases hm
  · intro k hk
    simp only [floatKeys, List.mem_cons, List.not_mem_nil, or_false] at hk
    rcases hk with rfl | rfl | rfl | rfl | rfl | rfl
    · exact conv q1
    · exact conv q2
    · exact conv q3
    · exact conv q4
    · exact conv q5
    · exact conv q6
  · intro t ht hu
    have hutc := r2.2 hu
    obtain ⟨fmt, fo', od', list', avail, vars, -, -, -, -, -, u⟩ := fromIni_ok hd hs
    have := u.thetaS
    unfold thetaOf at this
    rw [ini_plain hd.mainKeys (by decide), ht, hutc] at this
    cases this
  · intro p hp
    have : ∀ {a : Dict String String} {b : Dict String Int}, List.Forall₂ (fun a b => a.1 = b.1 ∧ intText a.2 = .ok b.2) a b → p ∈ a →
        ∃ n, intText p.2 = .ok n := by
      intro a b h hp
      induction h with
      | nil => cases hp
      | @cons x y _ _ h1 _ ih =>
        rcases List.mem_cons.1 hp with rfl | hp
        · exact ⟨_, h1.2⟩
        · exact ih hp
    exact this c4 hp
  · intro p hp
    have : ∀ {a : Dict String String} {b : Dict String ℝ}, List.Forall₂ (fun a b => a.1 = b.1 ∧ env.float a.2 = .ok b.2) a b → p ∈ a →
        ∃ n, env.float p.2 = .ok n := by
      intro a b h hp
      induction h with
      | nil => cases hp
      | @cons x y _ _ h1 _ ih =>
        rcases List.mem_cons.1 hp with rfl | hp
        · exact ⟨_, h1.2⟩
        · exact ih hp
    exact this c5 hp

theorem readIniOut_total (list : Option (List String)) (sec : Dict String String)
    (h : ∀ v, v ∈ list.getD [] ∨ v ∈ sec.keys → v ∈ Units.importAttrs.keys) :
    ∃ avail, Params.readIniOut Params.importNames ⟨list, sec⟩ = .ok (avail, list.getD [] ++ sec.keys) := by
  have hk : Params.importNames.keys = Units.importAttrs.keys := by decide +kernel
  unfold Params.readIniOut
  obtain ⟨ys, hys⟩ := mapM_total (f := fun v => Params.importNames.get v) (xs := list.getD []) (by
    intro v hv
    have := h v (.inl hv)
    rw [← hk] at this
    cases hg : Params.importNames.get? v with
    | none => exact absurd this ((Dict.get?_eq_none_iff _ _).1 hg)
    | some x => exact ⟨x, Dict.get_ok.2 hg⟩)
  have hfold : ∀ (sec acc : Dict String String), (∀ v ∈ sec.keys, v ∈ acc.keys) → ∃ r,
      sec.foldlM (fun (a : Dict String String) (kv : String × String) => do
        let _ ← a.get kv.1
        pure (a.set kv.1 kv.2)) acc = (.ok r : Except PyErr _) := by
    intro sec
    induction sec with
    | nil => intro acc _; exact ⟨acc, rfl⟩
    | cons kv sec ih =>
      intro acc hacc
      have hkv : kv.1 ∈ acc.keys := hacc kv.1 (by simp [Dict.keys])
      obtain ⟨x, hx⟩ : ∃ x, acc.get kv.1 = .ok x := by
        cases hg : acc.get? kv.1 with
        | none => exact absurd hkv ((Dict.get?_eq_none_iff _ _).1 hg)
        | some x => exact ⟨x, Dict.get_ok.2 hg⟩
      obtain ⟨r, hr⟩ := ih (acc.set kv.1 kv.2) (by
        intro v hv
        exact (Dict.mem_keys_set _ _ _ _).2 (.inr (hacc v (by simp only [Dict.keys, List.map_cons, List.mem_cons]; exact .inr hv))))
      refine ⟨r, ?_⟩
      rw [List.foldlM_cons]
      simp only [hx]
      exact hr
  obtain ⟨r, hr⟩ := hfold sec Params.importNames (by
    intro v hv
    rw [hk]; exact h v (.inr hv))
  refine ⟨r, ?_⟩
  simp only [hys]
  show (List.foldlM (m := Except PyErr) (fun (a : Dict String String) (kv : String × String) => do
        let _ ← a.get kv.1
        pure (a.set kv.1 kv.2)) Params.importNames sec >>= _) = _
  rw [hr]; rfl

/-- **C92: which files are accepted.** -/
theorem C92_accepted {env : Env} {opts : Opts} {f : Ini.File} {d : IniDoc} (hd : d.Of env f) :
    (∃ s, fromIni env opts f = .ok s) ↔ Acceptable env d := by
  refine ⟨fun ⟨s, hs⟩ => acceptable_of_ok hd hs, fun h => ?_⟩
  obtain ⟨fmt, hfmt⟩ := h.fmt
  obtain ⟨od, hod⟩ := h.outDir
  obtain ⟨fo, hfo, hwalk⟩ := h.forcing
  obtain ⟨list, hlist, hvars⟩ := h.outputs
  obtain ⟨avail, hout⟩ := readIniOut_total list (d.outVars.getD []) hvars
  have hm := hd.mainKeys
  have hread : readIni env opts Params.importNames f = .ok (iniConf env opts d.main
      (if fmt ≠ "binary" then Config.invertDict d.forcingVars else d.forcingVars) d.domainVars d.stateVars d.chunks d.constants fo od
      (outSpecs avail (list.getD [] ++ (d.outVars.getD []).keys)), avail) := by
    unfold readIni
    simp only [bind_ok, pure_ok, hd.main, hd.forcingVars, hd.domainVars, hd.stateVars, hd.chunks, hd.constants, hd.outVars,
      Except.ok.injEq, Dict.get_ok]
    exact ⟨_, rfl, _, rfl, fmt, hfmt, _, rfl, _, rfl, _, rfl, _, rfl, fo, hfo, od, hod, list, hlist, _, rfl, _, hout, rfl⟩
  obtain ⟨p, hp⟩ : ∃ p, p = (classParams avail).update (iniConf env opts d.main
      (if fmt ≠ "binary" then Config.invertDict d.forcingVars else d.forcingVars) d.domainVars d.stateVars d.chunks d.constants fo od
      (outSpecs avail (list.getD [] ++ (d.outVars.getD []).keys))) := ⟨_, rfl⟩
  have plain : ∀ k, k ∉ special → p.get? k = ((d.main.get? k).map fun t => Value.one (.str t)).or ((classParams avail).get? k) := by
    intro k hk
    rw [hp]
    exact ini_plain hm hk
  have ptext : ∀ (k dflt : String), k ∉ special → (classParams avail).get? k = some (.one (.str dflt)) → ∃ x, text p k = .ok x := by
    intro k dflt hk hc
    unfold text one
    rw [plain k hk, hc]
    cases d.main.get? k with
    | none => exact ⟨dflt, rfl⟩
    | some t => exact ⟨t, rfl⟩
  have pfloat : ∀ (k : String) (dflt : ℚ), k ∉ special → k ∈ floatKeys → (classParams avail).get? k = some (.one (.num dflt)) →
      ∃ x, float env p k = .ok x := by
    intro k dflt hk hf hc
    unfold float one
    rw [plain k hk, hc]
    cases ht : d.main.get? k with
    | none => exact ⟨dflt, rfl⟩
    | some t =>
      obtain ⟨x, hx⟩ := h.floats k hf t ht
      exact ⟨x, hx⟩
  have pone : ∀ (k : String) (dflt : Scalar), k ∉ special → (classParams avail).get? k = some (.one dflt) → ∃ x, one p k = .ok x := by
    intro k dflt hk hc
    unfold one
    rw [plain k hk, hc]
    cases d.main.get? k with
    | none => exact ⟨dflt, rfl⟩
    | some t => exact ⟨.str t, rfl⟩
  have pnames : ∀ (k : String) (v : Dict String String), p.get? k = some (.names v) → names p k = .ok (some v) := by
    intro k v hv
    unfold names
    rw [hv]
  obtain ⟨m, m', hmt, hmo⟩ : ∃ m m', text p "method" = .ok m ∧ methodOf m = .ok m' := by
    unfold text one
    rw [plain _ (by decide)]
    cases ht : d.main.get? "method" with
    | none => exact ⟨"mtclim", .mtclim, rfl, rfl⟩
    | some t =>
      rcases h.method t ht with rfl | rfl
      · exact ⟨_, .mtclim, rfl, rfl⟩
      · exact ⟨_, .passthrough, rfl, rfl⟩
  obtain ⟨ts, hts⟩ : ∃ n, ConfigRead.int p "time_step" = .ok n := by
    unfold ConfigRead.int one
    rw [plain _ (by decide)]
    cases ht : d.main.get? "time_step" with
    | none => exact ⟨-1, rfl⟩
    | some t =>
      obtain ⟨n, hn⟩ := h.timeStep t ht
      exact ⟨n, hn⟩
  have hcal : text p "calendar" = .ok ((d.main.get? "calendar").getD "standard") := by
    unfold text one; rw [hp, ini_calendar hm]; rfl
  have hpe : switch p "period_ending" = .ok (Config.iniBool ((d.main.get? "period_ending").map String.toList)) := by
    unfold switch one; rw [hp, ini_period_ending hm]; rfl
  have hut : switch p "utc_offset" = .ok (Config.iniBool ((d.main.get? "utc_offset").map String.toList)) := by
    unfold switch one; rw [hp, ini_utc_offset hm]; rfl
  obtain ⟨swa, hswa⟩ : ∃ x, optText p "sw_averaging" = .ok x := by
    unfold optText
    rw [plain _ (by decide)]
    cases d.main.get? "sw_averaging" with
    | none => exact ⟨"", rfl⟩
    | some t => exact ⟨t, rfl⟩
  have hpt : text p "prec_type" = .ok ((d.main.get? "prec_type").getD "uniform") := by
    unfold text one; rw [hp, ini_prec_type hm]; rfl
  obtain ⟨lt, hlt⟩ := ptext "lw_type" "prata" (by decide) rfl
  obtain ⟨lc, hlc⟩ := ptext "lw_cloud" "cloud_deardorff" (by decide) rfl
  obtain ⟨th, hth⟩ : ∃ x, thetaOf p (Config.iniBool ((d.main.get? "utc_offset").map String.toList)) = .ok x := by
    unfold thetaOf
    rw [plain _ (by decide)]
    cases ht : d.main.get? "theta_s" with
    | none => exact ⟨0, rfl⟩
    | some t =>
      have hno := h.theta t ht
      have : Config.iniBool ((d.main.get? "utc_offset").map String.toList) = false := by
        unfold Config.iniBool
        cases hu : d.main.get? "utc_offset" with
        | none => rfl
        | some u =>
          show (if lower (strip u.toList) = "true".toList then true else false) = false
          rw [if_neg]
          intro e
          exact hno ⟨u, hu, e⟩
      rw [this]
      exact ⟨0, rfl⟩
  obtain ⟨f1, hf1⟩ := pfloat "tmax_daylength_fraction" (67 / 100) (by decide) (by decide) rfl
  obtain ⟨f2, hf2⟩ := pfloat "tday_coef" (45 / 100) (by decide) (by decide) rfl
  obtain ⟨f3, hf3⟩ := pfloat "sw_prec_thresh" 0 (by decide) (by decide) rfl
  obtain ⟨f4, hf4⟩ := pfloat "rain_scalar" (3 / 4) (by decide) (by decide) rfl
  obtain ⟨f5, hf5⟩ := pfloat "lapse_rate" (65 / 10000) (by decide) (by decide) rfl
  obtain ⟨f6, hf6⟩ := pfloat "tdew_tol" (1 / 1000000) (by decide) (by decide) rfl
  have houts : outsOf p = .ok (outSpecs avail (list.getD [] ++ (d.outVars.getD []).keys)) := by
    unfold outsOf; rw [hp, ini_out_vars hm]
  obtain ⟨a, us, hu, -, -⟩ := C02_units_honoured Units.importAttrs
      ((outSpecs avail (list.getD [] ++ (d.outVars.getD []).keys)).map fun q => (q.1, q.2.units)) (fun k hk => hk) (by
    intro k hk
    rw [keys_map _ (fun q : OutSpec => q.units)] at hk
    by_contra hc
    have hk' : k ∉ list.getD [] ++ (d.outVars.getD []).keys := fun hv => hc (hvars k (List.mem_append.1 hv))
    have := get?_ofItems_map (fun v => (⟨avail.get? v, Units.availableUnits.get? v⟩ : OutSpec)) (list.getD [] ++ (d.outVars.getD []).keys) k
    rw [if_neg hk', Dict.get?_eq_none_iff] at this
    exact this hk)
  have hff : p.get "forcing" = .ok (forcingFiles env fo) := by
    rw [Dict.get_ok, hp]
    apply ini_forcing hm
    unfold forcingFiles
    cases hw : env.walk fo with
    | none => simp
    | some fs =>
      rw [hw] at hwalk
      simp only [ne_eq, Value.files.injEq, List.map_eq_nil_iff]
      rintro rfl
      exact hwalk rfl
  obtain ⟨ft, hft⟩ := ptext "forcing_fmt" "netcdf" (by decide) rfl
  obtain ⟨dm, hdm⟩ := ptext "domain" "" (by decide) rfl
  obtain ⟨st, hst⟩ := ptext "state" "" (by decide) rfl
  have hodt : text p "out_dir" = .ok (env.abspath od) := by
    unfold text one; rw [hp, ini_out_dir hm]; rfl
  obtain ⟨op, hop⟩ := ptext "out_prefix" "forcing" (by decide) rfl
  obtain ⟨pr, hpr⟩ := ptext "out_precision" "f4" (by decide) rfl
  obtain ⟨ofr, hofr⟩ := pone "out_freq" .null (by decide) rfl
  obtain ⟨sta, hsta⟩ := pone "start" (.str "forcing") (by decide) rfl
  obtain ⟨sto, hsto⟩ := pone "stop" (.str "forcing") (by decide) rfl
  have hfv := pnames "forcing_vars" _ (by rw [hp]; exact ini_forcing_vars hm)
  have hdv := pnames "domain_vars" _ (by rw [hp]; exact ini_domain_vars hm)
  have hsv := pnames "state_vars" _ (by rw [hp]; exact ini_state_vars hm)
  obtain ⟨ch, hch⟩ : ∃ x, chunksOf p = .ok x := by
    unfold chunksOf
    rw [hp, ini_chunks hm]
    apply mapM_total
    intro q hq
    obtain ⟨r, hr, rfl⟩ := List.mem_map.1 hq
    obtain ⟨n, hn⟩ := h.chunks r hr
    exact ⟨(r.1, n), by
      show (Scalar.toInt (.str r.2) >>= _) = _
      rw [show Scalar.toInt (.str r.2) = .ok n from hn]; rfl⟩
  obtain ⟨co, hco⟩ : ∃ x, constantsOf env p = .ok x := by
    unfold constantsOf
    rw [hp, ini_constants hm hd.apart]
    cases hc : d.constants with
    | none => exact ⟨[], rfl⟩
    | some c =>
      show ∃ x, (strs c).mapM (fun q => do
        let x ← Scalar.toFloat env q.2
        pure (q.1, x)) = Except.ok x
      apply mapM_total
      intro q hq
      obtain ⟨r, hr, rfl⟩ := List.mem_map.1 hq
      obtain ⟨n, hn⟩ := h.constants r (by rw [hc]; exact hr)
      exact ⟨(r.1, n), by
        show (env.float r.2 >>= _) = _
        rw [hn]; rfl⟩
  let sh : Cell.Shared := {
    method := m', ts := ts.toNat, calendar := (d.main.get? "calendar").getD "standard",
    periodEnding := Config.iniBool ((d.main.get? "period_ending").map String.toList),
    utcOffset := Config.iniBool ((d.main.get? "utc_offset").map String.toList), swAveraging := swa,
    precType := (d.main.get? "prec_type").getD "uniform",
    lwType := lt, lwCloud := lc, thetaS := th, tmaxFraction := f1, tdayCoef := f2, swPrecThresh := f3, rainScalar := f4,
    lapseRate := f5, tdewTol := f6, outVars := us }
  refine ⟨{
    shared := sh, timeStep := ts, forcing := forcingFiles env fo, forcingFmt := ft, domain := dm, state := st, outDir := env.abspath od, outPrefix := op,
    outPrecision := pr, outFreq := ofr, start := sta, stop := sto, 
    forcingVars := some (if fmt ≠ "binary" then Config.invertDict d.forcingVars else d.forcingVars),
    domainVars := some (Config.invertDict d.domainVars), stateVars := some (Config.invertDict d.stateVars),
    outNames := (outSpecs avail (list.getD [] ++ (d.outVars.getD []).keys)).map fun q => (q.1, q.2.name),
    unitTable := a, chunks := ch, constants := co }, ?_⟩
  unfold fromIni
  rw [hread]
  show use env Units.importAttrs ((classParams avail).update _) = _
  rw [← hp]
  exact use_iff.2 ⟨⟨m, hmt, hmo⟩, hts, rfl, hcal, hpe, hut, hswa, hpt, hlt, hlc, hth, hf1, hf2, hf3, hf4, hf5, hf6,
    ⟨_, houts, hu, rfl⟩, hff, hft, hdm, hst, hodt, hop, hpr, hofr, hsta, hsto, hfv, hdv, hsv, hch, hco⟩

/-- The entries of a section as keys and values. -/
def strung (o : List (Str × List Str)) : Dict String String := o.map fun q => (String.ofList q.1, String.ofList (spread q.2))

theorem mapM_ok_map {α β : Type} {g : α → Except PyErr β} {h : α → β} {xs : List α} (hx : ∀ x ∈ xs, g x = .ok (h x)) :
    xs.mapM g = .ok (xs.map h) := by
  induction xs with
  | nil => rfl
  | cons x xs ih =>
    rw [List.mapM_cons, hx x (by simp), ih (fun y hy => hx y (by simp [hy]))]
    rfl

theorem get?_spread {doc : List (Str × List (Str × List Str))} (name : Str) :
    Dict.get? (doc.map fun p => (p.1, p.2.map fun o => (o.1, spread o.2))) name
      = (Dict.get? doc name).map fun o => o.map fun q => (q.1, spread q.2) := by
  induction doc with
  | nil => rfl
  | cons p doc ih =>
    rw [List.map_cons, Dict.get?_cons, Dict.get?_cons, ih]
    by_cases h : p.1 = name
    · simp [h]
    · simp [h]

/-- The section of a file that was laid out as `doc`. -/
theorem section_of_doc {env : Env} {doc : List (Str × List (Str × List Str))}
    (hint : ∀ p ∈ doc, ∀ o ∈ p.2, env.interp (spread o.2) = .ok (spread o.2)) {name : String} {o : List (Str × List Str)}
    (ho : Dict.get? doc name.toList = some o) :
    Ini.section env ⟨doc.map fun p => (p.1, p.2.map fun o => (o.1, spread o.2))⟩ name = .ok (strung o) := by
  have hmem := Dict.mem_of_get? _ ho
  unfold Ini.section Ini.items
  have hget : Dict.get (doc.map fun p => (p.1, p.2.map fun o => (o.1, spread o.2))) name.toList
      = .ok (o.map fun q => (q.1, spread q.2)) := Dict.get_ok.2 (by rw [get?_spread, ho]; rfl)
  simp only [hget]
  have : (o.map fun q => (q.1, spread q.2)).mapM (fun q : Str × Str => do
      let v ← env.interp q.2
      pure (q.1, v)) = (.ok (o.map fun q => (q.1, spread q.2)) : Except PyErr _) := by
    rw [mapM_ok_map (h := fun q => q)]
    · simp
    · intro q hq
      obtain ⟨r, hr, rfl⟩ := List.mem_map.1 hq
      simp only [hint _ hmem r hr]
      rfl
  show (List.mapM _ _ >>= _) = _
  rw [this]
  show Except.ok (List.map _ (List.map _ o)) = _
  rw [List.map_map]
  rfl

theorem optional_of_doc {env : Env} {doc : List (Str × List (Str × List Str))}
    (hint : ∀ p ∈ doc, ∀ o ∈ p.2, env.interp (spread o.2) = .ok (spread o.2)) (name : String) :
    Ini.optional env ⟨doc.map fun p => (p.1, p.2.map fun o => (o.1, spread o.2))⟩ name
      = .ok ((Dict.get? doc name.toList).map strung) := by
  have hg := get?_spread (doc := doc) name.toList
  unfold Ini.optional Ini.has
  cases ho : Dict.get? doc name.toList with
  | none =>
    rw [ho] at hg
    rw [if_neg (by simpa using (Dict.get?_eq_none_iff _ _).1 hg)]
    rfl
  | some o =>
    rw [if_pos (by
      rw [decide_eq_true_iff]
      by_contra hc
      rw [(Dict.get?_eq_none_iff _ _).2 hc, ho] at hg
      cases hg), section_of_doc hint ho]
    rfl

theorem nodup_strung {o : List (Str × List Str)} (h : (o.map Prod.fst).Nodup) : (strung o).keys.Nodup := by
  have : (strung o).keys = (o.map Prod.fst).map String.ofList := by
    simp [strung, Dict.keys]
  rw [this]
  exact h.map (fun a b hab => String.ofList_inj.1 hab)

/-- **C92, from the text of the file.**  A file laid out as `doc`, without interpolation, is read and has the sections of `doc`. -/
theorem C92_text {env : Env} {doc : List (Str × List (Str × List Str))} {lines : List Str} (h : Text doc lines)
    (hs : (doc.map Prod.fst).Nodup) (hk : ∀ p ∈ doc, (p.2.map Prod.fst).Nodup)
    (hint : ∀ p ∈ doc, ∀ o ∈ p.2, env.interp (spread o.2) = .ok (spread o.2)) {m fv dv sv ch : List (Str × List Str)}
    (hm : ("MetSim".toList, m) ∈ doc) (hfv : ("forcing_vars".toList, fv) ∈ doc) (hdv : ("domain_vars".toList, dv) ∈ doc)
    (hsv : ("state_vars".toList, sv) ∈ doc) (hch : ("chunks".toList, ch) ∈ doc)
    (hap : "constant_vars".toList ∉ m.map Prod.fst) :
    ∃ f, Ini.read lines = .ok f ∧ IniDoc.Of env f
      { main := strung m, forcingVars := strung fv, domainVars := strung dv, stateVars := strung sv, chunks := strung ch
        constants := (Dict.get? doc "constant_vars".toList).map strung
        outVars := (Dict.get? doc "out_vars".toList).map strung } := by
  refine ⟨_, C91_ini h hs hk, ?_⟩
  have sec : ∀ {name : String} {o : List (Str × List Str)}, (name.toList, o) ∈ doc →
      Ini.section env ⟨doc.map fun p => (p.1, p.2.map fun o => (o.1, spread o.2))⟩ name = .ok (strung o) :=
    fun ho => section_of_doc hint (Dict.get?_of_mem _ hs ho)
  refine ⟨sec hm, sec hfv, sec hdv, sec hsv, sec hch, optional_of_doc hint _, optional_of_doc hint _, nodup_strung (hk _ hm), ?_, ?_⟩
  · cases ho : Dict.get? doc "out_vars".toList with
    | none => simp [Dict.keys]
    | some o => exact nodup_strung (hk _ (Dict.mem_of_get? _ ho))
  · rw [Dict.get?_eq_none_iff]
    intro hc
    apply hap
    have : (strung m).keys = (m.map Prod.fst).map String.ofList := by
      simp [strung, Dict.keys]
    rw [this] at hc
    obtain ⟨a, ha, e⟩ := List.mem_map.1 hc
    have : a = "constant_vars".toList := by rw [← e]; simp
    rw [← this]; exact ha

/-! ### A configuration -/

namespace ConfigExample

noncomputable def env : Env where
  walk _ := none
  join a b := a ++ "/" ++ b
  abspath s := s
  interp s := .ok s
  float s := if s = "0.5" then .ok (1 / 2) else .error .valueError

def main : List (Str × List Str) := [("forcing".toList, ["f.nc".toList]), ("forcing_fmt".toList, ["netcdf".toList]),
  ("out_dir".toList, ["out".toList]), ("time_step".toList, ["60".toList]), ("tday_coef".toList, ["0.5".toList]),
  ("out_vars".toList, ["['temp',".toList, "'prec']".toList])]

def d : IniDoc := { main := strung main, forcingVars := [], domainVars := [], stateVars := [], chunks := [("lat", "3")], constants := none,
                    outVars := none }

/-- The conditions can be met. -/
example : Acceptable env d where
  fmt := ⟨"netcdf", by decide +kernel⟩
  outDir := ⟨"out", by decide +kernel⟩
  forcing := ⟨"f.nc", by decide +kernel, by simp [env]⟩
  timeStep t ht := by
    have : d.main.get? "time_step" = some "60" := by decide +kernel
    rw [this] at ht
    cases ht
    exact ⟨60, by decide +kernel⟩
  method t ht := by
    have : d.main.get? "method" = none := by decide +kernel
    rw [this] at ht
    cases ht
  floats k hk t ht := by
    simp only [floatKeys, List.mem_cons, List.not_mem_nil, or_false] at hk
    rcases hk with rfl | rfl | rfl | rfl | rfl | rfl
    · exact absurd ht (by rw [show d.main.get? "tmax_daylength_fraction" = none by decide +kernel]; simp)
    · rw [show d.main.get? "tday_coef" = some "0.5" by decide +kernel] at ht
      cases ht
      exact ⟨1 / 2, by simp [env]⟩
    · exact absurd ht (by rw [show d.main.get? "sw_prec_thresh" = none by decide +kernel]; simp)
    · exact absurd ht (by rw [show d.main.get? "rain_scalar" = none by decide +kernel]; simp)
    · exact absurd ht (by rw [show d.main.get? "lapse_rate" = none by decide +kernel]; simp)
    · exact absurd ht (by rw [show d.main.get? "tdew_tol" = none by decide +kernel]; simp)
  theta t ht := by
    rw [show d.main.get? "theta_s" = none by decide +kernel] at ht
    cases ht
  chunks p hp := by
    obtain rfl : p = ("lat", "3") := by simpa [d] using hp
    exact ⟨3, by decide +kernel⟩
  constants p hp := by simp [d] at hp
  outputs := ⟨some ["temp", "prec"], by decide +kernel, by
    intro v hv
    have : v = "temp" ∨ v = "prec" := by simpa [d, Dict.keys] using hv
    rcases this with rfl | rfl <;> decide +kernel⟩

end ConfigExample

end Verif.Props
