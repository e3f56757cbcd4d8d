import Verif.Props.VicExample

/-!
# C103: configurations for files for single cells whose files are not read
-/

namespace Verif.Props

open Dataset ConfigRead Main Flt Txt Worker

/-! ### Names -/

theorem check_inputs {su : Setup} {met : DS ℝ} (h : check su met = .ok ()) : ∀ k ∈ ["t_min", "t_max", "prec"],
    k ∈ met.vars.map Prod.fst ∨ k ∈ met.sizes.map Prod.fst := by
  intro k hk
  unfold check Validate.validate at h
  cases hp : Validate.problems (checked su met) with
  | error e => rw [hp] at h; simp at h
  | ok l =>
    rw [hp] at h
    cases l with
    | cons a l => simp at h
    | nil =>
      unfold Validate.problems at hp
      replace hp : (if su.timeStep = 0 then _ else _) = Except.ok [] := hp
      split_ifs at hp
      simp only [Except.ok.injEq, List.append_eq_nil_iff] at hp
      have hin : Validate.inputErrs (checked su met) = [] := by tauto
      unfold Validate.inputErrs at hin
      rw [List.flatMap_eq_nil_iff] at hin
      have := hin k hk
      split_ifs at this with hm
      exact List.mem_append.1 hm

theorem metData_names {fs : Vic.Files} {fmt calendar : String} {jobs : List Str} {vars : Dict String String} {dom met : DS ℝ} {a b : Int}
    (h : Vic.metData fs fmt calendar jobs vars dom a b = .ok met) :
    (∀ k, k ≠ "elev" → k ≠ "lat" → k ≠ "lon" → met.vars.get? k ≠ none → k ∈ vars.keys) ∧
      met.sizes.map Prod.fst = ["time", "lat", "lon"] := by
  unfold Vic.metData at h
  by_cases hf : fmt ≠ "ascii" ∧ fmt ≠ "binary"
  · rw [if_pos hf] at h
    cases h
  by_cases hs : (dom.sizes.get? "lat").isNone ∨ (dom.sizes.get? "lon").isNone
  · rw [if_neg hf] at h
    simp only [if_pos hs, bind_ok] at h
    obtain ⟨days, -, _, h, -⟩ := h
    cases h
  rw [if_neg hf] at h
  simp only [if_neg hs, bind_ok] at h
  obtain ⟨days, -, g, -, m1, h1, m2, h2, h3⟩ := h
  obtain ⟨s1, c1, v1⟩ := assignFrom_ok h1
  obtain ⟨s2, c2, v2⟩ := assignFrom_ok h2
  obtain ⟨s3, c3, v3⟩ := assignFrom_ok h3
  constructor
  · intro k e1 e2 e3 hk
    rw [v3 k e3, v2 k e2, v1 k e1, Vic.gridded_cube, Vic.cube_get] at hk
    by_contra hn
    rw [if_neg hn] at hk
    exact hk rfl
  · rw [s3, s2, s1]; rfl

/-- **C103**: a run over files for single cells that ends has precipitation and temperatures among the names of the columns (the keys of
`forcing_vars` once it is read), or as constants. -/
theorem C103_names {w : World} {fs : Vic.Files} {fuel : Nat} {p : Conf} {su : Setup} {order : List (Dict String Chunk.Slice)} {dir : Nc.Dir}
    (hu : use w.cfg Units.importAttrs p = .ok su) (h : Vic.simulate w fs fuel p order = .ok dir) : ∀ k ∈ ["t_min", "t_max", "prec"],
      k ∈ (su.forcingVars.getD []).keys ∨ k ∈ su.constants.map Prod.fst := by
  intro k hk
  unfold Vic.simulate at h
  simp only [hu, bind_ok] at h
  obtain ⟨su', e, pa, hpa, freq, -, r, -, u, hck, -⟩ := h
  obtain rfl := Except.ok.inj e
  have hin := check_inputs hck k hk
  unfold Vic.construct at hpa
  simp only [bind_ok] at hpa
  obtain ⟨dom, -, names, -, whole, -, a, -, b, -, vars, hvars, jobs, -, met0, hmet, met, hcs, q, -, h⟩ := hpa
  have hm : pa.met = met := by
    split at h
    · rw [← Except.ok.inj h]
    · cases h
  rw [hm] at hin
  have hfv : su.forcingVars = some vars := by
    unfold Main.required at hvars
    split at hvars
    · rename_i x hx
      rw [hx, Except.ok.inj hvars]
    · cases hvars
  obtain ⟨n1, n2⟩ := metData_names hmet
  obtain ⟨c1, c2, c3⟩ := withConstants_ok hcs
  rw [hfv]
  by_cases hc : k ∈ su.constants.map Prod.fst
  · exact Or.inr hc
  · left
    have hne : k ≠ "elev" ∧ k ≠ "lat" ∧ k ≠ "lon" ∧ k ≠ "time" := by
      have : ∀ k ∈ ["t_min", "t_max", "prec"], k ≠ "elev" ∧ k ≠ "lat" ∧ k ≠ "lon" ∧ k ≠ "time" := by decide
      exact this k hk
    rcases hin with hin | hin
    · have := Option.isSome_iff_ne_none.1 ((Dict.isSome_iff _ _).2 hin)
      rw [c3 k hc] at this
      exact n1 k hne.1 hne.2.1 hne.2.2.1 this
    · rw [c1, n2] at hin
      simp only [List.mem_cons, List.not_mem_nil, or_false] at hin
      rcases hin with e | e | e
      · exact absurd e hne.2.2.2
      · exact absurd e hne.2.1
      · exact absurd e hne.2.2.1

/-- **C103**: with text files an INI file has to give precipitation and temperatures as *values* of `forcing_vars`: the section is
inverted although there are no names in such files. -/
theorem C103_ini {w : World} {fs : Vic.Files} {fuel : Nat} {opts : Opts} {f : Ini.File} {d : IniDoc}
    {order : List (Dict String Chunk.Slice)} {dir : Nc.Dir} (hd : d.Of w.cfg f) (hfmt : d.main.get? "forcing_fmt" ≠ some "binary")
    (h : Vic.runIni w fs fuel opts f order = .ok dir) : ∀ k ∈ ["t_min", "t_max", "prec"],
      k ∈ d.forcingVars.map Prod.snd ∨ k ∈ (d.constants.getD []).map Prod.fst := by
  intro k hk
  unfold Vic.runIni at h
  simp only [bind_ok] at h
  obtain ⟨⟨conf, avail⟩, h1, h⟩ := h
  have hsu : ∃ su, use w.cfg Units.importAttrs ((classParams avail).update conf) = .ok su := by
    unfold Vic.simulate at h
    simp only [bind_ok] at h
    obtain ⟨su, hsu, -⟩ := h
    exact ⟨su, hsu⟩
  obtain ⟨su, hu⟩ := hsu
  have hs : fromIni w.cfg opts f = .ok su := by
    unfold fromIni
    rw [h1]
    exact hu
  have hsec := C92_sections hd hs
  have hf : su.forcingFmt ≠ "binary" := by
    have hfm := (C92_parameters hd hs).2.2.2.2.2.2.2.2.2.2.2.2.2.2.2.2.2.2.2.2.2.1
    intro e
    rw [e] at hfm
    exact hfmt hfm
  rcases C103_names hu h k hk with hk' | hk'
  · left
    rw [hsec.2.2.1, if_neg hf, Option.getD_some] at hk'
    obtain ⟨u, hu⟩ := Option.isSome_iff_exists.1 ((Dict.isSome_iff _ _).2 hk')
    exact List.mem_map.2 ⟨_, (C26_invert_sound d.forcingVars k).1 u hu, rfl⟩
  · right
    have := hsec.2.2.2.2.2.2
    generalize d.constants.getD [] = l at this ⊢
    generalize su.constants = l' at this hk'
    induction this with
    | nil => exact hk'
    | @cons a b l m h1 _ ih =>
      rw [List.map_cons, List.mem_cons] at hk' ⊢
      rcases hk' with e | e
      · exact Or.inl (e.trans h1.1.symm)
      · exact Or.inr (ih e)

/-! ### Paths -/

theorem location_error {toFloat : Str → Option ℚ} {job : Str} {e : PyErr} (h : Forcing.location toFloat job = .error e) : e = .valueError := by
  unfold Forcing.location at h
  simp only at h
  split at h
  · split at h
    · cases h
    · exact (Except.error.inj h).symm
  · exact (Except.error.inj h).symm

/-- **C103**: a single path for `forcing` is gone through character by character and nothing is read, whatever the files. -/
theorem C103_single (fs : Vic.Files) (mask : ℚ × ℚ → Option (Flt ℝ)) (fmt : String) (vars : Dict String String) (n : Nat) (path : String) :
    ∃ jobs, Vic.jobsOf (.one (.str path)) = .ok jobs ∧
      Forcing.processVic fs.toFloat mask (Vic.readFile fs fmt vars n) vars.keys n jobs = .ok fun _ _ => List.replicate n nan := by
  refine ⟨_, rfl, ?_⟩
  unfold Forcing.processVic
  generalize path.toList = l
  induction l with
  | nil => rfl
  | cons c l ih =>
    rw [List.map_cons, List.foldlM_cons]
    have hl : Forcing.location fs.toFloat [c] = .error .valueError := by
      unfold Forcing.location Forcing.basename
      by_cases h1 : c = '/' <;> by_cases h2 : c = '_' <;> simp [splitOn, h1, h2]
    have : Forcing.vicStep fs.toFloat mask (Vic.readFile fs fmt vars n) vars.keys (fun _ _ => List.replicate n nan) [c] =
        .ok fun _ _ => List.replicate n nan := by
      unfold Forcing.vicStep Forcing.readJob
      rw [hl]
      rfl
    rw [this]
    exact ih

/-! ### Binary files and YAML -/

/-- **C103**: with binary files `forcing_vars` has to give scale and type as values; a YAML file, whose section is inverted, gives names
instead, and nothing is read. -/
theorem C103_binary (fs : Vic.Files) (mask : ℚ × ℚ → Option (Flt ℝ)) (vars : Dict String String) (n : Nat) (jobs : List Str)
    (hne : vars ≠ []) (hv : ∀ q ∈ vars, ∀ s ∈ (Vic.words q.2.toList).head?, fs.toFloat s = none)
    (hw : ∀ q ∈ vars, Vic.words q.2.toList ≠ []) :
    Forcing.processVic fs.toFloat mask (Vic.readFile fs "binary" vars n) vars.keys n jobs = .ok fun _ _ => List.replicate n nan := by
  have hread : ∀ job, Vic.readFile fs "binary" vars n job = .error .valueError := by
    intro job
    unfold Vic.readFile
    rw [if_neg (by decide), if_pos rfl]
    cases vars with
    | nil => exact absurd rfl hne
    | cons q l =>
      have : Vic.binVar fs q = .error .valueError := by
        unfold Vic.binVar
        cases hq : Vic.words q.2.toList with
        | nil => exact absurd hq (hw q (by simp))
        | cons s ss =>
          simp only [hv q (by simp) s (by rw [hq]; rfl)]
      rw [List.mapM_cons, this]
      rfl
  unfold Forcing.processVic
  induction jobs with
  | nil => rfl
  | cons job jobs ih =>
    rw [List.foldlM_cons]
    have : Forcing.vicStep fs.toFloat mask (Vic.readFile fs "binary" vars n) vars.keys (fun _ _ => List.replicate n nan) job =
        .ok fun _ _ => List.replicate n nan := by
      unfold Forcing.vicStep Forcing.readJob
      cases he : Forcing.location fs.toFloat job with
      | error e =>
        rw [location_error he]
        rfl
      | ok c =>
        simp only [bind, Except.bind]
        cases mask c with
        | none => rfl
        | some m =>
          simp only [pure, Except.pure, hread]
          split_ifs <;> simp_all
    rw [this]
    exact ih

/-! ### Columns -/

/-- **C103**: if text files have more columns than there are variables, the variables are given the last columns. -/
theorem C103_columns (fs : Vic.Files) (vars : Dict String String) (hv : vars.keys.Nodup) (n m : Nat) (job : Str)
    (rows : List (List (Flt ℝ))) (h0 : rows ≠ []) (ht : fs.table job = .ok rows) (hr : ∀ r ∈ rows, r.length = vars.keys.length + m)
    (hn : n ≤ rows.length) : ∃ ds, Vic.readFile fs "ascii" vars n job = .ok ds ∧ ∀ (j : Nat) (hj : j < vars.keys.length),
      ds.get? vars.keys[j] = some ((rows.take n).map fun r => r.getD (j + m) nan) := by
  have hcols : Vic.columns vars.keys rows = .ok (rows.map fun r k => r.getD (vars.keys.idxOf k + m) nan) := by
    have hw : max ((rows.head?.map List.length).getD 0) vars.keys.length = vars.keys.length + m := by
      cases rows with
      | nil => exact absurd rfl h0
      | cons a l => simp [hr a (by simp)]
    unfold Vic.columns
    simp only [hw, Nat.add_sub_cancel_left]
    rw [if_neg]
    simp only [List.any_eq_true, decide_eq_true_eq, not_exists, not_and, not_lt]
    intro r hr'
    exact (hr r hr').le
  have hread : Vic.readFile fs "ascii" vars n job =
      Forcing.readAscii vars.keys n (rows.map fun r k => r.getD (vars.keys.idxOf k + m) nan) := by
    unfold Vic.readFile
    simp only [if_true, ht, bind, Except.bind, hcols]
  rw [hread]
  unfold Forcing.readAscii
  simp only [List.length_take, List.length_map, Nat.min_eq_left hn, if_true]
  refine ⟨_, rfl, fun j hj => ?_⟩
  refine Dict.get?_of_mem _ ?_ ?_
  · simpa [Dict.keys, Function.comp_def] using hv
  · refine List.mem_map.2 ⟨vars.keys[j], List.getElem_mem hj, ?_⟩
    rw [← List.map_take, List.map_map]
    simp only [Function.comp_def, hv.idxOf_getElem j hj]

/-! ### The claim -/

/-- **C103** as listed: text files have no names in them, so what `forcing_vars` has on the right does not matter: if a run ends with
the variables mapped to themselves, it ends with them mapped to any other distinct names. -/
def C103_full : Prop := ∀ (w : World) (fs : Vic.Files) (fuel : Nat) (opts : Opts) (f f' : Ini.File) (d d' : IniDoc)
  (order : List (Dict String Chunk.Slice)), d.Of w.cfg f → d'.Of w.cfg f' → d.main.get? "forcing_fmt" = some "ascii" →
    d' = { d with forcingVars := d'.forcingVars } → d'.forcingVars.keys = d.forcingVars.keys →
    (∀ q ∈ d.forcingVars, q.1 = q.2) → (d'.forcingVars.map Prod.snd).Nodup →
    (∃ dir, Vic.runIni w fs fuel opts f order = .ok dir) → ∃ dir, Vic.runIni w fs fuel opts f' order = .ok dir

namespace VicExample

def doc' : IniDoc := { doc with forcingVars := MainExample.vars }

def ini' : Ini.File := ⟨[("MetSim".toList, main.map fun q => (q.1.toList, q.2.toList)),
  ("chunks".toList, doc.chunks.map fun q => (q.1.toList, q.2.toList)),
  ("forcing_vars".toList, MainExample.vars.map fun q => (q.1.toList, q.2.toList)),
  ("domain_vars".toList, doc.domainVars.map fun q => (q.1.toList, q.2.toList)),
  ("state_vars".toList, MainExample.vars.map fun q => (q.1.toList, q.2.toList)),
  ("constant_vars".toList, [("wind".toList, "3".toList)])]⟩

theorem doc_of' : doc'.Of env ini' where
  main := by decide +kernel
  forcingVars := by decide +kernel
  domainVars := by decide +kernel
  stateVars := by decide +kernel
  chunks := by decide +kernel
  constants := by decide +kernel
  outVars := by decide +kernel
  mainKeys := by decide +kernel
  outKeys := by decide +kernel
  apart := by decide +kernel

end VicExample

theorem C103_refuted : ¬ C103_full := by
  intro h
  obtain ⟨fuel, hrun⟩ := VicExample.runs (fun _ => true) rfl
  obtain ⟨dir, hdir⟩ := h (VicExample.world fun _ => true) VicExample.files (fuel + 0) MainExample.opts VicExample.ini VicExample.ini'
    VicExample.doc VicExample.doc' _ VicExample.doc_of VicExample.doc_of' (by decide +kernel) rfl (by decide) (by decide) (by decide) (hrun 0)
  have := C103_ini VicExample.doc_of' (by decide +kernel) hdir "prec" (by simp)
  revert this
  decide +kernel

/-- **C103, the part that holds**: with the variables mapped to themselves the files are read, each column for its variable (C102). -/
theorem C103_itself_partial (d : Dict String String) (hd : d.keys.Nodup) (h : ∀ q ∈ d, q.1 = q.2) : Config.invertDict d = d := by
  have e : d.map Prod.snd = d.keys := by
    unfold Dict.keys
    exact List.map_congr_left fun q hq => (h q hq).symm
  rw [(C26_invert_partial d (by rw [e]; exact hd)).2]
  conv_rhs => rw [← List.map_id d]
  apply List.map_congr_left
  rintro ⟨a, b⟩ hq
  have : a = b := h _ hq
  subst this
  rfl

end Verif.Props
