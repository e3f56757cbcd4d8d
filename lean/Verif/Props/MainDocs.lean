import Verif.Props.MainExample
import Verif.Props.ConfigYaml

/-!
# C97: configuration files written as documented
-/

namespace Verif.Props

open Dataset ConfigRead Main Flt Txt

/-! ### YAML files -/

/-- Keys whose values are turned into text, or left out, when a file is created. -/
def Textual (k : String) : Prop :=
  k ∈ Nc.skipped ∨ k ∈ ["state_start", "state_stop", "out_freq"] ∨ k ∈ ["start", "stop", "utc_offset", "period_ending"]

theorem part_get {α : Type} {p : ConfigRead.Part α} {d : Dict String α} (hp : p.get = .ok d) : p = .dict d := by
  cases p with
  | absent => cases hp
  | empty => cases hp
  | dict d' => rw [Except.ok.inj hp]

/-- What a YAML file gives can be recorded, but for some types of values. -/
theorem yaml_writable {w : World} {opts : Opts} {y : Yaml} {conf : Conf} (h1 : readYaml w.cfg opts y = .ok conf)
    (hm : ∀ main, y.main = .dict main → ∀ q ∈ main, Textual q.1 ∨ (q.2 ≠ .null ∧ (∀ b, q.2 ≠ .bool b) ∧ ∀ d, q.2 ≠ .date d)) :
    ∀ q ∈ (classParams Params.importNames).update conf, Writable w q := by
  intro q hq
  rcases mem_update hq with hq | hq
  · unfold readYaml at h1
    simp only [bind_ok] at h1
    obtain ⟨main, a1, a2, -, a3, -, a4, -, a5, -, a6, -, a7, -, a8, -, a9, -, a10, -, a11, -, a12, -, e⟩ := h1
    rw [pure_ok] at e
    subst e
    have hm := hm main (part_get a1)
    have hmain : ∀ r ∈ main, Writable w (r.1, .one r.2) := by
      intro r hr
      apply writable_of
      rcases hm r hr with h | ⟨x1, x2, x3⟩
      · rcases h with h | h | h
        · exact Or.inl h
        · exact Or.inr (Or.inl h)
        · exact Or.inr (Or.inr (Or.inl h))
      · right; right; right
        refine ⟨by simpa using x1, by simpa using x2, by simpa using x3⟩
    have htexts : ∀ q ∈ (main.map fun p => (p.1, Value.one p.2) : Conf), Writable w q := by
      intro q hq
      obtain ⟨r, hr, rfl⟩ := List.mem_map.1 hq
      exact hmain r hr
    generalize he : (main.map fun p => (p.1, Value.one p.2) : Conf) = start at htexts
    unfold yamlConf dropEmpty at hq
    rw [he] at hq
    have hq := (List.mem_filter.1 hq).1
    rcases mem_update hq with hq | hq
    · simp only [List.mem_cons, List.not_mem_nil, or_false] at hq
      rcases hq with rfl | rfl | rfl | rfl | rfl | rfl
      · cases hc : main.get? "calendar" with
        | none => apply writable_of; simp
        | some c => exact hmain _ (Dict.mem_of_get? _ hc)
      all_goals (apply writable_of)
      all_goals first
        | (simp [Nc.skipped]; done)
        | (right; right; right; unfold forcingFiles; split <;> simp)
    have hq : q ∈ (((((Dict.set start "forcing_vars" (.names (Config.invertDict a2))).set "domain_vars"
        (.names (Config.invertDict a3))).set "state_vars" (.names (Config.invertDict a4))).set "out_vars" (.outs a6)).set "chunks"
        (.nums a7)) ∨ q.1 = "constant_vars" := by
      cases a8 with
      | none => exact Or.inl hq
      | some c =>
        rcases mem_set hq with rfl | hq
        · exact Or.inr rfl
        · exact Or.inl hq
    rcases hq with hq | hq
    · rcases mem_set hq with rfl | hq
      · apply writable_of; simp [Nc.skipped]
      rcases mem_set hq with rfl | hq
      · apply writable_of; simp [Nc.skipped]
      rcases mem_set hq with rfl | hq
      · apply writable_of; simp [Nc.skipped]
      rcases mem_set hq with rfl | hq
      · apply writable_of; simp [Nc.skipped]
      rcases mem_set hq with rfl | hq
      · apply writable_of; simp [Nc.skipped]
      exact htexts q hq
    · apply writable_of
      left; rw [hq]; simp [Nc.skipped]
  · exact class_writable w _ q hq

/-- The parameters of a run of a YAML file. -/
theorem yaml_params {w : World} {opts : Opts} {y : Yaml} {su : Setup} (hs : fromYaml w.cfg opts y = .ok su) :
    ∃ p : Conf, p.keys.Nodup ∧ use w.cfg Units.importAttrs p = .ok su ∧
      (∀ fuel order, runYaml w fuel opts y order = simulate w fuel p order) ∧
      ((∀ main, y.main = .dict main → ∀ q ∈ main, Textual q.1 ∨ (q.2 ≠ .null ∧ (∀ b, q.2 ≠ .bool b) ∧ ∀ d, q.2 ≠ .date d)) →
        ∀ q ∈ p, Writable w q) := by
  unfold fromYaml at hs
  rw [bind_ok] at hs
  obtain ⟨conf, h1, h2⟩ := hs
  refine ⟨(classParams Params.importNames).update conf,
    Dict.nodup_update _ _ (by unfold classParams Dict.keys; simp only [List.map_cons, List.map_nil]; decide), h2, ?_, ?_⟩
  · intro fuel order
    unfold runYaml
    rw [h1]
    rfl
  · exact fun hm => yaml_writable h1 hm

/-- **C95: a switch or a missing value that cannot be recorded** (in a YAML file, any `true`, `false` or `null` but for the parameters
that are turned into text) ends the run. -/
theorem C95_unrecorded {w : World} {p : Conf} {su : Setup} {i : Worker.Inputs} {n : Nat} {freq : Option Times.Freq}
    {os : List (String × String)} {order : List (Dict String Chunk.Slice)} {whole : DS ℝ} {mask : Arr ℝ}
    (h : Ready w p su i whole mask n freq os order) {k : String} {v : Value} (hk : (k, v) ∈ p) (ht : ¬ Textual k) (hc : k ≠ "calendar")
    (hv : v = .one .null ∨ ∃ b, v = .one (.bool b)) (fuel : Nat) (dir : Nc.Dir) : simulate w fuel p order ≠ .ok dir := by
  intro hd
  obtain ⟨ld, hw, e1, e2, hin, hj, hsch, hiff, -⟩ := C95_run h fuel
  obtain ⟨-, -, hcr, -⟩ := hiff.1 ⟨dir, hd⟩
  obtain ⟨st0, hpart, -⟩ := stamps_exist _ hj
  have hne : st0.files ≠ [] := by
    intro e
    have h1 := hpart.2.1
    rw [e] at h1
    have h2 := Cell.axis_length hj.step hj.pos hj.calendar st0.h_axis
    rw [← h1] at h2
    have h4 := Nat.mul_pos hj.pos hj.step.pos
    rw [← h2] at h4
    simp at h4
  obtain ⟨g, hg⟩ := List.exists_mem_of_ne_nil _ hne
  unfold Textual at ht
  push Not at ht
  have hmem : (k, ncVal w v) ∈ recorded w p (parentOf w su i ld) := by
    have keep : ∀ {d : Dict String Nc.PVal} {a : String} {x : Nc.PVal}, a ≠ k → (k, ncVal w v) ∈ d → (k, ncVal w v) ∈ d.set a x := by
      intro d a x ha
      induction d with
      | nil => intro h; cases h
      | cons q d ih =>
        obtain ⟨b, z⟩ := q
        intro h
        simp only [Dict.set]
        split_ifs with hb
        · subst hb
          rcases List.mem_cons.1 h with h | h
          · exact absurd (Prod.mk.inj h).1.symm ha
          · exact List.mem_cons_of_mem _ h
        · rcases List.mem_cons.1 h with h | h
          · rw [h]; exact List.mem_cons_self
          · exact List.mem_cons_of_mem _ (ih h)
    unfold recorded
    refine keep (Ne.symm hc) (keep ?_ (keep ?_ (List.mem_map.2 ⟨_, hk, rfl⟩)))
    · rintro rfl; exact ht.2.2 (by simp)
    · rintro rfl; exact ht.2.2 (by simp)
  obtain ⟨a, ha⟩ := (hcr st0 g hg).params _ hmem
  unfold Nc.record at ha
  rw [if_neg ht.1, if_neg ht.2.1, if_neg ht.2.2] at ha
  rcases hv with rfl | ⟨b, rfl⟩ <;> cases ha

/-! ### The documented forms -/

/-- The world, with every directory there. -/
def allThere (w : World) : World := { w with isDir := fun _ => true }

/-- A YAML file whose `start` is a date. -/
def datedStart (y : Yaml) (main : Dict String Scalar) (d : Int) : Yaml := { y with main := .dict (main.set "start" (.date d)) }

/-- docs/configuration.rst:31-32: an output directory that does not exist is created. -/
def DirectoryMade : Prop := ∀ (w : World) (fuel : Nat) (opts : Opts) (lines : List Str) (order : List (Dict String Chunk.Slice)) (dir : Nc.Dir),
  runText (allThere w) fuel opts lines order = .ok dir → ∃ dir, runText w fuel opts lines order = .ok dir

/-- docs/configuration.rst:118-120: the first line is `Metsim:`. -/
def FirstLine : Prop := ∀ (w : World) (fuel : Nat) (opts : Opts) (rest : List Str) (order : List (Dict String Chunk.Slice)) (dir : Nc.Dir),
  w.yaml ("Metsim:".toList :: rest) = w.yaml ("MetSim:".toList :: rest) →
  runText w fuel opts ("MetSim:".toList :: rest) order = .ok dir → ∃ dir, runText w fuel opts ("Metsim:".toList :: rest) order = .ok dir

/-- docs/configuration.rst:122-123: `start: YYYY-MM-DD`, which YAML takes for a date. -/
def DatesUnderstood : Prop := ∀ (w : World) (fuel : Nat) (opts : Opts) (y : Yaml) (main : Dict String Scalar) (t : String) (d : Int)
  (order : List (Dict String Chunk.Slice)) (dir : Nc.Dir),
  y.main = .dict main → main.keys.Nodup → main.get? "start" = some (.str t) → w.period t = some (d, d) →
  runYaml w fuel opts y order = .ok dir → ∃ dir, runYaml w fuel opts (datedStart y main d) order = .ok dir

/-- **C97**: what the documentation says about configuration files holds. -/
def C97_full : Prop := DirectoryMade ∧ FirstLine ∧ DatesUnderstood

theorem simulate_allThere {w : World} {p : Conf} {su : Setup} (hu : use w.cfg Units.importAttrs p = .ok su)
    (hd : w.isDir (w.cfg.abspath su.outDir) = true) (fuel : Nat) (order : List (Dict String Chunk.Slice)) :
    simulate (allThere w) fuel p order = simulate w fuel p order := by
  have hw : worker (allThere w) fuel = worker w fuel := rfl
  have hc : ∀ su, construct (allThere w) su = construct w su := fun _ => rfl
  have hf : ∀ x, outFreq (allThere w) x = outFreq w x := fun x => by cases x <;> rfl
  have hst : stamps (allThere w) = stamps w := rfl
  have hcfg : fileCfg (allThere w) = fileCfg w := rfl
  have ht : table (allThere w) = table w := rfl
  have hk : (allThere w).known = w.known := rfl
  have he : (allThere w).cfg = w.cfg := rfl
  have hi : ∀ x, (allThere w).isDir x = true := fun _ => rfl
  unfold simulate
  simp only [hw, hc, hf, hst, hcfg, ht, hk, he, hi, hu, hd]
  have : ∀ {α : Type} {f g : Setup → Except PyErr α}, f su = g su → (Except.ok su >>= f) = (Except.ok su >>= g) := fun h => h
  apply this
  simp only [hd]

theorem construct_dates {w : World} {su : Setup} {pa : Parent} (h : construct w su = .ok pa) :
    (∀ wy wm wd y m d, su.start = .str (dateText wy wm wd y m d) → IsDate pa.start y m d) ∧
    ∀ wy wm wd y m d, su.stop = .str (dateText wy wm wd y m d) → IsDate pa.stop y m d := by
  unfold construct at h
  split_ifs at h
  · cases h
  · simp only [bind_ok] at h
    obtain ⟨_, -, _, -, _, -, _, -, _, -, met, -, q, h, h'⟩ := h
    obtain ⟨start, stop, first, last, a1, a2, -, -, -, -, -, -, -, -, -, -, -, a3, a4, -⟩ := C31_period_and_state _ _ _ [] h
    rw [a1, a2] at h'
    obtain rfl := pure_ok.1 h'
    refine ⟨fun wy wm wd y m d e => a3 wy wm wd y m d ?_, fun wy wm wd y m d e => a4 wy wm wd y m d ?_⟩ <;> rw [e] <;> rfl

/-- **C97, the forms that are understood.** -/
theorem C97_forms_partial (w : World) (fuel : Nat) (opts : Opts) (order : List (Dict String Chunk.Slice)) :
    (∀ p su, use w.cfg Units.importAttrs p = .ok su → w.isDir (w.cfg.abspath su.outDir) = true →
      simulate (allThere w) fuel p order = simulate w fuel p order) ∧
    (∀ (comments rest : List Str), (∀ l ∈ comments, IsComment l) →
      runText w fuel opts (comments ++ "MetSim:".toList :: rest) order = (do
        let y ← w.yaml (comments ++ "MetSim:".toList :: rest)
        runYaml w fuel opts y order)) ∧
    ∀ su pa, construct w su = .ok pa →
      (∀ wy wm wd y m d, su.start = .str (dateText wy wm wd y m d) → IsDate pa.start y m d) ∧
      ∀ wy wm wd y m d, su.stop = .str (dateText wy wm wd y m d) → IsDate pa.stop y m d := by
  refine ⟨fun p su hu hd => simulate_allThere hu hd fuel order, fun comments rest hc => ?_, fun su pa h => construct_dates h⟩
  refine (C95_first_line w fuel opts order).1 comments rest _ hc ?_ (by decide)
  rintro ⟨a, b, e, ha⟩
  cases a with
  | nil => simp at e
  | cons x xs =>
    have := ha x (by simp)
    have e' : x = 'M' := by
      have := congrArg List.head? e
      simpa using this.symm
    rw [e'] at this
    revert this
    decide

namespace MainExample

open FilesExample

theorem same_config : SameConfig env doc yaml yamlMain [("temp", ⟨some "temp", none⟩), ("prec", ⟨some "prec", none⟩)] where
  hmain := rfl
  mainKeys := by decide +kernel
  forcingVars := rfl
  domainVars := rfl
  stateVars := rfl
  texts := by
    intro k hk
    simp only [textKeys, List.mem_cons, List.not_mem_nil, or_false] at hk
    rcases hk with rfl | rfl | rfl | rfl | rfl | rfl | rfl | rfl | rfl | rfl | rfl | rfl | rfl | rfl | rfl | rfl <;>
      first | exact trivial | exact rfl
  step := ⟨360, by decide +kernel, rfl⟩
  floats := by
    intro k hk
    simp only [floatKeys, List.mem_cons, List.not_mem_nil, or_false] at hk
    rcases hk with rfl | rfl | rfl | rfl | rfl | rfl <;> exact trivial
  switches := by
    intro k hk
    simp only [List.mem_cons, List.not_mem_nil, or_false] at hk
    rcases hk with rfl | rfl <;> exact trivial
  theta := ⟨rfl, rfl⟩
  apart := rfl
  chunks := ⟨_, rfl, .cons ⟨rfl, 1, by decide +kernel, rfl⟩ (.cons ⟨rfl, 1, by decide +kernel, rfl⟩ .nil)⟩
  constants := .inr ⟨_, _, rfl, rfl, .cons ⟨rfl, 3, by simp [env], .whole 3⟩ .nil⟩
  forcing := ⟨_, rfl⟩
  forcingFmt := ⟨_, rfl⟩
  outDir := ⟨_, rfl⟩
  houts := rfl
  outputs := by
    refine ⟨some ["temp", "prec"], by decide +kernel, rfl, by decide, by decide +kernel, ?_⟩
    intro q hq
    simp only [List.mem_cons, List.not_mem_nil, or_false] at hq
    rcases hq with rfl | rfl <;> exact ⟨rfl, Or.inl rfl⟩

theorem from_yaml : fromYaml env opts yaml = .ok setup := by
  rw [C93_same_run_partial doc_of same_config (by decide +kernel)]
  exact from_ini

theorem outs_setup : outs setup = .ok [("temp", "temp"), ("prec", "prec")] := by decide +kernel

/-- The same run from a YAML file. -/
theorem runs_yaml : ∃ fuel dir, runYaml (world fun _ => true) fuel opts yaml chunks.reverse = .ok dir := by
  obtain ⟨p, hp, hu, hrun, hwr⟩ := yaml_params (w := world fun _ => true) (opts := opts) from_yaml
  have hwr := hwr (by
    intro main hm
    have : main = yamlMain := (ConfigRead.Part.dict.inj hm).symm
    subst this
    intro q hq
    right
    revert q
    unfold yamlMain
    simp)
  obtain ⟨-, -, -, -, -, -, -, -, g1, g2, -, g4, g5, g6, -⟩ := C92_parameters doc_of from_ini
  rw [untouched _ (by simp)] at g1 g2 g4 g5 g6
  have g1 : setup.shared.tmaxFraction = 0.67 := g1
  have g2 : setup.shared.tdayCoef = 0.45 := g2
  have g4 : setup.shared.rainScalar = 0.75 := g4
  have g5 : setup.shared.lapseRate = 0.0065 := g5
  have g6 : setup.shared.tdewTol = 1e-6 := g6
  obtain ⟨os, hos, e, hnm⟩ := ini_outs (w := world fun _ => true) doc_of from_ini
  have hready : Ready (world fun _ => true) p setup inputs domFile mask 2 none os chunks.reverse := by
    refine ⟨hp, hu, named _, sound, sourced _, unsplit _, hos, ?_, chunks, sliced, List.reverse_perm _⟩
    have : outputOf (world fun _ => true) setup none os = ⟨none, "out".toList, "forcing".toList,
        fun v => ((doc.outVars.getD []).get? v).getD v⟩ := by
      rw [← hnm none]; rfl
    rw [this]
    exact plan _ _ renamed
  have hmap : os.map Prod.snd = setup.shared.outVars.keys.map (fun v => ((doc.outVars.getD []).get? v).getD v) := by
    rw [e, List.map_map]; rfl
  obtain ⟨fuel, h⟩ := C96_ends hready valid rfl (known_calendar _) (by rw [hmap]; exact distinct) (knows _) hwr (earthly _)
    ⟨by rw [g6]; norm_num, by rw [g2]; norm_num, by rw [g4]; norm_num⟩ (by rw [g5]; norm_num) (by rw [g1]; norm_num) calm
  obtain ⟨dir, hdir⟩ := h 0
  exact ⟨_, dir, (hrun _ _).trans hdir⟩

theorem no_directory : ¬ DirectoryMade := by
  intro h
  obtain ⟨fuel, hr⟩ := runs (fun _ => true) rfl
  obtain ⟨dir, hdir⟩ := hr 0
  obtain ⟨dir', h'⟩ := h (world fun _ => false) _ opts lines chunks.reverse dir hdir
  rw [text_ini typed read_lines] at h'
  obtain ⟨p, hp, hu, -, hrun⟩ := ini_params (w := world fun _ => false) doc_of from_ini
  rw [hrun] at h'
  exact C95_no_directory hu rfl _ _ _ h'

theorem no_first_line : ¬ FirstLine := by
  intro h
  obtain ⟨fuel, dir, hdir⟩ := runs_yaml
  obtain ⟨dir', h'⟩ := h (world fun _ => true) fuel opts [] chunks.reverse dir rfl (by
    have := (C97_forms_partial (world fun _ => true) fuel opts chunks.reverse).2.1 [] [] (by simp)
    rw [List.nil_append] at this
    rw [this]
    exact hdir)
  have := (C95_first_line (world fun _ => true) fuel opts chunks.reverse).2 [] [] [] "etsim:".toList 'M' (by simp)
    (by intro c hc; cases hc) (by decide) (by decide) (by decide) (by decide) (Or.inr (by decide))
  cases h'.symm.trans this

theorem no_dates : ¬ DatesUnderstood := by
  intro h
  obtain ⟨fuel, dir, hdir⟩ := runs_yaml
  obtain ⟨dir', h'⟩ := h (world fun _ => true) fuel opts yaml yamlMain "1970-01-01" epoch chunks.reverse dir rfl (by decide +kernel)
    rfl rfl hdir
  unfold runYaml at h'
  rw [bind_ok] at h'
  obtain ⟨conf, h1, h2⟩ := h'
  have hsim := h2
  unfold simulate at h2
  rw [bind_ok] at h2
  obtain ⟨su, hu, -⟩ := h2
  have hfrom : fromYaml env opts (datedStart yaml yamlMain epoch) = .ok su := by
    unfold fromYaml
    rw [show readYaml env opts (datedStart yaml yamlMain epoch) = .ok conf from h1]
    exact hu
  obtain ⟨main', fv', dv, sv, ov, outs, ch, cv, fo, od, k1, -, -, -, -, -, -, -, -, -, u⟩ := fromYaml_ok hfrom
  have k1 : yamlMain.set "start" (.date epoch) = main' := ConfigRead.Part.dict.inj k1
  have := u.start
  unfold one at this
  rw [yaml_plain (by rw [← k1]; decide +kernel) (by decide), ← k1, Dict.get?_set_self] at this
  have : su.start = .date epoch := (Except.ok.inj this).symm
  exact C95_date hu (Or.inl this) _ _ _ hsim

end MainExample

/-- **C97 fails**: a run that would end in a directory that is there does not end without it; the first line of the documentation, and
its dates, are not understood. -/
theorem C97_refuted : ¬ DirectoryMade ∧ ¬ FirstLine ∧ ¬ DatesUnderstood ∧ ¬ C97_full :=
  ⟨MainExample.no_directory, MainExample.no_first_line, MainExample.no_dates, fun h => MainExample.no_directory h.1⟩

end Verif.Props
