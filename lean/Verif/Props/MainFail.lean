import Verif.Props.Main
import Verif.Props.IniLayout
import Verif.Props.Config

/-!
# C95: configurations that cannot lead to a run
-/

namespace Verif.Props

open Dataset ConfigRead Main Txt

section
variable {w : World} {p : Conf} {su : Setup}

/-- A run that ended went through all of this. -/
theorem simulate_needs (hu : use w.cfg Units.importAttrs p = .ok su) {fuel : Nat} {order : List (Dict String Chunk.Slice)} {dir : Nc.Dir}
    (h : simulate w fuel p order = .ok dir) : (∃ pa, construct w su = .ok pa ∧ check su pa.met = .ok ()) ∧ (∃ os, outs su = .ok os) ∧
      w.isDir (w.cfg.abspath su.outDir) = true := by
  unfold simulate at h
  simp only [hu, bind_ok] at h
  obtain ⟨su', e, pa, h1, freq, -, ⟨axis, groups⟩, -, u, h2, os, h3, mask, -, h⟩ := h
  obtain rfl := Except.ok.inj e
  refine ⟨⟨pa, h1, h2⟩, ⟨os, h3⟩, ?_⟩
  by_contra hc
  rw [if_pos (by simpa using hc)] at h
  cases h

/-- **C95: nothing creates the output directory**: without it every run fails. -/
theorem C95_no_directory (hu : use w.cfg Units.importAttrs p = .ok su) (hd : w.isDir (w.cfg.abspath su.outDir) = false) (fuel : Nat)
    (order : List (Dict String Chunk.Slice)) (dir : Nc.Dir) : simulate w fuel p order ≠ .ok dir := by
  intro h
  have := (simulate_needs hu h).2.2
  rw [hd] at this; cases this

/-- **C95: several NetCDF forcing files** (a directory given as `forcing`) cannot be opened. -/
theorem C95_forcing_files (hu : use w.cfg Units.importAttrs p = .ok su) {l : List String} (hf : su.forcing = .files l) (fuel : Nat)
    (order : List (Dict String Chunk.Slice)) (dir : Nc.Dir) : simulate w fuel p order ≠ .ok dir := by
  intro h
  obtain ⟨⟨pa, h, -⟩, -⟩ := simulate_needs hu h
  unfold construct at h
  split_ifs at h
  · cases h
  · simp only [hf, openForcing, bind_ok] at h
    obtain ⟨_, -, _, -, _, -, _, h, -⟩ := h
    cases h

/-- **C95: an output without a name** (a YAML entry without `out_name`) ends the run. -/
theorem C95_unnamed (hu : use w.cfg Units.importAttrs p = .ok su) {v : String} (hv : (v, none) ∈ su.outNames) (fuel : Nat)
    (order : List (Dict String Chunk.Slice)) (dir : Nc.Dir) : simulate w fuel p order ≠ .ok dir := by
  intro h
  obtain ⟨-, ⟨os, h⟩, -⟩ := simulate_needs hu h
  unfold outs at h
  obtain ⟨k, hk, e⟩ := List.getElem_of_mem hv
  obtain ⟨hl, h⟩ := mapM_getElem h
  have h := h k _ _ (List.getElem?_eq_getElem hk) (List.getElem?_eq_getElem (by rw [hl]; exact hk))
  rw [e] at h
  simp only [required, bind_ok] at h
  obtain ⟨_, h, -⟩ := h
  cases h

theorem outs_unnamed : ∀ {l : List (String × Option String)} {v : String}, (v, none) ∈ l →
    (l.mapM fun q => do
      let n ← required q.2
      pure (q.1, n) : Except PyErr (List (String × String))) = .error .keyError
  | [], _, h => by cases h
  | (x, none) :: l, v, _ => by rw [List.mapM_cons]; rfl
  | (x, some n) :: l, v, h => by
    rw [List.mapM_cons, outs_unnamed (v := v) (by simpa using h)]
    rfl

/-- **C95**: the run ends with the `KeyError` of the missing name, once everything else is checked. -/
theorem C95_unnamed_error (hu : use w.cfg Units.importAttrs p = .ok su) {v : String} (hv : (v, none) ∈ su.outNames) {pa : Parent}
    (hpa : construct w su = .ok pa) {freq : Option Times.Freq} (hf : outFreq w su.outFreq = .ok freq) {g : List ℚ × Nc.Groups}
    (hg : stamps w su pa.shared freq (Worker.daysOf pa.met) = .ok g) (hc : check su pa.met = .ok ()) (fuel : Nat)
    (order : List (Dict String Chunk.Slice)) : simulate w fuel p order = .error .keyError := by
  have ho : outs su = .error .keyError := outs_unnamed hv
  unfold simulate
  simp only [hu, hpa, hf, hg, hc, ho, bind, Except.bind]

/-- **C95: a date of YAML is not a time**: `start: 1950-01-01`, which the YAML reader makes a date, ends the run. -/
theorem C95_date (hu : use w.cfg Units.importAttrs p = .ok su) {d : Int} (hd : su.start = .date d ∨ su.stop = .date d) (fuel : Nat)
    (order : List (Dict String Chunk.Slice)) (dir : Nc.Dir) : simulate w fuel p order ≠ .ok dir := by
  intro h
  obtain ⟨⟨pa, h, -⟩, -⟩ := simulate_needs hu h
  unfold construct at h
  split_ifs at h
  · cases h
  · simp only [bind_ok] at h
    obtain ⟨_, -, _, -, _, -, _, -, _, -, _, -, q, h, -⟩ := h
    unfold Params.validateForceTimes at h
    simp only [bind_ok] at h
    obtain ⟨v, a1, v', a2, v2, b1, v2', b2, c, -, h⟩ := h
    obtain rfl : pval su.start = v := Except.ok.inj a1
    obtain rfl : pval su.stop = v2 := Except.ok.inj b1
    rcases hd with e | e
    · rw [e] at a2
      obtain rfl : Params.PVal.date d = v' := Except.ok.inj a2
      simp at h
    · rw [e] at b2
      obtain rfl : Params.PVal.date d = v2' := Except.ok.inj b2
      simp at h

end

/-- **C95**: a worker writes nothing unless the forcing it has read itself passes the checks. -/
theorem C95_worker_checked {fuel : Nat} {pa : Parent} {freq : Option Times.Freq} {os : List (String × String)} {dir dir' : Nc.Dir}
    {chunk : Dict String Chunk.Slice} (h : worker w fuel su pa freq os dir chunk = .ok dir') :
    ∃ i ld, inputs w su pa = .ok i ∧ Worker.load i pa.shared chunk = .ok ld ∧ check su ld.met = .ok () := by
  unfold worker at h
  simp only [bind_ok] at h
  obtain ⟨i, h1, ld, h2, r, -, u, h3, -⟩ := h
  exact ⟨i, ld, h1, h2, h3⟩

theorem not_metsim {l : Str} (h : Idle l) : strip (l.takeWhile (· != '#')) ≠ "MetSim:".toList := by
  intro e
  obtain ⟨pre, post, h1, h2, -⟩ := strip_decomp (l.takeWhile (· != '#'))
  rw [e] at h1
  obtain ⟨a, rest, e1, hb, hr⟩ := h
  have h3 : l = pre ++ 'M' :: ("etSim:".toList ++ post ++ l.dropWhile (· != '#')) := by
    conv_lhs => rw [← List.takeWhile_append_dropWhile (p := (· != '#')) (l := l), h1]
    simp
  generalize "etSim:".toList ++ post ++ l.dropWhile (· != '#') = more at h3
  rw [e1] at h3
  clear h1 e e1
  induction a generalizing pre with
  | nil =>
    simp only [List.nil_append] at h3
    subst h3
    cases pre with
    | nil => simp at hr
    | cons x xs =>
      simp only [List.cons_append, List.head?_cons, Option.some.injEq, reduceCtorEq, false_or] at hr
      have := h2 x (by simp)
      rcases hr with rfl | rfl <;> (revert this; decide)
  | cons x xs ih =>
    cases pre with
    | nil =>
      simp only [List.cons_append, List.nil_append, List.cons.injEq] at h3
      have := hb x (by simp)
      rw [h3.1] at this
      revert this; decide
    | cons y ys =>
      simp only [List.cons_append, List.cons.injEq] at h3
      exact ih ys (fun c hc => h2 c (List.mem_cons_of_mem _ hc)) (fun c hc => hb c (List.mem_cons_of_mem _ hc)) h3.2

theorem ini_type {idle rest : List Str} {line : Str} (hi : ∀ l ∈ idle, Idle l) (hl : ¬ IsComment line)
    (h : (∃ l ∈ idle, ¬ IsComment l) ∨ strip (line.takeWhile (· != '#')) ≠ "MetSim:".toList) :
    Config.checkConfigType (idle ++ line :: rest) = .ini := by
  by_cases hc : ∀ l ∈ idle, IsComment l
  · rw [(C27_config_type idle rest line hc hl).1, if_neg]
    rcases h with ⟨l, h1, h2⟩ | h
    · exact absurd (hc l h1) h2
    · exact h
  · classical
    have key : ∃ cs l r, idle = cs ++ l :: r ∧ (∀ x ∈ cs, IsComment x) ∧ ¬ IsComment l := by
      clear h hi
      induction idle with
      | nil => simp at hc
      | cons a as ih =>
        by_cases ha : IsComment a
        · obtain ⟨cs, l, r, e, h1, h2⟩ := ih (fun h => hc (by simpa [ha] using h))
          exact ⟨a :: cs, l, r, by rw [e]; rfl, by simpa [ha] using h1, h2⟩
        · exact ⟨[], a, as, rfl, by simp, ha⟩
    obtain ⟨cs, l, r, e, h1, h2⟩ := key
    rw [e, List.append_assoc, List.cons_append, (C27_config_type cs _ l h1 h2).1, if_neg]
    exact not_metsim (hi l (by rw [e]; simp))

/-- **C95: which files are read as YAML, and which are refused by their first line.**  A file that starts with comments and then
`MetSim:` is read as YAML.  A file whose first words are no INI section is refused, if there is an empty line in front of them or they
are not just `MetSim:` (as `Metsim:`, or `MetSim: {`, or `---`). -/
theorem C95_first_line (w : World) (fuel : Nat) (opts : Opts) (order : List (Dict String Chunk.Slice)) :
    (∀ (comments rest : List Str) (line : Str), (∀ l ∈ comments, IsComment l) → ¬ IsComment line →
      strip (line.takeWhile (· != '#')) = "MetSim:".toList →
      runText w fuel opts (comments ++ line :: rest) order = (do
        let y ← w.yaml (comments ++ line :: rest)
        runYaml w fuel opts y order)) ∧
    ∀ (idle rest : List Str) (pre r : Str) (x : Char), (∀ l ∈ idle, Idle l) → Blanks pre → isSpace x = false →
      x ≠ '#' → x ≠ ';' → x ≠ '[' →
      (∃ l ∈ idle, ¬ IsComment l) ∨ strip ((pre ++ x :: r).takeWhile (· != '#')) ≠ "MetSim:".toList →
      runText w fuel opts (idle ++ (pre ++ x :: r) :: rest) order = .error .valueError := by
  refine ⟨fun comments rest line hc hl h => ?_, fun idle rest pre r x hi hp hx h1 h2 h3 h => ?_⟩
  · unfold runText
    rw [(C27_config_type comments rest line hc hl).1, if_pos h]
  · have hl : ¬ IsComment (pre ++ x :: r) := by
      rintro ⟨a, b, e, ha⟩
      clear h
      induction a generalizing pre with
      | nil =>
        cases pre with
        | nil => simp only [List.nil_append, List.cons.injEq] at e; exact h1 e.1
        | cons y ys =>
          simp only [List.cons_append, List.nil_append, List.cons.injEq] at e
          have := hp y (by simp)
          rw [e.1] at this; revert this; decide
      | cons z zs ih =>
        cases pre with
        | nil =>
          simp only [List.cons_append, List.nil_append, List.cons.injEq] at e
          have := ha z (by simp)
          rw [← e.1, hx] at this; cases this
        | cons y ys =>
          simp only [List.cons_append, List.cons.injEq] at e
          exact ih ys (fun c hc => hp c (List.mem_cons_of_mem _ hc)) e.2 (fun c hc => ha c (List.mem_cons_of_mem _ hc))
    unfold runText
    rw [ini_type hi hl h, C91_headless hi hp hx h1 h2 (fun e => absurd e h3)]
    rfl

/-- The documentation's first line. -/
example (w : World) (fuel : Nat) (opts : Opts) (order : List (Dict String Chunk.Slice)) (rest : List Str) :
    runText w fuel opts ("Metsim:".toList :: rest) order = .error .valueError :=
  (C95_first_line w fuel opts order).2 [] rest [] "etsim:".toList 'M' (by simp) (by intro c hc; cases hc) (by decide) (by decide) (by decide)
    (by decide) (Or.inr (by decide))

end Verif.Props
