import Verif.Props.Main
import Verif.Props.MainExample

/-!
# C95: the attributes of the files of a run
-/

namespace Verif.Props

open Dataset ConfigRead Main Flt Txt Units

theorem updateUnitAttrs_available : ∀ (ov : OutUnits) {attrs attrs' us : Dict String String}, updateUnitAttrs attrs ov = .ok (attrs', us) →
    ∀ k ∈ ov.keys, k ∈ availableUnits.keys := by
  intro ov
  induction ov with
  | nil => intro _ _ _ _ k hk; simp [Dict.keys] at hk
  | cons q ov ih =>
    obtain ⟨k, v⟩ := q
    intro attrs attrs' us h
    unfold updateUnitAttrs at h
    simp only [bind_ok, pure_ok] at h
    obtain ⟨⟨a1, u⟩, h1, ⟨a2, us'⟩, h2, -⟩ := h
    intro k' hk'
    rcases List.mem_cons.1 (show k' ∈ k :: Dict.keys ov from hk') with rfl | hk'
    · unfold updateOne at h1
      cases v with
      | none =>
        simp only [bind_ok] at h1
        obtain ⟨d, hd, -⟩ := h1
        exact Dict.mem_keys_of_get? _ (Dict.get_ok.1 hd)
      | some u' =>
        simp only [bind_ok] at h1
        obtain ⟨t, ht, -⟩ := h1
        have := Dict.mem_keys_of_get? _ (Dict.get_ok.1 ht)
        revert this
        generalize k' = x
        unfold converters availableUnits importAttrs Dict.keys
        simp only [List.map_cons, List.map_nil, List.mem_cons, List.not_mem_nil, or_false]
        tauto
    · exact ih h2 k' hk'

/-- The unit a variable is described with is the unit its values are converted to. -/
theorem unit_described {w : World} {p : Conf} {su : Setup} (hu : use w.cfg importAttrs p = .ok su) (hnd : su.shared.outVars.keys.Nodup)
    {v u : String} (h : su.shared.outVars.get? v = some u) : su.unitTable.get? v = some u := by
  obtain ⟨o, h1, h2, h3⟩ := (use_iff.1 hu).outs
  have hk := out_keys hu
  rw [h3] at hk
  have hk' : Dict.keys (o.map fun q => (q.1, q.2.units)) = su.shared.outVars.keys := by
    rw [← hk]; simp [Dict.keys, List.map_map, Function.comp_def]
  have h0 : unitHistory [] importAttrs = .ok importAttrs := by unfold unitHistory; rfl
  exact C03_units_attr_partial [] _ importAttrs _ _ (fun o ho => absurd ho (by simp)) (updateUnitAttrs_available _ h2) (by rw [hk']; exact hnd)
    h0 h2 v u (Dict.mem_of_get? _ h) (Or.inr fun ⟨ov, hov, _⟩ => absurd hov (by simp))

theorem described_unit (units : Dict String String) (rest : Nc.Table) {v : String} (hv : v ∈ Nc.names.map Prod.fst) :
    Dict.get? ((Nc.names.map fun q => (q.1, [("units", Nc.Attr.text ((units.get? q.1).getD "")), ("long_name", .text q.2.1), ("standard_name", .text q.2.2),
      ("missing_value", .nan), ("fill_value", .nan)])) ++ rest) v =
      some (("units", Nc.Attr.text ((units.get? v).getD "")) :: [("long_name", .text ((Dict.get? Nc.names v).getD ("", "")).1),
        ("standard_name", .text ((Dict.get? Nc.names v).getD ("", "")).2), ("missing_value", .nan), ("fill_value", .nan)]) := by
  unfold Nc.names at hv ⊢
  simp only [List.map_cons, List.map_nil, List.mem_cons, List.not_mem_nil, or_false] at hv
  rcases hv with rfl | rfl | rfl | rfl | rfl | rfl | rfl | rfl | rfl | rfl | rfl | rfl | rfl | rfl <;>
    simp (decide := true) [Dict.get?_cons]

/-- What is recorded for a parameter that the run does not change. -/
theorem recorded_mem {w : World} {p : Conf} {pa : Parent} (hp : p.keys.Nodup) {k : String} {v : Value} (h : (k, v) ∈ p)
    (hk : k ≠ "start" ∧ k ≠ "stop" ∧ k ≠ "calendar") : (k, ncVal w v) ∈ recorded w p pa := by
  have hn : ((recorded w p pa).map Prod.fst).Nodup := recorded_keys hp pa
  refine Dict.mem_of_get? (recorded w p pa) ?_
  unfold recorded
  dsimp only
  rw [Dict.get?_set_ne _ _ (Ne.symm hk.2.2), Dict.get?_set_ne _ _ (Ne.symm hk.2.1), Dict.get?_set_ne _ _ (Ne.symm hk.1)]
  refine Dict.get?_of_mem _ ?_ (List.mem_map.2 ⟨(k, v), h, rfl⟩)
  have : Dict.keys (p.map fun q => (q.1, ncVal w q.2)) = p.keys := by simp [Dict.keys, List.map_map, Function.comp_def]
  rw [this]; exact hp

/-- Parameters that are not recorded, or with values of their own. -/
def Apart (k : String) : Prop :=
  k ∈ Nc.skipped ∨ k ∈ ["state_start", "state_stop", "out_freq"] ∨ k ∈ ["start", "stop", "calendar"]

/-- Every file says what it holds: the calendar of the stamps, whether they are local or universal, the precision and unit of every
output, the period, and the parameters of the configuration: texts (without quotation marks), numbers and switches. -/
def Describes (w : World) (p : Conf) (su : Setup) (i : Worker.Inputs) (n : Nat) (freq : Option Times.Freq) (os : List (String × String))
    (dir : Nc.Dir) : Prop :=
    ∃ ld, Worker.load i (sharedOf w su) [] = .ok ld ∧ ∀ st : Stamps (jobOfSetup w su i ld n freq os), ∀ g ∈ st.files, ∃ name f tv,
      Times.filename (w.cfg.abspath su.outDir).toList su.outPrefix.toList g = .ok name ∧ dir (String.ofList name) = some f ∧
      f.vars.get? "time" = some tv ∧
      tv.attrs.get? "units" = some (.text "minutes since 2000-01-01 00:00:00.0") ∧
      tv.attrs.get? "calendar" = some (.text (w.encoding.getD su.shared.calendar)) ∧
      tv.attrs.get? "long_name" = some (.text (if su.shared.utcOffset then "UTC time" else "local time at grid location")) ∧
      (∀ v u, su.shared.outVars.get? v = some u → v ∈ Nc.names.map Prod.fst → ∃ ov, f.vars.get? ((outputOf w su freq os).names v) = some ov ∧
        ov.dtype = su.outPrecision ∧ ov.attrs.get? "units" = some (.text u)) ∧
      f.attrs.get? "start" = some (.text (Nc.unquote (w.shown i.start))) ∧
      f.attrs.get? "stop" = some (.text (Nc.unquote (w.shown i.stop))) ∧
      f.attrs.get? "calendar" = some (.text (Nc.unquote (w.encoding.getD su.shared.calendar))) ∧
      ∀ k, ¬ Apart k → (∀ s, (k, .one (.str s)) ∈ p → f.attrs.get? k = some (.text (Nc.unquote s))) ∧
        (k = "utc_offset" ∨ k = "period_ending" → ∀ b, (k, .one (.bool b)) ∈ p → f.attrs.get? k = some (.text (if b then "True" else "False"))) ∧
        (k ≠ "utc_offset" → k ≠ "period_ending" → (∀ m, (k, .one (.int m)) ∈ p → f.attrs.get? k = some (.int m)) ∧
          ∀ q, (k, .one (.num q)) ∈ p → f.attrs.get? k = some (.num q))

theorem described_of {w : World} {p : Conf} {su : Setup} {i : Worker.Inputs} {n : Nat} {freq : Option Times.Freq}
    {os : List (String × String)} {order : List (Dict String Chunk.Slice)} {whole : DS ℝ} {mask : Arr ℝ} {fuel : Nat} {sim : Except PyErr Nc.Dir}
    (hkeys : p.keys.Nodup) (huse : use w.cfg Units.importAttrs p = .ok su) (hnamed : outs su = .ok os) (hvars : su.shared.outVars.keys.Nodup)
    (h : Outcome w p su i whole mask n freq os order fuel sim) {dir : Nc.Dir} (hdir : sim = .ok dir) : Describes w p su i n freq os dir := by
  obtain ⟨ld, hw, e1, e2, hin, hj, hsch, hiff, hval⟩ := h
  obtain ⟨hv, hd, hcr, files, hf⟩ := hiff.1 ⟨dir, hdir⟩
  refine ⟨ld, hw, fun st g hg => ?_⟩
  obtain ⟨name, f0, f, a1, a2, a3, a4, -⟩ := hval dir files hdir hf st g hg
  obtain ⟨tv, t1, t2, t3, t4, t5⟩ := a3.time
  obtain ⟨c1, c2⟩ := t5 (Nc.timeAttrs su.shared.utcOffset) (by unfold table Nc.moduleTable Nc.names; simp [Dict.get?_cons])
  obtain ⟨tv', r1, -, -, -, r5⟩ := a4.described _ _ t1
  have par := a3.params
  have hpar : ∀ q ∈ recorded w p (parentOf w su i ld), ∀ a, Nc.record q = .ok (some a) → f.attrs.get? q.1 = some a := by
    intro q hq a ha
    rw [a4.attrs]
    exact par q hq a ha
  refine ⟨name, f, tv', a1, a2, r1, ?_, ?_, ?_, ?_, ?_, ?_, ?_, ?_⟩
  · rw [r5]; exact c1 _ _ (by unfold Nc.timeAttrs; simp [Dict.get?_cons])
  · rw [r5]; exact c2 (by unfold Nc.timeAttrs; simp [Dict.get?_cons])
  · rw [r5]; exact c1 _ _ (by unfold Nc.timeAttrs; simp [Dict.get?_cons])
  · intro v u hu hvn
    have hout := outs_names (i := i) (ld := ld) huse hnamed hvars freq
    have hmem : (v, (outputOf w su freq os).names v) ∈ (filesOf w p su i ld os).outs := by
      rw [hout]
      exact List.mem_map.2 ⟨v, Dict.mem_keys_of_get? _ hu, rfl⟩
    obtain ⟨ov, o1, o2, -, -, o5, -⟩ := a3.outs _ hmem
    obtain ⟨ov', s1, s2, -, -, s5⟩ := a4.described _ _ o1
    refine ⟨ov', s1, s2.trans o2, ?_⟩
    rw [s5, o5]
    have hun := unit_described huse hvars hu
    unfold table Nc.moduleTable
    rw [described_unit _ _ hvn, hun]
    simp [Dict.get?_cons]
  · refine hpar ("start", .time (w.shown i.start)) (Dict.mem_of_get? (recorded w p (parentOf w su i ld)) ?_) _ rfl
    unfold recorded
    dsimp only
    rw [Dict.get?_set_ne _ _ (by decide), Dict.get?_set_ne _ _ (by decide), Dict.get?_set_self]
    rfl
  · refine hpar ("stop", .time (w.shown i.stop)) (Dict.mem_of_get? (recorded w p (parentOf w su i ld)) ?_) _ rfl
    unfold recorded
    dsimp only
    rw [Dict.get?_set_ne _ _ (by decide), Dict.get?_set_self]
    rfl
  · refine hpar ("calendar", .text (w.encoding.getD su.shared.calendar)) (Dict.mem_of_get? (recorded w p (parentOf w su i ld)) ?_) _ rfl
    unfold recorded
    dsimp only
    rw [Dict.get?_set_self]
    rfl
  · intro k hk
    unfold Apart at hk
    push Not at hk
    obtain ⟨k1, k2, k3⟩ := hk
    have k3' : k ≠ "start" ∧ k ≠ "stop" ∧ k ≠ "calendar" := by simpa using k3
    have kept : ∀ v, (k, v) ∈ p → ∀ a, Nc.record (k, ncVal w v) = .ok (some a) → f.attrs.get? k = some a :=
      fun v hv a ha => hpar _ (recorded_mem hkeys hv k3') a ha
    refine ⟨fun s hs => kept _ hs _ ?_, fun hb b hs => kept _ hs _ ?_, fun x1 x2 => ⟨fun m hs => kept _ hs _ ?_, fun q hs => kept _ hs _ ?_⟩⟩
    · unfold Nc.record
      rw [if_neg k1, if_neg k2]
      unfold ncVal
      split_ifs <;> rfl
    · unfold Nc.record
      rw [if_neg k1, if_neg k2, if_pos (by rcases hb with rfl | rfl <;> simp)]
      cases b
      · exact congrArg (fun t => Except.ok (some (Nc.Attr.text t))) (show Nc.unquote "False" = "False" by decide +kernel)
      · exact congrArg (fun t => Except.ok (some (Nc.Attr.text t))) (show Nc.unquote "True" = "True" by decide +kernel)
    · unfold Nc.record
      rw [if_neg k1, if_neg k2, if_neg (by simp [k3', x1, x2])]
      rfl
    · unfold Nc.record
      rw [if_neg k1, if_neg k2, if_neg (by simp [k3', x1, x2])]
      rfl

/-- **C95**: every file of a run says what it holds: the calendar of the stamps, whether they are local or universal, the precision and unit of
every output, the period, and the parameters of the configuration: texts (without quotation marks), numbers and switches. -/
theorem C95_described {w : World} {p : Conf} {su : Setup} {i : Worker.Inputs} {n : Nat} {freq : Option Times.Freq}
    {os : List (String × String)} {order : List (Dict String Chunk.Slice)} {whole : DS ℝ} {mask : Arr ℝ}
    (h : Ready w p su i whole mask n freq os order) (fuel : Nat) {dir : Nc.Dir} (hdir : simulate w fuel p order = .ok dir) :
    ∃ ld, Worker.load i (sharedOf w su) [] = .ok ld ∧ ∀ st : Stamps (jobOfSetup w su i ld n freq os), ∀ g ∈ st.files, ∃ name f tv,
      Times.filename (w.cfg.abspath su.outDir).toList su.outPrefix.toList g = .ok name ∧ dir (String.ofList name) = some f ∧
      f.vars.get? "time" = some tv ∧
      tv.attrs.get? "units" = some (.text "minutes since 2000-01-01 00:00:00.0") ∧
      tv.attrs.get? "calendar" = some (.text (w.encoding.getD su.shared.calendar)) ∧
      tv.attrs.get? "long_name" = some (.text (if su.shared.utcOffset then "UTC time" else "local time at grid location")) ∧
      (∀ v u, su.shared.outVars.get? v = some u → v ∈ Nc.names.map Prod.fst → ∃ ov, f.vars.get? ((outputOf w su freq os).names v) = some ov ∧
        ov.dtype = su.outPrecision ∧ ov.attrs.get? "units" = some (.text u)) ∧
      f.attrs.get? "start" = some (.text (Nc.unquote (w.shown i.start))) ∧
      f.attrs.get? "stop" = some (.text (Nc.unquote (w.shown i.stop))) ∧
      f.attrs.get? "calendar" = some (.text (Nc.unquote (w.encoding.getD su.shared.calendar))) ∧
      ∀ k, ¬ Apart k → (∀ s, (k, .one (.str s)) ∈ p → f.attrs.get? k = some (.text (Nc.unquote s))) ∧
        (k = "utc_offset" ∨ k = "period_ending" → ∀ b, (k, .one (.bool b)) ∈ p → f.attrs.get? k = some (.text (if b then "True" else "False"))) ∧
        (k ≠ "utc_offset" → k ≠ "period_ending" → (∀ m, (k, .one (.int m)) ∈ p → f.attrs.get? k = some (.int m)) ∧
          ∀ q, (k, .one (.num q)) ∈ p → f.attrs.get? k = some (.num q)) := by
  exact described_of h.keys h.use h.named h.plan.vars (C95_run h fuel) hdir

/-- **C95**: the output is split as `out_freq` says; an empty text or `null` is one file. -/
theorem C95_frequency {w : World} {p : Conf} {su : Setup} {i : Worker.Inputs} {n : Nat} {freq : Option Times.Freq}
    {os : List (String × String)} {order : List (Dict String Chunk.Slice)} {whole : DS ℝ} {mask : Arr ℝ}
    (h : Ready w p su i whole mask n freq os order) :
    (freq = none ↔ su.outFreq = .null ∨ su.outFreq = .str "") ∧
    ∀ f, freq = some f ↔ ∃ s, su.outFreq = .str s ∧ s ≠ "" ∧ w.freq s = .ok f := by
  have hf := h.frequency
  generalize su.outFreq = o at hf ⊢
  cases o with
  | str s =>
    by_cases hs : s = ""
    · subst hs
      unfold outFreq at hf
      dsimp only at hf
      rw [if_pos rfl] at hf
      cases hf
      simp
    · unfold outFreq at hf
      dsimp only at hf
      rw [if_neg hs, bind_ok] at hf
      obtain ⟨f, h1, h2⟩ := hf
      rw [pure_ok] at h2
      subst h2
      simp [hs, h1]
  | null =>
    unfold outFreq at hf
    cases hf
    simp
  | _ => unfold outFreq at hf; cases hf

/-- An empty frequency is understood. -/
theorem C95_unsplit (w : World) : outFreq w (.str "") = .ok none ∧ outFreq w .null = .ok none ∧
    ∀ s f, s ≠ "" → w.freq s = .ok f → outFreq w (.str s) = .ok (some f) := by
  refine ⟨rfl, rfl, fun s f hs hf => ?_⟩
  unfold outFreq
  dsimp only
  rw [if_neg hs, hf]
  rfl

end Verif.Props
