import Verif.Props.YamlText
import Verif.Props.Program
import Verif.Props.MainFail

/-!
# C144: runs of YAML files
-/

namespace Verif.Props

open ConfigRead YamlText YamlLayout
open Txt (Str)

/-- PyYAML reads what the model reads. -/
def YamlLayout.Loads (w : Main.World) : Prop := ∀ lines y, YamlText.read lines = some y → w.yaml lines = .ok y

/-- The first line that is no comment is `MetSim:`. -/
def YamlLayout.Marked (lines : List Str) : Prop := ∃ comments rest line, lines = comments ++ line :: rest ∧ (∀ l ∈ comments, IsComment l) ∧
  ¬ IsComment line ∧ Txt.strip (line.takeWhile (· != '#')) = "MetSim:".toList

theorem marked_type {lines : List Str} (h : Marked lines) : Config.checkConfigType lines = .yaml := by
  obtain ⟨comments, rest, line, rfl, h1, h2, h3⟩ := h
  rw [(C27_config_type comments rest line h1 h2).1, if_pos h3]

/-- A run of a YAML file is a run of what the file says. -/
theorem C144_run {w : Main.World} {lines : List Str} {d : Dict String (Dict String Item)} {y : Yaml} (hw : Loads w) (hl : Marked lines)
    (h : YamlLayout.Says lines d) (hy : Tells d y) (fs : Vic.Files) (fuel : Nat) (opts : Opts) (order : List (Dict String Chunk.Slice)) :
    Program.runText w fs fuel opts lines order = Program.runYaml w fs fuel opts y order ∧
      Main.runText w fuel opts lines order = Main.runYaml w fuel opts y order := by
  unfold Program.runText Main.runText
  rw [marked_type hl, hw _ _ (C144_read h hy)]
  exact ⟨rfl, rfl⟩

/-- Two files that say the same, with whatever layout, make the same run. -/
theorem C144_layout {w : Main.World} {lines lines' : List Str} {d : Dict String (Dict String Item)} {y : Yaml} (hw : Loads w)
    (hl : Marked lines) (hl' : Marked lines') (h : YamlLayout.Says lines d) (h' : YamlLayout.Says lines' d) (hy : Tells d y)
    (fs : Vic.Files) (fuel : Nat) (opts : Opts) (order : List (Dict String Chunk.Slice)) :
    Program.runText w fs fuel opts lines order = Program.runText w fs fuel opts lines' order := by
  rw [(C144_run hw hl h hy fs fuel opts order).1, (C144_run hw hl' h' hy fs fuel opts order).1]

theorem vic_date {w : Main.World} {fs : Vic.Files} {p : Conf} {su : Setup} (hu : use w.cfg Units.importAttrs p = .ok su) {d : Int}
    (hd : su.start = .date d ∨ su.stop = .date d) (fuel : Nat) (order : List (Dict String Chunk.Slice)) (dir : Nc.Dir) :
    Vic.simulate w fs fuel p order ≠ .ok dir := by
  intro h
  unfold Vic.simulate at h
  rw [hu] at h
  obtain ⟨pa, h, -⟩ := bind_ok.1 (show (Vic.construct w fs su >>= _) = _ from h)
  unfold Vic.construct at h
  simp only [bind_ok] at h
  obtain ⟨_, -, _, -, _, -, _, -, _, -, _, -, _, -, _, -, _, -, q, h, -⟩ := h
  unfold Params.validateForceTimes at h
  simp only [bind_ok] at h
  obtain ⟨v, a1, v', a2, v2, b1, v2', b2, c, -, h⟩ := h
  obtain rfl : Main.pval su.start = v := Except.ok.inj a1
  obtain rfl : Main.pval su.stop = v2 := Except.ok.inj b1
  rcases hd with e | e
  · rw [e] at a2
    obtain rfl : Params.PVal.date d = v' := Except.ok.inj a2
    simp at h
  · rw [e] at b2
    obtain rfl : Params.PVal.date d = v2' := Except.ok.inj b2
    simp at h

theorem no_date {w : Main.World} {y : Yaml} {main : Dict String Scalar} (hm : y.main = .dict main) (hn : main.keys.Nodup) {k : String}
    (hk : k = "start" ∨ k = "stop") {n : Int} (hv : main.get? k = some (.date n)) (fs : Vic.Files) (fuel : Nat) (opts : Opts)
    (order : List (Dict String Chunk.Slice)) (dir : Nc.Dir) : Program.runYaml w fs fuel opts y order ≠ .ok dir := by
  intro h
  unfold Program.runYaml at h
  rw [bind_ok] at h
  obtain ⟨conf, h1, h2⟩ := h
  obtain ⟨su, hu⟩ : ∃ su, use w.cfg Units.importAttrs ((classParams Params.importNames).update conf) = .ok su := by
    have h2 := h2
    unfold Program.simulate at h2
    rw [bind_ok] at h2
    exact ⟨_, h2.choose_spec.1⟩
  obtain ⟨m', fv, dv, sv, ov, outs, ch, cv, fo, od, e1, -, -, -, -, -, -, -, -, -, u⟩ :=
    fromYaml_ok (opts := opts) (y := y) (s := su) (env := w.cfg) (by unfold fromYaml; rw [bind_ok]; exact ⟨_, h1, hu⟩)
  obtain rfl : main = m' := Part.dict.inj (hm.symm.trans e1)
  have hdate : su.start = .date n ∨ su.stop = .date n := by
    rcases hk with rfl | rfl
    · have := u.start
      unfold one at this
      rw [yaml_plain hn (by decide), hv] at this
      exact .inl (Except.ok.inj this).symm
    · have := u.stop
      unfold one at this
      rw [yaml_plain hn (by decide), hv] at this
      exact .inr (Except.ok.inj this).symm
  rcases (C142_format hu).1 h2 with ⟨-, h⟩ | ⟨-, h⟩
  · exact C95_date hu hdate _ _ _ h
  · exact vic_date hu hdate _ _ _ h

theorem ones_get {m : Dict String Scalar} {s : Dict String Item} (h : List.Forall₂ (fun q i => i.1 = q.1 ∧ i.2 = .one q.2) m s) :
    m.keys = s.keys ∧ ∀ k v, s.get? k = some (.one v) → m.get? k = some v := by
  induction h with
  | nil => exact ⟨rfl, fun k v h => by cases h⟩
  | @cons q i _ _ h _ ih =>
    obtain ⟨a, x⟩ := q
    obtain ⟨b, z⟩ := i
    simp only at h
    obtain ⟨rfl, rfl⟩ := h
    refine ⟨congrArg (b :: ·) ih.1, fun k v hk => ?_⟩
    simp only [Dict.get?] at hk ⊢
    split_ifs at hk ⊢ with e
    · rw [Option.some.injEq, Item.one.injEq] at hk
      rw [hk]
    · exact ih.2 k v hk

/-- A first or last day written `YYYY-MM-DD` without quotes is a date to YAML, and no such file makes a run. -/
theorem C144_date {w : Main.World} {lines : List Str} {d : Dict String (Dict String Item)} {y : Yaml} {s : Dict String Item} (hw : Loads w)
    (hl : Marked lines) (h : YamlLayout.Says lines d) (hy : Tells d y) (hs : d.get? "MetSim" = some s) {k : String} (hk : k = "start" ∨ k = "stop")
    {n : Int} (hv : s.get? k = some (.one (.date n))) (fs : Vic.Files) (fuel : Nat) (opts : Opts) (order : List (Dict String Chunk.Slice))
    (dir : Nc.Dir) : Program.runText w fs fuel opts lines order ≠ .ok dir := by
  rw [(C144_run hw hl h hy fs fuel opts order).1]
  have hm := hy.main
  rw [hs] at hm
  have hn : s.keys.Nodup := (h.1.2 ("MetSim", s) (Dict.mem_of_get? _ hs)).1
  cases e : y.main with
  | absent => rw [e] at hm; cases hm
  | empty => rw [e] at hm; cases hm; cases hv
  | dict m =>
    rw [e] at hm
    cases hm with
    | dict _ _ hd hf =>
      obtain ⟨e1, e2⟩ := ones_get hf
      exact no_date e (by rw [e1]; exact hn) hk (e2 _ _ hv) fs fuel opts order dir

end Verif.Props
