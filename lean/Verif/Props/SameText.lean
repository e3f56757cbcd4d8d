import Verif.Props.UnknownOptions
import Verif.Props.ProgramExample
import Verif.Props.YamlTextExample

/-!
# C145: one configuration, two files
-/

namespace Verif.Props

open ConfigRead YamlLayout

/-- The same for files for single cells. -/
theorem vic_alike {w : Main.World} {fs : Vic.Files} {p q : Conf} {fuel : Nat} {order : List (Dict String Chunk.Slice)} {dir : Nc.Dir}
    (h : use w.cfg Units.importAttrs p = use w.cfg Units.importAttrs q) (hq : q.keys.Nodup) (hwr : ∀ e ∈ q, Writable w e)
    (hdir : Vic.simulate w fs fuel p order = .ok dir) : ∃ dir', Vic.simulate w fs fuel q order = .ok dir' ∧ DirLike dir dir' := by
  unfold Vic.simulate at hdir
  rw [h] at hdir
  simp only [bind_ok] at hdir
  obtain ⟨su, h1, pa, h2, freq, h3, ⟨axis, groups⟩, h4, u, h5, os, h6, mask, h7, hdir⟩ := hdir
  by_cases hd : w.isDir (w.cfg.abspath su.outDir) = false
  · rw [if_pos hd] at hdir
    obtain ⟨-, hx, -⟩ := hdir
  rw [if_neg hd] at hdir
  simp only [bind_ok] at hdir
  obtain ⟨⟨d0, tb⟩, h8, h9⟩ := hdir
  have hout : ∀ o ∈ os, o.1 ≠ "_global" := by
    intro o ho e
    have hk : o.1 ∈ os.map Prod.fst := List.mem_map_of_mem ho
    rw [outs_keys h6, out_keys h1, e] at hk
    obtain ⟨r, hr, er⟩ := List.mem_map.1 hk
    obtain ⟨_, -, hup, -⟩ := (use_iff.1 h1).outs
    obtain ⟨t, f, hc, -⟩ := update_convertible hup r hr
    rw [er] at hc
    cases hc
  have hglob : ∀ g, ∃ g', Nc.globals (Main.fileCfg w q su pa mask os).params g = .ok g' := fun g =>
    (globals_iff _ g (recorded_keys hq pa)).1.2 (recorded_writable hwr)
  have htab : TableLike (Main.table w su) (Main.table w su) := ⟨fun _ _ => rfl, _, rfl⟩
  obtain ⟨d0', tb', k1, k2⟩ := create_like (c' := Main.fileCfg w q su pa mask os) rfl htab hout hglob h8
  have hrun : ∃ dir', order.foldlM (Vic.worker w fs fuel su pa freq os) d0' = .ok dir' ∧ DirLike dir dir' := by
    refine foldlM_lift DirLike ?_ k2 h9
    intro x _ a b a' hab ha
    unfold Vic.worker at ha ⊢
    simp only [bind_ok] at ha
    obtain ⟨i, e1, ld, e2, ⟨ax, gr⟩, e3, u', e4, out, e5, e6⟩ := ha
    obtain ⟨b', k3, k4⟩ := writeChunk_like hab e6
    refine ⟨b', ?_, k4⟩
    simp only [bind_ok]
    exact ⟨i, e1, ld, e2, (ax, gr), e3, u', e4, out, e5, k3⟩
  obtain ⟨dir', k3, k4⟩ := hrun
  refine ⟨dir', ?_, k4⟩
  unfold Vic.simulate
  simp only [bind_ok]
  refine ⟨su, h1, pa, h2, freq, h3, (axis, groups), h4, u, h5, os, h6, mask, h7, ?_⟩
  rw [if_neg hd]
  simp only [bind_ok]
  exact ⟨(d0', tb'), k1, k3⟩

theorem program_alike {w : Main.World} {fs : Vic.Files} {p q : Conf} {fuel : Nat} {order : List (Dict String Chunk.Slice)} {dir : Nc.Dir}
    (h : use w.cfg Units.importAttrs p = use w.cfg Units.importAttrs q) (hq : q.keys.Nodup) (hwr : ∀ e ∈ q, Writable w e)
    (hdir : Program.simulate w fs fuel p order = .ok dir) : ∃ dir', Program.simulate w fs fuel q order = .ok dir' ∧ DirLike dir dir' := by
  unfold Program.simulate at hdir ⊢
  rw [h] at hdir
  simp only [bind_ok] at hdir
  obtain ⟨su, h1, h2⟩ := hdir
  rw [h1]
  show ∃ dir', (if su.forcingFmt ∈ ["ascii", "binary"] then _ else _) = _ ∧ _
  split_ifs at h2 ⊢ with hf
  · exact vic_alike h hq hwr h2
  · exact files_alike h hq hwr h2

/-- **C136 for every format of the forcing.** -/
theorem C136_program {w : Main.World} {fs : Vic.Files} {p q : Conf} {fuel : Nat} {order : List (Dict String Chunk.Slice)} {dir : Nc.Dir}
    (h : ∀ k ∈ readKeys, p.get? k = q.get? k) (hq : q.keys.Nodup) (hwr : ∀ e ∈ q, Writable w e)
    (hdir : Program.simulate w fs fuel p order = .ok dir) : ∃ dir', Program.simulate w fs fuel q order = .ok dir' ∧ DirLike dir dir' :=
  program_alike (C136_setup w.cfg Units.importAttrs h) hq hwr hdir

/-! ## INI and YAML -/

/-- What a YAML file says that can be recorded in the output. -/
def Recordable (main : Dict String Scalar) : Prop := ∀ q ∈ main, Textual q.1 ∨ (q.2 ≠ .null ∧ (∀ b, q.2 ≠ .bool b) ∧ ∀ d, q.2 ≠ .date d)

section

variable {w : Main.World} {opts : Opts} {f : Ini.File} {d : IniDoc} {y : Yaml} {main : Dict String Scalar} {outs : Dict String OutSpec}

theorem run_yaml_of_ini (hd : d.Of w.cfg f) (h : SameConfig w.cfg d y main outs) (hb : d.main.get? "forcing_fmt" ≠ some "binary")
    (hr : Recordable main) {fs : Vic.Files} {fuel : Nat} {order : List (Dict String Chunk.Slice)} {dir : Nc.Dir}
    (hdir : Program.runIni w fs fuel opts f order = .ok dir) :
    ∃ dir', Program.runYaml w fs fuel opts y order = .ok dir' ∧ DirLike dir dir' := by
  have same := C93_same_run_partial (opts := opts) hd h hb
  unfold Program.runIni at hdir
  rw [bind_ok] at hdir
  obtain ⟨⟨conf, avail⟩, h1, h2⟩ := hdir
  obtain ⟨su, hu⟩ : ∃ su, use w.cfg Units.importAttrs ((classParams avail).update conf) = .ok su := by
    have h2 := h2
    unfold Program.simulate at h2
    rw [bind_ok] at h2
    exact ⟨_, h2.choose_spec.1⟩
  have hini : fromIni w.cfg opts f = .ok su := by
    unfold fromIni
    rw [h1]
    exact hu
  rw [hini] at same
  unfold fromYaml at same
  rw [bind_ok] at same
  obtain ⟨conf', k1, k2⟩ := same
  have hnd : ((classParams Params.importNames).update conf').keys.Nodup := Dict.nodup_update _ _ (by
    unfold classParams Dict.keys; simp only [List.map_cons, List.map_nil]; decide)
  obtain ⟨dir', k3, k4⟩ := program_alike (hu.trans k2.symm) hnd (yaml_writable k1 (by
    intro m hm
    obtain rfl : main = m := ConfigRead.Part.dict.inj (h.hmain.symm.trans hm)
    exact hr)) h2
  refine ⟨dir', ?_, k4⟩
  unfold Program.runYaml
  rw [k1]
  exact k3

theorem run_ini_of_yaml (hd : d.Of w.cfg f) (h : SameConfig w.cfg d y main outs) (hb : d.main.get? "forcing_fmt" ≠ some "binary")
    {fs : Vic.Files} {fuel : Nat} {order : List (Dict String Chunk.Slice)} {dir : Nc.Dir}
    (hdir : Program.runYaml w fs fuel opts y order = .ok dir) :
    ∃ dir', Program.runIni w fs fuel opts f order = .ok dir' ∧ DirLike dir dir' := by
  have same := C93_same_run_partial (opts := opts) hd h hb
  unfold Program.runYaml at hdir
  rw [bind_ok] at hdir
  obtain ⟨conf, h1, h2⟩ := hdir
  obtain ⟨su, hu⟩ : ∃ su, use w.cfg Units.importAttrs ((classParams Params.importNames).update conf) = .ok su := by
    have h2 := h2
    unfold Program.simulate at h2
    rw [bind_ok] at h2
    exact ⟨_, h2.choose_spec.1⟩
  have hy : fromYaml w.cfg opts y = .ok su := by
    unfold fromYaml
    rw [h1]
    exact hu
  rw [hy] at same
  obtain ⟨conf', avail, k1, k2, k3, k4⟩ := ini_conf same.symm
  obtain ⟨dir', k5, k6⟩ := program_alike (hu.trans k2.symm) k1 k3 h2
  refine ⟨dir', ?_, k6⟩
  unfold Program.runIni
  rw [k4]
  exact k5

/-- The first line that is no comment is not `MetSim:`. -/
def Unmarked (lines : List Txt.Str) : Prop := (∀ l ∈ lines, IsComment l) ∨ ∃ comments rest line, lines = comments ++ line :: rest ∧
  (∀ l ∈ comments, IsComment l) ∧ ¬ IsComment line ∧ Txt.strip (line.takeWhile (· != '#')) ≠ "MetSim:".toList

theorem unmarked_type {lines : List Txt.Str} (h : Unmarked lines) : Config.checkConfigType lines = .ini := by
  rcases h with h | ⟨comments, rest, line, rfl, h1, h2, h3⟩
  · exact (C27_config_type lines [] "x".toList h (by rw [← isComment_iff]; decide +kernel)).2
  · rw [(C27_config_type comments rest line h1 h2).1, if_neg h3]

/-- **C145**: two files, one INI and one YAML, that say the same: a run of the YAML file that ends means that the run of the INI file ends, and
leaves the same files but for their global attributes; and the other way round, if what the YAML file says can be recorded. -/
theorem C145_files {lines lines' : List Txt.Str} {dy : Dict String (Dict String YamlText.Item)}
    (hl : Unmarked lines) (hf : Ini.read lines = .ok f) (hd : d.Of w.cfg f)
    (hw : Loads w) (hl' : Marked lines') (ht' : YamlLayout.Says lines' dy) (hy : Tells dy y)
    (h : SameConfig w.cfg d y main outs) (hb : d.main.get? "forcing_fmt" ≠ some "binary")
    (fs : Vic.Files) (fuel : Nat) (order : List (Dict String Chunk.Slice)) :
    (∀ dir, Program.runText w fs fuel opts lines' order = .ok dir →
      ∃ dir', Program.runText w fs fuel opts lines order = .ok dir' ∧ DirLike dir dir') ∧
    (Recordable main → ∀ dir, Program.runText w fs fuel opts lines order = .ok dir →
      ∃ dir', Program.runText w fs fuel opts lines' order = .ok dir' ∧ DirLike dir dir') := by
  have e : Program.runText w fs fuel opts lines order = Program.runIni w fs fuel opts f order := by
    unfold Program.runText
    rw [unmarked_type hl, hf]
    rfl
  rw [e, (C144_run hw hl' ht' hy fs fuel opts order).1]
  exact ⟨fun dir => run_ini_of_yaml hd h hb, fun hr dir => run_yaml_of_ini hd h hb hr⟩

/-- **C145 for every layout**, of the INI file too. -/
theorem C145_text {doc : List (Txt.Str × List (Txt.Str × List Txt.Str))} {lines lines' : List Txt.Str} {dy : Dict String (Dict String YamlText.Item)}
    (ht : Text doc lines) (hs : (doc.map Prod.fst).Nodup) (hk : ∀ p ∈ doc, (p.2.map Prod.fst).Nodup) (hl : Unmarked lines)
    (hd : d.Of w.cfg ⟨doc.map fun p => (p.1, p.2.map fun o => (o.1, spread o.2))⟩)
    (hw : Loads w) (hl' : Marked lines') (ht' : YamlLayout.Says lines' dy) (hy : Tells dy y)
    (h : SameConfig w.cfg d y main outs) (hb : d.main.get? "forcing_fmt" ≠ some "binary") (hr : Recordable main)
    (fs : Vic.Files) (fuel : Nat) (order : List (Dict String Chunk.Slice)) :
    ((∃ dir, Program.runText w fs fuel opts lines order = .ok dir) ↔ ∃ dir, Program.runText w fs fuel opts lines' order = .ok dir) ∧
      ∀ dir dir', Program.runText w fs fuel opts lines order = .ok dir → Program.runText w fs fuel opts lines' order = .ok dir' → DirLike dir dir' := by
  obtain ⟨h1, h2⟩ := C145_files (opts := opts) hl (C91_ini ht hs hk) hd hw hl' ht' hy h hb fs fuel order
  refine ⟨⟨?_, ?_⟩, fun dir dir' a b => ?_⟩
  · rintro ⟨dir, e⟩
    obtain ⟨dir', e', -⟩ := h2 hr dir e
    exact ⟨dir', e'⟩
  · rintro ⟨dir, e⟩
    obtain ⟨dir', e', -⟩ := h1 dir e
    exact ⟨dir', e'⟩
  · obtain ⟨dir2, e', k⟩ := h2 hr dir a
    obtain rfl := Except.ok.inj (b.symm.trans e')
    exact k

end

namespace YamlTextExample

theorem unmarked : Unmarked MainExample.lines :=
  .inr ⟨["# a run".toList], _, "[MetSim]".toList, rfl, by
    simp only [List.mem_singleton, forall_eq]
    exact ⟨[], " a run".toList, rfl, by simp⟩, by
    rw [← isComment_iff]
    decide +kernel, by decide +kernel⟩

theorem recordable : Recordable MainExample.yamlMain := by
  intro q hq
  right
  unfold MainExample.yamlMain at hq
  simp only [List.mem_cons, List.not_mem_nil, or_false] at hq
  rcases hq with rfl | rfl | rfl | rfl | rfl | rfl | rfl | rfl <;> exact ⟨by simp, by simp, by simp⟩

/-- The two files of the examples leave the same. -/
example (fs : Vic.Files) : ∃ fuel dir dir', Program.runText world fs fuel MainExample.opts lines MainExample.chunks.reverse = .ok dir ∧
    Program.runText world fs fuel MainExample.opts MainExample.lines MainExample.chunks.reverse = .ok dir' ∧ DirLike dir dir' := by
  obtain ⟨fuel, dir, h⟩ := ProgramExample.yaml fs
  have h : Program.runText world fs fuel MainExample.opts lines MainExample.chunks.reverse = .ok dir := by
    rw [(C144_run loads marked file_says tells fs fuel MainExample.opts _).1]
    exact h
  obtain ⟨dir', h1, h2⟩ := (C145_files (w := world) unmarked MainExample.read_lines MainExample.doc_of loads marked file_says tells
    MainExample.same_config (by decide) fs fuel MainExample.chunks.reverse).1 dir h
  exact ⟨fuel, dir, dir', h, h1, h2⟩

example (fs : Vic.Files) (fuel : Nat) (order : List (Dict String Chunk.Slice)) (dir : Nc.Dir)
    (h : Program.runText world fs fuel MainExample.opts MainExample.lines order = .ok dir) :
    ∃ dir', Program.runText world fs fuel MainExample.opts lines order = .ok dir' ∧ DirLike dir dir' :=
  (C145_files (w := world) unmarked MainExample.read_lines MainExample.doc_of loads marked file_says tells
    MainExample.same_config (by decide) fs fuel order).2 recordable dir h

end YamlTextExample

end Verif.Props
