import Verif.Model.Program
import Verif.Props.Vic
import Verif.Props.ConfigYaml

/-!
# C142: the program runs what the format of the forcing asks for
-/

namespace Verif.Props

open Dataset ConfigRead Main Flt

variable {w : World} {fs : Vic.Files} {fuel : Nat} {p : Conf} {su : Setup} {order : List (Dict String Chunk.Slice)} {dir : Nc.Dir}

theorem main_format (hu : use w.cfg Units.importAttrs p = .ok su) (h : Main.simulate w fuel p order = .ok dir) : su.forcingFmt = "netcdf" := by
  unfold Main.simulate at h
  simp only [bind_ok] at h
  obtain ⟨su', h1, pa, h2, -⟩ := h
  obtain rfl := Except.ok.inj (hu.symm.trans h1)
  unfold Main.construct at h2
  by_contra hf
  rw [if_pos hf] at h2
  cases h2

/-- **C142**: a run ends only if the format of its forcing is `netcdf`, `ascii` or `binary`; then it is the run over that format. -/
theorem C142_format (hu : use w.cfg Units.importAttrs p = .ok su) :
    Program.simulate w fs fuel p order = .ok dir ↔
      su.forcingFmt = "netcdf" ∧ Main.simulate w fuel p order = .ok dir ∨
      (su.forcingFmt = "ascii" ∨ su.forcingFmt = "binary") ∧ Vic.simulate w fs fuel p order = .ok dir := by
  have hd : ¬ (su.forcingFmt = "netcdf" ∧ (su.forcingFmt = "ascii" ∨ su.forcingFmt = "binary")) := by
    rintro ⟨e, h⟩
    rw [e] at h
    exact absurd h (by decide)
  unfold Program.simulate
  rw [hu]
  show (if su.forcingFmt ∈ ["ascii", "binary"] then _ else _) = _ ↔ _
  by_cases hf : su.forcingFmt = "ascii" ∨ su.forcingFmt = "binary"
  · rw [if_pos (by simpa using hf)]
    exact ⟨fun h => .inr ⟨hf, h⟩, fun h => h.elim (fun h => absurd ⟨h.1, hf⟩ hd) (·.2)⟩
  · rw [if_neg (by simpa using hf)]
    exact ⟨fun h => .inl ⟨main_format hu h, h⟩, fun h => h.elim (·.2) (fun h => absurd h.1 hf)⟩

/-- **C142**: any other format stops the run before anything is written. -/
theorem C142_other (hu : use w.cfg Units.importAttrs p = .ok su) (hf : su.forcingFmt ∉ ["netcdf", "ascii", "binary"]) :
    ∃ e, Program.simulate w fs fuel p order = .error e := by
  cases h : Program.simulate w fs fuel p order with
  | error e => exact ⟨e, rfl⟩
  | ok dir =>
    rcases (C142_format hu).1 h with ⟨e, -⟩ | ⟨e | e, -⟩ <;> rw [e] at hf <;> exact absurd (by decide) hf

/-- The format the section `MetSim` of an INI file gives. -/
theorem C142_ini {opts : Opts} {f : Ini.File} {d : IniDoc} (hd : d.Of w.cfg f) :
    Program.runIni w fs fuel opts f order = .ok dir ↔
      d.main.get? "forcing_fmt" = some "netcdf" ∧ Main.runIni w fuel opts f order = .ok dir ∨
      (d.main.get? "forcing_fmt" = some "ascii" ∨ d.main.get? "forcing_fmt" = some "binary") ∧
        Vic.runIni w fs fuel opts f order = .ok dir := by
  have key : ∀ {conf avail su}, readIni w.cfg opts Params.importNames f = .ok (conf, avail) →
      use w.cfg Units.importAttrs ((classParams avail).update conf) = .ok su → d.main.get? "forcing_fmt" = some su.forcingFmt := by
    intro conf avail su h1 h2
    exact (C92_parameters hd (s := su) (opts := opts) (by unfold fromIni; rw [bind_ok]; exact ⟨_, h1, h2⟩)).2.2.2.2.2.2.2.2.2.2.2.2.2.2.2.2.2.2.2.2.2.1
  have hp : ∀ {conf : Conf}, Program.simulate w fs fuel conf order = .ok dir → ∃ su, use w.cfg Units.importAttrs conf = .ok su := by
    intro conf h
    unfold Program.simulate at h
    rw [bind_ok] at h
    exact ⟨_, h.choose_spec.1⟩
  have hm : ∀ {conf : Conf}, Main.simulate w fuel conf order = .ok dir → ∃ su, use w.cfg Units.importAttrs conf = .ok su := by
    intro conf h
    unfold Main.simulate at h
    rw [bind_ok] at h
    exact ⟨_, h.choose_spec.1⟩
  have hv : ∀ {conf : Conf}, Vic.simulate w fs fuel conf order = .ok dir → ∃ su, use w.cfg Units.importAttrs conf = .ok su := by
    intro conf h
    unfold Vic.simulate at h
    rw [bind_ok] at h
    exact ⟨_, h.choose_spec.1⟩
  unfold Program.runIni Main.runIni Vic.runIni
  simp only [bind_ok]
  constructor
  · rintro ⟨⟨conf, avail⟩, h1, h2⟩
    obtain ⟨su, hu⟩ := hp h2
    have e := key h1 hu
    simp only [e, Option.some.injEq]
    exact ((C142_format hu).1 h2).imp (fun h => ⟨h.1, _, h1, h.2⟩) (fun h => ⟨h.1, _, h1, h.2⟩)
  · rintro (⟨e, ⟨conf, avail⟩, h1, h2⟩ | ⟨e, ⟨conf, avail⟩, h1, h2⟩)
    · obtain ⟨su, hu⟩ := hm h2
      rw [key h1 hu, Option.some.injEq] at e
      exact ⟨_, h1, (C142_format hu).2 (.inl ⟨e, h2⟩)⟩
    · obtain ⟨su, hu⟩ := hv h2
      rw [key h1 hu, Option.some.injEq, Option.some.injEq] at e
      exact ⟨_, h1, (C142_format hu).2 (.inr ⟨e, h2⟩)⟩

/-- The format the section `MetSim` of a YAML file gives, and NetCDF if it gives none. -/
theorem C142_yaml {opts : Opts} {y : Yaml} {m : Dict String Scalar} (hy : y.main = .dict m) (hn : m.keys.Nodup)
    (h : Program.runYaml w fs fuel opts y order = .ok dir) :
    ((m.get? "forcing_fmt" = none ∨ m.get? "forcing_fmt" = some (.str "netcdf")) ∧ Main.runYaml w fuel opts y order = .ok dir) ∨
      (m.get? "forcing_fmt" = some (.str "ascii") ∨ m.get? "forcing_fmt" = some (.str "binary")) ∧
        ∃ conf, readYaml w.cfg opts y = .ok conf ∧
          Vic.simulate w fs fuel ((classParams Params.importNames).update conf) order = .ok dir := by
  unfold Program.runYaml at h
  rw [bind_ok] at h
  obtain ⟨conf, h1, h2⟩ := h
  obtain ⟨su, hu⟩ : ∃ su, use w.cfg Units.importAttrs ((classParams Params.importNames).update conf) = .ok su := by
    have h2 := h2
    unfold Program.simulate at h2
    rw [bind_ok] at h2
    exact ⟨_, h2.choose_spec.1⟩
  obtain ⟨m', fv, dv, sv, ov, outs, ch, cv, fo, od, e1, -, -, -, -, -, -, -, -, -, u⟩ :=
    fromYaml_ok (opts := opts) (y := y) (s := su) (env := w.cfg) (by unfold fromYaml; rw [bind_ok]; exact ⟨_, h1, hu⟩)
  obtain rfl : m = m' := Part.dict.inj (hy.symm.trans e1)
  have hf := u.forcingFmt
  unfold text one at hf
  rw [yaml_plain hn (by decide), show (classParams Params.importNames).get? "forcing_fmt" = some (.one (.str "netcdf")) from rfl] at hf
  have e : m.get? "forcing_fmt" = none ∧ su.forcingFmt = "netcdf" ∨ m.get? "forcing_fmt" = some (.str su.forcingFmt) := by
    cases hm : m.get? "forcing_fmt" with
    | none => rw [hm] at hf; exact .inl ⟨rfl, (Except.ok.inj hf).symm⟩
    | some x =>
      rw [hm] at hf
      cases x <;> first | (cases hf; done) | (rw [← Except.ok.inj hf]; exact .inr rfl)
  have run : Main.runYaml w fuel opts y order = Main.simulate w fuel ((classParams Params.importNames).update conf) order := by
    unfold Main.runYaml
    rw [h1]
    rfl
  rw [run]
  rcases (C142_format hu).1 h2 with ⟨a, b⟩ | ⟨a, b⟩
  · refine .inl ⟨?_, b⟩
    rw [a] at e
    exact e.imp (·.1) id
  · refine .inr ⟨?_, conf, h1, b⟩
    rcases e with e | e
    · rw [e.2] at a; exact absurd a (by decide)
    · exact a.imp (fun a => by rw [e, a]) (fun a => by rw [e, a])

/-- An INI file that does not say the format makes no run, though there is a default for it. -/
theorem C142_unsaid {opts : Opts} {f : Ini.File} {d : IniDoc} (hd : d.Of w.cfg f) (hf : d.main.get? "forcing_fmt" = none) :
    (∀ avail, (classParams avail).get? "forcing_fmt" = some (.one (.str "netcdf"))) ∧
      ∃ e, Program.runIni w fs fuel opts f order = .error e := by
  refine ⟨fun _ => rfl, ?_⟩
  cases h : Program.runIni w fs fuel opts f order with
  | error e => exact ⟨e, rfl⟩
  | ok dir =>
    rw [C142_ini hd, hf] at h
    rcases h with ⟨e, -⟩ | ⟨e | e, -⟩ <;> cases e

end Verif.Props
