import Verif.Props.Cli
import Verif.Props.ConfigYaml
import Verif.Props.Main

/-!
# C104: runs from the command line
-/

namespace Verif.Props

open Dataset Txt ConfigRead Cli Main Flt

/-- The parameters the command line gives. -/
def cliKeys : List String := ["scheduler", "num_workers", "verbose"]

/-- Parameters that differ only in what the command line says are the same to a run. -/
theorem sameUse_of_get {env : Env} {p q : Conf} (h : ∀ k, k ∉ cliKeys → p.get? k = q.get? k) : SameUse env p q := by
  have one' : ∀ k, k ∉ cliKeys → one p k = one q k := fun k hk => by unfold one; rw [h k hk]
  have text' : ∀ k, k ∉ cliKeys → text p k = text q k := fun k hk => by unfold text; rw [one' k hk]
  have opt' : ∀ k, k ∉ cliKeys → optText p k = optText q k := fun k hk => by unfold optText; rw [h k hk]
  have int' : ∀ k, k ∉ cliKeys → ConfigRead.int p k = ConfigRead.int q k := fun k hk => by unfold ConfigRead.int; rw [one' k hk]
  have switch' : ∀ k, k ∉ cliKeys → switch p k = switch q k := fun k hk => by unfold switch; rw [one' k hk]
  have names' : ∀ k, k ∉ cliKeys → names p k = names q k := fun k hk => by unfold names; rw [h k hk]
  refine ⟨text' _ (by decide), int' _ (by decide), text' _ (by decide), switch' _ (by decide), switch' _ (by decide), opt' _ (by decide),
    text' _ (by decide), text' _ (by decide), text' _ (by decide), ?_, ?_, ?_, ?_, text' _ (by decide), text' _ (by decide),
    text' _ (by decide), text' _ (by decide), text' _ (by decide), text' _ (by decide), one' _ (by decide), one' _ (by decide),
    one' _ (by decide), names' _ (by decide), names' _ (by decide), names' _ (by decide), ?_, ?_⟩
  · intro u; unfold thetaOf; rw [h _ (by decide)]
  · intro k hk
    have : k ∉ cliKeys := by
      revert hk k
      decide
    unfold float
    rw [one' k this]
  · unfold outsOf; rw [h _ (by decide)]
  · unfold Dict.get; rw [h _ (by decide)]
  · unfold chunksOf; rw [h _ (by decide)]
  · unfold constantsOf; rw [h _ (by decide)]

/-- **C104**: number of workers, scheduler and verbosity mean nothing to what an INI file says is to be computed. -/
theorem C104_options {env : Env} {f : Ini.File} {d : IniDoc} (hd : d.Of env f) (opts opts' : Opts) :
    fromIni env opts f = fromIni env opts' f := by
  unfold fromIni readIni
  simp only [hd.main, hd.forcingVars, hd.domainVars, hd.stateVars, hd.chunks, hd.constants, hd.outVars, bind, Except.bind]
  cases d.main.get "forcing_fmt" with
  | error e => rfl
  | ok fmt =>
  cases d.main.get "forcing" with
  | error e => rfl
  | ok fo =>
  cases d.main.get "out_dir" with
  | error e => rfl
  | ok od =>
  cases listed d.main with
  | error e => rfl
  | ok list =>
  simp only
  cases Params.readIniOut Params.importNames ⟨list, d.outVars.getD []⟩ with
  | error e => rfl
  | ok r =>
  apply use_congr
  apply sameUse_of_get
  intro k hk
  simp only [cliKeys, List.mem_cons, List.not_mem_nil, or_false, not_or] at hk
  obtain ⟨h1, h2, h3⟩ := hk
  rw [Dict.get?_update _ _ (iniConf_nodup hd.mainKeys), Dict.get?_update _ _ (iniConf_nodup hd.mainKeys),
    iniConf_get hd.mainKeys, iniConf_get hd.mainKeys]
  simp only [if_neg (Ne.symm h1), if_neg (Ne.symm h2), if_neg (Ne.symm h3)]

/-- **C104**: the same for YAML files. -/
theorem C104_options_yaml {env : Env} {y : Yaml} (hm : ∀ main, y.main.get = .ok main → main.keys.Nodup) (opts opts' : Opts) :
    fromYaml env opts y = fromYaml env opts' y := by
  unfold fromYaml readYaml
  simp only [bind, Except.bind]
  cases hmain : y.main.get with
  | error e => rfl
  | ok main =>
  cases y.forcingVars.get with
  | error e => rfl
  | ok fv =>
  cases y.domainVars.get with
  | error e => rfl
  | ok dv =>
  cases y.stateVars.get with
  | error e => rfl
  | ok sv =>
  cases y.outVars.get with
  | error e => rfl
  | ok ov =>
  simp only
  cases withUnits ov with
  | error e => rfl
  | ok ov =>
  cases y.chunks.get with
  | error e => rfl
  | ok ch =>
  cases y.constantVars.optional with
  | error e => rfl
  | ok cv =>
  simp only
  cases main.get "forcing" with
  | error e => rfl
  | ok fo =>
  simp only
  cases fo.path with
  | error e => rfl
  | ok fo =>
  simp only
  cases main.get "out_dir" with
  | error e => rfl
  | ok od =>
  simp only
  cases od.path with
  | error e => rfl
  | ok od =>
  apply use_congr
  apply sameUse_of_get
  intro k hk
  have hn := hm main hmain
  simp only [cliKeys, List.mem_cons, List.not_mem_nil, or_false, not_or] at hk
  obtain ⟨h1, h2, h3⟩ := hk
  rw [Dict.get?_update _ _ (yamlConf_nodup hn), Dict.get?_update _ _ (yamlConf_nodup hn), yamlConf_get hn, yamlConf_get hn]
  simp only [if_neg (Ne.symm h1), if_neg (Ne.symm h2), if_neg (Ne.symm h3)]

/-- **C104**: the program runs the file its command line names, with the options given there. -/
theorem C104_main (w : Main.World) (sh : Shell) (lines : Str → List Str) (fuel : Nat) (order : List (Dict String Chunk.Slice))
    (gs : List (List Str × List Setting)) (h : ∀ g ∈ gs, Spelled sh g.1 g.2) {s : Str} (hc : configsOf (gs.flatMap Prod.snd) = [s])
    (dir : Nc.Dir) :
    Cli.main w sh lines fuel (gs.flatMap Prod.fst) order = .ok dir ↔ Main.runText w fuel
      ⟨((schedulersOf (gs.flatMap Prod.snd)).getLast?.map String.ofList).getD "distributed",
        (workersOf (gs.flatMap Prod.snd)).getLast?.getD 1, talks (gs.flatMap Prod.snd)⟩ (lines s) order = .ok dir := by
  unfold Cli.main
  rw [C104_parse sh gs h, hc]
  simp only
  cases Main.runText w fuel _ (lines s) order <;> simp

/-- **C104**: the program ends without a run, with the status that goes with the reason, exactly if its command line is refused, names no
file or asks for help or the version. -/
theorem C104_main_exit (w : Main.World) (sh : Shell) (lines : Str → List Str) (fuel : Nat) (order : List (Dict String Chunk.Slice))
    (args : List Str) (e : Exit) : Cli.main w sh lines fuel args order = .error (.exit e) ↔ parse sh args = .error e := by
  unfold Cli.main
  cases hp : parse sh args with
  | error e' => simp
  | ok r =>
    simp only [reduceCtorEq, iff_false]
    cases Main.runText w fuel r.2 (lines r.1) order <;> simp

/-- **C104**: files are made only if the command line names a file that is there. -/
theorem C104_main_file (w : Main.World) (sh : Shell) (lines : Str → List Str) (fuel : Nat) (order : List (Dict String Chunk.Slice))
    (args : List Str) {dir : Nc.Dir} (h : Cli.main w sh lines fuel args order = .ok dir) :
    ∃ s ∈ args, sh.isFile s = true ∧ ∃ o, Main.runText w fuel o (lines s) order = .ok dir := by
  unfold Cli.main at h
  cases hp : parse sh args with
  | error e => rw [hp] at h; cases h
  | ok r =>
    obtain ⟨s, o⟩ := r
    rw [hp] at h
    obtain ⟨h1, h2, -, -⟩ := C104_said sh args hp
    refine ⟨s, h1, h2, o, ?_⟩
    simp only at h
    cases hr : Main.runText w fuel o (lines s) order with
    | error e => rw [hr] at h; cases h
    | ok d => rw [hr] at h; exact congrArg _ (Except.ok.inj h)

theorem map_agree {α β : Type} {l : List α} {f g : α → β} (h : l.map f = l.map g) : ∀ x ∈ l, f x = g x := by
  induction l with
  | nil => simp
  | cons a l ih =>
    simp only [List.map_cons, List.cons.injEq] at h
    intro x hx
    rcases List.mem_cons.1 hx with rfl | hx
    · exact h.1
    · exact ih h.2 x hx

/-- The same files with the same values: every file of one is there in the other, with the same stamps, and under the name of each output
the same value at each of them in each cell. -/
def SameValues (su : Setup) (w : World) (names : String → String) (files : List (List ℚ)) (dir dir' : Nc.Dir) : Prop :=
  ∀ g ∈ files, ∃ name, Times.filename (w.cfg.abspath su.outDir).toList su.outPrefix.toList g = .ok name ∧
    ∀ (c : List Nat), ∀ v ∈ su.shared.outVars.keys, ∃ f f' ov ov', dir (String.ofList name) = some f ∧ dir' (String.ofList name) = some f' ∧
      f.vars.get? (names v) = some ov ∧ f'.vars.get? (names v) = some ov' ∧
      ∀ k < g.length, stored (ov.data (k :: c)) = stored (ov'.data (k :: c))

/-- **C104**: two runs of parameters that mean the same, over the same inputs, with workers in any order. -/
theorem C104_same {w : World} {p p' : Conf} {su : Setup} {i : Worker.Inputs} {n : Nat} {freq : Option Times.Freq}
    {os : List (String × String)} {order order' : List (Dict String Chunk.Slice)} {whole : DS ℝ} {mask : Arr ℝ}
    (h : Ready w p su i whole mask n freq os order) (h' : Ready w p' su i whole mask n freq os order') (fuel : Nat) {dir dir' : Nc.Dir}
    (hdir : simulate w fuel p order = .ok dir) (hdir' : simulate w fuel p' order' = .ok dir') :
    ∃ ld, ∃ st : Stamps (jobOfSetup w su i ld n freq os), Worker.load i (sharedOf w su) [] = .ok ld ∧ st.files.flatten = st.axis ∧
      SameValues su w (outputOf w su freq os).names st.files dir dir' := by
  obtain ⟨ld, hl, -, -, -, st, hflat, hcomp, hnot⟩ := C95_values h fuel hdir
  obtain ⟨ld', hl', -, -, -, st', hflat', hcomp', hnot'⟩ := C95_values h' fuel hdir'
  rw [hl] at hl'
  obtain rfl := Except.ok.inj hl'
  obtain ⟨ax, fs, ha, hf⟩ := st
  obtain ⟨ax', fs', ha', hf'⟩ := st'
  obtain rfl := Except.ok.inj (ha.symm.trans ha')
  obtain rfl := Except.ok.inj (hf.symm.trans hf')
  refine ⟨ld, ⟨ax, fs, ha, hf⟩, hl, hflat, fun g hg => ?_⟩
  by_cases hne : ∃ v, v ∈ su.shared.outVars.keys
  swap
  · obtain ⟨name, hname⟩ : ∃ name, Times.filename (w.cfg.abspath su.outDir).toList su.outPrefix.toList g = .ok name := by
      obtain ⟨ld2, hl2, -, -, -, -, -, hiff, hval⟩ := C95_run h fuel
      rw [hl] at hl2
      obtain rfl := Except.ok.inj hl2
      obtain ⟨-, -, -, files, hfl⟩ := hiff.1 ⟨dir, hdir⟩
      obtain ⟨name, -, -, e, -⟩ := hval dir files hdir hfl ⟨ax, fs, ha, hf⟩ g hg
      exact ⟨name, e⟩
    exact ⟨name, hname, fun c v hv => absurd ⟨v, hv⟩ hne⟩
  have key : ∀ (c : List Nat), ∀ v ∈ su.shared.outVars.keys, ∃ name f f' ov ov',
      Times.filename (w.cfg.abspath su.outDir).toList su.outPrefix.toList g = .ok name ∧
      dir (String.ofList name) = some f ∧ dir' (String.ofList name) = some f' ∧
      f.vars.get? ((outputOf w su freq os).names v) = some ov ∧ f'.vars.get? ((outputOf w su freq os).names v) = some ov' ∧
      ∀ k < g.length, stored (ov.data (k :: c)) = stored (ov'.data (k :: c)) := by
    intro c v hv
    by_cases hc : (jobOfSetup w su i ld n freq os).Computed c
    · obtain ⟨r, hr, h1⟩ := hcomp c hc
      obtain ⟨r', hr', h1'⟩ := hcomp' c hc
      obtain rfl := Except.ok.inj (hr.symm.trans hr')
      obtain ⟨val, hval, h2⟩ := h1 v hv
      obtain ⟨val', hval', h2'⟩ := h1' v hv
      have e := map_agree (Option.some.inj (hval.symm.trans hval'))
      obtain ⟨name, f, tv, ov, n1, n2, -, n4, -, n6⟩ := h2 g hg
      obtain ⟨name', f', tv', ov', n1', n2', -, n4', -, n6'⟩ := h2' g hg
      obtain rfl := Except.ok.inj (n1.symm.trans n1')
      refine ⟨name, f, f', ov, ov', n1, n2, n2', n4, n4', fun k hk => ?_⟩
      rw [(n6 k hk).2, (n6' k hk).2]
      exact e _ (by rw [← hflat]; exact List.mem_flatten.2 ⟨g, hg, List.getElem_mem hk⟩)
    · obtain ⟨name, f, ov, n1, n2, n4, n6⟩ := hnot c hc v hv g hg
      obtain ⟨name', f', ov', n1', n2', n4', n6'⟩ := hnot' c hc v hv g hg
      obtain rfl := Except.ok.inj (n1.symm.trans n1')
      exact ⟨name, f, f', ov, ov', n1, n2, n2', n4, n4', fun k hk => by rw [n6 k hk, n6' k hk]⟩
  obtain ⟨v0, hv0⟩ := hne
  obtain ⟨name, -, -, -, -, hname, -⟩ := key [] v0 hv0
  refine ⟨name, hname, fun c v hv => ?_⟩
  obtain ⟨name', f, f', ov, ov', n1, n2, n3, n4, n5, n6⟩ := key c v hv
  obtain rfl := Except.ok.inj (hname.symm.trans n1)
  exact ⟨f, f', ov, ov', n2, n3, n4, n5, n6⟩

/-- **C104**: the same INI file run with other options, and the workers in another order: it ends if the other run does, and the files have
the same values. -/
theorem C104_ini {w : World} {f : Ini.File} {d : IniDoc} {su : Setup} {i : Worker.Inputs} {whole : DS ℝ} {mask : Arr ℝ}
    {n : Nat} {freq : Option Times.Freq} {order order' ss : List (Dict String Chunk.Slice)} (hd : d.Of w.cfg f) (opts opts' : Opts)
    (hs : fromIni w.cfg opts f = .ok su) (hn : Names w su i) (hi : Worker.Sound i) (hsrc : Sources i (sharedOf w su) whole mask n)
    (hfr : outFreq w su.outFreq = .ok freq)
    (hplan : Plan (sharedOf w su)
      ⟨freq, (w.cfg.abspath su.outDir).toList, su.outPrefix.toList, fun v => ((d.outVars.getD []).get? v).getD v⟩
      su.chunks (maskDims whole mask.dims) (i.start - 730120) n)
    (hsl : Chunk.slices su.chunks (maskDims whole mask.dims) = .ok ss) (ho : order.Perm ss) (ho' : order'.Perm ss)
    (hk : ∀ t ∈ ["i4", "i8", "f4", "f8"], w.known t = true) (fuel : Nat) {dir : Nc.Dir} (hdir : runIni w fuel opts f order = .ok dir) :
    ∃ dir', runIni w fuel opts' f order' = .ok dir' ∧
      ∃ ld os, ∃ st : Stamps (jobOfSetup w su i ld n freq os), Worker.load i (sharedOf w su) [] = .ok ld ∧ st.files.flatten = st.axis ∧
        SameValues su w (fun v => ((d.outVars.getD []).get? v).getD v) st.files dir dir' := by
  have hs' : fromIni w.cfg opts' f = .ok su := by rw [C104_options hd opts' opts]; exact hs
  obtain ⟨p, os, ld, hr, hrun, eos, hl, -, -, -, hiff⟩ := C95_ini hd hs hn hi hsrc hfr hplan hsl ho hk fuel
  obtain ⟨p', os', ld', hr', hrun', eos', hl', -, -, -, hiff'⟩ := C95_ini hd hs' hn hi hsrc hfr hplan hsl ho' hk fuel
  have eos2 : os = os' := eos.trans eos'.symm
  subst eos2
  rw [hl] at hl'
  obtain rfl := Except.ok.inj hl'
  obtain ⟨dir', hdir'⟩ := hiff'.2 (hiff.1 ⟨dir, hdir⟩)
  refine ⟨dir', hdir', ?_⟩
  rw [hrun] at hdir
  rw [hrun'] at hdir'
  obtain ⟨ld2, st, h1, h2, h3⟩ := C104_same hr hr' fuel hdir hdir'
  refine ⟨ld2, os, st, h1, h2, ?_⟩
  obtain ⟨os2, -, e, hnm⟩ := ini_outs hd hs
  have eos3 : os = os2 := eos.trans e.symm
  subst eos3
  rw [hnm freq] at h3
  exact h3

end Verif.Props
