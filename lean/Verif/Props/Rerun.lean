import Verif.Model.Rerun
import Verif.Props.MainExample
import Verif.Model.Reopen

/-!
# A run in a directory that is not empty: C131
-/

namespace Verif.Props.Rerun

open Nc

/-- The files of a run among those that were there. -/
def over (old d : Dir) : Dir := fun n => (d n).or (old n)

theorem over_some {old d : Dir} {n : String} {f : File} (h : d n = some f) : over old d n = some f := by
  simp [over, h]

theorem over_set (old d : Dir) (n : String) (f : File) :
    over old (fun m => if m = n then some f else d m) = fun m => if m = n then some f else over old d m := by
  funext m
  unfold over
  by_cases h : m = n <;> simp [h]

/-- Creating the files does not depend on what is there. -/
theorem createIn_eq (old : Dir) (known : String → Bool) (c : Cfg) (tab : Table) (groups : Groups) :
    createIn old known c tab groups = (create known c tab groups).map fun r => (over old r.1, r.2) := by
  unfold createIn create
  have key : ∀ (gs : Groups) (d : Dir) (tab : Table),
      gs.foldlM (fun (r : Dir × Table) g => do
        let (f, tab) ← setup known c r.2 (g.2.map fun t => ⌊t⌋)
        pure (fun n => if n = g.1 then some f else r.1 n, tab)) (over old d, tab) =
      Except.map (fun r : Dir × Table => (over old r.1, r.2)) (gs.foldlM (fun (r : Dir × Table) g => do
        let (f, tab) ← setup known c r.2 (g.2.map fun t => ⌊t⌋)
        pure (fun n => if n = g.1 then some f else r.1 n, tab)) (d, tab)) := by
    intro gs
    induction gs with
    | nil => intro d tab; rfl
    | cons g gs ih =>
      intro d tab
      rw [List.foldlM_cons, List.foldlM_cons]
      cases hs : setup known c tab (g.2.map fun t => ⌊t⌋) with
      | error e => simp only [bind, Except.bind, Except.map]
      | ok r =>
        obtain ⟨f, tab'⟩ := r
        simp only [bind, Except.bind, pure, Except.pure]
        rw [← over_set]
        exact ih _ tab'
  have h0 : over old (fun _ => none) = old := by funext n; simp [over]
  conv_lhs => rw [← h0]
  exact key groups _ tab

/-- All files of the run are there once they are created. -/
theorem create_has {known : String → Bool} {c : Cfg} {tab : Table} {groups : Groups} {r : Dir × Table}
    (h : create known c tab groups = .ok r) : ∀ g ∈ groups, (r.1 g.1).isSome = true := by
  unfold create at h
  have key : ∀ (gs : Groups) (d : Dir) (tab : Table) (r : Dir × Table),
      gs.foldlM (fun (r : Dir × Table) g => do
        let (f, tab) ← setup known c r.2 (g.2.map fun t => ⌊t⌋)
        pure (fun n => if n = g.1 then some f else r.1 n, tab)) (d, tab) = Except.ok r →
      (∀ n, (d n).isSome = true → (r.1 n).isSome = true) ∧ ∀ g ∈ gs, (r.1 g.1).isSome = true := by
    intro gs
    induction gs with
    | nil =>
      intro d tab r h
      rw [List.foldlM_nil] at h
      cases h
      exact ⟨fun n h => h, by simp⟩
    | cons g gs ih =>
      intro d tab r h
      rw [List.foldlM_cons] at h
      cases hs : setup known c tab (g.2.map fun t => ⌊t⌋) with
      | error e => simp only [bind, Except.bind, hs] at h; cases h
      | ok q =>
        obtain ⟨f, tab'⟩ := q
        simp only [bind, Except.bind, pure, Except.pure, hs] at h
        obtain ⟨h1, h2⟩ := ih _ _ _ h
        refine ⟨fun n hn => h1 n (by split <;> simp [hn]), fun g' hg => ?_⟩
        rcases List.mem_cons.1 hg with rfl | hg
        · exact h1 _ (by simp)
        · exact h2 _ hg
  exact (key groups _ tab r h).2

theorem writeChunk_keeps {outs : List (String × String)} {axis : List ℚ} {groups : Groups} {slice : Dict String Chunk.Slice}
    {out : Run.Cell → Option Cell.Output} {d d' : Dir} (h : writeChunk outs axis groups slice out d = .ok d') :
    ∀ n, (d n).isSome = true → (d' n).isSome = true := by
  unfold writeChunk at h
  split at h
  · cases h; exact fun _ h => h
  · rename_i ho
    clear ho
    induction groups generalizing d with
    | nil => rw [List.foldlM_nil] at h; cases h; exact fun _ h => h
    | cons g gs ih =>
      rw [List.foldlM_cons] at h
      cases hf : d g.1 with
      | none => simp only [bind, Except.bind, hf] at h; cases h
      | some f =>
        cases hw : writeBlocks outs slice g.2.length (blockOf axis g.2 out) f with
        | error e => simp only [bind, Except.bind, hf, hw] at h; cases h
        | ok f' =>
          simp only [bind, Except.bind, pure, Except.pure, hf, hw] at h
          intro n hn
          exact ih h n (by split <;> simp [hn])

/-- What a worker that finds its files writes does not depend on what else is there. -/
theorem writeChunk_full (old : Dir) {outs : List (String × String)} {axis : List ℚ} {groups : Groups}
    {slice : Dict String Chunk.Slice} {out : Run.Cell → Option Cell.Output} {d : Dir}
    (h : ∀ g ∈ groups, (d g.1).isSome = true) :
    writeChunk outs axis groups slice out (over old d) = (writeChunk outs axis groups slice out d).map (over old) := by
  unfold writeChunk
  split
  · rfl
  · rename_i ho
    clear ho
    induction groups generalizing d with
    | nil => rfl
    | cons g gs ih =>
      rw [List.foldlM_cons, List.foldlM_cons]
      obtain ⟨f, hf⟩ := Option.isSome_iff_exists.1 (h g (by simp))
      cases hw : writeBlocks outs slice g.2.length (blockOf axis g.2 out) f with
      | error e => simp only [bind, Except.bind, Except.map, hf, over_some hf, hw]
      | ok f' =>
        simp only [bind, Except.bind, pure, Except.pure, hf, over_some hf, hw]
        rw [← over_set]
        refine ih (fun g' hg => ?_)
        split
        · rfl
        · exact h g' (List.mem_cons_of_mem _ hg)

/-- A worker that ends does the same in a directory with other files. -/
theorem writeChunk_over (old : Dir) {outs : List (String × String)} {axis : List ℚ} {groups : Groups}
    {slice : Dict String Chunk.Slice} {out : Run.Cell → Option Cell.Output} {d d' : Dir}
    (h : writeChunk outs axis groups slice out d = .ok d') :
    writeChunk outs axis groups slice out (over old d) = .ok (over old d') := by
  unfold writeChunk at h ⊢
  split
  · rename_i ho; rw [if_pos ho] at h; cases h; rfl
  · rename_i ho
    rw [if_neg ho] at h
    clear ho
    induction groups generalizing d with
    | nil => rw [List.foldlM_nil] at h ⊢; cases h; rfl
    | cons g gs ih =>
      rw [List.foldlM_cons] at h ⊢
      cases hf : d g.1 with
      | none => simp only [bind, Except.bind, hf] at h; cases h
      | some f =>
        cases hw : writeBlocks outs slice g.2.length (blockOf axis g.2 out) f with
        | error e => simp only [bind, Except.bind, hf, hw] at h; cases h
        | ok f' =>
          simp only [bind, Except.bind, pure, Except.pure, hf, over_some hf, hw] at h ⊢
          rw [← over_set]
          exact ih h

end Verif.Props.Rerun

namespace Verif.Props

open Main ConfigRead Dataset Rerun

theorem worker_over (old : Nc.Dir) {w : World} {fuel : Nat} {su : Setup} {pa : Parent} {freq : Option Times.Freq}
    {os : List (String × String)} {d d' : Nc.Dir} {chunk : Dict String Chunk.Slice} (h : worker w fuel su pa freq os d chunk = .ok d') :
    worker w fuel su pa freq os (over old d) chunk = .ok (over old d') := by
  unfold worker at h ⊢
  simp only [bind_ok] at h ⊢
  obtain ⟨i, h1, ld, h2, ag, h3, u, h4, out, h5, h6⟩ := h
  exact ⟨i, h1, ld, h2, ag, h3, u, h4, out, h5, writeChunk_over old h6⟩

/-- **C131**: a run that ends does so whatever files it finds, of an earlier run, of one that died half way or of anyone: it leaves the
same files as in an empty directory, and all others as they were. -/
theorem C131_ends (old : Nc.Dir) (w : World) (fuel : Nat) (p : Conf) (order : List (Dict String Chunk.Slice)) (d : Nc.Dir)
    (h : simulate w fuel p order = .ok d) :
    ∃ d', simulateIn old w fuel p order = .ok d' ∧ (∀ n f, d n = some f → d' n = some f) ∧ ∀ n, d n = none → d' n = old n := by
  suffices simulateIn old w fuel p order = .ok (over old d) from
    ⟨_, this, fun n f hf => over_some hf, fun n hn => by simp [over, hn]⟩
  unfold simulate at h
  unfold simulateIn
  simp only [bind_ok] at h ⊢
  obtain ⟨su, h1, pa, h2, freq, h3, ag, h4, u, h5, os, h6, mask, h7, h8⟩ := h
  refine ⟨su, h1, pa, h2, freq, h3, ag, h4, u, h5, os, h6, mask, h7, ?_⟩
  by_cases hd : w.isDir (w.cfg.abspath su.outDir) = false
  · rw [if_pos hd] at h8
    simp only [bind_ok] at h8
    obtain ⟨_, h9, _⟩ := h8
    cases h9
  · rw [if_neg hd] at h8 ⊢
    simp only [bind_ok] at h8 ⊢
    obtain ⟨r, h9, h10⟩ := h8
    refine ⟨(over old r.1, r.2), ?_, ?_⟩
    · rw [createIn_eq, h9]; rfl
    · obtain ⟨d0, tab⟩ := r
      simp only at h10 ⊢
      clear h9
      induction order generalizing d0 with
      | nil => rw [List.foldlM_nil] at h10 ⊢; cases h10; rfl
      | cons c cs ih =>
        rw [List.foldlM_cons] at h10 ⊢
        simp only [bind_ok] at h10 ⊢
        obtain ⟨d1, k1, k2⟩ := h10
        exact ⟨_, worker_over old k1, ih _ k2⟩

section

variable {w : World} {p : Conf} {su : Setup} {i : Worker.Inputs} {n : Nat} {freq : Option Times.Freq} {os : List (String × String)}
  {order : List (Dict String Chunk.Slice)} {whole : DS ℝ} {mask : Arr ℝ}

theorem simulateIn_eq (h : Ready w p su i whole mask n freq os order) (old : Nc.Dir) (fuel : Nat) :
    simulateIn old w fuel p order = (simulate w fuel p order).map (over old) := by
  obtain ⟨hp, hu, hn, hi, hsrc, hfr, hos, hplan, ss, hs, ho⟩ := h
  obtain ⟨ld, hw, e1, e2, hfit, hd, hcell⟩ := C90_loads hi hsrc
  obtain ⟨ld', hw', -, -, hin, hrun⟩ := C90_run hi hsrc
  obtain rfl : ld = ld' := Except.ok.inj (hw.symm.trans hw')
  have hj : (jobOfSetup w su i ld n freq os).Sane := (hrun (outputOf w su freq os) su.chunks hplan).1
  have hsch : (jobOfSetup w su i ld n freq os).Schedule order := by
    refine ⟨ss, ?_, ho⟩
    show Chunk.slices su.chunks (maskDims ld.dom ld.mask.dims) = .ok ss
    rw [e1, e2]; exact hs
  have hr : Readable ld := by
    intro c hc _
    rw [e1, e2] at hc
    exact hcell c hc
  have hch : ∀ chunk ∈ order, Worker.IsChunk ld chunk := schedule_chunks hfit hj hsch.among
  unfold simulate simulateIn
  simp only [hu, bind, Except.bind, construct_ok hn hw, hfr]
  simp only [show (parentOf w su i ld).shared = sharedOf w su from rfl, show (parentOf w su i ld).met = ld.met from rfl,
    show Worker.daysOf ld.met = ld.days from rfl, show (parentOf w su i ld).whole = ld.dom from rfl, hos]
  cases hst : stamps w su (sharedOf w su) freq ld.days with
  | error e => rfl
  | ok r =>
    obtain ⟨axis, groups⟩ := r
    simp only
    cases hck : check su ld.met with
    | error e => rfl
    | ok u =>
      simp only
      cases hm : ld.dom.vars.get "mask" with
      | error e => rfl
      | ok m =>
        simp only
        by_cases hdir : w.isDir (w.cfg.abspath su.outDir) = false
        · rw [if_pos hdir, if_pos hdir]; rfl
        · rw [if_neg hdir, if_neg hdir, createIn_eq]
          cases hc : Nc.create w.known (fileCfg w p su (parentOf w su i ld) m os) (table w su) groups with
          | error e => rfl
          | ok d =>
            obtain ⟨d, tab⟩ := d
            have hhas := create_has hc
            simp only [Except.map] at hhas ⊢
            clear hc hsch ho hs
            induction order generalizing d with
            | nil => rfl
            | cons c cs ih =>
              rw [List.foldlM_cons, List.foldlM_cons, worker_eq hn hi hw hfit hr (hch c (by simp)) hck hst fuel os d,
                worker_eq hn hi hw hfit hr (hch c (by simp)) hck hst fuel os (over old d)]
              simp only [bind, Except.bind]
              cases Run.runSlice (Cell.cellBody fuel) (maskOf ld) (inputOf ld) ⟨sharedOf w su, .nan, .nan, .nan⟩
                  (Run.axes (maskDims ld.dom ld.mask.dims) c) with
              | error e => rfl
              | ok out =>
                simp only [writeChunk_full old hhas]
                cases hwc : Nc.writeChunk os axis groups c out d with
                | error e => rfl
                | ok d' =>
                  exact ih (fun x hx => hch x (List.mem_cons_of_mem _ hx)) d'
                    (fun g hg => writeChunk_keeps hwc _ (hhas g hg))

/-- **C131**: with complete files and a sensible configuration, what was in the directory does not decide either whether a run ends: it
ends exactly if it does so in an empty directory, and fails with the same error otherwise. -/
theorem C131_same (h : Ready w p su i whole mask n freq os order) (old : Nc.Dir) (fuel : Nat) :
    ((∃ d, simulateIn old w fuel p order = .ok d) ↔ ∃ d, simulate w fuel p order = .ok d) ∧
    ∀ e, simulateIn old w fuel p order = .error e ↔ simulate w fuel p order = .error e := by
  rw [simulateIn_eq h old fuel]
  cases simulate w fuel p order with
  | ok d => exact ⟨⟨fun _ => ⟨_, rfl⟩, fun _ => ⟨_, rfl⟩⟩, fun e => by simp [Except.map]⟩
  | error e => simp [Except.map]

/-- **C131**: doing a run again over its own files changes nothing. -/
theorem C131_again (h : Ready w p su i whole mask n freq os order) (old : Nc.Dir) (fuel : Nat) {d : Nc.Dir}
    (hd : simulateIn old w fuel p order = .ok d) : simulateIn d w fuel p order = .ok d := by
  rw [simulateIn_eq h] at hd ⊢
  cases hs : simulate w fuel p order with
  | error e => rw [hs] at hd; cases hd
  | ok d0 =>
    rw [hs] at hd
    cases hd
    show Except.ok (over (over old d0) d0) = Except.ok (over old d0)
    congr 1
    funext m
    unfold over
    cases d0 m <;> simp

end

/-- **C131**: so it is for runs of a configuration file, whatever its lines. -/
theorem C131_text (old : Nc.Dir) (w : World) (fuel : Nat) (opts : Opts) (lines : List Txt.Str)
    (order : List (Dict String Chunk.Slice)) (d : Nc.Dir) (h : runText w fuel opts lines order = .ok d) :
    ∃ d', runTextIn old w fuel opts lines order = .ok d' ∧ (∀ n f, d n = some f → d' n = some f) ∧ ∀ n, d n = none → d' n = old n := by
  unfold runText at h
  unfold runTextIn
  cases hc : Config.checkConfigType lines
  all_goals rw [hc] at h; simp only [bind_ok] at h ⊢
  · obtain ⟨f, h1, h2⟩ := h
    unfold runIni at h2
    simp only [bind_ok] at h2
    obtain ⟨⟨conf, avail⟩, h3, h4⟩ := h2
    obtain ⟨d', k1, k2⟩ := C131_ends old w fuel _ order d h4
    refine ⟨d', ?_, k2⟩
    refine ⟨f, h1, ?_⟩
    unfold runIniIn
    simp only [bind_ok]
    exact ⟨_, h3, k1⟩
  · obtain ⟨y, h1, h2⟩ := h
    unfold runYaml at h2
    simp only [bind_ok] at h2
    obtain ⟨conf, h3, h4⟩ := h2
    obtain ⟨d', k1, k2⟩ := C131_ends old w fuel _ order d h4
    refine ⟨d', ?_, k2⟩
    refine ⟨y, h1, ?_⟩
    unfold runYamlIn
    simp only [bind_ok]
    exact ⟨_, h3, k1⟩

/-- **C131**: `open_output` reads back what it would have read from an empty directory. -/
theorem C131_open (old : Nc.Dir) (w : World) (fuel : Nat) (p : Conf) (order : List (Dict String Chunk.Slice)) (d d' : Nc.Dir)
    (h : simulate w fuel p order = .ok d) (h' : simulateIn old w fuel p order = .ok d') (outDir pre : Txt.Str) (groups : List (List ℚ))
    (o : Reopen.Opened) (ho : Reopen.openOutput d outDir pre groups = .ok o) : Reopen.openOutput d' outDir pre groups = .ok o := by
  obtain ⟨d'', h1, h2, -⟩ := C131_ends old w fuel p order d h
  obtain rfl : d' = d'' := Except.ok.inj (h'.symm.trans h1)
  unfold Reopen.openOutput at ho ⊢
  simp only [bind_ok] at ho ⊢
  obtain ⟨names, k1, fs, k2, k3⟩ := ho
  refine ⟨names, k1, fs, ?_, k3⟩
  clear k1 k3
  induction names generalizing fs with
  | nil => exact k2
  | cons m ms ih =>
    rw [List.mapM_cons] at k2 ⊢
    simp only [bind_ok] at k2 ⊢
    obtain ⟨x, k4, xs, k5, k6⟩ := k2
    refine ⟨x, ?_, xs, ih xs k5, k6⟩
    cases hm : d (String.ofList m) with
    | none => rw [hm] at k4; cases k4
    | some f => rw [hm] at k4; rw [h2 _ f hm]; exact k4

/-- A run of the text of an INI file, over the files an earlier run left. -/
example (old : Nc.Dir) (dirs : String → Bool) (hd : dirs "out" = true) : ∃ (fuel : Nat) (d d' : Nc.Dir),
    runText (MainExample.world dirs) fuel MainExample.opts MainExample.lines MainExample.chunks.reverse = .ok d ∧
    runTextIn old (MainExample.world dirs) fuel MainExample.opts MainExample.lines MainExample.chunks.reverse = .ok d' ∧
    ∀ n, d n = none → d' n = old n := by
  obtain ⟨fuel, h⟩ := MainExample.runs dirs hd
  obtain ⟨d, hr⟩ := h 0
  obtain ⟨d', h1, -, h2⟩ := C131_text old _ _ _ _ _ d hr
  exact ⟨fuel + 0, d, d', hr, h1, h2⟩

end Verif.Props
