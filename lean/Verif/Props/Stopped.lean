import Verif.Props.Vic

/-!
# C143: a run that stops on the way
-/

namespace Verif.Props

open Dataset ConfigRead Main Flt

section
variable {w : World} {p : Conf} {su : Setup} {i : Worker.Inputs} {n fuel : Nat} {freq : Option Times.Freq} {os : List (String × String)}
  {order pre : List (Dict String Chunk.Slice)} {whole : DS ℝ} {mask : Arr ℝ} {dir dir' : Nc.Dir}

theorem stopped_run (h : Ready w p su i whole mask n freq os order) (hpre : ∀ s ∈ pre, s ∈ order) (fuel : Nat) :
    OutcomeSome w p su i whole mask n freq os pre fuel (simulate w fuel p pre) := by
  obtain ⟨hp, hu, hn, hi, hsrc, hfr, hos, hplan, ss, hs, ho⟩ := h
  refine run_some hp hu hi hsrc hos hplan ⟨ss, hs, fun s hm => ho.mem_iff.1 (hpre s hm)⟩ fuel ?_ fun ld hw dir => simulate_nec hu hn hw hfr hos
  intro ld hw hfit hr hdays hch h1 h2
  exact simulate_eq hu hn hi hw hfit hr hdays hfr h1 hos h2 hch fuel

/-- **C143**: what the files hold after some of the chunks, in whatever order: for each cell of these chunks and each output the series the cell
gives alone, each value at the step of its stamp; for all other cells nothing. -/
theorem C143_stopped (h : Ready w p su i whole mask n freq os order) (hpre : ∀ s ∈ pre, s ∈ order) (hdir : simulate w fuel p pre = .ok dir) :
    ∃ ld, Worker.load i (sharedOf w su) [] = .ok ld ∧ ld.dom = whole ∧ ld.mask = mask ∧
      (∀ c ∈ Worker.positions whole mask.dims, Worker.cellIn ld c = .ok (inputOf ld c)) ∧
      ∃ st : Stamps (jobOfSetup w su i ld n freq os), st.files.flatten = st.axis ∧
      (∀ c, (jobOfSetup w su i ld n freq os).Computed c → (jobOfSetup w su i ld n freq os).Done pre c →
        ∃ r, (jobOfSetup w su i ld n freq os).alone fuel c = .ok r ∧
        ∀ v ∈ su.shared.outVars.keys, ∃ val : ℚ → Flt ℝ, Dict.get? r v = some (st.axis.map val) ∧
          ∀ g ∈ st.files, ∃ name f tv ov, Times.filename (w.cfg.abspath su.outDir).toList su.outPrefix.toList g = .ok name ∧
            dir (String.ofList name) = some f ∧ f.vars.get? "time" = some tv ∧
            f.vars.get? ((outputOf w su freq os).names v) = some ov ∧ ov.dims = "time" :: mask.dims ∧
            ∀ (k : Nat) (hk : k < g.length), OnCalendar (sharedOf w su).calendar g[k] (tv.data [k]) ∧
              stored (ov.data (k :: c)) = val g[k]) ∧
      ∀ c, ¬ ((jobOfSetup w su i ld n freq os).Computed c ∧ (jobOfSetup w su i ld n freq os).Done pre c) →
        ∀ v ∈ su.shared.outVars.keys, ∀ g ∈ st.files, ∃ name f ov,
          Times.filename (w.cfg.abspath su.outDir).toList su.outPrefix.toList g = .ok name ∧
          dir (String.ofList name) = some f ∧ f.vars.get? ((outputOf w su freq os).names v) = some ov ∧
          ∀ k < g.length, stored (ov.data (k :: c)) = nan :=
  values_some h.use h.named h.plan.vars (stopped_run h hpre fuel) hdir

theorem final_of (hu : use w.cfg Units.importAttrs p = .ok su) (hos : outs su = .ok os) (hvars : su.shared.outVars.keys.Nodup)
    {sim sim' : Except PyErr Nc.Dir} (h : OutcomeSome w p su i whole mask n freq os pre fuel sim)
    (h' : Outcome w p su i whole mask n freq os order fuel sim') (hdir : sim = .ok dir) (hdir' : sim' = .ok dir') :
    ∃ ld, Worker.load i (sharedOf w su) [] = .ok ld ∧ ∃ st : Stamps (jobOfSetup w su i ld n freq os), st.files.flatten = st.axis ∧
      ∀ c, ∀ v ∈ su.shared.outVars.keys, ∀ g ∈ st.files, ∃ name f f' ov ov',
        Times.filename (w.cfg.abspath su.outDir).toList su.outPrefix.toList g = .ok name ∧
        dir (String.ofList name) = some f ∧ dir' (String.ofList name) = some f' ∧
        f.vars.get? ((outputOf w su freq os).names v) = some ov ∧ f'.vars.get? ((outputOf w su freq os).names v) = some ov' ∧
        ∀ k < g.length, ((jobOfSetup w su i ld n freq os).Done pre c → stored (ov.data (k :: c)) = stored (ov'.data (k :: c))) ∧
          (¬ (jobOfSetup w su i ld n freq os).Done pre c → stored (ov.data (k :: c)) = nan) := by
  obtain ⟨ld, hw, -, -, -, st, hst, h1, h2⟩ := values_some hu hos hvars h hdir
  obtain ⟨ld', hw', -, -, -, st', -, h1', h2'⟩ := values_of hu hos hvars h' hdir'
  obtain rfl : ld = ld' := Except.ok.inj (hw.symm.trans hw')
  have hf : st'.files = st.files := Except.ok.inj (st'.h_files.symm.trans st.h_files)
  have hx : st'.axis = st.axis := Except.ok.inj (st'.h_axis.symm.trans st.h_axis)
  refine ⟨ld, hw, st, hst, fun c v hv g hg => ?_⟩
  by_cases hc : (jobOfSetup w su i ld n freq os).Computed c
  · obtain ⟨r', hr', q'⟩ := h1' c hc
    obtain ⟨val', e', k'⟩ := q' v hv
    obtain ⟨name', f', tv', ov', a1, a2, -, a3, -, a4⟩ := k' g (by rw [hf]; exact hg)
    by_cases hd : (jobOfSetup w su i ld n freq os).Done pre c
    · obtain ⟨r, hr, q⟩ := h1 c hc hd
      obtain ⟨val, e, k⟩ := q v hv
      obtain ⟨name, f, tv, ov, b1, b2, -, b3, -, b4⟩ := k g hg
      obtain rfl := Except.ok.inj (a1.symm.trans b1)
      obtain rfl := Except.ok.inj (hr.symm.trans hr')
      refine ⟨name', f, f', ov, ov', b1, b2, a2, b3, a3, fun k hk => ⟨fun _ => ?_, fun hn => absurd hd hn⟩⟩
      rw [(b4 k hk).2, (a4 k hk).2]
      rw [hx] at e'
      have e2 := Option.some.inj (e.symm.trans e')
      have hm : g[k] ∈ st.axis := by rw [← hst]; exact List.mem_flatten.2 ⟨g, hg, List.getElem_mem hk⟩
      exact List.map_inj_left.1 e2 _ hm
    · obtain ⟨name, f, ov, b1, b2, b3, b4⟩ := h2 c (fun h => hd h.2) v hv g hg
      obtain rfl := Except.ok.inj (a1.symm.trans b1)
      exact ⟨name', f, f', ov, ov', b1, b2, a2, b3, a3, fun k hk => ⟨fun h => absurd h hd, fun _ => b4 k hk⟩⟩
  · obtain ⟨name, f, ov, b1, b2, b3, b4⟩ := h2 c (fun h => hc h.1) v hv g hg
    obtain ⟨name', f', ov', a1, a2, a3, a4⟩ := h2' c hc v hv g (by rw [hf]; exact hg)
    obtain rfl := Except.ok.inj (a1.symm.trans b1)
    exact ⟨name', f, f', ov, ov', b1, b2, a2, b3, a3, fun k hk => ⟨fun _ => by rw [b4 k hk, a4 k hk], fun _ => b4 k hk⟩⟩

/-- **C143**: the files after some of the chunks, against those of the complete run: the cells of the chunks have their values, and the others
have none yet. -/
theorem C143_final (h : Ready w p su i whole mask n freq os order) (hpre : ∀ s ∈ pre, s ∈ order) (hdir : simulate w fuel p pre = .ok dir)
    (hdir' : simulate w fuel p order = .ok dir') :
    ∃ ld, Worker.load i (sharedOf w su) [] = .ok ld ∧ ∃ st : Stamps (jobOfSetup w su i ld n freq os), st.files.flatten = st.axis ∧
      ∀ c, ∀ v ∈ su.shared.outVars.keys, ∀ g ∈ st.files, ∃ name f f' ov ov',
        Times.filename (w.cfg.abspath su.outDir).toList su.outPrefix.toList g = .ok name ∧
        dir (String.ofList name) = some f ∧ dir' (String.ofList name) = some f' ∧
        f.vars.get? ((outputOf w su freq os).names v) = some ov ∧ f'.vars.get? ((outputOf w su freq os).names v) = some ov' ∧
        ∀ k < g.length, ((jobOfSetup w su i ld n freq os).Done pre c → stored (ov.data (k :: c)) = stored (ov'.data (k :: c))) ∧
          (¬ (jobOfSetup w su i ld n freq os).Done pre c → stored (ov.data (k :: c)) = nan) :=
  final_of h.use h.named h.plan.vars (stopped_run h hpre fuel) (C95_run h fuel) hdir hdir'

/-- **C143**: the same for a run over files for single cells. -/
theorem C143_cells {fs : Vic.Files} {vi : Vic.Inputs} {G : Forcing.Grid ℚ ℝ} (h : VicReady w fs p su vi whole mask n G freq os order)
    (hpre : ∀ s ∈ pre, s ∈ order) (hdir : Vic.simulate w fs fuel p pre = .ok dir) (hdir' : Vic.simulate w fs fuel p order = .ok dir') :
    ∃ ld, Worker.load (joined vi whole n G) (sharedOf w su) [] = .ok ld ∧ ∃ st : Stamps (jobOfSetup w su (joined vi whole n G) ld n freq os), st.files.flatten = st.axis ∧
      ∀ c, ∀ v ∈ su.shared.outVars.keys, ∀ g ∈ st.files, ∃ name f f' ov ov',
        Times.filename (w.cfg.abspath su.outDir).toList su.outPrefix.toList g = .ok name ∧
        dir (String.ofList name) = some f ∧ dir' (String.ofList name) = some f' ∧
        f.vars.get? ((outputOf w su freq os).names v) = some ov ∧ f'.vars.get? ((outputOf w su freq os).names v) = some ov' ∧
        ∀ k < g.length, ((jobOfSetup w su (joined vi whole n G) ld n freq os).Done pre c → stored (ov.data (k :: c)) = stored (ov'.data (k :: c))) ∧
          (¬ (jobOfSetup w su (joined vi whole n G) ld n freq os).Done pre c → stored (ov.data (k :: c)) = nan) :=
  final_of h.use h.named h.plan.vars (vic_some h hpre fuel) (C102_run h fuel) hdir hdir'

/-- **C143**: a run gets through some of its chunks exactly if the configuration is accepted, the files can be created, and each cell of these
chunks can be computed; the other cells do not matter. -/
theorem C143_reached (h : Ready w p su i whole mask n freq os order) (hpre : ∀ s ∈ pre, s ∈ order) :
    ∃ ld, Worker.load i (sharedOf w su) [] = .ok ld ∧
      ((∃ dir, simulate w fuel p pre = .ok dir) ↔ Valid su ∧ w.isDir (w.cfg.abspath su.outDir) = true ∧
        (∀ st : Stamps (jobOfSetup w su i ld n freq os), ∀ g ∈ st.files,
          Creatable w.known (filesOf w p su i ld os) (table w su) (g.map fun t => ⌊t⌋)) ∧
        ∀ c, (jobOfSetup w su i ld n freq os).Computed c → (jobOfSetup w su i ld n freq os).Done pre c →
          ∃ r, (jobOfSetup w su i ld n freq os).alone fuel c = .ok r) := by
  obtain ⟨ld, hw, -, -, -, hj, ha, hiff, -⟩ := stopped_run h hpre fuel
  rw [(files_some _ hj fuel pre ha).1] at hiff
  exact ⟨ld, hw, hiff⟩

/-- **C143**: a run that ends has been through all its stages. -/
theorem C143_passes (h : Ready w p su i whole mask n freq os order) (hpre : ∀ s ∈ pre, s ∈ order) (hdir' : simulate w fuel p order = .ok dir') :
    ∃ dir, simulate w fuel p pre = .ok dir := by
  obtain ⟨ld, hw, h1⟩ := C143_reached (fuel := fuel) h hpre
  obtain ⟨ld', hw', h2⟩ := C143_reached (fuel := fuel) h (fun s hs => hs)
  obtain rfl : ld = ld' := Except.ok.inj (hw.symm.trans hw')
  obtain ⟨a1, a2, a3, a4⟩ := h2.1 ⟨_, hdir'⟩
  exact h1.2 ⟨a1, a2, a3, fun c hc ⟨s, hs, hcs⟩ => a4 c hc ⟨s, hpre s hs, hcs⟩⟩

/-- **C143**: a run that created its files and then fails does so at a chunk with a cell that cannot be computed; the chunks before it are in the
files (`C143_stopped`), whatever would have come after. -/
theorem C143_fails (h : Ready w p su i whole mask n freq os order) {e : PyErr} (hdir : simulate w fuel p [] = .ok dir)
    (he : simulate w fuel p order = .error e) :
    ∃ ld, Worker.load i (sharedOf w su) [] = .ok ld ∧ ∃ pre s rest dir1, order = pre ++ s :: rest ∧ simulate w fuel p pre = .ok dir1 ∧
      (∃ c, (jobOfSetup w su i ld n freq os).Computed c ∧ (jobOfSetup w su i ld n freq os).Done [s] c ∧
        ∃ e', (jobOfSetup w su i ld n freq os).alone fuel c = .error e') ∧
      ∀ more, (∀ s' ∈ more, s' ∈ order) → ∃ e', simulate w fuel p (pre ++ s :: more) = .error e' := by
  obtain ⟨ld, hw, h0⟩ := C143_reached (fuel := fuel) h (pre := []) (by simp)
  obtain ⟨a1, a2, a3, -⟩ := h0.1 ⟨_, hdir⟩
  have key : ∀ {pre}, (∀ s ∈ pre, s ∈ order) → ((∃ dir, simulate w fuel p pre = .ok dir) ↔
      ∀ c, (jobOfSetup w su i ld n freq os).Computed c → (jobOfSetup w su i ld n freq os).Done pre c →
          ∃ r, (jobOfSetup w su i ld n freq os).alone fuel c = .ok r) := by
    intro pre hpre
    obtain ⟨ld', hw', h1⟩ := C143_reached (fuel := fuel) h hpre
    obtain rfl : ld = ld' := Except.ok.inj (hw.symm.trans hw')
    rw [h1]
    exact ⟨fun h => h.2.2.2, fun h => ⟨a1, a2, a3, h⟩⟩
  refine ⟨ld, hw, ?_⟩
  have go : ∀ l2 l1 dir1, order = l1 ++ l2 → simulate w fuel p l1 = .ok dir1 → ∃ pre s rest dir1, order = pre ++ s :: rest ∧
      simulate w fuel p pre = .ok dir1 ∧ ¬ ∃ d, simulate w fuel p (pre ++ [s]) = .ok d := by
    intro l2
    induction l2 with
    | nil =>
      intro l1 d1 e1 e2
      rw [List.append_nil] at e1
      rw [← e1, he] at e2
      cases e2
    | cons s l2 ih =>
      intro l1 d1 e1 e2
      by_cases hs : ∃ d, simulate w fuel p (l1 ++ [s]) = .ok d
      · obtain ⟨d, hd⟩ := hs
        exact ih (l1 ++ [s]) d (by rw [e1]; simp) hd
      · exact ⟨l1, s, l2, d1, e1, e2, hs⟩
  obtain ⟨pre, s, rest, dir1, e1, e2, e3⟩ := go order [] dir rfl hdir
  have hpre : ∀ x ∈ pre, x ∈ order := fun x hx => by rw [e1]; simp [hx]
  have hs : s ∈ order := by rw [e1]; simp
  have hboth : ∀ x ∈ pre ++ [s], x ∈ order := fun x hx => by
    rcases List.mem_append.1 hx with hx | hx
    · exact hpre x hx
    · rw [List.mem_singleton.1 hx]; exact hs
  rw [key hboth] at e3
  push Not at e3
  obtain ⟨c, hc, ⟨s', hs', hcs⟩, hno⟩ := e3
  have hfail : ∃ e', (jobOfSetup w su i ld n freq os).alone fuel c = .error e' := by
    cases ha : (jobOfSetup w su i ld n freq os).alone fuel c with
    | error e' => exact ⟨e', rfl⟩
    | ok r => exact absurd ha (hno r)
  have hin : c ∈ Chunk.product (Run.axes (jobOfSetup w su i ld n freq os).dims s) := by
    rcases List.mem_append.1 hs' with hx | hx
    · obtain ⟨r, hr⟩ := (key hpre).1 ⟨_, e2⟩ c hc ⟨s', hx, hcs⟩
      exact absurd hr (hno r)
    · rw [List.mem_singleton.1 hx] at hcs; exact hcs
  refine ⟨pre, s, rest, dir1, e1, e2, ⟨c, hc, ⟨s, by simp, hin⟩, hfail⟩, fun more hm => ?_⟩
  cases hsim : simulate w fuel p (pre ++ s :: more) with
  | error e' => exact ⟨e', rfl⟩
  | ok d =>
    obtain ⟨r, hr⟩ := (key (fun x hx => by
      rcases List.mem_append.1 hx with hx | hx
      · exact hpre x hx
      · rcases List.mem_cons.1 hx with rfl | hx
        · exact hs
        · exact hm x hx)).1 ⟨d, hsim⟩ c hc ⟨s, by simp, hin⟩
    exact absurd hr (hno r)

end

end Verif.Props
