import Verif.Lemmas.Cell
import Verif.Lemmas.CellTotal
import Verif.Props.Units

/-!
# Properties of the complete run: C70, C71
-/

namespace Verif.Props

open Flt Cell

/-! ## C70 -/
section C70

/-- The run of a program over a grid: what the user has set up. -/
structure Job where
  shared : Shared
  freq : Option Times.Freq
  dir : Txt.Str
  pre : Txt.Str
  /-- `out_name` of each variable -/
  names : String → String
  dims : Dict String Nat
  chunks : Dict String Int
  /-- first day and number of days -/
  d0 : Int
  n : Nat
  mask : Run.Cell → Flt ℝ
  inp : Run.Cell → Run.CellIn Data ℝ

namespace Job

/-- A step that divides the day; consecutive days in the years 0-9999 on a calendar that has them; one file, or files of whole days, months or
years; different variables under different names; positive sizes; chunk sizes for all dimensions or none. -/
structure Sane (j : Job) : Prop where
  step : StepOk j.shared.ts
  pos : 0 < j.n
  calendar : HasDays j.shared.calendar j.d0 (j.d0 + j.n)
  data : ∀ c, (j.inp c).data.days = consecutive j.d0 j.n
  freq : ∀ f, j.freq = some f → f.valid = true ∧ WholeDays f
  years : ∀ T, Times.outputTimes j.shared.cfg (consecutive j.d0 j.n) = .ok T →
    ∀ t ∈ T, 0 ≤ Cal.yearOf (Times.ordOf t) ∧ Cal.yearOf (Times.ordOf t) < 10000
  vars : j.shared.outVars.keys.Nodup
  names : (j.shared.outVars.keys.map j.names).Nodup
  dims : j.dims.keys.Nodup
  dims_pos : ∀ p ∈ j.dims, 0 < p.2
  chunks : j.chunks.keys.Nodup
  chunks_pos : ∀ p ∈ j.chunks, 0 < p.2
  same : j.chunks = [] ∨ SameDims j.chunks j.dims

/-- The files left by the run, its chunks taken in the order `order`. -/
noncomputable def run (j : Job) (fuel : Nat) (order : List (Dict String Chunk.Slice)) : Except PyErr (Run.Files Output) :=
  runAll fuel j.shared j.freq j.dir j.pre j.names j.mask j.inp j.dims (consecutive j.d0 j.n) order

/-- `order` is a rearrangement of the chunks. -/
def Schedule (j : Job) (order : List (Dict String Chunk.Slice)) : Prop :=
  ∃ ss, Chunk.slices j.chunks j.dims = .ok ss ∧ order.Perm ss

/-- Some chunks of the run. -/
def Among (j : Job) (order : List (Dict String Chunk.Slice)) : Prop :=
  ∃ ss, Chunk.slices j.chunks j.dims = .ok ss ∧ ∀ s ∈ order, s ∈ ss

/-- The cell lies in one of the chunks. -/
def Done (j : Job) (order : List (Dict String Chunk.Slice)) (c : Run.Cell) : Prop := ∃ s ∈ order, c ∈ Chunk.product (Run.axes j.dims s)

theorem Schedule.among {j : Job} {order : List (Dict String Chunk.Slice)} (h : j.Schedule order) : j.Among order :=
  h.imp fun _ h => ⟨h.1, fun _ hs => h.2.mem_iff.1 hs⟩

/-- The cell is computed: it lies in the grid and its mask is a positive number. -/
def Computed (j : Job) (c : Run.Cell) : Prop := c ∈ gridCells j.dims ∧ ∃ x, j.mask c = fin x ∧ 0 < x

/-- What the cell gives when it is computed alone. -/
noncomputable def alone (j : Job) (fuel : Nat) (c : Run.Cell) : Except PyErr Output :=
  Run.own (cellBody fuel) j.shared (j.inp c)

end Job

/-- The stamps of the output files, file by file, and of the whole output. -/
structure Stamps (j : Job) where
  axis : List ℚ
  files : List (List ℚ)
  h_axis : Times.outputTimes j.shared.cfg (consecutive j.d0 j.n) = .ok axis
  h_files : Times.getOutputTimes j.shared.cfg j.freq (consecutive j.d0 j.n) = .ok files

/-- What the files hold for cell `c` under `name`: in each file, at each of its stamps, the value `val` has there. -/
def Holds (j : Job) (files : Run.Files Output) (G : List (List ℚ)) (name : String) (c : Run.Cell) (val : ℚ → Flt ℝ) : Prop :=
  ∀ g ∈ G, ∃ f out, Times.filename j.dir j.pre g = .ok f ∧ files (String.ofList f) c = some out ∧
    Dict.get? out name = some (g.map val)

theorem active_iff {mask : Run.Cell → Flt ℝ} {c : Run.Cell} :
    Run.active mask c = true ↔ ∃ x, mask c = fin x ∧ 0 < x := by
  unfold Run.active
  cases mask c with
  | nan => simp
  | fin x => simp

/-- A run that ends has gone through every chunk. -/
theorem foldlM_ok {α β : Type} {f : β → α → Except PyErr β} : ∀ {l : List α} {b r : β}, l.foldlM f b = .ok r →
    ∀ x ∈ l, ∃ b' r', f b' x = .ok r'
  | [], _, _, _, x, hx => by simp at hx
  | y :: l, b, r, h, x, hx => by
    rw [List.foldlM_cons, bind_ok] at h
    obtain ⟨a, h1, h2⟩ := h
    rcases List.mem_cons.1 hx with rfl | hx
    · exact ⟨b, a, h1⟩
    · exact foldlM_ok h2 x hx

theorem stamps_exist (j : Job) (hj : j.Sane) : ∃ st : Stamps j, Partitions st.axis st.files ∧
    (st.files.map (Times.filename j.dir j.pre)).Nodup := by
  have hc : ∀ f, j.freq = some f → f.valid = true ∧ Coarse j.shared.ts f := by
    intro f hf
    obtain ⟨h1, h2⟩ := hj.freq f hf
    refine ⟨h1, ?_⟩
    cases f <;> trivial
  obtain ⟨T, G, h1, h2, h3⟩ := C15_partition_partial j.shared.ts j.shared.calendar j.shared.periodEnding j.d0 j.n j.freq
    hj.step hj.pos hj.calendar hc
  refine ⟨⟨T, G, h1, h2⟩, h3, ?_⟩
  cases hf : j.freq with
  | none =>
    rw [hf] at h2
    unfold Times.getOutputTimes at h2
    rw [h1] at h2
    simp only [bind, Except.bind, Times.groups, Except.ok.injEq] at h2
    subst h2
    simp
  | some f =>
    obtain ⟨v, w⟩ := hj.freq f hf
    obtain ⟨G', g1, g2⟩ := C16_filenames_partial j.shared.ts j.shared.calendar j.shared.periodEnding j.d0 j.n f j.dir j.pre
      hj.step hj.pos hj.calendar v w hj.years
    rw [hf, g1] at h2
    injection h2 with h2
    subst h2
    exact g2

theorem filename_ok (dir pre : Txt.Str) {g : List ℚ} (hg : g ≠ []) : ∃ f, Times.filename dir pre g = .ok f := by
  unfold Times.filename Times.suffix
  rw [List.head?_eq_some_head hg, List.getLast?_eq_getLast_of_ne_nil hg]
  exact ⟨_, rfl⟩

/-- The groups of files of a sane job. -/
theorem fileGroups_ok (j : Job) (st : Stamps j) (hp : Partitions st.axis st.files)
    (hd : (st.files.map (Times.filename j.dir j.pre)).Nodup) :
    ∃ gs, fileGroups j.shared j.freq j.dir j.pre j.names (consecutive j.d0 j.n) = .ok gs ∧
      (gs.map Run.Group.name).Nodup ∧
      ∀ g ∈ st.files, ∃ f, Times.filename j.dir j.pre g = .ok f ∧
        (⟨String.ofList f, partOf j.names st.axis g⟩ : Run.Group Output Output) ∈ gs := by
  obtain ⟨p1, p2, p3⟩ := hp
  unfold fileGroups
  have key : ∀ (G : List (List ℚ)), (∀ g ∈ G, g ≠ []) → (∀ g ∈ G, Times.selected st.axis g = .ok g) →
      (G.map (Times.filename j.dir j.pre)).Nodup →
      ∃ gs : List (Run.Group Output Output), (G.mapM fun g => do
          let name ← Times.filename j.dir j.pre g
          let sel ← Times.selected st.axis g
          pure (⟨String.ofList name, partOf j.names st.axis sel⟩ : Run.Group Output Output)) = .ok gs ∧ (gs.map Run.Group.name).Nodup ∧
        (∀ x ∈ gs, ∃ g ∈ G, ∃ f, Times.filename j.dir j.pre g = .ok f ∧ x.name = String.ofList f) ∧
        ∀ g ∈ G, ∃ f, Times.filename j.dir j.pre g = .ok f ∧ (⟨String.ofList f, partOf j.names st.axis g⟩ : Run.Group Output Output) ∈ gs := by
    intro G
    induction G with
    | nil => intro _ _ _; exact ⟨[], rfl, by simp, by simp, by simp⟩
    | cons g G ih =>
      intro k1 k2 k3
      rw [List.map_cons, List.nodup_cons] at k3
      obtain ⟨gs, i1, i2, i3, i4⟩ := ih (fun x hx => k1 x (by simp [hx])) (fun x hx => k2 x (by simp [hx])) k3.2
      obtain ⟨f, hf⟩ := filename_ok j.dir j.pre (k1 g (by simp))
      refine ⟨⟨String.ofList f, partOf j.names st.axis g⟩ :: gs, ?_, ?_, ?_, ?_⟩
      · rw [List.mapM_cons, i1]
        simp only [hf, k2 g (by simp), bind, Except.bind, pure, Except.pure]
      · rw [List.map_cons, List.nodup_cons]
        refine ⟨?_, i2⟩
        intro hm
        obtain ⟨x, hx, e⟩ := List.mem_map.1 hm
        obtain ⟨g', hg', f', hf', e'⟩ := i3 x hx
        apply k3.1
        have : f = f' := by
          have := e.symm.trans e'
          exact String.ofList_injective this
        rw [hf, this, ← hf']
        exact List.mem_map_of_mem hg'
      · intro x hx
        rcases List.mem_cons.1 hx with rfl | hx
        · exact ⟨g, by simp, f, hf, rfl⟩
        · obtain ⟨g', hg', rest⟩ := i3 x hx
          exact ⟨g', by simp [hg'], rest⟩
      · intro g' hg'
        rcases List.mem_cons.1 hg' with rfl | hg'
        · exact ⟨f, hf, by simp⟩
        · obtain ⟨f', a, b⟩ := i4 g' hg'
          exact ⟨f', a, by simp [b]⟩
  obtain ⟨gs, i1, i2, -, i4⟩ := key st.files p1 p3 hd
  refine ⟨gs, ?_, i2, i4⟩
  rw [bind_ok]
  refine ⟨_, st.h_axis, ?_⟩
  rw [bind_ok]
  exact ⟨_, st.h_files, i1⟩

/-- A series along an axis without repetitions is a function of the stamp. -/
theorem series_fun (axis : List ℚ) (hd : axis.Nodup) (vals : List (Flt ℝ)) (hl : vals.length = axis.length) :
    ∃ val : ℚ → Flt ℝ, vals = axis.map val := by
  refine ⟨fun t => vals.getD (axis.idxOf t) nan, ?_⟩
  apply List.ext_getElem
  · simp [hl]
  · intro i h1 h2
    rw [List.length_map] at h2
    rw [List.getElem_map, hd.idxOf_getElem i h2]
    simp [List.getD_eq_getElem?_getD, h1]

theorem partOf_get (names : String → String) (axis g : List ℚ) (r : Output) (hn : (r.keys.map names).Nodup) {v : String}
    {val : ℚ → Flt ℝ} (hv : Dict.get? r v = some (axis.map val)) (hg : axis.filter (fun t => decide (t ∈ g)) = g) :
    Dict.get? (partOf names axis g r) (names v) = some (g.map val) := by
  apply Dict.get?_of_mem
  · unfold partOf Dict.keys
    rw [List.map_map]
    simpa [Dict.keys, List.map_map, Function.comp_def] using hn
  · unfold partOf
    refine List.mem_map.2 ⟨(v, axis.map val), Dict.mem_of_get? _ hv, ?_⟩
    simp only [Prod.mk.injEq, true_and]
    conv_rhs => rw [← hg]
    rw [List.map_congr_left (l := List.filter _ (axis.zip (axis.map val))) (fun _ _ => rfl)]
    generalize axis = a
    clear hv hg
    induction a with
    | nil => rfl
    | cons t a ih =>
      rw [List.map_cons, List.zip_cons_cons, List.filter_cons, List.filter_cons]
      by_cases h : t ∈ g
      · simp only [h, decide_true, if_true, List.map_cons, ih]
      · simp only [h, decide_false, Bool.false_eq_true, if_false, ih]

theorem filter_selected {T g : List ℚ} (h : Times.selected T g = .ok g) : T.filter (fun t => decide (t ∈ g)) = g := by
  unfold Times.selected at h
  split at h
  · rename_i a b _ _
    injection h with h
    have : ∀ P : ℚ → Bool, T.filter P = g → T.filter (fun t => decide (t ∈ g)) = g := by
      rintro P rfl
      apply List.filter_congr
      intro t ht
      simp [ht]
    exact this _ h
  · cases h

/-- Some of the chunks of a sane job: they end without an error exactly if each of their cells can be computed alone; then the files hold what
these cells give when computed alone, and nothing of other cells. -/
theorem files_some (j : Job) (hj : j.Sane) (fuel : Nat) (order : List (Dict String Chunk.Slice)) (ho : j.Among order) :
    ((∃ files, j.run fuel order = .ok files) ↔ ∀ c, j.Computed c → j.Done order c → ∃ r, j.alone fuel c = .ok r) ∧
    ∀ files, j.run fuel order = .ok files → ∃ st : Stamps j, st.files.flatten = st.axis ∧
      (∀ c, j.Computed c → j.Done order c → ∃ r, j.alone fuel c = .ok r ∧ r.keys = j.shared.outVars.keys ∧
        ∀ v ∈ j.shared.outVars.keys, ∃ val : ℚ → Flt ℝ, Dict.get? r v = some (st.axis.map val) ∧
          Holds j files st.files (j.names v) c val) ∧
      ∀ c, ¬ (j.Computed c ∧ j.Done order c) → ∀ g ∈ st.files, ∃ f, Times.filename j.dir j.pre g = .ok f ∧ files (String.ofList f) c = none := by
  obtain ⟨st, hp, hd⟩ := stamps_exist j hj
  obtain ⟨gs, g1, g2, g3⟩ := fileGroups_ok j st hp hd
  obtain ⟨ss, s1, s2⟩ := ho
  obtain ⟨ss', c1, c2, c3⟩ := slices_cover j.dims j.chunks hj.dims hj.chunks hj.dims_pos hj.chunks_pos hj.same
  rw [s1] at c1
  injection c1 with c1
  subst c1
  have hgrid : ∀ c, j.Done order c → c ∈ gridCells j.dims := fun c ⟨s, hs, hc⟩ => (c3 c).1 ⟨s, s2 s hs, hc⟩
  have hrun : j.run fuel order = Run.run (cellBody fuel) j.mask j.inp ⟨j.shared, nan, nan, nan⟩ j.dims gs order := by
    unfold Job.run runAll
    rw [g1]
    rfl
  have fwd : (∃ files, j.run fuel order = .ok files) → ∀ c, j.Computed c → j.Done order c → ∃ r, j.alone fuel c = .ok r := by
    rintro ⟨files, h⟩ c ⟨-, hm⟩ ⟨s, hs, hcs⟩
    rw [hrun] at h
    obtain ⟨b, r, hb⟩ := foldlM_ok h s hs
    unfold Run.runChunk at hb
    rw [bind_ok] at hb
    obtain ⟨out, hb, -⟩ := hb
    exact (C11_cell_independent (cellBody fuel) (keepsShared fuel) j.mask j.inp _ _).1.1 ⟨out, hb⟩ c hcs (active_iff.2 hm)
  have bwd : (∀ c, j.Computed c → j.Done order c → ∃ r, j.alone fuel c = .ok r) → ∃ files, j.run fuel order = .ok files ∧
      ∀ g ∈ gs, ∀ c, files g.name c = if ∃ s ∈ order, c ∈ Chunk.product (Run.axes j.dims s) then
        (Run.result (cellBody fuel) j.mask j.inp j.shared c).map g.part else none := by
    intro h
    rw [hrun]
    exact C07_loop (cellBody fuel) j.mask j.inp ⟨j.shared, nan, nan, nan⟩ j.dims gs order (keepsShared fuel) g2 (fun s hs => c2 s (s2 s hs))
      (fun s hs c hc ha => h c ⟨hgrid c ⟨s, hs, hc⟩, active_iff.1 ha⟩ ⟨s, hs, hc⟩) (fun _ _ => none)
  refine ⟨⟨fwd, fun h => ?_⟩, ?_⟩
  · obtain ⟨files, h, -⟩ := bwd h
    exact ⟨files, h⟩
  intro files hf
  obtain ⟨files', hf', hval⟩ := bwd (fwd ⟨files, hf⟩)
  rw [hf] at hf'
  injection hf' with hf'
  subst hf'
  refine ⟨st, hp.2.1, ?_, ?_⟩
  · intro c hc hdone
    obtain ⟨r, hr⟩ := fwd ⟨files, hf⟩ c hc hdone
    have hkeys := own_keys hr
    refine ⟨r, hr, hkeys, ?_⟩
    intro v hv
    obtain ⟨u, hu⟩ : ∃ u, j.shared.outVars.get? v = some u := by
      cases h : j.shared.outVars.get? v with
      | none => exact absurd hv ((Dict.get?_eq_none_iff _ _).1 h)
      | some u => exact ⟨u, rfl⟩
    have hlen : ∃ vals, Dict.get? r v = some vals ∧ vals.length = st.axis.length := by
      rw [axis_length hj.step hj.pos hj.calendar st.h_axis]
      by_cases hts : j.shared.ts < 1440
      · obtain ⟨_, _, _, -, -, -, _, _, _, -, -, h⟩ := own_sub hts hj.step hj.pos hj.calendar (hj.data c) hj.vars hr
        obtain ⟨_, vals, -, h1, h2, -⟩ := h v u hu
        exact ⟨vals, h1, h2⟩
      · have e : j.shared.ts = 1440 := le_antisymm hj.step.le (not_lt.1 hts)
        obtain ⟨_, _, _, -, -, -, _, _, -, h⟩ := own_daily e hj.pos hj.calendar (hj.data c) hj.vars hr
        obtain ⟨_, vals, -, h1, h2, -⟩ := h v u hu
        exact ⟨vals, h1, by rw [h2, e]; simp⟩
    obtain ⟨vals, hv1, hv2⟩ := hlen
    have hnd : st.axis.Nodup := by
      have h := st.h_axis
      rw [show j.shared.cfg = ⟨j.shared.ts, j.shared.calendar, j.shared.periodEnding⟩ from rfl,
        outputTimes_grid _ _ _ hj.step j.d0 j.n hj.pos hj.calendar] at h
      injection h with h
      rw [← h]
      exact (Times.pairwise_grid _ _ _ hj.step.1).imp (fun h => ne_of_lt h)
    obtain ⟨val, rfl⟩ := series_fun st.axis hnd vals hv2
    refine ⟨val, hv1, ?_⟩
    intro g hg
    obtain ⟨f, hfn, hmem⟩ := g3 g hg
    refine ⟨f, partOf j.names st.axis g r, hfn, ?_, ?_⟩
    · have := hval _ hmem c
      simp only at this
      rw [this, if_pos (show ∃ s ∈ order, c ∈ Chunk.product (Run.axes j.dims s) from hdone)]
      unfold Run.result
      rw [if_pos (active_iff.2 hc.2), show Run.own (cellBody fuel) j.shared (j.inp c) = .ok r from hr]
      rfl
    · refine partOf_get j.names st.axis g r (by rw [hkeys]; exact hj.names) hv1 ?_
      exact filter_selected (hp.2.2 g hg)
  · intro c hc g hg
    obtain ⟨f, hfn, hmem⟩ := g3 g hg
    refine ⟨f, hfn, ?_⟩
    have := hval _ hmem c
    simp only at this
    rw [this]
    split
    · rename_i hin
      unfold Run.result
      rw [if_neg (fun h => hc ⟨⟨hgrid c hin, active_iff.1 h⟩, hin⟩)]
      rfl
    · rfl

/-- A schedule leaves out no cell. -/
theorem schedule_done {j : Job} (hj : j.Sane) {order : List (Dict String Chunk.Slice)} (ho : j.Schedule order) {c : Run.Cell}
    (hc : j.Computed c) : j.Done order c := by
  obtain ⟨ss, s1, s2⟩ := ho
  obtain ⟨ss', c1, -, c3⟩ := slices_cover j.dims j.chunks hj.dims hj.chunks hj.dims_pos hj.chunks_pos hj.same
  rw [s1] at c1
  injection c1 with c1
  subst c1
  obtain ⟨s, hs, hcs⟩ := (c3 c).2 hc.1
  exact ⟨s, s2.mem_iff.2 hs, hcs⟩

/-- **C70**: a sane job ends without an error exactly if each of its cells can be computed alone, whatever the chunks
and their order; then each file holds, for each computed cell and requested variable, the values the cell gives when it
is computed alone, each at its own stamp; the stamps of the files are together those of the output, each once and in
order; and cells that are not computed are missing in every file. -/
theorem C70_files (j : Job) (hj : j.Sane) (fuel : Nat) (order : List (Dict String Chunk.Slice)) (ho : j.Schedule order) :
    ((∃ files, j.run fuel order = .ok files) ↔ ∀ c, j.Computed c → ∃ r, j.alone fuel c = .ok r) ∧
    ∀ files, j.run fuel order = .ok files → ∃ st : Stamps j, st.files.flatten = st.axis ∧
      (∀ c, j.Computed c → ∃ r, j.alone fuel c = .ok r ∧ r.keys = j.shared.outVars.keys ∧
        ∀ v ∈ j.shared.outVars.keys, ∃ val : ℚ → Flt ℝ, Dict.get? r v = some (st.axis.map val) ∧
          Holds j files st.files (j.names v) c val) ∧
      ∀ c, ¬ j.Computed c → ∀ g ∈ st.files, ∃ f, Times.filename j.dir j.pre g = .ok f ∧ files (String.ofList f) c = none := by
  obtain ⟨h1, h2⟩ := files_some j hj fuel order ho.among
  have hd : ∀ {c}, j.Computed c → j.Done order c := fun hc => schedule_done hj ho hc
  refine ⟨h1.trans ⟨fun h c hc => h c hc (hd hc), fun h c hc _ => h c hc⟩, fun files hf => ?_⟩
  obtain ⟨st, a, b, c⟩ := h2 files hf
  exact ⟨st, a, fun c hc => b c hc (hd hc), fun x hx => c x fun h => hx h.1⟩

end C70

/-! ## C71 -/
section C71

open Methods

/-- A cell with everything its computation needs: a place between 60 S and 60 N, the daily columns, finite extremes of
temperature, options that exist; for the passed-through method radiation, for triangular storms their shape. -/
structure CompleteCell (s : Shared) (n : Nat) (c : Run.CellIn Data ℝ) : Prop where
  place : ∃ elev lat lon, c.elev = fin elev ∧ c.lat = fin lat ∧ c.lon = fin lon ∧ |lat| ≤ 60 ∧ s.lapseRate * elev < 288.15
  lapse : 0 < s.lapseRate
  columns : ∀ k ∈ ["t_min", "t_max", "dtr", "smoothed_dtr", "prec", "seasonal_prec"], Dict.get? c.data.frame k ≠ none
  radiation : s.method = .passthrough → Dict.get? c.data.frame "shortwave" ≠ none
  tMin : ∀ col, Dict.get? c.data.frame "t_min" = some col → ∀ i < n, ∃ x, col i = fin x
  tMax : ∀ col, Dict.get? c.data.frame "t_max" = some col → ∀ i < n, ∃ x, col i = fin x
  state : ∃ a b, c.data.stateEnd = (fin a, fin b)
  fraction : 0 < s.tmaxFraction ∧ s.tmaxFraction ≤ 1
  lwType : ∃ ty, Lw.lwTypeOf s.lwType = .ok ty
  lwCloud : ∃ cl, Lw.cloudOf s.lwCloud = .ok cl
  storm : Lw.upperS s.precType = "TRIANGLE" ∨ Lw.upperS s.precType = "MIX" →
    Dict.get? c.data.frame "t_pk" ≠ none ∧ Dict.get? c.data.frame "dur" ≠ none

/-- The variables a run can write. -/
def Offers (s : Shared) (frame : Frame) (v : String) : Prop :=
  if s.ts < 1440 then
    v ∈ ["shortwave", "temp", "vapor_pressure", "rel_humid", "air_pressure", "spec_humid", "tskc", "longwave", "prec"] ∨
    (v = "wind" ∧ Dict.get? frame "wind" ≠ none)
  else v ∈ ["t_day", "tfmax", "tskc", "pet", "tdew", "vapor_pressure", "shortwave", "daylength", "potrad", "tt_max"] ∨
    Dict.get? frame v ≠ none

/-- There is a conversion of the variable to the unit. -/
def Convertible (v u : String) : Prop :=
  ∃ table f, (Units.converters (K := ℝ)).get? v = some table ∧ table.get? u = some f

theorem convert_iff {v u : String} {x : Flt ℝ} {ts : Int} : (∃ r, Units.convert v u x ts = .ok r) ↔ Convertible v u := by
  constructor
  · rintro ⟨r, h⟩
    obtain ⟨t, f, h1, h2, -⟩ := convert_ok h
    exact ⟨t, f, h1, h2⟩
  · rintro ⟨t, f, h1, h2⟩
    unfold Units.convert Dict.get
    rw [h1]
    simp only [bind, Except.bind]
    rw [h2]
    exact ⟨_, rfl⟩

theorem outputs_iff {s : Shared} {n : Nat} (hn : 0 < n) {col : String → Except PyErr (List (Flt ℝ))} :
    (∃ r, outputs s n (List.range n) col = .ok r) ↔
      ∀ q ∈ s.outVars, (∃ c, col q.1 = .ok c) ∧ Convertible q.1 q.2 := by
  constructor
  · rintro ⟨r, h⟩ q hq
    obtain ⟨c, vals, -, h1, h2, -, -⟩ := (outputs_ok h).2 q.1 q.2 hq
    refine ⟨⟨c, h1⟩, ?_⟩
    obtain ⟨l1, l2⟩ := mapM_range_ok h2
    exact convert_iff.1 ⟨_, l2 0 _ (List.getElem?_eq_getElem (by omega))⟩
  · intro h
    unfold outputs
    refine mapM_total fun q hq => ?_
    obtain ⟨⟨c, hc⟩, hv⟩ := h q hq
    obtain ⟨vals, hvals⟩ := mapM_total (f := fun i => Units.convert q.1 q.2 (c.getD i nan) s.ts) (xs := List.range n)
      (fun i _ => convert_iff.2 hv)
    refine ⟨(q.1, vals), ?_⟩
    rw [hc]
    simp only [bind, Except.bind]
    rw [hvals]
    simp only [assignSeries, (mapM_range_ok hvals).1, if_true]
    rfl

theorem geomRows_total {elev lat lr : ℝ} {geom : List Solar.DayGeom} (hg : Solar.solarGeom elev lat lr = .ok geom)
    (days : List Int) : ∃ rows, geomRows geom days = .ok rows := by
  obtain ⟨-, -, hl, -⟩ := solarGeom_ok hg
  unfold geomRows
  refine mapM_total fun d _ => ?_
  have hd : doy d - 1 < geom.length := by
    have := doy_le d
    omega
  rw [List.getElem?_eq_getElem hd]
  exact ⟨_, rfl⟩

/-- The daily values of a complete cell exist, unless the dewpoint iteration is cut off. -/
theorem runMethod_total {s : Shared} {n fuel : Nat} {c : Run.CellIn Data ℝ} (hc : CompleteCell s n c) (rows : List Solar.DayGeom)
    (elev : ℝ) (hf : s.method = .mtclim → mtclimRun n fuel (withGeom rows c.data.frame) (s.daily elev) ≠ .ok none) :
    ∃ base, runMethod fuel n s.method (withGeom rows c.data.frame) (s.daily elev) = .ok base ∧
      ∀ k, Has base k ↔ k ∈ ["t_day", "tfmax", "tskc", "pet", "tdew", "vapor_pressure", "shortwave", "daylength", "potrad",
        "tt_max"] ∨ Has c.data.frame k := by
  have hl : (s.daily elev).lapseRate ≠ 0 := ne_of_gt hc.lapse
  have hg : ∀ k, Has (withGeom rows c.data.frame) k ↔ k ∈ ["daylength", "potrad", "tt_max"] ∨ Has c.data.frame k := by
    intro k
    unfold withGeom
    simp only [has_set, List.mem_cons, List.not_mem_nil, or_false, eq_comm (b := k)]
    tauto
  have hr : ∀ k ∈ required, Has (withGeom rows c.data.frame) k := fun k hk => (hg k).2 (Or.inr (hc.columns k hk))
  have hd : Has (withGeom rows c.data.frame) "daylength" := (hg _).2 (Or.inl (by decide))
  unfold runMethod
  cases hm : s.method with
  | passthrough =>
    have hs : Has c.data.frame "shortwave" := hc.radiation hm
    obtain ⟨out, h1, h2⟩ := passthrough_total hl hr hd ((hg _).2 (Or.inr hs))
    refine ⟨out, h1, fun k => ?_⟩
    rw [h2, hg]
    have e : k ∈ ["t_day", "tfmax", "tskc", "pet", "tdew", "vapor_pressure", "shortwave", "daylength", "potrad", "tt_max"] ↔
        k ∈ addable ∨ k = "shortwave" ∨ k ∈ ["daylength", "potrad", "tt_max"] := by
      have := List.Perm.mem_iff (a := k) (show ["t_day", "tfmax", "tskc", "pet", "tdew", "vapor_pressure", "shortwave",
        "daylength", "potrad", "tt_max"].Perm (addable ++ "shortwave" :: ["daylength", "potrad", "tt_max"]) by decide)
      rw [this, List.mem_append, List.mem_cons]
    rw [e]
    by_cases hk : k = "shortwave"
    · subst hk; simp [hs]
    · simp only [hk, false_or, or_assoc]
  | mtclim =>
    obtain ⟨r, h1, h2⟩ := mtclim_total (n := n) (fuel := fuel) hl hr hd ((hg _).2 (Or.inl (by decide)))
      ((hg _).2 (Or.inl (by decide)))
    cases r with
    | none => exact absurd h1 (hf hm)
    | some out =>
      refine ⟨out, by rw [h1]; rfl, fun k => ?_⟩
      rw [h2 out rfl, hg, ← or_assoc, ← List.mem_append]
      exact or_congr_left (List.Perm.mem_iff (by decide))

theorem column?_length {n : Nat} {df : Frame} {name : String} {xs : List (Flt ℝ)} (h : column? n df name = some xs) :
    xs.length = n := by
  unfold column? at h
  obtain ⟨c, -, rfl⟩ := Option.map_eq_some_iff.1 h
  simp

theorem subColumn_iff {sub : Disaggregate.Sub} {v : String} : (∃ col, subColumn sub v = .ok col) ↔
    v ∈ ["shortwave", "temp", "vapor_pressure", "rel_humid", "air_pressure", "spec_humid", "tskc", "longwave", "prec"] ∨
    (v = "wind" ∧ sub.wind.isSome = true) := by
  constructor
  · rintro ⟨col, h⟩
    unfold subColumn at h
    split at h
    case h_10 =>
      cases hw' : sub.wind with
      | none => rw [hw'] at h; cases h
      | some w => right; exact ⟨rfl, rfl⟩
    case h_11 => cases h
    all_goals (left; decide)
  · rintro (h | ⟨h, hw'⟩)
    · simp only [List.mem_cons, List.not_mem_nil, or_false] at h
      rcases h with h | h | h | h | h | h | h | h | h <;> rw [h] <;> exact ⟨_, rfl⟩
    · rw [h]
      obtain ⟨w, hw'⟩ := Option.isSome_iff_exists.1 hw'
      simp only [subColumn, hw']
      exact ⟨w, rfl⟩

/-- The dewpoint iteration of the cell ends within `fuel` rounds. -/
def EndsWithin (s : Shared) (n : Nat) (c : Run.CellIn Data ℝ) (fuel : Nat) : Prop :=
  ∀ geom rows elev lat, c.elev = fin elev → c.lat = fin lat → Solar.solarGeom elev lat s.lapseRate = .ok geom →
    geomRows geom c.data.days = .ok rows → mtclimRun n fuel (withGeom rows c.data.frame) (s.daily elev) ≠ .ok none

/-- **C71**: a cell with complete input can be computed exactly if each requested variable is one the run can write,
in a unit it can be converted to.  For `mtclim` the dewpoint iteration must not need more than `fuel` rounds (that it
ends is C72). -/
theorem C71_completes (s : Shared) (d0 : Int) (n : Nat) (c : Run.CellIn Data ℝ) (fuel : Nat) (hts : StepOk s.ts) (hn : 0 < n)
    (hr : HasDays s.calendar d0 (d0 + n)) (hd : c.data.days = consecutive d0 n) (hc : CompleteCell s n c)
    (hf : s.method = .mtclim → EndsWithin s n c fuel) :
    (∃ r, Run.own (cellBody fuel) s c = .ok r) ↔ ∀ q ∈ s.outVars, Offers s c.data.frame q.1 ∧ Convertible q.1 q.2 := by
  obtain ⟨elev, lat, lon, e1, e2, e3, hlat, hle⟩ := hc.place
  obtain ⟨geom, hg, -, -⟩ := C45_midlatitude_partial elev lat s.lapseRate hlat hc.lapse hle
  obtain ⟨rows, hrows⟩ := geomRows_total hg c.data.days
  obtain ⟨base, hbase, hhas⟩ := runMethod_total (fuel := fuel) hc rows elev (fun h => hf h geom rows elev lat e1 e2 hg hrows)
  have hlen : c.data.days.length = n := by rw [hd]; simp
  obtain ⟨axis, haxis⟩ : ∃ axis, Times.outputTimes s.cfg c.data.days = .ok axis := by
    rw [hd]
    exact ⟨_, outputTimes_grid s.ts s.calendar s.periodEnding hts d0 n hn hr⟩
  have hal : axis.length = n * (1440 / s.ts) := axis_length hts hn hr (hd ▸ haxis)
  have hN : 0 < n * (1440 / s.ts) := Nat.mul_pos hn hts.pos
  have hb : ∀ k, k ∈ ["shortwave", "daylength", "t_min", "t_max", "vapor_pressure", "tskc", "prec"] → ∃ col,
      Dict.get? base k = some col := by
    intro k hk
    refine Has.get ((hhas k).2 ?_)
    simp only [List.mem_cons, List.not_mem_nil, or_false] at hk
    rcases hk with rfl | rfl | rfl | rfl | rfl | rfl | rfl
    · left; decide
    · left; decide
    · right; exact hc.columns _ (by decide)
    · right; exact hc.columns _ (by decide)
    · left; decide
    · left; decide
    · right; exact hc.columns _ (by decide)
  have keep : ∀ k, k ∉ ["t_day", "tfmax", "tskc", "seasonal_prec", "tdew", "vapor_pressure", "shortwave", "pet"] →
      k ∉ ["daylength", "potrad", "tt_max"] → Dict.get? base k = Dict.get? c.data.frame k := by
    intro k h1 h2
    rw [runMethod_keeps hbase h1, withGeom_keeps rows _ h2]
  have hown : Run.own (cellBody fuel) s c = (cellBody fuel ⟨s, fin elev, fin lat, fin lon⟩ c.data).map (·.1) := by
    unfold Run.own
    rw [e1, e2, e3]
  by_cases hsub : s.ts < 1440
  · -- the daily frame handed on
    obtain ⟨daily, hdaily⟩ : ∃ daily, dailyOf c.data.days base = .ok daily := by
      obtain ⟨c1, h1⟩ := hb "shortwave" (by decide)
      obtain ⟨c2, h2⟩ := hb "daylength" (by decide)
      obtain ⟨c3, h3⟩ := hb "t_min" (by decide)
      obtain ⟨c4, h4⟩ := hb "t_max" (by decide)
      obtain ⟨c5, h5⟩ := hb "vapor_pressure" (by decide)
      obtain ⟨c6, h6⟩ := hb "tskc" (by decide)
      obtain ⟨c7, h7⟩ := hb "prec" (by decide)
      unfold dailyOf column Dict.get
      simp only [h1, h2, h3, h4, h5, h6, h7, bind, Except.bind, pure, Except.pure]
      exact ⟨_, rfl⟩
    obtain ⟨q1, q2, q3, q4, q5, q6, q7, q8, q9, q10, q11, q12⟩ := dailyOf_ok hdaily
    have ld : daily.doy.length = n := by rw [q1, List.length_map, hlen]
    have lcol : ∀ {name xs}, column c.data.days.length base name = .ok xs → xs.length = daily.doy.length := by
      intro name xs h
      obtain ⟨col, -, rfl⟩ := Cell.column_ok.1 h
      simp [ld, hlen]
    have lcol? : ∀ {name xs}, column? c.data.days.length base name = some xs → xs.length = daily.doy.length := by
      intro name xs h
      rw [column?_length h, hlen, ld]
    have hfin : ∀ (name : String) (xs : List (Flt ℝ)), column c.data.days.length base name = .ok xs →
        (∀ col, Dict.get? base name = some col → ∀ i < n, ∃ x, col i = fin x) → ∀ v ∈ xs, isFin v = true := by
      intro name xs h hcol v hv
      obtain ⟨col, g, rfl⟩ := Cell.column_ok.1 h
      obtain ⟨i, hi, rfl⟩ := List.mem_map.1 hv
      rw [List.mem_range, hlen] at hi
      obtain ⟨x, hx⟩ := hcol col g i hi
      rw [hx]; rfl
    have hu : Usable daily (s.sub elev lon) := {
      ts := hts.2
      ne := by intro e; rw [e] at ld; simp at ld; omega
      doy := by
        intro x hx
        rw [q1] at hx
        obtain ⟨d, -, rfl⟩ := List.mem_map.1 hx
        exact doy_le d
      frac := hc.fraction.1
      frac1 := hc.fraction.2
      shortwave := lcol q2
      daylength := lcol q3
      tMin := lcol q4
      tMax := lcol q5
      vaporPressure := lcol q6
      tskc := lcol q7
      prec := lcol q8
      wind := fun w hw => lcol? (q9 ▸ hw)
      longwave := fun w hw => lcol? (q10 ▸ hw)
      tMin_fin := hfin _ _ q4 (by rw [keep _ (by decide) (by decide)]; exact hc.tMin)
      tMax_fin := hfin _ _ q5 (by rw [keep _ (by decide) (by decide)]; exact hc.tMax)
      lwType := hc.lwType
      lwCloud := hc.lwCloud
      storm := by
        intro h
        obtain ⟨h1, h2⟩ := hc.storm h
        rw [q11, q12]
        unfold column?
        rw [keep _ (by decide) (by decide), keep _ (by decide) (by decide)]
        simp only [Option.isSome_map]
        exact ⟨Option.isSome_iff_ne_none.2 h1, Option.isSome_iff_ne_none.2 h2⟩ }
    obtain ⟨a, b, hst⟩ := hc.state
    obtain ⟨sub, hsubf, hlens⟩ := C69_total elev lat s.lapseRate (by linarith) geom hg daily (s.sub elev lon) hu (some (a, b)) none
    have hsubf : Disaggregate.disaggregate daily (s.sub elev lon) geom (some [c.data.stateEnd.1, c.data.stateEnd.2]) none
        = .ok sub := by rw [hst]; exact hsubf
    obtain ⟨l1, -, -, -, -, -, -, -, -, -, -, l2, -⟩ := hlens (n * (1440 / s.ts)) (by
      show n * (1440 / s.ts) * s.ts = _
      rw [ld, Nat.mul_assoc, hts.mul])
    obtain ⟨frame, hframe⟩ : ∃ frame, Times.cellFrame s.cfg c.data.days (List.range sub.time.length) = .ok frame := by
      rw [l1, hd]
      exact ⟨_, cellFrame_eq s.ts s.calendar s.periodEnding hts d0 n hn hr _ (by simp)⟩
    have hsnd : frame.map (·.2) = List.range axis.length := by
      rw [l1, hd] at hframe
      rw [hal]
      exact map_snd_frame hts hn hr rfl hframe
    have hbody : (∃ r, Run.own (cellBody fuel) s c = .ok r) ↔
        ∃ r, outputs s axis.length (List.range axis.length) (subColumn sub) = .ok r := by
      rw [hown]
      unfold cellBody
      simp only [finite, hg, hrows, hlen, hbase, haxis, if_pos hsub, hdaily, hsubf, hframe, hsnd, bind, Except.bind]
      cases outputs s axis.length (List.range axis.length) (subColumn sub) with
      | error e => simp [Except.map]
      | ok r => simp [Except.map, pure, Except.pure]
    rw [hbody, outputs_iff (by omega)]
    refine forall₂_congr fun q hq => and_congr_left fun _ => ?_
    unfold Offers
    rw [if_pos hsub]
    have hw : Dict.get? c.data.frame "wind" ≠ none ↔ sub.wind.isSome = true := by
      rw [l2, q9]
      unfold column?
      rw [keep _ (by decide) (by decide)]
      simp only [Option.isSome_map]
      exact Option.isSome_iff_ne_none.symm
    rw [hw]
    exact subColumn_iff
  · have hts' : s.ts = 1440 := le_antisymm hts.le (not_lt.1 hsub)
    obtain ⟨c1, h1⟩ := hb "shortwave" (by decide)
    obtain ⟨c2, h2⟩ := hb "daylength" (by decide)
    obtain ⟨rep, hrep, hrh⟩ : ∃ rep, dailyShortwave base = .ok rep ∧ ∀ k, Has rep k ↔ Has base k := by
      unfold dailyShortwave Dict.get
      simp only [h1, h2, bind, Except.bind, pure, Except.pure]
      refine ⟨_, rfl, fun k => ?_⟩
      rw [has_set]
      constructor
      · rintro (rfl | h)
        · unfold Has; simp [h1]
        · exact h
      · exact Or.inr
    have hal' : axis.length = n := by rw [hal, hts']; simp
    obtain ⟨frame, hframe⟩ : ∃ frame, Times.cellFrame s.cfg c.data.days (List.range n) = .ok frame := by
      rw [hd]
      exact ⟨_, cellFrame_eq s.ts s.calendar s.periodEnding hts d0 n hn hr _ (by simp [hts'])⟩
    have hsnd : frame.map (·.2) = List.range axis.length := by
      rw [hd] at hframe
      rw [hal']
      exact map_snd_frame hts hn hr (by rw [hts']; simp) hframe
    have hbody : (∃ r, Run.own (cellBody fuel) s c = .ok r) ↔
        ∃ r, outputs s axis.length (List.range axis.length) (column n rep) = .ok r := by
      rw [hown]
      unfold cellBody
      simp only [finite, hg, hrows, hlen, hbase, haxis, if_neg hsub, hrep, hframe, hsnd, bind, Except.bind]
      cases outputs s axis.length (List.range axis.length) (column n rep) with
      | error e => simp [Except.map]
      | ok r => simp [Except.map, pure, Except.pure]
    rw [hbody, outputs_iff (by omega)]
    refine forall₂_congr fun q hq => and_congr_left fun _ => ?_
    unfold Offers
    rw [if_neg hsub]
    have : (∃ col, column n rep q.1 = .ok col) ↔ Has rep q.1 := by
      constructor
      · rintro ⟨col, h⟩
        obtain ⟨f, g, -⟩ := Cell.column_ok.1 h
        unfold Has; simp [g]
      · intro h
        obtain ⟨f, g⟩ := h.get
        exact ⟨_, Cell.column_ok.2 ⟨f, g, rfl⟩⟩
    rw [this, hrh, hhas]
    rfl

/-- **C71**: a run whose computed cells have complete input ends without an error exactly if each requested variable is
one it can write, in a unit it can be converted to. -/
theorem C71_run (j : Job) (hj : j.Sane) (fuel : Nat) (order : List (Dict String Chunk.Slice)) (ho : j.Schedule order)
    (hc : ∀ c, j.Computed c → CompleteCell j.shared j.n (j.inp c))
    (hf : j.shared.method = .mtclim → ∀ c, j.Computed c → EndsWithin j.shared j.n (j.inp c) fuel) :
    (∃ files, j.run fuel order = .ok files) ↔
      ∀ c, j.Computed c → ∀ q ∈ j.shared.outVars, Offers j.shared (j.inp c).data.frame q.1 ∧ Convertible q.1 q.2 := by
  rw [(C70_files j hj fuel order ho).1]
  refine forall₂_congr fun c h => ?_
  exact C71_completes j.shared j.d0 j.n (j.inp c) fuel hj.step hj.pos hj.calendar (hj.data c) (hc c h) (fun hm => hf hm c h)

/-- A run over two cells, the second outside the mask: two days in half-day steps, one file per day. -/
def demoVars : Dict String String :=
  [("prec", "mm h-1"), ("temp", "K"), ("shortwave", "W m-2"), ("vapor_pressure", "kPa"), ("rel_humid", "%"),
   ("air_pressure", "kPa"), ("spec_humid", "g g-1"), ("tskc", "fraction"), ("longwave", "W m-2")]

/-- What the example writes can be written. -/
theorem demo_offers {s : Shared} (hlt : s.ts < 1440) (f : Frame) : ∀ q ∈ demoVars, Offers s f q.1 ∧ Convertible q.1 q.2 := by
  intro q hq
  unfold Offers
  rw [if_pos hlt]
  simp only [demoVars, List.mem_cons, List.not_mem_nil, or_false] at hq
  rcases hq with rfl | rfl | rfl | rfl | rfl | rfl | rfl | rfl | rfl <;> exact ⟨Or.inl (by decide), _, _, rfl, rfl⟩

noncomputable def demo (m : Method) : Job where
  shared := { method := m, ts := 720, calendar := "standard", periodEnding := false, utcOffset := false,
              swAveraging := "daylight", precType := "uniform", lwType := "prata", lwCloud := "cloud_deardorff",
              thetaS := 0, tmaxFraction := 0.67, tdayCoef := 0.45, swPrecThresh := 0, rainScalar := 0.75,
              lapseRate := 0.0065, tdewTol := 1, outVars := demoVars }
  freq := some (.days 1)
  dir := "/o".toList
  pre := "f".toList
  names := id
  dims := [("lat", 1), ("lon", 2)]
  chunks := []
  d0 := 0
  n := 2
  mask := fun c => if c = [0, 0] then fin 1 else fin 0
  inp := fun _ => ⟨fin 100, fin 45, fin (-120), ⟨consecutive 0 2,
    [("t_min", fun _ => fin 5), ("t_max", fun _ => fin 15), ("prec", fun _ => fin 24), ("dtr", fun _ => fin 10),
     ("smoothed_dtr", fun _ => fin 10), ("seasonal_prec", fun _ => fin 800), ("shortwave", fun _ => fin 200)], (fin 4, fin 14)⟩⟩

theorem demo_sane (m : Method) : (demo m).Sane where
  step := by cases m <;> exact ⟨by decide, by decide⟩
  pos := by cases m <;> decide
  calendar := regular_standard _ _
  data := fun _ => rfl
  freq := by
    rintro f h
    have : f = .days 1 := by injection h with h; exact h.symm
    subst this
    exact ⟨rfl, trivial⟩
  years := by
    intro T h t ht
    have e : Times.outputTimes (demo m).shared.cfg (consecutive 0 2) = .ok [0, 720, 1440, 2160] := by
      show Times.outputTimes ⟨720, "standard", false⟩ (consecutive 0 2) = _
      decide +kernel
    have h' : Times.outputTimes (demo m).shared.cfg (consecutive 0 2) = .ok T := h
    rw [e] at h'
    injection h' with h'
    subst h'
    revert t
    decide +kernel
  vars := by cases m <;> (unfold demo Dict.keys; decide)
  names := by cases m <;> (unfold demo Dict.keys; decide)
  dims := by cases m <;> (unfold demo Dict.keys; decide)
  dims_pos := by cases m <;> decide
  chunks := by cases m <;> (unfold demo Dict.keys; decide)
  chunks_pos := by cases m <;> decide
  same := Or.inl rfl

theorem demo_complete (m : Method) (c : Run.Cell) : CompleteCell (demo m).shared 2 ((demo m).inp c) where
  place := ⟨100, 45, -120, rfl, rfl, rfl, by rw [abs_of_pos] <;> norm_num, by unfold demo; norm_num⟩
  lapse := by unfold demo; norm_num
  columns := by
    intro k hk
    simp only [List.mem_cons, List.not_mem_nil, or_false] at hk
    rcases hk with rfl | rfl | rfl | rfl | rfl | rfl <;> simp [demo, Dict.get?_cons]
  radiation := fun _ => by simp [demo, Dict.get?_cons]
  tMin := by
    intro col h i _
    simp only [demo, Dict.get?_cons, if_true, Option.some.injEq] at h
    subst h
    exact ⟨5, rfl⟩
  tMax := by
    intro col h i _
    simp (decide := true) only [demo, Dict.get?_cons, if_true, if_false, Option.some.injEq] at h
    subst h
    exact ⟨15, rfl⟩
  state := ⟨4, 14, rfl⟩
  fraction := by unfold demo; norm_num
  lwType := ⟨.prata, by cases m <;> (unfold demo; decide)⟩
  lwCloud := ⟨.deardorff, by cases m <;> (unfold demo; decide)⟩
  storm := by
    cases m <;> unfold demo <;> rintro (h | h) <;> exact absurd h (by decide)

theorem demo_alone (fuel : Nat) (c : Run.Cell) : ∃ r, (demo .passthrough).alone fuel c = .ok r :=
  (C71_completes (demo .passthrough).shared 0 2 ((demo .passthrough).inp c) fuel (demo_sane .passthrough).step (by decide) (demo_sane .passthrough).calendar rfl
    (demo_complete _ c) (fun h => by cases h)).2 (demo_offers (by unfold demo; decide) _)

theorem demo_runs : ∃ order files, (demo .passthrough).Schedule order ∧ (demo .passthrough).run 0 order = .ok files := by
  obtain ⟨files, h⟩ := (C70_files (demo .passthrough) (demo_sane .passthrough) 0 [[("lat", none), ("lon", none)]]
    ⟨_, rfl, List.Perm.refl _⟩).1.2 (fun c _ => demo_alone 0 c)
  exact ⟨_, files, ⟨_, rfl, List.Perm.refl _⟩, h⟩

/-- **C70**, **C71**: such a run exists, and ends. -/
example : (demo .passthrough).Sane ∧ (demo .passthrough).Computed [0, 0] ∧ ¬ (demo .passthrough).Computed [0, 1] ∧
    ∃ order files, (demo .passthrough).Schedule order ∧ (demo .passthrough).run 0 order = .ok files := by
  refine ⟨(demo_sane .passthrough), ⟨by decide, 1, rfl, one_pos⟩, ?_, demo_runs⟩
  rintro ⟨-, x, h, h0⟩
  have : (fin 0 : Flt ℝ) = fin x := h
  injection this with this
  exact absurd h0 (by rw [← this]; exact lt_irrefl _)

end C71

end Verif.Props
