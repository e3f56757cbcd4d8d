import Verif.Lemmas.Worker
import Verif.Props.Cell

/-!
# C89: from the input files to the output files

Every worker reads the domain, the forcing and the state for its own chunk, and writes its own part of the output.
-/

namespace Verif.Props

open Dataset Worker Flt

/-- The loop over a chunk's cells, in terms of the cells of the domain. -/
theorem cells_eq {S D R : Type} (body : Run.Body S D R ℝ) {mask mask' : Run.Cell → Flt ℝ}
    {inp : Run.Cell → Run.CellIn D ℝ} {inp' : Run.Cell → Except PyErr (Run.CellIn D ℝ)} {ax : List (List Nat)} :
    ∀ (ls : List Run.Cell) (p : Run.Params S ℝ) (out : Run.Cell → Option R),
      (∀ l ∈ ls, mask' l = mask (Run.globalOf ax l)) →
      (∀ l ∈ ls, Flt.lt (.fin 0) (mask (Run.globalOf ax l)) = true → inp' l = .ok (inp (Run.globalOf ax l))) →
      cells body mask' inp' ls p out = do
        let (_, r) ← Run.runCells body mask inp ax ls p out
        pure r
  | [], _, _, _, _ => rfl
  | l :: ls, p, out, hm, hi => by
    have ih := fun p out => cells_eq body ls p out (fun x hx => hm x (List.mem_cons_of_mem _ hx))
      (fun x hx => hi x (List.mem_cons_of_mem _ hx))
    unfold cells Run.runCells
    rw [hm l (by simp)]
    by_cases h : Flt.lt (.fin 0) (mask (Run.globalOf ax l)) = true
    · rw [if_pos h, if_pos h, hi l (by simp) h]
      simp only [bind, Except.bind]
      cases Run.wrapRunCell body p (inp (Run.globalOf ax l)) with
      | error e => rfl
      | ok q => simpa [bind, Except.bind] using ih q.2 (Run.store out l (some q.1))
    · rw [if_neg h, if_neg h]
      exact ih p out

/-- What a cell of the domain is computed from. -/
noncomputable def inputOf (w : Loads) (c : Run.Cell) : Run.CellIn Cell.Data ℝ :=
  match cellIn w c with
  | .ok x => x
  | .error _ => ⟨nan, nan, nan, ⟨w.days.map (· - 730120), [], (nan, nan)⟩⟩

/-- The mask of a cell. -/
def maskOf (w : Loads) (c : Run.Cell) : Flt ℝ := w.mask.val (cellIndex w.mask.dims c)

/-- The input of every cell within the mask can be put together. -/
def Readable (w : Loads) : Prop :=
  ∀ c ∈ positions w.dom w.mask.dims, Flt.lt (.fin 0) (maskOf w c) = true → ∃ x, cellIn w c = .ok x

/-- **C89**: a worker that reads its own chunk computes and writes what it would from the whole. -/
theorem C89_worker {i : Inputs} {s : Cell.Shared} {w : Loads} {o : Output} {chunk : Dict String Chunk.Slice} (hi : Sound i)
    (hw : load i s [] = .ok w) (hfit : Fit w) (hr : Readable w) (hch : IsChunk w chunk) (fuel : Nat)
    (files : Run.Files Cell.Output) {groups : List (Run.Group Cell.Output Cell.Output)}
    (hg : Cell.fileGroups s o.freq o.dir o.pre o.names (w.days.map (· - 730120)) = .ok groups) :
    worker fuel i s o (fileDims w.dom w.mask.dims) files chunk =
      Run.runChunk (Cell.cellBody fuel) (maskOf w) (inputOf w) ⟨s, nan, nan, nan⟩ (maskDims w.dom w.mask.dims) groups files chunk := by
  obtain ⟨w', h1, h2, h3, h4, h5⟩ := load_part hi hw hfit hch
  unfold worker Run.runChunk Run.runSlice
  simp only [h1, bind, Except.bind, h2, hg]
  rw [cells_eq (Cell.cellBody fuel) (mask := maskOf w) (inp := inputOf w) (ax := axesOf w chunk), h4]
  · rfl
  · intro l hl
    exact (h5 l (h4 ▸ hl)).1
  · intro l hl hact
    obtain ⟨x, hx⟩ := hr _ (global_position (h4 ▸ hl)) hact
    rw [(h5 l (h4 ▸ hl)).2 x hx]
    unfold inputOf
    have hx' : cellIn w (Run.globalOf (axesOf w chunk) l) = .ok x := hx
    rw [hx']

/-- **C89**: the workers of a run, each reading its own chunk, in whatever order they come to write, leave what one pass
over the whole domain leaves. -/
theorem C89_run {i : Inputs} {s : Cell.Shared} {w : Loads} (o : Output) (hi : Sound i) (hw : load i s [] = .ok w)
    (hfit : Fit w) (hr : Readable w) (fuel : Nat) (order : List (Dict String Chunk.Slice)) (ho : ∀ chunk ∈ order, IsChunk w chunk) :
    runFiles fuel i s o order = Cell.runAll fuel s o.freq o.dir o.pre o.names (maskOf w) (inputOf w)
      (maskDims w.dom w.mask.dims) (w.days.map (· - 730120)) order := by
  have hw' := hw
  unfold load at hw'
  simp only [bind_ok] at hw'
  obtain ⟨dom, h1, met0, h2, met, h3, u, h4, st, -, mask, h6, record, -, old, -, new, -, agg, -, extra, -, e⟩ := hw'
  rw [pure_ok] at e
  have hd : w.dom = dom := by rw [← e]
  have hk : w.mask = mask := by rw [← e]
  have hm : w.met = met := by rw [← e]
  unfold runFiles Cell.runAll
  have hdays : w.days = daysOf met := by unfold Loads.days; rw [hm]
  rw [← hdays] at h4
  rw [h1]
  simp only [bind, Except.bind, h2, h3, h4, h6, ← hdays]
  cases hg : Cell.fileGroups s o.freq o.dir o.pre o.names (w.days.map (· - 730120)) with
  | error e => rfl
  | ok groups =>
    simp only
    rw [← hd, ← hk]
    unfold Run.run
    generalize (fun _ _ => none : Run.Files Cell.Output) = files
    revert files
    clear e h1 h2 h3 h4 h6 hd hk hm hdays
    induction order with
    | nil => intro files; rfl
    | cons c cs ih =>
      intro files
      rw [List.foldlM_cons, List.foldlM_cons, C89_worker hi hw hfit hr (ho c (by simp)) fuel files hg]
      simp only [bind, Except.bind]
      cases Run.runChunk (Cell.cellBody fuel) (maskOf w) (inputOf w) ⟨s, nan, nan, nan⟩ (maskDims w.dom w.mask.dims) groups files c with
      | error e => rfl
      | ok f => exact ih (fun x hx => ho x (List.mem_cons_of_mem _ hx)) f

/-- The run the files describe. -/
noncomputable def jobOf (s : Cell.Shared) (o : Output) (chunks : Dict String Int) (w : Loads) (d0 : Int) (n : Nat) : Job where
  shared := s
  freq := o.freq
  dir := o.dir
  pre := o.pre
  names := o.names
  dims := maskDims w.dom w.mask.dims
  chunks := chunks
  d0 := d0
  n := n
  mask := maskOf w
  inp := inputOf w

/-- The chunks of a run have the dimensions of the mask. -/
theorem schedule_chunks {s : Cell.Shared} {w : Loads} {o : Output} {chunks : Dict String Int} {d0 : Int} {n : Nat} (hfit : Fit w)
    (hj : (jobOf s o chunks w d0 n).Sane) {order : List (Dict String Chunk.Slice)} (ho : (jobOf s o chunks w d0 n).Among order) :
    ∀ chunk ∈ order, IsChunk w chunk := by
  obtain ⟨ss, s1, s2⟩ := ho
  have hkeys : (maskDims w.dom w.mask.dims).keys = w.mask.dims := by
    unfold maskDims Dict.keys; rw [List.map_map]; simp [Function.comp_def]
  intro chunk hc
  obtain ⟨ss', c1, -, -, c4⟩ := C06_partition chunks (maskDims w.dom w.mask.dims) hj.chunks hj.chunks_pos hj.dims_pos (by
    rcases hj.same with h | h
    · have h' : chunks = [] := h
      simp [h', Dict.keys]
    · exact fun d hd => (h d).1 hd)
  have s1' : Chunk.slices chunks (maskDims w.dom w.mask.dims) = .ok ss := s1
  rw [s1'] at c1
  injection c1 with c1
  subst c1
  have hk := c4 chunk (s2 chunk hc)
  have hboth : chunk.keys.Nodup ∧ ∀ d ∈ chunk.keys, d ∈ w.mask.dims := by
    rw [hk]
    by_cases h : chunks = []
    · simp [h, hkeys, hfit.axes]
    · simp only [h, if_false]
      rcases hj.same with h' | h'
      · exact absurd h' h
      · exact ⟨hj.chunks, fun d hd => hkeys ▸ (h' d).1 hd⟩
  refine ⟨hboth.1, fun d hd => hboth.2 d ?_⟩
  rw [Dict.isSome_iff] at hd
  exact hd

/-- **C89**: the run from the files is the run of C70-C85, with the cells' inputs taken from the files. -/
theorem C89_job {i : Inputs} {s : Cell.Shared} {w : Loads} (o : Output) (chunks : Dict String Int) (d0 : Int) (n : Nat)
    (hi : Sound i) (hw : load i s [] = .ok w) (hfit : Fit w) (hr : Readable w) (hdays : w.days.map (· - 730120) = consecutive d0 n)
    (hj : (jobOf s o chunks w d0 n).Sane) (fuel : Nat) (order : List (Dict String Chunk.Slice))
    (ho : (jobOf s o chunks w d0 n).Schedule order) :
    runFiles fuel i s o order = (jobOf s o chunks w d0 n).run fuel order := by
  rw [C89_run o hi hw hfit hr fuel order]
  · unfold Job.run
    rw [hdays]; rfl
  · exact schedule_chunks hfit hj ho.among

/-! ### The inputs of a cell, in terms of the files -/

/-- The forcing of a run. -/
def force (i : Inputs) : Gridded ℝ :=
  ⟨i.domFile, i.domNames, i.forcing, i.names, ((i.start - epoch : Int) : ℚ), ((i.stop - epoch : Int) : ℚ)⟩

/-- The state of a run: the ninety days before. -/
def past (i : Inputs) : Gridded ℝ :=
  ⟨i.domFile, i.domNames, i.stateFile, i.stateNames, ((i.start - 90 - epoch : Int) : ℚ), ((i.start - 1 - epoch : Int) : ℚ)⟩

theorem axes_nil (dims : Dict String Nat) : Run.axes dims [] = dims.map fun p => List.range p.2 := rfl

theorem globalOf_range : ∀ (ns : List Nat) (c : Run.Cell), c ∈ Chunk.product (ns.map List.range) →
    Run.globalOf (ns.map List.range) c = c
  | [], c, h => by
    simp only [List.map_nil, Chunk.product, List.mem_singleton] at h
    subst h; rfl
  | n :: ns, c, h => by
    rw [List.map_cons, Chunk.product, List.mem_flatMap] at h
    obtain ⟨a, ha, h⟩ := h
    obtain ⟨r, hr, rfl⟩ := List.mem_map.1 h
    have ih := globalOf_range ns r hr
    unfold Run.globalOf at ih ⊢
    rw [List.map_cons, List.zipWith_cons_cons, ih]
    simp [List.getD, List.getElem?_range (List.mem_range.1 ha)]

/-- Without chunks a cell is its own index. -/
theorem whole_cell {dom : DS ℝ} {mdims : List String} {c : Run.Cell} (hc : c ∈ positions dom mdims) :
    c ∈ Run.localCells (Run.axes (maskDims dom mdims) []) ∧ Run.globalOf (Run.axes (maskDims dom mdims) []) c = c := by
  have e : Run.axes (maskDims dom mdims) [] = (mdims.map fun d => (dom.sizes.get? d).getD 0).map List.range := by
    rw [axes_nil]; unfold maskDims; rw [List.map_map, List.map_map]; rfl
  have h' : c ∈ Chunk.product ((mdims.map fun d => (dom.sizes.get? d).getD 0).map List.range) := by
    rw [List.map_map]; exact hc
  rw [e]
  refine ⟨?_, globalOf_range _ _ h'⟩
  unfold Run.localCells
  rw [List.map_map]
  simpa [Function.comp_def] using h'

/-- What has been read once the inputs are loaded. -/
theorem load_reads {i : Inputs} {s : Cell.Shared} {w : Loads} (hi : Sound i) (hw : load i s [] = .ok w) (hfit : Fit w) :
    ∃ met0 st, Loaded (force i) .netcdf w.mask.dims w.dom [] w.dom met0 ∧ withConstants met0 i.constants = .ok w.met ∧
      readNetcdf i.stateFile (some w.dom) (axisDay (i.start - 90)) (axisDay (i.start - 1)) (some i.stateNames) = .ok st ∧
      dailies st w.mask.dims = .ok w.state ∧ (∃ new, dailies w.met w.mask.dims = .ok new ∧
        monthlies s.precType w.dom w.mask.dims w.days (fun c => (new c).prec) = .ok w.extra ∧
        ∃ record, recordDates s.calendar i.start = .ok record ∧
          State.aggregateState (st.labels "time").length record i.start i.stop w.days (positions w.dom w.mask.dims) w.state new =
            .ok w.agg) ∧
      checkPeriod i.start i.stop w.days = .ok () := by
  unfold load at hw
  simp only [bind_ok] at hw
  obtain ⟨dom, h1, met0, h2, met, h3, u, h4, st, h5, mask, h6, record, h7, old, h8, new, h9, agg, h10, extra, h11, e⟩ := hw
  rw [pure_ok] at e
  subst e
  rw [Dict.get_ok] at h6
  obtain ⟨wf, -, -⟩ := whole_ok hi.domFile hi.domNames h1
  refine ⟨met0, st, ⟨h1, h1, h2, by simp, hfit.time, hfit.axes, wf.var_dims _ _ h6⟩, h3, h5, h8,
    ⟨new, h9, h11, record, h7, h10⟩, h4⟩

theorem foldl_set_get? {α β : Type} (f : α → β) : ∀ (more : List (String × α)) (d : Dict String β) (v : String),
    v ∉ more.map Prod.fst → Dict.get? (more.foldl (fun d q => Dict.set d q.1 (f q.2)) d) v = Dict.get? d v
  | [], _, _, _ => rfl
  | q :: more, d, v, h => by
    rw [List.map_cons, List.mem_cons, not_or] at h
    rw [List.foldl_cons, foldl_set_get? f more _ v h.2, Dict.get?_set_ne _ _ (Ne.symm h.1)]

theorem withConstants_ok {met0 met : DS ℝ} {consts : Dict String ℝ} (h : withConstants met0 consts = .ok met) :
    met.sizes = met0.sizes ∧ met.coords = met0.coords ∧ (∀ v, v ∉ consts.map Prod.fst → met.vars.get? v = met0.vars.get? v) := by
  unfold withConstants at h
  cases consts with
  | nil => obtain rfl := Except.ok.inj h; exact ⟨rfl, rfl, fun _ _ => rfl⟩
  | cons p ps =>
    simp only at h
    split at h
    · simp at h
    · obtain rfl := Except.ok.inj h
      rename_i t _ hv
      refine ⟨rfl, rfl, fun v hn => ?_⟩
      exact foldl_set_get? (fun x => (⟨t.dims, fun _ => .fin x⟩ : Arr ℝ)) _ _ v hn

theorem monthlies_keys {pt : String} {dom : DS ℝ} {mdims : List String} {days : List Int} {prec : Run.Cell → List (Flt ℝ)}
    {f : Run.Cell → Except PyErr (List (String × List (Flt ℝ)))} (hf : monthlies pt dom mdims days prec = .ok f) {c : Run.Cell}
    {more : List (String × List (Flt ℝ))} (h : f c = .ok more) : ∀ k ∈ more.map Prod.fst, k = "dur" ∨ k = "t_pk" := by
  unfold monthlies at hf
  split at hf
  · simp only [bind_ok, pure_ok] at hf
    obtain ⟨x, -, y, -, rfl⟩ := hf
    simp only [bind_ok, pure_ok] at h
    obtain ⟨a, -, b, -, rfl⟩ := h
    simp
  · rw [pure_ok] at hf
    subst hf
    rw [pure_ok] at h
    subst h
    simp

/-- The names `_aggregate_state`, `convert_monthly_param` and the readers add. -/
def added : List String :=
  ["day_of_year", "elev", "lat", "lon", "seasonal_prec", "dtr", "smoothed_dtr", "dur", "t_pk"]

/-- A column of a cell's input is the series of the variable in the forcing. -/
theorem frame_series {i : Inputs} {s : Cell.Shared} {w : Loads} (hi : Sound i) (hw : load i s [] = .ok w) (hfit : Fit w)
    {c : Run.Cell} {x : Run.CellIn Cell.Data ℝ} (hx : cellIn w c = .ok x) {v : String} (hv : v ∉ added) :
    Dict.get? x.data.frame v = (w.met.vars.get? v).map fun a => Cell.colOf (along w.mask.dims (w.met.labels "time").length a c) := by
  obtain ⟨met0, st, -, -, -, -, ⟨new, -, hmo, -⟩, -⟩ := load_reads hi hw hfit
  unfold cellIn at hx
  simp only [bind_ok] at hx
  obtain ⟨lat, q1, lon, q2, elev, q3, more, q4, hx⟩ := hx
  rw [pure_ok] at hx
  subst hx
  simp only [added, List.mem_cons, List.not_mem_nil, or_false, not_or] at hv
  obtain ⟨-, -, -, -, n1, n2, n3, n4, n5⟩ := hv
  have hk := monthlies_keys hmo q4
  show Dict.get? (more.foldl (fun f q => Dict.set f q.1 (Cell.colOf q.2)) _) v = _
  rw [foldl_set_get? Cell.colOf more _ v (fun h => by rcases hk v h with h | h; exacts [n4 h, n5 h]),
    Dict.get?_set_ne _ _ (Ne.symm n3), Dict.get?_set_ne _ _ (Ne.symm n2), Dict.get?_set_ne _ _ (Ne.symm n1)]
  exact Dict.get?_mapVal w.met.vars (fun _ a => Cell.colOf (along w.mask.dims (w.met.labels "time").length a c)) v

theorem fileDay_floor (t : ℚ) : ((⌊fileDay t⌋ : Int) : ℚ) = fileDay t := by unfold fileDay; simp

/-- The file tells for variable `v`, at the cell's labels in the domain file and a stamp of the day, the value `x`. -/
def Told (file : DS ℝ) (names : Dict String String) (dom : DS ℝ) (mdims : List String) (c : Run.Cell) (v : String) (day : Int) (x : Flt ℝ) : Prop :=
  ∃ u raw, names.get? u = some v ∧ fileDay raw = ((day - epoch : Int) : ℚ) ∧
    file.Says u (fun d => if newName names d = "time" then raw else cellLabel dom mdims c (newName names d)) x

/-- The variable lies along the time axis and dimensions of the mask. -/
def Shaped (file : DS ℝ) (names : Dict String String) (mdims : List String) (v : String) : Prop :=
  ∀ u b, names.get? u = some v → file.vars.get? u = some b →
    (∃ d ∈ b.dims, newName names d = "time") ∧ ∀ d ∈ b.dims, newName names d = "time" ∨ newName names d ∈ mdims

/-- **C89**: what a cell gets for a variable on a day is what the forcing file says at the cell's labels in the domain file
and a stamp of that day. -/
theorem C89_forcing {i : Inputs} {s : Cell.Shared} {w : Loads} (hi : Sound i) (hw : load i s [] = .ok w) (hfit : Fit w)
    (hco : (force i).Countable w.dom) {c : Run.Cell} (hc : c ∈ positions w.dom w.mask.dims)
    {x : Run.CellIn Cell.Data ℝ} (hx : cellIn w c = .ok x) {v : String} (hv : v ∉ added) (hk : v ∉ i.constants.map Prod.fst)
    (hshape : Shaped i.forcing i.names w.mask.dims v) {col : Methods.Col} (hcol : Dict.get? x.data.frame v = some col) (t : Nat) (day : Int) (ht : w.days[t]? = some day) :
    Told i.forcing i.names w.dom w.mask.dims c v day (col t) := by
  obtain ⟨met0, st, hl, hcs, -⟩ := load_reads hi hw hfit
  obtain ⟨c1, c2, c3⟩ := withConstants_ok hcs
  rw [frame_series hi hw hfit hx hv, c3 v hk] at hcol
  have hlab : w.met.labels "time" = met0.labels "time" := labels_congr c1 c2 _
  cases ha : met0.vars.get? v with
  | none => rw [ha] at hcol; simp at hcol
  | some a =>
    rw [ha] at hcol
    obtain rfl := Option.some.inj hcol
    have hser : met0.series w.mask.dims c v = .ok (along w.mask.dims (w.met.labels "time").length a c) := by
      unfold DS.series along
      rw [bind_ok]
      exact ⟨a, Dict.get_ok.2 ha, by rw [hlab]; rfl⟩
    simp only [added, List.mem_cons, List.not_mem_nil, or_false, not_or] at hv
    obtain ⟨hm, hg⟩ := whole_cell hc
    obtain ⟨h1, h2⟩ := C86_series ⟨hi.domFile, hi.forcing, hi.domNames, hi.names⟩ hco hl ⟨hv.1, hv.2.1, hv.2.2.1, hv.2.2.2.1⟩
      hshape hm hser
    unfold Loads.days daysOf at ht
    rw [List.getElem?_map, hlab] at ht
    cases hq : (met0.labels "time")[t]? with
    | none => rw [hq] at ht; simp at ht
    | some q =>
      rw [hq] at ht
      simp only [Option.map_some, Option.some.injEq] at ht
      have hlt : t < (along w.mask.dims (w.met.labels "time").length a c).length := by
        rw [h1]; exact (List.getElem?_eq_some_iff.1 hq).1
      have hget := List.getElem?_eq_getElem hlt
      obtain ⟨u, raw, r1, r2, r3⟩ := h2 t _ q hget hq
      rw [hg] at r3
      refine ⟨u, raw, r1, ?_, ?_⟩
      · rw [r2, ← ht]
        have := fileDay_floor raw
        rw [r2] at this
        rw [add_sub_cancel_right, this]
      · have e : Cell.colOf (along w.mask.dims (w.met.labels "time").length a c) t =
            (along w.mask.dims (w.met.labels "time").length a c)[t] := by
          unfold Cell.colOf
          rw [List.getD, hget]; rfl
        show i.forcing.Says u _ (Cell.colOf _ t)
        rw [e]; exact r3

end Verif.Props
