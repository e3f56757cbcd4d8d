import Verif.Lemmas.Run

/-!
# Properties of a run over the grid: C07, C10, C11
-/

namespace Verif.Props

open Run Chunk

variable {S D R K W : Type} [Zero K] [LT K] [DecidableLT K]

/-! ## C10, C11 -/
section C10

/-- **C11**: in the worker's output every active cell of the chunk carries the value computed from the
shared parameters and that cell's own inputs — whatever values the parameter dictionary held before
(`p.elev`, `p.lat`, `p.lon` are arbitrary) and whatever other cells were processed.  The run of the chunk
succeeds iff every active cell's own computation does. -/
theorem C11_cell_independent (body : Body S D R K) (hk : KeepsShared body) (mask : Cell → Flt K)
    (inp : Cell → CellIn D K) (ax : List (List Nat)) (p : Params S K) :
    ((∃ out, runSlice body mask inp p ax = .ok out) ↔
      ∀ c ∈ product ax, active mask c → ∃ r, own body p.shared (inp c) = .ok r) ∧
    ∀ out, runSlice body mask inp p ax = .ok out → ∀ l ∈ localCells ax,
      active mask (globalOf ax l) →
      ∃ r, own body p.shared (inp (globalOf ax l)) = .ok r ∧ out l = some r := by
  have key : ∀ out, runSlice body mask inp p ax = .ok out → ∀ l ∈ localCells ax,
      active mask (globalOf ax l) → ∃ r, own body p.shared (inp (globalOf ax l)) = .ok r := by
    intro out h l hl ha
    cases ho : own body p.shared (inp (globalOf ax l)) with
    | ok r => exact ⟨r, rfl⟩
    | error e =>
      obtain ⟨e', he⟩ := runCells_error body hk mask inp ax (localCells ax) p (fun _ => none)
        ⟨l, hl, ha, e, ho⟩
      unfold runSlice at h; rw [he] at h; cases h
  refine ⟨⟨?_, ?_⟩, ?_⟩
  · rintro ⟨out, h⟩ c hc ha
    rw [← map_globalOf, List.mem_map] at hc
    obtain ⟨l, hl, rfl⟩ := hc
    exact key out h l hl ha
  · intro h
    obtain ⟨out, h1, -⟩ := runSlice_ok body hk mask inp ax p (fun l hl ha =>
      h _ (by rw [← map_globalOf]; exact List.mem_map_of_mem hl) ha)
    exact ⟨out, h1⟩
  · intro out h l hl ha
    obtain ⟨out', h1, h2, -⟩ := runSlice_ok body hk mask inp ax p (key out h)
    rw [h] at h1; injection h1 with h1; subst h1
    obtain ⟨r, hr⟩ := key out h l hl ha
    refine ⟨r, hr, ?_⟩
    rw [h2 l hl, result, if_pos ha, hr]; rfl

/-- **C10**: cells whose mask value is not a positive number (zero, negative, NaN) are missing in the
chunk's output, active ones are filled. -/
theorem C10_mask (body : Body S D R K) (hk : KeepsShared body) (mask : Cell → Flt K)
    (inp : Cell → CellIn D K) (ax : List (List Nat)) (p : Params S K) (out : Cell → Option R)
    (h : runSlice body mask inp p ax = .ok out) (l : Cell) (hl : l ∈ localCells ax) :
    (out l = none ↔ ¬ ∃ x, mask (globalOf ax l) = .fin x ∧ 0 < x) := by
  have hact : active mask (globalOf ax l) = true ↔ ∃ x, mask (globalOf ax l) = .fin x ∧ 0 < x := by
    unfold active
    cases mask (globalOf ax l) with
    | nan => simp
    | fin x => simp
  have hC11 := C11_cell_independent body hk mask inp ax p
  rw [← hact]
  constructor
  · intro hn ha
    obtain ⟨r, -, h2⟩ := hC11.2 out h l hl ha
    rw [hn] at h2; cases h2
  · intro ha
    obtain ⟨out', h1, h2, -⟩ := runSlice_ok body hk mask inp ax p (fun l hl ha => by
      obtain ⟨r, h1, -⟩ := hC11.2 out h l hl ha; exact ⟨r, h1⟩)
    rw [h] at h1; injection h1 with h1; subst h1
    rw [h2 l hl, result, if_neg ha]

/-- A body that records everything it is given and leaves a changed longitude behind. -/
def spy : Body String Nat (String × ℚ × ℚ × Nat) ℚ := fun p d =>
  match p.lat, p.lon with
  | .fin a, .fin b => .ok ((p.shared, a, b, d), { p with lon := .fin (b - 360) })
  | _, _ => .error .valueError

/-- Non-vacuity: on a 1x3 grid with a NaN mask in the middle, the worker fills the outer cells from
their own coordinates. -/
example : KeepsShared spy ∧ ((runSlice spy
      (fun c => if c = [0, 1] then .nan else .fin 1)
      (fun c => ⟨.fin 0, .fin (c.headD 0 : ℚ), .fin (c.getD 1 0 : ℚ), c.getD 1 0⟩)
      ⟨"p", .nan, .nan, .nan⟩ [[0], [0, 1, 2]]).toOption.map
        fun out => [out [0, 0], out [0, 1], out [0, 2]]) =
      some [some ("p", 0, 0, 0), none, some ("p", 0, 2, 2)] := by
  constructor
  · intro p d r p' h
    unfold spy at h
    split at h
    · injection h with h; injection h with h1 h2; rw [← h2]
    · cases h
  · decide +kernel

end C10

/-! ## C07 -/
section C07

/-- The cells of the grid. -/
def gridCells (dims : Dict String Nat) : List Cell := product (dims.map fun p => List.range p.2)

/-- Two dictionaries speak of the same dimensions. -/
def SameDims (chunks : Dict String Int) (dims : Dict String Nat) : Prop :=
  ∀ d, d ∈ chunks.keys ↔ d ∈ dims.keys

/-- **C07, full statement**: with positive chunk sizes for any of the dimensions, every order of the
chunks gives the cell-by-cell result.  False: `C07_refuted`. -/
def C07_full (S D R K W : Type) [Zero K] [LT K] [DecidableLT K] : Prop :=
  ∀ (body : Body S D R K) (mask : Cell → Flt K) (inp : Cell → CellIn D K) (p : Params S K)
    (dims : Dict String Nat) (chunks : Dict String Int) (groups : List (Group R W))
    (ss order : List (Dict String Slice)),
    KeepsShared body → dims.keys.Nodup → chunks.keys.Nodup → (groups.map Group.name).Nodup →
    (∀ p ∈ dims, 0 < p.2) → (∀ p ∈ chunks, 0 < p.2) → (∀ d ∈ chunks.keys, d ∈ dims.keys) →
    slices chunks dims = .ok ss → order.Perm ss →
    (∀ c ∈ gridCells dims, active mask c → ∃ r, own body p.shared (inp c) = .ok r) →
    ∃ files, run body mask inp p dims groups order = .ok files ∧
      ∀ g ∈ groups, ∀ c ∈ gridCells dims, files g.name c = (result body mask inp p.shared c).map g.part

/-- The value of dimension `d` in a cell. -/
def coord (dims : Dict String Nat) (c : Cell) (d : String) : Nat := (Dict.get? (dims.keys.zip c) d).getD 0

theorem forall₂_coord (dims : Dict String Nat) (hnd : dims.keys.Nodup) (c : Cell)
    (P : String → Nat → Nat → Prop) :
    List.Forall₂ (fun i (p : String × Nat) => P p.1 p.2 i) c dims ↔
      c.length = dims.length ∧ ∀ d n, dims.get? d = some n → P d n (coord dims c d) := by
  induction dims generalizing c with
  | nil => cases c <;> simp
  | cons q dims ih =>
    obtain ⟨d0, n0⟩ := q
    cases c with
    | nil => simp
    | cons i c =>
      simp only [Dict.keys, List.map_cons, List.nodup_cons] at hnd
      rw [List.forall₂_cons, ih hnd.2 c]
      have hco : ∀ d, coord ((d0, n0) :: dims) (i :: c) d = if d0 = d then i else coord dims c d := by
        intro d
        unfold coord
        simp only [Dict.keys, List.map_cons, List.zip_cons_cons, Dict.get?_cons]
        split <;> rfl
      simp only [List.length_cons, Nat.add_right_cancel_iff, Dict.get?_cons, hco]
      constructor
      · rintro ⟨h1, h2, h3⟩
        refine ⟨h2, fun d n h => ?_⟩
        by_cases hd : d0 = d
        · subst hd; simp only [if_true, Option.some.injEq] at h ⊢; subst h; exact h1
        · simp only [hd, if_false] at h ⊢; exact h3 d n h
      · rintro ⟨h1, h2⟩
        refine ⟨by simpa using h2 d0 n0 (by simp), h1, fun d n h => ?_⟩
        have hd : d0 ≠ d := by
          rintro rfl
          exact hnd.1 (by
            have := (Dict.get?_eq_none_iff dims d0).not.1 (by rw [h]; simp)
            simpa [Dict.keys] using this)
        have := h2 d n (by simp [hd, h])
        simpa [hd] using this

theorem mem_gridCells (dims : Dict String Nat) (hnd : dims.keys.Nodup) (c : Cell) :
    c ∈ gridCells dims ↔ c.length = dims.length ∧ InGrid dims (coord dims c) := by
  unfold gridCells
  rw [mem_product, List.forall₂_map_right_iff]
  simp only [List.mem_range]
  exact forall₂_coord dims hnd c fun _ n i => i < n

theorem mem_axes (dims : Dict String Nat) (hnd : dims.keys.Nodup) (s : Dict String Slice)
    (hs : s.keys.Nodup) (hsub : ∀ d, d ∈ s.keys ↔ d ∈ dims.keys) (c : Cell) :
    c ∈ product (axes dims s) ↔ c ∈ gridCells dims ∧ covers dims (coord dims c) s = true := by
  rw [mem_gridCells dims hnd]
  unfold axes
  rw [mem_product, List.forall₂_map_right_iff]
  have e := forall₂_coord dims hnd c fun d n i => i ∈ (match s.get? d with
    | some sl => sliceIdx sl n
    | none => List.range n)
  refine Iff.trans e ?_
  rw [and_assoc]
  refine and_congr_right fun hlen => ?_
  simp only [covers, List.all_eq_true]
  constructor
  · intro h
    refine ⟨fun d n hd => ?_, ?_⟩
    · have := h d n hd
      split at this
      · exact List.mem_range.1 (List.mem_filter.1 this).1
      · exact List.mem_range.1 this
    · rintro ⟨d, sl⟩ hm
      have hk : d ∈ dims.keys := (hsub d).1 (List.mem_map.2 ⟨(d, sl), hm, rfl⟩)
      cases hd : dims.get? d with
      | none => exact absurd hk ((Dict.get?_eq_none_iff _ _).1 hd)
      | some n =>
        have := h d n hd
        rw [Dict.get?_of_mem s hs hm] at this
        simpa [hd] using (List.mem_filter.1 this).2
  · rintro ⟨h1, h2⟩ d n hd
    have hin := h1 d n hd
    cases hg : s.get? d with
    | none => simpa using hin
    | some sl =>
      have := h2 (d, sl) (Dict.mem_of_get? _ hg)
      simp only [hd, Option.getD_some] at this
      exact List.mem_filter.2 ⟨List.mem_range.2 hin, this⟩

theorem C07_loop (body : Body S D R K) (mask : Cell → Flt K) (inp : Cell → CellIn D K)
    (p : Params S K) (dims : Dict String Nat) (groups : List (Group R W))
    (order : List (Dict String Slice)) (hk : KeepsShared body)
    (hgn : (groups.map Group.name).Nodup)
    (hs : ∀ s ∈ order, (∀ d ∈ dims.keys, d ∈ s.keys))
    (hok : ∀ s ∈ order, ∀ c ∈ product (axes dims s), active mask c →
      ∃ r, own body p.shared (inp c) = .ok r) (files : Files W) :
    ∃ files', order.foldlM (runChunk body mask inp p dims groups) files = .ok files' ∧
      ∀ g ∈ groups, ∀ c, files' g.name c =
        if ∃ s ∈ order, c ∈ product (axes dims s) then (result body mask inp p.shared c).map g.part
        else files g.name c := by
  induction order generalizing files with
  | nil => exact ⟨files, rfl, by simp⟩
  | cons s order ih =>
    obtain ⟨out, h1, h2, -⟩ := runSlice_ok body hk mask inp (axes dims s) p (fun l hl ha =>
      hok s (by simp) _ (by rw [← map_globalOf]; exact List.mem_map_of_mem hl) ha)
    obtain ⟨f1, h3, h4, -, h5⟩ := writeChunk_ok dims s (hs s (by simp)) groups out
      (result body mask inp p.shared) h2 files
    obtain ⟨f2, h6, h7⟩ := ih (fun s' hs' => hs s' (by simp [hs'])) (fun s' hs' => hok s' (by simp [hs'])) f1
    refine ⟨f2, ?_, ?_⟩
    · rw [List.foldlM_cons]
      have : runChunk body mask inp p dims groups files s = .ok f1 := by
        unfold runChunk; rw [h1]; exact h3
      rw [this]; exact h6
    · intro g hg c
      rw [h7 g hg c]
      by_cases ho : ∃ s' ∈ order, c ∈ product (axes dims s')
      · obtain ⟨s', hs', hc⟩ := ho
        rw [if_pos ⟨s', hs', hc⟩, if_pos ⟨s', by simp [hs'], hc⟩]
      · rw [if_neg ho]
        by_cases hc : c ∈ product (axes dims s)
        · rw [if_pos ⟨s, by simp, hc⟩, h5 hgn g hg c hc]
        · rw [h4 _ _ hc, if_neg]
          rintro ⟨s', hs', hc'⟩
          rcases List.mem_cons.1 hs' with rfl | h
          · exact hc hc'
          · exact ho ⟨s', h, hc'⟩

/-- The chunks of a specification naming all dimensions (or none) cover exactly the grid. -/
theorem slices_cover (dims : Dict String Nat) (chunks : Dict String Int)
    (hdn : dims.keys.Nodup) (hcn : chunks.keys.Nodup) (hdp : ∀ p ∈ dims, 0 < p.2)
    (hcp : ∀ p ∈ chunks, 0 < p.2) (hsame : chunks = [] ∨ SameDims chunks dims) :
    ∃ ss, slices chunks dims = .ok ss ∧ (∀ s ∈ ss, ∀ d ∈ dims.keys, d ∈ s.keys) ∧
      ∀ c, (∃ s ∈ ss, c ∈ product (axes dims s)) ↔ c ∈ gridCells dims := by
  have hsub : ∀ d ∈ chunks.keys, d ∈ dims.keys := by
    rcases hsame with rfl | h
    · simp [Dict.keys]
    · exact fun d hd => (h d).1 hd
  obtain ⟨ss, h1, h2, -, h4⟩ := C06_partition chunks dims hcn hcp hdp hsub
  have hkeys : ∀ s ∈ ss, s.keys.Nodup ∧ ∀ d, d ∈ s.keys ↔ d ∈ dims.keys := by
    intro s hs
    rw [h4 s hs]
    by_cases hc : chunks = []
    · simp [hc, hdn]
    · rcases hsame with h | h
      · exact absurd h hc
      · simp only [hc, if_false]; exact ⟨hcn, h⟩
  refine ⟨ss, h1, fun s hs d hd => ((hkeys s hs).2 d).2 hd, ?_⟩
  intro c
  constructor
  · rintro ⟨s, hs, hc⟩
    exact ((mem_axes dims hdn s (hkeys s hs).1 (hkeys s hs).2 c).1 hc).1
  · intro hc
    have := h2 (coord dims c) ((mem_gridCells dims hdn c).1 hc).2
    have hpos : 0 < ss.countP (covers dims (coord dims c)) := by omega
    rw [List.countP_pos_iff] at hpos
    obtain ⟨s, hs, hcov⟩ := hpos
    exact ⟨s, hs, (mem_axes dims hdn s (hkeys s hs).1 (hkeys s hs).2 c).2 ⟨hc, hcov⟩⟩

/-- **C07, the part that holds**: for every chunk specification that names all dimensions of the
domain, or none, and for every order of the chunks, the files contain exactly the cell-by-cell result
(and nothing outside the grid) — a value that does not mention chunks or order.
Missing: specifications naming only some dimensions (`C07_refuted`). -/
theorem C07_chunk_independence_partial (body : Body S D R K) (mask : Cell → Flt K)
    (inp : Cell → CellIn D K) (p : Params S K) (dims : Dict String Nat) (chunks : Dict String Int)
    (groups : List (Group R W)) (ss order : List (Dict String Slice))
    (hk : KeepsShared body) (hdn : dims.keys.Nodup) (hcn : chunks.keys.Nodup)
    (hgn : (groups.map Group.name).Nodup) (hdp : ∀ p ∈ dims, 0 < p.2) (hcp : ∀ p ∈ chunks, 0 < p.2)
    (hsame : chunks = [] ∨ SameDims chunks dims) (hss : slices chunks dims = .ok ss)
    (hord : order.Perm ss)
    (hok : ∀ c ∈ gridCells dims, active mask c → ∃ r, own body p.shared (inp c) = .ok r) :
    ∃ files, run body mask inp p dims groups order = .ok files ∧
      ∀ g ∈ groups, ∀ c, files g.name c =
        if c ∈ gridCells dims then (result body mask inp p.shared c).map g.part else none := by
  obtain ⟨ss', h1, h2, h3⟩ := slices_cover dims chunks hdn hcn hdp hcp hsame
  rw [hss] at h1; injection h1 with h1; subst h1
  obtain ⟨files, h4, h5⟩ := C07_loop body mask inp p dims groups order hk hgn
    (fun s hs => h2 s (hord.mem_iff.1 hs))
    (fun s hs c hc => hok c ((h3 c).1 ⟨s, hord.mem_iff.1 hs, hc⟩)) (fun _ _ => none)
  refine ⟨files, h4, fun g hg c => ?_⟩
  rw [h5 g hg c]
  have : (∃ s ∈ order, c ∈ product (axes dims s)) ↔ c ∈ gridCells dims := by
    rw [← h3 c]
    exact ⟨fun ⟨s, hs, hc⟩ => ⟨s, hord.mem_iff.1 hs, hc⟩, fun ⟨s, hs, hc⟩ => ⟨s, hord.mem_iff.2 hs, hc⟩⟩
  simp only [this]

/-- Chunks that name only some dimensions: as soon as there is a file to write, the run stops with a
KeyError in `write_chunk`. -/
theorem C07_missing_dimension (body : Body S D R K) (mask : Cell → Flt K)
    (inp : Cell → CellIn D K) (p : Params S K) (dims : Dict String Nat)
    (groups : List (Group R W)) (files : Files W) (s : Dict String Slice)
    (hg : groups ≠ []) (d : String) (hd : d ∈ dims.keys) (hs : d ∉ s.keys) :
    ∃ e, runChunk body mask inp p dims groups files s = .error e := by
  unfold runChunk
  cases h : runSlice body mask inp p (axes dims s) with
  | error e => exact ⟨e, rfl⟩
  | ok out =>
    obtain ⟨g, gs, rfl⟩ := List.exists_cons_of_ne_nil hg
    refine ⟨.keyError, ?_⟩
    simp only [bind, Except.bind]
    unfold writeChunk
    rw [List.foldlM_cons, writeAxes_error dims s d hd hs]; rfl

/-- **C07 is violated by the code**: a 1x1 domain chunked along `lat` only fails. -/
theorem C07_refuted : ¬ C07_full Unit Unit Unit ℚ Unit := by
  intro h
  obtain ⟨files, h1, -⟩ := h (fun p _ => .ok ((), p)) (fun _ => .fin 1) (fun _ => ⟨.nan, .nan, .nan, ()⟩)
    ⟨(), .nan, .nan, .nan⟩ [("lat", 1), ("lon", 1)] [("lat", 1)] [⟨"f", fun _ => ()⟩]
    [[("lat", some (0, 2))]] [[("lat", some (0, 2))]]
    (by intro p d r p' h; cases h; rfl)
    (by decide) (by decide) (by decide) (by decide) (by decide) (by decide) (by decide +kernel)
    (List.Perm.refl _) (fun c _ _ => ⟨(), rfl⟩)
  obtain ⟨e, he⟩ := C07_missing_dimension (fun p _ => .ok ((), p) : Body Unit Unit Unit ℚ) (fun _ => .fin 1)
    (fun _ => ⟨.nan, .nan, .nan, ()⟩)
    ⟨(), .nan, .nan, .nan⟩ [("lat", 1), ("lon", 1)] [(⟨"f", fun _ => ()⟩ : Group Unit Unit)] (fun _ _ => none)
    [("lat", some (0, 2))] (by simp) "lon" (by decide) (by decide)
  unfold run at h1
  rw [List.foldlM_cons, he] at h1
  cases h1

/-- Non-vacuity: a 2x3 grid in 2x2 chunks, last chunk first. -/
example : ((slices [("lat", 2), ("lon", 2)] [("lat", 2), ("lon", 3)]).toOption.bind fun ss =>
    (run spy (fun _ => .fin 1)
        (fun c => ⟨.fin 0, .fin (c.headD 0 : ℚ), .fin (c.getD 1 0 : ℚ), c.getD 1 0⟩)
        ⟨"p", .nan, .nan, .nan⟩ [("lat", 2), ("lon", 3)]
        [(⟨"f", fun r => (r.2.1, r.2.2.1)⟩ : Group _ (ℚ × ℚ))] ss.reverse).toOption.map fun files =>
      [files "f" [1, 2], files "f" [0, 0], files "f" [2, 0]]) =
    some [some (1, 2), some (0, 0), none] := by decide +kernel

end C07
end Verif.Props
