import Verif.Model.Run
import Verif.Props.Chunk

/-!
# Lemmas about runs
-/

namespace Verif.Run

open Chunk

variable {S D R K W : Type}

/-- The result of a cell computed on its own: from the shared parameters and its own inputs only. -/
def own (body : Body S D R K) (s : S) (c : CellIn D K) : Except PyErr R :=
  (body ⟨s, c.elev, c.lat, c.lon⟩ c.data).map Prod.fst

/-- The cell is active. -/
def active [Zero K] [LT K] [DecidableLT K] (mask : Cell → Flt K) (c : Cell) : Bool :=
  Flt.lt (.fin 0) (mask c)

/-- The cell-by-cell result. -/
def result [Zero K] [LT K] [DecidableLT K] (body : Body S D R K) (mask : Cell → Flt K)
    (inp : Cell → CellIn D K) (s : S) (c : Cell) : Option R :=
  if active mask c then (own body s (inp c)).toOption else none

/-- The parameters all cells share are not changed by a cell's computation. -/
def KeepsShared (body : Body S D R K) : Prop :=
  ∀ p d r p', body p d = .ok (r, p') → p'.shared = p.shared

section
variable [Zero K] [LT K] [DecidableLT K]

theorem runCells_ok (body : Body S D R K) (hk : KeepsShared body) (mask : Cell → Flt K)
    (inp : Cell → CellIn D K) (ax : List (List Nat)) (ls : List Cell) (p : Params S K)
    (out : Cell → Option R)
    (hok : ∀ l ∈ ls, active mask (globalOf ax l) → ∃ r, own body p.shared (inp (globalOf ax l)) = .ok r) :
    ∃ p' out', runCells body mask inp ax ls p out = .ok (p', out') ∧
      ∀ c, out' c = if c ∈ ls ∧ active mask (globalOf ax c) then
        result body mask inp p.shared (globalOf ax c) else out c := by
  induction ls generalizing p out with
  | nil => exact ⟨p, out, rfl, by simp⟩
  | cons l ls ih =>
    unfold runCells
    by_cases ha : active mask (globalOf ax l) = true
    · have ha' : Flt.lt (.fin 0) (mask (globalOf ax l)) = true := ha
      rw [if_pos ha']
      obtain ⟨r, hr⟩ := hok l (by simp) ha
      unfold own at hr
      cases hb : body ⟨p.shared, (inp (globalOf ax l)).elev, (inp (globalOf ax l)).lat,
          (inp (globalOf ax l)).lon⟩ (inp (globalOf ax l)).data with
      | error e => rw [hb] at hr; cases hr
      | ok v =>
        obtain ⟨r', p'⟩ := v
        have hs : p'.shared = p.shared := by have := hk _ _ _ _ hb; exact this
        obtain ⟨p'', out'', h1, h2⟩ := ih p' (store out l (some r')) (by
          intro l' hl' ha'; rw [hs]; exact hok l' (by simp [hl']) ha')
        refine ⟨p'', out'', ?_, ?_⟩
        · unfold wrapRunCell
          simp only [hb, bind, Except.bind]
          exact h1
        · intro c
          rw [h2 c, hs]
          by_cases hc : c ∈ ls ∧ active mask (globalOf ax c) = true
          · rw [if_pos hc, if_pos ⟨by simp [hc.1], hc.2⟩]
          · rw [if_neg hc]
            unfold store
            by_cases hcl : c = l
            · subst hcl
              rw [if_pos rfl, if_pos ⟨by simp, ha⟩]
              unfold result own
              rw [if_pos ha, hb]; rfl
            · rw [if_neg hcl, if_neg]
              rintro ⟨hm, hx⟩
              rcases List.mem_cons.1 hm with h | h
              · exact hcl h
              · exact hc ⟨h, hx⟩
    · have ha' : ¬ Flt.lt (.fin 0) (mask (globalOf ax l)) = true := ha
      rw [if_neg ha']
      obtain ⟨p'', out'', h1, h2⟩ := ih p out (fun l' hl' => hok l' (by simp [hl']))
      refine ⟨p'', out'', h1, ?_⟩
      intro c
      rw [h2 c]
      by_cases hcl : c = l
      · subst hcl
        rw [if_neg (by rintro ⟨-, h⟩; exact ha h), if_neg (by rintro ⟨-, h⟩; exact ha h)]
      · simp [hcl]

theorem runCells_error (body : Body S D R K) (hk : KeepsShared body) (mask : Cell → Flt K)
    (inp : Cell → CellIn D K) (ax : List (List Nat)) (ls : List Cell) (p : Params S K)
    (out : Cell → Option R)
    (h : ∃ l ∈ ls, active mask (globalOf ax l) ∧ ∃ e, own body p.shared (inp (globalOf ax l)) = .error e) :
    ∃ e, runCells body mask inp ax ls p out = .error e := by
  induction ls generalizing p out with
  | nil => simp at h
  | cons l ls ih =>
    unfold runCells
    by_cases ha : active mask (globalOf ax l) = true
    · have ha' : Flt.lt (.fin 0) (mask (globalOf ax l)) = true := ha
      rw [if_pos ha']
      unfold wrapRunCell
      cases hb : body ⟨p.shared, (inp (globalOf ax l)).elev, (inp (globalOf ax l)).lat,
          (inp (globalOf ax l)).lon⟩ (inp (globalOf ax l)).data with
      | error e => exact ⟨e, rfl⟩
      | ok v =>
        obtain ⟨r', p'⟩ := v
        have hs : p'.shared = p.shared := by have := hk _ _ _ _ hb; exact this
        simp only [bind, Except.bind]
        apply ih p' _
        obtain ⟨l', hl', h1, e, h2⟩ := h
        rcases List.mem_cons.1 hl' with rfl | hm
        · unfold own at h2; rw [hb] at h2; cases h2
        · exact ⟨l', hm, h1, e, by rw [hs]; exact h2⟩
    · have ha' : ¬ Flt.lt (.fin 0) (mask (globalOf ax l)) = true := ha
      rw [if_neg ha']
      apply ih p out
      obtain ⟨l', hl', h1, e, h2⟩ := h
      rcases List.mem_cons.1 hl' with rfl | hm
      · exact absurd h1 ha
      · exact ⟨l', hm, h1, e, h2⟩

theorem runSlice_ok (body : Body S D R K) (hk : KeepsShared body) (mask : Cell → Flt K)
    (inp : Cell → CellIn D K) (ax : List (List Nat)) (p : Params S K)
    (hok : ∀ l ∈ localCells ax, active mask (globalOf ax l) →
      ∃ r, own body p.shared (inp (globalOf ax l)) = .ok r) :
    ∃ out, runSlice body mask inp p ax = .ok out ∧
      (∀ c ∈ localCells ax, out c = result body mask inp p.shared (globalOf ax c)) ∧
      (∀ c, c ∉ localCells ax → out c = none) := by
  obtain ⟨p', out', h1, h2⟩ := runCells_ok body hk mask inp ax (localCells ax) p (fun _ => none) hok
  refine ⟨out', by unfold runSlice; rw [h1]; rfl, ?_, ?_⟩
  · intro c hc
    rw [h2 c]
    by_cases ha : active mask (globalOf ax c) = true
    · rw [if_pos ⟨hc, ha⟩]
    · rw [if_neg (by rintro ⟨-, h⟩; exact ha h), result, if_neg ha]
  · intro c hc
    rw [h2 c, if_neg (by rintro ⟨h, -⟩; exact hc h)]

end

theorem foldl_store (ls : List Cell) (g : Cell → Cell) (v : Cell → Option W) (H : Cell → Option W)
    (hv : ∀ l ∈ ls, v l = H (g l)) (f : Cell → Option W) (c : Cell) :
    ls.foldl (fun f l => store f (g l) (v l)) f c = if c ∈ ls.map g then H c else f c := by
  induction ls generalizing f with
  | nil => simp
  | cons l ls ih =>
    rw [List.foldl_cons, ih (fun l' hl' => hv l' (by simp [hl']))]
    by_cases hc : c ∈ ls.map g
    · rw [if_pos hc, if_pos (by rw [List.map_cons]; exact List.mem_cons_of_mem _ hc)]
    · rw [if_neg hc]
      unfold store
      by_cases h : c = g l
      · rw [if_pos h, if_pos (by rw [List.map_cons, h]; exact List.mem_cons_self), hv l (by simp), h]
      · rw [if_neg h, if_neg]
        rw [List.map_cons, List.mem_cons]; tauto

theorem map_globalOf (ax : List (List Nat)) : (localCells ax).map (globalOf ax) = product ax := by
  unfold localCells
  induction ax with
  | nil => rfl
  | cons a ax ih =>
    simp only [List.map_cons, product, List.map_flatMap, List.map_map]
    rw [← ih]
    simp only [List.map_map]
    have : a = (List.range a.length).map fun i => a.getD i 0 := by
      apply List.ext_getElem
      · simp
      · intro i h1 h2; simp [List.getD_eq_getElem?_getD, h1]
    conv_rhs => rw [this]
    rw [List.flatMap_map]
    congr 1

theorem writeRegion_eq (ax : List (List Nat)) (g : Group R W) (out : Cell → Option R)
    (H : Cell → Option R) (hv : ∀ l ∈ localCells ax, out l = H (globalOf ax l))
    (f : Cell → Option W) (c : Cell) :
    writeRegion ax g out f c = if c ∈ product ax then (H c).map g.part else f c := by
  unfold writeRegion
  rw [foldl_store _ _ _ (fun c => (H c).map g.part) (fun l hl => by rw [hv l hl]), map_globalOf]

theorem writeAxes_ok (dims : Dict String Nat) (s : Dict String Slice) (h : ∀ d ∈ dims.keys, d ∈ s.keys) :
    writeAxes dims s = .ok (axes dims s) := by
  unfold writeAxes axes
  induction dims with
  | nil => rfl
  | cons p dims ih =>
    obtain ⟨d, n⟩ := p
    rw [List.mapM_cons]
    have hd : d ∈ s.keys := h d (by simp [Dict.keys])
    cases hg : s.get? d with
    | none => exact absurd hd ((Dict.get?_eq_none_iff _ _).1 hg)
    | some sl =>
      have ih' := ih (fun d' hd' => h d' (by simp only [Dict.keys, List.map_cons, List.mem_cons]; right; exact hd'))
      simp only [Dict.get, hg, bind, Except.bind, pure, Except.pure] at ih' ⊢
      rw [ih']
      simp [hg]

theorem writeAxes_error (dims : Dict String Nat) (s : Dict String Slice) (d : String)
    (hd : d ∈ dims.keys) (hs : d ∉ s.keys) : writeAxes dims s = .error .keyError := by
  unfold writeAxes
  induction dims with
  | nil => simp [Dict.keys] at hd
  | cons p dims ih =>
    obtain ⟨d', n⟩ := p
    rw [List.mapM_cons]
    cases hg : s.get? d' with
    | none => simp [Dict.get, hg, bind, Except.bind]
    | some sl =>
      have hne : d ≠ d' := by
        rintro rfl
        rw [(Dict.get?_eq_none_iff _ _).2 hs] at hg; cases hg
      have : d ∈ Dict.keys dims := by
        simp only [Dict.keys, List.map_cons, List.mem_cons] at hd
        rcases hd with h | h
        · exact absurd h hne
        · exact h
      have ih' := ih this
      simp only [Dict.get, hg, bind, Except.bind, pure, Except.pure] at ih' ⊢
      rw [ih']

/-- Writing a chunk changes exactly its region, in every group's file. -/
theorem writeChunk_ok (dims : Dict String Nat) (s : Dict String Slice)
    (hs : ∀ d ∈ dims.keys, d ∈ s.keys) (groups : List (Group R W))
    (out : Cell → Option R) (H : Cell → Option R)
    (hv : ∀ l ∈ localCells (axes dims s), out l = H (globalOf (axes dims s) l)) (files : Files W) :
    ∃ files', writeChunk dims s groups out files = .ok files' ∧
      (∀ n c, c ∉ product (axes dims s) → files' n c = files n c) ∧
      (∀ n c, n ∉ groups.map Group.name → files' n c = files n c) ∧
      ((groups.map Group.name).Nodup → ∀ g ∈ groups, ∀ c ∈ product (axes dims s),
        files' g.name c = (H c).map g.part) := by
  unfold writeChunk
  rw [show writeAxes dims s = .ok (axes dims s) from writeAxes_ok dims s hs]
  simp only [bind, Except.bind, pure, Except.pure]
  induction groups generalizing files with
  | nil => exact ⟨files, rfl, fun _ _ _ => rfl, fun _ _ _ => rfl, by simp⟩
  | cons g gs ih =>
    obtain ⟨files', h1, h2, h3, h4⟩ := ih (fun n => if n = g.name then
      writeRegion (axes dims s) g out (files n) else files n)
    refine ⟨files', by rw [List.foldlM_cons]; exact h1, ?_, ?_, ?_⟩
    · intro n c hc
      rw [h2 n c hc]
      split
      · rw [writeRegion_eq _ _ _ H hv, if_neg hc]
      · rfl
    · intro n c hn
      simp only [List.map_cons, List.mem_cons, not_or] at hn
      rw [h3 n c hn.2]
      rw [if_neg hn.1]
    · intro hnd g' hg' c hc
      simp only [List.map_cons, List.nodup_cons] at hnd
      rcases List.mem_cons.1 hg' with rfl | hm
      · rw [h3 _ c hnd.1]
        simp only [if_true]
        rw [writeRegion_eq _ _ _ H hv, if_pos hc]
      · exact h4 hnd.2 g' hm c hc

end Verif.Run
