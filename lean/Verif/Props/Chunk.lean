import Verif.Lemmas.Chunk

/-!
# Properties of the domain decomposition: C06, C63
-/

namespace Verif.Props

open Chunk

/-! ## C06 -/
section C06

/-- A grid cell: an index for every dimension, inside the dimension's extent. -/
def InGrid (dims : Dict String Nat) (cell : String → Nat) : Prop :=
  ∀ d n, dims.get? d = some n → cell d < n

/-- The (dictionary of) slices `s` selects the cell. -/
def covers (dims : Dict String Nat) (cell : String → Nat) (s : Dict String Slice) : Bool :=
  s.all fun (d, sl) => sl.selects ((dims.get? d).getD 0) (cell d)

/-- **C06**: for every domain with positive extents and positive chunk sizes for (some of) its
dimensions, the slices exist, every grid cell is selected by exactly one of them, and every one of
them selects at least one cell.  (No chunks given: one slice with everything.) -/
theorem C06_partition (chunks : Dict String Int) (dims : Dict String Nat)
    (hck : chunks.keys.Nodup) (hpos : ∀ p ∈ chunks, 0 < p.2)
    (hdims : ∀ p ∈ dims, 0 < p.2)
    (hsub : ∀ d ∈ chunks.keys, d ∈ dims.keys) :
    ∃ ss, slices chunks dims = .ok ss ∧
      (∀ cell, InGrid dims cell → ss.countP (covers dims cell) = 1) ∧
      (∀ s ∈ ss, ∃ cell, InGrid dims cell ∧ covers dims cell s = true) ∧
      (∀ s ∈ ss, s.keys = if chunks = [] then dims.keys else chunks.keys) := by
  have hget : ∀ d ∈ dims.keys, ∃ n, dims.get? d = some n ∧ 0 < n := by
    intro d hd
    cases h : dims.get? d with
    | none => exact absurd hd ((Dict.get?_eq_none_iff _ _).1 h)
    | some n => exact ⟨n, rfl, hdims _ (Dict.mem_of_get? _ h)⟩
  by_cases hc : chunks = []
  · subst hc
    have hcov : ∀ cell, InGrid dims cell →
        covers dims cell (dims.keys.map fun d => (d, (none : Slice))) = true := by
      intro cell hcell
      simp only [covers, List.all_map, List.all_eq_true, Function.comp]
      intro d hd
      obtain ⟨n, hn, -⟩ := hget d hd
      simp [hn, Slice.selects, hcell d n hn]
    refine ⟨[dims.keys.map fun d => (d, none)], by simp [slices], ?_, ?_, ?_⟩
    · intro cell hcell
      simp [hcov cell hcell]
    · intro s hs
      simp only [List.mem_singleton] at hs; subst hs
      have h0 : InGrid dims (fun _ => 0) := fun d n hn => hdims _ (Dict.mem_of_get? _ hn)
      exact ⟨fun _ => 0, h0, hcov _ h0⟩
    · intro s hs
      simp only [List.mem_singleton] at hs; subst hs
      simp [Dict.keys]
  · -- per dimension
    obtain ⟨ls, hls, hF⟩ := mapM_ok_forall₂
      (fun (p : String × Int) => (do let n ← dims.get p.1; dimSlices p.2 n : Except PyErr (List Slice)))
      chunks
      (fun p l => ∃ n, dims.get? p.1 = some n ∧ 0 < n ∧
        (∀ i < n, l.countP (fun s => s.selects n i) = 1) ∧ (∀ s ∈ l, ∃ i < n, s.selects n i = true))
      (by
        intro p hp
        obtain ⟨n, hn, hn0⟩ := hget p.1 (hsub _ (List.mem_map_of_mem (f := Prod.fst) hp))
        have hp0 := hpos p hp
        obtain ⟨c, hcc⟩ := Int.eq_ofNat_of_zero_le hp0.le
        obtain ⟨l, h1, h2, h3⟩ := dimSlices_count c n (by omega) hn0
        refine ⟨l, ?_, n, hn, hn0, h2, h3⟩
        simp only [Dict.get, hn, bind, Except.bind, hcc]
        exact h1)
    have hlen : ls.length = chunks.length := hF.length_eq.symm
    refine ⟨(product ls).map fun p => chunks.keys.zip p, ?_, ?_, ?_, ?_⟩
    · rw [slices, if_neg hc, chunkDomain]
      show (List.mapM _ chunks >>= _) = _
      rw [hls]; rfl
    · intro cell hcell
      rw [List.countP_map]
      have e1 : ∀ p, (covers dims cell ∘ fun p => chunks.keys.zip p) p =
          ((chunks.keys.map fun d => fun s : Slice =>
            s.selects ((dims.get? d).getD 0) (cell d)).zip p).all (fun (f, a) => f a) := by
        intro p
        simp only [Function.comp, covers, List.zip_map_left, List.all_map]
        rfl
      rw [List.countP_congr (p := (covers dims cell ∘ fun p => chunks.keys.zip p))
        (q := fun p => ((chunks.keys.map fun d => fun s : Slice =>
            s.selects ((dims.get? d).getD 0) (cell d)).zip p).all (fun (f, a) => f a))
        (fun p _ => by rw [e1 p])]
      rw [countP_product _ _ (by simp [Dict.keys, hlen])]
      clear hls hlen e1 hc
      induction hF with
      | nil => simp [Dict.keys]
      | @cons p l chunks ls h hF ih =>
        obtain ⟨n, hn, hn0, h2, h3⟩ := h
        have ih' := ih (by simp only [Dict.keys, List.map_cons, List.nodup_cons] at hck; exact hck.2)
          (fun q hq => hpos q (List.mem_cons_of_mem _ hq))
          (fun d hd => hsub d (by simp only [Dict.keys, List.map_cons, List.mem_cons]; exact Or.inr hd))
        simp only [Dict.keys, List.map_cons, List.zipWith_cons_cons, List.prod_cons]
        simp only [Dict.keys] at ih'
        rw [ih', hn]
        simp only [Option.getD_some, mul_one]
        exact h2 _ (hcell _ _ hn)
    · intro s hs
      simp only [List.mem_map] at hs
      obtain ⟨p, hp, rfl⟩ := hs
      rw [mem_product] at hp
      -- every entry of the slice dictionary selects some index
      have hsel : ∀ q ∈ chunks.keys.zip p, ∃ n i, dims.get? q.1 = some n ∧ i < n ∧
          q.2.selects n i = true := by
        clear hls hlen hc hpos hsub
        induction hF generalizing p with
        | nil => simp [Dict.keys]
        | @cons c l chunks ls h hF ih =>
          cases hp with
          | @cons a _ p _ ha hp =>
            obtain ⟨n, hn, hn0, h2, h3⟩ := h
            intro q hq
            simp only [Dict.keys, List.map_cons, List.zip_cons_cons, List.mem_cons] at hq
            rcases hq with rfl | hq
            · obtain ⟨i, hi, hs⟩ := h3 a ha
              exact ⟨n, i, hn, hi, hs⟩
            · exact ih (by simp only [Dict.keys, List.map_cons, List.nodup_cons] at hck; exact hck.2)
                p hp q hq
      have hkeys : Dict.keys (chunks.keys.zip p) = chunks.keys := by
        simp only [Dict.keys]
        rw [List.map_fst_zip]
        rw [hp.length_eq, hlen]; simp
      have hnd : (Dict.keys (chunks.keys.zip p)).Nodup := by rw [hkeys]; exact hck
      classical
      let cell : String → Nat := fun d =>
        if h : ∃ i, ∃ n sl, dims.get? d = some n ∧ Dict.get? (chunks.keys.zip p) d = some sl ∧
          i < n ∧ sl.selects n i = true then Classical.choose h else 0
      refine ⟨cell, ?_, ?_⟩
      · intro d n hn
        show (if h : _ then _ else _ : Nat) < n
        split
        · next h =>
          obtain ⟨n', sl, h1, h2, h3, h4⟩ := Classical.choose_spec h
          rw [hn] at h1; injection h1 with h1; subst h1; exact h3
        · exact hdims _ (Dict.mem_of_get? _ hn)
      · simp only [covers, List.all_eq_true]
        rintro ⟨d, sl⟩ hq
        have hg := Dict.get?_of_mem _ hnd hq
        obtain ⟨n, i, hn, hi, hs⟩ := hsel _ hq
        have hex : ∃ i, ∃ n sl, dims.get? d = some n ∧ Dict.get? (chunks.keys.zip p) d = some sl ∧
          i < n ∧ sl.selects n i = true := ⟨i, n, sl, hn, hg, hi, hs⟩
        obtain ⟨n', sl', h1, h2, h3, h4⟩ := Classical.choose_spec hex
        have hn' : dims.get? d = some n := hn
        rw [hg] at h2; injection h2 with h2; subst h2
        rw [h1]
        show Slice.selects sl n' (if h : _ then _ else _) = true
        rw [dif_pos hex]; exact h4
    · intro s hs
      simp only [List.mem_map] at hs
      obtain ⟨p, hp, rfl⟩ := hs
      rw [mem_product] at hp
      rw [if_neg hc]
      simp only [Dict.keys]
      rw [List.map_fst_zip]
      rw [hp.length_eq, hlen]; simp

/-- Non-vacuity: a 5 x 4 domain in chunks of 2 x 10. -/
example : slices [("lat", 2), ("lon", 10)] [("lat", 5), ("lon", 4)] =
    .ok [[("lat", some (0, 2)), ("lon", some (0, 5))], [("lat", some (2, 4)), ("lon", some (0, 5))],
         [("lat", some (4, 6)), ("lon", some (0, 5))]] := by decide +kernel

/-- **C06**, the rejected inputs: a chunk size that is not positive makes the call fail rather than
return an incomplete decomposition. -/
theorem C06_nonpositive_rejected (chunks : Dict String Int) (dims : Dict String Nat)
    (h : ∃ p ∈ chunks, p.2 ≤ 0) : ∃ e, slices chunks dims = .error e := by
  have hne : chunks ≠ [] := by rintro rfl; simp at h
  have key : ∀ (chunks : Dict String Int), (∃ p ∈ chunks, p.2 ≤ 0) →
      ∃ e, chunks.mapM (fun (p : String × Int) => (do let n ← dims.get p.1; dimSlices p.2 n :
        Except PyErr (List Slice))) = .error e := by
    intro chunks
    induction chunks with
    | nil => simp
    | cons p chunks ih =>
      rintro ⟨q, hq, hq0⟩
      rw [List.mapM_cons]
      cases hp : (do let n ← dims.get p.1; dimSlices p.2 n : Except PyErr (List Slice)) with
      | error e => exact ⟨e, rfl⟩
      | ok l =>
        rcases List.mem_cons.1 hq with rfl | hq
        · exfalso
          cases hn : dims.get q.1 with
          | error e => simp [hn, bind, Except.bind] at hp
          | ok n =>
            simp only [hn, bind, Except.bind, dimSlices, left, right, Np.arange, pure, Except.pure] at hp
            by_cases h0 : q.2 = 0
            · simp [h0] at hp
            · rw [if_neg h0, if_neg h0] at hp
              have hneg : q.2 < 0 := lt_of_le_of_ne hq0 h0
              have e2 : (-(Int.fdiv (q.2 - ((n : Int) + q.2)) q.2)).toNat = 0 := by
                rw [show q.2 - ((n : Int) + q.2) = -(n : Int) by ring]
                have : 0 ≤ Int.fdiv (-(n : Int)) q.2 := by
                  have h1 : Int.fdiv (-(n : Int)) q.2 = Int.fdiv n (-q.2) := by
                    have := Int.neg_fdiv_neg (n : Int) (-q.2)
                    simpa using this
                  rw [h1, Int.fdiv_eq_ediv_of_nonneg _ (by omega)]
                  exact Int.ediv_nonneg (by omega) (by omega)
                omega
              rw [e2] at hp
              simp at hp
        · obtain ⟨e, he⟩ := ih ⟨q, hq, hq0⟩
          refine ⟨e, ?_⟩
          rw [he]; rfl
  obtain ⟨e, he⟩ := key chunks h
  refine ⟨e, ?_⟩
  rw [slices, if_neg hne, chunkDomain]
  show (List.mapM _ chunks >>= _) = _
  rw [he]; rfl

end C06

/-! ## C63 -/
section C63

/-- **C63**: there is one chunk size per dimension; it never exceeds the dimension, it is the
configured size where that fits and the whole dimension where it does not (or nothing was
configured); it is positive for positive chunk sizes. -/
theorem C63_chunk_sizes (chunks : Dict String Int) (dims : Dict String Nat) :
    List.Forall₂ (fun (p : String × Nat) c => c ≤ (p.2 : Int) ∧
        (∀ c', chunks.get? p.1 = some c' → c' ≤ p.2 → c = c') ∧
        (∀ c', chunks.get? p.1 = some c' → (p.2 : Int) < c' → c = p.2) ∧
        (chunks.get? p.1 = none → c = p.2) ∧
        ((∀ q ∈ chunks, 0 < q.2) → 0 < p.2 → 0 < c)) dims (chunkSizes chunks dims) := by
  unfold chunkSizes
  rw [List.forall₂_map_right_iff]
  apply List.forall₂_same.2
  intro p _
  dsimp only
  cases h : chunks.get? p.1 with
  | none => simp
  | some c =>
    simp only [Option.getD_some, Option.some.injEq]
    have hm := Dict.mem_of_get? _ h
    split_ifs with hc
    · exact ⟨hc, by intro c' e _; exact e, by intro c' e; omega, by simp, fun hp _ => hp _ hm⟩
    · exact ⟨le_refl _, by intro c' e; omega, by simp, by simp, fun _ h => by exact_mod_cast h⟩

example : chunkSizes [("lat", 2), ("lon", 10)] [("lat", 5), ("lon", 4)] = [2, 4] := by decide +kernel

end C63
end Verif.Props
