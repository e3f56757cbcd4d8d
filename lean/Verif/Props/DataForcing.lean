import Verif.Props.Reading

/-!
# Forcing handed over as a data set (`forcing_fmt: data`, io.py:306-321)

`read_data` is given the domain and does not use it: the cells of a chunk are looked up by their position in the chunk,
in data that are not cut down to it.
-/

namespace Verif.Props

open Dataset Forcing

section
variable {K : Type} [RatCast K] {g : Gridded K} {mdims : List String} {whole dom met : DS K}
  {chunk : Dict String Chunk.Slice}

/-- **C87** (in full): a cell is computed from the data at its own labels, whatever the chunk. -/
def C87_full : Prop :=
  ∀ (g : Gridded ℚ) (mdims : List String) (whole dom met : DS ℚ) (chunk : Dict String Chunk.Slice), g.Proper →
    Loaded g .data mdims whole chunk dom met → ∀ v : String, (v ≠ "day_of_year" ∧ v ≠ "elev" ∧ v ≠ "lat" ∧ v ≠ "lon") →
    (∀ u b, g.names.get? u = some v → g.forcing.vars.get? u = some b →
      (∃ d ∈ b.dims, newName g.names d = "time") ∧
        ∀ d ∈ b.dims, newName g.names d = "time" ∨ newName g.names d ∈ mdims) →
    ∀ l ∈ Run.localCells (Run.axes (maskDims whole mdims) chunk), ∀ col, met.series mdims l v = .ok col →
      ∀ (t : Nat) (x : Flt ℚ) (day : ℚ), col[t]? = some x → (met.labels "time")[t]? = some day →
        ∃ u, g.names.get? u = some v ∧ g.forcing.Says u (fun d => if newName g.names d = "time" then day else
          cellLabel whole mdims (Run.globalOf (Run.axes (maskDims whole mdims) chunk) l) (newName g.names d)) x

omit [RatCast K] in
theorem names_snd {names : Dict String String} (hn : (names.map Prod.fst).Nodup) {v : String} :
    v ∈ names.map Prod.snd ↔ ∃ u, names.get? u = some v := by
  constructor
  · intro h
    obtain ⟨q, hq, rfl⟩ := List.mem_map.1 h
    exact ⟨q.1, Dict.get?_of_mem names hn hq⟩
  · rintro ⟨u, hu⟩
    exact List.mem_map.2 ⟨(u, v), Dict.mem_of_get? names hu, rfl⟩

/-- **C87** (partial: the data have the labels of the chunk, in the same order — so a single chunk and data on exactly
the domain): a cell is computed from the data at its own labels. -/
theorem C87_series_partial (hg : g.Proper) (h : Loaded g .data mdims whole chunk dom met)
    (hsame : ∀ d, newName g.names d ∈ mdims → (g.forcing.sizes.get? d).isSome →
      g.forcing.labels d = dom.labels (newName g.names d))
    {v : String} (hv : v ≠ "day_of_year" ∧ v ≠ "elev" ∧ v ≠ "lat" ∧ v ≠ "lon")
    (hshape : ∀ u b, g.names.get? u = some v → g.forcing.vars.get? u = some b →
      (∃ d ∈ b.dims, newName g.names d = "time") ∧ ∀ d ∈ b.dims, newName g.names d = "time" ∨ newName g.names d ∈ mdims)
    {l : Run.Cell} (hl : l ∈ Run.localCells (Run.axes (maskDims whole mdims) chunk)) {col : List (Flt K)}
    (hcol : met.series mdims l v = .ok col) (t : Nat) (x : Flt K) (day : ℚ) (hx : col[t]? = some x)
    (hday : (met.labels "time")[t]? = some day) :
    ∃ u, g.names.get? u = some v ∧ g.forcing.Says u (fun d => if newName g.names d = "time" then day else
      cellLabel whole mdims (Run.globalOf (Run.axes (maskDims whole mdims) chunk) l) (newName g.names d)) x := by
  have hm := h.readsMet
  unfold metData at hm
  simp only [bind_ok] at hm
  obtain ⟨r, hr, m1, h2, m2, h3, h4⟩ := hm
  obtain ⟨sz1, c1, v1⟩ := assignFrom_ok h2
  obtain ⟨sz2, c2, v2⟩ := assignFrom_ok h3
  obtain ⟨sz3, c3, v3⟩ := assignFrom_ok h4
  have hlab : ∀ d, met.labels d = r.labels d := labels_congr (sz3.trans (sz2.trans sz1)) (c3.trans (c2.trans c1))
  have hvars : met.vars.get? v = r.vars.get? v := by rw [v3 v hv.2.2.2, v2 v hv.2.2.1, v1 v hv.2.1]
  unfold readData at hr
  simp only [bind_ok] at hr
  obtain ⟨ds0, h0, ds1, h1, a', ha', b', hb', h5⟩ := hr
  simp only [Except.ok.injEq] at ha' hb'
  subst ha'; subst hb'
  have hren := h0
  obtain ⟨w0, l0, z0, vv0, s0⟩ := rename_ok hg.forcing h0
  have hnn : (g.names.map Prod.snd).Nodup := by
    unfold DS.rename at hren
    split at hren
    swap
    · simp at hren
    rename_i hcond
    rw [Bool.and_eq_true, decide_eq_true_iff, List.all_eq_true] at hcond
    have e : g.names.map Prod.snd = (g.names.map Prod.fst).map (newName g.names) := by
      rw [List.map_map]
      refine List.map_congr_left fun q hq => ?_
      simp only [Function.comp, newName, Dict.get?_of_mem g.names hg.names hq, Option.getD_some]
    rw [e]
    refine List.Nodup.map_on (fun a ha b hb hab => ?_) hg.names
    have hnd := hcond.2
    have e2 : ((g.forcing.vars.map fun q => newName g.names q.1) ++ g.forcing.sizes.map fun q => newName g.names q.1) =
        (g.forcing.vars.map Prod.fst ++ g.forcing.sizes.map Prod.fst).map (newName g.names) := by
      simp [List.map_append, List.map_map, Function.comp_def]
    rw [e2] at hnd
    have hk : ∀ m ∈ g.names.map Prod.fst, m ∈ g.forcing.vars.map Prod.fst ++ g.forcing.sizes.map Prod.fst := by
      intro m hm
      obtain ⟨q, hq, rfl⟩ := List.mem_map.1 hm
      have := hcond.1 q hq
      rw [Bool.or_eq_true] at this
      rw [List.mem_append]
      rcases this with h | h
      · exact .inl ((Dict.isSome_iff _ _).1 h)
      · exact .inr ((Dict.isSome_iff _ _).1 h)
    exact List.inj_on_of_nodup_map hnd (hk a ha) (hk b hb) hab
  obtain ⟨w1, vv1, l1, s1⟩ := subset_ok w0 hnn h1
  obtain ⟨c, ps, hc, hps, ltime, lne, v5, z5, z5', w5, s5⟩ := selPeriod_ok w1 h5
  -- the column
  unfold DS.series at hcol
  rw [bind_ok] at hcol
  obtain ⟨a, ha, hcol⟩ := hcol
  rw [pure_ok] at hcol
  rw [Dict.get_ok, hvars] at ha
  subst hcol
  rw [List.getElem?_map] at hx
  have ht : t < (met.labels "time").length := (List.getElem?_eq_some_iff.1 hday).1
  rw [List.getElem?_range ht] at hx
  simp only [Option.map_some, Option.some.injEq] at hx
  -- where it comes from
  have hdims : ∃ u b, g.forcing.vars.get? u = some b ∧ newName g.names u = v ∧ g.names.get? u = some v ∧
      a.dims = b.dims.map (newName g.names) := by
    rw [v5 v hv.1] at ha
    cases hh : ds1.vars.get? v with
    | none => rw [hh] at ha; simp at ha
    | some a1 =>
      rw [hh] at ha
      simp only [Option.map_some, Option.some.injEq] at ha
      rw [vv1] at hh
      split at hh
      swap
      · simp at hh
      rename_i hmem
      obtain ⟨u, b, hb, hu, hd⟩ := vv0 v a1 hh
      obtain ⟨u', hu'⟩ := (names_snd hg.names).1 hmem
      refine ⟨u, b, hb, hu, ?_, by rw [← ha]; exact hd⟩
      -- two names of the file do not become one
      unfold DS.rename at hren
      split at hren
      swap
      · simp at hren
      rename_i hcond
      rw [Bool.and_eq_true, decide_eq_true_iff, List.all_eq_true] at hcond
      have e2 : ((g.forcing.vars.map fun q => newName g.names q.1) ++
          g.forcing.sizes.map fun q => newName g.names q.1) =
          (g.forcing.vars.map Prod.fst ++ g.forcing.sizes.map Prod.fst).map (newName g.names) := by
        simp [List.map_append, List.map_map, Function.comp_def]
      have hnd := hcond.2
      rw [e2] at hnd
      have hk' : u' ∈ g.forcing.vars.map Prod.fst ++ g.forcing.sizes.map Prod.fst := by
        have := hcond.1 (u', v) (Dict.mem_of_get? g.names hu')
        rw [Bool.or_eq_true] at this
        rw [List.mem_append]
        rcases this with h | h
        · exact .inl ((Dict.isSome_iff _ _).1 h)
        · exact .inr ((Dict.isSome_iff _ _).1 h)
      have hk : u ∈ g.forcing.vars.map Prod.fst ++ g.forcing.sizes.map Prod.fst :=
        List.mem_append_left _ (Dict.mem_keys_of_get? _ hb)
      have : u = u' := List.inj_on_of_nodup_map hnd hk hk' (by rw [hu]; unfold newName; rw [hu']; rfl)
      rw [this]; exact hu'
  obtain ⟨u, b, hb, hu, hun, had⟩ := hdims
  obtain ⟨⟨dt, hdt, hdt'⟩, hsh⟩ := hshape u b hun hb
  have hmem : ∀ d ∈ a.dims, d = "time" ∨ d ∈ mdims := by
    intro d hd
    rw [had, List.mem_map] at hd
    obtain ⟨k, hk, rfl⟩ := hd
    exact hsh k hk
  have htnm : "time" ∉ mdims := fun hm => by have := h.mask _ hm; rw [h.time] at this; simp at this
  have hS : r.Says v (fun d => if d = "time" then day else
      cellLabel whole mdims (Run.globalOf (Run.axes (maskDims whole mdims) chunk) l) d) x := by
    refine ⟨a, _, ha, fun d hd => ?_, hx⟩
    rcases hmem d hd with rfl | hm
    · simp only [Index.set, if_true]
      rw [← hlab]; exact hday
    · have hne : d ≠ "time" := fun e => htnm (e ▸ hm)
      simp only [Index.set, hne, if_false]
      have hz : (ds1.sizes.get? d).isSome := by rw [← z5]; exact w5.var_dims v a ha d hd
      have hz' : (ds0.sizes.get? d).isSome := by rw [← (l1 d hz).1]; exact hz
      obtain ⟨k, hk, rfl⟩ := z0 d hz'
      rw [lne _ hne, (l1 _ hz).2.1, (l0 k hk).1, hsame k hm hk]
      exact h.label hg hl hm
  have hS1 := s5 v _ x hv.1 hS
  have hS0 := s1 v _ x hS1
  obtain ⟨u2, hu2, b2, ix, hb2, hl2, hx2⟩ := s0 v _ x hS0
  refine ⟨u, hun, ?_⟩
  have : u2 = u := by
    unfold DS.rename at hren
    split at hren
    swap
    · simp at hren
    rename_i hcond
    rw [Bool.and_eq_true, decide_eq_true_iff] at hcond
    have e2 : ((g.forcing.vars.map fun q => newName g.names q.1) ++
        g.forcing.sizes.map fun q => newName g.names q.1) =
        (g.forcing.vars.map Prod.fst ++ g.forcing.sizes.map Prod.fst).map (newName g.names) := by
      simp [List.map_append, List.map_map, Function.comp_def]
    have hnd := hcond.2
    rw [e2] at hnd
    exact List.inj_on_of_nodup_map hnd (List.mem_append_left _ (Dict.mem_keys_of_get? _ hb2))
      (List.mem_append_left _ (Dict.mem_keys_of_get? _ hb)) (by rw [hu2, hu])
  subst this
  exact ⟨b2, ix, hb2, hl2, hx2⟩

end

namespace DataExample

/-- Two places, north of each other. -/
def domFile : DS ℚ where
  sizes := [("lat", 2), ("lon", 1)]
  coords := [("lat", [10, 20]), ("lon", [5])]
  vars := [("mask", ⟨["lat", "lon"], fun _ => .fin 1⟩), ("elev", ⟨["lat", "lon"], fun _ => .fin 100⟩)]

/-- Two days of precipitation at the same two places. -/
def data : DS ℚ where
  sizes := [("time", 2), ("lat", 2), ("lon", 1)]
  coords := [("time", [0, 1]), ("lat", [10, 20]), ("lon", [5])]
  vars := [("Prec", ⟨["time", "lat", "lon"], fun ix => .fin ((10 * (ix "lat") + ix "time" : Nat) : ℚ)⟩)]

def run : Gridded ℚ where
  domFile := domFile
  domNames := [("mask", "mask"), ("elev", "elev"), ("lat", "lat"), ("lon", "lon")]
  forcing := data
  names := [("Prec", "prec")]
  start := 0
  stop := 1

theorem run_proper : run.Proper where
  domFile := {
    sizes_nodup := by decide +kernel
    coords_nodup := by decide +kernel
    vars_nodup := by decide +kernel
    coord_len := fun d c h => by
      simp only [run, domFile, Dict.get?_cons, Dict.get?_nil] at h ⊢
      split at h
      · rename_i e; subst e; rw [← Option.some.inj h]; rfl
      · split at h
        · rename_i e; subst e; rw [← Option.some.inj h]; rfl
        · simp at h
    var_dims := fun v a h => by
      simp only [run, domFile, Dict.get?_cons, Dict.get?_nil] at h
      split at h
      · rw [← Option.some.inj h]; decide +kernel
      · split at h
        · rw [← Option.some.inj h]; decide +kernel
        · simp at h
    own := fun v a h ix ix' _ => by
      simp only [run, domFile, Dict.get?_cons, Dict.get?_nil] at h
      split at h
      · rw [← Option.some.inj h]
      · split at h
        · rw [← Option.some.inj h]
        · simp at h }
  forcing := {
    sizes_nodup := by decide +kernel
    coords_nodup := by decide +kernel
    vars_nodup := by decide +kernel
    coord_len := fun d c h => by
      simp only [run, data, Dict.get?_cons, Dict.get?_nil] at h ⊢
      split at h
      · rename_i e; subst e; rw [← Option.some.inj h]; rfl
      · split at h
        · rename_i e; subst e; rw [← Option.some.inj h]; rfl
        · split at h
          · rename_i e; subst e; rw [← Option.some.inj h]; rfl
          · simp at h
    var_dims := fun v a h => by
      simp only [run, data, Dict.get?_cons, Dict.get?_nil] at h
      split at h
      · rw [← Option.some.inj h]; decide +kernel
      · simp at h
    own := fun v a h ix ix' e => by
      simp only [run, data, Dict.get?_cons, Dict.get?_nil] at h
      split at h
      · rw [← Option.some.inj h] at e ⊢
        simp only [e "lat" (by simp), e "time" (by simp)]
      · simp at h }
  domNames := by decide +kernel
  names := by decide +kernel

/-- The two places in chunks of their own: the second computes with the first's precipitation. -/
theorem second_sees_first :
    (do let whole ← readDomain run.domFile (some run.domNames) []
        let dom ← readDomain run.domFile (some run.domNames) [("lat", some (1, 2)), ("lon", some (0, 1))]
        let met ← metData .data run.forcing dom (.ok (some run.start)) (.ok (some run.stop)) (some run.names)
        let col ← met.series ["lat", "lon"] [0, 0] "prec"
        pure (whole.sizes, whole.labels "lat", met.labels "time", col) :
      Except PyErr (List (String × Nat) × List ℚ × List ℚ × List (Flt ℚ))) =
    .ok ([("lat", 2), ("lon", 1)], [10, 20], [0, 1], [.fin 0, .fin 1]) := by decide +kernel

end DataExample

/-- **C87** fails: run in two chunks, the second place is computed from the first place's data. -/
theorem C87_refuted : ¬C87_full := by
  intro hfull
  have hs := DataExample.second_sees_first
  simp only [bind_ok, pure_ok] at hs
  obtain ⟨whole, hw, dom, hd, met, hm, col, hc, he⟩ := hs
  simp only [Prod.mk.injEq] at he
  obtain ⟨e1, e2, e4, e5⟩ := he
  have hL : Loaded DataExample.run .data ["lat", "lon"] whole [("lat", some (1, 2)), ("lon", some (0, 1))] dom met := by
    refine ⟨hw, hd, hm, by decide +kernel, ?_, by decide +kernel, ?_⟩
    · rw [e1]; decide +kernel
    · rw [e1]; decide +kernel
  have hax : Run.axes (maskDims whole ["lat", "lon"]) [("lat", some (1, 2)), ("lon", some (0, 1))] = [[1], [0]] := by
    unfold maskDims; rw [e1]; decide +kernel
  obtain ⟨u, hu, a, ix, ha, hix, hx⟩ := hfull _ _ _ _ _ _ DataExample.run_proper hL "prec" (by decide +kernel)
    (fun u b hu hb => by
      simp only [DataExample.run, DataExample.data, Dict.get?_cons, Dict.get?_nil] at hb
      split at hb
      · rw [← Option.some.inj hb]; decide +kernel
      · simp at hb)
    [0, 0] (by rw [hax]; decide +kernel) col hc 0 (.fin 0) 0 (by rw [e5]; rfl) (by rw [e4]; rfl)
  rw [hax] at hix
  simp only [DataExample.run, DataExample.data, Dict.get?_cons, Dict.get?_nil] at ha
  split at ha
  swap
  · simp at ha
  rw [← Option.some.inj ha] at hix hx
  have hlat := hix "lat" (by simp)
  have hl2 : cellLabel whole ["lat", "lon"] (Run.globalOf [[1], [0]] [0, 0]) (newName DataExample.run.names "lat") = 20 := by
    show (whole.labels "lat").getD 1 0 = 20
    rw [e2]; rfl
  have hne : newName DataExample.run.names "lat" ≠ "time" := by decide +kernel
  simp only [hne, if_false, hl2] at hlat
  replace hlat : ([10, 20] : List ℚ)[ix "lat"]? = some 20 := hlat
  simp only [Flt.fin.injEq] at hx
  have h0 : ix "lat" = 0 := by
    have : (10 * ix "lat" + ix "time" : Nat) = 0 := by exact_mod_cast hx
    omega
  rw [h0] at hlat
  norm_num at hlat

end Verif.Props
