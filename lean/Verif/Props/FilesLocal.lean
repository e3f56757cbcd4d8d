import Verif.Props.EndToEnd
import Verif.Props.Locality

/-!
# C108: how far what the files tell about a day reaches in the files a run leaves
-/

namespace Verif.Props

open Dataset ConfigRead Main Flt

/-- Two sources never tell different values. -/
def Agree (T T' : Flt ℝ → Prop) : Prop := ∀ x y, T x → T' y → x = y

/-- A cell of a run: the files, the whole domain read from them, the dimensions of the mask, and the position. -/
structure Site where
  i : Worker.Inputs
  dom : DS ℝ
  mdims : List String
  cell : Run.Cell

/-- The storms of a month are asked for. -/
def Storms (s : Cell.Shared) : Prop := Lw.upperS s.precType = "TRIANGLE" ∨ Lw.upperS s.precType = "MIX"

/-- The files of two runs tell the same about these variables on a day. -/
def ToldAlike (s : Cell.Shared) (names : List String) (p p' : Site) (d : Int) : Prop :=
  ∀ v ∈ names,
    (v ∈ ["prec", "t_min", "t_max"] → Agree (DayTold p.i p.dom p.mdims p.cell v d) (DayTold p'.i p'.dom p'.mdims p'.cell v d)) ∧
    (v ∈ ["dur", "t_pk"] → (Storms s → Agree (MonthValue p.i p.dom p.mdims p.cell v d) (MonthValue p'.i p'.dom p'.mdims p'.cell v d)) ∧
      (¬ Storms s → ¬ Provided p.i v ∧ ¬ Provided p'.i v)) ∧
    (v ∉ added → v ∉ ["prec", "t_min", "t_max"] → (Provided p.i v ↔ Provided p'.i v) ∧
      Agree (GivenFor p.i p.dom p.mdims p.cell v d) (GivenFor p'.i p'.dom p'.mdims p'.cell v d))

/-- What the record of a cell holds, in terms of the files. -/
structure Filed (p : Site) (s : Cell.Shared) (n : Nat) (x : Run.CellIn Cell.Data ℝ) : Prop where
  told : ∀ v ∈ ["prec", "t_min", "t_max"], ∃ col, Dict.get? x.data.frame v = some col ∧
    ∀ k < n, DayTold p.i p.dom p.mdims p.cell v (p.i.start + k) (col k)
  plain : ∀ v, v ∉ added → (v ∉ p.i.constants.map Prod.fst → Shaped p.i.forcing p.i.names p.mdims v) →
    (Dict.get? x.data.frame v ≠ none ↔ Provided p.i v) ∧ ∀ col, Dict.get? x.data.frame v = some col →
      ∀ k < n, GivenFor p.i p.dom p.mdims p.cell v (p.i.start + k) (col k)
  storms : Storms s → (∀ v ∈ ["dur", "t_pk"], ∀ a, p.dom.vars.get? v = some a → ∀ d ∈ a.dims, d = "month" ∨ d ∈ p.mdims) →
    ∀ v ∈ ["dur", "t_pk"], ∃ col, Dict.get? x.data.frame v = some col ∧ ∀ k < n, MonthValue p.i p.dom p.mdims p.cell v (p.i.start + k) (col k)
  idle : ¬ Storms s → ∀ v ∈ ["dur", "t_pk"], ¬ Provided p.i v → Dict.get? x.data.frame v = none
  before : DayTold p.i p.dom p.mdims p.cell "t_min" (p.i.start - 1) x.data.stateEnd.1 ∧
    DayTold p.i p.dom p.mdims p.cell "t_max" (p.i.start - 1) x.data.stateEnd.2
  range : ∃ (tmin tmax : Int → Flt ℝ) (dtr smoothed : Methods.Col), (∀ d, p.i.start - 90 ≤ d → d < p.i.start + n →
      DayTold p.i p.dom p.mdims p.cell "t_min" d (tmin d) ∧ DayTold p.i p.dom p.mdims p.cell "t_max" d (tmax d)) ∧
    Dict.get? x.data.frame "dtr" = some dtr ∧ Dict.get? x.data.frame "smoothed_dtr" = some smoothed ∧
    ∀ k < n, dtr k = tmax (p.i.start + k) - tmin (p.i.start + k) ∧
      smoothed k = trailingMean 30 (fun d => tmax d - tmin d) (p.i.start + k)
  place : (∀ v ∈ ["elev", "lat", "lon"], v ∉ p.i.constants.map Prod.fst ∧ (∀ u, p.i.names.get? u ≠ some v) ∧
      ∀ a, p.dom.vars.get? v = some a → ∀ d ∈ a.dims, d ∈ p.mdims) →
    PlaceAt p.i p.dom p.mdims p.cell "elev" x.elev ∧ PlaceAt p.i p.dom p.mdims p.cell "lat" x.lat ∧
      PlaceAt p.i p.dom p.mdims p.cell "lon" x.lon

section
variable {i : Worker.Inputs} {s : Cell.Shared} {w : Worker.Loads} {n : Nat} (hi : Worker.Sound i) (hw : Worker.load i s [] = .ok w)
  (hfit : Worker.Fit w) (hd : Dated i w n)
include hi hw hfit hd

/-- Without storms a record has no columns for them, unless the forcing brings some. -/
theorem frame_idle {c : Run.Cell} {x : Run.CellIn Cell.Data ℝ} (hx : Worker.cellIn w c = .ok x) (hs : ¬ Storms s) {v : String}
    (hv : v ∈ ["dur", "t_pk"]) (hp : ¬ Provided i v) : Dict.get? x.data.frame v = none := by
  obtain ⟨met0, st, hl, hcs, -, -, ⟨new, -, hmo, -⟩, -⟩ := load_reads hi hw hfit
  obtain ⟨c1, c2, c3⟩ := withConstants_ok hcs
  obtain ⟨r, m1, m2, hr, a1, a2, a3, l1, l2, rlab, rsz, rvars⟩ := hl.parts
  have pf : (Props.force i).Proper := ⟨hi.domFile, hi.forcing, hi.domNames, hi.names⟩
  obtain ⟨d₀, ps, -, -, -, -, rwf, rdom, -, rdims⟩ := hl.read pf hd.forceCount hr
  unfold Worker.cellIn at hx
  simp only [bind_ok] at hx
  obtain ⟨lat, q1, lon, q2, elev, q3, more, q4, hx⟩ := hx
  rw [pure_ok] at hx
  subst hx
  unfold Worker.monthlies at hmo
  rw [if_neg (show ¬ (Lw.upperS s.precType = "TRIANGLE" ∨ Lw.upperS s.precType = "MIX") from hs), pure_ok] at hmo
  rw [← hmo, pure_ok] at q4
  subst q4
  obtain ⟨e0, e1, e2, e3, n1, n2, n3⟩ := (show ∀ v ∈ ["dur", "t_pk"], v ≠ "day_of_year" ∧ v ≠ "elev" ∧ v ≠ "lat" ∧ v ≠ "lon" ∧
    v ≠ "seasonal_prec" ∧ v ≠ "dtr" ∧ v ≠ "smoothed_dtr" by decide) v hv
  show Dict.get? (Dict.set (Dict.set (Dict.set _ _ _) _ _) _ _) v = _
  rw [Dict.get?_set_ne _ _ (Ne.symm n3), Dict.get?_set_ne _ _ (Ne.symm n2), Dict.get?_set_ne _ _ (Ne.symm n1)]
  refine (Dict.get?_mapVal w.met.vars (fun _ a => Cell.colOf (Worker.along w.mask.dims (w.met.labels "time").length a c)) v).trans ?_
  have hcon : v ∉ i.constants.map Prod.fst := fun h => hp (Or.inl h)
  rw [Option.map_eq_none_iff, c3 v hcon, rvars v e1 e2 e3]
  by_contra h'
  obtain ⟨arr, ha⟩ := Option.ne_none_iff_exists'.1 h'
  obtain ⟨u, b, hu, -⟩ := rdims v arr e0 ha
  exact hp (Or.inr ⟨u, hu⟩)

theorem filed_of (h : Sources i s w.dom w.mask n) {c : Run.Cell} (hc : c ∈ Worker.positions w.dom w.mask.dims)
    {x : Run.CellIn Cell.Data ℝ} (hx : Worker.cellIn w c = .ok x) : Filed ⟨i, w.dom, w.mask.dims, c⟩ s n x := by
  obtain ⟨prec, tmin, tmax, p1, p2, p3, seasonal, smoothed, range, q1, q2, q3, q4⟩ := C90_windows hi hw hfit hd hc hx
  have told : ∀ d, i.start - 90 ≤ d → d < i.start + n → DayTold i w.dom w.mask.dims c "t_min" d (tmin d) ∧
      DayTold i w.dom w.mask.dims c "t_max" d (tmax d) := by
    intro d h1 h2
    unfold DayTold
    by_cases hlt : d < i.start
    · simp only [if_pos hlt]
      have := (p1 (d - (i.start - 90)).toNat (by omega)).2
      rwa [show i.start - 90 + ((d - (i.start - 90)).toNat : Int) = d by omega] at this
    · simp only [if_neg hlt]
      have := (p2 (d - i.start).toNat (by omega)).2
      rwa [show i.start + ((d - i.start).toNat : Int) = d by omega] at this
  have hpos := h.pos
  refine ⟨?_, ?_, ?_, fun hs v hv hp => frame_idle hi hw hfit hd hx hs hv hp, ?_, ⟨tmin, tmax, range, smoothed, told, q3, q2, fun k hk => ⟨(q4 k hk).2.2, (q4 k hk).2.1⟩⟩, ?_⟩
  · intro v hv
    have ha := (show ∀ v ∈ ["prec", "t_min", "t_max"], v ∉ added by decide) v hv
    obtain ⟨col, hcol⟩ := Option.ne_none_iff_exists'.1 ((frame_has hi hw hfit hd h hx ha).2 (Or.inr (h.named v hv).1))
    refine ⟨col, hcol, fun k hk => ?_⟩
    rcases frame_given hi hw hfit hd hc hx ha (fun _ => hd.forceShape v hv) hcol hk with ⟨r, hr, -⟩ | ⟨-, ht⟩
    · exact absurd (List.mem_map.2 ⟨_, hr, rfl⟩) (hd.free v hv)
    · unfold DayTold
      rw [if_neg (by show ¬ (i.start + (k : Int) < i.start); omega)]
      exact ht
  · exact fun v hv hshape => ⟨frame_has hi hw hfit hd h hx hv, fun col hcol k hk => frame_given hi hw hfit hd hc hx hv hshape hcol hk⟩
  · intro hs hdims v hv
    obtain ⟨dur, tPk, h1, h2, h3⟩ := C90_storms hi hw hfit hd hs hdims hc hx
    simp only [List.mem_cons, List.not_mem_nil, or_false] at hv
    rcases hv with rfl | rfl
    · exact ⟨dur, h1, fun k hk => (h3 k hk).1⟩
    · exact ⟨tPk, h2, fun k hk => (h3 k hk).2⟩
  · rw [p3]
    exact told (i.start - 1) (by omega) (by omega)
  · exact fun hp => C90_place hi hw hfit hd.forceCount (fun v hv => (hp v hv).1)
      (fun v hv => placed_of hi hw hfit h hv (hp v hv).1 (hp v hv).2.1 (hp v hv).2.2) hc hx

end

/-- The variables are laid out as the record needs them. -/
def Regular (names : List String) (p : Site) : Prop :=
  (∀ v ∈ names, v ∉ added → v ∉ p.i.constants.map Prod.fst → Shaped p.i.forcing p.i.names p.mdims v) ∧
    ∀ v ∈ ["dur", "t_pk"], ∀ a, p.dom.vars.get? v = some a → ∀ d ∈ a.dims, d = "month" ∨ d ∈ p.mdims

/-- Files that tell the same about a day make records that have the same of it. -/
theorem told_alike {names : List String} {s : Cell.Shared} {p p' : Site} {n n' : Nat} {x x' : Run.CellIn Cell.Data ℝ} (h : Filed p s n x)
    (h' : Filed p' s n' x') {a b : Nat} (ha : a < n) (hb : b < n') (hr : Regular names p) (hr' : Regular names p')
    (hd : p.i.start + a = p'.i.start + b) (hs : ToldAlike s names p p' (p.i.start + a))
    (hn : ∀ v ∈ names, v ∈ added → v ∈ ["dur", "t_pk"]) : AlikeAt names x.data.frame x'.data.frame a b := by
  intro v hv
  obtain ⟨s1, s2, s3⟩ := hs v hv
  by_cases h1 : v ∈ ["prec", "t_min", "t_max"]
  · obtain ⟨col, c1, c2⟩ := h.told v h1
    obtain ⟨col', c1', c2'⟩ := h'.told v h1
    rw [c1, c1']
    simp only [Option.map_some]
    rw [s1 h1 _ _ (c2 a ha) (hd ▸ c2' b hb)]
  by_cases h2 : v ∈ added
  · have hst := hn v hv h2
    obtain ⟨t1, t2⟩ := s2 hst
    by_cases hsto : Storms s
    · obtain ⟨col, c1, c2⟩ := h.storms hsto hr.2 v hst
      obtain ⟨col', c1', c2'⟩ := h'.storms hsto hr'.2 v hst
      rw [c1, c1']
      simp only [Option.map_some]
      rw [t1 hsto _ _ (c2 a ha) (hd ▸ c2' b hb)]
    · rw [h.idle hsto v hst (t2 hsto).1, h'.idle hsto v hst (t2 hsto).2]
      rfl
  · obtain ⟨t1, t2⟩ := s3 h2 h1
    obtain ⟨g1, g2⟩ := h.plain v h2 (hr.1 v hv h2)
    obtain ⟨g1', g2'⟩ := h'.plain v h2 (hr'.1 v hv h2)
    cases hc : Dict.get? x.data.frame v with
    | none =>
      have : Dict.get? x'.data.frame v = none := by
        by_contra hne
        exact g1.2 (t1.2 (g1'.1 hne)) hc
      rw [this]; rfl
    | some col =>
      obtain ⟨col', hc'⟩ := Option.ne_none_iff_exists'.1 (g1'.2 (t1.1 (g1.1 (by rw [hc]; simp))))
      rw [hc']
      simp only [Option.map_some]
      rw [t2 _ _ (g2 col hc a ha) (hd ▸ g2' col' hc' b hb)]

/-- Files that tell the same extremes for thirty days make records with the same smoothed range on the last. -/
theorem range_alike {s : Cell.Shared} {p p' : Site} {n n' : Nat} {x x' : Run.CellIn Cell.Data ℝ} (h : Filed p s n x)
    (h' : Filed p' s n' x') {a b : Nat} (ha : a < n) (hb : b < n') (hd : p.i.start + a = p'.i.start + b)
    (hs : ∀ d, p.i.start + a - 30 < d → d ≤ p.i.start + a → ToldAlike s extremes p p' d) :
    AlikeAt ["dtr", "smoothed_dtr"] x.data.frame x'.data.frame a b := by
  obtain ⟨tmin, tmax, dtr, sm, t1, t2, t3, t4⟩ := h.range
  obtain ⟨tmin', tmax', dtr', sm', t1', t2', t3', t4'⟩ := h'.range
  have key : ∀ d, p.i.start + a - 30 < d → d ≤ p.i.start + a → tmax d - tmin d = tmax' d - tmin' d := by
    intro d d1 d2
    obtain ⟨u1, u2⟩ := t1 d (by omega) (by omega)
    obtain ⟨u1', u2'⟩ := t1' d (by omega) (by omega)
    rw [((hs d d1 d2) "t_min" (by simp [extremes])).1 (by simp) _ _ u1 u1', ((hs d d1 d2) "t_max" (by simp [extremes])).1 (by simp) _ _ u2 u2']
  intro v hv
  simp only [List.mem_cons, List.not_mem_nil, or_false] at hv
  rcases hv with rfl | rfl
  · rw [t2, t2']
    simp only [Option.map_some]
    rw [(t4 a ha).1, (t4' b hb).1, ← hd, key _ (by omega) le_rfl]
  · rw [t3, t3']
    simp only [Option.map_some]
    rw [(t4 a ha).2, (t4' b hb).2, ← hd]
    unfold trailingMean
    congr 2
    refine List.map_congr_left fun j hj => ?_
    rw [List.mem_range] at hj
    exact key _ (by push_cast; omega) (by push_cast; omega)

/-- The files of two runs tell the same about a day, about the day before and the day after as far as these count, and about where the
cells lie. -/
structure FilesAlike (s : Cell.Shared) (near own : List String) (p p' : Site) (n n' a b : Nat) : Prop where
  place : ∀ v ∈ ["elev", "lat", "lon"], Agree (PlaceAt p.i p.dom p.mdims p.cell v) (PlaceAt p'.i p'.dom p'.mdims p'.cell v)
  date : p.i.start + a = p'.i.start + b
  first : a = 0 ↔ b = 0
  before : ToldAlike s (if a = 0 then extremes else near) p p' (p.i.start + a - 1)
  day : ToldAlike s own p p' (p.i.start + a)
  after : ToldAlike s near p p' (p.i.start + a + 1)
  within : a + 1 < n
  within' : b + 1 < n'

theorem window_of {s : Cell.Shared} {near own rest : List String} {p p' : Site} {n n' a b : Nat} {j j' : Job} {c c' : Run.Cell}
    (h : Filed p s n (j.inp c)) (h' : Filed p' s n' (j'.inp c')) (hf : FilesAlike s near own p p' n n' a b) (hsh : j.shared = j'.shared)
    (hn : j.n = n) (hn' : j'.n = n') (hd : j.d0 = p.i.start - 730120) (hd' : j'.d0 = p'.i.start - 730120)
    (hpl : ∀ v ∈ ["elev", "lat", "lon"], v ∉ p.i.constants.map Prod.fst ∧ (∀ u, p.i.names.get? u ≠ some v) ∧
      ∀ a, p.dom.vars.get? v = some a → ∀ d ∈ a.dims, d ∈ p.mdims)
    (hpl' : ∀ v ∈ ["elev", "lat", "lon"], v ∉ p'.i.constants.map Prod.fst ∧ (∀ u, p'.i.names.get? u ≠ some v) ∧
      ∀ a, p'.dom.vars.get? v = some a → ∀ d ∈ a.dims, d ∈ p'.mdims)
    (hr : Regular own p) (hr' : Regular own p') (ho : ∀ v ∈ own, v ∈ added → v ∈ ["dur", "t_pk"]) (hnear : ∀ v ∈ near, v ∈ own)
    (hrest : AlikeAt rest (j.inp c).data.frame (j'.inp c').data.frame a b) : SameWindow near (own ++ rest) j j' c c' a b := by
  obtain ⟨l1, l2, l3⟩ := h.place hpl
  obtain ⟨l1', l2', l3'⟩ := h'.place hpl'
  have w1 := hf.within
  have w2 := hf.within'
  have hdate := hf.date
  have hrn : Regular near p := ⟨fun v hv => hr.1 v (hnear v hv), hr.2⟩
  have hrn' : Regular near p' := ⟨fun v hv => hr'.1 v (hnear v hv), hr'.2⟩
  refine ⟨hsh, hf.place _ (by simp) _ _ l1 l1', hf.place _ (by simp) _ _ l2 l2', hf.place _ (by simp) _ _ l3 l3', by rw [hd, hd']; omega,
    ?_, ?_, ?_, by omega, by omega⟩
  · rcases Nat.eq_zero_or_pos a with h0 | h0
    · have hb := hf.first.1 h0
      refine Or.inr ⟨h0, hb, ?_⟩
      have hs := hf.before
      have e1 : p.i.start + (a : Int) - 1 = p.i.start - 1 := by omega
      have e2 : p'.i.start - 1 = p.i.start - 1 := by omega
      rw [if_pos h0, e1] at hs
      obtain ⟨u1, u2⟩ := h.before
      obtain ⟨u1', u2'⟩ := h'.before
      rw [e2] at u1' u2'
      exact Prod.ext ((hs "t_min" (by simp [extremes])).1 (by simp) _ _ u1 u1') ((hs "t_max" (by simp [extremes])).1 (by simp) _ _ u2 u2')
    · have hb : b ≠ 0 := fun e => by have := hf.first.2 e; omega
      refine Or.inl ⟨a - 1, b - 1, by omega, by omega, ?_⟩
      have hs := hf.before
      rw [if_neg (by omega), show p.i.start + (a : Int) - 1 = p.i.start + ((a - 1 : Nat) : Int) by omega] at hs
      exact told_alike h h' (by omega) (by omega) hrn hrn' (by omega) hs (fun v hv => ho v (hnear v hv))
  · have := told_alike h h' (by omega) (by omega) hr hr' hdate hf.day ho
    intro v hv
    rcases List.mem_append.1 hv with hv | hv
    exacts [this v hv, hrest v hv]
  · refine told_alike h h' (by omega) (by omega) hrn hrn' (by push_cast; omega) ?_ (fun v hv => ho v (hnear v hv))
    have := hf.after
    rwa [show p.i.start + ((a + 1 : Nat) : Int) = p.i.start + a + 1 by push_cast; ring]

/-- A run that has ended and left files: one over gridded files, or one over files for single cells. -/
inductive Left (w : World) (su : Setup) (i : Worker.Inputs) (whole : DS ℝ) (mask : Arr ℝ) (n : Nat) (freq : Option Times.Freq)
    (os : List (String × String)) (dir : Nc.Dir) : Prop
  | gridded (p : Conf) (order : List (Dict String Chunk.Slice)) (fuel : Nat) (h : Ready w p su i whole mask n freq os order)
      (hdir : simulate w fuel p order = .ok dir)
  | cells (p : Conf) (order : List (Dict String Chunk.Slice)) (fuel : Nat) (fs : Vic.Files) (v : Vic.Inputs) (G : Forcing.Grid ℚ ℝ)
      (h : VicReady w fs p su v whole mask n G freq os order) (hi : i = joined v whole n G)
      (hdir : Vic.simulate w fs fuel p order = .ok dir)

section
variable {w w' : World} {su su' : Setup} {i i' : Worker.Inputs} {n n' : Nat} {freq freq' : Option Times.Freq}
  {os os' : List (String × String)} {whole whole' : DS ℝ} {mask mask' : Arr ℝ} {dir dir' : Nc.Dir}

theorem Left.ended (h : Left w su i whole mask n freq os dir) : ∃ order fuel, Nonempty (Ended w su i whole mask n freq os order fuel dir) ∧
    Worker.Sound i ∧ Sources i (sharedOf w su) whole mask n := by
  rcases h with ⟨p, order, fuel, h, hdir⟩ | ⟨p, order, fuel, fs, v, G, h, rfl, hdir⟩
  · exact ⟨order, fuel, ended_of h.use h.named h.plan.vars (C95_run h fuel) hdir, h.sound, h.sources⟩
  · exact ⟨order, fuel, ended_of h.use h.named h.plan.vars (C102_run h fuel) hdir, h.sources.sound, by rw [h.names.shared]; exact h.sources.sources⟩

theorem Ended.filed {order : List (Dict String Chunk.Slice)} {fuel : Nat} (e : Ended w su i whole mask n freq os order fuel dir)
    (hi : Worker.Sound i) (hsrc : Sources i (sharedOf w su) whole mask n) {c : Run.Cell} (hc : Active whole mask c) :
    Filed ⟨i, whole, mask.dims, c⟩ (sharedOf w su) n (inputOf e.ld c) := by
  obtain ⟨hfit, hd, hsrc', hcell⟩ := e.cell hi hsrc
  obtain ⟨-, hpos, hx, -⟩ := hcell c hc
  have := filed_of hi e.load hfit hd hsrc' hpos hx
  rw [e.domain, e.grid] at this
  exact this

/-- The files two runs leave hold the same for a day. -/
def SameOnDisk (w w' : World) (su su' : Setup) (i i' : Worker.Inputs) (n n' : Nat) (freq freq' : Option Times.Freq)
    (os os' : List (String × String)) (dir dir' : Nc.Dir) (c c' : Run.Cell) (v : String) (a : Nat) : Prop :=
  ∀ m < 1440 / (sharedOf w su).ts, ∃ x,
    OnDisk w su i.start n freq dir ((outputOf w su freq os).names v) c (minute (sharedOf w su) i.start a m) x ∧
    OnDisk w' su' i'.start n' freq' dir' ((outputOf w' su' freq' os').names v) c' (minute (sharedOf w su) i.start a m) x

theorem minute_date {s : Cell.Shared} {st st' : Int} {a b : Nat} (h : st + a = st' + b) (m : Nat) : minute s st a m = minute s st' b m := by
  unfold minute
  have : ((st - 730120 : Int) : ℚ) + a = ((st' - 730120 : Int) : ℚ) + b := by
    have : st - 730120 + a = st' - 730120 + b := by omega
    exact_mod_cast this
  rw [this]

theorem regular_of {c : Run.Cell} {names : List String} (hp : PlausibleFiles i (sharedOf w su) whole mask.dims n c)
    (hn : ∀ v ∈ names, v ∉ added → v ∈ ["prec", "t_min", "t_max", "wind"] ∨ (v ∉ i.constants.map Prod.fst → Shaped i.forcing i.names mask.dims v))
    (hsrc : Sources i (sharedOf w su) whole mask n) : Regular names ⟨i, whole, mask.dims, c⟩ := by
  refine ⟨fun v hv ha hcon => ?_, hp.stormDims⟩
  rcases hn v hv ha with h | h
  · simp only [List.mem_cons, List.not_mem_nil, or_false] at h
    rcases h with rfl | rfl | rfl | rfl
    · exact hsrc.forceShape _ (by simp)
    · exact hsrc.forceShape _ (by simp)
    · exact hsrc.forceShape _ (by simp)
    · exact hp.windShape hcon
  · exact h hcon

/-- **C108**: with radiation and humidity passed through, everything two runs leave on disk for a day is the same if their files
tell the same about that day and, of the days before and after, the temperatures and the vapour pressure. -/
theorem C108_passthrough (h : Left w su i whole mask n freq os dir) (h' : Left w' su' i' whole' mask' n' freq' os' dir')
    (hs : sharedOf w su = sharedOf w' su') (hsub : (sharedOf w su).ts < 1440) (hloc : (sharedOf w su).utcOffset = false)
    (hm : (sharedOf w su).method = .passthrough) {c c' : Run.Cell} (hc : Active whole mask c) (hc' : Active whole' mask' c')
    (hp : PlausibleFiles i (sharedOf w su) whole mask.dims n c) (hp' : PlausibleFiles i' (sharedOf w' su') whole' mask'.dims n' c')
    (hr : RadiationGiven i whole mask.dims n c) (hr' : RadiationGiven i' whole' mask'.dims n' c') {a b : Nat}
    (hf : FilesAlike (sharedOf w su) moist passed ⟨i, whole, mask.dims, c⟩ ⟨i', whole', mask'.dims, c'⟩ n n' a b)
    {v : String} (hv : v ∈ (sharedOf w su).outVars.keys) : SameOnDisk w w' su su' i i' n n' freq freq' os os' dir dir' c c' v a := by
  obtain ⟨order, fuel, ⟨e⟩, hi, hsrc⟩ := h.ended
  obtain ⟨order', fuel', ⟨e'⟩, hi', hsrc'⟩ := h'.ended
  obtain ⟨-, -, -, hcell⟩ := e.cell hi hsrc
  obtain ⟨-, -, -, hcell'⟩ := e'.cell hi' hsrc'
  obtain ⟨hcomp, -, -, hso⟩ := hcell c hc
  obtain ⟨hcomp', -, -, hso'⟩ := hcell' c' hc'
  obtain ⟨u, hu⟩ := Option.isSome_iff_exists.1 ((Dict.isSome_iff _ _).2 hv)
  have shapes : ∀ v ∈ passed, v ∉ added → v ∈ ["prec", "t_min", "t_max", "wind"] ∨ v ∈ ["shortwave", "vapor_pressure", "tskc"] := by decide
  have hw := window_of (rest := []) (j := jobOfSetup w su i e.ld n freq os) (j' := jobOfSetup w' su' i' e'.ld n' freq' os')
    (e.filed hi hsrc hc) (hs ▸ e'.filed hi' hsrc' hc') hf hs rfl rfl rfl rfl hp.place hp'.place
    (regular_of hp (fun v hv ha => (shapes v hv ha).imp id fun h => (hr v h).2.1) hsrc)
    (regular_of hp' (fun v hv ha => (shapes v hv ha).imp id fun h => (hr' v h).2.1) hsrc') (by decide) (by decide)
    (fun _ h => by simp at h)
  rw [List.append_nil] at hw
  obtain ⟨val, val', r1, r2, r3⟩ := C106_passthrough _ _ e.sane e'.sane fuel fuel' order order' e.schedule e'.schedule e.files e'.files e.run e'.run
    hsub hloc hm c c' hcomp hcomp' (hso hp) (hso' hp') (e.daily hi hsrc hc hr) a b hw v u hu
  intro m hm
  have w1 := hf.within
  have w2 := hf.within'
  refine ⟨_, e.disk v hv c val r1 a (by omega) m hm, ?_⟩
  have := e'.disk v (by have := hv; rw [hs] at this; exact this) c' val' r2 b (by omega) m (by rw [← hs]; exact hm)
  rw [← (r3 m hm).2, ← hs, ← minute_date hf.date] at this
  exact this

/-- **C108**: with everything estimated from temperature and rain, so it is for temperature, pressure, rain and wind, if the files tell the
same about that day and, of the days before and after, the temperatures; and for cloud cover if they also tell the same temperatures for the
thirty days up to it. -/
theorem C108_mtclim (h : Left w su i whole mask n freq os dir) (h' : Left w' su' i' whole' mask' n' freq' os' dir')
    (hs : sharedOf w su = sharedOf w' su') (hsub : (sharedOf w su).ts < 1440) (hloc : (sharedOf w su).utcOffset = false)
    (hm : (sharedOf w su).method = .mtclim) (hsp : SaneParams (sharedOf w su)) (hcl : Lw.upperS (sharedOf w su).lwCloud = "CLOUD_DEARDORFF")
    {c c' : Run.Cell} (hc : Active whole mask c) (hc' : Active whole' mask' c')
    (hp : PlausibleFiles i (sharedOf w su) whole mask.dims n c) (hp' : PlausibleFiles i' (sharedOf w' su') whole' mask'.dims n' c') {a b : Nat}
    (hf : FilesAlike (sharedOf w su) extremes given ⟨i, whole, mask.dims, c⟩ ⟨i', whole', mask'.dims, c'⟩ n n' a b)
    {v : String} (hv : v ∈ (sharedOf w su).outVars.keys) (hkind : v ∈ ["temp", "air_pressure", "prec", "wind", "tskc"])
    (hcloud : v = "tskc" → ∀ d, i.start + a - 30 < d → d ≤ i.start + a →
      ToldAlike (sharedOf w su) extremes ⟨i, whole, mask.dims, c⟩ ⟨i', whole', mask'.dims, c'⟩ d) :
    SameOnDisk w w' su su' i i' n n' freq freq' os os' dir dir' c c' v a := by
  obtain ⟨order, fuel, ⟨e⟩, hi, hsrc⟩ := h.ended
  obtain ⟨order', fuel', ⟨e'⟩, hi', hsrc'⟩ := h'.ended
  obtain ⟨-, -, -, hcell⟩ := e.cell hi hsrc
  obtain ⟨-, -, -, hcell'⟩ := e'.cell hi' hsrc'
  obtain ⟨hcomp, -, -, hso⟩ := hcell c hc
  obtain ⟨hcomp', -, -, hso'⟩ := hcell' c' hc'
  obtain ⟨u, hu⟩ := Option.isSome_iff_exists.1 ((Dict.isSome_iff _ _).2 hv)
  have shapes : ∀ v ∈ given, v ∉ added → v ∈ ["prec", "t_min", "t_max", "wind"] := by decide
  have w1 := hf.within
  have w2 := hf.within'
  have fd := e.filed hi hsrc hc
  have fd' : Filed ⟨i', whole', mask'.dims, c'⟩ (sharedOf w su) n' (inputOf e'.ld c') := hs ▸ e'.filed hi' hsrc' hc'
  have hw := fun rest hrest => window_of (rest := rest) (j := jobOfSetup w su i e.ld n freq os) (j' := jobOfSetup w' su' i' e'.ld n' freq' os')
    fd fd' hf hs rfl rfl rfl rfl hp.place hp'.place (regular_of hp (fun v hv ha => .inl (shapes v hv ha)) hsrc)
    (regular_of hp' (fun v hv ha => .inl (shapes v hv ha)) hsrc') (by decide) (by decide) hrest
  have hw' : SameWindow extremes (if v = "tskc" then clouded else given) (jobOfSetup w su i e.ld n freq os)
      (jobOfSetup w' su' i' e'.ld n' freq' os') c c' a b := by
    by_cases hk : v = "tskc"
    · rw [if_pos hk]
      exact hw ["dtr", "smoothed_dtr"] (range_alike fd fd' (by omega) (by omega) hf.date (hcloud hk))
    · rw [if_neg hk]
      have := hw [] (fun _ h => by simp at h)
      rwa [List.append_nil] at this
  obtain ⟨val, val', r1, r2, r3⟩ := C106_mtclim _ _ e.sane e'.sane fuel fuel' order order' e.schedule e'.schedule e.files e'.files e.run e'.run
    hsub hloc hm hsp hcl c c' hcomp hcomp' (hso hp) (hso' hp') (e.columns hi hsrc hc) (e'.columns hi' hsrc' hc') a b v u hw' hu hkind
  intro m hm
  refine ⟨_, e.disk v hv c val r1 a (by omega) m hm, ?_⟩
  have := e'.disk v (by have := hv; rw [hs] at this; exact this) c' val' r2 b (by omega) m (by rw [← hs]; exact hm)
  rw [← (r3 m hm).2, ← hs, ← minute_date hf.date] at this
  exact this

end

end Verif.Props
