import Verif.Props.FilesPlace
import Verif.Props.Physical

/-!
# Plausible files

What a run is given for a cell, in terms of its files: a variable has the constant of the configuration or what the forcing
file tells, and if all that the files tell about a cell is plausible, so is the record the cell is computed from.
-/

namespace Verif.Props

open Dataset Worker Flt

/-- What the files tell about a day: the state file about the days before the first, the forcing file about the others. -/
def DayTold (i : Inputs) (dom : DS ℝ) (mdims : List String) (c : Run.Cell) (v : String) (d : Int) (x : Flt ℝ) : Prop :=
  if d < i.start then Told i.stateFile i.stateNames dom mdims c v d x else Told i.forcing i.names dom mdims c v d x

/-- What a run is given for a variable on a day: the constant if there is one, else what the forcing file tells. -/
def GivenFor (i : Inputs) (dom : DS ℝ) (mdims : List String) (c : Run.Cell) (v : String) (d : Int) (x : Flt ℝ) : Prop :=
  (∃ r, (v, r) ∈ i.constants ∧ x = fin r) ∨ v ∉ i.constants.map Prod.fst ∧ Told i.forcing i.names dom mdims c v d x

theorem foldl_set_last {α β : Type} (f : α → β) : ∀ (more : List (String × α)) (d : Dict String β) (v : String),
    v ∈ more.map Prod.fst → ∃ a, (v, a) ∈ more ∧ Dict.get? (more.foldl (fun d q => Dict.set d q.1 (f q.2)) d) v = some (f a)
  | [], _, _, h => by simp at h
  | q :: more, d, v, h => by
    by_cases hm : v ∈ more.map Prod.fst
    · obtain ⟨a, h1, h2⟩ := foldl_set_last f more (Dict.set d q.1 (f q.2)) v hm
      exact ⟨a, List.mem_cons_of_mem _ h1, h2⟩
    · rw [List.map_cons, List.mem_cons] at h
      obtain rfl := h.resolve_right hm
      refine ⟨q.2, List.mem_cons_self, ?_⟩
      rw [List.foldl_cons, foldl_set_get? f more _ _ hm, Dict.get?_set_self]

theorem withConstants_val {met0 met : DS ℝ} {consts : Dict String ℝ} (h : withConstants met0 consts = .ok met) {v : String}
    (hv : v ∈ consts.map Prod.fst) : ∃ dims r, (v, r) ∈ consts ∧ met.vars.get? v = some ⟨dims, fun _ => fin r⟩ := by
  unfold withConstants at h
  cases consts with
  | nil => simp at hv
  | cons p ps =>
    simp only at h
    split at h
    · simp at h
    · obtain rfl := Except.ok.inj h
      rename_i t _ _
      obtain ⟨r, h1, h2⟩ := foldl_set_last (fun x => (⟨t.dims, fun _ => .fin x⟩ : Arr ℝ)) (p :: ps) _ v hv
      exact ⟨t.dims, r, h1, h2⟩

section
variable {i : Inputs} {s : Cell.Shared} {w : Loads} {n : Nat} (hi : Worker.Sound i) (hw : load i s [] = .ok w) (hfit : Fit w)
  (hd : Dated i w n)
include hi hw hfit hd

/-- A column of a cell's input holds what the run is given for the variable. -/
theorem frame_given {c : Run.Cell} (hc : c ∈ positions w.dom w.mask.dims) {x : Run.CellIn Cell.Data ℝ} (hx : cellIn w c = .ok x)
    {v : String} (hv : v ∉ added) (hshape : v ∉ i.constants.map Prod.fst → Shaped i.forcing i.names w.mask.dims v)
    {col : Methods.Col} (hcol : Dict.get? x.data.frame v = some col) {k : Nat} (hk : k < n) :
    GivenFor i w.dom w.mask.dims c v (i.start + k) (col k) := by
  by_cases hcon : v ∈ i.constants.map Prod.fst
  · obtain ⟨met0, st, hl, hcs, -⟩ := load_reads hi hw hfit
    obtain ⟨dims, r, h1, h2⟩ := withConstants_val hcs hcon
    rw [frame_series hi hw hfit hx hv, h2] at hcol
    obtain rfl := Option.some.inj hcol
    refine Or.inl ⟨r, h1, ?_⟩
    have hlen : (w.met.labels "time").length = n := by rw [force_days hi hw hfit hd]; simp
    unfold Cell.colOf along
    simp only [hlen, List.getD_eq_getElem?_getD, List.getElem?_map, List.getElem?_range hk]
    rfl
  · refine Or.inr ⟨hcon, C89_forcing hi hw hfit hd.forceCount hc hx hv hcon (hshape hcon) hcol k _ ?_⟩
    rw [C90_days hi hw hfit hd]
    unfold simDays
    rw [List.getElem?_map, List.getElem?_range hk]; rfl

/-- The columns a cell has, besides those that are added: the constants and the variables of the forcing. -/
theorem frame_has (h : Sources i s w.dom w.mask n) {c : Run.Cell} {x : Run.CellIn Cell.Data ℝ} (hx : cellIn w c = .ok x)
    {v : String} (hv : v ∉ added) :
    Dict.get? x.data.frame v ≠ none ↔ v ∈ i.constants.map Prod.fst ∨ ∃ u, i.names.get? u = some v := by
  obtain ⟨met0, st, hl, hcs, -⟩ := load_reads hi hw hfit
  obtain ⟨c1, c2, c3⟩ := withConstants_ok hcs
  obtain ⟨r, m1, m2, hr, a1, a2, a3, l1, l2, rlab, rsz, rvars⟩ := hl.parts
  have pf : (Props.force i).Proper := ⟨hi.domFile, hi.forcing, hi.domNames, hi.names⟩
  obtain ⟨d₀, ps, -, -, -, -, rwf, rdom, -, rdims⟩ := hl.read pf hd.forceCount hr
  have hv' := hv
  simp only [added, List.mem_cons, List.not_mem_nil, or_false, not_or] at hv'
  obtain ⟨e0, e1, e2, e3, -⟩ := hv'
  rw [frame_series hi hw hfit hx hv, Ne, Option.map_eq_none_iff]
  by_cases hcon : v ∈ i.constants.map Prod.fst
  · obtain ⟨dims, q, -, h2⟩ := withConstants_val hcs hcon
    rw [h2]
    simp [hcon]
  · rw [c3 v hcon, rvars v e1 e2 e3]
    constructor
    · intro h'
      obtain ⟨arr, ha⟩ := Option.ne_none_iff_exists'.1 h'
      obtain ⟨u, b, hu, -⟩ := rdims v arr e0 ha
      exact Or.inr ⟨u, hu⟩
    · rintro (h' | ⟨u, hu⟩)
      · exact absurd h' hcon
      · exact Option.isSome_iff_ne_none.1 (readNetcdf_has hi.forcing hi.names hu e0 hr (h.force.vars u (Dict.mem_keys_of_get? _ hu)))

end

/-- Everything the files tell about a cell is plausible: it lies on the earth, not above 8000 m; the temperatures of the simulated days
and of the ninety days before are between -60 and 60 degrees; rain and wind are not negative; the storms touch the day. The forcing
brings no longwave radiation. -/
structure PlausibleFiles (i : Inputs) (s : Cell.Shared) (dom : DS ℝ) (mdims : List String) (n : Nat) (c : Run.Cell) : Prop where
  lapse : 0 < s.lapseRate ∧ s.lapseRate ≤ 0.0065
  fraction : 2 / 3 ≤ s.tmaxFraction ∧ s.tmaxFraction ≤ 1
  place : ∀ v ∈ ["elev", "lat", "lon"], v ∉ i.constants.map Prod.fst ∧ (∀ u, i.names.get? u ≠ some v) ∧
    ∀ a, dom.vars.get? v = some a → ∀ d ∈ a.dims, d ∈ mdims
  elev : ∀ x, PlaceAt i dom mdims c "elev" (fin x) → x ≤ 8000
  lat : ∀ x, PlaceAt i dom mdims c "lat" (fin x) → |x| ≤ 90
  lon : ∀ x, PlaceAt i dom mdims c "lon" (fin x) → s.utcOffset = false ∨ |Disagg.remainder360 x - s.thetaS| < 180
  temps : ∀ v ∈ ["t_min", "t_max"], ∀ d, i.start - 90 ≤ d → d < i.start + n → ∀ x, DayTold i dom mdims c v d x →
    ∃ r, x = fin r ∧ -60 ≤ r ∧ r ≤ 60
  rain : ∀ d, i.start - 90 ≤ d → d < i.start + n → ∀ x, DayTold i dom mdims c "prec" d x → ∃ r, x = fin r ∧ 0 ≤ r
  wind : ∀ k < n, ∀ x, GivenFor i dom mdims c "wind" (i.start + k) x → ∃ r, x = fin r ∧ 0 ≤ r
  windShape : "wind" ∉ i.constants.map Prod.fst → Shaped i.forcing i.names mdims "wind"
  longwave : "longwave" ∉ i.constants.map Prod.fst ∧ ∀ u, i.names.get? u ≠ some "longwave"
  stormDims : ∀ v ∈ ["dur", "t_pk"], ∀ a, dom.vars.get? v = some a → ∀ d ∈ a.dims, d = "month" ∨ d ∈ mdims
  storms : Lw.upperS s.precType = "TRIANGLE" ∨ Lw.upperS s.precType = "MIX" → ∀ k < n,
    (Lw.upperS s.precType = "MIX" ∧ ∀ x, DayTold i dom mdims c "t_min" (i.start + k) (fin x) → x < 0) ∨
    ∀ x y, MonthValue i dom mdims c "dur" (i.start + k) x → MonthValue i dom mdims c "t_pk" (i.start + k) y →
      ∃ du tp, x = fin du ∧ y = fin tp ∧ HasWeight tp du

theorem trailing_fin {m : Nat} (hm : 0 < m) {f : Int → Flt ℝ} {d : Int} (h : ∀ e, d - m < e → e ≤ d → ∃ r, f e = fin r) :
    ∃ r, trailingMean m f d = fin r := by
  have := mean_isFin ((List.range m).map fun (j : Nat) => f (d - m + 1 + (j : Int))) (by simp; omega) (by
    intro y hy
    obtain ⟨j, hj, rfl⟩ := List.mem_map.1 hy
    rw [List.mem_range] at hj
    obtain ⟨r, hr⟩ := h (d - m + 1 + j) (by omega) (by omega)
    rw [hr]; rfl)
  unfold trailingMean
  cases hm' : Flt.mean ((List.range m).map fun (j : Nat) => f (d - m + 1 + (j : Int))) with
  | nan => rw [hm'] at this; cases this
  | fin r => exact ⟨r, rfl⟩

/-- **Plausible files**: the cell is computed from a plausible record. -/
theorem sound_of {i : Inputs} {s : Cell.Shared} {w : Loads} {n : Nat} (hi : Worker.Sound i) (hw : load i s [] = .ok w) (hfit : Fit w)
    (hd : Dated i w n) (h : Sources i s w.dom w.mask n) {c : Run.Cell} (hc : c ∈ positions w.dom w.mask.dims)
    {x : Run.CellIn Cell.Data ℝ} (hx : cellIn w c = .ok x) (hp : PlausibleFiles i s w.dom w.mask.dims n c) : Props.Sound s n x := by
  obtain ⟨prec, tmin, tmax, p1, p2, p3, seasonal, smoothed, range, q1, q2, q3, q4⟩ := C90_windows hi hw hfit hd hc hx
  obtain ⟨l1, l2, l3⟩ := C90_place hi hw hfit hd.forceCount (fun v hv => (hp.place v hv).1)
    (fun v hv => placed_of hi hw hfit h hv (hp.place v hv).1 (hp.place v hv).2.1 (hp.place v hv).2.2) hc hx
  have told : ∀ d, i.start - 90 ≤ d → d < i.start + n → DayTold i w.dom w.mask.dims c "prec" d (prec d) ∧
      DayTold i w.dom w.mask.dims c "t_min" d (tmin d) ∧ DayTold i w.dom w.mask.dims c "t_max" d (tmax d) := by
    intro d h1 h2
    unfold DayTold
    by_cases hlt : d < i.start
    · simp only [if_pos hlt]
      have := p1 (d - (i.start - 90)).toNat (by omega)
      rwa [show i.start - 90 + ((d - (i.start - 90)).toNat : Int) = d by omega] at this
    · simp only [if_neg hlt]
      have := p2 (d - i.start).toNat (by omega)
      rwa [show i.start + ((d - i.start).toNat : Int) = d by omega] at this
  have hT : ∀ d, i.start - 90 ≤ d → d < i.start + n → (∃ r, tmin d = fin r ∧ -60 ≤ r ∧ r ≤ 60) ∧ ∃ r, tmax d = fin r ∧ -60 ≤ r ∧ r ≤ 60 :=
    fun d h1 h2 => ⟨hp.temps _ (by simp) d h1 h2 _ (told d h1 h2).2.1, hp.temps _ (by simp) d h1 h2 _ (told d h1 h2).2.2⟩
  have hP : ∀ d, i.start - 90 ≤ d → d < i.start + n → ∃ r, prec d = fin r ∧ 0 ≤ r :=
    fun d h1 h2 => hp.rain d h1 h2 _ (told d h1 h2).1
  have given : ∀ v ∈ ["prec", "t_min", "t_max"], ∀ col, Dict.get? x.data.frame v = some col → ∀ k < n,
      DayTold i w.dom w.mask.dims c v (i.start + k) (col k) := by
    intro v hv col hcol k hk
    rcases frame_given hi hw hfit hd hc hx ((show ∀ v ∈ ["prec", "t_min", "t_max"], v ∉ added by decide) v hv)
      (fun _ => hd.forceShape v hv) hcol hk with ⟨r, hr, -⟩ | ⟨-, ht⟩
    · exact absurd (List.mem_map.2 ⟨_, hr, rfl⟩) (hd.free v hv)
    · unfold DayTold
      rw [if_neg (by omega)]
      exact ht
  refine ⟨fun r e => hp.elev r (e ▸ l1), fun r e => hp.lat r (e ▸ l2), fun r e => hp.lon r (e ▸ l3), hp.lapse, hp.fraction, ?_, ?_, ?_, ?_⟩
  · refine ⟨fun col hcol k hk => hp.temps _ (by simp) _ (by omega) (by omega) _ (given _ (by simp) col hcol k hk),
      fun col hcol k hk => hp.temps _ (by simp) _ (by omega) (by omega) _ (given _ (by simp) col hcol k hk), ?_, ?_,
      fun col hcol k hk => hp.rain _ (by omega) (by omega) _ (given _ (by simp) col hcol k hk), ?_, ?_, ?_⟩
    · intro col hcol k hk
      rw [q3] at hcol
      obtain rfl := Option.some.inj hcol
      obtain ⟨⟨a, ea, a1, a2⟩, b, eb, b1, b2⟩ := hT (i.start + k) (by omega) (by omega)
      have hwarm := h.warm c hc k hk _ _ (p2 k hk).2.1 (p2 k hk).2.2
      rw [(q4 k hk).2.2]
      rw [ea, eb] at hwarm ⊢
      rw [sub_fin] at hwarm ⊢
      have : 0 ≤ b - a := by
        by_contra hneg
        rw [Flt.lt_fin, decide_eq_true (not_le.1 hneg)] at hwarm
        cases hwarm
      exact ⟨_, rfl, this, by linarith⟩
    · intro col hcol k hk
      rw [q2] at hcol
      obtain rfl := Option.some.inj hcol
      rw [(q4 k hk).2.1]
      refine trailing_fin (by norm_num) fun e h1 h2 => ?_
      obtain ⟨⟨a, ea, -⟩, b, eb, -⟩ := hT e (by push_cast at h1; omega) (by omega)
      exact ⟨b - a, by rw [ea, eb, sub_fin]⟩
    · intro col hcol k hk
      rw [q1] at hcol
      obtain rfl := Option.some.inj hcol
      rw [(q4 k hk).1]
      obtain ⟨r, hr⟩ := trailing_fin (m := 90) (f := prec) (d := i.start + k) (by norm_num) fun e h1 h2 => by
        obtain ⟨a, ea, -⟩ := hP e (by push_cast at h1; omega) (by omega)
        exact ⟨a, ea⟩
      exact ⟨_, by rw [hr, mul_fin]⟩
    · intro col hcol k hk
      exact hp.wind k hk _ (frame_given hi hw hfit hd hc hx (by decide) hp.windShape hcol hk)
    · obtain ⟨⟨a, ea, a1, a2⟩, b, eb, b1, b2⟩ := hT (i.start - 1) (by omega) (by omega)
      exact ⟨a, b, by rw [p3, ea, eb], a1, a2, b1, b2⟩
  · intro k hk
    by_cases hpt : Lw.upperS s.precType = "TRIANGLE" ∨ Lw.upperS s.precType = "MIX"
    swap
    · exact Or.inl (not_or.1 hpt)
    · rcases hp.storms hpt k hk with ⟨hmix, hcold⟩ | hst
      · obtain ⟨col, hcol⟩ := Option.ne_none_iff_exists'.1 ((frame_has hi hw hfit hd h hx (v := "t_min") (by decide)).2
          (Or.inr (h.named "t_min" (by simp)).1))
        have ht := given "t_min" (by simp) col hcol k hk
        obtain ⟨r, hr, -⟩ := hp.temps _ (by simp) _ (by omega) (by omega) _ ht
        exact Or.inr (Or.inl ⟨hmix, col, r, hcol, hr, hcold r (hr ▸ ht)⟩)
      · obtain ⟨dur, tPk, d1, d2, d3⟩ := C90_storms hi hw hfit hd hpt hp.stormDims hc hx
        obtain ⟨du, tp, e1, e2, e3⟩ := hst _ _ (d3 k hk).1 (d3 k hk).2
        exact Or.inr (Or.inr ⟨tPk, dur, tp, du, d2, d1, e2, e1, e3⟩)
  · intro hpt
    obtain ⟨dur, tPk, d1, d2, -⟩ := C90_storms hi hw hfit hd hpt hp.stormDims hc hx
    exact ⟨by rw [d2]; simp, by rw [d1]; simp⟩
  · by_contra hne
    rcases (frame_has hi hw hfit hd h hx (v := "longwave") (by decide)).1 hne with h' | ⟨u, hu⟩
    · exact hp.longwave.1 h'
    · exact hp.longwave.2 u hu

end Verif.Props
