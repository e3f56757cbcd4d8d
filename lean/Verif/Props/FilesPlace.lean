import Verif.Props.FilesCell

/-!
# C90: where a cell lies and how its storms last, in terms of the domain file
-/

namespace Verif.Props

open Dataset Worker Flt

/-- The domain file tells for variable `v`, at the cell's labels (and `month` where the variable has months), the value `x`. -/
def DomTold (i : Inputs) (dom : DS ℝ) (mdims : List String) (c : Run.Cell) (month : ℚ) (v : String) (x : Flt ℝ) : Prop :=
  ∃ u, i.domNames.get? u = some v ∧ i.domFile.Says u
    (fun d => if newName i.domNames d = "month" then month else cellLabel dom mdims c (newName i.domNames d)) x

section
variable {i : Inputs} {s : Cell.Shared} {w : Loads} (hi : Sound i) (hw : load i s [] = .ok w) (hfit : Fit w)
include hi hw hfit

theorem load_domain : readDomain i.domFile (some i.domNames) [] = .ok w.dom ∧ w.dom.Wf ∧
    (∀ d ∈ w.mask.dims, (w.dom.sizes.get? d).isSome) := by
  obtain ⟨met0, st, hl, -⟩ := load_reads hi hw hfit
  obtain ⟨wf, -, -⟩ := whole_ok hi.domFile hi.domNames hl.readsWhole
  exact ⟨hl.readsWhole, wf, hl.mask⟩

theorem dom_tells {c : Run.Cell} (hc : c ∈ positions w.dom w.mask.dims) {v : String} {a : Arr ℝ} (ha : w.dom.vars.get? v = some a)
    (hdims : ∀ d ∈ a.dims, d = "month" ∨ d ∈ w.mask.dims) {month : ℚ} {j : Nat}
    (hj : "month" ∈ a.dims → (w.dom.labels "month")[j]? = some month) :
    DomTold i w.dom w.mask.dims c month v (a.val ((cellIndex w.mask.dims c).set "month" j)) := by
  obtain ⟨hdom, wf, hm⟩ := load_domain hi hw hfit
  obtain ⟨-, -, h2⟩ := whole_ok hi.domFile hi.domNames hdom
  have key : w.dom.Says v (fun d => if d = "month" then month else cellLabel w.dom w.mask.dims c d)
      (a.val ((cellIndex w.mask.dims c).set "month" j)) := by
    refine ⟨a, (cellIndex w.mask.dims c).set "month" j, ha, fun d hd => ?_, rfl⟩
    by_cases e : d = "month"
    · subst e
      simp only [if_true, Index.set]
      exact hj hd
    · simp only [if_neg e, Index.set]
      have hdm := (hdims d hd).resolve_left e
      have hlt := cellIndex_lt hc hdm
      obtain ⟨N, hN⟩ := Option.isSome_iff_exists.1 (hm d hdm)
      rw [hN] at hlt
      have hlen : cellIndex w.mask.dims c d < (w.dom.labels d).length := by rw [wf.labels_length hN]; exact hlt
      unfold cellLabel
      rw [List.getD, List.getElem?_eq_getElem hlen]; rfl
  exact h2 v _ _ hfit.time key

/-- Elevation, latitude and longitude as they are given: a variable of the domain over (some of) the mask's dimensions, or one
of those dimensions that forcing and mask share. -/
def Placed (w : Loads) (v : String) : Prop :=
  (∃ a, w.dom.vars.get? v = some a ∧ ∀ d ∈ a.dims, d ∈ w.mask.dims) ∨
    w.dom.vars.get? v = none ∧ v ∈ w.mask.dims ∧ (w.met.sizes.get? v).isSome ∧ w.met.vars.get? v = none

/-- What the domain gives for a cell: the value of the variable at the cell's labels, or the label itself. -/
def PlaceAt (i : Inputs) (whole : DS ℝ) (mdims : List String) (c : Run.Cell) (v : String) (x : Flt ℝ) : Prop :=
  (whole.vars.get? v ≠ none → DomTold i whole mdims c 0 v x) ∧
    (whole.vars.get? v = none → x = .fin ((cellLabel whole mdims c v : ℚ) : ℝ))

/-- What the domain a run has loaded gives for a cell. -/
abbrev PlaceOf (i : Inputs) (w : Loads) (c : Run.Cell) (v : String) (x : Flt ℝ) : Prop := PlaceAt i w.dom w.mask.dims c v x

/-- The cells that are to be computed. -/
def Active (whole : DS ℝ) (mask : Arr ℝ) (c : Run.Cell) : Prop :=
  c ∈ positions whole mask.dims ∧ ∃ x, mask.val (cellIndex mask.dims c) = .fin x ∧ 0 < x

theorem scalar_place (hco : (force i).Countable w.dom) {v : String} (hv : v = "elev" ∨ v = "lat" ∨ v = "lon")
    (hk : v ∉ i.constants.map Prod.fst) (hp : Placed w v) {c : Run.Cell} (hc : c ∈ positions w.dom w.mask.dims) {x : Flt ℝ}
    (hx : w.met.scalar w.mask.dims c v = .ok x) : PlaceOf i w c v x := by
  obtain ⟨hdom, wf, hm⟩ := load_domain hi hw hfit
  obtain ⟨met0, st, hl, hcs, -⟩ := load_reads hi hw hfit
  obtain ⟨c1, c2, c3⟩ := withConstants_ok hcs
  obtain ⟨hcell, hglob⟩ := whole_cell hc
  have hsc : met0.scalar w.mask.dims c v = .ok x := by
    rw [← hx]
    unfold DS.scalar
    rw [c3 v hk, labels_congr c1 c2]
  have := C86_place ⟨hi.domFile, hi.forcing, hi.domNames, hi.names⟩ hco hl hfit.distinct hv
    (by rw [← c3 v hk, ← c1]; exact hp) hcell
  rw [hglob, hsc] at this
  unfold DS.scalar at this
  cases ha : w.dom.vars.get? v with
  | some a =>
    rw [ha] at this
    refine ⟨fun _ => ?_, fun h => by rw [ha] at h; cases h⟩
    obtain rfl := Except.ok.inj this
    rcases hp with ⟨a', ha', had⟩ | ⟨h, -⟩
    swap
    · rw [ha] at h; cases h
    rw [ha] at ha'
    cases ha'
    have hnm : "month" ∉ a.dims := fun h => hfit.month (had _ h)
    have key := dom_tells (month := 0) hi hw hfit hc (j := 0) ha (fun d hd => .inr (had d hd)) (fun h => absurd h hnm)
    have e : a.val ((cellIndex w.mask.dims c).set "month" 0) = a.val (cellIndex w.mask.dims c) := by
      refine wf.own _ _ ha _ _ fun d hd => ?_
      have : d ≠ "month" := fun h => hnm (h ▸ hd)
      simp [Index.set, this]
    rwa [e] at key
  | none =>
    rw [ha] at this
    refine ⟨fun h => absurd ha h, fun _ => ?_⟩
    simp only at this
    split at this
    · rename_i y hy
      rw [Except.ok.inj this]
      unfold cellLabel
      rw [List.getD, hy]; rfl
    · simp at this

/-- **C90**: elevation, latitude and longitude a cell is computed with are those of the domain file at the cell's labels. -/
theorem C90_place (hco : (force i).Countable w.dom) (hk : ∀ v ∈ ["elev", "lat", "lon"], v ∉ i.constants.map Prod.fst)
    (hp : ∀ v ∈ ["elev", "lat", "lon"], Placed w v) {c : Run.Cell} (hc : c ∈ positions w.dom w.mask.dims)
    {x : Run.CellIn Cell.Data ℝ} (hx : cellIn w c = .ok x) :
    PlaceOf i w c "elev" x.elev ∧ PlaceOf i w c "lat" x.lat ∧ PlaceOf i w c "lon" x.lon := by
  unfold cellIn at hx
  simp only [bind_ok] at hx
  obtain ⟨lat, q1, lon, q2, elev, q3, more, q4, hx⟩ := hx
  rw [pure_ok] at hx
  subst hx
  exact ⟨scalar_place hi hw hfit hco (by simp) (hk _ (by simp)) (hp _ (by simp)) hc q3,
    scalar_place hi hw hfit hco (by simp) (hk _ (by simp)) (hp _ (by simp)) hc q1,
    scalar_place hi hw hfit hco (by simp) (hk _ (by simp)) (hp _ (by simp)) hc q2⟩

/-- The value a monthly parameter has on day `d`: the domain's for the number of the month, but in December the day's
precipitation. -/
def MonthValue (i : Inputs) (dom : DS ℝ) (mdims : List String) (c : Run.Cell) (v : String) (d : Int) (x : Flt ℝ) : Prop :=
  if (Cal.monthDay d).1 = 12 then Told i.forcing i.names dom mdims c "prec" d x
  else DomTold i dom mdims c ((Cal.monthDay d).1 : ℕ) v x

theorem monthly_value {n : Nat} (hd : Dated i w n) {new : Run.Cell → State.Daily ℝ} (hnew : dailies w.met w.mask.dims = .ok new)
    {v : String} (hdims : ∀ a, w.dom.vars.get? v = some a → ∀ d ∈ a.dims, d = "month" ∨ d ∈ w.mask.dims)
    {f : Run.Cell → Except PyErr (List (Flt ℝ))} (hf : monthly w.dom w.mask.dims w.days (fun c => (new c).prec) v = .ok f)
    {c : Run.Cell} (hc : c ∈ positions w.dom w.mask.dims) {r : List (Flt ℝ)} (hr : f c = .ok r) :
    ∀ k < n, MonthValue i w.dom w.mask.dims c v (i.start + k) (Cell.colOf r k) := by
  obtain ⟨f1, f2⟩ := force_daily hi hw hfit hd hnew
  have hdays := C90_days hi hw hfit hd
  unfold monthly at hf
  rw [bind_ok] at hf
  obtain ⟨a, ha, hf⟩ := hf
  rw [Dict.get_ok] at ha
  simp only [bind, Except.bind, pure, Except.pure, throw, throwThe, MonadExceptOf.throw] at hf
  by_cases h1 : "month" ∈ a.dims
  swap
  · simp [h1] at hf
  simp only [h1, not_true_eq_false, if_false] at hf
  split at hf
  · simp at hf
  rename_i h2
  simp only [Except.ok.injEq] at hf
  subst hf
  have hall : ∀ m : Nat, m < 12 → (m : ℚ) ∈ w.dom.labels "month" := by
    intro m hm
    by_contra hno
    exact h2 (List.any_eq_true.2 ⟨m, List.mem_range.2 hm, by simpa using hno⟩)
  have htab : ∀ m : Nat, m < 12 → (Worker.monthTable w.dom w.mask.dims a c).get? (m : Int) =
      some (a.val ((cellIndex w.mask.dims c).set "month" ((w.dom.labels "month").idxOf (m : ℚ)))) := by
    have e : Worker.monthTable w.dom w.mask.dims a c = (List.range 12).map fun (m : Nat) =>
        ((m : Int), a.val ((cellIndex w.mask.dims c).set "month" ((w.dom.labels "month").idxOf (m : ℚ)))) := by
      unfold Worker.monthTable
      rw [← List.filterMap_eq_map]
      apply List.filterMap_congr
      intro m hm
      exact if_pos (hall m (List.mem_range.1 hm))
    intro m hm
    rw [e]
    interval_cases m <;> rfl
  simp only at hr
  rw [C35_monthly_partial _ _ htab w.days _ (by rw [(f1 c).1, hdays]; simp [simDays])] at hr
  obtain rfl := Except.ok.inj hr
  intro k hk
  have hdk : w.days[k]? = some (i.start + k) := by
    rw [hdays]; unfold simDays
    rw [List.getElem?_map, List.getElem?_range hk]; rfl
  have hpk : (new c).prec[k]? = some ((new c).prec[k]'(by rw [(f1 c).1]; exact hk)) := List.getElem?_eq_getElem _
  unfold MonthValue Cell.colOf
  rw [List.getD, List.getElem?_zipWith, hdk, hpk]
  have hb := Cal.month_bounds (i.start + k)
  by_cases e : (Cal.monthDay (i.start + k)).1 = 12
  · rw [if_pos e]
    simp only [Option.getD_some, if_pos e]
    have := (f2 c hc k hk).1
    rw [hpk] at this
    exact this
  · rw [if_neg e]
    simp only [Option.getD_some, if_neg e]
    refine dom_tells hi hw hfit hc ha (hdims a ha) fun _ => ?_
    have hin := hall (Cal.monthDay (i.start + k)).1 (by omega)
    rw [List.getElem?_eq_getElem (List.idxOf_lt_length_of_mem hin), List.getElem_idxOf]

/-- **C90**: with triangular precipitation, the duration and the time of the peak a cell is computed with are, on a day of the
months January to November, those the domain file gives for the month labelled with the month's number; in December both
are the precipitation of the day. -/
theorem C90_storms {n : Nat} (hd : Dated i w n) (hpt : Lw.upperS s.precType = "TRIANGLE" ∨ Lw.upperS s.precType = "MIX")
    (hdims : ∀ v ∈ ["dur", "t_pk"], ∀ a, w.dom.vars.get? v = some a → ∀ d ∈ a.dims, d = "month" ∨ d ∈ w.mask.dims)
    {c : Run.Cell} (hc : c ∈ positions w.dom w.mask.dims) {x : Run.CellIn Cell.Data ℝ} (hx : cellIn w c = .ok x) :
    ∃ dur tPk, Dict.get? x.data.frame "dur" = some dur ∧ Dict.get? x.data.frame "t_pk" = some tPk ∧
      ∀ k < n, MonthValue i w.dom w.mask.dims c "dur" (i.start + k) (dur k) ∧ MonthValue i w.dom w.mask.dims c "t_pk" (i.start + k) (tPk k) := by
  obtain ⟨met0, st, -, -, -, -, ⟨new, hnew, hmo, -⟩, -⟩ := load_reads hi hw hfit
  unfold cellIn at hx
  simp only [bind_ok] at hx
  obtain ⟨lat, q1, lon, q2, elev, q3, more, q4, hx⟩ := hx
  rw [pure_ok] at hx
  subst hx
  unfold monthlies at hmo
  rw [if_pos hpt] at hmo
  simp only [bind_ok, pure_ok] at hmo
  obtain ⟨f, hf, g, hg, e⟩ := hmo
  rw [← e] at q4
  simp only [bind_ok, pure_ok] at q4
  obtain ⟨r, hr, r', hr', rfl⟩ := q4
  refine ⟨Cell.colOf r, Cell.colOf r', ?_, ?_, fun k hk =>
    ⟨monthly_value hi hw hfit hd hnew (hdims _ (by simp)) hf hc hr k hk,
      monthly_value hi hw hfit hd hnew (hdims _ (by simp)) hg hc hr' k hk⟩⟩
  · show Dict.get? (Dict.set (Dict.set _ _ _) _ _) _ = _
    rw [Dict.get?_set_ne _ _ (by simp), Dict.get?_set_self]
  · show Dict.get? (Dict.set (Dict.set _ _ _) _ _) _ = _
    rw [Dict.get?_set_self]

end

/-- Complete files place their cells: elevation, latitude and longitude neither read from the forcing nor constants, and over
dimensions of the mask where they are variables of the domain. -/
theorem placed_of {i : Inputs} {s : Cell.Shared} {w : Loads} {n : Nat} (hi : Sound i) (hw : load i s [] = .ok w) (hfit : Fit w)
    (h : Sources i s w.dom w.mask n) {v : String} (hv : v ∈ ["elev", "lat", "lon"]) (hk : v ∉ i.constants.map Prod.fst)
    (hn : ∀ u, i.names.get? u ≠ some v) (hdims : ∀ a, w.dom.vars.get? v = some a → ∀ d ∈ a.dims, d ∈ w.mask.dims) : Placed w v := by
  cases ha : w.dom.vars.get? v with
  | some a => exact .inl ⟨a, ha, hdims a ha⟩
  | none =>
    obtain ⟨met0, st, hl, hcs, -⟩ := load_reads hi hw hfit
    obtain ⟨c1, c2, c3⟩ := withConstants_ok hcs
    obtain ⟨r, m1, m2, hr, a1, a2, a3, l1, l2, rlab, rsz, rvars⟩ := hl.parts
    have pf : (Props.force i).Proper := ⟨hi.domFile, hi.forcing, hi.domNames, hi.names⟩
    obtain ⟨wf, -, -⟩ := whole_ok hi.domFile hi.domNames h.dom
    obtain ⟨d₀, ps, -, -, -, -, rwf, rdom, -, rdims⟩ := hl.read pf (h.force.countable wf) hr
    rcases h.place v hv with hp | ⟨hp, u, b, d, hu, hb, hd, hdv⟩
    · rw [ha] at hp; simp at hp
    have hrv : r.vars.get? v = none := by
      cases hrv : r.vars.get? v with
      | none => rfl
      | some arr =>
        have hne : v ≠ "day_of_year" := by rintro rfl; simp at hv
        obtain ⟨u', b', hu', -⟩ := rdims v arr hne hrv
        exact absurd hu' (hn u')
    have keep : ∀ {name : String} {x y : DS ℝ}, x.assignFrom w.dom name = .ok y → x.vars.get? v = none → y.vars.get? v = none := by
      intro name x y hxy hx
      by_cases e : name = v
      · subst e
        unfold DS.assignFrom at hxy
        rw [ha] at hxy
        simp only at hxy
        split at hxy
        · obtain rfl := Except.ok.inj hxy; exact hx
        · simp at hxy
      · obtain ⟨-, -, hv'⟩ := assignFrom_ok hxy
        rw [hv' v (Ne.symm e)]; exact hx
    have hmv : w.met.vars.get? v = none := by rw [c3 v hk]; exact keep a3 (keep a2 (keep a1 hrv))
    refine .inr ⟨ha, hp, ?_, hmv⟩
    have htm : ∃ a, r.vars.get? "t_min" = some a := Option.isSome_iff_exists.1
      (readNetcdf_has hi.forcing hi.names hu (by decide) hr (h.force.vars u (Dict.mem_keys_of_get? _ hu)))
    obtain ⟨aL, haL⟩ := htm
    obtain ⟨u', b', hu', hb', hdims'⟩ := rdims "t_min" aL (by decide) haL
    have huu : u' = u := by
      refine h.force.fresh u' u (.inl (Dict.mem_keys_of_get? _ hu')) (.inl (Dict.mem_keys_of_get? _ hu)) ?_
      have e1 : newName i.names u' = "t_min" := by
        unfold newName
        have hu'' : i.names.get? u' = some "t_min" := hu'
        rw [hu'']; rfl
      have e2 : newName i.names u = "t_min" := by unfold newName; rw [hu]; rfl
      exact e1.trans e2.symm
    subst huu
    have hbb : b' = b := by
      have hb'' : i.forcing.vars.get? u' = some b' := hb'
      rw [hb] at hb''
      exact (Option.some.inj hb'').symm
    subst hbb
    have hin : v ∈ aL.dims := by
      rw [hdims', List.mem_map]; exact ⟨d, hd, hdv⟩
    rw [c1, rsz]
    exact rwf.var_dims _ _ haL v hin

/-- **C90**: a run that gets through has been given a forcing file with a stamp on the first and one on the last day asked for,
whether or not there is a chunk to compute. -/
theorem C90_period {i : Inputs} {s : Cell.Shared} {o : Output} {fuel : Nat} {order : List (Dict String Chunk.Slice)}
    {files : Run.Files Cell.Output} (hi : Sound i) (hrun : runFiles fuel i s o order = .ok files) {whole : DS ℝ}
    (hdom : readDomain i.domFile (some i.domNames) [] = .ok whole) (ht : whole.sizes.get? "time" = none)
    (hco : (force i).Countable whole)
    (hs : ∀ d, newName i.names d = "time" → ((i.forcing.labels d).map fileDay).Pairwise (· ≤ ·)) :
    i.start ≤ i.stop ∧ ∃ d a b, newName i.names d = "time" ∧ a ∈ i.forcing.labels d ∧ b ∈ i.forcing.labels d ∧
      fileDay a = ((i.start - epoch : Int) : ℚ) ∧ fileDay b = ((i.stop - epoch : Int) : ℚ) := by
  unfold runFiles at hrun
  simp only [bind_ok] at hrun
  obtain ⟨dom, h1, met0, h2, met, h3, u, h4, -⟩ := hrun
  rw [hdom] at h1
  obtain rfl := Except.ok.inj h1
  obtain ⟨c1, c2, -⟩ := withConstants_ok h3
  have hl : Loaded (force i) .netcdf [] whole [] whole met0 := ⟨hdom, hdom, h2, by simp, ht, List.nodup_nil, by simp⟩
  obtain ⟨d, hd, hlab⟩ := C86_days ⟨hi.domFile, hi.forcing, hi.domNames, hi.names⟩ hco hl hs
  have hmem : ∀ x ∈ daysOf met, ∃ a ∈ i.forcing.labels d, fileDay a = ((x - epoch : Int) : ℚ) ∧ i.start ≤ x ∧ x ≤ i.stop := by
    intro x hx
    unfold daysOf at hx
    rw [labels_congr c1 c2, hlab] at hx
    obtain ⟨t, ht, rfl⟩ := List.mem_map.1 hx
    obtain ⟨ht, hp⟩ := List.mem_filter.1 ht
    obtain ⟨a, ha, rfl⟩ := List.mem_map.1 ht
    rw [Bool.and_eq_true, decide_eq_true_eq, decide_eq_true_eq, ← fileDay_floor a] at hp
    have p1 : ((i.start - epoch : Int) : ℚ) ≤ ((⌊fileDay a⌋ : Int) : ℚ) := hp.1
    have p2 : ((⌊fileDay a⌋ : Int) : ℚ) ≤ ((i.stop - epoch : Int) : ℚ) := hp.2
    have e1 : i.start - epoch ≤ ⌊fileDay a⌋ := by exact_mod_cast p1
    have e2 : ⌊fileDay a⌋ ≤ i.stop - epoch := by exact_mod_cast p2
    refine ⟨a, ha, ?_, by omega, by omega⟩
    rw [← fileDay_floor a, add_sub_cancel_right]
    simp
  unfold checkPeriod at h4
  split at h4
  · rename_i x y hx hy
    split at h4
    · rename_i hb
      obtain ⟨a, ha, ea, a1, a2⟩ := hmem x (List.mem_of_mem_head? hx)
      obtain ⟨b, hb', eb, b1, b2⟩ := hmem y (List.mem_of_getLast? hy)
      obtain rfl : x = i.start := by omega
      obtain rfl : y = i.stop := by omega
      exact ⟨by omega, d, a, b, hd, ha, hb', ea, eb⟩
    · simp at h4
  · simp at h4

namespace FilesExample

/-- The second row of the example lies at 44 degrees north, 120 degrees west, and 100 m high. -/
example : ∃ w, load inputs (demo .passthrough).shared [] = .ok w ∧ ∃ x, cellIn w [1, 0] = .ok x ∧
    x.lat = .fin ((44 : ℚ) : ℝ) ∧ x.lon = .fin ((-120 : ℚ) : ℝ) ∧
    DomTold inputs domFile ["lat", "lon"] [1, 0] 0 "elev" x.elev := by
  have hsrc := sources (demo .passthrough).shared (by unfold demo; decide) rfl
  obtain ⟨w, h1, h2, h3, hfit, hd, hcell⟩ := C90_loads sound hsrc
  have hc : [1, 0] ∈ positions domFile ["lat", "lon"] := by decide
  obtain ⟨x, hx⟩ := hcell [1, 0] hc
  refine ⟨w, h1, x, hx, ?_⟩
  have hm : w.mask.dims = ["lat", "lon"] := by rw [h3]
  have hk : ∀ v ∈ ["elev", "lat", "lon"], v ∉ inputs.constants.map Prod.fst := by
    show ∀ v ∈ ["elev", "lat", "lon"], v ∉ ["wind"]
    decide
  have hpl : ∀ v ∈ ["elev", "lat", "lon"], Placed w v := by
    intro v hv
    refine placed_of (n := 2) sound h1 hfit (by rw [h2, h3]; exact hsrc) hv (hk v hv) ?_ ?_
    · intro u hu
      have := Dict.mem_of_get? _ hu
      simp only [inputs, names, List.mem_cons, List.not_mem_nil, or_false, Prod.mk.injEq] at this hv
      rcases this with ⟨-, rfl⟩ | ⟨-, rfl⟩ | ⟨-, rfl⟩ <;> simp at hv
    · rw [h2, hm]
      intro a ha
      have := Dict.mem_of_get? _ ha
      simp only [domFile, List.mem_cons, List.not_mem_nil, or_false, Prod.mk.injEq] at this
      rcases this with ⟨-, rfl⟩ | ⟨-, rfl⟩ <;> simp
  obtain ⟨e, la, lo⟩ := C90_place sound h1 hfit hd.forceCount hk hpl (by rw [h2, hm]; exact hc) hx
  refine ⟨?_, ?_, ?_⟩
  · have := la.2 (by rw [h2]; rfl)
    rw [h2, hm] at this
    exact this
  · have := lo.2 (by rw [h2]; rfl)
    rw [h2, hm] at this
    exact this
  · have := e.1 (by rw [h2]; simp [domFile, Dict.get?_cons])
    rw [h2, hm] at this
    exact this

end FilesExample
end Verif.Props
