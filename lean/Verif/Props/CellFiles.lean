import Verif.Props.FilesOverlap
import Verif.Props.Dependence

/-!
# C140: what is on disk for a cell depends only on what the files tell about that cell
-/

namespace Verif.Props

open Dataset ConfigRead Main Flt

/-! ### Columns have no more than the days of the run -/

/-- Nothing after the last day. -/
def Short (n : Nat) (col : Methods.Col) : Prop := ∀ k, n ≤ k → col k = nan

theorem short_colOf {n : Nat} {l : List (Flt ℝ)} (h : l.length ≤ n) : Short n (Cell.colOf l) := by
  intro k hk
  unfold Cell.colOf
  rw [List.getD_eq_getElem?_getD, List.getElem?_eq_none (by omega)]
  rfl

theorem short_set {n : Nat} {f : Methods.Frame} {v : String} {col : Methods.Col} (hf : ∀ k c, Dict.get? f k = some c → Short n c) (hc : Short n col) :
    ∀ k c, Dict.get? (Dict.set f v col) k = some c → Short n c := by
  intro k c h
  rw [Dict.get?_set] at h
  split_ifs at h
  · exact Option.some.inj h ▸ hc
  · exact hf k c h

theorem short_sets {n : Nat} {more : List (String × List (Flt ℝ))} (hm : ∀ q ∈ more, q.2.length ≤ n) {f : Methods.Frame}
    (hf : ∀ k c, Dict.get? f k = some c → Short n c) :
    ∀ k c, Dict.get? (more.foldl (fun f q => Dict.set f q.1 (Cell.colOf q.2)) f) k = some c → Short n c := by
  induction more generalizing f with
  | nil => exact hf
  | cons q l ih =>
    rw [List.foldl_cons]
    exact ih (fun r hr => hm r (List.mem_cons_of_mem _ hr)) (short_set hf (short_colOf (hm q List.mem_cons_self)))

theorem convertMonthly_length {table : Dict Int (Flt ℝ)} {months : List Nat} {prec r : List (Flt ℝ)}
    (h : State.convertMonthly table months prec = .ok r) : r.length ≤ prec.length := by
  unfold State.convertMonthly at h
  have key : ∀ (l : List Nat) (cur r : List (Flt ℝ)), l.foldlM (fun (cur : List (Flt ℝ)) (m : Nat) => do
      let param ← table.get (m : Int)
      pure (List.zipWith (fun mo x => if mo = m then param else x) months cur)) cur = Except.ok r → r.length ≤ cur.length := by
    intro l
    induction l with
    | nil => intro cur r h; rw [List.foldlM_nil, pure_ok] at h; rw [h]
    | cons a l ih =>
      intro cur r h
      rw [List.foldlM_cons, bind_ok] at h
      obtain ⟨y, h1, h2⟩ := h
      rw [bind_ok] at h1
      obtain ⟨p, -, h1⟩ := h1
      rw [pure_ok] at h1
      have := ih _ _ h2
      rw [← h1, List.length_zipWith] at this
      omega
  exact key _ _ _ h

section
variable {i : Worker.Inputs} {s : Cell.Shared} {w : Worker.Loads} {n : Nat} (hi : Worker.Sound i) (hw : Worker.load i s [] = .ok w)
  (hfit : Worker.Fit w) (hd : Dated i w n)
include hi hw hfit hd

theorem frame_short {c : Run.Cell} {x : Run.CellIn Cell.Data ℝ} (hx : Worker.cellIn w c = .ok x) :
    ∀ v col, Dict.get? x.data.frame v = some col → Short n col := by
  have hlen : (w.met.labels "time").length = n := by rw [force_days hi hw hfit hd]; simp
  have hdays : w.days.length = n := by rw [C90_days hi hw hfit hd]; simp [simDays]
  obtain ⟨met0, st, -, -, -, -, ⟨new, hnew, hmo, record, -, hagg⟩, -⟩ := load_reads hi hw hfit
  obtain ⟨hsz, -⟩ := force_daily hi hw hfit hd hnew
  obtain ⟨-, -, -, eagg⟩ := Worker.aggregateState_ok.1 hagg
  unfold Worker.cellIn at hx
  simp only [bind_ok] at hx
  obtain ⟨lat, q1, lon, q2, elev, q3, more, q4, hx⟩ := hx
  rw [pure_ok] at hx
  subst hx
  have hmore : ∀ q ∈ more, q.2.length ≤ n := by
    unfold Worker.monthlies at hmo
    split_ifs at hmo
    · simp only [bind_ok, pure_ok] at hmo
      obtain ⟨dur, m1, tPk, m2, e⟩ := hmo
      rw [← e] at q4
      simp only [bind_ok, pure_ok] at q4
      obtain ⟨a, a1, b, b1, rfl⟩ := q4
      have len : ∀ {v : String} {f : Run.Cell → Except PyErr (List (Flt ℝ))} {r : List (Flt ℝ)},
          Worker.monthly w.dom w.mask.dims w.days (fun c => (new c).prec) v = .ok f → f c = .ok r → r.length ≤ n := by
        intro v f r hf hr
        unfold Worker.monthly at hf
        rw [bind_ok] at hf
        obtain ⟨arr, -, hf⟩ := hf
        simp only [bind, Except.bind, pure, Except.pure, throw, throwThe, MonadExceptOf.throw] at hf
        split_ifs at hf
        simp only [Except.ok.injEq] at hf
        rw [← hf] at hr
        have := convertMonthly_length hr
        rwa [(hsz c).1] at this
      intro q hq
      simp only [List.mem_cons, List.not_mem_nil, or_false] at hq
      rcases hq with rfl | rfl
      exacts [len m1 a1, len m2 b1]
    · rw [pure_ok] at hmo
      rw [← hmo, pure_ok] at q4
      subst q4
      simp
  have e1 : (w.agg c).seasonalPrec.length ≤ n := by
    rw [← eagg]; simp [State.aggregateCell, State.onto, hdays]
  have e2 : (w.agg c).dtr.length ≤ n := by
    rw [← eagg]; simp [State.aggregateCell, State.range, (hsz c).2.1, (hsz c).2.2]
  have e3 : (w.agg c).smoothedDtr.length ≤ n := by
    rw [← eagg]; simp [State.aggregateCell, State.onto, hdays]
  refine short_sets hmore (short_set (short_set (short_set ?_ (short_colOf e1)) (short_colOf e2)) (short_colOf e3))
  intro k col hk
  have := (Dict.get?_mapVal w.met.vars (fun _ a => Cell.colOf (Worker.along w.mask.dims (w.met.labels "time").length a c)) k).symm.trans hk
  obtain ⟨a, -, rfl⟩ := Option.map_eq_some_iff.1 this
  exact short_colOf (by simp [Worker.along, hlen])

end

theorem column_of_alike {n : Nat} {f f' : Methods.Frame} {v : String} (hn : 0 < n) (h1 : ∀ col, Dict.get? f v = some col → Short n col)
    (h2 : ∀ col, Dict.get? f' v = some col → Short n col) (h : ∀ k < n, (Dict.get? f v).map (· k) = (Dict.get? f' v).map (· k)) :
    Dict.get? f v = Dict.get? f' v := by
  cases e : Dict.get? f v with
  | none =>
    have := h 0 hn
    rw [e] at this
    cases e' : Dict.get? f' v with
    | none => rfl
    | some col => rw [e'] at this; cases this
  | some col =>
    cases e' : Dict.get? f' v with
    | none =>
      have := h 0 hn
      rw [e, e'] at this
      cases this
    | some col' =>
      congr 1
      funext k
      by_cases hk : k < n
      · have := h k hk
        rw [e, e'] at this
        exact Option.some.inj this
      · rw [h1 _ e k (by omega), h2 _ e' k (by omega)]

/-! ### What the files have to agree on -/

/-- The columns that are averages or differences of what the files tell. -/
def reckoned : List String := ["dtr", "smoothed_dtr", "seasonal_prec"]

/-- The variables lie on the dimensions of the mask, and places are told by the domain alone. -/
structure Laid (names : List String) (p : Site) : Prop where
  place : ∀ v ∈ ["elev", "lat", "lon"], v ∉ p.i.constants.map Prod.fst ∧ (∀ u, p.i.names.get? u ≠ some v) ∧
    ∀ a, p.dom.vars.get? v = some a → ∀ d ∈ a.dims, d ∈ p.mdims
  regular : Regular names p

/-- The files of two runs of `n` days tell the same about two cells, as far as is needed. -/
structure ToldFor (s : Cell.Shared) (utc : Bool) (need : Needs) (p p' : Site) (n : Nat) : Prop where
  start : p.i.start = p'.i.start
  days : ∀ k < n, ToldAlike s (need.columns.filter (· ∉ reckoned)) p p' (p.i.start + k)
  range : "dtr" ∈ need.columns ∨ "smoothed_dtr" ∈ need.columns →
    ∀ d, p.i.start - 30 < d → d < p.i.start + n → ToldAlike s ["t_min", "t_max"] p p' d
  season : "seasonal_prec" ∈ need.columns → ∀ d, p.i.start - 90 < d → d < p.i.start + n → ToldAlike s ["prec"] p p' d
  before : need.state = true → ToldAlike s ["t_min", "t_max"] p p' (p.i.start - 1)
  lat : need.lat = true → Agree (PlaceAt p.i p.dom p.mdims p.cell "lat") (PlaceAt p'.i p'.dom p'.mdims p'.cell "lat")
  elev : need.elev = true → Agree (PlaceAt p.i p.dom p.mdims p.cell "elev") (PlaceAt p'.i p'.dom p'.mdims p'.cell "elev")
  lon : utc = true → Agree (PlaceAt p.i p.dom p.mdims p.cell "lon") (PlaceAt p'.i p'.dom p'.mdims p'.cell "lon")

section
variable {w w' : World} {su su' : Setup} {i i' : Worker.Inputs} {n : Nat} {freq freq' : Option Times.Freq}
  {os os' : List (String × String)} {whole whole' : DS ℝ} {mask mask' : Arr ℝ} {dir dir' : Nc.Dir}
  {order order' : List (Dict String Chunk.Slice)} {fuel fuel' : Nat}

theorem same_inputs (e : Ended w su i whole mask n freq os order fuel dir) (e' : Ended w' su' i' whole' mask' n freq' os' order' fuel' dir')
    (hi : Worker.Sound i) (hi' : Worker.Sound i') (hsrc : Sources i (sharedOf w su) whole mask n)
    (hsrc' : Sources i' (sharedOf w' su') whole' mask' n) (hs : sharedOf w su = sharedOf w' su') {c c' : Run.Cell} (hc : Active whole mask c)
    (hc' : Active whole' mask' c') {need : Needs} {utc : Bool} (hl : Laid (need.columns.filter (· ∉ reckoned)) ⟨i, whole, mask.dims, c⟩)
    (hl' : Laid (need.columns.filter (· ∉ reckoned)) ⟨i', whole', mask'.dims, c'⟩)
    (hadd : ∀ k ∈ need.columns, k ∉ reckoned → k ∈ added → k ∈ ["dur", "t_pk"])
    (ht : ToldFor (sharedOf w su) utc need ⟨i, whole, mask.dims, c⟩ ⟨i', whole', mask'.dims, c'⟩ n) :
    SameFor utc need (inputOf e.ld c) (inputOf e'.ld c') := by
  obtain ⟨hfit, hd, hsrc1, hcell⟩ := e.cell hi hsrc
  obtain ⟨hfit', hd', hsrc1', hcell'⟩ := e'.cell hi' hsrc'
  obtain ⟨-, hpos, hx, -⟩ := hcell c hc
  obtain ⟨-, hpos', hx', -⟩ := hcell' c' hc'
  have fd := e.filed hi hsrc hc
  have fd' : Filed ⟨i', whole', mask'.dims, c'⟩ (sharedOf w su) n (inputOf e'.ld c') := hs ▸ e'.filed hi' hsrc' hc'
  have sh := frame_short hi e.load hfit hd hx
  have sh' := frame_short hi' e'.load hfit' hd' hx'
  have hst : i.start = i'.start := ht.start
  obtain ⟨l1, l2, l3⟩ := fd.place hl.place
  obtain ⟨l1', l2', l3'⟩ := fd'.place hl'.place
  refine ⟨fun k hk => ?_, fun h => ht.lat h _ _ l2 l2', fun h => ht.elev h _ _ l1 l1', fun h => ?_, fun h => ht.lon h _ _ l3 l3'⟩
  · refine column_of_alike hsrc.pos (sh k) (sh' k) fun a ha => ?_
    by_cases hder : k ∈ reckoned
    · have hr : "dtr" ∈ need.columns ∨ "smoothed_dtr" ∈ need.columns → AlikeAt ["dtr", "smoothed_dtr"] (inputOf e.ld c).data.frame
          (inputOf e'.ld c').data.frame a a := fun h =>
        range_alike fd fd' ha ha (by show i.start + (a : Int) = i'.start + a; rw [hst]) fun d h1 h2 => by
          have h1 : i.start + (a : Int) - 30 < d := h1
          have h2 : d ≤ i.start + (a : Int) := h2
          exact ht.range h d (by show i.start - 30 < d; omega) (by show d < i.start + n; omega)
      simp only [reckoned, List.mem_cons, List.not_mem_nil, or_false] at hder
      rcases hder with rfl | rfl | rfl
      · exact hr (.inl hk) _ (by simp)
      · exact hr (.inr hk) _ (by simp)
      · obtain ⟨prec, tmin, tmax, p1, p2, -, seasonal, smoothed, range, q1, -, -, q4⟩ := C90_windows hi e.load hfit hd hpos hx
        obtain ⟨prec', tmin', tmax', p1', p2', -, seasonal', smoothed', range', q1', -, -, q4'⟩ :=
          C90_windows hi' e'.load hfit' hd' hpos' hx'
        rw [e.domain, e.grid] at p1 p2
        rw [e'.domain, e'.grid] at p1' p2'
        have told : ∀ d, i.start - 90 ≤ d → d < i.start + n → DayTold i whole mask.dims c "prec" d (prec d) := by
          intro d h1 h2
          unfold DayTold
          by_cases hlt : d < i.start
          · rw [if_pos hlt]
            have := (p1 (d - (i.start - 90)).toNat (by omega)).1
            rwa [show i.start - 90 + ((d - (i.start - 90)).toNat : Int) = d by omega] at this
          · rw [if_neg hlt]
            have := (p2 (d - i.start).toNat (by omega)).1
            rwa [show i.start + ((d - i.start).toNat : Int) = d by omega] at this
        have told' : ∀ d, i.start - 90 ≤ d → d < i.start + n → DayTold i' whole' mask'.dims c' "prec" d (prec' d) := by
          intro d h1 h2
          unfold DayTold
          by_cases hlt : d < i'.start
          · rw [if_pos hlt]
            have := (p1' (d - (i'.start - 90)).toNat (by omega)).1
            rwa [show i'.start - 90 + ((d - (i'.start - 90)).toNat : Int) = d by omega] at this
          · rw [if_neg hlt]
            have := (p2' (d - i'.start).toNat (by omega)).1
            rwa [show i'.start + ((d - i'.start).toNat : Int) = d by omega] at this
        rw [q1, q1']
        simp only [Option.map_some]
        rw [(q4 a ha).1, (q4' a ha).1, ← hst]
        unfold trailingMean
        congr 3
        refine List.map_congr_left fun j hj => ?_
        rw [List.mem_range] at hj
        have hb : i.start - 90 < i.start + (a : Int) - (90 : ℕ) + 1 + (j : Int) := by push_cast; omega
        have hb' : i.start + (a : Int) - (90 : ℕ) + 1 + (j : Int) < i.start + n := by push_cast; omega
        exact (ht.season hk _ hb hb' "prec" (by simp)).1 (by simp) _ _ (told _ hb.le hb') (told' _ hb.le hb')
    · exact told_alike fd fd' ha ha hl.regular hl'.regular (by show i.start + (a : Int) = i'.start + a; rw [hst]) (ht.days a ha)
        (fun v hv hva => by
          obtain ⟨h1, h2⟩ := List.mem_filter.1 hv
          exact hadd v h1 (by simpa using h2) hva) k (List.mem_filter.2 ⟨hk, by simpa using hder⟩)
  · have hb := ht.before h
    obtain ⟨b1, b2⟩ := fd.before
    obtain ⟨b1', b2'⟩ := fd'.before
    have e2 : i'.start - 1 = i.start - 1 := by rw [hst]
    have b1' : DayTold i' whole' mask'.dims c' "t_min" (i'.start - 1) _ := b1'
    have b2' : DayTold i' whole' mask'.dims c' "t_max" (i'.start - 1) _ := b2'
    rw [e2] at b1' b2'
    exact Prod.ext ((hb "t_min" (by simp)).1 (by simp) _ _ b1 b1') ((hb "t_max" (by simp)).1 (by simp) _ _ b2 b2')

end

/-- What a variable is to be computed from, by the length of the steps. -/
def needsOf (s : Cell.Shared) (v : String) : Needs :=
  if s.ts < 1440 then needs s.method s.precType v else needsDaily s.method v

/-- What is told to tell a variable by, apart from averages and differences. -/
def toldOf (s : Cell.Shared) (v : String) : List String := (needsOf s v).columns.filter (· ∉ reckoned)

theorem own_of {l : List String} (h : ∀ k ∈ ["day_of_year", "elev", "lat", "lon"], k ∉ l) :
    ∀ k ∈ l, k ∉ reckoned → k ∈ added → k ∈ ["dur", "t_pk"] := by
  intro k hk hr ha
  have : k ∈ ["dur", "t_pk"] ∨ k ∈ ["day_of_year", "elev", "lat", "lon"] := by
    have : ∀ k ∈ added, k ∉ reckoned → k ∈ ["dur", "t_pk"] ∨ k ∈ ["day_of_year", "elev", "lat", "lon"] := by decide
    exact this k ha hr
  exact this.resolve_right fun h' => h k h' hk

theorem needs_own (m : Cell.Method) (pt v : String) : ∀ k ∈ (needs m pt v).columns, k ∉ reckoned → k ∈ added → k ∈ ["dur", "t_pk"] := by
  refine own_of ?_
  unfold needs
  split <;> cases m <;> simp [vapourFrom, cloudFrom, precFrom] <;> split_ifs <;> simp

theorem needsDaily_own (m : Cell.Method) {v u : String} (hv : Convertible v u) :
    ∀ k ∈ (needsDaily m v).columns, k ∉ reckoned → k ∈ added → k ∈ ["dur", "t_pk"] := by
  refine own_of ?_
  obtain ⟨x, -, y, -⟩ := hv
  have hv : v ∉ ["day_of_year", "elev", "lat", "lon"] := by
    intro h
    simp only [List.mem_cons, List.not_mem_nil, or_false] at h
    rcases h with rfl | rfl | rfl | rfl <;> simp [Units.converters, Dict.get?_cons] at y
  unfold needsDaily
  split <;> cases m <;> simp [vapourFrom, cloudFrom]
  all_goals
    simp only [List.mem_cons, List.not_mem_nil, or_false, not_or] at hv
    exact ⟨Ne.symm hv.1, Ne.symm hv.2.1, Ne.symm hv.2.2.1, Ne.symm hv.2.2.2⟩

section
variable {w w' : World} {su su' : Setup} {i i' : Worker.Inputs} {n : Nat} {freq freq' : Option Times.Freq}
  {os os' : List (String × String)} {whole whole' : DS ℝ} {mask mask' : Arr ℝ} {dir dir' : Nc.Dir}

/-- **C140**: what two runs of the same length leave on disk for two cells is the same for a variable, if their files tell the same of what the
variable is computed from about the two cells: whatever else there is in the domains. -/
theorem C140_disk (h : Left w su i whole mask n freq os dir) (h' : Left w' su' i' whole' mask' n freq' os' dir')
    (hs : sharedOf w su = sharedOf w' su') {c c' : Run.Cell} (hc : Active whole mask c) (hc' : Active whole' mask' c') {v : String}
    (hv : v ∈ (sharedOf w su).outVars.keys)
    (hl : Laid (toldOf (sharedOf w su) v) ⟨i, whole, mask.dims, c⟩) (hl' : Laid (toldOf (sharedOf w su) v) ⟨i', whole', mask'.dims, c'⟩)
    (ht : ToldFor (sharedOf w su) (sharedOf w su).utcOffset (needsOf (sharedOf w su) v) ⟨i, whole, mask.dims, c⟩ ⟨i', whole', mask'.dims, c'⟩ n)
    {a : Nat} (ha : a < n) : SameOnDisk w w' su su' i i' n n freq freq' os os' dir dir' c c' v a := by
  obtain ⟨order, fuel, ⟨e⟩, hi, hsrc⟩ := h.ended
  obtain ⟨order', fuel', ⟨e'⟩, hi', hsrc'⟩ := h'.ended
  obtain ⟨-, -, -, hcell⟩ := e.cell hi hsrc
  obtain ⟨-, -, -, hcell'⟩ := e'.cell hi' hsrc'
  obtain ⟨hcomp, -, hx, -⟩ := hcell c hc
  obtain ⟨hcomp', -, hx', -⟩ := hcell' c' hc'
  obtain ⟨u, hu⟩ := Option.isSome_iff_exists.1 ((Dict.isSome_iff _ _).2 hv)
  have hv' : v ∈ (sharedOf w' su').outVars.keys := hs ▸ hv
  have hst : i.start = i'.start := ht.start
  have hd0 : (jobOfSetup w su i e.ld n freq os).d0 = (jobOfSetup w' su' i' e'.ld n freq' os').d0 := by
    show i.start - _ = i'.start - _
    rw [hst]
  have hrec : ∀ {j : Job} (hj : j.Sane) {fuel : Nat} {order : List (Dict String Chunk.Slice)} (ho : j.Schedule order) {files : Run.Files Cell.Output}
      (hrun : j.run fuel order = .ok files) {c : Run.Cell} (hc : j.Computed c) (hv : v ∈ j.shared.outVars.keys), ∃ val, Recorded j files v c val := by
    intro j hj fuel order ho files hrun c hc hv
    obtain ⟨st, h1, h2, -⟩ := (C70_files j hj fuel order ho).2 files hrun
    obtain ⟨r, -, -, h3⟩ := h2 c hc
    obtain ⟨val, -, h4⟩ := h3 v hv
    exact ⟨val, st, h1, h4⟩
  obtain ⟨val, hval⟩ := hrec e.sane e.schedule e.run hcomp hv
  obtain ⟨val', hval'⟩ := hrec e'.sane e'.schedule e'.run hcomp' hv'
  intro m hm
  have hjs : (jobOfSetup w su i e.ld n freq os).shared = (jobOfSetup w' su' i' e'.ld n freq' os').shared := hs
  have hstamp : ∀ k m, (jobOfSetup w su i e.ld n freq os).stamp k m = (jobOfSetup w' su' i' e'.ld n freq' os').stamp k m := by
    intro k m
    unfold Job.stamp
    rw [hjs, hd0]
  have key : val ((jobOfSetup w su i e.ld n freq os).stamp a m) = val' ((jobOfSetup w su i e.ld n freq os).stamp a m) := by
    by_cases hts : (sharedOf w su).ts < 1440
    · have hn : needsOf (sharedOf w su) v = needs (sharedOf w su).method (sharedOf w su).precType v := if_pos hts
      refine C112_depends _ _ e.sane e'.sane hs hd0 rfl fuel fuel' order order' e.schedule e'.schedule e.files e'.files e.run e'.run hts c c'
        hcomp hcomp' v u hu ?_ val val' hval hval' a m ha hm
      unfold toldOf at hl hl'
      rw [hn] at hl hl' ht
      exact same_inputs e e' hi hi' hsrc hsrc' hs hc hc' hl hl' (needs_own _ _ _) ht
    · have hn : needsOf (sharedOf w su) v = needsDaily (sharedOf w su).method v := if_neg hts
      have hle : (sharedOf w su).ts ≤ 1440 := Nat.le_of_dvd (by decide) e.sane.step.2
      have hday : (sharedOf w su).ts = 1440 := by omega
      obtain rfl : m = 0 := by rw [hday] at hm; omega
      refine C112_daily _ _ e.sane e'.sane hs hd0 rfl fuel fuel' order order' e.schedule e'.schedule e.files e'.files e.run e'.run hday c c'
        hcomp hcomp' v u hu ?_ val val' hval hval' a ha
      obtain ⟨-, -, -, -, -, -, -, rep, -, hcol⟩ := written_daily _ e.sane e.schedule e.run hday hcomp
      obtain ⟨col, wr, a1, a2, a3⟩ := hcol v u hu
      have hcv := convert_iff.1 ⟨_, a3 a ha⟩
      unfold toldOf at hl hl'
      rw [hn] at hl hl' ht
      refine same_inputs e e' hi hi' hsrc hsrc' hs hc hc' hl hl' (needsDaily_own _ hcv) { ht with lon := fun h => by cases h }
  refine ⟨_, e.disk v hv c val hval a ha m hm, ?_⟩
  have := e'.disk v hv' c' val' hval' a ha m (by rw [← hs]; exact hm)
  rw [← hstamp, ← key] at this
  have em : minute (sharedOf w' su') i'.start a m = minute (sharedOf w su) i.start a m := by rw [hs, hst]
  rw [em] at this
  exact this

end

/-! ### A cell of another domain -/

/-- Two runs from the same day read the same forcing, the same state and the same constants, for cells of the same labels; their domains tell the
same about the place of the cells, and about storms if storms are asked for. -/
structure SameCell (s : Cell.Shared) (p p' : Site) : Prop where
  start : p'.i.start = p.i.start
  forcing : p'.i.forcing = p.i.forcing
  names : p'.i.names = p.i.names
  constants : p'.i.constants = p.i.constants
  stateFile : p'.i.stateFile = p.i.stateFile
  stateNames : p'.i.stateNames = p.i.stateNames
  labels : ∀ d ∈ p.mdims, cellLabel p'.dom p'.mdims p'.cell d = cellLabel p.dom p.mdims p.cell d
  place : ∀ v ∈ ["elev", "lat", "lon"], Agree (PlaceAt p.i p.dom p.mdims p.cell v) (PlaceAt p'.i p'.dom p'.mdims p'.cell v)
  months : Storms s → ∀ v ∈ ["dur", "t_pk"], ∀ m : ℕ,
    Agree (DomTold p.i p.dom p.mdims p.cell m v) (DomTold p'.i p'.dom p'.mdims p'.cell m v)

theorem told_move {file : DS ℝ} {names : Dict String String} {dom dom' : DS ℝ} {mdims mdims' : List String} {c c' : Run.Cell} {v : String}
    {day : Int} (hs : Shaped file names mdims v) (hl : ∀ d ∈ mdims, cellLabel dom' mdims' c' d = cellLabel dom mdims c d) {x : Flt ℝ}
    (h : Told file names dom' mdims' c' v day x) : Told file names dom mdims c v day x := by
  obtain ⟨u, raw, h1, h2, a, ix, ha, hix, rfl⟩ := h
  refine ⟨u, raw, h1, h2, a, ix, ha, fun d hd => ?_, rfl⟩
  have := hix d hd
  by_cases htm : newName names d = "time"
  · simp only [if_pos htm] at this ⊢
    exact this
  · simp only [if_neg htm] at this ⊢
    rw [this, hl _ (((hs u a h1 ha).2 d hd).resolve_left htm)]

section
variable {i i' : Worker.Inputs} {s : Cell.Shared} {whole whole' : DS ℝ} {mask mask' : Arr ℝ} {n : Nat} {c c' : Run.Cell}
  (hi : Worker.Sound i) (hsrc : Sources i s whole mask n) (hu : Unequivocal s i)
  (h : SameCell s ⟨i, whole, mask.dims, c⟩ ⟨i', whole', mask'.dims, c'⟩)
include hi hsrc h

theorem day_moved {v : String} (hv : v ∈ ["prec", "t_min", "t_max"]) {d : Int} (h1 : i.start - 90 ≤ d) (h2 : d < i.start + n) :
    Agree (DayTold i whole mask.dims c v d) (DayTold i' whole' mask'.dims c' v d) := by
  intro x y hx hy
  refine dayTold_unique hi hsrc hv c h1 h2 x y hx ?_
  have e1 : i'.start = i.start := h.start
  have e2 : i'.forcing = i.forcing := h.forcing
  have e3 : i'.names = i.names := h.names
  have e4 : i'.stateFile = i.stateFile := h.stateFile
  have e5 : i'.stateNames = i.stateNames := h.stateNames
  unfold DayTold at hy ⊢
  rw [e1, e2, e3, e4, e5] at hy
  by_cases hlt : d < i.start
  · rw [if_pos hlt] at hy ⊢
    exact told_move (hsrc.pastShape v hv) h.labels hy
  · rw [if_neg hlt] at hy ⊢
    exact told_move (hsrc.forceShape v hv) h.labels hy

include hu

theorem told_moved {names : List String} (hr : Regular names ⟨i, whole, mask.dims, c⟩) {k : Nat} (hk : k < n) :
    ToldAlike s names ⟨i, whole, mask.dims, c⟩ ⟨i', whole', mask'.dims, c'⟩ (i.start + k) := by
  have e1 : i'.start = i.start := h.start
  have e2 : i'.forcing = i.forcing := h.forcing
  have e3 : i'.names = i.names := h.names
  have e6 : i'.constants = i.constants := h.constants
  have hp : ∀ v, Provided i' v ↔ Provided i v := by
    intro v; unfold Provided; rw [e6, e3]
  intro v hv
  refine ⟨fun h1 => day_moved hi hsrc h h1 (by show i.start - 90 ≤ i.start + (k : Int); omega) (by show i.start + (k : Int) < i.start + n; omega),
    fun h1 => ⟨fun h2 => ?_, fun h2 => ?_⟩, fun h1 h2 => ⟨(hp v).symm, ?_⟩⟩
  · show Agree (MonthValue i whole mask.dims c v (i.start + k)) (MonthValue i' whole' mask'.dims c' v (i.start + k))
    unfold MonthValue
    by_cases hm : (Cal.monthDay (i.start + k)).1 = 12
    · simp only [if_pos hm, e2, e3]
      intro x y hx hy
      exact forcing_unique hi hsrc (hsrc.forceShape "prec" (by simp)) c hk x y hx (told_move (hsrc.forceShape "prec" (by simp)) h.labels hy)
    · simp only [if_neg hm]
      exact h.months h2 v h1 _
  · show ¬ Provided i v ∧ ¬ Provided i' v
    rw [hp]
    have := hu.storms h2
    simp only [List.mem_cons, List.not_mem_nil, or_false] at h1
    rcases h1 with rfl | rfl
    exacts [⟨this.1, this.1⟩, ⟨this.2, this.2⟩]
  · show Agree (GivenFor i whole mask.dims c v (i.start + k)) (GivenFor i' whole' mask'.dims c' v (i.start + k))
    intro x y hx hy
    refine givenFor_unique hi hsrc hu (hr.1 v hv h1) c hk x y hx ?_
    unfold GivenFor at hy ⊢
    rw [e6, e2, e3] at hy
    rcases hy with hy | ⟨h3, h4⟩
    · exact .inl hy
    · exact .inr ⟨h3, told_move (hr.1 v hv h1 h3) h.labels h4⟩

/-- Then the files tell the same of whatever is needed. -/
theorem SameCell.told {need : Needs} (utc : Bool) (hpos : 0 < n) (hr : Regular (need.columns.filter (· ∉ reckoned)) ⟨i, whole, mask.dims, c⟩) :
    ToldFor s utc need ⟨i, whole, mask.dims, c⟩ ⟨i', whole', mask'.dims, c'⟩ n := by
  have three : ∀ {names : List String} {d : Int}, (∀ v ∈ names, v ∈ ["prec", "t_min", "t_max"] ∧ v ∉ ["dur", "t_pk"]) → i.start - 90 ≤ d →
      d < i.start + n → ToldAlike s names ⟨i, whole, mask.dims, c⟩ ⟨i', whole', mask'.dims, c'⟩ d := by
    intro names d hn h1 h2 v hv
    exact ⟨fun h3 => day_moved hi hsrc h h3 h1 h2, fun h3 => absurd h3 (hn v hv).2, fun _ h3 => absurd (hn v hv).1 h3⟩
  refine ⟨h.start.symm, fun k hk => told_moved hi hsrc hu h hr hk, fun _ d h1 h2 => three (by decide) ?_ h2,
    fun _ d h1 h2 => three (by decide) ?_ h2, fun _ => three (by decide) ?_ ?_, fun _ => h.place _ (by simp), fun _ => h.place _ (by simp),
    fun _ => h.place _ (by simp)⟩
  · have h1 : i.start - 30 < d := h1
    omega
  · have h1 : i.start - 90 < d := h1
    omega
  · show i.start - 90 ≤ i.start - 1
    omega
  · show i.start - 1 < i.start + n
    omega

end

section
variable {w w' : World} {su su' : Setup} {i i' : Worker.Inputs} {n : Nat} {freq freq' : Option Times.Freq}
  {os os' : List (String × String)} {whole whole' : DS ℝ} {mask mask' : Arr ℝ} {dir dir' : Nc.Dir}

/-- **C140**: a cell that two domains have in common gets the same values, whichever domain it is computed in. -/
theorem C140_elsewhere (h : Left w su i whole mask n freq os dir) (h' : Left w' su' i' whole' mask' n freq' os' dir')
    (hs : sharedOf w su = sharedOf w' su') (hu : Unequivocal (sharedOf w su) i) {c c' : Run.Cell} (hc : Active whole mask c)
    (hc' : Active whole' mask' c') (hcell : SameCell (sharedOf w su) ⟨i, whole, mask.dims, c⟩ ⟨i', whole', mask'.dims, c'⟩) {v : String}
    (hv : v ∈ (sharedOf w su).outVars.keys)
    (hl : Laid (toldOf (sharedOf w su) v) ⟨i, whole, mask.dims, c⟩) (hl' : Laid (toldOf (sharedOf w su) v) ⟨i', whole', mask'.dims, c'⟩)
    {a : Nat} (ha : a < n) : SameOnDisk w w' su su' i i' n n freq freq' os os' dir dir' c c' v a := by
  obtain ⟨-, -, -, hi, hsrc⟩ := h.ended
  exact C140_disk h h' hs hc hc' hv hl hl' (hcell.told hi hsrc hu _ hsrc.pos hl.regular) ha

end

end Verif.Props
