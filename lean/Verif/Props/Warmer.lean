import Verif.Props.Dependence

/-!
# Temperature keeps its shape

Interpolation between the daily extremes commutes with change of scale and origin: if every daily temperature is raised by the same
amount, so is every temperature written.
-/

namespace Verif.Props

open Flt Cell Methods Disaggregate Np Interp

section curve
variable {K : Type} [Field K] [LinearOrder K] [IsStrictOrderedRing K]

theorem sgn_mul_iff {a : K} (ha : a ≠ 0) (x y : K) : sgn (a * x) = sgn (a * y) ↔ sgn x = sgn y := by
  rcases lt_or_gt_of_ne ha with h | h
  · have h1 : ∀ z, 0 < a * z ↔ z < 0 := fun z =>
      ⟨fun hz => by by_contra hn; push Not at hn; nlinarith, fun hz => by nlinarith⟩
    have h2 : ∀ z, a * z < 0 ↔ 0 < z := fun z =>
      ⟨fun hz => by by_contra hn; push Not at hn; nlinarith, fun hz => by nlinarith⟩
    unfold sgn
    simp only [h1, h2]
    split_ifs <;> first | (exfalso; linarith) | simp
  · have h1 : ∀ z, 0 < a * z ↔ 0 < z := fun z =>
      ⟨fun hz => by by_contra hn; push Not at hn; nlinarith, fun hz => by nlinarith⟩
    have h2 : ∀ z, a * z < 0 ↔ z < 0 := fun z =>
      ⟨fun hz => by by_contra hn; push Not at hn; nlinarith, fun hz => by nlinarith⟩
    unfold sgn
    simp only [h1, h2]

theorem edge_mul {a : K} (ha : a ≠ 0) (h0 h1 m0 m1 : K) : edge h0 h1 (a * m0) (a * m1) = a * edge h0 h1 m0 m1 := by
  unfold edge
  have e : ((2 * h0 + h1) * (a * m0) - h0 * (a * m1)) / (h0 + h1) = a * (((2 * h0 + h1) * m0 - h0 * m1) / (h0 + h1)) := by ring
  simp only [e]
  generalize ((2 * h0 + h1) * m0 - h0 * m1) / (h0 + h1) = d
  have hp : 0 < |a| := abs_pos.2 ha
  have h3 : 3 * |a * m0| < |a * d| ↔ 3 * |m0| < |d| := by
    rw [abs_mul, abs_mul, show 3 * (|a| * |m0|) = |a| * (3 * |m0|) by ring]
    exact mul_lt_mul_iff_right₀ hp
  simp only [ne_eq, sgn_mul_iff ha, h3]
  split_ifs <;> ring

theorem inner_mul {a : K} (ha : a ≠ 0) (h0 h1 m0 m1 : K) : Interp.inner h0 h1 (a * m0) (a * m1) = a * Interp.inner h0 h1 m0 m1 := by
  unfold Interp.inner
  simp only [ne_eq, sgn_mul_iff ha, mul_eq_zero, ha, false_or]
  split_ifs with h
  · ring
  · push Not at h
    obtain ⟨-, h1', h0'⟩ := h
    have e : (2 * h1 + h0) / (a * m0) + (h1 + 2 * h0) / (a * m1) = a⁻¹ * ((2 * h1 + h0) / m0 + (h1 + 2 * h0) / m1) := by
      field_simp
    rw [e]
    rw [mul_div_assoc, one_div, mul_inv, inv_inv, one_div]

/-- Knots with other values. -/
def reValue (a b : K) (k : Knots K) : Knots K := ⟨k.n, k.x, fun i => a * k.y i + b⟩

theorem m_reValue (a b : K) (k : Knots K) (i : Nat) : (reValue a b k).m i = a * k.m i := by
  unfold Knots.m Knots.h reValue
  ring

theorem deriv_reValue (a b : K) (k : Knots K) (i : Nat) : Interp.deriv (reValue a b k) i = a * Interp.deriv k i := by
  by_cases ha : a = 0
  · subst ha
    have e0 : ∀ h0 h1 : K, edge h0 h1 0 0 = 0 := fun h0 h1 => by unfold edge; simp
    have i0 : ∀ h0 h1 : K, Interp.inner h0 h1 0 0 = 0 := fun h0 h1 => by unfold Interp.inner; simp
    unfold Interp.deriv
    simp only [m_reValue, zero_mul, e0, i0]
    split_ifs <;> rfl
  · unfold Interp.deriv
    simp only [m_reValue, edge_mul ha, inner_mul ha]
    rw [show (reValue a b k).n = k.n from rfl]
    rw [show (reValue a b k).h = k.h from rfl]
    split_ifs <;> rfl

theorem pchip_reValue (a b : K) (k : Knots K) (t : K) : pchip (reValue a b k) t = a * pchip k t + b := by
  unfold pchip
  rw [show segment (reValue a b k) t = segment k t from rfl]
  unfold hermite
  simp only [deriv_reValue, m_reValue]
  rw [show (reValue a b k).h = k.h from rfl, show (reValue a b k).x = k.x from rfl,
    show (reValue a b k).y = fun i => a * k.y i + b from rfl]
  ring

/-- A temperature on another scale. -/
def reScale (a b : K) (x : Flt K) : Flt K := fin a * x + fin b

theorem mkPchip_reScale (a b : K) (xs : List K) (ys : List (Flt K)) :
    mkPchip xs (ys.map (reScale a b)) = (mkPchip xs ys).map fun k =>
      ⟨k.n, k.x, fun i => if i < ys.length then a * k.y i + b else 0⟩ := by
  have hfin : (∀ y ∈ ys.map (reScale a b), isFin y = true) ↔ ∀ y ∈ ys, isFin y = true := by
    simp only [List.mem_map, forall_exists_index, and_imp, forall_apply_eq_imp_iff₂]
    refine forall₂_congr fun y _ => ?_
    cases y <;> simp [reScale]
  unfold mkPchip
  simp only [List.length_map, hfin]
  split_ifs with h
  · rfl
  · push Not at h
    simp only [Except.map, Except.ok.injEq, Knots.mk.injEq, true_and]
    funext i
    rw [List.getD_eq_getElem?_getD, List.getD_eq_getElem?_getD, List.getElem?_map]
    by_cases hi : i < ys.length
    · rw [List.getElem?_eq_getElem hi]
      have := h.2.2.2 ys[i] (List.getElem_mem hi)
      cases hy : ys[i] with
      | nan => rw [hy] at this; cases this
      | fin v => simp [reScale, hi]
    · rw [List.getElem?_eq_none (not_lt.1 hi)]
      simp [hi]

theorem pchip_congr {k k' : Knots K} (hn : k.n = k'.n) (hx : k.x = k'.x) (hy : ∀ i < k.n, k.y i = k'.y i) (h2 : 2 ≤ k.n) (t : K) :
    pchip k t = pchip k' t := by
  have hm : ∀ i, i + 1 < k.n → k.m i = k'.m i := fun i hi => by
    unfold Knots.m Knots.h
    rw [hy _ hi, hy _ (Nat.lt_of_succ_lt hi), hx]
  have hh : k.h = k'.h := by funext i; unfold Knots.h; rw [hx]
  have hd : ∀ i, i < k.n → Interp.deriv k i = Interp.deriv k' i := fun i hi => by
    unfold Interp.deriv
    rw [← hn, ← hh]
    split_ifs with h1 h3 h4
    · exact hm 0 (by omega)
    · rw [hm 0 (by omega), hm 1 (by omega)]
    · rw [hm _ (by omega), hm _ (by omega)]
    · rw [hm _ (by omega), hm _ (by omega)]
  have hs : segment k t = segment k' t := by unfold Interp.segment; rw [hn, hx]
  have hl : segment k t + 1 < k.n := by
    have : segment k t ≤ k.n - 2 := by
      unfold Interp.segment
      exact le_trans (List.length_filter_le _ _) (by rw [List.length_range])
    omega
  unfold pchip
  rw [← hs]
  unfold hermite
  rw [hd _ (by omega), hd _ hl, hm _ hl, hy _ (by omega), hx, hh]

/-- `temp` on another scale. -/
theorem temp_reScale (a b : K) (tMin tMax : List (Flt K)) (n : Nat) (times : List (K × K)) (ts : Nat) (tb : List (Flt K)) {out out' : List K}
    (h : Interp.temp tMin tMax n times ts (some tb) none = .ok out)
    (h' : Interp.temp (tMin.map (reScale a b)) (tMax.map (reScale a b)) n times ts (some (tb.map (reScale a b))) none = .ok out') :
    out' = out.map fun x => a * x + b := by
  unfold Interp.temp at h h'
  have e : knotValues (tMin.map (reScale a b)) (tMax.map (reScale a b)) (some (tb.map (reScale a b))) none =
      (knotValues tMin tMax (some tb) none).map (reScale a b) := by
    have ei : interleave ((tMin.map (reScale a b)).zip (tMax.map (reScale a b))) = (interleave (tMin.zip tMax)).map (reScale a b) := by
      unfold interleave
      rw [List.zip_map, List.flatMap_map, List.map_flatMap]
      simp only [Prod.map_fst, Prod.map_snd, List.map_cons, List.map_nil]
    unfold knotValues
    simp only [ei, Option.getD_some, Option.getD_none, List.length_map, List.map_append, List.map_drop]
  rw [e, mkPchip_reScale] at h'
  simp only [bind_ok, pure_ok] at h h'
  obtain ⟨k, h1, e1⟩ := h
  rw [h1] at h'
  obtain ⟨k', h1', e2⟩ := h'
  have h1' := Except.ok.inj h1'
  have hk : k.n = (knotValues tMin tMax (some tb) none).length ∧ 2 ≤ k.n := by
    unfold mkPchip at h1
    split_ifs at h1 with hc
    push Not at hc
    rw [← Except.ok.inj h1]
    exact ⟨hc.1, hc.2.1⟩
  have hn : k'.n = k.n := by rw [← h1']
  have hx : k'.x = k.x := by rw [← h1']
  have hy : ∀ i < k.n, k'.y i = a * k.y i + b := fun i hi => by
    rw [← h1']
    rw [hk.1] at hi
    exact if_pos hi
  have key : ∀ t, pchip k' t = a * pchip k t + b := fun t => by
    rw [← pchip_reValue]
    exact pchip_congr (k' := reValue a b k) hn hx (fun i hi => hy i (hn ▸ hi)) (hn ▸ hk.2) t
  rw [← e1, ← e2, List.map_map]
  exact List.map_congr_left fun i _ => key _

end curve

/-- A column of a record on another scale. -/
def Rescaled (a b : ℝ) (n : Nat) (f f' : Frame) (name : String) : Prop :=
  ∀ x x', Dict.get? f name = some x → Dict.get? f' name = some x' → ∀ i < n, x' i = fin a * x i + fin b

/-- Two runs over temperatures on different scales. -/
structure Scales (a b : ℝ) (j j' : Job) (c c' : Run.Cell) : Prop where
  shared : j.shared = j'.shared
  first : j.d0 = j'.d0
  days : j.n = j'.n
  lat : (j.inp c).lat = (j'.inp c').lat
  lon : j.shared.utcOffset = true → (j.inp c).lon = (j'.inp c').lon
  tMin : Rescaled a b j.n (j.inp c).data.frame (j'.inp c').data.frame "t_min"
  tMax : Rescaled a b j.n (j.inp c).data.frame (j'.inp c').data.frame "t_max"
  state1 : (j'.inp c').data.stateEnd.1 = fin a * (j.inp c).data.stateEnd.1 + fin b
  state2 : (j'.inp c').data.stateEnd.2 = fin a * (j.inp c).data.stateEnd.2 + fin b

theorem scaled_of {a b : ℝ} (j j' : Job) (hj : j.Sane) (hj' : j'.Sane) {fuel fuel' : Nat} {order order' : List (Dict String Chunk.Slice)}
    (ho : j.Schedule order) (ho' : j'.Schedule order') {files files' : Run.Files Output} (hrun : j.run fuel order = .ok files)
    (hrun' : j'.run fuel' order' = .ok files') (hsub : j.shared.ts < 1440) {c c' : Run.Cell} (hc : j.Computed c) (hc' : j'.Computed c')
    {u : String} (hu : j.shared.outVars.get? "temp" = some u) (hs : Scales a b j j' c c')
    {val val' : ℚ → Flt ℝ} (hval : Recorded j files "temp" c val) (hval' : Recorded j' files' "temp" c' val')
    {k i : Nat} (hk : k < j.n) (hi : i < 1440 / j.shared.ts) :
    ∃ x, Units.convert "temp" u (fin x) j.shared.ts = .ok (val (j.stamp k i)) ∧
      Units.convert "temp" u (fin (a * x + b)) j.shared.ts = .ok (val' (j.stamp k i)) := by
  have hst : j'.stamp k i = j.stamp k i := by unfold Job.stamp; rw [hs.shared, hs.first]
  obtain ⟨elev, lat, lon, h1, h2, h3, q, daily, sub, hd, hsu, hcol⟩ := written_sub j hj ho hrun hsub hc
  have hw := written_sub j' hj' ho' hrun' (hs.shared ▸ hsub) hc'
  rw [← hs.shared] at hw
  obtain ⟨elev', lat', lon', h1', h2', h3', q', daily', sub', hd', hsu', hcol'⟩ := hw
  obtain ⟨col, w, a1, a2, a3⟩ := hcol "temp" u hu
  obtain ⟨col', w', a1', a2', a3'⟩ := hcol' "temp" u hu
  obtain ⟨t, rfl⟩ := disaggregate_ok.1 hsu
  obtain ⟨t', rfl⟩ := disaggregate_ok.1 hsu'
  have hlat : lat = lat' := by
    have := hs.lat
    rw [h2, h2'] at this
    exact Flt.fin.inj this
  have hdays : (j.inp c).data.days = (j'.inp c').data.days := by rw [hj.data c, hj'.data c', hs.first, hs.days]
  have hlen : (j.inp c).data.days.length = j.n := by rw [hj.data c]; simp [consecutive]
  have twin : Twin q q' daily daily' := ⟨hdays, hd, hd', fun hx => by
    have := hs.lon hx
    rw [h3, h3'] at this
    exact Flt.fin.inj this⟩
  obtain ⟨-, -, -, q4, q5, -⟩ := dailyOf_ok hd
  obtain ⟨-, -, -, p4, p5, -⟩ := dailyOf_ok hd'
  have series : ∀ {name : String} {xs xs' : List (Flt ℝ)}, name ∈ ["t_min", "t_max"] →
      Rescaled a b j.n (j.inp c).data.frame (j'.inp c').data.frame name →
      Cell.column (j.inp c).data.days.length q.base name = .ok xs → Cell.column (j'.inp c').data.days.length q'.base name = .ok xs' →
      xs' = xs.map (reScale a b) := by
    intro name xs xs' hn hr e e'
    have n1 : name ∉ ["t_day", "tfmax", "tskc", "seasonal_prec", "tdew", "vapor_pressure", "shortwave", "pet"] := by
      clear e e' hr; revert name; decide
    have n2 : name ∉ ["daylength", "potrad", "tt_max"] := by clear e e' hr n1; revert name; decide
    obtain ⟨x, g1, rfl⟩ := Cell.column_ok.1 e
    obtain ⟨x', g1', rfl⟩ := Cell.column_ok.1 e'
    rw [base_keeps _ n1 n2] at g1 g1'
    rw [← hdays, hlen, List.map_map]
    exact List.map_congr_left fun i hi => hr x x' g1 g1' i (List.mem_range.1 hi)
  have emin := series (by decide) hs.tMin q4 p4
  have emax := series (by decide) hs.tMax q5 p5
  have ht := t.h_temp
  have ht' := t'.h_temp
  have etemp : t'.temp = t.temp.map fun x => a * x + b := by
    have etb : [(j'.inp c').data.stateEnd.1, (j'.inp c').data.stateEnd.2] =
        [(j.inp c).data.stateEnd.1, (j.inp c).data.stateEnd.2].map (reScale a b) := by
      rw [hs.state1, hs.state2]; rfl
    rw [← twin.doy, ← twin.times hlat t t', emin, emax] at ht'
    generalize t'.temp = o at ht'
    rw [etb] at ht'
    exact temp_reScale a b _ _ _ _ _ _ ht ht'
  have filled : ∀ xs : List ℝ, fillBoth (xs.map fin) = xs.map fin := fun xs => fillBoth_of_fin fun x hx => by
    obtain ⟨y, -, rfl⟩ := List.mem_map.1 hx
    rfl
  have c1 : t.temp.map fin = col := by
    have : fillBoth (t.temp.map fin) = col := Except.ok.inj a1
    rwa [filled] at this
  have c2 : t'.temp.map fin = col' := by
    have : fillBoth (t'.temp.map fin) = col' := Except.ok.inj a1'
    rwa [filled] at this
  have b1 := a3 k hk i hi
  have b2 := a3' k (hs.days ▸ hk) i hi
  rw [← c1, recorded_unique j hj a2 hval hk hi] at b1
  rw [← c2, recorded_unique j' hj' a2' hval' (hs.days ▸ hk) (hs.shared ▸ hi), hst, etemp] at b2
  have hin : k * (1440 / j.shared.ts) + i < t.temp.length := by
    obtain ⟨-, l2, -⟩ := vaporPressure_ok t.h_vp
    rw [List.length_map] at l2
    have hdl : daily.doy.length = j.n := by rw [(dailyOf_ok hd).1, List.length_map, hlen]
    have h1 : nDisagg j.n j.shared.ts = j.n * (1440 / j.shared.ts) := Nat.mul_div_assoc _ hj.step.2
    have h2 : (k + 1) * (1440 / j.shared.ts) ≤ j.n * (1440 / j.shared.ts) := Nat.mul_le_mul_right _ (by omega)
    rw [Nat.add_mul, Nat.one_mul] at h2
    rw [l2, hdl, show (j.shared.sub elev lon).ts = j.shared.ts from rfl, h1]
    omega
  refine ⟨t.temp[k * (1440 / j.shared.ts) + i], ?_, ?_⟩
  · rw [← b1]; simp [List.getD, hin]
  · rw [← b2]; simp [List.getD, hin]

/-- **C114**: daily temperatures on another scale give temperatures on that scale. -/
theorem C114_scale (a b : ℝ) (j j' : Job) (hj : j.Sane) (hj' : j'.Sane) (fuel fuel' : Nat) (order order' : List (Dict String Chunk.Slice))
    (ho : j.Schedule order) (ho' : j'.Schedule order') (files files' : Run.Files Output) (hrun : j.run fuel order = .ok files)
    (hrun' : j'.run fuel' order' = .ok files') (hsub : j.shared.ts < 1440) (c c' : Run.Cell) (hc : j.Computed c) (hc' : j'.Computed c')
    (hu : j.shared.outVars.get? "temp" = some "C") (hs : Scales a b j j' c c')
    (val val' : ℚ → Flt ℝ) (hval : Recorded j files "temp" c val) (hval' : Recorded j' files' "temp" c' val')
    (k i : Nat) (hk : k < j.n) (hi : i < 1440 / j.shared.ts) :
    ∃ x, val (j.stamp k i) = fin x ∧ val' (j.stamp k i) = fin (a * x + b) := by
  obtain ⟨x, e, e'⟩ := scaled_of j j' hj hj' ho ho' hrun hrun' hsub hc hc' hu hs hval hval' hk hi
  exact ⟨x, (Except.ok.inj e).symm, (Except.ok.inj e').symm⟩

/-- **C114**: if every day is warmer by the same amount, so is every step, whatever the unit. -/
theorem C114_warmer (b : ℝ) (j j' : Job) (hj : j.Sane) (hj' : j'.Sane) (fuel fuel' : Nat) (order order' : List (Dict String Chunk.Slice))
    (ho : j.Schedule order) (ho' : j'.Schedule order') (files files' : Run.Files Output) (hrun : j.run fuel order = .ok files)
    (hrun' : j'.run fuel' order' = .ok files') (hsub : j.shared.ts < 1440) (c c' : Run.Cell) (hc : j.Computed c) (hc' : j'.Computed c')
    (u : String) (hu : j.shared.outVars.get? "temp" = some u) (hs : Scales 1 b j j' c c')
    (val val' : ℚ → Flt ℝ) (hval : Recorded j files "temp" c val) (hval' : Recorded j' files' "temp" c' val')
    (k i : Nat) (hk : k < j.n) (hi : i < 1440 / j.shared.ts) :
    ∃ x, val (j.stamp k i) = fin x ∧ val' (j.stamp k i) = fin (x + b) := by
  obtain ⟨x, e, e'⟩ := scaled_of j j' hj hj' ho ho' hrun hrun' hsub hc hc' hu hs hval hval' hk hi
  obtain ⟨table, g, g1, g2, g3⟩ := convert_ok e
  obtain ⟨table', g', g1', g2', g3'⟩ := convert_ok e'
  rw [g1] at g1'
  cases g1'
  rw [g2] at g2'
  cases g2'
  simp (decide := true) only [Units.converters, Dict.get?_cons, if_true, if_false, Option.some.injEq] at g1
  subst g1
  simp only [Dict.get?_cons] at g2
  split_ifs at g2
  · cases g2
    exact ⟨x, g3.symm, by rw [← g3']; show fin _ = fin _; ring_nf⟩
  · cases g2
    refine ⟨x + 273.15, g3.symm, ?_⟩
    rw [← g3']
    show fin _ = fin _
    ring_nf
  · cases g2

/-! ### There are such runs -/

/-- Runs at different temperatures. -/
noncomputable def warm (b : ℝ) : Job :=
  { demo .passthrough with
    inp := fun _ => ⟨fin 100, fin 45, fin (-120), ⟨consecutive 0 2,
      [("t_min", fun _ => fin (5 + b)), ("t_max", fun _ => fin (15 + b)), ("prec", fun _ => fin 24), ("dtr", fun _ => fin 10),
       ("smoothed_dtr", fun _ => fin 10), ("seasonal_prec", fun _ => fin 800), ("shortwave", fun _ => fin 200)],
       (fin (4 + b), fin (14 + b))⟩⟩ }

theorem warm_sane (b : ℝ) : (warm b).Sane where
  step := (demo_sane .passthrough).step
  pos := (demo_sane .passthrough).pos
  calendar := regular_standard _ _
  data := fun _ => rfl
  freq := (demo_sane .passthrough).freq
  years := (demo_sane .passthrough).years
  vars := (demo_sane .passthrough).vars
  names := (demo_sane .passthrough).names
  dims := (demo_sane .passthrough).dims
  dims_pos := (demo_sane .passthrough).dims_pos
  chunks := (demo_sane .passthrough).chunks
  chunks_pos := (demo_sane .passthrough).chunks_pos
  same := (demo_sane .passthrough).same

theorem warm_complete (b : ℝ) (c : Run.Cell) : CompleteCell (warm b).shared 2 ((warm b).inp c) where
  place := (demo_complete .passthrough c).place
  lapse := (demo_complete .passthrough c).lapse
  columns := by
    intro k hk
    simp only [List.mem_cons, List.not_mem_nil, or_false] at hk
    rcases hk with rfl | rfl | rfl | rfl | rfl | rfl <;> simp [warm, Dict.get?_cons]
  radiation := fun _ => by simp [warm, Dict.get?_cons]
  tMin := fun col h i _ => by
    simp (decide := true) only [warm, Dict.get?_cons, if_true, if_false, Option.some.injEq] at h
    subst h; exact ⟨5 + b, rfl⟩
  tMax := fun col h i _ => by
    simp (decide := true) only [warm, Dict.get?_cons, if_true, if_false, Option.some.injEq] at h
    subst h; exact ⟨15 + b, rfl⟩
  state := ⟨4 + b, 14 + b, rfl⟩
  fraction := (demo_complete .passthrough c).fraction
  lwType := (demo_complete .passthrough c).lwType
  lwCloud := (demo_complete .passthrough c).lwCloud
  storm := (demo_complete .passthrough c).storm

theorem warm_runs (b : ℝ) : ∃ order files, (warm b).Schedule order ∧ (warm b).run 0 order = .ok files := by
  obtain ⟨files, h⟩ := (C71_run (warm b) (warm_sane b) 0 [[("lat", none), ("lon", none)]]
    ⟨_, rfl, List.Perm.refl _⟩ (fun c _ => warm_complete b c) (fun h => by cases h)).2
    (fun c _ => demo_offers (by show (720 : Nat) < 1440; decide) _)
  exact ⟨_, files, ⟨_, rfl, List.Perm.refl _⟩, h⟩

/-- **C114**: there are two such runs. -/
example (b : ℝ) : (warm 0).Sane ∧ (warm b).Sane ∧ (warm 0).Computed [0, 0] ∧ (warm b).Computed [0, 0] ∧ (warm 0).shared.ts < 1440 ∧
    (warm 0).shared.outVars.get? "temp" = some "K" ∧ Scales 1 b (warm 0) (warm b) [0, 0] [0, 0] ∧
    (∃ order files, (warm 0).Schedule order ∧ (warm 0).run 0 order = .ok files) ∧
    (∃ order files, (warm b).Schedule order ∧ (warm b).run 0 order = .ok files) := by
  refine ⟨warm_sane _, warm_sane _, ⟨by show _ ∈ gridCells [("lat", 1), ("lon", 2)]; decide, 1, rfl, one_pos⟩,
    ⟨by show _ ∈ gridCells [("lat", 1), ("lon", 2)]; decide, 1, rfl, one_pos⟩, by show (720 : Nat) < 1440; decide, rfl,
    ⟨rfl, rfl, rfl, rfl, fun _ => rfl, ?_, ?_, ?_, ?_⟩, warm_runs _, warm_runs _⟩
  · rintro x x' h h' i -
    cases h; cases h'
    simp
  · rintro x x' h h' i -
    cases h; cases h'
    simp
  · simp [warm]
  · simp [warm]

end Verif.Props
