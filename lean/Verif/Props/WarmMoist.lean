import Verif.Props.Hotter
import Verif.Props.Radiates

/-!
# A warmer record that is not drier

If no daily extreme and no vapour pressure of a record is below that of another, under the same clouds, then neither is any vapour pressure
nor any longwave radiation written.
-/

namespace Verif.Props

open Flt Cell Methods Disaggregate Np Humidity Physics

/-- Saturation rises with temperature. -/
theorem cap_rises {v w : Flt ℝ} (h : NotLess v w) {T T' : ℝ} (hT : -115.7 ≤ T) (hTT : T ≤ T') :
    NotLess (capAtSaturation v (Flt.fin T)) (capAtSaturation w (Flt.fin T')) := by
  rcases h with ⟨rfl, rfl⟩ | ⟨p, q, rfl, rfl, h⟩
  · have : ∀ T : Flt ℝ, capAtSaturation Flt.nan T = Flt.nan := fun T => by
      unfold capAtSaturation
      simp
    rw [this, this]
    exact NotLess.nan
  · rw [cap_fin (by linarith), cap_fin (by linarith)]
    refine NotLess.fin (min_le_min h ?_)
    have := svpR_le hT hTT
    gcongr

/-- Temperatures written are between -60 °C and 60 °C. -/
theorem temp_range {j : Job} (hj : j.Sane) {fuel : Nat} {order : List (Dict String Chunk.Slice)} (ho : j.Schedule order)
    {files : Run.Files Output} (hrun : j.run fuel order = .ok files) (hsub : j.shared.ts < 1440) {c : Run.Cell} (hc : j.Computed c)
    (hs : Sound j.shared j.n (j.inp c)) {k i : Nat} (hk : k < j.n) (hi : i < 1440 / j.shared.ts) {T : ℝ}
    (hT : Reads j files c "temp" k i T) : 213.15 ≤ T ∧ T ≤ 333.15 := by
  obtain ⟨elev, lat, lon, e1, e2, e3, q, daily, t, hd, ld, hnd, hread⟩ := readout j hj ho hrun hsub hc
  have hlen : (j.inp c).data.days.length = j.n := by rw [hj.data c, length_consecutive]
  have hm' := hs.record
  rw [← hlen] at hm'
  have hpos := hj.pos
  have hus := usable_of q hd t hj.step.2 (by omega) hm' ⟨by linarith [hs.fraction.1], hs.fraction.2⟩ hs.storm
  have hTs := temp_sound hs e2 e3 q hlen hd t hus
  have hT' := hT
  obtain ⟨u, -, -, -, hu, -⟩ := hT'
  obtain ⟨col, a1, a2⟩ := hread "temp" u "C" .temperature hu (by decide) rfl (by simp)
  obtain ⟨z, hz, hzs⟩ := (a2 k hk i hi).2 T hT
  rw [← Except.ok.inj a1, temp_fill, List.getElem?_map] at hz
  obtain ⟨y, hy, hyz⟩ := Option.map_eq_some_iff.1 hz
  obtain rfl := Flt.fin.inj hyz
  have b3 : y + 273.15 = T := (Prod.mk.inj (Option.some.inj hzs)).2
  have := hTs y (List.mem_of_getElem? hy)
  constructor <;> linarith [this.1, this.2]

section C127

variable (j j' : Job) (hj : j.Sane) (hj' : j'.Sane) (fuel fuel' : Nat) (order order' : List (Dict String Chunk.Slice))
  (ho : j.Schedule order) (ho' : j'.Schedule order') (files files' : Run.Files Output) (hrun : j.run fuel order = .ok files)
  (hrun' : j'.run fuel' order' = .ok files') (hsub : j.shared.ts < 1440) (hutc : j.shared.utcOffset = false)
  (hm : j.shared.method = .passthrough) (c c' : Run.Cell) (hc : j.Computed c) (hc' : j'.Computed c') (hs : SamePlace j j' c c')
  (hsd : Sound j.shared j.n (j.inp c)) (hsd' : Sound j'.shared j'.n (j'.inp c')) (hmoist : Moister j.n (j.inp c).data (j'.inp c').data)

include hj hj' ho ho' hrun hrun' hsub hutc hm hc hc' hs hsd hsd' hmoist

/-- If no temperature written is below that of the other run, no vapour pressure is. -/
theorem vapour_rises (hwarm : ∀ k < j.n, ∀ i < 1440 / j.shared.ts,
      ∃ T T', Reads j files c "temp" k i T ∧ Reads j' files' c' "temp" k i T' ∧ T ≤ T')
    {k i : Nat} (hk : k < j.n) (hi : i < 1440 / j.shared.ts) {e : ℝ} (he : Reads j files c "vapor_pressure" k i e) :
    0 ≤ e ∧ ∃ e', Reads j' files' c' "vapor_pressure" k i e' ∧ e ≤ e' := by
  have he0 := he
  obtain ⟨u, -, -, -, hu, -⟩ := he0
  obtain ⟨uT, huT⟩ : ∃ uT, j.shared.outVars.get? "temp" = some uT := by
    obtain ⟨T, -, hT, -⟩ := hwarm k hk i hi
    obtain ⟨uT, -, -, -, h, -⟩ := hT
    exact ⟨uT, h⟩
  obtain ⟨elev, lat, lon, e1, e2, e3, q, daily, t, hd, ld, hnd, hread⟩ := readout j hj ho hrun hsub hc
  have hr' := readout j' hj' ho' hrun' (hs.shared ▸ hsub) hc'
  rw [← hs.shared, ← hs.days] at hr'
  rw [← hs.shared, ← hs.days] at hsd'
  obtain ⟨elev', lat', lon', e1', e2', e3', q', daily', t', hd', ld', hnd', hread'⟩ := hr'
  have hlat : lat = lat' := by
    have := hs.lat
    rw [e2, e2'] at this
    exact Flt.fin.inj this
  have hdays : (j.inp c).data.days = (j'.inp c').data.days := by rw [hj.data c, hj'.data c', hs.first, hs.days]
  have hlen : (j.inp c).data.days.length = j.n := by rw [hj.data c, length_consecutive]
  have hlen' : (j'.inp c').data.days.length = j.n := by rw [← hdays, hlen]
  have twin : Twin q q' daily daily' := ⟨hdays, hd, hd', fun hx => by rw [hutc] at hx; cases hx⟩
  have hm' := hsd.record
  rw [← hlen] at hm'
  have hpos := hj.pos
  have hus := usable_of q hd t hj.step.2 (by omega) hm' ⟨by linarith [hsd.fraction.1], hsd.fraction.2⟩ hsd.storm
  have hT := temp_sound hsd e2 e3 q hlen hd t hus
  obtain ⟨hl, hlt⟩ := tmin_lt (hsd.lat lat e2) q.h_geom hus t
  obtain ⟨l1, l2, l3, h4⟩ := vaporPressure_ok t.h_vp
  obtain ⟨l1', l2', l3', h4'⟩ := vaporPressure_ok t'.h_vp
  rw [← twin.times hlat t t'] at l1' h4'
  rw [List.length_map] at l1 l1' l2 l2'
  have hts : (j.shared.sub elev lon).ts = j.shared.ts := rfl
  have hts' : (j.shared.sub elev' lon').ts = j.shared.ts := rfl
  rw [hts, hnd] at l2 l3
  rw [hts', hnd'] at l2' l3'
  obtain ⟨-, -, -, -, -, q6, -⟩ := dailyOf_ok hd
  obtain ⟨-, -, -, -, -, p6, -⟩ := dailyOf_ok hd'
  obtain ⟨x, x', hx, hx', hle⟩ := hmoist
  obtain ⟨y, g, ey⟩ := Cell.column_ok.1 q6
  obtain ⟨y', g', ey'⟩ := Cell.column_ok.1 p6
  obtain rfl := Option.some.inj (g.symm.trans (passed_on q hm hx (by decide) (by decide)))
  obtain rfl := Option.some.inj (g'.symm.trans (passed_on q' hm hx' (by decide) (by decide)))
  have hget : ∀ {n : Nat} {x : Col} {k : Nat}, k < n → ((List.range n).map x).getD k nan = x k := fun {n x k} h => by
    rw [List.getD_eq_getElem?_getD, List.getElem?_map, List.getElem?_range h]
    rfl
  -- the temperatures of the two series
  have hTT : ∀ m (h : m < t.temp.length) (h' : m < t'.temp.length), t.temp[m] ≤ t'.temp[m] := by
    intro m h h'
    have hsp : 0 < 1440 / j.shared.ts := hj.step.pos
    have hdm : m / (1440 / j.shared.ts) * (1440 / j.shared.ts) + m % (1440 / j.shared.ts) = m := Nat.div_add_mod' _ _
    have hk : m / (1440 / j.shared.ts) < j.n := by
      rw [Nat.div_lt_iff_lt_mul hsp, ← l2]; exact h
    have hi := Nat.mod_lt m hsp
    obtain ⟨T, T', r, r', hle⟩ := hwarm _ hk _ hi
    obtain ⟨col, a1, a2⟩ := hread "temp" uT "C" .temperature huT (by decide) rfl (by simp)
    obtain ⟨col', a1', a2'⟩ := hread' "temp" uT "C" .temperature huT (by decide) rfl (by simp)
    obtain ⟨z, hz, hzs⟩ := (a2 _ hk _ hi).2 T r
    obtain ⟨z', hz', hzs'⟩ := (a2' _ hk _ hi).2 T' r'
    rw [hdm, ← Except.ok.inj a1, temp_fill, List.getElem?_map, List.getElem?_eq_getElem h] at hz
    rw [hdm, ← Except.ok.inj a1', temp_fill, List.getElem?_map, List.getElem?_eq_getElem h'] at hz'
    have b1 : t.temp[m] = z := Flt.fin.inj (Option.some.inj hz)
    have b2 : t'.temp[m] = z' := Flt.fin.inj (Option.some.inj hz')
    have b3 : z + 273.15 = T := (Prod.mk.inj (Option.some.inj hzs)).2
    have b4 : z' + 273.15 = T' := (Prod.mk.inj (Option.some.inj hzs')).2
    rw [b1, b2]
    linarith
  have hll : t.vp.length = t'.vp.length := by rw [l3, l3']
  have vm : NotLessAll (fillBoth t.vp) (fillBoth t'.vp) := NotLessAll.fillBoth hll (notLessAll_of hll fun m a b ha hb => by
    have hm1 := (List.getElem?_eq_some_iff.1 ha).1
    have hm2 : m < t.temp.length := by rw [l2, ← l3]; exact hm1
    have hm3 : m < t'.temp.length := by rw [l2', ← l3]; exact hm1
    have hg : (t.temp.map (fin : ℝ → Flt ℝ))[m]? = some (fin t.temp[m]) := by
      rw [List.getElem?_map, List.getElem?_eq_getElem hm2]; rfl
    have hg' : (t'.temp.map (fin : ℝ → Flt ℝ))[m]? = some (fin t'.temp[m]) := by
      rw [List.getElem?_map, List.getElem?_eq_getElem hm3]; rfl
    have b1 := (hT _ (List.getElem_mem hm2)).1
    have b2 := hTT m hm2 hm3
    rw [h4 m _ hg] at ha
    rw [h4' m _ hg'] at hb
    rw [← Option.some.inj ha, ← Option.some.inj hb, ← l1, ← l1']
    refine cap_rises (linear_mono (fun a b hab hb => hlt a b hab (by rw [← hl]; exact hb)) (fun k hk => ?_) _) (by linarith) b2
    have hk' : k < j.n := by rw [← ld, ← hl]; exact hk
    obtain ⟨p, r, g1, g2, -, g3⟩ := hle k hk'
    rw [ey, ey', hget (by rw [hlen]; exact hk'), hget (by rw [hlen']; exact hk'), g1, g2, div_fin_ne (by norm_num),
      div_fin_ne (by norm_num)]
    exact ⟨_, _, rfl, rfl, by gcongr⟩)
  have h0 : ∀ (i : Nat) x, (fillBoth t.vp)[i]? = some (fin x) → 0 ≤ x := by
    have hcap : ∀ (i : Nat) x, t.vp[i]? = some (fin x) → 0 ≤ x := fun i y hy =>
      vp_nonneg (hsd.lat lat e2) q.h_geom hus t (fun z hz => by
        rw [ey] at hz
        obtain ⟨k, hk, rfl⟩ := List.mem_map.1 hz
        obtain ⟨p, q, g1, -, g2, -⟩ := hle k (by rw [← hlen]; exact List.mem_range.1 hk)
        exact ⟨p, g1, g2⟩) (fun T h => by linarith [(hT T h).1]) hy
    intro i x hx
    rcases fillBoth_spec hx with ⟨j, w, -, hx, he, -⟩ | ⟨j, w, -, hx, he, -⟩ | ⟨he, -⟩
    · rw [Flt.fin.inj he]; exact hcap _ _ hx
    · rw [Flt.fin.inj he]; exact hcap _ _ hx
    · cases he
  obtain ⟨col, a1, a2⟩ := hread "vapor_pressure" u "Pa" .pressure hu (by decide) rfl (by simp)
  obtain ⟨col', a1', a2'⟩ := hread' "vapor_pressure" u "Pa" .pressure hu (by decide) rfl (by simp)
  obtain ⟨z, hz, hzs⟩ := (a2 k hk i hi).2 e he
  rw [← Except.ok.inj a1, vp_fill] at hz
  have hze : z = e := (Prod.mk.inj (Option.some.inj hzs)).2
  subst hze
  refine ⟨h0 _ _ hz, ?_⟩
  have hmi := (List.getElem?_eq_some_iff.1 hz).1
  have hz' : (fillBoth t'.vp)[k * (1440 / j.shared.ts) + i]? = some ((fillBoth t'.vp)[k * (1440 / j.shared.ts) + i]'(by rw [length_fillBoth, ← hll, ← length_fillBoth]; exact hmi)) :=
    List.getElem?_eq_getElem _
  rcases vm.at hz hz' with ⟨n1, -⟩ | ⟨p, r, n1, n2, n3⟩
  · cases n1
  · rw [n2] at hz'
    rw [Flt.fin.inj n1]
    exact ⟨r, (a2' k hk i hi).1 r r (by rw [← Except.ok.inj a1', vp_fill]; exact hz') rfl, n3⟩

/-- The same cloud cover is written. -/
theorem clouds_same (hcl : Dict.get? (j.inp c).data.frame "tskc" = Dict.get? (j'.inp c').data.frame "tskc")
    (hgiven : DailyGood j.n (j.inp c).data.frame) {k i : Nat} (hk : k < j.n) (hi : i < 1440 / j.shared.ts) {f f' : ℝ}
    (hf : Reads j files c "tskc" k i f) (hf' : Reads j' files' c' "tskc" k i f') : f = f' := by
  obtain ⟨u, val, x, kd, a1, a2, a3, a4, a5⟩ := hf
  obtain ⟨u', val', x', kd', b1, b2, b3, b4, b5⟩ := hf'
  rw [← hs.shared] at b1 b5
  obtain rfl := Option.some.inj (a1.symm.trans b1)
  have hst : j.stamp k i = j'.stamp k i := by unfold Job.stamp; rw [hs.shared, hs.first]
  have := C112_given j j' hj hj' hs.shared hs.first hs.days fuel fuel' order order' ho ho' files files' hrun hrun' hsub hm c c' hc hc'
    (fun k hk => by
      simp only [List.mem_cons, List.not_mem_nil, or_false] at hk
      rcases hk with rfl | rfl
      · obtain ⟨col, h, -⟩ := hgiven.vapor; exact ⟨col, h⟩
      · obtain ⟨col, h, -⟩ := hgiven.cloud; exact ⟨col, h⟩) "tskc" u a1
    ⟨fun k hk => by
      have : k = "tskc" := by simpa [needsGiven] using hk
      rw [this]; exact hcl, fun h => by simp [needsGiven] at h, fun h => by simp [needsGiven] at h, fun h => by simp [needsGiven] at h,
      fun h => by rw [hutc] at h; cases h⟩ val val' a2 b2 k i hk hi
  rw [a3, hst, b3] at this
  rw [Flt.fin.inj this, b5] at a5
  exact (Prod.mk.inj (Option.some.inj a5)).2.symm

/-- What makes the record of a cell warmer than that of another: the daily extremes, and those of the day before. -/
structure HotterRecord (n : Nat) (lo hi lo' hi' : ℕ → ℝ) (before before' : ℝ × ℝ) : Prop where
  first : Alternating n before lo hi
  second : Alternating n before' lo' hi'
  low : ∀ d < n, lo d ≤ lo' d
  high : ∀ d < n, hi d ≤ hi' d
  before_low : before.1 ≤ before'.1
  before_high : before.2 ≤ before'.2

omit hm hmoist hsd' in
theorem temps_rise {lo hi lo' hi' : ℕ → ℝ} {before before' : ℝ × ℝ} (he : Extremes j c lo hi before)
    (he' : Extremes j' c' lo' hi' before') (hh : HotterRecord j.n lo hi lo' hi' before before') {u : String}
    (hu : j.shared.outVars.get? "temp" = some u) : ∀ k < j.n, ∀ i < 1440 / j.shared.ts,
      ∃ T T', Reads j files c "temp" k i T ∧ Reads j' files' c' "temp" k i T' ∧ T ≤ T' := fun k hk i hi =>
  C122_warmer j j' hj hj' fuel fuel' order order' ho ho' files files' hrun hrun' hsub hutc (by linarith [hsd.fraction.1]) hsd.fraction.2
    c c' hc hc' hs hsd.lat lo _ lo' _ before before' he he' hh.first hh.second hh.low hh.high hh.before_low hh.before_high u hu k hk i hi

/-- **C127**: a record that is nowhere colder nor drier has nowhere less vapour pressure written. -/
theorem C127_vapour (lo hi lo' hi' : ℕ → ℝ) (before before' : ℝ × ℝ) (he : Extremes j c lo hi before)
    (he' : Extremes j' c' lo' hi' before') (hh : HotterRecord j.n lo hi lo' hi' before before') (u : String)
    (hu : j.shared.outVars.get? "temp" = some u) (k : Nat) (hk : k < j.n) (i : Nat) (hi0 : i < 1440 / j.shared.ts) (e : ℝ)
    (hr : Reads j files c "vapor_pressure" k i e) : ∃ e', Reads j' files' c' "vapor_pressure" k i e' ∧ e ≤ e' :=
  (vapour_rises j j' hj hj' fuel fuel' order order' ho ho' files files' hrun hrun' hsub hutc hm c c' hc hc' hs hsd hsd' hmoist
    (temps_rise j j' hj hj' fuel fuel' order order' ho ho' files files' hrun hrun' hsub hutc c c' hc hc' hs hsd he he' hh hu)
    hk hi0 hr).2

/-- **C127**: nor, under the same clouds, less longwave radiation. -/
theorem C127_longwave (lo hi lo' hi' : ℕ → ℝ) (before before' : ℝ × ℝ) (he : Extremes j c lo hi before)
    (he' : Extremes j' c' lo' hi' before') (hh : HotterRecord j.n lo hi lo' hi' before before')
    (hgiven : DailyGood j.n (j.inp c).data.frame) (hgiven' : DailyGood j.n (j'.inp c').data.frame)
    (hcl : Dict.get? (j.inp c).data.frame "tskc" = Dict.get? (j'.inp c').data.frame "tskc")
    (hask : ∀ v ∈ ["temp", "tskc", "longwave"], ∃ u, j.shared.outVars.get? v = some u)
    (ty : Lw.LwType) (cl : Lw.Cloud) (hty : Lw.lwTypeOf j.shared.lwType = .ok ty) (hcloud : Lw.cloudOf j.shared.lwCloud = .ok cl)
    (k : Nat) (hk : k < j.n) (i : Nat) (hi0 : i < 1440 / j.shared.ts) (e : ℝ) (hr : Reads j files c "vapor_pressure" k i e)
    (hrise : ∀ T T', Reads j files c "temp" k i T → Reads j' files' c' "temp" k i T' → Rises ty (1000 * e / 100) T T') :
    ∃ L L', Reads j files c "longwave" k i L ∧ Reads j' files' c' "longwave" k i L' ∧ L ≤ L' := by
  obtain ⟨uT, huT⟩ := hask "temp" (by decide)
  obtain ⟨uF, huF⟩ := hask "tskc" (by decide)
  obtain ⟨uL, huL⟩ := hask "longwave" (by decide)
  have hw := temps_rise j j' hj hj' fuel fuel' order order' ho ho' files files' hrun hrun' hsub hutc c c' hc hc' hs hsd he he' hh huT
  obtain ⟨e0, e', hr', hee⟩ := vapour_rises j j' hj hj' fuel fuel' order order' ho ho' files files' hrun hrun' hsub hutc hm c c' hc hc'
    hs hsd hsd' hmoist hw hk hi0 hr
  obtain ⟨T, T', hT, hT', hTT⟩ := hw k hk i hi0
  have r : Radiates j c ty cl := ⟨Or.inr ⟨hm, hgiven⟩, hsd, ⟨uL, huL⟩, hty, hcloud⟩
  have r' : Radiates j' c' ty cl := ⟨Or.inr ⟨hs.shared ▸ hm, hs.days ▸ hgiven'⟩, hsd', ⟨uL, hs.shared ▸ huL⟩, hs.shared ▸ hty,
    hs.shared ▸ hcloud⟩
  have hk' : k < j'.n := hs.days ▸ hk
  have hi' : i < 1440 / j'.shared.ts := hs.shared ▸ hi0
  have hsub' : j'.shared.ts < 1440 := hs.shared ▸ hsub
  obtain ⟨f, hf, -, -⟩ := cloud_reads hj ho hrun hsub hc r huF hk hi0
  obtain ⟨f', hf', -, -⟩ := cloud_reads hj' ho' hrun' hsub' hc' r' (u := uF) (hs.shared ▸ huF) hk' hi'
  obtain rfl := clouds_same j j' hj hj' fuel fuel' order order' ho ho' files files' hrun hrun' hsub hutc hm c c' hc hc' hs hsd hsd' hmoist
    hcl hgiven hk hi0 hf hf'
  have hT0 : 0 < T := by linarith [(temp_range hj ho hrun hsub hc hsd hk hi0 hT).1]
  exact C126_warmer j j' hj hj' fuel fuel' order order' ho ho' files files' hrun hrun' hsub hsub' c c' hc hc' ty cl r r' k k i i hk hk'
    hi0 hi' T T' e e' f hT hT' hr hr' hf hf' hT0 hTT e0 hee (hrise T T' hT hT')

end C127

/-- A run over two days with temperatures `b` degrees higher and a vapour pressure of `e` Pa. -/
noncomputable def muggy (b e : ℝ) : Job :=
  { demo .passthrough with
    inp := fun _ => ⟨fin 100, fin 45, fin (-120), ⟨consecutive 0 2,
      [("t_min", fun _ => fin (5 + b)), ("t_max", fun _ => fin (15 + b)), ("prec", fun _ => fin 24), ("dtr", fun _ => fin 10),
       ("smoothed_dtr", fun _ => fin 10), ("seasonal_prec", fun _ => fin 800), ("shortwave", fun _ => fin 200),
       ("vapor_pressure", fun _ => fin e), ("tskc", fun _ => fin 0.5)], (fin (4 + b), fin (14 + b))⟩⟩ }

theorem muggy_sane (b e : ℝ) : (muggy b e).Sane where
  step := (demo_sane .passthrough).step
  pos := (demo_sane .passthrough).pos
  calendar := regular_standard _ _
  data := fun _ => rfl
  freq := (demo_sane .passthrough).freq
  years := (demo_sane .passthrough).years
  vars := (demo_sane .passthrough).vars
  names := (demo_sane .passthrough).names
  dims := (demo_sane .passthrough).dims
  dims_pos := (demo_sane .passthrough).dims_pos
  chunks := (demo_sane .passthrough).chunks
  chunks_pos := (demo_sane .passthrough).chunks_pos
  same := (demo_sane .passthrough).same

theorem muggy_sound {b : ℝ} (h0 : 0 ≤ b) (h1 : b ≤ 20) (e : ℝ) (c : Run.Cell) : Sound (muggy b e).shared 2 ((muggy b e).inp c) where
  elev := (demo_sound c).elev
  lat := (demo_sound c).lat
  lon := fun _ _ => Or.inl rfl
  lapse := (demo_sound c).lapse
  fraction := (demo_sound c).fraction
  record := {
    tMin := fun col h i _ => by
      rw [← Option.some.inj (show some (fun _ => fin (5 + b)) = some col from h)]
      exact ⟨5 + b, rfl, by linarith, by linarith⟩
    tMax := fun col h i _ => by
      rw [← Option.some.inj (show some (fun _ => fin (15 + b)) = some col from h)]
      exact ⟨15 + b, rfl, by linarith, by linarith⟩
    dtr := fun col h i _ => by
      rw [← Option.some.inj (show some (fun _ => fin 10) = some col from h)]
      exact ⟨10, rfl, by norm_num, by norm_num⟩
    smoothed := fun col h i _ => by
      rw [← Option.some.inj (show some (fun _ => fin 10) = some col from h)]
      exact ⟨10, rfl⟩
    prec := fun col h i _ => by
      rw [← Option.some.inj (show some (fun _ => fin 24) = some col from h)]
      exact ⟨24, rfl, by norm_num⟩
    seasonal := fun col h i _ => by
      rw [← Option.some.inj (show some (fun _ => fin 800) = some col from h)]
      exact ⟨800, rfl⟩
    wind := fun col h i _ => by
      have : Dict.get? ((muggy b e).inp c).data.frame "wind" = none := rfl
      rw [this] at h; cases h
    state := ⟨4 + b, 14 + b, rfl, by linarith, by linarith, by linarith, by linarith⟩ }
  rain := fun _ _ => Or.inl (by show Lw.upperS "uniform" ≠ "TRIANGLE" ∧ Lw.upperS "uniform" ≠ "MIX"; decide)
  storm := (demo_complete .passthrough c).storm
  longwave := rfl

theorem muggy_given (b : ℝ) {e : ℝ} (he : 0 ≤ e) (c : Run.Cell) : DailyGood 2 ((muggy b e).inp c).data.frame :=
  ⟨⟨_, rfl, fun _ _ => ⟨200, rfl, by norm_num⟩⟩, ⟨_, rfl, fun _ _ => ⟨e, rfl, he⟩⟩,
    ⟨_, rfl, fun _ _ => ⟨0.5, rfl, by norm_num, by norm_num⟩⟩⟩

theorem muggy_complete {b : ℝ} (h0 : 0 ≤ b) (h1 : b ≤ 20) (e : ℝ) (c : Run.Cell) :
    CompleteCell (muggy b e).shared 2 ((muggy b e).inp c) where
  place := ⟨100, 45, -120, rfl, rfl, rfl, by rw [abs_of_pos] <;> norm_num, by unfold muggy demo; norm_num⟩
  lapse := (muggy_sound h0 h1 e c).lapse.1
  columns := by
    intro k hk
    simp only [List.mem_cons, List.not_mem_nil, or_false] at hk
    rcases hk with rfl | rfl | rfl | rfl | rfl | rfl <;> simp [muggy, Dict.get?_cons]
  radiation := fun _ => by simp [muggy, Dict.get?_cons]
  tMin := fun col h i hi => by
    obtain ⟨x, hx, -⟩ := (muggy_sound h0 h1 e c).record.tMin col h i hi
    exact ⟨x, hx⟩
  tMax := fun col h i hi => by
    obtain ⟨x, hx, -⟩ := (muggy_sound h0 h1 e c).record.tMax col h i hi
    exact ⟨x, hx⟩
  state := ⟨4 + b, 14 + b, rfl⟩
  fraction := by unfold muggy demo; norm_num
  lwType := (demo_complete .passthrough c).lwType
  lwCloud := (demo_complete .passthrough c).lwCloud
  storm := (muggy_sound h0 h1 e c).storm

theorem muggy_runs {b : ℝ} (h0 : 0 ≤ b) (h1 : b ≤ 20) (e : ℝ) :
    ∃ order files, (muggy b e).Schedule order ∧ (muggy b e).run 0 order = .ok files := by
  obtain ⟨files, h⟩ := (C71_run (muggy b e) (muggy_sane b e) 0 [[("lat", none), ("lon", none)]]
    ⟨_, rfl, List.Perm.refl _⟩ (fun c _ => muggy_complete h0 h1 e c) (fun h => by cases h)).2
      (fun _ _ => demo_offers (by show (720 : Nat) < 1440; decide) _)
  exact ⟨_, files, ⟨_, rfl, List.Perm.refl _⟩, h⟩

/-- **C127**: there are such runs, for every warming up to 20 degrees and every increase of the vapour pressure. -/
example (b e : ℝ) (h0 : 0 ≤ b) (h1 : b ≤ 20) (he : 600 ≤ e) :
    (∃ order files, (muggy 0 600).Schedule order ∧ (muggy 0 600).run 0 order = .ok files) ∧
    (∃ order files, (muggy b e).Schedule order ∧ (muggy b e).run 0 order = .ok files) ∧ (muggy 0 600).shared.ts < 1440 ∧
    (muggy 0 600).shared.utcOffset = false ∧ (muggy 0 600).shared.method = .passthrough ∧ (muggy 0 600).Computed [0, 0] ∧
    (muggy b e).Computed [0, 0] ∧ SamePlace (muggy 0 600) (muggy b e) [0, 0] [0, 0] ∧
    Sound (muggy 0 600).shared 2 ((muggy 0 600).inp [0, 0]) ∧ Sound (muggy b e).shared 2 ((muggy b e).inp [0, 0]) ∧
    Moister 2 ((muggy 0 600).inp [0, 0]).data ((muggy b e).inp [0, 0]).data ∧
    Extremes (muggy 0 600) [0, 0] (fun _ => 5 + 0) (fun _ => 15 + 0) (4 + 0, 14 + 0) ∧
    Extremes (muggy b e) [0, 0] (fun _ => 5 + b) (fun _ => 15 + b) (4 + b, 14 + b) ∧
    HotterRecord 2 (fun _ => 5 + 0) (fun _ => 15 + 0) (fun _ => 5 + b) (fun _ => 15 + b) (4 + 0, 14 + 0) (4 + b, 14 + b) ∧
    DailyGood 2 ((muggy 0 600).inp [0, 0]).data.frame ∧ DailyGood 2 ((muggy b e).inp [0, 0]).data.frame ∧
    Dict.get? ((muggy 0 600).inp [0, 0]).data.frame "tskc" = Dict.get? ((muggy b e).inp [0, 0]).data.frame "tskc" ∧
    Lw.lwTypeOf (muggy 0 600).shared.lwType = .ok .prata ∧ Lw.cloudOf (muggy 0 600).shared.lwCloud = .ok .deardorff ∧
    (∀ v ∈ ["temp", "tskc", "longwave"], ∃ u, (muggy 0 600).shared.outVars.get? v = some u) := by
  have hc : ∀ b e, (muggy b e).Computed [0, 0] := fun b e => ⟨by show _ ∈ gridCells [("lat", 1), ("lon", 2)]; decide, 1, rfl, one_pos⟩
  refine ⟨muggy_runs le_rfl (by norm_num) _, muggy_runs h0 h1 _, by show (720 : Nat) < 1440; decide, rfl, rfl, hc _ _, hc _ _,
    ⟨rfl, rfl, rfl, rfl⟩, muggy_sound le_rfl (by norm_num) _ _, muggy_sound h0 h1 _ _,
    ⟨_, _, rfl, rfl, fun _ _ => ⟨600, e, rfl, rfl, by norm_num, he⟩⟩,
    ⟨⟨_, rfl, fun _ _ => rfl⟩, ⟨_, rfl, fun _ _ => rfl⟩, rfl⟩, ⟨⟨_, rfl, fun _ _ => rfl⟩, ⟨_, rfl, fun _ _ => rfl⟩, rfl⟩,
    ⟨⟨by norm_num, by norm_num, fun _ _ => by norm_num, fun _ _ => by norm_num⟩,
      ⟨by norm_num, by norm_num, fun _ _ => by norm_num, fun _ _ => by norm_num⟩, fun _ _ => by linarith, fun _ _ => by linarith,
      by show (4 : ℝ) + 0 ≤ 4 + b; linarith, by show (14 : ℝ) + 0 ≤ 14 + b; linarith⟩,
    muggy_given _ (by norm_num) _, muggy_given _ (by linarith) _, rfl, rfl, rfl, fun v hv => ?_⟩
  simp only [List.mem_cons, List.not_mem_nil, or_false] at hv
  rcases hv with rfl | rfl | rfl <;> exact ⟨_, rfl⟩

end Verif.Props
