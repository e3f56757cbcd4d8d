import Verif.Props.Moister
import Verif.Props.WarmMoist

/-!
# Errors in the moisture of a record

An error of at most `b` in every daily vapour pressure makes an error of at most `b` in every vapour pressure written, also where it is
limited by saturation and where it is filled in; in relative humidity an error of at most `b` over saturation.
-/

namespace Verif.Props

open Flt Cell Methods Disaggregate Np Humidity Physics

/-- Both missing, or no further than `b` from each other. -/
def Near (b : ℝ) (x y : Flt ℝ) : Prop := x = nan ∧ y = nan ∨ ∃ p q, x = fin p ∧ y = fin q ∧ |q - p| ≤ b

theorem Near.fin {b p q : ℝ} (h : |q - p| ≤ b) : Near b (fin p) (fin q) := Or.inr ⟨p, q, rfl, rfl, h⟩

theorem Near.nan {b : ℝ} : Near b nan nan := Or.inl ⟨rfl, rfl⟩

/-- At every place of two series. -/
def NearAll (b : ℝ) (xs ys : List (Flt ℝ)) : Prop := ∀ i, Near b (xs.getD i nan) (ys.getD i nan)

theorem NearAll.ffill {e : ℝ} : ∀ {xs ys : List (Flt ℝ)}, xs.length = ys.length → NearAll e xs ys → ∀ {a b : Flt ℝ}, Near e a b →
    NearAll e (Np.ffill a xs) (Np.ffill b ys)
  | [], [], _, _, _, _, _ => fun i => by simp [Np.ffill]; exact Near.nan
  | x :: xs, y :: ys, hl, h, a, b, hab => by
    have h0 : Near e x y := h 0
    have ht : NearAll e xs ys := fun i => h (i + 1)
    have hl' : xs.length = ys.length := Nat.succ.inj hl
    rcases h0 with ⟨rfl, rfl⟩ | ⟨p, q, rfl, rfl, hpq⟩
    · intro i
      simp only [Np.ffill]
      cases i with
      | zero => exact hab
      | succ i => exact NearAll.ffill hl' ht hab i
    · intro i
      simp only [Np.ffill]
      cases i with
      | zero => exact Near.fin hpq
      | succ i => exact NearAll.ffill hl' ht (Near.fin hpq) i

theorem NearAll.reverse {e : ℝ} {xs ys : List (Flt ℝ)} (hl : xs.length = ys.length) (h : NearAll e xs ys) :
    NearAll e xs.reverse ys.reverse := fun i => by
  by_cases hi : i < xs.length
  · rw [getD_reverse hi, getD_reverse (hl ▸ hi), ← hl]
    exact h _
  · rw [List.getD_eq_getElem?_getD, List.getD_eq_getElem?_getD, List.getElem?_eq_none (by rw [List.length_reverse]; omega),
      List.getElem?_eq_none (by rw [List.length_reverse]; omega)]
    exact Near.nan

theorem NearAll.fillBoth {e : ℝ} {xs ys : List (Flt ℝ)} (hl : xs.length = ys.length) (h : NearAll e xs ys) :
    NearAll e (Np.fillBoth xs) (Np.fillBoth ys) := by
  unfold Np.fillBoth
  have h1 := h.ffill hl (a := Flt.nan) (b := Flt.nan) Near.nan
  have l1 : (Np.ffill nan xs).length = (Np.ffill nan ys).length := by rw [length_ffill, length_ffill, hl]
  exact ((h1.reverse l1).ffill (by rw [List.length_reverse, List.length_reverse, l1]) Near.nan).reverse
    (by rw [length_ffill, length_ffill, List.length_reverse, List.length_reverse, l1])

theorem nearAll_of {e : ℝ} {xs ys : List (Flt ℝ)} (hl : xs.length = ys.length)
    (h : ∀ (i : Nat) x y, xs[i]? = some x → ys[i]? = some y → Near e x y) : NearAll e xs ys := fun i => by
  rw [List.getD_eq_getElem?_getD, List.getD_eq_getElem?_getD]
  by_cases hi : i < xs.length
  · rw [List.getElem?_eq_getElem hi, List.getElem?_eq_getElem (hl ▸ hi)]
    exact h i _ _ (List.getElem?_eq_getElem hi) (List.getElem?_eq_getElem (hl ▸ hi))
  · rw [List.getElem?_eq_none (by omega), List.getElem?_eq_none (by omega)]
    exact Near.nan

/-- Two lines through points that are close are close in between. -/
theorem linear_near {e : ℝ} {x : Nat → ℝ} {y z : Nat → Flt ℝ} {n : Nat} (hx : ∀ a b, a < b → b < n → x a < x b)
    (hyz : ∀ i < n, ∃ p q, y i = fin p ∧ z i = fin q ∧ |q - p| ≤ e) (t : ℝ) : Near e (Interp.linear x y n t) (Interp.linear x z n t) := by
  by_cases h : n = 0 ∨ t < x 0 ∨ x (n - 1) < t
  · unfold Interp.linear
    rw [if_pos h, if_pos h]
    exact Near.nan
  · push Not at h
    obtain ⟨h0, h1, h2⟩ := h
    by_cases hn : n = 1
    · subst hn
      have e' : x 0 = t := le_antisymm h1 h2
      obtain ⟨p, q, hp, hq, hpq⟩ := hyz 0 (by omega)
      have : ∀ y : Nat → Flt ℝ, Interp.linear x y 1 t = y 0 := fun y => by
        unfold Interp.linear
        rw [if_neg (by push Not; exact ⟨one_ne_zero, h1, h2⟩)]
        simp [Interp.knotBefore, e']
      rw [this, this, hp, hq]
      exact Near.fin hpq
    · obtain ⟨k, hk, a, b⟩ := exists_segment x (n - 2) t h1 (by rw [show n - 2 + 1 = n - 1 by omega]; exact h2)
      obtain ⟨p, q, hp, hq, hpq⟩ := hyz k (by omega)
      obtain ⟨p', q', hp', hq', hpq'⟩ := hyz (k + 1) (by omega)
      rw [Interp.linear_chord hx (by omega) a b hp hp', Interp.linear_chord hx (by omega) a b hq hq']
      refine Near.fin ?_
      have hd : 0 < x (k + 1) - x k := sub_pos.2 (hx _ _ (Nat.lt_succ_self _) (by omega))
      have u0 : 0 ≤ (t - x k) / (x (k + 1) - x k) := div_nonneg (by linarith) hd.le
      have u1 : (t - x k) / (x (k + 1) - x k) ≤ 1 := by rw [div_le_one hd]; linarith
      obtain ⟨l1, l2⟩ := abs_le.1 hpq
      obtain ⟨m1, m2⟩ := abs_le.1 hpq'
      have r1 := mul_le_mul_of_nonneg_left m1 u0
      have r2 := mul_le_mul_of_nonneg_left m2 u0
      have s1 := mul_le_mul_of_nonneg_left l1 (sub_nonneg.2 u1)
      have s2 := mul_le_mul_of_nonneg_left l2 (sub_nonneg.2 u1)
      exact abs_le.2 ⟨by nlinarith, by nlinarith⟩

theorem capAtSaturation_near {e : ℝ} {v w : Flt ℝ} (h : Near e v w) {T : ℝ} (hT : -237.3 < T) :
    Near e (capAtSaturation v (Flt.fin T)) (capAtSaturation w (Flt.fin T)) := by
  rcases h with ⟨rfl, rfl⟩ | ⟨p, q, rfl, rfl, h⟩
  · left
    constructor <;> simp [capAtSaturation]
  · rw [cap_fin hT, cap_fin hT]
    exact Near.fin ((abs_min_sub_min_le_max _ _ _ _).trans (by
      rw [sub_self, abs_zero]
      exact max_le h ((abs_nonneg _).trans h)))

section daily

variable {fuel fuel' : Nat} {s : Shared} {elev lat lon elev' lat' lon' : ℝ} {d d' : Data}
  {q : Cell.Common fuel s elev lat lon d} {q' : Cell.Common fuel' s elev' lat' lon' d'} {daily daily' : Disaggregate.Daily}
  {tb tb' te : Option (List (Flt ℝ))}

/-- Vapour pressures that are close. -/
theorem Twin.near (h : Twin q q' daily daily') (hll : lat = lat') (htb : tb = tb') (e : AgreeIn ["t_min", "t_max"] d.frame d'.frame)
    (hlat : |lat| ≤ 90) (hus : Usable daily (s.sub elev lon)) {b : ℝ}
    (hle : ∀ i < daily.doy.length, ∃ p q, daily.vaporPressure.getD i nan = fin p ∧ daily'.vaporPressure.getD i nan = fin q ∧ |q - p| ≤ b)
    (t : Trace daily (s.sub elev lon) q.geom tb te) (t' : Trace daily' (s.sub elev' lon') q'.geom tb' te)
    (hT : ∀ T ∈ t.temp, -60 ≤ T ∧ T ≤ 60) :
    (fillBoth t.vp).length = (fillBoth t'.vp).length ∧ NearAll (b / 1000) (fillBoth t.vp) (fillBoth t'.vp) := by
  obtain ⟨hl, hlt⟩ := tmin_lt hlat q.h_geom hus t
  obtain ⟨l1, l2, l3, h4⟩ := vaporPressure_ok t.h_vp
  obtain ⟨l1', l2', l3', h4'⟩ := vaporPressure_ok t'.h_vp
  rw [← h.doy] at l2' l3'
  rw [← h.temp hll htb e t t'] at l2' h4'
  rw [← h.times hll t t'] at l1' h4'
  rw [List.length_map] at l1 l1' l2
  have hll : t.vp.length = t'.vp.length := by rw [l3, l3']; rfl
  refine ⟨by rw [length_fillBoth, length_fillBoth, hll], NearAll.fillBoth hll (nearAll_of hll fun i x y hx hy => ?_)⟩
  have hi := (List.getElem?_eq_some_iff.1 hx).1
  have hi' : i < t.temp.length := by rw [l2, ← l3]; exact hi
  have hg : (t.temp.map (fin : ℝ → Flt ℝ))[i]? = some (fin t.temp[i]) := by
    rw [List.getElem?_map, List.getElem?_eq_getElem hi']; rfl
  have hTi := hT _ (List.getElem_mem hi')
  rw [h4 i _ hg] at hx
  rw [h4' i _ hg] at hy
  rw [← Option.some.inj hx, ← Option.some.inj hy, ← l1, ← l1']
  refine capAtSaturation_near (linear_near (fun a b hab hb => hlt a b hab (by rw [← hl]; exact hb)) (fun k hk => ?_) _)
    (by linarith [hTi.1])
  obtain ⟨p, q, hp, hq, hpq⟩ := hle k (by rw [← hl]; exact hk)
  rw [hp, hq, div_fin_ne (by norm_num), div_fin_ne (by norm_num)]
  exact ⟨_, _, rfl, rfl, by rw [← sub_div, abs_div, abs_of_pos (by norm_num : (0 : ℝ) < 1000)]; exact
    div_le_div_of_nonneg_right hpq (by norm_num)⟩

end daily

/-- Two records of vapour pressure that are never further than `b` apart. -/
def NearRecord (b : ℝ) (n : Nat) (d d' : Data) : Prop :=
  ∃ x x', Dict.get? d.frame "vapor_pressure" = some x ∧ Dict.get? d'.frame "vapor_pressure" = some x' ∧
    ∀ i < n, ∃ p q, x i = fin p ∧ x' i = fin q ∧ |q - p| ≤ b

section C129

variable (j j' : Job) (hj : j.Sane) (hj' : j'.Sane) (hsh : j.shared = j'.shared) (hd0 : j.d0 = j'.d0) (hn : j.n = j'.n)
  (fuel fuel' : Nat) (order order' : List (Dict String Chunk.Slice)) (ho : j.Schedule order) (ho' : j'.Schedule order')
  (files files' : Run.Files Output) (hrun : j.run fuel order = .ok files) (hrun' : j'.run fuel' order' = .ok files')
  (hsub : j.shared.ts < 1440) (hm : j.shared.method = .passthrough) (c c' : Run.Cell) (hc : j.Computed c) (hc' : j'.Computed c')
  (hs : Sound j.shared j.n (j.inp c)) (hsame : SameFor j.shared.utcOffset (besideMoisture "vapor_pressure") (j.inp c) (j'.inp c'))
  (b : ℝ) (hnear : NearRecord b j.n (j.inp c).data (j'.inp c').data)

include hj hj' hsh hd0 hn ho ho' hrun hrun' hsub hm hc hc' hs hsame hnear

/-- **C129**: an error of no more than `b` in the vapour pressures of the record makes an error of no more than `b` (in the unit of the
file, a thousandth of it) in the vapour pressures written, and a value is written for the one where it is for the other. -/
theorem C129_vapour (u : String) (hu : j.shared.outVars.get? "vapor_pressure" = some u) (k : Nat) (hk : k < j.n) (i : Nat)
    (hi : i < 1440 / j.shared.ts) (s : ℝ) (hread : Reads j files c "vapor_pressure" k i s) :
    ∃ s', Reads j' files' c' "vapor_pressure" k i s' ∧ |s' - s| ≤ b / 1000 := by
  obtain ⟨elev, lat, lon, h1, h2, h3, q, daily, t, hd, ld, hnd, hr⟩ := readout j hj ho hrun hsub hc
  have hr' := readout j' hj' ho' hrun' (hsh ▸ hsub) hc'
  rw [← hsh, ← hn] at hr'
  obtain ⟨elev', lat', lon', h1', h2', h3', q', daily', t', hd', ld', hnd', hr'⟩ := hr'
  have ha : Twin q q' daily daily' := ⟨by rw [hj.data c, hj'.data c', hd0, hn], hd, hd', fun hx => by
    have := hsame.lon hx
    rw [h3, h3'] at this
    exact Flt.fin.inj this⟩
  have elat : lat = lat' := by
    have := hsame.lat rfl
    rw [h2, h2'] at this
    exact Flt.fin.inj this
  have etb : some [(j.inp c).data.stateEnd.1, (j.inp c).data.stateEnd.2] = some [(j'.inp c').data.stateEnd.1, (j'.inp c').data.stateEnd.2] := by
    rw [hsame.state rfl]
  have ecols : AgreeIn ["t_min", "t_max"] (j.inp c).data.frame (j'.inp c').data.frame := hsame.columns
  have hlen : (j.inp c).data.days.length = j.n := by rw [hj.data c, length_consecutive]
  have hlen' : (j'.inp c').data.days.length = j.n := by rw [← ha.days, hlen]
  have hm' := hs.record
  rw [← hlen] at hm'
  have hpos := hj.pos
  have hus := usable_of q hd t hj.step.2 (by omega) hm' ⟨by linarith [hs.fraction.1], hs.fraction.2⟩ hs.storm
  have hT := temp_sound hs h2 h3 q hlen hd t hus
  obtain ⟨-, -, -, -, -, q6, -⟩ := dailyOf_ok hd
  obtain ⟨-, -, -, -, -, p6, -⟩ := dailyOf_ok hd'
  obtain ⟨x, x', hx, hx', hle⟩ := hnear
  obtain ⟨y, g, ey⟩ := Cell.column_ok.1 q6
  obtain ⟨y', g', ey'⟩ := Cell.column_ok.1 p6
  obtain rfl := Option.some.inj (g.symm.trans (passed_on q hm hx (by decide) (by decide)))
  obtain rfl := Option.some.inj (g'.symm.trans (passed_on q' hm hx' (by decide) (by decide)))
  have hget : ∀ {n : Nat} {x : Col} {k : Nat}, k < n → ((List.range n).map x).getD k nan = x k := fun {n x k} h => by
    rw [List.getD_eq_getElem?_getD, List.getElem?_map, List.getElem?_range h]
    rfl
  obtain ⟨vl, vm⟩ := ha.near elat etb ecols (hs.lat lat h2) hus (fun k hk => by
    rw [ld] at hk
    rw [ey, ey', hget (by rw [hlen]; exact hk), hget (by rw [hlen']; exact hk)]
    exact hle k hk) t t' hT
  obtain ⟨col, f1, f2⟩ := hr "vapor_pressure" u "Pa" .pressure hu (by decide) rfl (by simp)
  obtain ⟨col', f1', f2'⟩ := hr' "vapor_pressure" u "Pa" .pressure hu (by decide) rfl (by simp)
  obtain ⟨z, hz, hzs⟩ := (f2 k hk i hi).2 s hread
  rw [← Except.ok.inj f1, vp_fill] at hz
  have hz' : z = s := (Prod.mk.inj (Option.some.inj hzs)).2
  subst hz'
  have hlt := (List.getElem?_eq_some_iff.1 hz).1
  have := vm (k * (1440 / j.shared.ts) + i)
  rw [List.getD_eq_getElem?_getD, hz, List.getD_eq_getElem?_getD, List.getElem?_eq_getElem (vl ▸ hlt)] at this
  rcases this with ⟨h, -⟩ | ⟨p, p', e1, e2, e3⟩
  · cases h
  · obtain rfl := Flt.fin.inj e1
    refine ⟨p', (f2' k hk i hi).1 p' _ ?_ rfl, e3⟩
    rw [← Except.ok.inj f1', vp_fill, List.getElem?_eq_getElem (vl ▸ hlt)]
    exact congrArg some e2

/-- **C129**: the temperatures are the same. -/
theorem same_temp (k : Nat) (hk : k < j.n) (i : Nat) (hi : i < 1440 / j.shared.ts) (T : ℝ) (hT : Reads j files c "temp" k i T) :
    Reads j' files' c' "temp" k i T := by
  obtain ⟨u, val, x, kd, h1, h2, h3, h4, h5⟩ := hT
  have hw := written_sub j' hj' ho' hrun' (hsh ▸ hsub) hc'
  rw [← hsh] at hw
  obtain ⟨_, _, _, _, _, _, _, _, _, _, _, hcol'⟩ := hw
  obtain ⟨_, val', _, a2, -⟩ := hcol' "temp" u h1
  have hst : j.stamp k i = j'.stamp k i := by unfold Job.stamp; rw [hsh, hd0]
  have := C112_depends j j' hj hj' hsh hd0 hn fuel fuel' order order' ho ho' files files' hrun hrun' hsub c c' hc hc' "temp" u h1
    ⟨hsame.columns, fun _ => hsame.lat rfl, fun h => (by cases h), fun _ => hsame.state rfl, fun h => hsame.lon h⟩ val val' h2 a2 k i hk hi
  exact ⟨u, val', x, kd, hsh ▸ h1, a2, by rw [← hst, ← this, h3], h4, by rw [← hsh]; exact h5⟩

/-- **C129**: the error in the relative humidity is no more than `b` over the saturation vapour pressure of the step. -/
theorem C129_relative (u : String) (hu : j.shared.outVars.get? "rel_humid" = some u) (k : Nat) (hk : k < j.n) (i : Nat)
    (hi : i < 1440 / j.shared.ts) (T e : ℝ) (hT : Reads j files c "temp" k i T) (he : Reads j files c "vapor_pressure" k i e) :
    ∃ r r', Reads j files c "rel_humid" k i r ∧ Reads j' files' c' "rel_humid" k i r' ∧
      |r' - r| ≤ b / Spec.saturation (T - 273.15) := by
  have ran := @temp_range j hj fuel order ho files hrun hsub c hc hs k i hk hi T hT
  have he' := he
  obtain ⟨uE, -, -, -, hE, -⟩ := he'
  obtain ⟨e', q1, q2⟩ := C129_vapour j j' hj hj' hsh hd0 hn fuel fuel' order order' ho ho' files files' hrun hrun' hsub hm c c' hc hc' hs
    hsame b hnear uE hE k hk i hi e he
  have hT' := same_temp j j' hj hj' hsh hd0 hn fuel fuel' order order' ho ho' files files' hrun hrun' hsub hm c c' hc hc' hs
    hsame b hnear k hk i hi T hT
  refine ⟨_, _, C79_relative_partial j hj fuel order ho files hrun hsub c hc u hu k hk i hi T e hT (by linarith) he,
    C79_relative_partial j' hj' fuel' order' ho' files' hrun' (hsh ▸ hsub) c' hc' u (hsh ▸ hu) k (hn ▸ hk) i (hsh ▸ hi) T e' hT' (by linarith)
      q1, ?_⟩
  rw [saturation_eq]
  have hp := svpR_pos (T - 273.15)
  refine (abs_min_sub_min_le_max _ _ _ _).trans ?_
  rw [sub_self, abs_zero, ← sub_div, ← mul_sub, abs_div, abs_mul, abs_of_pos hp, abs_of_pos (by norm_num : (0 : ℝ) < 1000)]
  have hb : 0 ≤ b := by linarith [abs_nonneg (e' - e)]
  exact max_le (by positivity) (by gcongr; linarith)

end C129

/-- **C129**: there are such runs, as far apart as one likes. -/
example (e f x : ℝ) : (damp e x).Sane ∧ (damp f x).Sane ∧ (damp e x).shared = (damp f x).shared ∧ (damp e x).d0 = (damp f x).d0 ∧
    (damp e x).n = (damp f x).n ∧ (damp e x).shared.ts < 1440 ∧ (damp e x).shared.method = .passthrough ∧ (damp e x).Computed [0, 0] ∧
    (damp f x).Computed [0, 0] ∧ Sound (damp e x).shared 2 ((damp e x).inp [0, 0]) ∧
    SameFor (damp e x).shared.utcOffset (besideMoisture "vapor_pressure") ((damp e x).inp [0, 0]) ((damp f x).inp [0, 0]) ∧
    NearRecord |f - e| 2 ((damp e x).inp [0, 0]).data ((damp f x).inp [0, 0]).data ∧
    (∀ v ∈ ["temp", "vapor_pressure", "rel_humid"], ∃ u, (damp e x).shared.outVars.get? v = some u) ∧
    (∃ order files, (damp e x).Schedule order ∧ (damp e x).run 0 order = .ok files) ∧
    ∃ order files, (damp f x).Schedule order ∧ (damp f x).run 0 order = .ok files := by
  have hc : ∀ x w, (damp x w).Computed [0, 0] := fun x w =>
    ⟨by show _ ∈ gridCells [("lat", 1), ("lon", 2)]; decide, 1, rfl, one_pos⟩
  refine ⟨damp_sane _ _, damp_sane _ _, rfl, rfl, rfl, by show (720 : Nat) < 1440; decide, rfl, hc _ _, hc _ _, damp_sound _ _ _,
    ⟨fun k hk => ?_, fun _ => rfl, fun _ => rfl, fun _ => rfl, fun _ => rfl⟩, ⟨_, _, rfl, rfl, fun i _ => ⟨e, f, rfl, rfl, le_rfl⟩⟩,
    fun v hv => ?_, damp_runs _ _, damp_runs _ _⟩
  · have hk : k ∈ ["t_min", "t_max"] := hk
    simp only [List.mem_cons, List.not_mem_nil, or_false] at hk
    rcases hk with rfl | rfl <;> rfl
  · simp only [List.mem_cons, List.not_mem_nil, or_false] at hv
    rcases hv with rfl | rfl | rfl <;> exact ⟨_, rfl⟩

end Verif.Props
