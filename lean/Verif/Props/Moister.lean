import Verif.Props.MoreMore
import Verif.Props.Consistent

/-!
# More moisture and more cloud

A record of vapour pressure that is nowhere below another gives at least as much vapour pressure, relative and specific humidity and
longwave radiation at every step.
-/

namespace Verif.Props

open Flt Cell Methods Disaggregate Np Linear Humidity Physics

/-! ### One step -/

theorem NotLess.refl (x : Flt ℝ) : NotLess x x := by
  cases x with
  | nan => exact Or.inl ⟨rfl, rfl⟩
  | fin x => exact Or.inr ⟨x, x, rfl, rfl, le_rfl⟩

theorem NotLess.fin {p q : ℝ} (h : p ≤ q) : NotLess (fin p) (fin q) := Or.inr ⟨p, q, rfl, rfl, h⟩

theorem NotLess.nan : NotLess nan nan := Or.inl ⟨rfl, rfl⟩

/-- Not above saturation. -/
theorem capAtSaturation_mono {v w : Flt ℝ} (h : NotLess v w) {T : ℝ} (hT : -237.3 < T) :
    NotLess (capAtSaturation v (Flt.fin T)) (capAtSaturation w (Flt.fin T)) := by
  rcases h with ⟨rfl, rfl⟩ | ⟨p, q, rfl, rfl, h⟩
  · exact NotLess.refl _
  · rw [cap_fin hT, cap_fin hT]
    exact NotLess.fin (min_le_min_right _ h)

theorem relativeHumidity_mono {v w : Flt ℝ} (h : NotLess v w) {T : ℝ} (hT : -237.3 < T) :
    NotLess (relativeHumidity v (Flt.fin T)) (relativeHumidity w (Flt.fin T)) := by
  rcases h with ⟨rfl, rfl⟩ | ⟨p, q, rfl, rfl, h⟩
  · exact NotLess.refl _
  · rw [relativeHumidity_eq hT, relativeHumidity_eq hT]
    refine NotLess.fin (min_le_min_left _ ?_)
    have := satKPa_pos T
    gcongr

theorem specificHumidity_mono {v w : ℝ} (h0 : 0 ≤ v) (h : v ≤ w) {p : ℝ} (h1 : w < p) :
    NotLess (specificHumidity (Flt.fin v) (Flt.fin p)) (specificHumidity (Flt.fin w) (Flt.fin p)) := by
  rcases eq_or_lt_of_le h with rfl | h
  · exact NotLess.refl _
  · obtain ⟨a, b, ha, hb, hab⟩ := C58_increasing v w p h0 h h1
    rw [ha, hb]
    exact NotLess.fin hab.le

/-- The part of Prata's formula that falls with moisture. -/
theorem prata_falls {a b : ℝ} (h0 : 0 ≤ a) (h : a ≤ b) :
    (1 + b) * Real.exp (-Real.sqrt (1.2 + 3 * b)) ≤ (1 + a) * Real.exp (-Real.sqrt (1.2 + 3 * a)) := by
  set s := Real.sqrt (1.2 + 3 * a) with hs
  set r := Real.sqrt (1.2 + 3 * b) with hr
  have es : s * s = 1.2 + 3 * a := Real.mul_self_sqrt (by linarith)
  have er : r * r = 1.2 + 3 * b := Real.mul_self_sqrt (by linarith)
  have hsr : s ≤ r := Real.sqrt_le_sqrt (by linarith)
  have hs0 : 0 ≤ s := Real.sqrt_nonneg _
  have ea : 1 + a = (s * s + 1.8) / 3 := by rw [es]; ring
  have eb : 1 + b = (r * r + 1.8) / 3 := by rw [er]; ring
  have hd : 0 ≤ r - s := by linarith
  have hq := Real.quadratic_le_exp_of_nonneg hd
  have e : Real.exp (-s) = Real.exp (r - s) * Real.exp (-r) := by rw [← Real.exp_add]; congr 1; ring
  have key : r * r + 1.8 ≤ (s * s + 1.8) * Real.exp (r - s) := by
    have h1 : (s * s + 1.8) * (1 + (r - s) + (r - s) ^ 2 / 2) ≤ (s * s + 1.8) * Real.exp (r - s) :=
      mul_le_mul_of_nonneg_left hq (by positivity)
    have h2 : 0 ≤ (r - s) * ((s - 1) ^ 2 + 0.8) := by positivity
    have h3 : 0 ≤ (r - s) ^ 2 * (1 + 3 * a) := by positivity
    nlinarith
  rw [ea, eb, e]
  have := Real.exp_pos (-r)
  have : (r * r + 1.8) * Real.exp (-r) ≤ (s * s + 1.8) * Real.exp (r - s) * Real.exp (-r) := mul_le_mul_of_nonneg_right key this.le
  linarith

/-- Every scheme gives more for more moisture. -/
theorem clearSky_mono (ty : Lw.LwType) {e f t : ℝ} (h0 : 0 ≤ e) (h : e ≤ f) (ht : 0 < t) : clearSky ty e t ≤ clearSky ty f t := by
  cases ty with
  | tva => simp only [clearSky]; linarith
  | anderson => simp only [clearSky]; linarith [Real.sqrt_le_sqrt h]
  | brutsaert =>
    simp only [clearSky]
    have : (e / t) ^ (0.14285714 : ℝ) ≤ (f / t) ^ (0.14285714 : ℝ) :=
      Real.rpow_le_rpow (by positivity) (by gcongr) (by norm_num)
    linarith
  | satterlund =>
    simp only [clearSky]
    have h1 : e ^ (t / 2016) ≤ f ^ (t / 2016) := Real.rpow_le_rpow h0 h (by positivity)
    have h2 : Real.exp (-(f ^ (t / 2016))) ≤ Real.exp (-(e ^ (t / 2016))) := Real.exp_le_exp.2 (by linarith)
    linarith
  | idso =>
    simp only [clearSky]
    have := Real.exp_pos (1500 / t)
    have : 0.0000595 * e * Real.exp (1500 / t) ≤ 0.0000595 * f * Real.exp (1500 / t) := by gcongr
    linarith
  | prata =>
    simp only [clearSky]
    have h1 : 0 ≤ 46.5 * (e / t) := by positivity
    have h2 : 46.5 * (e / t) ≤ 46.5 * (f / t) := by gcongr
    linarith [prata_falls h1 h2]

theorem clearSky_nonneg (ty : Lw.LwType) {e t : ℝ} (h0 : 0 ≤ e) (ht : 0 < t) : 0 ≤ clearSky ty e t := by
  refine le_trans ?_ (clearSky_mono ty le_rfl h0 ht)
  cases ty with
  | tva => simp only [clearSky]; norm_num
  | anderson => simp only [clearSky]; simp; norm_num
  | brutsaert => simp only [clearSky]; positivity
  | satterlund =>
    simp only [clearSky]
    have : Real.exp (-((0 : ℝ) ^ (t / 2016))) ≤ 1 := Real.exp_le_one_iff.2 (by
      have : (0 : ℝ) ≤ (0 : ℝ) ^ (t / 2016) := Real.rpow_nonneg le_rfl _
      linarith)
    linarith
  | idso => simp only [clearSky]; norm_num
  | prata =>
    simp only [clearSky, zero_div, mul_zero, add_zero, one_mul]
    have : Real.exp (-Real.sqrt 1.2) ≤ 1 := Real.exp_le_one_iff.2 (by linarith [Real.sqrt_nonneg (1.2 : ℝ)])
    linarith

/-- More moisture, or more cloud where clouds only add. -/
theorem lwElem_mono {ty : Lw.LwType} {cl : Lw.Cloud} {T : ℝ} (hT : -273.15 < T) {v w : Flt ℝ} (h : NotLess v w)
    (h0 : ∀ x, v = fin x → 0 ≤ x) {c d : ℝ} (hc : 0 ≤ c) (hcd : c ≤ d) (hd : d ≤ 1) (hx : c = d ∨ ty = .prata ∨ cl = .tva) :
    NotLess (lwElem ty cl (Flt.fin T) v (Flt.fin c)) (lwElem ty cl (Flt.fin T) w (Flt.fin d)) := by
  rcases h with ⟨rfl, rfl⟩ | ⟨p, q, rfl, rfl, h⟩
  · have : ∀ c, lwElem ty cl (Flt.fin T) Flt.nan (Flt.fin c) = Flt.nan := fun c => by
      cases ty <;> cases cl <;> simp [lwElem, emissivity, cloudy]
    rw [this, this]
    exact NotLess.nan
  · have hp := h0 p rfl
    rw [C60_value ty cl T p c hp hT, C60_value ty cl T q d (hp.trans h) hT]
    refine NotLess.fin (mul_le_mul_of_nonneg_right ?_ (by positivity))
    have ht : 0 < T + 273.15 := by linarith
    have e1 := clearSky_mono ty (by linarith : 0 ≤ 10 * p) (by linarith : 10 * p ≤ 10 * q) ht
    have e0 := clearSky_nonneg ty (by linarith : 0 ≤ 10 * p) ht
    cases cl with
    | tva =>
      simp only [withCloud]
      exact mul_le_mul (by nlinarith) e1 e0 (by positivity)
    | deardorff =>
      simp only [withCloud]
      have h1 : (1 - d) * clearSky ty (10 * p) (T + 273.15) ≤ (1 - d) * clearSky ty (10 * q) (T + 273.15) :=
        mul_le_mul_of_nonneg_left e1 (by linarith)
      have h2 : c + (1 - c) * clearSky ty (10 * p) (T + 273.15) ≤ d + (1 - d) * clearSky ty (10 * p) (T + 273.15) := by
        rcases hx with rfl | rfl | hx
        · exact le_rfl
        · have : clearSky .prata (10 * p) (T + 273.15) ≤ 1 := by
            simp only [clearSky]
            have : 0 ≤ 1 + 46.5 * (10 * p / (T + 273.15)) := by positivity
            have := mul_nonneg this (Real.exp_pos (-Real.sqrt (1.2 + 3 * (46.5 * (10 * p / (T + 273.15)))))).le
            linarith
          nlinarith
        · cases hx
      linarith

/-! ### Series -/

/-- At every place of two series. -/
def NotLessAll (xs ys : List (Flt ℝ)) : Prop := ∀ i, NotLess (xs.getD i nan) (ys.getD i nan)

theorem NotLessAll.ffill : ∀ {xs ys : List (Flt ℝ)}, xs.length = ys.length → NotLessAll xs ys → ∀ {a b : Flt ℝ}, NotLess a b →
    NotLessAll (Np.ffill a xs) (Np.ffill b ys)
  | [], [], _, _, _, _, _ => fun i => by simp [Np.ffill]; exact NotLess.nan
  | x :: xs, y :: ys, hl, h, a, b, hab => by
    have h0 : NotLess x y := h 0
    have ht : NotLessAll xs ys := fun i => h (i + 1)
    have hl' : xs.length = ys.length := Nat.succ.inj hl
    rcases h0 with ⟨rfl, rfl⟩ | ⟨p, q, rfl, rfl, hpq⟩
    · intro i
      simp only [Np.ffill]
      cases i with
      | zero => exact hab
      | succ i => exact NotLessAll.ffill hl' ht hab i
    · intro i
      simp only [Np.ffill]
      cases i with
      | zero => exact NotLess.fin hpq
      | succ i => exact NotLessAll.ffill hl' ht (NotLess.fin hpq) i

theorem getD_reverse {xs : List (Flt ℝ)} {i : Nat} (h : i < xs.length) : xs.reverse.getD i nan = xs.getD (xs.length - 1 - i) nan := by
  rw [List.getD_eq_getElem?_getD, List.getD_eq_getElem?_getD, getElem?_rev h]

theorem NotLessAll.reverse {xs ys : List (Flt ℝ)} (hl : xs.length = ys.length) (h : NotLessAll xs ys) :
    NotLessAll xs.reverse ys.reverse := fun i => by
  by_cases hi : i < xs.length
  · rw [getD_reverse hi, getD_reverse (hl ▸ hi), ← hl]
    exact h _
  · rw [List.getD_eq_getElem?_getD, List.getD_eq_getElem?_getD, List.getElem?_eq_none (by rw [List.length_reverse]; omega),
      List.getElem?_eq_none (by rw [List.length_reverse]; omega)]
    exact NotLess.nan

theorem NotLessAll.fillBoth {xs ys : List (Flt ℝ)} (hl : xs.length = ys.length) (h : NotLessAll xs ys) :
    NotLessAll (Np.fillBoth xs) (Np.fillBoth ys) := by
  unfold Np.fillBoth
  have h1 := h.ffill hl (a := Flt.nan) (b := Flt.nan) NotLess.nan
  have l1 : (Np.ffill nan xs).length = (Np.ffill nan ys).length := by rw [length_ffill, length_ffill, hl]
  exact ((h1.reverse l1).ffill (by rw [List.length_reverse, List.length_reverse, l1]) NotLess.nan).reverse
    (by rw [length_ffill, length_ffill, List.length_reverse, List.length_reverse, l1])

theorem linear_mono {x : Nat → ℝ} {y z : Nat → Flt ℝ} {n : Nat} (hx : ∀ a b, a < b → b < n → x a < x b)
    (hyz : ∀ i < n, ∃ p q, y i = fin p ∧ z i = fin q ∧ p ≤ q) (t : ℝ) : NotLess (Interp.linear x y n t) (Interp.linear x z n t) := by
  by_cases h : n = 0 ∨ t < x 0 ∨ x (n - 1) < t
  · unfold Interp.linear
    rw [if_pos h, if_pos h]
    exact NotLess.nan
  · push Not at h
    obtain ⟨h0, h1, h2⟩ := h
    by_cases hn : n = 1
    · subst hn
      have e : x 0 = t := le_antisymm h1 h2
      obtain ⟨p, q, hp, hq, hpq⟩ := hyz 0 (by omega)
      have : ∀ y : Nat → Flt ℝ, Interp.linear x y 1 t = y 0 := fun y => by
        unfold Interp.linear
        rw [if_neg (by push Not; exact ⟨one_ne_zero, h1, h2⟩)]
        simp [Interp.knotBefore, e]
      rw [this, this, hp, hq]
      exact NotLess.fin hpq
    · obtain ⟨k, hk, a, b⟩ := exists_segment x (n - 2) t h1 (by rw [show n - 2 + 1 = n - 1 by omega]; exact h2)
      obtain ⟨p, q, hp, hq, hpq⟩ := hyz k (by omega)
      obtain ⟨p', q', hp', hq', hpq'⟩ := hyz (k + 1) (by omega)
      rw [Interp.linear_chord hx (by omega) a b hp hp', Interp.linear_chord hx (by omega) a b hq hq']
      refine NotLess.fin ?_
      have hd : 0 < x (k + 1) - x k := sub_pos.2 (hx _ _ (Nat.lt_succ_self _) (by omega))
      have u0 : 0 ≤ (t - x k) / (x (k + 1) - x k) := div_nonneg (by linarith) hd.le
      have u1 : (t - x k) / (x (k + 1) - x k) ≤ 1 := by rw [div_le_one hd]; linarith
      nlinarith [mul_nonneg (sub_nonneg.2 hpq) (sub_nonneg.2 u1), mul_nonneg (sub_nonneg.2 hpq') u0]

theorem wind_mono {xs ys : List (Flt ℝ)} {ts : Nat} {utc : Bool} {lon : ℝ} {out out' : List (Flt ℝ)} (hl : xs.length = ys.length)
    (h : ∀ i < xs.length, ∃ p q, xs[i]? = some (fin p) ∧ ys[i]? = some (fin q) ∧ p ≤ q) (ho : Disagg.wind xs ts utc lon = .ok out)
    (ho' : Disagg.wind ys ts utc lon = .ok out') : NotLessAll out out' := by
  obtain ⟨ps, e0, e1, hp⟩ : ∃ ps : List (Flt (ℝ × ℝ)), ps.map (see (parts 0 1 0)) = xs ∧ ps.map (see (parts 0 1 1)) = ys ∧
      ∀ x ∈ ps, Pos (see gain x) := by
    refine ⟨List.zipWith (fun a b => match a, b with
      | fin p, fin q => fin (p, q)
      | _, _ => nan) xs ys, ?_, ?_, ?_⟩
    · refine List.ext_getElem? fun i => ?_
      rw [List.getElem?_map, List.getElem?_zipWith]
      by_cases hi : i < xs.length
      · obtain ⟨p, q, g1, g2, -⟩ := h i hi
        simp [g1, g2, parts]
      · rw [List.getElem?_eq_none (by omega : xs.length ≤ i)]; rfl
    · refine List.ext_getElem? fun i => ?_
      rw [List.getElem?_map, List.getElem?_zipWith]
      by_cases hi : i < xs.length
      · obtain ⟨p, q, g1, g2, -⟩ := h i hi
        simp [g1, g2, parts]
      · rw [List.getElem?_eq_none (by omega : xs.length ≤ i), List.getElem?_eq_none (by omega : ys.length ≤ i)]; rfl
    · intro x hx
      obtain ⟨i, hi⟩ := List.mem_iff_getElem?.1 hx
      rw [List.getElem?_zipWith] at hi
      by_cases hlt : i < xs.length
      · obtain ⟨p, q, g1, g2, g3⟩ := h i hlt
        rw [g1, g2] at hi
        rw [← Option.some.inj hi]
        refine Pos.fin ?_
        simp only [gain, LinearMap.sub_apply, LinearMap.snd_apply, LinearMap.fst_apply]
        linarith
      · rw [List.getElem?_eq_none (by omega : xs.length ≤ i)] at hi
        cases hi
  obtain ⟨o, hF⟩ := uniform_wind ps ts utc lon
  have f0 := hF (parts 0 1 0)
  have f1 := hF (parts 0 1 1)
  have fg := hF gain
  beta_reduce at f0 f1 fg
  rw [e0, ho] at f0
  rw [e1, ho'] at f1
  cases o with
  | error e => cases f0
  | ok o =>
    have f0 := Except.ok.inj f0
    have f1 := Except.ok.inj f1
    intro i
    rw [f0, f1, getD_see, getD_see]
    apply notLess_of_gain
    rw [← getD_see]
    exact Pos.getD (pos_wind fg (fun x hx => by
      obtain ⟨y, hy, rfl⟩ := List.mem_map.1 hx
      exact hp y hy)) i

theorem NotLessAll.at {xs ys : List (Flt ℝ)} (h : NotLessAll xs ys) {i : Nat} {x y : Flt ℝ} (hx : xs[i]? = some x) (hy : ys[i]? = some y) :
    NotLess x y := by
  have := h i
  rwa [List.getD_eq_getElem?_getD, List.getD_eq_getElem?_getD, hx, hy] at this

theorem notLessAll_of {xs ys : List (Flt ℝ)} (hl : xs.length = ys.length)
    (h : ∀ (i : Nat) x y, xs[i]? = some x → ys[i]? = some y → NotLess x y) : NotLessAll xs ys := fun i => by
  rw [List.getD_eq_getElem?_getD, List.getD_eq_getElem?_getD]
  by_cases hi : i < xs.length
  · rw [List.getElem?_eq_getElem hi, List.getElem?_eq_getElem (hl ▸ hi)]
    exact h i _ _ (List.getElem?_eq_getElem hi) (List.getElem?_eq_getElem (hl ▸ hi))
  · rw [List.getElem?_eq_none (by omega), List.getElem?_eq_none (by omega)]
    exact NotLess.nan

theorem NotLessAll.zip {β : Type*} {f : Flt ℝ → β → Flt ℝ} {xs ys : List (Flt ℝ)} {zs : List β} (hl : xs.length = ys.length)
    (h : ∀ (i : Nat) x y z, xs[i]? = some x → ys[i]? = some y → zs[i]? = some z → NotLess (f x z) (f y z)) :
    NotLessAll (List.zipWith f xs zs) (List.zipWith f ys zs) := by
  refine notLessAll_of (by rw [List.length_zipWith, List.length_zipWith, hl]) fun i x y hx hy => ?_
  rw [List.getElem?_zipWith_eq_some] at hx hy
  obtain ⟨a, b, h1, h2, rfl⟩ := hx
  obtain ⟨c, d, h3, h4, rfl⟩ := hy
  rw [h2] at h4
  cases h4
  exact h i _ _ _ h1 h3 h2

/-! ### Two runs -/

section daily

variable {fuel fuel' : Nat} {s : Shared} {elev lat lon elev' lat' lon' : ℝ} {d d' : Data}
  {q : Cell.Common fuel s elev lat lon d} {q' : Cell.Common fuel' s elev' lat' lon' d'} {daily daily' : Disaggregate.Daily}
  {tb tb' te : Option (List (Flt ℝ))}

/-- More vapour pressure. -/
theorem Twin.moister (h : Twin q q' daily daily') (hll : lat = lat') (htb : tb = tb') (e : AgreeIn ["t_min", "t_max"] d.frame d'.frame)
    (hlat : |lat| ≤ 90) (hus : Usable daily (s.sub elev lon))
    (hle : ∀ i < daily.doy.length, ∃ p q, daily.vaporPressure.getD i nan = fin p ∧ daily'.vaporPressure.getD i nan = fin q ∧ p ≤ q)
    (t : Trace daily (s.sub elev lon) q.geom tb te) (t' : Trace daily' (s.sub elev' lon') q'.geom tb' te)
    (hT : ∀ T ∈ t.temp, -60 ≤ T ∧ T ≤ 60) :
    (fillBoth t.vp).length = (fillBoth t'.vp).length ∧ NotLessAll (fillBoth t.vp) (fillBoth t'.vp) ∧
      ∀ (i : Nat) x, (fillBoth t'.vp)[i]? = some (fin x) → x ≤ 20.3 := by
  obtain ⟨hl, hlt⟩ := tmin_lt hlat q.h_geom hus t
  obtain ⟨l1, l2, l3, h4⟩ := vaporPressure_ok t.h_vp
  obtain ⟨l1', l2', l3', h4'⟩ := vaporPressure_ok t'.h_vp
  rw [← h.doy] at l2' l3'
  rw [← h.temp hll htb e t t'] at l2' h4'
  rw [← h.times hll t t'] at l1' h4'
  rw [List.length_map] at l1 l1' l2
  have hll : t.vp.length = t'.vp.length := by rw [l3, l3']; rfl
  have hcap : ∀ (i : Nat) x, t'.vp[i]? = some (fin x) → x ≤ 20.3 := by
    intro i x hx
    have hi := (List.getElem?_eq_some_iff.1 hx).1
    have hi' : i < t.temp.length := by rw [l2, ← l3, hll]; exact hi
    have hTi := hT _ (List.getElem_mem hi')
    have hsat : svpR t.temp[i] ≤ 20300 := (Physics.svpR_le (by linarith [hTi.1]) hTi.2).trans svpR_60
    rw [h4' i (fin t.temp[i]) (by rw [List.getElem?_map, List.getElem?_eq_getElem hi']; rfl)] at hx
    have hx := Option.some.inj hx
    obtain ⟨w, hw⟩ := cap_of_fin hx
    rw [hw, cap_fin (by linarith [hTi.1])] at hx
    rw [← Flt.fin.inj hx]
    have := min_le_right w (svpR t.temp[i] / 1000)
    linarith
  refine ⟨by rw [length_fillBoth, length_fillBoth, hll], NotLessAll.fillBoth hll (notLessAll_of hll fun i x y hx hy => ?_), ?_⟩
  · have hi := (List.getElem?_eq_some_iff.1 hx).1
    have hi' : i < t.temp.length := by rw [l2, ← l3]; exact hi
    have hg : (t.temp.map (fin : ℝ → Flt ℝ))[i]? = some (fin t.temp[i]) := by
      rw [List.getElem?_map, List.getElem?_eq_getElem hi']; rfl
    have hTi := hT _ (List.getElem_mem hi')
    rw [h4 i _ hg] at hx
    rw [h4' i _ hg] at hy
    rw [← Option.some.inj hx, ← Option.some.inj hy, ← l1, ← l1']
    refine capAtSaturation_mono (linear_mono (fun a b hab hb => hlt a b hab (by rw [← hl]; exact hb)) (fun k hk => ?_) _)
      (by linarith [hTi.1])
    obtain ⟨p, q, hp, hq, hpq⟩ := hle k (by rw [← hl]; exact hk)
    rw [hp, hq, div_fin_ne (by norm_num), div_fin_ne (by norm_num)]
    exact ⟨_, _, rfl, rfl, by gcongr⟩
  · intro i x hx
    rcases fillBoth_spec hx with ⟨j, w, -, hx, he, -⟩ | ⟨j, w, -, hx, he, -⟩ | ⟨he, -⟩
    · rw [Flt.fin.inj he]; exact hcap _ _ hx
    · rw [Flt.fin.inj he]; exact hcap _ _ hx
    · cases he

end daily

/-- Variables that follow the moisture of the air. -/
def moistVars : List String := ["vapor_pressure", "rel_humid", "spec_humid", "longwave"]

/-- What else they are computed from. -/
def besideMoisture (v : String) : Needs := ⟨["t_min", "t_max"], true, v == "spec_humid", true⟩

theorem moist_table {v u : String} (hv : v ∈ moistVars) {table : Dict String (Units.Conv ℝ)} {g : Units.Conv ℝ}
    (h1 : (Units.converters (K := ℝ)).get? v = some table) (h2 : table.get? u = some g) :
    g = Units.ident ∨ g = Units.divBy 100 ∨ g = Units.divBy 1000 := by
  have e1 : (Units.converters (K := ℝ)).get? "vapor_pressure" =
      some [("Pa", Units.ident), ("hPa", Units.divBy 100), ("kPa", Units.divBy 1000)] := rfl
  have e2 : (Units.converters (K := ℝ)).get? "rel_humid" = some [("%", Units.ident), ("fraction", Units.divBy 100)] := rfl
  have e3 : (Units.converters (K := ℝ)).get? "spec_humid" = some [("g g-1", Units.ident)] := rfl
  have e4 : (Units.converters (K := ℝ)).get? "longwave" = some [("W m-2", Units.ident)] := rfl
  unfold moistVars at hv
  simp only [List.mem_cons, List.not_mem_nil, or_false] at hv
  rcases hv with rfl | rfl | rfl | rfl
  · rw [e1] at h1
    rw [← Option.some.inj h1] at h2
    have := Dict.mem_of_get? _ h2
    simp only [List.mem_cons, Prod.mk.injEq, List.not_mem_nil, or_false] at this
    rcases this with h | h | h
    · exact Or.inl h.2
    · exact Or.inr (Or.inl h.2)
    · exact Or.inr (Or.inr h.2)
  · rw [e2] at h1
    rw [← Option.some.inj h1] at h2
    have := Dict.mem_of_get? _ h2
    simp only [List.mem_cons, Prod.mk.injEq, List.not_mem_nil, or_false] at this
    rcases this with h | h
    · exact Or.inl h.2
    · exact Or.inr (Or.inl h.2)
  · rw [e3] at h1
    rw [← Option.some.inj h1] at h2
    have := Dict.mem_of_get? _ h2
    simp only [List.mem_cons, Prod.mk.injEq, List.not_mem_nil, or_false] at this
    exact Or.inl this.2
  · rw [e4] at h1
    rw [← Option.some.inj h1] at h2
    have := Dict.mem_of_get? _ h2
    simp only [List.mem_cons, Prod.mk.injEq, List.not_mem_nil, or_false] at this
    exact Or.inl this.2

theorem moist_unit {v u : String} (hv : v ∈ moistVars) {x x' y y' : Flt ℝ} {ts : Int} (h : Units.convert v u x ts = .ok y)
    (h' : Units.convert v u x' ts = .ok y') (hx : NotLess x x') : NotLess y y' := by
  have dv : ∀ c : ℝ, 0 < c → NotLess (x / fin c) (x' / fin c) := fun c hc => by
    rcases hx with ⟨rfl, rfl⟩ | ⟨p, q, rfl, rfl, hpq⟩
    · exact NotLess.nan
    · rw [div_fin_ne hc.ne', div_fin_ne hc.ne']
      exact NotLess.fin (by gcongr)
  obtain ⟨table, g, g1, g2, g3⟩ := convert_ok h
  obtain ⟨table', g', g1', g2', g3'⟩ := convert_ok h'
  rw [g1] at g1'
  cases g1'
  rw [g2] at g2'
  cases g2'
  have hg := moist_table hv g1 g2
  rw [← g3, ← g3']
  rcases hg with rfl | rfl | rfl
  · exact hx
  · exact dv _ (by norm_num)
  · exact dv _ (by norm_num)

/-- A record of vapour pressure that is nowhere below another, which is nowhere negative. -/
def Moister (n : Nat) (d d' : Data) : Prop :=
  ∃ x x', Dict.get? d.frame "vapor_pressure" = some x ∧ Dict.get? d'.frame "vapor_pressure" = some x' ∧
    ∀ i < n, ∃ p q, x i = fin p ∧ x' i = fin q ∧ 0 ≤ p ∧ p ≤ q

/-- A record of cloud cover that is nowhere below another, both between none and full. -/
def Cloudier (n : Nat) (d d' : Data) : Prop :=
  ∃ x x', Dict.get? d.frame "tskc" = some x ∧ Dict.get? d'.frame "tskc" = some x' ∧
    ∀ i < n, ∃ p q, x i = fin p ∧ x' i = fin q ∧ 0 ≤ p ∧ p ≤ q ∧ q ≤ 1

/-- **C117**: with a record of vapour pressure that is nowhere below another there is nowhere less vapour pressure, relative humidity,
specific humidity or longwave radiation; nor is there less longwave radiation with more cloud, where clouds only add. -/
theorem C117_moister (j j' : Job) (hj : j.Sane) (hj' : j'.Sane) (hsh : j.shared = j'.shared) (hd0 : j.d0 = j'.d0) (hn : j.n = j'.n)
    (fuel fuel' : Nat) (order order' : List (Dict String Chunk.Slice)) (ho : j.Schedule order) (ho' : j'.Schedule order')
    (files files' : Run.Files Output) (hrun : j.run fuel order = .ok files) (hrun' : j'.run fuel' order' = .ok files')
    (hsub : j.shared.ts < 1440) (hm : j.shared.method = .passthrough) (c c' : Run.Cell) (hc : j.Computed c) (hc' : j'.Computed c')
    (v u : String) (hv : v ∈ moistVars) (hu : j.shared.outVars.get? v = some u) (hs : Sound j.shared j.n (j.inp c))
    (hsame : SameFor j.shared.utcOffset (besideMoisture v) (j.inp c) (j'.inp c')) (hmoist : Moister j.n (j.inp c).data (j'.inp c').data)
    (hcloud : v = "longwave" → Dict.get? (j'.inp c').data.frame "longwave" = none ∧ Cloudier j.n (j.inp c).data (j'.inp c').data ∧
      (Dict.get? (j.inp c).data.frame "tskc" = Dict.get? (j'.inp c').data.frame "tskc" ∨ Lw.upperS j.shared.lwType = "PRATA" ∨
        Lw.upperS j.shared.lwCloud ∈ ["DEFAULT", "TVA"]))
    (val val' : ℚ → Flt ℝ) (hval : Recorded j files v c val) (hval' : Recorded j' files' v c' val')
    (k i : Nat) (hk : k < j.n) (hi : i < 1440 / j.shared.ts) : NotLess (val (j.stamp k i)) (val' (j.stamp k i)) := by
  obtain ⟨elev, lat, lon, h1, h2, h3, q, daily, sub, hd, hsu, hcol⟩ := written_sub j hj ho hrun hsub hc
  have hst : ∀ k i, j.stamp k i = j'.stamp k i := fun k i => by unfold Job.stamp; rw [hsh, hd0]
  have hw := written_sub j' hj' ho' hrun' (hsh ▸ hsub) hc'
  rw [← hsh] at hw
  obtain ⟨elev', lat', lon', h1', h2', h3', q', daily', sub', hd', hsu', hcol'⟩ := hw
  obtain ⟨col, w, a1, a2, a3⟩ := hcol v u hu
  obtain ⟨col', w', a1', a2', a3'⟩ := hcol' v u hu
  obtain ⟨t, rfl⟩ := disaggregate_ok.1 hsu
  obtain ⟨t', rfl⟩ := disaggregate_ok.1 hsu'
  have ha : Twin q q' daily daily' := ⟨by rw [hj.data c, hj'.data c', hd0, hn], hd, hd', fun hx => by
    have := hsame.lon hx
    rw [h3, h3'] at this
    exact Flt.fin.inj this⟩
  have b := a3 k hk i hi
  have b' := a3' k (hn ▸ hk) i hi
  rw [recorded_unique j hj hval a2 hk hi, hst, recorded_unique j' hj' hval' a2' (hn ▸ hk) (hsh ▸ hi)]
  rw [hst] at b
  refine moist_unit hv b b' ?_
  suffices NotLessAll col col' from this _
  have elat : lat = lat' := by
    have := hsame.lat rfl
    rw [h2, h2'] at this
    exact Flt.fin.inj this
  have etb : some [(j.inp c).data.stateEnd.1, (j.inp c).data.stateEnd.2] = some [(j'.inp c').data.stateEnd.1, (j'.inp c').data.stateEnd.2] := by
    rw [hsame.state rfl]
  have ecols : AgreeIn ["t_min", "t_max"] (j.inp c).data.frame (j'.inp c').data.frame := hsame.columns
  have hlen : (j.inp c).data.days.length = j.n := by rw [hj.data c, length_consecutive]
  have hlen' : (j'.inp c').data.days.length = j.n := by rw [← ha.days, hlen]
  have hm' := hs.record
  rw [← hlen] at hm'
  have hpos := hj.pos
  have hus := usable_of q hd t hj.step.2 (by omega) hm' ⟨by linarith [hs.fraction.1], hs.fraction.2⟩ hs.storm
  have hT := temp_sound hs h2 h3 q hlen hd t hus
  have et := ha.temp elat etb ecols t t'
  obtain ⟨q1, q2, q3, q4, q5, q6, q7, q8, q9, q10, -⟩ := dailyOf_ok hd
  obtain ⟨-, -, -, -, -, p6, p7, -, -, p10, -⟩ := dailyOf_ok hd'
  have ld : daily.doy.length = j.n := by rw [q1, List.length_map, hlen]
  have hcolumn : ∀ {e : Frame} {n : Nat} {name : String} {xs : List (Flt ℝ)} {x : Col}, Cell.column n e name = .ok xs →
      Dict.get? e name = some x → xs = (List.range n).map x := fun h hx => by
    obtain ⟨col, g, rfl⟩ := Cell.column_ok.1 h
    rw [g] at hx
    rw [Option.some.inj hx]
  obtain ⟨x, x', hx, hx', hle⟩ := hmoist
  have ex := hcolumn q6 (passed_on q hm hx (by decide) (by decide))
  have ex' := hcolumn p6 (passed_on q' hm hx' (by decide) (by decide))
  have hget : ∀ {n : Nat} {x : Col} {k : Nat}, k < n → ((List.range n).map x).getD k nan = x k := fun {n x k} h => by
    rw [List.getD_eq_getElem?_getD, List.getElem?_map, List.getElem?_range h]
    rfl
  obtain ⟨vl, vm, vc⟩ := ha.moister elat etb ecols (hs.lat lat h2) hus (fun k hk => by
    rw [ld] at hk
    obtain ⟨p, q, g1, g2, -, g3⟩ := hle k hk
    rw [ex, ex', hget (by rw [hlen]; exact hk), hget (by rw [hlen']; exact hk)]
    exact ⟨p, q, g1, g2, g3⟩) t t' hT
  have h0 : ∀ (i : Nat) x, (fillBoth t.vp)[i]? = some (fin x) → 0 ≤ x := by
    have hcap : ∀ (i : Nat) x, t.vp[i]? = some (fin x) → 0 ≤ x := fun i y hy =>
      vp_nonneg (hs.lat lat h2) q.h_geom hus t (fun z hz => by
        rw [ex] at hz
        obtain ⟨k, hk, rfl⟩ := List.mem_map.1 hz
        obtain ⟨p, q, g1, -, g2, -⟩ := hle k (by rw [← hlen]; exact List.mem_range.1 hk)
        exact ⟨p, g1, g2⟩) (fun T h => by linarith [(hT T h).1]) hy
    intro i x hx
    rcases fillBoth_spec hx with ⟨j, w, -, hx, he, -⟩ | ⟨j, w, -, hx, he, -⟩ | ⟨he, -⟩
    · rw [Flt.fin.inj he]; exact hcap _ _ hx
    · rw [Flt.fin.inj he]; exact hcap _ _ hx
    · cases he
  obtain ⟨-, lt, lv, -⟩ := vaporPressure_ok t.h_vp
  rw [List.length_map] at lt
  have lv' : (fillBoth t.vp).length = nDisagg daily.doy.length j.shared.ts := by rw [length_fillBoth, lv]; rfl
  have hTi : ∀ {i : Nat} {z : Flt ℝ}, (t.temp.map (fin : ℝ → Flt ℝ))[i]? = some z → ∃ T, z = fin T ∧ -60 ≤ T ∧ T ≤ 60 := fun h => by
    obtain ⟨T, hT1, rfl⟩ := List.mem_map.1 (List.mem_of_getElem? h)
    exact ⟨T, rfl, hT T hT1⟩
  unfold moistVars at hv
  simp only [List.mem_cons, List.not_mem_nil, or_false] at hv
  rcases hv with rfl | rfl | rfl | rfl
  · have e : col = fillBoth (fillBoth t.vp) := (Except.ok.inj a1).symm
    have e' : col' = fillBoth (fillBoth t'.vp) := (Except.ok.inj a1').symm
    rw [e, e', fillBoth_idem, fillBoth_idem]
    exact vm
  · have e : col = fillBoth t.relHumid := (Except.ok.inj a1).symm
    have e' : col' = fillBoth t'.relHumid := (Except.ok.inj a1').symm
    rw [e, e']
    unfold Trace.relHumid
    rw [← et]
    refine NotLessAll.fillBoth (by rw [List.length_zipWith, List.length_zipWith, vl]) (NotLessAll.zip vl fun i a b z ga gb gz => ?_)
    obtain ⟨T, rfl, hT1, -⟩ := hTi gz
    exact relativeHumidity_mono (vm.at ga gb) (by linarith)
  · have e : col = fillBoth t.specHumid := (Except.ok.inj a1).symm
    have e' : col' = fillBoth t'.specHumid := (Except.ok.inj a1').symm
    have eelev : elev = elev' := by
      have := hsame.elev rfl
      rw [h1, h1'] at this
      exact Flt.fin.inj this
    have ep : t'.airPressure = t.airPressure := by
      unfold Trace.airPressure
      rw [← et]
      show (t.temp.map fin).map (fun x => Humidity.pressure x elev' j.shared.lapseRate) = _
      rw [← eelev]
      rfl
    rw [e, e']
    unfold Trace.specHumid
    rw [ep]
    refine NotLessAll.fillBoth (by rw [List.length_zipWith, List.length_zipWith, vl]) (NotLessAll.zip vl fun i a b z ga gb gz => ?_)
    unfold Trace.airPressure at gz
    rw [List.getElem?_map] at gz
    obtain ⟨y, gy, rfl⟩ := Option.map_eq_some_iff.1 gz
    obtain ⟨T, rfl, hT1, -⟩ := hTi gy
    obtain ⟨P, g3, g4⟩ := pressure_ge hT1 hs.lapse.1 hs.lapse.2 (hs.elev elev h1)
    have g3' : Humidity.pressure (fin T) (j.shared.sub elev lon).elev (j.shared.sub elev lon).lapseRate = fin P := g3
    rw [g3']
    rcases vm.at ga gb with ⟨rfl, rfl⟩ | ⟨p, q, rfl, rfl, hpq⟩
    · exact NotLess.refl _
    · exact specificHumidity_mono (h0 _ _ ga) hpq (by linarith [vc _ _ gb])
  · have e : col = fillBoth t.lw := (Except.ok.inj a1).symm
    have e' : col' = fillBoth t'.lw := (Except.ok.inj a1').symm
    obtain ⟨hno, ⟨y, y', hy, hy', hyle⟩, hwhich⟩ := hcloud rfl
    have ey := hcolumn q7 (passed_on q hm hy (by decide) (by decide))
    have ey' := hcolumn p7 (passed_on q' hm hy' (by decide) (by decide))
    rw [hlen] at ey
    rw [hlen'] at ey'
    obtain ⟨ty, hty⟩ := hus.lwType
    obtain ⟨cl, hcl⟩ := hus.lwCloud
    have lc : t.cloud.length = t'.cloud.length := by rw [t.l_cloud, t'.l_cloud, ha.doy]; rfl
    have hcl0 := t.h_cloud
    have hcl1 := t'.h_cloud
    have erem : Disagg.tskc daily'.tskc j.shared.ts j.shared.utcOffset (Disagg.remainder360 lon') =
        Disagg.tskc daily'.tskc j.shared.ts j.shared.utcOffset (Disagg.remainder360 lon) := by
      have := ha.rem
      unfold Disagg.tskc
      cases hu : j.shared.utcOffset with
      | true => rw [this hu]
      | false => rfl
    have hcl1 : Disagg.wind daily'.tskc j.shared.ts j.shared.utcOffset (Disagg.remainder360 lon) = .ok t'.cloud := erem.symm.trans hcl1
    have hcl0 : Disagg.wind daily.tskc j.shared.ts j.shared.utcOffset (Disagg.remainder360 lon) = .ok t.cloud := hcl0
    have hrange : ∀ {x : Col} {k : Nat}, k < j.n → ((List.range j.n).map x)[k]? = some (x k) := fun h => by
      rw [List.getElem?_map, List.getElem?_range h]; rfl
    have cm : NotLessAll t.cloud t'.cloud := wind_mono (by rw [ey, ey', List.length_map, List.length_map]) (fun k hk => by
      rw [ey, List.length_map, List.length_range] at hk
      obtain ⟨p, q, g1, g2, -, g3, -⟩ := hyle k hk
      rw [ey, ey', hrange hk, hrange hk, g1, g2]
      exact ⟨p, q, rfl, rfl, g3⟩) hcl0 hcl1
    have cb : ∀ z ∈ t.cloud, ∃ x, z = fin x ∧ 0 ≤ x ∧ x ≤ 1 := C50_bounds hcl0 (fun z hz => by
      rw [ey] at hz
      obtain ⟨k, hk, rfl⟩ := List.mem_map.1 hz
      obtain ⟨p, q, g1, -, g2, g3, g4⟩ := hyle k (List.mem_range.1 hk)
      exact ⟨p, g1, g2, g3.trans g4⟩)
    have cb' : ∀ z ∈ t'.cloud, ∃ x, z = fin x ∧ 0 ≤ x ∧ x ≤ 1 := C50_bounds hcl1 (fun z hz => by
      rw [ey'] at hz
      obtain ⟨k, hk, rfl⟩ := List.mem_map.1 hz
      obtain ⟨p, q, -, g1, g2, g3, g4⟩ := hyle k (List.mem_range.1 hk)
      exact ⟨q, g1, g2.trans g3, g4⟩)
    have hwhich' : t.cloud = t'.cloud ∨ ty = .prata ∨ cl = .tva := by
      rcases hwhich with hw | hw | hw
      · left
        rw [hy, hy'] at hw
        rw [ey, Option.some.inj hw, ← ey'] at hcl0
        exact Except.ok.inj (hcl0.symm.trans hcl1)
      · right; left
        have hty : Lw.emissivityCalc.get (Lw.upperS j.shared.lwType) = .ok ty := hty
        rw [hw] at hty
        exact (Except.ok.inj hty).symm
      · right; right
        have hcl : Lw.cloudCalc.get (Lw.upperS j.shared.lwCloud) = .ok cl := hcl
        simp only [List.mem_cons, List.not_mem_nil, or_false] at hw
        rcases hw with hw | hw <;> rw [hw] at hcl <;> exact (Except.ok.inj hcl).symm
    have lcn : t.cloud.length = nDisagg daily.doy.length j.shared.ts := t.l_cloud
    have ltn : t.temp.length = nDisagg daily.doy.length j.shared.ts := lt
    obtain ⟨lw, g1, g2, g3⟩ := C60_series (t.temp.map fin) (fillBoth t.vp) t.cloud j.shared.lwType j.shared.lwCloud j.shared.ts ty cl hty hcl
      (by rw [List.length_map, ltn, lv']) (by rw [List.length_map, ltn, lcn])
    obtain ⟨lw', g1', g2', g3'⟩ := C60_series (t.temp.map fin) (fillBoth t'.vp) t'.cloud j.shared.lwType j.shared.lwCloud j.shared.ts ty cl
      hty hcl (by rw [List.length_map, ltn, ← vl, lv']) (by rw [List.length_map, ltn, ← lc, lcn])
    have dl : daily.longwave = none := by
      rw [q10]
      unfold Cell.column?
      rw [base_keeps q (by decide) (by decide), hs.longwave]; rfl
    have dl' : daily'.longwave = none := by
      rw [p10]
      unfold Cell.column?
      rw [base_keeps q' (by decide) (by decide), hno]; rfl
    have hlw := t.h_lw
    have hlw' := t'.h_lw
    rw [dl] at hlw
    rw [dl', ← et] at hlw'
    have elw : t.lw = lw := Except.ok.inj (hlw.symm.trans g1)
    have elw' : t'.lw = lw' := Except.ok.inj (hlw'.symm.trans g1')
    rw [e, e', elw, elw']
    refine NotLessAll.fillBoth (by rw [g2, g2']) (notLessAll_of (by rw [g2, g2']) fun i a b ga gb => ?_)
    have hi := (List.getElem?_eq_some_iff.1 ga).1
    rw [g2, List.length_map, ltn] at hi
    have gT : (t.temp.map (fin : ℝ → Flt ℝ))[i]? = some (fin t.temp[i]) := by
      rw [List.getElem?_map, List.getElem?_eq_getElem (by rw [ltn]; exact hi)]; rfl
    have gv : (fillBoth t.vp)[i]? = some (fillBoth t.vp)[i] := List.getElem?_eq_getElem (by rw [lv']; exact hi)
    have gv' : (fillBoth t'.vp)[i]? = some (fillBoth t'.vp)[i] := List.getElem?_eq_getElem (by rw [← vl, lv']; exact hi)
    have gc : t.cloud[i]? = some t.cloud[i] := List.getElem?_eq_getElem (by rw [lcn]; exact hi)
    have gc' : t'.cloud[i]? = some t'.cloud[i] := List.getElem?_eq_getElem (by rw [← lc, lcn]; exact hi)
    rw [g3 i _ _ _ gT gv gc] at ga
    rw [g3' i _ _ _ gT gv' gc'] at gb
    rw [← Option.some.inj ga, ← Option.some.inj gb]
    obtain ⟨c1, k1, k2, k3⟩ := cb _ (List.mem_of_getElem? gc)
    obtain ⟨c2, m1, m2, m3⟩ := cb' _ (List.mem_of_getElem? gc')
    have hcc : c1 ≤ c2 := by
      rcases cm.at gc gc' with ⟨r, -⟩ | ⟨p, q, r1, r2, r3⟩
      · rw [k1] at r; cases r
      · rw [k1] at r1
        rw [m1] at r2
        rw [Flt.fin.inj r1, Flt.fin.inj r2]
        exact r3
    have hTT := hT _ (List.mem_of_getElem? (List.getElem?_eq_getElem (show i < t.temp.length by rw [ltn]; exact hi)))
    rw [k1, m1]
    refine lwElem_mono (by linarith [hTT.1]) (vm.at gv gv') (fun z hz => h0 i z (by rw [gv, hz])) k2 hcc m3 ?_
    rcases hwhich' with hq | hq
    · left
      have e := congrArg (fun l => l[i]?) hq
      beta_reduce at e
      rw [gc, gc', k1, m1] at e
      exact Flt.fin.inj (Option.some.inj e)
    · exact Or.inr hq

/-- A run over two days with a given vapour pressure and cloud cover. -/
noncomputable def damp (e c : ℝ) : Job :=
  { demo .passthrough with
    inp := fun _ => ⟨fin 100, fin 45, fin (-120), ⟨consecutive 0 2,
      [("t_min", fun _ => fin 5), ("t_max", fun _ => fin 15), ("prec", fun _ => fin 24), ("dtr", fun _ => fin 10),
       ("smoothed_dtr", fun _ => fin 10), ("seasonal_prec", fun _ => fin 800), ("shortwave", fun _ => fin 200),
       ("vapor_pressure", fun _ => fin e), ("tskc", fun _ => fin c)], (fin 4, fin 14)⟩⟩ }

theorem damp_sane (e c : ℝ) : (damp e c).Sane where
  step := humid_sane.step
  pos := humid_sane.pos
  calendar := regular_standard _ _
  data := fun _ => rfl
  freq := humid_sane.freq
  years := humid_sane.years
  vars := humid_sane.vars
  names := humid_sane.names
  dims := humid_sane.dims
  dims_pos := humid_sane.dims_pos
  chunks := humid_sane.chunks
  chunks_pos := humid_sane.chunks_pos
  same := humid_sane.same

theorem damp_sound (e x : ℝ) (c : Run.Cell) : Sound (damp e x).shared 2 ((damp e x).inp c) where
  elev := (humid_sound c).elev
  lat := (humid_sound c).lat
  lon := (humid_sound c).lon
  lapse := (humid_sound c).lapse
  fraction := (humid_sound c).fraction
  record := {
    tMin := (humid_sound c).record.tMin
    tMax := (humid_sound c).record.tMax
    dtr := (humid_sound c).record.dtr
    smoothed := (humid_sound c).record.smoothed
    prec := (humid_sound c).record.prec
    seasonal := (humid_sound c).record.seasonal
    wind := (humid_sound c).record.wind
    state := (humid_sound c).record.state }
  rain := fun _ _ => Or.inl (by show Lw.upperS "uniform" ≠ _ ∧ Lw.upperS "uniform" ≠ _; decide)
  storm := (humid_sound c).storm
  longwave := rfl

theorem damp_complete (e x : ℝ) (c : Run.Cell) : CompleteCell (damp e x).shared 2 ((damp e x).inp c) where
  place := (humid_complete c).place
  lapse := (humid_complete c).lapse
  columns := by
    intro k hk
    simp only [List.mem_cons, List.not_mem_nil, or_false] at hk
    rcases hk with rfl | rfl | rfl | rfl | rfl | rfl <;> simp [damp, Dict.get?_cons]
  radiation := fun _ => by simp [damp, Dict.get?_cons]
  tMin := (humid_complete c).tMin
  tMax := (humid_complete c).tMax
  state := (humid_complete c).state
  fraction := (humid_complete c).fraction
  lwType := (humid_complete c).lwType
  lwCloud := (humid_complete c).lwCloud
  storm := (humid_complete c).storm

theorem damp_runs (e x : ℝ) : ∃ order files, (damp e x).Schedule order ∧ (damp e x).run 0 order = .ok files := by
  obtain ⟨files, h⟩ := (C71_run (damp e x) (damp_sane e x) 0 [[("lat", none), ("lon", none)]]
    ⟨_, rfl, List.Perm.refl _⟩ (fun c _ => damp_complete e x c) (fun h => by cases h)).2
      (fun _ _ => demo_offers (by show (720 : Nat) < 1440; decide) _)
  exact ⟨_, files, ⟨_, rfl, List.Perm.refl _⟩, h⟩

/-- **C117**: there are such runs, one with more moisture and more cloud than the other. -/
example : ∃ j j' : Job, j.Sane ∧ j'.Sane ∧ j.shared = j'.shared ∧ j.d0 = j'.d0 ∧ j.n = j'.n ∧ j.shared.ts < 1440 ∧
    j.shared.method = .passthrough ∧ j.Computed [0, 0] ∧ j'.Computed [0, 0] ∧
    (∀ v ∈ moistVars, SameFor j.shared.utcOffset (besideMoisture v) (j.inp [0, 0]) (j'.inp [0, 0])) ∧
    (∃ u, j.shared.outVars.get? "longwave" = some u) ∧ Sound j.shared j.n (j.inp [0, 0]) ∧
    Moister j.n (j.inp [0, 0]).data (j'.inp [0, 0]).data ∧ Cloudier j.n (j.inp [0, 0]).data (j'.inp [0, 0]).data ∧
    ¬ Moister j.n (j'.inp [0, 0]).data (j.inp [0, 0]).data ∧ ¬ Cloudier j.n (j'.inp [0, 0]).data (j.inp [0, 0]).data ∧
    Lw.upperS j.shared.lwType = "PRATA" ∧ Dict.get? (j'.inp [0, 0]).data.frame "longwave" = none ∧
    (∃ order files, j.Schedule order ∧ j.run 0 order = .ok files) ∧ ∃ order files, j'.Schedule order ∧ j'.run 0 order = .ok files := by
  have hc : ∀ x w, (damp x w).Computed [0, 0] := fun x w =>
    ⟨by show _ ∈ gridCells [("lat", 1), ("lon", 2)]; decide, 1, rfl, one_pos⟩
  refine ⟨damp 600 0.2, damp 900 0.7, damp_sane _ _, damp_sane _ _, rfl, rfl, rfl, by show (720 : Nat) < 1440; decide, rfl, hc _ _,
    hc _ _, fun v _ => ⟨fun k hk => ?_, fun _ => rfl, fun _ => rfl, fun _ => rfl, fun _ => rfl⟩, ⟨_, rfl⟩, damp_sound _ _ _,
    ⟨_, _, rfl, rfl, fun i _ => ⟨600, 900, rfl, rfl, by norm_num, by norm_num⟩⟩,
    ⟨_, _, rfl, rfl, fun i _ => ⟨0.2, 0.7, rfl, rfl, by norm_num, by norm_num, by norm_num⟩⟩, ?_, ?_, by show Lw.upperS "prata" = _; decide, rfl,
    damp_runs _ _, damp_runs _ _⟩
  · have hk : k ∈ ["t_min", "t_max"] := hk
    simp only [List.mem_cons, List.not_mem_nil, or_false] at hk
    rcases hk with rfl | rfl <;> rfl
  · rintro ⟨x, x', h1, h2, h3⟩
    obtain ⟨p, q, e1, e2, -, e3⟩ := h3 0 (by decide)
    rw [← Option.some.inj (show some (fun _ => fin 900) = some x from h1)] at e1
    rw [← Option.some.inj (show some (fun _ => fin 600) = some x' from h2)] at e2
    rw [← Flt.fin.inj e1, ← Flt.fin.inj e2] at e3
    norm_num at e3
  · rintro ⟨x, x', h1, h2, h3⟩
    obtain ⟨p, q, e1, e2, -, e3, -⟩ := h3 0 (by decide)
    rw [← Option.some.inj (show some (fun _ => fin 0.7) = some x from h1)] at e1
    rw [← Option.some.inj (show some (fun _ => fin 0.2) = some x' from h2)] at e2
    rw [← Flt.fin.inj e1, ← Flt.fin.inj e2] at e3
    norm_num at e3

end Verif.Props
