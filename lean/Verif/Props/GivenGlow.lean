import Verif.Props.DayInSteps
import Verif.Props.Consistent
import Verif.Props.Blank

/-!
# Given longwave radiation is spread over the day as the estimate: C158
-/

namespace Verif.Props

open Flt Physics Np Cell
open Disaggregate (nDisagg)

/-- What the schemes of a configuration estimate from a temperature, the vapour pressure written for it and the cloud cover. -/
noncomputable def glow (ty : Lw.LwType) (cl : Lw.Cloud) (T e f : ℝ) : ℝ :=
  withCloud cl (clearSky ty (1000 * e / 100) T) f * (5.669e-8 * T ^ 4)

section C158

variable (j j' : Job) (hj : j.Sane) (hj' : j'.Sane) (hd : DailyRunOf j j') (fuel fuel' : Nat)
  (order order' : List (Dict String Chunk.Slice)) (ho : j.Schedule order) (ho' : j'.Schedule order')
  (files files' : Run.Files Output) (hrun : j.run fuel order = .ok files) (hrun' : j'.run fuel' order' = .ok files')
  (hsub : j.shared.ts < 1440) (hutc : j.shared.utcOffset = false) (c : Run.Cell) (hc : j.Computed c) (hc' : j'.Computed c)

include hj hj' hd ho ho' hrun hrun' hsub hutc hc hc'

/-- **C158**: if the daily run writes longwave radiation `m` for a day, then each step of the day has what is estimated for it, times one
and the same factor, by which the mean of the day becomes `m`. -/
theorem C158_spread {u : String} (hu : j.shared.outVars.get? "longwave" = some u) {ty : Lw.LwType} {cl : Lw.Cloud}
    (hty : Lw.lwTypeOf j.shared.lwType = .ok ty) (hcl : Lw.cloudOf j.shared.lwCloud = .ok cl) {k : Nat} (hk : k < j.n) {m f : ℝ}
    (hm : Reads j' files' c "longwave" k 0 m) (hf : Reads j' files' c "tskc" k 0 f) (T e : ℕ → ℝ)
    (hT : ∀ i < 1440 / j.shared.ts, Reads j files c "temp" k i (T i) ∧ 0 < T i)
    (he : ∀ i < 1440 / j.shared.ts, Reads j files c "vapor_pressure" k i (e i) ∧ 0 ≤ e i)
    (h0 : ∑ i ∈ Finset.range (1440 / j.shared.ts), glow ty cl (T i) (e i) f ≠ 0) {i : Nat} (hi : i < 1440 / j.shared.ts) :
    Reads j files c "longwave" k i (glow ty cl (T i) (e i) f *
      (m / ((∑ i ∈ Finset.range (1440 / j.shared.ts), glow ty cl (T i) (e i) f) / (1440 / j.shared.ts : ℕ)))) := by
  obtain ⟨elev', lat', lon', h1', h2', h3', q', rep, hr, hread'⟩ := readout_daily j' hj' ho' hrun' hd.ts hc'
  obtain ⟨elev, lat, lon, h1, h2, h3, q, daily, t, hda, ld, hnd, hread⟩ := readout j hj ho hrun hsub hc
  have hbase := daily_base j j' hd fuel fuel' c h1 h2 h1' h2' q q'
  have hlen : (j.inp c).data.days.length = j.n := by rw [hj.data c, length_consecutive]
  have hrep : ∀ v, v ≠ "shortwave" → Dict.get? rep v = Dict.get? q.base v := by
    intro v hv
    unfold Methods.dailyShortwave at hr
    simp only [bind_ok, pure_ok] at hr
    obtain ⟨sw, g1, dl, g2, rfl⟩ := hr
    rw [Dict.get?_set_ne _ _ (Ne.symm hv), hbase]
  obtain ⟨q1, q2, q3, q4, q5, q6, q7, q8, q9, q10, q11, q12⟩ := dailyOf_ok hda
  have hk' : k < j'.n := by rw [hd.n]; exact hk
  -- the given radiation
  obtain ⟨um, -, -, -, w1, -⟩ := id hm
  obtain ⟨glw, a1, a2⟩ := hread' "longwave" um "W m-2" .energyFlux w1 (by decide) rfl (by simp)
  rw [hrep _ (by decide)] at a1
  obtain ⟨m', hm', em⟩ := (a2 k hk').2 m hm
  obtain rfl : m' = m := (Prod.mk.inj (Option.some.inj em)).2
  have hgl : daily.longwave = some ((List.range j.n).map glw) := by
    rw [q10]; unfold column?; rw [a1, hlen]; rfl
  -- the sky
  obtain ⟨uf, -, -, -, w2, -⟩ := id hf
  obtain ⟨sky, s1, s2⟩ := hread' "tskc" uf "fraction" .ratio w2 (by decide) rfl (by simp)
  rw [hrep _ (by decide)] at s1
  obtain ⟨f', hf', ef⟩ := (s2 k hk').2 f hf
  obtain rfl : f' = f := (Prod.mk.inj (Option.some.inj ef)).2
  obtain ⟨col', gc, ec⟩ := Cell.column_ok.1 q7
  rw [s1] at gc
  obtain rfl := Option.some.inj gc
  rw [hlen] at ec
  have g1 := t.h_cloud
  have hutc' : (j.shared.sub elev lon).utcOffset = false := hutc
  rw [hutc'] at g1
  obtain ⟨c1, c2⟩ := C50_constant hj.step.2 ((C50_same _ _ _ _).symm.trans g1)
  rw [ec, List.length_map, List.length_range] at c1 c2
  have hcloud : ∀ i < 1440 / j.shared.ts, t.cloud[k * (1440 / j.shared.ts) + i]? = some (fin f') := fun i hi => by
    have := c2 k hk i hi
    rw [List.getElem?_map, List.getElem?_range hk, Option.map_some, hf'] at this
    exact this
  -- the estimate
  obtain ⟨-, lt, lv, -⟩ := vaporPressure_ok t.h_vp
  rw [List.length_map] at lt
  obtain ⟨lw, y1, y2, y3⟩ := C60_series (t.temp.map fin) (fillBoth t.vp) t.cloud j.shared.lwType j.shared.lwCloud j.shared.ts ty cl
    hty hcl (by rw [List.length_map, lt, (fillBoth_filled t.vp).length, lv]) (by rw [List.length_map, lt, t.l_cloud])
  have hest : ∀ i < 1440 / j.shared.ts, lw[k * (1440 / j.shared.ts) + i]? = some (fin (glow ty cl (T i) (e i) f')) := by
    intro i hi
    obtain ⟨hTi, hT0⟩ := hT i hi
    obtain ⟨hEi, hE0⟩ := he i hi
    obtain ⟨uT, -, -, -, hT1, -⟩ := id hTi
    obtain ⟨uE, -, -, -, hE1, -⟩ := id hEi
    obtain ⟨colT, b1, b2⟩ := hread "temp" uT "C" .temperature hT1 (by decide) rfl (by simp)
    obtain ⟨colE, d1, d2⟩ := hread "vapor_pressure" uE "Pa" .pressure hE1 (by decide) rfl (by simp)
    obtain ⟨x, hx, hxs⟩ := (b2 k hk i hi).2 _ hTi
    obtain ⟨y, hy, hys⟩ := (d2 k hk i hi).2 _ hEi
    rw [← Except.ok.inj b1, temp_fill] at hx
    rw [← Except.ok.inj d1, vp_fill] at hy
    have e1 : x + 273.15 = T i := (Prod.mk.inj (Option.some.inj hxs)).2
    have e2 : y = e i := (Prod.mk.inj (Option.some.inj hys)).2
    have hr := y3 _ _ _ _ hx hy (hcloud i hi)
    rw [C60_value ty cl x y f' (by rw [e2]; exact hE0) (by linarith), e1, e2] at hr
    rw [hr]
    unfold glow
    rw [show 1000 * e i / 100 = 10 * e i by ring]
  -- its mean
  have hs0 : 0 < 1440 / j.shared.ts := by omega
  have hblock : (lw.drop (k * (1440 / j.shared.ts))).take (1440 / j.shared.ts) =
      ((List.range (1440 / j.shared.ts)).map fun i => glow ty cl (T i) (e i) f').map fin := by
    apply List.ext_getElem?
    intro i
    by_cases hi : i < 1440 / j.shared.ts
    · rw [List.getElem?_take_of_lt hi, List.getElem?_drop, hest i hi, List.getElem?_map, List.getElem?_map, List.getElem?_range hi]
      rfl
    · rw [List.getElem?_eq_none (by rw [List.length_take]; omega), List.getElem?_eq_none (by simp; omega)]
  have hmean : mean ((lw.drop (k * (1440 / j.shared.ts))).take (1440 / j.shared.ts)) =
      fin ((∑ i ∈ Finset.range (1440 / j.shared.ts), glow ty cl (T i) (e i) f') / (1440 / j.shared.ts : ℕ)) := by
    rw [hblock]
    unfold mean
    rw [Flt.sum_map_fin, List.length_map, List.length_map, List.length_range, div_fin_ne (by exact_mod_cast hs0.ne')]
    rfl
  have hb0 : (∑ i ∈ Finset.range (1440 / j.shared.ts), glow ty cl (T i) (e i) f') / ((1440 / j.shared.ts : ℕ) : ℝ) ≠ 0 :=
    div_ne_zero h0 (by exact_mod_cast hs0.ne')
  have hlw := t.h_lw
  rw [hgl] at hlw
  have hmk : ((List.range j.n).map glw)[k]? = some (fin m') := by
    rw [List.getElem?_map, List.getElem?_range hk, Option.map_some, hm']
  obtain ⟨colS, z1, z2⟩ := hread "longwave" u "W m-2" .energyFlux hu (by decide) rfl (by simp)
  refine (z2 k hk i hi).1 _ _ ?_ rfl
  rw [← Except.ok.inj z1]
  exact fillBoth_keep ((C61_mean _ _ _ _ _ _ _ _ j.shared.ts y1 hlw k m' _ hmk hmean hb0).2 i _ hi (hest i hi))

/-- **C158**: so the mean of the steps is what the daily run writes. -/
theorem C158_mean {u : String} (hu : j.shared.outVars.get? "longwave" = some u) {ty : Lw.LwType} {cl : Lw.Cloud}
    (hty : Lw.lwTypeOf j.shared.lwType = .ok ty) (hcl : Lw.cloudOf j.shared.lwCloud = .ok cl) {k : Nat} (hk : k < j.n) {m f : ℝ}
    (hm : Reads j' files' c "longwave" k 0 m) (hf : Reads j' files' c "tskc" k 0 f) (T e : ℕ → ℝ)
    (hT : ∀ i < 1440 / j.shared.ts, Reads j files c "temp" k i (T i) ∧ 0 < T i)
    (he : ∀ i < 1440 / j.shared.ts, Reads j files c "vapor_pressure" k i (e i) ∧ 0 ≤ e i)
    (h0 : ∑ i ∈ Finset.range (1440 / j.shared.ts), glow ty cl (T i) (e i) f ≠ 0) :
    ∃ L : ℕ → ℝ, (∀ i < 1440 / j.shared.ts, Reads j files c "longwave" k i (L i)) ∧
      (∑ i ∈ Finset.range (1440 / j.shared.ts), L i) / (1440 / j.shared.ts : ℕ) = m := by
  refine ⟨_, fun i hi => C158_spread j j' hj hj' hd fuel fuel' order order' ho ho' files files' hrun hrun' hsub hutc c hc hc' hu hty hcl hk
    hm hf T e hT he h0 hi, ?_⟩
  have hs0 : ((1440 / j.shared.ts : ℕ) : ℝ) ≠ 0 := by
    have : 0 < 1440 / j.shared.ts := Nat.div_pos hsub.le hj.step.1
    exact_mod_cast this.ne'
  rw [← Finset.sum_mul]
  field_simp

/-- **C158**: with the default schemes nothing more is needed, and no step has less than nothing if the day has not. -/
theorem C158_default {u : String} (hu : j.shared.outVars.get? "longwave" = some u) (hty : Lw.lwTypeOf j.shared.lwType = .ok .prata)
    (hcl : Lw.cloudOf j.shared.lwCloud = .ok .deardorff) {k : Nat} (hk : k < j.n) {m f : ℝ}
    (hm : Reads j' files' c "longwave" k 0 m) (hf : Reads j' files' c "tskc" k 0 f) (hf0 : 0 ≤ f) (hf1 : f ≤ 1) (T e : ℕ → ℝ)
    (hT : ∀ i < 1440 / j.shared.ts, Reads j files c "temp" k i (T i) ∧ 0 < T i)
    (he : ∀ i < 1440 / j.shared.ts, Reads j files c "vapor_pressure" k i (e i) ∧ 0 ≤ e i) :
    ∃ L : ℕ → ℝ, (∀ i < 1440 / j.shared.ts, Reads j files c "longwave" k i (L i) ∧ (0 ≤ m → 0 ≤ L i)) ∧
      (∑ i ∈ Finset.range (1440 / j.shared.ts), L i) / (1440 / j.shared.ts : ℕ) = m := by
  have hpos : ∀ i < 1440 / j.shared.ts, 0 < glow .prata .deardorff (T i) (e i) f := by
    intro i hi
    obtain ⟨x, h1, h2, -⟩ := C60_default (T i - 273.15) (e i) f (he i hi).2 hf0 hf1 (by linarith [(hT i hi).2])
    rw [C60_value _ _ _ _ _ (he i hi).2 (by linarith [(hT i hi).2]), sub_add_cancel] at h1
    rw [← Flt.fin.inj h1] at h2
    unfold glow
    rwa [show 1000 * e i / 100 = 10 * e i by ring]
  have hs0 : 0 < 1440 / j.shared.ts := Nat.div_pos hsub.le hj.step.1
  have hsum : 0 < ∑ i ∈ Finset.range (1440 / j.shared.ts), glow .prata .deardorff (T i) (e i) f :=
    Finset.sum_pos (fun i hi => hpos i (Finset.mem_range.1 hi)) ⟨0, Finset.mem_range.2 hs0⟩
  refine ⟨_, fun i hi => ⟨C158_spread j j' hj hj' hd fuel fuel' order order' ho ho' files files' hrun hrun' hsub hutc c hc hc' hu hty hcl hk
    hm hf T e hT he hsum.ne' hi, fun h => mul_nonneg (hpos i hi).le (div_nonneg h (by positivity))⟩, ?_⟩
  have hs : ((1440 / j.shared.ts : ℕ) : ℝ) ≠ 0 := by exact_mod_cast hs0.ne'
  have := hsum.ne'
  rw [← Finset.sum_mul]
  field_simp

end C158

/-- A cell on the equator for which longwave radiation is given, in steps of half a day or a day. -/
noncomputable def glowing (whole : Bool) : Job :=
  { equator (if whole then 1440 else 720) with
    shared := { (equator (if whole then 1440 else 720)).shared with
      outVars := if whole then [("longwave", "W m-2"), ("tskc", "fraction")] else [("longwave", "W m-2"), ("temp", "C"), ("vapor_pressure", "Pa")] }
    inp := fun c => ⟨fin 100, fin 0, fin (-120), ⟨consecutive 0 2, ("longwave", fun _ => fin 300) :: (humid.inp c).data.frame, (fin 4, fin 14)⟩⟩ }

theorem glowing_sane (b : Bool) : (glowing b).Sane :=
  have h := equator_sane (if b then 1440 else 720) (by cases b <;> simp)
  { h with
    data := fun _ => rfl
    vars := by cases b <;> (show (Dict.keys _).Nodup; decide)
    names := by
      cases b
      · show ((Dict.keys [("longwave", "W m-2"), ("temp", "C"), ("vapor_pressure", "Pa")]).map (demo .passthrough).names).Nodup
        simp [Dict.keys, demo]
      · show ((Dict.keys [("longwave", "W m-2"), ("tskc", "fraction")]).map (demo .passthrough).names).Nodup
        simp [Dict.keys, demo] }

theorem glowing_complete (b : Bool) (c : Run.Cell) : CompleteCell (glowing b).shared 2 ((glowing b).inp c) where
  place := ⟨100, 0, -120, rfl, rfl, rfl, by norm_num, by unfold glowing equator demo; norm_num⟩
  lapse := (humid_complete c).lapse
  columns := by
    intro k hk
    simp only [List.mem_cons, List.not_mem_nil, or_false] at hk
    rcases hk with rfl | rfl | rfl | rfl | rfl | rfl <;> simp [glowing, humid, Dict.get?_cons]
  radiation := fun _ => by simp [glowing, humid, Dict.get?_cons]
  tMin := (humid_complete c).tMin
  tMax := (humid_complete c).tMax
  state := (humid_complete c).state
  fraction := (humid_complete c).fraction
  lwType := (humid_complete c).lwType
  lwCloud := (humid_complete c).lwCloud
  storm := (humid_complete c).storm

theorem glowing_runs (b : Bool) : ∃ order files, (glowing b).Schedule order ∧ (glowing b).run 0 order = .ok files := by
  obtain ⟨files, h⟩ := (C71_run (glowing b) (glowing_sane b) 0 [[("lat", none), ("lon", none)]]
    ⟨_, rfl, List.Perm.refl _⟩ (fun c _ => glowing_complete b c) (fun h => by cases h)).2 (by
      intro c _ q hq
      unfold Offers
      cases b
      · have hq : q ∈ [("longwave", "W m-2"), ("temp", "C"), ("vapor_pressure", "Pa")] := hq
        simp only [List.mem_cons, List.not_mem_nil, or_false] at hq
        rw [if_pos (show (glowing false).shared.ts < 1440 from by show 720 < 1440; norm_num)]
        rcases hq with rfl | rfl | rfl <;> exact ⟨Or.inl (by decide), _, _, rfl, rfl⟩
      · have hq : q ∈ [("longwave", "W m-2"), ("tskc", "fraction")] := hq
        simp only [List.mem_cons, List.not_mem_nil, or_false] at hq
        rw [if_neg (show ¬ (glowing true).shared.ts < 1440 from lt_irrefl 1440)]
        rcases hq with rfl | rfl
        · exact ⟨Or.inr (by simp [glowing, humid, Dict.get?_cons]), _, _, rfl, rfl⟩
        · exact ⟨Or.inl (by decide), _, _, rfl, rfl⟩)
  exact ⟨_, files, ⟨_, rfl, List.Perm.refl _⟩, h⟩

theorem glowing_computed (b : Bool) : (glowing b).Computed [0, 0] := by
  cases b <;> exact ⟨by unfold glowing equator demo; decide, 1, rfl, one_pos⟩

/-- **C158**: there are such pairs of runs. -/
example : DailyRunOf (glowing false) (glowing true) ∧
    (∃ order files, (glowing false).Schedule order ∧ (glowing false).run 0 order = .ok files) ∧
    (∃ order files, (glowing true).Schedule order ∧ (glowing true).run 0 order = .ok files ∧
      Reads (glowing true) files [0, 0] "longwave" 0 0 300 ∧ Reads (glowing true) files [0, 0] "tskc" 0 0 0.5) := by
  refine ⟨⟨rfl, ⟨_, _, _, rfl⟩, rfl, rfl, rfl⟩, glowing_runs false, ?_⟩
  obtain ⟨order, files, ho, hrun⟩ := glowing_runs true
  refine ⟨order, files, ho, hrun, ?_, ?_⟩
  · obtain ⟨s, kd, -, h1, h2⟩ := C156_own (glowing true) (glowing_sane true) 0 order ho files hrun rfl [0, 0] (glowing_computed true)
      (v := "longwave") (.inl (by simp)) (by decide) (u := "W m-2") rfl rfl (k := 0) (show 0 < 2 by norm_num) (x := 300) rfl (dflt := "W m-2") rfl
    obtain ⟨-, rfl⟩ := Prod.mk.inj (Option.some.inj h1)
    exact h2
  · obtain ⟨s, kd, -, h1, h2⟩ := C156_own (glowing true) (glowing_sane true) 0 order ho files hrun rfl [0, 0] (glowing_computed true)
      (v := "tskc") (.inr ⟨rfl, by simp⟩) (by decide) (u := "fraction") rfl rfl (k := 0) (show 0 < 2 by norm_num) (x := 0.5) rfl (dflt := "fraction") rfl
    obtain ⟨-, rfl⟩ := Prod.mk.inj (Option.some.inj h1)
    exact h2

end Verif.Props
