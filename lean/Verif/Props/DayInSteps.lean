import Verif.Props.DailyFiles
import Verif.Props.Gaps
import Verif.Props.Admissible

/-!
# The same day, written at once and in steps: C157
-/

namespace Verif.Props

open Flt Physics Np Cell

section C157

variable (j j' : Job) (hj : j.Sane) (hj' : j'.Sane) (hd : DailyRunOf j j') (fuel fuel' : Nat)
  (order order' : List (Dict String Chunk.Slice)) (ho : j.Schedule order) (ho' : j'.Schedule order')
  (files files' : Run.Files Output) (hrun : j.run fuel order = .ok files) (hrun' : j'.run fuel' order' = .ok files')
  (hsub : j.shared.ts < 1440) (hutc : j.shared.utcOffset = false) (c : Run.Cell) (hc : j.Computed c) (hc' : j'.Computed c)

include hd

/-- Both runs find the same daily values. -/
theorem daily_base {elev lat lon elev' lat' lon' : ℝ} (h1 : (j.inp c).elev = fin elev) (h2 : (j.inp c).lat = fin lat)
    (h1' : (j'.inp c).elev = fin elev') (h2' : (j'.inp c).lat = fin lat') (q : Common fuel j.shared elev lat lon (j.inp c).data)
    (q' : Common fuel' j'.shared elev' lat' lon' (j'.inp c).data) : q'.base = q.base := by
  rw [hd.inp] at h1' h2'
  obtain rfl : elev = elev' := by rw [h1] at h1'; exact Flt.fin.inj h1'
  obtain rfl : lat = lat' := by rw [h2] at h2'; exact Flt.fin.inj h2'
  obtain ⟨cal, pe, ov, hsh⟩ := hd.shared
  have key : ∀ (d : Data) (_ : d = (j.inp c).data) (q' : Common fuel' j'.shared elev lat lon' d), q'.base = q.base := by
    rintro d rfl q'
    exact (common_unique q q' (by rw [hsh]) (by rw [hsh]) (by rw [hsh]; rfl)).2.2
  exact key _ (by rw [hd.inp]) q'

include hj hj' ho ho' hrun hrun' hsub hutc hc hc'

/-- **C157**: wind and cloud cover of each step of a day are those of the day. -/
theorem C157_even {v : String} (hv : v ∈ ["wind", "tskc"]) {u : String} (hu : j.shared.outVars.get? v = some u) {k : Nat} (hk : k < j.n)
    {s : ℝ} (hs : Reads j' files' c v k 0 s) {i : Nat} (hi : i < 1440 / j.shared.ts) : Reads j files c v k i s := by
  obtain ⟨elev', lat', lon', h1', h2', h3', q', rep, hr, hread'⟩ := readout_daily j' hj' ho' hrun' hd.ts hc'
  obtain ⟨elev, lat, lon, h1, h2, h3, q, daily, t, hda, ld, hnd, hread⟩ := readout j hj ho hrun hsub hc
  have hbase := daily_base j j' hd fuel fuel' c h1 h2 h1' h2' q q'
  have hlen : (j.inp c).data.days.length = j.n := by rw [hj.data c, length_consecutive]
  have hrep : ∀ v, v ≠ "shortwave" → Dict.get? rep v = Dict.get? q.base v := by
    intro v hv
    unfold Methods.dailyShortwave at hr
    simp only [bind_ok, pure_ok] at hr
    obtain ⟨sw, g1, dl, g2, rfl⟩ := hr
    rw [Dict.get?_set_ne _ _ (Ne.symm hv), hbase]
  obtain ⟨u', val', x', kd', w1, -, -, -, -⟩ := id hs
  obtain ⟨q1, q2, q3, q4, q5, q6, q7, q8, q9, q10, q11, q12⟩ := dailyOf_ok hda
  have hk' : k < j'.n := by rw [hd.n]; exact hk
  have hutc' : (j.shared.sub elev lon).utcOffset = false := hutc
  simp only [List.mem_cons, List.not_mem_nil, or_false] at hv
  rcases hv with rfl | rfl
  · obtain ⟨col, a1, a2⟩ := hread' "wind" u' "m s-1" .speed w1 (by decide) rfl (by simp)
    rw [hrep _ (by decide)] at a1
    obtain ⟨x, hx, e⟩ := (a2 k hk').2 s hs
    obtain rfl : x = s := (Prod.mk.inj (Option.some.inj e)).2
    rw [base_keeps q (by decide) (by decide)] at a1
    exact C151_wind_partial j hj fuel order ho files hrun hsub hutc c hc a1 hu hk hi hk hx (.inl ⟨le_rfl, fun m h1 h2 => by omega⟩)
  · obtain ⟨col, a1, a2⟩ := hread' "tskc" u' "fraction" .ratio w1 (by decide) rfl (by simp)
    rw [hrep _ (by decide)] at a1
    obtain ⟨x, hx, e⟩ := (a2 k hk').2 s hs
    obtain rfl : x = s := (Prod.mk.inj (Option.some.inj e)).2
    obtain ⟨col', gc, ec⟩ := Cell.column_ok.1 q7
    rw [a1] at gc
    obtain rfl := Option.some.inj gc
    rw [hlen] at ec
    have g1 := t.h_cloud
    rw [hutc'] at g1
    obtain ⟨cw, r1, r2⟩ := hread "tskc" u "fraction" .ratio hu (by decide) rfl (by simp)
    have hcw : cw = fillBoth t.cloud := (Except.ok.inj r1).symm
    subst hcw
    obtain ⟨c1, c2⟩ := C50_constant hj.step.2 ((C50_same _ _ _ _).symm.trans g1)
    rw [ec, List.length_map, List.length_range] at c1 c2
    refine (r2 k hk i hi).1 x x (fillBoth_keep ?_) rfl
    have := c2 k hk i hi
    rw [List.getElem?_map, List.getElem?_range hk, Option.map_some, hx] at this
    exact this

/-- **C157**: the rain of the steps of a day is, in the mean, that of the day. -/
theorem C157_rain {u : String} (hu : j.shared.outVars.get? "prec" = some u) {k : Nat} (hk : k < j.n)
    (hf : Falls j.shared (j.inp c).data.frame k) {s : ℝ} (hs : Reads j' files' c "prec" k 0 s) :
    ∃ flux : ℕ → ℝ, (∀ i < 1440 / j.shared.ts, Reads j files c "prec" k i (flux i) ∧ (0 ≤ s → 0 ≤ flux i)) ∧
      (∑ i ∈ Finset.range (1440 / j.shared.ts), flux i) / (1440 / j.shared.ts : ℕ) = s := by
  obtain ⟨elev', lat', lon', h1', h2', h3', q', rep, hr, hread'⟩ := readout_daily j' hj' ho' hrun' hd.ts hc'
  have hrep : Dict.get? rep "prec" = Dict.get? (j.inp c).data.frame "prec" := by
    unfold Methods.dailyShortwave at hr
    simp only [bind_ok, pure_ok] at hr
    obtain ⟨sw, g1, dl, g2, rfl⟩ := hr
    rw [Dict.get?_set_ne _ _ (by decide), base_keeps q' (by decide) (by decide), hd.inp]
  obtain ⟨u', val', x', kd', w1, -, -, -, -⟩ := id hs
  obtain ⟨col, a1, a2⟩ := hread' "prec" u' "mm timestep-1" .waterFlux w1 (by decide) rfl (by simp)
  rw [hrep] at a1
  obtain ⟨p, hp, e⟩ := (a2 k (by rw [hd.n]; exact hk)).2 s hs
  have e : p / ((j'.shared.ts : ℝ) * 60) = s := (Prod.mk.inj (Option.some.inj e)).2
  rw [hd.ts] at e
  push_cast at e
  obtain ⟨val, b1, b2⟩ := C75_daily_rain j hj fuel order ho files hrun hutc c hc u hu
  obtain ⟨flux, f1, f2⟩ := b2 k hk col p a1 hp (fun _ => hf)
  have hts : (0 : ℝ) < j.shared.ts := by exact_mod_cast hj.step.1
  refine ⟨flux, fun i hi => ?_, ?_⟩
  · obtain ⟨x, x1, x2, x3⟩ := f1 i hi
    exact ⟨⟨u, val, x, _, hu, b1, x1, rfl, x2⟩, fun h => x3 (by rw [← e] at h; linarith)⟩
  · rw [← Finset.sum_mul] at f2
    have hn : ((1440 / j.shared.ts : ℕ) : ℝ) * j.shared.ts = 1440 := by
      exact_mod_cast Nat.div_mul_cancel hj.step.2
    have hn0 : ((1440 / j.shared.ts : ℕ) : ℝ) ≠ 0 := by
      intro h; rw [h] at hn; norm_num at hn
    rw [← e, ← f2, div_eq_iff hn0, ← hn]
    field_simp

/-- **C157**: the temperature of a step lies between the extremes the daily run writes for the day, the maximum of the day before and
the minimum of the day after. -/
theorem C157_temperature (hf : 0 < j.shared.tmaxFraction) (hf1 : j.shared.tmaxFraction ≤ 1)
    (hlat : ∀ lat, (j.inp c).lat = fin lat → |lat| ≤ 90) {u : String} (hu : j.shared.outVars.get? "temp" = some u) (lo hi : ℕ → ℝ)
    (hlo : ∀ k < j.n, Reads j' files' c "t_min" k 0 (lo k)) (hhi : ∀ k < j.n, Reads j' files' c "t_max" k 0 (hi k))
    {b : ℝ} (hb : (j.inp c).data.stateEnd.2 = fin b) {k : Nat} (hk : k < j.n) {i : Nat} (hi' : i < 1440 / j.shared.ts) :
    ∃ T, Reads j files c "temp" k i T ∧
      (∀ L, L ≤ (if k = 0 then b + 273.15 else hi (k - 1)) → L ≤ lo k → L ≤ hi k → (k + 1 < j.n → L ≤ lo (k + 1)) → L ≤ T) ∧
      (∀ U, (if k = 0 then b + 273.15 else hi (k - 1)) ≤ U → lo k ≤ U → hi k ≤ U → (k + 1 < j.n → lo (k + 1) ≤ U) → T ≤ U) := by
  obtain ⟨elev', lat', lon', h1', h2', h3', q', rep, hr, hread'⟩ := readout_daily j' hj' ho' hrun' hd.ts hc'
  have hcol : ∀ v ∈ ["t_min", "t_max"], ∀ f : ℕ → ℝ, (∀ k < j.n, Reads j' files' c v k 0 (f k)) →
      ∃ col, Dict.get? (j.inp c).data.frame v = some col ∧ ∀ k < j.n, col k = fin (f k - 273.15) := by
    intro v hv f hf
    have hrep : Dict.get? rep v = Dict.get? (j.inp c).data.frame v := by
      unfold Methods.dailyShortwave at hr
      simp only [bind_ok, pure_ok] at hr
      obtain ⟨sw, g1, dl, g2, rfl⟩ := hr
      simp only [List.mem_cons, List.not_mem_nil, or_false] at hv
      rcases hv with rfl | rfl <;>
      rw [Dict.get?_set_ne _ _ (by decide), base_keeps q' (by decide) (by decide), hd.inp]
    obtain ⟨u', -, -, -, w1, -⟩ := hf 0 hj.pos
    have hk1 : Units.importAttrs.get? v = some "C" ∧ Spec.kindOf v = some .temperature ∧ v ≠ "air_pressure" := by
      simp only [List.mem_cons, List.not_mem_nil, or_false] at hv
      rcases hv with rfl | rfl <;> exact ⟨by decide, rfl, by decide⟩
    obtain ⟨col, a1, a2⟩ := hread' v u' "C" .temperature w1 hk1.1 hk1.2.1 (fun h => hk1.2.2 h.1)
    refine ⟨col, hrep ▸ a1, fun k hk => ?_⟩
    obtain ⟨x, hx, e⟩ := (a2 k (by rw [hd.n]; exact hk)).2 _ (hf k hk)
    have e : x + 273.15 = f k := (Prod.mk.inj (Option.some.inj e)).2
    rw [hx, ← e, add_sub_cancel_right]
  obtain ⟨tmin, m1, m2⟩ := hcol "t_min" (by simp) lo hlo
  obtain ⟨tmax, x1, x2⟩ := hcol "t_max" (by simp) hi hhi
  obtain ⟨val, v1, v2⟩ := C77_within_days j hj fuel order ho files hrun hsub hutc hf hf1 c hc hlat u hu tmin tmax m1 x1
    (fun k => lo k - 273.15) (fun k => hi k - 273.15) m2 x2 b hb
  obtain ⟨x, T, g1, g2, g3, g4⟩ := v2 k hk i hi'
  refine ⟨T, ⟨u, val, x, _, hu, v1, g1, rfl, g2⟩, fun L l1 l2 l3 l4 => ?_, fun U l1 l2 l3 l4 => ?_⟩
  · have := g3 (L - 273.15) (by split at l1 <;> rename_i h0 <;> simp only [h0, if_true, if_false] <;> linarith) (by linarith) (by linarith)
      (fun h => by have := l4 h; linarith)
    linarith
  · have := g4 (U - 273.15) (by split at l1 <;> rename_i h0 <;> simp only [h0, if_true, if_false] <;> linarith) (by linarith) (by linarith)
      (fun h => by have := l4 h; linarith)
    linarith

end C157

/-- The rain and the sky over a cell on the equator, in steps of `ts` minutes. -/
noncomputable def raining (ts : Nat) : Job :=
  { equator ts with shared := { (equator ts).shared with outVars := [("prec", "mm timestep-1"), ("tskc", "fraction")] } }

theorem raining_sane (ts : Nat) (hts : ts = 720 ∨ ts = 1440) : (raining ts).Sane :=
  have h := equator_sane ts hts
  { h with
    vars := by
      show (Dict.keys [("prec", "mm timestep-1"), ("tskc", "fraction")]).Nodup
      decide
    names := by
      show ((Dict.keys [("prec", "mm timestep-1"), ("tskc", "fraction")]).map (demo .passthrough).names).Nodup
      simp [Dict.keys, demo] }

theorem raining_runs (ts : Nat) (hts : ts = 720 ∨ ts = 1440) : ∃ order files, (raining ts).Schedule order ∧
    (raining ts).run 0 order = .ok files := by
  obtain ⟨files, h⟩ := (C71_run (raining ts) (raining_sane ts hts) 0 [[("lat", none), ("lon", none)]]
    ⟨_, rfl, List.Perm.refl _⟩ (fun c _ => { equator_complete ts c with }) (fun h => by cases h)).2 (by
      intro c _ q hq
      have hq : q ∈ [("prec", "mm timestep-1"), ("tskc", "fraction")] := hq
      simp only [List.mem_cons, List.not_mem_nil, or_false] at hq
      unfold Offers
      rcases hq with rfl | rfl <;> refine ⟨?_, _, _, rfl, rfl⟩
      · split
        · exact Or.inl (by decide)
        · exact Or.inr (by simp [raining, equator, demo, Dict.get?_cons])
      · split
        · exact Or.inl (by decide)
        · exact Or.inl (by decide))
  exact ⟨_, files, ⟨_, rfl, List.Perm.refl _⟩, h⟩

/-- **C157**: there are such pairs of runs. -/
example : (raining 720).Sane ∧ (raining 1440).Sane ∧ DailyRunOf (raining 720) (raining 1440) ∧
    (∃ order files, (raining 720).Schedule order ∧ (raining 720).run 0 order = .ok files) ∧
    (∃ order files, (raining 1440).Schedule order ∧ (raining 1440).run 0 order = .ok files ∧
      ∃ s, Reads (raining 1440) files [0, 0] "prec" 0 0 s) ∧
    (raining 720).Computed [0, 0] ∧ (raining 1440).Computed [0, 0] ∧ Falls (raining 720).shared ((raining 720).inp [0, 0]).data.frame 0 := by
  have hc : (raining 1440).Computed [0, 0] := ⟨by unfold raining equator demo; decide, 1, rfl, one_pos⟩
  refine ⟨raining_sane _ (.inl rfl), raining_sane _ (.inr rfl), ⟨rfl, ⟨_, _, _, rfl⟩, rfl, rfl, rfl⟩, raining_runs _ (.inl rfl), ?_,
    ⟨by unfold raining equator demo; decide, 1, rfl, one_pos⟩, hc, ?_⟩
  · obtain ⟨order, files, h1, h2⟩ := raining_runs 1440 (.inr rfl)
    refine ⟨order, files, h1, h2, ?_⟩
    obtain ⟨val, b1, b2⟩ := C75_daily_rain (raining 1440) (raining_sane _ (.inr rfl)) 0 order h1 files h2 rfl [0, 0] hc "mm timestep-1" rfl
    obtain ⟨flux, f1, -⟩ := b2 0 (show 0 < 2 by norm_num) _ _ rfl rfl (fun h => absurd h (lt_irrefl 1440))
    obtain ⟨x, x1, x2, -⟩ := f1 0 (show 0 < 1440 / 1440 by norm_num)
    exact ⟨_, "mm timestep-1", val, x, _, rfl, b1, x1, rfl, x2⟩
  · left
    constructor <;> (unfold raining equator demo; decide)

end Verif.Props
