import Verif.Props.WarmMoist
import Verif.Props.Settle

/-!
# A warmer record that is not moister

If no daily extreme of a record is below and no vapour pressure above that of another, then between the first and the last sunrise no
relative humidity written is above.
-/

namespace Verif.Props

open Flt Cell Methods Disaggregate Np Humidity Physics

/-- A time from the first to the last sunrise is between two that follow each other. -/
theorem between_sunrises {rise : ℕ → ℝ} {x : ℝ} (h0 : rise 0 ≤ x) : ∀ m : ℕ, 0 < m → x ≤ 1440 * m + rise m →
    ∃ d < m, (1440 * d + rise d : ℝ) ≤ x ∧ x ≤ 1440 * (d + 1) + rise (d + 1) := by
  intro m
  induction m with
  | zero => intro h; omega
  | succ m ih =>
    intro _ hm
    rcases le_or_gt (1440 * m + rise m : ℝ) x with h | h
    · exact ⟨m, by omega, h, by push_cast at hm; linarith⟩
    · rcases Nat.eq_zero_or_pos m with rfl | hm0
      · push_cast at h
        linarith
      · obtain ⟨d, y1, y2⟩ := ih hm0 h.le
        exact ⟨d, by omega, y2⟩

/-- Relative humidity falls with temperature and rises with moisture. -/
theorem relative_falls {L L' T T' : ℝ} (h0 : 0 ≤ L') (hL : L' ≤ L) (hT : -115.7 ≤ T) (hTT : T ≤ T') :
    min 1 (1000 * (min L' (svpR T') / 1000) / svpR T') ≤ min 1 (1000 * (min L (svpR T) / 1000) / svpR T) := by
  have p := svpR_pos T
  have p' := svpR_pos T'
  have key : ∀ L S : ℝ, 0 < S → min 1 (1000 * (min L S / 1000) / S) = min 1 (L / S) := fun L S hS => by
    rw [mul_div_cancel₀ _ (by norm_num : (1000 : ℝ) ≠ 0), ← min_div_div_right hS.le, div_self hS.ne', min_comm (L / S), ← min_assoc,
      min_self]
  rw [key _ _ p, key _ _ p']
  refine min_le_min_left _ ?_
  have := svpR_le hT hTT
  have := h0.trans hL
  gcongr

section C128

variable (j j' : Job) (hj : j.Sane) (hj' : j'.Sane) (fuel fuel' : Nat) (order order' : List (Dict String Chunk.Slice))
  (ho : j.Schedule order) (ho' : j'.Schedule order') (files files' : Run.Files Output) (hrun : j.run fuel order = .ok files)
  (hrun' : j'.run fuel' order' = .ok files') (hsub : j.shared.ts < 1440) (hutc : j.shared.utcOffset = false)
  (hm : j.shared.method = .passthrough) (c c' : Run.Cell) (hc : j.Computed c) (hc' : j'.Computed c') (hs : SamePlace j j' c c')
  (hsd : Sound j.shared j.n (j.inp c)) (hsd' : Sound j'.shared j'.n (j'.inp c'))

include hj hj' ho ho' hrun hrun' hsub hutc hm hc hc' hs hsd hsd'

/-- **C128**: a record that is nowhere colder nor moister has, from the first sunrise to the last, nowhere more relative humidity
written. -/
theorem C128_drier (hmoist : Moister j.n (j'.inp c').data (j.inp c).data) (lo hi lo' hi' : ℕ → ℝ) (before before' : ℝ × ℝ)
    (he : Extremes j c lo hi before) (he' : Extremes j' c' lo' hi' before') (hh : HotterRecord j.n lo hi lo' hi' before before')
    (hask : ∀ v ∈ ["temp", "vapor_pressure", "rel_humid"], ∃ u, j.shared.outVars.get? v = some u) (hn : 2 ≤ j.n) (lat : ℝ)
    (hlat : (j.inp c).lat = fin lat) :
    ∃ rise set : ℕ → ℝ, SunTimes lat j.d0 j.n j.shared.tmaxFraction rise set ∧ ∀ k < j.n, ∀ i < 1440 / j.shared.ts,
      rise 0 ≤ 1440 * k + j.shared.ts * (i + 1) → 1440 * k + j.shared.ts * (i + 1) ≤ 1440 * ((j.n - 1 : ℕ) : ℝ) + rise (j.n - 1) →
      ∃ r r', Reads j files c "rel_humid" k i r ∧ Reads j' files' c' "rel_humid" k i r' ∧ r' ≤ r := by
  obtain ⟨uT, huT⟩ := hask "temp" (by decide)
  obtain ⟨uV, huV⟩ := hask "vapor_pressure" (by decide)
  obtain ⟨uR, huR⟩ := hask "rel_humid" (by decide)
  have hw := temps_rise j j' hj hj' fuel fuel' order order' ho ho' files files' hrun hrun' hsub hutc c c' hc hc' hs hsd he he' hh huT
  have hsub' : j'.shared.ts < 1440 := hs.shared ▸ hsub
  have rel := C79_relative_partial j hj fuel order ho files hrun hsub c hc uR huR
  have rel' := C79_relative_partial j' hj' fuel' order' ho' files' hrun' hsub' c' hc' uR (hs.shared ▸ huR)
  have ran := @temp_range j hj fuel order ho files hrun hsub c hc hsd
  rw [← hs.shared, ← hs.days] at rel'
  obtain ⟨elev, lat0, lon, e1, e2, e3, q, daily, t, hd, ld, hnd, hread⟩ := readout j hj ho hrun hsub hc
  have hr' := readout j' hj' ho' hrun' hsub' hc'
  rw [← hs.shared, ← hs.days] at hr'
  rw [← hs.shared, ← hs.days] at hsd'
  obtain ⟨elev', lat', lon', e1', e2', e3', q', daily', t', hd', ld', hnd', hread'⟩ := hr'
  rw [hlat] at e2
  obtain rfl := Flt.fin.inj e2
  have hll : lat = lat' := by
    have := hs.lat
    rw [hlat, e2'] at this
    exact Flt.fin.inj this
  subst hll
  have h90 := hsd.lat lat hlat
  have hdays : (j.inp c).data.days = (j'.inp c').data.days := by rw [hj.data c, hj'.data c', hs.first, hs.days]
  have hlen : (j.inp c).data.days.length = j.n := by rw [hj.data c, length_consecutive]
  have hlen' : (j'.inp c').data.days.length = j.n := by rw [← hdays, hlen]
  have twin : Twin q q' daily daily' := ⟨hdays, hd, hd', fun hx => by rw [hutc] at hx; cases hx⟩
  have hf : 0 < j.shared.tmaxFraction := lt_of_lt_of_le (by norm_num) hsd.fraction.1
  have hus := usable_of q hd t hj.step.2 (by rw [hlen]; exact hj.pos) (by rw [hlen]; exact hsd.record) ⟨hf, hsd.fraction.2⟩ hsd.storm
  have hus' := usable_of q' hd' t' hj.step.2 (by rw [hlen']; exact hj.pos) (by rw [hlen']; exact hsd'.record) ⟨hf, hsd.fraction.2⟩
    hsd'.storm
  obtain ⟨w1, -, -, -, -, g6, -⟩ := dailyOf_ok hd
  obtain ⟨-, -, -, -, -, p6, -⟩ := dailyOf_ok hd'
  obtain ⟨x', x, hx', hx, hle⟩ := hmoist
  obtain ⟨y, g, ey⟩ := Cell.column_ok.1 g6
  obtain ⟨y', g', ey'⟩ := Cell.column_ok.1 p6
  obtain rfl := Option.some.inj (g.symm.trans (passed_on q hm hx (by decide) (by decide)))
  obtain rfl := Option.some.inj (g'.symm.trans (passed_on q' hm hx' (by decide) (by decide)))
  have hvp : ∀ k < j.n, ∃ a a', daily.vaporPressure[k]? = some (fin a) ∧ daily'.vaporPressure[k]? = some (fin a') ∧ 0 ≤ a' ∧ a' ≤ a := by
    intro k hk
    obtain ⟨p, r, g1, g2, g3, g4⟩ := hle k hk
    refine ⟨r, p, ?_, ?_, g3, g4⟩
    · rw [ey, hlen, List.getElem?_map, List.getElem?_range hk, Option.map_some, g2]
    · rw [ey', hlen', List.getElem?_map, List.getElem?_range hk, Option.map_some, g1]
  have htimes := t.h_times
  rw [w1, List.map_map, hj.data c, consecutive, List.map_map] at htimes
  obtain ⟨rise, set, s1, s2, s3⟩ := sun_times (p := hours (j.shared.sub elev lon)) h90 q.h_geom hutc hf hsd.fraction.2 j.d0 j.n
    htimes
  replace s3 : ∀ k < j.n, t.times[k]? = some (1440 * k + rise k - j.shared.ts,
    1440 * k + (rise k + j.shared.tmaxFraction * (set k - rise k)) - j.shared.ts) := s3
  have s3' := s3
  rw [twin.times rfl t t'] at s3'
  have hmulZ := hj.step.mulZ
  have hmul : ((1440 / j.shared.ts : Nat) : ℝ) * j.shared.ts = 1440 := by exact_mod_cast hmulZ
  have hpos : ∀ k i : Nat, (j.shared.ts : ℝ) * ((k * (1440 / j.shared.ts) + i : Nat) : ℝ) = 1440 * k + j.shared.ts * i := by
    intro k i
    clear hread hread' hnd hnd' htimes hmulZ rel rel' ran hw
    generalize 1440 / j.shared.ts = m at *
    push_cast
    linear_combination (k : ℝ) * hmul
  refine ⟨rise, set, s1, fun k hk i hi x1 x2 => ?_⟩
  obtain ⟨d, hdn, y1, y2⟩ := between_sunrises x1 (j.n - 1) (by omega) x2
  obtain ⟨a, a', v1, v1', a0, aa⟩ := hvp d (by omega)
  obtain ⟨b, b', v2, v2', b0, bb⟩ := hvp (d + 1) (by omega)
  obtain ⟨T, T', hT, hT', hTT⟩ := hw k hk i hi
  obtain ⟨rT, -⟩ := ran hk hi hT
  obtain ⟨col, a1, a2⟩ := hread "temp" uT "C" .temperature huT (by decide) rfl (by simp)
  obtain ⟨col', a1', a2'⟩ := hread' "temp" uT "C" .temperature huT (by decide) rfl (by simp)
  obtain ⟨z, hz, hzs⟩ := (a2 k hk i hi).2 T hT
  obtain ⟨z', hz', hzs'⟩ := (a2' k hk i hi).2 T' hT'
  rw [← Except.ok.inj a1, temp_fill, List.getElem?_map] at hz
  rw [← Except.ok.inj a1', temp_fill, List.getElem?_map] at hz'
  obtain ⟨w, hy, hwz⟩ := Option.map_eq_some_iff.1 hz
  obtain ⟨w', hy', hwz'⟩ := Option.map_eq_some_iff.1 hz'
  obtain rfl := Flt.fin.inj hwz
  obtain rfl := Flt.fin.inj hwz'
  have b3 : w + 273.15 = T := (Prod.mk.inj (Option.some.inj hzs)).2
  have b4 : w' + 273.15 = T' := (Prod.mk.inj (Option.some.inj hzs')).2
  have c0 : (1440 * d + rise d - j.shared.ts : ℝ) ≤ (j.shared.ts : ℝ) * ((k * (1440 / j.shared.ts) + i : Nat) : ℝ) := by
    rw [hpos]; linarith
  have c1 : (j.shared.ts : ℝ) * ((k * (1440 / j.shared.ts) + i : Nat) : ℝ) ≤ 1440 * ((d + 1 : ℕ) : ℝ) + rise (d + 1) - j.shared.ts := by
    rw [hpos]; push_cast; linarith
  have V := vp_between h90 q.h_geom hus t (s3 d (by omega)) (s3 (d + 1) (by omega)) v1 v2 c0 c1 hy (by linarith)
  have V' := vp_between h90 q'.h_geom hus' t' (s3' d (by omega)) (s3' (d + 1) (by omega)) v1' v2' c0 c1 hy' (by linarith)
  obtain ⟨colV, f1, f2⟩ := hread "vapor_pressure" uV "Pa" .pressure huV (by decide) rfl (by simp)
  obtain ⟨colV', f1', f2'⟩ := hread' "vapor_pressure" uV "Pa" .pressure huV (by decide) rfl (by simp)
  have R := rel k hk i hi T _ hT (by linarith) ((f2 k hk i hi).1 _ _ (by rw [← Except.ok.inj f1, vp_fill]; exact fillBoth_keep V) rfl)
  have R' := rel' k hk i hi T' _ hT' (by linarith)
    ((f2' k hk i hi).1 _ _ (by rw [← Except.ok.inj f1', vp_fill]; exact fillBoth_keep V') rfl)
  refine ⟨_, _, R, R', ?_⟩
  rw [saturation_eq, saturation_eq, ← b3, ← b4, add_sub_cancel_right, add_sub_cancel_right]
  have hD : (0 : ℝ) < 1440 * ((d + 1 : ℕ) : ℝ) + rise (d + 1) - j.shared.ts - (1440 * d + rise d - j.shared.ts) := by
    have := (s1.order (d + 1) (by omega)).1
    have := s1.morning d (by omega)
    push_cast
    linarith
  have u0 := div_nonneg (sub_nonneg.2 c0) hD.le
  have u1 := (div_le_one hD).2 (sub_le_sub_right c1 (1440 * d + rise d - j.shared.ts))
  have ets : (((j.shared.sub elev lon).ts : ℕ) : ℝ) = j.shared.ts := rfl
  have ets' : (((j.shared.sub elev' lon').ts : ℕ) : ℝ) = j.shared.ts := rfl
  simp only [ets, ets']
  generalize ((j.shared.ts : ℝ) * ((k * (1440 / j.shared.ts) + i : Nat) : ℝ) - (1440 * d + rise d - j.shared.ts)) /
    (1440 * ((d + 1 : ℕ) : ℝ) + rise (d + 1) - j.shared.ts - (1440 * d + rise d - j.shared.ts)) = u at *
  refine relative_falls ?_ ?_ (by linarith) (by linarith)
  · nlinarith [mul_nonneg a0 (sub_nonneg.2 u1), mul_nonneg b0 u0]
  · nlinarith [mul_nonneg (sub_nonneg.2 aa) (sub_nonneg.2 u1), mul_nonneg (sub_nonneg.2 bb) u0]

end C128

/-- **C128**: there are such runs, for every warming up to 20 degrees and every lower vapour pressure, and noon of the first day is
between the sunrises. -/
example (b e : ℝ) (h0 : 0 ≤ b) (h1 : b ≤ 20) (he0 : 0 ≤ e) (he : e ≤ 600) :
    (∃ order files, (muggy 0 600).Schedule order ∧ (muggy 0 600).run 0 order = .ok files) ∧
    (∃ order files, (muggy b e).Schedule order ∧ (muggy b e).run 0 order = .ok files) ∧ (muggy 0 600).shared.ts < 1440 ∧
    (muggy 0 600).shared.utcOffset = false ∧ (muggy 0 600).shared.method = .passthrough ∧ (muggy 0 600).Computed [0, 0] ∧
    (muggy b e).Computed [0, 0] ∧ SamePlace (muggy 0 600) (muggy b e) [0, 0] [0, 0] ∧
    Sound (muggy 0 600).shared 2 ((muggy 0 600).inp [0, 0]) ∧ Sound (muggy b e).shared 2 ((muggy b e).inp [0, 0]) ∧
    Moister 2 ((muggy b e).inp [0, 0]).data ((muggy 0 600).inp [0, 0]).data ∧
    Extremes (muggy 0 600) [0, 0] (fun _ => 5 + 0) (fun _ => 15 + 0) (4 + 0, 14 + 0) ∧
    Extremes (muggy b e) [0, 0] (fun _ => 5 + b) (fun _ => 15 + b) (4 + b, 14 + b) ∧
    HotterRecord 2 (fun _ => 5 + 0) (fun _ => 15 + 0) (fun _ => 5 + b) (fun _ => 15 + b) (4 + 0, 14 + 0) (4 + b, 14 + b) ∧
    (∀ v ∈ ["temp", "vapor_pressure", "rel_humid"], ∃ u, (muggy 0 600).shared.outVars.get? v = some u) ∧
    ∀ rise set : ℕ → ℝ, SunTimes 45 0 2 0.67 rise set → rise 0 ≤ 1440 * (0 : ℕ) + (720 : ℕ) * ((0 : ℕ) + 1) ∧
      (1440 * (0 : ℕ) + (720 : ℕ) * ((0 : ℕ) + 1) : ℝ) ≤ 1440 * ((2 - 1 : ℕ) : ℝ) + rise (2 - 1) := by
  have hc : ∀ b e, (muggy b e).Computed [0, 0] := fun b e => ⟨by show _ ∈ gridCells [("lat", 1), ("lon", 2)]; decide, 1, rfl, one_pos⟩
  refine ⟨muggy_runs le_rfl (by norm_num) _, muggy_runs h0 h1 _, by show (720 : Nat) < 1440; decide, rfl, rfl, hc _ _, hc _ _,
    ⟨rfl, rfl, rfl, rfl⟩, muggy_sound le_rfl (by norm_num) _ _, muggy_sound h0 h1 _ _,
    ⟨_, _, rfl, rfl, fun _ _ => ⟨e, 600, rfl, rfl, he0, he⟩⟩,
    ⟨⟨_, rfl, fun _ _ => rfl⟩, ⟨_, rfl, fun _ _ => rfl⟩, rfl⟩, ⟨⟨_, rfl, fun _ _ => rfl⟩, ⟨_, rfl, fun _ _ => rfl⟩, rfl⟩,
    ⟨⟨by norm_num, by norm_num, fun _ _ => by norm_num, fun _ _ => by norm_num⟩,
      ⟨by norm_num, by norm_num, fun _ _ => by norm_num, fun _ _ => by norm_num⟩, fun _ _ => by linarith, fun _ _ => by linarith,
      by show (4 : ℝ) + 0 ≤ 4 + b; linarith, by show (14 : ℝ) + 0 ≤ 14 + b; linarith⟩, fun v hv => ?_, fun rise set hs => ?_⟩
  · simp only [List.mem_cons, List.not_mem_nil, or_false] at hv
    rcases hv with rfl | rfl | rfl <;> exact ⟨_, rfl⟩
  · have x1 := hs.morning 0 (by decide)
    have x2 := (hs.order 1 (by decide)).1
    push_cast
    exact ⟨by linarith, by linarith⟩

end Verif.Props
