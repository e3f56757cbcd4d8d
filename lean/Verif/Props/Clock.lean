import Verif.Props.Consistent

/-!
# Universal and local time: C80
-/

namespace Verif.Props

open Flt Physics Methods Cell Np

/-- The same job in local time, by the minute. -/
def Job.byMinute (j : Job) : Job := { j with shared := { j.shared with ts := 1, utcOffset := false } }

/-- Minute of the record, in local time at `east` degrees east, of minute `m` of the record in universal time: four
minutes per degree later, the record being taken as a cycle. -/
noncomputable def localMinute (n : ℕ) (east : ℝ) (m : ℕ) : ℕ :=
  (((m : ℤ) + minutesOf east) % ((n * 1440 : ℕ) : ℤ)).toNat

theorem sum_range_fin (n : Nat) (f : ℕ → ℝ) :
    Flt.sum ((List.range n).map fun i => fin (f i)) = fin (∑ i ∈ Finset.range n, f i) := by
  have h : (List.range n).map (fun i => fin (f i)) = ((List.range n).map f).map fin := by rw [List.map_map]; rfl
  rw [h, sum_map_fin]
  rfl

theorem localMinute_lt {n : ℕ} (hn : 0 < n) (east : ℝ) (m : ℕ) : localMinute n east m < n * 1440 := by
  unfold localMinute
  have h1 : (0 : ℤ) < ((n * 1440 : ℕ) : ℤ) := by exact_mod_cast Nat.mul_pos hn (by norm_num)
  have h2 := Int.emod_nonneg ((m : ℤ) + minutesOf east) h1.ne'
  have h3 := Int.emod_lt_of_pos ((m : ℤ) + minutesOf east) h1
  omega

/-- The daily values do not depend on the step or the clock. -/
theorem base_byMinute {fuel : Nat} {j : Job} {elev lat lon : ℝ} {d : Data} (q : Common fuel j.shared elev lat lon d)
    (q' : Common fuel j.byMinute.shared elev lat lon d) : q'.base = q.base := by
  have h1 : q'.geom = q.geom := Except.ok.inj (q'.h_geom.symm.trans q.h_geom)
  have h2 : q'.rows = q.rows := by
    have := q'.h_rows
    rw [h1] at this
    exact Except.ok.inj (this.symm.trans q.h_rows)
  have h3 := q'.h_base
  rw [h2] at h3
  exact Except.ok.inj (h3.symm.trans q.h_base)

/-- The step of the record. -/
theorem step_lt {j : Job} (hj : j.Sane) {k i : Nat} (hk : k < j.n) (hi : i < 1440 / j.shared.ts) :
    k * (1440 / j.shared.ts) + i < j.n * (1440 / j.shared.ts) ∧
      (k * (1440 / j.shared.ts) + i) * j.shared.ts = 1440 * k + j.shared.ts * i := by
  constructor
  · have : (k + 1) * (1440 / j.shared.ts) ≤ j.n * (1440 / j.shared.ts) := Nat.mul_le_mul_right _ hk
    rw [Nat.add_mul, Nat.one_mul] at this
    omega
  · have h : j.shared.ts * (1440 / j.shared.ts) = 1440 := Nat.mul_div_cancel' hj.step.2
    generalize 1440 / j.shared.ts = m at *
    rw [← h]
    ring

/-- The value of a series that is constant over local days. -/
theorem constant_of {xs out M : List (Flt ℝ)} {n ts : Nat} {lon : ℝ} (hn : 0 < n) (hl : xs.length = n)
    (h : Disagg.wind xs ts true lon = .ok out) (h' : Disagg.wind xs 1 false lon = .ok M) (w : ℕ → ℝ)
    (hM : ∀ d < n, ∀ m < 1440, M[d * 1440 + m]? = some (fin (w (d * 1440 + m)))) {i : Nat} (hi : i < out.length)
    (hts : 0 < ts) :
    out[i]? = some (fin ((∑ m ∈ Finset.range ts, w (localMinute n lon (i * ts + m))) / ts)) := by
  rw [C50_shift h i hi]
  have hc := (C50_constant (one_dvd _) h').2
  have e : ∀ m : Nat, (xs[(((i * ts + m : Nat) + minutesOf lon : Int) % ((xs.length * 1440 : Nat) : Int)).toNat / 1440]?).getD nan =
      fin (w (localMinute n lon (i * ts + m))) := by
    intro m
    rw [hl]
    show (xs[localMinute n lon (i * ts + m) / 1440]?).getD nan = _
    have hlt := localMinute_lt hn lon (i * ts + m)
    generalize localMinute n lon (i * ts + m) = g at *
    have hd : g / 1440 < n := by omega
    have hm : g % 1440 < 1440 := Nat.mod_lt _ (by norm_num)
    have h1 := hc (g / 1440) (by omega) (g % 1440) (by rw [Nat.div_one]; exact hm)
    rw [Nat.div_one, hM _ hd _ hm, Nat.div_add_mod'] at h1
    rw [← h1, Option.getD_some]
  simp only [e]
  unfold mean
  rw [sum_range_fin, List.length_map, List.length_range, div_fin_ne (by exact_mod_cast hts.ne')]

/-- By the minute nothing is lost. -/
theorem constant_fin {xs M : List (Flt ℝ)} {lon : ℝ} (h' : Disagg.wind xs 1 false lon = .ok M)
    (hx : ∀ x ∈ xs, isFin x = true) : ∀ y ∈ M, isFin y = true := by
  intro y hy
  obtain ⟨hl, hc⟩ := C50_constant (one_dvd _) h'
  rw [Nat.div_one] at hl hc
  obtain ⟨g, hg, rfl⟩ := List.getElem_of_mem hy
  have hd : g / 1440 < xs.length := by omega
  have h1 := hc (g / 1440) hd (g % 1440) (Nat.mod_lt _ (by norm_num))
  rw [Nat.div_add_mod', List.getElem?_eq_getElem hg, List.getElem?_eq_getElem hd] at h1
  rw [Option.some.inj h1]
  exact hx _ (List.getElem_mem hd)

section C80

variable (j : Job) (hj : j.Sane) (hj' : j.byMinute.Sane) (fuel : Nat) (order order' : List (Dict String Chunk.Slice))
  (ho : j.Schedule order) (ho' : j.byMinute.Schedule order')
  (files files' : Run.Files Output) (hrun : j.run fuel order = .ok files) (hrun' : j.byMinute.run fuel order' = .ok files')
  (hsub : j.shared.ts < 1440) (hutc : j.shared.utcOffset = true) (c : Run.Cell) (hc : j.Computed c)

include hj hj' ho ho' hrun hrun' hsub hc

/-- Both runs, read against the frames of the cell. -/
theorem both_clocks : ∃ elev lat lon, (j.inp c).elev = fin elev ∧ (j.inp c).lat = fin lat ∧ (j.inp c).lon = fin lon ∧
    ∃ (q : Common fuel j.shared elev lat lon (j.inp c).data) (daily : Disaggregate.Daily)
      (t : Trace daily (j.shared.sub elev lon) q.geom
        (some [(j.inp c).data.stateEnd.1, (j.inp c).data.stateEnd.2]) none)
      (t' : Trace daily (j.byMinute.shared.sub elev lon) q.geom
        (some [(j.inp c).data.stateEnd.1, (j.inp c).data.stateEnd.2]) none),
      dailyOf (j.inp c).data.days q.base = .ok daily ∧ daily.doy.length = j.n ∧
      ∀ v u dflt kd, j.shared.outVars.get? v = some u → Units.importAttrs.get? v = some dflt → Spec.kindOf v = some kd →
        v ≠ "air_pressure" → ∀ out M, subColumn t.sub v = .ok (fillBoth out) → subColumn t'.sub v = .ok (fillBoth M) →
        (∀ x ∈ M, isFin x = true) →
        (∀ d < j.n, ∀ m < 1440, ∀ s, Reads j.byMinute files' c v d m s →
          ∃ x, M[d * 1440 + m]? = some (fin x) ∧ Spec.si dflt (1 : ℝ) x = some (kd, s)) ∧
        ∀ k < j.n, ∀ i < 1440 / j.shared.ts, ∀ x s, out[k * (1440 / j.shared.ts) + i]? = some (fin x) →
          Spec.si dflt (j.shared.ts : ℝ) x = some (kd, s) → Reads j files c v k i s := by
  obtain ⟨elev, lat, lon, h1, h2, h3, q, daily, t, hd, ld, hnd, hread⟩ := readout j hj ho hrun hsub hc
  obtain ⟨elev', lat', lon', h1', h2', h3', q', daily', t', hd', ld', hnd', hread'⟩ :=
    readout j.byMinute hj' ho' hrun' (by show 1 < 1440; norm_num) (c := c) hc
  obtain rfl := Flt.fin.inj ((show fin elev = fin elev' from h1.symm.trans h1'))
  obtain rfl := Flt.fin.inj ((show fin lat = fin lat' from h2.symm.trans h2'))
  obtain rfl := Flt.fin.inj ((show fin lon = fin lon' from h3.symm.trans h3'))
  have hb := base_byMinute q q'
  have hg : q'.geom = q.geom := Except.ok.inj (q'.h_geom.symm.trans q.h_geom)
  obtain ⟨geom', rows', base', axis', p1, p2, p3, p4⟩ := q'
  simp only at hb hg t' hd'
  subst hb hg
  obtain rfl := Except.ok.inj (hd.symm.trans hd')
  refine ⟨elev, lat, lon, h1, h2, h3, q, daily, t, t', hd, ld, ?_⟩
  intro v u dflt kd hu hdf hkd hv out M ho hM hfin
  obtain ⟨col, a1, a2⟩ := hread v u dflt kd hu hdf hkd (fun h => hv h.1)
  obtain ⟨col', b1, b2⟩ := hread' v u dflt kd hu hdf hkd (fun h => hv h.1)
  have hcol : col = fillBoth out := Except.ok.inj (a1.symm.trans ho)
  have hcol' : col' = M := by
    rw [← fillBoth_of_fin hfin]
    exact Except.ok.inj (b1.symm.trans hM)
  subst hcol hcol'
  constructor
  · intro d hd m hm s hs
    have e : 1440 / j.byMinute.shared.ts = 1440 := Nat.div_one 1440
    obtain ⟨x, x1, x2⟩ := (b2 d hd m (by rw [e]; exact hm)).2 s hs
    rw [e] at x1
    have e1 : ((j.byMinute.shared.ts : ℕ) : ℝ) = 1 := Nat.cast_one
    rw [e1] at x2
    exact ⟨x, x1, x2⟩
  · intro k hk i hi x s hx hs
    exact (a2 k hk i hi).1 x s (fillBoth_keep hx) hs

include hutc

/-- **C80**, wind: with `utc_offset` the wind written for a step is the mean over the step of the wind that the same run in
local time writes minute by minute, as many minutes later as the longitude of the cell makes. -/
theorem C80_wind (lon : ℝ) (hlon : (j.inp c).lon = fin lon) (col : Col)
    (hcol : Dict.get? (j.inp c).data.frame "wind" = some col) (hfin : ∀ d < j.n, ∃ x, col d = fin x)
    (u : String) (hu : j.shared.outVars.get? "wind" = some u) (w : ℕ → ℝ)
    (hw : ∀ d < j.n, ∀ m < 1440, Reads j.byMinute files' c "wind" d m (w (d * 1440 + m)))
    (k : Nat) (hk : k < j.n) (i : Nat) (hi : i < 1440 / j.shared.ts) :
    Reads j files c "wind" k i ((∑ m ∈ Finset.range j.shared.ts,
      w (localMinute j.n (Disagg.remainder360 lon) (1440 * k + j.shared.ts * i + m))) / j.shared.ts) := by
  obtain ⟨elev, lat, lon', h1, h2, h3, q, daily, t, t', hd, ld, hread⟩ := both_clocks j hj hj' fuel order order' ho ho' files files'
    hrun hrun' hsub c hc
  obtain rfl := Flt.fin.inj (hlon.symm.trans h3)
  have hlen : (j.inp c).data.days.length = j.n := by rw [hj.data c, length_consecutive]
  obtain ⟨q1, q2, q3, q4, q5, q6, q7, q8, q9, q10, q11, q12⟩ := dailyOf_ok hd
  have hxs : daily.wind = some ((List.range j.n).map col) := by
    rw [q9]
    unfold column?
    rw [base_keeps q (by decide) (by decide), hcol, hlen]
    rfl
  have hxfin : ∀ x ∈ (List.range j.n).map col, isFin x = true := by
    intro x hx
    obtain ⟨d, hd, rfl⟩ := List.mem_map.1 hx
    obtain ⟨y, hy⟩ := hfin d (List.mem_range.1 hd)
    rw [hy]; rfl
  have hw1 := t.h_wind
  have hw2 := t'.h_wind
  unfold Disaggregate.windOf at hw1 hw2
  rw [hxs] at hw1 hw2
  simp only [bind_ok, pure_ok, Props.column_ok] at hw1 hw2
  obtain ⟨o, g1, o', ⟨g2, rfl⟩, g3⟩ := hw1
  obtain ⟨M, g1', M', ⟨g2', rfl⟩, g3'⟩ := hw2
  have hn : t.sub.wind = some (fillBoth o') := by show t.wind.map fillBoth = _; rw [← g3]; rfl
  have hn' : t'.sub.wind = some (fillBoth M') := by show t'.wind.map fillBoth = _; rw [← g3']; rfl
  obtain ⟨r1, r2⟩ := hread "wind" u "m s-1" .speed hu (by decide) rfl (by decide) o' M'
    (by unfold subColumn; simp only [hn]) (by unfold subColumn; simp only [hn']) (constant_fin g1' hxfin)
  have hM : ∀ d < j.n, ∀ m < 1440, M'[d * 1440 + m]? = some (fin (w (d * 1440 + m))) := by
    intro d hd m hm
    obtain ⟨x, x1, x2⟩ := r1 d hd m hm _ (hw d hd m hm)
    rw [x1, (Prod.mk.inj (Option.some.inj x2)).2]
  have hutc' : (j.shared.sub elev lon).utcOffset = true := hutc
  rw [hutc'] at g1
  obtain ⟨s1, s2⟩ := step_lt hj hk hi
  have hlo : o'.length = j.n * (1440 / j.shared.ts) := by
    rw [g2, ld]; exact Nat.mul_div_assoc _ hj.step.2
  have hout := constant_of hj.pos (by simp) g1 g1' w hM (i := k * (1440 / j.shared.ts) + i) (by rw [hlo]; exact s1) hj.step.1
  have e : (j.shared.sub elev lon).ts = j.shared.ts := rfl
  rw [e, s2] at hout
  exact r2 k hk i hi _ _ hout rfl

/-- **C80**, cloud cover: the same, if it is known every day. -/
theorem C80_cloud (hgood : (j.shared.method = .mtclim ∧ SaneParams j.shared ∧
      Lw.upperS j.shared.lwCloud = "CLOUD_DEARDORFF" ∧
      ∀ k ∈ ["t_min", "t_max", "dtr", "smoothed_dtr", "prec", "seasonal_prec"], Dict.get? (j.inp c).data.frame k ≠ none) ∨
      (j.shared.method = .passthrough ∧ DailyGood j.n (j.inp c).data.frame))
    (hs : Sound j.shared j.n (j.inp c)) (lon : ℝ) (hlon : (j.inp c).lon = fin lon)
    (u : String) (hu : j.shared.outVars.get? "tskc" = some u) (w : ℕ → ℝ)
    (hw : ∀ d < j.n, ∀ m < 1440, Reads j.byMinute files' c "tskc" d m (w (d * 1440 + m)))
    (k : Nat) (hk : k < j.n) (i : Nat) (hi : i < 1440 / j.shared.ts) :
    Reads j files c "tskc" k i ((∑ m ∈ Finset.range j.shared.ts,
      w (localMinute j.n (Disagg.remainder360 lon) (1440 * k + j.shared.ts * i + m))) / j.shared.ts) := by
  obtain ⟨elev, lat, lon', h1, h2, h3, q, daily, t, t', hd, ld, hread⟩ := both_clocks j hj hj' fuel order order' ho ho' files files'
    hrun hrun' hsub c hc
  obtain rfl := Flt.fin.inj (hlon.symm.trans h3)
  have hlen : (j.inp c).data.days.length = j.n := by rw [hj.data c, length_consecutive]
  obtain ⟨q1, q2, q3, q4, q5, q6, q7, q8, q9, q10, q11, q12⟩ := dailyOf_ok hd
  have hgd : DailyGood j.n q.base := by
    rcases hgood with ⟨hm, hp, hde, hcols⟩ | ⟨hm, hg⟩
    · exact mtclim_good q hlen hm hp hs.lapse.1 (hs.column elev h1) (hs.lat lat h2) hs.record hcols hde
    · exact passthrough_good q hm hg
  obtain ⟨col, gc, ec⟩ := Cell.column_ok.1 q7
  rw [hlen] at ec
  have hxl : daily.tskc.length = j.n := by rw [ec]; simp
  have hxfin : ∀ x ∈ daily.tskc, isFin x = true := by
    intro x hx
    rw [ec] at hx
    obtain ⟨d, hd, rfl⟩ := List.mem_map.1 hx
    obtain ⟨col', gc', hP⟩ := hgd.cloud
    obtain rfl := Option.some.inj (gc.symm.trans gc')
    obtain ⟨y, hy, -⟩ := hP d (List.mem_range.1 hd)
    rw [hy]; rfl
  have g1 := t.h_cloud
  have g1' := t'.h_cloud
  have hutc' : (j.shared.sub elev lon).utcOffset = true := hutc
  rw [hutc', C50_same] at g1
  rw [C50_same] at g1'
  obtain ⟨r1, r2⟩ := hread "tskc" u "fraction" .ratio hu (by decide) rfl (by decide) t.cloud t'.cloud rfl rfl
    (constant_fin g1' hxfin)
  have hM : ∀ d < j.n, ∀ m < 1440, t'.cloud[d * 1440 + m]? = some (fin (w (d * 1440 + m))) := by
    intro d hd m hm
    obtain ⟨x, x1, x2⟩ := r1 d hd m hm _ (hw d hd m hm)
    rw [x1, (Prod.mk.inj (Option.some.inj x2)).2]
  obtain ⟨s1, s2⟩ := step_lt hj hk hi
  have hlo : t.cloud.length = j.n * (1440 / j.shared.ts) := by
    rw [t.l_cloud, ld]; exact Nat.mul_div_assoc _ hj.step.2
  have hout := constant_of hj.pos hxl g1 g1' w hM (i := k * (1440 / j.shared.ts) + i) (by rw [hlo]; exact s1) hj.step.1
  have e : (j.shared.sub elev lon).ts = j.shared.ts := rfl
  rw [e, s2] at hout
  exact r2 k hk i hi _ _ hout rfl

/-- **C80**, rain: the same, for rain known every day and storms that touch their days. -/
theorem C80_rain (lon : ℝ) (hlon : (j.inp c).lon = fin lon) (rain : Col)
    (hcol : Dict.get? (j.inp c).data.frame "prec" = some rain) (hfin : ∀ d < j.n, ∃ x, rain d = fin x ∧ 0 ≤ x)
    (hf : ∀ d < j.n, Falls j.shared (j.inp c).data.frame d)
    (u : String) (hu : j.shared.outVars.get? "prec" = some u) (w : ℕ → ℝ)
    (hw : ∀ d < j.n, ∀ m < 1440, Reads j.byMinute files' c "prec" d m (w (d * 1440 + m)))
    (k : Nat) (hk : k < j.n) (i : Nat) (hi : i < 1440 / j.shared.ts) :
    Reads j files c "prec" k i ((∑ m ∈ Finset.range j.shared.ts,
      w (localMinute j.n (Disagg.remainder360 lon) (1440 * k + j.shared.ts * i + m))) / j.shared.ts) := by
  obtain ⟨elev, lat, lon', h1, h2, h3, q, daily, t, t', hd, ld, hread⟩ := both_clocks j hj hj' fuel order order' ho ho' files files'
    hrun hrun' hsub c hc
  obtain rfl := Flt.fin.inj (hlon.symm.trans h3)
  have hlen : (j.inp c).data.days.length = j.n := by rw [hj.data c, length_consecutive]
  obtain ⟨q1, q2, q3, q4, q5, q6, q7, q8, q9, q10, q11, q12⟩ := dailyOf_ok hd
  obtain ⟨col, gc, ec⟩ := Cell.column_ok.1 q8
  rw [base_keeps q (by decide) (by decide), hcol] at gc
  obtain rfl := Option.some.inj gc
  rw [hlen] at ec
  have hxl : daily.prec.length = j.n := by rw [ec]; simp
  have hx0 : ∀ x ∈ daily.prec, ∃ v, x = fin v ∧ 0 ≤ v := by
    intro x hx
    rw [ec] at hx
    obtain ⟨d, hd, rfl⟩ := List.mem_map.1 hx
    exact hfin d (List.mem_range.1 hd)
  have hsp : ∀ d < daily.prec.length, Spreads j.shared.precType daily.tMin daily.tPk daily.dur d := by
    intro d hd'
    rw [hxl] at hd'
    exact falls_spreads q hd (by rw [hlen]; exact hd') (hf d hd')
  have g1 := t.h_prec
  have g1' := t'.h_prec
  have hutc' : (j.shared.sub elev lon).utcOffset = true := hutc
  rw [hutc'] at g1
  obtain ⟨r1, r2⟩ := hread "prec" u "mm timestep-1" .waterFlux hu (by decide) rfl (by decide) t.prec t'.prec rfl rfl
    (fun y hy => by
      obtain ⟨v, hv, -⟩ := prec_nonneg g1' hsp hx0 y hy
      rw [hv]; rfl)
  have hM : ∀ d < j.n, ∀ m < 1440, t'.prec[d * 1440 + m]? = some (fin (w (d * 1440 + m) * 60)) := by
    intro d hd m hm
    obtain ⟨x, x1, x2⟩ := r1 d hd m hm _ (hw d hd m hm)
    have : x / (1 * 60) = w (d * 1440 + m) := (Prod.mk.inj (Option.some.inj x2)).2
    rw [x1, ← this]
    congr 2
    field_simp
  obtain ⟨s1, s2⟩ := step_lt hj hk hi
  have hlo : t.prec.length = j.n * (1440 / j.shared.ts) := by
    rw [t.l_prec, ld]; exact Nat.mul_div_assoc _ hj.step.2
  obtain ⟨z1, z2, z3⟩ := C47_shift g1' g1
  have hout := z3 (k * (1440 / j.shared.ts) + i) (by rw [hlo]; exact s1)
  have e : (j.shared.sub elev lon).ts = j.shared.ts := rfl
  have hts : (0 : ℝ) < j.shared.ts := by exact_mod_cast hj.step.1
  have e3 : (j.shared.sub elev lon).lon = lon := rfl
  rw [e, e3, s2, z1, hxl] at hout
  have e2 : ∀ m : Nat, (t'.prec[(((1440 * k + j.shared.ts * i + m : Nat) + minutesOf (Disagg.remainder360 lon) : Int) %
      ((j.n * 1440 : Nat) : Int)).toNat]?).getD nan =
      fin (w (localMinute j.n (Disagg.remainder360 lon) (1440 * k + j.shared.ts * i + m)) * 60) := by
    intro m
    show (t'.prec[localMinute j.n (Disagg.remainder360 lon) (1440 * k + j.shared.ts * i + m)]?).getD nan = _
    have hlt := localMinute_lt hj.pos (Disagg.remainder360 lon) (1440 * k + j.shared.ts * i + m)
    generalize localMinute j.n (Disagg.remainder360 lon) (1440 * k + j.shared.ts * i + m) = g at *
    have h1 := hM (g / 1440) (by omega) (g % 1440) (Nat.mod_lt _ (by norm_num))
    rw [Nat.div_add_mod'] at h1
    rw [h1, Option.getD_some]
  simp only [e2] at hout
  rw [sum_range_fin] at hout
  refine r2 k hk i hi _ _ hout ?_
  simp only [Spec.si]
  rw [← Finset.sum_mul, mul_div_mul_right _ _ (by norm_num)]

end C80

/-- A run in universal time with wind. -/
noncomputable def windy : Job :=
  { humid with
    shared := { humid.shared with utcOffset := true, outVars := [("prec", "mm h-1"), ("wind", "m s-1"), ("tskc", "%")] }
    inp := fun c => ⟨fin 100, fin 45, fin (-120), ⟨consecutive 0 2,
      ("wind", fun i => fin i) :: (humid.inp c).data.frame, (fin 4, fin 14)⟩⟩ }

theorem windy_vars : ∀ q ∈ windy.shared.outVars, (q.1 ∈ ["prec", "wind", "tskc"]) ∧ Convertible q.1 q.2 := by
  intro q hq
  have hq : q = ("prec", "mm h-1") ∨ q = ("wind", "m s-1") ∨ q = ("tskc", "%") := by simpa [windy] using hq
  rcases hq with rfl | rfl | rfl <;> exact ⟨by decide, _, _, rfl, rfl⟩

theorem windy_sane : windy.Sane where
  step := (demo_sane .passthrough).step
  pos := (demo_sane .passthrough).pos
  calendar := regular_standard _ _
  data := fun _ => rfl
  freq := (demo_sane .passthrough).freq
  years := (demo_sane .passthrough).years
  vars := by
    show (Dict.keys [("prec", "mm h-1"), ("wind", "m s-1"), ("tskc", "%")]).Nodup
    decide
  names := by
    show ((Dict.keys [("prec", "mm h-1"), ("wind", "m s-1"), ("tskc", "%")]).map id).Nodup
    decide
  dims := (demo_sane .passthrough).dims
  dims_pos := (demo_sane .passthrough).dims_pos
  chunks := (demo_sane .passthrough).chunks
  chunks_pos := (demo_sane .passthrough).chunks_pos
  same := (demo_sane .passthrough).same

theorem windy_minutes : windy.byMinute.Sane :=
  { windy_sane with
    step := ⟨by decide, one_dvd _⟩
    years := by
      intro T h t ht
      have h' : Times.outputTimes ⟨1, "standard", false⟩ (consecutive 0 2) = .ok T := h
      rw [outputTimes_grid _ _ _ ⟨by decide, one_dvd _⟩ 0 2 (by decide) (regular_standard _ _)] at h'
      injection h' with h'
      subst h'
      revert t
      decide +kernel }

theorem windy_sound (c : Run.Cell) : Sound windy.shared 2 (windy.inp c) where
  elev := (humid_sound c).elev
  lat := (humid_sound c).lat
  lon := fun x h => by
    obtain rfl := Flt.fin.inj (show fin (-120 : ℝ) = fin x from h)
    right
    rw [(C53_remainder (-120 : ℝ)).2.2.2 (by norm_num) (by norm_num)]
    show |(-120 : ℝ) - 0| < 180
    norm_num [abs_of_neg]
  lapse := (humid_sound c).lapse
  fraction := (humid_sound c).fraction
  record := {
    tMin := (humid_sound c).record.tMin
    tMax := (humid_sound c).record.tMax
    dtr := (humid_sound c).record.dtr
    smoothed := (humid_sound c).record.smoothed
    prec := (humid_sound c).record.prec
    seasonal := (humid_sound c).record.seasonal
    wind := fun col h i _ => by
      rw [← Option.some.inj (show some (fun i : Nat => fin (i : ℝ)) = some col from h)]
      exact ⟨i, rfl, Nat.cast_nonneg _⟩
    state := (humid_sound c).record.state }
  rain := fun _ _ => Or.inl (by unfold windy humid demo; decide)
  storm := by unfold windy humid demo; rintro (h | h) <;> exact absurd h (by decide)
  longwave := rfl

theorem windy_complete (c : Run.Cell) : CompleteCell windy.shared 2 (windy.inp c) where
  place := (humid_complete c).place
  lapse := (humid_complete c).lapse
  columns := by
    intro k hk
    simp only [List.mem_cons, List.not_mem_nil, or_false] at hk
    rcases hk with rfl | rfl | rfl | rfl | rfl | rfl <;> simp [windy, humid, Dict.get?_cons]
  radiation := fun _ => by simp [windy, humid, Dict.get?_cons]
  tMin := (humid_complete c).tMin
  tMax := (humid_complete c).tMax
  state := (humid_complete c).state
  fraction := (humid_complete c).fraction
  lwType := (humid_complete c).lwType
  lwCloud := (humid_complete c).lwCloud
  storm := (windy_sound c).storm

theorem windy_offers (c : Run.Cell) {s : Shared} (hs : s.ts < 1440) {v : String} (hv : v ∈ ["prec", "wind", "tskc"]) :
    Offers s (windy.inp c).data.frame v := by
  unfold Offers
  rw [if_pos hs]
  simp only [List.mem_cons, List.not_mem_nil, or_false] at hv
  rcases hv with rfl | rfl | rfl
  · exact Or.inl (by decide)
  · exact Or.inr ⟨rfl, by simp [windy, Dict.get?_cons]⟩
  · exact Or.inl (by decide)

theorem windy_runs : ∃ order files, windy.Schedule order ∧ windy.run 0 order = .ok files := by
  obtain ⟨files, h⟩ := (C71_run windy windy_sane 0 [[("lat", none), ("lon", none)]]
    ⟨_, rfl, List.Perm.refl _⟩ (fun c _ => windy_complete c) (fun h => by cases h)).2
      (fun c _ q hq => ⟨windy_offers c (by unfold windy humid demo; decide) (windy_vars q hq).1, (windy_vars q hq).2⟩)
  exact ⟨_, files, ⟨_, rfl, List.Perm.refl _⟩, h⟩

theorem windy_minutes_run : ∃ order files, windy.byMinute.Schedule order ∧ windy.byMinute.run 0 order = .ok files := by
  obtain ⟨files, h⟩ := (C71_run windy.byMinute windy_minutes 0 [[("lat", none), ("lon", none)]]
    ⟨_, rfl, List.Perm.refl _⟩ (fun c _ => { windy_complete c with }) (fun h => by cases h)).2
      (fun c _ q hq => ⟨windy_offers c (by show 1 < 1440; decide) (windy_vars q hq).1, (windy_vars q hq).2⟩)
  exact ⟨_, files, ⟨_, rfl, List.Perm.refl _⟩, h⟩

/-- **C80**: there are such runs, and both write values. -/
example : windy.Sane ∧ windy.byMinute.Sane ∧ windy.shared.ts < 1440 ∧ windy.shared.utcOffset = true ∧
    windy.Computed [0, 0] ∧ Sound windy.shared windy.n (windy.inp [0, 0]) ∧
    DailyGood windy.n (windy.inp [0, 0]).data.frame ∧
    (∃ col, Dict.get? (windy.inp [0, 0]).data.frame "wind" = some col ∧ ∀ d < windy.n, ∃ x, col d = fin x) ∧
    (∃ order files, windy.Schedule order ∧ windy.run 0 order = .ok files) ∧
    ∃ order files, windy.byMinute.Schedule order ∧ windy.byMinute.run 0 order = .ok files ∧
      ∀ v ∈ ["prec", "wind", "tskc"], ∃ w : ℕ → ℝ, ∀ d < windy.n, ∀ m < 1440,
        Reads windy.byMinute files [0, 0] v d m (w (d * 1440 + m)) := by
  obtain ⟨order, files, ho, hrun⟩ := windy_minutes_run
  have hc : windy.byMinute.Computed [0, 0] := ⟨by unfold windy humid Job.byMinute demo; decide, 1, rfl, one_pos⟩
  have hg : DailyGood 2 (windy.inp [0, 0]).data.frame := ⟨(humid_given [0, 0]).shortwave, (humid_given [0, 0]).vapor, (humid_given [0, 0]).cloud⟩
  refine ⟨windy_sane, windy_minutes, by unfold windy humid demo; decide, rfl, hc, windy_sound _, hg,
    ⟨_, rfl, fun d _ => ⟨_, rfl⟩⟩, windy_runs, order, files, ho, hrun, ?_⟩
  intro v hv
  have hs : Sound windy.byMinute.shared 2 (windy.byMinute.inp [0, 0]) :=
    { windy_sound [0, 0] with lon := fun _ _ => Or.inl rfl }
  obtain ⟨u, hu⟩ : ∃ u, windy.byMinute.shared.outVars.get? v = some u := by
    simp only [List.mem_cons, List.not_mem_nil, or_false] at hv
    rcases hv with rfl | rfl | rfl <;> exact ⟨_, rfl⟩
  obtain ⟨val, kd, h1, h2, h3⟩ := C78_passthrough_partial windy.byMinute windy_minutes 0 order ho files hrun (by show 1 < 1440; decide)
    (by decide) rfl [0, 0] hc hs hg v u hu (by
      rintro ⟨rfl, -⟩
      revert hv
      decide)
  choose! x s h4 using h3
  refine ⟨fun g => s (g / 1440) (g % 1440), fun d hd m hm => ?_⟩
  obtain ⟨h5, h6, -⟩ := h4 d hd m (by show m < 1440 / 1; omega)
  refine ⟨u, val, _, kd, hu, h1, h5, h2, ?_⟩
  have e1 : (d * 1440 + m) / 1440 = d := by omega
  have e2 : (d * 1440 + m) % 1440 = m := by omega
  simp only [e1, e2]
  exact h6

end Verif.Props
