import Verif.Props.Clock

/-!
# Days without wind or rain in the forcing, at sub-daily steps: C151
-/

namespace Verif.Props

open Flt Physics Methods Cell Np

/-- Day `d` is the one with a value that stands in for day `k`: the last one up to `k`, or the first one of all if there is none up
to `k`. -/
def StandIn (col : Col) (k d : ℕ) : Prop :=
  (d ≤ k ∧ ∀ m, d < m → m ≤ k → col m = nan) ∨ (k < d ∧ ∀ m < d, col m = nan)

/-- What is written for a step stays until the next value. -/
theorem fillBoth_hold {xs : List (Flt ℝ)} {a b : ℕ} {x : ℝ} (h : (fillBoth xs)[a]? = some (fin x)) (hab : a ≤ b) (hb : b < xs.length)
    (hn : ∀ k, a < k → k ≤ b → xs[k]? = some nan) : (fillBoth xs)[b]? = some (fin x) := by
  rcases fillBoth_spec h with ⟨j, v, h1, h2, h3, h4⟩ | ⟨j, v, h1, h2, h3, h4⟩ | ⟨h1, -⟩
  · obtain rfl := Flt.fin.inj h3
    refine (fillBoth_filled xs).before b j x (h1.trans hab) hb h2 fun k hk hkb => ?_
    by_cases hka : k ≤ a
    · exact h4 k hk hka
    · exact hn k (not_le.1 hka) hkb
  · obtain rfl := Flt.fin.inj h3
    have hbj : b < j := by
      by_contra hc
      have := hn j h1 (not_lt.1 hc)
      rw [h2] at this
      cases this
    exact (fillBoth_filled xs).after b j x hbj h2 h4
  · cases h1

/-- A series that takes a value on each step of a day or on none of them. -/
theorem fillBoth_days {xs : List (Flt ℝ)} {n s : ℕ} {f : ℕ → Flt ℝ} (hs : 0 < s) (hl : xs.length = n * s)
    (hx : ∀ d < n, ∀ i < s, xs[d * s + i]? = some (f d)) {k i d : ℕ} (hk : k < n) (hi : i < s) (hd : d < n) {x : ℝ} (hf : f d = fin x)
    (h : StandIn f k d) : (fillBoth xs)[k * s + i]? = some (fin x) := by
  have hlt : k * s + i < xs.length := by
    rw [hl]
    have : (k + 1) * s ≤ n * s := Nat.mul_le_mul_right _ hk
    rw [Nat.add_mul, Nat.one_mul] at this
    omega
  have hdiv : ∀ m, m < xs.length → m / s < n ∧ m % s < s ∧ m / s * s + m % s = m := fun m hm =>
    ⟨Nat.div_lt_of_lt_mul (by rw [hl, Nat.mul_comm] at hm; exact hm), Nat.mod_lt _ hs, Nat.div_add_mod' m s⟩
  rcases h with ⟨h1, h2⟩ | ⟨h1, h2⟩
  · by_cases hdk : d = k
    · subst hdk
      exact fillBoth_keep ((hx d hd i hi).trans (by rw [hf]))
    · have hlast := fillBoth_keep ((hx d hd (s - 1) (by omega)).trans (by rw [hf]))
      have hdk' : d < k := lt_of_le_of_ne h1 hdk
      have hle : (d + 1) * s ≤ k * s := Nat.mul_le_mul_right _ hdk'
      rw [Nat.add_mul, Nat.one_mul] at hle
      refine fillBoth_hold hlast (by omega) hlt fun m hm hmk => ?_
      obtain ⟨m1, m2, m3⟩ := hdiv m (by omega)
      have e := hx (m / s) m1 (m % s) m2
      rw [m3] at e
      rw [e, h2 (m / s) (by
        rw [Nat.lt_iff_add_one_le, Nat.le_div_iff_mul_le hs, Nat.add_mul, Nat.one_mul]; omega) (by
        rw [← Nat.lt_add_one_iff, Nat.div_lt_iff_lt_mul hs, Nat.add_mul, Nat.one_mul]; omega)]
  · have hle : (k + 1) * s ≤ d * s := Nat.mul_le_mul_right _ h1
    rw [Nat.add_mul, Nat.one_mul] at hle
    refine (fillBoth_filled xs).after _ (d * s + 0) x (by omega) ((hx d hd 0 hs).trans (by rw [hf])) fun m hm => ?_
    have hlt' : d * s < xs.length := by rw [hl]; exact Nat.mul_lt_mul_of_pos_right hd hs
    obtain ⟨m1, m2, m3⟩ := hdiv m (by omega)
    have e := hx (m / s) m1 (m % s) m2
    rw [m3] at e
    rw [e, h2 (m / s) (by rw [Nat.div_lt_iff_lt_mul hs]; omega)]

/-- The minutes of a day without rain data have none. -/
theorem dayOf_nan {ptype : String} {P tMin : List (Flt ℝ)} {tPk dur : Option (List (Flt ℝ))} {d : ℕ} {day : List (Flt ℝ)}
    (h : dayOf ptype P tMin tPk dur d = .ok day) (hp : P[d]? = some nan) : ∀ x ∈ day, x = nan := by
  have hp' : P.getD d nan = nan := by rw [List.getD_eq_getElem?_getD, hp]; rfl
  unfold dayOf at h
  rw [hp'] at h
  intro x hx
  split at h
  · unfold Disagg.triangleDay at h
    simp only at h
    split at h
    · obtain rfl := Except.ok.inj h
      rw [List.eq_of_mem_replicate hx]; simp
    · split at h
      · obtain rfl := Except.ok.inj h
        obtain ⟨y, -, rfl⟩ := List.mem_map.1 hx
        simp
      · cases h
  · obtain rfl := Except.ok.inj h
    rw [List.eq_of_mem_replicate hx]; simp

/-- Nor do its steps. -/
theorem prec_nan {P tMin : List (Flt ℝ)} {ts : ℕ} {ptype : String} {lon : ℝ} {tPk dur : Option (List (Flt ℝ))} {out : List (Flt ℝ)}
    (hts : ts ∣ 1440) (h : Disagg.prec P tMin ts ptype false lon tPk dur = .ok out) {d : ℕ} (hp : P[d]? = some nan) {i : ℕ}
    (hi : i < 1440 / ts) : out[d * (1440 / ts) + i]? = some nan := by
  obtain ⟨days, hlen, hdays, hl, hts0, hdvd, rfl⟩ := prec_inv h
  have hd : d < P.length := (List.getElem?_eq_some_iff.1 hp).1
  obtain ⟨day, hday⟩ : ∃ day, days[d]? = some day := ⟨_, List.getElem?_eq_getElem (by omega)⟩
  have hlf : days.flatten.length = P.length * 1440 := by rw [length_flatten_const 1440 days hl, hlen]
  have hn := dayOf_nan (hdays d day hday) hp
  have hmul : 1440 / ts * ts = 1440 := Nat.div_mul_cancel hts
  have hblk := flatten_block 1440 days hl hday
  simp only [Bool.false_eq_true, if_false]
  have hle : (d + 1) * (1440 / ts) ≤ P.length * (1440 / ts) := Nat.mul_le_mul_right _ hd
  rw [Nat.add_mul, Nat.one_mul] at hle
  have hidx : d * (1440 / ts) + i < days.flatten.length / ts := by
    rw [hlf, Nat.mul_div_assoc _ hts]
    omega
  rw [List.getElem?_map, getElem?_rows hidx, Option.map_some]
  congr 1
  refine sum_of_mem_nan _ ?_
  have e : (d * (1440 / ts) + i) * ts = d * 1440 + i * ts := by rw [Nat.add_mul, Nat.mul_assoc, hmul]
  have hi' : i * ts < 1440 := by
    have : (i + 1) * ts ≤ 1440 / ts * ts := Nat.mul_le_mul_right _ hi
    rw [hmul, Nat.add_mul, Nat.one_mul] at this
    omega
  have hat : days.flatten[d * 1440 + i * ts]? = day[i * ts]? := by
    rw [← hblk, List.getElem?_take_of_lt hi', List.getElem?_drop]
  have hday' : i * ts < day.length := by rw [hl day (List.mem_of_getElem? hday)]; exact hi'
  have : ((days.flatten.drop ((d * (1440 / ts) + i) * ts)).take ts)[0]? = some nan := by
    rw [List.getElem?_take_of_lt hts0, List.getElem?_drop, e, Nat.add_zero, hat, List.getElem?_eq_getElem hday',
      hn _ (List.getElem_mem hday')]
  exact List.mem_of_getElem? this

/-- Uniform rain. -/
theorem prec_uniform {P tMin : List (Flt ℝ)} {ts : ℕ} {ptype : String} {lon : ℝ} {tPk dur : Option (List (Flt ℝ))} {out : List (Flt ℝ)}
    (hts : ts ∣ 1440) (h : Disagg.prec P tMin ts ptype false lon tPk dur = .ok out)
    (hu : ¬ (Lw.upperS ptype = "TRIANGLE" ∨ Lw.upperS ptype = "MIX")) {d : ℕ} {p : ℝ} (hp : P[d]? = some (fin p)) {i : ℕ}
    (hi : i < 1440 / ts) : out[d * (1440 / ts) + i]? = some (fin (ts * (p / 1440))) := by
  obtain ⟨days, hlen, hdays, hl, hts0, hdvd, rfl⟩ := prec_inv h
  have hd : d < P.length := (List.getElem?_eq_some_iff.1 hp).1
  obtain ⟨day, hday⟩ : ∃ day, days[d]? = some day := ⟨_, List.getElem?_eq_getElem (by omega)⟩
  have hlf : days.flatten.length = P.length * 1440 := by rw [length_flatten_const 1440 days hl, hlen]
  have hmul : 1440 / ts * ts = 1440 := Nat.div_mul_cancel hts
  have hblk := flatten_block 1440 days hl hday
  have hday1 := hdays d day hday
  unfold dayOf at hday1
  rw [if_neg hu, List.getD_eq_getElem?_getD, hp, Option.getD_some, div_fin_ne (by norm_num)] at hday1
  have hday1 := (Except.ok.inj hday1).symm
  simp only [Bool.false_eq_true, if_false]
  have hle : (d + 1) * (1440 / ts) ≤ P.length * (1440 / ts) := Nat.mul_le_mul_right _ hd
  rw [Nat.add_mul, Nat.one_mul] at hle
  have hidx : d * (1440 / ts) + i < days.flatten.length / ts := by
    rw [hlf, Nat.mul_div_assoc _ hts]
    omega
  rw [List.getElem?_map, getElem?_rows hidx, Option.map_some]
  have e : (d * (1440 / ts) + i) * ts = d * 1440 + i * ts := by rw [Nat.add_mul, Nat.mul_assoc, hmul]
  have hi' : i * ts + ts ≤ 1440 := by
    have : (i + 1) * ts ≤ 1440 / ts * ts := Nat.mul_le_mul_right _ hi
    rw [hmul, Nat.add_mul, Nat.one_mul] at this
    omega
  have hrow : (days.flatten.drop ((d * (1440 / ts) + i) * ts)).take ts = List.replicate ts (fin (p / 1440)) := by
    apply List.ext_getElem?
    intro m
    by_cases hm : m < ts
    · have hat : days.flatten[d * 1440 + (i * ts + m)]? = day[i * ts + m]? := by
        rw [← hblk, List.getElem?_take_of_lt (by omega), List.getElem?_drop]
      rw [List.getElem?_take_of_lt hm, List.getElem?_drop, e, Nat.add_assoc, hat, hday1, List.getElem?_replicate,
        List.getElem?_replicate, if_pos (by omega), if_pos hm]
    · rw [List.getElem?_eq_none (by rw [List.length_take]; omega), List.getElem?_replicate, if_neg hm]
  rw [hrow]
  congr 1
  have : List.replicate ts (fin (p / 1440)) = (List.range ts).map fun _ => fin (p / 1440) := by
    rw [List.map_const', List.length_range]
  rw [this, sum_range_fin]
  simp

section C151

variable (j : Job) (hj : j.Sane) (fuel : Nat) (order : List (Dict String Chunk.Slice)) (ho : j.Schedule order)
  (files : Run.Files Output) (hrun : j.run fuel order = .ok files) (hsub : j.shared.ts < 1440) (hutc : j.shared.utcOffset = false)
  (c : Run.Cell) (hc : j.Computed c)

include hj ho hrun hsub hutc hc

/-- The wind of the frame. -/
theorem wind_column {col : Col} (hcol : Dict.get? (j.inp c).data.frame "wind" = some col) {u : String}
    (hu : j.shared.outVars.get? "wind" = some u) :
    ∃ out : List (Flt ℝ), out.length = j.n * (1440 / j.shared.ts) ∧
      (∀ d < j.n, ∀ i < 1440 / j.shared.ts, out[d * (1440 / j.shared.ts) + i]? = some (col d)) ∧
      ∀ k < j.n, ∀ i < 1440 / j.shared.ts, ∀ x, (fillBoth out)[k * (1440 / j.shared.ts) + i]? = some (fin x) ↔
        Reads j files c "wind" k i x := by
  obtain ⟨elev, lat, lon, h1, h2, h3, q, daily, t, hd, ld, hnd, hread⟩ := readout j hj ho hrun hsub hc
  have hlen : (j.inp c).data.days.length = j.n := by rw [hj.data c, length_consecutive]
  obtain ⟨q1, q2, q3, q4, q5, q6, q7, q8, q9, q10, q11, q12⟩ := dailyOf_ok hd
  have hxs : daily.wind = some ((List.range j.n).map col) := by
    rw [q9]
    unfold column?
    rw [base_keeps q (by decide) (by decide), hcol, hlen]
    rfl
  have hw1 := t.h_wind
  unfold Disaggregate.windOf at hw1
  rw [hxs] at hw1
  simp only [bind_ok, pure_ok, Props.column_ok] at hw1
  obtain ⟨o, g1, o', ⟨g2, rfl⟩, g3⟩ := hw1
  have hn : t.sub.wind = some (fillBoth o') := by show t.wind.map fillBoth = _; rw [← g3]; rfl
  obtain ⟨colw, r1, r2⟩ := hread "wind" u "m s-1" .speed hu (by decide) rfl (by simp)
  have hcw : colw = fillBoth o' := by
    have : subColumn t.sub "wind" = .ok (fillBoth o') := by unfold subColumn; simp only [hn]
    rw [this] at r1
    exact (Except.ok.inj r1).symm
  subst hcw
  have hutc' : (j.shared.sub elev lon).utcOffset = false := hutc
  rw [hutc'] at g1
  obtain ⟨c1, c2⟩ := C50_constant hj.step.2 g1
  rw [List.length_map, List.length_range] at c1 c2
  refine ⟨o', c1, fun d hd i hi => ?_, fun k hk i hi x => ⟨fun h => (r2 k hk i hi).1 x x h rfl, fun h => ?_⟩⟩
  · have := c2 d hd i hi
    rw [List.getElem?_map, List.getElem?_range hd] at this
    exact this
  · obtain ⟨y, y1, y2⟩ := (r2 k hk i hi).2 x h
    have : y = x := (Prod.mk.inj (Option.some.inj y2)).2
    rw [← this]; exact y1

/-- **C151**, what holds of the wind: each step of a day has the wind of the day that stands in for it, which for a day with
a value is that day. -/
theorem C151_wind_partial {col : Col} (hcol : Dict.get? (j.inp c).data.frame "wind" = some col) {u : String}
    (hu : j.shared.outVars.get? "wind" = some u) {k : Nat} (hk : k < j.n) {i : Nat} (hi : i < 1440 / j.shared.ts) {d : Nat} (hd : d < j.n)
    {x : ℝ} (hx : col d = fin x) (h : StandIn col k d) : Reads j files c "wind" k i x := by
  obtain ⟨out, h1, h2, h3⟩ := wind_column j hj fuel order ho files hrun hsub hutc c hc hcol hu
  exact (h3 k hk i hi x).1 (fillBoth_days (by omega) h1 h2 hk hi hd hx h)

/-- **C151**, what holds of the wind: the steps have none if no day has. -/
theorem C151_calm_partial {col : Col} (hcol : Dict.get? (j.inp c).data.frame "wind" = some col) {u : String}
    (hu : j.shared.outVars.get? "wind" = some u) (hx : ∀ d < j.n, col d = nan) {k : Nat} (hk : k < j.n) {i : Nat}
    (hi : i < 1440 / j.shared.ts) (s : ℝ) : ¬ Reads j files c "wind" k i s := by
  obtain ⟨out, h1, h2, h3⟩ := wind_column j hj fuel order ho files hrun hsub hutc c hc hcol hu
  intro hs
  have h := (h3 k hk i hi s).2 hs
  have hs0 : 0 < 1440 / j.shared.ts := by omega
  rw [fillBoth_all_nan] at h
  · rw [h2 k hk i hi, hx k hk] at h
    cases h
  · intro y hy
    obtain ⟨m, hm, rfl⟩ := List.getElem_of_mem hy
    have hm' : m / (1440 / j.shared.ts) < j.n := Nat.div_lt_of_lt_mul (by rw [h1, Nat.mul_comm] at hm; exact hm)
    have e := h2 _ hm' (m % (1440 / j.shared.ts)) (Nat.mod_lt _ hs0)
    rw [Nat.div_add_mod', List.getElem?_eq_getElem hm, hx _ hm'] at e
    exact Option.some.inj e

/-- The rain of the frame. -/
theorem rain_column {rain : Col} (hcol : Dict.get? (j.inp c).data.frame "prec" = some rain) {u : String}
    (hu : j.shared.outVars.get? "prec" = some u) :
    ∃ out : List (Flt ℝ), out.length = j.n * (1440 / j.shared.ts) ∧
      (∀ d < j.n, ∀ i < 1440 / j.shared.ts, rain d = nan → out[d * (1440 / j.shared.ts) + i]? = some nan) ∧
      (¬ (Lw.upperS j.shared.precType = "TRIANGLE" ∨ Lw.upperS j.shared.precType = "MIX") →
        ∀ d < j.n, ∀ i < 1440 / j.shared.ts, ∀ p, rain d = fin p →
        out[d * (1440 / j.shared.ts) + i]? = some (fin (j.shared.ts * (p / 1440)))) ∧
      ∀ k < j.n, ∀ i < 1440 / j.shared.ts, ∀ x : ℝ, (fillBoth out)[k * (1440 / j.shared.ts) + i]? = some (fin (x * (j.shared.ts * 60))) ↔
        Reads j files c "prec" k i x := by
  obtain ⟨elev, lat, lon, h1, h2, h3, q, daily, t, hd, ld, hnd, hread⟩ := readout j hj ho hrun hsub hc
  have hlen : (j.inp c).data.days.length = j.n := by rw [hj.data c, length_consecutive]
  obtain ⟨q1, q2, q3, q4, q5, q6, q7, q8, q9, q10, q11, q12⟩ := dailyOf_ok hd
  obtain ⟨col, gc, ec⟩ := Cell.column_ok.1 q8
  rw [base_keeps q (by decide) (by decide), hcol] at gc
  obtain rfl := Option.some.inj gc
  rw [hlen] at ec
  have hat : ∀ d < j.n, daily.prec[d]? = some (rain d) := fun d hd => by
    rw [ec, List.getElem?_map, List.getElem?_range hd]; rfl
  have g1 := t.h_prec
  have hutc' : (j.shared.sub elev lon).utcOffset = false := hutc
  rw [hutc'] at g1
  obtain ⟨colp, r1, r2⟩ := hread "prec" u "mm timestep-1" .waterFlux hu (by decide) rfl (by simp)
  have hcp : colp = fillBoth t.prec := (Except.ok.inj r1).symm
  subst hcp
  have hts : (0 : ℝ) < j.shared.ts := by exact_mod_cast hj.step.1
  refine ⟨t.prec, by rw [t.l_prec]; exact hnd, fun d hd i hi hn => ?_, fun hun d hd i hi p hp => ?_, fun k hk i hi x => ⟨fun h => ?_, fun h => ?_⟩⟩
  · exact prec_nan hj.step.2 g1 ((hat d hd).trans (by rw [hn])) hi
  · exact prec_uniform hj.step.2 g1 hun ((hat d hd).trans (by rw [hp])) hi
  · refine (r2 k hk i hi).1 _ x h ?_
    simp only [Spec.si]
    rw [mul_div_cancel_right₀ _ (by positivity)]
  · obtain ⟨y, y1, y2⟩ := (r2 k hk i hi).2 x h
    have : y / (j.shared.ts * 60) = x := (Prod.mk.inj (Option.some.inj y2)).2
    rw [← this, div_mul_cancel₀ _ (by positivity)]; exact y1

/-- **C151**, what holds of the rain: through days without data it rains as in the last step before them. -/
theorem C151_rain_partial {rain : Col} (hcol : Dict.get? (j.inp c).data.frame "prec" = some rain) {u : String}
    (hu : j.shared.outVars.get? "prec" = some u) {k : Nat} (hk : k < j.n) {i : Nat} (hi : i < 1440 / j.shared.ts) {d : Nat} (hd : d < k)
    (hx : ∀ m, d < m → m ≤ k → rain m = nan) {s : ℝ} (h : Reads j files c "prec" d (1440 / j.shared.ts - 1) s) :
    Reads j files c "prec" k i s := by
  obtain ⟨out, h1, h2, -, h3⟩ := rain_column j hj fuel order ho files hrun hsub hutc c hc hcol hu
  have hs0 : 0 < 1440 / j.shared.ts := by omega
  have h := (h3 d (hd.trans hk) _ (by omega) s).2 h
  refine (h3 k hk i hi s).1 ?_
  generalize 1440 / j.shared.ts = w at *
  have hle : (d + 1) * w ≤ k * w := Nat.mul_le_mul_right _ hd
  have hle' : (k + 1) * w ≤ j.n * w := Nat.mul_le_mul_right _ hk
  rw [Nat.add_mul, Nat.one_mul] at hle hle'
  refine fillBoth_hold h (by omega) (by omega) fun m hm hmk => ?_
  have hm' : m / w < j.n := Nat.div_lt_of_lt_mul (by rw [Nat.mul_comm w]; omega)
  have e := h2 (m / w) hm' (m % w) (Nat.mod_lt _ hs0) (hx _ (by
    rw [Nat.lt_iff_add_one_le, Nat.le_div_iff_mul_le hs0, Nat.add_mul, Nat.one_mul]; omega) (by
    rw [← Nat.lt_add_one_iff, Nat.div_lt_iff_lt_mul hs0, Nat.add_mul, Nat.one_mul]; omega))
  rw [Nat.div_add_mod'] at e
  exact e

/-- **C151**, what holds of the rain: spread evenly, a day has the rain of the day that stands in for it. -/
theorem C151_uniform_partial {rain : Col} (hcol : Dict.get? (j.inp c).data.frame "prec" = some rain) {u : String}
    (hu : j.shared.outVars.get? "prec" = some u)
    (hun : ¬ (Lw.upperS j.shared.precType = "TRIANGLE" ∨ Lw.upperS j.shared.precType = "MIX")) {k : Nat} (hk : k < j.n) {i : Nat}
    (hi : i < 1440 / j.shared.ts) {d : Nat} (hd : d < j.n) {x : ℝ} (hx : rain d = fin x) (h : StandIn rain k d) :
    Reads j files c "prec" k i (x / 86400) := by
  obtain ⟨out, h1, h2, h2', h3⟩ := rain_column j hj fuel order ho files hrun hsub hutc c hc hcol hu
  refine (h3 k hk i hi _).1 ?_
  have := fillBoth_days (f := fun d => match rain d with
    | nan => nan
    | fin p => fin (j.shared.ts * (p / 1440))) (n := j.n) (s := 1440 / j.shared.ts) (xs := out) (by omega) h1 (fun d hd i hi => by
      cases hr : rain d with
      | nan => exact h2 d hd i hi hr
      | fin p => exact h2' hun d hd i hi p hr) hk hi hd (x := j.shared.ts * (x / 1440)) (by simp only [hx]) (by
      rcases h with ⟨a, b⟩ | ⟨a, b⟩
      · exact Or.inl ⟨a, fun m m1 m2 => by simp only [b m m1 m2]⟩
      · exact Or.inr ⟨a, fun m m1 => by simp only [b m m1]⟩)
  rw [this]
  congr 2
  ring

end C151

/-- **C151** as it should be: a day whose wind or rain is missing has none in the output. -/
def C151_full : Prop :=
  ∀ (j : Job), j.Sane → ∀ fuel order, j.Schedule order → ∀ files, j.run fuel order = .ok files → j.shared.ts < 1440 →
    j.shared.utcOffset = false → ∀ c, j.Computed c → ∀ v ∈ ["wind", "prec"], ∀ col, Dict.get? (j.inp c).data.frame v = some col →
    ∀ k < j.n, col k = nan → ∀ i < 1440 / j.shared.ts, ∀ s, ¬ Reads j files c v k i s

/-- A run over two days, the second without wind and rain. -/
noncomputable def gusty : Job :=
  { humid with
    shared := { humid.shared with outVars := [("wind", "m s-1"), ("prec", "mm h-1")] }
    inp := fun c => ⟨fin 100, fin 45, fin (-120), ⟨consecutive 0 2,
      ("wind", fun i => if i = 1 then nan else fin 3) :: ("prec", fun i => if i = 1 then nan else fin 24) :: (humid.inp c).data.frame, (fin 4, fin 14)⟩⟩ }

theorem gusty_sane : gusty.Sane where
  step := (demo_sane .passthrough).step
  pos := (demo_sane .passthrough).pos
  calendar := regular_standard _ _
  data := fun _ => rfl
  freq := (demo_sane .passthrough).freq
  years := (demo_sane .passthrough).years
  vars := by
    show (Dict.keys [("wind", "m s-1"), ("prec", "mm h-1")]).Nodup
    decide
  names := by
    show ((Dict.keys [("wind", "m s-1"), ("prec", "mm h-1")]).map id).Nodup
    decide
  dims := (demo_sane .passthrough).dims
  dims_pos := (demo_sane .passthrough).dims_pos
  chunks := (demo_sane .passthrough).chunks
  chunks_pos := (demo_sane .passthrough).chunks_pos
  same := (demo_sane .passthrough).same

theorem gusty_complete (c : Run.Cell) : CompleteCell gusty.shared 2 (gusty.inp c) where
  place := (humid_complete c).place
  lapse := (humid_complete c).lapse
  columns := by
    intro k hk
    simp only [List.mem_cons, List.not_mem_nil, or_false] at hk
    rcases hk with rfl | rfl | rfl | rfl | rfl | rfl <;> simp [gusty, humid, Dict.get?_cons]
  radiation := fun _ => by simp [gusty, humid, Dict.get?_cons]
  tMin := (humid_complete c).tMin
  tMax := (humid_complete c).tMax
  state := (humid_complete c).state
  fraction := (humid_complete c).fraction
  lwType := (humid_complete c).lwType
  lwCloud := (humid_complete c).lwCloud
  storm := (windy_sound c).storm

theorem gusty_runs : ∃ order files, gusty.Schedule order ∧ gusty.run 0 order = .ok files := by
  obtain ⟨files, h⟩ := (C71_run gusty gusty_sane 0 [[("lat", none), ("lon", none)]]
    ⟨_, rfl, List.Perm.refl _⟩ (fun c _ => gusty_complete c) (fun h => by cases h)).2
      (fun c _ q hq => by
        have hq : q = ("wind", "m s-1") ∨ q = ("prec", "mm h-1") := by simpa [gusty] using hq
        unfold Offers
        rw [if_pos (by unfold gusty humid demo; decide)]
        rcases hq with rfl | rfl
        · exact ⟨Or.inr ⟨rfl, by simp [gusty, Dict.get?_cons]⟩, _, _, rfl, rfl⟩
        · exact ⟨Or.inl (by decide), _, _, rfl, rfl⟩)
  exact ⟨_, files, ⟨_, rfl, List.Perm.refl _⟩, h⟩

theorem gusty_computed : gusty.Computed [0, 0] := ⟨by unfold gusty humid demo; decide, 1, rfl, one_pos⟩

/-- The wind of the first day goes on. -/
theorem C151_refuted : ¬ C151_full := by
  intro h
  obtain ⟨order, files, ho, hrun⟩ := gusty_runs
  have hsub : gusty.shared.ts < 1440 := by unfold gusty humid demo; decide
  have hcol : Dict.get? (gusty.inp [0, 0]).data.frame "wind" = some (fun i => if i = 1 then nan else fin 3) := rfl
  have hn : gusty.n = 2 := rfl
  have hi : 0 < 1440 / gusty.shared.ts := Nat.div_pos hsub.le gusty_sane.step.1
  refine h gusty gusty_sane 0 order ho files hrun hsub rfl [0, 0] gusty_computed "wind" (by decide) _ hcol 1 (by rw [hn]; norm_num) rfl 0 hi 3
    (C151_wind_partial gusty gusty_sane 0 order ho files hrun hsub rfl [0, 0] gusty_computed hcol (u := "m s-1") rfl (by rw [hn]; norm_num) hi
      (d := 0) (by rw [hn]; norm_num) (by simp) (Or.inl ⟨by norm_num, fun m h1 h2 => ?_⟩))
  rw [show m = 1 by omega]
  rfl

/-- **C151**: and so does its rain. -/
example : ∃ order files, gusty.Schedule order ∧ gusty.run 0 order = .ok files ∧
    (∃ rain, Dict.get? (gusty.inp [0, 0]).data.frame "prec" = some rain ∧ rain 1 = nan) ∧
    ∀ k < 2, ∀ i < 1440 / gusty.shared.ts, Reads gusty files [0, 0] "prec" k i (24 / 86400) := by
  obtain ⟨order, files, ho, hrun⟩ := gusty_runs
  have hsub : gusty.shared.ts < 1440 := by unfold gusty humid demo; decide
  have hcol : Dict.get? (gusty.inp [0, 0]).data.frame "prec" = some (fun i => if i = 1 then nan else fin 24) := rfl
  refine ⟨order, files, ho, hrun, ⟨_, hcol, rfl⟩, fun k hk i hi => ?_⟩
  refine C151_uniform_partial gusty gusty_sane 0 order ho files hrun hsub rfl [0, 0] gusty_computed hcol (u := "mm h-1") rfl
    (by unfold gusty humid demo; decide) hk hi (d := 0) (by show 0 < 2; norm_num) (by simp) (Or.inl ⟨by omega, fun m h1 h2 => ?_⟩)
  rw [show m = 1 by omega]
  rfl

end Verif.Props
