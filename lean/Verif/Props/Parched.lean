import Verif.Props.Overcast
import Verif.Props.Settle

/-!
# Days without vapour pressure in the forcing, at sub-daily steps: C154
-/

namespace Verif.Props

open Flt Physics Methods Cell Np

/-- Between two knots all of whose inner neighbours are missing, the line is missing. -/
theorem linear_gap {x : ℕ → ℝ} {y : ℕ → Flt ℝ} {n p q : ℕ} (hx : ∀ a b, a < b → b < n → x a < x b) (hpq : p + 1 < q) (hq : q < n)
    (hy : ∀ m, p < m → m < q → y m = nan) {t : ℝ} (h0 : x p < t) (h1 : t < x q) : Interp.linear x y n t = nan := by
  have hex : ∀ m, p < m → m < n → t < x m → ∃ d, p ≤ d ∧ d < m ∧ x d ≤ t ∧ t < x (d + 1) := by
    intro m hm
    induction m, hm using Nat.le_induction with
    | base => exact fun _ h => ⟨p, le_rfl, by omega, h0.le, h⟩
    | succ m hm ih =>
      intro hmn hlt
      rcases le_or_gt (x m) t with h | h
      · exact ⟨m, by omega, by omega, h, hlt⟩
      · obtain ⟨d, d1, d2, d3⟩ := ih (by omega) h
        exact ⟨d, d1, by omega, d3⟩
  obtain ⟨d, d1, d2, d3, d4⟩ := hex q (by omega) hq h1
  have hk := Interp.knotBefore_eq hx (show d + 1 < n by omega) d3 d4
  unfold Interp.linear
  split
  · rfl
  · simp only [hk]
    split
    · rename_i e
      refine hy d ?_ d2
      rcases Nat.eq_or_lt_of_le d1 with rfl | h
      · exact absurd e h0.ne'
      · exact h
    · rcases Nat.eq_or_lt_of_le d1 with rfl | h
      · rw [hy (p + 1) (by omega) (by omega)]; simp
      · rw [hy d h d2]; simp

section C154

variable (j : Job) (hj : j.Sane) (fuel : Nat) (order : List (Dict String Chunk.Slice)) (ho : j.Schedule order)
  (files : Run.Files Output) (hrun : j.run fuel order = .ok files) (hsub : j.shared.ts < 1440) (hutc : j.shared.utcOffset = false)
  (hm : j.shared.method = .passthrough) (c : Run.Cell) (hc : j.Computed c)

include hj ho hrun hsub hutc hm hc

/-- **C154**: between the sunrise of a day and that of a later one, all the days between which have no vapour pressure, the vapour pressure
stays as it is in the last step before. -/
theorem C154_hold {col : Col} (hcol : Dict.get? (j.inp c).data.frame "vapor_pressure" = some col) {u : String}
    (hu : j.shared.outVars.get? "vapor_pressure" = some u) {lat : ℝ} (hlat : (j.inp c).lat = fin lat) (h90 : |lat| ≤ 90)
    (hf : 0 < j.shared.tmaxFraction ∧ j.shared.tmaxFraction ≤ 1) :
    ∃ rise set : ℕ → ℝ, SunTimes lat j.d0 j.n j.shared.tmaxFraction rise set ∧
      ∀ p q, p + 1 < q → q < j.n → (∀ m, p < m → m < q → col m = nan) →
        ∀ k' < j.n, ∀ i' < 1440 / j.shared.ts, (1440 * p + rise p : ℝ) < 1440 * k' + j.shared.ts * (i' + 1 + 1) →
        ∀ k < j.n, ∀ i < 1440 / j.shared.ts, (1440 * k' + j.shared.ts * i' : ℝ) ≤ 1440 * k + j.shared.ts * i →
          (1440 * k + j.shared.ts * (i + 1) : ℝ) < 1440 * q + rise q →
        ∀ v, Reads j files c "vapor_pressure" k' i' v → Reads j files c "vapor_pressure" k i v := by
  obtain ⟨elev, lat0, lon, e1, e2, e3, q, daily, t, hd, ld, hnd, hread⟩ := readout j hj ho hrun hsub hc
  rw [hlat] at e2
  obtain rfl := Flt.fin.inj e2
  have hlen : (j.inp c).data.days.length = j.n := by rw [hj.data c, length_consecutive]
  obtain ⟨w1, -, -, -, -, g6, -⟩ := dailyOf_ok hd
  have hb := q.h_base
  unfold runMethod at hb
  rw [hm] at hb
  simp only at hb
  obtain ⟨c1, hc1, w2⟩ := Cell.column_ok.1 g6
  rw [((C42_passthrough_partial _ _).2 _ hb).1 "vapor_pressure" col (by rw [withGeom_keeps _ _ (by decide)]; exact hcol)
    (fun h => absurd h (by decide))] at hc1
  obtain rfl := Option.some.inj hc1
  rw [hlen] at w2
  have htimes := t.h_times
  rw [w1, List.map_map, hj.data c, consecutive, List.map_map] at htimes
  obtain ⟨rise, set, s1, s2, s3⟩ := sun_times (p := hours (j.shared.sub elev lon)) h90 q.h_geom hutc hf.1 hf.2 j.d0 j.n htimes
  replace s3 : ∀ k < j.n, t.times[k]? = some (1440 * k + rise k - j.shared.ts,
    1440 * k + (rise k + j.shared.tmaxFraction * (set k - rise k)) - j.shared.ts) := s3
  have hmulZ := hj.step.mulZ
  have hm1440 : ((1440 / j.shared.ts : Nat) : ℝ) * j.shared.ts = 1440 := by exact_mod_cast hmulZ
  have hpos : ∀ k i : Nat, (j.shared.ts : ℝ) * ((k * (1440 / j.shared.ts) + i : Nat) : ℝ) = 1440 * k + j.shared.ts * i := by
    intro k i
    clear hread hnd htimes hmulZ
    generalize 1440 / j.shared.ts = m at *
    push_cast
    linear_combination (k : ℝ) * hm1440
  obtain ⟨-, l2, l3, l4⟩ := vaporPressure_ok t.h_vp
  rw [List.length_map] at l2
  replace l2 : t.temp.length = j.n * (1440 / j.shared.ts) := l2.trans hnd
  replace l3 : t.vp.length = j.n * (1440 / j.shared.ts) := l3.trans hnd
  have hidx : ∀ k < j.n, ∀ i < 1440 / j.shared.ts, k * (1440 / j.shared.ts) + i < j.n * (1440 / j.shared.ts) := by
    intro k hk i hi
    have : (k + 1) * (1440 / j.shared.ts) ≤ j.n * (1440 / j.shared.ts) := Nat.mul_le_mul_right _ hk
    rw [Nat.add_mul, Nat.one_mul] at this
    omega
  have hts0 : (0 : ℝ) < j.shared.ts := by exact_mod_cast hj.step.1
  have hvl : daily.vaporPressure.length = j.n := by rw [w2]; simp
  have hx : ∀ k < j.n, (t.times.map (·.1)).getD k 0 = 1440 * k + rise k - j.shared.ts := by
    intro k hk
    rw [List.getD_eq_getElem?_getD, List.getElem?_map, s3 k hk]
    rfl
  have hmono : ∀ a b, a < b → b < j.n → (t.times.map (·.1)).getD a 0 < (t.times.map (·.1)).getD b 0 := by
    intro a b hab hbn
    rw [hx a (by omega), hx b hbn]
    have : (a : ℝ) + 1 ≤ b := by exact_mod_cast hab
    linarith [s1.morning a (by omega), (s1.order b hbn).1]
  obtain ⟨colV, b1, b2⟩ := hread "vapor_pressure" u "Pa" .pressure hu (by decide) rfl (by simp)
  have hV : colV = fillBoth t.vp := by rw [← Except.ok.inj b1]; exact vp_fill t
  subst hV
  refine ⟨rise, set, s1, fun p q' hpq hq hgap k' hk' i' hi' x1 k hk i hi x2 x3 v hv => ?_⟩
  obtain ⟨x, hx0, hxs⟩ := (b2 k' hk' i' hi').2 v hv
  refine (b2 k hk i hi).1 x v (fillBoth_hold hx0 ?_ (by rw [l3]; exact hidx k hk i hi) fun m hm1 hm2 => ?_) hxs
  · by_contra hcon
    have : ((k * (1440 / j.shared.ts) + i : ℕ) : ℝ) + 1 ≤ (k' * (1440 / j.shared.ts) + i' : ℕ) := by
      exact_mod_cast not_le.1 hcon
    have := mul_le_mul_of_nonneg_left this hts0.le
    rw [mul_add, hpos, hpos] at this
    linarith
  · have hml : m < j.n * (1440 / j.shared.ts) := lt_of_le_of_lt hm2 (hidx k hk i hi)
    have hT := List.getElem?_eq_getElem (show m < t.temp.length by omega)
    have h4 := l4 m (fin (t.temp[m]'(by omega))) (by rw [List.getElem?_map, hT]; rfl)
    have r1 : ((k' * (1440 / j.shared.ts) + i' : ℕ) : ℝ) + 1 ≤ m := by exact_mod_cast hm1
    have r2 : (m : ℝ) ≤ (k * (1440 / j.shared.ts) + i : ℕ) := by exact_mod_cast hm2
    replace r1 := mul_le_mul_of_nonneg_left r1 hts0.le
    replace r2 := mul_le_mul_of_nonneg_left r2 hts0.le
    rw [mul_add, hpos] at r1
    rw [hpos] at r2
    rw [h4, hvl]
    show some (Humidity.capAtSaturation (Interp.linear _ _ _ ((j.shared.ts : ℝ) * m)) _) = _
    rw [linear_gap (p := p) (q := q') hmono hpq hq (fun m m1 m2 => ?_)
      (show _ < (j.shared.ts : ℝ) * m by rw [hx p (by omega)]; linarith)
      (show (j.shared.ts : ℝ) * m < _ by rw [hx q' hq]; linarith)]
    · unfold Humidity.capAtSaturation
      simp
    · rw [List.getD_eq_getElem?_getD, w2, List.getElem?_map, List.getElem?_range (by omega), Option.map_some, hgap m m1 m2]
      simp

end C154

/-- A run over four days, the third without vapour pressure. -/
noncomputable def parched : Job :=
  { humid with
    n := 4
    inp := fun c => ⟨fin 100, fin 45, fin (-120), ⟨consecutive 0 4,
      ("vapor_pressure", fun i => if i = 2 then nan else fin 600) :: (humid.inp c).data.frame, (fin 4, fin 14)⟩⟩ }

theorem parched_sane : parched.Sane :=
  { humid_sane with
    pos := by show 0 < 4; norm_num
    calendar := regular_standard _ _
    data := fun _ => rfl
    years := by
      intro T h t ht
      have e : Times.outputTimes parched.shared.cfg (consecutive 0 4) = .ok [0, 720, 1440, 2160, 2880, 3600, 4320, 5040] := by
        show Times.outputTimes ⟨720, "standard", false⟩ (consecutive 0 4) = _
        decide +kernel
      have h' : Times.outputTimes parched.shared.cfg (consecutive 0 4) = .ok T := h
      rw [e] at h'
      injection h' with h'
      subst h'
      revert t
      decide +kernel }

theorem parched_complete (c : Run.Cell) : CompleteCell parched.shared 4 (parched.inp c) where
  place := (humid_complete c).place
  lapse := (humid_complete c).lapse
  columns := by
    intro k hk
    simp only [List.mem_cons, List.not_mem_nil, or_false] at hk
    rcases hk with rfl | rfl | rfl | rfl | rfl | rfl <;> simp [parched, humid, Dict.get?_cons]
  radiation := fun _ => by simp [parched, humid, Dict.get?_cons]
  tMin := fun col h i _ => by
    obtain rfl : (fun _ => fin 5) = col := Option.some.inj h
    exact ⟨5, rfl⟩
  tMax := fun col h i _ => by
    obtain rfl : (fun _ => fin 15) = col := Option.some.inj h
    exact ⟨15, rfl⟩
  state := (humid_complete c).state
  fraction := (humid_complete c).fraction
  lwType := (humid_complete c).lwType
  lwCloud := (humid_complete c).lwCloud
  storm := (humid_complete c).storm

/-- **C154**: there are such runs. -/
example : parched.Sane ∧ parched.Computed [0, 0] ∧ (∃ order files, parched.Schedule order ∧ parched.run 0 order = .ok files) ∧
    ∃ col, Dict.get? (parched.inp [0, 0]).data.frame "vapor_pressure" = some col ∧ (∀ m, 1 < m → m < 3 → col m = nan) ∧ 3 < parched.n := by
  refine ⟨parched_sane, ⟨by unfold parched humid demo; decide, 1, rfl, one_pos⟩, ?_, _, rfl, fun m h1 h2 => ?_, by show 3 < 4; norm_num⟩
  · obtain ⟨files, h⟩ := (C71_run parched parched_sane 0 [[("lat", none), ("lon", none)]]
      ⟨_, rfl, List.Perm.refl _⟩ (fun c _ => parched_complete c) (fun h => by cases h)).2
        (fun c _ q hq => by
          have hq : q ∈ demoVars := hq
          unfold Offers
          rw [if_pos (by unfold parched humid demo; decide)]
          simp only [demoVars, List.mem_cons, List.not_mem_nil, or_false] at hq
          rcases hq with rfl | rfl | rfl | rfl | rfl | rfl | rfl | rfl | rfl <;>
            exact ⟨Or.inl (by decide), _, _, rfl, rfl⟩)
    exact ⟨_, files, ⟨_, rfl, List.Perm.refl _⟩, h⟩
  · rw [show m = 2 by omega]
    rfl

end Verif.Props
