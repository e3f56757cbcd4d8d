import Verif.Props.Overcast

/-!
# Days without longwave radiation or sky cover in the forcing, at sub-daily steps: C155
-/

namespace Verif.Props

open Flt Physics Methods Cell Np

theorem lwElem_nan (ty : Lw.LwType) (cl : Lw.Cloud) (a b : Flt ℝ) : Humidity.lwElem ty cl a b nan = nan := by
  unfold Humidity.lwElem
  cases cl <;> simp [Humidity.cloudy]

/-- A step without sky cover has no longwave radiation before the frame is filled, and neither has a step of a day without the radiation given. -/
theorem longwave_nan {temp vp tskc out : List (Flt ℝ)} {lwType lwCloud : String} {ts : Nat} {daily : Option (List (Flt ℝ))}
    (h : Humidity.longwave temp vp tskc lwType lwCloud ts daily = .ok out) {m : Nat} (hm : m < out.length)
    (hn : tskc[m]? = some nan ∨ ∃ d, daily = some d ∧ d[m / (1440 / ts)]? = some nan) : out[m]? = some nan := by
  have base : ∀ {out : List (Flt ℝ)}, Humidity.longwave temp vp tskc lwType lwCloud ts none = .ok out → m < out.length →
      tskc[m]? = some nan → out[m]? = some nan := by
    intro out h hm hn
    unfold Humidity.longwave at h
    simp only [bind_ok] at h
    obtain ⟨ty, h1, cl, h2, h⟩ := h
    split at h
    · cases h
    obtain rfl := Except.ok.inj h
    rw [List.length_zipWith] at hm
    rw [List.getElem?_zipWith, hn, List.getElem?_eq_getElem (show m < (temp.zip vp).length by omega)]
    simp only [lwElem_nan]
  cases daily with
  | none =>
    rcases hn with hn | ⟨d, hd, -⟩
    · exact base h hm hn
    · cases hd
  | some d =>
    obtain ⟨b, hb, hs⟩ := longwave_scaled h
    obtain ⟨w0, hl, rfl⟩ := scaleDaily_ok hs
    rw [List.length_zipWith] at hm
    have e1 := List.getElem?_eq_getElem (show m < b.length by omega)
    have e2 := List.getElem?_eq_getElem
      (show m < (repeatEach (List.zipWith (· / ·) d ((rows b (1440 / ts)).map mean)) (1440 / ts)).length by omega)
    rcases hn with hn | ⟨d', hd, hn⟩
    · rw [List.getElem?_zipWith, base hb (by omega) hn, e2]
      simp
    · obtain rfl := Option.some.inj hd
      rw [List.getElem?_zipWith, e1, e2]
      have e3 := getElem?_repeatEach (List.zipWith (· / ·) d ((rows b (1440 / ts)).map mean)) w0 m
      rw [e2, List.getElem?_zipWith, hn] at e3
      generalize ((rows b (1440 / ts)).map mean)[m / (1440 / ts)]? = o at e3
      cases o with
      | none => cases e3
      | some y =>
        rw [Option.some.inj e3]
        simp

theorem longwave_length {temp vp tskc out : List (Flt ℝ)} {lwType lwCloud : String} {ts : Nat} {daily : Option (List (Flt ℝ))}
    (h : Humidity.longwave temp vp tskc lwType lwCloud ts daily = .ok out) : out.length = temp.length := by
  have base : ∀ {out : List (Flt ℝ)}, Humidity.longwave temp vp tskc lwType lwCloud ts none = .ok out → out.length = temp.length := by
    intro out h
    unfold Humidity.longwave at h
    simp only [bind_ok] at h
    obtain ⟨ty, h1, cl, h2, h⟩ := h
    split at h
    · cases h
    rename_i hl
    push Not at hl
    obtain rfl := Except.ok.inj h
    rw [List.length_zipWith, List.length_zip]
    omega
  cases daily with
  | none => exact base h
  | some d =>
    obtain ⟨b, hb, hs⟩ := longwave_scaled h
    obtain ⟨w0, hl, rfl⟩ := scaleDaily_ok hs
    rw [List.length_zipWith, length_repeatEach, List.length_zipWith, List.length_map, length_rows, hl, Nat.mul_div_cancel _ w0, min_self,
      min_self, ← hl, base hb]

section C155

variable (j : Job) (hj : j.Sane) (fuel : Nat) (order : List (Dict String Chunk.Slice)) (ho : j.Schedule order)
  (files : Run.Files Output) (hrun : j.run fuel order = .ok files) (hsub : j.shared.ts < 1440) (c : Run.Cell) (hc : j.Computed c)

include hj ho hrun hsub hc

/-- Day `m` of a cell has no longwave radiation to go by: it is given, but not for that day, or the sky cover it would be estimated from is. -/
def NoGlow (m : Nat) : Prop :=
  (∃ col, Dict.get? (j.inp c).data.frame "longwave" = some col ∧ col m = nan) ∨
    j.shared.method = .passthrough ∧ j.shared.utcOffset = false ∧ ∃ col, Dict.get? (j.inp c).data.frame "tskc" = some col ∧ col m = nan

/-- **C155**: through such days the longwave radiation stays as in the last step before them. -/
theorem C155_hold {u : String} (hu : j.shared.outVars.get? "longwave" = some u) {k : Nat} (hk : k < j.n) {i : Nat} (hi : i < 1440 / j.shared.ts)
    {d : Nat} (hd : d < k) (hx : ∀ m, d < m → m ≤ k → NoGlow j c m) {s : ℝ} (h : Reads j files c "longwave" d (1440 / j.shared.ts - 1) s) :
    Reads j files c "longwave" k i s := by
  obtain ⟨elev, lat, lon, h1, h2, h3, q, daily, t, hday, ld, hnd, hread⟩ := readout j hj ho hrun hsub hc
  have hlen : (j.inp c).data.days.length = j.n := by rw [hj.data c, length_consecutive]
  obtain ⟨q1, q2, q3, q4, q5, q6, q7, q8, q9, q10, q11, q12⟩ := dailyOf_ok hday
  have hb := q.h_base
  obtain ⟨cw, r1, r2⟩ := hread "longwave" u "W m-2" .energyFlux hu (by decide) rfl (by simp)
  have hcw : cw = fillBoth t.lw := (Except.ok.inj r1).symm
  subst hcw
  have hll : t.lw.length = j.n * (1440 / j.shared.ts) := by
    obtain ⟨-, l2, -⟩ := vaporPressure_ok t.h_vp
    exact (longwave_length t.h_lw).trans (l2.trans hnd)
  have hs0 : 0 < 1440 / j.shared.ts := by omega
  have hnan : ∀ m < j.n * (1440 / j.shared.ts), NoGlow j c (m / (1440 / j.shared.ts)) → t.lw[m]? = some nan := by
    intro m hm hg
    have hm' : m / (1440 / j.shared.ts) < j.n := Nat.div_lt_of_lt_mul (by rw [Nat.mul_comm]; exact hm)
    refine longwave_nan t.h_lw (by omega) ?_
    rcases hg with ⟨col, g1, g2⟩ | ⟨hp, hutc, col, g1, g2⟩
    · refine .inr ⟨_, q10.trans (show column? _ _ "longwave" = some ((List.range j.n).map col) from ?_), ?_⟩
      · have e := runMethod_keeps hb (name := "longwave") (by decide)
        rw [withGeom_keeps _ _ (by decide), g1] at e
        unfold column?
        rw [e, hlen]
        rfl
      · show ((List.range j.n).map col)[m / (1440 / j.shared.ts)]? = _
        rw [List.getElem?_map, List.getElem?_range hm', Option.map_some, g2]
    · refine .inl ?_
      unfold runMethod at hb
      rw [hp] at hb
      simp only at hb
      obtain ⟨col', gc, ec⟩ := Cell.column_ok.1 q7
      rw [((C42_passthrough_partial _ _).2 _ hb).1 "tskc" col (by rw [withGeom_keeps _ _ (by decide)]; exact g1)
        (fun h => absurd h (by decide))] at gc
      obtain rfl := Option.some.inj gc
      rw [hlen] at ec
      have g3 := t.h_cloud
      have hutc' : (j.shared.sub elev lon).utcOffset = false := hutc
      rw [hutc'] at g3
      obtain ⟨c1, c2⟩ := C50_constant hj.step.2 ((C50_same _ _ _ _).symm.trans g3)
      rw [ec, List.length_map, List.length_range] at c1 c2
      have := c2 _ hm' (m % (1440 / j.shared.ts)) (Nat.mod_lt _ hs0)
      rw [List.getElem?_map, List.getElem?_range hm', Option.map_some, g2] at this
      have e := Nat.div_add_mod' m (1440 / j.shared.ts)
      rw [← e]
      exact this
  obtain ⟨x, x1, x2⟩ := (r2 d (hd.trans hk) _ (by omega)).2 s h
  refine (r2 k hk i hi).1 x s ?_ x2
  generalize 1440 / j.shared.ts = w at *
  have hle : (d + 1) * w ≤ k * w := Nat.mul_le_mul_right _ hd
  have hle' : (k + 1) * w ≤ j.n * w := Nat.mul_le_mul_right _ hk
  rw [Nat.add_mul, Nat.one_mul] at hle hle'
  refine fillBoth_hold x1 (by omega) (by omega) fun m hm hmk => hnan m (by omega) (hx _ ?_ ?_)
  · rw [Nat.lt_iff_add_one_le, Nat.le_div_iff_mul_le hs0, Nat.add_mul, Nat.one_mul]; omega
  · rw [← Nat.lt_add_one_iff, Nat.div_lt_iff_lt_mul hs0, Nat.add_mul, Nat.one_mul]; omega

end C155

/-- A run over two days, the second without longwave radiation. -/
noncomputable def dimmed : Job :=
  { humid with
    inp := fun c => ⟨fin 100, fin 45, fin (-120), ⟨consecutive 0 2,
      ("longwave", fun i => if i = 1 then nan else fin 300) :: (humid.inp c).data.frame, (fin 4, fin 14)⟩⟩ }

theorem dimmed_sane : dimmed.Sane := { humid_sane with data := fun _ => rfl }

theorem dimmed_complete (c : Run.Cell) : CompleteCell dimmed.shared 2 (dimmed.inp c) where
  place := (humid_complete c).place
  lapse := (humid_complete c).lapse
  columns := by
    intro k hk
    simp only [List.mem_cons, List.not_mem_nil, or_false] at hk
    rcases hk with rfl | rfl | rfl | rfl | rfl | rfl <;> simp [dimmed, humid, Dict.get?_cons]
  radiation := fun _ => by simp [dimmed, humid, Dict.get?_cons]
  tMin := (humid_complete c).tMin
  tMax := (humid_complete c).tMax
  state := (humid_complete c).state
  fraction := (humid_complete c).fraction
  lwType := (humid_complete c).lwType
  lwCloud := (humid_complete c).lwCloud
  storm := (humid_complete c).storm

/-- **C155**: there are such runs. -/
example : dimmed.Sane ∧ dimmed.Computed [0, 0] ∧ (∃ order files, dimmed.Schedule order ∧ dimmed.run 0 order = .ok files) ∧
    NoGlow dimmed [0, 0] 1 := by
  refine ⟨dimmed_sane, ⟨by unfold dimmed humid demo; decide, 1, rfl, one_pos⟩, ?_, .inl ⟨_, rfl, rfl⟩⟩
  obtain ⟨files, h⟩ := (C71_run dimmed dimmed_sane 0 [[("lat", none), ("lon", none)]]
    ⟨_, rfl, List.Perm.refl _⟩ (fun c _ => dimmed_complete c) (fun h => by cases h)).2
      (fun c _ q hq => by
        have hq : q ∈ demoVars := hq
        unfold Offers
        rw [if_pos (by unfold dimmed humid demo; decide)]
        simp only [demoVars, List.mem_cons, List.not_mem_nil, or_false] at hq
        rcases hq with rfl | rfl | rfl | rfl | rfl | rfl | rfl | rfl | rfl <;>
          exact ⟨Or.inl (by decide), _, _, rfl, rfl⟩)
  exact ⟨_, files, ⟨_, rfl, List.Perm.refl _⟩, h⟩

end Verif.Props
