import Verif.Lemmas.FpSum
import Verif.Props.Rounded

/-!
# Precipitation, wind and cloud cover in floating point
-/

namespace Verif.Props
open Verif Verif.Np Verif.Fp Verif.Rounded

section
variable {K : Type} [Field K] [LinearOrder K] [IsStrictOrderedRing K] [FloorRing K]

theorem roll_map {α β : Type} (f : α → β) (xs : List α) (s : Int) : roll (xs.map f) s = (roll xs s).map f := by
  unfold roll; rw [List.length_map, List.map_rotate]

theorem repeatEach_map {α β : Type} (f : α → β) (xs : List α) (n : Nat) : repeatEach (xs.map f) n = (repeatEach xs n).map f := by
  induction xs with
  | nil => rfl
  | cons x xs ih => rw [List.map_cons, repeatEach_cons, repeatEach_cons, ih, List.map_append, List.map_replicate]

theorem rows_map {α β : Type} (f : α → β) (xs : List α) (w : Nat) : rows (xs.map f) w = (rows xs w).map (List.map f) := by
  unfold rows
  rw [List.length_map, List.map_map]
  refine List.map_congr_left fun i _ => ?_
  simp [List.map_drop, List.map_take]

/-- The daily values minute by minute, shifted. -/
def sharedMinutes (xs : List K) (utc : Bool) (lon : K) : List K :=
  if utc then roll (repeatEach xs 1440) (-Rounded.offset 53 1440 lon) else repeatEach xs 1440

theorem length_sharedMinutes (xs : List K) (utc : Bool) (lon : K) : (sharedMinutes xs utc lon).length = xs.length * 1440 := by
  unfold sharedMinutes
  split
  · rw [length_roll, length_repeatEach]
  · rw [length_repeatEach]

theorem mem_sharedMinutes {xs : List K} {utc : Bool} {lon x : K} (h : x ∈ sharedMinutes xs utc lon) : x ∈ xs := by
  unfold sharedMinutes at h
  split at h
  · exact mem_repeatEach ((roll_perm _ _).mem_iff.1 h)
  · exact mem_repeatEach h

theorem sum_sharedMinutes (xs : List K) (utc : Bool) (lon : K) : (sharedMinutes xs utc lon).sum = 1440 * xs.sum := by
  have e : (repeatEach xs 1440).sum = 1440 * xs.sum := by
    induction xs with
    | nil => simp [repeatEach]
    | cons y ys ih => rw [repeatEach_cons, List.sum_append, ih, List.sum_cons, List.sum_replicate, nsmul_eq_mul]; push_cast; ring
  unfold sharedMinutes
  split
  · rw [(roll_perm _ _).sum_eq, e]
  · exact e

theorem precUniform_inv {p : Nat} {ts : Nat} {order : Adding ts} {xs : List K} {utc : Bool} {lon : K} {out : List K}
    (h : precUniform p order xs utc lon = .ok out) :
    0 < ts ∧ ts ∣ xs.length * 1440
    ∧ out = (rows (sharedMinutes xs utc lon) ts).map fun s => order.sum p (s.map fun x => rnd p (x / 1440)) := by
  unfold precUniform at h
  rw [bind_ok] at h
  obtain ⟨steps, h1, h2⟩ := h
  have e : (if utc = true then roll (repeatEach (xs.map fun x => rnd p (x / (Cnst.MIN_PER_DAY : K))) Cnst.MIN_PER_DAY)
        (-Rounded.offset 53 Cnst.MIN_PER_DAY lon) else repeatEach (xs.map fun x => rnd p (x / (Cnst.MIN_PER_DAY : K))) Cnst.MIN_PER_DAY)
      = (sharedMinutes xs utc lon).map fun x => rnd p (x / 1440) := by
    unfold sharedMinutes Cnst.MIN_PER_DAY
    push_cast
    split
    · rw [repeatEach_map, roll_map]
    · rw [repeatEach_map]
  rw [e, reshape_ok, List.length_map, length_sharedMinutes] at h1
  obtain ⟨h3, h4, rfl⟩ := h1
  refine ⟨h3, h4, ?_⟩
  rw [pure_ok] at h2
  cases h2
  rw [rows_map, List.map_map]
  rfl

theorem means_inv {p : Nat} {ts : Nat} {order : Adding ts} {xs : List K} {utc : Bool} {lon : K} {out : List K}
    (h : means p order xs utc lon = .ok out) :
    0 < ts ∧ ts ∣ xs.length * 1440
    ∧ out = (rows (sharedMinutes xs utc lon) ts).map fun s => rnd p (order.sum p s / (ts : K)) := by
  unfold means at h
  rw [bind_ok] at h
  obtain ⟨steps, h1, h2⟩ := h
  have e : (if utc = true then roll (repeatEach xs Cnst.MIN_PER_DAY)
        (-Rounded.offset 53 Cnst.MIN_PER_DAY lon) else repeatEach xs Cnst.MIN_PER_DAY) = sharedMinutes xs utc lon := rfl
  rw [e, reshape_ok, length_sharedMinutes] at h1
  obtain ⟨h3, h4, rfl⟩ := h1
  exact ⟨h3, h4, by cases h2; rfl⟩

/-- The day whose value minute `i` of the record has. -/
def sharedDay (n : Nat) (utc : Bool) (lon : K) (i : Nat) : Nat :=
  if utc then (((i : Int) + Rounded.offset 53 1440 lon) % (n * 1440 : Nat)).toNat / 1440 else i / 1440

theorem getElem?_sharedMinutes (xs : List K) (utc : Bool) (lon : K) {i : Nat} (h : i < xs.length * 1440) :
    (sharedMinutes xs utc lon)[i]? = xs[sharedDay xs.length utc lon i]? := by
  unfold sharedMinutes sharedDay
  split
  · rw [getElem?_roll _ _ (by rw [length_repeatEach]; exact h), getElem?_repeatEach _ (by norm_num), length_repeatEach]
  · rw [getElem?_repeatEach _ (by norm_num)]

theorem row_eq (M : List K) (a w : Nat) (h : a + w ≤ M.length) : (M.drop a).take w = (List.range w).map fun k => M.getD (a + k) 0 := by
  refine List.ext_getElem (by simp; omega) fun i h1 h2 => ?_
  simp only [List.length_map, List.length_range] at h2
  simp [List.getD_eq_getElem?_getD, List.getElem?_eq_getElem (show a + i < M.length by omega)]

/-- The exact mean or sum over a step: minute by minute the value of the day. -/
def stepSum (xs : List K) (ts : Nat) (utc : Bool) (lon : K) (j : Nat) : K :=
  ((List.range ts).map fun k => xs.getD (sharedDay xs.length utc lon (j * ts + k)) 0).sum

theorem row_sum (xs : List K) (ts : Nat) (utc : Bool) (lon : K) {j : Nat} {s : List K}
    (h : (rows (sharedMinutes xs utc lon) ts)[j]? = some s) : s.sum = stepSum xs ts utc lon j ∧ s.length = ts ∧ s ∈ rows (sharedMinutes xs utc lon) ts := by
  have hm := List.mem_of_getElem? h
  have hj := (List.getElem?_eq_some_iff.1 h).1
  rw [length_rows] at hj
  have hl := length_of_mem_rows hm
  rw [getElem?_rows hj] at h
  cases h
  have ts0 : 0 < ts := by
    rcases Nat.eq_zero_or_pos ts with rfl | h0
    · simp at hj
    · exact h0
  have hle : (j + 1) * ts ≤ (sharedMinutes xs utc lon).length := (Nat.le_div_iff_mul_le ts0).1 hj
  rw [Nat.succ_mul] at hle
  refine ⟨?_, hl, hm⟩
  rw [row_eq _ _ _ hle]
  unfold stepSum
  congr 1
  refine List.map_congr_left fun k hk => ?_
  rw [List.mem_range] at hk
  rw [List.getD_eq_getElem?_getD, List.getD_eq_getElem?_getD, getElem?_sharedMinutes]
  rw [length_sharedMinutes] at hle
  omega

/-- A step's sum of rounded minutes, before and after it is written. -/
theorem step_err {n : Nat} (p q : Nat) (o : Adding n) (s : List K) (h : s.length = n) (h0 : ∀ x ∈ s, 0 ≤ x) :
    |rnd q (o.sum p (s.map fun x => rnd p (x / 1440))) - s.sum / 1440|
      ≤ ((1 + gam p (o.tree.depth + 1)) * (1 + 2 ^ (-q : Int)) - 1) * (s.sum / 1440) := by
  set u : K := 2 ^ (-p : Int) with hu
  have u0 : 0 < u := unit_pos p
  have e1 : |(s.map fun x => rnd p (x / 1440)).sum - s.sum / 1440| ≤ u * (s.sum / 1440)
      ∧ ((s.map fun x => rnd p (x / 1440)).map abs).sum ≤ (1 + u) * (s.sum / 1440) := by
    clear h
    induction s with
    | nil => simp
    | cons x s ih =>
      obtain ⟨i1, i2⟩ := ih fun y hy => h0 y (by simp [hy])
      have hx : 0 ≤ x / 1440 := div_nonneg (h0 x (by simp)) (by norm_num)
      have r := rnd_rel p (x / 1440)
      rw [← hu, abs_of_nonneg hx] at r
      have r' : |rnd p (x / 1440)| ≤ (1 + u) * (x / 1440) := by
        have := abs_add_le (rnd p (x / 1440) - x / 1440) (x / 1440)
        rw [sub_add_cancel, abs_of_nonneg hx] at this
        linarith
      simp only [List.map_cons, List.sum_cons]
      constructor
      · have := abs_add_le (rnd p (x / 1440) - x / 1440) ((s.map fun x => rnd p (x / 1440)).sum - s.sum / 1440)
        rw [show rnd p (x / 1440) + (s.map fun x => rnd p (x / 1440)).sum - (x + s.sum) / 1440
          = (rnd p (x / 1440) - x / 1440) + ((s.map fun x => rnd p (x / 1440)).sum - s.sum / 1440) by ring]
        linarith
      · linarith
  have e2 := adding_err p o (s.map fun x => rnd p (x / 1440)) (by simpa using h)
  have S0 : 0 ≤ s.sum / 1440 := div_nonneg (List.sum_nonneg h0) (by norm_num)
  set S := s.sum / 1440 with hS
  have e3 : |o.sum p (s.map fun x => rnd p (x / 1440)) - S| ≤ gam p (o.tree.depth + 1) * S := by
    have g0 := gam_nonneg (K := K) p o.tree.depth
    have := mul_le_mul_of_nonneg_left e1.2 g0
    have t := abs_add_le (o.sum p (s.map fun x => rnd p (x / 1440)) - (s.map fun x => rnd p (x / 1440)).sum)
      ((s.map fun x => rnd p (x / 1440)).sum - S)
    rw [sub_add_sub_cancel] at t
    rw [gam_succ, ← hu]
    linarith [e1.1]
  set T := o.sum p (s.map fun x => rnd p (x / 1440)) with hT
  have w := rnd_rel q T
  have v0 := unit_pos (K := K) q
  set v : K := 2 ^ (-q : Int) with hv
  have hTa : |T| ≤ (1 + gam p (o.tree.depth + 1)) * S := by
    have := abs_add_le (T - S) S
    rw [sub_add_cancel, abs_of_nonneg S0] at this
    linarith
  have := mul_le_mul_of_nonneg_right hTa v0.le
  have t := abs_add_le (rnd q T - T) (T - S)
  rw [sub_add_sub_cancel] at t
  linarith

/-- **C99.** Every written step of uniformly spread precipitation has the sum of its minutes' shares, up to the relative error of the
roundings, whatever the order of numpy's additions. -/
theorem C99_steps {p q : Nat} {ts : Nat} {order : Adding ts} {xs : List K} {utc : Bool} {lon : K} {out : List K}
    (h : precUniform p order xs utc lon = .ok out) (h0 : ∀ x ∈ xs, 0 ≤ x)
    {j : Nat} {w : K} (hw : (written q out)[j]? = some w) :
    |w - stepSum xs ts utc lon j / 1440|
      ≤ ((1 + gam p (order.tree.depth + 1)) * (1 + 2 ^ (-q : Int)) - 1) * (stepSum xs ts utc lon j / 1440) := by
  obtain ⟨ts0, -, rfl⟩ := precUniform_inv h
  unfold written at hw
  rw [List.getElem?_map, List.getElem?_map, Option.map_map, Option.map_eq_some_iff] at hw
  obtain ⟨s, hs, rfl⟩ := hw
  obtain ⟨e, hl, hm⟩ := row_sum xs ts utc lon hs
  rw [← e]
  exact step_err p q order s hl fun x hx => h0 x (mem_sharedMinutes (mem_of_mem_rows hm hx))

/-- **C99.** The written record holds as much water as the daily totals, up to the relative error of the roundings. -/
theorem C99_mass {p q : Nat} {ts : Nat} {order : Adding ts} {xs : List K} {utc : Bool} {lon : K} {out : List K}
    (h : precUniform p order xs utc lon = .ok out) (h0 : ∀ x ∈ xs, 0 ≤ x) :
    |(written q out).sum - xs.sum| ≤ ((1 + gam p (order.tree.depth + 1)) * (1 + 2 ^ (-q : Int)) - 1) * xs.sum := by
  obtain ⟨ts0, hd, rfl⟩ := precUniform_inv h
  have key : ∀ rs : List (List K), (∀ s ∈ rs, s.length = ts ∧ ∀ x ∈ s, 0 ≤ x) →
      |(written q (rs.map fun s => order.sum p (s.map fun x => rnd p (x / 1440)))).sum - rs.flatten.sum / 1440|
        ≤ ((1 + gam p (order.tree.depth + 1)) * (1 + 2 ^ (-q : Int)) - 1) * (rs.flatten.sum / 1440) := by
    intro rs
    induction rs with
    | nil => intro _; simp [written]
    | cons s rs ih =>
      intro hr
      have i := ih fun t ht => hr t (by simp [ht])
      have e := step_err p q order s (hr s (by simp)).1 (hr s (by simp)).2
      unfold written at i ⊢
      simp only [List.map_cons, List.sum_cons, List.flatten_cons, List.sum_append]
      set A := rnd q (order.sum p (s.map fun x => rnd p (x / 1440))) with hA
      set B := (List.map (rnd q) (rs.map fun s => order.sum p (s.map fun x => rnd p (x / 1440)))).sum with hB
      have t := abs_add_le (A - s.sum / 1440) (B - rs.flatten.sum / 1440)
      rw [show A + B - (s.sum + rs.flatten.sum) / 1440 = (A - s.sum / 1440) + (B - rs.flatten.sum / 1440) by ring]
      refine t.trans ((add_le_add e i).trans (le_of_eq ?_))
      ring
  have k := key (rows (sharedMinutes xs utc lon) ts) fun s hs =>
    ⟨length_of_mem_rows hs, fun x hx => h0 x (mem_sharedMinutes (mem_of_mem_rows hs hx))⟩
  rw [rows_flatten ts0 (by rwa [length_sharedMinutes]), sum_sharedMinutes, mul_div_cancel_left₀ _ (by norm_num : (1440 : K) ≠ 0)] at k
  exact k

/-- **C99.** With numbers of 53 digits and files of 24: at most one part in `2^23`. -/
theorem C99_double {ts : Nat} {order : Adding ts} {xs : List K} {utc : Bool} {lon : K} {out : List K}
    (h : precUniform 53 order xs utc lon = .ok out) (hts : ts ≤ 1440) (h0 : ∀ x ∈ xs, 0 ≤ x) :
    |(written 24 out).sum - xs.sum| ≤ 2 ^ (-23 : Int) * xs.sum := by
  refine (C99_mass (q := 24) h h0).trans (mul_le_mul_of_nonneg_right ?_ (List.sum_nonneg h0))
  have hd : order.tree.depth + 1 ≤ 1440 := by
    have := depth_lt_size order.tree; have := order.size_eq; omega
  have g : (gam 53 (order.tree.depth + 1) : K) ≤ 2 ^ (-41 : Int) := by
    refine (gam_mono 53 hd).trans ((gam_le 53 1440 (by norm_num)).trans (by norm_num))
  have : (1 + gam 53 (order.tree.depth + 1)) * (1 + 2 ^ (-(24 : Nat) : Int) : K) ≤ (1 + 2 ^ (-41 : Int)) * (1 + 2 ^ (-(24 : Nat) : Int)) :=
    mul_le_mul_of_nonneg_right (by linarith) (by positivity)
  refine (sub_le_sub_right this 1).trans ?_
  norm_num

/-- **C99.** With forcings of 24 digits, summed in 24 digits: at most one part in 5000. -/
theorem C99_single {ts : Nat} {order : Adding ts} {xs : List K} {utc : Bool} {lon : K} {out : List K}
    (h : precUniform 24 order xs utc lon = .ok out) (hts : ts ≤ 1440) (h0 : ∀ x ∈ xs, 0 ≤ x) :
    |(written 24 out).sum - xs.sum| ≤ 1 / 5000 * xs.sum := by
  refine (C99_mass (q := 24) h h0).trans (mul_le_mul_of_nonneg_right ?_ (List.sum_nonneg h0))
  have hd : order.tree.depth + 1 ≤ 1440 := by
    have := depth_lt_size order.tree; have := order.size_eq; omega
  have g : (gam 24 (order.tree.depth + 1) : K) ≤ 2 * 1440 * 2 ^ (-24 : Int) := by
    refine (gam_mono 24 hd).trans ((gam_le 24 1440 (by norm_num)).trans (by norm_num))
  have : (1 + gam 24 (order.tree.depth + 1)) * (1 + 2 ^ (-(24 : Nat) : Int) : K)
      ≤ (1 + 2 * 1440 * 2 ^ (-24 : Int)) * (1 + 2 ^ (-(24 : Nat) : Int)) :=
    mul_le_mul_of_nonneg_right (by linarith) (by positivity)
  refine (sub_le_sub_right this 1).trans ?_
  norm_num

/-- **C99.** Nothing is negative, and what falls on no wet day is dry. -/
theorem C99_dry {p q : Nat} {ts : Nat} {order : Adding ts} {xs : List K} {utc : Bool} {lon : K} {out : List K}
    (h : precUniform p order xs utc lon = .ok out) (h0 : ∀ x ∈ xs, 0 ≤ x)
    {j : Nat} {w : K} (hw : (written q out)[j]? = some w) :
    (stepSum xs ts utc lon j = 0 → w = 0) ∧ (0 < p → 0 ≤ w) := by
  constructor
  · intro hz
    have := C99_steps h h0 hw
    rw [hz, zero_div, mul_zero, sub_zero] at this
    exact abs_eq_zero.1 (le_antisymm this (abs_nonneg _))
  · intro hp
    obtain ⟨ts0, -, rfl⟩ := precUniform_inv h
    unfold written at hw
    rw [List.getElem?_map, List.getElem?_map, Option.map_map, Option.map_eq_some_iff] at hw
    obtain ⟨s, hs, rfl⟩ := hw
    obtain ⟨-, hl, hm⟩ := row_sum xs ts utc lon hs
    refine rnd_nonneg q ?_
    have := (adding_bounds p hp order (s.map fun x => rnd p (x / 1440)) (by simpa using hl) 0
      (fun k _ => by rw [mul_zero]; exact ⟨0, 0, by positivity, by simp⟩)).2
    rw [mul_zero] at this
    refine this fun y hy => ?_
    obtain ⟨x, hx, rfl⟩ := List.mem_map.1 hy
    exact rnd_nonneg p (div_nonneg (h0 x (mem_sharedMinutes (mem_of_mem_rows hm hx))) (by norm_num))

/-- **C100.** The step's value of wind or cloud cover is the mean over its minutes, up to the relative error of the roundings. -/
theorem C100_steps {p q : Nat} {ts : Nat} {order : Adding ts} {xs : List K} {utc : Bool} {lon : K} {out : List K}
    (h : means p order xs utc lon = .ok out) (h0 : ∀ x ∈ xs, 0 ≤ x)
    {j : Nat} {w : K} (hw : (written q out)[j]? = some w) :
    |w - stepSum xs ts utc lon j / ts|
      ≤ ((1 + gam p (order.tree.depth + 1)) * (1 + 2 ^ (-q : Int)) - 1) * (stepSum xs ts utc lon j / ts) := by
  obtain ⟨ts0, -, rfl⟩ := means_inv h
  have tsK : (0 : K) < ts := by exact_mod_cast ts0
  unfold written at hw
  rw [List.getElem?_map, List.getElem?_map, Option.map_map, Option.map_eq_some_iff] at hw
  obtain ⟨s, hs, rfl⟩ := hw
  obtain ⟨e, hl, hm⟩ := row_sum xs ts utc lon hs
  rw [← e]
  have s0 : ∀ x ∈ s, 0 ≤ x := fun x hx => h0 x (mem_sharedMinutes (mem_of_mem_rows hm hx))
  have S0 : 0 ≤ s.sum / (ts : K) := div_nonneg (List.sum_nonneg s0) tsK.le
  have e2 := adding_err p order s hl
  have ea : (s.map abs).sum = s.sum := by
    rw [List.map_congr_left fun x hx => abs_of_nonneg (s0 x hx), List.map_id']
  rw [ea] at e2
  have e3 : |order.sum p s / ts - s.sum / ts| ≤ gam p order.tree.depth * (s.sum / ts) := by
    rw [← sub_div, abs_div, abs_of_pos tsK, ← mul_div_assoc]
    exact div_le_div_of_nonneg_right e2 tsK.le
  have e4 := near_rnd e3 (abs_of_nonneg S0).le
  set T := rnd p (order.sum p s / (ts : K)) with hT
  set S := s.sum / (ts : K) with hS
  have w := rnd_rel q T
  have v0 := unit_pos (K := K) q
  set v : K := 2 ^ (-q : Int) with hv
  have hTa : |T| ≤ (1 + gam p (order.tree.depth + 1)) * S := by
    have := abs_add_le (T - S) S
    rw [sub_add_cancel, abs_of_nonneg S0] at this
    linarith
  have := mul_le_mul_of_nonneg_right hTa v0.le
  have t := abs_add_le (rnd q T - T) (T - S)
  rw [sub_add_sub_cancel] at t
  show |rnd q T - S| ≤ _
  linarith

/-- **C100.** Bounds of the daily values with at most `p - 11` and `q` digits are bounds of the written values: cloud cover stays within
0 and 1 in floating point. -/
theorem C100_bounds {p q : Nat} (hp : 11 < p) (hq : 0 < q) {ts : Nat} {order : Adding ts} {xs : List K} {utc : Bool} {lon : K}
    {out : List K} (h : means p order xs utc lon = .ok out) (hts : ts ≤ 1440) {a b : K}
    (ra : IsRep (p - 11) a) (rb : IsRep (p - 11) b) (qa : IsRep q a) (qb : IsRep q b) (hx : ∀ x ∈ xs, a ≤ x ∧ x ≤ b) :
    ∀ w ∈ written q out, a ≤ w ∧ w ≤ b := by
  obtain ⟨ts0, -, rfl⟩ := means_inv h
  have tsK : (0 : K) < ts := by exact_mod_cast ts0
  intro w hw
  unfold written at hw
  rw [List.map_map] at hw
  obtain ⟨s, hs, rfl⟩ := List.mem_map.1 hw
  have hl := length_of_mem_rows hs
  have mult : ∀ c : K, IsRep (p - 11) c → ∀ k : Nat, k ≤ ts → IsRep p ((k : K) * c) := by
    intro c hc k hk
    have := rep_mul (b := 11) hc (show k ≤ 2 ^ 11 by norm_num; omega)
    rwa [Nat.sub_add_cancel hp.le] at this
  have mem : ∀ x ∈ s, a ≤ x ∧ x ≤ b := fun x h => hx x (mem_sharedMinutes (mem_of_mem_rows hs h))
  have lo := (adding_bounds p (by omega) order s hl a (mult a ra)).2 fun x h => (mem x h).1
  have hi := (adding_bounds p (by omega) order s hl b (mult b rb)).1 fun x h => (mem x h).2
  constructor
  · exact le_rnd hq qa (le_rnd (by omega) (rep_mono (by omega) ra) (by rw [le_div_iff₀ tsK]; linarith))
  · exact rnd_le hq qb (rnd_le (by omega) (rep_mono (by omega) rb) (by rw [div_le_iff₀ tsK]; linarith))

/-- **C100.** A step whose minutes all have one value of at most `p - 11` and `q` digits is written with that value, exactly. -/
theorem C100_constant {p q : Nat} (hp : 11 < p) (hq : 0 < q) {ts : Nat} {order : Adding ts} {xs : List K} {utc : Bool} {lon : K}
    {out : List K} (h : means p order xs utc lon = .ok out) (hts : ts ≤ 1440) {c : K}
    (rc : IsRep (p - 11) c) (qc : IsRep q c) {j : Nat} {w : K} (hw : (written q out)[j]? = some w)
    (hc : ∀ k < ts, xs[sharedDay xs.length utc lon (j * ts + k)]? = some c) : w = c := by
  obtain ⟨ts0, -, rfl⟩ := means_inv h
  have tsK : (0 : K) < ts := by exact_mod_cast ts0
  unfold written at hw
  rw [List.getElem?_map, List.getElem?_map, Option.map_map, Option.map_eq_some_iff] at hw
  obtain ⟨s, hs, rfl⟩ := hw
  have hj := (List.getElem?_eq_some_iff.1 hs).1
  rw [length_rows] at hj
  have hle : (j + 1) * ts ≤ (sharedMinutes xs utc lon).length := (Nat.le_div_iff_mul_le ts0).1 hj
  rw [Nat.succ_mul] at hle
  have hl := (row_sum xs ts utc lon hs).2.1
  rw [getElem?_rows hj] at hs
  have all : ∀ x ∈ s, x = c := by
    cases hs
    rw [row_eq _ _ _ hle]
    intro x hx
    obtain ⟨k, hk, rfl⟩ := List.mem_map.1 hx
    rw [List.mem_range] at hk
    rw [length_sharedMinutes] at hle
    rw [List.getD_eq_getElem?_getD, getElem?_sharedMinutes _ _ _ (by omega), hc k hk]
    rfl
  have mult : ∀ k : Nat, k ≤ ts → IsRep p ((k : K) * c) := by
    intro k hk
    have := rep_mul (b := 11) rc (show k ≤ 2 ^ 11 by norm_num; omega)
    rwa [Nat.sub_add_cancel hp.le] at this
  have e := adding_const p (by omega) order s hl c mult all
  show rnd q (rnd p (order.sum p s / (ts : K))) = c
  rw [e, mul_div_cancel_left₀ _ tsK.ne', rnd_rep (by omega) (rep_mono (by omega) rc), rnd_rep hq qc]

end

/-- numpy's sum of an hour. -/
def hour : Adding 60 := ⟨Order.eight 60, Order.eightPick 60, by decide +kernel, by decide +kernel⟩

/-- C100, in full: a value with the digits of the file (24), the same all through a step, is written as it is, with forcings of 24 digits
and of 53. -/
def C100_full : Prop :=
  ∀ p, p = 24 ∨ p = 53 → ∀ (c : ℚ) (out : List ℚ), IsRep 24 c → means p hour [c] false 0 = .ok out → ∀ w ∈ written 24 out, w = c

/-- C100, what holds: it is so with numbers of 53 digits, for every time step and every order of additions. -/
theorem C100_constant_partial {ts : Nat} (hts : ts ≤ 1440) {order : Adding ts} {c : ℚ} {n : Nat} {utc : Bool} {lon : ℚ} {out : List ℚ}
    (rc : IsRep 24 c) (h : means 53 order (List.replicate n c) utc lon = .ok out) : ∀ w ∈ written 24 out, w = c := by
  have := C100_bounds (p := 53) (q := 24) (a := c) (b := c) (by norm_num) (by norm_num) h hts
    (rep_mono (by norm_num) rc) (rep_mono (by norm_num) rc) rc rc fun x hx => by rw [List.eq_of_mem_replicate hx]; simp
  exact fun w hw => le_antisymm (this w hw).2 (this w hw).1

/-- The number of 24 digits next to 0.3, in hourly steps. -/
theorem C100_refuted : ¬ C100_full := by
  intro h
  have e : means 24 hour [(10066330 / 2 ^ 25 : ℚ)] false 0 = .ok (List.replicate 24 (10066327 / 2 ^ 25)) := by decide +kernel
  have := h 24 (Or.inl rfl) _ _ ⟨10066330, -25, by norm_num, by norm_num⟩ e (10066327 / 2 ^ 25) (by decide +kernel)
  norm_num at this

/-- With every other step a way of adding exists: one entry after the other. -/
def oneByOne (n : Nat) (h : 0 < n) : Adding n :=
  ⟨Order.comb (n - 1), List.range n, by
    have : ∀ k, (Order.comb k).size = k + 1 := fun k => by
      induction k with
      | zero => rfl
      | succ k ih => simp [Order.comb, Order.size, ih]
    rw [this]; omega, List.Perm.refl _⟩

/-- Three days in steps of six hours at 120.5 degrees West. -/
example : (precUniform 53 (oneByOne 360 (by norm_num)) [(10 : ℚ), 0, 3] true (-241 / 2)).isOk = true := by decide +kernel
example : (means 24 hour [(1 : ℚ), 1 / 2, 1 / 4] true (-241 / 2)).isOk = true := by decide +kernel

end Verif.Props
