import Verif.Lemmas.Disagg
import Mathlib.Data.Rat.Floor
import Mathlib.Algebra.BigOperators.Ring.List

/-!
# Sub-daily precipitation, wind and cloud: C46, C47, C48, C49, C50, C53, C67
-/

set_option linter.unusedSectionVars false

namespace Verif.Props

open Flt Np Disagg

attribute [local irreducible] triangleShape

variable {K : Type} [Field K] [LinearOrder K] [IsStrictOrderedRing K] [FloorRing K]

/-- A storm with peak `tp` and duration `du` (minutes) touches the minutes of the day: some minute lies between
the peak and the end, or two lie between the start and the peak (the first of these has weight zero). -/
def HasWeight (tp du : K) : Prop :=
  (∃ m : Nat, m < 1440 ∧ tp ≤ m ∧ (m : K) ≤ tp + du / 2) ∨
  (∃ m m' : Nat, m < m' ∧ m' < 1440 ∧ tp - du / 2 ≤ m ∧ (m' : K) ≤ tp)

/-- Day `d` is not given to an empty storm. -/
def Spreads (ptype : String) (tMin : List (Flt K)) (tPk dur : Option (List (Flt K))) (d : Nat) : Prop :=
  (Lw.upperS ptype ≠ "TRIANGLE" ∧ Lw.upperS ptype ≠ "MIX") ∨
  (Lw.upperS ptype = "MIX" ∧ ∃ t, tMin[d]? = some (fin t) ∧ t < 0) ∨
  ∃ lp ld tp du, tPk = some lp ∧ dur = some ld ∧ lp[d]? = some (fin tp) ∧ ld[d]? = some (fin du) ∧
    HasWeight tp du

/-! ## Lemmas -/

theorem shape_sum_ne_zero (tp du : K) :
    (triangleShape (fin tp) (fin du)).sum ≠ 0 ↔ HasWeight tp du := by
  have hnn : ∀ x ∈ triangleShape (fin tp) (fin du), (0 : K) ≤ x := fun x hx =>
    (triangleShape_bounds _ _ hx).1
  rw [Ne, sum_nonneg_eq_zero_iff _ hnn]
  have hminus : tMinus tp du ≠ [] → ¬ ∀ x ∈ triangleShape (fin tp) (fin du), x = 0 := by
    intro hne hall
    obtain ⟨m, l, hml⟩ := List.exists_cons_of_ne_nil hne
    have h := shape_minus (tPk := tp) (dur := du) (k := 0) (m := m) (by rw [hml]; rfl)
    have := hall _ (List.mem_of_getElem? h)
    simp at this
  constructor
  · intro h
    by_contra hw
    apply h
    unfold HasWeight at hw
    push Not at hw
    obtain ⟨hw1, hw2⟩ := hw
    have hnil : ∀ m, m ∉ tMinus tp du := by
      intro m hm
      rw [mem_tMinus] at hm
      exact absurd hm.2.2 (not_le.2 (hw1 m hm.1 hm.2.1))
    intro x hx
    obtain ⟨m, hm⟩ := List.mem_iff_getElem?.1 hx
    have hm' : m < 1440 := by
      have := (List.getElem?_eq_some_iff.1 hm).1
      rwa [length_triangleShape] at this
    by_cases hp : m ∈ tPlus tp du
    · obtain ⟨k, hk⟩ := List.mem_iff_getElem?.1 hp
      have hs := shape_plus hk (hnil m)
      rw [hm, Option.some.injEq] at hs
      have hk0 : k = 0 := by
        by_contra hk0
        have hkl := (List.getElem?_eq_some_iff.1 hk).1
        have h0 : (tPlus tp du)[0]? = some ((tPlus tp du)[0]) := List.getElem?_eq_getElem (by omega)
        have hpw := pairwise_tPlus tp du
        have hlt : (tPlus tp du)[0] < m := by
          rw [List.pairwise_iff_getElem] at hpw
          have := hpw 0 k (by omega) hkl (by omega)
          rwa [(List.getElem?_eq_some_iff.1 hk).2] at this
        have h0m := mem_tPlus.1 (List.mem_of_getElem? h0)
        have hmm := mem_tPlus.1 hp
        exact absurd hmm.2.1 (not_le.2 (hw2 _ _ hlt hmm.1 h0m.2.2))
      rw [hs, hk0]; simp
    · have hs := shape_out hm' hp (hnil m)
      rw [hm, Option.some.injEq] at hs
      exact hs
  · rintro (⟨m, hm, h1, h2⟩ | ⟨m, m', hlt, hm', h1, h2⟩)
    · exact hminus (List.ne_nil_of_mem (mem_tMinus.2 ⟨hm, h1, h2⟩))
    · by_cases hne : tMinus tp du = []
      · have hlt' : (m : K) < m' := by exact_mod_cast hlt
        have hmem : m ∈ tPlus tp du := mem_tPlus.2 ⟨by omega, by linarith, h1⟩
        have hmem' : m' ∈ tPlus tp du := mem_tPlus.2 ⟨hm', h2, by linarith⟩
        obtain ⟨k, hk⟩ := List.mem_iff_getElem?.1 hmem
        obtain ⟨k', hk'⟩ := List.mem_iff_getElem?.1 hmem'
        have hkk := index_lt (pairwise_tPlus tp du) hk hk' hlt
        have hs := shape_plus hk' (by rw [hne]; simp)
        intro hall
        have h0 := hall _ (List.mem_of_getElem? hs)
        have hl := (List.getElem?_eq_some_iff.1 hk').1
        have hl2 : (2 : K) ≤ (tPlus tp du).length := by exact_mod_cast (by omega : 2 ≤ (tPlus tp du).length)
        have hk0 : (0 : K) < k' := by exact_mod_cast (by omega : 0 < k')
        have : (0 : K) < (k' : K) / (((tPlus tp du).length : K) - 1) := div_pos hk0 (by linarith)
        linarith
      · exact hminus hne

/-- Minutes of day `d`. -/
def dayOf (ptype : String) (P tMin : List (Flt K)) (tPk dur : Option (List (Flt K))) (d : Nat) :
    Except PyErr (List (Flt K)) :=
  if Lw.upperS ptype = "TRIANGLE" ∨ Lw.upperS ptype = "MIX" then
    triangleDay (decide (Lw.upperS ptype = "MIX")) (P.getD d nan) (tMin.getD d nan)
      (tPk.map fun l => l.getD d nan) (dur.map fun l => l.getD d nan)
  else .ok (List.replicate 1440 (P.getD d nan / fin 1440))

theorem triangleDay_length {mix : Bool} {p t : Flt K} {a b : Option (Flt K)} {day : List (Flt K)}
    (h : triangleDay mix p t a b = .ok day) : day.length = 1440 := by
  unfold triangleDay at h
  simp only at h
  split at h
  · obtain rfl := Except.ok.inj h
    rw [List.length_replicate]; rfl
  · split at h
    · obtain rfl := Except.ok.inj h
      rw [List.length_map, length_triangleShape]
    · cases h

theorem dayOf_length {ptype : String} {P tMin : List (Flt K)} {tPk dur : Option (List (Flt K))} {d : Nat}
    {day : List (Flt K)} (h : dayOf ptype P tMin tPk dur d = .ok day) : day.length = 1440 := by
  unfold dayOf at h
  split at h
  · exact triangleDay_length h
  · obtain rfl := Except.ok.inj h
    rw [List.length_replicate]

theorem prec_inv {P tMin : List (Flt K)} {ts : Nat} {ptype : String} {utc : Bool} {lon : K}
    {tPk dur : Option (List (Flt K))} {out : List (Flt K)}
    (h : prec P tMin ts ptype utc lon tPk dur = .ok out) :
    ∃ days : List (List (Flt K)), days.length = P.length ∧
      (∀ d day, days[d]? = some day → dayOf ptype P tMin tPk dur d = .ok day) ∧
      (∀ day ∈ days, day.length = 1440) ∧ 0 < ts ∧ ts ∣ P.length * 1440 ∧
      out = (rows (if utc then roll days.flatten (-offsetMin lon) else days.flatten) ts).map Flt.sum := by
  unfold prec at h
  simp only [bind_ok, pure_ok] at h
  obtain ⟨M, hM, steps, hsteps, rfl⟩ := h
  unfold precMinutes at hM
  obtain ⟨hts, hdvd, rfl⟩ := reshape_ok.1 hsteps
  have key : ∃ days : List (List (Flt K)), days.length = P.length ∧ M = days.flatten ∧
      (∀ d day, days[d]? = some day → dayOf ptype P tMin tPk dur d = .ok day) := by
    by_cases hc : Lw.upperS ptype = "TRIANGLE" ∨ Lw.upperS ptype = "MIX"
    · rw [if_pos hc] at hM
      unfold precTriangle at hM
      simp only [bind_ok, pure_ok] at hM
      obtain ⟨days, hdays, rfl⟩ := hM
      obtain ⟨h1, h2⟩ := mapM_range_ok hdays
      refine ⟨days, h1, rfl, fun d day hd => ?_⟩
      unfold dayOf
      rw [if_pos hc]
      exact h2 d day hd
    · rw [if_neg hc] at hM
      injection hM with hM
      subst hM
      refine ⟨P.map fun p => List.replicate 1440 (p / fin 1440), List.length_map .., ?_, fun d day hd => ?_⟩
      · unfold precUniform
        rw [repeatEach_eq_flatten, List.map_map]
        rfl
      · unfold dayOf
        rw [if_neg hc]
        rw [List.getElem?_map] at hd
        rw [Option.map_eq_some_iff] at hd
        obtain ⟨p, hp, rfl⟩ := hd
        rw [List.getD_eq_getElem?_getD, hp]
        rfl
  obtain ⟨days, hlen, rfl, hdays⟩ := key
  have hl : ∀ day ∈ days, day.length = 1440 := by
    intro day hday
    obtain ⟨d, hd⟩ := List.mem_iff_getElem?.1 hday
    exact dayOf_length (hdays d day hd)
  refine ⟨days, hlen, hdays, hl, hts, ?_, rfl⟩
  have hlf := length_flatten_const 1440 days hl
  rw [hlen] at hlf
  split at hdvd
  · rwa [length_roll, hlf] at hdvd
  · rwa [hlf] at hdvd

/-- The minutes of a day that is spread: they add up to the amount and have its sign. -/
theorem dayOf_spec {ptype : String} {P tMin : List (Flt K)} {tPk dur : Option (List (Flt K))} {d : Nat}
    {day : List (Flt K)} (h : dayOf ptype P tMin tPk dur d = .ok day) {p : K} (hp : P[d]? = some (fin p))
    (hs : Spreads ptype tMin tPk dur d) :
    Flt.sum day = fin p ∧ ∀ x ∈ day, ∃ v, x = fin v ∧ (0 ≤ p → 0 ≤ v) := by
  have hpd : P.getD d nan = fin p := by rw [List.getD_eq_getElem?_getD, hp]; rfl
  have hrep : Flt.sum (List.replicate 1440 (fin (p / 1440) : Flt K)) = fin p ∧
      ∀ x ∈ List.replicate 1440 (fin (p / 1440) : Flt K), ∃ v, x = fin v ∧ (0 ≤ p → 0 ≤ v) := by
    constructor
    · rw [Flt.sum_replicate]; congr 1; push_cast; ring
    · intro x hx
      rw [List.eq_of_mem_replicate hx]
      exact ⟨_, rfl, fun h => by positivity⟩
  unfold dayOf at h
  rw [hpd] at h
  split at h
  · rename_i hc
    unfold triangleDay at h
    simp only at h
    split at h
    · obtain rfl := Except.ok.inj h
      have : (fin p * fin 1 / fin ((Cnst.HOURS_PER_DAY * Cnst.MIN_PER_HOUR : Nat) : K) : Flt K) = fin (p / 1440) := by
        rw [mul_fin, mul_one, div_fin_ne (by simp [Cnst.HOURS_PER_DAY, Cnst.MIN_PER_HOUR])]
        norm_num [Cnst.HOURS_PER_DAY, Cnst.MIN_PER_HOUR]
      rw [this]
      exact hrep
    · rename_i hm
      rcases hs with ⟨h1, h2⟩ | ⟨h1, t, h2, h3⟩ | ⟨lp, ld, tp, du, rfl, rfl, h3, h4, hw⟩
      · exact absurd hc (by simp [h1, h2])
      · exfalso; apply hm
        rw [List.getD_eq_getElem?_getD, h2]
        simp [h1, h3]
      · simp only [Option.map_some, List.getD_eq_getElem?_getD, h3, h4, Option.getD_some] at h
        obtain rfl := Except.ok.inj h
        have hne := (shape_sum_ne_zero tp du).2 hw
        rw [div_fin_ne hne]
        simp only [mul_fin]
        set sh := triangleShape (fin tp) (fin du) with hsh
        have hnn : ∀ x ∈ sh, (0 : K) ≤ x := fun x hx => (triangleShape_bounds _ _ hx).1
        constructor
        · have : sh.map (fun x => (fin (p / sh.sum * x) : Flt K)) = (sh.map (fun x => p / sh.sum * x)).map fin := by
            rw [List.map_map]; rfl
          rw [this, sum_map_fin, List.sum_map_mul_left, List.map_id']
          congr 1
          field_simp
        · intro x hx
          obtain ⟨y, hy, rfl⟩ := List.mem_map.1 hx
          exact ⟨_, rfl, fun h0 => mul_nonneg (div_nonneg h0 (List.sum_nonneg hnn)) (hnn y hy)⟩
  · obtain rfl := Except.ok.inj h
    rw [div_fin_ne (by norm_num)]
    exact hrep

/-- Where the minutes of a step come from: step `k` of day `d` sums minutes `k ts … (k+1) ts - 1` of the day. -/
theorem step_of_day {days : List (List (Flt K))} (hl : ∀ day ∈ days, day.length = 1440) {ts : Nat}
    (hts : ts ∣ 1440) {d k : Nat} {day : List (Flt K)} (hday : days[d]? = some day) (hk : k < 1440 / ts) :
    ((rows days.flatten ts).map Flt.sum)[d * (1440 / ts) + k]? =
      some (Flt.sum ((day.drop (k * ts)).take ts)) := by
  have hmul : 1440 / ts * ts = 1440 := Nat.div_mul_cancel hts
  have hts0 : 0 < ts := Nat.pos_of_dvd_of_pos hts (by norm_num)
  have hlf := length_flatten_const 1440 days hl
  have hd := (List.getElem?_eq_some_iff.1 hday).1
  have hlen : days.flatten.length / ts = days.length * (1440 / ts) := by
    rw [hlf, Nat.mul_div_assoc _ hts]
  have hi : d * (1440 / ts) + k < days.flatten.length / ts := by
    rw [hlen]
    calc d * (1440 / ts) + k < d * (1440 / ts) + 1440 / ts := by omega
      _ = (d + 1) * (1440 / ts) := by ring
      _ ≤ _ := Nat.mul_le_mul_right _ hd
  rw [List.getElem?_map, getElem?_rows hi, Option.map_some]
  congr 2
  have hkt : k * ts + ts ≤ 1440 := by
    calc k * ts + ts = (k + 1) * ts := by ring
      _ ≤ 1440 / ts * ts := Nat.mul_le_mul_right _ hk
      _ = 1440 := hmul
  rw [← flatten_block 1440 days hl hday, List.drop_take, List.take_take, List.drop_drop,
    show (d * (1440 / ts) + k) * ts = d * 1440 + k * ts by rw [add_mul, mul_assoc, hmul], min_eq_left (by omega)]

/-! ## C46 -/

/-- **C46.** Without `utc_offset` the steps of a day add up to the day's amount and none is negative. -/
theorem C46_daily_total {P tMin : List (Flt K)} {ts : Nat} {ptype : String} {lon : K}
    {tPk dur : Option (List (Flt K))} {out : List (Flt K)} (hts : ts ∣ 1440)
    (h : prec P tMin ts ptype false lon tPk dur = .ok out) {d : Nat} {p : K} (hp : P[d]? = some (fin p))
    (hs : Spreads ptype tMin tPk dur d) :
    Flt.sum ((out.drop (d * (1440 / ts))).take (1440 / ts)) = fin p ∧
    (0 ≤ p → ∀ x ∈ (out.drop (d * (1440 / ts))).take (1440 / ts), ∃ v, x = fin v ∧ 0 ≤ v) := by
  obtain ⟨days, hlen, hdays, hl, hts0, hdvd, rfl⟩ := prec_inv h
  have hd : d < P.length := (List.getElem?_eq_some_iff.1 hp).1
  obtain ⟨day, hday⟩ : ∃ day, days[d]? = some day := ⟨_, List.getElem?_eq_getElem (by omega)⟩
  have hlf : days.flatten.length = P.length * 1440 := by rw [length_flatten_const 1440 days hl, hlen]
  have hspec := dayOf_spec (hdays d day hday) hp hs
  have hmul : 1440 / ts * ts = 1440 := Nat.div_mul_cancel hts
  have hblk : (days.flatten.drop (d * (1440 / ts) * ts)).take (1440 / ts * ts) = day := by
    rw [Nat.mul_assoc, hmul]
    exact flatten_block 1440 days hl hday
  simp only [Bool.false_eq_true, if_false]
  constructor
  · rw [sum_rows_block _ hts0 (by rw [hlf]; exact hdvd), hblk]
    exact hspec.1
  · intro h0 x hx
    rw [← List.map_drop, ← List.map_take] at hx
    obtain ⟨r, hr, rfl⟩ := List.mem_map.1 hx
    refine Flt.sum_nonneg _ fun y hy => ?_
    have hmem : y ∈ day := by
      rw [← hblk, ← rows_take_flatten ts hts0 (1440 / ts), ← rows_drop]
      · exact List.mem_flatten.2 ⟨r, hr, hy⟩
      · rw [List.length_drop, hlf]
        exact Nat.dvd_sub hdvd (Dvd.intro_left _ rfl)
    obtain ⟨v, rfl, hv⟩ := hspec.2 y hmem
    exact ⟨v, rfl, hv h0⟩

/-! ## C47 -/

/-- **C47.** The total over the record is the total of the daily amounts, with or without `utc_offset`. -/
theorem C47_total {ps : List K} {tMin : List (Flt K)} {ts : Nat} {ptype : String} {utc : Bool} {lon : K}
    {tPk dur : Option (List (Flt K))} {out : List (Flt K)}
    (h : prec (ps.map fin) tMin ts ptype utc lon tPk dur = .ok out)
    (hs : ∀ d < ps.length, Spreads ptype tMin tPk dur d) : Flt.sum out = fin ps.sum := by
  obtain ⟨days, hlen, hdays, hl, hts0, hdvd, rfl⟩ := prec_inv h
  rw [List.length_map] at hlen hdvd
  have hlf := length_flatten_const 1440 days hl
  rw [← Flt.sum_flatten, rows_flatten hts0 (by split <;> simp only [length_roll, hlf, hlen] <;> exact hdvd)]
  have : Flt.sum days.flatten = fin ps.sum := by
    rw [Flt.sum_flatten, ← sum_map_fin]
    congr 1
    apply List.ext_getElem?
    intro d
    rw [List.getElem?_map, List.getElem?_map]
    by_cases hd : d < ps.length
    · have hday : days[d]? = some (days[d]'(by omega)) := List.getElem?_eq_getElem _
      have hp : (ps.map (fin : K → Flt K))[d]? = some (fin ps[d]) := by
        rw [List.getElem?_map, List.getElem?_eq_getElem hd]; rfl
      rw [hday, List.getElem?_eq_getElem hd, Option.map_some, Option.map_some,
        (dayOf_spec (hdays d _ hday) hp (hs d hd)).1]
    · rw [List.getElem?_eq_none (by omega), List.getElem?_eq_none (by omega)]; rfl
  split
  · rw [Flt.sum_perm (roll_perm _ _), this]
  · exact this

theorem rows_one {α : Type} (xs : List α) : rows xs 1 = xs.map fun x => [x] := by
  apply List.ext_getElem?
  intro i
  by_cases h : i < xs.length
  · rw [getElem?_rows (by simpa using h), List.getElem?_map, List.getElem?_eq_getElem h, Option.map_some, Nat.mul_one,
      List.drop_eq_getElem_cons h, List.take_succ_cons, List.take_zero]
  · rw [List.getElem?_eq_none (by rw [length_rows]; simpa using h),
      List.getElem?_eq_none (by simpa using h)]

theorem rows_one_sum (xs : List (Flt K)) : (rows xs 1).map Flt.sum = xs := by
  rw [rows_one, List.map_map]
  conv_rhs => rw [← List.map_id xs]
  apply List.map_congr_left
  intro x _
  cases x <;> simp

/-- The whole minutes of a longitude: four minutes per degree, rounded towards zero. -/
def minutesOf (lon : K) : Int := if 0 ≤ lon then ⌊4 * lon⌋ else ⌈4 * lon⌉

theorem offsetMin_eq (lon : K) : offsetMin lon = minutesOf lon := by
  unfold offsetMin trunc minutesOf
  have e : lon / Cnst.DEG_PER_REV * (Cnst.MIN_PER_DAY : K) = 4 * lon := by
    unfold Cnst.DEG_PER_REV Cnst.MIN_PER_DAY
    norm_num
    ring
  rw [e]
  by_cases h : 0 ≤ lon
  · rw [if_pos h, if_pos (by linarith)]
  · rw [if_neg h, if_neg (by linarith)]

theorem take_drop_range {α : Type} (xs : List α) (a : Nat) {w : Nat} (dflt : α) (h : a + w ≤ xs.length) :
    (xs.drop a).take w = (List.range w).map fun j => (xs[a + j]?).getD dflt := by
  apply List.ext_getElem?
  intro j
  by_cases hj : j < w
  · rw [List.getElem?_take_of_lt hj, List.getElem?_drop, List.getElem?_map, List.getElem?_range hj, Option.map_some,
      List.getElem?_eq_getElem (by omega)]
    rfl
  · rw [List.getElem?_eq_none (by rw [List.length_take]; omega), List.getElem?_eq_none (by simpa using hj)]

/-- **C47.** With `utc_offset` step `i` sums the minutes of the unshifted record that lie the whole minutes of
the longitude later, wrapping around the record. -/
theorem C47_shift {P tMin : List (Flt K)} {ts : Nat} {ptype : String} {lon lon' : K}
    {tPk dur : Option (List (Flt K))} {M out : List (Flt K)}
    (h1 : prec P tMin 1 ptype false lon' tPk dur = .ok M)
    (h2 : prec P tMin ts ptype true lon tPk dur = .ok out) :
    M.length = P.length * 1440 ∧ out.length * ts = M.length ∧ ∀ i < out.length,
      out[i]? = some (Flt.sum ((List.range ts).map fun (j : Nat) =>
        (M[(((i * ts + j : Nat) + minutesOf lon : Int) % (M.length : Int)).toNat]?).getD nan)) := by
  obtain ⟨days, hlen, hdays, hl, -, -, rfl⟩ := prec_inv h1
  obtain ⟨days', hlen', hdays', hl', hts0, hdvd, rfl⟩ := prec_inv h2
  have : days' = days := by
    apply List.ext_getElem?
    intro d
    by_cases hd : d < P.length
    · have e1 : days[d]? = some (days[d]'(by omega)) := List.getElem?_eq_getElem _
      have e2 : days'[d]? = some (days'[d]'(by omega)) := List.getElem?_eq_getElem _
      have a := hdays d _ e1
      have b := hdays' d _ e2
      rw [a] at b
      rw [e1, e2, Except.ok.inj b]
    · rw [List.getElem?_eq_none (by omega), List.getElem?_eq_none (by omega)]
  subst this
  have hlf := length_flatten_const 1440 days' hl
  rw [hlen] at hlf
  simp only [Bool.false_eq_true, if_false, if_true]
  rw [rows_one_sum, hlf]
  have hlr : ((rows (roll days'.flatten (-offsetMin lon)) ts).map Flt.sum).length = P.length * 1440 / ts := by
    rw [List.length_map, length_rows, length_roll, hlf]
  refine ⟨rfl, by rw [hlr]; exact Nat.div_mul_cancel hdvd, fun i hi => ?_⟩
  rw [hlr] at hi
  rw [List.getElem?_map, getElem?_rows (by rw [length_roll, hlf]; exact hi), Option.map_some]
  have hit : i * ts + ts ≤ P.length * 1440 := by
    calc i * ts + ts = (i + 1) * ts := by ring
      _ ≤ P.length * 1440 / ts * ts := Nat.mul_le_mul_right _ hi
      _ = _ := Nat.div_mul_cancel hdvd
  rw [take_drop_range _ _ nan (by rw [length_roll, hlf]; exact hit)]
  congr 2
  apply List.map_congr_left
  intro j hj
  rw [List.mem_range] at hj
  rw [getElem?_roll _ _ (by rw [hlf]; omega), hlf, offsetMin_eq]

example : (prec ([fin 1440, fin 2880] : List (Flt ℚ)) [] 720 "uniform" true (-45) none none).toOption =
    some [fin (720 + 180), fin 720, fin (720 + 720 - 180), fin (720 + 720)] := by decide +kernel

/-! ## C48 -/

theorem hasWeight_reasonable {tp du : K} (h0 : 0 ≤ tp) (h1 : tp ≤ 1439) (h2 : 2 ≤ du) : HasWeight tp du := by
  left
  refine ⟨⌈tp⌉.toNat, ?_, ?_, ?_⟩
  · have : ⌈tp⌉ ≤ 1439 := Int.ceil_le.2 (by exact_mod_cast h1)
    omega
  all_goals
    have hc : ((⌈tp⌉.toNat : Nat) : K) = ⌈tp⌉ := by
      have : (0 : Int) ≤ ⌈tp⌉ := Int.ceil_nonneg h0
      exact_mod_cast congrArg (Int.cast (R := K)) (Int.toNat_of_nonneg this)
    rw [hc]
  · exact Int.le_ceil tp
  · have := Int.ceil_lt_add_one tp
    linarith

/-- **C48.** A storm that peaks within the minutes of the day and lasts at least two minutes gives finite
amounts, whatever the time step and the longitude. -/
theorem C48_finite {P tMin : List (Flt K)} {ts : Nat} {ptype : String} {utc : Bool} {lon : K}
    {lp ld : List (Flt K)} {out : List (Flt K)}
    (h : prec P tMin ts ptype utc lon (some lp) (some ld) = .ok out)
    (hP : ∀ d < P.length, ∃ p tp du, P[d]? = some (fin p) ∧ lp[d]? = some (fin tp) ∧ ld[d]? = some (fin du) ∧
      0 ≤ tp ∧ tp ≤ 1439 ∧ 2 ≤ du) : ∀ x ∈ out, ∃ v, x = fin v := by
  obtain ⟨days, hlen, hdays, hl, hts0, hdvd, rfl⟩ := prec_inv h
  intro x hx
  obtain ⟨r, hr, rfl⟩ := List.mem_map.1 hx
  have hfin : ∀ y ∈ r, isFin y = true := by
    intro y hy
    have hmem : y ∈ days.flatten := by
      have := mem_of_mem_rows hr hy
      split at this
      · exact (roll_perm _ _).mem_iff.1 this
      · exact this
    obtain ⟨day, hday, hyd⟩ := List.mem_flatten.1 hmem
    obtain ⟨d, hd⟩ := List.mem_iff_getElem?.1 hday
    have hdl := (List.getElem?_eq_some_iff.1 hd).1
    obtain ⟨p, tp, du, h1, h2, h3, h4, h5, h6⟩ := hP d (by omega)
    obtain ⟨v, rfl, _⟩ := (dayOf_spec (hdays d day hd) h1
      (.inr (.inr ⟨lp, ld, tp, du, rfl, rfl, h2, h3, hasWeight_reasonable h4 h5 h6⟩))).2 y hyd
    rfl
  obtain ⟨ys, rfl⟩ := Flt.exists_map_fin r hfin
  exact ⟨_, sum_map_fin ys⟩

/-- Rain that spreads over storms with some weight is rain everywhere, and not negative unless the forcing is. -/
theorem prec_nonneg {P tMin : List (Flt K)} {ts : Nat} {ptype : String} {utc : Bool} {lon : K}
    {tPk dur : Option (List (Flt K))} {out : List (Flt K)} (h : prec P tMin ts ptype utc lon tPk dur = .ok out)
    (hs : ∀ d < P.length, Spreads ptype tMin tPk dur d) (hP : ∀ x ∈ P, ∃ v, x = fin v ∧ 0 ≤ v) :
    ∀ x ∈ out, ∃ v, x = fin v ∧ 0 ≤ v := by
  obtain ⟨days, hlen, hdays, hl, hts0, hdvd, rfl⟩ := prec_inv h
  intro x hx
  obtain ⟨r, hr, rfl⟩ := List.mem_map.1 hx
  refine Flt.sum_nonneg _ fun y hy => ?_
  have hmem : y ∈ days.flatten := by
    have := mem_of_mem_rows hr hy
    split at this
    · exact (roll_perm _ _).mem_iff.1 this
    · exact this
  obtain ⟨day, hday, hyd⟩ := List.mem_flatten.1 hmem
  obtain ⟨d, hd⟩ := List.mem_iff_getElem?.1 hday
  have hdl : d < P.length := by have := (List.getElem?_eq_some_iff.1 hd).1; omega
  obtain ⟨v, hv, hv0⟩ := hP _ (List.getElem_mem hdl)
  obtain ⟨w, rfl, hw⟩ := (dayOf_spec (hdays d day hd) (by rw [List.getElem?_eq_getElem hdl, hv]) (hs d hdl)).2 y hyd
  exact ⟨w, rfl, hw hv0⟩

theorem triangle_day_of {P tMin : List (Flt K)} {lp ld : List (Flt K)} {ptype : String} {d : Nat}
    {day : List (Flt K)} (h : dayOf ptype P tMin (some lp) (some ld) d = .ok day)
    (ht : Lw.upperS ptype = "TRIANGLE") {p tp du : K} (hp : P[d]? = some (fin p)) (htp : lp[d]? = some (fin tp))
    (hdu : ld[d]? = some (fin du)) :
    day = (triangleShape (fin tp) (fin du)).map
      fun x => fin p / fin (triangleShape (fin tp) (fin du)).sum * fin x := by
  unfold dayOf at h
  rw [if_pos (.inl ht), ht, List.getD_eq_getElem?_getD, hp, Option.getD_some] at h
  unfold triangleDay at h
  simp only [Option.map_some, List.getD_eq_getElem?_getD, htp, hdu, Option.getD_some] at h
  rw [if_neg (by simp)] at h
  exact (Except.ok.inj h).symm

/-- **C48.** The amounts of a day under a storm are missing exactly when no minute of the day receives weight. -/
theorem C48_missing_iff {P tMin : List (Flt K)} {ts : Nat} {ptype : String} {lon : K} {lp ld : List (Flt K)}
    {out : List (Flt K)} (hts : ts ∣ 1440) (ht : Lw.upperS ptype = "TRIANGLE")
    (h : prec P tMin ts ptype false lon (some lp) (some ld) = .ok out) {d : Nat} {p tp du : K}
    (hp : P[d]? = some (fin p)) (htp : lp[d]? = some (fin tp)) (hdu : ld[d]? = some (fin du)) :
    (¬ HasWeight tp du ↔ ∀ k < 1440 / ts, out[d * (1440 / ts) + k]? = some nan) ∧
    (HasWeight tp du ↔ ∀ k < 1440 / ts, ∃ v, out[d * (1440 / ts) + k]? = some (fin v)) := by
  obtain ⟨days, hlen, hdays, hl, hts0, hdvd, rfl⟩ := prec_inv h
  have hd : d < P.length := (List.getElem?_eq_some_iff.1 hp).1
  obtain ⟨day, hday⟩ : ∃ day, days[d]? = some day := ⟨_, List.getElem?_eq_getElem (by omega)⟩
  simp only [Bool.false_eq_true, if_false]
  have hn : 0 < 1440 / ts := Nat.div_pos (Nat.le_of_dvd (by norm_num) hts) hts0
  have hmul : 1440 / ts * ts = 1440 := Nat.div_mul_cancel hts
  have A : ¬ HasWeight tp du → ∀ k < 1440 / ts,
      ((rows days.flatten ts).map Flt.sum)[d * (1440 / ts) + k]? = some nan := by
    intro hw k hk
    rw [step_of_day hl hts hday hk]
    have hdl := hl day (List.mem_of_getElem? hday)
    have hall : ∀ x ∈ day, x = nan := by
      intro x hx
      rw [triangle_day_of (hdays d day hday) ht hp htp hdu] at hx
      obtain ⟨y, _, rfl⟩ := List.mem_map.1 hx
      rw [not_not.1 (fun h => hw ((shape_sum_ne_zero tp du).1 h))]
      simp
    congr 1
    have hkt : k * ts + ts ≤ 1440 := by
      calc k * ts + ts = (k + 1) * ts := by ring
        _ ≤ 1440 / ts * ts := Nat.mul_le_mul_right _ hk
        _ = 1440 := hmul
    apply Flt.sum_of_mem_nan
    have hne : (day.drop (k * ts)).take ts ≠ [] := by
      intro e
      have := congrArg List.length e
      rw [List.length_take, List.length_drop, hdl, List.length_nil] at this
      omega
    obtain ⟨y, l, hyl⟩ := List.exists_cons_of_ne_nil hne
    have hy : y ∈ (day.drop (k * ts)).take ts := by rw [hyl]; simp
    rw [← hall y (List.mem_of_mem_drop (List.mem_of_mem_take hy))]
    exact hy
  have B : HasWeight tp du → ∀ k < 1440 / ts, ∃ v,
      ((rows days.flatten ts).map Flt.sum)[d * (1440 / ts) + k]? = some (fin v) := by
    intro hw k hk
    rw [step_of_day hl hts hday hk]
    have hsp := (dayOf_spec (hdays d day hday) hp (.inr (.inr ⟨lp, ld, tp, du, rfl, rfl, htp, hdu, hw⟩))).2
    obtain ⟨ys, hys⟩ := Flt.exists_map_fin ((day.drop (k * ts)).take ts) (fun y hy => by
      obtain ⟨v, rfl, _⟩ := hsp y (List.mem_of_mem_drop (List.mem_of_mem_take hy))
      rfl)
    exact ⟨ys.sum, by rw [hys, sum_map_fin]⟩
  refine ⟨⟨A, fun hall hw => ?_⟩, ⟨B, fun hall => ?_⟩⟩
  · obtain ⟨v, hv⟩ := B hw 0 hn
    rw [hall 0 hn] at hv
    simp at hv
  · by_contra hw
    obtain ⟨v, hv⟩ := hall 0 hn
    rw [A hw 0 hn] at hv
    simp at hv

/-- A storm peaking in the last half minute of the day and lasting two minutes receives no weight: the bound
1439 of `C48_finite` cannot be 1440. -/
example : ¬ HasWeight (1439.5 : ℚ) 2 := by
  rintro (⟨m, hm, h1, -⟩ | ⟨m, m', hlt, hm', h1, h2⟩)
  · have : (m : ℚ) ≤ 1439 := by exact_mod_cast (by omega : m ≤ 1439)
    norm_num at h1; linarith
  · have h3 : (m : ℚ) + 1 ≤ m' := by exact_mod_cast hlt
    have h4 : (m' : ℚ) ≤ 1439 := by exact_mod_cast (by omega : m' ≤ 1439)
    norm_num at h1; linarith

/-! ## C49 -/

/-- **C49.** Under uniform disaggregation, and under mix on days with `t_min < 0`, every step of the day
receives the share `ts / 1440` of the daily amount. -/
theorem C49_uniform {P tMin : List (Flt K)} {ts : Nat} {ptype : String} {lon : K}
    {tPk dur : Option (List (Flt K))} {out : List (Flt K)} (hts : ts ∣ 1440)
    (h : prec P tMin ts ptype false lon tPk dur = .ok out) {d : Nat} {p : K} (hp : P[d]? = some (fin p))
    (hu : Lw.upperS ptype = "UNIFORM" ∨ Lw.upperS ptype = "MIX" ∧ ∃ t, tMin[d]? = some (fin t) ∧ t < 0)
    {k : Nat} (hk : k < 1440 / ts) :
    out[d * (1440 / ts) + k]? = some (fin (p * ts / 1440)) := by
  obtain ⟨days, hlen, hdays, hl, hts0, hdvd, rfl⟩ := prec_inv h
  have hd : d < P.length := (List.getElem?_eq_some_iff.1 hp).1
  obtain ⟨day, hday⟩ : ∃ day, days[d]? = some day := ⟨_, List.getElem?_eq_getElem (by omega)⟩
  simp only [Bool.false_eq_true, if_false]
  rw [step_of_day hl hts hday hk]
  have hrep : day = List.replicate 1440 (fin (p / 1440)) := by
    have hdy := hdays d day hday
    unfold dayOf at hdy
    rw [List.getD_eq_getElem?_getD, hp, Option.getD_some] at hdy
    rcases hu with hu | ⟨hu, t, ht, ht0⟩
    · rw [if_neg (by rw [hu]; decide)] at hdy
      rw [← Except.ok.inj hdy, div_fin_ne (by norm_num)]
    · rw [if_pos (.inr hu), hu, List.getD_eq_getElem?_getD, ht, Option.getD_some] at hdy
      unfold triangleDay at hdy
      simp only at hdy
      rw [if_pos (by simp [ht0])] at hdy
      rw [← Except.ok.inj hdy, mul_fin, mul_one, div_fin_ne (by simp [Cnst.HOURS_PER_DAY, Cnst.MIN_PER_HOUR])]
      norm_num [Cnst.HOURS_PER_DAY, Cnst.MIN_PER_HOUR]
  have hkt : k * ts + ts ≤ 1440 := by
    calc k * ts + ts = (k + 1) * ts := by ring
      _ ≤ 1440 / ts * ts := Nat.mul_le_mul_right _ hk
      _ = 1440 := Nat.div_mul_cancel hts
  rw [hrep, List.drop_replicate, List.take_replicate, min_eq_left (by omega), Flt.sum_replicate]
  congr 2
  ring

/-- Any other `prec_type` is uniform too. -/
theorem C49_other {P tMin : List (Flt K)} {ts : Nat} {ptype : String} {utc : Bool} {lon : K}
    {tPk dur : Option (List (Flt K))} (h1 : Lw.upperS ptype ≠ "TRIANGLE") (h2 : Lw.upperS ptype ≠ "MIX") :
    prec P tMin ts ptype utc lon tPk dur = prec P tMin ts "uniform" utc lon tPk dur := by
  unfold prec precMinutes
  rw [if_neg (by simp [h1, h2]), if_neg (by decide)]

/-! ## C67: the shape of a storm -/

/-- **C67.** Minute by minute, rain of a triangular storm falls only within half a duration of the peak, strictly
increases up to the peak and strictly decreases after it. -/
theorem C67_triangle {P tMin : List (Flt K)} {ptype : String} {lon : K} {lp ld : List (Flt K)}
    {out : List (Flt K)} (ht : Lw.upperS ptype = "TRIANGLE")
    (h : prec P tMin 1 ptype false lon (some lp) (some ld) = .ok out) {d : Nat} {p tp du : K}
    (hp : P[d]? = some (fin p)) (htp : lp[d]? = some (fin tp)) (hdu : ld[d]? = some (fin du))
    (hp0 : 0 < p) (hw : HasWeight tp du) :
    ∃ r : Nat → K, (∀ m < 1440, out[d * 1440 + m]? = some (fin (r m))) ∧
      (∀ m : Nat, m < 1440 → (m : K) < tp - du / 2 ∨ tp + du / 2 < m → r m = 0) ∧
      (∀ m m' : Nat, m < m' → m' < 1440 → tp - du / 2 ≤ m → (m' : K) ≤ tp → r m < r m') ∧
      (∀ m m' : Nat, m < m' → m' < 1440 → tp ≤ m → (m' : K) ≤ tp + du / 2 → r m' < r m) := by
  obtain ⟨days, hlen, hdays, hl, hts0, hdvd, rfl⟩ := prec_inv h
  have hd : d < P.length := (List.getElem?_eq_some_iff.1 hp).1
  obtain ⟨day, hday⟩ : ∃ day, days[d]? = some day := ⟨_, List.getElem?_eq_getElem (by omega)⟩
  simp only [Bool.false_eq_true, if_false]
  have hday' := triangle_day_of (hdays d day hday) ht hp htp hdu
  have hne := (shape_sum_ne_zero tp du).2 hw
  have hnn : ∀ x ∈ triangleShape (fin tp) (fin du), (0 : K) ≤ x := fun x hx => (triangleShape_bounds _ _ hx).1
  have hspos : 0 < (triangleShape (fin tp) (fin du)).sum := lt_of_le_of_ne (List.sum_nonneg hnn) (Ne.symm hne)
  set sh := triangleShape (fin tp) (fin du) with hsh
  have hc : 0 < p / sh.sum := div_pos hp0 hspos
  have hval : ∀ m < 1440, sh[m]? = some (sh.getD m 0) := by
    intro m hm
    have : m < sh.length := by rw [hsh, length_triangleShape]; exact hm
    rw [List.getD_eq_getElem?_getD, List.getElem?_eq_getElem this, Option.getD_some]
  have hget : ∀ {m : Nat} {v : K}, sh[m]? = some v → sh.getD m 0 = v := by
    intro m v hv
    rw [List.getD_eq_getElem?_getD, hv, Option.getD_some]
  refine ⟨fun m => p / sh.sum * sh.getD m 0, fun m hm => ?_, fun m hm hout => ?_, fun m m' hlt hm' h1 h2 => ?_,
    fun m m' hlt hm' h1 h2 => ?_⟩
  · rw [rows_one_sum]
    have hb := flatten_block 1440 days hl hday
    have : days.flatten[d * 1440 + m]? = day[m]? := by
      rw [← hb, List.getElem?_take_of_lt hm, List.getElem?_drop]
    rw [this, hday', List.getElem?_map, hval m hm, div_fin_ne hne, Option.map_some, mul_fin]
  · by_cases hneg : du < 0
    · -- then no minute lies in the storm at all
      have h1 : m ∉ tPlus tp du := by
        rw [mem_tPlus]; rintro ⟨-, a, b⟩; linarith
      have h2 : m ∉ tMinus tp du := by
        rw [mem_tMinus]; rintro ⟨-, a, b⟩; linarith
      simp only [hget (shape_out hm h1 h2), mul_zero]
    · have h1 : m ∉ tPlus tp du := by
        rw [mem_tPlus]; rintro ⟨-, a, b⟩; rcases hout with h | h <;> linarith
      have h2 : m ∉ tMinus tp du := by
        rw [mem_tMinus]; rintro ⟨-, a, b⟩; rcases hout with h | h <;> linarith
      simp only [hget (shape_out hm h1 h2), mul_zero]
  · refine mul_lt_mul_of_pos_left ?_ hc
    have hlt' : (m : K) < m' := by exact_mod_cast hlt
    have hmem : m ∈ tPlus tp du := mem_tPlus.2 ⟨by omega, by linarith, h1⟩
    have hmem' : m' ∈ tPlus tp du := mem_tPlus.2 ⟨hm', h2, by linarith⟩
    obtain ⟨k, hk⟩ := List.mem_iff_getElem?.1 hmem
    obtain ⟨k', hk'⟩ := List.mem_iff_getElem?.1 hmem'
    have hkk := index_lt (pairwise_tPlus tp du) hk hk' hlt
    have hl' := (List.getElem?_eq_some_iff.1 hk').1
    have hL : (0 : K) < ((tPlus tp du).length : K) - 1 := by
      have : (2 : K) ≤ (tPlus tp du).length := by exact_mod_cast (by omega : 2 ≤ (tPlus tp du).length)
      linarith
    have hm0 : m ∉ tMinus tp du := by rw [mem_tMinus]; rintro ⟨-, a, b⟩; linarith
    rw [hget (shape_plus hk hm0)]
    by_cases hin : m' ∈ tMinus tp du
    · obtain ⟨j, hj⟩ := List.mem_iff_getElem?.1 hin
      have hj0 : j = 0 := by
        by_contra hj0
        have hjl := (List.getElem?_eq_some_iff.1 hj).1
        have h0 : (tMinus tp du)[0]? = some ((tMinus tp du)[0]) := List.getElem?_eq_getElem (by omega)
        have hpw := pairwise_tMinus tp du
        have hlt0 : (tMinus tp du)[0] < m' := by
          rw [List.pairwise_iff_getElem] at hpw
          have := hpw 0 j (by omega) hjl (by omega)
          rwa [(List.getElem?_eq_some_iff.1 hj).2] at this
        have h0m := mem_tMinus.1 (List.mem_of_getElem? h0)
        have : (((tMinus tp du)[0] : Nat) : K) < m' := by exact_mod_cast hlt0
        linarith [h0m.2.1]
      rw [hget (shape_minus hj), hj0]
      simp only [Nat.cast_zero, zero_div, sub_zero]
      rw [div_lt_one hL]
      have : (k : K) + 1 < (tPlus tp du).length := by exact_mod_cast (by omega : k + 1 < (tPlus tp du).length)
      linarith
    · rw [hget (shape_plus hk' hin)]
      exact div_lt_div_of_pos_right (by exact_mod_cast hkk) hL
  · refine mul_lt_mul_of_pos_left ?_ hc
    have hlt' : (m : K) < m' := by exact_mod_cast hlt
    have hmem : m ∈ tMinus tp du := mem_tMinus.2 ⟨by omega, h1, by linarith⟩
    have hmem' : m' ∈ tMinus tp du := mem_tMinus.2 ⟨hm', by linarith, h2⟩
    obtain ⟨k, hk⟩ := List.mem_iff_getElem?.1 hmem
    obtain ⟨k', hk'⟩ := List.mem_iff_getElem?.1 hmem'
    have hkk := index_lt (pairwise_tMinus tp du) hk hk' hlt
    have hl' := (List.getElem?_eq_some_iff.1 hk').1
    have hL : (0 : K) < ((tMinus tp du).length : K) - 1 := by
      have : (2 : K) ≤ (tMinus tp du).length := by exact_mod_cast (by omega : 2 ≤ (tMinus tp du).length)
      linarith
    rw [hget (shape_minus hk), hget (shape_minus hk')]
    have : (k : K) / (((tMinus tp du).length : K) - 1) < (k' : K) / (((tMinus tp du).length : K) - 1) :=
      div_lt_div_of_pos_right (by exact_mod_cast hkk) hL
    linarith

/-! ## C50 -/

theorem mean_replicate {n : Nat} (hn : 0 < n) (x : Flt K) : mean (List.replicate n x) = x := by
  have hn' : (n : K) ≠ 0 := by exact_mod_cast hn.ne'
  unfold mean
  rw [List.length_replicate]
  cases x with
  | nan => rw [Flt.sum_of_mem_nan _ (List.mem_replicate.2 ⟨hn.ne', rfl⟩)]; simp
  | fin x => rw [Flt.sum_replicate, div_fin_ne hn', mul_div_cancel_left₀ _ hn']

theorem wind_inv {xs : List (Flt K)} {ts : Nat} {utc : Bool} {lon : K} {out : List (Flt K)}
    (h : wind xs ts utc lon = .ok out) : 0 < ts ∧ ts ∣ xs.length * 1440 ∧
      out = (rows (if utc then roll (repeatEach xs 1440) (-offsetMin lon) else repeatEach xs 1440) ts).map mean := by
  unfold wind at h
  simp only [bind_ok, pure_ok] at h
  obtain ⟨steps, hsteps, rfl⟩ := h
  obtain ⟨hts, hdvd, rfl⟩ := reshape_ok.1 hsteps
  refine ⟨hts, ?_, rfl⟩
  split at hdvd
  · rwa [length_roll, length_repeatEach] at hdvd
  · rwa [length_repeatEach] at hdvd

/-- `tskc` and `wind` are the same function of their inputs. -/
theorem C50_same (xs : List (Flt K)) (ts : Nat) (utc : Bool) (lon : K) :
    tskc xs ts utc lon = wind xs ts utc lon := rfl

/-- **C50.** Without `utc_offset` every value is that of its day. -/
theorem C50_constant {xs : List (Flt K)} {ts : Nat} {lon : K} {out : List (Flt K)} (hts : ts ∣ 1440)
    (h : wind xs ts false lon = .ok out) :
    out.length = xs.length * (1440 / ts) ∧
    ∀ d < xs.length, ∀ k < 1440 / ts, out[d * (1440 / ts) + k]? = xs[d]? := by
  obtain ⟨hts0, hdvd, rfl⟩ := wind_inv h
  simp only [Bool.false_eq_true, if_false]
  have hmul : 1440 / ts * ts = 1440 := Nat.div_mul_cancel hts
  have hlen : (repeatEach xs 1440).length / ts = xs.length * (1440 / ts) := by
    rw [length_repeatEach, Nat.mul_div_assoc _ hts]
  refine ⟨by rw [List.length_map, length_rows, hlen], fun d hd k hk => ?_⟩
  have hi : d * (1440 / ts) + k < (repeatEach xs 1440).length / ts := by
    rw [hlen]
    calc d * (1440 / ts) + k < d * (1440 / ts) + 1440 / ts := by omega
      _ = (d + 1) * (1440 / ts) := by ring
      _ ≤ _ := Nat.mul_le_mul_right _ hd
  have hkt : k * ts + ts ≤ 1440 := by
    calc k * ts + ts = (k + 1) * ts := by ring
      _ ≤ 1440 / ts * ts := Nat.mul_le_mul_right _ hk
      _ = 1440 := hmul
  have hx : xs[d]? = some xs[d] := List.getElem?_eq_getElem hd
  have hb := repeatEach_block xs 1440 hx
  rw [List.getElem?_map, getElem?_rows hi, Option.map_some]
  have : ((repeatEach xs 1440).drop ((d * (1440 / ts) + k) * ts)).take ts = List.replicate ts xs[d] := by
    rw [show (d * (1440 / ts) + k) * ts = d * 1440 + k * ts by rw [add_mul, mul_assoc, hmul], ← List.drop_drop]
    have e : ((((repeatEach xs 1440).drop (d * 1440)).take 1440).drop (k * ts)).take ts = List.replicate ts xs[d] := by
      rw [hb, List.drop_replicate, List.take_replicate]
      congr 1; omega
    rw [List.drop_take, List.take_take, min_eq_left (by omega)] at e
    exact e
  rw [this, mean_replicate hts0, hx]

theorem mem_steps {xs : List (Flt K)} {utc : Bool} {off : Int} {ts : Nat} {r : List (Flt K)} {y : Flt K}
    (hr : r ∈ rows (if utc then roll (repeatEach xs 1440) off else repeatEach xs 1440) ts) (hy : y ∈ r) :
    y ∈ xs := by
  have := mem_of_mem_rows hr hy
  split at this
  · exact mem_repeatEach ((roll_perm _ _).mem_iff.1 this)
  · exact mem_repeatEach this

/-- **C50.** With or without `utc_offset` every value lies between the smallest and the largest daily value. -/
theorem C50_bounds {xs : List (Flt K)} {ts : Nat} {utc : Bool} {lon : K} {out : List (Flt K)} {lo hi : K}
    (h : wind xs ts utc lon = .ok out) (hx : ∀ x ∈ xs, ∃ v, x = fin v ∧ lo ≤ v ∧ v ≤ hi) :
    ∀ y ∈ out, ∃ v, y = fin v ∧ lo ≤ v ∧ v ≤ hi := by
  obtain ⟨hts0, hdvd, rfl⟩ := wind_inv h
  intro y hy
  obtain ⟨r, hr, rfl⟩ := List.mem_map.1 hy
  have hrl := length_of_mem_rows hr
  have hb : ∀ y ∈ r, ∃ v, y = fin v ∧ lo ≤ v ∧ v ≤ hi := fun y hy => hx y (mem_steps hr hy)
  obtain ⟨ys, rfl⟩ := Flt.exists_map_fin r (fun y hy => by obtain ⟨v, rfl, _⟩ := hb y hy; rfl)
  rw [List.length_map] at hrl
  have hts' : (0 : K) < ts := by exact_mod_cast hts0
  have hys : ∀ v ∈ ys, lo ≤ v ∧ v ≤ hi := by
    intro v hv
    obtain ⟨w, hw, h1, h2⟩ := hb (fin v) (List.mem_map_of_mem hv)
    injection hw with hw
    subst hw; exact ⟨h1, h2⟩
  refine ⟨ys.sum / ts, ?_, ?_, ?_⟩
  · unfold mean
    rw [sum_map_fin, List.length_map, hrl, div_fin_ne hts'.ne']
  · rw [le_div_iff₀ hts', mul_comm, ← nsmul_eq_mul, ← hrl]
    exact List.card_nsmul_le_sum ys lo (fun v hv => (hys v hv).1)
  · rw [div_le_iff₀ hts', mul_comm, ← nsmul_eq_mul, ← hrl]
    exact List.sum_le_card_nsmul ys hi (fun v hv => (hys v hv).2)

theorem wind_nonneg {xs : List (Flt K)} {ts : Nat} {utc : Bool} {lon : K} {out : List (Flt K)}
    (h : wind xs ts utc lon = .ok out) (hx : ∀ x ∈ xs, ∃ v, x = fin v ∧ 0 ≤ v) : ∀ y ∈ out, ∃ v, y = fin v ∧ 0 ≤ v := by
  obtain ⟨hi, hhi⟩ : ∃ hi : K, ∀ x ∈ xs, ∃ v, x = fin v ∧ 0 ≤ v ∧ v ≤ hi := by
    clear h
    induction xs with
    | nil => exact ⟨0, fun x h => absurd h List.not_mem_nil⟩
    | cons a l ih =>
      obtain ⟨m, hm⟩ := ih fun x h => hx x (List.mem_cons_of_mem _ h)
      obtain ⟨v, hv, hv0⟩ := hx a List.mem_cons_self
      refine ⟨max v m, fun x h => ?_⟩
      rcases List.mem_cons.1 h with rfl | h
      · exact ⟨v, hv, hv0, le_max_left _ _⟩
      · obtain ⟨w, h1, h2, h3⟩ := hm x h
        exact ⟨w, h1, h2, h3.trans (le_max_right _ _)⟩
  intro y hy
  obtain ⟨v, h1, h2, -⟩ := C50_bounds h hhi y hy
  exact ⟨v, h1, h2⟩

theorem sum_repeatEach (ys : List K) (n : Nat) : (repeatEach ys n).sum = (n : K) * ys.sum := by
  induction ys with
  | nil => simp [repeatEach]
  | cons y ys ih => rw [repeatEach_cons, List.sum_append, ih, List.sum_cons, List.sum_replicate, nsmul_eq_mul]; ring

theorem sum_map_mean {w : Nat} (hw : 0 < w) (rs : List (List (Flt K))) (h : ∀ r ∈ rs, r.length = w) :
    Flt.sum (rs.map mean) = Flt.sum rs.flatten / fin (w : K) := by
  have hw' : (w : K) ≠ 0 := by exact_mod_cast hw.ne'
  induction rs with
  | nil => simp [hw']
  | cons r rs ih =>
    rw [List.map_cons, sum_cons, ih (fun x hx => h x (by simp [hx])), List.flatten_cons, Flt.sum_append]
    unfold mean
    rw [h r (by simp)]
    generalize Flt.sum r = a
    generalize Flt.sum rs.flatten = b
    cases a <;> cases b <;> simp [hw', add_div]

/-- **C50.** With or without `utc_offset` the mean over the record is the mean of the daily values. -/
theorem C50_mean {xs : List (Flt K)} {ts : Nat} {utc : Bool} {lon : K} {out : List (Flt K)}
    (h : wind xs ts utc lon = .ok out) : mean out = mean xs := by
  obtain ⟨hts0, hdvd, rfl⟩ := wind_inv h
  have hts' : (ts : K) ≠ 0 := by exact_mod_cast hts0.ne'
  set M := (if utc then roll (repeatEach xs 1440) (-offsetMin lon) else repeatEach xs 1440) with hM
  have hMl : M.length = xs.length * 1440 := by
    rw [hM]; split
    · rw [length_roll, length_repeatEach]
    · rw [length_repeatEach]
  have hMs : Flt.sum M = Flt.sum (repeatEach xs 1440) := by
    rw [hM]; split
    · exact Flt.sum_perm (roll_perm _ _)
    · rfl
  unfold mean
  have e := sum_map_mean hts0 (rows M ts) (fun r hr => length_of_mem_rows hr)
  unfold mean at e
  rw [e, rows_flatten hts0 (by rw [hMl]; exact hdvd), hMs, List.length_map, length_rows, hMl]
  have hrep : ∀ xs : List (Flt K), Flt.sum (repeatEach xs 1440) = Flt.sum xs * fin 1440 := by
    intro xs
    induction xs with
    | nil => simp [repeatEach]
    | cons x xs ih =>
      rw [repeatEach_cons, Flt.sum_append, ih, sum_cons]
      cases x with
      | nan => rw [Flt.sum_of_mem_nan _ (List.mem_replicate.2 ⟨by norm_num, rfl⟩)]; simp
      | fin x =>
        rw [Flt.sum_replicate]
        cases Flt.sum xs <;> simp
        ring
  rw [hrep]
  obtain ⟨c, hc⟩ := hdvd
  have hdiv : xs.length * 1440 / ts = c := by rw [hc]; exact Nat.mul_div_cancel_left c hts0
  rw [hdiv]
  have hck : (xs.length : K) * 1440 = (ts : K) * c := by exact_mod_cast hc
  cases Flt.sum xs with
  | nan => simp
  | fin s =>
    rw [mul_fin, div_fin_ne hts']
    by_cases hx : (xs.length : K) = 0
    · have : (c : K) = 0 := by
        rw [hx, zero_mul] at hck
        rcases mul_eq_zero.1 hck.symm with h | h
        · exact absurd h hts'
        · exact h
      rw [hx, this]; simp
    · have hc0 : (c : K) ≠ 0 := by
        intro h0; rw [h0, mul_zero] at hck
        rcases mul_eq_zero.1 hck with h | h
        · exact hx h
        · norm_num at h
      rw [div_fin_ne hc0, div_fin_ne hx]
      congr 1
      rw [div_div, ← hck]
      field_simp

/-- **C50.** With `utc_offset` step `i` is the mean over its minutes of the values of the days that lie the whole
minutes of the longitude later, wrapping around the record. -/
theorem C50_shift {xs : List (Flt K)} {ts : Nat} {lon : K} {out : List (Flt K)}
    (h : wind xs ts true lon = .ok out) : ∀ i < out.length,
      out[i]? = some (mean ((List.range ts).map fun (j : Nat) =>
        (xs[(((i * ts + j : Nat) + minutesOf lon : Int) % ((xs.length * 1440 : Nat) : Int)).toNat / 1440]?).getD nan)) := by
  obtain ⟨hts0, hdvd, rfl⟩ := wind_inv h
  simp only [if_true]
  intro i hi
  have hlf := length_repeatEach xs 1440
  rw [List.length_map, length_rows, length_roll, hlf] at hi
  rw [List.getElem?_map, getElem?_rows (by rw [length_roll, hlf]; exact hi), Option.map_some]
  have hit : i * ts + ts ≤ xs.length * 1440 := by
    calc i * ts + ts = (i + 1) * ts := by ring
      _ ≤ xs.length * 1440 / ts * ts := Nat.mul_le_mul_right _ hi
      _ = _ := Nat.div_mul_cancel hdvd
  rw [take_drop_range _ _ nan (by rw [length_roll, hlf]; exact hit)]
  congr 2
  apply List.map_congr_left
  intro j hj
  rw [List.mem_range] at hj
  rw [getElem?_roll _ _ (by rw [hlf]; omega), hlf, offsetMin_eq, getElem?_repeatEach _ (by norm_num)]

example : (wind ([fin 1, fin 3] : List (Flt ℚ)) 720 true 90 ).toOption =
    some [fin 1, fin 2, fin 3, fin 2] := by decide +kernel

/-! ## C53 -/

/-- **C53.** The longitude is congruent modulo 360, lies in [-180, 180], and is unchanged if it was there. -/
theorem C53_remainder (x : K) : (∃ n : Int, remainder360 x = x - 360 * n) ∧
    -180 ≤ remainder360 x ∧ remainder360 x ≤ 180 ∧ (-180 ≤ x → x ≤ 180 → remainder360 x = x) := by
  unfold remainder360
  simp only
  set q := x / 360 with hq
  have hx : x = 360 * q := by rw [hq]; field_simp
  have h1 := Int.floor_le q
  have h2 := Int.lt_floor_add_one q
  refine ⟨⟨_, rfl⟩, ?_, ?_, fun ha hb => ?_⟩
  · rw [hx]; split_ifs <;> push_cast <;> linarith
  · rw [hx]; split_ifs <;> push_cast <;> linarith
  · have hqa : -(1 / 2) ≤ q := by rw [hx] at ha; linarith
    have hqb : q ≤ 1 / 2 := by rw [hx] at hb; linarith
    have hz : ⌊q⌋ = 0 ∨ ⌊q⌋ = -1 := by
      have : ⌊q⌋ < 1 := Int.floor_lt.2 (by push_cast; linarith)
      have : -1 ≤ ⌊q⌋ := Int.le_floor.2 (by push_cast; linarith)
      omega
    rcases hz with hz | hz
    · rw [hz] at h1 h2 ⊢
      push_cast at *
      by_cases h : q - 0 < 1 / 2
      · rw [if_pos h]; simp
      · rw [if_neg h, if_neg (by linarith)]; simp
    · rw [hz] at h1 h2 ⊢
      push_cast at *
      rw [if_neg (by linarith)]
      by_cases h : 1 / 2 < q - -1
      · rw [if_pos h]; simp
      · rw [if_neg h]; simp

example : remainder360 (190 : ℚ) = -170 ∧ remainder360 (180 : ℚ) = 180 ∧ remainder360 (540 : ℚ) = -180 ∧
    remainder360 (-180 : ℚ) = -180 := by decide +kernel

end Verif.Props
