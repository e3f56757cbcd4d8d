import Verif.Props.Prec

/-!
# Sub-daily shortwave: C51, C52, C68
-/

set_option linter.unusedSectionVars false

namespace Verif.Props

open Flt Np Disagg

variable {K : Type} [Field K] [LinearOrder K] [IsStrictOrderedRing K] [FloorRing K]

/-! ## Lemmas -/

theorem zip_repeat_filter (w : Nat) (b : Nat) : ∀ (rs : List (List (Flt K))) (s : Nat), (∀ r ∈ rs, r.length = w) →
    ((((repeatEach (List.range' s rs.length) w).zip rs.flatten).filter fun q => q.1 == b).map (·.2)) =
      if s ≤ b then (rs[b - s]?).getD [] else [] := by
  intro rs
  induction rs with
  | nil => intro s _; simp [repeatEach]
  | cons r rs ih =>
    intro s h
    have hr := h r (by simp)
    rw [List.length_cons, List.range'_succ, repeatEach_cons, List.flatten_cons,
      List.zip_append (by rw [List.length_replicate, hr]), List.filter_append, List.map_append,
      ih (s + 1) (fun x hx => h x (by simp [hx]))]
    have hz : ∀ (r : List (Flt K)) (w : Nat), r.length = w →
        ((((List.replicate w s).zip r).filter fun q => q.1 == b).map (·.2)) = if s = b then r else [] := by
      intro r
      induction r with
      | nil => intro w _; simp
      | cons x r ih =>
        intro w hw
        cases w with
        | zero => simp at hw
        | succ w =>
          rw [List.replicate_succ, List.zip_cons_cons, List.filter_cons]
          have := ih w (by simpa using hw)
          by_cases hb : s = b
          · rw [if_pos (by simp [hb]), List.map_cons, this, if_pos hb, if_pos hb]
          · rw [if_neg (by simp [hb]), this, if_neg hb, if_neg hb]
    rw [hz r w hr]
    by_cases hb : s = b
    · subst hb
      simp
    · rw [if_neg hb, List.nil_append]
      by_cases hlt : s ≤ b
      · rw [if_pos hlt, if_pos (by omega), show b - s = b - (s + 1) + 1 by omega, List.getElem?_cons_succ]
      · rw [if_neg hlt, if_neg (by omega)]

theorem bincount_ok {n w : Nat} (hw : 0 < w) {ws out : List (Flt K)}
    (h : bincount n (repeatEach (List.range n) w) ws = .ok out) :
    ws.length = n * w ∧ out = (rows ws w).map Flt.sum := by
  unfold bincount at h
  rw [length_repeatEach, List.length_range] at h
  split at h
  · cases h
  · rename_i hl
    have hl : ws.length = n * w := by omega
    refine ⟨hl, ?_⟩
    rw [← Except.ok.inj h]
    have hrl : (rows ws w).length = n := by rw [length_rows, hl, Nat.mul_div_cancel _ hw]
    have hfl : (rows ws w).flatten = ws := rows_flatten hw (by rw [hl]; exact Dvd.intro_left _ rfl)
    apply List.ext_getElem?
    intro b
    by_cases hb : b < n
    · rw [List.getElem?_map, List.getElem?_range hb, List.getElem?_map, Option.map_some]
      have key := zip_repeat_filter w b (rows ws w) 0 (fun r hr => length_of_mem_rows hr)
      rw [hrl, hfl, ← List.range_eq_range', if_pos (Nat.zero_le b), Nat.sub_zero] at key
      rw [key, List.getElem?_eq_getElem (by omega)]
      rfl
    · rw [List.getElem?_eq_none (by simpa using hb), List.getElem?_eq_none (by rw [List.length_map]; omega)]

/-- The half-minute slots of a longitude: eight per degree, rounded towards zero. -/
def slotsOf (lon : K) : Int := if 0 ≤ lon then ⌊8 * lon⌋ else ⌈8 * lon⌉

theorem slotsPerDay_eq : slotsPerDay = 2880 := rfl

theorem trunc_slots (lon : K) : trunc (lon / Cnst.DEG_PER_REV * (slotsPerDay : K)) = slotsOf lon := by
  unfold trunc slotsOf
  have e : lon / Cnst.DEG_PER_REV * (slotsPerDay : K) = 8 * lon := by
    rw [slotsPerDay_eq]
    unfold Cnst.DEG_PER_REV
    norm_num
    ring
  rw [e]
  by_cases h : 0 ≤ lon
  · rw [if_pos h, if_pos (by linarith)]
  · rw [if_neg h, if_neg (by linarith)]

theorem roll_zero {α : Type} (xs : List α) : roll xs (-0) = xs := by
  unfold roll; simp

/-- The shift of the radiation slots. -/
def swShift (utc : Bool) (lon : K) : Int := if utc then slotsOf lon else 0

theorem roll_shift {α : Type} (xs : List α) (utc : Bool) (lon : K) :
    (if utc then roll xs (-slotsOf lon) else xs) = roll xs (-swShift utc lon) := by
  unfold swShift
  cases utc
  · simp only [Bool.false_eq_true, if_false, roll_zero]
  · simp only [if_true]

/-- Energy per slot of a day: `sw * daylength / (60 ts)`. -/
def perSlot (sw dl : List (Flt K)) (ts d : Nat) : Flt K :=
  sw.getD d nan * dl.getD d nan / fin (60 * (ts : K))

/-- Fraction used for slot `s` of a day with day-of-year `doy`. -/
def slotFrac (table : List (List K)) (utc : Bool) (lon : K) (doy s : Nat) : K :=
  table.flatten.getD (((((doy - 1) * 2880 + s : Nat) : Int) + swShift utc lon) %
    (table.flatten.length : Int)).toNat 0

/-- Day of the record whose energy is used for slot `s` of day `d`, in a record of `n` days. -/
def slotDay (n : Nat) (utc : Bool) (lon : K) (d s : Nat) : Nat :=
  ((((d * 2880 + s : Nat) : Int) + swShift utc lon) % ((n * 2880 : Nat) : Int)).toNat / 2880

theorem slotDay_lt {n d s : Nat} (hd : d < n) (utc : Bool) (lon : K) : slotDay n utc lon d s < n := by
  unfold slotDay
  rw [Nat.div_lt_iff_lt_mul (by norm_num)]
  have h : (0 : Int) < ((n * 2880 : Nat) : Int) := by
    have : 0 < n * 2880 := Nat.mul_pos (by omega) (by norm_num)
    exact_mod_cast this
  have h1 := Int.emod_lt_of_pos (((d * 2880 + s : Nat) : Int) + swShift utc lon) h
  have h2 := Int.emod_nonneg (((d * 2880 + s : Nat) : Int) + swShift utc lon) h.ne'
  omega

theorem slotDay_false {n d s : Nat} (hd : d < n) (hs : s < 2880) (lon : K) : slotDay n false lon d s = d := by
  unfold slotDay swShift
  simp only [Bool.false_eq_true, if_false, add_zero]
  have : d * 2880 + s < n * 2880 := by
    calc d * 2880 + s < (d + 1) * 2880 := by omega
      _ ≤ n * 2880 := Nat.mul_le_mul_right _ hd
  rw [Int.emod_eq_of_lt (Int.natCast_nonneg _) (by exact_mod_cast this)]
  omega

theorem perSlot_eq {sw dl : List (Flt K)} {ts d : Nat} (hl : dl.length = sw.length) (hd : d < sw.length) :
    (List.zipWith (fun s d => s * d / fin ((Cnst.SEC_PER_HOUR : K) * ((ts : K) / (Cnst.MIN_PER_HOUR : K)))) sw dl)[d]?
      = some (perSlot sw dl ts d) := by
  have e : (Cnst.SEC_PER_HOUR : K) * ((ts : K) / (Cnst.MIN_PER_HOUR : K)) = 60 * ts := by
    unfold Cnst.SEC_PER_HOUR Cnst.MIN_PER_HOUR
    push_cast
    ring
  rw [e, List.getElem?_zipWith, List.getElem?_eq_getElem hd, List.getElem?_eq_getElem (by omega : d < dl.length)]
  unfold perSlot
  rw [List.getD_eq_getElem?_getD, List.getD_eq_getElem?_getD, List.getElem?_eq_getElem hd,
    List.getElem?_eq_getElem (by omega : d < dl.length)]
  rfl

/-- What `shortwave` returns: the slots of a day, and where each slot's fraction and energy come from. -/
theorem shortwave_inv {sw dl : List (Flt K)} {doy : List Nat} {table : List (List K)} {ts : Nat} {utc : Bool}
    {lon : K} {out : List (Flt K)} (hl : dl.length = sw.length)
    (h : shortwave sw dl doy table ts utc lon = .ok out) :
    0 < ts ∧ ∃ days : List (List (Flt K)), out = days.flatten ∧ days.length = sw.length ∧
      ∀ d day, days[d]? = some day → ts ∣ 1440 ∧ ∃ Z : List (Flt K), Z.length = 2880 ∧
        day = (rows Z (2 * ts)).map Flt.sum ∧ ∀ s < 2880, Z[s]? = some
          (fin (slotFrac table utc lon (doy.getD d 1) s) * perSlot sw dl ts (slotDay sw.length utc lon d s)) := by
  unfold shortwave at h
  simp only at h
  by_cases hts : ts = 0
  · rw [if_pos hts] at h
    cases h
  rw [if_neg hts] at h
  have hts0 : 0 < ts := by omega
  refine ⟨hts0, ?_⟩
  simp only [bind_ok, pure_ok] at h
  obtain ⟨days, hdays, rfl⟩ := h
  have hn : (List.zipWith (fun s d => s * d / fin ((Cnst.SEC_PER_HOUR : K) * ((ts : K) / (Cnst.MIN_PER_HOUR : K))))
      sw dl).length = sw.length := by rw [List.length_zipWith, hl, min_self]
  rw [hn] at hdays
  obtain ⟨h1, h2⟩ := mapM_range_ok hdays
  refine ⟨days, rfl, h1, fun d day hd => ?_⟩
  have hdl : d < sw.length := by rw [← h1]; exact (List.getElem?_eq_some_iff.1 hd).1
  have hf := h2 d day hd
  rw [trunc_slots, roll_shift, roll_shift, slotsPerDay_eq] at hf
  set F := roll (table.flatten.map (fin : K → Flt K)) (-swShift utc lon) with hF
  set W := roll (repeatEach (List.zipWith (fun s d =>
    s * d / fin ((Cnst.SEC_PER_HOUR : K) * ((ts : K) / (Cnst.MIN_PER_HOUR : K)))) sw dl) 2880) (-swShift utc lon) with hW
  have hWl : W.length = sw.length * 2880 := by rw [hW, length_roll, length_repeatEach, hn]
  have hFl : F.length = table.flatten.length := by rw [hF, length_roll, List.length_map]
  have hd1 : d * 2880 + 2880 ≤ sw.length * 2880 := by
    calc d * 2880 + 2880 = (d + 1) * 2880 := by ring
      _ ≤ sw.length * 2880 := Nat.mul_le_mul_right _ hdl
  unfold shortwaveDay at hf
  split at hf
  · cases hf
  rename_i hlen
  rw [ne_eq, not_not, List.length_take, List.length_take, List.length_drop, List.length_drop, hWl, hFl] at hlen
  have hlen' : (doy.getD d 1 - 1) * 2880 + 2880 ≤ table.flatten.length := by
    clear hdays hd h2 hf
    have aux : ∀ a b L M n : Nat, 0 < n → min n (L - a) = min n (M - b) → b + n ≤ M → a + n ≤ L := by
      intro a b L M n h0 h1 h2; omega
    exact aux _ _ _ _ _ (by norm_num) hlen hd1
  have hch : ts * (Cnst.SEC_PER_MIN / Cnst.SW_RAD_DT) = 2 * ts := by
    show ts * 2 = 2 * ts
    omega
  rw [hch] at hf
  obtain ⟨hZl, hday⟩ := bincount_ok (by omega) hf
  rw [List.length_zipWith, List.length_take, List.length_take, List.length_drop, List.length_drop, hWl, hFl] at hZl
  have h1440 : Cnst.HOURS_PER_DAY * Cnst.MIN_PER_HOUR = 1440 := by decide
  have h2880 : 1440 / ts * (2 * ts) = 2880 := by
    rw [h1440] at hZl
    omega
  refine ⟨⟨1440 / ts, by nlinarith⟩, _, ?_, hday, fun s hs => ?_⟩
  · rw [List.length_zipWith, List.length_take, List.length_take, List.length_drop, List.length_drop, hWl, hFl]
    omega
  · have e1 : ∀ (L : List (Flt K)) (a : Nat), ((L.drop a).take 2880)[s]? = L[a + s]? := by
      intro L a
      rw [List.getElem?_take_of_lt hs, List.getElem?_drop]
    rw [List.getElem?_zipWith, e1, e1, hF, hW,
      getElem?_roll _ _ (by rw [List.length_map]; omega), getElem?_roll _ _ (by rw [length_repeatEach, hn]; omega),
      length_repeatEach, hn, getElem?_repeatEach _ (by norm_num), List.getElem?_map, List.length_map]
    have hq := slotDay_lt (s := s) hdl utc lon
    have hpe := perSlot_eq (ts := ts) hl hq
    have hmod : (((((doy.getD d 1 - 1) * 2880 + s : Nat) : Int) + swShift utc lon) %
        (table.flatten.length : Int)).toNat < table.flatten.length := by
      have hp : (0 : Int) < (table.flatten.length : Int) := by omega
      have a := Int.emod_lt_of_pos ((((doy.getD d 1 - 1) * 2880 + s : Nat) : Int) + swShift utc lon) hp
      have b := Int.emod_nonneg ((((doy.getD d 1 - 1) * 2880 + s : Nat) : Int) + swShift utc lon) hp.ne'
      omega
    unfold slotDay at hpe
    rw [hpe, List.getElem?_eq_getElem hmod]
    unfold slotFrac slotDay
    rw [List.getD_eq_getElem?_getD (l := table.flatten), List.getElem?_eq_getElem hmod]
    rfl

/-- `shortwave` returns for steps that divide the day and tables that have the rows asked for. -/
theorem shortwave_total {sw dl : List (Flt K)} {doy : List Nat} {table : List (List K)} {ts : Nat} (utc : Bool)
    (lon : K) (hl : dl.length = sw.length) (hts : ts ∣ 1440) (hrows : ∀ r ∈ table, r.length = 2880)
    (hdoy : ∀ d < sw.length, doy.getD d 1 - 1 < table.length) :
    ∃ out, shortwave sw dl doy table ts utc lon = .ok out := by
  have hts0 : 0 < ts := Nat.pos_of_dvd_of_pos hts (by norm_num)
  have hn : (List.zipWith (fun s d => s * d / fin ((Cnst.SEC_PER_HOUR : K) * ((ts : K) / (Cnst.MIN_PER_HOUR : K))))
      sw dl).length = sw.length := by rw [List.length_zipWith, hl, min_self]
  unfold shortwave
  simp only
  rw [if_neg hts0.ne', hn, trunc_slots, roll_shift, roll_shift, slotsPerDay_eq]
  set F := roll (table.flatten.map (fin : K → Flt K)) (-swShift utc lon) with hF
  set W := roll (repeatEach (List.zipWith (fun s d =>
    s * d / fin ((Cnst.SEC_PER_HOUR : K) * ((ts : K) / (Cnst.MIN_PER_HOUR : K)))) sw dl) 2880) (-swShift utc lon) with hW
  have hWl : W.length = sw.length * 2880 := by rw [hW, length_roll, length_repeatEach, hn]
  have hFl : F.length = table.length * 2880 := by
    rw [hF, length_roll, List.length_map, length_flatten_const 2880 table hrows]
  have hch : ts * (Cnst.SEC_PER_MIN / Cnst.SW_RAD_DT) = 2 * ts := by
    show ts * 2 = 2 * ts
    omega
  have h1440 : Cnst.HOURS_PER_DAY * Cnst.MIN_PER_HOUR = 1440 := by decide
  rw [hch, h1440]
  obtain ⟨ds, hds⟩ := mapM_total (xs := List.range sw.length) (f := fun day =>
    shortwaveDay (1440 / ts) (2 * ts) ((F.drop ((doy.getD day 1 - 1) * 2880)).take 2880)
      ((W.drop (day * 2880)).take 2880)) (by
    intro d hd
    rw [List.mem_range] at hd
    have aux : ∀ a b n : Nat, a < b → min n (b * n - a * n) = n := by
      intro a b n hab
      have : (a + 1) * n ≤ b * n := Nat.mul_le_mul_right _ hab
      rw [Nat.succ_mul] at this
      omega
    have l1 : ((F.drop ((doy.getD d 1 - 1) * 2880)).take 2880).length = 2880 := by
      rw [List.length_take, List.length_drop, hFl]; exact aux _ _ _ (hdoy d hd)
    have l2 : ((W.drop (d * 2880)).take 2880).length = 2880 := by
      rw [List.length_take, List.length_drop, hWl]; exact aux _ _ _ hd
    unfold shortwaveDay bincount
    rw [if_neg (by rw [l1, l2]; simp), if_neg]
    · exact ⟨_, rfl⟩
    · rw [length_repeatEach, List.length_range, List.length_zipWith, l1, l2, min_self, ne_eq, not_not]
      calc 1440 / ts * (2 * ts) = 1440 / ts * ts * 2 := by ring
        _ = 2880 := by rw [Nat.div_mul_cancel hts])
  exact ⟨ds.flatten, bind_ok.2 ⟨ds, hds, rfl⟩⟩

/-- Step `k` of day `d` sums its slots. -/
theorem shortwave_step {sw dl : List (Flt K)} {doy : List Nat} {table : List (List K)} {ts : Nat} {utc : Bool}
    {lon : K} {out : List (Flt K)} (hl : dl.length = sw.length)
    (h : shortwave sw dl doy table ts utc lon = .ok out) {d k : Nat} (hd : d < sw.length) (hk : k < 1440 / ts) :
    out[d * (1440 / ts) + k]? = some (Flt.sum ((List.range (2 * ts)).map fun (j : Nat) =>
      fin (slotFrac table utc lon (doy.getD d 1) (k * (2 * ts) + j)) *
        perSlot sw dl ts (slotDay sw.length utc lon d (k * (2 * ts) + j)))) := by
  obtain ⟨hts0, days, rfl, hdl, hdays⟩ := shortwave_inv hl h
  have hday : days[d]? = some (days[d]'(by omega)) := List.getElem?_eq_getElem _
  obtain ⟨hts, Z, hZ, hZd, hZs⟩ := hdays d _ hday
  have hall : ∀ day ∈ days, day.length = 1440 / ts := by
    intro day hday
    obtain ⟨e, he⟩ := List.mem_iff_getElem?.1 hday
    obtain ⟨_, Z, hZ, rfl, _⟩ := hdays e day he
    rw [List.length_map, length_rows, hZ, show 2880 = 2 * 1440 by norm_num, Nat.mul_div_mul_left _ _ (by norm_num)]
  have hb := flatten_block (1440 / ts) days hall hday
  have e : days.flatten[d * (1440 / ts) + k]? = (days[d]'(by omega))[k]? := by
    conv_rhs => rw [← hb]
    rw [List.getElem?_take_of_lt hk, List.getElem?_drop]
  have hk' : k < Z.length / (2 * ts) := by
    rw [hZ, show 2880 = 2 * 1440 by norm_num, Nat.mul_div_mul_left _ _ (by norm_num)]; exact hk
  have hkt : k * (2 * ts) + 2 * ts ≤ 2880 := by
    calc k * (2 * ts) + 2 * ts = (k + 1) * ts * 2 := by ring
      _ ≤ 1440 / ts * ts * 2 := by gcongr; exact hk
      _ = 2880 := by rw [Nat.div_mul_cancel hts]
  rw [e, hZd, List.getElem?_map, getElem?_rows hk', Option.map_some, take_drop_range _ _ nan (by rw [hZ]; exact hkt)]
  congr 2
  apply List.map_congr_left
  intro j hj
  rw [List.mem_range] at hj
  rw [hZs _ (by omega)]
  rfl

/-! ## C51 -/

theorem sum_map_range_mul (n : Nat) (f : Nat → K) (w : K) :
    Flt.sum ((List.range n).map fun (s : Nat) => (fin (f s) * fin w : Flt K)) = fin (w * ((List.range n).map f).sum) := by
  have : ((List.range n).map fun (s : Nat) => (fin (f s) * fin w : Flt K)) =
      ((List.range n).map fun s => w * f s).map fin := by
    rw [List.map_map]; apply List.map_congr_left; intro s _; simp [mul_comm]
  rw [this, sum_map_fin, List.sum_map_mul_left]

/-- Fractions of a day of the year, read from the table. -/
theorem slotFrac_false {table : List (List K)} (hrows : ∀ r ∈ table, r.length = 2880) {lon : K} {doy : Nat}
    {r : List K} (hr : table[doy - 1]? = some r) {s : Nat} (hs : s < 2880) :
    slotFrac table false lon doy s = r.getD s 0 := by
  have hb := flatten_block 2880 table hrows hr
  have hl := length_flatten_const 2880 table hrows
  have hi := (List.getElem?_eq_some_iff.1 hr).1
  unfold slotFrac swShift
  simp only [Bool.false_eq_true, if_false, add_zero]
  have hlt : (doy - 1) * 2880 + s < table.flatten.length := by
    rw [hl]
    calc (doy - 1) * 2880 + s < (doy - 1 + 1) * 2880 := by omega
      _ ≤ table.length * 2880 := Nat.mul_le_mul_right _ hi
  rw [Int.emod_eq_of_lt (Int.natCast_nonneg _) (by exact_mod_cast hlt), Int.toNat_natCast, List.getD_eq_getElem?_getD,
    List.getD_eq_getElem?_getD]
  conv_rhs => rw [← hb]
  rw [List.getElem?_take_of_lt hs, List.getElem?_drop]

theorem getD_range_sum {r : List K} {n : Nat} (h : r.length = n) : ((List.range n).map fun s => r.getD s 0).sum = r.sum := by
  congr 1
  apply List.ext_getElem?
  intro i
  by_cases hi : i < n
  · rw [List.getElem?_map, List.getElem?_range hi, Option.map_some, List.getD_eq_getElem?_getD,
      List.getElem?_eq_getElem (by omega)]
    rfl
  · rw [List.getElem?_eq_none (by simpa using hi), List.getElem?_eq_none (by omega)]

/-- **C51.** Without `utc_offset` the mean over the steps of a day is the day's shortwave times daylength over
24 h times the sum of the day's fractions. -/
theorem C51_daily_mean {sw dl : List (Flt K)} {doy : List Nat} {table : List (List K)} {ts : Nat} {lon : K}
    {out : List (Flt K)} (hl : dl.length = sw.length) (hrows : ∀ r ∈ table, r.length = 2880)
    (h : shortwave sw dl doy table ts false lon = .ok out) {d y : Nat} {a b : K} {r : List K}
    (ha : sw[d]? = some (fin a)) (hb : dl[d]? = some (fin b)) (hy : doy[d]? = some y)
    (hr : table[y - 1]? = some r) :
    mean ((out.drop (d * (1440 / ts))).take (1440 / ts)) = fin (a * (b / 86400) * r.sum) := by
  obtain ⟨hts0, days, rfl, hdl, hdays⟩ := shortwave_inv hl h
  have hd : d < sw.length := (List.getElem?_eq_some_iff.1 ha).1
  have hday : days[d]? = some (days[d]'(by omega)) := List.getElem?_eq_getElem _
  obtain ⟨hts, Z, hZ, hZd, hZs⟩ := hdays d _ hday
  have hall : ∀ day ∈ days, day.length = 1440 / ts := by
    intro day hday
    obtain ⟨e, he⟩ := List.mem_iff_getElem?.1 hday
    obtain ⟨_, Z, hZ, rfl, _⟩ := hdays e day he
    rw [List.length_map, length_rows, hZ, show 2880 = 2 * 1440 by norm_num, Nat.mul_div_mul_left _ _ (by norm_num)]
  rw [flatten_block (1440 / ts) days hall hday]
  have hts' : (ts : K) ≠ 0 := by exact_mod_cast hts0.ne'
  have hw : perSlot sw dl ts d = fin (a * b / (60 * ts)) := by
    unfold perSlot
    rw [List.getD_eq_getElem?_getD, List.getD_eq_getElem?_getD, ha, hb]
    simp only [Option.getD_some]
    rw [mul_fin, div_fin_ne (by positivity)]
  have hZe : Z = (List.range 2880).map fun (s : Nat) => fin (r.getD s 0) * fin (a * b / (60 * ts)) := by
    apply List.ext_getElem?
    intro s
    by_cases hs : s < 2880
    · rw [hZs s hs, List.getElem?_map, List.getElem?_range hs, Option.map_some, slotDay_false hd hs, hw,
        List.getD_eq_getElem?_getD, hy, Option.getD_some, slotFrac_false hrows hr hs]
    · rw [List.getElem?_eq_none (by omega), List.getElem?_eq_none (by simpa using hs)]
  have hdv : 2 * ts ∣ Z.length := by
    rw [hZ, show 2880 = 2 * 1440 by norm_num]; exact Nat.mul_dvd_mul_left 2 hts
  unfold mean
  rw [hall _ (List.getElem_mem _), hZd, ← Flt.sum_flatten, rows_flatten (by omega) hdv, hZe, sum_map_range_mul,
    getD_range_sum (hrows r (List.mem_of_getElem? hr))]
  obtain ⟨c, hc⟩ := hts
  have hdiv : 1440 / ts = c := by rw [hc]; exact Nat.mul_div_cancel_left c hts0
  have hcK : (1440 : K) = ts * c := by exact_mod_cast hc
  have hc0 : (c : K) ≠ 0 := by
    intro h0; rw [h0, mul_zero] at hcK; norm_num at hcK
  rw [hdiv, div_fin_ne hc0]
  congr 1
  have : (86400 : K) = 60 * (ts * c) := by rw [← hcK]; norm_num
  rw [this]
  field_simp

/-- **C51.** Where the fractions add up to one, this is the value that daily output reports
(metsim.py:781 `shortwave * daylength / SEC_PER_DAY`). -/
theorem C51_matches_daily {sw dl : List (Flt K)} {doy : List Nat} {table : List (List K)} {ts : Nat} {lon : K}
    {out : List (Flt K)} (hl : dl.length = sw.length) (hrows : ∀ r ∈ table, r.length = 2880)
    (h : shortwave sw dl doy table ts false lon = .ok out) {d y : Nat} {a b : K} {r : List K}
    (ha : sw[d]? = some (fin a)) (hb : dl[d]? = some (fin b)) (hy : doy[d]? = some y)
    (hr : table[y - 1]? = some r) (hsum : r.sum = 1) :
    mean ((out.drop (d * (1440 / ts))).take (1440 / ts)) = fin a * (fin b / fin 86400) := by
  rw [C51_daily_mean hl hrows h ha hb hy hr, hsum, mul_one, div_fin_ne (by norm_num), mul_fin]

/-! ## C52 -/

/-- **C52.** Sub-daily shortwave is finite and not negative if the daily values, daylengths and fractions are. -/
theorem C52_nonneg {sw dl : List (Flt K)} {doy : List Nat} {table : List (List K)} {ts : Nat} {utc : Bool}
    {lon : K} {out : List (Flt K)} (hl : dl.length = sw.length)
    (h : shortwave sw dl doy table ts utc lon = .ok out)
    (hsw : ∀ x ∈ sw, ∃ v, x = fin v ∧ 0 ≤ v) (hdl : ∀ x ∈ dl, ∃ v, x = fin v ∧ 0 ≤ v)
    (htab : ∀ r ∈ table, ∀ f ∈ r, 0 ≤ f) : ∀ x ∈ out, ∃ v, x = fin v ∧ 0 ≤ v := by
  obtain ⟨hts0, days, rfl, hdn, hdays⟩ := shortwave_inv hl h
  have hts' : (0 : K) < ts := by exact_mod_cast hts0
  intro x hx
  obtain ⟨day, hday, hxd⟩ := List.mem_flatten.1 hx
  obtain ⟨d, hd⟩ := List.mem_iff_getElem?.1 hday
  have hdlt : d < sw.length := by rw [← hdn]; exact (List.getElem?_eq_some_iff.1 hd).1
  obtain ⟨-, Z, hZ, rfl, hZs⟩ := hdays d day hd
  obtain ⟨r, hr, rfl⟩ := List.mem_map.1 hxd
  refine Flt.sum_nonneg _ fun y hy => ?_
  obtain ⟨s, hs⟩ := List.mem_iff_getElem?.1 (mem_of_mem_rows hr hy)
  have hs' : s < 2880 := by rw [← hZ]; exact (List.getElem?_eq_some_iff.1 hs).1
  rw [hZs s hs', Option.some.injEq] at hs
  rw [← hs]
  have hq := slotDay_lt (s := s) hdlt utc lon
  set q := slotDay sw.length utc lon d s
  obtain ⟨a, ha, ha0⟩ := hsw sw[q] (List.getElem_mem _)
  obtain ⟨b, hb, hb0⟩ := hdl (dl[q]'(by omega)) (List.getElem_mem _)
  have hw : perSlot sw dl ts q = fin (a * b / (60 * ts)) := by
    unfold perSlot
    rw [List.getD_eq_getElem?_getD, List.getD_eq_getElem?_getD, List.getElem?_eq_getElem hq,
      List.getElem?_eq_getElem (by omega : q < dl.length), ha, hb]
    simp only [Option.getD_some]
    rw [mul_fin, div_fin_ne (by positivity)]
  have hf : 0 ≤ slotFrac table utc lon (doy.getD d 1) s := by
    unfold slotFrac
    rw [List.getD_eq_getElem?_getD]
    cases hc : table.flatten[(((((doy.getD d 1 - 1) * 2880 + s : Nat) : Int) + swShift utc lon) %
      (table.flatten.length : Int)).toNat]? with
    | none => simp
    | some f =>
      rw [Option.getD_some]
      obtain ⟨r, hr, hfr⟩ := List.mem_flatten.1 (List.mem_of_getElem? hc)
      exact htab r hr f hfr
  rw [hw, mul_fin]
  exact ⟨_, rfl, by positivity⟩

/-- **C52.** A step all of whose slots (shifted by the longitude under `utc_offset`) have zero fraction is dark. -/
theorem C52_dark {sw dl : List (Flt K)} {doy : List Nat} {table : List (List K)} {ts : Nat} {utc : Bool}
    {lon : K} {out : List (Flt K)} (hl : dl.length = sw.length)
    (h : shortwave sw dl doy table ts utc lon = .ok out)
    (hsw : ∀ x ∈ sw, ∃ v, x = fin v) (hdl : ∀ x ∈ dl, ∃ v, x = fin v) {d k : Nat} (hd : d < sw.length)
    (hk : k < 1440 / ts)
    (hz : ∀ j < 2 * ts, table.flatten.getD (((((doy.getD d 1 - 1) * 2880 + (k * (2 * ts) + j) : Nat) : Int) +
      (if utc then slotsOf lon else 0)) % (table.flatten.length : Int)).toNat 0 = 0) :
    out[d * (1440 / ts) + k]? = some (fin 0) := by
  rw [shortwave_step hl h hd hk]
  obtain ⟨hts0, -⟩ := shortwave_inv hl h
  have hts' : (0 : K) < ts := by exact_mod_cast hts0
  congr 1
  apply Flt.sum_zero
  intro x hx
  obtain ⟨j, hj, rfl⟩ := List.mem_map.1 hx
  rw [List.mem_range] at hj
  have hq := slotDay_lt (s := k * (2 * ts) + j) hd utc lon
  set q := slotDay sw.length utc lon d (k * (2 * ts) + j)
  obtain ⟨a, ha⟩ := hsw sw[q] (List.getElem_mem _)
  obtain ⟨b, hb⟩ := hdl (dl[q]'(by omega)) (List.getElem_mem _)
  have hw : perSlot sw dl ts q = fin (a * b / (60 * ts)) := by
    unfold perSlot
    rw [List.getD_eq_getElem?_getD, List.getD_eq_getElem?_getD, List.getElem?_eq_getElem hq,
      List.getElem?_eq_getElem (by omega : q < dl.length), ha, hb]
    simp only [Option.getD_some]
    rw [mul_fin, div_fin_ne (by positivity)]
  have := hz j hj
  unfold slotFrac swShift
  rw [this, hw, mul_fin, zero_mul]

/-! ## C68: shifting moves radiation by whole slots -/

/-- Radiation of slot `g` of the record (30 s slots from its beginning) in local time: the day's energy times the
fraction of the slot in the row of that day. -/
def localSlot (sw dl : List (Flt K)) (doy : List Nat) (table : List (List K)) (ts g : Nat) : Flt K :=
  fin ((table.getD (doy.getD (g / 2880) 1 - 1) []).getD (g % 2880) 0) * perSlot sw dl ts (g / 2880)

/-- With `utc_offset` step `i` sums the local radiation of its slots, each the longitude's whole slots later and
wrapping around the record. -/
def C68_full : Prop :=
  ∀ (sw dl : List (Flt ℚ)) (doy : List Nat) (table : List (List ℚ)) (ts : Nat) (lon : ℚ) (out : List (Flt ℚ)),
    dl.length = sw.length → doy.length = sw.length → (∀ r ∈ table, r.length = 2880 ∧ r.sum = 1) →
    (∀ y ∈ doy, 1 ≤ y ∧ y ≤ table.length) → shortwave sw dl doy table ts true lon = .ok out →
    ∀ i < out.length, out[i]? = some (Flt.sum ((List.range (2 * ts)).map fun (j : Nat) =>
      localSlot sw dl doy table ts
        ((((i * (2 * ts) + j : Nat) : Int) + slotsOf lon) % ((sw.length * 2880 : Nat) : Int)).toNat))

/-- **C68, partial.** This holds for steps whose shifted slots stay inside the record and on days whose number in
the year follows that of the present day, and so away from the ends of the record and of the year. -/
theorem C68_interior_partial {sw dl : List (Flt K)} {doy : List Nat} {table : List (List K)} {ts : Nat} {lon : K}
    {out : List (Flt K)} (hl : dl.length = sw.length) (hrows : ∀ r ∈ table, r.length = 2880)
    (h : shortwave sw dl doy table ts true lon = .ok out) {d k : Nat} (hd : d < sw.length) (hk : k < 1440 / ts)
    (hin : ∀ j < 2 * ts, ∃ g : Nat, (g : Int) = ((d * 2880 + (k * (2 * ts) + j) : Nat) : Int) + slotsOf lon ∧
      g < sw.length * 2880 ∧ ∃ y : Nat, doy.getD (g / 2880) 1 = y + 1 ∧ y < table.length ∧
      y + d = (doy.getD d 1 - 1) + g / 2880) :
    out[d * (1440 / ts) + k]? = some (Flt.sum ((List.range (2 * ts)).map fun (j : Nat) =>
      localSlot sw dl doy table ts
        (((d * 2880 + (k * (2 * ts) + j) : Nat) : Int) + slotsOf lon).toNat)) := by
  rw [shortwave_step hl h hd hk]
  congr 2
  apply List.map_congr_left
  intro j hj
  rw [List.mem_range] at hj
  obtain ⟨g, hg, hgn, y, hy, hyt, hyd⟩ := hin j hj
  have hflat := length_flatten_const 2880 table hrows
  have hsd : slotDay sw.length true lon d (k * (2 * ts) + j) = g / 2880 := by
    unfold slotDay swShift
    rw [if_pos rfl, ← hg, Int.emod_eq_of_lt (Int.natCast_nonneg g) (by exact_mod_cast hgn), Int.toNat_natCast]
  have hsf : slotFrac table true lon (doy.getD d 1) (k * (2 * ts) + j) = (table.getD y []).getD (g % 2880) 0 := by
    unfold slotFrac swShift
    rw [if_pos rfl]
    have hidx : ((((doy.getD d 1 - 1) * 2880 + (k * (2 * ts) + j) : Nat) : Int) + slotsOf lon)
        = ((y * 2880 + g % 2880 : Nat) : Int) := by
      have hgm := Nat.div_add_mod g 2880
      generalize g / 2880 = q at *
      generalize g % 2880 = m at *
      push_cast at *
      have : (y : Int) + d = ((doy.getD d 1 - 1 : Nat) : Int) + q := by exact_mod_cast hyd
      have hgm' : (2880 : Int) * q + m = g := by exact_mod_cast hgm
      linarith
    have hmlt : g % 2880 < 2880 := Nat.mod_lt _ (by norm_num)
    have hlt : y * 2880 + g % 2880 < table.flatten.length := by
      rw [hflat]
      calc y * 2880 + g % 2880 < (y + 1) * 2880 := by omega
        _ ≤ table.length * 2880 := Nat.mul_le_mul_right _ hyt
    rw [hidx, Int.emod_eq_of_lt (Int.natCast_nonneg _) (by exact_mod_cast hlt), Int.toNat_natCast,
      List.getD_eq_getElem?_getD, List.getD_eq_getElem?_getD, List.getD_eq_getElem?_getD,
      List.getElem?_eq_getElem hyt, Option.getD_some,
      ← flatten_block 2880 table hrows (List.getElem?_eq_getElem hyt), List.getElem?_take_of_lt hmlt, List.getElem?_drop]
  rw [hsd, hsf, ← hg, Int.toNat_natCast]
  unfold localSlot
  rw [hy, Nat.add_sub_cancel]

/-- Fractions concentrated in one slot. -/
def spike (n : Nat) : List ℚ := List.replicate n 0 ++ 1 :: List.replicate (2879 - n) 0

theorem spike_sum (n : Nat)
    (h : Flt.sum ((List.range n).map fun j => (fin (if j = 1440 then 1 else 0) : Flt ℚ)) = fin 0) : n ≤ 1440 := by
  have hm2 : ((List.range n).map fun j => (fin (if j = 1440 then 1 else 0) : Flt ℚ)) =
      ((List.range n).map fun j => if j = 1440 then (1 : ℚ) else 0).map fin := by
    rw [List.map_map]; rfl
  rw [hm2, sum_map_fin] at h
  injection h with h
  have hnn : ∀ x ∈ (List.range n).map fun j => if j = 1440 then (1 : ℚ) else 0, 0 ≤ x := by
    intro x hx
    obtain ⟨j, _, rfl⟩ := List.mem_map.1 hx
    split <;> norm_num
  by_contra hn
  have := (sum_nonneg_eq_zero_iff _ hnn).1 h 1 (List.mem_map.2 ⟨1440, List.mem_range.2 (by omega), by simp⟩)
  norm_num at this

theorem spike_length : ∀ n ≤ 2879, (spike n).length = 2880 := by
  intro n hn
  unfold spike
  rw [List.length_append, List.length_cons, List.length_replicate, List.length_replicate]
  omega

theorem spike_total : ∀ n, (spike n).sum = 1 := by
  intro n
  unfold spike
  rw [List.sum_append, List.sum_cons, List.sum_replicate, List.sum_replicate]
  simp

theorem spike_off : ∀ n i, i < 2880 → n ≤ 2879 → i ≠ n → (spike n)[i]? = some 0 := by
  intro n i hi hn hne
  unfold spike
  by_cases h1 : i < n
  · rw [List.getElem?_append_left (by rwa [List.length_replicate]), List.getElem?_replicate, if_pos h1]
  · rw [List.getElem?_append_right (by rw [List.length_replicate]; omega), List.length_replicate,
      show i - n = (i - n - 1) + 1 by omega, List.getElem?_cons_succ, List.getElem?_replicate, if_pos (by omega)]

theorem slots_180 : slotsOf (180 : ℚ) = 1440 := by
  unfold slotsOf
  rw [if_pos (by norm_num)]
  norm_num

theorem spike_rows : ∀ r ∈ [spike 0, spike 2879], r.length = 2880 := by
  intro r hr
  rcases List.mem_cons.1 hr with rfl | hr
  · exact spike_length 0 (by norm_num)
  · rw [List.mem_singleton] at hr
    rw [hr]; exact spike_length 2879 (by norm_num)

theorem spike_perSlot : perSlot [fin 1] [fin 86400] 1440 0 = (fin 1 : Flt ℚ) := by
  unfold perSlot
  norm_num

theorem spike_term : ∀ j < 2 * 1440, localSlot [fin 1] [fin 86400] [1] [spike 0, spike 2879] 1440
    ((((0 * (2 * 1440) + j : Nat) : Int) + 1440) % (([fin 1] : List (Flt ℚ)).length * 2880 : Nat)).toNat =
    fin (if j = 1440 then 1 else 0) := by
  intro j hj
  have hg : ((((0 * (2 * 1440) + j : Nat) : Int) + 1440) % (([fin 1] : List (Flt ℚ)).length * 2880 : Nat)).toNat =
      (j + 1440) % 2880 := by
    rw [List.length_singleton]; omega
  have hlt : (j + 1440) % 2880 < 2880 := Nat.mod_lt _ (by norm_num)
  rw [hg]
  unfold localSlot
  rw [Nat.div_eq_of_lt hlt, spike_perSlot, mul_fin, mul_one, Nat.mod_eq_of_lt hlt]
  refine congrArg fin ?_
  simp only [List.getD_cons_zero, Nat.sub_self]
  rw [List.getD_eq_getElem?_getD]
  by_cases hj0 : j = 1440
  · rw [if_pos hj0, hj0]
    rfl
  · rw [if_neg hj0, spike_off 0 _ hlt (by norm_num) (by omega)]
    rfl

theorem spike_dark (j : Nat) (hj : j < 2 * 1440) : [spike 0, spike 2879].flatten.getD
    (((((([1] : List Nat).getD 0 1 - 1) * 2880 + (0 * (2 * 1440) + j) : Nat) : Int) +
      (if true then slotsOf (180 : ℚ) else 0)) % ([spike 0, spike 2879].flatten.length : Int)).toNat 0 = 0 := by
  rw [if_pos rfl, slots_180, List.getD_eq_getElem?_getD]
  have hfl : [spike 0, spike 2879].flatten = spike 0 ++ spike 2879 := by simp
  have hl2 : ([spike 0, spike 2879].flatten).length = 5760 := by
    rw [hfl, List.length_append, spike_length 0 (by norm_num), spike_length 2879 (by norm_num)]
  rw [hl2, List.getD_cons_zero]
  have e : (((((1 - 1) * 2880 + (0 * (2 * 1440) + j) : Nat) : Int) + 1440) % ((5760 : Nat) : Int)).toNat = 1440 + j := by
    omega
  rw [e, hfl]
  by_cases hj' : 1440 + j < 2880
  · rw [List.getElem?_append_left (by rw [spike_length 0 (by norm_num)]; exact hj'),
      spike_off 0 _ hj' (by norm_num) (by omega)]
    rfl
  · rw [List.getElem?_append_right (by rw [spike_length 0 (by norm_num)]; omega), spike_length 0 (by norm_num),
      spike_off 2879 _ (by omega) (by norm_num) (by omega)]
    rfl

/-- **C68 fails**: at the end of the record the energy of the first day is spread by the fractions of the day
after the last; here a day's radiation disappears. -/
theorem C68_refuted : ¬ C68_full := by
  intro h
  have hrows := spike_rows
  obtain ⟨out, hout⟩ := shortwave_total (sw := [fin 1]) (dl := [fin 86400]) (doy := [1])
    (table := [spike 0, spike 2879]) (ts := 1440) true (180 : ℚ) rfl (dvd_refl _) hrows (by
      intro d _
      cases d <;> simp)
  have hdark : out[0 * (1440 / 1440) + 0]? = some (fin 0) := by
    refine C52_dark (sw := [fin 1]) (dl := [fin 86400]) (doy := [1]) (table := [spike 0, spike 2879]) (ts := 1440)
      (utc := true) (lon := 180) (d := 0) (k := 0) rfl hout ?_ ?_ ?_ ?_ ?_
    · simp
    · simp
    · simp
    · norm_num
    · intro j hj
      rw [if_pos rfl]
      have := spike_dark j hj
      rw [if_pos rfl] at this
      exact this
  have hol : out.length ≠ 0 := by
    intro h0
    rw [List.eq_nil_of_length_eq_zero h0] at hdark
    simp at hdark
  have hexp := h [fin 1] [fin 86400] [1] [spike 0, spike 2879] 1440 180 out rfl rfl
    (fun r hr => ⟨hrows r hr, by
      rcases List.mem_cons.1 hr with rfl | hr
      · exact spike_total 0
      · rw [List.mem_singleton] at hr
        rw [hr]; exact spike_total 2879⟩) (by simp) hout 0 (by omega)
  simp only [Nat.zero_mul, Nat.zero_add] at hdark
  rw [hdark, Option.some.injEq, slots_180] at hexp
  refine absurd (spike_sum (2 * 1440) ?_) (by norm_num)
  refine Eq.trans (congrArg Flt.sum (List.map_congr_left fun j hj => ?_)) hexp.symm
  exact (spike_term j (List.mem_range.1 hj)).symm

end Verif.Props
