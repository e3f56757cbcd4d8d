import Verif.Model.Datetime
import Verif.Np.Calendar
import Mathlib.Data.Rat.Floor
import Mathlib.Tactic.FieldSimp

/-!
# Properties of dates: C17 (`date_range`), C18 (day of year)
-/

namespace Verif.Props

open Datetime

/-! ## C17 -/
section C17

/-- `l` is the fixed-step range: exactly the numbers `start + k*step` not after `stop`, in increasing
order (hence each once). -/
def IsRange (start stop : Int) (step : Nat) (l : List ℚ) : Prop :=
  (∀ t : ℚ, t ∈ l ↔ ∃ k : Nat, t = start + k * step ∧ t ≤ stop) ∧ l.Pairwise (· < ·)

/-- **C17, full statement.** False: `C17_refuted`. -/
def C17_full : Prop :=
  ∀ (calendar : String) (start stop : Int) (step : Nat), 0 < step →
    ∃ l, dateRange calendar start stop step = .ok l ∧ IsRange start stop step l

theorem isRange_aux (start stop : Int) (step n : Nat) (hs : 0 < step)
    (hn : ∀ k : Nat, k < n ↔ start + k * step ≤ stop) :
    IsRange start stop step ((List.range n).map fun (k : Nat) => ((start + k * step : Int) : ℚ)) := by
  constructor
  · intro t
    simp only [List.mem_map, List.mem_range]
    constructor
    · rintro ⟨k, hk, rfl⟩
      refine ⟨k, by push_cast; ring, ?_⟩
      exact_mod_cast (hn k).1 hk
    · rintro ⟨k, rfl, hle⟩
      refine ⟨k, (hn k).2 ?_, by push_cast; ring⟩
      exact_mod_cast hle
  · rw [List.pairwise_map]
    refine List.pairwise_lt_range.imp ?_
    intro a b hab
    have : (a : Int) * step < b * step := by
      have : (a : Int) < b := by exact_mod_cast hab
      have h2 : (0 : Int) < step := by exact_mod_cast hs
      exact mul_lt_mul_of_pos_right this h2
    have h3 : start + a * step < start + b * step := by omega
    exact_mod_cast h3

/-- **C17** on the calendars pandas handles: `date_range` is the fixed-step range. -/
theorem C17_standard_calendar (calendar : String) (hc : calendar = "standard" ∨ calendar = "gregorian")
    (start stop : Int) (step : Nat) (hs : 0 < step) :
    ∃ l, dateRange calendar start stop step = .ok l ∧ IsRange start stop step l := by
  replace hc : calendar ∈ pandasCalendars := by rcases hc with rfl | rfl <;> decide
  refine ⟨_, by rw [dateRange, if_pos hc, if_neg (by omega)], ?_⟩
  apply isRange_aux _ _ _ _ hs
  intro k
  have h2 : (0 : Int) < step := by exact_mod_cast hs
  rw [Int.fdiv_eq_ediv_of_nonneg _ h2.le]
  have : (k : Int) ≤ (stop - start) / step ↔ (k : Int) * step ≤ stop - start := Int.le_ediv_iff_mul_le h2
  omega

theorem cfRange_of_dvd (start stop : Int) (step : Nat) (hs : 0 < step) (hle : start ≤ stop)
    (hd : (step : Int) ∣ stop - start) :
    cfRange start stop step = .ok (pdRange start stop step) := by
  obtain ⟨m, hm⟩ := hd
  have h2 : (0 : Int) < step := by exact_mod_cast hs
  have hm0 : 0 ≤ m := by
    by_contra h
    have : (step : Int) * m < 0 := mul_neg_of_pos_of_neg h2 (by omega)
    omega
  obtain ⟨n, rfl⟩ := Int.eq_ofNat_of_zero_le hm0
  have hq : (((stop - start : Int) : ℚ) / step) = n := by
    rw [hm]; push_cast
    have : (step : ℚ) ≠ 0 := by exact_mod_cast hs.ne'
    field_simp
  have hstop : stop = start + step * n := by omega
  unfold cfRange pdRange
  rw [if_neg (by omega)]
  simp only [hq]
  have ht : Np.trunc ((n : ℚ)) = n := by
    unfold Np.trunc; rw [if_pos (by positivity)]; simp
  rw [ht, if_neg (by omega), hm]
  rw [Int.fdiv_eq_ediv_of_nonneg _ h2.le, Int.mul_ediv_cancel_left _ h2.ne']
  unfold Np.linspace
  congr 1
  apply List.map_congr_left
  intro k hk
  have e : ((n : Int) + 1).toNat = n + 1 := by omega
  rw [e] at hk ⊢
  simp only [List.mem_range] at hk
  split_ifs with h1
  · have : k = 0 := by omega
    subst this; simp
  · have hn : (n : ℚ) ≠ 0 := by
      have : n ≠ 0 := by omega
      exact_mod_cast this
    rw [hstop]; push_cast; ring_nf; field_simp

/-- The calendar counts the days from `a` to `b` (days since 2000-01-01) like the standard calendar does: it is one of those
pandas handles, or it has all these days, one after the other. -/
def HasDays (calendar : String) (a b : Int) : Prop :=
  calendar ∈ pandasCalendars ∨ ∃ c, CfTime.named calendar = some c ∧
    ∃ k, ∀ d, a ≤ d → d ≤ b → c.number (d + CfTime.origin) = .ok (d + k)

theorem HasDays.sub {calendar : String} {a b a' b' : Int} (h : HasDays calendar a b) (ha : a ≤ a') (hb : b' ≤ b) :
    HasDays calendar a' b' := by
  rcases h with h | ⟨c, h1, k, h2⟩
  · exact .inl h
  · exact .inr ⟨c, h1, k, fun d hd hd' => h2 d (by omega) (by omega)⟩

theorem regular_standard (a b : Int) : HasDays "standard" a b := .inl (by decide)

/-- Bounds on a calendar of `cftime`: the range of the numbers, dated. -/
theorem dateRange_cf {calendar : String} {c : CfTime.Calendar} (hp : calendar ∉ pandasCalendars)
    (hc : CfTime.named calendar = some c) {start stop A B : Int} (ha : c.minutes start = .ok A) (hb : c.minutes stop = .ok B)
    {step : Nat} (hs : 0 < step) (hle : A ≤ B) (hd : (step : Int) ∣ B - A) :
    dateRange calendar start stop step = (pdRange A B step).mapM c.stamp := by
  unfold dateRange
  rw [if_neg hp, hc]
  simp only [ha, hb, bind, Except.bind]
  rw [cfRange_of_dvd A B step hs hle hd]

theorem mapM_map_ok {α β : Type} {f : α → Except PyErr β} {g : α → β} :
    ∀ {l : List α}, (∀ x ∈ l, f x = .ok (g x)) → l.mapM f = .ok (l.map g)
  | [], _ => rfl
  | x :: l, h => by
    rw [List.mapM_cons, h x (by simp), mapM_map_ok fun y hy => h y (List.mem_cons_of_mem _ hy)]
    rfl

theorem regular_minutes {c : CfTime.Calendar} {a b k : Int}
    (h : ∀ d, a ≤ d → d ≤ b → c.number (d + CfTime.origin) = .ok (d + k)) {t : Int} (h1 : a ≤ t / 1440) (h2 : t / 1440 ≤ b) :
    c.minutes t = .ok (t + 1440 * k) := by
  unfold CfTime.Calendar.minutes
  rw [h _ h1 h2]
  simp only [bind, Except.bind, pure, Except.pure]
  congr 1
  omega

theorem regular_stamp {c : CfTime.Calendar} {a b k : Int}
    (h : ∀ d, a ≤ d → d ≤ b → c.number (d + CfTime.origin) = .ok (d + k)) {t : Int} (h1 : a ≤ t / 1440) (h2 : t / 1440 ≤ b) :
    c.stamp ((t + 1440 * k : Int) : ℚ) = .ok (t : ℚ) := by
  have hf : ⌊((t + 1440 * k : Int) : ℚ) / 1440⌋ = t / 1440 + k := by
    have := Int.floor_div_natCast ((t + 1440 * k : Int) : ℚ) 1440
    push_cast at this ⊢
    rw [this]
    have e : ⌊((t : ℚ) + 1440 * (k : ℚ))⌋ = t + 1440 * k := by
      rw [show ((t : ℚ) + 1440 * (k : ℚ)) = ((t + 1440 * k : Int) : ℚ) by push_cast; rfl, Int.floor_intCast]
    rw [e]
    omega
  unfold CfTime.Calendar.stamp
  rw [hf, CfTime.standard_number (h _ h1 h2)]
  simp only [bind, Except.bind, pure, Except.pure]
  congr 1
  push_cast
  ring

/-- Where the calendar is regular, the range is that of the standard calendar. -/
theorem dateRange_regular {calendar : String} {a b start stop : Int} (hr : HasDays calendar a b) {step : Nat} (hs : 0 < step)
    (hle : start ≤ stop) (hd : (step : Int) ∣ stop - start) (h1 : a ≤ start / 1440) (h2 : stop / 1440 ≤ b) :
    dateRange calendar start stop step = .ok (pdRange start stop step) := by
  by_cases hp : calendar ∈ pandasCalendars
  · rw [dateRange, if_pos hp, if_neg (by omega)]
  · rcases hr with h | ⟨c, hc, k, hk⟩
    · exact absurd h hp
    · have hle' : start / 1440 ≤ stop / 1440 := Int.ediv_le_ediv (by decide) hle
      rw [dateRange_cf hp hc (regular_minutes hk h1 (by omega)) (regular_minutes hk (by omega) h2) hs (by omega)
        (by rwa [show stop + 1440 * k - (start + 1440 * k) = stop - start by ring])]
      have e : pdRange (start + 1440 * k) (stop + 1440 * k) step =
          (List.range (Int.fdiv (stop - start) step + 1).toNat).map fun (m : Nat) => ((start + m * step + 1440 * k : Int) : ℚ) := by
        unfold pdRange
        rw [show stop + 1440 * k - (start + 1440 * k) = stop - start by ring]
        apply List.map_congr_left
        intro m _
        congr 1; ring
      rw [e]
      unfold pdRange
      rw [List.mapM_map]
      apply mapM_map_ok
      intro m hm
      rw [List.mem_range] at hm
      have hs' : (0 : Int) < step := by exact_mod_cast hs
      rw [Int.fdiv_eq_ediv_of_nonneg _ hs'.le] at hm
      have hm' : (m : Int) * step ≤ stop - start := by
        rw [← Int.le_ediv_iff_mul_le hs']; omega
      have hm0 : (0 : Int) ≤ (m : Int) * step := by positivity
      refine regular_stamp hk ?_ ?_
      · have : start / 1440 ≤ (start + m * step) / 1440 := Int.ediv_le_ediv (by decide) (by omega)
        omega
      · have : (start + m * step) / 1440 ≤ stop / 1440 := Int.ediv_le_ediv (by decide) (by omega)
        omega

/-- **C17, the part that holds on every calendar**: the calendar has the days from the first to the last bound, and the end
is a whole number of steps after the start (the only way `metsim` calls it).  Missing: ends that are not on the grid, see
`C17_refuted`; days the calendar lacks, see C118. -/
theorem C17_date_range_partial (calendar : String) (start stop : Int) (step : Nat) (hs : 0 < step)
    (hr : HasDays calendar (start / 1440) (stop / 1440)) (hle : start ≤ stop) (hd : (step : Int) ∣ stop - start) :
    ∃ l, dateRange calendar start stop step = .ok l ∧ IsRange start stop step l := by
  obtain ⟨l, h1, h2⟩ := C17_standard_calendar "standard" (.inl rfl) start stop step hs
  refine ⟨l, ?_, h2⟩
  rw [dateRange_regular hr hs hle hd (le_refl _) (le_refl _), ← h1]
  rw [dateRange, if_pos (by decide), if_neg (by omega)]

/-- **C17 is violated by the code**: on `noleap`, 0..10 in steps of 4 gives 0, 5, 10. -/
theorem C17_refuted : ¬ C17_full := by
  intro h
  obtain ⟨l, h1, h2, -⟩ := h "noleap" 0 10 4 (by norm_num)
  have : dateRange "noleap" 0 10 4 = .ok [0, 5, 10] := by decide +kernel
  rw [this] at h1; injection h1 with h1; subst h1
  obtain ⟨k, hk, -⟩ := (h2 5).1 (by simp)
  have : (5 : Int) = k * 4 := by
    have := hk; push_cast at this; norm_num at this; exact_mod_cast this
  omega

/-- A non-trivial case of the partial theorem: three hours in steps of 60 minutes on `noleap`. -/
example : dateRange "noleap" 1440 1620 60 = .ok [1440, 1500, 1560, 1620] := by decide +kernel

theorem takeWhile_digits (n : Nat) (c : Char) (hc : Txt.isDigit c = false) :
    (Txt.decimal n ++ [c]).takeWhile Txt.isDigit = Txt.decimal n ∧
    (Txt.decimal n ++ [c]).dropWhile Txt.isDigit = [c] := by
  have := Txt.decimal_digits n
  constructor
  · rw [List.takeWhile_append_of_pos this]; simp [hc]
  · rw [List.dropWhile_append_of_pos this]; simp [hc]

/-- **C17**: the frequency strings built by `metsim` (`'{}T'.format(time_step)`), and their hour and
day analogues, decode to the number and the unit they were built from. -/
theorem C17_decode_freq (n : Nat) (c : Char) (u : Units)
    (h : (c, u) ∈ [('T', Units.minutes), ('H', .hours), ('D', .days)]) :
    decodeFreq (Txt.decimal n ++ [c]) = .ok (n, u) ∧ decodeFreq [c] = .ok (1, u) := by
  have hlen : 1 < (Txt.decimal n ++ [c]).length := by
    have := List.length_pos_iff.2 (Txt.decimal_ne_nil n)
    simp; omega
  have hc : Txt.isDigit c = false ∧ Txt.isLetter c = true ∧ unitsFromFreq [c] = .ok u := by
    revert h; simp only [List.mem_cons, Prod.mk.injEq, List.not_mem_nil, or_false]
    rintro (⟨rfl, rfl⟩ | ⟨rfl, rfl⟩ | ⟨rfl, rfl⟩) <;> decide
  obtain ⟨h1, h2, h3⟩ := hc
  obtain ⟨h4, h5⟩ := takeWhile_digits n c h1
  constructor
  · unfold decodeFreq
    rw [if_pos hlen, h4, h5]
    simp [Txt.decimal_ne_nil, h2, h3, Txt.parseNat_decimal, bind, Except.bind, pure, Except.pure]
  · unfold decodeFreq
    simp [h3, bind, Except.bind, pure, Except.pure]

end C17

/-! ## C18 -/
section C18
open Cal

/-- **C18**: every day belongs to exactly one year, and its zero-based day of year
(`df.index.dayofyear - 1`, metsim.py:736, disaggregate.py:640) is an index of the 366-row tables;
row 365 is used only in leap years. -/
theorem C18_day_of_year (ord : Int) :
    (∃! y, daysBeforeYear y < ord ∧ ord ≤ daysBeforeYear (y + 1)) ∧
    0 ≤ dayOfYear ord - 1 ∧ dayOfYear ord - 1 < 366 ∧
    (dayOfYear ord - 1 = 365 → leap (yearOf ord) = true) := by
  have hmono : ∀ a b : Int, a ≤ b → daysBeforeYear a ≤ daysBeforeYear b := by
    intro a b hab
    obtain ⟨n, rfl⟩ := Int.le.dest hab
    clear hab
    induction n with
    | zero => simp
    | succ n ih =>
      have := daysBeforeYear_succ (a + n)
      have h2 : yearLen (a + n) ≥ 0 := by unfold yearLen; split <;> omega
      rw [show a + ((n + 1 : Nat) : Int) = a + n + 1 by push_cast; ring]; omega
  have hb := dayOfYear_bounds ord
  have hl : yearLen (yearOf ord) ≤ 366 ∧ (leap (yearOf ord) = false → yearLen (yearOf ord) = 365) := by
    unfold yearLen; split <;> simp_all
  refine ⟨⟨yearOf ord, yearOf_spec ord, ?_⟩, by omega, by omega, ?_⟩
  · rintro y ⟨h1, h2⟩
    have hs := yearOf_spec ord
    rcases lt_trichotomy y (yearOf ord) with h | h | h
    · have := hmono (y + 1) (yearOf ord) (by omega); omega
    · exact h
    · have := hmono (yearOf ord + 1) y (by omega); omega
  · intro h
    by_contra hc
    have := hl.2 (by simpa using hc)
    omega

/-- Day and month fields identify the day. -/
theorem C18_civil_fields (a b : Int) (hy : yearOf a = yearOf b) (hm : monthDay a = monthDay b) : a = b := by
  rw [← ofCivil_fields a, ← ofCivil_fields b, hy, hm]

/-- 2000-12-31 uses row 365, 2001-12-31 row 364. -/
example : dayOfYear (ofCivil 2000 12 31) - 1 = 365 ∧ dayOfYear (ofCivil 2001 12 31) - 1 = 364 := by
  decide +kernel

end C18
end Verif.Props
