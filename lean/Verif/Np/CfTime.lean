import Verif.Np.Basic
import Verif.Np.Text
import Verif.Np.Calendar
import Mathlib.Data.Rat.Floor

/-!
# Calendars of climate data: `cftime`, as `netCDF4.date2num`, `num2date` and `CFTimeIndex.to_datetimeindex` use it

A date is a year, a month and a day.  On the standard calendar it is an ordinal as in `Np/Calendar`; the other calendars
number their own days from 0001-01-01 (day 1).  Dates are of the years pandas can hold, so that the standard calendar is
the Gregorian one throughout.
-/

namespace Verif.CfTime

/-- The calendars. -/
inductive Calendar where
  | gregorian | julian | noleap | allLeap | day360
  deriving DecidableEq, Repr

/-- The calendar a name stands for; `cftime` knows no others (it looks at names in lower case). -/
def named (s : String) : Option Calendar :=
  let l := String.ofList (Txt.lower s.toList)
  if l = "standard" ∨ l = "gregorian" ∨ l = "proleptic_gregorian" then some .gregorian
  else if l = "julian" then some .julian
  else if l = "noleap" ∨ l = "365_day" then some .noleap
  else if l = "all_leap" ∨ l = "366_day" then some .allLeap
  else if l = "360_day" then some .day360
  else none

/-- The lengths of the months of a year. -/
def Calendar.months : Calendar → Int → List Nat
  | .gregorian, y => Cal.monthLens (Cal.leap y)
  | .julian, y => Cal.monthLens (y % 4 == 0)
  | .noleap, _ => Cal.monthLens false
  | .allLeap, _ => Cal.monthLens true
  | .day360, _ => List.replicate 12 30

/-- The days before the first of January of a year. -/
def Calendar.before : Calendar → Int → Int
  | .gregorian, y => Cal.daysBeforeYear y
  | .julian, y => (y - 1) * 365 + (y - 1) / 4
  | .noleap, y => (y - 1) * 365
  | .allLeap, y => (y - 1) * 366
  | .day360, y => (y - 1) * 360

/-- The year a day belongs to. -/
def Calendar.year : Calendar → Int → Int
  | .gregorian, n => Cal.yearOf n
  | .julian, n =>
    let r := (n - 1) % 1461
    (n - 1) / 1461 * 4 + 1 + (if r = 1460 then 3 else r / 365)
  | .noleap, n => (n - 1) / 365 + 1
  | .allLeap, n => (n - 1) / 366 + 1
  | .day360, n => (n - 1) / 360 + 1

/-- `date2num` of a day of the standard calendar: the day of the same name, ValueError if the calendar has none. -/
def Calendar.number (c : Calendar) (ord : Int) : Except PyErr Int :=
  let y := Cal.yearOf ord
  let md := Cal.monthDay ord
  if md.2 ≤ (c.months y).getD (md.1 - 1) 0 then .ok (c.before y + (((c.months y).take (md.1 - 1)).sum : Nat) + md.2)
  else .error .valueError

/-- `num2date`: year, month and day. -/
def Calendar.date (c : Calendar) (n : Int) : Int × Nat × Nat :=
  let y := c.year n
  (y, Cal.walk 1 (n - c.before y - 1).toNat (c.months y))

/-- `to_datetimeindex` of a date: the day of the same name on the standard calendar, ValueError if there is none. -/
def toStandard (d : Int × Nat × Nat) : Except PyErr Int :=
  if d.2.2 ≤ (Cal.monthLens (Cal.leap d.1)).getD (d.2.1 - 1) 0 then .ok (Cal.ofCivil d.1 d.2.1 d.2.2)
  else .error .valueError

/-- The day of the standard calendar that has the name of day `n`. -/
def Calendar.standard (c : Calendar) (n : Int) : Except PyErr Int := toStandard (c.date n)

/-- 2000-01-01. -/
def origin : Int := 730120

/-- `date2num(t, 'minutes since 0001-01-01', calendar)` of a stamp, in minutes since 2000-01-01 on the standard calendar. -/
def Calendar.minutes (c : Calendar) (t : Int) : Except PyErr Int := do
  let n ← c.number (t / 1440 + origin)
  pure (1440 * n + t % 1440)

/-- `num2date` and `to_datetimeindex`: back to minutes since 2000-01-01 on the standard calendar. -/
def Calendar.stamp (c : Calendar) (x : ℚ) : Except PyErr ℚ := do
  let d ← c.standard ⌊x / 1440⌋
  pure (1440 * ((d - origin : Int) : ℚ) + (x - 1440 * ((⌊x / 1440⌋ : Int) : ℚ)))

/-- The number of a date. -/
def Calendar.place (c : Calendar) (a : Int × Nat × Nat) : Int :=
  c.before a.1 + (((c.months a.1).take (a.2.1 - 1)).sum : Nat) + a.2.2

/-- `date2num(t, 'minutes since 2000-01-01', calendar)` of a stamp in minutes since 2000-01-01 on the standard calendar. -/
def encode (calendar : String) (t : Int) : Except PyErr Int :=
  match named calendar with
  | none => .error .valueError
  | some c => do
    let m ← c.minutes t
    pure (m - 1440 * c.place (2000, 1, 1))

/-- `num2date(m, 'minutes since 2000-01-01', calendar)`, as the stamp of the same name on the standard calendar. -/
def decode (calendar : String) (m : Int) : Except PyErr Int :=
  match named calendar with
  | none => .error .valueError
  | some c => do
    let d ← c.standard (m / 1440 + c.place (2000, 1, 1))
    pure (1440 * (d - origin) + m % 1440)

/-! ### Numbering and dates are inverse to each other -/

/-- The length of a year. -/
def Calendar.len (c : Calendar) (y : Int) : Int := ((c.months y).sum : Nat)

theorem monthLens_sum (l : Bool) : (Cal.monthLens l).sum = if l then 366 else 365 := by cases l <;> decide

theorem before_succ (c : Calendar) (y : Int) : c.before (y + 1) = c.before y + c.len y := by
  cases c
  · show Cal.daysBeforeYear (y + 1) = Cal.daysBeforeYear y + ((Cal.monthLens (Cal.leap y)).sum : Nat)
    rw [Cal.daysBeforeYear_succ, monthLens_sum, Cal.yearLen]
    cases Cal.leap y <;> simp
  · show (y + 1 - 1) * 365 + (y + 1 - 1) / 4 = (y - 1) * 365 + (y - 1) / 4 + ((Cal.monthLens (y % 4 == 0)).sum : Nat)
    rw [monthLens_sum]
    by_cases h : y % 4 = 0
    · simp [h]; omega
    · have : (y % 4 == 0) = false := by simpa using h
      simp [this]; omega
  · show (y + 1 - 1) * 365 = (y - 1) * 365 + ((Cal.monthLens false).sum : Nat)
    rw [monthLens_sum]; simp; omega
  · show (y + 1 - 1) * 366 = (y - 1) * 366 + ((Cal.monthLens true).sum : Nat)
    rw [monthLens_sum]; simp; omega
  · show (y + 1 - 1) * 360 = (y - 1) * 360 + ((List.replicate 12 30).sum : Nat)
    rw [show (List.replicate 12 30).sum = 360 from by decide]; push_cast; omega

theorem year_spec (c : Calendar) (n : Int) : c.before (c.year n) < n ∧ n ≤ c.before (c.year n + 1) := by
  cases c
  · exact Cal.yearOf_spec n
  · show ((n - 1) / 1461 * 4 + 1 + (if (n - 1) % 1461 = 1460 then 3 else (n - 1) % 1461 / 365) - 1) * 365 +
      ((n - 1) / 1461 * 4 + 1 + (if (n - 1) % 1461 = 1460 then 3 else (n - 1) % 1461 / 365) - 1) / 4 < n ∧
      n ≤ ((n - 1) / 1461 * 4 + 1 + (if (n - 1) % 1461 = 1460 then 3 else (n - 1) % 1461 / 365) + 1 - 1) * 365 +
      ((n - 1) / 1461 * 4 + 1 + (if (n - 1) % 1461 = 1460 then 3 else (n - 1) % 1461 / 365) + 1 - 1) / 4
    split_ifs with h <;> constructor <;> omega
  · show ((n - 1) / 365 + 1 - 1) * 365 < n ∧ n ≤ ((n - 1) / 365 + 1 + 1 - 1) * 365
    constructor <;> omega
  · show ((n - 1) / 366 + 1 - 1) * 366 < n ∧ n ≤ ((n - 1) / 366 + 1 + 1 - 1) * 366
    constructor <;> omega
  · show ((n - 1) / 360 + 1 - 1) * 360 < n ∧ n ≤ ((n - 1) / 360 + 1 + 1 - 1) * 360
    constructor <;> omega

theorem before_mono (c : Calendar) {a b : Int} (h : a ≤ b) : c.before a ≤ c.before b := by
  cases c
  · exact Cal.daysBeforeYear_mono h
  all_goals simp only [Calendar.before]; omega

theorem year_unique (c : Calendar) {n y : Int} (h1 : c.before y < n) (h2 : n ≤ c.before (y + 1)) : c.year n = y := by
  obtain ⟨a, b⟩ := year_spec c n
  rcases lt_trichotomy (c.year n) y with h | h | h
  · have := before_mono c (show c.year n + 1 ≤ y by omega); omega
  · exact h
  · have := before_mono c (show y + 1 ≤ c.year n by omega); omega

/-- The lists of month lengths there are. -/
theorem months_cases (c : Calendar) (y : Int) :
    c.months y = Cal.monthLens true ∨ c.months y = Cal.monthLens false ∨ c.months y = List.replicate 12 30 := by
  have key : ∀ b : Bool, Cal.monthLens b = Cal.monthLens true ∨ Cal.monthLens b = Cal.monthLens false ∨
      Cal.monthLens b = List.replicate 12 30 := by decide
  cases c
  · exact key _
  · exact key _
  · exact Or.inr (Or.inl rfl)
  · exact Or.inl rfl
  · exact Or.inr (Or.inr rfl)

theorem walk_months : ∀ l ∈ [Cal.monthLens true, Cal.monthLens false, List.replicate 12 30],
    (∀ m < 12, ∀ d < l.getD m 0, Cal.walk 1 ((l.take m).sum + d) l = (m + 1, d + 1) ∧ (l.take m).sum + d < l.sum) ∧
    (∀ k < l.sum, (l.take ((Cal.walk 1 k l).1 - 1)).sum + (Cal.walk 1 k l).2 = k + 1 ∧
      1 ≤ (Cal.walk 1 k l).1 ∧ (Cal.walk 1 k l).1 ≤ 12 ∧ 1 ≤ (Cal.walk 1 k l).2 ∧
      (Cal.walk 1 k l).2 ≤ l.getD ((Cal.walk 1 k l).1 - 1) 0) := by
  decide +kernel

theorem months_mem (c : Calendar) (y : Int) :
    c.months y ∈ [Cal.monthLens true, Cal.monthLens false, List.replicate 12 30] := by
  rcases months_cases c y with h | h | h <;> rw [h] <;> simp

/-- Numbering a date and dating the number gives the date back. -/
theorem date_number {c : Calendar} {ord n : Int} (h : c.number ord = .ok n) :
    c.date n = (Cal.yearOf ord, Cal.monthDay ord) := by
  unfold Calendar.number at h
  simp only at h
  split at h
  case isFalse => cases h
  rename_i hd
  have hn := Except.ok.inj h
  obtain ⟨b1, b2, b3, -⟩ := Cal.month_bounds ord
  generalize hy : Cal.yearOf ord = y at hd hn
  generalize hmd : Cal.monthDay ord = md at hd hn b1 b2 b3
  obtain ⟨w1, w2⟩ := (walk_months _ (months_mem c y)).1 (md.1 - 1) (by omega) (md.2 - 1) (by omega)
  have hyr : c.year n = y := by
    apply year_unique
    · omega
    · rw [before_succ]; unfold Calendar.len; omega
  unfold Calendar.date
  rw [hyr]
  have : (n - c.before y - 1).toNat = ((c.months y).take (md.1 - 1)).sum + (md.2 - 1) := by omega
  simp only [this, w1, Prod.mk.injEq, true_and]
  ext <;> simp <;> omega

/-- Dating a number gives a date of that calendar. -/
theorem date_valid (c : Calendar) (n : Int) :
    1 ≤ (c.date n).2.1 ∧ (c.date n).2.1 ≤ 12 ∧ 1 ≤ (c.date n).2.2 ∧
    (c.date n).2.2 ≤ (c.months (c.date n).1).getD ((c.date n).2.1 - 1) 0 ∧
    n = c.before (c.date n).1 + (((c.months (c.date n).1).take ((c.date n).2.1 - 1)).sum : Nat) + (c.date n).2.2 := by
  obtain ⟨h1, h2⟩ := year_spec c n
  rw [before_succ] at h2
  unfold Calendar.len at h2
  have hk : (n - c.before (c.year n) - 1).toNat < (c.months (c.year n)).sum := by omega
  obtain ⟨w1, w2, w3, w4, w5⟩ := (walk_months _ (months_mem c (c.year n))).2 _ hk
  unfold Calendar.date
  simp only
  refine ⟨w2, w3, w4, w5, ?_⟩
  omega

/-- A day keeps its name: what is numbered comes back as the same day. -/
theorem standard_number {c : Calendar} {ord n : Int} (h : c.number ord = .ok n) : c.standard n = .ok ord := by
  unfold Calendar.standard toStandard
  rw [date_number h]
  have := Cal.day_le_monthLen ord
  rw [← List.getD_eq_getElem?_getD] at this
  simp only
  rw [if_pos this, Cal.ofCivil_fields]

/-- … and the other way round. -/
theorem number_standard {c : Calendar} {ord n : Int} (h : c.standard n = .ok ord) : c.number ord = .ok n := by
  obtain ⟨d1, d2, d3, d4, d5⟩ := date_valid c n
  unfold Calendar.standard toStandard at h
  split at h
  case isFalse => cases h
  rename_i hd
  have ho := Except.ok.inj h
  obtain ⟨f1, f2⟩ := Cal.fields_ofCivil d1 d2 d3 (by rw [← List.getD_eq_getElem?_getD]; exact hd)
  rw [ho] at f1 f2
  unfold Calendar.number
  simp only [f1, f2]
  rw [if_pos d4, ← d5]

/-! ### Later days have larger numbers -/

/-- `(y, m, d)` is before `(y', m', d')`. -/
def Earlier (a b : Int × Nat × Nat) : Prop :=
  a.1 < b.1 ∨ a.1 = b.1 ∧ (a.2.1 < b.2.1 ∨ a.2.1 = b.2.1 ∧ a.2.2 < b.2.2)

theorem months_step : ∀ l ∈ [Cal.monthLens true, Cal.monthLens false, List.replicate 12 30], ∀ m < 12, ∀ m' ≤ 12,
    (m < m' → (l.take m).sum + l.getD m 0 ≤ (l.take m').sum) ∧ (l.take m).sum + l.getD m 0 ≤ l.sum := by
  decide +kernel

/-- The calendar has the date. -/
def Calendar.Has (c : Calendar) (a : Int × Nat × Nat) : Prop :=
  1 ≤ a.2.1 ∧ a.2.1 ≤ 12 ∧ 1 ≤ a.2.2 ∧ a.2.2 ≤ (c.months a.1).getD (a.2.1 - 1) 0

theorem place_lt {c : Calendar} {a b : Int × Nat × Nat} (ha : c.Has a) (hb : c.Has b) (h : Earlier a b) : c.place a < c.place b := by
  obtain ⟨y, m, d⟩ := a
  obtain ⟨y', m', d'⟩ := b
  unfold Calendar.Has at ha hb
  unfold Calendar.place
  simp only at ha hb ⊢
  obtain ⟨a1, a2, a3, a4⟩ := ha
  obtain ⟨b1, b2, b3, b4⟩ := hb
  rcases h with h | ⟨rfl, h | ⟨rfl, h⟩⟩
  · simp only at h
    have s := (months_step _ (months_mem c y) (m - 1) (by omega) 0 (by omega)).2
    have := before_mono c (show y + 1 ≤ y' by omega)
    rw [before_succ] at this
    unfold Calendar.len at this
    omega
  · simp only at h
    have s := (months_step _ (months_mem c y) (m - 1) (by omega) (m' - 1) (by omega)).1 (by omega)
    simp only
    omega
  · simp only at h ⊢
    omega

theorem earlier_total (a b : Int × Nat × Nat) : Earlier a b ∨ a = b ∨ Earlier b a := by
  obtain ⟨y, m, d⟩ := a
  obtain ⟨y', m', d'⟩ := b
  unfold Earlier
  simp only [Prod.mk.injEq]
  omega

/-- A day of the standard calendar. -/
def fields (ord : Int) : Int × Nat × Nat := (Cal.yearOf ord, Cal.monthDay ord)

theorem has_fields (ord : Int) : Calendar.gregorian.Has (fields ord) := by
  obtain ⟨b1, b2, b3, -⟩ := Cal.month_bounds ord
  refine ⟨b1, b2, b3, ?_⟩
  have := Cal.day_le_monthLen ord
  rwa [← List.getD_eq_getElem?_getD] at this

theorem place_fields (ord : Int) : Calendar.gregorian.place (fields ord) = ord := Cal.ofCivil_fields ord

theorem number_ok {c : Calendar} {ord n : Int} : c.number ord = .ok n ↔ c.Has (fields ord) ∧ n = c.place (fields ord) := by
  obtain ⟨b1, b2, b3, -⟩ := Cal.month_bounds ord
  unfold Calendar.number
  simp only
  split
  · rename_i h
    constructor
    · intro e
      exact ⟨⟨b1, b2, b3, h⟩, (Except.ok.inj e).symm⟩
    · rintro ⟨-, rfl⟩; rfl
  · rename_i h
    constructor
    · intro e; cases e
    · rintro ⟨⟨-, -, -, h'⟩, -⟩; exact absurd h' h

theorem earlier_of_lt {x y : Int} (h : x < y) : Earlier (fields x) (fields y) := by
  rcases earlier_total (fields x) (fields y) with e | e | e
  · exact e
  · have := congrArg Calendar.gregorian.place e
    rw [place_fields, place_fields] at this
    omega
  · have := place_lt (has_fields y) (has_fields x) e
    rw [place_fields, place_fields] at this
    omega

/-- A later day has a larger number. -/
theorem number_lt {c : Calendar} {x y n m : Int} (hx : c.number x = .ok n) (hy : c.number y = .ok m) (h : x < y) : n < m := by
  obtain ⟨h1, rfl⟩ := number_ok.1 hx
  obtain ⟨h2, rfl⟩ := number_ok.1 hy
  exact place_lt h1 h2 (earlier_of_lt h)

theorem standard_lt {c : Calendar} {x y n m : Int} (hn : c.standard n = .ok x) (hm : c.standard m = .ok y) (h : n < m) : x < y := by
  have h1 := number_standard hn
  have h2 := number_standard hm
  rcases lt_trichotomy x y with e | e | e
  · exact e
  · subst e
    rw [h1] at h2
    have := Except.ok.inj h2
    omega
  · have := number_lt h2 h1 e
    omega

/-! ### Stamps in files -/

theorem encode_ok {calendar : String} {t m : Int} : encode calendar t = .ok m ↔
    ∃ c n, named calendar = some c ∧ c.number (t / 1440 + origin) = .ok n ∧ m = 1440 * (n - c.place (2000, 1, 1)) + t % 1440 := by
  unfold encode
  cases hc : named calendar with
  | none => simp
  | some c =>
    unfold Calendar.minutes
    cases hn : c.number (t / 1440 + origin) with
    | error e => simp [hn, bind, Except.bind]
    | ok n =>
      simp only [bind, Except.bind, pure, Except.pure, Except.ok.injEq, Option.some.injEq, exists_and_left, exists_eq_left', hn]
      constructor <;> intro h <;> omega

/-- What is written is read back. -/
theorem decode_encode {calendar : String} {t m : Int} (h : encode calendar t = .ok m) : decode calendar m = .ok t := by
  obtain ⟨c, n, hc, hn, rfl⟩ := encode_ok.1 h
  unfold decode
  rw [hc]
  simp only
  rw [show (1440 * (n - c.place (2000, 1, 1)) + t % 1440) / 1440 + c.place (2000, 1, 1) = n by omega, standard_number hn]
  simp only [bind, Except.bind, pure, Except.pure, Except.ok.injEq]
  omega

theorem gregorian_number (ord : Int) : Calendar.gregorian.number ord = .ok ord :=
  number_ok.2 ⟨has_fields ord, (place_fields ord).symm⟩

/-- On the standard calendar stamps are written as they are. -/
theorem encode_gregorian {calendar : String} (h : named calendar = some .gregorian) (t : Int) : encode calendar t = .ok t := by
  refine encode_ok.2 ⟨_, _, h, gregorian_number _, ?_⟩
  rw [show Calendar.gregorian.place (2000, 1, 1) = 730120 by decide +kernel]
  unfold origin
  omega

theorem months_sum : ∀ l ∈ [Cal.monthLens true, Cal.monthLens false, List.replicate 12 30], l.sum ≤ 366 := by decide

/-- Stamps within 3 800 years of 2000 are written in 32 bits. -/
theorem encode_bound {calendar : String} {t m : Int} (h : encode calendar t = .ok m) (h1 : -1400000 ≤ t / 1440)
    (h2 : t / 1440 ≤ 1400000) : -2147483648 ≤ m ∧ m < 2147483648 := by
  obtain ⟨c, n, hc, hn, rfl⟩ := encode_ok.1 h
  obtain ⟨⟨a1, a2, a3, a4⟩, rfl⟩ := number_ok.1 hn
  have hy := Cal.yearOf_spec (t / 1440 + origin)
  have hm := (months_step _ (months_mem c (fields (t / 1440 + origin)).1) ((fields (t / 1440 + origin)).2.1 - 1) (by omega) 0 (by omega)).2
  have hs := months_sum _ (months_mem c (fields (t / 1440 + origin)).1)
  have h0 : c.place (2000, 1, 1) = c.before 2000 + 1 := by simp [Calendar.place]
  rw [h0]
  unfold Calendar.place
  generalize hf : fields (t / 1440 + origin) = f at *
  have hf1 : f.1 = Cal.yearOf (t / 1440 + origin) := by rw [← hf]; rfl
  rw [← hf1] at hy
  unfold Cal.daysBeforeYear origin at hy
  cases c <;> simp only [Calendar.before, Cal.daysBeforeYear] at * <;> omega

end Verif.CfTime
