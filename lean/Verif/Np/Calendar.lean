import Mathlib.Tactic.Ring
import Mathlib.Tactic.Linarith
import Mathlib.Tactic.IntervalCases
import Mathlib.Tactic.SplitIfs

/-!
# The proleptic Gregorian calendar

`datetime` / `pandas` date fields as used by `/repo/metsim` (`.year`, `.month`, `.day`,
`.dayofyear`).  A day is its ordinal: day 1 is 0001-01-01 (`datetime.toordinal`).
-/

namespace Verif.Cal

/-- `calendar.isleap`. -/
def leap (y : Int) : Bool := y % 4 == 0 && (y % 100 != 0 || y % 400 == 0)

/-- Length of a year in days. -/
def yearLen (y : Int) : Int := if leap y then 366 else 365

/-- CPython `_days_before_year`. -/
def daysBeforeYear (y : Int) : Int := (y - 1) * 365 + (y - 1) / 4 - (y - 1) / 100 + (y - 1) / 400

/-- The year of a day (CPython `_ord2ymd`). -/
def yearOf (ord : Int) : Int :=
  let n := ord - 1
  let n400 := n / 146097
  let n := n % 146097
  let n100 := n / 36524
  let n := n % 36524
  let n4 := n / 1461
  let n := n % 1461
  let n1 := n / 365
  let y := n400 * 400 + 1 + n100 * 100 + n4 * 4 + n1
  if n1 = 4 ∨ n100 = 4 then y - 1 else y

/-- `.dayofyear` (1-based). -/
def dayOfYear (ord : Int) : Int := ord - daysBeforeYear (yearOf ord)

/-- Month lengths. -/
def monthLens (l : Bool) : List Nat := [31, if l then 29 else 28, 31, 30, 31, 30, 31, 31, 30, 31, 30, 31]

/-- Walk the months: `k` days (0-based) into the list of month lengths gives (month, day), 1-based. -/
def walk : Nat → Nat → List Nat → Nat × Nat
  | m, k, [] => (m, k + 1)
  | m, k, l :: ls => if k < l then (m, k + 1) else walk (m + 1) (k - l) ls

/-- `.month` and `.day`. -/
def monthDay (ord : Int) : Nat × Nat :=
  walk 1 (dayOfYear ord - 1).toNat (monthLens (leap (yearOf ord)))

/-- The day number of a civil date (inverse of the above). -/
def ofCivil (y : Int) (m d : Nat) : Int :=
  daysBeforeYear y + (((monthLens (leap y)).take (m - 1)).sum : Nat) + d

theorem leap_iff (y : Int) : leap y = true ↔ y % 4 = 0 ∧ (y % 100 ≠ 0 ∨ y % 400 = 0) := by
  simp [leap]

theorem daysBeforeYear_succ (y : Int) : daysBeforeYear (y + 1) = daysBeforeYear y + yearLen y := by
  unfold daysBeforeYear yearLen
  have : leap y = true ∨ leap y = false := by cases leap y <;> simp
  rcases this with h | h
  · have h' := (leap_iff y).1 h
    simp only [h, if_true]
    omega
  · have h' : ¬ (y % 4 = 0 ∧ (y % 100 ≠ 0 ∨ y % 400 = 0)) := by rw [← leap_iff]; simp [h]
    simp only [h]
    simp only [Bool.false_eq_true, if_false]
    omega

/-- The year found is the one whose days include the given day. -/
theorem yearOf_spec (ord : Int) :
    daysBeforeYear (yearOf ord) < ord ∧ ord ≤ daysBeforeYear (yearOf ord + 1) := by
  unfold yearOf daysBeforeYear
  simp only []
  generalize h400 : (ord - 1) / 146097 = a
  generalize hn1 : (ord - 1) % 146097 = n1
  generalize h100 : n1 / 36524 = b
  generalize hn2 : n1 % 36524 = n2
  generalize h4 : n2 / 1461 = c
  generalize hn3 : n2 % 1461 = n3
  generalize h1 : n3 / 365 = d
  have hb : 0 ≤ b ∧ b ≤ 4 := by omega
  have hc : 0 ≤ c ∧ c ≤ 24 := by omega
  have hd : 0 ≤ d ∧ d ≤ 4 := by omega
  obtain ⟨hb0, hb4⟩ := hb
  obtain ⟨hd0, hd4⟩ := hd
  split_ifs with h
  · rcases h with rfl | rfl
    · constructor <;> interval_cases b <;> omega
    · constructor <;> omega
  · constructor <;> interval_cases b <;> interval_cases d <;> omega

theorem dayOfYear_bounds (ord : Int) : 1 ≤ dayOfYear ord ∧ dayOfYear ord ≤ yearLen (yearOf ord) := by
  have := yearOf_spec ord
  rw [daysBeforeYear_succ] at this
  unfold dayOfYear
  omega

theorem walk_spec : ∀ l, ∀ k < (if l then 366 else 365),
    ((monthLens l).take ((walk 1 k (monthLens l)).1 - 1)).sum + (walk 1 k (monthLens l)).2 = k + 1 ∧
    1 ≤ (walk 1 k (monthLens l)).1 ∧ (walk 1 k (monthLens l)).1 ≤ 12 ∧
    1 ≤ (walk 1 k (monthLens l)).2 ∧ (walk 1 k (monthLens l)).2 ≤ 31 := by
  decide +kernel

/-- Civil fields determine the day. -/
theorem ofCivil_fields (ord : Int) :
    ofCivil (yearOf ord) (monthDay ord).1 (monthDay ord).2 = ord := by
  have hb := dayOfYear_bounds ord
  unfold ofCivil monthDay
  generalize hl : leap (yearOf ord) = l
  have hk : (dayOfYear ord - 1).toNat < (if l then 366 else 365) := by
    unfold yearLen at hb; rw [hl] at hb
    cases l <;> simp at hb ⊢ <;> omega
  have := (walk_spec l _ hk).1
  unfold dayOfYear at *
  omega

theorem month_bounds (ord : Int) : 1 ≤ (monthDay ord).1 ∧ (monthDay ord).1 ≤ 12 ∧
    1 ≤ (monthDay ord).2 ∧ (monthDay ord).2 ≤ 31 := by
  have hb := dayOfYear_bounds ord
  unfold monthDay
  generalize hl : leap (yearOf ord) = l
  have hk : (dayOfYear ord - 1).toNat < (if l then 366 else 365) := by
    unfold yearLen at hb; rw [hl] at hb
    cases l <;> simp at hb ⊢ <;> omega
  exact (walk_spec l _ hk).2

theorem daysBeforeYear_mono {a b : Int} (h : a ≤ b) : daysBeforeYear a ≤ daysBeforeYear b := by
  unfold daysBeforeYear; omega

/-- The year is the only one whose days include the given day. -/
theorem yearOf_unique {ord y : Int} (h1 : daysBeforeYear y < ord) (h2 : ord ≤ daysBeforeYear (y + 1)) :
    yearOf ord = y := by
  obtain ⟨a, b⟩ := yearOf_spec ord
  rcases lt_trichotomy (yearOf ord) y with h | h | h
  · have := daysBeforeYear_mono (show yearOf ord + 1 ≤ y by omega); omega
  · exact h
  · have := daysBeforeYear_mono (show y + 1 ≤ yearOf ord by omega); omega

theorem walk_inverse : ∀ l : Bool, ∀ m < 12, ∀ d < (monthLens l)[m]?.getD 0,
    walk 1 (((monthLens l).take m).sum + d) (monthLens l) = (m + 1, d + 1) ∧
    ((monthLens l).take m).sum + d < (if l then 366 else 365) := by
  decide +kernel

theorem walk_day_le : ∀ l, ∀ k < (if l then 366 else 365),
    (walk 1 k (monthLens l)).2 ≤ (monthLens l)[(walk 1 k (monthLens l)).1 - 1]?.getD 0 := by
  decide +kernel

theorem day_le_monthLen (ord : Int) :
    (monthDay ord).2 ≤ (monthLens (leap (yearOf ord)))[(monthDay ord).1 - 1]?.getD 0 := by
  have hb := dayOfYear_bounds ord
  unfold monthDay
  generalize hl : leap (yearOf ord) = l
  have hk : (dayOfYear ord - 1).toNat < (if l then 366 else 365) := by
    unfold yearLen at hb; rw [hl] at hb
    cases l <;> simp at hb ⊢ <;> omega
  exact walk_day_le l _ hk

/-- The fields of the day of a civil date are that date. -/
theorem fields_ofCivil {y : Int} {m d : Nat} (hm1 : 1 ≤ m) (hm2 : m ≤ 12) (hd1 : 1 ≤ d)
    (hd2 : d ≤ (monthLens (leap y))[m - 1]?.getD 0) :
    yearOf (ofCivil y m d) = y ∧ monthDay (ofCivil y m d) = (m, d) := by
  obtain ⟨w1, w2⟩ := walk_inverse (leap y) (m - 1) (by omega) (d - 1) (by omega)
  have hy : yearOf (ofCivil y m d) = y := by
    apply yearOf_unique
    · unfold ofCivil; omega
    · rw [daysBeforeYear_succ]
      unfold ofCivil yearLen
      cases hl : leap y <;> simp only [hl] at w2 ⊢ <;> simp at w2 ⊢ <;> omega
  refine ⟨hy, ?_⟩
  unfold monthDay dayOfYear
  rw [hy]
  have : (ofCivil y m d - daysBeforeYear y - 1).toNat = ((monthLens (leap y)).take (m - 1)).sum + (d - 1) := by
    unfold ofCivil; omega
  rw [this, w1]
  ext <;> simp <;> omega

/-- 2000-01-01 -/
example : ofCivil 2000 1 1 = 730120 ∧ yearOf 730120 = 2000 ∧ monthDay 730120 = (1, 1) := by
  decide +kernel

end Verif.Cal
