import Verif.Lemmas.Calendars
import Verif.Props.MainExample
import Verif.Props.Vic

/-!
# C118: which days a run can start on, on each calendar
-/

namespace Verif.Props

open CfTime Datetime

/-! ## Days one after the other -/
namespace Calends

theorem fields_place {a : Int × Nat × Nat} (ha : Calendar.gregorian.Has a) : fields (Calendar.gregorian.place a) = a := by
  rcases earlier_total (fields (Calendar.gregorian.place a)) a with h | h | h
  · have := place_lt (has_fields _) ha h
    rw [place_fields] at this; omega
  · exact h
  · have := place_lt ha (has_fields _) h
    rw [place_fields] at this; omega

/-- The days of a month. -/
def len (c : Calendar) (y : Int) (m : Nat) : Nat := (c.months y).getD (m - 1) 0

theorem months_next : ∀ l ∈ [Cal.monthLens true, Cal.monthLens false, List.replicate 12 30], ∀ m < 11,
    (l.take (m + 1)).sum = (l.take m).sum + l.getD m 0 ∧ 0 < l.getD (m + 1) 0 := by decide +kernel

theorem months_last : ∀ l ∈ [Cal.monthLens true, Cal.monthLens false, List.replicate 12 30],
    l.sum = (l.take 11).sum + l.getD 11 0 ∧ 0 < l.getD 0 0 := by decide +kernel

/-- The day after a date. -/
def next (y : Int) (m d : Nat) : Int × Nat × Nat :=
  if d < len .gregorian y m then (y, m, d + 1) else if m < 12 then (y, m + 1, 1) else (y + 1, 1, 1)

/-- How far apart a calendar puts a day and the next one. -/
theorem place_next (c : Calendar) {y : Int} {m d : Nat} (h : c.Has (y, m, d)) :
    c.place (next y m d) = if d < len .gregorian y m then c.place (y, m, d) + 1
      else c.place (y, m, d) + (len c y m - d) + 1 := by
  obtain ⟨h1, h2, h3, h4⟩ := h
  simp only at h1 h2 h3 h4
  unfold next len Calendar.place
  split_ifs with g1 g2
  · simp only; push_cast; ring
  · obtain ⟨s, -⟩ := months_next _ (months_mem c y) (m - 1) (by omega)
    rw [show m - 1 + 1 = m by omega] at s
    simp only [Nat.add_sub_cancel]
    rw [s]
    push_cast; ring
  · obtain ⟨s, -⟩ := months_last _ (months_mem c y)
    obtain rfl : m = 12 := by omega
    simp only [before_succ, Calendar.len, s]
    push_cast
    simp
    ring

theorem has_next {y : Int} {m d : Nat} (h : Calendar.gregorian.Has (y, m, d)) : Calendar.gregorian.Has (next y m d) := by
  obtain ⟨h1, h2, h3, h4⟩ := h
  simp only at h1 h2 h3 h4
  unfold next
  split_ifs with g1 g2
  · exact ⟨h1, h2, by simp, g1⟩
  · obtain ⟨-, s⟩ := months_next _ (months_mem .gregorian y) (m - 1) (by omega)
    rw [show m - 1 + 1 = m by omega] at s
    exact ⟨by simp, by simp; omega, by simp, by simpa using Nat.succ_le_of_lt s⟩
  · exact ⟨by simp, by simp, by simp, (months_last _ (months_mem .gregorian (y + 1))).2⟩

theorem fields_succ (ord : Int) : fields (ord + 1) = next (Cal.yearOf ord) (Cal.monthDay ord).1 (Cal.monthDay ord).2 := by
  have h : Calendar.gregorian.Has (Cal.yearOf ord, (Cal.monthDay ord).1, (Cal.monthDay ord).2) := has_fields ord
  have h4 := h.2.2.2
  have e := place_next .gregorian h
  have : Calendar.gregorian.place (next (Cal.yearOf ord) (Cal.monthDay ord).1 (Cal.monthDay ord).2) = ord + 1 := by
    rw [e]
    rw [show Calendar.gregorian.place (Cal.yearOf ord, (Cal.monthDay ord).1, (Cal.monthDay ord).2) = ord from place_fields ord]
    simp only at h4
    unfold len
    split_ifs with g
    · rfl
    · omega
  rw [← this, fields_place (has_next h)]

/-- A calendar has the days from `a` to `b` one after the other exactly if it has each of them and, where a month ends among
them and goes on, gives the month its length. -/
theorem hasDays_iff {cal : String} {c : Calendar} (hp : cal ∉ pandasCalendars) (hc : named cal = some c) {a b : Int} :
    HasDays cal a b ↔ ∀ d, a ≤ d → d ≤ b →
      (Cal.monthDay (d + origin)).2 ≤ len c (Cal.yearOf (d + origin)) (Cal.monthDay (d + origin)).1 ∧
      (d < b → (Cal.monthDay (d + origin)).2 = len .gregorian (Cal.yearOf (d + origin)) (Cal.monthDay (d + origin)).1 →
        len c (Cal.yearOf (d + origin)) (Cal.monthDay (d + origin)).1 = (Cal.monthDay (d + origin)).2) := by
  have hhas : ∀ ord, c.Has (fields ord) ↔ (Cal.monthDay ord).2 ≤ len c (Cal.yearOf ord) (Cal.monthDay ord).1 := by
    intro ord
    obtain ⟨h1, h2, h3, -⟩ := has_fields ord
    exact ⟨fun h => h.2.2.2, fun h => ⟨h1, h2, h3, h⟩⟩
  have hlast : ∀ ord, (Cal.monthDay ord).2 ≤ len .gregorian (Cal.yearOf ord) (Cal.monthDay ord).1 := fun ord => (has_fields ord).2.2.2
  -- one step
  have hstep : ∀ ord, c.Has (fields ord) → (c.place (fields (ord + 1)) = c.place (fields ord) + 1 ↔
      ((Cal.monthDay ord).2 = len .gregorian (Cal.yearOf ord) (Cal.monthDay ord).1 →
        len c (Cal.yearOf ord) (Cal.monthDay ord).1 = (Cal.monthDay ord).2)) := by
    intro ord h
    have e := place_next c (show c.Has (Cal.yearOf ord, (Cal.monthDay ord).1, (Cal.monthDay ord).2) from h)
    rw [← fields_succ] at e
    have h' := (hhas ord).1 h
    have hl := hlast ord
    rw [e, show c.place (Cal.yearOf ord, (Cal.monthDay ord).1, (Cal.monthDay ord).2) = c.place (fields ord) from rfl]
    split_ifs with g
    · exact ⟨fun _ hq => absurd hq (by omega), fun _ => rfl⟩
    · constructor
      · intro q _; omega
      · intro q
        have := q (by omega)
        omega
  constructor
  · rintro (h | ⟨c', hc', k, hk⟩)
    · exact absurd h hp
    · obtain rfl : c = c' := Option.some.inj (hc.symm.trans hc')
      intro d h1 h2
      obtain ⟨q1, q2⟩ := number_ok.1 (hk d h1 h2)
      refine ⟨(hhas _).1 q1, fun h3 => (hstep _ q1).1 ?_⟩
      obtain ⟨-, q4⟩ := number_ok.1 (hk (d + 1) (by omega) (by omega))
      rw [show d + 1 + origin = d + origin + 1 by ring] at q4
      omega
  · intro h
    refine .inr ⟨c, hc, c.place (fields (a + origin)) - a, ?_⟩
    have key : ∀ j : Nat, a + j ≤ b → c.place (fields (a + j + origin)) = c.place (fields (a + origin)) + j := by
      intro j
      induction j with
      | zero => intro _; simp
      | succ j ih =>
        intro hj
        push_cast at hj
        have e := ih (by omega)
        obtain ⟨q1, q2⟩ := h (a + j) (by omega) (by omega)
        have := (hstep _ ((hhas _).2 q1)).2 (q2 (by omega))
        rw [show a + ((j + 1 : Nat) : Int) + origin = a + j + origin + 1 by push_cast; ring, this, e]
        push_cast; ring
    intro d h1 h2
    obtain ⟨j, hj⟩ := Int.eq_ofNat_of_zero_le (show 0 ≤ d - a by omega)
    obtain rfl : d = a + j := by omega
    refine number_ok.2 ⟨(hhas _).2 (h _ h1 h2).1, ?_⟩
    rw [key j h2]; ring

/-- Names that `cftime` takes for a calendar other than the Gregorian one are not sent to pandas. -/
theorem not_pandas {cal : String} {c : Calendar} (hc : named cal = some c) (hg : c ≠ .gregorian) : cal ∉ pandasCalendars := by
  intro h
  simp only [pandasCalendars, List.mem_cons, List.not_mem_nil, or_false] at h
  rcases h with rfl | rfl | rfl
  · exact hg (Option.some.inj (hc.symm.trans (by decide)))
  · exact hg (Option.some.inj (hc.symm.trans (by decide)))
  · exact absurd (hc.symm.trans (show named "propoleptic_gregorian" = none by decide)) (by simp)

/-- Month lengths of two years compared. -/
theorem lens_table : ∀ l : Bool, ∀ m, 1 ≤ m → m ≤ 12 →
    (Cal.monthLens l).getD (m - 1) 0 = (if m = 2 then (if l then 29 else 28) else (Cal.monthLens false).getD (m - 1) 0) ∧
    (m ≠ 2 → (Cal.monthLens l).getD (m - 1) 0 = 30 ∨ (Cal.monthLens l).getD (m - 1) 0 = 31) := by
  intro l m h1 h2
  interval_cases m <;> cases l <;> decide

theorem len_gregorian (y : Int) {m : Nat} (h1 : 1 ≤ m) (h2 : m ≤ 12) :
    len .gregorian y m = if m = 2 then (if Cal.leap y then 29 else 28) else (Cal.monthLens false).getD (m - 1) 0 :=
  (lens_table _ m h1 h2).1

end Calends

open Calends

/-- **C118**, the days of the calendars: `noleap` has the days of a period one after the other exactly if the 29th of February is not among
them, `all_leap` exactly if the period does not go on after a 28th of February that ends its month, `julian` likewise for years divisible by
four, and `360_day` exactly if no 31st is among them and the period does not go on after the end of a February. -/
theorem C118_days {cal : String} {c : Calendar} (hc : named cal = some c) (a b : Int) :
    (c = .gregorian → HasDays cal a b) ∧
    (c = .noleap → (HasDays cal a b ↔ ∀ d, a ≤ d → d ≤ b → Cal.monthDay (d + origin) ≠ (2, 29))) ∧
    (c = .allLeap → (HasDays cal a b ↔ ∀ d, a ≤ d → d < b →
      ¬ (Cal.monthDay (d + origin) = (2, 28) ∧ Cal.leap (Cal.yearOf (d + origin)) = false))) ∧
    (c = .julian → (HasDays cal a b ↔ ∀ d, a ≤ d → d < b →
      ¬ (Cal.monthDay (d + origin) = (2, 28) ∧ Cal.leap (Cal.yearOf (d + origin)) = false ∧ Cal.yearOf (d + origin) % 4 = 0))) ∧
    (c = .day360 → (HasDays cal a b ↔ ∀ d, a ≤ d → d ≤ b → (Cal.monthDay (d + origin)).2 ≠ 31 ∧
      (d < b → Cal.monthDay (d + origin) ≠ (2, if Cal.leap (Cal.yearOf (d + origin)) then 29 else 28)))) := by
  refine ⟨?_, ?_, ?_, ?_, ?_⟩ <;> rintro rfl
  · by_cases hp : cal ∈ pandasCalendars
    · exact .inl hp
    · refine (hasDays_iff hp hc).2 fun d _ _ => ⟨(has_fields _).2.2.2, fun _ h => h.symm⟩
  all_goals
    rw [hasDays_iff (not_pandas hc (by decide)) hc]
    refine forall_congr' fun d => ?_
    obtain ⟨m1, m2, k1, k2⟩ := has_fields (d + origin)
    replace k2 : (Cal.monthDay (d + origin)).2 ≤ len .gregorian (Cal.yearOf (d + origin)) (Cal.monthDay (d + origin)).1 := k2
    unfold fields at m1 m2 k1
    generalize Cal.yearOf (d + origin) = y at *
    generalize Cal.monthDay (d + origin) = md at *
    obtain ⟨m, k⟩ := md
    simp only at *
    rw [len_gregorian y m1 m2] at k2 ⊢
    have t := (lens_table false m m1 m2).2
  · have e : len .noleap y m = if m = 2 then 28 else (Cal.monthLens false).getD (m - 1) 0 := (lens_table false m m1 m2).1
    rw [e]
    by_cases h2 : m = 2
    · subst h2
      cases hy : Cal.leap y <;> simp [hy] at k2 ⊢ <;> omega
    · simp [h2] at k2 ⊢; omega
  · have e : len .allLeap y m = if m = 2 then 29 else (Cal.monthLens false).getD (m - 1) 0 := (lens_table true m m1 m2).1
    rw [e]
    by_cases h2 : m = 2
    · subst h2
      cases hy : Cal.leap y <;> simp [hy] at k2 ⊢ <;> omega
    · simp [h2] at k2 ⊢; omega
  · have e : len .julian y m = if m = 2 then (if y % 4 == 0 then 29 else 28) else (Cal.monthLens false).getD (m - 1) 0 :=
      (lens_table (y % 4 == 0) m m1 m2).1
    have hl : Cal.leap y = true → y % 4 = 0 := fun h => ((Cal.leap_iff y).1 h).1
    rw [e]
    by_cases h2 : m = 2
    · subst h2
      by_cases h4 : y % 4 = 0
      · cases hy : Cal.leap y <;> simp [h4, hy] at k2 ⊢ <;> omega
      · have hy : Cal.leap y = false := by
          cases h : Cal.leap y
          · rfl
          · exact absurd (hl h) h4
        have : ¬ 4 ∣ y := fun h => h4 (Int.emod_eq_zero_of_dvd h)
        simp [h4, hy] at k2 ⊢; omega
    · simp [h2] at k2 ⊢; omega
  · have e : len .day360 y m = 30 := by
      unfold len
      show (List.replicate 12 30).getD (m - 1) 0 = 30
      interval_cases m <;> rfl
    rw [e]
    by_cases h2 : m = 2
    · subst h2
      cases hy : Cal.leap y <;> simp [hy] at k2 ⊢ <;> omega
    · have t := t h2
      simp only [h2, if_false, ne_eq, Prod.mk.injEq, false_and, not_false_eq_true, implies_true, and_true] at k2 ⊢
      omega

/-! ## The ninety days before a run -/

open Worker in
/-- Ninety days of state and as many dates: the calendar has the ninety days before the start. -/
theorem Calends.of_record {cal : String} {start : Int} {record : List Int} (h : recordDates cal start = .ok record)
    (hl : record.length = 90) : HasDays cal (start - 90 - origin) (start - 1 - origin) := by
  unfold recordDates at h
  rw [bind_ok] at h
  obtain ⟨r, h1, h2⟩ := h
  rw [pure_ok] at h2
  refine regular_of_length (ts := 1440) ⟨by decide, by decide⟩ (l := r) (by omega) ?_ ?_
  · rw [← h1]
    congr 1
    omega
  · rw [← h2, List.length_map] at hl
    rw [hl]
    have : (start - 1 - origin - (start - 90 - origin) + 1).toNat = 90 := by omega
    rw [this]

theorem Calends.of_aggregate {ι : Type} {n : Nat} {record : List Int} {a b : Int} {days : List Int} {cells : List ι}
    {st met : ι → State.Daily ℝ} {r : ι → State.Agg ℝ} (h : State.aggregateState n record a b days cells st met = .ok r) :
    record.length = 90 := by
  unfold State.aggregateState at h
  by_cases h1 : n ≠ 90
  · simp [h1, bind, Except.bind, throw, throwThe, MonadExceptOf.throw] at h
  · rw [not_not] at h1
    by_cases h2 : record.length ≠ n
    · simp [h1, h2, bind, Except.bind, throw, throwThe, MonadExceptOf.throw, pure, Except.pure] at h
      split_ifs at h
      omega
    · omega

open Worker in
/-- **C118**: a worker that has loaded its inputs runs on a calendar that has the ninety days before the start, one after the other. -/
theorem C118_load {i : Inputs} {s : Cell.Shared} {chunk : Dict String Chunk.Slice} {w : Loads} (h : load i s chunk = .ok w) :
    HasDays s.calendar (i.start - 90 - origin) (i.start - 1 - origin) := by
  unfold load at h
  simp only [bind_ok] at h
  obtain ⟨dom, -, met0, -, met, -, -, -, st, -, mask, -, record, hr, old, -, new, -, agg, ha, -⟩ := h
  exact of_record hr (of_aggregate ha)

/-- **C118**: so does one that reads files for single cells. -/
theorem C118_vic {fs : Vic.Files} {v : Vic.Inputs} {s : Cell.Shared} {chunk : Dict String Chunk.Slice} {w : Worker.Loads}
    (h : Vic.load fs v s chunk = .ok w) : HasDays s.calendar (v.start - 90 - origin) (v.start - 1 - origin) := by
  unfold Vic.load at h
  simp only [bind_ok] at h
  obtain ⟨dom, -, met0, -, met, -, -, -, st, -, mask, -, record, hr, old, -, new, -, agg, ha, -⟩ := h
  exact of_record hr (of_aggregate ha)

open Worker Dataset in
/-- **C118**: files that are complete otherwise can be loaded exactly if the calendar has the ninety days before the start. -/
theorem C118_iff_partial {i : Inputs} {s : Cell.Shared} {whole : DS ℝ} {mask : Arr ℝ} {n : Nat} (hi : Sound i)
    (hsrc : HasDays s.calendar (i.start - 90 - origin) (i.start - 1 - origin) → Sources i s whole mask n) :
    (∃ w, load i s [] = .ok w) ↔ HasDays s.calendar (i.start - 90 - origin) (i.start - 1 - origin) := by
  constructor
  · rintro ⟨w, h⟩
    exact C118_load h
  · intro h
    obtain ⟨w, hw, -⟩ := C90_loads hi (hsrc h)
    exact ⟨w, hw⟩

/-- Among 62 days there is a 31st. -/
theorem Calends.has_31st (ord : Int) : ∃ k : Nat, k < 62 ∧ (Cal.monthDay (ord + k)).2 = 31 := by
  obtain ⟨m1, m2, k1, k2⟩ := has_fields ord
  have p := place_fields ord
  unfold fields at m1 m2 k1 k2 p
  generalize Cal.yearOf ord = y at *
  generalize Cal.monthDay ord = md at *
  obtain ⟨m, d⟩ := md
  simp only at m1 m2 k1 k2
  have key : ∀ l : Bool, ∀ m < 12, (Cal.monthLens l).getD m 0 = 31 ∨ (m + 1 < 12 ∧ (Cal.monthLens l).getD (m + 1) 0 = 31 ∧
      ((Cal.monthLens l).take (m + 1)).sum = ((Cal.monthLens l).take m).sum + (Cal.monthLens l).getD m 0 ∧
      (Cal.monthLens l).getD m 0 ≤ 30) := by decide
  have at31 : ∀ m', 1 ≤ m' → m' ≤ 12 → (Calendar.gregorian.months y).getD (m' - 1) 0 = 31 →
      (Cal.monthDay (Calendar.gregorian.place (y, m', 31))).2 = 31 := by
    intro m' g1 g2 g3
    have := fields_place (a := (y, m', 31)) ⟨g1, g2, by simp, by simp only; omega⟩
    exact congrArg (fun q => q.2.2) this
  rcases key (Cal.leap y) (m - 1) (by omega) with h | ⟨h0, h, hs, hle⟩
  · refine ⟨31 - d, by omega, ?_⟩
    have e : ord + (31 - d : Nat) = Calendar.gregorian.place (y, m, 31) := by
      rw [← p]
      have : d ≤ 31 := by
        have : (Calendar.gregorian.months y).getD (m - 1) 0 = 31 := h
        omega
      unfold Calendar.place
      simp only
      push_cast [this]
      ring
    rw [e]
    exact at31 m m1 m2 h
  · have hd : d ≤ (Cal.monthLens (Cal.leap y)).getD (m - 1) 0 := k2
    refine ⟨(Cal.monthLens (Cal.leap y)).getD (m - 1) 0 - d + 31, by omega, ?_⟩
    have e : ord + ((Cal.monthLens (Cal.leap y)).getD (m - 1) 0 - d + 31 : Nat) = Calendar.gregorian.place (y, m + 1, 31) := by
      rw [← p]
      unfold Calendar.place
      simp only [Nat.add_sub_cancel]
      rw [show m - 1 + 1 = m by omega] at hs
      have hs' : ((Calendar.gregorian.months y).take m).sum =
        ((Calendar.gregorian.months y).take (m - 1)).sum + (Cal.monthLens (Cal.leap y)).getD (m - 1) 0 := hs
      rw [hs']
      push_cast [hd]
      ring
    rw [e]
    refine at31 (m + 1) (by omega) (by omega) ?_
    rw [show m + 1 - 1 = m - 1 + 1 by omega]
    exact h

/-- **C118**: no calendar of 360 days has ninety days in a row. -/
theorem Calends.no_360 {cal : String} (hc : named cal = some .day360) (start : Int) :
    ¬ HasDays cal (start - 90 - origin) (start - 1 - origin) := by
  intro h
  obtain ⟨k, hk, e⟩ := has_31st (start - 90)
  have := ((C118_days hc _ _).2.2.2.2 rfl).1 h (start - 90 - origin + k) (by omega) (by omega)
  rw [show start - 90 - origin + k + origin = start - 90 + k by ring] at this
  exact this.1 e

/-- **C118**: what this means for the start of a run.  On `360_day` and on names that are no calendars there is none; on `noleap` no
29th of February may be among the ninety days before; on `all_leap` no end of a February of 28 days, unless the run starts with the
day after it. -/
theorem C118_start {cal : String} {start : Int} (h : HasDays cal (start - 90 - origin) (start - 1 - origin)) :
    (cal ∈ pandasCalendars ∨ named cal ≠ none) ∧ named cal ≠ some .day360 ∧
    (named cal = some .noleap → (∀ k : Nat, 1 ≤ k → k ≤ 90 → Cal.monthDay (start - k) ≠ (2, 29)) ∧
      ∀ y, Cal.leap y = true → ¬ (Cal.ofCivil y 3 1 ≤ start ∧ start ≤ Cal.ofCivil y 5 29)) ∧
    (named cal = some .allLeap → ∀ k : Nat, 2 ≤ k → k ≤ 90 →
      ¬ (Cal.monthDay (start - k) = (2, 28) ∧ Cal.leap (Cal.yearOf (start - k)) = false)) := by
  refine ⟨?_, fun hc => no_360 hc start h, fun hc => ?_, fun hc k k1 k2 => ?_⟩
  · rcases h with h | ⟨c, hc, -⟩
    · exact .inl h
    · exact .inr (by rw [hc]; simp)
  · have h' : ∀ k : Nat, 1 ≤ k → k ≤ 90 → Cal.monthDay (start - k) ≠ (2, 29) := by
      intro k k1 k2
      have := ((C118_days hc _ _).2.1 rfl).1 h (start - k - origin) (by omega) (by omega)
      rwa [show start - k - origin + origin = start - k by ring] at this
    refine ⟨h', fun y hy => ?_⟩
    rintro ⟨a1, a2⟩
    have e1 : Cal.ofCivil y 3 1 = Cal.ofCivil y 2 29 + 1 := by
      unfold Cal.ofCivil Cal.monthLens; rw [hy]; simp; ring
    have e2 : Cal.ofCivil y 5 29 = Cal.ofCivil y 2 29 + 90 := by
      unfold Cal.ofCivil Cal.monthLens; rw [hy]; simp; ring
    obtain ⟨k, hk⟩ := Int.eq_ofNat_of_zero_le (show 0 ≤ start - Cal.ofCivil y 2 29 by omega)
    refine h' k (by omega) (by omega) ?_
    have hf := fields_place (a := (y, 2, 29)) ⟨by simp, by simp, by simp, by
      show 29 ≤ (Cal.monthLens (Cal.leap y)).getD 1 0
      rw [hy]; decide⟩
    have e3 : Calendar.gregorian.place (y, 2, 29) = Cal.ofCivil y 2 29 := rfl
    rw [e3] at hf
    rw [show start - k = Cal.ofCivil y 2 29 by omega]
    exact congrArg Prod.snd hf
  · have := ((C118_days hc _ _).2.2.1 rfl).1 h (start - k - origin) (by omega) (by omega)
    rwa [show start - k - origin + origin = start - k by ring] at this

/-- **C118**: a run that has come to its end started on such a day of its calendar. -/
theorem C118_run {w : Main.World} {fuel : Nat} {p : ConfigRead.Conf} {order : List (Dict String Chunk.Slice)} {dir : Nc.Dir}
    (ho : order ≠ []) (h : Main.simulate w fuel p order = .ok dir) :
    ∃ su pa, ConfigRead.use w.cfg Units.importAttrs p = .ok su ∧ Main.construct w su = .ok pa ∧
      HasDays pa.shared.calendar (pa.start - 90 - origin) (pa.start - 1 - origin) := by
  unfold Main.simulate at h
  simp only [bind_ok] at h
  obtain ⟨su, hu, pa, hc, freq, -, st, -, -, -, os, -, mask, -, h⟩ := h
  refine ⟨su, pa, hu, hc, ?_⟩
  split at h
  · exact absurd h (by simp [throw, throwThe, MonadExceptOf.throw, bind, Except.bind])
  rw [bind_ok] at h
  obtain ⟨cr, -, h⟩ := h
  obtain ⟨chunk, rest, rfl⟩ := List.exists_cons_of_ne_nil ho
  rw [List.foldlM_cons, bind_ok] at h
  obtain ⟨d1, hd, -⟩ := h
  unfold Main.worker at hd
  simp only [bind_ok] at hd
  obtain ⟨i, hi, ld, hl, -⟩ := hd
  unfold Main.inputs at hi
  simp only [bind_ok, pure_ok] at hi
  obtain ⟨_, -, _, -, _, -, _, -, _, -, _, -, rfl⟩ := hi
  exact C118_load hl

/-- **C118**: the same of a run over files for single cells. -/
theorem C118_run_vic {w : Main.World} {fs : Vic.Files} {fuel : Nat} {p : ConfigRead.Conf} {order : List (Dict String Chunk.Slice)}
    {dir : Nc.Dir} (ho : order ≠ []) (h : Vic.simulate w fs fuel p order = .ok dir) :
    ∃ su pa, ConfigRead.use w.cfg Units.importAttrs p = .ok su ∧ Vic.construct w fs su = .ok pa ∧
      HasDays pa.shared.calendar (pa.start - 90 - origin) (pa.start - 1 - origin) := by
  unfold Vic.simulate at h
  simp only [bind_ok] at h
  obtain ⟨su, hu, pa, hc, freq, -, st, -, -, -, os, -, mask, -, h⟩ := h
  refine ⟨su, pa, hu, hc, ?_⟩
  split at h
  · exact absurd h (by simp [throw, throwThe, MonadExceptOf.throw, bind, Except.bind])
  rw [bind_ok] at h
  obtain ⟨cr, -, h⟩ := h
  obtain ⟨chunk, rest, rfl⟩ := List.exists_cons_of_ne_nil ho
  rw [List.foldlM_cons, bind_ok] at h
  obtain ⟨d1, hd, -⟩ := h
  unfold Vic.worker at hd
  simp only [bind_ok] at hd
  obtain ⟨i, hi, ld, hl, -⟩ := hd
  unfold Vic.inputs at hi
  simp only [bind_ok, pure_ok] at hi
  obtain ⟨_, -, _, -, _, -, _, -, _, -, _, -, rfl⟩ := hi
  exact C118_vic hl

/-- The names of a calendar in the CF conventions. -/
def cfNames : Calendar → List String
  | .gregorian => ["standard", "gregorian", "proleptic_gregorian"]
  | .julian => ["julian"]
  | .noleap => ["noleap", "365_day"]
  | .allLeap => ["all_leap", "366_day"]
  | .day360 => ["360_day"]

/-- **C118**: a calendar is known by its names in the CF conventions, in capitals or not, and by no others; stamps of a calendar
without such a name are not read. -/
theorem C118_names (s : String) (c : Calendar) :
    (named s = some c ↔ String.ofList (Txt.lower s.toList) ∈ cfNames c) ∧
    ((∀ c, String.ofList (Txt.lower s.toList) ∉ cfNames c) → ∀ m, CfTime.decode s m = .error .valueError ∧
      CfTime.encode s m = .error .valueError) := by
  have key : ∀ c, named s = some c ↔ String.ofList (Txt.lower s.toList) ∈ cfNames c := by
    intro c
    unfold named
    generalize String.ofList (Txt.lower s.toList) = l
    constructor
    · intro h
      simp only at h
      split_ifs at h with h1 h2 h3 h4 h5
      all_goals
        obtain rfl := Option.some.inj h
        simp only [cfNames, List.mem_cons, List.not_mem_nil, or_false]
        assumption
    · intro h
      cases c <;> simp only [cfNames, List.mem_cons, List.not_mem_nil, or_false] at h
      · rcases h with rfl | rfl | rfl <;> decide
      · subst h; decide
      · rcases h with rfl | rfl <;> decide
      · rcases h with rfl | rfl <;> decide
      · subst h; decide
  refine ⟨key c, fun h m => ?_⟩
  have hn : named s = none := by
    cases e : named s with
    | none => rfl
    | some c => exact absurd ((key c).1 e) (h c)
  unfold CfTime.decode CfTime.encode
  rw [hn]
  exact ⟨rfl, rfl⟩

open Worker in
/-- **C118, full statement**: a run can start on every day its calendar has.  False: `C118_refuted`. -/
def C118_full : Prop :=
  ∀ (cal : String) (c : Calendar) (start n : Int), named cal = some c → c.number start = .ok n →
    ∃ (i : Inputs) (s : Cell.Shared) (w : Loads), s.calendar = cal ∧ i.start = start ∧ load i s [] = .ok w

/-- Runs on the calendar of 360 days fail, whatever their files. -/
theorem C118_refuted : ¬ C118_full := by
  intro h
  obtain ⟨i, s, w, e1, e2, hl⟩ := h "360_day" .day360 730120 (Calendar.day360.place (2000, 1, 1)) (by decide) (by decide +kernel)
  have := C118_load hl
  rw [e1] at this
  exact no_360 (by decide) _ this

/-- Files for which `noleap` does as well as the standard calendar. -/
example : ∃ (i : Worker.Inputs) (s : Cell.Shared) (w : Worker.Loads), s.calendar = "noleap" ∧ Worker.load i s [] = .ok w := by
  have h0 := FilesExample.sources MainExample.setup.shared rfl rfl
  have hdays : HasDays "noleap" (FilesExample.inputs.start - 90 - 730120) (FilesExample.inputs.start - 1 - 730120) := by
    refine ((C118_days (c := .noleap) (by decide) _ _).2.1 rfl).2 fun d h1 h2 => ?_
    have key : ∀ k : Fin 90, Cal.monthDay (719163 - 90 + k) ≠ (2, 29) := by decide +kernel
    have e : FilesExample.inputs.start = 719163 := rfl
    rw [e] at h1 h2
    obtain ⟨j, hj⟩ := Int.eq_ofNat_of_zero_le (show 0 ≤ d + 730120 - 719163 + 90 by omega)
    have := key ⟨j, by omega⟩
    rwa [show (719163 : Int) - 90 + ((⟨j, by omega⟩ : Fin 90) : Nat) = d + origin by unfold origin; simp only; omega] at this
  have h : Sources FilesExample.inputs { MainExample.setup.shared with calendar := "noleap" } FilesExample.domFile
      ⟨["lat", "lon"], fun _ => .fin 1⟩ 2 := { h0 with calendar := hdays }
  obtain ⟨w, hw, -⟩ := C90_loads FilesExample.sound h
  exact ⟨_, _, w, rfl, hw⟩

/-- The first of March 2000 cannot be a start on `noleap`, the thirtieth of May can. -/
example : ¬ HasDays "noleap" (Cal.ofCivil 2000 3 1 - 90 - origin) (Cal.ofCivil 2000 3 1 - 1 - origin) ∧
    HasDays "noleap" (Cal.ofCivil 2000 5 30 - 90 - origin) (Cal.ofCivil 2000 5 30 - 1 - origin) := by
  constructor
  · intro h
    exact ((C118_start h).2.2.1 (by decide)).2 2000 (by decide) ⟨le_refl _, by decide⟩
  · refine ((C118_days (c := .noleap) (by decide) _ _).2.1 rfl).2 fun d h1 h2 => ?_
    have key : ∀ k : Fin 90, Cal.monthDay (Cal.ofCivil 2000 5 30 - 90 + k) ≠ (2, 29) := by decide +kernel
    obtain ⟨j, hj⟩ := Int.eq_ofNat_of_zero_le (show 0 ≤ d - (Cal.ofCivil 2000 5 30 - 90 - origin) by omega)
    have := key ⟨j, by omega⟩
    rwa [show Cal.ofCivil 2000 5 30 - 90 + ((⟨j, by omega⟩ : Fin 90) : Nat) = d + origin by simp only; omega] at this

end Verif.Props
