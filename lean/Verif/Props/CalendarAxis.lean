import Verif.Props.Calendars
import Verif.Lemmas.Cell

/-!
# C119: the time axis of a record that has all days of its calendar
-/

namespace Verif.Props

open CfTime Datetime Times

namespace Calends

/-- The date after a date. -/
def after (c : Calendar) (a : Int × Nat × Nat) : Int × Nat × Nat :=
  if a.2.2 < (c.months a.1).getD (a.2.1 - 1) 0 then (a.1, a.2.1, a.2.2 + 1) else if a.2.1 < 12 then (a.1, a.2.1 + 1, 1) else (a.1 + 1, 1, 1)

theorem has_after {c : Calendar} {a : Int × Nat × Nat} (h : c.Has a) : c.Has (after c a) := by
  obtain ⟨y, m, d⟩ := a
  obtain ⟨h1, h2, h3, h4⟩ := h
  simp only at h1 h2 h3 h4
  unfold after
  simp only
  split_ifs with g1 g2
  · exact ⟨h1, h2, by simp, g1⟩
  · obtain ⟨-, s⟩ := months_next _ (months_mem c y) (m - 1) (by omega)
    rw [show m - 1 + 1 = m by omega] at s
    exact ⟨by simp, by simp; omega, by simp, by simpa using Nat.succ_le_of_lt s⟩
  · exact ⟨by simp, by simp, by simp, (months_last _ (months_mem c (y + 1))).2⟩

theorem place_after {c : Calendar} {a : Int × Nat × Nat} (h : c.Has a) : c.place (after c a) = c.place a + 1 := by
  obtain ⟨y, m, d⟩ := a
  obtain ⟨h1, h2, h3, h4⟩ := h
  simp only at h1 h2 h3 h4
  unfold after Calendar.place
  simp only
  split_ifs with g1 g2
  · simp only; push_cast; ring
  · obtain ⟨s, -⟩ := months_next _ (months_mem c y) (m - 1) (by omega)
    rw [show m - 1 + 1 = m by omega] at s
    simp only [Nat.add_sub_cancel]
    rw [s]
    push_cast; omega
  · obtain ⟨s, -⟩ := months_last _ (months_mem c y)
    obtain rfl : m = 12 := by omega
    simp only [before_succ, Calendar.len, s]
    push_cast
    simp at g1 h4 ⊢
    omega

theorem place_inj {c : Calendar} {a b : Int × Nat × Nat} (ha : c.Has a) (hb : c.Has b) (h : c.place a = c.place b) : a = b := by
  rcases earlier_total a b with e | e | e
  · have := place_lt ha hb e; omega
  · exact e
  · have := place_lt hb ha e; omega

/-- The calendar of a run: that of pandas, or `cftime`'s of this name. -/
def ofName (cal : String) : Option Calendar := if cal ∈ pandasCalendars then some .gregorian else named cal

/-- The name of a day since 2000-01-01. -/
def dated (d : Int) : Int × Nat × Nat := fields (d + origin)

end Calends

open Calends

/-- The record has all the days of its calendar from its first to its last one: each day belongs to the calendar, and it is followed by
the day that follows it on the calendar. -/
def AllDays (cal : String) (days : List Int) : Prop :=
  days ≠ [] ∧ ∃ c, ofName cal = some c ∧ (∀ d ∈ days, c.Has (dated d)) ∧ days.IsChain fun d e => dated e = after c (dated d)

namespace Calends

/-- The days are numbered one after the other. -/
def Numbered (c : Calendar) (N : Int) (days : List Int) : Prop := ∀ (i : Nat) (d : Int), days[i]? = some d → c.number (d + origin) = .ok (N + i)

theorem numbered_cons {c : Calendar} {N d : Int} {days : List Int} :
    Numbered c N (d :: days) ↔ c.number (d + origin) = .ok N ∧ Numbered c (N + 1) days := by
  constructor
  · intro h
    refine ⟨by simpa using h 0 d rfl, fun i e he => ?_⟩
    have := h (i + 1) e (by simpa using he)
    rw [this]; push_cast; congr 1; ring
  · rintro ⟨h1, h2⟩ i e he
    cases i with
    | zero =>
      obtain rfl : d = e := by simpa using he
      simpa using h1
    | succ i =>
      have := h2 i e (by simpa using he)
      rw [this]; push_cast; congr 1; ring

theorem chain_numbered {c : Calendar} : ∀ {days : List Int} {d : Int}, (∀ e ∈ d :: days, c.Has (dated e)) →
    (d :: days).IsChain (fun d e => dated e = after c (dated d)) → Numbered c (c.place (dated d)) (d :: days)
  | [], d, h, _ => numbered_cons.2 ⟨number_ok.2 ⟨h d (by simp), rfl⟩, fun i e he => by simp at he⟩
  | e :: days, d, h, hc => by
    rw [List.isChain_cons_cons] at hc
    have := chain_numbered (fun x hx => h x (List.mem_cons_of_mem _ hx)) hc.2
    rw [hc.1, place_after (h d (by simp))] at this
    exact numbered_cons.2 ⟨number_ok.2 ⟨h d (by simp), rfl⟩, this⟩

theorem numbered_chain {c : Calendar} : ∀ {days : List Int} {N : Int}, Numbered c N days →
    (∀ e ∈ days, c.Has (dated e)) ∧ days.IsChain (fun d e => dated e = after c (dated d))
  | [], _, _ => ⟨by simp, .nil⟩
  | [d], N, h => ⟨by
      intro e he
      obtain rfl : e = d := by simpa using he
      exact (number_ok.1 (numbered_cons.1 h).1).1, .singleton _⟩
  | d :: e :: days, N, h => by
    obtain ⟨h1, h2⟩ := numbered_cons.1 h
    obtain ⟨i1, i2⟩ := numbered_chain h2
    obtain ⟨q1, q2⟩ := number_ok.1 h1
    obtain ⟨p1, p2⟩ := number_ok.1 (numbered_cons.1 h2).1
    refine ⟨?_, List.isChain_cons_cons.2 ⟨?_, i2⟩⟩
    · intro x hx
      rcases List.mem_cons.1 hx with rfl | hx
      · exact q1
      · exact i1 x hx
    · apply place_inj p1 (has_after q1)
      rw [place_after q1]
      show c.place (fields (e + origin)) = c.place (fields (d + origin)) + 1
      omega

theorem allDays_iff {cal : String} {days : List Int} : AllDays cal days ↔ days ≠ [] ∧ ∃ c, ofName cal = some c ∧ ∃ N, Numbered c N days := by
  constructor
  · rintro ⟨hne, c, hc, h1, h2⟩
    obtain ⟨d, l, rfl⟩ := List.exists_cons_of_ne_nil hne
    exact ⟨hne, c, hc, _, chain_numbered h1 h2⟩
  · rintro ⟨hne, c, hc, N, h⟩
    exact ⟨hne, c, hc, numbered_chain h⟩

/-- Stamp `q` of the steps of the days. -/
def stampAt (ts : Nat) (days : List Int) (q : Nat) : Int := 1440 * days.getD (q / (1440 / ts)) 0 + (q % (1440 / ts) : Nat) * ts

theorem split_step {ts : Nat} (hts : StepOk ts) (q : Nat) : ((q : Int)) * ts = 1440 * (q / (1440 / ts) : Nat) + (q % (1440 / ts) : Nat) * ts := by
  have h1 := hts.mulZ
  have h2 : q = (1440 / ts) * (q / (1440 / ts)) + q % (1440 / ts) := (Nat.div_add_mod _ _).symm
  have h3 : (q : Int) = ((1440 / ts : Nat) : Int) * ((q / (1440 / ts) : Nat) : Int) + ((q % (1440 / ts) : Nat) : Int) := by exact_mod_cast h2
  calc (q : Int) * ts = (((1440 / ts : Nat) : Int) * ((q / (1440 / ts) : Nat) : Int) + ((q % (1440 / ts) : Nat) : Int)) * ts := by rw [← h3]
    _ = (((1440 / ts : Nat) : Int) * ts) * ((q / (1440 / ts) : Nat) : Int) + ((q % (1440 / ts) : Nat) : Int) * ts := by ring
    _ = _ := by rw [h1]

theorem rest_lt {ts : Nat} (hts : StepOk ts) (q : Nat) : (0 : Int) ≤ (q % (1440 / ts) : Nat) * ts ∧ ((q % (1440 / ts) : Nat) : Int) * ts ≤ 1440 - ts := by
  have h1 := hts.mulZ
  have h2 : q % (1440 / ts) + 1 ≤ 1440 / ts := Nat.mod_lt _ hts.pos
  have h3 : ((q % (1440 / ts) : Nat) : Int) + 1 ≤ ((1440 / ts : Nat) : Int) := by exact_mod_cast h2
  refine ⟨by positivity, ?_⟩
  have := mul_le_mul_of_nonneg_right h3 (show (0 : Int) ≤ ts by positivity)
  rw [h1, add_mul] at this
  omega

theorem minutes_number {c : Calendar} {d M o : Int} (h : c.number (d + origin) = .ok M) (h0 : 0 ≤ o) (h1 : o < 1440) :
    c.minutes (1440 * d + o) = .ok (1440 * M + o) := by
  refine minutes_ok.2 ⟨M, ?_, ?_⟩
  · rw [show (1440 * d + o) / 1440 = d by omega]; exact h
  · omega

theorem stamp_number {c : Calendar} {d M o : Int} (h : c.number (d + origin) = .ok M) (h0 : 0 ≤ o) (h1 : o < 1440) :
    c.stamp ((1440 * M + o : Int) : ℚ) = .ok ((1440 * d + o : Int) : ℚ) := by
  have hf : ⌊((1440 * M + o : Int) : ℚ) / 1440⌋ = M := by
    have := Int.floor_div_natCast ((1440 * M + o : Int) : ℚ) 1440
    push_cast at this ⊢
    rw [this]
    have e : ⌊(1440 * (M : ℚ) + (o : ℚ))⌋ = 1440 * M + o := by
      rw [show (1440 * (M : ℚ) + (o : ℚ)) = ((1440 * M + o : Int) : ℚ) by push_cast; rfl, Int.floor_intCast]
    rw [e]
    omega
  refine stamp_ok.2 ⟨d + origin, ?_, ?_⟩
  · rw [hf]; exact standard_number h
  · rw [hf]; push_cast; ring

theorem stampAt_minutes {c : Calendar} {ts : Nat} (hts : StepOk ts) {N : Int} {days : List Int} (h : Numbered c N days) {q : Nat}
    (hq : q / (1440 / ts) < days.length) :
    c.minutes (stampAt ts days q) = .ok (1440 * N + q * ts) ∧ c.stamp ((1440 * N + q * ts : Int) : ℚ) = .ok ((stampAt ts days q : Int) : ℚ) := by
  have hd := h _ _ (List.getElem?_eq_getElem hq)
  obtain ⟨r1, r2⟩ := rest_lt hts q
  have hpos : (0 : Int) < ts := by exact_mod_cast hts.1
  have e : days.getD (q / (1440 / ts)) 0 = days[q / (1440 / ts)] := by
    rw [List.getD_eq_getElem?_getD, List.getElem?_eq_getElem hq]; rfl
  have s := split_step hts q
  have e2 : 1440 * N + (q : Int) * ts = 1440 * (N + (q / (1440 / ts) : Nat)) + (q % (1440 / ts) : Nat) * ts := by rw [s]; ring
  unfold stampAt
  rw [e2, e]
  exact ⟨minutes_number hd r1 (by omega), stamp_number hd r1 (by omega)⟩

theorem number_gregorian (ord : Int) : Calendar.gregorian.number ord = .ok ord :=
  number_ok.2 ⟨has_fields ord, (place_fields ord).symm⟩

/-- Ranges from step `p` of the days on. -/
theorem range_steps {cal : String} {c : Calendar} (hc : ofName cal = some c) {ts : Nat} (hts : StepOk ts) {N : Int} {days : List Int}
    (h : Numbered c N days) {p m : Nat} (hm : 0 < m) (hq : (p + m - 1) / (1440 / ts) < days.length) :
    dateRange cal (stampAt ts days p) (stampAt ts days (p + m - 1)) ts =
      .ok ((List.range m).map fun k => ((stampAt ts days (p + k) : Int) : ℚ)) := by
  have hpos : (0 : Int) < ts := by exact_mod_cast hts.1
  have hin : ∀ k < m, (p + k) / (1440 / ts) < days.length := fun k hk => lt_of_le_of_lt (Nat.div_le_div_right (by omega)) hq
  have hp0 := hin 0 hm
  rw [Nat.add_zero] at hp0
  have range_eq : ∀ A : Int, pdRange A (A + ((m : Int) - 1) * ts) ts = (List.range m).map fun (k : Nat) => ((A + k * ts : Int) : ℚ) := by
    intro A
    unfold pdRange
    rw [show A + ((m : Int) - 1) * ts - A = ((m : Int) - 1) * ts by ring, Int.fdiv_eq_ediv_of_nonneg _ hpos.le,
      Int.mul_ediv_cancel _ hpos.ne']
    congr 2
    omega
  unfold ofName at hc
  by_cases hp : cal ∈ pandasCalendars
  · rw [if_pos hp] at hc
    cases hc
    have e : ∀ q, q / (1440 / ts) < days.length → stampAt ts days q = 1440 * (N - origin) + q * ts := by
      intro q hq
      have hd := h _ _ (List.getElem?_eq_getElem hq)
      rw [number_gregorian] at hd
      have hd := Except.ok.inj hd
      have e : days.getD (q / (1440 / ts)) 0 = days[q / (1440 / ts)] := by
        rw [List.getD_eq_getElem?_getD, List.getElem?_eq_getElem hq]; rfl
      have s := split_step hts q
      unfold stampAt
      rw [e, s]
      omega
    rw [e _ hp0, e _ hq, dateRange, if_pos hp, if_neg (by have := hts.1; omega)]
    have e2 : 1440 * (N - origin) + ((p + m - 1 : Nat) : Int) * ts = (1440 * (N - origin) + p * ts) + ((m : Int) - 1) * ts := by
      rw [Nat.cast_sub (by omega)]; push_cast; ring
    rw [e2, range_eq]
    congr 1
    apply List.map_congr_left
    intro k hk
    rw [List.mem_range] at hk
    rw [e _ (hin k hk)]
    congr 1; push_cast; ring
  · rw [if_neg hp] at hc
    obtain ⟨a1, -⟩ := stampAt_minutes hts h hp0
    obtain ⟨b1, -⟩ := stampAt_minutes hts h hq
    have e2 : 1440 * N + ((p + m - 1 : Nat) : Int) * ts = (1440 * N + p * ts) + ((m : Int) - 1) * ts := by
      rw [Nat.cast_sub (by omega)]; push_cast; ring
    rw [e2] at b1
    have h0 : (0 : Int) ≤ ((m : Int) - 1) * ts := mul_nonneg (by omega) hpos.le
    rw [dateRange_cf hp hc a1 b1 hts.1 (by omega) ⟨(m : Int) - 1, by ring⟩, range_eq, List.mapM_map]
    apply mapM_map_ok
    intro k hk
    rw [List.mem_range] at hk
    have := (stampAt_minutes hts h (hin k hk)).2
    rw [← this]
    show c.stamp _ = c.stamp _
    congr 1; push_cast; ring

theorem stampAt_zero {ts : Nat} (a : Int) (l : List Int) : stampAt ts (a :: l) 0 = 1440 * a := by simp [stampAt]

theorem ends_ok {days : List Int} (hne : days ≠ []) : ∃ a b, days.head? = some a ∧ days.getLast? = some b ∧ ends days = .ok (a, b) := by
  obtain ⟨a, l, rfl⟩ := List.exists_cons_of_ne_nil hne
  refine ⟨a, (a :: l).getLast (by simp), rfl, List.getLast?_eq_some_getLast _, ?_⟩
  unfold ends
  rw [List.getLast?_eq_some_getLast (by simp : a :: l ≠ [])]
  rfl

/-- The last step of the last day. -/
theorem stampAt_last {ts : Nat} (hts : StepOk ts) {days : List Int} {b : Int} (hb : days.getLast? = some b) (rest : List Int) :
    stampAt ts (days ++ rest) (days.length * (1440 / ts) - 1) = 1440 * b + 1440 - ts ∧
    (days.length * (1440 / ts) - 1) / (1440 / ts) < days.length := by
  have hne : days ≠ [] := by rintro rfl; simp at hb
  have hn : 0 < days.length := List.length_pos_iff.2 hne
  have hp := hts.pos
  have h1 := hts.mulZ
  obtain ⟨n, hn'⟩ := Nat.exists_eq_add_of_lt hn
  have hlen : days.length = n + 1 := by omega
  have e : days.length * (1440 / ts) - 1 = (1440 / ts) * n + (1440 / ts - 1) := by
    rw [hlen, Nat.add_mul, Nat.mul_comm]; omega
  have d1 : (days.length * (1440 / ts) - 1) / (1440 / ts) = n := by
    rw [e, Nat.mul_add_div hp, Nat.div_eq_of_lt (by omega), Nat.add_zero]
  have d2 : (days.length * (1440 / ts) - 1) % (1440 / ts) = 1440 / ts - 1 := by
    rw [e, Nat.mul_add_mod, Nat.mod_eq_of_lt (by omega)]
  refine ⟨?_, by omega⟩
  unfold stampAt
  have e3 : (days ++ rest).getD n 0 = b := by
    rw [List.getLast?_eq_getElem?, hlen, Nat.add_sub_cancel] at hb
    rw [List.getD_eq_getElem?_getD, List.getElem?_append_left (by omega), hb]
    rfl
  rw [d1, d2, e3, Nat.cast_sub (by omega), sub_mul, h1]
  push_cast; ring

end Calends

/-- The steps of the days of a record: each day from its midnight on. -/
def steps (ts : Nat) (days : List Int) : List ℚ :=
  (List.range (days.length * (1440 / ts))).map fun k => ((stampAt ts days k : Int) : ℚ)

/-- **C119**: on every calendar, the axis of a record with all the days of the calendar are the steps of its days: also where the calendar
goes from the 28th of February to the 1st of March and the standard one does not. -/
theorem C119_axis {cal : String} {days : List Int} (h : AllDays cal days) {ts : Nat} (hts : StepOk ts) :
    outputTimes ⟨ts, cal, false⟩ days = .ok (steps ts days) := by
  obtain ⟨hne, c, hc, N, hN⟩ := allDays_iff.1 h
  obtain ⟨a, b, ha, hb, he⟩ := ends_ok hne
  obtain ⟨l1, l2⟩ := stampAt_last hts hb []
  rw [List.append_nil] at l1
  have hm : 0 < days.length * (1440 / ts) := Nat.mul_pos (List.length_pos_iff.2 hne) hts.pos
  have := range_steps hc hts hN (p := 0) hm (by simpa using l2)
  obtain ⟨a', l, rfl⟩ := List.exists_cons_of_ne_nil hne
  obtain rfl : a' = a := by simpa using ha
  rw [stampAt_zero, Nat.zero_add, l1] at this
  simp only [Nat.zero_add] at this
  unfold outputTimes
  rw [he]
  simp only [bind, Except.bind]
  have hle := hts.le
  have e : (1440 * b + (if false = true then (ts : Int) else 0) + if ts < 1440 then 1440 - (ts : Int) else 0) = 1440 * b + 1440 - ts := by
    split_ifs <;> simp_all <;> omega
  simp only [e, Bool.false_eq_true, if_false, add_zero]
  simp only [Bool.false_eq_true, if_false, add_zero] at e
  rw [e]
  exact this

namespace Calends

theorem days_lt {c : Calendar} {N : Int} {days : List Int} (h : Numbered c N days) {i j : Nat} (hij : i < j) (hj : j < days.length) :
    days.getD i 0 < days.getD j 0 := by
  have e : ∀ k (hk : k < days.length), days.getD k 0 = days[k] := fun k hk => by
    rw [List.getD_eq_getElem?_getD, List.getElem?_eq_getElem hk]; rfl
  rw [e i (by omega), e j hj]
  have h1 := h i _ (List.getElem?_eq_getElem (by omega))
  have h2 := h j _ (List.getElem?_eq_getElem hj)
  rcases lt_trichotomy days[i] days[j] with g | g | g
  · exact g
  · rw [g, h2] at h1
    have := Except.ok.inj h1
    omega
  · have := number_lt h2 h1 (by omega)
    omega

theorem stampAt_mono {c : Calendar} {N : Int} {ts : Nat} (hts : StepOk ts) {days : List Int} (h : Numbered c N days) {q r : Nat} (hqr : q ≤ r)
    (hr : r / (1440 / ts) < days.length) : stampAt ts days q ≤ stampAt ts days r := by
  have hd : q / (1440 / ts) ≤ r / (1440 / ts) := Nat.div_le_div_right hqr
  unfold stampAt
  obtain ⟨q1, q2⟩ := rest_lt hts q
  obtain ⟨r1, r2⟩ := rest_lt hts r
  rcases lt_or_eq_of_le hd with g | g
  · have := days_lt h g hr
    omega
  · have e1 : q % (1440 / ts) ≤ r % (1440 / ts) := by
      have a := Nat.div_add_mod q (1440 / ts)
      have b := Nat.div_add_mod r (1440 / ts)
      rw [g] at a
      omega
    have := mul_le_mul_of_nonneg_right (show ((q % (1440 / ts) : Nat) : Int) ≤ ((r % (1440 / ts) : Nat) : Int) by exact_mod_cast e1)
      (show (0 : Int) ≤ ts by positivity)
    rw [g]
    omega

theorem steps_bounds {c : Calendar} {N : Int} {ts : Nat} (hts : StepOk ts) {days : List Int} (h : Numbered c N days) {a b : Int}
    (ha : days.head? = some a) (hb : days.getLast? = some b) : ∀ t ∈ steps ts days, ((1440 * a : Int) : ℚ) ≤ t ∧ t ≤ ((1440 * b + 1440 - ts : Int) : ℚ) := by
  intro t ht
  simp only [steps, List.mem_map, List.mem_range] at ht
  obtain ⟨k, hk, rfl⟩ := ht
  obtain ⟨l1, l2⟩ := stampAt_last hts hb []
  rw [List.append_nil] at l1
  have hne : days ≠ [] := by rintro rfl; simp at ha
  obtain ⟨a', l, rfl⟩ := List.exists_cons_of_ne_nil hne
  obtain rfl : a' = a := by simpa using ha
  have k1 : k / (1440 / ts) < (a' :: l).length := Nat.div_lt_of_lt_mul (by rw [Nat.mul_comm]; exact hk)
  have m1 := stampAt_mono hts h (Nat.zero_le k) k1
  have m2 := stampAt_mono hts h (show k ≤ (a' :: l).length * (1440 / ts) - 1 by omega) l2
  rw [stampAt_zero] at m1
  rw [l1] at m2
  exact ⟨by exact_mod_cast m1, by exact_mod_cast m2⟩

theorem head_map_range {α : Type} {m : Nat} (hm : 0 < m) (f : Nat → α) :
    ((List.range m).map f).head? = some (f 0) ∧ ((List.range m).map f).getLast? = some (f (m - 1)) := by
  constructor
  · rw [List.head?_eq_getElem?]; simp [hm]
  · rw [List.getLast?_eq_getElem?, List.length_map, List.length_range, List.getElem?_map, List.getElem?_range (by omega)]; rfl

theorem index_eq {cal : String} {days : List Int} (h : AllDays cal days) {ts : Nat} (hts : StepOk ts) {a b : Int} (he : ends days = .ok (a, b)) :
    dateRange cal (1440 * a) (1440 * b + 1440 - ts) ts = .ok (steps ts days) := by
  have := C119_axis h hts
  unfold outputTimes at this
  rw [he] at this
  simp only [bind, Except.bind] at this
  have hle := hts.le
  have e : (1440 * b + (if false = true then (ts : Int) else 0) + if ts < 1440 then 1440 - (ts : Int) else 0) = 1440 * b + 1440 - ts := by
    split_ifs <;> simp_all <;> omega
  simp only [Bool.false_eq_true, if_false, add_zero] at e this
  rw [e] at this
  exact this

end Calends

/-- **C119**: and so is the index of the frame of each cell. -/
theorem C119_frame {α : Type} {cal : String} {days : List Int} (h : AllDays cal days) {ts : Nat} (hts : StepOk ts) (rows : List α)
    (hr : rows.length = days.length * (1440 / ts)) : cellFrame ⟨ts, cal, false⟩ days rows = .ok ((steps ts days).zip rows) := by
  obtain ⟨hne, c, hc, N, hN⟩ := allDays_iff.1 h
  obtain ⟨a, b, ha, hb, he⟩ := ends_ok hne
  have hx := index_eq h hts he
  have hl : (steps ts days).length = days.length * (1440 / ts) := by simp [steps]
  have hm : 0 < days.length * (1440 / ts) := Nat.mul_pos (List.length_pos_iff.2 hne) hts.pos
  obtain ⟨h1, h2⟩ := head_map_range hm fun k => ((stampAt ts days k : Int) : ℚ)
  have hat : attach (steps ts days) rows = .ok ((steps ts days).zip rows) := by rw [attach, if_pos (by rw [hr, hl])]
  have hcut : cut (steps ts days) ((steps ts days).zip rows) = .ok ((steps ts days).zip rows) := by
    refine cut_all _ _ _ _ h1 h2 ?_
    rintro ⟨t, x⟩ hmem
    obtain ⟨b1, b2⟩ := steps_bounds hts hN ha hb t (List.of_mem_zip hmem).1
    obtain ⟨l1, -⟩ := stampAt_last hts hb []
    rw [List.append_nil] at l1
    rw [l1]
    obtain ⟨a', l, rfl⟩ := List.exists_cons_of_ne_nil hne
    obtain rfl : a' = a := by simpa using ha
    rw [stampAt_zero]
    exact ⟨b1, b2⟩
  unfold cellFrame
  rw [he]
  simp only [bind, Except.bind]
  by_cases g : ts < 1440
  · rw [if_pos g]
    unfold disaggIndex
    rw [he]
    simp only [bind, Except.bind, hx, hat, add_zero, Bool.false_eq_true, if_false]
    exact hcut
  · rw [if_neg g]
    simp only [hx, hat]
    exact hcut

/-- **C119**: stamps at the ends of the steps are those of the steps that follow, if the calendar and the standard one agree on the day behind
the record; the rows are the same. -/
theorem C119_ending {α : Type} {cal : String} {days : List Int} {b : Int} (hb : days.getLast? = some b) (h : AllDays cal (days ++ [b + 1]))
    {ts : Nat} (hts : StepOk ts) (hsub : ts < 1440) (rows : List α) (hr : rows.length = days.length * (1440 / ts)) :
    outputTimes ⟨ts, cal, true⟩ days = .ok (((steps ts (days ++ [b + 1])).drop 1).take (days.length * (1440 / ts))) ∧
    cellFrame ⟨ts, cal, true⟩ days rows = .ok (((steps ts days).map (· + (ts : ℚ))).zip rows) := by
  obtain ⟨-, c, hc, N, hN⟩ := allDays_iff.1 h
  have hne : days ≠ [] := by rintro rfl; simp at hb
  obtain ⟨a, b', ha, hb', he⟩ := ends_ok hne
  obtain rfl : b = b' := Option.some.inj (hb.symm.trans hb')
  have hN' : Numbered c N days := by
    intro i d hd
    exact hN i d (by rw [List.getElem?_append_left (List.getElem?_eq_some_iff.1 hd).1]; exact hd)
  have hdays : AllDays cal days := allDays_iff.2 ⟨hne, c, hc, N, hN'⟩
  have hx := index_eq hdays hts he
  have hp := hts.pos
  have hz := hts.mulZ
  have hm : 0 < days.length * (1440 / ts) := Nat.mul_pos (List.length_pos_iff.2 hne) hts.pos
  have hS : 1 < 1440 / ts := by
    by_contra hS
    have : 1440 / ts = 1 := by omega
    have := hts.mul
    simp_all
  -- the first and the last stamp
  have s1 : stampAt ts (days ++ [b + 1]) 1 = 1440 * a + ts := by
    obtain ⟨a', l, rfl⟩ := List.exists_cons_of_ne_nil hne
    obtain rfl : a' = a := by simpa using ha
    simp [stampAt, Nat.div_eq_of_lt hS, Nat.mod_eq_of_lt hS]
  have s2 : stampAt ts (days ++ [b + 1]) (1 + days.length * (1440 / ts) - 1) = 1440 * b + 1440 := by
    rw [Nat.add_sub_cancel_left]
    simp [stampAt, Nat.mul_div_cancel _ hp]
    ring
  have hq : (1 + days.length * (1440 / ts) - 1) / (1440 / ts) < (days ++ [b + 1]).length := by
    rw [Nat.add_sub_cancel_left, Nat.mul_div_cancel _ hp]; simp
  have hr2 := range_steps hc hts hN hm hq
  rw [s1, s2] at hr2
  set E := (List.range (days.length * (1440 / ts))).map fun k => ((stampAt ts (days ++ [b + 1]) (1 + k) : Int) : ℚ) with hE
  have hdrop : ((steps ts (days ++ [b + 1])).drop 1).take (days.length * (1440 / ts)) = E := by
    apply List.ext_getElem?
    intro k
    simp only [steps, hE, List.getElem?_take, List.getElem?_drop, List.getElem?_map, List.length_append, List.length_singleton]
    by_cases hk : k < days.length * (1440 / ts)
    · rw [if_pos hk, List.getElem?_range hk, List.getElem?_range (by rw [Nat.add_mul]; omega)]
      rfl
    · rw [if_neg hk, List.getElem?_eq_none (by simpa using hk)]; rfl
  constructor
  · unfold outputTimes
    rw [he, hdrop]
    simp only [bind, Except.bind, if_true, hsub]
    rw [show 1440 * b + (ts : Int) + (1440 - (ts : Int)) = 1440 * b + 1440 by ring]
    exact hr2
  · have hl : (steps ts days).length = days.length * (1440 / ts) := by simp [steps]
    have hat : attach (steps ts days) rows = .ok ((steps ts days).zip rows) := by rw [attach, if_pos (by rw [hr, hl])]
    obtain ⟨h1, h2⟩ := head_map_range hm fun k => ((stampAt ts (days ++ [b + 1]) (1 + k) : Int) : ℚ)
    have hcut : cut E (((steps ts days).map (· + (ts : ℚ))).zip rows) = .ok (((steps ts days).map (· + (ts : ℚ))).zip rows) := by
      refine cut_all _ _ _ _ h1 h2 ?_
      rintro ⟨t, x⟩ hmem
      obtain ⟨t', ht', rfl⟩ := List.mem_map.1 (List.of_mem_zip hmem).1
      obtain ⟨b1, b2⟩ := steps_bounds hts hN' ha hb t' ht'
      rw [Nat.add_zero, s1, show 1 + (days.length * (1440 / ts) - 1) = 1 + days.length * (1440 / ts) - 1 by omega, s2]
      push_cast at b1 b2 ⊢
      constructor <;> linarith
    unfold cellFrame
    rw [he]
    simp only [bind, Except.bind, hsub, if_true]
    unfold disaggIndex
    rw [he]
    simp only [bind, Except.bind, hx, hat]
    rw [show 1440 * b + 1440 - (ts : Int) + ts = 1440 * b + 1440 by ring, hr2]
    simp only [zip_fst_map]
    exact hcut

namespace Calends

theorem last_ge : ∀ (l : List Int) (A B : Int), (A :: l).Pairwise (· < ·) → (A :: l).getLast? = some B → A + l.length ≤ B
  | [], A, B, _, h => by
    have : A = B := by simpa using h
    simp; omega
  | C :: l, A, B, hp, h => by
    rw [List.pairwise_cons] at hp
    have h1 := hp.1 C (by simp)
    have := last_ge l C B hp.2 (by simpa [List.getLast?_cons_cons] using h)
    simp only [List.length_cons]
    push_cast
    omega

/-- Increasing whole numbers, as many as there are from the first to the last. -/
theorem tight : ∀ (l : List Int) (A B : Int), (A :: l).Pairwise (· < ·) → (A :: l).getLast? = some B → B = A + l.length →
    ∀ (i : Nat) (d : Int), (A :: l)[i]? = some d → d = A + i
  | [], A, B, _, _, _, i, d, hd => by
    cases i with
    | zero =>
      have : A = d := by simpa using hd
      simp; omega
    | succ i => simp at hd
  | C :: l, A, B, hp, h, hB, i, d, hd => by
    rw [List.pairwise_cons] at hp
    have h1 := hp.1 C (by simp)
    have h2 : (C :: l).getLast? = some B := by simpa [List.getLast?_cons_cons] using h
    have h3 := last_ge l C B hp.2 h2
    simp only [List.length_cons] at hB
    push_cast at hB
    obtain rfl : C = A + 1 := by omega
    cases i with
    | zero =>
      have : A = d := by simpa using hd
      simp; omega
    | succ i =>
      have := tight l (A + 1) B hp.2 h2 (by omega) i d (by simpa using hd)
      push_cast
      omega

/-- The number of steps from the first to the last day. -/
theorem range_length {cal : String} {c : Calendar} (hc : ofName cal = some c) {ts : Nat} (hts : StepOk ts) {a b Na Nb : Int} (hab : a ≤ b)
    (ha : c.number (a + origin) = .ok Na) (hb : c.number (b + origin) = .ok Nb) {l : List ℚ}
    (h : dateRange cal (1440 * a) (1440 * b + 1440 - ts) ts = .ok l) : l.length = (Nb - Na + 1).toNat * (1440 / ts) := by
  have hpos : (0 : Int) < ts := by exact_mod_cast hts.1
  have hle := hts.le
  have hmul := hts.mulZ
  have hN : Na ≤ Nb := by
    rcases lt_or_eq_of_le hab with e | e
    · exact (number_lt ha hb (by omega)).le
    · subst e; rw [ha] at hb; exact (Except.ok.inj hb).le
  obtain ⟨q, hq⟩ := Int.eq_ofNat_of_zero_le (show 0 ≤ Nb - Na + 1 by omega)
  have key : ∀ A B : Int, B - A = 1440 * (Nb - Na) + 1440 - ts → (pdRange A B ts).length = (Nb - Na + 1).toNat * (1440 / ts) := by
    intro A B hAB
    unfold pdRange
    have e : B - A = ((q : Int) * (1440 / ts : Nat) - 1) * ts := by
      rw [hAB, sub_mul, one_mul, mul_assoc, hmul, ← hq]; ring
    rw [List.length_map, List.length_range, e, Int.fdiv_eq_ediv_of_nonneg _ hpos.le, Int.mul_ediv_cancel _ hpos.ne', hq, Int.toNat_natCast,
      sub_add_cancel, ← Nat.cast_mul, Int.toNat_natCast]
  unfold ofName at hc
  by_cases hp : cal ∈ pandasCalendars
  · rw [if_pos hp] at hc
    cases hc
    rw [number_gregorian] at ha hb
    have ha := Except.ok.inj ha
    have hb := Except.ok.inj hb
    rw [dateRange, if_pos hp, if_neg (by have := hts.1; omega)] at h
    rw [← Except.ok.inj h]
    exact key _ _ (by omega)
  · rw [if_neg hp] at hc
    have a1 := minutes_number (o := 0) ha (le_refl _) (by omega)
    have b1 := minutes_number (o := 1440 - ts) hb (by omega) (by omega)
    rw [add_zero, add_zero] at a1
    rw [show 1440 * b + (1440 - (ts : Int)) = 1440 * b + 1440 - ts by ring] at b1
    have hd : 1440 * Nb + (1440 - (ts : Int)) - 1440 * Na = ts * ((q : Int) * (1440 / ts : Nat) - 1) := by
      rw [mul_sub, mul_one, mul_left_comm, mul_comm (ts : Int), hmul, ← hq]; ring
    rw [dateRange_cf hp hc a1 b1 hts.1 (by omega) ⟨_, hd⟩] at h
    rw [mapM_length h]
    exact key _ _ (by ring)

theorem all_of_range {cal : String} {c : Calendar} (hc : ofName cal = some c) {ts : Nat} (hts : StepOk ts) {days : List Int} (hs : days.Pairwise (· < ·))
    (hin : ∀ d ∈ days, c.Has (dated d)) {a b : Int} (ha : days.head? = some a) (hb : days.getLast? = some b) {l : List ℚ}
    (h : dateRange cal (1440 * a) (1440 * b + 1440 - ts) ts = .ok l) (hl : l.length = days.length * (1440 / ts)) : AllDays cal days := by
  have hne : days ≠ [] := by rintro rfl; simp at ha
  obtain ⟨a', t, rfl⟩ := List.exists_cons_of_ne_nil hne
  obtain rfl : a' = a := by simpa using ha
  have hnum : ∀ d ∈ a' :: t, c.number (d + origin) = .ok (c.place (dated d)) := fun d hd => number_ok.2 ⟨hin d hd, rfl⟩
  have hbm : b ∈ a' :: t := List.mem_of_getLast? hb
  have hab : a' ≤ b := by
    rcases List.mem_cons.1 hbm with rfl | hm
    · exact le_refl _
    · exact ((List.pairwise_cons.1 hs).1 b hm).le
  have hlen := range_length hc hts hab (hnum a' (by simp)) (hnum b hbm) h
  rw [hl] at hlen
  have hlen := Nat.eq_of_mul_eq_mul_right hts.pos hlen
  refine allDays_iff.2 ⟨hne, c, hc, c.place (dated a'), ?_⟩
  have hpw : ((a' :: t).map fun d => c.place (dated d)).Pairwise (· < ·) := by
    rw [List.pairwise_map]
    refine List.Pairwise.imp_of_mem ?_ hs
    intro x y hx hy hxy
    exact number_lt (hnum x hx) (hnum y hy) (by omega)
  have hge := last_ge (t.map fun d => c.place (dated d)) (c.place (dated a')) (c.place (dated b)) hpw (by
    rw [← List.map_cons (f := fun d => c.place (dated d)), List.getLast?_map, hb]; rfl)
  have := tight (t.map fun d => c.place (dated d)) (c.place (dated a')) (c.place (dated b)) hpw
    (by rw [← List.map_cons (f := fun d => c.place (dated d)), List.getLast?_map, hb]; rfl)
    (by simp only [List.length_cons, List.length_map] at hlen hge ⊢; omega)
  intro i d hd
  rw [hnum d (List.mem_of_getElem? hd)]
  congr 1
  refine this i _ ?_
  rw [← List.map_cons (f := fun d => c.place (dated d)), List.getElem?_map, hd]
  rfl

theorem next_of_range {cal : String} {days : List Int} (h : AllDays cal days) {ts : Nat} (hts : StepOk ts) {a b : Int}
    (ha : days.head? = some a) (hb : days.getLast? = some b) {l : List ℚ}
    (hr : dateRange cal (1440 * a + ts) (1440 * b + 1440) ts = .ok l) (hsub : ts < 1440) : AllDays cal (days ++ [b + 1]) := by
  obtain ⟨hne, c, hc, N, hN⟩ := allDays_iff.1 h
  have hn : 0 < days.length := List.length_pos_iff.2 hne
  have hlast : c.number (b + origin) = .ok (N + (days.length - 1 : Nat)) :=
    hN _ _ (by rw [← List.getLast?_eq_getElem?]; exact hb)
  have hfirst : c.number (a + origin) = .ok N := by
    have := hN 0 a (by rw [← List.head?_eq_getElem?]; exact ha)
    simpa using this
  have hmul := hts.mulZ
  have hpos : (0 : Int) < ts := by exact_mod_cast hts.1
  suffices hnext : c.number (b + 1 + origin) = .ok (N + days.length) by
    refine allDays_iff.2 ⟨by simp, c, hc, N, ?_⟩
    intro i d hd
    rcases lt_or_ge i days.length with g | g
    · rw [List.getElem?_append_left g] at hd
      exact hN i d hd
    · rw [List.getElem?_append_right g] at hd
      have hi : i = days.length := by
        have := (List.getElem?_eq_some_iff.1 hd).1
        simp at this
        omega
      subst hi
      obtain rfl : b + 1 = d := by simpa using hd
      exact hnext
  unfold ofName at hc
  by_cases hp : cal ∈ pandasCalendars
  · rw [if_pos hp] at hc
    cases hc
    rw [number_gregorian] at hlast ⊢
    have := Except.ok.inj hlast
    congr 1
    omega
  · rw [if_neg hp] at hc
    have a1 := minutes_number (o := ts) hfirst hpos.le (by omega)
    cases hb1 : c.minutes (1440 * b + 1440) with
    | error e => rw [dateRange, if_neg hp, hc] at hr; simp only [a1, hb1, bind, Except.bind] at hr; cases hr
    | ok B =>
      obtain ⟨M, hM, rfl⟩ := minutes_ok.1 hb1
      rw [show (1440 * b + 1440) / 1440 = b + 1 by omega] at hM
      rw [show (1440 * b + 1440) % 1440 = 0 by omega] at hb1
      have h1 := number_lt hlast hM (by omega)
      rcases eq_or_lt_of_le (show N + days.length ≤ M by omega) with g | g
      · rw [hM, g]
      · exfalso
        have hd : 1440 * M + 0 - (1440 * N + ts) = ts * ((M - N) * (1440 / ts : Nat) - 1) := by
          rw [mul_sub, mul_one, mul_left_comm, mul_comm (ts : Int), hmul]; ring
        have hge : (days.length : Int) + 1 ≤ M - N := by omega
        rw [dateRange_cf hp hc a1 hb1 hts.1 (by omega) ⟨_, hd⟩] at hr
        have hmem : ((1440 * (N + days.length) : Int) : ℚ) ∈ pdRange (1440 * N + ts) (1440 * M + 0) ts := by
          unfold pdRange
          rw [hd, Int.fdiv_eq_ediv_of_nonneg _ hpos.le, Int.mul_ediv_cancel_left _ hpos.ne', List.mem_map]
          refine ⟨days.length * (1440 / ts) - 1, ?_, ?_⟩
          · rw [List.mem_range]
            have h2 : (days.length : Int) * (1440 / ts : Nat) < (M - N) * (1440 / ts : Nat) :=
              mul_lt_mul_of_pos_right (by omega) (by exact_mod_cast hts.pos)
            have h3 : ((days.length * (1440 / ts) : Nat) : Int) = (days.length : Int) * (1440 / ts : Nat) := by push_cast; rfl
            omega
          · congr 1
            rw [Nat.cast_sub (Nat.mul_pos hn hts.pos), Nat.cast_mul, sub_mul, mul_assoc, hmul]
            push_cast; ring
        obtain ⟨y, hy⟩ := mapM_each hr _ hmem
        obtain ⟨d, hd, -⟩ := stamp_ok.1 hy
        rw [show ⌊((1440 * (N + days.length) : Int) : ℚ) / 1440⌋ = N + days.length by
          have : ((1440 * (N + days.length) : Int) : ℚ) / 1440 = ((N + days.length : Int) : ℚ) := by push_cast; field_simp
          rw [this, Int.floor_intCast]] at hd
        have hd := number_standard hd
        rcases lt_trichotomy d (b + origin) with x | x | x
        · have := number_lt hd hlast x; omega
        · rw [x, hlast] at hd; have := Except.ok.inj hd; omega
        · rcases lt_trichotomy d (b + 1 + origin) with z | z | z
          · omega
          · rw [z, hM] at hd; have := Except.ok.inj hd; omega
          · have := number_lt hM hd z; omega

end Calends

/-- **C119**: of the records whose days belong to the calendar, those that lack a day cannot be run; with stamps at the ends of sub-daily steps the
day behind the record has to follow on both calendars: on `noleap`, a record cannot end on the 28th of February of a leap year. -/
theorem C119_iff {α : Type} {cal : String} {c : Calendar} (hc : ofName cal = some c) {days : List Int} (hne : days ≠ [])
    (hs : days.Pairwise (· < ·)) (hin : ∀ d ∈ days, c.Has (dated d)) {ts : Nat} (hts : StepOk ts) (pe : Bool) (rows : List α)
    (hr : rows.length = days.length * (1440 / ts)) :
    (∃ F, cellFrame ⟨ts, cal, pe⟩ days rows = .ok F) ↔
      AllDays cal days ∧ (pe = true → ts < 1440 → ∀ b, days.getLast? = some b → AllDays cal (days ++ [b + 1])) := by
  obtain ⟨a, b, ha, hb, he⟩ := ends_ok hne
  constructor
  · rintro ⟨F, hF⟩
    unfold cellFrame at hF
    rw [he] at hF
    simp only [bind, Except.bind] at hF
    have hatt : ∀ {idx : List ℚ} {f : List (ℚ × α)}, attach idx rows = .ok f → idx.length = days.length * (1440 / ts) := by
      intro idx f hf
      unfold attach at hf
      split at hf
      · rename_i h; rw [← h, hr]
      · cases hf
    by_cases g : ts < 1440
    · rw [if_pos g] at hF
      unfold disaggIndex at hF
      rw [he] at hF
      simp only [bind, Except.bind] at hF
      cases h1 : dateRange cal (1440 * a) (1440 * b + 1440 - ts) ts with
      | error e => rw [h1] at hF; cases hF
      | ok idx =>
        rw [h1] at hF
        simp only at hF
        cases h2 : attach idx rows with
        | error e => rw [h2] at hF; cases hF
        | ok f =>
          have hall := all_of_range hc hts hs hin ha hb h1 (hatt h2)
          refine ⟨hall, fun hpe _ b' hb' => ?_⟩
          obtain rfl : b = b' := Option.some.inj (hb.symm.trans hb')
          rw [h2] at hF
          subst hpe
          simp only [if_true] at hF
          rw [show 1440 * b + 1440 - (ts : Int) + ts = 1440 * b + 1440 by ring] at hF
          cases h3 : dateRange cal (1440 * a + ts) (1440 * b + 1440) ts with
          | error e => rw [h3] at hF; cases hF
          | ok new => exact next_of_range hall hts ha hb h3 g
    · rw [if_neg g] at hF
      cases h1 : dateRange cal (1440 * a) (1440 * b + 1440 - ts) ts with
      | error e => rw [h1] at hF; cases hF
      | ok idx =>
        rw [h1] at hF
        simp only at hF
        cases h2 : attach idx rows with
        | error e => rw [h2] at hF; cases hF
        | ok f => exact ⟨all_of_range hc hts hs hin ha hb h1 (hatt h2), fun _ hx => absurd hx g⟩
  · rintro ⟨h1, h2⟩
    by_cases g : ts < 1440
    · cases pe with
      | false => exact ⟨_, C119_frame h1 hts rows hr⟩
      | true => exact ⟨_, (C119_ending hb (h2 rfl g b hb) hts g rows hr).2⟩
    · have := C119_frame h1 hts rows hr
      refine ⟨(steps ts days).zip rows, ?_⟩
      rw [← this]
      unfold cellFrame
      rw [he]
      simp only [bind, Except.bind, g, if_false]

/-- **C119**: in the file, the stamps are numbers that go up by the step. -/
theorem C119_numbers {cal : String} {days : List Int} (h : AllDays cal days) (hk : named cal ≠ none) {ts : Nat} (hts : StepOk ts) :
    ∃ m, ((List.range (days.length * (1440 / ts))).map fun k => stampAt ts days k).mapM (CfTime.encode cal) =
      .ok ((List.range (days.length * (1440 / ts))).map fun (k : Nat) => m + k * ts) := by
  obtain ⟨hne, c, hc, N, hN⟩ := allDays_iff.1 h
  have hname : named cal = some c := by
    unfold ofName at hc
    split at hc
    · rename_i hp
      cases hc
      simp only [pandasCalendars, List.mem_cons, List.not_mem_nil, or_false] at hp
      rcases hp with rfl | rfl | rfl
      · exact show named "standard" = _ by decide
      · exact show named "gregorian" = _ by decide
      · exact absurd (show named "propoleptic_gregorian" = none by decide) hk
    · exact hc
  refine ⟨1440 * N - 1440 * c.place (2000, 1, 1), ?_⟩
  rw [List.mapM_map]
  apply mapM_map_ok
  intro k hk
  rw [List.mem_range] at hk
  have := (stampAt_minutes hts hN (q := k) (Nat.div_lt_of_lt_mul (by rw [Nat.mul_comm]; exact hk))).1
  show CfTime.encode cal (stampAt ts days k) = _
  unfold CfTime.encode
  rw [hname]
  simp only [this, bind, Except.bind, pure, Except.pure]
  congr 1
  ring

namespace Calends

theorem shape {cal : String} {c : Calendar} (hc : ofName cal = some c) {days : List Int} (hne : days ≠ []) (hs : days.Pairwise (· < ·))
    (hin : ∀ d ∈ days, c.Has (dated d)) {ts : Nat} (hts : StepOk ts) {pe : Bool} (hpe : pe = true → ts < 1440) {N : Nat} (hN : N = days.length * (1440 / ts))
    {frame : List (ℚ × Nat)} (h : cellFrame ⟨ts, cal, pe⟩ days (List.range N) = .ok frame) {axis : List ℚ}
    (ha : outputTimes ⟨ts, cal, pe⟩ days = .ok axis) : AllDays cal days ∧ axis.length = N ∧ frame.map (·.2) = List.range N := by
  obtain ⟨h1, h2⟩ := (C119_iff hc hne hs hin hts pe (List.range N) (by rw [List.length_range, hN])).1 ⟨frame, h⟩
  refine ⟨h1, ?_⟩
  have hl : (steps ts days).length = days.length * (1440 / ts) := by simp [steps]
  obtain ⟨a, b, -, hb, -⟩ := ends_ok hne
  cases pe with
  | false =>
    rw [C119_axis h1 hts] at ha
    rw [C119_frame h1 hts _ (by rw [List.length_range, hN])] at h
    cases ha
    cases h
    exact ⟨by rw [hl, hN], List.map_snd_zip (by rw [List.length_range, hl, hN])⟩
  | true =>
    have hsub := hpe rfl
    obtain ⟨e1, e2⟩ := C119_ending hb (h2 rfl hsub b hb) hts hsub (List.range N) (by rw [List.length_range, hN])
    rw [e1] at ha
    rw [e2] at h
    cases ha
    cases h
    refine ⟨?_, List.map_snd_zip (by rw [List.length_range, List.length_map, hl, hN])⟩
    have : 0 < 1440 / ts := hts.pos
    rw [List.length_take, List.length_drop, hN]
    simp only [steps, List.length_map, List.length_range, List.length_append, List.length_cons, List.length_nil]
    rw [Nat.add_mul]
    omega

end Calends

/-- **C119**: a cell of a run on any calendar.  If the cell succeeds on days of its calendar, they are all of the calendar's days from the first to the last,
and its output has `n · 1440/ts` values, the `i`-th of them that of step `i` of `disaggregate`: none is lost, none is moved. -/
theorem C119_cell {fuel : Nat} {s : Cell.Shared} {c : Run.CellIn Cell.Data ℝ} {r : Cell.Output} (hsub : s.ts < 1440) (hts : StepOk s.ts)
    {k : Calendar} (hk : ofName s.calendar = some k) (hne : c.data.days ≠ []) (hs : c.data.days.Pairwise (· < ·)) (hin : ∀ d ∈ c.data.days, k.Has (dated d))
    (hv : s.outVars.keys.Nodup) (h : Run.own (Cell.cellBody fuel) s c = .ok r) :
    AllDays s.calendar c.data.days ∧
    ∃ elev lat lon, c.elev = .fin elev ∧ c.lat = .fin lat ∧ c.lon = .fin lon ∧
    ∃ (q : Cell.Common fuel s elev lat lon c.data) (daily : Disaggregate.Daily) (sub : Disaggregate.Sub),
      Cell.dailyOf c.data.days q.base = .ok daily ∧
      Disaggregate.disaggregate daily (s.sub elev lon) q.geom (some [c.data.stateEnd.1, c.data.stateEnd.2]) none = .ok sub ∧
      ∀ v u, s.outVars.get? v = some u → ∃ col vals, Cell.subColumn sub v = .ok col ∧ Dict.get? r v = some vals ∧
        vals.length = c.data.days.length * (1440 / s.ts) ∧
        ∀ i x, vals[i]? = some x → Units.convert v u (col.getD i .nan) s.ts = .ok x := by
  obtain ⟨p', h⟩ := Cell.own_ok.1 h
  obtain ⟨elev, lat, lon, h1, h2, h3, q, daily, sub, frame, h4, h5, h6, h7, -⟩ := Cell.cellBody_sub hsub h
  have hl : sub.time.length = c.data.days.length * (1440 / s.ts) := by
    obtain ⟨t, rfl⟩ := disaggregate_ok.1 h5
    obtain ⟨e, -⟩ := Cell.dailyOf_ok h4
    show (List.map _ (List.range _)).length = _
    rw [List.length_map, List.length_range, e, List.length_map]
    show _ * 1440 / s.ts = _
    exact Nat.mul_div_assoc _ hts.2
  obtain ⟨g1, g2, g3⟩ := shape hk hne hs hin hts (pe := s.periodEnding) (fun _ => hsub) hl h6 q.h_axis
  refine ⟨g1, elev, lat, lon, h1, h2, h3, q, daily, sub, h4, h5, ?_⟩
  rw [g3, g2] at h7
  intro v u hv'
  obtain ⟨col, vals, a1, a2, a3, a4⟩ := Cell.outputs_series h7 hv hv'
  exact ⟨col, vals, a1, a2, by rw [a3, hl], a4⟩

instance (c : Calendar) (a : Int × Nat × Nat) : Decidable (c.Has a) := by unfold Calendar.Has; infer_instance

/-- On `noleap` the record goes from the 28th of February 2000 to the 1st of March. -/
example : AllDays "noleap" [57, 58, 60, 61] := by
  refine ⟨by simp, .noleap, by decide, ?_, ?_⟩
  · decide +kernel
  · decide +kernel

example : ¬ AllDays "noleap" [57, 58, 59] := by
  rintro ⟨-, c, hc, h, -⟩
  obtain rfl : Calendar.noleap = c := Option.some.inj ((show ofName "noleap" = some .noleap by decide).symm.trans hc)
  exact absurd h (by decide +kernel)

/-- With stamps at the ends of the steps, a `noleap` record cannot end on the 28th of February 2000. -/
example (rows : List Unit) (h : rows.length = 2 * (1440 / 60)) : ¬ ∃ F, cellFrame ⟨60, "noleap", true⟩ [57, 58] rows = .ok F := by
  intro hF
  have hin : ∀ d ∈ [57, 58], Calendar.noleap.Has (dated d) := by decide +kernel
  have := ((C119_iff (c := .noleap) (by decide) (by simp) (by decide) hin ⟨by decide, by decide⟩ true rows h).1 hF).2 rfl (by decide) 58 rfl
  obtain ⟨-, c, hc, h, -⟩ := this
  obtain rfl : Calendar.noleap = c := Option.some.inj ((show ofName "noleap" = some .noleap by decide).symm.trans hc)
  exact absurd h (by decide +kernel)

/-- Days that do not belong to the calendar are another matter: the 29th of February in the place of the 1st of March goes unnoticed, and its
values are stamped as the 1st of March. -/
example : cellFrame ⟨1440, "noleap", false⟩ [57, 58, 59, 61] ["27 feb", "28 feb", "29 feb", "2 mar"] =
    .ok [(1440 * 57, "27 feb"), (1440 * 58, "28 feb"), (1440 * 60, "29 feb"), (1440 * 61, "2 mar")] := by
  decide +kernel

end Verif.Props
