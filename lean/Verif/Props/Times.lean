import Verif.Lemmas.Times

/-!
# Properties of the time axis: C12-C14, C65
-/

namespace Verif.Props

open Times Datetime

/-- `n` consecutive days from `d0`. -/
def consecutive (d0 : Int) (n : Nat) : List Int := (List.range n).map fun (k : Nat) => d0 + k

/-- Steps that divide a day. -/
def StepOk (ts : Nat) : Prop := 0 < ts ∧ ts ∣ 1440

theorem StepOk.le {ts : Nat} (h : StepOk ts) : ts ≤ 1440 := Nat.le_of_dvd (by norm_num) h.2
theorem StepOk.mul {ts : Nat} (h : StepOk ts) : (1440 / ts) * ts = 1440 := Nat.div_mul_cancel h.2
theorem StepOk.mulZ {ts : Nat} (h : StepOk ts) : ((1440 / ts : Nat) : Int) * ts = 1440 := by
  exact_mod_cast h.mul
theorem StepOk.pos {ts : Nat} (h : StepOk ts) : 0 < 1440 / ts := Nat.div_pos h.le h.1

theorem outputTimes_grid (ts : Nat) (cal : String) (pe : Bool) (hts : StepOk ts) (d0 : Int) (n : Nat)
    (hn : 0 < n) (hr : HasDays cal d0 (d0 + n)) :
    outputTimes ⟨ts, cal, pe⟩ (consecutive d0 n) =
      .ok (grid (1440 * d0 + (if pe then (ts : Int) else 0)) (n * (1440 / ts)) ts) := by
  unfold outputTimes consecutive
  rw [ends_consecutive d0 n hn]
  simp only [bind, Except.bind]
  have h1 := hts.mulZ
  have h2 : (((n * (1440 / ts) : Nat) : Int) - 1) * ts = n * 1440 - ts := by
    rw [Nat.cast_mul, sub_mul, mul_assoc, one_mul, h1]
  have := hts.le
  apply dateRange_grid _ _ _ _ _ hts.1 (Nat.mul_pos hn hts.pos) hr
  · split_ifs <;> omega
  · split_ifs <;> omega
  · rw [h2]
    split_ifs <;> omega

theorem disaggIndex_grid (ts : Nat) (cal : String) (pe : Bool) (hts : StepOk ts) (a b : Int) (hab : a ≤ b)
    (hr : HasDays cal a (b + 1)) :
    dateRange cal (1440 * a + (if pe then (ts : Int) else 0))
      (1440 * b + 1440 - ts + (if pe then (ts : Int) else 0)) ts =
      .ok (grid (1440 * a + (if pe then (ts : Int) else 0)) ((b - a + 1).toNat * (1440 / ts)) ts) := by
  have h1 := hts.mulZ
  have := hts.le
  obtain ⟨m, hm⟩ := Int.eq_ofNat_of_zero_le (show 0 ≤ b - a + 1 by omega)
  have h2 : ((((b - a + 1).toNat * (1440 / ts) : Nat) : Int) - 1) * ts = m * 1440 - ts := by
    rw [hm, Int.toNat_natCast, Nat.cast_mul, sub_mul, mul_assoc, one_mul, h1]
  apply dateRange_grid _ _ _ _ _ hts.1 (Nat.mul_pos (by omega) hts.pos) hr
  · split_ifs <;> omega
  · split_ifs <;> omega
  · rw [h2]
    split_ifs <;> omega

/-! ## C12 -/
section C12

/-- **C12**: on every calendar, for `n ≥ 1` consecutive days it has the axis has `n*1440/ts` stamps; stamp
`k` is the first midnight plus `k` steps; the last is the last day's end minus one step. -/
theorem C12_time_axis (ts : Nat) (cal : String) (hts : StepOk ts) (d0 : Int) (n : Nat) (hn : 0 < n)
    (hr : HasDays cal d0 (d0 + n)) :
    ∃ T, outputTimes ⟨ts, cal, false⟩ (consecutive d0 n) = .ok T ∧ T.length = n * (1440 / ts) ∧
      (∀ k < n * (1440 / ts), T[k]? = some ((1440 * d0 + k * ts : Int) : ℚ)) ∧
      T.getLast? = some ((1440 * (d0 + n) - ts : Int) : ℚ) := by
  refine ⟨_, outputTimes_grid ts cal false hts d0 n hn hr, by simp, ?_, ?_⟩
  · intro k hk
    rw [getElem?_grid _ _ _ _ hk]; simp
  · rw [getLast?_grid _ _ _ (Nat.mul_pos hn hts.pos)]
    congr 2
    have h2 : (((n * (1440 / ts) : Nat) : Int) - 1) * ts = n * 1440 - ts := by
      have h1 := hts.mulZ
      rw [Nat.cast_mul, sub_mul, mul_assoc, one_mul, h1]
    rw [h2]; simp; ring

/-- An empty record has no axis. -/
theorem C12_empty (c : Cfg) : outputTimes c [] = .error .indexError := rfl

example : StepOk 180 ∧ outputTimes ⟨720, "noleap", false⟩ (consecutive 3 2) =
    .ok [4320, 5040, 5760, 6480] := by constructor <;> [exact ⟨by norm_num, by norm_num⟩; decide +kernel]

end C12

/-! ## C13, C14 -/
section C14

variable {α : Type}

theorem zip_fst_map (idx : List ℚ) (rows : List α) (o : ℚ) :
    (idx.zip rows).map (fun r => (r.1 + o, r.2)) = (idx.map (· + o)).zip rows := by
  induction idx generalizing rows with
  | nil => rfl
  | cons x xs ih => cases rows with
    | nil => rfl
    | cons r rs => simp [ih]

/-- The frame of a cell, when the number of rows is right. -/
theorem cellFrame_eq (ts : Nat) (cal : String) (pe : Bool) (hts : StepOk ts) (d0 : Int) (n : Nat)
    (hn : 0 < n) (hc : HasDays cal d0 (d0 + n)) (rows : List α) (hr : rows.length = n * (1440 / ts)) :
    cellFrame ⟨ts, cal, pe⟩ (consecutive d0 n) rows =
      .ok ((grid (1440 * d0 + (if pe ∧ ts < 1440 then (ts : Int) else 0)) (n * (1440 / ts)) ts).zip rows) := by
  have hE := ends_consecutive d0 n hn
  have hM : 0 < n * (1440 / ts) := Nat.mul_pos hn hts.pos
  have hz : (d0 + ↑n - 1 - d0 + 1).toNat = n := by omega
  have hgrid : ∀ pe' : Bool, dateRange cal (1440 * d0 + (if pe' then (ts : Int) else 0))
      (1440 * (d0 + n - 1) + 1440 - ts + (if pe' then (ts : Int) else 0)) ts =
      .ok (grid (1440 * d0 + (if pe' then (ts : Int) else 0)) (n * (1440 / ts)) ts) := by
    intro pe'
    have := disaggIndex_grid ts cal pe' hts d0 (d0 + n - 1) (by omega) (hc.sub (le_refl _) (by omega))
    rwa [hz] at this
  have hg0 : dateRange cal (1440 * d0) (1440 * (d0 + n - 1) + 1440 - ts) ts =
      .ok (grid (1440 * d0) (n * (1440 / ts)) ts) := by
    have := hgrid false; simpa using this
  have hatt : attach (grid (1440 * d0) (n * (1440 / ts)) ts) rows =
      .ok ((grid (1440 * d0) (n * (1440 / ts)) ts).zip rows) := by
    simp [attach, hr]
  have hcut : ∀ (s : Int), cut (grid s (n * (1440 / ts)) ts) ((grid s (n * (1440 / ts)) ts).zip rows) =
      .ok ((grid s (n * (1440 / ts)) ts).zip rows) := by
    intro s
    refine cut_all _ _ _ _ (head?_grid s _ ts hM) (getLast?_grid s _ ts hM) ?_
    rintro ⟨t, x⟩ hmem
    exact mem_grid_bounds (List.of_mem_zip hmem).1
  unfold cellFrame consecutive
  rw [hE]
  simp only [bind, Except.bind]
  by_cases h : ts < 1440
  · rw [if_pos h]
    unfold disaggIndex
    rw [hE]
    simp only [bind, Except.bind]
    rw [hg0]
    simp only [hatt]
    have := hgrid pe
    rw [this]
    simp only [h, and_true]
    cases pe with
    | false => simpa using hcut (1440 * d0)
    | true =>
      simp only [if_true, zip_fst_map]
      have e : (grid (1440 * d0) (n * (1440 / ts)) ts).map (· + (ts : ℚ)) =
          grid (1440 * d0 + ts) (n * (1440 / ts)) ts := by
        rw [grid_shift]; simp
      rw [e]
      exact hcut _
  · rw [if_neg h, hg0]
    simp only [hatt, h, and_false, if_false, add_zero]
    exact hcut _

/-- **C14**: rows are attached one per stamp of the output axis, in order and without loss; for
sub-daily steps, and for daily steps without `period_ending`, the frame's index *is* the output axis. -/
theorem C14_axes_agree (ts : Nat) (cal : String) (pe : Bool) (hts : StepOk ts) (d0 : Int) (n : Nat)
    (hn : 0 < n) (hc : HasDays cal d0 (d0 + n)) (rows : List α) (hr : rows.length = n * (1440 / ts)) :
    ∃ T F, outputTimes ⟨ts, cal, pe⟩ (consecutive d0 n) = .ok T ∧
      cellFrame ⟨ts, cal, pe⟩ (consecutive d0 n) rows = .ok F ∧
      F.map Prod.snd = rows ∧ F.length = T.length ∧
      (ts < 1440 ∨ pe = false → F.map Prod.fst = T) ∧
      (ts = 1440 → F.map Prod.fst = T.map (· - if pe then 1440 else 0)) := by
  refine ⟨_, _, outputTimes_grid ts cal pe hts d0 n hn hc, cellFrame_eq ts cal pe hts d0 n hn hc rows hr,
    ?_, ?_, ?_, ?_⟩
  · exact List.map_snd_zip (by simp [hr])
  · simp [hr]
  · intro h
    rw [List.map_fst_zip (by simp [hr])]
    rcases h with h | h <;> simp [h]
  · intro h
    rw [List.map_fst_zip (by simp [hr])]
    subst h
    cases pe with
    | false => simp
    | true =>
      simp only [lt_irrefl, and_false, if_false, if_true, add_zero, grid_shift, List.map_map]
      symm
      convert List.map_id _
      funext x; simp

/-- **C13**: switching `period_ending` on moves every stamp of the axis later by one step and changes
neither the number of stamps nor the value stored at each position. -/
theorem C13_period_ending (ts : Nat) (cal : String) (hts : StepOk ts) (d0 : Int) (n : Nat)
    (hn : 0 < n) (hc : HasDays cal d0 (d0 + n)) (rows : List α) (hr : rows.length = n * (1440 / ts)) :
    ∃ T T' F F', outputTimes ⟨ts, cal, false⟩ (consecutive d0 n) = .ok T ∧
      outputTimes ⟨ts, cal, true⟩ (consecutive d0 n) = .ok T' ∧
      T' = T.map (· + (ts : ℚ)) ∧
      cellFrame ⟨ts, cal, false⟩ (consecutive d0 n) rows = .ok F ∧
      cellFrame ⟨ts, cal, true⟩ (consecutive d0 n) rows = .ok F' ∧
      F.map Prod.snd = F'.map Prod.snd := by
  obtain ⟨T, F, h1, h2, h3, -⟩ := C14_axes_agree ts cal false hts d0 n hn hc rows hr
  obtain ⟨T', F', h1', h2', h3', -⟩ := C14_axes_agree ts cal true hts d0 n hn hc rows hr
  refine ⟨T, T', F, F', h1, h1', ?_, h2, h2', by rw [h3, h3']⟩
  rw [outputTimes_grid ts cal _ hts d0 n hn hc] at h1 h1'
  injection h1 with h1; injection h1' with h1'
  subst h1; subst h1'
  simp only [if_true, Bool.false_eq_true, if_false, add_zero]
  rw [grid_shift]; simp

/-- Non-vacuity: two days in 12-hour steps. -/
example : cellFrame ⟨720, "standard", true⟩ (consecutive 0 2) ["a", "b", "c", "d"] =
    .ok [(720, "a"), (1440, "b"), (2160, "c"), (2880, "d")] := by decide +kernel

end C14

/-! ## C65 -/
section C65

/-- **C65**: for any increasing list of days on a calendar that has all days of the period and one row per step of each day, a frame comes out
exactly if the days are consecutive; otherwise the run stops with a ValueError. -/
theorem C65_gaps_refused {α : Type} (ts : Nat) (cal : String) (pe : Bool) (hts : StepOk ts)
    (days : List Int) (hne : days ≠ []) (hinc : days.Pairwise (· < ·))
    (hcal : HasDays cal (days.head hne) (days.getLast hne + 1)) (rows : List α)
    (hr : rows.length = days.length * (1440 / ts)) :
    (∃ d0, days = consecutive d0 days.length) ∧ (∃ F, cellFrame ⟨ts, cal, pe⟩ days rows = .ok F) ∨
    (¬ ∃ d0, days = consecutive d0 days.length) ∧
      cellFrame ⟨ts, cal, pe⟩ days rows = .error .valueError := by
  by_cases hc : ∃ d0, days = consecutive d0 days.length
  · left
    refine ⟨hc, ?_⟩
    obtain ⟨d0, hd⟩ := hc
    have hn := List.length_pos_of_ne_nil hne
    have hh : days.head hne = d0 := by
      have e : days.head? = (consecutive d0 days.length).head? := congrArg List.head? hd
      rw [List.head?_eq_some_head hne, List.head?_eq_getElem?, consecutive, List.getElem?_map, List.getElem?_range hn] at e
      simpa using e
    have hl : days.getLast hne = d0 + days.length - 1 := by
      have e : days.getLast? = (consecutive d0 days.length).getLast? := congrArg List.getLast? hd
      rw [List.getLast?_eq_some_getLast hne, consecutive, List.getLast?_map, List.getLast?_range, if_neg (by omega)] at e
      have := Option.some.inj e
      beta_reduce at this
      omega
    rw [hh, hl] at hcal
    rw [hd]
    exact ⟨_, cellFrame_eq ts cal pe hts d0 days.length hn (hcal.sub (le_refl _) (by omega)) rows hr⟩
  · right
    refine ⟨hc, ?_⟩
    -- the span exceeds the number of days
    have key : ∀ (l : List Int) (a : Int), (a :: l).Pairwise (· < ·) →
        a + l.length ≤ (a :: l).getLast (by simp) ∧
        ((a :: l).getLast (by simp) = a + l.length → a :: l = consecutive a (l.length + 1)) := by
      intro l
      induction l with
      | nil => intro a _; simp [consecutive]
      | cons b l ih =>
        intro a hp
        have hab : a < b := by
          rw [List.pairwise_cons] at hp; exact hp.1 b (by simp)
        have ih' := ih b (List.pairwise_cons.1 hp).2
        rw [List.getLast_cons (by simp)]
        simp only [List.length_cons]
        constructor
        · push_cast; omega
        · intro h
          push_cast at h
          have hb : b = a + 1 := by omega
          have := ih'.2 (by omega)
          rw [this, hb]
          simp only [consecutive]
          rw [List.range_succ_eq_map (n := l.length + 1)]
          simp only [List.map_cons, List.map_map, Nat.cast_zero, add_zero]
          congr 1
          apply List.map_congr_left
          intro k _
          simp only [Function.comp, Nat.succ_eq_add_one]
          push_cast; ring
    obtain ⟨a, l, rfl⟩ := List.exists_cons_of_ne_nil hne
    obtain ⟨k1, k2⟩ := key l a hinc
    generalize hb : (a :: l).getLast (by simp) = b at k1 k2
    have hends : ends (a :: l) = .ok (a, b) := by
      unfold ends
      rw [List.head?_cons, List.getLast?_eq_getLast_of_ne_nil (by simp), hb]
    have hgt : a + l.length < b := by
      rcases lt_or_eq_of_le k1 with h | h
      · exact h
      · exact absurd ⟨a, k2 h.symm⟩ hc
    have hg0 : dateRange cal (1440 * a) (1440 * b + 1440 - ts) ts =
        .ok (grid (1440 * a) ((b - a + 1).toNat * (1440 / ts)) ts) := by
      have := disaggIndex_grid ts cal false hts a b (by omega) (by rw [← hb]; exact hcal)
      simpa using this
    have hatt : attach (grid (1440 * a) ((b - a + 1).toNat * (1440 / ts)) ts) rows =
        .error .valueError := by
      unfold attach
      rw [if_neg]
      rw [length_grid, hr]
      intro h
      have := Nat.eq_of_mul_eq_mul_right hts.pos h
      simp only [List.length_cons] at this
      omega
    unfold cellFrame
    rw [hends]
    simp only [bind, Except.bind]
    by_cases h : ts < 1440
    · rw [if_pos h]
      unfold disaggIndex
      rw [hends]
      simp only [bind, Except.bind]
      rw [hg0]
      simp only [hatt]
    · rw [if_neg h, hg0]
      simp only [hatt]

example : cellFrame ⟨1440, "standard", false⟩ [0, 1, 3] ["a", "b", "c"] = .error .valueError := by
  decide +kernel

end C65
end Verif.Props
