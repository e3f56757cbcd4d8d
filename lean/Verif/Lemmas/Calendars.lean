import Verif.Props.Times

/-!
# Calendars: a range that is as long as on the standard calendar has all its days
-/

namespace Verif.Props

open Datetime Times

theorem minutes_ok {c : CfTime.Calendar} {t x : Int} : c.minutes t = .ok x ↔
    ∃ n, c.number (t / 1440 + CfTime.origin) = .ok n ∧ x = 1440 * n + t % 1440 := by
  unfold CfTime.Calendar.minutes
  cases c.number (t / 1440 + CfTime.origin) with
  | error e => simp [bind, Except.bind]
  | ok n =>
    simp only [bind, Except.bind, pure, Except.pure, Except.ok.injEq, exists_eq_left']
    exact eq_comm

theorem stamp_ok {c : CfTime.Calendar} {x y : ℚ} : c.stamp x = .ok y ↔
    ∃ d, c.standard ⌊x / 1440⌋ = .ok d ∧ y = 1440 * ((d - CfTime.origin : Int) : ℚ) + (x - 1440 * ((⌊x / 1440⌋ : Int) : ℚ)) := by
  unfold CfTime.Calendar.stamp
  cases c.standard ⌊x / 1440⌋ with
  | error e => simp [bind, Except.bind]
  | ok n =>
    simp only [bind, Except.bind, pure, Except.pure, Except.ok.injEq, exists_eq_left']
    exact eq_comm

theorem mapM_length {α β : Type} {f : α → Except PyErr β} : ∀ {l : List α} {r : List β}, l.mapM f = .ok r → r.length = l.length
  | [], r, h => by cases h; rfl
  | x :: l, r, h => by
    rw [List.mapM_cons] at h
    cases hx : f x with
    | error e => rw [hx] at h; cases h
    | ok y =>
      cases hl : l.mapM f with
      | error e => rw [hx, hl] at h; cases h
      | ok ys =>
        rw [hx, hl] at h
        cases h
        simp [mapM_length hl]

theorem mapM_each {α β : Type} {f : α → Except PyErr β} : ∀ {l : List α} {r : List β}, l.mapM f = .ok r → ∀ x ∈ l, ∃ y, f x = .ok y
  | [], _, _, _, hx => by cases hx
  | x :: l, r, h, z, hz => by
    rw [List.mapM_cons] at h
    cases hx : f x with
    | error e => rw [hx] at h; cases h
    | ok y =>
      cases hl : l.mapM f with
      | error e => rw [hx, hl] at h; cases h
      | ok ys =>
        rcases List.mem_cons.1 hz with rfl | hz
        · exact ⟨y, hx⟩
        · exact mapM_each hl z hz

/-- Numbers from that of `a` to that of `b`, as many as there are days from `a` to `b` and all of them dates of the standard
calendar: they are these days. -/
theorem regular_of_count {c : CfTime.Calendar} {a b A B : Int} (ha : c.number (a + CfTime.origin) = .ok A)
    (hb : c.number (b + CfTime.origin) = .ok B) (hd : B - A = b - a)
    (hall : ∀ k, A ≤ k → k ≤ B → ∃ d, c.standard k = .ok d) :
    ∀ d, a ≤ d → d ≤ b → c.number (d + CfTime.origin) = .ok (d + (A - a)) := by
  -- the dates go up by at least one from number to number
  have up : ∀ j : Nat, ∀ k x y : Int, A ≤ k → k + j ≤ B → c.standard k = .ok x → c.standard (k + j) = .ok y → x + j ≤ y := by
    intro j
    induction j with
    | zero =>
      intro k x y _ _ h1 h2
      rw [show k + ((0 : Nat) : Int) = k by simp, h1] at h2
      have := Except.ok.inj h2
      simp; omega
    | succ j ih =>
      intro k x y hk hk' h1 h2
      obtain ⟨z, hz⟩ := hall (k + j) (by omega) (by push_cast at hk'; omega)
      have e1 := ih k x z hk (by push_cast at hk'; omega) h1 hz
      have e2 := CfTime.standard_lt hz h2 (by push_cast; omega)
      push_cast
      omega
  intro d h1 h2
  obtain ⟨x, hx⟩ := hall (d + (A - a)) (by omega) (by omega)
  have s1 := CfTime.standard_number ha
  have s2 := CfTime.standard_number hb
  obtain ⟨j, hj⟩ := Int.eq_ofNat_of_zero_le (show 0 ≤ d - a by omega)
  obtain ⟨j', hj'⟩ := Int.eq_ofNat_of_zero_le (show 0 ≤ b - d by omega)
  have u1 := up j A _ x (le_refl _) (by omega) s1 (by rw [show A + (j : Int) = d + (A - a) by omega]; exact hx)
  have u2 := up j' (d + (A - a)) x _ (by omega) (by omega) hx (by rw [show d + (A - a) + (j' : Int) = B by omega]; exact s2)
  have : x = d + CfTime.origin := by omega
  subst this
  exact CfTime.number_standard hx

/-- **A range as long as on the standard calendar**: then the calendar has all its days. -/
theorem regular_of_length {cal : String} {ts : Nat} (hts : StepOk ts) {a b : Int} (hab : a ≤ b) {l : List ℚ}
    (h : dateRange cal (1440 * a) (1440 * b + 1440 - ts) ts = .ok l) (hl : l.length = (b - a + 1).toNat * (1440 / ts)) :
    HasDays cal a b := by
  by_cases hp : cal ∈ pandasCalendars
  · exact .inl hp
  right
  have hle := hts.le
  have h0 := hts.1
  have hmul := hts.mulZ
  cases hc : CfTime.named cal with
  | none => unfold dateRange at h; rw [if_neg hp, hc] at h; cases h
  | some c =>
    refine ⟨c, rfl, ?_⟩
    have h' := h
    unfold dateRange at h'
    rw [if_neg hp, hc] at h'
    simp only at h'
    cases hA : c.minutes (1440 * a) with
    | error e => rw [hA] at h'; cases h'
    | ok A =>
      cases hB : c.minutes (1440 * b + 1440 - ts) with
      | error e => rw [hA, hB] at h'; cases h'
      | ok B =>
        obtain ⟨Na, ha, eA⟩ := minutes_ok.1 hA
        obtain ⟨Nb, hb, eB⟩ := minutes_ok.1 hB
        rw [show (1440 * a) / 1440 = a by omega] at ha
        rw [show (1440 * a) % 1440 = 0 by omega] at eA
        rw [show (1440 * b + 1440 - (ts : Int)) / 1440 = b by omega] at hb
        rw [show (1440 * b + 1440 - (ts : Int)) % 1440 = 1440 - ts by omega] at eB
        have hN : Na ≤ Nb := by
          rcases lt_or_eq_of_le hab with e | e
          · exact (CfTime.number_lt ha hb (by omega)).le
          · subst e; rw [ha] at hb; exact (Except.ok.inj hb).le
        obtain ⟨q, hq⟩ := Int.eq_ofNat_of_zero_le (show 0 ≤ Nb - Na + 1 by omega)
        have hdvd : B - A = ts * (q * (1440 / ts : Nat) - 1 : Int) := by
          rw [mul_sub, mul_one, mul_left_comm, mul_comm (ts : Int), hmul, ← hq]; omega
        rw [dateRange_cf hp hc hA hB h0 (by omega) ⟨_, hdvd⟩] at h
        have hs' : (0 : Int) < ts := by exact_mod_cast h0
        have hlen := mapM_length h
        have hcount : (Int.fdiv (B - A) ts + 1).toNat = q * (1440 / ts) := by
          rw [hdvd, Int.fdiv_eq_ediv_of_nonneg _ hs'.le, Int.mul_ediv_cancel_left _ hs'.ne', sub_add_cancel, ← Nat.cast_mul,
            Int.toNat_natCast]
        have hlen' : l.length = q * (1440 / ts) := by
          rw [hlen]; unfold pdRange; rw [List.length_map, List.length_range, hcount]
        have hq' : q = (b - a + 1).toNat := Nat.eq_of_mul_eq_mul_right hts.pos (hlen'.symm.trans hl)
        refine ⟨Na - a, regular_of_count ha hb (by omega) fun k hk1 hk2 => ?_⟩
        obtain ⟨j, hj⟩ := Int.eq_ofNat_of_zero_le (show 0 ≤ k - Na by omega)
        have hjq : j * (1440 / ts) < q * (1440 / ts) := Nat.mul_lt_mul_of_pos_right (by omega) hts.pos
        have hmem : ((1440 * k : Int) : ℚ) ∈ pdRange A B ts := by
          unfold pdRange
          rw [hcount, List.mem_map]
          refine ⟨j * (1440 / ts), List.mem_range.2 hjq, ?_⟩
          congr 1
          push_cast
          push_cast at hmul
          rw [mul_assoc, hmul]
          omega
        obtain ⟨y, hy⟩ := mapM_each h _ hmem
        obtain ⟨d, hd, -⟩ := stamp_ok.1 hy
        rw [show (((1440 * k : Int) : ℚ)) / 1440 = (k : ℚ) by push_cast; ring, Int.floor_intCast] at hd
        exact ⟨d, hd⟩

end Verif.Props
