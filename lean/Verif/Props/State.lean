import Verif.Model.State
import Verif.Props.Params

/-!
# State aggregation and monthly parameters: C32, C33, C34, C35
-/

set_option linter.unusedSectionVars false

namespace Verif.Props

open State

variable {K : Type} [Field K] [LinearOrder K] [CharZero K] {ι : Type}

/-! ## Lemmas -/

theorem getElem?_rolling (w : Nat) (xs : List (Flt K)) (p : Nat) (hp : p < xs.length)
    (hw : w ≤ p + 1) : (rolling w xs)[p]? =
      some (Flt.mean ((List.range w).map fun (j : Nat) => (xs[p + 1 - w + j]?).getD .nan)) := by
  unfold rolling
  rw [List.getElem?_map, List.getElem?_range hp]
  simp only [Option.map_some]
  rw [if_neg (by omega)]
  congr 2
  apply List.ext_getElem
  · simp; omega
  · intro j h1 h2
    have hj : j < w := by simpa using h2
    have : p + 1 - w + j < xs.length := by omega
    simp [this]

theorem get?_zip_range {α : Type} (f : Nat → Int) (hf : ∀ a b, f a = f b → a = b) (m k : Nat)
    (ys : List α) (hm : ys.length = m) (hk : k < m) :
    Dict.get? (((List.range m).map f).zip ys) (f k) = ys[k]? := by
  induction ys generalizing m k f with
  | nil => simp at hm; omega
  | cons y ys ih =>
    cases m with
    | zero => omega
    | succ m =>
      rw [List.range_succ_eq_map, List.map_cons, List.zip_cons_cons, Dict.get?_cons, List.map_map]
      cases k with
      | zero => simp
      | succ k =>
        rw [if_neg (fun h => by have := hf _ _ h; omega)]
        have := ih (f ∘ Nat.succ) (fun a b h => by have := hf _ _ h; omega) m k (by simpa using hm) (by omega)
        simpa using this

theorem get?_filter {α : Type} (p : Int → Bool) (s : Dict Int α) (d : Int) :
    Dict.get? (s.filter fun x => p x.1) d = if p d then Dict.get? s d else none := by
  induction s with
  | nil => simp
  | cons x s ih =>
    rw [List.filter_cons, Dict.get?_cons]
    by_cases hx : p x.1 = true
    · rw [if_pos hx, Dict.get?_cons, ih]
      by_cases h : x.1 = d
      · subst h; simp [hx]
      · simp [h]
    · rw [if_neg hx, ih]
      by_cases h : x.1 = d
      · subst h; simp [hx]
      · simp [h]

theorem get?_map_val {α β : Type} (f : α → β) (s : Dict Int α) (d : Int) :
    Dict.get? (s.map fun x => (x.1, f x.2)) d = (Dict.get? s d).map f := by
  induction s with
  | nil => simp
  | cons x s ih =>
    rw [List.map_cons, Dict.get?_cons, Dict.get?_cons, ih]
    split <;> simp

/-! ## C32 -/
section C32

/-- The 90 days before `start`. -/
def daysBefore (start : Int) : List Int := (List.range 90).map fun (k : Nat) => start - 90 + (k : Int)
/-- The `n` simulated days from `start`. -/
def simDays (start : Int) (n : Nat) : List Int := (List.range n).map fun (k : Nat) => start + (k : Int)

/-- The value of a daily quantity on any day from 90 days before `start`: from the state file before
`start`, from the forcing afterwards. -/
def onDay (start : Int) (st met : List (Flt K)) (d : Int) : Flt K :=
  if d < start then (st[(d - (start - 90)).toNat]?).getD .nan else (met[(d - start).toNat]?).getD .nan

/-- The mean over the `w` days ending on day `d`. -/
def trailingMean (w : Nat) (f : Int → Flt K) (d : Int) : Flt K :=
  Flt.mean ((List.range w).map fun (j : Nat) => f (d - w + 1 + (j : Int)))

/-- Record lengths as the readers deliver them. -/
def Sized (n : Nat) (x : Daily K) : Prop := x.prec.length = n ∧ x.tMin.length = n ∧ x.tMax.length = n

theorem days_joined (start : Int) (n : Nat) :
    daysBefore start ++ simDays start n
      = (List.range (90 + n)).map fun (k : Nat) => start - 90 + (k : Int) := by
  rw [List.range_add, List.map_append]
  unfold daysBefore simDays
  congr 1
  rw [List.map_map]
  apply List.map_congr_left
  intro k _
  simp only [Function.comp_apply, Nat.cast_add, Nat.cast_ofNat]
  ring

theorem rolling_day (w : Nat) (hw : w ≤ 91) (start : Int) (st met : List (Flt K)) (i : Nat)
    (hs : st.length = 90) (hi : i < met.length) :
    (rolling w (st ++ met))[90 + i]? = some (trailingMean w (onDay start st met) (start + i)) := by
  rw [getElem?_rolling w _ _ (by simp [hs]; omega) (by omega)]
  unfold trailingMean
  congr 2
  apply List.map_congr_left
  intro j hj
  have hj : j < w := by simpa using hj
  unfold onDay
  by_cases h : 90 + i + 1 - w + j < 90
  · rw [List.getElem?_append_left (by omega), if_pos (by omega)]
    congr 2
    omega
  · rw [List.getElem?_append_right (by omega), if_neg (by omega)]
    congr 2
    omega

theorem length_range (d : Daily K) (n : Nat) (h : Sized n d) : (range d).length = n := by
  simp [range, h.2.1, h.2.2]

/-- **C32**: seasonal precipitation is 365.25 times the mean of the 90 days ending on the day, the
smoothed range the mean of the 30 days ending on the day, the range the day's own. -/
theorem C32_windows (start : Int) (n : Nat) (cells : List ι) (st met : ι → Daily K)
    (out : ι → Agg K)
    (hst : ∀ c, Sized 90 (st c)) (hmet : ∀ c, Sized n (met c))
    (h : aggregateState 90 (daysBefore start) start (start + n - 1) (simDays start n) cells st met = .ok out)
    (c : ι) (i : Nat) (hi : i < n) :
    (out c).seasonalPrec[i]? = some (.fin (1461 / 4) *
      trailingMean 90 (onDay start (st c).prec (met c).prec) (start + i)) ∧
    (out c).smoothedDtr[i]? = some
      (trailingMean 30 (onDay start (range (st c)) (range (met c))) (start + i)) ∧
    (out c).dtr = range (met c) := by
  unfold aggregateState at h
  simp only [ne_eq, not_true_eq_false, if_false, bind, Except.bind, pure, Except.pure] at h
  have hl : (daysBefore start).length = 90 := by simp [daysBefore]
  simp only [hl, not_true_eq_false, if_false] at h
  split at h
  · cases h
  · · injection h with h
      subst h
      have hd : (simDays start n)[i]? = some (start + i) := by simp [simDays, hi]
      have hday : ((start - 90 + ((90 + i : Nat) : Int))) = start + i := by push_cast; ring
      refine ⟨?_, ?_, rfl⟩
      · simp only [aggregateCell, onto, List.getElem?_map, hd, Option.map_some]
        rw [get?_map_val, get?_filter (fun d => decide (start ≤ d ∧ d ≤ start + n - 1)), days_joined, ← hday,
          get?_zip_range _ (fun a b h => by omega) _ _ _
            (by simp [rolling, (hst c).1, (hmet c).1]) (by omega),
          rolling_day 90 (by omega) start _ _ i (hst c).1 (by rw [(hmet c).1]; exact hi),
          if_pos (by simp; omega)]
        simp only [Option.map_some, Option.getD_some, Cnst.DAYS_PER_YEAR]
        rw [← hday, show (365.25 : K) = 1461 / 4 by norm_num]
      · simp only [aggregateCell, onto, List.getElem?_map, hd, Option.map_some]
        rw [get?_filter (fun d => decide (d ∉ daysBefore start)), days_joined, ← hday,
          get?_zip_range _ (fun a b h => by omega) _ _ _
            (by simp [rolling, length_range _ _ (hst c), length_range _ _ (hmet c)]) (by omega),
          rolling_day 30 (by omega) start _ _ i (length_range _ _ (hst c))
            (by rw [length_range _ _ (hmet c)]; exact hi),
          if_pos (by
            simp only [daysBefore, List.mem_map, List.mem_range, decide_eq_true_eq]
            rintro ⟨k, hk, e⟩
            omega)]
        simp only [Option.getD_some]
        rw [← hday]

theorem mean_isFin (xs : List (Flt K)) (hne : xs ≠ []) (h : ∀ x ∈ xs, x.isFin = true) :
    (Flt.mean xs).isFin = true := by
  obtain ⟨ys, rfl⟩ := Flt.exists_map_fin xs h
  unfold Flt.mean
  rw [Flt.sum_map_fin, Flt.div_fin_ne]
  · rfl
  · simp only [List.length_map, ne_eq, Nat.cast_eq_zero, List.length_eq_zero_iff]
    rintro rfl; exact hne rfl

/-- **C32**: with complete inputs no simulated day is undefined. -/
theorem C32_defined (start : Int) (n : Nat) (cells : List ι) (st met : ι → Daily K)
    (out : ι → Agg K) (hst : ∀ c, Sized 90 (st c)) (hmet : ∀ c, Sized n (met c))
    (h : aggregateState 90 (daysBefore start) start (start + n - 1) (simDays start n) cells st met = .ok out)
    (c : ι)
    (fin : ∀ x ∈ (st c).prec ++ (st c).tMin ++ (st c).tMax ++ (met c).prec ++ (met c).tMin ++ (met c).tMax,
      x.isFin = true) :
    (out c).seasonalPrec.length = n ∧ (out c).smoothedDtr.length = n ∧ (out c).dtr.length = n ∧
    ∀ x ∈ (out c).seasonalPrec ++ (out c).smoothedDtr ++ (out c).dtr, x.isFin = true := by
  have hw := C32_windows start n cells st met out hst hmet h c
  have hlen : (out c).seasonalPrec.length = n ∧ (out c).smoothedDtr.length = n ∧ (out c).dtr.length = n := by
    have h' := h
    unfold aggregateState at h'
    simp only [ne_eq, not_true_eq_false, if_false, bind, Except.bind, pure, Except.pure] at h'
    have hl : (daysBefore start).length = 90 := by simp [daysBefore]
    simp only [hl, not_true_eq_false, if_false] at h'
    split at h'
    · cases h'
    · · injection h' with h'
        subst h'
        exact ⟨by simp [aggregateCell, onto, simDays], by simp [aggregateCell, onto, simDays],
          length_range _ _ (hmet c)⟩
  have hrange : ∀ d : Daily K, (∀ x ∈ d.tMin ++ d.tMax, x.isFin = true) → ∀ x ∈ range d, x.isFin = true := by
    intro d hd x hx
    unfold range at hx
    obtain ⟨k, hk, rfl⟩ := List.getElem_of_mem hx
    rw [List.getElem_zipWith]
    have hk' : k < d.tMax.length ∧ k < d.tMin.length := by simpa using hk
    obtain ⟨a, ha⟩ := (Flt.isFin_iff _).1 (hd (d.tMax[k]'hk'.1) (by simp))
    obtain ⟨b, hb⟩ := (Flt.isFin_iff _).1 (hd (d.tMin[k]'hk'.2) (by simp))
    rw [ha, hb]; rfl
  have hrs := hrange (st c) (fun x hx => fin x (by simp only [List.mem_append] at hx ⊢; tauto))
  have hrm := hrange (met c) (fun x hx => fin x (by simp only [List.mem_append] at hx ⊢; tauto))
  have hday : ∀ (a b : List (Flt K)), a.length = 90 → b.length = n → (∀ x ∈ a ++ b, x.isFin = true) →
      ∀ d, start - 90 ≤ d → d < start + n → (onDay start a b d).isFin = true := by
    intro a b ha hb hf d h1 h2
    unfold onDay
    split
    · rw [List.getElem?_eq_getElem (by omega)]
      exact hf _ (by simp)
    · rw [List.getElem?_eq_getElem (by omega)]
      exact hf _ (by simp)
  have htrail : ∀ (w : Nat) (f : Int → Flt K) (i : Nat), 0 < w → w ≤ 90 → i < n →
      (∀ d, start - 90 ≤ d → d < start + n → (f d).isFin = true) →
      (trailingMean w f (start + i)).isFin = true := by
    intro w f i hw0 hw hi hf
    refine mean_isFin _ (by simp; omega) ?_
    intro x hx
    obtain ⟨j, hj, rfl⟩ := List.mem_map.1 hx
    have hj : j < w := by simpa using hj
    exact hf _ (by omega) (by omega)
  refine ⟨hlen.1, hlen.2.1, hlen.2.2, ?_⟩
  intro x hx
  simp only [List.mem_append] at hx
  rcases hx with (hx | hx) | hx
  · obtain ⟨i, hi, rfl⟩ := List.getElem_of_mem hx
    have := (hw i (by omega)).1
    rw [List.getElem?_eq_getElem hi] at this
    rw [Option.some.inj this]
    have h1 := htrail 90 (onDay start (st c).prec (met c).prec) i (by omega) (by omega) (by omega)
      (hday _ _ (hst c).1 (hmet c).1 (fun x hx => fin x (by
        simp only [List.mem_append] at hx ⊢; tauto)))
    obtain ⟨a, ha⟩ := (Flt.isFin_iff _).1 h1
    rw [ha]; rfl
  · obtain ⟨i, hi, rfl⟩ := List.getElem_of_mem hx
    have := (hw i (by omega)).2.1
    rw [List.getElem?_eq_getElem hi] at this
    rw [Option.some.inj this]
    refine htrail 30 _ i (by omega) (by omega) (by omega) (hday _ _ (length_range _ _ (hst c))
      (length_range _ _ (hmet c)) ?_)
    intro x hx
    rcases List.mem_append.1 hx with hx | hx
    · exact hrs x hx
    · exact hrm x hx
  · rcases Nat.eq_zero_or_pos n with rfl | hn
    · have : (out c).dtr = [] := List.length_eq_zero_iff.1 hlen.2.2
      rw [this] at hx; simp at hx
    · have := (hw 0 hn).2.2
      rw [this] at hx
      exact hrm x hx

/-- **C32**: the state record is refused unless it has exactly 90 days (and the record dates too). -/
theorem C32_state_length (nState : Nat) (record : List Int) (start stop : Int) (days : List Int)
    (cells : List ι) (st met : ι → Daily K) (out : ι → Agg K)
    (h : aggregateState nState record start stop days cells st met = .ok out) :
    nState = 90 ∧ record.length = 90 := by
  unfold aggregateState at h
  simp only [bind, Except.bind, pure, Except.pure] at h
  by_cases h1 : nState = 90
  · subst h1
    by_cases h2 : record.length = 90
    · exact ⟨rfl, h2⟩
    · simp [h2, throw, throwThe, MonadExceptOf.throw] at h
  · simp [h1, throw, throwThe, MonadExceptOf.throw] at h

/-- Non-vacuity: with precipitation 1 before and 2 from the start, the third day's window holds 87
days of 1 and 3 of 2. -/
example : ((aggregateState (K := ℚ) 90 (daysBefore 100) 100 102 (simDays 100 3) [()]
    (fun _ => ⟨List.replicate 90 (.fin 1), List.replicate 90 (.fin 0), List.replicate 90 (.fin 1)⟩)
    (fun _ => ⟨List.replicate 3 (.fin 2), List.replicate 3 (.fin 0), List.replicate 3 (.fin 4)⟩)).toOption.map
      fun out => ((out ()).seasonalPrec[2]?, (out ()).smoothedDtr[2]?)) =
    some (some (.fin (1461 / 4 * 93 / 90)), some (.fin (39 / 30))) := by
  decide +kernel

end C32

/-! ## C33 -/
section C33

/-- The daily inputs of one cell for `n` days from `start`. -/
def window (f : Int → Flt K × Flt K × Flt K) (start : Int) (n : Nat) : Daily K where
  prec := (simDays start n).map fun d => (f d).1
  tMin := (simDays start n).map fun d => (f d).2.1
  tMax := (simDays start n).map fun d => (f d).2.2

theorem sized_window (f : Int → Flt K × Flt K × Flt K) (start : Int) (n : Nat) :
    Sized n (window f start n) := by
  refine ⟨?_, ?_, ?_⟩ <;> simp [window, simDays]

theorem onDay_window (f : Int → Flt K) (start : Int) (n : Nat) (d : Int) (h1 : start - 90 ≤ d)
    (h2 : d < start + n) :
    onDay start ((simDays (start - 90) 90).map f) ((simDays start n).map f) d = f d := by
  unfold onDay
  split
  · rw [List.getElem?_eq_getElem (by simp [simDays]; omega)]
    simp only [simDays, List.getElem_map, List.getElem_range, Option.getD_some]
    congr 1
    omega
  · rw [List.getElem?_eq_getElem (by simp [simDays]; omega)]
    simp only [simDays, List.getElem_map, List.getElem_range, Option.getD_some]
    congr 1
    omega

theorem range_window (f : Int → Flt K × Flt K × Flt K) (start : Int) (n : Nat) :
    range (window f start n) = (simDays start n).map fun d => (f d).2.2 - (f d).2.1 := by
  unfold range window
  rw [List.zipWith_map_left, List.zipWith_map_right, List.zipWith_self]

/-- What a run computes for a day, as a function of the endless daily record. -/
theorem run_on_record (f : ι → Int → Flt K × Flt K × Flt K) (start : Int) (n : Nat) (cells : List ι)
    (out : ι → Agg K)
    (h : aggregateState 90 (daysBefore start) start (start + n - 1) (simDays start n) cells
      (fun c => window (f c) (start - 90) 90) (fun c => window (f c) start n) = .ok out)
    (c : ι) (i : Nat) (hi : i < n) :
    (out c).seasonalPrec[i]? = some (.fin (1461 / 4) * trailingMean 90 (fun d => (f c d).1) (start + i)) ∧
    (out c).smoothedDtr[i]? = some
      (trailingMean 30 (fun d => (f c d).2.2 - (f c d).2.1) (start + i)) ∧
    (out c).dtr[i]? = some ((f c (start + i)).2.2 - (f c (start + i)).2.1) := by
  have htrail : ∀ (w : Nat) (g g' : Int → Flt K), w ≤ 90 →
      (∀ d, start - 90 ≤ d → d < start + n → g d = g' d) →
      trailingMean w g (start + i) = trailingMean w g' (start + i) := by
    intro w g g' hw hg
    unfold trailingMean
    congr 1
    apply List.map_congr_left
    intro j hj
    have : j < w := by simpa using hj
    exact hg _ (by omega) (by omega)
  obtain ⟨h1, h2, h3⟩ := C32_windows start n cells _ _ out (fun c => sized_window _ _ _)
    (fun c => sized_window _ _ _) h c i hi
  refine ⟨?_, ?_, ?_⟩
  · rw [h1, htrail 90 _ (fun d => (f c d).1) (by omega)]
    intro d hd1 hd2
    exact onDay_window (fun d => (f c d).1) start n d hd1 hd2
  · rw [h2, htrail 30 _ (fun d => (f c d).2.2 - (f c d).2.1) (by omega)]
    intro d hd1 hd2
    rw [range_window, range_window]
    exact onDay_window (fun d => (f c d).2.2 - (f c d).2.1) start n d hd1 hd2
  · rw [h3, range_window]
    simp [simDays, hi]

/-- **C33**: a run over `k + m` days, and the run over the last `m` of them started from the 90 days
before, agree on every common day; so do the run over the first `k` days and the whole. -/
theorem C33_restart (f : ι → Int → Flt K × Flt K × Flt K) (start : Int) (k m : Nat) (cells : List ι)
    (whole first second : ι → Agg K)
    (hw : aggregateState 90 (daysBefore start) start (start + ((k + m : Nat) : Int) - 1)
      (simDays start (k + m)) cells (fun c => window (f c) (start - 90) 90)
      (fun c => window (f c) start (k + m)) = .ok whole)
    (h1 : aggregateState 90 (daysBefore start) start (start + (k : Int) - 1) (simDays start k) cells
      (fun c => window (f c) (start - 90) 90) (fun c => window (f c) start k) = .ok first)
    (h2 : aggregateState 90 (daysBefore (start + k)) (start + k) (start + k + (m : Int) - 1)
      (simDays (start + k) m) cells
      (fun c => window (f c) (start + k - 90) 90) (fun c => window (f c) (start + k) m) = .ok second)
    (c : ι) :
    (∀ i < k, (first c).seasonalPrec[i]? = (whole c).seasonalPrec[i]? ∧
      (first c).smoothedDtr[i]? = (whole c).smoothedDtr[i]? ∧ (first c).dtr[i]? = (whole c).dtr[i]?) ∧
    (∀ i < m, (second c).seasonalPrec[i]? = (whole c).seasonalPrec[k + i]? ∧
      (second c).smoothedDtr[i]? = (whole c).smoothedDtr[k + i]? ∧
      (second c).dtr[i]? = (whole c).dtr[k + i]?) := by
  constructor
  · intro i hi
    have a := run_on_record f start (k + m) cells whole hw c i (by omega)
    have b := run_on_record f start k cells first h1 c i hi
    exact ⟨by rw [a.1, b.1], by rw [a.2.1, b.2.1], by rw [a.2.2, b.2.2]⟩
  · intro i hi
    have a := run_on_record f start (k + m) cells whole hw c (k + i) (by omega)
    have b := run_on_record f (start + k) m cells second h2 c i hi
    have e : start + ((k + i : Nat) : Int) = start + k + i := by push_cast; ring
    rw [e] at a
    exact ⟨by rw [a.1, b.1], by rw [a.2.1, b.2.1], by rw [a.2.2, b.2.2]⟩

/-- **C33**: the (unused) restart code keeps the right days: after `n` new days the state is the 90
days before the next one. -/
theorem C33_unpack {α : Type} (f : Int → α) (start : Int) (n : Nat) :
    unpackState ((simDays (start - 90) 90).map f) ((simDays start n).map f)
      = (simDays (start + n - 90) 90).map f := by
  unfold unpackState
  have h : (simDays (start - 90) 90).map f ++ (simDays start n).map f
      = (simDays (start - 90) (90 + n)).map f := by
    rw [← List.map_append]
    congr 1
    unfold simDays
    rw [List.range_add, List.map_append]
    congr 1
    rw [List.map_map]
    apply List.map_congr_left
    intro k _
    simp only [Function.comp_apply, Nat.cast_add, Nat.cast_ofNat]
    ring
  rw [h]
  apply List.ext_getElem
  · simp [simDays]
  · intro i h1 h2
    simp only [simDays, List.length_map, List.length_range, List.getElem_drop, List.getElem_map,
      List.getElem_range, Nat.add_sub_cancel_left, Nat.cast_add]
    congr 1
    ring

end C33

/-! ## C34 -/
section C34

/-- **C34**: with a 90-day state the run is refused exactly if some cell has a day whose maximum is
below its minimum. -/
theorem C34_inverted [IsStrictOrderedRing K] (start : Int) (n : Nat) (cells : List ι) (st met : ι → Daily K) :
    aggregateState 90 (daysBefore start) start (start + n - 1) (simDays start n) cells st met
        = .error .valueError ↔
      ∃ c ∈ cells, ∃ (i : Nat) (lo hi : K), (met c).tMin[i]? = some (.fin lo) ∧
        (met c).tMax[i]? = some (.fin hi) ∧ hi < lo := by
  have hany : (cells.any (fun c => (range (met c)).any fun x => Flt.lt x (.fin 0))) = true ↔
      ∃ c ∈ cells, ∃ (i : Nat) (lo hi : K), (met c).tMin[i]? = some (.fin lo) ∧
        (met c).tMax[i]? = some (.fin hi) ∧ hi < lo := by
    simp only [List.any_eq_true]
    refine exists_congr fun c => and_congr_right fun _ => ?_
    constructor
    · rintro ⟨x, hx, hlt⟩
      unfold range at hx
      obtain ⟨i, hi, rfl⟩ := List.getElem_of_mem hx
      rw [List.getElem_zipWith] at hlt
      have hi' : i < (met c).tMax.length ∧ i < (met c).tMin.length := by simpa using hi
      cases ha : (met c).tMax[i]'hi'.1 with
      | nan => rw [ha] at hlt; simp at hlt
      | fin a =>
        cases hb : (met c).tMin[i]'hi'.2 with
        | nan => rw [hb] at hlt; simp at hlt
        | fin b =>
          rw [ha, hb] at hlt
          simp only [Flt.sub_fin, Flt.lt_fin, decide_eq_true_eq, sub_neg] at hlt
          exact ⟨i, b, a, by rw [List.getElem?_eq_getElem hi'.2, hb],
            by rw [List.getElem?_eq_getElem hi'.1, ha], hlt⟩
    · rintro ⟨i, lo, hi, h1, h2, h3⟩
      refine ⟨.fin (hi - lo), ?_, by simpa using h3⟩
      unfold range
      refine List.mem_of_getElem? (i := i) ?_
      rw [List.getElem?_zipWith, h1, h2]
      simp
  rw [← hany]
  unfold aggregateState
  have hl : (daysBefore start).length = 90 := by simp [daysBefore]
  simp only [ne_eq, not_true_eq_false, if_false, bind, Except.bind, pure, Except.pure, hl]
  generalize (cells.any fun c => (range (met c)).any fun x => Flt.lt x (Flt.fin 0)) = b
  cases b <;> simp [throw, throwThe, MonadExceptOf.throw]

/-- Missing values are no grounds for refusal. -/
example : (aggregateState (K := ℚ) 90 (daysBefore 0) 0 0 (simDays 0 1) [()]
    (fun _ => ⟨[], [], []⟩) (fun _ => ⟨[.fin 0], [.fin 3], [.nan]⟩)).toOption.isSome = true := by
  decide +kernel
example : (aggregateState (K := ℚ) 90 (daysBefore 0) 0 0 (simDays 0 1) [()]
    (fun _ => ⟨[], [], []⟩) (fun _ => ⟨[.fin 0], [.fin 3], [.fin 2]⟩)).toOption.isSome = false := by
  decide +kernel

end C34

/-! ## C35 -/
section C35

theorem foldlM_months (table : Dict Int (Flt K)) (v : Nat → Flt K) (ms : List Nat)
    (hn : ms.Nodup) (h : ∀ m ∈ ms, table.get? (m : Int) = some (v m)) (months : List Nat) :
    ∀ (cur : List (Flt K)), cur.length = months.length →
    ms.foldlM (m := Except PyErr) (fun (cur : List (Flt K)) (m : Nat) => do
      let param ← table.get (m : Int)
      pure (List.zipWith (fun mo x => if mo = m then param else x) months cur)) cur
      = .ok (List.zipWith (fun mo x => if mo ∈ ms then v mo else x) months cur) := by
  induction ms with
  | nil =>
    intro cur hc
    simp only [List.foldlM_nil, pure, Except.pure, List.not_mem_nil, if_false]
    congr 1
    apply List.ext_getElem
    · simp [hc]
    · intro i h1 h2; simp
  | cons m ms ih =>
    intro cur hc
    have hg : table.get (m : Int) = .ok (v m) := by simp [Dict.get, h m (by simp)]
    rw [List.foldlM_cons]
    simp only [bind, Except.bind, hg, pure, Except.pure] at ih ⊢
    rw [ih (List.nodup_cons.1 hn).2 (fun m hm => h m (by simp [hm])) _ (by simp [hc])]
    congr 1
    apply List.ext_getElem
    · simp
    · intro i h1 h2
      simp only [List.getElem_zipWith, List.mem_cons]
      by_cases e : months[i]'(by simp at h2; omega) = m
      · have : m ∉ ms := (List.nodup_cons.1 hn).1
        simp [e, this]
      · simp [e]

/-- The domain file numbers the months like the calendar (`1` … `12`); tables without a coordinate are
numbered `0` … `11` by `read_netcdf` (io.py:287-294), entry `k` being month `k + 1`. -/
def monthTable (oneBased : Bool) (v : Nat → Flt K) : Dict Int (Flt K) :=
  (List.range 12).map fun (k : Nat) => (if oneBased then (k : Int) + 1 else (k : Int), v (k + 1))

/-- **C35** as listed: `v m` is the value the domain file gives for month `m`. -/
def C35_full : Prop :=
  ∀ (oneBased : Bool) (v : Nat → Flt ℚ) (days : List Int) (prec : List (Flt ℚ)), prec.length = days.length →
    convertMonthly (monthTable oneBased v) (days.map fun d => (Cal.monthDay d).1) prec
      = .ok (days.map fun d => v (Cal.monthDay d).1)

/-- **C35 (partial)**: a table that has entries `0` … `11` is used for calendar months 1 … 11 by equal
number; December keeps the day's precipitation. -/
theorem C35_monthly_partial (table : Dict Int (Flt K)) (v : Nat → Flt K)
    (h : ∀ m < 12, table.get? ((m : Nat) : Int) = some (v m)) (days : List Int) (prec : List (Flt K))
    (hl : prec.length = days.length) :
    convertMonthly table (days.map fun d => (Cal.monthDay d).1) prec
      = .ok (List.zipWith (fun d x => if (Cal.monthDay d).1 = 12 then x else v (Cal.monthDay d).1)
          days prec) := by
  unfold convertMonthly
  rw [foldlM_months table v (List.range 12) List.nodup_range (fun m hm => h m (by simpa using hm)) _ prec
    (by simp [hl])]
  congr 1
  rw [List.zipWith_map_left]
  congr 1
  funext d x
  have := Cal.month_bounds d
  by_cases e : (Cal.monthDay d).1 = 12
  · rw [if_neg (by simp; omega), if_pos e]
  · rw [if_pos (by simp; omega), if_neg e]

/-- **C35**: so a table without month coordinate is read one month late, and December gets the day's
precipitation as storm duration. -/
theorem C35_shifted (v : Nat → Flt K) (days : List Int) (prec : List (Flt K))
    (hl : prec.length = days.length) :
    convertMonthly (monthTable false v) (days.map fun d => (Cal.monthDay d).1) prec
      = .ok (List.zipWith (fun d x => if (Cal.monthDay d).1 = 12 then x
          else v ((Cal.monthDay d).1 + 1)) days prec) := by
  refine C35_monthly_partial (monthTable false v) (fun m => v (m + 1)) ?_ days prec hl
  intro m hm
  interval_cases m <;> rfl

/-- **C35**: a table numbered like the calendar is refused with `KeyError`. -/
theorem C35_calendar_table_fails (v : Nat → Flt K) (months : List Nat) (prec : List (Flt K)) :
    convertMonthly (monthTable true v) months prec = .error .keyError := by
  unfold convertMonthly
  have : (List.range 12) = 0 :: (List.range' 1 11) := by decide
  rw [this, List.foldlM_cons]
  have hg : Dict.get (monthTable true v) ((0 : Nat) : Int) = .error .keyError := rfl
  rw [hg]; rfl

theorem C35_refuted : ¬ C35_full := by
  intro h
  have h1 := h true (fun _ => .fin 0) [1] [.fin 0] rfl
  rw [C35_calendar_table_fails] at h1
  cases h1

end C35
end Verif.Props
