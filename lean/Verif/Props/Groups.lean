import Verif.Lemmas.Bins
import Verif.Props.Times

/-!
# Properties of output groups and file names: C15, C16, C19
-/

namespace Verif.Props

open Times Datetime Cal

/-! ## C15 -/
section C15

/-- What C15 asks of the groups `G` of an axis `T`: none is empty, put together in order they are the
axis (so they are contiguous, disjoint, and in order), and each file receives exactly its group. -/
def Partitions (T : List ℚ) (G : List (List ℚ)) : Prop :=
  (∀ g ∈ G, g ≠ []) ∧ G.flatten = T ∧ ∀ g ∈ G, selected T g = .ok g

/-- **C15, full statement.** False: `C15_refuted`. -/
def C15_full : Prop :=
  ∀ (ts : Nat) (cal : String) (pe : Bool) (d0 : Int) (n : Nat) (freq : Option Freq),
    StepOk ts → 0 < n → HasDays cal d0 (d0 + n) → (∀ f, freq = some f → f.valid = true) →
    ∃ T G, outputTimes ⟨ts, cal, pe⟩ (consecutive d0 n) = .ok T ∧
      getOutputTimes ⟨ts, cal, pe⟩ freq (consecutive d0 n) = .ok G ∧ Partitions T G

/-- **C15 is violated by the code**: hourly files of 12-hourly data have empty groups. -/
theorem C15_refuted : ¬ C15_full := by
  intro h
  obtain ⟨T, G, h1, h2, h3, -⟩ := h 720 "standard" false 0 1 (some (.hours 6))
    ⟨by norm_num, by norm_num⟩ (by norm_num) (regular_standard _ _) (by rintro f ⟨⟩; rfl)
  have : getOutputTimes ⟨720, "standard", false⟩ (some (.hours 6)) (consecutive 0 1) =
      .ok [[0], [], [720]] := by decide +kernel
  rw [this] at h2; injection h2 with h2; subst h2
  exact h3 [] (by simp) rfl

/-- ... and the run then fails: an empty group has no file name. -/
theorem C15_empty_group_fails (dir pre : Txt.Str) : filename dir pre [] = .error .indexError := rfl

/-- The output frequency is not finer than the time step. -/
def Coarse (ts : Nat) : Freq → Prop
  | .minutes n => ts ≤ n
  | .hours n => ts ≤ 60 * n
  | _ => True

theorem minuteOf_grid {s : Int} {m step : Nat} {t : ℚ} (h : t ∈ grid s m step) :
    ((minuteOf t : Int) : ℚ) = t := by
  simp only [grid, List.mem_map] at h
  obtain ⟨k, -, rfl⟩ := h
  rw [minuteOf, Int.floor_intCast]

theorem ediv_step (x d ts : Int) (hd : 0 < d) (h : ts ≤ d) : (x + ts) / d ≤ x / d + 1 := by
  have h1 : (x + ts) / d ≤ (x + d) / d := Int.ediv_le_ediv hd (by omega)
  rw [Int.add_ediv_of_dvd_right (dvd_refl d), Int.ediv_self hd.ne'] at h1
  exact h1

theorem step_le_one (f : Int → Int) (h : ∀ n, f (n + 1) = f n ∨ f (n + 1) = f n + 1) (a b : Int)
    (h1 : b = a ∨ b = a + 1) : f b ≤ f a + 1 := by
  rcases h1 with rfl | rfl
  · omega
  · rcases h a with h | h <;> omega

theorem bin_step (ts : Nat) (hts : StepOk ts) (f : Freq) (hv : f.valid = true) (hc : Coarse ts f)
    (t0 a b : ℚ) (hab : minuteOf b = minuteOf a + ts) : f.bin t0 b ≤ f.bin t0 a + 1 := by
  have hle := hts.le
  have hord : ordOf b = ordOf a ∨ ordOf b = ordOf a + 1 := by unfold ordOf; omega
  cases f with
  | minutes n =>
    have hn : 0 < n := by simpa [Freq.valid] using hv
    have hc' : ts ≤ n := hc
    simp only [Freq.bin, hab]
    have := ediv_step (minuteOf a - 1440 * (minuteOf t0 / 1440)) n ts (by omega) (by omega)
    convert this using 2; ring
  | hours n =>
    have hn : 0 < n := by simpa [Freq.valid] using hv
    have hc' : ts ≤ 60 * n := hc
    simp only [Freq.bin, hab]
    have := ediv_step (minuteOf a - 1440 * (minuteOf t0 / 1440)) (60 * n : Nat) ts (by omega) (by omega)
    convert this using 2; ring
  | days n =>
    have hn : 0 < n := by simpa [Freq.valid] using hv
    simp only [Freq.bin, hab]
    have := ediv_step (minuteOf a - 1440 * (minuteOf t0 / 1440)) (1440 * n : Nat) ts (by omega) (by omega)
    convert this using 2; ring
  | month => exact step_le_one _ monthIndex_succ _ _ hord
  | year => exact step_le_one _ yearOf_succ' _ _ hord

theorem grid_chain (s : Int) (m step : Nat) :
    (grid s m step).IsChain (fun a b => minuteOf b = minuteOf a + step) := by
  unfold grid
  rw [List.isChain_iff_getElem]
  intro i hi
  simp only [List.getElem_map, List.getElem_range, minuteOf, Int.floor_intCast]
  push_cast; ring

theorem selected_self (T g : List ℚ) (hT : T.Pairwise (· < ·)) (key : ℚ → Int) (hk : Monotone key)
    (c : Int) (hg : g = T.filter fun t => decide (key t = c)) (hne : g ≠ []) : selected T g = .ok g := by
  have hgT : g.Pairwise (· < ·) := by rw [hg]; exact hT.filter _
  unfold selected
  rw [List.head?_eq_some_head hne, List.getLast?_eq_getLast_of_ne_nil hne]
  simp only [Except.ok.injEq]
  conv_rhs => rw [hg]
  apply List.filter_congr
  intro t ht
  simp only [decide_eq_decide]
  have hmem : ∀ x ∈ g, x ∈ T ∧ key x = c := by
    intro x hx; rw [hg, List.mem_filter] at hx; simpa using hx
  have h1 : key (g.head hne) = c := by
    have := hmem _ (List.head_mem hne); exact this.2
  have h2 : key (g.getLast hne) = c := by
    have := hmem _ (List.getLast_mem hne); exact this.2
  constructor
  · rintro ⟨ha, hb⟩
    have := hk ha; have := hk hb; omega
  · intro hc
    have hm : t ∈ g := by rw [hg, List.mem_filter]; exact ⟨ht, by simpa using hc⟩
    constructor
    · obtain ⟨x, l, rfl⟩ := List.exists_cons_of_ne_nil hne
      rw [List.pairwise_cons] at hgT
      rcases List.mem_cons.1 hm with rfl | h
      · exact le_refl _
      · exact (hgT.1 t h).le
    · have hgr : g.reverse.Pairwise (fun a b => b < a) := List.pairwise_reverse.2 hgT
      have hmr : t ∈ g.reverse := List.mem_reverse.2 hm
      have hner : g.reverse ≠ [] := by simpa using hne
      have e : g.getLast hne = g.reverse.head hner := by rw [List.head_reverse]
      rw [e]
      generalize g.reverse = r at hgr hmr hner
      obtain ⟨x, l, rfl⟩ := List.exists_cons_of_ne_nil hner
      rw [List.pairwise_cons] at hgr
      rcases List.mem_cons.1 hmr with rfl | h
      · exact le_refl _
      · exact (hgr.1 t h).le

theorem groups_eq (f : Freq) (hv : f.valid = true) (T : List ℚ) (t0 t1 : ℚ) (h0 : T.head? = some t0)
    (h1 : T.getLast? = some t1) :
    groups (some f) T = .ok ((List.range (f.bin t0 t1 - f.bin t0 t0 + 1).toNat).map fun (i : Nat) =>
          T.filter fun t => f.bin t0 t = f.bin t0 t0 + i) := by
  simp [groups, hv, h0, h1]

/-- For every valid frequency: the groups put together are the axis, and every group that is not
empty is what its file receives. -/
theorem C15_concatenation (ts : Nat) (cal : String) (pe : Bool) (d0 : Int) (n : Nat) (freq : Option Freq)
    (hts : StepOk ts) (hn : 0 < n) (hr : HasDays cal d0 (d0 + n)) (hf : ∀ f, freq = some f → f.valid = true) :
    ∃ T G, outputTimes ⟨ts, cal, pe⟩ (consecutive d0 n) = .ok T ∧
      getOutputTimes ⟨ts, cal, pe⟩ freq (consecutive d0 n) = .ok G ∧ G.flatten = T ∧
      ∀ g ∈ G, g ≠ [] → selected T g = .ok g := by
  have hM : 0 < n * (1440 / ts) := Nat.mul_pos hn hts.pos
  have hT := outputTimes_grid ts cal pe hts d0 n hn hr
  generalize (1440 * d0 + if pe then (ts : Int) else 0) = s at hT
  unfold getOutputTimes
  rw [hT]
  simp only [bind, Except.bind]
  have hh := head?_grid s _ ts hM
  have hl := getLast?_grid s _ ts hM
  have hp := pairwise_grid s (n * (1440 / ts)) ts hts.1
  have hb := @mem_grid_bounds s (n * (1440 / ts)) ts
  generalize grid s (n * (1440 / ts)) ts = T at *
  generalize ht1 : (((s + (↑(n * (1440 / ts)) - 1) * ↑ts : Int)) : ℚ) = t1 at *
  cases freq with
  | none =>
    refine ⟨T, [T], rfl, rfl, by simp, ?_⟩
    intro g hg _
    rw [List.mem_singleton] at hg; subst hg
    unfold selected; rw [hh, hl]
    simp only [Except.ok.injEq, List.filter_eq_self, decide_eq_true_eq]
    exact fun t ht => hb ht
  | some f =>
    have hv := hf f rfl
    have hmono := bin_mono f hv (s : ℚ)
    refine ⟨T, _, rfl, groups_eq f hv T _ _ hh hl, ?_, ?_⟩
    · rw [flatten_bins (key := f.bin s) T (hp.imp fun h => hmono h.le) _ (fun x hx => hmono (hb hx).1)]
      rw [List.filter_eq_self]
      intro t ht
      have h2 := hmono (hb ht).2
      have h1 := hmono (hb ht).1
      simp only [decide_eq_true_eq]
      omega
    · intro g hg hne
      rw [List.mem_map] at hg
      obtain ⟨i, -, rfl⟩ := hg
      exact selected_self T _ hp _ hmono _ rfl hne

/-- **C15, the part that holds**: for every output frequency at least as long as the time step.
Missing: finer frequencies (`C15_refuted`). -/
theorem C15_partition_partial (ts : Nat) (cal : String) (pe : Bool) (d0 : Int) (n : Nat)
    (freq : Option Freq) (hts : StepOk ts) (hn : 0 < n) (hr : HasDays cal d0 (d0 + n))
    (hf : ∀ f, freq = some f → f.valid = true ∧ Coarse ts f) :
    ∃ T G, outputTimes ⟨ts, cal, pe⟩ (consecutive d0 n) = .ok T ∧
      getOutputTimes ⟨ts, cal, pe⟩ freq (consecutive d0 n) = .ok G ∧ Partitions T G := by
  obtain ⟨T, G, h1, h2, h3, h4⟩ := C15_concatenation ts cal pe d0 n freq hts hn hr (fun f h => (hf f h).1)
  have hne : ∀ g ∈ G, g ≠ [] := by
    have hM : 0 < n * (1440 / ts) := Nat.mul_pos hn hts.pos
    have hT := outputTimes_grid ts cal pe hts d0 n hn hr
    generalize (1440 * d0 + if pe then (ts : Int) else 0) = s at hT
    unfold getOutputTimes at h2
    rw [hT] at h2 h1
    simp only [bind, Except.bind] at h2
    injection h1 with h1; subst h1
    have hh := head?_grid s _ ts hM
    have hl := getLast?_grid s _ ts hM
    have hch := grid_chain s (n * (1440 / ts)) ts
    cases freq with
    | none =>
      injection h2 with h2; subst h2
      intro g hg
      rw [List.mem_singleton] at hg; subst hg
      intro h; rw [h] at hh; cases hh
    | some f =>
      obtain ⟨hv, hc⟩ := hf f rfl
      rw [groups_eq f hv _ _ _ hh hl] at h2
      injection h2 with h2; subst h2
      intro g hg
      rw [List.mem_map] at hg
      obtain ⟨i, hi, rfl⟩ := hg
      rw [List.mem_range] at hi
      generalize grid s (n * (1440 / ts)) ts = T at *
      cases T with
      | nil => cases hh
      | cons x l =>
        have hx : x = s := by simpa using hh
        rw [List.getLast?_eq_getLast_of_ne_nil (by simp), Option.some.injEq] at hl
        obtain ⟨a, ha, e⟩ := bins_hit (key := f.bin s) l x
          (hch.imp fun a b h => bin_step ts hts f hv hc s a b h) (f.bin s s + i)
          (by rw [hx]; omega) (by rw [hl]; omega)
        intro h
        rw [List.filter_eq_nil_iff] at h
        exact h a ha (by simpa using e)
  exact ⟨T, G, h1, h2, hne, h3, fun g hg => h4 g hg (hne g hg)⟩

/-- Non-vacuity: three days in 12-hour steps, one file per day. -/
example : getOutputTimes ⟨720, "standard", false⟩ (some (.days 1)) (consecutive 0 3) =
    .ok [[0, 720], [1440, 2160], [2880, 3600]] := by decide +kernel

end C15

/-! ## C16 -/
section C16

/-- **C16, full statement.** False: `C16_refuted`. -/
def C16_full : Prop :=
  ∀ (ts : Nat) (pe : Bool) (d0 : Int) (n : Nat) (f : Freq) (dir pre : Txt.Str) (G : List (List ℚ)),
    StepOk ts → 0 < n → f.valid = true → Coarse ts f →
    getOutputTimes ⟨ts, "standard", pe⟩ (some f) (consecutive d0 n) = .ok G →
    (G.map (filename dir pre)).Nodup

/-- **C16 is violated by the code**: six-hourly files of one day all get the day's name. -/
theorem C16_refuted : ¬ C16_full := by
  intro h
  have := h 360 false 0 1 (.hours 6) [] [] [[0], [360], [720], [1080]] ⟨by norm_num, by norm_num⟩
    (by norm_num) rfl (by unfold Coarse; norm_num) (by decide +kernel)
  revert this; decide +kernel

theorem dateStamp_length (t : ℚ) (h : (yearOf (ordOf t)).toNat < 10000) : (dateStamp t).length = 8 := by
  have hm := month_bounds (ordOf t)
  unfold dateStamp
  rw [List.length_append, List.length_append, Txt.length_padded 4 _ (by norm_num) (by omega),
    Txt.length_padded 2 _ (by norm_num) (by omega), Txt.length_padded 2 _ (by norm_num) (by omega)]

/-- The date in a file name determines the day. -/
theorem dateStamp_inj (t t' : ℚ) (h : 0 ≤ yearOf (ordOf t) ∧ yearOf (ordOf t) < 10000)
    (h' : 0 ≤ yearOf (ordOf t') ∧ yearOf (ordOf t') < 10000) (he : dateStamp t = dateStamp t') :
    ordOf t = ordOf t' := by
  have hm := month_bounds (ordOf t)
  have hm' := month_bounds (ordOf t')
  unfold dateStamp at he
  have e1 := List.append_inj he (by
    rw [List.length_append, List.length_append, Txt.length_padded 4 _ (by norm_num) (by omega),
      Txt.length_padded 2 _ (by norm_num) (by omega), Txt.length_padded 4 _ (by norm_num) (by omega),
      Txt.length_padded 2 _ (by norm_num) (by omega)])
  have e2 := List.append_inj e1.1 (by
    rw [Txt.length_padded 4 _ (by norm_num) (by omega), Txt.length_padded 4 _ (by norm_num) (by omega)])
  have hy := Txt.padded_inj e2.1
  have hmo := Txt.padded_inj e2.2
  have hd := Txt.padded_inj e1.2
  rw [← ofCivil_fields (ordOf t), ← ofCivil_fields (ordOf t'), hmo, hd]
  congr 1; omega

/-- Two groups whose files have the same name start on the same day and end on the same day. -/
theorem C16_name_determines_days (dir pre : Txt.Str) (g g' : List ℚ) (s e s' e' : ℚ)
    (hs : g.head? = some s) (he : g.getLast? = some e) (hs' : g'.head? = some s')
    (he' : g'.getLast? = some e')
    (hy : ∀ t ∈ [s, e, s', e'], 0 ≤ yearOf (ordOf t) ∧ yearOf (ordOf t) < 10000) :
    filename dir pre g = filename dir pre g' ↔ ordOf s = ordOf s' ∧ ordOf e = ordOf e' := by
  have b1 := hy s (by simp)
  have b2 := hy e (by simp)
  have b3 := hy s' (by simp)
  have b4 := hy e' (by simp)
  unfold filename suffix
  rw [hs, he, hs', he']
  simp only [bind, Except.bind, pure, Except.pure, Except.ok.injEq]
  constructor
  · intro h
    have h1 := List.append_cancel_left h
    simp only [List.cons.injEq, true_and] at h1
    have h2 := List.append_cancel_left h1
    simp only [List.cons.injEq, true_and] at h2
    have h3 := List.append_cancel_right h2
    have h4 := List.append_inj h3 (by rw [dateStamp_length s (by omega), dateStamp_length s' (by omega)])
    refine ⟨dateStamp_inj s s' b1 b3 h4.1, dateStamp_inj e e' b2 b4 ?_⟩
    simpa using h4.2
  · rintro ⟨h1, h2⟩
    have d1 : dateStamp s = dateStamp s' := by unfold dateStamp; rw [h1]
    have d2 : dateStamp e = dateStamp e' := by unfold dateStamp; rw [h2]
    rw [d1, d2]

/-- Frequencies of whole days. -/
def WholeDays : Freq → Prop
  | .days _ => True
  | .month => True
  | .year => True
  | _ => False

theorem bin_of_ord (f : Freq) (hw : WholeDays f) (hv : f.valid = true) (t0 a b : ℚ)
    (h : ordOf a = ordOf b) : f.bin t0 a = f.bin t0 b := by
  cases f with
  | minutes n => cases hw
  | hours n => cases hw
  | days n =>
    have hn : 0 < n := by simpa [Freq.valid] using hv
    simp only [Freq.bin]
    have h' : minuteOf a / 1440 = minuteOf b / 1440 := by unfold ordOf at h; omega
    push_cast
    rw [← Int.ediv_ediv_of_nonneg (by norm_num), ← Int.ediv_ediv_of_nonneg (by norm_num)]
    congr 1
    omega
  | month => simp only [Freq.bin, h]
  | year => simp only [Freq.bin, h]

/-- **C16, the part that holds**: with a frequency of whole days, months or years (and the years
0-9999 that `datetime` can hold) all files of a run have different names.  Missing: sub-daily
frequencies (`C16_refuted`). -/
theorem C16_filenames_partial (ts : Nat) (cal : String) (pe : Bool) (d0 : Int) (n : Nat) (f : Freq)
    (dir pre : Txt.Str) (hts : StepOk ts) (hn : 0 < n) (hr : HasDays cal d0 (d0 + n)) (hv : f.valid = true) (hw : WholeDays f)
    (hy : ∀ T, outputTimes ⟨ts, cal, pe⟩ (consecutive d0 n) = .ok T →
      ∀ t ∈ T, 0 ≤ yearOf (ordOf t) ∧ yearOf (ordOf t) < 10000) :
    ∃ G, getOutputTimes ⟨ts, cal, pe⟩ (some f) (consecutive d0 n) = .ok G ∧
      (G.map (filename dir pre)).Nodup := by
  have hc : Coarse ts f := by cases f <;> trivial
  obtain ⟨T, G, h1, h2, h3, h4, -⟩ := C15_partition_partial ts cal pe d0 n (some f) hts hn hr
    (by rintro f ⟨⟩; exact ⟨hv, hc⟩)
  refine ⟨G, h2, ?_⟩
  have hyT := hy T h1
  have hM : 0 < n * (1440 / ts) := Nat.mul_pos hn hts.pos
  unfold getOutputTimes at h2
  rw [outputTimes_grid ts cal pe hts d0 n hn hr] at h1 h2
  injection h1 with h1; subst h1
  simp only [bind, Except.bind] at h2
  generalize (1440 * d0 + if pe then (ts : Int) else 0) = s at *
  rw [groups_eq f hv _ _ _ (head?_grid s _ ts hM) (getLast?_grid s _ ts hM)] at h2
  injection h2 with h2
  generalize grid s (n * (1440 / ts)) ts = T at *
  rw [List.map_congr_left (g := filename dir pre) (fun _ _ => rfl), ← h2, List.map_map]
  apply List.Nodup.map_on _ List.nodup_range
  intro i hi j hj hij
  simp only [Function.comp] at hij
  have gi : (T.filter fun t => decide (f.bin s t = f.bin s s + i)) ∈ G := by
    rw [← h2]; exact List.mem_map_of_mem hi
  have gj : (T.filter fun t => decide (f.bin s t = f.bin s s + j)) ∈ G := by
    rw [← h2]; exact List.mem_map_of_mem hj
  have ni := h3 _ gi
  have nj := h3 _ gj
  have mi := List.head_mem ni
  have mj := List.head_mem nj
  have li := List.getLast_mem ni
  have lj := List.getLast_mem nj
  rw [C16_name_determines_days dir pre _ _ _ _ _ _ (List.head?_eq_some_head ni)
    (List.getLast?_eq_getLast_of_ne_nil ni) (List.head?_eq_some_head nj)
    (List.getLast?_eq_getLast_of_ne_nil nj) ?_] at hij
  · have e := bin_of_ord f hw hv s _ _ hij.1
    have e1 := of_decide_eq_true (List.mem_filter.1 mi).2
    have e2 := of_decide_eq_true (List.mem_filter.1 mj).2
    rw [e1, e2] at e
    omega
  · intro t ht
    simp only [List.mem_cons, List.not_mem_nil, or_false] at ht
    apply hyT
    rcases ht with rfl | rfl | rfl | rfl
    · exact (List.mem_filter.1 mi).1
    · exact (List.mem_filter.1 li).1
    · exact (List.mem_filter.1 mj).1
    · exact (List.mem_filter.1 lj).1

/-- Non-vacuity: the names of two daily files. -/
example : (filename "/o".toList "forcing".toList [0, 720]) =
    .ok "/o/forcing_20000101-20000101.nc".toList ∧
    (filename "/o".toList "forcing".toList [1440, 100000]) =
    .ok "/o/forcing_20000102-20000310.nc".toList := by decide +kernel

end C16

/-! ## C19 -/
section C19

/-- Stamps on whole minutes that a `pd.Timestamp` can hold: 64-bit nanoseconds since 1970. -/
def PandasMinute (t : Int) : Prop := -2 ^ 63 < t * (60 * 10 ^ 9) ∧ t * (60 * 10 ^ 9) < 2 ^ 63

/-- **C19**: every such stamp is read back from the 32-bit time variable unchanged. -/
theorem C19_time_roundtrip (t : Int) (h : PandasMinute t) : decodeTime (encodeTime t) = t := by
  obtain ⟨h1, h2⟩ := h
  have a : -2 ^ 31 ≤ t - 10957 * 1440 := by omega
  have b : t - 10957 * 1440 < 2 ^ 31 := by omega
  unfold decodeTime encodeTime
  rw [BitVec.toInt_ofInt_eq_self (by norm_num) (by simpa using a) (by simpa using b)]
  omega

/-- Hence different stamps are stored as different numbers. -/
theorem C19_time_injective (t t' : Int) (h : PandasMinute t) (h' : PandasMinute t')
    (e : encodeTime t = encodeTime t') : t = t' := by
  rw [← C19_time_roundtrip t h, e, C19_time_roundtrip t' h']

/-- The stored number is the number of minutes since 2000-01-01 00:00. -/
theorem C19_stored_number (d m : Int) (h : PandasMinute ((d - 719163) * 1440 + m)) :
    (encodeTime ((d - 719163) * 1440 + m)).toInt = (d - ordOf 0) * 1440 + m := by
  have := C19_time_roundtrip _ h
  unfold decodeTime at this
  have hd : ordOf 0 = 730120 := by decide +kernel
  rw [hd]; omega

/-- 2262-04-11 23:47 and 1677-09-21 00:13 are the extreme whole minutes; 719163 is 1970-01-01. -/
example : PandasMinute 153722867 ∧ ¬ PandasMinute 153722868 ∧ PandasMinute (-153722867) ∧
    ordOf 0 = 730120 ∧ ofCivil 1970 1 1 = 719163 := by
  refine ⟨⟨by norm_num, by norm_num⟩, fun h => absurd h.2 (by norm_num), ⟨by norm_num, by norm_num⟩,
    by decide +kernel, by decide +kernel⟩

end C19
end Verif.Props
