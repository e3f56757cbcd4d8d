import Verif.Model.Forcing
import Mathlib.Tactic.Ring
import Mathlib.Tactic.FieldSimp

/-!
# Forcing readers: C24, C25, C29, C30
-/

namespace Verif.Props

open Forcing

/-! ## C24 -/
section C24
variable {K : Type} [Field K] [DecidableEq K]

/-- The two bytes of a 16-bit number, low byte first. -/
def le16 (v : Int) : List UInt8 :=
  [UInt8.ofNat (v % 256).toNat, UInt8.ofNat (v / 256 % 256).toNat]

/-- Values a 16-bit type can hold. -/
def Fits (word : String) (v : Int) : Prop :=
  (word = "signed" ∧ -32768 ≤ v ∧ v < 32768) ∨ (word = "unsigned" ∧ 0 ≤ v ∧ v < 65536)

/-- A file: for each day one number per variable. -/
def encode (vars : List (BinVar K)) (rows : List (Nat → Int)) : List UInt8 :=
  rows.flatMap fun row => (List.range vars.length).flatMap fun j => le16 (row j)

/-- The columns that were encoded. -/
def decoded (vars : List (BinVar K)) (rows : List (Nat → Int)) : Dict String (List (Flt K)) :=
  (vars.zipIdx).map fun p => (p.1.name, rows.map fun row => .fin ((row p.2 : K) / p.1.scale))

/-- Well-formed variables and values. -/
def GoodFile (vars : List (BinVar K)) (rows : List (Nat → Int)) : Prop :=
  (∀ v ∈ vars, v.scale ≠ 0 ∧ (v.word = "signed" ∨ v.word = "unsigned")) ∧
  ∀ row ∈ rows, ∀ (j : Nat) (h : j < vars.length), Fits vars[j].word (row j)

theorem unpack_le16 (word : String) (s : Bool) (hs : signedness word = .ok s) (v : Int) (h : Fits word v) :
    ∃ b0 b1, le16 v = [b0, b1] ∧ unpack16 s b0 b1 = v := by
  refine ⟨_, _, rfl, ?_⟩
  have h0 : (UInt8.ofNat (v % 256).toNat).toNat = (v % 256).toNat := by
    rw [UInt8.toNat_ofNat']; exact Nat.mod_eq_of_lt (by omega)
  have h1 : (UInt8.ofNat (v / 256 % 256).toNat).toNat = (v / 256 % 256).toNat := by
    rw [UInt8.toNat_ofNat']; exact Nat.mod_eq_of_lt (by omega)
  unfold unpack16
  rw [h0, h1]
  have e0 : (((v % 256).toNat : Nat) : Int) = v % 256 := Int.toNat_of_nonneg (by omega)
  have e1 : (((v / 256 % 256).toNat : Nat) : Int) = v / 256 % 256 := Int.toNat_of_nonneg (by omega)
  rw [e0, e1]
  rcases h with ⟨rfl, h2, h3⟩ | ⟨rfl, h2, h3⟩
  · have : s = true := by simpa [signedness] using hs.symm
    subst this
    simp only [Bool.true_and, decide_eq_true_eq]
    split <;> omega
  · have : s = false := by simpa [signedness] using hs.symm
    subst this
    simp only [Bool.false_and, Bool.false_eq_true, if_false]
    omega

/-- The column accumulators. -/
def cols (nv : Nat) (g : Nat → List (Flt K)) : List (List (Flt K)) := (List.range nv).map g

omit [Field K] [DecidableEq K] in
theorem modify_cols (nv i : Nat) (g : Nat → List (Flt K)) (x : Flt K) :
    (cols nv g).modify i (· ++ [x]) = cols nv (fun j => if j = i then g j ++ [x] else g j) := by
  unfold cols
  apply List.ext_getElem?
  intro j
  rw [List.getElem?_modify]
  by_cases hj : j < nv
  · by_cases h : i = j
    · subst h; simp [hj]
    · simp [hj, h, Ne.symm h]
  · simp [hj]

theorem readLoop_row (vars : List (BinVar K)) (fmt : List (Bool × K)) (hlen : fmt.length = vars.length)
    (hfmt : ∀ (j : Nat) (h : j < vars.length), ∃ s, signedness vars[j].word = .ok s ∧
      fmt[j]? = some (s, vars[j].scale)) (row : Nat → Int)
    (hs : ∀ v ∈ vars, v.scale ≠ 0)
    (hr : ∀ (j : Nat) (h : j < vars.length), Fits vars[j].word (row j)) (need : Nat) (rest : List UInt8)
    (k : Nat) : ∀ (i : Nat) (g : Nat → List (Flt K)), i + k = vars.length →
    readLoop fmt (need + k) (i % vars.length) ((List.range' i k).flatMap (fun j => le16 (row j)) ++ rest)
        (cols vars.length g)
      = readLoop fmt need 0 rest (cols vars.length (fun j =>
          if h : i ≤ j ∧ j < vars.length then g j ++ [.fin ((row j : K) / (vars[j]'h.2).scale)]
          else g j)) := by
  induction k with
  | zero =>
    intro i g hi
    simp only [Nat.add_zero] at hi
    subst hi
    simp only [Nat.mod_self, List.range'_zero, List.flatMap_nil, List.nil_append, Nat.add_zero]
    congr 1
    unfold cols
    apply List.map_congr_left
    intro j hj
    have : j < vars.length := by simpa using hj
    rw [dif_neg (by omega)]
  | succ k ih =>
    intro i g hi
    have hiv : i < vars.length := by omega
    obtain ⟨s, hs1, hf⟩ := hfmt i hiv
    obtain ⟨b0, b1, hb, hu⟩ := unpack_le16 _ s hs1 (row i) (hr i hiv)
    have hsc : vars[i].scale ≠ 0 := hs _ (List.getElem_mem _)
    rw [Nat.mod_eq_of_lt hiv, List.range'_succ, List.flatMap_cons, hb, ← Nat.add_assoc]
    show readLoop fmt (need + k + 1) i (b0 :: b1 :: ((List.range' (i + 1) k).flatMap (fun j => le16 (row j)) ++ rest)) _ = _
    rw [readLoop]
    simp only [hf, hsc, if_false, hu]
    rw [modify_cols, hlen, ih (i + 1) _ (by omega)]
    congr 1
    unfold cols
    apply List.map_congr_left
    intro j hj
    have hjv : j < vars.length := by simpa using hj
    by_cases h1 : j = i
    · subst h1
      rw [dif_neg (by omega), if_pos rfl, dif_pos ⟨le_refl _, hjv⟩]
    · by_cases h2 : i + 1 ≤ j
      · rw [dif_pos ⟨h2, hjv⟩, if_neg h1, dif_pos ⟨by omega, hjv⟩]
      · rw [dif_neg (by omega), if_neg h1, dif_neg (by omega)]

theorem readLoop_rows (vars : List (BinVar K)) (fmt : List (Bool × K)) (hlen : fmt.length = vars.length)
    (hfmt : ∀ (j : Nat) (h : j < vars.length), ∃ s, signedness vars[j].word = .ok s ∧
      fmt[j]? = some (s, vars[j].scale)) (hs : ∀ v ∈ vars, v.scale ≠ 0) (need : Nat) (rest : List UInt8)
    (rows : List (Nat → Int)) (hr : ∀ row ∈ rows, ∀ (j : Nat) (h : j < vars.length), Fits vars[j].word (row j)) :
    ∀ (g : Nat → List (Flt K)),
    readLoop fmt (need + vars.length * rows.length) 0 (encode vars rows ++ rest) (cols vars.length g)
      = readLoop fmt need 0 rest (cols vars.length (fun j =>
          if h : j < vars.length then g j ++ rows.map (fun row => .fin ((row j : K) / (vars[j]'h).scale))
          else g j)) := by
  induction rows with
  | nil =>
    intro g
    simp [encode, cols]
  | cons row rows ih =>
    intro g
    have e1 : encode vars (row :: rows) ++ rest
        = (List.range' 0 vars.length).flatMap (fun j => le16 (row j)) ++ (encode vars rows ++ rest) := by
      unfold encode
      rw [List.flatMap_cons, List.append_assoc, List.range_eq_range']
    have e2 : need + vars.length * (row :: rows).length
        = (need + vars.length * rows.length) + vars.length := by
      rw [List.length_cons, Nat.mul_succ]; omega
    rw [e1, e2]
    have := readLoop_row vars fmt hlen hfmt row hs (hr row (by simp)) (need + vars.length * rows.length)
      (encode vars rows ++ rest) vars.length 0 g (by omega)
    rw [Nat.zero_mod] at this
    rw [this, ih (fun r hr' => hr r (by simp [hr']))]
    congr 1
    unfold cols
    apply List.map_congr_left
    intro j hj
    have hjv : j < vars.length := by simpa using hj
    simp [hjv]

omit [Field K] [DecidableEq K] in
theorem mapM_fmt (vars : List (BinVar K)) (hw : ∀ v ∈ vars, v.word = "signed" ∨ v.word = "unsigned") :
    ∃ fmt : List (Bool × K), vars.mapM (fun v => do
        let s ← signedness v.word
        pure (s, v.scale)) = .ok fmt ∧ fmt.length = vars.length ∧
      ∀ (j : Nat) (h : j < vars.length), ∃ s, signedness vars[j].word = .ok s ∧
        fmt[j]? = some (s, vars[j].scale) := by
  induction vars with
  | nil => exact ⟨[], rfl, rfl, by simp⟩
  | cons v vars ih =>
    obtain ⟨fmt, h1, h2, h3⟩ := ih (fun v hv => hw v (by simp [hv]))
    obtain ⟨s, hs⟩ : ∃ s, signedness v.word = .ok s := by
      rcases hw v (by simp) with h | h
      · exact ⟨true, by simp [signedness, h]⟩
      · exact ⟨false, by simp [signedness, h]⟩
    refine ⟨(s, v.scale) :: fmt, ?_, by simp [h2], ?_⟩
    · rw [List.mapM_cons, h1, hs]; rfl
    · intro j hj
      cases j with
      | zero => exact ⟨s, hs, rfl⟩
      | succ j => simpa using h3 j (by simpa using hj)

/-- **C24** as listed: any number of variables, a file at least as long as the record. -/
def C24_full : Prop :=
  ∀ (vars : List (BinVar ℚ)) (rows more : List (Nat → Int)), vars ≠ [] →
    GoodFile vars (rows ++ more) →
    readBinary vars rows.length (encode vars (rows ++ more)) = .ok (decoded vars rows)

theorem readBinary_eq (vars : List (BinVar K)) (rows : List (Nat → Int)) (rest : List UInt8)
    (hv : 0 < vars.length) (hg : GoodFile vars rows)
    (hn : vars.length = 4 ∨ vars.length ≤ 4 ∧ rest = []) :
    readBinary vars rows.length (encode vars rows ++ rest) = .ok (decoded vars rows) := by
  obtain ⟨fmt, h1, h2, h3⟩ := mapM_fmt vars (fun v h => (hg.1 v h).2)
  have hstart : (vars.map fun _ => ([] : List (Flt K))) = cols vars.length (fun _ => []) := by
    unfold cols
    apply List.ext_getElem <;> simp
  obtain ⟨need, hneed⟩ : ∃ need, 4 * rows.length = need + vars.length * rows.length := by
    have : vars.length ≤ 4 := by omega
    refine ⟨(4 - vars.length) * rows.length, ?_⟩
    rw [← Nat.add_mul]; congr 1; omega
  have hloop := readLoop_rows vars fmt h2 h3 (fun v h => (hg.1 v h).1) need rest rows hg.2 (fun _ => [])
  rw [← hneed, ← hstart] at hloop
  have hend : ∀ acc : List (List (Flt K)), readLoop fmt need 0 rest acc = .ok acc := by
    intro acc
    rcases hn with h4 | ⟨-, rfl⟩
    · have : need = 0 := by rw [h4] at hneed; omega
      subst this; rfl
    · cases need <;> rfl
  rw [hend] at hloop
  unfold readBinary
  simp only [bind, Except.bind] at h1 ⊢
  rw [h1]
  simp only [hloop]
  rw [if_pos]
  · simp only [pure, Except.pure]
    congr 1
    unfold decoded cols
    apply List.ext_getElem
    · simp
    · intro n hn1 hn2
      have : n < vars.length := by simpa using hn2
      simp [this]
  · rw [List.all_eq_true]
    intro c hc
    unfold cols at hc
    obtain ⟨j, hj, rfl⟩ := List.mem_map.1 hc
    have : j < vars.length := by simpa using hj
    simp [this]

/-- **C24 (partial)**: four variables — any number of days, trailing data of any kind ignored. -/
theorem C24_binary_partial (vars : List (BinVar K)) (rows : List (Nat → Int)) (rest : List UInt8)
    (hv : vars.length = 4) (hg : GoodFile vars rows) :
    readBinary vars rows.length (encode vars rows ++ rest) = .ok (decoded vars rows) :=
  readBinary_eq vars rows rest (by omega) hg (Or.inl hv)

/-- **C24 (partial)**: one to four variables, if the file ends with the record. -/
theorem C24_exact_file_partial (vars : List (BinVar K)) (rows : List (Nat → Int))
    (hv : 0 < vars.length) (h4 : vars.length ≤ 4) (hg : GoodFile vars rows) :
    readBinary vars rows.length (encode vars rows) = .ok (decoded vars rows) := by
  have := readBinary_eq vars rows [] hv hg (Or.inr ⟨h4, rfl⟩)
  rwa [List.append_nil] at this

omit [Field K] [DecidableEq K] in
theorem sum_modify (x : Flt K) : ∀ (acc : List (List (Flt K))) (i : Nat), i < acc.length →
    ((acc.modify i (· ++ [x])).map List.length).sum = (acc.map List.length).sum + 1
  | [], i, h => by simp at h
  | a :: acc, 0, _ => by simp; omega
  | a :: acc, i + 1, h => by
    have := sum_modify x acc i (by simpa using h)
    simp only [List.modify_succ_cons, List.map_cons, List.sum_cons, this]; omega

theorem readLoop_total (fmt : List (Bool × K)) (hf : ∀ p ∈ fmt, p.2 ≠ 0) (need : Nat) :
    ∀ (i : Nat) (bytes : List UInt8) (acc : List (List (Flt K))), i < fmt.length →
    acc.length = fmt.length → 2 * need ≤ bytes.length →
    ∃ out, readLoop fmt need i bytes acc = .ok out ∧
    out.length = fmt.length ∧ (out.map List.length).sum = (acc.map List.length).sum + need := by
  induction need with
  | zero =>
    intro i bytes acc hi ha _
    exact ⟨acc, rfl, ha, rfl⟩
  | succ need ih =>
    intro i bytes acc hi ha hb
    match bytes with
    | [] => simp at hb
    | [_] => simp at hb; omega
    | b0 :: b1 :: rest =>
      rw [readLoop]
      have hfi : fmt[i]? = some fmt[i] := List.getElem?_eq_getElem hi
      simp only [hfi]
      rw [if_neg (hf _ (List.getElem_mem _))]
      obtain ⟨out, h1, h2, h3⟩ := ih ((i + 1) % fmt.length) rest
        (acc.modify i (· ++ [Flt.fin ((unpack16 fmt[i].1 b0 b1 : K) / fmt[i].2)]))
        (Nat.mod_lt _ (by omega)) (by simpa using ha) (by simp at hb; omega)
      refine ⟨out, h1, h2, ?_⟩
      rw [h3, sum_modify _ _ _ (by omega)]; omega

/-- **C24**: with any other number of variables a file with enough data is rejected with
`ValueError` (which `process_vic` swallows: the cell stays empty). -/
theorem C24_other_counts_fail (vars : List (BinVar K)) (nDays : Nat) (bytes : List UInt8)
    (hv : 0 < vars.length) (h4 : vars.length ≠ 4) (hd : 0 < nDays)
    (hw : ∀ v ∈ vars, v.scale ≠ 0 ∧ (v.word = "signed" ∨ v.word = "unsigned"))
    (hb : 8 * nDays ≤ bytes.length) : readBinary vars nDays bytes = .error .valueError := by
  obtain ⟨fmt, h1, h2, h3⟩ := mapM_fmt vars (fun v h => (hw v h).2)
  have hf : ∀ p ∈ fmt, p.2 ≠ 0 := by
    intro p hp
    obtain ⟨j, hj, rfl⟩ := List.getElem_of_mem hp
    obtain ⟨s, -, e⟩ := h3 j (by omega)
    rw [List.getElem?_eq_getElem hj] at e
    injection e with e
    rw [e]; exact (hw _ (List.getElem_mem _)).1
  obtain ⟨out, h5, h6, h7⟩ := readLoop_total fmt hf (4 * nDays) 0 bytes (vars.map fun _ => [])
    (by omega) (by simp [h2]) (by omega)
  unfold readBinary
  simp only [bind, Except.bind] at h1 ⊢
  rw [h1]
  simp only [h5]
  rw [if_neg]
  intro hall
  rw [List.all_eq_true] at hall
  have : (out.map List.length) = List.replicate vars.length nDays := by
    rw [List.eq_replicate_iff]
    refine ⟨by simp [h6, h2], ?_⟩
    intro n hn
    obtain ⟨c, hc, rfl⟩ := List.mem_map.1 hn
    simpa using hall c hc
  rw [this] at h7
  have h8 : ((vars.map fun _ => ([] : List (Flt K))).map List.length).sum = 0 := by
    simp
  rw [h8, List.sum_replicate_nat, Nat.zero_add] at h7
  exact h4 (Nat.eq_of_mul_eq_mul_right hd h7)

theorem C24_refuted : ¬ C24_full := by
  intro h
  have h1 := h [⟨"a", 1, "signed"⟩] [fun _ => 0] [fun _ => 0, fun _ => 0, fun _ => 0] (by simp)
    ⟨by simp, by
      intro row hr j hj
      have : j = 0 := by simpa using hj
      subst this
      left
      simp only [List.cons_append, List.nil_append, List.mem_cons, List.not_mem_nil, or_false, or_self] at hr
      subst hr
      simp⟩
  have h2 := C24_other_counts_fail ([⟨"a", 1, "signed"⟩] : List (BinVar ℚ)) 1
    (encode ([⟨"a", 1, "signed"⟩] : List (BinVar ℚ)) ([fun _ => 0] ++ [fun _ => 0, fun _ => 0, fun _ => 0]))
    (by simp) (by simp) (by simp) (by simp) (by simp [encode, le16])
  have h3 : ([fun _ => 0] : List (Nat → Int)).length = 1 := rfl
  rw [h3, h2] at h1
  cases h1

/-- Non-vacuity: a negative and a large unsigned value survive. -/
example : ((readBinary ([⟨"a", 10, "signed"⟩, ⟨"b", 1, "unsigned"⟩] : List (BinVar ℚ)) 1
    [0xff, 0xff, 0x00, 0x80]).toOption) = some [("a", [.fin (-1/10)]), ("b", [.fin 32768])] := by
  decide +kernel

/-- A file cut in the middle of a number raises `struct.error`. -/
example : readBinary ([⟨"a", 10, "signed"⟩] : List (BinVar ℚ)) 1 [0xff] = .error .structError := by
  rfl

end C24

/-! ## Text files -/
section Ascii
variable {K : Type}

/-- **C24** for text files: the first `nDays` rows, column by column, or `ValueError` if there are
fewer. -/
theorem C24_ascii (names : List String) (nDays : Nat) (rows : List (String → Flt K)) :
    readAscii names nDays rows =
      if nDays ≤ rows.length then
        .ok (names.map fun v => (v, (rows.take nDays).map (· v))) else .error .valueError := by
  unfold readAscii
  simp only [List.length_take]
  by_cases h : nDays ≤ rows.length
  · rw [if_pos (by omega), if_pos h]
  · rw [if_neg (by omega), if_neg h]

end Ascii

/-! ## C25 -/
section C25

/-- **C25** as listed: every stamp of day `d` is assigned to `d`. -/
def C25_full : Prop := ∀ (d : Int) (s : ℚ), 0 ≤ s → s < 86400 → normaliseDay (86400 * d + s) = d

/-- **C25 (partial)**: all stamps before the last second of the day. -/
theorem C25_day_partial (d : Int) (s : ℚ) (h0 : 0 ≤ s) (h1 : s < 86399) :
    normaliseDay (86400 * d + s) = d := by
  unfold normaliseDay roundHalfEven
  have e : (86400 * (d : ℚ) + s - (11 * 3600 + 59 * 60 + 59)) / 86400 = (d : ℚ) + (s - 43199) / 86400 := by
    field_simp; ring
  simp only [e]
  by_cases h : s < 43199
  · have hf : ⌊(d : ℚ) + (s - 43199) / 86400⌋ = d - 1 := by
      rw [Int.floor_eq_iff]
      push_cast
      constructor
      · have : -1 ≤ (s - 43199) / 86400 := by rw [le_div_iff₀ (by norm_num)]; linarith
        linarith
      · have : (s - 43199) / 86400 < 0 := by rw [div_lt_iff₀ (by norm_num)]; linarith
        linarith
    rw [hf]
    push_cast
    have hr : (1 : ℚ) / 2 < (d : ℚ) + (s - 43199) / 86400 - (d - 1) := by
      have : -(1/2) < (s - 43199) / 86400 := by rw [lt_div_iff₀ (by norm_num)]; linarith
      linarith
    rw [if_neg (by linarith), if_pos hr]; omega
  · have hf : ⌊(d : ℚ) + (s - 43199) / 86400⌋ = d := by
      rw [Int.floor_eq_iff]
      constructor
      · have : 0 ≤ (s - 43199) / 86400 := by apply div_nonneg <;> linarith
        linarith
      · have : (s - 43199) / 86400 < 1 := by rw [div_lt_iff₀ (by norm_num)]; linarith
        linarith
    rw [hf]
    have hr : (d : ℚ) + (s - 43199) / 86400 - d < 1 / 2 := by
      have : (s - 43199) / 86400 < 1 / 2 := by rw [div_lt_iff₀ (by norm_num)]; linarith
      linarith
    rw [if_pos hr]

/-- **C25**: what happens in the last second: 23:59:59 stays on its day for even days since 1970 and
moves to the next day for odd ones; anything later moves. -/
theorem C25_last_second (d : Int) (s : ℚ) (h0 : 86399 ≤ s) (h1 : s < 86400) :
    normaliseDay (86400 * d + s) = if s = 86399 ∧ d % 2 = 0 then d else d + 1 := by
  unfold normaliseDay roundHalfEven
  have e : (86400 * (d : ℚ) + s - (11 * 3600 + 59 * 60 + 59)) / 86400 = (d : ℚ) + (s - 43199) / 86400 := by
    field_simp; ring
  simp only [e]
  have hf : ⌊(d : ℚ) + (s - 43199) / 86400⌋ = d := by
    rw [Int.floor_eq_iff]
    constructor
    · have : 0 ≤ (s - 43199) / 86400 := by apply div_nonneg <;> linarith
      linarith
    · have : (s - 43199) / 86400 < 1 := by rw [div_lt_iff₀ (by norm_num)]; linarith
      linarith
  rw [hf]
  have hr : 1 / 2 ≤ (d : ℚ) + (s - 43199) / 86400 - d := by
    have : 1 / 2 ≤ (s - 43199) / 86400 := by rw [le_div_iff₀ (by norm_num)]; linarith
    linarith
  rw [if_neg (by linarith)]
  by_cases hs : s = 86399
  · rw [if_neg (by rw [hs]; norm_num)]
    simp [hs]
  · have : (1 : ℚ) / 2 < (d : ℚ) + (s - 43199) / 86400 - d := by
      have h2 : 86399 < s := lt_of_le_of_ne h0 (Ne.symm hs)
      have : 1 / 2 < (s - 43199) / 86400 := by rw [lt_div_iff₀ (by norm_num)]; linarith
      linarith
    rw [if_pos this]; simp [hs]

theorem C25_refuted : ¬ C25_full := by
  intro h
  have h1 := h 1 86399 (by norm_num) (by norm_num)
  have h2 := C25_last_second 1 86399 (by norm_num) (by norm_num)
  rw [h2] at h1
  simp at h1

end C25

/-! ## C29 -/
section C29
variable {K : Type} [Ring K] [LinearOrder K] [FloorRing K]

omit [Ring K] [LinearOrder K] [FloorRing K] in
theorem get?_foldl_set (f : K → DArr K) (consts : Dict String K) (hn : consts.keys.Nodup)
    (ds : Dict String (DArr K)) (v : String) :
    (consts.foldl (fun ds p => ds.set p.1 (f p.2)) ds).get? v
      = match consts.get? v with | some x => some (f x) | none => ds.get? v := by
  induction consts generalizing ds with
  | nil => simp
  | cons p consts ih =>
    have hn' : p.1 ∉ Dict.keys consts ∧ (Dict.keys consts).Nodup := by
      simpa [Dict.keys] using hn
    rw [List.foldl_cons, ih hn'.2, Dict.get?_cons]
    by_cases h : p.1 = v
    · subst h
      rw [(Dict.get?_eq_none_iff _ _).2 hn'.1]
      simp
    · simp only [h, if_false, Dict.get?_set]

/-- **C29** as listed: the constant everywhere, on the dimensions of the forcing; everything else
unchanged. -/
def C29_full : Prop :=
  ∀ (ds : Dict String (DArr ℚ)) (consts : Dict String ℚ) (d : List String), consts.keys.Nodup → ds ≠ [] →
    (∀ p ∈ ds, p.2.dims = d) →
    ∃ out, applyConstants ds consts = .ok out ∧
      (∀ v x, consts.get? v = some x → ∃ a, out.get? v = some a ∧ a.dims = d ∧ ∀ i, a.val i = .fin x) ∧
      ∀ v, consts.get? v = none → out.get? v = ds.get? v

/-- **C29 (partial)**: if the first forcing variable is of a floating point type. -/
theorem C29_constants_partial (ds : Dict String (DArr K)) (consts : Dict String K) (d : List String)
    (hn : consts.keys.Nodup) (hne : ds ≠ []) (hd : ∀ p ∈ ds, p.2.dims = d)
    (hfirst : ∀ p, ds.head? = some p → p.2.isInt = false) :
    ∃ out, applyConstants ds consts = .ok out ∧
      (∀ v x, consts.get? v = some x → ∃ a, out.get? v = some a ∧ a.dims = d ∧ ∀ i, a.val i = .fin x) ∧
      ∀ v, consts.get? v = none → out.get? v = ds.get? v := by
  cases consts with
  | nil => exact ⟨ds, rfl, by simp, by simp⟩
  | cons p consts =>
    cases ds with
    | nil => exact absurd rfl hne
    | cons q ds =>
      refine ⟨_, rfl, ?_, ?_⟩
      · intro v x hv
        rw [get?_foldl_set _ _ hn, hv]
        refine ⟨_, rfl, hd q (by simp), ?_⟩
        intro i
        simp [fullLike, hfirst q (by simp)]
      · intro v hv
        rw [get?_foldl_set _ _ hn, hv]

/-- **C29**: in general the constant is stored in the type of the first forcing variable: if that is an integer type,
what is stored is the nearest integer in the direction of zero. -/
theorem C29_stored_value [IsStrictOrderedRing K] (q : String × DArr K) (ds : Dict String (DArr K)) (consts : Dict String K)
    (hn : consts.keys.Nodup) (hne : consts ≠ []) :
    ∃ out, applyConstants (q :: ds) consts = .ok out ∧
      (∀ v x, consts.get? v = some x → ∃ a, out.get? v = some a ∧ a.dims = q.2.dims ∧ a.isInt = q.2.isInt ∧
        ∀ i, ∃ y, a.val i = .fin y ∧ (q.2.isInt = false → y = x) ∧
          (q.2.isInt = true → (∃ z : Int, y = z) ∧ (0 ≤ x → 0 ≤ y ∧ y ≤ x ∧ x < y + 1) ∧
            (x ≤ 0 → y ≤ 0 ∧ x ≤ y ∧ y < x + 1))) ∧
      ∀ v, consts.get? v = none → out.get? v = Dict.get? (q :: ds) v := by
  cases consts with
  | nil => exact absurd rfl hne
  | cons p consts =>
    refine ⟨_, rfl, ?_, ?_⟩
    · intro v x hv
      rw [get?_foldl_set _ _ hn, hv]
      refine ⟨_, rfl, rfl, rfl, fun i => ⟨_, rfl, fun h => by simp [h], fun h => ?_⟩⟩
      simp only [h, if_true]
      have f1 := Int.floor_le x
      have f2 := Int.lt_floor_add_one x
      have f3 := Int.floor_le (-x)
      have f4 := Int.lt_floor_add_one (-x)
      by_cases hx : 0 ≤ x
      · rw [if_pos hx]
        refine ⟨⟨_, rfl⟩, fun _ => ⟨?_, f1, f2⟩, fun h0 => ?_⟩
        · exact_mod_cast Int.floor_nonneg.2 hx
        · have : x = 0 := le_antisymm h0 hx
          subst this
          simp
      · rw [if_neg hx]
        push Not at hx
        refine ⟨⟨-⌊-x⌋, by push_cast; rfl⟩, fun h => absurd h (not_le.2 hx), fun _ => ⟨?_, ?_, ?_⟩⟩
        · have : (0 : K) ≤ (⌊-x⌋ : K) := by exact_mod_cast Int.floor_nonneg.2 (neg_nonneg.2 hx.le)
          exact neg_nonpos.2 this
        · exact le_neg_of_le_neg f3
        · have := neg_lt_neg f4
          rw [neg_neg] at this
          rw [neg_add] at this
          exact neg_add_lt_iff_lt_add.1 (by rw [neg_add_eq_sub]; rw [← sub_eq_add_neg] at this; exact sub_lt_comm.1 (by simpa using this)) 
    · intro v hv
      rw [get?_foldl_set _ _ hn, hv]

theorem C29_refuted : ¬ C29_full := by
  intro h
  obtain ⟨out, h1, h2, -⟩ := h [("prec", ⟨["time"], true, fun _ => .fin 0⟩)] [("wind", 5/2)] ["time"]
    (by simp [Dict.keys]) (by simp) (by simp)
  obtain ⟨a, h3, -, h4⟩ := h2 "wind" (5/2) rfl
  simp only [applyConstants, List.foldl_cons, List.foldl_nil, Except.ok.injEq] at h1
  subst h1
  rw [Dict.get?_set_self] at h3
  injection h3 with h3
  have := h4 []
  rw [← h3] at this
  simp only [fullLike, Flt.fin.injEq] at this
  norm_num at this

end C29

/-! ## C30 -/
section C30
variable {L K : Type} [Zero K] [LT K] [DecidableLT K] [DecidableEq L]

/-- The cell a file fills and the data it fills it with: its name designates an active cell and it is
readable with all variables. -/
def Fills (toFloat : Txt.Str → Option L) (mask : L × L → Option (Flt K))
    (read : Txt.Str → Except PyErr (Dict String (List (Flt K)))) (vars : List String)
    (job : Txt.Str) (c : L × L) (col : String → List (Flt K)) : Prop :=
  location toFloat job = .ok c ∧ (∃ m, mask c = some m ∧ Flt.lt (.fin 0) m = true) ∧
  ∃ ds, read job = .ok ds ∧ ∀ v ∈ vars, ds.get? v = some (col v)

/-- The reader returns a column for every requested variable (as `read_binary` and `read_ascii`
do). -/
def Complete (read : Txt.Str → Except PyErr (Dict String (List (Flt K)))) (vars : List String) : Prop :=
  ∀ job ds, read job = .ok ds → ∀ v ∈ vars, ∃ col, ds.get? v = some col

omit [Zero K] [LT K] [DecidableLT K] in
theorem foldlM_cols (ds : Dict String (List (Flt K))) (c : L × L) (col : String → List (Flt K))
    (vars : List String) (h : ∀ v ∈ vars, ds.get? v = some (col v)) (g : Grid L K) :
    vars.foldlM (m := Except PyErr) (fun (g : Grid L K) v => do
      let col ← ds.get v
      pure (fun v' c' => if v' = v ∧ c' = c then col else g v' c')) g
      = .ok (fun v' c' => if v' ∈ vars ∧ c' = c then col v' else g v' c') := by
  induction vars generalizing g with
  | nil => simp [List.foldlM, pure, Except.pure]
  | cons v vars ih =>
    have hv : ds.get v = .ok (col v) := by simp [Dict.get, h v (by simp)]
    rw [List.foldlM_cons]
    simp only [bind, Except.bind, hv, pure, Except.pure] at ih ⊢
    rw [ih (fun v hv => h v (by simp [hv]))]
    congr 1
    funext v' c'
    by_cases h1 : v' ∈ vars ∧ c' = c
    · rw [if_pos h1, if_pos ⟨by simp [h1.1], h1.2⟩]
    · rw [if_neg h1]
      by_cases h2 : v' = v ∧ c' = c
      · rw [if_pos h2, if_pos ⟨by simp [h2.1], h2.2⟩, h2.1]
      · rw [if_neg h2, if_neg]
        rintro ⟨h3, h4⟩
        rcases List.mem_cons.1 h3 with h3 | h3
        · exact h2 ⟨h3, h4⟩
        · exact h1 ⟨h3, h4⟩

theorem readJob_fills {toFloat : Txt.Str → Option L} {mask : L × L → Option (Flt K)}
    {read : Txt.Str → Except PyErr (Dict String (List (Flt K)))} {vars : List String} {job : Txt.Str}
    {c : L × L} {col : String → List (Flt K)} (h : Fills toFloat mask read vars job c col) (g : Grid L K) :
    readJob toFloat mask read vars g job
      = .ok (fun v' c' => if v' ∈ vars ∧ c' = c then col v' else g v' c') := by
  obtain ⟨h1, ⟨m, h2, h3⟩, ds, h4, h5⟩ := h
  unfold readJob
  simp only [h1, h2, h3, h4, bind, Except.bind, pure, Except.pure, Bool.not_true, Bool.false_eq_true,
    if_false]
  exact foldlM_cols ds c col vars h5 g

/-- A file that does not fill a cell leaves the grid alone: it returns it unchanged or raises — before
anything was stored. -/
theorem readJob_skip {toFloat : Txt.Str → Option L} {mask : L × L → Option (Flt K)}
    {read : Txt.Str → Except PyErr (Dict String (List (Flt K)))} {vars : List String}
    (hc : Complete read vars) {job : Txt.Str}
    (h : ∀ c col, ¬ Fills toFloat mask read vars job c col) (g : Grid L K) :
    readJob toFloat mask read vars g job = .ok g ∨
      ∃ e, ∀ g, readJob toFloat mask read vars g job = .error e := by
  unfold readJob
  cases h1 : location toFloat job with
  | error e => exact Or.inr ⟨e, fun g => rfl⟩
  | ok c =>
    simp only [bind, Except.bind]
    cases h2 : mask c with
    | none => exact Or.inr ⟨.keyError, fun g => rfl⟩
    | some m =>
      simp only [pure, Except.pure]
      cases h3 : Flt.lt (.fin 0) m with
      | false => left; simp
      | true =>
        cases h4 : read job with
        | error e => right; exact ⟨e, fun g => by simp⟩
        | ok ds =>
          exfalso
          refine h c (fun v => (ds.get? v).getD []) ⟨h1, ⟨m, h2, h3⟩, ds, h4, fun v hv => ?_⟩
          obtain ⟨col, hcol⟩ := hc job ds h4 v hv
          simp [hcol]

omit [Zero K] [LT K] [DecidableLT K] [DecidableEq L] in
/-- The loop over the files, abstractly: each file either overwrites its own cell or does nothing. -/
theorem foldlM_files (step : Grid L K → Txt.Str → Except PyErr (Grid L K)) (vars : List String)
    (fills : Txt.Str → Option ((L × L) × (String → List (Flt K)))) [DecidableEq (L × L)]
    (hstep : ∀ g job g', step g job = .ok g' → match fills job with
      | some (c, col) => g' = fun v' c' => if v' ∈ vars ∧ c' = c then col v' else g v' c'
      | none => g' = g) (jobs : List Txt.Str) : ∀ (g out : Grid L K), jobs.foldlM step g = .ok out →
    ∀ v ∈ vars, ∀ c,
      (∃ job ∈ jobs, ∃ col, fills job = some (c, col) ∧ out v c = col v) ∨
      ((∀ job ∈ jobs, ∀ col, fills job ≠ some (c, col)) ∧ out v c = g v c) := by
  induction jobs with
  | nil =>
    intro g out h v _ c
    simp only [List.foldlM_nil, pure, Except.pure, Except.ok.injEq] at h
    subst h
    exact Or.inr ⟨by simp, rfl⟩
  | cons job jobs ih =>
    intro g out h v hv c
    rw [List.foldlM_cons] at h
    simp only [bind, Except.bind] at h
    cases hs : step g job with
    | error e => rw [hs] at h; cases h
    | ok g' =>
      rw [hs] at h
      have hg' := hstep g job g' hs
      rcases ih g' out h v hv c with ⟨j, hj, col, h1, h2⟩ | ⟨h1, h2⟩
      · exact Or.inl ⟨j, by simp [hj], col, h1, h2⟩
      · cases hf : fills job with
        | none =>
          rw [hf] at hg'
          simp only at hg'
          subst hg'
          right
          refine ⟨?_, h2⟩
          intro j hj col
          rcases List.mem_cons.1 hj with rfl | hj
          · rw [hf]; simp
          · exact h1 j hj col
        | some p =>
          obtain ⟨c0, col⟩ := p
          rw [hf] at hg'
          simp only at hg'
          subst hg'
          by_cases hc : c = c0
          · subst hc
            left
            exact ⟨job, by simp, col, hf, by rw [h2]; simp [hv]⟩
          · right
            refine ⟨?_, by rw [h2]; simp [hc]⟩
            intro j hj col'
            rcases List.mem_cons.1 hj with rfl | hj
            · rw [hf]; intro e; injection e with e; exact hc (Prod.mk.inj e).1.symm
            · exact h1 j hj col'

/-- `Fills` as a function. -/
noncomputable def fillsOf (toFloat : Txt.Str → Option L) (mask : L × L → Option (Flt K))
    (read : Txt.Str → Except PyErr (Dict String (List (Flt K)))) (vars : List String)
    (job : Txt.Str) : Option ((L × L) × (String → List (Flt K))) :=
  open Classical in
  if h : ∃ p : (L × L) × (String → List (Flt K)), Fills toFloat mask read vars job p.1 p.2 then some h.choose
  else none

/-- The loop from any grid on. -/
theorem vic_files {toFloat : Txt.Str → Option L} {mask : L × L → Option (Flt K)}
    {read : Txt.Str → Except PyErr (Dict String (List (Flt K)))} {vars : List String} (hc : Complete read vars) (jobs : List Txt.Str)
    (g out : Grid L K) (h : jobs.foldlM (vicStep toFloat mask read vars) g = .ok out) :
    ∀ v ∈ vars, ∀ c,
      (∃ job ∈ jobs, ∃ col, Fills toFloat mask read vars job c col ∧ out v c = col v) ∨
      ((∀ job ∈ jobs, ∀ col, ¬ Fills toFloat mask read vars job c col) ∧ out v c = g v c) := by
  classical
  have hfills : ∀ job p, fillsOf toFloat mask read vars job = some p →
      Fills toFloat mask read vars job p.1 p.2 := by
    intro job p hp
    unfold fillsOf at hp
    split at hp
    · rename_i h; injection hp with hp; rw [← hp]; exact h.choose_spec
    · cases hp
  have hsame : ∀ job c col, Fills toFloat mask read vars job c col →
      ∃ col', fillsOf toFloat mask read vars job = some (c, col') := by
    intro job c col hf
    cases he : fillsOf toFloat mask read vars job with
    | none =>
      exfalso
      unfold fillsOf at he
      rw [dif_pos ⟨(c, col), hf⟩] at he
      cases he
    | some p =>
      obtain ⟨c', col'⟩ := p
      have h2 := (hfills job _ he).1
      rw [hf.1] at h2
      injection h2 with h2
      exact ⟨col', by rw [h2]⟩
  have hstep := foldlM_files (vicStep toFloat mask read vars) vars (fillsOf toFloat mask read vars) (by
      intro g job g' hs
      unfold vicStep at hs
      cases he : fillsOf toFloat mask read vars job with
      | some p =>
        have := readJob_fills (hfills job p he) g
        simp only [this, Except.ok.injEq] at hs
        exact hs.symm
      | none =>
        have hno : ∀ c col, ¬ Fills toFloat mask read vars job c col := by
          intro c col hf
          obtain ⟨_, hcol⟩ := hsame job c col hf
          rw [he] at hcol; cases hcol
        rcases readJob_skip hc hno g with h1 | ⟨e, h1⟩
        · simp only [h1, Except.ok.injEq] at hs
          exact hs.symm
        · simp only [h1 g] at hs
          show g' = g
          cases e <;> simp at hs <;> exact hs.symm) jobs g out h
  intro v hv c
  rcases hstep v hv c with ⟨job, hj, col, h1, h2⟩ | ⟨h1, h2⟩
  · exact Or.inl ⟨job, hj, col, hfills job _ h1, h2⟩
  · refine Or.inr ⟨?_, h2⟩
    intro job hj col hf
    obtain ⟨col', h3⟩ := hsame job c col hf
    exact h1 job hj col' h3

/-- **C30**: when `process_vic` succeeds, each series of the grid is either the column of a file whose
name designates that (active) cell, or untouched (all NaN) because there is no such readable file. -/
theorem C30_cells (toFloat : Txt.Str → Option L) (mask : L × L → Option (Flt K))
    (read : Txt.Str → Except PyErr (Dict String (List (Flt K)))) (vars : List String)
    (hc : Complete read vars) (nDays : Nat) (jobs : List Txt.Str) (out : Grid L K)
    (h : processVic toFloat mask read vars nDays jobs = .ok out) :
    ∀ v ∈ vars, ∀ c,
      (∃ job ∈ jobs, ∃ col, Fills toFloat mask read vars job c col ∧ out v c = col v) ∨
      ((∀ job ∈ jobs, ∀ col, ¬ Fills toFloat mask read vars job c col) ∧
        out v c = List.replicate nDays .nan) :=
  vic_files hc jobs _ out h

/-- **C30**: of several readable files for a cell, the last one is used, for all variables. -/
theorem C30_last (toFloat : Txt.Str → Option L) (mask : L × L → Option (Flt K))
    (read : Txt.Str → Except PyErr (Dict String (List (Flt K)))) (vars : List String)
    (hc : Complete read vars) (nDays : Nat) (before after : List Txt.Str) (job : Txt.Str) (out : Grid L K)
    (h : processVic toFloat mask read vars nDays (before ++ job :: after) = .ok out) (c : L × L) (col : String → List (Flt K))
    (hf : Fills toFloat mask read vars job c col) (hafter : ∀ j ∈ after, ∀ col, ¬ Fills toFloat mask read vars j c col) :
    ∀ v ∈ vars, out v c = col v := by
  intro v hv
  unfold processVic at h
  simp only [List.foldlM_append, List.foldlM_cons, bind, Except.bind] at h
  split at h
  · cases h
  · split at h
    · cases h
    · rename_i g1 _ g2 h2
      unfold vicStep at h2
      rw [readJob_fills hf] at h2
      simp only [Except.ok.injEq] at h2
      subst h2
      rcases vic_files hc after _ out h v hv c with ⟨j, hj, col', h1, -⟩ | ⟨-, h1⟩
      · exact absurd h1 (hafter j hj col')
      · rw [h1]; simp [hv]

/-- **C30**: for files that fill distinct cells the order of the files is irrelevant. -/
theorem C30_order_irrelevant (toFloat : Txt.Str → Option L) (mask : L × L → Option (Flt K))
    (read : Txt.Str → Except PyErr (Dict String (List (Flt K)))) (vars : List String)
    (hc : Complete read vars) (nDays : Nat) (jobs jobs' : List Txt.Str) (hp : jobs.Perm jobs')
    (hdist : ∀ a ∈ jobs, ∀ b ∈ jobs, ∀ c ca cb, Fills toFloat mask read vars a c ca →
      Fills toFloat mask read vars b c cb → a = b)
    (out out' : Grid L K) (h : processVic toFloat mask read vars nDays jobs = .ok out)
    (h' : processVic toFloat mask read vars nDays jobs' = .ok out') :
    ∀ v ∈ vars, ∀ c, out v c = out' v c := by
  intro v hv c
  have h1 := C30_cells toFloat mask read vars hc nDays jobs out h v hv c
  have h2 := C30_cells toFloat mask read vars hc nDays jobs' out' h' v hv c
  rcases h1 with ⟨a, ha, ca, fa, e1⟩ | ⟨n1, e1⟩
  · rcases h2 with ⟨b, hb, cb, fb, e2⟩ | ⟨n2, e2⟩
    · have hab := hdist a ha b (hp.mem_iff.2 hb) c ca cb fa fb
      subst hab
      rw [e1, e2]
      obtain ⟨-, -, d1, r1, k1⟩ := fa
      obtain ⟨-, -, d2, r2, k2⟩ := fb
      rw [r1] at r2; injection r2 with r2; subst r2
      have := k1 v hv
      rw [k2 v hv] at this
      exact (Option.some.inj this).symm
    · exact absurd fa (n2 a (hp.mem_iff.1 ha) ca)
  · rcases h2 with ⟨b, hb, cb, fb, e2⟩ | ⟨n2, e2⟩
    · exact absurd fb (n1 b (hp.mem_iff.2 hb) cb)
    · rw [e1, e2]

/-- **C30**: whatever the order of the files, the loop fails exactly if the reader of a file for an active cell fails
with something other than `ValueError` or `KeyError`. -/
theorem C30_succeeds (toFloat : Txt.Str → Option L) (mask : L × L → Option (Flt K))
    (read : Txt.Str → Except PyErr (Dict String (List (Flt K)))) (vars : List String)
    (hc : Complete read vars) (nDays : Nat) (jobs : List Txt.Str) :
    (∃ out, processVic toFloat mask read vars nDays jobs = .ok out) ↔
      ∀ job ∈ jobs, ∀ c, location toFloat job = .ok c → (∃ m, mask c = some m ∧ Flt.lt (.fin 0) m = true) →
        ∀ e, read job = .error e → e = .valueError ∨ e = .keyError := by
  constructor
  · rintro ⟨out, h⟩
    unfold processVic at h
    generalize (fun _ _ => List.replicate nDays Flt.nan : Grid L K) = g at h
    induction jobs generalizing g with
    | nil => simp
    | cons job jobs ih =>
      rw [List.foldlM_cons] at h
      simp only [bind, Except.bind] at h
      intro j hj
      rcases List.mem_cons.1 hj with rfl | hj
      · intro c h1 ⟨m, h2, h3⟩ e h4
        have : readJob toFloat mask read vars g j = .error e := by
          unfold readJob
          simp only [h1, h2, h3, h4, bind, Except.bind, pure, Except.pure, Bool.not_true, Bool.false_eq_true, if_false]
        cases hs : vicStep toFloat mask read vars g j with
        | error e' => rw [hs] at h; cases h
        | ok g' =>
          unfold vicStep at hs
          rw [this] at hs
          cases e <;> simp at hs ⊢
      · cases hs : vicStep toFloat mask read vars g job with
        | error e' => rw [hs] at h; cases h
        | ok g' => rw [hs] at h; exact ih g' h j hj
  intro hr
  unfold processVic
  generalize (fun _ _ => List.replicate nDays Flt.nan : Grid L K) = g
  induction jobs generalizing g with
  | nil => exact ⟨g, rfl⟩
  | cons job jobs ih =>
    rw [List.foldlM_cons]
    have hone : ∃ g', vicStep toFloat mask read vars g job = .ok g' := by
      unfold vicStep
      cases hj : readJob toFloat mask read vars g job with
      | ok g' => exact ⟨g', rfl⟩
      | error e =>
        have he : e = .valueError ∨ e = .keyError := by
          unfold readJob at hj
          cases h1 : location toFloat job with
          | error e1 =>
            rw [h1] at hj
            simp only [bind, Except.bind, Except.error.injEq] at hj
            subst hj
            unfold location at h1
            simp only at h1
            left
            split at h1
            · split at h1
              · cases h1
              · injection h1 with h1; exact h1.symm
            · injection h1 with h1; exact h1.symm
          | ok c =>
            rw [h1] at hj
            simp only [bind, Except.bind] at hj
            cases h2 : mask c with
            | none =>
              rw [h2] at hj
              simp only [throw, throwThe, MonadExceptOf.throw, Except.error.injEq] at hj
              exact Or.inr hj.symm
            | some m =>
              rw [h2] at hj
              simp only [pure, Except.pure] at hj
              split at hj
              · cases hj
              · cases h4 : read job with
                | error e1 =>
                  rw [h4] at hj
                  simp only [Except.error.injEq] at hj
                  subst hj
                  refine hr job (by simp) c h1 ⟨m, h2, ?_⟩ _ h4
                  rename_i hneg
                  simpa using hneg
                | ok ds =>
                  rw [h4] at hj
                  simp only at hj
                  have := foldlM_cols ds c (fun v => (ds.get? v).getD []) vars (fun v hv => by
                    obtain ⟨col, hcol⟩ := hc job ds h4 v hv
                    simp [hcol]) g
                  simp only [bind, Except.bind, pure, Except.pure] at this
                  rw [this] at hj
                  cases hj
        rcases he with rfl | rfl <;> exact ⟨g, rfl⟩
    obtain ⟨g', hg'⟩ := hone
    rw [hg']
    exact ih (fun j hj => hr j (by simp [hj])) g'

omit [Zero K] [LT K] [DecidableLT K] [DecidableEq L] in
/-- **C30**: the file name: directory dropped, the last two of at least three `_`-separated pieces are
latitude and longitude. -/
theorem C30_file_name (toFloat : Txt.Str → Option L) (job : Txt.Str) (c : L × L)
    (h : location toFloat job = .ok c) : ∃ pre name lat lon,
      Txt.splitOn '_' (basename job) = pre ++ [name, lat, lon] ∧ toFloat lat = some c.1 ∧
      toFloat lon = some c.2 := by
  unfold location at h
  simp only at h
  split at h
  · rename_i name lat lon heq
    split at h
    · rename_i a b ha hb
      injection h with h
      subst h
      refine ⟨(Txt.splitOn '_' (basename job)).take ((Txt.splitOn '_' (basename job)).length - 3), name,
        lat, lon, ?_, ha, hb⟩
      rw [← heq]
      exact (List.take_append_drop _ _).symm
    · cases h
  · cases h

omit [Zero K] [LT K] [DecidableLT K] [DecidableEq L] in
theorem get?_zip (names : List String) (cs : List (List (Flt K))) (h : cs.length = names.length)
    (v : String) (hv : v ∈ names) : ∃ col, Dict.get? (names.zip cs) v = some col := by
  cases hg : Dict.get? (names.zip cs) v with
  | some col => exact ⟨col, rfl⟩
  | none =>
    exfalso
    refine (Dict.get?_eq_none_iff _ _).1 hg ?_
    have : Dict.keys (names.zip cs) = names := by
      unfold Dict.keys
      exact List.map_fst_zip (by omega)
    rw [this]; exact hv

/-- Non-vacuity: a file in a directory, and a malformed name. -/
example : (location (L := ℚ) (fun s => if s = ['1'] then some 1 else if s = ['-', '2'] then some (-2) else none)
    "/data_0_0_0/full_data_1_-2".toList).toOption = some (1, -2) := by decide +kernel
example : (location (L := ℚ) (fun _ => some 0) "README".toList).toOption = none := by decide +kernel

end C30

section C30b
variable {K : Type} [Field K] [DecidableEq K]

theorem readLoop_length (fmt : List (Bool × K)) (need : Nat) :
    ∀ (i : Nat) (bytes : List UInt8) (acc out : List (List (Flt K))),
    readLoop fmt need i bytes acc = .ok out → out.length = acc.length := by
  induction need with
  | zero => intro i bytes acc out h; rw [readLoop] at h; injection h with h; rw [h]
  | succ need ih =>
    intro i bytes acc out h
    match bytes with
    | [] => rw [readLoop] at h; injection h with h; rw [h]
    | [_] => rw [readLoop] at h; cases h
    | b0 :: b1 :: rest =>
      rw [readLoop] at h
      split at h
      · cases h
      · split at h
        · cases h
        · rw [ih _ _ _ _ h, List.length_modify]

/-- **C30**: both readers return a column for every variable asked for, or raise. -/
theorem C30_readers_complete :
    (∀ (vars : List (BinVar K)) (n : Nat) (content : Txt.Str → List UInt8),
      Complete (fun job => readBinary vars n (content job)) (vars.map BinVar.name)) ∧
    ∀ (names : List String) (n : Nat) (content : Txt.Str → List (String → Flt K)),
      Complete (fun job => readAscii names n (content job)) names := by
  constructor
  · intro vars n content job ds h v hv
    unfold readBinary at h
    simp only [bind, Except.bind] at h
    split at h
    · cases h
    · split at h
      · cases h
      · rename_i fmt _ cs hcs
        split at h
        · simp only [pure, Except.pure, Except.ok.injEq] at h
          subst h
          exact get?_zip _ _ (by rw [readLoop_length _ _ _ _ _ _ hcs]; simp) v hv
        · cases h
  · intro names n content job ds h v hv
    simp only [C24_ascii] at h
    split at h
    · injection h with h
      subst h
      cases hg : Dict.get? (names.map fun v => (v, ((content job).take n).map (· v))) v with
      | some col => exact ⟨col, rfl⟩
      | none =>
        exfalso
        refine (Dict.get?_eq_none_iff _ _).1 hg ?_
        simpa [Dict.keys] using hv
    · cases h

end C30b
end Verif.Props
