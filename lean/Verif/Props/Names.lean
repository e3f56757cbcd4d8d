import Verif.Props.Groups
import Verif.Props.Forcing
import Verif.Props.Prec
import Verif.Props.Formulas

/-!
# Names of files, and smaller statements that fix values exactly: C16, C30, C44, C45, C49, C74
-/

namespace Verif.Props

open Flt Times Datetime Cal

/-! ## C16: the date in a file name -/
section Stamp

/-- The day as a number `yyyymmdd`. -/
def ymd (ord : Int) : Int := yearOf ord * 10000 + (monthDay ord).1 * 100 + (monthDay ord).2

theorem walk_step : ∀ l, ∀ k < (if l then 366 else 365), k + 1 < (if l then 366 else 365) →
    (walk 1 k (monthLens l)).1 * 100 + (walk 1 k (monthLens l)).2
      < (walk 1 (k + 1) (monthLens l)).1 * 100 + (walk 1 (k + 1) (monthLens l)).2 := by
  decide +kernel

theorem ymd_succ (ord : Int) : ymd ord < ymd (ord + 1) := by
  have h1 := month_bounds ord
  have h2 := month_bounds (ord + 1)
  obtain ⟨a, b⟩ := yearOf_spec ord
  by_cases hlast : ord + 1 ≤ daysBeforeYear (yearOf ord + 1)
  · have hy : yearOf (ord + 1) = yearOf ord := yearOf_unique (by omega) hlast
    unfold ymd
    rw [hy]
    have hb := dayOfYear_bounds ord
    have hb' := dayOfYear_bounds (ord + 1)
    have hs := walk_step (leap (yearOf ord)) (dayOfYear ord - 1).toNat
    have e : (dayOfYear (ord + 1) - 1).toNat = (dayOfYear ord - 1).toNat + 1 := by
      unfold dayOfYear at *; rw [hy]; omega
    unfold monthDay
    rw [hy] at hb' ⊢
    rw [e]
    have hk : (dayOfYear ord - 1).toNat + 1 < (if leap (yearOf ord) then 366 else 365) := by
      unfold yearLen at hb'
      split at hb' <;> simp_all <;> omega
    have := hs (by omega) hk
    omega
  · have hy : yearOf (ord + 1) = yearOf ord + 1 := by
      apply yearOf_unique
      · omega
      · rw [daysBeforeYear_succ]; unfold yearLen; split <;> omega
    unfold ymd
    rw [hy]; omega

theorem ymd_lt {a b : Int} (h : a < b) : ymd a < ymd b := by
  obtain ⟨n, rfl⟩ : ∃ n : Nat, b = a + 1 + n := ⟨(b - a - 1).toNat, by omega⟩
  clear h
  induction n with
  | zero => simpa using ymd_succ a
  | succ n ih =>
    have := ymd_succ (a + 1 + n)
    push_cast
    rw [show a + 1 + ((n : Int) + 1) = a + 1 + n + 1 by ring]
    omega

theorem parseNat_append (a b : Txt.Str) : Txt.parseNat (a ++ b) = Txt.parseNat a * 10 ^ b.length + Txt.parseNat b := by
  have key : ∀ (b : Txt.Str) (x : Nat), b.foldl (fun a c => 10 * a + (c.toNat - 48)) x
      = x * 10 ^ b.length + b.foldl (fun a c => 10 * a + (c.toNat - 48)) 0 := by
    intro b
    induction b with
    | nil => simp
    | cons c b ih =>
      intro x
      simp only [List.foldl_cons, List.length_cons]
      rw [ih, ih (10 * 0 + (c.toNat - 48))]
      ring
  unfold Txt.parseNat
  rw [List.foldl_append, key]

/-- Eight digits whose value is the date. -/
def Stamped (A : Txt.Str) (y : Int) (m d : Nat) : Prop :=
  A.length = 8 ∧ (∀ c ∈ A, 48 ≤ c.toNat ∧ c.toNat ≤ 57) ∧ (Txt.parseNat A : Int) = y * 10000 + m * 100 + d

theorem dateStamp_value (t : ℚ) (h0 : 0 ≤ yearOf (ordOf t)) (h1 : yearOf (ordOf t) < 10000) :
    Stamped (dateStamp t) (yearOf (ordOf t)) (monthDay (ordOf t)).1 (monthDay (ordOf t)).2 := by
  have hm := month_bounds (ordOf t)
  refine ⟨dateStamp_length t (by omega), ?_, ?_⟩
  · intro c hc
    have : Txt.isDigit c = true := by
      unfold dateStamp at hc
      simp only [List.mem_append] at hc
      rcases hc with (hc | hc) | hc <;> exact Txt.padded_digits _ _ c hc
    simpa [Txt.isDigit] using this
  · unfold dateStamp
    rw [parseNat_append, parseNat_append, Txt.parseNat_padded, Txt.parseNat_padded, Txt.parseNat_padded,
      Txt.length_padded 2 _ (by norm_num) (by omega), Txt.length_padded 2 _ (by norm_num) (by omega)]
    push_cast
    rw [Int.toNat_of_nonneg h0]
    ring

/-- **C16**: a file is named directory, slash, prefix, underscore, first date, dash, last date, `.nc`; the dates are
those on which the first and last stamp fall, as `yyyymmdd`. -/
theorem C16_name (dir pre : Txt.Str) (g : List ℚ) (s e : ℚ) (hs : g.head? = some s) (he : g.getLast? = some e)
    (y y' : Int) (m d m' d' : Nat) (hd : ordOf s = ofCivil y m d) (hd' : ordOf e = ofCivil y' m' d')
    (hy : 0 ≤ y ∧ y < 10000) (hy' : 0 ≤ y' ∧ y' < 10000) (hm : 1 ≤ m ∧ m ≤ 12) (hm' : 1 ≤ m' ∧ m' ≤ 12)
    (hdd : 1 ≤ d ∧ d ≤ (monthLens (leap y))[m - 1]?.getD 0) (hdd' : 1 ≤ d' ∧ d' ≤ (monthLens (leap y'))[m' - 1]?.getD 0) :
    ∃ A B, Stamped A y m d ∧ Stamped B y' m' d' ∧
      filename dir pre g = .ok (dir ++ ['/'] ++ pre ++ ['_'] ++ A ++ ['-'] ++ B ++ ['.', 'n', 'c']) := by
  obtain ⟨f1, f2⟩ := fields_ofCivil hm.1 hm.2 hdd.1 hdd.2
  obtain ⟨f1', f2'⟩ := fields_ofCivil hm'.1 hm'.2 hdd'.1 hdd'.2
  have a := dateStamp_value s (by rw [hd, f1]; omega) (by rw [hd, f1]; omega)
  have b := dateStamp_value e (by rw [hd', f1']; omega) (by rw [hd', f1']; omega)
  rw [hd, f1, f2] at a
  rw [hd', f1', f2'] at b
  refine ⟨_, _, a, b, ?_⟩
  unfold filename suffix
  rw [hs, he]
  simp [bind, Except.bind, pure, Except.pure]

/-- **C16**: the dates in the names sort like the days. -/
theorem C16_sorted (t t' : ℚ) (h : 0 ≤ yearOf (ordOf t) ∧ yearOf (ordOf t) < 10000)
    (h' : 0 ≤ yearOf (ordOf t') ∧ yearOf (ordOf t') < 10000) :
    Txt.parseNat (dateStamp t) < Txt.parseNat (dateStamp t') ↔ ordOf t < ordOf t' := by
  obtain ⟨-, -, a⟩ := dateStamp_value t h.1 h.2
  obtain ⟨-, -, b⟩ := dateStamp_value t' h'.1 h'.2
  change _ = ymd (ordOf t) at a
  change _ = ymd (ordOf t') at b
  constructor
  · intro hl
    by_contra hc
    rcases (not_lt.1 hc).lt_or_eq with h | h
    · have := ymd_lt h; omega
    · rw [h] at b; omega
  · intro hl
    have := ymd_lt hl
    omega

end Stamp

/-! ## C30: where the coordinates stand -/
section Location
open Forcing
variable {K : Type}

theorem getLast_splitOn (sep : Char) (a b : Txt.Str) (hb : sep ∉ b) :
    (Txt.splitOn sep (a ++ sep :: b)).getLast? = some b := by
  induction a with
  | nil => simp [Txt.splitOn, Txt.splitOn_none sep b hb]
  | cons c a ih =>
    rw [List.cons_append, Txt.splitOn]
    have hne := Txt.splitOn_ne_nil sep (a ++ sep :: b)
    split
    · rw [List.getLast?_cons_of_ne_nil hne]; exact ih
    · split
      · rename_i h; exact absurd h hne
      · rename_i p ps h
        rw [h] at ih
        cases ps with
        | nil =>
          exfalso
          have : (Txt.splitOn sep (a ++ sep :: b)).length = 1 := by rw [h]; rfl
          have h2 : ∀ x : Txt.Str, 2 ≤ (Txt.splitOn sep (x ++ sep :: b)).length := by
            intro x
            induction x with
            | nil => simp [Txt.splitOn, Txt.splitOn_none sep b hb]
            | cons c x ih =>
              rw [List.cons_append, Txt.splitOn]
              split
              · simp; omega
              · split
                · rename_i h; rw [h] at ih; simp at ih
                · rename_i h; rw [h] at ih; simpa using ih
          have := h2 a
          omega
        | cons q qs => simpa using ih

/-- **C30**: a file `dir/name_lat_lon` is that of the cell at those coordinates, whatever the directory and the
underscores in the name. -/
theorem C30_location (toFloat : Txt.Str → Option K) (dir name lat lon : Txt.Str) (a b : K)
    (hs : ∀ s ∈ [name, lat, lon], '/' ∉ s) (h1 : '_' ∉ lat) (h2 : '_' ∉ lon) (ha : toFloat lat = some a)
    (hb : toFloat lon = some b) :
    location toFloat (dir ++ ['/'] ++ name ++ ['_'] ++ lat ++ ['_'] ++ lon) = .ok (a, b) := by
  have hbase : basename (dir ++ ['/'] ++ name ++ ['_'] ++ lat ++ ['_'] ++ lon)
      = name ++ '_' :: (lat ++ '_' :: lon) := by
    unfold basename
    have := getLast_splitOn '/' dir (name ++ '_' :: (lat ++ '_' :: lon)) (by
      have s1 := hs name (by simp)
      have s2 := hs lat (by simp)
      have s3 := hs lon (by simp)
      simp [s1, s2, s3])
    simp only [List.append_assoc, List.nil_append, List.cons_append] at this ⊢
    rw [this]; rfl
  have hsplit : ∀ name : Txt.Str, ∃ pre nm, Txt.splitOn '_' (name ++ '_' :: (lat ++ '_' :: lon)) = pre ++ [nm, lat, lon] := by
    intro name
    induction name with
    | nil => exact ⟨[], [], by
        rw [List.nil_append, Txt.splitOn, if_pos rfl, Txt.splitOn_append _ _ _ h1, Txt.splitOn_none _ _ h2]; rfl⟩
    | cons c name ih =>
      obtain ⟨pre, nm, e⟩ := ih
      rw [List.cons_append, Txt.splitOn, e]
      split
      · exact ⟨[] :: pre, nm, rfl⟩
      · cases pre with
        | nil => exact ⟨[], c :: nm, rfl⟩
        | cons p ps => exact ⟨(c :: p) :: ps, nm, rfl⟩
  obtain ⟨pre, nm, e⟩ := hsplit name
  unfold location
  rw [hbase, e]
  simp [ha, hb]

example : location (fun s => some s.length) "in/my_data_48.1_-120".toList = .ok (4, 4) := by decide +kernel

end Location

/-! ## C44, C45, C74: the solar tables -/
section Tables
open Solar

theorem slot_lt (h : ℝ) : slot h < 2880 := by
  unfold slot
  have hs : ((slots : ℕ) : ℝ) - 1 = 2879 := by
    have : slots = 2880 := by decide
    rw [this]; norm_num
  rw [hs]
  generalize max ((12 * (Cnst.SEC_PER_HOUR : ℝ) + h * Cnst.SEC_PER_RAD) / dt) 0 = x
  have : min x 2879 ≤ 2879 := min_le_right _ _
  generalize min x 2879 = y at *
  unfold Np.trunc
  have h1 : ⌊y⌋ ≤ 2879 := by
    have := Int.floor_le_floor this
    simpa using this
  split
  · omega
  · have h2 : ⌈y⌉ ≤ 2879 := by
      rw [Int.ceil_le]; simpa using this
    omega

/-- **C44**: nothing is written outside the 2880 slots of the day. -/
theorem C44_inside (tr : Flt ℝ) (lat : ℝ) (i : Nat) (g : DayGeom) (h : solarDay tr lat i = .ok g) (j : Nat)
    (hj : 2880 ≤ j) : g.fract j = 0 := by
  obtain ⟨c, s, H, acc, -, -, -, -, -, hacc, hgg⟩ := solarDay_ok h
  have h0 : acc.fract j = 0 := by
    rw [hacc, (acc_flat _ _ _ _ _ _).2, scatter_not_mem]
    intro hm
    simp only [List.map_map, List.mem_map, Function.comp] at hm
    obtain ⟨x, -, hx⟩ := hm
    have := slot_lt x
    omega
  unfold solarDay at h
  simp only at h
  rcases hgg with ⟨-, -, -, hf⟩ | ⟨-, hne, -, -, hf⟩
  · rw [hf, h0]
  · rcases lt_or_ge 0 acc.sumFlat with hp | hp
    · rw [hf hp, h0, zero_div]
    · have hnn : 0 ≤ acc.sumFlat := by
        rw [hacc, (acc_flat _ _ _ _ _ _).1, zero_add]
        apply List.sum_nonneg
        intro x hx
        obtain ⟨y, -, rfl⟩ := List.mem_map.1 hx
        exact flat_nonneg (beam_pos i)
      exact absurd (le_antisymm hp hnn) hne

/-- **C45**: a latitude beyond a pole is taken for the pole. -/
theorem C45_beyond_pole (elev lr lat lat' : ℝ) (h : 90.001 ≤ lat ∧ 90.001 ≤ lat' ∨ lat ≤ -90.001 ∧ lat' ≤ -90.001) :
    solarGeom elev lat lr = solarGeom elev lat' lr := by
  have key : latRad lat = latRad lat' := by
    have p2 := Real.pi_lt_d6
    unfold latRad Cnst.RAD_PER_DEG
    rcases h with ⟨h1, h2⟩ | ⟨h1, h2⟩
    · rw [min_eq_right, min_eq_right]
      · exact le_max_of_le_left (by norm_num at *; linarith)
      · exact le_max_of_le_left (by norm_num at *; linarith)
    · rw [max_eq_right, max_eq_right]
      · norm_num at *; linarith
      · norm_num at *; linarith
  unfold solarGeom
  rw [key]

/-- **C74**: the transmittance along the vertical is 0.87 to the power of the relative pressure. -/
theorem C74_vertical (elev lr : ℝ) (hl : 0 < lr) (h : lr * elev < 288.15) :
    Solar.trans elev lr = .ok (fin (0.87 ^ (Spec.barometric elev lr / 101325))) := by
  have hT : (Cnst.T_STD : ℝ) = 288.15 := rfl
  have hB : (Cnst.TBASE : ℝ) = 0.870 := rfl
  have hb : 0 < 1 - lr * elev / (Cnst.T_STD : ℝ) := by
    rw [hT, sub_pos, div_lt_one (by norm_num)]; exact h
  unfold Solar.trans Spec.barometric
  simp only [if_neg hl.ne', pow_fin hb, hB, pow_fin (show (0:ℝ) < 0.870 by norm_num)]
  rw [mul_div_cancel_left₀ _ (show (101325 : ℝ) ≠ 0 by norm_num), hT]
  unfold Cnst.G_STD Cnst.R Cnst.MA
  rw [show (0.870 : ℝ) = 0.87 by norm_num]
  congr 4
  field_simp

end Tables

/-! ## C49: mix on warm days -/
section Mix
open Disagg Np
variable {K : Type} [Field K] [LinearOrder K] [IsStrictOrderedRing K] [FloorRing K]

/-- **C49**: under mix, a day with `t_min ≥ 0` receives what triangular disaggregation gives it. -/
theorem C49_mix_warm {P tMin : List (Flt K)} {ts : Nat} {a b : String} {lon lon' : K}
    {tPk dur : Option (List (Flt K))} {out out' : List (Flt K)} (hts : ts ∣ 1440) (ha : Lw.upperS a = "MIX")
    (hb : Lw.upperS b = "TRIANGLE") (h : prec P tMin ts a false lon tPk dur = .ok out)
    (h' : prec P tMin ts b false lon' tPk dur = .ok out') {d : Nat} (hd : d < P.length)
    (ht : ∃ t, tMin[d]? = some (fin t) ∧ 0 ≤ t) {k : Nat} (hk : k < 1440 / ts) :
    out[d * (1440 / ts) + k]? = out'[d * (1440 / ts) + k]? ∧ (out[d * (1440 / ts) + k]?).isSome := by
  obtain ⟨days, hlen, hdays, hl, -, -, rfl⟩ := prec_inv h
  obtain ⟨days', hlen', hdays', hl', -, -, rfl⟩ := prec_inv h'
  obtain ⟨day, hday⟩ : ∃ day, days[d]? = some day := ⟨_, List.getElem?_eq_getElem (by omega)⟩
  obtain ⟨day', hday'⟩ : ∃ day, days'[d]? = some day := ⟨_, List.getElem?_eq_getElem (by omega)⟩
  simp only [Bool.false_eq_true, if_false]
  rw [step_of_day hl hts hday hk, step_of_day hl' hts hday' hk]
  refine ⟨?_, rfl⟩
  have e := hdays d day hday
  have e' := hdays' d day' hday'
  obtain ⟨t, ht, h0⟩ := ht
  unfold dayOf at e e'
  rw [if_pos (Or.inr ha), ha, List.getD_eq_getElem?_getD, List.getD_eq_getElem?_getD, ht, Option.getD_some] at e
  rw [if_pos (Or.inl hb), hb, List.getD_eq_getElem?_getD, List.getD_eq_getElem?_getD, ht, Option.getD_some] at e'
  unfold triangleDay at e e'
  simp only [lt_fin] at e e'
  rw [if_neg (by simp [h0])] at e
  rw [if_neg (by simp)] at e'
  rw [e] at e'
  rw [Except.ok.inj e']

end Mix
end Verif.Props
