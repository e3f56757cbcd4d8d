import Verif.Lemmas.Linear

/-!
# Series that are nowhere negative

What the functions within a day make of series that are not negative is not negative, or missing.
-/

namespace Verif.Linear

open Flt Np Disagg

/-- Not negative, or missing. -/
def Pos (x : Flt ℝ) : Prop := ∀ v, x = fin v → 0 ≤ v

theorem Pos.nan : Pos nan := fun _ h => by cases h

theorem Pos.fin {x : ℝ} (h : 0 ≤ x) : Pos (fin x) := fun _ e => by cases e; exact h

theorem Pos.add {x y : Flt ℝ} (hx : Pos x) (hy : Pos y) : Pos (x + y) := by
  cases x with
  | nan => exact Pos.nan
  | fin x => cases y with
    | nan => exact Pos.nan
    | fin y => exact Pos.fin (add_nonneg (hx _ rfl) (hy _ rfl))

theorem Pos.mul {x y : Flt ℝ} (hx : Pos x) (hy : Pos y) : Pos (x * y) := by
  cases x with
  | nan => exact Pos.nan
  | fin x => cases y with
    | nan => exact Pos.nan
    | fin y => exact Pos.fin (mul_nonneg (hx _ rfl) (hy _ rfl))

theorem Pos.div {x y : Flt ℝ} (hx : Pos x) (hy : Pos y) : Pos (x / y) := by
  cases x with
  | nan => exact Pos.nan
  | fin x => cases y with
    | nan => exact Pos.nan
    | fin y =>
      by_cases h : y = 0
      · rw [h]; simp [Pos]
      · rw [div_fin_ne h]; exact Pos.fin (div_nonneg (hx _ rfl) (hy _ rfl))

theorem Pos.sum {xs : List (Flt ℝ)} (h : ∀ x ∈ xs, Pos x) : Pos (Flt.sum xs) := by
  induction xs with
  | nil => exact Pos.fin le_rfl
  | cons x xs ih =>
    rw [sum_cons]
    exact (h x List.mem_cons_self).add (ih fun y hy => h y (List.mem_cons_of_mem _ hy))

theorem Pos.mean {xs : List (Flt ℝ)} (h : ∀ x ∈ xs, Pos x) : Pos (Flt.mean xs) :=
  (Pos.sum h).div (Pos.fin (Nat.cast_nonneg _))

theorem Pos.getD {xs : List (Flt ℝ)} (h : ∀ x ∈ xs, Pos x) (i : Nat) : Pos (xs.getD i Flt.nan) := by
  rw [List.getD_eq_getElem?_getD]
  cases hx : xs[i]? with
  | none => exact Pos.nan
  | some x => exact h x (List.mem_of_getElem? hx)

theorem pos_fillBoth {xs : List (Flt ℝ)} (h : ∀ x ∈ xs, Pos x) : ∀ x ∈ fillBoth xs, Pos x := by
  intro x hx
  obtain ⟨i, hi⟩ := List.mem_iff_getElem?.1 hx
  rcases fillBoth_spec hi with ⟨j, v, -, h1, rfl, -⟩ | ⟨j, v, -, h1, rfl, -⟩ | ⟨rfl, -⟩
  · exact h _ (List.mem_of_getElem? h1)
  · exact h _ (List.mem_of_getElem? h1)
  · exact Pos.nan

theorem pos_wind {xs : List (Flt ℝ)} {ts : Nat} {utc : Bool} {lon : ℝ} {out : List (Flt ℝ)} (h : wind xs ts utc lon = .ok out)
    (hx : ∀ x ∈ xs, Pos x) : ∀ y ∈ out, Pos y := by
  obtain ⟨-, -, rfl⟩ := Props.wind_inv h
  intro y hy
  obtain ⟨r, hr, rfl⟩ := List.mem_map.1 hy
  exact Pos.mean fun y hy => hx y (Props.mem_steps hr hy)

theorem pos_prec {P tMin : List (Flt ℝ)} {ts : Nat} {ptype : String} {utc : Bool} {lon : ℝ} {tPk dur : Option (List (Flt ℝ))}
    {out : List (Flt ℝ)} (h : prec P tMin ts ptype utc lon tPk dur = .ok out) (hP : ∀ x ∈ P, Pos x) : ∀ x ∈ out, Pos x := by
  obtain ⟨days, -, hdays, -, -, -, rfl⟩ := Props.prec_inv h
  intro x hx
  obtain ⟨r, hr, rfl⟩ := List.mem_map.1 hx
  refine Pos.sum fun y hy => ?_
  have hmem : y ∈ days.flatten := by
    have := mem_of_mem_rows hr hy
    split at this
    · exact (roll_perm _ _).mem_iff.1 this
    · exact this
  obtain ⟨day, hday, hyd⟩ := List.mem_flatten.1 hmem
  obtain ⟨d, hd⟩ := List.mem_iff_getElem?.1 hday
  have hp := Pos.getD hP d
  have := hdays d day hd
  unfold Props.dayOf at this
  split at this
  · unfold triangleDay at this
    simp only at this
    split at this
    · rw [← Except.ok.inj this] at hyd
      rw [List.eq_of_mem_replicate hyd]
      exact (hp.mul (Pos.fin zero_le_one)).div (Pos.fin (Nat.cast_nonneg _))
    · split at this
      · rw [← Except.ok.inj this] at hyd
        obtain ⟨z, hz, rfl⟩ := List.mem_map.1 hyd
        exact (hp.div (Pos.fin (List.sum_nonneg fun w hw => (triangleShape_bounds _ _ hw).1))).mul (Pos.fin (triangleShape_bounds _ _ hz).1)
      · cases this
  · rw [← Except.ok.inj this] at hyd
    rw [List.eq_of_mem_replicate hyd]
    exact hp.div (Pos.fin (by norm_num))

theorem pos_shortwave {sw dl : List (Flt ℝ)} {doy : List Nat} {table : List (List ℝ)} {ts : Nat} {utc : Bool} {lon : ℝ}
    {out : List (Flt ℝ)} (hl : dl.length = sw.length) (h : shortwave sw dl doy table ts utc lon = .ok out) (hsw : ∀ x ∈ sw, Pos x)
    (hdl : ∀ x ∈ dl, Pos x) (htab : ∀ r ∈ table, ∀ f ∈ r, 0 ≤ f) : ∀ x ∈ out, Pos x := by
  obtain ⟨hts0, days, rfl, hdn, hdays⟩ := Props.shortwave_inv hl h
  intro x hx
  obtain ⟨day, hday, hxd⟩ := List.mem_flatten.1 hx
  obtain ⟨d, hd⟩ := List.mem_iff_getElem?.1 hday
  obtain ⟨-, Z, hZ, rfl, hZs⟩ := hdays d day hd
  obtain ⟨r, hr, rfl⟩ := List.mem_map.1 hxd
  refine Pos.sum fun y hy => ?_
  obtain ⟨s, hs⟩ := List.mem_iff_getElem?.1 (mem_of_mem_rows hr hy)
  have hs' : s < 2880 := by rw [← hZ]; exact (List.getElem?_eq_some_iff.1 hs).1
  rw [hZs s hs', Option.some.injEq] at hs
  rw [← hs]
  refine Pos.mul ?_ ?_
  · refine Pos.fin ?_
    unfold Props.slotFrac
    rw [List.getD_eq_getElem?_getD]
    cases hc : table.flatten[(((((doy.getD d 1 - 1) * 2880 + s : Nat) : Int) + Props.swShift utc lon) %
      (table.flatten.length : Int)).toNat]? with
    | none => simp
    | some f =>
      rw [Option.getD_some]
      obtain ⟨r, hr, hfr⟩ := List.mem_flatten.1 (List.mem_of_getElem? hc)
      exact htab r hr f hfr
  · unfold Props.perSlot
    exact ((Pos.getD hsw _).mul (Pos.getD hdl _)).div (Pos.fin (by positivity))

end Verif.Linear
