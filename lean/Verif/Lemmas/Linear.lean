import Verif.Props.Dependence
import Verif.Props.RoundedSums
import Mathlib.Algebra.Module.LinearMap.Prod
import Mathlib.Algebra.Module.Pi

/-!
# Sub-daily series that are linear in their daily values

Series of pairs of numbers, seen through linear maps: what a function does to each of two series and to a combination of the two is
what it does to the pairs.
-/

namespace Verif.Linear

open Flt Np

variable {V : Type} [AddCommGroup V] [Module ℝ V]

/-- A value seen through a map. -/
def see (f : V →ₗ[ℝ] ℝ) : Flt V → Flt ℝ
  | fin v => fin (f v)
  | nan => nan

@[simp] theorem see_fin (f : V →ₗ[ℝ] ℝ) (v : V) : see f (fin v) = fin (f v) := rfl
@[simp] theorem see_nan (f : V →ₗ[ℝ] ℝ) : see f nan = nan := rfl

/-- Multiplied by a number. -/
def times (c : Flt ℝ) : Flt V → Flt V
  | fin v => match c with
    | fin c => fin (c • v)
    | nan => nan
  | nan => nan

/-- Divided by a number. -/
noncomputable def over (d : Flt ℝ) : Flt V → Flt V
  | fin v => match d with
    | fin d => if d = 0 then nan else fin (d⁻¹ • v)
    | nan => nan
  | nan => nan

theorem see_add (f : V →ₗ[ℝ] ℝ) (x y : Flt V) : see f (x + y) = see f x + see f y := by
  cases x <;> cases y <;> simp [see]

theorem see_times (f : V →ₗ[ℝ] ℝ) (c : Flt ℝ) (x : Flt V) : see f (times c x) = see f x * c := by
  cases x <;> cases c <;> simp [see, times, mul_comm]

theorem see_times' (f : V →ₗ[ℝ] ℝ) (c : Flt ℝ) (x : Flt V) : see f (times c x) = c * see f x := by
  cases x <;> cases c <;> simp [see, times]

theorem see_over (f : V →ₗ[ℝ] ℝ) (d : Flt ℝ) (x : Flt V) : see f (over d x) = see f x / d := by
  cases x with
  | nan => simp [see, over]
  | fin v =>
    cases d with
    | nan => simp [see, over]
    | fin d =>
      by_cases h : d = 0
      · simp [see, over, h]
      · simp [see, over, h, div_eq_inv_mul]

theorem see_sum (f : V →ₗ[ℝ] ℝ) (xs : List (Flt V)) : Flt.sum (xs.map (see f)) = see f (Flt.sum xs) := by
  induction xs with
  | nil => simp [see]
  | cons x xs ih => rw [List.map_cons, sum_cons, sum_cons, see_add, ih]

theorem see_mean (f : V →ₗ[ℝ] ℝ) (xs : List (Flt V)) :
    Flt.mean (xs.map (see f)) = see f (over (fin (xs.length : ℝ)) (Flt.sum xs)) := by
  unfold Flt.mean
  rw [see_sum, see_over, List.length_map]

theorem ffill_see (f : V →ₗ[ℝ] ℝ) (xs : List (Flt V)) : ∀ last, ffill (see f last) (xs.map (see f)) = (ffill last xs).map (see f) := by
  induction xs with
  | nil => intro last; rfl
  | cons x xs ih =>
    intro last
    cases x with
    | nan => simp only [List.map_cons, see_nan, ffill]; rw [ih]
    | fin v => simp only [List.map_cons, see_fin, ffill]; rw [← ih]; rfl

theorem fillBoth_see (f : V →ₗ[ℝ] ℝ) (xs : List (Flt V)) : fillBoth (xs.map (see f)) = (fillBoth xs).map (see f) := by
  unfold fillBoth
  rw [show (nan : Flt ℝ) = see f nan from rfl, ffill_see, ← List.map_reverse, ffill_see, List.map_reverse]

theorem reshape_map {α β : Type} (g : α → β) (xs : List α) (w : Nat) :
    reshape (xs.map g) w = (reshape xs w).map (List.map (List.map g)) := by
  unfold reshape rows
  rw [List.length_map]
  split
  · rfl
  · simp only [Except.map, List.map_map, Function.comp_def, List.map_take, List.map_drop]

/-- What comes out is the same series for all maps, seen through them. -/
def Uniform (F : (V →ₗ[ℝ] ℝ) → Except PyErr (List (Flt ℝ))) : Prop :=
  ∃ o : Except PyErr (List (Flt V)), ∀ f, F f = o.map (List.map (see f))

theorem rolled (f : V →ₗ[ℝ] ℝ) (b : Bool) (s : Int) (xs : List (Flt V)) :
    (if b = true then roll (xs.map (see f)) s else xs.map (see f)) = (if b = true then roll xs s else xs).map (see f) := by
  cases b
  · rfl
  · exact Props.roll_map _ _ _

theorem getD_see (f : V →ₗ[ℝ] ℝ) (xs : List (Flt V)) (i : Nat) : (xs.map (see f)).getD i nan = see f (xs.getD i nan) := by
  rw [List.getD_eq_getElem?_getD, List.getD_eq_getElem?_getD, List.getElem?_map]
  cases xs[i]? <;> rfl

theorem uniform_wind (xs : List (Flt V)) (ts : Nat) (utc : Bool) (lon : ℝ) :
    Uniform fun f : V →ₗ[ℝ] ℝ => Disagg.wind (xs.map (see f)) ts utc lon := by
  refine ⟨(reshape (if utc = true then roll (repeatEach xs Cnst.MIN_PER_DAY) (-Disagg.offsetMin lon)
    else repeatEach xs Cnst.MIN_PER_DAY) ts).map (List.map fun r => over (fin (r.length : ℝ)) (Flt.sum r)), fun f => ?_⟩
  unfold Disagg.wind
  simp only [Props.repeatEach_map, rolled, reshape_map]
  generalize reshape (if utc = true then roll (repeatEach xs Cnst.MIN_PER_DAY) (-Disagg.offsetMin lon) else repeatEach xs Cnst.MIN_PER_DAY) ts = st
  cases st with
  | error e => rfl
  | ok st =>
    show Except.ok _ = Except.ok _
    simp only [List.map_map, Function.comp_def, see_mean]

theorem uniform_triangleDay (doMix : Bool) (p : Flt V) (tMin : Flt ℝ) (tPk dur : Option (Flt ℝ)) :
    Uniform fun f : V →ₗ[ℝ] ℝ => Disagg.triangleDay doMix (see f p) tMin tPk dur := by
  unfold Disagg.triangleDay
  by_cases h : (doMix && lt tMin (fin 0)) = true
  · refine ⟨.ok (List.replicate (Cnst.HOURS_PER_DAY * Cnst.MIN_PER_HOUR)
      (over (fin ((Cnst.HOURS_PER_DAY * Cnst.MIN_PER_HOUR : Nat) : ℝ)) (times (fin 1) p))), fun f => ?_⟩
    simp only [h, if_true, Except.map, List.map_replicate, see_over, see_times]
  · simp only [h]
    cases tPk with
    | none => exact ⟨.error .typeError, fun f => rfl⟩
    | some t =>
      cases dur with
      | none => exact ⟨.error .typeError, fun f => rfl⟩
      | some dur =>
        refine ⟨.ok ((Disagg.triangleShape t dur).map fun x => times (fin x) (over (fin (Disagg.triangleShape t dur).sum) p)), fun f => ?_⟩
        simp [Except.map, List.map_map, Function.comp_def, see_over, see_times]

theorem uniform_mapM {α : Type} (is : List α) (F : (V →ₗ[ℝ] ℝ) → α → Except PyErr (List (Flt ℝ))) (h : ∀ i, Uniform fun f => F f i) :
    Uniform fun f => (is.mapM (F f) >>= fun days => pure days.flatten) := by
  induction is with
  | nil => exact ⟨.ok [], fun f => rfl⟩
  | cons i is ih =>
    obtain ⟨o1, h1⟩ := h i
    obtain ⟨o2, h2⟩ := ih
    refine ⟨o1.bind fun a => o2.bind fun b => .ok (a ++ b), fun f => ?_⟩
    have k1 := h1 f
    have k2 := h2 f
    simp only [List.mapM_cons] at k1 k2 ⊢
    rw [k1]
    cases o1 with
    | error e => rfl
    | ok a =>
      cases hm : is.mapM (F f) with
      | error e =>
        rw [hm] at k2
        cases o2 with
        | error e' => exact k2
        | ok b => cases k2
      | ok days =>
        rw [hm] at k2
        cases o2 with
        | error e' => cases k2
        | ok b =>
          have k2 := Except.ok.inj k2
          show Except.ok _ = Except.ok _
          simp only [List.flatten_cons, List.map_append, k2]

theorem uniform_precMinutes (xs : List (Flt V)) (tMin : List (Flt ℝ)) (ty : String) (tPk dur : Option (List (Flt ℝ))) :
    Uniform fun f : V →ₗ[ℝ] ℝ => Disagg.precMinutes (xs.map (see f)) tMin ty tPk dur := by
  unfold Disagg.precMinutes
  by_cases h : Lw.upperS ty = "TRIANGLE" ∨ Lw.upperS ty = "MIX"
  · simp only [if_pos h]
    unfold Disagg.precTriangle
    simp only [List.length_map, getD_see]
    exact uniform_mapM (V := V) _ _ fun i => uniform_triangleDay _ _ _ _ _
  · simp only [if_neg h]
    refine ⟨.ok (repeatEach (xs.map (over (fin (Cnst.MIN_PER_DAY : ℝ)))) Cnst.MIN_PER_DAY), fun f => ?_⟩
    unfold Disagg.precUniform
    simp only [Except.map, ← Props.repeatEach_map, List.map_map, Function.comp_def, see_over]

theorem uniform_prec (xs : List (Flt V)) (tMin : List (Flt ℝ)) (ts : Nat) (ty : String) (utc : Bool) (lon : ℝ)
    (tPk dur : Option (List (Flt ℝ))) :
    Uniform fun f : V →ₗ[ℝ] ℝ => Disagg.prec (xs.map (see f)) tMin ts ty utc lon tPk dur := by
  obtain ⟨o, h⟩ := uniform_precMinutes xs tMin ty tPk dur
  refine ⟨o.bind fun m => (reshape (if utc = true then roll m (-Disagg.offsetMin lon) else m) ts).map (List.map Flt.sum), fun f => ?_⟩
  have h := h f
  unfold Disagg.prec
  beta_reduce at h ⊢
  rw [h]
  cases o with
  | error e => rfl
  | ok m =>
    show (reshape (if utc = true then roll (m.map (see f)) _ else m.map (see f)) ts).bind _ = Except.map _ (Except.map _ _)
    rw [rolled, reshape_map]
    cases reshape (if utc = true then roll m (-Disagg.offsetMin lon) else m) ts with
    | error e => rfl
    | ok st =>
      show Except.ok _ = Except.ok _
      simp only [List.map_map, Function.comp_def, see_sum]

theorem uniform_bincount (n : Nat) (ids : List Nat) (ws : List (Flt V)) :
    Uniform fun f : V →ₗ[ℝ] ℝ => Disagg.bincount n ids (ws.map (see f)) := by
  unfold Disagg.bincount
  simp only [List.length_map]
  by_cases h : ids.length ≠ ws.length
  · simp only [if_pos h]
    exact ⟨.error .valueError, fun f => rfl⟩
  · simp only [if_neg h]
    refine ⟨.ok ((List.range n).map fun b => Flt.sum (((ids.zip ws).filter fun q => q.1 == b).map (·.2))), fun f => ?_⟩
    simp only [Except.map, List.map_map, Function.comp_def, ← see_sum, Except.ok.injEq]
    refine List.map_congr_left fun b _ => ?_
    rw [List.zip_map_right, List.filter_map, List.map_map]
    rfl

theorem uniform_shortwaveDay (tsPerDay chunk : Nat) (rad : List (Flt ℝ)) (ws : List (Flt V)) :
    Uniform fun f : V →ₗ[ℝ] ℝ => Disagg.shortwaveDay tsPerDay chunk rad (ws.map (see f)) := by
  unfold Disagg.shortwaveDay
  simp only [List.length_map]
  by_cases h : rad.length ≠ ws.length
  · simp only [if_pos h]
    exact ⟨.error .valueError, fun f => rfl⟩
  · simp only [if_neg h]
    have e : ∀ f : V →ₗ[ℝ] ℝ, List.zipWith (· * ·) rad (ws.map (see f)) = (List.zipWith times rad ws).map (see f) := fun f => by
      rw [List.zipWith_map_right, List.map_zipWith]
      simp only [see_times']
    simp only [e]
    exact uniform_bincount _ _ _

theorem uniform_shortwave (xs : List (Flt V)) (dl : List (Flt ℝ)) (doy : List Nat) (table : List (List ℝ)) (ts : Nat) (utc : Bool) (lon : ℝ) :
    Uniform fun f : V →ₗ[ℝ] ℝ => Disagg.shortwave (xs.map (see f)) dl doy table ts utc lon := by
  unfold Disagg.shortwave
  by_cases h0 : ts = 0
  · simp only [if_pos h0]
    exact ⟨.error .zeroDivision, fun f => rfl⟩
  · simp only [if_neg h0]
    have e : ∀ (c : Flt ℝ) (f : V →ₗ[ℝ] ℝ), List.zipWith (fun s d => s * d / c) (xs.map (see f)) dl =
        (List.zipWith (fun s d => over c (times d s)) xs dl).map (see f) := fun c f => by
      rw [List.zipWith_map_left, List.map_zipWith]
      simp only [see_over, see_times]
    simp only [e, Props.repeatEach_map, rolled, ← List.map_drop, ← List.map_take, List.length_map]
    exact uniform_mapM (V := V) _ _ fun i => uniform_shortwaveDay _ _ _ _

end Verif.Linear
