import Verif.Props.Gaps
import Verif.Props.FilesLocal

/-!
# Days without temperatures: C152; the gaps of C151 on disk
-/

namespace Verif.Props

open Flt Physics Np Dataset ConfigRead Main

theorem mem_interleave {α : Type} {xs ys : List α} {k : ℕ} {x y : α} (hx : xs[k]? = some x) (hy : ys[k]? = some y) :
    x ∈ Interp.interleave (xs.zip ys) ∧ y ∈ Interp.interleave (xs.zip ys) := by
  have h : (xs.zip ys)[k]? = some (x, y) := by rw [List.getElem?_zip_eq_some]; exact ⟨hx, hy⟩
  have hm := List.mem_of_getElem? h
  unfold Interp.interleave
  exact ⟨List.mem_flatMap.2 ⟨_, hm, by simp⟩, List.mem_flatMap.2 ⟨_, hm, by simp⟩⟩

/-- Interpolation needs all temperatures. -/
theorem temp_known {tMin tMax : List (Flt ℝ)} {n ts : ℕ} {times : List (ℝ × ℝ)} {a b : Flt ℝ} {te : Option (List (Flt ℝ))} {out : List ℝ}
    (h : Interp.temp tMin tMax n times ts (some [a, b]) te = .ok out) :
    (isFin a = true ∧ isFin b = true) ∧ ∀ (k : ℕ) (x y : Flt ℝ), tMin[k]? = some x → tMax[k]? = some y → isFin x = true ∧ isFin y = true := by
  unfold Interp.temp at h
  simp only [bind_ok, pure_ok] at h
  obtain ⟨kn, hk, -⟩ := h
  unfold Interp.mkPchip at hk
  split at hk
  · cases hk
  · rename_i hc
    push Not at hc
    have hall := hc.2.2.2
    unfold Interp.knotValues at hall
    simp only [Option.getD_some, List.mem_append] at hall
    refine ⟨⟨hall a (Or.inl (Or.inl (by simp))), hall b (Or.inl (Or.inl (by simp)))⟩, fun k x y hx hy => ?_⟩
    obtain ⟨m1, m2⟩ := mem_interleave hx hy
    exact ⟨hall x (Or.inl (Or.inr m1)), hall y (Or.inl (Or.inr m2))⟩

theorem exists_fin {x : Flt ℝ} (h : isFin x = true) : ∃ y, x = fin y := by
  cases x with
  | nan => cases h
  | fin y => exact ⟨y, rfl⟩

section C152

variable (j : Job) (hj : j.Sane) (fuel : Nat) (order : List (Dict String Chunk.Slice)) (ho : j.Schedule order)
  (files : Run.Files Cell.Output) (hrun : j.run fuel order = .ok files) (c : Run.Cell) (hc : j.Computed c)

include hj ho hrun hc

/-- **C152**: a sub-daily run that ends had both temperatures of each day, and of the day before the first, for each cell it computed. -/
theorem C152_known (hsub : j.shared.ts < 1440) : ∃ lo hi : Methods.Col,
    Dict.get? (j.inp c).data.frame "t_min" = some lo ∧ Dict.get? (j.inp c).data.frame "t_max" = some hi ∧
      (∀ k < j.n, ∃ a b, lo k = fin a ∧ hi k = fin b) ∧ ∃ a b, (j.inp c).data.stateEnd = (fin a, fin b) := by
  obtain ⟨elev, lat, lon, h1, h2, h3, q, daily, t, hd, ld, hnd, hread⟩ := readout j hj ho hrun hsub hc
  have hlen : (j.inp c).data.days.length = j.n := by rw [hj.data c, Cell.length_consecutive]
  obtain ⟨q1, q2, q3, q4, q5, -⟩ := Cell.dailyOf_ok hd
  obtain ⟨lo, gl, el⟩ := Cell.column_ok.1 q4
  obtain ⟨hi, gh, eh⟩ := Cell.column_ok.1 q5
  rw [base_keeps q (by decide) (by decide)] at gl gh
  rw [hlen] at el eh
  obtain ⟨⟨s1, s2⟩, hk⟩ := temp_known t.h_temp
  refine ⟨lo, hi, gl, gh, fun k hk' => ?_, ?_⟩
  · obtain ⟨a, b⟩ := hk k (lo k) (hi k) (by rw [el, List.getElem?_map, List.getElem?_range hk']; rfl)
      (by rw [eh, List.getElem?_map, List.getElem?_range hk']; rfl)
    obtain ⟨a, ha⟩ := exists_fin a
    obtain ⟨b, hb⟩ := exists_fin b
    exact ⟨a, b, ha, hb⟩
  · obtain ⟨a, ha⟩ := exists_fin s1
    obtain ⟨b, hb⟩ := exists_fin s2
    exact ⟨a, b, Prod.ext ha hb⟩

/-- **C152**: a daily run writes a temperature as missing exactly on the days it is missing. -/
theorem C152_daily (hday : j.shared.ts = 1440) {v : String} (hv : v ∈ ["t_min", "t_max"]) {u : String} (hu : j.shared.outVars.get? v = some u)
    {col : Methods.Col} (hcol : Dict.get? (j.inp c).data.frame v = some col) {val : ℚ → Flt ℝ} (hval : Recorded j files v c val) {k : ℕ}
    (hk : k < j.n) : val (j.stamp k 0) = nan ↔ col k = nan := by
  obtain ⟨elev, lat, lon, -, -, -, q, rep, hr, hcols⟩ := written_daily j hj ho hrun hday hc
  obtain ⟨col', val', a1, a2, a3⟩ := hcols v u hu
  obtain ⟨sw, dl, r, -, -, -, -, hkeep⟩ := daily_ok hr
  have hone : 0 < 1440 / j.shared.ts := by rw [hday]; norm_num
  have ev := recorded_unique j hj hval a2 hk hone
  have hx := a3 k hk
  rw [← ev] at hx
  have key : Dict.get? rep v = some col ∧ Units.importAttrs.get? v = some "C" := by
    simp only [List.mem_cons, List.not_mem_nil, or_false] at hv
    rcases hv with rfl | rfl
    all_goals
      rw [hkeep _ (by decide), base_keeps q (by decide) (by decide), hcol]
      exact ⟨rfl, by decide⟩
  obtain rfl : col' = col := Option.some.inj (a1.symm.trans key.1)
  constructor
  · intro h
    cases hck : col' k with
    | nan => rfl
    | fin x =>
      rw [hck] at hx
      obtain ⟨y, -, -, b1, -⟩ := convert_si (by rintro ⟨rfl, -⟩; simp at hv) key.2 hj.step.1 hx
      rw [h] at b1
      cases b1
  · intro h
    rw [h] at hx
    exact C01_missing _ _ _ _ hx

end C152

section
variable {w : Main.World} {su : Setup} {i : Worker.Inputs} {n : Nat} {freq : Option Times.Freq} {os : List (String × String)}
  {whole : DS ℝ} {mask : Arr ℝ} {dir : Nc.Dir}

/-- **C152**: from the files: if a sub-daily run ends, they tell both temperatures of each active cell for each day and the day before the
first. -/
theorem C152_disk (h : Left w su i whole mask n freq os dir) (hsub : (sharedOf w su).ts < 1440) {c : Run.Cell} (hc : Active whole mask c)
    {v : String} (hv : v ∈ ["t_min", "t_max"]) {d : Int} (h1 : i.start - 1 ≤ d) (h2 : d < i.start + n) :
    ∃ x, DayTold i whole mask.dims c v d (fin x) := by
  obtain ⟨order, fuel, ⟨e⟩, hi, hsrc⟩ := h.ended
  obtain ⟨-, -, -, hcell⟩ := e.cell hi hsrc
  obtain ⟨hcomp, -, -, -⟩ := hcell c hc
  have fd := e.filed hi hsrc hc
  obtain ⟨lo, hi', g1, g2, hk, a, b, hst⟩ := C152_known _ e.sane fuel order e.schedule e.files e.run c hcomp hsub
  have hst : (inputOf e.ld c).data.stateEnd = (fin a, fin b) := hst
  by_cases hd : d = i.start - 1
  · subst hd
    obtain ⟨f1, f2⟩ := fd.before
    rw [hst] at f1 f2
    simp only [List.mem_cons, List.not_mem_nil, or_false] at hv
    rcases hv with rfl | rfl
    exacts [⟨a, f1⟩, ⟨b, f2⟩]
  · obtain ⟨k, hk'⟩ : ∃ k : ℕ, d = i.start + k := ⟨(d - i.start).toNat, by omega⟩
    have hkn : k < n := by omega
    obtain ⟨x, y, hx, hy⟩ := hk k hkn
    rw [hk']
    simp only [List.mem_cons, List.not_mem_nil, or_false] at hv
    rcases hv with rfl | rfl
    · obtain ⟨col, c1, c2⟩ := fd.told "t_min" (by simp)
      obtain rfl : col = lo := Option.some.inj (c1.symm.trans g1)
      exact ⟨x, hx ▸ c2 k hkn⟩
    · obtain ⟨col, c1, c2⟩ := fd.told "t_max" (by simp)
      obtain rfl : col = hi' := Option.some.inj (c1.symm.trans g2)
      exact ⟨y, hy ▸ c2 k hkn⟩

/-- **C152**: a temperature that the files tell to be missing, and nothing else, keeps every sub-daily run over them from its end. -/
theorem C152_stops (hsub : (sharedOf w su).ts < 1440) {c : Run.Cell} (hc : Active whole mask c) {v : String} (hv : v ∈ ["t_min", "t_max"])
    {d : Int} (h1 : i.start - 1 ≤ d) (h2 : d < i.start + n) (hone : Agree (DayTold i whole mask.dims c v d) (DayTold i whole mask.dims c v d))
    (hnan : DayTold i whole mask.dims c v d nan) : ¬ Left w su i whole mask n freq os dir := by
  intro h
  obtain ⟨x, hx⟩ := C152_disk h hsub hc hv h1 h2
  cases hone _ _ hnan hx

/-- **C151**, what holds on disk of the wind: there is a wind for each day that the files give, and the steps of a day have that of the day
standing in for it. -/
theorem C151_disk_partial (h : Left w su i whole mask n freq os dir) (hsub : (sharedOf w su).ts < 1440) (hloc : (sharedOf w su).utcOffset = false)
    {c : Run.Cell} (hc : Active whole mask c) (hgiven : Provided i "wind")
    (hshape : "wind" ∉ i.constants.map Prod.fst → Shaped i.forcing i.names mask.dims "wind")
    {u : String} (hu : (sharedOf w su).outVars.get? "wind" = some u) :
    ∃ wind : ℕ → Flt ℝ, (∀ k < n, GivenFor i whole mask.dims c "wind" (i.start + k) (wind k)) ∧
      ∀ k < n, ∀ m < 1440 / (sharedOf w su).ts, ∀ d < n, ∀ x, wind d = fin x → StandIn wind k d →
        ∃ y, OnDisk w su i.start n freq dir ((outputOf w su freq os).names "wind") c (minute (sharedOf w su) i.start k m) (fin y) ∧
          Spec.si u ((sharedOf w su).ts : ℝ) y = some (.speed, x) := by
  obtain ⟨order, fuel, ⟨e⟩, hi, hsrc⟩ := h.ended
  obtain ⟨-, -, -, hcell⟩ := e.cell hi hsrc
  obtain ⟨hcomp, -, -, -⟩ := hcell c hc
  have fd := e.filed hi hsrc hc
  obtain ⟨f1, f2⟩ := fd.plain "wind" (by decide) hshape
  obtain ⟨col, hcol⟩ := Option.ne_none_iff_exists'.1 (f1.2 hgiven)
  refine ⟨col, f2 col hcol, fun k hk m hm d hd x hx hst => ?_⟩
  obtain ⟨u', val, y, kd, r1, r2, r3, r4, r5⟩ := C151_wind_partial _ e.sane fuel order e.schedule e.files e.run hsub hloc c hcomp hcol hu hk hm hd hx hst
  obtain rfl : u = u' := Option.some.inj (hu.symm.trans r1)
  have hkey : "wind" ∈ (sharedOf w su).outVars.keys := by
    by_contra hn
    rw [(Dict.get?_eq_none_iff _ _).2 hn] at hu
    cases hu
  obtain rfl : Spec.Kind.speed = kd := Option.some.inj r4
  exact ⟨y, r3 ▸ e.disk "wind" hkey c val r2 k hk m hm, r5⟩

end

/-- **C152**: a run of two days with all temperatures. -/
example : ∃ order files, gusty.Schedule order ∧ gusty.run 0 order = .ok files ∧ gusty.Sane ∧ gusty.Computed [0, 0] ∧ gusty.shared.ts < 1440 := by
  obtain ⟨order, files, ho, hrun⟩ := gusty_runs
  exact ⟨order, files, ho, hrun, gusty_sane, gusty_computed, by unfold gusty humid demo; decide⟩

/-- The same run with the minimum temperature of the second day missing. -/
noncomputable def chilly : Job :=
  { gusty with
    inp := fun c => ⟨fin 100, fin 45, fin (-120), ⟨consecutive 0 2,
      ("t_min", fun i => if i = 1 then nan else fin 5) :: (gusty.inp c).data.frame, (fin 4, fin 14)⟩⟩ }

/-- **C152**: it never ends. -/
example : chilly.Sane ∧ chilly.Computed [0, 0] ∧ ∀ fuel order, chilly.Schedule order → ∀ files, chilly.run fuel order ≠ .ok files := by
  have hs : chilly.Sane := { gusty_sane with data := fun _ => rfl }
  refine ⟨hs, gusty_computed, fun fuel order ho files hrun => ?_⟩
  obtain ⟨lo, hi, g1, -, hk, -⟩ := C152_known chilly hs fuel order ho files hrun [0, 0] gusty_computed
    (by unfold chilly gusty humid demo; decide)
  obtain rfl : (fun i => if i = 1 then nan else fin 5) = lo := Option.some.inj g1
  obtain ⟨a, b, ha, -⟩ := hk 1 (show 1 < 2 by norm_num)
  cases ha

end Verif.Props
