import Verif.Props.EndToEnd
import Verif.Props.MainExample

/-!
# C107 is not vacuous
-/

namespace Verif.Props.MainExample

open Dataset ConfigRead Main Flt Verif.Props.FilesExample

theorem told_rain {a : Int} {n : Nat} {c : Run.Cell} {day : Int} {x : Flt ℝ}
    (h : Told (file a n) names domFile ["lat", "lon"] c "prec" day x) : ∃ r, x = fin r ∧ 0 ≤ r := by
  obtain ⟨u, raw, h1, -, b, ix, h2, h3, rfl⟩ := h
  rcases name_of h1 with ⟨rfl, -⟩ | ⟨-, h⟩ | ⟨-, h⟩
  · have hb := (Option.some.inj h2).symm
    subst hb
    exact ⟨_, rfl, Nat.cast_nonneg _⟩
  · exact absurd h (by decide)
  · exact absurd h (by decide)

/-- What these files tell is plausible. -/
theorem plausible (dirs : String → Bool) (c : Run.Cell) (hc : Active domFile mask c) :
    PlausibleFiles inputs (sharedOf (world dirs) setup) domFile mask.dims 2 c where
  lapse := by
    show (0 : ℝ) < ((65 / 10000 : ℚ) : ℝ) ∧ ((65 / 10000 : ℚ) : ℝ) ≤ 0.0065
    push_cast
    norm_num
  fraction := by
    show (2 / 3 : ℝ) ≤ ((67 / 100 : ℚ) : ℝ) ∧ ((67 / 100 : ℚ) : ℝ) ≤ 1
    push_cast
    norm_num
  place := fun v hv => by
    obtain ⟨h1, h2⟩ := (earthly dirs).own v hv
    exact ⟨fun h => h1 (Or.inl h), fun u h => h1 (Or.inr ⟨u, h⟩), h2⟩
  elev := fun x hx => by
    obtain ⟨u, h1, a, ix, h2, h3, e⟩ := hx.1 (by simp [domFile, Dict.get?_cons])
    obtain rfl : u = "elev" := by
      have := Dict.mem_of_get? _ h1
      simpa [FilesExample.inputs] using this
    have ha := (Option.some.inj h2).symm
    subst ha
    have e' := h3 "lat" (by simp)
    have hlt : ix "lat" < 2 := (List.getElem?_eq_some_iff.1 e').1
    have hle : ((ix "lat" : ℕ) : ℝ) ≤ 1 := by exact_mod_cast Nat.lt_succ_iff.1 hlt
    have hx' : x = 100 * ((ix "lat" : ℕ) : ℝ) := (Flt.fin.inj e).symm
    rw [hx']; linarith
  lat := fun x hx => by
    obtain ⟨r, e, h⟩ := (earthly dirs).lat c hc _ hx
    obtain rfl := Flt.fin.inj e
    linarith
  lon := fun x _ => Or.inl rfl
  temps := fun v hv d _ _ x hx => by
    unfold DayTold at hx
    split_ifs at hx
    · exact told_temp hv hx
    · exact told_temp hv hx
  rain := fun d _ _ x hx => by
    unfold DayTold at hx
    split_ifs at hx
    · exact told_rain hx
    · exact told_rain hx
  wind := fun k _ x hx => by
    rcases hx with ⟨r, hr, rfl⟩ | ⟨h, -⟩
    · have hr : (("wind" : String), r) ∈ [(("wind" : String), (3 : ℝ))] := hr
      obtain rfl : r = 3 := by simpa using hr
      exact ⟨3, rfl, by norm_num⟩
    · exact absurd (show "wind" ∈ ["wind"] by simp) h
  windShape := fun h => absurd (show "wind" ∈ ["wind"] by simp) h
  longwave := ⟨by show "longwave" ∉ ["wind"]; decide, fun u h => by
    rcases name_of h with ⟨-, h⟩ | ⟨-, h⟩ | ⟨-, h⟩ <;> exact absurd h (by decide)⟩
  stormDims := fun v _ a ha d hd => by
    have := Dict.mem_of_get? _ ha
    simp only [domFile, List.mem_cons, List.not_mem_nil, or_false, Prod.mk.injEq] at this
    rcases this with ⟨-, rfl⟩ | ⟨-, rfl⟩ <;> exact Or.inr hd
  storms := fun h => by
    have h1 : Lw.upperS "uniform" ≠ "TRIANGLE" := by decide +kernel
    have h2 : Lw.upperS "uniform" ≠ "MIX" := by decide +kernel
    rcases h with h | h
    · exact absurd h h1
    · exact absurd h h2

theorem sufficient (dirs : String → Bool) (c : Run.Cell) : Sufficient inputs (sharedOf (world dirs) setup) domFile mask.dims 2 c := by
  refine Or.inl ⟨rfl, ⟨?_, ?_, ?_⟩, ?_⟩
  · show (0 : ℝ) < ((1 / 1000000 : ℚ) : ℝ)
    push_cast; norm_num
  · show (0 : ℝ) ≤ ((45 / 100 : ℚ) : ℝ) ∧ ((45 / 100 : ℚ) : ℝ) ≤ 1
    push_cast; norm_num
  · show (0 : ℝ) ≤ ((3 / 4 : ℚ) : ℝ) ∧ ((3 / 4 : ℚ) : ℝ) ≤ 1
    push_cast; norm_num
  · show Lw.upperS "cloud_deardorff" = "CLOUD_DEARDORFF"
    decide +kernel

theorem active : Active domFile mask [1, 0] := by
  refine ⟨?_, 1, rfl, by norm_num⟩
  unfold Worker.positions
  decide +kernel

/-- **C107 is not vacuous**: a run of an INI file ends, and all it leaves on disk for a cell of the mask is possible, is the rain the
forcing file tells, and lies between the temperatures it tells. -/
example : ∃ fuel dir os, runIni (world fun _ => true) fuel opts ini chunks.reverse = .ok dir ∧
    PossibleOnDisk (world fun _ => true) setup inputs.start 2 none os dir [1, 0] ∧
    RainOnDisk (world fun _ => true) setup inputs domFile mask.dims 2 none os dir [1, 0] ∧
    TempsOnDisk (world fun _ => true) setup inputs domFile mask.dims 2 none os dir [1, 0] := by
  obtain ⟨fuel, h⟩ := runs_ini (fun _ => true) rfl
  obtain ⟨dir, hdir⟩ := h 0
  obtain ⟨p, os, ld, hready, hrun, -⟩ := C95_ini (w := world fun _ => true) doc_of from_ini (named _) sound (sourced _) (unsplit _)
    (plan _ _ renamed) sliced (List.reverse_perm _) (knows _) (fuel + 0)
  have hsub : (sharedOf (world fun _ => true) setup).ts < 1440 := by show (360 : Nat) < 1440; norm_num
  rw [hrun] at hdir
  exact ⟨_, dir, os, hrun.trans hdir,
    C107_possible hready _ hdir hsub (by norm_num) active (plausible _ _ active) (sufficient _ _),
    C107_rain hready _ hdir rfl active (plausible _ _ active), C107_temperature hready _ hdir hsub rfl active (plausible _ _ active)⟩

end Verif.Props.MainExample
