import Verif.Props.Units
import Verif.Props.Validate

/-!
# C135: outputs and units as documented
-/

namespace Verif.Props

open Units

/-- `docs/configuration.rst`, "unit conversions". -/
def documentedUnits : Dict String (List String) :=
  [("prec", ["mm timestep-1", "mm s-1", "mm h-1"]), ("pet", ["mm timestep-1", "mm s-1", "mm h-1"]), ("t_max", ["C", "K"]), ("t_min", ["C", "K"]),
   ("temp", ["C", "K"]), ("vapor_pressure", ["Pa", "hPa", "KPa"]), ("air_pressure", ["kPa", "hPa", "Pa"]), ("tskc", ["fraction", "%"]),
   ("rel_humid", ["%", "fraction"])]

/-- `docs/data.rst`, the lists of daily and of sub-daily outputs. -/
def documentedDaily : List String := ["t_min", "t_max", "prec", "vapor_pressure", "shortwave", "tskc", "pet", "wind"]
def documentedSteps : List String :=
  ["temp", "prec", "shortwave", "vapor_pressure", "air_pressure", "rel_humid", "spec_humid", "longwave", "tskc", "wind"]

/-- **C135, full statement**: output in a documented unit is output in that unit.  False: `C135_refuted`. -/
def C135_full : Prop :=
  ∀ (ov : OutUnits) (attrs us : Dict String String), (∀ k ∈ ov.keys, k ∈ availableUnits.keys) → updateUnitAttrs importAttrs ov = .ok (attrs, us) →
    ∀ k u l, (k, some u) ∈ ov → documentedUnits.get? k = some l → u ∈ l → (k, u) ∈ us

theorem asked_for {ov : OutUnits} {attrs us : Dict String String} (hk : ∀ k ∈ ov.keys, k ∈ availableUnits.keys)
    (h : updateUnitAttrs importAttrs ov = .ok (attrs, us)) {k u : String} (hm : (k, some u) ∈ ov) :
    (Supported k u → (k, u) ∈ us) ∧ (¬ Supported k u → ∃ d, importAttrs.get? k = some d ∧ (k, d) ∈ us) := by
  obtain ⟨attrs', us', h', -, hF⟩ := C02_units_honoured importAttrs ov (fun _ h => h) hk
  rw [h] at h'
  obtain ⟨-, rfl⟩ := Prod.mk.inj (Except.ok.inj h')
  clear h hk h'
  induction hF with
  | nil => cases hm
  | @cons _ ku _ _ hab _ ih =>
    rcases List.mem_cons.1 hm with rfl | hm
    · obtain ⟨e, -, h1, h2⟩ := hab
      obtain ⟨k', d⟩ := ku
      cases e
      refine ⟨fun hs => ?_, fun hs => ⟨d, h2 fun w hw => ?_, List.mem_cons_self⟩⟩
      · have : d = u := h1 u rfl hs
        rw [this]; exact List.mem_cons_self
      · cases hw; exact hs
    · obtain ⟨i1, i2⟩ := ih hm
      exact ⟨fun hs => List.mem_cons_of_mem _ (i1 hs), fun hs => by
        obtain ⟨d, d1, d2⟩ := i2 hs
        exact ⟨d, d1, List.mem_cons_of_mem _ d2⟩⟩

/-- **C135, the part that holds**: for every unit but kilopascal, which is documented with a capital K. -/
theorem C135_units_partial {ov : OutUnits} {attrs us : Dict String String} (hk : ∀ k ∈ ov.keys, k ∈ availableUnits.keys)
    (h : updateUnitAttrs importAttrs ov = .ok (attrs, us)) {k u : String} {l : List String} (hm : (k, some u) ∈ ov)
    (hl : documentedUnits.get? k = some l) (hu : u ∈ l) (hK : u ≠ "KPa") : (k, u) ∈ us := by
  refine (asked_for hk h hm).1 ?_
  have key : ∀ q ∈ documentedUnits, ∀ u ∈ q.2, u ≠ "KPa" →
      (((converters (K := ℚ)).get? q.1).bind fun t => (t.get? u).map fun _ => true) = some true := by decide +kernel
  have := key _ (Dict.mem_of_get? _ hl) u hu hK
  rw [Option.bind_eq_some_iff] at this
  obtain ⟨t, h1, h2⟩ := this
  rw [Option.map_eq_some_iff] at h2
  obtain ⟨g, h3, -⟩ := h2
  exact ⟨t, g, h1, h3⟩

theorem kpa_unsupported : ¬ Supported "vapor_pressure" "KPa" := by
  rintro ⟨t, g, h1, h2⟩
  have e : (converters (K := ℚ)).get? "vapor_pressure" = some [("Pa", ident), ("hPa", divBy 100), ("kPa", divBy 1000)] := rfl
  rw [e] at h1
  cases h1
  have := List.mem_map_of_mem (f := Prod.fst) (Dict.mem_of_get? _ h2)
  revert this
  simp

/-- Vapour pressure asked for in the documented `KPa` is written in pascal. -/
theorem C135_kilopascal {ov : OutUnits} {attrs us : Dict String String} (hk : ∀ k ∈ ov.keys, k ∈ availableUnits.keys)
    (h : updateUnitAttrs importAttrs ov = .ok (attrs, us)) (hm : ("vapor_pressure", some "KPa") ∈ ov) : ("vapor_pressure", "Pa") ∈ us := by
  obtain ⟨d, h1, h2⟩ := (asked_for hk h hm).2 kpa_unsupported
  have e : importAttrs.get? "vapor_pressure" = some "Pa" := by decide +kernel
  rw [e] at h1
  cases h1
  exact h2

theorem C135_refuted : ¬ C135_full := by
  intro hfull
  have := hfull [("vapor_pressure", some "KPa")] importAttrs [("vapor_pressure", "Pa")] (by decide +kernel) (by decide +kernel)
    "vapor_pressure" "KPa" ["Pa", "hPa", "KPa"] (by simp) (by decide +kernel) (by simp)
  revert this; decide

/-- Documented default units: the first of each list. -/
theorem C135_default_units {ov : OutUnits} {attrs us : Dict String String} (hk : ∀ k ∈ ov.keys, k ∈ availableUnits.keys)
    (h : updateUnitAttrs importAttrs ov = .ok (attrs, us)) {k d : String} {l : List String} (hm : (k, none) ∈ ov)
    (hl : documentedUnits.get? k = some (d :: l)) : (k, d) ∈ us := by
  have key : ∀ q ∈ documentedUnits, importAttrs.get? q.1 = q.2.head? := by decide +kernel
  have hd := key _ (Dict.mem_of_get? _ hl)
  obtain ⟨attrs', us', h', -, hF⟩ := C02_units_honoured importAttrs ov (fun _ h => h) hk
  rw [h] at h'
  obtain ⟨-, rfl⟩ := Prod.mk.inj (Except.ok.inj h')
  clear h hk h'
  induction hF with
  | nil => cases hm
  | @cons _ ku _ _ hab _ ih =>
    rcases List.mem_cons.1 hm with rfl | hm
    · obtain ⟨e, -, -, h2⟩ := hab
      obtain ⟨k', u⟩ := ku
      cases e
      have := h2 (fun w hw => by cases hw)
      rw [hd] at this
      cases this
      exact List.mem_cons_self
    · exact List.mem_cons_of_mem _ (ih hm)

/-- Every documented output passes validation at its time steps, and has a converter. -/
theorem C135_outputs (ts : Int) :
    (∀ v ∈ (if ts = 1440 then documentedDaily else documentedSteps), v ∈ Validate.outVarCheck ts ∧ v ∈ availableUnits.keys) := by
  unfold Validate.outVarCheck
  split <;> decide +kernel

example : (updateUnitAttrs importAttrs [("temp", some "K"), ("prec", none), ("vapor_pressure", some "KPa")]).map Prod.snd
    = .ok [("temp", "K"), ("prec", "mm timestep-1"), ("vapor_pressure", "Pa")] := by decide +kernel

end Verif.Props
