import Verif.Model.Units
import Verif.Spec.UnitMeaning

namespace Verif.Props
open Verif.Units Verif.Spec

/-! ## C01 -/
section C01
variable {K : Type} [Field K] [LinearOrder K] [IsStrictOrderedRing K]

/-- Output of `var` in `unit` is right: whenever the conversion applied to the output succeeds, for every
value and every positive time step it returns the number which, in the target unit, denotes the same
physical quantity (same kind, same SI value) as the input denotes in the variable's default unit. -/
def ConverterSound (K : Type) [Field K] [LinearOrder K] (var unit : String) : Prop :=
  ∀ (dflt : String), importAttrs.get? var = some dflt →
    ∀ (ts : Int), 0 < ts → ∀ (x : K) (r : Flt K), Units.convert var unit (.fin x) ts = .ok r →
    ∃ y s k, r = .fin y ∧ kindOf var = some k ∧
      si unit (ts : K) y = some (k, s) ∧ si dflt (ts : K) x = some (k, s)

omit [IsStrictOrderedRing K] in
theorem convert_ok {var unit : String} {x r : Flt K} {ts : Int} (h : Units.convert var unit x ts = .ok r) :
    ∃ table f, (converters (K := K)).get? var = some table ∧ table.get? unit = some f ∧ f x ts = r := by
  unfold Units.convert at h
  simp only [bind, Except.bind, pure, Except.pure, Dict.get] at h
  cases h1 : (converters (K := K)).get? var with
  | none => simp [h1] at h
  | some table =>
    simp only [h1] at h
    cases h2 : table.get? unit with
    | none => simp [h2] at h
    | some f => simp only [h2, Except.ok.injEq] at h; exact ⟨table, f, rfl, h2, h⟩

/-- **C01, full statement** (false of the code, see `C01_refuted`). -/
def C01_full (K : Type) [Field K] [LinearOrder K] : Prop :=
  ∀ var unit : String, ConverterSound K var unit

/-- **C01, partial**: every converter except `air_pressure -> hPa` is right.
Missing: `air_pressure -> hPa`, which is wrong (see `C01_refuted`). -/
theorem C01_units_partial (var unit : String) (hbug : ¬ (var = "air_pressure" ∧ unit = "hPa")) :
    ConverterSound K var unit := by
  intro dflt hdflt ts hts x r hr
  obtain ⟨table, f, htable, hf, rfl⟩ := convert_ok hr
  have hts' : (0 : K) < (ts : K) := by exact_mod_cast hts
  have hne : (ts : K) ≠ 0 := ne_of_gt hts'
  have h60 : (60 : K) ≠ 0 := by norm_num
  have h1 : (ts : K) / 60 ≠ 0 := div_ne_zero hne h60
  have h2 : (ts : K) * 60 ≠ 0 := mul_ne_zero hne h60
  have key := Dict.mem_of_get? _ htable
  have key2 := Dict.mem_of_get? _ hf
  clear htable hf hr
  simp only [converters, List.mem_cons, Prod.mk.injEq, List.not_mem_nil, or_false] at key
  rcases key with ⟨rfl, rfl⟩ | ⟨rfl, rfl⟩ | ⟨rfl, rfl⟩ | ⟨rfl, rfl⟩ | ⟨rfl, rfl⟩ | ⟨rfl, rfl⟩ |
    ⟨rfl, rfl⟩ | ⟨rfl, rfl⟩ | ⟨rfl, rfl⟩ | ⟨rfl, rfl⟩ | ⟨rfl, rfl⟩ | ⟨rfl, rfl⟩ | ⟨rfl, rfl⟩ |
    ⟨rfl, rfl⟩ <;>
  simp only [List.mem_cons, Prod.mk.injEq, List.not_mem_nil, or_false] at key2 <;>
  simp [importAttrs, Dict.get?] at hdflt <;> subst hdflt
  all_goals
    repeat' (first | (obtain ⟨rfl, rfl⟩ : _ ∧ _ := key2) | (rcases key2 with key2 | key2))
  all_goals
    first
    | (exfalso; exact hbug ⟨rfl, rfl⟩)
    | skip
  all_goals
    simp [ident, perHour, perSecond, toKelvin, divBy, mulBy, kindOf, si, h1, h2,
      Cnst.MIN_PER_HOUR, Cnst.SEC_PER_MIN]
  all_goals try (field_simp; try norm_num)

/-- **C01 is violated by the code**: `air_pressure` in `hPa` is the value in kPa times 100, ten times
the value in hPa (units.py:39). -/
theorem C01_refuted : ¬ ConverterSound ℚ "air_pressure" "hPa" := by
  intro h
  obtain ⟨y, s, k, h1, h2, h3, h4⟩ := h "kPa" (by decide) 60 (by decide) 100 (.fin 10000) (by decide +kernel)
  simp at h1
  subst h1
  simp [si] at h3 h4
  obtain ⟨_, rfl⟩ := h3
  norm_num at h4

omit [IsStrictOrderedRing K] in
/-- Missing values stay missing. -/
theorem C01_missing (var unit : String) (ts : Int) (r : Flt K) (h : Units.convert var unit (.nan : Flt K) ts = .ok r) :
    r = .nan := by
  obtain ⟨table, f, htable, hf, rfl⟩ := convert_ok h
  have key := Dict.mem_of_get? _ htable
  have key2 := Dict.mem_of_get? _ hf
  clear htable hf h
  simp only [converters, List.mem_cons, Prod.mk.injEq, List.not_mem_nil, or_false] at key
  rcases key with ⟨rfl, rfl⟩ | ⟨rfl, rfl⟩ | ⟨rfl, rfl⟩ | ⟨rfl, rfl⟩ | ⟨rfl, rfl⟩ | ⟨rfl, rfl⟩ |
    ⟨rfl, rfl⟩ | ⟨rfl, rfl⟩ | ⟨rfl, rfl⟩ | ⟨rfl, rfl⟩ | ⟨rfl, rfl⟩ | ⟨rfl, rfl⟩ | ⟨rfl, rfl⟩ |
    ⟨rfl, rfl⟩ <;>
  simp only [List.mem_cons, Prod.mk.injEq, List.not_mem_nil, or_false] at key2
  all_goals
    repeat' (first | (obtain ⟨rfl, rfl⟩ : _ ∧ _ := key2) | (rcases key2 with key2 | key2))
  all_goals rfl

theorem C01_full_false : ¬ C01_full ℚ := fun h => C01_refuted (h _ _)

/-- The hypotheses of C01 are met by every entry of the table, e.g. precipitation in `mm h-1`:
3 mm in a 30 minute step are 6 mm per hour. -/
example : (converters (K := ℚ)).get? "prec" ≠ none ∧ importAttrs.get? "prec" = some "mm timestep-1" ∧
    Units.convert (K := ℚ) "prec" "mm h-1" (.fin 3) 30 = .ok (.fin 6) := by
  decide +kernel

/-- Every variable with default units has a converter for them, and vice versa, so that C01 covers
the whole table. -/
theorem C01_table_complete :
    (∀ v ∈ (converters (K := ℚ)).keys, v ∈ importAttrs.keys) ∧
    (∀ v ∈ importAttrs.keys, v ∈ (converters (K := ℚ)).keys) := by decide +kernel

end C01

/-! ## C02 -/
section C02

/-- `unit` is one of the units offered for `var`. -/
def Supported (var unit : String) : Prop :=
  ∃ table f, (converters (K := ℚ)).get? var = some table ∧ table.get? unit = some f

theorem table_ok : ∀ k ∈ importAttrs.keys,
    (match (converters (K := ℚ)).get? k, importAttrs.get? k with
      | some t, some d => (t.get? d).isSome
      | _, _ => false) = true := by decide +kernel

theorem table_ok' (k : String) (hk : k ∈ importAttrs.keys) :
    ∃ t d f, (converters (K := ℚ)).get? k = some t ∧ importAttrs.get? k = some d ∧
      t.get? d = some f := by
  have := table_ok k hk
  split at this
  · rename_i t d h1 h2
    obtain ⟨f, hf⟩ := Option.isSome_iff_exists.1 this
    exact ⟨t, d, f, h1, h2, hf⟩
  · simp at this

/-- One construction step for one variable. -/
theorem updateOne_spec (attrs : Dict String String) (k : String) (v : Option String)
    (hk : k ∈ importAttrs.keys) (hk' : k ∈ attrs.keys) :
    ∃ u, Supported k u ∧
      ((∀ w, v = some w → Supported k w → u = w) ∧
       ((∀ w, v = some w → ¬ Supported k w) → importAttrs.get? k = some u)) ∧
      ((updateOne attrs k v = .ok (attrs.set k u, u) ∧ v = some u) ∨
       (updateOne attrs k v = .ok (attrs, u) ∧ importAttrs.get? k = some u ∧
         ∀ w, v = some w → ¬ Supported k w)) := by
  obtain ⟨t, d, f, h1, h2, h3⟩ := table_ok' k hk
  have hd : Supported k d := ⟨t, f, h1, h3⟩
  have h2' : Dict.get availableUnits k = .ok d := by simp [Dict.get, availableUnits, h2]
  cases v with
  | none =>
    refine ⟨d, hd, ⟨by simp, fun _ => h2⟩, Or.inr ⟨?_, h2, by simp⟩⟩
    simp only [updateOne, h2']; rfl
  | some w =>
    cases hw : t.get? w with
    | none =>
      have hns : ¬ Supported k w := by
        rintro ⟨t', f', ht', hf'⟩
        rw [h1] at ht'; injection ht' with ht'; subst ht'
        rw [hw] at hf'; cases hf'
      refine ⟨d, hd, ⟨?_, fun _ => h2⟩, Or.inr ⟨?_, h2, ?_⟩⟩
      · intro w' hw' hs; injection hw' with hw'; subst hw'; exact absurd hs hns
      · simp only [updateOne, Dict.get, h1]
        show (match t.get? w with | some _ => _ | none => _) = _
        simp only [hw]
        rw [← Dict.get, h2']; rfl
      · intro w' hw'; injection hw' with hw'; subst hw'; exact hns
    | some g =>
      have hs : Supported k w := ⟨t, g, h1, hw⟩
      refine ⟨w, hs, ⟨?_, ?_⟩, Or.inl ⟨?_, rfl⟩⟩
      · intro w' hw' _; injection hw' with hw'
      · intro h; exact absurd hs (h w rfl)
      · obtain ⟨a, ha⟩ : ∃ a, attrs.get? k = some a := by
          cases h : attrs.get? k with
          | none => exact absurd hk' ((Dict.get?_eq_none_iff _ _).1 h)
          | some a => exact ⟨a, rfl⟩
        simp only [updateOne, Dict.get, h1]
        show (match t.get? w with | some _ => _ | none => _) = _
        simp only [hw, ha]; rfl

/-- **C02**: constructing a MetSim object with output variables taken from the available outputs
succeeds and leaves every variable with a unit that can be converted to: the requested unit if it is
supported, the default unit otherwise.  (`hattrs` holds at import and is preserved, see below.) -/
theorem C02_units_honoured (attrs : Dict String String) (outVars : OutUnits)
    (hattrs : ∀ k, k ∈ importAttrs.keys → k ∈ attrs.keys)
    (hkeys : ∀ k ∈ outVars.keys, k ∈ availableUnits.keys) :
    ∃ attrs' us, updateUnitAttrs attrs outVars = .ok (attrs', us) ∧
      (∀ k, k ∈ importAttrs.keys → k ∈ attrs'.keys) ∧
      List.Forall₂ (fun (kv : String × Option String) (ku : String × String) =>
        kv.1 = ku.1 ∧ Supported ku.1 ku.2 ∧
        (∀ u, kv.2 = some u → Supported kv.1 u → ku.2 = u) ∧
        ((∀ u, kv.2 = some u → ¬ Supported kv.1 u) → importAttrs.get? ku.1 = some ku.2))
        outVars us := by
  induction outVars generalizing attrs with
  | nil => exact ⟨attrs, [], rfl, hattrs, List.Forall₂.nil⟩
  | cons kv rest ih =>
    obtain ⟨k, v⟩ := kv
    have hk : k ∈ importAttrs.keys := hkeys k (by simp [Dict.keys])
    have hrest : ∀ k ∈ Dict.keys rest, k ∈ availableUnits.keys :=
      fun k h => hkeys k (by simp only [Dict.keys, List.map_cons, List.mem_cons]; exact Or.inr h)
    obtain ⟨u, hs, ⟨hA, hB⟩, h⟩ := updateOne_spec attrs k v hk (hattrs k hk)
    rcases h with ⟨h, _⟩ | ⟨h, _, _⟩
    · obtain ⟨attrs', us, h1, h2, h3⟩ := ih (attrs.set k u)
        (fun k' hk' => (Dict.mem_keys_set _ _ _ _).2 (Or.inr (hattrs k' hk'))) hrest
      refine ⟨attrs', (k, u) :: us, ?_, h2, List.Forall₂.cons ⟨rfl, hs, hA, hB⟩ h3⟩
      simp only [updateUnitAttrs, h]
      show (updateUnitAttrs (attrs.set k u) rest >>= _) = _
      rw [h1]; rfl
    · obtain ⟨attrs', us, h1, h2, h3⟩ := ih attrs hattrs hrest
      refine ⟨attrs', (k, u) :: us, ?_, h2, List.Forall₂.cons ⟨rfl, hs, hA, hB⟩ h3⟩
      simp only [updateUnitAttrs, h]
      show (updateUnitAttrs attrs rest >>= _) = _
      rw [h1]; rfl

/-- Non-vacuity: a supported request, an unsupported one and a missing one. -/
example : updateUnitAttrs importAttrs [("temp", some "K"), ("prec", some "inch"), ("wind", none)] =
    .ok (importAttrs.set "temp" "K", [("temp", "K"), ("prec", "mm timestep-1"), ("wind", "m s-1")]) := by
  decide +kernel

/-- A supported unit really converts: `run_slice` finds a converter. -/
theorem C02_supported_converts {K : Type} [Field K] [LinearOrder K] (var unit : String)
    (h : Supported var unit) (x : Flt K) (ts : Int) : ∃ y, Units.convert var unit x ts = .ok y := by
  obtain ⟨t, f, h1, h2⟩ := h
  have m1 := Dict.mem_of_get? _ h1
  have m2 := Dict.mem_of_get? _ h2
  simp only [converters, List.mem_cons, Prod.mk.injEq, List.not_mem_nil, or_false] at m1
  rcases m1 with ⟨rfl, rfl⟩ | ⟨rfl, rfl⟩ | ⟨rfl, rfl⟩ | ⟨rfl, rfl⟩ | ⟨rfl, rfl⟩ | ⟨rfl, rfl⟩ |
    ⟨rfl, rfl⟩ | ⟨rfl, rfl⟩ | ⟨rfl, rfl⟩ | ⟨rfl, rfl⟩ | ⟨rfl, rfl⟩ | ⟨rfl, rfl⟩ | ⟨rfl, rfl⟩ |
    ⟨rfl, rfl⟩ <;>
  simp only [List.mem_cons, Prod.mk.injEq, List.not_mem_nil, or_false] at m2
  all_goals
    repeat' (first | (obtain ⟨rfl, _⟩ : _ ∧ _ := m2) | (rcases m2 with m2 | m2))
  all_goals exact ⟨_, rfl⟩

end C02

/-! ## C03 -/
section C03

/-- The module-level unit table after a history of constructions (each with its `out_vars`). -/
def unitHistory : List OutUnits → Dict String String → Except PyErr (Dict String String)
  | [], attrs => .ok attrs
  | ov :: rest, attrs => do
    let (attrs, _) ← updateUnitAttrs attrs ov
    unitHistory rest attrs

/-- **C03, full statement**: after any history, the units attribute of every output variable of the
object constructed last is the unit its values are converted to.  False: `C03_refuted`. -/
def C03_full : Prop :=
  ∀ (hist : List OutUnits) (ov : OutUnits) (attrs₀ attrs us : Dict String String),
    unitHistory hist importAttrs = .ok attrs₀ →
    updateUnitAttrs attrs₀ ov = .ok (attrs, us) →
    ∀ k u, (k, u) ∈ us → attrs.get? k = some u

/-- **C03 is violated by the code**: a first object asks for temperature in K; a second one does not
ask for a unit, so its values are in C, but the attribute still says K (metsim.py:231-241). -/
theorem C03_refuted : ¬ C03_full := by
  intro h
  have := h [[("temp", some "K")]] [("temp", none)] (importAttrs.set "temp" "K")
    (importAttrs.set "temp" "K") [("temp", "C")] (by decide +kernel) (by decide +kernel)
    "temp" "C" (by simp)
  revert this; decide +kernel

/-- Did the history select, for variable `k`, a unit other than the default? -/
def Disturbed (hist : List OutUnits) (k : String) : Prop :=
  ∃ ov ∈ hist, ∃ u, (k, some u) ∈ ov ∧ Supported k u ∧ importAttrs.get? k ≠ some u

theorem updateUnitAttrs_get (ov : OutUnits) (attrs attrs' us : Dict String String)
    (hattrs : ∀ k, k ∈ importAttrs.keys → k ∈ attrs.keys)
    (hkeys : ∀ k ∈ ov.keys, k ∈ availableUnits.keys)
    (h : updateUnitAttrs attrs ov = .ok (attrs', us)) (k : String) (u : String)
    (hk : k ∉ ov.keys ∨ (∀ w, (k, some w) ∈ ov → Supported k w → w = u)) (hu : attrs.get? k = some u) :
    attrs'.get? k = some u := by
  induction ov generalizing attrs us with
  | nil => simp [updateUnitAttrs] at h; rw [← h.1]; exact hu
  | cons kv rest ih =>
    obtain ⟨k₁, v₁⟩ := kv
    have hk₁ : k₁ ∈ importAttrs.keys := hkeys k₁ (by simp [Dict.keys])
    have hrest : ∀ k ∈ Dict.keys rest, k ∈ availableUnits.keys :=
      fun k h => hkeys k (by simp only [Dict.keys, List.map_cons, List.mem_cons]; exact Or.inr h)
    have hk' : k ∉ Dict.keys rest ∨ (∀ w, (k, some w) ∈ rest → Supported k w → w = u) := by
      rcases hk with hk | hk
      · left; intro hc; apply hk
        simp only [Dict.keys, List.map_cons, List.mem_cons]; exact Or.inr hc
      · right; intro w hw; exact hk w (List.mem_cons_of_mem _ hw)
    obtain ⟨u₁, hs, ⟨hA, hB⟩, h₁⟩ := updateOne_spec attrs k₁ v₁ hk₁ (hattrs k₁ hk₁)
    rcases h₁ with ⟨h₁, hv⟩ | ⟨h₁, _⟩
    · simp only [updateUnitAttrs, h₁] at h
      cases h₂ : updateUnitAttrs (attrs.set k₁ u₁) rest with
      | error e => simp [h₂, bind, Except.bind] at h
      | ok p =>
        obtain ⟨a, b⟩ := p
        simp [h₂, bind, Except.bind, pure, Except.pure] at h
        obtain ⟨rfl, rfl⟩ := h
        refine ih (attrs.set k₁ u₁) b
          (fun k' hk' => (Dict.mem_keys_set _ _ _ _).2 (Or.inr (hattrs k' hk'))) hrest ?_ hk' ?_
        · exact h₂
        · rw [Dict.get?_set]
          split
          · next e =>
            subst e; subst hv
            rcases hk with hk | hk
            · exact absurd (by simp [Dict.keys]) hk
            · rw [hk u₁ (by simp) hs]
          · exact hu
    · simp only [updateUnitAttrs, h₁] at h
      cases h₂ : updateUnitAttrs attrs rest with
      | error e => simp [h₂, bind, Except.bind] at h
      | ok p =>
        obtain ⟨a, b⟩ := p
        simp [h₂, bind, Except.bind, pure, Except.pure] at h
        obtain ⟨rfl, rfl⟩ := h
        exact ih attrs b hattrs hrest h₂ hk' hu

theorem updateUnitAttrs_mem (ov : OutUnits) (attrs attrs' us : Dict String String)
    (hattrs : ∀ k, k ∈ importAttrs.keys → k ∈ attrs.keys)
    (hkeys : ∀ k ∈ ov.keys, k ∈ availableUnits.keys) (hnd : ov.keys.Nodup)
    (h : updateUnitAttrs attrs ov = .ok (attrs', us)) (k u : String) (hku : (k, u) ∈ us) :
    ∃ v, (k, v) ∈ ov ∧ ((v = some u ∧ attrs'.get? k = some u) ∨
      ((∀ w, v = some w → ¬ Supported k w) ∧ importAttrs.get? k = some u ∧
        attrs'.get? k = attrs.get? k)) := by
  induction ov generalizing attrs us with
  | nil => simp [updateUnitAttrs] at h; rw [h.2] at hku; simp at hku
  | cons kv rest ih =>
    obtain ⟨k₁, v₁⟩ := kv
    have hk₁ : k₁ ∈ importAttrs.keys := hkeys k₁ (by simp [Dict.keys])
    have hrest : ∀ k ∈ Dict.keys rest, k ∈ availableUnits.keys :=
      fun k h => hkeys k (by simp only [Dict.keys, List.map_cons, List.mem_cons]; exact Or.inr h)
    have hnd' : (Dict.keys rest).Nodup ∧ k₁ ∉ Dict.keys rest := by
      simp only [Dict.keys, List.map_cons, List.nodup_cons] at hnd; exact ⟨hnd.2, hnd.1⟩
    obtain ⟨u₁, hs, ⟨hA, hB⟩, h₁⟩ := updateOne_spec attrs k₁ v₁ hk₁ (hattrs k₁ hk₁)
    have hsome : ∀ a : Dict String String, k₁ ∈ a.keys → ∃ x, a.get? k₁ = some x := by
      intro a ha
      cases h : a.get? k₁ with
      | none => exact absurd ha ((Dict.get?_eq_none_iff _ _).1 h)
      | some x => exact ⟨x, rfl⟩
    rcases h₁ with ⟨h₁, hv⟩ | ⟨h₁, hd, hns⟩
    · simp only [updateUnitAttrs, h₁] at h
      cases h₂ : updateUnitAttrs (attrs.set k₁ u₁) rest with
      | error e => simp [h₂, bind, Except.bind] at h
      | ok p =>
        obtain ⟨a, b⟩ := p
        simp [h₂, bind, Except.bind, pure, Except.pure] at h
        obtain ⟨rfl, rfl⟩ := h
        have hat := fun k' hk' => (Dict.mem_keys_set attrs k₁ u₁ k').2 (Or.inr (hattrs k' hk'))
        rcases List.mem_cons.1 hku with e | hm
        · injection e with e1 e2; subst e1; subst e2
          refine ⟨v₁, by simp, Or.inl ⟨hv, ?_⟩⟩
          exact updateUnitAttrs_get rest _ _ b hat hrest h₂ k u (Or.inl hnd'.2)
            (by rw [Dict.get?_set]; simp)
        · obtain ⟨v, hv, hh⟩ := ih _ b hat hrest hnd'.1 h₂ hm
          have hkne : k ≠ k₁ := by
            rintro rfl; exact hnd'.2 (List.mem_map_of_mem (f := Prod.fst) hv)
          refine ⟨v, List.mem_cons_of_mem _ hv, ?_⟩
          rcases hh with hh | ⟨p, q, r⟩
          · exact Or.inl hh
          · refine Or.inr ⟨p, q, ?_⟩
            rw [r, Dict.get?_set, if_neg (Ne.symm hkne)]
    · simp only [updateUnitAttrs, h₁] at h
      cases h₂ : updateUnitAttrs attrs rest with
      | error e => simp [h₂, bind, Except.bind] at h
      | ok p =>
        obtain ⟨a, b⟩ := p
        simp [h₂, bind, Except.bind, pure, Except.pure] at h
        obtain ⟨rfl, rfl⟩ := h
        rcases List.mem_cons.1 hku with e | hm
        · injection e with e1 e2; subst e1; subst e2
          refine ⟨v₁, by simp, Or.inr ⟨hns, hd, ?_⟩⟩
          obtain ⟨x, hx⟩ := hsome attrs (hattrs _ hk₁)
          rw [hx]
          exact updateUnitAttrs_get rest _ _ b hattrs hrest h₂ k x (Or.inl hnd'.2) hx
        · obtain ⟨v, hv, hh⟩ := ih _ b hattrs hrest hnd'.1 h₂ hm
          exact ⟨v, List.mem_cons_of_mem _ hv, hh⟩

theorem unitHistory_get (hist : List OutUnits) (attrs attrs₀ : Dict String String)
    (hattrs : ∀ k, k ∈ importAttrs.keys → k ∈ attrs.keys)
    (hkeys : ∀ ov ∈ hist, ∀ k ∈ Dict.keys ov, k ∈ availableUnits.keys)
    (h : unitHistory hist attrs = .ok attrs₀) :
    (∀ k, k ∈ importAttrs.keys → k ∈ attrs₀.keys) ∧
    ∀ k u, ¬ Disturbed hist k → importAttrs.get? k = some u → attrs.get? k = some u →
      attrs₀.get? k = some u := by
  induction hist generalizing attrs with
  | nil => simp [unitHistory] at h; subst h; exact ⟨hattrs, fun _ _ _ _ h => h⟩
  | cons ov rest ih =>
    have hov := hkeys ov (by simp)
    obtain ⟨a, us, h1, h2, -⟩ := C02_units_honoured attrs ov hattrs hov
    simp only [unitHistory, h1, bind, Except.bind] at h
    obtain ⟨ih1, ih2⟩ := ih a h2 (fun o ho => hkeys o (List.mem_cons_of_mem _ ho)) h
    refine ⟨ih1, fun k u hd hi hu => ih2 k u ?_ hi ?_⟩
    · rintro ⟨o, ho, w, hw⟩; exact hd ⟨o, List.mem_cons_of_mem _ ho, w, hw⟩
    · refine updateUnitAttrs_get ov attrs a us hattrs hov h1 k u (Or.inr ?_) hu
      intro w hw hs
      by_contra hne
      exact hd ⟨ov, by simp, w, hw, hs, by rw [hi]; simpa using fun e => hne e.symm⟩

/-- **C03, the part that holds**: after any history of constructions over the available outputs, the
units attribute of an output variable is the unit its values are converted to, provided the variable
was requested with an explicit supported unit, or no earlier object selected another unit for it.
Missing from the full statement: the case of `C03_refuted`. -/
theorem C03_units_attr_partial (hist : List OutUnits) (ov : OutUnits)
    (attrs₀ attrs us : Dict String String)
    (hhist : ∀ o ∈ hist, ∀ k ∈ Dict.keys o, k ∈ availableUnits.keys)
    (hov : ∀ k ∈ ov.keys, k ∈ availableUnits.keys) (hnd : ov.keys.Nodup)
    (h₀ : unitHistory hist importAttrs = .ok attrs₀)
    (h : updateUnitAttrs attrs₀ ov = .ok (attrs, us))
    (k u : String) (hku : (k, u) ∈ us)
    (hok : (∃ w, (k, some w) ∈ ov ∧ Supported k w) ∨ ¬ Disturbed hist k) :
    attrs.get? k = some u := by
  obtain ⟨hA, hB⟩ := unitHistory_get hist importAttrs attrs₀ (fun _ h => h) hhist h₀
  obtain ⟨v, hv, hh⟩ := updateUnitAttrs_mem ov attrs₀ attrs us hA hov hnd h k u hku
  rcases hh with ⟨-, hh⟩ | ⟨hn, hi, he⟩
  · exact hh
  · rcases hok with ⟨w, hw, hs⟩ | hd
    · have : v = some w := by
        have e1 := Dict.get?_of_mem _ hnd hv
        have e2 := Dict.get?_of_mem _ hnd hw
        rw [e1] at e2; injection e2
      exact absurd hs (hn w this)
    · rw [he]; exact hB k u hd hi hi

/-- Non-vacuity: a second object asking explicitly for C after one that asked for K. -/
example : ∃ attrs₀ attrs us, unitHistory [[("temp", some "K")]] importAttrs = .ok attrs₀ ∧
    updateUnitAttrs attrs₀ [("temp", some "C"), ("prec", none)] = .ok (attrs, us) ∧
    attrs.get? "temp" = some "C" :=
  ⟨importAttrs.set "temp" "K", importAttrs, [("temp", "C"), ("prec", "mm timestep-1")],
    by decide +kernel, by decide +kernel, by decide +kernel⟩

end C03
end Verif.Props
