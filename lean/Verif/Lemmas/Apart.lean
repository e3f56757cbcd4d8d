import Verif.Lemmas.Alike
import Verif.Props.Balance

/-!
# Which inputs a quantity is computed from

Two computations whose inputs agree as far as they are read.
-/

namespace Verif.Cell

open Flt Methods

/-! ### Solar geometry and elevation -/

theorem step_flat (tr tr' : Flt ℝ) (b coseg sineg : ℝ) : ∀ (hs : List ℝ) (a a' : Solar.Acc), a.sumFlat = a'.sumFlat → a.fract = a'.fract →
    (hs.foldl (Solar.step tr b coseg sineg) a).sumFlat = (hs.foldl (Solar.step tr' b coseg sineg) a').sumFlat ∧
    (hs.foldl (Solar.step tr b coseg sineg) a).fract = (hs.foldl (Solar.step tr' b coseg sineg) a').fract
  | [], _, _, h1, h2 => ⟨h1, h2⟩
  | h :: hs, a, a', h1, h2 => by
    refine step_flat tr tr' b coseg sineg hs _ _ ?_ ?_ <;> unfold Solar.step <;> simp only <;> split <;> simp [h1, h2]

/-- What a row of the table of solar geometry says about the sun, whatever the air. -/
def sunny (g : Solar.DayGeom) : (Nat → ℝ) × ℝ × ℝ := (g.fract, g.daylength, g.potrad)

theorem solarDay_sunny {tr tr' : Flt ℝ} {lat : ℝ} {i : Nat} {g g' : Solar.DayGeom} (h : Solar.solarDay tr lat i = .ok g)
    (h' : Solar.solarDay tr' lat i = .ok g') : sunny g = sunny g' := by
  unfold Solar.solarDay at h h'
  simp only at h h'
  by_cases hc : Real.cos lat * Real.cos (Solar.decl i) = 0
  · rw [if_pos hc] at h; cases h
  rw [if_neg hc] at h h'
  obtain ⟨e1, e2⟩ := step_flat tr tr' (Solar.beam i) (Real.cos lat * Real.cos (Solar.decl i)) (Real.sin lat * Real.sin (Solar.decl i))
    (Solar.hours (Solar.halfDay (Real.cos lat * Real.cos (Solar.decl i)) (Real.sin lat * Real.sin (Solar.decl i))))
    ⟨fin 0, 0, fun _ => 0⟩ ⟨fin 0, 0, fun _ => 0⟩ rfl rfl
  revert h h' e1 e2
  generalize List.foldl (Solar.step tr _ _ _) _ _ = acc
  generalize List.foldl (Solar.step tr' _ _ _) _ _ = acc'
  obtain ⟨t, x, fr⟩ := acc
  obtain ⟨t', x', fr'⟩ := acc'
  simp only
  intro h h' e1 e2
  subst e1 e2
  split_ifs at h h' <;> first | (cases h; cases h'; rfl) | (cases h; done) | (cases h'; done)

/-- **Sunshine does not depend on elevation.** -/
theorem solarGeom_sunny {elev elev' lat lr lr' : ℝ} {g g' : List Solar.DayGeom} (h : Solar.solarGeom elev lat lr = .ok g)
    (h' : Solar.solarGeom elev' lat lr' = .ok g') : g.map sunny = g'.map sunny := by
  unfold Solar.solarGeom at h h'
  simp only [bind_ok, pure_ok] at h h'
  obtain ⟨tr, -, rows, h1, rfl⟩ := h
  obtain ⟨tr', -, rows', h1', rfl⟩ := h'
  obtain ⟨l1, e1⟩ := mapM_getElem h1
  obtain ⟨l2, e2⟩ := mapM_getElem h1'
  have e : rows.map sunny = rows'.map sunny := by
    refine List.ext_getElem (by simp [l1, l2]) fun i hi hi' => ?_
    simp only [List.length_map] at hi hi'
    rw [List.getElem_map, List.getElem_map]
    have hr : (List.range 365)[i]? = some i := List.getElem?_range (by rw [l1] at hi; simpa using hi)
    exact solarDay_sunny (e1 i i _ hr (List.getElem?_eq_getElem hi)) (e2 i i _ hr (List.getElem?_eq_getElem hi'))
  rw [List.map_append, List.map_append, e]
  congr 1
  have := congrArg List.getLast? e
  rw [List.getLast?_map, List.getLast?_map] at this
  cases h3 : rows.getLast? <;> cases h4 : rows'.getLast? <;> rw [h3, h4] at this <;> simp at this ⊢
  exact this

theorem geomRows_sunny {g g' : List Solar.DayGeom} (e : g.map sunny = g'.map sunny) {days : List Int} {rows rows' : List Solar.DayGeom}
    (h : geomRows g days = .ok rows) (h' : geomRows g' days = .ok rows') : rows.map sunny = rows'.map sunny := by
  obtain ⟨l1, e1⟩ := mapM_getElem h
  obtain ⟨l2, e2⟩ := mapM_getElem h'
  refine List.ext_getElem (by simp [l1, l2]) fun i hi hi' => ?_
  simp only [List.length_map] at hi hi'
  rw [List.getElem_map, List.getElem_map]
  have hd : i < days.length := l1 ▸ hi
  have a := e1 i _ _ (List.getElem?_eq_getElem hd) (List.getElem?_eq_getElem hi)
  have b := e2 i _ _ (List.getElem?_eq_getElem hd) (List.getElem?_eq_getElem hi')
  have q := congrArg (fun l => l[doy days[i] - 1]?) e
  simp only [List.getElem?_map] at q
  cases h3 : g[doy days[i] - 1]? <;> cases h4 : g'[doy days[i] - 1]? <;> rw [h3] at a q <;> rw [h4] at b q
  · cases a
  · cases a
  · cases b
  · simp only [Except.ok.injEq] at a b
    rw [← a, ← b]
    simpa using q

/-! ### Frames that agree in some columns -/

/-- The frames agree in these columns. -/
def AgreeIn (names : List String) (f f' : Frame) : Prop := ∀ k ∈ names, Dict.get? f k = Dict.get? f' k

theorem AgreeIn.mono {names more : List String} {f f' : Frame} (h : AgreeIn more f f') (hs : ∀ k ∈ names, k ∈ more) :
    AgreeIn names f f' := fun k hk => h k (hs k hk)

theorem AgreeIn.set {l : List String} {f f' : Frame} (h : AgreeIn l f f') (k : String) (c : Col) :
    AgreeIn (k :: l) (Dict.set f k c) (Dict.set f' k c) := by
  intro j hj
  rw [Dict.get?_set, Dict.get?_set]
  by_cases e : k = j
  · simp only [e, if_true]
  · simp only [e, if_false]
    rcases List.mem_cons.1 hj with rfl | hj
    · exact absurd rfl e
    · exact h j hj

theorem AgreeIn.get {l : List String} {f f' : Frame} (h : AgreeIn l f f') {k : String} (hk : k ∈ l) : Dict.get f k = Dict.get f' k := by
  unfold Dict.get; rw [h k hk]

theorem AgreeIn.bind {δ ε : Type} {S : δ → ε → Prop} {l : List String} {f f' : Frame} (h : AgreeIn l f f') {k : String} (hk : k ∈ l)
    {x : Col → Except PyErr δ} {y : Col → Except PyErr ε} (hxy : ∀ c, Both S (x c) (y c)) :
    Both S (Dict.get f k >>= x) (Dict.get f' k >>= y) := by
  rw [h.get hk]
  exact .same hxy

/-- What `mtclim` reads of the weather. -/
def weather : List String := ["t_min", "t_max", "prec", "dtr", "smoothed_dtr", "seasonal_prec"]

/-- The columns of the solar geometry. -/
def sun : List String := ["daylength", "potrad", "tt_max"]

theorem mtclim_apart {f f' : Frame} (h : AgreeIn (weather ++ sun) f f') (n fuel : Nat) (p : MParams) :
    Both (fun a b => match a, b with
      | some a, some b => AgreeIn ["vapor_pressure", "shortwave", "tskc", "tdew", "pet", "tfmax", "t_day"] a b
      | none, none => True
      | _, _ => False) (mtclimRun n fuel f p) (mtclimRun n fuel f' p) := by
  unfold mtclimRun
  refine h.bind (by decide) fun tMin => h.bind (by decide) fun tMax => ?_
  have h := h.set "t_day" fun i => tDay (tMin i) (tMax i) p
  refine h.bind (by decide) fun dtr => h.bind (by decide) fun sm => h.bind (by decide) fun prec => ?_
  have h := h.set "tfmax" fun i => tfmax (dtr i) (sm i) (prec i) p
  refine h.bind (by decide) fun tf => ?_
  have h := h.set "tskc" fun i => tskc (tf i) p
  refine h.bind (by decide) fun tMin => h.bind (by decide) fun tf => h.bind (by decide) fun ttMax => h.bind (by decide) fun potrad =>
    h.bind (by decide) fun td => h.bind (by decide) fun dl => h.bind (by decide) fun seas => h.bind (by decide) fun dtr =>
    .same fun first => .same fun res => ?_
  cases res with
  | none => exact trivial
  | some dew =>
    have h := (((h.set "seasonal_prec" fun i => clampPrec (seas i)).set "tdew" dew).set "vapor_pressure" fun i => vaporPressure (dew i)).set
      "shortwave" fun i => shortwave (tf i) (vaporPressure (dew i)) (ttMax i) (potrad i)
    exact h.bind (by decide) fun sw => .same fun e => (h.set "pet" e).mono (by decide)

/-- The number of rounds allowed does not matter. -/
theorem mtclim_rounds {n fuel fuel' : Nat} {f a b : Frame} {p : MParams} (h : mtclimRun n fuel f p = .ok (some a))
    (h' : mtclimRun n fuel' f p = .ok (some b)) : a = b := by
  have h1 := Props.C41_rounds n fuel fuel' f p a h
  have h2 := Props.C41_rounds n fuel' fuel f p b h'
  rw [Nat.add_comm, h1] at h2
  exact Option.some.inj (Except.ok.inj h2)

theorem runMethod_mtclim {n fuel : Nat} {f out : Frame} {p : MParams} (h : runMethod fuel n .mtclim f p = .ok out) :
    mtclimRun n fuel f p = .ok (some out) := by
  unfold runMethod at h
  simp only [bind_ok] at h
  obtain ⟨r, h1, h2⟩ := h
  cases r with
  | none => cases h2
  | some b => rw [h1, Except.ok.inj h2]

theorem addIfMissing_apart {l : List String} {f f' : Frame} (h : AgreeIn l f f') {name : String} (hn : name ∈ l)
    {v v' : Frame → Except PyErr Col} (hv : v f = v' f') : Both (AgreeIn l) (addIfMissing name v f) (addIfMissing name v' f') := by
  unfold addIfMissing
  rw [h name hn]
  cases Dict.get? f' name with
  | some c => exact h
  | none =>
    show Both (AgreeIn l) (v f >>= _) (v' f' >>= _)
    rw [hv]
    exact .same fun c => (h.set name c).mono fun k hk => List.mem_cons_of_mem _ hk

/-- A column that is not looked at may come about differently. -/
theorem addIfMissing_aside {l : List String} {f f' a b : Frame} (h : AgreeIn l f f') {name : String} (hn : name ∉ l)
    {v v' : Frame → Except PyErr Col} (ha : addIfMissing name v f = .ok a) (hb : addIfMissing name v' f' = .ok b) : AgreeIn l a b := by
  intro k hk
  have e : k ≠ name := fun e => hn (e ▸ hk)
  rw [(Props.addIfMissing_ok ha).1 k e, (Props.addIfMissing_ok hb).1 k e]
  exact h k hk

theorem Both.of_ok {α : Type} {R : α → α → Prop} {x y : Except PyErr α} {a b : α} (h : Both R x y) (ha : x = .ok a) (hb : y = .ok b) :
    R a b := by
  subst ha hb; exact h

end Verif.Cell
