import Verif.Model.Worker
import Verif.Lemmas.Dataset
import Verif.Lemmas.Chunk
import Verif.Lemmas.Cell

/-!
# Frames that differ in one column

The computation of a cell does not look at the column `day_of_year`.
-/

namespace Verif.Cell

open Flt Methods

/-- The column that does not matter. -/
def idle : String := "day_of_year"

/-- Both fail alike, or both succeed with related results. -/
def Both {α β : Type} (R : α → β → Prop) : Except PyErr α → Except PyErr β → Prop
  | .ok a, .ok b => R a b
  | .error e, .error e' => e = e'
  | _, _ => False

theorem Both.bind {α β γ δ : Type} {R : α → β → Prop} {S : γ → δ → Prop} {x : Except PyErr α} {y : Except PyErr β}
    {k : α → Except PyErr γ} {l : β → Except PyErr δ} (h : Both R x y) (hk : ∀ a b, R a b → Both S (k a) (l b)) :
    Both S (x >>= k) (y >>= l) := by
  cases x <;> cases y
  · exact h
  · exact h.elim
  · exact h.elim
  · exact hk _ _ h

theorem Both.same {α γ δ : Type} {S : γ → δ → Prop} {x : Except PyErr α}
    {k : α → Except PyErr γ} {l : α → Except PyErr δ} (hk : ∀ a, Both S (k a) (l a)) :
    Both S (x >>= k) (x >>= l) := by
  cases x
  · exact rfl
  · exact hk _

theorem Both.eq {α : Type} {x y : Except PyErr α} (h : Both (· = ·) x y) : x = y := by
  cases x <;> cases y
  · exact congrArg _ h
  · exact h.elim
  · exact h.elim
  · exact congrArg _ h

theorem Both.of_eq {α : Type} {x y : Except PyErr α} (h : x = y) : Both (· = ·) x y := by
  subst h
  cases x <;> exact rfl

/-- The frames agree but perhaps in the column that does not matter. -/
def Agree (f f' : Frame) : Prop := ∀ k, k ≠ idle → Dict.get? f k = Dict.get? f' k

theorem Agree.set {f f' : Frame} (h : Agree f f') (k : String) (c : Col) : Agree (Dict.set f k c) (Dict.set f' k c) := by
  intro j hj
  rw [Dict.get?_set, Dict.get?_set, h j hj]

theorem Agree.get {f f' : Frame} (h : Agree f f') {k : String} (hk : k ≠ idle) : Dict.get f k = Dict.get f' k := by
  unfold Dict.get; rw [h k hk]

/-- A column is fetched. -/
theorem Agree.bind {δ ε : Type} {S : δ → ε → Prop} {f f' : Frame} (h : Agree f f') {k : String} (hk : k ≠ idle)
    {x : Col → Except PyErr δ} {y : Col → Except PyErr ε} (hxy : ∀ c, Both S (x c) (y c)) :
    Both S (Dict.get f k >>= x) (Dict.get f' k >>= y) := by
  rw [h.get hk]
  exact .same hxy

theorem mtclim_agree {f f' : Frame} (h : Agree f f') (n fuel : Nat) (p : MParams) :
    Both (fun a b => match a, b with | some a, some b => Agree a b | none, none => True | _, _ => False)
      (mtclimRun n fuel f p) (mtclimRun n fuel f' p) := by
  unfold mtclimRun
  refine h.bind (by decide) fun tMin => h.bind (by decide) fun tMax => ?_
  have h := h.set "t_day" fun i => tDay (tMin i) (tMax i) p
  refine h.bind (by decide) fun dtr => h.bind (by decide) fun sm => h.bind (by decide) fun prec => ?_
  have h := h.set "tfmax" fun i => tfmax (dtr i) (sm i) (prec i) p
  refine h.bind (by decide) fun tf => ?_
  have h := h.set "tskc" fun i => tskc (tf i) p
  refine h.bind (by decide) fun tMin => h.bind (by decide) fun tf => h.bind (by decide) fun ttMax => h.bind (by decide) fun potrad =>
    h.bind (by decide) fun td => h.bind (by decide) fun dl => h.bind (by decide) fun seas => h.bind (by decide) fun dtr =>
    .same fun first => .same fun res => ?_
  cases res with
  | none => exact trivial
  | some dew =>
    have h := (((h.set "seasonal_prec" fun i => clampPrec (seas i)).set "tdew" dew).set "vapor_pressure" fun i => vaporPressure (dew i)).set
      "shortwave" fun i => shortwave (tf i) (vaporPressure (dew i)) (ttMax i) (potrad i)
    exact h.bind (by decide) fun sw => .same fun e => h.set "pet" e

theorem addIfMissing_agree {f f' : Frame} (h : Agree f f') {name : String} (hn : name ≠ idle) {v : Frame → Except PyErr Col}
    (hv : v f = v f') : Both Agree (addIfMissing name v f) (addIfMissing name v f') := by
  unfold addIfMissing
  rw [h name hn]
  cases Dict.get? f' name with
  | some c => exact h
  | none =>
    show Both Agree (v f >>= _) (v f' >>= _)
    rw [hv]
    exact .same fun c => h.set name c

theorem addTdew_agree {f f' : Frame} (h : Agree f f') : Both Agree (addTdew f) (addTdew f') := by
  unfold addTdew
  rw [h "tdew" (by decide)]
  cases Dict.get? f' "tdew" with
  | some c => exact h
  | none =>
    exact h.bind (by decide) fun e => h.bind (by decide) fun a => h.bind (by decide) fun s => h.bind (by decide) fun d =>
      (h.set "seasonal_prec" fun i => clampPrec (s i)).set "tdew" fun i => tdew (e i) (a i) (s i) (d i)

theorem passthrough_agree {f f' : Frame} (h : Agree f f') (p : MParams) : Both Agree (passthroughRun f p) (passthroughRun f' p) := by
  unfold passthroughRun
  rw [h "shortwave" (by decide)]
  by_cases hs : (Dict.get? f' "shortwave").isNone = true
  · simp only [hs, if_true]; exact rfl
  simp only [hs, if_false, Bool.false_eq_true]
  refine .bind (addIfMissing_agree h (by decide) (by rw [h.get (by decide), h.get (by decide)])) fun f f' h => ?_
  refine .bind (addIfMissing_agree h (by decide) (by rw [h.get (by decide), h.get (by decide), h.get (by decide)])) fun f f' h => ?_
  refine .bind (addIfMissing_agree h (by decide) (by rw [h.get (by decide)])) fun f f' h => ?_
  refine .bind (addIfMissing_agree h (by decide) (by rw [h.get (by decide), h.get (by decide), h.get (by decide)])) fun f f' h => ?_
  refine .bind (addTdew_agree h) fun f f' h => ?_
  exact addIfMissing_agree h (by decide) (by rw [h.get (by decide)])

theorem method_agree {f f' : Frame} (h : Agree f f') (fuel n : Nat) (m : Method) (p : MParams) :
    Both Agree (runMethod fuel n m f p) (runMethod fuel n m f' p) := by
  cases m with
  | passthrough => exact passthrough_agree h p
  | mtclim =>
    refine .bind (mtclim_agree h n fuel p) fun a b hab => ?_
    cases a <;> cases b
    · exact rfl
    · exact hab.elim
    · exact hab.elim
    · exact hab

theorem geom_agree {f f' : Frame} (h : Agree f f') (rows : List Solar.DayGeom) : Agree (withGeom rows f) (withGeom rows f') :=
  ((h.set _ _).set _ _).set _ _

theorem column_agree {f f' : Frame} (h : Agree f f') (n : Nat) {k : String} (hk : k ≠ idle) : column n f k = column n f' k := by
  unfold column; rw [h.get hk]

theorem dailyOf_agree {f f' : Frame} (h : Agree f f') (days : List Int) : dailyOf days f = dailyOf days f' := by
  have c : ∀ k ∈ ["shortwave", "daylength", "t_min", "t_max", "vapor_pressure", "tskc", "prec"],
      column days.length f k = column days.length f' k := fun k hk => column_agree h _ (by rintro rfl; revert hk; decide)
  have c' : ∀ k ∈ ["wind", "longwave", "t_pk", "dur"], column? days.length f k = column? days.length f' k := fun k hk => by
    unfold column?; rw [h k (by rintro rfl; revert hk; decide)]
  unfold dailyOf
  simp only [c _ (by simp : "shortwave" ∈ _), c _ (by simp : "daylength" ∈ _), c _ (by simp : "t_min" ∈ _), c _ (by simp : "t_max" ∈ _),
    c _ (by simp : "vapor_pressure" ∈ _), c _ (by simp : "tskc" ∈ _), c _ (by simp : "prec" ∈ _), c' _ (by simp : "wind" ∈ _),
    c' _ (by simp : "longwave" ∈ _), c' _ (by simp : "t_pk" ∈ _), c' _ (by simp : "dur" ∈ _)]

theorem outputs_agree {s : Shared} (hs : idle ∉ s.outVars.keys) {n : Nat} {rows : List Nat} {g g' : String → Except PyErr (List (Flt ℝ))}
    (h : ∀ k, k ≠ idle → g k = g' k) : outputs s n rows g = outputs s n rows g' := by
  unfold outputs
  revert hs
  generalize s.outVars = l
  intro hs
  induction l with
  | nil => rfl
  | cons q l ih =>
    simp only [Dict.keys, List.map_cons, List.mem_cons, not_or] at hs
    rw [List.mapM_cons, List.mapM_cons, h q.1 (Ne.symm hs.1), ih hs.2]

/-- **The computation of a cell does not look at `day_of_year`.** -/
theorem cellBody_agree {p : Run.Params Shared ℝ} (hs : idle ∉ p.shared.outVars.keys) {d d' : Data} (h1 : d.days = d'.days)
    (h2 : d.stateEnd = d'.stateEnd) (h : Agree d.frame d'.frame) (fuel : Nat) : cellBody fuel p d = cellBody fuel p d' := by
  apply Both.eq
  unfold cellBody
  rw [h1, h2]
  refine .same fun elev => .same fun lat => .same fun lon => .same fun geom => .same fun rows => ?_
  refine .bind (method_agree (geom_agree h rows) _ _ _ _) fun f f' h => .same fun axis => ?_
  by_cases ht : p.shared.ts < 1440
  · simp only [ht, if_true]
    rw [dailyOf_agree h]
    exact .of_eq rfl
  · simp only [ht, if_false]
    unfold dailyShortwave
    refine .bind (R := Agree) (h.bind (by decide) fun sw => h.bind (by decide) fun dl => ?_) fun f f' h => .same fun frame => ?_
    · exact h.set _ _
    · rw [outputs_agree hs (g := column _ f) (g' := column _ f') fun k hk => column_agree h _ hk]
      exact .of_eq rfl

end Verif.Cell

namespace Verif.Worker

open Dataset Cell

/-- A position within a data set. -/
def In (m : DS ℝ) (ix : Index) : Prop := ∀ d, (m.sizes.get? d).isSome → ix d < (m.labels d).length

/-- The same values within the data set. -/
def SameVar (m : DS ℝ) : Option (Arr ℝ) → Option (Arr ℝ) → Prop
  | some a, some b => ∀ ix, In m ix → a.val ix = b.val ix
  | none, none => True
  | _, _ => False

/-- Forcing on the axes time, latitude and longitude of the domain, the same but perhaps in `day_of_year`. -/
structure Alike (dom m m' : DS ℝ) : Prop where
  labels : ∀ d, m.labels d = m'.labels d
  has : ∀ d, (m.sizes.get? d).isSome = (m'.sizes.get? d).isSome
  any : m.vars = [] ↔ m'.vars = []
  vars : ∀ v, v ≠ idle → SameVar m (m.vars.get? v) (m'.vars.get? v)
  axes : ∀ d, (m.sizes.get? d).isSome → d = "time" ∨ d = "lat" ∨ d = "lon"
  lat : m.labels "lat" = dom.labels "lat"
  lon : m.labels "lon" = dom.labels "lon"
  time : 0 < (m.labels "time").length

theorem set_ne_nil {α : Type} (d : Dict String α) (k : String) (v : α) : d.set k v ≠ [] := by
  cases d with
  | nil => simp [Dict.set]
  | cons a d => obtain ⟨x, y⟩ := a; unfold Dict.set; split <;> simp

variable {dom m m' : DS ℝ}

theorem Alike.set (h : Alike dom m m') (v : String) {a b : Arr ℝ} (hab : ∀ ix, In m ix → a.val ix = b.val ix) :
    Alike dom { m with vars := m.vars.set v a } { m' with vars := m'.vars.set v b } where
  labels := h.labels
  has := h.has
  any := ⟨fun e => absurd e (set_ne_nil _ _ _), fun e => absurd e (set_ne_nil _ _ _)⟩
  vars k hk := by
    show SameVar m (Dict.get? (Dict.set _ _ _) k) (Dict.get? (Dict.set _ _ _) k)
    rw [Dict.get?_set, Dict.get?_set]
    by_cases e : v = k
    · simp only [e, if_true]; exact hab
    · simp only [e, if_false]; exact h.vars k hk
  axes := h.axes
  lat := h.lat
  lon := h.lon
  time := h.time

theorem Alike.assign (h : Alike dom m m') (name : String) : Both (Alike dom) (m.assignFrom dom name) (m'.assignFrom dom name) := by
  unfold DS.assignFrom
  cases dom.vars.get? name with
  | some a =>
    refine h.set name fun ix _ => ?_
    simp only [h.labels, h.has]
  | none =>
    simp only
    by_cases hs : (dom.sizes.get? name).isSome = true
    · rw [if_pos hs, if_pos hs]; exact h
    · rw [if_neg hs, if_neg hs]; exact rfl

theorem Alike.constants (h : Alike dom m m') (consts : Dict String ℝ) : Both (Alike dom) (withConstants m consts) (withConstants m' consts) := by
  unfold withConstants
  cases consts with
  | nil => exact h
  | cons p ps =>
    simp only
    cases hv : m.vars with
    | nil => rw [h.any.1 hv]; exact rfl
    | cons q qs =>
      cases hv' : m'.vars with
      | nil => rw [h.any.2 hv'] at hv; cases hv
      | cons q' qs' =>
        simp only
        rw [← hv, ← hv']
        clear hv hv'
        generalize p :: ps = l
        induction l generalizing m m' with
        | nil => exact h
        | cons a l ih => exact ih (h.set a.1 (a := ⟨q.2.dims, fun _ => .fin a.2⟩) (b := ⟨q'.2.dims, fun _ => .fin a.2⟩) fun _ _ => rfl)

theorem Alike.days (h : Alike dom m m') : daysOf m = daysOf m' := by
  unfold daysOf; rw [h.labels]

variable {mdims : List String}

/-- The dimensions of a mask on which cells have latitude and longitude. -/
structure Placed (dom : DS ℝ) (mdims : List String) : Prop where
  wf : dom.Wf
  lat : "lat" ∈ mdims
  lon : "lon" ∈ mdims
  time : "time" ∉ mdims

theorem position_lt {c : Run.Cell} (hc : c ∈ positions dom mdims) {d : String} (hd : d ∈ mdims) :
    cellIndex mdims c d < (dom.sizes.get? d).getD 0 := by
  unfold positions at hc
  rw [Chunk.mem_product, List.forall₂_map_right_iff] at hc
  unfold cellIndex
  induction hc with
  | nil => simp at hd
  | @cons a m as ms h1 _ ih =>
    by_cases e : m = d
    · subst e
      simpa using h1
    · rw [List.idxOf_cons_ne _ e]
      rcases List.mem_cons.1 hd with h | h
      · exact absurd h.symm e
      · simpa using ih h

theorem position_label (hp : Placed dom mdims) {c : Run.Cell} (hc : c ∈ positions dom mdims) {d : String} (hd : d ∈ mdims) :
    cellIndex mdims c d < (dom.labels d).length := by
  have h := position_lt hc hd
  cases hs : dom.sizes.get? d with
  | none => rw [hs] at h; simp at h
  | some n => rw [hs] at h; rw [hp.wf.labels_length hs]; exact h

theorem position_time {c : Run.Cell} (hc : c ∈ positions dom mdims) (ht : "time" ∉ mdims) : cellIndex mdims c "time" = 0 := by
  unfold positions at hc
  rw [Chunk.mem_product] at hc
  have := hc.length_eq
  rw [List.length_map] at this
  unfold cellIndex
  rw [List.idxOf_eq_length ht, ← this]
  simp

theorem Alike.cell (h : Alike dom m m') (hp : Placed dom mdims) {c : Run.Cell} (hc : c ∈ positions dom mdims) : In m (cellIndex mdims c) := by
  intro d hd
  rcases h.axes d hd with rfl | rfl | rfl
  · rw [position_time hc hp.time]; exact h.time
  · rw [h.lat]; exact position_label hp hc hp.lat
  · rw [h.lon]; exact position_label hp hc hp.lon

theorem Alike.step (h : Alike dom m m') (hp : Placed dom mdims) {c : Run.Cell} (hc : c ∈ positions dom mdims) {t : Nat}
    (ht : t < (m.labels "time").length) : In m ((cellIndex mdims c).set "time" t) := by
  intro d hd
  unfold Index.set
  by_cases e : d = "time"
  · subst e; simpa using ht
  · simp only [e, if_false]
    exact h.cell hp hc d hd

theorem Alike.along (h : Alike dom m m') (hp : Placed dom mdims) {c : Run.Cell} (hc : c ∈ positions dom mdims) {a b : Arr ℝ}
    (hab : ∀ ix, In m ix → a.val ix = b.val ix) :
    along mdims (m.labels "time").length a c = along mdims (m.labels "time").length b c := by
  unfold Worker.along
  apply List.map_congr_left
  intro t ht
  exact hab _ (h.step hp hc (List.mem_range.1 ht))

theorem Alike.get (h : Alike dom m m') {v : String} (hv : v ≠ idle) :
    Both (fun a b => ∀ ix, In m ix → a.val ix = b.val ix) (m.vars.get v) (m'.vars.get v) := by
  have := h.vars v hv
  unfold Dict.get
  cases h1 : m.vars.get? v <;> cases h2 : m'.vars.get? v <;> rw [h1, h2] at this
  · exact rfl
  · exact this.elim
  · exact this.elim
  · exact this

theorem Alike.dailies (h : Alike dom m m') (hp : Placed dom mdims) :
    Both (fun f g => ∀ c ∈ positions dom mdims, f c = g c) (dailies m mdims) (dailies m' mdims) := by
  unfold Worker.dailies
  refine .bind (h.get (by decide)) fun p p' hpp => .bind (h.get (by decide)) fun a a' ha => .bind (h.get (by decide)) fun b b' hb => ?_
  intro c hc
  rw [← h.labels]
  simp only [h.along hp hc hpp, h.along hp hc ha, h.along hp hc hb]

theorem aggregate_same {n : Nat} {record days : List Int} {start stop : Int} {cells : List Run.Cell} {old new new' : Run.Cell → State.Daily ℝ}
    (h : ∀ c ∈ cells, new c = new' c) :
    Both (fun f g => ∀ c ∈ cells, f c = g c) (State.aggregateState n record start stop days cells old new)
      (State.aggregateState n record start stop days cells old new') := by
  unfold State.aggregateState
  by_cases h1 : n ≠ 90
  · rw [if_pos h1, if_pos h1]; exact rfl
  rw [if_neg h1, if_neg h1]
  show Both _ (if record.length ≠ n then _ else _) (if record.length ≠ n then _ else _)
  by_cases h2 : record.length ≠ n
  · rw [if_pos h2, if_pos h2]; exact rfl
  rw [if_neg h2, if_neg h2]
  have e : cells.any (fun c => (State.range (new c)).any fun x => Flt.lt x (.fin 0)) =
      cells.any (fun c => (State.range (new' c)).any fun x => Flt.lt x (.fin 0)) := by
    rw [Bool.eq_iff_iff, List.any_eq_true, List.any_eq_true]
    constructor
    · rintro ⟨c, hc, hx⟩; exact ⟨c, hc, by rw [← h c hc]; exact hx⟩
    · rintro ⟨c, hc, hx⟩; exact ⟨c, hc, by rw [h c hc]; exact hx⟩
  show Both _ (if cells.any (fun c => (State.range (new c)).any fun x => Flt.lt x (.fin 0)) = true then _ else _)
    (if cells.any (fun c => (State.range (new' c)).any fun x => Flt.lt x (.fin 0)) = true then _ else _)
  rw [e]
  by_cases h3 : cells.any (fun c => (State.range (new' c)).any fun x => Flt.lt x (.fin 0)) = true
  · rw [if_pos h3, if_pos h3]; exact rfl
  rw [if_neg h3, if_neg h3]
  intro c hc
  simp only [h c hc]

theorem monthly_same {days : List Int} {cells : List Run.Cell} {prec prec' : Run.Cell → List (Flt ℝ)} (h : ∀ c ∈ cells, prec c = prec' c)
    (name : String) : Both (fun f g => ∀ c ∈ cells, f c = g c) (monthly dom mdims days prec name) (monthly dom mdims days prec' name) := by
  unfold monthly
  refine .same fun a => ?_
  by_cases h1 : "month" ∉ a.dims
  · rw [if_pos h1, if_pos h1]; exact rfl
  rw [if_neg h1, if_neg h1]
  show Both _ (if _ = true then _ else _) (if _ = true then _ else _)
  split
  · exact rfl
  · intro c hc
    simp only [h c hc]

theorem monthlies_same {pt : String} {days : List Int} {cells : List Run.Cell} {prec prec' : Run.Cell → List (Flt ℝ)}
    (h : ∀ c ∈ cells, prec c = prec' c) :
    Both (fun f g => ∀ c ∈ cells, f c = g c) (monthlies pt dom mdims days prec) (monthlies pt dom mdims days prec') := by
  unfold monthlies
  split
  · refine .bind (monthly_same h "dur") fun f f' hf => .bind (monthly_same h "t_pk") fun g g' hg => ?_
    intro c hc
    simp only [hf c hc, hg c hc]
  · exact fun c _ => rfl

/-- Loaded inputs with forcing that is alike. -/
structure LoadsAlike (w w' : Loads) : Prop where
  dom : w.dom = w'.dom
  mask : w.mask = w'.mask
  met : Alike w.dom w.met w'.met
  state : w.state = w'.state
  agg : ∀ c ∈ positions w.dom w.mask.dims, w.agg c = w'.agg c
  extra : ∀ c ∈ positions w.dom w.mask.dims, w.extra c = w'.extra c

/-- Two ways to put the inputs of a cell together. -/
def SameIn (x x' : Run.CellIn Cell.Data ℝ) : Prop :=
  x.elev = x'.elev ∧ x.lat = x'.lat ∧ x.lon = x'.lon ∧ x.data.days = x'.data.days ∧ x.data.stateEnd = x'.data.stateEnd ∧
    Agree x.data.frame x'.data.frame

theorem Alike.scalar (h : Alike dom m m') (hp : Placed dom mdims) {c : Run.Cell} (hc : c ∈ positions dom mdims) {v : String} (hv : v ≠ idle) :
    m.scalar mdims c v = m'.scalar mdims c v := by
  have := h.vars v hv
  unfold DS.scalar
  cases h1 : m.vars.get? v <;> cases h2 : m'.vars.get? v <;> rw [h1, h2] at this
  · simp only [h.labels]
  · exact this.elim
  · exact this.elim
  · simp only [this _ (h.cell hp hc)]

theorem cellIn_same {w w' : Loads} (h : LoadsAlike w w') (hp : Placed w.dom w.mask.dims) {c : Run.Cell}
    (hc : c ∈ positions w.dom w.mask.dims) : Both SameIn (cellIn w c) (cellIn w' c) := by
  unfold cellIn
  rw [← h.mask, h.met.scalar hp hc (by decide), h.met.scalar hp hc (by decide), h.met.scalar hp hc (by decide), h.extra c hc, h.agg c hc,
    h.state]
  refine .same fun lat => .same fun lon => .same fun elev => .same fun more => ?_
  refine ⟨rfl, rfl, rfl, ?_, rfl, ?_⟩
  · show List.map _ (daysOf w.met) = List.map _ (daysOf w'.met)
    rw [h.met.days]
  · have base : Agree (w.met.vars.map fun q => (q.1, colOf (along w.mask.dims (w.met.labels "time").length q.2 c)))
        (w'.met.vars.map fun q => (q.1, colOf (along w.mask.dims (w'.met.labels "time").length q.2 c))) := by
      intro k hk
      have := h.met.vars k hk
      rw [Dict.get?_mapVal w.met.vars (fun _ a => colOf (along w.mask.dims (w.met.labels "time").length a c)),
        Dict.get?_mapVal w'.met.vars (fun _ a => colOf (along w.mask.dims (w'.met.labels "time").length a c))]
      cases h1 : w.met.vars.get? k <;> cases h2 : w'.met.vars.get? k <;> rw [h1, h2] at this
      · rfl
      · exact this.elim
      · exact this.elim
      · simp only [Option.map_some]
        rw [← h.met.labels, h.met.along hp hc this]
    have step : ∀ (l : List (String × List (Flt ℝ))) (f f' : Methods.Frame), Agree f f' →
        Agree (l.foldl (fun f q => Dict.set f q.1 (colOf q.2)) f) (l.foldl (fun f q => Dict.set f q.1 (colOf q.2)) f') := by
      intro l
      induction l with
      | nil => intro f f' hf; exact hf
      | cons a l ih => intro f f' hf; exact ih _ _ (hf.set _ _)
    exact step _ _ _ (((base.set _ _).set _ _).set _ _)

/-- The cells come out alike. -/
theorem cells_same {s : Cell.Shared} (hs : idle ∉ s.outVars.keys) (fuel : Nat) {mask : Run.Cell → Flt ℝ}
    {inp inp' : Run.Cell → Except PyErr (Run.CellIn Cell.Data ℝ)} : ∀ (ls : List Run.Cell) (p : Run.Params Cell.Shared ℝ)
    (out : Run.Cell → Option Cell.Output), p.shared = s → (∀ c ∈ ls, Both SameIn (inp c) (inp' c)) →
    cells (Cell.cellBody fuel) mask inp ls p out = cells (Cell.cellBody fuel) mask inp' ls p out
  | [], p, out, _, _ => rfl
  | l :: ls, p, out, hp, h => by
    unfold cells
    split
    · have hl := h l (by simp)
      cases h1 : inp l <;> cases h2 : inp' l <;> rw [h1, h2] at hl
      · simp only [bind, Except.bind]; exact congrArg _ hl
      · exact hl.elim
      · exact hl.elim
      · rename_i x x'
        simp only [bind, Except.bind]
        have e : Run.wrapRunCell (Cell.cellBody fuel) p x = Run.wrapRunCell (Cell.cellBody fuel) p x' := by
          unfold Run.wrapRunCell
          obtain ⟨e1, e2, e3, e4, e5, e6⟩ := hl
          rw [e1, e2, e3]
          exact cellBody_agree (by rw [show _ = s from hp]; exact hs) e4 e5 e6 fuel
        rw [e]
        cases hr : Run.wrapRunCell (Cell.cellBody fuel) p x' with
        | error e => rfl
        | ok r =>
          obtain ⟨r, p'⟩ := r
          refine cells_same hs fuel ls p' _ ?_ fun c hc => h c (by simp [hc])
          exact (Cell.keepsShared fuel { p with elev := x'.elev, lat := x'.lat, lon := x'.lon } x'.data r p' hr).trans hp
    · exact cells_same hs fuel ls p out hp fun c hc => h c (by simp [hc])

end Verif.Worker
