import Verif.Props.DataForcing
import Verif.Props.Params
import Mathlib.Algebra.Order.Floor.Ring

/-!
# The days a run covers

`start` and `stop` are used twice: as given, to cut the forcing out of its file, and resolved to days, for the state and the
rolling averages.
-/

namespace Verif.Props

open Dataset Forcing Params

/-- What a user means by `start` (`stop`): a day; a date or period as text, its first (last) day; `'forcing'`, the first
(last) day of the forcing. -/
def Means (period : String → Option (Int × Int)) (last : Bool) (fileEnd : Int) (v : PVal) (t : Int) : Prop :=
  v = .day t ∨ v = .str "forcing" ∧ t = fileEnd ∨
    ∃ s a b, v = .str s ∧ s ≠ "forcing" ∧ period s = some (a, b) ∧ t = if last then b else a

/-- **C88** (in full): the run covers the days from `start` to `stop` as the user means them, and takes these as its first
and last day. -/
def C88_full : Prop :=
  ∀ (g : Gridded ℚ) (whole : DS ℚ) (period : String → Option (Int × Int)) (enc : Option String) (params : Params)
    (d₀ : String) (c : List ℚ) (v w cal : PVal) (A B first last : Int),
    g.Proper → g.Complete whole → readDomain g.domFile (some g.domNames) [] = .ok whole →
    whole.sizes.get? "time" = none → period "forcing" = none →
    (∀ s a b, period s = some (a, b) → a ≤ b) →
    newName g.names d₀ = "time" → g.forcing.coords.get? d₀ = some c →
    (c.map fileDay).head? = some ((first - epoch : Int) : ℚ) → (c.map fileDay).getLast? = some ((last - epoch : Int) : ℚ) →
    params.get? "start" = some v → params.get? "stop" = some w → params.get? "calendar" = some cal →
    Means period false first v A → Means period true last w B →
    ((A - epoch : Int) : ℚ) ∈ c.map fileDay → ((B - epoch : Int) : ℚ) ∈ c.map fileDay → A ≤ B →
    ∃ met q, loadMet .netcdf g.forcing whole (some g.names) period enc params = .ok (met, q) ∧
      q.get? "start" = some (.day A) ∧ q.get? "stop" = some (.day B) ∧
      met.labels "time" = (c.map fileDay).filter fun t =>
        decide (((A - epoch : Int) : ℚ) ≤ t) && decide (t ≤ ((B - epoch : Int) : ℚ))

/-- A single day: given as such, or as text naming one (`Y/M/D`, or any other text pandas reads as one day). -/
def OneDay (period : String → Option (Int × Int)) (v : PVal) (t : Int) : Prop :=
  v = .day t ∨ ∃ s, v = .str s ∧ s ≠ "forcing" ∧ period s = some (t, t) ∧
    ('/' ∉ s.toList ∨ ∃ wy wm wd y m d, s = dateText wy wm wd y m d ∧ 1 ≤ y ∧ y ≤ 9999 ∧ IsDate t y m d)

theorem OneDay.bound {period : String → Option (Int × Int)} {v : PVal} {t : Int} (h : OneDay period v t) (last : Bool) :
    bound period last v = .ok (some ((t - epoch : Int) : ℚ)) := by
  rcases h with rfl | ⟨s, rfl, -, hp, -⟩
  · rfl
  · simp only [Dataset.bound, hp]
    cases last <;> rfl

theorem OneDay.resolve {period : String → Option (Int × Int)} {v : PVal} {t : Int} (h : OneDay period v t)
    {env : Env} (he : env.parseDate = fun s => (period s).map Prod.fst) (f : Option Int) :
    resolveTime env v f = .ok (.day t) := by
  rcases h with rfl | ⟨s, rfl, hf, hp, hs | ⟨wy, wm, wd, y, m, d, rfl, h1, h2, h3⟩⟩
  · rfl
  · unfold resolveTime
    simp only [hf, if_false, hs, he, hp, Option.map_some]
  · exact ((C31_text_date env f wy wm wd y m d t).1).2 ⟨h1, h2, h3⟩

/-- Resolved days inside the forcing are recorded. -/
theorem validate_ok {env : Env} {r : Params} {v w c : PVal} {start stop first last : Int}
    (hv : r.get? "start" = some v) (hrv : resolveTime env v env.force.head? = .ok (.day start))
    (hw : r.get? "stop" = some w) (hrw : resolveTime env w env.force.getLast? = .ok (.day stop))
    (hcal : r.get? "calendar" = some c) (hf : env.force.head? = some first) (hl : env.force.getLast? = some last)
    (h1 : first ≤ start) (h2 : stop ≤ last) :
    ∃ q, validateForceTimes env r = .ok q ∧ q.get? "start" = some (.day start) ∧ q.get? "stop" = some (.day stop) := by
  unfold validateForceTimes
  have e1 : r.get "start" = .ok v := by simp [Dict.get, hv]
  have e2 : (r.set "start" (.day start)).get "stop" = .ok w := by simp [Dict.get, Dict.get?_set, hw]
  have e3 : ((r.set "start" (.day start)).set "stop" (.day stop)).get "calendar" = .ok c := by
    simp [Dict.get, Dict.get?_set, hcal]
  rw [e1]
  simp only [bind, Except.bind, pure, Except.pure]
  rw [hrv]
  simp only
  rw [e2]
  simp only
  rw [hrw]
  simp only
  rw [e3]
  simp only [hf, hl, if_pos h1, if_pos h2]
  exact ⟨_, rfl, by simp [Dict.get?_set], by simp [Dict.get?_set]⟩

theorem head_of_min {l : List ℚ} {a : ℚ} (hs : l.Pairwise (· ≤ ·)) (ha : a ∈ l) (hm : ∀ x ∈ l, a ≤ x) :
    l.head? = some a := by
  cases l with
  | nil => simp at ha
  | cons x xs =>
    rw [List.pairwise_cons] at hs
    rcases List.mem_cons.1 ha with rfl | h
    · rfl
    · have := le_antisymm (hs.1 a h) (hm x List.mem_cons_self)
      subst this; rfl

theorem last_of_max {l : List ℚ} {b : ℚ} (hs : l.Pairwise (· ≤ ·)) (hb : b ∈ l) (hm : ∀ x ∈ l, x ≤ b) :
    l.getLast? = some b := by
  have hne : l ≠ [] := List.ne_nil_of_mem hb
  rw [List.getLast?_eq_some_getLast hne]
  congr 1
  refine le_antisymm (hm _ (List.getLast_mem hne)) ?_
  obtain ⟨i, hi, rfl⟩ := List.getElem_of_mem hb
  rw [List.getLast_eq_getElem]
  rcases Nat.lt_or_ge i (l.length - 1) with h | h
  · exact List.pairwise_iff_getElem.1 hs _ _ hi (by omega) h
  · have : i = l.length - 1 := by omega
    subst this; exact le_rfl

/-- **C88** (partial: `start` and `stop` name single days): the run covers the days from `start` to `stop`. -/
theorem C88_days_partial {K : Type} [RatCast K] {g : Gridded K} {whole : DS K} {period : String → Option (Int × Int)}
    {enc : Option String} {params : Params} {d₀ : String} {c : List ℚ} {v w cal : PVal} {A B : Int}
    (hg : g.Proper) (hcomp : g.Complete whole) (hwhole : readDomain g.domFile (some g.domNames) [] = .ok whole)
    (ht : whole.sizes.get? "time" = none) (hd₀ : newName g.names d₀ = "time") (hc : g.forcing.coords.get? d₀ = some c)
    (hv : params.get? "start" = some v) (hw : params.get? "stop" = some w) (hcal : params.get? "calendar" = some cal)
    (hA : OneDay period v A) (hB : OneDay period w B)
    (mA : ((A - epoch : Int) : ℚ) ∈ c.map fileDay) (mB : ((B - epoch : Int) : ℚ) ∈ c.map fileDay) (hAB : A ≤ B) :
    ∃ met q, loadMet .netcdf g.forcing whole (some g.names) period enc params = .ok (met, q) ∧
      q.get? "start" = some (.day A) ∧ q.get? "stop" = some (.day B) ∧
      met.labels "time" = (c.map fileDay).filter fun t =>
        decide (((A - epoch : Int) : ℚ) ≤ t) && decide (t ≤ ((B - epoch : Int) : ℚ)) := by
  have hcount : g.Countable whole := hcomp.countable (whole_ok hg.domFile hg.domNames hwhole).1
  -- the files with the period
  let g' : Gridded K := { g with start := ((A - epoch : Int) : ℚ), stop := ((B - epoch : Int) : ℚ) }
  have hg' : g'.Proper := ⟨hg.domFile, hg.forcing, hg.domNames, hg.names⟩
  have hcomp' : g'.Complete whole :=
    ⟨hcomp.vars, hcomp.apart, hcomp.fresh, hcomp.covers, hcomp.clock, hcomp.place⟩
  obtain ⟨dom, met, hL⟩ := C86_reads (g := g') (mdims := []) (chunk := []) hg' hcomp' hwhole List.nodup_nil (by simp) ht
    List.nodup_nil (by simp)
  obtain rfl : whole = dom := by
    have := hL.readsDom
    have h2 : readDomain g'.domFile (some g'.domNames) [] = .ok whole := hwhole
    rw [h2] at this
    injection this
  have hone : ∀ d, (g.forcing.sizes.get? d).isSome → newName g.names d = "time" → d = d₀ := by
    intro d hd e
    refine hcomp.fresh d d₀ (.inr hd) (.inr ?_) (e.trans hd₀.symm)
    rw [hg.forcing.coord_len _ _ hc]; rfl
  have hsort : (c.map fileDay).Pairwise (· ≤ ·) := by
    obtain ⟨u, b, d, c', -, hb, hdb, e, hc', hs⟩ := hcomp.clock
    obtain rfl := hone d (hg.forcing.var_dims u b hb d hdb) e
    rw [hc] at hc'
    rwa [← Option.some.inj hc'] at hs
  have hdays : met.labels "time" = (c.map fileDay).filter fun t =>
      decide (((A - epoch : Int) : ℚ) ≤ t) && decide (t ≤ ((B - epoch : Int) : ℚ)) := by
    obtain ⟨r, m1, m2, hr, -, -, -, -, -, hlab, hsz, hvars⟩ := hL.parts
    obtain ⟨d, ps, hd, hds, hps, htime, -⟩ := hL.read hg' hcount hr
    obtain rfl := hone d hds hd
    have hlc : g'.forcing.labels d = c := DS.labels_some hc
    rw [hlc] at hps htime
    obtain ⟨ps', hps', he⟩ := between_sorted hsort ((A - epoch : Int) : ℚ) ((B - epoch : Int) : ℚ)
    have hps2 : between (c.map fileDay) (some ((A - epoch : Int) : ℚ)) (some ((B - epoch : Int) : ℚ)) = .ok ps := hps
    rw [hps2] at hps'
    obtain rfl : ps = ps' := by injection hps'
    rw [hlab, htime, he]
  have hABq : ((A - epoch : Int) : ℚ) ≤ ((B - epoch : Int) : ℚ) := by exact_mod_cast (by omega : A - epoch ≤ B - epoch)
  have hsf := hsort.filter (fun t => decide (((A - epoch : Int) : ℚ) ≤ t) && decide (t ≤ ((B - epoch : Int) : ℚ)))
  rw [← hdays] at hsf
  have hmem : ∀ x, x ∈ met.labels "time" ↔
      x ∈ c.map fileDay ∧ ((A - epoch : Int) : ℚ) ≤ x ∧ x ≤ ((B - epoch : Int) : ℚ) := by
    intro x
    rw [hdays, List.mem_filter, Bool.and_eq_true, decide_eq_true_iff, decide_eq_true_iff]
  have hhead := head_of_min hsf ((hmem _).2 ⟨mA, le_rfl, hABq⟩) fun x hx => ((hmem x).1 hx).2.1
  have hlast := last_of_max hsf ((hmem _).2 ⟨mB, hABq, le_rfl⟩) fun x hx => ((hmem x).1 hx).2.2
  have fl : ∀ t : Int, ⌊((t - epoch : Int) : ℚ)⌋ + epoch = t := fun t => by rw [Int.floor_intCast]; omega
  obtain ⟨q, hq, q1, q2⟩ := validate_ok
    (env := ⟨(met.labels "time").map fun t => ⌊t⌋ + epoch, enc, fun s => (period s).map Prod.fst⟩) (first := A) (last := B)
    hv (hA.resolve rfl _) hw (hB.resolve rfl _) hcal
    (by simp only [List.head?_map, hhead, Option.map_some, fl])
    (by simp only [List.getLast?_map, hlast, Option.map_some, fl]) le_rfl le_rfl
  refine ⟨met, q, ?_, q1, q2, hdays⟩
  have hmet := hL.readsMet
  unfold loadMet
  simp only [bind_ok, pure_ok]
  refine ⟨v, by rw [Dict.get_ok]; exact hv, w, by rw [Dict.get_ok]; exact hw, met, ?_, q, hq, rfl⟩
  rw [hA.bound, hB.bound]
  exact hmet

/-- `start` left at its default: reading the forcing fails, whatever the file. -/
theorem C88_default_fails {K : Type} [RatCast K] (forcing dom : DS K) (names : Option (Dict String String))
    (period : String → Option (Int × Int)) (enc : Option String) (params : Params) (hp : period "forcing" = none)
    (hd : params.get? "start" = some (.str "forcing") ∨ params.get? "stop" = some (.str "forcing")) (fmt : Format)
    (hopen : fmt = .data → params.get? "start" ≠ some .none ∧ params.get? "stop" ≠ some .none)
    {r : DS K × Params} : loadMet fmt forcing dom names period enc params ≠ .ok r := by
  have hbad : ∀ last, bound period last (.str "forcing") = .error .typeError := by
    intro last; simp only [bound, hp]
  intro h
  unfold loadMet at h
  simp only [bind_ok, pure_ok, Dict.get_ok] at h
  obtain ⟨a, ha, b, hb, met, hm, -⟩ := h
  have hnone : ∀ last v, bound period last v = .ok none → v = .none := by
    intro last v h
    unfold bound at h
    split at h <;> try rfl
    · simp at h
    · simp at h
    · split at h <;> simp at h
    · simp at h
  have hor : bound period false a = .error .typeError ∨ bound period true b = .error .typeError := by
    rcases hd with h | h
    · rw [ha] at h; obtain rfl := Option.some.inj h; exact .inl (hbad _)
    · rw [hb] at h; obtain rfl := Option.some.inj h; exact .inr (hbad _)
  have kill : ∀ {x y : Except PyErr (Option ℚ)} {ds' r' : DS K}, (x = .error .typeError ∨ y = .error .typeError) →
      (do let a ← x; let b ← y; ds'.selPeriod a b) = .ok r' → False := by
    rintro x y ds' r' (rfl | rfl) h
    · simp [bind, Except.bind] at h
    · cases x <;> simp [bind, Except.bind] at h
  unfold metData at hm
  cases fmt with
  | netcdf =>
    simp only [bind_ok] at hm
    obtain ⟨ds, hds, -⟩ := hm
    have tail : ∀ {ds' r' : DS K}, (match bound period false a, bound period true b with
        | .ok none, .ok none => (pure ds' : Except PyErr (DS K))
        | _, _ => do
          let a ← bound period false a
          let b ← bound period true b
          ds'.selPeriod a b) = .ok r' → False := by
      intro ds' r' h
      split at h
      · rename_i e1 e2
        rcases hor with h | h
        · rw [h] at e1; simp at e1
        · rw [h] at e2; simp at e2
      · exact kill hor h
    unfold readNetcdf at hds
    cases names with
    | none =>
      simp only [bind_ok, pure_ok] at hds
      obtain ⟨d0, -, d1, -, hds⟩ := hds
      exact tail hds
    | some names =>
      simp only [bind_ok] at hds
      obtain ⟨d0, -, d1, -, d2, -, hds⟩ := hds
      exact tail hds
  | data =>
    obtain ⟨n1, n2⟩ := hopen rfl
    simp only [bind_ok] at hm
    obtain ⟨ds, hds, -⟩ := hm
    have tail : ∀ {ds' r' : DS K}, (match bound period false a, bound period true b with
        | .ok none, _ => (pure ds' : Except PyErr (DS K))
        | _, .ok none => pure ds'
        | _, _ => do
          let a ← bound period false a
          let b ← bound period true b
          ds'.selPeriod a b) = .ok r' → False := by
      intro ds' r' h
      split at h
      · rename_i e1
        exact n1 (by rw [ha, hnone _ _ e1])
      · rename_i e1 _
        exact n2 (by rw [hb, hnone _ _ e1])
      · exact kill hor h
    unfold readData at hds
    cases names with
    | none =>
      simp only [bind_ok] at hds
      obtain ⟨d0, -, hds⟩ := hds
      exact tail hds
    | some names =>
      simp only [bind_ok] at hds
      obtain ⟨d0, -, d1, -, hds⟩ := hds
      exact tail hds

namespace PeriodExample

open DataExample

/-- The whole domain of the two places. -/
theorem whole_is : (readDomain run.domFile (some run.domNames) []).map
    (fun w => ((w.sizes : List (String × Nat)), w.labels "lat", w.labels "lon", w.vars.keys)) =
    .ok ([("lat", 2), ("lon", 1)], [10, 20], [5], ["mask", "elev"]) := by decide +kernel

theorem run_complete : ∃ whole, readDomain run.domFile (some run.domNames) [] = .ok whole ∧
    whole.sizes.get? "time" = none ∧ run.Complete whole := by
  have h := whole_is
  cases hw : readDomain run.domFile (some run.domNames) [] with
  | error e => rw [hw] at h; simp [Except.map] at h
  | ok whole =>
    rw [hw] at h
    simp only [Except.map, Except.ok.injEq, Prod.mk.injEq] at h
    obtain ⟨h1, h2, h3, h4⟩ := h
    have hsz : ∀ d, whole.sizes.get? d = Dict.get? [("lat", 2), ("lon", 1)] d := fun d => by rw [h1]
    refine ⟨whole, rfl, by rw [hsz]; decide +kernel, ?_, ?_, ?_, ?_, ?_, ?_⟩
    · decide +kernel
    · decide +kernel
    · have hnm : ∀ m, (m ∈ run.names.map Prod.fst ∨ (run.forcing.sizes.get? m).isSome) →
          m ∈ ["Prec", "time", "lat", "lon"] := by
        intro m hm
        rcases hm with h | h
        · simp only [run, List.map_cons, List.map_nil, List.mem_singleton] at h
          simp [h]
        · rw [Dict.isSome_iff] at h
          simp only [run, data, List.map_cons, List.map_nil] at h
          exact List.mem_cons_of_mem _ h
      have key : ∀ m ∈ ["Prec", "time", "lat", "lon"], ∀ m' ∈ ["Prec", "time", "lat", "lon"],
          newName run.names m = newName run.names m' → m = m' := by decide +kernel
      exact fun m m' hm hm' e => key m (hnm m hm) m' (hnm m' hm') e
    · intro d hd hwd
      rw [Dict.isSome_iff] at hd
      simp only [run, data, List.map_cons, List.map_nil, List.mem_cons, List.not_mem_nil, or_false] at hd
      rcases hd with rfl | rfl | rfl
      · rw [hsz] at hwd; exact absurd hwd (by decide +kernel)
      · exact ⟨[10, 20], rfl, by decide +kernel, fun x hx => by
          have e : newName run.names "lat" = "lat" := by decide +kernel
          rw [e, h2] at hx; exact hx⟩
      · exact ⟨[5], rfl, by decide +kernel, fun x hx => by
          have e : newName run.names "lon" = "lon" := by decide +kernel
          rw [e, h3] at hx; exact hx⟩
    · exact ⟨"Prec", _, "time", [0, 1], by decide +kernel, rfl, by simp, by decide +kernel, rfl, by decide +kernel⟩
    · intro n hn
      have hv : ∀ n, n ∈ ["mask", "elev"] → (whole.vars.get? n).isSome := fun n hn => by
        rw [Dict.isSome_iff]
        have : whole.vars.map Prod.fst = ["mask", "elev"] := h4
        rw [this]; exact hn
      simp only [List.mem_cons, List.not_mem_nil, or_false] at hn
      rcases hn with rfl | rfl | rfl
      · exact .inl (hv _ (by simp))
      · right; rw [hsz]; rfl
      · right; rw [hsz]; rfl

end PeriodExample

/-- **C88** fails: `'forcing'` — the default — never gets past reading the forcing. -/
theorem C88_refuted : ¬C88_full := by
  intro hfull
  obtain ⟨whole, hw, ht, hc⟩ := PeriodExample.run_complete
  obtain ⟨met, q, hm, -⟩ := hfull DataExample.run whole (fun _ => none) none
    [("start", .str "forcing"), ("stop", .str "forcing"), ("calendar", .str "standard")] "time" [0, 1]
    (.str "forcing") (.str "forcing") (.str "standard") epoch (epoch + 1) epoch (epoch + 1) DataExample.run_proper hc hw ht
    rfl (by simp) (by decide +kernel) rfl (by decide +kernel) (by decide +kernel) rfl rfl rfl
    (.inr (.inl ⟨rfl, rfl⟩)) (.inr (.inl ⟨rfl, rfl⟩)) (by decide +kernel) (by decide +kernel) (by decide)
  exact C88_default_fails _ _ _ _ _ _ rfl (.inl rfl) .netcdf (by simp) hm

namespace PeriodExample

/-- The forcing of one place for January 1970. -/
def january : DS ℚ where
  sizes := [("time", 31), ("lat", 2), ("lon", 1)]
  coords := [("time", (List.range 31).map fun (i : Nat) => (i : ℚ)), ("lat", [10, 20]), ("lon", [5])]
  vars := [("Prec", ⟨["time", "lat", "lon"], fun _ => .fin 1⟩)]

/-- pandas' reading of the text `'1970-01'`. -/
def months (s : String) : Option (Int × Int) := if s = "1970-01" then some (epoch, epoch + 30) else none

end PeriodExample

open PeriodExample in
/-- `start` and `stop` both `'1970-01'`: 31 days are read and will be written, but `stop` is recorded as the first of them
— the rolling averages end there (metsim.py:601-603). -/
theorem C88_months_refuted :
    (do let dom ← readDomain DataExample.domFile (some DataExample.run.domNames) []
        let (met, q) ← loadMet .netcdf january dom (some DataExample.run.names) months none
          [("start", .str "1970-01"), ("stop", .str "1970-01"), ("calendar", .str "standard")]
        pure ((met.labels "time").length, q.get? "start", q.get? "stop") : Except PyErr (Nat × Option PVal × Option PVal)) =
      .ok (31, some (.day epoch), some (.day epoch)) := by decide +kernel

open PeriodExample in
/-- Non-vacuity: dates as text, days as such. -/
example :
    (do let dom ← readDomain DataExample.domFile (some DataExample.run.domNames) []
        let (met, q) ← loadMet .netcdf january dom (some DataExample.run.names)
          (fun s => if s = "1970/1/5" then some (epoch + 4, epoch + 4) else none) none
          [("start", .str "1970/1/5"), ("stop", .day (epoch + 6)), ("calendar", .str "standard")]
        pure (met.labels "time", q.get? "start", q.get? "stop") : Except PyErr (List ℚ × Option PVal × Option PVal)) =
      .ok ([4, 5, 6], some (.day (epoch + 4)), some (.day (epoch + 6))) := by decide +kernel

end Verif.Props
