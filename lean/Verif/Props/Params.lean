import Verif.Model.Params

/-!
# Properties of configuration state: C04, C05, C31
-/

namespace Verif.Props

open Params

/-! ## C04 -/
section C04

/-- Parameters that construction derives from the forcing data. -/
def derived : List String := ["start", "stop", "calendar", "state_start", "state_stop"]

/-- **C04, full statement**: after any history of constructions, each object's effective parameters
are the defaults overridden by its own dictionary.  False: `C04_refuted`. -/
def C04_full : Prop :=
  ∀ (hist : List (Env × Params)) (cls : Params), history hist defaults = .ok cls →
    ∀ e ∈ hist, ∀ k, k ∉ derived → cls.get? k = (defaults.update e.2).get? k

def env0 : Env := ⟨[100, 101], none, fun _ => none⟩

/-- **C04 is violated by the code**: an object constructed with `utc_offset=True` changes the
`utc_offset` of the next one. -/
theorem C04_refuted : ¬ C04_full := by
  intro h
  have := h [(env0, [("utc_offset", .bool true)]), (env0, [("time_step", .int 60)])]
    (defaults.update [("utc_offset", .bool true), ("start", .day 100), ("stop", .day 101),
      ("state_start", .day 10), ("state_stop", .day 99), ("time_step", .int 60)]) (by decide +kernel)
    (env0, [("time_step", .int 60)]) (by simp) "utc_offset" (by decide)
  revert this; decide +kernel

/-- It also happens backwards: the first object's time step is changed by the second one. -/
theorem C04_backwards_refuted : ∃ hist cls, history hist defaults = .ok cls ∧
    ∃ e ∈ hist, e.2.get? "time_step" = some (.int 60) ∧ cls.get? "time_step" = some (.int 1440) :=
  ⟨[(env0, [("time_step", .int 60)]), (env0, [("time_step", .int 1440)])],
    (defaults.update [("time_step", .int 1440), ("start", .day 100), ("stop", .day 101),
      ("state_start", .day 10), ("state_stop", .day 99)]), by decide +kernel,
    (env0, [("time_step", .int 60)]), by simp, by decide +kernel, by decide +kernel⟩

theorem validateForceTimes_get (env : Env) (p q : Params) (h : validateForceTimes env p = .ok q)
    (k : String) (hk : k ∉ derived) : q.get? k = p.get? k := by
  simp only [derived, List.mem_cons, List.not_mem_nil, or_false, not_or] at hk
  obtain ⟨h1, h2, h3, h4, h5⟩ := hk
  unfold validateForceTimes at h
  simp only [bind, Except.bind, pure, Except.pure] at h
  repeat' split at h
  all_goals try (cases h; done)
  all_goals
    injection h with h
    subst h
    simp only [Dict.get?_set]
    rw [if_neg (Ne.symm h5), if_neg (Ne.symm h4), if_neg (Ne.symm h3), if_neg (Ne.symm h2),
      if_neg (Ne.symm h1)]

/-- The last dictionary of the history that mentions `k`. -/
def lastMention (hist : List (Env × Params)) (k : String) : Option PVal :=
  hist.foldl (fun acc e => match e.2.get? k with | some v => some v | none => acc) none

/-- **C04, what the code does**: every object's effective value of a parameter is the one given by
the latest construction that mentioned it, else the default. -/
theorem C04_effective (hist : List (Env × Params)) (cls : Params)
    (hnd : ∀ e ∈ hist, e.2.keys.Nodup) (h : history hist defaults = .ok cls)
    (k : String) (hk : k ∉ derived) :
    cls.get? k = (match lastMention hist k with | some v => some v | none => defaults.get? k) := by
  have gen : ∀ (hist : List (Env × Params)) (c cls : Params) (acc : Option PVal),
      (∀ e ∈ hist, e.2.keys.Nodup) → history hist c = .ok cls →
      c.get? k = (match acc with | some v => some v | none => defaults.get? k) →
      cls.get? k = (match hist.foldl (fun acc e => match e.2.get? k with | some v => some v | none => acc) acc
        with | some v => some v | none => defaults.get? k) := by
    intro hist
    induction hist with
    | nil => intro c cls acc _ h ha; simp only [history, Except.ok.injEq] at h; subst h; simpa using ha
    | cons e rest ih =>
      obtain ⟨env, p⟩ := e
      intro c cls acc hnd h ha
      simp only [history, construct, bind, Except.bind] at h
      cases hv : validateForceTimes env (c.update p) with
      | error e => rw [hv] at h; cases h
      | ok c' =>
        rw [hv] at h
        simp only [List.foldl_cons]
        refine ih c' cls _ (fun e he => hnd e (List.mem_cons_of_mem _ he)) h ?_
        rw [validateForceTimes_get _ _ _ hv k hk, Dict.get?_update _ _ (hnd (env, p) (by simp))]
        cases p.get? k with
        | none => exact ha
        | some v => rfl
  exact gen hist defaults cls none hnd h rfl

/-- **C04, the part that holds** for the object constructed last: parameters given explicitly have
the given value, and parameters nobody ever gave have the documented default.  Missing: parameters
given only to other objects (`C04_refuted`), and objects constructed earlier. -/
theorem C04_last_object_partial (hist : List (Env × Params)) (env : Env) (p cls : Params)
    (hnd : ∀ e ∈ hist ++ [(env, p)], e.2.keys.Nodup)
    (h : history (hist ++ [(env, p)]) defaults = .ok cls) (k : String) (hk : k ∉ derived)
    (hg : k ∈ p.keys ∨ ∀ e ∈ hist, k ∉ e.2.keys) :
    cls.get? k = (defaults.update p).get? k := by
  rw [C04_effective _ _ hnd h k hk, Dict.get?_update _ _ (hnd (env, p) (by simp))]
  simp only [lastMention, List.foldl_append, List.foldl_cons, List.foldl_nil]
  cases hp : p.get? k with
  | some v => rfl
  | none =>
    have hnk := (Dict.get?_eq_none_iff _ _).1 hp
    have hall : ∀ e ∈ hist, k ∉ e.2.keys := by
      rcases hg with hg | hg
      · exact absurd hg hnk
      · exact hg
    have : hist.foldl (fun acc e => match e.2.get? k with | some v => some v | none => acc)
        (none : Option PVal) = none := by
      clear h hnd hg
      induction hist with
      | nil => rfl
      | cons e rest ih =>
        have := (Dict.get?_eq_none_iff _ _).2 (hall e (by simp))
        simp only [List.foldl_cons, this]
        exact ih (fun e he => hall e (List.mem_cons_of_mem _ he))
    rw [this]

/-- Non-vacuity: constructing over real data succeeds. -/
example : ∃ cls, history [(env0, [("time_step", .int 60)])] defaults = .ok cls ∧
    cls.get? "time_step" = some (.int 60) ∧ cls.get? "method" = some (.str "mtclim") :=
  ⟨(defaults.update [("time_step", .int 60), ("start", .day 100), ("stop", .day 101),
      ("state_start", .day 10), ("state_stop", .day 99)]),
    by decide +kernel, by decide +kernel, by decide +kernel⟩

end C04

/-! ## C31 -/
section C31

open Txt in
/-- The text `Y/M/D`, the numbers padded with zeros to any widths. -/
def dateText (wy wm wd y m d : Nat) : String :=
  String.ofList (padded wy y ++ '/' :: (padded wm m ++ '/' :: padded wd d))

/-- The civil date of a day number. -/
def IsDate (t : Int) (y m d : Nat) : Prop := Cal.yearOf t = y ∧ Cal.monthDay t = (m, d)

open Txt in
theorem parseInt_padded (w n : Nat) : parseInt (padded w n) = some (n : Int) := by
  have hd := padded_digits w n
  unfold parseInt
  rw [strip_digits _ hd]
  have key : (padded w n ≠ [] ∧ (padded w n).all isDigit = true) :=
    ⟨padded_ne_nil w n, List.all_eq_true.2 hd⟩
  cases h : padded w n with
  | nil => exact absurd h (padded_ne_nil w n)
  | cons c t =>
    have hc := hd c (by rw [h]; simp)
    have h1 : c ≠ '-' := by rintro rfl; revert hc; decide
    have h2 : c ≠ '+' := by rintro rfl; revert hc; decide
    have := parseNat_padded w n
    rw [h] at this key
    split
    · rename_i e; simp only [List.cons.injEq] at e; exact absurd e.1 h1
    · rename_i e; simp only [List.cons.injEq] at e; exact absurd e.1 h2
    · rw [if_pos key, this]

open Txt in
theorem slash_not_digit {s : Str} (h : ∀ c ∈ s, isDigit c = true) : '/' ∉ s := by
  intro hc; have := h _ hc; revert this; decide

open Txt in
theorem resolveTime_slash (env : Env) (f : Option Int) (a b c : Str) (ha : '/' ∉ a) (hb : '/' ∉ b) (hc : '/' ∉ c) :
    resolveTime env (.str (String.ofList (a ++ '/' :: (b ++ '/' :: c)))) f =
      match [a, b, c].mapM parseInt with
      | some [y, m, d] => (mkDate y m d).map PVal.day
      | _ => .error .valueError := by
  have hmem : '/' ∈ (String.ofList (a ++ '/' :: (b ++ '/' :: c))).toList := by simp
  have hne : String.ofList (a ++ '/' :: (b ++ '/' :: c)) ≠ "forcing" := by
    intro h; rw [h] at hmem; revert hmem; decide
  simp only [resolveTime, if_neg hne, if_pos hmem]
  rw [String.toList_ofList, splitOn_append _ _ _ ha, splitOn_append _ _ _ hb, splitOn_none _ _ hc]
  split
  · rename_i h; rw [h]
    simp only [bind, Except.bind, pure, Except.pure]
    cases mkDate _ _ _ <;> rfl
  · rename_i h; split
    · rename_i h'; exact absurd h' (h _ _ _)
    · rfl

theorem mkDate_iff (y m d : Nat) (t : Int) :
    mkDate y m d = .ok t ↔ (1 ≤ y ∧ y ≤ 9999 ∧ IsDate t y m d) := by
  have hcast : ((((m : Int) - 1).toNat)) = m - 1 := by omega
  unfold mkDate IsDate
  rw [hcast]
  constructor
  · intro h
    split_ifs at h with hc
    obtain ⟨h1, h2, h3, h4, h5, h6⟩ := hc
    injection h with h
    subst h
    obtain ⟨f1, f2⟩ := Cal.fields_ofCivil (y := (y : Int)) (m := m) (d := d) (by omega) (by omega) (by omega)
      (by exact_mod_cast h6)
    simp only [Int.toNat_natCast]
    exact ⟨by omega, by omega, f1, f2⟩
  · rintro ⟨h1, h2, h3, h4⟩
    have hb := Cal.month_bounds t
    have hd := Cal.day_le_monthLen t
    have hf := Cal.ofCivil_fields t
    rw [h4, h3] at hd hf
    rw [h4] at hb
    simp only at hd hf hb
    rw [if_pos ⟨by omega, by omega, by omega, by omega, by omega, by exact_mod_cast hd⟩]
    simp only [Int.toNat_natCast]
    rw [hf]

/-- **C31**, dates given as text: `Y/M/D` is taken for the day with that civil date, and refused if there is
no such day (or the year is outside 1..9999). -/
theorem C31_text_date (env : Env) (f : Option Int) (wy wm wd y m d : Nat) (t : Int) :
    (resolveTime env (.str (dateText wy wm wd y m d)) f = .ok (.day t) ↔ 1 ≤ y ∧ y ≤ 9999 ∧ IsDate t y m d) ∧
    ((∀ t, ¬ IsDate t y m d) → resolveTime env (.str (dateText wy wm wd y m d)) f = .error .valueError) := by
  unfold dateText
  rw [resolveTime_slash _ _ _ _ _ (slash_not_digit (Txt.padded_digits _ _)) (slash_not_digit (Txt.padded_digits _ _))
    (slash_not_digit (Txt.padded_digits _ _))]
  have : [Txt.padded wy y, Txt.padded wm m, Txt.padded wd d].mapM parseInt = some [(y : Int), (m : Int), (d : Int)] := by
    simp [parseInt_padded]
  rw [this]
  constructor
  · rw [← mkDate_iff]
    show (mkDate (y : Int) m d).map PVal.day = _ ↔ _
    cases mkDate (y : Int) m d <;> simp [Except.map]
  · intro h
    show (mkDate (y : Int) m d).map PVal.day = _
    cases hm : mkDate (y : Int) m d with
    | ok t => exact absurd ((mkDate_iff y m d t).1 hm).2.2 (h t)
    | error e =>
      unfold mkDate at hm
      split_ifs at hm
      injection hm with hm; subst hm; rfl

/-- Numbers with a minus sign are not dates. -/
theorem C31_negative_refused (env : Env) (f : Option Int) (a b c : Txt.Str) (ha : '/' ∉ a) (hb : '/' ∉ b) (hc : '/' ∉ c)
    (hneg : ∃ s ∈ [a, b, c], (Txt.strip s).head? = some '-') :
    resolveTime env (.str (String.ofList (a ++ '/' :: (b ++ '/' :: c)))) f = .error .valueError := by
  have hp : ∀ s : Txt.Str, (Txt.strip s).head? = some '-' → ∀ n, parseInt s = some n → n ≤ 0 := by
    intro s hs n hn
    unfold parseInt at hn
    cases h : Txt.strip s with
    | nil => simp [h] at hs
    | cons x xs =>
      simp only [h, List.head?_cons, Option.some.injEq] at hs
      subst hs
      rw [h] at hn
      simp only at hn
      split_ifs at hn
      injection hn with hn
      omega
  rw [resolveTime_slash _ _ _ _ _ ha hb hc]
  split
  · rename_i y m d h
    have hall : parseInt a = some y ∧ parseInt b = some m ∧ parseInt c = some d := by
      cases h1 : parseInt a <;> cases h2 : parseInt b <;> cases h3 : parseInt c <;> simp_all
    have : ¬ (1 ≤ y ∧ 1 ≤ m ∧ 1 ≤ d) := by
      rintro ⟨k1, k2, k3⟩
      obtain ⟨s, hs, hh⟩ := hneg
      simp only [List.mem_cons, List.not_mem_nil, or_false] at hs
      rcases hs with rfl | rfl | rfl
      · have := hp _ hh _ hall.1; omega
      · have := hp _ hh _ hall.2.1; omega
      · have := hp _ hh _ hall.2.2; omega
    unfold mkDate
    rw [if_neg (by rintro ⟨k1, -, k2, -, k3, -⟩; exact this ⟨k1, k2, k3⟩)]
    rfl
  · rfl

/-- 29 February exists in leap years only. -/
example : IsDate 730179 2000 2 29 ∧ mkDate 2001 2 29 = .error .valueError ∧
    dateText 4 2 2 2000 2 29 = "2000/02/29" ∧ dateText 0 0 0 2000 2 29 = "2000/2/29" := by
  unfold IsDate
  decide +kernel

/-- **C31**: if an object is constructed, the simulated period it records lies within the forcing
record and the recorded state window is exactly the 90 days before its start.  (`start` and `stop`
are the parameters after resolution: the first/last forcing day for `'forcing'`, the given date
otherwise.) -/
theorem C31_period_and_state (cls q : Params) (env : Env) (p : Params) (h : construct cls env p = .ok q) :
    ∃ start stop first last, q.get? "start" = some (.day start) ∧ q.get? "stop" = some (.day stop) ∧
      env.force.head? = some first ∧ env.force.getLast? = some last ∧
      first ≤ start ∧ stop ≤ last ∧
      q.get? "state_start" = some (.day (start - 90)) ∧ q.get? "state_stop" = some (.day (start - 1)) ∧
      (∀ d : Int, start - 90 ≤ d ∧ d ≤ start - 1 ↔ ∃ j : Nat, j < 90 ∧ d = start - 90 + j) ∧
      ((cls.update p).get? "start" = some (.str "forcing") → start = first) ∧
      ((cls.update p).get? "stop" = some (.str "forcing") → stop = last) ∧
      (∀ d, (cls.update p).get? "start" = some (.day d) → start = d) ∧
      (∀ d, (cls.update p).get? "stop" = some (.day d) → stop = d) ∧
      (∀ wy wm wd y m d, (cls.update p).get? "start" = some (.str (dateText wy wm wd y m d)) → IsDate start y m d) ∧
      (∀ wy wm wd y m d, (cls.update p).get? "stop" = some (.str (dateText wy wm wd y m d)) → IsDate stop y m d) ∧
      (∀ c, env.encCalendar = some c → q.get? "calendar" = some (.str c)) ∧
      (env.encCalendar = none → q.get? "calendar" = (cls.update p).get? "calendar") := by
  unfold construct at h
  generalize cls.update p = r at h
  unfold validateForceTimes at h
  simp only [bind, Except.bind, pure, Except.pure] at h
  cases hs : r.get "start" with
  | error e => simp [hs] at h
  | ok v =>
  simp only [hs] at h
  have hs' : r.get? "start" = some v := by
    unfold Dict.get at hs; split at hs <;> simp_all
  cases hr : resolveTime env v env.force.head? with
  | error e => simp [hr] at h
  | ok v' =>
  simp only [hr] at h
  cases hw : (r.set "start" v').get "stop" with
  | error e => simp [hw] at h
  | ok w =>
  simp only [hw] at h
  have hw' : r.get? "stop" = some w := by
    unfold Dict.get at hw
    rw [Dict.get?_set, if_neg (by decide)] at hw
    split at hw <;> simp_all
  cases hrw : resolveTime env w env.force.getLast? with
  | error e => simp [hrw] at h
  | ok w' =>
  simp only [hrw] at h
  split at h
  · cases h
  next c hc =>
  split at h
  next start stop =>
    split at h
    next first last hf hl =>
      split_ifs at h with h1 h2
      injection h with h; subst h
      have hc' : r.get? "calendar" = some c := by
        unfold Dict.get at hc
        rw [Dict.get?_set, if_neg (by decide), Dict.get?_set, if_neg (by decide)] at hc
        split at hc <;> simp_all
      refine ⟨start, stop, first, last, ?_, ?_, hf, hl, h1, h2, ?_, ?_, ?_, ?_, ?_, ?_, ?_, ?_, ?_, ?_, ?_⟩
      · simp [Dict.get?_set]
      · simp [Dict.get?_set]
      · simp [Dict.get?_set]
      · simp [Dict.get?_set]
      · intro d; constructor
        · rintro ⟨ha, hb⟩; exact ⟨(d - (start - 90)).toNat, by omega, by omega⟩
        · rintro ⟨j, hj, rfl⟩; omega
      · intro e; rw [hs'] at e; injection e with e; subst e
        simp [resolveTime, hf] at hr; exact hr.symm
      · intro e; rw [hw'] at e; injection e with e; subst e
        simp [resolveTime, hl] at hrw; exact hrw.symm
      · intro d e; rw [hs'] at e; injection e with e; subst e
        simp [resolveTime] at hr; exact hr.symm
      · intro d e; rw [hw'] at e; injection e with e; subst e
        simp [resolveTime] at hrw; exact hrw.symm
      · intro wy wm wd y m d e; rw [hs'] at e; injection e with e; subst e
        exact ((C31_text_date env _ wy wm wd y m d start).1.1 hr).2.2
      · intro wy wm wd y m d e; rw [hw'] at e; injection e with e; subst e
        exact ((C31_text_date env _ wy wm wd y m d stop).1.1 hrw).2.2
      · intro c' e; simp [Dict.get?_set, e]
      · intro e; simp [Dict.get?_set, e, hc']
    · cases h
  · cases h

/-- **C31**, nothing else is refused: a period inside the forcing record is accepted. -/
theorem C31_accepts (cls : Params) (env : Env) (p : Params) (start stop first last : Int) (c : PVal)
    (hstart : (cls.update p).get? "start" = some (.day start) ∨
      ((cls.update p).get? "start" = some (.str "forcing") ∧ start = first))
    (hstop : (cls.update p).get? "stop" = some (.day stop) ∨
      ((cls.update p).get? "stop" = some (.str "forcing") ∧ stop = last))
    (hcal : (cls.update p).get? "calendar" = some c)
    (hf : env.force.head? = some first) (hl : env.force.getLast? = some last)
    (h1 : first ≤ start) (h2 : stop ≤ last) : ∃ q, construct cls env p = .ok q := by
  unfold construct
  generalize cls.update p = r at hstart hstop hcal
  obtain ⟨v, hv, hrv⟩ : ∃ v, r.get? "start" = some v ∧ resolveTime env v env.force.head? = .ok (.day start) := by
    rcases hstart with h | ⟨h, rfl⟩
    · exact ⟨_, h, rfl⟩
    · exact ⟨_, h, by simp [resolveTime, hf]⟩
  obtain ⟨w, hw, hrw⟩ : ∃ v, r.get? "stop" = some v ∧ resolveTime env v env.force.getLast? = .ok (.day stop) := by
    rcases hstop with h | ⟨h, rfl⟩
    · exact ⟨_, h, rfl⟩
    · exact ⟨_, h, by simp [resolveTime, hl]⟩
  unfold validateForceTimes
  have e1 : r.get "start" = .ok v := by simp [Dict.get, hv]
  have e2 : (r.set "start" (.day start)).get "stop" = .ok w := by simp [Dict.get, Dict.get?_set, hw]
  have e3 : ((r.set "start" (.day start)).set "stop" (.day stop)).get "calendar" = .ok c := by
    simp [Dict.get, Dict.get?_set, hcal]
  rw [e1]
  simp only [bind, Except.bind, pure, Except.pure]
  rw [hrv]
  simp only
  rw [e2]
  simp only
  rw [hrw]
  simp only
  rw [e3]
  simp only [hf, hl, if_pos h1, if_pos h2]
  exact ⟨_, rfl⟩

/-- **C31** for NetCDF forcing: the reader returns the days of the (increasing) file record that lie
between start and stop (io.py:304-305 `ds.sel(time=slice(start, stop))`).  If construction succeeds,
start and stop are themselves days of the record. -/
theorem C31_netcdf_period (cls q : Params) (env : Env) (p : Params) (record : List Int)
    (start stop : Int) (hstart : (cls.update p).get? "start" = some (.day start))
    (hstop : (cls.update p).get? "stop" = some (.day stop))
    (hforce : env.force = record.filter fun t => start ≤ t ∧ t ≤ stop)
    (h : construct cls env p = .ok q) : start ∈ record ∧ stop ∈ record ∧ start ≤ stop := by
  obtain ⟨s, e, first, last, -, -, hf, hl, h1, h2, -, -, -, -, -, h3, h4, -⟩ :=
    C31_period_and_state cls q env p h
  have hs := h3 _ hstart; have he := h4 _ hstop
  subst hs; subst he
  have m1 : first ∈ env.force := List.mem_of_mem_head? hf
  have m2 : last ∈ env.force := List.mem_of_getLast? hl
  rw [hforce] at m1 m2
  simp only [List.mem_filter, Bool.decide_and, Bool.and_eq_true, decide_eq_true_eq] at m1 m2
  have e1 : first = s := by omega
  have e2 : last = e := by omega
  subst e1; subst e2
  exact ⟨m1.1, m2.1, by omega⟩

/-- Non-vacuity, with dates given as text. -/
example : ∃ q, construct defaults ⟨[730120, 730121, 730122], none, fun _ => none⟩
      [("start", .str "2000/1/1"), ("stop", .str "2000/01/02")] = .ok q ∧
    q.get? "start" = some (.day 730120) ∧ q.get? "stop" = some (.day 730121) ∧
    q.get? "state_start" = some (.day 730030) :=
  ⟨defaults.update [("start", .day 730120), ("stop", .day 730121), ("state_start", .day 730030),
     ("state_stop", .day 730119)], by decide +kernel, by decide +kernel, by decide +kernel, by decide +kernel⟩

end C31
end Verif.Props
