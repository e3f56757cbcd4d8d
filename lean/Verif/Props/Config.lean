import Verif.Model.Config
import Verif.Model.Params

/-!
# Properties of configuration reading: C05, C26, C27, C28
-/

namespace Verif.Props

open Params Config

/-! ## C05 -/
section C05

/-- **C05, full statement**: after any history of reads, the output name of every variable of a
configuration is the one the file itself gives: its entry in `[out_vars]`, else the variable's own
name.  False: `C05_refuted`. -/
def C05_full : Prop :=
  ∀ (hist : List IniOut) (c : IniOut) (a a' : Dict String String) (vars : List String),
    readHistory hist importNames = .ok a → readIniOut a c = .ok (a', vars) →
    ∀ v ∈ vars, a'.get? v = some ((c.section_.get? v).getD v)

/-- **C05 is violated by the code**: a file renaming `temp` changes the name used for a later file
that only lists `temp`. -/
theorem C05_refuted : ¬ C05_full := by
  intro h
  have := h [⟨none, [("temp", "tair")]⟩] ⟨some ["temp"], []⟩ (importNames.set "temp" "tair")
    (importNames.set "temp" "tair") ["temp"] (by decide +kernel) (by decide +kernel) "temp" (by simp)
  revert this; decide +kernel

theorem foldlM_names (sec a a' : Dict String String) (hnd : sec.keys.Nodup)
    (h : sec.foldlM (fun (a : Dict String String) (kv : String × String) => do
      let _ ← a.get kv.1
      pure (a.set kv.1 kv.2)) a = (.ok a' : Except PyErr _)) (v : String) :
    a'.get? v = (match sec.get? v with | some n => some n | none => a.get? v) ∧
    (v ∈ sec.keys → v ∈ a.keys) := by
  induction sec generalizing a with
  | nil => simp [pure, Except.pure] at h; subst h; simp [Dict.keys]
  | cons kv sec ih =>
    simp only [Dict.keys, List.map_cons, List.nodup_cons] at hnd
    rw [List.foldlM_cons] at h
    cases hg : a.get kv.1 with
    | error e => simp [hg, bind, Except.bind] at h
    | ok x =>
      have hmem : kv.1 ∈ a.keys := by
        by_contra hc
        rw [← Dict.get?_eq_none_iff] at hc
        simp [Dict.get, hc] at hg
      simp only [hg, bind, Except.bind, pure, Except.pure] at h
      have := ih (a.set kv.1 kv.2) hnd.2 h
      constructor
      · rw [this.1, Dict.get?_cons]
        split_ifs with e
        · have : Dict.get? sec v = none := (Dict.get?_eq_none_iff _ _).2 (e ▸ hnd.1)
          rw [this]; simp [← e]
        · rw [Dict.get?_set, if_neg e]
      · intro hv
        simp only [Dict.keys, List.map_cons, List.mem_cons] at hv
        rcases hv with rfl | hv
        · exact hmem
        · rcases (Dict.mem_keys_set _ _ _ _).1 (this.2 hv) with rfl | h
          · exact hmem
          · exact h

theorem readIniOut_get (a a' : Dict String String) (c : IniOut) (vars : List String)
    (hnd : c.section_.keys.Nodup) (h : readIniOut a c = .ok (a', vars)) :
    (∀ v, a'.get? v = (match c.section_.get? v with | some n => some n | none => a.get? v)) ∧
    vars = c.list.getD [] ++ c.section_.keys ∧ (∀ v ∈ vars, v ∈ a.keys) := by
  unfold readIniOut at h
  simp only [bind, Except.bind] at h
  split at h
  · cases h
  next xs hxs =>
  split at h
  · cases h
  next b hb =>
    simp only [pure, Except.pure, Except.ok.injEq, Prod.mk.injEq] at h
    obtain ⟨rfl, rfl⟩ := h
    refine ⟨fun v => (foldlM_names _ _ _ hnd hb v).1, rfl, ?_⟩
    intro v hv
    rcases List.mem_append.1 hv with hv | hv
    · by_contra hc
      rw [← Dict.get?_eq_none_iff] at hc
      have : ∀ l : List String, v ∈ l → ∀ xs, l.mapM (fun v => a.get v) ≠ (.ok xs : Except PyErr _) := by
        intro l
        induction l with
        | nil => simp
        | cons w l ih =>
          intro hw xs
          rw [List.mapM_cons]
          rcases List.mem_cons.1 hw with rfl | hw
          · simp [Dict.get, hc, bind, Except.bind]
          · cases a.get w with
            | error e => simp [bind, Except.bind]
            | ok y =>
              cases hm : l.mapM (fun v => a.get v) with
              | error e => simp [bind, Except.bind]
              | ok ys => exact absurd hm (ih hw ys)
      exact this _ hv _ hxs
    · exact (foldlM_names _ _ _ hnd hb v).2 hv

/-- **C05, what the code does and the part that holds**: the name of a variable is the one given by
the file's own `[out_vars]` section, or, if the file does not rename it and no earlier file did, the
variable's own name.  Missing: variables renamed by an earlier file only (`C05_refuted`). -/
theorem C05_ini_names_partial (hist : List IniOut) (c : IniOut) (a a' : Dict String String)
    (vars : List String) (hnd : ∀ x ∈ c :: hist, x.section_.keys.Nodup)
    (h₀ : readHistory hist importNames = .ok a) (h : readIniOut a c = .ok (a', vars))
    (v : String) (hv : v ∈ vars)
    (hok : v ∈ c.section_.keys ∨ ∀ x ∈ hist, v ∉ x.section_.keys) :
    a'.get? v = some ((c.section_.get? v).getD v) := by
  obtain ⟨h1, h2, h3⟩ := readIniOut_get a a' c vars (hnd c (by simp)) h
  rw [h1 v]
  cases hs : c.section_.get? v with
  | some n => rfl
  | none =>
    have hn := (Dict.get?_eq_none_iff _ _).1 hs
    have hall : ∀ x ∈ hist, v ∉ x.section_.keys := by
      rcases hok with h | h
      · exact absurd h hn
      · exact h
    have gen : ∀ (hist : List IniOut) (b : Dict String String),
        (∀ x ∈ hist, x.section_.keys.Nodup) → (∀ x ∈ hist, v ∉ x.section_.keys) →
        readHistory hist b = .ok a → (b.get? v = some v ∨ b.get? v = none) → a.get? v = b.get? v := by
      intro hist
      induction hist with
      | nil => intro b _ _ h _; simp [readHistory] at h; rw [h]
      | cons x hist ih =>
        intro b hnd hall h hb
        simp only [readHistory, bind, Except.bind] at h
        cases hx : readIniOut b x with
        | error e => simp [hx] at h
        | ok p =>
          obtain ⟨b', vs⟩ := p
          simp only [hx] at h
          have hg := (readIniOut_get b b' x vs (hnd x (by simp)) hx).1 v
          rw [(Dict.get?_eq_none_iff _ _).2 (hall x (by simp))] at hg
          simp only at hg
          rw [ih b' (fun y hy => hnd y (List.mem_cons_of_mem _ hy))
            (fun y hy => hall y (List.mem_cons_of_mem _ hy)) h (by rw [hg]; exact hb), hg]
    have himp : ∀ v, importNames.get? v = some v ∨ importNames.get? v = none := by
      intro v
      by_cases hv : v ∈ importNames.keys
      · left
        have : ∀ v ∈ importNames.keys, importNames.get? v = some v := by decide +kernel
        exact this v hv
      · right; exact (Dict.get?_eq_none_iff _ _).2 hv
    have hav := gen hist importNames (fun x hx => hnd x (List.mem_cons_of_mem _ hx)) hall h₀ (himp v)
    have hvk := h3 v hv
    rcases himp v with h | h
    · simp only [Option.getD_none]; rw [hav, h]
    · rw [h] at hav
      exact absurd hvk ((Dict.get?_eq_none_iff _ _).1 hav)

/-- Non-vacuity. -/
example : readIniOut importNames ⟨some ["prec"], [("temp", "tair")]⟩ =
    .ok (importNames.set "temp" "tair", ["prec", "temp"]) := by decide +kernel

end C05

/-! ## C26 -/
section C26

/-- **C26, full statement.** False: `C26_refuted`. -/
def C26_full : Prop :=
  ∀ (d : Dict String String), d.keys.Nodup → ∀ k v, (k, v) ∈ d → (invertDict d).get? v = some k

/-- **C26 is violated by the code** when two variables are read from the same input name: only the
last one survives. -/
theorem C26_refuted : ¬ C26_full := by
  intro h
  have := h [("t_min", "tas"), ("t_max", "tas")] (by decide) "t_min" "tas" (by simp)
  revert this; decide +kernel

/-- **C26, the part that holds**: if the input names are distinct every mapping is kept and nothing
else appears; the inverted map has one entry per variable, in the same order. -/
theorem C26_invert_partial (d : Dict String String) (hv : (d.map Prod.snd).Nodup) :
    (∀ k v, (k, v) ∈ d ↔ (invertDict d).get? v = some k) ∧
    invertDict d = d.map (fun (k, v) => (v, k)) := by
  have hset : ∀ (acc : Dict String String) k v, k ∉ acc.keys → acc.set k v = acc ++ [(k, v)] := by
    intro acc k v
    induction acc with
    | nil => simp [Dict.set]
    | cons p acc ih =>
      intro h
      simp only [Dict.keys, List.map_cons, List.mem_cons, not_or] at h
      simp [Dict.set, Ne.symm h.1, ih h.2]
  have hupd : ∀ (e acc : Dict String String), (acc ++ e).keys.Nodup → acc.update e = acc ++ e := by
    intro e
    induction e with
    | nil => simp [Dict.update]
    | cons p e ih =>
      intro acc h
      have hp : p.1 ∉ acc.keys := by
        intro hc
        simp only [Dict.keys, List.map_append, List.map_cons] at h
        have := (List.nodup_append.1 h).2.2 _ hc p.1 (by simp)
        exact this rfl
      rw [Dict.update_cons, hset _ _ _ hp]
      have e2 : acc ++ [(p.1, p.2)] ++ e = acc ++ p :: e := by simp
      rw [ih (acc ++ [(p.1, p.2)]) (by rw [e2]; exact h), e2]
  have hk : Dict.keys (d.map (fun (k, v) => (v, k))) = d.map Prod.snd := by
    simp [Dict.keys, Function.comp_def]
  have heq : invertDict d = d.map (fun (k, v) => (v, k)) := by
    unfold invertDict Dict.ofItems
    rw [hupd _ _ (by simpa [hk] using hv)]; simp
  refine ⟨?_, heq⟩
  intro k v
  rw [heq]
  constructor
  · intro h
    apply Dict.get?_of_mem
    · rw [hk]; exact hv
    · exact List.mem_map.2 ⟨(k, v), h, rfl⟩
  · intro h
    have := Dict.mem_of_get? _ h
    obtain ⟨⟨k', v'⟩, hm, he⟩ := List.mem_map.1 this
    simp only [Prod.mk.injEq] at he
    rw [← he.1, ← he.2]; exact hm

/-- **C26**: whatever the map, the inverse only contains pairs of the original (a wrong variable is
never read), and every input name is kept. -/
theorem C26_invert_sound (d : Dict String String) (v : String) :
    (∀ k, (invertDict d).get? v = some k → (k, v) ∈ d) ∧
    (v ∈ d.map Prod.snd → ∃ k, (invertDict d).get? v = some k) := by
  have gen : ∀ (e acc : Dict String String),
      (∀ k, (acc.update e).get? v = some k → (v, k) ∈ e ∨ acc.get? v = some k) ∧
      ((v ∈ e.keys ∨ v ∈ acc.keys) → v ∈ (acc.update e).keys) := by
    intro e
    induction e with
    | nil => intro acc; simp [Dict.update, Dict.keys]
    | cons p e ih =>
      intro acc
      rw [Dict.update_cons]
      obtain ⟨h1, h2⟩ := ih (acc.set p.1 p.2)
      constructor
      · intro k hk
        rcases h1 k hk with h | h
        · exact Or.inl (List.mem_cons_of_mem _ h)
        · rw [Dict.get?_set] at h
          split_ifs at h with e1
          · left; injection h with h; rw [← e1, ← h]; simp
          · exact Or.inr h
      · intro hv
        apply h2
        simp only [Dict.keys, List.map_cons, List.mem_cons] at hv
        rcases hv with (rfl | hv) | hv
        · right; exact (Dict.mem_keys_set _ _ _ _).2 (Or.inl rfl)
        · exact Or.inl hv
        · right; exact (Dict.mem_keys_set _ _ _ _).2 (Or.inr hv)
  obtain ⟨h1, h2⟩ := gen (d.map fun (k, v) => (v, k)) []
  constructor
  · intro k hk
    rcases h1 k hk with h | h
    · obtain ⟨⟨k', v'⟩, hm, he⟩ := List.mem_map.1 h
      simp only [Prod.mk.injEq] at he
      rw [← he.1, ← he.2]; exact hm
    · simp at h
  · intro hv
    have hk : v ∈ Dict.keys (d.map fun (k, v) => (v, k)) := by
      simpa [Dict.keys, Function.comp_def] using hv
    have := h2 (Or.inl hk)
    cases hg : (invertDict d).get? v with
    | none => exact absurd this ((Dict.get?_eq_none_iff _ _).1 hg)
    | some k => exact ⟨k, rfl⟩

example : invertDict [("prec", "Prec"), ("t_max", "Tmax")] = [("Prec", "prec"), ("Tmax", "t_max")] := by
  decide +kernel

end C26

/-! ## C27 -/
section C27
open Txt

/-- A comment line: its first non-blank character is `#`. -/
def IsComment (l : Str) : Prop := ∃ pre rest, l = pre ++ '#' :: rest ∧ ∀ c ∈ pre, isSpace c = true

theorem isComment_iff (l : Str) : (strip l).head? = some '#' ↔ IsComment l := by
  constructor
  · intro h
    obtain ⟨pre, post, h1, h2, -⟩ := strip_decomp l
    cases hs : strip l with
    | nil => simp [hs] at h
    | cons c t =>
      rw [hs] at h h1; simp at h; subst h
      exact ⟨pre, t ++ post, by rw [h1]; simp, h2⟩
  · rintro ⟨pre, rest, rfl, hpre⟩
    have e1 : lstrip (pre ++ '#' :: rest) = '#' :: rest := by
      rw [lstrip, List.dropWhile_append_of_pos hpre]
      simp [show isSpace '#' = false by decide]
    rw [strip, e1]
    obtain ⟨q, h3, h4⟩ := dropWhile_prefix (p := isSpace) ('#' :: rest).reverse
    have h5 := congrArg List.reverse h3
    rw [List.reverse_reverse, List.reverse_append] at h5
    show ((List.dropWhile isSpace ('#' :: rest).reverse).reverse).head? = _
    cases hd : (List.dropWhile isSpace ('#' :: rest).reverse).reverse with
    | nil =>
      rw [hd] at h5
      have : '#' ∈ q := by
        have : '#' ∈ q.reverse := by
          have h6 : '#' :: rest = q.reverse := by simpa using h5
          rw [← h6]; simp
        exact List.mem_reverse.1 this
      have := h4 _ this
      exact absurd this (by decide)
    | cons c t =>
      rw [hd] at h5; simp at h5; simp [← h5.1]

/-- **C27**: any number of comment lines is skipped and the file is classified by the first other
line, up to an inline comment and surrounding blanks; a file of comments only is `ini`.
(Termination: the model is total.) -/
theorem C27_config_type (comments rest : List Str) (line : Str)
    (hc : ∀ l ∈ comments, IsComment l) (hl : ¬ IsComment line) :
    checkConfigType (comments ++ line :: rest) =
      (if strip (line.takeWhile (· != '#')) = "MetSim:".toList then .yaml else .ini) ∧
    checkConfigType comments = .ini := by
  have h1 : firstLine (comments ++ line :: rest) = line := by
    clear * - hc hl
    induction comments with
    | nil => simp [firstLine, isComment_iff, hl]
    | cons l cs ih =>
      have : (strip l).head? = some '#' := (isComment_iff l).2 (hc l (by simp))
      simp only [List.cons_append, firstLine, this, if_true]
      exact ih (fun l hl => hc l (List.mem_cons_of_mem _ hl))
  have h2 : firstLine comments = [] := by
    clear * - hc
    induction comments with
    | nil => rfl
    | cons l cs ih =>
      have : (strip l).head? = some '#' := (isComment_iff l).2 (hc l (by simp))
      simp only [firstLine, this, if_true]
      exact ih (fun l hl => hc l (List.mem_cons_of_mem _ hl))
  constructor
  · unfold checkConfigType
    rw [h1, head_splitOn]
    simp only [Option.getD_some]
    split_ifs with h3 h4 h4
    · rw [h3] at h4; exact absurd h4 (by decide)
    · rfl
    · rfl
    · rfl
  · unfold checkConfigType
    rw [h2, head_splitOn]
    decide

/-- A real header: two comments, then the section name with an inline comment. -/
example : checkConfigType ["# a comment".toList, "  # MetSim:".toList, " MetSim: # main ".toList] = .yaml := by
  decide +kernel

end C27

/-! ## C28 -/
section C28
open Txt

/-- **C28**: the recorded value is true exactly if the text is `true` in any capitalisation, with any
blanks around it; absence gives false. -/
theorem C28_ini_bool (v : Option Str) :
    iniBool v = true ↔ ∃ pre t post, v = some (pre ++ t ++ post) ∧ lower t = "true".toList ∧
      (∀ c ∈ pre, isSpace c = true) ∧ (∀ c ∈ post, isSpace c = true) := by
  cases v with
  | none => simp [iniBool]
  | some s =>
    simp only [iniBool, Option.some.injEq]
    constructor
    · intro h
      split_ifs at h with h1
      obtain ⟨pre, post, h2, h3, h4⟩ := strip_decomp s
      exact ⟨pre, strip s, post, h2, h1, h3, h4⟩
    · rintro ⟨pre, t, post, rfl, ht, h3, h4⟩
      have hnsp : ∀ c, lowerChar c ∈ "true".toList → isSpace c = false := by
        intro c hc
        by_contra hsp
        have hsp : isSpace c = true := by simpa using hsp
        have hlow : lowerChar c = c := by
          unfold lowerChar
          rw [if_neg]
          unfold isSpace at hsp
          simp at hsp ⊢
          omega
        rw [hlow] at hc
        have : ∀ c ∈ "true".toList, isSpace c = false := by decide
        rw [this c hc] at hsp
        exact absurd hsp (by decide)
      have hmem : ∀ c ∈ t, isSpace c = false := by
        intro c hc
        apply hnsp
        rw [← ht]; exact List.mem_map_of_mem hc
      have hne : t ≠ [] := by rintro rfl; simp [lower] at ht
      rw [strip_of_decomp pre t post h3 h4 (fun c hc => hmem c (List.mem_of_mem_head? hc))
        (fun c hc => hmem c (List.mem_of_getLast? hc)) hne, if_pos ht]

example : iniBool (some " TrUe\t".toList) = true ∧ iniBool (some "yes".toList) = false ∧
    iniBool (some "1".toList) = false ∧ iniBool none = false := by decide +kernel

end C28
end Verif.Props
