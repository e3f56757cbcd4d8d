import Verif.Model.Cli
import Verif.Lemmas.Except
import Verif.Lemmas.Dataset

/-!
# C104: the command line
-/

namespace Verif.Props

open Txt ConfigRead Cli

/-! ### What is written -/

/-- What part of a command line says. -/
inductive Setting where
  | config (s : Str)
  | workers (k : Int)
  | scheduler (s : Str)
  | verbose

/-- Negative numbers: digits, or digits with a point that has digits behind it. -/
def Numeric (s : Str) : Prop := ∃ a b : Str, (∀ c ∈ a, isDigit c = true) ∧ (∀ c ∈ b, isDigit c = true) ∧
  (a ≠ [] ∧ s = '-' :: a ∨ b ≠ [] ∧ s = '-' :: (a ++ '.' :: b))

/-- Texts that are no options: without a dash in front, a single dash, and negative numbers. -/
def Bare (s : Str) : Prop := s.head? ≠ some '-' ∨ s = ['-'] ∨ Numeric s

/-- Options of one letter with an argument. -/
inductive Letter (sh : Shell) : Char → Str → Setting → Prop where
  | workers {t : Str} {k : Int} (h : sh.toInt t = some k) : Letter sh 'n' t (.workers k)
  | scheduler (t : Str) : Letter sh 's' t (.scheduler t)

/-- Long options with an argument, and the shortest way to write them. -/
inductive Long (sh : Shell) : Str → Nat → Str → Setting → Prop where
  | workers {t : Str} {k : Int} (h : sh.toInt t = some k) : Long sh "--num_workers".toList 3 t (.workers k)
  | scheduler (t : Str) : Long sh "--scheduler".toList 3 t (.scheduler t)

/-- The ways to write something. -/
inductive Spelled (sh : Shell) : List Str → List Setting → Prop where
  | config {s : Str} (h : Bare s) (hf : sh.isFile s = true) : Spelled sh [s] [.config s]
  /-- `-v`, `-vv` -/
  | letters (m : Nat) : Spelled sh ['-' :: List.replicate (m + 1) 'v'] [.verbose]
  /-- `--verb` to `--verbose` -/
  | flag {pre : Str} (h : pre <+: "--verbose".toList) (hl : 6 ≤ pre.length) : Spelled sh [pre] [.verbose]
  /-- `-n4`, `-s=distributed` without the equality sign -/
  | glued {c x : Char} {t : Str} {σ : Setting} (h : Letter sh c (x :: t) σ) (hx : x ≠ '=') (hd : x :: t ≠ "--".toList) :
      Spelled sh ['-' :: c :: x :: t] [σ]
  /-- `-vn4` -/
  | gluedLetters (m : Nat) {c x : Char} {t : Str} {σ : Setting} (h : Letter sh c (x :: t) σ) (hd : x :: t ≠ "--".toList) :
      Spelled sh ['-' :: 'v' :: (List.replicate m 'v' ++ c :: x :: t)] [.verbose, σ]
  /-- `-n=4` -/
  | equal {c : Char} {t : Str} {σ : Setting} (h : Letter sh c t σ) (hd : t ≠ "--".toList) : Spelled sh ['-' :: c :: '=' :: t] [σ]
  /-- `-n 4` -/
  | apart {c : Char} {t : Str} {σ : Setting} (h : Letter sh c t σ) (hb : Bare t) : Spelled sh [['-', c], t] [σ]
  /-- `-vn 4` -/
  | apartLetters (m : Nat) {c : Char} {t : Str} {σ : Setting} (h : Letter sh c t σ) (hb : Bare t) :
      Spelled sh ['-' :: 'v' :: (List.replicate m 'v' ++ [c]), t] [.verbose, σ]
  /-- `--num_workers=4`, `--n=4` -/
  | long {full pre t : Str} {n : Nat} {σ : Setting} (h : Long sh full n t σ) (hp : pre <+: full) (hl : n ≤ pre.length)
      (hd : t ≠ "--".toList) : Spelled sh [pre ++ '=' :: t] [σ]
  /-- `--num_workers 4`, `--n 4` -/
  | longApart {full pre t : Str} {n : Nat} {σ : Setting} (h : Long sh full n t σ) (hp : pre <+: full) (hl : n ≤ pre.length)
      (hb : Bare t) : Spelled sh [pre, t] [σ]

/-! ### How it is seen -/

theorem negative_iff (s : Str) : Cli.negative s = true ↔ Numeric s := by
  have hdot : isDigit '.' = false := by decide
  constructor
  · intro h
    unfold Cli.negative at h
    split at h
    · rename_i s
      have hs := List.takeWhile_append_dropWhile (p := isDigit) (l := s)
      have ht : ∀ c ∈ s.takeWhile isDigit, isDigit c = true := fun c hc => List.mem_takeWhile_imp hc
      simp only at h
      split at h
      · rename_i e
        rw [e, List.append_nil] at hs
        exact ⟨s, [], by rw [← hs]; exact ht, by simp, Or.inl ⟨by rw [← hs]; simpa using h, rfl⟩⟩
      · rename_i b e
        rw [e] at hs
        simp only [Bool.decide_and, Bool.and_eq_true, decide_eq_true_eq, List.all_eq_true] at h
        exact ⟨_, b, ht, h.2, Or.inr ⟨h.1, by rw [hs]⟩⟩
      · cases h
    · cases h
  · rintro ⟨a, b, ha, hb, ⟨h0, rfl⟩ | ⟨h0, rfl⟩⟩
    · unfold Cli.negative
      have t1 : List.takeWhile isDigit a = a := List.takeWhile_eq_self_iff.2 ha
      have t2 : List.dropWhile isDigit a = [] := List.dropWhile_eq_nil_iff.2 ha
      simp only [t1, t2]
      simpa using h0
    · unfold Cli.negative
      have t2 : List.dropWhile isDigit (a ++ '.' :: b) = '.' :: b := by
        rw [List.dropWhile_append_of_pos ha, List.dropWhile_cons, hdot]; rfl
      simp only [t2]
      simp only [Bool.decide_and, Bool.and_eq_true, decide_eq_true_eq, List.all_eq_true]
      exact ⟨h0, hb⟩

/-- What is seen in a text of a dash and something that begins no option. -/
theorem classify_other {c : Char} {t : Str} (hc : c ∉ ['-', 'h', 'n', 's', 'v', '=']) (he : '=' ∉ t) :
    classify ('-' :: c :: t) = .ok (if Cli.negative ('-' :: c :: t) = true ∨ ' ' ∈ '-' :: c :: t then .arg ('-' :: c :: t)
      else .opt none ('-' :: c :: t) none) := by
  simp only [List.mem_cons, List.not_mem_nil, or_false, not_or] at hc
  obtain ⟨e1, e2, e3, e4, e5, e6⟩ := hc
  have h1 : options.get? ('-' :: c :: t) = none := by
    unfold options
    simp [Dict.get?_cons, e1, e2, e3, e4, e5, Ne.symm e1, Ne.symm e2, Ne.symm e3, Ne.symm e4, Ne.symm e5, Dict.get?]
  have h2 : '=' ∉ '-' :: c :: t := by
    intro hm
    rcases List.mem_cons.1 hm with e | hm
    · revert e; decide
    · rcases List.mem_cons.1 hm with e | hm
      · exact e6 e.symm
      · exact he hm
  have h3 : meant ('-' :: c :: t) = [] := by
    unfold meant options
    simp [e1, e2, e3, e4, e5, Ne.symm e1, Ne.symm e2, Ne.symm e3, Ne.symm e4, Ne.symm e5]
  unfold classify classifyOpt
  rw [if_neg (by simp), h1, h3]
  simp only [h2, if_false]
  rw [if_neg (by simp)]
  by_cases hn : Cli.negative ('-' :: c :: t) = true
  · simp [hn]
  · by_cases hs : ' ' ∈ '-' :: c :: t
    · rw [if_neg hn, if_pos hs, if_pos (Or.inr hs)]
    · rw [if_neg hn, if_neg hs, if_neg (by rintro (h | h) <;> contradiction)]

theorem Numeric.shape {s : Str} (h : Numeric s) : ∃ c t, s = '-' :: c :: t ∧ c ∉ ['-', 'h', 'n', 's', 'v', '='] ∧ '=' ∉ t := by
  have key : ∀ c : Char, isDigit c = true ∨ c = '.' → c ∉ ['-', 'h', 'n', 's', 'v', '='] := by
    rintro c (hc | rfl) hm
    · have : ∀ x ∈ ['-', 'h', 'n', 's', 'v', '='], isDigit x = false := by decide
      rw [this c hm] at hc; cases hc
    · revert hm; decide
  have all : ∀ {l : Str}, (∀ c ∈ l, isDigit c = true ∨ c = '.') → l ≠ [] →
      ∃ c t, '-' :: l = '-' :: c :: t ∧ c ∉ ['-', 'h', 'n', 's', 'v', '='] ∧ '=' ∉ t := by
    intro l hl h0
    cases l with
    | nil => exact absurd rfl h0
    | cons c t =>
      refine ⟨c, t, rfl, key c (hl c (by simp)), fun hm => ?_⟩
      exact key '=' (hl '=' (by simp [hm])) (by decide)
  obtain ⟨a, b, ha, hb, ⟨h0, rfl⟩ | ⟨h0, rfl⟩⟩ := h
  · exact all (fun c hc => Or.inl (ha c hc)) h0
  · refine all (fun c hc => ?_) (by simp)
    rcases List.mem_append.1 hc with h | h
    · exact Or.inl (ha c h)
    · rcases List.mem_cons.1 h with h | h
      · exact Or.inr h
      · exact Or.inl (hb c h)

theorem classify_bare {s : Str} (h : Bare s) : classify s = .ok (.arg s) := by
  rcases h with h | rfl | h
  · unfold classify; rw [if_pos h]
  · rfl
  · obtain ⟨c, t, rfl, hc, he⟩ := h.shape
    rw [classify_other hc he, if_pos (Or.inl ((negative_iff _).2 h))]

/-- The letters and what they do. -/
theorem classify_letter {c x : Char} {a : Act} (h : (c = 'n' ∧ a = .numWorkers) ∨ (c = 's' ∧ a = .scheduler) ∨ (c = 'v' ∧ a = .verbose)) (t : Str) :
    classify ('-' :: c :: x :: t) = .ok (.opt (some a) ['-', c] (some (if x = '=' then t else x :: t))) := by
  have none_of : ∀ r : Str, options.get? ('-' :: c :: x :: r) = none := by
    intro r
    rcases h with ⟨rfl, -⟩ | ⟨rfl, -⟩ | ⟨rfl, -⟩ <;> (unfold options; simp [Dict.get?_cons, Dict.get?])
  have here : options.get? ['-', c] = some a := by
    rcases h with ⟨rfl, rfl⟩ | ⟨rfl, rfl⟩ | ⟨rfl, rfl⟩ <;> rfl
  have hc : c ≠ '=' := by rcases h with ⟨rfl, -⟩ | ⟨rfl, -⟩ | ⟨rfl, -⟩ <;> decide
  have opt_of : classifyOpt ('-' :: c :: x :: t) = .ok (.opt (some a) ['-', c] (some (x :: t))) := by
    have : meant ('-' :: c :: x :: t) = [.opt (some a) ['-', c] (some (x :: t))] := by
      unfold meant options
      rcases h with ⟨rfl, rfl⟩ | ⟨rfl, rfl⟩ | ⟨rfl, rfl⟩ <;> simp
    unfold classifyOpt
    rw [this]
  unfold classify
  rw [if_neg (by simp), none_of]
  simp only
  rw [if_neg (by simp)]
  by_cases hx : x = '='
  · subst hx
    rw [if_pos (by simp), if_pos rfl]
    have e1 : List.takeWhile (fun y : Char => decide (y ≠ '=')) ('-' :: c :: '=' :: t) = ['-', c] := by simp [hc]
    have e2 : List.dropWhile (fun y : Char => decide (y ≠ '=')) ('-' :: c :: '=' :: t) = '=' :: t := by simp [hc]
    rw [e1, e2, here]
    rfl
  · rw [if_neg hx]
    have e1 : List.takeWhile (fun y : Char => decide (y ≠ '=')) ('-' :: c :: x :: t) =
        '-' :: c :: x :: List.takeWhile (fun y : Char => decide (y ≠ '=')) t := by simp [hc, hx]
    rw [e1, none_of, opt_of]
    simp only
    split_ifs <;> rfl

/-- A long option with a value. -/
theorem classify_long {pre name : Str} {a : Act} (hpre : '=' ∉ pre) (h2 : pre.take 2 = "--".toList)
    (hm : options.get? pre = some a ∧ name = pre ∨ options.get? pre = none ∧ (options.filter fun q => pre.isPrefixOf q.1) = [(name, a)]) (t : Str) :
    classify (pre ++ '=' :: t) = .ok (.opt (some a) name (some t)) := by
  have hw : ∀ y ∈ pre, decide (y ≠ '=') = true := by
    intro y hy
    simp only [decide_eq_true_eq]
    rintro rfl
    exact hpre hy
  have e1 : List.takeWhile (fun y : Char => decide (y ≠ '=')) (pre ++ '=' :: t) = pre := by
    rw [List.takeWhile_append_of_pos hw]; simp
  have e2 : List.dropWhile (fun y : Char => decide (y ≠ '=')) (pre ++ '=' :: t) = '=' :: t := by
    rw [List.dropWhile_append_of_pos hw]; simp
  obtain ⟨r, rfl⟩ : ∃ r, pre = '-' :: '-' :: r := by
    match pre, h2 with
    | x :: y :: r, h2 =>
      have : x = '-' ∧ y = '-' := by simpa using h2
      exact ⟨r, by rw [this.1, this.2]⟩
  have hnone : options.get? ('-' :: '-' :: r ++ '=' :: t) = none := by
    by_contra hc
    obtain ⟨b, hb⟩ := Option.ne_none_iff_exists'.1 hc
    have hk := Dict.mem_keys_of_get? _ hb
    have : ∀ k ∈ options.keys, '=' ∉ k := by decide
    exact this _ hk (by simp)
  unfold classify
  rw [if_neg (by simp), hnone]
  simp only
  rw [if_neg (by simp), if_pos (by simp), e1, e2]
  rcases hm with ⟨hm, rfl⟩ | ⟨hm, hf⟩
  · rw [hm]; rfl
  · rw [hm]
    have : meant ('-' :: '-' :: r ++ '=' :: t) = [.opt (some a) name (some t)] := by
      unfold meant
      rw [if_pos (by simp), if_pos (by simp), e1, e2]
      simp only [hf]
      rfl
    unfold classifyOpt
    simp only [this]

theorem classify_abbreviated : (∀ pre ∈ "--num_workers".toList.inits, 3 ≤ pre.length → ('=' ∉ pre ∧ pre.take 2 = "--".toList ∧
      (options.get? pre = some .numWorkers ∧ "--num_workers".toList = pre ∨
        options.get? pre = none ∧ (options.filter fun q => pre.isPrefixOf q.1) = [("--num_workers".toList, .numWorkers)]) ∧
      classify pre = .ok (.opt (some .numWorkers) "--num_workers".toList none))) ∧
    (∀ pre ∈ "--scheduler".toList.inits, 3 ≤ pre.length → ('=' ∉ pre ∧ pre.take 2 = "--".toList ∧
      (options.get? pre = some .scheduler ∧ "--scheduler".toList = pre ∨
        options.get? pre = none ∧ (options.filter fun q => pre.isPrefixOf q.1) = [("--scheduler".toList, .scheduler)]) ∧
      classify pre = .ok (.opt (some .scheduler) "--scheduler".toList none))) ∧
    ∀ pre ∈ "--verbose".toList.inits, 6 ≤ pre.length → classify pre = .ok (.opt (some .verbose) "--verbose".toList none) := by
  decide +kernel

/-! ### What it does -/

/-- What a setting does to what was said before. -/
def Setting.apply (st : St) : Setting → St
  | .config s => match st.config with
    | none => { st with config := some s }
    | some _ => { st with extra := true }
  | .workers k => { st with opts := { st.opts with numWorkers := k } }
  | .scheduler s => { st with opts := { st.opts with scheduler := String.ofList s } }
  | .verbose => { st with opts := { st.opts with verbose := true } }

theorem cluster_value (m : Nat) {c : Char} {a : Act} (h : (c = 'n' ∧ a = .numWorkers) ∨ (c = 's' ∧ a = .scheduler)) (t : Str) :
    cluster .verbose (List.replicate m 'v' ++ c :: t) =
      .ok (List.replicate (m + 1) .verbose, a, if t = [] then none else some t) := by
  have hg : options.get? ['-', c] = some a := by rcases h with ⟨rfl, rfl⟩ | ⟨rfl, rfl⟩ <;> rfl
  have ht : a.takes = true := by rcases h with ⟨-, rfl⟩ | ⟨-, rfl⟩ <;> rfl
  induction m with
  | zero =>
    simp only [List.replicate_zero, List.nil_append]
    unfold cluster
    simp only [Act.takes, hg]
    cases t with
    | nil => rfl
    | cons x t =>
      have : cluster a (x :: t) = .ok ([], a, some (x :: t)) := by
        unfold cluster; rw [ht]; rfl
      simp [this, bind, Except.bind, pure, Except.pure]
  | succ m ih =>
    rw [List.replicate_succ, List.cons_append]
    unfold cluster
    have hv : options.get? ['-', 'v'] = some .verbose := rfl
    simp only [Act.takes, hv, ih]
    simp [bind, Except.bind, pure, Except.pure, List.replicate_succ]

theorem cluster_letters (m : Nat) : cluster .verbose (List.replicate (m + 1) 'v') = .ok (List.replicate (m + 1) .verbose, .verbose, none) := by
  have hv : options.get? ['-', 'v'] = some .verbose := rfl
  induction m with
  | zero => rfl
  | succ m ih =>
    rw [List.replicate_succ]
    unfold cluster
    simp only [Act.takes, hv, ih]
    simp [bind, Except.bind, pure, Except.pure, List.replicate_succ]

theorem act_letters (sh : Shell) (m : Nat) (st : St) :
    (List.replicate (m + 1) Act.verbose).foldlM (fun st a => act sh st a []) st = .ok (Setting.apply st .verbose) := by
  induction m generalizing st with
  | zero => rfl
  | succ m ih =>
    rw [List.replicate_succ, List.foldlM_cons]
    show (List.replicate (m + 1) Act.verbose).foldlM (fun st a => act sh st a []) (Setting.apply st .verbose) = _
    rw [ih]
    rfl

/-- An option with an argument. -/
def Does (sh : Shell) (a : Act) (t : Str) (σ : Setting) : Prop := a.takes = true ∧ ∀ st, act sh st a t = .ok (σ.apply st)

theorem Letter.act {sh : Shell} {c : Char} {t : Str} {σ : Setting} (h : Letter sh c t σ) :
    ∃ a, ((c = 'n' ∧ a = .numWorkers) ∨ (c = 's' ∧ a = .scheduler)) ∧ Does sh a t σ := by
  cases h with
  | workers h => exact ⟨_, Or.inl ⟨rfl, rfl⟩, rfl, fun st => by unfold Cli.act; simp only [h]; rfl⟩
  | scheduler => exact ⟨_, Or.inr ⟨rfl, rfl⟩, rfl, fun st => rfl⟩

theorem Long.act {sh : Shell} {full pre t : Str} {n : Nat} {σ : Setting} (h : Long sh full n t σ) (hp : pre <+: full) (hl : n ≤ pre.length) :
    ∃ a, Does sh a t σ ∧ classify pre = .ok (.opt (some a) full none) ∧ ∀ t, classify (pre ++ '=' :: t) = .ok (.opt (some a) full (some t)) := by
  obtain ⟨k1, k2, -⟩ := classify_abbreviated
  cases h with
  | workers h =>
    obtain ⟨q1, q2, q3, q4⟩ := k1 pre ((List.mem_inits _ _).2 hp) hl
    exact ⟨_, ⟨rfl, fun st => by unfold Cli.act; simp only [h]; rfl⟩, q4, classify_long q1 q2 q3⟩
  | scheduler =>
    obtain ⟨q1, q2, q3, q4⟩ := k2 pre ((List.mem_inits _ _).2 hp) hl
    exact ⟨_, ⟨rfl, fun st => rfl⟩, q4, classify_long q1 q2 q3⟩

theorem consume_value {sh : Shell} {a : Act} {name t : Str} {σ : Setting} {as : List Act} (h : Does sh a t σ) {value : Option Str} {b : Act}
    (hu : Cli.unfold b name value = .ok (as, a, some t)) (hd : t ≠ "--".toList) (ts : List Tok) (st st' : St)
    (has : as.foldlM (fun st a => act sh st a []) st = .ok st') :
    consume sh (.opt (some b) name value :: ts) false st = consume sh ts false (σ.apply st') := by
  have : step sh (.opt (some b) name value) ts st = .ok (σ.apply st', false) := by
    unfold step
    simp only [hu, bind, Except.bind, h.1, if_neg hd, has, h.2, pure, Except.pure]
  conv_lhs => unfold consume
  rw [this]
  rfl

theorem consume_next {sh : Shell} {a : Act} {name t : Str} {σ : Setting} {as : List Act} (h : Does sh a t σ) {value : Option Str} {b : Act}
    (hu : Cli.unfold b name value = .ok (as, a, none)) (ts : List Tok) (st st' : St)
    (has : as.foldlM (fun st a => act sh st a []) st = .ok st') :
    consume sh (.opt (some b) name value :: .arg t :: ts) false st = consume sh ts false (σ.apply st') := by
  have : step sh (.opt (some b) name value) (.arg t :: ts) st = .ok (σ.apply st', true) := by
    unfold step
    simp only [hu, bind, Except.bind, h.1, has, h.2, pure, Except.pure]
  conv_lhs => unfold consume
  rw [this]
  rfl

theorem consume_flag {sh : Shell} {name : Str} {as : List Act} {value : Option Str} {b : Act}
    (hu : Cli.unfold b name value = .ok (as, .verbose, none)) (ts : List Tok) (st st' : St)
    (has : (as ++ [Act.verbose]).foldlM (fun st a => act sh st a []) st = .ok st') :
    consume sh (.opt (some b) name value :: ts) false st = consume sh ts false st' := by
  have : step sh (.opt (some b) name value) ts st = .ok (st', false) := by
    unfold step
    simp only [hu, bind, Except.bind, Act.takes, has, pure, Except.pure]
  conv_lhs => unfold consume
  rw [this]
  rfl

theorem tokens_cons {s : Str} {t : Tok} (h : classify s = .ok t) (hs : s ≠ "--".toList) (rest : List Str) :
    tokens (s :: rest) = (tokens rest).map (t :: ·) := by
  conv_lhs => unfold tokens
  rw [if_neg hs, h]
  simp only [bind, Except.bind]
  cases tokens rest <;> rfl

theorem classify_dashes : classify "--".toList = .error .usage := by decide +kernel

theorem not_dashes {s : Str} {t : Tok} (h : classify s = .ok t) : s ≠ "--".toList := by
  rintro rfl
  rw [classify_dashes] at h
  cases h

/-- The configuration files named. -/
def configsOf (l : List Setting) : List Str := l.filterMap fun | .config s => some s | _ => none
/-- The numbers of workers given. -/
def workersOf (l : List Setting) : List Int := l.filterMap fun | .workers k => some k | _ => none
/-- The schedulers given. -/
def schedulersOf (l : List Setting) : List Str := l.filterMap fun | .scheduler s => some s | _ => none
/-- Is it to say more? -/
def talks (l : List Setting) : Bool := l.any fun | .verbose => true | _ => false

theorem spelled_does {sh : Shell} {g : List Str} {σs : List Setting} (h : Spelled sh g σs) :
    ∃ tg : List Tok, tg ≠ [] ∧ tg.head? ≠ some .dashes ∧ (∀ rest, tokens (g ++ rest) = (tokens rest).map (tg ++ ·)) ∧
      ∀ ts st, configsOf σs = [] ∨ ts.head? ≠ some .dashes → consume sh (tg ++ ts) false st = consume sh ts false (σs.foldl Setting.apply st) := by
  have one : ∀ {s : Str} {t : Tok}, classify s = .ok t → ∀ rest, tokens ([s] ++ rest) = (tokens rest).map ([t] ++ ·) := by
    intro s t h rest
    exact tokens_cons h (not_dashes h) rest
  have two : ∀ {s s' : Str} {t t' : Tok}, classify s = .ok t → classify s' = .ok t' →
      ∀ rest, tokens ([s, s'] ++ rest) = (tokens rest).map ([t, t'] ++ ·) := by
    intro s s' t t' h h' rest
    show tokens (s :: s' :: rest) = _
    rw [tokens_cons h (not_dashes h), tokens_cons h' (not_dashes h')]
    cases tokens rest <;> rfl
  cases h with
  | @config s hb hf =>
    refine ⟨[.arg s], by simp, by simp, one (classify_bare hb), fun ts st hts => ?_⟩
    replace hts := hts.resolve_left (by simp [configsOf])
    have : step sh (.arg s) ts st = .ok (Setting.apply st (.config s), false) := by
      unfold step
      cases hc : st.config with
      | some x => simp only [Setting.apply, hc]
      | none => simp [setConfig, hf, bind, Except.bind, pure, Except.pure, Setting.apply, hc, hts]
    show consume sh (.arg s :: ts) false st = consume sh ts false (Setting.apply st (.config s))
    conv_lhs => unfold consume
    rw [this]
    rfl
  | letters m =>
    cases m with
    | zero =>
      refine ⟨[.opt (some .verbose) ['-', 'v'] none], by simp, by simp, one (by decide +kernel), fun ts st _ => ?_⟩
      exact consume_flag (as := []) rfl ts st _ rfl
    | succ m =>
      have := classify_letter (c := 'v') (x := 'v') (a := .verbose) (by simp) (List.replicate m 'v')
      rw [if_neg (by decide)] at this
      refine ⟨[_], by simp, by simp, one this, fun ts st _ => ?_⟩
      refine consume_flag (as := List.replicate (m + 1) .verbose) ?_ ts st _ ?_
      · unfold Cli.unfold
        exact cluster_letters m
      · rw [← List.replicate_succ']
        exact act_letters sh (m + 1) st
  | flag h hl =>
    have := classify_abbreviated.2.2 _ ((List.mem_inits _ _).2 h) hl
    refine ⟨[_], by simp, by simp, one this, fun ts st _ => ?_⟩
    exact consume_flag (as := []) rfl ts st _ rfl
  | @glued c x t σ h hx hd =>
    obtain ⟨a, ha, hdo⟩ := h.act
    have hcl := classify_letter (c := c) (x := x) (a := a) (by tauto) t
    rw [if_neg hx] at hcl
    refine ⟨[_], by simp, by simp, one hcl, fun ts st _ => ?_⟩
    refine consume_value (as := []) hdo ?_ hd ts st st rfl
    unfold Cli.unfold
    rw [hdo.1]; rfl
  | @gluedLetters m c x t σ h hd =>
    obtain ⟨a, ha, hdo⟩ := h.act
    have hu : ∀ v, v = List.replicate m 'v' ++ c :: x :: t →
        Cli.unfold .verbose ['-', 'v'] (some v) = .ok (List.replicate (m + 1) .verbose, a, some (x :: t)) := by
      rintro v rfl
      unfold Cli.unfold
      rw [show Act.verbose.takes = false from rfl]
      have := cluster_value m ha (x :: t)
      rw [if_neg (by simp)] at this
      exact this
    have hcl : ∃ v, v = List.replicate m 'v' ++ c :: x :: t ∧
        classify ('-' :: 'v' :: (List.replicate m 'v' ++ c :: x :: t)) = .ok (.opt (some .verbose) ['-', 'v'] (some v)) := by
      have hc : c ≠ '=' := by rcases ha with ⟨rfl, -⟩ | ⟨rfl, -⟩ <;> decide
      cases m with
      | zero =>
        refine ⟨_, rfl, ?_⟩
        have := classify_letter (c := 'v') (x := c) (a := .verbose) (by simp) (x :: t)
        rw [if_neg hc] at this
        exact this
      | succ m =>
        refine ⟨_, rfl, ?_⟩
        have := classify_letter (c := 'v') (x := 'v') (a := .verbose) (by simp) (List.replicate m 'v' ++ c :: x :: t)
        rw [if_neg (by decide)] at this
        exact this
    obtain ⟨v, hv, hcl⟩ := hcl
    refine ⟨[_], by simp, by simp, one hcl, fun ts st _ => ?_⟩
    exact consume_value hdo (hu v hv) hd ts st _ (act_letters sh m st)
  | @equal c t σ h hd =>
    obtain ⟨a, ha, hdo⟩ := h.act
    have hcl := classify_letter (c := c) (x := '=') (a := a) (by tauto) t
    rw [if_pos rfl] at hcl
    refine ⟨[_], by simp, by simp, one hcl, fun ts st _ => ?_⟩
    refine consume_value (as := []) hdo ?_ hd ts st st rfl
    unfold Cli.unfold
    rw [hdo.1]; rfl
  | @apart c t σ h hb =>
    obtain ⟨a, ha, hdo⟩ := h.act
    have hcl : classify ['-', c] = .ok (.opt (some a) ['-', c] none) := by
      rcases ha with ⟨rfl, rfl⟩ | ⟨rfl, rfl⟩ <;> decide +kernel
    refine ⟨[_, _], by simp, by simp, two hcl (classify_bare hb), fun ts st _ => ?_⟩
    exact consume_next (as := []) hdo rfl ts st st rfl
  | @apartLetters m c t σ h hb =>
    obtain ⟨a, ha, hdo⟩ := h.act
    have hu : Cli.unfold .verbose ['-', 'v'] (some (List.replicate m 'v' ++ [c])) = .ok (List.replicate (m + 1) .verbose, a, none) := by
      unfold Cli.unfold
      rw [show Act.verbose.takes = false from rfl]
      exact cluster_value m ha []
    have hcl : classify ('-' :: 'v' :: (List.replicate m 'v' ++ [c])) =
        .ok (.opt (some .verbose) ['-', 'v'] (some (List.replicate m 'v' ++ [c]))) := by
      have hc : c ≠ '=' := by rcases ha with ⟨rfl, -⟩ | ⟨rfl, -⟩ <;> decide
      cases m with
      | zero =>
        have := classify_letter (c := 'v') (x := c) (a := .verbose) (by simp) []
        rw [if_neg hc] at this
        exact this
      | succ m =>
        have := classify_letter (c := 'v') (x := 'v') (a := .verbose) (by simp) (List.replicate m 'v' ++ [c])
        rw [if_neg (by decide)] at this
        exact this
    refine ⟨[_, _], by simp, by simp, two hcl (classify_bare hb), fun ts st _ => ?_⟩
    exact consume_next hdo hu ts st _ (act_letters sh m st)
  | long h hp hl hd =>
    obtain ⟨a, hdo, -, hcl⟩ := h.act hp hl
    refine ⟨[_], by simp, by simp, one (hcl _), fun ts st _ => ?_⟩
    refine consume_value (as := []) hdo ?_ hd ts st st rfl
    unfold Cli.unfold
    rw [hdo.1]; rfl
  | longApart h hp hl hb =>
    obtain ⟨a, hdo, hcl, -⟩ := h.act hp hl
    refine ⟨[_, _], by simp, by simp, two hcl (classify_bare hb), fun ts st _ => ?_⟩
    exact consume_next (as := []) hdo rfl ts st st rfl

theorem groups_do {sh : Shell} (gs : List (List Str × List Setting)) (h : ∀ g ∈ gs, Spelled sh g.1 g.2) (rest : List Str) (ts : List Tok)
    (hr : tokens rest = .ok ts) (hts : configsOf (gs.flatMap Prod.snd) = [] ∨ ts.head? ≠ some .dashes) :
    ∃ tg, tokens (gs.flatMap Prod.fst ++ rest) = .ok (tg ++ ts) ∧ (ts.head? ≠ some .dashes → (tg ++ ts).head? ≠ some .dashes) ∧
      ∀ st, consume sh (tg ++ ts) false st = consume sh ts false ((gs.flatMap Prod.snd).foldl Setting.apply st) := by
  induction gs with
  | nil => exact ⟨[], hr, id, fun st => rfl⟩
  | cons g gs ih =>
    have hsplit : configsOf ((g :: gs).flatMap Prod.snd) = configsOf g.2 ++ configsOf (gs.flatMap Prod.snd) := by
      unfold configsOf
      rw [List.flatMap_cons, List.filterMap_append]
    rw [hsplit, List.append_eq_nil_iff] at hts
    obtain ⟨tg, h1, h2, h3⟩ := ih (fun g hg => h g (by simp [hg])) (hts.imp_left And.right)
    obtain ⟨tg', k1, k2, k3, k4⟩ := spelled_does (h g (by simp))
    refine ⟨tg' ++ tg, ?_, ?_, fun st => ?_⟩
    · rw [List.flatMap_cons, List.append_assoc, k3, h1]
      simp [Except.map]
    · cases tg' with
      | nil => exact absurd rfl k1
      | cons t tg' => intro _; simpa using k2
    · rw [List.append_assoc, k4 _ _ (hts.imp And.left h2), h3, List.flatMap_cons, List.foldl_append]

/-! ### What a command line amounts to -/

/-- More than one file, of which one is in `l`. -/
def several : Option Str → List Str → Bool
  | none, _ :: _ :: _ => true
  | some _, _ :: _ => true
  | _, _ => false

theorem applied (l : List Setting) : ∀ st : St, l.foldl Setting.apply st =
    { config := st.config.or (configsOf l).head?
      opts := ⟨((schedulersOf l).getLast?.map String.ofList).getD st.opts.scheduler, (workersOf l).getLast?.getD st.opts.numWorkers,
        st.opts.verbose || talks l⟩
      extra := st.extra || several st.config (configsOf l) } := by
  induction l with
  | nil =>
    rintro ⟨c, ⟨o1, o2, o3⟩, e⟩
    cases c <;> simp [configsOf, workersOf, schedulersOf, talks, several]
  | cons a l ih =>
    rintro ⟨c, ⟨o1, o2, o3⟩, e⟩
    rw [List.foldl_cons, ih]
    cases a with
    | config s =>
      rw [show configsOf (.config s :: l) = s :: configsOf l from rfl, show workersOf (.config s :: l) = workersOf l from rfl,
        show schedulersOf (.config s :: l) = schedulersOf l from rfl, show talks (.config s :: l) = talks l from rfl]
      cases c <;> cases hl : configsOf l <;> simp [Setting.apply, several]
    | workers k =>
      rw [show configsOf (.workers k :: l) = configsOf l from rfl, show workersOf (.workers k :: l) = k :: workersOf l from rfl,
        show schedulersOf (.workers k :: l) = schedulersOf l from rfl, show talks (.workers k :: l) = talks l from rfl, List.getLast?_cons]
      cases hl : (workersOf l).getLast? <;> simp [Setting.apply]
    | scheduler s =>
      rw [show configsOf (.scheduler s :: l) = configsOf l from rfl, show workersOf (.scheduler s :: l) = workersOf l from rfl,
        show schedulersOf (.scheduler s :: l) = s :: schedulersOf l from rfl, show talks (.scheduler s :: l) = talks l from rfl, List.getLast?_cons]
      cases hl : (schedulersOf l).getLast? <;> simp [Setting.apply]
    | verbose =>
      rw [show configsOf (.verbose :: l) = configsOf l from rfl, show workersOf (.verbose :: l) = workersOf l from rfl,
        show schedulersOf (.verbose :: l) = schedulersOf l from rfl, show talks (.verbose :: l) = true from rfl]
      simp [Setting.apply]

/-- **C104**: a command line of settings spelled in any of the ways and in any order: with exactly one configuration file it stands for
that file, the last number of workers and scheduler given (one, `distributed`), and verbosity if asked for anywhere; with none or several it
is refused. -/
theorem C104_parse (sh : Shell) (gs : List (List Str × List Setting)) (h : ∀ g ∈ gs, Spelled sh g.1 g.2) :
    parse sh (gs.flatMap Prod.fst) = match configsOf (gs.flatMap Prod.snd) with
      | [s] => .ok (s, ⟨((schedulersOf (gs.flatMap Prod.snd)).getLast?.map String.ofList).getD "distributed",
          (workersOf (gs.flatMap Prod.snd)).getLast?.getD 1, talks (gs.flatMap Prod.snd)⟩)
      | _ => .error .usage := by
  obtain ⟨tg, h1, -, h3⟩ := groups_do gs h [] [] rfl (by simp)
  rw [List.append_nil] at h1 h3
  unfold parse
  rw [h1]
  simp only [bind, Except.bind, List.append_nil, h3, consume, applied]
  rcases hc : configsOf (gs.flatMap Prod.snd) with _ | ⟨s, _ | ⟨s', l⟩⟩ <;> simp [several, pure, Except.pure]

/-! ### Refused lines -/

theorem classifyOpt_error {s : Str} {e : Exit} (h : classifyOpt s = .error e) : e = .usage := by
  unfold classifyOpt at h
  split at h
  · split_ifs at h
  · cases h
  · exact (Except.error.inj h).symm

theorem classify_error {s : Str} {e : Exit} (h : classify s = .error e) : e = .usage := by
  unfold classify at h
  split at h
  · cases h
  · split at h
    · cases h
    · split at h
      · cases h
      · split at h
        · split at h
          · cases h
          · exact classifyOpt_error h
        · exact classifyOpt_error h

theorem tokens_error {l : List Str} {e : Exit} (h : tokens l = .error e) : e = .usage := by
  induction l with
  | nil => cases h
  | cons s l ih =>
    unfold tokens at h
    split_ifs at h
    cases hc : classify s with
    | error e' =>
      rw [hc] at h
      obtain rfl := Except.error.inj h
      exact classify_error hc
    | ok t =>
      rw [hc] at h
      cases ht : tokens l with
      | error e' =>
        rw [ht] at h
        obtain rfl := Except.error.inj h
        exact ih ht
      | ok ts => rw [ht] at h; cases h

theorem tokens_mid {before : List Str} (hb : "--".toList ∉ before) {s : Str} {after : List Str} :
    (∃ ts, tokens (before ++ s :: after) = .ok ts) → s = "--".toList ∨ ∃ t, classify s = .ok t := by
  induction before with
  | nil =>
    rintro ⟨ts, h⟩
    by_cases hs : s = "--".toList
    · exact Or.inl hs
    · right
      rw [List.nil_append] at h
      unfold tokens at h
      rw [if_neg hs] at h
      cases hc : classify s with
      | error e => rw [hc] at h; cases h
      | ok t => exact ⟨t, rfl⟩
  | cons b before ih =>
    rintro ⟨ts, h⟩
    rw [List.cons_append] at h
    unfold tokens at h
    rw [if_neg (fun e => hb (by simp [e]))] at h
    cases hc : classify b with
    | error e => rw [hc] at h; cases h
    | ok t =>
      rw [hc] at h
      cases ht : tokens (before ++ s :: after) with
      | error e => rw [ht] at h; cases h
      | ok ts' => exact ih (fun hm => hb (List.mem_cons_of_mem _ hm)) ⟨ts', ht⟩

/-- **C104**: `--v`, `--ve` and `--ver` may be `--verbose` or `--version`: a command line with one of them is refused, whatever else it says. -/
theorem C104_ambiguous (sh : Shell) (before after : List Str) (hb : "--".toList ∉ before) {s : Str}
    (hs : s = "--v".toList ∨ s = "--ve".toList ∨ s = "--ver".toList) : parse sh (before ++ s :: after) = .error .usage := by
  have hc : classify s = .error .usage ∧ s ≠ "--".toList := by
    rcases hs with rfl | rfl | rfl <;> decide +kernel
  unfold parse
  cases ht : tokens (before ++ s :: after) with
  | ok ts =>
    rcases tokens_mid hb ⟨ts, ht⟩ with e | ⟨t, e⟩
    · exact absurd e hc.2
    · rw [hc.1] at e; cases e
  | error e =>
    rw [tokens_error ht]
    rfl

/-- **C104**: a file that does not exist ends the program with status 1, whatever is behind it, unless that is refused. -/
theorem C104_no_file (sh : Shell) (gs : List (List Str × List Setting)) (h : ∀ g ∈ gs, Spelled sh g.1 g.2)
    (hno : configsOf (gs.flatMap Prod.snd) = []) {s : Str} (hs : Bare s) (hf : sh.isFile s = false) (after : List Str) (ts : List Tok)
    (hr : tokens after = .ok ts) : parse sh (gs.flatMap Prod.fst ++ s :: after) = .error .noFile := by
  have hcl := classify_bare hs
  obtain ⟨tg, h1, -, h3⟩ := groups_do gs h (s :: after) (.arg s :: ts)
    (by rw [tokens_cons hcl (not_dashes hcl), hr]; rfl) (by simp)
  unfold parse
  rw [h1]
  simp only [bind, Except.bind, h3, applied, hno]
  conv_lhs => unfold consume
  simp [step, setConfig, hf, bind, Except.bind]

/-- **C104**: asked for help or the version, the program shows it and ends, whatever is behind it, unless that is refused. -/
theorem C104_shown (sh : Shell) (gs : List (List Str × List Setting)) (h : ∀ g ∈ gs, Spelled sh g.1 g.2) {s : Str}
    (hs : s = "-h".toList ∨ (s <+: "--help".toList ∧ 3 ≤ s.length) ∨ (s <+: "--version".toList ∧ 6 ≤ s.length)) (after : List Str)
    (ts : List Tok) (hr : tokens after = .ok ts) : parse sh (gs.flatMap Prod.fst ++ s :: after) = .error .shown := by
  have hcl : ∃ a name, (a = .help ∨ a = .version) ∧ classify s = .ok (.opt (some a) name none) := by
    have k1 : ∀ s ∈ "--help".toList.inits, 3 ≤ s.length → classify s = .ok (.opt (some .help) "--help".toList none) := by decide +kernel
    have k2 : ∀ s ∈ "--version".toList.inits, 6 ≤ s.length → classify s = .ok (.opt (some .version) "--version".toList none) := by
      decide +kernel
    rcases hs with rfl | ⟨h1, h2⟩ | ⟨h1, h2⟩
    · exact ⟨.help, "-h".toList, Or.inl rfl, by decide +kernel⟩
    · exact ⟨_, _, Or.inl rfl, k1 s ((List.mem_inits _ _).2 h1) h2⟩
    · exact ⟨_, _, Or.inr rfl, k2 s ((List.mem_inits _ _).2 h1) h2⟩
  obtain ⟨a, name, ha, hcl⟩ := hcl
  obtain ⟨tg, h1, -, h3⟩ := groups_do gs h (s :: after) (.opt (some a) name none :: ts)
    (by rw [tokens_cons hcl (not_dashes hcl), hr]; rfl) (by simp)
  unfold parse
  rw [h1]
  simp only [bind, Except.bind, h3]
  conv_lhs => unfold consume
  rcases ha with rfl | rfl <;> simp [step, Cli.unfold, Act.takes, act, bind, Except.bind]

/-- **C104**: behind `--` any text is the name of the file, also one that looks like an option. -/
theorem C104_dashes (sh : Shell) (gs : List (List Str × List Setting)) (h : ∀ g ∈ gs, Spelled sh g.1 g.2)
    (hno : configsOf (gs.flatMap Prod.snd) = []) {s : Str} (hf : sh.isFile s = true) :
    parse sh (gs.flatMap Prod.fst ++ ["--".toList, s]) =
      .ok (s, ⟨((schedulersOf (gs.flatMap Prod.snd)).getLast?.map String.ofList).getD "distributed",
          (workersOf (gs.flatMap Prod.snd)).getLast?.getD 1, talks (gs.flatMap Prod.snd)⟩) := by
  obtain ⟨tg, h1, -, h3⟩ := groups_do gs h ["--".toList, s] [.dashes, .arg s] rfl (Or.inl hno)
  unfold parse
  rw [h1]
  simp only [bind, Except.bind, h3, applied, hno]
  simp [consume, step, setConfig, hf, bind, Except.bind, pure, Except.pure, several]

/-- **C104**: `--` directly behind the name of the file changes nothing. -/
theorem C104_dashes_behind (sh : Shell) (gs : List (List Str × List Setting)) (h : ∀ g ∈ gs, Spelled sh g.1 g.2)
    (hno : configsOf (gs.flatMap Prod.snd) = []) {s : Str} (hs : Bare s) (hf : sh.isFile s = true) :
    parse sh (gs.flatMap Prod.fst ++ [s, "--".toList]) = parse sh (gs.flatMap Prod.fst ++ [s]) := by
  have hcl := classify_bare hs
  obtain ⟨tg, h1, -, h3⟩ := groups_do gs h [s, "--".toList] [.arg s, .dashes]
    (by rw [tokens_cons hcl (not_dashes hcl)]; rfl) (by simp)
  obtain ⟨tg', k1, -, k3⟩ := groups_do gs h [s] [.arg s] (by rw [tokens_cons hcl (not_dashes hcl)]; rfl) (by simp)
  unfold parse
  rw [h1, k1]
  simp only [bind, Except.bind, h3, k3, applied, hno]
  simp [consume, step, setConfig, hf, bind, Except.bind, pure, Except.pure, several]

/-- The long options. -/
def longNames : List Str := ["--help", "--num_workers", "--scheduler", "--verbose", "--version"].map String.toList

/-- An option nothing is known of: a dash and another letter but no number, or two dashes and no beginning of a long option, without `=` or
space. -/
def Unknown (s : Str) : Prop := '=' ∉ s ∧ ' ' ∉ s ∧
  ((∃ c t, s = '-' :: c :: t ∧ c ∉ ['-', 'h', 'n', 's', 'v'] ∧ ¬ Numeric s) ∨
    ∃ c t, s = '-' :: '-' :: c :: t ∧ ∀ o ∈ longNames, ¬ s <+: o)

theorem classify_unknown {s : Str} (h : Unknown s) : classify s = .ok (.opt none s none) := by
  obtain ⟨he, hs, ⟨c, t, rfl, hc, hd⟩ | ⟨c, t, rfl, ho⟩⟩ := h
  · rw [classify_other, if_neg]
    · rintro (h | h)
      · exact hd ((negative_iff _).1 h)
      · exact hs h
    · intro hm
      have : c ∈ ['-', 'h', 'n', 's', 'v'] ∨ c = '=' := by simpa [or_assoc] using hm
      rcases this with h | rfl
      · exact hc h
      · exact he (by simp)
    · exact fun h => he (by simp [h])
  · have hno : ∀ q ∈ options, ('-' :: '-' :: c :: t).isPrefixOf q.1 = false := by
      intro q hq
      rw [Bool.eq_false_iff]
      intro hp
      have hp := List.isPrefixOf_iff_prefix.1 hp
      by_cases hm : q.1 ∈ longNames
      · exact ho _ hm hp
      · have : q.1 ∈ ["-h".toList, "-n".toList, "-s".toList, "-v".toList] :=
          (show ∀ q ∈ options, q.1 ∉ longNames → q.1 ∈ ["-h".toList, "-n".toList, "-s".toList, "-v".toList] by decide) q hq hm
        simp only [List.mem_cons, List.not_mem_nil, or_false] at this
        rcases this with e | e | e | e <;> · rw [e] at hp; have := hp.length_le; simp at this
    have h1 : options.get? ('-' :: '-' :: c :: t) = none := by
      cases hg : options.get? ('-' :: '-' :: c :: t) with
      | none => rfl
      | some a =>
        have := hno _ (Dict.mem_of_get? _ hg)
        rw [Bool.eq_false_iff] at this
        exact absurd (List.isPrefixOf_iff_prefix.2 (List.prefix_refl _)) this
    have h3 : meant ('-' :: '-' :: c :: t) = [] := by
      unfold meant
      rw [if_pos (by rfl), if_neg he]
      simp only [List.map_eq_nil_iff, List.filter_eq_nil_iff]
      intro q hq
      rw [hno q hq]
      simp
    have h4 : Cli.negative ('-' :: '-' :: c :: t) = false := by
      unfold Cli.negative
      simp [show isDigit '-' = false by decide]
    unfold classify classifyOpt
    rw [if_neg (by simp), h1, h3]
    simp [he, hs, h4]

theorem act_ok {sh : Shell} {st st' : St} {a : Act} {s : Str} (h : act sh st a s = .ok st') :
    st'.config = st.config ∧ st'.extra = st.extra ∧
    (st'.opts.numWorkers = st.opts.numWorkers ∨ a.takes = true ∧ sh.toInt s = some st'.opts.numWorkers) ∧
    (st'.opts.scheduler = st.opts.scheduler ∨ a.takes = true ∧ st'.opts.scheduler = String.ofList s) := by
  cases a with
  | help => cases h
  | version => cases h
  | verbose => obtain rfl := Except.ok.inj h; exact ⟨rfl, rfl, Or.inl rfl, Or.inl rfl⟩
  | scheduler => obtain rfl := Except.ok.inj h; exact ⟨rfl, rfl, Or.inl rfl, Or.inr ⟨rfl, rfl⟩⟩
  | numWorkers =>
    unfold act at h
    simp only at h
    cases hk : sh.toInt s with
    | none => rw [hk] at h; cases h
    | some k =>
      rw [hk] at h
      obtain rfl := Except.ok.inj h
      exact ⟨rfl, rfl, Or.inr ⟨rfl, rfl⟩, Or.inl rfl⟩

theorem acts_ok {sh : Shell} : ∀ (as : List Act), (∀ a ∈ as, a.takes = false) → ∀ (st st' : St),
    as.foldlM (fun st a => act sh st a []) st = .ok st' →
    st'.config = st.config ∧ st'.extra = st.extra ∧ st'.opts.numWorkers = st.opts.numWorkers ∧ st'.opts.scheduler = st.opts.scheduler
  | [], _, st, st', h => by
    rw [List.foldlM_nil] at h
    obtain rfl := Except.ok.inj h
    exact ⟨rfl, rfl, rfl, rfl⟩
  | a :: as, ha, st, st', h => by
    rw [List.foldlM_cons] at h
    simp only [bind, Except.bind] at h
    cases h1 : act sh st a [] with
    | error e => rw [h1] at h; cases h
    | ok st1 =>
      rw [h1] at h
      obtain ⟨k1, k2, k3, k4⟩ := acts_ok as (fun a' h' => ha a' (by simp [h'])) st1 st' h
      obtain ⟨q1, q2, q3, q4⟩ := act_ok h1
      have hf := ha a (by simp)
      rw [hf] at q3 q4
      exact ⟨k1.trans q1, k2.trans q2, k3.trans (q3.resolve_right (by simp)), k4.trans (q4.resolve_right (by simp))⟩

theorem cluster_ok : ∀ (v : Str) (a : Act) {as : List Act} {l : Act} {x : Option Str}, cluster a v = .ok (as, l, x) →
    (∀ a ∈ as, a.takes = false) ∧ ∀ s, x = some s → s <:+ v
  | [], a, as, l, x, h => by
    unfold cluster at h
    split_ifs at h
    simp only [Except.ok.injEq, Prod.mk.injEq] at h
    obtain ⟨rfl, rfl, rfl⟩ := h
    exact ⟨by simp, fun s hs => by obtain rfl := Option.some.inj hs; exact List.suffix_refl _⟩
  | c :: v, a, as, l, x, h => by
    unfold cluster at h
    by_cases ha : a.takes = true
    · rw [if_pos ha] at h
      simp only [Except.ok.injEq, Prod.mk.injEq] at h
      obtain ⟨rfl, rfl, rfl⟩ := h
      exact ⟨by simp, fun s hs => by obtain rfl := Option.some.inj hs; exact List.suffix_refl _⟩
    · rw [if_neg ha] at h
      have ha' : a.takes = false := by simpa using ha
      cases hg : options.get? ['-', c] with
      | none => rw [hg] at h; cases h
      | some b =>
        rw [hg] at h
        simp only at h
        split_ifs at h with hv
        · simp only [Except.ok.injEq, Prod.mk.injEq] at h
          obtain ⟨rfl, rfl, rfl⟩ := h
          exact ⟨by simpa using ha', fun s hs => by cases hs⟩
        · cases hr : cluster b v with
          | error e => rw [hr] at h; cases h
          | ok r =>
            obtain ⟨as', l', x'⟩ := r
            rw [hr] at h
            simp only [bind, Except.bind, pure, Except.pure, Except.ok.injEq, Prod.mk.injEq] at h
            obtain ⟨rfl, rfl, rfl⟩ := h
            obtain ⟨k1, k2⟩ := cluster_ok v b hr
            exact ⟨by simpa [ha'] using k1, fun s hs => (k2 s hs).trans (List.suffix_cons c v)⟩

theorem unfold_ok {a : Act} {name : Str} {v : Option Str} {as : List Act} {l : Act} {x : Option Str} (h : Cli.unfold a name v = .ok (as, l, x)) :
    (∀ a ∈ as, a.takes = false) ∧ ∀ s, x = some s → ∃ w, v = some w ∧ s <:+ w := by
  unfold Cli.unfold at h
  cases v with
  | none =>
    simp only [Except.ok.injEq, Prod.mk.injEq] at h
    obtain ⟨rfl, rfl, rfl⟩ := h
    exact ⟨by simp, fun s hs => by cases hs⟩
  | some v =>
    simp only at h
    split_ifs at h
    · simp only [Except.ok.injEq, Prod.mk.injEq] at h
      obtain ⟨rfl, rfl, rfl⟩ := h
      exact ⟨by simp, fun s hs => ⟨v, rfl, by obtain rfl := Option.some.inj hs; exact List.suffix_refl _⟩⟩
    · obtain ⟨k1, k2⟩ := cluster_ok v a h
      exact ⟨k1, fun s hs => ⟨v, rfl, k2 s hs⟩⟩

/-- What a step can do. -/
theorem step_ok {sh : Shell} {t : Tok} {ts : List Tok} {st st' : St} {used : Bool} (h : step sh t ts st = .ok (st', used)) :
    (used = false ∧ st' = { st with extra := true }) ∨ (t = .dashes ∧ st' = st ∧ used = false) ∨
    (∃ s, t = .arg s ∧ sh.isFile s = true ∧ st.config = none ∧ st' = { st with config := some s } ∧
      (used = true → ts.head? = some .dashes)) ∨
    ∃ a n v s, t = .opt (some a) n v ∧ st'.config = st.config ∧ st'.extra = st.extra ∧
      (st'.opts.numWorkers = st.opts.numWorkers ∨ sh.toInt s = some st'.opts.numWorkers ∧ ((∃ w, v = some w ∧ s <:+ w) ∨ .arg s ∈ ts)) ∧
      (st'.opts.scheduler = st.opts.scheduler ∨ st'.opts.scheduler = String.ofList s ∧ ((∃ w, v = some w ∧ s <:+ w) ∨ .arg s ∈ ts)) ∧
      (used = true → ts.head? = some (.arg s)) := by
  cases t with
  | arg s =>
    unfold step at h
    cases hc : st.config with
    | some x =>
      simp only [hc, Except.ok.injEq, Prod.mk.injEq] at h
      exact Or.inl ⟨h.2.symm, h.1.symm⟩
    | none =>
      simp only [hc, setConfig] at h
      by_cases hf : sh.isFile s = true
      · rw [if_pos hf] at h
        simp only [bind, Except.bind, pure, Except.pure, Except.ok.injEq, Prod.mk.injEq] at h
        refine Or.inr (Or.inr (Or.inl ⟨s, rfl, hf, rfl, h.1.symm, fun hu => ?_⟩))
        rw [hu] at h
        simpa using h.2
      · rw [if_neg hf] at h
        cases h
  | dashes =>
    unfold step at h
    simp only at h
    split at h
    · simp only [Except.ok.injEq, Prod.mk.injEq] at h
      exact Or.inr (Or.inl ⟨rfl, h.1.symm, h.2.symm⟩)
    · simp only [Except.ok.injEq, Prod.mk.injEq] at h
      exact Or.inl ⟨h.2.symm, h.1.symm⟩
  | opt a n v =>
    cases a with
    | none =>
      unfold step at h
      simp only [Except.ok.injEq, Prod.mk.injEq] at h
      exact Or.inl ⟨h.2.symm, h.1.symm⟩
    | some a =>
      refine Or.inr (Or.inr (Or.inr ?_))
      unfold step at h
      simp only at h
      cases hu : Cli.unfold a n v with
      | error e => rw [hu] at h; cases h
      | ok r =>
        obtain ⟨as, l, x⟩ := r
        obtain ⟨u1, u2⟩ := unfold_ok hu
        simp only [hu, bind, Except.bind] at h
        split at h
        · rename_i hl
          cases h1 : (as ++ [l]).foldlM (fun st a => act sh st a []) st with
          | error e => rw [h1] at h; cases h
          | ok st1 =>
            rw [h1] at h
            simp only [pure, Except.pure, Except.ok.injEq, Prod.mk.injEq] at h
            obtain ⟨rfl, rfl⟩ := h
            obtain ⟨k1, k2, k3, k4⟩ := acts_ok _ (by
              intro b hb
              rcases List.mem_append.1 hb with hb | hb
              · exact u1 b hb
              · rw [List.mem_singleton.1 hb]; assumption) _ _ h1
            exact ⟨a, n, v, [], rfl, k1, k2, Or.inl k3, Or.inl k4, by simp⟩
        · rename_i s _
          split_ifs at h
          cases h1 : as.foldlM (fun st a => act sh st a []) st with
          | error e => rw [h1] at h; cases h
          | ok st1 =>
            rw [h1] at h
            simp only at h
            cases h2 : act sh st1 l s with
            | error e => rw [h2] at h; cases h
            | ok st2 =>
              rw [h2] at h
              simp only [pure, Except.pure, Except.ok.injEq, Prod.mk.injEq] at h
              obtain ⟨rfl, rfl⟩ := h
              obtain ⟨k1, k2, k3, k4⟩ := acts_ok _ u1 _ _ h1
              obtain ⟨q1, q2, q3, q4⟩ := act_ok h2
              have hw := u2 s rfl
              rw [k3] at q3
              rw [k4] at q4
              exact ⟨a, n, v, s, rfl, q1.trans k1, q2.trans k2, q3.imp_right fun q => ⟨q.2, Or.inl hw⟩,
                q4.imp_right fun q => ⟨q.2, Or.inl hw⟩, by simp⟩
        · rename_i s _ _
          cases h1 : as.foldlM (fun st a => act sh st a []) st with
          | error e => rw [h1] at h; cases h
          | ok st1 =>
            rw [h1] at h
            simp only at h
            cases h2 : act sh st1 l s with
            | error e => rw [h2] at h; cases h
            | ok st2 =>
              rw [h2] at h
              simp only [pure, Except.pure, Except.ok.injEq, Prod.mk.injEq] at h
              obtain ⟨rfl, rfl⟩ := h
              obtain ⟨k1, k2, k3, k4⟩ := acts_ok _ u1 _ _ h1
              obtain ⟨q1, q2, q3, q4⟩ := act_ok h2
              rw [k3] at q3
              rw [k4] at q4
              exact ⟨a, n, v, s, rfl, q1.trans k1, q2.trans k2, q3.imp_right fun q => ⟨q.2, Or.inr (by simp)⟩,
                q4.imp_right fun q => ⟨q.2, Or.inr (by simp)⟩, by simp⟩
        · cases h

theorem consume_extra {sh : Shell} : ∀ (ts : List Tok) (used : Bool) (st st' : St), consume sh ts used st = .ok st' →
    (st.extra = true ∨ ∃ n v, .opt none n v ∈ if used then ts.tail else ts) → st'.extra = true
  | [], used, st, st', h, hx => by
    unfold consume at h
    obtain rfl := Except.ok.inj h
    rcases hx with hx | ⟨n, v, hx⟩
    · exact hx
    · cases used <;> simp at hx
  | t :: ts, true, st, st', h, hx => by
    unfold consume at h
    exact consume_extra ts false st st' h (by simpa using hx)
  | t :: ts, false, st, st', h, hx => by
    unfold consume at h
    cases h1 : step sh t ts st with
    | error e => rw [h1] at h; cases h
    | ok r =>
      obtain ⟨st1, used⟩ := r
      rw [h1] at h
      simp only [bind, Except.bind] at h
      refine consume_extra ts used st1 st' h ?_
      have key : st.extra = true → st1.extra = true := by
        intro hx
        rcases step_ok h1 with ⟨-, e⟩ | ⟨-, e, -⟩ | ⟨s, -, -, -, e, -⟩ | ⟨a, n, v, s, -, -, e, -⟩
        · rw [e]
        · rw [e]; exact hx
        · rw [e]; exact hx
        · rw [e]; exact hx
      rcases hx with hx | ⟨n, v, hx⟩
      · exact Or.inl (key hx)
      · simp only [Bool.false_eq_true, if_false, List.mem_cons] at hx
        rcases hx with rfl | hx
        · left
          unfold step at h1
          simp only [Except.ok.injEq, Prod.mk.injEq] at h1
          rw [← h1.1]
        · right
          refine ⟨n, v, ?_⟩
          cases used with
          | false => exact hx
          | true =>
            have hh : ts.head? ≠ some (.opt none n v) := by
              rcases step_ok h1 with ⟨e, -⟩ | ⟨-, -, e⟩ | ⟨s, -, -, -, -, e⟩ | ⟨a, n', v', s, -, -, -, -, -, e⟩
              · cases e
              · cases e
              · rw [e rfl]; simp
              · rw [e rfl]; simp
            cases ts with
            | nil => cases hx
            | cons t' ts' =>
              rcases List.mem_cons.1 hx with rfl | hx
              · exact absurd rfl hh
              · exact hx

theorem tokens_mem {before : List Str} (hb : "--".toList ∉ before) {s : Str} {after : List Str} {t : Tok} (hs : classify s = .ok t)
    {ts : List Tok} (h : tokens (before ++ s :: after) = .ok ts) : t ∈ ts := by
  induction before generalizing ts with
  | nil =>
    rw [List.nil_append, tokens_cons hs (not_dashes hs)] at h
    cases ht : tokens after with
    | error e => rw [ht] at h; cases h
    | ok ts' =>
      rw [ht] at h
      obtain rfl := Except.ok.inj h
      simp
  | cons b before ih =>
    rw [List.cons_append] at h
    unfold tokens at h
    rw [if_neg (fun e => hb (by simp [e]))] at h
    cases hc : classify b with
    | error e => rw [hc] at h; cases h
    | ok t' =>
      rw [hc] at h
      cases ht : tokens (before ++ s :: after) with
      | error e => rw [ht] at h; cases h
      | ok ts' =>
        rw [ht] at h
        obtain rfl := Except.ok.inj h
        exact List.mem_cons_of_mem _ (ih (fun hm => hb (List.mem_cons_of_mem _ hm)) ht)

/-- **C104**: a command line with an unknown option is refused, whatever else it says. -/
theorem C104_unknown (sh : Shell) (before after : List Str) (hb : "--".toList ∉ before) {s : Str} (hs : Unknown s) (f : Str) (o : Opts) :
    parse sh (before ++ s :: after) ≠ .ok (f, o) := by
  intro h
  unfold parse at h
  cases ht : tokens (before ++ s :: after) with
  | error e => rw [ht] at h; cases h
  | ok ts =>
    rw [ht] at h
    simp only [bind, Except.bind] at h
    cases hc : consume sh ts false {} with
    | error e => rw [hc] at h; cases h
    | ok st =>
      rw [hc] at h
      have := consume_extra ts false {} st hc (Or.inr ⟨s, none, by simpa using tokens_mem hb (classify_unknown hs) ht⟩)
      simp only [this] at h
      split at h
      · cases h
      · simp at h

/-- Every option is dealt with. -/
theorem consume_opts {sh : Shell} : ∀ (ts : List Tok) (used : Bool) (st st' : St), consume sh ts used st = .ok st' →
    ∀ a n v, .opt (some a) n v ∈ (if used then ts.tail else ts) → ∃ r, Cli.unfold a n v = .ok r
  | [], used, st, st', h, a, n, v, hx => by cases used <;> simp at hx
  | t :: ts, true, st, st', h, a, n, v, hx => by
    unfold consume at h
    exact consume_opts ts false st st' h a n v (by simpa using hx)
  | t :: ts, false, st, st', h, a, n, v, hx => by
    unfold consume at h
    cases h1 : step sh t ts st with
    | error e => rw [h1] at h; cases h
    | ok r =>
      obtain ⟨st1, used⟩ := r
      rw [h1] at h
      simp only [bind, Except.bind] at h
      simp only [Bool.false_eq_true, if_false, List.mem_cons] at hx
      rcases hx with rfl | hx
      · unfold step at h1
        cases hu : Cli.unfold a n v with
        | error e => simp only [hu, bind, Except.bind] at h1; cases h1
        | ok r => exact ⟨r, rfl⟩
      · refine consume_opts ts used st1 st' h a n v ?_
        cases used with
        | false => exact hx
        | true =>
          have hh : ts.head? ≠ some (.opt (some a) n v) := by
            rcases step_ok h1 with ⟨e, -⟩ | ⟨-, -, e⟩ | ⟨s, -, -, -, -, e⟩ | ⟨a, n', v', s, -, -, -, -, -, e⟩
            · cases e
            · cases e
            · rw [e rfl]; simp
            · rw [e rfl]; simp
          cases ts with
          | nil => cases hx
          | cons t' ts' =>
            rcases List.mem_cons.1 hx with rfl | hx
            · exact absurd rfl hh
            · exact hx

/-- **C104**: a long option that has no argument is not given one: `--verbose=n4` is refused, whatever else is said. -/
theorem C104_no_value (sh : Shell) (before after : List Str) (hb : "--".toList ∉ before) {pre : Str}
    (hp : (pre <+: "--help".toList ∧ 3 ≤ pre.length) ∨ (pre <+: "--verbose".toList ∧ 6 ≤ pre.length) ∨
      (pre <+: "--version".toList ∧ 6 ≤ pre.length)) (t f : Str) (o : Opts) :
    parse sh (before ++ (pre ++ '=' :: t) :: after) ≠ .ok (f, o) := by
  intro h
  have hcl : ∃ a name, (a = .help ∨ a = .verbose ∨ a = .version) ∧ (name.drop 1).head? = some '-' ∧
      classify (pre ++ '=' :: t) = .ok (.opt (some a) name (some t)) := by
    have k : ∀ q ∈ [("--help".toList, Act.help, 3), ("--verbose".toList, .verbose, 6), ("--version".toList, .version, 6)],
        ∀ pre ∈ q.1.inits, q.2.2 ≤ pre.length → '=' ∉ pre ∧ pre.take 2 = "--".toList ∧ (options.get? pre = some q.2.1 ∧ q.1 = pre ∨
          options.get? pre = none ∧ (options.filter fun r => pre.isPrefixOf r.1) = [(q.1, q.2.1)]) := by decide +kernel
    rcases hp with ⟨h1, h2⟩ | ⟨h1, h2⟩ | ⟨h1, h2⟩
    · obtain ⟨q1, q2, q3⟩ := k ("--help".toList, Act.help, 3) (by simp) pre ((List.mem_inits _ _).2 h1) h2
      exact ⟨_, _, Or.inl rfl, rfl, classify_long q1 q2 q3 t⟩
    · obtain ⟨q1, q2, q3⟩ := k ("--verbose".toList, Act.verbose, 6) (by simp) pre ((List.mem_inits _ _).2 h1) h2
      exact ⟨_, _, Or.inr (Or.inl rfl), rfl, classify_long q1 q2 q3 t⟩
    · obtain ⟨q1, q2, q3⟩ := k ("--version".toList, Act.version, 6) (by simp) pre ((List.mem_inits _ _).2 h1) h2
      exact ⟨_, _, Or.inr (Or.inr rfl), rfl, classify_long q1 q2 q3 t⟩
  obtain ⟨a, name, ha, hn, hcl⟩ := hcl
  unfold parse at h
  cases ht : tokens (before ++ (pre ++ '=' :: t) :: after) with
  | error e => rw [ht] at h; cases h
  | ok ts =>
    rw [ht] at h
    simp only [bind, Except.bind] at h
    cases hc : consume sh ts false {} with
    | error e => rw [hc] at h; cases h
    | ok st =>
      obtain ⟨r, hr⟩ := consume_opts ts false {} st hc a name (some t) (by simpa using tokens_mem hb hcl ht)
      have htk : a.takes = false := by rcases ha with rfl | rfl | rfl <;> rfl
      unfold Cli.unfold at hr
      simp only [htk, hn] at hr
      simp at hr

/-! ### What an accepted line has said -/

/-- Where the text of a token is from. -/
def Tok.From (args : List Str) : Tok → Prop
  | .arg s => s ∈ args
  | .opt _ _ (some v) => ∃ a ∈ args, v <:+ a
  | _ => True

theorem meant_from {s : Str} {t : Tok} (h : t ∈ meant s) : Tok.From [s] t := by
  unfold meant at h
  split_ifs at h with h1 h2
  · simp only [List.mem_map, List.mem_filter] at h
    obtain ⟨q, -, rfl⟩ := h
    exact ⟨s, by simp, (List.drop_suffix _ _).trans (List.dropWhile_suffix _)⟩
  · simp only [List.mem_map, List.mem_filter] at h
    obtain ⟨q, -, rfl⟩ := h
    trivial
  · simp only [List.mem_filterMap] at h
    obtain ⟨q, -, h⟩ := h
    split_ifs at h
    · obtain rfl := Option.some.inj h
      exact ⟨s, by simp, List.drop_suffix _ _⟩
    · obtain rfl := Option.some.inj h
      trivial

theorem classifyOpt_from {s : Str} {t : Tok} (h : classifyOpt s = .ok t) : Tok.From [s] t := by
  unfold classifyOpt at h
  split at h
  · split_ifs at h <;> (obtain rfl := Except.ok.inj h; simp [Tok.From])
  · rename_i t' hm
    obtain rfl := Except.ok.inj h
    exact meant_from (by rw [hm]; simp)
  · cases h

theorem classify_from {s : Str} {t : Tok} (h : classify s = .ok t) : Tok.From [s] t := by
  unfold classify at h
  split at h
  · obtain rfl := Except.ok.inj h; simp [Tok.From]
  · split at h
    · obtain rfl := Except.ok.inj h; trivial
    · split at h
      · obtain rfl := Except.ok.inj h; simp [Tok.From]
      · split at h
        · split at h
          · obtain rfl := Except.ok.inj h
            exact ⟨s, by simp, (List.drop_suffix _ _).trans (List.dropWhile_suffix _)⟩
          · exact classifyOpt_from h
        · exact classifyOpt_from h

theorem Tok.From.mono {l l' : List Str} (h : ∀ s ∈ l, s ∈ l') {t : Tok} (ht : Tok.From l t) : Tok.From l' t := by
  cases t with
  | arg s => exact h s ht
  | dashes => trivial
  | opt a n v =>
    cases v with
    | none => trivial
    | some v =>
      obtain ⟨a, h1, h2⟩ := ht
      exact ⟨a, h a h1, h2⟩

theorem tokens_from : ∀ {l : List Str} {ts : List Tok}, tokens l = .ok ts → ∀ t ∈ ts, Tok.From l t
  | [], ts, h, t, ht => by
    obtain rfl := Except.ok.inj h
    cases ht
  | s :: l, ts, h, t, ht => by
    unfold tokens at h
    split_ifs at h with hs
    · obtain rfl := Except.ok.inj h
      rcases List.mem_cons.1 ht with rfl | ht
      · trivial
      · obtain ⟨x, hx, rfl⟩ := List.mem_map.1 ht
        exact List.mem_cons_of_mem _ hx
    · cases hc : classify s with
      | error e => rw [hc] at h; cases h
      | ok t' =>
        rw [hc] at h
        cases hr : tokens l with
        | error e => rw [hr] at h; cases h
        | ok ts' =>
          rw [hr] at h
          obtain rfl := Except.ok.inj h
          rcases List.mem_cons.1 ht with rfl | ht
          · exact (classify_from hc).mono (by simp)
          · exact (tokens_from hr t ht).mono fun x hx => List.mem_cons_of_mem _ hx

/-- What has been understood comes from the arguments. -/
def SaidIn (sh : Shell) (args : List Str) (st : St) : Prop :=
  (∀ s, st.config = some s → sh.isFile s = true ∧ s ∈ args) ∧
  (st.opts.numWorkers = 1 ∨ ∃ a ∈ args, ∃ t, t <:+ a ∧ sh.toInt t = some st.opts.numWorkers) ∧
  (st.opts.scheduler = "distributed" ∨ ∃ a ∈ args, ∃ t, t <:+ a ∧ st.opts.scheduler = String.ofList t)

theorem consume_said {sh : Shell} {args : List Str} : ∀ (ts : List Tok) (used : Bool) (st st' : St), (∀ t ∈ ts, Tok.From args t) →
    consume sh ts used st = .ok st' → SaidIn sh args st → SaidIn sh args st'
  | [], _, st, st', _, h, hs => by
    unfold consume at h
    obtain rfl := Except.ok.inj h
    exact hs
  | t :: ts, true, st, st', ht, h, hs => by
    unfold consume at h
    exact consume_said ts false st st' (fun x hx => ht x (List.mem_cons_of_mem _ hx)) h hs
  | t :: ts, false, st, st', ht, h, hs => by
    unfold consume at h
    cases h1 : step sh t ts st with
    | error e => rw [h1] at h; cases h
    | ok r =>
      obtain ⟨st1, used⟩ := r
      rw [h1] at h
      simp only [bind, Except.bind] at h
      refine consume_said ts used st1 st' (fun x hx => ht x (List.mem_cons_of_mem _ hx)) h ?_
      obtain ⟨s1, s2, s3⟩ := hs
      rcases step_ok h1 with ⟨-, e⟩ | ⟨-, e, -⟩ | ⟨s, e, hf, -, e', -⟩ | ⟨a, n, v, s, e, k1, -, k3, k4, -⟩
      · rw [e]; exact ⟨s1, s2, s3⟩
      · rw [e]; exact ⟨s1, s2, s3⟩
      · rw [e']
        refine ⟨fun x hx => ?_, s2, s3⟩
        obtain rfl := Option.some.inj hx
        exact ⟨hf, by rw [e] at ht; exact ht (.arg s) (by simp)⟩
      · have src : ((∃ w, v = some w ∧ s <:+ w) ∨ .arg s ∈ ts) → ∃ a ∈ args, s <:+ a := by
          rintro (⟨w, rfl, hw⟩ | hm)
          · obtain ⟨a', ha, hw'⟩ := ht (.opt (some a) n (some w)) (by simp [e])
            exact ⟨a', ha, hw.trans hw'⟩
          · exact ⟨s, ht (.arg s) (by simp [hm]), List.suffix_refl _⟩
        refine ⟨by rw [k1]; exact s1, ?_, ?_⟩
        · rcases k3 with k3 | ⟨k3, hm⟩
          · rw [k3]; exact s2
          · obtain ⟨a', ha, hw⟩ := src hm
            exact Or.inr ⟨a', ha, s, hw, k3⟩
        · rcases k4 with k4 | ⟨k4, hm⟩
          · rw [k4]; exact s3
          · obtain ⟨a', ha, hw⟩ := src hm
            exact Or.inr ⟨a', ha, s, hw, k4⟩

/-- **C104**: what is understood has been said: the file is an argument and exists; number of workers and scheduler are the defaults or
the end of an argument. -/
theorem C104_said (sh : Shell) (args : List Str) {s : Str} {o : Opts} (h : parse sh args = .ok (s, o)) :
    s ∈ args ∧ sh.isFile s = true ∧
    (o.numWorkers = 1 ∨ ∃ a ∈ args, ∃ t, t <:+ a ∧ sh.toInt t = some o.numWorkers) ∧
    (o.scheduler = "distributed" ∨ ∃ a ∈ args, ∃ t, t <:+ a ∧ o.scheduler = String.ofList t) := by
  unfold parse at h
  cases ht : tokens args with
  | error e => rw [ht] at h; cases h
  | ok ts =>
    rw [ht] at h
    simp only [bind, Except.bind] at h
    cases hc : consume sh ts false {} with
    | error e => rw [hc] at h; cases h
    | ok st =>
      rw [hc] at h
      simp only at h
      split at h
      · cases h
      · rename_i s' hs'
        split_ifs at h
        simp only [pure, Except.pure, Except.ok.injEq, Prod.mk.injEq] at h
        obtain ⟨e1, e2⟩ := h
        subst e1 e2
        obtain ⟨k1, k2, k3⟩ := consume_said ts false {} st (tokens_from ht) hc
          ⟨fun s hs => (by cases hs), Or.inl rfl, Or.inl rfl⟩
        obtain ⟨q1, q2⟩ := k1 _ hs'
        exact ⟨q2, q1, k2, k3⟩

/-! ### Examples -/

namespace CliExample

def sh : Shell := ⟨fun s => decide (s = "run.conf".toList), fun s => if s = "4".toList then some 4 else none⟩

example : parse sh ["-vn".toList, "4".toList, "run.conf".toList] = .ok ("run.conf".toList, ⟨"distributed", 4, true⟩) := rfl
example : parse sh ["run.conf".toList, "--sch=threads".toList, "-n=4".toList] = .ok ("run.conf".toList, ⟨"threads", 4, false⟩) := rfl
/-- `--ver` may be `--verbose` or `--version`. -/
example : parse sh ["--ver".toList, "run.conf".toList] = .error .usage := rfl
example : parse sh ["run.conf".toList, "--workers".toList] = .error .usage := rfl
example : parse sh ["other.conf".toList] = .error .noFile := rfl
example : Spelled sh ["-vn".toList, "4".toList] [.verbose, .workers 4] := .apartLetters 0 (.workers rfl) (.inl (by decide))
example : Unknown "--workers".toList := ⟨by decide, by decide, .inr ⟨_, _, rfl, by decide⟩⟩
example : Unknown "-w".toList := ⟨by decide, by decide, .inl ⟨_, _, rfl, by decide, by rw [← negative_iff]; decide⟩⟩
/-- A point without digits behind it makes no number. -/
example : Unknown "-.".toList ∧ Unknown "-.5x".toList ∧ Bare "-1.5".toList := by
  refine ⟨⟨by decide, by decide, .inl ⟨_, _, rfl, by decide, ?_⟩⟩, ⟨by decide, by decide, .inl ⟨_, _, rfl, by decide, ?_⟩⟩,
    .inr (.inr ?_)⟩ <;> rw [← negative_iff] <;> decide
example : parse sh ["run.conf".toList, "--verbose=n4".toList] = .error .usage := rfl

end CliExample

end Verif.Props
