import Verif.Np.Dict
import Verif.Np.Basic

/-!
# Inverting computations that may raise
-/

namespace Verif

theorem bind_ok {ε α β : Type} {x : Except ε α} {f : α → Except ε β} {y : β} :
    (x >>= f) = .ok y ↔ ∃ a, x = .ok a ∧ f a = .ok y := by
  cases x with
  | error e => simp [bind, Except.bind]
  | ok a => simp [bind, Except.bind]

theorem pure_ok {ε α : Type} {a y : α} : (pure a : Except ε α) = .ok y ↔ a = y := by
  simp [pure, Except.pure]

theorem Dict.get_ok {κ α : Type} [DecidableEq κ] {d : Dict κ α} {k : κ} {v : α} :
    Dict.get d k = .ok v ↔ Dict.get? d k = some v := by
  unfold Dict.get
  cases Dict.get? d k <;> simp

theorem mapM_ok {α β : Type} {f : α → Except PyErr β} : ∀ {xs : List α} {ys : List β}, xs.mapM f = .ok ys →
    ys.length = xs.length ∧ ∀ y ∈ ys, ∃ x ∈ xs, f x = .ok y
  | [], ys, h => by
    rw [List.mapM_nil] at h
    injection h with h
    subst h; simp
  | x :: xs, ys, h => by
    rw [List.mapM_cons] at h
    simp only [bind_ok, pure_ok] at h
    obtain ⟨y, hy, zs, hz, rfl⟩ := h
    obtain ⟨h1, h2⟩ := mapM_ok hz
    refine ⟨by simp [h1], fun w hw => ?_⟩
    rcases List.mem_cons.1 hw with rfl | hw
    · exact ⟨x, by simp, hy⟩
    · obtain ⟨x', hx', hf⟩ := h2 w hw
      exact ⟨x', by simp [hx'], hf⟩

theorem mapM_total {α β : Type} {f : α → Except PyErr β} : ∀ {xs : List α}, (∀ x ∈ xs, ∃ y, f x = .ok y) →
    ∃ ys, xs.mapM f = .ok ys
  | [], _ => ⟨[], rfl⟩
  | x :: xs, h => by
    obtain ⟨y, hy⟩ := h x (by simp)
    obtain ⟨ys, hys⟩ := mapM_total (xs := xs) (fun z hz => h z (by simp [hz]))
    refine ⟨y :: ys, ?_⟩
    rw [List.mapM_cons, hy, bind_ok]
    exact ⟨y, rfl, by rw [hys]; rfl⟩

theorem mapM_getElem {α β : Type} {f : α → Except PyErr β} : ∀ {xs : List α} {ys : List β},
    xs.mapM f = .ok ys → ys.length = xs.length ∧
      ∀ (i : Nat) (x : α) (y : β), xs[i]? = some x → ys[i]? = some y → f x = .ok y
  | [], ys, h => by
    rw [List.mapM_nil] at h
    injection h with h
    subst h; simp
  | x :: xs, ys, h => by
    rw [List.mapM_cons] at h
    simp only [bind_ok, pure_ok] at h
    obtain ⟨y, hy, zs, hz, rfl⟩ := h
    obtain ⟨h1, h2⟩ := mapM_getElem hz
    refine ⟨by simp [h1], fun i a b ha hb => ?_⟩
    cases i with
    | zero =>
      simp only [List.getElem?_cons_zero, Option.some.injEq] at ha hb
      subst ha; subst hb; exact hy
    | succ i =>
      rw [List.getElem?_cons_succ] at ha hb
      exact h2 i a b ha hb

theorem mapM_range_ok {β : Type} {f : Nat → Except PyErr β} {n : Nat} {ys : List β}
    (h : (List.range n).mapM f = .ok ys) :
    ys.length = n ∧ ∀ (i : Nat) (y : β), ys[i]? = some y → f i = .ok y := by
  obtain ⟨h1, h2⟩ := mapM_getElem h
  rw [List.length_range] at h1
  refine ⟨h1, fun i y hy => h2 i i y ?_ hy⟩
  have := (List.getElem?_eq_some_iff.1 hy).1
  rw [List.getElem?_range (by omega)]

end Verif
