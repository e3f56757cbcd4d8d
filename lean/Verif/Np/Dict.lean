import Verif.Np.Basic

/-!
# Python dictionaries

`dict` / `OrderedDict` as insertion-ordered association lists.
-/

namespace Verif

/-- An insertion-ordered dictionary. -/
abbrev Dict (κ α : Type) := List (κ × α)

namespace Dict

variable {κ α β : Type} [DecidableEq κ]

/-- `d.get(k)`. -/
def get? (d : Dict κ α) (k : κ) : Option α :=
  match d with
  | [] => none
  | (k', v) :: d => if k' = k then some v else get? d k

/-- `d[k]`, raising `KeyError`. -/
def get (d : Dict κ α) (k : κ) : Except PyErr α :=
  match get? d k with
  | some v => .ok v
  | none => .error .keyError

/-- `d[k] = v`: overwrite in place or append. -/
def set (d : Dict κ α) (k : κ) (v : α) : Dict κ α :=
  match d with
  | [] => [(k, v)]
  | (k', v') :: d => if k' = k then (k', v) :: d else (k', v') :: set d k v

/-- `d.update(e)`. -/
def update (d e : Dict κ α) : Dict κ α := e.foldl (fun d p => set d p.1 p.2) d

/-- `OrderedDict(items)` / `dict(items)`: later duplicates overwrite. -/
def ofItems (e : List (κ × α)) : Dict κ α := update [] e

/-- `d.keys()`. -/
def keys (d : Dict κ α) : List κ := d.map Prod.fst

@[simp] theorem get?_nil (k : κ) : get? ([] : Dict κ α) k = none := rfl
theorem get?_cons (p : κ × α) (d : Dict κ α) (k : κ) :
    get? (p :: d) k = if p.1 = k then some p.2 else get? d k := rfl

theorem get?_set (d : Dict κ α) (k k' : κ) (v : α) :
    get? (set d k v) k' = if k = k' then some v else get? d k' := by
  induction d with
  | nil => simp [set, get?_cons]
  | cons p d ih =>
    obtain ⟨k₀, v₀⟩ := p
    by_cases h : k₀ = k
    · subst h; simp only [set, if_true, get?_cons]
      by_cases h' : k₀ = k' <;> simp [h']
    · simp only [set, h, if_false, get?_cons, ih]
      by_cases h' : k₀ = k'
      · subst h'; simp [Ne.symm h]
      · simp [h']

@[simp] theorem get?_set_self (d : Dict κ α) (k : κ) (v : α) : get? (set d k v) k = some v := by
  simp [get?_set]

theorem get?_set_ne (d : Dict κ α) {k k' : κ} (v : α) (h : k ≠ k') :
    get? (set d k v) k' = get? d k' := by simp [get?_set, h]

@[simp] theorem update_nil (d : Dict κ α) : update d [] = d := rfl
@[simp] theorem update_cons (d : Dict κ α) (p : κ × α) (e : Dict κ α) :
    update d (p :: e) = update (set d p.1 p.2) e := rfl

theorem get?_eq_none_iff (d : Dict κ α) (k : κ) : get? d k = none ↔ k ∉ keys d := by
  induction d with
  | nil => simp [keys]
  | cons p d ih =>
    rw [get?_cons]
    by_cases h : p.1 = k
    · simp [h, keys]
    · simp only [h, if_false, ih, keys, List.map_cons, List.mem_cons, not_or]
      constructor
      · intro h'; exact ⟨fun e => h e.symm, h'⟩
      · exact fun h' => h'.2

theorem get?_of_mem (d : Dict κ α) (hd : (keys d).Nodup) {k : κ} {v : α} (h : (k, v) ∈ d) :
    get? d k = some v := by
  induction d with
  | nil => simp at h
  | cons p d ih =>
    simp only [keys, List.map_cons, List.nodup_cons] at hd
    rw [get?_cons]
    rcases List.mem_cons.1 h with h | h
    · subst h; simp
    · have : p.1 ≠ k := by
        rintro rfl
        exact hd.1 (List.mem_map.2 ⟨(p.1, v), h, rfl⟩)
      simp [this, ih hd.2 h]

theorem mem_of_get? (d : Dict κ α) {k : κ} {v : α} (h : get? d k = some v) : (k, v) ∈ d := by
  induction d with
  | nil => simp at h
  | cons p d ih =>
    rw [get?_cons] at h
    by_cases h' : p.1 = k
    · simp only [h', if_true, Option.some.injEq] at h
      obtain ⟨a, b⟩ := p
      simp only at h' h
      simp [h', h]
    · simp only [h', if_false] at h
      exact List.mem_cons_of_mem _ (ih h)

theorem get?_update_of_not_mem (e d : Dict κ α) {k : κ} (h : k ∉ keys e) :
    get? (update d e) k = get? d k := by
  induction e generalizing d with
  | nil => rfl
  | cons p e ih =>
    simp only [keys, List.map_cons, List.mem_cons, not_or] at h
    rw [update_cons, ih _ h.2, get?_set_ne _ _ (fun e => h.1 e.symm)]

/-- `update` with a dictionary (distinct keys): its entries win, all others stay. -/
theorem get?_update (d e : Dict κ α) (he : (keys e).Nodup) (k : κ) :
    get? (update d e) k = (match get? e k with | some v => some v | none => get? d k) := by
  induction e generalizing d with
  | nil => rfl
  | cons p e ih =>
    simp only [keys, List.map_cons, List.nodup_cons] at he
    rw [update_cons, get?_cons]
    by_cases h : p.1 = k
    · subst h
      rw [get?_update_of_not_mem _ _ he.1]
      simp
    · rw [ih _ he.2]
      simp only [h, if_false, get?_set_ne _ _ h]

theorem mem_keys_set (d : Dict κ α) (k : κ) (v : α) (x : κ) :
    x ∈ keys (set d k v) ↔ x = k ∨ x ∈ keys d := by
  induction d with
  | nil => simp [set, keys]
  | cons p d ih =>
    obtain ⟨a, b⟩ := p
    by_cases h : a = k
    · subst h; simp [set, keys]
    · simp only [set, h, if_false]
      simp only [keys, List.map_cons, List.mem_cons] at ih ⊢
      rw [ih]
      tauto

theorem nodup_set (d : Dict κ α) (k : κ) (v : α) (hd : (keys d).Nodup) : (keys (set d k v)).Nodup := by
  induction d with
  | nil => simp [set, keys]
  | cons p d ih =>
    obtain ⟨a, b⟩ := p
    simp only [keys, List.map_cons, List.nodup_cons] at hd
    by_cases h : a = k
    · simp only [set, h, if_true, keys, List.map_cons, List.nodup_cons]
      exact ⟨h ▸ hd.1, hd.2⟩
    · simp only [set, h, if_false, keys, List.map_cons, List.nodup_cons]
      refine ⟨?_, ih hd.2⟩
      have := mem_keys_set d k v a
      simp only [keys] at this
      rw [this]
      rintro (h' | h')
      · exact h h'
      · exact hd.1 h'

theorem nodup_update (d e : Dict κ α) (hd : (keys d).Nodup) : (keys (update d e)).Nodup := by
  induction e generalizing d with
  | nil => exact hd
  | cons p e ih => exact ih _ (nodup_set _ _ _ hd)

theorem nodup_ofItems (e : List (κ × α)) : (keys (ofItems e)).Nodup :=
  nodup_update _ _ (by simp [keys])

end Dict
end Verif
