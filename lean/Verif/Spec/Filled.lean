import Verif.Np.Flt

/-!
# Series without gaps

Independent of the model: what it means that `out` is `raw` with its gaps filled.
-/

namespace Verif.Spec

open Flt

/-- `out` is `raw` with its gaps filled: values that were there are kept, a gap takes the last value before it, gaps
at the beginning take the first value after them. -/
structure Filled {K : Type} (raw out : List (Flt K)) : Prop where
  length : out.length = raw.length
  keep : ∀ (i : Nat) v, raw[i]? = some (fin v) → out[i]? = some (fin v)
  complete : (∃ (i : Nat) (v : K), raw[i]? = some (fin v)) → ∀ i < raw.length, ∃ v, out[i]? = some (fin v)
  before : ∀ (i j : Nat) (v : K), j ≤ i → i < raw.length → raw[j]? = some (fin v) →
    (∀ k, j < k → k ≤ i → raw[k]? = some nan) → out[i]? = some (fin v)
  after : ∀ (i j : Nat) (v : K), i < j → raw[j]? = some (fin v) → (∀ k < j, raw[k]? = some nan) →
    out[i]? = some (fin v)

end Verif.Spec
