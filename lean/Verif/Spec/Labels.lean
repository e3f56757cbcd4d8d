import Verif.Model.Dataset

/-!
# What a data set says

Vocabulary for statements about reading files: which value a data set gives at which labels, independently of the order
and the positions in which it stores them.
-/

namespace Verif.Dataset

variable {K : Type}

/-- A data set as files and `xarray` have them: names are not used twice, a coordinate has as many labels as the dimension
positions, variables extend along dimensions of the set, and have one value per position on those. -/
structure DS.Wf (ds : DS K) : Prop where
  sizes_nodup : (ds.sizes.map Prod.fst).Nodup
  coords_nodup : (ds.coords.map Prod.fst).Nodup
  vars_nodup : (ds.vars.map Prod.fst).Nodup
  coord_len : ∀ d c, ds.coords.get? d = some c → ds.sizes.get? d = some c.length
  var_dims : ∀ v a, ds.vars.get? v = some a → ∀ d ∈ a.dims, (ds.sizes.get? d).isSome
  own : ∀ v a, ds.vars.get? v = some a → ∀ ix ix' : Index, (∀ d ∈ a.dims, ix d = ix' d) → a.val ix = a.val ix'

/-- The data set says: variable `v` has the value `x` where the labels are `lab`. -/
def DS.Says (ds : DS K) (v : String) (lab : String → ℚ) (x : Flt K) : Prop :=
  ∃ a ix, ds.vars.get? v = some a ∧ (∀ d ∈ a.dims, (ds.labels d)[ix d]? = some (lab d)) ∧ a.val ix = x

/-- No dimension carries a label twice. -/
def DS.Distinct (ds : DS K) : Prop := ∀ d, (ds.labels d).Nodup

end Verif.Dataset
