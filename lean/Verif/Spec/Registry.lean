import Verif.Model.Registry

/-! # Whose type name it is -/

namespace Verif

/-- After the declarations in `pre`, the class of `d` is meant to be found under the type name `n`: it is
declared for deserialization and `n` is the first of its type names. -/
def Claims (pre : List TypeDecl) (d : TypeDecl) (n : PyStr) : Prop :=
  d.rehydrate = true ∧ ((Registry.load {} pre).namesOf d).head? = some n

/-- Among the declarations `ds`, `d` is the first to claim `n`. -/
def FirstClaim (ds : List TypeDecl) (d : TypeDecl) (n : PyStr) : Prop :=
  ∃ pre post, ds = pre ++ d :: post ∧ Claims pre d n ∧
    ∀ pre' d' post', pre = pre' ++ d' :: post' → ¬ Claims pre' d' n

end Verif
