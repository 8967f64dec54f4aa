import Verif.Spec.Asked
import Verif.Model.Callbacks
/-! # Specification: what the code of callbacks may send -/
namespace Gsm.Spec

/-- Whatever the outcomes are, the program uses only methods that may send lines of these kinds. -/
inductive UsesOnly (kinds : List Purpose) : UserProg → Prop
  | done : UsesOnly kinds .done
  | raise (e : PyErr) : UsesOnly kinds (.raise e)
  | act {op : Op} {next : Except PyErr Unit → St → UserProg} (hop : ∀ k ∈ opMay op, k ∈ kinds) (hnext : ∀ r s, UsesOnly kinds (next r s)) :
    UsesOnly kinds (.act op next)

end Gsm.Spec
