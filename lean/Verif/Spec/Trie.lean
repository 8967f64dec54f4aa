import Verif.Model.Trie
/-! # Specification: a string map -/
namespace Gsm.Spec
variable {V : Type}

/-- An abstract map. -/
abbrev SMap (V : Type) := List Nat → Option V

/-- Effect of an operation on the abstract map (deleting an absent key changes nothing). -/
def mapRun : TrieOp V → SMap V → SMap V
  | .set k v, m => fun k' => if k' = k then some v else m k'
  | .del k, m => fun k' => if k' = k then none else m k'

/-- `k'` is a proper extension of `k`. -/
def Extends (k k' : List Nat) : Prop := k <+: k' ∧ k' ≠ k

/-- A history in which no key is stored while a proper extension of it is stored. -/
def SafeFrom : SMap V → List (TrieOp V) → Prop
  | _, [] => True
  | m, .set k v :: ops => (∀ k', m k' ≠ none → ¬ Extends k k') ∧ SafeFrom (mapRun (.set k v) m) ops
  | m, .del k :: ops => SafeFrom (mapRun (.del k) m) ops

/-- The map after a history. -/
def mapOf (ops : List (TrieOp V)) : SMap V := ops.foldl (fun m o => mapRun o m) (fun _ => none)

/-- `r` is the longest common prefix of the keys satisfying `K`. -/
def IsLcp (K : List Nat → Prop) (r : List Nat) : Prop :=
  (∀ k, K k → r <+: k) ∧ ∀ r', (∀ k, K k → r' <+: k) → r' <+: r

end Gsm.Spec
