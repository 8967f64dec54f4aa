import Verif.Model.Terminal
/-! # Specification: what is typed, and how the console hands it over -/
namespace Gsm.Spec

/-- `typed` arrives in these pieces. -/
structure Pieces (typed : PyStr) (cs : List PyStr) : Prop where
  text : cs.flatten = typed
  size : ∀ c ∈ cs, 1 ≤ c.length ∧ c.length ≤ 4

/-- The meaning of the keys: code and key. -/
def keyTable : List (PyStr × Term.Key) :=
  [(py!"\x1d", .exit), (py!"\x04", .exit), (py!"\x1b[D", .left), (py!"\x1b[C", .right), (py!"\x1b[A", .up), (py!"\x1b[B", .down),
   (py!"\n", .enter), (py!"\t", .tab), (py!"\x1a", .ctrlZ), (py!"\x1b", .esc), (py!"\x7f", .backspace), (py!"\x1b[3~", .delete),
   (py!"\x1bOH", .home), (py!"\x1bOF", .toEnd)]

/-- What a modem is to get for a text typed in the raw terminal: up to CTRL+], with carriage returns for
line feeds. -/
def rawText (typed : PyStr) : PyStr := (typed.takeWhile (· ≠ 29)).map fun c => if c = 10 then 13 else c

end Gsm.Spec
