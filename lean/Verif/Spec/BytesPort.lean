import Verif.Model.BytesPort
/-! # Specification: ports for text and ports for bytes -/
namespace Gsm.Spec

/-- The port gives text: single characters, or nothing after a timeout (Python 2). -/
def TextPort (es : List PortEvent) : Prop := ∀ data more, PortEvent.read data more ∈ es → data = .str [] ∨ ∃ c, data = .str [c]

/-- The port gives bytes (Python 3). -/
def BytesPort (es : List PortEvent) : Prop := ∀ data more, PortEvent.read data more ∈ es → ∃ b, data = .bytes b

/-- What arrives at a text port, and what else happens. -/
def serialEvents : List PortEvent → List SEvent
  | [] => []
  | .read (.str [c]) more :: es => .rx c more :: serialEvents es
  | .read _ _ :: es => serialEvents es
  | .write expected :: es => .start expected :: serialEvents es
  | .finish :: es => .finish :: serialEvents es
  | .expire :: es => .expire :: serialEvents es
  | .fail :: es => .fail :: serialEvents es

/-- The same characters from a port for bytes. -/
def asBytes : PortEvent → PortEvent
  | .read (.str s) more => .read (.bytes s) more
  | e => e

/-- What is read before the port fails. -/
def readUntilFail : List PortEvent → List Piece
  | [] => []
  | .read data _ :: es => data :: readUntilFail es
  | .fail :: _ => []
  | _ :: es => readUntilFail es

/-- How often `write` is called. -/
def writes : List PortEvent → Nat
  | [] => 0
  | .write _ :: es => writes es + 1
  | _ :: es => writes es

end Gsm.Spec
