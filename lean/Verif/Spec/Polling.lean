import Verif.Spec.Coverage
/-! # Specification: polling the status of an outgoing call -/
namespace Gsm.Spec

/-- A line of the list of calls (27.007, 7.18): id, direction (0: outgoing), state and mode of a call. -/
def CallLine (line : PyStr) (id dir stat mode : Nat) : Prop :=
  ∃ b ds m num ton t, line = py!"+CLCC:" ++ b ++ ds ++ py!"," ++ [48 + dir] ++ py!"," ++ [48 + stat] ++ py!"," ++ [48 + mode] ++ py!"," ++ [m] ++ py!",\"" ++ num ++ py!"\"," ++ ton ++ t ∧
    b ≠ [] ∧ Spaces b ∧ Digits ds ∧ decVal ds = id ∧ dir ≤ 9 ∧ stat ≤ 9 ∧ mode ≤ 9 ∧ m ≠ 44 ∧ 44 ∉ num ∧ Digits ton ∧ (t = [] ∨ t = [10])

/-- What a query of the list of calls shows: its first call, or none. -/
inductive Seen
  | call (id dir stat mode : Nat)
  | nothing
  deriving DecidableEq

/-- The answer shows this. A query that is not answered in time shows nothing. -/
def Shows : Reply → Seen → Prop
  | .lines (l :: _), .call id dir stat mode => CallLine l id dir stat mode
  | .lines (l :: _), .nothing => ∀ id dir stat mode, ¬ CallLine l id dir stat mode
  | .timeout _, .nothing => True
  | _, _ => False

/-- One query that shows `o`. -/
def Queried (reply : List PyStr → Reply) (old log : List PyStr) (o : Seen) : Prop :=
  (Transmission reply [py!"AT+CLCC\r"] old log true ∧ Shows (reply log) o) ∨
  (Transmission reply [py!"AT+CLCC\r"] old log false ∧ (∃ d, reply log = .timeout d) ∧ o = .nothing)

/-- A query that fails. -/
def QueryFails (reply : List PyStr → Reply) (old log : List PyStr) : Prop :=
  Transmission reply [py!"AT+CLCC\r"] old log false ∧ ∀ d, reply log ≠ .timeout d

/-- What is known of the call. -/
inductive Phase
  | waiting
  | ringing (id : Nat)
  | talking (id : Nat)
  | over
  deriving DecidableEq

/-- What is reported. -/
inductive Report
  | initiated (id mode : Nat)
  | answered (id : Nat)
  | ended (id : Nat)
  | rejected (id : Nat)
  deriving DecidableEq

/-- One step. -/
def Phase.step : Phase → Seen → Phase × Option Report
  | .waiting, .call id 0 2 mode => (.ringing id, some (.initiated id mode))
  | .waiting, .call id 0 3 mode => (.ringing id, some (.initiated id mode))
  | .ringing _, .call id 0 0 _ => (.talking id, some (.answered id))
  | .ringing id, .nothing => (.over, some (.rejected id))
  | .talking id, .nothing => (.over, some (.ended id))
  | p, _ => (p, none)

/-- The reports of a run. -/
def Phase.reports : Phase → List Seen → List Report
  | _, [] => []
  | p, o :: os => (p.step o).2.toList ++ (p.step o).1.reports os

/-- `InOrder rs os`: the reports `rs` are made in order, each at most once, on seeing `os`. -/
inductive InOrder : List Report → List Seen → Prop
  | nothing : InOrder [] []
  | initiated {id mode stat} : (stat = 2 ∨ stat = 3) → InOrder [.initiated id mode] [.call id 0 stat mode]
  | rejected {id mode stat} : (stat = 2 ∨ stat = 3) → InOrder [.initiated id mode, .rejected id] [.call id 0 stat mode, .nothing]
  | answered {id mode stat id' mode'} : (stat = 2 ∨ stat = 3) → InOrder [.initiated id mode, .answered id'] [.call id 0 stat mode, .call id' 0 0 mode']
  | ended {id mode stat id' mode'} : (stat = 2 ∨ stat = 3) →
    InOrder [.initiated id mode, .answered id', .ended id'] [.call id 0 stat mode, .call id' 0 0 mode', .nothing]

end Gsm.Spec
