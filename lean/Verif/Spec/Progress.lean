import Verif.Spec.Calls
import Verif.Spec.Coverage
/-! # Specification: what modems say about the progress of calls -/
namespace Gsm.Spec

/-- What a line says. -/
inductive Progress
  | started (id type : Nat)   -- a call that we dial is set up
  | answered (id : Nat)
  | someAnswered              -- without the number of the call
  | ended (id : Nat)
  | someRejected
  deriving DecidableEq

/-- End of a line. -/
def LineEnd (t : PyStr) : Prop := t = [] ∨ t = [10]

/-- What the lines mean on each kind of modem. -/
inductive Says : CallTable → PyStr → Progress → Prop
  | orig {a b t} : a ≤ 9 → b ≤ 9 → LineEnd t → Says .huawei (py!"^ORIG:" ++ ([48 + a] ++ (py!"," ++ ([48 + b] ++ t)))) (.started a b)
  | conn {a b t} : a ≤ 9 → b ≤ 9 → LineEnd t → Says .huawei (py!"^CONN:" ++ ([48 + a] ++ (py!"," ++ ([48 + b] ++ t)))) (.answered a)
  | cend {a b c d t} : a ≤ 9 → b ≤ 9 → Digits c → Digits d → LineEnd t →
      Says .huawei (py!"^CEND:" ++ ([48 + a] ++ (py!"," ++ ([48 + b] ++ (py!"," ++ (c ++ (py!"," ++ (d ++ t)))))))) (.ended a)
  | wind5 {a t} : a ≤ 9 → LineEnd t → Says .wavecom (py!"+WIND: 5," ++ ([48 + a] ++ t)) (.started a 1)
  | wind6 {a t} : a ≤ 9 → LineEnd t → Says .wavecom (py!"+WIND: 6," ++ ([48 + a] ++ t)) (.ended a)
  | wavecomOk {t} : LineEnd t → Says .wavecom (py!"OK" ++ t) .someAnswered
  | connect {t} : LineEnd t → Says .zte (py!"CONNECT" ++ t) .someAnswered
  | hangup {b ds t} : Spaces b → Digits ds → LineEnd t → Says .zte (py!"HANGUP:" ++ (b ++ (ds ++ t))) (.ended (decVal ds))
  | zteOk {t} : LineEnd t → Says .zte (py!"OK" ++ t) .someRejected

/-- The call object is an outgoing call that nobody has answered yet. -/
def Unanswered (s : St) (i : Nat) : Prop := ∃ c, s.calls[i]? = some c ∧ c.incoming = false ∧ c.answered = false

/-- The first such call of the table. -/
def FirstUnanswered (s : St) (k : Int) (i : Nat) : Prop :=
  ∃ before after, s.activeCalls = before ++ (k, i) :: after ∧ Unanswered s i ∧ ∀ e ∈ before, ¬ Unanswered s e.2

/-- The call `i` is answered; its callback, if it has one, is called. -/
def markAnswered (s : St) (i : Nat) (c : CallObj) : St :=
  { s with calls := s.calls.set i { c with answered := true }, callbacks := if c.callback then .callStatus i :: s.callbacks else s.callbacks }

/-- The call `i`, with the id `k`, is over; its callback, if it has one, is called. -/
def markEnded (s : St) (k : Int) (i : Nat) (c : CallObj) : St :=
  { s with
    calls := s.calls.set i { c with answered := false, active := false }
    callbacks := if c.callback then .callStatus i :: s.callbacks else s.callbacks
    activeCalls := s.activeCalls.filter (·.1 ≠ k) }

/-- What that changes. -/
inductive Changes (s : St) : Progress → Except PyErr Unit → St → Prop
  /-- somebody waits in `dial` -/
  | awaited {id type} : s.dialEvent ≠ none →
      Changes s (.started id type) (.ok ()) { s with dialResponse := some ((id : Int), (type : Int)), dialEvent := some true }
  | notAwaited {id type} : s.dialEvent = none → Changes s (.started id type) (.ok ()) s
  | answered {id : Nat} {i c} : ((id : Int), i) ∈ s.activeCalls → s.calls[i]? = some c → Changes s (.answered id) (.ok ()) (markAnswered s i c)
  | unknown {id : Nat} : (∀ i, ((id : Int), i) ∉ s.activeCalls) → Changes s (.answered id) (.error .keyError) s
  | first {k i c} : FirstUnanswered s k i → s.calls[i]? = some c → Changes s .someAnswered (.ok ()) (markAnswered s i c)
  | noneAnswered : (∀ k i, (k, i) ∈ s.activeCalls → ¬ Unanswered s i) → Changes s .someAnswered (.ok ()) s
  | ended {id : Nat} {i c} : id ≠ 0 → ((id : Int), i) ∈ s.activeCalls → s.calls[i]? = some c → Changes s (.ended id) (.ok ()) (markEnded s id i c)
  | notThere {id : Nat} : (id = 0 ∨ ∀ i, ((id : Int), i) ∉ s.activeCalls) → Changes s (.ended id) (.ok ()) s
  | rejected {k i c} : FirstUnanswered s k i → k ≠ 0 → s.calls[i]? = some c → Changes s .someRejected (.ok ()) (markEnded s k i c)
  | zero {i} : FirstUnanswered s 0 i → Changes s .someRejected (.ok ()) s
  | noneRejected : (∀ k i, (k, i) ∈ s.activeCalls → ¬ Unanswered s i) → Changes s .someRejected (.ok ()) s

end Gsm.Spec
