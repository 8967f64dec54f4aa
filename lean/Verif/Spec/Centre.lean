import Verif.Spec.Delivery
/-! # Specification: the message centre and what the program knows of it

The message centre gets messages in parts, and each part has a reference, one of 256 (23.040, 9.2.3.6). Later
it reports on each part, naming it only by the reference. -/
namespace Gsm.Spec

/-- A part that was given to the message centre. -/
structure Posted where
  /-- the message to which it belongs, by the place of its object; `none` if the program was not told that it was sent -/
  message : Option Nat
  /-- whether it is the last part of its message -/
  last : Bool
  reference : Nat
  /-- the result (23.040, 9.2.3.15) in the last report on it that the program got -/
  told : Option Nat
  deriving DecidableEq

/-- The parts of a message: the modem has given these references to them. -/
def posted (message : Option Nat) (refs : List Nat) (reference : Nat) : List Posted :=
  refs.map (fun r => ⟨message, false, r, none⟩) ++ [⟨message, true, reference, none⟩]

/-- The parts of a message that failed half-way. -/
def halfPosted (refs : List Nat) : List Posted := refs.map fun r => ⟨none, false, r, none⟩

/-- The answer of the modem to the last part of a message (27.005, 3.5.1). -/
def GivesReference (ls : List PyStr) (reference : Nat) : Prop :=
  ∃ pre post, ls = pre ++ (py!"+CMGS: " ++ decStr reference) :: post ∧ ∀ l ∈ pre, ¬ py!"+CMGS:" <+: l

/-- The first recognised line of a batch announces a report, which is then fetched without failure. -/
def Brings (env : Env) (s : St) (batch : List PyStr) (reference result : Int) : Prop :=
  (handleNotification batch env s).1 = .ok () ∧ ∃ pre line post report s1, batch = pre ++ line :: post ∧ (∀ l ∈ pre, ∀ d, ¬ Announces (callTable s.callStatusUpdates) l d) ∧
    Announces (callTable s.callStatusUpdates) line .cdsi ∧ ReportFetched env s line reference result report s1

/-- No later part has the reference of this one. -/
def Newest (C : List Posted) (p : Nat) : Prop :=
  ∀ (x y : Posted) (q : Nat), C[p]? = some x → p < q → C[q]? = some y → y.reference ≠ x.reference

/-- Work that neither sends messages nor waits. -/
inductive NoMessages : Op → Prop
  | setTextMode {v} : NoMessages (.setTextMode v)
  | setSmsc {n} : NoMessages (.setSmsc n)
  | getSmsc : NoMessages .getSmsc
  | signalStrength : NoMessages .signalStrength
  | networkName : NoMessages .networkName
  | imei : NoMessages .imei
  | read {i m} : NoMessages (.read i m)
  | delete {i m} : NoMessages (.delete i m)
  | deleteMultiple {f m} : NoMessages (.deleteMultiple f m)
  | list {st m d} : NoMessages (.list st m d)
  | process {u} : NoMessages (.process u)
  | ussdCancel {u} : NoMessages (.ussdCancel u)
  | answer {i} : NoMessages (.answer i)
  | hangup {i} : NoMessages (.hangup i)
  | dtmf {i t} : NoMessages (.dtmf i t)

/-- What the centre and the program do. -/
inductive PostStep [PyUnicode] (env : Env) (C : List Posted) (s : St) : List Posted → St → Prop
  | sent {destination text flash i s' ls refs reference} : sendSms destination text flash env s = (.ok i, s') →
      env.reply s'.log = .lines ls → GivesReference ls reference → PostStep env C s (C ++ posted (some i) refs reference) s'
  /-- some of the parts may have been sent -/
  | failed {destination text flash e s' refs} : sendSms destination text flash env s = (.error e, s') → PostStep env C s (C ++ halfPosted refs) s'
  /-- a report on the part `p` -/
  | reported {batch p x result} : C[p]? = some x → Newest C p → Brings env s batch x.reference (result : Nat) →
      PostStep env C s (C.set p { x with told := some result }) (handleNotification batch env s).2
  /-- a report on a message of somebody else -/
  | foreign {batch reference result} : (∀ x ∈ C, (x.reference : Int) ≠ reference) → Brings env s batch reference result →
      PostStep env C s C (handleNotification batch env s).2
  /-- any other notification, also one of a report that cannot be fetched -/
  | news {batch} : (∀ reference result, ¬ Brings env s batch reference result) → PostStep env C s C (handleNotification batch env s).2
  | poll {k} : PostStep env C s C ((Event.poll k).run env s).2
  /-- `sendSms` begins or ends to wait for a report -/
  | waits {v} : PostStep env C s C { s with smsStatusReportEvent := v }
  | other {op} : NoMessages op → PostStep env C s C (op.run env s).2

/-- A history. -/
inductive PostLife [PyUnicode] (env : Env) : List Posted → St → List Posted → St → Prop
  | start {C s} : PostLife env C s C s
  | next {C s C1 s1 C2 s2} : PostStep env C s C1 s1 → PostLife env C1 s1 C2 s2 → PostLife env C s C2 s2

/-- The status that belongs to this: 0 en route, 1 delivered, 2 failed. -/
def statusTold : Option Nat → Nat
  | none => 0
  | some 0 => 1
  | some _ => 2

/-- The part `p` is the last of the message `k`. -/
def Closes (C : List Posted) (p k : Nat) : Prop := ∃ x, C[p]? = some x ∧ x.message = some k ∧ x.last = true

/-- Modems count the references. -/
def Counted (C : List Posted) : Prop :=
  ∀ (p : Nat) (x y : Posted), C[p]? = some x → C[p + 1]? = some y → y.reference = (x.reference + 1) % 256

/-- The reference of this part is not used again for a part that is not the last of its message. -/
def Undisturbed (C : List Posted) (p : Nat) : Prop :=
  ∀ (x y : Posted) (q : Nat), C[p]? = some x → p < q → C[q]? = some y → y.reference = x.reference → y.last = true

end Gsm.Spec
