import Verif.Spec.Dial
/-! # Specification: incoming calls -/
namespace Gsm.Spec

/-- A telephone number as modems write it. -/
def PlainNumber (n : PyStr) : Prop := Digits n ∨ ∃ d, n = 43 :: d ∧ Digits d

/-- A line with the number of the caller and the type of the number (27.007, 7.6); more may follow. -/
def ClipLine (line number ton : PyStr) : Prop :=
  ∃ b junk t, line = py!"+CLIP:" ++ (b ++ (py!"\"" ++ (number ++ (py!"\"," ++ (ton ++ (junk ++ t)))))) ∧
    Spaces b ∧ PlainNumber number ∧ Digits ton ∧ (∀ c, junk.head? = some c → ¬ (48 ≤ c ∧ c ≤ 57)) ∧ 10 ∉ junk ∧ LineEnd t

/-- The caller, from the line after the one that rings. -/
inductive Caller (s : St) : List PyStr → Option PyStr → Option PyStr → Prop
  | known {line rest number ton} : s.callingLineIdentification = true → ClipLine line number ton → Caller s (line :: rest) (some number) (some ton)
  | unknown {line rest} : s.callingLineIdentification = true → (∀ number ton, ¬ ClipLine line number ton) → Caller s (line :: rest) none none
  | missing : Caller s [] none none
  | off {lines} : s.callingLineIdentification = false → Caller s lines none none

/-- The modem's answer to the last command is that it failed, for another reason than being busy. -/
def RefusedCommand (reply : List PyStr → Reply) (log : List PyStr) : Prop :=
  ∃ ls line, reply log = .lines ls ∧ ls.getLast? = some line ∧ (py!"ERROR" <:+: line ∨ line = py!"COMMAND NOT SUPPORT") ∧ ∀ n, ¬ Busy n line

/-- The type of the call, in the line that rings. If it is expected but missing, the modem is told to give it. -/
inductive RingType (env : Env) (s : St) (line : PyStr) : Except PyErr (Option PyStr) → St → Prop
  | off : s.extendedIncomingCallIndication = false → RingType env s line (.ok none) s
  | type {a t} : s.extendedIncomingCallIndication = true → line = a ++ 32 :: t → 32 ∉ a → RingType env s line (.ok (some t)) s
  | again {l w} : s.extendedIncomingCallIndication = true → 32 ∉ line → Transmission env.reply [py!"AT+CRC=1\r"] s.log l true →
      RingType env s line (.ok none) { s with log := l, writeWait := w }
  | giveUp {l w} : s.extendedIncomingCallIndication = true → 32 ∉ line → Transmission env.reply [py!"AT+CRC=1\r"] s.log l false →
      RefusedCommand env.reply l → RingType env s line (.ok none) { s with log := l, writeWait := w, extendedIncomingCallIndication := false }
  | fails {l w e} : s.extendedIncomingCallIndication = true → 32 ∉ line → Transmission env.reply [py!"AT+CRC=1\r"] s.log l false →
      ¬ RefusedCommand env.reply l → RingType env s line (.error e) { s with log := l, writeWait := w }

/-- The calls of the table with this number (or without number). -/
def callsFrom (s : St) (number : Option PyStr) : List Nat := (s.activeCalls.map (·.2)).filter fun i => (s.calls[i]?).any (·.number == number)

/-- Is the call incoming? -/
def IsIncoming (s : St) (i : Nat) : Bool := (s.calls[i]?).any (·.incoming)

/-- These calls ring once more. -/
def ringMore (s : St) (is : List Nat) : St :=
  { s with calls := s.calls.mapIdx fun i c => if i ∈ is then { c with ringCount := c.ringCount + 1 } else c }

/-- The new call. -/
def newIncoming (number ton : Option PyStr) (id : Int) (voice : Bool) : CallObj :=
  { incoming := true, id := id, type := if voice then some 0 else none, number := number, ton := ton, answered := false, active := true, ringing := true, ringCount := 1, callback := false }

/-- What a ring does: the calls from the same number ring once more, and the callback gets the last of them;
if there is none, it gets a new call. -/
inductive Rung (s : St) (number ton type : Option PyStr) : Except PyErr Unit → St → Prop
  | more {j} : (callsFrom s number).getLast? = some j → (∀ i ∈ callsFrom s number, IsIncoming s i = true) →
      Rung s number ton type (.ok ()) { ringMore s (callsFrom s number) with callbacks := .incomingCall j :: s.callbacks }
  /-- we dialled this number ourselves -/
  | ours {is j js} : callsFrom s number = is ++ j :: js → (∀ i ∈ is, IsIncoming s i = true) → IsIncoming s j = false →
      Rung s number ton type (.error .attributeError) (ringMore s is)
  | new : callsFrom s number = [] → type = none →
      Rung s number ton type (.ok ()) { addCall s (newIncoming number ton (s.activeCalls.length + 1) false) with callbacks := .incomingCall s.calls.length :: s.callbacks }
  | newVoice : callsFrom s number = [] → type = some py!"VOICE" →
      Rung s number ton type (.ok ()) { addCall s (newIncoming number ton (s.activeCalls.length + 1) true) with callbacks := .incomingCall s.calls.length :: s.callbacks }
  | otherType {t} : callsFrom s number = [] → type = some t → t ≠ py!"VOICE" → Rung s number ton type (.error .keyError) s

end Gsm.Spec
