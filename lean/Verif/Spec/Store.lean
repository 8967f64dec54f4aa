import Verif.Spec.Delivery
import Mathlib.Data.List.Forall2
/-! # Specification: a modem that keeps messages (27.005, PDU mode)

The modem has memories with numbered places. Messages arrive whenever they like, at any free place. -/
namespace Gsm.Spec
open List

/-- A message on the modem; the state is 0 (received, unread), 1 (received, read), 2 (stored, unsent) or 3 (stored, sent). -/
structure HeldSms where
  memory : PyStr
  place : Nat
  state : Nat
  pdu : PyStr
  deriving DecidableEq

/-- What reading it does not change. -/
def HeldSms.content (x : HeldSms) : PyStr × Nat × PyStr := (x.memory, x.place, x.pdu)
/-- Where it is. -/
def HeldSms.spot (x : HeldSms) : PyStr × Nat := (x.memory, x.place)
/-- It has been read. -/
def HeldSms.seen (x : HeldSms) : HeldSms := if x.state = 0 then { x with state := 1 } else x

/-- The messages on the modem, and the selected memory. -/
structure Shelf where
  memory : PyStr
  slots : List HeldSms

/-- The messages of the selected memory with a state; 4 stands for all. -/
def Shelf.listed (m : Shelf) (k : Nat) : List HeldSms := m.slots.filter fun x => decide (x.memory = m.memory ∧ (k = 4 ∨ x.state = k))
/-- Messages arrive. -/
def Shelf.with (m : Shelf) (new : List HeldSms) : Shelf := { m with slots := m.slots ++ new }
/-- Some messages are read. -/
def Shelf.look (m : Shelf) (p : HeldSms → Bool) : Shelf := { m with slots := m.slots.map fun x => if p x then x.seen else x }
/-- Some messages are deleted. -/
def Shelf.drop (m : Shelf) (p : HeldSms → Bool) : Shelf := { m with slots := m.slots.filter fun x => !p x }
/-- The message at a place of the selected memory. -/
def Shelf.at (m : Shelf) (i : Nat) (x : HeldSms) : Bool := decide (x.memory = m.memory ∧ x.place = i)

/-- The commands that have to do with stored messages. -/
inductive ShelfOrder
  | select (memory : PyStr)
  | list (state : Nat)
  | read (place : Nat)
  | delete (place : Nat)
  | clear (flag : Nat)
  | reset

/-- How they are written. -/
inductive Bids : PyStr → ShelfOrder → Prop
  | select {m} : Quotable m → Bids (py!"AT+CPMS=\"" ++ m ++ py!"\"\r") (.select m)
  | prefer {m rest} : Quotable m → Bids (py!"AT+CPMS=\"" ++ m ++ py!"\"," ++ rest ++ py!"\r") (.select m)
  | list {k} : k ≤ 4 → Bids (py!"AT+CMGL=" ++ decStr k ++ py!"\r") (.list k)
  | read {i} : Digits i → Bids (py!"AT+CMGR=" ++ i ++ py!"\r") (.read (decVal i))
  | delete {i} : Digits i → Bids (py!"AT+CMGD=" ++ i ++ py!",0\r") (.delete (decVal i))
  | clear {f} : 1 ≤ f → f ≤ 4 → Bids (py!"AT+CMGD=1," ++ decStr f ++ py!"\r") (.clear f)
  | reset : Bids py!"ATZ\r" .reset

/-- The states of the messages that a flag of `AT+CMGD` deletes. -/
def cleared : Nat → List Nat
  | 1 => [1]
  | 2 => [1, 3]
  | 3 => [1, 3, 2]
  | _ => [0, 1, 2, 3]

/-- The entry of a listing for a message. -/
def EntryOf (x : HeldSms) (e : PduEntry) : Prop := e.Ok ∧ decVal e.index = x.place ∧ decVal e.status = x.state ∧ e.pdu = x.pdu

/-- How the modem answers such a command, and what becomes of the messages. A listing may have any order. The modem may refuse to select
a memory without messages, and a reset, however it is answered, may select any. -/
inductive Obeys (m : Shelf) : ShelfOrder → Reply → Shelf → Prop
  | select {memory ls} : ls.getLast? = some py!"OK" → Obeys m (.select memory) (.lines ls) { m with memory := memory }
  | refused {memory} : (∀ x ∈ m.slots, x.memory ≠ memory) → Obeys m (.select memory) (.lines [py!"+CMS ERROR: 302"]) m
  | reset {memory r} : Obeys m .reset r { m with memory := memory }
  | list {k shown es} : shown ~ m.listed k → List.Forall₂ EntryOf shown es →
      Obeys m (.list k) (.lines (es.flatMap PduEntry.lines ++ [py!"OK"])) (m.look fun x => decide (x ∈ m.listed k))
  | read {x line status} : x ∈ m.listed 4 → PduHeader line status → pduState status = x.state →
      Obeys m (.read x.place) (.lines [line, x.pdu, py!"OK"]) (m.look (m.at x.place))
  | missing {i} : (∀ x ∈ m.listed 4, x.place ≠ i) → Obeys m (.read i) (.lines [py!"+CMS ERROR: 321"]) m
  | delete {i ls} : ls.getLast? = some py!"OK" → Obeys m (.delete i) (.lines ls) (m.drop (m.at i))
  | clear {f ls} : ls.getLast? = some py!"OK" → Obeys m (.clear f) (.lines ls) (m.drop fun x => decide (x.memory = m.memory ∧ x.state ∈ cleared f))

/-- Any other command is answered as the modem likes, and changes nothing here. -/
inductive Serves (m : Shelf) (c : PyStr) (r : Reply) : Shelf → Prop
  | order {o m'} : Bids c o → Obeys m o r m' → Serves m c r m'
  | other : (∀ o, ¬ Bids c o) → Serves m c r m

/-- The object for a PDU, a received message or a delivery report, with a state. -/
def Carries (pdu : PyStr) (state : Nat) (m : Msg) : Prop :=
  (∃ smsc len number pid time ud, decodeSmsPdu pdu = .ok ⟨smsc, len, .deliver number pid time ud⟩ ∧ m = .received state number time ud.text smsc) ∨
  (∃ smsc len reference number time discharge status, decodeSmsPdu pdu = .ok ⟨smsc, len, .statusReport reference number time discharge status⟩ ∧
    m = .report state reference number time discharge status)

/-- A message or a delivery report. -/
def IsMessage (pdu : PyStr) : Prop := ∃ m, Carries pdu 0 m

/-- The object that is made of a stored message. -/
def MadeInto (x : HeldSms) (m : Msg) : Prop := Carries x.pdu x.state m

/-- The modem keeps messages: `shelf log` are those that it has after the commands of `log`, and `came (c :: log)` are
those that arrive before it obeys the command `c`. -/
structure Keeping (reply : List PyStr → Reply) (shelf : List PyStr → Shelf) (came : List PyStr → List HeldSms) : Prop where
  serves : ∀ c log, Serves ((shelf log).with (came (c :: log))) c (reply (c :: log)) (shelf (c :: log))
  places : ∀ c log, (((shelf log).slots ++ came (c :: log)).map HeldSms.spot).Nodup
  fresh : ∀ log, ∀ x ∈ came log, x.state = 0 ∧ IsMessage x.pdu

/-- What arrives during the last `n` commands. -/
def arrivals (came : List PyStr → List HeldSms) : Nat → List PyStr → List HeldSms
  | n + 1, c :: log => arrivals came n log ++ came (c :: log)
  | _, _ => []

/-- What arrives between two moments. -/
def since (came : List PyStr → List HeldSms) (old new : List PyStr) : List HeldSms := arrivals came (new.length - old.length) new

/-- The received messages on the modem can be read. -/
def Shelf.Sound (m : Shelf) : Prop := ∀ x ∈ m.slots, x.state ≤ 1 → IsMessage x.pdu

/-- The balance: what was there and what arrived is what is there and what has been taken away. -/
def Balance (shelf : List PyStr → Shelf) (came : List PyStr → List HeldSms) (old new : List PyStr) (gone : List HeldSms) : Prop :=
  ((shelf new).slots.map HeldSms.content ++ gone.map HeldSms.content) ~ ((shelf old).slots.map HeldSms.content ++ (since came old new).map HeldSms.content)

/-- The program is in PDU mode and, if it believes that a memory is selected, it is. (What `connect` remembers is no name of a memory: it has quotes.) -/
def Knows (shelf : List PyStr → Shelf) (s : St) : Prop :=
  s.smsTextMode = false ∧ ∀ m, s.smsMemReadDelete = some m → Quotable m → (shelf s.log).memory = m

/-- The messages that the program has been handed, the last one first. -/
def handedOver (s : St) : List Msg := s.callbacks.filterMap fun | .smsReceived m => some m | _ => none

/-- The messages `taken` have been taken off the modem and handed over, each once, and no other message has been. -/
def Delivered (shelf : List PyStr → Shelf) (came : List PyStr → List HeldSms) (s s' : St) (taken : List (HeldSms × Msg)) : Prop :=
  handedOver s' = (taken.map Prod.snd).reverse ++ handedOver s ∧ (∀ p ∈ taken, MadeInto p.1 p.2) ∧
    Balance shelf came s.log s'.log (taken.map Prod.fst)

/-- Nothing in a batch of lines speaks of a delivery report in a memory. -/
def NoReports : Event → Prop
  | .notify lines => ∀ l ∈ lines, ∀ mem idx, ¬ StoredAt py!"+CDSI:" l mem idx
  | .poll _ => True

/-- The memory that is asked for can be asked for. -/
def Nameable (m : Option PyStr) : Prop := ∀ x, m = some x → Quotable x

/-- Operations that neither delete messages for the user nor change to text mode. -/
def Careful : Op → Prop
  | .event e => NoReports e
  | .setTextMode v => v = false
  | .read _ m => Nameable m
  | .delete _ _ => False
  | .deleteMultiple _ _ => False
  | .list _ m d => Nameable m ∧ d = false
  | .sendWait _ _ _ early during => (∀ e ∈ early, NoReports e) ∧ ∀ e ∈ during, NoReports e
  | .ussd _ during => ∀ e ∈ during, NoReports e
  | .ussdReply _ _ during => ∀ e ∈ during, NoReports e
  | .dial _ _ _ during => ∀ e ∈ during, NoReports e
  | _ => True

end Gsm.Spec
