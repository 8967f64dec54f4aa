import Verif.Spec.Store
import Verif.Spec.TextListing
import Verif.Spec.Serial
/-! # Specification: a modem that keeps messages, in PDU mode and in text mode (27.005)

The modem keeps the octets of messages as in `Verif.Spec.Store`. In PDU mode it shows the octets. In text mode it shows of each message the number of the
sender, the time and the text; how it finds them in the octets is up to it. `AT+CMGF` changes the mode. -/
namespace Gsm.Spec
open List

/-- What is shown of a received message in text mode. -/
structure Letter where
  number : PyStr
  time : PyStr
  text : PyStr

/-- How the modem shows messages in text mode; messages that have not been received are shown without a time, in some other way. -/
abbrev Display := PyStr → Option Letter

/-- A text without a line that ends an answer or that looks like the header of a message. -/
def Innocent (text : PyStr) : Prop := ∀ l ∈ textLines text, ¬ IsHead l ∧ ¬ IsFinal l

/-- It is shown with a time that can be understood, and with an innocent text. -/
def IsLetter (shows : Display) (pdu : PyStr) : Prop := ∃ l, shows pdu = some l ∧ (∃ t, parseTextModeTimeStr l.time = .ok t) ∧ Innocent l.text

/-- The object that is made of a stored message in text mode: the text are its lines. -/
def LetterInto (shows : Display) (x : HeldSms) (m : Msg) : Prop :=
  ∃ l t, shows x.pdu = some l ∧ parseTextModeTimeStr l.time = .ok t ∧ m = .received x.state (some l.number) t ([10].intercalate (textLines l.text)) none

/-- The object that is made of a stored message in a mode. -/
def MadeIn (shows : Display) (text : Bool) (x : HeldSms) (m : Msg) : Prop := if text then LetterInto shows x m else MadeInto x m

/-- An object can be made of it in a mode. -/
def Legible (shows : Display) (text : Bool) (pdu : PyStr) : Prop :=
  if text then ∃ l, shows pdu = some l ∧ ∃ t, parseTextModeTimeStr l.time = .ok t else IsMessage pdu

/-- Nothing of the text is shown in a listing. -/
def Untold (shows : Display) (text : Bool) (x : HeldSms) : Bool := text && match shows x.pdu with
  | some l => textLines l.text = []
  | none => false

/-- The command that chooses a mode. -/
def modeCommand (text : Bool) : PyStr := py!"AT+CMGF=" ++ (if text then py!"1" else py!"0") ++ py!"\r"

/-- How the commands on stored messages are written: in text mode states have names. -/
inductive BidsIn (text : Bool) : PyStr → ShelfOrder → Prop
  | same {c o} : Bids c o → (∀ k, o ≠ .list k) → BidsIn text c o
  | list {k} : text = false → k ≤ 4 → BidsIn text (py!"AT+CMGL=" ++ decStr k ++ py!"\r") (.list k)
  | named {name} {k : Nat} : text = true → (name, (k : Int)) ∈ stateNames → BidsIn text (py!"AT+CMGL=\"" ++ name ++ py!"\"\r") (.list k)

/-- The lines of a listing for a message in text mode. -/
def LetterLines (shows : Display) (x : HeldSms) (ls : List PyStr) : Prop := ∀ l, shows x.pdu = some l →
  ∃ line h, ls = line :: textLines l.text ∧ ListHeader line h ∧ decVal h.index = x.place ∧ (h.status, (x.state : Int)) ∈ stateNames ∧ h.number = l.number ∧ h.time = l.time

/-- The answer for one message in text mode. -/
def LetterAnswer (shows : Display) (x : HeldSms) (ls : List PyStr) : Prop := match shows x.pdu with
  | some l => ∃ line status, ls = line :: (textLines l.text ++ [py!"OK"]) ∧ DeliverHeader line status l.number l.time ∧ (status, (x.state : Int)) ∈ stateNames
  | none => ∃ line body, ls = line :: (body ++ [py!"OK"]) ∧ (∀ a b c, ¬ DeliverHeader line a b c) ∧ ∀ a b c d e f, ¬ ReportHeader line a b c d e f

/-- How the modem answers such a command in a mode, and what becomes of the messages. -/
inductive ObeysIn (shows : Display) (text : Bool) (m : Shelf) : ShelfOrder → Reply → Shelf → Prop
  | same {o r m'} : Obeys m o r m' → (∀ k, o ≠ .list k) → (∀ i, o ≠ .read i) → ObeysIn shows text m o r m'
  | pduList {k r m'} : text = false → Obeys m (.list k) r m' → ObeysIn shows text m (.list k) r m'
  | pduRead {i r m'} : text = false → Obeys m (.read i) r m' → ObeysIn shows text m (.read i) r m'
  | textList {k shown lss} : text = true → shown ~ m.listed k → List.Forall₂ (LetterLines shows) shown lss →
      ObeysIn shows text m (.list k) (.lines (lss.flatten ++ [py!"OK"])) (m.look fun x => decide (x ∈ m.listed k))
  | textRead {x ls} : text = true → x ∈ m.listed 4 → LetterAnswer shows x ls → ObeysIn shows text m (.read x.place) (.lines ls) (m.look (m.at x.place))
  | missing {i} : text = true → (∀ x ∈ m.listed 4, x.place ≠ i) → ObeysIn shows text m (.read i) (.lines [py!"+CMS ERROR: 321"]) m

/-- What becomes of the messages and of the mode. A change of mode may be refused; a reset may choose any mode. -/
inductive ServesIn (shows : Display) (text : Bool) (m : Shelf) (c : PyStr) (r : Reply) : Bool → Shelf → Prop
  | order {o m'} : BidsIn text c o → o ≠ .reset → ObeysIn shows text m o r m' → ServesIn shows text m c r text m'
  | reset {text' m'} : BidsIn text c .reset → Obeys m .reset r m' → ServesIn shows text m c r text' m'
  | mode {v ls} : c = modeCommand v → r = .lines ls → ls.getLast? = some py!"OK" → ServesIn shows text m c r v m
  | refused {v} : c = modeCommand v → r = .lines [py!"ERROR"] → ServesIn shows text m c r text m
  | other : (∀ o, ¬ BidsIn text c o) → (∀ v, c ≠ modeCommand v) → ServesIn shows text m c r text m

/-- The modem keeps messages: `shelf log` are those that it has after the commands of `log`, `mode log` is its mode then (true for text mode), and
`came (c :: log)` are those that arrive before it obeys the command `c`. -/
structure KeepingIn (shows : Display) (reply : List PyStr → Reply) (mode : List PyStr → Bool) (shelf : List PyStr → Shelf) (came : List PyStr → List HeldSms) : Prop where
  serves : ∀ c log, ServesIn shows (mode log) ((shelf log).with (came (c :: log))) c (reply (c :: log)) (mode (c :: log)) (shelf (c :: log))
  places : ∀ c log, (((shelf log).slots ++ came (c :: log)).map HeldSms.spot).Nodup
  fresh : ∀ log, ∀ x ∈ came log, x.state = 0 ∧ IsMessage x.pdu ∧ IsLetter shows x.pdu

/-- The received messages on the modem can be read in both modes. -/
def Shelf.SoundIn (shows : Display) (m : Shelf) : Prop := ∀ x ∈ m.slots, x.state ≤ 1 → IsMessage x.pdu ∧ IsLetter shows x.pdu

/-- The program is connected and right about the mode and about the selected memory. -/
def KnowsIn (mode : List PyStr → Bool) (shelf : List PyStr → Shelf) (s : St) : Prop :=
  s.alive = true ∧ s.smsTextMode = mode s.log ∧ ∀ m, s.smsMemReadDelete = some m → Quotable m → (shelf s.log).memory = m

/-- The messages `taken` have been taken off the modem and handed over, each once, as they are shown in one of the modes, and no other message has been. -/
def DeliveredIn (shows : Display) (shelf : List PyStr → Shelf) (came : List PyStr → List HeldSms) (s s' : St) (taken : List (HeldSms × Msg)) : Prop :=
  handedOver s' = (taken.map Prod.snd).reverse ++ handedOver s ∧ (∀ p ∈ taken, MadeIn shows false p.1 p.2 ∨ MadeIn shows true p.1 p.2) ∧
    Balance shelf came s.log s'.log (taken.map Prod.fst)

/-- Operations that do not delete messages for the user. The mode may be changed. -/
def CarefulIn : Op → Prop
  | .setTextMode _ => True
  | op => Careful op

end Gsm.Spec
