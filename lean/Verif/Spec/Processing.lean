import Verif.Spec.Listing
import Verif.Spec.SentSms
import Mathlib.Data.List.Forall2
/-! # Specification: passing on the stored messages -/
namespace Gsm.Spec

/-- The messages are passed to the callback in this order. -/
def passOn (ms : List Msg) (callbacks : List Callback) : List Callback := (ms.map Callback.smsReceived).reverse ++ callbacks

/-- The entries of a listing in PDU mode, and the messages that they mean. -/
structure PduListing where
  entries : List PduEntry
  messages : List Msg
  ok : ∀ e ∈ entries, e.Ok
  means : List.Forall₂ PduEntry.Means entries messages

/-- The answer of the modem. -/
def PduListing.answer (l : PduListing) : List PyStr := l.entries.flatMap PduEntry.lines ++ [py!"OK"]
/-- The places. -/
def PduListing.indices (l : PduListing) : List Nat := l.entries.map fun e => decVal e.index

/-- The same in text mode. -/
structure TextListing where
  entries : List TextEntry
  messages : List Msg
  ok : ∀ e ∈ entries, e.Ok
  means : List.Forall₂ TextEntry.Means entries messages

def TextListing.answer (l : TextListing) : List PyStr := l.entries.flatMap TextEntry.lines ++ [py!"OK"]
def TextListing.indices (l : TextListing) : List Nat := l.entries.map fun e => decVal e.index

/-- An answer in either mode, the places and the messages. -/
inductive Lists : Bool → List PyStr → List Nat → List Msg → Prop
  | pdu (l : PduListing) : Lists false l.answer l.indices l.messages
  | text (l : TextListing) : Lists true l.answer l.indices l.messages

/-- The command that asks for the messages with a state: 0 (unread) or 1 (read). -/
def listCmd : Bool → Bool → PyStr
  | false, false => py!"AT+CMGL=0\r"
  | false, true => py!"AT+CMGL=1\r"
  | true, false => py!"AT+CMGL=\"REC UNREAD\"\r"
  | true, true => py!"AT+CMGL=\"REC READ\"\r"

/-- Messages with some states (`true`: read) are listed and deleted: what was written, and the messages. -/
inductive Emptied (reply : List PyStr → Reply) (textMode : Bool) : List Bool → List PyStr → List PyStr → List Msg → Prop
  | done {old} : Emptied reply textMode [] old old []
  | next {st sts old l l' log answer indices cs ms ms'} : Transmission reply [listCmd textMode st] old l true → reply l = .lines answer →
      Lists textMode answer indices ms → Deletes (if st then 1 else 0) indices cs → Transmission reply cs l l' true →
      Emptied reply textMode sts l' log ms' → Emptied reply textMode (st :: sts) old log (ms ++ ms')

/-- The listing or a deletion fails. -/
inductive NotEmptied (reply : List PyStr → Reply) (textMode : Bool) (st : Bool) (old : List PyStr) : List PyStr → Prop
  | notListed {log} : Transmission reply [listCmd textMode st] old log false → NotEmptied reply textMode st old log
  | notDeleted {l log answer indices cs ms} : Transmission reply [listCmd textMode st] old l true → reply l = .lines answer →
      Lists textMode answer indices ms → Deletes (if st then 1 else 0) indices cs → Transmission reply cs l log false →
      NotEmptied reply textMode st old log

/-- The modem lists messages as it should. -/
def ListsWell (reply : List PyStr → Reply) (textMode : Bool) : Prop :=
  ∀ log st ls, reply (listCmd textMode st :: log) = .lines ls → Accepted reply (listCmd textMode st :: log) → ∃ is ms, Lists textMode ls is ms

end Gsm.Spec
