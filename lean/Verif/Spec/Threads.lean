import Verif.Model.Threads
import Verif.Spec.Delivery
import Verif.Spec.ModemLog
/-! # Specification: methods in several threads -/
namespace Gsm.Spec
open List

/-- The method, run without other threads. -/
def alone [PyUnicode] : Method → M Unit
  | .read i m => discard (readStoredSms i m)
  | .delete i m => deleteStoredSms i m
  | .deleteMultiple f m => deleteMultipleStoredSms f m
  | .list st m d => discard (listStoredSms st m d)
  | .received l => handleSmsReceived l
  | .statusReport l => handleSmsStatusReport l
  | .send d t f => discard (sendSms d t f)
  | .setTextMode v => setSmsTextMode v
  | .ask c => discard (write c)

/-- The methods one after the other. -/
def serially [PyUnicode] (env : Env) : List Method → St → List (Except PyErr Unit) × St
  | [], s => ([], s)
  | x :: xs, s => ((alone x env s).1 :: (serially env xs (alone x env s).2).1, (serially env xs (alone x env s).2).2)

/-- The results of the threads that have finished. -/
def results (threads : List (Prog Unit)) : List (Option (Except PyErr Unit)) :=
  threads.map fun p => match p with
    | .done r => some r
    | _ => none

/-- The memory selected by the commands so far (the last first). -/
def selectedMemory : List PyStr → Option PyStr
  | [] => none
  | c :: cs => if py!"AT+CPMS=\"" <+: c ∧ c.getLast? = some 13 then some ((c.drop 9).take (c.length - 11)) else selectedMemory cs

/-- The method is about messages in the memory `m` only. -/
def OneMemory (m : PyStr) : Method → Prop
  | .read _ mem | .delete _ mem | .deleteMultiple _ mem | .list _ mem _ => mem = none ∨ mem = some m
  | .received line => ∀ mem idx, StoredAt py!"+CMTI:" line mem idx → mem = m
  | .statusReport line => ∀ mem idx, StoredAt py!"+CDSI:" line mem idx → mem = m
  | .ask c => ¬ SelectsMemory (c ++ [13])
  | .send .. | .setTextMode _ => True

/-- The references that the modem gives to messages are numbers of one octet. -/
def OctetReferences (env : Env) : Prop :=
  ∀ log ls l r, env.reply log = .lines ls → lineStartingWith py!"+CMGS:" ls = some l → pyInt (l.drop 7) = .ok r → 0 ≤ r ∧ r ≤ 255

/-- The commands were written in this order, each accepted in the end, while others may have written commands in between. -/
inductive Performed (reply : List PyStr → Reply) : List PyStr → List PyStr → List PyStr → Prop
  | nil (l : List PyStr) : Performed reply [] l l
  | cons {c cs before l after} : before <:+ l → Accepted reply (c :: l) → Performed reply cs (c :: l) after → Performed reply (c :: cs) before after

/-- Nothing that was there is gone. -/
structure Grows (a b : St) : Prop where
  log : a.log <:+ b.log
  callbacks : a.callbacks <:+ b.callbacks
  trace : a.smsTrace <:+ b.smsTrace

/-- The message at the place was asked for and the answer means `m`; then it was deleted. -/
def Taken (env : Env) (s : St) (idx : PyStr) (m : Msg) (s' : St) : Prop :=
  ∃ l1 l2 ls text, Performed env.reply [py!"AT+CMGR=" ++ idx ++ [13]] s.log l1 ∧ env.reply l1 = .lines ls ∧ Answers text ls (.ok m) ∧
    Performed env.reply [py!"AT+CMGD=" ++ idx ++ py!",0\r"] l1 l2 ∧ l2 <:+ s'.log

/-- The commands that send a message. -/
inductive SendingCommands [PyUnicode] (destination text : PyStr) (flash : Bool) : List PyStr → Prop
  | text : SendingCommands destination text flash [py!"AT+CMGS=\"" ++ destination ++ py!"\"\r", text ++ [26]]
  | pdus (reference : Int) {ps : List Pdu} : encodeSmsSubmitPdu destination text reference (sendFlash := flash) = .ok ps →
      SendingCommands destination text flash (ps.flatMap fun p => [py!"AT+CMGS=" ++ decStr p.tpduLength ++ [13], pduHex p.data ++ [26]])

end Gsm.Spec
