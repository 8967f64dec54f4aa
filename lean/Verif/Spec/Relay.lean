import Verif.Spec.Submit
import Verif.Spec.Deliver
import Verif.Spec.Delivery
import Verif.Spec.Hex
/-! # Specification: the way of a message from one modem to another

The sending modem takes PDUs over; the service centre makes an SMS-DELIVER of each SMS-SUBMIT (GSM 03.40);
the receiving modem stores it and tells the program. -/
namespace Gsm.Spec

/-- The PDUs (or texts) that the modem has taken over, in this order: input that ends with Ctrl-Z and is accepted. -/
inductive TakenOver (reply : List PyStr → Reply) : List PyStr → List PyStr → Prop
  | nothing : TakenOver reply [] []
  | taken {log ms m} : Accepted reply ((m ++ [26]) :: log) → TakenOver reply log ms → TakenOver reply ((m ++ [26]) :: log) (ms ++ [m])
  | other {c log ms} : ¬ (Accepted reply (c :: log) ∧ ∃ m, c = m ++ [26]) → TakenOver reply log ms → TakenOver reply (c :: log) ms

/-- Octets of the validity period, by its format (bits 3 and 4 of the first octet). -/
def vpOctets (fo : Nat) : Nat :=
  match fo / 8 % 4 with
  | 0 => 0
  | 2 => 1
  | _ => 7

/-- The fields of an SMS-SUBMIT as the service centre reads them: the length octets tell where the addresses end. -/
structure SubmitRead (octets : List Nat) (f : SubmitFields) : Prop where
  all : octets = f.octets
  kind : f.fo % 4 = 1
  sca : ∃ n xs, f.sca = n :: xs ∧ xs.length = n
  da : ∃ n toa xs, f.da = n :: toa :: xs ∧ xs.length = (n + 1) / 2
  vp : f.vp.length = vpOctets f.fo

/-- The SMS-DELIVER that a service centre makes of an SMS-SUBMIT: protocol, coding, header indicator and user
data are kept; the centre's address, the sender and the time are added. -/
inductive Relayed (octets : List Nat) (smsc sender : Option PyStr) (time : DateTime) : List Nat → Prop
  | mk {f sca fo oa scts} : SubmitRead octets f → AddrWire true smsc sca → AddrWire false sender oa → TsWire time scts →
      fo < 256 → fo % 4 = 0 → fo.testBit 6 = f.fo.testBit 6 →
      Relayed octets smsc sender time (deliverOctets sca fo oa f.pid f.dcs scts f.udl f.ud)

/-- A modem in state `b` has the PDU `os` at a place and gives it out. -/
structure Stores (reply : List PyStr → Reply) (b : St) (mem idx status : PyStr) (os : List Nat) : Prop where
  select : b.smsMemReadDelete ≠ some mem → Accepted reply ((py!"AT+CPMS=\"" ++ mem ++ py!"\"\r") :: b.log)
  read : ∃ l h rest, reply ((py!"AT+CMGR=" ++ idx ++ [13]) :: (chooseMemory b mem ++ b.log)) = .lines (l :: h :: (rest ++ [py!"OK"])) ∧
    PduHeader l status ∧ HexOf os h
  delete : Accepted reply ((py!"AT+CMGD=" ++ idx ++ py!",0\r") :: (py!"AT+CMGR=" ++ idx ++ [13]) :: (chooseMemory b mem ++ b.log))

/-- The PDU `m` arrives as a message with this text: whatever service centre relays it, every program that is
told where its modem has stored it gets it. -/
def Arrives (m text : PyStr) : Prop :=
  ∀ {octets os : List Nat} {smsc sender : Option PyStr} {time : DateTime}, HexOf octets m → Relayed octets smsc sender time os →
    ∀ {env : Env} {b : St} {line mem idx status : PyStr}, 0 < env.depth → b.smsTextMode = false → StoredAt py!"+CMTI:" line mem idx →
      Stores env.reply b mem idx status os →
      ∃ b', handleSmsReceived line env b = (.ok (), b') ∧
        b'.callbacks = .smsReceived (.received (pduState status) sender time text smsc) :: b.callbacks

end Gsm.Spec
