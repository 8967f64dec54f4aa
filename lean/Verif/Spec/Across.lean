import Verif.Spec.Relay
import Verif.Spec.Modes
/-! # Specification: the way of a text between programs whose modems are in either mode

In text mode it is the modem that makes an SMS-SUBMIT of number and text, with the settings of `AT+CSMP=49,167,0,0`, and that
shows number, time and text of an SMS-DELIVER. -/
namespace Gsm.Spec

/-- The SMS-SUBMIT has the text, in the GSM alphabet and without a header. -/
def SubmitFields.Says (f : SubmitFields) (text code : List Nat) : Prop :=
  text ≠ [] ∧ Readable text code ∧ Packed 0 code f.ud ∧ f.udl = code.length ∧ alphabetOf f.dcs = 0 ∧ f.fo.testBit 6 = false ∧
    f.pid < 256 ∧ f.dcs < 64 ∧ f.udl < 256

/-- What a modem makes of a text in text mode (27.005): the settings are those of `AT+CSMP`. -/
def MadeOf (text : PyStr) (octets : List Nat) : Prop :=
  ∃ f code, SubmitRead octets f ∧ f.fo = 49 ∧ f.vp = [167] ∧ f.pid = 0 ∧ f.dcs = 0 ∧ Readable text code ∧ Packed 0 code f.ud ∧
    f.udl = code.length ∧ code.length ≤ 160

/-- The octets that the modem sends of what it has taken over. -/
def Transmits (textMode : Bool) (taken : PyStr) (octets : List Nat) : Prop :=
  if textMode then MadeOf taken octets else HexOf octets taken

/-- The service centre makes an SMS-DELIVER with the contents `m` of it. -/
def Passed (octets : List Nat) (m : Received) (os : List Nat) : Prop :=
  ∃ f sca fo oa scts, SubmitRead octets f ∧ os = deliverOctets sca fo oa f.pid f.dcs scts f.udl f.ud ∧
    AddrWire true m.smsc sca ∧ Sender m.number oa m.numberSeen ∧ Clock m.time m.quarters scts ∧ Body (alphabetOf f.dcs) f.udl f.ud m.textSeen m.shown ∧
    fo < 256 ∧ fo % 4 = 0 ∧ fo.testBit 6 = f.fo.testBit 6

/-- A modem that has this message at a place and gives it out, as its mode demands. -/
structure Holds (reply : List PyStr → Reply) (b : St) (mem idx : PyStr) (read : Bool) (m : Received) (os : List Nat) : Prop where
  select : b.smsMemReadDelete ≠ some mem → Accepted reply ((py!"AT+CPMS=\"" ++ mem ++ py!"\"\r") :: b.log)
  read : ∃ len hex, HexOf os hex ∧ reply ((py!"AT+CMGR=" ++ idx ++ [13]) :: (chooseMemory b mem ++ b.log)) =
    .lines (if b.smsTextMode then textAnswer read m else pduAnswer (if read then 1 else 0) len hex)
  delete : Accepted reply ((py!"AT+CMGD=" ++ idx ++ py!",0\r") :: (py!"AT+CMGR=" ++ idx ++ [13]) :: (chooseMemory b mem ++ b.log))

/-- The text that a program gets of a text that was sent: in text mode as the lines of it, in PDU mode without a final `@` that fills
the last octet. -/
def textGot (textMode : Bool) (code text : PyStr) : PyStr :=
  if textMode then [10].intercalate (textLines text) else trimAt (code.length % 8 = 0) text

/-- The message that the program gets. -/
def messageGot (textMode read : Bool) (m : Received) (text : PyStr) : Msg :=
  if textMode then .received (if read then 1 else 0) (some m.number) { m.time with off := some (.ofSeconds (wholeHours m.quarters)) } text none
  else .received (if read then 1 else 0) (some m.numberSeen) m.time text m.smsc

/-- Whatever is made of it on the way, every program that is told of the message gets this text. -/
def ArrivesEither (textMode : Bool) (taken code text : PyStr) : Prop :=
  ∀ {octets os : List Nat} {m : Received}, Transmits textMode taken octets → Passed octets m os → 34 ∉ m.number →
    ∀ {env : Env} {b : St} {line mem idx : PyStr} {read : Bool}, 0 < env.depth → StoredAt py!"+CMTI:" line mem idx → Holds env.reply b mem idx read m os →
      ∃ b', handleSmsReceived line env b = (.ok (), b') ∧
        b'.callbacks = .smsReceived (messageGot b.smsTextMode read m (textGot b.smsTextMode code text)) :: b.callbacks

end Gsm.Spec
