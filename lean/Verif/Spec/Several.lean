import Verif.Model.Several
import Verif.Spec.Connect
/-! # Specification: several modems, and one modem after another -/
namespace Gsm.Spec

/-- The deeds done with modem `i`. -/
def deedsOf (i : Nat) (h : List (Nat × Deed)) : List Deed := (h.filter fun x => x.1 == i).map (·.2)

/-- The outcomes of the deeds done with modem `i`. -/
def outcomesOf (i : Nat) (rs : List (Nat × Except PyErr Unit)) : List (Except PyErr Unit) := (rs.filter fun x => x.1 == i).map (·.2)

/-- A modem without the attributes of the class `Call`. -/
def ownPart (s : St) : St := { s with dtmfSupport := false, dtmfHuawei := false }

/-- Is it a connection? -/
def isConnect : Deed → Bool
  | .connect _ => true
  | _ => false

/-- All connections were successful. -/
def AllConnected : List (Nat × Deed) → List (Nat × Except PyErr Unit) → Prop
  | [], _ => True
  | _, [] => True
  | (_, d) :: h, (_, r) :: rs => (isConnect d = true → r = .ok ()) ∧ AllConnected h rs

/-- A modem of this kind makes `Call.dtmfSupport` true. -/
def canTone (b : Behaviour) (p : Profile) : Bool :=
  decide (p.has py!"+VTS" ∨ kind b p = .huawei ∨ (p.commands = none ∧ (kind b p = .wavecom ∨ kind b p = .zte)))

/-- What `connect` sets according to the modem. -/
structure Settings where
  callUpdates : CallTable
  polls : Bool
  awaitsOk : Bool
  awaitsUpdate : Bool
  smsc : Option PyStr
  reads : Bool
  callerId : Bool
  extended : Bool
  memory : Option PyStr
  deriving DecidableEq

def settings (s : St) : Settings where
  callUpdates := s.callStatusUpdates
  polls := s.mustPollCallStatus
  awaitsOk := s.waitForAtdResponse
  awaitsUpdate := s.waitForCallInitUpdate
  smsc := s.smscNumber
  reads := s.smsReadSupported
  callerId := s.callingLineIdentification
  extended := s.extendedIncomingCallIndication
  memory := s.smsMemReadDelete

/-- Messages can be read. -/
def readsMessages (b : Behaviour) (p : Profile) : Bool := storesUsable b p && b.accepts py!"AT+CNMI=2,1,0,2"

/-- A memory for messages is chosen. -/
def choosesMemory (b : Behaviour) (p : Profile) : Bool := storesUsable b p && decide (favourite (p.stores.headD []) ≠ [])

/-- Nothing in `s` outlives a connection to the modem: it then has the settings of a new object. -/
structure NothingLeft (b : Behaviour) (p : Profile) (s : St) : Prop where
  callUpdates : kind b p = .unknown → s.callStatusUpdates = .none
  awaitsOk : kind b p = .huawei → s.waitForAtdResponse = true
  awaitsUpdate : kind b p ≠ .zte → s.waitForCallInitUpdate = true
  smsc : s.smscNumber = none ∨ s.smscNumber = p.smsc
  reads : readsMessages b p = true → s.smsReadSupported = true
  extended : b.accepts py!"AT+CLIP=1" = false → s.extendedIncomingCallIndication = false
  memory : choosesMemory b p = false → s.smsMemReadDelete = none

/-- The second modem has the same settings after the first one as it has alone. -/
structure GoesAfter (b1 : Behaviour) (p1 : Profile) (b2 : Behaviour) (p2 : Profile) : Prop where
  callUpdates : kind b2 p2 = .unknown → kind b1 p1 = .unknown
  awaitsOk : kind b2 p2 = .huawei → kind b1 p1 = .unknown ∨ kind b1 p1 = .huawei
  awaitsUpdate : kind b2 p2 ≠ .zte → kind b1 p1 ≠ .zte
  smsc : p1.smsc = none ∨ p1.smsc = p2.smsc
  reads : readsMessages b2 p2 = true → readsMessages b1 p1 = true
  extended : b2.accepts py!"AT+CLIP=1" = false → (b1.accepts py!"AT+CLIP=1" && b1.accepts py!"AT+CRC=1") = false
  memory : choosesMemory b2 p2 = false → choosesMemory b1 p1 = false

end Gsm.Spec
