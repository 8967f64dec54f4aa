import Verif.Model.ModemCalls
/-! # Several modems in one program: modem.py:164-287, 1207-1271

`Call.dtmfSupport` and `Call.DTMF_COMMAND_BASE` are attributes of the class, so there is only one of each,
however many `GsmModem` objects there are; `connect` assigns them (modem.py:210, 259-260, 270, 281) and
`sendDtmfTone` and the user read them. Everything else belongs to one object.

Simplifications: the modems take turns; each has an environment of its own. -/
namespace Gsm
open M

/-- The modem objects (by number), and the two attributes of the class `Call`. The fields of the same
names in the states of the modems are not used. -/
structure Several where
  dtmfSupport : Bool := false
  dtmfHuawei : Bool := false
  modems : Nat → St := fun _ => {}

/-- What is seen from modem `i`. -/
def Several.view (w : Several) (i : Nat) : St := { w.modems i with dtmfSupport := w.dtmfSupport, dtmfHuawei := w.dtmfHuawei }

/-- After modem `i` has come to the state `s`. -/
def Several.put (w : Several) (i : Nat) (s : St) : Several :=
  { dtmfSupport := s.dtmfSupport, dtmfHuawei := s.dtmfHuawei, modems := fun j => if j = i then s else w.modems j }

/-- Something done with a modem: `connect`, `close` (serial_comms.py:54-58), or a use of a connected modem. -/
inductive Deed
  | connect (pin : Option PyStr)
  | close
  | op (o : Op)

def Deed.run [PyUnicode] : Deed → M Unit
  | .connect pin => Gsm.connect pin
  | .close => M.modify fun s => { s with alive := false }
  | .op o => o.run

/-- A history: who did what. The outcomes, and the modems afterwards. -/
def Several.run [PyUnicode] (envs : Nat → Env) : List (Nat × Deed) → Several → List (Nat × Except PyErr Unit) × Several
  | [], w => ([], w)
  | (i, d) :: h, w =>
    let r := d.run (envs i) (w.view i)
    let (rs, w') := Several.run envs h (w.put i r.2)
    ((i, r.1) :: rs, w')

/-- A history of one modem that has the class `Call` for itself. -/
def runDeeds [PyUnicode] (env : Env) : List Deed → St → List (Except PyErr Unit) × St
  | [], s => ([], s)
  | d :: ds, s =>
    let r := d.run env s
    let (rs, s') := runDeeds env ds r.2
    (r.1 :: rs, s')

end Gsm
