import Verif.Model.ModemCalls
/-! # A well-behaved modem, for the examples beside the theorems -/
namespace Gsm

/-- Its answer to a command. -/
def goodReply (c : PyStr) : Reply :=
  if c = py!"AT+CFUN?\r" then .lines [py!"+CFUN: 1", py!"OK"]
  else if c = py!"AT+CPIN?\r" then .lines [py!"+CPIN: READY", py!"OK"]
  else if c = py!"AT+CLAC\r" then .lines [py!"ERROR"]
  else if c = py!"AT+WIND?\r" then .lines [py!"ERROR"]
  else if c = py!"AT+ZPAS?\r" then .lines [py!"ERROR"]
  else if c = py!"AT+CGMI\r" then .lines [py!"ACME", py!"OK"]
  else if c = py!"AT+CSCA?\r" then .lines [py!"+CSCA: \"+27\",145", py!"OK"]
  else if c = py!"AT+CPMS=?\r" then .lines [py!"+CPMS: (\"ME\",\"SM\"),(\"ME\",\"SM\"),(\"SM\")", py!"OK"]
  else .lines [py!"OK"]

/-- The modem, with another behaviour for some histories. -/
def modemWith (f : List PyStr → Option Reply) : Env where
  reply log := (f log).getD (goodReply (log.head?.getD []))
  depth := 10
  order l := l
  order_perm _ := .refl _

def goodModem : Env := modemWith fun _ => none

/-- It accepts `connect`. -/
example : (connect none goodModem {}).1 = .ok () := by decide +kernel

/-- The state after that. -/
def connected (env : Env) : St := (connect none env {}).2

end Gsm
