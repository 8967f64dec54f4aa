/-! # Specification: the octets of an SMS-SUBMIT with its SMSC field (GSM 03.40, 9.2.2.2) -/
namespace Gsm.Spec

/-- Fields of an SMS-SUBMIT, in transmission order. -/
structure SubmitFields where
  sca : List Nat      -- service centre address field
  fo : Nat            -- first octet
  mr : Nat            -- TP-MR
  da : List Nat       -- TP-DA
  pid : Nat           -- TP-PID
  dcs : Nat           -- TP-DCS
  vp : List Nat       -- TP-VP: 0, 1 or 7 octets
  udl : Nat           -- TP-UDL
  ud : List Nat       -- TP-UD, header included

/-- The TPDU (what follows the service centre address). -/
def SubmitFields.tpdu (f : SubmitFields) : List Nat :=
  f.fo :: f.mr :: f.da ++ f.pid :: f.dcs :: f.vp ++ f.udl :: f.ud

/-- All octets. -/
def SubmitFields.octets (f : SubmitFields) : List Nat := f.sca ++ f.tpdu

/-- Largest text that goes in one message, in characters: 160 GSM-7, 70 UCS2. -/
def singleLimit (gsm7 : Bool) : Nat := if gsm7 then 160 else 70

/-- Characters per part of a concatenated message. -/
def partSize (gsm7 : Bool) : Nat := if gsm7 then 153 else 67

end Gsm.Spec
