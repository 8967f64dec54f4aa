import Verif.Model.ModemSms
/-! # gsmmodem/modem.py, `ReceivedSms.reply` -/
namespace Gsm
open M

/-- `ReceivedSms.reply`, modem.py:58-60. `StatusReport` has no such method. The number of a message without sender is `None`: in PDU mode `encodeSmsSubmitPdu`
looks for its `isalnum`, in text mode `'AT+CMGS="{0}"'.format(None)` has the word `None` (in the `SentSms`, too, the model has this word for `None`). -/
def replySms [PyUnicode] (m : Msg) (message : PyStr) : M Nat :=
  match m with
  | .received _ (some number) _ _ _ => sendSms number message
  | .received _ none _ _ _ => do
    let s ← get
    if s.smsTextMode then sendSms py!"None" message else raise .attributeError
  | .report .. => raise .attributeError

end Gsm
