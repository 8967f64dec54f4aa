import Verif.Spec.Progress
/-! # Specification: reading a stored message -/
namespace Gsm.Spec

/-- A field in quotes that is not empty. -/
def Quotable (x : PyStr) : Prop := x ≠ [] ∧ 34 ∉ x

/-- A quote that may be missing. -/
def MaybeQuote (q : PyStr) : Prop := q = [] ∨ q = [34]

/-- The first line of a message in text mode (27.005, 3.4.2): status, sender, name, time. -/
def DeliverHeader (line status number time : PyStr) : Prop :=
  ∃ name t, line = py!"+CMGR: \"" ++ (status ++ (py!"\",\"" ++ (number ++ (py!"\"," ++ (name ++ (py!",\"" ++ (time ++ (py!"\"" ++ t)))))))) ∧
    Quotable status ∧ Quotable number ∧ 44 ∉ name ∧ Quotable time ∧ LineEnd t

/-- The line of a status report in text mode: status, first octet, reference, recipient, type of number,
times of submission and delivery, delivery status. -/
def ReportHeader (line status reference number sent delivered result : PyStr) : Prop :=
  ∃ octet q q' kind t, line = py!"+CMGR: " ++ (status ++ (py!"," ++ (octet ++ (py!"," ++ (reference ++ (py!"," ++ (q ++ (number ++ (q' ++ (py!"," ++ (kind ++ (py!",\"" ++
      (sent ++ (py!"\",\"" ++ (delivered ++ (py!"\"," ++ (result ++ t))))))))))))))))) ∧
    44 ∉ status ∧ Digits octet ∧ Digits reference ∧ MaybeQuote q ∧ MaybeQuote q' ∧ 34 ∉ number ∧ (∀ c ∈ kind, 48 ≤ c ∧ c ≤ 57) ∧
    Quotable sent ∧ Quotable delivered ∧ Digits result ∧ LineEnd t

/-- The first line of a message in PDU mode: status (missing on some modems), name, length. -/
def PduHeader (line status : PyStr) : Prop :=
  ∃ q name q' len t, line = py!"+CMGR: " ++ (status ++ (py!"," ++ (q ++ (name ++ (q' ++ (py!"," ++ (len ++ t))))))) ∧
    (∀ c ∈ status, 48 ≤ c ∧ c ≤ 57) ∧ MaybeQuote q ∧ MaybeQuote q' ∧ 34 ∉ name ∧ Digits len ∧ LineEnd t

/-- A field without its quotes. -/
inductive Unquoted : PyStr → PyStr → Prop
  | bare {x} : x.head? ≠ some 34 → Unquoted x x
  | quoted {x c} : Unquoted (34 :: (x ++ [c])) x
  | lone : Unquoted [34] []

/-- The number of a state in the header of a report, where an empty one stands for an unread message. -/
inductive ReportState : PyStr → Int → Prop
  | missing {f} : Unquoted f [] → ReportState f 0
  | named {f x n} : Unquoted f x → (x, n) ∈ stateNames → ReportState f n

/-- The message in the answer in text mode. -/
inductive AnswersText : List PyStr → Except PyErr Msg → Prop
  | message {l rest st number time n t} : DeliverHeader l st number time → (st, n) ∈ stateNames → parseTextModeTimeStr time = .ok t →
      AnswersText (l :: rest) (.ok (.received n (some number) t ([10].intercalate rest.dropLast) none))
  | badState {l rest st number time} : DeliverHeader l st number time → (∀ n, (st, n) ∉ stateNames) → AnswersText (l :: rest) (.error .keyError)
  | badTime {l rest st number time n e} : DeliverHeader l st number time → (st, n) ∈ stateNames → parseTextModeTimeStr time = .error e →
      AnswersText (l :: rest) (.error e)
  | report {l rest st ref number sent delivered result n t1 t2} : (∀ a b c, ¬ DeliverHeader l a b c) → ReportHeader l st ref number sent delivered result →
      ReportState st n → parseTextModeTimeStr sent = .ok t1 → parseTextModeTimeStr delivered = .ok t2 →
      AnswersText (l :: rest) (.ok (.report n (decVal ref) (some number) t1 t2 (decVal result)))
  | reportBadState {l rest st ref number sent delivered result} : (∀ a b c, ¬ DeliverHeader l a b c) →
      ReportHeader l st ref number sent delivered result → (∀ n, ¬ ReportState st n) → AnswersText (l :: rest) (.error .keyError)
  | reportBadSent {l rest st ref number sent delivered result n e} : (∀ a b c, ¬ DeliverHeader l a b c) →
      ReportHeader l st ref number sent delivered result → ReportState st n → parseTextModeTimeStr sent = .error e → AnswersText (l :: rest) (.error e)
  | reportBadDelivered {l rest st ref number sent delivered result n t1 e} : (∀ a b c, ¬ DeliverHeader l a b c) →
      ReportHeader l st ref number sent delivered result → ReportState st n → parseTextModeTimeStr sent = .ok t1 →
      parseTextModeTimeStr delivered = .error e → AnswersText (l :: rest) (.error e)
  | other {l rest} : (∀ a b c, ¬ DeliverHeader l a b c) → (∀ a b c d e f, ¬ ReportHeader l a b c d e f) →
      AnswersText (l :: rest) (.error (.command .command none))
  | nothing : AnswersText [] (.error .indexError)

/-- The state of a message in PDU mode; unread when it is missing. -/
def pduState (st : PyStr) : Int := if st = [] then 0 else decVal st

/-- The message in the answer in PDU mode. -/
inductive AnswersPdu : List PyStr → Except PyErr Msg → Prop
  | message {l pdu rest st smsc len number pid time ud} : PduHeader l st → decodeSmsPdu pdu = .ok ⟨smsc, len, .deliver number pid time ud⟩ →
      AnswersPdu (l :: pdu :: rest) (.ok (.received (pduState st) number time ud.text smsc))
  | report {l pdu rest st smsc len ref number time discharge result} : PduHeader l st →
      decodeSmsPdu pdu = .ok ⟨smsc, len, .statusReport ref number time discharge result⟩ →
      AnswersPdu (l :: pdu :: rest) (.ok (.report (pduState st) ref number time discharge result))
  | outgoing {l pdu rest st d} : PduHeader l st → decodeSmsPdu pdu = .ok d →
      (∀ a b c e, d.body ≠ .deliver a b c e) → (∀ a b c e f, d.body ≠ .statusReport a b c e f) →
      AnswersPdu (l :: pdu :: rest) (.error (.command .command none))
  | undecodable {l pdu rest st e} : PduHeader l st → decodeSmsPdu pdu = .error e → AnswersPdu (l :: pdu :: rest) (.error e)
  | missing {l st} : PduHeader l st → AnswersPdu [l] (.error .indexError)
  | other {l rest} : (∀ st, ¬ PduHeader l st) → AnswersPdu (l :: rest) (.error (.command .command none))
  | nothing : AnswersPdu [] (.error .indexError)

/-- The message in the answer. -/
def Answers (textMode : Bool) (ls : List PyStr) (r : Except PyErr Msg) : Prop := if textMode then AnswersText ls r else AnswersPdu ls r

end Gsm.Spec
