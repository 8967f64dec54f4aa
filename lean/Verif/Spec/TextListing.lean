import Verif.Spec.Reading
import Verif.Spec.Stranger
/-! # Specification: what a listing in text mode is taken for, whatever is in it -/
namespace Gsm.Spec

/-- The fields of the header of a listed message. -/
structure Head where
  index : PyStr
  status : PyStr
  number : PyStr
  time : PyStr

/-- The header of a message in a listing in text mode (27.005, 3.4.3): place, state, sender, name, time. -/
def ListHeader (line : PyStr) (h : Head) : Prop :=
  ∃ name t, line = py!"+CMGL: " ++ (h.index ++ (py!",\"" ++ (h.status ++ (py!"\",\"" ++ (h.number ++ (py!"\"," ++ (name ++ (py!",\"" ++ (h.time ++ (py!"\"" ++ t)))))))))) ∧
    Digits h.index ∧ Quotable h.status ∧ Quotable h.number ∧ 44 ∉ name ∧ Quotable h.time ∧ LineEnd t

/-- The line looks like the header of a message. -/
def IsHead (line : PyStr) : Prop := ∃ h, ListHeader line h

/-- Lines that begin with a header, each header with the lines up to the next one. -/
inductive Divided : List PyStr → List (Head × List PyStr) → Prop
  | nil : Divided [] []
  | cons {line h body rest cs} : ListHeader line h → (∀ l ∈ body, ¬ IsHead l) → Divided rest cs → Divided (line :: (body ++ rest)) ((h, body) :: cs)

/-- The lines `OK` are taken for the end of the answer, wherever they are. -/
def visible (body : List PyStr) : List PyStr := body.filter (· ≠ py!"OK")

/-- What each header with its lines is taken for: nothing, if there is no text, or a message with its place; the first one that cannot be understood
spoils the whole listing. -/
inductive ListedText : List (Head × List PyStr) → Except PyErr (List (Nat × Msg)) → Prop
  | nil : ListedText [] (.ok [])
  | blank {h body cs r} : visible body = [] → ListedText cs r → ListedText ((h, body) :: cs) r
  | message {h body cs n t xs} : visible body ≠ [] → (h.status, n) ∈ stateNames → parseTextModeTimeStr h.time = .ok t → ListedText cs (.ok xs) →
      ListedText ((h, body) :: cs) (.ok ((decVal h.index, .received n (some h.number) t ([10].intercalate (visible body)) none) :: xs))
  | later {h body cs n t e} : visible body ≠ [] → (h.status, n) ∈ stateNames → parseTextModeTimeStr h.time = .ok t → ListedText cs (.error e) →
      ListedText ((h, body) :: cs) (.error e)
  | badState {h body cs} : visible body ≠ [] → (∀ n, (h.status, n) ∉ stateNames) → ListedText ((h, body) :: cs) (.error .keyError)
  | badTime {h body cs n e} : visible body ≠ [] → (h.status, n) ∈ stateNames → parseTextModeTimeStr h.time = .error e → ListedText ((h, body) :: cs) (.error e)

/-- What a listing is taken for; what comes before the first header counts for nothing. -/
def TakenFor (ls : List PyStr) (r : Except PyErr (List (Nat × Msg))) : Prop :=
  ∃ pre rest cs, ls = pre ++ rest ∧ (∀ l ∈ pre, ¬ IsHead l) ∧ Divided rest cs ∧ ListedText cs r

/-- A text that continues, after an empty line, with a line that looks like a header and with another text. -/
def withHeader (before header after : PyStr) : PyStr := before ++ py!"\r\n\r\n" ++ header ++ py!"\r\n" ++ after

end Gsm.Spec
