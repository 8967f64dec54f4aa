import Mathlib.Data.List.Forall2
import Verif.Spec.Relay
import Verif.Spec.Gsm0338
/-! # Specification: parts of long messages

A receiver knows the parts of a long message by the reference and the number of parts in their headers (GSM 03.40,
9.2.3.24.1), and their order by their numbers. The modem numbers the messages that it takes over. -/
namespace Gsm.Spec

/-- The PDU `m` says that it is part `i` of `n` parts of message `r`. -/
def HeaderOf (m : PyStr) (r n i : Nat) : Prop :=
  ∃ octets f rest, HexOf octets m ∧ SubmitRead octets f ∧ f.fo.testBit 6 = true ∧ f.ud = 5 :: 0 :: 3 :: r :: n :: i :: rest

/-- The PDU `m` is a message of its own. -/
def NoHeader (m : PyStr) : Prop := ∃ octets f, HexOf octets m ∧ SubmitRead octets f ∧ f.fo.testBit 6 = false

/-- The PDUs of a message with reference `r`: a single one without header, or several that are numbered from 1. -/
def PartsOf (r : Nat) (parts : List PyStr) : Prop :=
  (∃ m, parts = [m] ∧ NoHeader m) ∨
  (2 ≤ parts.length ∧ List.Forall₂ (fun i m => HeaderOf m r parts.length (i + 1)) (List.range parts.length) parts)

/-- A receiver's way to read headers: right for all the PDUs that have one or none. -/
structure ReadsHeaders (header : PyStr → Option (Nat × Nat × Nat)) : Prop where
  some : ∀ {m r n i}, HeaderOf m r n i → header m = some (r, n, i)
  none : ∀ {m}, NoHeader m → header m = none

/-- `l` are the PDUs of `arrived` that belong to message `r` of `n` parts, in the order of their numbers. -/
structure Collected (header : PyStr → Option (Nat × Nat × Nat)) (r n : Nat) (arrived l : List PyStr) : Prop where
  those : l.Perm (arrived.filter fun m => match header m with | some (r', n', _) => r' = r ∧ n' = n | none => false)
  order : l.Pairwise fun a b => ∀ i j, header a = some (r, n, i) → header b = some (r, n, j) → i ≤ j

/-- The modem's answer to every message that it takes over has the next number: `c` to the first one. -/
def NumbersFrom (reply : List PyStr → Reply) (c : Nat) : Prop :=
  ∀ {log ms m}, TakenOver reply log ms → Accepted reply ((m ++ [26]) :: log) →
    ∃ ls, reply ((m ++ [26]) :: log) = .lines ls ∧
      ls.find? (fun l => py!"+CMGS:".isPrefixOf l) = some (py!"+CMGS: " ++ decStr ((c + ms.length) % 256))

/-- The number of the next message is known: when `ms` have been taken over the counter stands at it. -/
structure InStep (reply : List PyStr → Reply) (c : Nat) (s : St) (ms : List PyStr) : Prop where
  pdu : s.smsTextMode = false
  taken : TakenOver reply s.log ms
  ref : s.smsRef = ((c + ms.length) % 256 : Nat)

/-- The messages (destination, text, flash) are sent one after the other, all with success; in between anything may
happen as long as no message is taken over and the counter and the mode stay. -/
inductive Sends [PyUnicode] (env : Env) : List (PyStr × PyStr × Bool) → St → St → Prop
  | done {s} : Sends env [] s s
  | send {d t f rest s s1 s2 i} : sendSms d t f env s = (.ok i, s1) → Sends env rest s1 s2 → Sends env ((d, t, f) :: rest) s s2
  | other {msgs s s1 s2} : s1.smsTextMode = s.smsTextMode → s1.smsRef = s.smsRef →
      (∀ ms, TakenOver env.reply s.log ms → TakenOver env.reply s1.log ms) → Sends env msgs s1 s2 → Sends env msgs s s2

/-- Texts that are sent in several parts and fit into them (C19, C79): characters of the GSM alphabet except '@' and the
extension characters, or others of the basic multilingual plane. -/
inductive FitsParts (text : PyStr) : Prop
  | gsm7 {os} : encodeGsm7 text = .ok os → 27 ∉ text → 64 ∉ text → (∀ c ∈ text, ∀ x, gsmExtChar x ≠ some c) → 160 < text.length → text.length / 160 + 1 < 256 →
      text.length ≤ (text.length / 160 + 1) * 153 → FitsParts text
  | ucs2 : encodeGsm7 text = .error .valueError → (∀ c ∈ text, c < 65536) → 70 < text.length → text.length / 70 + 1 < 256 →
      text.length ≤ (text.length / 70 + 1) * 67 → FitsParts text

/-- What arrives, when these PDUs are read in this order, is the text. -/
def ReadAs (parts : List PyStr) (text : PyStr) : Prop := ∃ texts, List.Forall₂ Arrives parts texts ∧ texts.flatten = text

end Gsm.Spec
