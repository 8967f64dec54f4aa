import Verif.Props.Hex
import Verif.Lemmas.Deliver
/-! # Property C26: what decoding a bad PDU raises -/
namespace Gsm
open Spec

/-- The exceptions that escape the decoder besides `EncodingError`. -/
def RawErr (e : PyErr) : Prop :=
  e = .stopIteration ∨ e = .typeError ∨ e = .valueError ∨ e = .indexError

/-- Only `RawErr` exceptions. -/
def OnlyRaw {α} (x : Except PyErr α) : Prop := ∀ e, x = .error e → RawErr e

theorem onlyRaw_ok {α} (a : α) : OnlyRaw (.ok a) := fun _ h => by cases h
theorem onlyRaw_err {α} {e : PyErr} (h : RawErr e) : OnlyRaw (.error e : Except PyErr α) :=
  fun _ h' => by cases h'; exact h
theorem onlyRaw_bind {α β} {x : Except PyErr α} {f : α → Except PyErr β} (hx : OnlyRaw x)
    (hf : ∀ a, OnlyRaw (f a)) : OnlyRaw (x >>= f) := by
  cases x with
  | ok a => exact hf a
  | error e => exact fun e' h => hx e' (by cases h; rfl)
theorem onlyRaw_ite {α} {c : Prop} [Decidable c] {x y : Except PyErr α} (hx : OnlyRaw x) (hy : OnlyRaw y) :
    OnlyRaw (if c then x else y) := by split <;> assumption

theorem except_ok_bind {α β ε} (a : α) (f : α → Except ε β) : ((.ok a : Except ε α) >>= f) = f a := rfl

theorem onlyRaw_next (it : List Nat) : OnlyRaw (next it) := by
  cases it with
  | nil => exact onlyRaw_err (.inl rfl)
  | cons _ _ => exact onlyRaw_ok _

theorem onlyRaw_unpackLoop (n : Option Nat) : ∀ (it : List Nat) (i : Nat) (p : Option Nat) (s : Nat),
    OnlyRaw (unpackLoop n i p s it)
  | [], _, _, _ => onlyRaw_ok _
  | o :: it, i, p, s => by
    unfold unpackLoop
    dsimp only
    refine onlyRaw_ite ?_ ?_
    · exact onlyRaw_ite (onlyRaw_ok _) (onlyRaw_bind (onlyRaw_unpackLoop n it _ _ _) (fun _ => onlyRaw_ok _))
    · cases p with
      | none => exact onlyRaw_err (.inr (.inl rfl))
      | some p => exact onlyRaw_ite (onlyRaw_ok _) (onlyRaw_bind (onlyRaw_unpackLoop n it _ _ _) (fun _ => onlyRaw_ok _))

theorem onlyRaw_unpackSeptets (it : List Nat) (n p : Option Nat) (s : Nat) : OnlyRaw (unpackSeptets it n p s) := by
  unfold unpackSeptets
  refine onlyRaw_bind (onlyRaw_unpackLoop _ _ _ _ _) (fun e => onlyRaw_ite ?_ (onlyRaw_ok _))
  cases e.prevOctet with
  | none => exact onlyRaw_err (.inr (.inl rfl))
  | some p => exact onlyRaw_ite (onlyRaw_ok _) (onlyRaw_ok _)

theorem onlyRaw_decodeGsm7 (os : List Nat) : OnlyRaw (decodeGsm7 os) := by
  fun_induction decodeGsm7 os with
  | case1 => exact onlyRaw_ok _
  | case2 => exact onlyRaw_err (.inl rfl)
  | case3 _ _ ih => exact onlyRaw_bind ih (fun _ => onlyRaw_ok _)
  | case4 => exact onlyRaw_err (.inr (.inr (.inr rfl)))
  | case5 _ _ _ _ _ ih => exact onlyRaw_bind ih (fun _ => onlyRaw_ok _)

theorem onlyRaw_address (it : List Nat) (b : Bool) : OnlyRaw (decodeAddressField it b) := by
  unfold decodeAddressField
  refine onlyRaw_bind (onlyRaw_next _) (fun _ => onlyRaw_ite ?_ (onlyRaw_ok _))
  refine onlyRaw_bind (onlyRaw_next _) (fun _ => onlyRaw_ite ?_ (onlyRaw_ok _))
  exact onlyRaw_bind (onlyRaw_unpackSeptets _ _ _ _) (fun _ => onlyRaw_bind (onlyRaw_decodeGsm7 _) (fun _ => onlyRaw_ok _))

theorem onlyRaw_intBase (b : Nat) (s : PyStr) : OnlyRaw (intBase b s) := by
  unfold intBase
  refine onlyRaw_ite (onlyRaw_err (.inr (.inr (.inl rfl)))) ?_
  generalize (0 : Nat) = acc
  induction s generalizing acc with
  | nil => exact onlyRaw_ok _
  | cons c s ih =>
    rw [List.foldlM_cons]
    refine onlyRaw_bind ?_ (fun a => ih a)
    split
    · exact onlyRaw_ite (onlyRaw_ok _) (onlyRaw_err (.inr (.inr (.inl rfl))))
    · exact onlyRaw_err (.inr (.inr (.inl rfl)))

theorem onlyRaw_timestamp (it : List Nat) : OnlyRaw (decodeTimestamp it) := by
  unfold decodeTimestamp
  refine onlyRaw_bind ?_ (fun _ => onlyRaw_bind ?_ (fun _ => onlyRaw_ok _))
  · unfold strptimeCompact mkStrptime
    split
    · split
      · exact onlyRaw_ite (onlyRaw_ok _) (onlyRaw_err (.inr (.inr (.inl rfl))))
      · exact onlyRaw_err (.inr (.inr (.inl rfl)))
    · exact onlyRaw_err (.inr (.inr (.inl rfl)))
  · unfold pduTzOffset
    refine onlyRaw_bind (onlyRaw_intBase _ _) (fun _ => onlyRaw_ite ?_ ?_)
    · exact onlyRaw_bind (onlyRaw_intBase _ _) (fun _ => onlyRaw_ok _)
    · exact onlyRaw_bind (onlyRaw_intBase _ _) (fun _ => onlyRaw_ok _)

theorem onlyRaw_takeExact : ∀ (n : Nat) (it : List Nat), OnlyRaw (takeExact n it)
  | 0, _ => onlyRaw_ok _
  | n + 1, it => by
    unfold takeExact
    exact onlyRaw_bind (onlyRaw_next _) (fun _ => onlyRaw_bind (onlyRaw_takeExact n _) (fun _ => onlyRaw_ok _))

theorem onlyRaw_mkIE (i n : Nat) (d : List Nat) : OnlyRaw (mkIE i n d) := by
  unfold mkIE
  have hv : RawErr .valueError := .inr (.inr (.inl rfl))
  have hi : RawErr .indexError := .inr (.inr (.inr rfl))
  refine onlyRaw_ite ?_ (onlyRaw_ite ?_ (onlyRaw_ite ?_ (onlyRaw_ite ?_ (onlyRaw_ok _)))) <;> split <;>
    first
    | exact onlyRaw_ok _
    | exact onlyRaw_err hv
    | exact onlyRaw_err hi

theorem onlyRaw_udhLoop (u : Nat) : ∀ (f r : Nat) (it : List Nat), OnlyRaw (decodeUdhLoop f u r it)
  | 0, _, _ => onlyRaw_ok _
  | f + 1, r, it => by
    unfold decodeUdhLoop
    refine onlyRaw_ite (onlyRaw_bind ?_ (fun _ => onlyRaw_bind (onlyRaw_udhLoop u f _ _) (fun _ => onlyRaw_ok _)))
      (onlyRaw_ok _)
    unfold decodeIE
    exact onlyRaw_bind (onlyRaw_next _) (fun _ => onlyRaw_bind (onlyRaw_next _) (fun _ =>
      onlyRaw_bind (onlyRaw_takeExact _ _) (fun _ => onlyRaw_bind (onlyRaw_mkIE _ _ _) (fun _ => onlyRaw_ok _))))

theorem onlyRaw_userText (it : List Nat) (n a : Nat) (u : Option Nat) : OnlyRaw (decodeUserText it n a u) := by
  unfold decodeUserText
  refine onlyRaw_ite ?_ (onlyRaw_ite (onlyRaw_ok _) (onlyRaw_ok _))
  cases u with
  | none => exact onlyRaw_bind (onlyRaw_unpackSeptets _ _ _ _) (fun _ => onlyRaw_decodeGsm7 _)
  | some u =>
    exact onlyRaw_bind (onlyRaw_next _) (fun _ => onlyRaw_bind (onlyRaw_unpackSeptets _ _ _ _)
      (fun _ => onlyRaw_decodeGsm7 _))

theorem onlyRaw_userData (it : List Nat) (n a : Nat) (b : Bool) : OnlyRaw (decodeUserData it n a b) := by
  unfold decodeUserData
  refine onlyRaw_ite ?_ ?_
  · exact onlyRaw_bind (onlyRaw_next _) (fun _ => onlyRaw_bind (onlyRaw_udhLoop _ _ _ _) (fun _ =>
      onlyRaw_bind (onlyRaw_userText _ _ _ _) (fun _ => onlyRaw_ok _)))
  · exact onlyRaw_bind (onlyRaw_userText _ _ _ _) (fun _ => onlyRaw_ok _)

theorem onlyRaw_relative (x : Nat) : OnlyRaw (decodeRelativeValidityPeriod x) := by
  unfold decodeRelativeValidityPeriod
  exact onlyRaw_ite (onlyRaw_ok _) (onlyRaw_ite (onlyRaw_ok _) (onlyRaw_ite (onlyRaw_ok _)
    (onlyRaw_ite (onlyRaw_ok _) (onlyRaw_err (.inr (.inr (.inl rfl)))))))

/-- The message type bits of a TPDU (the two low bits of its first octet), if there is a first octet. -/
def mti (tpdu : List Nat) : Option Nat := tpdu.head?.map (· % 4)

theorem decodeTpdu_reserved {it : List Nat} (h : mti it = some 3) : decodeTpdu it = .error .encodingError := by
  match it, h with
  | fo :: rest, h =>
    simp only [mti, List.head?_cons, Option.map_some, Option.some.injEq] at h
    simp [decodeTpdu, next, and3, h, bind, Except.bind]

theorem decodeTpdu_raw {it : List Nat} (h : mti it ≠ some 3) : OnlyRaw (decodeTpdu it) := by
  match it, h with
  | [], _ => exact onlyRaw_err (.inl rfl)
  | fo :: rest, h =>
    simp only [mti, List.head?_cons, Option.map_some, ne_eq, Option.some.injEq] at h
    have h4 : fo % 4 < 4 := Nat.mod_lt _ (by omega)
    unfold decodeTpdu
    have hn : next (fo :: rest) = .ok (fo, rest) := rfl
    rw [hn]
    simp only [except_ok_bind, and3]
    by_cases h0 : fo % 4 = 0
    · rw [if_pos h0]
      exact onlyRaw_bind (onlyRaw_address _ _) (fun _ => onlyRaw_bind (onlyRaw_next _) (fun _ =>
        onlyRaw_bind (onlyRaw_next _) (fun _ => onlyRaw_bind (onlyRaw_timestamp _) (fun _ =>
        onlyRaw_bind (onlyRaw_next _) (fun _ => onlyRaw_bind (onlyRaw_userData _ _ _ _) (fun _ => onlyRaw_ok _))))))
    rw [if_neg h0]
    by_cases h1 : fo % 4 = 1
    · rw [if_pos h1]
      refine onlyRaw_bind (onlyRaw_next _) (fun _ => onlyRaw_bind (onlyRaw_address _ _) (fun _ =>
        onlyRaw_bind (onlyRaw_next _) (fun _ => onlyRaw_bind (onlyRaw_next _) (fun _ => ?_))))
      have tail : ∀ (v : DecodedValidity) (it : List Nat) (r : Nat) (n : Option PyStr) (pid a : Nat) (b : Bool),
          OnlyRaw (do
            let (userDataLen, it) ← next it
            let ud ← decodeUserData it userDataLen a b
            return SmsBody.submit r n pid v ud) := fun _ _ _ _ _ _ _ =>
        onlyRaw_bind (onlyRaw_next _) (fun _ => onlyRaw_bind (onlyRaw_userData _ _ _ _) (fun _ => onlyRaw_ok _))
      refine onlyRaw_ite ?_ (onlyRaw_ite ?_ ?_)
      · exact onlyRaw_bind (onlyRaw_next _) (fun _ => onlyRaw_bind (onlyRaw_relative _) (fun _ => tail _ _ _ _ _ _ _))
      · exact onlyRaw_bind (onlyRaw_timestamp _) (fun _ => tail _ _ _ _ _ _ _)
      · exact tail _ _ _ _ _ _ _
    · rw [if_neg h1]
      by_cases h2 : fo % 4 = 2
      · rw [if_pos h2]
        exact onlyRaw_bind (onlyRaw_next _) (fun _ => onlyRaw_bind (onlyRaw_address _ _) (fun _ =>
          onlyRaw_bind (onlyRaw_timestamp _) (fun _ => onlyRaw_bind (onlyRaw_timestamp _) (fun _ =>
          onlyRaw_bind (onlyRaw_next _) (fun _ => onlyRaw_ok _)))))
      · omega

/-- C26. Whatever octets it is given, `decodeSmsPdu` either returns, raises `EncodingError`, or raises one
of four other exceptions; `EncodingError` is raised exactly when the service centre address can be read and
the message type bits are the reserved value 3. -/
theorem C26_octets (pdu : List Nat) :
    (∀ e, decodeSmsPduOctets pdu = .error e → e = .encodingError ∨ RawErr e) ∧
    (decodeSmsPduOctets pdu = .error .encodingError ↔
      ∃ a rest, decodeAddressField pdu true = .ok (a, rest) ∧ mti rest = some 3) := by
  have hr : ¬ RawErr .encodingError := by unfold RawErr; simp
  unfold decodeSmsPduOctets
  cases ha : decodeAddressField pdu true with
  | error e =>
    have := onlyRaw_address pdu true e ha
    refine ⟨fun e' h => .inr (by cases h; exact this), ⟨fun h => ?_, by simp⟩⟩
    cases h; exact absurd this hr
  | ok p =>
    obtain ⟨⟨smsc, n⟩, rest⟩ := p
    simp only [bind, Except.bind]
    by_cases h3 : mti rest = some 3
    · rw [decodeTpdu_reserved h3]
      refine ⟨fun e h => .inl (by cases h; rfl), ⟨fun _ => ⟨_, _, rfl, h3⟩, fun _ => rfl⟩⟩
    · have := decodeTpdu_raw h3
      cases hb : decodeTpdu rest with
      | error e =>
        refine ⟨fun e' h => .inr (by cases h; exact this e hb), ⟨fun h => ?_, ?_⟩⟩
        · cases h; exact absurd (this _ hb) hr
        · rintro ⟨a, r, h, h3'⟩; cases h; exact absurd h3' h3
      | ok b =>
        refine ⟨(fun e' h => by cases h), ⟨(fun h => by cases h), ?_⟩⟩
        rintro ⟨a, r, h, h3'⟩; cases h; exact absurd h3' h3

/-- C26. For a string the same, plus `EncodingError` for anything that is not hexadecimal. -/
theorem C26_string (s : PyStr) {e : PyErr} (h : decodeSmsPdu s = .error e) :
    (e = .encodingError ↔ (s.length % 2 = 1 ∨ ∃ c ∈ s, ¬ IsHexChar c) ∨
      ∃ os a rest, HexOf os s ∧ decodeAddressField os true = .ok (a, rest) ∧ mti rest = some 3) ∧
    (e ≠ .encodingError → RawErr e) := by
  cases hu : unhex s with
  | none =>
    have : e = .encodingError := by simp [decodeSmsPdu, hu] at h; exact h.symm
    exact ⟨⟨fun _ => .inl (unhex_none.1 hu), fun _ => this⟩, fun h => absurd this h⟩
  | some os =>
    have h' : decodeSmsPduOctets os = .error e := by simpa [decodeSmsPdu, hu] using h
    obtain ⟨h1, h2⟩ := C26_octets os
    refine ⟨⟨?_, ?_⟩, fun hne => (h1 e h').resolve_left hne⟩
    · rintro rfl
      obtain ⟨a, rest, x, y⟩ := h2.1 h'
      exact .inr ⟨os, a, rest, of_unhex hu, x, y⟩
    · rintro (hbad | ⟨os', a, rest, x, y, z⟩)
      · rw [unhex_none.2 hbad] at hu; cases hu
      · have := unhex_of x
        rw [hu] at this
        cases this
        have := h2.2 ⟨a, rest, y, z⟩
        rw [h'] at this
        cases this; rfl

/-- C26 (violated): every one of the four other exceptions does occur: the empty string, an empty GSM-7
message, an impossible date and a malformed 16-bit concatenation element. -/
theorem C26_violations :
    decodeSmsPdu [] = .error .stopIteration ∧
    decodeSmsPdu py!"00040591722143000031304131205380" = .error .stopIteration ∧
    decodeSmsPdu py!"0004059172214300003130413120538000" = .error .typeError ∧
    decodeSmsPdu py!"00040591722143000031D04131205380026869" = .error .valueError ∧
    decodeSmsPdu py!"00440591722143000031304131205380030208016869" = .error .indexError := by
  decide +kernel

example : decodeSmsPdu py!"0003" = .error .encodingError := by decide
example : mti [3, 7] = some 3 := by decide

end Gsm
