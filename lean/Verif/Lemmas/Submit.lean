import Verif.Model.Pdu
import Verif.Spec.Submit
import Verif.Lemmas.Udh
import Verif.Props.Address
import Verif.Props.Timestamp
import Verif.Props.Validity
import Mathlib.Data.List.Forall2
namespace Gsm
open Spec

/-- Header and text of a part. -/
def PartOf (reference : Int) (text : PyStr) (alphabet : Nat) (parts : Option Nat) (i : Nat)
    (udh : List Nat) (ptext : PyStr) : Prop :=
  match parts with
  | none => udh = [] ∧ ptext = text
  | some n => encodeConcatenation reference n (i + 1 : Nat) = .ok udh ∧
      ptext = if alphabet = 0x00 then (text.drop (i * 153)).take 153 else (text.drop (i * 67)).take 67

/-- The data coding octet. -/
def dcsOf (sendFlash : Bool) (alphabet : Nat) : Nat :=
  if !sendFlash then alphabet else if alphabet = 0x00 then 0x10 else 0x18

theorem submitPart_ok_iff [PyUnicode] {number text : PyStr} {reference : Int} {smsc : Option PyStr}
    {sendFlash : Bool} {fo : Nat} {vpi : List Int} {alphabet : Nat} {parts : Option Nat} {i : Nat}
    {p : Pdu} :
    submitPart number text reference smsc sendFlash fo vpi alphabet parts i = .ok p ↔
    ∃ sca mr da vp udh ptext ud, smscField smsc = .ok sca ∧
      PartOf reference text alphabet parts i udh ptext ∧ byteOf reference = .ok mr ∧
      encodeAddressField number = .ok da ∧ bytesOf vpi = .ok vp ∧
      userDataPart alphabet ptext udh = .ok ud ∧
      p = ⟨sca ++ fo :: mr :: da ++ 0x00 :: dcsOf sendFlash alphabet :: vp ++ ud,
        (sca ++ fo :: mr :: da ++ 0x00 :: dcsOf sendFlash alphabet :: vp ++ ud).length - 1⟩ := by
  unfold submitPart
  cases parts with
  | none =>
    simp only [except_bind_ok, pure, Except.pure, Except.ok.injEq, PartOf]
    constructor
    · rintro ⟨sca, h1, _, rfl, mr, h3, da, h4, vp, h5, ud, h6, rfl⟩
      exact ⟨sca, mr, da, vp, [], text, ud, h1, ⟨rfl, rfl⟩, h3, h4, h5, h6, rfl⟩
    · rintro ⟨sca, mr, da, vp, udh, ptext, ud, h1, ⟨rfl, rfl⟩, h3, h4, h5, h6, rfl⟩
      exact ⟨sca, h1, _, rfl, mr, h3, da, h4, vp, h5, ud, h6, rfl⟩
  | some n =>
    simp only [except_bind_ok, pure, Except.pure, Except.ok.injEq, PartOf]
    constructor
    · rintro ⟨sca, h1, udh, h2, _, rfl, mr, h3, da, h4, vp, h5, ud, h6, rfl⟩
      exact ⟨sca, mr, da, vp, udh, _, ud, h1, ⟨h2, rfl⟩, h3, h4, h5, h6, rfl⟩
    · rintro ⟨sca, mr, da, vp, udh, ptext, ud, h1, ⟨h2, rfl⟩, h3, h4, h5, h6, rfl⟩
      exact ⟨sca, h1, udh, h2, _, rfl, mr, h3, da, h4, vp, h5, ud, h6, rfl⟩

theorem submitLoop_ok_iff {part : Nat → Except PyErr Pdu} : ∀ {is : List Nat} {ps : List Pdu},
    submitLoop part is = .ok ps ↔ List.Forall₂ (fun i p => part i = .ok p) is ps
  | [], ps => by
    simp only [submitLoop, Except.ok.injEq, List.forall₂_nil_left_iff, eq_comm]
  | i :: is, ps => by
    simp only [submitLoop, except_bind_ok, pure, Except.pure, Except.ok.injEq, submitLoop_ok_iff,
      List.forall₂_cons_left_iff]
    constructor
    · rintro ⟨a, h1, b, h2, rfl⟩; exact ⟨a, b, h1, h2, rfl⟩
    · rintro ⟨a, b, h1, h2, rfl⟩; exact ⟨a, h1, b, h2, rfl⟩

/-- First octet. -/
def foOf (vbits : Nat) (rejectDuplicates requestStatusReport multipart : Bool) : Nat :=
  let fo := 0x01 ||| vbits
  let fo := if rejectDuplicates then fo ||| 0x04 else fo
  let fo := if requestStatusReport then fo ||| 0x20 else fo
  if multipart then fo ||| 0x40 else fo

/-- The parts of a message. -/
def partsOf (text : PyStr) (alphabet : Nat) : Option Nat :=
  if text.length > maxMessageLength alphabet then some (text.length / maxMessageLength alphabet + 1) else none

/-- `encodeSmsSubmitPdu` as a list of parts. -/
theorem encodeSmsSubmitPdu_ok_iff [PyUnicode] {number text : PyStr} {reference : Int}
    {validity : Validity} {smsc : Option PyStr} {srr rd flash : Bool} {ps : List Pdu} :
    encodeSmsSubmitPdu number text reference validity smsc srr rd flash = .ok ps ↔
    ∃ vbits vpi alphabet, validityPart validity = .ok (vbits, vpi) ∧
      chooseAlphabet text = .ok alphabet ∧
      List.Forall₂ (fun i p => submitPart number text reference smsc flash
        (foOf vbits rd srr (partsOf text alphabet).isSome) vpi alphabet (partsOf text alphabet) i = .ok p)
        (List.range ((partsOf text alphabet).getD 1)) ps := by
  unfold encodeSmsSubmitPdu
  simp only [except_bind_ok]
  constructor
  · rintro ⟨⟨vbits, vpi⟩, h1, alphabet, h2, h3⟩
    refine ⟨vbits, vpi, alphabet, h1, h2, ?_⟩
    unfold partsOf
    split at h3
    · rename_i h
      simp only [h, if_true, Option.isSome_some, Option.getD_some]
      exact submitLoop_ok_iff.1 h3
    · rename_i h
      simp only [h, if_false, Option.isSome_none, Option.getD_none]
      exact submitLoop_ok_iff.1 h3
  · rintro ⟨vbits, vpi, alphabet, h1, h2, h3⟩
    refine ⟨⟨vbits, vpi⟩, h1, alphabet, h2, ?_⟩
    unfold partsOf at h3
    split
    · rename_i h
      simp only [h, if_true, Option.isSome_some, Option.getD_some] at h3
      exact submitLoop_ok_iff.2 h3
    · rename_i h
      simp only [h, if_false, Option.isSome_none, Option.getD_none] at h3
      exact submitLoop_ok_iff.2 h3

theorem chooseAlphabet_ok {text : PyStr} {a : Nat} (h : chooseAlphabet text = .ok a) :
    ((∀ c ∈ text, Encodable c) ∧ a = 0) ∨ (¬ (∀ c ∈ text, Encodable c) ∧ a = 8) := by
  unfold chooseAlphabet at h
  split at h
  · rename_i os ho
    cases h
    exact .inl ⟨(C02_accepts_iff text).1 ⟨os, ho⟩, rfl⟩
  · rename_i he
    cases h
    refine .inr ⟨fun hn => ?_, rfl⟩
    obtain ⟨os, ho⟩ := (C02_accepts_iff text).2 hn
    rw [ho] at he; cases he
  · cases h

theorem validityPart_ok [PyUnicode] {v : Validity} {vbits : Nat} {vpi : List Int}
    (h : validityPart v = .ok (vbits, vpi)) :
    (v = .none ∧ vbits = 0 ∧ vpi = []) ∨
    (∃ t x, v = .relative t ∧ encodeRelativeValidityPeriod t = .ok x ∧ vbits = 0x10 ∧ vpi = [x]) ∨
    (∃ d os, v = .absolute d ∧ encodeTimestamp d = .ok os ∧ vbits = 0x18 ∧
      vpi = os.map (fun (n : Nat) => (n : Int))) := by
  cases v with
  | none => simp [validityPart] at h; simp [h]
  | relative t =>
    simp only [validityPart, except_bind_ok, pure, Except.pure, Except.ok.injEq, Prod.mk.injEq] at h
    obtain ⟨x, hx, rfl, rfl⟩ := h
    exact .inr (.inl ⟨t, x, rfl, hx, rfl, rfl⟩)
  | absolute d =>
    simp only [validityPart, except_bind_ok, pure, Except.pure, Except.ok.injEq, Prod.mk.injEq] at h
    obtain ⟨x, hx, rfl, rfl⟩ := h
    exact .inr (.inr ⟨d, x, rfl, hx, rfl, rfl⟩)
  | otherType => simp [validityPart] at h

/-- Shape of the user data. -/
theorem userDataPart_ok {alphabet : Nat} {ptext : PyStr} {udh out : List Nat}
    (h : userDataPart alphabet ptext udh = .ok out) :
    ∃ udl body, out = udl :: (if udh = [] then body else udh.length :: udh ++ body) ∧ udl < 256 ∧
      (udh ≠ [] → udh.length < 256) ∧
      ((alphabet = 0 ∧ ∃ os, encodeGsm7 ptext = .ok os ∧
          packSeptets os (if udh = [] then 0 else ((udh.length + 1) * 8) % 7) = .ok body ∧
          udl = if udh = [] then os.length
            else (if ((udh.length + 1) * 8) % 7 > 0 then os.length + 1 else os.length) + udh.length + 1) ∨
       (alphabet ≠ 0 ∧ encodeUcs2 ptext = .ok body ∧
          udl = if udh = [] then body.length else body.length + udh.length + 1)) := by
  unfold userDataPart at h
  by_cases hu : udh = []
  · subst hu
    by_cases ha : alphabet = 0
    · simp only [ha, if_true, List.length_nil, gt_iff_lt, lt_self_iff_false, if_false, except_bind_ok, pure,
        Except.pure, Except.ok.injEq, byteOf_eq_ok] at h
      obtain ⟨os, ho, body, hp, _, rfl, udl, ⟨h2, h2'⟩, rfl⟩ := h
      refine ⟨udl, body, by simp, by omega, by simp, .inl ⟨ha, os, ho, by simpa using hp, by simp at h2' ⊢; omega⟩⟩
    · simp only [ha, List.length_nil, gt_iff_lt, lt_self_iff_false, if_false, except_bind_ok, pure,
        Except.pure, Except.ok.injEq, byteOf_eq_ok] at h
      obtain ⟨body, ho, _, rfl, udl, ⟨h2, h2'⟩, rfl⟩ := h
      refine ⟨udl, body, by simp, by omega, by simp, .inr ⟨ha, ho, by simp at h2' ⊢; omega⟩⟩
  · have hpos : 0 < udh.length := List.length_pos_iff.2 hu
    by_cases ha : alphabet = 0
    · simp only [ha, if_true, gt_iff_lt, hpos, except_bind_ok, pure,
        Except.pure, Except.ok.injEq, byteOf_eq_ok] at h
      obtain ⟨os, ho, body, hp, _, rfl, udl, ⟨h2, h2'⟩, udhl, ⟨h3, h3'⟩, rfl⟩ := h
      refine ⟨udl, body, ?_, by omega, fun _ => by omega, .inl ⟨ha, os, ho, by simpa [hu] using hp, ?_⟩⟩
      · simp only [hu, if_false, List.cons_append, List.cons.injEq, true_and, and_true]; omega
      · simp only [hu, if_false, gt_iff_lt]; omega
    · simp only [ha, if_false, gt_iff_lt, hpos, if_true, except_bind_ok, pure,
        Except.pure, Except.ok.injEq, byteOf_eq_ok] at h
      obtain ⟨body, ho, _, rfl, udl, ⟨h2, h2'⟩, udhl, ⟨h3, h3'⟩, rfl⟩ := h
      refine ⟨udl, body, ?_, by omega, fun _ => by omega, .inr ⟨ha, ho, ?_⟩⟩
      · simp only [hu, if_false, List.cons_append, List.cons.injEq, true_and, and_true]; omega
      · simp only [hu, if_false] at *; omega

end Gsm
