import Verif.Spec.Session
import Verif.Lemmas.Concatenated
import Verif.Props.Store
/-! # Lemmas: two programs -/
namespace Gsm
open M Spec List

/-- What a service centre makes of the PDU `m` has the text `t`. -/
def CarriesText (m t : PyStr) : Prop := ∃ octets u, m = pduHex octets ∧ (∀ x ∈ octets, x < 256) ∧ DeliversAs octets u ∧ u.text = t

theorem carries_conveyed {m t : PyStr} {sender : Option PyStr} {x : HeldSms} (h : CarriesText m t) (hx : Conveyed sender m x) : readPdu x.pdu = some (sender, t) := by
  obtain ⟨octets, u, rfl, ho, hd, rfl⟩ := h
  obtain ⟨octets', os, smsc, time, h1, h2, h3⟩ := hx
  have : octets' = octets := by
    have h4 := unhex_of h1
    rw [unhex_of (C22_str_pdu ho).1] at h4
    exact (Option.some.inj h4).symm
  subst this
  obtain ⟨len, h5⟩ := hd _ _ _ _ h2
  have : decodeSmsPdu x.pdu = .ok ⟨smsc, len, .deliver sender 0 time u⟩ := by unfold decodeSmsPdu; rw [unhex_of h3]; exact h5
  unfold readPdu
  rw [this]

variable {env : Env}

theorem carries_parts {n : Nat} {f : Nat → PyStr} {ps : List Pdu}
    (h : Forall₂ (fun i p => (∀ x ∈ p.data, x < 256) ∧ ∃ u, DeliversAs p.data u ∧ u.text = f i) (range n) ps) :
    Forall₂ CarriesText (ps.map fun p => pduHex p.data) ((range n).map f) := by
  generalize range n = l at h
  induction h with
  | nil => exact .nil
  | cons h _ ih =>
    obtain ⟨h1, u, h2, h3⟩ := h
    exact .cons ⟨_, u, rfl, h1, h2, h3⟩ ih

/-- The PDUs of a message. -/
theorem encode_carries [PyUnicode] {destination ds text : PyStr} {flash : Bool} {r : Nat} {pdus : List Pdu} (hr : r < 256) (hd : Phone destination ds)
    (hl : ds.length < 256) (hf : FitsOne text ∨ FitsParts text) (he : encodeSmsSubmitPdu destination text r (sendFlash := flash) = .ok pdus) :
    ∃ T : List PyStr, Forall₂ CarriesText (pdus.map fun p => pduHex p.data) T ∧ T.flatten = text ∧ (FitsOne text → T = [text]) := by
  have ha : AddrOk false destination destination := .phone hd (by unfold maxDigits; simp; omega)
  have hno : ∀ {os : List Nat} {t : PyStr} {k : Nat}, 64 ∉ t → trimAt (os.length % 8 = k) t = t := by
    intro os t k h
    rw [trimAt, if_neg]
    rintro ⟨_, h'⟩
    exact h (mem_of_getLast? h')
  rcases hf with hf | hf
  · cases hf with
    | gsm7 h1 h2 h3 h4 h5 h6 =>
      obtain ⟨p, k1, k2, k3⟩ := relay_gsm7 flash ha hr h1 h3 h2 h5 h6
      rw [he] at k1; cases k1
      exact ⟨[text], .cons ⟨_, _, rfl, k2, k3, hno h4⟩ .nil, by simp, fun _ => rfl⟩
    | ucs2 h1 h2 h3 =>
      obtain ⟨p, k1, k2, k3⟩ := relay_ucs2 flash ha hr h1 h2 h3
      rw [he] at k1; cases k1
      exact ⟨[text], .cons ⟨_, _, rfl, k2, k3, rfl⟩ .nil, by simp, fun _ => rfl⟩
  · cases hf with
    | gsm7 f1 f2 f3 f4 f5 f6 f7 =>
      obtain ⟨ps, k1, k2⟩ := relay_gsm7_parts flash ha hr f2 f1 f5 f6 (by
        intro i osi ho
        rw [encodeGsm7_length ho (fun c hc ⟨x, hx⟩ => f4 c (mem_of_mem_drop (mem_of_mem_take hc)) x hx)]
        simp [slice])
      rw [he] at k1; cases k1
      refine ⟨_, carries_parts (f := slice 153 text) (k2.imp ?_), ?_, fun h => ?_⟩
      · rintro i p ⟨h1, osi, -, h2⟩
        exact ⟨h1, _, h2, hno fun h => f3 (mem_of_mem_drop (mem_of_mem_take h))⟩
      · rw [← flatMap_def, slices_join, take_of_length_le f7]
      · cases h with
        | gsm7 _ _ _ _ h _ => omega
        | ucs2 h _ _ => rw [f1] at h; cases h
    | ucs2 f1 f2 f3 f4 f5 =>
      obtain ⟨ps, k1, k2⟩ := relay_ucs2_parts flash ha hr f1 f2 f3 f4
      rw [he] at k1; cases k1
      refine ⟨_, carries_parts (f := slice 67 text) (k2.imp ?_), ?_, fun h => ?_⟩
      · rintro i p ⟨h1, h2⟩
        exact ⟨h1, _, h2, rfl⟩
      · rw [← flatMap_def, slices_join, take_of_length_le f5]
      · cases h with
        | gsm7 _ h _ _ _ _ => rw [f1] at h; cases h
        | ucs2 _ _ h => omega

theorem sends_carry [PyUnicode] {msgs : List (PyStr × PyStr × Bool)} {s s' : St} (h : Sends env msgs s s') : ∀ {ms : List PyStr}, s.smsTextMode = false →
    TakenOver env.reply s.log ms → (∀ m ∈ msgs, Conveyable m) →
    ∃ (groups texts : List (List PyStr)), TakenOver env.reply s'.log (ms ++ groups.flatten) ∧ Forall₂ (fun m T => SplitInto m.2.1 T) msgs texts ∧
      Forall₂ CarriesText groups.flatten texts.flatten := by
  induction h with
  | done => intro ms hm ht _; exact ⟨[], [], by simpa using ht, .nil, .nil⟩
  | other h1 h2 h3 _ ih => intro ms hm ht hg; exact ih (h1.trans hm) (h3 _ ht) hg
  | @send d t f rest s s1 s2 i hs _ ih =>
    intro ms hm ht hg
    obtain ⟨⟨ds, hd, hl⟩, hf⟩ := hg _ mem_cons_self
    cases he : encodeSmsSubmitPdu d t s.smsRef (sendFlash := f) with
    | error e => rw [C38_not_encodable hm he] at hs; cases hs
    | ok pdus =>
      obtain ⟨r, k1, k2, -⟩ := encode_parts he
      obtain ⟨n, _, h4, h5⟩ := C79_submitted (envA := env) hm he ht
      have := h5 ⟨i, by rw [hs]⟩
      subst this
      rw [hs, take_length] at h4
      dsimp only at h4
      obtain ⟨_, _, -, -, -, hm', -⟩ := send_state hm he hs
      obtain ⟨groups, texts, g1, g2, g3⟩ := ih hm' h4 fun m hm => hg m (mem_cons_of_mem _ hm)
      rw [k1] at he
      obtain ⟨T, t1, t2, t3⟩ := encode_carries k2 hd hl hf he
      exact ⟨_ :: groups, T :: texts, by simpa using g1, .cons ⟨t2, t3⟩ g2, by simpa using rel_append t1 g3⟩

theorem made_read {x : HeldSms} {m : Msg} (h : MadeInto x m) : readOff m = readPdu x.pdu := by
  unfold readPdu
  rcases h with ⟨_, _, _, _, _, _, h, rfl⟩ | ⟨_, _, _, _, _, _, _, h, rfl⟩ <;> rw [h] <;> rfl

theorem conveyed_texts {sender : Option PyStr} {order texts : List PyStr} {stored : List HeldSms} (h : Forall₂ CarriesText order texts) :
    Forall₂ (Conveyed sender) order stored → stored.map (fun x => readPdu x.pdu) = texts.map fun t => some (sender, t) := by
  induction h generalizing stored with
  | nil => intro h; cases h; rfl
  | cons h _ ih =>
    intro hc
    cases hc with
    | cons h1 h2 => simp only [map_cons]; rw [carries_conveyed h h1, ih h2]

theorem all_conveyed {sender : Option PyStr} {ms texts : List PyStr} {stored : List HeldSms} (h : Forall₂ CarriesText ms texts) (hc : AllConveyed sender ms stored) :
    stored.map (fun x => readPdu x.pdu) ~ texts.map fun t => some (sender, t) := by
  obtain ⟨order, h1, h2⟩ := hc
  obtain ⟨texts', h3, h4⟩ : ∃ texts', Forall₂ CarriesText order texts' ∧ texts' ~ texts := by
    obtain ⟨z, h3, h4⟩ := (perm_comp_forall₂ h1 h)
    exact ⟨z, h3, h4⟩
  rw [conveyed_texts h3 h2]
  exact h4.map _

end Gsm
