import Verif.Lemmas.Relay
/-! # Property C79: the way of a message from one program to another -/
namespace Gsm
open Spec

variable {envA : Env}

/-- What a modem has taken over is determined by what was written to it and its answers. -/
theorem C79_taken_unique {reply : List PyStr → Reply} {log ms ms' : List PyStr} (h : TakenOver reply log ms) (h' : TakenOver reply log ms') :
    ms = ms' := taken_unique h h'

/-- A service centre reads an SMS-SUBMIT in one way only. -/
theorem C79_read_unique {os : List Nat} {f g : SubmitFields} (hf : SubmitRead os f) (hg : SubmitRead os g) : f = g := submit_read_unique hf hg

/-- In PDU mode the sender's modem takes over the PDUs of the message in order, each of them once however often
the modem was busy; all of them if `sendSms` succeeds, otherwise those up to some point. -/
theorem C79_submitted [PyUnicode] {destination text : PyStr} {flash : Bool} {s : St} {pdus : List Pdu} {ms : List PyStr} (hm : s.smsTextMode = false)
    (he : encodeSmsSubmitPdu destination text s.smsRef (sendFlash := flash) = .ok pdus) (ht : TakenOver envA.reply s.log ms) :
    ∃ n ≤ pdus.length, TakenOver envA.reply (sendSms destination text flash envA s).2.log (ms ++ (pdus.take n).map (fun p => pduHex p.data)) ∧
      ((∃ i, (sendSms destination text flash envA s).1 = .ok i) → n = pdus.length) := by
  obtain ⟨ok, h1, h2, _⟩ := C38_pdu_mode (env := envA) hm he
  obtain ⟨k, _, h4, h5⟩ := taken_transmission h1 ht
  obtain ⟨n, h6, h7, h8⟩ := pdus_ctrlZ pdus k
  refine ⟨n, h6, by rw [← h7]; exact h4, ?_⟩
  rintro ⟨i, hi⟩
  cases ok with
  | true => exact h8 (h5 rfl)
  | false =>
    obtain ⟨⟨e, he⟩, _⟩ := h2 rfl
    rw [hi] at he; cases he

theorem forall₂_map_right {α β γ} {R : α → γ → Prop} {f : β → γ} {l : List α} {k : List β} (h : List.Forall₂ (fun a b => R a (f b)) l k) :
    List.Forall₂ R l (k.map f) := by
  induction h with
  | nil => exact .nil
  | cons h _ ih => exact .cons h ih

theorem texts_of_parts {n : Nat} {f : Nat → PyStr} {parts : List PyStr} (h : List.Forall₂ (fun i m => Arrives m (f i)) (List.range n) parts) :
    List.Forall₂ Arrives parts ((List.range n).map f) := by
  generalize List.range n = l at h
  induction h with
  | nil => exact .nil
  | cons h _ ih => exact .cons h ih

section
variable [PyUnicode] {destination destination' text : PyStr} {flash : Bool} {s s' : St} {i r : Nat} {ms : List PyStr}

/-- A text of at most 160 characters of the GSM alphabet that has been sent arrives with this text, except for a final '@' when
the number of septets is a multiple of 8. -/
theorem C79_short {os : List Nat} (hm : s.smsTextMode = false) (hd : AddrOk false destination destination') (hr : s.smsRef = r) (hr' : r < 256)
    (hne : text ≠ []) (hesc : 27 ∉ text) (henc : encodeGsm7 text = .ok os) (hlen : text.length ≤ 160) (hos : os.length < 256)
    (hs : sendSms destination text flash envA s = (.ok i, s')) (ht : TakenOver envA.reply s.log ms) :
    ∃ m, TakenOver envA.reply s'.log (ms ++ [m]) ∧ Arrives m (trimAt (os.length % 8 = 0) text) := by
  obtain ⟨p, h1, h2, h3⟩ := relay_gsm7 flash hd hr' hne hesc henc hlen hos
  rw [← hr] at h1
  obtain ⟨n, _, h4, h5⟩ := C79_submitted (envA := envA) hm h1 ht
  have := h5 ⟨i, by rw [hs]⟩
  subst this
  rw [hs] at h4
  exact ⟨_, h4, arrives h2 h3⟩

/-- Any other text of at most 70 characters of the basic multilingual plane arrives unchanged. -/
theorem C79_short_ucs2 (hm : s.smsTextMode = false) (hd : AddrOk false destination destination') (hr : s.smsRef = r) (hr' : r < 256)
    (henc : encodeGsm7 text = .error .valueError) (hbmp : ∀ c ∈ text, c < 65536) (hlen : text.length ≤ 70)
    (hs : sendSms destination text flash envA s = (.ok i, s')) (ht : TakenOver envA.reply s.log ms) :
    ∃ m, TakenOver envA.reply s'.log (ms ++ [m]) ∧ Arrives m text := by
  obtain ⟨p, h1, h2, h3⟩ := relay_ucs2 flash hd hr' henc hbmp hlen
  rw [← hr] at h1
  obtain ⟨n, _, h4, h5⟩ := C79_submitted (envA := envA) hm h1 ht
  have := h5 ⟨i, by rw [hs]⟩
  subst this
  rw [hs] at h4
  exact ⟨_, h4, arrives h2 h3⟩

/-- A longer text of the GSM alphabet arrives in `len / 160 + 1` messages, the `i`-th with the `i`-th slice of 153
characters (except for a final '@' when its number of septets is 1 modulo 8). -/
theorem C79_long {os : List Nat} (hm : s.smsTextMode = false) (hd : AddrOk false destination destination') (hr : s.smsRef = r) (hr' : r < 256)
    (hesc : 27 ∉ text) (henc : encodeGsm7 text = .ok os) (hlen : 160 < text.length) (hn : text.length / 160 + 1 < 256)
    (hfit : ∀ i osi, encodeGsm7 (slice 153 text i) = .ok osi → osi.length ≤ 248)
    (hs : sendSms destination text flash envA s = (.ok i, s')) (ht : TakenOver envA.reply s.log ms) :
    ∃ parts, TakenOver envA.reply s'.log (ms ++ parts) ∧
      List.Forall₂ (fun i m => ∃ osi, encodeGsm7 (slice 153 text i) = .ok osi ∧ Arrives m (trimAt (osi.length % 8 = 1) (slice 153 text i)))
        (List.range (text.length / 160 + 1)) parts := by
  obtain ⟨ps, h1, h2⟩ := relay_gsm7_parts flash hd hr' hesc henc hlen hn hfit
  rw [← hr] at h1
  obtain ⟨n, _, h4, h5⟩ := C79_submitted (envA := envA) hm h1 ht
  have := h5 ⟨i, by rw [hs]⟩
  subst this
  rw [hs, List.take_length] at h4
  exact ⟨_, h4, forall₂_map_right (h2.imp fun _ _ ⟨h, osi, ho, hh⟩ => ⟨osi, ho, arrives h hh⟩)⟩

/-- Any other longer text of the basic multilingual plane arrives in `len / 70 + 1` messages, the `i`-th with the `i`-th slice of 67 characters. -/
theorem C79_long_ucs2 (hm : s.smsTextMode = false) (hd : AddrOk false destination destination') (hr : s.smsRef = r) (hr' : r < 256)
    (henc : encodeGsm7 text = .error .valueError) (hbmp : ∀ c ∈ text, c < 65536) (hlen : 70 < text.length) (hn : text.length / 70 + 1 < 256)
    (hs : sendSms destination text flash envA s = (.ok i, s')) (ht : TakenOver envA.reply s.log ms) :
    ∃ parts, TakenOver envA.reply s'.log (ms ++ parts) ∧
      List.Forall₂ (fun i m => Arrives m (slice 67 text i)) (List.range (text.length / 70 + 1)) parts := by
  obtain ⟨ps, h1, h2⟩ := relay_ucs2_parts flash hd hr' henc hbmp hlen hn
  rw [← hr] at h1
  obtain ⟨n, _, h4, h5⟩ := C79_submitted (envA := envA) hm h1 ht
  have := h5 ⟨i, by rw [hs]⟩
  subst this
  rw [hs, List.take_length] at h4
  exact ⟨_, h4, forall₂_map_right (h2.imp fun _ _ ⟨h, hh⟩ => arrives h hh)⟩

/-- The texts of the messages that arrive, joined in order: all of the text if it fits into the parts, otherwise its
beginning (texts of the GSM alphabet without '@' and extension characters). -/
theorem C79_joined {os : List Nat} (hm : s.smsTextMode = false) (hd : AddrOk false destination destination') (hr : s.smsRef = r) (hr' : r < 256)
    (hesc : 27 ∉ text) (hat : 64 ∉ text) (henc : encodeGsm7 text = .ok os) (hext : ∀ c ∈ text, ¬ IsExt c) (hlen : 160 < text.length)
    (hn : text.length / 160 + 1 < 256)
    (hs : sendSms destination text flash envA s = (.ok i, s')) (ht : TakenOver envA.reply s.log ms) :
    ∃ parts texts, TakenOver envA.reply s'.log (ms ++ parts) ∧ List.Forall₂ Arrives parts texts ∧
      texts.flatten = text.take ((text.length / 160 + 1) * 153) ∧ (texts.flatten = text ↔ text.length ≤ (text.length / 160 + 1) * 153) := by
  obtain ⟨parts, h1, h2⟩ := C79_long hm hd hr hr' hesc henc hlen hn (by
    intro i osi ho
    rw [encodeGsm7_length ho (fun c hc => hext c (List.mem_of_mem_drop (List.mem_of_mem_take hc)))]
    simp [slice]) hs ht
  have h3 : List.Forall₂ (fun i m => Arrives m (slice 153 text i)) (List.range (text.length / 160 + 1)) parts := by
    refine h2.imp ?_
    rintro i m ⟨osi, _, h⟩
    rw [trimAt, if_neg] at h
    · exact h
    · rintro ⟨_, hl⟩
      exact hat (List.mem_of_mem_drop (List.mem_of_mem_take (List.mem_of_getLast? hl)))
  have h4 : ((List.range (text.length / 160 + 1)).map (slice 153 text)).flatten = text.take ((text.length / 160 + 1) * 153) := by
    rw [← List.flatMap_def, slices_join]
  refine ⟨parts, _, h1, texts_of_parts h3, h4, ?_⟩
  rw [h4]
  exact ⟨fun h => by have := congrArg List.length h; rw [List.length_take] at this; omega, List.take_of_length_le⟩

/-- The same for other texts. -/
theorem C79_joined_ucs2 (hm : s.smsTextMode = false) (hd : AddrOk false destination destination') (hr : s.smsRef = r) (hr' : r < 256)
    (henc : encodeGsm7 text = .error .valueError) (hbmp : ∀ c ∈ text, c < 65536) (hlen : 70 < text.length) (hn : text.length / 70 + 1 < 256)
    (hs : sendSms destination text flash envA s = (.ok i, s')) (ht : TakenOver envA.reply s.log ms) :
    ∃ parts texts, TakenOver envA.reply s'.log (ms ++ parts) ∧ List.Forall₂ Arrives parts texts ∧
      texts.flatten = text.take ((text.length / 70 + 1) * 67) ∧ (texts.flatten = text ↔ text.length ≤ (text.length / 70 + 1) * 67) := by
  obtain ⟨parts, h1, h2⟩ := C79_long_ucs2 hm hd hr hr' henc hbmp hlen hn hs ht
  have h4 : ((List.range (text.length / 70 + 1)).map (slice 67 text)).flatten = text.take ((text.length / 70 + 1) * 67) := by
    rw [← List.flatMap_def, slices_join]
  refine ⟨parts, _, h1, texts_of_parts h2, h4, ?_⟩
  rw [h4]
  exact ⟨fun h => by have := congrArg List.length h; rw [List.length_take] at this; omega, List.take_of_length_le⟩

/-- Every PDU of a message to a telephone number can be relayed, and the service centre finds this number in it. -/
theorem C79_addressed {ds : PyStr} {ref : Int} {pdus : List Pdu} (hd : Phone destination ds)
    (he : encodeSmsSubmitPdu destination text ref (sendFlash := flash) = .ok pdus) :
    ∀ p ∈ pdus, ∃ f, SubmitRead p.data f ∧ AddrWire false (some destination) f.da := by
  intro p hp
  obtain ⟨F, hF, f1, f2, _, _, _, f3⟩ := C16_first_octet he p hp
  obtain ⟨e1, e2, e3, e4⟩ := hF
  refine ⟨F, ⟨e1, f2, ⟨0, [], (Except.ok.inj e2).symm, rfl⟩, address_field_shape e3, by rw [e4, vpOctets, f3]; rfl⟩, ?_⟩
  have key : ∀ {toa}, classifyAddress destination = .ok (toa, ds, false) → IsDigits ds → ds ≠ [] → toa < 256 → toa / 16 % 8 ≠ 5 →
      destination = (if toa / 16 % 8 = 1 then 43 :: ds else ds) → AddrWire false (some destination) F.da := by
    intro toa hc h1 h2 h3 h4 h5
    simp only [encodeAddressField, hc, encodeSemiOctets_digits h1, bind, Except.bind, pure, Except.pure, Bool.false_eq_true, if_false] at e3
    cases hb : byteOf (ds.length : Nat) with
    | error e => rw [hb] at e3; cases e3
    | ok n =>
      rw [hb] at e3
      have hn := byteOf_eq_ok.1 hb
      have hn' : n = ds.length := by omega
      rw [← Except.ok.inj e3, hn', ← bcd_eq, h5]
      exact AddrWire.digits (sca := false) h3 h4 h1 h2 (by simp only [Bool.false_eq_true, if_false]; omega)
  cases hd with
  | loc h1 h2 => exact key (classify_local h1 h2) h1 h2 (by omega) (by omega) (by simp)
  | intl h1 h2 => exact key (classify_intl h1 h2) h1 h2 (by omega) (by omega) (by simp)

end

/-! ### Example: "Hi" from +2782 to +2783 -/

/-- A modem that takes messages. -/
def senderModem : Env := { depth := 10, reply := fun log => match log with | c :: _ => if c.getLast? = some 26 then .lines [py!"+CMGS: 7", py!"OK"] else .lines [py!"> "] | [] => .timeout none, order := id, order_perm := fun _ => .refl _ }

/-- What "Hi" to +2783 becomes. -/
def hiSubmit : List Nat := [0, 0x21, 0, 4, 0x91, 0x72, 0x38, 0, 0, 2, 0xC8, 0x34]

/-- What the receiver's modem gets from the service centre +2799. -/
def hiDeliver : List Nat := [3, 0x91, 0x72, 0x99, 0x04, 4, 0x91, 0x72, 0x28, 0, 0, 0x62, 0x11, 0x61, 0x90, 0x00, 0x00, 0x80, 2, 0xC8, 0x34]

def hiTime : DateTime := ⟨2026, 11, 16, 9, 0, 0, 0, some (.ofSeconds 7200)⟩

attribute [local instance] asciiUnicode in
example : sendSms py!"+2783" py!"Hi" false senderModem {} =
    (.ok 0, { smsRef := 8, sent := [⟨py!"+2783", py!"Hi", 7, none⟩], sentSms := [(7, 0)], smsTrace := [.sent 7], log := [pduHex hiSubmit ++ [26], py!"AT+CMGS=11\r"] }) := by
  decide +kernel

example : TakenOver senderModem.reply [pduHex hiSubmit ++ [26], py!"AT+CMGS=11\r"] [pduHex hiSubmit] :=
  .taken (ms := []) ⟨_, py!"OK", rfl, rfl, by decide, by decide⟩ (.other (by rintro ⟨_, m, h⟩; have := congrArg List.getLast? h; simp at this) .nothing)

example : Relayed hiSubmit (some py!"+2799") (some py!"+2782") hiTime hiDeliver :=
  .mk (f := ⟨[0], 0x21, 0, [4, 0x91, 0x72, 0x38], 0, 0, [], 2, [0xC8, 0x34]⟩) (sca := [3, 0x91, 0x72, 0x99]) (fo := 4) (oa := [4, 0x91, 0x72, 0x28])
    (scts := [0x62, 0x11, 0x61, 0x90, 0x00, 0x00, 0x80])
    ⟨rfl, rfl, ⟨_, _, rfl, rfl⟩, ⟨_, _, _, rfl, rfl⟩, rfl⟩
    (.digits (toa := 0x91) (ds := py!"2799") (by decide) (by decide) (by decide) (by decide) (by decide))
    (.digits (toa := 0x91) (ds := py!"2782") (by decide) (by decide) (by decide) (by decide) (by decide))
    (.mk (neg := false) (q := 8) (by decide) (by decide) (by decide) rfl (by decide) (by decide)) (by decide) (by decide) (by decide)

/-- The receiver's modem. -/
def receiverModem : Env := { depth := 10, reply := fun log => match log with | c :: _ => if c = py!"AT+CMGR=3\r" then .lines [py!"+CMGR: 0,,17", pduHex hiDeliver, py!"OK"] else .lines [py!"OK"] | [] => .timeout none, order := id, order_perm := fun _ => .refl _ }

example : Stores receiverModem.reply {} py!"SM" py!"3" py!"0" hiDeliver :=
  ⟨fun _ => ⟨_, py!"OK", rfl, rfl, by decide, by decide⟩,
    ⟨_, _, [], rfl, ⟨[], [], [], py!"17", [], rfl, by decide, .inl rfl, .inl rfl, by decide, by simp [Digits], .inl rfl⟩, (C22_str_pdu (by decide)).1⟩,
    ⟨_, py!"OK", rfl, rfl, by decide, by decide⟩⟩

example : (handleSmsReceived py!"+CMTI: \"SM\",3" receiverModem {}).2.callbacks = [.smsReceived (.received 0 (some py!"+2782") hiTime py!"Hi" (some py!"+2799"))] := by
  decide +kernel

end Gsm
