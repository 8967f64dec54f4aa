import Verif.Spec.ExampleTextStore
import Verif.Lemmas.TextStoreConnect
import Verif.Props.Modes
/-! # C110: stored messages are neither lost nor handed over twice, whichever mode is used and however often it is changed -/
namespace Gsm
open M Spec List InModes

variable {env : Env} {shows : Display} {mode : List PyStr → Bool} {shelf : List PyStr → Shelf} {came : List PyStr → List HeldSms}

/-- What is on the modem or has come is on the modem or among those taken. -/
theorem there_or_taken {s s' : St} {taken : List (HeldSms × Msg)} (h : DeliveredIn shows shelf came s s' taken) {x : HeldSms}
    (hx : x ∈ (shelf s.log).slots ∨ x ∈ since came s.log s'.log) :
    (∃ y ∈ (shelf s'.log).slots, y.content = x.content) ∨ ∃ p ∈ taken, p.1.content = x.content := by
  have hm : x.content ∈ (shelf s.log).slots.map HeldSms.content ++ (since came s.log s'.log).map HeldSms.content := by
    rcases hx with hx | hx
    · exact mem_append_left _ (mem_map_of_mem hx)
    · exact mem_append_right _ (mem_map_of_mem hx)
  rcases mem_append.1 (h.2.2.mem_iff.2 hm) with h | h
  · exact .inl (by simpa using h)
  · right
    obtain ⟨y, hy, hc⟩ := mem_map.1 h
    obtain ⟨p, hp, rfl⟩ := mem_map.1 hy
    exact ⟨p, hp, hc⟩

/-- Processing the stored messages, in whichever mode: it succeeds; the messages handed over are those that have been taken off the modem, each once and as it is
shown in the mode; everything else is still there; all unread messages of the selected memory (and the read ones, if they are wanted) of which something is shown
have been handed over; those of which nothing is shown are still there; and the mode is the same. -/
theorem C110_process (H : KeepingIn shows env.reply mode shelf came) (hd : 0 < env.depth) (unreadOnly : Bool) {s : St} (hk : KnowsIn mode shelf s) (hs : (shelf s.log).SoundIn shows) :
    ∃ (s1 : St) (taken : List (HeldSms × Msg)), processStoredSms unreadOnly env s = (.ok (), s1) ∧ KnowsIn mode shelf s1 ∧ (shelf s1.log).SoundIn shows ∧
      DeliveredIn shows shelf came s s1 taken ∧ mode s1.log = mode s.log ∧ (∀ p ∈ taken, MadeIn shows (mode s.log) p.1 p.2) ∧
      (∀ x ∈ (shelf s.log).slots, x.memory = (shelf s.log).memory → (x.state = 0 ∨ unreadOnly = false ∧ x.state = 1) → Untold shows (mode s.log) x = false →
        x ∈ taken.map Prod.fst) ∧
      ∀ x ∈ (shelf s.log).slots, Untold shows (mode s.log) x = true → ∃ y ∈ (shelf s1.log).slots, y.content = x.content := by
  obtain ⟨s1, taken, new, h1, -, -, h4, h5, h6, h7, h8, h9⟩ := InModes.process_keep H hd unreadOnly hk hs
  refine ⟨s1, taken, h1, h4, h5, h6, h7, (fun p hp => (h8 p hp).1), h9, fun x hx hu => ?_⟩
  rcases there_or_taken h6 (.inl hx) with h | ⟨p, hp, hc⟩
  · exact h
  · exfalso
    have h2 := (h8 p hp).2
    have hpdu : p.1.pdu = x.pdu := by simpa [HeldSms.content] using congrArg (·.2.2) hc
    unfold Untold at h2 hu
    rw [hpdu, hu] at h2
    cases h2

example : KeepingIn showsExample (bothExample 3).reply (modeBy showsExample shelfExample 3 lateExample) (shelfBy showsExample shelfExample 3 lateExample) (comeAt 3 lateExample) ∧
    KnowsIn (modeBy showsExample shelfExample 3 lateExample) (shelfBy showsExample shelfExample 3 lateExample) { alive := true } ∧
    (shelfBy showsExample shelfExample 3 lateExample []).SoundIn showsExample := ⟨bothExample_keeping 3, ⟨rfl, rfl, fun _ h => by cases h⟩, bothExample_sound⟩
/-- In PDU mode and in text mode. A message that comes while the first one is being deleted is found by the second listing. -/
example : handedOver (processStoredSms false (bothExample 2) { alive := true }).2 = [hiMsg 0, hiMsg 1] ∧
    handedOver ((do setSmsTextMode true; processStoredSms false : M Unit) (bothExample 3) { alive := true }).2 = [hiMsg 0, hiMsg 1] ∧
    ((do setSmsTextMode true; processStoredSms false : M Unit) (bothExample 3) { alive := true }).2.log.reverse =
      [py!"AT+CMGF=1\r", py!"AT+CMGL=\"REC READ\"\r", py!"AT+CMGD=3,0\r", py!"AT+CMGL=\"REC UNREAD\"\r", py!"AT+CMGD=4,0\r"] ∧
    (shelfBy showsExample shelfExample 3 lateExample ((do setSmsTextMode true; processStoredSms false : M Unit) (bothExample 3) { alive := true }).2.log).slots = [⟨py!"ME", 5, 0, hiPdu⟩] := by
  decide +kernel

/-- The handler of the notification that a message has been stored: if there is a message at the place that can be read in the mode, it is handed over once, as it is
shown, and that message and no other is taken off the modem. Here something being shown does not matter. -/
theorem C110_notified (H : KeepingIn shows env.reply mode shelf came) (hd : 0 < env.depth) {line mem idx : PyStr} (hl : StoredAt py!"+CMTI:" line mem idx) {s : St}
    (hk : KnowsIn mode shelf s) (hs : (shelf s.log).SoundIn shows) {x : HeldSms} (hx : x ∈ (shelf s.log).slots) (hm : x.memory = mem) (hp : x.place = decVal idx)
    (hleg : Legible shows (mode s.log) x.pdu) :
    ∃ y m s1, handleSmsReceived line env s = (.ok (), s1) ∧ y.content = x.content ∧ MadeIn shows (mode s.log) y m ∧ s1.callbacks = .smsReceived m :: s.callbacks ∧
      KnowsIn mode shelf s1 ∧ (shelf s1.log).SoundIn shows ∧ Balance shelf came s.log s1.log [x] := by
  rcases InModes.received_keep H hd hl hk hs with ⟨e, s1, -, -, -, -, -, -, h⟩ | ⟨y, m, s1, h1, h2, -, h4, h5, h6, -, -, h9, h10⟩
  · exact absurd hleg (h x (mem_map_of_mem hx) hm hp)
  · have hc := h10 x (mem_map_of_mem hx) hm hp
    refine ⟨y, m, s1, h1, hc.symm, h6, h2, h4, h5, ?_⟩
    unfold Balance at h9 ⊢
    simpa [hc] using h9

example : handedOver ((do setSmsTextMode true; handleSmsReceived py!"+CMTI: \"ME\",5" : M Unit) (bothExample 2) { alive := true }).2 = [hiMsg 0] ∧
    (shelfBy showsExample shelfExample 2 lateExample ((do setSmsTextMode true; handleSmsReceived py!"+CMTI: \"ME\",5" : M Unit) (bothExample 2) { alive := true }).2.log).slots =
      [⟨py!"SM", 3, 1, hiPdu⟩, ⟨py!"SM", 4, 0, hiPdu⟩] := by decide +kernel
example : Legible showsExample true hiPdu ∧ Legible showsExample false hiPdu :=
  ⟨legible_of (x := ⟨py!"SM", 3, 0, hiPdu⟩) ⟨hi_message, hi_letter⟩, legible_of (x := ⟨py!"SM", 3, 0, hiPdu⟩) ⟨hi_message, hi_letter⟩⟩

/-- Over a whole session, in which messages come whenever they like and the mode is changed at will (and the modem may refuse to): the messages handed over are exactly
those that have left the modem, each once, and each as it is shown in one of the modes; everything else that was there or came is still there; and the program is
still right about the mode. -/
theorem C110_history [PyUnicode] (H : KeepingIn shows env.reply mode shelf came) (hd : 0 < env.depth) {ops : List Op} (ho : ∀ op ∈ ops, CarefulIn op) {s : St}
    (hk : KnowsIn mode shelf s) (hs : (shelf s.log).SoundIn shows) :
    KnowsIn mode shelf (runOps env ops s) ∧ (shelf (runOps env ops s).log).SoundIn shows ∧ ∃ taken : List (HeldSms × Msg), DeliveredIn shows shelf came s (runOps env ops s) taken :=
  (InModes.safe_ops H hd ops s ho hk hs).2

/-- Operations in both modes. -/
def bothOps : List Op := [.setTextMode true, .event (.notify [py!"+CMTI: \"ME\",5"]), .setTextMode false, .list 4 (some py!"SM") false, .setTextMode true, .process false]

theorem bothOps_careful : ∀ op ∈ bothOps, CarefulIn op := by
  intro op hop
  simp only [bothOps, mem_cons, not_mem_nil, or_false] at hop
  rcases hop with rfl | rfl | rfl | rfl | rfl | rfl
  · trivial
  · intro l hl mem idx h
    rw [mem_singleton.1 hl] at h
    obtain ⟨b, t, h, -⟩ := h
    simp at h
  · trivial
  · exact ⟨fun m h => by cases h; exact ⟨by decide, by decide⟩, rfl⟩
  · trivial
  · trivial

attribute [local instance] asciiUnicode in
example : handedOver (runOps (bothExample 6) bothOps { alive := true }) = [hiMsg 1, hiMsg 1, hiMsg 0] ∧
    (shelfBy showsExample shelfExample 6 lateExample (runOps (bothExample 6) bothOps { alive := true }).log).slots = [] := by decide +kernel

/-- So no message is lost: what was there or has come is there or has been handed over, as it is shown in one of the modes. -/
theorem C110_none_lost [PyUnicode] (H : KeepingIn shows env.reply mode shelf came) (hd : 0 < env.depth) {ops : List Op} (ho : ∀ op ∈ ops, CarefulIn op) {s : St}
    (hk : KnowsIn mode shelf s) (hs : (shelf s.log).SoundIn shows) {x : HeldSms} (hx : x ∈ (shelf s.log).slots ∨ x ∈ since came s.log (runOps env ops s).log) :
    (∃ y ∈ (shelf (runOps env ops s).log).slots, y.content = x.content) ∨
      ∃ y m, y.content = x.content ∧ (MadeIn shows false y m ∨ MadeIn shows true y m) ∧ m ∈ handedOver (runOps env ops s) := by
  obtain ⟨-, -, taken, h⟩ := C110_history H hd ho hk hs
  rcases there_or_taken h hx with h1 | ⟨p, hp, hc⟩
  · exact .inl h1
  · refine .inr ⟨p.1, p.2, hc, h.2.1 p hp, ?_⟩
    rw [h.1]
    exact mem_append_left _ (mem_reverse.2 (mem_map_of_mem hp))

/-- Nor handed over more often than it came: as many have been handed over as have left the modem. -/
theorem C110_count [PyUnicode] (H : KeepingIn shows env.reply mode shelf came) (hd : 0 < env.depth) {ops : List Op} (ho : ∀ op ∈ ops, CarefulIn op) {s : St}
    (hk : KnowsIn mode shelf s) (hs : (shelf s.log).SoundIn shows) :
    (handedOver (runOps env ops s)).length + (shelf (runOps env ops s).log).slots.length =
      (handedOver s).length + (shelf s.log).slots.length + (since came s.log (runOps env ops s).log).length := by
  obtain ⟨-, -, taken, h1, -, h3⟩ := C110_history H hd ho hk hs
  have := h3.length_eq
  simp only [length_append, length_map] at this
  rw [h1]
  simp only [length_append, length_reverse, length_map]
  omega

attribute [local instance] asciiUnicode in
example : since (comeAt 6 lateExample) [] (runOps (bothExample 6) bothOps { alive := true }).log = lateExample := by decide +kernel

/-- Connecting, whether it succeeds or not, leaves all messages where they are and hands over nothing. If it succeeds, the modem is in the mode that the user had
chosen, whatever mode it was in, and the program is right about the memory (for a modem object that has not been used yet). -/
theorem C110_connect (H : KeepingIn shows env.reply mode shelf came) (hd : 0 < env.depth) (pin : Option PyStr) {s : St}
    (hm : ∀ m, s.smsMemReadDelete = some m → 34 ∈ m) (hs : (shelf s.log).SoundIn shows) :
    (shelf (connect pin env s).2.log).SoundIn shows ∧ DeliveredIn shows shelf came s (connect pin env s).2 [] ∧
      ((connect pin env s).1 = .ok () → KnowsIn mode shelf (connect pin env s).2 ∧ mode (connect pin env s).2.log = s.smsTextMode) := by
  obtain ⟨h1, h2, -, h4⟩ := connect_stays H pin hs
  refine ⟨h1, h2, fun hok => ?_⟩
  have hk := InModes.connect_knows H hd pin hm hs hok
  exact ⟨hk, hk.2.1.symm.trans h4⟩

/-- The user has chosen text mode before connecting; the modem starts in PDU mode. -/
example : (connect none (bothExample 7) { smsTextMode := true }).1 = .ok () ∧ modeBy showsExample shelfExample 7 lateExample [] = false ∧
    modeBy showsExample shelfExample 7 lateExample (connect none (bothExample 7) { smsTextMode := true }).2.log = true ∧
    (shelfBy showsExample shelfExample 7 lateExample (connect none (bothExample 7) { smsTextMode := true }).2.log).slots = shelfExample.slots ++ lateExample := by decide +kernel

/-- So from a successful `connect` on, all that was there or came has been handed over, each message once, or is still there. -/
theorem C110_session [PyUnicode] (H : KeepingIn shows env.reply mode shelf came) (hd : 0 < env.depth) (pin : Option PyStr) {ops : List Op} (ho : ∀ op ∈ ops, CarefulIn op) {s : St}
    (hm : s.smsMemReadDelete = none) (hs : (shelf s.log).SoundIn shows) (hok : (connect pin env s).1 = .ok ()) :
    ∃ taken : List (HeldSms × Msg), DeliveredIn shows shelf came s (runOps env ops (connect pin env s).2) taken := by
  obtain ⟨h1, h2, ⟨n1, e1⟩, -⟩ := connect_stays H pin hs
  have hk := InModes.connect_knows H hd pin (s := s) (fun m h => by rw [hm] at h; cases h) hs hok
  obtain ⟨⟨n2, e2⟩, -, -, taken, h4⟩ := InModes.safe_ops H hd ops _ ho hk h1
  exact ⟨taken, by simpa using InModes.delivered_trans e1 e2 h2 h4⟩

attribute [local instance] asciiUnicode in
example : handedOver (runOps (bothExample 7) [.process false, .setTextMode false, .event (.notify [py!"+CMTI: \"SM\",3"]), .process false] (connect none (bothExample 7) { smsTextMode := true }).2) =
      [hiMsg 0, hiMsg 1, hiMsg 0] ∧
    (shelfBy showsExample shelfExample 7 lateExample (runOps (bothExample 7) [.process false, .setTextMode false, .event (.notify [py!"+CMTI: \"SM\",3"]), .process false]
      (connect none (bothExample 7) { smsTextMode := true }).2).log).slots = [] := by decide +kernel

/-- Whether a message is handed over as the same object in both modes, if the modem shows what is in the octets. -/
theorem C110_same {m : Received} {octets : List Nat} {x : HeldSms} (h : m.Octets octets) (hh : HexOf octets x.pdu)
    (hs : shows x.pdu = some ⟨m.number, shownTime m.time m.quarters, m.shown⟩) {a b : Msg} (ha : MadeIn shows false x a) (hb : MadeIn shows true x b) :
    a = b ↔ m.smsc = none ∧ m.numberSeen = m.number ∧ 4 ∣ m.quarters ∧ m.textSeen = m.shown ∧ NoEol m.shown := by
  obtain ⟨sca, fo, oa, pid, dcs, scts, udl, ud, rfl, h1, h2, h3, h4, h5, h6, h7, h8, h9, h10⟩ := h
  have hd := (C22_hex_input hh).trans (C23_deliver h1 (sender_wire h2) h3.wire h5 h6 h7 h8 h9 h10 (body_wire h4))
  have ea : a = .received x.state (some m.numberSeen) m.time m.textSeen m.smsc := by
    rcases ha with ⟨_, _, _, _, _, _, h, rfl⟩ | ⟨_, _, _, _, _, _, _, h, rfl⟩
    · rw [hd] at h; cases h; rfl
    · rw [hd] at h; cases h
  have eb : b = .received x.state (some m.number) { m.time with off := some (.ofSeconds (wholeHours m.quarters)) } ([10].intercalate (textLines m.shown)) none := by
    obtain ⟨l, t, k1, k2, rfl⟩ := hb
    rw [hs] at k1
    cases k1
    rw [clock_time h3] at k2
    cases k2
    rfl
  rw [ea, eb, ← pyJoin_eq]
  simp only [Msg.received.injEq, Option.some.injEq, true_and]
  rw [clock_same h3, body_same h4]
  exact ⟨fun ⟨a, b, ⟨c, c'⟩, d⟩ => ⟨d, a, b, c, c'⟩, fun ⟨d, a, b, c, c'⟩ => ⟨a, b, ⟨c, c'⟩, d⟩⟩

/-- The message of the examples is the same in both modes. -/
example : MadeIn showsExample false ⟨py!"SM", 3, 1, hiPdu⟩ (hiMsg 1) ∧ MadeIn showsExample true ⟨py!"SM", 3, 1, hiPdu⟩ (hiMsg 1) :=
  ⟨hi_carries 1, ⟨_, ⟨2013, 3, 14, 13, 2, 35, 0, some ⟨0, 7200, 0⟩⟩, rfl, by decide +kernel, by decide +kernel⟩⟩

/-! ### Messages of which nothing is shown -/

/-- Processing the stored messages again and again. -/
def processTimes (unreadOnly : Bool) (env : Env) : Nat → St → St
  | 0, s => s
  | n + 1, s => processTimes unreadOnly env n (processStoredSms unreadOnly env s).2

/-- In text mode a message of which nothing is shown stays on the modem for ever, however often the stored messages are processed. -/
theorem C110_untold_stays (H : KeepingIn shows env.reply mode shelf came) (hd : 0 < env.depth) (unreadOnly : Bool) : ∀ (n : Nat) {s : St}, KnowsIn mode shelf s →
    (shelf s.log).SoundIn shows → ∀ x ∈ (shelf s.log).slots, Untold shows (mode s.log) x = true →
    ∃ y ∈ (shelf (processTimes unreadOnly env n s).log).slots, y.content = x.content
  | 0, s, _, _, x, hx, _ => ⟨x, hx, rfl⟩
  | n + 1, s, hk, hs, x, hx, hu => by
    obtain ⟨s1, taken, h1, h4, h5, -, h7, -, -, h9⟩ := C110_process H hd unreadOnly hk hs
    obtain ⟨y, hy, hc⟩ := h9 x hx hu
    have hpdu : y.pdu = x.pdu := by simpa [HeldSms.content] using congrArg (·.2.2) hc
    have hu' : Untold shows (mode s1.log) y = true := by
      rw [h7]
      unfold Untold at hu ⊢
      rw [hpdu]
      exact hu
    have he : processTimes unreadOnly env (n + 1) s = processTimes unreadOnly env n s1 := by
      show processTimes unreadOnly env n (processStoredSms unreadOnly env s).2 = _
      rw [h1]
    rw [he]
    obtain ⟨z, hz, hzc⟩ := C110_untold_stays H hd unreadOnly n h4 h5 y hy hu'
    exact ⟨z, hz, hzc.trans hc⟩

/-- A message that is an empty line: in PDU mode it is handed over, in text mode it is left behind without an error. -/
theorem C110_untold_violated : KeepingIn showsExample blankExample.reply (modeBy showsExample blankShelf 0 []) (shelfBy showsExample blankShelf 0 []) (comeAt 0 []) ∧
    blankShelf.SoundIn showsExample ∧
    (handedOver (processStoredSms false blankExample { alive := true }).2).length = 2 ∧
    ((do setSmsTextMode true; processStoredSms false : M Unit) blankExample { alive := true }).1 = .ok () ∧
    handedOver ((do setSmsTextMode true; processStoredSms false : M Unit) blankExample { alive := true }).2 = [hiMsg 0] ∧
    (shelfBy showsExample blankShelf 0 [] ((do setSmsTextMode true; processStoredSms false : M Unit) blankExample { alive := true }).2.log).slots = [⟨py!"SM", 3, 1, blankPdu⟩] :=
  ⟨blankExample_keeping, blankExample_sound, by decide +kernel, by decide +kernel, by decide +kernel, by decide +kernel⟩

end Gsm
