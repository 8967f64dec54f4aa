import Verif.Lemmas.Session
import Verif.Spec.ExampleStore
/-! # Property C96: what one program sends, another one is handed -/
namespace Gsm
open Spec List

variable {envA envB : Env} {shelf : List PyStr → Shelf} {came : List PyStr → List HeldSms}

/-- One program sends messages; what its modem takes over (`sent`) is conveyed, in any order and at any time, to the modem of another
program, which has and gets other messages too. Then what that program is handed, with what is still on its modem, are the texts
that were sent, with the sender's number, and the others: each once. -/
theorem C96_exchange [PyUnicode] {msgs : List (PyStr × PyStr × Bool)} {a a' : St} {before sent : List PyStr} (hs : Sends envA msgs a a')
    (hm : a.smsTextMode = false) (hb : TakenOver envA.reply a.log before) (ht : TakenOver envA.reply a'.log (before ++ sent)) (hg : ∀ m ∈ msgs, Conveyable m)
    (H : Keeping envB.reply shelf came) (hd : 0 < envB.depth) {ops : List Op} (ho : ∀ op ∈ ops, Careful op) {b b' : St} (hr : runOps envB ops b = b')
    (hk : Knows shelf b) (hsound : (shelf b.log).Sound) {sender : Option PyStr} {ours others : List HeldSms} (hc : AllConveyed sender sent ours)
    (hp : (shelf b.log).slots ++ since came b.log b'.log ~ ours ++ others) :
    ∃ (texts : List (List PyStr)) (news : List Msg), Forall₂ (fun m T => SplitInto m.2.1 T) msgs texts ∧ handedOver b' = news ++ handedOver b ∧
      news.map readOff ++ (shelf b'.log).slots.map (fun x => readPdu x.pdu) ~
        texts.flatten.map (fun t => some (sender, t)) ++ others.map (fun x => readPdu x.pdu) := by
  subst hr
  obtain ⟨groups, texts, g1, g2, g3⟩ := sends_carry hs hm hb hg
  have := append_cancel_left (taken_unique ht g1)
  subst this
  obtain ⟨-, -, taken, h1, h2, h3⟩ := C92_history H hd ho hk hsound
  refine ⟨texts, _, g2, h1, ?_⟩
  have e1 : (taken.map Prod.snd).map readOff = taken.map fun p => readPdu p.1.pdu := by
    rw [map_map]
    exact map_congr_left fun p hp => made_read (h2 p hp)
  have e2 := h3.map fun c : PyStr × Nat × PyStr => readPdu c.2.2
  simp only [map_append, map_map] at e2
  have e3 := hp.map fun x => readPdu x.pdu
  simp only [map_append] at e3
  rw [map_reverse, e1]
  refine ((reverse_perm _).append_right _).trans (perm_append_comm.trans ?_)
  exact (e2.trans e3).trans ((all_conveyed g3 hc).append_right _)

/-- If nothing else is there and nothing is left, the program has been handed exactly the texts of the parts. -/
theorem C96_all [PyUnicode] {msgs : List (PyStr × PyStr × Bool)} {a a' : St} {before sent : List PyStr} (hs : Sends envA msgs a a')
    (hm : a.smsTextMode = false) (hb : TakenOver envA.reply a.log before) (ht : TakenOver envA.reply a'.log (before ++ sent)) (hg : ∀ m ∈ msgs, Conveyable m)
    (H : Keeping envB.reply shelf came) (hd : 0 < envB.depth) {ops : List Op} (ho : ∀ op ∈ ops, Careful op) {b b' : St} (hr : runOps envB ops b = b')
    (hk : Knows shelf b) (hsound : (shelf b.log).Sound) {sender : Option PyStr}
    (hc : AllConveyed sender sent ((shelf b.log).slots ++ since came b.log b'.log)) (he : (shelf b'.log).slots = []) :
    ∃ (texts : List (List PyStr)) (news : List Msg), Forall₂ (fun m T => SplitInto m.2.1 T) msgs texts ∧ handedOver b' = news ++ handedOver b ∧
      news.map readOff ~ texts.flatten.map fun t => some (sender, t) := by
  obtain ⟨texts, news, h1, h2, h3⟩ := C96_exchange hs hm hb ht hg H hd ho hr hk hsound (others := []) hc (by simp)
  exact ⟨texts, news, h1, h2, by simpa [he] using h3⟩

/-- If all the texts are short, it has been handed exactly the texts that were sent, as many times as each was sent. -/
theorem C96_short [PyUnicode] {msgs : List (PyStr × PyStr × Bool)} {a a' : St} {before sent : List PyStr} (hs : Sends envA msgs a a')
    (hm : a.smsTextMode = false) (hb : TakenOver envA.reply a.log before) (ht : TakenOver envA.reply a'.log (before ++ sent)) (hg : ∀ m ∈ msgs, Conveyable m)
    (hf : ∀ m ∈ msgs, FitsOne m.2.1)
    (H : Keeping envB.reply shelf came) (hd : 0 < envB.depth) {ops : List Op} (ho : ∀ op ∈ ops, Careful op) {b b' : St} (hr : runOps envB ops b = b')
    (hk : Knows shelf b) (hsound : (shelf b.log).Sound) {sender : Option PyStr}
    (hc : AllConveyed sender sent ((shelf b.log).slots ++ since came b.log b'.log)) (he : (shelf b'.log).slots = []) :
    ∃ news : List Msg, handedOver b' = news ++ handedOver b ∧ news.map readOff ~ msgs.map fun m => some (sender, m.2.1) := by
  obtain ⟨texts, news, h1, h2, h3⟩ := C96_all hs hm hb ht hg H hd ho hr hk hsound hc he
  refine ⟨news, h2, ?_⟩
  have : texts.flatten = msgs.map fun m => m.2.1 := by
    clear hs hg hc h3 h2
    induction h1 with
    | nil => rfl
    | cons h _ ih =>
      rw [flatten_cons, map_cons, h.2 (hf _ mem_cons_self), ih fun m hm => hf m (mem_cons_of_mem _ hm)]
      rfl
  rw [this, map_map] at h3
  exact h3

/-! ### Example: "Hi" from +2782 to +2783, which arrives when the receiver's program handles the notification -/

def hiHeld : List HeldSms := [⟨py!"SM", 3, 0, pduHex hiDeliver⟩]
def hiReceiver : Env := keeper ⟨py!"SM", []⟩ 1 hiHeld

theorem hi_conveyed : Relayed hiSubmit (some py!"+2799") (some py!"+2782") hiTime hiDeliver :=
  .mk (f := ⟨[0], 0x21, 0, [4, 0x91, 0x72, 0x38], 0, 0, [], 2, [0xC8, 0x34]⟩) (sca := [3, 0x91, 0x72, 0x99]) (fo := 4) (oa := [4, 0x91, 0x72, 0x28])
    (scts := [0x62, 0x11, 0x61, 0x90, 0x00, 0x00, 0x80])
    ⟨rfl, rfl, ⟨_, _, rfl, rfl⟩, ⟨_, _, _, rfl, rfl⟩, rfl⟩
    (.digits (toa := 0x91) (ds := py!"2799") (by decide) (by decide) (by decide) (by decide) (by decide))
    (.digits (toa := 0x91) (ds := py!"2782") (by decide) (by decide) (by decide) (by decide) (by decide))
    (.mk (neg := false) (q := 8) (by decide) (by decide) (by decide) rfl (by decide) (by decide)) (by decide) (by decide) (by decide)

attribute [local instance] asciiUnicode in
/-- The hypotheses about the sender. -/
example : Sends senderModem [(py!"+2783", py!"Hi", false)] {} (sendSms py!"+2783" py!"Hi" false senderModem {}).2 ∧
    TakenOver senderModem.reply (sendSms py!"+2783" py!"Hi" false senderModem {}).2.log ([] ++ [pduHex hiSubmit]) ∧ Conveyable (py!"+2783", py!"Hi", false) := by
  have e : sendSms py!"+2783" py!"Hi" false senderModem {} = (.ok 0, (sendSms py!"+2783" py!"Hi" false senderModem {}).2) := Prod.ext (by decide +kernel) rfl
  have l : (sendSms py!"+2783" py!"Hi" false senderModem {}).2.log = [pduHex hiSubmit ++ [26], py!"AT+CMGS=11\r"] := by decide +kernel
  refine ⟨.send e .done, ?_, ⟨py!"2783", .intl (by decide) (by decide), by decide⟩,
    .inl (.gsm7 (os := py!"Hi") (by decide) (by decide +kernel) (by decide) (by decide) (by decide) (by decide))⟩
  rw [l]
  exact .taken (ms := []) ⟨_, py!"OK", rfl, rfl, by decide, by decide⟩ (.other (by rintro ⟨_, m, h⟩; have := congrArg List.getLast? h; simp at this) .nothing)

attribute [local instance] asciiUnicode in
/-- The hypotheses about the receiver, and what its program is handed. -/
example : Keeping hiReceiver.reply (keptBy ⟨py!"SM", []⟩ 1 hiHeld) (comeAt 1 hiHeld) ∧
    AllConveyed (some py!"+2782") [pduHex hiSubmit]
      ([] ++ since (comeAt 1 hiHeld) [] (runOps hiReceiver [.event (.notify [py!"+CMTI: \"SM\",3"])] {}).log) ∧
    (keptBy ⟨py!"SM", []⟩ 1 hiHeld (runOps hiReceiver [.event (.notify [py!"+CMTI: \"SM\",3"])] {}).log).slots = [] ∧
    (handedOver (runOps hiReceiver [.event (.notify [py!"+CMTI: \"SM\",3"])] {})).map readOff = [some (some py!"+2782", py!"Hi")] := by
  refine ⟨keeper_keeping (by decide) (by decide +kernel) fun x hx => ?_, ⟨_, .refl _, ?_⟩, by decide +kernel, by decide +kernel⟩
  · rw [mem_singleton.1 hx]
    exact ⟨rfl, .received 0 (some py!"+2782") hiTime py!"Hi" (some py!"+2799"), .inl ⟨_, 17, _, 0, _, ⟨none, py!"Hi"⟩, by decide +kernel, rfl⟩⟩
  · have : since (comeAt 1 hiHeld) [] (runOps hiReceiver [.event (.notify [py!"+CMTI: \"SM\",3"])] {}).log = hiHeld := by decide +kernel
    rw [this]
    exact .cons ⟨_, _, _, _, (C22_str_pdu (by decide)).1, hi_conveyed, (C22_str_pdu (by decide)).1⟩ .nil

/-! ### What the program is not handed: the headers of the parts -/

/-- Messages that differ only in their headers make the same object. -/
theorem C96_header_dropped {p q : PyStr} {smsc number : Option PyStr} {len len' pid pid' : Nat} {time : DateTime} {ud ud' : UserData} (hp : decodeSmsPdu p = .ok ⟨smsc, len, .deliver number pid time ud⟩)
    (hq : decodeSmsPdu q = .ok ⟨smsc, len', .deliver number pid' time ud'⟩) (ht : ud.text = ud'.text) (state : Nat) (m : Msg) :
    Carries p state m ↔ Carries q state m := by
  unfold Carries
  rw [hp, hq]
  constructor
  · rintro (⟨_, _, _, _, _, _, h, rfl⟩ | ⟨_, _, _, _, _, _, _, h, rfl⟩)
    · cases h; rw [ht]; exact .inl ⟨_, _, _, _, _, _, rfl, rfl⟩
    · cases h
  · rintro (⟨_, _, _, _, _, _, h, rfl⟩ | ⟨_, _, _, _, _, _, _, h, rfl⟩)
    · cases h; rw [← ht]; exact .inl ⟨_, _, _, _, _, _, rfl, rfl⟩
    · cases h

/-- Part `i` of the two parts of message 7, with the text `c`. -/
def partPdu (i c : Nat) : List Nat :=
  [3, 0x91, 0x72, 0x99, 0x44, 4, 0x91, 0x72, 0x28, 0, 8, 0x62, 0x11, 0x61, 0x90, 0x00, 0x00, 0x80, 8, 5, 0, 3, 7, 2, i, 0, c]

/-- So the parts of "AB" and those of "BA" make the same objects: the program cannot tell in which order they belong. -/
theorem C96_order_lost : ∃ x y : Msg, readOff x = some (some py!"+2782", py!"A") ∧ readOff y = some (some py!"+2782", py!"B") ∧
    Carries (pduHex (partPdu 1 65)) 0 x ∧ Carries (pduHex (partPdu 2 66)) 0 y ∧ Carries (pduHex (partPdu 1 66)) 0 y ∧ Carries (pduHex (partPdu 2 65)) 0 x :=
  ⟨.received 0 (some py!"+2782") hiTime py!"A" (some py!"+2799"), .received 0 (some py!"+2782") hiTime py!"B" (some py!"+2799"), rfl, rfl,
    .inl ⟨_, 23, _, 0, _, ⟨some [⟨0, 3, [7, 2, 1], .concatenation 7 2 1⟩], py!"A"⟩, by decide +kernel, rfl⟩, .inl ⟨_, 23, _, 0, _, ⟨some [⟨0, 3, [7, 2, 2], .concatenation 7 2 2⟩], py!"B"⟩, by decide +kernel, rfl⟩,
    .inl ⟨_, 23, _, 0, _, ⟨some [⟨0, 3, [7, 2, 1], .concatenation 7 2 1⟩], py!"B"⟩, by decide +kernel, rfl⟩, .inl ⟨_, 23, _, 0, _, ⟨some [⟨0, 3, [7, 2, 2], .concatenation 7 2 2⟩], py!"A"⟩, by decide +kernel, rfl⟩⟩

end Gsm
