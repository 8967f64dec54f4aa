import Verif.Lemmas.Poison
import Verif.Props.Store
import Verif.Props.Deliver
/-! # C100: one message that cannot be understood does not hinder the others -/
namespace Gsm
open M Spec List

variable {env : Env} {shelf : List PyStr → Shelf} {came : List PyStr → List HeldSms}

/-- A stored PDU is a message, is refused as a PDU, or makes the program stumble: just one of these, and it stumbles with just one exception. -/
theorem C100_kinds (pdu : PyStr) : (IsMessage pdu ∨ Garbled pdu ∨ ∃ e, Stumbles pdu e) ∧ (Garbled pdu → ¬ IsMessage pdu) ∧
    (∀ e, Stumbles pdu e → ¬ Garbled pdu ∧ ¬ IsMessage pdu ∧ ∀ e', Stumbles pdu e' → e' = e) :=
  ⟨kinds pdu, garbled_apart, fun _ h => ⟨(stumbles_apart h).1, (stumbles_apart h).2, fun _ h' => stumbles_unique h' h⟩⟩

/-- A received message without text. -/
def emptyPdu : PyStr := py!"0004059172214300003130413120538000"

theorem empty_stumbles : Stumbles emptyPdu .typeError := .inl ⟨by decide +kernel, by decide⟩

example : IsMessage hiPdu ∧ Garbled py!"0G" ∧ Stumbles emptyPdu .typeError := ⟨hi_message, by unfold Garbled; decide +kernel, empty_stumbles⟩

/-- Every received message without text, in the GSM alphabet, makes the program stumble. -/
theorem C100_empty {smsc oa : Option PyStr} {sca oaf scts : List Nat} {fo pid dcs : Nat} {d : DateTime} {pdu : PyStr}
    (hs : AddrWire true smsc sca) (ho : AddrWire false oa oaf) (ht : TsWire d scts) (hfo : fo < 256) (hmti : fo % 4 = 0) (hudhi : fo.testBit 6 = false)
    (hpid : pid < 256) (hdcs : dcs < 256) (hgsm : decodeDataCoding dcs = 0) (hp : HexOf (deliverOctets sca fo oaf pid dcs scts 0 []) pdu) :
    Stumbles pdu .typeError := by
  refine .inl ⟨?_, by decide⟩
  unfold decodeSmsPdu
  rw [unhex_of hp]
  exact C23_empty_gsm7 hs ho ht hfo hmti hudhi hpid hdcs hgsm

example : Stumbles py!"000405917221F300003130413120538000" .typeError :=
  C100_empty (pdu := py!"000405917221F300003130413120538000") .absent exampleAddr exampleTs (fo := 4) (pid := 0) (dcs := 0)
    (by decide) rfl rfl (by decide) (by decide) (by decide) (of_unhex (by decide +kernel))

/-- What a listing in PDU mode is taken for, whatever is stored: it is always one thing, and the program takes it for that.
The messages are returned, and the places that are deleted are those that they are taken to come from. -/
theorem C100_listing {es : List PduEntry} (hok : ∀ e ∈ es, e.Ok) :
    (∃ r, ListedAs none es r ∧ ∀ r', ListedAs none es r' → r' = r) ∧
    (∀ ms, ListedAs none es (.ok ms) → parseListing false (es.flatMap PduEntry.lines ++ [py!"OK"]) =
      .ok ⟨ms.map Prod.snd, (ms.map fun p => (p.1 : Int)).foldl setAdd []⟩) ∧
    ∀ x, ListedAs none es (.error x) → parseListing false (es.flatMap PduEntry.lines ++ [py!"OK"]) = .error x := by
  refine ⟨?_, fun ms h => ?_, fun x h => ?_⟩
  · obtain ⟨r, hr⟩ := listedAs_total es none
    exact ⟨r, hr, fun r' h' => (listedAs_unique hr h').symm⟩
  · have := listedAs_loop h hok ⟨[], []⟩
    simpa [parseListing, asPending, asListing] using this
  · have := listedAs_loop h hok ⟨[], []⟩
    simpa [parseListing, asPending, asListing] using this

/-- The garbled message lends its place and state to the next one: the next one is handed over as if it came from place 3, which is deleted. -/
example : ListedAs none [⟨py!" ", py!"3", [], py!"0", py!",18", py!"0G"⟩, ⟨py!" ", py!"4", [], py!"1", py!",18", hiPdu⟩] (.ok [(3, hiMsg 0)]) ∧
    parseListing false [py!"+CMGL: 3,0,,18", py!"0G", py!"+CMGL: 4,1,,18", hiPdu, py!"OK"] = .ok ⟨[hiMsg 0], [3]⟩ := by
  refine ⟨.garbled (by unfold Garbled; decide +kernel) (.message (hi_carries 0) (.nil _)), by decide +kernel⟩

/-- All or nothing: a listing raises an exception just if one of its messages makes the program stumble, however many others there are. -/
theorem C100_all_or_nothing {es : List PduEntry} (hok : ∀ e ∈ es, e.Ok) :
    (∃ x, parseListing false (es.flatMap PduEntry.lines ++ [py!"OK"]) = .error x) ↔ ∃ e ∈ es, ∃ x, Stumbles e.pdu x := by
  obtain ⟨r, hr⟩ := listedAs_total es none
  obtain ⟨-, h1, h2⟩ := C100_listing hok
  rw [← listedAs_error hr]
  cases r with
  | ok ms => rw [h1 ms hr]; simp
  | error x => rw [h2 x hr]; simp

example : parseListing false [py!"+CMGL: 3,1,,18", hiPdu, py!"+CMGL: 4,1,,16", emptyPdu, py!"OK"] = .error .typeError := by decide +kernel

/-! ### Processing the stored messages -/

theorem poisoned_listed {m : Shelf} {k : Nat} (h : m.Poisoned k) : ∃ x ∈ m.listed k, ∃ e, Stumbles x.pdu e := by
  obtain ⟨x, hx, hm, hk, e, he⟩ := h
  exact ⟨x, by simp [Shelf.listed, hx, hm, hk], e, he⟩

/-- Once such a message has been read, processing all stored messages raises an exception, hands over nothing, takes nothing off the modem, and the message is still in the way. -/
theorem C100_blocked (H : Keeping env.reply shelf came) (hd : 0 < env.depth) {s : St} (hk : Knows shelf s) (hp : (shelf s.log).Poisoned 1) :
    ∃ e s1, processStoredSms false env s = (.error e, s1) ∧ s1.log = py!"AT+CMGL=1\r" :: s.log ∧ s1.callbacks = s.callbacks ∧
      Balance shelf came s.log s1.log [] ∧ Knows shelf s1 ∧ (shelf s1.log).Poisoned 1 := by
  obtain ⟨x, hx, e, he⟩ := poisoned_listed hp
  obtain ⟨e', h1, h2, h3⟩ := list_stumbles H hd (k := 1) (by omega) true hk hx he
  have hmem : (shelf (py!"AT+CMGL=1\r" :: s.log)).memory = (shelf s.log).memory := by
    have := congrArg Shelf.memory h3; exact this
  refine ⟨e', { s with log := py!"AT+CMGL=1\r" :: s.log }, ?_, rfl, rfl, h2, ⟨hk.1, fun m hm hq => hmem.trans (hk.2 m hm hq)⟩, ?_⟩
  · have e1 : processStoredSms false = (listStoredSms (1 : Nat) none true >>= fun ms => callbackAll ms >>= fun _ =>
        listStoredSms (0 : Nat) none true >>= callbackAll : M Unit) := rfl
    rw [e1, run_bind, h1]
    rfl
  · obtain ⟨x, hx, hm, hxk, hxe⟩ := hp
    refine ⟨x, ?_, hm.trans hmem.symm, hxk, hxe⟩
    show x ∈ (shelf (py!"AT+CMGL=1\r" :: s.log)).slots
    have h3' : shelf (py!"AT+CMGL=1\r" :: s.log) = _ := h3
    rw [h3']
    refine mem_map.2 ⟨x, mem_append_left _ hx, ?_⟩
    simp [HeldSms.seen, hxk]

/-- For ever: however often the messages are processed, and whatever comes meanwhile, none is handed over and none leaves the modem. -/
theorem C100_forever [PyUnicode] (H : Keeping env.reply shelf came) (hd : 0 < env.depth) : ∀ (n : Nat) {s : St}, Knows shelf s → (shelf s.log).Poisoned 1 →
    (runOps env (replicate n (.process false)) s).callbacks = s.callbacks ∧ Balance shelf came s.log (runOps env (replicate n (.process false)) s).log [] ∧
      (shelf (runOps env (replicate n (.process false)) s).log).Poisoned 1 ∧ ∃ new, (runOps env (replicate n (.process false)) s).log = new ++ s.log
  | 0, s, _, hp => ⟨rfl, balance_refl _, hp, [], rfl⟩
  | n + 1, s, hk, hp => by
    obtain ⟨e, s1, h1, h2, h3, h4, h5, h6⟩ := C100_blocked H hd hk hp
    have hr : (Op.run (.process false) env s).2 = s1 := by
      simp only [Op.run, run_bind, h1]
    rw [replicate_succ, runOps, hr]
    obtain ⟨k1, k2, k3, new, k4⟩ := C100_forever H hd n h5 h6
    refine ⟨k1.trans h3, ?_, k3, new ++ [py!"AT+CMGL=1\r"], by rw [k4, h2]; simp⟩
    rw [k4, h2] at k2 ⊢
    rw [h2] at h4
    exact balance_trans (n1 := [py!"AT+CMGL=1\r"]) h4 k2

/-- An unread one: processing the unread messages raises an exception and hands over nothing, but the modem has marked them all as read, so that the
unread messages that were there are not found any more by processing the unread ones. -/
theorem C100_unread (H : Keeping env.reply shelf came) (hd : 0 < env.depth) {s : St} (hk : Knows shelf s) (hp : (shelf s.log).Poisoned 0) :
    ∃ e s1, processStoredSms true env s = (.error e, s1) ∧ s1.log = py!"AT+CMGL=0\r" :: s.log ∧ s1.callbacks = s.callbacks ∧
      Balance shelf came s.log s1.log [] ∧ Knows shelf s1 ∧ (shelf s1.log).listed 0 = [] ∧ (shelf s1.log).Poisoned 1 := by
  obtain ⟨x, hx, e, he⟩ := poisoned_listed hp
  obtain ⟨e', h1, h2, h3⟩ := list_stumbles H hd (k := 0) (by omega) true hk hx he
  have hmem : (shelf (py!"AT+CMGL=0\r" :: s.log)).memory = (shelf s.log).memory := by
    have := congrArg Shelf.memory h3; exact this
  have h3' : shelf (py!"AT+CMGL=0\r" :: s.log) = _ := h3
  refine ⟨e', { s with log := py!"AT+CMGL=0\r" :: s.log }, ?_, rfl, rfl, h2, ⟨hk.1, fun m hm hq => hmem.trans (hk.2 m hm hq)⟩, ?_, ?_⟩
  · have e1 : processStoredSms true = (listStoredSms (0 : Nat) none true >>= callbackAll : M Unit) := rfl
    rw [e1, run_bind, h1]
    rfl
  · show (shelf (py!"AT+CMGL=0\r" :: s.log)).listed 0 = []
    refine eq_nil_iff_forall_not_mem.2 fun y hy => ?_
    rw [h3'] at hy
    generalize (shelf s.log).with _ = m0 at hy
    obtain ⟨h4, h5⟩ := mem_filter.1 hy
    have h5 := of_decide_eq_true h5
    obtain ⟨z, hz, rfl⟩ := mem_map.1 h4
    have hs := h5.2.resolve_left (by omega)
    by_cases hc : z ∈ m0.listed 0
    · rw [if_pos (decide_eq_true hc)] at hs
      unfold HeldSms.seen at hs
      by_cases h0 : z.state = 0
      · rw [if_pos h0] at hs; cases hs
      · rw [if_neg h0] at hs; exact h0 hs
    · rw [if_neg (by simpa using hc)] at h5
      exact hc (mem_filter.2 ⟨hz, decide_eq_true h5⟩)
  · obtain ⟨x, hx, hm, hxk, e, hxe⟩ := hp
    refine ⟨x.seen, ?_, ?_, by simp [HeldSms.seen, hxk], e, by simpa [HeldSms.seen, hxk] using hxe⟩
    · show x.seen ∈ (shelf (py!"AT+CMGL=0\r" :: s.log)).slots
      rw [h3']
      refine mem_map.2 ⟨x, mem_append_left _ hx, ?_⟩
      rw [if_pos]
      simp [Shelf.listed, Shelf.with, hx, hm, hxk]
    · show x.seen.memory = (shelf (py!"AT+CMGL=0\r" :: s.log)).memory
      rw [hmem, ← hm]
      simp [HeldSms.seen, hxk]

/-- The notification of a message that is no message: an exception, nothing handed over and nothing deleted. So it stays. -/
theorem C100_stuck (H : Keeping env.reply shelf came) (hd : 0 < env.depth) {line mem idx : PyStr} (hl : StoredAt py!"+CMTI:" line mem idx) {s : St}
    (hk : Knows shelf s) {x : HeldSms} (hx : x ∈ (shelf s.log).slots) (hm : x.memory = mem) (hp : x.place = decVal idx) (hpdu : ¬ IsMessage x.pdu) :
    ∃ e s1, handleSmsReceived line env s = (.error e, s1) ∧ s1.callbacks = s.callbacks ∧ Knows shelf s1 ∧ Balance shelf came s.log s1.log [] := by
  rcases received_any H hd hl hk with ⟨e, s1, h1, h2, -, h4, -, h6, -⟩ | ⟨y, m, s1, -, -, -, -, -, h6, -, -, -, h10⟩
  · exact ⟨e, s1, h1, h2, h4, h6⟩
  · have hc := h10 x (mem_map_of_mem hx) hm hp
    have : x.pdu = y.pdu := congrArg (·.2.2) hc
    exact absurd (this ▸ carries_message h6) hpdu

/-! ### A modem with an empty message and two others -/

def poisonShelf : Shelf := ⟨py!"SM", [⟨py!"SM", 3, 1, hiPdu⟩, ⟨py!"SM", 4, 1, emptyPdu⟩, ⟨py!"SM", 5, 0, hiPdu⟩]⟩

theorem poison_keeping : Keeping (keeper poisonShelf 2 []).reply (keptBy poisonShelf 2 []) (comeAt 2 []) :=
  keeper_keeping (by decide) (by decide +kernel) fun x hx => absurd hx (by simp)

theorem poison_there : (keptBy poisonShelf 2 [] []).Poisoned 1 := ⟨⟨py!"SM", 4, 1, emptyPdu⟩, by decide, rfl, rfl, _, empty_stumbles⟩

/-- The property is violated: one empty message, and the two others are never handed over, however often the messages are processed. -/
theorem C100_violated [PyUnicode] : Keeping (keeper poisonShelf 2 []).reply (keptBy poisonShelf 2 []) (comeAt 2 []) ∧ Knows (keptBy poisonShelf 2 []) {} ∧
    (∀ x ∈ poisonShelf.slots, x.pdu = hiPdu ∨ x.pdu = emptyPdu) ∧
    ∀ n, handedOver (runOps (keeper poisonShelf 2 []) (replicate n (.process false)) {}) = [] := by
  have hk : Knows (keptBy poisonShelf 2 []) {} := ⟨rfl, fun _ h => by cases h⟩
  refine ⟨poison_keeping, hk, by decide +kernel, fun n => ?_⟩
  unfold handedOver
  rw [(C100_forever poison_keeping (by decide) n hk poison_there).1]
  rfl

example : (processStoredSms false (keeper poisonShelf 2 []) {}).1 = .error .typeError ∧
    (keptBy poisonShelf 2 [] (processStoredSms false (keeper poisonShelf 2 []) {}).2.log).slots = poisonShelf.slots := by decide +kernel
/-- A new message can still be handed over when it is notified. -/
example : handedOver (handleSmsReceived py!"+CMTI: \"SM\",5" (keeper poisonShelf 2 []) {}).2 = [hiMsg 0] ∧
    (handleSmsReceived py!"+CMTI: \"SM\",4" (keeper poisonShelf 2 []) {}).1 = .error .typeError := by decide +kernel

/-- The unread messages beside an unread empty one. -/
def unreadShelf : Shelf := ⟨py!"SM", [⟨py!"SM", 3, 0, hiPdu⟩, ⟨py!"SM", 4, 0, emptyPdu⟩]⟩

example : (processStoredSms true (keeper unreadShelf 2 []) {}).1 = .error .typeError ∧
    (keptBy unreadShelf 2 [] (processStoredSms true (keeper unreadShelf 2 []) {}).2.log).slots = [⟨py!"SM", 3, 1, hiPdu⟩, ⟨py!"SM", 4, 1, emptyPdu⟩] ∧
    (processStoredSms true (keeper unreadShelf 2 []) (processStoredSms true (keeper unreadShelf 2 []) {}).2).1 = .ok () ∧
    handedOver (processStoredSms true (keeper unreadShelf 2 []) (processStoredSms true (keeper unreadShelf 2 []) {}).2).2 = [] := by decide +kernel

end Gsm
