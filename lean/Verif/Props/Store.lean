import Verif.Spec.ExampleStore
import Verif.Lemmas.StoreConnect
/-! # C92: stored messages are neither lost nor handed over twice -/
namespace Gsm
open M Spec List

variable {env : Env} {shelf : List PyStr → Shelf} {came : List PyStr → List HeldSms}

/-- Processing the stored messages: it succeeds; the messages handed over are those that have been taken off the modem, each once;
everything else is still there; and all unread messages of the selected memory (and the read ones, if they are wanted) have been handed over. -/
theorem C92_process (H : Keeping env.reply shelf came) (hd : 0 < env.depth) (unreadOnly : Bool) {s : St} (hk : Knows shelf s) (hs : (shelf s.log).Sound) :
    ∃ (s1 : St) (taken : List (HeldSms × Msg)), processStoredSms unreadOnly env s = (.ok (), s1) ∧ Knows shelf s1 ∧ (shelf s1.log).Sound ∧
      Delivered shelf came s s1 taken ∧
      ∀ x ∈ (shelf s.log).slots, x.memory = (shelf s.log).memory → (x.state = 0 ∨ unreadOnly = false ∧ x.state = 1) → x ∈ taken.map Prod.fst := by
  obtain ⟨s1, taken, new, h1, -, -, h4, h5, h6, h7⟩ := process_keep H hd unreadOnly hk hs
  exact ⟨s1, taken, h1, h4, h5, h6, h7⟩

example : Keeping (storeExample 2).reply (keptBy shelfExample 2 lateExample) (comeAt 2 lateExample) ∧ Knows (keptBy shelfExample 2 lateExample) {} ∧
    (keptBy shelfExample 2 lateExample []).Sound := ⟨example_keeping 2 (by decide), ⟨rfl, fun _ h => by cases h⟩, example_sound⟩
/-- A message that comes while the first one is being deleted is found by the second listing. -/
example : handedOver (processStoredSms false (storeExample 2) {}).2 = [hiMsg 0, hiMsg 1] ∧
    (keptBy shelfExample 2 lateExample (processStoredSms false (storeExample 2) {}).2.log).slots = [⟨py!"ME", 5, 0, hiPdu⟩] := by decide +kernel
/-- The read message stays if only the unread ones are wanted. -/
example : handedOver (processStoredSms true (storeExample 2) {}).2 = [] ∧
    (keptBy shelfExample 2 lateExample (processStoredSms true (storeExample 2) {}).2.log).slots = [⟨py!"SM", 3, 1, hiPdu⟩, ⟨py!"ME", 5, 0, hiPdu⟩] := by
  decide +kernel

/-- The handler of the notification that a message has been stored: if there is a message at the place, it is handed over once and that
message and no other is taken off the modem. -/
theorem C92_notified (H : Keeping env.reply shelf came) (hd : 0 < env.depth) {line mem idx : PyStr} (hl : StoredAt py!"+CMTI:" line mem idx) {s : St}
    (hk : Knows shelf s) (hs : (shelf s.log).Sound) {x : HeldSms} (hx : x ∈ (shelf s.log).slots) (hm : x.memory = mem) (hp : x.place = decVal idx)
    (hpdu : IsMessage x.pdu) :
    ∃ y m s1, handleSmsReceived line env s = (.ok (), s1) ∧ y.content = x.content ∧ MadeInto y m ∧ s1.callbacks = .smsReceived m :: s.callbacks ∧
      Knows shelf s1 ∧ (shelf s1.log).Sound ∧ Balance shelf came s.log s1.log [x] := by
  rcases received_keep H hd hl hk hs with ⟨e, s1, -, -, -, -, -, -, h⟩ | ⟨y, m, s1, h1, h2, -, h4, h5, h6, -, -, h9, h10⟩
  · exact absurd hpdu (h x (mem_map_of_mem hx) hm hp)
  · have hc := h10 x (mem_map_of_mem hx) hm hp
    refine ⟨y, m, s1, h1, hc.symm, h6, h2, h4, h5, ?_⟩
    unfold Balance at h9 ⊢
    simpa [hc] using h9

example : (handleSmsReceived py!"+CMTI: \"ME\",5" (storeExample 2) {}).2.callbacks = [.smsReceived (hiMsg 0)] ∧
    (keptBy shelfExample 2 lateExample (handleSmsReceived py!"+CMTI: \"ME\",5" (storeExample 2) {}).2.log).slots =
      [⟨py!"SM", 3, 1, hiPdu⟩, ⟨py!"SM", 4, 0, hiPdu⟩] := by decide +kernel

/-- Over a whole session, in which messages come whenever they like: the messages handed over are exactly those that have left the modem, each once,
and each handed over with its own text; everything else that was there or came is still there. -/
theorem C92_history [PyUnicode] (H : Keeping env.reply shelf came) (hd : 0 < env.depth) {ops : List Op} (ho : ∀ op ∈ ops, Careful op) {s : St}
    (hk : Knows shelf s) (hs : (shelf s.log).Sound) :
    Knows shelf (runOps env ops s) ∧ (shelf (runOps env ops s).log).Sound ∧ ∃ taken : List (HeldSms × Msg), Delivered shelf came s (runOps env ops s) taken :=
  (safe_ops H hd ops s ho hk hs).2

attribute [local instance] asciiUnicode in
/-- Notifications, a listing, a sent message and processing. -/
example : handedOver (runOps (storeExample 3) [.event (.notify [py!"+CMTI: \"ME\",5"]), .list 4 (some py!"SM") false, .send py!"+27" py!"x" false, .process false] {}) =
      [hiMsg 1, hiMsg 1, hiMsg 0] ∧
    (keptBy shelfExample 3 lateExample (runOps (storeExample 3)
      [.event (.notify [py!"+CMTI: \"ME\",5"]), .list 4 (some py!"SM") false, .send py!"+27" py!"x" false, .process false] {}).log).slots = [] := by decide +kernel

/-- So no message is lost: what was there or has come is there or has been handed over. -/
theorem C92_none_lost [PyUnicode] (H : Keeping env.reply shelf came) (hd : 0 < env.depth) {ops : List Op} (ho : ∀ op ∈ ops, Careful op) {s : St}
    (hk : Knows shelf s) (hs : (shelf s.log).Sound) {x : HeldSms} (hx : x ∈ (shelf s.log).slots ∨ x ∈ since came s.log (runOps env ops s).log) :
    (∃ y ∈ (shelf (runOps env ops s).log).slots, y.content = x.content) ∨ ∃ n m, Carries x.pdu n m ∧ m ∈ handedOver (runOps env ops s) := by
  obtain ⟨-, -, taken, h1, h2, h3⟩ := C92_history H hd ho hk hs
  have hm : x.content ∈ (shelf s.log).slots.map HeldSms.content ++ (since came s.log (runOps env ops s).log).map HeldSms.content := by
    rcases hx with hx | hx
    · exact mem_append_left _ (mem_map_of_mem hx)
    · exact mem_append_right _ (mem_map_of_mem hx)
  rcases mem_append.1 (h3.mem_iff.2 hm) with h | h
  · exact .inl (by simpa using h)
  · right
    obtain ⟨y, hy, hc⟩ := mem_map.1 h
    obtain ⟨p, hp, rfl⟩ := mem_map.1 hy
    refine ⟨p.1.state, p.2, ?_, ?_⟩
    · have := h2 p hp
      rw [show x.pdu = p.1.pdu by simpa [HeldSms.content] using (congrArg (·.2.2) hc).symm]
      exact this
    · rw [h1]
      simp only [mem_append, mem_reverse]
      exact .inl (mem_map_of_mem hp)

/-- Nor handed over more often than it came: as many have been handed over as have left the modem. -/
theorem C92_count [PyUnicode] (H : Keeping env.reply shelf came) (hd : 0 < env.depth) {ops : List Op} (ho : ∀ op ∈ ops, Careful op) {s : St}
    (hk : Knows shelf s) (hs : (shelf s.log).Sound) :
    (handedOver (runOps env ops s)).length + (shelf (runOps env ops s).log).slots.length =
      (handedOver s).length + (shelf s.log).slots.length + (since came s.log (runOps env ops s).log).length := by
  obtain ⟨-, -, taken, h1, -, h3⟩ := C92_history H hd ho hk hs
  have := h3.length_eq
  simp only [length_append, length_map] at this
  rw [h1]
  simp only [length_append, length_reverse, length_map]
  omega

attribute [local instance] asciiUnicode in
example : (∀ op ∈ [Op.event (.notify [py!"+CMTI: \"ME\",5"]), .list 4 (some py!"SM") false, .send py!"+27" py!"x" false, .process false], Careful op) ∧
    (since (comeAt 3 lateExample) [] (runOps (storeExample 3)
      [.event (.notify [py!"+CMTI: \"ME\",5"]), .list 4 (some py!"SM") false, .send py!"+27" py!"x" false, .process false] {}).log) = lateExample := by
  refine ⟨?_, by decide +kernel⟩
  intro op hop
  simp only [mem_cons, not_mem_nil, or_false] at hop
  rcases hop with rfl | rfl | rfl | rfl
  · intro l hl mem idx h
    rw [mem_singleton.1 hl] at h
    obtain ⟨b, t, h, -⟩ := h
    simp at h
  · exact ⟨fun m h => by cases h; exact ⟨by decide, by decide⟩, rfl⟩
  · trivial
  · trivial

/-- Connecting, whether it succeeds or not, leaves all messages where they are, hands over nothing, and whatever it selects, the program is not
wrong about it afterwards (for a modem object that has not been used yet). -/
theorem C92_connect (H : Keeping env.reply shelf came) (pin : Option PyStr) {s : St} (ht : s.smsTextMode = false)
    (hm : ∀ m, s.smsMemReadDelete = some m → 34 ∈ m) (hs : (shelf s.log).Sound) :
    Knows shelf (connect pin env s).2 ∧ (shelf (connect pin env s).2.log).Sound ∧ Delivered shelf came s (connect pin env s).2 [] :=
  let h := connect_knows H pin ht hm hs
  ⟨h.1, h.2.1, h.2.2.1⟩

/-- The example selects another memory. -/
example : (connect none (storeExample 7) {}).1 = .ok () ∧ (connect none (storeExample 7) {}).2.smsMemReadDelete = some py!"\"ME\"" ∧
    (keptBy shelfExample 7 lateExample []).memory = py!"SM" ∧ (keptBy shelfExample 7 lateExample (connect none (storeExample 7) {}).2.log).memory = py!"ME" ∧
    (keptBy shelfExample 7 lateExample (connect none (storeExample 7) {}).2.log).slots = shelfExample.slots ++ lateExample := by decide +kernel

/-- So from the first command on, all that was there or came has been handed over, each message once, or is still there. -/
theorem C92_session [PyUnicode] (H : Keeping env.reply shelf came) (hd : 0 < env.depth) (pin : Option PyStr) {ops : List Op} (ho : ∀ op ∈ ops, Careful op) {s : St}
    (ht : s.smsTextMode = false) (hm : s.smsMemReadDelete = none) (hs : (shelf s.log).Sound) :
    ∃ taken : List (HeldSms × Msg), Delivered shelf came s (runOps env ops (connect pin env s).2) taken := by
  obtain ⟨h1, h2, h3, n1, e1⟩ := connect_knows H pin ht (fun m h => by rw [hm] at h; cases h) hs
  obtain ⟨⟨n2, e2⟩, -, -, taken, h4⟩ := safe_ops H hd ops _ ho h1 h2
  exact ⟨taken, by simpa using delivered_trans e1 e2 h3 h4⟩

attribute [local instance] asciiUnicode in
example : handedOver (runOps (storeExample 7) [.process false, .event (.notify [py!"+CMTI: \"SM\",3"]), .process false] (connect none (storeExample 7) {}).2) =
      [hiMsg 0, hiMsg 1, hiMsg 0] ∧
    (keptBy shelfExample 7 lateExample (runOps (storeExample 7) [.process false, .event (.notify [py!"+CMTI: \"SM\",3"]), .process false]
      (connect none (storeExample 7) {}).2).log).slots = [] := by decide +kernel

/-! ### What the condition is for -/

/-- Listing all messages and deleting them loses a message that comes in between. -/
theorem C92_listing_loses : Keeping (storeExample 2).reply (keptBy shelfExample 2 lateExample) (comeAt 2 lateExample) ∧
    (listStoredSms 4 none true (storeExample 2) {}).1 = .ok [hiMsg 1] ∧
    since (comeAt 2 lateExample) [] (listStoredSms 4 none true (storeExample 2) {}).2.log = [⟨py!"SM", 4, 0, hiPdu⟩] ∧
    (keptBy shelfExample 2 lateExample (listStoredSms 4 none true (storeExample 2) {}).2.log).slots = [⟨py!"ME", 5, 0, hiPdu⟩] :=
  ⟨example_keeping 2 (by decide), by decide +kernel, by decide +kernel, by decide +kernel⟩

/-- A received message whose PDU cannot be read, before another one. -/
def badShelf : Shelf := ⟨py!"SM", [⟨py!"SM", 3, 1, py!"0G"⟩, ⟨py!"SM", 4, 1, hiPdu⟩]⟩

/-- Then the first one is lost, and the second one is handed over twice if the messages are processed twice. -/
theorem C92_unreadable_doubles : Keeping (keeper badShelf 9 []).reply (keptBy badShelf 9 []) (comeAt 9 []) ∧
    (keptBy badShelf 9 [] (processStoredSms false (keeper badShelf 9 []) {}).2.log).slots = [⟨py!"SM", 4, 1, hiPdu⟩] ∧
    handedOver (processStoredSms false (keeper badShelf 9 []) {}).2 = [hiMsg 1] ∧
    handedOver (processStoredSms false (keeper badShelf 9 []) (processStoredSms false (keeper badShelf 9 []) {}).2).2 = [hiMsg 1, hiMsg 1] :=
  ⟨keeper_keeping (by decide) (by decide +kernel) (fun x hx => absurd hx (by simp)), by decide +kernel, by decide +kernel, by decide +kernel⟩

/-- A notification of a delivery report for a place where a message is deletes the message without handing it over. -/
theorem C92_report_loses : Keeping (storeExample 9).reply (keptBy shelfExample 9 lateExample) (comeAt 9 lateExample) ∧
    handedOver ((Event.notify [py!"+CDSI: \"SM\",3"]).run (storeExample 9) {}).2 = [] ∧
    (keptBy shelfExample 9 lateExample ((Event.notify [py!"+CDSI: \"SM\",3"]).run (storeExample 9) {}).2.log).slots = [⟨py!"ME", 5, 0, hiPdu⟩] :=
  ⟨example_keeping 9 (by decide), by decide +kernel, by decide +kernel⟩

end Gsm
