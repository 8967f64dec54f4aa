import Verif.Lemmas.ThreadConnectEnd
import Verif.Props.ThreadCalls
/-! # Property C105: connecting while other threads are at work -/
namespace Gsm
open M Spec Prog

variable {env : Env}

/-! ### Without interleaving -/

/-- The steps of `connect` are `connect`. -/
theorem C105_alone [PyUnicode] (x : Activity) (s : St) : x.prog.run env s = activityAlone x env s := by
  cases x with
  | task t => exact C77_alone t s
  | connect pin => exact same_connect pin env s

/-- Running the activities one after the other is one of the schedules. -/
theorem C105_serial [PyUnicode] (activities : List Activity) (s : St) : ∃ schedule, performActivities env schedule activities s =
    ((activitiesSerially env activities s).1.map .done, (activitiesSerially env activities s).2) := by
  suffices h : ∀ (activities : List Activity) (before : List (Prog Unit)) (s : St), ∃ schedule, runThreads env schedule (before ++ activities.map Activity.prog, s) =
      (before ++ (activitiesSerially env activities s).1.map .done, (activitiesSerially env activities s).2) from h activities [] s
  intro activities
  induction activities with
  | nil => exact fun before s => ⟨[], rfl⟩
  | cons x xs ih =>
    intro before s
    obtain ⟨n, hn⟩ := finish_thread (env := env) x.prog s
    obtain ⟨schedule, hs⟩ := ih (before ++ [.done (activityAlone x env s).1]) (activityAlone x env s).2
    refine ⟨List.replicate n before.length ++ schedule, ?_⟩
    rw [hn _ before.length schedule (by simp), C105_alone]
    simpa [activitiesSerially] using hs

/-! ### What all schedules keep -/

theorem kept_rfl (s : St) : CallsKept s s := ⟨.rfl s, id, fun _ c h => ⟨c, h, .rfl c⟩, fun _ _ => id⟩
theorem kept_grow {a b : St} (h : CallsGrow a b) : CallsKept a b := ⟨h.grows, h.table, h.calls, h.removed⟩
theorem kept_trans {a b c : St} (h : CallsKept a b) (h' : CallsKept b c) : CallsKept a c := by
  refine ⟨h.grows.trans h'.grows, h'.table ∘ h.table, fun i x hx => ?_, fun i hi hn => h'.removed i ?_ (h.removed i hi hn)⟩
  · obtain ⟨y, h1, h2⟩ := h.calls i x hx
    obtain ⟨z, h3, h4⟩ := h'.calls i y h1
    exact ⟨z, h3, h2.trans h4⟩
  · obtain ⟨y, h1, _⟩ := h.calls i a.calls[i] (List.getElem?_eq_getElem hi)
    exact (List.getElem?_eq_some_iff.1 h1).1
theorem kept_settings {a b : St} (h : SettingsOnly a b) : CallsKept a b := by
  refine ⟨settings_grows h, ?_, fun i c hc => ⟨c, h.calls ▸ hc, .rfl c⟩, fun i _ => ?_⟩
  · unfold TableKeyed; rw [h.calls, h.table]; exact id
  · unfold InTable; rw [h.table]; exact id
theorem callStable_kept : CallStable CallsKept True True := ⟨fun h _ => kept_grow h.grow, fun _ _ _ h => kept_grow h.grow, fun _ _ _ h => kept_grow h⟩

theorem keeps_activity [PyUnicode] (x : Activity) : Keeps env Always CallsKept Any x.prog := by
  cases x with
  | task t => exact keeps_task callStable_kept t (fun _ => trivial) fun _ => trivial
  | connect pin => exact keeps_connect (callStable_writes callStable_kept) (fun _ _ _ => kept_settings) pin

/-- Whatever is done while connecting: no call is forgotten or becomes another call, one that is over does not become active again, no callback and no report is lost. -/
theorem C105_kept [PyUnicode] (activities : List Activity) (schedule : List Nat) (s : St) : CallsKept s (performActivities env schedule activities s).2 := by
  refine keeps_threads (env := env) (P := CallsKept s) (G := fun a b => CallsKept s a → CallsKept s b) (fun _ _ h => h) (fun a b h h' => h' h) schedule (activities.map Activity.prog) s (fun p hp => ?_) (kept_rfl s)
  obtain ⟨x, _, rfl⟩ := List.mem_map.1 hp
  have hk := keeps_activity (env := env) x
  generalize x.prog = p at hk
  induction p with
  | done r => cases r <;> trivial
  | io t k ih => exact fun a ha => ⟨fun h1 => kept_trans h1 (hk a trivial).1, ih _ (hk a trivial).2⟩
  | act f k ih => exact fun a ha => ⟨fun h1 => kept_trans h1 (hk a trivial).1, ih _ _ (hk a trivial).2⟩

/-! ### What a thread has done at its end -/

theorem ends_activities [PyUnicode] {activities : List Activity} {s : St} {i : Nat} {x : Activity} {schedule : List Nat} {r : Except PyErr Unit} {Q : Except PyErr Unit → St → Prop}
    (hx : activities[i]? = some x) (hq : Ends env Grows Q x.prog s) (hd : (performActivities env schedule activities s).1[i]? = some (.done r)) :
    ∃ s', Q r s' ∧ Grows s' (performActivities env schedule activities s).2 := by
  refine ends_threads (P := fun _ => True) (G := CallsKept) Grows.rfl (fun _ _ _ => Grows.trans) (fun s _ => kept_rfl s) (fun _ _ _ h => ⟨trivial, h.grows⟩) schedule
    (activities.map Activity.prog) s s x.prog (fun p hp => ?_) trivial (by simp [hx]) hq (Grows.rfl s) r hd
  obtain ⟨y, _, rfl⟩ := List.mem_map.1 hp
  exact keeps_activity y

/-- A thread that has connected has got the modem to accept these commands, in this order. -/
theorem C105_connected [PyUnicode] {activities : List Activity} {s : St} {i : Nat} {pin : Option PyStr} (hx : activities[i]? = some (.connect pin)) {schedule : List Nat}
    (hd : (performActivities env schedule activities s).1[i]? = some (.done (.ok ()))) :
    ∃ (textMode : Bool) (l : List PyStr), Performed env.reply [py!"ATZ\r", py!"ATE0\r", py!"AT+CMEE=1\r", if textMode then py!"AT+CMGF=1\r" else py!"AT+CMGF=0\r"] s.log l ∧
      l <:+ (performActivities env schedule activities s).2.log := by
  obtain ⟨s1, ⟨b, l, h1, h2⟩, hG⟩ := ends_activities hx ends_connect hd
  exact ⟨b, l, h1, h2.trans hG.log⟩

/-- A message that is announced while the modem is being connected is read, deleted and passed on, if the thread gets so far. -/
theorem C105_received [PyUnicode] {activities : List Activity} {s : St} {i : Nat} {line mem idx : PyStr} (hx : activities[i]? = some (.task (.message (.received line)))) (hl : StoredAt py!"+CMTI:" line mem idx)
    {schedule : List Nat} (hd : (performActivities env schedule activities s).1[i]? = some (.done (.ok ()))) :
    ∃ m cb, Taken env s idx m (performActivities env schedule activities s).2 ∧ s.callbacks <:+ cb ∧ .smsReceived m :: cb <:+ (performActivities env schedule activities s).2.callbacks := by
  obtain ⟨s1, ⟨_, m, cb, ⟨l1, l2, ls, text, h1, h2, h3, h4, h5⟩, h6, h7⟩, hG⟩ := ends_activities hx (ends_received hl s) hd
  exact ⟨m, cb, ⟨l1, l2, ls, text, h1, h2, h3, h4, h5.trans hG.log⟩, h6, h7.trans hG.callbacks⟩

/-! ### The PIN -/

/-- Whatever the other threads do, the thread that connects submits the PIN at most once, or again after the modem said that it is busy, and only directly after the modem said to it
that it is not ready. -/
theorem C105_pin [PyUnicode] {activities : List Activity} {i : Nat} {pin : Option PyStr} (hx : activities[i]? = some (.connect pin)) (schedule : List Nat) (s : St) :
    PinOnce pin (said env i schedule (activities.map Activity.prog, s)) := by
  have h := traces_among (env := env) (R := fun _ _ => True) (I := PinOnce pin) (fun _ => trivial) (fun _ _ _ _ _ => trivial) (i := i) schedule (activities.map Activity.prog) s s (Prog.connect pin) []
    (fun _ q _ _ => keeps_trivially q) (by simp [hx, Activity.prog]) traces_connect trivial
  simpa using h.1


/-! ### Examples -/

/-- The message at place 3 of the memory has not been deleted. -/
def heldAt (mem : PyStr) : List PyStr → Bool
  | [] => true
  | c :: cs => heldAt mem cs && !(c == py!"AT+CMGD=3,0\r" && (memoryOf cs).getD py!"SM" == mem)

/-- A modem with a message at place 3 of each of the memories SM and ME, in text mode; one that is asked for a message in PDU mode gets nonsense. -/
def connectModem : Env := modemWith fun log =>
  match log with
  | c :: cs =>
    if c = py!"AT+CMGR=3\r" then
      let mem := (memoryOf cs).getD py!"SM"
      some (.lines (if heldAt mem cs then
        if modeOf cs = some py!"0" then [py!"+CMGR: 0,,20", py!"00", py!"OK"] else [py!"+CMGR: \"REC UNREAD\",\"+27\",,\"13/04/29,19:58:00+04\"", py!"in " ++ mem, py!"OK"]
      else [py!"OK"]))
    else none
  | [] => none

attribute [local instance] asciiUnicode

/-- Connecting while a message in the memory SM is announced. -/
def connectAndMessage : List Activity := [.connect none, .task (.message (.received py!"+CMTI: \"SM\",3"))]
def beforeConnect : St := { smsTextMode := true }

/-- The first thread takes `n` steps, then the second runs to its end, then the first. -/
def interrupted (n : Nat) (activities : List Activity) : List (Prog Unit) × St := performActivities connectModem (List.replicate n 0 ++ List.replicate 40 1 ++ List.replicate 60 0) activities beforeConnect

/-- The memory that the library takes for selected and the one that the modem has selected, and the same of the mode. -/
def selections (s : St) : List (Option PyStr) := [s.smsMemReadDelete, memoryOf s.log, some (if s.smsTextMode then py!"1" else py!"0"), modeOf s.log]

/-- One after the other, in both orders: the message is passed on (if the expressions for it have been compiled before, see C106), and the two agree. -/
example : results (interrupted 60 connectAndMessage).1 = [some (.ok ()), some (.ok ())] ∧ toldTexts (interrupted 60 connectAndMessage).2 = [py!"in SM"] ∧
    selections (interrupted 60 connectAndMessage).2 = [some py!"SM", some py!"SM", some py!"1", some py!"1"] := by decide +kernel
example : results (interrupted 0 connectAndMessage).1 = [some (.ok ()), some (.ok ())] ∧ toldTexts (interrupted 0 connectAndMessage).2 = [py!"in SM"] ∧
    selections (interrupted 0 connectAndMessage).2 = [some py!"\"ME\"", some py!"ME", some py!"1", some py!"1"] := by decide +kernel

/-- The hypotheses of the theorems hold in a schedule that is not serial. -/
example : StoredAt py!"+CMTI:" py!"+CMTI: \"SM\",3" py!"SM" py!"3" ∧ (interrupted 30 connectAndMessage).1[0]? = some (.done (.ok ())) ∧ (interrupted 30 connectAndMessage).1[1]? = some (.done (.ok ())) ∧
    ∃ (b : Bool) (l : List PyStr), Performed connectModem.reply [py!"ATZ\r", py!"ATE0\r", py!"AT+CMEE=1\r", if b then py!"AT+CMGF=1\r" else py!"AT+CMGF=0\r"] beforeConnect.log l ∧ l <:+ (interrupted 30 connectAndMessage).2.log := by
  have h (i : Nat) (hi : (results (interrupted 30 connectAndMessage).1)[i]? = some (some (.ok ()))) : (interrupted 30 connectAndMessage).1[i]? = some (.done (.ok ())) := by
    simp only [results, List.getElem?_map, Option.map_eq_some_iff] at hi
    obtain ⟨p, h1, h2⟩ := hi
    cases p with
    | done r => rw [h1]; simpa using h2
    | _ => cases h2
  have h0 := h 0 (by decide +kernel)
  exact ⟨⟨py!" ", [], by unfold Spaces Quotable Digits LineEnd; decide +kernel⟩, h0, h 1 (by decide +kernel), C105_connected (activities := connectAndMessage) rfl h0⟩

/-- A call goes on while the modem is connected again. -/
example : (performActivities goodModem (List.replicate 20 0 ++ List.replicate 9 1 ++ List.replicate 60 0) [.connect none, .task (.hangup 0)]
    { connected goodModem with calls := [{ incoming := false, id := 1, type := some 0, number := some py!"1", answered := true }], activeCalls := [(1, 0)] }).2.calls.map (·.active) = [false] := by decide +kernel

/-- The thread that connects submits the PIN once. -/
example : ((said (lockedModem (.lines [py!"OK"])) 0 (List.replicate 12 0 ++ List.replicate 9 1 ++ List.replicate 60 0)
    ([Activity.connect (some py!"1234"), .task (.message (.ask py!"AT+CPIN?"))].map Activity.prog, {})).map (·.1)).filter (· = pinCmd py!"1234") = [pinCmd py!"1234"] := by decide +kernel
/-- Two threads that connect may each submit it. -/
example : ((performActivities (lockedModem (.lines [py!"+CME ERROR: 16"])) (List.replicate 60 0 ++ List.replicate 60 1) [.connect (some py!"1234"), .connect (some py!"1234")] {}).2.log.filter (· = pinCmd py!"1234")).length = 2 := by
  decide +kernel

/-! ### What goes wrong -/

/-- The memory: `connect` notes that ME is selected, and then selects it. When a message in the memory SM is announced between the two, the library takes SM for selected while ME is. Both threads
end as they should; in neither order, one after the other, does it happen. The next message announced in SM is then looked for in ME: another message is passed on and deleted. -/
theorem C105_memory_violated : ∃ schedule s, s = (performActivities connectModem schedule connectAndMessage beforeConnect).2 ∧
    results (performActivities connectModem schedule connectAndMessage beforeConnect).1 = [some (.ok ()), some (.ok ())] ∧ s.smsMemReadDelete = some py!"SM" ∧ memoryOf s.log = some py!"ME" ∧ heldAt py!"ME" s.log = true ∧
    (activityAlone (.task (.message (.received py!"+CMTI: \"SM\",3"))) connectModem s).1 = .ok () ∧
    toldTexts (activityAlone (.task (.message (.received py!"+CMTI: \"SM\",3"))) connectModem s).2 = [py!"in ME", py!"in SM"] ∧
    heldAt py!"ME" (activityAlone (.task (.message (.received py!"+CMTI: \"SM\",3"))) connectModem s).2.log = false :=
  ⟨List.replicate 43 0 ++ List.replicate 40 1 ++ List.replicate 60 0, _, rfl, by decide +kernel⟩

/-- The mode: `connect` looks which mode is wanted, and then selects it. When it is changed between the two, the library takes the modem to be in PDU mode while it is in text mode: the answers are
then not understood. -/
theorem C105_mode_violated : ∃ schedule s, s = (performActivities connectModem schedule [.connect none, .task (.message (.setTextMode false))] beforeConnect).2 ∧
    results (performActivities connectModem schedule [.connect none, .task (.message (.setTextMode false))] beforeConnect).1 = [some (.ok ()), some (.ok ())] ∧
    s.smsTextMode = false ∧ modeOf s.log = some py!"1" ∧ (activityAlone (.task (.message (.received py!"+CMTI: \"SM\",3"))) connectModem s).1 ≠ .ok () :=
  ⟨List.replicate 24 0 ++ List.replicate 40 1 ++ List.replicate 60 0, _, rfl, by decide +kernel⟩

/-- One after the other, in both orders, the mode is the one that was asked for. -/
example : selections (interrupted 0 [.connect none, .task (.message (.setTextMode false))]).2 = [some py!"\"ME\"", some py!"ME", some py!"0", some py!"0"] ∧
    selections (interrupted 60 [.connect none, .task (.message (.setTextMode false))]).2 = [some py!"\"ME\"", some py!"ME", some py!"0", some py!"0"] := by decide +kernel

end Gsm
