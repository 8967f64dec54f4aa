import Verif.Lemmas.ThreadsEnd
import Verif.Lemmas.ThreadsSettle
/-! # Property C76: methods in several threads -/
namespace Gsm
open M Spec Prog

variable {env : Env}

/-! ### Without interleaving -/

/-- The steps of a method are the method. -/
theorem C76_alone [PyUnicode] (x : Method) (s : St) : x.prog.run env s = alone x env s := by
  cases x with
  | read i m => exact same_bind (same_read i m) (fun _ => same_pure _) env s
  | delete i m => exact same_delete i m env s
  | deleteMultiple f m => exact same_deleteMultiple f m env s
  | list st m d => exact same_bind (same_list st m d) (fun _ => same_pure _) env s
  | received l => exact same_received l env s
  | statusReport l => exact same_statusReport l env s
  | send d t f => exact same_bind (same_send d t f) (fun _ => same_pure _) env s
  | setTextMode v => exact same_textMode v env s
  | ask c => exact same_bind (same_write c true [13]) (fun _ => same_pure _) env s

theorem finish_thread (p : Prog Unit) : ∀ s : St, ∃ n, ∀ (threads : List (Prog Unit)) (i : Nat) (rest : List Nat), threads[i]? = some p →
    runThreads env (List.replicate n i ++ rest) (threads, s) = runThreads env rest (threads.set i (.done (p.run env s).1), (p.run env s).2) := by
  have key : ∀ (q : Prog Unit) (s s' : St), (∀ s, ∃ n, ∀ (threads : List (Prog Unit)) (i : Nat) (rest : List Nat), threads[i]? = some q →
      runThreads env (List.replicate n i ++ rest) (threads, s) = runThreads env rest (threads.set i (.done (q.run env s).1), (q.run env s).2)) →
      ∀ p : Prog Unit, p.step env s = (q, s') → ∃ n, ∀ (threads : List (Prog Unit)) (i : Nat) (rest : List Nat), threads[i]? = some p →
      runThreads env (List.replicate n i ++ rest) (threads, s) = runThreads env rest (threads.set i (.done (q.run env s').1), (q.run env s').2) := by
    intro q s s' ih p hp
    obtain ⟨n, hn⟩ := ih s'
    refine ⟨n + 1, fun threads i rest hi => ?_⟩
    rw [List.replicate_succ, List.cons_append, runThreads, hi]
    dsimp only
    rw [hp]
    have hlen : i < threads.length := (List.getElem?_eq_some_iff.1 hi).1
    rw [hn _ i rest (by simp [hlen]), List.set_set]
  induction p with
  | done r => exact fun s => ⟨0, fun threads i rest hi => by
      obtain ⟨h, hi⟩ := List.getElem?_eq_some_iff.1 hi
      show runThreads env rest (threads, s) = runThreads env rest (threads.set i (.done r), s)
      rw [← hi, List.set_getElem_self]⟩
  | io t k ih => exact fun s => key _ s _ (ih _) _ rfl
  | act f k ih => exact fun s => key _ s _ (ih _ _) _ rfl

/-- Running the methods one after the other is one of the schedules. -/
theorem C76_serial [PyUnicode] (methods : List Method) (s : St) : ∃ schedule, concurrently env schedule methods s =
    ((serially env methods s).1.map .done, (serially env methods s).2) := by
  suffices h : ∀ (methods : List Method) (before : List (Prog Unit)) (s : St), ∃ schedule, runThreads env schedule (before ++ methods.map Method.prog, s) =
      (before ++ (serially env methods s).1.map .done, (serially env methods s).2) from h methods [] s
  intro methods
  induction methods with
  | nil => exact fun before s => ⟨[], rfl⟩
  | cons x xs ih =>
    intro before s
    obtain ⟨n, hn⟩ := finish_thread (env := env) x.prog s
    obtain ⟨schedule, hs⟩ := ih (before ++ [.done (alone x env s).1]) (alone x env s).2
    refine ⟨List.replicate n before.length ++ schedule, ?_⟩
    rw [hn _ before.length schedule (by simp), C76_alone]
    simpa [serially] using hs

/-! ### What a thread does, whatever the others do -/

theorem grows_set {s : St} (s' : St) (h1 : s'.log = s.log) (h2 : s'.callbacks = s.callbacks) (h3 : s'.smsTrace = s.smsTrace) : Grows s s' :=
  ⟨h1 ▸ List.suffix_rfl, h2 ▸ List.suffix_rfl, h3 ▸ List.suffix_rfl⟩

theorem writes_grows : Writes (fun _ => True) Grows fun _ => True :=
  ⟨fun s _ => Grows.rfl s, fun s n _ => grows_set _ rfl rfl rfl, fun s c _ _ => ⟨List.suffix_cons _ _, List.suffix_rfl, List.suffix_rfl⟩⟩

/-- The log, the callbacks and the trace only grow. -/
theorem stable_grows : Stable env (fun _ => True) Grows (fun _ => True) (fun _ => True) True where
  writes := writes_grows
  memory m _ := keeps_select writes_grows trivial fun s _ => grows_set _ rfl rfl rfl
  read _ := trivial
  delete _ := trivial
  deleteMultiple _ := trivial
  list _ := trivial
  prompt _ := trivial
  text _ := trivial
  mode _ := trivial
  callback s c _ := ⟨List.suffix_rfl, List.suffix_cons _ _, List.suffix_rfl⟩
  told s _ := grows_set _ rfl rfl rfl
  report s st r n t1 t2 d _ := ⟨List.suffix_rfl, List.suffix_rfl, List.suffix_cons _ _⟩
  record _ d t r ls l _ _ _ := keeps_record writes_grows (fun s _ => grows_set _ rfl rfl rfl) (fun s _ => grows_set _ rfl rfl rfl)
    fun s _ => ⟨List.suffix_rfl, List.suffix_rfl, List.suffix_cons _ _⟩
  textMode s v _ := grows_set _ rfl rfl rfl

theorem ends_concurrently [PyUnicode] {methods : List Method} {s : St} {i : Nat} {x : Method} {schedule : List Nat} {r : Except PyErr Unit} {Q : Except PyErr Unit → St → Prop}
    (hx : methods[i]? = some x) (hq : Ends env Grows Q x.prog s) (hd : (concurrently env schedule methods s).1[i]? = some (.done r)) :
    ∃ s', Q r s' ∧ Grows s' (concurrently env schedule methods s).2 := by
  have hu : ∀ x : Method, x.Uses (fun _ => True) (fun _ => True) True := by intro x; cases x <;> simp [Method.Uses]
  refine ends_threads (P := fun _ => True) (G := Grows) Grows.rfl (fun _ _ _ => Grows.trans) (fun s _ => Grows.rfl s) (fun _ _ _ h => ⟨trivial, h⟩) schedule
    (methods.map Method.prog) s s x.prog (fun p hp => ?_) trivial (by simp [hx]) hq (Grows.rfl s) r hd
  obtain ⟨y, _, rfl⟩ := List.mem_map.1 hp
  exact keeps_method stable_grows (hu y)

/-- A thread that has handled the notification about a message has asked for the message, got it, deleted what is at the place then, and called the callback with the message. -/
theorem C76_received [PyUnicode] {methods : List Method} {s : St} {i : Nat} {line mem idx : PyStr} (hx : methods[i]? = some (.received line)) (hl : StoredAt py!"+CMTI:" line mem idx)
    {schedule : List Nat} (hd : (concurrently env schedule methods s).1[i]? = some (.done (.ok ()))) :
    ∃ m cb, Taken env s idx m (concurrently env schedule methods s).2 ∧ s.callbacks <:+ cb ∧ .smsReceived m :: cb <:+ (concurrently env schedule methods s).2.callbacks := by
  obtain ⟨s1, ⟨_, m, cb, ⟨l1, l2, ls, text, h1, h2, h3, h4, h5⟩, h6, h7⟩, hG⟩ := ends_concurrently hx (ends_received hl s) hd
  exact ⟨m, cb, ⟨l1, l2, ls, text, h1, h2, h3, h4, h5.trans hG.log⟩, h6, h7.trans hG.callbacks⟩

/-- The same for a delivery report, which becomes part of the trace that the states of the messages are made of. -/
theorem C76_report [PyUnicode] {methods : List Method} {s : St} {i : Nat} {line mem idx : PyStr} (hx : methods[i]? = some (.statusReport line)) (hl : StoredAt py!"+CDSI:" line mem idx)
    {schedule : List Nat} (hd : (concurrently env schedule methods s).1[i]? = some (.done (.ok ()))) :
    ∃ st r n t1 t2 d tr, Taken env s idx (.report st r n t1 t2 d) (concurrently env schedule methods s).2 ∧ s.smsTrace <:+ tr ∧
      .report r d :: tr <:+ (concurrently env schedule methods s).2.smsTrace := by
  obtain ⟨s1, ⟨_, st, r, n, t1, t2, d, tr, ⟨l1, l2, ls, text, h1, h2, h3, h4, h5⟩, h6, h7⟩, hG⟩ := ends_concurrently hx (ends_report hl s) hd
  exact ⟨st, r, n, t1, t2, d, tr, ⟨l1, l2, ls, text, h1, h2, h3, h4, h5.trans hG.log⟩, h6, h7.trans hG.trace⟩

/-- A thread that has sent a message has written the commands for it, one after the other, and recorded the reference of the modem's answer to its own last command. -/
theorem C76_sent [PyUnicode] {methods : List Method} {s : St} {i : Nat} {destination text : PyStr} {flash : Bool} (hx : methods[i]? = some (.send destination text flash))
    {schedule : List Nat} (hd : (concurrently env schedule methods s).1[i]? = some (.done (.ok ()))) :
    ∃ cs l ls line r tr, SendingCommands destination text flash cs ∧ Performed env.reply cs s.log l ∧ l <:+ (concurrently env schedule methods s).2.log ∧
      env.reply l = .lines ls ∧ lineStartingWith py!"+CMGS:" ls = some line ∧ pyInt (line.drop 7) = .ok r ∧
      s.smsTrace <:+ tr ∧ .sent r :: tr <:+ (concurrently env schedule methods s).2.smsTrace := by
  have he : Ends env Grows (Good fun _ s' => Grows s s' ∧ ∃ cs l ls line r tr, SendingCommands destination text flash cs ∧
      Performed env.reply cs s.log l ∧ l <:+ s'.log ∧ env.reply l = .lines ls ∧ lineStartingWith py!"+CMGS:" ls = some line ∧ pyInt (line.drop 7) = .ok r ∧
      s.smsTrace <:+ tr ∧ SmsEvent.sent r :: tr <:+ s'.smsTrace) (Method.prog (.send destination text flash)) s :=
    ends_then (ends_send destination text flash s) fun _ s2 h2 => h2
  obtain ⟨s1, h, hG⟩ := ends_concurrently hx he hd
  obtain ⟨_, cs, l, ls, line, r, tr, h1, h2, h3, h4, h5, h6, h7, h8⟩ := h
  exact ⟨cs, l, ls, line, r, tr, h1, h2, h3.trans hG.log, h4, h5, h6, h7, h8.trans hG.trace⟩

/-! ### What all threads keep -/

theorem not_selects {c : PyStr} (h : ∀ t, c ≠ py!"AT+CPMS=" ++ t) : ¬ SelectsMemory c := fun ⟨⟨t, ht⟩, _⟩ => h t ht.symm

/-- If every method is about one memory, and that memory is selected, no thread selects another. -/
theorem C76_one_memory [PyUnicode] {methods : List Method} {s : St} {m : PyStr} (h : ∀ x ∈ methods, OneMemory m x) (hs : s.smsMemReadDelete = some m) (schedule : List Nat) :
    (concurrently env schedule methods s).2.smsMemReadDelete = some m ∧
    ∃ new, (concurrently env schedule methods s).2.log = new ++ s.log ∧ ∀ c ∈ new, ¬ SelectsMemory c := by
  let P : St → Prop := fun s' => s'.smsMemReadDelete = some m ∧ ∃ new, s'.log = new ++ s.log ∧ ∀ c ∈ new, ¬ SelectsMemory c
  have hw : Writes P (fun _ => P) fun c => ¬ SelectsMemory c := ⟨fun _ h => h, fun _ _ h => h, fun s1 c hc ⟨h1, new, h2, h3⟩ =>
    ⟨h1, c :: new, by simp [h2], fun d hd => by
      rcases List.mem_cons.1 hd with rfl | hd
      · exact hc
      · exact h3 d hd⟩⟩
  have hst : Stable env P (fun _ => P) (fun c => ¬ SelectsMemory c) (· = m) True :=
    { writes := hw
      memory := fun x hx => keeps_look hw fun s1 h1 => by
        rw [if_neg (by rw [h1.1, hx]; simp)]
        exact keeps_pure trivial
      read := fun i => not_selects (by simp [cmgrCmd])
      delete := fun i => not_selects (by simp [cmgdCmd])
      deleteMultiple := fun i => not_selects (by simp)
      list := fun i => not_selects (by simp)
      prompt := fun i => not_selects (by simp)
      text := fun c ⟨_, ⟨t, ht⟩, _⟩ => by simpa using congrArg List.getLast? ht
      mode := fun i => not_selects (by simp)
      callback := fun _ _ h => h
      told := fun _ h => h
      report := fun _ _ _ _ _ _ _ h => h
      record := fun _ _ _ _ _ _ _ _ _ => keeps_record hw (fun _ h => h) (fun _ h => h) fun _ h => h
      textMode := fun _ _ h => h }
  refine keeps_concurrently (P := P) (G := fun _ => P) hst (fun x hx => ?_) (fun _ _ _ h => h) schedule ⟨hs, [], rfl, by simp⟩
  have := h x hx
  cases x <;> first | exact trivial | exact this | skip
  all_goals
    intro y hy
    simp only [OneMemory, hy, Option.some.injEq, reduceCtorEq, false_or] at this
    exact this

/-- If the modem's references are octets, no thread ever sees a counter below 0 or above 256. -/
theorem C76_references [PyUnicode] {methods : List Method} {s : St} (hr : OctetReferences env) (hs : 0 ≤ s.smsRef ∧ s.smsRef ≤ 256) (schedule : List Nat) :
    0 ≤ (concurrently env schedule methods s).2.smsRef ∧ (concurrently env schedule methods s).2.smsRef ≤ 256 := by
  let P : St → Prop := fun s' => 0 ≤ s'.smsRef ∧ s'.smsRef ≤ 256
  have hw : Writes P (fun _ => P) fun _ => True := ⟨fun _ h => h, fun _ _ h => h, fun _ _ _ h => h⟩
  have hst : Stable env P (fun _ => P) (fun _ => True) (fun _ => True) True :=
    { writes := hw
      memory := fun x _ => keeps_select hw trivial fun _ h => h
      read := fun _ => trivial
      delete := fun _ => trivial
      deleteMultiple := fun _ => trivial
      list := fun _ => trivial
      prompt := fun _ => trivial
      text := fun _ => trivial
      mode := fun _ => trivial
      callback := fun _ _ h => h
      told := fun _ h => h
      report := fun _ _ _ _ _ _ _ h => h
      record := fun _ d t r ls l ⟨log, h1⟩ h2 h3 => keeps_record hw (fun _ _ => by
        have := hr log ls l r h1 h2 h3
        exact ⟨by show 0 ≤ r + 1; omega, by show r + 1 ≤ 256; omega⟩) (fun _ _ => ⟨by simp, by simp⟩) fun _ h => h
      textMode := fun _ _ h => h }
  exact keeps_concurrently (P := P) (G := fun _ => P) hst (fun x _ => by cases x <;> simp [Method.Uses]) (fun _ _ _ h => h) schedule hs

/-- When all threads have finished, the counter is at most 255, whatever the modem answers. -/
theorem C76_reference_settles [PyUnicode] {methods : List Method} {s : St} (hs : s.smsRef ≤ 255) (schedule : List Nat)
    (hd : ∀ p ∈ (concurrently env schedule methods s).1, ∃ r, p = .done r) : (concurrently env schedule methods s).2.smsRef ≤ 255 := by
  have h := cared_threads (env := env) schedule (methods.map Method.prog) s (fun p hp => by
    obtain ⟨x, _, rfl⟩ := List.mem_map.1 hp
    exact tidy_method x) (fun h => by omega)
  by_contra hbig
  obtain ⟨p, hp, hc⟩ := h (by unfold concurrently at hbig; omega)
  obtain ⟨r, rfl⟩ := hd p hp
  exact hc.elim False.elim False.elim

/-- After any schedule the references and states of the sent messages are those of the specification. -/
theorem C76_status [PyUnicode] {methods : List Method} {s : St} (hs : Fresh s) (schedule : List Nat) :
    (concurrently env schedule methods s).2.sent.map (fun x => (x.reference, x.status)) = sentMessages (concurrently env schedule methods s).2.smsTrace.reverse := by
  have hw : Writes SentOk (fun _ => SentOk) fun _ => True := ⟨fun _ h => h, fun _ _ h => h, fun _ _ _ h => h⟩
  have hst : Stable env SentOk (fun _ => SentOk) (fun _ => True) (fun _ => True) True :=
    { writes := hw
      memory := fun x _ => keeps_select hw trivial fun _ h => h
      read := fun _ => trivial
      delete := fun _ => trivial
      deleteMultiple := fun _ => trivial
      list := fun _ => trivial
      prompt := fun _ => trivial
      text := fun _ => trivial
      mode := fun _ => trivial
      callback := fun _ _ h => h
      told := fun _ h => h
      report := fun s st r n t1 t2 d h => sentOk_atom (env := env) s _ (.report s st r d n t1 t2) h
      record := fun _ d t r _ _ _ _ _ => keeps_record hw (fun _ h => h) (fun _ h => h) fun s h =>
        sentOk_atom (env := env) s (recordSent d t r env s).2 (.sent s d t r) h
      textMode := fun _ _ h => h }
  have := keeps_concurrently (P := SentOk) (G := fun _ => SentOk) (methods := methods) hst (fun x _ => by cases x <;> simp [Method.Uses]) (fun _ _ _ h => h) schedule (s := s)
    ⟨fun r => by simp [hs.2.1, hs.2.2.1, dictGet, lastIdx], by simp [hs.2.2.1, hs.2.2.2, sentMessages]⟩
  exact this.2

/-! ### What goes wrong -/

/-- The place 3 of the memory still has its message. -/
def heldIn (mem : PyStr) : List PyStr → Bool
  | [] => true
  | c :: cs => heldIn mem cs && !(c == py!"AT+CMGD=3,0\r" && (selectedMemory cs).getD py!"SM" == mem)

/-- A modem with a message at place 3 of each of the memories SM and ME; it keeps track of the commands. -/
def storeModem : Env := modemWith fun log =>
  match log with
  | c :: cs =>
    if c = py!"AT+CMGR=3\r" then
      let mem := (selectedMemory cs).getD py!"SM"
      some (.lines (if heldIn mem cs then [py!"+CMGR: \"REC UNREAD\",\"+27\",,\"13/04/29,19:58:00+04\"", py!"in " ++ mem, py!"OK"] else [py!"OK"]))
    else none
  | [] => none

/-- The texts that the callback got, the last first. -/
def toldTexts (s : St) : List PyStr := s.callbacks.filterMap fun c => match c with
  | .smsReceived (.received _ _ _ text _) => some text
  | _ => none

attribute [local instance] asciiUnicode

def twoNotifications : List Method := [.received py!"+CMTI: \"SM\",3", .received py!"+CMTI: \"ME\",3"]
def inTextMode : St := { smsTextMode := true, smsMemReadDelete := some py!"SM" }

/-- One after the other, the messages are passed on and deleted. -/
example : (serially storeModem twoNotifications inTextMode).1 = [.ok (), .ok ()] ∧ toldTexts (serially storeModem twoNotifications inTextMode).2 = [py!"in ME", py!"in SM"] ∧
    heldIn py!"SM" (serially storeModem twoNotifications inTextMode).2.log = false ∧ heldIn py!"ME" (serially storeModem twoNotifications inTextMode).2.log = false := by decide +kernel

/-- After the first thread has read its message, the second selects its memory; then the first deletes. -/
def unluckySchedule : List Nat := List.replicate 5 0 ++ List.replicate 4 1 ++ List.replicate 2 0 ++ List.replicate 6 1

/-- A message is deleted that nobody has read, and nobody learns about it; the other is passed on, but not deleted. -/
theorem C76_message_lost :
    (concurrently storeModem unluckySchedule twoNotifications inTextMode).2.log.reverse =
      [py!"AT+CMGR=3\r", py!"AT+CPMS=\"ME\"\r", py!"AT+CMGD=3,0\r", py!"AT+CMGR=3\r"] ∧
    results (concurrently storeModem unluckySchedule twoNotifications inTextMode).1 = [some (.ok ()), some (.error (.command .command none))] ∧
    toldTexts (concurrently storeModem unluckySchedule twoNotifications inTextMode).2 = [py!"in SM"] ∧
    heldIn py!"SM" (concurrently storeModem unluckySchedule twoNotifications inTextMode).2.log = true ∧
    heldIn py!"ME" (concurrently storeModem unluckySchedule twoNotifications inTextMode).2.log = false := by decide +kernel

/-- The hypothesis of `C76_one_memory` is necessary; with one memory it is satisfied. -/
example : OneMemory py!"SM" (.received py!"+CMTI: \"SM\",3") := by
  intro mem idx h
  have h1 := stored_iff.2 ⟨mem, idx, rfl, h⟩
  rw [← cmti_rx, show rxGroups cmtiRegex py!"+CMTI: \"SM\",3" = some [py!"SM", py!"3"] by decide +kernel] at h1
  simp at h1
  exact h1.1.symm

/-- Both threads select their memories, and then remember in the other order what they have selected. -/
def staleSchedule : List Nat := List.replicate 3 0 ++ List.replicate 4 1 ++ List.replicate 4 0 ++ List.replicate 4 1

def twoReads : List Method := [.read py!"3" (some py!"SM"), .read py!"3" (some py!"ME")]

/-- From then on, messages are read from the wrong memory, without any other thread. -/
theorem C76_stale_memory :
    results (concurrently storeModem staleSchedule twoReads { smsTextMode := true }).1 = [some (.ok ()), some (.ok ())] ∧
    (concurrently storeModem staleSchedule twoReads { smsTextMode := true }).2.smsMemReadDelete = some py!"SM" ∧
    selectedMemory (concurrently storeModem staleSchedule twoReads { smsTextMode := true }).2.log = some py!"ME" ∧
    ((readStoredSms py!"3" (some py!"SM") storeModem (concurrently storeModem staleSchedule twoReads { smsTextMode := true }).2).1.map fun m => match m with
      | .received _ _ _ text _ => text
      | _ => []) = .ok py!"in ME" := by decide +kernel

/-- A modem that gives every message the reference. -/
def sendModem (reference : PyStr) : Env := modemWith fun log =>
  if (log.head?.getD []).getLast? = some 26 then some (.lines [py!"+CMGS: " ++ reference, py!"OK"]) else none

/-- Another command comes between the command that announces a message and the message. -/
theorem C76_between_prompt_and_message :
    (concurrently (sendModem py!"5") (List.replicate 4 0 ++ List.replicate 2 1 ++ List.replicate 6 0) [.send py!"12" py!"Hi" false, .ask py!"AT+CSQ"] {}).2.log.reverse =
      [py!"AT+CMGS=10\r", py!"AT+CSQ\r", py!"00210002A121000002C834" ++ [26]] := by decide +kernel

def twoSends : List Method := [.send py!"12" py!"Hi" false, .send py!"12" py!"Hi" false]

/-- Two messages are sent with the same reference; one after the other they get different ones. -/
theorem C76_same_reference :
    (concurrently (sendModem py!"5") (List.replicate 2 0 ++ List.replicate 2 1 ++ List.replicate 9 0 ++ List.replicate 9 1) twoSends {}).2.log.reverse =
      [py!"AT+CMGS=10\r", py!"00210002A121000002C834" ++ [26], py!"AT+CMGS=10\r", py!"00210002A121000002C834" ++ [26]] ∧
    (serially (sendModem py!"5") twoSends {}).2.log.reverse =
      [py!"AT+CMGS=10\r", py!"00210002A121000002C834" ++ [26], py!"AT+CMGS=10\r", py!"00210602A121000002C834" ++ [26]] := by decide +kernel

/-- A thread that sees the counter between the two assignments cannot send. -/
theorem C76_reference_256 :
    results (concurrently (sendModem py!"255") (List.replicate 7 0 ++ List.replicate 2 1 ++ List.replicate 9 0) twoSends {}).1 = [some (.ok ()), some (.error .valueError)] ∧
    (serially (sendModem py!"255") twoSends {}).1 = [.ok (), .ok ()] := by decide +kernel

def sendAndReport : List Method := [.send py!"12" py!"Hi" false, .statusReport py!"+CDSI: \"SM\",3"]

/-- A report that is handled before the message is registered is lost: the message is never delivered. -/
theorem C76_report_lost :
    results (concurrently (reportModem py!"5") (List.replicate 5 0 ++ List.replicate 15 1 ++ List.replicate 5 0) sendAndReport { smsTextMode := true }).1 = [some (.ok ()), some (.ok ())] ∧
    (concurrently (reportModem py!"5") (List.replicate 5 0 ++ List.replicate 15 1 ++ List.replicate 5 0) sendAndReport { smsTextMode := true }).2.sent.map (·.status) = [0] ∧
    (serially (reportModem py!"5") sendAndReport { smsTextMode := true }).2.sent.map (·.status) = [1] := by decide +kernel

/-- A message is read in text mode and taken apart in PDU mode. -/
theorem C76_mode_between :
    results (concurrently storeModem (List.replicate 3 0 ++ List.replicate 9 1 ++ List.replicate 9 0) [.received py!"+CMTI: \"SM\",3", .setTextMode false] inTextMode).1 =
      [some (.error (.command .command none)), some (.ok ())] ∧
    (serially storeModem [.received py!"+CMTI: \"SM\",3", .setTextMode false] inTextMode).1 = [.ok (), .ok ()] := by decide +kernel

end Gsm
