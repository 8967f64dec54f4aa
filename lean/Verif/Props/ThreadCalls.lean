import Verif.Lemmas.ThreadCallsSettle
import Verif.Spec.ExampleModem
/-! # Property C77: calls in several threads -/
namespace Gsm
open M Spec Prog

variable {env : Env}

/-! ### Without interleaving -/

theorem same_task [PyUnicode] (x : Task) : Same x.prog (taskAlone x) := by
  cases x with
  | message m => exact fun env s => C76_alone m s
  | notify lines => exact same_dispatch lines lines
  | poll n p => exact same_poll n p
  | dial n cb => exact same_dial n cb
  | answer i => exact same_answer i
  | hangup i => exact same_hangup i
  | dtmf i t => exact same_dtmf i t

/-- The steps of a task are the task. -/
theorem C77_alone [PyUnicode] (x : Task) (s : St) : x.prog.run env s = taskAlone x env s := same_task x env s

/-- Running the tasks one after the other is one of the schedules. -/
theorem C77_serial [PyUnicode] (tasks : List Task) (s : St) : ∃ schedule, performTasks env schedule tasks s =
    ((tasksSerially env tasks s).1.map .done, (tasksSerially env tasks s).2) := by
  suffices h : ∀ (tasks : List Task) (before : List (Prog Unit)) (s : St), ∃ schedule, runThreads env schedule (before ++ tasks.map Task.prog, s) =
      (before ++ (tasksSerially env tasks s).1.map .done, (tasksSerially env tasks s).2) from h tasks [] s
  intro tasks
  induction tasks with
  | nil => exact fun before s => ⟨[], rfl⟩
  | cons x xs ih =>
    intro before s
    obtain ⟨n, hn⟩ := finish_thread (env := env) x.prog s
    obtain ⟨schedule, hs⟩ := ih (before ++ [.done (taskAlone x env s).1]) (taskAlone x env s).2
    refine ⟨List.replicate n before.length ++ schedule, ?_⟩
    rw [hn _ before.length schedule (by simp), C77_alone]
    simpa [tasksSerially] using hs

/-! ### What all schedules keep -/

theorem keeps_perform [PyUnicode] {G : St → St → Prop} {D E : Prop} (h : CallStable G D E) (hr : ∀ s, G s s) (ht : ∀ a b c, G a b → G b c → G a c) {tasks : List Task}
    (hx : ∀ x ∈ tasks, (¬ StartsNoCalls x → D) ∧ (¬ EndsNoCalls x → E)) (schedule : List Nat) (s : St) : G s (performTasks env schedule tasks s).2 := by
  refine keeps_threads (env := env) (P := G s) (G := fun a b => G s a → G s b) (fun _ _ h => h) (fun a b h h' => h' h) schedule (tasks.map Task.prog) s (fun p hp => ?_) (hr s)
  obtain ⟨x, hx', rfl⟩ := List.mem_map.1 hp
  have hk := keeps_task (env := env) h x (hx x hx').1 (hx x hx').2
  generalize x.prog = p at hk
  induction p with
  | done r => cases r <;> trivial
  | io t k ih => exact fun a ha => ⟨fun h1 => ht _ _ _ h1 (hk a trivial).1, ih _ (hk a trivial).2⟩
  | act f k ih => exact fun a ha => ⟨fun h1 => ht _ _ _ h1 (hk a trivial).1, ih _ _ (hk a trivial).2⟩

/-- No call is forgotten or becomes another call; one that is over does not become active again, one that does not ring does not ring again, and one that was removed from the table
does not return to it. -/
theorem C77_grow [PyUnicode] (tasks : List Task) (schedule : List Nat) (s : St) : CallsGrow s (performTasks env schedule tasks s).2 :=
  keeps_perform callStable_grow .rfl (fun _ _ _ => .trans) (fun _ _ => ⟨fun _ => trivial, fun _ => trivial⟩) schedule s

/-- Tasks that end no calls leave active calls active and their ids in the table. -/
theorem C77_stay [PyUnicode] {tasks : List Task} (h : ∀ x ∈ tasks, EndsNoCalls x) (schedule : List Nat) (s : St) : CallsStay s (performTasks env schedule tasks s).2 :=
  keeps_perform callStable_stay .rfl (fun _ _ _ => .trans) (fun x hx => ⟨fun _ => trivial, fun hn => hn (h x hx)⟩) schedule s

/-- When all threads have finished, the table is in order: no call in it is over. -/
theorem C77_settles [PyUnicode] {tasks : List Task} {s : St} (hs : TableOk s) (schedule : List Nat) (hd : ∀ p ∈ (performTasks env schedule tasks s).1, ∃ r, p = .done r) :
    TableOk (performTasks env schedule tasks s).2 := by
  have hk : TableKeyed s := ⟨hs.1, fun k i h => (hs.2 k i h).imp fun c h => ⟨h.1, h.2.1⟩⟩
  have hno : ∀ k i, ¬ Stale s k i := by
    rintro k i ⟨h1, c, h2, h3⟩
    obtain ⟨c', h4, _, h5⟩ := hs.2 k i h1
    rw [h2] at h4
    cases h4
    rw [h3] at h5
    cases h5
  have h := attended_threads (env := env) schedule (tasks.map Task.prog) s (fun p hp => by
      obtain ⟨x, _, rfl⟩ := List.mem_map.1 hp
      exact keeps_task callStable_grow x (fun _ => trivial) fun _ => trivial) (fun p hp => by
      obtain ⟨x, _, rfl⟩ := List.mem_map.1 hp
      exact ⟨s, .rfl s, orderly_task x s⟩) hk fun k i h => absurd h (hno k i)
  have hk' := (C77_grow (env := env) tasks schedule s).table hk
  refine ⟨hk'.1, fun k i hi => ?_⟩
  obtain ⟨c, h1, h2⟩ := hk'.2 k i hi
  refine ⟨c, h1, h2, ?_⟩
  cases hx : c.active with
  | true => rfl
  | false =>
    obtain ⟨p, hp, hdue⟩ := h k i ⟨hi, c, h1, hx⟩
    obtain ⟨r, rfl⟩ := hd p hp
    exact (hdue.elim False.elim False.elim)

/-! ### What a thread has done at its end -/

theorem ends_perform [PyUnicode] {R : St → St → Prop} (hR : Relied R) {D E : Prop} (hs : CallStable R D E) {tasks : List Task} {s : St} {i : Nat} {x : Task} {schedule : List Nat}
    {r : Except PyErr Unit} {Q : Except PyErr Unit → St → Prop} (hx : tasks[i]? = some x) (ho : ∀ j y, j ≠ i → tasks[j]? = some y → (¬ StartsNoCalls y → D) ∧ (¬ EndsNoCalls y → E))
    (hq : Ends env R Q x.prog s) (hd : (performTasks env schedule tasks s).1[i]? = some (.done r)) : ∃ s', Q r s' ∧ R s' (performTasks env schedule tasks s).2 := by
  refine ends_among (G := R) hR.refl hR.trans hR.refl (fun _ _ h => h) schedule (tasks.map Task.prog) s s x.prog (fun j q hj hq => ?_) (by simp [hx]) hq (hR.refl s) r hd
  rw [List.getElem?_map, Option.map_eq_some_iff] at hq
  obtain ⟨y, hy, rfl⟩ := hq
  exact keeps_task hs y (ho j y hj hy).1 (ho j y hj hy).2

/-- Other threads may do anything. -/
theorem ends_anyhow [PyUnicode] {tasks : List Task} {s : St} {i : Nat} {x : Task} {schedule : List Nat} {r : Except PyErr Unit} {Q : Except PyErr Unit → St → Prop}
    (hx : tasks[i]? = some x) (hq : Ends env CallsGrow Q x.prog s) (hd : (performTasks env schedule tasks s).1[i]? = some (.done r)) :
    ∃ s', Q r s' ∧ CallsGrow s' (performTasks env schedule tasks s).2 :=
  ends_perform relied_grow callStable_grow hx (fun _ _ _ _ => ⟨fun _ => trivial, fun _ => trivial⟩) hq hd

/-- After `hangup`, even if it ended with a `KeyError`, the call is over, whatever the others do. -/
theorem C77_hangup [PyUnicode] {tasks : List Task} {s : St} {i j : Nat} (hx : tasks[i]? = some (.hangup j)) (ht : TableKeyed s) (hj : j < s.calls.length) {schedule : List Nat} {r : Except PyErr Unit}
    (hd : (performTasks env schedule tasks s).1[i]? = some (.done r)) (hr : r = .ok () ∨ r = .error .keyError) : Over (performTasks env schedule tasks s).2 j := by
  obtain ⟨s', h1, h2⟩ := ends_anyhow hx (ends_hangup ht (List.getElem?_eq_getElem hj)) hd
  exact Over.later h2 (h1 hr)

/-- If the others end no calls, `hangup` of an active call tells the modem; when it fails, the call is as it was, and the error is not a `KeyError`. -/
theorem C77_hangup_tells [PyUnicode] {tasks : List Task} {s : St} {i j : Nat} {c : CallObj} (hx : tasks[i]? = some (.hangup j)) (ht : TableKeyed s) (hc : s.calls[j]? = some c) (ha : c.active = true)
    (hk : (c.id, j) ∈ s.activeCalls) (ho : ∀ m y, m ≠ i → tasks[m]? = some y → EndsNoCalls y) {schedule : List Nat} {r : Except PyErr Unit}
    (hd : (performTasks env schedule tasks s).1[i]? = some (.done r)) :
    (r = .ok () → ∃ l, Performed env.reply [py!"ATH\r"] s.log l ∧ l <:+ (performTasks env schedule tasks s).2.log) ∧
    ∀ e, r = .error e → e ≠ .keyError ∧ (∃ c', (performTasks env schedule tasks s).2.calls[j]? = some c' ∧ c'.active = true) ∧ c.id ∈ (performTasks env schedule tasks s).2.activeCalls.map (·.1) := by
  obtain ⟨s', ⟨h1, h2, h3⟩, h4⟩ := ends_perform relied_stay callStable_stay hx (fun m y hm hy => ⟨fun _ => trivial, fun hn => hn (ho m y hm hy)⟩) (ends_hangup_stay ht hc ha hk) hd
  refine ⟨fun hr => ?_, fun e he => ?_⟩
  · obtain ⟨l, h5, h6⟩ := h2 hr
    exact ⟨l, h5, h6.trans h4.grow.grows.log⟩
  · have h5 := (h3 e he).trans h4
    refine ⟨fun hk => h1 (by rw [he, hk]), h5.active j c hc ha, h5.ids _ (List.mem_map.2 ⟨_, hk, rfl⟩)⟩

/-- If the others neither start nor end calls, the table loses this call and nothing else. -/
theorem C77_hangup_table [PyUnicode] {tasks : List Task} {s : St} {i j : Nat} {c : CallObj} (hx : tasks[i]? = some (.hangup j)) (hc : s.calls[j]? = some c) (hk : c.id ∈ s.activeCalls.map (·.1))
    (ho : ∀ m y, m ≠ i → tasks[m]? = some y → StartsNoCalls y ∧ EndsNoCalls y) {schedule : List Nat} {r : Except PyErr Unit} (hd : (performTasks env schedule tasks s).1[i]? = some (.done r)) :
    (performTasks env schedule tasks s).2.activeCalls = if r = .ok () then s.activeCalls.filter (·.1 ≠ c.id) else s.activeCalls := by
  obtain ⟨s', ⟨h1, h2⟩, h3⟩ := ends_perform relied_fixed callStable_fixed hx (fun m y hm hy => ⟨fun hn => hn (ho m y hm hy).1, fun hn => hn (ho m y hm hy).2⟩) (ends_hangup_fixed hc hk) hd
  rw [h3.2]
  split
  · exact h1 ‹_›
  · cases r with
    | ok u => exact absurd rfl ‹¬ _›
    | error e => exact h2 e rfl

theorem says_ended {t : CallTable} {line : PyStr} {k : Nat} (h : Says t line (.ended k)) : ∃ g gs, recognise (callTable t) line = some (.call .ended (g :: gs)) ∧ pyInt g = .ok (k : Int) := by
  cases h with
  | @cend a b c d t ha hb hc hd ht =>
    obtain ⟨g, hg⟩ := cend_some ha hb hc hd ht
    have hh : g.head? = some [48 + k] := by
      obtain ⟨a', b', c', d', t', _, _, _, _, _, h, hl⟩ := cend_iff hg
      rw [h]
      simp at hl
      rw [hl.1]
    obtain ⟨g0, gs, rfl⟩ : ∃ g0 gs, g = g0 :: gs := by
      cases g with
      | nil => cases hh
      | cons g0 gs => exact ⟨g0, gs, rfl⟩
    obtain rfl : g0 = [48 + k] := by simpa using hh
    refine ⟨_, gs, recognise_iff.2 (.call (before := [(origRegex, .initiated), (connRegex, .answered)]) (no_ring_of (c := 82) (by simp) ?_) (by simp) (by simp) (by simp) rfl ?_ hg), pyInt_digit ha⟩
    · have h1 : 82 ∉ t := fun h => absurd (end_cases ht h) (by decide)
      have h2 : 82 ∉ c := fun h => by have := hc.2 _ h; omega
      have h3 : 82 ∉ d := fun h => by have := hd.2 _ h; omega
      simp; exact ⟨by omega, by omega, h2, h3, h1⟩
    · intro x hx
      simp only [List.mem_cons, List.not_mem_nil, or_false] at hx
      rcases hx with rfl | rfl <;> refine none_of fun g hg => ?_ <;> obtain ⟨_, _, _, _, _, _, h, _⟩ := two_iff.1 hg <;> simp at h
  | @wind6 a t ha ht =>
    refine ⟨_, [], recognise_iff.2 (.call (before := [(wind5Regex, .initiated), (okRegex, .answered)]) (no_ring_of (c := 82) (by simp) ?_) (by simp) (by simp) (by simp) rfl ?_
      (one_iff.2 ⟨k, t, ha, rfl, rfl, ht⟩)), pyInt_digit ha⟩
    · have : 82 ∉ t := fun h => absurd (end_cases ht h) (by decide)
      simp; exact ⟨by omega, this⟩
    · intro x hx
      simp only [List.mem_cons, List.not_mem_nil, or_false] at hx
      rcases hx with rfl | rfl <;> refine none_of fun g hg => ?_
      · obtain ⟨_, _, _, _, h, _⟩ := one_iff.1 hg
        simp at h
      · obtain ⟨_, _, h, _⟩ := bare_iff.1 hg
        simp at h
  | @hangup b ds t hb hd ht =>
    refine ⟨ds, [], recognise_iff.2 (.call (before := [(connectRegex, .answered)]) (no_ring_of (c := 82) (by simp) ?_) (by simp) (by simp) (by simp) rfl ?_
      (hangup_iff.2 ⟨b, ds, t, hb, hd, ht, rfl, rfl⟩)), pyInt_of_digits hd⟩
    · have h1 : 82 ∉ t := fun h => absurd (end_cases ht h) (by decide)
      have h2 : 82 ∉ b := fun h => absurd (spaces_iff.1 hb _ h) (by decide)
      have h3 : 82 ∉ ds := fun h => by have := hd.2 _ h; omega
      simp; exact ⟨h2, h3, h1⟩
    · intro x hx
      rw [List.mem_singleton.1 hx]
      refine none_of fun g hg => ?_
      obtain ⟨_, _, h, _⟩ := bare_iff.1 hg
      simp at h

/-- A notification about the end of a call. -/
theorem ends_notified {R : St → St → Prop} (hR : Relied R) {Q : Except PyErr Unit → St → Prop} {s : St} {line : PyStr} {rest : List PyStr} {k : Nat} (hl : Says s.callStatusUpdates line (.ended k))
    (h : ∀ s', R s s' → Ends env R Q (Prog.endCall (some (k : Int))) s') : Ends env R Q (Prog.dispatchLoop (line :: rest) (line :: rest)) s := by
  refine ends_look fun s1 h1 => ?_
  obtain ⟨g, gs, h2, h3⟩ := says_ended hl
  rw [(hR.grow _ _ h1).updates, h2]
  show Ends env R Q (Prog.ofExcept (pyInt g) >>= fun a => Prog.handleCallEnded (some a) false false) s1
  rw [h3]
  exact h s1 h1

/-- When the end of a call has been handled, even if with a `KeyError`, no call with this id that was known is in the table, whatever the others do. -/
theorem C77_ended [PyUnicode] {tasks : List Task} {s : St} {i : Nat} {line : PyStr} {rest : List PyStr} {k : Nat} (hx : tasks[i]? = some (.notify (line :: rest))) (hk : k ≠ 0) (ht : TableKeyed s)
    (hl : Says s.callStatusUpdates line (.ended k)) {schedule : List Nat} {r : Except PyErr Unit} (hd : (performTasks env schedule tasks s).1[i]? = some (.done r)) :
    (r = .ok () ∨ r = .error .keyError) ∧ ∀ (j : Nat) (c : CallObj), s.calls[j]? = some c → c.id = k → ¬ InTable (performTasks env schedule tasks s).2 j := by
  obtain ⟨s', ⟨h1, h2⟩, h3⟩ := ends_anyhow hx (Q := fun r s' => (r = .ok () ∨ r = .error .keyError) ∧ ∀ (j : Nat) (c : CallObj), s.calls[j]? = some c → c.id = k → j < s'.calls.length ∧ ¬ InTable s' j) (ends_notified relied_grow hl fun s1 h1 =>
    ends_mono (ends_and (ends_endCall (by omega) (h1.table ht)) (ends_of_keeps .rfl (fun _ _ _ => .trans) (fun _ _ h => h) (keeps_endCall callStable_grow trivial _) s1)) fun r s2 h2 => ⟨h2.1.1, fun j c hc hi => by
      obtain ⟨c', h3, h4⟩ := h1.calls j c hc
      refine ⟨?_, h2.1.2 j c' h3 (h4.id.trans hi)⟩
      have := calls_length h2.2
      have := (List.getElem?_eq_some_iff.1 h3).1
      omega⟩) hd
  exact ⟨h1, fun j c hc hi => h3.removed j (h2 j c hc hi).1 (h2 j c hc hi).2⟩

/-- If the others neither start nor end calls: the call is over, and the table loses it and nothing else. -/
theorem C77_ended_table [PyUnicode] {tasks : List Task} {s : St} {i j : Nat} {line : PyStr} {rest : List PyStr} {k : Nat} (hx : tasks[i]? = some (.notify (line :: rest))) (hk : k ≠ 0) (ht : TableKeyed s)
    (hl : Says s.callStatusUpdates line (.ended k)) (hj : ((k : Int), j) ∈ s.activeCalls) (ho : ∀ m y, m ≠ i → tasks[m]? = some y → StartsNoCalls y ∧ EndsNoCalls y) {schedule : List Nat} {r : Except PyErr Unit}
    (hd : (performTasks env schedule tasks s).1[i]? = some (.done r)) :
    r = .ok () ∧ (performTasks env schedule tasks s).2.activeCalls = s.activeCalls.filter (·.1 ≠ (k : Int)) ∧ ∃ c, (performTasks env schedule tasks s).2.calls[j]? = some c ∧ c.active = false := by
  obtain ⟨s', ⟨h1, h2, c, h3, h4⟩, h5⟩ := ends_perform relied_fixed callStable_fixed hx (fun m y hm hy => ⟨fun hn => hn (ho m y hm hy).1, fun hn => hn (ho m y hm hy).2⟩)
    (Q := fun r s' => r = .ok () ∧ s'.activeCalls = s.activeCalls.filter (·.1 ≠ (k : Int)) ∧ ∃ c, s'.calls[j]? = some c ∧ c.active = false)
    (ends_notified relied_fixed hl fun s1 h1 => by
      have := ends_endCall_fixed (env := env) (k := (k : Int)) (by omega) (h1.1.grow.table ht) (i := j) (by rw [h1.2]; exact hj)
      rw [h1.2] at this
      exact this) hd
  obtain ⟨c', h6, h7⟩ := h5.1.grow.calls j c h3
  refine ⟨h1, h5.2.trans h2, c', h6, ?_⟩
  cases hx : c'.active with
  | false => rfl
  | true => rw [h7.active hx] at h4; cases h4

/-- When a ring has been handled, the callback has got an incoming call with the number of the caller. -/
theorem C77_ring [PyUnicode] {tasks : List Task} {s : St} {i : Nat} {line : PyStr} {rest : List PyStr} {number ton : Option PyStr} (hx : tasks[i]? = some (.notify (line :: rest))) (hl : py!"RING" <:+: line)
    (hn : Caller s rest number ton) {schedule : List Nat} (hd : (performTasks env schedule tasks s).1[i]? = some (.done (.ok ()))) :
    ∃ j c cb, s.callbacks <:+ cb ∧ .incomingCall j :: cb <:+ (performTasks env schedule tasks s).2.callbacks ∧
      (performTasks env schedule tasks s).2.calls[j]? = some c ∧ c.incoming = true ∧ c.number = number := by
  obtain ⟨s', h1, h2⟩ := ends_anyhow hx (Q := Good fun _ s' => Told s number s') (ends_look fun s1 h1 => by
    rw [recognise_iff.2 (.ring hl)]
    have hn' : Caller s1 rest number ton := by
      have := callerOf_spec s1 rest
      rw [callerOf_congr h1.clip, (caller_unique (callerOf_spec s rest) hn).1, (caller_unique (callerOf_spec s rest) hn).2] at this
      exact this
    refine ends_mono (ends_incoming hn') fun r s2 h => ?_
    cases r with
    | error e => trivial
    | ok u =>
      obtain ⟨j, cb, h3, h4, h5⟩ := h
      exact ⟨j, cb, h1.grows.callbacks.trans h3, h4, h5⟩) hd
  obtain ⟨j, cb, h3, h4, h5⟩ := h1
  obtain ⟨c, h6, h7, h8⟩ := h5.later h2
  exact ⟨j, c, cb, h3, h4.trans h2.grows.callbacks, h6, h7, h8⟩

/-- When `dial` has returned, its command was written and there is a call of its own. -/
theorem C77_dial [PyUnicode] {tasks : List Task} {s : St} {i : Nat} {number : PyStr} {cb : Bool} (hx : tasks[i]? = some (.dial number cb)) {schedule : List Nat}
    (hd : (performTasks env schedule tasks s).1[i]? = some (.done (.ok ()))) :
    (∃ l, s.log <:+ l ∧ (py!"ATD" ++ number ++ py!";\r") :: l <:+ (performTasks env schedule tasks s).2.log) ∧
    ∃ j c, s.calls.length ≤ j ∧ (performTasks env schedule tasks s).2.calls[j]? = some c ∧ c.incoming = false ∧ c.number = some number := by
  obtain ⟨s', ⟨⟨l, h1, h2⟩, j, c, h3, h4, h5, h6⟩, h7⟩ := ends_anyhow hx (ends_dial number cb s) hd
  obtain ⟨c', h8, h9⟩ := h7.calls j c h4
  exact ⟨⟨l, h1, h2.trans h7.grows.log⟩, j, c', h3, h8, h9.incoming.trans h5, h9.number.trans h6⟩

/-- When `answer` has returned, the call does not ring. -/
theorem C77_answer [PyUnicode] {tasks : List Task} {s : St} {i j : Nat} {c : CallObj} (hx : tasks[i]? = some (.answer j)) (hc : s.calls[j]? = some c) (hi : c.incoming = true) {schedule : List Nat}
    (hd : (performTasks env schedule tasks s).1[i]? = some (.done (.ok ()))) : ∃ c', (performTasks env schedule tasks s).2.calls[j]? = some c' ∧ c'.ringing = false := by
  obtain ⟨s', ⟨c1, h1, h2⟩, h3⟩ := ends_anyhow hx (ends_answer hc hi) hd
  obtain ⟨c', h4, h5⟩ := h3.calls j c1 h1
  refine ⟨c', h4, ?_⟩
  cases hx : c'.ringing with
  | false => rfl
  | true => rw [h5.ringing hx] at h2; cases h2

/-- Calls do not disturb messages: a thread that has handled the notification about a message has asked for the message, got it, deleted what is at the place then, and called the callback. -/
theorem C77_received [PyUnicode] {tasks : List Task} {s : St} {i : Nat} {line mem idx : PyStr} {rest : List PyStr} (hx : tasks[i]? = some (.notify (line :: rest))) (hr : ¬ py!"RING" <:+: line)
    (hl : StoredAt py!"+CMTI:" line mem idx) {schedule : List Nat} (hd : (performTasks env schedule tasks s).1[i]? = some (.done (.ok ()))) :
    ∃ m cb, Taken env s idx m (performTasks env schedule tasks s).2 ∧ s.callbacks <:+ cb ∧ .smsReceived m :: cb <:+ (performTasks env schedule tasks s).2.callbacks := by
  have hrec : ∀ t, recognise t line = some .cmti := fun t => recognise_iff.2 (.message hr (by obtain ⟨b, t, rfl, _⟩ := hl; simp))
  obtain ⟨s1, ⟨m, cb, ⟨l1, l2, ls, text, h1, h2, h3, h4, h5⟩, h6, h7⟩, hG⟩ := ends_anyhow hx
    (Q := Good fun _ s' => ∃ m cb, Taken env s idx m s' ∧ s.callbacks <:+ cb ∧ .smsReceived m :: cb <:+ s'.callbacks) (ends_look fun s1 h1 => by
    rw [hrec]
    refine ends_rely (R := Grows) (fun _ _ h => h.grows) (ends_mono (ends_received hl s1) fun r s2 h => ?_)
    cases r with
    | error e => trivial
    | ok u =>
      obtain ⟨_, m, cb, ⟨l1, l2, ls, text, a1, a2, a3, a4, a5⟩, h6, h7⟩ := h
      exact ⟨m, cb, ⟨l1, l2, ls, text, performed_later a1 h1.grows.log, a2, a3, a4, a5⟩, h1.grows.callbacks.trans h6, h7⟩) hd
  exact ⟨m, cb, ⟨l1, l2, ls, text, h1, h2, h3, h4, h5.trans hG.grows.log⟩, h6, h7.trans hG.grows.callbacks⟩

/-! ### What goes wrong -/

attribute [local instance] asciiUnicode

/-- A call to 12 is going on. -/
def oneCall : St := { calls := [{ incoming := false, id := 1, type := some 0, number := some py!"12" }], activeCalls := [(1, 0)], callStatusUpdates := .huawei, callingLineIdentification := true }

def ringFrom (number : PyStr) : Task := .notify [py!"RING", py!"+CLIP: \"" ++ number ++ py!"\",145"]
def ending : Task := .notify [py!"^CEND:1,0,67,31"]

/-- The ids of the calls, and whether they are active. -/
def callStates (s : St) : List (Int × Bool) := s.calls.map fun c => (c.id, c.active)

/-- The call rings twice: there are two call objects for it, and the program gets both; one after the other there is one. -/
theorem C77_ring_twice :
    (performTasks goodModem (List.replicate 6 0 ++ List.replicate 6 1 ++ List.replicate 9 0 ++ List.replicate 9 1) [ringFrom py!"34", ringFrom py!"34"] { callingLineIdentification := true }).2.callbacks =
      [.incomingCall 1, .incomingCall 0] ∧
    (tasksSerially goodModem [ringFrom py!"34", ringFrom py!"34"] { callingLineIdentification := true }).2.callbacks = [.incomingCall 0, .incomingCall 0] := by decide +kernel

/-- Two calls are dialled: they have the same id, and only one is in the table; hanging up the other removes this one. -/
theorem C77_same_id :
    callStates (performTasks goodModem (List.replicate 4 0 ++ List.replicate 4 1 ++ List.replicate 9 0 ++ List.replicate 9 1) [.dial py!"34" false, .dial py!"56" false] {}).2 = [(1, true), (1, true)] ∧
    (performTasks goodModem (List.replicate 4 0 ++ List.replicate 4 1 ++ List.replicate 9 0 ++ List.replicate 9 1) [.dial py!"34" false, .dial py!"56" false] {}).2.activeCalls = [(1, 1)] ∧
    (hangup 0 goodModem (performTasks goodModem (List.replicate 4 0 ++ List.replicate 4 1 ++ List.replicate 9 0 ++ List.replicate 9 1) [.dial py!"34" false, .dial py!"56" false] {}).2).2.activeCalls = [] ∧
    (tasksSerially goodModem [.dial py!"34" false, .dial py!"56" false] {}).2.activeCalls = [(1, 0), (2, 1)] := by decide +kernel

/-- `hangup` fails because the other end hangs up at the same time, and the handling of the end of the call because of `hangup`; one after the other both succeed. -/
theorem C77_key_error :
    results (performTasks goodModem (List.replicate 8 0 ++ List.replicate 12 1 ++ List.replicate 9 0) [.hangup 0, ending] oneCall).1 = [some (.error .keyError), some (.ok ())] ∧
    results (performTasks goodModem (List.replicate 3 1 ++ List.replicate 12 0 ++ List.replicate 9 1) [.hangup 0, ending] oneCall).1 = [some (.ok ()), some (.error .keyError)] ∧
    (tasksSerially goodModem [.hangup 0, ending] oneCall).1 = [.ok (), .ok ()] := by decide +kernel

/-- A call rings while another one ends: nobody is told about the new call. -/
theorem C77_ring_lost :
    results (performTasks goodModem (List.replicate 5 0 ++ List.replicate 12 1 ++ List.replicate 9 0) [ringFrom py!"34", ending] oneCall).1 = [some (.error .runtimeError), some (.ok ())] ∧
    (performTasks goodModem (List.replicate 5 0 ++ List.replicate 12 1 ++ List.replicate 9 0) [ringFrom py!"34", ending] oneCall).2.callbacks = [] ∧
    (tasksSerially goodModem [ringFrom py!"34", ending] oneCall).2.callbacks = [.incomingCall 1] := by decide +kernel

/-- Two threads hang up a call: the modem is told twice, and the second time it may be about another call. -/
theorem C77_hangup_twice :
    (performTasks goodModem (List.replicate 2 0 ++ List.replicate 12 1 ++ List.replicate 9 0) [.hangup 0, .hangup 0] oneCall).2.log = [py!"ATH\r", py!"ATH\r"] ∧
    (tasksSerially goodModem [.hangup 0, .hangup 0] oneCall).2.log = [py!"ATH\r"] := by decide +kernel

/-- A call that is over can be answered. -/
theorem C77_answered_late :
    ((performTasks goodModem (List.replicate 2 0 ++ List.replicate 12 1 ++ List.replicate 9 0) [.notify [py!"^CONN:1,0"], ending] oneCall).2.calls.map fun c => (c.active, c.answered)) = [(false, true)] ∧
    ((tasksSerially goodModem [.notify [py!"^CONN:1,0"], ending] oneCall).2.calls.map fun c => (c.active, c.answered)) = [(false, false)] := by decide +kernel

/-- The end of a call removes another, active one from the table, that was dialled in between. -/
theorem C77_other_removed :
    callStates (performTasks goodModem (List.replicate 6 0 ++ List.replicate 12 1 ++ List.replicate 9 2 ++ List.replicate 9 0) [ending, .hangup 0, .dial py!"56" false] oneCall).2 = [(1, false), (1, true)] ∧
    (performTasks goodModem (List.replicate 6 0 ++ List.replicate 12 1 ++ List.replicate 9 2 ++ List.replicate 9 0) [ending, .hangup 0, .dial py!"56" false] oneCall).2.activeCalls = [] ∧
    (tasksSerially goodModem [ending, .hangup 0, .dial py!"56" false] oneCall).2.activeCalls = [(1, 1)] := by decide +kernel

/-! ### The hypotheses can be satisfied -/

theorem oneCall_ok : TableOk oneCall := by
  refine ⟨by decide, fun k i h => ?_⟩
  simp only [oneCall, List.mem_singleton, Prod.mk.injEq] at h
  obtain ⟨rfl, rfl⟩ := h
  exact ⟨_, rfl, rfl, rfl⟩

/-- A call ends while another one rings; all threads finish. -/
def ringAndEnd : List Nat := List.replicate 10 0 ++ List.replicate 9 1 ++ List.replicate 9 0

example : results (performTasks goodModem ringAndEnd [ringFrom py!"34", .hangup 0] oneCall).1 = [some (.ok ()), some (.ok ())] ∧
    (performTasks goodModem ringAndEnd [ringFrom py!"34", .hangup 0] oneCall).2.activeCalls = [(2, 1)] := by decide +kernel

example : TableOk (performTasks goodModem ringAndEnd [ringFrom py!"34", .hangup 0] oneCall).2 := by
  refine C77_settles oneCall_ok _ fun p hp => ?_
  have h : results (performTasks goodModem ringAndEnd [ringFrom py!"34", .hangup 0] oneCall).1 = [some (.ok ()), some (.ok ())] := by decide +kernel
  have hall : ∀ r ∈ results (performTasks goodModem ringAndEnd [ringFrom py!"34", .hangup 0] oneCall).1, r.isSome = true := by rw [h]; simp
  have := hall _ (List.mem_map.2 ⟨p, hp, rfl⟩)
  cases p with
  | done r => exact ⟨r, rfl⟩
  | _ => cases this

/-- Rings and messages end no calls, and messages start none. -/
example : EndsNoCalls (ringFrom py!"34") ∧ StartsNoCalls (.message (.ask py!"AT+CSQ")) ∧ StartsNoCalls ending := by
  refine ⟨?_, trivial, ?_⟩
  · have h1 : ∀ t, recognise t py!"RING" = some .ring := fun t => recognise_iff.2 (.ring ⟨[], [], rfl⟩)
    intro l hl t g
    simp only [List.mem_cons, List.not_mem_nil, or_false] at hl
    rcases hl with rfl | rfl
    · rw [h1]; simp
    · have h2 : recognise (callTable t) (py!"+CLIP: \"" ++ py!"34" ++ py!"\",145") = none := by cases t <;> decide +kernel
      rw [h2]; simp
  · intro l hl
    simp only [List.mem_singleton] at hl
    subst hl
    decide +kernel

/-- `ATH` was written although another thread handled a ring meanwhile. -/
example : (performTasks goodModem ringAndEnd [ringFrom py!"34", .hangup 0] oneCall).2.log = [py!"ATH\r"] ∧
    (performTasks goodModem ringAndEnd [ringFrom py!"34", .hangup 0] oneCall).2.callbacks = [.incomingCall 1] := by decide +kernel

/-- The line about the end of the call. -/
example : Says oneCall.callStatusUpdates py!"^CEND:1,0,67,31" (.ended 1) := .cend (a := 1) (b := 0) (c := py!"67") (d := py!"31") (by omega) (by omega) ⟨by simp, by decide⟩ ⟨by simp, by decide⟩ (.inl rfl)

end Gsm
