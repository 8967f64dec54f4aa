import Verif.Lemmas.Asked
import Verif.Props.ModemNotify
import Verif.Props.ModemSend
/-! # C115: Nothing is sent that was not asked for

What a line on the serial port is for can be seen from its beginning and its end. `opMay` says for each method
which kinds of lines it may send. -/
namespace Gsm
open M Spec

variable {env : Env}

/-- Whatever the modem answers, a method sends lines of its kinds only. -/
theorem C115_method [PyUnicode] (op : Op) (s : St) : SentOnly (opMay op) s.log (op.run env s).2.log :=
  ((as_op (env := env) op).run s).1

/-- Any sequence of methods and events. -/
theorem C115_history [PyUnicode] : ∀ (ops : List Op) (s : St), SentOnly (ops.flatMap opMay) s.log (runOps env ops s).log
  | [], s => ⟨[], rfl, by simp⟩
  | op :: ops, s => by
    obtain ⟨a, h1, h2⟩ := C115_method (env := env) op s
    obtain ⟨b, h3, h4⟩ := C115_history ops (op.run env s).2
    refine ⟨b ++ a, by simp only [runOps, h3, h1, List.append_assoc], fun c hc => ?_⟩
    rcases List.mem_append.1 hc with hc | hc
    · obtain ⟨k, hk, hk'⟩ := h4 c hc
      exact ⟨k, by rw [List.flatMap_cons]; exact List.mem_append_right _ hk, hk'⟩
    · obtain ⟨k, hk, hk'⟩ := h2 c hc
      exact ⟨k, by rw [List.flatMap_cons]; exact List.mem_append_left _ hk, hk'⟩

/-- A line is for one thing only. -/
theorem C115_kinds {k k' : Purpose} {c : PyStr} (h : k.Of c) (h' : k'.Of c) : k = k' := by
  unfold Purpose.Of at h h'
  by_cases hb : k = .body <;> by_cases hb' : k' = .body
  · rw [hb, hb']
  · rw [if_pos hb] at h; rw [if_neg hb'] at h'; rw [h] at h'; simp at h'
  · rw [if_neg hb] at h; rw [if_pos hb'] at h'; rw [h'] at h; simp at h
  · rw [if_neg hb] at h; rw [if_neg hb'] at h'
    obtain ⟨-, p, hp, hpc⟩ := h
    obtain ⟨-, q, hq, hqc⟩ := h'
    have hpq : p.isPrefixOf q = true ∨ q.isPrefixOf p = true := by
      rcases Nat.le_total p.length q.length with hl | hl
      · exact .inl (List.isPrefixOf_iff_prefix.2 (List.prefix_of_prefix_length_le hpc hqc hl))
      · exact .inr (List.isPrefixOf_iff_prefix.2 (List.prefix_of_prefix_length_le hqc hpc hl))
    clear hpc hqc hb hb'
    have key : ∀ k k' : Purpose, (k.starts.all fun p => k'.starts.all fun q => (!(p.isPrefixOf q || q.isPrefixOf p)) || decide (k = k')) = true := by
      intro k k'; cases k <;> cases k' <;> decide +kernel
    have := List.all_eq_true.1 (List.all_eq_true.1 (key k k') p hp) q hq
    rcases hpq with e | e <;> simpa [e] using this

/-- A line that none of the methods may send is not sent. -/
theorem C115_not_sent [PyUnicode] {k : Purpose} {ops : List Op} (h : ∀ op ∈ ops, k ∉ opMay op) (s : St) :
    ∃ sent, (runOps env ops s).log = sent ++ s.log ∧ ∀ c ∈ sent, ¬ k.Of c := by
  obtain ⟨sent, h1, h2⟩ := C115_history (env := env) ops s
  refine ⟨sent, h1, fun c hc hk => ?_⟩
  obtain ⟨k', hk', hk2⟩ := h2 c hc
  rw [← C115_kinds hk hk2] at hk'
  obtain ⟨op, ho, hm⟩ := List.mem_flatMap.1 hk'
  exact h op ho hm

/-! ### Who may do what -/

theorem event_kinds {e : Event} {k : Purpose} (h : k ∈ eventMay e) : k ∈ [Purpose.ringType, .memory, .fetch, .erase, .ask] := by
  cases e <;> simp [eventMay] at h ⊢ <;> grind

theorem events_kinds {es : List Event} {k : Purpose} (h : k ∈ es.flatMap eventMay) : k ∈ [Purpose.ringType, .memory, .fetch, .erase, .ask] := by
  obtain ⟨e, _, h⟩ := List.mem_flatMap.1 h
  exact event_kinds h

/-- Only `dial` dials. -/
theorem C115_dial {op : Op} (h : Purpose.dial ∈ opMay op) : ∃ n t cb du, op = .dial n t cb du := by
  cases op <;> simp only [opMay] at h <;> (try split at h) <;> (try simp at h)
  all_goals first
    | exact ⟨_, _, _, _, rfl⟩
    | (rcases h with ⟨e, -, h⟩ | ⟨e, -, h⟩ <;> exact absurd (event_kinds h) (by decide))
    | (rcases h with ⟨e, -, h⟩; exact absurd (event_kinds h) (by decide))
    | exact absurd (event_kinds h) (by decide)

/-- Only the methods for sending send messages. -/
theorem C115_post {op : Op} (h : Purpose.post ∈ opMay op ∨ Purpose.body ∈ opMay op) : (∃ d t f, op = .send d t f) ∨ ∃ d t f e du, op = .sendWait d t f e du := by
  rcases h with h | h <;>
  · cases op <;> simp only [opMay] at h <;> (try split at h) <;> (try simp at h)
    all_goals first
      | exact .inl ⟨_, _, _, rfl⟩
      | exact .inr ⟨_, _, _, _, _, rfl⟩
      | (rcases h with ⟨e, -, h⟩ | ⟨e, -, h⟩ <;> exact absurd (event_kinds h) (by decide))
      | (rcases h with ⟨e, -, h⟩; exact absurd (event_kinds h) (by decide))
      | exact absurd (event_kinds h) (by decide)

/-- USSD requests are sent by `sendUssd`, and by `reply` of an object whose session is active. -/
theorem C115_ussd {op : Op} (h : Purpose.ussd ∈ opMay op) : (∃ x du, op = .ussd x du) ∨ ∃ u x du, u.sessionActive = true ∧ op = .ussdReply u x du := by
  cases op <;> simp only [opMay] at h <;> (try split at h) <;> (try simp at h)
  all_goals first
    | exact .inl ⟨_, _, rfl⟩
    | exact .inr ⟨_, _, _, by assumption, rfl⟩
    | (rcases h with ⟨e, -, h⟩ | ⟨e, -, h⟩ <;> exact absurd (event_kinds h) (by decide))
    | (rcases h with ⟨e, -, h⟩; exact absurd (event_kinds h) (by decide))
    | exact absurd (event_kinds h) (by decide)

/-- Calls are taken by `answer`, and ended by `hangup`. -/
theorem C115_calls {op : Op} : (Purpose.answer ∈ opMay op → ∃ i, op = .answer i) ∧ (Purpose.hangUp ∈ opMay op → ∃ i, op = .hangup i) ∧
    (Purpose.tones ∈ opMay op → ∃ i t, op = .dtmf i t) := by
  refine ⟨fun h => ?_, fun h => ?_, fun h => ?_⟩ <;>
  · cases op <;> simp only [opMay] at h <;> (try split at h) <;> (try simp at h)
    all_goals first
      | exact ⟨_, rfl⟩
      | exact ⟨_, _, rfl⟩
      | (rcases h with ⟨e, -, h⟩ | ⟨e, -, h⟩ <;> exact absurd (event_kinds h) (by decide))
      | (rcases h with ⟨e, -, h⟩; exact absurd (event_kinds h) (by decide))
      | exact absurd (event_kinds h) (by decide)

/-- What comes from outside never makes the program dial, take or end calls, send messages or USSD requests, or change settings. -/
theorem C115_events [PyUnicode] (es : List Event) (s : St) : SentOnly [.ringType, .memory, .fetch, .erase, .ask] s.log (runOps env (es.map .event) s).log := by
  obtain ⟨sent, h1, h2⟩ := C115_history (env := env) (es.map .event) s
  refine ⟨sent, h1, fun c hc => ?_⟩
  obtain ⟨k, hk, hk'⟩ := h2 c hc
  refine ⟨k, ?_, hk'⟩
  obtain ⟨op, ho, hm⟩ := List.mem_flatMap.1 hk
  obtain ⟨e, -, rfl⟩ := List.mem_map.1 ho
  exact event_kinds hm

/-- A notification, by what its first recognised line announces. -/
theorem C115_news [PyUnicode] {pre : List PyStr} {line : PyStr} {post : List PyStr} {d : Dispatch} {s : St}
    (hpre : ∀ l ∈ pre, ∀ d, ¬ Announces (callTable s.callStatusUpdates) l d) (ha : Announces (callTable s.callStatusUpdates) line d) :
    SentOnly (newsMay d) s.log (handleNotification (pre ++ line :: post) env s).2.log := by
  rw [C43_first hpre ha]
  cases d with
  | ring => exact ((as_incoming (env := env) (ks := newsMay .ring) (by simp [newsMay]) _).run s).1
  | cmti => exact ((as_received (env := env) (ks := newsMay .cmti) (by simp [newsMay]) (by simp [newsMay]) (by simp [newsMay]) _).run s).1
  | cdsi => exact ((as_report (env := env) (ks := newsMay .cdsi) (by simp [newsMay]) (by simp [newsMay]) (by simp [newsMay]) _).run s).1
  | cusd => exact ((as_handleUssd (env := env) (ks := newsMay .cusd) _).run s).1
  | call h g => exact ((as_runCallHandler (env := env) (ks := newsMay (.call h g)) h g).run s).1

/-- Nothing is sent for lines that mean nothing. -/
theorem C115_no_news {batch : List PyStr} {s : St} (h : ∀ l ∈ batch, ∀ d, ¬ Announces (callTable s.callStatusUpdates) l d) :
    (handleNotification batch env s).2.log = s.log := by rw [C43_none h]

/-! ### Examples -/

attribute [local instance] asciiUnicode

/-- A line from outside that looks like a command is not obeyed. -/
example : (runOps (modemWith fun _ => none) [.event (.notify [py!"ATD123;"]), .event (.notify [py!"+CUSD: 1,\"AT+CUSD=1\",15"])] {}).log = [] := by decide +kernel

example : (runOps (modemWith fun _ => none) [.event (.notify [py!"+CMTI: \"SM\",3"])] {}).log = [py!"AT+CMGR=3\r", py!"AT+CPMS=\"SM\"\r"] ∧
    Purpose.fetch.Of py!"AT+CMGR=3\r" ∧ Purpose.memory.Of py!"AT+CPMS=\"SM\"\r" := by decide +kernel

example : opMay (.dial py!"12" 5 false [.notify []]) = [.dial, .ringType, .memory, .fetch, .erase] := rfl

/-- The kinds are told apart by whole lines: a number that contains a carriage return brings a second command, which nobody asked for. -/
theorem C115_carriage_return_violated : (runOps (modemWith fun _ => none) [.dial py!"1;\rATH" 5 false []] {}).log = [py!"ATD1;\rATH;\r"] ∧
    Purpose.dial.Of py!"ATD1;\rATH;\r" := by decide +kernel

end Gsm
