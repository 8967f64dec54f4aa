import Verif.Lemmas.WaitingAlone
import Verif.Lemmas.WaitingEnd
import Verif.Lemmas.WaitingTold
import Verif.Props.ModemSend
/-! # Property C78: threads that wait for other threads -/
namespace Gsm
open M Spec Proc

variable {env : Env}

/-! ### Without interleaving -/

/-- The steps of a job are the job, if nothing happens while it waits. -/
theorem C78_alone [PyUnicode] (y : Job) {w : Shared} (h : Linked w) (hd : DialWaits y w.st) :
    ((y.proc.run env w).1, (y.proc.run env w).2.st) = jobAlone y env w.st := alone_job y h hd

/-! ### How a thread that waits ends -/

theorem wakes_among [PyUnicode] {x : Slot} {T : St → Prop} {threads : List (Proc Value)} {i : Nat} {w : Shared} {schedule : List Nat} {Q : Except PyErr Value → Shared → Prop}
    (ho : ∀ j p, j ≠ i → threads[j]? = some p → ∃ w1, Calm env x T AnyEnd p w1 ∧ Beside T w1 w) (hi : ∀ p, threads[i]? = some p → ∃ w1, Wakes env x T Q p w1 ∧ Around x T w1 w) :
    (∀ p, (runProcs env schedule (threads, w)).1[i]? = some p → ∃ w2, Wakes env x T Q p w2 ∧ Around x T w2 (runProcs env schedule (threads, w)).2) ∧
    ∀ j p, j ≠ i → (runProcs env schedule (threads, w)).1[j]? = some p → ∃ w1, Calm env x T AnyEnd p w1 ∧ Beside T w1 (runProcs env schedule (threads, w)).2 := by
  have h := safe_procs (env := env) (R := fun k => if k = i then Around x T else Beside T) (G := fun k => if k = i then Beside T else Around x T) (Q := fun k => if k = i then Q else AnyEnd)
    (fun k w => by split; exacts [.rfl w, .rfl w]) (fun k a b c => by split; exacts [.trans, .trans])
    (fun k j a b hkj => by
      by_cases hj : j = i
      · subst hj
        rw [if_pos rfl, if_neg hkj]
        exact id
      · rw [if_neg hj]
        split
        · exact id
        · exact Around.beside) schedule threads w (fun k p hk => by
      by_cases hki : k = i
      · subst hki
        rw [if_pos rfl, if_pos rfl, if_pos rfl]
        exact hi p hk
      · rw [if_neg hki, if_neg hki, if_neg hki]
        exact ho k p hki hk)
  refine ⟨fun p hp => ?_, fun j p hj hp => ?_⟩
  · have := h i p hp
    rwa [if_pos rfl, if_pos rfl, if_pos rfl] at this
  · have := h j p hp
    rwa [if_neg hj, if_neg hj, if_neg hj] at this

/-- The same from the beginning. -/
theorem wakes_jobs [PyUnicode] {x : Slot} {T : St → Prop} {jobs : List Job} {i : Nat} {y : Job} {w : Shared} (schedule : List Nat) {Q : Except PyErr Value → Shared → Prop}
    (hT : ∀ z ∈ jobs, Topic env w.st w.st.callStatusUpdates x T z) (ho : OnlyWaits x i jobs) (hi : jobs[i]? = some y) (hq : Wakes env x T Q y.proc w) :
    (∀ p, (performJobs env schedule jobs w).1[i]? = some p → ∃ w2, Wakes env x T Q p w2 ∧ Around x T w2 (performJobs env schedule jobs w).2) ∧
    ∀ j p, j ≠ i → (performJobs env schedule jobs w).1[j]? = some p → ∃ w1, Calm env x T AnyEnd p w1 ∧ Beside T w1 (performJobs env schedule jobs w).2 := by
  refine wakes_among (fun j p hj hp => ?_) fun p hp => ?_
  · rw [List.getElem?_map, Option.map_eq_some_iff] at hp
    obtain ⟨z, hz, rfl⟩ := hp
    exact ⟨w, calm_job (hT z (List.mem_of_getElem? hz)) (ho j z hj hz) rfl (.rfl _), .rfl w⟩
  · rw [List.getElem?_map, hi] at hp
    cases hp
    exact ⟨w, hq, .rfl w⟩

theorem wakes_ussdJob [PyUnicode] {t : CallTable} {jobs : List Job} (text : PyStr) (w : Shared) :
    Wakes env .ussd (ToldUssd t jobs) (fun r w' => UssdEnds env t jobs text r ∧ w'.attr .ussd = none) (Job.ussd text).proc w :=
  safe_bind (wakes_ussd text w) (fun _ _ h => h) fun _ _ h => h

theorem wakes_dialJob [PyUnicode] {t : CallTable} {jobs : List Job} (n : PyStr) (k : Nat) (cb : Bool) (w : Shared) :
    Wakes env .dial (ToldDial env t jobs) (fun r w' => DialEnds env t jobs n cb w'.st.calls r ∧ w'.attr .dial = none) (Job.dial n k cb).proc w :=
  safe_bind (wakes_dial n k cb w) (fun _ _ h => h) fun _ _ h => h

theorem wakes_sendJob [PyUnicode] {w : Shared} (d tx : PyStr) (f : Bool) (hn : w.attr .report = none) :
    Wakes env .report (ReportSince w.st) (fun r w' => w'.attr .report = none ∧ ∀ v, r = .ok v → SentOut env d tx f w.st w'.st ∧ ReportSince w.st w'.st) (Job.sendWait d tx f).proc w :=
  safe_bind (wakes_sendWait d tx f hn) (fun i _ h => ⟨h.1, fun _ _ => h.2 i rfl⟩) fun _ _ h => ⟨h.1, fun _ h => nomatch h⟩

/-- If no other thread waits for USSD, a request ends with a result that another thread was told, with what the answer says already, or with an error of the command or a time-out;
afterwards nobody waits. -/
theorem C78_ussd [PyUnicode] {jobs : List Job} {w : Shared} {i : Nat} {text : PyStr} (hi : jobs[i]? = some (.ussd text)) (ho : OnlyWaits .ussd i jobs) {schedule : List Nat}
    {r : Except PyErr Value} (hd : (performJobs env schedule jobs w).1[i]? = some (.done r)) :
    UssdEnds env w.st.callStatusUpdates jobs text r ∧ (performJobs env schedule jobs w).2.attr .ussd = none := by
  obtain ⟨w2, h1, h2⟩ := (wakes_jobs schedule (fun z hz => topic_ussd w.st _ jobs hz) ho hi (wakes_ussdJob (env := env) text w)).1 _ hd
  exact ⟨h1.1, h2.attr.trans h1.2⟩

/-- If no other thread dials, dialling ends with a call object for a call that another thread was told of, or with an error of the command or a time-out; afterwards nobody waits. -/
theorem C78_dial [PyUnicode] {jobs : List Job} {w : Shared} {i k : Nat} {number : PyStr} {cb : Bool} (hi : jobs[i]? = some (.dial number k cb)) (ho : OnlyWaits .dial i jobs) {schedule : List Nat}
    {r : Except PyErr Value} (hd : (performJobs env schedule jobs w).1[i]? = some (.done r)) :
    DialEnds env w.st.callStatusUpdates jobs number cb (performJobs env schedule jobs w).2.st.calls r ∧ (performJobs env schedule jobs w).2.attr .dial = none := by
  obtain ⟨w2, h1, h2⟩ := (wakes_jobs schedule (fun z hz => topic_dial w.st _ jobs hz) ho hi (wakes_dialJob (env := env) number k cb w)).1 _ hd
  refine ⟨?_, h2.attr.trans h1.2⟩
  cases h1.1 with
  | failed h => exact .failed h
  | late => exact .late
  | told a1 a2 a3 a4 a5 a6 a7 a8 =>
    obtain ⟨c', h3, h4⟩ := h2.grow.calls _ _ a3
    exact .told a1 a2 h3 (h4.incoming.trans a4) (h4.id.trans a5) (h4.type.trans a6) (h4.number.trans a7) (h4.callback.trans a8)

/-- If no other thread waits for delivery reports, `sendSms` that ends without an error has sent the message, and a report was handled; afterwards nobody waits. -/
theorem C78_report [PyUnicode] {jobs : List Job} {w : Shared} {i : Nat} {destination text : PyStr} {flash : Bool} (hi : jobs[i]? = some (.sendWait destination text flash))
    (ho : OnlyWaits .report i jobs) (hn : w.attr .report = none) {schedule : List Nat} {r : Except PyErr Value} (hd : (performJobs env schedule jobs w).1[i]? = some (.done r)) :
    (performJobs env schedule jobs w).2.attr .report = none ∧
    ∀ v, r = .ok v → SentOut env destination text flash w.st (performJobs env schedule jobs w).2.st ∧ ReportSince w.st (performJobs env schedule jobs w).2.st := by
  obtain ⟨w2, h1, h2⟩ := (wakes_jobs schedule (fun z _ => topic_report w.st _ z) ho hi (wakes_sendJob (env := env) destination text flash hn)).1 _ hd
  exact ⟨h2.attr.trans h1.1, fun v hv => ⟨sentOut_grow (h1.2 v hv).1 h2.grow.grows, reportSince_grow (h1.2 v hv).2 h2.grow.grows⟩⟩

/-! ### A thread that is told sets the event -/

theorem procs_append : ∀ (s1 s2 : List Nat) (x : List (Proc Value) × Shared), runProcs env (s1 ++ s2) x = runProcs env s2 (runProcs env s1 x)
  | [], _, _ => rfl
  | i :: s1, s2, (threads, w) => by
    rw [List.cons_append]
    cases h : threads[i]? with
    | none => simp only [runProcs, h]; exact procs_append s1 s2 _
    | some p => simp only [runProcs, h]; exact procs_append s1 s2 _

theorem jobs_append [PyUnicode] (s1 s2 : List Nat) (jobs : List Job) (w : Shared) : performJobs env (s1 ++ s2) jobs w = runProcs env s2 (performJobs env s1 jobs w) := procs_append s1 s2 _

theorem not_started {j : Nat} : ∀ (schedule : List Nat) (threads : List (Proc Value)) (w : Shared), j ∉ schedule → (runProcs env schedule (threads, w)).1[j]? = threads[j]?
  | [], _, _, _ => rfl
  | i :: is, threads, w, h => by
    unfold runProcs
    rw [List.mem_cons, not_or] at h
    cases threads[i]? with
    | none => exact not_started is threads w h.2
    | some p =>
      dsimp only
      rw [not_started is _ _ h.2, List.getElem?_set_ne (Ne.symm h.1)]

theorem kept_procs {R : Shared → Shared → Prop} (hrefl : ∀ w, R w w) (htrans : ∀ a b c, R a b → R b c → R a c) : ∀ (schedule : List Nat) (threads : List (Proc Value)) (w : Shared),
    (∀ (i : Nat) p, threads[i]? = some p → ∃ w1, Safe env R R AnyEnd p w1 ∧ R w1 w) →
    R w (runProcs env schedule (threads, w)).2 ∧ ∀ (i : Nat) p, (runProcs env schedule (threads, w)).1[i]? = some p → ∃ w1, Safe env R R AnyEnd p w1 ∧ R w1 (runProcs env schedule (threads, w)).2
  | [], _, w, h => ⟨hrefl w, h⟩
  | j :: is, threads, w, h => by
    cases hj : threads[j]? with
    | none =>
      simp only [runProcs, hj]
      exact kept_procs hrefl htrans is threads w h
    | some q =>
      simp only [runProcs, hj]
      obtain ⟨w1, h1, h2⟩ := h j q hj
      have hstep : R w (q.step env w).2 ∧ ∃ w2, Safe env R R AnyEnd (q.step env w).1 w2 ∧ R w2 (q.step env w).2 := by
        cases q with
        | done r => exact ⟨hrefl w, w1, h1, h2⟩
        | io t k => exact ⟨(h1 w h2).1, _, (h1 w h2).2, hrefl _⟩
        | act f k => exact ⟨(h1 w h2).1, _, (h1 w h2).2, hrefl _⟩
      have := kept_procs hrefl htrans is (threads.set j (q.step env w).1) (q.step env w).2 fun i p hp => by
        by_cases hij : j = i
        · subst hij
          rw [List.getElem?_set_self (List.getElem?_eq_some_iff.1 hj).1] at hp
          cases hp
          exact hstep.2
        · rw [List.getElem?_set_ne hij] at hp
          obtain ⟨w3, h3, h4⟩ := h i p hp
          exact ⟨w3, h3, htrans _ _ _ h4 hstep.1⟩
      exact ⟨htrans _ _ _ hstep.1 this.1, this.2⟩

theorem goes_jobs [PyUnicode] (x : Slot) (jobs : List Job) (w : Shared) (schedule : List Nat) :
    Onward x w (performJobs env schedule jobs w).2 ∧ ∀ (i : Nat) p, (performJobs env schedule jobs w).1[i]? = some p → ∃ w1, Goes env x AnyEnd p w1 ∧ Onward x w1 (performJobs env schedule jobs w).2 := by
  refine kept_procs .rfl (fun _ _ _ => .trans) schedule _ w fun i p hp => ?_
  rw [List.getElem?_map, Option.map_eq_some_iff] at hp
  obtain ⟨y, _, rfl⟩ := hp
  exact ⟨w, goes_job y w, .rfl w⟩

/-- Threads that wait change calls and histories only as other threads do, and a new event is never one that was assigned before. -/
theorem C78_grow [PyUnicode] (jobs : List Job) (schedule : List Nat) {w : Shared} (hw : EventsOk w) : CallsGrow w.st (performJobs env schedule jobs w).2.st ∧
    EventsOk (performJobs env schedule jobs w).2 ∧ ∀ x e, e < (w.events x).length → (performJobs env schedule jobs w).2.attr x = some e → w.attr x = some e :=
  ⟨(goes_jobs .ussd jobs w schedule).1.grow, fun x => (goes_jobs x jobs w schedule).1.valid (hw x), fun x => (goes_jobs x jobs w schedule).1.attr⟩

/-- A thread that starts when the attribute has the event `e`. -/
theorem told_among [PyUnicode] {x : Slot} {jobs : List Job} {w : Shared} (hw : EventsOk w) {j e : Nat} {y : Job} (hj : jobs[j]? = some y) {s1 s2 : List Nat} (hn : j ∉ s1)
    (ha : (performJobs env s1 jobs w).2.attr x = some e) {Q : Except PyErr Value → Shared → Prop}
    (hq : ∀ w', w'.st.callStatusUpdates = w.st.callStatusUpdates → e < (w'.events x).length → Goes env x Q y.proc w') {r : Except PyErr Value}
    (hd : (performJobs env (s1 ++ s2) jobs w).1[j]? = some (.done r)) : ∃ w2, Q r w2 ∧ Onward x w2 (performJobs env (s1 ++ s2) jobs w).2 := by
  obtain ⟨h1, h2⟩ := goes_jobs (env := env) x jobs w s1
  have hlen := h1.valid (hw x) e ha
  have hj1 : (performJobs env s1 jobs w).1[j]? = some y.proc := by
    unfold performJobs
    rw [not_started s1 _ w hn, List.getElem?_map, hj]
    rfl
  rw [jobs_append] at hd ⊢
  obtain ⟨w2, h3, h4⟩ := safe_procs (env := env) (R := fun _ => Onward x) (G := fun _ => Onward x) (Q := fun k => if k = j then Q else AnyEnd) (fun _ => .rfl) (fun _ _ _ _ => .trans)
    (fun _ _ _ _ _ => id) s2 (performJobs env s1 jobs w).1 (performJobs env s1 jobs w).2 (fun i p hp => by
      by_cases hij : i = j
      · subst hij
        rw [if_pos rfl]
        rw [hj1] at hp
        cases hp
        exact ⟨_, hq _ h1.grow.updates hlen, .rfl _⟩
      · rw [if_neg hij]
        exact h2 i p hp) j _ hd
  rw [if_pos rfl] at h3
  exact ⟨w2, h3, h4⟩

theorem goes_length {α : Type} {x : Slot} {e : Nat} {Q : Except PyErr α → Shared → Prop} {p : Proc α} {w : Shared} (h : Goes env x Q p w) (hw : e < (w.events x).length) :
    Goes env x (fun r w => Q r w ∧ e < (w.events x).length) p w := by
  induction p generalizing w with
  | done r => exact ⟨h, hw⟩
  | io t k ih => exact fun w' hw' => ⟨(h w' hw').1, ih _ (h w' hw').2 (Nat.lt_of_lt_of_le hw (hw'.trans (h w' hw').1).length)⟩
  | act f k ih => exact fun w' hw' => ⟨(h w' hw').1, ih _ _ (h w' hw').2 (Nat.lt_of_lt_of_le hw (hw'.trans (h w' hw').1).length)⟩

/-- What such a thread has done. -/
theorem tells_among [PyUnicode] {x : Slot} {jobs : List Job} {w : Shared} (hw : EventsOk w) {j e : Nat} {a : Task} (hj : jobs[j]? = some (.task a)) {s1 s2 : List Nat} (hn : j ∉ s1)
    (ha : (performJobs env s1 jobs w).2.attr x = some e) (hl : (performJobs env (s1 ++ s2) jobs w).2.attr x = some e)
    (hq : ∀ w', w'.st.callStatusUpdates = w.st.callStatusUpdates → e < (w'.events x).length → Goes env x (Tells x e) a.proc w') {r : Except PyErr Value}
    (hd : (performJobs env (s1 ++ s2) jobs w).1[j]? = some (.done r)) : (∃ v, r = .ok v) ∧ ((performJobs env (s1 ++ s2) jobs w).2.events x)[e]? = some true := by
  obtain ⟨w2, h1, h2⟩ := told_among hw hj hn ha (Q := fun r w => Tells x e r w ∧ e < (w.events x).length)
    (fun w' h1 h2 => goes_length (tells_then (hq w' h1 h2) fun _ => ⟨_, rfl⟩) h2) hd
  have h3 := h1.1 (h2.attr e h1.2 hl)
  exact ⟨h3.1, h2.set e h3.2⟩

/-- A thread starts to handle the result of a USSD request while another thread's event is assigned, and the event is still assigned when it is ready: then the event is set. -/
theorem C78_told_ussd [PyUnicode] {jobs : List Job} {w : Shared} (hw : EventsOk w) {j e : Nat} {y : Job} {u : Ussd} (hj : jobs[j]? = some y) (hb : BringsResult w.st.callStatusUpdates y u)
    {s1 s2 : List Nat} (hn : j ∉ s1) (ha : (performJobs env s1 jobs w).2.attr .ussd = some e) (hl : (performJobs env (s1 ++ s2) jobs w).2.attr .ussd = some e) {r : Except PyErr Value}
    (hd : (performJobs env (s1 ++ s2) jobs w).1[j]? = some (.done r)) : (∃ v, r = .ok v) ∧ ((performJobs env (s1 ++ s2) jobs w).2.events .ussd)[e]? = some true := by
  cases hb with
  | @notify batch line u hf hu =>
    obtain ⟨pre, post, rfl, hpre, hline⟩ := hf
    have hp : parseCusdResponse (pre ++ line :: post) = .ok u := means_unique (parse_means _) hu
    exact tells_among hw hj hn ha hl (fun w' h1 h2 => tells_dispatch pre hpre h1 h2 fun w2 h3 h4 => tells_first (recognise_iff.2 hline) rfl h3 h4 fun w3 h5 => tells_ussd hp h5) hd

theorem says_started {t : CallTable} {line : PyStr} {a b : Nat} (h : Says t line (.started a b)) :
    ∃ g, recognise (callTable t) line = some (.call .initiated g) ∧ a ≤ 9 ∧ b ≤ 9 ∧ (g = [[48 + a], [48 + b]] ∨ g = [[48 + a]]) := by
  cases h with
  | @orig _ _ t ha hb ht =>
    refine ⟨_, recognise_iff.2 (.call (before := []) (no_ring_of (c := 78) (by simp) ?_) (by simp) (by simp) (by simp) rfl (by simp) (two_iff.2 ⟨a, b, t, ha, hb, rfl, rfl, ht⟩)), ha, hb, .inl rfl⟩
    have h1 : 78 ∉ t := fun h => absurd (end_cases ht h) (by decide)
    simp; exact ⟨by omega, by omega, h1⟩
  | @wind5 _ t ha ht =>
    refine ⟨_, recognise_iff.2 (.call (before := []) (no_ring_of (c := 82) (by simp) ?_) (by simp) (by simp) (by simp) rfl (by simp) (one_iff.2 ⟨a, t, ha, rfl, rfl, ht⟩)), ha, by omega, .inr rfl⟩
    have h1 : 82 ∉ t := fun h => absurd (end_cases ht h) (by decide)
    simp; exact ⟨by omega, h1⟩

/-- The same for a notification that a call begins. -/
theorem C78_told_dial [PyUnicode] {jobs : List Job} {w : Shared} (hw : EventsOk w) {j e a b : Nat} {pre post : List PyStr} {line : PyStr} (hj : jobs[j]? = some (.task (.notify (pre ++ line :: post))))
    (hpre : ∀ l ∈ pre, ∀ d, ¬ Announces (callTable w.st.callStatusUpdates) l d) (hb : Says w.st.callStatusUpdates line (.started a b))
    {s1 s2 : List Nat} (hn : j ∉ s1) (ha : (performJobs env s1 jobs w).2.attr .dial = some e) (hl : (performJobs env (s1 ++ s2) jobs w).2.attr .dial = some e) {r : Except PyErr Value}
    (hd : (performJobs env (s1 ++ s2) jobs w).1[j]? = some (.done r)) : (∃ v, r = .ok v) ∧ ((performJobs env (s1 ++ s2) jobs w).2.events .dial)[e]? = some true := by
  obtain ⟨g, h1, h2, h3, h4⟩ := says_started hb
  exact tells_among hw hj hn ha hl (fun w' h5 h6 => tells_dispatch pre hpre h5 h6 fun w2 h7 h8 => tells_first h1 (if_pos rfl) h7 h8 fun w3 h9 => tells_groups h2 h3 h4 h9) hd

/-- The same for a delivery report, if it can be read and deleted. -/
theorem C78_told_report [PyUnicode] {jobs : List Job} {w : Shared} (hw : EventsOk w) {j e : Nat} {line mem idx : PyStr} (hj : jobs[j]? = some (.task (.message (.statusReport line))))
    (hs : StoredAt py!"+CDSI:" line mem idx) {s1 s2 : List Nat} (hn : j ∉ s1) (ha : (performJobs env s1 jobs w).2.attr .report = some e)
    (hl : (performJobs env (s1 ++ s2) jobs w).2.attr .report = some e) {v : Value}
    (hd : (performJobs env (s1 ++ s2) jobs w).1[j]? = some (.done (.ok v))) : ((performJobs env (s1 ++ s2) jobs w).2.events .report)[e]? = some true := by
  have hg : rxGroups cdsiRegex line = some [mem, idx] := by rw [cdsi_rx]; exact stored_iff.2 ⟨mem, idx, rfl, hs⟩
  obtain ⟨w2, h1, h2⟩ := told_among hw hj hn ha (Q := fun r w => (∀ v, r = .ok v → w.attr .report = some e → (w.events .report)[e]? = some true) ∧ e < (w.events .report).length)
    (fun w' _ h2 => goes_length (safe_bind (tells_report hg h2) (fun _ w1 h3 v _ h4 => (h3 rfl h4).2) fun _ _ _ _ h => nomatch h) h2) hd
  exact h2.set e (h1.1 v rfl (h2.attr e h1.2 hl))

/-! ### A thread whose event is set does not time out -/

theorem wakes_set {x : Slot} {T : St → Prop} {w : Shared} {e : Nat} (ha : w.attr x = some e) (he : (w.events x)[e]? = some true) : Wakes env x T (fun r _ => r = .ok true) (wait x) w := by
  refine safe_bind (Q := fun r w' => r = .ok e ∧ (w'.events x)[e]? = some true) (safe_look .rfl fun w1 h1 => ?_) (fun e' w1 h1 => ?_) fun _ _ h => nomatch h.1
  · rw [h1.attr.trans ha]; exact ⟨rfl, h1.set e he⟩
  · obtain ⟨h2, h1⟩ := h1
    cases h2
    refine safe_look .rfl fun w2 h2 => ?_
    show Except.ok _ = _
    rw [h2.set e h1]
    rfl

/-- The thread's event is set when it is to wait for it. -/
theorem woken_among [PyUnicode] {x : Slot} {T : St → Prop} {jobs : List Job} {i : Nat} {y : Job} {w : Shared} {s1 s2 : List Nat} {Q Q' : Except PyErr Value → Shared → Prop} {p : Proc Value}
    (hT : ∀ z ∈ jobs, Topic env w.st w.st.callStatusUpdates x T z) (ho : OnlyWaits x i jobs) (hi : jobs[i]? = some y) (hq : Wakes env x T Q y.proc w)
    (hp : (performJobs env s1 jobs w).1[i]? = some p) (hq' : Wakes env x T Q' p (performJobs env s1 jobs w).2) {r : Except PyErr Value}
    (hd : (performJobs env (s1 ++ s2) jobs w).1[i]? = some (.done r)) : ∃ w2, Q' r w2 := by
  rw [jobs_append] at hd
  obtain ⟨w2, h1, _⟩ := (wakes_among (schedule := s2) (wakes_jobs s1 hT ho hi hq).2 fun p' hp' => by
    rw [hp] at hp'
    cases hp'
    exact ⟨_, hq', .rfl _⟩).1 _ hd
  exact ⟨w2, h1⟩

/-- A request whose event is set when it is to wait ends with a result. -/
theorem C78_woken_ussd [PyUnicode] {jobs : List Job} {w : Shared} {i e : Nat} {text : PyStr} {ls : List PyStr} (hi : jobs[i]? = some (.ussd text)) (ho : OnlyWaits .ussd i jobs) {s1 s2 : List Nat}
    (hp : (performJobs env s1 jobs w).1[i]? = some (waitingUssd ls)) (hl : ¬ InAnswer ls) (ha : (performJobs env s1 jobs w).2.attr .ussd = some e)
    (he : ((performJobs env s1 jobs w).2.events .ussd)[e]? = some true) {r : Except PyErr Value} (hd : (performJobs env (s1 ++ s2) jobs w).1[i]? = some (.done r)) :
    ∃ u, r = .ok (.ussd (some u)) := by
  have hq : Wakes env .ussd (ToldUssd w.st.callStatusUpdates jobs) (fun r _ => ∃ u, r = .ok (.ussd u)) (waitingUssd ls) (performJobs env s1 jobs w).2 := by
    refine safe_bind (Q := fun r _ => ∃ u, r = .ok u) ?_ (fun u _ _ => ⟨u, rfl⟩) fun _ _ h => nomatch h
    unfold awaitUssd
    rw [if_neg (mt (inAnswer_iff ls).1 hl)]
    refine safe_bind (wakes_set ha he) (fun ok w1 h1 => ?_) fun _ _ h => nomatch h
    cases h1
    exact safe_bind (wakes_forget toldUssd_steady (P := False) fun h => h.elim) (fun _ w2 h2 => safe_look .rfl fun w3 _ => ⟨_, rfl⟩) fun _ _ h => nomatch h.1
  obtain ⟨_, u, rfl⟩ := woken_among (fun z hz => topic_ussd w.st _ jobs hz) ho hi (wakes_ussdJob (env := env) text w) hp hq hd
  generalize hv : Except.ok (Value.ussd u) = r at hd ⊢
  cases (C78_ussd hi ho hd).1 with
  | told => exact ⟨_, rfl⟩
  | said => exact ⟨_, rfl⟩
  | _ => cases hv

theorem fails_cases {c : PyStr} {e : PyErr} (h : CommandFails env c e) : e ≠ .typeError := by
  rcases h with rfl | ⟨log, h⟩
  · exact fun h => nomatch h
  · rintro rfl
    generalize env.reply (c :: log) = a at h
    cases h with
    | refused h =>
      generalize hr : (Except.error PyErr.typeError : Except PyErr (List PyStr)) = r at h
      cases h with
      | code _ _ _ _ => 
        injection hr with hr
        unfold errorFor at hr
        split at hr <;> cases hr
      | _ => cases hr

/-- A call whose event is set when the thread is to wait is returned. -/
theorem C78_woken_dial [PyUnicode] {jobs : List Job} {w : Shared} {i e k : Nat} {number : PyStr} {cb : Bool} (hi : jobs[i]? = some (.dial number k cb)) (ho : OnlyWaits .dial i jobs) {s1 s2 : List Nat}
    (hp : (performJobs env s1 jobs w).1[i]? = some (waitingDial number cb)) (ha : (performJobs env s1 jobs w).2.attr .dial = some e)
    (he : ((performJobs env s1 jobs w).2.events .dial)[e]? = some true) {r : Except PyErr Value} (hd : (performJobs env (s1 ++ s2) jobs w).1[i]? = some (.done r)) :
    ∃ m, r = .ok (.object m) := by
  have hq : Wakes env .dial (ToldDial env w.st.callStatusUpdates jobs) (fun r _ => (∃ m, r = .ok (.object m)) ∨ r = .error .typeError) (waitingDial number cb) (performJobs env s1 jobs w).2 := by
    refine safe_bind (Q := fun r _ => (∃ m, r = .ok m) ∨ r = .error .typeError) ?_ (fun m _ _ => .inl ⟨m, rfl⟩) fun _ _ h => h.elim (fun h => nomatch h) fun h => by cases h; exact .inr rfl
    refine safe_bind (wakes_set ha he) (fun ok w1 h1 => ?_) fun _ _ h => nomatch h
    cases h1
    refine safe_bind (wakes_forget toldDial_steady (P := False) fun h => h.elim) (fun _ w2 h2 => safe_look .rfl fun w3 _ => ?_) fun _ _ h => nomatch h.1
    rcases w3.st.dialResponse with _ | ⟨a, b⟩
    · exact .inr rfl
    · refine fun w4 _ => ⟨beside_st toldDial_steady ⟨⟨rfl, rfl⟩, ?_⟩, .inl ⟨_, rfl⟩⟩
      exact (Prog.keeps_register (env := env) Prog.callStable_grow trivial (c := { incoming := false, id := a, type := some b, number := some number, callback := cb }) rfl w4.st trivial).1
  obtain ⟨_, h | rfl⟩ := woken_among (fun z hz => topic_dial w.st _ jobs hz) ho hi (wakes_dialJob (env := env) number k cb w) hp hq hd
  · exact h
  · generalize hv : Except.error PyErr.typeError = r at hd ⊢
    cases (C78_dial hi ho hd).1 with
    | failed h => cases hv; exact absurd rfl (fails_cases h)
    | _ => cases hv

/-- A message for which a report was handled before the thread is to wait is returned. -/
theorem C78_woken_report [PyUnicode] {jobs : List Job} {w : Shared} {i e m : Nat} {destination text : PyStr} {flash : Bool} (hi : jobs[i]? = some (.sendWait destination text flash))
    (ho : OnlyWaits .report i jobs) (hn : w.attr .report = none) {s1 s2 : List Nat} (hp : (performJobs env s1 jobs w).1[i]? = some (waitingReport m))
    (ha : (performJobs env s1 jobs w).2.attr .report = some e) (he : ((performJobs env s1 jobs w).2.events .report)[e]? = some true) {r : Except PyErr Value}
    (hd : (performJobs env (s1 ++ s2) jobs w).1[i]? = some (.done r)) : r = .ok (.object m) := by
  have hT := (topic_report (env := env) w.st .none (.task (.notify []))).steady
  have hq : Wakes env .report (ReportSince w.st) (fun r _ => r = .ok (.object m)) (waitingReport m) (performJobs env s1 jobs w).2 := by
    refine safe_bind (Q := fun r _ => r = .ok m) ?_ (fun m _ h => by cases h; rfl) fun _ _ h => nomatch h
    refine safe_bind (wakes_set ha he) (fun ok w1 h1 => ?_) fun _ _ h => nomatch h
    cases h1
    exact safe_bind (wakes_forget hT (P := False) fun h => h.elim) (fun _ w2 h2 => rfl) fun _ _ h => nomatch h.1
  obtain ⟨_, h⟩ := woken_among (fun z _ => topic_report w.st _ z) ho hi (wakes_sendJob (env := env) destination text flash hn) hp hq hd
  exact h

/-! ### What can happen when several threads wait, or when the time is over -/

/-- What the threads have ended with. -/
def ends (threads : List (Proc Value)) : List (Option (Except PyErr Value)) :=
  threads.map fun p => match p with
    | .done r => some r
    | _ => none

attribute [local instance] asciiUnicode

def tellsTen : Job := .task (.notify [py!"+CUSD: 2,\"ten\",15"])
def gotTen : Value := .ussd (some ⟨false, some py!"ten"⟩)

/-- Two requests and one result: one thread waits in vain and takes away the event of the other, which has its result, but fails. -/
theorem C78_event_taken :
    ends (performJobs goodModem (List.replicate 4 0 ++ List.replicate 3 1 ++ List.replicate 5 2 ++ List.replicate 3 0 ++ List.replicate 9 1) [.ussd py!"*1#", .ussd py!"*2#", tellsTen] { st := {} }).1 =
      [some (.error (.timeout none)), some (.error .attributeError), some (.ok .nothing)] := by decide +kernel

/-- Two requests and one result: both threads get it. -/
theorem C78_same_result :
    ends (performJobs goodModem (List.replicate 3 0 ++ List.replicate 3 1 ++ List.replicate 5 2 ++ List.replicate 2 0 ++ List.replicate 4 1 ++ List.replicate 2 0) [.ussd py!"*1#", .ussd py!"*2#", tellsTen] { st := {} }).1 =
      [some (.ok gotTen), some (.ok gotTen), some (.ok .nothing)] := by decide +kernel

/-- The result of a request that timed out is taken for that of the next. -/
theorem C78_result_of_other :
    ends (performJobs goodModem (List.replicate 6 0 ++ List.replicate 3 1 ++ List.replicate 5 2 ++ List.replicate 4 1) [.ussd py!"*1#", .ussd py!"*2#", tellsTen] { st := {} }).1 =
      [some (.error (.timeout none)), some (.ok gotTen), some (.ok .nothing)] := by decide +kernel

/-- The time is over when the other thread has seen that there is an event: the other thread fails. -/
theorem C78_told_late :
    ends (performJobs goodModem (List.replicate 3 0 ++ List.replicate 2 1 ++ List.replicate 3 0 ++ List.replicate 3 1) [.ussd py!"*1#", tellsTen] { st := {} }).1 =
      [some (.error (.timeout none)), some (.error .attributeError)] := by decide +kernel

def sendHi : Job := .sendWait py!"12" py!"Hi" false
def reportTold : Job := .task (.message (.statusReport py!"+CDSI: \"SM\",3"))

/-- The report comes before `sendSms` has created its event: the message is known to be delivered, but `sendSms` times out. -/
theorem C78_report_early :
    ends (performJobs (reportModem py!"5") (List.replicate 8 0 ++ List.replicate 12 1 ++ List.replicate 4 0) [sendHi, reportTold] { st := { smsTextMode := true } }).1 =
      [some (.error (.timeout none)), some (.ok .nothing)] ∧
    (performJobs (reportModem py!"5") (List.replicate 8 0 ++ List.replicate 12 1 ++ List.replicate 4 0) [sendHi, reportTold] { st := { smsTextMode := true } }).2.st.sent.map (·.status) = [1] := by decide +kernel

/-- The report of another message comes: `sendSms` returns, although its message is still on its way. -/
theorem C78_report_of_other :
    ends (performJobs (reportModem py!"9") (List.replicate 9 0 ++ List.replicate 13 1 ++ List.replicate 3 0) [sendHi, reportTold] { st := { smsTextMode := true } }).1 =
      [some (.ok (.object 0)), some (.ok .nothing)] ∧
    (performJobs (reportModem py!"9") (List.replicate 9 0 ++ List.replicate 13 1 ++ List.replicate 3 0) [sendHi, reportTold] { st := { smsTextMode := true } }).2.st.sent.map (·.status) = [0] := by decide +kernel

def waitingModem : St := { waitForAtdResponse := true, waitForCallInitUpdate := true, callStatusUpdates := .huawei }
def callBegins : Job := .task (.notify [py!"^ORIG:1,0"])

/-- A call that begins when `dial` has timed out: it goes on, but the program does not know it and cannot end it. -/
theorem C78_call_unknown :
    ends (performJobs goodModem (List.replicate 8 0 ++ List.replicate 5 1) [.dial py!"12" 0 false, callBegins] { st := waitingModem }).1 = [some (.error (.timeout none)), some (.ok .nothing)] ∧
    (performJobs goodModem (List.replicate 8 0 ++ List.replicate 5 1) [.dial py!"12" 0 false, callBegins] { st := waitingModem }).2.st.calls = [] := by decide +kernel

/-- Two threads dial and one call begins: there are two call objects for it, with different numbers. -/
theorem C78_dialled_twice :
    (performJobs goodModem (List.replicate 5 0 ++ List.replicate 5 1 ++ List.replicate 5 2 ++ List.replicate 2 0 ++ List.replicate 5 1 ++ List.replicate 3 0) [.dial py!"12" 0 false, .dial py!"34" 0 false, callBegins]
      { st := waitingModem }).2.st.calls.map (fun c => (c.id, c.number)) = [(1, some py!"34"), (1, some py!"12")] := by decide +kernel

/-! ### The hypotheses can be satisfied -/

def askAndTell : List Job := [.ussd py!"*1#", tellsTen]

theorem onlyWaits_two {x : Slot} {y z : Job} (hz : ¬ WaitsFor x z) : OnlyWaits x 0 [y, z] := by
  intro j a hj ha
  match j with
  | 0 => exact absurd rfl hj
  | 1 => cases ha; exact hz
  | j + 2 => cases ha

/-- The result comes in time. -/
example : ends (performJobs goodModem (List.replicate 3 0 ++ List.replicate 5 1 ++ List.replicate 4 0) askAndTell { st := {} }).1 = [some (.ok gotTen), some (.ok .nothing)] := by decide +kernel

example : UssdAt py!"+CUSD: 2,\"ten\",15" 50 py!"ten" [] :=
  ⟨py!" ", py!"15", rfl, spaces_iff.2 (by decide), by decide, by
    intro a b d h
    have : (34 : Nat) ∈ py!"ten" := h ▸ by simp
    exact absurd this (by decide), ⟨by simp, by decide⟩, by simp⟩

theorem brings_ten : BringsResult .none tellsTen ⟨false, some py!"ten"⟩ := by
  refine .notify ⟨[], [], rfl, by simp, recognise_iff.1 (by decide +kernel)⟩ ?_
  have := parse_means [py!"+CUSD: 2,\"ten\",15"]
  rwa [show parseCusdResponse [py!"+CUSD: 2,\"ten\",15"] = .ok ⟨false, some py!"ten"⟩ by decide +kernel] at this

/-- The two theorems together: the event is set, and so the request ends with a result, whatever comes between. -/
example {s3 : List Nat} {r : Except PyErr Value} (hd : (performJobs goodModem ((List.replicate 3 0 ++ List.replicate 5 1) ++ s3) askAndTell { st := {} }).1[0]? = some (.done r)) :
    ∃ u, r = .ok (.ussd (some u)) := by
  have h := C78_told_ussd (env := goodModem) (jobs := askAndTell) (w := { st := {} }) (fun x e h => nomatch h) (j := 1) (e := 0) rfl brings_ten (s1 := List.replicate 3 0) (s2 := List.replicate 5 1) (by decide)
    (by decide +kernel) (by decide +kernel) (r := .ok .nothing) rfl
  exact C78_woken_ussd (env := goodModem) (jobs := askAndTell) (w := { st := {} }) rfl (onlyWaits_two (fun h => h)) (ls := [py!"OK"]) rfl (fun h => absurd h.1 (by decide)) (e := 0) (by decide +kernel) h.2 hd

/-- A call begins in time. -/
example : ends (performJobs goodModem (List.replicate 5 0 ++ List.replicate 5 1 ++ List.replicate 5 0) [.dial py!"12" 0 false, callBegins] { st := waitingModem }).1 = [some (.ok (.object 0)), some (.ok .nothing)] ∧
    (performJobs goodModem (List.replicate 5 0 ++ List.replicate 5 1 ++ List.replicate 5 0) [.dial py!"12" 0 false, callBegins] { st := waitingModem }).2.events .dial = [true] := by decide +kernel

example : (performJobs goodModem (List.replicate 5 0) [.dial py!"12" 0 false, callBegins] { st := waitingModem }).1[0]? = some (waitingDial py!"12" false) := rfl

example : BringsCall goodModem .huawei callBegins 1 0 := .notify (pre := []) rfl (by simp) (.orig (a := 1) (b := 0) (t := []) (by omega) (by omega) (.inl rfl))

/-- A report comes in time. -/
example : ends (performJobs (reportModem py!"5") (List.replicate 9 0 ++ List.replicate 13 1 ++ List.replicate 3 0) [sendHi, reportTold] { st := { smsTextMode := true } }).1 =
    [some (.ok (.object 0)), some (.ok .nothing)] := by decide +kernel

example : (performJobs (reportModem py!"5") (List.replicate 9 0) [sendHi, reportTold] { st := { smsTextMode := true } }).1[0]? = some (waitingReport 0) := rfl

end Gsm
