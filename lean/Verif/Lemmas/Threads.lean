import Verif.Model.Threads
import Verif.Props.ModemSend
/-! # Methods in steps, without other threads -/
namespace Gsm
open M

variable {env : Env}

namespace Prog

theorem run_bind {α β : Type} (p : Prog α) (f : α → Prog β) (s : St) :
    run env (p >>= f) s = match run env p s with | (.ok a, s') => run env (f a) s' | (.error e, s') => (.error e, s') := by
  show run env (p.bind f) s = _
  induction p generalizing s with
  | done r => cases r <;> rfl
  | io t k ih => exact ih _ _
  | act g k ih => exact ih _ _ _

/-- Without other threads the steps do the same as the method. -/
def Same {α : Type} (p : Prog α) (m : M α) : Prop := ∀ env s, run env p s = m env s

theorem same_bind {α β : Type} {p : Prog α} {m : M α} {f : α → Prog β} {g : α → M β} (h : Same p m) (hf : ∀ a, Same (f a) (g a)) :
    Same (p >>= f) (m >>= g) := by
  intro env s
  rw [run_bind, h, Gsm.run_bind]
  rcases m env s with ⟨e | a, s'⟩
  · rfl
  · exact hf a env s'

theorem same_pure {α : Type} (a : α) : Same (pure a) (pure a) := fun _ _ => rfl
theorem same_raise {α : Type} (e : PyErr) : Same (raise e : Prog α) (M.raise e) := fun _ _ => rfl
theorem same_ofExcept {α : Type} (r : Except PyErr α) : Same (ofExcept r) (M.ofExcept r) := fun _ _ => by cases r <;> rfl
theorem same_look : Same look M.get := fun _ _ => rfl
theorem same_change (f : St → St) : Same (change f) (M.modify f) := fun _ _ => rfl
theorem same_ite {α : Type} {c : Prop} [Decidable c] {p p' : Prog α} {m m' : M α} (h : Same p m) (h' : Same p' m') :
    Same (if c then p else p') (if c then m else m') := by split <;> assumption

theorem same_writeN : ∀ (depth : Nat) (data : PyStr) (pe : Bool) (term : PyStr), Same (writeN depth data pe term) (Gsm.writeN depth data pe term)
  | 0, _, _, _ => fun _ _ => rfl
  | depth + 1, data, pe, term => by
    intro env s
    simp only [writeN, Gsm.writeN, run]
    cases env.reply ((data ++ term) :: s.log) with
    | timeout d => rfl
    | lines ls =>
      dsimp only
      cases ls.getLast? with
      | none => rfl
      | some line =>
        dsimp only
        cases pe with
        | false => rfl
        | true =>
          simp only [if_true]
          cases classify line with
          | fine => rfl
          | failed e => rfl
          | busy code =>
            dsimp only
            rw [run_bind, same_change, run_modify]
            dsimp only
            rw [run_bind, same_writeN depth data true term]
            rcases Gsm.writeN depth data true term env _ with ⟨e | r, s'⟩ <;> rfl

theorem same_write (data : PyStr) (pe : Bool) (term : PyStr) : Same (write data pe term) (Gsm.write data pe term) :=
  fun env s => same_writeN env.depth data pe term env s

theorem same_memory (m : Option PyStr) : Same (setSmsMemory m) (Gsm.setSmsMemory m) := by
  intro env s
  cases m with
  | none => rfl
  | some mem =>
    have h : Same (do
        let s ← look
        if some mem ≠ s.smsMemReadDelete then
          let _ ← write (cpmsCmd mem)
          change fun s => { s with smsMemReadDelete := some mem })
        (do
        let s ← M.get
        if some mem ≠ s.smsMemReadDelete then
          let _ ← Gsm.write (cpmsCmd mem)
          M.modify fun s => { s with smsMemReadDelete := some mem }) :=
      same_bind same_look fun _ => same_ite (same_bind (same_write _ _ _) fun _ => same_change _) (same_pure ())
    refine (h env s).trans ?_
    unfold Gsm.setSmsMemory
    rw [Gsm.run_bind, Gsm.run_bind, run_get]
    dsimp only
    rw [if_neg (c := none ≠ none ∧ none ≠ s.smsMemWrite) (fun h => h.1 rfl)]

theorem same_read (i : PyStr) (m : Option PyStr) : Same (readStoredSms i m) (Gsm.readStoredSms i m) :=
  same_bind (same_memory m) fun _ => same_bind (same_write _ _ _) fun _ => same_bind same_look fun _ => same_ofExcept _

theorem same_delete (i : PyStr) (m : Option PyStr) : Same (deleteStoredSms i m) (Gsm.deleteStoredSms i m) :=
  same_bind (same_memory m) fun _ => same_bind (same_write _ _ _) fun _ => same_pure _

theorem same_deleteMultiple (f : Int) (m : Option PyStr) : Same (deleteMultipleStoredSms f m) (Gsm.deleteMultipleStoredSms f m) :=
  same_ite (same_bind (same_memory m) fun _ => same_bind (same_write _ _ _) fun _ => same_pure _) (same_raise _)

theorem same_deleteAll : ∀ is, Same (deleteAll is) (Gsm.deleteAll is)
  | [] => same_pure _
  | _ :: is => same_bind (same_delete _ _) fun _ => same_deleteAll is

theorem same_deleteListed (st : Int) (d : Bool) (is : List Int) : Same (deleteListed st d is) (Gsm.deleteListed st d is) :=
  same_ite (same_ite (same_deleteMultiple _ _) fun env s => same_deleteAll (env.order is) env s) (same_pure _)

theorem same_list (st : Int) (m : Option PyStr) (d : Bool) : Same (listStoredSms st m d) (Gsm.listStoredSms st m d) :=
  same_bind (same_memory m) fun _ => same_bind same_look fun _ => same_bind (same_ofExcept _) fun _ => same_bind (same_write _ _ _) fun _ =>
    same_bind (same_ofExcept _) fun _ => same_bind (same_deleteListed _ _ _) fun _ => same_pure _

theorem same_callback (c : Callback) : Same (callback c) (Gsm.callback c) := same_change _

theorem same_received (l : PyStr) : Same (handleSmsReceived l) (Gsm.handleSmsReceived l) := by
  unfold handleSmsReceived Gsm.handleSmsReceived
  rcases rxGroups cmtiRegex l with _ | ⟨_ | ⟨a, _ | ⟨b, _ | ⟨c, g⟩⟩⟩⟩ <;> try exact same_pure _
  exact same_bind (same_read _ _) fun _ => same_bind (same_delete _ _) fun _ => same_callback _

theorem same_statusReport (l : PyStr) : Same (handleSmsStatusReport l) (Gsm.handleSmsStatusReport l) := by
  unfold handleSmsStatusReport Gsm.handleSmsStatusReport
  rcases rxGroups cdsiRegex l with _ | ⟨_ | ⟨a, _ | ⟨b, _ | ⟨c, g⟩⟩⟩⟩ <;> try exact same_pure _
  refine same_bind (same_read _ _) fun report => same_bind (same_delete _ _) fun _ => ?_
  cases report with
  | received => exact same_raise _
  | report st r n t1 t2 d =>
    refine same_bind (same_change _) fun _ => ?_
    intro env s
    simp only [run, Gsm.run_bind, run_get]
    by_cases h : s.smsStatusReportEvent.isSome
    · simp only [h, if_true]; rfl
    · simp only [h]; rfl

theorem same_sendPdus : ∀ (ps : List Pdu) (r : Option PyStr), Same (sendPdus ps r) (Gsm.sendPdus ps r)
  | [], _ => same_pure _
  | _ :: ps, _ => same_bind (same_write _ _ _) fun _ => same_bind (same_write _ _ _) fun _ => same_sendPdus ps _

theorem same_textMode (v : Bool) : Same (setSmsTextMode v) (Gsm.setSmsTextMode v) := by
  intro env s
  unfold setSmsTextMode Gsm.setSmsTextMode
  rw [run_bind, Gsm.run_bind, same_look, run_get]
  dsimp only
  by_cases h : v ≠ s.smsTextMode
  · rw [if_pos h, if_pos h, run_bind, same_look, run_get]
    dsimp only
    by_cases ha : s.alive = true
    · rw [if_pos ha, if_pos ha]
      exact same_bind (same_write _ _ _) (fun _ => same_change _) env s
    · rw [if_neg ha, if_neg ha]
      exact same_change _ env s
  · rw [if_neg h, if_neg h]; rfl

/-- What follows when the modem has taken the message. -/
theorem run_recordSent (d t : PyStr) (r : Int) (s : St) : run env (recordSent d t r) s = (.ok s.sent.length, (Gsm.recordSent d t r env s).2) := by
  unfold recordSent Gsm.recordSent
  rw [run_bind, same_change, run_modify]
  dsimp only
  rw [run_bind, same_look, run_get]
  dsimp only
  by_cases h : r + 1 > 255
  · rw [if_pos h, run_bind, same_change, run_modify, run_modify, if_pos h]; rfl
  · rw [if_neg h, run_modify, if_neg h]; rfl

theorem sf_sendPdus : ∀ (ps : List Pdu) (r : Option PyStr), Steps env SmsFrame (Gsm.sendPdus ps r)
  | [], _ => by unfold Gsm.sendPdus; sframe
  | _ :: ps, _ => by
    have := fun r => sf_sendPdus ps r
    unfold Gsm.sendPdus; sframe <;> exact this _

theorem sf_sendCommands [PyUnicode] (d t : PyStr) (f : Bool) (s : St) : Steps env SmsFrame (sendCommands d t f s) := by
  unfold sendCommands; sframe <;> exact sf_sendPdus _ _

theorem same_send [PyUnicode] (d t : PyStr) (f : Bool) : Same (sendSms d t f) (Gsm.sendSms d t f) := by
  intro env s
  rw [sendSms_eq, Gsm.run_bind]
  unfold sendSms
  rw [run_bind]
  have hc : run env (sendAll d t f) s = sendCommands d t f s env s := by
    unfold sendCommands sendAll
    rw [run_bind, same_look, run_get]
    dsimp only
    by_cases h : s.smsTextMode = true
    · rw [if_pos h, if_pos h]
      exact same_bind (same_write _ _ _) (fun _ => same_bind (same_write _ _ _) fun _ => same_pure _) env s
    · rw [if_neg h, if_neg h, run_bind, same_look, run_get]
      exact same_bind (same_ofExcept _) (fun _ => same_sendPdus _ _) env s
  rw [hc]
  have hs := ((sf_sendCommands d t f s).run s (env := env)).2
  generalize sendCommands d t f s env s = x at hs
  rcases x with ⟨e | r, s'⟩
  · rfl
  · simp only [smsPart, Prod.mk.injEq] at hs
    dsimp only
    cases r with
    | none => rfl
    | some l =>
      unfold sendFinish Gsm.sendFinish
      dsimp only
      rw [run_bind, Gsm.run_bind, same_ofExcept (pyInt (l.drop 7)) env s', run_ofExcept]
      rcases pyInt (l.drop 7) with e | r
      · rfl
      · dsimp only
        rw [run_recordSent, hs.2.2.1, Gsm.run_bind]
        rfl

/-! ### With other threads -/

/-- Every step does `G`, whatever the other threads do in between, as long as they keep `P`; a result has the property `Q`. -/
def Keeps {α : Type} (env : Env) (P : St → Prop) (G : St → St → Prop) (Q : α → Prop) : Prog α → Prop
  | done (.ok a) => Q a
  | done (.error _) => True
  | io t k => ∀ s, P s → G s { s with log := t :: s.log } ∧ Keeps env P G Q (k (env.reply (t :: s.log)))
  | act f k => ∀ s, P s → G s (f env s) ∧ Keeps env P G Q (k env s)

/-- Any result. -/
def Any {α : Type} : α → Prop := fun _ => True

variable {P : St → Prop} {G : St → St → Prop}

theorem keeps_bind {α β : Type} {Q : α → Prop} {R : β → Prop} {p : Prog α} {f : α → Prog β} (h : Keeps env P G Q p) (hf : ∀ a, Q a → Keeps env P G R (f a)) :
    Keeps env P G R (p >>= f) := by
  show Keeps env P G R (p.bind f)
  induction p with
  | done r =>
    cases r with
    | ok a => exact hf a h
    | error e => trivial
  | io t k ih => exact fun s hs => ⟨(h s hs).1, ih _ (h s hs).2⟩
  | act g k ih => exact fun s hs => ⟨(h s hs).1, ih _ _ (h s hs).2⟩

theorem keeps_mono {α : Type} {Q R : α → Prop} {p : Prog α} (h : Keeps env P G Q p) (hq : ∀ a, Q a → R a) : Keeps env P G R p := by
  induction p with
  | done r =>
    cases r with
    | ok a => exact hq a h
    | error e => trivial
  | io t k ih => exact fun s hs => ⟨(h s hs).1, ih _ (h s hs).2⟩
  | act g k ih => exact fun s hs => ⟨(h s hs).1, ih _ _ (h s hs).2⟩

theorem keeps_pure {α : Type} {Q : α → Prop} {a : α} (h : Q a) : Keeps env P G Q (pure a : Prog α) := h
theorem keeps_raise {α : Type} {Q : α → Prop} (e : PyErr) : Keeps env P G Q (raise e : Prog α) := trivial
theorem keeps_ofExcept {α : Type} (r : Except PyErr α) : Keeps env P G (fun a => r = .ok a) (ofExcept r) := by
  cases r with
  | ok a => exact rfl
  | error e => trivial
theorem keeps_change {f : St → St} (h : ∀ s, P s → G s (f s)) : Keeps env P G Any (change f) := fun s hs => ⟨h s hs, trivial⟩

theorem keeps_ite {α : Type} {Q : α → Prop} {c : Prop} [Decidable c] {p p' : Prog α} (h : c → Keeps env P G Q p) (h' : ¬ c → Keeps env P G Q p') :
    Keeps env P G Q (if c then p else p') := by
  split
  · exact h ‹_›
  · exact h' ‹_›

theorem keeps_step {α : Type} {Q : α → Prop} {p : Prog α} {s : St} (h : Keeps env P G Q p) (hr : ∀ s, P s → G s s) (hs : P s) :
    Keeps env P G Q (p.step env s).1 ∧ G s (p.step env s).2 := by
  cases p with
  | done r => exact ⟨h, hr s hs⟩
  | io t k => exact ⟨(h s hs).2, (h s hs).1⟩
  | act f k => exact ⟨(h s hs).2, (h s hs).1⟩

theorem keeps_set {threads : List (Prog Unit)} {s : St} {i : Nat} {p : Prog Unit} (h : ∀ p ∈ threads, Keeps env P G Any p) (hr : ∀ s, P s → G s s) (hs : P s)
    (hp : threads[i]? = some p) : ∀ q ∈ threads.set i (p.step env s).1, Keeps env P G Any q := by
  intro q hq
  rcases List.mem_or_eq_of_mem_set hq with hq | rfl
  · exact h q hq
  · exact (keeps_step (h p (List.mem_of_getElem? hp)) hr hs).1

theorem keeps_threads (hr : ∀ s, P s → G s s) (hg : ∀ s s', P s → G s s' → P s') : ∀ (schedule : List Nat) (threads : List (Prog Unit)) (s : St),
    (∀ p ∈ threads, Keeps env P G Any p) → P s → P (runThreads env schedule (threads, s)).2
  | [], _, _, _, hs => hs
  | i :: is, threads, s, h, hs => by
    unfold runThreads
    cases hp : threads[i]? with
    | none => exact keeps_threads hr hg is threads s h hs
    | some p => exact keeps_threads hr hg is _ _ (keeps_set h hr hs hp) (hg _ _ hs (keeps_step (h p (List.mem_of_getElem? hp)) hr hs).2)

/-- The lines are an answer of the modem. -/
def Answer (env : Env) (ls : List PyStr) : Prop := ∃ log, env.reply log = .lines ls

/-- The waiting time, looking, and commands with the property `C` are all right. -/
structure Writes (P : St → Prop) (G : St → St → Prop) (C : PyStr → Prop) : Prop where
  look : ∀ s, P s → G s s
  wait : ∀ s (n : Nat), P s → G s { s with writeWait := n }
  log : ∀ s c, C c → P s → G s { s with log := c :: s.log }

variable {C : PyStr → Prop}

/-- Looking at the state. -/
theorem keeps_look {α : Type} {Q : α → Prop} {f : St → Prog α} (hw : Writes P G C) (hf : ∀ s, P s → Keeps env P G Q (f s)) : Keeps env P G Q (look >>= f) :=
  fun s hs => ⟨hw.look s hs, hf s hs⟩

theorem keeps_writeN (hw : Writes P G C) {data term : PyStr} {pe : Bool} (hc : C (data ++ term)) : ∀ depth, Keeps env P G (Answer env) (writeN depth data pe term)
  | 0 => trivial
  | depth + 1 => by
    have ih := keeps_writeN (pe := pe) hw hc depth
    intro s hs
    refine ⟨hw.log s _ hc hs, ?_⟩
    cases hr : env.reply ((data ++ term) :: s.log) with
    | timeout d => trivial
    | lines ls =>
      dsimp only
      cases ls.getLast? with
      | none => trivial
      | some line =>
        dsimp only
        cases pe with
        | false => exact keeps_pure ⟨_, hr⟩
        | true =>
          simp only [if_true]
          cases classify line with
          | fine => exact keeps_pure ⟨_, hr⟩
          | failed e => trivial
          | busy code =>
            exact keeps_bind (keeps_change fun s h => hw.wait s _ h) fun _ _ => keeps_bind ih fun _ hr =>
              keeps_bind (keeps_change fun s h => hw.wait s _ h) fun _ _ => keeps_pure hr

theorem keeps_write (hw : Writes P G C) {data term : PyStr} {pe : Bool} (hc : C (data ++ term)) : Keeps env P G (Answer env) (write data pe term) :=
  fun s hs => ⟨hw.look s hs, keeps_writeN hw hc _⟩

/-! ### What a thread has done at its end -/

/-- The thread takes its steps after changes `R` by the others; `Q` holds at its end. -/
def Ends {α : Type} (env : Env) (R : St → St → Prop) (Q : Except PyErr α → St → Prop) : Prog α → St → Prop
  | done r, s => Q r s
  | io t k, s => ∀ s', R s s' → Ends env R Q (k (env.reply (t :: s'.log))) { s' with log := t :: s'.log }
  | act f k, s => ∀ s', R s s' → Ends env R Q (k env s') (f env s')

variable {R : St → St → Prop}

theorem ends_bind {α β : Type} {Q : Except PyErr α → St → Prop} {Q' : Except PyErr β → St → Prop} {p : Prog α} {f : α → Prog β} {s : St}
    (h : Ends env R Q p s) (hf : ∀ a s, Q (.ok a) s → Ends env R Q' (f a) s) (he : ∀ e s, Q (.error e) s → Q' (.error e) s) : Ends env R Q' (p >>= f) s := by
  show Ends env R Q' (p.bind f) s
  induction p generalizing s with
  | done r =>
    cases r with
    | ok a => exact hf a s h
    | error e => exact he e s h
  | io t k ih => exact fun s' hs => ih _ (h s' hs)
  | act g k ih => exact fun s' hs => ih _ _ (h s' hs)

theorem ends_threads (hrefl : ∀ s, R s s) (htrans : ∀ a b c, R a b → R b c → R a c) (hr : ∀ s, P s → G s s) (hg : ∀ s s', P s → G s s' → P s' ∧ R s s')
    {Q : Except PyErr Unit → St → Prop} {i : Nat} :
    ∀ (schedule : List Nat) (threads : List (Prog Unit)) (s s1 : St) (p : Prog Unit), (∀ p ∈ threads, Keeps env P G Any p) → P s → threads[i]? = some p →
      Ends env R Q p s1 → R s1 s → ∀ r, (runThreads env schedule (threads, s)).1[i]? = some (done r) → ∃ s2, Q r s2 ∧ R s2 (runThreads env schedule (threads, s)).2
  | [], threads, s, s1, p, _, _, hp, he, hs, r, hd => by
    have hd' : threads[i]? = some (done r) := hd
    rw [hp] at hd'
    cases hd'
    exact ⟨s1, he, hs⟩
  | j :: is, threads, s, s1, p, h, hP, hp, he, hs, r, hd => by
    unfold runThreads at hd ⊢
    cases hj : threads[j]? with
    | none =>
      simp only [hj] at hd ⊢
      exact ends_threads hrefl htrans hr hg is threads s s1 p h hP hp he hs r hd
    | some q =>
      simp only [hj] at hd ⊢
      have hk := keeps_step (h q (List.mem_of_getElem? hj)) hr hP
      have hg' := hg _ _ hP hk.2
      have hset := keeps_set h hr hP hj
      by_cases hij : j = i
      · subst hij
        rw [hp] at hj
        cases hj
        have hlen : j < threads.length := (List.getElem?_eq_some_iff.1 hp).1
        have hp' : (threads.set j (p.step env s).1)[j]? = some (p.step env s).1 := by simp [hlen]
        cases p with
        | done r' => exact ends_threads hrefl htrans hr hg is _ s s1 _ hset hP hp' he hs r hd
        | io t k => exact ends_threads hrefl htrans hr hg is _ _ _ _ hset hg'.1 hp' (he s hs) (hrefl _) r hd
        | act f k => exact ends_threads hrefl htrans hr hg is _ _ _ _ hset hg'.1 hp' (he s hs) (hrefl _) r hd
      · have hp' : (threads.set j (q.step env s).1)[i]? = some p := by rw [List.getElem?_set_ne hij]; exact hp
        exact ends_threads hrefl htrans hr hg is _ _ s1 _ hset hg'.1 hp' he (htrans _ _ _ hs hg'.2) r hd

end Prog
end Gsm
