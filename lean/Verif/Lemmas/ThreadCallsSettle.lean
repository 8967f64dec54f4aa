import Verif.Lemmas.ThreadCallsEnd
/-! # No call of the table is over when all threads have finished -/
namespace Gsm
open M Spec

variable {env : Env}

namespace Prog

/-- The next step removes the id. -/
def Removes {α : Type} (env : Env) (k : Int) : Prog α → Prop
  | act f _ => ∀ s, k ∉ (f env s).activeCalls.map (·.1)
  | _ => False

/-- The next step looks whether the id is in the table, and the step after it removes it then. -/
def Clears {α : Type} (env : Env) (k : Int) : Prog α → Prop
  | act f g => ∀ s, f env s = s ∧ (k ∈ s.activeCalls.map (·.1) → Removes env k (g env s))
  | _ => False

def Due {α : Type} (env : Env) (k : Int) (p : Prog α) : Prop := Removes env k p ∨ Clears env k p

/-- Whatever the others do before each step: if the step leaves a call in the table that is over and was not before, the thread is going to remove its id.
`Q` holds at the end. -/
def Orderly {α : Type} (env : Env) (Q : α → St → Prop) : Prog α → St → Prop
  | done (.ok a), s => Q a s
  | done (.error _), _ => True
  | io t g, s => ∀ s', CallsGrow s s' → TableKeyed s' → Orderly env Q (g (env.reply (t :: s'.log))) { s' with log := t :: s'.log }
  | act f g, s => ∀ s', CallsGrow s s' → TableKeyed s' → (∀ k i, Stale (f env s') k i → Stale s' k i ∨ Due env k (g env s')) ∧ Orderly env Q (g env s') (f env s')

/-- Nothing. -/
abbrev Any2 {α : Type} : α → St → Prop := fun _ _ => True

theorem removes_bind {α β : Type} {k : Int} {p : Prog α} {f : α → Prog β} (h : Removes env k p) : Removes env k (p >>= f) := by
  cases p <;> first | exact h | exact h.elim

theorem clears_bind {α β : Type} {k : Int} {p : Prog α} {f : α → Prog β} (h : Clears env k p) : Clears env k (p >>= f) := by
  cases p with
  | act g k => exact fun s => ⟨(h s).1, fun hs => removes_bind ((h s).2 hs)⟩
  | _ => exact h.elim

theorem due_bind {α β : Type} {k : Int} {p : Prog α} {f : α → Prog β} (h : Due env k p) : Due env k (p >>= f) := h.imp removes_bind clears_bind

theorem orderly_bind {α β : Type} {Q : α → St → Prop} {Q' : β → St → Prop} {p : Prog α} {f : α → Prog β} {s : St} (h : Orderly env Q p s) (hf : ∀ a s, Q a s → Orderly env Q' (f a) s) :
    Orderly env Q' (p >>= f) s := by
  show Orderly env Q' (p.bind f) s
  induction p generalizing s with
  | done r =>
    cases r with
    | ok a => exact hf a s h
    | error e => trivial
  | io t k ih => exact fun s1 h1 h2 => ih _ (h s1 h1 h2)
  | act g k ih => exact fun s1 h1 h2 => ⟨fun key i hs => ((h s1 h1 h2).1 key i hs).imp_right due_bind, ih _ _ (h s1 h1 h2).2⟩

theorem orderly_mono {α : Type} {Q Q' : α → St → Prop} {p : Prog α} {s : St} (h : Orderly env Q p s) (hq : ∀ a s, Q a s → Q' a s) : Orderly env Q' p s := by
  induction p generalizing s with
  | done r =>
    cases r with
    | ok a => exact hq a s h
    | error e => trivial
  | io t k ih => exact fun s1 h1 h2 => ih _ (h s1 h1 h2)
  | act g k ih => exact fun s1 h1 h2 => ⟨(h s1 h1 h2).1, ih _ _ (h s1 h1 h2).2⟩

/-- A program that ends no calls. -/
theorem orderly_stay {α : Type} {p : Prog α} (h : Keeps env Always CallsStay Any p) (s : St) : Orderly env (fun _ s' => CallsGrow s s') p s := by
  suffices hh : ∀ s1, CallsGrow s s1 → Orderly env (fun _ s' => CallsGrow s s') p s1 from hh s (.rfl s)
  induction p with
  | done r =>
    cases r with
    | ok a => exact fun s1 h1 => h1
    | error e => exact fun _ _ => trivial
  | io t k ih => exact fun s1 h1 s2 h2 _ => ih _ (h s2 trivial).2 _ ((h1.trans h2).trans (h s2 trivial).1.grow)
  | act f k ih => exact fun s1 h1 s2 h2 _ => ⟨fun key i hs => .inl ((h s2 trivial).1.stale key i hs), ih _ _ (h s2 trivial).2 _ ((h1.trans h2).trans (h s2 trivial).1.grow)⟩

theorem orderly_look {α : Type} {Q : α → St → Prop} {f : St → Prog α} {s : St} (h : ∀ s', CallsGrow s s' → TableKeyed s' → Orderly env Q (f s') s') : Orderly env Q (look >>= f) s :=
  fun s1 h1 h2 => ⟨fun _ _ hs => .inl hs, h s1 h1 h2⟩

theorem orderly_ofExcept {α β : Type} {Q : β → St → Prop} {r : Except PyErr α} {f : α → Prog β} {s : St} (h : ∀ a, r = .ok a → Orderly env Q (f a) s) : Orderly env Q (ofExcept r >>= f) s := by
  cases r with
  | ok a => exact h a rfl
  | error e => trivial

/-- A call is over; its id is removed next. -/
theorem stale_inactive {s : St} {i : Nat} {c : CallObj} (ht : TableKeyed s) (hc : s.calls[i]? = some c) {k : Int} {j : Nat}
    (h : Stale { s with calls := s.calls.modify i fun c => { c with active := false } } k j) : Stale s k j ∨ k = c.id := by
  obtain ⟨h1, d, h2, h3⟩ := h
  replace h2 : (s.calls.modify i fun c => { c with active := false })[j]? = some d := h2
  rw [List.getElem?_modify] at h2
  by_cases hij : i = j
  · subst hij
    obtain ⟨c', h4, h5⟩ := ht.2 k i h1
    rw [hc] at h4
    cases h4
    exact .inr h5.symm
  · cases hj : s.calls[j]? with
    | none => simp [hj] at h2
    | some e =>
      simp [hj, hij] at h2
      exact .inl ⟨h1, d, by rw [hj, h2], h3⟩

theorem orderly_remove {k : Int} {s : St} : Orderly env Any2 (removeCall k) s := fun s1 _ _ => ⟨fun key i hs => .inl (stale_remove key i hs), by
  show Orderly env Any2 (if _ then _ else _) _
  split <;> trivial⟩

theorem removes_remove {k : Int} : Removes env k (removeCall k) := fun s => del_key

theorem orderly_lookUp {α : Type} {Q : α → St → Prop} {f : Nat → Prog α} {k : Int} {s : St}
    (h : ∀ s' i c, CallsGrow s s' → s'.calls[i]? = some c → c.id = k → Orderly env Q (f i) s') : Orderly env Q (lookUp k >>= f) s := by
  refine fun s1 h1 h2 => ⟨fun _ _ hs => .inl hs, ?_⟩
  show Orderly env Q ((match dictGet s1.activeCalls k with | some i => pure i | none => raise .keyError : Prog Nat) >>= f) s1
  cases hg : dictGet s1.activeCalls k with
  | none => trivial
  | some i =>
    obtain ⟨c, h3, h4⟩ := h2.2 k i (dictGet_mem hg)
    exact h s1 i c h1 h3 h4

theorem orderly_endCall : ∀ (k : Option Int) (s : St), Orderly env Any2 (endCall k) s
  | none, _ => trivial
  | some k, s => by
    unfold endCall
    dsimp only
    split
    · refine orderly_look fun s1 _ _ => ?_
      split
      · refine orderly_lookUp fun s2 i _ _ _ _ => orderly_bind (orderly_stay (keeps_setAnswered callStable_stay i false) s2) fun _ s3 _ => ?_
        refine orderly_lookUp fun s4 i c _ hc hk => ?_
        intro s5 h5 ht
        obtain ⟨c', h6, h7⟩ := h5.calls i c hc
        refine ⟨fun key j hs => (stale_inactive ht h6 hs).imp_right fun h => .inl ?_, orderly_remove⟩
        rw [h, h7.id, hk]
        exact removes_remove
      · trivial
    · trivial

theorem orderly_ended (k : Option Int) (search f : Bool) (s : St) : Orderly env Any2 (handleCallEnded k search f) s := by
  unfold handleCallEnded
  split
  · refine orderly_look fun s1 _ _ => orderly_bind (orderly_stay (keeps_firstOutgoing callStable_stay _ _ _) s1) fun r s2 _ => ?_
    cases r with
    | none => exact orderly_endCall k s2
    | some i => exact orderly_look fun s3 _ _ => orderly_endCall _ s3
  · exact orderly_endCall k s

/-- A program that ends no calls, with any result. -/
theorem orderly_other {α : Type} {p : Prog α} (h : Keeps env Always CallsStay Any p) (s : St) : Orderly env Any2 p s := orderly_mono (orderly_stay h s) fun _ _ _ => trivial

theorem orderly_handler (hd : CallHandler) (g : List PyStr) (s : St) : Orderly env Any2 (runCallHandler hd g) s := by
  cases hd with
  | initiated => exact orderly_other (keeps_handler callStable_stay .initiated g (by simp)) s
  | answered => exact orderly_other (keeps_handler callStable_stay .answered g (by simp)) s
  | ended =>
    rcases g with _ | ⟨g0, g⟩
    · exact orderly_ended _ _ _ _
    · exact orderly_ofExcept fun _ _ => orderly_ended _ _ _ _
  | rejected =>
    rcases g with _ | ⟨g0, g⟩
    · exact orderly_ended _ _ _ _
    · exact orderly_ofExcept fun _ _ => orderly_ended _ _ _ _

theorem orderly_dispatch (lines : List PyStr) : ∀ (ls : List PyStr) (s : St), Orderly env Any2 (dispatchLoop lines ls) s
  | [], _ => trivial
  | l :: ls, s => orderly_look fun s1 _ _ => by
    cases recognise (callTable s1.callStatusUpdates) l with
    | none => exact orderly_dispatch lines ls s1
    | some d =>
      cases d with
      | ring => exact orderly_other (keeps_incoming callStable_stay trivial _) s1
      | cmti => exact orderly_other (keeps_received (callStable_messages callStable_stay) fun _ _ _ => trivial) s1
      | cusd => exact orderly_other (keeps_ussd callStable_stay _) s1
      | cdsi => exact orderly_other (keeps_statusReport (callStable_messages callStable_stay) fun _ _ _ => trivial) s1
      | call hd g => exact orderly_handler hd g s1

theorem orderly_pollStep (p : Poller) (r : Option (Int × Int × Int × Int)) (s : St) : Orderly env Any2 (pollStep p r) s := by
  rcases r with _ | ⟨a, b, c, d⟩
  · show Orderly env Any2 (if _ then _ else _) _
    split
    · exact orderly_bind (orderly_ended _ _ _ _) fun _ _ _ => trivial
    · split
      · exact orderly_bind (orderly_ended _ _ _ _) fun _ _ _ => trivial
      · trivial
  · refine orderly_other ?_ s
    exact keeps_ite (fun _ => keeps_ite (fun _ => keeps_ite (fun _ => keeps_bind (keeps_initiated callStable_stay _ _) fun _ _ => trivial) fun _ => trivial)
      fun _ => keeps_ite (fun _ => keeps_ite (fun _ => keeps_bind (keeps_answered callStable_stay _) fun _ _ => trivial) fun _ => trivial) fun _ => trivial) fun _ => trivial

theorem orderly_poll : ∀ (n : Nat) (p : Poller) (s : St), Orderly env Any2 (poll n p) s
  | 0, _, _ => trivial
  | n + 1, p, s => by
    refine orderly_bind (Q := Any2) (orderly_look fun s1 _ _ => ?_) fun p' s2 _ => ?_
    · split
      · exact orderly_bind (orderly_other (keeps_clcc callStable_stay) s1) fun r s2 _ => orderly_pollStep _ _ _
      · trivial
    · split
      · trivial
      · exact orderly_poll n p' s2

theorem orderly_removeIfThere {k : Int} {s : St} : Orderly env Any2 (removeIfThere k) s := orderly_look fun s1 _ _ => by
  split
  · exact orderly_remove
  · trivial

theorem clears_removeIfThere {k : Int} : Clears env k (removeIfThere k) := fun s => ⟨rfl, fun hk => by
  show Removes env k (if _ then _ else _)
  rw [if_pos (isSome_key.2 hk)]
  exact removes_remove⟩

theorem bind_assoc' {α β γ : Type} (p : Prog α) (f : α → Prog β) (g : β → Prog γ) : (p >>= f) >>= g = p >>= fun a => f a >>= g := by
  show (p.bind f).bind g = p.bind fun a => (f a).bind g
  induction p with
  | done r => cases r <;> rfl
  | io t k ih => exact congrArg (io t) (funext fun r => ih r)
  | act h k ih => exact congrArg (act h) (funext fun e => funext fun s => ih e s)

theorem orderly_hangup (i : Nat) (s : St) : Orderly env Any2 (hangup i) s := by
  refine orderly_bind (orderly_stay (keeps_stopRinging callStable_stay i) s) fun _ s1 _ => orderly_look fun s2 _ _ => ?_
  cases hc : s2.calls[i]? with
  | none => trivial
  | some c =>
    dsimp only
    unfold hangupActive
    split
    · show Orderly env Any2 ((write py!"ATH" >>= fun _ => _) >>= _) s2
      rw [bind_assoc']
      refine orderly_bind (orderly_stay (any (keeps_write (callStable_writes callStable_stay) trivial)) s2) fun _ s3 h3 => ?_
      rw [bind_assoc']
      refine orderly_bind (orderly_stay (keeps_setAnswered callStable_stay i false) s3) fun _ s4 h4 => ?_
      intro s5 h5 ht
      obtain ⟨c', h6, h7⟩ := ((h3.trans h4).trans h5).calls i c hc
      refine ⟨fun key j hs => (stale_inactive ht h6 hs).imp_right fun h => .inr ?_, orderly_removeIfThere⟩
      rw [h, h7.id]
      exact clears_removeIfThere
    · exact orderly_removeIfThere

theorem orderly_task [PyUnicode] (x : Task) (s : St) : Orderly env Any2 x.prog s := by
  cases x with
  | message m => exact orderly_other (keeps_task callStable_stay (.message m) (fun _ => trivial) fun h => h trivial) s
  | notify lines => exact orderly_dispatch lines lines s
  | poll n p => exact orderly_poll n p s
  | dial n cb => exact orderly_other (keeps_dialNow callStable_stay trivial n cb) s
  | answer i => exact orderly_other (keeps_answer callStable_stay i) s
  | hangup i => exact orderly_hangup i s
  | dtmf i t => exact orderly_other (keeps_dtmf callStable_stay i t) s

/-- Some thread is going to remove every entry whose call is over. -/
def Attended (env : Env) (threads : List (Prog Unit)) (s : St) : Prop := ∀ k i, Stale s k i → ∃ p ∈ threads, Due env k p

theorem attended_threads : ∀ (schedule : List Nat) (threads : List (Prog Unit)) (s : St), (∀ p ∈ threads, Keeps env Always CallsGrow Any p) →
    (∀ p ∈ threads, ∃ s0, CallsGrow s0 s ∧ Orderly env Any2 p s0) → TableKeyed s → Attended env threads s →
    Attended env (runThreads env schedule (threads, s)).1 (runThreads env schedule (threads, s)).2
  | [], _, _, _, _, _, h => h
  | i :: is, threads, s, hk, ho, ht, h => by
    unfold runThreads
    cases hp : threads[i]? with
    | none => exact attended_threads is threads s hk ho ht h
    | some p =>
      obtain ⟨hlen, hget⟩ := List.getElem?_eq_some_iff.1 hp
      have hmemp := List.mem_of_getElem? hp
      have hstep := keeps_step (s := s) (hk p hmemp) (fun s _ => CallsGrow.rfl s) trivial
      have hmem : (p.step env s).1 ∈ threads.set i (p.step env s).1 := List.mem_of_getElem (i := i) (h := by simpa using hlen) (by simp)
      refine attended_threads is _ _ (keeps_set hk (fun s _ => .rfl s) trivial hp) (fun q hq => ?_) (hstep.2.table ht) fun k j hs => ?_
      · rcases List.mem_or_eq_of_mem_set hq with hq | rfl
        · obtain ⟨s0, h1, h2⟩ := ho q hq
          exact ⟨s0, h1.trans hstep.2, h2⟩
        · obtain ⟨s0, h1, h2⟩ := ho p hmemp
          refine ⟨_, .rfl _, ?_⟩
          cases p with
          | done r => cases r <;> trivial
          | io t g => exact h2 s h1 ht
          | act f g => exact (h2 s h1 ht).2
      · -- an old entry
        have hold : Stale s k j → (Due env k p → Due env k (p.step env s).1) → ∃ q ∈ threads.set i (p.step env s).1, Due env k q := by
          intro hs hnew
          obtain ⟨q, hq, hc⟩ := h k j hs
          obtain ⟨m, hm, rfl⟩ := List.mem_iff_getElem.1 hq
          by_cases him : i = m
          · subst him
            rw [hget] at hc
            exact ⟨_, hmem, hnew hc⟩
          · exact ⟨threads[m], List.mem_of_getElem (i := m) (h := by simpa using hm) (by simp [him]), hc⟩
        obtain ⟨s0, h1, h2⟩ := ho p hmemp
        cases p with
        | done r => exact hold hs id
        | io t g => exact hold hs fun h => h.elim False.elim False.elim
        | act f g =>
          rcases (h2 s h1 ht).1 k j hs with h3 | h3
          · refine hold h3 fun hd => ?_
            rcases hd with hd | hd
            · exact absurd (List.mem_map.2 ⟨_, hs.1, rfl⟩) (hd s)
            · exact .inl ((hd s).2 (List.mem_map.2 ⟨_, h3.1, rfl⟩))
          · exact ⟨_, hmem, h3⟩

end Prog
end Gsm
