import Verif.Lemmas.ThreadCallsEnd
import Verif.Spec.DialExamples
/-! # What a thread has written when other threads took steps in between -/
namespace Gsm
open Spec

variable {env : Env}

namespace Prog

/-- The thread has written `acc`; it takes its steps after changes `R` by the others. `I` holds of what it has written at all times, `Q` at its end. -/
def Traces {α : Type} (env : Env) (R : St → St → Prop) (I : List (PyStr × Reply) → Prop) (Q : List (PyStr × Reply) → Except PyErr α → St → Prop) :
    List (PyStr × Reply) → Prog α → St → Prop
  | acc, done r, s => I acc ∧ Q acc r s
  | acc, io t k, s => I acc ∧ ∀ s', R s s' → Traces env R I Q (acc ++ [(t, env.reply (t :: s'.log))]) (k (env.reply (t :: s'.log))) { s' with log := t :: s'.log }
  | acc, act f k, s => I acc ∧ ∀ s', R s s' → Traces env R I Q acc (k env s') (f env s')

variable {R : St → St → Prop} {I : List (PyStr × Reply) → Prop} {acc : List (PyStr × Reply)}

theorem traces_now {α : Type} {Q : List (PyStr × Reply) → Except PyErr α → St → Prop} {p : Prog α} {s : St} (h : Traces env R I Q acc p s) : I acc := by
  cases p <;> exact h.1

theorem traces_mono {α : Type} {Q Q' : List (PyStr × Reply) → Except PyErr α → St → Prop} {p : Prog α} {s : St} (h : Traces env R I Q acc p s) (hq : ∀ a r s, I a → Q a r s → Q' a r s) :
    Traces env R I Q' acc p s := by
  induction p generalizing s acc with
  | done r => exact ⟨h.1, hq _ r s h.1 h.2⟩
  | io t k ih => exact ⟨h.1, fun s' hs => ih _ (h.2 s' hs)⟩
  | act g k ih => exact ⟨h.1, fun s' hs => ih _ _ (h.2 s' hs)⟩

theorem traces_ends {α : Type} {Q : List (PyStr × Reply) → Except PyErr α → St → Prop} {Q' : Except PyErr α → St → Prop} {p : Prog α} {s : St} (h : Traces env R I Q acc p s)
    (h' : Ends env R Q' p s) : Traces env R I (fun a r s => Q a r s ∧ Q' r s) acc p s := by
  induction p generalizing s acc with
  | done r => exact ⟨h.1, h.2, h'⟩
  | io t k ih => exact ⟨h.1, fun s' hs => ih _ (h.2 s' hs) (h' s' hs)⟩
  | act g k ih => exact ⟨h.1, fun s' hs => ih _ _ (h.2 s' hs) (h' s' hs)⟩

theorem traces_bind {α β : Type} {Q : List (PyStr × Reply) → Except PyErr α → St → Prop} {Q' : List (PyStr × Reply) → Except PyErr β → St → Prop} {p : Prog α} {f : α → Prog β} {s : St}
    (h : Traces env R I Q acc p s) (hf : ∀ acc a s, I acc → Q acc (.ok a) s → Traces env R I Q' acc (f a) s) (he : ∀ acc e s, I acc → Q acc (.error e) s → Q' acc (.error e) s) :
    Traces env R I Q' acc (p >>= f) s := by
  show Traces env R I Q' acc (p.bind f) s
  induction p generalizing s acc with
  | done r =>
    cases r with
    | ok a => exact hf acc a s h.1 h.2
    | error e => exact ⟨h.1, he acc e s h.1 h.2⟩
  | io t k ih => exact ⟨h.1, fun s' hs => ih _ (h.2 s' hs)⟩
  | act g k ih => exact ⟨h.1, fun s' hs => ih _ _ (h.2 s' hs)⟩

theorem traces_except {α : Type} {Q Q' : List (PyStr × Reply) → Except PyErr α → St → Prop} {p : Prog α} {c : PyErr → Bool} {f : PyErr → Prog α} {s : St}
    (h : Traces env R I Q acc p s) (hk : ∀ acc a s, I acc → Q acc (.ok a) s → Q' acc (.ok a) s) (hf : ∀ acc e s, I acc → c e = true → Q acc (.error e) s → Traces env R I Q' acc (f e) s)
    (he : ∀ acc e s, I acc → c e = false → Q acc (.error e) s → Q' acc (.error e) s) : Traces env R I Q' acc (except p c f) s := by
  induction p generalizing s acc with
  | done r =>
    cases r with
    | ok a => exact ⟨h.1, hk acc a s h.1 h.2⟩
    | error e =>
      show Traces env R I Q' acc (if c e then f e else done (.error e)) s
      cases hc : c e with
      | true => exact hf acc e s h.1 hc h.2
      | false => exact ⟨h.1, he acc e s h.1 hc h.2⟩
  | io t k ih => exact ⟨h.1, fun s' hs => ih _ (h.2 s' hs)⟩
  | act g k ih => exact ⟨h.1, fun s' hs => ih _ _ (h.2 s' hs)⟩

theorem traces_atLast {α : Type} {Q Q' : List (PyStr × Reply) → Except PyErr α → St → Prop} {p : Prog α} {f : Prog Unit} {s : St}
    (h : Traces env R I Q acc p s) (hf : ∀ acc r s, I acc → Q acc r s → Traces env R I (fun acc' r' s' => Q' acc' (match r' with | .ok _ => r | .error e => .error e) s') acc f s) :
    Traces env R I Q' acc (atLast p f) s := by
  induction p generalizing s acc with
  | done r =>
    cases r with
    | ok a =>
      refine traces_bind (p := f) (f := fun _ => done (.ok a)) (hf acc (.ok a) s h.1 h.2) (fun _ _ _ h1 h2 => ⟨h1, h2⟩) fun _ _ _ _ h2 => h2
    | error e =>
      refine traces_bind (p := f) (f := fun _ => done (.error e)) (hf acc (.error e) s h.1 h.2) (fun _ _ _ h1 h2 => ⟨h1, h2⟩) fun _ _ _ _ h2 => h2
  | io t k ih => exact ⟨h.1, fun s' hs => ih _ (h.2 s' hs)⟩
  | act g k ih => exact ⟨h.1, fun s' hs => ih _ _ (h.2 s' hs)⟩

/-- Nothing is written. -/
def Silent {α : Type} : Prog α → Prop
  | done _ => True
  | io _ _ => False
  | act _ k => ∀ env s, Silent (k env s)

theorem silent_bind {α β : Type} {p : Prog α} {f : α → Prog β} (h : Silent p) (hf : ∀ a, Silent (f a)) : Silent (p >>= f) := by
  show Silent (p.bind f)
  induction p with
  | done r =>
    cases r with
    | ok a => exact hf a
    | error e => trivial
  | io t k ih => exact h.elim
  | act g k ih => exact fun env s => ih env s (h env s)

theorem traces_silent {α : Type} {p : Prog α} {s : St} (h : Silent p) (hI : I acc) : Traces env R I (fun a _ _ => a = acc) acc p s := by
  induction p generalizing s with
  | done r => exact ⟨hI, rfl⟩
  | io t k ih => exact h.elim
  | act g k ih => exact ⟨hI, fun s' _ => ih _ _ (h _ _)⟩

theorem silent_changeCall (i : Nat) (f : CallObj → CallObj) : Silent (changeCall i f) := fun _ _ => trivial
theorem silent_setAnswered (i : Nat) (v : Bool) : Silent (setAnswered i v) := by
  refine silent_bind (silent_changeCall _ _) fun _ => fun _ s => ?_
  show Silent (match s.calls[i]? with | some c => if c.callback then callback (.callStatus i) else pure () | none => pure () : Prog Unit)
  cases s.calls[i]? with
  | none => trivial
  | some c =>
    dsimp only
    split
    · exact fun _ _ => trivial
    · trivial
theorem silent_removeIfThere (k : Int) : Silent (removeIfThere k) := fun _ s => by
  show Silent (if (dictGet s.activeCalls k).isSome then removeCall k else pure () : Prog Unit)
  split
  · intro _ s
    show Silent (if (dictGet s.activeCalls k).isSome then pure () else raise .keyError : Prog Unit)
    split <;> trivial
  · trivial

theorem says_busy {r : Reply} {ls : List PyStr} {line : PyStr} {code : Int} (hr : r = .lines ls) (hl : ls.getLast? = some line) (hc : classify line = .busy code) : SaysBusy r := by
  obtain ⟨n, _, hb⟩ := busy_of_classify hc
  exact ⟨n, ls, line, hr, hl, hb⟩

/-- Writing a command. -/
theorem traces_writeN {data term : PyStr} {acc0 : List (PyStr × Reply)} (hI : ∀ l, Attempts (data ++ term) l → I (acc0 ++ l)) :
    ∀ (depth : Nat) (l0 : List (PyStr × Reply)) (s : St), (∀ x ∈ l0, x.1 = data ++ term ∧ SaysBusy x.2) →
      Traces env R I (fun a r _ => ∃ l, a = acc0 ++ l ∧ Attempts (data ++ term) l ∧ ∀ ls, r = .ok ls → ∃ x ∈ l, x.1 = data ++ term ∧ SaysYes x.2) (acc0 ++ l0) (writeN depth data true term) s
  | 0, l0, s, h0 => ⟨hI l0 ⟨fun x hx => (h0 x hx).1, fun x hx => (h0 x (List.dropLast_subset _ hx)).2⟩, l0, rfl, ⟨fun x hx => (h0 x hx).1, fun x hx => (h0 x (List.dropLast_subset _ hx)).2⟩, fun _ h => nomatch h⟩
  | depth + 1, l0, s, h0 => by
    refine ⟨hI l0 ⟨fun x hx => (h0 x hx).1, fun x hx => (h0 x (List.dropLast_subset _ hx)).2⟩, fun s1 _ => ?_⟩
    have hatt : Attempts (data ++ term) (l0 ++ [(data ++ term, env.reply ((data ++ term) :: s1.log))]) := by
      refine ⟨fun x hx => ?_, fun x hx => ?_⟩
      · rcases List.mem_append.1 hx with h | h
        · exact (h0 x h).1
        · rw [List.mem_singleton.1 h]
      · rw [List.dropLast_concat] at hx
        exact (h0 x hx).2
    rw [List.append_assoc]
    have hi := hI _ hatt
    cases hr : env.reply ((data ++ term) :: s1.log) with
    | timeout d => rw [hr] at hatt hi; exact ⟨hi, _, rfl, hatt, fun _ h => nomatch h⟩
    | lines ls =>
      rw [hr] at hatt hi
      dsimp only
      cases hl : ls.getLast? with
      | none => exact ⟨hi, _, rfl, hatt, fun _ h => nomatch h⟩
      | some line =>
        simp only [if_true]
        cases hc : classify line with
        | fine =>
          have hf := classify_fine.1 hc
          exact ⟨hi, _, rfl, hatt, fun _ _ => ⟨_, List.mem_append_right _ (List.mem_singleton.2 rfl), rfl, ls, line, rfl, hl, hf.1, hf.2⟩⟩
        | failed e => exact ⟨hi, _, rfl, hatt, fun _ h => nomatch h⟩
        | busy code =>
          dsimp only
          have h1 : ∀ x ∈ l0 ++ [(data ++ term, Reply.lines ls)], x.1 = data ++ term ∧ SaysBusy x.2 := fun x hx => by
            rcases List.mem_append.1 hx with h | h
            · exact h0 x h
            · rw [List.mem_singleton.1 h]; exact ⟨rfl, says_busy rfl hl hc⟩
          refine traces_bind (traces_silent (fun _ _ => trivial) hi) (fun acc _ s2 _ ha => ?_) fun a e _ h1 h => ⟨_, h, hatt, fun _ h => nomatch h⟩
          subst ha
          refine traces_bind (traces_writeN hI depth _ s2 h1) (fun acc r s3 hi3 ⟨l, ha, hl3, hy⟩ => ?_) fun a e _ _ ⟨l, h1, h2, _⟩ => ⟨l, h1, h2, fun _ h => nomatch h⟩
          refine traces_bind (traces_silent (fun _ _ => trivial) hi3) (fun acc' _ s4 hi4 ha' => ?_) fun a e _ h1 h => ⟨_, h.trans ha, hl3, fun _ h => nomatch h⟩
          exact ⟨hi4, l, ha'.trans ha, hl3, fun _ _ => hy _ rfl⟩

theorem traces_write {data : PyStr} {s : St} (hI : ∀ l, Attempts (data ++ [13]) l → I (acc ++ l)) :
    Traces env R I (fun a r _ => ∃ l, a = acc ++ l ∧ Attempts (data ++ [13]) l ∧ ∀ ls, r = .ok ls → ∃ x ∈ l, x.1 = data ++ [13] ∧ SaysYes x.2) acc (write data) s := by
  have h := hI [] ⟨(fun _ h => nomatch h), (fun _ h => nomatch h)⟩
  rw [List.append_nil] at h
  unfold write
  refine ⟨h, fun s1 _ => ?_⟩
  have := traces_writeN (env := env) (R := R) hI env.depth [] s1 (fun _ h => nomatch h)
  rwa [List.append_nil] at this

/-- The other threads keep `R`; nothing is asked of this one. -/
theorem traces_among (hr : ∀ s, R s s) (ht : ∀ a b c, R a b → R b c → R a c) {Q : List (PyStr × Reply) → Except PyErr Unit → St → Prop} {i : Nat} :
    ∀ (schedule : List Nat) (threads : List (Prog Unit)) (s s1 : St) (p : Prog Unit) (acc : List (PyStr × Reply)), (∀ j q, j ≠ i → threads[j]? = some q → Keeps env Always R Any q) →
      threads[i]? = some p → Traces env R I Q acc p s1 → R s1 s → I (acc ++ said env i schedule (threads, s)) ∧
        ∀ r, (runThreads env schedule (threads, s)).1[i]? = some (done r) → ∃ s2, Q (acc ++ said env i schedule (threads, s)) r s2 ∧ R s2 (runThreads env schedule (threads, s)).2
  | [], threads, s, s1, p, acc, _, hp, he, hs => by
    unfold said runThreads
    rw [List.append_nil]
    refine ⟨traces_now he, fun r hd => ?_⟩
    rw [hp] at hd
    cases hd
    exact ⟨s1, he.2, hs⟩
  | j :: is, threads, s, s1, p, acc, h, hp, he, hs => by
    unfold said runThreads
    cases hj : threads[j]? with
    | none => simp only; exact traces_among hr ht is threads s s1 p acc h hp he hs
    | some q =>
      simp only
      have hlen : j < threads.length := (List.getElem?_eq_some_iff.1 hj).1
      by_cases hij : j = i
      · subst hij
        rw [hp] at hj
        cases hj
        have hset : ∀ j' q, j' ≠ j → (threads.set j (p.step env s).1)[j']? = some q → Keeps env Always R Any q := fun j' q hne hq =>
          h j' q hne (by rwa [List.getElem?_set_ne (Ne.symm hne)] at hq)
        have hp' : (threads.set j (p.step env s).1)[j]? = some (p.step env s).1 := by simp [hlen]
        rw [if_pos rfl]
        cases p with
        | done r' => exact traces_among hr ht is _ s s1 _ acc hset hp' he hs
        | io t k =>
          rw [← List.append_assoc]
          exact traces_among hr ht is _ _ _ _ _ hset hp' (he.2 s hs) (hr _)
        | act f k => exact traces_among hr ht is _ _ _ _ acc hset hp' (he.2 s hs) (hr _)
      · have hk := keeps_step (h j q hij hj) (fun s _ => hr s) (s := s) trivial
        have hset : ∀ j' q', j' ≠ i → (threads.set j (q.step env s).1)[j']? = some q' → Keeps env Always R Any q' := fun j' q' hne hq => by
          by_cases hjj : j' = j
          · subst hjj
            rw [List.getElem?_set_self hlen] at hq
            cases hq
            exact hk.1
          · rw [List.getElem?_set_ne (Ne.symm hjj)] at hq
            exact h j' q' hne hq
        have hp' : (threads.set j (q.step env s).1)[i]? = some p := by rw [List.getElem?_set_ne hij]; exact hp
        rw [if_neg hij, List.nil_append]
        exact traces_among hr ht is _ _ s1 _ acc hset hp' he (ht _ _ _ hs hk.2)

end Prog
end Gsm
