import Verif.Spec.OwnMemory
import Verif.Lemmas.OwnMemory
import Verif.Lemmas.OwnModeJobs
/-! # Lemmas: the memory in which threads read and delete, with threads that wait -/
namespace Gsm
open Spec

namespace Proc

variable {m : PyStr} {claim : Prop}

/-- The same for threads that wait. -/
def Heeds {α : Type} (m : PyStr) (claim : Prop) : Prop → Prop → Proc α → Prop
  | known, post, done r => ∀ a, r = .ok a → post → known
  | known, post, io t k => (claim → UsesMemory t → known) ∧ (SelectsMemory t → t = memoryCmd m) ∧ ∀ r, Heeds m claim (known ∨ t = memoryCmd m ∧ SaysYes r) post (k r)
  | known, post, act f k => (∀ env w, (∃ new, (f env w).st.log = new ++ w.st.log ∧ ∀ c ∈ new, ¬ SelectsMemory c ∧ ¬ UsesMemory c) ∧
        ((f env w).st.smsMemReadDelete = w.st.smsMemReadDelete ∨ known ∧ (f env w).st.smsMemReadDelete = some m)) ∧
      ∀ env w, Heeds m claim (known ∨ w.st.smsMemReadDelete = some m) post (k env w)

theorem hj_more {α : Type} {p : Proc α} {known known' post : Prop} (h : Heeds m claim known post p) (hk : known → known') : Heeds m claim known' post p := by
  induction p generalizing known known' with
  | done r => exact fun a ha hp => hk (h a ha hp)
  | io t k ih => exact ⟨fun hc hu => hk (h.1 hc hu), h.2.1, fun r => ih r (h.2.2 r) (Or.imp_left hk)⟩
  | act f k ih => exact ⟨fun env s => ⟨(h.1 env s).1, (h.1 env s).2.imp_right fun hx => ⟨hk hx.1, hx.2⟩⟩, fun env s => ih env s (h.2 env s) (Or.imp_left hk)⟩

theorem hj_seq {α β : Type} {p : Proc α} {f : α → Proc β} {known mid post : Prop} (h : Heeds m claim known mid p) (hf : ∀ a, Heeds m claim mid post (f a)) :
    Heeds m claim known post (p >>= f) := by
  show Heeds m claim known post (p.bind f)
  induction p generalizing known with
  | done r => cases r with
    | ok a => exact hj_more (hf a) (h a rfl)
    | error e => exact fun a ha => by cases ha
  | io t k ih => exact ⟨h.1, h.2.1, fun r => ih r (h.2.2 r)⟩
  | act g k ih => exact ⟨h.1, fun env s => ih env s (h.2 env s)⟩

theorem hj_less {α : Type} {p : Proc α} {known post post' : Prop} (h : Heeds m claim known post p) (hp : post' → post) : Heeds m claim known post' p := by
  induction p generalizing known with
  | done r => exact fun a ha hq => h a ha (hp hq)
  | io t k ih => exact ⟨h.1, h.2.1, fun r => ih r (h.2.2 r)⟩
  | act f k ih => exact ⟨h.1, fun env s => ih env s (h.2 env s)⟩

theorem hj_claim {α : Type} {p : Proc α} {claim' known post : Prop} (h : Heeds m claim known post p) (hc : claim' → claim) : Heeds m claim' known post p := by
  induction p generalizing known with
  | done r => exact h
  | io t k ih => exact ⟨fun hx => h.1 (hc hx), h.2.1, fun r => ih r (h.2.2 r)⟩
  | act f k ih => exact ⟨h.1, fun env s => ih env s (h.2 env s)⟩

theorem hj_lift {α : Type} {p : Prog α} {known post : Prop} (h : p.Heeds m claim known post) : Heeds m claim known post (lift p) := by
  induction p generalizing known with
  | done r => exact h
  | io t k ih => exact ⟨h.1, h.2.1, fun r => ih r (h.2.2 r)⟩
  | act f k ih => exact ⟨fun env w => h.1 env w.st, fun env w => ih env w.st (h.2 env w.st)⟩

variable {known : Prop}

theorem hj_pure {α : Type} (a : α) : Heeds m claim known known (pure a : Proc α) := fun _ _ h => h
theorem hj_raise {α : Type} {post : Prop} (e : PyErr) : Heeds m claim known post (raise e : Proc α) := nofun
theorem hj_ofExcept {α : Type} (r : Except PyErr α) : Heeds m claim known known (ofExcept r) := fun _ _ h => h
theorem hj_change {f : Shared → Shared} (h : ∀ w, (f w).st.log = w.st.log ∧ (f w).st.smsMemReadDelete = w.st.smsMemReadDelete) : Heeds m claim known known (change f) :=
  ⟨fun _ w => ⟨Prog.silent (h w).1, Or.inl (h w).2⟩, fun _ _ _ _ => Or.inl⟩
theorem hj_changeSt {f : St → St} (h : ∀ s, (f s).log = s.log ∧ (f s).smsMemReadDelete = s.smsMemReadDelete) : Heeds m claim known known (changeSt f) := hj_change fun w => h w.st
theorem hj_look : Heeds m claim known known look := ⟨fun _ _ => ⟨Prog.silent rfl, Or.inl rfl⟩, fun _ _ _ _ => Or.inl⟩
theorem hj_bind {α β : Type} {p : Proc α} {f : α → Proc β} (h : Heeds m claim known known p) (hf : ∀ a, Heeds m claim known known (f a)) : Heeds m claim known known (p >>= f) := hj_seq h hf
theorem hj_onError {α : Type} {p : Proc α} {g : Proc Unit} {known post : Prop} (h : Heeds m claim known post p) (hg : Heeds m claim known False g) : Heeds m claim known post (p.onError g) := by
  induction p generalizing known with
  | done r => cases r with
    | ok a => exact h
    | error e => exact hj_seq hg fun _ => hj_raise e
  | io t k ih => exact ⟨h.1, h.2.1, fun r => ih r (h.2.2 r) (hj_more hg Or.inl)⟩
  | act f k ih => exact ⟨h.1, fun env s => ih env s (h.2 env s) (hj_more hg Or.inl)⟩
theorem hj_catch {α : Type} {p : Proc α} {g : Proc Unit} (h : Heeds m claim known known p) (hg : Heeds m claim known known g) : Heeds m claim known known (p.onError g) :=
  hj_onError h (hj_less hg False.elim)
theorem hj_ite {α : Type} {c : Prop} [Decidable c] {p p' : Proc α} (h : Heeds m claim known known p) (h' : Heeds m claim known known p') : Heeds m claim known known (if c then p else p') := by
  split <;> assumption

theorem withEvent_memory (s : St) (x : Slot) (b : Option Bool) : (s.withEvent x b).smsMemReadDelete = s.smsMemReadDelete := by cases x <;> rfl
theorem hj_create (x : Slot) : Heeds m claim known known (change fun w => w.create x) := hj_change fun w => ⟨withEvent_log _ _ _, withEvent_memory _ _ _⟩
theorem hj_forget (x : Slot) : Heeds m claim known known (change fun w => w.forget x) := hj_change fun w => ⟨withEvent_log _ _ _, withEvent_memory _ _ _⟩

macro "heedsAll" : tactic => `(tactic| repeat' first
  | assumption
  | with_reducible exact hj_pure _
  | with_reducible exact hj_raise _
  | with_reducible exact hj_ofExcept _
  | with_reducible exact hj_create _
  | with_reducible exact hj_forget _
  | ((with_reducible apply hj_changeSt); intro _; exact ⟨rfl, rfl⟩)
  | with_reducible exact hj_look
  | with_reducible refine hj_bind ?_ fun _ => ?_
  | with_reducible refine hj_ite ?_ ?_
  | with_reducible refine hj_catch ?_ ?_
  | with_reducible refine hj_lift ?_
  | split)

theorem hj_eventOf (x : Slot) : Heeds m claim known known (eventOf x) := by unfold eventOf; heedsAll
theorem hj_wait (x : Slot) : Heeds m claim known known (wait x) := by
  have := hj_eventOf (m := m) (claim := claim) (known := known) x
  unfold wait; heedsAll
theorem hj_set (x : Slot) : Heeds m claim known known (set x) := by
  refine hj_bind (hj_eventOf x) fun e => hj_change fun w => ?_
  show (if w.attr x = some e then w.st.withEvent x (some true) else w.st).log = w.st.log ∧ (if w.attr x = some e then w.st.withEvent x (some true) else w.st).smsMemReadDelete = w.st.smsMemReadDelete
  split
  · exact ⟨withEvent_log _ _ _, withEvent_memory _ _ _⟩
  · exact ⟨rfl, rfl⟩
theorem hj_handleUssd (ls : List PyStr) : Heeds m claim known known (handleUssd ls) := by
  have := hj_set (m := m) (claim := claim) (known := known) .ussd
  unfold handleUssd; heedsAll
theorem hj_report {l : PyStr} (hl : ∀ mem idx, StoredAt py!"+CDSI:" l mem idx → mem = m) : Heeds m claim known known (handleSmsStatusReport l) := by
  unfold handleSmsStatusReport
  cases hg : rxGroups cdsiRegex l with
  | none => exact hj_pure _
  | some g =>
    obtain ⟨mem, idx, rfl, hst⟩ := stored_iff.1 (cdsi_rx ▸ hg)
    obtain rfl := hl _ _ hst
    refine hj_less (hj_seq (mid := True) (hj_lift (Prog.heeds_less (Prog.heeds_read _ (Or.inr rfl) fun _ => Or.inr rfl) fun _ => Or.inr rfl)) fun r =>
      hj_seq (hj_lift (Prog.heeds_less (Prog.heeds_delete _ (Or.inl rfl) fun _ => Or.inl trivial) Or.inl)) fun _ => ?_) fun _ => trivial
    cases r with
    | received => exact hj_raise _
    | report st r n t1 t2 d =>
      have h0 := hj_set (m := mem) (claim := claim) (known := True) .report
      heedsAll
      · unfold Prog.updateSent; refine Prog.heeds_change fun s => ?_
        dsimp only
        all_goals first | exact ⟨rfl, rfl⟩ | (split <;> exact ⟨rfl, rfl⟩)
      · exact Prog.heeds_callback _
theorem hj_tellDial (a b : Int) : Heeds m claim known known (tellDial a b) := by
  have := hj_set (m := m) (claim := claim) (known := known) .dial
  unfold tellDial; heedsAll
theorem hj_initiatedGroups (g : List PyStr) : Heeds m claim known known (handleInitiatedGroups g) := by
  unfold handleInitiatedGroups; heedsAll
  all_goals exact hj_tellDial _ _
theorem hj_initiated (a b : Int) : Heeds m claim known known (handleCallInitiated a b) := by
  have := hj_tellDial (m := m) (claim := claim) (known := known) a b
  unfold handleCallInitiated; heedsAll
theorem hj_dispatch (all : List PyStr) : ∀ ls : List PyStr, (∀ line ∈ ls, ∀ mem idx, StoredAt py!"+CMTI:" line mem idx ∨ StoredAt py!"+CDSI:" line mem idx → mem = m) →
    Heeds m claim known known (dispatchLoop all ls)
  | [], _ => hj_pure _
  | l :: ls, h => by
    have h0 := hj_dispatch all ls fun l hl => h l (List.mem_cons_of_mem _ hl)
    have h1 := h l List.mem_cons_self
    unfold dispatchLoop; heedsAll
    all_goals first
      | exact Prog.hd_incoming _ | exact Prog.heeds_received fun mem idx hx => h1 mem idx (Or.inl hx) | exact hj_handleUssd _ | exact hj_report fun mem idx hx => h1 mem idx (Or.inr hx)
      | exact hj_initiatedGroups _ | exact Prog.hd_handler _ _
theorem hj_pollStep (p : Poller) (seen : Option (Int × Int × Int × Int)) : Heeds m claim known known (pollStep p seen) := by
  unfold pollStep; heedsAll
  all_goals first | exact hj_initiated _ _ | exact Prog.hd_pollStep _ _
theorem hj_pollRound (p : Poller) : Heeds m claim known known (pollRound p) := by
  have h1 := Prog.hd_clcc (m := m) (claim := claim) (known := known)
  unfold pollRound; heedsAll
  all_goals exact hj_pollStep _ _
theorem hj_poll : ∀ (n : Nat) (p : Poller), Heeds m claim known known (poll n p)
  | 0, _ => hj_pure _
  | n + 1, p => hj_bind (hj_pollRound p) fun p => hj_ite (hj_pure _) (hj_poll n p)
theorem hj_awaitUssd (ls : List PyStr) : Heeds m claim known known (awaitUssd ls) := by
  have := hj_wait (m := m) (claim := claim) (known := known) .ussd
  unfold awaitUssd; heedsAll
theorem hj_ussd (x : PyStr) : Heeds m claim known known (sendUssd x) := by
  have h2 : Prog.Heeds m claim known known (Prog.write (cusdCmd x)) := Prog.heeds_other (by simp [cusdCmd, UsesMemory])
  unfold sendUssd; heedsAll
  exact hj_awaitUssd _
theorem hj_dial (n : PyStr) (t : Nat) (cb : Bool) : Heeds m claim known known (dialWait n t cb) := by
  have h1 : Prog.Heeds m claim known known (writeAtd n) := by
    refine Prog.heeds_same Prog.heeds_state fun _ => Prog.heeds_choose (Prog.heeds_same (Prog.heeds_other (Prog.atd_other n)) fun _ => Prog.heeds_pure _) ?_
    exact ⟨fun _ s => ⟨⟨[atdCmd n ++ [13]], rfl, fun c hc => by rw [List.mem_singleton.1 hc]; exact ⟨fun hs => (Prog.atd_other n).1 hs.1, (Prog.atd_other n).2⟩⟩, Or.inl rfl⟩, fun _ _ _ _ => Or.inl⟩
  have h2 := hj_wait (m := m) (claim := claim) (known := known) .dial
  unfold dialWait awaitDial; heedsAll
  all_goals exact Prog.hd_register _
theorem hj_sendWait [PyUnicode] (hc : ¬ claim) (d t : PyStr) (f : Bool) : Heeds m claim known known (sendSmsWait d t f) := by
  have h1 := Prog.heeds_send (m := m) (known := known) hc d t f
  have h2 := hj_wait (m := m) (claim := claim) (known := known) .report
  unfold sendSmsWait awaitReport; heedsAll

theorem hj_job [PyUnicode] {j : Job} (hj : OneMemoryJob m j) : Heeds m (NamesMemoryJob m j) False False j.proc := by
  cases j with
  | task x =>
    replace hj : OneMemoryTask m x := hj
    show Heeds m (NamesMemoryTask m x) False False _
    refine hj_bind ?_ fun _ => hj_pure _
    cases x with
    | message x =>
      cases x with
      | statusReport l => exact hj_report hj
      | _ => exact hj_lift (heeds_task hj)
    | notify ls => exact hj_dispatch ls ls hj
    | poll n p => exact hj_poll n p
    | _ => exact hj_lift (heeds_task hj)
  | ussd x => exact hj_bind (hj_ussd x) fun _ => hj_pure _
  | dial n t cb => exact hj_bind (hj_dial n t cb) fun _ => hj_pure _
  | sendWait d t f => exact hj_bind (hj_sendWait id d t f) fun _ => hj_pure _

/-- A step of a thread. -/
theorem hj_step {env : Env} {α : Type} {p : Proc α} {known post : Prop} {w : Shared} (hh : Heeds m claim known post p) (hk : known → MemoryInUse env m w.st.log)
    (hw : w.st.smsMemReadDelete = some m → MemoryInUse env m w.st.log) :
    (∃ new, (p.step env w).2.st.log = new ++ w.st.log ∧ (claim → ∀ l1 c l2, new = l1 ++ c :: l2 → UsesMemory c → MemoryInUse env m (l2 ++ w.st.log))) ∧
    ((p.step env w).2.st.smsMemReadDelete = some m → MemoryInUse env m (p.step env w).2.st.log) ∧ (MemoryInUse env m w.st.log → MemoryInUse env m (p.step env w).2.st.log) ∧
      ∃ known, (known → MemoryInUse env m (p.step env w).2.st.log) ∧ ∃ post, Heeds m claim known post (p.step env w).1 := by
  cases p with
  | done r => exact ⟨⟨[], rfl, fun _ l1 c l2 he => by simp at he⟩, hw, id, known, hk, post, hh⟩
  | io t k =>
    have hm : MemoryInUse env m w.st.log → MemoryInUse env m (t :: w.st.log) := fun hx => inUse_line hx hh.2.1
    refine ⟨⟨[t], rfl, fun hc l1 c l2 he hu => ?_⟩, fun hx => hm (hw hx), hm, _, ?_, post, hh.2.2 (env.reply (t :: w.st.log))⟩
    · have hl := congrArg List.length he
      simp at hl
      obtain rfl : l1 = [] := List.length_eq_zero_iff.1 (by omega)
      obtain rfl : l2 = [] := List.length_eq_zero_iff.1 (by omega)
      obtain rfl : t = c := by simpa using he
      exact hk (hh.1 hc hu)
    · rintro (hx | ⟨rfl, hx⟩)
      · exact hm (hk hx)
      · exact .here (memoryCmd_selects m) hx
  | act f k =>
    obtain ⟨⟨new, hl, hn⟩, hf⟩ := hh.1 env w
    have hl' : ((Proc.act f k).step env w).2.st.log = new ++ w.st.log := hl
    rw [hl']
    have hm : MemoryInUse env m w.st.log → MemoryInUse env m (new ++ w.st.log) := fun hx => inUse_lines hx new fun c hc => (hn c hc).1
    refine ⟨⟨new, rfl, fun _ l1 c l2 he hu => absurd hu (hn c (by simp [he])).2⟩, fun hx => hm ?_, hm, _, ?_, post, hh.2 env w⟩
    · rcases hf with he | ⟨he, _⟩
      · exact hw (he ▸ hx)
      · exact hk he
    · rintro (hx | hx)
      · exact hm (hk hx)
      · exact hm (hw hx)

end Proc

open Proc in
theorem hj_threads {env : Env} {m : PyStr} {claim : Prop} : ∀ (schedule : List Nat) (threads : List (Proc Value)) (w : Shared), (w.st.smsMemReadDelete = some m → MemoryInUse env m w.st.log) →
    (∀ p ∈ threads, ∃ known, (known → MemoryInUse env m w.st.log) ∧ ∃ post, p.Heeds m claim known post) →
    ((runProcs env schedule (threads, w)).2.st.smsMemReadDelete = some m → MemoryInUse env m (runProcs env schedule (threads, w)).2.st.log) ∧
    (claim → UsedOnlyWith env.reply (memoryCmd m) w.st.log (runProcs env schedule (threads, w)).2.st.log)
  | [], _, _, hw, _ => ⟨hw, fun _ => ⟨[], rfl, fun l1 c l2 he => by simp at he⟩⟩
  | j :: is, threads, w, hw, h => by
    unfold runProcs
    cases hp : threads[j]? with
    | none => exact hj_threads is threads w hw h
    | some p =>
      obtain ⟨known, hk, post, hh⟩ := h p (List.mem_of_getElem? hp)
      obtain ⟨⟨sent, h1, h2⟩, h3, h4, h5⟩ := hj_step (env := env) hh hk hw
      obtain ⟨h6, h7⟩ := hj_threads (claim := claim) is (threads.set j (p.step env w).1) (p.step env w).2 h3 (fun q hq => by
        rcases List.mem_or_eq_of_mem_set hq with hq | rfl
        · obtain ⟨kn, h8, h9⟩ := h q hq
          exact ⟨kn, fun hx => h4 (h8 hx), h9⟩
        · exact h5)
      refine ⟨h6, fun hc => ?_⟩
      obtain ⟨new, h8, h9⟩ := h7 hc
      refine ⟨new ++ sent, by rw [h8, h1]; simp, fun l1 c l2 he hu => ?_⟩
      rcases List.append_eq_append_iff.1 he with ⟨a, rfl, h4⟩ | ⟨a, rfl, h4⟩
      · exact h2 hc a c l2 h4 hu
      · cases a with
        | nil => exact h2 hc [] c l2 h4.symm hu
        | cons y a =>
          obtain ⟨rfl, rfl⟩ := List.cons.inj h4
          have := h9 l1 c a rfl hu
          rw [h1] at this
          simpa using this

end Gsm
