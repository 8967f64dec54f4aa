import Verif.Lemmas.WaitingEnd
/-! # Threads that tell: no event is lost -/
namespace Gsm
open M Spec

variable {env : Env}

/-- What every thread does to the events of an attribute. -/
structure Onward (x : Slot) (a b : Shared) : Prop where
  grow : CallsGrow a.st b.st
  length : (a.events x).length ≤ (b.events x).length
  valid : (∀ e, a.attr x = some e → e < (a.events x).length) → ∀ e, b.attr x = some e → e < (b.events x).length
  attr : ∀ e, e < (a.events x).length → b.attr x = some e → a.attr x = some e
  set : ∀ e : Nat, (a.events x)[e]? = some true → (b.events x)[e]? = some true

theorem Onward.rfl {x : Slot} (w : Shared) : Onward x w w := ⟨.rfl _, Nat.le_refl _, id, fun _ _ => id, fun _ => id⟩
theorem Onward.trans {x : Slot} {a b c : Shared} (h : Onward x a b) (h' : Onward x b c) : Onward x a c :=
  ⟨h.grow.trans h'.grow, Nat.le_trans h.length h'.length, fun hv => h'.valid (h.valid hv), fun e he hc => h.attr e he (h'.attr e (Nat.lt_of_lt_of_le he h.length) hc),
    fun e he => h'.set e (h.set e he)⟩

theorem onward_st {x : Slot} {w : Shared} {s : St} (h : CallsGrow w.st s) : Onward x w { w with st := s } := ⟨h, Nat.le_refl _, id, fun _ _ => id, fun _ => id⟩

theorem onward_create (x z : Slot) (w : Shared) : Onward x w (w.create z) := by
  by_cases hz : x = z
  · subst hz
    have he : (w.create x).events x = w.events x ++ [false] := if_pos rfl
    have ha : (w.create x).attr x = some (w.events x).length := if_pos rfl
    refine ⟨grow_event _ _ _, by rw [he]; simp, fun _ e h => ?_, fun e h1 h2 => ?_, fun e h => ?_⟩
    · rw [ha] at h; cases h; rw [he]; simp
    · rw [ha] at h2; cases h2; exact absurd h1 (Nat.lt_irrefl _)
    · rw [he, List.getElem?_append_left (List.getElem?_eq_some_iff.1 h).1]; exact h
  · have he : (w.create z).events x = w.events x := if_neg hz
    have ha : (w.create z).attr x = w.attr x := if_neg hz
    exact ⟨grow_event _ _ _, by rw [he], by rw [he, ha]; exact id, by rw [ha]; exact fun _ _ => id, by rw [he]; exact fun _ => id⟩

theorem onward_forget (x z : Slot) (w : Shared) : Onward x w (w.forget z) := by
  by_cases hz : x = z
  · subst hz
    have ha : (w.forget x).attr x = none := if_pos rfl
    exact ⟨grow_event _ _ _, Nat.le_refl _, fun _ e h => (by rw [ha] at h; cases h), fun e _ h2 => (by rw [ha] at h2; cases h2), fun _ => id⟩
  · have ha : (w.forget z).attr x = w.attr x := if_neg hz
    exact ⟨grow_event _ _ _, Nat.le_refl _, by rw [ha]; exact id, by rw [ha]; exact fun _ _ => id, fun _ => id⟩

theorem onward_setEvent (x z : Slot) (w : Shared) (e : Nat) : Onward x w (w.setEvent z e) := by
  have hl : ((w.setEvent z e).events x).length = (w.events x).length := by
    show (if x = z then (w.events z).set e true else w.events x).length = _
    split
    · subst z; simp
    · rfl
  refine ⟨(steady_setEvent w z e).2, by rw [hl], fun h => by rw [hl]; exact h, fun _ _ => id, ?_⟩
  exact (around_setEvent (x := x) (T := fun _ => True) (fun _ _ _ _ => trivial) (fun _ => trivial) e).set

namespace Proc

/-- A thread among others, all of which go on so. -/
abbrev Goes {α : Type} (env : Env) (x : Slot) (Q : Except PyErr α → Shared → Prop) (p : Proc α) (w : Shared) : Prop := Safe env (Onward x) (Onward x) Q p w

variable {x : Slot}

theorem goes_mono {α : Type} {Q Q' : Except PyErr α → Shared → Prop} {p : Proc α} {w : Shared} (h : Goes env x Q p w) (hQ : ∀ r w, Q r w → Q' r w) : Goes env x Q' p w :=
  safe_mono h (fun _ _ h => h) (fun _ _ h => h) hQ

theorem goes_bind {α β : Type} {p : Proc α} {f : α → Proc β} {w : Shared} (h : Goes env x AnyEnd p w) (hf : ∀ a w, Goes env x AnyEnd (f a) w) : Goes env x AnyEnd (p >>= f) w :=
  safe_bind h (fun a w _ => hf a w) fun _ _ _ => trivial

theorem goes_look {α : Type} {Q : Except PyErr α → Shared → Prop} {f : Shared → Proc α} {w : Shared} (hf : ∀ w', Onward x w w' → Goes env x Q (f w') w') : Goes env x Q (look >>= f) w :=
  safe_look .rfl hf

theorem goes_ite {α : Type} {Q : Except PyErr α → Shared → Prop} {c : Prop} [Decidable c] {p p' : Proc α} {w : Shared} (h : c → Goes env x Q p w) (h' : ¬ c → Goes env x Q p' w) :
    Goes env x Q (if c then p else p') w := by
  split
  · exact h ‹_›
  · exact h' ‹_›

theorem goes_lift {α : Type} {p : Prog α} {w : Shared} (h : Prog.Keeps env Prog.Always CallsGrow Prog.Any p) : Goes env x AnyEnd (lift p) w :=
  goes_mono (safe_lift h (fun _ => trivial) fun _ _ hs => onward_st hs) fun _ _ _ => trivial

theorem goes_change {f : Shared → Shared} {w : Shared} (h : ∀ w, Onward x w (f w)) : Goes env x AnyEnd (change f) w := safe_change fun w' _ => ⟨h w', trivial⟩

theorem goes_event {z : Slot} {w : Shared} : Goes env x AnyEnd (eventOf z) w := goes_look fun w1 _ => by cases w1.attr z <;> trivial
theorem goes_wait {z : Slot} {w : Shared} : Goes env x AnyEnd (wait z) w := goes_bind goes_event fun _ _ => goes_look fun _ _ => trivial
theorem goes_set {z : Slot} {w : Shared} : Goes env x AnyEnd (set z) w := goes_bind goes_event fun e _ => goes_change fun w => onward_setEvent x z w e

theorem goes_ussd (lines : List PyStr) (w : Shared) : Goes env x AnyEnd (handleUssd lines) w := by
  refine goes_look fun w1 _ => goes_ite (fun _ => ?_) fun _ => trivial
  cases parseCusdResponse lines with
  | error e => trivial
  | ok u =>
    show Goes env x AnyEnd (changeSt (fun s => { s with ussdResponse := some u }) >>= fun _ => set .ussd) w1
    exact goes_bind (goes_change fun w => onward_st (grow_same rfl rfl rfl rfl rfl rfl rfl)) fun _ _ => goes_set

theorem goes_tellDial (a b : Int) (w : Shared) : Goes env x AnyEnd (tellDial a b) w :=
  goes_bind (goes_change fun w => onward_st (grow_same rfl rfl rfl rfl rfl rfl rfl)) fun _ _ => goes_set

theorem goes_initiatedGroups (g : List PyStr) (w : Shared) : Goes env x AnyEnd (handleInitiatedGroups g) w := by
  refine goes_look fun w1 _ => goes_ite (fun _ => ?_) fun _ => trivial
  rcases g with _ | ⟨g0, _ | ⟨g1, g⟩⟩
  · trivial
  · dsimp only
    cases pyInt g0 with
    | error e => trivial
    | ok a => exact goes_tellDial _ _ _
  · dsimp only
    cases pyInt g0 with
    | error e => trivial
    | ok a =>
      cases pyInt g1 with
      | error e => trivial
      | ok b => exact goes_tellDial _ _ _

theorem goes_statusReport (l : PyStr) (w : Shared) : Goes env x AnyEnd (handleSmsStatusReport l) w := by
  unfold handleSmsStatusReport
  split
  · refine goes_bind (goes_lift (Prog.any (Prog.keeps_read grow_messages _ fun _ _ => trivial))) fun report w1 => goes_bind (goes_lift (Prog.any (Prog.keeps_delete grow_messages _ fun _ _ => trivial))) fun _ w2 => ?_
    cases report with
    | received => trivial
    | report st r n t1 t2 d =>
      refine goes_bind (goes_change fun w => onward_st ((grow_messages (env := env)).report w.st st r n t1 t2 d trivial)) fun _ w3 => ?_
      exact goes_look fun w4 _ => goes_ite (fun _ => goes_set) fun _ => goes_lift (Prog.keeps_callback grow_messages _)
  · trivial

theorem goes_dispatch (lines : List PyStr) : ∀ (ls : List PyStr) (w : Shared), Goes env x AnyEnd (dispatchLoop lines ls) w
  | [], _ => trivial
  | l :: ls, w => by
    refine goes_look fun w1 _ => ?_
    cases recognise (callTable w1.st.callStatusUpdates) l with
    | none => exact goes_dispatch lines ls w1
    | some d =>
      cases d with
      | ring => exact goes_lift (Prog.keeps_incoming Prog.callStable_grow trivial _)
      | cmti => exact goes_lift (Prog.any (Prog.keeps_received grow_messages fun _ _ _ => trivial))
      | cusd => exact goes_ussd lines w1
      | cdsi => exact goes_statusReport l w1
      | call hd g => exact goes_ite (fun _ => goes_initiatedGroups g w1) fun _ => goes_lift (Prog.keeps_handler Prog.callStable_grow hd g fun _ => trivial)

theorem goes_poll : ∀ (k : Nat) (p : Poller) (w : Shared), Goes env x AnyEnd (poll k p) w
  | 0, _, _ => trivial
  | k + 1, p, w => by
    refine goes_bind (goes_look fun w1 _ => goes_ite (fun _ => goes_bind (goes_lift (Prog.any (Prog.keeps_clcc Prog.callStable_grow))) fun seen w2 => ?_) fun _ => trivial)
      fun p' w' => goes_ite (fun _ => trivial) fun _ => goes_poll k p' w'
    rcases seen with _ | ⟨cid, dir, stat, mode⟩
    · exact goes_lift (Prog.keeps_pollStep Prog.callStable_grow trivial _ _)
    · exact goes_ite (fun _ => goes_bind (goes_look fun w3 _ => goes_ite (fun _ => goes_tellDial _ _ _) fun _ => trivial) fun _ _ => trivial)
        fun _ => goes_lift (Prog.keeps_pollStep Prog.callStable_grow trivial _ _)

theorem goes_task [PyUnicode] (a : Task) (w : Shared) : Goes env x AnyEnd a.proc w := by
  cases a with
  | message m =>
    have hm : Goes env x AnyEnd (lift m.prog) w := goes_lift (keeps_method grow_messages (by cases m <;> simp [Method.Uses]))
    cases m with
    | statusReport l => exact goes_statusReport l w
    | _ => exact hm
  | notify lines => exact goes_dispatch lines lines w
  | poll n p => exact goes_poll n p w
  | dial n cb => exact goes_lift (Prog.keeps_dialNow Prog.callStable_grow trivial n cb)
  | answer i => exact goes_lift (Prog.keeps_answer Prog.callStable_grow i)
  | hangup i => exact goes_lift (Prog.keeps_hangup Prog.callStable_grow trivial i)
  | dtmf i tones => exact goes_lift (Prog.keeps_dtmf Prog.callStable_grow i tones)

theorem goes_forget {z : Slot} {w : Shared} : Goes env x AnyEnd (change fun w => w.forget z) w := goes_change fun w => onward_forget x z w
theorem goes_create {z : Slot} {w : Shared} : Goes env x AnyEnd (change fun w => w.create z) w := goes_change fun w => onward_create x z w

theorem goes_onError {α : Type} {p : Proc α} {q : Proc Unit} {w : Shared} (hp : Goes env x AnyEnd p w) (hq : ∀ w, Goes env x AnyEnd q w) : Goes env x AnyEnd (p.onError q) w :=
  safe_onError hp (fun _ _ _ => trivial) fun _ w _ => goes_bind (hq w) fun _ _ => trivial

theorem goes_awaitUssd (ls : List PyStr) (w : Shared) : Goes env x AnyEnd (awaitUssd ls) w := by
  refine goes_ite (fun _ => goes_bind goes_forget fun _ _ => ?_) fun _ => goes_bind goes_wait fun ok _ => goes_bind goes_forget fun _ _ => goes_ite (fun _ => goes_look fun _ _ => trivial) fun _ => trivial
  cases parseCusdResponse ls <;> trivial

theorem goes_sendUssd (s : PyStr) (w : Shared) : Goes env x AnyEnd (sendUssd s) w :=
  goes_bind goes_create fun _ _ => goes_bind (goes_onError (goes_lift (Prog.any (Prog.keeps_write (Prog.callStable_writes Prog.callStable_grow) trivial))) fun _ => goes_forget) fun ls w2 => goes_awaitUssd ls w2

theorem goes_awaitDial (n : PyStr) (cb : Bool) (w : Shared) : Goes env x AnyEnd (awaitDial n cb) w := by
  refine goes_bind goes_wait fun ok _ => goes_bind goes_forget fun _ _ => goes_ite (fun _ => goes_look fun w1 _ => ?_) fun _ => trivial
  rcases w1.st.dialResponse with _ | ⟨a, b⟩
  · trivial
  · exact goes_lift (Prog.keeps_register Prog.callStable_grow trivial rfl)

theorem goes_dialWait (n : PyStr) (k : Nat) (cb : Bool) (w : Shared) : Goes env x AnyEnd (dialWait n k cb) w := by
  refine goes_bind goes_create fun _ _ => goes_bind (goes_onError (goes_lift (grow_writeAtd n)) fun _ => goes_forget) fun _ _ => goes_look fun w3 _ => ?_
  dsimp only
  split
  · exact goes_bind (goes_change fun w => onward_st (grow_same rfl rfl rfl rfl rfl rfl rfl)) fun _ w4 => goes_awaitDial _ _ _
  · exact goes_awaitDial _ _ _

theorem goes_awaitReport (i : Nat) (w : Shared) : Goes env x AnyEnd (awaitReport i) w :=
  goes_bind goes_create fun _ _ => goes_bind goes_wait fun _ _ => goes_bind goes_forget fun _ _ => goes_ite (fun _ => trivial) fun _ => trivial

/-- Every thread goes on so. -/
theorem goes_job [PyUnicode] (y : Job) (w : Shared) : Goes env x AnyEnd y.proc w := by
  cases y with
  | task a => exact goes_bind (goes_task a w) fun _ _ => trivial
  | ussd s => exact goes_bind (goes_sendUssd s w) fun _ _ => trivial
  | dial n k cb => exact goes_bind (goes_dialWait n k cb w) fun _ _ => trivial
  | sendWait d tx f => exact goes_bind (goes_bind (goes_lift (Prog.keeps_send grow_messages trivial d tx f)) fun i w1 => goes_awaitReport i w1) fun _ _ => trivial

/-! ### The threads that tell -/

variable {e : Nat}

/-- At the end the event is set, if the attribute has it still. -/
def Tells {α : Type} (x : Slot) (e : Nat) (r : Except PyErr α) (w : Shared) : Prop := w.attr x = some e → (∃ a, r = .ok a) ∧ (w.events x)[e]? = some true

/-- The attribute does not get the event back. -/
theorem goes_lost {α : Type} {p : Proc α} {w : Shared} (h : Goes env x AnyEnd p w) (hl : e < (w.events x).length) (ha : w.attr x ≠ some e) : Goes env x (Tells x e) p w := by
  induction p generalizing w with
  | done r => exact fun h => absurd h ha
  | io t k ih =>
    intro w' hw
    have h1 := (h w' hw).1
    exact ⟨h1, ih _ (h w' hw).2 (Nat.lt_of_lt_of_le hl (hw.trans h1).length) fun hc => ha ((hw.trans h1).attr e hl hc)⟩
  | act f k ih =>
    intro w' hw
    have h1 := (h w' hw).1
    exact ⟨h1, ih _ _ (h w' hw).2 (Nat.lt_of_lt_of_le hl (hw.trans h1).length) fun hc => ha ((hw.trans h1).attr e hl hc)⟩

theorem tells_look {α : Type} {f : Shared → Proc α} {w : Shared} (hl : e < (w.events x).length) (hg : ∀ w, Goes env x AnyEnd (f w) w)
    (hf : ∀ w', Onward x w w' → w'.attr x = some e → e < (w'.events x).length → Goes env x (Tells x e) (f w') w') : Goes env x (Tells x e) (look >>= f) w := by
  refine goes_look fun w' hw => ?_
  have hl' := Nat.lt_of_lt_of_le hl hw.length
  by_cases ha : w'.attr x = some e
  · exact hf w' hw ha hl'
  · exact goes_lost (hg w') hl' ha

theorem tells_set {w : Shared} (hl : e < (w.events x).length) : Goes env x (Tells x e) (set x) w := by
  refine tells_look (f := fun w => (match w.attr x with | some e => pure e | none => raise .attributeError : Proc Nat) >>= fun e => change fun w => w.setEvent x e) hl
    (fun w' => goes_bind (by cases w'.attr x <;> trivial) fun e' _ => goes_change fun w => onward_setEvent x x w e') fun w1 h1 ha hl1 => ?_
  rw [ha]
  refine fun w2 h2 => ⟨onward_setEvent x x w2 e, fun _ => ⟨⟨(), rfl⟩, ?_⟩⟩
  show (if x = x then (w2.events x).set e true else w2.events x)[e]? = _
  rw [if_pos rfl, List.getElem?_set_self (Nat.lt_of_lt_of_le hl1 h2.length)]

theorem tells_then {α β : Type} {p : Proc α} {f : α → Proc β} {w : Shared} (h : Goes env x (Tells x e) p w) (hp : ∀ a, ∃ b, f a = pure b) : Goes env x (Tells x e) (p >>= f) w := by
  refine safe_bind h (fun a w1 h1 => ?_) fun err w1 h1 ha => ?_
  · obtain ⟨b, hb⟩ := hp a
    rw [hb]
    exact fun ha => ⟨⟨b, rfl⟩, (h1 ha).2⟩
  · obtain ⟨⟨_, h⟩, _⟩ := h1 ha
    cases h

theorem tells_changeSt {f : St → St} (hf : ∀ s, CallsGrow s (f s)) {w : Shared} (hl : e < (w.events x).length) : Goes env x (Tells x e) (changeSt f >>= fun _ => set x) w :=
  fun w' hw => ⟨onward_st (hf _), tells_set (w := { w' with st := f w'.st }) (Nat.lt_of_lt_of_le hl hw.length)⟩

theorem tells_ussd {lines : List PyStr} {u : Ussd} (hu : parseCusdResponse lines = .ok u) {w : Shared} (hl : e < (w.events .ussd).length) :
    Goes env .ussd (Tells .ussd e) (handleUssd lines) w := by
  refine tells_look hl (fun w' => ?_) fun w1 h1 ha hl1 => ?_
  · refine goes_ite (fun _ => ?_) fun _ => trivial
    rw [hu]
    exact goes_bind (p := changeSt fun s => { s with ussdResponse := some u }) (goes_change fun w => onward_st (grow_same rfl rfl rfl rfl rfl rfl rfl)) fun _ _ => goes_set
  · rw [if_pos (by rw [ha]; rfl), hu]
    exact tells_changeSt (f := fun s => { s with ussdResponse := some u }) (fun s => grow_same rfl rfl rfl rfl rfl rfl rfl) hl1

theorem tells_tellDial (a b : Int) {w : Shared} (hl : e < (w.events .dial).length) : Goes env .dial (Tells .dial e) (tellDial a b) w :=
  tells_changeSt (f := fun s => { s with dialResponse := some (a, b) }) (fun s => grow_same rfl rfl rfl rfl rfl rfl rfl) hl

theorem tells_groups {g : List PyStr} {a b : Nat} (h1 : a ≤ 9) (h2 : b ≤ 9) (hg : g = [[48 + a], [48 + b]] ∨ g = [[48 + a]]) {w : Shared} (hl : e < (w.events .dial).length) :
    Goes env .dial (Tells .dial e) (handleInitiatedGroups g) w := by
  have hany := fun w => goes_initiatedGroups (env := env) (x := .dial) g w
  refine tells_look hl (fun w' => (hany w' w' (.rfl _)).2) fun w1 _ ha hl1 => ?_
  rw [if_pos (by rw [ha]; rfl)]
  rcases hg with rfl | rfl
  · dsimp only
    rw [pyInt_digit h1, pyInt_digit h2]
    exact tells_tellDial _ _ hl1
  · dsimp only
    rw [pyInt_digit h1]
    exact tells_tellDial _ _ hl1

/-- The first line that announces something decides. -/
theorem tells_dispatch {t : CallTable} {lines : List PyStr} {line : PyStr} {post : List PyStr} : ∀ (pre : List PyStr) {w : Shared},
    (∀ l ∈ pre, ∀ d, ¬ Announces (callTable t) l d) → w.st.callStatusUpdates = t → e < (w.events x).length →
    (∀ w', w'.st.callStatusUpdates = t → e < (w'.events x).length → Goes env x (Tells x e) (dispatchLoop lines (line :: post)) w') →
    Goes env x (Tells x e) (dispatchLoop lines (pre ++ line :: post)) w
  | [], w, _, ht, hl, h => h w ht hl
  | l :: pre, w, hpre, ht, hl, h => by
    refine goes_look fun w1 h1 => ?_
    have ht1 := h1.grow.updates.trans ht
    have hr : recognise (callTable t) l = none := by
      cases hr : recognise (callTable t) l with
      | none => rfl
      | some d => exact absurd (recognise_iff.1 hr) (hpre l List.mem_cons_self d)
    rw [ht1, hr]
    exact tells_dispatch pre (fun l' hl' => hpre l' (List.mem_cons_of_mem _ hl')) ht1 (Nat.lt_of_lt_of_le hl h1.length) h

theorem tells_first {t : CallTable} {lines post : List PyStr} {line : PyStr} {d : Dispatch} {p : Proc Unit} {w : Shared} (hr : recognise (callTable t) line = some d)
    (hp : (match d with
      | .ring => lift (Prog.handleIncomingCall lines)
      | .cmti => lift (Prog.handleSmsReceived line)
      | .cusd => handleUssd lines
      | .cdsi => handleSmsStatusReport line
      | .call h g => if h = .initiated then handleInitiatedGroups g else lift (Prog.runCallHandler h g)) = p)
    (ht : w.st.callStatusUpdates = t) (hl : e < (w.events x).length) (h : ∀ w', e < (w'.events x).length → Goes env x (Tells x e) p w') :
    Goes env x (Tells x e) (dispatchLoop lines (line :: post)) w := by
  refine goes_look fun w1 h1 => ?_
  rw [h1.grow.updates.trans ht, hr]
  subst hp
  have := h w1 (Nat.lt_of_lt_of_le hl h1.length)
  cases d <;> exact this

/-- A report: its thread sets the event, if it ends without an error. -/
theorem tells_report {l mem idx : PyStr} (hg : rxGroups cdsiRegex l = some [mem, idx]) {w : Shared} (hl : e < (w.events .report).length) :
    Goes env .report (fun r w => r = .ok () → Tells .report e r w) (handleSmsStatusReport l) w := by
  have len : ∀ {α : Type} {p : Proc α} {w : Shared}, Goes env .report AnyEnd p w → e < (w.events .report).length → Goes env .report (fun _ w => e < (w.events .report).length) p w := by
    intro α p w h hw
    induction p generalizing w with
    | done r => exact hw
    | io t k ih => exact fun w' hw' => ⟨(h w' hw').1, ih _ (h w' hw').2 (Nat.lt_of_lt_of_le hw (hw'.trans (h w' hw').1).length)⟩
    | act f k ih => exact fun w' hw' => ⟨(h w' hw').1, ih _ _ (h w' hw').2 (Nat.lt_of_lt_of_le hw (hw'.trans (h w' hw').1).length)⟩
  unfold handleSmsStatusReport
  rw [hg]
  dsimp only
  refine safe_bind (len (goes_lift (Prog.any (Prog.keeps_read grow_messages _ fun _ _ => trivial))) hl) (fun report w1 h1 => ?_) fun _ _ _ h => nomatch h
  refine safe_bind (len (goes_lift (Prog.any (Prog.keeps_delete grow_messages _ fun _ _ => trivial))) h1) (fun _ w2 h2 => ?_) fun _ _ _ h => nomatch h
  cases report with
  | received => exact fun h => nomatch h
  | report st r n t1 t2 d =>
    refine safe_bind (len (p := lift (Prog.updateSent _ _ _)) (goes_change fun w => onward_st ((grow_messages (env := env)).report w.st st r n t1 t2 d trivial)) h2) (fun _ w3 h3 => ?_) fun _ _ _ h => nomatch h
    refine goes_mono (tells_look h3 (fun w' => goes_ite (fun _ => goes_set) fun _ => goes_lift (Prog.keeps_callback grow_messages _)) fun w4 _ ha hl4 => ?_) fun _ _ h _ => h
    rw [if_pos (by rw [ha]; rfl)]
    exact tells_set hl4

end Proc
end Gsm
