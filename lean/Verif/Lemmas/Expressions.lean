import Verif.Spec.Expressions
import Verif.Lemmas.ThreadConnectWalk
import Verif.Lemmas.ClockBound
/-! # Lemmas: the expressions for stored messages -/
namespace Gsm
open Spec

variable {env : Env}

/-! ### The mode stays -/

/-- The mode is the same. -/
def ModeSame (a b : St) : Prop := b.smsTextMode = a.smsTextMode

namespace Prog

/-- The program never changes the mode. -/
abbrev ModeKept {α : Type} (env : Env) (p : Prog α) : Prop := Keeps env Always ModeSame Any p

theorem writes_mode : Writes Always ModeSame fun _ => True := ⟨fun _ _ => rfl, fun _ _ _ => rfl, fun _ _ _ _ => rfl⟩
theorem settings_mode : ∀ s s' : St, Always s → SettingsOnly s s' → ModeSame s s' := fun _ _ _ h => h.mode

theorem modeKept : Closed (fun {α} (p : Prog α) => ModeKept env p) False where
  done r := by cases r <;> trivial
  act _ _ h hk := fun s _ => ⟨(h env s).2.2, hk env s⟩
  bind h hf := keeps_bind h fun a _ => hf a
  write data pe term := keeps_mono (keeps_write writes_mode trivial) fun _ _ => trivial
  mode h := h.elim
  except _ hp hh := keeps_except hp hh

theorem modeKept_clcc : ModeKept env clccQuery := by
  refine keeps_except (keeps_bind (keeps_write writes_mode trivial) fun ls _ => keeps_bind (keeps_ofExcept _) fun l _ => ?_) fun _ => trivial
  rcases rxGroups clccRegex l with _ | ⟨_ | ⟨a, _ | ⟨b, _ | ⟨c, _ | ⟨d, g⟩⟩⟩⟩⟩ <;> try trivial
  exact keeps_bind (keeps_ofExcept _) fun _ _ => keeps_bind (keeps_ofExcept _) fun _ _ => keeps_bind (keeps_ofExcept _) fun _ _ => keeps_bind (keeps_ofExcept _) fun _ _ => trivial

theorem modeKept_task [PyUnicode] (t : Task) (h : ¬ ∃ v, t = .message (.setTextMode v)) : ModeKept env t.prog :=
  walk_task modeKept t h (fun _ => modeKept_clcc) fun _ _ _ _ => ⟨rfl, trivial⟩

theorem linked_mode : Linked (fun {α} (p : Prog α) => ModeKept env p) fun _ => True := linked_keeps writes_mode settings_mode

end Prog

/-! ### Programs that do the same, apart from the expressions -/

/-- The first does what the second does as long as `I`, and some steps that change only the expressions. -/
inductive CompSim (env : Env) (I : Lib → Prop) {α : Type} : Comp α → Prog α → Prop
  | done (r : Except PyErr α) : CompSim env I (.done r) (.done r)
  | io {t : PyStr} {k : Reply → Comp α} {k' : Reply → Prog α} (hl : ∀ x, I x → I { x with st := { x.st with log := t :: x.st.log } })
      (h : ∀ x, I x → CompSim env I (k (env.reply (t :: x.st.log))) (k' (env.reply (t :: x.st.log)))) : CompSim env I (.io t k) (.io t k')
  | act {f : Limits → Lib → Lib} {k : Limits → Lib → Comp α} {f' : Limits → St → St} {k' : Limits → St → Prog α} (hf : ∀ x, I x → (f env x).st = f' env x.st ∧ I (f env x))
      (h : ∀ x, I x → CompSim env I (k env x) (k' env x.st)) : CompSim env I (.act f k) (.act f' k')
  | wait {f : Limits → Lib → Lib} {k : Limits → Lib → Comp α} {q : Prog α} (hf : ∀ x, I x → (f env x).st = x.st ∧ I (f env x)) (h : ∀ x, I x → CompSim env I (k env x) q) : CompSim env I (.act f k) q

/-- `I` is not about more than the mode, and not against compiling. -/
structure Inv (I : Lib → Prop) : Prop where
  mode : ∀ {x : Lib} {s : St}, I x → ModeSame x.st s → I { x with st := s }
  deliver : ∀ {x y : Lib}, I x → x.st.smsTextMode = true → I y → I { y with deliver := true }
  report : ∀ {x y : Lib}, I x → x.st.smsTextMode = true → I y → I { y with report := true }
  pdu : ∀ {x : Lib}, I x → I { x with pdu := true }

/-- With `I` the expressions are there when they are needed. -/
structure Serves (I : Lib → Prop) : Prop extends Inv I where
  text : ∀ {x y : Lib}, I x → x.st.smsTextMode = true → I y → y.deliver = true ∧ y.report = true
  bytes : ∀ {x y : Lib}, I x → x.st.smsTextMode = false → I y → y.pdu = true

namespace Comp

variable {I : Lib → Prop} {α β : Type}

theorem sim_bind {p : Comp α} {q : Prog α} {f : α → Comp β} {g : α → Prog β} (h : CompSim env I p q) (hf : ∀ a, CompSim env I (f a) (g a)) : CompSim env I (p >>= f) (q >>= g) := by
  show CompSim env I (p.bind f) (q.bind g)
  induction h with
  | done r =>
    cases r with
    | ok a => exact hf a
    | error e => exact .done _
  | io hl _ ih => exact .io hl ih
  | act h _ ih => exact .act h ih
  | wait h _ ih => exact .wait h ih

theorem sim_lift (hI : Inv I) {q : Prog α} (h : q.ModeKept env) : CompSim env I (lift q) q := by
  induction q with
  | done r => exact .done r
  | io t k ih => exact .io (fun x hx => hI.mode hx rfl) fun x hx => ih _ (h x.st trivial).2
  | act f k ih => exact .act (fun x hx => ⟨rfl, hI.mode hx (h x.st trivial).1⟩) fun x hx => ih _ _ (h x.st trivial).2

theorem sim_look {f : Lib → Comp α} {g : St → Prog α} (h : ∀ x, I x → CompSim env I (f x) (g x.st)) : CompSim env I (look >>= f) (Prog.look >>= g) := .act (fun _ hx => ⟨rfl, hx⟩) h
theorem sim_wait {f : Lib → Comp α} {q : Prog α} (h : ∀ x, I x → CompSim env I (f x) q) : CompSim env I (look >>= f) q := .wait (fun _ hx => ⟨rfl, hx⟩) h
theorem sim_pure (a : α) : CompSim env I (pure a : Comp α) (pure a) := .done _
theorem sim_ite {c : Prop} [Decidable c] {p p' : Comp α} {q q' : Prog α} (h : c → CompSim env I p q) (h' : ¬ c → CompSim env I p' q') : CompSim env I (if c then p else p') (if c then q else q') := by
  split
  · exact h ‹_›
  · exact h' ‹_›
theorem sim_cases {c : Prop} [Decidable c] {p p' : Comp α} {q : Prog α} (h : c → CompSim env I p q) (h' : ¬ c → CompSim env I p' q) : CompSim env I (if c then p else p') q := by
  split
  · exact h ‹_›
  · exact h' ‹_›
/-- Steps about the expressions only. -/
theorem sim_idle {p : Comp Unit} {f : Unit → Comp α} {q : Prog α} (h : CompSim env I p (pure ())) (hf : CompSim env I (f ()) q) : CompSim env I (p >>= f) q := sim_bind (g := fun _ => q) h fun _ => hf

theorem sim_compile (hI : Inv I) : CompSim env I compileRegexes (pure ()) := by
  refine sim_wait fun x hx => sim_cases (fun hm => sim_wait fun y _ => sim_cases (fun _ => sim_pure _) fun _ => ?_) fun _ => sim_wait fun y _ => sim_cases (fun _ => sim_pure _) fun _ => ?_
  · exact .wait (fun y hy => ⟨rfl, hI.deliver hx hm hy⟩) fun _ _ => .wait (fun y hy => ⟨rfl, hI.report hx hm hy⟩) fun _ _ => sim_pure _
  · exact .wait (fun x hx => ⟨rfl, hI.pdu hx⟩) fun _ _ => sim_pure _

theorem sim_need {f : Lib → Bool} (h : ∀ x, I x → f x = true) : CompSim env I (need f) (pure ()) := by
  refine sim_wait fun x hx => ?_
  rw [if_pos (h x hx)]
  exact sim_pure _

theorem sim_read (hI : Serves I) (i : PyStr) (m : Option PyStr) : CompSim env I (readStoredSms i m) (Prog.readStoredSms i m) := by
  refine sim_bind (sim_lift hI.toInv (Prog.walk_memory Prog.modeKept m)) fun _ => sim_bind (sim_lift hI.toInv (Prog.modeKept.write _ _ _)) fun ls => sim_look fun x hx => ?_
  cases hm : x.st.smsTextMode with
  | true =>
    simp only [if_true]
    have hd := fun y hy => (hI.text (y := y) hx hm hy).1
    have hr := fun y hy => (hI.text (y := y) hx hm hy).2
    refine sim_idle (sim_need hd) ?_
    split
    · exact sim_lift hI.toInv (Prog.walk_ofExcept Prog.modeKept _)
    · exact sim_idle (sim_need hr) (sim_lift hI.toInv (Prog.walk_ofExcept Prog.modeKept _))
  | false => exact sim_idle (sim_need fun y hy => hI.bytes hx hm hy) (sim_lift hI.toInv (Prog.walk_ofExcept Prog.modeKept _))

theorem sim_received (hI : Serves I) (l : PyStr) : CompSim env I (handleSmsReceived l) (Prog.handleSmsReceived l) := by
  unfold handleSmsReceived Prog.handleSmsReceived
  rcases rxGroups cmtiRegex l with _ | ⟨_ | ⟨a, _ | ⟨b, _ | ⟨c, g⟩⟩⟩⟩ <;> try exact sim_pure _
  exact sim_bind (sim_read hI _ _) fun sms => sim_lift hI.toInv (Prog.modeKept.bind (Prog.walk_delete Prog.modeKept _ _) fun _ => Prog.walk_callback Prog.modeKept _)

theorem modeKept_reportRead (i : PyStr) (m : Msg) : (reportRead i m).ModeKept env := by
  refine Prog.modeKept.bind (Prog.walk_delete Prog.modeKept _ _) fun _ => ?_
  cases m with
  | received => trivial
  | report =>
    refine Prog.modeKept.bind (Prog.walk_change Prog.modeKept fun _ => ⟨rfl, rfl, rfl⟩) fun _ => Prog.modeKept.act _ _ (fun _ s => ?_) fun _ s => Prog.walk_ite Prog.modeKept (Prog.walk_pure Prog.modeKept _) (Prog.walk_callback Prog.modeKept _)
    split <;> exact ⟨rfl, rfl, rfl⟩

theorem sim_statusReport (hI : Serves I) (l : PyStr) : CompSim env I (handleSmsStatusReport l) (Prog.handleSmsStatusReport l) := by
  unfold handleSmsStatusReport Prog.handleSmsStatusReport
  rcases rxGroups cdsiRegex l with _ | ⟨_ | ⟨a, _ | ⟨b, _ | ⟨c, g⟩⟩⟩⟩ <;> try exact sim_pure _
  exact sim_bind (sim_read hI _ _) fun r => sim_lift hI.toInv (modeKept_reportRead _ r)

theorem sim_dispatch (hI : Serves I) (lines : List PyStr) : ∀ ls, CompSim env I (dispatchLoop lines ls) (Prog.dispatchLoop lines ls)
  | [] => sim_pure _
  | l :: ls => by
    refine sim_look fun x _ => ?_
    cases recognise (callTable x.st.callStatusUpdates) l with
    | none => exact sim_dispatch hI lines ls
    | some d =>
      cases d with
      | ring => exact sim_lift hI.toInv (Prog.walk_incoming Prog.modeKept _)
      | cmti => exact sim_received hI _
      | cusd => exact sim_lift hI.toInv (Prog.walk_ussd Prog.modeKept _)
      | cdsi => exact sim_statusReport hI _
      | call h g => exact sim_lift hI.toInv (Prog.walk_handler Prog.modeKept _ _)

theorem sim_textMode (hI : Inv I) {v : Bool} (hv : ∀ {x : Lib}, I x → I { x with st := { x.st with smsTextMode := v } }) : CompSim env I (setSmsTextMode v) (Prog.setSmsTextMode v) := by
  have h : CompSim env I (do change fun x => { x with st := { x.st with smsTextMode := v } }; compileRegexes) (Prog.change fun s => { s with smsTextMode := v }) :=
    .act (fun x hx => ⟨rfl, hv hx⟩) fun _ _ => sim_compile hI
  refine sim_look fun x _ => sim_ite (fun _ => sim_look fun y _ => sim_ite (fun _ => ?_) fun _ => h) fun _ => sim_pure _
  exact sim_bind (sim_lift hI (Prog.modeKept.write _ _ _)) fun _ => h

theorem sim_connect (hI : Inv I) (pin : Option PyStr) : CompSim env I (connect pin) (Prog.connect pin) := by
  have L := Prog.linked_mode (env := env)
  have D := Prog.commands_all
  have hu := Prog.link_unlock L trivial (pin := pin) fun _ _ => trivial
  refine sim_bind (sim_lift hI fun s _ => ⟨rfl, trivial⟩) fun _ => sim_bind (sim_lift hI (Prog.link_basics L D hu)) fun _ => sim_bind (sim_lift hI (Prog.link_identify L D)) fun r =>
    sim_bind (sim_lift hI (Prog.link_callTable L _ _)) fun _ => sim_bind (sim_bind (sim_lift hI (L.write _ _ trivial)) fun _ => sim_look fun x _ => sim_bind (sim_lift hI (L.write _ _ trivial)) fun _ =>
    sim_idle (sim_compile hI) (sim_lift hI (Prog.link_centre L D))) fun _ => sim_lift hI (L.bind (Prog.link_memory L D) fun _ => Prog.link_notifications L D)

/-! ### Runs -/

theorem sim_run {p : Comp α} {q : Prog α} (h : CompSim env I p q) {x : Lib} (hx : I x) : (run env p x).1 = (q.run env x.st).1 ∧ (run env p x).2.st = (q.run env x.st).2 ∧ I (run env p x).2 := by
  induction h generalizing x with
  | done r => exact ⟨rfl, rfl, hx⟩
  | io hl _ ih => exact ih x hx (hl x hx)
  | act hf _ ih =>
    have := ih x hx (hf x hx).2
    rw [(hf x hx).1] at this
    exact this
  | wait hf _ ih =>
    have := ih x hx (hf x hx).2
    rw [(hf x hx).1] at this
    exact this

theorem sim_step {p : Comp α} {q : Prog α} (h : CompSim env I p q) {x : Lib} (hx : I x) :
    I (p.step env x).2 ∧ ((CompSim env I (p.step env x).1 q ∧ (p.step env x).2.st = x.st) ∨ (CompSim env I (p.step env x).1 (q.step env x.st).1 ∧ (p.step env x).2.st = (q.step env x.st).2)) := by
  cases h with
  | done r => exact ⟨hx, .inl ⟨.done r, rfl⟩⟩
  | io hl h => exact ⟨hl x hx, .inr ⟨h x hx, rfl⟩⟩
  | act hf h => exact ⟨(hf x hx).2, .inr ⟨h x hx, (hf x hx).1⟩⟩
  | wait hf h => exact ⟨(hf x hx).2, .inl ⟨h x hx, (hf x hx).1⟩⟩

/-- The threads do the same, one by one. -/
def SimAll (env : Env) (I : Lib → Prop) (ps : List (Comp Unit)) (qs : List (Prog Unit)) : Prop :=
  ps.length = qs.length ∧ ∀ (i : Nat) (p : Comp Unit) (q : Prog Unit), ps[i]? = some p → qs[i]? = some q → CompSim env I p q

theorem simAll_set {ps : List (Comp Unit)} {qs : List (Prog Unit)} (h : SimAll env I ps qs) {i : Nat} {p : Comp Unit} {q : Prog Unit} (hpq : CompSim env I p q) : SimAll env I (ps.set i p) (qs.set i q) := by
  refine ⟨by simp [h.1], fun j a b ha hb => ?_⟩
  rw [List.getElem?_set] at ha hb
  by_cases hij : i = j
  · subst hij
    rw [if_pos rfl] at ha hb
    split at ha
    · split at hb
      · cases ha; cases hb; exact hpq
      · cases hb
    · cases ha
  · rw [if_neg hij] at ha hb
    exact h.2 j a b ha hb

theorem sim_threads : ∀ (schedule : List Nat) {ps : List (Comp Unit)} {qs : List (Prog Unit)} {x : Lib}, SimAll env I ps qs → I x →
    ∃ schedule', SimAll env I (runComps env schedule (ps, x)).1 (runThreads env schedule' (qs, x.st)).1 ∧
      (runComps env schedule (ps, x)).2.st = (runThreads env schedule' (qs, x.st)).2 ∧ I (runComps env schedule (ps, x)).2
  | [], ps, qs, x, h, hx => ⟨[], h, rfl, hx⟩
  | i :: is, ps, qs, x, h, hx => by
    unfold runComps
    cases hp : ps[i]? with
    | none => exact sim_threads is h hx
    | some p =>
      have hi : i < qs.length := h.1 ▸ (List.getElem?_eq_some_iff.1 hp).1
      have hq : qs[i]? = some qs[i] := List.getElem?_eq_getElem hi
      obtain ⟨h1, ⟨h2, h3⟩ | ⟨h2, h3⟩⟩ := sim_step (h.2 i p _ hp hq) hx
      · have hs : SimAll env I (ps.set i (p.step env x).1) qs := by
          have := simAll_set (i := i) h h2
          rwa [List.set_getElem_self] at this
        obtain ⟨schedule', h4⟩ := sim_threads is hs h1
        rw [h3] at h4
        exact ⟨schedule', h4⟩
      · obtain ⟨schedule', h4⟩ := sim_threads is (simAll_set (i := i) h h2) h1
        refine ⟨i :: schedule', ?_⟩
        unfold runThreads
        rw [hq]
        dsimp only
        rw [← h3]
        exact h4

theorem runComps_append : ∀ (a b : List Nat) (y : List (Comp Unit) × Lib), runComps env (a ++ b) y = runComps env b (runComps env a y)
  | [], _, _ => rfl
  | i :: is, b, (ps, x) => by
    simp only [List.cons_append, runComps]
    cases ps[i]? with
    | none => exact runComps_append is b _
    | some p => exact runComps_append is b _

/-- A step there is some steps here. -/
theorem sim_advance {i : Nat} {p : Comp Unit} {q : Prog Unit} (h : CompSim env I p q) : ∀ {ps : List (Comp Unit)} {qs : List (Prog Unit)} {x : Lib}, SimAll env I ps qs → I x → ps[i]? = some p → qs[i]? = some q →
    ∃ schedule, SimAll env I (runComps env schedule (ps, x)).1 (qs.set i (q.step env x.st).1) ∧ (runComps env schedule (ps, x)).2.st = (q.step env x.st).2 ∧ I (runComps env schedule (ps, x)).2 := by
  have one (p : Comp Unit) (ps : List (Comp Unit)) (x : Lib) (hp : ps[i]? = some p) (rest : List Nat) : runComps env (i :: rest) (ps, x) = runComps env rest (ps.set i (p.step env x).1, (p.step env x).2) := by
    simp only [runComps, hp]
  have at_ (p' : Comp Unit) (ps : List (Comp Unit)) (hp : i < ps.length) : (ps.set i p')[i]? = some p' := by simp [hp]
  induction h with
  | done r =>
    intro ps qs x hs hx hp hq
    refine ⟨[], ?_, rfl, hx⟩
    have := simAll_set (i := i) hs (.done (env := env) (I := I) r)
    rwa [show ps.set i (.done r) = ps from by obtain ⟨_, h⟩ := List.getElem?_eq_some_iff.1 hp; rw [← h]; simp] at this
  | io hl h =>
    intro ps qs x hs hx hp hq
    refine ⟨[i], ?_⟩
    rw [one _ ps x hp]
    exact ⟨simAll_set hs (h x hx), rfl, hl x hx⟩
  | act hf h =>
    intro ps qs x hs hx hp hq
    refine ⟨[i], ?_⟩
    rw [one _ ps x hp]
    exact ⟨simAll_set hs (h x hx), (hf x hx).1, (hf x hx).2⟩
  | @wait f k q hf h ih =>
    intro ps qs x hs hx hp hq
    have hs' : SimAll env I (ps.set i (k env x)) qs := by
      have := simAll_set (i := i) hs (h x hx)
      rwa [show qs.set i q = qs from by obtain ⟨_, h⟩ := List.getElem?_eq_some_iff.1 hq; rw [← h]; simp] at this
    obtain ⟨schedule, h1⟩ := ih x hx hs' (hf x hx).2 (at_ _ _ (List.getElem?_eq_some_iff.1 hp).1) hq
    refine ⟨i :: schedule, ?_⟩
    rw [one _ ps x hp]
    rw [(hf x hx).1] at h1
    exact h1

theorem sim_threads_back : ∀ (schedule' : List Nat) {ps : List (Comp Unit)} {qs : List (Prog Unit)} {x : Lib}, SimAll env I ps qs → I x →
    ∃ schedule, SimAll env I (runComps env schedule (ps, x)).1 (runThreads env schedule' (qs, x.st)).1 ∧
      (runComps env schedule (ps, x)).2.st = (runThreads env schedule' (qs, x.st)).2 ∧ I (runComps env schedule (ps, x)).2
  | [], ps, qs, x, h, hx => ⟨[], h, rfl, hx⟩
  | i :: is, ps, qs, x, h, hx => by
    unfold runThreads
    cases hq : qs[i]? with
    | none => exact sim_threads_back is h hx
    | some q =>
      have hi : i < ps.length := h.1 ▸ (List.getElem?_eq_some_iff.1 hq).1
      have hp : ps[i]? = some ps[i] := List.getElem?_eq_getElem hi
      obtain ⟨s1, h1, h2, h3⟩ := sim_advance (h.2 i _ q hp hq) h hx hp hq
      obtain ⟨s2, h4⟩ := sim_threads_back is h1 h3
      refine ⟨s1 ++ s2, ?_⟩
      rw [runComps_append]
      rw [h2] at h4
      exact h4

/-- When the threads here have ended, so have those there; and the other way round after some more steps. -/
theorem simAll_alike {ps : List (Comp Unit)} {qs : List (Prog Unit)} (h : SimAll env I ps qs) : EndsAlike ps qs := by
  refine ⟨h.1, fun i r hi => ?_⟩
  have hlt : i < qs.length := h.1 ▸ (List.getElem?_eq_some_iff.1 hi).1
  have hs := h.2 i _ _ hi (List.getElem?_eq_getElem hlt)
  rw [List.getElem?_eq_getElem hlt]
  generalize qs[i] = q at hs
  cases hs
  rfl

/-! ### Every activity -/

theorem sim_activity [PyUnicode] (hI : Serves I) (a : Activity) (ha : ∀ v, SwitchesTo v a → ∀ {x : Lib}, I x → I { x with st := { x.st with smsTextMode := v } }) : CompSim env I a.comp a.prog := by
  cases a with
  | connect pin => exact sim_connect hI.toInv pin
  | task t =>
    by_cases ht : ∃ v, t = .message (.setTextMode v)
    · obtain ⟨v, rfl⟩ := ht
      exact sim_textMode hI.toInv (ha v rfl)
    · have hk := Prog.modeKept_task (env := env) t ht
      cases t with
      | message m =>
        cases m with
        | read i m => exact sim_bind (sim_read hI i m) fun _ => sim_pure _
        | received l => exact sim_received hI l
        | statusReport l => exact sim_statusReport hI l
        | setTextMode v => exact absurd ⟨v, rfl⟩ ht
        | _ => exact sim_lift hI.toInv hk
      | notify lines => exact sim_dispatch hI lines lines
      | _ => exact sim_lift hI.toInv hk

theorem simAll_activities [PyUnicode] (hI : Serves I) (as : List Activity) (ha : ∀ a ∈ as, ∀ v, SwitchesTo v a → ∀ {x : Lib}, I x → I { x with st := { x.st with smsTextMode := v } }) :
    SimAll env I (as.map Activity.comp) (as.map Activity.prog) := by
  refine ⟨by simp, fun i p q hp hq => ?_⟩
  simp only [List.getElem?_map, Option.map_eq_some_iff] at hp hq
  obtain ⟨a, h1, rfl⟩ := hp
  obtain ⟨b, h2, rfl⟩ := hq
  rw [h1] at h2
  cases h2
  exact sim_activity hI a (ha a (List.mem_of_getElem? h1))

theorem serves_mode (b : Bool) : Serves fun x => x.st.smsTextMode = b ∧ CompiledFor b x where
  mode h hs := ⟨hs.trans h.1, h.2⟩
  deliver _ _ h := ⟨h.1, by have := h.2; cases b <;> simp_all [CompiledFor]⟩
  report _ _ h := ⟨h.1, by have := h.2; cases b <;> simp_all [CompiledFor]⟩
  pdu h := ⟨h.1, by have := h.2; cases b <;> simp_all [CompiledFor]⟩
  text hx hm hy := by rw [hx.1] at hm; subst hm; exact hy.2
  bytes hx hm hy := by rw [hx.1] at hm; subst hm; exact hy.2

theorem serves_usable (b : Bool) : Serves fun x => x.st.smsTextMode = b ∧ CompiledFor b x ∧ BothOrNone x where
  mode h hs := ⟨hs.trans h.1, h.2⟩
  deliver hx hm h := ⟨h.1, by have h2 := h.2; rw [hx.1] at hm; subst hm; simp_all [CompiledFor, BothOrNone]⟩
  report hx hm h := ⟨h.1, by have h2 := h.2; rw [hx.1] at hm; subst hm; simp_all [CompiledFor, BothOrNone]⟩
  pdu h := ⟨h.1, by have := h.2; cases b <;> simp_all [CompiledFor, BothOrNone]⟩
  text hx hm hy := by rw [hx.1] at hm; subst hm; exact hy.2.1
  bytes hx hm hy := by rw [hx.1] at hm; subst hm; exact hy.2.1

theorem serves_both : Serves fun x => CompiledFor true x ∧ CompiledFor false x where
  mode h _ := h
  deliver _ _ h := by simp_all [CompiledFor]
  report _ _ h := by simp_all [CompiledFor]
  pdu h := by simp_all [CompiledFor]
  text _ _ hy := hy.1
  bytes _ _ hy := hy.2

theorem inv_true : Inv fun _ => True := ⟨fun _ _ => trivial, fun _ _ _ => trivial, fun _ _ _ => trivial, fun _ => trivial⟩

/-! ### Without other threads -/

theorem run_bind (p : Comp α) (f : α → Comp β) (x : Lib) : run env (p >>= f) x = match run env p x with
    | (.ok a, y) => run env (f a) y
    | (.error e, y) => (.error e, y) := by
  show run env (p.bind f) x = _
  induction p generalizing x with
  | done r => cases r <;> rfl
  | io t k ih => exact ih _ _
  | act g k ih => exact ih _ _ _

theorem run_lift (q : Prog α) (x : Lib) : run env (lift q) x = ((q.run env x.st).1, { x with st := (q.run env x.st).2 }) := by
  induction q generalizing x with
  | done r => rfl
  | io t k ih => exact ih _ _
  | act f k ih => exact ih _ _ _

theorem run_compile (x : Lib) : (run env compileRegexes x).1 = .ok () ∧ (run env compileRegexes x).2.st = x.st ∧ (BothOrNone x → Usable (run env compileRegexes x).2) := by
  obtain ⟨s, d, r, p⟩ := x
  cases hm : s.smsTextMode <;> cases d <;> cases r <;> cases p <;>
    simp [compileRegexes, look, change, run, Bind.bind, bind, hm, pure, Usable, CompiledFor, BothOrNone]

theorem run_keeps {G : St → St → Prop} (hr : ∀ s, G s s) (ht : ∀ a b c, G a b → G b c → G a c) {p : Prog α} {Q : α → Prop} (h : p.Keeps env Prog.Always G Q) (s : St) : G s (p.run env s).2 := by
  induction p generalizing s with
  | done r => exact hr s
  | io t k ih => exact ht _ _ _ (h s trivial).1 (ih _ (h s trivial).2 _)
  | act f k ih => exact ht _ _ _ (h s trivial).1 (ih _ _ (h s trivial).2 _)

theorem run_mode {p : Prog α} (h : p.ModeKept env) (s : St) : (p.run env s).2.smsTextMode = s.smsTextMode := run_keeps (G := ModeSame) (fun _ => rfl) (fun _ _ _ h h' => Eq.trans h' h) h s

theorem usable_mode {x : Lib} {s : St} (h : Usable x) (hs : s.smsTextMode = x.st.smsTextMode) : Usable { x with st := s } := by
  unfold Usable at h ⊢
  rw [show ({ x with st := s } : Lib).st.smsTextMode = x.st.smsTextMode from hs]
  exact h

theorem usable_lift {q : Prog α} (hk : q.ModeKept env) {x : Lib} (h : Usable x) : Usable (run env (lift q) x).2 := by
  rw [run_lift]
  exact usable_mode h (run_mode hk _)

theorem usable_textMode (v : Bool) {x : Lib} (h : Usable x) : Usable (run env (setSmsTextMode v) x).2 := by
  have hc (x : Lib) (h : BothOrNone x) : Usable (run env (do change fun x => { x with st := { x.st with smsTextMode := v } }; compileRegexes) x).2 := (run_compile (env := env) _).2.2 h
  show Usable (run env (if v ≠ x.st.smsTextMode then _ else pure ()) x).2
  split
  · show Usable (run env (if x.st.alive then _ else _) x).2
    split
    · rw [run_bind, run_lift]
      cases hr : (Prog.run env (Prog.write (py!"AT+CMGF=" ++ (if v then py!"1" else py!"0"))) x.st).1 with
      | error e => exact usable_mode h (run_mode (Prog.modeKept.write _ _ _) _)
      | ok a => exact hc _ h.2
    · exact hc _ h.2
  · exact h

theorem ok_bind {p : Comp α} {f : α → Comp β} {x : Lib} {b : β} (h : (run env (p >>= f) x).1 = .ok b) :
    ∃ a, (run env p x).1 = .ok a ∧ run env (p >>= f) x = run env (f a) (run env p x).2 := by
  rw [run_bind] at h ⊢
  generalize run env p x = y at *
  obtain ⟨_ | a, y⟩ := y
  · cases h
  · exact ⟨a, rfl, rfl⟩

theorem usable_connect {pin : Option PyStr} {x : Lib} (hx : BothOrNone x) (h : (run env (connect pin) x).1 = .ok ()) : Usable (run env (connect pin) x).2 := by
  have L := Prog.linked_mode (env := env)
  have D := Prog.commands_all
  have keep {α : Type} (q : Prog α) {x : Lib} (h : BothOrNone x) : BothOrNone (run env (lift q) x).2 := by rw [run_lift]; exact h
  unfold connect at h ⊢
  obtain ⟨_, -, e⟩ := ok_bind h
  rw [e] at h ⊢
  obtain ⟨_, -, e⟩ := ok_bind h
  rw [e] at h ⊢
  obtain ⟨r, -, e⟩ := ok_bind h
  rw [e] at h ⊢
  obtain ⟨_, -, e⟩ := ok_bind h
  rw [e] at h ⊢
  obtain ⟨_, h', e⟩ := ok_bind h
  rw [e]
  refine usable_lift (L.bind (Prog.link_memory L D) fun _ => Prog.link_notifications L D) ?_
  have hb := keep (Prog.connectCallTable r.1 r.2) (keep Prog.connectIdentify (keep (Prog.connectBasics pin) (keep (Prog.change fun s => { s with alive := true }) hx)))
  generalize (run env (lift (Prog.connectCallTable r.1 r.2)) _).2 = y at h' hb ⊢
  unfold connectSms at h' ⊢
  obtain ⟨_, -, e⟩ := ok_bind h'
  rw [e] at h' ⊢
  obtain ⟨z, hz, e⟩ := ok_bind h'
  rw [e] at h' ⊢
  obtain ⟨_, -, e⟩ := ok_bind h'
  rw [e] at h' ⊢
  obtain ⟨_, -, e⟩ := ok_bind h'
  rw [e]
  exact usable_lift (Prog.link_centre L D) ((run_compile _).2.2 (keep _ (show BothOrNone (run env look _).2 from keep _ hb)))

end Comp
end Gsm
