import Verif.Lemmas.WaitingFrame
import Verif.Lemmas.Ussd
import Verif.Lemmas.Polling
import Verif.Props.ModemProgress
/-! # What the other threads do while a thread waits -/
namespace Gsm
open M Spec

variable {env : Env}

/-- What happens around a thread that waits for an event: nobody else assigns the attribute, and when its event is set, `T` holds from then on. -/
structure Around (x : Slot) (T : St → Prop) (w w' : Shared) : Prop where
  grow : CallsGrow w.st w'.st
  attr : w'.attr x = w.attr x
  set : ∀ e : Nat, (w.events x)[e]? = some true → (w'.events x)[e]? = some true
  stays : T w.st → T w'.st
  told : ∀ e : Nat, w.attr x = some e → (w.events x)[e]? ≠ some true → (w'.events x)[e]? = some true → T w'.st

/-- What the other threads can rely on. -/
def Beside (T : St → Prop) (w w' : Shared) : Prop := CallsGrow w.st w'.st ∧ (T w.st → T w'.st)

theorem Around.rfl {x : Slot} {T : St → Prop} (w : Shared) : Around x T w w := ⟨.rfl _, .refl _, fun _ => id, id, fun _ _ h h' => absurd h' h⟩
theorem Around.trans {x : Slot} {T : St → Prop} {a b c : Shared} (h : Around x T a b) (h' : Around x T b c) : Around x T a c :=
  ⟨h.grow.trans h'.grow, h'.attr.trans h.attr, fun e he => h'.set e (h.set e he), h'.stays ∘ h.stays, fun e ha hn he => by
    by_cases hb : (b.events x)[e]? = some true
    · exact h'.stays (h.told e ha hn hb)
    · exact h'.told e (h.attr.trans ha) hb he⟩
theorem Beside.rfl {T : St → Prop} (w : Shared) : Beside T w w := ⟨.rfl _, id⟩
theorem Beside.trans {T : St → Prop} {a b c : Shared} (h : Beside T a b) (h' : Beside T b c) : Beside T a c := ⟨h.1.trans h'.1, h'.2 ∘ h.2⟩
theorem Around.beside {x : Slot} {T : St → Prop} {w w' : Shared} (h : Around x T w w') : Beside T w w' := ⟨h.grow, h.stays⟩

/-- `T` says that the job `y` has told what a thread waiting for such an event wants to know. -/
structure Topic (env : Env) (s0 : St) (t : CallTable) (x : Slot) (T : St → Prop) (y : Job) : Prop where
  steady : ∀ a b, Prog.Steady a b → T a → T b
  keepUssd : x ≠ .ussd → ∀ (s : St) u, T s → T { s with ussdResponse := some u }
  tellUssd : x = .ussd → ∀ (s : St) u, BringsResult t y u → T { s with ussdResponse := some u }
  keepDial : x ≠ .dial → ∀ (s : St) u, T s → T { s with dialResponse := some u }
  tellDial : x = .dial → ∀ (s : St) (a b : Nat), BringsCall env t y a b → T { s with dialResponse := some ((a : Int), (b : Int)) }
  tellReport : x = .report → ∀ (s : St) st r n t1 t2 d, CallsGrow s0 s → T (Gsm.updateSent (.report st r n t1 t2 d) r d env s).2

/-- Nothing about calls, and no command. -/
theorem grow_same {a b : St} (h1 : b.log = a.log) (h2 : b.callbacks = a.callbacks) (h3 : b.smsTrace = a.smsTrace) (hu : b.callStatusUpdates = a.callStatusUpdates)
    (hl : b.callingLineIdentification = a.callingLineIdentification) (hc : b.calls = a.calls) (ht : b.activeCalls = a.activeCalls) : CallsGrow a b :=
  (stay_same (grows_calls h1 h2 h3) hu hl hc ht).grow

theorem grow_event (s : St) (x : Slot) (b : Option Bool) : CallsGrow s (s.withEvent x b) := by
  cases x <;> exact grow_same rfl rfl rfl rfl rfl rfl rfl

theorem steady_event (s : St) (x : Slot) (b : Option Bool) : Prog.Steady s (s.withEvent x b) := by
  refine ⟨⟨?_, ?_⟩, grow_event s x b⟩ <;> cases x <;> rfl

variable {s0 : St} {t : CallTable} {x : Slot} {T : St → Prop} {y : Job}

theorem around_st (h : ∀ a b, Prog.Steady a b → T a → T b) {w : Shared} {s : St} (hs : Prog.Steady w.st s) : Around x T w { w with st := s } :=
  ⟨hs.2, rfl, fun _ => id, h _ _ hs, fun _ _ hn he => absurd he hn⟩

theorem around_create (h : ∀ a b, Prog.Steady a b → T a → T b) {z : Slot} (hz : z ≠ x) (w : Shared) : Around x T w (w.create z) := by
  have he : (w.create z).events x = w.events x := if_neg (Ne.symm hz)
  exact ⟨grow_event _ _ _, if_neg (Ne.symm hz), fun e => by rw [he]; exact id, h _ _ (steady_event _ _ _), fun e _ hn h' => absurd (he ▸ h') hn⟩

theorem around_forget (h : ∀ a b, Prog.Steady a b → T a → T b) {z : Slot} (hz : z ≠ x) (w : Shared) : Around x T w (w.forget z) :=
  ⟨grow_event _ _ _, if_neg (Ne.symm hz), fun e => id, h _ _ (steady_event _ _ _), fun e _ hn h' => absurd h' hn⟩

theorem steady_setEvent (w : Shared) (z : Slot) (e : Nat) : Prog.Steady w.st (w.setEvent z e).st := by
  unfold Shared.setEvent
  dsimp only
  split
  · exact steady_event _ _ _
  · exact ⟨⟨rfl, rfl⟩, .rfl _⟩

theorem around_setEvent (h : ∀ a b, Prog.Steady a b → T a → T b) {z : Slot} {w : Shared} (hz : z = x → T w.st) (e : Nat) : Around x T w (w.setEvent z e) := by
  have hs := steady_setEvent w z e
  refine ⟨hs.2, rfl, fun e' he => ?_, h _ _ hs, fun e' _ hn he => ?_⟩
  · show (if x = z then (w.events z).set e true else w.events x)[e']? = _
    split
    · subst z
      by_cases hee : e = e'
      · subst hee
        rw [List.getElem?_set_self (List.getElem?_eq_some_iff.1 he).1]
      · rw [List.getElem?_set_ne hee]; exact he
    · exact he
  · by_cases hxz : z = x
    · exact h _ _ hs (hz hxz)
    · replace he : (if x = z then (w.events z).set e true else w.events x)[e']? = some true := he
      rw [if_neg (Ne.symm hxz)] at he
      exact absurd he hn

namespace Proc

/-- A job that does not wait for such an event. -/
abbrev Calm {α : Type} (env : Env) (x : Slot) (T : St → Prop) (Q : Except PyErr α → Shared → Prop) (p : Proc α) (w : Shared) : Prop :=
  Safe env (Beside T) (Around x T) Q p w

/-- At any end. -/
abbrev AnyEnd {α : Type} : Except PyErr α → Shared → Prop := fun _ _ => True

theorem calm_weaken {α : Type} {Q : Except PyErr α → Shared → Prop} {p : Proc α} {w : Shared} (h : Calm env x T Q p w) : Calm env x T AnyEnd p w :=
  safe_mono h (fun _ _ h => h) (fun _ _ h => h) fun _ _ _ => trivial

theorem calm_since {α : Type} {Q : Except PyErr α → Shared → Prop} {p : Proc α} {w : Shared} (h : Calm env x T Q p w) {s : St} (hs : CallsGrow s w.st) :
    Calm env x T (fun r w' => Q r w' ∧ CallsGrow s w'.st) p w := safe_since h (fun _ _ h => h.1) (fun _ _ h => h.grow) hs

theorem calm_bind {α β : Type} {p : Proc α} {f : α → Proc β} {w : Shared} (h : Calm env x T AnyEnd p w) (hf : ∀ a w, Calm env x T AnyEnd (f a) w) :
    Calm env x T AnyEnd (p >>= f) w := safe_bind h (fun a w _ => hf a w) fun _ _ _ => trivial

theorem calm_look {α : Type} {Q : Except PyErr α → Shared → Prop} {f : Shared → Proc α} {w : Shared} (hf : ∀ w', Beside T w w' → Calm env x T Q (f w') w') :
    Calm env x T Q (look >>= f) w := safe_look .rfl hf

theorem calm_ite {α : Type} {Q : Except PyErr α → Shared → Prop} {c : Prop} [Decidable c] {p p' : Proc α} {w : Shared} (h : c → Calm env x T Q p w) (h' : ¬ c → Calm env x T Q p' w) :
    Calm env x T Q (if c then p else p') w := by
  split
  · exact h ‹_›
  · exact h' ‹_›

theorem calm_lift {α : Type} {p : Prog α} {w : Shared} (h : ∀ a b, Prog.Steady a b → T a → T b) (h1 : Prog.Quiet env p) (h2 : Prog.Keeps env Prog.Always CallsGrow Prog.Any p) :
    Calm env x T AnyEnd (lift p) w :=
  calm_weaken (safe_lift (Prog.keeps_and h1 h2) (fun _ => trivial) fun _ _ hs => around_st h hs)

theorem calm_set (h : ∀ a b, Prog.Steady a b → T a → T b) {z : Slot} {w : Shared} (hz : z = x → T w.st) : Calm env x T AnyEnd (set z) w := by
  refine safe_bind (Q := fun _ w => z = x → T w.st) (calm_look fun w1 h1 => ?_) (fun e w1 h1 => ?_) fun _ _ _ => trivial
  · cases w1.attr z with
    | none => exact fun hzx => h1.2 (hz hzx)
    | some e => exact fun hzx => h1.2 (hz hzx)
  · exact safe_change fun w' hw => ⟨around_setEvent h (fun hzx => hw.2 (h1 hzx)) e, trivial⟩

theorem calm_ussd (h : Topic env s0 t x T y) {lines : List PyStr} (hb : ∀ u, parseCusdResponse lines = .ok u → BringsResult t y u) (w : Shared) :
    Calm env x T AnyEnd (handleUssd lines) w := by
  refine calm_look fun w1 _ => calm_ite (fun _ => ?_) fun _ => trivial
  cases hp : parseCusdResponse lines with
  | error e => trivial
  | ok u =>
    show Calm env x T AnyEnd (changeSt (fun s => { s with ussdResponse := some u }) >>= fun _ => set .ussd) w1
    refine safe_bind (Q := fun _ w => Slot.ussd = x → T w.st) (fun w' _ => ⟨⟨grow_same rfl rfl rfl rfl rfl rfl rfl, rfl, fun _ => id, fun hT => ?_, fun e _ hn he => absurd he hn⟩, ?_⟩)
      (fun _ w2 h2 => calm_set h.steady h2) fun _ _ _ => trivial
    · by_cases hx : x = .ussd
      · exact h.tellUssd hx _ _ (hb u hp)
      · exact h.keepUssd hx _ _ hT
    · exact fun hx => h.tellUssd hx.symm _ _ (hb u hp)

theorem calm_tellDial (h : Topic env s0 t x T y) {a b : Nat} (hb : BringsCall env t y a b) (w : Shared) : Calm env x T AnyEnd (tellDial a b) w := by
  refine safe_bind (Q := fun _ w => Slot.dial = x → T w.st) (fun w' _ => ⟨⟨grow_same rfl rfl rfl rfl rfl rfl rfl, rfl, fun _ => id, fun hT => ?_, fun e _ hn he => absurd he hn⟩, ?_⟩)
      (fun _ w2 h2 => calm_set h.steady h2) fun _ _ _ => trivial
  · by_cases hx : x = .dial
    · exact h.tellDial hx _ _ _ hb
    · exact h.keepDial hx _ _ hT
  · exact fun hx => h.tellDial hx.symm _ _ _ hb

/-- The lines that lead to this handler. -/
theorem initiated_groups {line : PyStr} {g : List PyStr} (h : recognise (callTable t) line = some (.call .initiated g)) :
    ∃ a b, a ≤ 9 ∧ b ≤ 9 ∧ Says t line (.started a b) ∧ (g = [[48 + a], [48 + b]] ∨ g = [[48 + a]] ∧ b = 1) := by
  cases recognise_iff.1 h with
  | call h1 h2 h3 h4 h5 h6 h7 =>
    have hm : ∀ {l b a : List (List Rx × CallHandler)} {x}, l = b ++ x :: a → x ∈ l := by rintro _ _ _ _ rfl; simp
    have := hm h5
    cases t with
    | none => cases this
    | huawei =>
      simp [callTable] at this
      subst this
      obtain ⟨a, b, _, ha, hb, hg, rfl, ht⟩ := two_iff.1 h7
      exact ⟨a, b, ha, hb, .orig ha hb ht, .inl hg⟩
    | wavecom =>
      simp [callTable] at this
      subst this
      obtain ⟨a, _, ha, hg, rfl, ht⟩ := one_iff.1 h7
      exact ⟨a, 1, ha, by omega, .wind5 ha ht, .inr ⟨hg, rfl⟩⟩
    | zte => simp [callTable] at this

theorem calm_initiatedGroups (h : Topic env s0 t x T y) {line : PyStr} {g : List PyStr} (hr : recognise (callTable t) line = some (.call .initiated g))
    (hb : ∀ a b, Says t line (.started a b) → BringsCall env t y a b) (w : Shared) : Calm env x T AnyEnd (handleInitiatedGroups g) w := by
  refine calm_look fun w1 _ => calm_ite (fun _ => ?_) fun _ => trivial
  obtain ⟨a, b, h1, h2, h3, h4⟩ := initiated_groups hr
  have hb := hb a b h3
  rcases h4 with rfl | ⟨rfl, rfl⟩
  · dsimp only
    rw [pyInt_digit h1, pyInt_digit h2]
    exact calm_tellDial h hb _
  · dsimp only
    rw [pyInt_digit h1]
    exact calm_tellDial h hb _

theorem calm_initiated (h : Topic env s0 t x T y) {a b : Nat} (hb : BringsCall env t y a b) (w : Shared) : Calm env x T AnyEnd (handleCallInitiated a b) w :=
  calm_look fun w1 _ => calm_ite (fun _ => calm_tellDial h hb _) fun _ => trivial

theorem grow_messages : Prog.Stable env Prog.Always CallsGrow (fun _ => True) (fun _ => True) True := Prog.callStable_messages Prog.callStable_grow

theorem calm_statusReport (h : Topic env s0 t x T y) (l : PyStr) {w : Shared} (hw : CallsGrow s0 w.st) : Calm env x T AnyEnd (handleSmsStatusReport l) w := by
  unfold handleSmsStatusReport
  split
  · rename_i mem idx _
    refine safe_bind (calm_since (calm_lift h.steady (Prog.keeps_read Prog.aside_stable _ fun _ _ => trivial) (Prog.keeps_read grow_messages _ fun _ _ => trivial)) hw) (fun report w1 hw1 => ?_) fun _ _ _ => trivial
    refine safe_bind (calm_since (calm_lift h.steady (Prog.keeps_delete Prog.aside_stable _ fun _ _ => trivial) (Prog.keeps_delete grow_messages _ fun _ _ => trivial)) hw1.2) (fun _ w2 hw2 => ?_) fun _ _ _ => trivial
    cases report with
    | received => trivial
    | report st r n t1 t2 d =>
      refine safe_bind (Q := fun _ w => Slot.report = x → T w.st) (fun w' hw' => ⟨?_, fun hx => h.tellReport hx.symm _ _ _ _ _ _ _ (hw2.2.trans hw'.1)⟩) (fun _ w3 h3 => ?_) fun _ _ _ => trivial
      · exact around_st h.steady ⟨⟨rfl, rfl⟩, (grow_messages (env := env)).report w'.st st r n t1 t2 d trivial⟩
      · exact calm_look fun w4 h4 => calm_ite (fun _ => calm_set h.steady fun hx => h4.2 (h3 hx)) fun _ =>
          calm_lift h.steady (Prog.quiet_callback _) (Prog.keeps_callback grow_messages _)
  · trivial

theorem calm_dispatch (h : Topic env s0 t x T (.task (.notify lines))) : ∀ (pre ls : List PyStr) (w : Shared), lines = pre ++ ls → (∀ l ∈ pre, ∀ d, ¬ Announces (callTable t) l d) →
    s0.callStatusUpdates = t → CallsGrow s0 w.st → Calm env x T AnyEnd (dispatchLoop lines ls) w
  | _, [], _, _, _, _, _ => trivial
  | pre, l :: ls, w, hl, hpre, ht, hw => by
    refine calm_look fun w1 h1 => ?_
    have hg := hw.trans h1.1
    rw [show w1.st.callStatusUpdates = t from hg.updates.trans ht]
    cases hr : recognise (callTable t) l with
    | none =>
      refine calm_dispatch h (pre ++ [l]) ls w1 (by simp [hl]) (fun l' hl' d => ?_) ht hg
      rcases List.mem_append.1 hl' with h' | h'
      · exact hpre l' h' d
      · rw [List.mem_singleton.1 h', ← recognise_iff, hr]
        exact fun h => nomatch h
    | some d =>
      have hf : FirstAnnounced t lines l d := ⟨pre, ls, hl, hpre, recognise_iff.1 hr⟩
      cases d with
      | ring => exact calm_lift h.steady (Prog.quiet_incoming _) (Prog.keeps_incoming Prog.callStable_grow trivial _)
      | cmti => exact calm_lift h.steady (Prog.keeps_received Prog.aside_stable fun _ _ _ => trivial) (Prog.keeps_received grow_messages fun _ _ _ => trivial)
      | cusd => exact calm_ussd h (fun u hu => .notify hf (hu ▸ parse_means lines)) w1
      | cdsi => exact calm_statusReport h l hg
      | call hd g =>
        refine calm_ite (fun hh => ?_) fun hh => calm_lift h.steady (Prog.quiet_handler hh g) (Prog.keeps_handler Prog.callStable_grow hd g fun _ => trivial)
        subst hh
        exact calm_initiatedGroups h hr (fun a b hs => .notify hl hpre hs) w1

/-- What the query can show. -/
theorem keeps_clccSeen : Prog.Keeps env Prog.Always (fun _ _ => True) (fun r => ∀ cid dir stat mode, r = some (cid, dir, stat, mode) →
    ∃ log l ls id d st m, env.reply log = .lines (l :: ls) ∧ CallLine l id d st m ∧ cid = (id : Int) ∧ dir = (d : Int) ∧ stat = (st : Int) ∧ mode = (m : Int)) Prog.clccQuery := by
  have hw : Prog.Writes Prog.Always (fun _ _ => True) fun _ => True := ⟨fun _ _ => trivial, fun _ _ _ => trivial, fun _ _ _ _ => trivial⟩
  refine Prog.keeps_except (Prog.keeps_bind (Prog.keeps_write hw trivial) fun ls hls => ?_) fun e => fun _ _ _ _ h => nomatch h
  obtain ⟨log, hlog⟩ := hls
  cases ls with
  | nil => trivial
  | cons l ls =>
    refine Prog.keeps_bind (Prog.keeps_ofExcept _) fun l' hl' => ?_
    obtain rfl : l = l' := by simpa using hl'
    cases hg : rxGroups clccRegex l with
    | none => exact fun _ _ _ _ h => nomatch h
    | some g =>
      obtain ⟨ds, dir, stat, mode, rest, rfl, hD, d1, d2, d3, hc⟩ := clcc_sound hg
      dsimp only
      rw [pyInt_of_digits hD, digit_int d1, digit_int d2, digit_int d3]
      intro cid dir' stat' mode' he
      simp only [Option.some.injEq, Prod.mk.injEq] at he
      obtain ⟨rfl, rfl, rfl, rfl⟩ := he
      exact ⟨log, l, ls, _, _, _, _, hlog, hc, rfl, rfl, rfl, rfl⟩

theorem keeps_strong {α : Type} {P : St → Prop} {G G' : St → St → Prop} {Q Q' : α → Prop} {p : Prog α} (h : Prog.Keeps env P G Q p) (h' : Prog.Keeps env P G' Q' p) :
    Prog.Keeps env P (fun a b => G a b ∧ G' a b) (fun a => Q a ∧ Q' a) p := by
  induction p with
  | done r =>
    cases r with
    | ok a => exact ⟨h, h'⟩
    | error e => trivial
  | io t k ih => exact fun s hs => ⟨⟨(h s hs).1, (h' s hs).1⟩, ih _ (h s hs).2 (h' s hs).2⟩
  | act f k ih => exact fun s hs => ⟨⟨(h s hs).1, (h' s hs).1⟩, ih _ _ (h s hs).2 (h' s hs).2⟩

theorem calm_pollRound {n : Nat} {p0 : Poller} (h : Topic env s0 t x T (.task (.poll n p0))) (p : Poller) (w : Shared) : Calm env x T AnyEnd (pollRound p) w := by
  refine calm_look fun w1 _ => calm_ite (fun _ => ?_) fun _ => trivial
  refine safe_bind (safe_lift (keeps_strong (Prog.keeps_and Prog.quiet_clcc (Prog.keeps_clcc Prog.callStable_grow)) keeps_clccSeen) (fun _ => trivial) fun _ _ hs => around_st h.steady hs.1)
    (fun seen w2 h2 => ?_) fun _ _ _ => trivial
  have h2 := (h2 seen rfl).2
  rcases seen with _ | ⟨cid, dir, stat, mode⟩
  · exact calm_lift h.steady (Prog.quiet_pollStep (by simp)) (Prog.keeps_pollStep Prog.callStable_grow trivial _ _)
  · refine calm_ite (fun hc => calm_bind ?_ fun _ _ => trivial) fun hc =>
      calm_lift h.steady (Prog.quiet_pollStep (by rintro a b c d he; cases he; exact hc)) (Prog.keeps_pollStep Prog.callStable_grow trivial _ _)
    obtain ⟨log, l, ls, id, d, st, m, h3, h4, rfl, rfl, rfl, rfl⟩ := h2 _ _ _ _ rfl
    obtain ⟨h5, _, h6⟩ := hc
    obtain rfl : d = 0 := by omega
    exact calm_initiated h (.poll h3 h4 (by omega)) w2

theorem calm_poll {n : Nat} {p0 : Poller} (h : Topic env s0 t x T (.task (.poll n p0))) : ∀ (k : Nat) (p : Poller) (w : Shared), Calm env x T AnyEnd (poll k p) w
  | 0, _, _ => trivial
  | k + 1, p, w => calm_bind (calm_pollRound h p w) fun p' w' => calm_ite (fun _ => trivial) fun _ => calm_poll h k p' w'

theorem calm_task [PyUnicode] {a : Task} (h : Topic env s0 t x T (.task a)) {w : Shared} (ht : s0.callStatusUpdates = t) (hw : CallsGrow s0 w.st) : Calm env x T AnyEnd a.proc w := by
  cases a with
  | message m =>
    have hm : Calm env x T AnyEnd (lift m.prog) w := calm_lift h.steady (Prog.quiet_method m) (keeps_method grow_messages (by cases m <;> simp [Method.Uses]))
    cases m with
    | statusReport l => exact calm_statusReport h l hw
    | _ => exact hm
  | notify lines => exact calm_dispatch h [] lines w rfl (by simp) ht hw
  | poll n p => exact calm_poll h n p w
  | dial n cb => exact calm_lift h.steady (Prog.quiet_dialNow n cb) (Prog.keeps_dialNow Prog.callStable_grow trivial n cb)
  | answer i => exact calm_lift h.steady (Prog.quiet_answer i) (Prog.keeps_answer Prog.callStable_grow i)
  | hangup i => exact calm_lift h.steady (Prog.quiet_hangup i) (Prog.keeps_hangup Prog.callStable_grow trivial i)
  | dtmf i tones => exact calm_lift h.steady (Prog.quiet_dtmf i tones) (Prog.keeps_dtmf Prog.callStable_grow i tones)

theorem calm_change {f : Shared → Shared} {w : Shared} (h : ∀ w, Around x T w (f w)) : Calm env x T AnyEnd (change f) w := safe_change fun w' _ => ⟨h w', trivial⟩

theorem calm_wait {z : Slot} {w : Shared} : Calm env x T AnyEnd (wait z) w := by
  refine calm_bind (calm_look fun w1 _ => ?_) fun e w1 => calm_look fun w2 _ => trivial
  cases w1.attr z <;> trivial

theorem calm_onError {α : Type} {p : Proc α} {q : Proc Unit} {w : Shared} (hp : Calm env x T AnyEnd p w) (hq : ∀ w, Calm env x T AnyEnd q w) : Calm env x T AnyEnd (p.onError q) w :=
  safe_onError hp (fun _ _ _ => trivial) fun _ w _ => calm_bind (hq w) fun _ _ => trivial

theorem calm_sendUssd (h : ∀ a b, Prog.Steady a b → T a → T b) (hx : x ≠ .ussd) (s : PyStr) (w : Shared) : Calm env x T AnyEnd (sendUssd s) w := by
  have hf : ∀ w, Calm env x T AnyEnd (change fun w => w.forget .ussd) w := fun w => calm_change (around_forget h (Ne.symm hx))
  refine calm_bind (calm_change (around_create h (Ne.symm hx))) fun _ w1 =>
    calm_bind (calm_onError (calm_lift h (Prog.quiet_write _ _ _) (Prog.any (Prog.keeps_write (Prog.callStable_writes Prog.callStable_grow) trivial))) hf) fun ls w2 => ?_
  refine calm_ite (fun _ => calm_bind (hf _) fun _ _ => ?_) fun _ => calm_bind calm_wait fun ok _ => calm_bind (hf _) fun _ _ => calm_ite (fun _ => calm_look fun _ _ => trivial) fun _ => trivial
  cases parseCusdResponse ls <;> trivial

theorem grow_writeAtd (n : PyStr) : Prog.Keeps env Prog.Always CallsGrow Prog.Any (writeAtd n) :=
  Prog.keeps_look (Prog.callStable_writes Prog.callStable_grow) fun _ _ => Prog.keeps_ite (fun _ => Prog.keeps_bind (Prog.keeps_write (Prog.callStable_writes Prog.callStable_grow) trivial) fun _ _ => trivial)
    fun _ => Prog.keeps_change fun s hs => (Prog.callStable_writes Prog.callStable_grow).log s _ trivial hs

theorem quiet_writeAtd (n : PyStr) : Prog.Quiet env (writeAtd n) :=
  Prog.quiet_look fun _ => Prog.quiet_ite (Prog.quiet_bind (Prog.quiet_write _ _ _) fun _ => trivial) (Prog.quiet_change fun _ => ⟨rfl, rfl, rfl, rfl⟩)

theorem calm_dialWait (h : ∀ a b, Prog.Steady a b → T a → T b) (hx : x ≠ .dial) (n : PyStr) (k : Nat) (cb : Bool) (w : Shared) : Calm env x T AnyEnd (dialWait n k cb) w := by
  have hf : ∀ w, Calm env x T AnyEnd (change fun w => w.forget .dial) w := fun w => calm_change (around_forget h (Ne.symm hx))
  have ha : ∀ w, Calm env x T AnyEnd (awaitDial n cb) w := fun w => by
    refine calm_bind calm_wait fun ok _ => calm_bind (hf _) fun _ _ => calm_ite (fun _ => calm_look fun w1 _ => ?_) fun _ => trivial
    rcases w1.st.dialResponse with _ | ⟨a, b⟩
    · trivial
    · exact calm_lift h (Prog.quiet_register _) (Prog.keeps_register Prog.callStable_grow trivial rfl)
  refine calm_bind (calm_change (around_create h (Ne.symm hx))) fun _ w1 =>
    calm_bind (calm_onError (calm_lift h (quiet_writeAtd n) (grow_writeAtd n)) hf) fun _ w2 => calm_look fun w3 _ => ?_
  dsimp only
  split
  · exact calm_bind (calm_change fun w => around_st h ⟨⟨rfl, rfl⟩, grow_same rfl rfl rfl rfl rfl rfl rfl⟩) fun _ w4 => ha w4
  · exact ha _

theorem calm_sendWait [PyUnicode] (h : ∀ a b, Prog.Steady a b → T a → T b) (hx : x ≠ .report) (d tx : PyStr) (f : Bool) (w : Shared) : Calm env x T AnyEnd (sendSmsWait d tx f) w :=
  calm_bind (calm_lift h (Prog.keeps_send Prog.aside_stable trivial d tx f) (Prog.keeps_send grow_messages trivial d tx f)) fun i w1 =>
    calm_bind (calm_change (around_create h (Ne.symm hx))) fun _ w2 => calm_bind calm_wait fun ok _ => calm_bind (calm_change (around_forget h (Ne.symm hx))) fun _ _ =>
      calm_ite (fun _ => trivial) fun _ => trivial

/-- What a job does that does not wait for such an event. -/
theorem calm_job [PyUnicode] (h : Topic env s0 t x T y) (hn : ¬ WaitsFor x y) {w : Shared} (ht : s0.callStatusUpdates = t) (hw : CallsGrow s0 w.st) : Calm env x T AnyEnd y.proc w := by
  cases y with
  | task a => exact calm_bind (calm_task h ht hw) fun _ _ => trivial
  | ussd s => exact calm_bind (calm_sendUssd h.steady hn s w) fun _ _ => trivial
  | dial n k cb => exact calm_bind (calm_dialWait h.steady hn n k cb w) fun _ _ => trivial
  | sendWait d tx f => exact calm_bind (calm_sendWait h.steady hn d tx f w) fun _ _ => trivial

end Proc
end Gsm
