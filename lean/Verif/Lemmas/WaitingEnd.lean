import Verif.Lemmas.WaitingJobs
import Verif.Props.ModemUssd
import Verif.Props.ModemWrite
/-! # How the threads that wait end -/
namespace Gsm
open M Spec

variable {env : Env}

namespace Prog

/-- The program can only end so, whatever the other threads do. -/
def Results {α : Type} (env : Env) (Q : Except PyErr α → Prop) : Prog α → Prop
  | done r => Q r
  | io t k => ∀ log, Results env Q (k (env.reply (t :: log)))
  | act _ k => ∀ s, Results env Q (k env s)

theorem results_bind {α β : Type} {Q : Except PyErr α → Prop} {Q' : Except PyErr β → Prop} {p : Prog α} {f : α → Prog β} (h : Results env Q p)
    (hf : ∀ a, Q (.ok a) → Results env Q' (f a)) (he : ∀ e, Q (.error e) → Q' (.error e)) : Results env Q' (p >>= f) := by
  show Results env Q' (p.bind f)
  induction p with
  | done r =>
    cases r with
    | ok a => exact hf a h
    | error e => exact he e h
  | io t k ih => exact fun log => ih _ (h log)
  | act g k ih => exact fun s => ih _ _ (h s)

/-- The answer to a command, or how it fails. -/
def Reply (env : Env) (c : PyStr) : Except PyErr (List PyStr) → Prop
  | .ok ls => CanAnswer env c ls
  | .error e => CommandFails env c e

theorem results_writeN {data term : PyStr} : ∀ depth, Results env (Reply env (data ++ term)) (writeN depth data true term)
  | 0 => .inl rfl
  | depth + 1 => by
    intro log
    cases hr : env.reply ((data ++ term) :: log) with
    | timeout d => exact .inr ⟨log, hr ▸ .late⟩
    | lines ls =>
      dsimp only
      cases hl : ls.getLast? with
      | none =>
        have : ls = [] := List.getLast?_eq_none_iff.1 hl
        exact .inr ⟨log, by rw [hr, this]; exact .empty⟩
      | some line =>
        simp only [if_true]
        cases hc : classify line with
        | fine => exact ⟨log, hr, .fine hl (classify_fine.1 hc).1 (classify_fine.1 hc).2⟩
        | failed e =>
          refine .inr ⟨log, ?_⟩
          rw [hr]
          obtain ⟨r, hm⟩ := (C32_total ls line hl).1.2 (by rintro ⟨n, hb⟩; rw [busy_classify hb] at hc; cases hc)
          obtain ⟨line', hl', h⟩ := responseMeans_classify hm
          obtain rfl : line = line' := by simpa [hl] using hl'
          rcases h with ⟨_, h⟩ | ⟨cls, code, rfl, h⟩ <;> rw [h] at hc
          · cases hc
          · injection hc with hc
            subst hc
            exact .refused hm
        | busy code =>
          refine results_bind (Q := fun r => ∃ a, r = .ok a) (fun _ => ⟨(), rfl⟩) (fun _ _ => ?_) fun e h => nomatch h
          refine results_bind (results_writeN depth) (fun ls' h => ?_) fun e h => h
          exact results_bind (Q := fun r => ∃ a, r = .ok a) (fun _ => ⟨(), rfl⟩) (fun _ _ => h) fun e h => nomatch h

theorem results_write (data term : PyStr) : Results env (Reply env (data ++ term)) (write data true term) := fun _ => results_writeN env.depth

end Prog

/-- The waiting thread's own event: when it is set, `T` holds. -/
structure Held (x : Slot) (T : St → Prop) (e : Nat) (w : Shared) : Prop where
  attr : w.attr x = some e
  told : (w.events x)[e]? = some true → T w.st

variable {x : Slot} {T : St → Prop} {e : Nat}

theorem Held.around {w w' : Shared} (h : Held x T e w) (ha : Around x T w w') : Held x T e w' :=
  ⟨ha.attr.trans h.attr, fun he => by
    by_cases hw : (w.events x)[e]? = some true
    · exact ha.stays (h.told hw)
    · exact ha.told e h.attr hw he⟩

theorem Held.create (x : Slot) (T : St → Prop) (w : Shared) : Held x T (w.events x).length (w.create x) := by
  refine ⟨if_pos rfl, fun h => ?_⟩
  have he : (w.create x).events x = w.events x ++ [false] := if_pos rfl
  rw [he, List.getElem?_concat_length] at h
  cases h

/-- The state is set apart from events. -/
theorem Held.st {w : Shared} (h : Held x T e w) {s : St} (hs : T w.st → T s) : Held x T e { w with st := s } := ⟨h.attr, hs ∘ h.told⟩

namespace Proc

/-- A job that waits for such an event. -/
abbrev Wakes {α : Type} (env : Env) (x : Slot) (T : St → Prop) (Q : Except PyErr α → Shared → Prop) (p : Proc α) (w : Shared) : Prop :=
  Safe env (Around x T) (Beside T) Q p w

theorem beside_st (hT : ∀ a b, Prog.Steady a b → T a → T b) {a b : Shared} (h : Prog.Steady a.st b.st) : Beside T a b := ⟨h.2, hT _ _ h⟩

theorem wakes_lift {α : Type} {Inv : Shared → Prop} {Q : Except PyErr α → Prop} {p : Prog α} {w : Shared} (hT : ∀ a b, Prog.Steady a b → T a → T b)
    (hk : Prog.Keeps env Prog.Always Prog.Steady Prog.Any p) (hr : Prog.Results env Q p) (hR : ∀ a b, Inv a → Around x T a b → Inv b)
    (hG : ∀ (w : Shared) s, Inv w → Prog.Steady w.st s → Inv { w with st := s }) (h : Inv w) : Wakes env x T (fun r w' => Q r ∧ Inv w') (lift p) w := by
  induction p generalizing w with
  | done r => exact ⟨hr, h⟩
  | io t k ih => exact fun w' hw => ⟨beside_st hT (hk w'.st trivial).1, ih _ (hk w'.st trivial).2 (hr _) (hG _ _ (hR _ _ h hw) (hk w'.st trivial).1)⟩
  | act f k ih => exact fun w' hw => ⟨beside_st hT (hk w'.st trivial).1, ih _ _ (hk w'.st trivial).2 (hr _) (hG _ _ (hR _ _ h hw) (hk w'.st trivial).1)⟩

/-- The same with what the program has done at its end. -/
theorem wakes_ends {α : Type} {Inv : Shared → Prop} {Q : Except PyErr α → St → Prop} {p : Prog α} {w : Shared} (hT : ∀ a b, Prog.Steady a b → T a → T b)
    (hk : Prog.Keeps env Prog.Always Prog.Steady Prog.Any p) (hr : Prog.Ends env Grows Q p w.st) (hR : ∀ a b, Inv a → Around x T a b → Inv b)
    (hG : ∀ (w : Shared) s, Inv w → Prog.Steady w.st s → Inv { w with st := s }) (h : Inv w) : Wakes env x T (fun r w' => Q r w'.st ∧ Inv w') (lift p) w := by
  induction p generalizing w with
  | done r => exact ⟨hr, h⟩
  | io t k ih => exact fun w' hw => ⟨beside_st hT (hk w'.st trivial).1, ih _ (hk w'.st trivial).2 (hr w'.st hw.grow.grows) (hG _ _ (hR _ _ h hw) (hk w'.st trivial).1)⟩
  | act f k ih => exact fun w' hw => ⟨beside_st hT (hk w'.st trivial).1, ih _ _ (hk w'.st trivial).2 (hr w'.st hw.grow.grows) (hG _ _ (hR _ _ h hw) (hk w'.st trivial).1)⟩

theorem wakes_held {α : Type} {Q : Except PyErr α → Prop} {p : Prog α} {w : Shared} (hT : ∀ a b, Prog.Steady a b → T a → T b)
    (h1 : Prog.Quiet env p) (h2 : Prog.Keeps env Prog.Always CallsGrow Prog.Any p) (hr : Prog.Results env Q p) (h : Held x T e w) :
    Wakes env x T (fun r w' => Q r ∧ Held x T e w') (lift p) w :=
  wakes_lift hT (Prog.keeps_and h1 h2) hr (fun _ _ => Held.around) (fun _ _ h hs => h.st (hT _ _ hs)) h

theorem wakes_create (hT : ∀ a b, Prog.Steady a b → T a → T b) {w : Shared} : Wakes env x T (fun r w' => r = .ok () ∧ ∃ e, Held x T e w') (change fun w => w.create x) w :=
  safe_change fun w' _ => ⟨beside_st hT (steady_event _ _ _), rfl, _, Held.create x T w'⟩

theorem wakes_forget (hT : ∀ a b, Prog.Steady a b → T a → T b) {P : Prop} {w : Shared} (hP : P → T w.st) :
    Wakes env x T (fun r w' => r = .ok () ∧ w'.attr x = none ∧ (P → T w'.st)) (change fun w => w.forget x) w :=
  safe_change fun w' h => ⟨beside_st hT (steady_event _ _ _), rfl, if_pos rfl, fun hp => hT _ _ (steady_event _ _ _) (h.stays (hP hp))⟩

theorem wakes_wait {w : Shared} (h : Held x T e w) : Wakes env x T (fun r w' => ∃ ok, r = .ok ok ∧ (ok = true → T w'.st)) (wait x) w := by
  refine safe_bind (Q := fun r w' => r = .ok e ∧ Held x T e w') (safe_look .rfl fun w1 h1 => ?_) (fun e' w1 h1 => ?_) fun _ _ h => nomatch h.1
  · rw [(h.around h1).attr]; exact ⟨rfl, h.around h1⟩
  · obtain ⟨he, h1⟩ := h1
    cases he
    refine safe_look .rfl fun w2 h2 => ⟨_, rfl, fun hb => (h1.around h2).told ?_⟩
    cases hv : (w2.events x)[e]? with
    | none => rw [hv] at hb; cases hb
    | some b => rw [hv] at hb; cases b with
      | true => rfl
      | false => cases hb

/-! ### USSD -/

theorem inAnswer_iff (ls : List PyStr) : (ls.length > 1 ∧ lineStartingWith py!"+CUSD" ls ≠ none) ↔ InAnswer ls := by
  refine and_congr Iff.rfl ⟨fun j2 => Classical.byContradiction fun hc => j2 ((C52_starting_with _ _).2.2 fun x hx hp => hc ⟨x, hx, hp⟩), ?_⟩
  rintro ⟨l, h1, h2⟩ hn
  exact (C52_starting_with _ _).2.1 hn l h1 h2

/-- One of the other jobs has told. -/
def ToldUssd (t : CallTable) (jobs : List Job) (s : St) : Prop := ∃ y u, y ∈ jobs ∧ BringsResult t y u ∧ s.ussdResponse = some u

theorem toldUssd_steady {t : CallTable} {jobs : List Job} (a b : St) (h : Prog.Steady a b) : ToldUssd t jobs a → ToldUssd t jobs b := by
  rintro ⟨y, u, h1, h2, h3⟩; exact ⟨y, u, h1, h2, h.1.1.trans h3⟩

theorem topic_ussd (s0 : St) (t : CallTable) (jobs : List Job) {y : Job} (hy : y ∈ jobs) : Topic env s0 t .ussd (ToldUssd t jobs) y where
  steady := toldUssd_steady
  keepUssd h := absurd rfl h
  tellUssd _ _ u h := ⟨y, u, hy, h, rfl⟩
  keepDial _ _ _ := id
  tellDial h := nomatch h
  tellReport h := nomatch h

theorem wakes_awaitUssd {t : CallTable} {jobs : List Job} {text : PyStr} {ls : List PyStr} {w : Shared} (hl : CanAnswer env (ussdRequest text) ls) (h : Held .ussd (ToldUssd t jobs) e w) :
    Wakes env .ussd (ToldUssd t jobs) (fun r w' => UssdEnds env t jobs text (r.map .ussd) ∧ w'.attr .ussd = none) (awaitUssd ls) w := by
  unfold awaitUssd
  by_cases hin : ls.length > 1 ∧ lineStartingWith py!"+CUSD" ls ≠ none
  · rw [if_pos hin]
    rw [inAnswer_iff] at hin
    refine safe_bind (wakes_forget toldUssd_steady (P := False) fun h => h.elim) (fun _ w1 h1 => ?_) fun _ _ h => nomatch h.1
    have := parse_means ls
    cases hp : parseCusdResponse ls with
    | ok u => exact ⟨.said hl hin (hp ▸ this), h1.2.1⟩
    | error e => exact ⟨.wrong hl hin (hp ▸ this), h1.2.1⟩
  · rw [if_neg hin]
    rw [inAnswer_iff] at hin
    refine safe_bind (wakes_wait h) (fun ok w1 h1 => ?_) fun _ _ h => nomatch h
    obtain ⟨_, hok, h1⟩ := h1
    cases hok
    refine safe_bind (wakes_forget toldUssd_steady (P := ok = true) h1) (fun _ w2 h2 => ?_) fun _ _ h => nomatch h.1
    cases ok with
    | false => exact ⟨.late hl hin, h2.2.1⟩
    | true =>
      refine safe_look .rfl fun w3 h3 => ?_
      obtain ⟨y, u, a1, a2, a3⟩ := h3.stays (h2.2.2 rfl)
      rw [a3]
      exact ⟨.told a1 a2, h3.attr.trans h2.2.1⟩

theorem wakes_ussd {t : CallTable} {jobs : List Job} (text : PyStr) (w : Shared) :
    Wakes env .ussd (ToldUssd t jobs) (fun r w' => UssdEnds env t jobs text (r.map .ussd) ∧ w'.attr .ussd = none) (sendUssd text) w := by
  have hc : cusdCmd text ++ [13] = ussdRequest text := by simp [cusdCmd, ussdRequest]
  refine safe_bind (wakes_create toldUssd_steady) (fun _ w1 h1 => ?_) fun _ _ h => nomatch h.1
  obtain ⟨_, e, h1⟩ := h1
  refine safe_bind (Q := fun r w' => match r with | .ok ls => CanAnswer env (ussdRequest text) ls ∧ Held .ussd (ToldUssd t jobs) e w' | .error e => CommandFails env (ussdRequest text) e ∧ w'.attr .ussd = none)
    (safe_onError (wakes_held toldUssd_steady (Prog.quiet_write _ _ _) (Prog.any (Prog.keeps_write (Prog.callStable_writes Prog.callStable_grow) trivial)) (Prog.results_write _ _) h1)
      (fun ls w2 h2 => ?_) fun err w2 h2 => ?_) (fun ls w2 h2 => wakes_awaitUssd h2.1 h2.2) fun err w2 h2 => ⟨.failed h2.1, h2.2⟩
  · exact hc ▸ h2
  · refine safe_bind (wakes_forget toldUssd_steady (P := False) fun h => h.elim) (fun _ w3 h3 => ?_) fun _ _ h => nomatch h.1
    exact ⟨hc ▸ h2.1, h3.2.1⟩

/-! ### Dialling -/

def ToldDial (env : Env) (t : CallTable) (jobs : List Job) (s : St) : Prop := ∃ y, ∃ a b : Nat, y ∈ jobs ∧ BringsCall env t y a b ∧ s.dialResponse = some ((a : Int), (b : Int))

theorem toldDial_steady {t : CallTable} {jobs : List Job} (a b : St) (h : Prog.Steady a b) : ToldDial env t jobs a → ToldDial env t jobs b := by
  rintro ⟨y, i, j, h1, h2, h3⟩; exact ⟨y, i, j, h1, h2, h.1.2.trans h3⟩

theorem topic_dial (s0 : St) (t : CallTable) (jobs : List Job) {y : Job} (hy : y ∈ jobs) : Topic env s0 t .dial (ToldDial env t jobs) y where
  steady := toldDial_steady
  keepUssd _ _ _ := id
  tellUssd h := nomatch h
  keepDial h := absurd rfl h
  tellDial _ _ a b h := ⟨y, a, b, hy, h, rfl⟩
  tellReport h := nomatch h

/-- How dialling ends. -/
def DialEnd (env : Env) (t : CallTable) (jobs : List Job) (number : PyStr) (callback : Bool) (r : Except PyErr Nat) (w : Shared) : Prop :=
  DialEnds env t jobs number callback w.st.calls (r.map .object) ∧ w.attr .dial = none

theorem wakes_awaitDial {t : CallTable} {jobs : List Job} {n : PyStr} {cb : Bool} {w : Shared} (h : Held .dial (ToldDial env t jobs) e w) :
    Wakes env .dial (ToldDial env t jobs) (DialEnd env t jobs n cb) (awaitDial n cb) w := by
  refine safe_bind (wakes_wait h) (fun ok w1 h1 => ?_) fun _ _ h => nomatch h
  obtain ⟨_, hok, h1⟩ := h1
  cases hok
  refine safe_bind (wakes_forget toldDial_steady (P := ok = true) h1) (fun _ w2 h2 => ?_) fun _ _ h => nomatch h.1
  cases ok with
  | false => exact ⟨.late, h2.2.1⟩
  | true =>
    refine safe_look .rfl fun w3 h3 => ?_
    obtain ⟨y, a, b, a1, a2, a3⟩ := h3.stays (h2.2.2 rfl)
    rw [a3]
    intro w4 h4
    refine ⟨beside_st toldDial_steady ⟨⟨rfl, rfl⟩, ?_⟩, .told a1 a2 (List.getElem?_concat_length ..) rfl rfl rfl rfl rfl, h4.attr.trans (h3.attr.trans h2.2.1)⟩
    exact (Prog.keeps_register (env := env) Prog.callStable_grow trivial (c := { incoming := false, id := (a : Int), type := some (b : Int), number := some n, callback := cb }) rfl w4.st trivial).1

theorem results_atd (n : PyStr) : Prog.Results env (fun r => ∀ e, r = .error e → CommandFails env (py!"ATD" ++ n ++ py!";\r") e) (writeAtd n) := by
  have hc : atdCmd n ++ [13] = py!"ATD" ++ n ++ py!";\r" := by simp [atdCmd]
  intro s
  show Prog.Results env _ (if s.waitForAtdResponse then _ else _)
  split
  · refine Prog.results_bind (Prog.results_write _ _) (fun _ _ e h => nomatch h) fun e h e' he => ?_
    cases he
    exact hc ▸ h
  · exact fun _ e h => nomatch h

theorem wakes_dial {t : CallTable} {jobs : List Job} (n : PyStr) (k : Nat) (cb : Bool) (w : Shared) :
    Wakes env .dial (ToldDial env t jobs) (DialEnd env t jobs n cb) (dialWait n k cb) w := by
  refine safe_bind (wakes_create toldDial_steady) (fun _ w1 h1 => ?_) fun _ _ h => nomatch h.1
  obtain ⟨_, e, h1⟩ := h1
  refine safe_bind (Q := fun r w' => match r with | .ok _ => Held .dial (ToldDial env t jobs) e w' | .error e => CommandFails env (py!"ATD" ++ n ++ py!";\r") e ∧ w'.attr .dial = none)
    (safe_onError (wakes_held toldDial_steady (quiet_writeAtd n) (grow_writeAtd n) (results_atd n) h1) (fun _ w2 h2 => h2.2) fun err w2 h2 => ?_) (fun _ w2 h2 => ?_)
    fun err w2 h2 => ⟨.failed h2.1, h2.2⟩
  · refine safe_bind (wakes_forget toldDial_steady (P := False) fun h => h.elim) (fun _ w3 h3 => ?_) fun _ _ h => nomatch h.1
    exact ⟨h2.1 _ rfl, h3.2.1⟩
  · refine safe_look .rfl fun w3 h3 => ?_
    have h3 := Held.around h2 h3
    dsimp only
    split
    · refine safe_bind (Q := fun r w' => r = .ok () ∧ Held .dial (ToldDial env t jobs) e w') (safe_change fun w4 h4 => ⟨beside_st toldDial_steady ⟨⟨rfl, rfl⟩, grow_same rfl rfl rfl rfl rfl rfl rfl⟩, rfl, ?_⟩)
        (fun _ w4 h4 => wakes_awaitDial h4.2) fun _ _ h => nomatch h.1
      exact (h3.around h4).st id
    · exact wakes_awaitDial h3

/-! ### Delivery reports -/

theorem reportSince_grow {a b c : St} (h : ReportSince a b) (hg : Grows b c) : ReportSince a c := by
  obtain ⟨tr, r, s, h1, h2⟩ := h
  obtain ⟨l, hl⟩ := hg.trace
  exact ⟨l ++ tr, r, s, by rw [← hl, h1, List.append_assoc], List.mem_append_right _ h2⟩

theorem topic_report (s0 : St) (t : CallTable) (y : Job) : Topic env s0 t .report (ReportSince s0) y where
  steady _ _ h h' := reportSince_grow h' h.2.grows
  keepUssd _ _ _ := id
  tellUssd h := nomatch h
  keepDial _ _ _ := id
  tellDial h := nomatch h
  tellReport _ s st r n t1 t2 d hg := by
    obtain ⟨l, hl⟩ := hg.grows.trace
    exact ⟨.report r d :: l, r, d, by show SmsEvent.report r d :: s.smsTrace = _; rw [← hl]; rfl, List.mem_cons_self⟩

theorem wakes_awaitReport {s0 : St} (i : Nat) (w : Shared) :
    Wakes env .report (ReportSince s0) (fun r w' => w'.attr .report = none ∧ (r = .error (.timeout none) ∨ r = .ok i ∧ ReportSince s0 w'.st)) (awaitReport i) w := by
  have hT := (topic_report (env := env) s0 .none (.task (.notify []))).steady
  refine safe_bind (wakes_create hT) (fun _ w1 h1 => ?_) fun _ _ h => nomatch h.1
  obtain ⟨_, e, h1⟩ := h1
  refine safe_bind (wakes_wait h1) (fun ok w2 h2 => ?_) fun _ _ h => nomatch h
  obtain ⟨_, hok, h2⟩ := h2
  cases hok
  refine safe_bind (wakes_forget hT (P := ok = true) h2) (fun _ w3 h3 => ?_) fun _ _ h => nomatch h.1
  cases ok with
  | false => exact ⟨h3.2.1, .inl rfl⟩
  | true => exact ⟨h3.2.1, .inr ⟨rfl, h3.2.2 rfl⟩⟩

theorem sentOut_grow {d tx : PyStr} {f : Bool} [PyUnicode] {s a b : St} (h : SentOut env d tx f s a) (hg : Grows a b) : SentOut env d tx f s b := by
  obtain ⟨cs, l, ls, line, r, tr, h1, h2, h3, h4, h5, h6, h7, h8⟩ := h
  exact ⟨cs, l, ls, line, r, tr, h1, h2, h3.trans hg.log, h4, h5, h6, h7, h8.trans hg.trace⟩

theorem wakes_sendWait [PyUnicode] {w : Shared} (d tx : PyStr) (f : Bool) (hn : w.attr .report = none) :
    Wakes env .report (ReportSince w.st) (fun r w' => w'.attr .report = none ∧ ∀ i, r = .ok i → SentOut env d tx f w.st w'.st ∧ ReportSince w.st w'.st) (sendSmsWait d tx f) w := by
  have hT := (topic_report (env := env) w.st .none (.task (.notify []))).steady
  refine safe_bind (wakes_ends (Inv := fun w => w.attr .report = none) hT (Prog.keeps_and (Prog.keeps_send Prog.aside_stable trivial d tx f) (Prog.keeps_send grow_messages trivial d tx f))
    (Prog.ends_send d tx f w.st) (fun _ _ h h' => h'.attr.trans h) (fun _ _ h _ => h) hn) (fun i w1 h1 => ?_) fun e w1 h1 => ⟨h1.2, fun _ h => nomatch h⟩
  obtain ⟨⟨_, hs⟩, _⟩ := h1
  refine safe_mono (safe_since (wakes_awaitReport (s0 := w.st) i w1) (fun _ _ h => h.grow) (fun _ _ h => h.1) (CallsGrow.rfl w1.st)) (fun _ _ h => h) (fun _ _ h => h) fun r w2 h2 => ?_
  obtain ⟨⟨ha, h2⟩, hg⟩ := h2
  refine ⟨ha, fun j hj => ?_⟩
  rcases h2 with h2 | ⟨h2, h3⟩
  · rw [h2] at hj; cases hj
  · exact ⟨sentOut_grow hs hg.grows, h3⟩

end Proc
end Gsm
