import Verif.Spec.Centre
import Verif.Props.ModemDelivery
import Verif.Props.ModemSend
import Verif.Props.ModemReading
/-! # Lemmas: the message centre and the sent messages -/
namespace Gsm
open M Spec

variable {env : Env}

/-! ### What is fetched is determined -/

theorem trans_unique {reply : List PyStr → Reply} {cs a b b' : List PyStr} {x y : Bool} (h : Transmission reply cs a b x) (h' : Transmission reply cs a b' y)
    (hx : x = true) (hy : y = true) : b = b' := by
  induction h with
  | done => cases h'; rfl
  | @next c cs old k log ok hk hb ha _ ih =>
    cases h' with
    | @next _ _ _ k' log' ok' hk' hb' ha' h2 =>
      have hkk : k = k' := by
        rcases Nat.lt_trichotomy k k' with hlt | he | hlt
        · have := hb' (k - 1) (by omega)
          rw [show k - 1 + 1 = k by omega] at this
          exact absurd ha (busy_not_accepted this)
        · exact he
        · have := hb (k' - 1) (by omega)
          rw [show k' - 1 + 1 = k' by omega] at this
          exact absurd ha' (busy_not_accepted this)
      subst hkk
      exact ih h2 hx
    | stop => cases hy
  | stop => cases hx

theorem answers_unique {textMode : Bool} {ls : List PyStr} {r r' : Except PyErr Msg} (h : Answers textMode ls r) (h' : Answers textMode ls r') : r = r' := by
  unfold Answers at h h'
  split at h
  · rw [if_pos (by assumption)] at h'
    exact ((C68_text ls r).2 h).symm.trans ((C68_text ls r').2 h')
  · rw [if_neg (by assumption)] at h'
    exact ((C68_pdu ls r).2 h).symm.trans ((C68_pdu ls r').2 h')

theorem fetched_unique {s s1 s2 : St} {mem idx : PyStr} {m m' : Msg} (h : Fetched env s mem idx m s1) (h' : Fetched env s mem idx m' s2) : m = m' := by
  obtain ⟨t, ⟨_, h1, ls, h2, h3⟩, _⟩ := h
  obtain ⟨t', ⟨_, k1, ls', k2, k3⟩, _⟩ := h'
  rw [trans_unique h1 k1 rfl rfl] at h2
  rw [h2] at k2; cases k2
  have := answers_unique h3 k3
  cases this; rfl

theorem reportFetched_unique {s s1 s2 : St} {line : PyStr} {r ds r' ds' : Int} {m m' : Msg} (h : ReportFetched env s line r ds m s1)
    (h' : ReportFetched env s line r' ds' m' s2) : r = r' ∧ ds = ds' := by
  obtain ⟨mem, idx, st, n, t1, t2, h1, rfl, h2⟩ := h
  obtain ⟨mem', idx', st', n', t1', t2', k1, rfl, k2⟩ := h'
  obtain ⟨rfl, rfl⟩ := C71_place h1 k1
  have := fetched_unique h2 k2
  simp only [Msg.report.injEq] at this
  exact ⟨this.2.1, this.2.2.2.2.2⟩

/-! ### What sending does -/

theorem send_cases [PyUnicode] (d t : PyStr) (f : Bool) (s : St) :
    ((∃ e, (sendSms d t f env s).1 = .error e) ∧ (sendSms d t f env s).2.smsTrace = s.smsTrace) ∨
    (∃ l r, cmgsLine (lastAnswer env (sendSms d t f env s).2.log) = some l ∧ pyInt (l.drop 7) = .ok r ∧ (sendSms d t f env s).1 = .ok s.sent.length ∧
      (sendSms d t f env s).2.smsTrace = .sent r :: s.smsTrace) := by
  have key : ∀ {cs : List PyStr}, SendSpec env cs d t s (sendSms d t f env s).2 (sendSms d t f env s).1 →
      ((∃ e, (sendSms d t f env s).1 = .error e) ∧ (sendSms d t f env s).2.smsTrace = s.smsTrace) ∨
      (∃ l r, cmgsLine (lastAnswer env (sendSms d t f env s).2.log) = some l ∧ pyInt (l.drop 7) = .ok r ∧ (sendSms d t f env s).1 = .ok s.sent.length ∧
        (sendSms d t f env s).2.smsTrace = .sent r :: s.smsTrace) := by
    rintro cs ⟨ok, _, h1, h2⟩
    have hl : OnlyLog s (sendSms d t f env s).2 → (sendSms d t f env s).2.smsTrace = s.smsTrace := by
      rintro ⟨l, w, h⟩
      rw [h]
    cases ok with
    | false => exact .inl ⟨(h1 rfl).1, hl (h1 rfl).2⟩
    | true =>
      obtain ⟨k1, k2⟩ := h2 rfl
      cases hc : cmgsLine (lastAnswer env (sendSms d t f env s).2.log) with
      | none => exact .inl ⟨⟨_, (k1 hc).1⟩, hl (k1 hc).2⟩
      | some l =>
        cases hi : pyInt (l.drop 7) with
        | error e => exact .inl ⟨⟨_, ((k2 l hc).1 e hi).1⟩, hl ((k2 l hc).1 e hi).2⟩
        | ok r => exact .inr ⟨l, r, rfl, hi, ((k2 l hc).2 r hi).1, ((k2 l hc).2 r hi).2.2⟩
  cases hm : s.smsTextMode with
  | true => exact key (C38_text_mode hm)
  | false =>
    cases he : encodeSmsSubmitPdu d t s.smsRef (sendFlash := f) with
    | ok ps => exact key (C38_pdu_mode hm he)
    | error e =>
      rw [C38_not_encodable hm he]
      exact .inl ⟨⟨e, rfl⟩, rfl⟩

theorem gives_line {ls : List PyStr} {r : Nat} (h : GivesReference ls r) : cmgsLine ls = some (py!"+CMGS: " ++ decStr r) := by
  obtain ⟨pre, post, rfl, h⟩ := h
  unfold cmgsLine
  rw [List.find?_append]
  have : pre.find? (fun l => py!"+CMGS:".isPrefixOf l) = none := by
    rw [List.find?_eq_none]
    intro l hl hp
    exact h l hl (List.isPrefixOf_iff_prefix.1 hp)
  rw [this]
  rfl

theorem send_gives [PyUnicode] {d t : PyStr} {f : Bool} {s s' : St} {i r : Nat} {ls : List PyStr} (h : sendSms d t f env s = (.ok i, s'))
    (hr : env.reply s'.log = .lines ls) (hg : GivesReference ls r) : i = s.sent.length ∧ s'.smsTrace = .sent r :: s.smsTrace := by
  rcases send_cases (env := env) d t f s with ⟨⟨e, h1⟩, _⟩ | ⟨l, r', h1, h2, h3, h4⟩
  · rw [h] at h1; cases h1
  · rw [h] at h1 h3 h4
    dsimp only at h1 h3 h4
    rw [lastAnswer, hr, gives_line hg] at h1
    cases h1
    have h5 : pyInt ((py!"+CMGS: " ++ decStr r).drop 7) = .ok (r : Int) := by
      rw [show (py!"+CMGS: " ++ decStr r).drop 7 = decStr r from rfl, pyInt, pyInt_decStr]
    rw [h5] at h2
    cases h2; cases h3
    exact ⟨rfl, h4⟩

/-! ### What the rest does -/

/-- The first recognised line. -/
theorem first_same {table : List (List Rx × CallHandler)} {line line' : PyStr} {post post' : List PyStr} {d d' : Dispatch} : ∀ (pre pre' : List PyStr),
    pre ++ line :: post = pre' ++ line' :: post' → (∀ l ∈ pre, ∀ d, ¬ Announces table l d) → Announces table line d →
    (∀ l ∈ pre', ∀ d, ¬ Announces table l d) → Announces table line' d' → line = line'
  | [], [], he, _, _, _, _ => by simp at he; exact he.1
  | [], a :: pre', he, _, h2, k1, _ => by
    simp only [List.nil_append, List.cons_append, List.cons.injEq] at he
    exact absurd h2 (k1 line (by rw [he.1]; simp) d)
  | b :: pre, [], he, h1, _, _, k2 => by
    simp only [List.nil_append, List.cons_append, List.cons.injEq] at he
    exact absurd k2 (h1 line' (by rw [← he.1]; simp) _)
  | b :: pre, a :: pre', he, h1, h2, k1, k2 => by
    simp only [List.cons_append, List.cons.injEq] at he
    exact first_same pre pre' he.2 (fun l hl => h1 l (by simp [hl])) h2 (fun l hl => k1 l (by simp [hl])) k2

/-- A batch brings a report, or it does not touch the sent messages. -/
theorem batch_report (batch : List PyStr) (s : St) :
    (∃ r ds, Brings env s batch r ds ∧ (handleNotification batch env s).2.smsTrace = .report r ds :: s.smsTrace) ∨
    ((∀ r ds, ¬ Brings env s batch r ds) ∧ (handleNotification batch env s).2.smsTrace = s.smsTrace) := by
  rcases first_recognised (callTable s.callStatusUpdates) batch with h0 | ⟨pre, line, post, d, rfl, h1, h2⟩
  · refine .inr ⟨?_, by rw [C43_none h0]⟩
    rintro r ds ⟨_, pre, line, post, m, s1, rfl, _, h2, _⟩
    exact h0 line (by simp) _ h2
  · have huniq : ∀ r ds, Brings env s (pre ++ line :: post) r ds → d = .cdsi ∧ ∃ m s1, ReportFetched env s line r ds m s1 := by
      rintro r ds ⟨_, pre', line', post', m, s1, he, k1, k2, k3⟩
      have hsame := first_same pre pre' he h1 h2 k1 k2
      subst hsame
      exact ⟨C43_unique h2 k2, m, s1, k3⟩
    have hrun : handleNotification (pre ++ line :: post) env s = handlerOf (pre ++ line :: post) line d env s := C43_first h1 h2
    have hno : d ≠ .cdsi → reportState (handlerOf (pre ++ line :: post) line d env s).2 = reportState s := by
      intro hd
      cases d with
      | ring => exact ((rf_incoming _).run s).2
      | cmti => exact ((rf_received _).run s).2
      | cusd => exact ((rf_ussd _).run s).2
      | call hh g => exact ((rf_runCallHandler _ _).run s).2
      | cdsi => exact absurd rfl hd
    by_cases hd : d = .cdsi
    · subst hd
      have he := C71_report (env := env) line s
      have hr2 : handlerOf (pre ++ line :: post) line .cdsi env s = handleSmsStatusReport line env s := rfl
      rw [hr2] at hrun
      generalize hx : handleSmsStatusReport line env s = x at he hrun
      obtain ⟨r, s2⟩ := x
      dsimp only at he
      cases he with
      | other h3 =>
        refine .inr ⟨fun r ds hb => ?_, by rw [hrun]⟩
        obtain ⟨_, _, _, ⟨mem, idx, _, _, _, _, h4, _⟩⟩ := huniq r ds hb
        exact h3 mem idx h4
      | failed _ h3 =>
        obtain ⟨_, _, _, h4⟩ := NotFetched.only h3
        refine .inr ⟨fun r ds hb => ?_, by rw [hrun, h4]⟩
        have := hb.1
        rw [hrun] at this; cases this
      | message _ h3 =>
        obtain ⟨_, _, _, h4⟩ := Fetched.only h3
        refine .inr ⟨fun r ds hb => ?_, by rw [hrun, h4]⟩
        have := hb.1
        rw [hrun] at this; cases this
      | @woken reference result report s' h3 _ =>
        refine .inl ⟨reference, result, ⟨by rw [hrun], pre, line, post, report, s', rfl, h1, h2, h3⟩, ?_⟩
        obtain ⟨_, _, _, _, _, _, _, _, h4⟩ := h3
        obtain ⟨_, _, _, rfl⟩ := Fetched.only h4
        rw [hrun]; rfl
      | @passed reference result report s' h3 _ =>
        refine .inl ⟨reference, result, ⟨by rw [hrun], pre, line, post, report, s', rfl, h1, h2, h3⟩, ?_⟩
        obtain ⟨_, _, _, _, _, _, _, _, h4⟩ := h3
        obtain ⟨_, _, _, rfl⟩ := Fetched.only h4
        rw [hrun]; rfl
    · refine .inr ⟨fun r ds hb => hd (huniq r ds hb).1, ?_⟩
      rw [hrun]
      exact congrArg Prod.snd (hno hd)

theorem brings_unique {s : St} {batch : List PyStr} {r ds r' ds' : Int} (h : Brings env s batch r ds) (h' : Brings env s batch r' ds') : r = r' ∧ ds = ds' := by
  obtain ⟨_, pre, line, post, m, s1, rfl, h1, h2, h3⟩ := h
  obtain ⟨_, pre', line', post', m', s1', he, k1, k2, k3⟩ := h'
  have hsame := first_same pre pre' he h1 h2 k1 k2
  subst hsame
  exact reportFetched_unique h3 k3

theorem trace_brings {s : St} {batch : List PyStr} {r ds : Int} (h : Brings env s batch r ds) :
    (handleNotification batch env s).2.smsTrace = .report r ds :: s.smsTrace := by
  rcases batch_report (env := env) batch s with ⟨r', ds', h1, h2⟩ | ⟨h1, _⟩
  · obtain ⟨rfl, rfl⟩ := brings_unique h h1
    exact h2
  · exact absurd h (h1 r ds)

theorem trace_other {s : St} {batch : List PyStr} (h : ∀ r ds, ¬ Brings env s batch r ds) : (handleNotification batch env s).2.smsTrace = s.smsTrace := by
  rcases batch_report (env := env) batch s with ⟨r', ds', h1, _⟩ | ⟨_, h2⟩
  · exact absurd h1 (h _ _)
  · exact h2

theorem rf_deleteMultiple (f : Int) (m : Option PyStr) : Steps env ReportFrame (deleteMultipleStoredSms f m) := by
  have := rf_memory (env := env) m none
  unfold deleteMultipleStoredSms; rframe
theorem rf_deleteAll : ∀ l : List Int, Steps env ReportFrame (deleteAll l)
  | [] => by unfold deleteAll; rframe
  | i :: l => by
    have h1 := rf_deleteAll l
    have h2 := fun i => rf_delete (env := env) i none
    unfold deleteAll; rframe; exact h2 _
theorem rf_list (st : Int) (m : Option PyStr) (d : Bool) : Steps env ReportFrame (listStoredSms st m d) := by
  have h1 := rf_memory (env := env) m none
  have h4 := rf_deleteMultiple (env := env) 4 none
  have h5 : ∀ l : List Int, Steps env ReportFrame (deleteSet l) := fun l => ⟨fun s => (rf_deleteAll _).run s⟩
  unfold listStoredSms deleteListed; rframe <;> exact h5 _
theorem rf_callbackAll : ∀ ms : List Msg, Steps env ReportFrame (callbackAll ms)
  | [] => by unfold callbackAll; rframe
  | m :: ms => by
    have h1 := rf_callbackAll ms
    have h2 := rf_callback (env := env) (.smsReceived m)
    unfold callbackAll; rframe
theorem rf_process (u : Bool) : Steps env ReportFrame (processStoredSms u) := by
  have h1 := rf_list (env := env) 1 none true
  have h2 := rf_list (env := env) 0 none true
  have h3 := rf_callbackAll (env := env)
  unfold processStoredSms; rframe <;> exact h3 _

theorem rf_op [PyUnicode] {op : Op} (h : NoMessages op) : Steps env ReportFrame op.run := by
  have hd : ∀ {α : Type} {m : M α}, Steps env ReportFrame m → Steps env ReportFrame (discard m) := by
    intro α m hm
    unfold discard; rframe
  have ha := fun i v => rf_setAnswered (env := env) i v
  cases h with
  | setTextMode => simp only [Op.run]; unfold setSmsTextMode; rframe
  | setSmsc => simp only [Op.run]; unfold Gsm.setSmsc; rframe
  | getSmsc => exact hd (by unfold Gsm.getSmsc; rframe)
  | signalStrength => exact hd (by unfold Gsm.signalStrength; rframe)
  | networkName => exact hd (by unfold Gsm.networkName; rframe)
  | imei => exact hd (by unfold Gsm.imei; rframe)
  | read => exact hd (rf_read _ _)
  | delete => exact rf_delete _ _
  | deleteMultiple => exact rf_deleteMultiple _ _
  | list => exact hd (rf_list _ _ _)
  | process => exact rf_process _
  | ussdCancel => simp only [Op.run]; unfold Ussd.cancel; rframe
  | answer => simp only [Op.run]; unfold Gsm.answer; rframe <;> exact ha _ _
  | hangup => simp only [Op.run]; unfold Gsm.hangup stopRinging hangupActive; rframe <;> exact ha _ _
  | dtmf => simp only [Op.run]; unfold sendDtmfTone; rframe

/-! ### The messages follow the centre -/

theorem lastIdx_none {r : Int} : ∀ {l : List Int}, lastIdx r l = none → ∀ j : Nat, l[j]? ≠ some r
  | [], _, j => by simp
  | x :: xs, h, j => by
    rw [lastIdx] at h
    cases hx : lastIdx r xs with
    | some k => rw [hx] at h; cases h
    | none =>
      rw [hx] at h
      dsimp only at h
      split at h
      · cases h
      · next hne =>
        cases j with
        | zero => simpa using hne
        | succ j => simpa using lastIdx_none hx j

theorem lastIdx_some {r : Int} : ∀ {l : List Int} {i : Nat}, lastIdx r l = some i → l[i]? = some r ∧ ∀ j, i < j → l[j]? ≠ some r
  | [], i, h => by cases h
  | x :: xs, i, h => by
    rw [lastIdx] at h
    cases hx : lastIdx r xs with
    | some k =>
      rw [hx] at h
      cases h
      obtain ⟨h1, h2⟩ := lastIdx_some hx
      refine ⟨by simpa using h1, fun j hj => ?_⟩
      cases j with
      | zero => omega
      | succ j => simpa using h2 j (by omega)
    | none =>
      rw [hx] at h
      dsimp only at h
      split at h
      · next he =>
        cases h
        refine ⟨by simp [he], fun j hj => ?_⟩
        cases j with
        | zero => omega
        | succ j => simpa using lastIdx_none hx j
      · cases h

/-- The parts given to the centre and the messages of the program. -/
structure PostInv (C : List Posted) (es : List SmsEvent) : Prop where
  closed : ∀ (p : Nat) (x : Posted), C[p]? = some x → x.last = true → ∃ k, x.message = some k
  shown : ∀ (p : Nat) (x : Posted) (k : Nat), C[p]? = some x → x.message = some k → x.last = true →
    ∃ st, (sentMessages es)[k]? = some ((x.reference : Int), st) ∧ (Undisturbed C p → st = statusTold x.told)
  ordered : ∀ (p q : Nat) (x y : Posted) (k l : Nat), p < q → C[p]? = some x → C[q]? = some y → x.message = some k → x.last = true →
    y.message = some l → y.last = true → k < l
  all : ∀ k, k < (sentMessages es).length → ∃ p, Closes C p k

theorem postInv_nil : PostInv [] [] := ⟨by simp, by simp, by simp, by simp [sentMessages]⟩

theorem undisturbed_append {C L : List Posted} {p : Nat} (h : Undisturbed (C ++ L) p) : Undisturbed C p := by
  intro x y q hx hq hy
  have hp := List.getElem?_eq_some_iff.1 hx
  have hl := List.getElem?_eq_some_iff.1 hy
  exact h x y q (by rw [List.getElem?_append_left hp.1]; exact hx) hq (by rw [List.getElem?_append_left hl.1]; exact hy)

/-- Parts that are not the last of a message. -/
theorem postInv_open {C L : List Posted} {es : List SmsEvent} (h : PostInv C es) (hL : ∀ y ∈ L, y.last = false) : PostInv (C ++ L) es := by
  have hold : ∀ (p : Nat) (x : Posted), (C ++ L)[p]? = some x → x.last = true → C[p]? = some x := by
    intro p x hx hl
    rw [List.getElem?_append] at hx
    split at hx
    · exact hx
    · have := hL x (List.mem_of_getElem? hx)
      rw [hl] at this; cases this
  refine ⟨fun p x hx hl => h.closed p x (hold p x hx hl) hl, fun p x k hx hm hl => ?_, ?_, fun k hk => ?_⟩
  · obtain ⟨st, h1, h2⟩ := h.shown p x k (hold p x hx hl) hm hl
    exact ⟨st, h1, fun hu => h2 (undisturbed_append hu)⟩
  · intro p q x y k l hpq hx hy h1 h2 h3 h4
    exact h.ordered p q x y k l hpq (hold p x hx h2) (hold q y hy h4) h1 h2 h3 h4
  · obtain ⟨p, x, h1, h2, h3⟩ := h.all k hk
    exact ⟨p, x, by rw [List.getElem?_append_left (List.getElem?_eq_some_iff.1 h1).1]; exact h1, h2, h3⟩

/-- The last part of a message. -/
theorem postInv_close {C : List Posted} {es : List SmsEvent} (h : PostInv C es) (r : Nat) :
    PostInv (C ++ [⟨some (sentMessages es).length, true, r, none⟩]) (es ++ [.sent r]) := by
  have hcase : ∀ (p : Nat) (x : Posted), (C ++ [⟨some (sentMessages es).length, true, r, none⟩])[p]? = some x →
      (p < C.length ∧ C[p]? = some x) ∨ (p = C.length ∧ x = ⟨some (sentMessages es).length, true, r, none⟩) := by
    intro p x hx
    rw [List.getElem?_append] at hx
    split at hx
    · next hp => exact .inl ⟨hp, hx⟩
    · next hp =>
      have hlt := (List.getElem?_eq_some_iff.1 hx).1
      simp at hlt
      have : p - C.length = 0 := by omega
      rw [this] at hx
      simp at hx
      exact .inr ⟨by omega, hx.symm⟩
  have hsent := sentMessages_snoc_sent es (r : Int)
  have hbound : ∀ (p : Nat) (x : Posted) (k : Nat), C[p]? = some x → x.message = some k → x.last = true → k < (sentMessages es).length := by
    intro p x k h1 h2 h3
    obtain ⟨st, h4, _⟩ := h.shown p x k h1 h2 h3
    exact (List.getElem?_eq_some_iff.1 h4).1
  refine ⟨fun p x hx hl => ?_, fun p x k hx hm hl => ?_, ?_, fun k hk => ?_⟩
  · rcases hcase p x hx with ⟨_, h1⟩ | ⟨_, rfl⟩
    · exact h.closed p x h1 hl
    · exact ⟨_, rfl⟩
  · rw [hsent]
    rcases hcase p x hx with ⟨_, h1⟩ | ⟨_, rfl⟩
    · obtain ⟨st, h2, h3⟩ := h.shown p x k h1 hm hl
      exact ⟨st, by rw [List.getElem?_append_left (List.getElem?_eq_some_iff.1 h2).1]; exact h2, fun hu => h3 (undisturbed_append hu)⟩
    · cases hm
      exact ⟨0, by simp, fun _ => rfl⟩
  · intro p q x y k l hpq hx hy h1 h2 h3 h4
    rcases hcase p x hx with ⟨_, k1⟩ | ⟨hp, rfl⟩
    · rcases hcase q y hy with ⟨_, k2⟩ | ⟨_, rfl⟩
      · exact h.ordered p q x y k l hpq k1 k2 h1 h2 h3 h4
      · cases h3
        exact hbound p x k k1 h1 h2
    · rcases hcase q y hy with ⟨hq, _⟩ | ⟨hq, _⟩ <;> omega
  · rw [hsent] at hk
    simp at hk
    by_cases hk' : k < (sentMessages es).length
    · obtain ⟨p, x, h1, h2, h3⟩ := h.all k hk'
      exact ⟨p, x, by rw [List.getElem?_append_left (List.getElem?_eq_some_iff.1 h1).1]; exact h1, h2, h3⟩
    · have : k = (sentMessages es).length := by omega
      subst this
      exact ⟨C.length, ⟨some (sentMessages es).length, true, r, none⟩, by simp, rfl, rfl⟩

theorem statusTold_some (n : Nat) : statusTold (some n) = statusFor (n : Int) := by
  cases n with
  | zero => rfl
  | succ n => simp [statusTold, statusFor]; omega

/-- A report on a part that is the newest with its reference. -/
theorem postInv_report {C : List Posted} {es : List SmsEvent} (h : PostInv C es) {p : Nat} {x : Posted} (hx : C[p]? = some x) (hn : Newest C p) (result : Nat) :
    PostInv (C.set p { x with told := some result }) (es ++ [.report x.reference result]) := by
  have hp := (List.getElem?_eq_some_iff.1 hx).1
  have hget : ∀ (q : Nat) (y : Posted), (C.set p { x with told := some result })[q]? = some y →
      (q = p ∧ y = { x with told := some result }) ∨ (q ≠ p ∧ C[q]? = some y) := by
    intro q y hy
    rw [List.getElem?_set] at hy
    split at hy
    · next e =>
      cases hy
      exact .inl ⟨e.symm, rfl⟩
    · next e => exact .inr ⟨fun e' => e e'.symm, hy⟩
  -- the same parts, but for what was told
  have hback : ∀ (q : Nat) (y : Posted), (C.set p { x with told := some result })[q]? = some y →
      ∃ y', C[q]? = some y' ∧ y'.message = y.message ∧ y'.last = y.last ∧ y'.reference = y.reference ∧ (q ≠ p → y' = y) ∧ (q = p → y.told = some result) := by
    intro q y hy
    rcases hget q y hy with ⟨rfl, rfl⟩ | ⟨hne, h1⟩
    · exact ⟨x, hx, rfl, rfl, rfl, fun hne => absurd rfl hne, fun _ => rfl⟩
    · exact ⟨y, h1, rfl, rfl, rfl, fun _ => rfl, fun e => absurd e hne⟩
  have hforth : ∀ (q : Nat) (y : Posted), C[q]? = some y → ∃ y', (C.set p { x with told := some result })[q]? = some y' ∧
      y'.message = y.message ∧ y'.last = y.last ∧ y'.reference = y.reference := by
    intro q y hy
    by_cases e : q = p
    · subst e
      rw [hx] at hy; cases hy
      exact ⟨{ x with told := some result }, by rw [List.getElem?_set_self hp], rfl, rfl, rfl⟩
    · exact ⟨y, by rw [List.getElem?_set_ne (fun e' => e e'.symm)]; exact hy, rfl, rfl, rfl⟩
  have hund : ∀ q, Undisturbed (C.set p { x with told := some result }) q → Undisturbed C q := by
    intro q hu a b j ha hj hb hr
    obtain ⟨a', h1, _, _, h4⟩ := hforth q a ha
    obtain ⟨b', k1, _, k3, k4⟩ := hforth j b hb
    rw [← k3]
    exact hu a' b' j h1 hj k1 (by rw [k4, h4]; exact hr)
  have hsent := sentMessages_snoc_report es (x.reference : Int) (result : Int)
  have hlen : (sentMessages (es ++ [.report x.reference result])).length = (sentMessages es).length := by
    rw [hsent]; split <;> simp
  refine ⟨fun q y hy hl => ?_, fun q y k hy hm hl => ?_, ?_, fun k hk => ?_⟩
  · obtain ⟨y', h1, h2, h3, _⟩ := hback q y hy
    rw [← h2]
    exact h.closed q y' h1 (by rw [h3]; exact hl)
  · obtain ⟨y', h1, h2, h3, h4, h5, h6⟩ := hback q y hy
    obtain ⟨st, k1, k2⟩ := h.shown q y' k h1 (by rw [h2]; exact hm) (by rw [h3]; exact hl)
    rw [h4] at k1
    rw [hsent]
    cases hli : lastIdx (x.reference : Int) ((sentMessages es).map (·.1)) with
    | none =>
      dsimp only
      refine ⟨st, k1, fun hu => ?_⟩
      by_cases e : q = p
      · exfalso
        subst e
        rw [hx] at h1; cases h1
        refine lastIdx_none hli k ?_
        rw [List.getElem?_map, k1, ← h4]
        rfl
      · rw [k2 (hund q hu), h5 e]
    | some i =>
      dsimp only
      obtain ⟨l1, l2⟩ := lastIdx_some hli
      by_cases hik : i = k
      · subst hik
        rw [List.getElem?_modify, k1]
        refine ⟨statusFor result, by simp, fun hu => ?_⟩
        by_cases e : q = p
        · rw [h6 e, statusTold_some]
        · -- an older message with the same reference
          exfalso
          have hr : y.reference = x.reference := by
            rw [List.getElem?_map, k1] at l1
            simp at l1
            exact_mod_cast l1
          obtain ⟨x', g1, g2, g3, g4⟩ := hforth p x hx
          rcases Nat.lt_or_ge q p with hlt | hge
          · have hxl : x.last = true := by
              have := hu y x' p hy hlt g1 (by rw [g4]; exact hr.symm)
              rw [← g3]; exact this
            obtain ⟨l, hxm⟩ := h.closed p x hx hxl
            have hkl := h.ordered q p y' x i l hlt h1 hx (by rw [h2]; exact hm) (by rw [h3]; exact hl) hxm hxl
            obtain ⟨st', m1, _⟩ := h.shown p x l hx hxm hxl
            exact l2 l hkl (by rw [List.getElem?_map, m1]; rfl)
          · exact hn x y' q hx (by omega) h1 (by rw [h4]; exact hr)
      · rw [List.getElem?_modify]
        refine ⟨st, by rw [k1]; simp [hik], fun hu => ?_⟩
        by_cases e : q = p
        · exfalso
          subst e
          rw [hx] at h1; cases h1
          -- the part closes the message `k`, and the report goes to the message `i`
          have hk : ((sentMessages es).map (·.1))[k]? = some (x.reference : Int) := by
            rw [List.getElem?_map, k1, ← h4]; rfl
          have hki : k < i := by
            rcases Nat.lt_or_ge i k with hlt | hge
            · exact absurd hk (l2 k hlt)
            · omega
          have hilt : i < (sentMessages es).length := by
            have := (List.getElem?_eq_some_iff.1 l1).1
            simpa using this
          obtain ⟨j, z, z1, z2, z3⟩ := h.all i hilt
          obtain ⟨st', z4, _⟩ := h.shown j z i z1 z2 z3
          have hzr : z.reference = x.reference := by
            rw [List.getElem?_map, z4] at l1
            simp at l1
            exact_mod_cast l1
          rcases Nat.lt_trichotomy j q with hlt | he | hlt
          · have := h.ordered j q z x i k hlt z1 hx z2 z3 (by rw [h2]; exact hm) (by rw [h3]; exact hl)
            omega
          · subst he
            rw [hx] at z1; cases z1
            rw [h2, hm] at z2
            cases z2
            omega
          · exact hn x z j hx hlt z1 hzr
        · rw [k2 (hund q hu), h5 e]
  · intro a b y z k l hab hy hz h1 h2 h3 h4
    obtain ⟨y', k1, k2, k3, _⟩ := hback a y hy
    obtain ⟨z', m1, m2, m3, _⟩ := hback b z hz
    exact h.ordered a b y' z' k l hab k1 m1 (by rw [k2]; exact h1) (by rw [k3]; exact h2) (by rw [m2]; exact h3) (by rw [m3]; exact h4)
  · rw [hlen] at hk
    obtain ⟨q, y, h1, h2, h3⟩ := h.all k hk
    obtain ⟨y', g1, g2, g3, _⟩ := hforth q y h1
    exact ⟨q, y', g1, by rw [g2]; exact h2, by rw [g3]; exact h3⟩

/-- A report on something else. -/
theorem postInv_foreign {C : List Posted} {es : List SmsEvent} (h : PostInv C es) {r ds : Int} (hr : ∀ x ∈ C, (x.reference : Int) ≠ r) : PostInv C (es ++ [.report r ds]) := by
  have hsame : sentMessages (es ++ [.report r ds]) = sentMessages es := by
    rw [sentMessages_snoc_report]
    cases hli : lastIdx r ((sentMessages es).map (·.1)) with
    | none => rfl
    | some i =>
      exfalso
      obtain ⟨l1, _⟩ := lastIdx_some hli
      have hilt : i < (sentMessages es).length := by
        have := (List.getElem?_eq_some_iff.1 l1).1
        simpa using this
      obtain ⟨j, z, z1, z2, z3⟩ := h.all i hilt
      obtain ⟨st', z4, _⟩ := h.shown j z i z1 z2 z3
      rw [List.getElem?_map, z4] at l1
      exact hr z (List.mem_of_getElem? z1) (by simpa using l1)
  exact ⟨h.closed, by rw [hsame]; exact h.shown, h.ordered, by rw [hsame]; exact h.all⟩

/-! ### Histories -/

/-- The program and the centre agree. -/
def Agree (C : List Posted) (s : St) : Prop := SentOk s ∧ PostInv C s.smsTrace.reverse

theorem sentOk_op [PyUnicode] (op : Op) {s : St} (h : SentOk s) : SentOk (op.run env s).2 := runOps_inv (env := env) sentOk_atom [op] h

theorem agree_step [PyUnicode] {C C' : List Posted} {s s' : St} (h : Agree C s) (hstep : PostStep env C s C' s') : Agree C' s' := by
  obtain ⟨h1, h2⟩ := h
  have hbatch : ∀ batch, SentOk (handleNotification batch env s).2 := fun batch => sentOk_op (env := env) (.event (.notify batch)) h1
  cases hstep with
  | @sent d t f i s' ls refs reference k1 k2 k3 =>
    have hs : SentOk s' := by
      have := sentOk_op (env := env) (.send d t f) h1
      simp only [Op.run, discard, run_bind, k1, run_pure] at this
      exact this
    obtain ⟨e1, e2⟩ := send_gives k1 k2 k3
    refine ⟨hs, ?_⟩
    have hlen : i = (sentMessages s.smsTrace.reverse).length := by rw [e1, ← h1.2]; simp
    rw [e2, List.reverse_cons, posted, ← List.append_assoc, hlen]
    exact postInv_close (postInv_open h2 (by simp)) reference
  | @failed d t f e s' refs k1 =>
    have hs : SentOk s' := by
      have := sentOk_op (env := env) (.send d t f) h1
      simp only [Op.run, discard, run_bind, k1] at this
      exact this
    refine ⟨hs, ?_⟩
    have ht : s'.smsTrace = s.smsTrace := by
      rcases send_cases (env := env) d t f s with ⟨_, h3⟩ | ⟨l, r, _, _, h3, _⟩
      · rw [k1] at h3; exact h3
      · rw [k1] at h3; cases h3
    rw [ht]
    exact postInv_open h2 (by simp [halfPosted])
  | reported k1 k2 k3 =>
    refine ⟨hbatch _, ?_⟩
    rw [trace_brings k3, List.reverse_cons]
    exact postInv_report h2 k1 k2 _
  | foreign k1 k2 =>
    refine ⟨hbatch _, ?_⟩
    rw [trace_brings k2, List.reverse_cons]
    exact postInv_foreign h2 k1
  | news k1 => exact ⟨hbatch _, by rw [trace_other k1]; exact h2⟩
  | @poll k =>
    refine ⟨sentOk_op (env := env) (.event (.poll k)) h1, ?_⟩
    rw [show ((Event.poll k).run env s).2.smsTrace = s.smsTrace from congrArg Prod.snd (rf_poll k s)]
    exact h2
  | waits => exact ⟨h1, h2⟩
  | other k1 =>
    refine ⟨sentOk_op _ h1, ?_⟩
    rw [show (Op.run _ env s).2.smsTrace = s.smsTrace from congrArg Prod.snd ((rf_op k1).run s).2]
    exact h2

theorem agree_life [PyUnicode] {C C' : List Posted} {s s' : St} (h : Agree C s) (hlife : PostLife env C s C' s') : Agree C' s' := by
  induction hlife with
  | start => exact h
  | next h1 _ ih => exact ih (agree_step h h1)

theorem agree_fresh {s : St} (h : Fresh s) : Agree [] s :=
  ⟨⟨by simp [h.2.1, h.2.2.1, dictGet, lastIdx], by simp [h.2.2.1, h.2.2.2, sentMessages]⟩, by rw [h.2.2.2]; exact postInv_nil⟩

end Gsm
