import Verif.Lemmas.Callbacks
import Verif.Props.ModemDelivery
/-! # Property C89: callbacks that do something -/
namespace Gsm
open M Spec

variable {env : Env}

/-- With callbacks that only are recorded every operation is the one of the model of the modem. -/
theorem C89_same [PyUnicode] : (∀ op : Op, op.runWith callback = op.run) ∧ ∀ ops s, runOpsWith callback env ops s = runOps env ops s :=
  ⟨opWith_same, runOpsWith_same⟩

/-- Handling a notification asks the code of the user at most once, and passes on the exceptions that it raises. -/
theorem C89_once (lines : List PyStr) (s : St) : AskedOnce (fun cb => handleNotificationWith cb lines) env s := once_dispatch lines lines s

/-! ### Messages -/

/-- The message has been read and deleted when the code of the user gets it; what the code does is all that follows. -/
theorem C89_message (line : PyStr) (s : St) :
    (∃ r s', s'.callbacks = s.callbacks ∧ ∀ cb, handleSmsReceivedWith cb line env s = (r, s')) ∨
    ∃ mem idx m s', StoredAt py!"+CMTI:" line mem idx ∧ Fetched env s mem idx m s' ∧ ∀ cb, handleSmsReceivedWith cb line env s = cb (.smsReceived m) env s' := by
  cases hg : rxGroups cmtiRegex line with
  | none => exact .inl ⟨.ok (), s, rfl, fun cb => by simp only [handleSmsReceivedWith, hg, run_pure]⟩
  | some g =>
    obtain ⟨mem, idx, rfl, hs⟩ := stored_iff.1 (by rw [← cmti_rx]; exact hg)
    rcases fetch_run (env := env) mem idx s with ⟨e, s', h1, h2⟩ | ⟨m, s', h1, h2⟩
    · refine .inl ⟨.error e, s', ?_, fun cb => by simp only [handleSmsReceivedWith, hg, h2]⟩
      obtain ⟨_, _, _, rfl⟩ := NotFetched.only h1
      rfl
    · exact .inr ⟨mem, idx, m, s', hs, h1, fun cb => by simp only [handleSmsReceivedWith, hg, h2]⟩

/-- The same for a report; it has been entered at its message before. -/
theorem C89_report (line : PyStr) (s : St) :
    (∃ r s', s'.callbacks = s.callbacks ∧ ∀ cb, handleSmsStatusReportWith cb line env s = (r, s')) ∨
    ∃ reference result report s', ReportFetched env s line reference result report s' ∧ s.smsStatusReportEvent = none ∧
      ∀ cb, handleSmsStatusReportWith cb line env s = cb (.statusReport report) env (counted s' report reference result) := by
  cases hg : rxGroups cdsiRegex line with
  | none => exact .inl ⟨.ok (), s, rfl, fun cb => by simp only [handleSmsStatusReportWith, hg, run_pure]⟩
  | some g =>
    obtain ⟨mem, idx, rfl, hs⟩ := stored_iff.1 (by rw [← cdsi_rx]; exact hg)
    rcases fetch_run (env := env) mem idx s with ⟨e, s', h1, h2⟩ | ⟨m, s', h1, h2⟩
    · refine .inl ⟨.error e, s', ?_, fun cb => by simp only [handleSmsStatusReportWith, hg, h2]⟩
      obtain ⟨_, _, _, rfl⟩ := NotFetched.only h1
      rfl
    · have hcb : s'.callbacks = s.callbacks := by obtain ⟨_, _, _, rfl⟩ := Fetched.only h1; rfl
      cases m with
      | received st number t text smsc =>
        exact .inl ⟨.error .attributeError, s', hcb, fun cb => by simp only [handleSmsStatusReportWith, hg, h2]; rfl⟩
      | report st r number t1 t2 ds =>
        have hev : s'.smsStatusReportEvent = s.smsStatusReportEvent := by obtain ⟨_, _, _, rfl⟩ := Fetched.only h1; rfl
        have hf : ReportFetched env s line r ds (.report st r number t1 t2 ds) s' := ⟨mem, idx, st, number, t1, t2, hs, rfl, h1⟩
        by_cases hn : s.smsStatusReportEvent = none
        · refine .inr ⟨r, ds, _, s', hf, hn, fun cb => ?_⟩
          simp only [handleSmsStatusReportWith, hg, h2, run_bind, updateSent_run, run_get]
          rw [if_neg (by simp [counted, hev, hn])]
        · refine .inl ⟨.ok (), { counted s' (.report st r number t1 t2 ds) r ds with smsStatusReportEvent := some true }, hcb, fun cb => ?_⟩
          simp only [handleSmsStatusReportWith, hg, h2, run_bind, updateSent_run, run_get]
          rw [if_pos (by simpa [counted, hev, Option.isSome_iff_ne_none] using hn), run_modify]

/-- Stored messages with callbacks some of which raise an exception: all messages of a state are deleted before
the first of them is passed on, and an exception leaves the rest of them nowhere. -/
theorem C89_process (bad : Callback → Bool) (unreadOnly : Bool) (s : St) (hw : ListsWell env.reply s.smsTextMode) :
    ∃ r s', processStoredSmsWith (raisingOn bad) unreadOnly env s = (r, s') ∧ ProcessedWith bad env s (processedStates unreadOnly) r s' := by
  rw [processWith_eq]
  exact stagesWith_run bad _ s hw

/-- Two messages on the modem; the callback raises an exception for the first: the second is neither on the modem
any more nor has it been passed on, and the unread ones are not looked at. -/
theorem C89_lost_violated : (processStoredSmsWith (raisingOn fun _ => true) false (twoMessages hiPdu) {}).1 = .error .callback ∧
    (processStoredSmsWith (raisingOn fun _ => true) false (twoMessages hiPdu) {}).2.callbacks = [.smsReceived (hiMsg 1)] ∧
    (processStoredSmsWith (raisingOn fun _ => true) false (twoMessages hiPdu) {}).2.log.reverse =
      [py!"AT+CMGL=1\r", py!"AT+CMGD=3,0\r", py!"AT+CMGD=4,0\r"] := by decide +kernel

/-- When no exception is raised both are passed on. -/
example : (processStoredSmsWith (raisingOn fun _ => false) false (twoMessages hiPdu) {}).2.callbacks = [.smsReceived (hiMsg 1), .smsReceived (hiMsg 1)] := by decide +kernel

/-- A new message whose callback raises an exception is gone as well. -/
example : (handleSmsReceivedWith (raisingOn fun _ => true) py!"+CMTI: \"SM\",3" (twoMessages hiPdu) {}).1 = .error .callback ∧
    (handleSmsReceivedWith (raisingOn fun _ => true) py!"+CMTI: \"SM\",3" (twoMessages hiPdu) {}).2.log.reverse =
      [py!"AT+CPMS=\"SM\"\r", py!"AT+CMGR=3\r", py!"AT+CMGD=3,0\r"] := by decide +kernel

/-! ### Calls -/

/-- A call that is answered: the callback is all that follows. -/
theorem C89_answered {s : St} {k : Int} {i : Nat} {c : CallObj} (hk : dictGet s.activeCalls k = some i) (hc : s.calls[i]? = some c) (hb : c.callback = true) :
    ∃ s1, ToldUser s i true s1 ∧ ∀ cb, handleCallAnsweredWith cb (some k) env s = cb (.callStatus i) env s1 := by
  refine ⟨_, ⟨c, hc, rfl⟩, fun cb => ?_⟩
  simp only [handleCallAnsweredWith, run_bind, run_get, hk]
  rw [setAnsweredWith_run hc, if_pos hb]

/-- A call that has ended: the callback comes first. When it raises an exception, nothing follows. When it removes
the entry of the call, this is an error. Otherwise the call that has the entry then is ended. -/
theorem C89_ended {s : St} {k : Int} {i : Nat} {c : CallObj} (h0 : k ≠ 0) (hk : dictGet s.activeCalls k = some i) (hc : s.calls[i]? = some c)
    (hb : c.callback = true) (f : Bool) : ∃ s1, ToldUser s i false s1 ∧ ∀ cb : UserCode,
      (∀ e s2, cb (.callStatus i) env s1 = (.error e, s2) → handleCallEndedWith cb (some k) false f env s = (.error e, s2)) ∧
      (∀ s2, cb (.callStatus i) env s1 = (.ok (), s2) → k ∉ s2.activeCalls.map (·.1) → handleCallEndedWith cb (some k) false f env s = (.error .keyError, s2)) ∧
      ∀ s2 j, cb (.callStatus i) env s1 = (.ok (), s2) → dictGet s2.activeCalls k = some j → handleCallEndedWith cb (some k) false f env s =
        (.ok (), { s2 with calls := s2.calls.modify j (fun c => { c with active := false }), activeCalls := dictDel s2.activeCalls k }) := by
  refine ⟨_, ⟨c, hc, rfl⟩, fun cb => ?_⟩
  have hrun : handleCallEndedWith cb (some k) false f env s = (do cb (.callStatus i); endEntry k : M Unit) env { s with calls := s.calls.set i { c with answered := false } } := by
    rw [endedWith_run]
    simp only [endedId, Bool.false_eq_true, if_false, h0, hk]
    rw [run_bind, setAnsweredWith_run hc, if_pos hb, run_bind]
  rw [hrun, run_bind]
  refine ⟨fun e s2 h => by rw [h], fun s2 h hn => ?_, fun s2 j h hj => ?_⟩
  · rw [h]
    exact endEntry_gone (dictGet_none.2 hn)
  · rw [h]
    exact endEntry_run hj

/-- When the callback for the end of a call raises an exception, the call stays active and in the table. -/
theorem C89_ended_stays_violated {s : St} (ht : TableOk s) {k : Int} {i : Nat} {c : CallObj} (h0 : k ≠ 0) (hk : (k, i) ∈ s.activeCalls) (hc : s.calls[i]? = some c)
    (hb : c.callback = true) (f : Bool) {bad : Callback → Bool} (hbad : bad (.callStatus i) = true) :
    ∃ s2 d, handleCallEndedWith (raisingOn bad) (some k) false f env s = (.error .callback, s2) ∧ s2.activeCalls = s.activeCalls ∧ InTable s2 i ∧
      s2.calls[i]? = some d ∧ d.active = true ∧ d.answered = false := by
  obtain ⟨s1, ⟨c', hc', rfl⟩, h⟩ := C89_ended (env := env) h0 (dictGet_of_mem ht.1 hk) hc hb f
  rw [hc] at hc'; cases hc'
  obtain ⟨d, g1, g2, g3⟩ := ht.2 k i hk
  rw [hc] at g1; cases g1
  have hr : raisingOn bad (.callStatus i) env { s with calls := s.calls.set i { c with answered := false } } =
      (.error .callback, { s with calls := s.calls.set i { c with answered := false }, callbacks := .callStatus i :: s.callbacks }) := by
    simp only [raisingOn, hbad, if_true]
  exact ⟨_, { c with answered := false }, (h (raisingOn bad)).1 _ _ hr, rfl, ⟨k, hk⟩, get_set_self hc, g3, rfl⟩

/-- The same for a call that the user hangs up, after the modem has accepted the command. -/
theorem C89_hangup_stays_violated {s : St} {i : Nat} {c : CallObj} (hc : s.calls[i]? = some c) (ha : c.active = true) (hb : c.callback = true)
    {bad : Callback → Bool} (hbad : bad (.callStatus i) = true) :
    ∃ ok s1, Transmission env.reply [py!"ATH\r"] s.log s1.log ok ∧ s1.activeCalls = s.activeCalls ∧ (∃ d, s1.calls[i]? = some d ∧ d.active = true) ∧
      ∃ e, hangupWith (raisingOn bad) i env s = (.error e, s1) ∧ (ok = true → e = .callback ∧ s1.callbacks = .callStatus i :: s.callbacks) := by
  obtain ⟨ok, s1, ⟨l, w, rfl⟩, h2, h3⟩ := write_trans (env := env) py!"ATH" [13] { s with calls := s.calls.set i (quiet c) }
  have hq : ({ s with calls := s.calls.set i (quiet c), log := l, writeWait := w } : St).calls[i]? = some (quiet c) := get_set_self hc
  have hqc : (quiet c).callback = true := by rw [← hb]; unfold quiet; split <;> rfl
  have hqa : (quiet c).active = true := by rw [← ha]; unfold quiet; split <;> rfl
  unfold hangupWith
  rw [run_bind, run_get]
  simp only [hc]
  rw [run_bind, quiet_run hc]
  simp only [hangupActiveWith, ha, if_true, run_bind]
  rcases h3 with ⟨rfl, h3⟩ | ⟨rfl, e, h3⟩
  · rw [h3]
    dsimp only
    rw [setAnsweredWith_run hq, if_pos hqc]
    have hr : ∀ b : St, raisingOn bad (.callStatus i) env b = (.error .callback, { b with callbacks := .callStatus i :: b.callbacks }) := fun b => by
      simp only [raisingOn, hbad, if_true]
    rw [hr]
    refine ⟨true, { s with calls := (s.calls.set i (quiet c)).set i { quiet c with answered := false }, log := l, writeWait := w, callbacks := .callStatus i :: s.callbacks }, h2, rfl,
      ⟨{ quiet c with answered := false }, get_set_self hq, hqa⟩, .callback, rfl, fun _ => ⟨rfl, rfl⟩⟩
  · rw [h3]
    exact ⟨false, _, h2, rfl, ⟨quiet c, hq, hqa⟩, e, rfl, (nomatch ·)⟩

/-! ### Code that uses the modem -/

/-- Whatever callbacks do with the modem, however deep, the table of calls stays consistent. -/
theorem C89_table [PyUnicode] (user : Callback → St → UserProg) (depth : Nat) {s : St} (h : s.activeCalls = []) (ops : List Op) :
    TableOk (runOpsWith (userCode user depth) env ops s) :=
  (kept_runOps (kept_user user depth) ops s).1 ⟨by simp [h], by simp [h]⟩

/-- When `hangup` returns, the call has ended, whatever the callback did. -/
theorem C89_hung_up [PyUnicode] (user : Callback → St → UserProg) (depth : Nat) {s s1 : St} (ht : TableOk s) {i : Nat} {c : CallObj} (hc : s.calls[i]? = some c)
    (hh : hangupWith (userCode user depth) i env s = (.ok (), s1)) : (∃ d, s1.calls[i]? = some d ∧ d.id = c.id ∧ d.active = false) ∧ ¬ InTable s1 i := by
  have hk := (kept_hangup (env := env) (kept_user user depth) i).run s
  rw [hh] at hk
  have hd : ∃ d, s1.calls[i]? = some d ∧ d.id = c.id ∧ d.active = false := by
    obtain ⟨d, h1, h2⟩ := hk.2 i c hc
    refine ⟨d, h1, h2, ?_⟩
    unfold hangupWith at hh
    rw [run_bind, run_get] at hh
    simp only [hc] at hh
    rw [run_bind, quiet_run hc] at hh
    dsimp only at hh
    rw [run_bind] at hh
    unfold hangupActiveWith at hh
    cases ha : c.active
    · simp only [ha, Bool.false_eq_true, if_false, run_pure, run_modify] at hh
      cases hh
      dsimp only at h1
      rw [get_set_self hc] at h1
      cases h1
      rw [← ha]; unfold quiet; split <;> rfl
    · simp only [ha, if_true, run_bind] at hh
      split at hh
      · next heq =>
        split at heq
        · split at heq
          · next s3 _ =>
            simp only [run_modify] at heq hh
            cases heq
            cases hh
            dsimp only at h1
            cases h3 : s3.calls[i]? with
            | none => rw [modify_eq_self h3, h3] at h1; cases h1
            | some c3 => rw [modify_eq_set h3, get_set_self h3] at h1; cases h1; rfl
          · cases heq
        · cases heq
      · cases hh
  refine ⟨hd, ?_⟩
  obtain ⟨d, h1, _, h2⟩ := hd
  rintro ⟨k, hk'⟩
  obtain ⟨d', g1, _, g2⟩ := (hk.1 ht).2 k i hk'
  rw [h1] at g1; cases g1
  rw [h2] at g2; cases g2

/-- Exceptions are passed on. -/
def orRaise : Except PyErr Unit → St → UserProg
  | .ok _, _ => .done
  | .error e, _ => .raise e

/-- The callback hangs up its call when it is active. -/
def hangsUp : Callback → St → UserProg
  | .callStatus i, s => if (s.calls[i]?).any (·.active) then .act (.hangup i) orRaise else .done
  | _, _ => .done

/-- The callback hangs up its call when it has been answered (as examples/dial_callback_demo.py does). -/
def hangsUpAnswered : Callback → St → UserProg
  | .callStatus i, s => if (s.calls[i]?).any (·.answered) then .act (.hangup i) orRaise else .done
  | _, _ => .done

theorem write_simple {data : PyStr} {s : St} (hd : 0 < env.depth) (h : Accepted env.reply ((data ++ [13]) :: s.log)) :
    ∃ ls, write data true [13] env s = (.ok ls, { s with log := (data ++ [13]) :: s.log }) := by
  obtain ⟨ls, line, h1, h2, h3⟩ := h
  obtain ⟨n, hn⟩ : ∃ n, env.depth = n + 1 := ⟨env.depth - 1, by omega⟩
  refine ⟨ls, ?_⟩
  show writeN env.depth data true [13] env s = _
  rw [hn]
  simp only [writeN, h1, h2, if_true, classify_fine.2 h3]

/-- The run of `hangup` of an active call up to the callback. -/
theorem hangupWith_run {cb : UserCode} {s : St} {i : Nat} {c : CallObj} (hc : s.calls[i]? = some c) (ha : c.active = true) (hi : c.incoming = false) (hb : c.callback = true)
    (hd : 0 < env.depth) (hok : Accepted env.reply (py!"ATH\r" :: s.log)) : hangupWith cb i env s =
      match cb (.callStatus i) env { s with log := py!"ATH\r" :: s.log, calls := s.calls.set i { c with answered := false } } with
      | (.ok _, s2) => (.ok (), { s2 with calls := s2.calls.modify i (fun c => { c with active := false }), activeCalls := dictDel s2.activeCalls c.id })
      | (.error e, s2) => (.error e, s2) := by
  have hq : quiet c = c := by unfold quiet; rw [hi]; rfl
  unfold hangupWith
  rw [run_bind, run_get]
  simp only [hc]
  rw [run_bind, quiet_run hc, hq, set_self hc]
  obtain ⟨ls, hw⟩ := write_simple (env := env) (data := py!"ATH") (s := s) hd hok
  unfold hangupActiveWith
  rw [if_pos ha]
  simp only [run_bind]
  rw [show ({ s with calls := s.calls } : St) = s from rfl, hw]
  dsimp only
  have hc' : ({ s with log := py!"ATH\r" :: s.log } : St).calls[i]? = some c := hc
  have hs : setAnsweredWith cb i false env { s with log := (py!"ATH" ++ [13]) :: s.log } =
      cb (.callStatus i) env { s with log := py!"ATH\r" :: s.log, calls := s.calls.set i { c with answered := false } } := by
    rw [setAnsweredWith_run (s := { s with log := (py!"ATH" ++ [13]) :: s.log }) hc', if_pos hb]
    rfl
  rw [hs]
  generalize cb (.callStatus i) env _ = r
  rcases r with ⟨e | u, s2⟩ <;> rfl

/-- A callback that hangs up when its call is active never ends: it is called again by its own `hangup`, up to the recursion
limit, since the call stops being active only after the callback. `ATH` is written each time; the call stays active and in the table. -/
theorem C89_endless [PyUnicode] (hd : 0 < env.depth) (hok : ∀ log, Accepted env.reply (py!"ATH\r" :: log)) : ∀ (n : Nat) {s : St} {i : Nat} {c : CallObj},
    s.calls[i]? = some c → c.active = true → c.incoming = false → c.callback = true →
    ∃ s1, hangupWith (userCode hangsUp n) i env s = (.error .recursionError, s1) ∧ s1.log = List.replicate (n + 1) py!"ATH\r" ++ s.log ∧
      s1.callbacks = List.replicate n (.callStatus i) ++ s.callbacks ∧ s1.activeCalls = s.activeCalls ∧ s1.calls[i]? = some { c with answered := false }
  | 0, s, i, c, hc, ha, hi, hb => by
    rw [hangupWith_run hc ha hi hb hd (hok _)]
    exact ⟨_, rfl, rfl, rfl, rfl, get_set_self hc⟩
  | n + 1, s, i, c, hc, ha, hi, hb => by
    rw [hangupWith_run hc ha hi hb hd (hok _)]
    obtain ⟨b, hbdef⟩ : ∃ b : St, b = { s with log := py!"ATH\r" :: s.log, calls := s.calls.set i { c with answered := false }, callbacks := .callStatus i :: s.callbacks } := ⟨_, rfl⟩
    have hcb : b.calls[i]? = some { c with answered := false } := by rw [hbdef]; exact get_set_self hc
    obtain ⟨s1, h1, h2, h3, h4, h5⟩ := C89_endless hd hok n hcb ha hi hb
    have hrun : userCode hangsUp (n + 1) (.callStatus i) env { s with log := py!"ATH\r" :: s.log, calls := s.calls.set i { c with answered := false } } = (.error .recursionError, s1) := by
      rw [userCode, run_bind]
      simp only [callback, run_modify, run_bind, run_get]
      rw [← hbdef]
      have hprog : hangsUp (.callStatus i) b = .act (.hangup i) orRaise := by simp [hangsUp, hcb, ha]
      rw [hprog]
      have e : ((UserProg.act (.hangup i) orRaise).run (userCode hangsUp n)) env b =
          (orRaise (hangupWith (userCode hangsUp n) i env b).1 (hangupWith (userCode hangsUp n) i env b).2).run (userCode hangsUp n) env (hangupWith (userCode hangsUp n) i env b).2 := rfl
      rw [e, h1]
      rfl
    rw [hrun]
    refine ⟨s1, rfl, ?_, ?_, ?_, h5⟩
    · rw [h2, hbdef, List.replicate_succ' (n := n + 1)]; simp
    · rw [h3, hbdef, List.replicate_succ' (n := n)]; simp
    · rw [h4, hbdef]

/-- A callback that looks first is called twice: when the call is answered, and again when it hangs up. `ATH` is
written once, and the call is over. -/
theorem C89_once_answered [PyUnicode] (hd : 0 < env.depth) {s : St} (hok : Accepted env.reply (py!"ATH\r" :: s.log)) {k : Int} {i : Nat} {c : CallObj}
    (hk : dictGet s.activeCalls k = some i) (hid : c.id = k) (hc : s.calls[i]? = some c) (ha : c.active = true) (hi : c.incoming = false) (hb : c.callback = true) (n : Nat) :
    handleCallAnsweredWith (userCode hangsUpAnswered (n + 2)) (some k) env s =
      (.ok (), { s with log := py!"ATH\r" :: s.log, callbacks := .callStatus i :: .callStatus i :: s.callbacks, activeCalls := dictDel s.activeCalls k, calls := s.calls.set i { c with answered := false, active := false } }) := by
  obtain ⟨s1, ⟨c', hc', rfl⟩, h⟩ := C89_answered (env := env) hk hc hb
  rw [hc] at hc'; cases hc'
  rw [h, userCode, run_bind]
  simp only [callback, run_modify, run_bind, run_get]
  obtain ⟨b, hbdef⟩ : ∃ b : St, b = { s with calls := s.calls.set i { c with answered := true }, callbacks := .callStatus i :: s.callbacks } := ⟨_, rfl⟩
  rw [← hbdef]
  have hcb : b.calls[i]? = some { c with answered := true } := by rw [hbdef]; exact get_set_self hc
  have hprog : hangsUpAnswered (.callStatus i) b = .act (.hangup i) orRaise := by simp [hangsUpAnswered, hcb]
  rw [hprog]
  have hok' : Accepted env.reply (py!"ATH\r" :: b.log) := by rw [hbdef]; exact hok
  have hrun := hangupWith_run (cb := userCode hangsUpAnswered (n + 1)) hcb ha hi hb hd hok'
  have hinner : userCode hangsUpAnswered (n + 1) (.callStatus i) env { b with log := py!"ATH\r" :: b.log, calls := b.calls.set i { c with answered := false } } =
      (.ok (), { b with log := py!"ATH\r" :: b.log, calls := b.calls.set i { c with answered := false }, callbacks := .callStatus i :: b.callbacks }) := by
    rw [userCode, run_bind]
    simp only [callback, run_modify, run_bind, run_get]
    have hp : ∀ b' : St, b'.calls[i]? = some { c with answered := false } → hangsUpAnswered (.callStatus i) b' = .done := by
      intro b' hb'
      simp [hangsUpAnswered, hb']
    rw [hp _ (get_set_self hcb)]
    rfl
  have e : (UserProg.act (.hangup i) orRaise).run (userCode hangsUpAnswered (n + 1)) env b =
      (orRaise (hangupWith (userCode hangsUpAnswered (n + 1)) i env b).1 (hangupWith (userCode hangsUpAnswered (n + 1)) i env b).2).run (userCode hangsUpAnswered (n + 1)) env
        (hangupWith (userCode hangsUpAnswered (n + 1)) i env b).2 := rfl
  rw [e, hrun]
  dsimp only
  rw [hinner]
  dsimp only [orRaise, UserProg.run]
  rw [run_pure, modify_eq_set (get_set_self hcb), hbdef]
  subst hid
  simp [List.set_set]

/-! ### Polling -/

/-- A thread that polls ends with the exception of a callback. -/
theorem C89_poll_ends {cb : UserCode} {k : Nat} {p : Poller} {s s1 : St} {e : PyErr} (hp : s.pollers[k]? = some p) (h : pollRoundWith cb p env s = (.error e, s1)) :
    (Event.poll k).runWith cb env s = (.ok (), { s1 with pollers := s1.pollers.set k { p with done := true } }) := by
  simp only [Event.runWith, hp, h]

/-- From then on it does nothing: the end of its call is never noticed. -/
theorem C89_poll_over {cb : UserCode} {k : Nat} {p : Poller} {s : St} (hp : s.pollers[k]? = some p) (hd : p.done = true) (n : Nat) [PyUnicode] :
    runOpsWith cb env (List.replicate n (.event (.poll k))) s = s := by
  have h1 : (Event.poll k).runWith cb env s = (.ok (), s) := by
    have hr : pollRoundWith cb p env s = (.ok p, s) := by
      unfold pollRoundWith
      rw [run_bind, run_get]
      dsimp only
      rw [if_neg (by simp [hd]), run_pure]
      cases p
      cases hd
      rfl
    simp only [Event.runWith, hp, hr, set_self hp]
  induction n with
  | zero => rfl
  | succ n ih =>
    rw [List.replicate_succ, runOpsWith, Op.runWith, h1]
    exact ih

/-! ### Examples -/

/-- A modem with one dialled call. -/
def oneDialled : St := { alive := true, activeCalls := [(7, 0)], calls := [{ incoming := false, id := 7, type := some 0, number := some py!"123", callback := true }] }

section
attribute [local instance] asciiUnicode

example : TableOk oneDialled := ⟨by decide, fun k i h => by simp [oneDialled] at h; obtain ⟨rfl, rfl⟩ := h; exact ⟨_, rfl, rfl, rfl⟩⟩

/-- The callback raises an exception when the call has ended. -/
example : handleCallEndedWith (raisingOn fun _ => true) (some 7) false false goodModem oneDialled = (.error .callback, { oneDialled with callbacks := [.callStatus 0] }) ∧
    (handleCallEndedWith (raisingOn fun _ => false) (some 7) false false goodModem oneDialled).2.activeCalls = [] := by decide +kernel

/-- The callback hangs up when it is first called, also when the call has ended by itself: the entry is gone. -/
def hangsUpOnce : Callback → St → UserProg
  | .callStatus i, s => if s.callbacks.length = 1 then .act (.hangup i) orRaise else .done
  | _, _ => .done

example : (handleCallEndedWith (userCode hangsUpOnce 5) (some 7) false false goodModem oneDialled).1 = .error .keyError := by decide +kernel

example : (hangupWith (userCode hangsUp 3) 0 goodModem oneDialled).1 = .error .recursionError ∧
    (hangupWith (userCode hangsUp 3) 0 goodModem oneDialled).2.log = [py!"ATH\r", py!"ATH\r", py!"ATH\r", py!"ATH\r"] ∧
    (hangupWith (userCode hangsUp 3) 0 goodModem oneDialled).2.activeCalls = [(7, 0)] := by decide +kernel

example : (handleCallAnsweredWith (userCode hangsUpAnswered 2) (some 7) goodModem oneDialled).2.log = [py!"ATH\r"] ∧
    (hangupWith (userCode hangsUpAnswered 2) 0 goodModem oneDialled).1 = .ok () := by decide +kernel

/-- A modem that has answered the call first and then has none. -/
def answeredThenGone : Env := modemWith fun log => if log = [py!"AT+CLCC\r"] then some (.lines [py!"+CLCC: 7,0,0,0,0,\"123\",129", py!"OK"]) else none

/-- The callback for the answered call raises an exception: the end of the call is not noticed. -/
example : (runOpsWith (raisingOn fun _ => true) answeredThenGone (List.replicate 5 (.event (.poll 0))) { oneDialled with pollers := [⟨1, some 7, 10, false⟩] }).activeCalls = [(7, 0)] ∧
    (runOpsWith (raisingOn fun _ => true) answeredThenGone (List.replicate 5 (.event (.poll 0))) { oneDialled with pollers := [⟨1, some 7, 10, false⟩] }).calls.map (·.answered) = [true] ∧
    (runOpsWith (raisingOn fun _ => false) answeredThenGone (List.replicate 5 (.event (.poll 0))) { oneDialled with pollers := [⟨1, some 7, 10, false⟩] }).activeCalls = [] := by decide +kernel

/-- Callbacks for incoming calls that answer them. -/
example : ((runOpsWith (userCode (fun c _ => match c with | .incomingCall i => .act (.answer i) orRaise | _ => .done) 3) goodModem twoCalls (connected goodModem)).calls.map (·.answered)) = [true, true] := by decide +kernel
end

end Gsm
