import Verif.Lemmas.DialExamples
import Verif.Props.ThreadCalls
import Verif.Props.Examples
/-! # Claim C83: the examples that make calls, and the one for USSD -/
namespace Gsm
open M Spec Prog

variable {env : Env}

section
variable [PyUnicode]

theorem polling_among {R : St → St → Prop} (hR : Relied R) {D E : Prop} (hs : CallStable R D E) {i n : Nat} {c : CallObj} {others : List Task} {s : St} (hk : TableKeyed s) (hc : s.calls[i]? = some c)
    (ho : ∀ y ∈ others, (¬ StartsNoCalls y → D) ∧ (¬ EndsNoCalls y → E)) (schedule : List Nat) :
    TonesThenHangup c.id (pollingSaid env schedule i n others s) ∧ ∀ r, (pollingDemo env schedule i n others s).1[0]? = some (.done r) → r = .ok () →
      Inactive (pollingDemo env schedule i n others s).2 i ∧
        ((∀ a b, R a b → CallsStay a b) → c.active = true → ∃ x ∈ pollingSaid env schedule i n others s, x.1 = py!"ATH\r" ∧ SaysYes x.2) := by
  have h := traces_among (i := 0) hR.refl hR.trans schedule (dialLoop i n :: others.map Task.prog) s s _ [] (fun j q hj hq => by
      obtain ⟨j, rfl⟩ : ∃ k, j = k + 1 := ⟨j - 1, by omega⟩
      rw [List.getElem?_cons_succ, List.getElem?_map, Option.map_eq_some_iff] at hq
      obtain ⟨y, hy, rfl⟩ := hq
      have hm := ho y (List.mem_of_getElem? hy)
      exact keeps_task hs y hm.1 hm.2) rfl (traces_loop (env := env) hR n c s hk hc) (hR.refl s)
  refine ⟨h.1, fun r hd hr => ?_⟩
  obtain ⟨s2, h1, h2⟩ := h.2 r hd
  obtain ⟨⟨c2, h3, h4⟩, h5⟩ := h1 hr
  refine ⟨?_, h5⟩
  obtain ⟨c3, h6, h7⟩ := (hR.grow _ _ h2).calls i c2 h3
  refine ⟨c3, h6, ?_⟩
  cases hx : c3.active with
  | false => rfl
  | true => rw [h7.active hx] at h4; cases h4

/-- Whatever the other threads do: dial_polling_demo.py writes nothing but the tones, once, and then ATH, once (unless the modem is busy). -/
theorem C83_writes {i n : Nat} {c : CallObj} {others : List Task} {s : St} (hk : TableKeyed s) (hc : s.calls[i]? = some c) (schedule : List Nat) :
    TonesThenHangup c.id (pollingSaid env schedule i n others s) :=
  (polling_among relied_grow callStable_grow hk hc (fun _ _ => ⟨fun _ => trivial, fun _ => trivial⟩) schedule).1

/-- When it is done, the call is over. -/
theorem C83_over {i n : Nat} {c : CallObj} {others : List Task} {s : St} (hk : TableKeyed s) (hc : s.calls[i]? = some c) {schedule : List Nat}
    (hd : (pollingDemo env schedule i n others s).1[0]? = some (.done (.ok ()))) : Inactive (pollingDemo env schedule i n others s).2 i :=
  ((polling_among relied_grow callStable_grow hk hc (fun _ _ => ⟨fun _ => trivial, fun _ => trivial⟩) schedule).2 _ hd rfl).1

/-- If nobody else ends calls, it has told the modem to end the call, and the modem has done so. -/
theorem C83_hangs_up {i n : Nat} {c : CallObj} {others : List Task} {s : St} (hk : TableKeyed s) (hc : s.calls[i]? = some c) (ha : c.active = true) (ho : ∀ y ∈ others, EndsNoCalls y) {schedule : List Nat}
    (hd : (pollingDemo env schedule i n others s).1[0]? = some (.done (.ok ()))) : ∃ x ∈ pollingSaid env schedule i n others s, x.1 = py!"ATH\r" ∧ SaysYes x.2 :=
  ((polling_among relied_stay callStable_stay hk hc (fun y hy => ⟨fun _ => trivial, fun h => h (ho y hy)⟩) schedule).2 _ hd rfl).2 (fun _ _ h => h) ha

end

/-- A call that is neither answered nor ended is waited for forever. -/
theorem C83_waits (n i : Nat) {c : CallObj} {s : St} (hc : s.calls[i]? = some c) (ha : c.active = true) (hn : c.answered = false) : (dialLoop i n).run env s = (.error .recursionError, s) := by
  induction n with
  | zero => rfl
  | succ n ih =>
    show run env (if (match s.calls[i]? with | some c => c.active | none => false) = true then (isAnswered i >>= fun b => _) else pure () : Prog Unit) s = _
    rw [hc]
    simp only [ha, if_true]
    show run env (if (match s.calls[i]? with | some c => c.answered | none => false) = true then _ else dialLoop i n : Prog Unit) s = _
    rw [hc]
    simp only [hn, Bool.false_eq_true, if_false]
    exact ih

/-! ### dial_callback_demo.py -/

section
variable {i : Nat} {c c2 : CallObj} {s s2 : St} {during : List Event}

/-- A call that ends while the callback waits: nothing is written. -/
theorem C83_callback_ended (hc : s.calls[i]? = some c) (ha : c.answered = true) (hw : sleep during env s = (.ok (), s2)) (h2 : s2.calls[i]? = some c2) (h3 : c2.active = false) :
    statusCallback i during env s = ⟨[.called, .answered, .playing], false, .ok (), s2⟩ := by
  have ht : tonesIfActive i env s2 = (.ok (), s2) := by simp [tonesIfActive, run_bind, run_get, h2, h3, run_pure]
  simp only [statusCallback, hc, ha, if_true, hw, ht, h2, h3, Bool.false_eq_true, if_false, playback, List.append_nil]

/-- Otherwise the tones are played and then the call is ended. The program goes on waiting exactly if the modem does not take ATH; if it does, the program prints that the other party has ended the call. -/
theorem C83_callback_hangs_up (hc : s.calls[i]? = some c) (ha : c.answered = true) (hw : sleep during env s = (.ok (), s2)) (h2 : s2.calls[i]? = some c2) (h3 : c2.active = true)
    (h4 : c2.answered = true) : ∃ tones hung log, Transmission env.reply [tonesText (dtmfPart s2.dtmfHuawei c2.id)] s2.log log tones ∧
      Transmission env.reply [py!"ATH\r"] log (statusCallback i during env s).after.log hung ∧ (statusCallback i during env s).waiting = !hung ∧
      (hung = true → Inactive (statusCallback i during env s).after i ∧ ∃ l, (statusCallback i during env s).printed = l ++ [.hangingUp, .called, .ended]) ∧
      (hung = false → (∃ e, (statusCallback i during env s).result = .error e) ∧ Notice.ended ∉ (statusCallback i during env s).printed) ∧
      (tones = true → hung = true → (statusCallback i during env s).result = .ok ()) := by
  obtain ⟨tones, s3, e3, ⟨l, w, h5⟩, h6, h7⟩ := C49_command (env := env) (tones := demoTones) h2 h4 (by decide) (by unfold Plain; decide)
  have h8 : s3.calls[i]? = some c2 := by rw [h5]; exact h2
  obtain ⟨hung, s4, e4, h9, h10, h11⟩ := C48_hangup_command (env := env) h8 h3
  rcases hx : sendDtmfTone i demoTones env s2 with ⟨r, s3'⟩
  rw [hx] at e3 h7
  dsimp only at e3 h7
  subst e3
  rcases hy : hangup i env s3' with ⟨q, s5⟩
  rw [hy] at e4 h10 h11
  dsimp only at e4 h10 h11
  subst e4
  have ht : tonesIfActive i env s2 = (r, s3') := by simp [tonesIfActive, run_bind, run_get, h2, h3, hx]
  have hno : Notice.ended ∉ (playback r).1 := by
    unfold playback
    split <;> simp
  have hok : tones = true → (playback r).2 = .ok () := fun h => by
    rw [h7.2 h]
    rfl
  simp only [statusCallback, hc, ha, if_true, hw, ht, h8, h3, hy]
  cases hung
  · obtain ⟨⟨e, he⟩, _⟩ := h11 rfl
    subst he
    exact ⟨tones, false, _, h6, h9, rfl, (fun h => nomatch h), fun _ => ⟨⟨e, rfl⟩, by simp [hno]⟩, (fun _ h => nomatch h)⟩
  · obtain ⟨he, d, hd⟩ := h10 rfl
    subst he
    exact ⟨tones, true, _, h6, h9, rfl, fun _ => ⟨⟨d, hd.1, hd.2.1⟩, _, by rw [List.append_assoc]; rfl⟩, (fun h => nomatch h), fun h _ => hok h⟩

end

/-! ### ussd_demo.py -/

/-- When it ends without an exception, there was a result; if the session was still open, it has been closed: the last command is AT+CUSD=2, and the modem has taken it. -/
theorem C83_ussd {during : List Event} {s : St} (h : (ussdDemo during env s).1 = .ok ()) :
    ∃ u s1, sendUssd py!"*101#" during env s = (.ok (some u), s1) ∧ (u.sessionActive = false → (ussdDemo during env s).2 = s1) ∧
      (u.sessionActive = true → Transmission env.reply [py!"AT+CUSD=2\r"] s1.log (ussdDemo during env s).2.log true) := by
  unfold ussdDemo at h ⊢
  rw [run_bind] at h ⊢
  rcases hs : sendUssd py!"*101#" during env s with ⟨r, s1⟩
  rw [hs] at h
  cases r with
  | error e => cases h
  | ok o =>
    cases o with
    | none => cases h
    | some u =>
      refine ⟨u, s1, rfl, fun hu => ?_, fun hu => ?_⟩
      · obtain ⟨ok, s2, _, h2, h3, h4⟩ := C44_cancel (env := env) u s1
        show (u.cancel env s1).2 = s1
        simp [Ussd.cancel, hu, run_pure]
      · obtain ⟨ok, s2, _, h2, h3, h4⟩ := C44_cancel (env := env) u s1
        have : ok = true := h4.1 h
        subst this
        rw [hu, if_pos rfl] at h2
        show Transmission env.reply _ _ (u.cancel env s1).2.log true
        rw [h3]
        exact h2

/-! ### Races, and examples -/

/-- A call that has been answered. -/
def answeredCall : St := { oneCall with calls := [{ incoming := false, id := 1, type := some 0, number := some py!"12", answered := true, callback := true }] }

attribute [local instance] asciiUnicode

/-- The other end hangs up just when the tones are to be played: an exception that the program does not handle. -/
theorem C83_race : results (pollingDemo goodModem (List.replicate 3 0 ++ List.replicate 20 1 ++ List.replicate 20 0) 0 5 [ending] answeredCall).1 = [some (.error .invalidState), some (.ok ())] := by
  decide +kernel

/-- The call ends just when the program ends it: the same. -/
theorem C83_race_hangup : results (pollingDemo goodModem (List.replicate 16 0 ++ List.replicate 20 1 ++ List.replicate 20 0) 0 5 [ending] answeredCall).1 = [some (.error .keyError), some (.ok ())] := by
  decide +kernel

theorem answeredCall_ok : TableKeyed answeredCall := by
  refine ⟨by decide, fun k i h => ?_⟩
  simp only [answeredCall, oneCall, List.mem_singleton, Prod.mk.injEq] at h
  obtain ⟨rfl, rfl⟩ := h
  exact ⟨_, rfl, rfl⟩

theorem results_done {ts : List (Prog Unit)} {r : Except PyErr Unit} {l : List (Option (Except PyErr Unit))} (h : results ts = some r :: l) : ts[0]? = some (.done r) := by
  cases ts with
  | nil => cases h
  | cons p ts =>
    have := (List.cons.inj h).1
    cases p with
    | done r' => cases this; rfl
    | io t k => cases this
    | act f k => cases this

/-- Alone it plays the tones and ends the call. -/
example : (pollingSaid goodModem (List.replicate 40 0) 0 5 [] answeredCall).map (·.1) = [tonesText py!"+VTS=", py!"ATH\r"] ∧
    results (pollingDemo goodModem (List.replicate 40 0) 0 5 [] answeredCall).1 = [some (.ok ())] := by decide +kernel

/-- The other end hangs up while the tones are played. -/
example : (pollingSaid goodModem (List.replicate 5 0 ++ List.replicate 20 1 ++ List.replicate 20 0) 0 5 [ending] answeredCall).map (·.1) = [tonesText py!"+VTS="] ∧
    results (pollingDemo goodModem (List.replicate 5 0 ++ List.replicate 20 1 ++ List.replicate 20 0) 0 5 [ending] answeredCall).1 = [some (.ok ()), some (.ok ())] := by decide +kernel

example : ∃ x ∈ pollingSaid goodModem (List.replicate 40 0) 0 5 [] answeredCall, x.1 = py!"ATH\r" ∧ SaysYes x.2 := by
  have h : results (pollingDemo goodModem (List.replicate 40 0) 0 5 [] answeredCall).1 = [some (.ok ())] := by decide +kernel
  refine C83_hangs_up (n := 5) (c := { incoming := false, id := 1, type := some 0, number := some py!"12", answered := true, callback := true }) answeredCall_ok rfl rfl (fun y h => absurd h (by simp)) ?_
  exact results_done h

/-- A modem that does not take ATH. -/
def stubbornModem : Env := modemWith fun log => if log.head? = some py!"ATH\r" then some (.lines [py!"ERROR"]) else none

/-- dial_callback_demo.py says that the other party has ended the call, which it has ended itself; when it could not end it, it waits. -/
example : (statusCallback 0 [] goodModem answeredCall).printed = [.called, .answered, .playing, .hangingUp, .called, .ended] ∧ (statusCallback 0 [] goodModem answeredCall).waiting = false ∧
    (statusCallback 0 [] stubbornModem answeredCall).printed = [.called, .answered, .playing, .hangingUp] ∧ (statusCallback 0 [] stubbornModem answeredCall).waiting = true ∧
    (statusCallback 0 [] stubbornModem answeredCall).result = .error (.command .command none) ∧ (statusCallback 0 [.notify [py!"^CEND:1,0,67,31"]] goodModem answeredCall).printed = [.called, .answered, .playing] := by
  decide +kernel

example : (ussdDemo [.notify [py!"+CUSD: 1,\"Balance?\",15"]] goodModem {}).1 = .ok () ∧ (ussdDemo [.notify [py!"+CUSD: 1,\"Balance?\",15"]] goodModem {}).2.log.head? = some py!"AT+CUSD=2\r" ∧
    (ussdDemo [.notify [py!"+CUSD: 0,\"12.50\",15"]] goodModem {}).1 = .ok () ∧ (ussdDemo [.notify [py!"+CUSD: 0,\"12.50\",15"]] goodModem {}).2.log.length = 1 := by decide +kernel

end Gsm
