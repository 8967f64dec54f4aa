import Verif.Lemmas.Dialogue
import Verif.Props.Callbacks
/-! # C116: Going through the menus of a USSD service

The service of the network is any function of what was entered in the session. -/
namespace Gsm
open M Spec

variable {env : Env} {V : UssdMenu}

/-- One input: if the modem accepts it, the object shows the page that belongs to everything that was entered in this
session; otherwise there is an exception, and the session is as before. -/
theorem C116_exchange {s : St} {x : PyStr} {during : List Event} (h : UssdAttended env V s x during) :
    (∃ s', sendUssd x during env s = (.ok (some (pageObject (V (sessionOf V env.reply s.log ++ [x])))), s') ∧
      sessionOf V env.reply s'.log = entered V (sessionOf V env.reply s.log) x) ∨
    ∃ e s', sendUssd x during env s = (.error e, s') ∧ sessionOf V env.reply s'.log = sessionOf V env.reply s.log := by
  obtain ⟨ok, s1, h1, h2, h3, h4⟩ := C72_send (env := env) x during s
  rw [show py!"AT+CUSD=1,\"" ++ x ++ py!"\",15\r" = cusdLine x by simp [cusdLine]] at h2
  cases ok with
  | false =>
    obtain ⟨e, he⟩ := h3 rfl
    exact .inr ⟨e, _, he, (session_trans (V := V) h2).2 rfl⟩
  | true =>
    obtain ⟨ls, hr, k1, k2⟩ := h4 rfl
    obtain ⟨line, hdisp, hls⟩ := h s1.log ls h2 hr
    obtain ⟨st, hat, hobj⟩ := displays_object hdisp
    refine .inl ?_
    rcases hls with rfl | ⟨hno, hring, pre, post, rfl, hpre⟩
    · obtain ⟨r, hm, hres⟩ := k1 ⟨by simp, line, by simp, page_starts hat⟩
      cases means_unique hm (page_answer hat)
      exact ⟨{ s1 with ussdSessionEvent := none }, by rw [hres, hobj]; rfl, session_enter h2⟩
    · obtain ⟨s2, r, hw, hres⟩ := k2 fun ⟨_, l, hl, hp⟩ => hno l hl hp
      obtain ⟨s3, hw2, hs3⟩ := awaits_page (env := env) (V := V) hat hring post pre { s1 with ussdSessionEvent := some false } hpre
      obtain ⟨rfl, rfl⟩ := C72_wait_unique hw hw2
      refine ⟨_, by rw [hres, hobj]; rfl, ?_⟩
      exact hs3.trans (session_enter h2)

/-- What the program knows of the session. -/
def KnowsSession (V : UssdMenu) (env : Env) (s : St) (last : Option Ussd) : Prop :=
  (∀ u, last = some u → (u.sessionActive = true ↔ sessionOf V env.reply s.log ≠ [])) ∧ (last = none → sessionOf V env.reply s.log = [])

theorem knows_page {s s' : St} {x : PyStr} (h : sessionOf V env.reply s'.log = entered V (sessionOf V env.reply s.log) x) :
    KnowsSession V env s' (some (pageObject (V (sessionOf V env.reply s.log ++ [x])))) := by
  refine ⟨fun u hu => ?_, fun hu => by cases hu⟩
  cases hu
  rw [h]
  unfold entered pageObject
  cases (V (sessionOf V env.reply s.log ++ [x])).more <;> simp

theorem knows_same {s s' : St} {last : Option Ussd} (h : KnowsSession V env s last) (hs : sessionOf V env.reply s'.log = sessionOf V env.reply s.log) : KnowsSession V env s' last := by
  unfold KnowsSession; rw [hs]; exact h

theorem trans_nil {reply : List PyStr → Reply} {old log : List PyStr} {ok : Bool} (h : Transmission reply [] old log ok) : log = old := by
  cases h; rfl

theorem dialogue_step [PyUnicode] {s s' : St} {last last' : Option Ussd} {ds : List UssdDeed} {us : List Ussd} (hk : KnowsSession V env s last) (h : UssdStep env V s last ds us s' last') :
    us = (stroll V (sessionOf V env.reply s.log) ds).1.map pageObject ∧ sessionOf V env.reply s'.log = (stroll V (sessionOf V env.reply s.log) ds).2 ∧ KnowsSession V env s' last' := by
  have exch : ∀ {x during u s'}, UssdAttended env V s x during → sendUssd x during env s = (.ok (some u), s') →
      [u] = (stroll V (sessionOf V env.reply s.log) [.enter x]).1.map pageObject ∧ sessionOf V env.reply s'.log = (stroll V (sessionOf V env.reply s.log) [.enter x]).2 ∧ KnowsSession V env s' (some u) := by
    intro x during u s' ha hr
    rcases C116_exchange ha with ⟨s2, h1, h2⟩ | ⟨e, s2, h1, _⟩
    · rw [hr] at h1; cases h1
      exact ⟨rfl, h2, knows_page h2⟩
    · rw [hr] at h1; cases h1
  have fails : ∀ {x during e s'}, UssdAttended env V s x during → sendUssd x during env s = (.error e, s') → sessionOf V env.reply s'.log = sessionOf V env.reply s.log := by
    intro x during e s' ha hr
    rcases C116_exchange ha with ⟨s2, h1, _⟩ | ⟨e, s2, h1, h2⟩
    · rw [hr] at h1; cases h1
    · rw [hr] at h1; cases h1; exact h2
  cases h with
  | request _ ha hr => exact exch ha hr
  | requestFailed _ ha hr => exact ⟨rfl, fails ha hr, knows_same hk (fails ha hr)⟩
  | @reply x during u u' _ _ ha hr =>
    unfold Ussd.reply at hr
    split at hr
    · exact exch ha hr
    · cases hr
  | @replyFailed x during u e _ _ ha hr =>
    have : sessionOf V env.reply s'.log = sessionOf V env.reply s.log := by
      unfold Ussd.reply at hr
      split at hr
      · exact fails ha hr
      · cases hr; rfl
    exact ⟨rfl, this, knows_same hk this⟩
  | @cancel u _ hu hr =>
    obtain ⟨ok, s1, _, h2, h3, h4⟩ := C44_cancel (env := env) u s
    rw [hr] at h3 h4
    have hok := h4.1 rfl
    subst hok
    simp only at h3
    subst h3
    have : sessionOf V env.reply s'.log = [] := by
      by_cases ha : u.sessionActive
      · rw [if_pos ha] at h2; exact session_end h2
      · rw [if_neg ha] at h2
        rw [trans_nil h2]
        exact Classical.byContradiction fun hc => ha ((hk.1 u hu).2 hc)
    exact ⟨rfl, this, ⟨fun u hu => (by cases hu), fun _ => this⟩⟩
  | @cancelFailed u e _ hu hr =>
    obtain ⟨ok, s1, _, h2, h3, h4⟩ := C44_cancel (env := env) u s
    rw [hr] at h3 h4
    have hok : ok = false := by
      cases ok with
      | false => rfl
      | true => exact absurd (h4.2 rfl) (by simp)
    subst hok
    simp only at h3
    subst h3
    have : sessionOf V env.reply s'.log = sessionOf V env.reply s.log := by
      by_cases ha : u.sessionActive
      · rw [if_pos ha] at h2; exact (session_trans h2).2 rfl
      · rw [if_neg ha] at h2; rw [trans_nil h2]
    exact ⟨rfl, this, knows_same hk this⟩
  | other ho => exact ⟨rfl, session_op ho s, knows_same hk (session_op ho s)⟩

theorem stroll_append : ∀ d1 d2 : List UssdDeed, ∀ session, stroll V session (d1 ++ d2) =
    ((stroll V session d1).1 ++ (stroll V (stroll V session d1).2 d2).1, (stroll V (stroll V session d1).2 d2).2)
  | [], d2, session => rfl
  | .enter x :: d1, d2, session => by simp [stroll, stroll_append d1 d2]
  | .stop :: d1, d2, session => by simp [stroll, stroll_append d1 d2]

/-- The objects that the program returns show, one after the other, the pages of the service for what the user does; and the
last one tells whether the session is open. -/
theorem C116_dialogue [PyUnicode] {s s' : St} {last last' : Option Ussd} {ds : List UssdDeed} {us : List Ussd} (hk : KnowsSession V env s last) (h : UssdLife env V s last ds us s' last') :
    us = (stroll V (sessionOf V env.reply s.log) ds).1.map pageObject ∧ sessionOf V env.reply s'.log = (stroll V (sessionOf V env.reply s.log) ds).2 ∧ KnowsSession V env s' last' := by
  induction h with
  | start => exact ⟨rfl, rfl, hk⟩
  | @next s last d1 u1 s1 last1 d2 u2 s2 last2 h1 _ ih =>
    obtain ⟨k1, k2, k3⟩ := dialogue_step hk h1
    obtain ⟨j1, j2, j3⟩ := ih k3
    rw [stroll_append (V := V) d1 d2]
    refine ⟨?_, ?_, j3⟩
    · rw [j1, ← k2, k1]; simp
    · rw [j2, k2]

/-- From the start. -/
theorem C116_from_start [PyUnicode] {s s' : St} {last' : Option Ussd} {ds : List UssdDeed} {us : List Ussd} (h0 : s.log = []) (h : UssdLife env V s none ds us s' last') :
    us = (stroll V [] ds).1.map pageObject ∧ (∀ u, last' = some u → (u.sessionActive = true ↔ (stroll V [] ds).2 ≠ [])) := by
  have h1 : sessionOf V env.reply s.log = [] := by rw [h0]; rfl
  obtain ⟨k1, k2, k3⟩ := C116_dialogue (V := V) ⟨fun u hu => (by cases hu), fun _ => h1⟩ h
  rw [h1] at k1 k2
  exact ⟨k1, fun u hu => by rw [← k2]; exact k3.1 u hu⟩

/-- A request begins a session: what it shows does not depend on earlier sessions. -/
theorem C116_request [PyUnicode] {s s' : St} {last : Option Ussd} (hk : KnowsSession V env s last) {x : PyStr} {during : List Event} {u : Ussd}
    (hl : ∀ u, last = some u → u.sessionActive = false) (ha : UssdAttended env V s x during) (hr : sendUssd x during env s = (.ok (some u), s')) :
    u = pageObject (V [x]) := by
  have h0 : sessionOf V env.reply s.log = [] := by
    cases last with
    | none => exact hk.2 rfl
    | some v =>
      refine Classical.byContradiction fun hc => ?_
      have := (hk.1 v rfl).2 hc
      rw [hl v rfl] at this
      cases this
  rcases C116_exchange ha with ⟨s2, h1, _⟩ | ⟨e, s2, h1, _⟩
  · rw [hr, h0] at h1; cases h1; rfl
  · rw [hr] at h1; cases h1

/-! ## A modem before any service -/

/-- The session after these commands, if all were accepted. -/
def menuSession (V : UssdMenu) : List PyStr → List PyStr
  | [] => []
  | c :: log =>
    match ussdInput c with
    | some x => entered V (menuSession V log) x
    | none => if c = py!"AT+CUSD=2\r" then [] else menuSession V log

def pageLine (p : UssdPage) : PyStr := py!"+CUSD: " ++ ((if p.more then 49 else 48) :: (py!",\"" ++ (p.text ++ py!"\",15")))

/-- A modem that accepts everything and shows the page in its answer. -/
def menuModem (V : UssdMenu) : Env where
  reply log :=
    match log with
    | [] => .timeout none
    | c :: log =>
      match ussdInput c with
      | some x => .lines [pageLine (V (menuSession V log ++ [x])), py!"OK"]
      | none => .lines [py!"OK"]
  depth := 10
  order l := l
  order_perm _ := .refl _

theorem menu_accepts (V : UssdMenu) (c : PyStr) (log : List PyStr) : Accepted (menuModem V).reply (c :: log) := by
  simp only [menuModem, Accepted]
  split
  · exact ⟨_, py!"OK", rfl, rfl, by decide +kernel⟩
  · exact ⟨_, py!"OK", rfl, rfl, by decide +kernel⟩

theorem menu_session (V : UssdMenu) : ∀ log, sessionOf V (menuModem V).reply log = menuSession V log
  | [] => rfl
  | c :: log => by
    rw [sessionOf, if_pos (menu_accepts V c log), menuSession, menu_session V log]
    cases ussdInput c <;> rfl

theorem page_displays (p : UssdPage) (h : NoEnd p.text) : DisplaysPage p (pageLine p) := by
  refine ⟨if p.more then 49 else 48, ⟨[32], py!"15", ?_, by simp [Spaces], ?_, h, by simp [Digits], by simp⟩, ?_⟩
  · simp [pageLine]
  · cases p.more <;> simp
  · cases p.more <;> simp

/-- The hypothesis of the theorems holds for this modem. -/
theorem menu_attended (V : UssdMenu) (h : ∀ i, NoEnd (V i).text) (s : St) (x : PyStr) (during : List Event) : UssdAttended (menuModem V) V s x during := by
  intro log ls ht hr
  obtain ⟨h1, mid, rfl, h2⟩ := (session_trans (V := V) ht).1 rfl
  rw [menu_session, menu_session] at h2
  refine ⟨_, page_displays _ (h _), .inl ?_⟩
  simp only [menuModem, ussdInput_cmd] at hr
  cases hr
  rw [menu_session, h2]

/-- With this modem every request and every reply succeeds: the pages of any service are shown. -/
theorem C116_menu (V : UssdMenu) (h : ∀ i, NoEnd (V i).text) (s : St) (x : PyStr) (during : List Event) :
    ∃ s', sendUssd x during (menuModem V) s = (.ok (some (pageObject (V (menuSession V s.log ++ [x])))), s') ∧ menuSession V s'.log = entered V (menuSession V s.log) x := by
  rcases C116_exchange (menu_attended V h s x during) with ⟨s', h1, h2⟩ | ⟨e, s', h1, h2⟩
  · rw [menu_session] at h1 h2
    rw [menu_session] at h2
    exact ⟨s', h1, h2⟩
  · exfalso
    have hc : cusdCmd x ++ [13] = cusdLine x := by simp [cusdCmd, cusdLine]
    have hw := C32_mapping (env := menuModem V) (s := { s with ussdSessionEvent := some false }) (data := cusdCmd x) (term := [13])
      (ls := [pageLine (V (menuSession V s.log ++ [x])), py!"OK"]) (show 0 < 10 by decide) (by simp only [hc, menuModem, ussdInput_cmd])
      (.fine (line := py!"OK") rfl (by decide +kernel) (by decide +kernel))
    obtain ⟨st, hat, hobj⟩ := displays_object (page_displays _ (h (menuSession V s.log ++ [x])))
    have := C44_in_response hw (by simp) ⟨_, by simp, page_starts hat⟩ (during := during)
    rw [means_unique (parse_means _) (page_answer hat), h1] at this
    cases this

/-! ### A small service -/

def accountMenu : UssdMenu
  | [_] => ⟨true, py!"1 Balance 2 Data"⟩
  | [_, x] => if x = py!"1" then ⟨false, py!"5 EUR left"⟩ else if x = py!"2" then ⟨true, py!"How much?"⟩ else ⟨false, py!"Wrong choice"⟩
  | [_, _, _] => ⟨false, py!"Bought"⟩
  | _ => ⟨false, []⟩

/-- A request, a reply, another request and two replies. -/
example : stroll accountMenu [] [.enter py!"*100#", .enter py!"1", .enter py!"*100#", .enter py!"2", .stop, .enter py!"*100#"] =
    ([⟨true, py!"1 Balance 2 Data"⟩, ⟨false, py!"5 EUR left"⟩, ⟨true, py!"1 Balance 2 Data"⟩, ⟨true, py!"How much?"⟩, ⟨true, py!"1 Balance 2 Data"⟩], [py!"*100#"]) := by decide +kernel

theorem account_noEnd (i : List PyStr) : NoEnd (accountMenu i).text := by
  have hq : ∀ t : PyStr, 34 ∉ t → NoEnd t := fun t ht a b d hd => absurd (by rw [hd]; simp) ht
  refine hq _ ?_
  unfold accountMenu
  split
  · decide
  · split
    · decide
    · split <;> decide
  · decide
  · decide

/-- The theorems speak about such a history. -/
theorem C116_example : ∃ s' u, @UssdLife asciiUnicode (menuModem accountMenu) accountMenu {} none [.enter py!"*100#", .enter py!"1"] [⟨true, some py!"1 Balance 2 Data"⟩, ⟨false, some py!"5 EUR left"⟩] s' (some u) := by
  let _ : PyUnicode := asciiUnicode
  obtain ⟨s1, h1, h2⟩ := C116_menu accountMenu account_noEnd {} py!"*100#" []
  obtain ⟨s2, h3, h4⟩ := C116_menu accountMenu account_noEnd s1 py!"1" []
  rw [h2, show entered accountMenu (menuSession accountMenu ({} : St).log) py!"*100#" = [py!"*100#"] by decide +kernel] at h3
  have h5 : Ussd.reply ⟨true, some py!"1 Balance 2 Data"⟩ py!"1" [] (menuModem accountMenu) s1 = _ := h3
  exact ⟨s2, _, .next (.request (fun u hu => by cases hu) (menu_attended _ account_noEnd _ _ _) h1)
    (.next (.reply rfl (menu_attended _ account_noEnd _ _ _) h5) .start)⟩

/-! ### What is not so -/

/-- A cancelled session stays active in its object: a reply to it is sent, and the network takes it for a new request. -/
theorem C116_cancel_violated : ∃ (u : Ussd) (s1 s2 s3 : St), sendUssd py!"*100#" [] (menuModem accountMenu) {} = (.ok (some u), s1) ∧
    u.cancel (menuModem accountMenu) s1 = (.ok (), s2) ∧ u.sessionActive = true ∧ sessionOf accountMenu (menuModem accountMenu).reply s2.log = [] ∧
    u.reply py!"1" [] (menuModem accountMenu) s2 = (.ok (some (pageObject (accountMenu [py!"1"]))), s3) := by
  refine ⟨⟨true, some py!"1 Balance 2 Data"⟩, { log := [cusdLine py!"*100#"] }, { log := [py!"AT+CUSD=2\r", cusdLine py!"*100#"] },
    { log := [cusdLine py!"1", py!"AT+CUSD=2\r", cusdLine py!"*100#"] }, ?_, ?_, rfl, ?_, ?_⟩
  · decide +kernel
  · decide +kernel
  · rw [menu_session]; decide +kernel
  · decide +kernel

/-- So does an earlier object of a session that is over. -/
theorem C116_old_object_violated : ∃ (u u' : Ussd) (s1 s2 s3 : St), sendUssd py!"*100#" [] (menuModem accountMenu) {} = (.ok (some u), s1) ∧
    u.reply py!"1" [] (menuModem accountMenu) s1 = (.ok (some u'), s2) ∧ u'.sessionActive = false ∧ u.sessionActive = true ∧
    u.reply py!"2" [] (menuModem accountMenu) s2 = (.ok (some (pageObject (accountMenu [py!"2"]))), s3) := by
  refine ⟨⟨true, some py!"1 Balance 2 Data"⟩, ⟨false, some py!"5 EUR left"⟩, { log := [cusdLine py!"*100#"] }, { log := [cusdLine py!"1", cusdLine py!"*100#"] },
    { log := [cusdLine py!"2", cusdLine py!"1", cusdLine py!"*100#"] }, ?_, ?_, rfl, rfl, ?_⟩
  · decide +kernel
  · decide +kernel
  · decide +kernel

/-- A new request while a session is open is not refused; it is one more input of that session. -/
theorem C116_request_violated : ∃ (u u' : Ussd) (s1 s2 : St), sendUssd py!"*100#" [] (menuModem accountMenu) {} = (.ok (some u), s1) ∧ u.sessionActive = true ∧
    sendUssd py!"*101#" [] (menuModem accountMenu) s1 = (.ok (some u'), s2) ∧ u' = pageObject (accountMenu [py!"*100#", py!"*101#"]) ∧ u' ≠ pageObject (accountMenu [py!"*101#"]) := by
  refine ⟨⟨true, some py!"1 Balance 2 Data"⟩, ⟨false, some py!"Wrong choice"⟩, { log := [cusdLine py!"*100#"] }, { log := [cusdLine py!"*101#", cusdLine py!"*100#"] }, ?_, rfl, ?_, ?_, ?_⟩
  · decide +kernel
  · decide +kernel
  · decide +kernel
  · decide +kernel

/-- That the network ends a session, or begins one, is not noticed unless a command waits for it: the notification changes nothing at all. -/
theorem C116_unasked_violated (env : Env) (s : St) (h : s.ussdSessionEvent = none) (page : UssdPage) (line : PyStr) (hl : DisplaysPage page line) (hr : ¬ py!"RING" <:+: line) :
    handleNotification [line] env s = (.ok (), s) := by
  obtain ⟨st, hat, _⟩ := hl
  refine (C43_first (pre := []) (post := []) (d := .cusd) (by simp) (.ussd hr (page_starts hat))).trans ?_
  simp [handlerOf, handleUssd, run_bind, run_get, h, run_pure]

/-- The network closes the session; the object does not know, and its reply begins a new session. -/
theorem C116_closed_violated : DisplaysPage ⟨false, py!"Session closed"⟩ py!"+CUSD: 2,\"Session closed\",15" ∧
    (handleNotification [py!"+CUSD: 2,\"Session closed\",15"] goodModem { log := [cusdLine py!"*100#"] }).2.log = [cusdLine py!"*100#"] ∧
    (Ussd.reply ⟨true, some py!"1 Balance 2 Data"⟩ py!"1" [] goodModem
      (handleNotification [py!"+CUSD: 2,\"Session closed\",15"] goodModem { log := [cusdLine py!"*100#"] }).2).2.log = [cusdLine py!"1", cusdLine py!"*100#"] := by
  refine ⟨⟨50, ⟨[32], py!"15", by decide +kernel, by simp [Spaces], by decide, ?_, by simp [Digits], by simp⟩, by simp⟩, by decide +kernel, by decide +kernel⟩
  intro a b d hd
  exact absurd (show 34 ∈ py!"Session closed" by rw [show py!"Session closed" = _ from hd]; simp) (by decide)

end Gsm
