import Verif.Lemmas.WireMethods
import Verif.Props.ModemWrite
import Verif.Spec.ExampleModem
/-! # Property C91: the modem takes what is written for the commands that were meant -/
namespace Gsm
open M Spec

variable {asks : List PyStr → Bool} {env : Env}

/-! ### When the modem asks -/

/-- Decides `Accepted`. -/
def acceptedB (reply : List PyStr → Reply) (log : List PyStr) : Bool :=
  match reply log with
  | .lines ls => match ls.getLast? with
    | some line => decide (¬ py!"ERROR" <:+: line ∧ line ≠ py!"COMMAND NOT SUPPORT")
    | none => false
  | .timeout _ => false

theorem acceptedB_iff {reply : List PyStr → Reply} {log : List PyStr} : acceptedB reply log = true ↔ Accepted reply log := by
  unfold acceptedB Accepted
  constructor
  · intro h
    split at h
    · next ls hr =>
      split at h
      · next line hl =>
        have := of_decide_eq_true h
        exact ⟨ls, line, hr, hl, this.1, this.2⟩
      · cases h
    · cases h
  · rintro ⟨ls, line, h1, h2, h3, h4⟩
    rw [h1]
    dsimp only
    rw [h2]
    exact decide_eq_true ⟨h3, h4⟩

/-- When a modem with these answers asks for a message. -/
def asksFor (reply : List PyStr → Reply) : List PyStr → Bool
  | [] => false
  | c :: log => !asksFor reply log && py!"AT+CMGS=".isPrefixOf c && acceptedB reply (c :: log)

/-- Every modem asks in exactly one way. -/
theorem C91_prompts (reply : List PyStr → Reply) : Prompts reply asks ↔ asks = asksFor reply := by
  have h0 : Prompts reply (asksFor reply) := by
    refine ⟨rfl, fun c log => ?_⟩
    simp only [asksFor, Bool.and_eq_true, Bool.not_eq_true', List.isPrefixOf_iff_prefix, acceptedB_iff, and_assoc]
  refine ⟨fun h => ?_, fun h => h ▸ h0⟩
  funext log
  induction log with
  | nil => exact h.first
  | cons c log ih =>
    have h1 := h.next c log
    have h2 := h0.next c log
    rw [ih] at h1
    rw [Bool.eq_iff_iff]
    exact h1.trans h2.symm

/-! ### One command, one message -/

theorem wireTakes_grows : ∀ (x : PyStr) (log : List PyStr) (part : PyStr), ∃ new, (wireTakes asks log part x).1 = new ++ log
  | [], _, _ => ⟨[], rfl⟩
  | c :: x, log, part => by
    simp only [wireTakes]
    split
    · obtain ⟨new, h⟩ := wireTakes_grows x ((part ++ [c]) :: log) []
      exact ⟨new ++ [part ++ [c]], by rw [h]; simp⟩
    · exact wireTakes_grows x log _

theorem first_ending {p : Nat → Bool} : ∀ {d : PyStr}, (∃ c ∈ d, p c = true) → ∃ a c b, d = a ++ c :: b ∧ (∀ x ∈ a, p x = false) ∧ p c = true
  | [], h => by obtain ⟨_, h, _⟩ := h; cases h
  | c :: d, h => by
    by_cases hc : p c = true
    · exact ⟨[], c, d, rfl, by simp, hc⟩
    · obtain ⟨x, hx, hp⟩ := h
      have : ∃ x ∈ d, p x = true := by
        rcases List.mem_cons.1 hx with rfl | hx
        · exact absurd hp hc
        · exact ⟨x, hx, hp⟩
      obtain ⟨a, c', b, h1, h2, h3⟩ := first_ending this
      refine ⟨c :: a, c', b, by simp [h1], fun y hy => ?_, h3⟩
      rcases List.mem_cons.1 hy with rfl | hy
      · simpa using hc
      · exact h2 y hy

theorem unit_only {log : List PyStr} {d : PyStr} {t : Nat} (h : wireTakes asks log [] (d ++ [t]) = ((d ++ [t]) :: log, [])) :
    ∀ c ∈ d, endsUnit (asks log) c = false := by
  intro c hc
  cases he : endsUnit (asks log) c with
  | false => rfl
  | true =>
  exfalso
  have hn : ∃ c ∈ d, endsUnit (asks log) c = true := ⟨c, hc, he⟩
  obtain ⟨a, c, b, rfl, h1, h2⟩ := first_ending hn
  have e : a ++ c :: b ++ [t] = (a ++ [c]) ++ (b ++ [t]) := by simp
  rw [e, wireTakes_append, wireTakes_unit h1 h2] at h
  obtain ⟨new, hg⟩ := wireTakes_grows (asks := asks) (b ++ [t]) (([] ++ a ++ [c]) :: log) []
  rw [h] at hg
  dsimp only at hg
  have hl := congrArg List.length hg
  simp only [List.length_append, List.length_cons] at hl
  have : new = [] := List.length_eq_zero_iff.1 (by omega)
  subst this
  simp at hg

/-- In the command state, what is written is taken for one command exactly if there is no carriage return inside. -/
theorem C91_command {log : List PyStr} {d : PyStr} (ha : asks log = false) : wireTakes asks log [] (d ++ [13]) = ((d ++ [13]) :: log, []) ↔ Flat d := by
  refine ⟨fun h hm => ?_, fun h => by simpa using command_unit (part := []) h ha⟩
  have := unit_only h 13 hm
  simp [endsUnit, ha] at this

example : Flat py!"AT+CUSD=1,\"*100#\",15" ∧ ¬ Flat py!"AT+CUSD=1,\"*100#\rATH\",15" := by decide

/-- When it has asked, what is written is taken for one message exactly if nothing inside ends messages. -/
theorem C91_message {log : List PyStr} {d : PyStr} (ha : asks log = true) : wireTakes asks log [] (d ++ [26]) = ((d ++ [26]) :: log, []) ↔ Endless d := by
  refine ⟨fun h => ⟨fun hm => ?_, fun hm => ?_⟩, fun h => by simpa using message_unit (part := []) h ha⟩
  · have := unit_only h 26 hm
    simp [endsUnit, ha] at this
  · have := unit_only h 27 hm
    simp [endsUnit, ha] at this

example : wireTakes (fun _ => true) [] [] (py!"two\rlines" ++ [26]) = ([py!"two\rlines" ++ [26]], []) := by decide

/-! ### Histories -/

/-- Whatever is done with a modem, it takes exactly the commands and messages that were meant, and is then ready
for the next command. -/
theorem C91_as_meant [PyUnicode] (hp : Prompts env.reply asks) (hb : NotBusyThen env.reply asks) (hf : FlatReplies env.reply)
    (ds : List Deed) (s : St) (h0 : asks s.log = false) (hs : ∀ n, s.smscNumber = some n → Flat n) (hd : AllFit env ds s) :
    TakenAsMeant asks s.log (runDeeds env ds s).2.log := by
  obtain ⟨⟨new, h1, h2⟩, h3⟩ := w_deeds ⟨hp, hb, hf⟩ ds s ⟨h0, hs⟩ hd
  exact ⟨new, h1, h2, h3.idle⟩

/-- From a new object on. -/
theorem C91_new [PyUnicode] (hp : Prompts env.reply asks) (hb : NotBusyThen env.reply asks) (hf : FlatReplies env.reply)
    (ds : List Deed) (hd : AllFit env ds {}) : wireTakes asks [] [] (chars (runDeeds env ds {}).2.log) = ((runDeeds env ds {}).2.log, []) := by
  obtain ⟨new, h1, h2, _⟩ := C91_as_meant hp hb hf ds {} hp.first (fun _ h => nomatch h) hd
  rw [show ({} : St).log = [] from rfl, List.append_nil] at h1
  rw [← h1] at h2
  exact h2

/-- Numbers and texts of messages in PDU mode may be anything. -/
theorem C91_pdu [PyUnicode] (hp : Prompts env.reply asks) (hb : NotBusyThen env.reply asks) (hf : FlatReplies env.reply)
    (destination text : PyStr) (flash : Bool) (s : St) (h0 : asks s.log = false) (hs : ∀ n, s.smscNumber = some n → Flat n) (hm : s.smsTextMode = false) :
    TakenAsMeant asks s.log (sendSms destination text flash env s).2.log := by
  obtain ⟨⟨new, h1, h2⟩, h3⟩ := w_send ⟨hp, hb, hf⟩ destination text flash s ⟨h0, hs⟩ (fun h => by rw [hm] at h; cases h)
  exact ⟨new, h1, h2, h3.idle⟩

/-- The command that announces a message in text mode. -/
def announcement (destination : PyStr) : PyStr := py!"AT+CMGS=\"" ++ destination ++ py!"\"\r"

/-- What a text mode message leaves in the log. -/
theorem text_log [PyUnicode] (hp : Prompts env.reply asks) (hb : NotBusyThen env.reply asks) {destination text : PyStr} {flash : Bool} {s : St} (hd : 0 < env.depth)
    (h0 : asks s.log = false) (hm : s.smsTextMode = true) (hacc : Accepted env.reply (announcement destination :: s.log)) :
    (sendSms destination text flash env s).2.log = (text ++ [26]) :: announcement destination :: s.log ∧ asks (announcement destination :: s.log) = true := by
  have ha : announcement destination = (py!"AT+CMGS=\"" ++ destination ++ py!"\"") ++ [13] := by simp [announcement]
  have hasks : asks (announcement destination :: s.log) = true := (hp.next _ _).2 ⟨h0, ⟨py!"\"" ++ destination ++ py!"\"\r", by simp [announcement]⟩, hacc⟩
  obtain ⟨ls, line, h1, h2, h3, h4⟩ := hacc
  have hw : write (py!"AT+CMGS=\"" ++ destination ++ py!"\"") true [13] env s = (.ok ls, { s with log := announcement destination :: s.log }) := by
    rw [ha]; exact C32_mapping hd (by rw [← ha]; exact h1) (.fine h2 h3 h4)
  obtain ⟨s1, hs1⟩ : ∃ s1 : St, s1 = { s with log := announcement destination :: s.log } := ⟨_, rfl⟩
  rw [← hs1] at hw
  have hlog : s1.log = announcement destination :: s.log := by rw [hs1]
  obtain ⟨j, w, he, hbusy, hout⟩ := write_outcome (data := text) (term := [26]) (env := env) s1
  have hle : ¬ 2 ≤ j := fun h => hb (text ++ [26]) s1.log (by rw [hlog]; exact hasks) (by simpa using hbusy 0 (by omega))
  have hge : j ≠ 0 := by
    rintro rfl
    obtain ⟨d, hd'⟩ : ∃ d, env.depth = d + 1 := ⟨env.depth - 1, by omega⟩
    have hwr : write text true [26] env s1 = writeN (d + 1) text true [26] env s1 := by show writeN env.depth _ _ _ _ _ = _; rw [hd']
    have hlen := congrArg (fun s : St => s.log.length) he
    rw [hwr] at hlen
    obtain ⟨j, w3, h3⟩ := writeN_state (data := text) (term := [26]) (pe := true) (env := env) d { s1 with log := (text ++ [26]) :: s1.log, writeWait := s1.writeWait + 2 }
    simp only [writeN] at hlen
    split at hlen
    · simp at hlen
    · split at hlen
      · simp at hlen
      · simp only [if_true] at hlen
        split at hlen
        · simp at hlen
        · simp at hlen
        · split at hlen
          · next he => rw [he] at h3; dsimp only at h3; subst h3; simp at hlen; try omega
          · next he => rw [he] at h3; dsimp only at h3; subst h3; simp at hlen; try omega
  obtain rfl : j = 1 := by omega
  refine ⟨?_, hasks⟩
  obtain ⟨rest, hrest⟩ : ∃ rest : List PyStr → M Nat, (∀ ls s', ((rest ls) env s').2.log = s'.log) ∧
      sendSms destination text flash env s = (write (py!"AT+CMGS=\"" ++ destination ++ py!"\"") >>= fun _ => write text true [26] >>= rest) env s := by
    refine ⟨fun ls => (match lineStartingWith py!"+CMGS:" ls with
      | none => M.raise (.command .command none)
      | some result => do
        let reference ← M.ofExcept (pyInt (result.drop 7))
        recordSent destination text reference
        pure s.sent.length : M Nat), fun ls s' => ?_, ?_⟩
    · dsimp only
      cases lineStartingWith py!"+CMGS:" ls with
      | none => rfl
      | some r =>
        show (thenRun (M.ofExcept (pyInt (r.drop 7)) env s') fun i s' => (Except.ok s.sent.length, (recordSent destination text i env s').2)).2.log = _
        cases pyInt (r.drop 7) <;> rfl
    · show (if s.smsTextMode then _ else _ : M Nat) env s = _
      rw [hm, if_pos rfl]
      rfl
  rw [hrest.2]
  show (thenRun (write (py!"AT+CMGS=\"" ++ destination ++ py!"\"") true [13] env s) fun _ s => thenRun (write text true [26] env s) fun ls s => rest ls env s).2.log = _
  rw [hw]
  show (thenRun (write text true [26] env s1) fun ls s => rest ls env s).2.log = _
  generalize write text true [26] env s1 = x at he ⊢
  obtain ⟨r, s2⟩ := x
  dsimp only at he
  subst he
  cases r with
  | ok ls => exact (hrest.1 ls _).trans (by show (text ++ [26]) :: s1.log = _; rw [hlog])
  | error e => show (text ++ [26]) :: s1.log = _; rw [hlog]

/-- A message in text mode is taken as meant exactly if its text does not contain a character that ends it. -/
theorem C91_text [PyUnicode] (hp : Prompts env.reply asks) (hb : NotBusyThen env.reply asks) (destination text : PyStr) (flash : Bool) (s : St) (hd : 0 < env.depth)
    (h0 : asks s.log = false) (hm : s.smsTextMode = true) (hn : Flat destination) (hacc : Accepted env.reply (announcement destination :: s.log)) :
    TakenAsMeant asks s.log (sendSms destination text flash env s).2.log ↔ Endless text := by
  obtain ⟨hlog, hasks⟩ := text_log (text := text) (flash := flash) hp hb hd h0 hm hacc
  have hcmd : wireTakes asks s.log [] (announcement destination) = (announcement destination :: s.log, []) := by
    have : Flat (py!"AT+CMGS=\"" ++ destination ++ py!"\"") := by simp only [flat_append]; exact ⟨⟨by decide, hn⟩, by decide⟩
    simpa [announcement] using command_unit (part := []) this h0
  have hch : chars [text ++ [26], announcement destination] = announcement destination ++ (text ++ [26]) := by simp [chars]
  rw [hlog]
  constructor
  · rintro ⟨new, h1, h2, h3⟩
    have hnew : new = [text ++ [26], announcement destination] :=
      (List.append_cancel_right (as := new) (cs := [text ++ [26], announcement destination]) (bs := s.log) (by rw [← h1]; rfl))
    rw [hnew, hch, wireTakes_append, hcmd] at h2
    exact (C91_message hasks).1 h2
  · intro he
    refine ⟨[text ++ [26], announcement destination], rfl, ?_, ?_⟩
    · rw [hch, wireTakes_append, hcmd]
      exact (C91_message hasks).2 he
    · cases ha : asks ((text ++ [26]) :: announcement destination :: s.log) with
      | false => rfl
      | true => have := ((hp.next _ _).1 ha).1; rw [hasks] at this; cases this

/-- Otherwise somebody who can choose the text of a message can give the modem commands: (Violated) what
follows the end of the message is taken for a command. -/
theorem C91_text_violated [PyUnicode] (hp : Prompts env.reply asks) (hb : NotBusyThen env.reply asks) (destination text command : PyStr) (flash : Bool) (s : St)
    (hd : 0 < env.depth) (h0 : asks s.log = false) (hm : s.smsTextMode = true) (hn : Flat destination) (hacc : Accepted env.reply (announcement destination :: s.log))
    (ht : Endless text) (hc : Flat command) :
    ∃ new more part, (sendSms destination (text ++ [26] ++ command ++ [13]) flash env s).2.log = new ++ s.log ∧
      wireTakes asks s.log [] (chars new) = (more ++ (command ++ [13]) :: (text ++ [26]) :: announcement destination :: s.log, part) := by
  obtain ⟨hlog, hasks⟩ := text_log (text := text ++ [26] ++ command ++ [13]) (flash := flash) hp hb hd h0 hm hacc
  have hcmd : wireTakes asks s.log [] (announcement destination) = (announcement destination :: s.log, []) := by
    have : Flat (py!"AT+CMGS=\"" ++ destination ++ py!"\"") := by simp only [flat_append]; exact ⟨⟨by decide, hn⟩, by decide⟩
    simpa [announcement] using command_unit (part := []) this h0
  have ha : asks ((text ++ [26]) :: announcement destination :: s.log) = false := by
    cases ha : asks ((text ++ [26]) :: announcement destination :: s.log) with
    | false => rfl
    | true => have := ((hp.next _ _).1 ha).1; rw [hasks] at this; cases this
  have h1 := (C91_message hasks).2 ht
  have h2 := (C91_command ha).2 hc
  obtain ⟨more, hg⟩ := wireTakes_grows (asks := asks) [26] ((command ++ [13]) :: (text ++ [26]) :: announcement destination :: s.log) []
  refine ⟨[text ++ [26] ++ command ++ [13] ++ [26], announcement destination], more, (wireTakes asks ((command ++ [13]) :: (text ++ [26]) :: announcement destination :: s.log) [] [26]).2, hlog, ?_⟩
  have hch : chars [text ++ [26] ++ command ++ [13] ++ [26], announcement destination] = announcement destination ++ ((text ++ [26]) ++ ((command ++ [13]) ++ [26])) := by simp [chars]
  rw [hch, wireTakes_append, hcmd]
  dsimp only
  rw [wireTakes_append, h1]
  dsimp only
  rw [wireTakes_append, h2, ← hg]

/-! ### Examples -/

/-- It asks for messages, and takes them. -/
def wireModem : Env := modemWith fun log =>
  if (log.head?.getD []).getLast? = some 26 then some (.lines [py!"+CMGS: 5", py!"OK"])
  else if py!"AT+CMGS=".isPrefixOf (log.head?.getD []) then some (.lines [py!"> "]) else none

/-- Its answers. -/
def wireAnswers : List (List PyStr) := [[py!"+CMGS: 5", py!"OK"], [py!"> "], [py!"+CFUN: 1", py!"OK"], [py!"+CPIN: READY", py!"OK"], [py!"ERROR"], [py!"ACME", py!"OK"],
  [py!"+CSCA: \"+27\",145", py!"OK"], [py!"+CPMS: (\"ME\",\"SM\"),(\"ME\",\"SM\"),(\"SM\")", py!"OK"], [py!"OK"]]

theorem wireModem_answers (log : List PyStr) : ∃ ls, wireModem.reply log = .lines ls ∧ ls ∈ wireAnswers := by
  have h1 : ∀ c, ∃ ls, goodReply c = .lines ls ∧ ls ∈ wireAnswers := by
    intro c
    unfold goodReply
    repeat' split
    all_goals exact ⟨_, rfl, by decide⟩
  show ∃ ls, Option.getD (if (log.head?.getD []).getLast? = some 26 then some (Reply.lines [py!"+CMGS: 5", py!"OK"])
    else if py!"AT+CMGS=".isPrefixOf (log.head?.getD []) then some (.lines [py!"> "]) else none) (goodReply (log.head?.getD [])) = .lines ls ∧ ls ∈ wireAnswers
  split
  · exact ⟨_, rfl, by decide⟩
  · split
    · exact ⟨_, rfl, by decide⟩
    · exact h1 _

theorem wireModem_on : Prompts wireModem.reply (asksFor wireModem.reply) ∧ NotBusyThen wireModem.reply (asksFor wireModem.reply) ∧ FlatReplies wireModem.reply := by
  refine ⟨(C91_prompts _).2 rfl, fun c log _ => ?_, fun log ls h l hl => ?_⟩
  · rintro ⟨n, ls, line, h1, h2, h3⟩
    obtain ⟨ls', h4, h5⟩ := wireModem_answers (c :: log)
    rw [h1] at h4
    cases h4
    have := busy_classify h3
    have h6 : ∀ ls ∈ wireAnswers, ∀ line, ls.getLast? = some line → ∀ n, classify line ≠ .busy n := by
      intro ls hls line hl n
      have h7 : ∀ ls ∈ wireAnswers, (ls.getLast?.map fun l => match classify l with | .busy _ => true | _ => false) = some false := by decide
      have := h7 ls hls
      rw [hl] at this
      intro hc
      simp [hc] at this
    exact h6 ls h5 line h2 _ this
  · obtain ⟨ls', h4, h5⟩ := wireModem_answers log
    rw [h] at h4
    cases h4
    have h7 : ∀ ls ∈ wireAnswers, ∀ l ∈ ls, Flat l := by decide
    exact h7 ls h5 l hl

/-- Connecting, a message in PDU mode with control characters, a message of two lines in text mode, a call. -/
def fittingDeeds : List Deed := [.connect none, .op (.send py!"12" py!"a\x1aATH\r" false), .op (.setTextMode true), .op (.send py!"12" py!"a\rb" false), .op (.dial py!"12" 1 false []), .close]

attribute [local instance] asciiUnicode in
example : AllFit wireModem fittingDeeds {} := by
  refine ⟨(fun _ h => nomatch h), (fun h => absurd h (by decide +kernel)), trivial, (fun _ => ⟨by decide, by decide, by decide⟩), ⟨by decide, fun _ h => nomatch h⟩, trivial, trivial⟩

attribute [local instance] asciiUnicode in
example : ((runDeeds wireModem fittingDeeds {}).2.log.take 6).reverse =
    [py!"AT+CMGS=20\r", py!"00210002A12100080C0061001A004100540048000D\x1a", py!"AT+CMGF=1\r", py!"AT+CMGS=\"12\"\r", py!"a\rb\x1a", py!"ATD12;\r"] ∧
    wireTakes (asksFor wireModem.reply) [] [] (chars (runDeeds wireModem fittingDeeds {}).2.log) = ((runDeeds wireModem fittingDeeds {}).2.log, []) := by decide +kernel

attribute [local instance] asciiUnicode in
/-- A received text that is passed on in text mode can delete all messages. -/
example : wireTakes (asksFor wireModem.reply) [] [] (chars (sendSms py!"12" (py!"Hi\x1aAT+CMGD=1,4\r") false wireModem { smsTextMode := true }).2.log) =
    ([py!"AT+CMGD=1,4\r", py!"Hi\x1a", py!"AT+CMGS=\"12\"\r"], [26]) := by decide +kernel

/-- (Violated) A carriage return in a number to dial: the modem takes two commands. -/
theorem C91_dial_violated : ∃ new, (dial py!"12;\rAT+CMGD=1,4" 1 false [] wireModem {}).2.log = new ∧
    wireTakes (asksFor wireModem.reply) [] [] (chars new) = ([py!"AT+CMGD=1,4;\r", py!"ATD12;\r"], []) := ⟨_, rfl, by decide +kernel⟩

/-- It answers the first message with busy. -/
def busyOnce : Env := modemWith fun log =>
  if (log.head?.getD []).getLast? = some 26 then
    if (log.tail.head?.getD []).getLast? = some 26 then some (.lines [py!"+CMGS: 5", py!"OK"]) else some (.lines [py!"+CMS ERROR: 515"])
  else if py!"AT+CMGS=".isPrefixOf (log.head?.getD []) then some (.lines [py!"> "]) else none

attribute [local instance] asciiUnicode in
/-- (Violated) When the modem answers a message with busy, the message is written again without being
announced again: the modem takes it for the beginning of the next command. -/
theorem C91_busy_violated : wireTakes (asksFor busyOnce.reply) [] [] (chars (runDeeds busyOnce [.op (.send py!"12" py!"Hi" false), .op .signalStrength] {}).2.log) =
    ([py!"00210002A121000002C834\x1aAT+CSQ\r", py!"00210002A121000002C834\x1a", py!"AT+CMGS=10\r"], []) ∧
    (runDeeds busyOnce [.op (.send py!"12" py!"Hi" false), .op .signalStrength] {}).2.log =
    [py!"AT+CSQ\r", py!"00210002A121000002C834\x1a", py!"00210002A121000002C834\x1a", py!"AT+CMGS=10\r"] := by decide +kernel

end Gsm
