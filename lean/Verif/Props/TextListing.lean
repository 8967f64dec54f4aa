import Verif.Lemmas.TextListing
import Verif.Spec.Store
/-! # C103: what a listing in text mode is taken for -/
namespace Gsm
open M Spec

variable {env : Env}

/-- Every listing in text mode is taken for one thing: every line that looks like a header begins a message, whoever has written it. -/
theorem C103_listing (ls : List PyStr) : (∃ r, TakenFor ls r ∧ ∀ r', TakenFor ls r' → r' = r) ∧
    (∀ xs, TakenFor ls (.ok xs) → parseListing true ls = .ok ⟨xs.map Prod.snd, (xs.map fun x => (x.1 : Int)).foldl setAdd []⟩) ∧
    ∀ e, TakenFor ls (.error e) → parseListing true ls = .error e := by
  refine ⟨?_, fun xs h => listing_taken h, fun e h => listing_taken h⟩
  obtain ⟨r, hr⟩ := taken_some ls
  exact ⟨r, hr, fun r' h => takenFor_unique h hr⟩

theorem list_text {status : Int} {name : PyStr} (hs : (name, status) ∈ stateNames) {s : St} (hm : s.smsTextMode = true) :
    listCommand s.smsTextMode status = .ok (py!"AT+CMGL=\"" ++ name ++ py!"\"") := by
  simp only [stateNames, List.mem_cons, List.not_mem_nil, or_false, Prod.mk.injEq] at hs
  rw [hm]
  rcases hs with ⟨rfl, rfl⟩ | ⟨rfl, rfl⟩ | ⟨rfl, rfl⟩ | ⟨rfl, rfl⟩ | ⟨rfl, rfl⟩ <;> rfl

/-- Whatever a listing is taken for is returned, and deleted if this is wished. -/
theorem C103_list {answer : List PyStr} {xs : List (Nat × Msg)} (h : TakenFor answer (.ok xs)) {status : Int} {name : PyStr} (hs : (name, status) ∈ stateNames)
    {memory : Option PyStr} {delete : Bool} {s : St} (hm : s.smsTextMode = true) :
    ListSpec env (py!"AT+CMGL=\"" ++ name ++ py!"\"\r") answer (xs.map Prod.fst) (xs.map Prod.snd) status memory delete s := by
  have := list_spec (env := env) (answer := answer) (is := xs.map Prod.fst) (ms := xs.map Prod.snd) (memory := memory) (delete := delete) (list_text hs hm)
    (by rw [hm, listing_taken h, List.map_map]; rfl)
  simpa using this

/-- When a listing cannot be understood, nothing is returned and nothing deleted. -/
theorem C103_refused {answer : List PyStr} {e : PyErr} (h : TakenFor answer (.error e)) {status : Int} {name : PyStr} (hs : (name, status) ∈ stateNames)
    {memory : Option PyStr} {delete : Bool} {s : St} (hm : s.smsTextMode = true) :
    ∃ ok s1, LogMem s s1 ∧ Transmission env.reply (selectCommands s memory ++ [py!"AT+CMGL=\"" ++ name ++ py!"\"\r"]) s.log s1.log ok ∧
      (ok = false → ∃ e', listStoredSms status memory delete env s = (.error e', s1)) ∧
      (ok = true → lastAnswer env s1.log = answer → listStoredSms status memory delete env s = (.error e, s1)) := by
  obtain ⟨ok, s1, h1, h2, h3⟩ := list_trans (env := env) (memory := memory) (delete := delete) (list_text hs hm)
  refine ⟨ok, s1, h1, by simpa using h2, ?_, ?_⟩
  · rintro rfl
    rcases h3 with ⟨_, h3⟩ | ⟨h, _⟩
    · exact h3
    · cases h
  · rintro rfl ha
    rcases h3 with ⟨h, _⟩ | ⟨_, ⟨e', h4, h5⟩ | ⟨l, h4, _⟩⟩
    · cases h
    · rw [ha, hm, listing_taken h] at h4
      cases h4
      exact h5
    · rw [ha, hm, listing_taken h] at h4
      cases h4

/-- A listing cannot be understood exactly when one message, with a text, has a state nobody knows or a time that is none: then the others are not
handed over either. -/
theorem C103_all_or_nothing {cs : List (Head × List PyStr)} {r : Except PyErr (List (Nat × Msg))} (h : ListedText cs r) :
    (∃ e, r = .error e) ↔ ∃ c ∈ cs, visible c.2 ≠ [] ∧ ((∀ n, (c.1.status, n) ∉ stateNames) ∨ ∃ e, parseTextModeTimeStr c.1.time = .error e) := by
  induction h with
  | nil => simp
  | blank v1 v2 ih => rw [ih]; simp [v1]
  | message v1 v2 v3 v4 ih =>
    simp only [reduceCtorEq, exists_false, List.mem_cons, exists_eq_or_imp, v1, ne_eq, not_false_eq_true, true_and, v3, false_iff, not_or] at ih ⊢
    exact ⟨⟨fun h => h _ v2, by simp⟩, ih⟩
  | later v1 v2 v3 v4 ih =>
    obtain ⟨c, hc, h⟩ := ih.1 ⟨_, rfl⟩
    exact ⟨fun _ => ⟨c, List.mem_cons_of_mem _ hc, h⟩, fun _ => ⟨_, rfl⟩⟩
  | badState v1 v2 => exact ⟨fun _ => ⟨_, List.mem_cons_self, v1, .inl v2⟩, fun _ => ⟨_, rfl⟩⟩
  | badTime v1 v2 v3 => exact ⟨fun _ => ⟨_, List.mem_cons_self, v1, .inr ⟨_, v3⟩⟩, fun _ => ⟨_, rfl⟩⟩

/-! ### Messages as the modem shows them -/

/-- Two messages, and one message whose text continues like a second one, look the same on the line: nobody can tell them apart. -/
theorem C103_ambiguous (a b : List (PyStr × PyStr)) (h1 t1 h2 t2 : PyStr) :
    shownChars (a ++ (h1, withHeader t1 h2 t2) :: b) = shownChars (a ++ (h1, t1) :: (h2, t2) :: b) ∧
    (h2 ≠ [] → NoEol h2 → shownLines (a ++ (h1, withHeader t1 h2 t2) :: b) = shownLines (a ++ (h1, t1) :: (h2, t2) :: b)) := by
  refine ⟨by simp [shownChars, withHeader], fun h0 he => ?_⟩
  have : textLines (withHeader t1 h2 t2) = textLines t1 ++ h2 :: textLines t2 := by
    have e : withHeader t1 h2 t2 = t1 ++ 13 :: 10 :: ([] ++ 13 :: 10 :: (h2 ++ 13 :: 10 :: t2)) := by simp [withHeader]
    rw [e, lines_append, lines_append, lines_append, lines_one h0 he]
    rfl
  simp [shownLines, this]

/-- Messages whose headers can be understood and whose texts contain no line that looks like a header are taken for what they are; only lines `OK` and
messages without any other line are lost. -/
theorem C103_items {items : List (PyStr × Head × PyStr)} (hh : ∀ x ∈ items, ListHeader x.1 x.2.1) (hb : ∀ x ∈ items, ∀ l ∈ textLines x.2.2, ¬ IsHead l)
    {r : Except PyErr (List (Nat × Msg))} (hr : ListedText (items.map fun x => (x.2.1, textLines x.2.2)) r) :
    TakenFor (shownLines (items.map fun x => (x.1, x.2.2))) r := items_taken hh hb hr

/-- A stored message that contains nothing but lines `OK`, or nothing at all, might as well not be there. -/
theorem C103_blank (a b : List (PyStr × PyStr)) {line text : PyStr} (hl : IsHead line) (ht : ∀ l ∈ textLines text, l = py!"OK")
    (hb : b = [] ∨ ∃ x b', b = x :: b' ∧ IsHead x.1) :
    parseListing true (shownLines (a ++ (line, text) :: b)) = parseListing true (shownLines (a ++ b)) := by
  obtain ⟨h, hh⟩ := hl
  have e1 : shownLines (a ++ (line, text) :: b) = a.flatMap (fun x => x.1 :: textLines x.2) ++ (line :: (textLines text ++ shownLines b)) := by simp [shownLines]
  have e2 : shownLines (a ++ b) = a.flatMap (fun x => x.1 :: textLines x.2) ++ shownLines b := by simp [shownLines]
  unfold parseListing
  rw [if_pos rfl, if_pos rfl, e1, e2]
  refine loop_congr (fun acc hdr ml => loop_blank hh ht ?_ acc hdr ml) _ _ _ _
  rcases hb with rfl | ⟨x, b', rfl, hx⟩
  · exact .inl rfl
  · exact .inr ⟨x.1, _, rfl, hx⟩

/-- So it is never returned; it stays where it is, unless all messages are listed and deleted: then it is deleted unread. -/
theorem C103_blank_list {line text : PyStr} (hl : IsHead line) (ht : ∀ l ∈ textLines text, l = py!"OK") {status : Int} {name : PyStr}
    (hs : (name, status) ∈ stateNames) {memory : Option PyStr} {delete : Bool} {s : St} (hm : s.smsTextMode = true) :
    ListSpec env (py!"AT+CMGL=\"" ++ name ++ py!"\"\r") (shownLines [(line, text)]) [] [] status memory delete s ∧
    Deletes 4 [] [py!"AT+CMGD=1,4\r"] ∧ ∀ cs, status ≠ 4 → Deletes status [] cs → cs = [] := by
  refine ⟨?_, by simp [Deletes], fun cs h1 h2 => ?_⟩
  · have hp : parseListing true (shownLines [(line, text)]) = .ok ⟨[], []⟩ := by
      refine (C103_blank [] [] hl ht (.inl rfl)).trans ?_
      decide +kernel
    have := list_spec (env := env) (answer := shownLines [(line, text)]) (is := []) (ms := []) (memory := memory) (delete := delete) (list_text hs hm)
      (by rw [hm, hp]; rfl)
    simpa using this
  · rw [Deletes, if_neg h1] at h2
    obtain ⟨order, -, h3, rfl⟩ := h2
    cases order with
    | nil => rfl
    | cons i o => exact absurd ((h3 i).1 (by simp)) (by simp)

/-- What a header that can be understood, with a text, is taken for. -/
def textEntryOf (h : Head) (n : Int) (t : DateTime) (text : PyStr) : Nat × Msg :=
  (decVal h.index, .received n (some h.number) t ([10].intercalate (visible (textLines text))) none)

/-- Whoever writes a message whose text continues like a second message makes the program believe in that second message: it has any place, any state, any
sender, any time and any text. -/
theorem C103_forged {line line' before after : PyStr} {h h' : Head} {n n' : Int} {t t' : DateTime} (hh : ListHeader line h) (hh' : ListHeader line' h')
    (he : NoEol line') (hb : ∀ l ∈ textLines before, ¬ IsHead l) (ha : ∀ l ∈ textLines after, ¬ IsHead l) (va : visible (textLines after) ≠ [])
    (hn : (h.status, n) ∈ stateNames) (ht : parseTextModeTimeStr h.time = .ok t) (hn' : (h'.status, n') ∈ stateNames) (ht' : parseTextModeTimeStr h'.time = .ok t') :
    (visible (textLines before) ≠ [] →
      TakenFor (shownLines [(line, withHeader before line' after)]) (.ok [textEntryOf h n t before, textEntryOf h' n' t' after])) ∧
    (visible (textLines before) = [] → TakenFor (shownLines [(line, withHeader before line' after)]) (.ok [textEntryOf h' n' t' after])) := by
  have h0 : line' ≠ [] := by rintro rfl; obtain ⟨_, _, e, -⟩ := hh'; simp at e
  have e : shownLines [(line, withHeader before line' after)] = shownLines ([(line, h, before), (line', h', after)].map fun x => (x.1, x.2.2)) :=
    (C103_ambiguous [] [] line before line' after).2 h0 he
  rw [e]
  constructor <;> intro vb <;> refine C103_items (by simp [hh, hh']) (by simpa using ⟨hb, ha⟩) ?_
  · exact .message vb hn ht (.message va hn' ht' .nil)
  · exact .blank vb (.message va hn' ht' .nil)

/-- In this way a stranger deletes a message of their choice, wherever it is: the place is in the text of their own message. -/
theorem C103_deletes {line line' before after : PyStr} {h h' : Head} {n n' : Int} {t t' : DateTime} (hh : ListHeader line h) (hh' : ListHeader line' h')
    (he : NoEol line') (hb : ∀ l ∈ textLines before, ¬ IsHead l) (ha : ∀ l ∈ textLines after, ¬ IsHead l) (va : visible (textLines after) ≠ [])
    (vb : visible (textLines before) ≠ [])
    (hn : (h.status, n) ∈ stateNames) (ht : parseTextModeTimeStr h.time = .ok t) (hn' : (h'.status, n') ∈ stateNames) (ht' : parseTextModeTimeStr h'.time = .ok t')
    {status : Int} {name : PyStr} (hs : (name, status) ∈ stateNames) (h4 : status ≠ 4) {memory : Option PyStr} {s : St} (hm : s.smsTextMode = true) :
    ListSpec env (py!"AT+CMGL=\"" ++ name ++ py!"\"\r") (shownLines [(line, withHeader before line' after)]) [decVal h.index, decVal h'.index]
      [(textEntryOf h n t before).2, (textEntryOf h' n' t' after).2] status memory true s ∧
    ∀ cs, Deletes status [decVal h.index, decVal h'.index] cs → py!"AT+CMGD=" ++ decStr (decVal h'.index) ++ py!",0\r" ∈ cs := by
  refine ⟨C103_list ((C103_forged hh hh' he hb ha va hn ht hn' ht').1 vb) hs hm, fun cs hd => ?_⟩
  rw [Deletes, if_neg h4] at hd
  obtain ⟨order, -, h3, rfl⟩ := hd
  exact List.mem_map_of_mem ((h3 _).2 (by simp))

/-- A stranger can also keep all stored messages, their own and those of others, from being handed over: whatever a listing contains, one line in the text
of one message that looks like a header, with an unknown state or without a proper time, spoils it. -/
theorem C103_spoilt (a b : List (PyStr × PyStr)) (line before : PyStr) {line' after : PyStr} {h' : Head} (hh' : ListHeader line' h')
    (he : NoEol line') (ha : ∀ l ∈ textLines after, ¬ IsHead l) (va : visible (textLines after) ≠ [])
    (hb : (∀ n, (h'.status, n) ∉ stateNames) ∨ ∃ e, parseTextModeTimeStr h'.time = .error e) :
    ∃ e, parseListing true (shownLines (a ++ (line, withHeader before line' after) :: b)) = .error e := by
  have h0 : line' ≠ [] := by rintro rfl; obtain ⟨_, _, e, -⟩ := hh'; simp at e
  rw [(C103_ambiguous a b line before line' after).2 h0 he]
  have e : shownLines (a ++ (line, before) :: (line', after) :: b) =
      (a.flatMap (fun x => x.1 :: textLines x.2) ++ line :: textLines before) ++ line' :: (textLines after ++ shownLines b) := by simp [shownLines]
  unfold parseListing
  rw [if_pos rfl, e]
  exact loop_spoilt hh' hb ha va _ _ _ _ _

/-! ### Witnesses -/

/-- The header of the message of a stranger, at place 1. -/
def strangeHeader : PyStr := py!"+CMGL: 1,\"REC UNREAD\",\"+666\",,\"13/04/29,19:58:00+04\""
def strangeHead : Head := ⟨py!"1", py!"REC UNREAD", py!"+666", py!"13/04/29,19:58:00+04"⟩
/-- The header the stranger makes up, for place 7. -/
def madeUpHeader : PyStr := py!"+CMGL: 7,\"REC READ\",\"+27821\",,\"13/04/29,20:00:00+04\""
def madeUpHead : Head := ⟨py!"7", py!"REC READ", py!"+27821", py!"13/04/29,20:00:00+04"⟩
/-- What the stranger writes. -/
def strangeText : PyStr := withHeader py!"Hi" madeUpHeader py!"Send money"
def spoilingText : PyStr := withHeader py!"Hi" py!"+CMGL: 1,\"x\",\"x\",,\"x\"" py!"Ho"

theorem groups_head {line : PyStr} {h : Head} (hg : rxGroups cmglTextRegex line = some [h.index, h.status, h.number, h.time]) : ListHeader line h := by
  obtain ⟨h', e, hh⟩ := listHeader_iff.1 hg
  obtain ⟨i, s, n, t⟩ := h
  obtain ⟨i', s', n', t'⟩ := h'
  simp only [List.cons.injEq, and_true] at e
  obtain ⟨rfl, rfl, rfl, rfl⟩ := e
  exact hh

theorem groups_noHead {line : PyStr} (hg : rxGroups cmglTextRegex line = none) : ¬ IsHead line := by
  rintro ⟨h, hh⟩
  rw [head_groups hh] at hg
  cases hg

theorem strange_head : ListHeader strangeHeader strangeHead := groups_head (by decide +kernel)
theorem madeUp_head : ListHeader madeUpHeader madeUpHead := groups_head (by decide +kernel)

example : TakenFor (shownLines [(strangeHeader, strangeText)]) (.ok [
    (1, .received 0 (some py!"+666") ⟨2013, 4, 29, 19, 58, 0, 0, some ⟨0, 3600, 0⟩⟩ py!"Hi" none),
    (7, .received 1 (some py!"+27821") ⟨2013, 4, 29, 20, 0, 0, 0, some ⟨0, 3600, 0⟩⟩ py!"Send money" none)]) :=
  (C103_forged strange_head madeUp_head (by unfold NoEol; decide +kernel) (fun l hl => groups_noHead (by
    have : textLines py!"Hi" = [py!"Hi"] := by decide
    rw [this, List.mem_singleton] at hl; subst hl; decide +kernel)) (fun l hl => groups_noHead (by
    have : textLines py!"Send money" = [py!"Send money"] := by decide
    rw [this, List.mem_singleton] at hl; subst hl; decide +kernel)) (by decide) (n := 0) (n' := 1) (by decide) (by decide +kernel) (by decide) (by decide +kernel)).1 (by decide)

/-- A modem in text mode whose only unread message is the one of the stranger; the message at 7 has been read and kept. -/
def strangerWrote (text : PyStr) : Env := modemWith fun log =>
  if log.head? = some py!"AT+CMGL=\"REC UNREAD\"\r" then some (.lines (shownLines [(strangeHeader, text)]))
  else if log.head? = some py!"AT+CMGL=\"REC READ\"\r" then some (.lines (shownLines [(py!"+CMGL: 7,\"REC READ\",\"+2783\",,\"13/04/29,19:58:00+04\"", py!"Kept")]))
  else none

/-- The stranger writes one message that fits into one SMS. Processing the unread messages hands over a second one that nobody has sent, and deletes
the message at 7, which had not even been listed. -/
theorem C103_violated : (encodeGsm7 strangeText).toOption.isSome ∧ strangeText.length ≤ 160 ∧
    (processStoredSms true (strangerWrote strangeText) { smsTextMode := true }).1 = .ok () ∧
    (processStoredSms true (strangerWrote strangeText) { smsTextMode := true }).2.log.reverse =
      [py!"AT+CMGL=\"REC UNREAD\"\r", py!"AT+CMGD=1,0\r", py!"AT+CMGD=7,0\r"] ∧
    handedOver (processStoredSms true (strangerWrote strangeText) { smsTextMode := true }).2 =
      [.received 1 (some py!"+27821") ⟨2013, 4, 29, 20, 0, 0, 0, some ⟨0, 3600, 0⟩⟩ py!"Send money" none,
       .received 0 (some py!"+666") ⟨2013, 4, 29, 19, 58, 0, 0, some ⟨0, 3600, 0⟩⟩ py!"Hi" none] := by decide +kernel

/-- If the text begins with the made up header, even the message of the stranger stays, and will do the same again. -/
theorem C103_violated_again : (processStoredSms true (strangerWrote (withHeader [] madeUpHeader py!"Send money")) { smsTextMode := true }).1 = .ok () ∧
    (processStoredSms true (strangerWrote (withHeader [] madeUpHeader py!"Send money")) { smsTextMode := true }).2.log.reverse =
      [py!"AT+CMGL=\"REC UNREAD\"\r", py!"AT+CMGD=7,0\r"] := by decide +kernel

/-- A message of 31 characters keeps all messages from being handed over. -/
theorem C103_violated_spoilt : (encodeGsm7 spoilingText).toOption.isSome ∧ spoilingText.length = 31 ∧
    (processStoredSms true (strangerWrote spoilingText) { smsTextMode := true }).1 = .error .keyError ∧
    (processStoredSms true (strangerWrote spoilingText) { smsTextMode := true }).2.log.reverse = [py!"AT+CMGL=\"REC UNREAD\"\r"] := by decide +kernel

example (a b : List (PyStr × PyStr)) : ∃ e, parseListing true (shownLines (a ++ (strangeHeader, spoilingText) :: b)) = .error e :=
  C103_spoilt a b strangeHeader py!"Hi" (h' := ⟨py!"1", py!"x", py!"x", py!"x"⟩) (groups_head (by decide +kernel)) (by unfold NoEol; decide +kernel)
    (fun l hl => groups_noHead (by
      have : textLines py!"Ho" = [py!"Ho"] := by decide
      rw [this, List.mem_singleton] at hl; subst hl; decide +kernel)) (by decide) (.inl (by intro n; simp [stateNames]))

/-- A message without text is not there. -/
example : parseListing true (shownLines [(strangeHeader, py!"\r\nOK"), (madeUpHeader, py!"Ho")]) = parseListing true (shownLines [(madeUpHeader, py!"Ho")]) :=
  C103_blank [] _ ⟨_, strange_head⟩ (by decide) (.inr ⟨_, _, rfl, _, madeUp_head⟩)
example : (listStoredSms 4 none true (modemWith fun log => if log.head? = some py!"AT+CMGL=\"ALL\"\r" then some (.lines (shownLines [(strangeHeader, [])])) else none)
    { smsTextMode := true }).1 = .ok [] ∧
  (listStoredSms 4 none true (modemWith fun log => if log.head? = some py!"AT+CMGL=\"ALL\"\r" then some (.lines (shownLines [(strangeHeader, [])])) else none)
    { smsTextMode := true }).2.log.reverse = [py!"AT+CMGL=\"ALL\"\r", py!"AT+CMGD=1,4\r"] := by decide +kernel

end Gsm
