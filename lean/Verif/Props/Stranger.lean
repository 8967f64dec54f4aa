import Verif.Lemmas.Stranger
import Verif.Props.Stack
/-! # Property C99: what strangers write in a message is text and nothing else -/
namespace Gsm
open Spec

variable {es : List SEvent} {cs : List (Nat × Bool)} {items : List (PyStr × PyStr)}

/-- After any history that leaves nothing pending and nothing half read, a command is written and the modem shows stored messages, in any timing.
What `write` returns are the lines up to the first that is a final result code, in whatever message it stands; all others are taken for notifications. -/
theorem C99_cut (hidle : (srun es).pending = none) (halive : (srun es).alive = true) (hbuf : (srun es).rxBuffer = []) (hcs : cs.map Prod.fst = shownChars items)
    (hh : ∀ x ∈ items, HeaderLine x.1) {pre post : List PyStr} {t : PyStr} (h : shownLines items = pre ++ t :: post) (hpre : ∀ l ∈ pre, ¬ IsFinal l) (ht : IsFinal t) :
    (srun (es ++ .start none :: rxs cs ++ [.finish])).outcomes = (srun es).outcomes ++ [.returned (pre ++ [t])] ∧
      notificationLines (srun (es ++ .start none :: rxs cs ++ [.finish])) = notificationLines (srun es) ++ post := by
  refine C28_response_exact es cs pre t post hidle ?_ hpre ht
  have e1 : srun (es ++ .start none :: rxs cs) = srun (rxs cs) { srun es with pending := some ⟨[], false⟩, expect := none } := by
    rw [srun_append]
    show srun (rxs cs) (sstep (srun es) (.start none)) = _
    simp [sstep, hidle, expectOf, idle_expect es hidle]
  rw [e1, ← h]
  exact handed_framed (s := { srun es with pending := some ⟨[], false⟩, expect := none }) (ls := shownLines items) (r := []) halive rfl hbuf (by rw [hcs]; exact framed_shown items hh)

/-- The answer is taken as a whole, and nothing of it for a notification, exactly if no line of any of the messages begins like a final result code. -/
theorem C99_whole (hidle : (srun es).pending = none) (halive : (srun es).alive = true) (hbuf : (srun es).rxBuffer = []) (hcs : cs.map Prod.fst = shownChars items)
    (hh : ∀ x ∈ items, HeaderLine x.1) :
    ((srun (es ++ .start none :: rxs cs ++ [.finish])).outcomes = (srun es).outcomes ++ [.returned (shownLines items)] ∧
      notificationLines (srun (es ++ .start none :: rxs cs ++ [.finish])) = notificationLines (srun es)) ↔ ∀ x ∈ items, ∀ l ∈ textLines x.2, ¬ IsFinal l := by
  constructor
  · rintro ⟨h, -⟩
    refine Classical.byContradiction fun hn => ?_
    have hex : ∃ l ∈ items.flatMap (fun x => x.1 :: textLines x.2), IsFinal l := by
      refine Classical.byContradiction fun hc => hn fun x hx l hl hf => hc ⟨l, List.mem_flatMap.2 ⟨x, hx, List.mem_cons_of_mem _ hl⟩, hf⟩
    obtain ⟨pre, t, post, h1, h2, h3⟩ := first_final hex
    obtain ⟨h4, -⟩ := C99_cut (post := post ++ [py!"OK"]) hidle halive hbuf hcs hh (by unfold shownLines; rw [h1]; simp) h2 h3
    rw [h] at h4
    have h5 := List.append_cancel_left h4
    simp only [List.cons.injEq, Outcome.returned.injEq, and_true] at h5
    have h6 := congrArg List.length h5
    unfold shownLines at h6
    rw [h1] at h6
    simp only [List.length_append, List.length_cons, List.length_nil] at h6
    omega
  · intro h
    have := C99_cut (pre := items.flatMap (fun x => x.1 :: textLines x.2)) (t := py!"OK") (post := []) hidle halive hbuf hcs hh rfl (fun l hl => by
      obtain ⟨x, hx, hl⟩ := List.mem_flatMap.1 hl
      rcases List.mem_cons.1 hl with rfl | hl
      · exact header_not_final (hh x hx)
      · exact h x hx l hl) (.inl (by simp))
    simpa [shownLines] using this

/-- In PDU mode this is always so, whatever the messages are: their senders choose nothing but octets. -/
theorem C99_pdu (hidle : (srun es).pending = none) (halive : (srun es).alive = true) (hbuf : (srun es).rxBuffer = []) {ms : List (PyStr × List Nat)}
    (hcs : cs.map Prod.fst = shownChars (ms.map fun x => (x.1, pduHex x.2))) (hh : ∀ x ∈ ms, HeaderLine x.1) (hd : ∀ x ∈ ms, x.2 ≠ [] ∧ ∀ b ∈ x.2, b < 256) :
    (srun (es ++ .start none :: rxs cs ++ [.finish])).outcomes = (srun es).outcomes ++ [.returned (ms.flatMap (fun x => [x.1, pduHex x.2]) ++ [py!"OK"])] ∧
      notificationLines (srun (es ++ .start none :: rxs cs ++ [.finish])) = notificationLines (srun es) := by
  have hl : ∀ x ∈ ms, textLines (pduHex x.2) = [pduHex x.2] := fun x hx => by
    rw [hex_lines (hex_pduHex _ (hd x hx).2), if_neg]
    obtain ⟨y, xs⟩ := x
    cases xs with
    | nil => exact absurd rfl (hd _ hx).1
    | cons b bs => simp [pduHex]
  have e : shownLines (ms.map fun x => (x.1, pduHex x.2)) = ms.flatMap (fun x => [x.1, pduHex x.2]) ++ [py!"OK"] := by
    unfold shownLines
    rw [List.flatMap_map]
    congr 1
    clear hcs hh hd
    induction ms with
    | nil => rfl
    | cons x ms ih =>
      rw [List.flatMap_cons, List.flatMap_cons, ih fun y hy => hl y (List.mem_cons_of_mem _ hy)]
      simp only
      rw [hl x List.mem_cons_self]
  rw [← e]
  refine (C99_whole hidle halive hbuf hcs (fun x hx => ?_)).2 fun x hx l hl' => ?_
  · obtain ⟨y, hy, rfl⟩ := List.mem_map.1 hx; exact hh y hy
  · obtain ⟨y, hy, rfl⟩ := List.mem_map.1 hx
    rw [hl y hy] at hl'
    cases List.mem_singleton.1 hl'
    exact hex_not_final (hex_pduHex _ (hd y hy).2)

/-- In text mode the text that `readStoredSms` makes of a whole answer are its lines, joined by line feeds; -/
theorem C99_text {h st number time text : PyStr} {n : Int} {d : DateTime} (hg : rxGroups cmgrTextRegex h = some [st, number, time]) (hs : textStatus st = .ok n)
    (ht : parseTextModeTimeStr time = .ok d) : parseCmgrText (shownLines [(h, text)]) = .ok (.received n (some number) d (pyJoin [10] (textLines text)) none) := by
  have e : shownLines [(h, text)] = h :: (textLines text ++ [py!"OK"]) := by simp [shownLines]
  rw [e]
  simp only [parseCmgrText, hg, hs, ht, List.dropLast_concat]
  rfl

/-- and that is the text that was sent exactly if there is no CR LF in it. -/
theorem C99_text_exact (text : PyStr) : pyJoin [10] (textLines text) = text ↔ NoEol text := join_lines text

/-- C99 is violated in text mode. Whoever writes a message decides what the program takes for words of the modem: for any lines there is a text such that these
lines come to the program as notifications when the message is read. -/
theorem C99_forged (hidle : (srun es).pending = none) (halive : (srun es).alive = true) (hbuf : (srun es).rxBuffer = []) {h harmless : PyStr} {ws : List PyStr}
    (hh : HeaderLine h) (ha : harmless ≠ [] ∧ NoEol harmless ∧ ¬ IsFinal harmless) (hw : ∀ w ∈ ws, w ≠ [] ∧ NoEol w) (hcs : cs.map Prod.fst = shownChars [(h, forgedText harmless ws)]) :
    (srun (es ++ .start none :: rxs cs ++ [.finish])).outcomes = (srun es).outcomes ++ [.returned [h, harmless, py!"OK"]] ∧
      notificationLines (srun (es ++ .start none :: rxs cs ++ [.finish])) = notificationLines (srun es) ++ ws ++ [py!"OK"] := by
  have := C99_cut (pre := [h, harmless]) (t := py!"OK") (post := ws ++ [py!"OK"]) hidle halive hbuf hcs (fun x hx => by cases List.mem_singleton.1 hx; exact hh)
    (by simp [shownLines, forged_lines ⟨ha.1, ha.2.1⟩ hw]) (fun l hl => by
      simp only [List.mem_cons, List.not_mem_nil, or_false] at hl
      rcases hl with rfl | rfl
      · exact header_not_final hh
      · exact ha.2.2) (.inl (by simp))
  simpa using this

/-! ### From characters to commands -/

def strangerHeader : PyStr := py!"+CMGR: \"REC UNREAD\",\"+27820001111\",,\"13/02/07,10:00:00+08\""
def friendHeader : PyStr := py!"+CMGR: \"REC READ\",\"+27829998888\",,\"13/01/01,10:00:00+08\""
/-- Nobody but the stranger has said that there is a new message in place 7. -/
def strangerText : PyStr := forgedText py!"hi" [py!"+CMTI: \"SM\",7"]

attribute [local instance] asciiUnicode

/-- C99 is violated: a text mode program waits for messages. One arrives in place 1, and the program fetches it, as it should. The text makes the program fetch the message
in place 7 as well, an old one from a friend, and delete it. Nothing was asked for by the user, and the modem has not said anything about place 7. -/
theorem C99_violated :
    (Stack.runs goodModem.toLimits (told py!"\r\n+CMTI: \"SM\",1\r\n" ++ goesOn 0 4 ++ told (shownChars [(strangerHeader, strangerText)]) ++ goesOn 0 4 ++ told py!"\r\nOK\r\n" ++ goesOn 0 9 ++
        goesOn 1 4 ++ told (shownChars [(friendHeader, py!"our holidays")]) ++ goesOn 1 4 ++ told py!"\r\nOK\r\n" ++ goesOn 1 9)
      (Stack.start [] { st := { smsTextMode := true, smsMemReadDelete := some py!"SM" } })).shared.st.log =
      [py!"AT+CMGD=7,0\r", py!"AT+CMGR=7\r", py!"AT+CMGD=1,0\r", py!"AT+CMGR=1\r"] := by decide +kernel

/-! ### Examples -/

example : HeaderLine strangerHeader := ⟨by unfold NoEol; decide +kernel, .inl (by decide +kernel)⟩
example : textLines py!"a\r\n\r\nb\r" = [py!"a", py!"b\r"] ∧ pyJoin [10] (textLines py!"a\r\n\r\nb\r") = py!"a\nb\r" := by decide
/-- The whole answer is taken for the answer. -/
example : (srun ([.start none] ++ rxs (burst (shownChars [(strangerHeader, py!"hi\r\nsee you at\r\n9")])) ++ [.finish])).outcomes =
      [.returned [strangerHeader, py!"hi", py!"see you at", py!"9", py!"OK"]] ∧
    (srun ([.start none] ++ rxs (burst (shownChars [(strangerHeader, strangerText)])) ++ [.finish])).notified = [[py!"+CMTI: \"SM\",7", py!"OK"]] := by decide +kernel
/-- The same message in PDU mode. -/
example : (srun ([.start none] ++ rxs (burst (shownChars [(py!"+CMGR: 0,,21", pduHex [7, 145, 0x4F, 0x4B, 13, 10])])) ++ [.finish])).outcomes =
    [.returned [py!"+CMGR: 0,,21", py!"07914F4B0D0A", py!"OK"]] := by decide +kernel
example : (match parseCmgrText (shownLines [(strangerHeader, py!"hi")]) with | .ok (.received 0 (some n) _ t none) => n == py!"+27820001111" && t == py!"hi" | _ => false) = true := by decide +kernel

end Gsm
