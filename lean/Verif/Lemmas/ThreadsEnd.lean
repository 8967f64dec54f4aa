import Verif.Lemmas.ThreadsFrame
import Verif.Props.ModemReading
/-! # What the methods have done at their end when other threads took steps in between -/
namespace Gsm
open M Spec

variable {env : Env}

theorem Spec.Grows.rfl (s : St) : Grows s s := ⟨List.suffix_rfl, List.suffix_rfl, List.suffix_rfl⟩
theorem Spec.Grows.trans {a b c : St} (h : Grows a b) (h' : Grows b c) : Grows a c :=
  ⟨h.log.trans h'.log, h.callbacks.trans h'.callbacks, h.trace.trans h'.trace⟩

theorem performed_suffix {reply : List PyStr → Reply} {cs a b : List PyStr} (h : Performed reply cs a b) : a <:+ b := by
  induction h with
  | nil l => exact List.suffix_rfl
  | cons h1 _ _ ih => exact (h1.trans (List.suffix_cons _ _)).trans ih

theorem performed_append {reply : List PyStr → Reply} {cs cs' a b c : List PyStr} (h : Performed reply cs a b) (h' : Performed reply cs' b c) :
    Performed reply (cs ++ cs') a c := by
  induction h with
  | nil l => exact h'
  | cons h1 h2 _ ih => exact .cons h1 h2 (ih h')

theorem performed_later {reply : List PyStr → Reply} {c : PyStr} {cs a a' b : List PyStr} (h : Performed reply (c :: cs) a' b) (ha : a <:+ a') : Performed reply (c :: cs) a b := by
  cases h with
  | cons h1 h2 h3 => exact .cons (ha.trans h1) h2 h3

namespace Prog

theorem ends_mono {α : Type} {R : St → St → Prop} {Q Q' : Except PyErr α → St → Prop} {p : Prog α} {s : St} (h : Ends env R Q p s)
    (hq : ∀ r s, Q r s → Q' r s) : Ends env R Q' p s := by
  induction p generalizing s with
  | done r => exact hq r s h
  | io t k ih => exact fun s' hs => ih _ (h s' hs)
  | act g k ih => exact fun s' hs => ih _ _ (h s' hs)

/-- `Q` for results; nothing for errors. -/
def Good {α : Type} (Q : α → St → Prop) : Except PyErr α → St → Prop
  | .ok a, s => Q a s
  | .error _, _ => True

theorem ends_then {α β : Type} {R : St → St → Prop} {Q : α → St → Prop} {Q' : β → St → Prop} {p : Prog α} {f : α → Prog β} {s : St}
    (h : Ends env R (Good Q) p s) (hf : ∀ a s, Q a s → Ends env R (Good Q') (f a) s) : Ends env R (Good Q') (p >>= f) s :=
  ends_bind h hf fun _ _ _ => trivial

theorem ends_look {α : Type} {R : St → St → Prop} {Q : Except PyErr α → St → Prop} {f : St → Prog α} {s : St}
    (hf : ∀ s', R s s' → Ends env R Q (f s') s') : Ends env R Q (look >>= f) s := hf

theorem ends_change {R : St → St → Prop} {Q : Except PyErr Unit → St → Prop} {f : St → St} {s : St}
    (hf : ∀ s', R s s' → Q (.ok ()) (f s')) : Ends env R Q (change f) s := hf

theorem ends_ofExcept {α : Type} {R : St → St → Prop} {r : Except PyErr α} {s : St} : Ends env R (Good fun a s' => r = .ok a ∧ s' = s) (ofExcept r) s := by
  cases r with
  | ok a => exact ⟨rfl, rfl⟩
  | error e => trivial

/-- The command was written and accepted. -/
def Wrote (env : Env) (c : PyStr) (s : St) (ls : List PyStr) (s' : St) : Prop :=
  Grows s s' ∧ ∃ l, s.log <:+ l ∧ Accepted env.reply (c :: l) ∧ env.reply (c :: l) = .lines ls ∧ c :: l <:+ s'.log

theorem ends_writeN {data term : PyStr} : ∀ (depth : Nat) (s : St), Ends env Grows (Good (Wrote env (data ++ term) s)) (writeN depth data true term) s
  | 0, _ => trivial
  | depth + 1, s => by
    intro s1 hs1
    cases hr : env.reply ((data ++ term) :: s1.log) with
    | timeout d => trivial
    | lines ls =>
      dsimp only
      cases hl : ls.getLast? with
      | none => trivial
      | some line =>
        simp only [if_true]
        cases hc : classify line with
        | fine =>
          have hf := classify_fine.1 hc
          refine ⟨⟨hs1.log.trans (List.suffix_cons _ _), hs1.callbacks, hs1.trace⟩, s1.log, hs1.log, ⟨ls, line, hr, hl, hf.1, hf.2⟩, hr, List.suffix_rfl⟩
        | failed e => trivial
        | busy code =>
          dsimp only
          refine ends_then (Q := fun _ s2 => Grows s s2) (ends_change fun s2 hs2 => ?_) fun _ s2 hs2 => ?_
          · exact ⟨(hs1.log.trans (List.suffix_cons _ _)).trans hs2.log, hs1.callbacks.trans hs2.callbacks, hs1.trace.trans hs2.trace⟩
          · refine ends_then (ends_writeN depth s2) fun r s3 h3 => ?_
            refine ends_then (Q := fun _ s4 => Grows s3 s4) (ends_change fun s4 hs4 => ⟨hs4.log, hs4.callbacks, hs4.trace⟩) fun _ s4 hs4 => ?_
            obtain ⟨hg, l, h5, h6, h7, h8⟩ := h3
            exact ⟨(hs2.trans hg).trans hs4, l, hs2.log.trans h5, h6, h7, h8.trans hs4.log⟩

theorem ends_write {data term : PyStr} {s : St} : Ends env Grows (Good (Wrote env (data ++ term) s)) (write data true term) s := by
  intro s1 hs1
  refine ends_mono (ends_writeN env.depth s1) fun r s2 h => ?_
  cases r with
  | error e => trivial
  | ok ls =>
    obtain ⟨hg, l, h5, h6, h7, h8⟩ := h
    exact ⟨hs1.trans hg, l, hs1.log.trans h5, h6, h7, h8⟩

theorem ends_memory (m : Option PyStr) (s : St) : Ends env Grows (Good fun _ s' => Grows s s') (setSmsMemory m) s := by
  cases m with
  | none => exact Grows.rfl s
  | some mem =>
    refine ends_look fun s1 h1 => ?_
    split
    · refine ends_then ends_write fun _ s2 h2 => ends_change fun s3 h3 => ?_
      have := (h1.trans h2.1).trans h3
      exact ⟨this.log, this.callbacks, this.trace⟩
    · exact h1

/-- The message was read. -/
def ReadAt (env : Env) (s : St) (idx : PyStr) (m : Msg) (s' : St) : Prop :=
  Grows s s' ∧ ∃ l ls text, Performed env.reply [py!"AT+CMGR=" ++ idx ++ [13]] s.log l ∧ l <:+ s'.log ∧ env.reply l = .lines ls ∧ Answers text ls (.ok m)

theorem ends_read (i : PyStr) (mem : Option PyStr) (s : St) : Ends env Grows (Good (ReadAt env s i)) (readStoredSms i mem) s := by
  refine ends_then (ends_memory mem s) fun _ s1 h1 => ends_then ends_write fun ls s2 h2 => ends_look fun s3 h3 => ?_
  refine ends_mono ends_ofExcept fun r s4 h4 => ?_
  cases r with
  | error e => trivial
  | ok m =>
    obtain ⟨h4, rfl⟩ := h4
    obtain ⟨hg, l, h5, h6, h7, h8⟩ := h2
    refine ⟨(h1.trans hg).trans h3, _, ls, s4.smsTextMode, .cons (h1.log.trans h5) h6 (.nil _), h8.trans h3.log, h7, ?_⟩
    unfold Answers
    split at h4 <;> rename_i ht
    · rw [if_pos ht]; exact (C68_text _ _).1 h4
    · rw [if_neg ht]; exact (C68_pdu _ _).1 h4

theorem ends_delete (i : PyStr) (mem : Option PyStr) (s : St) :
    Ends env Grows (Good fun _ s' => Grows s s' ∧ ∃ l, Performed env.reply [py!"AT+CMGD=" ++ i ++ py!",0\r"] s.log l ∧ l <:+ s'.log) (deleteStoredSms i mem) s := by
  refine ends_then (ends_memory mem s) fun _ s1 h1 => ends_then ends_write fun ls s2 h2 => ?_
  obtain ⟨hg, l, h5, h6, h7, h8⟩ := h2
  have hc : cmgdCmd i ++ [13] = py!"AT+CMGD=" ++ i ++ py!",0\r" := by simp [cmgdCmd]
  rw [hc] at h6 h8
  exact ⟨h1.trans hg, _, .cons (h1.log.trans h5) h6 (.nil _), h8⟩

/-- The message was read and deleted. -/
theorem ends_take (i : PyStr) (mem : Option PyStr) (s : St) :
    Ends env Grows (Good fun m s' => Grows s s' ∧ Taken env s i m s') (do let m ← readStoredSms i mem; deleteStoredSms i; pure m) s := by
  refine ends_then (ends_read i mem s) fun m s1 h1 => ends_then (ends_delete i none s1) fun _ s2 h2 => ?_
  obtain ⟨hg1, l1, ls, text, a1, a2, a3, a4⟩ := h1
  obtain ⟨hg2, l2, b1, b2⟩ := h2
  exact ⟨hg1.trans hg2, l1, l2, ls, text, a1, a3, a4, performed_later b1 a2, b2⟩

theorem ends_received {l mem idx : PyStr} (hl : StoredAt py!"+CMTI:" l mem idx) (s : St) :
    Ends env Grows (Good fun _ s' => Grows s s' ∧ ∃ m cb, Taken env s idx m s' ∧ s.callbacks <:+ cb ∧ .smsReceived m :: cb <:+ s'.callbacks) (handleSmsReceived l) s := by
  unfold handleSmsReceived
  have hg : rxGroups cmtiRegex l = some [mem, idx] := by rw [cmti_rx]; exact stored_iff.2 ⟨mem, idx, rfl, hl⟩
  rw [hg]
  dsimp only
  refine ends_then (ends_read idx (some mem) s) fun m s1 h1 => ends_then (ends_delete idx none s1) fun _ s2 h2 => ends_change fun s3 h3 => ?_
  obtain ⟨hg1, l1, ls, text, a1, a2, a3, a4⟩ := h1
  obtain ⟨hg2, l2, b1, b2⟩ := h2
  have hg := (hg1.trans hg2).trans h3
  exact ⟨⟨hg.log, hg.callbacks.trans (List.suffix_cons _ _), hg.trace⟩, m, s3.callbacks, ⟨l1, l2, ls, text, a1, a3, a4, performed_later b1 a2, b2.trans h3.log⟩,
    hg.callbacks, List.suffix_rfl⟩

theorem ends_report {l mem idx : PyStr} (hl : StoredAt py!"+CDSI:" l mem idx) (s : St) :
    Ends env Grows (Good fun _ s' => Grows s s' ∧ ∃ st r n t1 t2 d tr, Taken env s idx (.report st r n t1 t2 d) s' ∧ s.smsTrace <:+ tr ∧ .report r d :: tr <:+ s'.smsTrace)
      (handleSmsStatusReport l) s := by
  unfold handleSmsStatusReport
  have hg : rxGroups cdsiRegex l = some [mem, idx] := by rw [cdsi_rx]; exact stored_iff.2 ⟨mem, idx, rfl, hl⟩
  rw [hg]
  dsimp only
  refine ends_then (ends_read idx (some mem) s) fun m s1 h1 => ends_then (ends_delete idx none s1) fun _ s2 h2 => ?_
  obtain ⟨hg1, l1, ls, text, a1, a2, a3, a4⟩ := h1
  obtain ⟨hg2, l2, b1, b2⟩ := h2
  cases m with
  | received => trivial
  | report st r n t1 t2 d =>
    refine ends_then (Q := fun _ s3 => Grows s2 s3 ∧ ∃ tr, s2.smsTrace <:+ tr ∧ .report r d :: tr <:+ s3.smsTrace) (ends_change fun s3 h3 => ?_) fun _ s3 h3 => ?_
    · exact ⟨⟨h3.log, h3.callbacks, h3.trace.trans (List.suffix_cons _ _)⟩, s3.smsTrace, h3.trace, List.suffix_rfl⟩
    · obtain ⟨h3, tr, h4, h5⟩ := h3
      intro s4 h6
      have hT : ∀ s5, Grows s4 s5 → Grows s s5 ∧ ∃ st' r' n' t1' t2' d' tr, Taken env s idx (.report st' r' n' t1' t2' d') s5 ∧ s.smsTrace <:+ tr ∧
          .report r' d' :: tr <:+ s5.smsTrace := fun s5 h7 =>
        ⟨(hg1.trans hg2).trans ((h3.trans h6).trans h7), st, r, n, t1, t2, d, tr,
          ⟨l1, l2, ls, text, a1, a3, a4, performed_later b1 a2, b2.trans ((h3.trans h6).trans h7).log⟩, (hg1.trans hg2).trace.trans h4, h5.trans (h6.trans h7).trace⟩
      dsimp only
      split
      · exact hT _ ⟨List.suffix_rfl, List.suffix_rfl, List.suffix_rfl⟩
      · exact ends_change fun s5 h7 => hT _ ⟨h7.log, h7.callbacks.trans (List.suffix_cons _ _), h7.trace⟩

/-- The commands were written, and `r` is the answer to the last. -/
def SentBy (env : Env) (cs : List PyStr) (s : St) (r : Option PyStr) (s' : St) : Prop :=
  Grows s s' ∧ ∃ l, Performed env.reply cs s.log l ∧ l <:+ s'.log ∧ (cs ≠ [] → ∃ ls, env.reply l = .lines ls ∧ lineStartingWith py!"+CMGS:" ls = r)

theorem ends_two {c1 c2 t1 t2 : PyStr} {s : St} :
    Ends env Grows (Good fun r s' => SentBy env [c1 ++ t1, c2 ++ t2] s r s') (do let _ ← write c1 true t1; let ls ← write c2 true t2; pure (lineStartingWith py!"+CMGS:" ls)) s := by
  refine ends_then ends_write fun _ s1 h1 => ends_then ends_write fun ls s2 h2 => ?_
  obtain ⟨hg1, l1, a1, a2, a3, a4⟩ := h1
  obtain ⟨hg2, l2, b1, b2, b3, b4⟩ := h2
  exact ⟨hg1.trans hg2, _, .cons a1 a2 (.cons (a4.trans b1) b2 (.nil _)), b4, fun _ => ⟨ls, b3, rfl⟩⟩

theorem ends_sendPdus : ∀ (ps : List Pdu) (r : Option PyStr) (s : St),
    Ends env Grows (Good fun r' s' => SentBy env (ps.flatMap pduCommands) s r' s' ∧ (ps = [] → r' = r)) (sendPdus ps r) s
  | [], _, s => ⟨⟨Grows.rfl s, _, .nil _, List.suffix_rfl, fun h => absurd rfl h⟩, fun _ => rfl⟩
  | p :: ps, _, s => by
    unfold sendPdus
    refine ends_then ends_write fun _ s1 h1 => ends_then ends_write fun ls s2 h2 => ?_
    obtain ⟨hg1, l1, a1, a2, a3, a4⟩ := h1
    obtain ⟨hg2, l2, b1, b2, b3, b4⟩ := h2
    refine ends_mono (ends_sendPdus ps _ s2) fun r' s3 h3 => ?_
    cases r' with
    | error e => trivial
    | ok r' =>
      obtain ⟨⟨hg3, l3, c1, c2, c3⟩, c4⟩ := h3
      have two : ∀ {cs l}, Performed env.reply cs ((pduHex p.data ++ [26]) :: l2) l → Performed env.reply (pduCommands p ++ cs) s.log l := fun h =>
        .cons a1 a2 (.cons (a4.trans b1) b2 h)
      refine ⟨⟨(hg1.trans hg2).trans hg3, ?_⟩, fun h => nomatch h⟩
      cases ps with
      | nil => exact ⟨_, two (.nil _), b4.trans hg3.log, fun _ => ⟨ls, b3, (c4 rfl).symm⟩⟩
      | cons q ps =>
        refine ⟨l3, two ?_, c2, fun _ => c3 (by simp [pduCommands])⟩
        exact performed_later c1 b4

/-- The message was sent. -/
theorem ends_send [PyUnicode] (d t : PyStr) (f : Bool) (s : St) : Ends env Grows (Good fun _ s' => Grows s s' ∧ ∃ cs l ls line r tr, SendingCommands d t f cs ∧
    Performed env.reply cs s.log l ∧ l <:+ s'.log ∧ env.reply l = .lines ls ∧ lineStartingWith py!"+CMGS:" ls = some line ∧ pyInt (line.drop 7) = .ok r ∧
    s.smsTrace <:+ tr ∧ .sent r :: tr <:+ s'.smsTrace) (sendSms d t f) s := by
  have h1 : Ends env Grows (Good fun r s' => ∃ cs, SendingCommands d t f cs ∧ SentBy env cs s r s' ∧ (cs = [] → r = none)) (sendAll d t f) s := by
    refine ends_look fun s1 h1 => ?_
    split
    · refine ends_mono ends_two fun r s2 h2 => ?_
      cases r with
      | error e => trivial
      | ok r =>
        obtain ⟨hg, l, a1, a2, a3⟩ := h2
        refine ⟨_, .text, ⟨h1.trans hg, l, performed_later ?_ h1.log, a2, fun _ => a3 (by simp)⟩, fun h => nomatch h⟩
        simpa using a1
    · refine ends_look fun s2 h2 => ends_then ends_ofExcept fun ps s3 h3 => ?_
      obtain ⟨h3, rfl⟩ := h3
      refine ends_mono (ends_sendPdus ps none _) fun r s4 h4 => ?_
      cases r with
      | error e => trivial
      | ok r =>
        obtain ⟨⟨hg, l, a1, a2, a3⟩, a4⟩ := h4
        refine ⟨_, .pdus _ h3, ⟨(h1.trans h2).trans hg, ?_⟩, fun h => a4 ?_⟩
        · cases ps with
          | nil => exact ⟨s.log, .nil _, (h1.trans h2).log.trans hg.log, fun h => absurd rfl h⟩
          | cons p ps => exact ⟨l, performed_later a1 (h1.trans h2).log, a2, a3⟩
        · cases ps with
          | nil => rfl
          | cons p ps => simp at h
  refine ends_then h1 fun r s1 h2 => ?_
  obtain ⟨cs, a1, ⟨hg, l, a2, a3, a4⟩, a5⟩ := h2
  cases r with
  | none => trivial
  | some line =>
    have hne : cs ≠ [] := fun h => nomatch a5 h
    obtain ⟨ls, a6, a7⟩ := a4 hne
    refine ends_then ends_ofExcept fun r s2 h3 => ?_
    obtain ⟨h3, rfl⟩ := h3
    refine ends_then (Q := fun _ s3 => Grows s2 s3) (ends_change fun s3 h4 => ⟨h4.log, h4.callbacks, h4.trace⟩) fun _ s3 h4 => ends_look fun s4 h5 => ?_
    have fin : ∀ s5, Grows s2 s5 → Ends env Grows (Good fun _ s' => Grows s s' ∧ ∃ cs l ls line r tr, SendingCommands d t f cs ∧
        Performed env.reply cs s.log l ∧ l <:+ s'.log ∧ env.reply l = .lines ls ∧ lineStartingWith py!"+CMGS:" ls = some line ∧ pyInt (line.drop 7) = .ok r ∧
        s.smsTrace <:+ tr ∧ .sent r :: tr <:+ s'.smsTrace)
        (act (fun _ s => { s with sent := s.sent ++ [⟨d, t, r, none⟩], sentSms := dictSet s.sentSms r s.sent.length, smsTrace := .sent r :: s.smsTrace })
          fun _ s => (pure s.sent.length : Prog Nat)) s5 := by
      intro s5 h6 s6 h7
      have := (hg.trans h6).trans h7
      exact ⟨⟨this.log, this.callbacks, this.trace.trans (List.suffix_cons _ _)⟩, cs, l, ls, line, r, s6.smsTrace, a1, a2, a3.trans (h6.trans h7).log, a6, a7, h3, this.trace,
        List.suffix_rfl⟩
    split
    · exact ends_then (Q := fun _ s5 => Grows s2 s5) (ends_change fun s5 h6 => have := (h4.trans h5).trans h6; ⟨this.log, this.callbacks, this.trace⟩) fun _ s5 h6 => fin s5 h6
    · exact fin s4 (h4.trans h5)

end Prog
end Gsm
