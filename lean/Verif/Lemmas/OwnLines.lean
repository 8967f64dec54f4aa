import Verif.Spec.OwnLines
import Verif.Lemmas.AskedThreads
import Verif.Lemmas.ThreadTrace
/-! # Lemmas: the lines of each thread, in their order -/
namespace Gsm
open Spec

theorem sentSince_self (l : List PyStr) : sentSince l l = [] := by simp [sentSince]
theorem sentSince_cons (c : PyStr) (l : List PyStr) : sentSince l (c :: l) = [c] := by
  have : l.length + 1 - l.length = 1 := by omega
  simp [sentSince, this]
theorem sentSince_append (new l : List PyStr) : sentSince l (new ++ l) = new.reverse := by
  have : new.length + l.length - l.length = new.length := by omega
  simp [sentSince, this]

/-! ### Commands in their order -/

section
variable {B : Prop} {c1 c2 l1 l2 : List PyStr}

theorem recitesAll_recites (h : RecitesAll B c1 l1) : Recites B c1 l1 := by
  induction h with
  | nil => exact .stop _
  | next c n hn _ ih => exact .next c n hn ih

theorem recites_more (h : Recites B c1 l1) (c2 : List PyStr) : Recites B (c1 ++ c2) l1 := by
  induction h with
  | stop => exact .stop _
  | next c n hn _ ih => exact .next c n hn ih

theorem recitesAll_then (h : RecitesAll B c1 l1) (h2 : Recites B c2 l2) : Recites B (c1 ++ c2) (l1 ++ l2) := by
  induction h with
  | nil => exact h2
  | next c n hn _ ih => rw [List.append_assoc]; exact .next c n hn ih

theorem recitesAll_thenAll (h : RecitesAll B c1 l1) (h2 : RecitesAll B c2 l2) : RecitesAll B (c1 ++ c2) (l1 ++ l2) := by
  induction h with
  | nil => exact h2
  | next c n hn _ ih => rw [List.append_assoc]; exact .next c n hn ih

/-- Without repetitions it is a beginning of the commands. -/
theorem recites_prefix (hB : ¬ B) (h : Recites B c1 l1) : l1 <+: c1 := by
  induction h with
  | stop => exact List.nil_prefix
  | next c n hn _ ih =>
    rcases hn with rfl | hb
    · exact List.cons_prefix_cons.2 ⟨rfl, ih⟩
    · exact absurd hb hB

/-- The same for all of them. -/
theorem recitesAll_eq (hB : ¬ B) (h : RecitesAll B c1 l1) : l1 = c1 := by
  induction h with
  | nil => rfl
  | next c n hn _ ih =>
    rcases hn with rfl | hb
    · rw [ih]; rfl
    · exact absurd hb hB

theorem replicate_split {c x : PyStr} : ∀ {n : Nat} {ls a b : List PyStr}, List.replicate n c ++ ls = a ++ x :: b →
    (x = c ∧ a.length < n) ∨ ∃ a', a = List.replicate n c ++ a' ∧ ls = a' ++ x :: b
  | 0, ls, a, b, h => .inr ⟨a, rfl, h⟩
  | n + 1, ls, [], b, h => by
    rw [List.replicate_succ] at h
    exact .inl ⟨by injection h with h _; exact h.symm, Nat.succ_pos _⟩
  | n + 1, ls, y :: a, b, h => by
    rw [List.replicate_succ] at h
    injection h with h1 h2
    rcases replicate_split h2 with ⟨rfl, hl⟩ | ⟨a', rfl, rfl⟩
    · exact .inl ⟨rfl, Nat.succ_lt_succ hl⟩
    · exact .inr ⟨a', by rw [← h1, List.replicate_succ]; rfl, rfl⟩

/-- Each line is one of the commands, and those before it were said before. -/
theorem recites_before (h : Recites B c1 l1) : ∀ {a b : List PyStr} {x : PyStr}, l1 = a ++ x :: b → ∃ k, c1[k]? = some x ∧ ∀ c ∈ c1.take k, c ∈ a := by
  induction h with
  | stop => intro a b x h; simp at h
  | next c n hn _ ih =>
    intro a b x h
    rcases replicate_split h with ⟨rfl, -⟩ | ⟨a', rfl, h'⟩
    · exact ⟨0, rfl, by simp⟩
    · obtain ⟨k, h1, h2⟩ := ih h'
      refine ⟨k + 1, h1, fun d hd => ?_⟩
      rw [List.take_succ_cons] at hd
      rcases List.mem_cons.1 hd with rfl | hd
      · simp [List.replicate_succ]
      · exact List.mem_append_right _ (h2 d hd)

end

/-- The announcement comes before the message. -/
theorem announced_before : ∀ (ps : List Pdu) {k : Nat} {x : PyStr}, (ps.flatMap fun p => [py!"AT+CMGS=" ++ decStr p.tpduLength ++ [13], pduHex p.data ++ [26]])[k]? = some x → x.getLast? = some 26 →
    ∃ c ∈ (ps.flatMap fun p => [py!"AT+CMGS=" ++ decStr p.tpduLength ++ [13], pduHex p.data ++ [26]]).take k, py!"AT+CMGS=" <+: c
  | [], _, _, h, _ => by simp at h
  | p :: ps, 0, x, h, hx => by
    simp only [List.flatMap_cons, List.cons_append, List.getElem?_cons_zero, Option.some.injEq] at h
    subst h
    have h13 : (py!"AT+CMGS=" ++ decStr p.tpduLength ++ [13]).getLast? = some 13 := List.getLast?_concat
    exact absurd (h13.symm.trans hx) (by decide)
  | p :: ps, 1, x, h, hx => ⟨_, by simp only [List.flatMap_cons, List.cons_append, List.take_succ_cons]; exact List.mem_cons_self, by rw [List.append_assoc]; exact List.prefix_append _ _⟩
  | p :: ps, k + 2, x, h, hx => by
    obtain ⟨c, h1, h2⟩ := announced_before ps (k := k) (x := x) h hx
    exact ⟨c, by simp only [List.flatMap_cons, List.cons_append, List.nil_append, List.take_succ_cons]; exact List.mem_cons_of_mem _ (List.mem_cons_of_mem _ h1), h2⟩

/-! ### What a program can say -/

namespace Prog

/-- The lines that a thread may have sent so far, if the answers are like this, and its result, if it is at its end. -/
def Said {α : Type} (R : Reply → Prop) : Prog α → List PyStr → Option (Except PyErr α) → Prop
  | done r, ls, o => ls = [] ∧ (o = none ∨ o = some r)
  | io t k, ls, o => (ls = [] ∧ o = none) ∨ ∃ r ls', R r ∧ ls = t :: ls' ∧ Said R (k r) ls' o
  | act f k, ls, o => (ls = [] ∧ o = none) ∨ ∃ env s ls', ls = sentSince s.log (f env s).log ++ ls' ∧ Said R (k env s) ls' o

variable {R : Reply → Prop} {B : Prop}

theorem said_bind {α β : Type} {p : Prog α} {f : α → Prog β} {ls : List PyStr} {o : Option (Except PyErr β)} (h : Said R (p >>= f) ls o) :
    ((∀ b, o ≠ some (.ok b)) ∧ ∃ o', Said R p ls o') ∨ ∃ a l1 l2, Said R p l1 (some (.ok a)) ∧ Said R (f a) l2 o ∧ ls = l1 ++ l2 := by
  replace h : Said R (p.bind f) ls o := h
  induction p generalizing ls with
  | done r => cases r with
    | ok a => exact .inr ⟨a, [], ls, ⟨rfl, .inr rfl⟩, h, rfl⟩
    | error e =>
      obtain ⟨rfl, h⟩ := h
      exact .inl ⟨by rcases h with rfl | rfl <;> simp, some (.error e), rfl, .inr rfl⟩
  | io t k ih =>
    rcases h with ⟨rfl, rfl⟩ | ⟨r, ls', hr, rfl, h⟩
    · exact .inl ⟨by simp, none, .inl ⟨rfl, rfl⟩⟩
    · rcases ih r h with ⟨h1, o', h2⟩ | ⟨a, l1, l2, h1, h2, rfl⟩
      · exact .inl ⟨h1, o', .inr ⟨r, ls', hr, rfl, h2⟩⟩
      · exact .inr ⟨a, t :: l1, l2, .inr ⟨r, l1, hr, rfl, h1⟩, h2, rfl⟩
  | act g k ih =>
    rcases h with ⟨rfl, rfl⟩ | ⟨env, s, ls', rfl, h⟩
    · exact .inl ⟨by simp, none, .inl ⟨rfl, rfl⟩⟩
    · rcases ih env s h with ⟨h1, o', h2⟩ | ⟨a, l1, l2, h1, h2, rfl⟩
      · exact .inl ⟨h1, o', .inr ⟨env, s, ls', rfl, h2⟩⟩
      · exact .inr ⟨a, sentSince s.log (g env s).log ++ l1, l2, .inr ⟨env, s, l1, rfl, h1⟩, h2, by rw [List.append_assoc]⟩

/-- The thread says the commands of one of these lists, in their order, and all of them if it succeeds. -/
def Performs {α : Type} (R : Reply → Prop) (B : Prop) (C : List PyStr → Prop) (p : Prog α) : Prop :=
  ∀ ls o, Said R p ls o → ∃ cs, C cs ∧ Recites B cs ls ∧ ∀ a, o = some (.ok a) → RecitesAll B cs ls

theorem performs_pure {α : Type} (a : α) : Performs R B (· = []) (pure a : Prog α) := by
  rintro ls o ⟨rfl, -⟩
  exact ⟨[], rfl, .stop _, fun _ _ => .nil⟩
theorem performs_ofExcept {α : Type} (r : Except PyErr α) : Performs R B (· = []) (ofExcept r) := by
  rintro ls o ⟨rfl, -⟩
  exact ⟨[], rfl, .stop _, fun _ _ => .nil⟩
theorem performs_raise {α : Type} {C : List PyStr → Prop} (hC : ∃ cs, C cs) (e : PyErr) : Performs R B C (raise e : Prog α) := by
  rintro ls o ⟨rfl, h⟩
  obtain ⟨cs, hC⟩ := hC
  refine ⟨cs, hC, .stop _, fun a ha => ?_⟩
  rcases h with rfl | rfl <;> simp at ha
theorem performs_same {α : Type} {C : List PyStr → Prop} {f : Limits → St → St} {k : Limits → St → Prog α} (hC : ∃ cs, C cs) (h : ∀ env s, (f env s).log = s.log)
    (hk : ∀ env s, Performs R B C (k env s)) : Performs R B C (act f k) := by
  rintro ls o (⟨rfl, rfl⟩ | ⟨env, s, ls', rfl, hs⟩)
  · obtain ⟨cs, hC⟩ := hC
    exact ⟨cs, hC, .stop _, by simp⟩
  · rw [h, sentSince_self]
    exact hk env s _ _ hs
theorem performs_look : Performs R B (· = []) look := performs_same ⟨_, rfl⟩ (fun _ _ => rfl) fun _ s => performs_pure s
theorem performs_change {f : St → St} (h : ∀ s, (f s).log = s.log) : Performs R B (· = []) (change f) := performs_same ⟨_, rfl⟩ (fun _ => h) fun _ _ => performs_pure ()

theorem performs_seq {α β : Type} {C1 C2 C : List PyStr → Prop} {p : Prog α} {f : α → Prog β} (h : Performs R B C1 p) (hf : ∀ a, Performs R B C2 (f a))
    (hne : ∃ cs, C2 cs) (hC : ∀ c1 c2, C1 c1 → C2 c2 → C (c1 ++ c2)) : Performs R B C (p >>= f) := by
  intro ls o hs
  rcases said_bind hs with ⟨h1, o', h2⟩ | ⟨a, l1, l2, h1, h2, rfl⟩
  · obtain ⟨c1, hc1, hr, -⟩ := h ls o' h2
    obtain ⟨c2, hc2⟩ := hne
    exact ⟨c1 ++ c2, hC c1 c2 hc1 hc2, recites_more hr c2, fun a ha => absurd ha (h1 a)⟩
  · obtain ⟨c1, hc1, -, hr1⟩ := h l1 _ h1
    obtain ⟨c2, hc2, hr2, hr3⟩ := hf a l2 o h2
    exact ⟨c1 ++ c2, hC c1 c2 hc1 hc2, recitesAll_then (hr1 a rfl) hr2, fun b hb => recitesAll_thenAll (hr1 a rfl) (hr3 b hb)⟩

theorem performs_mono {α : Type} {C C' : List PyStr → Prop} {p : Prog α} (h : Performs R B C p) (hC : ∀ cs, C cs → C' cs) : Performs R B C' p :=
  fun ls o hs => (h ls o hs).imp fun cs hcs => ⟨hC cs hcs.1, hcs.2⟩

/-- What comes before says nothing. -/
theorem performs_after {α β : Type} {C : List PyStr → Prop} {p : Prog α} {f : α → Prog β} (h : Performs R B (· = []) p) (hf : ∀ a, Performs R B C (f a)) (hne : ∃ cs, C cs) :
    Performs R B C (p >>= f) := performs_seq h hf hne fun c1 c2 h1 h2 => by rw [h1]; exact h2
/-- What comes after says nothing. -/
theorem performs_before {α β : Type} {C : List PyStr → Prop} {p : Prog α} {f : α → Prog β} (h : Performs R B C p) (hf : ∀ a, Performs R B (· = []) (f a)) :
    Performs R B C (p >>= f) := performs_seq h hf ⟨_, rfl⟩ fun c1 c2 h1 h2 => by rw [h2, List.append_nil]; exact h1

/-! ### The methods -/

theorem performs_writeN (hB : ∀ r, R r → SaysBusy r → B) (data term : PyStr) : ∀ d : Nat, Performs R B (· = [data ++ term]) (writeN d data true term)
  | 0 => performs_raise (C := (· = [data ++ term])) ⟨_, rfl⟩ _
  | d + 1 => by
    rintro ls o (⟨rfl, rfl⟩ | ⟨r, ls', hr, rfl, h⟩)
    · exact ⟨_, rfl, .stop _, by simp⟩
    have one : RecitesAll B [data ++ term] [data ++ term] := .next _ 0 (.inl rfl) .nil
    refine ⟨_, rfl, ?_⟩
    suffices h' : ∃ n, ls' = List.replicate n (data ++ term) ∧ (n = 0 ∨ B) by
      obtain ⟨n, rfl, hn⟩ := h'
      have hall : RecitesAll B [data ++ term] (List.replicate (n + 1) (data ++ term) ++ []) := .next _ n hn .nil
      rw [List.append_nil] at hall
      exact ⟨recitesAll_recites hall, fun _ _ => hall⟩
    cases r with
    | timeout x => exact ⟨0, h.1, .inl rfl⟩
    | lines xs =>
      dsimp only at h
      cases hx : xs.getLast? with
      | none => rw [hx] at h; exact ⟨0, h.1, .inl rfl⟩
      | some line =>
        rw [hx] at h
        dsimp only at h
        rw [if_pos rfl] at h
        cases hc : classify line with
        | fine => rw [hc] at h; exact ⟨0, h.1, .inl rfl⟩
        | failed e => rw [hc] at h; exact ⟨0, h.1, .inl rfl⟩
        | busy n =>
          rw [hc] at h
          dsimp only at h
          have hb : B := hB _ hr (says_busy rfl hx hc)
          have hp : Performs R B (· = [data ++ term]) (do
              change fun s => { s with writeWait := s.writeWait + 2 }
              let r ← writeN d data true term
              change fun s => { s with writeWait := if n = 515 then 1 else 0 }
              pure r : Prog (List PyStr)) :=
            performs_after (performs_change fun _ => rfl) (fun _ => performs_before (performs_writeN hB data term d) fun _ =>
              performs_after (performs_change fun _ => rfl) (fun _ => performs_pure _) ⟨_, rfl⟩) ⟨_, rfl⟩
          obtain ⟨cs, rfl, hrec, -⟩ := hp ls' o h
          cases hrec with
          | stop => exact ⟨0, rfl, .inl rfl⟩
          | next c m hm hrest =>
            cases hrest
            exact ⟨m + 1, by simp, .inr hb⟩

theorem performs_write (hB : ∀ r, R r → SaysBusy r → B) (data : PyStr) (term : PyStr := [13]) : Performs R B (· = [data ++ term]) (write data true term) :=
  performs_same ⟨_, rfl⟩ (fun _ _ => rfl) fun _ _ => performs_writeN hB data term _

theorem performs_sendPdus (hB : ∀ r, R r → SaysBusy r → B) : ∀ (ps : List Pdu) (x : Option PyStr),
    Performs R B (· = ps.flatMap fun p => [py!"AT+CMGS=" ++ decStr p.tpduLength ++ [13], pduHex p.data ++ [26]]) (sendPdus ps x)
  | [], x => performs_pure x
  | p :: ps, x => by
    unfold sendPdus
    have rest : ∀ ls : List PyStr, Performs R B (· = (pduHex p.data ++ [26]) :: ps.flatMap fun p => [py!"AT+CMGS=" ++ decStr p.tpduLength ++ [13], pduHex p.data ++ [26]]) (do
        let ls ← write (pduHex p.data) true [26]
        sendPdus ps (lineStartingWith py!"+CMGS:" ls) : Prog (Option PyStr)) := fun _ =>
      performs_seq (performs_write hB _ _) (fun ls => performs_sendPdus hB ps _) ⟨_, rfl⟩ (by rintro _ _ rfl rfl; rfl)
    exact performs_seq (performs_write hB _) rest ⟨_, rfl⟩ (by rintro _ _ rfl rfl; rfl)

theorem performs_record (destination text : PyStr) (reference : Int) : Performs R B (· = []) (recordSent destination text reference) := by
  unfold recordSent
  refine performs_after (performs_change fun _ => rfl) (fun _ => performs_after performs_look (fun s => ?_) ⟨_, rfl⟩) ⟨_, rfl⟩
  have last : Performs R B (· = []) (act (fun _ s => { s with sent := s.sent ++ [⟨destination, text, reference, none⟩], sentSms := dictSet s.sentSms reference s.sent.length, smsTrace := .sent reference :: s.smsTrace })
    fun _ s => pure s.sent.length : Prog Nat) := performs_same ⟨_, rfl⟩ (fun _ _ => rfl) fun _ _ => performs_pure _
  split
  · exact performs_after (performs_change fun _ => rfl) (fun _ => last) ⟨_, rfl⟩
  · exact last

theorem performs_send [PyUnicode] (hB : ∀ r, R r → SaysBusy r → B) (d t : PyStr) (f : Bool) : Performs R B (SendingCommands d t f) (sendSms d t f) := by
  have hne : ∃ cs, SendingCommands d t f cs := ⟨_, .text⟩
  unfold sendSms
  refine performs_before ?_ fun r => ?_
  · unfold sendAll
    refine performs_after performs_look (fun s => ?_) hne
    split
    · refine performs_mono (C := (· = [py!"AT+CMGS=\"" ++ d ++ py!"\"\r", t ++ [26]])) ?_ (by rintro _ rfl; exact .text)
      refine performs_seq (performs_write hB _) (fun _ => performs_before (performs_write hB _ _) fun _ => performs_pure _) ⟨_, rfl⟩ ?_
      rintro _ _ rfl rfl
      simp [List.append_assoc]
    · refine performs_after performs_look (fun s => ?_) hne
      cases he : encodeSmsSubmitPdu d t s.smsRef (sendFlash := f) with
      | error e => exact performs_raise hne e
      | ok ps => exact performs_mono (performs_sendPdus hB ps none) (by rintro _ rfl; exact .pdus _ he)
  · cases r with
    | none => exact performs_raise (C := (· = [])) ⟨_, rfl⟩ _
    | some x => exact performs_after (performs_ofExcept _) (fun _ => performs_record d t _) ⟨_, rfl⟩

theorem performs_memory (hB : ∀ r, R r → SaysBusy r → B) (m : PyStr) : Performs R B (fun cs => cs = [] ∨ cs = [py!"AT+CPMS=\"" ++ m ++ py!"\"\r"]) (setSmsMemory (some m)) := by
  unfold setSmsMemory
  refine performs_after performs_look (fun s => ?_) ⟨_, .inl rfl⟩
  split
  · refine performs_before (performs_mono (performs_write hB _) ?_) fun _ => performs_change fun _ => rfl
    rintro _ rfl
    exact .inr (by simp [cpmsCmd, List.append_assoc])
  · exact performs_mono (performs_pure ()) fun cs h => .inl h

theorem performs_read (hB : ∀ r, R r → SaysBusy r → B) (i m : PyStr) :
    Performs R B (fun cs => ∃ c0, (c0 = [] ∨ c0 = [py!"AT+CPMS=\"" ++ m ++ py!"\"\r"]) ∧ cs = c0 ++ [py!"AT+CMGR=" ++ i ++ [13]]) (readStoredSms i (some m)) := by
  unfold readStoredSms
  refine performs_seq (performs_memory hB m) (fun _ => performs_before (performs_write hB _) fun _ => performs_after performs_look (fun _ => performs_ofExcept _) ⟨_, rfl⟩) ⟨_, rfl⟩ ?_
  rintro c1 _ h1 rfl
  exact ⟨c1, h1, rfl⟩

theorem performs_delete (hB : ∀ r, R r → SaysBusy r → B) (i : PyStr) : Performs R B (· = [py!"AT+CMGD=" ++ i ++ py!",0\r"]) (deleteStoredSms i) := by
  unfold deleteStoredSms
  refine performs_after (performs_pure ()) (fun _ => performs_before (performs_mono (performs_write hB _) ?_) fun _ => performs_pure _) ⟨_, rfl⟩
  rintro _ rfl
  simp [cmgdCmd, List.append_assoc]

theorem fetch_commands {m i : PyStr} {c1 c2 : List PyStr} (h1 : ∃ c0, (c0 = [] ∨ c0 = [py!"AT+CPMS=\"" ++ m ++ py!"\"\r"]) ∧ c1 = c0 ++ [py!"AT+CMGR=" ++ i ++ [13]])
    (h2 : c2 = [py!"AT+CMGD=" ++ i ++ py!",0\r"]) : FetchCommands m i (c1 ++ c2) := by
  obtain ⟨_, rfl | rfl, rfl⟩ := h1 <;> subst h2
  · exact .chosen
  · exact .choose

theorem performs_received (hB : ∀ r, R r → SaysBusy r → B) {l mem idx : PyStr} (hl : StoredAt py!"+CMTI:" l mem idx) : Performs R B (FetchCommands mem idx) (handleSmsReceived l) := by
  unfold handleSmsReceived
  have hg : rxGroups cmtiRegex l = some [mem, idx] := by rw [cmti_rx]; exact stored_iff.2 ⟨mem, idx, rfl, hl⟩
  rw [hg]
  exact performs_seq (performs_read hB idx mem) (fun _ => performs_before (performs_delete hB idx) fun _ => performs_change fun _ => rfl) ⟨_, rfl⟩ fun _ _ => fetch_commands

theorem performs_choose (hB : ∀ r, R r → SaysBusy r → B) (m : Option PyStr) : Performs R B (MemoryCommands m) (setSmsMemory m) := by
  cases m with
  | none => exact performs_mono (performs_pure ()) (by rintro _ rfl; exact .chosen _)
  | some m => exact performs_mono (performs_memory hB m) (by rintro _ (rfl | rfl); exacts [.chosen _, .choose m])

theorem performs_read_any [PyUnicode] (hB : ∀ r, R r → SaysBusy r → B) (i : PyStr) (m : Option PyStr) : Performs R B (JobCommands (.task (.message (.read i m)))) (readStoredSms i m) := by
  unfold readStoredSms
  refine performs_seq (performs_choose hB m) (fun _ => performs_before (performs_write hB _) fun _ => performs_after performs_look (fun _ => performs_ofExcept _) ⟨_, rfl⟩) ⟨_, rfl⟩ ?_
  rintro c1 _ h1 rfl
  exact .read h1

theorem performs_delete_any [PyUnicode] (hB : ∀ r, R r → SaysBusy r → B) (i : PyStr) (m : Option PyStr) : Performs R B (JobCommands (.task (.message (.delete i m)))) (deleteStoredSms i m) := by
  unfold deleteStoredSms
  refine performs_seq (performs_choose hB m) (fun _ => performs_before (performs_write hB _) fun _ => performs_pure _) ⟨_, rfl⟩ ?_
  rintro c1 _ h1 rfl
  have : cmgdCmd i ++ [13] = py!"AT+CMGD=" ++ i ++ py!",0\r" := by simp [cmgdCmd, List.append_assoc]
  rw [this]
  exact .delete h1

theorem performs_deleteMultiple [PyUnicode] (hB : ∀ r, R r → SaysBusy r → B) (f : Int) (m : Option PyStr) :
    Performs R B (fun cs => ∃ c0, MemoryCommands m c0 ∧ cs = c0 ++ [py!"AT+CMGD=1," ++ intStr f ++ [13]]) (deleteMultipleStoredSms f m) := by
  unfold deleteMultipleStoredSms
  split
  · refine performs_seq (performs_choose hB m) (fun _ => performs_before (performs_write hB _) fun _ => performs_pure _) ⟨_, rfl⟩ ?_
    rintro c1 _ h1 rfl
    exact ⟨c1, h1, rfl⟩
  · exact performs_raise ⟨_, _, .chosen _, rfl⟩ _

theorem performs_deleteAll (hB : ∀ r, R r → SaysBusy r → B) : ∀ is : List Int, Performs R B (· = is.map fun i => py!"AT+CMGD=" ++ intStr i ++ py!",0\r") (deleteAll is)
  | [] => performs_pure ()
  | i :: is => by
    unfold deleteAll
    exact performs_seq (performs_delete hB _) (fun _ => performs_deleteAll hB is) ⟨_, rfl⟩ (by rintro _ _ rfl rfl; rfl)

theorem clean_nonempty (st : Int) (d : Bool) : ∃ cs, CleanCommands st d cs := by
  cases d with
  | false => exact ⟨_, .keep⟩
  | true =>
    by_cases h : st = 4
    · exact ⟨_, .all h⟩
    · exact ⟨_, .each [] h⟩

theorem performs_clean [PyUnicode] (hB : ∀ r, R r → SaysBusy r → B) (st : Int) (d : Bool) (l : List Int) : Performs R B (CleanCommands st d) (deleteListed st d l) := by
  unfold deleteListed
  cases d with
  | false => exact performs_mono (performs_pure ()) (by rintro _ rfl; exact .keep)
  | true =>
    rw [if_pos rfl]
    split
    · next h =>
      refine performs_mono (performs_deleteMultiple hB 4 none) ?_
      rintro _ ⟨_, h1, rfl⟩
      cases h1
      exact .all h
    · next h => exact performs_same ⟨_, .each [] h⟩ (fun _ _ => rfl) fun env _ => performs_mono (performs_deleteAll hB _) (by rintro _ rfl; exact .each _ h)

theorem list_command {t : Bool} {st : Int} {c : PyStr} (h : listCommand t st = .ok c) : ListCommand st (c ++ [13]) := by
  unfold listCommand at h
  split at h
  · split at h
    · cases h
    · next n hn =>
      cases h
      have := ListCommand.text hn
      simpa [List.append_assoc] using this
  · cases h
    exact .pdu

theorem performs_list [PyUnicode] (hB : ∀ r, R r → SaysBusy r → B) (st : Int) (m : Option PyStr) (d : Bool) : Performs R B (JobCommands (.task (.message (.list st m d)))) (listStoredSms st m d) := by
  obtain ⟨cc, hcc⟩ := clean_nonempty st d
  have hne : ∃ cs, ∃ c c1, ListCommand st c ∧ CleanCommands st d c1 ∧ cs = c :: c1 := ⟨_, _, _, .pdu, hcc, rfl⟩
  unfold listStoredSms
  refine performs_seq (C2 := fun cs => ∃ c c1, ListCommand st c ∧ CleanCommands st d c1 ∧ cs = c :: c1) (performs_choose hB m) (fun _ => performs_after performs_look (fun s => ?_) hne) hne ?_
  · show Performs R B _ ((ofExcept (listCommand s.smsTextMode st)).bind _)
    cases hcmd : listCommand s.smsTextMode st with
    | error e => exact performs_raise hne e
    | ok c =>
      show Performs R B _ (do
        let result ← write c
        let listing ← ofExcept (parseListing s.smsTextMode result)
        deleteListed st d listing.delMessages
        pure listing.messages : Prog (List Msg))
      refine performs_seq (C2 := CleanCommands st d) (performs_write hB c) (fun r => performs_after (performs_ofExcept _) (fun l => performs_before (performs_clean hB st d _) fun _ => performs_pure _) ⟨_, hcc⟩) ⟨_, hcc⟩ ?_
      rintro _ c1 rfl h1
      exact ⟨_, c1, list_command hcmd, h1, rfl⟩
  · rintro c0 _ h0 ⟨c, c1, h1, h2, rfl⟩
    exact .list h0 h1 h2

theorem performs_mode [PyUnicode] (hB : ∀ r, R r → SaysBusy r → B) (v : Bool) : Performs R B (JobCommands (.task (.message (.setTextMode v)))) (setSmsTextMode v) := by
  unfold setSmsTextMode
  have quiet : ∀ {x : Prog Unit}, Performs R B (· = []) x → Performs R B (JobCommands (.task (.message (.setTextMode v)))) x := fun h => performs_mono h (by rintro _ rfl; exact .sameMode)
  have last : Performs R B (· = []) (change fun s => { s with smsTextMode := v }) := performs_change fun _ => rfl
  refine performs_after performs_look (fun s => ?_) ⟨_, .sameMode⟩
  split
  · refine performs_after performs_look (fun s => ?_) ⟨_, .sameMode⟩
    split
    · exact performs_before (performs_mono (performs_write hB _) (by rintro _ rfl; exact .mode)) fun _ => last
    · exact quiet last
  · exact quiet (performs_pure ())

theorem performs_method [PyUnicode] (hB : ∀ r, R r → SaysBusy r → B) {x : Method} {cs : List PyStr} (h : JobCommands (.task (.message x)) cs) (hx : ∀ l, x ≠ .statusReport l) :
    Performs R B (JobCommands (.task (.message x))) x.prog := by
  cases h with
  | send h => exact performs_before (performs_mono (performs_send hB _ _ _) fun _ => .send) fun _ => performs_pure _
  | received hl h => exact performs_mono (performs_received hB hl) fun _ => .received hl
  | report hl h => exact absurd rfl (hx _)
  | read h => exact performs_before (performs_read_any hB _ _) fun _ => performs_pure _
  | delete h => exact performs_delete_any hB _ _
  | deleteMultiple h => exact performs_mono (performs_deleteMultiple hB _ _) (by rintro _ ⟨_, h, rfl⟩; exact .deleteMultiple h)
  | list h => exact performs_before (performs_list hB _ _ _) fun _ => performs_pure _
  | sameMode => exact performs_mode hB _
  | mode => exact performs_mode hB _
  | ask => exact performs_before (performs_mono (performs_write hB _) (by rintro _ rfl; exact .ask)) fun _ => performs_pure _

end Prog

namespace Proc

/-- The lines that a thread may have sent so far, if the answers are like this, and its result, if it is at its end. -/
def Said {α : Type} (R : Reply → Prop) : Proc α → List PyStr → Option (Except PyErr α) → Prop
  | done r, ls, o => ls = [] ∧ (o = none ∨ o = some r)
  | io t k, ls, o => (ls = [] ∧ o = none) ∨ ∃ r ls', R r ∧ ls = t :: ls' ∧ Said R (k r) ls' o
  | act f k, ls, o => (ls = [] ∧ o = none) ∨ ∃ env s ls', ls = sentSince s.st.log (f env s).st.log ++ ls' ∧ Said R (k env s) ls' o

variable {R : Reply → Prop} {B : Prop}

theorem said_bind {α β : Type} {p : Proc α} {f : α → Proc β} {ls : List PyStr} {o : Option (Except PyErr β)} (h : Said R (p >>= f) ls o) :
    ((∀ b, o ≠ some (.ok b)) ∧ ∃ o', Said R p ls o') ∨ ∃ a l1 l2, Said R p l1 (some (.ok a)) ∧ Said R (f a) l2 o ∧ ls = l1 ++ l2 := by
  replace h : Said R (p.bind f) ls o := h
  induction p generalizing ls with
  | done r => cases r with
    | ok a => exact .inr ⟨a, [], ls, ⟨rfl, .inr rfl⟩, h, rfl⟩
    | error e =>
      obtain ⟨rfl, h⟩ := h
      exact .inl ⟨by rcases h with rfl | rfl <;> simp, some (.error e), rfl, .inr rfl⟩
  | io t k ih =>
    rcases h with ⟨rfl, rfl⟩ | ⟨r, ls', hr, rfl, h⟩
    · exact .inl ⟨by simp, none, .inl ⟨rfl, rfl⟩⟩
    · rcases ih r h with ⟨h1, o', h2⟩ | ⟨a, l1, l2, h1, h2, rfl⟩
      · exact .inl ⟨h1, o', .inr ⟨r, ls', hr, rfl, h2⟩⟩
      · exact .inr ⟨a, t :: l1, l2, .inr ⟨r, l1, hr, rfl, h1⟩, h2, rfl⟩
  | act g k ih =>
    rcases h with ⟨rfl, rfl⟩ | ⟨env, s, ls', rfl, h⟩
    · exact .inl ⟨by simp, none, .inl ⟨rfl, rfl⟩⟩
    · rcases ih env s h with ⟨h1, o', h2⟩ | ⟨a, l1, l2, h1, h2, rfl⟩
      · exact .inl ⟨h1, o', .inr ⟨env, s, ls', rfl, h2⟩⟩
      · exact .inr ⟨a, sentSince s.st.log (g env s).st.log ++ l1, l2, .inr ⟨env, s, l1, rfl, h1⟩, h2, by rw [List.append_assoc]⟩

/-- The thread says the commands of one of these lists, in their order, and all of them if it succeeds. -/
def Performs {α : Type} (R : Reply → Prop) (B : Prop) (C : List PyStr → Prop) (p : Proc α) : Prop :=
  ∀ ls o, Said R p ls o → ∃ cs, C cs ∧ Recites B cs ls ∧ ∀ a, o = some (.ok a) → RecitesAll B cs ls

theorem performs_pure {α : Type} (a : α) : Performs R B (· = []) (pure a : Proc α) := by
  rintro ls o ⟨rfl, -⟩
  exact ⟨[], rfl, .stop _, fun _ _ => .nil⟩
theorem performs_ofExcept {α : Type} (r : Except PyErr α) : Performs R B (· = []) (ofExcept r) := by
  rintro ls o ⟨rfl, -⟩
  exact ⟨[], rfl, .stop _, fun _ _ => .nil⟩
theorem performs_raise {α : Type} {C : List PyStr → Prop} (hC : ∃ cs, C cs) (e : PyErr) : Performs R B C (raise e : Proc α) := by
  rintro ls o ⟨rfl, h⟩
  obtain ⟨cs, hC⟩ := hC
  refine ⟨cs, hC, .stop _, fun a ha => ?_⟩
  rcases h with rfl | rfl <;> simp at ha
theorem performs_same {α : Type} {C : List PyStr → Prop} {f : Limits → Shared → Shared} {k : Limits → Shared → Proc α} (hC : ∃ cs, C cs) (h : ∀ env s, (f env s).st.log = s.st.log)
    (hk : ∀ env s, Performs R B C (k env s)) : Performs R B C (act f k) := by
  rintro ls o (⟨rfl, rfl⟩ | ⟨env, s, ls', rfl, hs⟩)
  · obtain ⟨cs, hC⟩ := hC
    exact ⟨cs, hC, .stop _, by simp⟩
  · rw [h, sentSince_self]
    exact hk env s _ _ hs
theorem performs_look : Performs R B (· = []) look := performs_same ⟨_, rfl⟩ (fun _ _ => rfl) fun _ s => performs_pure s
theorem performs_change {f : Shared → Shared} (h : ∀ s, (f s).st.log = s.st.log) : Performs R B (· = []) (change f) := performs_same ⟨_, rfl⟩ (fun _ => h) fun _ _ => performs_pure ()

theorem performs_seq {α β : Type} {C1 C2 C : List PyStr → Prop} {p : Proc α} {f : α → Proc β} (h : Performs R B C1 p) (hf : ∀ a, Performs R B C2 (f a))
    (hne : ∃ cs, C2 cs) (hC : ∀ c1 c2, C1 c1 → C2 c2 → C (c1 ++ c2)) : Performs R B C (p >>= f) := by
  intro ls o hs
  rcases said_bind hs with ⟨h1, o', h2⟩ | ⟨a, l1, l2, h1, h2, rfl⟩
  · obtain ⟨c1, hc1, hr, -⟩ := h ls o' h2
    obtain ⟨c2, hc2⟩ := hne
    exact ⟨c1 ++ c2, hC c1 c2 hc1 hc2, recites_more hr c2, fun a ha => absurd ha (h1 a)⟩
  · obtain ⟨c1, hc1, -, hr1⟩ := h l1 _ h1
    obtain ⟨c2, hc2, hr2, hr3⟩ := hf a l2 o h2
    exact ⟨c1 ++ c2, hC c1 c2 hc1 hc2, recitesAll_then (hr1 a rfl) hr2, fun b hb => recitesAll_thenAll (hr1 a rfl) (hr3 b hb)⟩

theorem performs_mono {α : Type} {C C' : List PyStr → Prop} {p : Proc α} (h : Performs R B C p) (hC : ∀ cs, C cs → C' cs) : Performs R B C' p :=
  fun ls o hs => (h ls o hs).imp fun cs hcs => ⟨hC cs hcs.1, hcs.2⟩

/-- What comes before says nothing. -/
theorem performs_after {α β : Type} {C : List PyStr → Prop} {p : Proc α} {f : α → Proc β} (h : Performs R B (· = []) p) (hf : ∀ a, Performs R B C (f a)) (hne : ∃ cs, C cs) :
    Performs R B C (p >>= f) := performs_seq h hf hne fun c1 c2 h1 h2 => by rw [h1]; exact h2
/-- What comes after says nothing. -/
theorem performs_before {α β : Type} {C : List PyStr → Prop} {p : Proc α} {f : α → Proc β} (h : Performs R B C p) (hf : ∀ a, Performs R B (· = []) (f a)) :
    Performs R B C (p >>= f) := performs_seq h hf ⟨_, rfl⟩ fun c1 c2 h1 h2 => by rw [h2, List.append_nil]; exact h1

theorem said_lift {α : Type} {p : Prog α} {ls : List PyStr} {o : Option (Except PyErr α)} (h : Said R (lift p) ls o) : p.Said R ls o := by
  induction p generalizing ls with
  | done r => exact h
  | io t k ih =>
    rcases h with h | ⟨r, ls', hr, hl, h⟩
    · exact .inl h
    · exact .inr ⟨r, ls', hr, hl, ih r h⟩
  | act f k ih =>
    rcases h with h | ⟨env, w, ls', hl, h⟩
    · exact .inl h
    · exact .inr ⟨env, w.st, ls', hl, ih env w.st h⟩

theorem performs_lift {α : Type} {C : List PyStr → Prop} {p : Prog α} (h : p.Performs R B C) : Performs R B C (lift p) := fun ls o hs => h ls o (said_lift hs)

theorem said_cut {α : Type} (p : Proc α) : Said R p [] none := by
  cases p with
  | done r => exact ⟨rfl, .inl rfl⟩
  | io t k => exact .inl ⟨rfl, rfl⟩
  | act f k => exact .inl ⟨rfl, rfl⟩

theorem performs_eventOf (x : Slot) : Performs R B (· = []) (eventOf x) := by
  refine performs_after performs_look (fun w => ?_) ⟨_, rfl⟩
  split
  · exact performs_pure _
  · exact performs_raise (C := (· = [])) ⟨_, rfl⟩ _
theorem performs_wait (x : Slot) : Performs R B (· = []) (wait x) :=
  performs_after (performs_eventOf x) (fun _ => performs_after performs_look (fun _ => performs_pure _) ⟨_, rfl⟩) ⟨_, rfl⟩
theorem performs_set (x : Slot) : Performs R B (· = []) (set x) := by
  refine performs_after (performs_eventOf x) (fun e => performs_change fun w => ?_) ⟨_, rfl⟩
  show (if w.attr x = some e then w.st.withEvent x (some true) else w.st).log = w.st.log
  split
  · exact withEvent_log _ _ _
  · rfl

theorem performs_report (hB : ∀ r, R r → SaysBusy r → B) {l mem idx : PyStr} (hl : StoredAt py!"+CDSI:" l mem idx) : Performs R B (FetchCommands mem idx) (handleSmsStatusReport l) := by
  unfold handleSmsStatusReport
  have hg : rxGroups cdsiRegex l = some [mem, idx] := by rw [cdsi_rx]; exact stored_iff.2 ⟨mem, idx, rfl, hl⟩
  rw [hg]
  refine performs_seq (performs_lift (Prog.performs_read hB idx mem)) (fun m => performs_before (performs_lift (Prog.performs_delete hB idx)) fun _ => ?_) ⟨_, rfl⟩ fun _ _ => Prog.fetch_commands
  cases m with
  | received => exact performs_raise (C := (· = [])) ⟨_, rfl⟩ _
  | report =>
    refine performs_after (performs_lift (Prog.performs_change fun _ => rfl)) (fun _ => performs_after performs_look (fun w => ?_) ⟨_, rfl⟩) ⟨_, rfl⟩
    split
    · exact performs_set _
    · exact performs_lift (Prog.performs_change fun _ => rfl)

theorem performs_awaitReport (i : Nat) : Performs R B (· = []) (awaitReport i) := by
  refine performs_after (performs_change fun w => withEvent_log _ _ _) (fun _ => performs_after (performs_wait _) (fun ok => ?_) ⟨_, rfl⟩) ⟨_, rfl⟩
  refine performs_after (performs_change fun w => withEvent_log _ _ _) (fun _ => ?_) ⟨_, rfl⟩
  split
  · exact performs_pure _
  · exact performs_raise (C := (· = [])) ⟨_, rfl⟩ _

/-- The threads that have to do with messages. -/
theorem performs_job [PyUnicode] (hB : ∀ r, R r → SaysBusy r → B) {j : Job} {cs : List PyStr} (h : JobCommands j cs) : Performs R B (JobCommands j) j.proc := by
  have lifted : ∀ {x : Method}, JobCommands (.task (.message x)) cs → (∀ l, x ≠ .statusReport l) → Performs R B (JobCommands (.task (.message x))) (do lift x.prog; pure .nothing : Proc Value) :=
    fun h hx => performs_before (performs_lift (Prog.performs_method hB h hx)) fun _ => performs_pure _
  cases h with
  | sendWait h => exact performs_before (performs_before (performs_lift (Prog.performs_mono (Prog.performs_send hB _ _ _) fun _ => .sendWait)) performs_awaitReport) fun _ => performs_pure _
  | report hl h => exact performs_before (performs_mono (performs_report hB hl) fun _ => .report hl) fun _ => performs_pure _
  | send h => exact lifted (.send h) (by simp)
  | received hl h => exact lifted (.received hl h) (by simp)
  | read h => exact lifted (.read h) (by simp)
  | delete h => exact lifted (.delete h) (by simp)
  | deleteMultiple h => exact lifted (.deleteMultiple h) (by simp)
  | list h1 h2 h3 => exact lifted (.list h1 h2 h3) (by simp)
  | sameMode => exact lifted .sameMode (by simp)
  | mode => exact lifted .mode (by simp)
  | ask => exact lifted .ask (by simp)

end Proc

/-! ### The lines of one thread among those of others -/

theorem ownLines_append (i : Nat) (a b : List (Nat × PyStr)) : ownLines i (a ++ b) = ownLines i a ++ ownLines i b := List.filterMap_append
theorem ownLines_self (i : Nat) (l : List PyStr) : ownLines i (l.map fun c => (i, c)) = l := by
  induction l with
  | nil => rfl
  | cons c l ih => simpa [ownLines] using ih
theorem ownLines_other {i j : Nat} (h : j ≠ i) (l : List PyStr) : ownLines i (l.map fun c => (j, c)) = [] := by
  induction l with
  | nil => rfl
  | cons c l ih => simp [ownLines, h]

/-- What the modem answers. -/
def ReplyOf (env : Env) (r : Reply) : Prop := ∃ log, env.reply log = r

/-- Whatever the others do, a thread says what it can say. -/
theorem said_own (env : Env) {i : Nat} : ∀ (schedule : List Nat) (threads : List (Proc Value)) (w : Shared) (p : Proc Value), threads[i]? = some p →
    ∃ o, p.Said (ReplyOf env) (ownLines i (utterances env schedule (threads, w))) o ∧ ∀ r, (runProcs env schedule (threads, w)).1[i]? = some (.done r) → o = some r
  | [], _, w, p, h => by
    cases p with
    | done r => exact ⟨some r, ⟨rfl, .inr rfl⟩, fun r' hr => by simp only [runProcs, h] at hr; cases hr; rfl⟩
    | io t k => exact ⟨none, .inl ⟨rfl, rfl⟩, fun r' hr => by simp only [runProcs, h] at hr; cases hr⟩
    | act f k => exact ⟨none, .inl ⟨rfl, rfl⟩, fun r' hr => by simp only [runProcs, h] at hr; cases hr⟩
  | j :: is, threads, w, p, h => by
    unfold utterances runProcs
    cases hq : threads[j]? with
    | none => exact said_own env is threads w p h
    | some q =>
      dsimp only
      rw [ownLines_append]
      by_cases hj : j = i
      · subst hj
        rw [h] at hq
        cases hq
        rw [ownLines_self]
        have hi : j < threads.length := (List.getElem?_eq_some_iff.1 h).1
        obtain ⟨o, h1, h2⟩ := said_own env (i := j) is (threads.set j (p.step env w).1) (p.step env w).2 (p.step env w).1 (by rw [List.getElem?_set]; simp [hi])
        refine ⟨o, ?_, h2⟩
        cases p with
        | done r =>
          show Proc.Said _ _ (sentSince w.st.log w.st.log ++ _) o
          rw [sentSince_self]
          exact h1
        | io t k =>
          show Proc.Said _ _ (sentSince w.st.log (t :: w.st.log) ++ _) o
          rw [sentSince_cons]
          exact .inr ⟨_, _, ⟨_, rfl⟩, rfl, h1⟩
        | act f k => exact .inr ⟨_, _, _, rfl, h1⟩
      · rw [ownLines_other hj, List.nil_append]
        exact said_own env is _ _ p (by rw [List.getElem?_set_ne hj]; exact h)

/-- All lines, with their threads, make up what is sent. -/
theorem utterances_log (env : Env) : ∀ (schedule : List Nat) (threads : List (Proc Value)) (w : Shared), (∀ (i : Nat) (p : Proc Value), threads[i]? = some p → p.Emits fun _ => True) →
    (runProcs env schedule (threads, w)).2.st.log = ((utterances env schedule (threads, w)).map Prod.snd).reverse ++ w.st.log
  | [], _, w, _ => rfl
  | i :: is, threads, w, h => by
    unfold runProcs utterances
    cases hp : threads[i]? with
    | none => exact utterances_log env is threads w h
    | some p =>
      dsimp only
      obtain ⟨h3, new, h4, -⟩ := Proc.emits_step env (h i p hp) w
      rw [utterances_log env is (threads.set i (p.step env w).1) (p.step env w).2 (fun j q hq => by
        rw [List.getElem?_set] at hq
        split at hq
        · next e =>
          split at hq
          · cases hq; exact h3
          · cases hq
        · exact h j q hq), h4, sentSince_append]
      simp [Function.comp_def, List.append_assoc]

end Gsm
