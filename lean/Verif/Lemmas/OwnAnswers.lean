import Verif.Spec.OwnAnswers
import Verif.Lemmas.OwnLines
/-! # Lemmas: the lines of each thread with the answers it gets -/
namespace Gsm
open Spec

section
variable {c1 c2 : List PyStr} {l1 l2 : List (PyStr × Option Reply)}

theorem proceeds_more (h : Proceeds c1 l1) (c2 : List PyStr) : Proceeds (c1 ++ c2) l1 := by
  induction h with
  | stop => exact .stop _
  | last r hb => exact .last r hb
  | next hb hy _ ih => exact .next hb hy ih

theorem proceedsAll_then (h : ProceedsAll c1 l1) (h2 : Proceeds c2 l2) : Proceeds (c1 ++ c2) (l1 ++ l2) := by
  induction h with
  | nil => exact h2
  | next hb hy _ ih => rw [List.append_assoc]; exact .next hb hy ih

theorem proceedsAll_thenAll (h : ProceedsAll c1 l1) (h2 : ProceedsAll c2 l2) : ProceedsAll (c1 ++ c2) (l1 ++ l2) := by
  induction h with
  | nil => exact h2
  | next hb hy _ ih => rw [List.append_assoc]; exact .next hb hy ih

theorem proceeds_busy {c : PyStr} {r : Reply} (hr : SaysBusy r) (h : Proceeds (c :: c1) l1) : Proceeds (c :: c1) ((c, some r) :: l1) := by
  have more : ∀ {before : List (PyStr × Option Reply)}, (∀ x ∈ before, x.1 = c ∧ ∃ b, x.2 = some b ∧ SaysBusy b) → ∀ x ∈ (c, some r) :: before, x.1 = c ∧ ∃ b, x.2 = some b ∧ SaysBusy b := by
    intro before h x hx
    rcases List.mem_cons.1 hx with rfl | hx
    · exact ⟨rfl, r, rfl, hr⟩
    · exact h x hx
  cases h with
  | stop => exact .last (before := []) r (by simp)
  | last r' hb => exact .last r' (more hb)
  | next hb hy h => exact .next (more hb) hy h

theorem proceedsAll_busy {c : PyStr} {r : Reply} (hr : SaysBusy r) (h : ProceedsAll (c :: c1) l1) : ProceedsAll (c :: c1) ((c, some r) :: l1) := by
  cases h with
  | next hb hy h =>
    rw [← List.cons_append]
    refine .next (fun x hx => ?_) hy h
    rcases List.mem_cons.1 hx with rfl | hx
    · exact ⟨rfl, r, rfl, hr⟩
    · exact hb x hx

/-- What comes after an answer comes after a yes, or is the same command again. -/
theorem proceeds_split (h : Proceeds c1 l1) : ∀ {a b : List (PyStr × Option Reply)} {x : PyStr × Option Reply}, l1 = a ++ x :: b →
    ∃ k r, c1[k]? = some x.1 ∧ x.2 = some r ∧ (b ≠ [] → SaysYes r ∨ SaysBusy r) ∧ ∀ c ∈ c1.take k, ∃ y, SaysYes y ∧ (c, some y) ∈ a := by
  induction h with
  | stop => intro a b x h; simp at h
  | @last c cs before r hb =>
    intro a b x h
    rcases List.append_eq_append_iff.1 h with ⟨m, h1, h2⟩ | ⟨m, h1, h2⟩
    · cases m with
      | nil => simp at h2; obtain ⟨rfl, rfl⟩ := h2; exact ⟨0, r, rfl, rfl, by simp, by simp⟩
      | cons y m => simp at h2
    · cases m with
      | nil => simp at h2; obtain ⟨rfl, rfl⟩ := h2; exact ⟨0, r, rfl, rfl, by simp, by simp⟩
      | cons y m =>
        obtain ⟨rfl, rfl⟩ : x = y ∧ b = m ++ [(c, some r)] := by simpa using h2
        obtain ⟨hx, r', hr, hbusy⟩ := hb x (by rw [h1]; simp)
        exact ⟨0, r', by rw [hx]; rfl, hr, fun _ => .inr hbusy, by simp⟩
  | @next c cs before l r hb hy _ ih =>
    intro a b x h
    rcases List.append_eq_append_iff.1 h with ⟨m, h1, h2⟩ | ⟨m, h1, h2⟩
    · cases m with
      | nil => simp at h2; obtain ⟨rfl, rfl⟩ := h2; exact ⟨0, r, rfl, rfl, fun _ => .inl hy, by simp⟩
      | cons y m =>
        obtain ⟨rfl, h7⟩ : (c, some r) = y ∧ l = m ++ x :: b := by simpa using h2
        obtain ⟨k, r', h3, h4, h5, h6⟩ := ih h7
        refine ⟨k + 1, r', h3, h4, h5, fun d hd => ?_⟩
        rw [List.take_succ_cons] at hd
        rcases List.mem_cons.1 hd with rfl | hd
        · exact ⟨r, hy, by rw [h1]; simp⟩
        · obtain ⟨z, hz, hm⟩ := h6 d hd
          exact ⟨z, hz, by rw [h1]; simp [hm]⟩
    · cases m with
      | nil => simp at h2; obtain ⟨rfl, rfl⟩ := h2; exact ⟨0, r, rfl, rfl, fun _ => .inl hy, by simp⟩
      | cons y m =>
        obtain ⟨rfl, rfl⟩ : x = y ∧ b = m ++ (c, some r) :: l := by simpa using h2
        obtain ⟨hx, r', hr, hbusy⟩ := hb x (by rw [h1]; simp)
        exact ⟨0, r', by rw [hx]; rfl, hr, fun _ => .inr hbusy, by simp⟩

theorem proceedsAll_each (h : ProceedsAll c1 l1) : ∀ c ∈ c1, ∃ y, SaysYes y ∧ (c, some y) ∈ l1 := by
  induction h with
  | nil => simp
  | @next c cs before l r hb hy _ ih =>
    intro d hd
    rcases List.mem_cons.1 hd with rfl | hd
    · exact ⟨r, hy, by simp⟩
    · obtain ⟨y, h1, h2⟩ := ih d hd
      exact ⟨y, h1, by simp [h2]⟩

end

/-! ### What a program can say -/

namespace Prog

/-- The lines that a thread may have sent so far, if the answers are like this, and its result, if it is at its end. -/
def Spoke {α : Type} : Prog α → List (PyStr × Option Reply) → Option (Except PyErr α) → Prop
  | done r, ls, o => ls = [] ∧ (o = none ∨ o = some r)
  | io t k, ls, o => (ls = [] ∧ o = none) ∨ ∃ r ls', ls = (t, some r) :: ls' ∧ Spoke (k r) ls' o
  | act f k, ls, o => (ls = [] ∧ o = none) ∨ ∃ env s ls', ls = ((sentSince s.log (f env s).log).map fun c => (c, none)) ++ ls' ∧ Spoke (k env s) ls' o

theorem spoke_bind {α β : Type} {p : Prog α} {f : α → Prog β} {ls : List (PyStr × Option Reply)} {o : Option (Except PyErr β)} (h : Spoke (p >>= f) ls o) :
    ((∀ b, o ≠ some (.ok b)) ∧ ∃ o', Spoke p ls o') ∨ ∃ a l1 l2, Spoke p l1 (some (.ok a)) ∧ Spoke (f a) l2 o ∧ ls = l1 ++ l2 := by
  replace h : Spoke (p.bind f) ls o := h
  induction p generalizing ls with
  | done r => cases r with
    | ok a => exact .inr ⟨a, [], ls, ⟨rfl, .inr rfl⟩, h, rfl⟩
    | error e =>
      obtain ⟨rfl, h⟩ := h
      exact .inl ⟨by rcases h with rfl | rfl <;> simp, some (.error e), rfl, .inr rfl⟩
  | io t k ih =>
    rcases h with ⟨rfl, rfl⟩ | ⟨r, ls', rfl, h⟩
    · exact .inl ⟨by simp, none, .inl ⟨rfl, rfl⟩⟩
    · rcases ih r h with ⟨h1, o', h2⟩ | ⟨a, l1, l2, h1, h2, rfl⟩
      · exact .inl ⟨h1, o', .inr ⟨r, ls', rfl, h2⟩⟩
      · exact .inr ⟨a, (t, some r) :: l1, l2, .inr ⟨r, l1, rfl, h1⟩, h2, rfl⟩
  | act g k ih =>
    rcases h with ⟨rfl, rfl⟩ | ⟨env, s, ls', rfl, h⟩
    · exact .inl ⟨by simp, none, .inl ⟨rfl, rfl⟩⟩
    · rcases ih env s h with ⟨h1, o', h2⟩ | ⟨a, l1, l2, h1, h2, rfl⟩
      · exact .inl ⟨h1, o', .inr ⟨env, s, ls', rfl, h2⟩⟩
      · exact .inr ⟨a, ((sentSince s.log (g env s).log).map fun c => (c, none)) ++ l1, l2, .inr ⟨env, s, l1, rfl, h1⟩, h2, by rw [List.append_assoc]⟩

/-- The thread says the commands of one of these lists, in their order, and all of them if it succeeds. -/
def Conducts {α : Type} (C : List PyStr → Prop) (p : Prog α) : Prop :=
  ∀ ls o, Spoke p ls o → ∃ cs, C cs ∧ Proceeds cs ls ∧ ∀ a, o = some (.ok a) → ProceedsAll cs ls

theorem conducts_pure {α : Type} (a : α) : Conducts (· = []) (pure a : Prog α) := by
  rintro ls o ⟨rfl, -⟩
  exact ⟨[], rfl, .stop _, fun _ _ => .nil⟩
theorem conducts_ofExcept {α : Type} (r : Except PyErr α) : Conducts (· = []) (ofExcept r) := by
  rintro ls o ⟨rfl, -⟩
  exact ⟨[], rfl, .stop _, fun _ _ => .nil⟩
theorem conducts_raise {α : Type} {C : List PyStr → Prop} (hC : ∃ cs, C cs) (e : PyErr) : Conducts C (raise e : Prog α) := by
  rintro ls o ⟨rfl, h⟩
  obtain ⟨cs, hC⟩ := hC
  refine ⟨cs, hC, .stop _, fun a ha => ?_⟩
  rcases h with rfl | rfl <;> simp at ha
theorem conducts_same {α : Type} {C : List PyStr → Prop} {f : Limits → St → St} {k : Limits → St → Prog α} (hC : ∃ cs, C cs) (h : ∀ env s, (f env s).log = s.log)
    (hk : ∀ env s, Conducts C (k env s)) : Conducts C (act f k) := by
  rintro ls o (⟨rfl, rfl⟩ | ⟨env, s, ls', rfl, hs⟩)
  · obtain ⟨cs, hC⟩ := hC
    exact ⟨cs, hC, .stop _, by simp⟩
  · rw [h, sentSince_self, List.map_nil, List.nil_append]
    exact hk env s _ _ hs
theorem conducts_look : Conducts (· = []) look := conducts_same ⟨_, rfl⟩ (fun _ _ => rfl) fun _ s => conducts_pure s
theorem conducts_change {f : St → St} (h : ∀ s, (f s).log = s.log) : Conducts (· = []) (change f) := conducts_same ⟨_, rfl⟩ (fun _ => h) fun _ _ => conducts_pure ()

theorem conducts_seq {α β : Type} {C1 C2 C : List PyStr → Prop} {p : Prog α} {f : α → Prog β} (h : Conducts C1 p) (hf : ∀ a, Conducts C2 (f a))
    (hne : ∃ cs, C2 cs) (hC : ∀ c1 c2, C1 c1 → C2 c2 → C (c1 ++ c2)) : Conducts C (p >>= f) := by
  intro ls o hs
  rcases spoke_bind hs with ⟨h1, o', h2⟩ | ⟨a, l1, l2, h1, h2, rfl⟩
  · obtain ⟨c1, hc1, hr, -⟩ := h ls o' h2
    obtain ⟨c2, hc2⟩ := hne
    exact ⟨c1 ++ c2, hC c1 c2 hc1 hc2, proceeds_more hr c2, fun a ha => absurd ha (h1 a)⟩
  · obtain ⟨c1, hc1, -, hr1⟩ := h l1 _ h1
    obtain ⟨c2, hc2, hr2, hr3⟩ := hf a l2 o h2
    exact ⟨c1 ++ c2, hC c1 c2 hc1 hc2, proceedsAll_then (hr1 a rfl) hr2, fun b hb => proceedsAll_thenAll (hr1 a rfl) (hr3 b hb)⟩

theorem conducts_mono {α : Type} {C C' : List PyStr → Prop} {p : Prog α} (h : Conducts C p) (hC : ∀ cs, C cs → C' cs) : Conducts C' p :=
  fun ls o hs => (h ls o hs).imp fun cs hcs => ⟨hC cs hcs.1, hcs.2⟩

/-- What comes before says nothing. -/
theorem conducts_after {α β : Type} {C : List PyStr → Prop} {p : Prog α} {f : α → Prog β} (h : Conducts (· = []) p) (hf : ∀ a, Conducts C (f a)) (hne : ∃ cs, C cs) :
    Conducts C (p >>= f) := conducts_seq h hf hne fun c1 c2 h1 h2 => by rw [h1]; exact h2
/-- What comes after says nothing. -/
theorem conducts_before {α β : Type} {C : List PyStr → Prop} {p : Prog α} {f : α → Prog β} (h : Conducts C p) (hf : ∀ a, Conducts (· = []) (f a)) :
    Conducts C (p >>= f) := conducts_seq h hf ⟨_, rfl⟩ fun c1 c2 h1 h2 => by rw [h2, List.append_nil]; exact h1

/-! ### The methods -/

theorem conducts_writeN (data term : PyStr) : ∀ d : Nat, Conducts (· = [data ++ term]) (writeN d data true term)
  | 0 => conducts_raise (C := (· = [data ++ term])) ⟨_, rfl⟩ _
  | d + 1 => by
    rintro ls o (⟨rfl, rfl⟩ | ⟨r, ls', rfl, h⟩)
    · exact ⟨_, rfl, .stop _, by simp⟩
    refine ⟨_, rfl, ?_⟩
    have failed : ∀ {e : PyErr}, Spoke (raise e : Prog (List PyStr)) ls' o → Proceeds [data ++ term] ((data ++ term, some r) :: ls') ∧
        ∀ a, o = some (.ok a) → ProceedsAll [data ++ term] ((data ++ term, some r) :: ls') := by
      rintro e ⟨rfl, ho⟩
      exact ⟨.last (before := []) r (by simp), fun a ha => by rcases ho with rfl | rfl <;> simp at ha⟩
    cases r with
    | timeout x => exact failed h
    | lines xs =>
      dsimp only at h
      cases hx : xs.getLast? with
      | none => rw [hx] at h; exact failed h
      | some line =>
        rw [hx] at h
        dsimp only at h
        rw [if_pos rfl] at h
        cases hc : classify line with
        | fine =>
          rw [hc] at h
          obtain ⟨rfl, -⟩ := h
          have hf := classify_fine.1 hc
          have hy : SaysYes (.lines xs) := ⟨xs, line, rfl, hx, hf.1, hf.2⟩
          exact ⟨.next (before := []) (by simp) hy (.stop _), fun _ _ => .next (before := []) (by simp) hy .nil⟩
        | failed e => rw [hc] at h; exact failed h
        | busy n =>
          rw [hc] at h
          dsimp only at h
          have hb : SaysBusy (.lines xs) := says_busy rfl hx hc
          have hp : Conducts (· = [data ++ term]) (do
              change fun s => { s with writeWait := s.writeWait + 2 }
              let r ← writeN d data true term
              change fun s => { s with writeWait := if n = 515 then 1 else 0 }
              pure r : Prog (List PyStr)) :=
            conducts_after (conducts_change fun _ => rfl) (fun _ => conducts_before (conducts_writeN data term d) fun _ =>
              conducts_after (conducts_change fun _ => rfl) (fun _ => conducts_pure _) ⟨_, rfl⟩) ⟨_, rfl⟩
          obtain ⟨cs, rfl, h1, h2⟩ := hp ls' o h
          exact ⟨proceeds_busy hb h1, fun a ha => proceedsAll_busy hb (h2 a ha)⟩

theorem conducts_write (data : PyStr) (term : PyStr := [13]) : Conducts (· = [data ++ term]) (write data true term) :=
  conducts_same ⟨_, rfl⟩ (fun _ _ => rfl) fun _ _ => conducts_writeN data term _

theorem conducts_sendPdus : ∀ (ps : List Pdu) (x : Option PyStr),
    Conducts (· = ps.flatMap fun p => [py!"AT+CMGS=" ++ decStr p.tpduLength ++ [13], pduHex p.data ++ [26]]) (sendPdus ps x)
  | [], x => conducts_pure x
  | p :: ps, x => by
    unfold sendPdus
    have rest : ∀ ls : List PyStr, Conducts (· = (pduHex p.data ++ [26]) :: ps.flatMap fun p => [py!"AT+CMGS=" ++ decStr p.tpduLength ++ [13], pduHex p.data ++ [26]]) (do
        let ls ← write (pduHex p.data) true [26]
        sendPdus ps (lineStartingWith py!"+CMGS:" ls) : Prog (Option PyStr)) := fun _ =>
      conducts_seq (conducts_write _ _) (fun ls => conducts_sendPdus ps _) ⟨_, rfl⟩ (by rintro _ _ rfl rfl; rfl)
    exact conducts_seq (conducts_write _) rest ⟨_, rfl⟩ (by rintro _ _ rfl rfl; rfl)

theorem conducts_record (destination text : PyStr) (reference : Int) : Conducts (· = []) (recordSent destination text reference) := by
  unfold recordSent
  refine conducts_after (conducts_change fun _ => rfl) (fun _ => conducts_after conducts_look (fun s => ?_) ⟨_, rfl⟩) ⟨_, rfl⟩
  have last : Conducts (· = []) (act (fun _ s => { s with sent := s.sent ++ [⟨destination, text, reference, none⟩], sentSms := dictSet s.sentSms reference s.sent.length, smsTrace := .sent reference :: s.smsTrace })
    fun _ s => pure s.sent.length : Prog Nat) := conducts_same ⟨_, rfl⟩ (fun _ _ => rfl) fun _ _ => conducts_pure _
  split
  · exact conducts_after (conducts_change fun _ => rfl) (fun _ => last) ⟨_, rfl⟩
  · exact last

theorem conducts_send [PyUnicode] (d t : PyStr) (f : Bool) : Conducts (SendingCommands d t f) (sendSms d t f) := by
  have hne : ∃ cs, SendingCommands d t f cs := ⟨_, .text⟩
  unfold sendSms
  refine conducts_before ?_ fun r => ?_
  · unfold sendAll
    refine conducts_after conducts_look (fun s => ?_) hne
    split
    · refine conducts_mono (C := (· = [py!"AT+CMGS=\"" ++ d ++ py!"\"\r", t ++ [26]])) ?_ (by rintro _ rfl; exact .text)
      refine conducts_seq (conducts_write _) (fun _ => conducts_before (conducts_write _ _) fun _ => conducts_pure _) ⟨_, rfl⟩ ?_
      rintro _ _ rfl rfl
      simp [List.append_assoc]
    · refine conducts_after conducts_look (fun s => ?_) hne
      cases he : encodeSmsSubmitPdu d t s.smsRef (sendFlash := f) with
      | error e => exact conducts_raise hne e
      | ok ps => exact conducts_mono (conducts_sendPdus ps none) (by rintro _ rfl; exact .pdus _ he)
  · cases r with
    | none => exact conducts_raise (C := (· = [])) ⟨_, rfl⟩ _
    | some x => exact conducts_after (conducts_ofExcept _) (fun _ => conducts_record d t _) ⟨_, rfl⟩

theorem conducts_memory (m : PyStr) : Conducts (fun cs => cs = [] ∨ cs = [py!"AT+CPMS=\"" ++ m ++ py!"\"\r"]) (setSmsMemory (some m)) := by
  unfold setSmsMemory
  refine conducts_after conducts_look (fun s => ?_) ⟨_, .inl rfl⟩
  split
  · refine conducts_before (conducts_mono (conducts_write _) ?_) fun _ => conducts_change fun _ => rfl
    rintro _ rfl
    exact .inr (by simp [cpmsCmd, List.append_assoc])
  · exact conducts_mono (conducts_pure ()) fun cs h => .inl h

theorem conducts_read (i m : PyStr) :
    Conducts (fun cs => ∃ c0, (c0 = [] ∨ c0 = [py!"AT+CPMS=\"" ++ m ++ py!"\"\r"]) ∧ cs = c0 ++ [py!"AT+CMGR=" ++ i ++ [13]]) (readStoredSms i (some m)) := by
  unfold readStoredSms
  refine conducts_seq (conducts_memory m) (fun _ => conducts_before (conducts_write _) fun _ => conducts_after conducts_look (fun _ => conducts_ofExcept _) ⟨_, rfl⟩) ⟨_, rfl⟩ ?_
  rintro c1 _ h1 rfl
  exact ⟨c1, h1, rfl⟩

theorem conducts_delete (i : PyStr) : Conducts (· = [py!"AT+CMGD=" ++ i ++ py!",0\r"]) (deleteStoredSms i) := by
  unfold deleteStoredSms
  refine conducts_after (conducts_pure ()) (fun _ => conducts_before (conducts_mono (conducts_write _) ?_) fun _ => conducts_pure _) ⟨_, rfl⟩
  rintro _ rfl
  simp [cmgdCmd, List.append_assoc]

theorem conducts_received {l mem idx : PyStr} (hl : StoredAt py!"+CMTI:" l mem idx) : Conducts (FetchCommands mem idx) (handleSmsReceived l) := by
  unfold handleSmsReceived
  have hg : rxGroups cmtiRegex l = some [mem, idx] := by rw [cmti_rx]; exact stored_iff.2 ⟨mem, idx, rfl, hl⟩
  rw [hg]
  exact conducts_seq (conducts_read idx mem) (fun _ => conducts_before (conducts_delete idx) fun _ => conducts_change fun _ => rfl) ⟨_, rfl⟩ fun _ _ => fetch_commands

theorem conducts_choose (m : Option PyStr) : Conducts (MemoryCommands m) (setSmsMemory m) := by
  cases m with
  | none => exact conducts_mono (conducts_pure ()) (by rintro _ rfl; exact .chosen _)
  | some m => exact conducts_mono (conducts_memory m) (by rintro _ (rfl | rfl); exacts [.chosen _, .choose m])

theorem conducts_read_any [PyUnicode] (i : PyStr) (m : Option PyStr) : Conducts (JobCommands (.task (.message (.read i m)))) (readStoredSms i m) := by
  unfold readStoredSms
  refine conducts_seq (conducts_choose m) (fun _ => conducts_before (conducts_write _) fun _ => conducts_after conducts_look (fun _ => conducts_ofExcept _) ⟨_, rfl⟩) ⟨_, rfl⟩ ?_
  rintro c1 _ h1 rfl
  exact .read h1

theorem conducts_delete_any [PyUnicode] (i : PyStr) (m : Option PyStr) : Conducts (JobCommands (.task (.message (.delete i m)))) (deleteStoredSms i m) := by
  unfold deleteStoredSms
  refine conducts_seq (conducts_choose m) (fun _ => conducts_before (conducts_write _) fun _ => conducts_pure _) ⟨_, rfl⟩ ?_
  rintro c1 _ h1 rfl
  have : cmgdCmd i ++ [13] = py!"AT+CMGD=" ++ i ++ py!",0\r" := by simp [cmgdCmd, List.append_assoc]
  rw [this]
  exact .delete h1

theorem conducts_deleteMultiple [PyUnicode] (f : Int) (m : Option PyStr) :
    Conducts (fun cs => ∃ c0, MemoryCommands m c0 ∧ cs = c0 ++ [py!"AT+CMGD=1," ++ intStr f ++ [13]]) (deleteMultipleStoredSms f m) := by
  unfold deleteMultipleStoredSms
  split
  · refine conducts_seq (conducts_choose m) (fun _ => conducts_before (conducts_write _) fun _ => conducts_pure _) ⟨_, rfl⟩ ?_
    rintro c1 _ h1 rfl
    exact ⟨c1, h1, rfl⟩
  · exact conducts_raise ⟨_, _, .chosen _, rfl⟩ _

theorem conducts_deleteAll : ∀ is : List Int, Conducts (· = is.map fun i => py!"AT+CMGD=" ++ intStr i ++ py!",0\r") (deleteAll is)
  | [] => conducts_pure ()
  | i :: is => by
    unfold deleteAll
    exact conducts_seq (conducts_delete _) (fun _ => conducts_deleteAll is) ⟨_, rfl⟩ (by rintro _ _ rfl rfl; rfl)

theorem conducts_clean [PyUnicode] (st : Int) (d : Bool) (l : List Int) : Conducts (CleanCommands st d) (deleteListed st d l) := by
  unfold deleteListed
  cases d with
  | false => exact conducts_mono (conducts_pure ()) (by rintro _ rfl; exact .keep)
  | true =>
    rw [if_pos rfl]
    split
    · next h =>
      refine conducts_mono (conducts_deleteMultiple 4 none) ?_
      rintro _ ⟨_, h1, rfl⟩
      cases h1
      exact .all h
    · next h => exact conducts_same ⟨_, .each [] h⟩ (fun _ _ => rfl) fun env _ => conducts_mono (conducts_deleteAll _) (by rintro _ rfl; exact .each _ h)

theorem conducts_list [PyUnicode] (st : Int) (m : Option PyStr) (d : Bool) : Conducts (JobCommands (.task (.message (.list st m d)))) (listStoredSms st m d) := by
  obtain ⟨cc, hcc⟩ := clean_nonempty st d
  have hne : ∃ cs, ∃ c c1, ListCommand st c ∧ CleanCommands st d c1 ∧ cs = c :: c1 := ⟨_, _, _, .pdu, hcc, rfl⟩
  unfold listStoredSms
  refine conducts_seq (C2 := fun cs => ∃ c c1, ListCommand st c ∧ CleanCommands st d c1 ∧ cs = c :: c1) (conducts_choose m) (fun _ => conducts_after conducts_look (fun s => ?_) hne) hne ?_
  · show Conducts _ ((ofExcept (listCommand s.smsTextMode st)).bind _)
    cases hcmd : listCommand s.smsTextMode st with
    | error e => exact conducts_raise hne e
    | ok c =>
      show Conducts _ (do
        let result ← write c
        let listing ← ofExcept (parseListing s.smsTextMode result)
        deleteListed st d listing.delMessages
        pure listing.messages : Prog (List Msg))
      refine conducts_seq (C2 := CleanCommands st d) (conducts_write c) (fun r => conducts_after (conducts_ofExcept _) (fun l => conducts_before (conducts_clean st d _) fun _ => conducts_pure _) ⟨_, hcc⟩) ⟨_, hcc⟩ ?_
      rintro _ c1 rfl h1
      exact ⟨_, c1, list_command hcmd, h1, rfl⟩
  · rintro c0 _ h0 ⟨c, c1, h1, h2, rfl⟩
    exact .list h0 h1 h2

theorem conducts_mode [PyUnicode] (v : Bool) : Conducts (JobCommands (.task (.message (.setTextMode v)))) (setSmsTextMode v) := by
  unfold setSmsTextMode
  have quiet : ∀ {x : Prog Unit}, Conducts (· = []) x → Conducts (JobCommands (.task (.message (.setTextMode v)))) x := fun h => conducts_mono h (by rintro _ rfl; exact .sameMode)
  have last : Conducts (· = []) (change fun s => { s with smsTextMode := v }) := conducts_change fun _ => rfl
  refine conducts_after conducts_look (fun s => ?_) ⟨_, .sameMode⟩
  split
  · refine conducts_after conducts_look (fun s => ?_) ⟨_, .sameMode⟩
    split
    · exact conducts_before (conducts_mono (conducts_write _) (by rintro _ rfl; exact .mode)) fun _ => last
    · exact quiet last
  · exact quiet (conducts_pure ())

theorem conducts_method [PyUnicode] {x : Method} {cs : List PyStr} (h : JobCommands (.task (.message x)) cs) (hx : ∀ l, x ≠ .statusReport l) :
    Conducts (JobCommands (.task (.message x))) x.prog := by
  cases h with
  | send h => exact conducts_before (conducts_mono (conducts_send _ _ _) fun _ => .send) fun _ => conducts_pure _
  | received hl h => exact conducts_mono (conducts_received hl) fun _ => .received hl
  | report hl h => exact absurd rfl (hx _)
  | read h => exact conducts_before (conducts_read_any _ _) fun _ => conducts_pure _
  | delete h => exact conducts_delete_any _ _
  | deleteMultiple h => exact conducts_mono (conducts_deleteMultiple _ _) (by rintro _ ⟨_, h, rfl⟩; exact .deleteMultiple h)
  | list h => exact conducts_before (conducts_list _ _ _) fun _ => conducts_pure _
  | sameMode => exact conducts_mode _
  | mode => exact conducts_mode _
  | ask => exact conducts_before (conducts_mono (conducts_write _) (by rintro _ rfl; exact .ask)) fun _ => conducts_pure _

end Prog

namespace Proc

/-- The lines that a thread may have sent so far, if the answers are like this, and its result, if it is at its end. -/
def Spoke {α : Type} : Proc α → List (PyStr × Option Reply) → Option (Except PyErr α) → Prop
  | done r, ls, o => ls = [] ∧ (o = none ∨ o = some r)
  | io t k, ls, o => (ls = [] ∧ o = none) ∨ ∃ r ls', ls = (t, some r) :: ls' ∧ Spoke (k r) ls' o
  | act f k, ls, o => (ls = [] ∧ o = none) ∨ ∃ env s ls', ls = ((sentSince s.st.log (f env s).st.log).map fun c => (c, none)) ++ ls' ∧ Spoke (k env s) ls' o

theorem spoke_bind {α β : Type} {p : Proc α} {f : α → Proc β} {ls : List (PyStr × Option Reply)} {o : Option (Except PyErr β)} (h : Spoke (p >>= f) ls o) :
    ((∀ b, o ≠ some (.ok b)) ∧ ∃ o', Spoke p ls o') ∨ ∃ a l1 l2, Spoke p l1 (some (.ok a)) ∧ Spoke (f a) l2 o ∧ ls = l1 ++ l2 := by
  replace h : Spoke (p.bind f) ls o := h
  induction p generalizing ls with
  | done r => cases r with
    | ok a => exact .inr ⟨a, [], ls, ⟨rfl, .inr rfl⟩, h, rfl⟩
    | error e =>
      obtain ⟨rfl, h⟩ := h
      exact .inl ⟨by rcases h with rfl | rfl <;> simp, some (.error e), rfl, .inr rfl⟩
  | io t k ih =>
    rcases h with ⟨rfl, rfl⟩ | ⟨r, ls', rfl, h⟩
    · exact .inl ⟨by simp, none, .inl ⟨rfl, rfl⟩⟩
    · rcases ih r h with ⟨h1, o', h2⟩ | ⟨a, l1, l2, h1, h2, rfl⟩
      · exact .inl ⟨h1, o', .inr ⟨r, ls', rfl, h2⟩⟩
      · exact .inr ⟨a, (t, some r) :: l1, l2, .inr ⟨r, l1, rfl, h1⟩, h2, rfl⟩
  | act g k ih =>
    rcases h with ⟨rfl, rfl⟩ | ⟨env, s, ls', rfl, h⟩
    · exact .inl ⟨by simp, none, .inl ⟨rfl, rfl⟩⟩
    · rcases ih env s h with ⟨h1, o', h2⟩ | ⟨a, l1, l2, h1, h2, rfl⟩
      · exact .inl ⟨h1, o', .inr ⟨env, s, ls', rfl, h2⟩⟩
      · exact .inr ⟨a, ((sentSince s.st.log (g env s).st.log).map fun c => (c, none)) ++ l1, l2, .inr ⟨env, s, l1, rfl, h1⟩, h2, by rw [List.append_assoc]⟩

/-- The thread says the commands of one of these lists, in their order, and all of them if it succeeds. -/
def Conducts {α : Type} (C : List PyStr → Prop) (p : Proc α) : Prop :=
  ∀ ls o, Spoke p ls o → ∃ cs, C cs ∧ Proceeds cs ls ∧ ∀ a, o = some (.ok a) → ProceedsAll cs ls

theorem conducts_pure {α : Type} (a : α) : Conducts (· = []) (pure a : Proc α) := by
  rintro ls o ⟨rfl, -⟩
  exact ⟨[], rfl, .stop _, fun _ _ => .nil⟩
theorem conducts_ofExcept {α : Type} (r : Except PyErr α) : Conducts (· = []) (ofExcept r) := by
  rintro ls o ⟨rfl, -⟩
  exact ⟨[], rfl, .stop _, fun _ _ => .nil⟩
theorem conducts_raise {α : Type} {C : List PyStr → Prop} (hC : ∃ cs, C cs) (e : PyErr) : Conducts C (raise e : Proc α) := by
  rintro ls o ⟨rfl, h⟩
  obtain ⟨cs, hC⟩ := hC
  refine ⟨cs, hC, .stop _, fun a ha => ?_⟩
  rcases h with rfl | rfl <;> simp at ha
theorem conducts_same {α : Type} {C : List PyStr → Prop} {f : Limits → Shared → Shared} {k : Limits → Shared → Proc α} (hC : ∃ cs, C cs) (h : ∀ env s, (f env s).st.log = s.st.log)
    (hk : ∀ env s, Conducts C (k env s)) : Conducts C (act f k) := by
  rintro ls o (⟨rfl, rfl⟩ | ⟨env, s, ls', rfl, hs⟩)
  · obtain ⟨cs, hC⟩ := hC
    exact ⟨cs, hC, .stop _, by simp⟩
  · rw [h, sentSince_self, List.map_nil, List.nil_append]
    exact hk env s _ _ hs
theorem conducts_look : Conducts (· = []) look := conducts_same ⟨_, rfl⟩ (fun _ _ => rfl) fun _ s => conducts_pure s
theorem conducts_change {f : Shared → Shared} (h : ∀ s, (f s).st.log = s.st.log) : Conducts (· = []) (change f) := conducts_same ⟨_, rfl⟩ (fun _ => h) fun _ _ => conducts_pure ()

theorem conducts_seq {α β : Type} {C1 C2 C : List PyStr → Prop} {p : Proc α} {f : α → Proc β} (h : Conducts C1 p) (hf : ∀ a, Conducts C2 (f a))
    (hne : ∃ cs, C2 cs) (hC : ∀ c1 c2, C1 c1 → C2 c2 → C (c1 ++ c2)) : Conducts C (p >>= f) := by
  intro ls o hs
  rcases spoke_bind hs with ⟨h1, o', h2⟩ | ⟨a, l1, l2, h1, h2, rfl⟩
  · obtain ⟨c1, hc1, hr, -⟩ := h ls o' h2
    obtain ⟨c2, hc2⟩ := hne
    exact ⟨c1 ++ c2, hC c1 c2 hc1 hc2, proceeds_more hr c2, fun a ha => absurd ha (h1 a)⟩
  · obtain ⟨c1, hc1, -, hr1⟩ := h l1 _ h1
    obtain ⟨c2, hc2, hr2, hr3⟩ := hf a l2 o h2
    exact ⟨c1 ++ c2, hC c1 c2 hc1 hc2, proceedsAll_then (hr1 a rfl) hr2, fun b hb => proceedsAll_thenAll (hr1 a rfl) (hr3 b hb)⟩

theorem conducts_mono {α : Type} {C C' : List PyStr → Prop} {p : Proc α} (h : Conducts C p) (hC : ∀ cs, C cs → C' cs) : Conducts C' p :=
  fun ls o hs => (h ls o hs).imp fun cs hcs => ⟨hC cs hcs.1, hcs.2⟩

/-- What comes before says nothing. -/
theorem conducts_after {α β : Type} {C : List PyStr → Prop} {p : Proc α} {f : α → Proc β} (h : Conducts (· = []) p) (hf : ∀ a, Conducts C (f a)) (hne : ∃ cs, C cs) :
    Conducts C (p >>= f) := conducts_seq h hf hne fun c1 c2 h1 h2 => by rw [h1]; exact h2
/-- What comes after says nothing. -/
theorem conducts_before {α β : Type} {C : List PyStr → Prop} {p : Proc α} {f : α → Proc β} (h : Conducts C p) (hf : ∀ a, Conducts (· = []) (f a)) :
    Conducts C (p >>= f) := conducts_seq h hf ⟨_, rfl⟩ fun c1 c2 h1 h2 => by rw [h2, List.append_nil]; exact h1

theorem spoke_lift {α : Type} {p : Prog α} {ls : List (PyStr × Option Reply)} {o : Option (Except PyErr α)} (h : Spoke (lift p) ls o) : p.Spoke ls o := by
  induction p generalizing ls with
  | done r => exact h
  | io t k ih =>
    rcases h with h | ⟨r, ls', hl, h⟩
    · exact .inl h
    · exact .inr ⟨r, ls', hl, ih r h⟩
  | act f k ih =>
    rcases h with h | ⟨env, w, ls', hl, h⟩
    · exact .inl h
    · exact .inr ⟨env, w.st, ls', hl, ih env w.st h⟩

theorem conducts_lift {α : Type} {C : List PyStr → Prop} {p : Prog α} (h : p.Conducts C) : Conducts C (lift p) := fun ls o hs => h ls o (spoke_lift hs)

theorem spoke_cut {α : Type} (p : Proc α) : Spoke p [] none := by
  cases p with
  | done r => exact ⟨rfl, .inl rfl⟩
  | io t k => exact .inl ⟨rfl, rfl⟩
  | act f k => exact .inl ⟨rfl, rfl⟩

theorem conducts_eventOf (x : Slot) : Conducts (· = []) (eventOf x) := by
  refine conducts_after conducts_look (fun w => ?_) ⟨_, rfl⟩
  split
  · exact conducts_pure _
  · exact conducts_raise (C := (· = [])) ⟨_, rfl⟩ _
theorem conducts_wait (x : Slot) : Conducts (· = []) (wait x) :=
  conducts_after (conducts_eventOf x) (fun _ => conducts_after conducts_look (fun _ => conducts_pure _) ⟨_, rfl⟩) ⟨_, rfl⟩
theorem conducts_set (x : Slot) : Conducts (· = []) (set x) := by
  refine conducts_after (conducts_eventOf x) (fun e => conducts_change fun w => ?_) ⟨_, rfl⟩
  show (if w.attr x = some e then w.st.withEvent x (some true) else w.st).log = w.st.log
  split
  · exact withEvent_log _ _ _
  · rfl

theorem conducts_report {l mem idx : PyStr} (hl : StoredAt py!"+CDSI:" l mem idx) : Conducts (FetchCommands mem idx) (handleSmsStatusReport l) := by
  unfold handleSmsStatusReport
  have hg : rxGroups cdsiRegex l = some [mem, idx] := by rw [cdsi_rx]; exact stored_iff.2 ⟨mem, idx, rfl, hl⟩
  rw [hg]
  refine conducts_seq (conducts_lift (Prog.conducts_read idx mem)) (fun m => conducts_before (conducts_lift (Prog.conducts_delete idx)) fun _ => ?_) ⟨_, rfl⟩ fun _ _ => Prog.fetch_commands
  cases m with
  | received => exact conducts_raise (C := (· = [])) ⟨_, rfl⟩ _
  | report =>
    refine conducts_after (conducts_lift (Prog.conducts_change fun _ => rfl)) (fun _ => conducts_after conducts_look (fun w => ?_) ⟨_, rfl⟩) ⟨_, rfl⟩
    split
    · exact conducts_set _
    · exact conducts_lift (Prog.conducts_change fun _ => rfl)

theorem conducts_awaitReport (i : Nat) : Conducts (· = []) (awaitReport i) := by
  refine conducts_after (conducts_change fun w => withEvent_log _ _ _) (fun _ => conducts_after (conducts_wait _) (fun ok => ?_) ⟨_, rfl⟩) ⟨_, rfl⟩
  refine conducts_after (conducts_change fun w => withEvent_log _ _ _) (fun _ => ?_) ⟨_, rfl⟩
  split
  · exact conducts_pure _
  · exact conducts_raise (C := (· = [])) ⟨_, rfl⟩ _

/-- The threads that have to do with messages. -/
theorem conducts_job [PyUnicode] {j : Job} {cs : List PyStr} (h : JobCommands j cs) : Conducts (JobCommands j) j.proc := by
  have lifted : ∀ {x : Method}, JobCommands (.task (.message x)) cs → (∀ l, x ≠ .statusReport l) → Conducts (JobCommands (.task (.message x))) (do lift x.prog; pure .nothing : Proc Value) :=
    fun h hx => conducts_before (conducts_lift (Prog.conducts_method h hx)) fun _ => conducts_pure _
  cases h with
  | sendWait h => exact conducts_before (conducts_before (conducts_lift (Prog.conducts_mono (Prog.conducts_send _ _ _) fun _ => .sendWait)) conducts_awaitReport) fun _ => conducts_pure _
  | report hl h => exact conducts_before (conducts_mono (conducts_report hl) fun _ => .report hl) fun _ => conducts_pure _
  | send h => exact lifted (.send h) (by simp)
  | received hl h => exact lifted (.received hl h) (by simp)
  | read h => exact lifted (.read h) (by simp)
  | delete h => exact lifted (.delete h) (by simp)
  | deleteMultiple h => exact lifted (.deleteMultiple h) (by simp)
  | list h1 h2 h3 => exact lifted (.list h1 h2 h3) (by simp)
  | sameMode => exact lifted .sameMode (by simp)
  | mode => exact lifted .mode (by simp)
  | ask => exact lifted .ask (by simp)

end Proc

/-! ### The lines of one thread among those of others -/

/-- Whatever the others do, a thread says what it can say, and gets the answers to it. -/
theorem spoke_own (env : Env) {i : Nat} : ∀ (schedule : List Nat) (threads : List (Proc Value)) (w : Shared) (p : Proc Value), threads[i]? = some p →
    ∃ o, p.Spoke (ownTalk env i schedule (threads, w)) o ∧ ∀ r, (runProcs env schedule (threads, w)).1[i]? = some (.done r) → o = some r
  | [], _, w, p, h => by
    cases p with
    | done r => exact ⟨some r, ⟨rfl, .inr rfl⟩, fun r' hr => by simp only [runProcs, h] at hr; cases hr; rfl⟩
    | io t k => exact ⟨none, .inl ⟨rfl, rfl⟩, fun r' hr => by simp only [runProcs, h] at hr; cases hr⟩
    | act f k => exact ⟨none, .inl ⟨rfl, rfl⟩, fun r' hr => by simp only [runProcs, h] at hr; cases hr⟩
  | j :: is, threads, w, p, h => by
    unfold ownTalk runProcs
    cases hq : threads[j]? with
    | none => exact spoke_own env is threads w p h
    | some q =>
      dsimp only
      by_cases hj : j = i
      · subst hj
        rw [h] at hq
        cases hq
        rw [if_pos rfl]
        have hi : j < threads.length := (List.getElem?_eq_some_iff.1 h).1
        obtain ⟨o, h1, h2⟩ := spoke_own env (i := j) is (threads.set j (p.step env w).1) (p.step env w).2 (p.step env w).1 (by rw [List.getElem?_set]; simp [hi])
        refine ⟨o, ?_, h2⟩
        cases p with
        | done r => exact h1
        | io t k => exact .inr ⟨_, _, rfl, h1⟩
        | act f k => exact .inr ⟨_, _, _, rfl, h1⟩
      · rw [if_neg hj, List.nil_append]
        exact spoke_own env is _ _ p (by rw [List.getElem?_set_ne hj]; exact h)

/-- These are the lines of the thread. -/
theorem ownTalk_lines (env : Env) (i : Nat) : ∀ (schedule : List Nat) (x : List (Proc Value) × Shared), (ownTalk env i schedule x).map Prod.fst = ownLines i (utterances env schedule x)
  | [], _ => rfl
  | j :: is, (threads, w) => by
    unfold ownTalk utterances
    cases hq : threads[j]? with
    | none => exact ownTalk_lines env i is (threads, w)
    | some q =>
      dsimp only
      rw [List.map_append, ownLines_append, ownTalk_lines env i is]
      congr 1
      by_cases hj : j = i
      · subst hj
        rw [if_pos rfl, ownLines_self]
        cases q with
        | done r => exact (sentSince_self _).symm
        | io t k => exact (sentSince_cons _ _).symm
        | act f k =>
          show ((sentSince w.st.log (f env w).st.log).map fun c => (c, none)).map Prod.fst = sentSince w.st.log (f env w).st.log
          rw [List.map_map]
          exact List.map_id _
      · rw [if_neg hj, ownLines_other hj]
        rfl

end Gsm
