import Verif.Lemmas.ThreadsFrame
/-! # The counter of references when all threads have finished -/
namespace Gsm
open M Spec

variable {env : Env}

namespace Prog

/-- The next step sets the counter to zero. -/
def Resets {α : Type} (env : Env) : Prog α → Prop
  | act f _ => ∀ s, (f env s).smsRef = 0
  | _ => False

/-- The next step looks whether the counter is too large, and the step after it resets the counter then. -/
def Checks {α : Type} (env : Env) : Prog α → Prop
  | act f k => ∀ s, (f env s).smsRef = s.smsRef ∧ (255 < s.smsRef → Resets env (k env s))
  | _ => False

/-- Every step keeps the counter, or leaves it small, or the thread is going to check it. -/
def Tidy {α : Type} (env : Env) : Prog α → Prop
  | done _ => True
  | io t k => ∀ s : St, Tidy env (k (env.reply (t :: s.log)))
  | act f k => ∀ s, ((f env s).smsRef = s.smsRef ∨ (f env s).smsRef ≤ 255 ∨ Checks env (k env s)) ∧ Tidy env (k env s)

theorem resets_bind {α β : Type} {p : Prog α} {f : α → Prog β} (h : Resets env p) : Resets env (p >>= f) := by
  cases p <;> first | exact h | exact h.elim

theorem checks_bind {α β : Type} {p : Prog α} {f : α → Prog β} (h : Checks env p) : Checks env (p >>= f) := by
  cases p with
  | act g k => exact fun s => ⟨(h s).1, fun hs => resets_bind ((h s).2 hs)⟩
  | _ => exact h.elim

theorem tidy_bind {α β : Type} {p : Prog α} {f : α → Prog β} (h : Tidy env p) (hf : ∀ a, Tidy env (f a)) : Tidy env (p >>= f) := by
  show Tidy env (p.bind f)
  induction p with
  | done r =>
    cases r with
    | ok a => exact hf a
    | error e => trivial
  | io t k ih => exact fun s => ih _ (h s)
  | act g k ih => exact fun s => ⟨(h s).1.imp_right (Or.imp_right checks_bind), ih _ _ (h s).2⟩

theorem tidy_of_keeps {α : Type} {Q : α → Prop} {p : Prog α} (h : Keeps env (fun _ => True) (fun a b => b.smsRef = a.smsRef) Q p) : Tidy env p := by
  induction p with
  | done r => trivial
  | io t k ih => exact fun s => ih _ (h s trivial).2
  | act g k ih => exact fun s => ⟨.inl (h s trivial).1, ih _ _ (h s trivial).2⟩

theorem writes_counter : Writes (fun _ => True) (fun a b => b.smsRef = a.smsRef) fun _ => True := ⟨fun _ _ => rfl, fun _ _ _ => rfl, fun _ _ _ _ => rfl⟩

/-- Only recording a sent message changes the counter. -/
theorem stable_counter : Stable env (fun _ => True) (fun a b => b.smsRef = a.smsRef) (fun _ => True) (fun _ => True) False where
  writes := writes_counter
  memory m _ := keeps_select writes_counter trivial fun s _ => rfl
  read _ := trivial
  delete _ := trivial
  deleteMultiple _ := trivial
  list _ := trivial
  prompt _ := trivial
  text _ := trivial
  mode _ := trivial
  callback s c _ := rfl
  told s _ := rfl
  report s st r n t1 t2 d _ := rfl
  record h := h.elim
  textMode s v _ := rfl

theorem tidy_record (d t : PyStr) (r : Int) : Tidy env (recordSent d t r) := by
  have fin : Tidy env (act (fun _ s => { s with sent := s.sent ++ [⟨d, t, r, none⟩], sentSms := dictSet s.sentSms r s.sent.length, smsTrace := .sent r :: s.smsTrace })
        fun _ s => (pure s.sent.length : Prog Nat)) := fun s => ⟨.inl rfl, trivial⟩
  intro s
  refine ⟨.inr (.inr fun s1 => ⟨rfl, fun h => ?_⟩), fun s1 => ⟨.inl rfl, ?_⟩⟩
  · show Resets env (if s1.smsRef > 255 then _ else _)
    rw [if_pos h]
    exact fun _ => rfl
  · show Tidy env (if s1.smsRef > 255 then _ else _)
    split
    · exact fun s2 => ⟨.inr (.inl (by show (0 : Int) ≤ 255; decide)), fin⟩
    · exact fin

end Prog

open Prog

theorem tidy_method [PyUnicode] (x : Method) : Tidy env x.prog := by
  cases x with
  | send d t f =>
    refine tidy_bind (tidy_bind (tidy_of_keeps (keeps_sendAll stable_counter d t f)) fun r => ?_) fun _ => trivial
    cases r with
    | none => trivial
    | some l => exact tidy_bind (tidy_of_keeps (keeps_ofExcept _)) fun r => tidy_record d t r
  | _ => exact tidy_of_keeps (keeps_method stable_counter (by simp [Method.Uses]))

theorem tidy_step {p : Prog Unit} {s : St} (h : Tidy env p) : Tidy env (p.step env s).1 := by
  cases p with
  | done r => trivial
  | io t k => exact h s
  | act f k => exact (h s).2

/-- Some thread is going to take care of a counter that is too large. -/
def Cared (env : Env) (threads : List (Prog Unit)) (s : St) : Prop := 255 < s.smsRef → ∃ p ∈ threads, Checks env p ∨ Resets env p

theorem cared_step {threads : List (Prog Unit)} {s : St} {i : Nat} {p : Prog Unit} (ht : ∀ p ∈ threads, Tidy env p) (h : Cared env threads s) (hp : threads[i]? = some p) :
    Cared env (threads.set i (p.step env s).1) (p.step env s).2 := by
  intro hbig
  obtain ⟨hlen, hget⟩ := List.getElem?_eq_some_iff.1 hp
  have hmem : (p.step env s).1 ∈ threads.set i (p.step env s).1 := List.mem_of_getElem (i := i) (h := by simpa using hlen) (by simp)
  have hold : (p.step env s).2.smsRef = s.smsRef → (Checks env p ∨ Resets env p → Checks env (p.step env s).1 ∨ Resets env (p.step env s).1) →
      ∃ q ∈ threads.set i (p.step env s).1, Checks env q ∨ Resets env q := by
    intro hs hnew
    obtain ⟨q, hq, hc⟩ := h (hs ▸ hbig)
    obtain ⟨j, hj, rfl⟩ := List.mem_iff_getElem.1 hq
    by_cases hij : i = j
    · subst hij
      rw [hget] at hc
      exact ⟨_, hmem, hnew hc⟩
    · exact ⟨threads[j], List.mem_of_getElem (i := j) (h := by simpa using hj) (by simp [hij]), hc⟩
  cases p with
  | done r => exact hold rfl id
  | io t k => exact hold rfl fun h => h.elim False.elim False.elim
  | act f k =>
    have hT := (ht _ (List.mem_of_getElem? hp) s).1
    by_cases hr : ∀ s, (f env s).smsRef = 0
    · have := hr s
      have hb : 255 < (f env s).smsRef := hbig
      omega
    rcases hT with h1 | h1 | h1
    · refine hold h1 fun hc => .inr ?_
      rcases hc with hc | hc
      · exact (hc s).2 (by rw [← h1]; exact hbig)
      · exact absurd hc hr
    · exact absurd hbig (by show ¬ 255 < (f env s).smsRef; omega)
    · exact ⟨_, hmem, .inl h1⟩

theorem cared_threads : ∀ (schedule : List Nat) (threads : List (Prog Unit)) (s : St), (∀ p ∈ threads, Tidy env p) → Cared env threads s →
    Cared env (runThreads env schedule (threads, s)).1 (runThreads env schedule (threads, s)).2
  | [], _, _, _, h => h
  | i :: is, threads, s, ht, h => by
    unfold runThreads
    cases hp : threads[i]? with
    | none => exact cared_threads is threads s ht h
    | some p =>
      refine cared_threads is _ _ (fun q hq => ?_) (cared_step ht h hp)
      rcases List.mem_or_eq_of_mem_set hq with hq | rfl
      · exact ht q hq
      · exact tidy_step (ht p (List.mem_of_getElem? hp))

end Gsm
