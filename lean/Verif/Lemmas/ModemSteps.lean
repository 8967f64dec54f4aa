import Verif.Model.ModemCalls
import Verif.Props.ModemWrite
import Verif.Spec.ModemLog
/-! # Reasoning about programs

`Steps env R m`: running `m` leads from any state to one related by `R`, whatever the outcome. -/
namespace Gsm
open M

/-- A relation that can be composed along a program. -/
structure IsPre (R : St → St → Prop) : Prop where
  refl : ∀ s, R s s
  trans : ∀ {a b c}, R a b → R b c → R a c

structure Steps {α : Type} (env : Env) (R : St → St → Prop) (m : M α) : Prop where
  run : ∀ s, R s (m env s).2

variable {env : Env} {R : St → St → Prop} {α β : Type}

theorem Steps.pure (hR : IsPre R) (a : α) : Steps env R (pure a : M α) := ⟨fun s => hR.refl s⟩
theorem Steps.get (hR : IsPre R) : Steps env R M.get := ⟨fun s => hR.refl s⟩
theorem Steps.raise (hR : IsPre R) (e : PyErr) : Steps env R (M.raise e : M α) := ⟨fun s => hR.refl s⟩
theorem Steps.ofExcept (hR : IsPre R) (e : Except PyErr α) : Steps env R (M.ofExcept e) := by
  cases e with
  | ok a => exact Steps.pure hR a
  | error e => exact Steps.raise hR e
theorem Steps.modify {f : St → St} (h : ∀ s, R s (f s)) : Steps env R (M.modify f) := ⟨h⟩
theorem Steps.bind (hR : IsPre R) {m : M α} {f : α → M β} (hm : Steps env R m) (hf : ∀ a, Steps env R (f a)) :
    Steps env R (m >>= f) := by
  refine ⟨fun s => ?_⟩
  have h1 := hm.run s
  show R s (match m env s with | (.ok a, s) => f a env s | (.error e, s) => (.error e, s)).2
  split
  · next a s' he => rw [he] at h1; exact hR.trans h1 ((hf a).run s')
  · next e s' he => rw [he] at h1; exact h1
theorem Steps.except (hR : IsPre R) {m : M α} {p : PyErr → Bool} {h : PyErr → M α} (hm : Steps env R m)
    (hh : ∀ e, p e = true → Steps env R (h e)) : Steps env R (M.except m p h) := by
  refine ⟨fun s => ?_⟩
  have h1 := hm.run s
  unfold M.except
  split
  · next a s' he => rw [he] at h1; exact h1
  · next e s' he =>
    rw [he] at h1
    split
    · next hp => exact hR.trans h1 ((hh e hp).run s')
    · exact h1
theorem Steps.tryCommand (hR : IsPre R) {m : M α} (hm : Steps env R m) : Steps env R (M.tryCommand m) :=
  Steps.except hR (Steps.bind hR hm (fun _ => Steps.pure hR _)) (fun _ _ => Steps.pure hR _)
theorem Steps.ite {c : Prop} [Decidable c] {a b : M α} (ha : c → Steps env R a) (hb : ¬ c → Steps env R b) :
    Steps env R (if c then a else b) := by
  split
  · next h => exact ha h
  · next h => exact hb h
/-- A program that starts by looking at the state. -/
theorem Steps.get_bind {f : St → M β} (h : ∀ s, R s (f s env s).2) : Steps env R (M.get >>= f) := ⟨h⟩

theorem Steps.ofExcept_bind (hR : IsPre R) {e : Except PyErr α} {f : α → M β} (h : ∀ a, e = .ok a → Steps env R (f a)) :
    Steps env R (M.ofExcept e >>= f) := by
  cases e with
  | ok a => exact ⟨fun s => (h a rfl).run s⟩
  | error e => exact ⟨fun s => hR.refl s⟩

/-- The state after `write`. -/
theorem writeN_state {data term : PyStr} {pe : Bool} {env : Env} : ∀ (depth : Nat) (s : St),
    ∃ k w, (writeN depth data pe term env s).2 = { s with log := List.replicate k (data ++ term) ++ s.log, writeWait := w }
  | 0, s => ⟨0, s.writeWait, by simp [writeN, M.raise]⟩
  | depth + 1, s => by
    simp only [writeN]
    split
    · exact ⟨1, s.writeWait, by simp⟩
    · split
      · exact ⟨1, s.writeWait, by simp⟩
      · split
        · split
          · exact ⟨1, s.writeWait, by simp⟩
          · exact ⟨1, s.writeWait, by simp⟩
          · rename_i code _
            obtain ⟨k, w, h3⟩ := writeN_state (data := data) (term := term) (pe := pe) (env := env) depth
              { s with log := (data ++ term) :: s.log, writeWait := s.writeWait + 2 }
            have hrep : List.replicate k (data ++ term) ++ (data ++ term) :: s.log = List.replicate (k + 1) (data ++ term) ++ s.log := by
              rw [List.replicate_succ' (n := k)]; simp
            simp only [hrep] at h3
            split
            · next he => rw [he] at h3; subst h3; exact ⟨k + 1, _, rfl⟩
            · next he => rw [he] at h3; subst h3; exact ⟨k + 1, _, rfl⟩
        · exact ⟨1, s.writeWait, by simp⟩

theorem Steps.write {data term : PyStr} {pe : Bool}
    (h : ∀ s k w, R s { s with log := List.replicate k (data ++ term) ++ s.log, writeWait := w }) : Steps env R (write data pe term) := by
  refine ⟨fun s => ?_⟩
  obtain ⟨k, w, he⟩ := writeN_state (data := data) (term := term) (pe := pe) (env := env) env.depth s
  show R s (writeN env.depth data pe term env s).2
  rw [he]
  exact h s k w

theorem Steps.mono {R' : St → St → Prop} {m : M α} (h : Steps env R m) (hR : ∀ s s', R s s' → R' s s') : Steps env R' m :=
  ⟨fun s => hR _ _ (h.run s)⟩

theorem Steps.firstLine (hR : IsPre R) (ls : List PyStr) : Steps env R (firstLine ls) := Steps.ofExcept hR _

/-! ### What `write` does, in terms of the answers of the modem -/

open Spec in
/-- The command was written `k` times, all but the last time answered with busy. -/
def WriteOutcome (env : Env) (cmd : PyStr) (s : St) (r : Except PyErr (List PyStr)) (s' : St) : Prop :=
  ∃ k w, s' = { s with log := List.replicate k cmd ++ s.log, writeWait := w } ∧
    (∀ i, i + 1 < k → AnsweredBusy env.reply (List.replicate (i + 1) cmd ++ s.log)) ∧
    ((∃ ls, r = .ok ls ∧ 0 < k ∧ env.reply (List.replicate k cmd ++ s.log) = .lines ls ∧ Accepted env.reply (List.replicate k cmd ++ s.log)) ∨
     (∃ d, r = .error (.timeout d) ∧ 0 < k ∧ env.reply (List.replicate k cmd ++ s.log) = .timeout d) ∨
     (∃ e, r = .error e ∧ (∀ d, e ≠ .timeout d) ∧ (0 < k → ¬ Accepted env.reply (List.replicate k cmd ++ s.log))))

open Spec in
theorem busy_of_classify {line : PyStr} {n : Int} (h : classify line = .busy n) : ∃ m : Nat, n = m ∧ Busy m line := by
  by_cases hc : ∃ ty ds, IsCmError ty ds line
  · obtain ⟨ty, ds, hc⟩ := hc
    have h1 := classify_cm hc
    rw [h] at h1
    split at h1
    · next hd => exact ⟨decVal ds, by simpa using h1, hd, ty, ds, hc, rfl⟩
    · cases h1
  · by_cases he : py!"ERROR" <:+: line
    · rw [classify_plain he (fun ty ds hx => hc ⟨ty, ds, hx⟩)] at h; cases h
    · by_cases hn : line = py!"COMMAND NOT SUPPORT"
      · subst hn
        have : classify py!"COMMAND NOT SUPPORT" = .failed (.command .command none) := by decide
        rw [this] at h; cases h
      · rw [classify_fine.2 ⟨he, hn⟩] at h; cases h

open Spec in
theorem failed_of_classify {line : PyStr} {e : PyErr} (h : classify line = .failed e) : (∀ d, e ≠ .timeout d) ∧ classify line ≠ .fine := by
  refine ⟨fun d hd => ?_, by rw [h]; simp⟩
  subst hd
  by_cases hc : ∃ ty ds, IsCmError ty ds line
  · obtain ⟨ty, ds, hc⟩ := hc
    rw [classify_cm hc] at h
    split at h
    · cases h
    · unfold errorFor at h
      split at h <;> simp at h
  · by_cases he : py!"ERROR" <:+: line
    · rw [classify_plain he (fun ty ds hx => hc ⟨ty, ds, hx⟩)] at h; simp at h
    · by_cases hn : line = py!"COMMAND NOT SUPPORT"
      · subst hn
        have : classify py!"COMMAND NOT SUPPORT" = .failed (.command .command none) := by decide
        rw [this] at h; simp at h
      · rw [classify_fine.2 ⟨he, hn⟩] at h; cases h

open Spec in
theorem writeN_outcome {data term : PyStr} {env : Env} (depth : Nat) (s : St) :
    WriteOutcome env (data ++ term) s (writeN depth data true term env s).1 (writeN depth data true term env s).2 := by
  induction depth generalizing s with
  | zero => exact ⟨0, s.writeWait, by simp [writeN, M.raise], by simp, .inr (.inr ⟨.recursionError, rfl, by simp, by simp⟩)⟩
  | succ depth ih =>
    simp only [writeN]
    split
    · next d hr => exact ⟨1, s.writeWait, by simp, by omega, .inr (.inl ⟨d, rfl, by omega, by simpa using hr⟩)⟩
    · next ls hr =>
      split
      · next hl =>
        refine ⟨1, s.writeWait, by simp, by omega, .inr (.inr ⟨_, rfl, by simp, ?_⟩)⟩
        rintro _ ⟨ls', line, h1, h2, _⟩
        simp [hr] at h1
        subst h1
        rw [hl] at h2; cases h2
      · next line hl =>
        simp only [if_true]
        split
        · next hc =>
          have := classify_fine.1 hc
          exact ⟨1, s.writeWait, by simp, by omega, .inl ⟨ls, rfl, by omega, by simpa using hr, ls, line, by simpa using hr, hl, this.1, this.2⟩⟩
        · next e hc =>
          refine ⟨1, s.writeWait, by simp, by omega, .inr (.inr ⟨_, rfl, (failed_of_classify hc).1, ?_⟩)⟩
          rintro _ ⟨ls', line', h1, h2, h3, h4⟩
          simp [hr] at h1
          subst h1
          rw [hl] at h2; cases h2
          exact (failed_of_classify hc).2 (classify_fine.2 ⟨h3, h4⟩)
        · next code hc =>
          obtain ⟨n, _, hb⟩ := busy_of_classify hc
          obtain ⟨k, w, hs, hbusy, hout⟩ := ih { s with log := (data ++ term) :: s.log, writeWait := s.writeWait + 2 }
          have hrep : ∀ k, List.replicate k (data ++ term) ++ (data ++ term) :: s.log = List.replicate (k + 1) (data ++ term) ++ s.log := by
            intro k; rw [List.replicate_succ' (n := k)]; simp
          simp only [hrep] at hs hbusy hout
          have hb1 : AnsweredBusy env.reply (List.replicate 1 (data ++ term) ++ s.log) := ⟨n, ls, line, by simpa using hr, hl, hb⟩
          have hbusy' : ∀ i, i + 1 < k + 1 → AnsweredBusy env.reply (List.replicate (i + 1) (data ++ term) ++ s.log) := by
            intro i hi
            cases i with
            | zero => exact hb1
            | succ i => exact hbusy i (by omega)
          split
          · next r s' he =>
            rw [he] at hs hout
            dsimp only at hs hout
            subst hs
            refine ⟨k + 1, _, rfl, hbusy', ?_⟩
            rcases hout with ⟨ls, h1, h2, h3, h4⟩ | ⟨d, h1, _⟩ | ⟨e, h1, _⟩
            · exact .inl ⟨ls, h1, by omega, h3, h4⟩
            · cases h1
            · cases h1
          · next e s' he =>
            rw [he] at hs hout
            dsimp only at hs hout
            subst hs
            refine ⟨k + 1, w, rfl, hbusy', ?_⟩
            rcases hout with ⟨ls, h1, _⟩ | ⟨d, h1, h2, h3⟩ | ⟨e', h1, h2, h3⟩
            · cases h1
            · exact .inr (.inl ⟨d, h1, by omega, h3⟩)
            · refine .inr (.inr ⟨e', h1, h2, fun _ => ?_⟩)
              by_cases hk : 0 < k
              · exact h3 hk
              · obtain rfl : k = 0 := by omega
                rintro ⟨ls', line', h4, h5, h6, h7⟩
                simp [hr] at h4
                subst h4
                rw [hl] at h5; cases h5
                rw [classify_fine.2 ⟨h6, h7⟩] at hc; cases hc

theorem write_outcome {data term : PyStr} {env : Env} (s : St) :
    WriteOutcome env (data ++ term) s (write data true term env s).1 (write data true term env s).2 := writeN_outcome _ s

open Spec in
theorem busy_not_accepted {reply : List PyStr → Reply} {log : List PyStr} (h : AnsweredBusy reply log) : ¬ Accepted reply log := by
  rintro ⟨ls', line', h4, h5, h6, h7⟩
  obtain ⟨n, ls, line, h1, h2, h3⟩ := h
  rw [h1] at h4; cases h4
  rw [h2] at h5; cases h5
  have := busy_classify h3
  rw [classify_fine.2 ⟨h6, h7⟩] at this; cases this

open Spec in
/-- A successful write is the last accepted command of its kind. -/
theorem write_ok_last {P : PyStr → Prop} {data term : PyStr} {env : Env} {s s' : St} {ls : List PyStr}
    (h : write data true term env s = (.ok ls, s')) (hP : P (data ++ term)) : LastAccepted env.reply P s'.log (data ++ term) := by
  obtain ⟨k, w, hs, _, hout⟩ := write_outcome (data := data) (term := term) (env := env) s
  rw [h] at hs hout
  rcases hout with ⟨ls, _, h2, h3, h4⟩ | ⟨d, h1, _⟩ | ⟨e, h1, _⟩
  · dsimp only at hs
    subst hs
    obtain ⟨k, rfl⟩ : ∃ j, k = j + 1 := ⟨k - 1, by omega⟩
    exact .here hP h4
  · cases h1
  · cases h1

open Spec in
/-- A write that fails changes nothing in what was accepted last. -/
theorem write_error_last {P : PyStr → Prop} {data term : PyStr} {env : Env} {s s' : St} {e : PyErr} {d : PyStr}
    (h : write data true term env s = (.error e, s')) (hl : LastAccepted env.reply P s.log d) : LastAccepted env.reply P s'.log d := by
  obtain ⟨k, w, hs, hbusy, hout⟩ := write_outcome (data := data) (term := term) (env := env) s
  rw [h] at hs hout
  dsimp only at hs
  subst hs
  have hlast : 0 < k → ¬ Accepted env.reply (List.replicate k (data ++ term) ++ s.log) := by
    intro hk
    rcases hout with ⟨ls, h1, _⟩ | ⟨d, _, _, h3⟩ | ⟨_, _, _, h3⟩
    · cases h1
    · rintro ⟨ls, line, h4, _⟩; rw [h3] at h4; cases h4
    · exact h3 hk
  have : ∀ j, j ≤ k → LastAccepted env.reply P (List.replicate j (data ++ term) ++ s.log) d := by
    intro j
    induction j with
    | zero => intro _; simpa using hl
    | succ j ih =>
      intro hj
      refine .there ?_ (ih (by omega))
      rintro ⟨_, ha⟩
      by_cases hjk : j + 1 = k
      · subst hjk; exact hlast (by omega) ha
      · exact busy_not_accepted (hbusy j (by omega)) ha
  exact this k (Nat.le_refl k)

open Spec in
theorem last_replicate {reply : List PyStr → Reply} {P : PyStr → Prop} {log : List PyStr} {c d : PyStr} (hc : ¬ P c)
    (h : LastAccepted reply P log d) : ∀ k, LastAccepted reply P (List.replicate k c ++ log) d
  | 0 => by simpa using h
  | k + 1 => .there (fun h => hc h.1) (last_replicate hc h k)

open Spec in
theorem last_append {reply : List PyStr → Reply} {P : PyStr → Prop} {log : List PyStr} {d : PyStr} 
    (h : LastAccepted reply P log d) : ∀ {new : List PyStr}, (∀ c ∈ new, ¬ P c) → LastAccepted reply P (new ++ log) d
  | [], _ => h
  | c :: new, hc => .there (fun h => hc c (by simp) h.1) (last_append h (fun c hx => hc c (by simp [hx])))

open Spec in
theorem last_unique {reply : List PyStr → Reply} {P : PyStr → Prop} {log : List PyStr} {c d : PyStr}
    (h : LastAccepted reply P log c) (h' : LastAccepted reply P log d) : c = d := by
  induction h with
  | here h1 h2 =>
    cases h' with
    | here _ _ => rfl
    | there h3 _ => exact absurd ⟨h1, h2⟩ h3
  | there h1 _ ih =>
    cases h' with
    | here h2 h3 => exact absurd ⟨h2, h3⟩ h1
    | there _ h2 => exact ih h2

end Gsm
