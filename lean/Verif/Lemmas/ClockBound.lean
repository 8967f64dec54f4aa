import Verif.Lemmas.Clock
import Verif.Props.ModemWrite
/-! # Bounds of the time that methods take -/
namespace Gsm
open Spec

theorem busy_iff {reply : List PyStr → Reply} {log : List PyStr} :
    AnsweredBusy reply log ↔ ∃ ls line code, reply log = .lines ls ∧ ls.getLast? = some line ∧ classify line = .busy code := by
  constructor
  · rintro ⟨n, ls, line, h1, h2, h3⟩
    exact ⟨ls, line, n, h1, h2, busy_classify h3⟩
  · rintro ⟨ls, line, code, h1, h2, h3⟩
    obtain ⟨m, -, hb⟩ := busy_of_classify h3
    exact ⟨m, ls, line, h1, h2, hb⟩

/-- Whether an answer says that the modem is busy. -/
def busyReply (r : Reply) : Prop := ∃ ls line code, r = .lines ls ∧ ls.getLast? = some line ∧ classify line = .busy code

namespace Prog
variable {env : Env} {wait : List PyStr → Nat} {α β : Type}

theorem timeout_not_busy (d : Option (List PyStr)) : ¬ busyReply (.timeout d) := by rintro ⟨_, _, _, h, _⟩; cases h

/-! ### A modem that is never busy -/

/-- As long as the modem is not busy, commands are sent only to wait for the answer, and the delay stays. -/
def Calm {α : Type} : Prog α → Prop
  | done _ => True
  | io _ k => ∀ r, ¬ busyReply r → Calm (k r)
  | act f k => ∀ env s, ((f env s).log = s.log ∧ (f env s).writeWait = s.writeWait) ∧ Calm (k env s)

theorem calm_bind {p : Prog α} {f : α → Prog β} (hp : Calm p) (hf : ∀ a, Calm (f a)) : Calm (p >>= f) := by
  show Calm (p.bind f)
  induction p with
  | done r =>
    cases r with
    | ok a => exact hf a
    | error e => trivial
  | io t k ih => exact fun r hr => ih r (hp r hr)
  | act g k ih => exact fun env s => ⟨(hp env s).1, ih env s (hp env s).2⟩

theorem calm_except {p : Prog α} {c : PyErr → Bool} {h : PyErr → Prog α} (hp : Calm p) (hh : ∀ e, Calm (h e)) : Calm (except p c h) := by
  induction p with
  | done r =>
    cases r with
    | ok a => trivial
    | error e =>
      simp only [except]
      split
      · exact hh e
      · trivial
  | io t k ih => exact fun r hr => ih r (hp r hr)
  | act g k ih => exact fun env s => ⟨(hp env s).1, ih env s (hp env s).2⟩

theorem calm_writeN : ∀ (depth : Nat) (data : PyStr) (pe : Bool) (term : PyStr), Calm (writeN depth data pe term)
  | 0, _, _, _ => trivial
  | depth + 1, data, pe, term => by
    intro r hr
    cases r with
    | timeout d => trivial
    | lines ls =>
      dsimp only
      split
      · trivial
      · next line hl =>
        split
        · split
          · trivial
          · trivial
          · next code hc => exact absurd ⟨ls, line, code, rfl, hl, hc⟩ hr
        · trivial

theorem calm : Closed @Calm True where
  done _ := trivial
  act _ _ h hk := fun env s => ⟨⟨(h env s).1, (h env s).2.1⟩, hk env s⟩
  bind := calm_bind
  write data pe term := fun env _ => ⟨⟨rfl, rfl⟩, calm_writeN _ data pe term⟩
  mode _ _ := fun _ _ => ⟨⟨rfl, rfl⟩, trivial⟩
  except _ hp hh := calm_except hp hh

theorem calm_clcc : Calm clccQuery := by
  unfold clccQuery
  refine calm_except (calm_bind (calm.write _ _ _) fun ls => calm_bind (walk_ofExcept calm _) fun l => ?_) fun _ => walk_pure calm _
  split
  · exact calm_bind (walk_ofExcept calm _) fun _ => calm_bind (walk_ofExcept calm _) fun _ => calm_bind (walk_ofExcept calm _) fun _ => calm_bind (walk_ofExcept calm _) fun _ => walk_pure calm _
  · exact walk_pure calm _

theorem calm_task [PyUnicode] (t : Task) (h : waitsAlways t = true) : Calm t.prog := by
  refine walk_task calm t (fun _ => trivial) (fun _ => calm_clcc) ?_
  rintro ⟨n, c, rfl⟩
  cases h

theorem waited_zero (log : List PyStr) : waitedFor wait 0 log = 0 := by cases log <;> rfl
theorem answered_zero {reply : List PyStr → Reply} (log : List PyStr) : answeredAmong reply 0 log = 0 := by cases log <;> rfl

/-- The newest commands are those after the first and the first. -/
theorem waited_append : ∀ (new old : List PyStr) (c : PyStr),
    waitedFor wait (new.length + 1) (new ++ c :: old) = waitedFor wait new.length (new ++ c :: old) + wait (c :: old)
  | [], old, c => by simp [waitedFor, waited_zero]
  | d :: new, old, c => by
    simp only [List.length_cons, List.cons_append, waitedFor]
    rw [waited_append new old c]
    omega
theorem answered_append {reply : List PyStr → Reply} : ∀ (new old : List PyStr) (c : PyStr),
    answeredAmong reply (new.length + 1) (new ++ c :: old) = answeredAmong reply new.length (new ++ c :: old) + isAnswer (reply (c :: old))
  | [], old, c => by simp only [List.length_nil, Nat.zero_add, List.nil_append, answeredAmong, answered_zero]; omega
  | d :: new, old, c => by
    simp only [List.length_cons, List.cons_append, answeredAmong]
    rw [answered_append new old c]
    omega

theorem elapsed_calm (hb : NeverBusy env.reply) (p : Prog α) (hp : Calm p) (s : St) :
    ∃ new, (run env p s).2.log = new ++ s.log ∧ (run env p s).2.writeWait = s.writeWait ∧
      elapsed env wait p s = waitedFor wait new.length (run env p s).2.log + 100 * s.writeWait * answeredAmong env.reply new.length (run env p s).2.log := by
  induction p generalizing s with
  | done r => exact ⟨[], rfl, rfl, by simp [elapsed, waited_zero, answered_zero]⟩
  | io t k ih =>
    have hn : ¬ busyReply (env.reply (t :: s.log)) := fun h => hb _ (busy_iff.mpr h)
    obtain ⟨new, h1, h2, h3⟩ := ih (env.reply (t :: s.log)) (hp _ hn) { s with log := t :: s.log }
    refine ⟨new ++ [t], by simp only [run]; rw [h1]; simp, h2, ?_⟩
    simp only [run, elapsed]
    rw [h3, h1]
    simp only [List.length_append, List.length_cons, List.length_nil, Nat.zero_add]
    rw [waited_append, answered_append, Nat.mul_add]
    generalize 100 * s.writeWait * answeredAmong env.reply new.length (new ++ t :: s.log) = x
    cases env.reply (t :: s.log) with
    | lines ls => simp only [pauseAfter, isAnswer, nap_eq]; omega
    | timeout d => simp only [pauseAfter, isAnswer]; omega
  | act f k ih =>
    obtain ⟨⟨hl, hw⟩, hk⟩ := hp env s
    obtain ⟨new, h1, h2, h3⟩ := ih env s hk (f env s)
    refine ⟨new, by simp only [run]; rw [h1, hl], by simp only [run]; rw [h2, hw], ?_⟩
    simp only [run, elapsed, actTime]
    rw [h3, hl, hw, if_neg (by omega), if_neg (by omega)]
    omega

/-! ### A modem that is sometimes busy -/

/-- The delay grows by two after a busy answer only, and at most one command is sent at a time. -/
def Tame {α : Type} : Prop → Prog α → Prop
  | _, done _ => True
  | _, io _ k => ∀ r, Tame (busyReply r) (k r)
  | c, act f k => ∀ env s,
    (f env s).writeWait ≤ max s.writeWait 1 + 2 ∧ (¬ c → (f env s).writeWait ≤ max s.writeWait 1) ∧
      ((f env s).log = s.log ∨ ∃ x, (f env s).log = x :: s.log) ∧ Tame False (k env s)

theorem Tame.mono {c d : Prop} (h : c → d) {p : Prog α} (hp : Tame c p) : Tame d p := by
  cases p with
  | done r => trivial
  | io t k => exact hp
  | act f k => exact fun env s => ⟨(hp env s).1, fun hd => (hp env s).2.1 fun hc => hd (h hc), (hp env s).2.2⟩

theorem tame_bind {c : Prop} {p : Prog α} {f : α → Prog β} (hp : Tame c p) (hf : ∀ a, Tame False (f a)) : Tame c (p >>= f) := by
  show Tame c (p.bind f)
  induction p generalizing c with
  | done r =>
    cases r with
    | ok a => exact (hf a).mono False.elim
    | error e => trivial
  | io t k ih => exact fun r => ih r (hp r)
  | act g k ih => exact fun env s => ⟨(hp env s).1, (hp env s).2.1, (hp env s).2.2.1, ih env s (hp env s).2.2.2⟩

theorem tame_except {c : Prop} {p : Prog α} {g : PyErr → Bool} {h : PyErr → Prog α} (hp : Tame c p) (hh : ∀ e, Tame False (h e)) : Tame c (except p g h) := by
  induction p generalizing c with
  | done r =>
    cases r with
    | ok a => trivial
    | error e =>
      simp only [except]
      split
      · exact (hh e).mono False.elim
      · trivial
  | io t k ih => exact fun r => ih r (hp r)
  | act g k ih => exact fun env s => ⟨(hp env s).1, (hp env s).2.1, (hp env s).2.2.1, ih env s (hp env s).2.2.2⟩

theorem tame_writeN : ∀ (depth : Nat) (data : PyStr) (pe : Bool) (term : PyStr), Tame False (writeN depth data pe term)
  | 0, _, _, _ => trivial
  | depth + 1, data, pe, term => by
    intro r
    cases r with
    | timeout d => trivial
    | lines ls =>
      dsimp only
      split
      · trivial
      · next line hl =>
        split
        · split
          · trivial
          · trivial
          · next code hc =>
            refine tame_bind (fun env s => ⟨?_, fun h => absurd ⟨ls, line, code, rfl, hl, hc⟩ h, .inl rfl, trivial⟩) fun _ =>
              tame_bind (tame_writeN depth _ _ _) fun _ => tame_bind (fun env s => ⟨?_, fun _ => ?_, .inl rfl, trivial⟩) fun _ => trivial
            · show s.writeWait + 2 ≤ _; omega
            · show (if code = 515 then 1 else 0) ≤ _; split <;> omega
            · show (if code = 515 then 1 else 0) ≤ _; split <;> omega
        · trivial

theorem tame : Closed (fun {α} (p : Prog α) => Tame False p) True where
  done _ := trivial
  act _ _ h hk := fun env s => ⟨by rw [(h env s).2.1]; omega, fun _ => by rw [(h env s).2.1]; omega, .inl (h env s).1, hk env s⟩
  bind := tame_bind
  write data pe term := fun env _ => ⟨by simp only; omega, fun _ => by simp only; omega, .inl rfl, tame_writeN _ data pe term⟩
  mode _ _ := fun _ _ => ⟨by simp only; omega, fun _ => by simp only; omega, .inl rfl, trivial⟩
  except _ hp hh := tame_except hp hh

theorem tame_clcc : Tame False clccQuery := by
  unfold clccQuery
  refine tame_except (tame_bind (tame.write _ _ _) fun ls => tame_bind (walk_ofExcept tame _) fun l => ?_) fun _ => walk_pure tame _
  split
  · exact tame_bind (walk_ofExcept tame _) fun _ => tame_bind (walk_ofExcept tame _) fun _ => tame_bind (walk_ofExcept tame _) fun _ => tame_bind (walk_ofExcept tame _) fun _ => walk_pure tame _
  · exact walk_pure tame _

theorem tame_task [PyUnicode] (t : Task) : Tame False t.prog :=
  walk_task tame t (fun _ => trivial) (fun _ => tame_clcc) fun _ _ => fun _ s => ⟨by simp only; omega, fun _ => by simp only; omega, .inr ⟨_, rfl⟩, trivial⟩

theorem busy_zero {reply : List PyStr → Reply} (log : List PyStr) : busyAmong reply 0 log = 0 := by cases log <;> rfl

open Classical in
theorem busy_append {reply : List PyStr → Reply} : ∀ (new old : List PyStr) (c : PyStr),
    busyAmong reply (new.length + 1) (new ++ c :: old) = busyAmong reply new.length (new ++ c :: old) + (if AnsweredBusy reply (c :: old) then 1 else 0)
  | [], old, c => by simp [busyAmong, busy_zero]
  | d :: new, old, c => by
    simp only [List.length_cons, List.cons_append, busyAmong]
    rw [busy_append new old c]
    omega

theorem mul_bound {a b c d : Nat} (h1 : a ≤ c) (h2 : b ≤ d) : a * b ≤ c * d := Nat.mul_le_mul h1 h2

open Classical in
theorem elapsed_tame (p : Prog α) (c : Prop) (hp : Tame c p) (s : St) :
    ∃ new, (run env p s).2.log = new ++ s.log ∧
      elapsed env wait p s ≤ waitedFor wait new.length (run env p s).2.log +
        100 * ((new.length + busyAmong env.reply new.length (run env p s).2.log + (if c then 1 else 0)) *
          (max s.writeWait 1 + 2 * (busyAmong env.reply new.length (run env p s).2.log + (if c then 1 else 0)))) := by
  induction p generalizing s c with
  | done r => exact ⟨[], rfl, by simp [elapsed]⟩
  | io t k ih =>
    obtain ⟨new, h1, h3⟩ := ih (env.reply (t :: s.log)) _ (hp _) { s with log := t :: s.log }
    refine ⟨new ++ [t], by simp only [run]; rw [h1]; simp, ?_⟩
    have he : (busyReply (env.reply (t :: s.log))) = AnsweredBusy env.reply (t :: s.log) := propext busy_iff.symm
    simp only [run, elapsed]
    rw [h1] at h3 ⊢
    simp only [he] at h3
    simp only [List.length_append, List.length_cons, List.length_nil, Nat.zero_add]
    rw [waited_append, busy_append]
    generalize busyAmong env.reply new.length (new ++ t :: s.log) = k0 at h3 ⊢
    generalize (if AnsweredBusy env.reply (t :: s.log) then 1 else 0) = b at h3 ⊢
    have hm : 100 * s.writeWait ≤ 100 * (1 * (max s.writeWait 1 + 2 * (k0 + b))) := by omega
    have hs : pauseAfter (env.reply (t :: s.log)) s.writeWait ≤ 100 * s.writeWait := by
      unfold pauseAfter
      split
      · exact Nat.le_of_eq (nap_eq _)
      · omega
    have h4 : (new.length + k0 + b) * (max s.writeWait 1 + 2 * (k0 + b)) + 1 * (max s.writeWait 1 + 2 * (k0 + b)) ≤
        (new.length + 1 + (k0 + b) + (if c then 1 else 0)) * (max s.writeWait 1 + 2 * (k0 + b + (if c then 1 else 0))) := by
      rw [← Nat.add_mul]
      exact Nat.mul_le_mul (by omega) (by omega)
    generalize pauseAfter (env.reply (t :: s.log)) s.writeWait = z at hs ⊢
    omega
  | act f k ih =>
    obtain ⟨hw, hw', hl, hk⟩ := hp env s
    obtain ⟨new, h1, h3⟩ := ih env s _ hk (f env s)
    have key : ∀ (n k0 : Nat) (grew : Nat), 
        (if s.log.length < (f env s).log.length then nap s.writeWait else 0) ≤ 100 * (grew * s.writeWait) →
        actTime s (f env s) + 100 * ((n + k0) * (max (f env s).writeWait 1 + 2 * k0)) ≤
        100 * ((n + grew + k0 + (if c then 1 else 0)) * (max s.writeWait 1 + 2 * (k0 + (if c then 1 else 0)))) := by
      intro n k0 grew hg
      unfold actTime
      by_cases hc : c
      · simp only [if_pos hc]
        have h5 : (if s.writeWait + 2 ≤ (f env s).writeWait then nap (f env s).writeWait else 0) ≤ 100 * (max s.writeWait 1 + 2) := by
          split
          · rw [nap_eq]; omega
          · omega
        have h6 : (n + k0) * (max (f env s).writeWait 1 + 2 * k0) ≤ (n + k0) * (max s.writeWait 1 + 2 * (k0 + 1)) := Nat.mul_le_mul_left _ (by omega)
        have h7 : grew * s.writeWait ≤ grew * (max s.writeWait 1 + 2 * (k0 + 1)) := Nat.mul_le_mul_left _ (by omega)
        have h8 : (n + grew + k0 + 1) * (max s.writeWait 1 + 2 * (k0 + 1)) = (n + k0) * (max s.writeWait 1 + 2 * (k0 + 1)) + grew * (max s.writeWait 1 + 2 * (k0 + 1)) + (max s.writeWait 1 + 2 * (k0 + 1)) := by
          rw [← Nat.add_mul, ← Nat.succ_mul]
          congr 1
          omega
        rw [h8]
        omega
      · simp only [if_neg hc, Nat.add_zero]
        have h5 := hw' hc
        rw [if_neg (by omega : ¬ s.writeWait + 2 ≤ (f env s).writeWait)]
        have h6 : (n + k0) * (max (f env s).writeWait 1 + 2 * k0) ≤ (n + k0) * (max s.writeWait 1 + 2 * k0) := Nat.mul_le_mul_left _ (by omega)
        have h7 : grew * s.writeWait ≤ grew * (max s.writeWait 1 + 2 * k0) := Nat.mul_le_mul_left _ (by omega)
        have h8 : (n + grew + k0) * (max s.writeWait 1 + 2 * k0) = (n + k0) * (max s.writeWait 1 + 2 * k0) + grew * (max s.writeWait 1 + 2 * k0) := by
          rw [← Nat.add_mul]
          congr 1
          omega
        rw [h8]
        omega
    simp only [run, elapsed]
    simp only [if_false, Nat.add_zero] at h3
    rcases hl with hl | ⟨x, hl⟩
    · refine ⟨new, by rw [h1, hl], ?_⟩
      have := key new.length (busyAmong env.reply new.length (run env (k env s) (f env s)).2.log) 0 (by rw [hl, if_neg (by omega)]; omega)
      simp only [Nat.add_zero] at this
      omega
    · refine ⟨new ++ [x], by rw [h1, hl]; simp, ?_⟩
      rw [h1, hl] at h3 ⊢
      have := key new.length (busyAmong env.reply new.length (new ++ x :: s.log)) 1 (by rw [hl]; split <;> simp [nap_eq])
      simp only [List.length_append, List.length_cons, List.length_nil, Nat.zero_add]
      rw [waited_append, busy_append]
      generalize busyAmong env.reply new.length (new ++ x :: s.log) = k0 at h3 this ⊢
      have h9 : (new.length + 1 + k0 + (if c then 1 else 0)) * (max s.writeWait 1 + 2 * (k0 + (if c then 1 else 0))) ≤
          (new.length + 1 + (k0 + (if AnsweredBusy env.reply (x :: s.log) then 1 else 0)) + (if c then 1 else 0)) *
            (max s.writeWait 1 + 2 * (k0 + (if AnsweredBusy env.reply (x :: s.log) then 1 else 0) + (if c then 1 else 0))) :=
        Nat.mul_le_mul (by omega) (by omega)
      omega

/-! ### A modem that never answers -/

/-- Up to the first command that is not answered, there is no pause; then the method ends. -/
def Quits {α : Type} : Prog α → Prop
  | done _ => True
  | io _ k => ∀ d, ∃ d', k (.timeout d) = done (.error (.timeout d'))
  | act f k => ∀ env s, ((f env s).log = s.log ∧ (f env s).writeWait = s.writeWait) ∧ Quits (k env s)

theorem quits_bind {p : Prog α} {f : α → Prog β} (hp : Quits p) (hf : ∀ a, Quits (f a)) : Quits (p >>= f) := by
  show Quits (p.bind f)
  induction p with
  | done r =>
    cases r with
    | ok a => exact hf a
    | error e => trivial
  | io t k ih =>
    intro d
    obtain ⟨d', h⟩ := hp d
    exact ⟨d', by dsimp only; rw [h]; rfl⟩
  | act g k ih => exact fun env s => ⟨(hp env s).1, ih env s (hp env s).2⟩

theorem quits_except {p : Prog α} {c : PyErr → Bool} {h : PyErr → Prog α} (hc : ∀ d, c (.timeout d) = false) (hp : Quits p) (hh : ∀ e, Quits (h e)) :
    Quits (except p c h) := by
  induction p with
  | done r =>
    cases r with
    | ok a => trivial
    | error e =>
      simp only [except]
      split
      · exact hh e
      · trivial
  | io t k ih =>
    intro d
    obtain ⟨d', h⟩ := hp d
    exact ⟨d', by dsimp only; rw [h]; simp [except, hc]⟩
  | act g k ih => exact fun env s => ⟨(hp env s).1, ih env s (hp env s).2⟩

theorem quits_writeN (depth : Nat) (data : PyStr) (pe : Bool) (term : PyStr) : Quits (writeN depth data pe term) := by
  cases depth with
  | zero => trivial
  | succ depth => exact fun d => ⟨d, rfl⟩

theorem quits : Closed @Quits True where
  done _ := trivial
  act _ _ h hk := fun env s => ⟨⟨(h env s).1, (h env s).2.1⟩, hk env s⟩
  bind := quits_bind
  write data pe term := fun env _ => ⟨⟨rfl, rfl⟩, quits_writeN _ data pe term⟩
  mode _ _ := fun _ _ => ⟨⟨rfl, rfl⟩, trivial⟩
  except hc hp hh := quits_except hc hp hh

theorem quits_task [PyUnicode] (t : Task) (h : givesUp t = true) : Quits t.prog := by
  refine walk_task quits t (fun _ => trivial) ?_ ?_
  · rintro ⟨n, c, rfl⟩; cases h
  · rintro ⟨n, c, rfl⟩; cases h

theorem elapsed_quits (hs : Silent env.reply) (p : Prog α) (hp : Quits p) (s : St) :
    ((run env p s).2.log = s.log ∧ elapsed env wait p s = 0) ∨
      ∃ c d, (run env p s).2.log = c :: s.log ∧ (run env p s).1 = .error (.timeout d) ∧ elapsed env wait p s = wait (c :: s.log) := by
  induction p generalizing s with
  | done r => exact .inl ⟨rfl, rfl⟩
  | io t k ih =>
    obtain ⟨d, hd⟩ := hs (t :: s.log)
    obtain ⟨d', hk⟩ := hp d
    refine .inr ⟨t, d', ?_⟩
    simp only [run, elapsed, pauseAfter, hd, hk, true_and, Nat.add_zero]
  | act f k ih =>
    obtain ⟨⟨hl, hw⟩, hk⟩ := hp env s
    simp only [run, elapsed, actTime]
    rw [hl, hw, if_neg (by omega), if_neg (by omega)]
    have := ih env s hk (f env s)
    rw [hl] at this
    simpa using this

end Prog
end Gsm
