import Verif.Spec.CoverageClock
import Verif.Lemmas.Coverage
import Verif.Props.Clock
import Verif.Lemmas.ThreadConnectWalk
/-! # Lemmas: connecting and waiting for the network, with the clock -/
namespace Gsm
open Spec

variable {env : Env} {wait : List PyStr → Nat}

/-! ### `connect` -/
namespace Prog

theorem linked_calm : Linked @Calm fun _ => True where
  done _ := trivial
  act _ _ h hk := fun env s => ⟨⟨(h env s).log, (h env s).wait⟩, hk env s⟩
  bind := calm_bind
  write data pe _ := calm.write data pe [13]
  except := calm_except

theorem linked_tame : Linked (fun {α} (p : Prog α) => Tame False p) fun _ => True where
  done r := tame.done r
  act f k h hk := tame.act f k (fun env s => ⟨(h env s).log, (h env s).wait, (h env s).mode⟩) hk
  bind := tame.bind
  write data pe _ := tame.write data pe [13]
  except := tame_except

theorem calm_connect (pin : Option PyStr) : Calm (connect pin) := link_connect linked_calm commands_all (link_unlock linked_calm trivial fun _ _ => trivial)
theorem tame_connect (pin : Option PyStr) : Tame False (connect pin) := link_connect linked_tame commands_all (link_unlock linked_tame trivial fun _ _ => trivial)

end Prog

/-! ### One command -/

theorem timedWrite_same (data : PyStr) (pe : Bool) (term : PyStr) (s : St) : (timedWrite env wait data pe term s).1 = write data pe term env s := by
  rw [C104_write]

/-- A command to a modem that is not busy. -/
theorem timed_once {data term : PyStr} {pe : Bool} {s : St} (hb : ¬ AnsweredBusy env.reply ((data ++ term) :: s.log)) :
    (timedWrite env wait data pe term s).1.2.writeWait = s.writeWait ∧ (timedWrite env wait data pe term s).2 ≤ wait ((data ++ term) :: s.log) + 100 * s.writeWait := by
  unfold timedWrite
  cases env.depth with
  | zero => exact ⟨rfl, Nat.zero_le _⟩
  | succ n =>
    unfold timedWriteN
    rw [busy_iff] at hb
    dsimp only
    split
    · exact ⟨rfl, by dsimp only; omega⟩
    · next ls hls =>
      split
      · exact ⟨rfl, by simp [nap_eq]⟩
      · next line hl =>
        split
        · split
          · exact ⟨rfl, by simp [nap_eq]⟩
          · exact ⟨rfl, by simp [nap_eq]⟩
          · next code hc => exact absurd ⟨ls, line, code, hls, hl, hc⟩ hb
        · exact ⟨rfl, by simp [nap_eq]⟩

theorem timed_any {data term : PyStr} {s : St} {ls : List PyStr} (hd : 0 < env.depth) (h : env.reply ((data ++ term) :: s.log) = .lines ls) (hn : ls ≠ []) :
    timedWrite env wait data false term s = ((.ok ls, { s with log := (data ++ term) :: s.log }), wait ((data ++ term) :: s.log) + 100 * s.writeWait) := by
  unfold timedWrite
  obtain ⟨n, hn'⟩ : ∃ n, env.depth = n + 1 := ⟨env.depth - 1, by omega⟩
  rw [hn']
  unfold timedWriteN
  have hl := List.getLast?_eq_some_getLast hn
  simp only [h, hl, nap_eq]
  simp

theorem timed_accepted {data term : PyStr} {s : St} {ls : List PyStr} (hd : 0 < env.depth) (h : env.reply ((data ++ term) :: s.log) = .lines ls)
    (ha : Accepted env.reply ((data ++ term) :: s.log)) :
    timedWrite env wait data true term s = ((.ok ls, { s with log := (data ++ term) :: s.log }), wait ((data ++ term) :: s.log) + 100 * s.writeWait) := by
  unfold timedWrite
  obtain ⟨n, hn'⟩ : ∃ n, env.depth = n + 1 := ⟨env.depth - 1, by omega⟩
  rw [hn']
  unfold timedWriteN
  obtain ⟨ls', l, h1, hl, h2⟩ := ha
  rw [h] at h1
  cases h1
  have hc : classify l = .fine := classify_fine.2 h2
  simp only [h, hl, nap_eq, hc]
  simp

/-! ### One round -/

theorem pyInt_digits_cast {ds : PyStr} (hd : Digits ds) : pyInt ds = .ok (decVal ds : Int) := pyInt_of_digits hd

theorem creg_next {ls : List PyStr} {n : Nat} (h : Tells ls n) : cregNext ls =
    if n = 1 ∨ n = 5 then .ok false else if n = 3 ∨ n = 0 then .error .invalidState else .ok true := by
  rcases creg_answer ls with ⟨h1, _⟩ | ⟨d, m, h1, h2, h3⟩
  · obtain ⟨pre, l, post, rfl, h2, _⟩ := h
    exact absurd h2 (h1 l (by simp) n)
  · have := tells_unique h h1
    subst this
    unfold cregNext
    rw [h2]
    simp only [h3]
    by_cases c1 : n = 1
    · simp [c1]
    by_cases c5 : n = 5
    · simp [c5]
    by_cases c3 : n = 3
    · simp [c3]
    by_cases c0 : n = 0
    · simp [c0]
    have e1 : ¬ ((n : Int) = 1 ∨ (n : Int) = 5) := by omega
    have e2 : ¬ (n : Int) = 3 := by omega
    have e3 : ¬ (n : Int) = 0 := by omega
    rw [if_neg e1, if_neg e2, if_neg e3, if_neg (by omega), if_neg (by omega)]

theorem csq_value {l : PyStr} {ls : List PyStr} {n : Nat} (h : SignalLine l n) : csqValue (l :: ls) = .ok (if n ≠ 99 then (n : Int) else -1) := by
  obtain ⟨b, ds, t, h1, h2, h3, rfl⟩ := h
  unfold csqValue
  simp only [csq_iff.2 ⟨ds, rfl, h3, b, t, h1, h2⟩, pyInt_of_digits h3]
  by_cases h : decVal ds = 99
  · simp [h]
  · have : ¬ (decVal ds : Int) = 99 := by omega
    simp [h, this]

end Gsm
