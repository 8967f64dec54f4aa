import Verif.Spec.WaitClock
import Verif.Props.ModemUssd
import Verif.Props.ModemDial
import Verif.Lemmas.ClockBound
/-! # Lemmas about waiting with the clock -/
namespace Gsm
open M Spec

variable {env : Env} {isSet : St → Bool}

theorem await_set {es : List Event} {s : St} (h : isSet s = true) : awaitEvent isSet es env s = (.ok true, s) := by
  cases es <;> simp [awaitEvent, run_bind, run_get, run_pure, h]

theorem await_step {e : Event} {es : List Event} {s : St} (h : isSet s = false) : awaitEvent isSet (e :: es) env s = awaitEvent isSet es env (e.run env s).2 := by
  simp only [awaitEvent, run_bind, run_get, h]
  rw [if_neg (by simp), run_bind, event_runs]

theorem await_over {s : St} : awaitEvent isSet [] env s = (.ok (isSet s), s) := rfl

theorem upTo_nil (d : Nat) : upTo d [] = [] := rfl

theorem upTo_late {d m : Nat} {e : Event} {rest : List (Nat × Event)} (h : d < m) : upTo d ((m, e) :: rest) = [] := by
  simp only [upTo, List.takeWhile_cons]
  rw [if_neg (by simpa using h)]
  rfl

theorem upTo_cons {d m : Nat} {e : Event} {rest : List (Nat × Event)} (h : m ≤ d) : upTo d ((m, e) :: rest) = e :: upTo d rest := by
  simp only [upTo, List.takeWhile_cons]
  rw [if_pos (by simpa using h)]
  rfl

/-- The wait with the clock is the wait for what happens in time. -/
theorem timedAwait_same (d : Nat) : ∀ (arrivals : List (Nat × Event)) (now : Nat) (s : St),
    awaitEvent isSet (upTo d arrivals) env s = (.ok (timedAwait env isSet d arrivals now s).1.1, (timedAwait env isSet d arrivals now s).1.2)
  | [], now, s => by
    rw [upTo_nil, await_over, timedAwait]
    cases h : isSet s <;> simp
  | (m, e) :: rest, now, s => by
    rw [timedAwait]
    cases h : isSet s with
    | true => rw [await_set h]; simp
    | false =>
      rw [if_neg (by simp)]
      by_cases hm : d < m
      · rw [upTo_late hm, if_pos hm, await_over, h]
      · rw [upTo_cons (by omega), if_neg hm, await_step h]
        exact timedAwait_same d rest _ _

/-- It ends when the time is over at the latest, and not before unless the event is set. -/
theorem timedAwait_time {d : Nat} : ∀ (arrivals : List (Nat × Event)) {now : Nat} (s : St), now ≤ d →
    now ≤ (timedAwait env isSet d arrivals now s).2 ∧ (timedAwait env isSet d arrivals now s).2 ≤ d ∧
      ((timedAwait env isSet d arrivals now s).1.1 = false → (timedAwait env isSet d arrivals now s).2 = d)
  | [], now, s, h => by
    rw [timedAwait]
    split
    · exact ⟨Nat.le_refl _, h, by simp⟩
    · exact ⟨by dsimp only; omega, by dsimp only; omega, fun _ => by dsimp only; omega⟩
  | (m, e) :: rest, now, s, h => by
    rw [timedAwait]
    split
    · exact ⟨Nat.le_refl _, h, by simp⟩
    · by_cases hm : d < m
      · rw [if_pos hm]
        exact ⟨by dsimp only; omega, by dsimp only; omega, fun _ => by dsimp only; omega⟩
      · rw [if_neg hm]
        obtain ⟨h1, h2, h3⟩ := timedAwait_time (d := d) rest (now := max now m) (e.run env s).2 (by omega)
        exact ⟨by omega, h2, h3⟩

/-- It ends at the moment of the first that sets the event. -/
theorem timedAwait_told {d m : Nat} {e : Event} {post : List (Nat × Event)} : ∀ (pre : List (Nat × Event)) {now : Nat} {s s1 s2 : St},
    TimeOrder (pre ++ (m, e) :: post) → m ≤ d → awaitEvent isSet (pre.map Prod.snd) env s = (.ok false, s1) →
    awaitEvent isSet (pre.map Prod.snd ++ [e]) env s = (.ok true, s2) →
    timedAwait env isSet d (pre ++ (m, e) :: post) now s = ((true, s2), max now m)
  | [], now, s, s1, s2, ho, hm, h1, h2 => by
    have h0 : isSet s = false := by simpa [await_over] using congrArg Prod.fst h1
    rw [List.map_nil, List.nil_append, await_step h0, await_over] at h2
    have h3 : isSet (e.run env s).2 = true := by simpa using congrArg Prod.fst h2
    have h4 : (e.run env s).2 = s2 := by simpa using congrArg Prod.snd h2
    rw [List.nil_append, timedAwait, h0, if_neg (by simp), if_neg (by omega), h4]
    rw [h4] at h3
    cases post with
    | nil => rw [timedAwait, if_pos h3]
    | cons a post => rw [timedAwait, if_pos h3]
  | (m', e') :: pre, now, s, s1, s2, ho, hm, h1, h2 => by
    have h0 : isSet s = false := by
      cases h : isSet s with
      | false => rfl
      | true => rw [await_set h] at h1; simp at h1
    rw [List.map_cons, await_step h0] at h1
    rw [List.map_cons, List.cons_append, await_step h0] at h2
    have h3 : m' ≤ m := (List.pairwise_cons.1 ho).1 (m, e) (by simp)
    rw [List.cons_append, timedAwait, h0, if_neg (by simp), if_neg (by omega),
      timedAwait_told pre (List.pairwise_cons.1 ho).2 hm h1 h2]
    congr 1
    omega

/-- When nothing in time sets the event, the wait ends with the time. -/
theorem timedAwait_late {d now : Nat} {arrivals : List (Nat × Event)} {s s1 : St} (hd : now ≤ d) (h : awaitEvent isSet (upTo d arrivals) env s = (.ok false, s1)) :
    timedAwait env isSet d arrivals now s = ((false, s1), d) := by
  have h1 := timedAwait_same (env := env) (isSet := isSet) d arrivals now s
  rw [h] at h1
  obtain ⟨-, -, h2⟩ := timedAwait_time (env := env) (isSet := isSet) arrivals s hd
  generalize timedAwait env isSet d arrivals now s = x at h1 h2
  obtain ⟨⟨b, s'⟩, t⟩ := x
  have e1 : false = b := by simpa using congrArg Prod.fst h1
  have e2 : s1 = s' := congrArg Prod.snd h1
  subst e1 e2
  have e3 : t = d := h2 rfl
  rw [e3]

theorem occur_eq : ∀ (arrivals : List (Nat × Event)) (s : St), occur env arrivals s = happenAll env (arrivals.map Prod.snd) s
  | [], _ => rfl
  | (_, e) :: rest, s => occur_eq rest (e.run env s).2

theorem same_writeAtd (number : PyStr) : Prog.Same (Proc.writeAtd number) (writeAtd number) := by
  intro env s
  unfold Proc.writeAtd writeAtd
  rw [Prog.run_look, Gsm.run_bind, run_get]
  dsimp only
  by_cases h : s.waitForAtdResponse = true
  · rw [if_pos h, if_pos h, Prog.run_bind, Prog.same_write _ _ _ env s, Gsm.run_bind]
    rcases Gsm.write (atdCmd number) true [13] env s with ⟨e | r, s'⟩ <;> rfl
  · rw [if_neg h, if_neg h]
    rfl

end Gsm
