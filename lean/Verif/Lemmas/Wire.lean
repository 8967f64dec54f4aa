import Verif.Spec.Wire
import Verif.Lemmas.ModemSteps
/-! # Commands and messages as characters -/
namespace Gsm
open M Spec

variable {asks : List PyStr → Bool}

theorem wireTakes_append : ∀ (x : PyStr) (log : List PyStr) (part y : PyStr),
    wireTakes asks log part (x ++ y) = wireTakes asks (wireTakes asks log part x).1 (wireTakes asks log part x).2 y
  | [], _, _, _ => rfl
  | c :: x, log, part, y => by
    simp only [List.cons_append, wireTakes]
    split
    · exact wireTakes_append x _ _ _
    · exact wireTakes_append x _ _ _

theorem wireTakes_part {log : List PyStr} : ∀ {d : PyStr} {part : PyStr}, (∀ c ∈ d, endsUnit (asks log) c = false) →
    wireTakes asks log part d = (log, part ++ d)
  | [], part, _ => by simp [wireTakes]
  | c :: d, part, h => by
    rw [wireTakes, h c (by simp), if_neg (by simp), wireTakes_part fun c hc => h c (by simp [hc])]
    simp

theorem wireTakes_unit {log : List PyStr} {d part : PyStr} {t : Nat} (h : ∀ c ∈ d, endsUnit (asks log) c = false) (ht : endsUnit (asks log) t = true) :
    wireTakes asks log part (d ++ [t]) = ((part ++ d ++ [t]) :: log, []) := by
  rw [wireTakes_append, wireTakes_part h]
  simp [wireTakes, ht]

theorem command_unit {log : List PyStr} {d part : PyStr} (h : Flat d) (ha : asks log = false) :
    wireTakes asks log part (d ++ [13]) = ((part ++ d ++ [13]) :: log, []) :=
  wireTakes_unit (fun c hc => by simp only [ha, endsUnit]; simp; rintro rfl; exact h hc) (by simp [ha, endsUnit])

theorem message_unit {log : List PyStr} {d part : PyStr} (h : Endless d) (ha : asks log = true) :
    wireTakes asks log part (d ++ [26]) = ((part ++ d ++ [26]) :: log, []) :=
  wireTakes_unit (fun c hc => by simp only [ha, endsUnit]; simp; exact ⟨fun e => h.1 (e ▸ hc), fun e => h.2 (e ▸ hc)⟩) (by simp [ha, endsUnit])

/-- From one log to the next, the modem took what was meant. -/
def Onto (asks : List PyStr → Bool) (a b : List PyStr) : Prop := ∃ new, b = new ++ a ∧ wireTakes asks a [] (chars new) = (b, [])

theorem Onto.refl (a : List PyStr) : Onto asks a a := ⟨[], rfl, rfl⟩
theorem Onto.trans {a b c : List PyStr} (h1 : Onto asks a b) (h2 : Onto asks b c) : Onto asks a c := by
  obtain ⟨n1, rfl, e1⟩ := h1
  obtain ⟨n2, rfl, e2⟩ := h2
  refine ⟨n2 ++ n1, by simp, ?_⟩
  have : chars (n2 ++ n1) = chars n1 ++ chars n2 := by simp [chars]
  rw [this, wireTakes_append, e1, e2]
theorem Onto.one {log : List PyStr} {u : PyStr} (h : wireTakes asks log [] u = (u :: log, [])) : Onto asks log (u :: log) :=
  ⟨[u], rfl, by simpa [chars] using h⟩

/-- The modem and what is assumed about it. -/
structure OnWire (env : Env) (asks : List PyStr → Bool) : Prop where
  prompts : Prompts env.reply asks
  busy : NotBusyThen env.reply asks
  flat : FlatReplies env.reply

/-- Between two deeds. -/
structure Resting (asks : List PyStr → Bool) (s : St) : Prop where
  idle : asks s.log = false
  smsc : ∀ n, s.smscNumber = some n → Flat n

structure Wired {α : Type} (env : Env) (asks : List PyStr → Bool) (Q : α → Prop) (m : M α) : Prop where
  run : ∀ s, Resting asks s → Onto asks s.log (m env s).2.log ∧ Resting asks (m env s).2 ∧ ∀ a, (m env s).1 = .ok a → Q a

/-- AnyOut result. -/
abbrev AnyOut {α : Type} : α → Prop := fun _ => True

variable {env : Env} {α β : Type} {Q : α → Prop} {Q' : β → Prop}

theorem Wired.weaken {Q2 : α → Prop} {m : M α} (h : Wired env asks Q m) (hq : ∀ a, Q a → Q2 a) : Wired env asks Q2 m :=
  ⟨fun s hs => ⟨(h.run s hs).1, (h.run s hs).2.1, fun a ha => hq a ((h.run s hs).2.2 a ha)⟩⟩
theorem Wired.any {m : M α} (h : Wired env asks Q m) : Wired env asks AnyOut m := h.weaken fun _ _ => trivial
theorem Wired.pure (a : α) (h : Q a) : Wired env asks Q (pure a : M α) := ⟨fun s hs => ⟨.refl _, hs, fun _ e => by cases e; exact h⟩⟩
theorem Wired.pureAny (a : α) : Wired env asks AnyOut (Pure.pure a : M α) := .pure a trivial
theorem Wired.raise (e : PyErr) : Wired env asks Q (M.raise e : M α) := ⟨fun s hs => ⟨.refl _, hs, fun _ e => nomatch e⟩⟩
theorem Wired.get : Wired env asks (Resting asks) M.get := ⟨fun s hs => ⟨.refl _, hs, fun _ e => by cases e; exact hs⟩⟩
theorem Wired.getAny : Wired env asks AnyOut M.get := Wired.get.any
theorem Wired.ofExcept {e : Except PyErr α} (h : ∀ a, e = .ok a → Q a) : Wired env asks Q (M.ofExcept e) := by
  cases e with
  | ok a => exact .pure a (h a rfl)
  | error e => exact .raise e
theorem Wired.ofExceptAny (e : Except PyErr α) : Wired env asks AnyOut (M.ofExcept e) := .ofExcept fun _ _ => trivial
theorem Wired.firstLine (ls : List PyStr) : Wired env asks AnyOut (firstLine ls) := .ofExceptAny _
theorem Wired.modify {f : St → St} (h : ∀ s, (f s).log = s.log) (h2 : ∀ s, Resting asks s → ∀ n, (f s).smscNumber = some n → Flat n) : Wired env asks AnyOut (M.modify f) :=
  ⟨fun s hs => by
    refine ⟨?_, ⟨?_, h2 s hs⟩, fun _ _ => trivial⟩
    · show Onto asks s.log (f s).log
      rw [h]; exact .refl _
    · show asks (f s).log = false
      rw [h]; exact hs.idle⟩
theorem Wired.keep {f : St → St} (h : ∀ s, (f s).log = s.log) (h2 : ∀ s, (f s).smscNumber = s.smscNumber) : Wired env asks AnyOut (M.modify f) :=
  .modify h fun s hs n hn => hs.smsc n (by rw [← h2, hn])
theorem Wired.bind {m : M α} {f : α → M β} (hm : Wired env asks Q m) (hf : ∀ a, Q a → Wired env asks Q' (f a)) : Wired env asks Q' (m >>= f) := by
  refine ⟨fun s hs => ?_⟩
  have h1 := hm.run s hs
  show Onto asks s.log (match m env s with | (.ok a, s) => f a env s | (.error e, s) => (.error e, s)).2.log ∧
    Resting asks (match m env s with | (.ok a, s) => f a env s | (.error e, s) => (.error e, s)).2 ∧
    ∀ a, (match m env s with | (.ok a, s) => f a env s | (.error e, s) => (.error e, s)).1 = .ok a → Q' a
  generalize m env s = x at h1 ⊢
  obtain ⟨r, s'⟩ := x
  cases r with
  | ok a =>
    have h2 := (hf a (h1.2.2 a rfl)).run s' h1.2.1
    exact ⟨h1.1.trans h2.1, h2.2.1, h2.2.2⟩
  | error e => exact ⟨h1.1, h1.2.1, fun _ e => nomatch e⟩
theorem Wired.bindAny {m : M α} {f : α → M β} (hm : Wired env asks AnyOut m) (hf : ∀ a, Wired env asks Q' (f a)) : Wired env asks Q' (m >>= f) :=
  .bind hm fun a _ => hf a
theorem Wired.except {m : M α} {p : PyErr → Bool} {h : PyErr → M α} (hm : Wired env asks Q m) (hh : ∀ e, Wired env asks Q (h e)) :
    Wired env asks Q (M.except m p h) := by
  refine ⟨fun s hs => ?_⟩
  have h1 := hm.run s hs
  unfold M.except
  generalize m env s = x at h1 ⊢
  obtain ⟨r, s'⟩ := x
  cases r with
  | ok a => exact h1
  | error e =>
    dsimp only
    split
    · have h2 := (hh e).run s' h1.2.1
      exact ⟨h1.1.trans h2.1, h2.2.1, h2.2.2⟩
    · exact ⟨h1.1, h1.2.1, fun _ e => nomatch e⟩
theorem Wired.tryCommand {m : M α} (hm : Wired env asks AnyOut m) : Wired env asks AnyOut (M.tryCommand m) :=
  .except (.bindAny hm fun _ => .pureAny _) fun _ => .pureAny _

/-! ### Writing -/

/-- It does not announce a message. -/
def NoMessage (c : PyStr) : Prop := ¬ py!"AT+CMGS=" <+: c ++ [13]

theorem plain_idle (H : OnWire env asks) {c : PyStr} {log : List PyStr} (hp : NoMessage c) : asks ((c ++ [13]) :: log) = false := by
  have := (H.prompts.next (c ++ [13]) log)
  cases ha : asks ((c ++ [13]) :: log) with
  | false => rfl
  | true => exact absurd (this.1 ha).2.1 hp

theorem plain_replicate (H : OnWire env asks) {c : PyStr} (hc : Flat c) (hp : NoMessage c) {log : List PyStr} (ha : asks log = false) :
    ∀ k, Onto asks log (List.replicate k (c ++ [13]) ++ log) ∧ asks (List.replicate k (c ++ [13]) ++ log) = false
  | 0 => ⟨.refl _, ha⟩
  | k + 1 => by
    obtain ⟨h1, h2⟩ := plain_replicate H hc hp ha k
    refine ⟨h1.trans (.one ?_), plain_idle H hp⟩
    have := command_unit (asks := asks) (part := []) hc h2
    simpa using this

/-- The lines of an answer. -/
def FlatLines (ls : List PyStr) : Prop := ∀ l ∈ ls, Flat l

theorem writeN_lines (H : OnWire env asks) {data term : PyStr} {pe : Bool} : ∀ (depth : Nat) (s : St) (ls : List PyStr), (writeN depth data pe term env s).1 = .ok ls → FlatLines ls
  | 0, _, _, h => nomatch h
  | depth + 1, s, ls, h => by
    simp only [writeN] at h
    split at h
    · cases h
    · next ls' hr =>
      have hfl : FlatLines ls' := H.flat _ _ hr
      split at h
      · cases h
      · split at h
        · split at h
          · cases h; exact hfl
          · cases h
          · split at h
            · next he => exact writeN_lines H depth _ ls (by rw [he]; exact h)
            · cases h
        · cases h; exact hfl

theorem w_writeLines (H : OnWire env asks) {c : PyStr} {pe : Bool} (hc : Flat c) (hp : NoMessage c) : Wired env asks FlatLines (write c pe) := by
  refine ⟨fun s hs => ?_⟩
  obtain ⟨k, w, he⟩ := writeN_state (data := c) (term := [13]) (pe := pe) (env := env) env.depth s
  have hr := plain_replicate H hc hp hs.idle k
  refine ⟨?_, ?_, fun ls h => writeN_lines H env.depth s ls h⟩
  · show Onto asks s.log (writeN env.depth c pe [13] env s).2.log
    rw [he]; exact hr.1
  · show Resting asks (writeN env.depth c pe [13] env s).2
    rw [he]; exact ⟨hr.2, hs.smsc⟩
theorem w_write (H : OnWire env asks) {c : PyStr} {pe : Bool} (hc : Flat c) (hp : NoMessage c) : Wired env asks AnyOut (write c pe) := (w_writeLines H hc hp).any
theorem w_noWait (H : OnWire env asks) {c : PyStr} (hc : Flat c) (hp : NoMessage c) : Wired env asks AnyOut (writeNoWait c) := by
  refine ⟨fun s hs => ⟨.one ?_, ⟨plain_idle H hp, hs.smsc⟩, fun _ _ => trivial⟩⟩
  simpa using command_unit (asks := asks) (part := []) hc hs.idle

instance (s : PyStr) : Decidable (Flat s) := inferInstanceAs (Decidable (13 ∉ s))
instance (s : PyStr) : Decidable (NoMessage s) := inferInstanceAs (Decidable (¬ py!"AT+CMGS=" <+: s ++ [13]))

theorem flat_append {a b : PyStr} : Flat (a ++ b) ↔ Flat a ∧ Flat b := by simp [Flat]
theorem flat_digits {a : PyStr} (h : ∀ c ∈ a, 48 ≤ c) : Flat a := fun hm => by have := h _ hm; omega

/-- What follows, if there was no exception. -/
def thenRun (x : Except PyErr α × St) (f : α → St → Except PyErr β × St) : Except PyErr β × St :=
  match x with
  | (.ok a, s) => f a s
  | (.error e, s) => (.error e, s)

/-- A message is announced, and then written. -/
theorem w_message (H : OnWire env asks) {c body : PyStr} (hc : Flat c) (hp : py!"AT+CMGS=" <+: c) (hb : Endless body) :
    Wired env asks AnyOut (do let _ ← write c; write body true [26] : M (List PyStr)) := by
  refine ⟨fun s hs => ?_⟩
  obtain ⟨k, w, he, hbusy, hout⟩ := write_outcome (data := c) (term := [13]) (env := env) s
  have hrep : ∀ i, i ≤ k → (i = k → ¬ Accepted env.reply (List.replicate k (c ++ [13]) ++ s.log) ∨ k = 0) →
      Onto asks s.log (List.replicate i (c ++ [13]) ++ s.log) ∧ asks (List.replicate i (c ++ [13]) ++ s.log) = false := by
    intro i
    induction i with
    | zero => exact fun _ _ => ⟨.refl _, hs.idle⟩
    | succ i ih =>
      intro hi hk
      obtain ⟨h1, h2⟩ := ih (by omega) (fun e => by omega)
      refine ⟨h1.trans (.one ?_), ?_⟩
      · simpa using command_unit (asks := asks) (part := []) hc h2
      · cases ha : asks (List.replicate (i + 1) (c ++ [13]) ++ s.log) with
        | false => rfl
        | true =>
          have hacc := ((H.prompts.next _ _).1 ha).2.2
          by_cases hik : i + 1 = k
          · rcases hk hik with h | h
            · rw [← hik] at h; exact absurd hacc h
            · omega
          · exact absurd hacc (busy_not_accepted (hbusy i (by omega)))
  have hbind : ((do let _ ← write c; write body true [26] : M (List PyStr)) env s) = thenRun (write c true [13] env s) fun _ => write body true [26] env := rfl
  rw [hbind]
  have hdepth : env.depth = 0 → (write c true [13] env s).1 = .error .recursionError := by
    intro h0; show (writeN env.depth c true [13] env s).1 = _; rw [h0]; rfl
  generalize write c true [13] env s = x at he hout hdepth ⊢
  obtain ⟨r, s'⟩ := x
  dsimp only at he hout hdepth
  subst he
  cases r with
  | error e =>
    dsimp only [thenRun]
    have hn : k = k → ¬ Accepted env.reply (List.replicate k (c ++ [13]) ++ s.log) ∨ k = 0 := by
      intro _
      rcases hout with ⟨ls, h1, _⟩ | ⟨d, _, _, h3⟩ | ⟨e', _, _, h3⟩
      · cases h1
      · left; rintro ⟨ls, line, h4, _⟩; rw [h3] at h4; cases h4
      · by_cases h0 : k = 0
        · exact .inr h0
        · exact .inl (h3 (by omega))
    obtain ⟨h1, h2⟩ := hrep k (Nat.le_refl _) hn
    exact ⟨h1, ⟨h2, hs.smsc⟩, fun _ _ => trivial⟩
  | ok ls =>
    dsimp only [thenRun]
    have hacc : 0 < k ∧ Accepted env.reply (List.replicate k (c ++ [13]) ++ s.log) := by
      rcases hout with ⟨ls, h1, h2, _, h4⟩ | ⟨d, h1, _⟩ | ⟨e', h1, _⟩
      · exact ⟨h2, h4⟩
      · cases h1
      · cases h1
    obtain ⟨k, rfl⟩ : ∃ j, k = j + 1 := ⟨k - 1, by omega⟩
    obtain ⟨h1, h2⟩ := hrep k (by omega) (fun e => by omega)
    obtain ⟨log1, hl1⟩ : ∃ log1, log1 = List.replicate (k + 1) (c ++ [13]) ++ s.log := ⟨_, rfl⟩
    have hasks : asks log1 = true := by
      rw [hl1]
      exact (H.prompts.next _ _).2 ⟨h2, hp.trans (List.prefix_append _ _), hacc.2⟩
    have honto : Onto asks s.log log1 := by
      rw [hl1]
      exact h1.trans (.one (by simpa using command_unit (asks := asks) (part := []) hc h2))
    obtain ⟨s1, hs1⟩ : ∃ s1 : St, s1 = { s with log := List.replicate (k + 1) (c ++ [13]) ++ s.log, writeWait := w } := ⟨_, rfl⟩
    rw [← hs1]
    have hlog : s1.log = log1 := by rw [hs1, hl1]
    have hsm : s1.smscNumber = s.smscNumber := by rw [hs1]
    obtain ⟨j, w2, he2, hbusy2, hout2⟩ := write_outcome (data := body) (term := [26]) (env := env) s1
    have hj : j = 1 := by
      have hle : ¬ 2 ≤ j := fun h => H.busy (body ++ [26]) s1.log (by rw [hlog]; exact hasks) (by simpa using hbusy2 0 (by omega))
      have hge : j ≠ 0 := by
        rintro rfl
        have hd : ∃ d, env.depth = d + 1 := by
          cases hd : env.depth with
          | zero => cases hdepth hd
          | succ d => exact ⟨d, rfl⟩
        obtain ⟨d, hd⟩ := hd
        have hne : (write body true [26] env s1).2.log ≠ s1.log := by
          intro h
          have hw : write body true [26] env s1 = writeN (d + 1) body true [26] env s1 := by show writeN env.depth _ _ _ _ _ = _; rw [hd]
          rw [hw] at h
          have hlen := congrArg List.length h
          obtain ⟨j, w3, h3⟩ := writeN_state (data := body) (term := [26]) (pe := true) (env := env) d { s1 with log := (body ++ [26]) :: s1.log, writeWait := s1.writeWait + 2 }
          simp only [writeN] at hlen
          split at hlen
          · simp at hlen
          · split at hlen
            · simp at hlen
            · simp only [if_true] at hlen
              split at hlen
              · simp at hlen
              · simp at hlen
              · split at hlen
                · next he => rw [he] at h3; dsimp only at h3; subst h3; simp at hlen; try omega
                · next he => rw [he] at h3; dsimp only at h3; subst h3; simp at hlen; try omega
        apply hne
        rw [he2]; rfl
      omega
    subst hj
    rw [he2]
    refine ⟨?_, ⟨?_, fun n hn => hs.smsc n (by rw [← hsm]; exact hn)⟩, fun _ _ => trivial⟩
    · show Onto asks s.log ((body ++ [26]) :: s1.log)
      rw [hlog]
      exact honto.trans (.one (by simpa using message_unit (asks := asks) (part := []) hb hasks))
    · show asks ((body ++ [26]) :: s1.log) = false
      cases ha : asks ((body ++ [26]) :: s1.log) with
      | false => rfl
      | true =>
        have := ((H.prompts.next _ _).1 ha).1
        rw [hlog, hasks] at this; cases this

end Gsm
