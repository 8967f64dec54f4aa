import Verif.Spec.Dialogue
import Verif.Lemmas.Asked
import Verif.Props.Asked
import Verif.Props.ModemUssd
/-! # Lemmas: USSD dialogues -/
namespace Gsm
open M Spec

variable {env : Env} {V : UssdMenu} {reply : List PyStr → Reply}

theorem ussdInput_cmd (x : PyStr) : ussdInput (cusdLine x) = some x := by
  have h : ((cusdLine x).drop 11).take ((cusdLine x).length - 16) = x := by
    unfold cusdLine
    rw [List.drop_left' (by decide)]
    simp
  unfold ussdInput
  rw [h, if_pos rfl]

theorem ussdInput_some {c x : PyStr} (h : ussdInput c = some x) : c = cusdLine x := by
  unfold ussdInput at h
  split at h
  · next h1 => cases h; exact h1
  · cases h

theorem ussd_purpose (x : PyStr) : Purpose.ussd.Of (cusdLine x) := by
  have := kind_of (k := .ussd) (p := py!"AT+CUSD=1") (rest := py!",\"" ++ (x ++ py!"\",15")) (by decide) (by decide)
  simpa [cusdLine] using this

/-- Not a command for USSD. -/
def OtherCommand (c : PyStr) : Prop := ussdInput c = none ∧ c ≠ py!"AT+CUSD=2\r"

theorem other_command {k : Purpose} {c : PyStr} (h : k.Of c) (h1 : k ≠ .ussd) (h2 : k ≠ .ussdEnd) : OtherCommand c := by
  constructor
  · cases hc : ussdInput c with
    | none => rfl
    | some x =>
      rw [ussdInput_some hc] at h
      exact absurd (C115_kinds h (ussd_purpose x)) h1
  · rintro rfl
    exact absurd (C115_kinds h (k' := .ussdEnd) (by decide +kernel)) h2

theorem session_other : ∀ {sent log : List PyStr}, (∀ c ∈ sent, OtherCommand c) → sessionOf V reply (sent ++ log) = sessionOf V reply log
  | [], _, _ => rfl
  | c :: sent, log, h => by
    obtain ⟨h1, h2⟩ := h c (by simp)
    have ih := session_other (log := log) fun c hc => h c (List.mem_cons_of_mem _ hc)
    rw [List.cons_append, sessionOf, h1]
    dsimp only
    rw [if_neg h2, ih]
    split <;> rfl

theorem session_refused {c : PyStr} {log : List PyStr} (h : ¬ Accepted reply (c :: log)) : sessionOf V reply (c :: log) = sessionOf V reply log := by
  rw [sessionOf, if_neg h]

theorem session_repeat {c : PyStr} {log : List PyStr} : ∀ (k : Nat), (∀ i, i < k → ¬ Accepted reply (List.replicate (i + 1) c ++ log)) →
    sessionOf V reply (List.replicate k c ++ log) = sessionOf V reply log
  | 0, _ => rfl
  | k + 1, h => by
    have h1 := h k (by omega)
    rw [List.replicate_succ, List.cons_append] at h1 ⊢
    rw [session_refused h1]
    exact session_repeat k fun i hi => h i (by omega)

/-- A command that is written, again and again while the modem is busy, counts once, or not at all. -/
theorem session_trans {c : PyStr} {old log : List PyStr} {ok : Bool} (h : Transmission reply [c] old log ok) :
    (ok = true → Accepted reply log ∧ ∃ mid, log = c :: mid ∧ sessionOf V reply mid = sessionOf V reply old) ∧ (ok = false → sessionOf V reply log = sessionOf V reply old) := by
  generalize hcs : [c] = cs at h
  cases h with
  | done => cases hcs
  | @next _ _ _ k _ _ hk hb ha ht =>
    cases hcs
    cases ht with
    | done =>
      refine ⟨fun _ => ⟨ha, List.replicate (k - 1) c ++ old, ?_, ?_⟩, fun h => by cases h⟩
      · rw [← List.cons_append, ← List.replicate_succ, Nat.sub_add_cancel hk]
      · exact session_repeat _ fun i hi => busy_not_accepted (hb i (by omega))
  | @stop _ _ _ k hb ha =>
    cases hcs
    refine ⟨fun h => (by cases h), fun _ => session_repeat _ fun i hi => ?_⟩
    by_cases hik : i + 1 = k
    · subst hik; exact ha (by omega)
    · exact busy_not_accepted (hb i (by omega))

theorem session_enter {x : PyStr} {old log : List PyStr} (h : Transmission reply [cusdLine x] old log true) :
    sessionOf V reply log = entered V (sessionOf V reply old) x := by
  obtain ⟨h1, mid, rfl, h2⟩ := (session_trans (V := V) h).1 rfl
  rw [sessionOf, if_pos h1, ussdInput_cmd, h2]

theorem session_end {old log : List PyStr} (h : Transmission reply [py!"AT+CUSD=2\r"] old log true) : sessionOf V reply log = [] := by
  obtain ⟨h1, mid, rfl, h2⟩ := (session_trans (V := V) h).1 rfl
  rw [sessionOf, if_pos h1, show ussdInput py!"AT+CUSD=2\r" = none by decide +kernel]
  simp

/-! ### Pages -/

theorem at_rest {line m rest : PyStr} {st : Nat} (h : UssdAt line st m []) (hr : ∀ c, rest.head? = some c → ¬ (48 ≤ c ∧ c ≤ 57)) : UssdAt (line ++ rest) st m rest := by
  obtain ⟨b, coding, rfl, h1, h2, h3, h4, _⟩ := h
  exact ⟨b, coding, by simp, h1, h2, h3, h4, hr⟩

theorem at_length {t m r : PyStr} {st : Nat} (h : UssdAt t st m r) : 6 ≤ t.length := by
  obtain ⟨b, coding, rfl, _⟩ := h
  simp

theorem page_answer {line m : PyStr} {st : Nat} (h : UssdAt line st m []) : UssdMeans [line, py!"OK"] (.ok ⟨decide (st = 49), some m⟩) := by
  refine .one ?_
  have h1 : [13, 10].intercalate [line, py!"OK"] = [] ++ (line ++ py!"\r\nOK") := by simp [List.intercalate, List.intersperse]
  rw [h1]
  refine .next (fun a b st m r hab hb => absurd (List.append_eq_nil_iff.1 hab.symm).2 hb) (at_rest h (by simp)) (.done ?_)
  intro a b st m r hab hat
  have := at_length hat
  have h2 := congrArg List.length hab
  simp at h2
  omega

theorem page_line {line m : PyStr} {st : Nat} (h : UssdAt line st m []) : UssdMeans [line] (.ok ⟨decide (st = 49), some m⟩) := .line h

theorem page_starts {line m r : PyStr} {st : Nat} (h : UssdAt line st m r) : py!"+CUSD" <+: line := by
  obtain ⟨b, coding, rfl, _⟩ := h
  exact ⟨py!":" ++ (b ++ (st :: (py!",\"" ++ (m ++ (py!"\"," ++ (coding ++ r)))))), by simp⟩

theorem page_brings {line m : PyStr} {st : Nat} {s : St} (h : UssdAt line st m []) (hr : ¬ py!"RING" <:+: line) : BringsUssd s ⟨decide (st = 49), some m⟩ (.notify [line]) :=
  ⟨[], line, [], rfl, by simp, .ussd hr (page_starts h), .line h⟩

theorem noUssd_brings {s : St} {e : Event} (h : NoUssd e) (u : Ussd) : ¬ BringsUssd s u e := by
  cases e with
  | poll => exact fun h => h
  | notify batch =>
    rintro ⟨pre, line, post, rfl, _, ha, _⟩
    generalize hd : Dispatch.cusd = d at ha
    cases ha with
    | ussd _ h1 => exact h line (by simp) h1
    | _ => cases hd

theorem event_others (e : Event) (s : St) : ∃ sent, (e.run env s).2.log = sent ++ s.log ∧ ∀ c ∈ sent, OtherCommand c := by
  obtain ⟨⟨sent, h1, h2⟩, _⟩ := (as_event (env := env) (e := e) (ks := eventMay e) fun _ h => h).run s
  refine ⟨sent, h1, fun c hc => ?_⟩
  obtain ⟨k, hk, hk'⟩ := h2 c hc
  refine other_command hk' ?_ ?_ <;> rintro rfl <;> exact absurd (event_kinds hk) (by decide)

theorem awaits_page {line m : PyStr} {st : Nat} (h : UssdAt line st m []) (hr : ¬ py!"RING" <:+: line) (post : List Event) : ∀ (pre : List Event) (s : St), (∀ e ∈ pre, NoUssd e) →
    ∃ s', AwaitsUssd env s (pre ++ .notify [line] :: post) s' (some ⟨decide (st = 49), some m⟩) ∧ sessionOf V env.reply s'.log = sessionOf V env.reply s.log
  | [], s, _ => ⟨_, .told (page_brings h hr), rfl⟩
  | e :: pre, s, he => by
    obtain ⟨s', h1, h2⟩ := awaits_page h hr post pre (e.run env s).2 fun x hx => he x (List.mem_cons_of_mem _ hx)
    refine ⟨s', .other (noUssd_brings (he e (by simp))) h1, ?_⟩
    obtain ⟨sent, h3, h4⟩ := event_others (env := env) e s
    rw [h2, h3, session_other h4]

theorem displays_object {p : UssdPage} {line : PyStr} (h : DisplaysPage p line) : ∃ st, UssdAt line st p.text [] ∧ (⟨decide (st = 49), some p.text⟩ : Ussd) = pageObject p := by
  obtain ⟨st, h1, h2⟩ := h
  refine ⟨st, h1, ?_⟩
  unfold pageObject
  cases hm : p.more with
  | true => simp [h2.2 hm]
  | false =>
    have : st ≠ 49 := fun e => by rw [h2.1 e] at hm; cases hm
    simp [this]

/-- Work that is not USSD leaves the session alone. -/
theorem session_op [PyUnicode] {op : Op} (h : NotUssd op) (s : St) : sessionOf V env.reply (op.run env s).2.log = sessionOf V env.reply s.log := by
  obtain ⟨sent, h1, h2⟩ := C115_method (env := env) op s
  rw [h1]
  refine session_other fun c hc => ?_
  obtain ⟨k, hk, hk'⟩ := h2 c hc
  refine other_command hk' ?_ ?_ <;> rintro rfl
  · rcases C115_ussd hk with ⟨x, du, rfl⟩ | ⟨u, x, du, _, rfl⟩ <;> exact h
  · cases op <;> simp only [opMay] at hk <;> first | exact h | (split at hk <;> simp at hk) | (try simp at hk)
    all_goals first
      | exact absurd (event_kinds hk) (by decide)
      | (rcases hk with ⟨e, -, hk⟩ | ⟨e, -, hk⟩ <;> exact absurd (event_kinds hk) (by decide))
      | (rcases hk with ⟨e, -, hk⟩; exact absurd (event_kinds hk) (by decide))

end Gsm
