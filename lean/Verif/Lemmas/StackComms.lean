import Verif.Lemmas.Serial
import Verif.Spec.Stack
import Verif.Model.Stack
/-! # What the reader has read -/
namespace Gsm
open List Spec

/-- The lines that the reader has, with a command that waits for this prompt, are such as can be heard. -/
structure CommsOk (p : Option PyStr) (c : Comms) : Prop where
  buffer : NoEol c.rxBuffer
  notification : ∀ l ∈ c.notification, LineText l
  notified : ∀ b ∈ c.notified, Batch b
  idle : c.pending = none → c.expect = none
  expect : ∀ r, c.pending = some r → c.expect = p
  waiting : ∀ ls, c.pending = some ⟨ls, false⟩ → Begun p ls ∧ (ls ≠ [] → ∀ q, p = some q → ∀ l, l <+: c.rxBuffer → ¬ q <:+ l)
  set : ∀ ls, c.pending = some ⟨ls, true⟩ → Heard p ls

theorem unprompted_nil {p : Option PyStr} : Unprompted p [] := fun _ _ _ h => nomatch h

theorem begun_nil {p : Option PyStr} : Begun p [] := ⟨fun _ h => (nomatch h), unprompted_nil, fun _ h => (nomatch h)⟩

theorem unprompted_snoc {p : Option PyStr} {ls : List PyStr} {l : PyStr} (h : Unprompted p ls) (hl : ls ≠ [] → ∀ q, p = some q → ¬ q <:+: l) : Unprompted p (ls ++ [l]) := by
  intro q hq l' hm
  cases ls with
  | nil => exact nomatch hm
  | cons a ls =>
    rcases List.mem_append.1 hm with hm | hm
    · exact h q hq l' hm
    · cases List.mem_singleton.1 hm
      exact hl (by simp) q hq

theorem begun_snoc {p : Option PyStr} {ls : List PyStr} {l : PyStr} (h : Begun p ls) (h1 : LineText l) (h2 : ¬ IsFinal l) (hl : ls ≠ [] → ∀ q, p = some q → ¬ q <:+: l) : Begun p (ls ++ [l]) := by
  refine ⟨fun l' hm => ?_, unprompted_snoc h.unprompted hl, fun l' hm => ?_⟩
  · rcases List.mem_append.1 hm with hm | hm
    · exact h.readable l' hm
    · cases List.mem_singleton.1 hm; exact h1
  · rcases List.mem_append.1 hm with hm | hm
    · exact h.notFinal l' hm
    · cases List.mem_singleton.1 hm; exact h2

theorem infix_iff_suffix {q l : PyStr} : q <:+: l ↔ ∃ l', l' <+: l ∧ q <:+ l' :=
  ⟨fun ⟨a, b, e⟩ => ⟨a ++ q, ⟨b, e⟩, ⟨a, rfl⟩⟩, fun ⟨_, ⟨b, e⟩, ⟨a, e'⟩⟩ => ⟨a, b, by rw [e', e]⟩⟩

theorem suffix_nil_ne {q : PyStr} (h : q ≠ []) : ¬ q <:+ [] := fun h' => h (List.suffix_nil.1 h')

/-- A line (complete, or a prompt) for an answer that is waited for, or as a notification. -/
theorem commsOk_handle {p : Option PyStr} (hp : p ≠ some []) {c : Comms} (h : CommsOk p c) {l : PyStr} (hl : LineText l) {check more : Bool}
    (hc : check = true → ∀ ls, c.pending = some ⟨ls, false⟩ → ls ≠ [] → ∀ q, p = some q → ¬ q <:+: l)
    (hq : check = false → ∃ q, p = some q ∧ q <:+ l ∧ ∀ ls, c.pending = some ⟨ls, false⟩ → ls ≠ [] → ∀ l', l' <+: l → q <:+ l' → l' = l) :
    CommsOk p (handleLineRead { c with rxBuffer := [] } l check more) := by
  unfold handleLineRead
  dsimp only
  split
  · next resp hpd =>
    obtain ⟨hb, hs⟩ := h.waiting resp hpd
    refine ⟨noEol_nil, h.notification, h.notified, fun h => (nomatch h), fun r _ => h.expect _ hpd, fun ls hls => ?_, fun ls hls => ?_⟩
    · simp only [Option.some.injEq, Pending.mk.injEq, Bool.or_eq_false_iff, Bool.not_eq_false'] at hls
      obtain ⟨rfl, h1, h2⟩ := hls
      refine ⟨begun_snoc hb hl (fun hf => by rw [isResponseTerm_iff.2 hf] at h2; cases h2) (hc h1 resp hpd), fun _ q hq' l' hl' => ?_⟩
      rw [List.prefix_nil.1 hl']
      exact suffix_nil_ne fun e => hp (by rw [hq', e])
    · simp only [Option.some.injEq, Pending.mk.injEq] at hls
      obtain ⟨rfl, h1⟩ := hls
      cases check with
      | true => exact .code hb hl (isResponseTerm_iff.1 (by simpa using h1)) (unprompted_snoc hb.unprompted (hc rfl resp hpd))
      | false =>
        obtain ⟨q, e1, e2, e3⟩ := hq rfl
        exact .prompt hb e1 e2 hl.2 (e3 resp hpd)
  · next hpd =>
    have hn : ∀ l' ∈ c.notification ++ [l], LineText l' := by
      intro l' hm
      rcases List.mem_append.1 hm with hm | hm
      · exact h.notification l' hm
      · cases List.mem_singleton.1 hm; exact hl
    have hw : ∀ ls, c.pending ≠ some ⟨ls, false⟩ := fun ls e => hpd ls e
    split
    · exact ⟨noEol_nil, hn, h.notified, h.idle, h.expect, fun ls e => absurd e (hw ls), h.set⟩
    · refine ⟨noEol_nil, fun _ h => (nomatch h), fun b hb => ?_, h.idle, h.expect, fun ls e => absurd e (hw ls), h.set⟩
      rcases List.mem_append.1 hb with hb | hb
      · exact h.notified b hb
      · cases List.mem_singleton.1 hb
        exact ⟨by simp, hn⟩

theorem commsOk_rx {p : Option PyStr} (hp : p ≠ some []) {c : Comms} (h : CommsOk p c) (x : Nat) (more : Bool) : CommsOk p (sstep c (.rx x more)) := by
  simp only [sstep]
  split
  · rcases readChar_cases c x more with ⟨l, e, hne, h3⟩ | ⟨_, h3⟩ | ⟨he, q, hq, hs, h3⟩ | ⟨he, hq, h3⟩ <;> rw [h3]
    · -- the line is the buffer without its last character
      have hb : c.rxBuffer = l ++ [13] := by
        have e' : c.rxBuffer ++ [x] = (l ++ [13]) ++ [10] := by rw [e, List.append_assoc]; rfl
        exact (List.append_inj' e' rfl).1
      have hl : LineText l := ⟨hne, noEol_left (by rw [← hb]; exact h.buffer)⟩
      refine commsOk_handle hp h hl (fun _ ls hls hls' q hq hin => ?_) (fun h => nomatch h)
      obtain ⟨l', h1, h2⟩ := infix_iff_suffix.1 hin
      exact (h.waiting ls hls).2 hls' q hq l' (h1.trans (by rw [hb]; exact List.prefix_append _ _)) h2
    · exact ⟨noEol_nil, h.notification, h.notified, h.idle, h.expect, fun ls hls => ⟨(h.waiting ls hls).1, fun _ q hq l hl => by
        rw [List.prefix_nil.1 hl]
        exact suffix_nil_ne fun e => hp (by rw [hq, e])⟩, h.set⟩
    · have hpd : ∃ r, c.pending = some r := by
        cases hpd : c.pending with
        | none => rw [h.idle hpd] at hq; cases hq
        | some r => exact ⟨r, rfl⟩
      obtain ⟨r, hr⟩ := hpd
      have hpq : p = some q := by rw [← h.expect r hr, hq]
      refine commsOk_handle hp h ⟨by simp, noEol_snoc h.buffer he⟩ (fun h => nomatch h) fun _ => ⟨q, hpq, hs, fun ls hls hls' l' hl' hq' => ?_⟩
      rcases List.prefix_concat_iff.1 hl' with e | hl''
      · exact e
      · exact absurd hq' ((h.waiting ls hls).2 hls' q hpq l' hl'')
    · refine ⟨noEol_snoc h.buffer he, h.notification, h.notified, h.idle, h.expect, fun ls hls => ⟨(h.waiting ls hls).1, fun hls' q hq' l hl => ?_⟩, h.set⟩
      rcases List.prefix_concat_iff.1 hl with e | hl'
      · rw [e]
        exact hq q (by rw [h.expect _ hls, hq'])
      · exact (h.waiting ls hls).2 hls' q hq' l hl'
  · exact h

theorem expectOf_ne {p : Option PyStr} (hp : p ≠ some []) : expectOf p = p := by
  rcases p with _ | _ | _
  · rfl
  · exact absurd rfl hp
  · rfl

theorem commsOk_start {p p' : Option PyStr} (hp' : p' ≠ some []) {c : Comms} (h : CommsOk p c) (hn : c.pending = none) : CommsOk p' (sstep c (.start p')) := by
  simp only [sstep, hn]
  refine ⟨h.buffer, h.notification, h.notified, fun h => (nomatch h), fun r _ => ?_, fun ls hls => ?_, fun ls hls => ?_⟩
  · show (expectOf p').or c.expect = p'
    rw [h.idle hn, expectOf_ne hp', Option.or_none]
  · cases hls
    exact ⟨begun_nil, fun h => absurd rfl h⟩
  · cases hls

theorem commsOk_fail {p : Option PyStr} {c : Comms} (h : CommsOk p c) : CommsOk p (sstep c .fail) :=
  ⟨h.buffer, h.notification, h.notified, h.idle, h.expect, h.waiting, h.set⟩

/-- The end of the wait. -/
theorem commsOk_over {p p' : Option PyStr} {c : Comms} (h : CommsOk p c) {e : SEvent} (he : e = .finish ∨ e = .expire) :
    sstep c e = c ∨ ∃ o, (sstep c e).outcomes = c.outcomes ++ [o] ∧ Comes p o.reply ∧ (sstep c e).pending = none ∧ (sstep c e).notified = c.notified ∧ CommsOk p' (sstep c e) := by
  cases hpd : c.pending with
  | none => rcases he with rfl | rfl <;> (left; simp [sstep, hpd])
  | some r =>
    obtain ⟨ls, b⟩ := r
    rcases he with rfl | rfl
    · cases b with
      | false => left; simp [sstep, hpd]
      | true =>
        right
        have e : sstep c .finish = { c with pending := none, expect := none, outcomes := c.outcomes ++ [.returned ls] } := by simp [sstep, hpd]
        rw [e]
        exact ⟨_, rfl, .answer (h.set ls hpd), rfl, rfl, h.buffer, h.notification, h.notified, fun _ => rfl, fun _ h => (nomatch h), fun _ h => (nomatch h), fun _ h => (nomatch h)⟩
    · right
      have e : sstep c .expire = { c with pending := none, expect := none, outcomes := c.outcomes ++ [.timeout (if ls.length > 0 then some ls else none)] } := by simp [sstep, hpd]
      rw [e]
      refine ⟨_, rfl, ?_, rfl, rfl, h.buffer, h.notification, h.notified, fun _ => rfl, fun _ h => (nomatch h), fun _ h => (nomatch h), fun _ h => (nomatch h)⟩
      show Comes p (.timeout (if ls.length > 0 then some ls else none))
      split
      · next hl =>
        cases b with
        | false => exact .begun (List.length_pos_iff.1 hl) (h.waiting ls hpd).1
        | true => exact .late (h.set ls hpd)
      · exact .silence

theorem commsOk_init : CommsOk none {} :=
  ⟨noEol_nil, fun _ h => (nomatch h), fun _ h => (nomatch h), fun _ => rfl, fun _ h => (nomatch h), fun _ h => (nomatch h), fun _ h => (nomatch h)⟩

theorem promptOf_ne (t : PyStr) : promptOf t ≠ some [] := by
  unfold promptOf
  split <;> simp

theorem announced_iff {t : PyStr} : (t.take 8 = py!"AT+CMGS=" ∧ t.getLast? = some 13) ↔ Announced t := by
  unfold Announced
  have h1 : t.take 8 = py!"AT+CMGS=" ↔ py!"AT+CMGS=" <+: t := by
    rw [List.prefix_iff_eq_take]
    exact eq_comm
  rw [h1, List.getLast?_eq_some_iff]
  exact and_congr_right fun _ => ⟨fun ⟨a, e⟩ => ⟨a, e.symm⟩, fun ⟨a, e⟩ => ⟨a, e.symm⟩⟩

theorem comes_promptOf {t : PyStr} {r : Reply} : Comes (promptOf t) r ↔ (Announced t → Comes (some py!"> ") r) ∧ (¬ Announced t → Comes none r) := by
  unfold promptOf
  by_cases h : t.take 8 = py!"AT+CMGS=" ∧ t.getLast? = some 13
  · rw [if_pos h]
    exact ⟨fun hc => ⟨fun _ => hc, fun hn => absurd (announced_iff.1 h) hn⟩, fun hc => hc.1 (announced_iff.1 h)⟩
  · rw [if_neg h]
    exact ⟨fun hc => ⟨fun hn => absurd (announced_iff.2 hn) h, fun _ => hc⟩, fun hc => hc.2 fun hn => h (announced_iff.2 hn)⟩

end Gsm
