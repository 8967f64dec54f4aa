import Verif.Spec.Ussd
import Verif.Lemmas.Queries
import Verif.Lemmas.DialFrame
import Verif.Lemmas.Notify
/-! # USSD results in any text: lemmas -/
namespace Gsm
open M Spec

variable {env : Env}

theorem first_end : ∀ (n : Nat) {a b : PyStr} {d : Nat}, a.length ≤ n → (48 ≤ d ∧ d ≤ 57) →
    ∃ a' b' d', a ++ 34 :: 44 :: d :: b = a' ++ 34 :: 44 :: d' :: b' ∧ (48 ≤ d' ∧ d' ≤ 57) ∧ NoEnd a'
  | n, a, b, d, hn, hd => by
    by_cases h : NoEnd a
    · exact ⟨a, b, d, rfl, hd, h⟩
    · have h' : ∃ a1 b1 d1, a = a1 ++ 34 :: 44 :: d1 :: b1 ∧ (48 ≤ d1 ∧ d1 ≤ 57) := by
        refine Classical.byContradiction fun hc => h fun a1 b1 d1 ha hd1 => hc ⟨a1, b1, d1, ha, hd1⟩
      obtain ⟨a1, b1, d1, rfl, hd1⟩ := h'
      cases n with
      | zero => simp at hn
      | succ n =>
        obtain ⟨a', b', d', k1, k2, k3⟩ := first_end n (a := a1) (b := b1 ++ 34 :: 44 :: d :: b) (by simp at hn; omega) hd1
        exact ⟨a', b', d', by simpa using k1, k2, k3⟩

theorem digits_split : ∀ (s : PyStr), ∃ w r, s = w ++ r ∧ (∀ c ∈ w, 48 ≤ c ∧ c ≤ 57) ∧ ∀ c, r.head? = some c → ¬ (48 ≤ c ∧ c ≤ 57)
  | [] => ⟨[], [], rfl, by simp, by simp⟩
  | c :: s => by
    by_cases h : 48 ≤ c ∧ c ≤ 57
    · obtain ⟨w, r, rfl, h1, h2⟩ := digits_split s
      exact ⟨c :: w, r, rfl, fun x hx => by rcases List.mem_cons.1 hx with rfl | hx; exacts [h, h1 x hx], h2⟩
    · exact ⟨[], c :: s, rfl, by simp, fun x hx => by cases hx; exact h⟩

theorem ussd_match {text m r : PyStr} {st : Nat} (h : UssdAt text st m r) : ∃ coding, rxMatch? cusdRegex text = some ([[st], m, coding], r) := by
  obtain ⟨b, coding, rfl, h1, h2, h3, h4, hr⟩ := h
  refine ⟨coding, ?_⟩
  have hm := cusd_match (r := ⟨[], st, m, coding⟩) ⟨by simp [Blanks], h2, h3, h4⟩ (rest := r) hr
  have hhead : ∀ t : PyStr, ∀ c, (st :: t).head? = some c → isS c = false := by
    intro t c hc
    cases hc
    exact isS_digit _ h2.1 h2.2
  unfold rxMatch? cusdRegex rxGrp at hm ⊢
  simp only [UssdResult.text, List.append_assoc, List.cons_append, List.nil_append] at hm ⊢
  refine rxRun_litE (rxRun_star (spaces_iff.1 h1) (hhead _) ?_)
  rw [rxRun_op]
  obtain ⟨s1, k1, k2⟩ := rxRun_lit_some hm
  obtain rfl := List.append_cancel_left (as := py!"+CUSD:") k1
  obtain ⟨w, s2, k3, k4, _, _, k5⟩ := rxRun_rep_some k2
  cases w with
  | nil =>
    rw [List.nil_append] at k3
    subst k3
    rw [rxRun_op] at k5
    exact k5
  | cons c w =>
    obtain ⟨rfl, _⟩ := List.cons.inj k3
    exact absurd (k4 st (by simp)) (by simp [isS_digit _ h2.1 h2.2])

theorem ussd_some {text : PyStr} {x : List PyStr × PyStr} (h : rxMatch? cusdRegex text = some x) :
    ∃ st m coding, x.1 = [[st], m, coding] ∧ UssdAt text st m x.2 := by
  have key : ∃ st m r, UssdAt text st m r := by
    unfold rxMatch? cusdRegex rxGrp at h
    simp only [List.append_assoc, List.cons_append, List.nil_append] at h
    obtain ⟨s1, rfl, k1⟩ := rxRun_lit_some h
    obtain ⟨b, s2, rfl, hb, _, _, k2⟩ := rxRun_rep_some k1
    rw [rxRun_op] at k2
    obtain ⟨st, s3, rfl, hst, k3⟩ := rxRun_ch_some k2
    rw [rxRun_cl] at k3
    obtain ⟨s4, rfl, k4⟩ := rxRun_lit_some k3
    rw [rxRun_op] at k4
    obtain ⟨w, s5, rfl, _, _, _, k5⟩ := rxRun_rep_some k4
    rw [rxRun_cl] at k5
    obtain ⟨s6, rfl, k6⟩ := rxRun_lit_some k5
    rw [rxRun_op] at k6
    obtain ⟨ds, s7, rfl, hds, hl, _, _⟩ := rxRun_rep_some k6
    cases ds with
    | nil => simp at hl
    | cons d ds =>
      obtain ⟨m, b', d', e1, e2, e3⟩ := first_end _ (a := w) (b := ds ++ s7) (Nat.le_refl _) (isD_iff.1 (hds d (by simp)))
      obtain ⟨w', r, rfl, e4, e5⟩ := digits_split b'
      refine ⟨st, m, r, b, d' :: w', ?_, spaces_iff.2 hb, isD_iff.1 hst, e3, ⟨by simp, ?_⟩, e5⟩
      · simpa using e1
      · intro c hc
        rcases List.mem_cons.1 hc with rfl | hc
        exacts [e2, e4 c hc]
  obtain ⟨st, m, r, hu⟩ := key
  obtain ⟨coding, hm⟩ := ussd_match hu
  rw [h] at hm
  cases hm
  exact ⟨st, m, coding, rfl, hu⟩

theorem ussd_none {text : PyStr} : rxMatch? cusdRegex text = none ↔ ∀ st m r, ¬ UssdAt text st m r := by
  constructor
  · intro h st m r hu
    obtain ⟨_, hm⟩ := ussd_match hu
    rw [h] at hm
    cases hm
  · intro h
    cases hm : rxMatch? cusdRegex text with
    | none => rfl
    | some x =>
      obtain ⟨st, m, _, _, hu⟩ := ussd_some hm
      exact absurd hu (h _ _ _)

theorem ussdAt_unique {text m m' r r' : PyStr} {st st' : Nat} (h : UssdAt text st m r) (h' : UssdAt text st' m' r') : st = st' ∧ m = m' ∧ r = r' := by
  obtain ⟨_, h1⟩ := ussd_match h
  obtain ⟨_, h2⟩ := ussd_match h'
  rw [h1] at h2
  simp only [Option.some.injEq, Prod.mk.injEq, List.cons.injEq] at h2
  exact ⟨h2.1.1.1, h2.1.2.1, h2.2⟩

theorem ussdAt_shorter {text m r : PyStr} {st : Nat} (h : UssdAt text st m r) : r.length < text.length := by
  obtain ⟨b, c, rfl, _⟩ := h
  simp; omega

/-- The matches are the results. -/
theorem findAll_ussd : ∀ (fuel : Nat) {text : PyStr}, text.length < fuel →
    ∃ rs, UssdIn text rs ∧ cusdPairs (rxFindAll cusdRegex fuel text) = rs.map fun r => ([r.1], r.2)
  | 0, text, h => by simp at h
  | fuel + 1, [], _ => by
    have hn : rxMatch? cusdRegex [] = none := by decide
    refine ⟨[], .done fun a b st m r hab => ?_, by simp [rxFindAll, hn, cusdPairs]⟩
    obtain ⟨rfl, rfl⟩ := List.append_eq_nil_iff.1 hab.symm
    exact ussd_none.1 hn _ _ _
  | fuel + 1, c :: s, h => by
    cases hm : rxMatch? cusdRegex (c :: s) with
    | some x =>
      obtain ⟨g, rest⟩ := x
      obtain ⟨st, m, coding, hg, hu⟩ := ussd_some hm
      dsimp only at hg hu
      subst hg
      have := ussdAt_shorter hu
      obtain ⟨rs, h1, h2⟩ := findAll_ussd fuel (text := rest) (by omega)
      refine ⟨(st, m) :: rs, .next (junk := []) (fun a b _ _ _ hab hb => absurd (List.append_eq_nil_iff.1 hab.symm).2 hb) hu h1, ?_⟩
      rw [rxFindAll, hm]
      simp only [List.map_cons, ← h2]
      rfl
    | none =>
      obtain ⟨rs, h1, h2⟩ := findAll_ussd fuel (text := s) (by simp at h; omega)
      have hn := ussd_none.1 hm
      refine ⟨rs, ?_, by rw [rxFindAll, hm]; exact h2⟩
      cases h1 with
      | done h3 =>
        refine .done fun a b st m r hab => ?_
        cases a with
        | nil => rw [← show c :: s = b from hab]; exact hn _ _ _
        | cons a' a => exact h3 a b st m r (List.cons.inj hab).2
      | @next junk text st m r rs h3 h4 h5 =>
        refine .next (junk := c :: junk) (fun a b st m r hab hb => ?_) h4 h5
        cases a with
        | nil => rw [← show c :: junk = b from hab]; exact hn _ _ _
        | cons a' a => exact h3 a b st m r (List.cons.inj hab).2 hb

theorem cusdLoop_pairs : ∀ (rs : List (Nat × PyStr)) (m : Option PyStr) (a : Bool), cusdLoop m a (rs.map fun r => ([r.1], r.2)) =
    ((((rs.filter fun r => r.1 ≠ 50).getLast?).map (·.2)).or m, a && rs.all fun r => r.1 = 49) := by
  intro rs m a
  have := cusdLoop_eq (rs.map fun r => ⟨[], r.1, r.2, []⟩) m a
  simpa [ussdMessage, ussdOpen, List.map_map, Function.comp_def, List.filter_map, List.getLast?_map, List.all_map, Option.map_map] using this

theorem parse_means (lines : List PyStr) : UssdMeans lines (parseCusdResponse lines) := by
  match lines with
  | [] => exact .empty
  | [l] =>
    unfold parseCusdResponse rxGroups
    dsimp only
    cases hm : rxMatch? cusdRegex l with
    | none => exact .noLine (ussd_none.1 hm)
    | some x =>
      obtain ⟨g, rest⟩ := x
      obtain ⟨st, m, coding, hg, hu⟩ := ussd_some hm
      dsimp only at hg hu
      subst hg
      have := UssdMeans.line hu
      rw [show decide (st = 49) = ([st] == py!"1") by by_cases h : st = 49 <;> simp [h]] at this
      exact this
  | l1 :: l2 :: ls =>
    unfold parseCusdResponse
    simp only [pyJoin_eq]
    obtain ⟨rs, h1, h2⟩ := findAll_ussd (([13, 10].intercalate (l1 :: l2 :: ls)).length + 1) (Nat.lt_succ_self _)
    rw [h2]
    match rs with
    | [] => exact .none h1
    | [(st, m)] =>
      have := UssdMeans.one h1
      rw [show decide (st = 49) = ([st] == py!"1") by by_cases h : st = 49 <;> simp [h]] at this
      exact this
    | r1 :: r2 :: rs =>
      have := UssdMeans.several h1 (by simp)
      have e := cusdLoop_pairs (r1 :: r2 :: rs) none true
      simp only [List.map_cons] at e ⊢
      rw [e]
      simpa using this

theorem ussdIn_unique {text : PyStr} {rs rs' : List (Nat × PyStr)} (h : UssdIn text rs) (h' : UssdIn text rs') : rs = rs' := by
  induction h generalizing rs' with
  | done h =>
    cases h' with
    | done => rfl
    | next _ h2 _ => exact absurd h2 (h _ _ _ _ _ rfl)
  | @next junk text st m r rs h1 h2 _ ih =>
    generalize ht : junk ++ text = t at h'
    cases h' with
    | done h => exact absurd h2 (h _ _ _ _ _ ht.symm)
    | @next junk' text' st' m' r' rs'' k1 k2 k3 =>
      have : text = text' := by
        rcases List.append_eq_append_iff.1 ht with ⟨a, ha, hb⟩ | ⟨a, ha, hb⟩
        · cases a with
          | nil => simpa using hb
          | cons x a => exact absurd (hb ▸ h2) (k1 junk (x :: a) _ _ _ ha (by simp))
        · cases a with
          | nil => simpa using hb.symm
          | cons x a => exact absurd (hb ▸ k2) (h1 junk' (x :: a) _ _ _ ha (by simp))
      subst this
      obtain ⟨rfl, rfl, rfl⟩ := ussdAt_unique h2 k2
      rw [ih k3]

theorem means_unique {lines : List PyStr} {r r' : Except PyErr Ussd} (h : UssdMeans lines r) (h' : UssdMeans lines r') : r = r' := by
  cases h with
  | empty => cases h'; rfl
  | line h =>
    cases h' with
    | line h' => obtain ⟨rfl, rfl, _⟩ := ussdAt_unique h h'; rfl
    | noLine h' => exact absurd h (h' _ _ _)
  | noLine h =>
    cases h' with
    | line h' => exact absurd h' (h _ _ _)
    | noLine => rfl
  | none h =>
    cases h' with
    | none => rfl
    | one h' => exact nomatch ussdIn_unique h h'
    | several h' hl => rw [← ussdIn_unique h h'] at hl; simp at hl
  | one h =>
    cases h' with
    | none h' => exact nomatch ussdIn_unique h h'
    | one h' => have := ussdIn_unique h h'; simp at this; obtain ⟨rfl, rfl⟩ := this; rfl
    | several h' hl => rw [← ussdIn_unique h h'] at hl; simp at hl
  | several h hl =>
    cases h' with
    | none h' => rw [ussdIn_unique h h'] at hl; simp at hl
    | one h' => rw [ussdIn_unique h h'] at hl; simp at hl
    | several h' => rw [ussdIn_unique h h']

/-! ### What leaves the wait alone -/

/-- What `sendUssd` waits for. -/
def ussdState (s : St) : Option Bool × Option Ussd := (s.ussdSessionEvent, s.ussdResponse)

abbrev UssdFrame : St → St → Prop := Frame (fun _ => True) ussdState

theorem uf_write (data term : PyStr) (pe : Bool) : Steps env UssdFrame (write data pe term) :=
  frame_write trivial fun _ _ _ => rfl

macro "uframe" : tactic => `(tactic| (steps frame_pre) <;> try first
  | exact uf_write _ _ _
  | exact frame_same rfl rfl)

theorem uf_callback (c : Callback) : Steps env UssdFrame (callback c) := by unfold callback; uframe
theorem uf_memory (m w : Option PyStr) : Steps env UssdFrame (setSmsMemory m w) := by unfold setSmsMemory; uframe
theorem uf_read (i : PyStr) (m : Option PyStr) : Steps env UssdFrame (readStoredSms i m) := by
  have := uf_memory (env := env) m none
  unfold readStoredSms; uframe
theorem uf_delete (i : PyStr) (m : Option PyStr) : Steps env UssdFrame (deleteStoredSms i m) := by
  have := uf_memory (env := env) m none
  unfold deleteStoredSms; uframe
theorem uf_received (l : PyStr) : Steps env UssdFrame (handleSmsReceived l) := by
  have h1 := fun i m => uf_read (env := env) i m
  have h2 := fun i => uf_delete (env := env) i none
  unfold handleSmsReceived; uframe <;> first | exact h1 _ _ | exact h2 _ | exact uf_callback _
theorem uf_statusReport (l : PyStr) : Steps env UssdFrame (handleSmsStatusReport l) := by
  have h1 := fun i m => uf_read (env := env) i m
  have h2 := fun i => uf_delete (env := env) i none
  unfold handleSmsStatusReport updateSent; uframe <;> first | exact h1 _ _ | exact h2 _ | exact uf_callback _
theorem uf_setAnswered (i : Nat) (v : Bool) : Steps env UssdFrame (setAnswered i v) := by unfold setAnswered callback; uframe
theorem uf_answered (c : Option Int) : Steps env UssdFrame (handleCallAnswered c) := by
  have := fun i => uf_setAnswered (env := env) i true
  unfold handleCallAnswered; uframe <;> exact this _
theorem uf_ended (c : Option Int) (a b : Bool) : Steps env UssdFrame (handleCallEnded c a b) := by
  have := fun i => uf_setAnswered (env := env) i false
  unfold handleCallEnded; uframe <;> exact this _
theorem uf_initiated (a b : Int) : Steps env UssdFrame (handleCallInitiated a b) := by unfold handleCallInitiated; uframe
theorem uf_ringLoop (n : Option PyStr) : ∀ (l : List (Int × Nat)) (c : Option Nat), Steps env UssdFrame (ringLoop n l c)
  | [], c => by unfold ringLoop; uframe
  | (k, i) :: l, c => by
    have := fun c => uf_ringLoop n l c
    unfold ringLoop; uframe <;> exact this _
theorem uf_ringType (l : PyStr) : Steps env UssdFrame (ringType l) := by unfold ringType; uframe
theorem uf_callTypeOf (t : Option PyStr) : Steps env UssdFrame (callTypeOf t) := by unfold callTypeOf; uframe
theorem uf_registerNext (c : CallObj) : Steps env UssdFrame (registerNext c) := ⟨fun _ => frame_same rfl rfl⟩
theorem uf_incoming (ls : List PyStr) : Steps env UssdFrame (handleIncomingCall ls) := by
  unfold handleIncomingCall; uframe <;> first | exact uf_ringType _ | exact uf_ringLoop _ _ _ | exact uf_callback _ | exact uf_callTypeOf _ | exact uf_registerNext _
theorem uf_runCallHandler (h : CallHandler) (g : List PyStr) : Steps env UssdFrame (runCallHandler h g) := by
  unfold runCallHandler; uframe <;> first | exact uf_initiated _ _ | exact uf_answered _ | exact uf_ended _ _ _
theorem uf_clccQuery : Steps env UssdFrame clccQuery := by unfold clccQuery; uframe
theorem uf_pollStep (p : Poller) (seen : Option (Int × Int × Int × Int)) : Steps env UssdFrame (pollStep p seen) := by
  unfold pollStep; uframe <;> first | exact uf_initiated _ _ | exact uf_answered _ | exact uf_ended _ _ _
theorem uf_pollRound (p : Poller) : Steps env UssdFrame (pollRound p) := by
  unfold pollRound; uframe <;> first | exact uf_clccQuery | exact uf_pollStep _ _
theorem uf_poll (k : Nat) (s : St) : ussdState ((Event.poll k).run env s).2 = ussdState s := by
  simp only [Event.run]
  cases hp : s.pollers[k]? with
  | none => rfl
  | some p =>
    have := ((uf_pollRound (env := env) p).run s).2
    dsimp only
    rcases hr : pollRound p env s with ⟨_ | p', s'⟩ <;> (rw [hr] at this; exact this)

end Gsm
