import Verif.Spec.Incoming
import Verif.Lemmas.Progress
import Verif.Lemmas.Connect
import Verif.Lemmas.Calls
/-! # Incoming calls: lemmas -/
namespace Gsm
open M Spec

variable {env : Env}

/-! ### The line with the number -/

theorem clip_rx : clipRegex = rxLit py!"+CLIP:" ++ (rxStar isS :: (rxLit py!"\"" ++ (.op :: rxOpt 43 :: rxPlus isD :: .cl ::
    (rxLit py!"\"," ++ (.op :: rxPlus isD :: .cl :: rxStar (notC 10) :: [.eol]))))) := by simp [clipRegex, rxGrp]

theorem clip_match {line number ton : PyStr} (h : ClipLine line number ton) : rxGroups clipRegex line = some [number, ton] := by
  obtain ⟨b, junk, t, rfl, hb, hn, ht, hj, h10, he⟩ := h
  have key : rxRun clipRegex (py!"+CLIP:" ++ (b ++ (py!"\"" ++ (number ++ (py!"\"," ++ (ton ++ (junk ++ t))))))) ⟨[], []⟩ = some ([number, ton], t) := by
    rw [clip_rx, rxRun_lit]
    refine rxRun_rep_longest (spaces_iff.1 hb) (Nat.zero_le _) (fun c hc => by cases hc; decide) ?_
    rw [rxRun_lit, rxRun_op]
    have tail : ∀ (ds cur : PyStr), Digits ds → rxRun (rxPlus isD :: .cl :: (rxLit py!"\"," ++ (.op :: rxPlus isD :: .cl :: rxStar (notC 10) :: [.eol])))
        (ds ++ (py!"\"," ++ (ton ++ (junk ++ t)))) ⟨[], cur⟩ = some ([cur ++ ds, ton], t) := by
      intro ds cur hd
      refine rxRun_rep_longest (digits_class hd) (List.length_pos_iff.2 hd.1) (fun c hc => by cases hc; decide) ?_
      rw [rxRun_cl, rxRun_lit, rxRun_op]
      refine rxRun_rep_longest (digits_class ht) (List.length_pos_iff.2 ht.1) (fun c hc => ?_) ?_
      · cases junk with
        | nil =>
          rcases he with rfl | rfl
          · cases hc
          · cases hc; decide
        | cons d junk =>
          have := hj d rfl
          obtain rfl : d = c := by simpa using hc
          cases h : isD d
          · rfl
          · exact absurd (isD_iff.1 h) this
      · rw [rxRun_cl]
        refine rxRun_rep_longest (notin_class h10) (Nat.zero_le _) (fun c hc => ?_) ?_
        · rcases he with rfl | rfl
          · cases hc
          · cases hc; decide
        · rw [rxRun_eol he, rxRun_nil]
          simp
    rcases hn with hn | ⟨d, rfl, hn⟩
    · refine rxRun_opt_none ?_ (by simpa using tail number [] hn)
      obtain ⟨h0, h1⟩ := hn
      cases number with
      | nil => exact absurd rfl h0
      | cons c r =>
        intro h
        cases h
        have := h1 43 (by simp)
        omega
    · exact rxRun_opt (by simpa using tail d [43] hn)
  unfold rxGroups rxMatch?
  rw [key]
  rfl

theorem takeWhile_class {p : Nat → Bool} : ∀ {l : PyStr} {c : Nat}, c ∈ l.takeWhile p → p c = true
  | a :: l, c, h => by
    rw [List.takeWhile_cons] at h
    split at h
    · next ha =>
      rcases List.mem_cons.1 h with rfl | h
      · exact ha
      · exact takeWhile_class h
    · simp at h

theorem clip_iff {line : PyStr} {g : List PyStr} : rxGroups clipRegex line = some g ↔ ∃ number ton, g = [number, ton] ∧ ClipLine line number ton := by
  constructor
  · intro h
    have h' := h
    unfold rxGroups rxMatch? at h'
    rw [Option.map_eq_some_iff, clip_rx] at h'
    obtain ⟨⟨g', r⟩, h', rfl⟩ := h'
    obtain ⟨s1, rfl, h1⟩ := rxRun_lit_some h'
    obtain ⟨a, s2, rfl, ha, _, _, h2⟩ := rxRun_rep_some h1
    obtain ⟨s3, rfl, h3⟩ := rxRun_lit_some h2
    rw [rxRun_op] at h3
    obtain ⟨o, s4, rfl, ho, _, ho1, h4⟩ := rxRun_rep_some h3
    obtain ⟨d, s5, rfl, hd, hd1, _, h5⟩ := rxRun_rep_some h4
    rw [rxRun_cl] at h5
    obtain ⟨s6, rfl, h6⟩ := rxRun_lit_some h5
    rw [rxRun_op] at h6
    obtain ⟨w, s7, rfl, hw, hw1, _, h7⟩ := rxRun_rep_some h6
    rw [rxRun_cl] at h7
    obtain ⟨junk, t, rfl, hj, _, _, h8⟩ := rxRun_rep_some h7
    obtain ⟨hend, _⟩ := rxRun_eol_some h8
    have hdig : Digits d := ⟨List.length_pos_iff.1 hd1, fun c hc => isD_iff.1 (hd c hc)⟩
    have hnum : PlainNumber (o ++ d) := by
      have := ho1 1 rfl
      rcases o with _ | ⟨c, _ | ⟨c', o⟩⟩
      · exact .inl hdig
      · have : c = 43 := by simpa using ho c (by simp)
        subst this
        exact .inr ⟨d, rfl, hdig⟩
      · simp at this
    have hmax : ClipLine (py!"+CLIP:" ++ (a ++ (py!"\"" ++ (o ++ (d ++ (py!"\"," ++ (w ++ (junk ++ t)))))))) (o ++ d) (w ++ junk.takeWhile isD) := by
      refine ⟨a, junk.dropWhile isD, t, ?_, spaces_iff.2 ha, hnum, ⟨?_, ?_⟩, ?_, ?_, hend⟩
      · conv => lhs; rw [← List.takeWhile_append_dropWhile (p := isD) (l := junk)]
        simp only [List.append_assoc]
      · intro h0
        have := congrArg List.length h0
        simp at this
        simp [this.1] at hw1
      · intro c hc
        rcases List.mem_append.1 hc with hc | hc
        · exact isD_iff.1 (hw c hc)
        · exact isD_iff.1 (takeWhile_class hc)
      · intro c hc h48
        have := List.head?_dropWhile_not isD junk
        rw [hc] at this
        simp only at this
        rw [isD_iff.2 h48] at this
        cases this
      · intro h10
        have := hj 10 ((List.dropWhile_suffix _).subset h10)
        simp [notC] at this
    have := clip_match hmax
    rw [this] at h
    cases h
    exact ⟨_, _, rfl, hmax⟩
  · rintro ⟨number, ton, rfl, h⟩
    exact clip_match h

theorem clip_unique {line n t n' t' : PyStr} (h : ClipLine line n t) (h' : ClipLine line n' t') : n = n' ∧ t = t' := by
  have := clip_match h
  rw [clip_match h'] at this
  simpa [eq_comm] using this

theorem callerOf_spec (s : St) (lines : List PyStr) : Caller s lines (callerOf s lines).1 (callerOf s lines).2 := by
  unfold callerOf
  cases hc : s.callingLineIdentification
  · exact .off hc
  · simp only [if_true]
    cases lines with
    | nil => exact .missing
    | cons line rest =>
      dsimp only
      cases hg : rxGroups clipRegex line with
      | none =>
        refine .unknown hc fun n t h => ?_
        rw [clip_match h] at hg; cases hg
      | some g =>
        obtain ⟨n, t, rfl, h⟩ := clip_iff.1 hg
        exact .known hc h

theorem caller_unique {s : St} {lines : List PyStr} {n t n' t' : Option PyStr} (h : Caller s lines n t) (h' : Caller s lines n' t') : n = n' ∧ t = t' := by
  cases h with
  | known hc h =>
    cases h' with
    | known _ h' => obtain ⟨rfl, rfl⟩ := clip_unique h h'; exact ⟨rfl, rfl⟩
    | unknown _ h' => exact absurd h (h' _ _)
    | off h' => rw [hc] at h'; cases h'
  | unknown hc h =>
    cases h' with
    | known _ h' => exact absurd h' (h _ _)
    | unknown _ _ => exact ⟨rfl, rfl⟩
    | off _ => exact ⟨rfl, rfl⟩
  | missing => cases h' <;> exact ⟨rfl, rfl⟩
  | off hc =>
    cases h' with
    | known h' _ => rw [hc] at h'; cases h'
    | _ => exact ⟨rfl, rfl⟩

/-! ### Commands that are refused -/

theorem failed_command {line : PyStr} {e : PyErr} (h : classify line = .failed e) :
    (∃ c n, e = .command c n) ∧ (py!"ERROR" <:+: line ∨ line = py!"COMMAND NOT SUPPORT") ∧ ∀ n, ¬ Busy n line := by
  refine ⟨?_, ?_, fun n hb => ?_⟩
  · by_cases hc : ∃ ty ds, IsCmError ty ds line
    · obtain ⟨ty, ds, hc⟩ := hc
      rw [classify_cm hc] at h
      split at h
      · cases h
      · unfold errorFor at h
        split at h <;> (simp at h; exact ⟨_, _, h.symm⟩)
    · by_cases he : py!"ERROR" <:+: line
      · rw [classify_plain he (fun ty ds hx => hc ⟨ty, ds, hx⟩)] at h
        simp at h; exact ⟨_, _, h.symm⟩
      · by_cases hn : line = py!"COMMAND NOT SUPPORT"
        · subst hn
          have : classify py!"COMMAND NOT SUPPORT" = .failed (.command .command none) := by decide
          rw [this] at h
          simp at h; exact ⟨_, _, h.symm⟩
        · rw [classify_fine.2 ⟨he, hn⟩] at h; cases h
  · by_contra hn
    rw [not_or] at hn
    rw [classify_fine.2 hn] at h; cases h
  · rw [busy_classify hb] at h; cases h

theorem writeN_refused {data term : PyStr} : ∀ (depth : Nat) {s s' : St} {e : PyErr}, writeN (depth + 1) data true term env s = (.error e, s') →
    ((∃ c n, e = .command c n) ↔ RefusedCommand env.reply s'.log) := by
  intro depth
  induction depth with
  | zero =>
    intro s s' e h
    simp only [writeN] at h
    split at h
    · next d hr =>
      cases h
      refine ⟨(fun ⟨_, _, h⟩ => nomatch h), fun ⟨_, _, h, _⟩ => ?_⟩
      rw [hr] at h; cases h
    · next ls hr =>
      split at h
      · next hl =>
        cases h
        refine ⟨(fun ⟨_, _, h⟩ => nomatch h), fun ⟨_, _, h, h2, _⟩ => ?_⟩
        rw [hr] at h; cases h
        rw [hl] at h2; cases h2
      · next line hl =>
        simp only [if_true] at h
        split at h
        · cases h
        · next e' hc =>
          cases h
          obtain ⟨h1, h2, h3⟩ := failed_command hc
          exact ⟨fun _ => ⟨ls, line, hr, hl, h2, h3⟩, fun _ => h1⟩
        · next n hc =>
          simp only [M.raise] at h
          cases h
          refine ⟨(fun ⟨_, _, h⟩ => nomatch h), fun ⟨_, _, h, h2, _, h3⟩ => ?_⟩
          obtain ⟨m, _, hb⟩ := busy_of_classify hc
          dsimp only at h
          rw [hr] at h; cases h
          rw [hl] at h2; cases h2
          exact absurd hb (h3 m)
  | succ depth ih =>
    intro s s' e h
    rw [writeN] at h
    dsimp only at h
    split at h
    · next d hr =>
      cases h
      refine ⟨(fun ⟨_, _, h⟩ => nomatch h), fun ⟨_, _, h, _⟩ => ?_⟩
      rw [hr] at h; cases h
    · next ls hr =>
      split at h
      · next hl =>
        cases h
        refine ⟨(fun ⟨_, _, h⟩ => nomatch h), fun ⟨_, _, h, h2, _⟩ => ?_⟩
        rw [hr] at h; cases h
        rw [hl] at h2; cases h2
      · next line hl =>
        simp only [if_true] at h
        split at h
        · cases h
        · next e' hc =>
          cases h
          obtain ⟨h1, h2, h3⟩ := failed_command hc
          exact ⟨fun _ => ⟨ls, line, hr, hl, h2, h3⟩, fun _ => h1⟩
        · split at h
          · cases h
          · next he => cases h; exact ih he

/-- A failed command raises a `CommandError` exactly if the modem refused it. -/
theorem write_refused (hd : 0 < env.depth) {data term : PyStr} {s s' : St} {e : PyErr} (h : write data true term env s = (.error e, s')) :
    (∃ c n, e = .command c n) ↔ RefusedCommand env.reply s'.log := by
  obtain ⟨d, hd⟩ : ∃ d, env.depth = d + 1 := ⟨env.depth - 1, by omega⟩
  unfold write at h
  rw [hd] at h
  exact writeN_refused d h

/-! ### The type of the call -/

theorem afterSpace_some : ∀ {l t : PyStr}, afterSpace l = some t → ∃ a, l = a ++ 32 :: t ∧ 32 ∉ a
  | c :: l, t, h => by
    unfold afterSpace at h
    split at h
    · next hc => subst hc; cases h; exact ⟨[], rfl, by simp⟩
    · next hc =>
      obtain ⟨a, rfl, h1⟩ := afterSpace_some h
      exact ⟨c :: a, rfl, by simp [h1, Ne.symm hc]⟩

theorem afterSpace_none : ∀ {l : PyStr}, afterSpace l = none → 32 ∉ l
  | [], _ => by simp
  | c :: l, h => by
    unfold afterSpace at h
    split at h
    · cases h
    · next hc => simp [afterSpace_none h, Ne.symm hc]

theorem ringType_spec (hd : 0 < env.depth) (line : PyStr) (s : St) : RingType env s line (ringType line env s).1 (ringType line env s).2 := by
  unfold ringType
  simp only [run_bind, run_get]
  cases hx : s.extendedIncomingCallIndication
  · simp only [Bool.false_eq_true, if_false, run_pure]; exact .off hx
  · simp only [if_true]
    cases ha : afterSpace line with
    | some t =>
      obtain ⟨a, h1, h2⟩ := afterSpace_some ha
      exact .type hx h1 h2
    | none =>
      have h32 := afterSpace_none ha
      obtain ⟨ok, s1, ⟨l, w, rfl⟩, h2, ⟨rfl, h3⟩ | ⟨rfl, e, h3⟩⟩ := write_trans (env := env) py!"AT+CRC=1" [13] s
      · dsimp only
        rw [run_bind, try_yes h3]
        exact .again hx h32 h2
      · dsimp only
        by_cases hr : RefusedCommand env.reply l
        · obtain ⟨c, n, rfl⟩ := (write_refused hd h3).2 hr
          rw [run_bind, try_no h3]
          exact .giveUp hx h32 h2 hr
        · have hne : ∀ c n, e ≠ .command c n := fun c n h => hr ((write_refused hd h3).1 ⟨c, n, h⟩)
          have : tryCommand (write py!"AT+CRC=1") env s = (.error e, { s with log := l, writeWait := w }) := by
            unfold tryCommand
            simp only [except, run_bind, h3]
            cases e with
            | command c n => exact absurd rfl (hne c n)
            | _ => rfl
          rw [run_bind, this]
          exact .fails hx h32 h2 hr

/-! ### The loop over the calls -/

/-- The calls with this number in a part of the table. -/
def callsIn (s : St) (number : Option PyStr) (l : List (Int × Nat)) : List Nat := (l.map (·.2)).filter fun i => (s.calls[i]?).any (·.number == number)

/-- One more ring of a call. -/
def ringOne (s : St) (i : Nat) : St := { s with calls := s.calls.modify i fun c => { c with ringCount := c.ringCount + 1 } }

theorem ringOne_get (s : St) (i j : Nat) : (ringOne s i).calls[j]? = (s.calls[j]?).map fun c => if i = j then { c with ringCount := c.ringCount + 1 } else c := by
  simp only [ringOne, List.getElem?_modify]
  split <;> simp

theorem ringOne_number (s : St) (n : Option PyStr) (i j : Nat) : ((ringOne s i).calls[j]?).any (·.number == n) = (s.calls[j]?).any (·.number == n) := by
  rw [ringOne_get, Option.any_map]
  congr 1
  funext c
  by_cases h : i = j <;> simp [h]

theorem ringOne_incoming (s : St) (i j : Nat) : IsIncoming (ringOne s i) j = IsIncoming s j := by
  unfold IsIncoming
  rw [ringOne_get, Option.any_map]
  congr 1
  funext c
  by_cases h : i = j <;> simp [h]

theorem ringOne_in (s : St) (n : Option PyStr) (i : Nat) (l : List (Int × Nat)) : callsIn (ringOne s i) n l = callsIn s n l := by
  unfold callsIn
  simp only [ringOne_number]

theorem ringMore_nil (s : St) : ringMore s [] = s := by
  unfold ringMore
  have : (s.calls.mapIdx fun i c => if i ∈ ([] : List Nat) then { c with ringCount := c.ringCount + 1 } else c) = s.calls := by
    apply List.ext_getElem? ; intro i; simp [List.getElem?_mapIdx]
  rw [this]

theorem ringMore_cons {s : St} {i : Nat} {is : List Nat} (h : i ∉ is) : ringMore (ringOne s i) is = ringMore s (i :: is) := by
  unfold ringMore
  have : (ringOne s i).calls.mapIdx (fun j c => if j ∈ is then { c with ringCount := c.ringCount + 1 } else c) =
      s.calls.mapIdx (fun j c => if j ∈ i :: is then { c with ringCount := c.ringCount + 1 } else c) := by
    apply List.ext_getElem?
    intro j
    rw [List.getElem?_mapIdx, List.getElem?_mapIdx, ringOne_get, Option.map_map]
    congr 1
    funext c
    by_cases hij : i = j
    · subst hij; simp [h]
    · simp [hij, Ne.symm hij]
  rw [this]
  rfl

/-- What the loop does. -/
theorem ringLoop_run (n : Option PyStr) : ∀ (l : List (Int × Nat)) (o : Option Nat) (s : St), (l.map (·.2)).Nodup →
    ((∀ i ∈ callsIn s n l, IsIncoming s i = true) ∧ ringLoop n l o env s = (.ok ((callsIn s n l).getLast?.or o), ringMore s (callsIn s n l))) ∨
    ∃ is j js, callsIn s n l = is ++ j :: js ∧ (∀ i ∈ is, IsIncoming s i = true) ∧ IsIncoming s j = false ∧
      ringLoop n l o env s = (.error .attributeError, ringMore s is)
  | [], o, s, _ => by
    refine .inl ⟨by simp [callsIn], ?_⟩
    simp only [ringLoop, callsIn, List.map_nil, List.filter_nil, ringMore_nil]
    rfl
  | (k, i) :: l, o, s, hn => by
    rw [List.map_cons, List.nodup_cons] at hn
    have hni : i ∉ callsIn s n l := fun h => hn.1 (List.mem_of_mem_filter h)
    unfold ringLoop
    simp only [run_bind, run_get]
    cases hc : s.calls[i]? with
    | none =>
      have : callsIn s n ((k, i) :: l) = callsIn s n l := by simp [callsIn, hc]
      rw [this]
      exact ringLoop_run n l o s hn.2
    | some c =>
      dsimp only
      by_cases hnum : c.number = n
      · have hin : callsIn s n ((k, i) :: l) = i :: callsIn s n l := by simp [callsIn, hc, hnum]
        have hinc : IsIncoming s i = c.incoming := by simp [IsIncoming, hc]
        rw [if_pos hnum, hin]
        cases hi : c.incoming
        · refine .inr ⟨[], i, callsIn s n l, rfl, by simp, hinc.trans hi, ?_⟩
          rw [ringMore_nil]
          rfl
        · have ih := ringLoop_run n l (some i) (ringOne s i) hn.2
          rw [ringOne_in] at ih
          simp only [ringOne_incoming] at ih
          rcases ih with ⟨h1, h2⟩ | ⟨is, j, js, h0, h1, h2, h3⟩
          · refine .inl ⟨?_, ?_⟩
            · intro j hj
              rcases List.mem_cons.1 hj with rfl | hj
              · exact hinc.trans hi
              · exact h1 j hj
            · rw [ringMore_cons hni] at h2
              refine (show _ = _ from h2 :).trans ?_
              congr 2
              cases hl : callsIn s n l with
              | nil => rfl
              | cons a t =>
                rw [List.getLast?_cons_cons]
                cases hx : (a :: t).getLast? with
                | none => simp at hx
                | some _ => rfl
          · refine .inr ⟨i :: is, j, js, by rw [h0]; rfl, ?_, h2, ?_⟩
            · intro j hj
              rcases List.mem_cons.1 hj with rfl | hj
              · exact hinc.trans hi
              · exact h1 j hj
            · rw [ringMore_cons (fun h => hni (by rw [h0]; simp [h]))] at h3
              exact h3
      · have : callsIn s n ((k, i) :: l) = callsIn s n l := by simp [callsIn, hc, hnum]
        rw [this, if_neg hnum]
        exact ringLoop_run n l o s hn.2

end Gsm
