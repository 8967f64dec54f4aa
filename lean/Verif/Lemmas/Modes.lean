import Verif.Spec.Modes
import Verif.Props.Util
import Verif.Props.Deliver
import Verif.Props.Hex
import Verif.Props.ModemReading
import Verif.Props.Stranger
/-! # Lemmas: one message in the two modes of the modem -/
namespace Gsm
open Spec

theorem ofSeconds_inj {a b : Int} (h : Timedelta.ofSeconds a = .ofSeconds b) : a = b := by
  simp only [Timedelta.ofSeconds, Timedelta.mk.injEq] at h
  omega

theorem sender_wire {number seen : PyStr} {oa : List Nat} (h : Sender number oa seen) : AddrWire false (some seen) oa := by
  cases h with
  | digits h1 h2 h3 h4 h5 => exact AddrWire.digits (sca := false) h1 h2 h3 h4 (by simpa using h5)
  | name h1 h2 h3 h4 h5 h6 h7 => exact .alpha h1 h2 h3 h4 h5 h6 h7

theorem sender_ne {number seen : PyStr} {oa : List Nat} (h : Sender number oa seen) : number ≠ [] := by
  cases h with
  | digits h1 h2 h3 h4 h5 => split <;> simp_all
  | name h1 h2 h3 h4 h5 h6 h7 => exact h3

theorem body_wire {a udl : Nat} {ud : List Nat} {seen shown : PyStr} (h : Body a udl ud seen shown) : UserWire a udl ud seen := by
  cases h with
  | gsm7 h1 h2 h3 => exact .gsm7 h1 h2 h3
  | ucs2 h1 h2 => exact .ucs2 h1
  | data h1 h2 => exact .data h1

theorem clock_range {d : DateTime} {q : Int} {w : List Nat} (h : Clock d q w) :
    d.valid = true ∧ 1969 ≤ d.year ∧ d.year ≤ 2068 ∧ d.micro = 0 ∧ -79 ≤ q ∧ q ≤ 79 := by
  obtain ⟨h, hz⟩ := h
  cases h with
  | @mk neg q' h1 h2 h3 h4 h5 h6 =>
    rw [hz] at h6
    have := ofSeconds_inj (Option.some.inj h6)
    refine ⟨h1, h2, h3, h4, ?_⟩
    split at this <;> omega

theorem digitPair_pad {n : Nat} (h : n < 100) : digitPair n = pad2 n := by
  simp only [digitPair, pad2, List.cons.injEq, and_true]
  omega

theorem shownTime_eq {d : DateTime} {q : Int} (hv : d.valid = true) (h1 : -79 ≤ q) (h2 : q ≤ 79) : shownTime d q = textTime d q := by
  simp only [DateTime.valid, decide_eq_true_eq] at hv
  obtain ⟨_, _, m1, m2, d1, d2, hh, hm, hs⟩ := hv
  have d31 := Nat.le_trans d2 (daysInMonth_le _ _)
  unfold shownTime textTime
  rw [digitPair_pad (by omega), digitPair_pad (by omega), digitPair_pad (by omega), digitPair_pad (by omega), digitPair_pad (by omega), digitPair_pad (by omega),
    digitPair_pad (by omega)]
  split <;> rfl

theorem wholeHours_eq (q : Int) : Int.tdiv q 4 * 3600 = wholeHours q := by
  unfold wholeHours
  split
  · rw [Int.tdiv_eq_ediv_of_nonneg (by assumption)]
  · next h =>
    have : q = -(-q) := by omega
    rw [this, Int.neg_tdiv, Int.tdiv_eq_ediv_of_nonneg (by omega)]
    simp only [Int.neg_neg]
    omega

theorem wholeHours_exact (q : Int) : wholeHours q = q * 900 ↔ 4 ∣ q := by
  unfold wholeHours
  constructor
  · intro h
    split at h <;> omega
  · intro h
    split <;> omega

theorem clock_time {d : DateTime} {q : Int} {w : List Nat} (h : Clock d q w) :
    parseTextModeTimeStr (shownTime d q) = .ok { d with off := some (.ofSeconds (wholeHours q)) } := by
  obtain ⟨h1, h2, h3, h4, h5, h6⟩ := clock_range h
  rw [shownTime_eq h1 h5 h6, C51_text_time h1 h2 h3 (by omega) (by omega), wholeHours_eq]
  obtain ⟨y, mo, da, ho, mi, se, mic, off⟩ := d
  simp_all

theorem clock_same {d : DateTime} {q : Int} {w : List Nat} (h : Clock d q w) :
    d = { d with off := some (.ofSeconds (wholeHours q)) } ↔ 4 ∣ q := by
  have hz := h.zone
  rw [← wholeHours_exact]
  obtain ⟨y, mo, da, ho, mi, se, mic, off⟩ := d
  simp only [DateTime.mk.injEq, true_and]
  simp only at hz
  rw [hz, Option.some.injEq]
  exact ⟨fun h => (ofSeconds_inj h).symm, fun h => by rw [h]⟩

theorem shownTime_quotable {d : DateTime} {q : Int} {w : List Nat} (h : Clock d q w) : Quotable (shownTime d q) := by
  have hd : ∀ n c, c ∈ digitPair n → c ≠ 34 := by
    intro n c hc
    simp only [digitPair, List.mem_cons, List.not_mem_nil, or_false] at hc
    omega
  refine ⟨by simp [shownTime, digitPair], ?_⟩
  intro hm
  simp only [shownTime, List.mem_append] at hm
  rcases hm with ((((((((((((hm | hm) | hm) | hm) | hm) | hm) | hm) | hm) | hm) | hm) | hm) | hm) | hm)
  all_goals first | exact hd _ _ hm rfl | (simp at hm; done) | (split at hm <;> simp at hm)

/-! ### Texts -/

theorem count_pieces (acc t : PyStr) : ((piecesFrom acc t).map (List.count 64)).sum = acc.count 64 + t.count 64 := by
  fun_induction piecesFrom acc t with
  | case1 acc s ih => simp [ih]
  | case2 acc c s h ih =>
    rw [ih]
    simp only [List.count_append, List.count_cons, List.count_nil]
    omega
  | case3 acc => simp

theorem count_filter (ls : List PyStr) : ((ls.filter (· ≠ [])).map (List.count 64)).sum = (ls.map (List.count 64)).sum := by
  induction ls with
  | nil => rfl
  | cons l ls ih =>
    by_cases h : l = []
    · subst h; simpa using ih
    · simpa [h] using ih

theorem count_join (ls : List PyStr) : (pyJoin [10] ls).count 64 = (ls.map (List.count 64)).sum := by
  rw [pyJoin_eq]
  induction ls with
  | nil => rfl
  | cons l ls ih =>
    cases ls with
    | nil => simp
    | cons l' ls =>
      rw [List.intercalate_cons_cons]
      simp only [List.count_append, List.map_cons, List.sum_cons] at ih ⊢
      rw [ih]
      simp [List.count_cons]

theorem count_lines (t : PyStr) : (pyJoin [10] (textLines t)).count 64 = t.count 64 := by
  rw [count_join, textLines, count_filter, count_pieces]
  simp

theorem trim_count {p : Prop} [Decidable p] {t : PyStr} (h : (trimAt p t).count 64 = t.count 64) : trimAt p t = t := by
  unfold trimAt at h ⊢
  split at h
  · next hc =>
    have hne : t ≠ [] := by rintro rfl; simp at hc
    have e := List.dropLast_append_getLast hne
    have hl : t.getLast hne = 64 := by
      have := hc.2
      rw [List.getLast?_eq_some_getLast hne] at this
      exact Option.some.inj this
    rw [hl] at e
    have : t.count 64 = t.dropLast.count 64 + 1 := by
      conv => lhs; rw [← e]
      simp [List.count_append]
    omega
  · next hc => rw [if_neg hc]

theorem hex_chars {os s : List Nat} (h : HexOf os s) : s.length = 2 * os.length ∧ ∀ c ∈ s, c ≠ 13 ∧ c ≠ 10 := by
  have hd : ∀ v c, HexDigit v c → c ≠ 13 ∧ c ≠ 10 := by
    intro v c h
    unfold HexDigit at h
    omega
  induction h with
  | nil => simp
  | @cons o os a b s h1 h2 _ ih =>
    refine ⟨by simp only [List.length_cons, ih.1]; omega, ?_⟩
    intro c hc
    simp only [List.mem_cons] at hc
    rcases hc with rfl | rfl | hc
    · exact hd _ _ h1
    · exact hd _ _ h2
    · exact ih.2 c hc

theorem noEol_of {s : PyStr} (h : ∀ c ∈ s, c ≠ 13 ∧ c ≠ 10) : NoEol s := by
  rintro ⟨a, b, rfl⟩
  exact (h 13 (by simp)).1 rfl

theorem ucs2Wire_length (t : List Nat) : (ucs2Wire t).length = 2 * t.length := by
  unfold ucs2Wire
  induction t with
  | nil => rfl
  | cons c t ih =>
    simp only [List.flatMap_cons, List.length_append, List.length_cons, List.length_nil, ih]
    omega

theorem body_same {a udl : Nat} {ud : List Nat} {seen shown : PyStr} (h : Body a udl ud seen shown) :
    seen = pyJoin [10] (textLines shown) ↔ seen = shown ∧ NoEol shown := by
  have key : NoEol shown → (seen = pyJoin [10] (textLines shown) ↔ seen = shown ∧ NoEol shown) := by
    intro hn
    rw [(C99_text_exact shown).2 hn]
    exact ⟨fun h => ⟨h, hn⟩, And.left⟩
  cases h with
  | @gsm7 t code ud h1 h2 h3 =>
    constructor
    · intro h
      have hc := count_lines shown
      rw [← h] at hc
      have := trim_count hc
      rw [this] at h
      exact ⟨this, (C99_text_exact shown).1 h.symm⟩
    · rintro ⟨h4, h5⟩
      rw [(C99_text_exact shown).2 h5, h4]
  | ucs2 h1 h2 => exact key (noEol_of (hex_chars h2).2)
  | data h1 h2 => exact key (noEol_of (hex_chars h2).2)

theorem body_exact {a udl : Nat} {ud : List Nat} {seen shown : PyStr} (h : Body a udl ud seen shown) :
    (a = 0 → (seen = shown ↔ ¬ (udl % 8 = 0 ∧ shown.getLast? = some 64))) ∧ (a ≠ 0 → (seen = shown ↔ seen = [])) := by
  cases h with
  | gsm7 h1 h2 h3 =>
    refine ⟨fun _ => ?_, fun h => absurd rfl h⟩
    unfold trimAt
    split
    · next hc =>
      refine ⟨fun h => ?_, fun h => absurd hc h⟩
      have := congrArg List.length h
      rw [List.length_dropLast] at this
      have := List.length_pos_iff.2 h1
      omega
    · next hc => exact ⟨fun _ => hc, fun _ => rfl⟩
  | @ucs2 t hex h1 h2 =>
    refine ⟨fun h => absurd h (by decide), fun _ => ?_⟩
    have hl := (hex_chars h2).1
    rw [ucs2Wire_length] at hl
    constructor
    · intro h
      subst h
      exact List.length_eq_zero_iff.1 (by omega)
    · rintro rfl
      exact (List.length_eq_zero_iff.1 (by simpa using hl)).symm
  | @data bytes hex h1 h2 =>
    refine ⟨fun h => absurd h (by decide), fun _ => ?_⟩
    have hl := (hex_chars h2).1
    constructor
    · intro h
      subst h
      exact List.length_eq_zero_iff.1 (by omega)
    · rintro rfl
      exact (List.length_eq_zero_iff.1 (by simpa using hl)).symm

/-! ### Headers -/

theorem pduAnswer_header (st len : Nat) : PduHeader (py!"+CMGR: " ++ decStr st ++ py!",," ++ decStr len) (decStr st) :=
  ⟨[], [], [], decStr len, [], by simp, (digits_decStr st).2, .inl rfl, .inl rfl, by simp, digits_decStr len, .inl rfl⟩

theorem pduState_dec (st : Nat) : pduState (decStr st) = st := by
  rw [pduState, if_neg (decStr_ne_nil st), decVal_decStr]

theorem state_named (read : Bool) : (receivedState read, (if read then 1 else 0 : Int)) ∈ stateNames ∧ Quotable (receivedState read) := by
  cases read <;> exact ⟨by decide, by decide, by decide⟩

theorem textAnswer_header (read : Bool) {number time : PyStr} (hn : Quotable number) (ht : Quotable time) :
    DeliverHeader (py!"+CMGR: \"" ++ receivedState read ++ py!"\",\"" ++ number ++ py!"\",,\"" ++ time ++ py!"\"") (receivedState read) number time :=
  ⟨[], [], by simp, (state_named read).2, hn, by simp, ht, .inl rfl⟩

end Gsm
