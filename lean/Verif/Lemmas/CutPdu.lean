import Verif.Spec.CutPdu
import Verif.Props.Undecodable
/-! # Reading from an iterator that goes on -/
namespace Gsm
open Spec

/-- A reader that, once it succeeds and leaves something, does the same with more octets behind. -/
def SteadyReader {α} (P : List Nat → Except PyErr (α × List Nat)) : Prop :=
  ∀ it a rest (j : List Nat), P it = .ok (a, rest) → rest ≠ [] → P (it ++ j) = .ok (a, rest ++ j)

/-- The same, whatever it leaves. -/
def FirmReader {α} (P : List Nat → Except PyErr (α × List Nat)) : Prop :=
  ∀ it a rest (j : List Nat), P it = .ok (a, rest) → P (it ++ j) = .ok (a, rest ++ j)

theorem firm_next : FirmReader next := by
  intro it a rest j h
  cases it with
  | nil => cases h
  | cons b it => cases h; rfl

theorem firm_takeExact : ∀ n, FirmReader (takeExact n)
  | 0 => fun it a rest j h => by cases h; rfl
  | n + 1 => fun it a rest j h => by
    cases it with
    | nil => cases h
    | cons b it =>
      simp only [takeExact, next, bind, Except.bind, pure, Except.pure, List.cons_append] at h ⊢
      cases hr : takeExact n it with
      | error e => simp [hr] at h
      | ok v =>
        obtain ⟨bs, r⟩ := v
        rw [firm_takeExact n _ _ _ j hr]
        simp only [hr, Except.ok.injEq, Prod.mk.injEq] at h ⊢
        exact ⟨h.1, by rw [h.2]⟩

theorem firm_decodeIE : FirmReader decodeIE := by
  intro it a rest j h
  match it, h with
  | [], h => cases h
  | [_], h => cases h
  | iei :: len :: it, h =>
    simp only [decodeIE, next, bind, Except.bind, pure, Except.pure, List.cons_append] at h ⊢
    cases hr : takeExact len it with
    | error e => simp [hr] at h
    | ok v =>
      obtain ⟨d, r⟩ := v
      rw [firm_takeExact len _ _ _ j hr]
      simp only [hr] at h ⊢
      cases hm : mkIE iei len d with
      | error e => simp [hm] at h
      | ok ie =>
        simp only [hm, Except.ok.injEq, Prod.mk.injEq] at h ⊢
        exact ⟨h.1, by rw [h.2]⟩

theorem firm_udh : ∀ fuel udhLen k, FirmReader (decodeUdhLoop fuel udhLen k)
  | 0, _, _ => fun it a rest j h => by cases h; rfl
  | fuel + 1, udhLen, k => fun it a rest j h => by
    unfold decodeUdhLoop at h ⊢
    by_cases hk : k < udhLen
    · rw [if_pos hk] at h ⊢
      simp only [bind, Except.bind, pure, Except.pure] at h ⊢
      cases hi : decodeIE it with
      | error e => simp [hi] at h
      | ok v =>
        obtain ⟨ie, r⟩ := v
        rw [firm_decodeIE _ _ _ j hi]
        simp only [hi] at h ⊢
        cases hr : decodeUdhLoop fuel udhLen (k + (ie.dataLength + 2)) r with
        | error e => simp [hr] at h
        | ok v =>
          obtain ⟨ies, r2⟩ := v
          rw [firm_udh fuel udhLen _ _ _ _ j hr]
          simp only [hr, Except.ok.injEq, Prod.mk.injEq] at h ⊢
          exact ⟨h.1, by rw [h.2]⟩
    · rw [if_neg hk] at h ⊢
      cases h; rfl

theorem semi_steady (n : Option Nat) : ∀ (it : List Nat) (i : Nat) (j : List Nat),
    (decodeSemiOctets n i it).2 ≠ [] →
      decodeSemiOctets n i (it ++ j) = ((decodeSemiOctets n i it).1, (decodeSemiOctets n i it).2 ++ j)
  | [], _, _, h => absurd rfl h
  | o :: it, i, j, h => by
    unfold decodeSemiOctets at h ⊢
    simp only [List.cons_append] at h ⊢
    by_cases h1 : o / 16 = 15
    · simp [h1]
    · by_cases h2 : n = some (i + 1)
      · simp [h1, h2]
      · simp only [h1, h2, if_false] at h ⊢
        rw [semi_steady n it (i + 1) j h]

theorem steady_timestamp : SteadyReader decodeTimestamp := by
  intro it a rest j h hne
  unfold decodeTimestamp at h ⊢
  have hr : (decodeSemiOctets (some 7) 0 it).2 = rest := by
    simp only [bind, Except.bind, pure, Except.pure] at h
    split at h
    · cases h
    · split at h
      · cases h
      · cases h; rfl
  rw [semi_steady (some 7) it 0 j (by rw [hr]; exact hne)]
  simp only [bind, Except.bind, pure, Except.pure] at h ⊢
  split at h
  · cases h
  · split at h
    · cases h
    · cases h
      rfl

/-- One round of the loop of `unpackSeptets`: it emits some septets and stops or goes on. -/
theorem unpackLoop_round (n : Option Nat) (i : Nat) (p : Option Nat) (s o : Nat) (h : s ≠ 7 → p ≠ none) :
    ∃ (pre : List Nat) (q : Option Nat) (s' : Nat), (∀ x, s = 7 → p = some x → ∃ t, pre = (x >>> 1) :: t) ∧
      ∀ it, unpackLoop n i p s (o :: it) = if n = some (i + 1) then .ok ⟨pre, q, s', it⟩
        else (unpackLoop n (i + 1) q s' it).map (fun e => { e with result := pre ++ e.result }) := by
  obtain ⟨b, hb⟩ : ∃ b : Bool, b = (match n with | some n => decide (i + 1 ≤ n) | none => true) := ⟨_, rfl⟩
  by_cases hs : s = 7
  · subst hs
    refine ⟨(match p with | some p => [p >>> 1] | none => []) ++ (if b then [o &&& 0x7F] else []),
      if b then some o else p, 1, ?_, fun it => ?_⟩
    · rintro x - rfl
      exact ⟨_, rfl⟩
    · subst hb
      rw [unpackLoop.eq_def]
      dsimp only
      rw [if_pos rfl]
      cases n with
      | none =>
        simp only [reduceCtorEq, if_false, if_true]
        cases p <;> cases unpackLoop none (i + 1) (some o) 1 it <;> rfl
      | some n =>
        by_cases hn : some n = some (i + 1)
        · rw [if_pos hn, if_pos hn]; cases p <;> rfl
        · rw [if_neg hn, if_neg hn]
          by_cases hle : i + 1 ≤ n
          · simp only [hle, decide_true, if_true]
            cases p <;> cases unpackLoop (some n) (i + 1) (some o) 1 it <;> rfl
          · simp only [hle, decide_false, Bool.false_eq_true, if_false]
            cases p <;> cases unpackLoop (some n) (i + 1) _ 1 it <;> rfl
  · cases p with
    | none => exact absurd rfl (h hs)
    | some p =>
      refine ⟨[((o <<< s) &&& 0x7F) ||| (p >>> (8 - s))], some o, s + 1, ?_, fun it => ?_⟩
      · intro x h7; exact absurd h7 hs
      · rw [unpackLoop.eq_def]
        dsimp only
        rw [if_neg hs]
        split
        · rfl
        · cases unpackLoop n (i + 1) (some o) (s + 1) it <;> rfl

/-- Where the loop of `unpackSeptets` stands after `it`: it stopped there, or goes on with `j`. -/
theorem unpackLoop_append (n : Option Nat) (j : List Nat) : ∀ (it : List Nat) (i : Nat) (p : Option Nat) (s : Nat)
    {e : UnpackEnd}, unpackLoop n i p s it = .ok e →
    (unpackLoop n i p s (it ++ j) = .ok { e with rest := e.rest ++ j }) ∨
    (e.rest = [] ∧ unpackLoop n i p s (it ++ j) =
      (unpackLoop n (i + it.length) e.prevOctet e.shift j).map (fun e' => { e' with result := e.result ++ e'.result }))
  | [], i, p, s, e, h => by
    cases h
    refine .inr ⟨rfl, ?_⟩
    simp only [List.nil_append, List.length_nil, Nat.add_zero]
    cases unpackLoop n i p s j <;> rfl
  | o :: it, i, p, s, e, h => by
    have hp : s ≠ 7 → p ≠ none := by
      rintro hs rfl
      unfold unpackLoop at h
      dsimp only at h
      rw [if_neg hs] at h
      cases h
    obtain ⟨pre, q, s', -, hrd⟩ := unpackLoop_round n i p s o hp
    rw [hrd] at h
    rw [List.cons_append, hrd]
    by_cases hn : n = some (i + 1)
    · rw [if_pos hn] at h ⊢
      cases h; exact .inl rfl
    · rw [if_neg hn] at h ⊢
      cases hr : unpackLoop n (i + 1) q s' it with
      | error e => rw [hr] at h; cases h
      | ok e1 =>
        rw [hr] at h
        rcases unpackLoop_append n j it (i + 1) q s' hr with h2 | ⟨hz, h2⟩
        · rw [h2]; cases h; exact .inl rfl
        · rw [h2]; cases h
          refine .inr ⟨hz, ?_⟩
          rw [show i + (o :: it).length = i + 1 + it.length by simp; omega]
          show _ = Except.map _ (unpackLoop n (i + 1 + it.length) e1.prevOctet e1.shift j)
          cases unpackLoop n (i + 1 + it.length) e1.prevOctet e1.shift j with
          | error e => rfl
          | ok e2 => simp [Except.map]

/-- The end of `unpackSeptets`. -/
theorem unpackSeptets_ok {it : List Nat} {n p : Option Nat} {s : Nat} {v : List Nat × List Nat}
    (h : unpackSeptets it n p s = .ok v) : ∃ e, unpackLoop n 0 p s it = .ok e ∧ v.2 = e.rest ∧
      ((e.shift ≠ 7 ∧ v.1 = e.result) ∨ ∃ q, e.shift = 7 ∧ e.prevOctet = some q ∧
        ((q >>> 1 ≠ 0 ∧ v.1 = e.result ++ [q >>> 1]) ∨ (q >>> 1 = 0 ∧ v.1 = e.result))) := by
  unfold unpackSeptets at h
  cases hl : unpackLoop n 0 p s it with
  | error e => rw [hl] at h; cases h
  | ok e =>
    rw [hl] at h
    refine ⟨e, rfl, ?_⟩
    simp only [bind, Except.bind, pure, Except.pure] at h
    by_cases hs : e.shift = 7
    · rw [if_pos hs] at h
      cases hp : e.prevOctet with
      | none => rw [hp] at h; cases h
      | some q =>
        rw [hp] at h
        simp only [hs] at h
        split at h
        · rename_i hq; cases h; exact ⟨rfl, .inr ⟨q, hs, rfl, .inl ⟨hq, rfl⟩⟩⟩
        · rename_i hq; cases h; exact ⟨rfl, .inr ⟨q, hs, rfl, .inr ⟨by simpa using hq, rfl⟩⟩⟩
    · rw [if_neg hs] at h
      cases h; exact ⟨rfl, .inl ⟨hs, rfl⟩⟩

theorem steady_unpack (n p : Option Nat) (s : Nat) : SteadyReader (fun it => unpackSeptets it n p s) := by
  intro it a rest j h hne
  dsimp only at h ⊢
  obtain ⟨e, hl, hr, -⟩ := unpackSeptets_ok h
  unfold unpackSeptets at h ⊢
  rcases unpackLoop_append n j it 0 p s hl with h2 | ⟨hz, -⟩
  · rw [h2]
    rw [hl] at h
    simp only [bind, Except.bind, pure, Except.pure] at h ⊢
    by_cases hs : e.shift = 7
    · rw [if_pos hs] at h ⊢
      cases hp : e.prevOctet with
      | none => rw [hp] at h; cases h
      | some q =>
        rw [hp] at h
        simp only at h ⊢
        split at h <;> rename_i hq
        · cases h; rw [if_pos hq]
        · cases h; rw [if_neg hq]
    · rw [if_neg hs] at h ⊢; cases h; rfl
  · exact absurd (hr.trans hz) hne

theorem steady_address (b : Bool) : SteadyReader (fun it => decodeAddressField it b) := by
  intro it a rest j h hne
  dsimp only at h ⊢
  match it, h with
  | [], h => cases h
  | len :: it, h =>
    unfold decodeAddressField at h ⊢
    simp only [next, bind, Except.bind, pure, Except.pure, List.cons_append] at h ⊢
    by_cases hl : len > 0
    · rw [if_pos hl] at h ⊢
      match it, h with
      | [], h => cases h
      | toa :: it, h =>
        simp only [List.cons_append] at h ⊢
        by_cases ht : toa &&& 0x70 = 0x50
        · rw [if_pos ht] at h ⊢
          cases hu : unpackSeptets it (some ((len + 1) / 2)) with
          | error e => rw [hu] at h; cases h
          | ok v =>
            obtain ⟨sep, r⟩ := v
            rw [hu] at h
            simp only at h
            cases hd : decodeGsm7 sep with
            | error e => rw [hd] at h; cases h
            | ok t =>
              rw [hd] at h
              have hrr : r = rest := by cases h; rfl
              subst hrr
              have := steady_unpack (some ((len + 1) / 2)) none 7 _ _ _ j hu hne
              dsimp only at this
              rw [this]
              simp only [hd]
              cases h; rfl
        · rw [if_neg ht] at h ⊢
          cases b with
          | true =>
            simp only [if_true] at h ⊢
            have hr : (decodeSemiOctets (some (len - 1)) 0 it).2 = rest := by cases h; rfl
            rw [semi_steady _ it 0 j (by rw [hr]; exact hne)]
            cases h; rfl
          | false =>
            simp only [Bool.false_eq_true, if_false] at h ⊢
            generalize (if len % 2 = 1 then len / 2 + 1 else len / 2) = k at h ⊢
            have hr : (decodeSemiOctets (some k) 0 it).2 = rest := by cases h; rfl
            rw [semi_steady _ it 0 j (by rw [hr]; exact hne)]
            cases h; rfl
    · rw [if_neg hl] at h ⊢
      cases h; rfl

theorem takeExact_suffix : ∀ (n : Nat) {it a rest : List Nat}, takeExact n it = .ok (a, rest) → ∃ pre, it = pre ++ rest
  | 0, it, a, rest, h => by cases h; exact ⟨[], rfl⟩
  | n + 1, [], a, rest, h => by cases h
  | n + 1, b :: it, a, rest, h => by
    simp only [takeExact, next, bind, Except.bind, pure, Except.pure] at h
    cases hr : takeExact n it with
    | error e => simp [hr] at h
    | ok v =>
      rw [hr] at h
      obtain ⟨pre, hp⟩ := takeExact_suffix n (a := v.1) (rest := v.2) hr
      cases h
      exact ⟨b :: pre, by rw [hp]; rfl⟩

theorem decodeIE_suffix {it rest : List Nat} {ie : IE} (h : decodeIE it = .ok (ie, rest)) : ∃ pre, it = pre ++ rest := by
  match it, h with
  | [], h => cases h
  | [_], h => cases h
  | iei :: len :: it, h =>
    simp only [decodeIE, next, bind, Except.bind, pure, Except.pure] at h
    cases hr : takeExact len it with
    | error e => simp [hr] at h
    | ok v =>
      rw [hr] at h
      simp only at h
      obtain ⟨pre, hp⟩ := takeExact_suffix len (a := v.1) (rest := v.2) hr
      cases hm : mkIE iei len v.1 with
      | error e => simp [hm] at h
      | ok ie' =>
        rw [hm] at h; cases h
        exact ⟨iei :: len :: pre, by rw [hp]; rfl⟩

theorem udh_suffix : ∀ {fuel udhLen k : Nat} {it rest : List Nat} {ies : List IE},
    decodeUdhLoop fuel udhLen k it = .ok (ies, rest) → ∃ pre, it = pre ++ rest
  | 0, _, _, _, _, _, h => by cases h; exact ⟨[], rfl⟩
  | fuel + 1, udhLen, k, it, rest, ies, h => by
    unfold decodeUdhLoop at h
    split at h
    · simp only [bind, Except.bind, pure, Except.pure] at h
      cases hi : decodeIE it with
      | error e => simp [hi] at h
      | ok v =>
        rw [hi] at h
        simp only at h
        cases hr : decodeUdhLoop fuel udhLen (k + (v.1.dataLength + 2)) v.2 with
        | error e => simp [hr] at h
        | ok w =>
          rw [hr] at h
          obtain ⟨p1, h1⟩ := decodeIE_suffix (ie := v.1) (rest := v.2) hi
          obtain ⟨p2, h2⟩ := udh_suffix (ies := w.1) (rest := w.2) hr
          cases h
          exact ⟨p1 ++ p2, by rw [h1, h2, List.append_assoc]⟩
    · cases h; exact ⟨[], rfl⟩

/-- What the longer input adds to the septets only comes after them. -/
theorem unpackSeptets_prefix {it j : List Nat} {n p : Option Nat} {s : Nat} {v v' : List Nat × List Nat}
    (h : unpackSeptets it n p s = .ok v) (h' : unpackSeptets (it ++ j) n p s = .ok v') :
    ∃ u, v'.1 = v.1 ++ u := by
  cases j with
  | nil =>
    rw [List.append_nil, h] at h'
    cases h'; exact ⟨[], by simp⟩
  | cons o j =>
    obtain ⟨e, hl, -, hv⟩ := unpackSeptets_ok h
    obtain ⟨e', hl', -, hv'⟩ := unpackSeptets_ok h'
    rcases unpackLoop_append n (o :: j) it 0 p s hl with h2 | ⟨hz, h2⟩
    · rw [h2] at hl'
      cases hl'
      refine ⟨[], ?_⟩
      rw [List.append_nil]
      rcases hv with ⟨a1, a2⟩ | ⟨q, a1, a2, a3⟩ <;> rcases hv' with ⟨b1, b2⟩ | ⟨q', b1, b2, b3⟩
      · rw [a2, b2]
      · exact absurd b1 a1
      · exact absurd a1 b1
      · dsimp only at b2
        rw [a2] at b2
        cases b2
        rcases a3 with ⟨c1, c2⟩ | ⟨c1, c2⟩ <;> rcases b3 with ⟨d1, d2⟩ | ⟨d1, d2⟩
        · rw [c2, d2]
        · exact absurd d1 c1
        · exact absurd c1 d1
        · rw [c2, d2]
    · rw [h2] at hl'
      cases hj : unpackLoop n (0 + it.length) e.prevOctet e.shift (o :: j) with
      | error x => rw [hj] at hl'; cases hl'
      | ok e2 =>
        rw [hj] at hl'
        have he' : e'.result = e.result ++ e2.result := by cases hl'; rfl
        have hpre : ∃ u, v'.1 = e.result ++ e2.result ++ u := by
          rcases hv' with ⟨-, b2⟩ | ⟨q', -, -, ⟨-, b2⟩ | ⟨-, b2⟩⟩
          · exact ⟨[], by rw [b2, he', List.append_nil]⟩
          · exact ⟨[q' >>> 1], by rw [b2, he']⟩
          · exact ⟨[], by rw [b2, he', List.append_nil]⟩
        obtain ⟨u, hu⟩ := hpre
        rcases hv with ⟨-, a2⟩ | ⟨q, a1, a2, ⟨-, a3⟩ | ⟨-, a3⟩⟩
        · exact ⟨e2.result ++ u, by rw [hu, a2, List.append_assoc]⟩
        · rw [a1, a2] at hj
          obtain ⟨pre, q2, s2, hp, hrd⟩ := unpackLoop_round n (0 + it.length) (some q) 7 o (fun h => absurd rfl h)
          obtain ⟨t, rfl⟩ := hp q rfl rfl
          rw [hrd] at hj
          have : ∃ t', e2.result = (q >>> 1) :: t' := by
            split at hj
            · cases hj; exact ⟨t, rfl⟩
            · cases hx : unpackLoop n (0 + it.length + 1) q2 s2 j with
              | error x => rw [hx] at hj; cases hj
              | ok e3 => rw [hx] at hj; cases hj; exact ⟨_, rfl⟩
          obtain ⟨t', ht'⟩ := this
          exact ⟨t' ++ u, by rw [hu, a3, ht']; simp⟩
        · exact ⟨e2.result ++ u, by rw [hu, a3, List.append_assoc]⟩

theorem decodeGsm7_append {s t : List Nat} (u : List Nat) (h : decodeGsm7 s = .ok t) :
    decodeGsm7 (s ++ u) = (decodeGsm7 u).map (fun x => t ++ x) := by
  fun_induction decodeGsm7 s generalizing t with
  | case1 =>
    cases h
    rw [List.nil_append]
    cases decodeGsm7 u <;> rfl
  | case2 => cases h
  | case3 c rest ih =>
    cases hr : decodeGsm7 rest with
    | error e => rw [hr] at h; cases h
    | ok x =>
      rw [hr] at h
      cases h
      rw [List.cons_append, List.cons_append, decodeGsm7]
      simp only [if_true, ih hr]
      cases decodeGsm7 u with
      | error e => rfl
      | ok y => simp [Except.map, bind, Except.bind, pure, Except.pure]
  | case4 => cases h
  | case5 b rest hb c hc ih =>
    cases hr : decodeGsm7 rest with
    | error e => rw [hr] at h; cases h
    | ok x =>
      rw [hr] at h
      cases h
      rw [List.cons_append, decodeGsm7.eq_def]
      simp only [hb, if_false, hc, ih hr]
      cases decodeGsm7 u with
      | error e => rfl
      | ok y => simp [Except.map, bind, Except.bind, pure, Except.pure]

theorem decodeUcs2_prefix (j : List Nat) : ∀ (it : List Nat) (n : Nat),
    ∃ u, (decodeUcs2 (it ++ j) n).1 = (decodeUcs2 it n).1 ++ u
  | it, 0 => ⟨[], by simp [decodeUcs2]⟩
  | [], n + 1 => ⟨(decodeUcs2 j (n + 1)).1, by rw [List.nil_append]; rfl⟩
  | [a], n + 1 => ⟨(decodeUcs2 ([a] ++ j) (n + 1)).1, rfl⟩
  | a :: b :: it, n + 1 => by
    obtain ⟨u, hu⟩ := decodeUcs2_prefix j it (n + 1 - 2)
    exact ⟨u, by simp only [List.cons_append, decodeUcs2, hu]⟩

theorem unpack_then_decode {it j : List Nat} {n p : Option Nat} {s : Nat} {t t' : PyStr}
    (h : (unpackSeptets it n p s >>= fun v => decodeGsm7 v.1) = .ok t)
    (h' : (unpackSeptets (it ++ j) n p s >>= fun v => decodeGsm7 v.1) = .ok t') : ∃ u, t' = t ++ u := by
  cases h1 : unpackSeptets it n p s with
  | error e => rw [h1] at h; cases h
  | ok v =>
    cases h2 : unpackSeptets (it ++ j) n p s with
    | error e => rw [h2] at h'; cases h'
    | ok v' =>
      rw [h1] at h
      rw [h2] at h'
      obtain ⟨u, hu⟩ := unpackSeptets_prefix h1 h2
      replace h : decodeGsm7 v.1 = .ok t := h
      replace h' : decodeGsm7 v'.1 = .ok t' := h'
      rw [hu, decodeGsm7_append u h] at h'
      cases hx : decodeGsm7 u with
      | error e => rw [hx] at h'; cases h'
      | ok y => rw [hx] at h'; cases h'; exact ⟨y, rfl⟩

theorem userText_prefix {it j : List Nat} {n dc : Nat} {hl : Option Nat} {t t' : PyStr}
    (h : decodeUserText it n dc hl = .ok t) (h' : decodeUserText (it ++ j) n dc hl = .ok t') : ∃ u, t' = t ++ u := by
  unfold decodeUserText at h h'
  by_cases h0 : dc = 0
  · rw [if_pos h0] at h h'
    cases hl with
    | none => exact unpack_then_decode h h'
    | some k =>
      match it, h, h' with
      | [], h, _ => cases h
      | o :: it, h, h' => exact unpack_then_decode (it := it) (j := j) h h'
  · rw [if_neg h0] at h h'
    by_cases h2 : dc = 2
    · rw [if_pos h2] at h h'
      obtain ⟨u, hu⟩ := decodeUcs2_prefix j it n
      cases h; cases h'
      exact ⟨u, hu⟩
    · rw [if_neg h2] at h h'
      cases h; cases h'
      exact ⟨j, rfl⟩

theorem userData_split {it : List Nat} {n dc : Nat} {up : Bool} {x : UserData}
    (h : decodeUserData it n dc up = .ok x) : ∃ pre rest hl, it = pre ++ rest ∧ (up = false → pre = []) ∧
      decodeUserText rest n dc hl = .ok x.text ∧
      ∀ j, decodeUserData (it ++ j) n dc up = (decodeUserText (rest ++ j) n dc hl).map (fun t => ⟨x.udh, t⟩) := by
  cases up with
  | false =>
    refine ⟨[], it, none, rfl, fun _ => rfl, ?_, fun j => ?_⟩ <;>
    simp only [decodeUserData, Bool.false_eq_true, if_false, bind, Except.bind, pure, Except.pure] at h ⊢
    · cases ht : decodeUserText it n dc none with
      | error e => rw [ht] at h; cases h
      | ok t => rw [ht] at h; cases h; rfl
    · cases ht : decodeUserText it n dc none with
      | error e => rw [ht] at h; cases h
      | ok t =>
        rw [ht] at h; cases h
        cases decodeUserText (it ++ j) n dc none <;> rfl
  | true =>
    match it, h with
    | [], h => cases h
    | k :: it, h =>
      simp only [decodeUserData, if_true, next, bind, Except.bind, pure, Except.pure, List.cons_append] at h ⊢
      cases hu : decodeUdhLoop k k 0 it with
      | error e => rw [hu] at h; cases h
      | ok v =>
        obtain ⟨ies, r⟩ := v
        rw [hu] at h
        simp only at h
        cases ht : decodeUserText r n dc (some k) with
        | error e => rw [ht] at h; cases h
        | ok t =>
          rw [ht] at h; cases h
          have hpre : ∃ pre, it = pre ++ r := udh_suffix hu
          obtain ⟨pre, hpre⟩ := hpre
          refine ⟨k :: pre, r, some k, (by rw [hpre]; rfl), (fun h => by cases h), ht, fun j => ?_⟩
          rw [firm_udh k k 0 _ _ _ j hu]
          simp only
          cases decodeUserText (r ++ j) n dc (some k) <;> rfl

theorem userData_prefix {it j : List Nat} {n dc : Nat} {up : Bool} {x x' : UserData}
    (h : decodeUserData it n dc up = .ok x) (h' : decodeUserData (it ++ j) n dc up = .ok x') :
    ∃ u, x' = ⟨x.udh, x.text ++ u⟩ := by
  obtain ⟨pre, rest, hl, -, -, ht, hj⟩ := userData_split h
  rw [hj] at h'
  cases hx : decodeUserText (rest ++ j) n dc hl with
  | error e => rw [hx] at h'; cases h'
  | ok t' =>
    rw [hx] at h'; cases h'
    obtain ⟨u, rfl⟩ := userText_prefix ht hx
    exact ⟨u, rfl⟩

theorem timestamp_nil {d : DateTime} {r : List Nat} (h : decodeTimestamp [] = .ok (d, r)) : r = [] := by
  simp only [decodeTimestamp, decodeSemiOctets, bind, Except.bind, pure, Except.pure] at h
  split at h
  · cases h
  · split at h
    · cases h
    · cases h; rfl

theorem nonempty_of_next {it : List Nat} {b : Nat} {rest : List Nat} (h : next it = .ok (b, rest)) : it = b :: rest := by
  cases it with
  | nil => cases h
  | cons c it => cases h; rfl

theorem readerBind_ok {α β} {x : Except PyErr α} {f : α → Except PyErr β} {b : β} (h : (x >>= f) = .ok b) :
    ∃ a, x = .ok a ∧ f a = .ok b := by
  cases x with
  | error e => cases h
  | ok a => exact ⟨a, rfl, h⟩

theorem ok_bind {α β} {a : α} {f : α → Except PyErr β} : ((.ok a : Except PyErr α) >>= f) = f a := rfl

/-- What is known of a TPDU that decodes: a report, or a message whose user data is what is left. -/
inductive TpduHead (it : List Nat) : SmsBody → Prop
  | report {mr number time discharge st} : (∀ j, decodeTpdu (it ++ j) = .ok (.statusReport mr number time discharge st)) →
      TpduHead it (.statusReport mr number time discharge st)
  | deliver {number pid time rest n dc up ud} : (∃ pre, it = pre ++ rest) → decodeUserData rest n dc up = .ok ud →
      (∀ j, decodeTpdu (it ++ j) = (decodeUserData (rest ++ j) n dc up).map (.deliver number pid time)) →
      TpduHead it (.deliver number pid time ud)
  | submit {mr number pid vp rest n dc up ud} : (∃ pre, it = pre ++ rest) → decodeUserData rest n dc up = .ok ud →
      (∀ j, decodeTpdu (it ++ j) = (decodeUserData (rest ++ j) n dc up).map (.submit mr number pid vp)) →
      TpduHead it (.submit mr number pid vp ud)

/-- The validity field of a SUBMIT, as a reader. -/
def readValidity (fo : Nat) (it : List Nat) : Except PyErr (DecodedValidity × List Nat) :=
  if (fo &&& 0x18) >>> 3 = 0x02 then do
    let (x, it) ← next it
    let v ← decodeRelativeValidityPeriod x
    pure (DecodedValidity.relative v, it)
  else if (fo &&& 0x18) >>> 3 = 0x03 then do
    let (d, it) ← decodeTimestamp it
    pure (DecodedValidity.absolute d, it)
  else pure (DecodedValidity.absent, it)

theorem steady_validity (fo : Nat) : SteadyReader (readValidity fo) := by
  intro it a rest j h hne
  unfold readValidity at h ⊢
  split
  · rename_i h2
    rw [if_pos h2] at h
    obtain ⟨⟨x, r⟩, h1, h⟩ := readerBind_ok h
    obtain ⟨v, h3, h⟩ := readerBind_ok h
    cases h
    rw [firm_next _ _ _ j h1, ok_bind]
    simp only [h3, ok_bind]
    rfl
  · rename_i h2
    rw [if_neg h2] at h
    split
    · rename_i h3
      rw [if_pos h3] at h
      obtain ⟨⟨x, r⟩, h1, h⟩ := readerBind_ok h
      cases h
      rw [steady_timestamp _ _ _ j h1 hne]
      rfl
    · rename_i h3
      rw [if_neg h3] at h
      cases h; rfl

theorem semi_suffix (n : Option Nat) : ∀ (it : List Nat) (i : Nat), ∃ pre, it = pre ++ (decodeSemiOctets n i it).2
  | [], _ => ⟨[], rfl⟩
  | o :: it, i => by
    unfold decodeSemiOctets
    dsimp only
    split
    · exact ⟨[o], rfl⟩
    · split
      · exact ⟨[o], rfl⟩
      · obtain ⟨pre, hp⟩ := semi_suffix n it (i + 1)
        exact ⟨o :: pre, by rw [List.cons_append, ← hp]⟩

theorem timestamp_suffix {it rest : List Nat} {d : DateTime} (h : decodeTimestamp it = .ok (d, rest)) :
    ∃ pre, it = pre ++ rest := by
  obtain ⟨pre, hp⟩ := semi_suffix (some 7) it 0
  unfold decodeTimestamp at h
  simp only [bind, Except.bind, pure, Except.pure] at h
  split at h
  · cases h
  · split at h
    · cases h
    · cases h; exact ⟨pre, hp⟩

theorem unpackLoop_suffix (n : Option Nat) : ∀ (it : List Nat) (i : Nat) (p : Option Nat) (s : Nat) {e : UnpackEnd},
    unpackLoop n i p s it = .ok e → ∃ pre, it = pre ++ e.rest
  | [], _, _, _, _, h => by cases h; exact ⟨[], rfl⟩
  | o :: it, i, p, s, e, h => by
    have hp : s ≠ 7 → p ≠ none := by
      rintro hs rfl
      unfold unpackLoop at h
      dsimp only at h
      rw [if_neg hs] at h
      cases h
    obtain ⟨pre, q, s', -, hrd⟩ := unpackLoop_round n i p s o hp
    rw [hrd] at h
    split at h
    · cases h; exact ⟨[o], rfl⟩
    · cases hr : unpackLoop n (i + 1) q s' it with
      | error e => rw [hr] at h; cases h
      | ok e1 =>
        rw [hr] at h
        obtain ⟨pr, hpr⟩ := unpackLoop_suffix n it _ _ _ hr
        cases h
        exact ⟨o :: pr, by rw [List.cons_append, ← hpr]⟩

theorem address_suffix {it rest : List Nat} {b : Bool} {a : Option PyStr × Nat}
    (h : decodeAddressField it b = .ok (a, rest)) : ∃ pre, it = pre ++ rest := by
  match it, h with
  | [], h => cases h
  | len :: it, h =>
    unfold decodeAddressField at h
    simp only [next, bind, Except.bind, pure, Except.pure] at h
    by_cases hl : len > 0
    · rw [if_pos hl] at h
      match it, h with
      | [], h => cases h
      | toa :: it, h =>
        simp only at h
        by_cases ht : toa &&& 0x70 = 0x50
        · rw [if_pos ht] at h
          cases hu : unpackSeptets it (some ((len + 1) / 2)) with
          | error e => rw [hu] at h; cases h
          | ok v =>
            obtain ⟨e, he, hr, -⟩ := unpackSeptets_ok hu
            obtain ⟨pre, hp⟩ := unpackLoop_suffix _ _ _ _ _ he
            rw [hu] at h
            simp only at h
            cases hd : decodeGsm7 v.1 with
            | error e => rw [hd] at h; cases h
            | ok t =>
              rw [hd] at h
              cases h
              exact ⟨len :: toa :: pre, by rw [hr, List.cons_append, List.cons_append, ← hp]⟩
        · rw [if_neg ht] at h
          cases b with
          | true =>
            simp only [if_true] at h
            obtain ⟨pre, hp⟩ := semi_suffix (some (len - 1)) it 0
            cases h
            exact ⟨len :: toa :: pre, by rw [List.cons_append, List.cons_append, ← hp]⟩
          | false =>
            simp only [Bool.false_eq_true, if_false] at h
            generalize (if len % 2 = 1 then len / 2 + 1 else len / 2) = k at h
            obtain ⟨pre, hp⟩ := semi_suffix (some k) it 0
            cases h
            exact ⟨len :: toa :: pre, by rw [List.cons_append, List.cons_append, ← hp]⟩
    · rw [if_neg hl] at h
      cases h; exact ⟨[len], rfl⟩

theorem validity_suffix {fo : Nat} {it rest : List Nat} {v : DecodedValidity}
    (h : readValidity fo it = .ok (v, rest)) : ∃ pre, it = pre ++ rest := by
  unfold readValidity at h
  split at h
  · obtain ⟨⟨x, r⟩, h1, h⟩ := readerBind_ok h
    obtain ⟨v, h3, h⟩ := readerBind_ok h
    cases h
    exact ⟨[x], nonempty_of_next h1⟩
  · split at h
    · obtain ⟨⟨x, r⟩, h1, h⟩ := readerBind_ok h
      cases h
      exact timestamp_suffix h1
    · cases h; exact ⟨[], rfl⟩

theorem suffix_trans {a b c : List Nat} (h1 : ∃ p, a = p ++ b) (h2 : ∃ p, b = p ++ c) : ∃ p, a = p ++ c := by
  obtain ⟨p, rfl⟩ := h1
  obtain ⟨q, rfl⟩ := h2
  exact ⟨p ++ q, by rw [List.append_assoc]⟩
theorem suffix_next {a c : List Nat} {b : Nat} (h : next a = .ok (b, c)) : ∃ p, a = p ++ c := ⟨[b], nonempty_of_next h⟩

theorem tpdu_submit (it : List Nat) (fo : Nat) (h : fo &&& 0x03 = 1) : decodeTpdu (fo :: it) = (do
    let (reference, it) ← next it
    let ((number, _), it) ← decodeAddressField it
    let (protocolId, it) ← next it
    let (dcs, it) ← next it
    let (validity, it) ← readValidity fo it
    let (userDataLen, it) ← next it
    let ud ← decodeUserData it userDataLen (decodeDataCoding dcs) (decide ((fo &&& 0x40) ≠ 0))
    return .submit reference number protocolId validity ud) := by
  unfold decodeTpdu
  show (if fo &&& 0x03 = 0 then _ else if fo &&& 0x03 = 1 then _ else _) = _
  rw [if_neg (by omega), if_pos h]
  cases next it with
  | error e => rfl
  | ok v =>
    obtain ⟨reference, r⟩ := v
    simp only [ok_bind]
    cases decodeAddressField r with
    | error e => rfl
    | ok v =>
      obtain ⟨⟨number, k⟩, r⟩ := v
      simp only [ok_bind]
      cases next r with
      | error e => rfl
      | ok v =>
        obtain ⟨pid, r⟩ := v
        simp only [ok_bind]
        cases next r with
        | error e => rfl
        | ok v =>
          obtain ⟨dcs, r⟩ := v
          simp only [ok_bind]
          unfold readValidity
          split
          · cases next r with
            | error e => rfl
            | ok v =>
              simp only [ok_bind]
              cases decodeRelativeValidityPeriod v.1 <;> rfl
          · split
            · cases decodeTimestamp r <;> rfl
            · rfl

theorem tpdu_deliver (it : List Nat) (fo : Nat) (h : fo &&& 0x03 = 0) : decodeTpdu (fo :: it) = (do
    let ((number, _), it) ← decodeAddressField it
    let (protocolId, it) ← next it
    let (dcs, it) ← next it
    let (time, it) ← decodeTimestamp it
    let (userDataLen, it) ← next it
    let ud ← decodeUserData it userDataLen (decodeDataCoding dcs) (decide ((fo &&& 0x40) ≠ 0))
    return .deliver number protocolId time ud) := by
  unfold decodeTpdu
  show (if fo &&& 0x03 = 0 then _ else _) = _
  rw [if_pos h]

theorem tpdu_report (it : List Nat) (fo : Nat) (h : fo &&& 0x03 = 2) : decodeTpdu (fo :: it) = (do
    let (reference, it) ← next it
    let ((number, _), it) ← decodeAddressField it
    let (time, it) ← decodeTimestamp it
    let (discharge, it) ← decodeTimestamp it
    let (status, _) ← next it
    return .statusReport reference number time discharge status) := by
  unfold decodeTpdu
  show (if fo &&& 0x03 = 0 then _ else if fo &&& 0x03 = 1 then _ else if fo &&& 0x03 = 2 then _ else _) = _
  rw [if_neg (by omega), if_neg (by omega), if_pos h]

theorem tpdu_other (it : List Nat) (fo : Nat) (h0 : fo &&& 0x03 ≠ 0) (h1 : fo &&& 0x03 ≠ 1) (h2 : fo &&& 0x03 ≠ 2) :
    decodeTpdu (fo :: it) = .error .encodingError := by
  unfold decodeTpdu
  show (if fo &&& 0x03 = 0 then _ else if fo &&& 0x03 = 1 then _ else if fo &&& 0x03 = 2 then _ else _) = _
  rw [if_neg h0, if_neg h1, if_neg h2]

theorem tpdu_head {it : List Nat} {b : SmsBody} (h : decodeTpdu it = .ok b) : TpduHead it b := by
  match it, h with
  | [], h => cases h
  | fo :: it, h =>
    by_cases h0 : fo &&& 0x03 = 0
    · rw [tpdu_deliver it fo h0] at h
      obtain ⟨⟨⟨number, k⟩, r1⟩, e1, h⟩ := readerBind_ok h
      obtain ⟨⟨pid, r2⟩, e2, h⟩ := readerBind_ok h
      obtain ⟨⟨dcs, r3⟩, e3, h⟩ := readerBind_ok h
      obtain ⟨⟨time, r4⟩, e4, h⟩ := readerBind_ok h
      obtain ⟨⟨n, r5⟩, e5, h⟩ := readerBind_ok h
      obtain ⟨ud, e6, h⟩ := readerBind_ok h
      cases h
      refine .deliver (suffix_trans ⟨[fo], rfl⟩ (suffix_trans (address_suffix e1) (suffix_trans (suffix_next e2)
        (suffix_trans (suffix_next e3) (suffix_trans (timestamp_suffix e4) (suffix_next e5)))))) e6 (fun j => ?_)
      have n1 : r1 ≠ [] := by rw [nonempty_of_next e2]; simp
      have n4 : r4 ≠ [] := by rw [nonempty_of_next e5]; simp
      have s1 := steady_address false _ _ _ j e1 n1
      dsimp only at s1
      rw [List.cons_append, tpdu_deliver _ fo h0, s1, ok_bind]
      simp only [firm_next _ _ _ j e2, firm_next _ _ _ j e3, steady_timestamp _ _ _ j e4 n4, firm_next _ _ _ j e5,
        ok_bind]
      cases decodeUserData (r5 ++ j) n (decodeDataCoding dcs) (decide ((fo &&& 0x40) ≠ 0)) <;> rfl
    · by_cases h1 : fo &&& 0x03 = 1
      · rw [tpdu_submit it fo h1] at h
        obtain ⟨⟨mr, r0⟩, e0, h⟩ := readerBind_ok h
        obtain ⟨⟨⟨number, k⟩, r1⟩, e1, h⟩ := readerBind_ok h
        obtain ⟨⟨pid, r2⟩, e2, h⟩ := readerBind_ok h
        obtain ⟨⟨dcs, r3⟩, e3, h⟩ := readerBind_ok h
        obtain ⟨⟨time, r4⟩, e4, h⟩ := readerBind_ok h
        obtain ⟨⟨n, r5⟩, e5, h⟩ := readerBind_ok h
        obtain ⟨ud, e6, h⟩ := readerBind_ok h
        cases h
        refine .submit (suffix_trans ⟨[fo], rfl⟩ (suffix_trans (suffix_next e0) (suffix_trans (address_suffix e1)
          (suffix_trans (suffix_next e2) (suffix_trans (suffix_next e3) (suffix_trans (validity_suffix e4)
            (suffix_next e5))))))) e6 (fun j => ?_)
        have n1 : r1 ≠ [] := by rw [nonempty_of_next e2]; simp
        have n4 : r4 ≠ [] := by rw [nonempty_of_next e5]; simp
        have s1 := steady_address false _ _ _ j e1 n1
        dsimp only at s1
        rw [List.cons_append, tpdu_submit _ fo h1, firm_next _ _ _ j e0, ok_bind]
        simp only [s1, firm_next _ _ _ j e2, firm_next _ _ _ j e3, steady_validity fo _ _ _ j e4 n4,
          firm_next _ _ _ j e5, ok_bind]
        cases decodeUserData (r5 ++ j) n (decodeDataCoding dcs) (decide ((fo &&& 0x40) ≠ 0)) <;> rfl
      · by_cases h2 : fo &&& 0x03 = 2
        · rw [tpdu_report it fo h2] at h
          obtain ⟨⟨mr, r0⟩, e0, h⟩ := readerBind_ok h
          obtain ⟨⟨⟨number, k⟩, r1⟩, e1, h⟩ := readerBind_ok h
          obtain ⟨⟨time, r2⟩, e2, h⟩ := readerBind_ok h
          obtain ⟨⟨dis, r3⟩, e3, h⟩ := readerBind_ok h
          obtain ⟨⟨st, r4⟩, e4, h⟩ := readerBind_ok h
          cases h
          refine .report (fun j => ?_)
          have n3 : r3 ≠ [] := by rw [nonempty_of_next e4]; simp
          have n2 : r2 ≠ [] := by rintro rfl; exact n3 (timestamp_nil e3)
          have n1 : r1 ≠ [] := by rintro rfl; exact n2 (timestamp_nil e2)
          have s1 := steady_address false _ _ _ j e1 n1
          dsimp only at s1
          rw [List.cons_append, tpdu_report _ fo h2, firm_next _ _ _ j e0, ok_bind]
          simp only [s1, steady_timestamp _ _ _ j e2 n2, steady_timestamp _ _ _ j e3 n3, firm_next _ _ _ j e4, ok_bind]
          rfl
        · rw [tpdu_other it fo h0 h1 h2] at h
          cases h

theorem pdu_head {p : List Nat} {r : DecodedSms} (h : decodeSmsPduOctets p = .ok r) :
    ∃ (k : Nat) (rest : List Nat), decodeAddressField p true = .ok ((r.smsc, k), rest) ∧ rest ≠ [] ∧
      decodeTpdu rest = .ok r.body ∧ r.tpduLength = (p.length : Int) - k ∧
      ∀ j, decodeSmsPduOctets (p ++ j) = (decodeTpdu (rest ++ j)).map
        (fun b => ⟨r.smsc, r.tpduLength + (j.length : Nat), b⟩) := by
  unfold decodeSmsPduOctets at h
  obtain ⟨⟨⟨smsc, k⟩, rest⟩, e1, h⟩ := readerBind_ok h
  obtain ⟨b, e2, h⟩ := readerBind_ok h
  cases h
  have hne : rest ≠ [] := by rintro rfl; cases e2
  refine ⟨k, rest, e1, hne, e2, rfl, fun j => ?_⟩
  have s1 := steady_address true _ _ _ j e1 hne
  dsimp only at s1
  unfold decodeSmsPduOctets
  rw [s1, ok_bind]
  simp only [List.length_append]
  cases decodeTpdu (rest ++ j) with
  | error e => rfl
  | ok b' =>
    simp only [ok_bind, Except.map, pure, Except.pure, Except.ok.injEq, DecodedSms.mk.injEq, true_and, and_true]
    omega

/-- A field of a longer input, read from its beginning only. -/
theorem peel {α} {P : List Nat → Except PyErr (α × List Nat)} (hP : SteadyReader P) {p j f tail rest : List Nat} {a a' : α}
    (he : p ++ j = f ++ tail) (hl : P (f ++ tail) = .ok (a, tail)) (h : P p = .ok (a', rest)) (hne : rest ≠ []) :
    a' = a ∧ p = f ++ rest ∧ rest ++ j = tail := by
  have := hP _ _ _ j h hne
  rw [he, hl] at this
  simp only [Except.ok.injEq, Prod.mk.injEq] at this
  obtain ⟨h1, h2⟩ := this
  refine ⟨h1.symm, ?_, h2.symm⟩
  rw [h2, ← List.append_assoc] at he
  exact List.append_cancel_right he

theorem tpdu_cons {it : List Nat} {b : SmsBody} (h : decodeTpdu it = .ok b) : ∃ fo it', it = fo :: it' := by
  cases it with
  | nil => cases h
  | cons fo it => exact ⟨fo, it, rfl⟩

theorem firstSeptets_lt (p : Option Nat) (c : Bool) (o : Nat) : (∀ x, p = some x → x < 256) →
    ∀ x ∈ (match p with | some p => [p >>> 1] | none => []) ++ (if c = true then [o &&& 0x7F] else []), x < 128 := by
  intro hp x hx
  rcases List.mem_append.1 hx with hx | hx
  · cases p with
    | none => cases hx
    | some q =>
      have := hp q rfl
      simp only [List.mem_singleton, Nat.shiftRight_one] at hx
      subst hx
      omega
  · cases c with
    | true =>
      simp only [if_true, List.mem_singleton] at hx
      have := Nat.and_le_right (n := o) (m := 0x7f); omega
    | false => cases hx

/-- Septets are what is read from octets. -/
theorem unpackLoop_septets (n : Option Nat) : ∀ (it : List Nat) (i : Nat) (p : Option Nat) (s : Nat) {e : UnpackEnd},
    1 ≤ s → s ≤ 7 → (∀ x, p = some x → x < 256) → (∀ x ∈ it, x < 256) → unpackLoop n i p s it = .ok e →
      (∀ x ∈ e.result, x < 128) ∧ ∀ x, e.prevOctet = some x → x < 256
  | [], i, p, s, e, _, _, hp, _, h => by cases h; exact ⟨by simp, hp⟩
  | o :: it, i, p, s, e, h1, h7, hp, hit, h => by
    have ho : o < 256 := hit o (by simp)
    have hit' : ∀ x ∈ it, x < 256 := fun x hx => hit x (by simp [hx])
    unfold unpackLoop at h
    dsimp only at h
    by_cases hs : s = 7
    · rw [if_pos hs] at h
      have hq : ∀ c : Bool, ∀ x, (if c = true then some o else p) = some x → x < 256 := by
        intro c x hx; cases c with
        | true => cases hx; exact ho
        | false => exact hp x hx
      have hpre := fun c => firstSeptets_lt p c o hp
      split at h
      · cases h; exact ⟨hpre _, hq _⟩
      · obtain ⟨e1, h1, h⟩ := readerBind_ok h
        obtain ⟨i1, i2⟩ := unpackLoop_septets n it _ _ 1 (by omega) (by omega) (hq _) hit' h1
        cases h
        refine ⟨fun x hx => ?_, i2⟩
        rcases List.mem_append.1 hx with hx | hx
        · exact hpre _ x hx
        · exact i1 x hx
    · rw [if_neg hs] at h
      cases p with
      | none => cases h
      | some q =>
        dsimp only at h
        have hb := unpack_lt (s := s) (p := q) (o := o) (by omega) (hp q rfl) h1
        split at h
        · cases h; exact ⟨by simpa using hb, fun x hx => by cases hx; exact ho⟩
        · obtain ⟨e1, e2, h⟩ := readerBind_ok h
          obtain ⟨i1, i2⟩ := unpackLoop_septets n it _ _ (s + 1) (by omega) (by omega)
            (fun x hx => by cases hx; exact ho) hit' e2
          cases h
          refine ⟨fun x hx => ?_, i2⟩
          rcases List.mem_cons.1 hx with hx | hx
          · rw [hx]; exact hb
          · exact i1 x hx

theorem unpackSeptets_lt {it : List Nat} {n p : Option Nat} {s : Nat} {v : List Nat × List Nat} (h1 : 1 ≤ s)
    (h7 : s ≤ 7) (hp : ∀ x, p = some x → x < 256) (hit : ∀ x ∈ it, x < 256) (h : unpackSeptets it n p s = .ok v) :
    ∀ x ∈ v.1, x < 128 := by
  obtain ⟨e, hl, -, hv⟩ := unpackSeptets_ok h
  obtain ⟨i1, i2⟩ := unpackLoop_septets n it 0 p s h1 h7 hp hit hl
  rcases hv with ⟨-, a⟩ | ⟨q, -, hq, ⟨-, a⟩ | ⟨-, a⟩⟩
  · rw [a]; exact i1
  · rw [a]
    intro x hx
    rcases List.mem_append.1 hx with hx | hx
    · exact i1 x hx
    · have := i2 q hq
      simp only [List.mem_singleton, Nat.shiftRight_one] at hx
      subst hx
      omega
  · rw [a]; exact i1

theorem unpackLoop_error (n : Option Nat) : ∀ (it : List Nat) (i : Nat) (p : Option Nat) (s : Nat) {e : PyErr},
    unpackLoop n i p s it = .error e → e = .typeError
  | [], _, _, _, _, h => by cases h
  | o :: it, i, p, s, e, h => by
    unfold unpackLoop at h
    dsimp only at h
    by_cases hs : s = 7
    · rw [if_pos hs] at h
      split at h
      · cases h
      · generalize hq : unpackLoop n (i + 1) _ 1 it = x at h
        cases x with
        | ok v => cases h
        | error e' => cases h; exact unpackLoop_error n it _ _ _ hq
    · rw [if_neg hs] at h
      cases p with
      | none => cases h; rfl
      | some q =>
        dsimp only at h
        split at h
        · cases h
        · cases hq : unpackLoop n (i + 1) (some o) (s + 1) it with
          | ok v => rw [hq] at h; cases h
          | error e' => rw [hq] at h; cases h; exact unpackLoop_error n it _ _ _ hq

theorem unpackSeptets_error {it : List Nat} {n p : Option Nat} {s : Nat} {e : PyErr}
    (h : unpackSeptets it n p s = .error e) : e = .typeError := by
  unfold unpackSeptets at h
  cases hl : unpackLoop n 0 p s it with
  | error e' => rw [hl] at h; cases h; exact unpackLoop_error n it 0 p s hl
  | ok v =>
    rw [hl] at h
    simp only [bind, Except.bind, pure, Except.pure] at h
    split at h
    · split at h
      · cases h; rfl
      · split at h <;> cases h
    · cases h

theorem decodeGsm7_error {s : List Nat} {e : PyErr} (h7 : ∀ x ∈ s, x < 128) (h : decodeGsm7 s = .error e) :
    e = .stopIteration := by
  fun_induction decodeGsm7 s with
  | case1 => cases h
  | case2 => cases h; rfl
  | case3 n rest ih =>
    cases hr : decodeGsm7 rest with
    | ok v => rw [hr] at h; cases h
    | error e' => rw [hr] at h; cases h; exact ih (fun x hx => h7 x (by simp [hx])) hr
  | case4 b rest hb hn =>
    have := h7 b (by simp)
    have hl : gsm7Basic.length = 128 := by decide +kernel
    rw [List.getElem?_eq_none_iff] at hn
    omega
  | case5 b rest hb c hc ih =>
    cases hr : decodeGsm7 rest with
    | ok v => rw [hr] at h; cases h
    | error e' => rw [hr] at h; cases h; exact ih (fun x hx => h7 x (by simp [hx])) hr

theorem unpack_decode_error {it : List Nat} {n p : Option Nat} {s : Nat} {e : PyErr} (h1 : 1 ≤ s)
    (h7 : s ≤ 7) (hp : ∀ x, p = some x → x < 256) (hit : ∀ x ∈ it, x < 256)
    (h : (unpackSeptets it n p s >>= fun v => decodeGsm7 v.1) = .error e) : e = .stopIteration ∨ e = .typeError := by
  cases hu : unpackSeptets it n p s with
  | error e' => rw [hu] at h; cases h; exact .inr (unpackSeptets_error hu)
  | ok v =>
    rw [hu] at h
    exact .inl (decodeGsm7_error (unpackSeptets_lt h1 h7 hp hit hu) h)

theorem userText_error {it : List Nat} {n dc : Nat} {hl : Option Nat} {e : PyErr} (hit : ∀ x ∈ it, x < 256)
    (h : decodeUserText it n dc hl = .error e) : dc = 0 ∧ (e = .stopIteration ∨ e = .typeError) := by
  unfold decodeUserText at h
  by_cases h0 : dc = 0
  · refine ⟨h0, ?_⟩
    rw [if_pos h0] at h
    cases hl with
    | none => exact unpack_decode_error (s := 7) (by omega) (by omega) (fun x hx => by cases hx) hit h
    | some k =>
      match it, hit, h with
      | [], _, h => cases h; exact .inl rfl
      | o :: it, hit, h =>
        have := Nat.mod_lt ((k + 1) * 8) (show 7 > 0 by omega)
        exact unpack_decode_error (s := (k + 1) * 8 % 7 + 1) (by omega) (by omega)
          (fun x hx => by cases hx; exact hit o (by simp)) (fun x hx => hit x (by simp [hx])) h
  · rw [if_neg h0] at h
    split at h <;> cases h

theorem userData_error {it j : List Nat} {n dc : Nat} {up : Bool} {x : UserData} {e : PyErr}
    (hit : ∀ x ∈ it ++ j, x < 256) (h : decodeUserData it n dc up = .ok x)
    (h' : decodeUserData (it ++ j) n dc up = .error e) : dc = 0 ∧ (e = .stopIteration ∨ e = .typeError) := by
  obtain ⟨pre, rest, hl, he, -, ht, hj⟩ := userData_split h
  rw [hj] at h'
  cases hx : decodeUserText (rest ++ j) n dc hl with
  | ok t => rw [hx] at h'; cases h'
  | error e' =>
    rw [hx] at h'; cases h'
    exact userText_error (fun x hx => hit x (by rw [he, List.append_assoc]; exact List.mem_append_right _ hx)) hx

end Gsm
