import Verif.Spec.Notify
import Verif.Lemmas.RegexEval
import Verif.Lemmas.ModemTrans
import Verif.Spec.ExampleModem
import Verif.Props.ModemListing
/-! # Recognising notifications and USSD results -/
namespace Gsm
open M Spec

variable {env : Env}

theorem findSome_first {α β : Type} {f : α → Option β} : ∀ {l : List α} {b : β}, l.findSome? f = some b →
    ∃ before a after, l = before ++ a :: after ∧ (∀ x ∈ before, f x = none) ∧ f a = some b
  | [], b, h => by simp at h
  | a :: l, b, h => by
    rw [List.findSome?_cons] at h
    cases ha : f a with
    | some c => rw [ha] at h; exact ⟨[], a, l, rfl, by simp, ha.trans h⟩
    | none =>
      rw [ha] at h
      obtain ⟨bf, x, af, rfl, h2, h3⟩ := findSome_first h
      exact ⟨a :: bf, x, af, rfl, by simpa [ha] using h2, h3⟩

theorem recognise_iff {table : List (List Rx × CallHandler)} {l : PyStr} {d : Dispatch} : recognise table l = some d ↔ Announces table l d := by
  unfold recognise
  by_cases h1 : py!"RING" <:+: l
  · rw [if_pos (pyContains_iff.2 h1)]
    constructor
    · rintro h; cases h; exact .ring h1
    · intro h; cases h <;> first | rfl | contradiction
  rw [if_neg (fun h => h1 (pyContains_iff.1 h))]
  have hx : ∀ {a b : PyStr}, a.length = b.length → a <+: l → b <+: l → a = b := by
    intro a b hl ha hb
    exact (List.prefix_of_prefix_length_le ha hb (by omega)).eq_of_length hl
  by_cases h2 : py!"+CMTI" <+: l
  · rw [if_pos (List.isPrefixOf_iff_prefix.2 h2)]
    constructor
    · rintro h; cases h; exact .message h1 h2
    · intro h
      cases h with
      | message => rfl
      | ussd _ h => exact absurd (hx (by rfl) h2 h) (by decide)
      | report _ h => exact absurd (hx (by rfl) h2 h) (by decide)
      | _ => contradiction
  rw [if_neg (fun h => h2 (List.isPrefixOf_iff_prefix.1 h))]
  by_cases h3 : py!"+CUSD" <+: l
  · rw [if_pos (List.isPrefixOf_iff_prefix.2 h3)]
    constructor
    · rintro h; cases h; exact .ussd h1 h3
    · intro h
      cases h with
      | ussd => rfl
      | report _ h => exact absurd (hx (by rfl) h3 h) (by decide)
      | _ => contradiction
  rw [if_neg (fun h => h3 (List.isPrefixOf_iff_prefix.1 h))]
  by_cases h4 : py!"+CDSI" <+: l
  · rw [if_pos (List.isPrefixOf_iff_prefix.2 h4)]
    constructor
    · rintro h; cases h; exact .report h1 h4
    · intro h
      cases h with
      | report => rfl
      | _ => contradiction
  rw [if_neg (fun h => h4 (List.isPrefixOf_iff_prefix.1 h))]
  constructor
  · intro h
    obtain ⟨bf, ⟨rx, hd⟩, af, rfl, k2, k3⟩ := findSome_first h
    simp only [Option.map_eq_some_iff] at k3
    obtain ⟨g, k3, rfl⟩ := k3
    exact .call h1 h2 h3 h4 rfl (fun x hx => by simpa using k2 x hx) k3
  · intro h
    cases h with
    | @call bf rx hd af g _ _ _ _ k5 k6 k7 =>
      subst k5
      rw [List.findSome?_append]
      have : (bf.findSome? fun x => (rxGroups x.1 l).map fun g => Dispatch.call x.2 g) = none := by
        rw [List.findSome?_eq_none_iff]
        intro x hx
        simp [k6 x hx]
      simp [this, k7]
    | _ => contradiction

theorem dispatch_skip {batch pre rest : List PyStr} {s : St}
    (hpre : ∀ l ∈ pre, ∀ d, ¬ Announces (callTable s.callStatusUpdates) l d) :
    dispatchLoop batch (pre ++ rest) env s = dispatchLoop batch rest env s := by
  induction pre with
  | nil => rfl
  | cons l pre ih =>
    have : recognise (callTable s.callStatusUpdates) l = none := by
      cases h : recognise (callTable s.callStatusUpdates) l with
      | none => rfl
      | some d => exact absurd (recognise_iff.1 h) (hpre l (by simp) d)
    rw [List.cons_append, dispatchLoop, run_bind, run_get]
    simp only [this]
    exact ih fun x hx => hpre x (by simp [hx])

/-- Shortest repetition: the first text after which the rest matches. -/
theorem repLazy_first {α : Type} {p : Nat → Bool} {k : PyStr → PyStr → Option α} {x : α} : ∀ {w s cur : PyStr}, (∀ c ∈ w, p c = true) →
    (∀ a b, w = a ++ b → b ≠ [] → k (b ++ s) (cur ++ a) = none) → k s (cur ++ w) = some x → repLazy p k 0 none (w ++ s) cur = some x
  | [], s, cur, _, _, hk => by
    rw [List.append_nil] at hk
    cases s with
    | nil => simpa [repLazy] using hk
    | cons c s => simp [repLazy, hk]
  | c :: w, s, cur, h1, h2, hk => by
    have h0 := h2 [] (c :: w) rfl (by simp)
    rw [List.append_nil] at h0
    rw [List.cons_append] at h0 ⊢
    simp only [repLazy, if_true, h0]
    rw [if_pos ⟨h1 c (by simp), by simp⟩]
    exact repLazy_first (fun x hx => h1 x (by simp [hx])) (fun a b hab hb => by
      have := h2 (c :: a) b (by simp [hab]) hb
      simpa using this) (by simpa using hk)

theorem cusd_match {r : UssdResult} (h : r.Ok) {rest : PyStr} (hr : ∀ c, rest.head? = some c → ¬ (48 ≤ c ∧ c ≤ 57)) :
    rxMatch? cusdRegex (r.text ++ rest) = some ([[r.status], r.message, r.coding], rest) := by
  obtain ⟨h1, h2, h3, h4⟩ := h
  have hd : isD r.status = true := isD_iff.2 h2
  have hhead : ∀ c, (([r.status] ++ (py!",\"" ++ (r.message ++ (py!"\"," ++ (r.coding ++ rest))))).head? = some c → isS c = false) := by
    intro c hc
    simp at hc
    subst hc
    exact isS_digit _ h2.1 h2.2
  have : rxMatch? cusdRegex (py!"+CUSD:" ++ (r.blanks ++ ([r.status] ++ (py!",\"" ++ (r.message ++ (py!"\"," ++ (r.coding ++ rest))))))) =
      some ([[r.status], r.message, r.coding], rest) := by
    unfold rxMatch? cusdRegex rxGrp
    simp only [List.append_assoc, List.cons_append, List.nil_append]
    refine rxRun_litE (rxRun_star (blanks_class h1) hhead (rxRun_op' ?_))
    simp only [List.nil_append, rxRun, hd, if_true]
    refine rxRun_litE (l := py!",\"") ?_
    simp only [rxRun, Bool.false_eq_true, if_false]
    refine repLazy_first (fun _ _ => rfl) ?_ ?_
    · intro a b hab hb
      cases hk : rxRun (.cl :: (rxLit py!"\"," ++ (.op :: rxPlus isD :: [.cl]))) (b ++ (34 :: 44 :: (r.coding ++ rest))) ⟨[[r.status]], [] ++ a⟩ with
      | none => exact hk
      | some x =>
        exfalso
        rw [rxRun] at hk
        obtain ⟨s', hs, hk⟩ := rxRun_lit_some hk
        simp only [rxRun, rxPlus, if_true] at hk
        obtain ⟨w, s'', rfl, k1, k2, _, _⟩ := repGreedy_sound hk
        cases w with
        | nil => simp at k2
        | cons d w =>
          have hdd := isD_iff.1 (k1 d (by simp))
          cases b with
          | nil => exact hb rfl
          | cons b1 b =>
            cases b with
            | nil =>
              simp at hs
            | cons b2 b =>
              cases b with
              | nil => simp at hs; omega
              | cons b3 b =>
                simp at hs
                obtain ⟨rfl, rfl, rfl, _⟩ := hs
                exact h3 a b b3 hab hdd
    · refine rxRun_cl' ?_
      refine rxRun_plus h4.1 (digits_class h4) ?_ (rxRun_cl' ?_)
      · intro c hc
        have := hr c hc
        rw [← Bool.not_eq_true, isD_iff]
        exact this
      · simp [rxRun]
  simpa [UssdResult.text, List.append_assoc] using this

theorem cusd_nomatch {c : Nat} {s : PyStr} (h : c ≠ 43) : rxMatch? cusdRegex (c :: s) = none := by
  simp [rxMatch?, cusdRegex, rxLit, rxRun, h]

theorem findAll_junk : ∀ {junk rest : PyStr} {fuel : Nat}, 43 ∉ junk → rxFindAll cusdRegex (junk.length + fuel) (junk ++ rest) = rxFindAll cusdRegex fuel rest
  | [], rest, fuel, _ => by simp
  | c :: junk, rest, fuel, h => by
    simp only [List.mem_cons, not_or] at h
    have hl : (c :: junk).length + fuel = (junk.length + fuel) + 1 := by simp only [List.length_cons]; omega
    rw [hl, List.cons_append, rxFindAll, cusd_nomatch (Ne.symm h.1)]
    exact findAll_junk h.2

theorem findAll_text {text : PyStr} {rs : List UssdResult} (h : UssdText text rs) : ∀ {fuel : Nat}, text.length < fuel →
    rxFindAll cusdRegex fuel text = rs.map fun r => [[r.status], r.message, r.coding] := by
  induction h with
  | @done junk hj =>
    intro fuel hf
    have := findAll_junk (rest := []) (fuel := fuel - junk.length) hj
    rw [List.append_nil, show junk.length + (fuel - junk.length) = fuel by omega] at this
    rw [this]
    cases hg : fuel - junk.length with
    | zero => omega
    | succ n => simp [rxFindAll, show rxMatch? cusdRegex [] = none by decide]
  | @next junk r rest rs hj hr hrest _ ih =>
    intro fuel hf
    have h1 := findAll_junk (rest := r.text ++ rest) (fuel := fuel - junk.length) hj
    rw [List.append_assoc] at hf ⊢
    rw [List.length_append] at hf
    rw [show junk.length + (fuel - junk.length) = fuel by omega] at h1
    rw [h1]
    cases hg : fuel - junk.length with
    | zero => omega
    | succ n =>
      have hm := cusd_match hr hrest
      have ht : ∃ c s, r.text ++ rest = c :: s := ⟨_, _, rfl⟩
      obtain ⟨c, s, ht⟩ := ht
      rw [List.length_append] at hf
      rw [ht] at hm ⊢
      rw [rxFindAll, hm]
      simp only [List.map_cons]
      have hlen : 0 < r.text.length := by simp [UssdResult.text]
      rw [ih (by omega)]

theorem cusdPairs_map (rs : List UssdResult) : cusdPairs (rs.map fun r => [[r.status], r.message, r.coding]) = rs.map fun r => ([r.status], r.message) := by
  induction rs with
  | nil => rfl
  | cons r rs ih =>
    simp only [cusdPairs, List.map_cons, List.filterMap_cons] at ih ⊢
    rw [ih]

theorem cusdLoop_eq : ∀ (rs : List UssdResult) (m : Option PyStr) (a : Bool),
    cusdLoop m a (rs.map fun r => ([r.status], r.message)) = ((ussdMessage rs).or m, a && ussdOpen rs)
  | [], m, a => by simp [cusdLoop, ussdMessage, ussdOpen]
  | r :: rs, m, a => by
    simp only [List.map_cons, cusdLoop]
    by_cases h : r.status = 50
    · simp only [h, if_true]
      rw [cusdLoop_eq rs]
      simp [ussdMessage, ussdOpen, h]
    · have h' : ¬ ([r.status] = py!"2") := by simp [h]
      rw [if_neg h', cusdLoop_eq rs]
      simp only [ussdMessage, ussdOpen, List.all_cons, Bool.and_assoc, Prod.mk.injEq]
      refine ⟨?_, ?_⟩
      · rw [List.filter_cons_of_pos (by simpa using h)]
        cases hl : (rs.filter fun r => r.status ≠ 50) with
        | nil => simp
        | cons x xs => simp [List.getLast?_cons]
      · congr 1
        congr 1
        by_cases h1 : r.status = 49 <;> simp [h1]

theorem event_ok (e : Event) (s : St) (x : PyErr) : (e.run env s).1 ≠ .error x := by
  cases e with
  | notify ls => simp [Event.run]
  | poll k =>
    simp only [Event.run]
    split
    · simp
    · split <;> simp

theorem awaitEvent_ok (f : St → Bool) : ∀ (es : List Event) (s : St) (x : PyErr), (awaitEvent f es env s).1 ≠ .error x
  | [], s, x => by simp [awaitEvent, run_bind, run_get, run_pure]
  | e :: es, s, x => by
    simp only [awaitEvent, run_bind, run_get]
    split
    · simp [run_pure]
    · simp only [run_bind]
      cases h : e.run env s with
      | mk r s1 =>
        cases r with
        | error y => exact absurd (congrArg Prod.fst h) (event_ok e s y)
        | ok _ => exact awaitEvent_ok f es s1 x

end Gsm
