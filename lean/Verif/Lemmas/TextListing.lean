import Verif.Spec.TextListing
import Verif.Props.ModemReading
import Verif.Props.ModemListing
import Verif.Props.Stranger
/-! # Lemmas: what a listing in text mode is taken for -/
namespace Gsm
open M Spec

theorem cmglText_rx : cmglTextRegex = rxLit py!"+CMGL: " ++ (.op :: rxPlus isD :: .cl :: (rxLit py!",\"" ++ (.op :: rxPlus (notC 34) :: .cl :: (rxLit py!"\",\"" ++
    (.op :: rxPlus (notC 34) :: .cl :: (rxLit py!"\"," ++ (rxStar (notC 44) :: (rxLit py!",\"" ++ (.op :: rxPlus (notC 34) :: .cl :: (rxLit py!"\"" ++ [.eol])))))))))) := by
  simp [cmglTextRegex, rxGrp]

theorem listHeader_iff {line : PyStr} {g : List PyStr} : rxGroups cmglTextRegex line = some g ↔
    ∃ h : Head, g = [h.index, h.status, h.number, h.time] ∧ ListHeader line h := by
  unfold rxGroups rxMatch?
  rw [Option.map_eq_some_iff, cmglText_rx]
  constructor
  · rintro ⟨⟨g', r⟩, h, rfl⟩
    obtain ⟨s1, rfl, h1⟩ := rxRun_lit_some h
    rw [rxRun_op] at h1
    obtain ⟨i, s2, rfl, hi, hi1, _, h2⟩ := rxRun_rep_some h1
    rw [rxRun_cl] at h2
    obtain ⟨s3, rfl, h3⟩ := rxRun_lit_some h2
    rw [rxRun_op] at h3
    obtain ⟨a, s4, rfl, ha, ha1, _, h4⟩ := rxRun_rep_some h3
    rw [rxRun_cl] at h4
    obtain ⟨s5, rfl, h5⟩ := rxRun_lit_some h4
    rw [rxRun_op] at h5
    obtain ⟨b, s6, rfl, hb, hb1, _, h6⟩ := rxRun_rep_some h5
    rw [rxRun_cl] at h6
    obtain ⟨s7, rfl, h7⟩ := rxRun_lit_some h6
    obtain ⟨n, s8, rfl, hn, _, _, h8⟩ := rxRun_rep_some h7
    obtain ⟨s9, rfl, h9⟩ := rxRun_lit_some h8
    rw [rxRun_op] at h9
    obtain ⟨t, s10, rfl, ht, ht1, _, h10⟩ := rxRun_rep_some h9
    rw [rxRun_cl] at h10
    obtain ⟨s11, rfl, h11⟩ := rxRun_lit_some h10
    obtain ⟨hend, h12⟩ := rxRun_eol_some h11
    simp only [rxRun_nil, List.nil_append, Option.some.injEq, Prod.mk.injEq] at h12
    exact ⟨⟨i, a, b, t⟩, by rw [← h12.1]; simp, n, s11, rfl, digits_of hi hi1, quotable_of ha ha1, quotable_of hb hb1, class_notin hn, quotable_of ht ht1, hend⟩
  · rintro ⟨⟨i, a, b, t⟩, rfl, n, e, rfl, hi, ha, hb, hn, ht, he⟩
    refine ⟨([i, a, b, t], e), ?_, rfl⟩
    rw [rxRun_lit, rxRun_op]
    refine rxRun_rep_longest (digits_class hi) (List.length_pos_iff.2 hi.1) (fun c hc => by cases hc; decide) ?_
    rw [rxRun_cl, rxRun_lit, rxRun_op]
    refine rxRun_rep_longest (notin_class ha.2) (List.length_pos_iff.2 ha.1) (fun c hc => by cases hc; decide) ?_
    rw [rxRun_cl, rxRun_lit, rxRun_op]
    refine rxRun_rep_longest (notin_class hb.2) (List.length_pos_iff.2 hb.1) (fun c hc => by cases hc; decide) ?_
    rw [rxRun_cl, rxRun_lit]
    refine rxRun_rep_longest (notin_class hn) (Nat.zero_le _) (fun c hc => by cases hc; decide) ?_
    rw [rxRun_lit, rxRun_op]
    refine rxRun_rep_longest (notin_class ht.2) (List.length_pos_iff.2 ht.1) (fun c hc => by cases hc; decide) ?_
    rw [rxRun_cl, rxRun_lit, rxRun_eol he, rxRun_nil]
    simp

theorem head_groups {line : PyStr} {h : Head} (hh : ListHeader line h) : rxGroups cmglTextRegex line = some [h.index, h.status, h.number, h.time] :=
  listHeader_iff.2 ⟨h, rfl, hh⟩

theorem noHead_groups {line : PyStr} (hh : ¬ IsHead line) : rxGroups cmglTextRegex line = none := by
  cases hg : rxGroups cmglTextRegex line with
  | none => rfl
  | some g => obtain ⟨h, -, h'⟩ := listHeader_iff.1 hg; exact absurd ⟨h, h'⟩ hh

theorem head_unique {line : PyStr} {h h' : Head} (a : ListHeader line h) (b : ListHeader line h') : h = h' := by
  have := head_groups a
  rw [head_groups b] at this
  obtain ⟨i, s, n, t⟩ := h
  obtain ⟨i', s', n', t'⟩ := h'
  simp only [Option.some.injEq, List.cons.injEq, and_true] at this
  obtain ⟨rfl, rfl, rfl, rfl⟩ := this
  rfl

/-! ### The loop -/

theorem textLoop_noHead : ∀ {body : List PyStr} {acc : Listing} {hdr} {ml rest : List PyStr}, (∀ l ∈ body, ¬ IsHead l) →
    textListLoop acc hdr ml (body ++ rest) = textListLoop acc hdr (ml ++ visible body) rest
  | [], acc, hdr, ml, rest, _ => by simp [visible]
  | l :: body, acc, hdr, ml, rest, h => by
    rw [List.cons_append, textListLoop, noHead_groups (h l (by simp))]
    have ih := fun ml => textLoop_noHead (acc := acc) (hdr := hdr) (ml := ml) (rest := rest) (fun x hx => h x (List.mem_cons_of_mem l hx))
    by_cases hl : l = py!"OK"
    · simp only [hl, ne_eq, not_true_eq_false, if_false]
      rw [ih]
      simp [visible]
    · simp only [ne_eq, hl, not_false_eq_true, if_true]
      rw [ih]
      simp [visible, hl]

/-- The places and the messages as the loop collects them. -/
def listingOf (xs : List (Nat × Msg)) : Listing := ⟨xs.map Prod.snd, (xs.map fun x => (x.1 : Int)).foldl setAdd []⟩

/-- The same, after what has been collected before. -/
def addTo (acc : Listing) (xs : List (Nat × Msg)) : Listing := ⟨acc.messages ++ xs.map Prod.snd, (xs.map fun x => (x.1 : Int)).foldl setAdd acc.delMessages⟩

theorem save_blank (acc : Listing) (hdr) : textSave acc hdr [] = .ok acc := by
  unfold textSave
  cases hdr <;> rfl

theorem no_state {st : PyStr} (h : ∀ n, (st, n) ∉ stateNames) : textStatus st = .error .keyError := state_none h

theorem loop_headed : ∀ {rest : List PyStr} {cs : List (Head × List PyStr)} {acc acc' : Listing} {hdr} {ml : List PyStr} {r : Except PyErr (List (Nat × Msg))},
    Divided rest cs → ListedText cs r → textSave acc hdr ml = .ok acc' →
    textListLoop acc hdr ml rest = r.map (addTo acc') := by
  intro rest cs acc acc' hdr ml r hd hc hs
  induction hd generalizing acc acc' hdr ml r with
  | nil => cases hc; simp [textListLoop, hs, addTo, Except.map]
  | @cons line h body rest cs h1 h2 h3 ih =>
    rw [textListLoop, head_groups h1]
    simp only [hs, bind, Except.bind]
    rw [textLoop_noHead h2, List.nil_append]
    obtain ⟨_, _, _, hdig, _⟩ := h1
    have save : ∀ {n t}, visible body ≠ [] → (h.status, n) ∈ stateNames → parseTextModeTimeStr h.time = .ok t →
        textSave acc' (some (h.index, h.status, h.number, h.time)) (visible body) =
          .ok ⟨acc'.messages ++ [.received n (some h.number) t ([10].intercalate (visible body)) none], setAdd acc'.delMessages (decVal h.index)⟩ := by
      intro n t v1 v2 v3
      unfold textSave
      simp only [List.length_pos_iff.2 v1, if_true, (states v2).1, v3, pyInt_of_digits hdig, bind, Except.bind, pure, Except.pure, pyJoin_eq]
    have fail : ∀ {e} (hdr' : Option (PyStr × PyStr × PyStr × PyStr)), textSave acc' hdr' (visible body) = .error e → textListLoop acc' hdr' (visible body) rest = .error e := by
      intro e hdr' he
      cases h3 with
      | nil => simp [textListLoop, he]
      | cons k1 k2 k3 =>
        rw [textListLoop, head_groups k1]
        simp only [he, bind, Except.bind]
    cases hc with
    | blank v1 v2 => rw [v1]; exact ih v2 (save_blank _ _)
    | message v1 v2 v3 v4 =>
      rw [ih v4 (save v1 v2 v3)]
      simp [addTo, Except.map]
    | later v1 v2 v3 v4 =>
      rw [ih v4 (save v1 v2 v3)]
      rfl
    | badState v1 v2 =>
      rw [fail]
      · rfl
      · unfold textSave
        simp only [List.length_pos_iff.2 v1, if_true, no_state v2, bind, Except.bind]
    | badTime v1 v2 v3 =>
      rw [fail]
      · rfl
      · unfold textSave
        simp only [List.length_pos_iff.2 v1, if_true, (states v2).1, v3, bind, Except.bind]

theorem divide : ∀ ls : List PyStr, ∃ pre rest cs, ls = pre ++ rest ∧ (∀ l ∈ pre, ¬ IsHead l) ∧ Divided rest cs
  | [] => ⟨[], [], [], rfl, by simp, .nil⟩
  | l :: ls => by
    obtain ⟨pre, rest, cs, rfl, h1, h2⟩ := divide ls
    by_cases hl : IsHead l
    · obtain ⟨h, hl⟩ := hl
      exact ⟨[], _, _, rfl, by simp, .cons hl h1 h2⟩
    · refine ⟨l :: pre, rest, cs, rfl, ?_, h2⟩
      intro x hx
      rcases List.mem_cons.1 hx with rfl | hx
      · exact hl
      · exact h1 x hx

theorem listedText_some : ∀ cs : List (Head × List PyStr), ∃ r, ListedText cs r
  | [] => ⟨_, .nil⟩
  | (h, body) :: cs => by
    obtain ⟨r, hr⟩ := listedText_some cs
    by_cases hv : visible body = []
    · exact ⟨r, .blank hv hr⟩
    · by_cases hs : ∃ n, (h.status, n) ∈ stateNames
      · obtain ⟨n, hn⟩ := hs
        cases ht : parseTextModeTimeStr h.time with
        | error e => exact ⟨_, .badTime hv hn ht⟩
        | ok t =>
          cases r with
          | error e => exact ⟨_, .later hv hn ht hr⟩
          | ok xs => exact ⟨_, .message hv hn ht hr⟩
      · exact ⟨_, .badState hv fun n hn => hs ⟨n, hn⟩⟩

theorem listing_taken {ls : List PyStr} {r : Except PyErr (List (Nat × Msg))} (h : TakenFor ls r) : parseListing true ls = r.map listingOf := by
  obtain ⟨pre, rest, cs, rfl, h1, h2, h3⟩ := h
  unfold parseListing
  rw [if_pos rfl, textLoop_noHead h1, loop_headed h2 h3 rfl]
  rfl

theorem taken_some (ls : List PyStr) : ∃ r, TakenFor ls r := by
  obtain ⟨pre, rest, cs, h1, h2, h3⟩ := divide ls
  obtain ⟨r, hr⟩ := listedText_some cs
  exact ⟨r, pre, rest, cs, h1, h2, h3, hr⟩

theorem listedText_unique {cs : List (Head × List PyStr)} {r : Except PyErr (List (Nat × Msg))} (h : ListedText cs r) : ∀ {r'}, ListedText cs r' → r = r' := by
  have names : ∀ {st : PyStr} {n n' : Int}, (st, n) ∈ stateNames → (st, n') ∈ stateNames → n = n' := by
    intro st n n' a b
    have := (states a).1
    rw [(states b).1] at this
    exact (Except.ok.inj this).symm
  induction h with
  | nil => intro r' h'; cases h'; rfl
  | blank v1 v2 ih => intro r' h'; cases h' <;> first | exact ih (by assumption) | contradiction
  | message v1 v2 v3 v4 ih =>
    intro r' h'
    cases h' with
    | blank w1 w2 => contradiction
    | message w1 w2 w3 w4 =>
      cases names v2 w2
      rw [v3] at w3
      cases w3
      cases ih w4
      rfl
    | later w1 w2 w3 w4 => cases ih w4
    | badState w1 w2 => exact absurd v2 (w2 _)
    | badTime w1 w2 w3 => rw [v3] at w3; cases w3
  | later v1 v2 v3 v4 ih =>
    intro r' h'
    cases h' with
    | blank w1 w2 => contradiction
    | message w1 w2 w3 w4 => cases ih w4
    | later w1 w2 w3 w4 => exact ih w4
    | badState w1 w2 => exact absurd v2 (w2 _)
    | badTime w1 w2 w3 => rw [v3] at w3; cases w3
  | badState v1 v2 =>
    intro r' h'
    cases h' with
    | blank w1 w2 => contradiction
    | message w1 w2 w3 w4 => exact absurd w2 (v2 _)
    | later w1 w2 w3 w4 => exact absurd w2 (v2 _)
    | badState w1 w2 => rfl
    | badTime w1 w2 w3 => exact absurd w2 (v2 _)
  | badTime v1 v2 v3 =>
    intro r' h'
    cases h' with
    | blank w1 w2 => contradiction
    | message w1 w2 w3 w4 => rw [v3] at w3; cases w3
    | later w1 w2 w3 w4 => rw [v3] at w3; cases w3
    | badState w1 w2 => exact absurd v2 (w2 _)
    | badTime w1 w2 w3 => rw [v3] at w3; exact congrArg _ (Except.error.inj w3)

theorem divided_unique {rest : List PyStr} {cs : List (Head × List PyStr)} (h : Divided rest cs) : ∀ {pre rest' : List PyStr} {cs'}, (∀ l ∈ pre, ¬ IsHead l) →
    rest = pre ++ rest' → Divided rest' cs' → pre = [] ∧ cs = cs' := by
  induction h with
  | nil =>
    intro pre rest' cs' h1 h2 h3
    obtain ⟨rfl, rfl⟩ := List.append_eq_nil_iff.1 h2.symm
    cases h3
    exact ⟨rfl, rfl⟩
  | @cons line h body rest cs k1 k2 k3 ih =>
    intro pre rest' cs' h1 h2 h3
    cases pre with
    | cons p pre =>
      obtain ⟨rfl, -⟩ := List.cons.inj h2
      exact absurd ⟨h, k1⟩ (h1 line (by simp))
    | nil =>
      refine ⟨rfl, ?_⟩
      cases h3 with
      | nil => simp at h2
      | @cons line' h' body' rest' cs' j1 j2 j3 =>
        obtain ⟨rfl, h2'⟩ := List.cons.inj h2
        cases head_unique k1 j1
        -- the shorter body is a prefix of the longer one
        have key : ∀ (b b' : List PyStr) {r r' : List PyStr}, (∀ l ∈ b, ¬ IsHead l) → (∀ l ∈ b', ¬ IsHead l) → b ++ r = b' ++ r' →
            (∃ p, b' = b ++ p ∧ r = p ++ r') ∨ ∃ p, b = b' ++ p ∧ r' = p ++ r := by
          intro b b' r r' _ _ e
          rcases List.append_eq_append_iff.1 e with ⟨p, h1, h2⟩ | ⟨p, h1, h2⟩
          · exact .inl ⟨p, h1, h2⟩
          · exact .inr ⟨p, h1, h2⟩
        rcases key body body' k2 j2 h2' with ⟨p, rfl, e⟩ | ⟨p, rfl, e⟩
        · obtain ⟨rfl, rfl⟩ := ih (fun l hl => j2 l (by simp [hl])) e j3
          simp
        · cases p with
          | nil =>
            simp only [List.nil_append] at e
            subst e
            obtain ⟨-, rfl⟩ := ih (pre := []) (by simp) rfl j3
            simp
          | cons q p =>
            cases j3 with
            | nil => simp at e
            | cons i1 i2 i3 =>
              obtain ⟨rfl, -⟩ := List.cons.inj e
              exact absurd ⟨_, i1⟩ (k2 _ (by simp))

theorem takenFor_unique {ls : List PyStr} {r r' : Except PyErr (List (Nat × Msg))} (h : TakenFor ls r) (h' : TakenFor ls r') : r = r' := by
  obtain ⟨pre, rest, cs, e, h1, h2, h3⟩ := h
  obtain ⟨pre', rest', cs', e', h1', h2', h3'⟩ := h'
  have : cs = cs' := by
    rw [e] at e'
    rcases List.append_eq_append_iff.1 e' with ⟨p, k1, k2⟩ | ⟨p, k1, k2⟩
    · exact (divided_unique h2 (fun l hl => h1' l (by rw [k1]; simp [hl])) k2 h2').2
    · exact (divided_unique h2' (fun l hl => h1 l (by rw [k1]; simp [hl])) k2 h2).2.symm
  subst this
  exact listedText_unique h3 h3'

/-! ### Messages as the modem shows them -/

/-- The same header, and the same lines except for `OK`. -/
def SameChunk (a b : Head × List PyStr) : Prop := a.1 = b.1 ∧ visible a.2 = visible b.2

theorem listedText_congr {cs : List (Head × List PyStr)} {r : Except PyErr (List (Nat × Msg))} (h : ListedText cs r) :
    ∀ {cs'}, List.Forall₂ SameChunk cs cs' → ListedText cs' r := by
  induction h with
  | nil => intro cs' h; cases h; exact .nil
  | blank v1 v2 ih =>
    rintro _ (_ | @⟨_, ⟨h', b'⟩, _, _, ⟨rfl, e⟩, ht⟩)
    exact .blank (e ▸ v1) (ih ht)
  | message v1 v2 v3 v4 ih =>
    rintro _ (_ | @⟨_, ⟨h', b'⟩, _, _, ⟨rfl, e⟩, ht⟩)
    simp only at e
    rw [e] at v1 ⊢
    exact .message v1 v2 v3 (ih ht)
  | later v1 v2 v3 v4 ih =>
    rintro _ (_ | @⟨_, ⟨h', b'⟩, _, _, ⟨rfl, e⟩, ht⟩)
    exact .later (e ▸ v1) v2 v3 (ih ht)
  | badState v1 v2 =>
    rintro _ (_ | @⟨_, ⟨h', b'⟩, _, _, ⟨rfl, e⟩, ht⟩)
    exact .badState (e ▸ v1) v2
  | badTime v1 v2 v3 =>
    rintro _ (_ | @⟨_, ⟨h', b'⟩, _, _, ⟨rfl, e⟩, ht⟩)
    exact .badTime (e ▸ v1) v2 v3

theorem ok_noHead : ¬ IsHead py!"OK" := by
  rintro ⟨h, hh⟩
  have := head_groups hh
  have k : rxGroups cmglTextRegex py!"OK" = none := by decide +kernel
  rw [k] at this
  cases this

theorem same_refl : ∀ cs : List (Head × List PyStr), List.Forall₂ SameChunk cs cs
  | [] => .nil
  | _ :: cs => .cons ⟨rfl, rfl⟩ (same_refl cs)

theorem items_divided : ∀ {items : List (PyStr × Head × PyStr)}, items ≠ [] → (∀ x ∈ items, ListHeader x.1 x.2.1) → (∀ x ∈ items, ∀ l ∈ textLines x.2.2, ¬ IsHead l) →
    ∃ cs, Divided (items.flatMap (fun x => x.1 :: textLines x.2.2) ++ [py!"OK"]) cs ∧
      List.Forall₂ SameChunk (items.map fun x => (x.2.1, textLines x.2.2)) cs
  | [], h, _, _ => absurd rfl h
  | [x], _, hh, hb => by
    refine ⟨[(x.2.1, textLines x.2.2 ++ [py!"OK"])], ?_, .cons ⟨rfl, by simp [visible]⟩ .nil⟩
    have := Divided.cons (hh x (by simp)) (body := textLines x.2.2 ++ [py!"OK"]) (by
      intro l hl
      rcases List.mem_append.1 hl with hl | hl
      · exact hb x (by simp) l hl
      · rw [List.mem_singleton.1 hl]; exact ok_noHead) .nil
    simpa using this
  | x :: y :: items, _, hh, hb => by
    obtain ⟨cs, h1, h2⟩ := items_divided (items := y :: items) (by simp) (fun z hz => hh z (List.mem_cons_of_mem _ hz)) (fun z hz => hb z (List.mem_cons_of_mem _ hz))
    refine ⟨(x.2.1, textLines x.2.2) :: cs, ?_, .cons ⟨rfl, rfl⟩ h2⟩
    have := Divided.cons (hh x (by simp)) (hb x (by simp)) h1
    simpa using this

theorem items_taken {items : List (PyStr × Head × PyStr)} (hh : ∀ x ∈ items, ListHeader x.1 x.2.1) (hb : ∀ x ∈ items, ∀ l ∈ textLines x.2.2, ¬ IsHead l)
    {r : Except PyErr (List (Nat × Msg))} (hr : ListedText (items.map fun x => (x.2.1, textLines x.2.2)) r) :
    TakenFor (shownLines (items.map fun x => (x.1, x.2.2))) r := by
  have e : shownLines (items.map fun x => (x.1, x.2.2)) = items.flatMap (fun x => x.1 :: textLines x.2.2) ++ [py!"OK"] := by
    simp [shownLines, List.flatMap_map]
  rw [e]
  by_cases h0 : items = []
  · subst h0
    exact ⟨[py!"OK"], [], [], rfl, by simpa using ok_noHead, .nil, hr⟩
  · obtain ⟨cs, h1, h2⟩ := items_divided h0 hh hb
    exact ⟨[], _, cs, rfl, by simp, h1, listedText_congr hr h2⟩

/-! ### A message without text -/

theorem loop_congr {x y : List PyStr} (h : ∀ acc hdr ml, textListLoop acc hdr ml x = textListLoop acc hdr ml y) :
    ∀ (a : List PyStr) (acc hdr ml), textListLoop acc hdr ml (a ++ x) = textListLoop acc hdr ml (a ++ y)
  | [], acc, hdr, ml => h acc hdr ml
  | l :: a, acc, hdr, ml => by
    rw [List.cons_append, List.cons_append, textListLoop, textListLoop]
    simp only [loop_congr h a]

theorem loop_blank {line : PyStr} {h : Head} (hh : ListHeader line h) {body rest : List PyStr} (hb : ∀ l ∈ body, l = py!"OK")
    (hr : rest = [py!"OK"] ∨ ∃ l rest', rest = l :: rest' ∧ IsHead l) (acc hdr ml) :
    textListLoop acc hdr ml (line :: (body ++ rest)) = textListLoop acc hdr ml rest := by
  have hv : visible body = [] := by
    unfold visible
    rw [List.filter_eq_nil_iff]
    intro l hl
    simp [hb l hl]
  have hn : ∀ l ∈ body, ¬ IsHead l := fun l hl => by rw [hb l hl]; exact ok_noHead
  rw [textListLoop, head_groups hh]
  simp only
  rcases hr with rfl | ⟨l, rest', rfl, h', hl⟩
  · have e : ∀ acc hdr ml, textListLoop acc hdr ml [py!"OK"] = textSave acc hdr ml := by
      intro acc hdr ml
      rw [textListLoop, noHead_groups ok_noHead]
      simp [textListLoop]
    rw [e]
    cases hs : textSave acc hdr ml with
    | error e => rfl
    | ok acc' =>
      simp only [bind, Except.bind]
      rw [textLoop_noHead hn, hv, e]
      exact save_blank _ _
  · rw [textListLoop, head_groups hl]
    simp only
    cases hs : textSave acc hdr ml with
    | error e => rfl
    | ok acc' =>
      simp only [bind, Except.bind]
      rw [textLoop_noHead hn, hv, List.nil_append, textListLoop, head_groups hl]
      simp only [save_blank, bind, Except.bind]

/-! ### A header that cannot be understood -/

theorem save_bad {h : Head} (hb : (∀ n, (h.status, n) ∉ stateNames) ∨ ∃ e, parseTextModeTimeStr h.time = .error e) {ml : List PyStr} (hm : ml ≠ []) (acc : Listing) :
    ∃ e, textSave acc (some (h.index, h.status, h.number, h.time)) ml = .error e := by
  unfold textSave
  simp only [List.length_pos_iff.2 hm, if_true]
  by_cases hs : ∃ n, (h.status, n) ∈ stateNames
  · obtain ⟨n, hn⟩ := hs
    rcases hb with hb | ⟨e, he⟩
    · exact absurd hn (hb n)
    · simp only [(states hn).1, he, bind, Except.bind]
      exact ⟨e, rfl⟩
  · simp only [no_state fun n hn => hs ⟨n, hn⟩, bind, Except.bind]
    exact ⟨_, rfl⟩

theorem loop_bad {h : Head} (hb : (∀ n, (h.status, n) ∉ stateNames) ∨ ∃ e, parseTextModeTimeStr h.time = .error e) (acc : Listing) :
    ∀ {ml : List PyStr}, ml ≠ [] → ∀ ls, ∃ e, textListLoop acc (some (h.index, h.status, h.number, h.time)) ml ls = .error e
  | ml, hm, [] => save_bad hb hm acc
  | ml, hm, l :: ls => by
    rw [textListLoop]
    by_cases hl : IsHead l
    · obtain ⟨h', hl⟩ := hl
      obtain ⟨e, he⟩ := save_bad hb hm acc
      rw [head_groups hl]
      simp only [he, bind, Except.bind]
      exact ⟨e, rfl⟩
    · rw [noHead_groups hl]
      simp only
      split
      · exact loop_bad hb acc (by simp) ls
      · exact loop_bad hb acc hm ls

theorem loop_spoilt {line : PyStr} {h : Head} (hh : ListHeader line h) (hb : (∀ n, (h.status, n) ∉ stateNames) ∨ ∃ e, parseTextModeTimeStr h.time = .error e)
    {body : List PyStr} (hn : ∀ l ∈ body, ¬ IsHead l) (hv : visible body ≠ []) (rest : List PyStr) :
    ∀ (pre : List PyStr) (acc hdr ml), ∃ e, textListLoop acc hdr ml (pre ++ line :: (body ++ rest)) = .error e
  | [], acc, hdr, ml => by
    rw [List.nil_append, textListLoop, head_groups hh]
    simp only
    cases hs : textSave acc hdr ml with
    | error e => exact ⟨e, rfl⟩
    | ok acc' =>
      simp only [bind, Except.bind]
      rw [textLoop_noHead hn]
      exact loop_bad hb acc' hv rest
  | l :: pre, acc, hdr, ml => by
    rw [List.cons_append, textListLoop]
    by_cases hl : IsHead l
    · obtain ⟨h', hl⟩ := hl
      rw [head_groups hl]
      simp only
      cases hs : textSave acc hdr ml with
      | error e => exact ⟨e, rfl⟩
      | ok acc' =>
        simp only [bind, Except.bind]
        exact loop_spoilt hh hb hn hv rest pre _ _ _
    · rw [noHead_groups hl]
      simp only
      split <;> exact loop_spoilt hh hb hn hv rest pre _ _ _

end Gsm
