import Verif.Spec.Stranger
import Verif.Props.Serial
import Verif.Model.Pdu
import Verif.Model.ModemSms
/-! # Lemmas: stored messages as the modem shows them on the serial line -/
namespace Gsm
open Spec

/-! ### The lines handed over depend on what arrives only -/

theorem readChar_handed (s : Comms) (c : Nat) (m : Bool) (h : List PyStr) :
    readChar { s with handed := h ++ s.handed } c m = { readChar s c m with handed := h ++ (readChar s c m).handed } := by
  obtain ⟨alive, buf, pending, expect, notification, outcomes, notified, handed⟩ := s
  unfold readChar handleLineRead
  dsimp only
  repeat' split
  all_goals simp_all

theorem rxs_handed (cs : List (Nat × Bool)) : ∀ (s : Comms) (h : List PyStr),
    srun (rxs cs) { s with handed := h ++ s.handed } = { srun (rxs cs) s with handed := h ++ (srun (rxs cs) s).handed } := by
  induction cs with
  | nil => intro s h; rfl
  | cons c cs ih =>
    intro s h
    have e : ∀ s : Comms, srun (rxs (c :: cs)) s = srun (rxs cs) (sstep s (.rx c.1 c.2)) := fun _ => rfl
    rw [e, e]
    rw [← ih]
    congr 1
    simp only [sstep]
    split
    · exact readChar_handed s c.1 c.2 h
    · rfl

theorem received_rxs (cs : List (Nat × Bool)) : received (rxs cs) = cs.map Prod.fst := by
  induction cs with
  | nil => rfl
  | cons c cs ih => simp only [rxs, List.map_cons, received]; exact congrArg _ ih

theorem prompts_rxs (cs : List (Nat × Bool)) (q : PyStr) : ¬ promptsOf (rxs cs) q := by
  rintro ⟨-, h⟩
  simp only [rxs, List.mem_map] at h
  obtain ⟨x, -, h⟩ := h
  cases h

theorem handed_framed {cs : List (Nat × Bool)} {s : Comms} (ha : s.alive = true) (hx : s.expect = none) (hb : s.rxBuffer = []) {ls : List PyStr} {r : PyStr}
    (h : Framed (fun _ => False) (cs.map Prod.fst) ls r) : (srun (rxs cs) s).handed = s.handed ++ ls := by
  have e : s = { ({ s with handed := [] } : Comms) with handed := s.handed ++ ({ s with handed := [] } : Comms).handed } := by simp
  rw [e, rxs_handed]
  have := framing_from (fun _ => False) (rxs cs) { s with handed := [] } [] ha (by simp [hx]) (fun q hq => prompts_rxs cs q hq)
    (by show Framed _ _ [] s.rxBuffer; rw [hb]; exact .rest noEol_nil)
  rw [List.nil_append, received_rxs] at this
  rw [(framed_unique this h).1]
  simp

/-! ### Pieces -/

theorem framed_pieces {s : PyStr} {ls : List PyStr} {r : PyStr} (h : Framed (fun _ => False) s ls r) (acc t : PyStr) (ha : NoEol acc)
    (hj : ¬ (acc.getLast? = some 13 ∧ t.head? = some 10)) :
    Framed (fun _ => False) (acc ++ t ++ 13 :: 10 :: s) ((piecesFrom acc t).filter (· ≠ []) ++ ls) r := by
  have one : ∀ {a s : PyStr} {ls : List PyStr}, NoEol a → Framed (fun _ => False) s ls r → Framed (fun _ => False) (a ++ 13 :: 10 :: s) ([a].filter (· ≠ []) ++ ls) r := by
    intro a s ls ha h
    by_cases h0 : a = []
    · subst h0; exact .empty h
    · simp only [ne_eq, h0, not_false_eq_true, decide_true, List.filter_cons_of_pos, List.filter_nil, List.singleton_append]
      exact .line h0 ha h
  fun_induction piecesFrom acc t with
  | case1 acc s' ih =>
    have := one ha (ih noEol_nil (by simp))
    simp only [List.nil_append] at this
    have e : acc :: piecesFrom [] s' = [acc] ++ piecesFrom [] s' := rfl
    rw [e, List.filter_append]
    simpa only [List.append_assoc, List.cons_append] using this
  | case2 acc c s' hne ih =>
    have h1 : NoEol (acc ++ [c]) := by
      refine noEol_snoc ha fun hs => hj ?_
      obtain ⟨y, hy⟩ := hs
      have e : (y ++ [13]) ++ [10] = acc ++ [c] := by simpa using hy
      obtain ⟨e1, e2⟩ := List.append_inj' e rfl
      rw [← e1]
      simp only [List.cons.injEq, and_true] at e2
      simp [← e2]
    have := ih h1 (by
      rintro ⟨g1, g2⟩
      simp only [List.getLast?_append, List.getLast?_singleton, Option.some_or, Option.some.injEq] at g1
      cases s' with
      | nil => simp at g2
      | cons d s' =>
        simp only [List.head?_cons, Option.some.injEq] at g2
        exact hne s' g1 (by rw [g2]))
    simpa [List.append_assoc] using this
  | case3 acc => simpa using one ha h

theorem framed_body {s : PyStr} {ls : List PyStr} {r : PyStr} (h : Framed (fun _ => False) s ls r) (t : PyStr) :
    Framed (fun _ => False) (t ++ 13 :: 10 :: s) (textLines t ++ ls) r := framed_pieces h [] t noEol_nil (by simp)

theorem header_ne {h : PyStr} (hh : HeaderLine h) : h ≠ [] := by
  rintro rfl
  rcases hh.2 with h | h <;> simp at h

theorem framed_shown (items : List (PyStr × PyStr)) (hh : ∀ x ∈ items, HeaderLine x.1) : Framed (fun _ => False) (shownChars items) (shownLines items) [] := by
  induction items with
  | nil =>
    exact .empty (.line (l := py!"OK") (by decide) (by unfold NoEol; decide) (.rest noEol_nil))
  | cons x items ih =>
    have hx := hh x List.mem_cons_self
    have e1 : shownChars (x :: items) = 13 :: 10 :: (x.1 ++ 13 :: 10 :: (x.2 ++ 13 :: 10 :: shownChars items)) := by
      simp [shownChars]
    have e2 : shownLines (x :: items) = x.1 :: (textLines x.2 ++ shownLines items) := by simp [shownLines]
    rw [e1, e2]
    exact .empty (.line (header_ne hx) hx.1 (framed_body (ih fun y hy => hh y (List.mem_cons_of_mem _ hy)) _))

/-! ### What ends an answer -/

theorem header_not_final {h : PyStr} (hh : HeaderLine h) : ¬ IsFinal h := by
  intro hf
  obtain ⟨-, ⟨y, rfl⟩ | ⟨y, rfl⟩⟩ := hh <;> simp [IsFinal] at hf

theorem hex_not_final {t : PyStr} (h : HexText t) : ¬ IsFinal t := by
  intro hf
  rcases t with _ | ⟨a, _ | ⟨b, t⟩⟩
  · simp [IsFinal] at hf
  · simp [IsFinal] at hf
  · have h1 := h a (by simp)
    have h2 := h b (by simp)
    simp only [IsFinal, List.cons_prefix_cons, List.cons_append, List.cons.injEq] at hf
    omega

theorem hex_pieces : ∀ (t acc : PyStr), HexText t → piecesFrom acc t = [acc ++ t]
  | [], acc, _ => by simp [piecesFrom]
  | c :: t, acc, h => by
    have hc := h c (by simp)
    unfold piecesFrom
    split
    · next h' => simp only [List.cons.injEq] at h'; omega
    · next h' =>
      simp only [List.cons.injEq] at h'
      obtain ⟨rfl, rfl⟩ := h'
      rw [hex_pieces t _ fun x hx => h x (List.mem_cons_of_mem _ hx)]
      simp
    · next h' => cases h'

theorem hex_lines {t : PyStr} (h : HexText t) : textLines t = if t = [] then [] else [t] := by
  unfold textLines
  rw [hex_pieces t [] h]
  split
  · next h => subst h; rfl
  · next h => simp [h]

theorem hex_pduHex (data : List Nat) (hd : ∀ b ∈ data, b < 256) : HexText (pduHex data) := by
  intro c hc
  simp only [pduHex, List.mem_flatMap, List.mem_cons, List.not_mem_nil, or_false] at hc
  obtain ⟨b, hb, hc⟩ := hc
  have := hd b hb
  unfold hexUpper at hc
  rcases hc with rfl | rfl <;> split <;> omega

/-! ### Texts that come back -/

theorem pieces_noEol : ∀ (t acc : PyStr), ¬ [13, 10] <:+: t → piecesFrom acc t = [acc ++ t]
  | [], acc, _ => by simp [piecesFrom]
  | c :: t, acc, h => by
    unfold piecesFrom
    split
    · next s h' => exact absurd (List.IsPrefix.isInfix ⟨s, by simpa using h'.symm⟩) h
    · next h' =>
      simp only [List.cons.injEq] at h'
      obtain ⟨rfl, rfl⟩ := h'
      rw [pieces_noEol t _ fun hx => h (hx.trans ⟨[c], [], by simp⟩)]
      simp
    · next h' => cases h'

theorem lines_noEol {t : PyStr} (h : NoEol t) : textLines t = if t = [] then [] else [t] := by
  unfold textLines
  rw [pieces_noEol t [] h]
  split
  · next h => subst h; rfl
  · next h => simp [h]

theorem pieces_pos (acc t : PyStr) : 0 < (piecesFrom acc t).length := by
  fun_induction piecesFrom acc t <;> simp_all

theorem pieces_length (acc t : PyStr) : (piecesFrom acc t).flatten.length + 2 * (piecesFrom acc t).length = acc.length + t.length + 2 := by
  fun_induction piecesFrom acc t with
  | case1 acc s ih => simp only [List.flatten_cons, List.length_append, List.length_cons, List.length_nil] at *; omega
  | case2 acc c s _ ih => simp only [List.length_append, List.length_cons, List.length_nil] at *; omega
  | case3 acc => simp

theorem pieces_eol (acc t : PyStr) (h : [13, 10] <:+: t) : 2 ≤ (piecesFrom acc t).length := by
  fun_induction piecesFrom acc t with
  | case1 acc s ih => have := pieces_pos [] s; simp only [List.length_cons]; omega
  | case2 acc c s hne ih =>
    refine ih ?_
    obtain ⟨a, b, hab⟩ := h
    cases a with
    | nil =>
      simp only [List.nil_append, List.cons_append, List.cons.injEq] at hab
      exact absurd hab.2.symm (hne b hab.1.symm)
    | cons x a =>
      simp only [List.cons_append, List.cons.injEq] at hab
      exact ⟨a, b, hab.2⟩
  | case3 acc => simp at h

theorem filter_flatten (l : List PyStr) : (l.filter (· ≠ [])).flatten = l.flatten := by
  induction l with
  | nil => rfl
  | cons x l ih =>
    by_cases h : x = []
    · subst h; simpa using ih
    · simp only [ne_eq, h, not_false_eq_true, decide_true, List.filter_cons_of_pos, List.flatten_cons]; rw [← ih]

theorem join_length : ∀ l : List PyStr, (pyJoin [10] l).length = l.flatten.length + (l.length - 1)
  | [] => rfl
  | [p] => by simp [pyJoin]
  | p :: q :: ps => by
    have := join_length (q :: ps)
    simp only [pyJoin, List.length_append, List.length_cons, List.length_nil, List.flatten_cons] at *
    omega

theorem join_lines (t : PyStr) : pyJoin [10] (textLines t) = t ↔ NoEol t := by
  constructor
  · intro h hc
    have h1 := congrArg List.length h
    rw [join_length] at h1
    have h2 := pieces_length [] t
    have h3 := pieces_eol [] t hc
    have h4 : (textLines t).length ≤ (piecesFrom [] t).length := List.length_filter_le _ _
    have h5 : (textLines t).flatten = (piecesFrom [] t).flatten := filter_flatten _
    rw [h5] at h1
    simp only [List.length_nil] at h2
    omega
  · intro h
    rw [lines_noEol h]
    split
    · next h => subst h; rfl
    · rfl

theorem pieces_append (acc t s : PyStr) : piecesFrom acc (t ++ 13 :: 10 :: s) = piecesFrom acc t ++ piecesFrom [] s := by
  fun_induction piecesFrom acc t with
  | case1 acc t ih => simp only [List.cons_append, piecesFrom, ih]
  | case2 acc c t hne ih =>
    rw [← ih, List.cons_append]
    conv => lhs; unfold piecesFrom
    split
    · next h' =>
      simp only [List.cons.injEq] at h'
      obtain ⟨rfl, h'⟩ := h'
      cases t with
      | nil => simp at h'
      | cons d t =>
        simp only [List.cons_append, List.cons.injEq] at h'
        exact absurd (by rw [h'.1]) (hne t rfl)
    · next h' =>
      simp only [List.cons.injEq] at h'
      obtain ⟨rfl, rfl⟩ := h'
      rfl
    · next h' => cases h'
  | case3 acc => simp [piecesFrom]

theorem lines_append (t s : PyStr) : textLines (t ++ 13 :: 10 :: s) = textLines t ++ textLines s := by
  unfold textLines
  rw [pieces_append, List.filter_append]

theorem lines_one {t : PyStr} (h0 : t ≠ []) (h : NoEol t) : textLines t = [t] := by rw [lines_noEol h, if_neg h0]

theorem forged_lines {a : PyStr} {ws : List PyStr} (ha : a ≠ [] ∧ NoEol a) (hw : ∀ w ∈ ws, w ≠ [] ∧ NoEol w) : textLines (forgedText a ws) = a :: py!"OK" :: ws := by
  have key : ∀ (ws : List PyStr) (b : PyStr), b ≠ [] → NoEol b → (∀ w ∈ ws, w ≠ [] ∧ NoEol w) → textLines (b ++ ws.flatMap fun w => py!"\r\n" ++ w) = b :: ws := by
    intro ws
    induction ws with
    | nil => intro b h0 h1 _; simpa using lines_one h0 h1
    | cons w ws ih =>
      intro b h0 h1 h2
      have e : (b ++ (w :: ws).flatMap fun w => py!"\r\n" ++ w) = b ++ 13 :: 10 :: (w ++ ws.flatMap fun w => py!"\r\n" ++ w) := by simp
      rw [e, lines_append, lines_one h0 h1, ih w (h2 w List.mem_cons_self).1 (h2 w List.mem_cons_self).2 fun x hx => h2 x (List.mem_cons_of_mem _ hx)]
      rfl
  have e : forgedText a ws = a ++ (py!"OK" :: ws).flatMap fun w => py!"\r\n" ++ w := by simp [forgedText]
  rw [e]
  refine key _ a ha.1 ha.2 fun w h => ?_
  rcases List.mem_cons.1 h with rfl | h
  · exact ⟨by decide, by unfold NoEol; decide⟩
  · exact hw w h

theorem first_final {l : List PyStr} (h : ∃ x ∈ l, IsFinal x) : ∃ pre t post, l = pre ++ t :: post ∧ (∀ x ∈ pre, ¬ IsFinal x) ∧ IsFinal t := by
  induction l with
  | nil => obtain ⟨x, hx, _⟩ := h; cases hx
  | cons a l ih =>
    rcases Classical.em (IsFinal a) with ha | ha
    · exact ⟨[], a, l, rfl, (fun x hx => by cases hx), ha⟩
    · obtain ⟨x, hx, hf⟩ := h
      rcases List.mem_cons.1 hx with rfl | hx
      · exact absurd hf ha
      · obtain ⟨pre, t, post, h1, h2, h3⟩ := ih ⟨x, hx, hf⟩
        refine ⟨a :: pre, t, post, by rw [h1]; rfl, fun y hy => ?_, h3⟩
        rcases List.mem_cons.1 hy with rfl | hy
        · exact ha
        · exact h2 y hy

end Gsm
