import Verif.Spec.BytesPort
/-! # Lemmas: ports for text and ports for bytes -/
namespace Gsm
open Spec

/-- A single character of text. -/
def strPiece (c : Nat) : Piece := .str [c]

theorem strPiece_inj {a b : PyStr} : a.map strPiece = b.map strPiece ↔ a = b := by
  constructor
  · induction a generalizing b with
    | nil => intro h; cases b with
      | nil => rfl
      | cons => cases h
    | cons x a ih =>
      intro h
      cases b with
      | nil => cases h
      | cons y b =>
        simp only [List.map_cons, List.cons.injEq] at h
        rw [ih h.2]
        have := h.1
        simp only [strPiece, Piece.str.injEq, List.cons.injEq, and_true] at this
        rw [this]
  · intro h; rw [h]

theorem endsIn_text (l seq : PyStr) : endsIn (l.map strPiece) seq = endsWith l seq := by
  unfold endsIn endsWith
  rw [List.length_map, ← List.map_drop]
  rw [Bool.eq_iff_iff, beq_iff_eq, beq_iff_eq]
  exact strPiece_inj (b := seq)

theorem joinStr_text (l : PyStr) : joinStr (l.map strPiece) = .ok l := by
  induction l with
  | nil => rfl
  | cons c l ih => simp only [List.map_cons, strPiece, joinStr]; change (joinStr (l.map strPiece) >>= _) = _; rw [ih]; rfl

theorem handle_buffer (s : Comms) (r : PyStr) (line : PyStr) (check more : Bool) :
    handleLineRead { s with rxBuffer := r } line check more = { handleLineRead s line check more with rxBuffer := r } := by
  unfold handleLineRead
  rcases s.pending with _ | ⟨p, _ | _⟩ <;> cases more <;> rfl

/-- The same state. -/
structure PortAs (x : PortLoop) (s : Comms) : Prop where
  alive : x.raised = none
  quiet : x.writeErrors = []
  buffer : x.buffer = s.rxBuffer.map strPiece
  comms : s = { x.comms with rxBuffer := s.rxBuffer }

theorem PortAs.line {x : PortLoop} {s : Comms} (h : PortAs x s) (l : PyStr) (check more : Bool) (hc : check = false → l ≠ []) :
    PortAs (x.line (l.map strPiece) check more) (if check = true ∧ l.length = 0 then { s with rxBuffer := [] } else handleLineRead { s with rxBuffer := [] } l check more) := by
  obtain ⟨h1, h2, h3, h4⟩ := h
  unfold PortLoop.line
  rw [joinStr_text]
  simp only [Bool.and_eq_true, beq_iff_eq]
  split
  · exact ⟨h1, h2, rfl, by rw [h4]⟩
  · refine ⟨h1, h2, ?_, ?_⟩
    · rw [handle_buffer s []]; rfl
    · rw [h4]
      simp only [handle_buffer]

theorem PortAs.round {x : PortLoop} {s : Comms} (h : PortAs x s) (c : Nat) (more : Bool) : PortAs (x.round (.str [c]) more) (readChar s c more) := by
  unfold PortLoop.round readChar
  rw [if_neg (by simp)]
  have hb : x.buffer ++ [.str [c]] = (s.rxBuffer ++ [c]).map strPiece := by rw [h.buffer]; simp [strPiece]
  have he : x.comms.expect = s.expect := by rw [h.comms]
  have h' : PortAs { x with buffer := x.buffer ++ [.str [c]] } { s with rxBuffer := s.rxBuffer ++ [c] } :=
    ⟨h.alive, h.quiet, hb, by rw [h.comms]⟩
  simp only
  rw [hb, endsIn_text, List.length_map, ← List.map_take]
  split
  · have := h'.line ((s.rxBuffer ++ [c]).take ((s.rxBuffer ++ [c]).length - 2)) true more (by simp)
    rw [hb] at this
    simp only [true_and] at this
    split
    · next h0 => rw [if_neg (by omega)] at this; exact this
    · next h0 => rw [if_pos (by omega)] at this; exact this
  · rw [he]
    cases hq : s.expect with
    | none => rw [hb, hq] at h'; exact h'
    | some seq =>
      simp only
      rw [endsIn_text]
      split
      · have := h'.line (s.rxBuffer ++ [c]) false more (by simp)
        rw [hb] at this
        simpa [hq] using this
      · rw [hb, hq] at h'; exact h'

theorem PortAs.sstep {x : PortLoop} {s : Comms} (h : PortAs x s) (e : SEvent) (he : ∀ c more, e ≠ .rx c more) : PortAs { x with comms := sstep x.comms e } (sstep s e) := by
  obtain ⟨h1, h2, h3, h4⟩ := h
  have key : Gsm.sstep s e = { Gsm.sstep x.comms e with rxBuffer := s.rxBuffer } := by
    rw [h4]
    generalize x.comms = k
    obtain ⟨_, _, p, _, _, _, _, _⟩ := k
    cases e with
    | rx c more => exact absurd rfl (he c more)
    | start _ => simp only [Gsm.sstep]; rcases p with _ | ⟨p, _ | _⟩ <;> rfl
    | finish => simp only [Gsm.sstep]; rcases p with _ | ⟨p, _ | _⟩ <;> rfl
    | expire => simp only [Gsm.sstep]; rcases p with _ | ⟨p, _ | _⟩ <;> rfl
    | fail => rfl
  rw [key]
  exact ⟨h1, h2, h3, rfl⟩

/-- Nothing has come of it. -/
structure Mute (x : PortLoop) : Prop where
  raised : x.raised = none
  bytes : ∀ d ∈ x.buffer, ∃ b, d = .bytes b
  outcomes : x.comms.outcomes = []
  notified : x.comms.notified = []
  handed : x.comms.handed = []
  expect : x.comms.expect ≠ some []

theorem endsIn_bytes {buf : List Piece} (h : ∀ d ∈ buf, ∃ b, d = .bytes b) {seq : PyStr} (hs : seq ≠ []) : endsIn buf seq = false := by
  rw [Bool.eq_false_iff]
  intro h'
  unfold endsIn at h'
  rw [beq_iff_eq] at h'
  cases seq with
  | nil => exact hs rfl
  | cons c seq =>
    have : Piece.str [c] ∈ buf := List.mem_of_mem_drop (by rw [h']; exact List.mem_cons_self)
    obtain ⟨b, hb⟩ := h _ this
    cases hb

theorem expectOf_nonempty (e : Option PyStr) : expectOf e ≠ some [] := by
  unfold expectOf; split <;> simp

end Gsm
