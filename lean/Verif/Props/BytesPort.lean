import Verif.Lemmas.BytesPort
/-! # Property C97: the library and the types of Python 3 -/
namespace Gsm
open Spec

/-- At a port for text (Python 2) the library is that of C27 to C31: the same responses, notifications and lines, and no exception. -/
theorem C97_text {es : List PortEvent} (h : TextPort es) :
    (portRun false es).raised = none ∧ (portRun false es).writeErrors = [] ∧ (portRun false es).buffer = (srun (serialEvents es)).rxBuffer.map (fun c => .str [c]) ∧
      (portRun false es).comms.outcomes = (srun (serialEvents es)).outcomes ∧ (portRun false es).comms.notified = (srun (serialEvents es)).notified ∧
      (portRun false es).comms.handed = (srun (serialEvents es)).handed ∧ (portRun false es).comms.pending = (srun (serialEvents es)).pending ∧
      (portRun false es).comms.alive = (srun (serialEvents es)).alive := by
  have key : ∀ (es : List PortEvent) (x : PortLoop) (s : Comms), TextPort es → PortAs x s → PortAs (portRun false es x) (srun (serialEvents es) s) := by
    intro es
    induction es with
    | nil => intro x s _ h; exact h
    | cons e es ih =>
      intro x s ht h
      have ht' : TextPort es := fun d m hd => ht d m (List.mem_cons_of_mem _ hd)
      cases e with
      | read data more =>
        rcases ht data more List.mem_cons_self with rfl | ⟨c, rfl⟩
        · refine ih _ _ ht' ?_
          simp only [portStep]
          split
          · simpa [PortLoop.round] using h
          · exact h
        · refine ih (portStep false x _) (Gsm.sstep s (.rx c more)) ht' ?_
          have ha : x.comms.alive = s.alive := by rw [h.comms]
          simp only [portStep, Gsm.sstep, h.alive, and_true, ha]
          split
          · exact h.round c more
          · exact h
      | write expected => exact ih _ _ ht' (h.sstep (.start expected) (by simp))
      | finish => exact ih _ _ ht' (h.sstep .finish (by simp))
      | expire => exact ih _ _ ht' (h.sstep .expire (by simp))
      | fail =>
        refine ih _ _ ht' ?_
        simp only [portStep]
        rw [if_pos h.alive]
        exact h.sstep .fail (by simp)
  obtain ⟨h1, h2, h3, h4⟩ := key es {} {} h ⟨rfl, rfl, rfl, rfl⟩
  exact ⟨h1, h2, h3, by rw [h4], by rw [h4], by rw [h4], by rw [h4], by rw [h4]⟩

/-- A command is written, and "OK" arrives. -/
def okEvents : List PortEvent :=
  [.write none, .read (.str []) false, .read (.str [79]) true, .read (.str [75]) true, .read (.str [13]) true, .read (.str [10]) false, .finish]

theorem ok_text : TextPort okEvents := by
  intro d m h
  simp only [okEvents, List.mem_cons, PortEvent.read.injEq, reduceCtorEq, List.not_mem_nil, or_false, false_or] at h
  rcases h with ⟨rfl, _⟩ | ⟨rfl, _⟩ | ⟨rfl, _⟩ | ⟨rfl, _⟩ | ⟨rfl, _⟩ <;> simp

example : TextPort okEvents ∧ (portRun false okEvents).comms.outcomes = [.returned [py!"OK"]] := ⟨ok_text, by decide⟩

/-- At a port for bytes (Python 3) nothing works, whatever arrives: no line is ever found, no response returned and no notification told;
every `write` raises TypeError; and everything that is read, also the empty values of timeouts, is kept for ever. -/
theorem C97_bytes {es : List PortEvent} (h : BytesPort es) :
    (portRun true es).comms.handed = [] ∧ (portRun true es).comms.outcomes = [] ∧ (portRun true es).comms.notified = [] ∧
      (portRun true es).writeErrors = List.replicate (writes es) .typeError ∧ (portRun true es).buffer = readUntilFail es := by
  have key : ∀ (es : List PortEvent) (x : PortLoop), BytesPort es → Mute x →
      Mute (portRun true es x) ∧ (portRun true es x).writeErrors = x.writeErrors ++ List.replicate (writes es) .typeError ∧
        (portRun true es x).buffer = x.buffer ++ if x.comms.alive then readUntilFail es else [] := by
    intro es
    induction es with
    | nil => intro x _ h; exact ⟨h, by simp [portRun, writes], by simp [portRun, readUntilFail]⟩
    | cons e es ih =>
      intro x hb hx
      have hb' : BytesPort es := fun d m hd => hb d m (List.mem_cons_of_mem _ hd)
      obtain ⟨h1, h2, h3, h4, h5, h6⟩ := hx
      cases e with
      | read data more =>
        obtain ⟨b, rfl⟩ := hb _ _ List.mem_cons_self
        by_cases ha : x.comms.alive = true
        · have e1 : portStep true x (.read (.bytes b) more) = { x with buffer := x.buffer ++ [.bytes b] } := by
            have hall : ∀ d ∈ x.buffer ++ [Piece.bytes b], ∃ b', d = .bytes b' := by
              intro d hd
              rcases List.mem_append.1 hd with hd | hd
              · exact h2 d hd
              · exact ⟨b, List.mem_singleton.1 hd⟩
            simp only [portStep, ha, h1, and_self, if_true, PortLoop.round]
            rw [if_neg (by simp), endsIn_bytes hall (by simp)]
            simp only [Bool.false_eq_true, if_false]
            split
            · next seq hseq => rw [endsIn_bytes hall (by rintro rfl; exact h6 hseq)]; simp
            · rfl
          have := ih (portStep true x (.read (.bytes b) more)) hb' (by
            rw [e1]
            refine ⟨h1, ?_, h3, h4, h5, h6⟩
            intro d hd
            rcases List.mem_append.1 hd with hd | hd
            · exact h2 d hd
            · exact ⟨b, List.mem_singleton.1 hd⟩)
          refine ⟨this.1, ?_, ?_⟩
          · exact this.2.1.trans (by rw [e1]; rfl)
          · exact this.2.2.trans (by rw [e1]; simp [ha, readUntilFail])
        · have e1 : portStep true x (.read (.bytes b) more) = x := by simp [portStep, ha]
          have := ih (portStep true x (.read (.bytes b) more)) hb' (by rw [e1]; exact ⟨h1, h2, h3, h4, h5, h6⟩)
          exact ⟨this.1, this.2.1.trans (by rw [e1]; rfl), this.2.2.trans (by rw [e1]; simp [ha])⟩
      | write expected =>
        have := ih (portStep true x (.write expected)) hb' ⟨h1, h2, h3, h4, h5, by
          simp only [portStep, if_true]
          cases hexp : expectOf expected with
          | none => exact h6
          | some q => simp only [Option.some_or]; rw [← hexp]; exact expectOf_nonempty _⟩
        refine ⟨this.1, this.2.1.trans ?_, this.2.2.trans (by simp [portStep, readUntilFail])⟩
        simp [portStep, writes, List.replicate_succ]
      | finish => exact ih x hb' ⟨h1, h2, h3, h4, h5, h6⟩
      | expire => exact ih x hb' ⟨h1, h2, h3, h4, h5, h6⟩
      | fail =>
        have e1 : portStep true x .fail = { x with comms := { x.comms with alive := false } } := by simp [portStep, h1, Gsm.sstep]
        have := ih (portStep true x .fail) hb' (by rw [e1]; exact ⟨h1, h2, h3, h4, h5, h6⟩)
        exact ⟨this.1, this.2.1.trans (by rw [e1]; rfl), this.2.2.trans (by rw [e1]; simp [readUntilFail])⟩
  obtain ⟨⟨-, -, h3, h4, h5, -⟩, h7, h8⟩ := key es {} h ⟨rfl, by simp, rfl, rfl, rfl, by simp⟩
  exact ⟨h5, h3, h4, by simpa using h7, by simpa using h8⟩

/-- The property (the characters that arrive matter, not their type) does not hold: the same answer is received at one port and not at the other. -/
theorem C97_violated : BytesPort (okEvents.map asBytes) ∧ (portRun true (okEvents.map asBytes)).comms.outcomes = [] ∧
    (portRun true (okEvents.map asBytes)).writeErrors = [.typeError] ∧ (portRun false okEvents).comms.outcomes = [.returned [py!"OK"]] := by
  refine ⟨?_, by decide, by decide, by decide⟩
  intro d m h
  simp only [okEvents, List.map_cons, asBytes, List.map_nil, List.mem_cons, PortEvent.read.injEq, reduceCtorEq, List.not_mem_nil, or_false, false_or] at h
  rcases h with ⟨rfl, _⟩ | ⟨rfl, _⟩ | ⟨rfl, _⟩ | ⟨rfl, _⟩ | ⟨rfl, _⟩ <;> simp

/-- A line that has a `bytes` object in it, at a port that mixes them with `str`, ends the read thread with TypeError: nothing of it is handed on. -/
theorem C97_mixed {x : PortLoop} (ha : x.comms.alive = true) (hr : x.raised = none) {before : List Piece} {b : List Nat} (hb : x.buffer = before ++ [.str [13]])
    (hm : .bytes b ∈ before) (bytes more : Bool) :
    (portStep bytes x (.read (.str [10]) more)).raised = some .typeError ∧ (portStep bytes x (.read (.str [10]) more)).comms = x.comms := by
  have hj : ∀ l : List Piece, .bytes b ∈ l → joinStr l = .error .typeError := by
    intro l
    induction l with
    | nil => intro h; exact absurd h (by simp)
    | cons d l ih =>
      intro h
      cases d with
      | bytes => rfl
      | str s => simp only [joinStr, ih (by simpa using h)]; rfl
  have he : endsIn (x.buffer ++ [.str [10]]) [13, 10] = true := by rw [hb]; simp [endsIn]
  have ht : (x.buffer ++ [Piece.str [10]]).take ((x.buffer ++ [Piece.str [10]]).length - 2) = before := by rw [hb]; simp
  simp only [portStep, ha, hr, and_self, if_true, PortLoop.round, he, ht, PortLoop.line, hj before hm]
  simp

example : (portRun false [.read (.bytes [65]) false, .read (.str [13]) false, .read (.str [10]) false]).raised = some .typeError := by decide

/-- Every timeout of `serial.read` takes up memory. -/
example : (portRun true (List.replicate 100 (.read (.bytes []) false))).buffer.length = 100 := by decide +kernel

end Gsm
