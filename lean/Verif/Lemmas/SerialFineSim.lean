import Verif.Lemmas.SerialFine
/-! # Without time-outs and prompts, the finer model does what the coarser one does -/
namespace Gsm

/-- What holds in runs without time-outs and prompts. -/
structure PlainState (f : Fine) : Prop where
  exp : f.expect = none
  setExp : ∀ x, f.writer = .setExpect x → expectOf x = none
  ok1 : ∀ b, f.writer = .clearEvent b → b = true ∧ ∃ k, f.event = some k ∧ f.flags k = true
  ok2 : ∀ b, f.writer = .clearExpect b → b = true
  ok3 : ∀ b, f.writer = .result b → b = true
  newEv : f.writer = .newEvent → f.lists (f.made - 1) = [] ∧ f.flags (f.made - 1) = false
  load : ∀ l c, f.reader = .loadResponse l c → c = true ∧ ∃ k, f.event = some k ∧ f.flags k = false
  app : ∀ l c k, f.reader = .append l c k → c = true ∧ f.event = some k ∧ f.flags k = false
  ldEv : f.reader = .loadEvent → ∃ k, f.event = some k ∧ f.flags k = false
  set : ∀ k, f.reader = .set k → f.event = some k ∧ f.flags k = false
  noLen : f.reader ≠ .expLen
  noCmp : ∀ n, f.reader ≠ .expCmp n
  test : ∀ l c, f.reader = .test l c → c = true ∧ l ≠ [] ∧ f.rxBuffer = []
  isSet : ∀ l c, f.reader = .isSet l c → c = true ∧ l ≠ [] ∧ f.rxBuffer = []
  alive : f.reader ≠ .stopped → f.alive = true
  tmo : ∀ k, .timeout k ∉ f.outcomes
  old : f.writer.inside = true → ∀ k, .returned k ∈ f.outcomes → k < f.made - 1

theorem plain_init : PlainState {} := by
  constructor <;> simp [WPc.inside]

/-- Events without time-outs and prompts. -/
def FEvent.plain : FEvent → Prop
  | .expire => False
  | .begin (some p) => p = []
  | _ => True

set_option maxHeartbeats 4000000 in
theorem plain_step (f : Fine) (e : FEvent) (he : e.plain) (hn : Numbered f) (h : PlainState f) : PlainState (fstep f e) := by
  obtain ⟨n1, n2, n3, n4, n5, n6, n7, n8⟩ := hn
  obtain ⟨h1, h2, h3, h4, h5, h6, h7, h8, h9, h10, h11, h12, h13, h14, h15, h16, h17⟩ := h
  cases e with
  | rx c =>
    simp only [fstep]
    split
    · split
      · split <;> constructor <;> first | assumption | grind
      · constructor <;> first | assumption | grind
    · constructor <;> first | assumption | grind
  | r m =>
    simp only [fstep, readerStep]
    split <;> (try split) <;> constructor <;> first | assumption | grind [putAt, WPc.inside, WPc.eventUp]
  | begin x =>
    have hx : expectOf x = none := by
      match x with
      | none => rfl
      | some p => cases he; rfl
    simp only [fstep]
    split <;> constructor <;> first | assumption | grind [WPc.inside, WPc.eventUp]
  | w =>
    simp only [fstep, writerStep]
    split <;> (try split) <;> constructor <;> first | assumption | grind [WPc.inside, WPc.eventUp]
  | wake =>
    simp only [fstep]
    split <;> (try split) <;> constructor <;> first | assumption | grind [WPc.inside, WPc.eventUp]
  | expire => exact he.elim
  | fail =>
    simp only [fstep]
    split <;> constructor <;> first | assumption | grind [WPc.inside, WPc.eventUp]

/-- The line whose last character the coarser machine has not yet taken. -/
def RPc.early : RPc → Option PyStr
  | .test l _ | .isSet l _ => some l
  | .dead _ l => l
  | _ => none

/-- The pending command as the coarser machine sees it. -/
def absPending (f : Fine) : Option Pending :=
  match f.event with
  | none => none
  | some k => some (match f.reader with
    | .loadResponse l _ | .append l _ _ => ⟨f.lists k ++ [l], isResponseTerm l⟩
    | .loadEvent | .set _ => ⟨f.lists k, true⟩
    | _ => ⟨f.lists k, f.flags k⟩)

/-- The notifications, when the reader is about to notify with `more`. -/
def absNote (f : Fine) (more : Bool) : List PyStr × List (List PyStr) :=
  match f.reader with
  | .notify l => if more then (f.notification ++ [l], f.notified) else ([], f.notified ++ [f.notification ++ [l]])
  | _ => (f.notification, f.notified)

/-- The result that is about to be returned. -/
def absLast (f : Fine) : List Outcome :=
  match f.writer, f.response with
  | .clearExpect _, some k | .result _, some k => [.returned (f.lists k)]
  | _, _ => []

/-- The coarser machine is in the state `s`. -/
structure Sim (f : Fine) (more : Bool) (s : Comms) : Prop where
  alive : s.alive = f.alive
  buffer : s.rxBuffer = match f.reader.early with | some l => l ++ [13] | none => f.rxBuffer
  pending : s.pending = absPending f
  expect : s.expect = none
  note : (s.notification, s.notified) = absNote f more
  outs : s.outcomes = f.results ++ absLast f
  handed : f.handed = s.handed ++ f.reader.early.toList

theorem results_frame {f g : Fine} (h1 : g.outcomes = f.outcomes) (h2 : ∀ k, .returned k ∈ f.outcomes → g.lists k = f.lists k)
    (h3 : ∀ k, .timeout k ∉ f.outcomes) : g.results = f.results := by
  unfold Fine.results
  rw [h1]
  apply List.map_congr_left
  intro o ho
  match o with
  | .returned k => simp only [h2 k ho]
  | .timeout k => exact (h3 k ho).elim

end Gsm
