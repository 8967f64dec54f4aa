import Verif.Model.SerialFine
import Verif.Lemmas.Serial
/-! # Lemmas about the finer model of the serial link -/
namespace Gsm

theorem frun_append (es es' : List FEvent) (f : Fine) : frun (es ++ es') f = frun es' (frun es f) := List.foldl_append

theorem frun_inv {P : Fine → Prop} (step : ∀ f e, P f → P (fstep f e)) (es : List FEvent) (f : Fine) (h : P f) : P (frun es f) := by
  induction es generalizing f with
  | nil => exact h
  | cons e es ih => exact ih _ (step f e h)

/-! ### Numbers of lists and events -/

/-- The writer has made its list. -/
def WPc.inside : WPc → Bool
  | .newEvent | .send | .waiting | .clearEvent _ | .clearExpect _ | .result _ => true
  | _ => false

/-- The writer has set up its event and not yet removed it. -/
def WPc.eventUp : WPc → Bool
  | .send | .waiting | .clearEvent _ => true
  | _ => false

structure Numbered (f : Fine) : Prop where
  resp : ∀ k, f.response = some k → k < f.made
  inside : f.writer.inside = true → f.response = some (f.made - 1) ∧ 0 < f.made
  ev : f.event = if f.writer.eventUp then f.response else none
  fresh : ∀ k, f.made ≤ k → f.lists k = [] ∧ f.flags k = false
  app : ∀ l c k, f.reader = .append l c k → k < f.made
  set : ∀ k, f.reader = .set k → k < f.made
  ret : ∀ k, .returned k ∈ f.outcomes → k < f.made
  tmo : ∀ k, .timeout (some k) ∈ f.outcomes → k < f.made

theorem numbered_init : Numbered {} := by constructor <;> simp [WPc.inside, WPc.eventUp]

theorem numbered_step (f : Fine) (e : FEvent) (h : Numbered f) : Numbered (fstep f e) := by
  obtain ⟨h1, h2, h3, h4, h5, h6, h7, h8⟩ := h
  cases e with
  | rx c =>
    simp only [fstep]
    split
    · split
      · split <;> constructor <;> simp_all
      · constructor <;> simp_all
    · constructor <;> assumption
  | r m =>
    simp only [fstep, readerStep]
    split <;> (try split) <;> constructor <;> first | assumption | grind [putAt]
  | begin x =>
    simp only [fstep]
    split <;> constructor <;> first | assumption | simp_all [WPc.inside, WPc.eventUp]
  | w =>
    simp only [fstep, writerStep]
    split <;> (try split) <;> constructor <;> first | assumption | (simp_all [WPc.inside, WPc.eventUp]; done) | grind [WPc.inside, WPc.eventUp]
  | wake =>
    simp only [fstep]
    split <;> (try split) <;> constructor <;> first | assumption | simp_all [WPc.inside, WPc.eventUp]
  | expire =>
    simp only [fstep]
    split <;> constructor <;> first | assumption | simp_all [WPc.inside, WPc.eventUp]
  | fail =>
    simp only [fstep]
    split <;> constructor <;> first | assumption | simp_all [WPc.inside, WPc.eventUp]

theorem numbered (es : List FEvent) : Numbered (frun es) := frun_inv numbered_step es {} numbered_init

/-! ### Every line is in one place -/

/-- The line the reader is dealing with. -/
def RPc.line : RPc → Option PyStr
  | .test l _ | .isSet l _ | .loadResponse l _ | .append l _ _ | .notify l => some l
  | .dead _ l => l
  | _ => none

/-- How often a line is in the lists of the commands. -/
def inLists (n : Nat) (lists : Nat → List PyStr) (l : PyStr) : Nat := ((List.range n).map fun k => (lists k).count l).sum

theorem inLists_put {n : Nat} {lists : Nat → List PyStr} {k : Nat} (h : k < n) (x l : PyStr) :
    inLists n (putAt lists k (lists k ++ [x])) l = inLists n lists l + [x].count l := by
  induction n with
  | zero => omega
  | succ n ih =>
    have e : ∀ f : Nat → List PyStr, inLists (n + 1) f l = inLists n f l + (f n).count l := by
      intro f; simp [inLists, List.range_succ]
    rw [e, e]
    by_cases hk : k = n
    · subst hk
      have : inLists k (putAt lists k (lists k ++ [x])) l = inLists k lists l := by
        unfold inLists
        congr 1
        apply List.map_congr_left
        intro i hi
        have : i ≠ k := by have := List.mem_range.1 hi; omega
        simp [putAt, this]
      rw [this]
      simp [putAt]
      omega
    · rw [ih (by omega)]
      have : ¬ n = k := fun h => hk h.symm
      simp only [putAt, this, if_false]
      omega

theorem inLists_succ {n : Nat} {lists : Nat → List PyStr} (h : lists n = []) (l : PyStr) : inLists (n + 1) lists l = inLists n lists l := by
  simp [inLists, List.range_succ, h]

/-- Lines are conserved. -/
def Conserved (f : Fine) : Prop := ∀ l, f.handed.count l =
  inLists f.made f.lists l + (f.notified.flatten ++ f.notification).count l + f.reader.line.toList.count l

theorem conserved_step (f : Fine) (e : FEvent) (hn : Numbered f) (h : Conserved f) : Conserved (fstep f e) := by
  intro l
  have h := h l
  cases e with
  | rx c =>
    simp only [fstep]
    split
    · next hi =>
      rw [hi.1] at h
      split
      · split
        · simp only [RPc.line, List.count_append, Option.toList, List.count_nil] at h ⊢; omega
        · simp only [hi.1, RPc.line, List.count_append, Option.toList, List.count_nil] at h ⊢; omega
      · simp only [RPc.line, List.count_append, Option.toList, List.count_nil] at h ⊢; omega
    · exact h
  | r m =>
    simp only [fstep, readerStep]
    split
    case h_1 hr => split <;> simpa [hr, RPc.line] using h
    case h_2 hr => split <;> simpa [hr, RPc.line] using h
    case h_3 n hr =>
      rw [hr] at h
      split
      · simp only [RPc.line, List.count_append, Option.toList, List.count_nil] at h ⊢; omega
      · exact h
    case h_4 hr => split <;> simpa [hr, RPc.line] using h
    case h_5 hr =>
      rw [hr] at h
      split
      · exact h
      · next k _ => cases f.flags k <;> exact h
    case h_6 hr => split <;> simpa [hr, RPc.line] using h
    case h_7 line check k hr =>
      rw [hr] at h
      simp only
      rw [inLists_put (hn.app _ _ _ hr)]
      have : (if !check || isResponseTerm line then RPc.loadEvent else .idle).line = none := by split <;> rfl
      rw [this]
      simp only [RPc.line, Option.toList, List.count_nil] at h ⊢; omega
    case h_8 hr => split <;> simpa [hr, RPc.line] using h
    case h_9 hr => simpa [hr, RPc.line] using h
    case h_10 hr =>
      rw [hr] at h
      split
      · simp only [RPc.line, List.count_append, Option.toList, List.count_nil] at h ⊢; omega
      · simp only [RPc.line, List.count_append, Option.toList, List.count_nil, List.flatten_append, List.flatten_cons, List.flatten_nil, List.append_nil] at h ⊢; omega
    case h_11 => exact h
  | begin x => simp only [fstep]; split <;> exact h
  | w =>
    simp only [fstep, writerStep]
    split <;> (try split) <;> try exact h
    rw [inLists_succ (hn.fresh _ (Nat.le_refl _)).1]; exact h
  | wake => simp only [fstep]; split <;> (try split) <;> exact h
  | expire => simp only [fstep]; split <;> exact h
  | fail =>
    simp only [fstep]; split
    · next hi => rw [hi.1] at h; exact h
    · exact h

theorem conserved (es : List FEvent) : Conserved (frun es) :=
  (frun_inv (P := fun f => Numbered f ∧ Conserved f) (fun f e h => ⟨numbered_step f e h.1, conserved_step f e h.1 h.2⟩) es {}
    ⟨numbered_init, fun _ => rfl⟩).2

/-! ### A dead reader -/

theorem dead_step {f : Fine} {x l} (h : f.reader = .dead x l) (e : FEvent) :
    (fstep f e).reader = .dead x l ∧ (fstep f e).handed = f.handed ∧ (fstep f e).notified = f.notified ∧
    (fstep f e).lists = f.lists ∧ (fstep f e).flags = f.flags ∧ (fstep f e).alive = f.alive ∧ (fstep f e).fatal = f.fatal := by
  cases e with
  | rx c => simp [fstep, h]
  | r m => simp [fstep, readerStep, h]
  | begin x => simp only [fstep]; split <;> simp [h]
  | w => simp only [fstep, writerStep]; split <;> (try split) <;> simp [h]
  | wake => simp only [fstep]; split <;> (try split) <;> simp [h]
  | expire => simp only [fstep]; split <;> simp [h]
  | fail => simp [fstep, h]

theorem dead_run {f : Fine} {x l} (h : f.reader = .dead x l) (es : List FEvent) :
    (frun es f).reader = .dead x l ∧ (frun es f).handed = f.handed ∧ (frun es f).notified = f.notified ∧
    (frun es f).lists = f.lists ∧ (frun es f).flags = f.flags ∧ (frun es f).alive = f.alive ∧ (frun es f).fatal = f.fatal :=
  frun_inv (P := fun g => g.reader = .dead x l ∧ g.handed = f.handed ∧ g.notified = f.notified ∧
    g.lists = f.lists ∧ g.flags = f.flags ∧ g.alive = f.alive ∧ g.fatal = f.fatal)
    (fun g e ⟨h1, h2, h3, h4, h5, h6, h7⟩ => by
      obtain ⟨g1, g2, g3, g4, g5, g6, g7⟩ := dead_step h1 e
      exact ⟨g1, g2.trans h2, g3.trans h3, g4.trans h4, g5.trans h5, g6.trans h6, g7.trans h7⟩) es f ⟨h, rfl, rfl, rfl, rfl, rfl, rfl⟩

end Gsm
