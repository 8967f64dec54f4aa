import Verif.Lemmas.SerialAtomic
import Verif.Lemmas.SerialExpand
/-! # Property C73: the reader thread and `write`, interrupted anywhere -/
namespace Gsm
open List

/-- Neither the reader nor a `write` is in the middle of something. -/
def AtRest (f : Fine) : Prop := (f.reader = .idle ∨ f.reader = .stopped) ∧ f.writer = .free

instance (f : Fine) : Decidable (AtRest f) := by unfold AtRest; infer_instance

/-! ### Nothing new happens without time-outs and prompts -/

/-- C73: however the two threads are interleaved, if no `write` times out or waits for a prompt, then
what has come of it whenever both are at rest is what could have come of handling each character and each
`write` in one go: results, notifications, lines and the incomplete rest are the same, for the same
characters. -/
theorem C73_atomic (es : List FEvent) (he : ∀ e ∈ es, e.plain) (hrest : AtRest (frun es)) :
    ∃ cs : List SEvent, (∀ e ∈ cs, e.plain) ∧ received cs = (frun es).read ∧
      (srun cs).outcomes = (frun es).results ∧ (srun cs).notified = (frun es).notified ∧
      (srun cs).notification = (frun es).notification ∧ (srun cs).handed = (frun es).handed ∧
      (srun cs).rxBuffer = (frun es).rxBuffer ∧ (srun cs).pending = none ∧ (srun cs).alive = (frun es).alive := by
  obtain ⟨cs, h1, h2, h3⟩ := simulates es he true
  have hearly : (frun es).reader.early = none := by rcases hrest.1 with h | h <;> rw [h] <;> rfl
  have hnote : absNote (frun es) true = ((frun es).notification, (frun es).notified) := by
    rcases hrest.1 with h | h <;> simp [absNote, h]
  have hev : (frun es).event = none := by rw [(numbered es).ev, hrest.2]; rfl
  obtain ⟨e1, e2, e3, e4, e5, e6, e7⟩ := h2
  rw [hearly] at e2 e7
  rw [hnote] at e5
  refine ⟨cs, h1, ?_, ?_, (Prod.mk.inj e5).2, (Prod.mk.inj e5).1, by simpa using e7.symm, e2, by simp [e3, absPending, hev], e1⟩
  · simpa [RPc.untaken, hearly] using h3
  · rw [e6]; simp [absLast, hrest.2]

/-- C73: and at any other moment it is on the way there: some results and notifications are still to be
passed on, a line may still be in the reader's hand. -/
theorem C73_atomic_any (es : List FEvent) (he : ∀ e ∈ es, e.plain) :
    ∃ cs : List SEvent, (∀ e ∈ cs, e.plain) ∧ received cs <+: (frun es).read ∧
      (frun es).results <+: (srun cs).outcomes ∧ (frun es).notified <+: (srun cs).notified ∧
      (srun cs).handed <+: (frun es).handed ∧ (frun es).handed.length ≤ (srun cs).handed.length + 1 := by
  obtain ⟨cs, h1, h2, h3⟩ := simulates es he true
  obtain ⟨e1, e2, e3, e4, e5, e6, e7⟩ := h2
  refine ⟨cs, h1, ⟨_, h3⟩, ⟨_, e6.symm⟩, ?_, ⟨_, e7.symm⟩, ?_⟩
  · have : (srun cs).notified = (absNote (frun es) true).2 := (congrArg Prod.snd e5 :)
    rw [this]; unfold absNote; split <;> simp
  · rw [e7]; cases (frun es).reader.early <;> simp

/-- C73: results that were returned stay as they are. -/
theorem C73_stable (es es' : List FEvent) (he : ∀ e ∈ es ++ es', e.plain) : (frun es).results <+: (frun (es ++ es')).results := by
  rw [frun_append]
  have step : ∀ f e, e.plain → Numbered f → PlainState f → f.results <+: (fstep f e).results := by
    intro f e hee hn hp
    have same : ∀ g : Fine, g.outcomes = f.outcomes → g.lists = f.lists → f.results <+: g.results := by
      intro g h1 h2; rw [Fine.results, Fine.results, h1, h2]; exact List.prefix_rfl
    cases e with
    | rx c => simp only [fstep]; split <;> (try split) <;> (try split) <;> exact same _ rfl rfl
    | begin x => simp only [fstep]; split <;> exact same _ rfl rfl
    | wake => simp only [fstep]; split <;> (try split) <;> exact same _ rfl rfl
    | expire => exact hee.elim
    | fail => simp only [fstep]; split <;> exact same _ rfl rfl
    | w =>
      simp only [fstep, writerStep]
      split <;> (try split) <;> first | exact same _ rfl rfl | skip
      simp only [Fine.results, List.map_append]
      exact ⟨_, rfl⟩
    | r m =>
      simp only [fstep, readerStep]
      split
      case h_7 l c k hr =>
        obtain ⟨_, hk, _⟩ := hp.app _ _ _ hr
        have hu : f.writer.eventUp = true ∧ f.response = some k := by
          have := hn.ev; rw [hk] at this
          cases hu : f.writer.eventUp with
          | true => rw [hu] at this; exact ⟨rfl, this.symm⟩
          | false => rw [hu] at this; cases this
        have hin : f.writer.inside = true := by cases hw : f.writer <;> simp [hw, WPc.eventUp, WPc.inside] at hu ⊢
        have hlast : k = f.made - 1 := by have := (hn.inside hin).1; rw [hu.2] at this; exact Option.some.inj this
        have key : ∀ g : Fine, g.outcomes = f.outcomes → g.lists = putAt f.lists k (f.lists k ++ [l]) → g.results = f.results := by
          intro g g1 g2
          refine results_frame g1 (fun j hj => ?_) hp.tmo
          have := hp.old hin j hj
          rw [g2]; simp only [putAt]; rw [if_neg (by omega)]
        have key' : ∀ g : Fine, g.outcomes = f.outcomes → g.lists = putAt f.lists k (f.lists k ++ [l]) → f.results <+: g.results := by
          intro g g1 g2; rw [key g g1 g2]; exact List.prefix_rfl
        exact key' _ rfl rfl
      all_goals (try split) <;> exact same _ rfl rfl
  have all : ∀ (es : List FEvent) f, (∀ e ∈ es, e.plain) → Numbered f → PlainState f → f.results <+: (frun es f).results ∧ PlainState (frun es f) := by
    intro es
    induction es with
    | nil => intro f _ _ hp; exact ⟨List.prefix_rfl, hp⟩
    | cons e es ih =>
      intro f he hn hp
      obtain ⟨h1, h2⟩ := ih _ (fun x hx => he x (List.mem_cons_of_mem _ hx)) (numbered_step f e hn) (plain_step f e (he e (by simp)) hn hp)
      exact ⟨(step f e (he e (by simp)) hn hp).trans h1, h2⟩
  exact (all es' _ (fun e h => he e (by simp [h])) (numbered es) (all es {} (fun e h => he e (by simp [h])) numbered_init plain_init).2).1

/-- C73: conversely, all that can come of handling everything in one go can come of the two threads
(time-outs and prompts included). -/
theorem C73_coarse (cs : List SEvent) : ∃ es : List FEvent,
    (frun es).results = (srun cs).outcomes ∧ (frun es).notified = (srun cs).notified ∧ (frun es).notification = (srun cs).notification ∧
    (frun es).handed = (srun cs).handed ∧ (frun es).rxBuffer = (srun cs).rxBuffer ∧ (frun es).alive = (srun cs).alive ∧
    ((srun cs).pending = none → AtRest (frun es)) := by
  obtain ⟨h, hr⟩ := expand_run cs
  refine ⟨cs.flatMap expand, h.outs, h.noted, h.note, h.handed, h.buffer, h.alive, fun hp => ⟨?_, h.idle hp⟩⟩
  rw [hr]; cases (srun cs).alive
  · exact .inr rfl
  · exact .inl rfl

/-- The steps of the reader for one character. -/
def readAll (s : PyStr) (n : Nat := 9) (more : Bool := false) : List FEvent := s.flatMap fun c => .rx c :: List.replicate n (.r more)

/-- `write` up to waiting, and from the wait to the end. -/
def beginWrite (p : Option PyStr := none) : List FEvent := [.begin p, .w, .w, .w, .w]
def endWrite : List FEvent := [.wake, .w, .w, .w]

example : AtRest (frun (beginWrite ++ readAll py!"+CSQ: 1\r\nOK\r\n" ++ endWrite)) ∧
    (frun (beginWrite ++ readAll py!"+CSQ: 1\r\nOK\r\n" ++ endWrite)).results = [.returned [py!"+CSQ: 1", py!"OK"]] := by decide +kernel

-- a notification meets the beginning of a `write`
example : (frun ([.begin none, .w, .w] ++ readAll py!"RING\r" ++ [.rx 10, .r false, .w, .w, .r false] ++ readAll py!"OK\r\n" ++ endWrite)).results
      = [.returned [py!"OK"]] ∧
    (frun ([.begin none, .w, .w] ++ readAll py!"RING\r" ++ [.rx 10, .r false, .w, .w, .r false] ++ readAll py!"OK\r\n" ++ endWrite)).notified
      = [[py!"RING"]] := by decide +kernel

/-! ### In every run -/

/-- C73: in every run, each line handed up is in exactly one place: in the list of one `write`, in the
notifications, or in the reader's hand. -/
theorem C73_conserved (es : List FEvent) (l : PyStr) : (frun es).handed.count l =
    ((List.range (frun es).made).map fun k => ((frun es).lists k).count l).sum
      + ((frun es).notified.flatten ++ (frun es).notification).count l + (frun es).reader.line.toList.count l :=
  conserved es l

/-- The reader is between looking at `_responseEvent` and its last use of it. -/
def RPc.usesEvent : RPc → Bool
  | .isSet .. | .loadResponse .. | .append .. | .loadEvent => true
  | _ => false

/-- C73: in every run, the reader survives if `write` removes `_responseEvent` and
`_expectResponseTermSeq` only at moments when the reader is not in the middle of using them. -/
theorem C73_survives (es : List FEvent)
    (h1 : ∀ pre post b, es = pre ++ .w :: post → (frun pre).writer = .clearEvent b → (frun pre).reader.usesEvent = false)
    (h2 : ∀ pre post b, es = pre ++ .w :: post → (frun pre).writer = .clearExpect b → (frun pre).reader ≠ .expLen)
    (x : PyErr) (l : Option PyStr) : (frun es).reader ≠ .dead x l := by
  have key : ∀ (suf pre : List FEvent), es = pre ++ suf →
      ((∀ x l, (frun pre).reader ≠ .dead x l) ∧ ((frun pre).reader.usesEvent = true → (frun pre).event ≠ none) ∧
        ((frun pre).reader = .expLen → (frun pre).expect ≠ none)) →
      ∀ x l, (frun es).reader ≠ .dead x l := by
    intro suf
    induction suf with
    | nil => intro pre e h; simp only [List.append_nil] at e; rw [e]; exact h.1
    | cons e suf ih =>
      intro pre he ⟨i1, i2, i3⟩
      refine ih (pre ++ [e]) (by simp [he]) ?_
      rw [frun_append]
      have hn := numbered pre
      have hh1 := fun b (ew : e = .w) => h1 pre suf b (ew ▸ he)
      have hh2 := fun b (ew : e = .w) => h2 pre suf b (ew ▸ he)
      generalize frun pre = f at i1 i2 i3 hn hh1 hh2
      show (∀ x l, (fstep f e).reader ≠ .dead x l) ∧ _
      clear ih h1 h2 he
      obtain ⟨n1, n2, n3, _, _, _, _, _⟩ := hn
      cases e with
      | rx c => simp only [frun, List.foldl, fstep]; split <;> (try split) <;> (try split) <;> grind [RPc.usesEvent]
      | begin x => simp only [frun, List.foldl, fstep]; split <;> exact ⟨i1, i2, i3⟩
      | wake => simp only [frun, List.foldl, fstep]; split <;> (try split) <;> exact ⟨i1, i2, i3⟩
      | expire => simp only [frun, List.foldl, fstep]; split <;> exact ⟨i1, i2, i3⟩
      | fail => simp only [frun, List.foldl, fstep]; split <;> grind [RPc.usesEvent]
      | w =>
        simp only [frun, List.foldl, fstep, writerStep]
        split <;> (try split) <;> grind
      | r m =>
        simp only [frun, List.foldl, fstep, readerStep]
        split <;> (try split) <;> grind [RPc.usesEvent]
  exact key es [] rfl ⟨by simp [frun], by simp [frun, RPc.usesEvent], by simp [frun]⟩ x l

/-- The response is complete, or has timed out, and `write` has not yet tidied up. -/
def Collecting (f : Fine) : Prop :=
  (∃ b, f.writer = .clearEvent b ∨ f.writer = .clearExpect b) ∨ ∃ k, f.event = some k ∧ f.flags k = true

/-- C73: in particular it survives every run without time-outs in which the modem sends nothing from the
end of a response until `write` has tidied up (prompts included). -/
theorem C73_quiet (es : List FEvent) (he : .expire ∉ es)
    (hq : ∀ pre post c, es = pre ++ .rx c :: post → ¬ Collecting (frun pre)) (x : PyErr) (l : Option PyStr) :
    (frun es).reader ≠ .dead x l := by
  -- while `write` collects its response the reader is idle
  have key : ∀ (suf pre : List FEvent), es = pre ++ suf →
      ((Collecting (frun pre) → (frun pre).reader = .idle ∨ (frun pre).reader = .stopped) ∧
        (∀ k, (frun pre).reader = .set k → (frun pre).event = some k) ∧ ((frun pre).writer = .newEvent → (frun pre).flags ((frun pre).made - 1) = false) ∧
        ((frun pre).reader.usesEvent = true → (frun pre).event ≠ none) ∧ ((frun pre).reader = .expLen → (frun pre).expect ≠ none) ∧
        ∀ x l, (frun pre).reader ≠ .dead x l) → ∀ x l, (frun es).reader ≠ .dead x l := by
    intro suf
    induction suf with
    | nil => intro pre e h; simp only [List.append_nil] at e; rw [e]; exact h.2.2.2.2.2
    | cons e suf ih =>
      intro pre hes ⟨i1, i2, i6, i3, i4, i5⟩
      refine ih (pre ++ [e]) (by simp [hes]) ?_
      rw [frun_append]
      have hn := numbered pre
      have hne : e ≠ .expire := fun h0 => he (by rw [hes, h0]; simp)
      have hq' := fun c (ew : e = .rx c) => hq pre suf c (ew ▸ hes)
      generalize frun pre = f at i1 i2 i3 i4 i5 i6 hn hq'
      clear ih he hq hes
      obtain ⟨n1, n2, n3, n4, _, _, _, _⟩ := hn
      simp only [Collecting] at i1 hq' ⊢
      cases e with
      | rx c =>
        have := hq' c rfl
        simp only [frun, List.foldl, fstep]; split <;> (try split) <;> (try split) <;> grind [RPc.usesEvent]
      | begin x => simp only [frun, List.foldl, fstep]; split <;> grind
      | wake => simp only [frun, List.foldl, fstep]; split <;> (try split) <;> grind
      | expire => exact (hne rfl).elim
      | fail => simp only [frun, List.foldl, fstep]; split <;> grind [RPc.usesEvent]
      | w =>
        have j1 : ∀ b, f.writer = .clearEvent b ∨ f.writer = .clearExpect b → f.reader.usesEvent = false ∧ f.reader ≠ .expLen ∧ ∀ k, f.reader ≠ .set k := by
          intro b hb
          rcases i1 (.inl ⟨b, hb⟩) with h | h <;> rw [h] <;> exact ⟨rfl, nofun, nofun⟩
        simp only [frun, List.foldl, fstep, writerStep]
        split <;> (try split) <;> grind [WPc.eventUp, WPc.inside]
      | r m =>
        simp only [frun, List.foldl, fstep, readerStep]
        split <;> (try split) <;> grind [RPc.usesEvent, putAt, WPc.eventUp, WPc.inside]
  exact key es [] rfl ⟨by simp [frun], by simp [frun], by simp [frun], by simp [frun, RPc.usesEvent], by simp [frun], by simp [frun]⟩ x l

/-- `Collecting` as a computation. -/
def collects (f : Fine) : Bool :=
  (match f.writer with | .clearEvent _ | .clearExpect _ => true | _ => false) || (match f.event with | some k => f.flags k | none => false)

/-- A response, the end of `write`, a notification. -/
def quietRun : List FEvent := beginWrite ++ readAll py!"OK\r\n" ++ endWrite ++ readAll py!"RING\r\n"

-- the conditions are met by a run in which something happens
example : ∀ pre post c, quietRun = pre ++ .rx c :: post → ¬ Collecting (frun pre) := by
  have all : ∀ n < quietRun.length, (match quietRun[n]? with | some (.rx _) => collects (frun (quietRun.take n)) | _ => false) = false := by
    decide +kernel
  intro pre post c h hc
  have := all pre.length (by rw [h]; simp)
  rw [h] at this
  simp only [List.take_left, List.getElem?_append_right (Nat.le_refl _), Nat.sub_self, List.getElem?_cons_zero] at this
  rcases hc with ⟨b, hb | hb⟩ | ⟨k, hk, hf⟩
  · simp [collects, hb] at this
  · simp [collects, hb] at this
  · simp [collects, hk, hf] at this

example : FEvent.expire ∉ quietRun ∧ (frun quietRun).results = [.returned [py!"OK"]] ∧ (frun quietRun).notified = [[py!"RING"]] := by
  decide +kernel

/-! ### What a death of the reader means -/

/-- C73: after its death nothing is ever read again, although `alive` stays as it was and the fatal error
callback is not called. -/
theorem C73_dead (f : Fine) {x l} (h : f.reader = .dead x l) (es : List FEvent) :
    (frun es f).handed = f.handed ∧ (frun es f).notified = f.notified ∧ (frun es f).alive = f.alive ∧ (frun es f).fatal = f.fatal :=
  let ⟨_, h2, h3, _, _, h6, h7⟩ := dead_run h es
  ⟨h2, h3, h6, h7⟩

/-- C73: and every `write` begun after it times out without data. -/
theorem C73_dead_writes (es : List FEvent) {x l} (h : (frun es).reader = .dead x l) (hw : (frun es).writer = .free) (es' : List FEvent) :
    ∃ n, (frun es' (frun es)).outcomes = (frun es).outcomes ++ List.replicate n (.timeout none) := by
  have hn := numbered es
  generalize frun es = f at h hw hn
  have : ∀ g : Fine, g.reader = .dead x l → Numbered g → g.lists = f.lists → g.flags = f.flags → f.made ≤ g.made →
      (g.writer.inside = true → f.made ≤ g.made - 1) →
      (∀ b, g.writer = .clearEvent b ∨ g.writer = .clearExpect b ∨ g.writer = .result b → b = false) →
      (∃ n, g.outcomes = f.outcomes ++ List.replicate n (.timeout none)) →
      ∃ n, (frun es' g).outcomes = f.outcomes ++ List.replicate n (.timeout none) := by
    induction es' with
    | nil => intro g _ _ _ _ _ _ _ h0; exact h0
    | cons e es' ih =>
      intro g g1 g2 g3 g4 g5 g6 g7 ⟨n, hout⟩
      obtain ⟨d1, _, _, d4, d5, _, _⟩ := dead_step g1 e
      refine ih (fstep g e) d1 (numbered_step g e g2) (d4.trans g3) (d5.trans g4) ?_ ?_ ?_ ?_
      · cases e with
        | rx c => simpa [fstep, g1] using g5
        | r m => simpa [fstep, readerStep, g1] using g5
        | fail => simpa [fstep, g1] using g5
        | w => simp only [fstep, writerStep]; split <;> (try split) <;> first | exact g5 | (simp only; omega)
        | begin x => simp only [fstep]; split <;> exact g5
        | wake => simp only [fstep]; split <;> (try split) <;> exact g5
        | expire => simp only [fstep]; split <;> exact g5
      · cases e with
        | rx c => simpa [fstep, g1] using g6
        | r m => simpa [fstep, readerStep, g1] using g6
        | fail => simpa [fstep, g1] using g6
        | w => simp only [fstep, writerStep]; split <;> (try split) <;> first | exact g6 | grind [WPc.inside]
        | begin x => simp only [fstep]; split <;> grind [WPc.inside]
        | wake => simp only [fstep]; split <;> (try split) <;> grind [WPc.inside]
        | expire => simp only [fstep]; split <;> grind [WPc.inside]
      · cases e with
        | rx c => simpa [fstep, g1] using g7
        | r m => simpa [fstep, readerStep, g1] using g7
        | fail => simpa [fstep, g1] using g7
        | w => simp only [fstep, writerStep]; split <;> (try split) <;> grind
        | begin x => simp only [fstep]; split <;> grind
        | wake =>
          obtain ⟨n1, n2, n3, n4, _, _, _, _⟩ := hn
          obtain ⟨m1, m2, m3, m4, _, _, _, _⟩ := g2
          simp only [fstep]; split <;> (try split) <;> grind [WPc.inside, WPc.eventUp]
        | expire => simp only [fstep]; split <;> grind
      · cases e with
        | rx c => exact ⟨n, by simpa [fstep, g1] using hout⟩
        | r m => exact ⟨n, by simpa [fstep, readerStep, g1] using hout⟩
        | fail => exact ⟨n, by simpa [fstep, g1] using hout⟩
        | begin x => exact ⟨n, by simp only [fstep]; split <;> exact hout⟩
        | wake => exact ⟨n, by simp only [fstep]; split <;> (try split) <;> exact hout⟩
        | expire => exact ⟨n, by simp only [fstep]; split <;> exact hout⟩
        | w =>
          simp only [fstep, writerStep]
          split
          case h_7 b hwr =>
            have hb := g7 b (.inr (.inr hwr))
            subst hb
            obtain ⟨hr, _⟩ := g2.inside (by rw [hwr]; rfl)
            have hempty : g.lists (g.made - 1) = [] := by rw [g3]; exact (hn.fresh _ (g6 (by rw [hwr]; rfl))).1
            rw [hr]
            exact ⟨n + 1, by simp [hempty, hout, List.replicate_succ']⟩
          all_goals exact ⟨n, hout⟩
  exact this f h hn rfl rfl (Nat.le_refl _) (by rw [hw]; nofun) (by rw [hw]; simp) ⟨0, by simp⟩

/-! ### What can go wrong -/

/-- C73: a line that arrives right after a response can kill the reader, without any time-out: it looks at
`_responseEvent` before `write` removes it and uses it afterwards. -/
theorem C73_crash_after_response :
    let f := frun (beginWrite ++ readAll py!"OK\r\nRING\r" ++ [.rx 10, .r false] ++ endWrite ++ [.r false])
    f.results = [.returned [py!"OK"]] ∧ f.reader = .dead .attributeError (some py!"RING") ∧ f.alive = true ∧ f.fatal = false := by
  decide +kernel

/-- C73: a character that arrives right after a prompt can kill the reader: `len(False)`. -/
theorem C73_crash_after_prompt :
    let f := frun (beginWrite (some py!"> ") ++ readAll py!"> " ++ [.rx 43, .r false] ++ endWrite ++ [.r false])
    f.results = [.returned [py!"> "]] ∧ f.reader = .dead .typeError none ∧ f.alive = true ∧ f.fatal = false := by decide +kernel

/-- C73: a response that arrives just when the wait times out can kill the reader. -/
theorem C73_crash_after_timeout :
    let f := frun (beginWrite ++ readAll py!"OK\r" ++ [.rx 10, .r false, .expire, .w, .r false])
    f.reader = .dead .attributeError (some py!"OK") := by decide +kernel

/-- C73: a line that arrives just when the wait times out can be lost: it is in no result and in no
notification. -/
theorem C73_lost_line :
    let f := frun (beginWrite ++ readAll py!"+CSQ: 1\r" ++ [.rx 10, .r false, .r false, .expire, .w, .w, .w, .r false, .r false])
    AtRest f ∧ f.handed = [py!"+CSQ: 1"] ∧ f.results = [.timeout none] ∧ f.notified = [] ∧ f.notification = [] := by decide +kernel

/-- C73: the data of a TimeoutException can change after it was raised. -/
theorem C73_data_grows :
    let f := frun (beginWrite ++ readAll py!"a\r\nb\r" ++ [.rx 10, .r false, .r false, .r false, .expire, .w, .w, .w])
    f.results = [.timeout (some [py!"a"])] ∧ (frun [.r false] f).results = [.timeout (some [py!"a", py!"b"])] := by decide +kernel

/-- C73: after a time-out the next `write` can return an empty response, before its own arrives. -/
theorem C73_empty_response :
    let f := frun (beginWrite ++ readAll py!"OK\r" ++ [.rx 10, .r false, .r false, .r false, .r false, .expire, .w, .w, .w]
      ++ beginWrite ++ [.r false, .r false] ++ endWrite)
    f.results = [.timeout (some [py!"OK"]), .returned []] := by decide +kernel

end Gsm
