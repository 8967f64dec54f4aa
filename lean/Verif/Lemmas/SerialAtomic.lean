import Verif.Lemmas.SerialFineSim
import Verif.Props.Serial
/-! # Runs of the finer model have a counterpart in the coarser one -/
namespace Gsm

/-- Events of the coarser machine without time-outs and prompts. -/
def SEvent.plain : SEvent → Prop
  | .expire => False
  | .start (some _) => False
  | _ => True

/-- The character the coarser machine has not yet taken. -/
def RPc.untaken (r : RPc) : PyStr := if r.early.isSome then [10] else []

def charOf : Option SEvent → PyStr
  | some (.rx c _) => [c]
  | _ => []

/-- `o` is what the coarser machine does while the finer one goes from `f` to `g`. -/
structure LineAnswers (f g : Fine) (m : Bool) (s : Comms) (o : Option SEvent) : Prop where
  plain : ∀ e, o = some e → e.plain
  sim : Sim g m (srun o.toList s)
  live : ∀ c b, o = some (.rx c b) → f.alive = true
  read : ∃ x, g.read = f.read ++ x ∧ charOf o ++ g.reader.untaken = f.reader.untaken ++ x
  fail : o = some .fail → g.alive = false

theorem readChar_line {s : Comms} {l : PyStr} (hb : s.rxBuffer = l ++ [13]) (hl : l ≠ []) (m : Bool) :
    readChar s 10 m = handleLineRead { s with rxBuffer := [] } l true m := by
  rcases readChar_cases s 10 m with ⟨l', h1, h2, h3⟩ | ⟨h1, h3⟩ | ⟨h1, _⟩ | ⟨h1, _⟩
  · rw [hb] at h1
    have : l = l' := by simpa using h1
    rw [h3, this]
  · rw [hb] at h1
    have : l = [] := by simpa using h1
    exact (hl this).elim
  · exact (h1 ⟨l, by simp [hb]⟩).elim
  · exact (h1 ⟨l, by simp [hb]⟩).elim

theorem endsWith_cases (x : PyStr) : endsWith x [13, 10] = true ↔ ∃ l, x = l ++ [13, 10] := by
  rw [endsWith_iff]; constructor
  · rintro ⟨l, h⟩; exact ⟨l, h.symm⟩
  · rintro ⟨l, h⟩; exact ⟨l, h.symm⟩

theorem sim_step (f : Fine) (e : FEvent) (he : e.plain) (hn : Numbered f) (hp : PlainState f) (m' : Bool) :
    ∃ m, ∀ s, Sim f m s → ∃ o, LineAnswers f (fstep f e) m' s o := by
  have hp' := plain_step f e he hn hp
  cases e with
  | rx c =>
    refine ⟨m', fun s hs => ?_⟩
    by_cases hi : f.reader = .idle ∧ f.alive
    · obtain ⟨hr, ha⟩ := hi
      have hb : s.rxBuffer = f.rxBuffer := by simpa [hr, RPc.early] using hs.buffer
      have hsa : s.alive = true := by rw [hs.alive, ha]
      by_cases hend : endsWith (f.rxBuffer ++ [c]) [13, 10] = true
      · obtain ⟨l, hl⟩ := (endsWith_cases _).1 hend
        have htake : (f.rxBuffer ++ [c]).take ((f.rxBuffer ++ [c]).length - 2) = l := by rw [hl]; simp
        have hbl : f.rxBuffer = l ++ [13] ∧ c = 10 := by
          have : f.rxBuffer ++ [c] = (l ++ [13]) ++ [10] := by simpa using hl
          exact ⟨List.append_inj_left' this rfl, by simpa using List.append_inj_right' this rfl⟩
        by_cases hz : l.length > 0
        · -- the line is complete, but not yet dealt with
          have e : fstep f (.rx c) = { f with read := f.read ++ [c], rxBuffer := [], reader := .test l true, handed := f.handed ++ [l] } := by
            simp only [fstep, hr, ha, and_self, if_true, hend, htake, hz]
          rw [e]
          refine ⟨none, by simp, ⟨hs.alive, ?_, ?_, hs.expect, ?_, ?_, ?_⟩, by simp, ⟨[c], rfl, ?_⟩, by simp⟩
          · simp only [srun, Option.toList, List.foldl, RPc.early]; rw [hb, hbl.1]
          · simp only [srun, Option.toList, List.foldl]; rw [hs.pending]; simp [absPending, hr]
          · simp only [srun, Option.toList, List.foldl]; rw [hs.note]; simp [absNote, hr]
          · exact hs.outs
          · have := hs.handed; simp [hr, RPc.early] at this; simp [srun, RPc.early, this]
          · simp [charOf, RPc.untaken, RPc.early, hr, hbl.2]
        · have hl0 : l = [] := List.length_eq_zero_iff.1 (by omega)
          have e : fstep f (.rx c) = { f with read := f.read ++ [c], rxBuffer := [] } := by
            simp only [fstep, hr, ha, and_self, if_true, hend, htake, hz, if_false]
          have e2 : srun (some (SEvent.rx c m')).toList s = { s with rxBuffer := [] } := by
            show (if s.alive = true then readChar s c m' else s) = _
            rw [if_pos hsa]
            rcases readChar_cases s c m' with ⟨l', h1, h2, _⟩ | ⟨_, h3⟩ | ⟨h1, _⟩ | ⟨h1, _⟩
            · rw [hb, hl, hl0] at h1; simp at h1; exact (h2 h1).elim
            · exact h3
            · exact (h1 ⟨l, by rw [hb, hl]⟩).elim
            · exact (h1 ⟨l, by rw [hb, hl]⟩).elim
          rw [e]
          refine ⟨some (.rx c m'), by rintro _ ⟨⟩; trivial, ?_, fun _ _ _ => ha, ⟨[c], rfl, ?_⟩, nofun⟩
          · rw [e2]
            refine ⟨hs.alive, ?_, hs.pending, hs.expect, hs.note, hs.outs, hs.handed⟩
            simp [hr, RPc.early]
          · simp [charOf, RPc.untaken, RPc.early, hr]
      · have e : fstep f (.rx c) = { f with read := f.read ++ [c], rxBuffer := f.rxBuffer ++ [c], reader := .expTest } := by
          simp only [fstep, hr, ha, and_self, if_true, hend]; rfl
        have e2 : srun (some (SEvent.rx c m')).toList s = { s with rxBuffer := s.rxBuffer ++ [c] } := by
          show (if s.alive = true then readChar s c m' else s) = _
          rw [if_pos hsa]
          have no : ∀ l, s.rxBuffer ++ [c] ≠ l ++ [13, 10] := fun l h => hend ((endsWith_cases _).2 ⟨l, by rw [← hb, h]⟩)
          rcases readChar_cases s c m' with ⟨l', h1, h2, _⟩ | ⟨h1, h3⟩ | ⟨_, q, hq, _⟩ | ⟨_, _, h3⟩
          · exact (no _ h1).elim
          · exact (no [] h1).elim
          · rw [hs.expect] at hq; cases hq
          · exact h3
        rw [e]
        refine ⟨some (.rx c m'), by rintro _ ⟨⟩; trivial, ?_, fun _ _ _ => ha, ⟨[c], rfl, ?_⟩, nofun⟩
        · rw [e2]
          refine ⟨hs.alive, ?_, ?_, hs.expect, ?_, hs.outs, ?_⟩
          · simp [RPc.early, hb]
          · simp only; rw [hs.pending]; simp [absPending, hr]
          · simp only; rw [hs.note]; simp [absNote, hr]
          · have := hs.handed; simpa [hr, RPc.early] using this
        · simp [charOf, RPc.untaken, RPc.early, hr]
    · have e : fstep f (.rx c) = f := by simp only [fstep, hi, if_false]
      rw [e]
      exact ⟨none, by simp, hs, by simp, ⟨[], by simp, by simp [charOf]⟩, by simp⟩
  | expire => exact he.elim
  | fail =>
    refine ⟨m', fun s hs => ?_⟩
    by_cases hi : f.reader = .idle ∧ f.alive
    · have e : fstep f .fail = { f with alive := false, reader := .stopped, fatal := true } := by simp only [fstep, hi, and_self, if_true]
      rw [e]
      refine ⟨some .fail, by rintro _ ⟨⟩; trivial, ⟨rfl, ?_, ?_, hs.expect, ?_, hs.outs, ?_⟩, nofun, ⟨[], by simp, ?_⟩, fun _ => rfl⟩
      · have := hs.buffer; simpa [hi.1, RPc.early, srun, sstep] using this
      · have := hs.pending; simpa [hi.1, absPending, srun, sstep] using this
      · have := hs.note; simpa [hi.1, absNote, srun, sstep] using this
      · have := hs.handed; simpa [hi.1, RPc.early, srun, sstep] using this
      · simp [charOf, RPc.untaken, RPc.early, hi.1]
    · have e : fstep f .fail = f := by simp only [fstep, hi, if_false]
      rw [e]
      exact ⟨none, by simp, hs, by simp, ⟨[], by simp, by simp [charOf]⟩, by simp⟩
  | begin x =>
    refine ⟨m', fun s hs => ⟨none, by simp, ?_, by simp, ⟨[], ?_, ?_⟩, by simp⟩⟩
    · simp only [fstep]; split
      · next hw =>
        have ho : absLast f = [] := by simp [absLast, hw]
        exact ⟨hs.alive, hs.buffer, hs.pending, hs.expect, hs.note, by have := hs.outs; rw [ho] at this; exact this, hs.handed⟩
      · exact hs
    · simp only [fstep]; split <;> simp
    · simp only [fstep]; split <;> simp [charOf]
  | wake =>
    refine ⟨m', fun s hs => ⟨none, by simp, ?_, by simp, ⟨[], ?_, ?_⟩, by simp⟩⟩
    · simp only [fstep]; split
      · next k hw hk =>
        split
        · have ho : absLast f = [] := by simp [absLast, hw]
          exact ⟨hs.alive, hs.buffer, hs.pending, hs.expect, hs.note, by have := hs.outs; rw [ho] at this; exact this, hs.handed⟩
        · exact hs
      · exact hs
    · simp only [fstep]; split <;> (try split) <;> simp
    · simp only [fstep]; split <;> (try split) <;> simp [charOf]
  | w =>
    refine ⟨m', fun s hs => ?_⟩
    obtain ⟨e1, e2, e3, e4, e5, e6, e7⟩ := hs
    -- steps that the coarser machine does not notice
    have quiet : ∀ g, (g : Fine).alive = f.alive → g.rxBuffer = f.rxBuffer → g.reader = f.reader → g.lists = f.lists → g.flags = f.flags →
        g.notification = f.notification → g.notified = f.notified → g.handed = f.handed → g.read = f.read → g.event = f.event →
        g.results ++ absLast g = f.results ++ absLast f → ∃ o, LineAnswers f g m' s o := by
      intro g g1 g2 g3 g4 g5 g6 g7 g8 g9 g10 g11
      refine ⟨none, by simp, ⟨?_, ?_, ?_, e4, ?_, ?_, ?_⟩, by simp, ⟨[], by simp [g9], by simp [charOf, g3]⟩, by simp⟩
      · rw [g1]; exact e1
      · rw [g2, g3]; exact e2
      · show s.pending = _
        rw [e3]; simp only [absPending, g10, g3, g4, g5]
      · show (s.notification, s.notified) = _
        rw [e5]; simp only [absNote, g3, g6, g7]
      · rw [g11]; exact e6
      · rw [g8, g3]; exact e7
    simp only [fstep, writerStep]
    split
    case h_1 x hw => exact quiet _ rfl rfl rfl rfl rfl rfl rfl rfl rfl rfl (by simp [Fine.results, absLast, hw])
    case h_2 hw => exact quiet _ rfl rfl rfl rfl rfl rfl rfl rfl rfl rfl (by simp [Fine.results, absLast, hw])
    case h_3 hw =>
      obtain ⟨hr, _⟩ := hn.inside (by rw [hw]; rfl)
      have hev : f.event = none := by rw [hn.ev, hw]; rfl
      obtain ⟨l0, f0⟩ := hp.newEv hw
      have hpend : s.pending = none := by rw [e3]; simp [absPending, hev]
      have estep : srun (some (SEvent.start none)).toList s = { s with pending := some ⟨[], false⟩ } := by
        simp only [srun, Option.toList, List.foldl, sstep, hpend, expectOf, e4, Option.or]
      refine ⟨some (.start none), by rintro _ ⟨⟩; trivial, ?_, nofun, ⟨[], by simp, by simp [charOf]⟩, nofun⟩
      rw [estep]
      refine ⟨e1, e2, ?_, e4, e5, ?_, e7⟩
      · have h7 : ∀ l c, f.reader ≠ .loadResponse l c := by
          intro l c h; obtain ⟨_, k, hk, _⟩ := hp.load l c h; rw [hev] at hk; cases hk
        have h8 : ∀ l c k, f.reader ≠ .append l c k := by
          intro l c k h; obtain ⟨_, hk, _⟩ := hp.app l c k h; rw [hev] at hk; cases hk
        have h9 : f.reader ≠ .loadEvent := by
          intro h; obtain ⟨k, hk, _⟩ := hp.ldEv h; rw [hev] at hk; cases hk
        have h10 : ∀ k, f.reader ≠ .set k := by
          intro k h; obtain ⟨hk, _⟩ := hp.set k h; rw [hev] at hk; cases hk
        simp_all [absPending]
      · rw [e6]; simp [Fine.results, absLast, hw]
    case h_4 hw => exact quiet _ rfl rfl rfl rfl rfl rfl rfl rfl rfl rfl (by simp [Fine.results, absLast, hw])
    case h_5 ok hw =>
      obtain ⟨hok, k, hk, hflag⟩ := hp.ok1 _ hw
      have hr : f.response = some k := by have := hn.ev; rw [hw, hk] at this; exact this.symm
      have hpend : s.pending = some ⟨f.lists k, true⟩ := by
        rw [e3]
        have h7 : ∀ l c, f.reader ≠ .loadResponse l c := by
          intro l c h; obtain ⟨_, j, hj, h0⟩ := hp.load l c h; simp_all
        have h8 : ∀ l c j, f.reader ≠ .append l c j := by
          intro l c j h; obtain ⟨_, hj, h0⟩ := hp.app l c j h; simp_all
        have h9 : f.reader ≠ .loadEvent := by
          intro h; obtain ⟨j, hj, h0⟩ := hp.ldEv h; simp_all
        have h10 : ∀ j, f.reader ≠ .set j := by
          intro j h; obtain ⟨hj, h0⟩ := hp.set j h; simp_all
        simp_all [absPending]
      have estep : srun (some SEvent.finish).toList s = { s with pending := none, expect := none, outcomes := s.outcomes ++ [.returned (f.lists k)] } := by
        simp only [srun, Option.toList, List.foldl, sstep, hpend]
      refine ⟨some .finish, by rintro _ ⟨⟩; trivial, ?_, nofun, ⟨[], by simp, by simp [charOf]⟩, nofun⟩
      rw [estep]
      refine ⟨e1, e2, by simp [absPending], rfl, e5, ?_, e7⟩
      simp only [e6]
      simp [Fine.results, absLast, hw, hr]
    case h_6 ok hw =>
      obtain ⟨hr, _⟩ := hn.inside (by rw [hw]; rfl)
      exact quiet _ rfl rfl rfl rfl rfl rfl rfl rfl rfl rfl (by simp [Fine.results, absLast, hw, hr])
    case h_7 ok hw =>
      obtain ⟨hr, _⟩ := hn.inside (by rw [hw]; rfl)
      have hok := hp.ok3 _ hw
      subst hok
      split
      · next h => rw [hr] at h; cases h
      · next k h =>
        exact quiet _ rfl rfl rfl rfl rfl rfl rfl rfl rfl rfl (by simp [Fine.results, absLast, hw, h])
    case h_8 => exact quiet _ rfl rfl rfl rfl rfl rfl rfl rfl rfl rfl rfl
  | r b =>
    -- a line is handed to the coarser machine when its destination is decided
    have give : ∀ (l : PyStr) (s : Comms) (c : Bool), f.reader = .test l c ∨ f.reader = .isSet l c → Sim f m' s →
        ∀ m, srun (some (SEvent.rx 10 m)).toList s = handleLineRead { s with rxBuffer := [] } l true m := by
      intro l s c hr hs m
      have hl : l ≠ [] := by 
        rcases hr with hr | hr
        · exact (hp.test _ _ hr).2.1
        · exact (hp.isSet _ _ hr).2.1
      have ha : s.alive = true := by rw [hs.alive]; exact hp.alive (by rcases hr with hr | hr <;> rw [hr] <;> nofun)
      have hb : s.rxBuffer = l ++ [13] := by rw [hs.buffer]; rcases hr with hr | hr <;> simp [hr, RPc.early]
      show (if s.alive = true then readChar s 10 m else s) = _
      rw [if_pos ha, readChar_line hb hl]
    by_cases hnote : ∃ l, f.reader = .notify l
    · obtain ⟨l, hr⟩ := hnote
      refine ⟨b, fun s hs => ⟨none, by simp, ?_, by simp, ?_, by simp⟩⟩
      · obtain ⟨e1, e2, e3, e4, e5, e6, e7⟩ := hs
        simp only [fstep, readerStep, hr]
        simp only [hr, RPc.early, absNote, absPending] at e2 e3 e5 e7
        cases b
        · exact ⟨e1, e2, by simpa [srun, absPending] using e3, e4, by simpa [srun, absNote] using e5, e6, e7⟩
        · exact ⟨e1, e2, by simpa [srun, absPending] using e3, e4, by simpa [srun, absNote] using e5, e6, e7⟩
      · refine ⟨[], ?_, ?_⟩
        · simp only [fstep, readerStep, hr]; cases b <;> simp
        · simp only [fstep, readerStep, hr]; cases b <;> simp [charOf, RPc.untaken, RPc.early]
    refine ⟨m', fun s hs => ?_⟩
    have hs0 := hs
    obtain ⟨e1, e2, e3, e4, e5, e6, e7⟩ := hs
    simp only [fstep, readerStep]
    split
    case h_1 hr =>
      rw [hp.exp]
      simp only [hr, RPc.early, absNote, absPending] at e2 e3 e5 e7
      exact ⟨none, by simp, ⟨e1, e2, by simpa [srun, absPending] using e3, e4, by simpa [srun, absNote] using e5, e6, e7⟩, by simp,
        ⟨[], by simp, by simp [charOf, RPc.untaken, RPc.early, hr]⟩, by simp⟩
    case h_2 hr => exact (hp.noLen hr).elim
    case h_3 n hr => exact (hp.noCmp n hr).elim
    case h_4 l c hr =>
      split
      · next hev =>
        have hpend : s.pending = none := by rw [e3]; simp [absPending, hev]
        simp only [hr, RPc.early, absNote] at e2 e5 e7
        obtain ⟨h1, h2⟩ := Prod.mk.inj e5
        refine ⟨some (.rx 10 m'), by rintro _ ⟨⟩; trivial, ?_, fun _ _ _ => hp.alive (by rw [hr]; nofun),
          ⟨[], by simp, by simp [charOf, RPc.untaken, RPc.early, hr]⟩, nofun⟩
        rw [give l s c (.inl hr) hs0]
        unfold handleLineRead
        simp only [hpend]
        cases m'
        · exact ⟨e1, by simp [RPc.early, (hp.test _ _ hr).2.2], by simp [absPending, hev], e4, by simp [absNote, h1, h2], e6, by simpa [RPc.early] using e7⟩
        · exact ⟨e1, by simp [RPc.early, (hp.test _ _ hr).2.2], by simp [absPending, hev], e4, by simp [absNote, h1, h2], e6, by simpa [RPc.early] using e7⟩
      · next k hev =>
        simp only [hr, RPc.early, absNote, absPending] at e2 e3 e5 e7
        exact ⟨none, by simp, ⟨e1, e2, by simpa [srun, absPending] using e3, e4, by simpa [srun, absNote] using e5, e6, e7⟩, by simp,
          ⟨[], by simp, by simp [charOf, RPc.untaken, RPc.early, hr]⟩, by simp⟩
    case h_5 l c hr =>
      have hc := (hp.isSet _ _ hr).1
      subst hc
      split
      · next hev =>
        simp only [hr, RPc.early, absNote, absPending] at e2 e3 e5 e7
        exact ⟨none, by simp, ⟨e1, e2, by simpa [srun, absPending] using e3, e4, by simpa [srun, absNote] using e5, e6, e7⟩, by simp,
          ⟨[], by simp, by simp [charOf, RPc.untaken, RPc.early, hr]⟩, by simp⟩
      · next k hev =>
        have hpend : s.pending = some ⟨f.lists k, f.flags k⟩ := by rw [e3]; simp [absPending, hev, hr]
        simp only [hr, RPc.early, absNote] at e2 e5 e7
        obtain ⟨h1, h2⟩ := Prod.mk.inj e5
        refine ⟨some (.rx 10 m'), by rintro _ ⟨⟩; trivial, ?_, fun _ _ _ => hp.alive (by rw [hr]; nofun),
          ⟨[], by simp, by cases f.flags k <;> simp [charOf, RPc.untaken, RPc.early, hr]⟩, nofun⟩
        rw [give l s true (.inr hr) hs0]
        unfold handleLineRead
        simp only [hpend]
        cases hf : f.flags k
        · exact ⟨e1, by simp [RPc.early, (hp.isSet _ _ hr).2.2], by simp [absPending, hev], e4, by simp [absNote, h1, h2], e6, by simpa [RPc.early] using e7⟩
        · cases m'
          · exact ⟨e1, by simp [RPc.early, (hp.isSet _ _ hr).2.2], by simp [absPending, hev, hf], e4, by simp [absNote, h1, h2], e6, by simpa [RPc.early] using e7⟩
          · exact ⟨e1, by simp [RPc.early, (hp.isSet _ _ hr).2.2], by simp [absPending, hev, hf], e4, by simp [absNote, h1, h2], e6, by simpa [RPc.early] using e7⟩
    case h_6 l c hr =>
      obtain ⟨hc, k, hk, hflag⟩ := hp.load _ _ hr
      have hresp : f.response = some k := by
        have := hn.ev; rw [hk] at this
        cases hu : f.writer.eventUp with
        | true => rw [hu] at this; exact this.symm
        | false => rw [hu] at this; cases this
      split
      · next h => rw [hresp] at h; cases h
      simp only [hr, RPc.early, absNote, absPending, hk] at e2 e3 e5 e7
      exact ⟨none, by simp, ⟨e1, e2, by simpa [srun, absPending, hk] using e3, e4, by simpa [srun, absNote] using e5, e6, e7⟩, by simp,
        ⟨[], by simp, by simp [charOf, RPc.untaken, RPc.early, hr]⟩, by simp⟩
    case h_7 l c k hr =>
      obtain ⟨hc, hk, hflag⟩ := hp.app _ _ _ hr
      subst hc
      have hu : f.writer.eventUp = true ∧ f.response = some k := by
        have := hn.ev; rw [hk] at this
        cases hu : f.writer.eventUp with
        | true => rw [hu] at this; exact ⟨rfl, this.symm⟩
        | false => rw [hu] at this; cases this
      have hin : f.writer.inside = true := by cases hw : f.writer <;> simp [hw, WPc.eventUp, WPc.inside] at hu ⊢
      have hlast : k = f.made - 1 := by have := (hn.inside hin).1; rw [hu.2] at this; exact Option.some.inj this
      have hold : ∀ g : Fine, g.outcomes = f.outcomes → g.lists = putAt f.lists k (f.lists k ++ [l]) → g.results = f.results := by
        intro g g1 g2
        refine results_frame g1 (fun j hj => ?_) hp.tmo
        have := hp.old hin j hj
        rw [g2]; simp only [putAt]; rw [if_neg (by omega)]
      have hal : ∀ g : Fine, g.writer = f.writer → absLast g = [] ∧ absLast f = [] := by
        intro g hg
        cases hw : f.writer <;> simp [hw, WPc.eventUp] at hu <;> simp [absLast, hg, hw]
      simp only [hr, RPc.early, absNote, absPending, hk] at e2 e3 e5 e7
      refine ⟨none, by simp, ?_, by simp, ⟨[], by simp, ?_⟩, by simp⟩
      · refine ⟨e1, ?_, ?_, e4, ?_, ?_, ?_⟩
        · cases ht : isResponseTerm l <;> simpa [RPc.early, ht, srun] using e2
        · show s.pending = _
          rw [e3]; cases ht : isResponseTerm l <;> simp [absPending, hk, putAt, hflag]
        · show (s.notification, s.notified) = _
          rw [e5]; cases ht : isResponseTerm l <;> simp [absNote]
        · refine e6.trans ?_
          rw [(hal f rfl).2]
          have both : ∀ g : Fine, g.outcomes = f.outcomes → g.lists = putAt f.lists k (f.lists k ++ [l]) → g.writer = f.writer →
              f.results ++ [] = g.results ++ absLast g := by
            intro g g1 g2 g3; rw [hold g g1 g2, (hal g g3).1]
          exact both _ rfl rfl rfl
        · cases ht : isResponseTerm l <;> simpa [RPc.early, ht, srun] using e7
      · cases ht : isResponseTerm l <;> simp [charOf, RPc.untaken, RPc.early, hr]
    case h_8 hr =>
      obtain ⟨k, hk, hflag⟩ := hp.ldEv hr
      rw [hk]
      simp only [hr, RPc.early, absNote, absPending, hk] at e2 e3 e5 e7
      exact ⟨none, by simp, ⟨e1, e2, by simpa [srun, absPending, hk] using e3, e4, by simpa [srun, absNote] using e5, e6, e7⟩, by simp,
        ⟨[], by simp, by simp [charOf, RPc.untaken, RPc.early, hr]⟩, by simp⟩
    case h_9 k hr =>
      obtain ⟨hk, hflag⟩ := hp.set _ hr
      simp only [hr, RPc.early, absNote, absPending, hk] at e2 e3 e5 e7
      exact ⟨none, by simp, ⟨e1, e2, by simpa [srun, absPending, hk, putAt] using e3, e4, by simpa [srun, absNote] using e5, e6, e7⟩, by simp,
        ⟨[], by simp, by simp [charOf, RPc.untaken, RPc.early, hr]⟩, by simp⟩
    case h_10 l hr => exact (hnote ⟨l, hr⟩).elim
    case h_11 => exact ⟨none, by simp, hs0, by simp, ⟨[], by simp, by simp [charOf]⟩, by simp⟩

theorem received_snoc (cs : List SEvent) : ∀ e, (∀ c b, e ≠ .rx c b) → received (cs ++ [e]) = received cs := by
  intro e he
  induction cs with
  | nil => cases e <;> simp_all [received]
  | cons c cs ih => cases c <;> simp [received, ih]

theorem received_snoc_rx (cs : List SEvent) (h : .fail ∉ cs) (c b) : received (cs ++ [.rx c b]) = received cs ++ [c] := by
  induction cs with
  | nil => simp [received]
  | cons e cs ih =>
    have h1 : SEvent.fail ∉ cs := fun h' => h (List.mem_cons_of_mem _ h')
    cases e with
    | fail => exact (h (by simp)).elim
    | _ => simp [received, ih h1]

theorem fstep_alive {f : Fine} {e : FEvent} (h : (fstep f e).alive = true) : f.alive = true := by
  cases e with
  | rx c => simp only [fstep] at h; split at h <;> (try split at h) <;> (try split at h) <;> simp_all
  | r m => simp only [fstep, readerStep] at h; split at h <;> (try split at h) <;> simp_all
  | begin x => simp only [fstep] at h; split at h <;> exact h
  | w => simp only [fstep, writerStep] at h; split at h <;> (try split at h) <;> exact h
  | wake => simp only [fstep] at h; split at h <;> (try split at h) <;> exact h
  | expire => simp only [fstep] at h; split at h <;> exact h
  | fail => simp only [fstep] at h; split at h <;> simp_all

/-- Every run without time-outs and prompts has a counterpart in the coarser machine. -/
theorem simulates (es : List FEvent) (he : ∀ e ∈ es, e.plain) (m : Bool) :
    ∃ cs, (∀ e ∈ cs, e.plain) ∧ Sim (frun es) m (srun cs) ∧ received cs ++ (frun es).reader.untaken = (frun es).read := by
  let P (f : Fine) : Prop := Numbered f ∧ PlainState f ∧ ∀ m, ∃ cs, (∀ e ∈ cs, e.plain) ∧ Sim f m (srun cs) ∧
      received cs ++ f.reader.untaken = f.read ∧ (f.alive = true → .fail ∉ cs)
  have step : ∀ f e, e.plain → P f → P (fstep f e) := by
    intro f e hee ⟨hn, hp, hs⟩
    refine ⟨numbered_step _ e hn, plain_step _ e hee hn hp, fun m => ?_⟩
    obtain ⟨m0, hm0⟩ := sim_step f e hee hn hp m
    obtain ⟨cs, c1, c2, c3, c4⟩ := hs m0
    obtain ⟨o, a1, a2, a3, ⟨x, a4, a5⟩, a6⟩ := hm0 _ c2
    refine ⟨cs ++ o.toList, ?_, ?_, ?_, ?_⟩
    · intro y hy
      rcases List.mem_append.1 hy with hy | hy
      · exact c1 y hy
      · exact a1 y (by simpa using hy)
    · rw [srun_append]; exact a2
    · rw [a4, ← c3, List.append_assoc, ← a5, ← List.append_assoc]
      congr 1
      cases o with
      | none => simp [charOf]
      | some y =>
        cases y with
        | rx c b => exact received_snoc_rx cs (c4 (a3 c b rfl)) c b
        | _ => rw [Option.toList, received_snoc cs _ (by simp)]; simp [charOf]
    · intro ha hf
      rcases List.mem_append.1 hf with hf | hf
      · exact c4 (fstep_alive ha) hf
      · rw [a6 (by simpa using hf)] at ha; cases ha
  have all : ∀ (es : List FEvent) f, (∀ e ∈ es, e.plain) → P f → P (frun es f) := by
    intro es
    induction es with
    | nil => intro f _ h; exact h
    | cons e es ih => intro f he h; exact ih _ (fun x hx => he x (List.mem_cons_of_mem _ hx)) (step f e (he e (by simp)) h)
  obtain ⟨cs, h1, h2, h3, _⟩ := (all es {} he ⟨numbered_init, plain_init, fun m =>
    ⟨[], by simp, ⟨rfl, rfl, rfl, rfl, rfl, rfl, rfl⟩, rfl, by simp⟩⟩).2.2 m
  exact ⟨cs, h1, h2, h3⟩

end Gsm
