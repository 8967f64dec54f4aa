import Verif.Lemmas.SerialFine
import Verif.Props.Serial
/-! # Every run of the coarser model is a run of the finer one -/
namespace Gsm

/-- What the two threads do one after the other for an event of the coarser machine. -/
def expand : SEvent → List FEvent
  | .rx c m => .rx c :: List.replicate 9 (.r m)
  | .start x => [.begin x, .w, .w, .w, .w]
  | .finish => [.wake, .w, .w, .w]
  | .expire => [.expire, .w, .w, .w]
  | .fail => [.fail]

/-- The finer machine, apart from where its reader is, is in the state `s`. -/
structure Same (f : Fine) (s : Comms) : Prop where
  num : Numbered f
  alive : f.alive = s.alive
  buffer : f.rxBuffer = s.rxBuffer
  expect : f.expect = s.expect
  note : f.notification = s.notification
  noted : f.notified = s.notified
  handed : f.handed = s.handed
  outs : f.results = s.outcomes
  idle : s.pending = none → f.writer = .free
  busy : ∀ p, s.pending = some p → f.writer = .waiting ∧ f.lists (f.made - 1) = p.response ∧ f.flags (f.made - 1) = p.isSet ∧
    (∀ k, .returned k ∈ f.outcomes → k < f.made - 1) ∧ (∀ k, .timeout (some k) ∈ f.outcomes → k < f.made - 1)

theorem Same.event {f : Fine} {s : Comms} (h : Same f s) : f.event = s.pending.map fun _ => f.made - 1 := by
  rw [h.num.ev]
  cases hp : s.pending with
  | none => rw [h.idle hp]; rfl
  | some p => rw [(h.busy p hp).1]; exact (h.num.inside (by rw [(h.busy p hp).1]; rfl)).1

theorem Same.response {f : Fine} {s : Comms} (h : Same f s) {p} (hp : s.pending = some p) : f.response = some (f.made - 1) :=
  (h.num.inside (by rw [(h.busy p hp).1]; rfl)).1

theorem idle_runs {f : Fine} (h : f.reader = .idle) (m : Bool) (n : Nat) : frun (List.replicate n (.r m)) f = f := by
  induction n with
  | zero => rfl
  | succ n ih =>
    show frun (List.replicate n (.r m)) (readerStep f m) = f
    have : readerStep f m = f := by simp [readerStep, h]
    rw [this, ih]

theorem results_put {f g : Fine} (h1 : g.outcomes = f.outcomes) {k x} (h2 : g.lists = putAt f.lists k x)
    (h3 : ∀ j, .returned j ∈ f.outcomes → j < k) (h4 : ∀ j, .timeout (some j) ∈ f.outcomes → j < k) : g.results = f.results := by
  unfold Fine.results
  rw [h1, h2]
  apply List.map_congr_left
  intro o ho
  match o with
  | .returned j => have := h3 j ho; simp only [putAt]; rw [if_neg (by omega)]
  | .timeout none => rfl
  | .timeout (some j) => have := h4 j ho; simp only [putAt]; rw [if_neg (by omega)]

/-- `_handleLineRead` without interruption. -/
theorem handle_runs {f : Fine} {s : Comms} {l : PyStr} {c : Bool} (m : Bool) (h : Same { f with handed := s.handed } s) (hh : f.handed = s.handed ++ [l])
    (hr : f.reader = .test l c) :
    ∃ n, n ≤ 6 ∧ (frun (List.replicate n (.r m)) f).reader = .idle ∧ Same (frun (List.replicate n (.r m)) f) (handleLineRead s l c m) := by
  have hnum : Numbered f := ⟨h.num.1, h.num.2, h.num.3, h.num.4, h.num.5, h.num.6, h.num.7, h.num.8⟩
  have hev : f.event = s.pending.map fun _ => f.made - 1 := h.event
  match hp : s.pending with
  | none =>
    rw [hp] at hev
    refine ⟨2, by omega, ?_⟩
    have e1 : readerStep f m = { f with reader := .notify l } := by simp [readerStep, hr, hev]
    have hn2 : Numbered (frun (List.replicate 2 (.r m)) f) := frun_inv numbered_step _ _ hnum
    have e2 : frun (List.replicate 2 (.r m)) f = readerStep { f with reader := .notify l } m := by
      rw [← e1]; rfl
    rw [e2] at hn2 ⊢
    simp only [readerStep, handleLineRead, hp] at hn2 ⊢
    cases m
    · exact ⟨rfl, hn2, h.alive, h.buffer, h.expect, rfl, by simp [← h.note, ← h.noted], hh, h.outs, fun _ => h.idle hp, fun p h0 => by simp at h0⟩
    · exact ⟨rfl, hn2, h.alive, h.buffer, h.expect, by simp [← h.note], h.noted, hh, h.outs, fun _ => h.idle hp, fun p h0 => by simp at h0⟩
  | some ⟨r, true⟩ =>
    rw [hp] at hev
    obtain ⟨b1, b2, b3, b4, b5⟩ := h.busy _ hp
    refine ⟨3, by omega, ?_⟩
    have e1 : readerStep f m = { f with reader := .isSet l c } := by simp [readerStep, hr, hev]
    have e2 : readerStep { f with reader := .isSet l c } m = { f with reader := .notify l } := by
      simp only at b3
      simp [readerStep, hev, b3]
    have hn2 : Numbered (frun (List.replicate 3 (.r m)) f) := frun_inv numbered_step _ _ hnum
    have e3 : frun (List.replicate 3 (.r m)) f = readerStep { f with reader := .notify l } m := by
      rw [← e2, ← e1]; rfl
    rw [e3] at hn2 ⊢
    simp only [readerStep, handleLineRead, hp] at hn2 ⊢
    cases m
    · exact ⟨rfl, hn2, h.alive, h.buffer, h.expect, rfl, by simp [← h.note, ← h.noted], hh, h.outs, fun h0 => (by simp at h0),
        fun p h0 => h.busy p (by simpa [hp] using h0)⟩
    · exact ⟨rfl, hn2, h.alive, h.buffer, h.expect, by simp [← h.note], h.noted, hh, h.outs, fun h0 => (by simp at h0),
        fun p h0 => h.busy p (by simpa [hp] using h0)⟩
  | some ⟨r, false⟩ =>
    rw [hp] at hev
    obtain ⟨b1, b2, b3, b4, b5⟩ := h.busy _ hp
    have hresp : f.response = some (f.made - 1) := h.response hp
    simp only at b1 b2 b3 b4 b5
    have e1 : readerStep f m = { f with reader := .isSet l c } := by simp [readerStep, hr, hev]
    have e2 : readerStep { f with reader := .isSet l c } m = { f with reader := .loadResponse l c } := by
      simp [readerStep, hev, b3]
    have e3 : readerStep { f with reader := .loadResponse l c } m = { f with reader := .append l c (f.made - 1) } := by
      simp [readerStep, hresp]
    have e4 : ∀ n, frun (List.replicate (n + 3) (.r m)) f = frun (List.replicate n (.r m)) { f with reader := .append l c (f.made - 1) } := by
      intro n; rw [← e3, ← e2, ← e1]; rfl
    by_cases ht : (!c || isResponseTerm l) = true
    · refine ⟨6, by omega, ?_⟩
      have hn2 : Numbered (frun (List.replicate 6 (.r m)) f) := frun_inv numbered_step _ _ hnum
      have e5 : frun (List.replicate 6 (.r m)) f = { f with lists := putAt f.lists (f.made - 1) (f.lists (f.made - 1) ++ [l]), flags := putAt f.flags (f.made - 1) true, reader := .idle } := by
        rw [e4 3]
        simp [frun, fstep, readerStep, List.replicate, ht, hev]
      rw [e5] at hn2 ⊢
      simp only [handleLineRead, hp, ht]
      refine ⟨by first | rfl | trivial, hn2, h.alive, h.buffer, h.expect, h.note, h.noted, hh, ?_, nofun, ?_⟩
      · rw [← h.outs]; exact results_put rfl rfl b4 b5
      · rintro p ⟨⟩
        exact ⟨b1, by simp [putAt, b2], by simp [putAt], b4, b5⟩
    · refine ⟨4, by omega, ?_⟩
      have hn2 : Numbered (frun (List.replicate 4 (.r m)) f) := frun_inv numbered_step _ _ hnum
      have e5 : frun (List.replicate 4 (.r m)) f = { f with lists := putAt f.lists (f.made - 1) (f.lists (f.made - 1) ++ [l]), reader := .idle } := by
        rw [e4 1]
        simp only [frun, fstep, readerStep, List.replicate, List.foldl]
        rw [if_neg ht]
      rw [e5] at hn2 ⊢
      simp only [handleLineRead, hp]
      refine ⟨by first | rfl | trivial, hn2, h.alive, h.buffer, h.expect, h.note, h.noted, hh, ?_, nofun, ?_⟩
      · rw [← h.outs]; exact results_put rfl rfl b4 b5
      · rintro p ⟨⟩
        exact ⟨b1, by simp [putAt, b2], by simp only [b3]; simpa using ht, b4, b5⟩

theorem readers {f : Fine} {g : Fine → Prop} {m : Bool} {n N : Nat} (hn : n ≤ N) (h1 : (frun (List.replicate n (.r m)) f).reader = .idle)
    (h2 : g (frun (List.replicate n (.r m)) f)) :
    (frun (List.replicate N (.r m)) f).reader = .idle ∧ g (frun (List.replicate N (.r m)) f) := by
  obtain ⟨k, rfl⟩ : ∃ k, N = n + k := ⟨N - n, by omega⟩
  rw [← List.replicate_append_replicate, frun_append, idle_runs h1]
  exact ⟨h1, h2⟩

/-- One event, without interruption. -/
theorem expand_step {f : Fine} {s : Comms} (h : Same f s) (hr : f.reader = if s.alive then .idle else .stopped) (e : SEvent) :
    Same (frun (expand e) f) (sstep s e) ∧ (frun (expand e) f).reader = if (sstep s e).alive then .idle else .stopped := by
  cases e with
  | rx c m =>
    cases ha : s.alive with
    | false =>
      rw [ha] at hr
      have hr : f.reader = .stopped := hr
      have e1 : ∀ n, frun (List.replicate n (.r m)) f = f := by
        intro n
        induction n with
        | zero => rfl
        | succ n ih =>
          show frun (List.replicate n (.r m)) (readerStep f m) = f
          rw [show readerStep f m = f by simp [readerStep, hr], ih]
      have e2 : frun (expand (.rx c m)) f = f := by
        show frun (List.replicate 9 (.r m)) (fstep f (.rx c)) = f
        rw [show fstep f (.rx c) = f by simp [fstep, hr], e1]
      rw [e2]
      have e3 : sstep s (.rx c m) = s := by simp [sstep, ha]
      rw [e3, ha]
      exact ⟨h, hr⟩
    | true =>
      rw [ha] at hr
      have hr : f.reader = .idle := hr
      have hfa : f.alive = true := h.alive.trans ha
      have e0 : sstep s (.rx c m) = readChar s c m := by simp [sstep, ha]
      show Same (frun (List.replicate 9 (.r m)) (fstep f (.rx c))) _ ∧ (frun (List.replicate 9 (.r m)) (fstep f (.rx c))).reader = _
      have hnum := numbered_step f (.rx c) h.num
      rw [e0]
      have goal : (frun (List.replicate 9 (.r m)) (fstep f (.rx c))).reader = .idle ∧
          Same (frun (List.replicate 9 (.r m)) (fstep f (.rx c))) (readChar s c m) := by
        rcases readChar_cases s c m with ⟨l, h1, h2, h3⟩ | ⟨h1, h3⟩ | ⟨h1, q, hq, h2, h3⟩ | ⟨h1, h2, h3⟩
        · rw [h3]
          have hend : endsWith (f.rxBuffer ++ [c]) [13, 10] = true := by rw [h.buffer, h1]; exact endsWith_iff.2 ⟨l, rfl⟩
          have htake : (f.rxBuffer ++ [c]).take ((f.rxBuffer ++ [c]).length - 2) = l := by rw [h.buffer, h1]; simp
          have hz : l.length > 0 := List.length_pos_iff.2 h2
          have e : fstep f (.rx c) = { f with read := f.read ++ [c], rxBuffer := [], reader := .test l true, handed := f.handed ++ [l] } := by
            simp only [fstep, hr, hfa, and_self, if_true, hend, htake, hz]
          rw [e] at hnum ⊢
          obtain ⟨n, n1, n2, n3⟩ := @handle_runs { f with read := f.read ++ [c], rxBuffer := [], reader := .test l true, handed := f.handed ++ [l] } { s with rxBuffer := [] } l true m
            ⟨⟨hnum.1, hnum.2, hnum.3, hnum.4, hnum.5, hnum.6, hnum.7, hnum.8⟩, h.alive, rfl, h.expect, h.note, h.noted, rfl, h.outs, h.idle, h.busy⟩
            (by rw [← h.handed]) rfl
          exact readers (g := fun x => Same x _) (by omega) n2 n3
        · rw [h3]
          have hend : endsWith (f.rxBuffer ++ [c]) [13, 10] = true := by rw [h.buffer, h1]; rfl
          have htake : (f.rxBuffer ++ [c]).take ((f.rxBuffer ++ [c]).length - 2) = [] := by rw [h.buffer, h1]; rfl
          have e : fstep f (.rx c) = { f with read := f.read ++ [c], rxBuffer := [] } := by
            simp only [fstep, hr, hfa, and_self, if_true, hend, htake]; rfl
          rw [e] at hnum ⊢
          rw [idle_runs (by exact hr)]
          exact ⟨hr, hnum, h.alive, rfl, h.expect, h.note, h.noted, h.handed, h.outs, h.idle, h.busy⟩
        · rw [h3]
          have hend : ¬ endsWith (f.rxBuffer ++ [c]) [13, 10] = true := by rw [h.buffer]; exact fun hh => h1 (endsWith_iff.1 hh)
          have e : fstep f (.rx c) = { f with read := f.read ++ [c], rxBuffer := f.rxBuffer ++ [c], reader := .expTest } := by
            simp only [fstep, hr, hfa, and_self, if_true, hend]; rfl
          have hfe : f.expect = some q := h.expect.trans hq
          have hdrop : (f.rxBuffer ++ [c]).drop ((f.rxBuffer ++ [c]).length - q.length) = q := by
            have := endsWith_iff.2 h2; rw [h.buffer]; simpa [endsWith] using this
          have e2 : frun (List.replicate 3 (.r m)) (fstep f (.rx c)) = { f with read := f.read ++ [c], rxBuffer := [], reader := .test (f.rxBuffer ++ [c]) false, handed := f.handed ++ [f.rxBuffer ++ [c]] } := by
            rw [e]
            simp only [frun, List.replicate, List.foldl, fstep, readerStep, hfe]
            exact if_pos (congrArg some hdrop)
          have hnum3 : Numbered (frun (List.replicate 3 (.r m)) (fstep f (.rx c))) := frun_inv numbered_step _ _ hnum
          rw [show (9 : Nat) = 3 + 6 from rfl, ← List.replicate_append_replicate, frun_append]
          rw [e2] at hnum3 ⊢
          obtain ⟨n, n1, n2, n3⟩ := @handle_runs { f with read := f.read ++ [c], rxBuffer := [], reader := .test (f.rxBuffer ++ [c]) false, handed := f.handed ++ [f.rxBuffer ++ [c]] } { s with rxBuffer := [] } (f.rxBuffer ++ [c]) false m
            ⟨⟨hnum3.1, hnum3.2, hnum3.3, hnum3.4, hnum3.5, hnum3.6, hnum3.7, hnum3.8⟩, h.alive, rfl, h.expect, h.note, h.noted, rfl, h.outs, h.idle, h.busy⟩
            (by rw [← h.handed]) rfl
          rw [← h.buffer]
          exact readers (g := fun x => Same x _) n1 n2 n3
        · rw [h3]
          have hend : ¬ endsWith (f.rxBuffer ++ [c]) [13, 10] = true := by rw [h.buffer]; exact fun hh => h1 (endsWith_iff.1 hh)
          have e : fstep f (.rx c) = { f with read := f.read ++ [c], rxBuffer := f.rxBuffer ++ [c], reader := .expTest } := by
            simp only [fstep, hr, hfa, and_self, if_true, hend]; rfl
          have hfin : ∃ n, n ≤ 9 ∧ frun (List.replicate n (.r m)) (fstep f (.rx c)) = { f with read := f.read ++ [c], rxBuffer := f.rxBuffer ++ [c], reader := .idle } := by
            rw [e]
            cases hq : s.expect with
            | none =>
              refine ⟨1, by omega, ?_⟩
              simp only [frun, List.replicate, List.foldl, fstep, readerStep, h.expect.trans hq]
            | some q =>
              refine ⟨3, by omega, ?_⟩
              have hfe : f.expect = some q := h.expect.trans hq
              have hdrop : ¬ (f.rxBuffer ++ [c]).drop ((f.rxBuffer ++ [c]).length - q.length) = q := by
                intro hh; refine h2 q hq (endsWith_iff.1 ?_); rw [← h.buffer]; simpa [endsWith] using hh
              simp only [frun, List.replicate, List.foldl, fstep, readerStep, hfe]
              exact if_neg (fun hh => hdrop (Option.some.inj hh))
          obtain ⟨n, n1, n2⟩ := hfin
          have hnum3 : Numbered (frun (List.replicate n (.r m)) (fstep f (.rx c))) := frun_inv numbered_step _ _ hnum
          refine readers (g := fun x => Same x _) n1 (by rw [n2]) ?_
          rw [n2] at hnum3 ⊢
          exact ⟨hnum3, h.alive, by simp [h.buffer], h.expect, h.note, h.noted, h.handed, h.outs, h.idle, h.busy⟩
      refine ⟨goal.2, ?_⟩
      rw [goal.1]
      have : (readChar s c m).alive = true := by 
        rcases readChar_cases s c m with ⟨l, _, _, h3⟩ | ⟨_, h3⟩ | ⟨_, _, _, _, h3⟩ | ⟨_, _, h3⟩ <;> rw [h3] <;> simp [ha]
      rw [this]; rfl
  | start x =>
    have hnum : Numbered (frun (expand (.start x)) f) := frun_inv numbered_step _ _ h.num
    cases hp : s.pending with
    | some p =>
      have hw := (h.busy p hp).1
      have e : frun (expand (.start x)) f = f := by simp [frun, expand, fstep, writerStep, hw]
      rw [e]; simp only [sstep, hp]; exact ⟨h, hr⟩
    | none =>
      have hw := h.idle hp
      have e : frun (expand (.start x)) f = { f with writer := .waiting, expect := (expectOf x).or f.expect, response := some f.made, made := f.made + 1, event := some f.made } := by
        simp [frun, expand, fstep, writerStep, hw]
      rw [e] at hnum ⊢
      simp only [sstep, hp]
      refine ⟨⟨hnum, h.alive, h.buffer, by simp [h.expect], h.note, h.noted, h.handed, h.outs, nofun, ?_⟩, hr⟩
      rintro p ⟨⟩
      exact ⟨rfl, (h.num.fresh _ (by simp)).1, (h.num.fresh _ (by simp)).2, fun k hk => by have := h.num.ret k hk; simp; omega,
        fun k hk => by have := h.num.tmo k hk; simp; omega⟩
  | finish =>
    have hnum : Numbered (frun (expand .finish) f) := frun_inv numbered_step _ _ h.num
    match hp : s.pending with
    | none =>
      have hw := h.idle hp
      have e : frun (expand .finish) f = f := by simp [frun, expand, fstep, writerStep, hw]
      rw [e]; simp only [sstep, hp]; exact ⟨h, hr⟩
    | some ⟨r, false⟩ =>
      obtain ⟨b1, b2, b3, b4, b5⟩ := h.busy _ hp
      have hev : f.event = some (f.made - 1) := by rw [h.event, hp]; rfl
      have e : frun (expand .finish) f = f := by simp [frun, expand, fstep, writerStep, b1, hev, b3]
      rw [e]; simp only [sstep, hp]; exact ⟨h, hr⟩
    | some ⟨r, true⟩ =>
      obtain ⟨b1, b2, b3, b4, b5⟩ := h.busy _ hp
      have hev : f.event = some (f.made - 1) := by rw [h.event, hp]; rfl
      have e : frun (expand .finish) f = { f with writer := .free, event := none, expect := none, outcomes := f.outcomes ++ [.returned (f.made - 1)] } := by
        simp [frun, expand, fstep, writerStep, b1, hev, b3, h.response hp]
      rw [e] at hnum ⊢
      simp only [sstep, hp]
      refine ⟨⟨hnum, h.alive, h.buffer, rfl, h.note, h.noted, h.handed, ?_, fun _ => rfl, nofun⟩, hr⟩
      rw [← h.outs]; simp [Fine.results, b2]
  | expire =>
    have hnum : Numbered (frun (expand .expire) f) := frun_inv numbered_step _ _ h.num
    match hp : s.pending with
    | none =>
      have hw := h.idle hp
      have e : frun (expand .expire) f = f := by simp [frun, expand, fstep, writerStep, hw]
      rw [e]; simp only [sstep, hp]; exact ⟨h, hr⟩
    | some ⟨r, b⟩ =>
      obtain ⟨b1, b2, b3, b4, b5⟩ := h.busy _ hp
      have e : frun (expand .expire) f = { f with writer := .free, event := none, expect := none, outcomes := f.outcomes ++ [.timeout (if (f.lists (f.made - 1)).length > 0 then some (f.made - 1) else none)] } := by
        simp [frun, expand, fstep, writerStep, b1, h.response hp]
      rw [e] at hnum ⊢
      simp only [sstep, hp]
      refine ⟨⟨hnum, h.alive, h.buffer, rfl, h.note, h.noted, h.handed, ?_, fun _ => rfl, nofun⟩, hr⟩
      rw [← h.outs]
      simp only at b2
      simp only [Fine.results, List.map_append, b2, List.map_cons, List.map_nil]
      split <;> simp_all
  | fail =>
    have hnum : Numbered (frun (expand .fail) f) := frun_inv numbered_step _ _ h.num
    cases ha : s.alive with
    | false =>
      rw [ha] at hr
      have hr : f.reader = .stopped := hr
      have e : frun (expand .fail) f = f := by simp [frun, expand, fstep, hr]
      rw [e]; simp only [sstep]
      exact ⟨⟨h.num, h.alive.trans ha, h.buffer, h.expect, h.note, h.noted, h.handed, h.outs, h.idle, h.busy⟩, hr⟩
    | true =>
      rw [ha] at hr
      have hr : f.reader = .idle := hr
      have e : frun (expand .fail) f = { f with alive := false, reader := .stopped, fatal := true } := by
        simp [frun, expand, fstep, hr, h.alive.trans ha]
      rw [e] at hnum ⊢
      exact ⟨⟨hnum, rfl, h.buffer, h.expect, h.note, h.noted, h.handed, h.outs, h.idle, h.busy⟩, rfl⟩

theorem expand_run (es : List SEvent) : Same (frun (es.flatMap expand)) (srun es) ∧
    (frun (es.flatMap expand)).reader = if (srun es).alive then .idle else .stopped := by
  have : ∀ f s, Same f s → f.reader = (if s.alive then .idle else .stopped) →
      Same (frun (es.flatMap expand) f) (srun es s) ∧ (frun (es.flatMap expand) f).reader = if (srun es s).alive then .idle else .stopped := by
    induction es with
    | nil => intro f s h hr; exact ⟨h, hr⟩
    | cons e es ih =>
      intro f s h hr
      rw [List.flatMap_cons, frun_append]
      obtain ⟨h1, h2⟩ := expand_step h hr e
      exact ih _ _ h1 h2
  exact this {} {} ⟨numbered_init, rfl, rfl, rfl, rfl, rfl, rfl, rfl, fun _ => rfl, nofun⟩ rfl

end Gsm
