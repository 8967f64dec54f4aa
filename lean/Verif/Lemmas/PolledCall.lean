import Verif.Lemmas.CallLineOther
import Verif.Props.ModemDial
/-! # Lemmas: a call whose status is polled -/
namespace Gsm
open M Spec

variable {env : Env}

/-- A query shows one thing only. -/
theorem query_shows (hd : 0 < env.depth) {s : St} {o : Seen} (h : Queried env.reply s.log (clccQuery env s).2.log o) :
    ∃ s1, OnlyLog s s1 ∧ Queried env.reply s.log s1.log o ∧ clccQuery env s = (.ok (seenVal o), s1) := by
  obtain ⟨s1, h1, ⟨o', h2, h3⟩ | ⟨h2, e, h3⟩⟩ := query_run hd s
  · rw [h3] at h
    have : o' = o := by
      cases o with
      | call => exact queried_unique h h2
      | nothing =>
        cases o' with
        | call => exact (queried_unique h2 h).symm
        | nothing => rfl
    subst this
    exact ⟨s1, h1, h2, h3⟩
  · rw [h3] at h
    rcases h with ⟨h, _⟩ | ⟨_, ⟨d, h⟩, _⟩
    · exact (trans_same h h2.1).elim
    · exact absurd h (h2.2 d)

/-- What the code reads is what the query shows. -/
theorem queried_of_run (hd : 0 < env.depth) {s : St} {o : Seen} (h : (clccQuery env s).1 = .ok (seenVal o)) : Queried env.reply s.log (clccQuery env s).2.log o := by
  obtain ⟨s1, h1, ⟨o', h2, h3⟩ | ⟨h2, e, h3⟩⟩ := query_run hd s
  · rw [h3] at h ⊢
    have hv : seenVal o' = seenVal o := Except.ok.inj h
    have : o' = o := by
      cases o <;> cases o' <;> simp [seenVal] at hv ⊢
      omega
    exact this ▸ h2
  · rw [h3] at h; cases h

/-- A round of the thread `k`. -/
theorem poll_event (hd : 0 < env.depth) {s : St} {k : Nat} {p : Poller} {ph : Phase} {o : Seen} (hp : s.pollers[k]? = some p) (ha : s.alive = true) (ht : 0 < p.timeLeft)
    (hph : PhaseIs p ph) (ho : ph ≠ .over) (hq : Queried env.reply s.log (clccQuery env s).2.log o) {f : St → St}
    (hf : ∀ s1, OnlyLog s s1 → perform (ph.step o).2 env s1 = (.ok (), f s1)) :
    ∃ s1 p', OnlyLog s s1 ∧ ((Event.poll k).run env s).2 = { f s1 with pollers := (f s1).pollers.set k p' } ∧ PhaseIs p' (ph.step o).1 ∧ p'.timeLeft = leftAfter p ph := by
  obtain ⟨s0, h1, h2, h3⟩ := query_shows hd hq
  obtain ⟨s1, g1, g2, g3, g4, g5⟩ := round_sees ha ht hph ho h1 h2 h3
  have hf1 := hf s1 g1
  rw [hf1] at g3 g4
  obtain ⟨p', g6, g7, g8⟩ := g4 rfl
  exact ⟨s1, p', g1, pollEvent_ok hp (Prod.ext g6 g3), g7, g8⟩

/-- What is known of the call at a stage. -/
structure Watched (k i id : Nat) (c : CallObj) (calls : List CallObj) (d : List (Int × Nat)) (st : Stage) (s : St) : Prop where
  alive : s.alive = true
  calls : s.calls = calls.set i (atStage c st)
  table : s.activeCalls = tableAt d id st
  thread : ∃ p, s.pollers[k]? = some p ∧ (p.done = true ∧ st = .over ∨ 0 < p.timeLeft ∧ ∃ ph, PhaseIs p ph ∧ (ph = .ringing id ∨ ph = .talking id) ∧
    (st = .begun → ph = .ringing id) ∧ (st = .answered → ph = .talking id))

/-- What does not change. -/
structure OneCall (i id : Nat) (c : CallObj) (calls : List CallObj) (d : List (Int × Nat)) : Prop where
  object : calls[i]? = some c
  numbered : c.id = id ∧ id ≠ 0
  outgoing : c.incoming = false
  table : dictGet d (id : Int) = some i

/-- How often the callback is called on going from one stage to another. -/
def tellsOf (c : CallObj) (st st' : Stage) : Nat := if st = st' then 0 else if c.callback then 1 else 0

variable {k i id : Nat} {c : CallObj} {calls : List CallObj} {d : List (Int × Nat)} {st st' : Stage} {s s' : St}

theorem watched_object (ho : OneCall i id c calls d) (h : Watched k i id c calls d st s) : s.calls[i]? = some (atStage c st) := by
  rw [h.calls]; exact get_set_self ho.object

theorem dictGet_del {α : Type} (d : List (Int × α)) (x : Int) : dictGet (dictDel d x) x = none := by
  unfold dictGet dictDel
  rw [List.find?_eq_none.2]
  · rfl
  · simp

theorem dictDel_twice {α : Type} (d : List (Int × α)) (x : Int) : dictDel (dictDel d x) x = dictDel d x := by
  unfold dictDel; simp

theorem watched_get (ho : OneCall i id c calls d) (h : Watched k i id c calls d st s) : dictGet s.activeCalls (id : Int) = if st = .over then none else some i := by
  rw [h.table]
  cases st with
  | over => exact dictGet_del d _
  | begun => exact ho.table
  | answered => exact ho.table

theorem watched_view (h : Watched k i id c calls d st s) (hv : callView s' = callView s) : Watched k i id c calls d st s' ∧ toldBack s'.callbacks = toldBack s.callbacks := by
  unfold callView at hv
  simp only [Prod.mk.injEq] at hv
  obtain ⟨⟨h1, h2, -, -⟩, h3, h4, h5⟩ := hv
  exact ⟨⟨by rw [h4]; exact h.alive, by rw [h1]; exact h.calls, by rw [h2]; exact h.table, by rw [h3]; exact h.thread⟩, h5⟩

/-- The thread looks. -/
theorem watched_looks (hd : 0 < env.depth) (ho : OneCall i id c calls d) (h : Watched k i id c calls d st s) {o : Seen} (hr : st.rank ≤ st'.rank) (hl : st'.Listed id o)
    (hq : Queried env.reply s.log (clccQuery env s).2.log o) :
    Watched k i id c calls d st' ((Event.poll k).run env s).2 ∧
      toldBack ((Event.poll k).run env s).2.callbacks = List.replicate (tellsOf c st st') i ++ toldBack s.callbacks := by
  obtain ⟨p, hp, hph⟩ := h.thread
  have hk : k < s.pollers.length := (List.getElem?_eq_some_iff.1 hp).1
  rcases hph with ⟨hdn, rfl⟩ | ⟨ht, ph, hph, hor, hb, han⟩
  · have : st' = .over := by cases st' <;> simp [Stage.rank] at hr ⊢
    subst this
    rw [pollEvent_ok hp (C50_quiet (.inr (.inr hdn)))]
    exact ⟨⟨h.alive, h.calls, h.table, ⟨{ p with done := true }, by simp [hk], .inl ⟨rfl, rfl⟩⟩⟩, by simp [tellsOf]⟩
  · have hno : ph ≠ .over := by rcases hor with rfl | rfl <;> simp
    have hleft : leftAfter p ph = p.timeLeft := by rcases hor with rfl | rfl <;> rfl
    have hobj := watched_object ho h
    have hget := watched_get ho h
    have hid : (id : Int) ≠ 0 := by have := ho.numbered.2; omega
    -- nothing new
    have same : (ph.step o) = (ph, none) → st' = st → Watched k i id c calls d st' ((Event.poll k).run env s).2 ∧
        toldBack ((Event.poll k).run env s).2.callbacks = List.replicate (tellsOf c st st') i ++ toldBack s.callbacks := by
      rintro hs rfl
      obtain ⟨s1, p', ⟨l, w, rfl⟩, g2, g3, g4⟩ := poll_event hd hp h.alive ht hph hno hq (f := fun s => s) (fun s1 _ => by rw [hs]; rfl)
      rw [g2]
      rw [hs] at g3
      exact ⟨⟨h.alive, h.calls, h.table, ⟨p', by simp [hk], .inr ⟨by rw [g4, hleft]; exact ht, ph, g3, hor, hb, han⟩⟩⟩, by simp [tellsOf]⟩
    -- the call is over
    have ends : st' = .over → (ph.step o).1 = .over → ((ph.step o).2 = some (.rejected id) ∨ (ph.step o).2 = some (.ended id)) →
        Watched k i id c calls d st' ((Event.poll k).run env s).2 ∧
        toldBack ((Event.poll k).run env s).2.callbacks = List.replicate (tellsOf c st st') i ++ toldBack s.callbacks := by
      rintro rfl hs1 hs2
      by_cases hov : st = .over
      · subst hov
        have hrun : ∀ s1, OnlyLog s s1 → perform (ph.step o).2 env s1 = (.ok (), s1) := by
          rintro s1 ⟨l, w, rfl⟩
          rcases hs2 with hs2 | hs2 <;> rw [hs2] <;> simp only [perform, ended_run, endedId] <;> simp [hid, hget]
        obtain ⟨s1, p', ⟨l, w, rfl⟩, g2, g3, g4⟩ := poll_event hd hp h.alive ht hph hno hq (f := fun s => s) hrun
        rw [g2]
        rw [hs1] at g3
        exact ⟨⟨h.alive, h.calls, h.table, ⟨p', by simp [hk], .inl ⟨g3, rfl⟩⟩⟩, by simp [tellsOf]⟩
      · rw [if_neg hov] at hget
        have hrun : ∀ s1, OnlyLog s s1 → perform (ph.step o).2 env s1 =
            (.ok (), { s1 with calls := s1.calls.set i { atStage c st with answered := false, active := false }, callbacks := (if (atStage c st).callback then .callStatus i :: s1.callbacks else s1.callbacks), activeCalls := dictDel s1.activeCalls (id : Int) }) := by
          rintro s1 ⟨l, w, rfl⟩
          rcases hs2 with hs2 | hs2 <;> rw [hs2] <;> simp only [perform, ended_run, endedId] <;> simp [hid, hget, hobj] <;> exact fun h0 => absurd h0 ho.numbered.2
        obtain ⟨s1, p', ⟨l, w, rfl⟩, g2, g3, g4⟩ := poll_event hd hp h.alive ht hph hno hq hrun
        rw [g2]
        rw [hs1] at g3
        refine ⟨⟨h.alive, ?_, ?_, ⟨p', by simp [hk], .inl ⟨g3, rfl⟩⟩⟩, ?_⟩
        · simp [h.calls, List.set_set, atStage]
        · simp only [h.table]; cases st <;> simp_all [tableAt]
        · have hcb : (atStage c st).callback = c.callback := rfl
          simp only [tellsOf, if_neg hov, hcb]
          cases c.callback <;> simp [toldBack]
    cases st' with
    | begun =>
      have : st = .begun := by cases st <;> simp [Stage.rank] at hr ⊢
      subst this
      cases o with
      | nothing => exact hl.elim
      | call n dir stat mode =>
        obtain ⟨rfl, rfl, hs⟩ := hl
        obtain rfl := hb rfl
        exact same (by rcases hs with rfl | rfl <;> rfl) rfl
    | answered =>
      cases o with
      | nothing => exact hl.elim
      | call n dir stat mode =>
        obtain ⟨rfl, rfl, rfl⟩ := hl
        cases st with
        | over => simp [Stage.rank] at hr
        | answered =>
          obtain rfl := han rfl
          exact same rfl rfl
        | begun =>
          obtain rfl := hb rfl
          have hrun : ∀ s1, OnlyLog s s1 → perform (Phase.step (.ringing n) (.call n 0 0 mode)).2 env s1 = (.ok (), withAnswered i (atStage c .begun) true s1) := by
            rintro s1 ⟨l, w, rfl⟩
            simp only [Phase.step, perform, handleCallAnswered, run_bind, run_get]
            rw [hget, if_neg (by simp)]
            exact setAnswered_run hobj
          obtain ⟨s1, p', ⟨l, w, rfl⟩, g2, g3, g4⟩ := poll_event hd hp h.alive ht hph hno hq hrun
          rw [g2]
          refine ⟨⟨h.alive, ?_, h.table, ⟨p', by simp [withAnswered, hk], .inr ⟨by rw [g4, hleft]; exact ht, .talking n, g3, .inr rfl, by simp, fun _ => rfl⟩⟩⟩, ?_⟩
          · simp [withAnswered, h.calls, List.set_set, atStage]
          · have hcb : (atStage c .begun).callback = c.callback := rfl
            have htl : tellsOf c .begun .answered = if c.callback then 1 else 0 := by simp [tellsOf]
            simp only [withAnswered, htl, hcb]
            cases c.callback <;> simp [toldBack]
    | over =>
      cases o with
      | call => exact hl.elim
      | nothing =>
        refine ends rfl ?_ ?_
        · rcases hor with rfl | rfl <;> rfl
        · rcases hor with rfl | rfl
          · exact .inl rfl
          · exact .inr rfl

/-- The program hangs up. -/
theorem watched_hangup (ho : OneCall i id c calls d) (h : Watched k i id c calls d st s) :
    ((hangup i env s).1 = .ok () → Watched k i id c calls d .over (hangup i env s).2 ∧ toldBack (hangup i env s).2.callbacks = List.replicate (tellsOf c st .over) i ++ toldBack s.callbacks) ∧
    (∀ e, (hangup i env s).1 = .error e → Watched k i id c calls d st (hangup i env s).2 ∧ toldBack (hangup i env s).2.callbacks = toldBack s.callbacks) := by
  have hobj := watched_object ho h
  have hq : quiet (atStage c st) = atStage c st := by
    unfold quiet
    rw [if_neg (by simp [atStage, ho.outgoing])]
  have hset : s.calls.set i (atStage c st) = s.calls := by rw [h.calls, List.set_set]
  obtain ⟨p, hp, hph⟩ := h.thread
  have hth : ∃ p, s.pollers[k]? = some p ∧ (p.done = true ∧ Stage.over = .over ∨ 0 < p.timeLeft ∧ ∃ ph, PhaseIs p ph ∧ (ph = .ringing id ∨ ph = .talking id) ∧
      (Stage.over = .begun → ph = .ringing id) ∧ (Stage.over = .answered → ph = .talking id)) := by
    refine ⟨p, hp, ?_⟩
    rcases hph with ⟨h1, -⟩ | ⟨h1, ph, h2, h3, -⟩
    · exact .inl ⟨h1, rfl⟩
    · exact .inr ⟨h1, ph, h2, h3, by simp, by simp⟩
  by_cases hov : st = .over
  · subst hov
    rw [hangup_inactive hobj (by simp [atStage]), hq, hset]
    refine ⟨fun _ => ⟨⟨h.alive, h.calls, ?_, h.thread⟩, by simp [tellsOf]⟩, fun e he => by cases he⟩
    have : (atStage c .over).id = id := ho.numbered.1
    simp only [h.table, this, tableAt]
    exact dictDel_twice d _
  · obtain ⟨ok, s1, ⟨l, w, rfl⟩, -, ⟨-, h3⟩ | ⟨-, e, h3⟩⟩ := hangup_active (env := env) hobj (by simp [atStage, hov])
    · rw [h3]
      refine ⟨fun _ => ⟨⟨h.alive, ?_, ?_, hth⟩, ?_⟩, fun e he => by cases he⟩
      · simp only [hq, h.calls, List.set_set]
        congr 1
      · have : (atStage c st).id = id := ho.numbered.1
        simp only [h.table, this]
        cases st <;> simp_all [tableAt]
      · have : (atStage c st).callback = c.callback := rfl
        simp only [tellsOf, if_neg hov, this]
        cases c.callback <;> simp [toldBack]
    · rw [h3]
      refine ⟨fun he => by (cases he), fun _ _ => ⟨⟨h.alive, ?_, h.table, h.thread⟩, rfl⟩⟩
      rw [hq, hset]
      exact h.calls

/-- Every step. -/
theorem watched_step [PyUnicode] (hd : 0 < env.depth) (ho : OneCall i id c calls d) (h : Watched k i id c calls d st s) (hs : PolledStep env k i id st s st' s') :
    Watched k i id c calls d st' s' ∧ toldBack s'.callbacks = List.replicate (tellsOf c st st') i ++ toldBack s.callbacks := by
  have keep : Watched k i id c calls d st s' ∧ toldBack s'.callbacks = toldBack s.callbacks →
      Watched k i id c calls d st s' ∧ toldBack s'.callbacks = List.replicate (tellsOf c st st) i ++ toldBack s.callbacks := by
    rintro ⟨h1, h2⟩
    exact ⟨h1, by rw [h2]; simp [tellsOf]⟩
  cases hs with
  | looks hr hl hq => exact watched_looks hd ho h hr hl hq
  | @idle j hj =>
    refine keep ?_
    cases hp : s.pollers[j]? with
    | none =>
      have : ((Event.poll j).run env s).2 = s := by simp only [Event.run, hp]
      rw [this]; exact ⟨h, rfl⟩
    | some p =>
      have hdn := hj p hp
      rw [pollEvent_ok hp (C50_quiet (.inr (.inr hdn)))]
      have : ({ p with done := true } : Poller) = p := by cases p; simp_all
      rw [this]
      have hset : s.pollers.set j p = s.pollers := by
        obtain ⟨hi, rfl⟩ := List.getElem?_eq_some_iff.1 hp
        exact List.set_getElem_self hi
      refine ⟨⟨h.alive, h.calls, h.table, ?_⟩, rfl⟩
      rw [hset]
      exact h.thread
  | hungUp hok => exact (watched_hangup ho h).1 hok
  | hangupFails he => exact keep ((watched_hangup ho h).2 _ he)
  | @otherNews pre line post dd hpre ha hdd =>
    rw [C43_first hpre ha] at keep ⊢
    refine keep (watched_view h ?_)
    rcases hdd with rfl | rfl | rfl
    · exact ((lf_smsReceived line).run s).2
    · exact ((lf_statusReport line).run s).2
    · exact ((lf_ussd _).run s).2
  | noNews hnone => rw [C43_none hnone] at keep ⊢; exact keep (watched_view h rfl)
  | other hw => exact keep (watched_view h ((other_view hw).run s).2)

theorem watched_life [PyUnicode] (hd : 0 < env.depth) (ho : OneCall i id c calls d) {sts : List Stage} (hl : PolledLife env k i id st s sts st' s')
    (h : Watched k i id c calls d st s) : Watched k i id c calls d st' s' ∧
      toldBack s'.callbacks = List.replicate (if c.callback then stageChanges st sts else 0) i ++ toldBack s.callbacks := by
  induction hl with
  | start => exact ⟨h, by simp [stageChanges]⟩
  | next hs _ ih =>
    obtain ⟨h1, h2⟩ := watched_step hd ho h hs
    obtain ⟨h3, h4⟩ := ih h1
    refine ⟨h3, ?_⟩
    rw [h4, h2, ← List.append_assoc, List.replicate_append_replicate]
    congr 2
    unfold tellsOf
    simp only [stageChanges]
    split <;> split <;> omega

end Gsm
