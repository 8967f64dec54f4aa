import Verif.Lemmas.CallLine
/-! # Lemmas: what each event does to the table of the program -/
namespace Gsm
open M Spec

variable {env : Env}

/-- The program follows, and the callback for incoming calls is called for these calls. -/
structure Tracks (L' : PhoneLine) (s s' : St) (called : List Nat) : Prop where
  mirrors : Mirrors L' s'
  waits : s'.waitForCallInitUpdate = s.waitForCallInitUpdate
  rung : rungBack s'.callbacks = called ++ rungBack s.callbacks

theorem rungBack_status (b : Bool) (i : Nat) (l : List Callback) : rungBack (if b then .callStatus i :: l else l) = rungBack l := by
  cases b <;> rfl

/-! ### Rings -/

theorem goes_comes (hd : 0 < env.depth) {L : PhoneLine} {s : St} (h : Mirrors L s) (hl : LineOk L) {number : Option PyStr} {lines : List PyStr} {id : Nat}
    (hf : FreeId L id) (hg : FreeId L ((currentCalls L).length + 1)) (hn : ∀ c ∈ currentCalls L, c.number ≠ number) (hr : RingLines s number lines) :
    Tracks (L ++ [⟨id, number, true, 1, false, false⟩]) s (handleNotification lines env s).2 [L.length] := by
  obtain rfl := free_unique hf hg
  have hlen : (s.activeCalls.length : Int) + 1 = ((currentCalls L).length + 1 : Nat) := by
    rw [h.table, entries_length]; simp
  have hnew : ∀ ton voice, Tracks (L ++ [⟨(currentCalls L).length + 1, number, true, 1, false, false⟩]) s
      { addCall s (newIncoming number ton (s.activeCalls.length + 1) voice) with callbacks := .incomingCall s.calls.length :: s.callbacks } [L.length] := by
    intro ton voice
    refine ⟨mirrors_new h rfl hf.2.1 ⟨hlen, rfl, rfl, rfl, rfl, fun _ => rfl, rfl⟩ rfl rfl, rfl, ?_⟩
    simp [rungBack, h.length]
  obtain ⟨ton, type, r, ht, hrung⟩ := rung hd (mirrors_table h hl) hr
  have h0 := calls_none h hn
  generalize (handleNotification lines env s).2 = s' at hrung
  cases hrung with
  | more h1 _ => rw [h0] at h1; cases h1
  | ours h1 _ _ => rw [h0] at h1; simp at h1
  | new _ _ => exact hnew _ _
  | newVoice _ _ => exact hnew _ _
  | otherType _ h1 h2 =>
    rcases ht with rfl | rfl
    · cases h1
    · cases h1; exact absurd rfl h2

theorem goes_rings (hd : 0 < env.depth) {L : PhoneLine} {s : St} (h : Mirrors L s) (hl : LineOk L) (hn : NumbersDiffer L) {k : Nat} {c : LineCall} {lines : List PyStr}
    (hk : L[k]? = some c) (ho : c.over = false) (hi : c.incoming = true) (hr : RingLines s c.number lines) :
    Tracks (onCall c.id (fun c => { c with rings := c.rings + 1 }) L) s (handleNotification lines env s).2 [k] := by
  obtain ⟨ton, type, r, ht, hrung⟩ := rung hd (mirrors_table h hl) hr
  obtain ⟨o, hok, hsh⟩ := h.object hk
  have h0 := calls_one h hl hn hk ho
  have hinc : IsIncoming s k = true := by simp [IsIncoming, hok, hsh.incoming, hi]
  generalize (handleNotification lines env s).2 = s' at hrung
  cases hrung with
  | more h1 _ =>
    rw [h0] at h1
    cases h1
    refine ⟨mirrors_change (o' := { o with ringCount := o.ringCount + 1 }) h hl hk ho (fun _ => rfl) (fun _ => rfl)
      ⟨hsh.id, hsh.number, hsh.incoming, hsh.active, hsh.answered, hsh.ringing, ?_⟩ ?_ rfl, rfl, rfl⟩
    · simp [hsh.rings]
    · rw [h0]; exact ringMore_one hok
  | @ours is j js h1 h2 h3 =>
    rw [h0] at h1
    have hjs : j = k := by
      cases is with
      | nil => simpa using (List.cons.inj h1).1.symm
      | cons a as => simp at h1
    rw [hjs, hinc] at h3; cases h3
  | new h1 _ => rw [h0] at h1; cases h1
  | newVoice h1 _ => rw [h0] at h1; cases h1
  | otherType h1 _ _ => rw [h0] at h1; cases h1

/-! ### Calls that are answered or end -/

theorem goes_taken {L : PhoneLine} {s : St} (h : Mirrors L s) (hl : LineOk L) {k : Nat} {c : LineCall} {line : PyStr}
    (hk : L[k]? = some c) (ho : c.over = false) (hi : c.incoming = false) (hs : Says s.callStatusUpdates line (.answered c.id)) :
    Tracks (onCall c.id (fun c => { c with answered := true }) L) s (handleNotification [line] env s).2 [] := by
  obtain ⟨r, hc⟩ := heard (env := env) (mirrors_table h hl) hs
  have hmem := h.mem.2 ⟨c, hk, ho, rfl⟩
  obtain ⟨o, hok, hsh⟩ := h.object hk
  generalize (handleNotification [line] env s).2 = s' at hc
  cases hc with
  | @answered _ i o' h1 h2 =>
    have hik : i = k := mem_unique (mirrors_table h hl) h1 hmem
    subst hik
    rw [hok] at h2; cases h2
    refine ⟨mirrors_change (o' := { o with answered := true }) h hl hk ho (fun _ => rfl) (fun _ => rfl)
      ⟨hsh.id, hsh.number, hsh.incoming, hsh.active, by simp [ho], fun _ => by simp [hsh.ringing ho, hi], hsh.rings⟩ rfl rfl, rfl, rungBack_status _ _ _⟩
  | unknown h1 => exact absurd hmem (h1 k)

theorem goes_someTaken {L : PhoneLine} {s : St} (h : Mirrors L s) (hl : LineOk L) {k : Nat} {c : LineCall} {line : PyStr}
    (hk : L[k]? = some c) (ho : c.over = false) (hi : c.incoming = false) (ha : c.answered = false) (hs : Says s.callStatusUpdates line .someAnswered)
    (hu : ∀ d ∈ currentCalls L, d.incoming = false → d.answered = false → d = c) :
    Tracks (onCall c.id (fun c => { c with answered := true }) L) s (handleNotification [line] env s).2 [] := by
  obtain ⟨r, hc⟩ := heard (env := env) (mirrors_table h hl) hs
  have hmem := h.mem.2 ⟨c, hk, ho, rfl⟩
  obtain ⟨o, hok, hsh⟩ := h.object hk
  generalize (handleNotification [line] env s).2 = s' at hc
  cases hc with
  | @first x i o' h1 h2 =>
    have hik : i = k := by
      obtain ⟨d, g1, g2, g3⟩ := h.mem.1 (first_mem h1)
      obtain ⟨_, _, _, ⟨p, g4, g5, g6⟩, _⟩ := h1
      have hp := h.shows _ _ _ g1 g4
      have hd : d = c := hu d (mem_current.2 ⟨_, g1, g2⟩) (by rw [← hp.incoming, g5]) (by rw [hp.answered, g2] at g6; simpa using g6)
      subst hd
      exact line_unique hl g1 hk ho ho rfl
    subst hik
    rw [hok] at h2; cases h2
    refine ⟨mirrors_change (o' := { o with answered := true }) h hl hk ho (fun _ => rfl) (fun _ => rfl)
      ⟨hsh.id, hsh.number, hsh.incoming, hsh.active, by simp [ho], fun _ => by simp [hsh.ringing ho, hi], hsh.rings⟩ rfl rfl, rfl, rungBack_status _ _ _⟩
  | noneAnswered h1 =>
    exact absurd ⟨o, hok, by rw [hsh.incoming, hi], by rw [hsh.answered, ha]; rfl⟩ (h1 _ _ hmem)

theorem change_absent {L : PhoneLine} {id : Nat} (h : id ∉ usedIds L) (f : LineCall → LineCall) : onCall id f L = L := by
  unfold onCall
  refine (List.map_congr_left fun c hc => ?_).trans (List.map_id L)
  rw [if_neg, id_eq]
  rintro ⟨h1, rfl⟩
  obtain ⟨k, hk⟩ := List.mem_iff_getElem?.1 hc
  exact h (mem_used.2 ⟨k, c, hk, h1, rfl⟩)

/-- The end of a call is reported; the call may have been taken out of the table before. -/
theorem goes_ends {L : PhoneLine} {s : St} (h : Mirrors L s) (hl : LineOk L) {id : Nat} {line : PyStr} (h0 : id ≠ 0)
    (hs : Says s.callStatusUpdates line (.ended id)) :
    Tracks (onCall id (fun c => { c with over := true }) L) s (handleNotification [line] env s).2 [] ∧
      (handleNotification [line] env s).2.callStatusUpdates = s.callStatusUpdates := by
  obtain ⟨r, hc⟩ := heard (env := env) (mirrors_table h hl) hs
  generalize (handleNotification [line] env s).2 = s' at hc
  cases hc with
  | @ended _ i o' _ h1 h2 =>
    obtain ⟨c, hk, ho, hid⟩ := h.mem.1 h1
    obtain rfl : id = c.id := by omega
    have hsh := h.shows _ _ _ hk h2
    exact ⟨⟨mirrors_end (o' := { o' with answered := false, active := false }) h hl hk ho h2
      ⟨hsh.id, hsh.number, hsh.incoming, rfl, by simp, fun hf => (by cases hf), hsh.rings⟩ rfl rfl, rfl, rungBack_status _ _ _⟩, rfl⟩
  | notThere h1 =>
    refine ⟨⟨?_, rfl, rfl⟩, rfl⟩
    rw [change_absent]
    · exact h
    · intro hu
      obtain ⟨k, c, g1, g2, rfl⟩ := mem_used.1 hu
      rcases h1 with h1 | h1
      · exact h0 h1
      · exact h1 k (h.mem.2 ⟨c, g1, g2, rfl⟩)

/-! ### Hanging up -/

/-- The calls with these numbers end. -/
def endCalls (ids : List Nat) (L : PhoneLine) : PhoneLine := L.map fun c => { c with over := c.over || decide (c.id ∈ ids) }

theorem endCalls_change (id : Nat) (ids : List Nat) (L : PhoneLine) : endCalls ids (onCall id (fun c => { c with over := true }) L) = endCalls (id :: ids) L := by
  unfold endCalls onCall
  rw [List.map_map]
  refine List.map_congr_left fun c _ => ?_
  obtain ⟨i, n, inc, r, a, ov⟩ := c
  cases ov with
  | true => simp
  | false =>
    by_cases hi : i = id
    · simp [hi]
    · simp [hi]

theorem endCalls_nil (L : PhoneLine) : endCalls [] L = L := by
  unfold endCalls
  refine (List.map_congr_left fun c _ => ?_).trans (List.map_id L)
  simp

theorem lineOk_end {L : PhoneLine} (h : LineOk L) (id : Nat) : LineOk (onCall id (fun c => { c with over := true }) L) := by
  unfold LineOk
  rw [used_end]
  exact ⟨h.1.filter _, fun h' => h.2 (List.mem_of_mem_filter h')⟩

theorem lines_end : ∀ (lines : List PyStr) {L : PhoneLine} {s : St}, Mirrors L s → LineOk L →
    (∀ l ∈ lines, ∃ id, id ≠ 0 ∧ Says s.callStatusUpdates l (.ended id)) →
    ∃ ids, (∀ l ∈ lines, ∀ id, Says s.callStatusUpdates l (.ended id) → id ∈ ids) ∧ Tracks (endCalls ids L) s (handleLines env lines s) []
  | [], L, s, h, hl, _ => ⟨[], by simp, ⟨by rw [endCalls_nil]; exact h, rfl, rfl⟩⟩
  | l :: ls, L, s, h, hl, hs => by
    obtain ⟨id, h0, h1⟩ := hs l (by simp)
    obtain ⟨h2, h3⟩ := goes_ends (env := env) h hl h0 h1
    obtain ⟨ids, h4, h5⟩ := lines_end ls h2.mirrors (lineOk_end hl id) (fun x hx => by rw [h3]; exact hs x (by simp [hx]))
    refine ⟨id :: ids, fun x hx i hi => ?_, ?_⟩
    · rcases List.mem_cons.1 hx with rfl | hx
      · cases C65_unique h1 hi; simp
      · exact List.mem_cons_of_mem _ (h4 x hx i (by rw [h3]; exact hi))
    · rw [endCalls_change] at h5
      exact ⟨h5.mirrors, h5.waits.trans h2.waits, h5.rung.trans h2.rung⟩

theorem goes_hungUp {L : PhoneLine} {s : St} (h : Mirrors L s) (hl : LineOk L) {k : Nat} {c : LineCall} {lines : List PyStr}
    (hk : L[k]? = some c) (ho : c.over = false) (hok : (hangup k env s).1 = .ok ())
    (h1 : ∀ l ∈ lines, ∃ id ∈ usedIds L, Says s.callStatusUpdates l (.ended id)) (h2 : ∀ id ∈ usedIds L, ∃ l ∈ lines, Says s.callStatusUpdates l (.ended id)) :
    Tracks (L.map fun c => { c with over := true }) s (handleLines env lines (hangup k env s).2) [] := by
  obtain ⟨o, hoo, hsh⟩ := h.object hk
  have hact : o.active = true := by rw [hsh.active, ho]; rfl
  have hq : (quiet o).id = o.id ∧ (quiet o).number = o.number ∧ (quiet o).incoming = o.incoming ∧ (quiet o).ringCount = o.ringCount := by
    unfold quiet; split <;> simp
  obtain ⟨ok, s1, ⟨l, w, rfl⟩, _, ⟨_, h3⟩ | ⟨_, e, h3⟩⟩ := hangup_active (env := env) hoo hact
  · rw [h3]
    have hm : ∀ s' : St, s'.calls = s.calls.set k { quiet o with answered := false, active := false } → s'.activeCalls = dictDel s.activeCalls o.id →
        Mirrors (onCall c.id (fun c => { c with over := true }) L) s' := by
      intro s' g1 g2
      refine mirrors_end h hl hk ho hoo ⟨?_, ?_, ?_, rfl, by simp, fun hf => (by cases hf), ?_⟩ g1 (by rw [g2, hsh.id]; rfl)
      · exact hq.1.trans hsh.id
      · exact hq.2.1.trans hsh.number
      · exact hq.2.2.1.trans hsh.incoming
      · exact hq.2.2.2.trans hsh.rings
    have hm' := hm { s with log := l, writeWait := w, calls := s.calls.set k { quiet o with answered := false, active := false }, callbacks := (if o.callback then .callStatus k :: s.callbacks else s.callbacks), activeCalls := dictDel s.activeCalls o.id } rfl rfl
    obtain ⟨ids, h5, h6⟩ := lines_end (env := env) lines hm' (lineOk_end hl c.id) (fun x hx => by
      obtain ⟨id, g1, g2⟩ := h1 x hx
      exact ⟨id, fun h0 => hl.2 (h0 ▸ g1), g2⟩)
    have hend : endCalls ids (onCall c.id (fun c => { c with over := true }) L) = L.map fun c => { c with over := true } := by
      rw [endCalls_change]
      refine List.map_congr_left fun d hd => ?_
      obtain ⟨j, hj⟩ := List.mem_iff_getElem?.1 hd
      cases hov : d.over with
      | true => simp [hov]
      | false =>
        obtain ⟨x, hx1, hx2⟩ := h2 d.id (mem_used.2 ⟨j, d, hj, hov, rfl⟩)
        simp [h5 x hx1 d.id hx2]
    rw [hend] at h6
    exact ⟨h6.mirrors, h6.waits, h6.rung.trans (rungBack_status _ _ _)⟩
  · rw [h3] at hok; cases hok

theorem goes_hungUpLate {L : PhoneLine} {s : St} (h : Mirrors L s) {k : Nat} {c : LineCall} (hk : L[k]? = some c) (ho : c.over = true) (hu : c.id ∉ usedIds L) :
    Tracks L s (hangup k env s).2 [] := by
  obtain ⟨o, hoo, hsh⟩ := h.object hk
  rw [hangup_inactive hoo (by rw [hsh.active, ho]; rfl)]
  have hdel : dictDel s.activeCalls o.id = s.activeCalls := by
    unfold dictDel
    rw [List.filter_eq_self]
    rintro ⟨x, j⟩ hx
    obtain ⟨d, g1, g2, rfl⟩ := h.mem.1 hx
    have hne : d.id ≠ c.id := fun he => hu (mem_used.2 ⟨j, d, g1, g2, he⟩)
    simp [hsh.id]
    omega
  have hq : (quiet o).id = o.id ∧ (quiet o).number = o.number ∧ (quiet o).incoming = o.incoming ∧ (quiet o).ringCount = o.ringCount ∧ (quiet o).active = o.active ∧ (quiet o).answered = o.answered := by
    unfold quiet; split <;> simp
  refine ⟨⟨?_, fun j d p hd hp => ?_, ?_⟩, rfl, rfl⟩
  · simp [h.length]
  · dsimp only at hp
    by_cases hj : k = j
    · subst hj
      rw [hk] at hd; cases hd
      rw [get_set_self hoo] at hp; cases hp
      exact ⟨hq.1.trans hsh.id, hq.2.1.trans hsh.number, hq.2.2.1.trans hsh.incoming, hq.2.2.2.2.1.trans hsh.active, hq.2.2.2.2.2.trans hsh.answered,
        fun hf => (by rw [ho] at hf; cases hf), hq.2.2.2.1.trans hsh.rings⟩
    · rw [List.getElem?_set_ne hj] at hp
      exact h.shows j d p hd hp
  · exact hdel.trans h.table

/-! ### Answering and dialling -/

theorem tracks_same {L : PhoneLine} {s s' : St} (h : Mirrors L s) (h1 : s'.calls = s.calls) (h2 : s'.activeCalls = s.activeCalls)
    (h3 : s'.waitForCallInitUpdate = s.waitForCallInitUpdate) (h4 : rungBack s'.callbacks = rungBack s.callbacks) : Tracks L s s' [] :=
  ⟨⟨by rw [h1]; exact h.length, fun k c o hc ho => h.shows k c o hc (by rw [← h1]; exact ho), by rw [h2]; exact h.table⟩, h3, h4⟩

theorem goes_accepted {L : PhoneLine} {s : St} (h : Mirrors L s) (hl : LineOk L) {k : Nat} {c : LineCall} (hk : L[k]? = some c) (ho : c.over = false)
    (hi : c.incoming = true) (ha : c.answered = false) (hok : (answer k env s).1 = .ok ()) :
    Tracks (onCall c.id (fun c => { c with answered := true }) L) s (answer k env s).2 [] := by
  obtain ⟨o, hoo, hsh⟩ := h.object hk
  obtain ⟨ok, s1, ⟨l, w, rfl⟩, _, ⟨_, h3⟩ | ⟨_, e, h3⟩⟩ := answer_ringing (env := env) hoo (by rw [hsh.incoming, hi]) (by rw [hsh.ringing ho, hi, ha]; rfl)
  · rw [h3]
    refine ⟨mirrors_change (o' := { o with ringing := false, answered := true }) h hl hk ho (fun _ => rfl) (fun _ => rfl)
      ⟨hsh.id, hsh.number, hsh.incoming, hsh.active, by simp [ho], fun _ => by simp, hsh.rings⟩ rfl rfl, rfl, rungBack_status _ _ _⟩
  · rw [h3] at hok; cases hok

theorem goes_answerRefused {L : PhoneLine} {s : St} (h : Mirrors L s) {k : Nat} {e : PyErr} (he : (answer k env s).1 = .error e) :
    Tracks L s (answer k env s).2 [] := by
  cases hc : s.calls[k]? with
  | none => rw [answer_none hc]; exact tracks_same h rfl rfl rfl rfl
  | some c =>
    by_cases hr : c.incoming = true ∧ c.ringing = true
    · obtain ⟨ok, s1, ⟨l, w, rfl⟩, _, ⟨_, h3⟩ | ⟨_, e, h3⟩⟩ := answer_ringing (env := env) hc hr.1 hr.2
      · rw [h3] at he; cases he
      · rw [h3]; exact tracks_same h rfl rfl rfl rfl
    · rw [answer_quiet hc hr]; exact tracks_same h rfl rfl rfl rfl

theorem withPoller_same (s : St) (t : Nat) : (withPoller s t).calls = s.calls ∧ (withPoller s t).activeCalls = s.activeCalls ∧
    (withPoller s t).waitForCallInitUpdate = s.waitForCallInitUpdate ∧ (withPoller s t).callbacks = s.callbacks ∧ (withPoller s t).dialEvent = s.dialEvent ∧
    (withPoller s t).callStatusUpdates = s.callStatusUpdates := by
  unfold withPoller; split <;> simp

theorem goes_dialled (hd : 0 < env.depth) {L : PhoneLine} {s : St} (h : Mirrors L s) (hl : LineOk L) {number : PyStr} {timeout : Nat} {cb : Bool} {during : List Event}
    {id i : Nat} (hf : FreeId L id) (hg : s.waitForCallInitUpdate = false → FreeId L ((currentCalls L).length + 1))
    (hw : s.waitForCallInitUpdate = true → ∃ line type, during = [.notify [line]] ∧ Says s.callStatusUpdates line (.started id type))
    (hok : (dial number timeout cb during env s).1 = .ok i) :
    Tracks (L ++ [⟨id, some number, false, 0, false, false⟩]) s (dial number timeout cb during env s).2 [] := by
  by_cases hwait : s.waitForCallInitUpdate = true
  · obtain ⟨line, type, rfl, hsays⟩ := hw hwait
    obtain ⟨ok, s1, ⟨l, w, rfl⟩, _, h3, h4⟩ := C66_dial_waiting hd hwait number timeout cb [.notify [line]]
    cases ok with
    | false =>
      obtain ⟨e, h5⟩ := h3 rfl
      rw [h5] at hok; cases hok
    | true =>
      obtain ⟨s2, r, h5, h6⟩ := h4 rfl
      obtain ⟨p1, p2, p3, p4, p5, p6⟩ := withPoller_same { s with log := l, writeWait := w, dialEvent := some false } timeout
      generalize hs0 : withPoller { s with log := l, writeWait := w, dialEvent := some false } timeout = s0 at *
      have hm0 : Mirrors L s0 := (tracks_same (s' := s0) h p1 p2 p3 (by rw [p4])).mirrors
      have hsays0 : Says s0.callStatusUpdates line (.started id type) := by rw [p6]; exact hsays
      obtain ⟨r0, hch⟩ := heard (env := env) (mirrors_table hm0 hl) hsays0
      have hrun : ((Event.notify [line]).run env s0).2 = (handleNotification [line] env s0).2 := rfl
      have htells : TellsCall env s0 ((Event.notify [line]).run env s0).2 (.notify [line]) id type := .line (pre := []) (post := []) (by simp) hsays0
      have hres : s2 = (handleNotification [line] env s0).2 ∧ ∃ t, r = some (id, t) := by
        generalize hes : [Event.notify [line]] = es at h5
        cases h5 with
        | over => cases hes
        | @told _ e es a b ht =>
          cases hes
          refine ⟨hrun, ?_⟩
          generalize hev : Event.notify [line] = ev at ht
          cases ht with
          | @line pre line' post a b hp hs =>
            have hlist : [line] = pre ++ line' :: post := by injection hev
            have hpre : pre = [] ∧ line' = line := by
              cases pre with
              | nil => exact ⟨rfl, (List.cons.inj hlist).1.symm⟩
              | cons x xs => simp at hlist
            obtain ⟨_, rfl⟩ := hpre
            have := C65_unique hs hsays0
            injection this with ha hb
            exact ⟨b, by rw [ha]⟩
          | poll => cases hev
        | other ht _ =>
          cases hes
          exact absurd htells (ht _ _)
      obtain ⟨rfl, t, rfl⟩ := hres
      rw [h6]
      have hde : s0.dialEvent ≠ none := by rw [p5]; simp
      generalize (handleNotification [line] env s0).2 = s2 at hch
      cases hch with
      | awaited _ =>
        refine ⟨mirrors_new (o := newCall number cb id t) h rfl hf.2.1 ⟨rfl, rfl, rfl, rfl, rfl, fun _ => rfl, rfl⟩ ?_ ?_, p3, ?_⟩
        · simp only [dialEnd, addCall]; rw [p1]
        · simp only [dialEnd, addCall]; rw [p1, p2]
        · simp only [dialEnd, addCall]; rw [p4]; rfl
      | notAwaited hn => exact absurd hn hde
  · have hwf := Bool.eq_false_iff.2 hwait
    obtain rfl := free_unique hf (hg hwf)
    obtain ⟨ok, s1, ⟨l, w, rfl⟩, _, h3, h4⟩ := C66_dial_at_once (env := env) hwf number timeout cb during
    cases ok with
    | false =>
      obtain ⟨e, h5⟩ := h3 rfl
      rw [h5] at hok; cases hok
    | true =>
      rw [h4 rfl]
      have hlen : (s.activeCalls.length : Int) + 1 = ((currentCalls L).length + 1 : Nat) := by
        rw [h.table, entries_length]; simp
      exact ⟨mirrors_new h rfl hf.2.1 ⟨hlen, rfl, rfl, rfl, rfl, fun _ => rfl, rfl⟩ rfl rfl, rfl, rfl⟩

theorem goes_dialRefused (hd : 0 < env.depth) {L : PhoneLine} {s : St} (h : Mirrors L s) {number : PyStr} {timeout : Nat} {cb : Bool} {e : PyErr}
    (he : (dial number timeout cb [] env s).1 = .error e) : Tracks L s (dial number timeout cb [] env s).2 [] := by
  by_cases hwait : s.waitForCallInitUpdate = true
  · obtain ⟨ok, s1, ⟨l, w, rfl⟩, _, h3, h4⟩ := C66_dial_waiting hd hwait number timeout cb []
    cases ok with
    | false =>
      obtain ⟨e, h5⟩ := h3 rfl
      rw [h5]; exact tracks_same h rfl rfl rfl rfl
    | true =>
      obtain ⟨s2, r, h5, h6⟩ := h4 rfl
      obtain ⟨p1, p2, p3, p4, p5, p6⟩ := withPoller_same { s with log := l, writeWait := w, dialEvent := some false } timeout
      cases h5 with
      | over =>
        rw [h6]
        exact tracks_same h p1 p2 p3 (by simp only [dialEnd]; rw [p4])
  · obtain ⟨ok, s1, ⟨l, w, rfl⟩, _, h3, h4⟩ := C66_dial_at_once (env := env) (Bool.eq_false_iff.2 hwait) number timeout cb []
    cases ok with
    | false =>
      obtain ⟨e, h5⟩ := h3 rfl
      rw [h5]; exact tracks_same h rfl rfl rfl rfl
    | true => rw [h4 rfl] at he; cases he

end Gsm
