import Verif.Lemmas.CallLineOther
/-! # Property C112: the table of calls follows the calls on the line -/
namespace Gsm
open M Spec

variable {env : Env}

theorem rungCalls_step (n : Nat) (e : LineEvent) (es : List LineEvent) {L L' : PhoneLine} (hL : L.length = n) (h : LineStep L e L') :
    rungCalls n (e :: es) = rungCalls n [e] ++ rungCalls L'.length es := by
  cases h <;> simp [rungCalls, onCall, hL]

theorem story_tracks [PyUnicode] (hd : 0 < env.depth) {w : Bool} {L L' : PhoneLine} {s s' : St} {es : List LineEvent}
    (h : Story env (Distinguishable w) L s es L' s') : s.waitForCallInitUpdate = w → Mirrors L s → LineOk L → NumbersDiffer L →
    Mirrors L' s' ∧ rungBack s'.callbacks = (rungCalls L.length es).reverse ++ rungBack s.callbacks := by
  induction h with
  | start => exact fun _ hm _ _ => ⟨hm, rfl⟩
  | @next L s e L1 s1 es L2 s2 hg hstep hsees _ ih =>
    intro hw hm hl hn
    subst hw
    have ht := goes hd hm hl hn hg hstep hsees
    obtain ⟨h1, h2⟩ := ih ht.waits ht.mirrors (step_lineOk hstep hl) (step_numbers hstep hg hn)
    refine ⟨h1, ?_⟩
    rw [h2, ht.rung, rungCalls_step L.length e es rfl hstep, List.reverse_append, List.append_assoc]
    congr 2
    cases e <;> rfl

/-- Whatever happens on the line, as long as the calls can be told apart: the program has one object for each
call, which shows its number, whether it is answered, over or ringing, and how often it has rung; the table has
exactly the calls that are not over; and each ring has led to one callback with the object of its call. -/
theorem C112_follows [PyUnicode] (hd : 0 < env.depth) {s s' : St} (h1 : s.calls = []) (h2 : s.activeCalls = []) {es : List LineEvent} {L : PhoneLine}
    (h : Story env (Distinguishable s.waitForCallInitUpdate) [] s es L s') :
    Mirrors L s' ∧ rungBack s'.callbacks = (rungCalls 0 es).reverse ++ rungBack s.callbacks :=
  story_tracks hd h rfl ⟨by rw [h1]; rfl, fun _ _ _ h => by simp at h, h2⟩ ⟨by simp [usedIds, currentCalls], by simp [usedIds, currentCalls]⟩
    (fun _ _ _ _ h => by simp at h)

theorem story_weaken [PyUnicode] {P Q : PhoneLine → LineEvent → Prop} (hpq : ∀ L e, P L e → Q L e) {L L' : PhoneLine} {s s' : St} {es : List LineEvent}
    (h : Story env P L s es L' s') : Story env Q L s es L' s' := by
  induction h with
  | start => exact .start
  | next h1 h2 h3 _ ih => exact .next (hpq _ _ h1) h2 h3 ih

theorem one_distinguishable (w : Bool) (L : PhoneLine) (e : LineEvent) (h : OneAtATime L e) : Distinguishable w L e := by
  have hfree : currentCalls L = [] → FreeId L ((currentCalls L).length + 1) := by
    intro h0
    have hu : usedIds L = [] := by rw [usedIds, h0]; rfl
    rw [h0]
    exact ⟨by simp, by rw [hu]; simp, fun n h1 h2 => by simp at h2; omega⟩
  cases e with
  | comes n =>
    have h0 : currentCalls L = [] := h
    exact ⟨hfree h0, by rw [h0]; simp⟩
  | dialled n =>
    have h0 : currentCalls L = [] := h
    exact ⟨fun _ => hfree h0, by rw [h0]; simp⟩
  | hungUpLate k =>
    have h0 : currentCalls L = [] := h
    intro c _
    rw [usedIds, h0]; simp
  | _ => trivial

/-- In particular, as long as there is only one call at a time, whoever calls and however often. -/
theorem C112_one_at_a_time [PyUnicode] (hd : 0 < env.depth) {s s' : St} (h1 : s.calls = []) (h2 : s.activeCalls = []) {es : List LineEvent} {L : PhoneLine}
    (h : Story env OneAtATime [] s es L s') :
    Mirrors L s' ∧ rungBack s'.callbacks = (rungCalls 0 es).reverse ++ rungBack s.callbacks :=
  C112_follows hd h1 h2 (story_weaken (one_distinguishable _) h)

/-- The table leads to the objects of the calls that are not over, and to no others. -/
theorem C112_table {L : PhoneLine} {s : St} (h : Mirrors L s) {x : Int} {k : Nat} :
    (x, k) ∈ s.activeCalls ↔ ∃ c, L[k]? = some c ∧ c.over = false ∧ x = c.id := h.mem

/-! ### What goes wrong otherwise -/

/-- When ATH is refused, the object of a ringing call does not ring any more although the call does; `answer`
then returns without doing anything. -/
theorem C112_refused {L : PhoneLine} {s : St} (h : Mirrors L s) {k : Nat} {c : LineCall} (hk : L[k]? = some c) (ho : c.over = false) (hi : c.incoming = true)
    {e : PyErr} (he : (hangup k env s).1 = .error e) : answer k env (hangup k env s).2 = (.ok (), (hangup k env s).2) := by
  obtain ⟨o, hoo, hsh⟩ := h.object hk
  obtain ⟨ok, s1, ⟨l, w, rfl⟩, _, ⟨_, h3⟩ | ⟨_, e, h3⟩⟩ := hangup_active (env := env) hoo (by rw [hsh.active, ho]; rfl)
  · rw [h3] at he; cases he
  · rw [h3]
    refine answer_quiet (c := quiet o) (get_set_self hoo) ?_
    rw [quiet, if_pos (by rw [hsh.incoming, hi])]
    simp

/-- A modem that does not report the progress of calls: no line that it can send is taken for the end of an
incoming call. -/
theorem C112_end_unheard {s : St} (h : s.callStatusUpdates = .none) {line : PyStr} (h1 : ¬ py!"RING" <:+: line) (h2 : ¬ py!"+CMTI" <+: line)
    (h3 : ¬ py!"+CUSD" <+: line) (h4 : ¬ py!"+CDSI" <+: line) : handleNotification [line] env s = (.ok (), s) := by
  refine C43_none fun l hl d hd => ?_
  rw [List.mem_singleton.1 hl, h] at hd
  cases hd with
  | ring h => exact h1 h
  | message _ h => exact h2 h
  | ussd _ h => exact h3 h
  | report _ h => exact h4 h
  | call _ _ _ _ h => simp [callTable] at h

/-- A connected Huawei modem that tells type and number of incoming calls. -/
def lineState : St := { callingLineIdentification := true, extendedIncomingCallIndication := true, callStatusUpdates := .huawei }

/-- Two rings, and what the modem says in between. -/
def missedCall (s : St) : St :=
  (handleNotification [py!"+CRING: VOICE", py!"+CLIP: \"+2782\",145"] goodModem
    (handleNotification [py!"NO CARRIER"] goodModem (handleNotification [py!"+CRING: VOICE", py!"+CLIP: \"+2782\",145"] goodModem s).2).2).2

/-- So a call that nobody answered stays in the table for ever, and the next call from the same number is taken
for another ring of it. -/
theorem C112_missed_violated : (missedCall { lineState with callStatusUpdates := .none }).calls.map (fun c => (c.number, c.ringCount, c.active)) = [(some py!"+2782", 2, true)] ∧
    rungBack (missedCall { lineState with callStatusUpdates := .none }).callbacks = [0, 0] := by decide +kernel

/-! ### Examples -/

theorem clip_example (n : PyStr) (hn : Digits n) : ClipLine (py!"+CLIP: \"" ++ (n ++ py!"\",145")) n py!"145" :=
  ⟨[32], [], [], by simp, by simp [Spaces], .inl hn, by simp [Digits], by simp, by decide, .inl rfl⟩

def ringOf (n : PyStr) : List PyStr := [py!"+CRING: VOICE", py!"+CLIP: \"" ++ (n ++ py!"\",145")]

theorem ring_example {s : St} (h1 : s.callingLineIdentification = true) (h2 : s.extendedIncomingCallIndication = true) {n : PyStr} (hn : Digits n) : RingLines s (some n) (ringOf n) :=
  ⟨_, _, some py!"145", rfl, .inl ⟨h2, rfl⟩, .known h1 (clip_example n hn)⟩

theorem free_one {L : PhoneLine} (h : currentCalls L = []) : FreeId L 1 := by
  have := (one_distinguishable true L (.comes none) h).1
  rwa [h] at this

theorem says_cend {a : Nat} (ha : a ≤ 9) : Says .huawei (py!"^CEND:" ++ ([48 + a] ++ (py!"," ++ ([48 + 0] ++ (py!"," ++ (py!"104" ++ (py!"," ++ (py!"16" ++ [])))))))) (.ended a) :=
  .cend ha (by decide) (by simp [Digits]) (by simp [Digits]) (.inl rfl)

def ls1 : St := (handleNotification (ringOf py!"2782") goodModem lineState).2
def ls2 : St := (handleNotification (ringOf py!"2782") goodModem ls1).2
def ls3 : St := (answer 0 goodModem ls2).2
def ls4 : St := (handleNotification [py!"^CEND:1,0,104,16"] goodModem ls3).2
def ls5 : St := (dial py!"2783" 10 false [.notify [py!"^ORIG:1,0"]] goodModem ls4).2
def ls6 : St := (handleNotification [py!"^CONN:1,0"] goodModem ls5).2
def ls7 : St := handleLines goodModem [py!"^CEND:1,0,104,16"] (hangup 1 goodModem ls6).2

attribute [local instance] asciiUnicode in
/-- Somebody calls, it rings twice, the program answers, the caller hangs up; the program calls somebody, who
answers, and hangs up. -/
theorem line_example : Story goodModem OneAtATime [] lineState
    [.comes (some py!"2782"), .rings 0, .accepted 0, .ends 0, .dialled py!"2783", .taken 1, .hungUp 1]
    [⟨1, some py!"2782", true, 2, true, true⟩, ⟨1, some py!"2783", false, 0, true, true⟩] ls7 := by
  refine .next (L' := [⟨1, some py!"2782", true, 1, false, false⟩]) (s' := ls1) rfl (.comes (free_one rfl)) (.comes (ring_example rfl rfl (by simp [Digits]))) ?_
  refine .next (L' := [⟨1, some py!"2782", true, 2, false, false⟩]) (s' := ls2) trivial (.rings (c := ⟨1, some py!"2782", true, 1, false, false⟩) rfl rfl rfl rfl)
    (.rings (c := ⟨1, some py!"2782", true, 1, false, false⟩) rfl (ring_example (by decide +kernel) (by decide +kernel) (by simp [Digits]))) ?_
  refine .next (L' := [⟨1, some py!"2782", true, 2, true, false⟩]) (s' := ls3) trivial (.accepted (c := ⟨1, some py!"2782", true, 2, false, false⟩) rfl rfl rfl rfl)
    (.accepted (by decide +kernel)) ?_
  refine .next (L' := [⟨1, some py!"2782", true, 2, true, true⟩]) (s' := ls4) trivial (.ends (c := ⟨1, some py!"2782", true, 2, true, false⟩) rfl rfl)
    (.ends (c := ⟨1, some py!"2782", true, 2, true, false⟩) rfl ?_) ?_
  · rw [show ls3.callStatusUpdates = .huawei by decide +kernel]
    exact says_cend (a := 1) (by decide)
  refine .next (L' := [⟨1, some py!"2782", true, 2, true, true⟩, ⟨1, some py!"2783", false, 0, false, false⟩]) (s' := ls5) rfl (.dialled (free_one rfl))
    (.dialled (id := 1) (i := 1) (free_one rfl) (fun _ => ⟨py!"^ORIG:1,0", 0, rfl, ?_⟩) (by decide +kernel)) ?_
  · rw [show ls4.callStatusUpdates = .huawei by decide +kernel]
    exact .orig (a := 1) (b := 0) (t := []) (by decide) (by decide) (.inl rfl)
  refine .next (L' := [⟨1, some py!"2782", true, 2, true, true⟩, ⟨1, some py!"2783", false, 0, true, false⟩]) (s' := ls6) trivial
    (.taken (c := ⟨1, some py!"2783", false, 0, false, false⟩) rfl rfl rfl) (.taken (c := ⟨1, some py!"2783", false, 0, false, false⟩) rfl ?_) ?_
  · rw [show ls5.callStatusUpdates = .huawei by decide +kernel]
    exact .conn (a := 1) (b := 0) (t := []) (by decide) (by decide) (.inl rfl)
  have hs : Says ls6.callStatusUpdates py!"^CEND:1,0,104,16" (.ended 1) := by
    rw [show ls6.callStatusUpdates = .huawei by decide +kernel]
    exact says_cend (a := 1) (by decide)
  refine .next (L' := [⟨1, some py!"2782", true, 2, true, true⟩, ⟨1, some py!"2783", false, 0, true, true⟩]) (s' := ls7) trivial
    (.hungUp (c := ⟨1, some py!"2783", false, 0, true, false⟩) rfl rfl) (.hungUp (lines := [py!"^CEND:1,0,104,16"]) (by decide +kernel) ?_ ?_) .start
  · intro l hl
    rw [List.mem_singleton.1 hl]
    exact ⟨1, by decide, hs⟩
  · intro id hid
    have : id = 1 := by simpa [usedIds, currentCalls] using hid
    exact ⟨_, List.mem_singleton.2 rfl, this ▸ hs⟩

attribute [local instance] asciiUnicode in
example : rungBack ls7.callbacks = [0, 0] ∧ ls7.activeCalls = [] :=
  have h := C112_one_at_a_time (env := goodModem) (by decide) rfl rfl line_example
  ⟨h.2, h.1.table⟩

def vs1 : St := (handleNotification (ringOf py!"111") goodModem lineState).2
def vs2 : St := (handleNotification (ringOf py!"222") goodModem vs1).2
def vs3 : St := (handleNotification [py!"^CEND:1,0,104,16"] goodModem vs2).2
def vs4 : St := (handleNotification (ringOf py!"333") goodModem vs3).2
def vs5 : St := (handleNotification [py!"^CEND:2,0,104,16"] goodModem vs4).2

attribute [local instance] asciiUnicode in
/-- The program counts the calls, the modem gives the lowest free number: after the first of two calls has
ended, a third has the number 1 on the line and replaces the second in the table. When the second ends, the
program marks the third as over, which goes on ringing. -/
theorem C112_third_violated : ∃ L, Story goodModem (fun _ _ => True) [] lineState [.comes (some py!"111"), .comes (some py!"222"), .ends 0, .comes (some py!"333"), .ends 1] L vs5 ∧
    (L.map fun c => (c.number, c.over)) = [(some py!"111", true), (some py!"222", true), (some py!"333", false)] ∧
    (vs5.calls.map fun c => (c.number, c.active)) = [(some py!"111", false), (some py!"222", true), (some py!"333", false)] ∧ vs5.activeCalls = [] := by
  refine ⟨[⟨1, some py!"111", true, 1, false, true⟩, ⟨2, some py!"222", true, 1, false, true⟩, ⟨1, some py!"333", true, 1, false, false⟩], ?_, rfl, by decide +kernel, by decide +kernel⟩
  refine .next (L' := [⟨1, some py!"111", true, 1, false, false⟩]) (s' := vs1) trivial (.comes (free_one rfl)) (.comes (ring_example rfl rfl (by simp [Digits]))) ?_
  refine .next (L' := [⟨1, some py!"111", true, 1, false, false⟩, ⟨2, some py!"222", true, 1, false, false⟩]) (s' := vs2) trivial
    (.comes ⟨by decide, by decide, fun n h1 h2 => by obtain rfl : n = 1 := by omega
                                                     decide⟩)
    (.comes (ring_example (by decide +kernel) (by decide +kernel) (by simp [Digits]))) ?_
  refine .next (L' := [⟨1, some py!"111", true, 1, false, true⟩, ⟨2, some py!"222", true, 1, false, false⟩]) (s' := vs3) trivial
    (.ends (c := ⟨1, some py!"111", true, 1, false, false⟩) rfl rfl) (.ends (c := ⟨1, some py!"111", true, 1, false, false⟩) rfl ?_) ?_
  · rw [show vs2.callStatusUpdates = .huawei by decide +kernel]
    exact says_cend (a := 1) (by decide)
  refine .next (L' := [⟨1, some py!"111", true, 1, false, true⟩, ⟨2, some py!"222", true, 1, false, false⟩, ⟨1, some py!"333", true, 1, false, false⟩]) (s' := vs4) trivial
    (.comes ⟨by decide, by decide, fun n h1 h2 => by omega⟩)
    (.comes (ring_example (by decide +kernel) (by decide +kernel) (by simp [Digits]))) ?_
  refine .next (s' := vs5) trivial
    (.ends (c := ⟨2, some py!"222", true, 1, false, false⟩) rfl rfl) (.ends (c := ⟨2, some py!"222", true, 1, false, false⟩) rfl ?_) .start
  rw [show vs4.callStatusUpdates = .huawei by decide +kernel]
  exact says_cend (a := 2) (by decide)

end Gsm
