import Verif.Lemmas.Idle
import Verif.Props.ModemReference
import Verif.Props.ModemDelivery
import Verif.Props.CallLine
/-! # Property C118: after every history nothing is awaited; what is remembered -/
namespace Gsm
open M Spec

variable {env : Env}

/-! ### Nothing is awaited -/

theorem iw_connect (pin : Option PyStr) : Steps env SameWaits (connect pin) := by
  have h1 : Steps env SameWaits (unlockSim pin) := by unfold unlockSim; idles
  have h2 : ∀ b, Steps env SameWaits (connectRest pin b) := by intro b; unfold connectRest; idles
  have h3 : Steps env SameWaits (connectBasics pin) := by unfold connectBasics; idles <;> exact h2 _
  have h4 : Steps env SameWaits supportedCommands := iw_supportedCommands
  have h5 : ∀ cs, Steps env SameWaits (identifyCommands cs) := by intro cs; unfold identifyCommands; idles
  have h6 : ∀ h, Steps env SameWaits (identifyWind h) := by intro cs; unfold identifyWind; idles
  have h7 : ∀ h, Steps env SameWaits (identifyOther h) := by intro cs; unfold identifyOther manufacturer; idles
  have h8 : Steps env SameWaits connectIdentify := by
    unfold connectIdentify; idles <;> first | exact h5 _ | exact h6 _ | exact h7 _
  have h9 : ∀ h cs, Steps env SameWaits (connectCallTable h cs) := by
    intro h cs
    unfold connectCallTable
    refine Steps.modify fun s => ?_
    repeat' split
    all_goals exact frame_same rfl rfl
  have h10 : Steps env SameWaits getSmsc := iw_getSmsc
  have h11 : ∀ n, Steps env SameWaits (setSmsc n) := iw_setSmsc
  have h12 : Steps env SameWaits connectSms := by unfold connectSms; idles <;> exact h11 _
  have h13 : Steps env SameWaits connectMemory := by unfold connectMemory; idles
  have h14 : Steps env SameWaits connectNotifications := by unfold connectNotifications; idles
  unfold connect; idles
  exact h9 _ _

/-- A method that does not wait leaves what is awaited as it is, whatever happens: it neither takes away
a notification that another thread waits for nor makes the program wait. -/
theorem C118_others [PyUnicode] {op : Op} (h : Waiting op = false) (s : St) : waits (op.run env s).2 = waits s := ((iw_op h).run s).2

/-- Connecting, in success or failure, leaves nothing awaited. -/
theorem C118_connect (pin : Option PyStr) {s : St} (h : Idle s) : Idle (connect pin env s).2 := (sameWaits_idle ((iw_connect pin).run s)).1.1 h

/-- After any history, whatever the modem answered, what was refused, not answered, or not announced in
time, and whatever exceptions were raised, nothing is awaited any more. -/
theorem C118_idle [PyUnicode] : ∀ (ops : List Op) {s : St}, Idle s → Idle (runOps env ops s)
  | [], _, h => h
  | op :: ops, _, h => C118_idle ops (idle_op op h)

/-- So a delivery report that comes then and can be read goes to the callback; it does not disappear in a wait that is over. -/
theorem C118_report [PyUnicode] {s : St} (h : Idle s) (ops : List Op) {line mem idx : PyStr} (hl : StoredAt py!"+CDSI:" line mem idx)
    (hok : (handleSmsStatusReport line env (runOps env ops s)).1 = .ok ()) :
    ∃ report, (handleSmsStatusReport line env (runOps env ops s)).2.callbacks = .statusReport report :: (runOps env ops s).callbacks := by
  have hi := (C118_idle (env := env) ops h).2.1
  have he := C71_report (env := env) line (runOps env ops s)
  generalize runOps env ops s = t at *
  generalize handleSmsStatusReport line env t = r at *
  obtain ⟨r, s2⟩ := r
  cases he with
  | other hn => exact absurd hl (hn _ _)
  | failed => cases hok
  | message => cases hok
  | woken _ hw => exact absurd hi hw
  | passed hf _ =>
    obtain ⟨_, _, _, _, _, _, _, _, hf⟩ := hf
    obtain ⟨_, _, _, rfl⟩ := Fetched.only hf
    exact ⟨_, rfl⟩

/-- And a USSD answer, or the start of a call, changes nothing. -/
theorem C118_late [PyUnicode] {s : St} (h : Idle s) (ops : List Op) (lines : List PyStr) (callId callType : Int) :
    handleUssd lines env (runOps env ops s) = (.ok (), runOps env ops s) ∧
    handleCallInitiated callId callType env (runOps env ops s) = (.ok (), runOps env ops s) := by
  obtain ⟨h1, _, h3⟩ := C118_idle (env := env) ops h
  constructor
  · simp [handleUssd, run_bind, run_get, h1, run_pure]
  · simp [handleCallInitiated, run_bind, run_get, h3, run_pure]

attribute [local instance] asciiUnicode in
/-- A history in which every wait ends without its notification; the state in the middle of a wait is not idle. -/
example : Idle {} ∧ ¬ Idle { ussdSessionEvent := some false } ∧
    Idle (runOps goodModem [.ussd py!"*100#" [], .dial py!"123" 3 true [], .sendWait py!"12" py!"Hi" false [] []] {}) ∧
    (sendUssd py!"*100#" [] goodModem {}).1 = .error (.timeout none) := by
  unfold Idle; decide +kernel

/-! ### What is remembered -/

theorem nodup_length : ∀ {l m : List Int}, l.Nodup → (∀ x ∈ l, x ∈ m) → l.length ≤ m.length
  | [], _, _, _ => by simp
  | x :: l, m, h, hs => by
    rw [List.nodup_cons] at h
    have hx := hs x (by simp)
    have := nodup_length (m := m.erase x) h.2 fun y hy => (List.mem_erase_of_ne (fun (e : y = x) => h.1 (e ▸ hy))).2 (hs y (by simp [hy]))
    have hp : 0 < m.length := List.length_pos_of_mem hx
    rw [List.length_erase_of_mem hx] at this
    simp only [List.length_cons]
    omega

/-- The references in the table are different, and each was given to a message. -/
def KnownReferences (s : St) : Prop := (s.sentSms.map (·.1)).Nodup ∧ ∀ k ∈ s.sentSms.map (·.1), SmsEvent.sent k ∈ s.smsTrace

theorem known_atom (a b : St) (h : Atom env a b) (ha : KnownReferences a) : KnownReferences b := by
  rcases atom_sms h with h | ⟨d, t, r, rfl⟩ | ⟨st, r, ds, n, t1, t2, rfl⟩
  · simp only [smsPart, Prod.mk.injEq] at h
    unfold KnownReferences
    rw [h.2.1, h.2.2.2]
    exact ha
  · refine ⟨dictSet_nodup ha.1, fun k hk => ?_⟩
    simp only [recordSent, run_modify, dictSet_keys] at hk ⊢
    split at hk
    · exact List.mem_cons_of_mem _ (ha.2 k hk)
    · rcases List.mem_append.1 hk with hk | hk
      · exact List.mem_cons_of_mem _ (ha.2 k hk)
      · rw [List.mem_singleton.1 hk]; exact List.mem_cons_self
  · exact ⟨ha.1, fun k hk => List.mem_cons_of_mem _ (ha.2 k hk)⟩

/-- However many messages are sent, at most 256 are remembered, as long as the modem numbers them with an octet. -/
theorem C118_messages [PyUnicode] {s : St} (h : Fresh s) (ops : List Op)
    (hr : ∀ r, SmsEvent.sent r ∈ (runOps env ops s).smsTrace → 0 ≤ r ∧ r ≤ 255) : (runOps env ops s).sentSms.length ≤ 256 := by
  have hk : KnownReferences (runOps env ops s) := runOps_inv known_atom ops (by simp [KnownReferences, h.2.1])
  have := nodup_length (m := (List.range 256).map fun n : Nat => (n : Int)) hk.1 fun x hx => by
    have := hr x (hk.2 x hx)
    exact List.mem_map.2 ⟨x.toNat, List.mem_range.2 (by omega), by omega⟩
  simpa using this

/-- The numbers from 0 on call, one after another, and nobody answers. -/
def missedCalls (n : Nat) : List Op := (List.range n).map fun k => .event (.notify (ringOf (decStr k)))

theorem runOps_split [PyUnicode] : ∀ (a b : List Op) (s : St), runOps env (a ++ b) s = runOps env b (runOps env a s)
  | [], _, _ => rfl
  | x :: a, b, s => runOps_split a b (x.run env s).2

theorem decStr_inj {a b : Nat} (h : decStr a = decStr b) : a = b := by
  have := congrArg decVal h
  rwa [decVal_decStr, decVal_decStr] at this

/-- There is no bound for calls: on modems that do not report the ends of calls, every number that was missed stays in
the table. -/
theorem C118_calls_violated [PyUnicode] (hd : 0 < env.depth) {s : St} (h1 : s.callingLineIdentification = true) (h2 : s.extendedIncomingCallIndication = true)
    (h3 : s.activeCalls = []) (n : Nat) : (runOps env (missedCalls n) s).activeCalls.length = n := by
  have key : ∀ n : Nat, let t := runOps env (missedCalls n) s
      t.activeCalls.length = n ∧ t.callingLineIdentification = true ∧ t.extendedIncomingCallIndication = true ∧ TableOk t ∧
      (∀ k : Int, k ∈ t.activeCalls.map (·.1) → 1 ≤ k ∧ k ≤ n) ∧
      ∀ x ∈ t.activeCalls, ∃ c, t.calls[x.2]? = some c ∧ ∃ j < n, c.number = some (decStr j) := by
    intro n
    induction n with
    | zero => exact ⟨by simp [missedCalls, runOps, h3], h1, h2, by simp [missedCalls, runOps, TableOk, h3], by simp [missedCalls, runOps, h3], by simp [missedCalls, runOps, h3]⟩
    | succ n ih =>
      have he : missedCalls (n + 1) = missedCalls n ++ [.event (.notify (ringOf (decStr n)))] := by
        simp [missedCalls, List.range_succ]
      dsimp only at ih ⊢
      rw [he, runOps_split]
      generalize runOps env (missedCalls n) s = t at ih
      obtain ⟨i1, i2, i3, i4, i5, i6⟩ := ih
      have hrun : runOps env [.event (.notify (ringOf (decStr n)))] t = (handleNotification (ringOf (decStr n)) env t).2 := rfl
      rw [hrun]
      have hdig : Digits (decStr n) := ⟨decStr_ne_nil n, fun c hc => isD_iff.1 (decStr_digits n c hc)⟩
      obtain ⟨ton, type, r, ht, hR⟩ := rung hd i4 (ring_example i2 i3 hdig)
      have hnone : callsFrom t (some (decStr n)) = [] := by
        rw [callsFrom, List.filter_eq_nil_iff]
        intro i hi
        obtain ⟨x, hx, rfl⟩ := List.mem_map.1 hi
        obtain ⟨c, hc, j, hj, hn⟩ := i6 x hx
        rw [hc]
        simp only [Option.any_some, beq_iff_eq, hn, Option.some.injEq]
        intro e
        have := decStr_inj e
        omega
      have hnew : ((n + 1 : Nat) : Int) ∉ t.activeCalls.map (·.1) := fun hk => by
        have := i5 _ hk; omega
      have key : ∀ v, ∀ t' : St, t' = { addCall t (newIncoming (some (decStr n)) ton (t.activeCalls.length + 1) v) with callbacks := .incomingCall t.calls.length :: t.callbacks } →
          t'.activeCalls.length = n + 1 ∧ t'.callingLineIdentification = true ∧ t'.extendedIncomingCallIndication = true ∧ TableOk t' ∧
          (∀ k : Int, k ∈ t'.activeCalls.map (·.1) → 1 ≤ k ∧ k ≤ (n + 1 : Nat)) ∧
          ∀ x ∈ t'.activeCalls, ∃ c, t'.calls[x.2]? = some c ∧ ∃ j < n + 1, c.number = some (decStr j) := by
        rintro v _ rfl
        have ha : dictSet t.activeCalls ((t.activeCalls.length : Int) + 1) t.calls.length = t.activeCalls ++ [(((n + 1 : Nat) : Int), t.calls.length)] := by
          rw [i1, show ((n : Int) + 1) = ((n + 1 : Nat) : Int) by omega]
          exact dictSet_fresh hnew
        have hold : ∀ {i : Nat} {c : CallObj}, t.calls[i]? = some c → ∀ d : CallObj, (t.calls ++ [d])[i]? = some c := by
          intro i c hc d
          rw [List.getElem?_append_left (by
            rcases Nat.lt_or_ge i t.calls.length with h | h
            · exact h
            · rw [List.getElem?_eq_none h] at hc; cases hc)]
          exact hc
        simp only [addCall, newIncoming, ha]
        refine ⟨by simp [i1], i2, i3, ⟨?_, ?_⟩, ?_, ?_⟩
        · rw [List.map_append, List.nodup_append]
          refine ⟨i4.1, by simp, ?_⟩
          intro a ha b hb
          simp at hb
          rintro rfl
          exact hnew (by rw [← show a = ((n + 1 : Nat) : Int) by omega]; exact ha)
        · intro k i hk
          rcases List.mem_append.1 hk with hk | hk
          · obtain ⟨c, hc, hc2⟩ := i4.2 k i hk
            exact ⟨c, hold hc _, hc2⟩
          · simp at hk
            obtain ⟨rfl, rfl⟩ := hk
            exact ⟨_, List.getElem?_concat_length .., by simp [i1], rfl⟩
        · intro k hk
          rw [List.map_append] at hk
          rcases List.mem_append.1 hk with hk | hk
          · have := i5 k hk; omega
          · simp at hk; omega
        · intro x hx
          rcases List.mem_append.1 hx with hx | hx
          · obtain ⟨c, hc, j, hj, hn⟩ := i6 x hx
            exact ⟨c, hold hc _, j, by omega, hn⟩
          · simp at hx
            subst hx
            exact ⟨_, List.getElem?_concat_length .., n, by omega, rfl⟩
      generalize (handleNotification (ringOf (decStr n)) env t).2 = t' at hR
      cases hR with
      | more hj _ => rw [hnone] at hj; cases hj
      | ours hj _ _ => rw [hnone] at hj; simp at hj
      | new _ _ => exact key false _ rfl
      | newVoice _ _ => exact key true _ rfl
      | otherType _ ht' hne =>
        rcases ht with rfl | rfl
        · cases ht'
        · cases ht'; exact absurd rfl hne
  exact (key n).1

attribute [local instance] asciiUnicode in
example : (runOps goodModem (missedCalls 3) { lineState with callStatusUpdates := .none }).activeCalls = [(1, 0), (2, 1), (3, 2)] := by decide +kernel
attribute [local instance] asciiUnicode in
example : (runOps (cmgsModem py!"+CMGS: 5") [.send py!"12" py!"Hi" false, .send py!"12" py!"Ho" false] {}).sentSms.length = 1 ∧
    (runOps (cmgsModem py!"+CMGS: 5") [.send py!"12" py!"Hi" false, .send py!"12" py!"Ho" false] {}).smsTrace = [.sent 5, .sent 5] := by decide +kernel

end Gsm
