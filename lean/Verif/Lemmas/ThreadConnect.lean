import Verif.Model.ThreadConnect
import Verif.Lemmas.ThreadCallsFrame
import Verif.Props.ModemPin
/-! # Connecting in steps, without other threads -/
namespace Gsm
open M

variable {env : Env}

namespace Prog

theorem same_eq {α : Type} {p : Prog α} {m m' : M α} (h : Same p m) (he : m = m') : Same p m' := he ▸ h

theorem same_firstLine (ls : List PyStr) : Same (firstLine ls) (Gsm.firstLine ls) := same_ofExcept _
theorem same_manufacturer : Same manufacturer Gsm.manufacturer := same_bind (same_write _ _ _) fun _ => same_firstLine _

theorem same_supported : Same supportedCommands Gsm.supportedCommands :=
  same_except (same_bind (same_write _ _ _) fun _ => same_ite (same_bind (same_firstLine _) fun _ => same_pure _) (same_ite (same_pure _) (same_pure _))) fun _ => same_pure _

theorem same_getSmsc : Same getSmsc Gsm.getSmsc := by
  refine same_bind same_look fun s => ?_
  cases s.smscNumber with
  | some n => exact same_pure _
  | none =>
    refine same_bind (same_except (same_bind (same_write _ _ _) fun _ => same_pure _) fun _ => same_pure _) fun r => ?_
    cases r with
    | none => exact same_bind (same_pure ()) fun _ => same_bind same_look fun _ => same_pure _
    | some ls =>
      dsimp only [storeSmsc]
      rcases lineMatching (rxGroups cscaRegex) ls with _ | ⟨_ | ⟨a, _ | ⟨b, _ | ⟨c, g⟩⟩⟩⟩
      case some.cons.cons.nil => exact same_bind (same_change _) fun _ => same_bind same_look fun _ => same_pure _
      all_goals exact same_bind (same_pure ()) fun _ => same_bind same_look fun _ => same_pure _

theorem same_setSmsc (v : Option PyStr) : Same (setSmsc v) (Gsm.setSmsc v) := by
  intro env s
  unfold setSmsc Gsm.setSmsc
  rw [run_bind, Gsm.run_bind, same_look, run_get]
  dsimp only
  by_cases h : v ≠ s.smscNumber
  · rw [if_pos h, if_pos h, run_bind, same_look, run_get]
    dsimp only
    by_cases ha : s.alive = true
    · rw [if_pos ha, if_pos ha]
      exact same_bind (same_write _ _ _) (fun _ => same_change _) env s
    · rw [if_neg ha, if_neg ha]
      exact same_change _ env s
  · rw [if_neg h, if_neg h]; rfl

theorem same_askPin : Same askPin Gsm.askPin := by
  refine same_except (same_bind (same_write _ _ _) fun _ => same_pure _) fun e => ?_
  cases e with
  | timeout d =>
    cases d with
    | none => exact same_raise _
    | some data =>
      dsimp only
      cases lineStartingWith py!"+CPIN" data with
      | none => exact same_raise _
      | some l => exact same_pure _
  | _ => exact same_raise _

theorem same_unlock (pin : Option PyStr) : Same (unlockSim pin) (Gsm.unlockSim pin) := by
  refine same_bind same_askPin fun r => same_ite ?_ (same_pure _)
  cases pin with
  | none => exact same_raise _
  | some pin => exact same_bind (same_write _ _ _) fun _ => same_pure _

theorem same_rest (pin : Option PyStr) (b : Bool) : Same (connectRest pin b) (Gsm.connectRest pin b) :=
  same_bind (same_write _ _ _) fun _ => same_bind
    (same_except (same_bind (same_write _ _ _) fun _ => same_bind (same_ofExcept _) fun _ => same_ite (same_bind (same_write _ _ _) fun _ => same_pure _) (same_pure _)) fun _ => same_pure _)
    fun _ => same_bind (same_write _ _ _) fun _ => same_ite (same_unlock pin) (same_pure _)

theorem same_basics (pin : Option PyStr) : Same (connectBasics pin) (Gsm.connectBasics pin) := by
  refine same_bind (same_tryCommand (same_write _ _ _)) fun r => ?_
  cases r with
  | none => exact same_bind (same_write _ _ _) fun _ => same_bind (same_unlock pin) fun _ => same_bind (same_write _ _ _) fun _ => same_rest pin true
  | some _ => exact same_rest pin false

theorem same_identifyCommands (cs : List PyStr) : Same (identifyCommands cs) (Gsm.identifyCommands cs) := by
  unfold identifyCommands Gsm.identifyCommands writeIf
  dsimp only
  generalize cs.contains py!"^CVOICE" = a
  generalize cs.contains py!"+VTS" = b
  generalize cs.contains py!"^USSDMODE" = c
  cases a <;> cases b <;> cases c <;>
    simp only [Bool.false_eq_true, if_true, if_false] <;>
    intro env s <;>
    simp only [run_bind, Gsm.run_bind, same_write _ _ _ env, run_pure, same_pure _ env, same_change _ env, run_modify] <;>
    (try (generalize Gsm.write py!"AT^CVOICE=0" false [13] env s = x; obtain ⟨e | ls, s1⟩ := x <;> dsimp only)) <;>
    (try (generalize Gsm.write py!"AT^USSDMODE=0" false [13] env _ = x; obtain ⟨e | ls, s1⟩ := x <;> dsimp only))

theorem same_wind (h : Nat) : Same (identifyWind h) (Gsm.identifyWind h) := by
  refine same_bind (same_tryCommand (same_bind (same_write _ _ _) fun _ => same_pure _)) fun r => ?_
  cases r with
  | none => exact same_pure _
  | some wind =>
    dsimp only
    refine same_bind (same_ofExcept _) fun n => ?_
    dsimp only [writeIf]
    by_cases hn : n ≠ 50
    · rw [if_pos hn, if_pos (by simpa using hn)]
      intro env s
      simp only [run_bind, Gsm.run_bind, same_write _ _ _ env, same_pure _ env, run_pure]
      rcases Gsm.write py!"AT+WIND=50" true [13] env s with ⟨e | ls, s1⟩ <;> rfl
    · rw [if_neg hn, if_neg (by simpa using hn)]
      exact fun _ _ => rfl

theorem same_other (h : Nat) : Same (identifyOther h) (Gsm.identifyOther h) := by
  refine same_ite (same_bind same_manufacturer fun m => same_ite (same_pure _) (same_bind (same_tryCommand (same_write _ _ _)) fun r => ?_)) (same_pure _)
  cases r <;> exact same_pure _

theorem same_identify : Same connectIdentify Gsm.connectIdentify := by
  refine same_bind same_supported fun cs => ?_
  have h : ∀ r : Nat × Bool, Same (do
      let hint ← if r.2 then identifyWind r.1 else pure r.1
      let hint ← identifyOther hint
      pure (hint, cs)) (do
      let hint ← if r.2 then Gsm.identifyWind r.1 else pure r.1
      let hint ← Gsm.identifyOther hint
      pure (hint, cs)) := by
    rintro ⟨a, _ | _⟩
    · exact same_bind (same_pure a) fun _ => same_bind (same_other _) fun _ => same_pure _
    · exact same_bind (same_wind a) fun _ => same_bind (same_other _) fun _ => same_pure _
  cases cs with
  | none => exact same_bind (same_pure (0, true)) h
  | some cs => exact same_bind (same_identifyCommands cs) h

theorem same_callTable (h : Nat) (cs : Option (List PyStr)) : Same (connectCallTable h cs) (Gsm.connectCallTable h cs) := by
  intro env s
  unfold connectCallTable Gsm.connectCallTable assumeDtmf
  rw [run_modify]
  by_cases h1 : h = 1
  · rw [if_pos h1, if_pos h1]; rfl
  rw [if_neg h1, if_neg h1]
  by_cases h2 : h = 2
  · rw [if_pos h2, if_pos h2]; rfl
  rw [if_neg h2, if_neg h2]
  by_cases h3 : h = 3
  · rw [if_pos h3, if_pos h3]; rfl
  rw [if_neg h3, if_neg h3]; rfl

theorem same_connectMemory : Same connectMemory Gsm.connectMemory := by
  refine same_bind (same_tryCommand (same_bind (same_write _ _ _) fun _ => same_pure _)) fun r => ?_
  rcases r with _ | _ | l
  · exact same_change _
  · exact same_raise _
  · dsimp only [chooseMemory]
    cases afterSpace l with
    | none => exact same_raise _
    | some rest =>
      refine same_ite (same_change _) ?_
      cases (pySplit py!"),(" rest).head?.bind preferredMemory with
      | none => exact same_bind (same_pure ()) fun _ => same_bind (same_write _ _ _) fun _ => same_pure _
      | some m => exact same_bind (same_change _) fun _ => same_bind (same_write _ _ _) fun _ => same_pure _

theorem same_connectSms : Same connectSms Gsm.connectSms := by
  refine same_bind (same_write _ _ _) fun _ => same_bind same_look fun _ => same_bind (same_write _ _ _) fun _ => ?_
  have hk : ∀ r : Option PyStr, Same (keepSmsc r) (do
      if r ≠ none then M.modify fun s => { s with smscNumber := none }
      let _ ← Gsm.write py!"AT+CSMP=49,167,0,0" false
      if r ≠ none then
        let now ← Gsm.getSmsc
        if now ≠ r then Gsm.setSmsc r) := by
    intro r
    cases r with
    | none => exact same_bind (same_write _ _ _) fun _ => same_pure _
    | some n => exact same_bind (same_change _) fun _ => same_bind (same_write _ _ _) fun _ => same_bind same_getSmsc fun _ => same_ite (same_setSmsc _) (same_pure _)
  intro env s
  unfold firstSmsc
  rw [Gsm.run_bind, run_get]
  dsimp only
  rw [run_bind, run_look]
  cases hs : s.smscNumber with
  | none =>
    dsimp only
    rw [Gsm.run_bind, same_getSmsc]
    rcases Gsm.getSmsc env s with ⟨e | r, s1⟩
    · rfl
    · exact hk r env s1
  | some n =>
    dsimp only
    simp only [run_bind, Gsm.run_bind, same_write _ _ _ env, same_pure _ env, run_pure]
    rcases Gsm.write (cscaCmd n) true [13] env s with ⟨e | ls, s1⟩
    · rfl
    · exact hk (some n) env s1

theorem same_notifyCalls : Same notifyCalls (do
    match ← M.tryCommand (Gsm.write py!"AT+CLIP=1") with
    | none => M.modify fun s => { s with callingLineIdentification := false }
    | some _ =>
      M.modify fun s => { s with callingLineIdentification := true }
      match ← M.tryCommand (Gsm.write py!"AT+CRC=1") with
      | none => M.modify fun s => { s with extendedIncomingCallIndication := false }
      | some _ => M.modify fun s => { s with extendedIncomingCallIndication := true }) := by
  refine same_bind (same_tryCommand (same_write _ _ _)) fun r => ?_
  cases r with
  | none => exact same_change _
  | some _ =>
    refine same_bind (same_change _) fun _ => same_bind (same_tryCommand (same_write _ _ _)) fun r => ?_
    cases r <;> exact same_change _

theorem same_connectNotifications : Same connectNotifications Gsm.connectNotifications := by
  have htail : Same (do
      notifyCalls
      let _ ← write py!"AT+CVHU=0" false
      pure ()) (do
      match ← M.tryCommand (Gsm.write py!"AT+CLIP=1") with
      | none => M.modify fun s => { s with callingLineIdentification := false }
      | some _ =>
        M.modify fun s => { s with callingLineIdentification := true }
        match ← M.tryCommand (Gsm.write py!"AT+CRC=1") with
        | none => M.modify fun s => { s with extendedIncomingCallIndication := false }
        | some _ => M.modify fun s => { s with extendedIncomingCallIndication := true }
      let _ ← Gsm.write py!"AT+CVHU=0" false) := by
    intro env s
    rw [run_bind, same_notifyCalls]
    simp only [Gsm.run_bind]
    rcases M.tryCommand (Gsm.write py!"AT+CLIP=1") env s with ⟨e | r, s1⟩
    · rfl
    · cases r with
      | none =>
        dsimp only
        simp only [Gsm.run_bind, run_modify, run_bind, same_write _ _ _ env, same_pure _ env, run_pure]
        generalize Gsm.write py!"AT+CVHU=0" false [13] env _ = x
        obtain ⟨e | ls, s3⟩ := x <;> rfl
      | some _ =>
        dsimp only
        simp only [Gsm.run_bind, run_modify]
        rcases M.tryCommand (Gsm.write py!"AT+CRC=1") env _ with ⟨e | r, s2⟩
        · rfl
        · cases r <;> dsimp only <;> simp only [Gsm.run_bind, run_modify, run_bind, same_write _ _ _ env, same_pure _ env, run_pure] <;>
            generalize Gsm.write py!"AT+CVHU=0" false [13] env _ = x <;> obtain ⟨e | ls, s3⟩ := x <;> rfl
  intro env s
  unfold connectNotifications Gsm.connectNotifications notifyMessages
  rw [run_bind, run_look, Gsm.run_bind, run_get]
  dsimp only
  by_cases h : s.smsReadSupported = true
  · rw [if_pos h, if_pos h, run_bind, same_tryCommand (same_write _ _ _), Gsm.run_bind]
    rcases M.tryCommand (Gsm.write py!"AT+CNMI=2,1,0,2") env s with ⟨e | r, s1⟩
    · rfl
    · cases r with
      | none => exact htail env _
      | some _ => exact htail env s1
  · rw [if_neg h, if_neg h]
    exact htail env s

theorem same_connect (pin : Option PyStr) : Same (connect pin) (Gsm.connect pin) :=
  same_bind (same_change _) fun _ => same_bind (same_basics pin) fun _ => same_bind same_identify fun r => same_bind (same_callTable _ _) fun _ =>
    same_bind same_connectSms fun _ => same_bind same_connectMemory fun _ => same_connectNotifications

end Prog
end Gsm
