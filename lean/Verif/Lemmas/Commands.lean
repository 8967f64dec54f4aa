import Verif.Spec.Commands
import Verif.Lemmas.ModemSteps
import Verif.Lemmas.ModemFrame
/-! # How many commands the methods send -/
namespace Gsm
open M Spec

/-- A write sends at most `b` commands. -/
def WritesAtMost (env : Env) (b : Nat) : Prop := 1 ≤ b ∧ ∀ data pe term s, (write data pe term env s).2.log.length ≤ s.log.length + b

/-- A program writes at most `n` times. -/
structure Cost {α : Type} (env : Env) (b n : Nat) (m : M α) : Prop where
  run : ∀ s, (m env s).2.log.length ≤ s.log.length + n * b

variable {env : Env} {b n : Nat} {α β : Type}

theorem writeN_length {data term : PyStr} {pe : Bool} : ∀ (d : Nat) (s : St), (writeN d data pe term env s).2.log.length ≤ s.log.length + d
  | 0, s => by simp [writeN, M.raise]
  | d + 1, s => by
    simp only [writeN]
    split
    · simp
    · split
      · simp
      · split
        · split
          · simp
          · simp
          · have := writeN_length (data := data) (term := term) (pe := pe) d { s with log := (data ++ term) :: s.log, writeWait := s.writeWait + 2 }
            split <;> next he => rw [he] at this; simp at this ⊢; omega
        · simp

theorem writes_depth (hd : 0 < env.depth) : WritesAtMost env env.depth := ⟨hd, fun _ _ _ s => writeN_length env.depth s⟩

theorem writeN_never (h : NeverBusy env.reply) {data term : PyStr} {pe : Bool} : ∀ (d : Nat) (s : St), (writeN d data pe term env s).2.log.length ≤ s.log.length + 1
  | 0, s => by simp [writeN, M.raise]
  | d + 1, s => by
    simp only [writeN]
    split
    · simp
    · next ls hr =>
      split
      · simp
      · next line hl =>
        split
        · split
          · simp
          · simp
          · next code hc =>
            obtain ⟨m, -, hb⟩ := busy_of_classify hc
            exact absurd ⟨m, ls, line, hr, hl, hb⟩ (h _)
        · simp

theorem writes_once (h : NeverBusy env.reply) : WritesAtMost env 1 := ⟨by omega, fun _ _ _ s => writeN_never h env.depth s⟩

theorem Cost.mono {k : Nat} {m : M α} (h : Cost env b k m) (hk : k ≤ n) : Cost env b n m :=
  ⟨fun s => Nat.le_trans (h.run s) (Nat.add_le_add_left (Nat.mul_le_mul_right b hk) _)⟩
theorem Cost.free {m : M α} (h : ∀ s, (m env s).2.log = s.log) : Cost env b n m := ⟨fun s => by rw [h]; omega⟩
theorem Cost.pure (a : α) : Cost env b n (pure a : M α) := .free fun _ => rfl
theorem Cost.get : Cost env b n M.get := .free fun _ => rfl
theorem Cost.raise (e : PyErr) : Cost env b n (M.raise e : M α) := .free fun _ => rfl
theorem Cost.modify {f : St → St} (h : ∀ s, (f s).log = s.log) : Cost env b n (M.modify f) := .free h
theorem Cost.ofExcept (e : Except PyErr α) : Cost env b n (M.ofExcept e) := by
  cases e with
  | ok a => exact .pure a
  | error e => exact .raise e
theorem Cost.firstLine (ls : List PyStr) : Cost env b n (firstLine ls) := .ofExcept _

/-- One after the other, the second knowing something about the result of the first. -/
theorem Cost.bindQ {k l : Nat} {Q : α → Prop} {m : M α} {f : α → M β} (hm : Cost env b k m) (hQ : ∀ s a s', m env s = (.ok a, s') → Q a) (hf : ∀ a, Q a → Cost env b l (f a))
    (h : k + l ≤ n) : Cost env b n (m >>= f) := by
  refine .mono (k := k + l) ⟨fun s => ?_⟩ h
  have h1 := hm.run s
  show (match m env s with | (.ok a, s) => f a env s | (.error e, s) => (.error e, s)).2.log.length ≤ _
  rw [Nat.add_mul]
  split
  · next a s' he =>
    rw [he] at h1
    have h2 := (hf a (hQ s a s' he)).run s'
    simp only at h1
    omega
  · next e s' he => rw [he] at h1; simp only at h1 ⊢; omega
theorem Cost.bind {k l : Nat} {m : M α} {f : α → M β} (hm : Cost env b k m) (hf : ∀ a, Cost env b l (f a)) (h : k + l ≤ n) : Cost env b n (m >>= f) :=
  .bindQ (Q := fun _ => True) hm (fun _ _ _ _ => trivial) (fun a _ => hf a) h
theorem Cost.then {m : M α} {f : α → M β} (hm : Cost env b 0 m) (hf : ∀ a, Cost env b n (f a)) : Cost env b n (m >>= f) := .bind hm hf (by omega)
theorem Cost.after {m : M α} {f : α → M β} (hm : Cost env b n m) (hf : ∀ a, Cost env b 0 (f a)) : Cost env b n (m >>= f) := .bind hm hf (by omega)
theorem Cost.one {m : M α} {f : α → M β} (hm : Cost env b 1 m) (hf : ∀ a, Cost env b n (f a)) : Cost env b (n + 1) (m >>= f) := .bind hm hf (by omega)
theorem Cost.except {k l : Nat} {m : M α} {p : PyErr → Bool} {h : PyErr → M α} (hm : Cost env b k m) (hh : ∀ e, Cost env b l (h e)) (hk : k + l ≤ n) :
    Cost env b n (M.except m p h) := by
  refine .mono (k := k + l) ⟨fun s => ?_⟩ hk
  have h1 := hm.run s
  unfold M.except
  rw [Nat.add_mul]
  split
  · next a s' he => rw [he] at h1; simp only at h1 ⊢; omega
  · next e s' he =>
    rw [he] at h1
    simp only at h1
    split
    · have := (hh e).run s'; omega
    · simp only; omega
theorem Cost.caught {m : M α} {p : PyErr → Bool} {h : PyErr → M α} (hm : Cost env b n m) (hh : ∀ e, Cost env b 0 (h e)) : Cost env b n (M.except m p h) :=
  .except hm hh (by omega)
theorem Cost.tryCommand {m : M α} (hm : Cost env b n m) : Cost env b n (M.tryCommand m) := .caught (.after hm fun _ => .pure _) fun _ => .pure _
theorem Cost.ite {c : Prop} [Decidable c] {x y : M α} (hx : c → Cost env b n x) (hy : ¬ c → Cost env b n y) : Cost env b n (if c then x else y) := by
  split
  · next h => exact hx h
  · next h => exact hy h
theorem Cost.write (W : WritesAtMost env b) {data term : PyStr} {pe : Bool} : Cost env b (n + 1) (write data pe term) := by
  refine .mono (k := 1) ⟨fun s => ?_⟩ (by omega)
  have := W.2 data pe term s
  omega
theorem Cost.writeNoWait (W : WritesAtMost env b) (data : PyStr) : Cost env b (n + 1) (writeNoWait data) := by
  refine .mono (k := 1) ⟨fun s => ?_⟩ (by omega)
  have := W.1
  show ((data ++ [13]) :: s.log).length ≤ _
  simp only [List.length_cons]
  omega
theorem Cost.assoc {γ : Type} {m : M α} {f : α → M β} {g : β → M γ} (h : Cost env b n ((m >>= f) >>= g)) : Cost env b n (m >>= fun a => f a >>= g) := by
  have e : (m >>= fun a => f a >>= g) = ((m >>= f) >>= g) := by
    funext env s
    simp only [run_bind]
    rcases m env s with ⟨_ | a, s1⟩ <;> rfl
  rw [e]
  exact h
theorem Cost.discard {m : M α} (h : Cost env b n m) : Cost env b n (discard m) := .after h fun _ => .pure _

theorem Cost.modifyThen {g : St → St} {f : Unit → M α} (h : ∀ s, (g s).log = s.log) (hf : ∀ a, Cost env b n (f a)) : Cost env b n (M.modify g >>= f) :=
  .then (.modify h) hf

/-- Straight through a method. -/
macro "costs " W:term : tactic => `(tactic| repeat' first
  | with_reducible exact Cost.pure _
  | with_reducible exact Cost.get
  | with_reducible exact Cost.raise _
  | with_reducible exact Cost.ofExcept _
  | with_reducible exact Cost.firstLine _
  | with_reducible apply Cost.write $W
  | with_reducible apply Cost.writeNoWait $W
  | (with_reducible apply Cost.modify; intro s; first | rfl | (split <;> rfl))
  | (with_reducible apply Cost.then (Cost.pure _); intro _)
  | (with_reducible apply Cost.then Cost.get; intro _)
  | (with_reducible refine Cost.modifyThen ?_ ?_; (intro _; rfl); intro _)
  | (with_reducible apply Cost.then (Cost.ofExcept _); intro _)
  | (with_reducible apply Cost.then (Cost.firstLine _); intro _)
  | (with_reducible apply Cost.one (Cost.write (n := 0) $W); intro _)
  | (with_reducible apply Cost.one (Cost.tryCommand (Cost.write (n := 0) $W)); intro _)
  | (with_reducible apply Cost.one (Cost.tryCommand (Cost.after (Cost.write (n := 0) $W) fun _ => Cost.pure _)); intro _)
  | (with_reducible apply Cost.ite <;> intro _)
  | dsimp only
  | split)

theorem post_bind {m : M α} {f : α → M β} {Q : β → Prop} (h : ∀ a s x s', f a env s = (.ok x, s') → Q x) {s s' : St} {x : β} (hr : (m >>= f) env s = (.ok x, s')) : Q x := by
  rw [run_bind] at hr
  split at hr
  · exact h _ _ _ _ hr
  · cases hr

theorem post_pure {a x : α} {s s' : St} (h : (pure a : M α) env s = (.ok x, s')) : x = a := by
  have h1 := congrArg Prod.fst h
  exact (Except.ok.inj h1).symm

theorem post_commands (cs : List PyStr) {s s' : St} {p : Nat × Bool} (h : identifyCommands cs env s = (.ok p, s')) : p.2 = true → p.1 = 2 := by
  unfold identifyCommands at h
  generalize cs.contains py!"^CVOICE" = b1 at h
  generalize cs.contains py!"+VTS" = b2 at h
  generalize cs.contains py!"^USSDMODE" = b3 at h
  generalize cs.contains py!"+WIND" = b4 at h
  generalize cs.contains py!"+ZPAS" = b5 at h
  generalize cs.contains py!"^DTMF" = b6 at h
  have hend : ∀ (s s' : St) (p : Nat × Bool), (pure (if b4 then (2, true)
    else if b5 then (3, false)
    else if !b2 && b6 then (1, false)
    else (0, false)) : M (Nat × Bool)) env s = (.ok p, s') → p.2 = true → p.1 = 2 := by
    intro s s' p h
    have := post_pure h
    subst this
    cases b4 <;> cases b5 <;> cases b2 <;> cases b6 <;> simp
  generalize (pure (if b4 then (2, true)
    else if b5 then (3, false)
    else if !b2 && b6 then (1, false)
    else (0, false)) : M (Nat × Bool)) = m at h hend
  cases b1 <;> cases b2 <;> cases b3 <;> simp only [if_true, if_false, Bool.false_eq_true] at h
  all_goals revert h
  all_goals repeat' first
    | with_reducible exact hend _ _ _
    | exact fun h => post_bind (Q := fun p : Nat × Bool => p.2 = true → p.1 = 2) (fun _ s x s' => hend s s' x) h
    | (refine fun h => post_bind (Q := fun p : Nat × Bool => p.2 = true → p.1 = 2) (fun a s x s' => ?_) h; try dsimp only)

section
variable (W : WritesAtMost env b)
include W

theorem cost_textMode (v : Bool) : Cost env b 1 (setSmsTextMode v) := by unfold setSmsTextMode; costs W
theorem cost_memory (m w : Option PyStr) : Cost env b (selecting m) (setSmsMemory m w) := by
  unfold setSmsMemory
  cases m <;> simp only [selecting] <;> costs W
theorem cost_getSmsc : Cost env b 1 getSmsc := by
  unfold getSmsc
  refine .then .get fun s => ?_
  split
  · costs W
  · refine .bind (k := 1) (l := 0) (.caught ?_ fun _ => .pure _) (fun r => ?_) (by omega) <;> costs W
theorem cost_setSmsc (v : Option PyStr) : Cost env b 1 (setSmsc v) := by unfold setSmsc; costs W
theorem cost_unlock (pin : Option PyStr) : Cost env b 2 (unlockSim pin) := by
  unfold unlockSim
  refine .bind (k := 1) (l := 1) (.caught ?_ fun _ => ?_) (fun r => ?_) (by omega) <;> costs W
theorem cost_rest (pin : Option PyStr) (c : Bool) : Cost env b (if c then 4 else 6) (connectRest pin c) := by
  unfold connectRest
  refine .bind (k := 1) (l := if c then 3 else 5) (.write W) (fun _ => ?_) (by split <;> omega)
  refine .bind (k := 2) (l := if c then 1 else 3) (.caught ?_ fun _ => ?_) (fun _ => ?_) (by split <;> omega)
  · costs W
  · costs W
  refine .bind (k := 1) (l := if c then 0 else 2) (.write W) (fun _ => ?_) (by split <;> omega)
  cases c
  · exact cost_unlock W pin
  · exact .pure _
theorem cost_basics (pin : Option PyStr) : Cost env b 9 (connectBasics pin) := by
  unfold connectBasics
  refine .one (.tryCommand (.write (n := 0) W)) fun r => ?_
  cases r
  · refine .one (.write (n := 0) W) fun _ => ?_
    refine .bind (k := 2) (l := 5) (cost_unlock W pin) (fun _ => ?_) (by omega)
    refine .one (.write (n := 0) W) fun _ => ?_
    exact cost_rest W pin true
  · exact (cost_rest W pin false).mono (by simp)
theorem cost_supported : Cost env b 1 supportedCommands := by
  unfold supportedCommands
  refine .caught ?_ fun _ => .pure _
  costs W
theorem cost_commands (cs : List PyStr) : Cost env b 2 (identifyCommands cs) := by unfold identifyCommands; costs W
theorem cost_other (h : Nat) : Cost env b (if h = 0 then 2 else 0) (identifyOther h) := by
  unfold identifyOther manufacturer
  split
  · refine .bind (k := 1) (l := 1) ?_ (fun m => ?_) (by omega) <;> costs W
  · exact .pure _

theorem cost_wind_other (h : Nat) : Cost env b (if h = 0 then 3 else 2) (do let h ← identifyWind h; identifyOther h : M Nat) := by
  have e : (do let h ← identifyWind h; identifyOther h : M Nat) = ((tryCommand (do let ls ← write py!"AT+WIND?"; pure (lineStartingWith py!"+WIND:" ls))) >>= fun r =>
      match r with
      | none => identifyOther h
      | some wind => ofExcept (intFrom7 wind) >>= fun n => (if n ≠ 50 then write py!"AT+WIND=50" >>= fun _ => identifyOther 2 else identifyOther 2)) := by
    funext env s
    simp only [identifyWind, run_bind]
    generalize tryCommand (do let ls ← write py!"AT+WIND?"; pure (lineStartingWith py!"+WIND:" ls) : M (Option PyStr)) env s = r
    rcases r with ⟨_ | ⟨_ | wind⟩, s1⟩
    · rfl
    · rfl
    · simp only [run_bind, run_ofExcept]
      cases intFrom7 wind with
      | error e => rfl
      | ok n =>
        by_cases hn : n = 50
        · simp [hn, run_pure]
        · simp only [hn, ne_eq, not_false_eq_true, if_true, run_bind]
          rcases write py!"AT+WIND=50" true [13] env s1 with ⟨_ | _, _⟩ <;> rfl
  rw [e]
  refine .bind (k := 1) (l := if h = 0 then 2 else 1) (.tryCommand (.after (.write (n := 0) W) fun _ => .pure _)) (fun r => ?_) (by split <;> omega)
  have h2 : Cost env b 0 (identifyOther 2) := cost_other W 2
  cases r with
  | none => exact (cost_other W h).mono (by split <;> omega)
  | some wind =>
    refine .mono (k := 1) ?_ (by split <;> omega)
    refine .then (.ofExcept _) fun n => .ite (fun _ => .one (.write (n := 0) W) fun _ => h2) fun _ => h2.mono (by omega)

theorem cost_identify : Cost env b 5 connectIdentify := by
  unfold connectIdentify
  have h2 : Cost env b 2 (do let h ← identifyWind 2; identifyOther h : M Nat) := (cost_wind_other W 2).mono (by decide)
  have h3 : Cost env b 3 (do let h ← identifyWind 0; identifyOther h : M Nat) := (cost_wind_other W 0).mono (by decide)
  refine .one (cost_supported W) fun commands => ?_
  cases commands with
  | none =>
    refine .bindQ (k := 0) (l := 4) (Q := fun p => p = (0, true)) (.pure _) (fun s a s' h => post_pure h) (fun p hp => ?_) (by omega)
    subst hp
    exact .assoc (.after (h3.mono (by omega)) fun _ => .pure _)
  | some cs =>
    refine .bindQ (k := 2) (l := 2) (Q := fun p => p.2 = true → p.1 = 2) (cost_commands W cs) (fun s p s' h => post_commands cs h) (fun p hp => ?_) (by omega)
    obtain ⟨x, y⟩ := p
    cases y with
    | true =>
      have : x = 2 := hp rfl
      subst this
      exact .assoc (.after h2 fun _ => .pure _)
    | false => exact .then (.pure _) fun h => .after ((cost_other W h).mono (by split <;> omega)) fun _ => .pure _

theorem cost_sms : Cost env b 6 connectSms := by
  unfold connectSms
  refine .one (.write (n := 0) W) fun _ => ?_
  refine .then .get fun s => ?_
  refine .one (.write (n := 0) W) fun _ => ?_
  refine .then .get fun s => ?_
  have hend : ∀ current : Option PyStr, Cost env b 3 (do
      let _ ← write py!"AT+CSMP=49,167,0,0" false
      if current ≠ none then
        let now ← getSmsc
        if now ≠ current then setSmsc current : M Unit) := fun current =>
    .one (.write (n := 0) W) fun _ => .ite (fun _ => .one (cost_getSmsc W) fun now => .ite (fun _ => cost_setSmsc W current) fun _ => .pure _) fun _ => .pure _
  dsimp only
  split
  · refine .one (.write (n := 0) W) fun _ => .then (.pure _) fun _ => ?_
    exact .ite (fun _ => .modifyThen (fun _ => rfl) fun _ => hend _) fun _ => hend _
  · refine .one (cost_getSmsc W) fun _ => ?_
    exact .ite (fun _ => .modifyThen (fun _ => rfl) fun _ => hend _) fun _ => hend _

theorem cost_storage : Cost env b 2 connectMemory := by
  unfold connectMemory
  refine .one (.tryCommand (.after (.write (n := 0) W) fun _ => .pure _)) fun r => ?_
  costs W

theorem cost_notifications : Cost env b 4 connectNotifications := by
  unfold connectNotifications
  costs W

omit W in
theorem cost_table (h : Nat) (cs : Option (List PyStr)) : Cost env b n (connectCallTable h cs) := by
  unfold connectCallTable
  refine .modify fun s => ?_
  split
  · rfl
  · split
    · rfl
    · split <;> rfl

theorem cost_connect (pin : Option PyStr) : Cost env b 26 (connect pin) := by
  unfold connect
  refine .then (.modify fun _ => rfl) fun _ => ?_
  refine .bind (k := 9) (l := 17) (cost_basics W pin) (fun _ => ?_) (by omega)
  refine .bind (k := 5) (l := 12) (cost_identify W) (fun p => ?_) (by omega)
  obtain ⟨h, cs⟩ := p
  refine .then (cost_table h cs) fun _ => ?_
  refine .bind (k := 6) (l := 6) (cost_sms W) (fun _ => ?_) (by omega)
  exact .bind (k := 2) (l := 4) (cost_storage W) (fun _ => cost_notifications W) (by omega)

theorem cost_signal : Cost env b 1 signalStrength := by unfold signalStrength; costs W
theorem cost_coverage : ∀ (r : Nat) (c : Bool), Cost env b r (coverageLoop r c)
  | 0, _ => by unfold coverageLoop; exact .raise _
  | r + 1, true => by
    rw [coverageLoop]
    refine .one (.write (n := 0) W) fun ls => ?_
    split
    · refine .then (.ofExcept _) fun st => ?_
      have h1 := cost_coverage r true
      have h2 := cost_coverage r false
      exact .ite (fun _ => h2) fun _ => .ite (fun _ => .raise _) fun _ => .ite (fun _ => .raise _) fun _ => h1
    · exact cost_coverage r false
  | r + 1, false => by
    rw [coverageLoop]
    exact .one (cost_signal W) fun ss => .ite (fun _ => .pure _) fun _ => cost_coverage r false

theorem cost_read (i : PyStr) (m : Option PyStr) : Cost env b (selecting m + 1) (readStoredSms i m) := by
  unfold readStoredSms
  refine .bind (cost_memory W m none) (fun _ => ?_) (Nat.le_refl _)
  costs W
theorem cost_delete (i : PyStr) (m : Option PyStr) : Cost env b (selecting m + 1) (deleteStoredSms i m) := by
  unfold deleteStoredSms
  refine .bind (cost_memory W m none) (fun _ => ?_) (Nat.le_refl _)
  costs W
theorem cost_deleteMultiple (f : Int) (m : Option PyStr) : Cost env b (selecting m + 1) (deleteMultipleStoredSms f m) := by
  unfold deleteMultipleStoredSms
  refine .ite (fun _ => ?_) fun _ => .raise _
  refine .bind (cost_memory W m none) (fun _ => ?_) (Nat.le_refl _)
  costs W
theorem cost_deleteAll : ∀ is : List Int, Cost env b is.length (deleteAll is)
  | [] => .pure _
  | i :: is => by
    rw [deleteAll]
    exact .one (cost_delete W (intStr i) none) fun _ => cost_deleteAll is
theorem cost_deleteSet (is : List Int) : Cost env b is.length (deleteSet is) := by
  refine ⟨fun s => ?_⟩
  have := (cost_deleteAll W (env.order is)).run s
  rw [(env.order_perm is).length_eq] at this
  exact this
end

theorem setAdd_length (l : List Int) (i : Int) : (setAdd l i).length ≤ l.length + 1 := by
  unfold setAdd; split <;> simp

theorem pdu_listed : ∀ (ls : List PyStr) (acc : Listing) (p : Option (Int × Int)) (r : Listing), pduListLoop acc p ls = .ok r →
    2 * r.delMessages.length ≤ 2 * acc.delMessages.length + ls.length + if p.isSome then 1 else 0
  | [], acc, p, r, h => by
    rw [pduListLoop] at h
    cases h
    omega
  | l :: ls, acc, none, r, h => by
    rw [pduListLoop] at h
    split at h
    · next i st _ =>
      cases hi : pyInt i with
      | error e => simp [hi, bind, Except.bind] at h
      | ok i =>
        cases hs : pyInt st with
        | error e => simp [hi, hs, bind, Except.bind] at h
        | ok st =>
          simp only [hi, hs, bind, Except.bind] at h
          have := pdu_listed ls _ _ r h
          simp at this ⊢
          omega
    · have := pdu_listed ls _ _ r h
      simp at this ⊢
      omega
  | l :: ls, acc, some (i, st), r, h => by
    rw [pduListLoop] at h
    split at h
    · have := pdu_listed ls _ _ r h
      simp at this ⊢
      omega
    · cases h
    · next d _ =>
      cases hm : msgOfPdu st d with
      | error e => simp [hm, bind, Except.bind] at h
      | ok m =>
        simp only [hm, bind, Except.bind] at h
        have := pdu_listed ls _ _ r h
        have h2 := setAdd_length acc.delMessages i
        simp at this ⊢
        omega

/-- A header counts once it has a line. -/
def worth (hdr : Option (PyStr × PyStr × PyStr × PyStr)) (ml : List PyStr) : Nat := if hdr.isSome then (if ml = [] then 1 else 2) else 0

theorem textSave_length {acc r : Listing} {hdr : Option (PyStr × PyStr × PyStr × PyStr)} {ml : List PyStr} (h : textSave acc hdr ml = .ok r) :
    2 * r.delMessages.length ≤ 2 * acc.delMessages.length + worth hdr ml := by
  unfold textSave at h
  split at h
  · next i st number time =>
    split at h
    · next hl =>
      cases h1 : textStatus st with
      | error e => simp [h1, bind, Except.bind] at h
      | ok a =>
        cases h2 : parseTextModeTimeStr time with
        | error e => simp [h1, h2, bind, Except.bind] at h
        | ok t =>
          cases h3 : pyInt i with
          | error e => simp [h1, h2, h3, bind, Except.bind] at h
          | ok j =>
            simp only [h1, h2, h3, bind, Except.bind, pure, Except.pure] at h
            cases h
            have := setAdd_length acc.delMessages j
            have hne : ml ≠ [] := by rintro rfl; simp at hl
            simp [worth, hne]
            omega
    · cases h; omega
  · cases h; omega

theorem text_listed : ∀ (ls : List PyStr) (acc : Listing) (hdr : Option (PyStr × PyStr × PyStr × PyStr)) (ml : List PyStr) (r : Listing), textListLoop acc hdr ml ls = .ok r →
    2 * r.delMessages.length ≤ 2 * acc.delMessages.length + ls.length + worth hdr ml
  | [], acc, hdr, ml, r, h => by
    rw [textListLoop] at h
    have := textSave_length h
    simp; omega
  | l :: ls, acc, hdr, ml, r, h => by
    rw [textListLoop] at h
    split at h
    · cases h1 : textSave acc hdr ml with
      | error e => simp [h1, bind, Except.bind] at h
      | ok acc' =>
        simp only [h1, bind, Except.bind] at h
        have h2 := text_listed ls _ _ _ r h
        have h3 := textSave_length h1
        simp [worth] at h2 h3 ⊢
        omega
    · split at h
      · have h2 := text_listed ls _ _ _ r h
        have : worth hdr (ml ++ [l]) ≤ worth hdr ml + 1 := by
          unfold worth; split <;> simp <;> split <;> omega
        simp only [List.length_cons]
        omega
      · have h2 := text_listed ls _ _ _ r h
        simp only [List.length_cons]
        omega

theorem listed_length {tm : Bool} {ls : List PyStr} {r : Listing} (h : parseListing tm ls = .ok r) : r.delMessages.length ≤ ls.length / 2 := by
  unfold parseListing at h
  split at h
  · have := text_listed ls _ _ _ r h
    simp [worth] at this
    omega
  · have := pdu_listed ls _ _ r h
    simp at this
    omega

theorem write_brief {L : Nat} (hL : Brief env.reply L) {data term : PyStr} {pe : Bool} {s s' : St} {ls : List PyStr} (h : write data pe term env s = (.ok ls, s')) : ls.length ≤ L := by
  have key : ∀ (d : Nat) (s s' : St), writeN d data pe term env s = (.ok ls, s') → ls.length ≤ L := by
    intro d
    induction d with
    | zero => intro s s' h; cases h
    | succ d ih =>
      intro s s' h
      simp only [writeN] at h
      split at h
      · cases h
      · next ls' hr =>
        split at h
        · cases h
        · split at h
          · split at h
            · cases h; exact hL _ _ hr
            · cases h
            · split at h
              · next he => cases h; exact ih _ _ he
              · cases h
          · cases h; exact hL _ _ hr
  exact key env.depth s s' h

section
variable (W : WritesAtMost env b)
include W

theorem cost_list {L : Nat} (st : Int) (m : Option PyStr) (d : Bool) (hL : (d && st != 4) = true → Brief env.reply L) :
    Cost env b (selecting m + 1 + if d then (if st = 4 then 1 else L / 2) else 0) (listStoredSms st m d) := by
  unfold listStoredSms
  refine .bind (k := selecting m) (l := 1 + if d then (if st = 4 then 1 else L / 2) else 0) (cost_memory W m none) (fun _ => ?_) (by omega)
  refine .then .get fun s => .then (.ofExcept _) fun c => ?_
  refine .bindQ (k := 1) (Q := fun ls => (d && st != 4) = true → ls.length ≤ L) (.write W) (fun _ _ _ h hd => write_brief (hL hd) h) (fun ls hls => ?_) (Nat.le_refl _)
  refine .bindQ (k := 0) (Q := fun r => (d && st != 4) = true → r.delMessages.length ≤ L / 2) (.ofExcept _) (fun s' r s'' h => ?_) (fun r hr => ?_) (Nat.le_of_eq (Nat.zero_add _))
  · cases hp : parseListing s.smsTextMode ls with
    | error e => rw [hp] at h; cases h
    | ok r' =>
      rw [hp] at h
      cases h
      exact fun hd => Nat.le_trans (listed_length hp) (Nat.div_le_div_right (hls hd))
  · refine .after ?_ fun _ => .pure _
    unfold deleteListed
    cases d with
    | false => exact .pure _
    | true =>
      simp only [if_true]
      split
      · exact cost_deleteMultiple W 4 none
      · next h4 => exact (cost_deleteSet W r.delMessages).mono (hr (by simpa using h4))

omit W in
theorem cost_callbackAll : ∀ ms : List Msg, Cost env b n (callbackAll ms)
  | [] => .pure _
  | m :: ms => by
    rw [callbackAll]
    exact .then (.modify fun _ => rfl) fun _ => cost_callbackAll ms

theorem cost_process {L : Nat} (hL : Brief env.reply L) (u : Bool) : Cost env b ((if u then 1 else 2) * (1 + L / 2)) (processStoredSms u) := by
  have h1 : ∀ st : Int, st ≠ 4 → Cost env b (1 + L / 2) (listStoredSms st none true) := fun st hst => (cost_list W st none true fun _ => hL).mono (by simp [selecting, hst])
  unfold processStoredSms
  cases u with
  | true =>
    refine .mono (k := 1 + L / 2) ?_ (by simp)
    exact .bind (h1 0 (by omega)) (fun ms => cost_callbackAll (n := 0) ms) (by omega)
  | false =>
    refine .bind (k := 1 + L / 2) (l := 1 + L / 2) (h1 1 (by omega)) (fun ms => ?_) (by simp; omega)
    refine .then (cost_callbackAll ms) fun _ => ?_
    exact .bind (h1 0 (by omega)) (fun ms => cost_callbackAll (n := 0) ms) (by omega)

theorem cost_received (l : PyStr) : Cost env b 3 (handleSmsReceived l) := by
  unfold handleSmsReceived
  split
  · next mem idx _ =>
    refine .bind (k := 2) (l := 1) (cost_read W idx (some mem)) (fun m => ?_) (by omega)
    exact .one (cost_delete W idx none) fun _ => .modify fun _ => rfl
  · exact .pure _

theorem cost_report (l : PyStr) : Cost env b 3 (handleSmsStatusReport l) := by
  unfold handleSmsStatusReport
  split
  · next mem idx _ =>
    refine .bind (k := 2) (l := 1) (cost_read W idx (some mem)) (fun m => ?_) (by omega)
    refine .one (n := 0) (cost_delete W idx none) fun _ => ?_
    unfold updateSent callback
    costs W
  · exact .pure _

theorem cost_sendPdus : ∀ (ps : List Pdu) (r : Option PyStr), Cost env b (2 * ps.length) (sendPdus ps r)
  | [], _ => .pure _
  | p :: ps, r => by
    rw [sendPdus, List.length_cons, Nat.mul_succ]
    exact .one (.write (n := 0) W) fun _ => .one (.write (n := 0) W) fun _ => cost_sendPdus ps _
end

theorem submitLoop_length {f : Nat → Except PyErr Pdu} : ∀ {is : List Nat} {ps : List Pdu}, submitLoop f is = .ok ps → ps.length = is.length
  | [], ps, h => by cases h; rfl
  | i :: is, ps, h => by
    rw [submitLoop] at h
    cases h1 : f i with
    | error e => simp [h1, bind, Except.bind] at h
    | ok p =>
      cases h2 : submitLoop f is with
      | error e => simp [h1, h2, bind, Except.bind] at h
      | ok ps' =>
        simp only [h1, h2, bind, Except.bind, pure, Except.pure] at h
        cases h
        simp [submitLoop_length h2]

theorem encode_length [PyUnicode] {number text : PyStr} {reference : Int} {flash : Bool} {ps : List Pdu}
    (h : encodeSmsSubmitPdu number text reference (sendFlash := flash) = .ok ps) : ps.length ≤ text.length / 70 + 1 := by
  simp only [encodeSmsSubmitPdu, validityPart, bind, Except.bind] at h
  cases hc : chooseAlphabet text with
  | error e => rw [hc] at h; cases h
  | ok al =>
    rw [hc] at h
    simp only at h
    split at h
    · have := submitLoop_length h
      rw [this, List.length_range]
      unfold maxMessageLength
      split <;> omega
    · have := submitLoop_length h
      simp at this
      omega

section
variable (W : WritesAtMost env b)
include W

theorem cost_send [PyUnicode] (d t : PyStr) (f : Bool) : Cost env b (mostToSend t) (sendSms d t f) := by
  unfold sendSms
  refine .then .get fun s => ?_
  have hend : ∀ r : Option PyStr, Cost env b 0 (match r with
      | none => raise (.command .command none)
      | some result => do
        let reference ← ofExcept (pyInt (result.drop 7))
        recordSent d t reference
        pure s.sent.length : M Nat) := by
    intro r
    unfold recordSent
    costs W
  dsimp only
  split
  · refine .mono (k := 2) ?_ (by unfold mostToSend; omega)
    refine .one (.write (n := 0) W) fun _ => .one (.write (n := 0) W) fun _ => .then (.pure _) fun r => hend r
  · refine .bindQ (k := 0) (l := mostToSend t) (Q := fun ps : List Pdu => ps.length ≤ t.length / 70 + 1) (.ofExcept _) (fun s1 ps s2 h => ?_) (fun ps hps => ?_) (by omega)
    · cases he : encodeSmsSubmitPdu d t s.smsRef (sendFlash := f) with
      | error e => rw [he] at h; cases h
      | ok ps' =>
        rw [he] at h
        have := post_pure h
        subst this
        exact encode_length he
    · refine .after ((cost_sendPdus W ps none).mono ?_) fun r => hend r
      unfold mostToSend
      omega

omit W in
theorem cost_setAnswered (i : Nat) (v : Bool) : Cost env b n (setAnswered i v) := by unfold setAnswered callback; costs W
omit W in
theorem cost_registerCall (c : CallObj) : Cost env b n (registerCall c) := .free fun _ => rfl
omit W in
theorem cost_registerNext (c : CallObj) : Cost env b n (registerNext c) := .free fun _ => rfl

omit W in
theorem cost_ringLoop (cn : Option PyStr) : ∀ (as : List (Int × Nat)) (r : Option Nat), Cost env b n (ringLoop cn as r)
  | [], r => .pure _
  | (_, i) :: rest, r => by
    have ih := cost_ringLoop cn rest
    rw [ringLoop]
    refine .then .get fun s => ?_
    split
    · exact .ite (fun _ => .ite (fun _ => .modifyThen (fun _ => rfl) fun _ => ih _) fun _ => .raise _) fun _ => ih _
    · exact ih _

theorem cost_incoming (ls : List PyStr) : Cost env b 1 (handleIncomingCall ls) := by
  cases ls with
  | nil => exact .raise _
  | cons l ls =>
    rw [handleIncomingCall]
    refine .bind (k := 1) (l := 0) ?_ (fun t => ?_) (by omega)
    · unfold ringType; costs W
    · refine .then .get fun s => .then (cost_ringLoop _ _ _) fun r => ?_
      split
      · unfold callback; costs W
      · refine .then ?_ fun ty => .then (cost_registerNext _) fun i => ?_
        · unfold callTypeOf; costs W
        · unfold callback; costs W

omit W in
theorem cost_initiated (a c : Int) : Cost env b n (handleCallInitiated a c) := by unfold handleCallInitiated; costs W
omit W in
theorem cost_answered (o : Option Int) : Cost env b n (handleCallAnswered o) := by
  cases o <;> (unfold handleCallAnswered; refine .then .get fun s => ?_; split)
  · exact cost_setAnswered _ _
  · exact .pure _
  · exact cost_setAnswered _ _
  · exact .raise _
omit W in
theorem cost_ended (o : Option Int) (x y : Bool) : Cost env b n (handleCallEnded o x y) := by
  unfold handleCallEnded
  refine .then .get fun s => ?_
  dsimp only
  generalize (if x = true then _ else o : Option Int) = o
  cases o with
  | none => exact .pure _
  | some id =>
    refine .ite (fun _ => ?_) fun _ => .pure _
    split
    · exact .pure _
    · exact .then (cost_setAnswered _ _) fun _ => .modify fun _ => rfl

omit W in
theorem cost_handler (h : CallHandler) (g : List PyStr) : Cost env b n (runCallHandler h g) := by
  have h1 : ∀ a c, Cost env b n (handleCallInitiated a c) := cost_initiated
  have h2 : ∀ o, Cost env b n (handleCallAnswered o) := cost_answered
  have h3 : ∀ o x y, Cost env b n (handleCallEnded o x y) := cost_ended
  unfold runCallHandler
  cases h <;> dsimp only
  · refine .then .get fun s => .ite (fun _ => ?_) fun _ => .pure _
    split
    · exact .then (.ofExcept _) fun _ => .then (.ofExcept _) fun _ => h1 _ _
    · exact .then (.ofExcept _) fun _ => h1 _ _
    · exact .raise _
  · split
    · exact .then (.ofExcept _) fun _ => h2 _
    · exact h2 _
  · split
    · exact .then (.ofExcept _) fun _ => h3 _ _ _
    · exact h3 _ _ _
  · split
    · exact .then (.ofExcept _) fun _ => h3 _ _ _
    · exact h3 _ _ _

omit W in
theorem cost_ussdNote (ls : List PyStr) : Cost env b n (handleUssd ls) := by unfold handleUssd; costs W

theorem cost_dispatch (all : List PyStr) : ∀ ls : List PyStr, Cost env b 3 (dispatchLoop all ls)
  | [] => .pure _
  | l :: ls => by
    rw [dispatchLoop]
    refine .then .get fun s => ?_
    split
    · exact (cost_incoming W all).mono (by omega)
    · exact cost_received W l
    · exact cost_ussdNote all
    · exact cost_report W l
    · exact cost_handler _ _
    · exact cost_dispatch all ls

theorem cost_pollRound (p : Poller) : Cost env b 1 (pollRound p) := by
  unfold pollRound
  refine .then .get fun s => .ite (fun _ => ?_) fun _ => .pure _
  refine .bind (k := 1) (l := 0) ?_ (fun seen => ?_) (by omega)
  · unfold clccQuery
    refine .caught ?_ fun _ => .pure _
    costs W
  · generalize (if p.expectedState = 0 then { p with timeLeft := p.timeLeft - 1 } else p) = p
    unfold pollStep
    split
    · refine .ite (fun _ => .ite (fun _ => .ite (fun _ => ?_) fun _ => .pure _) fun _ => .ite (fun _ => .ite (fun _ => ?_) fun _ => .pure _) fun _ => .pure _) fun _ => .pure _
      · exact .then (cost_initiated _ _) fun _ => .pure _
      · exact .then (cost_answered _) fun _ => .pure _
    · refine .ite (fun _ => ?_) fun _ => .ite (fun _ => ?_) fun _ => .pure _
      · exact .then (cost_ended _ _ _) fun _ => .pure _
      · exact .then (cost_ended _ _ _) fun _ => .pure _

theorem cost_event (e : Event) : Cost env b (eventCommands e) e.run := by
  cases e with
  | notify ls => exact ⟨fun s => (cost_dispatch W ls ls).run s⟩
  | poll k =>
    refine ⟨fun s => ?_⟩
    simp only [Event.run]
    split
    · exact Nat.le_add_right _ _
    · next p _ =>
      have := (cost_pollRound W p).run s
      split <;> next he => rw [he] at this; exact this

theorem cost_await (p : St → Bool) : ∀ es : List Event, Cost env b (es.map eventCommands).sum (awaitEvent p es)
  | [] => by unfold awaitEvent; exact .then .get fun _ => .pure _
  | e :: es => by
    rw [awaitEvent, List.map_cons, List.sum_cons]
    exact .then .get fun s => .ite (fun _ => .pure _) fun _ => .bind (cost_event W e) (fun _ => cost_await p es) (Nat.le_refl _)

theorem cost_sendWait [PyUnicode] (d t : PyStr) (f : Bool) (early during : List Event) :
    Cost env b (mostToSend t + (early.map eventCommands).sum + (during.map eventCommands).sum) (sendSmsWait d t f early during) := by
  unfold sendSmsWait
  refine .bind (k := mostToSend t) (l := (early.map eventCommands).sum + (during.map eventCommands).sum) (cost_send W d t f) (fun i => ?_) (by omega)
  refine .bind (cost_await W _ early) (fun _ => ?_) (Nat.le_refl _)
  refine .modifyThen (fun _ => rfl) fun _ => ?_
  refine .after (cost_await W _ during) fun ok => ?_
  costs W

theorem cost_ussd (m : PyStr) (during : List Event) : Cost env b (1 + (during.map eventCommands).sum) (sendUssd m during) := by
  unfold sendUssd
  refine .modifyThen (fun _ => rfl) fun _ => ?_
  refine .bind (k := 1) (.caught (.write (n := 0) W) fun _ => .modifyThen (fun _ => rfl) fun _ => .raise _) (fun ls => ?_) (Nat.le_refl _)
  refine .ite (fun _ => ?_) fun _ => ?_
  · exact .modifyThen (fun _ => rfl) fun _ => .then (.ofExcept _) fun _ => .pure _
  · refine .after (cost_await W _ during) fun ok => ?_
    costs W

theorem cost_atd (number : PyStr) : Cost env b 1 (writeAtd number) := by unfold writeAtd; costs W

theorem cost_dial (number : PyStr) (timeout : Nat) (cb : Bool) (during : List Event) : Cost env b (1 + (during.map eventCommands).sum) (dial number timeout cb during) := by
  unfold dial
  refine .then .get fun s => .ite (fun _ => ?_) fun _ => ?_
  · refine .modifyThen (fun _ => rfl) fun _ => ?_
    refine .bind (k := 1) (.caught (cost_atd W number) fun _ => .modifyThen (fun _ => rfl) fun _ => .raise _) (fun ls => ?_) (Nat.le_refl _)
    have hend : Cost env b (during.map eventCommands).sum (do
        let ok ← awaitEvent (fun s => s.dialEvent = some true) during
        modify fun s => { s with dialEvent := none }
        if ok then do
          let s ← get
          match s.dialResponse with
          | none => raise .typeError
          | some (callId, callType) =>
            registerCall { incoming := false, id := callId, type := some callType, number := some number, callback := cb }
        else raise (.timeout none) : M Nat) := by
      refine .after (cost_await W _ during) fun ok => ?_
      refine .modifyThen (fun _ => rfl) fun _ => .ite (fun _ => .then .get fun s => ?_) fun _ => .raise _
      split
      · exact .raise _
      · exact cost_registerCall _
    exact .ite (fun _ => .modifyThen (fun _ => rfl) fun _ => hend) fun _ => hend
  · exact .mono (.after (cost_atd W number) fun _ => cost_registerNext _) (by omega)

theorem cost_hangup (i : Nat) : Cost env b 1 (hangup i) := by
  unfold hangup
  refine .then .get fun s => ?_
  split
  · exact .pure _
  · next c _ =>
    refine .then (m := stopRinging i c) ?_ fun _ => .after (m := hangupActive i c) ?_ fun _ => .modify fun _ => rfl
    · unfold stopRinging; costs W
    · unfold hangupActive
      exact .ite (fun _ => .one (.write (n := 0) W) fun _ => .then (cost_setAnswered _ _) fun _ => .modify fun _ => rfl) fun _ => .pure _

theorem cost_answer (i : Nat) : Cost env b 1 (answer i) := by
  unfold answer
  refine .then .get fun s => ?_
  split
  · exact .pure _
  · exact .ite (fun _ => .one (.write (n := 0) W) fun _ => .modifyThen (fun _ => rfl) fun _ => cost_setAnswered _ _) fun _ => .pure _

theorem cost_dtmf (i : Nat) (t : PyStr) : Cost env b 1 (sendDtmfTone i t) := by
  unfold sendDtmfTone
  refine .then .get fun s => ?_
  split
  · exact .pure _
  · refine .ite (fun _ => .then (.ofExcept _) fun c => .caught ?_ fun _ => .raise _) fun _ => .raise _
    costs W

theorem cost_op [PyUnicode] {L : Nat} (op : Op) (hL : deletesEach op = true → Brief env.reply L) : Cost env b (maxCommands L op) op.run := by
  cases op with
  | event e => exact cost_event W e
  | setTextMode v => exact cost_textMode W v
  | setSmsc v => exact cost_setSmsc W v
  | getSmsc => exact .discard (cost_getSmsc W)
  | signalStrength => exact .discard (cost_signal W)
  | manufacturer => refine .discard (n := 1) ?_; unfold manufacturer; costs W
  | model => refine .discard (n := 1) ?_; unfold model; costs W
  | revision =>
    refine .discard (n := 1) ?_
    unfold revision
    refine .tryCommand ?_
    costs W
  | imei => refine .discard (n := 1) ?_; unfold imei; costs W
  | imsi => refine .discard (n := 1) ?_; unfold imsi; costs W
  | networkName => refine .discard (n := 1) ?_; unfold networkName; costs W
  | supportedCommands => exact .discard (cost_supported W)
  | waitForNetworkCoverage r => exact .discard (cost_coverage W r true)
  | read i m => exact .discard (cost_read W i m)
  | delete i m => exact cost_delete W i m
  | deleteMultiple f m => exact cost_deleteMultiple W f m
  | list st m d => exact .discard (cost_list W st m d hL)
  | process u => exact cost_process W (hL rfl) u
  | send d t f => exact .discard (cost_send W d t f)
  | sendWait d t f e du => exact .discard (cost_sendWait W d t f e du)
  | ussd s du => exact .discard (cost_ussd W s du)
  | ussdReply u s du =>
    refine .discard ?_
    unfold Ussd.reply
    exact .ite (fun _ => cost_ussd W s du) fun _ => .raise _
  | ussdCancel u => exact .mono (k := 1) (by unfold Op.run Ussd.cancel; costs W) (Nat.le_refl _)
  | dial n t cb du => exact .discard (cost_dial W n t cb du)
  | answer c => exact cost_answer W c
  | hangup c => exact cost_hangup W c
  | dtmf c t => exact cost_dtmf W c t

theorem cost_ops [PyUnicode] {L : Nat} (hL : Brief env.reply L) : ∀ (ops : List Op) (s : St), (runOps env ops s).log.length ≤ s.log.length + (ops.map (maxCommands L)).sum * b
  | [], s => by simp [runOps]
  | op :: ops, s => by
    have h1 := (cost_op W op fun _ => hL).run s
    have h2 := cost_ops hL ops (op.run env s).2
    rw [runOps, List.map_cons, List.sum_cons, Nat.add_mul]
    omega
end

end Gsm
