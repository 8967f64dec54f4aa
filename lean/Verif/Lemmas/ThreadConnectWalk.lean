import Verif.Lemmas.ThreadConnect
import Verif.Lemmas.ThreadTrace
import Verif.Spec.ThreadConnect
/-! # Through the steps of `connect` -/
namespace Gsm
open Spec

variable {env : Env}

/-- Only settings of the modem object differ. -/
structure SettingsOnly (a b : St) : Prop where
  log : b.log = a.log
  wait : b.writeWait = a.writeWait
  callbacks : b.callbacks = a.callbacks
  trace : b.smsTrace = a.smsTrace
  calls : b.calls = a.calls
  table : b.activeCalls = a.activeCalls
  sent : b.sent = a.sent
  sentSms : b.sentSms = a.sentSms
  ref : b.smsRef = a.smsRef
  mode : b.smsTextMode = a.smsTextMode
  events : b.smsStatusReportEvent = a.smsStatusReportEvent ∧ b.ussdSessionEvent = a.ussdSessionEvent ∧ b.dialEvent = a.dialEvent

namespace Prog

/-- What is true of `connect` if it is true of its steps; the commands have the property `C`. -/
structure Linked (P : ∀ {α : Type}, Prog α → Prop) (C : PyStr → Prop) : Prop where
  done : ∀ {α : Type} (r : Except PyErr α), P (Prog.done r)
  act : ∀ {α : Type} (f : Limits → St → St) (k : Limits → St → Prog α), (∀ env s, SettingsOnly s (f env s)) → (∀ env s, P (k env s)) → P (Prog.act f k)
  bind : ∀ {α β : Type} {p : Prog α} {f : α → Prog β}, P p → (∀ a, P (f a)) → P (p >>= f)
  write : ∀ (data : PyStr) (pe : Bool), C (data ++ [13]) → P (write data pe)
  except : ∀ {α : Type} {p : Prog α} {c : PyErr → Bool} {h : PyErr → Prog α}, P p → (∀ e, P (h e)) → P (except p c h)

/-- The commands of `connect`, except those for the PIN. -/
structure ConnectCommands (C : PyStr → Prop) : Prop where
  fixed : ∀ c ∈ ([py!"ATZ", py!"AT+CMEE=1", py!"ATE0", py!"AT+CFUN?", py!"AT+CFUN=1", py!"AT+CLAC", py!"AT^CVOICE=0", py!"AT^USSDMODE=0", py!"AT+WIND?", py!"AT+WIND=50", py!"AT+CGMI",
    py!"AT+ZPAS?", py!"AT+COPS=3,0", py!"AT+CSCA?", py!"AT+CSMP=49,167,0,0", py!"AT+CPMS=?", py!"AT+CNMI=2,1,0,2", py!"AT+CLIP=1", py!"AT+CRC=1", py!"AT+CVHU=0"] : List PyStr), C (c ++ [13])
  mode : ∀ b : Bool, C (py!"AT+CMGF=" ++ (if b then py!"1" else py!"0") ++ [13])
  smsc : ∀ n, C (cscaCmd n ++ [13])
  memory : ∀ x, C (py!"AT+CPMS=" ++ x ++ [13])

section link
variable {α : Type} {P : ∀ {α : Type}, Prog α → Prop} {C : PyStr → Prop} (L : Linked P C)
include L

theorem link_pure (a : α) : P (pure a : Prog α) := L.done (.ok a)
theorem link_raise (e : PyErr) : P (raise e : Prog α) := L.done (.error e)
theorem link_ofExcept (r : Except PyErr α) : P (ofExcept r) := L.done r
theorem link_look : P look := L.act _ _ (fun _ _ => ⟨rfl, rfl, rfl, rfl, rfl, rfl, rfl, rfl, rfl, rfl, rfl, rfl, rfl⟩) fun _ _ => link_pure L _
theorem link_change {f : St → St} (h : ∀ s, SettingsOnly s (f s)) : P (change f) := L.act _ _ (fun _ => h) fun _ _ => link_pure L _
theorem link_ite {c : Prop} [Decidable c] {p q : Prog α} (hp : P p) (hq : P q) : P (if c then p else q) := by split <;> assumption
theorem link_try {p : Prog α} (h : P p) : P (tryCommand p) := L.except (L.bind h fun _ => link_pure L _) fun _ => link_pure L _

/-- Straight through. -/
macro "links " L:term "," D:term : tactic => `(tactic| repeat' first
  | assumption
  | with_reducible exact link_pure $L _
  | with_reducible exact link_raise $L _
  | with_reducible exact link_ofExcept $L _
  | with_reducible exact link_look $L
  | (with_reducible apply Linked.write $L; exact ConnectCommands.fixed $D _ (by decide))
  | (with_reducible apply link_change $L; intro s; exact ⟨rfl, rfl, rfl, rfl, rfl, rfl, rfl, rfl, rfl, rfl, rfl, rfl, rfl⟩)
  | (with_reducible apply Linked.bind $L; rotate_left; intro _; rotate_left)
  | with_reducible apply link_try $L
  | with_reducible apply link_ite $L
  | (with_reducible apply Linked.except $L; rotate_left; intro _; rotate_left)
  | dsimp only
  | split)

variable (D : ConnectCommands C)
include D

theorem link_firstLine (ls : List PyStr) : P (firstLine ls) := link_ofExcept L _
theorem link_manufacturer : P manufacturer := by
  have := link_firstLine L D
  unfold manufacturer
  exact L.bind (L.write _ _ (D.fixed _ (by decide))) this
theorem link_supported : P supportedCommands := by
  have := link_firstLine L D
  unfold supportedCommands
  refine L.except (L.bind (L.write _ _ (D.fixed _ (by decide))) fun r => link_ite L (L.bind (this r) fun _ => ?_) ?_) fun _ => link_pure L _
  · exact link_pure L _
  · links L, D
theorem link_storeSmsc (r : Option (List PyStr)) : P (storeSmsc r) := by unfold storeSmsc; links L, D
theorem link_getSmsc : P getSmsc := by
  have h := link_storeSmsc L D
  unfold getSmsc
  refine L.bind (link_look L) fun s => ?_
  split
  · exact link_pure L _
  · refine L.bind ?_ fun r => L.bind (h r) fun _ => L.bind (link_look L) fun _ => link_pure L _
    links L, D
theorem link_setSmsc (v : Option PyStr) : P (setSmsc v) := by
  have h := L.write (cscaCmd (optStr v)) true (D.smsc _)
  unfold setSmsc
  links L, D
theorem link_radio : P enableRadio := by unfold enableRadio; links L, D
theorem link_rest (pin : Option PyStr) : P (connectRest pin true) := by
  have h := link_radio L D
  unfold connectRest
  refine L.bind (L.write _ _ (D.fixed _ (by decide))) fun _ => L.bind h fun _ => L.bind (L.write _ _ (D.fixed _ (by decide))) fun _ => ?_
  exact link_pure L _
theorem link_writeIf (b : Bool) {c : PyStr} {pe : Bool} (h : C (c ++ [13])) : P (writeIf b c pe) := by
  unfold writeIf
  exact link_ite L (L.bind (L.write _ _ h) fun _ => link_pure L _) (link_pure L _)
theorem link_identifyCommands (cs : List PyStr) : P (identifyCommands cs) := by
  unfold identifyCommands
  refine L.bind (link_writeIf L D _ (D.fixed _ (by decide))) fun _ => ?_
  dsimp only
  split
  · exact L.bind (link_change L fun _ => ⟨rfl, rfl, rfl, rfl, rfl, rfl, rfl, rfl, rfl, rfl, rfl, rfl, rfl⟩) fun _ => L.bind (link_writeIf L D _ (D.fixed _ (by decide))) fun _ => link_pure L _
  · exact L.bind (link_writeIf L D _ (D.fixed _ (by decide))) fun _ => link_pure L _
theorem link_wind (h : Nat) : P (identifyWind h) := by
  unfold identifyWind
  refine L.bind (link_try L (L.bind (L.write _ _ (D.fixed _ (by decide))) fun _ => link_pure L _)) fun r => ?_
  cases r with
  | none => exact link_pure L _
  | some w => exact L.bind (link_ofExcept L _) fun _ => L.bind (link_writeIf L D _ (D.fixed _ (by decide))) fun _ => link_pure L _
theorem link_other (h : Nat) : P (identifyOther h) := by
  have := link_manufacturer L D
  unfold identifyOther
  refine link_ite L (L.bind this fun _ => link_ite L (link_pure L _) (L.bind (link_try L (L.write _ _ (D.fixed _ (by decide)))) fun r => ?_)) (link_pure L _)
  cases r <;> exact link_pure L _
theorem link_identify : P connectIdentify := by
  have h1 := link_supported L D
  have h2 := link_wind L D
  have h3 := link_other L D
  have h4 := link_identifyCommands L D
  unfold connectIdentify
  refine L.bind h1 fun cs => L.bind ?_ fun r => ?_
  · cases cs with
    | none => exact link_pure L _
    | some cs => exact h4 cs
  · dsimp only
    split
    · exact L.bind (h2 _) fun _ => L.bind (h3 _) fun _ => link_pure L _
    · exact L.bind (link_pure L _) fun _ => L.bind (h3 _) fun _ => link_pure L _
omit D in
theorem link_callTable (h : Nat) (cs : Option (List PyStr)) : P (connectCallTable h cs) := by
  have := link_change L (f := fun s => { s with dtmfSupport := s.dtmfSupport || cs.isNone }) fun _ => ⟨rfl, rfl, rfl, rfl, rfl, rfl, rfl, rfl, rfl, rfl, rfl, rfl, rfl⟩
  unfold connectCallTable assumeDtmf
  repeat' first
    | assumption
    | (with_reducible apply link_change L; intro s; exact ⟨rfl, rfl, rfl, rfl, rfl, rfl, rfl, rfl, rfl, rfl, rfl, rfl, rfl⟩)
    | (with_reducible apply L.bind; rotate_left; intro _; rotate_left)
    | with_reducible apply link_ite L
theorem link_memory : P connectMemory := by
  have h := fun x => L.write (py!"AT+CPMS=" ++ x) true (by simpa using D.memory x)
  unfold connectMemory
  refine L.bind (link_try L (L.bind (L.write _ _ (D.fixed _ (by decide))) fun _ => link_pure L _)) fun r => ?_
  unfold chooseMemory
  split
  · links L, D
  · exact link_raise L _
  · split
    · exact link_raise L _
    · refine link_ite L ?_ (L.bind ?_ fun _ => L.bind (h _) fun _ => link_pure L _)
      · links L, D
      · unfold preferMemory
        links L, D
/-- The number of the SMS centre. -/
theorem link_centre : P (do
    let currentSmscNumber ← firstSmsc
    keepSmsc currentSmscNumber) := by
  have h1 := link_getSmsc L D
  have h2 := link_setSmsc L D
  have h4 := fun n => L.write (cscaCmd n) true (D.smsc n)
  refine L.bind ?_ fun r => ?_
  · unfold firstSmsc
    refine L.bind (link_look L) fun s => ?_
    split
    · exact L.bind (h4 _) fun _ => link_pure L _
    · exact h1
  · cases r with
    | none => exact L.bind (L.write _ _ (D.fixed _ (by decide))) fun _ => link_pure L _
    | some n =>
      refine L.bind (link_change L fun _ => ⟨rfl, rfl, rfl, rfl, rfl, rfl, rfl, rfl, rfl, rfl, rfl, rfl, rfl⟩) fun _ => L.bind (L.write _ _ (D.fixed _ (by decide))) fun _ => L.bind h1 fun _ => link_ite L (h2 _) (link_pure L _)
theorem link_sms : P connectSms := by
  have h3 : ∀ b : Bool, P (write (py!"AT+CMGF=" ++ (if b then py!"1" else py!"0"))) := fun b => L.write _ true (by simpa using D.mode b)
  exact L.bind (L.write _ _ (D.fixed _ (by decide))) fun _ => L.bind (link_look L) fun s => L.bind (h3 s.smsTextMode) fun _ => link_centre L D
theorem link_notifications : P connectNotifications := by
  unfold connectNotifications
  refine L.bind ?_ fun _ => L.bind ?_ fun _ => L.bind (L.write _ _ (D.fixed _ (by decide))) fun _ => link_pure L _
  · unfold notifyMessages
    links L, D
  · unfold notifyCalls
    links L, D

/-- All that follows the PIN. -/
theorem link_rest_of : P (do
    let r ← connectIdentify
    connectCallTable r.1 r.2
    connectSms
    connectMemory
    connectNotifications) :=
  L.bind (link_identify L D) fun _ => L.bind (link_callTable L _ _) fun _ => L.bind (link_sms L D) fun _ => L.bind (link_memory L D) fun _ => link_notifications L D

theorem link_basics {pin : Option PyStr} (hu : P (unlockSim pin)) : P (connectBasics pin) := by
  have hr := link_radio L D
  unfold connectBasics
  refine L.bind (link_try L (L.write _ _ (D.fixed _ (by decide)))) fun r => ?_
  cases r with
  | none => exact L.bind (L.write _ _ (D.fixed _ (by decide))) fun _ => L.bind hu fun _ => L.bind (L.write _ _ (D.fixed _ (by decide))) fun _ => link_rest L D pin
  | some _ =>
    unfold connectRest
    exact L.bind (L.write _ _ (D.fixed _ (by decide))) fun _ => L.bind hr fun _ => L.bind (L.write _ _ (D.fixed _ (by decide))) fun _ => hu

theorem link_connect {pin : Option PyStr} (hu : P (unlockSim pin)) : P (connect pin) :=
  L.bind (link_change L fun _ => ⟨rfl, rfl, rfl, rfl, rfl, rfl, rfl, rfl, rfl, rfl, rfl, rfl, rfl⟩) fun _ => L.bind (link_basics L D hu) fun _ => link_rest_of L D

end link

/-- Also the commands for the PIN. -/
theorem link_unlock {P : ∀ {α : Type}, Prog α → Prop} {C : PyStr → Prop} (L : Linked P C) (hq : C py!"AT+CPIN?\r") {pin : Option PyStr} (hp : ∀ p, pin = some p → C (py!"AT+CPIN=\"" ++ p ++ py!"\"" ++ [13])) :
    P (unlockSim pin) := by
  unfold unlockSim
  refine L.bind ?_ fun r => link_ite L ?_ (link_pure L _)
  · unfold askPin
    refine L.except (L.bind (L.write _ _ hq) fun _ => link_pure L _) fun e => ?_
    split
    · split
      · exact link_pure L _
      · exact link_raise L _
    · exact link_raise L _
  · cases pin with
    | none => exact link_raise L _
    | some p => exact L.bind (L.write _ _ (hp p rfl)) fun _ => link_pure L _

/-! ### What all steps keep -/

theorem linked_keeps {P : St → Prop} {G : St → St → Prop} {C : PyStr → Prop} (hw : Writes P G C) (hs : ∀ s s', P s → SettingsOnly s s' → G s s') :
    Linked (fun {_} p => Keeps env P G Any p) C where
  done r := by cases r <;> trivial
  act f k h hk := fun s hp => ⟨hs _ _ hp (h _ _), hk _ _⟩
  bind hp hf := keeps_bind hp fun a _ => hf a
  write data pe h := any (keeps_write hw h)
  except hp hh := by
    rename_i α p c h
    induction p with
    | done r =>
      cases r with
      | ok a => trivial
      | error e => exact keeps_ite (fun _ => hh e) fun _ => trivial
    | io t k ih => exact fun s hs => ⟨(hp s hs).1, ih _ (hp s hs).2⟩
    | act g k ih => exact fun s hs => ⟨(hp s hs).1, ih _ _ (hp s hs).2⟩

theorem commands_all : ConnectCommands fun _ => True := ⟨fun _ _ => trivial, fun _ => trivial, fun _ => trivial, fun _ => trivial⟩

theorem keeps_connect {P : St → Prop} {G : St → St → Prop} (hw : Writes P G fun _ => True) (hs : ∀ s s', P s → SettingsOnly s s' → G s s') (pin : Option PyStr) :
    Keeps env P G Any (connect pin) :=
  link_connect (linked_keeps hw hs) commands_all (link_unlock (linked_keeps hw hs) trivial fun _ _ => trivial)

/-! ### What is written -/

/-- All commands have the property `C`. -/
def Writing {α : Type} (C : PyStr → Prop) : Prog α → Prop
  | done _ => True
  | io t k => C t ∧ ∀ r, Writing C (k r)
  | act _ k => ∀ env s, Writing C (k env s)

variable {C : PyStr → Prop}

theorem writing_bind {α β : Type} {p : Prog α} {f : α → Prog β} (h : Writing C p) (hf : ∀ a, Writing C (f a)) : Writing C (p >>= f) := by
  show Writing C (p.bind f)
  induction p with
  | done r =>
    cases r with
    | ok a => exact hf a
    | error e => trivial
  | io t k ih => exact ⟨h.1, fun r => ih r (h.2 r)⟩
  | act g k ih => exact fun env s => ih env s (h env s)

theorem writing_writeN {data term : PyStr} {pe : Bool} (hc : C (data ++ term)) : ∀ depth, Writing C (writeN depth data pe term)
  | 0 => trivial
  | depth + 1 => by
    have ih := writing_writeN (pe := pe) hc depth
    refine ⟨hc, fun r => ?_⟩
    cases r with
    | timeout d => trivial
    | lines ls =>
      dsimp only
      split
      · trivial
      · split
        · split
          · trivial
          · trivial
          · exact writing_bind (fun _ _ => trivial) fun _ => writing_bind ih fun _ => writing_bind (fun _ _ => trivial) fun _ => trivial
        · trivial

theorem linked_writing : Linked (fun {_} p => Writing C p) C where
  done _ := trivial
  act _ _ _ hk := hk
  bind := writing_bind
  write data pe h := fun env _ => writing_writeN h env.depth
  except hp hh := by
    rename_i α p c h
    induction p with
    | done r =>
      cases r with
      | ok a => trivial
      | error e =>
        simp only [Prog.except]
        split
        · exact hh e
        · trivial
    | io t k ih => exact ⟨hp.1, fun r => ih r (hp.2 r)⟩
    | act g k ih => exact fun env s => ih env s (hp env s)

theorem traces_writing {α : Type} {R : St → St → Prop} {I : List (PyStr × Reply) → Prop} {acc0 : List (PyStr × Reply)} (hI : ∀ l, (∀ x ∈ l, C x.1) → I (acc0 ++ l)) :
    ∀ (p : Prog α) (l0 : List (PyStr × Reply)) (s : St), Writing C p → (∀ x ∈ l0, C x.1) →
      Traces env R I (fun a _ _ => ∃ l, a = acc0 ++ l ∧ ∀ x ∈ l, C x.1) (acc0 ++ l0) p s := by
  intro p
  induction p with
  | done r => exact fun l0 s _ h0 => ⟨hI l0 h0, l0, rfl, h0⟩
  | io t k ih =>
    intro l0 s hw h0
    refine ⟨hI l0 h0, fun s' _ => ?_⟩
    rw [List.append_assoc]
    refine ih _ _ _ (hw.2 _) fun x hx => ?_
    rcases List.mem_append.1 hx with h | h
    · exact h0 x h
    · rw [List.mem_singleton.1 h]; exact hw.1
  | act f k ih => exact fun l0 s hw h0 => ⟨hI l0 h0, fun s' _ => ih _ _ _ _ (hw _ _) h0⟩

end Prog
end Gsm
