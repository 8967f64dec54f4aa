import Verif.Lemmas.ThreadConnectPin
/-! # What `connect` has done at its end when other threads took steps in between -/
namespace Gsm
open M Spec

variable {env : Env}

theorem settings_grows {a b : St} (h : SettingsOnly a b) : Grows a b := ⟨h.log ▸ List.suffix_rfl, h.callbacks ▸ List.suffix_rfl, h.trace ▸ List.suffix_rfl⟩

namespace Prog

theorem ends_trans {α : Type} {Q : Except PyErr α → St → Prop} {p : Prog α} {s s' : St} (h : Ends env Grows Q p s) (hs : Grows s s') (hq : ∀ r a b, Grows a b → Q r a → Q r b) : Ends env Grows Q p s' := by
  cases p with
  | done r => exact hq r s s' hs h
  | io t k => exact fun s1 h1 => h s1 (hs.trans h1)
  | act f k => exact fun s1 h1 => h s1 (hs.trans h1)

/-- Whatever the result, the state has grown. -/
def Growing {α : Type} (env : Env) (p : Prog α) : Prop := ∀ s, Ends env Grows (fun _ s' => Grows s s') p s

theorem growing_bind {α β : Type} {p : Prog α} {f : α → Prog β} (hp : Growing env p) (hf : ∀ a, Growing env (f a)) : Growing env (p >>= f) := fun s =>
  ends_bind (hp s) (fun a s1 h1 => ends_mono (hf a s1) fun _ _ h => h1.trans h) fun _ _ h => h

theorem growing_pure {α : Type} (a : α) : Growing env (pure a) := fun s => Grows.rfl s

theorem growing_writeN {data term : PyStr} {pe : Bool} : ∀ depth, Growing env (writeN depth data pe term)
  | 0 => fun s => Grows.rfl s
  | depth + 1 => by
    intro s s1 h1
    have h2 : Grows s { s1 with log := (data ++ term) :: s1.log } := ⟨h1.log.trans (List.suffix_cons _ _), h1.callbacks, h1.trace⟩
    have ih := growing_writeN (data := data) (term := term) (pe := pe) depth
    cases env.reply ((data ++ term) :: s1.log) with
    | timeout d => exact h2
    | lines ls =>
      dsimp only
      split
      · exact h2
      · split
        · split
          · exact h2
          · exact h2
          · have hc : ∀ f : St → St, (∀ s, (f s).log = s.log ∧ (f s).callbacks = s.callbacks ∧ (f s).smsTrace = s.smsTrace) → Growing env (change f) := fun f hf s s2 h =>
              ⟨(hf s2).1 ▸ h.log, (hf s2).2.1 ▸ h.callbacks, (hf s2).2.2 ▸ h.trace⟩
            refine ends_mono (Q := fun _ s' => Grows { s1 with log := (data ++ term) :: s1.log } s') ?_ fun _ _ h => h2.trans h
            refine growing_bind (hc _ ?_) (fun _ => growing_bind ih fun r => growing_bind (hc _ ?_) fun _ => growing_pure r) _
            all_goals exact fun _ => ⟨rfl, rfl, rfl⟩
        · exact h2

theorem linked_growing : Linked (fun {_} p => Growing env p) fun _ => True where
  done r := fun s => Grows.rfl s
  act f k h hk := fun s s1 h1 => ends_mono (hk env s1 (f env s1)) fun _ _ h2 => (h1.trans (settings_grows (h env s1))).trans h2
  bind := growing_bind
  write data pe _ := fun s s1 h1 => ends_mono (growing_writeN env.depth s1) fun _ _ h2 => h1.trans h2
  except hp hh := by
    rename_i α p c h
    have key : ∀ (p : Prog α) (s0 s : St), Ends env Grows (fun _ s' => Grows s0 s') p s → Ends env Grows (fun _ s' => Grows s0 s') (Prog.except p c h) s := by
      intro p
      induction p with
      | done r =>
        intro s0 s hs
        cases r with
        | ok a => exact hs
        | error e =>
          simp only [Prog.except]
          split
          · exact ends_mono (hh e s) fun _ _ h2 => Grows.trans hs h2
          · exact hs
      | io t k ih => exact fun s0 s hs s1 h1 => ih _ s0 _ (hs s1 h1)
      | act g k ih => exact fun s0 s hs s1 h1 => ih _ _ s0 _ (hs s1 h1)
    exact fun s => key p s s (hp s)

theorem ends_try {data : PyStr} {s : St} : Ends env Grows (Good fun r s' => Grows s s' ∧ ∀ ls, r = some ls → Wrote env (data ++ [13]) s ls s') (tryCommand (write data)) s := by
  have key : ∀ (p : Prog (Option (List PyStr))) (s : St) (Q : Option (List PyStr) → St → Prop), Ends env Grows (Good Q) p s → Ends env Grows (fun _ s' => Grows s s') p s →
      Ends env Grows (Good fun r s' => Grows s s' ∧ ∀ ls, r = some ls → Q r s') (Prog.except p (fun e => match e with | .command _ _ => true | _ => false) fun _ => pure none) s := by
    intro p s Q
    suffices h : ∀ (p : Prog (Option (List PyStr))) (s0 s : St), Ends env Grows (Good Q) p s → Ends env Grows (fun _ s' => Grows s0 s') p s →
        Ends env Grows (Good fun r s' => Grows s0 s' ∧ ∀ ls, r = some ls → Q r s') (Prog.except p (fun e => match e with | .command _ _ => true | _ => false) fun _ => pure none) s from h p s s
    intro p
    induction p with
    | done r =>
      intro s0 s h1 h2
      cases r with
      | ok a => exact ⟨h2, fun _ _ => h1⟩
      | error e =>
        simp only [Prog.except]
        split
        · exact ⟨h2, fun _ h => nomatch h⟩
        · trivial
    | io t k ih => exact fun s0 s h1 h2 s1 hs => ih _ s0 _ (h1 s1 hs) (h2 s1 hs)
    | act g k ih => exact fun s0 s h1 h2 s1 hs => ih _ _ s0 _ (h1 s1 hs) (h2 s1 hs)
  refine ends_mono (key _ s (fun r s' => ∀ ls, r = some ls → Wrote env (data ++ [13]) s ls s') (ends_then ends_write fun ls s1 h1 => ?_)
    (growing_bind (linked_growing.write data true trivial) (fun ls => linked_growing.done (.ok (some ls))) s)) fun r s1 h => ?_
  · intro ls' h
    cases h
    exact h1
  · cases r with
    | error e => trivial
    | ok r => exact ⟨h.1, fun ls hl => h.2 ls hl ls hl⟩

theorem wrote_performed {c : PyStr} {s s' : St} {ls : List PyStr} (h : Wrote env c s ls s') : ∃ l, Performed env.reply [c] s.log l ∧ l <:+ s'.log := by
  obtain ⟨_, l, h1, h2, _, h3⟩ := h
  exact ⟨_, .cons h1 h2 (.nil _), h3⟩

/-- The commands were performed since `a`. -/
def Did (env : Env) (cs : List PyStr) (a b : St) : Prop := ∃ l, Performed env.reply cs a.log l ∧ l <:+ b.log

theorem performed_from {reply : List PyStr → Reply} {cs a a' b : List PyStr} (h : Performed reply cs a' b) (ha : a <:+ a') (hc : cs ≠ []) : Performed reply cs a b := by
  cases cs with
  | nil => exact absurd rfl hc
  | cons c cs => exact performed_later h ha

theorem did_grow {cs : List PyStr} {a b c : St} (h : Did env cs a b) (hg : Grows b c) : Did env cs a c := by
  obtain ⟨l, h1, h2⟩ := h
  exact ⟨l, h1, h2.trans hg.log⟩

theorem did_append {cs : List PyStr} {c : PyStr} {a b d : St} (h : Did env cs a b) (h' : Did env [c] b d) : Did env (cs ++ [c]) a d := by
  obtain ⟨l, h1, h2⟩ := h
  obtain ⟨l', h3, h4⟩ := h'
  exact ⟨l', performed_append h1 (performed_later h3 h2), h4⟩

theorem ends_did {data : PyStr} {s0 s : St} {cs : List PyStr} (h : Did env cs s0 s) : Ends env Grows (Good fun _ s' => Did env (cs ++ [data ++ [13]]) s0 s') (write data) s :=
  ends_mono ends_write fun r s1 h1 => by
    cases r with
    | error e => trivial
    | ok ls => exact did_append h (wrote_performed h1)

theorem ends_after {α : Type} {p : Prog α} {s0 s : St} {cs : List PyStr} (h : Did env cs s0 s) (hp : Growing env p) : Ends env Grows (Good fun _ s' => Did env cs s0 s') p s :=
  ends_mono (hp s) fun r s1 h1 => by
    cases r with
    | error e => trivial
    | ok ls => exact did_grow h h1

theorem ends_connect {pin : Option PyStr} {s : St} :
    Ends env Grows (Good fun _ s' => ∃ textMode : Bool, Did env [py!"ATZ\r", py!"ATE0\r", py!"AT+CMEE=1\r", if textMode then py!"AT+CMGF=1\r" else py!"AT+CMGF=0\r"] s s') (connect pin) s := by
  have L := linked_growing (env := env)
  have D := commands_all
  have h0 : Did env [] s s := ⟨s.log, .nil _, List.suffix_rfl⟩
  have hu : Growing env (unlockSim pin) := link_unlock L trivial fun _ _ => trivial
  have hrest : ∀ (b : Bool) (s1 : St), Did env [py!"ATZ\r"] s s1 → Ends env Grows (Good fun _ s' => Did env [py!"ATZ\r", py!"ATE0\r", py!"AT+CMEE=1\r"] s s') (connectRest pin b) s1 := by
    intro b s1 h1
    unfold connectRest
    refine ends_then (ends_did h1) fun _ s2 h2 => ends_then (ends_after h2 (link_radio L D)) fun _ s3 h3 => ends_then (ends_did h3) fun _ s4 h4 => ?_
    split
    · exact ends_after h4 hu
    · exact h4
  unfold connect
  refine ends_then (Q := fun _ s1 => Did env [] s s1) (ends_change fun s1 h1 => did_grow h0 ⟨h1.log, h1.callbacks, h1.trace⟩) fun _ s1 h1 => ?_
  refine ends_then (Q := fun _ s2 => Did env [py!"ATZ\r", py!"ATE0\r", py!"AT+CMEE=1\r"] s s2) ?_ fun _ s2 h2 => ?_
  · unfold connectBasics
    refine ends_then ends_try fun r s2 ⟨h2, h3⟩ => ?_
    cases r with
    | none =>
      dsimp only
      refine ends_then (ends_after (did_grow h1 h2) (L.write _ _ trivial)) fun _ s3 h3 => ends_then (ends_after h3 hu) fun _ s4 h4 => ends_then (ends_did h4) fun _ s5 h5 => hrest true s5 h5
    | some ls =>
      exact hrest false s2 (did_append h1 (wrote_performed (h3 ls rfl)))
  · refine ends_then (ends_after h2 (link_identify L D)) fun _ s3 h3 => ends_then (ends_after h3 (link_callTable L _ _)) fun _ s4 h4 => ?_
    refine ends_then (Q := fun _ s5 => ∃ textMode : Bool, Did env [py!"ATZ\r", py!"ATE0\r", py!"AT+CMEE=1\r", if textMode then py!"AT+CMGF=1\r" else py!"AT+CMGF=0\r"] s s5) ?_ fun _ s5 ⟨b, h5⟩ => ?_
    · unfold connectSms
      refine ends_then (ends_after h4 (L.write _ _ trivial)) fun _ s5 h5 => ends_look fun s6 h6 => ends_then (ends_did (did_grow h5 h6)) fun _ s7 h7 => ?_
      have h8 : Did env [py!"ATZ\r", py!"ATE0\r", py!"AT+CMEE=1\r", if s6.smsTextMode then py!"AT+CMGF=1\r" else py!"AT+CMGF=0\r"] s s7 := by
        cases hm : s6.smsTextMode <;> rw [hm] at h7 <;> exact h7
      have hf : Growing env firstSmsc := by
        unfold firstSmsc
        refine L.bind (link_look L) fun s => ?_
        split
        · exact L.bind (L.write _ _ trivial) fun _ => link_pure L _
        · exact link_getSmsc L D
      have hk : ∀ r, Growing env (keepSmsc r) := fun r => by
        cases r with
        | none => exact L.bind (L.write _ _ trivial) fun _ => link_pure L _
        | some n =>
          exact L.bind (link_change L fun _ => ⟨rfl, rfl, rfl, rfl, rfl, rfl, rfl, rfl, rfl, rfl, rfl, rfl, rfl⟩) fun _ => L.bind (L.write _ _ trivial) fun _ => L.bind (link_getSmsc L D) fun _ =>
            link_ite L (link_setSmsc L D _) (link_pure L _)
      refine ends_then (ends_after h8 hf) fun r s9 h9 => ends_mono (ends_after h9 (hk r)) fun r s10 h10 => ?_
      cases r with
      | error e => trivial
      | ok _ => exact ⟨_, h10⟩
    · refine ends_mono (ends_after h5 (L.bind (link_memory L D) fun _ => link_notifications L D)) fun r s6 h6 => ?_
      cases r with
      | error e => trivial
      | ok _ => exact ⟨b, h6⟩

end Prog
end Gsm
