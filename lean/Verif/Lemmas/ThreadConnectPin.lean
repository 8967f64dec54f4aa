import Verif.Lemmas.ThreadConnectWalk
/-! # The PIN, when other threads take steps in between -/
namespace Gsm
open M Spec

variable {env : Env}

theorem commands_noPin : Prog.ConnectCommands fun c => ¬ SubmitsPin c where
  fixed c hc := by
    have h : ∀ c ∈ ([py!"ATZ", py!"AT+CMEE=1", py!"ATE0", py!"AT+CFUN?", py!"AT+CFUN=1", py!"AT+CLAC", py!"AT^CVOICE=0", py!"AT^USSDMODE=0", py!"AT+WIND?", py!"AT+WIND=50", py!"AT+CGMI",
        py!"AT+ZPAS?", py!"AT+COPS=3,0", py!"AT+CSCA?", py!"AT+CSMP=49,167,0,0", py!"AT+CPMS=?", py!"AT+CNMI=2,1,0,2", py!"AT+CLIP=1", py!"AT+CRC=1", py!"AT+CVHU=0"] : List PyStr),
        py!"AT+CPIN=\"".isPrefixOf (c ++ [13]) = false := by decide
    intro h'
    have := h c hc
    rw [List.isPrefixOf_iff_prefix.2 h'] at this
    cases this
  mode b := by rintro ⟨t, h⟩; simp at h
  smsc n := by rintro ⟨t, h⟩; simp [cscaCmd] at h
  memory x := by rintro ⟨t, h⟩; simp at h

theorem pinOnce_none {pin : Option PyStr} {tr : List (PyStr × Reply)} (h : ∀ x ∈ tr, ¬ SubmitsPin x.1) : PinOnce pin tr := .inl h

theorem pinOnce_after {pin : Option PyStr} {tr l : List (PyStr × Reply)} (h : PinOnce pin tr) (hl : ∀ x ∈ l, ¬ SubmitsPin x.1) : PinOnce pin (tr ++ l) := by
  rcases h with h | ⟨p, before, r, subs, after, h1, h2, h3, h4, h5, h6, h7⟩
  · exact .inl fun x hx => (List.mem_append.1 hx).elim (h x) (hl x)
  · exact .inr ⟨p, before, r, subs, after ++ l, h1, by rw [h2]; simp, h3, h4, h5, h6, fun x hx => (List.mem_append.1 hx).elim (h7 x) (hl x)⟩

namespace Prog

variable {R : St → St → Prop} {I : List (PyStr × Reply) → Prop}

/-- The result is that of the last exchange. -/
def FromLast (text : PyStr) (l : List (PyStr × Reply)) : Except PyErr (List PyStr) → Prop
  | .ok ls => ∃ l', l = l' ++ [(text, .lines ls)]
  | .error (.timeout d) => ∃ l', l = l' ++ [(text, .timeout d)]
  | .error _ => True

theorem fromLast_append {text : PyStr} {l0 l : List (PyStr × Reply)} {r : Except PyErr (List PyStr)} (h : FromLast text l r) : FromLast text (l0 ++ l) r := by
  cases r with
  | ok ls => obtain ⟨l', rfl⟩ := h; exact ⟨l0 ++ l', by simp⟩
  | error e =>
    cases e with
    | timeout d => obtain ⟨l', rfl⟩ := h; exact ⟨l0 ++ l', by simp⟩
    | _ => trivial

theorem traces_changed {acc : List (PyStr × Reply)} {f : St → St} {s : St} (hI : I acc) : Traces env R I (fun a r _ => a = acc ∧ r = .ok ()) acc (change f) s :=
  ⟨hI, fun _ _ => ⟨hI, rfl, rfl⟩⟩

/-- Writing a command, and what the result comes from. -/
theorem traces_askN {data term : PyStr} {acc0 : List (PyStr × Reply)} (hI : ∀ l, Attempts (data ++ term) l → I (acc0 ++ l)) :
    ∀ (depth : Nat) (l0 : List (PyStr × Reply)) (s : St), (∀ x ∈ l0, x.1 = data ++ term ∧ SaysBusy x.2) →
      Traces env R I (fun a r _ => ∃ l, a = acc0 ++ l ∧ Attempts (data ++ term) l ∧ FromLast (data ++ term) l r) (acc0 ++ l0) (writeN depth data true term) s
  | 0, l0, s, h0 => ⟨hI l0 ⟨fun x hx => (h0 x hx).1, fun x hx => (h0 x (List.dropLast_subset _ hx)).2⟩, l0, rfl, ⟨fun x hx => (h0 x hx).1, fun x hx => (h0 x (List.dropLast_subset _ hx)).2⟩, trivial⟩
  | depth + 1, l0, s, h0 => by
    refine ⟨hI l0 ⟨fun x hx => (h0 x hx).1, fun x hx => (h0 x (List.dropLast_subset _ hx)).2⟩, fun s1 _ => ?_⟩
    have hatt : Attempts (data ++ term) (l0 ++ [(data ++ term, env.reply ((data ++ term) :: s1.log))]) := by
      refine ⟨fun x hx => ?_, fun x hx => ?_⟩
      · rcases List.mem_append.1 hx with h | h
        · exact (h0 x h).1
        · rw [List.mem_singleton.1 h]
      · rw [List.dropLast_concat] at hx
        exact (h0 x hx).2
    rw [List.append_assoc]
    have hi := hI _ hatt
    cases hr : env.reply ((data ++ term) :: s1.log) with
    | timeout d => rw [hr] at hatt hi; exact ⟨hi, _, rfl, hatt, l0, rfl⟩
    | lines ls =>
      rw [hr] at hatt hi
      dsimp only
      cases hl : ls.getLast? with
      | none => exact ⟨hi, _, rfl, hatt, trivial⟩
      | some line =>
        simp only [if_true]
        cases hc : classify line with
        | fine => exact ⟨hi, _, rfl, hatt, l0, rfl⟩
        | failed e =>
          refine ⟨hi, _, rfl, hatt, ?_⟩
          have := (failed_of_classify hc).1
          cases e with
          | timeout d => exact absurd rfl (this d)
          | _ => trivial
        | busy code =>
          dsimp only
          have h1 : ∀ x ∈ l0 ++ [(data ++ term, Reply.lines ls)], x.1 = data ++ term ∧ SaysBusy x.2 := fun x hx => by
            rcases List.mem_append.1 hx with h | h
            · exact h0 x h
            · rw [List.mem_singleton.1 h]; exact ⟨rfl, says_busy rfl hl hc⟩
          refine traces_bind (traces_changed hi) (fun acc _ s2 _ ha => ?_) fun a e _ _ h => nomatch h.2
          · rw [ha.1]
            refine traces_bind (traces_askN hI depth _ s2 h1) (fun acc r s3 hi3 ⟨l, ha, hl3, hy⟩ => ?_) fun a e _ _ ⟨l, h1, h2, h3⟩ => ⟨l, h1, h2, ?_⟩
            · refine traces_bind (traces_changed hi3) (fun acc' _ s4 hi4 ha' => ⟨hi4, l, ha'.1.trans ha, hl3, hy⟩) fun a e _ _ h => nomatch h.2
            · cases e with
              | timeout d => exact h3
              | _ => trivial

theorem traces_ask {data : PyStr} {acc : List (PyStr × Reply)} {s : St} (hI : ∀ l, Attempts (data ++ [13]) l → I (acc ++ l)) :
    Traces env R I (fun a r _ => ∃ l, a = acc ++ l ∧ Attempts (data ++ [13]) l ∧ FromLast (data ++ [13]) l r) acc (write data) s := by
  have h := hI [] ⟨(fun _ h => nomatch h), (fun _ h => nomatch h)⟩
  rw [List.append_nil] at h
  unfold write
  refine ⟨h, fun s1 _ => ?_⟩
  have := traces_askN (env := env) (R := R) hI env.depth [] s1 (fun _ h => nomatch h)
  rwa [List.append_nil] at this

/-- No PIN so far. -/
def NoPinYet (tr : List (PyStr × Reply)) : Prop := ∀ x ∈ tr, ¬ SubmitsPin x.1

theorem noPin_query {l : List (PyStr × Reply)} (h : Attempts (py!"AT+CPIN?" ++ [13]) l) : NoPinYet l := by
  intro x hx
  rw [h.1 x hx]
  rintro ⟨t, h⟩
  simp at h

theorem noPin_append {a b : List (PyStr × Reply)} (h : NoPinYet a) (h' : NoPinYet b) : NoPinYet (a ++ b) := fun x hx => (List.mem_append.1 hx).elim (h x) (h' x)

/-- Asking for the state of the PIN. -/
theorem traces_askPin {pin : Option PyStr} {acc : List (PyStr × Reply)} {s : St} (ha : NoPinYet acc) :
    Traces env R (PinOnce pin) (fun a r _ => NoPinYet a ∧ ∀ x, r = .ok x → x ≠ some py!"+CPIN: READY" → ∃ a' r, a = a' ++ [(py!"AT+CPIN?\r", r)] ∧ NotReady r) acc askPin s := by
  have hI : ∀ l, Attempts (py!"AT+CPIN?" ++ [13]) l → PinOnce pin (acc ++ l) := fun l hl => .inl (noPin_append ha (noPin_query hl))
  unfold askPin
  refine traces_except (Q := fun a r _ => NoPinYet a ∧ (∀ x, r = .ok x → ∃ a' ls, a = a' ++ [(py!"AT+CPIN?\r", .lines ls)] ∧ lineStartingWith py!"+CPIN" ls = x) ∧
      ∀ d, r = .error (.timeout d) → ∃ a', a = a' ++ [(py!"AT+CPIN?\r", .timeout d)])
    (traces_bind (traces_ask hI) (fun a ls s1 hi ⟨l, h1, h2, h3⟩ => ?_) fun a e s1 hi ⟨l, h1, h2, h3⟩ => ?_)
    (fun a x s1 hi ⟨h1, h2, h3⟩ => ?_) (fun a e s1 hi hc ⟨h1, h2, h3⟩ => ?_) fun a e s1 hi hc ⟨h1, h2, h3⟩ => ⟨h1, fun _ h => nomatch h⟩
  · obtain ⟨l', rfl⟩ := h3
    refine ⟨hi, h1 ▸ noPin_append ha (noPin_query h2), fun x hx => ?_, fun _ h => nomatch h⟩
    cases hx
    exact ⟨acc ++ l', ls, by rw [h1, List.append_assoc]; rfl, rfl⟩
  · refine ⟨h1 ▸ noPin_append ha (noPin_query h2), (fun _ h => nomatch h), fun d hd => ?_⟩
    cases hd
    obtain ⟨l', rfl⟩ := h3
    exact ⟨acc ++ l', by rw [h1, List.append_assoc]; rfl⟩
  · refine ⟨h1, fun y hy hne => ?_⟩
    cases hy
    obtain ⟨a', ls, rfl, rfl⟩ := h2 x rfl
    exact ⟨a', _, rfl, by show cpinLine ls ≠ _; rwa [← cpinLine_eq]⟩
  · cases e with
    | timeout d =>
      cases d with
      | none => exact ⟨hi, h1, fun _ h => nomatch h⟩
      | some data =>
        dsimp only
        cases hl : lineStartingWith py!"+CPIN" data with
        | none => exact ⟨hi, h1, fun _ h => nomatch h⟩
        | some line =>
          refine ⟨hi, h1, fun y hy hne => ?_⟩
          cases hy
          obtain ⟨a', rfl⟩ := h3 _ rfl
          exact ⟨a', _, rfl, line, by rw [← cpinLine_eq, hl], fun h => hne (by rw [h])⟩
    | _ => exact ⟨hi, h1, fun _ h => nomatch h⟩

theorem traces_unlock {pin : Option PyStr} {acc : List (PyStr × Reply)} {s : St} (ha : NoPinYet acc) :
    Traces env R (PinOnce pin) (fun _ _ _ => True) acc (unlockSim pin) s := by
  unfold unlockSim
  refine traces_bind (traces_askPin ha) (fun a x s1 hi ⟨h1, h2⟩ => ?_) fun _ _ _ _ _ => trivial
  by_cases hx : x ≠ some py!"+CPIN: READY"
  · rw [if_pos hx]
    cases pin with
    | none => exact ⟨hi, trivial⟩
    | some p =>
      obtain ⟨a', r, rfl, hr⟩ := h2 x rfl hx
      dsimp only
      refine traces_bind (traces_ask fun l hl => ?_) (fun _ _ _ hi _ => ⟨hi, trivial⟩) fun _ _ _ _ _ => trivial
      refine .inr ⟨p, a', r, l, [], rfl, by simp, hr, fun x hx => ?_, hl.2, fun x hx => h1 x (List.mem_append_left _ hx), fun _ h => nomatch h⟩
      rw [hl.1 x hx]
      simp
  · rw [if_neg hx]
    exact ⟨hi, trivial⟩

/-- What comes before. -/
theorem traces_before {α : Type} {pin : Option PyStr} {acc : List (PyStr × Reply)} {s : St} {p : Prog α} (ha : NoPinYet acc) (hp : Writing (fun c => ¬ SubmitsPin c) p) :
    Traces env R (PinOnce pin) (fun a _ _ => NoPinYet a) acc p s := by
  have := traces_writing (env := env) (R := R) (I := PinOnce pin) (acc0 := acc) (C := fun c => ¬ SubmitsPin c) (fun l hl => .inl (noPin_append ha hl)) p [] s hp (fun _ h => nomatch h)
  rw [List.append_nil] at this
  refine traces_mono this fun a _ _ _ ⟨l, h1, h2⟩ => ?_
  rw [h1]
  exact noPin_append ha h2

/-- What comes after. -/
theorem traces_after {α : Type} {pin : Option PyStr} {acc : List (PyStr × Reply)} {s : St} {p : Prog α} (ha : PinOnce pin acc) (hp : Writing (fun c => ¬ SubmitsPin c) p) :
    Traces env R (PinOnce pin) (fun _ _ _ => True) acc p s := by
  have := traces_writing (env := env) (R := R) (I := PinOnce pin) (acc0 := acc) (C := fun c => ¬ SubmitsPin c) (fun l hl => pinOnce_after ha hl) p [] s hp (fun _ h => nomatch h)
  rw [List.append_nil] at this
  exact traces_mono this fun _ _ _ _ _ => trivial

theorem traces_connect {pin : Option PyStr} {s : St} : Traces env R (PinOnce pin) (fun _ _ _ => True) [] (connect pin) s := by
  have L := linked_writing (C := fun c => ¬ SubmitsPin c)
  have D := commands_noPin
  have h0 : NoPinYet [] := fun _ h => nomatch h
  have hc : ∀ {c : PyStr} {pe : Bool}, c ∈ ([py!"ATZ", py!"AT+CMEE=1", py!"ATE0"] : List PyStr) → Writing (fun c => ¬ SubmitsPin c) (write c pe) := fun {c pe} h =>
    L.write c pe (D.fixed c (by revert h; simp; rintro (rfl | rfl | rfl) <;> simp))
  unfold connect
  refine traces_bind (traces_before h0 (fun _ _ => trivial)) (fun a _ s1 _ h1 => ?_) fun _ _ _ _ _ => trivial
  refine traces_bind (Q := fun _ _ _ => True) ?_ (fun a _ s2 h2 _ => traces_after h2 (link_rest_of L D)) fun _ _ _ _ _ => trivial
  unfold connectBasics
  refine traces_bind (traces_before h1 (link_try L (hc (by simp)))) (fun a r s2 _ h2 => ?_) fun _ _ _ _ _ => trivial
  cases r with
  | none =>
    dsimp only
    refine traces_bind (traces_before h2 (hc (by simp))) (fun a r s3 _ h3 => ?_) fun _ _ _ _ _ => trivial
    refine traces_bind (traces_unlock h3) (fun a r s4 h4 _ => ?_) fun _ _ _ _ _ => trivial
    exact traces_after h4 (L.bind (hc (by simp)) fun _ => link_rest L D pin)
  | some _ =>
    dsimp only
    unfold connectRest
    refine traces_bind (traces_before h2 (hc (by simp))) (fun a r s3 _ h3 => ?_) fun _ _ _ _ _ => trivial
    refine traces_bind (traces_before h3 (link_radio L D)) (fun a r s4 _ h4 => ?_) fun _ _ _ _ _ => trivial
    refine traces_bind (traces_before h4 (hc (by simp))) (fun a r s5 _ h5 => ?_) fun _ _ _ _ _ => trivial
    exact traces_unlock h5

/-- Nothing is asked of the others. -/
theorem keeps_trivially {α : Type} (p : Prog α) : Keeps env Always (fun _ _ => True) Any p := by
  induction p with
  | done r => cases r <;> trivial
  | io t k ih => exact fun s _ => ⟨trivial, ih _⟩
  | act f k ih => exact fun s _ => ⟨trivial, ih _ _⟩

end Prog
end Gsm
