import Verif.Spec.Poison
import Verif.Lemmas.StoreMethods
import Verif.Props.Hex
/-! # Stored messages that cannot be understood -/
namespace Gsm
open M Spec List

variable {env : Env} {shelf : List PyStr → Shelf} {came : List PyStr → List HeldSms}

theorem carries_message {pdu : PyStr} {n : Nat} {m : Msg} (h : Carries pdu n m) : IsMessage pdu := by
  rcases h with ⟨a, b, c, d, e, f, h, -⟩ | ⟨a, b, c, d, e, f, g, h, -⟩
  · exact ⟨_, .inl ⟨_, _, _, _, _, _, h, rfl⟩⟩
  · exact ⟨_, .inr ⟨_, _, _, _, _, _, _, h, rfl⟩⟩

theorem message_carries {pdu : PyStr} (h : IsMessage pdu) (n : Nat) : ∃ m, Carries pdu n m := by
  obtain ⟨m, ⟨a, b, c, d, e, f, h, -⟩ | ⟨a, b, c, d, e, f, g, h, -⟩⟩ := h
  · exact ⟨_, .inl ⟨_, _, _, _, _, _, h, rfl⟩⟩
  · exact ⟨_, .inr ⟨_, _, _, _, _, _, _, h, rfl⟩⟩

theorem kinds (pdu : PyStr) : IsMessage pdu ∨ Garbled pdu ∨ ∃ e, Stumbles pdu e := by
  cases h : decodeSmsPdu pdu with
  | error e =>
    by_cases he : e = .encodingError
    · subst he; exact .inr (.inl h)
    · exact .inr (.inr ⟨e, .inl ⟨h, he⟩⟩)
  | ok d =>
    obtain ⟨smsc, len, body⟩ := d
    cases body with
    | deliver a b c d => exact .inl ⟨_, .inl ⟨_, _, _, _, _, _, h, rfl⟩⟩
    | submit a b c d e => exact .inr (.inr ⟨_, .inr ⟨⟨_, _, _, _, _, _, _, h⟩, rfl⟩⟩)
    | statusReport a b c d e => exact .inl ⟨_, .inr ⟨_, _, _, _, _, _, _, h, rfl⟩⟩

theorem stumbles_apart {pdu : PyStr} {e : PyErr} (h : Stumbles pdu e) : ¬ Garbled pdu ∧ ¬ IsMessage pdu := by
  constructor
  · intro g
    unfold Garbled at g
    rcases h with ⟨h, he⟩ | ⟨⟨_, _, _, _, _, _, _, h⟩, -⟩
    · rw [g] at h; cases h; exact he rfl
    · rw [g] at h; cases h
  · rintro ⟨m, ⟨_, _, _, _, _, _, g, -⟩ | ⟨_, _, _, _, _, _, _, g, -⟩⟩ <;>
    rcases h with ⟨h, he⟩ | ⟨⟨_, _, _, _, _, _, _, h⟩, -⟩ <;> rw [g] at h <;> cases h

theorem garbled_apart {pdu : PyStr} (g : Garbled pdu) : ¬ IsMessage pdu := by
  unfold Garbled at g
  rintro ⟨m, ⟨_, _, _, _, _, _, h, -⟩ | ⟨_, _, _, _, _, _, _, h, -⟩⟩ <;> rw [g] at h <;> cases h

theorem stumbles_unique {pdu : PyStr} {e e' : PyErr} (h : Stumbles pdu e) (h' : Stumbles pdu e') : e = e' := by
  rcases h with ⟨h, he⟩ | ⟨⟨_, _, _, _, _, _, _, h⟩, rfl⟩ <;> rcases h' with ⟨h', he'⟩ | ⟨⟨_, _, _, _, _, _, _, h'⟩, rfl⟩
  · rw [h] at h'; cases h'; rfl
  · rw [h] at h'; cases h'
  · rw [h] at h'; cases h'
  · rfl

theorem plus_garbled {c : PyStr} (h : 43 ∈ c) : decodeSmsPdu c = .error .encodingError := by
  have : unhex c = none := unhex_none.2 (.inr ⟨43, h, by simp [IsHexChar]⟩)
  simp [decodeSmsPdu, this]

theorem ok_garbled : decodeSmsPdu py!"OK" = .error .encodingError := by decide

/-- What the loop makes of what a listing is taken for. -/
def asListing (acc : Listing) : Except PyErr (List (Nat × Msg)) → Except PyErr Listing
  | .ok ms => .ok ⟨acc.messages ++ ms.map Prod.snd, (ms.map fun p => (p.1 : Int)).foldl setAdd acc.delMessages⟩
  | .error e => .error e

def asPending : Option (Nat × Nat) → Option (Int × Int)
  | none => none
  | some p => some ((p.1 : Int), (p.2 : Int))

theorem carries_msg {pdu : PyStr} {n : Nat} {m : Msg} (h : Carries pdu n m) : ∃ d, decodeSmsPdu pdu = .ok d ∧ msgOfPdu n d = .ok m := by
  rcases h with ⟨_, _, _, _, _, _, h, rfl⟩ | ⟨_, _, _, _, _, _, _, h, rfl⟩
  · exact ⟨_, h, rfl⟩
  · exact ⟨_, h, rfl⟩

/-- The header of an entry only matters if nothing is left over. -/
theorem loop_header {e : PduEntry} (he : e.Ok) (acc : Listing) (left : Option (Nat × Nat)) (rest : List PyStr) :
    pduListLoop acc (asPending left) (e.lines ++ rest) = pduListLoop acc (asPending (some (left.getD (decVal e.index, decVal e.status)))) (e.pdu :: rest) := by
  simp only [PduEntry.lines, cons_append, nil_append]
  cases left with
  | none =>
    have hh := cmglPdu_header he
    simp only [cons_append, nil_append] at hh
    rw [asPending, pduListLoop]
    simp only [hh, pyInt_of_digits he.2.1, pyInt_of_digits he.2.2.2.1, bind, Except.bind]
    rfl
  | some p =>
    have hg : ∀ t : PyStr, decodeSmsPdu (43 :: t) = .error .encodingError := fun t => plus_garbled (by simp)
    rw [asPending, pduListLoop]
    simp only [hg]
    rfl

theorem listedAs_loop {left : Option (Nat × Nat)} {es : List PduEntry} {r : Except PyErr (List (Nat × Msg))} (h : ListedAs left es r) :
    (∀ e ∈ es, e.Ok) → ∀ acc, pduListLoop acc (asPending left) (es.flatMap PduEntry.lines ++ [py!"OK"]) = asListing acc r := by
  induction h with
  | nil left =>
    intro _ acc
    cases left with
    | none => simp [pduListLoop, asPending, asListing, cmglPdu_ok]
    | some p => simp [pduListLoop, asPending, asListing, ok_garbled]
  | @garbled left e es r hg _ ih =>
    intro hok acc
    rw [flatMap_cons, append_assoc, loop_header (hok e (by simp)), ← ih (fun x hx => hok x (by simp [hx]))]
    unfold Garbled at hg
    conv => lhs; rw [asPending, pduListLoop]
    simp only [hg]
    rfl
  | @message left e es ms m hm _ ih =>
    intro hok acc
    obtain ⟨d, hd, hm⟩ := carries_msg hm
    rw [flatMap_cons, append_assoc, loop_header (hok e (by simp)), asPending, pduListLoop]
    simp only [hd, hm, bind, Except.bind]
    rw [show (none : Option (Int × Int)) = asPending none from rfl, ih (fun x hx => hok x (by simp [hx]))]
    simp [asListing]
  | @later left e es m x hm _ ih =>
    intro hok acc
    obtain ⟨d, hd, hm⟩ := carries_msg hm
    rw [flatMap_cons, append_assoc, loop_header (hok e (by simp)), asPending, pduListLoop]
    simp only [hd, hm, bind, Except.bind]
    rw [show (none : Option (Int × Int)) = asPending none from rfl, ih (fun x hx => hok x (by simp [hx]))]
    simp [asListing]
  | @stumbles left e es x hs =>
    intro hok acc
    rw [flatMap_cons, append_assoc, loop_header (hok e (by simp)), asPending, pduListLoop]
    rcases hs with ⟨h, he⟩ | ⟨⟨_, _, _, _, _, _, _, h⟩, rfl⟩
    · cases x <;> simp_all [asListing]
    · simp [h, msgOfPdu, bind, Except.bind, asListing]

theorem listedAs_total : ∀ (es : List PduEntry) (left : Option (Nat × Nat)), ∃ r, ListedAs left es r
  | [], left => ⟨_, .nil left⟩
  | e :: es, left => by
    rcases kinds e.pdu with h | h | ⟨x, h⟩
    · obtain ⟨m, hm⟩ := message_carries h (left.getD (decVal e.index, decVal e.status)).2
      obtain ⟨r, hr⟩ := listedAs_total es none
      cases r with
      | ok ms => exact ⟨_, .message hm hr⟩
      | error x => exact ⟨_, .later hm hr⟩
    · obtain ⟨r, hr⟩ := listedAs_total es (some (left.getD (decVal e.index, decVal e.status)))
      exact ⟨r, .garbled h hr⟩
    · exact ⟨_, .stumbles h⟩

theorem listedAs_error {left : Option (Nat × Nat)} {es : List PduEntry} {r : Except PyErr (List (Nat × Msg))} (h : ListedAs left es r) :
    (∃ x, r = .error x) ↔ ∃ e ∈ es, ∃ x, Stumbles e.pdu x := by
  induction h with
  | nil => simp
  | garbled hg _ ih =>
    rw [ih]
    simp only [mem_cons, exists_eq_or_imp]
    exact ⟨.inr, fun h => h.resolve_left fun ⟨x, hx⟩ => (stumbles_apart hx).1 hg⟩
  | message hm _ ih =>
    simp only [mem_cons, exists_eq_or_imp]
    refine ⟨(fun ⟨x, h⟩ => by cases h), fun h => ?_⟩
    rcases h with ⟨x, hx⟩ | h
    · exact absurd (carries_message hm) (stumbles_apart hx).2
    · obtain ⟨x, hx⟩ := ih.2 h; cases hx
  | later hm _ ih =>
    simp only [mem_cons, exists_eq_or_imp]
    exact ⟨fun _ => .inr (ih.1 ⟨_, rfl⟩), fun _ => ⟨_, rfl⟩⟩
  | stumbles hs => exact ⟨fun _ => ⟨_, by simp, _, hs⟩, fun _ => ⟨_, rfl⟩⟩

theorem carries_unique {pdu : PyStr} {n : Nat} {m m' : Msg} (h : Carries pdu n m) (h' : Carries pdu n m') : m = m' := by
  obtain ⟨d, h1, h2⟩ := carries_msg h
  obtain ⟨d', h3, h4⟩ := carries_msg h'
  rw [h1] at h3
  cases h3
  rw [h2] at h4
  cases h4
  rfl

theorem listedAs_unique {left : Option (Nat × Nat)} {es : List PduEntry} {r r' : Except PyErr (List (Nat × Msg))} (h : ListedAs left es r) : ListedAs left es r' → r = r' := by
  induction h generalizing r' with
  | nil => rintro ⟨⟩; rfl
  | garbled hg _ ih =>
    intro h
    cases h with
    | garbled _ h => exact ih h
    | message h => exact absurd (carries_message h) (garbled_apart hg)
    | later h => exact absurd (carries_message h) (garbled_apart hg)
    | stumbles h => exact absurd hg (stumbles_apart h).1
  | message hm _ ih =>
    intro h
    cases h with
    | garbled hg => exact absurd (carries_message hm) (garbled_apart hg)
    | message h h' => cases ih h'; rw [carries_unique hm h]
    | later h h' => cases ih h'
    | stumbles h => exact absurd (carries_message hm) (stumbles_apart h).2
  | later hm _ ih =>
    intro h
    cases h with
    | garbled hg => exact absurd (carries_message hm) (garbled_apart hg)
    | message h h' => cases ih h'
    | later h h' => exact ih h'
    | stumbles h => exact absurd (carries_message hm) (stumbles_apart h).2
  | stumbles hs =>
    intro h
    cases h with
    | garbled hg => exact absurd hg (stumbles_apart hs).1
    | message h => exact absurd (carries_message h) (stumbles_apart hs).2
    | later h => exact absurd (carries_message h) (stumbles_apart hs).2
    | stumbles h => rw [stumbles_unique hs h]

theorem entries_of_shown {shown : List HeldSms} {es : List PduEntry} (h : Forall₂ EntryOf shown es) {x : HeldSms} (hx : x ∈ shown) : ∃ e ∈ es, e.pdu = x.pdu := by
  induction h with
  | nil => exact absurd hx (by simp)
  | cons h1 _ ih =>
    rcases mem_cons.1 hx with rfl | hx
    · exact ⟨_, by simp, h1.2.2.2⟩
    · obtain ⟨e, he, h⟩ := ih hx
      exact ⟨e, by simp [he], h⟩

/-- Listing a state with a message that makes the program stumble. -/
theorem list_stumbles (H : Keeping env.reply shelf came) (hd : 0 < env.depth) {k : Nat} (hk1 : k ≤ 4) (delete : Bool) {s : St} (hk : Knows shelf s)
    {x : HeldSms} (hx : x ∈ (shelf s.log).listed k) {e : PyErr} (hp : Stumbles x.pdu e) :
    ∃ e', listStoredSms k none delete env s = (.error e', { s with log := (py!"AT+CMGL=" ++ decStr k ++ [13]) :: s.log }) ∧
      Balance shelf came s.log ((py!"AT+CMGL=" ++ decStr k ++ [13]) :: s.log) [] ∧
      (shelf ((py!"AT+CMGL=" ++ decStr k ++ [13]) :: s.log)) =
        ((shelf s.log).with (came ((py!"AT+CMGL=" ++ decStr k ++ [13]) :: s.log))).look fun y =>
          decide (y ∈ ((shelf s.log).with (came ((py!"AT+CMGL=" ++ decStr k ++ [13]) :: s.log))).listed k) := by
  obtain ⟨c, hc⟩ : ∃ c, c = py!"AT+CMGL=" ++ decStr k ++ [13] := ⟨_, rfl⟩
  have hb : Bids c (.list k) := hc ▸ Bids.list hk1
  have hdel : ∀ i, ¬ Bids c (.delete i) := fun i hi => by cases bids_unique hb hi
  have hcl : ∀ i, ¬ Bids c (.clear i) := fun i hi => by cases bids_unique hb hi
  have hob := serves_order (H.serves c s.log) hb
  obtain ⟨m0, hm0⟩ : ∃ m0, m0 = (shelf s.log).with (came (c :: s.log)) := ⟨_, rfl⟩
  rw [← hc, ← hm0]
  rw [← hm0] at hob
  have hx0 : x ∈ m0.listed k := by
    rw [hm0]
    simp only [Shelf.listed, Shelf.with, mem_filter, mem_append, decide_eq_true_eq] at hx ⊢
    exact ⟨.inl hx.1, decide_eq_true hx.2⟩
  obtain ⟨shown, es, hsh, hf, hr, hl⟩ : ∃ shown es, shown ~ m0.listed k ∧ List.Forall₂ EntryOf shown es ∧
      env.reply (c :: s.log) = .lines (es.flatMap PduEntry.lines ++ [py!"OK"]) ∧ shelf (c :: s.log) = m0.look fun y => decide (y ∈ m0.listed k) := by
    generalize shelf (c :: s.log) = m' at hob ⊢
    generalize env.reply (c :: s.log) = r at hob ⊢
    cases hob with
    | list h1 h2 => exact ⟨_, _, h1, h2, rfl, rfl⟩
  obtain ⟨-, hok⟩ := shown_places hf
  obtain ⟨en, hen, hpdu⟩ := entries_of_shown hf (hsh.symm.subset hx0)
  obtain ⟨r, hlist⟩ := listedAs_total es none
  obtain ⟨e', rfl⟩ := (listedAs_error hlist).2 ⟨en, hen, e, hpdu ▸ hp⟩
  have hparse : parseListing false (es.flatMap PduEntry.lines ++ [py!"OK"]) = .error e' := by
    unfold parseListing
    rw [if_neg (by simp)]
    exact listedAs_loop hlist hok ⟨[], []⟩
  refine ⟨e', ?_, balance_other H hdel hcl, hl⟩
  have h0 : setSmsMemory none none env s = (.ok (), s) := rfl
  have hw : write (py!"AT+CMGL=" ++ intStr (k : Int)) true [13] env s = (.ok (es.flatMap PduEntry.lines ++ [py!"OK"]), { s with log := c :: s.log }) := by
    have : py!"AT+CMGL=" ++ intStr (k : Int) ++ [13] = c := hc.symm
    rw [← this] at hr ⊢
    exact obeyed_write hd hr (by simp)
  unfold listStoredSms
  simp only [run_bind, run_get, run_ofExcept, h0, listCommand, hk.1, Bool.false_eq_true, if_false, hw, hparse]

end Gsm
