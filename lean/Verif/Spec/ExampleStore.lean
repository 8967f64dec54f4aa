import Verif.Lemmas.StoreOps
import Verif.Spec.ExampleModem
import Verif.Props.ModemListing
/-! # A modem that keeps messages, for the examples beside the theorems -/
namespace Gsm
open Spec List

/-- What is between two texts. -/
def between (p q c : PyStr) : Option PyStr :=
  let m := (c.drop p.length).take (c.length - p.length - q.length)
  if c = p ++ m ++ q then some m else none

theorem between_self (p q m : PyStr) : between p q (p ++ m ++ q) = some m := by
  have : ((p ++ m ++ q).drop p.length).take ((p ++ m ++ q).length - p.length - q.length) = m := by
    simp
  simp [between, this]

theorem between_some {p q c m : PyStr} (h : between p q c = some m) : c = p ++ m ++ q := by
  unfold between at h
  simp only at h
  split at h
  · next h1 => cases h; exact h1
  · cases h

def isDigits (s : PyStr) : Bool := s != [] && s.all fun c => 48 ≤ c && c ≤ 57
theorem isDigits_iff {s : PyStr} : isDigits s = true ↔ Digits s := by simp [isDigits, Digits]

def isQuotable (s : PyStr) : Bool := s != [] && !s.contains 34
theorem isQuotable_iff {s : PyStr} : isQuotable s = true ↔ Quotable s := by simp [isQuotable, Quotable]

/-- The first name of `"m",…`. -/
def firstName (x : PyStr) : Option PyStr :=
  let m := x.takeWhile (· ≠ 34)
  if isQuotable m && (py!"\",").isPrefixOf (x.drop m.length) then some m else none

theorem takeWhile_upto {m t : PyStr} (h : 34 ∉ m) : (m ++ 34 :: t).takeWhile (· ≠ 34) = m := by
  rw [takeWhile_append_of_pos (fun c hc => by simp only [ne_eq, decide_eq_true_eq]; rintro rfl; exact h hc)]
  simp

theorem firstName_some {x m : PyStr} (h : firstName x = some m) : Quotable m ∧ ∃ rest, x = m ++ py!"\"," ++ rest := by
  unfold firstName at h
  simp only at h
  split at h
  · next h1 =>
    cases h
    simp only [Bool.and_eq_true] at h1
    refine ⟨isQuotable_iff.1 h1.1, ?_⟩
    obtain ⟨rest, hr⟩ := List.isPrefixOf_iff_prefix.1 h1.2
    refine ⟨rest, ?_⟩
    rw [append_assoc, hr]
    have e := takeWhile_append_dropWhile (p := fun c => decide (c ≠ 34)) (l := x)
    conv => lhs; rw [← e]
    congr 1
    have := congrArg (List.drop (x.takeWhile (· ≠ 34)).length) e
    rw [drop_left] at this
    exact this
  · cases h

theorem firstName_self {m rest : PyStr} (h : Quotable m) : firstName (m ++ py!"\"," ++ rest) = some m := by
  have e : m ++ py!"\"," ++ rest = m ++ 34 :: (44 :: rest) := by simp
  unfold firstName
  simp only [e, takeWhile_upto h.2, drop_left, isQuotable_iff.2 h]
  simp

/-- The command in a line. -/
def orderOf (c : PyStr) : Option ShelfOrder :=
  if let some m := (between py!"AT+CPMS=\"" py!"\"\r" c).filter isQuotable then some (.select m)
  else if let some k := (List.range 5).find? fun k => c == py!"AT+CMGL=" ++ decStr k ++ py!"\r" then some (.list k)
  else if let some i := (between py!"AT+CMGR=" py!"\r" c).filter isDigits then some (.read (decVal i))
  else if let some i := (between py!"AT+CMGD=" py!",0\r" c).filter isDigits then some (.delete (decVal i))
  else if let some f := [1, 2, 3, 4].find? fun f => c == py!"AT+CMGD=1," ++ decStr f ++ py!"\r" then some (.clear f)
  else if let some m := (between py!"AT+CPMS=\"" py!"\r" c).bind firstName then some (.select m)
  else if c = py!"ATZ\r" then some .reset
  else none

theorem orderOf_sound {c : PyStr} {o : ShelfOrder} (h : orderOf c = some o) : Bids c o := by
  unfold orderOf at h
  split at h
  · next m hm =>
    cases h
    obtain ⟨h1, h2⟩ := Option.filter_eq_some_iff.1 hm
    rw [between_some h1]; exact .select (isQuotable_iff.1 h2)
  split at h
  · next k hk =>
    cases h
    have h1 := find?_some hk
    have h2 := mem_of_find?_eq_some hk
    rw [eq_of_beq h1]; exact .list (by simp at h2; omega)
  split at h
  · next i hi =>
    cases h
    obtain ⟨h1, h2⟩ := Option.filter_eq_some_iff.1 hi
    rw [between_some h1]; exact .read (isDigits_iff.1 h2)
  split at h
  · next i hi =>
    cases h
    obtain ⟨h1, h2⟩ := Option.filter_eq_some_iff.1 hi
    rw [between_some h1]; exact .delete (isDigits_iff.1 h2)
  split at h
  · next f hf =>
    cases h
    have h1 := find?_some hf
    have h2 := mem_of_find?_eq_some hf
    rw [eq_of_beq h1]; simp at h2; exact .clear (by omega) (by omega)
  split at h
  · next m hm =>
    cases h
    obtain ⟨x, h1, h2⟩ := Option.bind_eq_some_iff.1 hm
    obtain ⟨h3, rest, rfl⟩ := firstName_some h2
    rw [between_some h1]
    have := Bids.prefer (rest := rest) h3
    simpa using this
  split at h
  · next hz => cases h; rw [hz]; exact .reset
  · cases h

theorem orderOf_complete {c : PyStr} {o : ShelfOrder} (h : Bids c o) : orderOf c = some o := by
  cases ho : orderOf c with
  | some o' => rw [bids_unique h (orderOf_sound ho)]
  | none =>
    exfalso
    unfold orderOf at ho
    split at ho
    · cases ho
    next h1 =>
    split at ho
    · cases ho
    next h2 =>
    split at ho
    · cases ho
    next h3 =>
    split at ho
    · cases ho
    next h4 =>
    split at ho
    · cases ho
    next h5 =>
    split at ho
    · cases ho
    next h6 =>
    split at ho
    · cases ho
    next h7 =>
    cases h with
    | @prefer m rest hm =>
      refine h6 m (Option.bind_eq_some_iff.2 ⟨m ++ py!"\"," ++ rest, ?_, firstName_self hm⟩)
      have := between_self py!"AT+CPMS=\"" py!"\r" (m ++ py!"\"," ++ rest)
      simpa using this
    | reset => exact h7 rfl
    | @select m hm => exact h1 m (Option.filter_eq_some_iff.2 ⟨between_self .., isQuotable_iff.2 hm⟩)
    | @list k hk =>
      cases hf : (List.range 5).find? fun k' => py!"AT+CMGL=" ++ decStr k ++ py!"\r" == py!"AT+CMGL=" ++ decStr k' ++ py!"\r" with
      | some k' => exact h2 k' hf
      | none => exact absurd (find?_eq_none.1 hf k (by simp; omega)) (by simp)
    | @read i hi => exact h3 i (Option.filter_eq_some_iff.2 ⟨between_self .., isDigits_iff.2 hi⟩)
    | @delete i hi => exact h4 i (Option.filter_eq_some_iff.2 ⟨between_self .., isDigits_iff.2 hi⟩)
    | @clear f hf1 hf4 =>
      cases hf : [1, 2, 3, 4].find? fun f' => py!"AT+CMGD=1," ++ decStr f ++ py!"\r" == py!"AT+CMGD=1," ++ decStr f' ++ py!"\r" with
      | some k' => exact h5 k' hf
      | none => exact absurd (find?_eq_none.1 hf f (by simp; omega)) (by simp)

/-- The entry of a listing. -/
def entryOf (x : HeldSms) : PduEntry := ⟨py!" ", decStr x.place, [], decStr x.state, py!",18", x.pdu⟩

theorem entryOf_ok (x : HeldSms) : EntryOf x (entryOf x) :=
  ⟨⟨by simp [entryOf, Blanks], digits_decStr _, by simp [entryOf, Blanks], digits_decStr _, by simp [entryOf]⟩, decVal_decStr _, decVal_decStr _, rfl⟩

/-- It obeys a command. -/
def obey (m : Shelf) : ShelfOrder → Reply × Shelf
  | .select memory => (.lines [py!"OK"], { m with memory := memory })
  | .list k => (.lines (((m.listed k).map entryOf).flatMap PduEntry.lines ++ [py!"OK"]), m.look fun x => decide (x ∈ m.listed k))
  | .read i => match (m.listed 4).find? fun x => x.place == i with
    | some x => (.lines [py!"+CMGR: " ++ decStr x.state ++ py!",,18", x.pdu, py!"OK"], m.look (m.at i))
    | none => (.lines [py!"+CMS ERROR: 321"], m)
  | .delete i => (.lines [py!"OK"], m.drop (m.at i))
  | .reset => (.lines [py!"OK"], m)
  | .clear f => (.lines [py!"OK"], m.drop fun x => decide (x.memory = m.memory ∧ x.state ∈ cleared f))

theorem obey_ok (m : Shelf) (o : ShelfOrder) : Obeys m o (obey m o).1 (obey m o).2 := by
  cases o with
  | select memory => exact .select rfl
  | list k =>
    refine .list (.refl _) ?_
    rw [forall₂_map_right_iff]
    exact forall₂_same.2 fun x _ => entryOf_ok x
  | read i =>
    simp only [obey]
    split
    · next x hx =>
      have h1 := mem_of_find?_eq_some hx
      have h2 : x.place = i := by simpa using find?_some hx
      subst h2
      refine .read h1 (status := decStr x.state) ⟨[], [], [], py!"18", [], by simp, fun c hc => (digits_decStr _).2 c hc, .inl rfl, .inl rfl, by decide, ⟨by decide, by decide⟩, .inl rfl⟩ ?_
      simp [pduState, (digits_decStr x.state).1, decVal_decStr]
    · next hx => exact .missing fun x hx' => by simpa using find?_eq_none.1 hx x hx'
  | delete i => exact .delete rfl
  | clear f => exact .clear rfl
  | reset => exact .reset (memory := m.memory)

/-- The messages `new` come before command number `k` is obeyed. -/
def comeAt (k : Nat) (new : List HeldSms) (log : List PyStr) : List HeldSms := if log.length = k then new else []

def obeyLine (m : Shelf) (c : PyStr) : Reply × Shelf := match orderOf c with
  | some o => obey m o
  | none => (goodReply c, m)

/-- What it has. -/
def keptBy (start : Shelf) (k : Nat) (new : List HeldSms) : List PyStr → Shelf
  | [] => start
  | c :: log => (obeyLine ((keptBy start k new log).with (comeAt k new (c :: log))) c).2

/-- The modem. -/
def keeper (start : Shelf) (k : Nat) (new : List HeldSms) : Env where
  reply
    | [] => .lines []
    | c :: log => (obeyLine ((keptBy start k new log).with (comeAt k new (c :: log))) c).1
  depth := 10
  order l := l
  order_perm _ := .refl _

theorem obey_spots (m : Shelf) (c : PyStr) : ((obeyLine m c).2.slots.map HeldSms.spot) <+ m.slots.map HeldSms.spot := by
  have hlook : ∀ p, (m.look p).slots.map HeldSms.spot = m.slots.map HeldSms.spot := by
    intro p
    simp only [Shelf.look, map_map]
    refine map_congr_left fun x _ => ?_
    simp only [Function.comp]
    split <;> simp [HeldSms.spot, HeldSms.seen]
    split <;> simp
  have hdrop : ∀ p, (m.drop p).slots.map HeldSms.spot <+ m.slots.map HeldSms.spot := fun p => filter_sublist.map _
  unfold obeyLine
  split
  · next o _ =>
    cases o with
    | select => exact .refl _
    | reset => exact .refl _
    | list k => simp only [obey]; rw [hlook]
    | read i =>
      simp only [obey]
      split
      · simp only; rw [hlook]
      · exact .refl _
    | delete i => exact hdrop _
    | clear f => exact hdrop _
  · exact .refl _

theorem kept_spots {start : Shelf} {k : Nat} {new : List HeldSms} : ∀ log : List PyStr,
    (keptBy start k new log).slots.map HeldSms.spot <+ (if log.length < k then start.slots else start.slots ++ new).map HeldSms.spot
  | [] => by
    simp only [keptBy]
    split
    · exact .refl _
    · simp
  | c :: log => by
    simp only [keptBy]
    refine (obey_spots _ c).trans ?_
    have := kept_spots (start := start) (k := k) (new := new) log
    simp only [Shelf.with, comeAt, map_append, length_cons] at this ⊢
    by_cases h1 : log.length + 1 = k
    · subst h1
      simp only [show log.length < log.length + 1 by omega, if_true, show ¬ log.length + 1 < log.length + 1 by omega, if_false, map_append] at this ⊢
      exact this.append (.refl _)
    · simp only [h1, if_false, map_nil, append_nil]
      refine this.trans ?_
      split
      · split
        · exact .refl _
        · simp
      · rw [if_neg (by omega)]

theorem keeper_keeping {start : Shelf} {k : Nat} {new : List HeldSms} (hk : 0 < k) (h1 : ((start.slots ++ new).map HeldSms.spot).Nodup)
    (h2 : ∀ x ∈ new, x.state = 0 ∧ IsMessage x.pdu) : Keeping (keeper start k new).reply (keptBy start k new) (comeAt k new) where
  serves c log := by
    simp only [keeper, keptBy]
    unfold obeyLine
    cases ho : orderOf c with
    | some o => exact .order (orderOf_sound ho) (obey_ok _ o)
    | none => exact .other fun o hb => by rw [orderOf_complete hb] at ho; cases ho
  places c log := by
    refine Nodup.sublist ?_ h1
    have := kept_spots (start := start) (k := k) (new := new) log
    simp only [comeAt, map_append, length_cons] at this ⊢
    by_cases h : log.length + 1 = k
    · subst h
      simp only [show log.length < log.length + 1 by omega, if_true] at this ⊢
      exact this.append (.refl _)
    · simp only [h, if_false, map_nil, append_nil]
      refine this.trans ?_
      split
      · simp
      · simp
  fresh log x hx := by
    unfold comeAt at hx
    split at hx
    · exact h2 x hx
    · exact absurd hx (by simp)

theorem hi_carries (n : Nat) : Carries hiPdu n (hiMsg n) :=
  .inl ⟨none, 18, some py!"+271234", 0, ⟨2013, 3, 14, 13, 2, 35, 0, some ⟨0, 7200, 0⟩⟩, ⟨none, py!"Hi"⟩, by decide +kernel, by rfl⟩

theorem hi_message : IsMessage hiPdu := ⟨_, hi_carries 0⟩

/-- Two messages, and then a third one comes. -/
def shelfExample : Shelf := ⟨py!"SM", [⟨py!"SM", 3, 1, hiPdu⟩, ⟨py!"ME", 5, 0, hiPdu⟩]⟩
def lateExample : List HeldSms := [⟨py!"SM", 4, 0, hiPdu⟩]
def storeExample (k : Nat) : Env := keeper shelfExample k lateExample

theorem example_keeping (k : Nat) (hk : 0 < k) : Keeping (storeExample k).reply (keptBy shelfExample k lateExample) (comeAt k lateExample) :=
  keeper_keeping hk (by decide +kernel) fun x hx => by
    rw [List.mem_singleton.1 hx]
    exact ⟨rfl, hi_message⟩

theorem example_sound : shelfExample.Sound := fun x hx _ => by
  simp only [shelfExample, mem_cons, not_mem_nil, or_false] at hx
  rcases hx with rfl | rfl <;> exact hi_message

end Gsm
