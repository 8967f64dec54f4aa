import Verif.Spec.ExampleStore
import Verif.Lemmas.TextStore
import Verif.Props.ModemReading
/-! # A modem that keeps messages in both modes, for the examples beside the theorems -/
namespace Gsm.InModes
open Spec List

/-- The state in the name of a listing. -/
def namedIn (c : PyStr) : Option Nat := (stateNames.find? fun p => c == py!"AT+CMGL=\"" ++ p.1 ++ py!"\"\r").map fun p => p.2.toNat

/-- The command in a line. -/
def orderIn (text : Bool) (c : PyStr) : Option ShelfOrder :=
  if text then
    match namedIn c with
    | some k => some (.list k)
    | none => (orderOf c).filter fun o => match o with | .list _ => false | _ => true
  else orderOf c

theorem orderIn_sound {text : Bool} {c : PyStr} {o : ShelfOrder} (h : orderIn text c = some o) : BidsIn text c o := by
  unfold orderIn at h
  split at h
  · next ht =>
    split at h
    · next k hk =>
      cases h
      obtain ⟨p, h1, rfl⟩ := Option.map_eq_some_iff.1 hk
      have h2 := mem_of_find?_eq_some h1
      have h3 := find?_some h1
      have h3 : c = py!"AT+CMGL=\"" ++ p.1 ++ py!"\"\r" := eq_of_beq h3
      rw [h3]
      refine .named ht ?_
      have : ((p.2.toNat : Int)) = p.2 := by
        simp only [stateNames, mem_cons, not_mem_nil, or_false] at h2
        rcases h2 with rfl | rfl | rfl | rfl | rfl <;> rfl
      rw [this]
      exact h2
    · obtain ⟨h1, h2⟩ := Option.filter_eq_some_iff.1 h
      refine .same (orderOf_sound h1) fun k hk => ?_
      rw [hk] at h2
      cases h2
  · next ht =>
    have hb := orderOf_sound h
    cases hb with
    | list hk => exact .list (by simpa using ht) hk
    | _ => exact .same (by constructor <;> assumption) (by simp)

theorem orderIn_complete {text : Bool} {c : PyStr} {o : ShelfOrder} (h : BidsIn text c o) : orderIn text c = some o := by
  cases ho : orderIn text c with
  | some o' => rw [bids_unique h (orderIn_sound ho)]
  | none =>
    exfalso
    unfold orderIn at ho
    cases h with
    | same h hk =>
      split at ho
      · split at ho
        · cases ho
        · rw [orderOf_complete h] at ho
          cases o <;> first | exact hk _ rfl | cases ho
      · rw [orderOf_complete h] at ho
        cases ho
    | list ht hk =>
      rw [if_neg (by simp [ht]), orderOf_complete (.list hk)] at ho
      cases ho
    | @named name k ht hk =>
      rw [if_pos ht] at ho
      split at ho
      · cases ho
      · next hn =>
        have := Option.map_eq_none_iff.1 hn
        exact absurd (find?_eq_none.1 this _ hk) (by simp)

/-- The name of a state. -/
def stateName (n : Nat) : PyStr := match n with
  | 0 => py!"REC UNREAD"
  | 1 => py!"REC READ"
  | 2 => py!"STO UNSENT"
  | _ => py!"STO SENT"

theorem stateName_mem {n : Nat} (h : n ≤ 3) : (stateName n, (n : Int)) ∈ stateNames := by
  match n, h with
  | 0, _ => decide
  | 1, _ => decide
  | 2, _ => decide
  | 3, _ => decide

theorem stateName_quotable (n : Nat) : Quotable (stateName n) := by
  unfold stateName Quotable
  split <;> decide

/-- Its lines in a listing. -/
def letterLines (shows : Display) (x : HeldSms) : List PyStr := match shows x.pdu with
  | some l => (py!"+CMGL: " ++ (decStr x.place ++ (py!",\"" ++ (stateName x.state ++ (py!"\",\"" ++ (l.number ++ (py!"\"," ++ ([] ++ (py!",\"" ++ (l.time ++ (py!"\"" ++ [])))))))))))
      :: textLines l.text
  | none => []

/-- The answer for one. -/
def letterAnswer (shows : Display) (x : HeldSms) : List PyStr := match shows x.pdu with
  | some l => (py!"+CMGR: \"" ++ (stateName x.state ++ (py!"\",\"" ++ (l.number ++ (py!"\"," ++ ([] ++ (py!",\"" ++ (l.time ++ (py!"\"" ++ [])))))))))
      :: (textLines l.text ++ [py!"OK"])
  | none => [[], py!"OK"]

/-- It obeys a command. -/
def obeyIn (shows : Display) (text : Bool) (m : Shelf) (o : ShelfOrder) : Reply × Shelf :=
  if text then match o with
    | .list k => (.lines (((m.listed k).map (letterLines shows)).flatten ++ [py!"OK"]), m.look fun x => decide (x ∈ m.listed k))
    | .read i => match (m.listed 4).find? fun x => x.place == i with
      | some x => (.lines (letterAnswer shows x), m.look (m.at i))
      | none => (.lines [py!"+CMS ERROR: 321"], m)
    | o => obey m o
  else obey m o

/-- The numbers and times that it shows can stand in quotes. -/
def Tidy (shows : Display) : Prop := ∀ pdu l, shows pdu = some l → Quotable l.number ∧ Quotable l.time

/-- Only states that have names. -/
def Small (m : Shelf) : Prop := ∀ x ∈ m.slots, x.state ≤ 3

theorem obeyIn_ok {shows : Display} (ht : Tidy shows) (text : Bool) {m : Shelf} (hm : Small m) (o : ShelfOrder) : ObeysIn shows text m o (obeyIn shows text m o).1 (obeyIn shows text m o).2 := by
  have hin : ∀ {k x}, x ∈ m.listed k → x.state ≤ 3 := fun hx => hm _ (mem_filter.1 hx).1
  cases text with
  | false =>
    have : obeyIn shows false m o = obey m o := rfl
    rw [this]
    have h := obey_ok m o
    cases o with
    | list k => exact .pduList rfl h
    | read i => exact .pduRead rfl h
    | _ => exact .same h (by simp) (by simp)
  | true =>
    cases o with
    | list k =>
      refine .textList rfl (.refl _) ?_
      rw [forall₂_map_right_iff]
      refine forall₂_same.2 fun x hx l hl => ?_
      obtain ⟨h1, h2⟩ := ht _ _ hl
      refine ⟨_, ⟨decStr x.place, stateName x.state, l.number, l.time⟩, by rw [letterLines, hl],
        ⟨[], [], rfl, digits_decStr _, stateName_quotable _, h1, by simp, h2, .inl rfl⟩, decVal_decStr _, stateName_mem (hin hx), rfl, rfl⟩
    | read i =>
      simp only [obeyIn, if_true]
      split
      · next x hx =>
        have h1 := mem_of_find?_eq_some hx
        have h2 : x.place = i := by simpa using find?_some hx
        subst h2
        refine .textRead rfl h1 ?_
        unfold LetterAnswer letterAnswer
        cases hl : shows x.pdu with
        | some l =>
          obtain ⟨h3, h4⟩ := ht _ _ hl
          exact ⟨_, stateName x.state, rfl, ⟨[], [], rfl, stateName_quotable _, h3, by simp, h4, .inl rfl⟩, stateName_mem (hin h1)⟩
        | none =>
          refine ⟨[], [], rfl, ?_, ?_⟩
          · rintro a b c ⟨_, _, h, _⟩; simp at h
          · rintro a b c d e f ⟨_, _, _, _, _, h, _⟩; simp at h
      · next hx => exact .missing rfl fun x hx' => by simpa using find?_eq_none.1 hx x hx'
    | select memory => exact .same (obey_ok m _) (by simp) (by simp)
    | delete i => exact .same (obey_ok m _) (by simp) (by simp)
    | clear f => exact .same (obey_ok m _) (by simp) (by simp)
    | reset => exact .same (obey_ok m _) (by simp) (by simp)

/-- A change of mode. -/
def modeOf (c : PyStr) : Option Bool := if c = modeCommand true then some true else if c = modeCommand false then some false else none

def isReset : ShelfOrder → Bool
  | .reset => true
  | _ => false

/-- What becomes of the mode and of the messages. A reset chooses PDU mode. -/
def lineIn (shows : Display) (text : Bool) (m : Shelf) (c : PyStr) : Reply × Bool × Shelf := match modeOf c with
  | some v => (.lines [py!"OK"], v, m)
  | none => match orderIn text c with
    | some o => ((obeyIn shows text m o).1, text && !isReset o, (obeyIn shows text m o).2)
    | none => (goodReply c, text, m)

theorem lineIn_ok {shows : Display} (ht : Tidy shows) (text : Bool) {m : Shelf} (hm : Small m) (c : PyStr) :
    ServesIn shows text m c (lineIn shows text m c).1 (lineIn shows text m c).2.1 (lineIn shows text m c).2.2 := by
  unfold lineIn
  cases hv : modeOf c with
  | some v =>
    have hc : c = modeCommand v := by
      unfold modeOf at hv
      split at hv
      · cases hv; assumption
      · split at hv
        · cases hv; assumption
        · cases hv
    exact .mode hc rfl rfl
  | none =>
    have hn : ∀ v, c ≠ modeCommand v := by
      intro v hc
      subst hc
      cases v <;> exact absurd hv (by decide)
    cases ho : orderIn text c with
    | none => exact .other (fun o hb => by rw [orderIn_complete hb] at ho; cases ho) hn
    | some o =>
      dsimp only
      have hb := orderIn_sound ho
      by_cases hr : o = .reset
      · subst hr
        refine .reset hb ?_
        have : obeyIn shows text m .reset = obey m .reset := by cases text <;> rfl
        rw [this]
        exact obey_ok m _
      · have : (text && !isReset o) = text := by
          cases o with
          | reset => exact absurd rfl hr
          | _ => cases text <;> rfl
        rw [this]
        exact .order hb hr (obeyIn_ok ht text hm o)

theorem look_small {m : Shelf} (h : Small m) (p : HeldSms → Bool) : Small (m.look p) := by
  intro x hx
  obtain ⟨y, hy, rfl⟩ := mem_map.1 hx
  have := h y hy
  split
  · unfold HeldSms.seen
    split <;> simp_all
  · exact this
theorem drop_small {m : Shelf} (h : Small m) (p : HeldSms → Bool) : Small (m.drop p) := fun x hx => h x (mem_filter.1 hx).1

theorem lineIn_small {shows : Display} (text : Bool) {m : Shelf} (h : Small m) (c : PyStr) : Small (lineIn shows text m c).2.2 := by
  have hob : ∀ o, Small (obey m o).2 := by
    intro o
    cases o with
    | select => exact h
    | reset => exact h
    | list k => exact look_small h _
    | read i => simp only [obey]; split; exact look_small h _; exact h
    | delete i => exact drop_small h _
    | clear f => exact drop_small h _
  unfold lineIn
  split
  · exact h
  · split
    · next o _ =>
      cases text with
      | false => exact hob o
      | true =>
        cases o with
        | list k => exact look_small h _
        | read i => simp only [obeyIn, if_true]; split; exact look_small h _; exact h
        | select y => exact hob (.select y)
        | reset => exact hob (.reset)
        | delete y => exact hob (.delete y)
        | clear y => exact hob (.clear y)
    · exact h

theorem lineIn_spots {shows : Display} (text : Bool) (m : Shelf) (c : PyStr) : ((lineIn shows text m c).2.2.slots.map HeldSms.spot) <+ m.slots.map HeldSms.spot := by
  have hlook : ∀ p, (m.look p).slots.map HeldSms.spot = m.slots.map HeldSms.spot := by
    intro p
    simp only [Shelf.look, map_map]
    refine map_congr_left fun x _ => ?_
    simp only [Function.comp]
    split <;> simp [HeldSms.spot, HeldSms.seen]
    split <;> simp
  have hdrop : ∀ p, (m.drop p).slots.map HeldSms.spot <+ m.slots.map HeldSms.spot := fun p => filter_sublist.map _
  have hob : ∀ o, (obey m o).2.slots.map HeldSms.spot <+ m.slots.map HeldSms.spot := by
    intro o
    cases o with
    | select => exact .refl _
    | reset => exact .refl _
    | list k => simp only [obey]; rw [hlook]
    | read i =>
      simp only [obey]
      split
      · simp only; rw [hlook]
      · exact .refl _
    | delete i => exact hdrop _
    | clear f => exact hdrop _
  unfold lineIn
  split
  · exact .refl _
  · split
    · next o _ =>
      cases text with
      | false => exact hob o
      | true =>
        cases o with
        | list k => simp only [obeyIn, if_true]; rw [hlook]
        | read i =>
          simp only [obeyIn, if_true]
          split
          · simp only; rw [hlook]
          · exact .refl _
        | select y => exact hob (.select y)
        | reset => exact hob (.reset)
        | delete y => exact hob (.delete y)
        | clear y => exact hob (.clear y)
    · exact .refl _

/-- The mode and what it has. -/
def bothBy (shows : Display) (start : Shelf) (k : Nat) (new : List HeldSms) : List PyStr → Bool × Shelf
  | [] => (false, start)
  | c :: log => (lineIn shows (bothBy shows start k new log).1 ((bothBy shows start k new log).2.with (comeAt k new (c :: log))) c).2

def modeBy (shows : Display) (start : Shelf) (k : Nat) (new : List HeldSms) (log : List PyStr) : Bool := (bothBy shows start k new log).1
def shelfBy (shows : Display) (start : Shelf) (k : Nat) (new : List HeldSms) (log : List PyStr) : Shelf := (bothBy shows start k new log).2

/-- The modem. -/
def keeperIn (shows : Display) (start : Shelf) (k : Nat) (new : List HeldSms) : Env where
  reply
    | [] => .lines []
    | c :: log => (lineIn shows (bothBy shows start k new log).1 ((bothBy shows start k new log).2.with (comeAt k new (c :: log))) c).1
  depth := 10
  order l := l
  order_perm _ := .refl _

theorem shelfBy_spots {shows : Display} {start : Shelf} {k : Nat} {new : List HeldSms} : ∀ log : List PyStr,
    (shelfBy shows start k new log).slots.map HeldSms.spot <+ (if log.length < k then start.slots else start.slots ++ new).map HeldSms.spot
  | [] => by
    simp only [shelfBy, bothBy]
    split
    · exact .refl _
    · simp
  | c :: log => by
    simp only [shelfBy, bothBy]
    refine (lineIn_spots _ _ c).trans ?_
    have := shelfBy_spots (shows := shows) (start := start) (k := k) (new := new) log
    simp only [shelfBy, Shelf.with, comeAt, map_append, length_cons] at this ⊢
    by_cases h1 : log.length + 1 = k
    · subst h1
      simp only [show log.length < log.length + 1 by omega, if_true, show ¬ log.length + 1 < log.length + 1 by omega, if_false, map_append] at this ⊢
      exact this.append (.refl _)
    · simp only [h1, if_false, map_nil, append_nil]
      refine this.trans ?_
      split
      · split
        · exact .refl _
        · simp
      · rw [if_neg (by omega)]

theorem comeAt_small {k : Nat} {new : List HeldSms} (h : ∀ x ∈ new, x.state = 0) {m : Shelf} (hm : Small m) (log : List PyStr) : Small (m.with (comeAt k new log)) := by
  intro x hx
  rcases mem_append.1 hx with hx | hx
  · exact hm x hx
  · unfold comeAt at hx
    split at hx
    · rw [h x hx]; omega
    · exact absurd hx (by simp)

theorem shelfBy_small {shows : Display} {start : Shelf} {k : Nat} {new : List HeldSms} (h0 : Small start) (h : ∀ x ∈ new, x.state = 0) : ∀ log : List PyStr,
    Small (shelfBy shows start k new log)
  | [] => h0
  | _ :: log => lineIn_small _ (comeAt_small h (shelfBy_small h0 h log) _) _

theorem keeperIn_keeping {shows : Display} {start : Shelf} {k : Nat} {new : List HeldSms} (ht : Tidy shows) (h0 : Small start) (h1 : ((start.slots ++ new).map HeldSms.spot).Nodup)
    (h2 : ∀ x ∈ new, x.state = 0 ∧ IsMessage x.pdu ∧ IsLetter shows x.pdu) :
    KeepingIn shows (keeperIn shows start k new).reply (modeBy shows start k new) (shelfBy shows start k new) (comeAt k new) where
  serves c log := lineIn_ok ht _ (comeAt_small (fun x hx => (h2 x hx).1) (shelfBy_small h0 (fun x hx => (h2 x hx).1) log) _) c
  places c log := by
    refine Nodup.sublist ?_ h1
    have := shelfBy_spots (shows := shows) (start := start) (k := k) (new := new) log
    simp only [comeAt, map_append, length_cons] at this ⊢
    by_cases h : log.length + 1 = k
    · subst h
      simp only [show log.length < log.length + 1 by omega, if_true] at this ⊢
      exact this.append (.refl _)
    · simp only [h, if_false, map_nil, append_nil]
      refine this.trans ?_
      split
      · simp
      · simp
  fresh log x hx := by
    unfold comeAt at hx
    split at hx
    · exact h2 x hx
    · exact absurd hx (by simp)

/-- A message whose text is an empty line. -/
def blankPdu : PyStr := py!"00040591722143000031304131205380020D05"

/-- It shows the two messages. -/
def showsExample : Display := fun pdu =>
  if pdu = hiPdu then some ⟨py!"+271234", py!"13/03/14,13:02:35+08", py!"Hi"⟩
  else if pdu = blankPdu then some ⟨py!"+271234", py!"13/03/14,13:02:35+08", py!"\r\n"⟩
  else none

theorem tidyExample : Tidy showsExample := by
  intro pdu l h
  unfold showsExample at h
  split at h
  · cases h; exact ⟨⟨by decide, by decide⟩, ⟨by decide, by decide⟩⟩
  split at h
  · cases h; exact ⟨⟨by decide, by decide⟩, ⟨by decide, by decide⟩⟩
  · cases h

theorem hi_letter : IsLetter showsExample hiPdu := by
  refine ⟨_, rfl, ⟨⟨2013, 3, 14, 13, 2, 35, 0, some ⟨0, 7200, 0⟩⟩, by decide +kernel⟩, fun l hl => ?_⟩
  have : textLines py!"Hi" = [py!"Hi"] := by decide +kernel
  rw [show (Letter.mk py!"+271234" py!"13/03/14,13:02:35+08" py!"Hi").text = py!"Hi" from rfl, this] at hl
  cases mem_singleton.1 hl
  refine ⟨?_, ?_⟩
  · rintro ⟨h, _, _, h1, _⟩; simp at h1
  · rintro (⟨t, ht⟩ | ⟨t, ht⟩ | ⟨d, -, -, ⟨t, ht⟩ | ⟨t, ht⟩⟩ | h | h) <;> simp_all

theorem blank_message : IsMessage blankPdu :=
  ⟨.received 0 (some py!"+271234") ⟨2013, 3, 14, 13, 2, 35, 0, some ⟨0, 7200, 0⟩⟩ py!"\r\n" none,
    .inl ⟨none, 18, some py!"+271234", 0, ⟨2013, 3, 14, 13, 2, 35, 0, some ⟨0, 7200, 0⟩⟩, ⟨none, py!"\r\n"⟩, by decide +kernel, by rfl⟩⟩

theorem blank_letter : IsLetter showsExample blankPdu := by
  refine ⟨⟨py!"+271234", py!"13/03/14,13:02:35+08", py!"\r\n"⟩, rfl, ⟨⟨2013, 3, 14, 13, 2, 35, 0, some ⟨0, 7200, 0⟩⟩, by decide +kernel⟩, fun l hl => ?_⟩
  have : textLines py!"\r\n" = [] := by decide +kernel
  rw [show (Letter.mk py!"+271234" py!"13/03/14,13:02:35+08" py!"\r\n").text = py!"\r\n" from rfl, this] at hl
  cases hl

/-- The modem of the examples: it starts in PDU mode. -/
def bothExample (k : Nat) : Env := keeperIn showsExample shelfExample k lateExample

theorem bothExample_keeping (k : Nat) : KeepingIn showsExample (bothExample k).reply (modeBy showsExample shelfExample k lateExample) (shelfBy showsExample shelfExample k lateExample) (comeAt k lateExample) :=
  keeperIn_keeping tidyExample (by unfold Small; decide) (by decide +kernel) fun x hx => by
    rw [List.mem_singleton.1 hx]
    exact ⟨rfl, hi_message, hi_letter⟩

theorem bothExample_sound : shelfExample.SoundIn showsExample := fun x hx _ => by
  simp only [shelfExample, mem_cons, not_mem_nil, or_false] at hx
  rcases hx with rfl | rfl <;> exact ⟨hi_message, hi_letter⟩

/-- One message without text and one with a text. -/
def blankShelf : Shelf := ⟨py!"SM", [⟨py!"SM", 3, 0, blankPdu⟩, ⟨py!"SM", 4, 0, hiPdu⟩]⟩
def blankExample : Env := keeperIn showsExample blankShelf 0 []

theorem blankExample_keeping : KeepingIn showsExample blankExample.reply (modeBy showsExample blankShelf 0 []) (shelfBy showsExample blankShelf 0 []) (comeAt 0 []) :=
  keeperIn_keeping tidyExample (by unfold Small; decide) (by decide +kernel) fun x hx => absurd hx (by simp)

theorem blankExample_sound : blankShelf.SoundIn showsExample := fun x hx _ => by
  simp only [blankShelf, mem_cons, not_mem_nil, or_false] at hx
  rcases hx with rfl | rfl
  · exact ⟨blank_message, blank_letter⟩
  · exact ⟨hi_message, hi_letter⟩

end Gsm.InModes
