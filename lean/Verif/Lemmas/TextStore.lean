import Verif.Spec.TextStore
import Verif.Lemmas.StoreConnect
import Verif.Lemmas.TextListing
/-! # A modem that keeps messages, in both modes: lemmas -/
namespace Gsm.InModes
open M Spec List

variable {env : Env} {shows : Display} {mode : List PyStr → Bool} {shelf : List PyStr → Shelf} {came : List PyStr → List HeldSms}

/-! ### Commands -/

/-- The beginnings of the commands. -/
def startsIn : List PyStr := py!"AT+CMGF=" :: bidStarts

theorem bids_start {t : Bool} {c : PyStr} {o : ShelfOrder} (h : BidsIn t c o) : (∃ p ∈ bidStarts, p <+: c) ∧ [13] <:+ c := by
  cases h with
  | same h _ => exact Gsm.bids_start h
  | @list k _ _ => exact ⟨⟨py!"AT+CMGL=", by simp [bidStarts], ⟨decStr k ++ [13], by simp⟩⟩, ⟨_, rfl⟩⟩
  | @named name k _ _ => exact ⟨⟨py!"AT+CMGL=", by simp [bidStarts], ⟨[34] ++ name ++ [34, 13], by simp⟩⟩, ⟨py!"AT+CMGL=\"" ++ name ++ [34], by simp⟩⟩

theorem mode_start (v : Bool) : py!"AT+CMGF=" <+: modeCommand v ∧ [13] <:+ modeCommand v :=
  ⟨⟨(if v then py!"1" else py!"0") ++ py!"\r", by simp [modeCommand]⟩, ⟨_, rfl⟩⟩

theorem mode_not {t v : Bool} {o : ShelfOrder} : ¬ BidsIn t (modeCommand v) o := by
  intro h
  obtain ⟨⟨p, hp, h1⟩, -⟩ := bids_start h
  simp only [bidStarts, List.mem_cons, List.not_mem_nil, or_false] at hp
  revert h1
  rcases hp with rfl | rfl | rfl | rfl | rfl <;> cases v <;> decide

theorem mode_inj {v w : Bool} (h : modeCommand v = modeCommand w) : v = w := by
  revert h; cases v <;> cases w <;> decide

/-- Not one of these commands. -/
def Unbidden (c : PyStr) : Prop := (∀ t o, ¬ BidsIn t c o) ∧ ∀ v, c ≠ modeCommand v

theorem unbidden_of {c : PyStr} (h : (∃ q ∈ startsIn, q <+: c) ∧ [13] <:+ c → False) : Unbidden c := by
  refine ⟨fun t o ho => ?_, fun v hv => ?_⟩
  · obtain ⟨⟨q, hq, h1⟩, h2⟩ := bids_start ho
    exact h ⟨⟨q, List.mem_cons_of_mem _ hq, h1⟩, h2⟩
  · subst hv
    exact h ⟨⟨_, List.mem_cons_self, (mode_start v).1⟩, (mode_start v).2⟩

theorem nb_prefix (p rest : PyStr) (h : (startsIn.all fun q => !p.isPrefixOf q && !q.isPrefixOf p) = true := by decide) : Unbidden (p ++ rest) := by
  refine unbidden_of ?_
  rintro ⟨⟨q, hq, h1⟩, -⟩
  have hh := List.all_eq_true.1 h q hq
  simp only [Bool.and_eq_true, Bool.not_eq_true'] at hh
  rcases List.prefix_or_prefix_of_prefix (List.prefix_append p rest) h1 with h2 | h2
  · rw [List.isPrefixOf_iff_prefix.2 h2] at hh; exact absurd hh.1 (by simp)
  · rw [List.isPrefixOf_iff_prefix.2 h2] at hh; exact absurd hh.2 (by simp)

theorem nb_const (c : PyStr) (h : (startsIn.all fun q => !q.isPrefixOf c) = true := by decide) : Unbidden c := by
  refine unbidden_of ?_
  rintro ⟨⟨q, hq, h1⟩, -⟩
  have hh := List.all_eq_true.1 h q hq
  rw [List.isPrefixOf_iff_prefix.2 h1] at hh
  cases hh

theorem nb_suffix {c : PyStr} (h : [26] <:+ c) : Unbidden c := by
  refine unbidden_of ?_
  rintro ⟨-, t, h1⟩
  obtain ⟨t', rfl⟩ := h
  have := congrArg List.getLast? h1
  simp at this

/-- A command that does not begin like a listing. -/
theorem bids_other {t : Bool} {c : PyStr} {o : ShelfOrder} (h : BidsIn t c o) (hn : ¬ py!"AT+CMGL=" <+: c) : Bids c o := by
  cases h with
  | same h _ => exact h
  | list => exact absurd ⟨_, by rw [List.append_assoc]⟩ hn
  | @named name => exact absurd ⟨[34] ++ name ++ [34, 13], by simp⟩ hn

/-- A command means one thing. -/
theorem bids_unique {t : Bool} {c : PyStr} {o o' : ShelfOrder} (h : BidsIn t c o) (h' : BidsIn t c o') : o = o' := by
  have nolist : ∀ {c o}, Bids c o → (∀ k, o ≠ .list k) → ¬ py!"AT+CMGL=" <+: c := by
    intro c o hb hk hp
    obtain ⟨r, rfl⟩ := hp
    generalize hc : py!"AT+CMGL=" ++ r = c at hb
    cases hb with
    | list => exact hk _ rfl
    | _ => simp at hc
  cases h with
  | same h1 h2 => exact Gsm.bids_unique h1 (bids_other h' (nolist h1 h2))
  | @list k ht hk =>
    generalize hc : py!"AT+CMGL=" ++ decStr k ++ py!"\r" = c at h'
    cases h' with
    | same h1 h2 => exact absurd ⟨decStr k ++ py!"\r", by rw [← hc, List.append_assoc]⟩ (nolist h1 h2)
    | list _ _ => simp at hc; rw [decStr_le4 hc]
    | named h => rw [ht] at h; cases h
  | @named name k ht hk =>
    generalize hc : py!"AT+CMGL=\"" ++ name ++ py!"\"\r" = c at h'
    cases h' with
    | same h1 h2 => exact absurd ⟨[34] ++ name ++ [34, 13], by rw [← hc]; simp⟩ (nolist h1 h2)
    | list h _ => rw [ht] at h; cases h
    | named _ hk' =>
      simp at hc
      subst hc
      simp only [stateNames, List.mem_cons, List.not_mem_nil, or_false, Prod.mk.injEq] at hk hk'
      congr 1
      rcases hk with ⟨rfl, hk⟩ | ⟨rfl, hk⟩ | ⟨rfl, hk⟩ | ⟨rfl, hk⟩ | ⟨rfl, hk⟩ <;> simp at hk' <;> omega

theorem serves_order {t t' : Bool} {m m' : Shelf} {c : PyStr} {r : Reply} {o : ShelfOrder} (h : ServesIn shows t m c r t' m') (ho : BidsIn t c o) (hr : o ≠ .reset) :
    t' = t ∧ ObeysIn shows t m o r m' := by
  cases h with
  | order h1 _ h2 => rw [bids_unique ho h1]; exact ⟨rfl, h2⟩
  | reset h1 _ => exact absurd (bids_unique ho h1) hr
  | mode h1 => exact absurd (h1 ▸ ho) mode_not
  | refused h1 => exact absurd (h1 ▸ ho) mode_not
  | other h1 => exact absurd ho (h1 o)

/-! ### What a command does to the messages -/

theorem seen_pdu (x : HeldSms) (b : Bool) : (if b then x.seen else x).pdu = x.pdu ∧ ((if b then x.seen else x).state ≤ 1 → x.state ≤ 1) := by
  cases b
  · exact ⟨rfl, id⟩
  · simp only [if_true, HeldSms.seen]
    split
    · exact ⟨rfl, fun _ => by omega⟩
    · exact ⟨rfl, id⟩

theorem look_sound {m : Shelf} (h : m.SoundIn shows) (p : HeldSms → Bool) : (m.look p).SoundIn shows := by
  intro x hx hs
  obtain ⟨y, hy, rfl⟩ := List.mem_map.1 hx
  rw [(seen_pdu y (p y)).1]
  exact h y hy ((seen_pdu y (p y)).2 hs)

theorem drop_sound {m : Shelf} (h : m.SoundIn shows) (p : HeldSms → Bool) : (m.drop p).SoundIn shows := fun x hx => h x (List.mem_filter.1 hx).1

theorem with_sound {m : Shelf} {new : List HeldSms} (h : m.SoundIn shows) (hn : ∀ x ∈ new, x.state = 0 ∧ IsMessage x.pdu ∧ IsLetter shows x.pdu) : (m.with new).SoundIn shows := by
  intro x hx
  rcases List.mem_append.1 hx with hx | hx
  · exact h x hx
  · exact fun _ => (hn x hx).2

theorem obeys_sound {m m' : Shelf} {o : ShelfOrder} {r : Reply} (h : Obeys m o r m') (hs : m.SoundIn shows) : m'.SoundIn shows := by
  cases h with
  | select => exact hs
  | refused => exact hs
  | reset => exact hs
  | list => exact look_sound hs _
  | read => exact look_sound hs _
  | missing => exact hs
  | delete => exact drop_sound hs _
  | clear => exact drop_sound hs _

theorem obeysIn_sound {t : Bool} {m m' : Shelf} {o : ShelfOrder} {r : Reply} (h : ObeysIn shows t m o r m') (hs : m.SoundIn shows) : m'.SoundIn shows := by
  cases h with
  | same h => exact obeys_sound h hs
  | pduList _ h => exact obeys_sound h hs
  | pduRead _ h => exact obeys_sound h hs
  | textList => exact look_sound hs _
  | textRead => exact look_sound hs _
  | missing => exact hs

theorem keep_sound (H : KeepingIn shows env.reply mode shelf came) {log : List PyStr} (c : PyStr) (h : (shelf log).SoundIn shows) : (shelf (c :: log)).SoundIn shows := by
  have h1 := with_sound h (H.fresh (c :: log))
  have hs := H.serves c log
  generalize shelf (c :: log) = m' at hs ⊢
  generalize mode (c :: log) = t' at hs ⊢
  cases hs with
  | order _ _ h2 => exact obeysIn_sound h2 h1
  | reset _ h2 => exact obeys_sound h2 h1
  | mode => exact h1
  | refused => exact h1
  | other _ => exact h1

/-- What is there, after a command that deletes nothing. -/
theorem keep_content (H : KeepingIn shows env.reply mode shelf came) {c : PyStr} {log : List PyStr} (h : ∀ i, ¬ BidsIn (mode log) c (.delete i)) (h' : ∀ f, ¬ BidsIn (mode log) c (.clear f)) :
    (shelf (c :: log)).slots.map HeldSms.content = (shelf log).slots.map HeldSms.content ++ (came (c :: log)).map HeldSms.content := by
  have hw : ((shelf log).with (came (c :: log))).slots.map HeldSms.content = (shelf log).slots.map HeldSms.content ++ (came (c :: log)).map HeldSms.content := by
    simp [Shelf.with]
  rw [← hw]
  have hs := H.serves c log
  generalize shelf (c :: log) = m' at hs ⊢
  generalize mode (c :: log) = t' at hs ⊢
  generalize env.reply (c :: log) = r at hs
  have key : ∀ {o}, BidsIn (mode log) c o → Obeys ((shelf log).with (came (c :: log))) o r m' →
      m'.slots.map HeldSms.content = ((shelf log).with (came (c :: log))).slots.map HeldSms.content := by
    intro o h1 h2
    cases h2 with
    | select => rfl
    | refused => rfl
    | reset => rfl
    | list => exact look_content _ _
    | read => exact look_content _ _
    | missing => rfl
    | delete => exact absurd h1 (h _)
    | clear => exact absurd h1 (h' _)
  cases hs with
  | other _ => rfl
  | mode => rfl
  | refused => rfl
  | reset h1 h2 => exact key h1 h2
  | order h1 _ h2 =>
    cases h2 with
    | same h2 => exact key h1 h2
    | pduList _ h2 => exact key h1 h2
    | pduRead _ h2 => exact key h1 h2
    | textList => exact look_content _ _
    | textRead => exact look_content _ _
    | missing => rfl

theorem keep_memory (H : KeepingIn shows env.reply mode shelf came) {c : PyStr} {log : List PyStr} (h : ∀ m, ¬ BidsIn (mode log) c (.select m)) (h' : ¬ BidsIn (mode log) c .reset) :
    (shelf (c :: log)).memory = (shelf log).memory := by
  have hs := H.serves c log
  generalize shelf (c :: log) = m' at hs ⊢
  generalize mode (c :: log) = t' at hs ⊢
  generalize env.reply (c :: log) = r at hs
  have key : ∀ {o}, BidsIn (mode log) c o → Obeys ((shelf log).with (came (c :: log))) o r m' → m'.memory = (shelf log).memory := by
    intro o h1 h2
    cases h2 with
    | select => exact absurd h1 (h _)
    | reset => exact absurd h1 h'
    | _ => rfl
  cases hs with
  | other _ => rfl
  | mode => rfl
  | refused => rfl
  | reset h1 h2 => exact absurd h1 h'
  | order h1 _ h2 =>
    cases h2 with
    | same h2 => exact key h1 h2
    | pduList _ h2 => exact key h1 h2
    | pduRead _ h2 => exact key h1 h2
    | textList => rfl
    | textRead => rfl
    | missing => rfl

theorem keep_mode (H : KeepingIn shows env.reply mode shelf came) {c : PyStr} {log : List PyStr} (h : ¬ BidsIn (mode log) c .reset) (h' : ∀ v, c ≠ modeCommand v) :
    mode (c :: log) = mode log := by
  have hs := H.serves c log
  generalize shelf (c :: log) = m' at hs ⊢
  generalize mode (c :: log) = t' at hs ⊢
  cases hs with
  | other _ => rfl
  | mode h1 => exact absurd h1 (h' _)
  | refused => rfl
  | reset h1 h2 => exact absurd h1 h
  | order h1 _ h2 => rfl

/-- Deleting a message that is there. -/
theorem keep_delete (H : KeepingIn shows env.reply mode shelf came) {c : PyStr} {log : List PyStr} {x : HeldSms} (hc : BidsIn (mode log) c (.delete x.place))
    (hm : x.memory = (shelf log).memory) (hx : x.content ∈ (shelf log).slots.map HeldSms.content) :
    ((shelf (c :: log)).slots.map HeldSms.content ++ [x.content]) ~ ((shelf log).slots.map HeldSms.content ++ (came (c :: log)).map HeldSms.content) := by
  obtain ⟨y, hy, hyx⟩ := List.mem_map.1 hx
  have hs := (serves_order (H.serves c log) hc (by simp)).2
  generalize shelf (c :: log) = m' at hs ⊢
  generalize env.reply (c :: log) = r at hs
  cases hs with
  | same hs =>
  cases hs with
  | delete _ =>
    have h1 := filter_spot (H.places c log) (x := y) (List.mem_append_left _ hy)
    have h2 := h1.map HeldSms.content
    rw [List.map_append, List.map_append] at h2
    refine List.Perm.trans ?_ h2
    simp only [HeldSms.content, Prod.mk.injEq] at hyx
    obtain ⟨e1, e2, e3⟩ := hyx
    have e : ((shelf log).with (came (c :: log))).drop (((shelf log).with (came (c :: log))).at x.place) =
        { (shelf log) with slots := ((shelf log).slots ++ came (c :: log)).filter fun z => !decide (z.spot = y.spot) } := by
      simp only [Shelf.drop, Shelf.with, Shelf.at, HeldSms.spot, Prod.mk.injEq, e1, e2, hm]
      congr
    rw [e]
    simp [HeldSms.content, e1, e2, e3]

theorem balance_other (H : KeepingIn shows env.reply mode shelf came) {c : PyStr} {log : List PyStr} (h : ∀ i, ¬ BidsIn (mode log) c (.delete i)) (h' : ∀ f, ¬ BidsIn (mode log) c (.clear f)) :
    Balance shelf came log (c :: log) [] := by
  unfold Balance
  rw [since_one, keep_content H h h']
  simp

end Gsm.InModes
