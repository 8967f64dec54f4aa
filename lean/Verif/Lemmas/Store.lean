import Verif.Spec.Store
import Verif.Lemmas.Listing
import Verif.Lemmas.Delivery
import Verif.Lemmas.Relay
import Verif.Props.ModemProcessing
import Mathlib.Data.List.Perm.Basic
/-! # A modem that keeps messages: lemmas -/
namespace Gsm
open M Spec List

variable {env : Env} {shelf : List PyStr → Shelf} {came : List PyStr → List HeldSms}

/-! ### Commands -/

/-- The beginnings of the commands. -/
def bidStarts : List PyStr := [py!"AT+CPMS=\"", py!"ATZ\r", py!"AT+CMGL=", py!"AT+CMGR=", py!"AT+CMGD="]

theorem bids_start {c : PyStr} {o : ShelfOrder} (h : Bids c o) : (∃ p ∈ bidStarts, p <+: c) ∧ [13] <:+ c := by
  cases h with
  | @select m _ => exact ⟨⟨_, List.mem_cons_self, ⟨m ++ py!"\"\r", by simp⟩⟩, ⟨py!"AT+CPMS=\"" ++ m ++ py!"\"", by simp⟩⟩
  | @prefer m rest _ => exact ⟨⟨_, List.mem_cons_self, ⟨m ++ py!"\"," ++ rest ++ py!"\r", by simp⟩⟩, ⟨_, rfl⟩⟩
  | reset => exact ⟨⟨py!"ATZ\r", by simp [bidStarts], ⟨[], rfl⟩⟩, ⟨py!"ATZ", rfl⟩⟩
  | @list k _ => exact ⟨⟨py!"AT+CMGL=", by simp [bidStarts], ⟨decStr k ++ [13], by simp⟩⟩, ⟨_, rfl⟩⟩
  | @read i _ => exact ⟨⟨py!"AT+CMGR=", by simp [bidStarts], ⟨i ++ [13], by simp⟩⟩, ⟨_, rfl⟩⟩
  | @delete i _ => exact ⟨⟨py!"AT+CMGD=", by simp [bidStarts], ⟨i ++ py!",0\r", by simp⟩⟩, ⟨py!"AT+CMGD=" ++ i ++ py!",0", by simp⟩⟩
  | @clear f _ _ => exact ⟨⟨py!"AT+CMGD=", by simp [bidStarts], ⟨py!"1," ++ decStr f ++ py!"\r", by simp⟩⟩, ⟨_, rfl⟩⟩

/-- Not one of these commands. -/
def Unbidden (c : PyStr) : Prop := ∀ o, ¬ Bids c o

theorem nb_prefix (p rest : PyStr) (h : (bidStarts.all fun q => !p.isPrefixOf q && !q.isPrefixOf p) = true := by decide) : Unbidden (p ++ rest) := by
  intro o ho
  obtain ⟨⟨q, hq, h1⟩, -⟩ := bids_start ho
  have hh := List.all_eq_true.1 h q hq
  simp only [Bool.and_eq_true, Bool.not_eq_true'] at hh
  rcases List.prefix_or_prefix_of_prefix (List.prefix_append p rest) h1 with h2 | h2
  · rw [List.isPrefixOf_iff_prefix.2 h2] at hh; exact absurd hh.1 (by simp)
  · rw [List.isPrefixOf_iff_prefix.2 h2] at hh; exact absurd hh.2 (by simp)

theorem nb_const (c : PyStr) (h : (bidStarts.all fun q => !q.isPrefixOf c) = true := by decide) : Unbidden c := by
  intro o ho
  obtain ⟨⟨q, hq, h1⟩, -⟩ := bids_start ho
  have hh := List.all_eq_true.1 h q hq
  rw [List.isPrefixOf_iff_prefix.2 h1] at hh
  cases hh

theorem nb_suffix {c : PyStr} (h : [26] <:+ c) : Unbidden c := by
  intro o ho
  obtain ⟨-, t, h1⟩ := bids_start ho
  obtain ⟨t', rfl⟩ := h
  have := congrArg List.getLast? h1
  simp at this

theorem decStr_le4 {k k' : Nat} (h : decStr k = decStr k') : k = k' := by
  rw [← decVal_decStr k, ← decVal_decStr k', h]

/-- A command means one thing. -/
theorem bids_unique {c : PyStr} {o o' : ShelfOrder} (h : Bids c o) (h' : Bids c o') : o = o' := by
  cases h with
  | @select m hm =>
    generalize hc : py!"AT+CPMS=\"" ++ m ++ py!"\"\r" = c at h'
    cases h' with
    | @select m' => simp at hc; rw [hc]
    | @prefer m' rest hm' =>
      exfalso
      simp at hc
      have := (upto_unique hm.2 hm'.2 (show m ++ 34 :: [13] = m' ++ 34 :: (44 :: (rest ++ [13])) by simpa using hc)).2
      simp at this
    | _ => simp at hc
  | @prefer m rest hm =>
    generalize hc : py!"AT+CPMS=\"" ++ m ++ py!"\"," ++ rest ++ py!"\r" = c at h'
    cases h' with
    | @select m' hm' =>
      exfalso
      simp at hc
      have := (upto_unique hm.2 hm'.2 (show m ++ 34 :: (44 :: (rest ++ [13])) = m' ++ 34 :: [13] by simpa using hc)).2
      simp at this
    | @prefer m' rest' hm' =>
      simp at hc
      rw [(upto_unique hm.2 hm'.2 (show m ++ 34 :: (44 :: (rest ++ [13])) = m' ++ 34 :: (44 :: (rest' ++ [13])) by simpa using hc)).1]
    | _ => simp at hc
  | reset =>
    generalize hc : py!"ATZ\r" = c at h'
    cases h' with
    | reset => rfl
    | _ => simp at hc
  | @list k hk =>
    generalize hc : py!"AT+CMGL=" ++ decStr k ++ py!"\r" = c at h'
    cases h' with
    | @list k' => simp at hc; rw [decStr_le4 hc]
    | _ => simp at hc
  | @read i hi =>
    generalize hc : py!"AT+CMGR=" ++ i ++ py!"\r" = c at h'
    cases h' with
    | @read i' => simp at hc; rw [hc]
    | _ => simp at hc
  | @delete i hi =>
    generalize hc : py!"AT+CMGD=" ++ i ++ py!",0\r" = c at h'
    cases h' with
    | @delete i' => simp at hc; rw [hc]
    | @clear f h1 h4 =>
      exfalso
      simp at hc
      have h2 : i ++ 44 :: [48, 13] = [49] ++ 44 :: (decStr f ++ [13]) := by simpa using hc
      have h3 := (upto_unique (digits_notin hi.2 (by decide)) (by decide) h2).2
      have h5 : decStr f = [48] := by
        have := congrArg List.dropLast h3
        simpa using this.symm
      have h6 := decVal_decStr f
      rw [h5] at h6
      simp [decVal] at h6
      omega
    | _ => simp at hc
  | @clear f h1 h4 =>
    generalize hc : py!"AT+CMGD=1," ++ decStr f ++ py!"\r" = c at h'
    cases h' with
    | @clear f' => simp at hc; rw [decStr_le4 hc]
    | @delete i hi =>
      exfalso
      simp at hc
      have h2 : i ++ 44 :: [48, 13] = [49] ++ 44 :: (decStr f ++ [13]) := by simpa using hc.symm
      have h3 := (upto_unique (digits_notin hi.2 (by decide)) (by decide) h2).2
      have h5 : decStr f = [48] := by
        have := congrArg List.dropLast h3
        simpa using this.symm
      have h6 := decVal_decStr f
      rw [h5] at h6
      simp [decVal] at h6
      omega
    | _ => simp at hc

theorem serves_order {m m' : Shelf} {c : PyStr} {r : Reply} {o : ShelfOrder} (h : Serves m c r m') (ho : Bids c o) : Obeys m o r m' := by
  cases h with
  | order h1 h2 => rw [bids_unique ho h1]; exact h2
  | other h1 => exact absurd ho (h1 o)

theorem serves_other {m m' : Shelf} {c : PyStr} {r : Reply} (h : Serves m c r m') (ho : Unbidden c) : m' = m := by
  cases h with
  | order h1 _ => exact absurd h1 (ho _)
  | other _ => rfl

/-! ### What a command does to the messages -/

theorem look_content (m : Shelf) (p : HeldSms → Bool) : (m.look p).slots.map HeldSms.content = m.slots.map HeldSms.content := by
  simp only [Shelf.look, List.map_map]
  refine List.map_congr_left fun x _ => ?_
  simp only [Function.comp, HeldSms.seen, HeldSms.content]
  split
  · split <;> rfl
  · rfl

theorem seen_sound {x : HeldSms} (h : x.state ≤ 1 → IsMessage x.pdu) (b : Bool) : (if b then x.seen else x).state ≤ 1 → IsMessage (if b then x.seen else x).pdu := by
  cases b
  · exact h
  · simp only [if_true, HeldSms.seen]
    split
    · next h0 => intro _; exact h (by omega)
    · exact h

theorem look_sound {m : Shelf} (h : m.Sound) (p : HeldSms → Bool) : (m.look p).Sound := by
  intro x hx
  obtain ⟨y, hy, rfl⟩ := List.mem_map.1 hx
  exact seen_sound (h y hy) (p y)

theorem drop_sound {m : Shelf} (h : m.Sound) (p : HeldSms → Bool) : (m.drop p).Sound := fun x hx => h x (List.mem_filter.1 hx).1

theorem with_sound {m : Shelf} {new : List HeldSms} (h : m.Sound) (hn : ∀ x ∈ new, x.state = 0 ∧ IsMessage x.pdu) : (m.with new).Sound := by
  intro x hx
  rcases List.mem_append.1 hx with hx | hx
  · exact h x hx
  · exact fun _ => (hn x hx).2

theorem obeys_sound {m m' : Shelf} {o : ShelfOrder} {r : Reply} (h : Obeys m o r m') (hs : m.Sound) : m'.Sound := by
  cases h with
  | select => exact hs
  | refused => exact hs
  | reset => exact hs
  | list => exact look_sound hs _
  | read => exact look_sound hs _
  | missing => exact hs
  | delete => exact drop_sound hs _
  | clear => exact drop_sound hs _

theorem keep_sound (H : Keeping env.reply shelf came) {log : List PyStr} (c : PyStr) (h : (shelf log).Sound) : (shelf (c :: log)).Sound := by
  have h1 := with_sound h (H.fresh (c :: log))
  have hs := H.serves c log
  generalize shelf (c :: log) = m' at hs ⊢
  cases hs with
  | order _ h2 => exact obeys_sound h2 h1
  | other _ => exact h1

/-- What is there, after a command that deletes nothing. -/
theorem keep_content (H : Keeping env.reply shelf came) {c : PyStr} {log : List PyStr} (h : ∀ i, ¬ Bids c (.delete i)) (h' : ∀ f, ¬ Bids c (.clear f)) :
    (shelf (c :: log)).slots.map HeldSms.content = (shelf log).slots.map HeldSms.content ++ (came (c :: log)).map HeldSms.content := by
  have hw : ((shelf log).with (came (c :: log))).slots.map HeldSms.content = (shelf log).slots.map HeldSms.content ++ (came (c :: log)).map HeldSms.content := by
    simp [Shelf.with]
  rw [← hw]
  have hs := H.serves c log
  generalize shelf (c :: log) = m' at hs ⊢
  generalize env.reply (c :: log) = r at hs
  cases hs with
  | other _ => rfl
  | order h1 h2 =>
    cases h2 with
    | select => rfl
    | refused => rfl
    | reset => rfl
    | list => exact look_content _ _
    | read => exact look_content _ _
    | missing => rfl
    | delete => exact absurd h1 (h _)
    | clear => exact absurd h1 (h' _)

theorem keep_memory (H : Keeping env.reply shelf came) {c : PyStr} {log : List PyStr} (h : ∀ m, ¬ Bids c (.select m)) (h' : ¬ Bids c .reset) :
    (shelf (c :: log)).memory = (shelf log).memory := by
  have hs := H.serves c log
  generalize shelf (c :: log) = m' at hs ⊢
  generalize env.reply (c :: log) = r at hs
  cases hs with
  | other _ => rfl
  | order h1 h2 =>
    cases h2 with
    | select => exact absurd h1 (h _)
    | reset => exact absurd h1 h'
    | _ => rfl

theorem filter_spot {l : List HeldSms} (h : (l.map HeldSms.spot).Nodup) {x : HeldSms} (hx : x ∈ l) :
    (l.filter (fun y => !decide (y.spot = x.spot)) ++ [x]) ~ l := by
  induction l with
  | nil => cases hx
  | cons y l ih =>
    simp only [List.map_cons, List.nodup_cons] at h
    by_cases hy : y.spot = x.spot
    · have hyx : y = x := by
        rcases List.mem_cons.1 hx with rfl | hx
        · rfl
        · exact absurd (hy ▸ List.mem_map_of_mem hx) h.1
      subst hyx
      have hl : l.filter (fun z => !decide (z.spot = y.spot)) = l := by
        refine List.filter_eq_self.2 fun z hz => ?_
        simp only [Bool.not_eq_true', decide_eq_false_iff_not]
        intro hzy
        exact h.1 (hzy ▸ List.mem_map_of_mem hz)
      simp only [List.filter_cons, decide_true, Bool.not_true, Bool.false_eq_true, if_false, hl]
      exact List.perm_append_comm
    · have hx' : x ∈ l := by
        rcases List.mem_cons.1 hx with rfl | hx
        · exact absurd rfl hy
        · exact hx
      simp only [List.filter_cons, hy, decide_false, Bool.not_false, if_true, List.cons_append]
      exact (ih h.2 hx').cons y

/-- Deleting a message that is there. -/
theorem keep_delete (H : Keeping env.reply shelf came) {c : PyStr} {log : List PyStr} {x : HeldSms} (hc : Bids c (.delete x.place))
    (hm : x.memory = (shelf log).memory) (hx : x.content ∈ (shelf log).slots.map HeldSms.content) :
    ((shelf (c :: log)).slots.map HeldSms.content ++ [x.content]) ~ ((shelf log).slots.map HeldSms.content ++ (came (c :: log)).map HeldSms.content) := by
  obtain ⟨y, hy, hyx⟩ := List.mem_map.1 hx
  have hs := serves_order (H.serves c log) hc
  generalize shelf (c :: log) = m' at hs ⊢
  generalize env.reply (c :: log) = r at hs
  cases hs with
  | delete _ =>
    have h1 := filter_spot (H.places c log) (x := y) (List.mem_append_left _ hy)
    have h2 := h1.map HeldSms.content
    rw [List.map_append, List.map_append] at h2
    refine List.Perm.trans ?_ h2
    simp only [HeldSms.content, Prod.mk.injEq] at hyx
    obtain ⟨e1, e2, e3⟩ := hyx
    have e : ((shelf log).with (came (c :: log))).drop (((shelf log).with (came (c :: log))).at x.place) =
        { (shelf log) with slots := ((shelf log).slots ++ came (c :: log)).filter fun z => !decide (z.spot = y.spot) } := by
      simp only [Shelf.drop, Shelf.with, Shelf.at, HeldSms.spot, Prod.mk.injEq, e1, e2, hm]
      congr
    rw [e]
    simp [HeldSms.content, e1, e2, e3]

/-! ### What arrives -/

theorem arrivals_zero (l : List PyStr) : arrivals came 0 l = [] := by cases l <;> rfl

theorem arrivals_add : ∀ (new : List PyStr) (n : Nat) (old : List PyStr), arrivals came (n + new.length) (new ++ old) = arrivals came n old ++ arrivals came new.length (new ++ old)
  | [], n, old => by simp [arrivals_zero]
  | c :: new, n, old => by
    show arrivals came (n + new.length + 1) (c :: (new ++ old)) = _ ++ arrivals came (new.length + 1) (c :: (new ++ old))
    rw [arrivals, arrivals, arrivals_add new n old, List.append_assoc]

theorem since_self (l : List PyStr) : since came l l = [] := by simp [since, arrivals_zero]

theorem since_append (old n1 n2 : List PyStr) : since came old (n2 ++ (n1 ++ old)) = since came old (n1 ++ old) ++ since came (n1 ++ old) (n2 ++ (n1 ++ old)) := by
  have e1 : (n2 ++ (n1 ++ old)).length - old.length = n1.length + n2.length := by simp; omega
  have e2 : (n1 ++ old).length - old.length = n1.length := by simp
  have e3 : (n2 ++ (n1 ++ old)).length - (n1 ++ old).length = n2.length := by simp
  simp only [since, e1, e2, e3]
  exact arrivals_add n2 n1.length (n1 ++ old)

theorem since_one (c : PyStr) (log : List PyStr) : since came log (c :: log) = came (c :: log) := by
  simp [since, arrivals]

theorem balance_refl (l : List PyStr) : Balance shelf came l l [] := by simp [Balance, since_self]

theorem balance_trans {a n1 n2 : List PyStr} {g1 g2 : List HeldSms} (h1 : Balance shelf came a (n1 ++ a) g1) (h2 : Balance shelf came (n1 ++ a) (n2 ++ (n1 ++ a)) g2) :
    Balance shelf came a (n2 ++ (n1 ++ a)) (g1 ++ g2) := by
  unfold Balance at *
  rw [since_append, List.map_append, List.map_append]
  have k1 := h1.append_right ((since came (n1 ++ a) (n2 ++ (n1 ++ a))).map HeldSms.content)
  have k2 := h2.append_right (g1.map HeldSms.content)
  refine List.Perm.trans ?_ (List.Perm.trans (k2.trans ?_) (k1.trans ?_))
  · rw [List.append_assoc]
    exact List.Perm.append_left _ List.perm_append_comm
  · simp only [List.append_assoc]
    exact List.Perm.append_left _ List.perm_append_comm
  · rw [List.append_assoc]

theorem balance_other (H : Keeping env.reply shelf came) {c : PyStr} {log : List PyStr} (h : ∀ i, ¬ Bids c (.delete i)) (h' : ∀ f, ¬ Bids c (.clear f)) :
    Balance shelf came log (c :: log) [] := by
  unfold Balance
  rw [since_one, keep_content H h h']
  simp

end Gsm
