import Verif.Spec.Distinct
import Verif.Lemmas.Sendable
/-! # Lemmas: which messages are the same on the wire -/
namespace Gsm
open Spec

/-! ## Septets -/

theorem stream7_inj : ∀ {a b : List Nat}, (∀ x ∈ a, x < 128) → (∀ x ∈ b, x < 128) → stream 7 a = stream 7 b → a = b
  | [], [], _, _, _ => rfl
  | [], y :: b, _, _, h => by have := congrArg List.length h; simp at this; omega
  | x :: a, [], _, _, h => by have := congrArg List.length h; simp at this
  | x :: a, y :: b, ha, hb, h => by
    simp only [stream_cons] at h
    obtain ⟨h1, h2⟩ := List.append_inj h (by simp)
    rw [bits_inj (w := 7) (ha x (by simp)) (hb y (by simp)) h1, stream7_inj (fun z hz => ha z (by simp [hz])) (fun z hz => hb z (by simp [hz])) h2]

/-- Packed septets of which the number is known. -/
theorem pack_inj {a b out : List Nat} {p : Nat} (hp : p ≤ 7) (ha : ∀ x ∈ a, x < 128) (hb : ∀ x ∈ b, x < 128) (hl : a.length = b.length)
    (h1 : packSeptets a p = .ok out) (h2 : packSeptets b p = .ok out) : a = b := by
  by_cases hn : a = []
  · subst hn
    exact (List.length_eq_zero_iff.1 hl.symm).symm
  have hn' : b ≠ [] := by rintro rfl; exact hn (List.length_eq_zero_iff.1 hl)
  obtain ⟨o1, e1, _, ⟨k1, _, s1⟩, _⟩ := C03_pack_stream hp (fun _ => hn) ha
  obtain ⟨o2, e2, _, ⟨k2, _, s2⟩, _⟩ := C03_pack_stream hp (fun _ => hn') hb
  rw [h1] at e1; cases e1
  rw [h2] at e2; cases e2
  rw [s1] at s2
  have := List.append_inj_left s2 (by simp [hl])
  exact stream7_inj ha hb (List.append_cancel_left this)

/-- A final zero septet that fills the last octet looks like padding. -/
theorem pack_padded {a : List Nat} (ha : ∀ x ∈ a, x < 128) (hl : a.length % 8 = 7) : packSeptets (a ++ [0]) = packSeptets a := by
  have hn : a ≠ [] := by rintro rfl; simp at hl
  obtain ⟨o1, e1, l1, ⟨k1, hk1, s1⟩, n1⟩ := C03_pack_stream (p := 0) (by omega) (fun _ => hn) ha
  obtain ⟨o2, e2, l2, ⟨k2, hk2, s2⟩, n2⟩ := C03_pack_stream (p := 0) (os := a ++ [0]) (by omega) (fun _ => by simp) (fun x hx => by
    rcases List.mem_append.1 hx with hx | hx
    · exact ha x hx
    · simp at hx; omega)
  have c1 := congrArg List.length s1
  have c2 := congrArg List.length s2
  simp [fillBits, zeros] at c1 c2
  have hk : k1 = 7 ∧ k2 = 0 := by omega
  obtain ⟨rfl, rfl⟩ := hk
  rw [e1, e2, C03_unique l2 l1 (by rw [s1, s2]; simp [stream, bits, range7, zeros, List.replicate])]

/-! ## Addresses -/
section
variable [PyUnicode]

theorem allDigits_iff {s : PyStr} : allDigits s = true ↔ AllDigits s := by
  cases s <;> simp [allDigits, AllDigits, List.all_eq_true]

theorem digit16_valued {c : Nat} (h : PyUnicode.isdigit c = true ∧ (PyUnicode.decimal c).isSome) :
    digit16? c = digit16? (48 + (PyUnicode.decimal c).getD 0) ∧ (PyUnicode.decimal c).getD 0 ≤ 9 := by
  obtain ⟨h1, h2⟩ := h
  obtain ⟨d, hd⟩ := Option.isSome_iff_exists.1 h2
  have h9 := PyUnicode.decimal_le c d hd
  rw [hd, Option.getD_some, digit16_ascii (c := 48 + d) (by omega), Nat.add_sub_cancel_left]
  refine ⟨?_, h9⟩
  unfold digit16?
  by_cases hc : c < 128
  · rw [PyUnicode.isdigit_ascii c hc] at h1
    have h' : 48 ≤ c ∧ c ≤ 57 := by simpa using h1
    rw [PyUnicode.decimal_ascii c hc, if_pos h'] at hd
    simp at hd
    simp [hexVal?, h', hd]
  · have : hexVal? c = none := by
      unfold hexVal?
      rw [if_neg (by omega), if_neg (by omega), if_neg (by omega)]
    rw [this, hd]; simp

theorem semiOctetPairs_congr : ∀ {s t : PyStr}, s.map digit16? = t.map digit16? → semiOctetPairs s = semiOctetPairs t
  | [], t, h => by simp at h; subst h; rfl
  | [a], t, h => by
    match t, h with
    | [b], _ => rfl
    | _ :: _ :: _, h => simp at h
    | [], h => simp at h
  | a :: b :: s, t, h => by
    match t, h with
    | x :: y :: t, h =>
      simp only [List.map_cons, List.cons.injEq] at h
      simp only [semiOctetPairs, h.1, h.2.1, semiOctetPairs_congr h.2.2]
    | [_], h => simp at h
    | [], h => simp at h

/-- The digits of a number, as they are told. -/
def asciiDigits (vs : List Nat) : PyStr := vs.map (48 + ·)

theorem ascii_isDigits {ds : PyStr} (h : ValuedDigits ds) : IsDigits (asciiDigits (digitValues ds)) ∧ asciiDigits (digitValues ds) ≠ [] := by
  refine ⟨fun c hc => ?_, ?_⟩
  · simp only [asciiDigits, digitValues, List.map_map, List.mem_map, Function.comp] at hc
    obtain ⟨x, hx, rfl⟩ := hc
    have := (digit16_valued (h.2 x hx)).2
    omega
  · simpa [asciiDigits, digitValues] using h.1

theorem encodeSemiOctets_ascii {ds : PyStr} (h : ValuedDigits ds) : encodeSemiOctets ds = encodeSemiOctets (asciiDigits (digitValues ds)) := by
  have hm : ds.map digit16? = (asciiDigits (digitValues ds)).map digit16? := by
    simp only [asciiDigits, digitValues, List.map_map]
    exact List.map_congr_left fun c hc => (digit16_valued (h.2 c hc)).1
  have hl : (asciiDigits (digitValues ds)).length = ds.length := by simp [asciiDigits, digitValues]
  unfold encodeSemiOctets
  rw [hl]
  split
  · exact semiOctetPairs_congr (by simp [hm])
  · exact semiOctetPairs_congr hm

/-- The type of an address on the wire. -/
def Spec.Destination.toa : Destination → Nat
  | .loc _ => 0xA1
  | .intl _ => 0x91
  | .name _ => 0xD0

/-- What the library tells of it. -/
def Spec.Destination.told : Destination → PyStr
  | .loc vs => asciiDigits vs
  | .intl vs => 43 :: asciiDigits vs
  | .name t => t

omit [PyUnicode] in
theorem asciiDigits_inj {a b : List Nat} (h : asciiDigits a = asciiDigits b) : a = b := by
  have : Function.Injective (fun x : Nat => 48 + x) := fun _ _ h => by simpa using h
  exact this.list_map h

omit [PyUnicode] in
theorem told_inj {a b : Destination} (h : a.toa = b.toa) (ht : a.told = b.told) : a = b := by
  cases a <;> cases b <;> simp [Destination.toa] at h <;> simp [Destination.told] at ht
  · rw [asciiDigits_inj ht]
  · rw [asciiDigits_inj ht]
  · rw [ht]

theorem destination_loc {a : PyStr} (h : AllDigits a) : destinationOf a = .loc (digitValues a) := by
  unfold destinationOf; rw [if_pos (allDigits_iff.2 h)]

theorem plus_not {ds : PyStr} : allDigits (43 :: ds) = false := by
  simp [allDigits, PyUnicode.isdigit_ascii]

theorem destination_intl {ds : PyStr} (h : AllDigits ds) : destinationOf (43 :: ds) = .intl (digitValues ds) := by
  simp [destinationOf, plus_not, allDigits_iff.2 h]

theorem destination_name {a : PyStr} (h1 : ¬ AllDigits a) (h2 : ∀ ds, a = 43 :: ds → ¬ AllDigits ds) :
    destinationOf a = .name (trimAt (septetCount a % 8 = 0) a) := by
  unfold destinationOf; rw [if_neg (by rwa [allDigits_iff])]
  split
  · rw [if_neg (by rw [allDigits_iff]; exact h2 _ rfl)]
  · rfl

/-- What is known about an address field. -/
structure FieldFacts (b : Bool) (a : PyStr) (f : List Nat) : Prop where
  lt : ∀ x ∈ f, x < 256
  shape : ∃ l os, f = l :: (destinationOf a).toa :: os
  decodes : ∀ rest, (∀ x ∈ rest, x < 256) → decodeAddressField (f ++ rest) b = .ok ((some (destinationOf a).told, f.length), rest)

theorem digits_field_eq {num ds : PyStr} {toa : Nat} {b : Bool} {f : List Nat} (hc : classifyAddress num = .ok (toa, ds, false))
    (h : encodeAddressField num b = .ok f) : ∃ l os, encodeSemiOctets ds = .ok os ∧ byteOf (if b then (os.length + 1 : Nat) else (ds.length : Nat)) = .ok l ∧ f = l :: toa :: os := by
  unfold encodeAddressField at h
  rw [hc] at h
  simp only [bind, Except.bind, Bool.false_eq_true, if_false] at h
  cases ho : encodeSemiOctets ds with
  | error e => rw [ho] at h; cases h
  | ok os =>
    rw [ho] at h
    dsimp only at h
    cases hl : byteOf (if b then (os.length + 1 : Nat) else (ds.length : Nat)) with
    | error e => rw [hl] at h; cases h
    | ok l => rw [hl] at h; cases h; exact ⟨l, os, rfl, hl, rfl⟩

theorem alpha_field_eq {a : PyStr} {b : Bool} {f : List Nat} (hc : classifyAddress a = .ok (0xD0, a, true)) (h : encodeAddressField a b = .ok f) :
    ∃ os out l, encodeGsm7 a = .ok os ∧ packSeptets os = .ok out ∧ byteOf (out.length * 2 : Nat) = .ok l ∧ f = l :: 0xD0 :: out := by
  unfold encodeAddressField at h
  rw [hc] at h
  simp only [bind, Except.bind, if_true] at h
  cases ho : encodeGsm7 a with
  | error e => rw [ho] at h; cases h
  | ok os =>
    rw [ho] at h
    dsimp only at h
    cases hp : packSeptets os with
    | error e => rw [hp] at h; cases h
    | ok out =>
      rw [hp] at h
      dsimp only at h
      cases hl : byteOf (out.length * 2 : Nat) with
      | error e => rw [hl] at h; cases h
      | ok l => rw [hl] at h; cases h; exact ⟨os, out, l, rfl, hp, hl, rfl⟩

theorem field_facts {a : PyStr} {f : List Nat} {b : Bool} (h : encodeAddressField a b = .ok f) (he : 27 ∉ a) : FieldFacts b a f := by
  have hA := (address_iff (a := a) (smsc := b)).1.1 ⟨f, h⟩
  cases hA with
  | loc hd hl =>
    have hall : AllDigits a := ⟨hd.1, fun c hc => (hd.2 c hc).1⟩
    have hasc := ascii_isDigits hd
    have hlen : (asciiDigits (digitValues a)).length = a.length := by simp [asciiDigits, digitValues]
    obtain ⟨l, os, h1, h2, rfl⟩ := digits_field_eq (classify_digits hall) h
    have hsame : encodeAddressField (asciiDigits (digitValues a)) b = .ok (l :: 0xA1 :: os) := by
      simp only [encodeAddressField, classify_local hasc.1 hasc.2, bind, Except.bind, ← encodeSemiOctets_ascii hd, h1, hlen, pure, Except.pure,
        Bool.false_eq_true, if_false, h2]
    have hd' := destination_loc hall
    have hok : AddrOk b (asciiDigits (digitValues a)) (asciiDigits (digitValues a)) := .phone (.loc hasc.1 hasc.2) (by rw [hlen]; unfold maxDigits; cases b <;> simp_all)
    obtain ⟨f', e1, e2, _, e3⟩ := addr_field hok
    rw [hsame] at e1; cases e1
    exact ⟨e2, ⟨_, _, by rw [hd']; rfl⟩, fun rest hr => by rw [hd']; exact e3 rest hr⟩
  | @intl ds hd hl =>
    have hall : AllDigits ds := ⟨hd.1, fun c hc => (hd.2 c hc).1⟩
    have hasc := ascii_isDigits hd
    have hlen : (asciiDigits (digitValues ds)).length = ds.length := by simp [asciiDigits, digitValues]
    obtain ⟨l, os, h1, h2, rfl⟩ := digits_field_eq (classify_plus hall) h
    have hsame : encodeAddressField (43 :: asciiDigits (digitValues ds)) b = .ok (l :: 0x91 :: os) := by
      simp only [encodeAddressField, classify_intl hasc.1 hasc.2, bind, Except.bind, ← encodeSemiOctets_ascii hd, h1, hlen, pure, Except.pure,
        Bool.false_eq_true, if_false, h2]
    have hd' := destination_intl hall
    have hok : AddrOk b (43 :: asciiDigits (digitValues ds)) (43 :: asciiDigits (digitValues ds)) :=
      .phone (.intl hasc.1 hasc.2) (by rw [hlen]; unfold maxDigits; cases b <;> simp_all)
    obtain ⟨f', e1, e2, _, e3⟩ := addr_field hok
    rw [hsame] at e1; cases e1
    exact ⟨e2, ⟨_, _, by rw [hd']; rfl⟩, fun rest hr => by rw [hd']; exact e3 rest hr⟩
  | name hne h1 h2 h3 h4 =>
    obtain ⟨os, ho⟩ := (C02_accepts_iff a).2 h3
    have h1' : isDigitStr a = false := by rw [← Bool.not_eq_true, isDigitStr_iff]; exact h1
    have h2' : ∀ r, a = 43 :: r → isDigitStr r = false := fun r hr => by rw [← Bool.not_eq_true, isDigitStr_iff]; exact h2 r hr
    have hd' := destination_name h1 h2
    obtain ⟨f', e1, e2, e4, e3⟩ := addr_field (b := b) (.alpha hne h1' h2' ho he (by rw [encodeGsm7_count ho]; exact h4))
    rw [h] at e1; cases e1
    rw [encodeGsm7_count ho] at e3
    refine ⟨e2, ?_, fun rest hr => by rw [hd']; exact e3 rest hr⟩
    rw [hd']
    obtain ⟨_, os', l, _, _, _, rfl⟩ := alpha_field_eq (classify_alpha hne h1' h2') h
    exact ⟨l, os', rfl⟩

/-- The field tells the destination, and where it ends. -/
theorem field_unique {a b : PyStr} {f g r s : List Nat} {c : Bool} (ha : FieldFacts c a f) (hb : FieldFacts c b g) (hr : ∀ x ∈ r, x < 256) (hs : ∀ x ∈ s, x < 256)
    (h : f ++ r = g ++ s) : destinationOf a = destinationOf b ∧ f = g ∧ r = s := by
  have h1 := ha.decodes r hr
  rw [h, hb.decodes s hs] at h1
  simp only [Except.ok.injEq, Prod.mk.injEq, Option.some.injEq] at h1
  obtain ⟨⟨h2, h3⟩, h4⟩ := h1
  subst h4
  have hfg := List.append_cancel_right h
  refine ⟨told_inj ?_ h2.symm, hfg, rfl⟩
  obtain ⟨_, _, e1⟩ := ha.shape
  obtain ⟨_, _, e2⟩ := hb.shape
  rw [e1, e2] at hfg
  simp at hfg
  exact hfg.2.1

omit [PyUnicode] in
theorem encodeGsm7_snoc_at : ∀ {t os : PyStr}, encodeGsm7 t = .ok os → encodeGsm7 (t ++ [64]) = .ok (os ++ [0])
  | [], os, h => by cases h; decide
  | c :: t, os, h => by
    obtain ⟨o, r, ho, hr, rfl⟩ := encodeGsm7_cons_ok h
    simp [encodeGsm7, ho, encodeGsm7_snoc_at hr, bind, Except.bind, pure, Except.pure]

omit [PyUnicode] in
theorem septetCount_at (t : PyStr) : septetCount (t ++ [64]) = septetCount t + 1 := by
  have : septetCost 64 = 1 := by decide
  simp [septetCount, this]

omit [PyUnicode] in
theorem trim_cases {t : PyStr} : (∃ u, t = u ++ [64] ∧ septetCount t % 8 = 0 ∧ trimAt (septetCount t % 8 = 0) t = u ∧ septetCount u % 8 = 7) ∨
    trimAt (septetCount t % 8 = 0) t = t := by
  unfold trimAt
  split
  · rename_i h
    have hne : t ≠ [] := by rintro rfl; simp at h
    have hl : t.getLast hne = 64 := by have := h.2; rw [List.getLast?_eq_some_getLast hne] at this; simpa using this
    have he : t.dropLast ++ [64] = t := by rw [← hl, List.dropLast_append_getLast]
    refine .inl ⟨_, he.symm, h.1, rfl, ?_⟩
    have := septetCount_at t.dropLast
    rw [he] at this
    omega
  · exact .inr rfl

/-- The packed septets of a name depend on what is left of it only. -/
theorem name_packs {a b : PyStr} {os os' : List Nat} (ha : encodeGsm7 a = .ok os) (hb : encodeGsm7 b = .ok os')
    (h : trimAt (septetCount a % 8 = 0) a = trimAt (septetCount b % 8 = 0) b) : packSeptets os = packSeptets os' := by
  have key : ∀ {u c : PyStr} {x y : List Nat}, encodeGsm7 c = .ok x → encodeGsm7 u = .ok y → c = u ++ [64] → septetCount u % 8 = 7 → packSeptets x = packSeptets y := by
    intro u c x y hx hy hc hu
    subst hc
    have := encodeGsm7_snoc_at hy
    rw [hx] at this; cases this
    exact pack_padded (encodeGsm7_lt hy) (by rw [encodeGsm7_count hy]; exact hu)
  rcases trim_cases (t := a) with ⟨u, e1, e2, e3, e4⟩ | e1 <;> rcases trim_cases (t := b) with ⟨v, f1, f2, f3, f4⟩ | f1
  · rw [e3, f3] at h; subst h
    rw [← f1] at e1; subst e1
    rw [ha] at hb; cases hb; rfl
  · rw [e3, f1] at h; subst h
    exact key ha hb e1 e4
  · rw [e1, f3] at h; subst h
    exact (key hb ha f1 f4).symm
  · rw [e1, f1] at h; subst h
    rw [ha] at hb; cases hb; rfl

/-- The field depends on the destination only. -/
theorem field_congr {a b : PyStr} {f g : List Nat} {c : Bool} (ha : encodeAddressField a c = .ok f) (hb : encodeAddressField b c = .ok g)
    (h : destinationOf a = destinationOf b) : f = g := by
  have hA := (address_iff (a := a) (smsc := c)).1.1 ⟨f, ha⟩
  have hB := (address_iff (a := b) (smsc := c)).1.1 ⟨g, hb⟩
  have loc : ∀ {x y : PyStr} {n m : PyStr} {t : Nat}, ValuedDigits x → ValuedDigits y → classifyAddress n = .ok (t, x, false) → classifyAddress m = .ok (t, y, false) →
      encodeAddressField n c = .ok f → encodeAddressField m c = .ok g → digitValues x = digitValues y → f = g := by
    intro x y n m t hx hy cx cy ex ey hv
    obtain ⟨l, os, h1, h2, rfl⟩ := digits_field_eq cx ex
    obtain ⟨l', os', h1', h2', rfl⟩ := digits_field_eq cy ey
    have hl : x.length = y.length := by have := congrArg List.length hv; simpa [digitValues] using this
    rw [encodeSemiOctets_ascii hx, hv, ← encodeSemiOctets_ascii hy, h1'] at h1
    cases h1
    rw [hl, h2'] at h2
    cases h2
    rfl
  cases hA with
  | loc hd _ =>
    have hall : AllDigits a := ⟨hd.1, fun c hc => (hd.2 c hc).1⟩
    rw [destination_loc hall] at h
    cases hB with
    | loc hd' _ =>
      have hall' : AllDigits b := ⟨hd'.1, fun c hc => (hd'.2 c hc).1⟩
      rw [destination_loc hall'] at h
      exact loc hd hd' (classify_digits hall) (classify_digits hall') ha hb (by simpa using h)
    | @intl ds hd' _ => rw [destination_intl ⟨hd'.1, fun c hc => (hd'.2 c hc).1⟩] at h; cases h
    | name _ h1 h2 _ _ => rw [destination_name h1 h2] at h; cases h
  | @intl ds hd _ =>
    have hall : AllDigits ds := ⟨hd.1, fun c hc => (hd.2 c hc).1⟩
    rw [destination_intl hall] at h
    cases hB with
    | loc hd' _ => rw [destination_loc ⟨hd'.1, fun c hc => (hd'.2 c hc).1⟩] at h; cases h
    | @intl ds' hd' _ =>
      have hall' : AllDigits ds' := ⟨hd'.1, fun c hc => (hd'.2 c hc).1⟩
      rw [destination_intl hall'] at h
      exact loc hd hd' (classify_plus hall) (classify_plus hall') ha hb (by simpa using h)
    | name _ h1 h2 _ _ => rw [destination_name h1 h2] at h; cases h
  | name hne h1 h2 _ _ =>
    rw [destination_name h1 h2] at h
    cases hB with
    | loc hd' _ => rw [destination_loc ⟨hd'.1, fun c hc => (hd'.2 c hc).1⟩] at h; cases h
    | @intl ds hd' _ => rw [destination_intl ⟨hd'.1, fun c hc => (hd'.2 c hc).1⟩] at h; cases h
    | name hne' h1' h2' _ _ =>
      rw [destination_name h1' h2'] at h
      have d1 : isDigitStr a = false := by rw [← Bool.not_eq_true, isDigitStr_iff]; exact h1
      have d2 : ∀ r, a = 43 :: r → isDigitStr r = false := fun r hr => by rw [← Bool.not_eq_true, isDigitStr_iff]; exact h2 r hr
      have d1' : isDigitStr b = false := by rw [← Bool.not_eq_true, isDigitStr_iff]; exact h1'
      have d2' : ∀ r, b = 43 :: r → isDigitStr r = false := fun r hr => by rw [← Bool.not_eq_true, isDigitStr_iff]; exact h2' r hr
      obtain ⟨os, out, l, ho, hp, hl, rfl⟩ := alpha_field_eq (classify_alpha hne d1 d2) ha
      obtain ⟨os', out', l', ho', hp', hl', rfl⟩ := alpha_field_eq (classify_alpha hne' d1' d2') hb
      have := name_packs ho ho' (by simpa using h)
      rw [hp, hp'] at this; cases this
      rw [hl] at hl'; cases hl'
      rfl

end

/-! ## Service centres -/
section
variable [PyUnicode]

theorem smsc_facts {c : Option PyStr} {f : List Nat} (h : smscField c = .ok f) (he : ∀ s, c = some s → 27 ∉ s) :
    (∀ x ∈ f, x < 256) ∧ ((centreOf c = none ∧ f = [0]) ∨ ∃ a, c = some a ∧ centreOf c = some (destinationOf a) ∧ encodeAddressField a true = .ok f ∧ FieldFacts true a f ∧
      ∀ rest, (∀ x ∈ rest, x < 256) → ∃ t n, decodeAddressField (f ++ rest) true = .ok ((some t, n), rest)) := by
  match c, h with
  | none, h => cases h; exact ⟨by simp, .inl ⟨rfl, rfl⟩⟩
  | some [], h => cases h; exact ⟨by simp, .inl ⟨rfl, rfl⟩⟩
  | some (x :: s), h =>
    have hf := field_facts (a := x :: s) (b := true) h (he _ rfl)
    exact ⟨hf.lt, .inr ⟨_, rfl, rfl, h, hf, fun rest hr => ⟨_, _, hf.decodes rest hr⟩⟩⟩

theorem smsc_unique {a b : Option PyStr} {f g r s : List Nat} (ha : smscField a = .ok f) (hb : smscField b = .ok g) (ea : ∀ s, a = some s → 27 ∉ s) (eb : ∀ s, b = some s → 27 ∉ s)
    (hr : ∀ x ∈ r, x < 256) (hs : ∀ x ∈ s, x < 256) (h : f ++ r = g ++ s) : centreOf a = centreOf b ∧ f = g ∧ r = s := by
  have hz : ∀ rest, decodeAddressField (0 :: rest) true = .ok ((none, 1), rest) := fun _ => rfl
  obtain ⟨_, ⟨c1, rfl⟩ | ⟨x, rfl, c1, h1, h2, h3⟩⟩ := smsc_facts ha ea <;> obtain ⟨_, ⟨c2, rfl⟩ | ⟨y, rfl, c2, h1', h2', h3'⟩⟩ := smsc_facts hb eb
  · simp at h
    exact ⟨c1.trans c2.symm, rfl, h⟩
  · obtain ⟨t, n, e⟩ := h3' s hs
    rw [← h] at e
    simp only [List.cons_append, List.nil_append] at e
    rw [hz] at e
    simp at e
  · obtain ⟨t, n, e⟩ := h3 r hr
    rw [h] at e
    simp only [List.cons_append, List.nil_append] at e
    rw [hz] at e
    simp at e
  · obtain ⟨e1, e2, e3⟩ := field_unique h2 h2' hr hs h
    exact ⟨by rw [c1, c2, e1], e2, e3⟩

theorem smsc_congr {a b : Option PyStr} {f g : List Nat} (ha : smscField a = .ok f) (hb : smscField b = .ok g) (h : centreOf a = centreOf b) : f = g := by
  match a, b, ha, hb, h with
  | none, none, ha, hb, _ => cases ha; cases hb; rfl
  | none, some [], ha, hb, _ => cases ha; cases hb; rfl
  | some [], none, ha, hb, _ => cases ha; cases hb; rfl
  | some [], some [], ha, hb, _ => cases ha; cases hb; rfl
  | none, some (_ :: _), _, _, h => simp [centreOf] at h
  | some [], some (_ :: _), _, _, h => simp [centreOf] at h
  | some (_ :: _), none, _, _, h => simp [centreOf] at h
  | some (_ :: _), some [], _, _, h => simp [centreOf] at h
  | some (x :: s), some (y :: t), ha, hb, h => exact field_congr (c := true) ha hb (by simpa [centreOf] using h)

/-! ## Validity -/

theorem validityOk_of {v : Validity} {vb : Nat} {vpi : List Int} {vp : List Nat} (hs : Statable v) (h : validityPart v = .ok (vb, vpi)) (hb : bytesOf vpi = .ok vp) :
    vb = vbitsOf v ∧ ∃ dv, ValidityOk v dv := by
  rcases validityPart_ok h with ⟨rfl, rfl, _⟩ | ⟨t, x, rfl, h2, rfl, rfl⟩ | ⟨d, os, rfl, h2, rfl, _⟩
  · exact ⟨rfl, _, .none⟩
  · refine ⟨rfl, ?_⟩
    have hlt : t.seconds < 86400 := hs
    obtain ⟨r1, r2⟩ := C11_encode_range hlt
    have hd : t.days ≤ 441 := by
      by_contra hh
      rw [r1 (by omega)] at h2; cases h2
    have ht : 300 ≤ t.total := by
      by_contra hh
      obtain ⟨z, e, hz⟩ := r2 (by omega)
      rw [h2] at e; cases e
      simp only [bytesOf, except_bind_ok] at hb
      obtain ⟨y, hy, _⟩ := hb
      have := byteOf_eq_ok.1 hy
      omega
    obtain ⟨y, hy, _, h4, h5⟩ := C11_encode_best hlt ht hd
    exact ⟨_, .relative hlt ht hd hy h4 h5⟩
  · obtain ⟨h3, h4, h5, off, h6, h7, h8, h9⟩ := hs
    exact ⟨rfl, _, .absolute h3 h4 h5 h6 h7 h8 h9⟩

theorem vbits_kind {v w : Validity} {dv dw : DecodedValidity} (hv : ValidityOk v dv) (hw : ValidityOk w dw) (h : vbitsOf v = vbitsOf w) :
    (v = .none ∧ w = .none) ∨ (∃ a b, v = .relative a ∧ w = .relative b) ∨ ∃ a b, v = .absolute a ∧ w = .absolute b := by
  cases hv <;> cases hw <;> simp [vbitsOf] at h <;> simp

omit [PyUnicode] in
theorem encodeTz_sign {off : Timedelta} (hs : off.seconds < 86400) (hlo : -72000 < off.total) (hhi : off.total < 72000) :
    off.total.natAbs / 900 < 80 ∧ encodeTzStr off = .ok ([(tzNibbles (decide (off.total < 0)) (off.total.natAbs / 900)).1, (tzNibbles (decide (off.total < 0)) (off.total.natAbs / 900)).2].map hexUpper) := by
  obtain ⟨d, s, m⟩ := off
  generalize ht : Timedelta.total ⟨d, s, m⟩ = t at *
  simp only [Timedelta.total] at ht
  dsimp only at hs
  have h80 : t.natAbs / 900 < 80 := by omega
  refine ⟨h80, ?_⟩
  unfold encodeTzStr
  by_cases hd : d ≥ 0
  · have hd0 : d = 0 := by omega
    subst hd0
    have e : s / 60 / 15 = t.natAbs / 900 := by omega
    have hn : decide (t < 0) = false := by simp; omega
    rw [hn]
    simp only [ge_iff_le, le_refl, if_true, e]
    rw [(tz_pos _ h80).1]
  · have hd1 : d = -1 := by omega
    subst hd1
    have e : (-1 * -3600 * 24 - (s : Int)).toNat / 60 / 15 = t.natAbs / 900 := by omega
    have hn : decide (t < 0) = true := by simp; omega
    rw [hn]
    simp only [hd, if_false]
    rw [e, ← (tz_neg _ h80).1]
    cases intBase 16 (pad2 (t.natAbs / 900)) <;> rfl

/-- The octets of a time. -/
theorem stamp_octets {d : DateTime} {off : Timedelta} (hv : d.valid = true) (ho : d.off = some off) (hs : off.seconds < 86400) (hlo : -72000 < off.total) (hhi : off.total < 72000) :
    encodeTimestamp d = .ok (nibblePairs ([d.year % 100 / 10, d.year % 100 % 10, d.month / 10, d.month % 10, d.day / 10, d.day % 10, d.hour / 10, d.hour % 10,
      d.minute / 10, d.minute % 10, d.second / 10, d.second % 10, (tzNibbles (decide (off.total < 0)) (off.total.natAbs / 900)).1, (tzNibbles (decide (off.total < 0)) (off.total.natAbs / 900)).2])) := by
  obtain ⟨h80, h⟩ := encodeTz_sign hs hlo hhi
  have hb : (tzNibbles (decide (off.total < 0)) (off.total.natAbs / 900)).1 < 16 ∧ (tzNibbles (decide (off.total < 0)) (off.total.natAbs / 900)).2 < 15 := by
    cases decide (off.total < 0)
    · exact ⟨(tz_pos _ h80).2.1, (tz_pos _ h80).2.2.1⟩
    · exact ⟨(tz_neg _ h80).2.1, (tz_neg _ h80).2.2.1⟩
  exact encodeTimestamp_ok ho hv h hb.1 hb.2

omit [PyUnicode] in
theorem nibble_sign : ∀ j < 80, ∀ k < 80, (tzNibbles false j).2 * 16 + (tzNibbles false j).1 ≠ (tzNibbles true k).2 * 16 + (tzNibbles true k).1 := by
  decide +kernel

theorem stamp_west {d e : DateTime} {os : List Nat} (hd : Statable (.absolute d)) (he : Statable (.absolute e)) (h1 : encodeTimestamp d = .ok os) (h2 : encodeTimestamp e = .ok os) :
    west d = west e := by
  obtain ⟨v1, _, _, o1, ho1, s1, l1, u1⟩ := hd
  obtain ⟨v2, _, _, o2, ho2, s2, l2, u2⟩ := he
  rw [stamp_octets v1 ho1 s1 l1 u1] at h1
  rw [stamp_octets v2 ho2 s2 l2 u2, ← h1] at h2
  simp only [Except.ok.injEq, nibblePairs, List.cons.injEq] at h2
  have hl := h2.2.2.2.2.2.2.1
  have k1 := (encodeTz_sign s1 l1 u1).1
  have k2 := (encodeTz_sign s2 l2 u2).1
  simp only [west, ho1, ho2, Option.any_some]
  revert hl
  cases decide (o1.total < 0) <;> cases decide (o2.total < 0) <;> intro hl
  · rfl
  · exact absurd (by omega) (nibble_sign _ k1 _ k2)
  · exact absurd (by omega) (nibble_sign _ k2 _ k1)
  · rfl

omit [PyUnicode] in
theorem ofSeconds_total (n : Int) : (Timedelta.ofSeconds n).total = n := by
  simp only [Timedelta.ofSeconds, Timedelta.total]; omega

theorem stamp_congr {d e : DateTime} (hd : Statable (.absolute d)) (he : Statable (.absolute e)) (h : stated d = stated e) (hw : west d = west e) : encodeTimestamp d = encodeTimestamp e := by
  obtain ⟨v1, _, _, o1, ho1, s1, l1, u1⟩ := hd
  obtain ⟨v2, _, _, o2, ho2, s2, l2, u2⟩ := he
  rw [stamp_octets v1 ho1 s1 l1 u1, stamp_octets v2 ho2 s2 l2 u2]
  simp only [west, ho1, ho2, Option.any_some] at hw
  simp only [stated, ho1, ho2, Option.map_some, DateTime.mk.injEq, Option.some.injEq] at h
  obtain ⟨e1, e2, e3, e4, e5, e6, _, e7⟩ := h
  have e8 := congrArg Timedelta.total e7
  rw [ofSeconds_total, ofSeconds_total] at e8
  have e9 : o1.total.natAbs / 900 = o2.total.natAbs / 900 := by
    have h1 : Int.tdiv o1.total 900 = Int.tdiv o2.total 900 := by omega
    have := congrArg Int.natAbs h1
    rw [Int.natAbs_tdiv, Int.natAbs_tdiv] at this
    exact this
  rw [e1, e2, e3, e4, e5, e6, hw, e9]

/-- The validity: bits of the first octet, then octets of which the decoder knows the number. -/
theorem validity_unique {v w : Validity} {x y : List Int} {a b r s : List Nat} (sv : Statable v) (sw : Statable w) (hv : validityPart v = .ok (vbitsOf v, x)) (hw : validityPart w = .ok (vbitsOf w, y))
    (ha : bytesOf x = .ok a) (hb : bytesOf y = .ok b) (hk : vbitsOf v = vbitsOf w) (h : a ++ r = b ++ s) : SameValidity v w ∧ a = b ∧ r = s := by
  obtain ⟨_, dv, ov⟩ := validityOk_of sv hv ha
  obtain ⟨_, dw, ow⟩ := validityOk_of sw hw hb
  obtain ⟨x', a', p1, p2, _, p3⟩ := validity_field ov
  obtain ⟨y', b', q1, q2, _, q3⟩ := validity_field ow
  rw [hv] at p1; cases p1
  rw [hw] at q1; cases q1
  rw [ha] at p2; cases p2
  rw [hb] at q2; cases q2
  have e := p3 r
  rw [h, hk, q3 s] at e
  cases e
  have hab := List.append_cancel_right h
  refine ⟨?_, hab, rfl⟩
  rcases vbits_kind ov ow hk with ⟨rfl, rfl⟩ | ⟨t, u, rfl, rfl⟩ | ⟨t, u, rfl, rfl⟩
  · trivial
  · cases ov with
    | @relative _ x1 a1 a2 a3 a4 a5 a6 =>
      generalize hz : DecodedValidity.relative (Timedelta.ofSeconds (vpSeconds x1)) = z at ow
      cases ow with
      | @relative _ x2 b1 b2 b3 b4 b5 b6 =>
        have : (Timedelta.ofSeconds (vpSeconds x1)).total = (Timedelta.ofSeconds (vpSeconds x2)).total := by
          simp only [DecodedValidity.relative.injEq] at hz; rw [hz]
        rw [ofSeconds_total, ofSeconds_total] at this
        have he : vpSeconds x1 = vpSeconds x2 := by omega
        intro n hn
        constructor
        · intro hle; have := a6 n hn hle; omega
        · intro hle; have := b6 n hn hle; omega
  · subst hab
    rcases validityPart_ok hv with ⟨h', _⟩ | ⟨_, _, h', _⟩ | ⟨d, os, h', h2, _, rfl⟩
    · cases h'
    · cases h'
    cases h'
    rcases validityPart_ok hw with ⟨h', _⟩ | ⟨_, _, h', _⟩ | ⟨d, os', h', h2', _, rfl⟩
    · cases h'
    · cases h'
    cases h'
    have inj : ∀ {l a : List Nat}, bytesOf (l.map fun (n : Nat) => (n : Int)) = .ok a → a = l := by
      intro l
      induction l with
      | nil => intro a h; cases h; rfl
      | cons z l ih =>
        intro a h
        simp only [List.map_cons, bytesOf, except_bind_ok] at h
        obtain ⟨q, hq, r, hr, e⟩ := h
        cases e
        have := (byteOf_eq_ok.1 hq).2
        rw [ih hr, show q = z by omega]
    have i1 := inj ha
    have i2 := inj hb
    subst i1
    subst i2
    refine ⟨?_, stamp_west sv sw h2 h2'⟩
    cases ov with
    | absolute a1 a2 a3 a4 a5 a6 a7 =>
      generalize hz : DecodedValidity.absolute _ = z at ow
      cases ow with
      | absolute b1 b2 b3 b4 b5 b6 b7 =>
        simp only [DecodedValidity.absolute.injEq] at hz
        simp only [stated, a4, b4, Option.map_some]
        exact hz

theorem validity_congr {v w : Validity} {a b : Nat} {x y : List Int} (sv : Statable v) (sw : Statable w) (hv : validityPart v = .ok (a, x)) (hw : validityPart w = .ok (b, y))
    {p q : List Nat} (hp : bytesOf x = .ok p) (hq : bytesOf y = .ok q) (h : SameValidity v w) : a = b ∧ p = q := by
  obtain ⟨rfl, dv, ov⟩ := validityOk_of sv hv hp
  obtain ⟨rfl, dw, ow⟩ := validityOk_of sw hw hq
  match v, w, h with
  | .none, .none, _ => rw [hv] at hw; cases hw; rw [hp] at hq; cases hq; exact ⟨rfl, rfl⟩
  | .relative t, .relative u, h =>
    refine ⟨rfl, ?_⟩
    cases ov with
    | @relative _ x1 a1 a2 a3 a4 a5 a6 =>
      cases ow with
      | @relative _ x2 b1 b2 b3 b4 b5 b6 =>
        obtain ⟨y1, g1, g2, g3, g4⟩ := C11_encode_best a1 a2 a3
        obtain ⟨y2, k1, k2, k3, k4⟩ := C11_encode_best b1 b2 b3
        have he : y1 = y2 := vpSeconds_inj y1 g1 y2 k1 (le_antisymm (k4 y1 g1 ((h y1 g1).1 g3)) (g4 y2 k1 ((h y2 k1).2 k3)))
        subst he
        simp only [validityPart, g2, k2, bind, Except.bind, pure, Except.pure] at hv hw
        cases hv; cases hw
        rw [hp] at hq; cases hq; rfl
  | .absolute d, .absolute e, h =>
    refine ⟨rfl, ?_⟩
    have := stamp_congr sv sw h.1 h.2
    simp only [validityPart, this, vbitsOf] at hv hw
    rw [hv] at hw; cases hw
    rw [hp] at hq; cases hq; rfl

end

/-! ## Texts -/

theorem isWide_eq {t : PyStr} : isWide t = false ↔ ∀ c ∈ t, Encodable c := by
  simp [isWide]

theorem alphabet_wide {t : PyStr} {α : Nat} (h : chooseAlphabet t = .ok α) : α = if isWide t then 8 else 0 := by
  unfold chooseAlphabet at h
  cases he : encodeGsm7 t with
  | ok os =>
    rw [he] at h
    have := isWide_eq.2 ((C02_accepts_iff t).1 ⟨os, he⟩)
    cases h
    rw [this]; rfl
  | error e =>
    rw [he] at h
    have hw : isWide t = true := by
      rw [← Bool.not_eq_false, isWide_eq]
      intro hh
      obtain ⟨os, ho⟩ := (C02_accepts_iff t).2 hh
      rw [he] at ho; cases ho
    rw [hw]
    cases e <;> cases h
    rfl

theorem partsOf_pieces {t : PyStr} {α : Nat} (h : chooseAlphabet t = .ok α) : partsOf t α = if pieces t = 1 then none else some (pieces t) := by
  have hm : maxMessageLength α = wholeSize t := by
    rw [alphabet_wide h]
    unfold maxMessageLength wholeSize
    cases isWide t <;> rfl
  have hp : 0 < wholeSize t := by unfold wholeSize; split <;> omega
  unfold partsOf pieces
  rw [hm]
  by_cases hl : t.length ≤ wholeSize t
  · rw [if_neg (by omega), if_pos hl, if_pos rfl]
  · have := Nat.div_pos (show wholeSize t ≤ t.length by omega) hp
    rw [if_pos (by omega), if_neg hl, if_neg (by omega)]

theorem ucs2_inj {a b out : List Nat} (ha : encodeUcs2 a = .ok out) (hb : encodeUcs2 b = .ok out) : a = b := by
  have key : ∀ {t : List Nat}, encodeUcs2 t = .ok out → decodeUcs2 (out ++ []) out.length = (t, []) := by
    intro t ht
    by_cases h : ∀ c ∈ t, c < 65536
    · obtain ⟨os, h1, _, _, h2⟩ := C06_ucs2_roundtrip h []
      rw [ht] at h1; cases h1
      exact h2
    · rw [encodeUcs2_error h] at ht; cases ht
  have := (key ha).symm.trans (key hb)
  simpa using this

theorem gsm7_inj {a b os : List Nat} (ha : encodeGsm7 a = .ok os) (hb : encodeGsm7 b = .ok os) (ea : 27 ∉ a) (eb : 27 ∉ b) : a = b := by
  have h1 := (C01_gsm7_roundtrip ha).2 ea
  rw [(C01_gsm7_roundtrip hb).2 eb] at h1
  cases h1
  rfl

/-- User data with headers of the same length. -/
theorem userData_unique {α : Nat} {t u : PyStr} {h k out : List Nat} (h1 : userDataPart α t h = .ok out) (h2 : userDataPart α u k = .ok out) (hl : h.length = k.length)
    (et : 27 ∉ t) (eu : 27 ∉ u) : h = k ∧ t = u := by
  obtain ⟨l, x, e1, _, _, d1⟩ := userDataPart_ok h1
  obtain ⟨m, y, e2, _, _, d2⟩ := userDataPart_ok h2
  rw [e1] at e2
  have hxy : h = k ∧ x = y ∧ l = m := by
    by_cases hn : h = []
    · subst hn
      have : k = [] := List.length_eq_zero_iff.1 hl.symm
      subst this
      simp at e2
      exact ⟨rfl, e2.2, e2.1⟩
    · have hn' : k ≠ [] := by rintro rfl; exact hn (List.length_eq_zero_iff.1 hl)
      rw [if_neg hn, if_neg hn'] at e2
      simp only [List.cons_append, List.cons.injEq] at e2
      obtain ⟨q1, q2⟩ := List.append_inj e2.2.2 hl
      exact ⟨q1, q2, e2.1⟩
  obtain ⟨rfl, rfl, rfl⟩ := hxy
  refine ⟨rfl, ?_⟩
  rcases d1 with ⟨ha, os, o1, o2, o3⟩ | ⟨ha, o1, o2⟩ <;> rcases d2 with ⟨ha', os', o1', o2', o3'⟩ | ⟨ha', o1', o2'⟩
  · have hlen : os.length = os'.length := by
      rw [o3] at o3'
      split at o3'
      · exact o3'
      · split at o3' <;> omega
    have := pack_inj (by split <;> omega) (encodeGsm7_lt o1) (encodeGsm7_lt o1') hlen o2 o2'
    subst this
    exact gsm7_inj o1 o1' et eu
  · exact absurd ha ha'
  · exact absurd ha' ha
  · exact ucs2_inj o1 o1'

theorem concat_length {r : Int} {n m : Int} {u : List Nat} (hr : r ≤ 255) (h : encodeConcatenation r n m = .ok u) : u.length = 5 := by
  unfold encodeConcatenation at h
  rw [if_neg (by omega)] at h
  simp only [bytesOf, except_bind_ok, pure, Except.pure, Except.ok.injEq] at h
  obtain ⟨_, _, _, ⟨_, _, _, ⟨_, _, _, ⟨_, _, _, ⟨_, _, _, rfl, rfl⟩, rfl⟩, rfl⟩, rfl⟩, rfl⟩ := h
  rfl

/-! ## Requests -/
section
variable [PyUnicode]

/-- `encodeSmsSubmitPdu` with the arguments of a request. -/
def Spec.Request.encode (q : Request) : Except PyErr (List Pdu) :=
  encodeSmsSubmitPdu q.number q.text q.reference q.validity q.smsc q.report q.rejectDuplicates q.flash

theorem foOf_inj : ∀ v ∈ [0, 0x10, 0x18], ∀ w ∈ [0, 0x10, 0x18], ∀ a b c a' b' c', foOf v a b c = foOf w a' b' c' → v = w ∧ a = a' ∧ b = b' ∧ c = c' := by
  decide +kernel

theorem dcs_inj {f g : Bool} {t u : PyStr} {a b : Nat} (ha : chooseAlphabet t = .ok a) (hb : chooseAlphabet u = .ok b) (h : dcsOf f a = dcsOf g b) :
    f = g ∧ isWide t = isWide u := by
  rw [alphabet_wide ha, alphabet_wide hb] at h
  revert h
  cases f <;> cases g <;> cases isWide t <;> cases isWide u <;> decide

theorem vbits_mem {v : Validity} {a : Nat} {x : List Int} (h : validityPart v = .ok (a, x)) : a = vbitsOf v ∧ a ∈ [0, 0x10, 0x18] := by
  rcases validityPart_ok h with ⟨rfl, rfl, _⟩ | ⟨_, _, rfl, _, rfl, _⟩ | ⟨_, _, rfl, _, rfl, _⟩ <;> simp [vbitsOf]

/-- Everything that one PDU tells. -/
theorem part_unique {a b : Request} (na : a.NoEscape) (nb : b.NoEscape) (sa : Statable a.validity) (sb : Statable b.validity) {v w : Nat} {x y : List Int} {α β : Nat}
    (hv : validityPart a.validity = .ok (v, x)) (hw : validityPart b.validity = .ok (w, y)) (hα : chooseAlphabet a.text = .ok α) (hβ : chooseAlphabet b.text = .ok β) {i : Nat} {p : Pdu}
    (h1 : submitPart a.number a.text a.reference a.smsc a.flash (foOf v a.rejectDuplicates a.report (partsOf a.text α).isSome) x α (partsOf a.text α) i = .ok p)
    (h2 : submitPart b.number b.text b.reference b.smsc b.flash (foOf w b.rejectDuplicates b.report (partsOf b.text β).isSome) y β (partsOf b.text β) i = .ok p)
    (ho : ∀ z ∈ p.data, z < 256) :
    destinationOf a.number = destinationOf b.number ∧ centreOf a.smsc = centreOf b.smsc ∧ SameValidity a.validity b.validity ∧ a.reference = b.reference ∧ a.report = b.report ∧
      a.rejectDuplicates = b.rejectDuplicates ∧ a.flash = b.flash ∧ isWide a.text = isWide b.text ∧ (partsOf a.text α).isSome = (partsOf b.text β).isSome ∧
      ∃ s u, (∃ h, PartOf a.reference a.text α (partsOf a.text α) i h s) ∧ (∃ h, PartOf b.reference b.text β (partsOf b.text β) i h u) ∧ s = u := by
  obtain ⟨sca, mr, da, vp, h, s, ud, c1, c2, c3, c4, c5, c6, c7⟩ := submitPart_ok_iff.1 h1
  obtain ⟨sca', mr', da', vp', h', s', ud', d1, d2, d3, d4, d5, d6, d7⟩ := submitPart_ok_iff.1 h2
  have hp := c7
  rw [d7] at c7
  simp only [Pdu.mk.injEq] at c7
  have hd := c7.1
  rw [hp] at ho
  rw [hp] at d7
  simp only [Pdu.mk.injEq] at d7
  have ho' := ho
  rw [d7.1] at ho'
  simp only [List.append_assoc, List.cons_append, List.mem_append, List.mem_cons] at ho ho'
  have hd' := d7.1
  simp only [List.append_assoc, List.cons_append] at hd'
  obtain ⟨e1, e2, e3⟩ := smsc_unique c1 d1 na.2.2 nb.2.2 (fun z hz => ho z (.inr (by simpa using hz))) (fun z hz => ho' z (.inr (by simpa using hz))) hd'
  simp only [List.cons.injEq] at e3
  obtain ⟨f1, f2, f3⟩ := e3
  obtain ⟨v1, v2⟩ := vbits_mem hv
  obtain ⟨w1, w2⟩ := vbits_mem hw
  obtain ⟨g1, g2, g3, g4⟩ := foOf_inj v v2 w w2 _ _ _ _ _ _ f1
  obtain ⟨k1, k2, k3⟩ := field_unique (field_facts c4 na.2.1) (field_facts d4 nb.2.1) (fun z hz => ho z (.inr (.inr (.inr (.inr (by simpa using hz))))))
    (fun z hz => ho' z (.inr (.inr (.inr (.inr (by simpa using hz)))))) f3
  simp only [List.cons.injEq, true_and] at k3
  obtain ⟨l1, l2⟩ := k3
  obtain ⟨m1, m2⟩ := dcs_inj hα hβ l1
  subst v1
  subst w1
  obtain ⟨n1, n2, n3⟩ := validity_unique sa sb hv hw c5 d5 g1 l2
  have hαβ : α = β := by rw [alphabet_wide hα, alphabet_wide hβ, m2]
  have hr : a.reference = b.reference := by
    have r1 := (byteOf_eq_ok.1 c3).2
    have r2 := (byteOf_eq_ok.1 d3).2
    omega
  refine ⟨k1, e1, n1, hr, g3, g2, m1, m2, g4, s, s', ⟨h, c2⟩, ⟨h', d2⟩, ?_⟩
  have hs : ∀ {q : Request} {γ : Nat} {h s : List Nat}, q.NoEscape → byteOf q.reference = .ok mr → PartOf q.reference q.text γ (partsOf q.text γ) i h s →
      27 ∉ s ∧ h.length = if (partsOf q.text γ).isSome then 5 else 0 := by
    intro q γ h s nq hb hp
    have hle := (byteOf_eq_ok.1 hb).1
    unfold PartOf at hp
    cases hq : partsOf q.text γ with
    | none => rw [hq] at hp; obtain ⟨rfl, rfl⟩ := hp; exact ⟨nq.1, rfl⟩
    | some n =>
      rw [hq] at hp
      obtain ⟨h3, rfl⟩ := hp
      refine ⟨?_, by simpa using concat_length (by omega) h3⟩
      split
      · exact fun hm => nq.1 (List.mem_of_mem_drop (List.mem_of_mem_take hm))
      · exact fun hm => nq.1 (List.mem_of_mem_drop (List.mem_of_mem_take hm))
  have t1 := hs na c3 c2
  have t2 := hs nb (by rw [← hr]; exact c3) d2
  subst hαβ
  rw [n3] at c6
  exact (userData_unique c6 d6 (by rw [t1.2, t2.2, g4]) t1.1 t2.1).2

end

end Gsm
