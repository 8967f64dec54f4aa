import Verif.Spec.Instant
import Verif.Lemmas.Timestamp
/-! # Lemmas about instants -/
namespace Gsm
open Spec

theorem isLeap_iff (y : Nat) : isLeap y = true ↔ 4 ∣ y ∧ (100 ∣ y → 400 ∣ y) := by
  unfold isLeap
  simp only [Bool.or_eq_true, Bool.and_eq_true, beq_iff_eq, bne_iff_ne]
  omega

theorem months_sum (y : Nat) : (months y).sum = if isLeap y = true then 366 else 365 := by
  unfold months
  simp only [isLeap_iff]
  split <;> simp

theorem daysBeforeYear_succ {y : Nat} (h : 1 ≤ y) : daysBeforeYear (y + 1) = daysBeforeYear y + if isLeap y = true then 366 else 365 := by
  simp only [isLeap_iff]
  unfold daysBeforeYear
  split <;> omega

theorem daysOfYears_eq : ∀ y, 1 ≤ y → daysOfYears y = daysBeforeYear y
  | 0, h => by omega
  | 1, _ => rfl
  | y + 2, _ => by
    rw [daysOfYears, daysOfYears_eq (y + 1) (by omega), daysBeforeYear_succ (by omega : 1 ≤ y + 1), months_sum]
    simp

theorem monthsTake_eq {y m : Nat} (h1 : 1 ≤ m) (h2 : m ≤ 12) : ((months y).take (m - 1)).sum = daysBeforeMonth y m := by
  unfold months daysBeforeMonth
  simp only [isLeap_iff]
  have : m = 1 ∨ m = 2 ∨ m = 3 ∨ m = 4 ∨ m = 5 ∨ m = 6 ∨ m = 7 ∨ m = 8 ∨ m = 9 ∨ m = 10 ∨ m = 11 ∨ m = 12 := by omega
  rcases this with rfl | rfl | rfl | rfl | rfl | rfl | rfl | rfl | rfl | rfl | rfl | rfl <;> split <;> simp_all

theorem toordinal_eq {d : DateTime} (hv : d.valid = true) : d.toordinal = dayNumber d := by
  simp only [DateTime.valid, decide_eq_true_eq] at hv
  obtain ⟨y1, _, m1, m2, _⟩ := hv
  unfold DateTime.toordinal dayNumber
  rw [daysOfYears_eq _ y1, monthsTake_eq m1 m2]

theorem monthStep (y : Nat) {m n : Nat} (h1 : 1 ≤ m) (h : m < n) (h2 : n ≤ 12) : daysBeforeMonth y m + daysInMonth y m ≤ daysBeforeMonth y n := by
  have key : ∀ l : Bool, ∀ n < 13, ∀ m < n, 1 ≤ m →
      ([0, 0, 31, 59, 90, 120, 151, 181, 212, 243, 273, 304, 334].getD m 0 + if m > 2 ∧ l = true then 1 else 0) +
        (if m = 2 then (if l = true then 29 else 28) else if m = 4 ∨ m = 6 ∨ m = 9 ∨ m = 11 then 30 else 31) ≤
      [0, 0, 31, 59, 90, 120, 151, 181, 212, 243, 273, 304, 334].getD n 0 + if n > 2 ∧ l = true then 1 else 0 := by decide +kernel
  exact key (isLeap y) n (by omega) m h h1

theorem monthEnd (y : Nat) {m : Nat} (h1 : 1 ≤ m) (h2 : m ≤ 12) : daysBeforeMonth y m + daysInMonth y m ≤ if isLeap y = true then 366 else 365 := by
  have key : ∀ l : Bool, ∀ m < 13, 1 ≤ m →
      ([0, 0, 31, 59, 90, 120, 151, 181, 212, 243, 273, 304, 334].getD m 0 + if m > 2 ∧ l = true then 1 else 0) +
        (if m = 2 then (if l = true then 29 else 28) else if m = 4 ∨ m = 6 ∨ m = 9 ∨ m = 11 then 30 else 31) ≤ if l = true then 366 else 365 := by decide +kernel
  exact key (isLeap y) m (by omega) h1

theorem yearMono {a b : Nat} (h1 : 1 ≤ a) (h : a < b) : daysBeforeYear a + (if isLeap a = true then 366 else 365) ≤ daysBeforeYear b := by
  rw [← daysBeforeYear_succ h1]
  obtain ⟨k, rfl⟩ : ∃ k, b = a + 1 + k := ⟨b - (a + 1), by omega⟩
  clear h
  induction k with
  | zero => exact Nat.le_refl _
  | succ k ih =>
    have := daysBeforeYear_succ (y := a + 1 + k) (by omega)
    rw [show a + 1 + (k + 1) = a + 1 + k + 1 from rfl, this]
    omega

/-- Later dates have greater numbers. -/
theorem ordinal_lt {a b : DateTime} (ha : a.valid = true) (hb : b.valid = true)
    (h : a.year < b.year ∨ a.year = b.year ∧ (a.month < b.month ∨ a.month = b.month ∧ a.day < b.day)) : a.toordinal < b.toordinal := by
  simp only [DateTime.valid, decide_eq_true_eq] at ha hb
  obtain ⟨y1, _, m1, m2, d1, d2, _⟩ := ha
  obtain ⟨y1', _, m1', m2', d1', d2', _⟩ := hb
  unfold DateTime.toordinal
  rcases h with h | ⟨h, h' | ⟨h', h''⟩⟩
  · have := yearMono y1 h
    have := monthEnd a.year m1 m2
    omega
  · have := monthStep a.year m1 h' m2'
    rw [← h]
    omega
  · rw [← h, ← h']
    omega

/-- The comparison of the fields is that of the clocks. -/
theorem tuple_base {a b : DateTime} (ha : a.valid = true) (hb : b.valid = true) (hma : a.micro < 1000000) (hmb : b.micro < 1000000) :
    tupleCmp a.tuple b.tuple = (baseDiff a b).sign := by
  have hlt : ∀ {a b : DateTime}, a.valid = true → b.valid = true → (a.year < b.year ∨ a.year = b.year ∧ (a.month < b.month ∨ a.month = b.month ∧ a.day < b.day)) → a.toordinal < b.toordinal := ordinal_lt
  have h1 := hlt ha hb
  have h2 := hlt hb ha
  have he : a.year = b.year → a.month = b.month → a.day = b.day → a.toordinal = b.toordinal := by
    intro h1 h2 h3; unfold DateTime.toordinal; rw [h1, h2, h3]
  simp only [DateTime.valid, decide_eq_true_eq] at ha hb
  obtain ⟨_, _, _, _, _, _, hh, hm, hs⟩ := ha
  obtain ⟨_, _, _, _, _, _, hh', hm', hs'⟩ := hb
  unfold baseDiff
  generalize a.toordinal = x at *
  generalize b.toordinal = y at *
  simp only [DateTime.tuple, tupleCmp]
  have neg : ∀ z : Int, z < 0 → (-1 : Int) = z.sign := fun z h => (Int.sign_eq_neg_one_of_neg h).symm
  have pos : ∀ z : Int, 0 < z → (1 : Int) = z.sign := fun z h => (Int.sign_eq_one_of_pos h).symm
  have hlt0 : ∀ {m n : Nat}, m < n → ¬ n < m := fun h => by omega
  rcases Nat.lt_trichotomy a.year b.year with h | e0 | h
  · have := h1 (.inl h)
    rw [if_pos h]
    clear h1 h2 he hlt
    exact neg _ (by omega)
  rotate_left
  · have := h2 (.inl h)
    rw [if_neg (hlt0 h), if_pos h]
    clear h1 h2 he hlt
    exact pos _ (by omega)
  rw [if_neg (by rw [e0]; exact Nat.lt_irrefl _), if_neg (by rw [e0]; exact Nat.lt_irrefl _)]
  rcases Nat.lt_trichotomy a.month b.month with h | e1 | h
  · have := h1 (.inr ⟨e0, .inl h⟩)
    rw [if_pos h]
    clear h1 h2 he hlt
    exact neg _ (by omega)
  rotate_left
  · have := h2 (.inr ⟨e0.symm, .inl h⟩)
    rw [if_neg (hlt0 h), if_pos h]
    clear h1 h2 he hlt
    exact pos _ (by omega)
  rw [if_neg (by rw [e1]; exact Nat.lt_irrefl _), if_neg (by rw [e1]; exact Nat.lt_irrefl _)]
  rcases Nat.lt_trichotomy a.day b.day with h | e2 | h
  · have := h1 (.inr ⟨e0, .inr ⟨e1, h⟩⟩)
    rw [if_pos h]
    clear h1 h2 he hlt
    exact neg _ (by omega)
  rotate_left
  · have := h2 (.inr ⟨e0.symm, .inr ⟨e1.symm, h⟩⟩)
    rw [if_neg (hlt0 h), if_pos h]
    clear h1 h2 he hlt
    exact pos _ (by omega)
  rw [if_neg (by rw [e2]; exact Nat.lt_irrefl _), if_neg (by rw [e2]; exact Nat.lt_irrefl _)]
  rcases Nat.lt_trichotomy a.hour b.hour with h | e3 | h
  · have := he e0 e1 e2
    rw [if_pos h]
    clear h1 h2 he hlt
    exact neg _ (by omega)
  rotate_left
  · have := he e0 e1 e2
    rw [if_neg (hlt0 h), if_pos h]
    clear h1 h2 he hlt
    exact pos _ (by omega)
  rw [if_neg (by rw [e3]; exact Nat.lt_irrefl _), if_neg (by rw [e3]; exact Nat.lt_irrefl _)]
  rcases Nat.lt_trichotomy a.minute b.minute with h | e4 | h
  · have := he e0 e1 e2
    rw [if_pos h]
    clear h1 h2 he hlt
    exact neg _ (by omega)
  rotate_left
  · have := he e0 e1 e2
    rw [if_neg (hlt0 h), if_pos h]
    clear h1 h2 he hlt
    exact pos _ (by omega)
  rw [if_neg (by rw [e4]; exact Nat.lt_irrefl _), if_neg (by rw [e4]; exact Nat.lt_irrefl _)]
  rcases Nat.lt_trichotomy a.second b.second with h | e5 | h
  · have := he e0 e1 e2
    rw [if_pos h]
    clear h1 h2 he hlt
    exact neg _ (by omega)
  rotate_left
  · have := he e0 e1 e2
    rw [if_neg (hlt0 h), if_pos h]
    clear h1 h2 he hlt
    exact pos _ (by omega)
  rw [if_neg (by rw [e5]; exact Nat.lt_irrefl _), if_neg (by rw [e5]; exact Nat.lt_irrefl _)]
  rcases Nat.lt_trichotomy a.micro b.micro with h | e6 | h
  · have := he e0 e1 e2
    rw [if_pos h]
    clear h1 h2 he hlt
    exact neg _ (by omega)
  rotate_left
  · have := he e0 e1 e2
    rw [if_neg (hlt0 h), if_pos h]
    clear h1 h2 he hlt
    exact pos _ (by omega)
  rw [if_neg (by rw [e6]; exact Nat.lt_irrefl _), if_neg (by rw [e6]; exact Nat.lt_irrefl _)]
  have := he e0 e1 e2
  clear h1 h2 he hlt
  rw [eq_comm, Int.sign_eq_zero_iff_zero]
  omega

theorem zoneSeconds_total (s : Int) : (Timedelta.ofSeconds s).total = s := by
  simp only [Timedelta.ofSeconds, Timedelta.total]; omega

theorem zoneSeconds_inj {a b : Int} (h : Timedelta.ofSeconds a = .ofSeconds b) : a = b := by
  have := congrArg Timedelta.total h
  rwa [zoneSeconds_total, zoneSeconds_total] at this

theorem mkStrptime_real {r : Option (List Nat × PyStr)} {pick : List Nat → Option (List Nat)} {d : DateTime} (h : mkStrptime r pick = .ok d) :
    d.valid = true ∧ d.micro = 0 := by
  have key : ∀ dt : DateTime, dt.micro = 0 → (if dt.valid = true then (.ok dt : Except PyErr DateTime) else .error .valueError) = .ok d → d.valid = true ∧ d.micro = 0 := by
    intro dt hm h
    split at h
    · next hv => injection h with h; subst h; exact ⟨hv, hm⟩
    · cases h
  unfold mkStrptime at h
  split at h
  · split at h
    · exact key _ (by rfl) h
    · cases h
  · cases h

theorem semi_hex (n : Option Nat) : ∀ (it : List Nat) (i : Nat), (∀ x ∈ it, x < 256) → ∀ c ∈ (decodeSemiOctets n i it).1, ∃ v < 16, c = hexLower v
  | [], _, _ => by simp [decodeSemiOctets]
  | o :: it, i, h => by
    have ho := h o (by simp)
    have ih := semi_hex n it (i + 1) (fun x hx => h x (by simp [hx]))
    intro c hc
    simp only [decodeSemiOctets] at hc
    split at hc
    · simp only [List.mem_singleton] at hc; exact ⟨_, by omega, hc⟩
    · split at hc
      · simp only [List.mem_cons, List.not_mem_nil, or_false] at hc
        rcases hc with hc | hc
        · exact ⟨_, by omega, hc⟩
        · exact ⟨_, by omega, hc⟩
      · simp only [List.mem_cons] at hc
        rcases hc with hc | hc | hc
        · exact ⟨_, by omega, hc⟩
        · exact ⟨_, by omega, hc⟩
        · exact ih c hc

/-- Division towards zero by four. -/
theorem quarters (p : Int) : Int.tmod p 4 + 4 * Int.tdiv p 4 = p ∧ (0 ≤ p → 0 ≤ Int.tmod p 4 ∧ Int.tmod p 4 ≤ 3) ∧ (p ≤ 0 → -3 ≤ Int.tmod p 4 ∧ Int.tmod p 4 ≤ 0) := by
  refine ⟨Int.tmod_add_mul_tdiv p 4, fun h => ?_, fun h => ?_⟩
  · rw [Int.tmod_eq_emod_of_nonneg h]
    omega
  · have : Int.tmod p 4 = -Int.tmod (-p) 4 := by rw [Int.neg_tmod]; omega
    rw [this, Int.tmod_eq_emod_of_nonneg (by omega)]
    omega

/-- What the zone of a PDU can be. -/
theorem tz_bound {s : PyStr} (hl : s.length ≤ 2) (hs : ∀ c ∈ s, ∃ v < 16, c = hexLower v) {o : Timedelta} (h : pduTzOffset s = .ok o) :
    ∃ q : Int, -80 < q ∧ q < 80 ∧ o = .ofSeconds (q * 900) := by
  have k1 : ∀ a < 16, ∀ o, pduTzOffset [hexLower a] = .ok o → -80 < o.total / 900 ∧ o.total / 900 < 80 ∧ o = .ofSeconds (o.total / 900 * 900) := by
    have : ∀ a < 16, (match pduTzOffset [hexLower a] with | .ok o => decide (-80 < o.total / 900 ∧ o.total / 900 < 80 ∧ o = .ofSeconds (o.total / 900 * 900)) | .error _ => true) = true := by decide +kernel
    intro a ha o ho
    have := this a ha
    rw [ho] at this
    simpa using this
  have k2 : ∀ a < 16, ∀ b < 16, ∀ o, pduTzOffset [hexLower a, hexLower b] = .ok o → -80 < o.total / 900 ∧ o.total / 900 < 80 ∧ o = .ofSeconds (o.total / 900 * 900) := by
    have : ∀ a < 16, ∀ b < 16, (match pduTzOffset [hexLower a, hexLower b] with | .ok o => decide (-80 < o.total / 900 ∧ o.total / 900 < 80 ∧ o = .ofSeconds (o.total / 900 * 900)) | .error _ => true) = true := by decide +kernel
    intro a ha b hb o ho
    have := this a ha b hb
    rw [ho] at this
    simpa using this
  match s, hl, hs, h with
  | [], _, _, h => simp [pduTzOffset, intBase, bind, Except.bind] at h
  | [a], _, hs, h =>
    obtain ⟨v, hv, rfl⟩ := hs a (by simp)
    exact ⟨_, k1 v hv o h⟩
  | [a, b], _, hs, h =>
    obtain ⟨v, hv, rfl⟩ := hs a (by simp)
    obtain ⟨u, hu, rfl⟩ := hs b (by simp)
    exact ⟨_, k2 v hv u hu o h⟩
  | _ :: _ :: _ :: _, hl, _, _ => simp at hl

end Gsm
