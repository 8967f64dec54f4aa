import Verif.Model.PyInt
import Verif.Spec.Modem
namespace Gsm


theorem intDigits_digits : ∀ {s : PyStr} {acc : Nat}, (∀ c ∈ s, isD c = true) →
    intDigits false acc s = some (s.foldl (fun a c => a * 10 + (c - 48)) acc)
  | [], acc, _ => by simp [intDigits]
  | c :: s, acc, h => by
    simp only [intDigits, h c (by simp), if_true, List.foldl_cons]
    exact intDigits_digits (fun x hx => h x (by simp [hx]))

theorem pyNat_digits {s : PyStr} (hne : s ≠ []) (h : ∀ c ∈ s, isD c = true) : pyNat? s = some (decVal s) := by
  cases s with
  | nil => exact absurd rfl hne
  | cons c s =>
    simp only [pyNat?, h c (by simp), if_true]
    rw [intDigits_digits (fun x hx => h x (by simp [hx]))]
    simp [decVal]

theorem isD_iff {c : Nat} : isD c = true ↔ 48 ≤ c ∧ c ≤ 57 := by simp [isD]

theorem isD_not_blank {c : Nat} (h : isD c = true) : pyBlank c = false := by
  rw [isD_iff] at h
  simp [pyBlank]; omega

theorem dropWhile_head {p : Nat → Bool} {s : PyStr} (h : ∀ c, s.head? = some c → p c = false) : s.dropWhile p = s := by
  cases s with
  | nil => rfl
  | cons c s => simp [h c rfl]

theorem pyTrim_id {s : PyStr} (h1 : ∀ c, s.head? = some c → pyBlank c = false)
    (h2 : ∀ c, s.getLast? = some c → pyBlank c = false) : pyTrim s = s := by
  unfold pyTrim
  rw [dropWhile_head h1, dropWhile_head (by simpa using h2), List.reverse_reverse]

theorem pyInt_digits {s : PyStr} (hne : s ≠ []) (h : ∀ c ∈ s, isD c = true) : pyInt? s = some (decVal s : Int) := by
  unfold pyInt?
  rw [pyTrim_id (fun c hc => isD_not_blank (h c (List.mem_of_mem_head? hc)))
    (fun c hc => isD_not_blank (h c (List.mem_of_getLast? hc)))]
  cases s with
  | nil => exact absurd rfl hne
  | cons c s =>
    have hc := isD_iff.1 (h c (by simp))
    split
    · simp_all
    · simp_all
    · rw [pyNat_digits hne h]; rfl

theorem decAux_digits : ∀ (f n : Nat) (acc : PyStr), (∀ c ∈ acc, isD c = true) → ∀ c ∈ decAux f n acc, isD c = true
  | 0, _, acc, h => h
  | f + 1, n, acc, h => by
    unfold decAux
    split
    · intro c hc
      rcases List.mem_cons.1 hc with rfl | hc
      · rw [isD_iff]; omega
      · exact h c hc
    · apply decAux_digits
      intro c hc
      rcases List.mem_cons.1 hc with rfl | hc
      · rw [isD_iff]; omega
      · exact h c hc

theorem decAux_ne_nil : ∀ (f n : Nat) (acc : PyStr), f ≠ 0 → decAux f n acc ≠ []
  | f + 1, n, acc, _ => by
    unfold decAux
    split
    · simp
    · cases f with
      | zero => simp [decAux]
      | succ f => exact decAux_ne_nil (f + 1) _ _ (by simp)

theorem decAux_val : ∀ (f n : Nat) (acc : PyStr), n < f →
    (decAux f n acc).foldl (fun a c => a * 10 + (c - 48)) 0 = acc.foldl (fun a c => a * 10 + (c - 48)) n
  | 0, _, _, h => by omega
  | f + 1, n, acc, h => by
    unfold decAux
    split
    · simp
    · rw [decAux_val f (n / 10) _ (by omega), List.foldl_cons]
      congr 1
      omega

theorem decStr_digits (n : Nat) : ∀ c ∈ decStr n, isD c = true := decAux_digits _ _ _ (by simp)
theorem decStr_ne_nil (n : Nat) : decStr n ≠ [] := decAux_ne_nil _ _ _ (by omega)
theorem decVal_decStr (n : Nat) : decVal (decStr n) = n := by
  unfold decVal decStr
  rw [decAux_val _ _ _ (by omega)]
  rfl

/-- `int('{0}'.format(n))` is `n`. -/
theorem pyInt_decStr (n : Nat) : pyInt? (decStr n) = some (n : Int) := by
  rw [pyInt_digits (decStr_ne_nil n) (decStr_digits n), decVal_decStr]

theorem pyInt_intStr (n : Int) : pyInt? (intStr n) = some n := by
  unfold intStr
  split
  · rw [pyInt_decStr]; congr 1; omega
  · have hd := decStr_digits (-n).toNat
    have hne := decStr_ne_nil (-n).toNat
    unfold pyInt?
    rw [pyTrim_id (by intro c hc; simp at hc; subst hc; decide) (by
      intro c hc
      rw [List.getLast?_cons] at hc
      have hl : (decStr (-n).toNat).getLast? = some ((decStr (-n).toNat).getLast hne) := List.getLast?_eq_some_getLast hne
      rw [hl] at hc
      simp only [Option.getD_some, Option.some.injEq] at hc
      subst hc
      exact isD_not_blank (hd _ (List.getLast_mem hne)))]
    show (pyNat? (decStr (-n).toNat)).map (fun (n : Nat) => -(n : Int)) = some n
    rw [pyNat_digits hne hd, decVal_decStr]
    simp only [Option.map_some, Option.some.injEq]
    omega

theorem intStr_injective {a b : Int} (h : intStr a = intStr b) : a = b := by
  have := pyInt_intStr a
  rw [h, pyInt_intStr b] at this
  simpa using this.symm

end Gsm
