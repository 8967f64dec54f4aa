import Verif.Model.Udh
import Verif.Lemmas.Ucs2
namespace Gsm

/-- The loop of the code as an equation, for any sufficient fuel: fuel does not matter. -/
theorem decodeUdhLoop_step : ∀ (fuel fuel' udhLen ieLenRead : Nat) (it : List Nat),
    udhLen ≤ ieLenRead + fuel → udhLen ≤ ieLenRead + fuel' →
    decodeUdhLoop fuel udhLen ieLenRead it = decodeUdhLoop fuel' udhLen ieLenRead it
  | 0, 0, _, _, _, _, _ => rfl
  | 0, f' + 1, u, r, it, h, _ => by simp [decodeUdhLoop, show ¬ r < u by omega]
  | f + 1, 0, u, r, it, _, h => by simp [decodeUdhLoop, show ¬ r < u by omega]
  | f + 1, f' + 1, u, r, it, h, h' => by
    unfold decodeUdhLoop
    split
    · cases decodeIE it with
      | error e => rfl
      | ok p =>
        have := decodeUdhLoop_step f f' u (r + (p.1.dataLength + 2)) p.2 (by omega) (by omega)
        simp only [bind, Except.bind, this]
    · rfl

theorem bytesOf_ok_iff : ∀ {xs : List Int} {os : List Nat},
    bytesOf xs = .ok os ↔ (∀ x ∈ xs, 0 ≤ x ∧ x < 256) ∧ os = xs.map Int.toNat
  | [], os => by simp [bytesOf, eq_comm]
  | x :: xs, os => by
    simp only [bytesOf, except_bind_ok, pure, Except.pure, Except.ok.injEq, byteOf_eq_ok, bytesOf_ok_iff]
    constructor
    · rintro ⟨a, ⟨h1, rfl⟩, b, ⟨h2, rfl⟩, rfl⟩
      simp only [List.mem_cons, forall_eq_or_imp, List.map_cons, Int.toNat_natCast, and_true]
      exact ⟨h1, h2⟩
    · rintro ⟨h, rfl⟩
      simp only [List.mem_cons, forall_eq_or_imp] at h
      exact ⟨x.toNat, ⟨h.1, by omega⟩, _, ⟨h.2, rfl⟩, rfl⟩

theorem bytesOf_error {xs : List Int} (h : ¬ ∀ x ∈ xs, 0 ≤ x ∧ x < 256) :
    bytesOf xs = .error .valueError := by
  induction xs with
  | nil => simp at h
  | cons x xs ih =>
    by_cases hx : 0 ≤ x ∧ x < 256
    · have : ¬ ∀ x ∈ xs, 0 ≤ x ∧ x < 256 := by
        intro h'; apply h
        intro y hy
        rcases List.mem_cons.1 hy with rfl | hy
        · exact hx
        · exact h' y hy
      simp [bytesOf, byteOf, hx, ih this, bind, Except.bind]
    · simp [bytesOf, byteOf, hx, bind, Except.bind]

theorem bytesOf_nat {os : List Nat} (h : ∀ x ∈ os, x < 256) :
    bytesOf (os.map (fun (n : Nat) => (n : Int))) = .ok os := by
  rw [bytesOf_ok_iff]
  refine ⟨?_, by rw [List.map_map]; exact (List.map_id os).symm⟩
  simp only [List.mem_map]
  rintro x ⟨n, hn, rfl⟩
  have := h n hn; omega

theorem takeExact_append (rest : List Nat) : ∀ os : List Nat,
    takeExact os.length (os ++ rest) = .ok (os, rest)
  | [] => rfl
  | o :: os => by
    simp [takeExact, next, takeExact_append rest os, bind, Except.bind, pure, Except.pure]

theorem takeExact_short : ∀ {n : Nat} {it : List Nat}, it.length < n →
    takeExact n it = .error .stopIteration
  | n + 1, [], _ => rfl
  | n + 1, o :: it, h => by
    have := takeExact_short (n := n) (it := it) (by simpa using h)
    simp [takeExact, next, this, bind, Except.bind]

theorem takeExact_ok : ∀ {n : Nat} {it os rest : List Nat}, takeExact n it = .ok (os, rest) →
    it = os ++ rest ∧ os.length = n
  | 0, it, os, rest, h => by simp [takeExact] at h; obtain ⟨rfl, rfl⟩ := h; simp
  | n + 1, [], os, rest, h => by simp [takeExact, next, bind, Except.bind] at h
  | n + 1, o :: it, os, rest, h => by
    simp only [takeExact, next, bind, Except.bind] at h
    cases h' : takeExact n it with
    | error e => simp [h'] at h
    | ok p =>
      obtain ⟨a, b⟩ := p
      simp only [h', pure, Except.pure, Except.ok.injEq, Prod.mk.injEq] at h
      obtain ⟨rfl, rfl⟩ := h
      obtain ⟨rfl, rfl⟩ := takeExact_ok h'
      simp

theorem decodeIE_octets {iei : Nat} {data : List Nat} (rest : List Nat) :
    decodeIE (iei :: data.length :: data ++ rest) = (mkIE iei data.length data).map (·, rest) := by
  simp only [decodeIE, List.cons_append, next, takeExact_append, bind, Except.bind]
  cases mkIE iei data.length data <;> rfl

theorem mkIE_ok {iei n : Nat} {data : List Nat} {ie : IE} (h : mkIE iei n data = .ok ie) :
    ie.id = iei ∧ ie.dataLength = n ∧ ie.data = data := by
  unfold mkIE at h
  split at h
  · split at h <;> simp at h; subst h; simp
  · split at h
    · split at h <;> simp at h; subst h; simp
    · split at h
      · split at h <;> simp at h; subst h; simp
      · split at h
        · split at h <;> simp at h; subst h; simp
        · simp at h; subst h; simp

end Gsm
