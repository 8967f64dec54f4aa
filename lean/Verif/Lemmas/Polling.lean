import Verif.Spec.Polling
import Verif.Lemmas.Coverage
import Verif.Lemmas.Calls
/-! # Polling -/
namespace Gsm
open M Spec

variable {env : Env}

theorem clcc_sound {line : PyStr} {g : List PyStr} (h : rxGroups clccRegex line = some g) :
    ∃ ds dir stat mode rest, g = ds :: [48 + dir] :: [48 + stat] :: [48 + mode] :: rest ∧ Digits ds ∧ dir ≤ 9 ∧ stat ≤ 9 ∧ mode ≤ 9 ∧ CallLine line (decVal ds) dir stat mode := by
  unfold rxGroups rxMatch? clccRegex rxGrp at h
  rw [Option.map_eq_some_iff] at h
  obtain ⟨⟨g', r⟩, h, rfl⟩ := h
  simp only [List.append_assoc, List.cons_append, List.nil_append] at h
  obtain ⟨s1, rfl, h1⟩ := rxRun_lit_some h
  obtain ⟨b, s2, rfl, hb, hb0, _, h2⟩ := rxRun_rep_some h1
  rw [rxRun_op] at h2
  obtain ⟨ds, s3, rfl, hd, hd0, _, h3⟩ := rxRun_rep_some h2
  rw [rxRun_cl] at h3
  obtain ⟨s4, rfl, h4⟩ := rxRun_lit_some h3
  rw [rxRun_op] at h4
  obtain ⟨d, s5, rfl, hdir, h5⟩ := rxRun_ch_some h4
  rw [rxRun_cl] at h5
  obtain ⟨s6, rfl, h6⟩ := rxRun_lit_some h5
  rw [rxRun_op] at h6
  obtain ⟨st, s7, rfl, hst, h7⟩ := rxRun_ch_some h6
  rw [rxRun_cl] at h7
  obtain ⟨s8, rfl, h8⟩ := rxRun_lit_some h7
  rw [rxRun_op] at h8
  obtain ⟨mo, s9, rfl, hmo, h9⟩ := rxRun_ch_some h8
  rw [rxRun_cl] at h9
  obtain ⟨s10, rfl, h10⟩ := rxRun_lit_some h9
  rw [rxRun_op] at h10
  obtain ⟨m, s11, rfl, hm, h11⟩ := rxRun_ch_some h10
  rw [rxRun_cl] at h11
  obtain ⟨s12, rfl, h12⟩ := rxRun_lit_some h11
  rw [rxRun_op] at h12
  obtain ⟨num, s13, rfl, hnum, _, _, h13⟩ := rxRun_rep_some h12
  rw [rxRun_cl] at h13
  obtain ⟨s14, rfl, h14⟩ := rxRun_lit_some h13
  rw [rxRun_op] at h14
  obtain ⟨ton, s15, rfl, hton, hton0, _, h15⟩ := rxRun_rep_some h14
  rw [rxRun_cl] at h15
  obtain ⟨hend, h16⟩ := rxRun_eol_some h15
  simp only [rxRun_nil, List.nil_append, Option.some.injEq, Prod.mk.injEq] at h16
  have hdir := isD_iff.1 hdir
  have hst := isD_iff.1 hst
  have hmo := isD_iff.1 hmo
  have e1 : 48 + (d - 48) = d := by omega
  have e2 : 48 + (st - 48) = st := by omega
  have e3 : 48 + (mo - 48) = mo := by omega
  have hD : Digits ds := ⟨by rintro rfl; simp at hd0, fun c hc => isD_iff.1 (hd c hc)⟩
  refine ⟨ds, d - 48, st - 48, mo - 48, [[m], num, ton], by rw [← h16.1, e1, e2, e3]; simp, hD, by omega, by omega, by omega,
    b, ds, m, num, ton, s15, by rw [e1, e2, e3]; simp, by rintro rfl; simp at hb0, spaces_iff.2 hb, hD, rfl, by omega, by omega, by omega, ?_, ?_,
    ⟨by rintro rfl; simp at hton0, fun c hc => isD_iff.1 (hton c hc)⟩, hend⟩
  · simpa [notC] using hm
  · intro hc
    have := hnum 44 hc
    simp [notC] at this

theorem rxMatch_lit {l : PyStr} {is : List Rx} {s : PyStr} {cap : Caps} {g : List PyStr} {r : PyStr}
    (h : RxMatch is s ⟨cap.done, cap.cur ++ l⟩ g r) : RxMatch (rxLit l ++ is) (l ++ s) cap g r := by
  induction l generalizing cap with
  | nil => simpa [rxLit] using h
  | cons c l ih =>
    refine .ch (by simp) (ih (cap := ⟨cap.done, cap.cur ++ [c]⟩) ?_)
    simpa using h

theorem clcc_complete {line : PyStr} {id dir stat mode : Nat} (h : CallLine line id dir stat mode) : ∃ g, rxGroups clccRegex line = some g := by
  obtain ⟨b, ds, m, num, ton, t, rfl, hb0, hb, hd, _, h1, h2, h3, hm, hnum, hton, ht⟩ := h
  have hdir : isD (48 + dir) = true := isD_iff.2 ⟨by omega, by omega⟩
  have hst : isD (48 + stat) = true := isD_iff.2 ⟨by omega, by omega⟩
  have hmo : isD (48 + mode) = true := isD_iff.2 ⟨by omega, by omega⟩
  have hm' : notC 44 m = true := by simpa [notC] using hm
  have key : ∃ g r, RxMatch clccRegex (py!"+CLCC:" ++ (b ++ (ds ++ (py!"," ++ ((48 + dir) :: (py!"," ++ ((48 + stat) :: (py!"," ++ ((48 + mode) :: (py!"," ++ (m :: (py!",\"" ++ (num ++ (py!"\"," ++ (ton ++ t)))))))))))))))
      ⟨[], []⟩ g r := by
    refine ⟨[ds, [48 + dir], [48 + stat], [48 + mode], [m], num, ton], t, ?_⟩
    unfold clccRegex rxGrp
    simp only [List.append_assoc, List.cons_append, List.nil_append]
    refine rxMatch_lit (.rep (spaces_iff.1 hb) (List.length_pos_iff.2 hb0) (by simp) (.op ?_))
    refine .rep (digits_class hd) (List.length_pos_iff.2 hd.1) (by simp) (.cl (rxMatch_lit (.op ?_)))
    refine .ch hdir (.cl (rxMatch_lit (.op (.ch hst (.cl (rxMatch_lit (.op (.ch hmo (.cl (rxMatch_lit (.op (.ch hm' (.cl ?_)))))))))))))
    refine rxMatch_lit (.op (.rep (notin_class hnum) (by simp) (by simp) (.cl (rxMatch_lit (.op ?_)))))
    exact .rep (digits_class hton) (List.length_pos_iff.2 hton.1) (by simp) (.cl (.eol ht .nil))
  obtain ⟨g, r, hk⟩ := key
  have := rxRun_complete hk
  rw [Option.isSome_iff_exists] at this
  obtain ⟨⟨g', r'⟩, hr⟩ := this
  refine ⟨g', ?_⟩
  unfold rxGroups rxMatch?
  simp only [List.append_assoc, List.cons_append, List.nil_append] at hr ⊢
  rw [hr]
  rfl

/-- A run of a class is determined by the text. -/
theorem span_unique {p : Nat → Bool} : ∀ {w w' : PyStr} {s s' : PyStr}, (∀ c ∈ w, p c = true) → (∀ c ∈ w', p c = true) →
    (∀ c, s.head? = some c → p c = false) → (∀ c, s'.head? = some c → p c = false) → w ++ s = w' ++ s' → w = w' ∧ s = s'
  | [], [], s, s', _, _, _, _, h => ⟨rfl, h⟩
  | [], c :: w', s, s', _, h2, h3, _, h => by
    have := h3 c (by rw [List.nil_append] at h; rw [h]; rfl)
    rw [h2 c (by simp)] at this; cases this
  | c :: w, [], s, s', h1, _, _, h4, h => by
    have := h4 c (by rw [List.nil_append] at h; rw [← h]; rfl)
    rw [h1 c (by simp)] at this; cases this
  | c :: w, c' :: w', s, s', h1, h2, h3, h4, h => by
    simp only [List.cons_append, List.cons.injEq] at h
    obtain ⟨rfl, h⟩ := h
    obtain ⟨rfl, rfl⟩ := span_unique (fun x hx => h1 x (by simp [hx])) (fun x hx => h2 x (by simp [hx])) h3 h4 h
    exact ⟨rfl, rfl⟩

theorem callLine_unique {line : PyStr} {a b c d a' b' c' d' : Nat} (h : CallLine line a b c d) (h' : CallLine line a' b' c' d') : a = a' ∧ b = b' ∧ c = c' ∧ d = d' := by
  obtain ⟨sp, ds, m, num, ton, t, rfl, hb0, hb, hd, rfl, _⟩ := h
  obtain ⟨sp', ds', m', num', ton', t', he, hb0', hb', hd', rfl, _⟩ := h'
  simp only [List.append_assoc, List.cons_append, List.nil_append, List.cons.injEq, true_and] at he
  have hs : ∀ x, 48 ≤ x → x ≤ 57 → isS x = false := by intro x h1 h2; simp [isS]; omega
  obtain ⟨_, he1⟩ := span_unique (spaces_iff.1 hb) (spaces_iff.1 hb') (head_digits hd hs) (head_digits hd' hs) he
  have hc : ∀ (u : PyStr) x, (44 :: u).head? = some x → isD x = false := by rintro u x h; cases h; rfl
  obtain ⟨rfl, he2⟩ := span_unique (p := isD) (digits_class hd) (digits_class hd') (hc _) (hc _) he1
  simp only [List.cons.injEq, true_and] at he2
  exact ⟨rfl, by omega, by omega, by omega⟩

/-- A command whose last answer is a time-out raises this. -/
theorem writeN_timeout {data term : PyStr} : ∀ (n : Nat) (s : St) (d : Option (List PyStr)), env.reply (writeN (n + 1) data true term env s).2.log = .timeout d →
    (writeN (n + 1) data true term env s).1 = .error (.timeout d)
  | n, s, d => by
    rw [writeN]
    dsimp only
    split
    · next d' hr => rw [hr]; rintro ⟨⟩; rfl
    · next ls hr =>
      split
      · rw [hr]; rintro ⟨⟩
      · simp only [if_true]
        split
        · rw [hr]; rintro ⟨⟩
        · rw [hr]; rintro ⟨⟩
        · cases n with
          | zero => simp only [writeN, raise]; rw [hr]; rintro ⟨⟩
          | succ n =>
            have := writeN_timeout (data := data) (term := term) n { s with log := (data ++ term) :: s.log, writeWait := s.writeWait + 2 } d
            generalize writeN (n + 1) data true term env { s with log := (data ++ term) :: s.log, writeWait := s.writeWait + 2 } = r at this ⊢
            obtain ⟨r, s1⟩ := r
            cases r with
            | ok r => intro h; exact absurd (this h) (by simp)
            | error e => exact this

theorem write_timeout_iff (hd : 0 < env.depth) {data term : PyStr} {s : St} {d : Option (List PyStr)} :
    (write data true term env s).1 = .error (.timeout d) ↔ env.reply (write data true term env s).2.log = .timeout d := by
  constructor
  · intro h
    obtain ⟨k, w, h1, h2, h3⟩ := write_outcome (data := data) (term := term) (env := env) s
    rw [h] at h3
    rcases h3 with ⟨ls, h4, _⟩ | ⟨d', h4, _, h5⟩ | ⟨e, h4, h5, _⟩
    · cases h4
    · cases h4
      rw [h1]; exact h5
    · cases h4
      exact absurd rfl (h5 d)
  · intro h
    obtain ⟨n, hn⟩ : ∃ n, env.depth = n + 1 := ⟨env.depth - 1, by omega⟩
    unfold write at h ⊢
    rw [hn] at h ⊢
    exact writeN_timeout n s d h

/-- The values the code reads. -/
def seenVal : Seen → Option (Int × Int × Int × Int)
  | .call id dir stat mode => some (id, dir, stat, mode)
  | .nothing => none

theorem digit_int {n : Nat} (h : n ≤ 9) : pyInt [48 + n] = .ok (n : Int) := by
  rw [pyInt_of_digits ⟨by simp, by simp; omega⟩]
  simp [decVal]

theorem query_run (hd : 0 < env.depth) (s : St) : ∃ s1, OnlyLog s s1 ∧
    ((∃ o, Queried env.reply s.log s1.log o ∧ clccQuery env s = (.ok (seenVal o), s1)) ∨
      (QueryFails env.reply s.log s1.log ∧ ∃ e, clccQuery env s = (.error e, s1))) := by
  obtain ⟨ok, s1, h1, h2, h3⟩ := write_trans (env := env) py!"AT+CLCC" [13] s
  have ht := fun d => write_timeout_iff hd (data := py!"AT+CLCC") (term := [13]) (s := s) (d := d)
  refine ⟨s1, h1, ?_⟩
  unfold clccQuery M.except
  simp only [run_bind]
  rcases h3 with ⟨rfl, h3⟩ | ⟨rfl, e, h3⟩
  · rw [h3]
    obtain ⟨ls, line, hr, hl, _⟩ := (accepted_of_trans h2 rfl).1
    obtain ⟨l, ls, rfl⟩ := List.exists_cons_of_ne_nil (by rintro rfl; simp at hl : ls ≠ [])
    rw [lastAnswer_lines hr]
    simp only [firstLine, run_ofExcept]
    cases hg : rxGroups clccRegex l with
    | none =>
      refine .inl ⟨.nothing, .inl ⟨h2, ?_⟩, rfl⟩
      rw [hr]
      intro id dir stat mode hc
      obtain ⟨g, h⟩ := clcc_complete hc
      rw [hg] at h; cases h
    | some g =>
      obtain ⟨ds, dir, stat, mode, rest, rfl, hD, d1, d2, d3, hc⟩ := clcc_sound hg
      refine .inl ⟨.call (decVal ds) dir stat mode, .inl ⟨h2, by rw [hr]; exact hc⟩, ?_⟩
      simp only [run_bind, run_ofExcept, pyInt_of_digits hD, digit_int d1, digit_int d2, digit_int d3, run_pure, seenVal]
  · rw [h3] at ht ⊢
    dsimp only at ht ⊢
    cases e with
    | timeout d => exact .inl ⟨.nothing, .inr ⟨h2, ⟨d, (ht d).1 rfl⟩, rfl⟩, rfl⟩
    | _ => exact .inr ⟨⟨h2, fun d hr => by have := (ht d).2 hr; cases this⟩, _, rfl⟩

end Gsm
