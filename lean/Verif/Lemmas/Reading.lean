import Verif.Spec.Reading
import Verif.Lemmas.Progress
import Verif.Lemmas.ModemTrans
import Verif.Lemmas.Listing
/-! # The patterns of stored messages -/
namespace Gsm
open M Spec

variable {env : Env}

/-! ### Messages in text mode -/

theorem deliver_rx : cmgrTextRegex = rxLit py!"+CMGR: \"" ++ (.op :: rxPlus (notC 34) :: .cl :: (rxLit py!"\",\"" ++ (.op :: rxPlus (notC 34) :: .cl ::
    (rxLit py!"\"," ++ (rxStar (notC 44) :: (rxLit py!",\"" ++ (.op :: rxPlus (notC 34) :: .cl :: (rxLit py!"\"" ++ [.eol])))))))) := by
  simp [cmgrTextRegex, rxGrp]

theorem class_notin {x : Nat} {s : PyStr} (h : ∀ c ∈ s, notC x c = true) : x ∉ s := fun hx => by
  have := h x hx
  simp [notC] at this

theorem quotable_of {x : PyStr} (h : ∀ c ∈ x, notC 34 c = true) (h1 : 1 ≤ x.length) : Quotable x := ⟨List.length_pos_iff.1 h1, class_notin h⟩

theorem deliver_iff {line : PyStr} {g : List PyStr} : rxGroups cmgrTextRegex line = some g ↔
    ∃ st number time, g = [st, number, time] ∧ DeliverHeader line st number time := by
  unfold rxGroups rxMatch?
  rw [Option.map_eq_some_iff, deliver_rx]
  constructor
  · rintro ⟨⟨g', r⟩, h, rfl⟩
    obtain ⟨s1, rfl, h1⟩ := rxRun_lit_some h
    rw [rxRun_op] at h1
    obtain ⟨a, s2, rfl, ha, ha1, _, h2⟩ := rxRun_rep_some h1
    rw [rxRun_cl] at h2
    obtain ⟨s3, rfl, h3⟩ := rxRun_lit_some h2
    rw [rxRun_op] at h3
    obtain ⟨b, s4, rfl, hb, hb1, _, h4⟩ := rxRun_rep_some h3
    rw [rxRun_cl] at h4
    obtain ⟨s5, rfl, h5⟩ := rxRun_lit_some h4
    obtain ⟨n, s6, rfl, hn, _, _, h6⟩ := rxRun_rep_some h5
    obtain ⟨s7, rfl, h7⟩ := rxRun_lit_some h6
    rw [rxRun_op] at h7
    obtain ⟨t, s8, rfl, ht, ht1, _, h8⟩ := rxRun_rep_some h7
    rw [rxRun_cl] at h8
    obtain ⟨s9, rfl, h9⟩ := rxRun_lit_some h8
    obtain ⟨hend, h10⟩ := rxRun_eol_some h9
    simp only [rxRun_nil, List.nil_append, Option.some.injEq, Prod.mk.injEq] at h10
    refine ⟨a, b, t, by rw [← h10.1]; simp, n, s9, rfl, quotable_of ha ha1, quotable_of hb hb1, class_notin hn, quotable_of ht ht1, hend⟩
  · rintro ⟨a, b, t, rfl, n, e, rfl, ha, hb, hn, ht, he⟩
    refine ⟨([a, b, t], e), ?_, rfl⟩
    rw [rxRun_lit, rxRun_op]
    refine rxRun_rep_longest (notin_class ha.2) (List.length_pos_iff.2 ha.1) (fun c hc => by cases hc; decide) ?_
    rw [rxRun_cl, rxRun_lit, rxRun_op]
    refine rxRun_rep_longest (notin_class hb.2) (List.length_pos_iff.2 hb.1) (fun c hc => by cases hc; decide) ?_
    rw [rxRun_cl, rxRun_lit]
    refine rxRun_rep_longest (notin_class hn) (Nat.zero_le _) (fun c hc => by cases hc; decide) ?_
    rw [rxRun_lit, rxRun_op]
    refine rxRun_rep_longest (notin_class ht.2) (List.length_pos_iff.2 ht.1) (fun c hc => by cases hc; decide) ?_
    rw [rxRun_cl, rxRun_lit, rxRun_eol he, rxRun_nil]
    simp

theorem deliver_unique {line a b c a' b' c' : PyStr} (h : DeliverHeader line a b c) (h' : DeliverHeader line a' b' c') : a = a' ∧ b = b' ∧ c = c' := by
  have h1 := deliver_iff.2 ⟨a, b, c, rfl, h⟩
  rw [deliver_iff.2 ⟨a', b', c', rfl, h'⟩] at h1
  simpa [eq_comm] using h1

/-! ### Reports in text mode -/

theorem report_rx : cmgrReportRegex = rxLit py!"+CMGR: " ++ (.op :: rxStar (notC 44) :: .cl :: (rxLit py!"," ++ (rxPlus isD :: (rxLit py!"," ++ (.op :: rxPlus isD :: .cl ::
    (rxLit py!"," ++ (rxOpt 34 :: .op :: rxStar (notC 34) :: .cl :: rxOpt 34 :: (rxLit py!"," ++ (rxStar isD :: (rxLit py!",\"" ++
    (.op :: rxPlus (notC 34) :: .cl :: (rxLit py!"\",\"" ++ (.op :: rxPlus (notC 34) :: .cl :: (rxLit py!"\"," ++ (.op :: rxPlus isD :: .cl :: [.eol]))))))))))))))) := by
  simp [cmgrReportRegex, rxGrp]

theorem maybe_of {o : PyStr} (h : ∀ c ∈ o, decide (c = 34) = true) (h1 : o.length ≤ 1) : MaybeQuote o := by
  rcases o with _ | ⟨c, _ | ⟨c', o⟩⟩
  · exact .inl rfl
  · have : c = 34 := by simpa using h c (by simp)
    subst this
    exact .inr rfl
  · simp at h1

theorem digits_of {d : PyStr} (h : ∀ c ∈ d, isD c = true) (h1 : 1 ≤ d.length) : Digits d := ⟨List.length_pos_iff.1 h1, fun c hc => isD_iff.1 (h c hc)⟩

theorem report_fwd {line : PyStr} {g : List PyStr} (h : rxGroups cmgrReportRegex line = some g) :
    ∃ st ref number sent delivered result, g = [st, ref, number, sent, delivered, result] ∧ ReportHeader line st ref number sent delivered result := by
  unfold rxGroups rxMatch? at h
  rw [Option.map_eq_some_iff, report_rx] at h
  obtain ⟨⟨g', r⟩, h, rfl⟩ := h
  obtain ⟨s1, rfl, k1⟩ := rxRun_lit_some h
  rw [rxRun_op] at k1
  obtain ⟨st, s2, rfl, hst, _, _, k2⟩ := rxRun_rep_some k1
  rw [rxRun_cl] at k2
  obtain ⟨s3, rfl, k3⟩ := rxRun_lit_some k2
  obtain ⟨oc, s4, rfl, hoc, hoc1, _, k4⟩ := rxRun_rep_some k3
  obtain ⟨s5, rfl, k5⟩ := rxRun_lit_some k4
  rw [rxRun_op] at k5
  obtain ⟨rf, s6, rfl, hrf, hrf1, _, k6⟩ := rxRun_rep_some k5
  rw [rxRun_cl] at k6
  obtain ⟨s7, rfl, k7⟩ := rxRun_lit_some k6
  obtain ⟨q, s8, rfl, hq, _, hq1, k8⟩ := rxRun_rep_some k7
  rw [rxRun_op] at k8
  obtain ⟨nu, s9, rfl, hnu, _, _, k9⟩ := rxRun_rep_some k8
  rw [rxRun_cl] at k9
  obtain ⟨q', s10, rfl, hq', _, hq1', k10⟩ := rxRun_rep_some k9
  obtain ⟨s11, rfl, k11⟩ := rxRun_lit_some k10
  obtain ⟨k, s12, rfl, hk, _, _, k12⟩ := rxRun_rep_some k11
  obtain ⟨s13, rfl, k13⟩ := rxRun_lit_some k12
  rw [rxRun_op] at k13
  obtain ⟨t1, s14, rfl, ht1, ht1', _, k14⟩ := rxRun_rep_some k13
  rw [rxRun_cl] at k14
  obtain ⟨s15, rfl, k15⟩ := rxRun_lit_some k14
  rw [rxRun_op] at k15
  obtain ⟨t2, s16, rfl, ht2, ht2', _, k16⟩ := rxRun_rep_some k15
  rw [rxRun_cl] at k16
  obtain ⟨s17, rfl, k17⟩ := rxRun_lit_some k16
  rw [rxRun_op] at k17
  obtain ⟨re, s18, rfl, hre, hre1, _, k18⟩ := rxRun_rep_some k17
  rw [rxRun_cl] at k18
  obtain ⟨hend, k19⟩ := rxRun_eol_some k18
  simp only [rxRun_nil, List.nil_append, Option.some.injEq, Prod.mk.injEq] at k19
  exact ⟨st, rf, nu, t1, t2, re, by rw [← k19.1]; simp, oc, q, q', k, s18, rfl, class_notin hst, digits_of hoc hoc1, digits_of hrf hrf1,
    maybe_of hq (hq1 1 rfl), maybe_of hq' (hq1' 1 rfl), class_notin hnu, fun c hc => isD_iff.1 (hk c hc), quotable_of ht1 ht1', quotable_of ht2 ht2',
    digits_of hre hre1, hend⟩

/-- The first of two parts, the second of which begins with a character that cannot be in it. -/
theorem upto_unique {x : Nat} {a a' r r' : PyStr} (h : x ∉ a) (h' : x ∉ a') (e : a ++ x :: r = a' ++ x :: r') : a = a' ∧ r = r' := by
  obtain ⟨h1, h2⟩ := span_unique (p := notC x) (notin_class h) (notin_class h') (fun c hc => by cases hc; simp [notC]) (fun c hc => by cases hc; simp [notC]) e
  exact ⟨h1, by simpa using h2⟩

/-- The same from the end. -/
theorem from_unique {x : Nat} {a a' r r' : PyStr} (h : x ∉ r) (h' : x ∉ r') (e : a ++ x :: r = a' ++ x :: r') : a = a' ∧ r = r' := by
  have e := congrArg List.reverse e
  simp only [List.reverse_append, List.reverse_cons, List.append_assoc, List.cons_append, List.nil_append] at e
  obtain ⟨h1, h2⟩ := upto_unique (by simpa using h) (by simpa using h') e
  exact ⟨by simpa using h2, by simpa using h1⟩

theorem end_unique {d d' t t' : PyStr} (hd : Digits d) (hd' : Digits d') (ht : LineEnd t) (ht' : LineEnd t') (e : d ++ t = d' ++ t') : d = d' ∧ t = t' :=
  span_unique (digits_class hd) (digits_class hd') (fun c hc => by rcases ht with rfl | rfl <;> cases hc; decide)
    (fun c hc => by rcases ht' with rfl | rfl <;> cases hc; decide) e

theorem digits_notin {d : PyStr} {x : Nat} (h : ∀ c ∈ d, 48 ≤ c ∧ c ≤ 57) (hx : x < 48) : x ∉ d := fun hm => by have := h x hm; omega

theorem lineEnd_notin {t : PyStr} {x : Nat} (h : LineEnd t) (hx : x ≠ 10) : x ∉ t := by rcases h with rfl | rfl <;> simp [hx]

/-- A number between quotes that may be missing. -/
theorem maybe_unique {q n r q' n' r' : PyStr} (hq : MaybeQuote q) (hr : MaybeQuote r) (hn : 34 ∉ n) (hq' : MaybeQuote q') (hr' : MaybeQuote r') (hn' : 34 ∉ n')
    (e : q ++ (n ++ r) = q' ++ (n' ++ r')) : n = n' := by
  have key : ∀ {q n r : PyStr}, MaybeQuote q → MaybeQuote r → 34 ∉ n → (q ++ (n ++ r)).filter (· ≠ 34) = n := by
    intro q n r hq hr hn
    have h1 : n.filter (· ≠ 34) = n := List.filter_eq_self.2 fun c hc => by simp; rintro rfl; exact hn hc
    rcases hq with rfl | rfl <;> rcases hr with rfl | rfl <;> simp_all
  rw [← key hq hr hn, e, key hq' hr' hn']

theorem report_unique {line a b c d e f a' b' c' d' e' f' : PyStr} (h : ReportHeader line a b c d e f) (h' : ReportHeader line a' b' c' d' e' f') :
    a = a' ∧ b = b' ∧ c = c' ∧ d = d' ∧ e = e' ∧ f = f' := by
  obtain ⟨oc, q, r, k, t, rfl, ha, hoc, hb, hq, hr, hc, hk, hd, he, hf, ht⟩ := h
  obtain ⟨oc', q', r', k', t', hl, ha', hoc', hb', hq', hr', hc', hk', hd', he', hf', ht'⟩ := h'
  have m1 := List.append_cancel_left hl
  obtain ⟨rfl, m2⟩ := upto_unique (x := 44) ha ha' m1
  obtain ⟨rfl, m3⟩ := upto_unique (x := 44) (digits_notin hoc.2 (by decide)) (digits_notin hoc'.2 (by decide)) m2
  obtain ⟨rfl, m4⟩ := upto_unique (x := 44) (digits_notin hb.2 (by decide)) (digits_notin hb'.2 (by decide)) m3
  -- now from the end
  have hres : ∀ {x t : PyStr}, Digits x → LineEnd t → 34 ∉ py!"," ++ (x ++ t) := by
    intro x t hx ht hm
    simp only [List.cons_append, List.nil_append, List.mem_cons, List.mem_append] at hm
    rcases hm with hm | hm | hm
    · cases hm
    · exact digits_notin hx.2 (by decide) hm
    · exact lineEnd_notin ht (by decide) hm
  have a1 : ∀ (q c r k d e f t : PyStr), q ++ (c ++ (r ++ (py!"," ++ (k ++ (py!",\"" ++ (d ++ (py!"\",\"" ++ (e ++ (py!"\"," ++ (f ++ t)))))))))) =
      (q ++ (c ++ (r ++ (py!"," ++ (k ++ (py!",\"" ++ (d ++ (py!"\",\"" ++ e)))))))) ++ 34 :: (py!"," ++ (f ++ t)) := by intros; simp
  rw [a1 q, a1 q'] at m4
  obtain ⟨m5, h2⟩ := from_unique (hres hf ht) (hres hf' ht') m4
  obtain ⟨rfl, rfl⟩ := end_unique hf hf' ht ht' (List.append_cancel_left h2)
  have a2 : ∀ (q c r k d e : PyStr), q ++ (c ++ (r ++ (py!"," ++ (k ++ (py!",\"" ++ (d ++ (py!"\",\"" ++ e))))))) =
      (q ++ (c ++ (r ++ (py!"," ++ (k ++ (py!",\"" ++ (d ++ py!"\","))))))) ++ 34 :: e := by intros; simp
  rw [a2 q, a2 q'] at m5
  obtain ⟨m6, rfl⟩ := from_unique he.2 he'.2 m5
  have a3 : ∀ (q c r k d : PyStr), q ++ (c ++ (r ++ (py!"," ++ (k ++ (py!",\"" ++ (d ++ py!"\",")))))) =
      (q ++ (c ++ (r ++ (py!"," ++ (k ++ (py!",\"" ++ d)))))) ++ 34 :: py!"," := by intros; simp
  rw [a3 q, a3 q'] at m6
  obtain ⟨m7, _⟩ := from_unique (by decide) (by decide) m6
  have a4 : ∀ (q c r k d : PyStr), q ++ (c ++ (r ++ (py!"," ++ (k ++ (py!",\"" ++ d))))) =
      (q ++ (c ++ (r ++ (py!"," ++ (k ++ py!","))))) ++ 34 :: d := by intros; simp
  rw [a4 q, a4 q'] at m7
  obtain ⟨m8, rfl⟩ := from_unique hd.2 hd'.2 m7
  have a5 : ∀ (q c r k : PyStr), q ++ (c ++ (r ++ (py!"," ++ (k ++ py!",")))) = ((q ++ (c ++ r)) ++ 44 :: k) ++ py!"," := by intros; simp
  rw [a5 q, a5 q'] at m8
  obtain ⟨m9, rfl⟩ := from_unique (digits_notin hk (by decide)) (digits_notin hk' (by decide)) (List.append_cancel_right m8)
  exact ⟨rfl, rfl, maybe_unique hq hr hc hq' hr' hc' m9, rfl, rfl, rfl⟩

theorem opt_complete {is : List Rx} {q s : PyStr} {done : List PyStr} {cur : PyStr} (hq : MaybeQuote q)
    (h : (rxRun is s ⟨done, cur ++ q⟩).isSome = true) : (rxRun (rxOpt 34 :: is) (q ++ s) ⟨done, cur⟩).isSome = true := by
  simp only [rxOpt, rxRun, if_true]
  exact repGreedy_complete (by rcases hq with rfl | rfl <;> simp) (Nat.zero_le _) (by rcases hq with rfl | rfl <;> simp) h

theorem report_iff {line : PyStr} {g : List PyStr} : rxGroups cmgrReportRegex line = some g ↔
    ∃ st ref number sent delivered result, g = [st, ref, number, sent, delivered, result] ∧ ReportHeader line st ref number sent delivered result := by
  refine ⟨report_fwd, ?_⟩
  rintro ⟨st, rf, nu, t1, t2, re, rfl, hh⟩
  have hh' := hh
  obtain ⟨oc, q, q', k, t, hl, hst, hoc, hrf, hq, hq', hnu, hk, ht1, ht2, hre, ht⟩ := hh'
  have hsome : (rxRun cmgrReportRegex line ⟨[], []⟩).isSome = true := by
    rw [hl, report_rx, rxRun_lit, rxRun_op]
    refine rxRun_rep_complete (notin_class hst) (Nat.zero_le _) ?_
    rw [rxRun_cl, rxRun_lit]
    refine rxRun_rep_complete (digits_class hoc) (List.length_pos_iff.2 hoc.1) ?_
    rw [rxRun_lit, rxRun_op]
    refine rxRun_rep_complete (digits_class hrf) (List.length_pos_iff.2 hrf.1) ?_
    rw [rxRun_cl, rxRun_lit]
    refine opt_complete hq ?_
    rw [rxRun_op]
    refine rxRun_rep_complete (notin_class hnu) (Nat.zero_le _) ?_
    rw [rxRun_cl]
    refine opt_complete hq' ?_
    rw [rxRun_lit]
    refine rxRun_rep_complete (fun c hc => isD_iff.2 (hk c hc)) (Nat.zero_le _) ?_
    rw [rxRun_lit, rxRun_op]
    refine rxRun_rep_complete (notin_class ht1.2) (List.length_pos_iff.2 ht1.1) ?_
    rw [rxRun_cl, rxRun_lit, rxRun_op]
    refine rxRun_rep_complete (notin_class ht2.2) (List.length_pos_iff.2 ht2.1) ?_
    rw [rxRun_cl, rxRun_lit, rxRun_op]
    refine rxRun_rep_complete (digits_class hre) (List.length_pos_iff.2 hre.1) ?_
    rw [rxRun_cl, rxRun_eol ht, rxRun_nil]
    rfl
  obtain ⟨g, hg⟩ := Option.isSome_iff_exists.1 hsome
  have hg' : rxGroups cmgrReportRegex line = some g.1 := by unfold rxGroups rxMatch?; rw [hg]; rfl
  rw [hg']
  obtain ⟨a, b, c, d, e, f, hgg, h1⟩ := report_fwd hg'
  obtain ⟨rfl, rfl, rfl, rfl, rfl, rfl⟩ := report_unique hh h1
  rw [hgg]

/-! ### PDU mode -/

theorem pdu_rx : cmgrPduRegex = rxLit py!"+CMGR: " ++ (.op :: rxStar isD :: .cl :: (rxLit py!"," ++ (rxOpt 34 :: .op :: rxStar (notC 34) :: .cl :: rxOpt 34 ::
    (rxLit py!"," ++ (.op :: rxPlus isD :: .cl :: [.eol]))))) := by simp [cmgrPduRegex, rxGrp]

theorem pdu_fwd {line : PyStr} {g : List PyStr} (h : rxGroups cmgrPduRegex line = some g) : ∃ st a b, g = [st, a, b] ∧ PduHeader line st := by
  unfold rxGroups rxMatch? at h
  rw [Option.map_eq_some_iff, pdu_rx] at h
  obtain ⟨⟨g', r⟩, h, rfl⟩ := h
  obtain ⟨s1, rfl, k1⟩ := rxRun_lit_some h
  rw [rxRun_op] at k1
  obtain ⟨st, s2, rfl, hst, _, _, k2⟩ := rxRun_rep_some k1
  rw [rxRun_cl] at k2
  obtain ⟨s3, rfl, k3⟩ := rxRun_lit_some k2
  obtain ⟨q, s8, rfl, hq, _, hq1, k4⟩ := rxRun_rep_some k3
  rw [rxRun_op] at k4
  obtain ⟨nu, s9, rfl, hnu, _, _, k5⟩ := rxRun_rep_some k4
  rw [rxRun_cl] at k5
  obtain ⟨q', s10, rfl, hq', _, hq1', k6⟩ := rxRun_rep_some k5
  obtain ⟨s11, rfl, k7⟩ := rxRun_lit_some k6
  rw [rxRun_op] at k7
  obtain ⟨re, s18, rfl, hre, hre1, _, k8⟩ := rxRun_rep_some k7
  rw [rxRun_cl] at k8
  obtain ⟨hend, k9⟩ := rxRun_eol_some k8
  simp only [rxRun_nil, List.nil_append, Option.some.injEq, Prod.mk.injEq] at k9
  exact ⟨st, nu, re, by rw [← k9.1]; simp, q, nu, q', re, s18, rfl, fun c hc => isD_iff.1 (hst c hc), maybe_of hq (hq1 1 rfl), maybe_of hq' (hq1' 1 rfl),
    class_notin hnu, digits_of hre hre1, hend⟩

theorem pdu_unique {line a a' : PyStr} (h : PduHeader line a) (h' : PduHeader line a') : a = a' := by
  obtain ⟨_, _, _, _, _, rfl, h1, _⟩ := h
  obtain ⟨_, _, _, _, _, hl, h1', _⟩ := h'
  exact (upto_unique (x := 44) (digits_notin h1 (by decide)) (digits_notin h1' (by decide)) (List.append_cancel_left hl)).1

theorem pdu_bwd {line st : PyStr} (h : PduHeader line st) : ∃ a b, rxGroups cmgrPduRegex line = some [st, a, b] := by
  have hh := h
  obtain ⟨q, nu, q', len, t, hl, hst, hq, hq', hnu, hlen, ht⟩ := h
  have hsome : (rxRun cmgrPduRegex line ⟨[], []⟩).isSome = true := by
    rw [hl, pdu_rx, rxRun_lit, rxRun_op]
    refine rxRun_rep_complete (fun c hc => isD_iff.2 (hst c hc)) (Nat.zero_le _) ?_
    rw [rxRun_cl, rxRun_lit]
    refine opt_complete hq ?_
    rw [rxRun_op]
    refine rxRun_rep_complete (notin_class hnu) (Nat.zero_le _) ?_
    rw [rxRun_cl]
    refine opt_complete hq' ?_
    rw [rxRun_lit, rxRun_op]
    refine rxRun_rep_complete (digits_class hlen) (List.length_pos_iff.2 hlen.1) ?_
    rw [rxRun_cl, rxRun_eol ht, rxRun_nil]
    rfl
  obtain ⟨g, hg⟩ := Option.isSome_iff_exists.1 hsome
  have hg' : rxGroups cmgrPduRegex line = some g.1 := by unfold rxGroups rxMatch?; rw [hg]; rfl
  obtain ⟨st', a, b, hgg, h1⟩ := pdu_fwd hg'
  refine ⟨a, b, ?_⟩
  rw [hg', hgg, pdu_unique hh h1]

/-! ### States -/

theorem state_none {st : PyStr} (h : ∀ n, (st, n) ∉ stateNames) : textStatus st = .error .keyError := by
  simp only [stateNames, List.mem_cons, List.not_mem_nil, or_false, Prod.mk.injEq, not_or, not_and] at h
  unfold textStatus textStatus?
  rw [if_neg fun e => (h 0).1 e rfl, if_neg fun e => (h 1).2.1 e rfl, if_neg fun e => (h 2).2.2.1 e rfl, if_neg fun e => (h 3).2.2.2.1 e rfl,
    if_neg fun e => (h 4).2.2.2.2 e rfl]

/-- The field of a report without its quotes. -/
def bareState (f : PyStr) : PyStr := if py!"\"".isPrefixOf f then stripQuotes f else f

theorem unquoted_iff {f x : PyStr} : Unquoted f x ↔ bareState f = x := by
  unfold bareState
  constructor
  · rintro (h | _ | _)
    · cases f with
      | nil => rfl
      | cons c f =>
        have : c ≠ 34 := by simpa using h
        simp [Ne.symm this]
    · simp [stripQuotes]
    · rfl
  · rintro rfl
    cases f with
    | nil => exact .bare (by simp)
    | cons c f =>
      by_cases hc : c = 34
      · subst hc
        rcases List.eq_nil_or_concat f with rfl | ⟨x, d, rfl⟩
        · exact .lone
        · have := @Unquoted.quoted x d
          simpa [stripQuotes] using this
      · have hp : py!"\"".isPrefixOf (c :: f) = false := by
          show ((34 == c) && List.isPrefixOf [] f) = false
          simp [Ne.symm hc]
        rw [hp]
        exact .bare (by simpa using hc)

theorem reportState_iff {f : PyStr} {n : Int} : ReportState f n ↔ textStatus (if (bareState f).length = 0 then py!"REC UNREAD" else bareState f) = .ok n := by
  constructor
  · rintro (h | ⟨h, hx⟩)
    · rw [unquoted_iff.1 h]; rfl
    · rw [unquoted_iff.1 h]
      have := states hx
      rw [if_neg (by simpa using this.2.1)]
      exact this.1
  · intro h
    split at h
    · next h0 =>
      cases h
      exact .missing (unquoted_iff.2 (List.length_eq_zero_iff.1 h0))
    · by_cases hs : ∃ m, (bareState f, m) ∈ stateNames
      · obtain ⟨m, hm⟩ := hs
        rw [(states hm).1] at h
        cases h
        exact .named (unquoted_iff.2 rfl) hm
      · rw [state_none fun m hm => hs ⟨m, hm⟩] at h; cases h

theorem reportState_none {f : PyStr} (h : ∀ n, ¬ ReportState f n) :
    textStatus (if (bareState f).length = 0 then py!"REC UNREAD" else bareState f) = .error .keyError := by
  by_cases h0 : (bareState f).length = 0
  · exact absurd (.missing (unquoted_iff.2 (List.length_eq_zero_iff.1 h0))) (h 0)
  · rw [if_neg h0]
    exact state_none fun n hn => h n (.named (unquoted_iff.2 rfl) hn)

end Gsm
