import Verif.Lemmas.RegexEval
import Mathlib.Data.List.Forall2
import Mathlib.Data.List.Nodup
import Verif.Lemmas.ModemTrans
/-! # Listings: headers, loops, deletion -/
namespace Gsm
open M Spec

variable {env : Env}

theorem isS_digit (c : Nat) (h1 : 48 ≤ c) (h2 : c ≤ 57) : isS c = false := by simp [isS]; omega
theorem isD_comma : isD 44 = false := by decide

theorem cmglPdu_header {e : PduEntry} (h : e.Ok) :
    rxGroups cmglPduRegex (py!"+CMGL:" ++ e.blanks ++ e.index ++ py!"," ++ e.blanks' ++ e.status ++ py!"," ++ e.rest) = some [e.index, e.status] := by
  obtain ⟨h1, h2, h3, h4, h5⟩ := h
  have : rxMatch? cmglPduRegex (py!"+CMGL:" ++ (e.blanks ++ (e.index ++ (py!"," ++ (e.blanks' ++ (e.status ++ (py!"," ++ (e.rest ++ [])))))))) =
      some ([e.index, e.status], []) := by
    unfold rxMatch? cmglPduRegex rxGrp
    simp only [List.append_assoc, List.cons_append, List.nil_append]
    refine rxRun_litE (rxRun_star (blanks_class h1) (head_digits h2 isS_digit) (rxRun_op' (rxRun_plus h2.1 (digits_class h2) ?_ (rxRun_cl'
      (rxRun_litE (rxRun_star (blanks_class h3) (head_digits h4 isS_digit) (rxRun_op' (rxRun_plus h4.1 (digits_class h4) ?_ (rxRun_cl'
      (rxRun_litE (rxRun_star (notin_class h5) (by simp) (rxRun_eol' ?_))))))))))))
    · intro c hc; simp at hc; subst hc; rfl
    · intro c hc; simp at hc; subst hc; rfl
    · simp [rxRun]
  rw [List.append_nil] at this
  simp only [List.append_assoc, rxGroups]
  rw [this]
  rfl

theorem cmglPdu_ok : rxGroups cmglPduRegex py!"OK" = none := by decide

theorem msg_of_means {e : PduEntry} {m : Msg} (h : e.Means m) : ∃ d, decodeSmsPdu e.pdu = .ok d ∧ msgOfPdu (decVal e.status) d = .ok m := by
  rcases h with ⟨smsc, len, number, pid, time, ud, h1, rfl⟩ | ⟨smsc, len, reference, number, time, discharge, status, h1, rfl⟩
  · exact ⟨_, h1, rfl⟩
  · exact ⟨_, h1, rfl⟩

theorem pduListLoop_entries : ∀ {es : List PduEntry} {ms : List Msg} {acc : Listing}, (∀ e ∈ es, e.Ok) → List.Forall₂ PduEntry.Means es ms →
    pduListLoop acc none (es.flatMap PduEntry.lines ++ [py!"OK"]) =
      .ok ⟨acc.messages ++ ms, (es.map fun e => (decVal e.index : Int)).foldl setAdd acc.delMessages⟩ := by
  intro es
  induction es with
  | nil =>
    intro ms acc _ h
    cases h
    simp [pduListLoop, cmglPdu_ok]
  | cons e es ih =>
    intro ms acc hok h
    cases h with
    | @cons _ m _ ms h1 h2 =>
      obtain ⟨d, hd, hm⟩ := msg_of_means h1
      have he := hok e (by simp)
      simp only [List.flatMap_cons, PduEntry.lines, List.cons_append, List.nil_append]
      rw [pduListLoop]
      have hh := cmglPdu_header he
      simp only [List.cons_append, List.nil_append] at hh
      rw [hh]
      simp only [pyInt_of_digits he.2.1, pyInt_of_digits he.2.2.2.1, bind, Except.bind]
      rw [pduListLoop]
      simp only [hd, hm, bind, Except.bind]
      rw [ih (fun x hx => hok x (by simp [hx])) h2]
      simp

theorem mem_setAdd {l : List Int} {i j : Int} : j ∈ setAdd l i ↔ j ∈ l ∨ j = i := by
  unfold setAdd
  split
  · next h =>
    simp only [List.contains_iff_mem] at h
    constructor
    · exact .inl
    · rintro (h | rfl) <;> assumption
  · simp

theorem nodup_setAdd {l : List Int} {i : Int} (h : l.Nodup) : (setAdd l i).Nodup := by
  unfold setAdd
  split
  · exact h
  · next hc =>
    simp only [List.contains_iff_mem] at hc
    rw [List.nodup_append]
    refine ⟨h, by simp, ?_⟩
    rintro a ha b hb rfl
    simp at hb
    exact hc (hb ▸ ha)

theorem fold_setAdd : ∀ (is l : List Int), l.Nodup → (is.foldl setAdd l).Nodup ∧ ∀ j, j ∈ is.foldl setAdd l ↔ j ∈ l ∨ j ∈ is
  | [], l, h => by simpa using h
  | i :: is, l, h => by
    obtain ⟨h1, h2⟩ := fold_setAdd is (setAdd l i) (nodup_setAdd h)
    refine ⟨h1, fun j => ?_⟩
    simp only [List.foldl_cons, h2, mem_setAdd, List.mem_cons, or_assoc]

/-! ### Deletion -/

theorem deleteAll_trans : ∀ (is : List Int) (s : St), ∃ ok s1, LogMem s s1 ∧
    Transmission env.reply (is.map fun i => cmgdCmd (intStr i) ++ [13]) s.log s1.log ok ∧
    ((ok = true ∧ deleteAll is env s = (.ok (), s1)) ∨ (ok = false ∧ ∃ e, deleteAll is env s = (.error e, s1)))
  | [], s => ⟨true, s, .refl s, .done, .inl ⟨rfl, rfl⟩⟩
  | i :: is, s => by
    obtain ⟨ok, s1, h1, h2, h3⟩ := delete_trans (env := env) (intStr i) none s
    simp only [deleteAll, run_bind, List.map_cons]
    have h2' : Transmission env.reply [cmgdCmd (intStr i) ++ [13]] s.log s1.log ok := h2
    rcases h3 with ⟨rfl, h3⟩ | ⟨rfl, e, h3⟩
    · rw [h3]
      obtain ⟨ok, s2, k1, k2, k3⟩ := deleteAll_trans is s1
      exact ⟨ok, s2, h1.trans k1, h2'.append rfl k2, k3⟩
    · rw [h3]
      exact ⟨false, s1, h1, h2'.stop_append _ rfl, .inr ⟨rfl, e, rfl⟩⟩

theorem list_trans {status : Int} {memory : Option PyStr} {delete : Bool} {s : St} {c : PyStr} (hc : listCommand s.smsTextMode status = .ok c) :
    ∃ ok s1, LogMem s s1 ∧ Transmission env.reply (selectCommands s memory ++ [c ++ [13]]) s.log s1.log ok ∧
    ((ok = false ∧ ∃ e, listStoredSms status memory delete env s = (.error e, s1)) ∨
     (ok = true ∧ ((∃ e, parseListing s.smsTextMode (lastAnswer env s1.log) = .error e ∧ listStoredSms status memory delete env s = (.error e, s1)) ∨
       ∃ l, parseListing s.smsTextMode (lastAnswer env s1.log) = .ok l ∧
         listStoredSms status memory delete env s = (match deleteListed status delete l.delMessages env s1 with
           | (.ok _, s2) => (.ok l.messages, s2) | (.error e, s2) => (.error e, s2))))) := by
  obtain ⟨ok, s1, h1, h2, h3⟩ := setMemory_trans (env := env) memory s
  rcases h3 with ⟨rfl, h3⟩ | ⟨rfl, e, h3⟩
  · have hm : s1.smsTextMode = s.smsTextMode := by obtain ⟨_, _, _, rfl⟩ := h1; rfl
    obtain ⟨ok, s2, k1, k2, k3⟩ := write_trans (env := env) c [13] s1
    refine ⟨ok, s2, h1.trans k1.logMem, h2.append rfl k2, ?_⟩
    have hl : listStoredSms status memory delete env s = (match write c true [13] env s1 with
        | (.error e, s2) => (.error e, s2)
        | (.ok ls, s2) => (match parseListing s.smsTextMode ls with
          | .error e => (.error e, s2)
          | .ok l => (match deleteListed status delete l.delMessages env s2 with
           | (.ok _, s2) => (.ok l.messages, s2) | (.error e, s2) => (.error e, s2)))) := by
      unfold listStoredSms
      simp only [run_bind, run_get, run_ofExcept, h3, hm, hc]
      cases write c true [13] env s1 with
      | mk x s2 =>
        cases x with
        | error e => rfl
        | ok ls =>
          dsimp only
          cases parseListing s.smsTextMode ls with
          | error e => rfl
          | ok l =>
            dsimp only
            cases deleteListed status delete l.delMessages env s2 with
            | mk y s3 => cases y <;> rfl
    rcases k3 with ⟨rfl, k3⟩ | ⟨rfl, e, k3⟩
    · rw [k3] at hl
      dsimp only at hl
      refine .inr ⟨rfl, ?_⟩
      cases hp : parseListing s.smsTextMode (lastAnswer env s2.log) with
      | error e => rw [hp] at hl; exact .inl ⟨e, rfl, hl⟩
      | ok l => rw [hp] at hl; exact .inr ⟨l, rfl, hl⟩
    · rw [k3] at hl
      exact .inl ⟨rfl, e, hl⟩
  · refine ⟨false, s1, h1, h2.stop_append _ rfl, .inl ⟨rfl, e, ?_⟩⟩
    unfold listStoredSms
    rw [run_bind, h3]

theorem deleteListed_trans (status : Int) (es : List Nat) (l : List Int) (hl : l.Nodup) (hm : ∀ j, j ∈ l ↔ j ∈ es.map fun (n : Nat) => (n : Int)) (s : St) :
    ∃ cs ok s1, Deletes status es cs ∧ LogMem s s1 ∧ Transmission env.reply cs s.log s1.log ok ∧
    ((ok = true ∧ deleteListed status true l env s = (.ok (), s1)) ∨ (ok = false ∧ ∃ e, deleteListed status true l env s = (.error e, s1))) := by
  unfold deleteListed Deletes
  by_cases h4 : status = 4
  · simp only [h4, if_true]
    obtain ⟨ok, s1, k1, k2, k3⟩ := write_trans (env := env) py!"AT+CMGD=1,4" [13] s
    refine ⟨_, ok, s1, rfl, k1.logMem, k2, ?_⟩
    have hr : deleteMultipleStoredSms 4 none env s = (match write py!"AT+CMGD=1,4" true [13] env s with
        | (.ok _, s) => (.ok (), s) | (.error e, s) => (.error e, s)) := by
      have hx : deleteMultipleStoredSms 4 none = ((setSmsMemory none >>= fun _ => write py!"AT+CMGD=1,4" >>= fun _ => pure ()) : M Unit) := by
        unfold deleteMultipleStoredSms
        rw [if_pos (by decide)]
        rfl
      rw [hx, run_bind]
      have h0 : setSmsMemory none none env s = (.ok (), s) := rfl
      rw [h0]
      simp only [run_bind]
      cases write py!"AT+CMGD=1,4" true [13] env s with
      | mk x s => cases x <;> rfl
    rw [hr]
    rcases k3 with ⟨rfl, k3⟩ | ⟨rfl, e, k3⟩
    · exact .inl ⟨rfl, by rw [k3]⟩
    · exact .inr ⟨rfl, e, by rw [k3]⟩
  · simp only [h4, if_true, if_false]
    obtain ⟨ok, s1, k1, k2, k3⟩ := deleteAll_trans (env := env) (env.order l) s
    have hp := env.order_perm l
    have hnat : ∀ i ∈ env.order l, 0 ≤ i := by
      intro i hi
      obtain ⟨n, _, rfl⟩ := List.mem_map.1 ((hm i).1 (hp.mem_iff.1 hi))
      omega
    refine ⟨_, ok, s1, ⟨(env.order l).map Int.toNat, ?_, ?_, ?_⟩, k1, k2, k3⟩
    · refine List.Nodup.map_on ?_ (hp.nodup_iff.2 hl)
      intro x hx y hy hxy
      have := hnat x hx
      have := hnat y hy
      omega
    · intro i
      rw [List.mem_map]
      constructor
      · rintro ⟨j, hj, rfl⟩
        obtain ⟨n, hn, rfl⟩ := List.mem_map.1 ((hm j).1 (hp.mem_iff.1 hj))
        simpa using hn
      · intro hi
        exact ⟨(i : Int), hp.mem_iff.2 ((hm _).2 (List.mem_map.2 ⟨i, hi, rfl⟩)), by simp⟩
    · rw [List.map_map]
      refine List.map_congr_left fun i hi => ?_
      simp [cmgdCmd, intStr, hnat i hi]

/-! ### Text mode -/

theorem notC_quote : notC 34 34 = false := by decide
theorem notC_comma : notC 44 44 = false := by decide

theorem cmglText_header {e : TextEntry} (h : e.Ok) (hs : e.status ≠ [] ∧ 34 ∉ e.status) :
    rxGroups cmglTextRegex (py!"+CMGL: " ++ e.index ++ py!",\"" ++ e.status ++ py!"\",\"" ++ e.number ++ py!"\"," ++ e.alpha ++ py!",\"" ++ e.time ++ py!"\"") =
      some [e.index, e.status, e.number, e.time] := by
  have : rxMatch? cmglTextRegex (py!"+CMGL: " ++ (e.index ++ (py!",\"" ++ (e.status ++ (py!"\",\"" ++ (e.number ++ (py!"\"," ++ (e.alpha ++ (py!",\"" ++ (e.time ++ (py!"\"" ++ []))))))))))) =
      some ([e.index, e.status, e.number, e.time], []) := by
    unfold rxMatch? cmglTextRegex rxGrp
    simp only [List.append_assoc, List.cons_append, List.nil_append]
    refine rxRun_litE (rxRun_op' (rxRun_plus h.index.1 (digits_class h.index) ?_ (rxRun_cl' (rxRun_litE (rxRun_op' (rxRun_plus hs.1 (notin_class hs.2) ?_ (rxRun_cl'
      (rxRun_litE (rxRun_op' (rxRun_plus h.number.1 (notin_class h.number.2) ?_ (rxRun_cl' (rxRun_litE (rxRun_star (notin_class h.alpha) ?_
      (rxRun_litE (rxRun_op' (rxRun_plus h.time.1 (notin_class h.time.2) ?_ (rxRun_cl' (rxRun_litE (rxRun_eol' ?_)))))))))))))))))))
    all_goals first
      | (intro c hc; simp at hc; subst hc; rfl)
      | simp [rxRun]
  rw [List.append_nil] at this
  simp only [List.append_assoc, rxGroups]
  rw [this]
  rfl

theorem cmglText_prefix {l : PyStr} {g} (h : rxGroups cmglTextRegex l = some g) : py!"+CMGL: " <+: l := by
  unfold rxGroups rxMatch? cmglTextRegex at h
  simp only [List.append_assoc] at h
  obtain ⟨x, hx, _⟩ := Option.map_eq_some_iff.1 h
  obtain ⟨s', rfl, _⟩ := rxRun_lit_some hx
  exact ⟨s', rfl⟩

theorem textLoop_body : ∀ {body : List PyStr} {acc : Listing} {hdr} {ml rest : List PyStr}, (∀ l ∈ body, ¬ py!"+CMGL: " <+: l ∧ l ≠ py!"OK") →
    textListLoop acc hdr ml (body ++ rest) = textListLoop acc hdr (ml ++ body) rest
  | [], acc, hdr, ml, rest, _ => by simp
  | l :: body, acc, hdr, ml, rest, h => by
    have h1 := h l (by simp)
    have hn : rxGroups cmglTextRegex l = none := by
      cases hg : rxGroups cmglTextRegex l with
      | none => rfl
      | some g => exact absurd (cmglText_prefix hg) h1.1
    rw [List.cons_append, textListLoop, hn]
    simp only [h1.2, ne_eq, not_false_eq_true, if_true]
    rw [textLoop_body (fun x hx => h x (by simp [hx]))]
    simp

theorem states {st : PyStr} {n : Int} (h : (st, n) ∈ stateNames) : textStatus st = .ok n ∧ st ≠ [] ∧ 34 ∉ st := by
  simp only [stateNames, List.mem_cons, List.not_mem_nil, or_false, Prod.mk.injEq] at h
  rcases h with ⟨rfl, rfl⟩ | ⟨rfl, rfl⟩ | ⟨rfl, rfl⟩ | ⟨rfl, rfl⟩ | ⟨rfl, rfl⟩ <;> decide

theorem pyJoin_eq (sep : PyStr) : ∀ l : List PyStr, pyJoin sep l = sep.intercalate l
  | [] => rfl
  | [p] => by simp [pyJoin]
  | p :: q :: ps => by
    rw [pyJoin, pyJoin_eq sep (q :: ps)]
    simp [List.intercalate]

theorem textSave_entry {e : TextEntry} {m : Msg} (acc : Listing) (h : e.Ok) (hm : e.Means m) :
    textSave acc (some (e.index, e.status, e.number, e.time)) e.body = .ok ⟨acc.messages ++ [m], setAdd acc.delMessages (decVal e.index)⟩ := by
  obtain ⟨n, t, h1, h2, rfl⟩ := hm
  unfold textSave
  simp only [List.length_pos_iff.2 h.body, if_true, (states h1).1, h2, pyInt_of_digits h.index, bind, Except.bind, pure, Except.pure, pyJoin_eq]

theorem textListLoop_entries : ∀ {es : List TextEntry} {ms : List Msg} {acc acc' : Listing} {hdr} {ml : List PyStr}, (∀ e ∈ es, e.Ok) →
    List.Forall₂ TextEntry.Means es ms → textSave acc hdr ml = .ok acc' →
    textListLoop acc hdr ml (es.flatMap TextEntry.lines ++ [py!"OK"]) =
      .ok ⟨acc'.messages ++ ms, (es.map fun e => (decVal e.index : Int)).foldl setAdd acc'.delMessages⟩
  | [], ms, acc, acc', hdr, ml, _, h, hs => by
    cases h
    have hn : rxGroups cmglTextRegex py!"OK" = none := by decide
    simp only [List.flatMap_nil, List.nil_append, textListLoop, hn]
    simp [textListLoop, hs]
  | e :: es, ms, acc, acc', hdr, ml, hok, h, hs => by
    cases h with
    | @cons _ m _ ms h1 h2 =>
      have he := hok e (by simp)
      obtain ⟨n, t, k1, k2, k3⟩ := id h1
      have hh := cmglText_header he (states k1).2
      have hl : (e :: es).flatMap TextEntry.lines ++ [py!"OK"] =
        (py!"+CMGL: " ++ e.index ++ py!",\"" ++ e.status ++ py!"\",\"" ++ e.number ++ py!"\"," ++ e.alpha ++ py!",\"" ++ e.time ++ py!"\"") ::
          (e.body ++ (es.flatMap TextEntry.lines ++ [py!"OK"])) := by simp [TextEntry.lines]
      rw [hl, textListLoop, hh]
      simp only [hs, bind, Except.bind]
      rw [textLoop_body he.lines, List.nil_append, textListLoop_entries (fun x hx => hok x (by simp [hx])) h2 (textSave_entry acc' he h1)]
      simp

end Gsm
