import Verif.Spec.Connect
import Verif.Lemmas.Coverage
import Verif.Lemmas.Listing
import Verif.Lemmas.ModemWrite
import Verif.Lemmas.ModemText
import Verif.Lemmas.ConnectStores
import Verif.Props.ModemWrite
/-! # Running `connect` on a modem without memory -/
namespace Gsm
open M Spec

variable {env : Env} {b : Behaviour} {p : Profile}

/-- The state after sending commands. -/
def sent (cs : List PyStr) (s : St) : St := { s with log := (cs.map (· ++ [13])).reverse ++ s.log }

theorem sent_nil (s : St) : sent [] s = s := rfl
theorem sent_sent (a c : List PyStr) (s : St) : sent c (sent a s) = sent (a ++ c) s := by simp [sent]

/-! ### Writing -/

theorem write_yes (hf : Follows env b) {c : PyStr} (h : b.accepts c = true) (s : St) :
    write c true [13] env s = (.ok (b.answer c), sent [c] s) := by
  rw [C32_mapping hf.depth (hf.reply c s.log) (hf.yes c h)]; rfl

theorem write_no (hf : Follows env b) {c : PyStr} (h : b.accepts c = false) (s : St) :
    ∃ cls code, write c true [13] env s = (.error (.command cls code), sent [c] s) := by
  obtain ⟨cls, code, hm⟩ := hf.no c h
  exact ⟨cls, code, by rw [C32_mapping hf.depth (hf.reply c s.log) hm]; rfl⟩

theorem write_any (hf : Follows env b) (c : PyStr) (s : St) :
    write c false [13] env s = (.ok (b.answer c), sent [c] s) := by
  have hl : ∃ line, (b.answer c).getLast? = some line := by
    cases h : b.accepts c with
    | true => cases hf.yes c h with | fine h _ _ => exact ⟨_, h⟩
    | false =>
      obtain ⟨cls, code, hm⟩ := hf.no c h
      obtain ⟨line, hl, _⟩ := responseMeans_classify hm
      exact ⟨line, hl⟩
  obtain ⟨line, hl⟩ := hl
  obtain ⟨d, hd⟩ : ∃ d, env.depth = d + 1 := ⟨env.depth - 1, by have := hf.depth; omega⟩
  simp only [write, hd, writeN, hf.reply, hl]
  rfl

theorem try_yes {α : Type} {m : M α} {s s' : St} {a : α} (h : m env s = (.ok a, s')) :
    tryCommand m env s = (.ok (some a), s') := by
  unfold tryCommand; simp [except, run_bind, h, run_pure]

theorem try_no {α : Type} {m : M α} {s s' : St} {cls code} (h : m env s = (.error (.command cls code), s')) :
    tryCommand m env s = (.ok none, s') := by
  unfold tryCommand; simp [except, run_bind, h, run_pure]

theorem firstWith_iff {pre l : PyStr} {ls : List PyStr} : FirstWith pre ls l ↔ lineStartingWith pre ls = some l :=
  ((C52_starting_with pre ls).1 l).symm

/-- Going on after a step that succeeds. -/
theorem bind_run {α β : Type} {m : M α} {f : α → M β} {s s' : St} {a : α} (h : m env s = (.ok a, s')) :
    (m >>= f) env s = f a env s' := by rw [run_bind, h]

theorem bind_err {α β : Type} {m : M α} {f : α → M β} {s s' : St} {e : PyErr} (h : m env s = (.error e, s')) :
    (m >>= f) env s = (.error e, s') := by rw [run_bind, h]

theorem except_ok {α : Type} {m : M α} {q : PyErr → Bool} {g : PyErr → M α} {s s' : St} {a : α} (h : m env s = (.ok a, s')) :
    except m q g env s = (.ok a, s') := by simp [except, h]

theorem except_caught {α : Type} {m : M α} {q : PyErr → Bool} {g : PyErr → M α} {s s' : St} {e : PyErr} (h : m env s = (.error e, s'))
    (hq : q e = true) : except m q g env s = g e env s' := by simp [except, h, hq]

/-! ### The basics -/

theorem unlock_run (hf : Follows env b) (hd : Describes b p) {pin : Option PyStr}
    (hpin : p.ready = false → ∃ n, pin = some n ∧ b.accepts (py!"AT+CPIN=\"" ++ n ++ py!"\"") = true)
    (hq : b.accepts py!"AT+CPIN?" = true) (s : St) :
    unlockSim pin env s = (.ok (), sent (py!"AT+CPIN?" :: cmdIf (p.ready = false) (py!"AT+CPIN=\"" ++ pin.getD [] ++ py!"\"")) s) := by
  obtain ⟨l, hl, hr⟩ := hd.ready
  unfold unlockSim
  rw [bind_run (except_ok (bind_run (write_yes hf hq s)))]
  rw [firstWith_iff.1 hl]
  cases h : p.ready with
  | true =>
    rw [hr.1 h, if_neg (by simp), run_pure]
    rfl
  | false =>
    have hne : some l ≠ some py!"+CPIN: READY" := by
      intro e
      cases e
      rw [hr.2 rfl] at h
      cases h
    obtain ⟨n, rfl, hn⟩ := hpin h
    rw [if_pos hne]
    simp only
    rw [bind_run (write_yes hf hn _), run_pure, sent_sent]
    rfl

theorem cfun_run (hf : Follows env b) (hd : Describes b p) (s : St) :
    except (do
      let ls ← write py!"AT+CFUN?"
      let cfun ← ofExcept (intFrom7 (lineStartingWith py!"+CFUN:" ls))
      if cfun ≠ 1 then
        let _ ← write py!"AT+CFUN=1") isCommandError (fun _ => pure ()) env s =
    (.ok (), sent (py!"AT+CFUN?" :: cmdIf (b.accepts py!"AT+CFUN?" = true ∧ p.functionality ≠ 1) py!"AT+CFUN=1") s) := by
  cases hq : b.accepts py!"AT+CFUN?" with
  | false =>
    obtain ⟨cls, code, hw⟩ := write_no hf hq s
    rw [except_caught (bind_err hw) rfl, run_pure]
    simp [cmdIf]
  | true =>
    obtain ⟨ds, hds, hv, hl⟩ := hd.functionality hq
    have hi : intFrom7 (lineStartingWith py!"+CFUN:" (b.answer py!"AT+CFUN?")) = .ok (p.functionality : Int) := by
      rw [firstWith_iff.1 hl]
      change pyInt ds = _
      rw [pyInt_of_digits hds, hv]
    have hrun : ∀ (m : M Unit), (do
        let ls ← write py!"AT+CFUN?"
        let cfun ← ofExcept (intFrom7 (lineStartingWith py!"+CFUN:" ls))
        if cfun ≠ 1 then m) env s = (if (p.functionality : Int) ≠ 1 then m else pure ()) env (sent [py!"AT+CFUN?"] s) := by
      intro m
      rw [bind_run (write_yes hf hq s), hi, bind_run (run_ofExcept _ _)]
    by_cases h1 : p.functionality = 1
    · rw [except_ok (s' := sent [py!"AT+CFUN?"] s) (a := ())]
      · simp [cmdIf, h1]
      · rw [hrun, if_neg (by omega)]; rfl
    · cases h2 : b.accepts py!"AT+CFUN=1" with
      | true =>
        rw [except_ok (s' := sent [py!"AT+CFUN?", py!"AT+CFUN=1"] s) (a := ())]
        · simp [cmdIf, h1]
        · rw [hrun, if_pos (by omega), bind_run (write_yes hf h2 _), run_pure, sent_sent]; rfl
      | false =>
        obtain ⟨cls, code, hw⟩ := write_no hf h2 (sent [py!"AT+CFUN?"] s)
        rw [except_caught (s' := sent [py!"AT+CFUN?", py!"AT+CFUN=1"] s) (e := .command cls code)]
        · simp [cmdIf, h1, run_pure]
        · rw [hrun, if_pos (by omega), bind_err hw, sent_sent]; rfl
        · rfl

theorem basics_run (hf : Follows env b) (hd : Describes b p) {pin : Option PyStr}
    (hpin : p.ready = false → ∃ n, pin = some n ∧ b.accepts (py!"AT+CPIN=\"" ++ n ++ py!"\"") = true)
    (hm : ∀ c ∈ [py!"ATZ", py!"ATE0", py!"AT+CMEE=1", py!"AT+CPIN?"], b.accepts c = true) (s : St) :
    connectBasics pin env s = (.ok (), sent (basicCommands b p (pin.getD [])) s) := by
  unfold connectBasics
  rw [bind_run (try_yes (write_yes hf (hm _ (by simp)) s))]
  unfold connectRest
  simp only
  rw [bind_run (write_yes hf (hm _ (by simp)) _), bind_run (cfun_run hf hd _), bind_run (write_yes hf (hm _ (by simp)) _)]
  simp only [Bool.not_false, if_true]
  rw [unlock_run hf hd hpin (hm _ (by simp))]
  simp only [sent_sent, basicCommands]
  congr 2
  simp

/-! ### The kind of the modem -/

theorem isHuawei_iff (m : PyStr) : asciiLower m = py!"huawei" ↔ isHuawei m = true := by
  have key : ∀ c l u : Nat, 97 ≤ l → l ≤ 122 → u + 32 = l → ((if 65 ≤ c ∧ c ≤ 90 then c + 32 else c) = l ↔ (c = l ∨ c = u)) := by
    intro c l u h1 h2 h3
    split <;> omega
  rcases m with _ | ⟨c1, _ | ⟨c2, _ | ⟨c3, _ | ⟨c4, _ | ⟨c5, _ | ⟨c6, _ | ⟨c7, m⟩⟩⟩⟩⟩⟩⟩ <;>
    simp [asciiLower, isHuawei, -ite_eq_left_iff]
  simp only [key c1 104 72 (by omega) (by omega) rfl, key c2 117 85 (by omega) (by omega) rfl, key c3 97 65 (by omega) (by omega) rfl,
    key c4 119 87 (by omega) (by omega) rfl, key c5 101 69 (by omega) (by omega) rfl, key c6 105 73 (by omega) (by omega) rfl]

theorem firstLine_run (l : PyStr) (ls : List PyStr) (s : St) : firstLine (l :: ls) env s = (.ok l, s) := run_ofExcept _ _

/-- The list of commands, from the answer to `AT+CLAC`. -/
theorem clac_some {ls cs : List PyStr} {s s' : St} (hw : write py!"AT+CLAC" true [13] env s = (.ok ls, s')) (h : CommandList ls cs) :
    supportedCommands env s = (.ok (some cs), s') := by
  unfold supportedCommands
  refine except_ok ?_
  rw [bind_run hw]
  cases h with
  | @oneLine _ status hne h44 hp =>
    rw [if_pos (by rfl), bind_run (firstLine_run _ _ _)]
    have : (py!"+CLAC".isPrefixOf (pyJoin py!"," cs)) = false := by
      rw [Bool.eq_false_iff]; exact fun h => hp (List.isPrefixOf_iff_prefix.1 h)
    rw [this]
    simp only [Bool.false_eq_true, if_false, run_pure]
    rw [pySplit_join hne h44]
  | @prefixed _ status hne h44 =>
    rw [if_pos (by rfl), bind_run (firstLine_run _ _ _)]
    have : (py!"+CLAC".isPrefixOf (py!"+CLAC:" ++ pyJoin py!"," cs)) = true := rfl
    rw [this]
    simp only [if_true, run_pure]
    have hd : (py!"+CLAC:" ++ pyJoin py!"," cs).drop 6 = pyJoin py!"," cs := rfl
    rw [hd, pySplit_join hne h44]
  | @lines ls' _ status hlen heq hz =>
    have h1 : (ls' ++ [status]).length = cs.length + 1 := by simp [heq]
    rw [if_neg (by omega), if_pos (by omega), run_pure, List.dropLast_concat]
    have : ls'.map pyStrip = cs := by
      clear hw h1 hlen
      induction ls' generalizing cs with
      | nil => cases cs with | nil => rfl | cons c cs => simp at heq
      | cons l ls' ih =>
        cases cs with
        | nil => simp at heq
        | cons c cs =>
          rw [List.map_cons, pyStrip_line (hz (l, c) (by simp)), ih (by simpa using heq) (fun x hx => hz x (by simp [hx]))]
    rw [this]

theorem clac_none {s s' : St} {cls code} (hw : write py!"AT+CLAC" true [13] env s = (.error (.command cls code), s')) :
    supportedCommands env s = (.ok none, s') := by
  unfold supportedCommands
  rw [except_caught (bind_err hw) rfl, run_pure]

theorem clac_run (hf : Follows env b) (hd : Describes b p) (s : St) :
    supportedCommands env s = (.ok p.commands, sent [py!"AT+CLAC"] s) := by
  have h := hd.commands
  cases hc : p.commands with
  | none =>
    rw [hc] at h
    obtain ⟨cls, code, hw⟩ := write_no hf h s
    exact clac_none hw
  | some cs =>
    rw [hc] at h
    exact clac_some (write_yes hf h.1 s) h.2

/-- The number the code uses for a kind. -/
def hintOf : Kind → Nat
  | .unknown => 0
  | .huawei => 1
  | .wavecom => 2
  | .zte => 3

theorem contains_mem {cs : List PyStr} {c : PyStr} : cs.contains c = true ↔ c ∈ cs := List.contains_iff_mem

theorem cmdIf_congr {P Q : Prop} [Decidable P] [Decidable Q] (h : P ↔ Q) (c : PyStr) : cmdIf P c = cmdIf Q c := by
  by_cases hq : Q <;> simp [cmdIf, h, hq]

theorem loose_run {α : Type} (hf : Follows env b) (q : Bool) (c : PyStr) (k : M α) (s : St) :
    (if q = true then do let _ ← write c false; k else k) env s = k env (sent (cmdIf (q = true) c) s) := by
  cases q with
  | true => simp only [if_true, cmdIf]; rw [bind_run (write_any hf c s)]
  | false => rfl

theorem identifyCommands_run (hf : Follows env b) (cs : List PyStr) (s : St) :
    identifyCommands cs env s = (.ok (hintOf (listedKind cs), decide (py!"+WIND" ∈ cs)),
      sent (cmdIf (py!"^CVOICE" ∈ cs) py!"AT^CVOICE=0" ++ cmdIf (py!"^USSDMODE" ∈ cs) py!"AT^USSDMODE=0")
        { s with dtmfSupport := s.dtmfSupport || decide (py!"+VTS" ∈ cs) }) := by
  have hm : ∀ (k : M (Nat × Bool)) (s : St), (if cs.contains py!"+VTS" = true then do M.modify fun s => { s with dtmfSupport := true }; k else k) env s =
      k env { s with dtmfSupport := s.dtmfSupport || decide (py!"+VTS" ∈ cs) } := by
    intro k s
    by_cases h : py!"+VTS" ∈ cs
    · rw [if_pos (contains_mem.2 h), bind_run (run_modify _ _)]; simp [h]
    · rw [if_neg (fun e => h (contains_mem.1 e))]; simp [h]
  unfold identifyCommands
  dsimp only
  rw [loose_run hf, hm, loose_run hf, run_pure]
  congr 1
  · congr 1
    simp only [contains_mem, listedKind, Bool.and_eq_true, Bool.not_eq_true', Bool.eq_false_iff, ne_eq]
    by_cases h1 : py!"+WIND" ∈ cs
    · simp [h1, hintOf]
    · by_cases h2 : py!"+ZPAS" ∈ cs
      · simp [h1, h2, hintOf]
      · by_cases h3 : py!"^DTMF" ∈ cs <;> by_cases h4 : py!"+VTS" ∈ cs <;> simp [h1, h2, h3, h4, hintOf]
  · rw [cmdIf_congr contains_mem, cmdIf_congr contains_mem]
    exact sent_sent _ _ { s with dtmfSupport := s.dtmfSupport || decide (py!"+VTS" ∈ cs) }

theorem identifyWind_run (hf : Follows env b) (hd : Describes b p) (hm : b.accepts py!"AT+WIND?" = true → p.wind ≠ 50 → b.accepts py!"AT+WIND=50" = true)
    (hint : Nat) (s : St) :
    identifyWind hint env s = (.ok (if b.accepts py!"AT+WIND?" then 2 else hint),
      sent (py!"AT+WIND?" :: cmdIf (b.accepts py!"AT+WIND?" = true ∧ p.wind ≠ 50) py!"AT+WIND=50") s) := by
  unfold identifyWind
  cases hq : b.accepts py!"AT+WIND?" with
  | false =>
    obtain ⟨cls, code, hw⟩ := write_no hf hq s
    rw [bind_run (try_no (bind_err hw))]
    simp [cmdIf, run_pure]
  | true =>
    obtain ⟨ds, hds, hv, hl⟩ := hd.wind hq
    have hi : intFrom7 (lineStartingWith py!"+WIND:" (b.answer py!"AT+WIND?")) = .ok (p.wind : Int) := by
      rw [firstWith_iff.1 hl]
      change pyInt ds = _
      rw [pyInt_of_digits hds, hv]
    rw [bind_run (try_yes (bind_run (write_yes hf hq s)))]
    simp only
    rw [hi, bind_run (run_ofExcept _ _)]
    by_cases h1 : p.wind = 50
    · rw [if_neg (by omega), run_pure]
      simp [cmdIf, h1]
    · rw [if_pos (by omega), bind_run (write_yes hf (hm hq h1) _), run_pure, sent_sent]
      simp [cmdIf, h1]

theorem identifyOther_run (hf : Follows env b) (hd : Describes b p) (k : Kind) (hm : k = .unknown → b.accepts py!"AT+CGMI" = true) (s : St) :
    identifyOther (hintOf k) env s = (.ok (hintOf (laterKind b p k)),
      sent (cmdIf (k = .unknown) py!"AT+CGMI" ++ cmdIf (k = .unknown ∧ isHuawei p.maker = false) py!"AT+ZPAS?") s) := by
  unfold identifyOther
  by_cases hk : k = .unknown
  · subst hk
    have hman : manufacturer env s = (.ok p.maker, sent [py!"AT+CGMI"] s) := by
      unfold manufacturer firstLine
      rw [bind_run (write_yes hf (hm rfl) s)]
      have := hd.maker (hm rfl)
      cases ha : b.answer py!"AT+CGMI" with
      | nil => rw [ha] at this; cases this
      | cons l ls => rw [ha] at this; cases this; exact run_ofExcept _ _
    rw [if_pos (by rfl), bind_run hman]
    unfold laterKind
    cases h : isHuawei p.maker with
    | true => rw [if_pos ((isHuawei_iff _).2 h), run_pure]; rfl
    | false =>
      rw [if_neg (fun e => by rw [(isHuawei_iff _).1 e] at h; cases h)]
      cases hz : b.accepts py!"AT+ZPAS?" with
      | true => rw [bind_run (try_yes (write_yes hf hz _))]; simp only [run_pure, sent_sent]; rfl
      | false =>
        obtain ⟨cls, code, hw⟩ := write_no hf hz (sent [py!"AT+CGMI"] s)
        rw [bind_run (try_no hw)]; simp only [run_pure, sent_sent]; rfl
  · rw [if_neg (by cases k <;> simp_all [hintOf]), run_pure]
    cases k <;> simp_all [cmdIf, sent_nil, laterKind]

theorem identify_run (hf : Follows env b) (hd : Describes b p)
    (hw : p.triesWind → b.accepts py!"AT+WIND?" = true → p.wind ≠ 50 → b.accepts py!"AT+WIND=50" = true)
    (hm : firstKind b p = .unknown → b.accepts py!"AT+CGMI" = true) (s : St) :
    connectIdentify env s = (.ok (hintOf (kind b p), p.commands),
      sent (kindCommands b p) { s with dtmfSupport := s.dtmfSupport || decide (p.has py!"+VTS") }) := by
  unfold connectIdentify
  rw [bind_run (clac_run hf hd s)]
  cases hc : p.commands with
  | none =>
    have hn : ∀ c, ¬ p.has c := by rintro c ⟨cs, h, _⟩; rw [hc] at h; cases h
    have ht : p.triesWind := .inl hc
    have hk : (if b.accepts py!"AT+WIND?" then 2 else 0) = hintOf (firstKind b p) := by
      unfold firstKind; rw [hc]; cases b.accepts py!"AT+WIND?" <;> rfl
    simp only
    rw [bind_run (run_pure _ _)]
    simp only [if_true]
    rw [bind_run (identifyWind_run hf hd (hw ht) 0 _), hk, bind_run (identifyOther_run hf hd _ hm _), run_pure]
    congr 1
    simp only [sent_sent]
    rw [show ({ s with dtmfSupport := s.dtmfSupport || decide (p.has py!"+VTS") } : St) = s by simp [hn]]
    congr 1
    rw [kindCommands, cmdIf_congr (Q := False) (iff_false_intro (hn _)), cmdIf_congr (Q := False) (iff_false_intro (hn _)),
      cmdIf_congr (Q := True) (iff_true_intro ht), cmdIf_congr (P := p.triesWind ∧ _) (Q := b.accepts py!"AT+WIND?" = true ∧ p.wind ≠ 50) (and_iff_right ht)]
    simp [cmdIf]
  | some cs =>
    have hh : ∀ c, p.has c ↔ c ∈ cs := fun c => ⟨fun ⟨cs', h, hm⟩ => by rw [hc] at h; cases h; exact hm, fun h => ⟨cs, hc, h⟩⟩
    have ht : p.triesWind ↔ py!"+WIND" ∈ cs := by unfold Profile.triesWind; rw [hh, hc]; simp
    have hk : firstKind b p = listedKind cs := by unfold firstKind; rw [hc]
    simp only
    rw [bind_run (identifyCommands_run hf cs _)]
    have hV : decide (p.has py!"+VTS") = decide (py!"+VTS" ∈ cs) := by simp [hh]
    have fin : ∀ (cs' : List PyStr) (s' : St), cs' = kindCommands b p →
        sent cs' { s' with dtmfSupport := s'.dtmfSupport || decide (py!"+VTS" ∈ cs) } =
        sent (kindCommands b p) { s' with dtmfSupport := s'.dtmfSupport || decide (p.has py!"+VTS") } := by
      intro cs' s' h; rw [h, hV]
    by_cases hwi : py!"+WIND" ∈ cs
    · simp only [hwi, decide_true, if_true]
      have h2 : (if b.accepts py!"AT+WIND?" then 2 else hintOf (listedKind cs)) = hintOf (firstKind b p) := by
        rw [hk]; simp [listedKind, hwi, hintOf]
      rw [bind_run (identifyWind_run hf hd (hw (ht.2 hwi)) _ _), h2, bind_run (identifyOther_run hf hd _ hm _), run_pure]
      congr 1
      rw [sent_sent, sent_sent, show ∀ s : St, ∀ a, ({ sent a s with dtmfSupport := (sent a s).dtmfSupport || decide (py!"+VTS" ∈ cs) } : St) =
        sent a { s with dtmfSupport := s.dtmfSupport || decide (py!"+VTS" ∈ cs) } from fun _ _ => rfl, sent_sent]
      refine fin _ s ?_
      rw [kindCommands, cmdIf_congr (hh _), cmdIf_congr (hh _), cmdIf_congr (Q := True) (iff_true_intro (ht.2 hwi)),
        cmdIf_congr (P := p.triesWind ∧ _) (Q := b.accepts py!"AT+WIND?" = true ∧ p.wind ≠ 50) (and_iff_right (ht.2 hwi))]
      simp [cmdIf]
    · simp only [hwi, decide_false, Bool.false_eq_true, if_false]
      rw [bind_run (run_pure _ _), ← hk, bind_run (identifyOther_run hf hd _ hm _), run_pure]
      congr 1
      rw [sent_sent, show ∀ s : St, ∀ a, ({ sent a s with dtmfSupport := (sent a s).dtmfSupport || decide (py!"+VTS" ∈ cs) } : St) =
        sent a { s with dtmfSupport := s.dtmfSupport || decide (py!"+VTS" ∈ cs) } from fun _ _ => rfl, sent_sent]
      refine fin _ s ?_
      have hnt : ¬ p.triesWind := fun h => hwi (ht.1 h)
      rw [kindCommands, cmdIf_congr (hh _), cmdIf_congr (hh _), cmdIf_congr (Q := False) (iff_false_intro hnt),
        cmdIf_congr (P := p.triesWind ∧ _) (Q := False) (iff_false_intro (fun h => hnt h.1))]
      simp [cmdIf]

/-! ### Settings for calls -/

theorem callTable_run (k : Kind) (commands : Option (List PyStr)) (s : St) :
    connectCallTable (hintOf k) commands env s = (.ok (), { s with
      callStatusUpdates := match k with | .unknown => s.callStatusUpdates | .huawei => .huawei | .wavecom => .wavecom | .zte => .zte
      mustPollCallStatus := decide (k = .unknown)
      waitForAtdResponse := match k with | .unknown => true | .huawei => s.waitForAtdResponse | _ => false
      waitForCallInitUpdate := s.waitForCallInitUpdate && decide (k ≠ .zte)
      dtmfSupport := s.dtmfSupport || decide (k = .huawei ∨ (commands = none ∧ (k = .wavecom ∨ k = .zte)))
      dtmfHuawei := s.dtmfHuawei || decide (k = .huawei) }) := by
  unfold connectCallTable
  rw [run_modify]
  cases k <;> cases commands <;> simp [hintOf]

/-! ### Messages -/

theorem smsc_line {n : PyStr} (hd : Describes b p) (h : p.smsc = some n) :
    b.accepts py!"AT+CSCA?" = true ∧ ∃ ds, lineMatching (rxGroups cscaRegex) (b.answer py!"AT+CSCA?") = some [n, ds] := by
  have hs := hd.smsc
  rw [h] at hs
  obtain ⟨ha, hn, h44, ds, z, hds, hans⟩ := hs
  refine ⟨ha, ds, ?_⟩
  have hl : rxGroups cscaRegex (py!"+CSCA: \"" ++ n ++ py!"\"," ++ ds) = some [n, ds] :=
    csca_iff.2 ⟨n, ds, rfl, [32], [], by simp, by simp [Spaces], hn, h44, hds, .inl rfl⟩
  rw [hans, lineMatching, hl]

theorem getSmsc_run (hf : Follows env b) (hd : Describes b p) {s : St} (hs : s.smscNumber = none) :
    getSmsc env s = (.ok p.smsc, { sent [py!"AT+CSCA?"] s with smscNumber := p.smsc }) := by
  unfold getSmsc
  rw [bind_run (run_get s), hs]
  simp only
  cases h : p.smsc with
  | some n =>
    obtain ⟨ha, ds, hl⟩ := smsc_line hd h
    rw [bind_run (except_ok (bind_run (write_yes hf ha s)))]
    simp only [hl]
    rw [bind_run (run_modify _ _), bind_run (run_get _), run_pure]
  | none =>
    have hr := hd.smsc
    rw [h] at hr
    have hw : write py!"AT+CSCA?" true [13] env s = (.error (.command .smscUnknown (some 330)), sent [py!"AT+CSCA?"] s) := by
      rw [C32_mapping hf.depth (hf.reply _ s.log) hr]; rfl
    rw [bind_run (except_caught (bind_err hw) rfl)]
    simp only
    rw [bind_run (run_get _), run_pure]
    simp [sent, hs]

theorem cmgf_cmd (t : Bool) : py!"AT+CMGF=" ++ (if t then py!"1" else py!"0") = if t then py!"AT+CMGF=1" else py!"AT+CMGF=0" := by
  cases t <;> rfl

theorem sms_run (hf : Follows env b) (hd : Describes b p) (s : St) (ha : s.alive = true)
    (hm : b.accepts (if s.smsTextMode then py!"AT+CMGF=1" else py!"AT+CMGF=0") = true)
    (hn : ∀ n, s.smscNumber = some n → b.accepts (setSmscCommand n) = true) :
    connectSms env s = (.ok (), { sent (smsCommands p s.smsTextMode s.smscNumber) s with smscNumber := s.smscNumber.or p.smsc }) := by
  unfold connectSms
  rw [bind_run (write_any hf _ s), bind_run (run_get _), show (sent [py!"AT+COPS=3,0"] s).smsTextMode = s.smsTextMode from rfl, cmgf_cmd,
    bind_run (write_yes hf hm _), bind_run (run_get _), sent_sent]
  simp only [List.singleton_append]
  cases hc : s.smscNumber with
  | some n =>
    have hc' : ∀ cs, (sent cs s).smscNumber = some n := fun _ => hc
    simp only [hc']
    rw [bind_run (write_yes hf (c := cscaCmd n) (hn n hc) _), bind_run (run_pure _ _)]
    simp only [ne_eq, reduceCtorEq, not_false_eq_true, if_true]
    rw [bind_run (run_modify _ _), bind_run (write_any hf _ _), bind_run (getSmsc_run hf hd rfl)]
    by_cases he : p.smsc = some n
    · rw [if_neg (by simp [he]), run_pure]
      simp [sent, smsCommands, cmdIf, he, setSmscCommand, cscaCmd]
    · rw [if_pos (by simp [he])]
      unfold setSmsc
      rw [bind_run (run_get _), if_pos (by simpa using fun e => he e.symm), if_pos (by exact ha), bind_run (write_yes hf (c := cscaCmd (optStr (some n))) (hn n hc) _)]
      dsimp only
      rw [run_modify]
      simp [sent, smsCommands, cmdIf, he, setSmscCommand, cscaCmd, optStr]
  | none =>
    have hc' : ∀ cs, (sent cs s).smscNumber = none := fun _ => hc
    simp only [hc']
    rw [bind_run (getSmsc_run hf hd (hc' _))]
    cases h : p.smsc with
    | none =>
      simp only [ne_eq, not_true_eq_false, if_false]
      rw [bind_run (write_any hf _ _), run_pure]
      simp [sent, smsCommands, cmdIf, h]
    | some n =>
      simp only [ne_eq, reduceCtorEq, not_false_eq_true, if_true]
      rw [bind_run (run_modify _ _), bind_run (write_any hf _ _), bind_run (getSmsc_run hf hd rfl), if_neg (by simp [h]), run_pure]
      simp [sent, smsCommands, cmdIf, h]

theorem stores_run (hf : Follows env b) (hd : Describes b p) (s : St)
    (hm : storesUsable b p = true → b.accepts (py!"AT+CPMS=" ++ pyJoin py!"," (p.stores.map favourite)) = true) :
    connectMemory env s = (.ok (), { sent (storeCommands b p) s with
      smsReadSupported := s.smsReadSupported && storesUsable b p
      smsMemReadDelete := if storesUsable b p = true ∧ favourite (p.stores.headD []) ≠ [] then some (favourite (p.stores.headD [])) else s.smsMemReadDelete }) := by
  unfold connectMemory
  cases hq : b.accepts py!"AT+CPMS=?" with
  | false =>
    obtain ⟨cls, code, hw⟩ := write_no hf hq s
    rw [bind_run (try_no (bind_err hw))]
    simp only
    rw [run_modify]
    simp [storesUsable, storeCommands, cmdIf, hq, sent]
  | true =>
    obtain ⟨hne, hok, hl⟩ := hd.stores hq
    have haft : afterSpace (py!"+CPMS: " ++ showStores p.stores) = some (showStores p.stores) := rfl
    rw [bind_run (try_yes (bind_run (write_yes hf hq s)))]
    simp only
    rw [firstWith_iff.1 hl]
    simp only [haft]
    rw [split_stores hne hok, storeItems_empty]
    cases he : emptyStore p.stores with
    | true =>
      rw [if_pos rfl, run_modify]
      simp [storesUsable, storeCommands, cmdIf, hq, sent, he]
    | false =>
      have hu : storesUsable b p = true := by simp [storesUsable, hq, he]
      rw [if_neg (by simp), preferred_map hok]
      obtain ⟨x, r, hx⟩ : ∃ x r, p.stores = x :: r := by
        cases hs : p.stores with
        | nil => exact absurd hs hne
        | cons x r => exact ⟨x, r, rfl⟩
      have hh : (storeItems p.stores).head?.bind preferredMemory = if favourite (p.stores.headD []) = [] then none else some (favourite (p.stores.headD [])) := by
        rw [hx]; exact preferred_head (hok x (by simp [hx]))
      rw [hh]
      by_cases hfav : favourite (p.stores.headD []) = []
      · rw [if_pos hfav]
        simp only
        rw [bind_run (write_yes hf (hm hu) _), run_pure, sent_sent]
        have hfav' : favourite x = [] := by simpa [hx] using hfav
        simp [hu, storeCommands, cmdIf, hx, hfav', sent]
      · rw [if_neg hfav]
        simp only
        rw [bind_run (run_modify _ _), bind_run (write_yes hf (hm hu) _), run_pure]
        have hfav' : favourite x ≠ [] := by simpa [hx] using hfav
        simp [hu, storeCommands, cmdIf, hx, hfav', sent]

/-! ### Notifications -/

theorem notices_run (hf : Follows env b) (s : St) :
    connectNotifications env s = (.ok (), { sent (noticeCommands b s.smsReadSupported) s with
      smsReadSupported := s.smsReadSupported && b.accepts py!"AT+CNMI=2,1,0,2"
      callingLineIdentification := b.accepts py!"AT+CLIP=1"
      extendedIncomingCallIndication := if b.accepts py!"AT+CLIP=1" then b.accepts py!"AT+CRC=1" else s.extendedIncomingCallIndication }) := by
  have hcrc : ∀ s : St, (do
      match ← tryCommand (write py!"AT+CRC=1") with
      | none => M.modify fun s => { s with extendedIncomingCallIndication := false }
      | some _ => M.modify fun s => { s with extendedIncomingCallIndication := true }
      let _ ← write py!"AT+CVHU=0" false) env s =
      (.ok (), { sent [py!"AT+CRC=1", py!"AT+CVHU=0"] s with extendedIncomingCallIndication := b.accepts py!"AT+CRC=1" }) := by
    intro s
    cases hq : b.accepts py!"AT+CRC=1" with
    | true =>
      rw [bind_run (try_yes (write_yes hf hq s))]
      simp only
      rw [bind_run (run_modify _ _), bind_run (write_any hf _ _), run_pure]
      simp [sent]
    | false =>
      obtain ⟨cls, code, hw⟩ := write_no hf hq s
      rw [bind_run (try_no hw)]
      simp only
      rw [bind_run (run_modify _ _), bind_run (write_any hf _ _), run_pure]
      simp [sent]
  have hclip : ∀ s : St, (do
      match ← tryCommand (write py!"AT+CLIP=1") with
      | none => M.modify fun s => { s with callingLineIdentification := false }
      | some _ =>
        M.modify fun s => { s with callingLineIdentification := true }
        match ← tryCommand (write py!"AT+CRC=1") with
        | none => M.modify fun s => { s with extendedIncomingCallIndication := false }
        | some _ => M.modify fun s => { s with extendedIncomingCallIndication := true }
      let _ ← write py!"AT+CVHU=0" false) env s =
      (.ok (), { sent (noticeCommands b false) s with
        callingLineIdentification := b.accepts py!"AT+CLIP=1"
        extendedIncomingCallIndication := if b.accepts py!"AT+CLIP=1" then b.accepts py!"AT+CRC=1" else s.extendedIncomingCallIndication }) := by
    intro s
    cases hq : b.accepts py!"AT+CLIP=1" with
    | true =>
      rw [bind_run (try_yes (write_yes hf hq s))]
      simp only
      rw [bind_run (run_modify _ _)]
      refine (hcrc _).trans ?_
      simp [sent, noticeCommands, cmdIf, hq]
    | false =>
      obtain ⟨cls, code, hw⟩ := write_no hf hq s
      rw [bind_run (try_no hw)]
      simp only
      rw [bind_run (run_modify _ _), bind_run (write_any hf _ _), run_pure]
      simp [sent, noticeCommands, cmdIf, hq]
  unfold connectNotifications
  rw [bind_run (run_get s)]
  cases hr : s.smsReadSupported with
  | false =>
    simp only [Bool.false_eq_true, if_false]
    refine (hclip s).trans ?_
    simp [sent, hr]
  | true =>
    simp only [if_true]
    cases hq : b.accepts py!"AT+CNMI=2,1,0,2" with
    | true =>
      rw [bind_run (try_yes (write_yes hf hq s))]
      simp only
      refine (hclip _).trans ?_
      simp [sent, noticeCommands, cmdIf, hr]
    | false =>
      obtain ⟨cls, code, hw⟩ := write_no hf hq s
      rw [bind_run (try_no hw)]
      simp only
      rw [bind_run (run_modify _ _)]
      refine (hclip _).trans ?_
      simp [sent, noticeCommands, cmdIf]

/-! ### Refused commands -/

/-- The program raises an exception. -/
def Raises {α : Type} (env : Env) (m : M α) (s : St) : Prop := ∃ e s', m env s = (.error e, s')

theorem raises_bind {α β : Type} {m : M α} {f : α → M β} {s : St} (h : Raises env m s) : Raises env (m >>= f) s := by
  obtain ⟨e, s', h⟩ := h
  exact ⟨e, s', bind_err h⟩

theorem raises_after {α β : Type} {m : M α} {f : α → M β} {s s' : St} {a : α} (h : m env s = (.ok a, s')) (hf : Raises env (f a) s') :
    Raises env (m >>= f) s := by
  unfold Raises
  rw [bind_run h]
  exact hf

theorem write_fails (hf : Follows env b) {c : PyStr} (h : b.accepts c = false) (s : St) : Raises env (write c) s := by
  obtain ⟨cls, code, h⟩ := write_no hf h s
  exact ⟨_, _, h⟩

theorem unlock_fails (hf : Follows env b) (hd : Describes b p) {pin : Option PyStr} (s : St)
    (h : b.accepts py!"AT+CPIN?" = false ∨ (p.ready = false ∧
      (pin = none ∨ b.accepts (py!"AT+CPIN=\"" ++ pin.getD [] ++ py!"\"") = false))) : Raises env (unlockSim pin) s := by
  obtain ⟨l, hl, hr⟩ := hd.ready
  unfold unlockSim
  cases hq : b.accepts py!"AT+CPIN?" with
  | false =>
    obtain ⟨cls, code, hw⟩ := write_no hf hq s
    refine raises_bind ⟨.command cls code, sent [py!"AT+CPIN?"] s, ?_⟩
    unfold except
    rw [bind_err hw]
    rfl
  | true =>
    refine raises_after (except_ok (bind_run (write_yes hf hq s))) ?_
    rw [firstWith_iff.1 hl]
    rcases h with h | ⟨h, h1⟩
    · rw [hq] at h; cases h
    · have hne : some l ≠ some py!"+CPIN: READY" := by
        intro e
        cases e
        rw [hr.2 rfl] at h
        cases h
      rw [if_pos hne]
      cases pin with
      | none => exact ⟨_, _, run_raise _ _⟩
      | some n =>
        rcases h1 with h1 | h1
        · cases h1
        · exact raises_bind (write_fails hf h1 _)

theorem basics_fails (hf : Follows env b) (hd : Describes b p) {pin : Option PyStr} (s : St)
    (h : (∃ c ∈ [py!"ATZ", py!"ATE0", py!"AT+CMEE=1", py!"AT+CPIN?"], b.accepts c = false) ∨ (p.ready = false ∧
      (pin = none ∨ b.accepts (py!"AT+CPIN=\"" ++ pin.getD [] ++ py!"\"") = false))) : Raises env (connectBasics pin) s := by
  unfold connectBasics
  cases hz : b.accepts py!"ATZ" with
  | false =>
    obtain ⟨cls, code, hw⟩ := write_no hf hz s
    refine raises_after (try_no hw) ?_
    simp only
    refine raises_after (write_any hf _ _) ?_
    unfold Raises
    rw [run_bind]
    split
    · next a s1 h1 => exact raises_bind (write_fails hf hz _)
    · next e s1 h1 => exact ⟨_, _, rfl⟩
  | true =>
    refine raises_after (try_yes (write_yes hf hz s)) ?_
    simp only
    unfold connectRest
    cases he : b.accepts py!"ATE0" with
    | false => exact raises_bind (write_fails hf he _)
    | true =>
      refine raises_after (write_yes hf he _) (raises_after (cfun_run hf hd _) ?_)
      cases hm : b.accepts py!"AT+CMEE=1" with
      | false => exact raises_bind (write_fails hf hm _)
      | true =>
        refine raises_after (write_yes hf hm _) ?_
        simp only [Bool.not_false, if_true]
        refine unlock_fails hf hd _ ?_
        rcases h with ⟨c, hc, h⟩ | h
        · simp only [List.mem_cons, List.not_mem_nil, or_false] at hc
          rcases hc with rfl | rfl | rfl | rfl
          · rw [hz] at h; cases h
          · rw [he] at h; cases h
          · rw [hm] at h; cases h
          · exact .inl h
        · exact .inr h

theorem wind_fails (hf : Follows env b) (hd : Describes b p) (h1 : b.accepts py!"AT+WIND?" = true) (h2 : p.wind ≠ 50)
    (h3 : b.accepts py!"AT+WIND=50" = false) (hint : Nat) (s : St) : Raises env (identifyWind hint) s := by
  unfold identifyWind
  obtain ⟨ds, hds, hv, hl⟩ := hd.wind h1
  have hi : intFrom7 (lineStartingWith py!"+WIND:" (b.answer py!"AT+WIND?")) = .ok (p.wind : Int) := by
    rw [firstWith_iff.1 hl]
    change pyInt ds = _
    rw [pyInt_of_digits hds, hv]
  refine raises_after (try_yes (bind_run (write_yes hf h1 s))) ?_
  simp only
  rw [hi]
  refine raises_after (run_ofExcept _ _) ?_
  rw [if_pos (by omega)]
  exact raises_bind (write_fails hf h3 _)

theorem other_fails (hf : Follows env b) (h : b.accepts py!"AT+CGMI" = false) (s : St) : Raises env (identifyOther (hintOf .unknown)) s := by
  unfold identifyOther
  rw [if_pos (by rfl)]
  refine raises_bind ?_
  unfold manufacturer
  exact raises_bind (write_fails hf h _)

theorem identify_fails (hf : Follows env b) (hd : Describes b p) (s : St)
    (h : (p.triesWind ∧ b.accepts py!"AT+WIND?" = true ∧ p.wind ≠ 50 ∧ b.accepts py!"AT+WIND=50" = false) ∨
      (firstKind b p = .unknown ∧ b.accepts py!"AT+CGMI" = false)) : Raises env connectIdentify s := by
  by_cases hbad : p.triesWind ∧ b.accepts py!"AT+WIND?" = true ∧ p.wind ≠ 50 ∧ b.accepts py!"AT+WIND=50" = false
  · obtain ⟨ht, h1, h2, h3⟩ := hbad
    unfold connectIdentify
    refine raises_after (clac_run hf hd s) ?_
    cases hc : p.commands with
    | none =>
      simp only
      refine raises_after (run_pure _ _) ?_
      simp only [if_true]
      exact raises_bind (wind_fails hf hd h1 h2 h3 _ _)
    | some cs =>
      have hwi : py!"+WIND" ∈ cs := by
        rcases ht with ht | ⟨cs', h, hm⟩
        · rw [hc] at ht; cases ht
        · rw [hc] at h; cases h; exact hm
      simp only
      refine raises_after (identifyCommands_run hf cs _) ?_
      simp only [hwi, decide_true, if_true]
      exact raises_bind (wind_fails hf hd h1 h2 h3 _ _)
  · obtain ⟨hk, hg⟩ : firstKind b p = .unknown ∧ b.accepts py!"AT+CGMI" = false := h.resolve_left hbad
    unfold connectIdentify
    refine raises_after (clac_run hf hd s) ?_
    cases hc : p.commands with
    | none =>
      have hq : b.accepts py!"AT+WIND?" = false := by
        unfold firstKind at hk
        rw [hc] at hk
        cases hq : b.accepts py!"AT+WIND?" with
        | false => rfl
        | true => simp [hq] at hk
      simp only
      refine raises_after (run_pure _ _) ?_
      simp only [if_true]
      refine raises_after (identifyWind_run hf hd (by rw [hq]; exact (nomatch ·)) 0 _) ?_
      rw [hq]
      exact raises_bind (other_fails hf hg _)
    | some cs =>
      have hl : listedKind cs = .unknown := by
        unfold firstKind at hk
        rw [hc] at hk
        exact hk
      have hwi : py!"+WIND" ∉ cs := by
        intro h
        simp [listedKind, h] at hl
      simp only
      refine raises_after (identifyCommands_run hf cs _) ?_
      simp only [hwi, decide_false, Bool.false_eq_true, if_false]
      refine raises_after (run_pure _ _) ?_
      rw [hl]
      exact raises_bind (other_fails hf hg _)

theorem sms_fails (hf : Follows env b) (s : St)
    (h : b.accepts (if s.smsTextMode then py!"AT+CMGF=1" else py!"AT+CMGF=0") = false ∨
      ∃ n, s.smscNumber = some n ∧ b.accepts (setSmscCommand n) = false) : Raises env connectSms s := by
  unfold connectSms
  refine raises_after (write_any hf _ s) (raises_after (run_get _) ?_)
  rw [show (sent [py!"AT+COPS=3,0"] s).smsTextMode = s.smsTextMode from rfl, cmgf_cmd]
  cases hm : b.accepts (if s.smsTextMode then py!"AT+CMGF=1" else py!"AT+CMGF=0") with
  | false => exact raises_bind (write_fails hf hm _)
  | true =>
    refine raises_after (write_yes hf hm _) (raises_after (run_get _) ?_)
    rcases h with h | ⟨n, hn, h⟩
    · rw [hm] at h; cases h
    · have hc' : ∀ cs, (sent cs s).smscNumber = some n := fun _ => hn
      rw [sent_sent]
      simp only [hc']
      exact raises_bind (write_fails hf (c := cscaCmd n) h _)

theorem stores_fails (hf : Follows env b) (hd : Describes b p) (s : St) (hu : storesUsable b p = true)
    (h : b.accepts (py!"AT+CPMS=" ++ pyJoin py!"," (p.stores.map favourite)) = false) : Raises env connectMemory s := by
  obtain ⟨hq, he⟩ : b.accepts py!"AT+CPMS=?" = true ∧ emptyStore p.stores = false := by simpa [storesUsable] using hu
  obtain ⟨hne, hok, hl⟩ := hd.stores hq
  have haft : afterSpace (py!"+CPMS: " ++ showStores p.stores) = some (showStores p.stores) := rfl
  unfold connectMemory
  refine raises_after (try_yes (bind_run (write_yes hf hq s))) ?_
  simp only
  rw [firstWith_iff.1 hl]
  simp only [haft]
  rw [split_stores hne hok, storeItems_empty, he, if_neg (by simp), preferred_map hok]
  split
  · exact raises_after (run_modify _ _) (raises_bind (write_fails hf h _))
  · exact raises_bind (write_fails hf h _)

end Gsm
