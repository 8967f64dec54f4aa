import Verif.Lemmas.Connect
/-! # Properties C62, C63: initialising the modem, and the list of its commands -/
namespace Gsm
open M Spec

variable {env : Env} {b : Behaviour} {p : Profile}

/-- The mandatory commands are accepted, and there is a PIN if one is needed. -/
structure Connectable (b : Behaviour) (p : Profile) (pin : Option PyStr) (s : St) : Prop where
  accepted : ∀ c ∈ mandatory b p (pin.getD []) s.smsTextMode s.smscNumber, b.accepts c = true
  pin : p.ready = false → pin ≠ none

/-- C62: on a modem that accepts the mandatory commands, `connect` succeeds; it writes exactly the
commands of the specification, in their order; the attributes are as specified. -/
theorem C62_connect {pin : Option PyStr} {s : St} (hf : Follows env b) (hd : Describes b p) (hc : Connectable b p pin s) :
    ∃ s', connect pin env s = (.ok (), s') ∧
      s'.log = ((connectCommands b p (pin.getD []) s.smsTextMode s.smscNumber s.smsReadSupported).map (· ++ [13])).reverse ++ s.log ∧
      s'.callStatusUpdates = (match kind b p with
        | .unknown => s.callStatusUpdates | .huawei => .huawei | .wavecom => .wavecom | .zte => .zte) ∧
      s'.mustPollCallStatus = decide (kind b p = .unknown) ∧
      s'.waitForAtdResponse = (match kind b p with | .unknown => true | .huawei => s.waitForAtdResponse | _ => false) ∧
      s'.waitForCallInitUpdate = (s.waitForCallInitUpdate && decide (kind b p ≠ .zte)) ∧
      s'.dtmfSupport = (s.dtmfSupport || decide (p.has py!"+VTS" ∨ kind b p = .huawei ∨
        (p.commands = none ∧ (kind b p = .wavecom ∨ kind b p = .zte)))) ∧
      s'.dtmfHuawei = (s.dtmfHuawei || decide (kind b p = .huawei)) ∧
      s'.smscNumber = s.smscNumber.or p.smsc ∧
      s'.smsReadSupported = (s.smsReadSupported && storesUsable b p && b.accepts py!"AT+CNMI=2,1,0,2") ∧
      s'.callingLineIdentification = b.accepts py!"AT+CLIP=1" ∧
      s'.extendedIncomingCallIndication =
        (if b.accepts py!"AT+CLIP=1" then b.accepts py!"AT+CRC=1" else s.extendedIncomingCallIndication) ∧
      s'.smsMemReadDelete = (if storesUsable b p = true ∧ favourite (p.stores.headD []) ≠ []
        then some (favourite (p.stores.headD [])) else s.smsMemReadDelete) ∧
      s'.alive = true := by
  have ha : ∀ c ∈ [py!"ATZ", py!"ATE0", py!"AT+CMEE=1", py!"AT+CPIN?"], b.accepts c = true :=
    fun c h => hc.accepted c (by simp only [mandatory, List.append_assoc, List.mem_append]; exact .inl h)
  have h2 : p.ready = false → ∃ n, pin = some n ∧ b.accepts (py!"AT+CPIN=\"" ++ n ++ py!"\"") = true := by
    intro hr
    obtain ⟨n, rfl⟩ := Option.ne_none_iff_exists'.1 (hc.pin hr)
    refine ⟨n, rfl, hc.accepted _ ?_⟩
    simp [mandatory, cmdIf, hr]
  have h3 : p.triesWind → b.accepts py!"AT+WIND?" = true → p.wind ≠ 50 → b.accepts py!"AT+WIND=50" = true := by
    intro h1 h2 h3
    exact hc.accepted _ (by simp [mandatory, cmdIf, h1, h2, h3])
  have h4 : firstKind b p = .unknown → b.accepts py!"AT+CGMI" = true := fun h =>
    hc.accepted _ (by simp [mandatory, cmdIf, h])
  have h5 : b.accepts (if s.smsTextMode then py!"AT+CMGF=1" else py!"AT+CMGF=0") = true :=
    hc.accepted _ (by simp [mandatory])
  have h6 : ∀ n, s.smscNumber = some n → b.accepts (setSmscCommand n) = true := fun n h =>
    hc.accepted _ (by simp [mandatory, h])
  have h7 : storesUsable b p = true → b.accepts (py!"AT+CPMS=" ++ pyJoin py!"," (p.stores.map favourite)) = true := fun h =>
    hc.accepted _ (by simp [mandatory, cmdIf, h])
  unfold connect
  rw [bind_run (run_modify _ _), bind_run (basics_run hf hd h2 ha _), bind_run (identify_run hf hd h3 h4 _)]
  simp only
  rw [bind_run (callTable_run _ _ _), bind_run (sms_run hf hd _ (by rfl) (by exact h5) (by exact h6)), bind_run (stores_run hf hd _ h7), notices_run hf]
  refine ⟨_, rfl, ?_, ?_⟩
  · simp [sent, connectCommands]
  · simp [sent, Bool.or_assoc]
    cases kind b p <;> exact ⟨rfl, rfl⟩

/-- C62: `connect` succeeds iff all mandatory commands are accepted and there is a PIN if one is needed. -/
theorem C62_iff {pin : Option PyStr} {s : St} (hf : Follows env b) (hd : Describes b p) :
    (connect pin env s).1 = .ok () ↔ Connectable b p pin s := by
  constructor
  · intro h
    have no : ¬ Raises env (connect pin) s := by
      rintro ⟨e, s', he⟩
      rw [he] at h
      cases h
    have yes : ∀ {c : PyStr}, ¬ b.accepts c = false → b.accepts c = true := fun h => by simpa using h
    have nb : ¬ ((∃ c ∈ [py!"ATZ", py!"ATE0", py!"AT+CMEE=1", py!"AT+CPIN?"], b.accepts c = false) ∨ (p.ready = false ∧
        (pin = none ∨ b.accepts (py!"AT+CPIN=\"" ++ pin.getD [] ++ py!"\"") = false))) := by
      intro hb
      exact no (raises_after (run_modify _ _) (raises_bind (basics_fails hf hd _ hb)))
    rw [not_or] at nb
    have ha : ∀ c ∈ [py!"ATZ", py!"ATE0", py!"AT+CMEE=1", py!"AT+CPIN?"], b.accepts c = true :=
      fun c hc => yes fun hn => nb.1 ⟨c, hc, hn⟩
    have hp : p.ready = false → pin ≠ none ∧ b.accepts (py!"AT+CPIN=\"" ++ pin.getD [] ++ py!"\"") = true := fun hr =>
      ⟨fun e => nb.2 ⟨hr, .inl e⟩, yes fun e => nb.2 ⟨hr, .inr e⟩⟩
    have h2 : p.ready = false → ∃ n, pin = some n ∧ b.accepts (py!"AT+CPIN=\"" ++ n ++ py!"\"") = true := by
      intro hr
      obtain ⟨n, rfl⟩ := Option.ne_none_iff_exists'.1 (hp hr).1
      exact ⟨n, rfl, (hp hr).2⟩
    have ni : ¬ ((p.triesWind ∧ b.accepts py!"AT+WIND?" = true ∧ p.wind ≠ 50 ∧ b.accepts py!"AT+WIND=50" = false) ∨
        (firstKind b p = .unknown ∧ b.accepts py!"AT+CGMI" = false)) := by
      intro hb
      exact no (raises_after (run_modify _ _) (raises_after (basics_run hf hd h2 ha _) (raises_bind (identify_fails hf hd _ hb))))
    rw [not_or] at ni
    have h3 : p.triesWind → b.accepts py!"AT+WIND?" = true → p.wind ≠ 50 → b.accepts py!"AT+WIND=50" = true := fun a1 a2 a3 =>
      yes fun e => ni.1 ⟨a1, a2, a3, e⟩
    have h4 : firstKind b p = .unknown → b.accepts py!"AT+CGMI" = true := fun a => yes fun e => ni.2 ⟨a, e⟩
    have ns : ¬ (b.accepts (if s.smsTextMode then py!"AT+CMGF=1" else py!"AT+CMGF=0") = false ∨
        ∃ n, s.smscNumber = some n ∧ b.accepts (setSmscCommand n) = false) := by
      intro hb
      exact no (raises_after (run_modify _ _) (raises_after (basics_run hf hd h2 ha _) (raises_after (identify_run hf hd h3 h4 _)
        (raises_after (callTable_run _ _ _) (raises_bind (sms_fails hf _ hb))))))
    rw [not_or] at ns
    have h5 := yes ns.1
    have h6 : ∀ n, s.smscNumber = some n → b.accepts (setSmscCommand n) = true := fun n hn => yes fun e => ns.2 ⟨n, hn, e⟩
    have h7 : storesUsable b p = true → b.accepts (py!"AT+CPMS=" ++ pyJoin py!"," (p.stores.map favourite)) = true := by
      intro hu
      refine yes fun e => ?_
      exact no (raises_after (run_modify _ _) (raises_after (basics_run hf hd h2 ha _) (raises_after (identify_run hf hd h3 h4 _)
        (raises_after (callTable_run _ _ _) (raises_after (sms_run hf hd _ rfl h5 h6) (raises_bind (stores_fails hf hd _ hu e)))))))
    refine ⟨?_, fun hr => (hp hr).1⟩
    intro c hc
    simp only [mandatory, List.append_assoc, List.mem_append] at hc
    have cmd : ∀ {P : Prop} [Decidable P] {d : PyStr}, c ∈ cmdIf P d → P ∧ c = d := by
      intro P _ d h
      unfold cmdIf at h
      split at h
      · next hP => exact ⟨hP, by simpa using h⟩
      · simp at h
    rcases hc with hc | hc | hc | hc | hc | hc | hc
    · exact ha c hc
    · obtain ⟨hr, rfl⟩ := cmd hc
      simpa using (hp hr).2
    · obtain ⟨hr, rfl⟩ := cmd hc
      exact h3 hr.1 hr.2.1 hr.2.2
    · obtain ⟨hr, rfl⟩ := cmd hc
      exact h4 hr
    · rw [List.mem_singleton.1 hc]
      exact h5
    · rw [Option.mem_toList, Option.map_eq_some_iff] at hc
      obtain ⟨n, hn, rfl⟩ := hc
      exact h6 n hn
    · obtain ⟨hr, rfl⟩ := cmd hc
      exact h7 hr
  · intro hc
    obtain ⟨s', h, _⟩ := C62_connect hf hd hc
    rw [h]

/-! ### Examples -/

/-- A modem given by the answers that are not `OK`. -/
def tableBehaviour (t : List (PyStr × List PyStr)) : Behaviour where
  answer c := (t.lookup c).getD [py!"OK"]
  accepts c := ((t.lookup c).getD [py!"OK"]).getLast? == some py!"OK"

def tableModem (t : List (PyStr × List PyStr)) : Env where
  reply log := .lines ((t.lookup ((log.head?.getD []).dropLast)).getD [py!"OK"])
  depth := 10
  order l := l
  order_perm _ := .refl _

theorem table_follows (t : List (PyStr × List PyStr))
    (h : ∀ x ∈ t, x.2.getLast? = some py!"OK" ∨ x.2.getLast? = some py!"+CMS ERROR: 330") : Follows (tableModem t) (tableBehaviour t) := by
  have hl : ∀ c, ((t.lookup c).getD [py!"OK"]).getLast? = some py!"OK" ∨ ((t.lookup c).getD [py!"OK"]).getLast? = some py!"+CMS ERROR: 330" := by
    intro c
    cases hc : t.lookup c with
    | none => exact .inl rfl
    | some l =>
      clear * - h hc
      induction t with
      | nil => cases hc
      | cons x t ih =>
        rw [List.lookup_cons] at hc
        split at hc
        · cases hc; exact h x (by simp)
        · exact ih (fun y hy => h y (by simp [hy])) hc
  refine ⟨Nat.zero_lt_succ 9, fun c log => by simp [tableModem, tableBehaviour], fun c hc => ?_, fun c hc => ?_⟩
  · exact .fine (line := py!"OK") (by simpa [tableBehaviour] using hc) (by rw [← pyContains_iff]; decide) (by decide)
  · have h330 := (hl c).resolve_left (by simpa [tableBehaviour] using hc)
    exact ⟨.smscUnknown, some 330, .code (ty := py!"CMS") (ds := py!"330") h330
      ⟨.inr rfl, by decide, by decide, [], .inl rfl, rfl⟩ (by decide) (by decide)⟩

/-- A Wavecom modem with its list of commands, and a SIM card with PIN. -/
def wavecomTable : List (PyStr × List PyStr) :=
  [(py!"AT+CFUN?", [py!"+CFUN: 4", py!"OK"]), (py!"AT+CPIN?", [py!"+CPIN: SIM PIN", py!"OK"]),
   (py!"AT+CLAC", [py!"+CLAC:+WIND,+VTS,^CVOICE", py!"OK"]), (py!"AT+WIND?", [py!"+WIND: 0", py!"OK"]),
   (py!"AT+CSCA?", [py!"+CSCA: \"+2782\",145", py!"OK"]),
   (py!"AT+CPMS=?", [py!"+CPMS: (\"SM\",\"BM\"),(\"SM\"),(\"SR\",\"ME\")", py!"OK"]),
   (py!"AT+CRC=1", [py!"+CMS ERROR: 330"])]

def wavecomProfile : Profile where
  functionality := 4
  ready := false
  commands := some [py!"+WIND", py!"+VTS", py!"^CVOICE"]
  wind := 0
  maker := py!"OK"
  smsc := some py!"+2782"
  stores := [[py!"SM", py!"BM"], [py!"SM"], [py!"SR", py!"ME"]]

theorem wavecom_describes : Describes (tableBehaviour wavecomTable) wavecomProfile where
  functionality _ := ⟨py!"4", ⟨by decide, by decide⟩, rfl, firstWith_iff.2 (by decide +kernel)⟩
  ready := ⟨py!"+CPIN: SIM PIN", firstWith_iff.2 (by decide +kernel), by decide⟩
  commands := ⟨by decide +kernel, by
    have : (tableBehaviour wavecomTable).answer py!"AT+CLAC" = [py!"+CLAC:" ++ pyJoin py!"," [py!"+WIND", py!"+VTS", py!"^CVOICE"], py!"OK"] := by
      decide +kernel
    rw [this]; exact .prefixed (by decide) (by decide)⟩
  wind _ := ⟨py!"0", ⟨by decide, by decide⟩, rfl, firstWith_iff.2 (by decide +kernel)⟩
  maker _ := by decide +kernel
  smsc := ⟨by decide +kernel, by decide, by decide, py!"145", [py!"OK"], ⟨by decide, by decide⟩, by decide +kernel⟩
  stores _ := ⟨by decide, by decide, firstWith_iff.2 (by decide +kernel)⟩

theorem wavecom_follows : Follows (tableModem wavecomTable) (tableBehaviour wavecomTable) := table_follows _ (by decide +kernel)

example : (connect (some py!"1234") (tableModem wavecomTable) { smsTextMode := true }).1 = .ok () :=
  (C62_iff wavecom_follows wavecom_describes).2 ⟨by decide +kernel, by decide⟩
/-- Without the PIN it does not work. -/
example : ¬ (connect none (tableModem wavecomTable) {}).1 = .ok () :=
  fun h => ((C62_iff wavecom_follows wavecom_describes).1 h).pin rfl rfl
example : connectCommands (tableBehaviour wavecomTable) wavecomProfile py!"1234" true none true =
    [py!"ATZ", py!"ATE0", py!"AT+CFUN?", py!"AT+CFUN=1", py!"AT+CMEE=1", py!"AT+CPIN?", py!"AT+CPIN=\"1234\"",
     py!"AT+CLAC", py!"AT^CVOICE=0", py!"AT+WIND?", py!"AT+WIND=50", py!"AT+COPS=3,0", py!"AT+CMGF=1", py!"AT+CSCA?",
     py!"AT+CSMP=49,167,0,0", py!"AT+CSCA?", py!"AT+CPMS=?", py!"AT+CPMS=\"SM\",\"SM\",\"ME\"", py!"AT+CNMI=2,1,0,2",
     py!"AT+CLIP=1", py!"AT+CRC=1", py!"AT+CVHU=0"] := by decide +kernel
example : kind (tableBehaviour wavecomTable) wavecomProfile = .wavecom := by decide +kernel
/-- A ZTE modem that does not support `AT+CLAC` and `AT+WIND`. -/
example : kind (tableBehaviour [(py!"AT+CLAC", [py!"ERROR"]), (py!"AT+WIND?", [py!"ERROR"])])
    { wavecomProfile with commands := none, maker := py!"ZTE" } = .zte := by decide +kernel
example : kind (tableBehaviour []) { wavecomProfile with commands := some [py!"^DTMF"] } = .huawei := by decide +kernel
example : kind (tableBehaviour []) { wavecomProfile with commands := some [], maker := py!"Huawei" } = .huawei := by decide +kernel
example : kind (tableBehaviour [(py!"AT+ZPAS?", [py!"ERROR"])]) { wavecomProfile with commands := some [] } = .unknown := by decide +kernel

/-! ### C63 -/

/-- C63: in each format the list of commands is understood. -/
theorem C63_commands {ls cs : List PyStr} {s : St} (hdepth : 0 < env.depth) (hr : env.reply (py!"AT+CLAC\r" :: s.log) = .lines ls)
    (hm : ResponseMeans ls (.ok ls)) (h : CommandList ls cs) :
    supportedCommands env s = (.ok (some cs), { s with log := py!"AT+CLAC\r" :: s.log }) :=
  clac_some (C32_mapping (data := py!"AT+CLAC") (term := [13]) hdepth hr hm) h

/-- C63: if the command is refused, or the answer has no list, then there is no list. -/
theorem C63_none {ls : List PyStr} {s : St} (hdepth : 0 < env.depth) (hr : env.reply (py!"AT+CLAC\r" :: s.log) = .lines ls)
    (hm : (∃ cls code, ResponseMeans ls (.error (.command cls code))) ∨ (ResponseMeans ls (.ok ls) ∧ ls.length = 1)) :
    supportedCommands env s = (.ok none, { s with log := py!"AT+CLAC\r" :: s.log }) := by
  rcases hm with ⟨cls, code, hm⟩ | ⟨hm, h1⟩
  · exact clac_none (C32_mapping (data := py!"AT+CLAC") (term := [13]) hdepth hr hm)
  · unfold supportedCommands
    refine except_ok ?_
    rw [bind_run (C32_mapping (data := py!"AT+CLAC") (term := [13]) hdepth hr hm), if_neg (by omega), if_neg (by omega), run_pure]
    rfl

/-- C63 fails: with a blank after `+CLAC:`, as all other answers have it, the first command gets a blank
before it, and is not recognised. -/
theorem C63_violated : supportedCommands (tableModem [(py!"AT+CLAC", [py!"+CLAC: +WIND,+VTS", py!"OK"])]) {} =
    (.ok (some [py!" +WIND", py!"+VTS"]), { log := [py!"AT+CLAC\r"] }) := by decide +kernel

example : CommandList [py!"+WIND,+VTS", py!"OK"] [py!"+WIND", py!"+VTS"] :=
  .oneLine (cs := [py!"+WIND", py!"+VTS"]) (by decide) (by decide) (by rw [← List.isPrefixOf_iff_prefix]; decide)
example : CommandList [py!"+WIND ", py!"  +VTS", py!"OK"] [py!"+WIND", py!"+VTS"] :=
  .lines (ls := [py!"+WIND ", py!"  +VTS"]) (by decide) (by decide) (by
    simp only [List.zip_cons_cons, List.zip_nil_right, List.mem_cons, List.not_mem_nil, or_false, forall_eq_or_imp, forall_eq]
    refine ⟨⟨[], [32], rfl, ?_⟩, ⟨[32, 32], [], rfl, ?_⟩⟩ <;> simp [Blank])
example : (supportedCommands (tableModem [(py!"AT+CLAC", [py!"+WIND ", py!"  +VTS", py!"OK"])]) {}).1 = .ok (some [py!"+WIND", py!"+VTS"]) := by
  decide +kernel

/-- C62: an answer to `AT+CFUN?` without its line ends `connect` with TypeError (not a CommandError, which
would be ignored). -/
theorem C62_no_functionality {pin : Option PyStr} {done : Bool} {ls ls' : List PyStr} {s : St} (hdepth : 0 < env.depth)
    (h0 : env.reply (py!"ATE0\r" :: s.log) = .lines ls) (m0 : ResponseMeans ls (.ok ls))
    (h1 : env.reply (py!"AT+CFUN?\r" :: py!"ATE0\r" :: s.log) = .lines ls') (m1 : ResponseMeans ls' (.ok ls'))
    (hn : lineStartingWith py!"+CFUN:" ls' = none) :
    (connectRest pin done env s).1 = .error .typeError := by
  have w := C32_mapping (s := { s with log := py!"ATE0\r" :: s.log }) (data := py!"AT+CFUN?") (term := [13]) hdepth h1 m1
  unfold connectRest
  rw [bind_run (C32_mapping (data := py!"ATE0") (term := [13]) hdepth h0 m0)]
  have stop : ∀ {α β : Type} (m : M α) (f : α → M β) (s s1 : St) (e : PyErr), m env s = (.error e, s1) → ((m >>= f) env s).1 = .error e := by
    intro α β m f s s1 e h; rw [run_bind, h]
  refine stop _ _ _ { s with log := py!"AT+CFUN?\r" :: py!"ATE0\r" :: s.log } _ ?_
  have inner : ∀ (f : Int → M Unit) (m : M (List PyStr)) s1 s2, m env s1 = (.ok ls', s2) →
      (m >>= fun ls => M.ofExcept (intFrom7 (lineStartingWith py!"+CFUN:" ls)) >>= f) env s1 = (.error .typeError, s2) := by
    intro f m s1 s2 h
    rw [bind_run h, run_bind, run_ofExcept, hn]; rfl
  have pass : ∀ (m : M Unit) h s1 s2, m env s1 = (.error .typeError, s2) → M.except m isCommandError h env s1 = (.error .typeError, s2) := by
    intro m h s1 s2 he; simp only [M.except, he]; rfl
  exact pass _ _ _ _ (inner _ _ _ _ w)

example : (connectRest none false (tableModem [(py!"ATE0", [py!"OK"]), (py!"AT+CFUN?", [py!"OK"])]) {}).1 = .error .typeError := by decide +kernel

end Gsm
