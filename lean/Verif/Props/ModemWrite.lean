import Verif.Lemmas.ModemWrite
/-! # C32, C33: error replies and busy retries -/
namespace Gsm
open M Spec

theorem responseMeans_classify {ls : List PyStr} {r : Except PyErr (List PyStr)} (h : ResponseMeans ls r) :
    ∃ line, ls.getLast? = some line ∧
      ((r = .ok ls ∧ classify line = .fine) ∨ ∃ cls code, r = .error (.command cls code) ∧ classify line = .failed (.command cls code)) := by
  cases h with
  | fine h1 h2 h3 => exact ⟨_, h1, .inl ⟨rfl, classify_fine.2 ⟨h2, h3⟩⟩⟩
  | notSupported h1 => exact ⟨_, h1, .inr ⟨_, _, rfl, by decide⟩⟩
  | code h1 h2 h3 h4 =>
    have hc := classify_cm h2
    rw [if_neg (by simp [h3, h4])] at hc
    unfold errorFor at *
    split at hc <;> rename_i hty
    · exact ⟨_, h1, .inr ⟨_, _, by rw [if_pos hty], hc⟩⟩
    · exact ⟨_, h1, .inr ⟨_, _, by rw [if_neg hty], hc⟩⟩
  | plain h1 h2 h3 => exact ⟨_, h1, .inr ⟨_, _, rfl, classify_plain h2 h3⟩⟩

theorem busy_classify {n : Nat} {line : PyStr} (h : Busy n line) : classify line = .busy n := by
  obtain ⟨hn, ty, ds, h1, rfl⟩ := h
  rw [classify_cm h1, if_pos hn]

/-- C32: the answer of the modem is turned into a result or an exception exactly as specified: the
response itself, `CommandError`, or `CmeError`/`CmsError` with the code of the modem and the class for
this code. The command is written once, and no other attribute changes. -/
theorem C32_mapping {env : Env} {s : St} {data term : PyStr} {ls : List PyStr} {r : Except PyErr (List PyStr)}
    (hdepth : 0 < env.depth) (hr : env.reply ((data ++ term) :: s.log) = .lines ls) (hm : ResponseMeans ls r) :
    write data true term env s = (r, { s with log := (data ++ term) :: s.log }) := by
  obtain ⟨d, hd⟩ : ∃ d, env.depth = d + 1 := ⟨env.depth - 1, by omega⟩
  obtain ⟨line, hl, h⟩ := responseMeans_classify hm
  simp only [write, hd, writeN, hr, hl, if_true]
  rcases h with ⟨rfl, hc⟩ | ⟨_, _, rfl, hc⟩ <;> simp only [hc]

example : ResponseMeans [py!"+CSQ: 17,0", py!"OK"] (.ok [py!"+CSQ: 17,0", py!"OK"]) :=
  .fine rfl (by rw [← pyContains_iff]; decide) (by decide)
example : ResponseMeans [py!"+CME ERROR: 16"] (.error (.command .incorrectPin (some 16))) :=
  .code (ty := py!"CME") (ds := py!"16") rfl ⟨.inl rfl, by decide, by decide, [], .inl rfl, rfl⟩ (by decide) (by decide)
example : ResponseMeans [py!"+CMS ERROR: 330"] (.error (.command .smscUnknown (some 330))) :=
  .code (ty := py!"CMS") (ds := py!"330") rfl ⟨.inr rfl, by decide, by decide, [], .inl rfl, rfl⟩ (by decide) (by decide)
example : ResponseMeans [py!"+CMS ERROR: 16"] (.error (.command .cms (some 16))) :=
  .code (ty := py!"CMS") (ds := py!"16") rfl ⟨.inr rfl, by decide, by decide, [], .inl rfl, rfl⟩ (by decide) (by decide)

/-- C32: every response has a meaning, unless its last line says busy; only one of them applies. -/
theorem C32_total (ls : List PyStr) (line : PyStr) (hl : ls.getLast? = some line) :
    ((∃ r, ResponseMeans ls r) ↔ ¬ ∃ n, Busy n line) ∧ ∀ r r', ResponseMeans ls r → ResponseMeans ls r' → r = r' := by
  refine ⟨⟨?_, ?_⟩, ?_⟩
  · rintro ⟨r, hm⟩ ⟨n, hb⟩
    obtain ⟨line', hl', h⟩ := responseMeans_classify hm
    obtain rfl : line = line' := by simpa [hl] using hl'
    have := busy_classify hb
    rcases h with ⟨_, h⟩ | ⟨_, _, _, h⟩ <;> rw [h] at this <;> cases this
  · intro hb
    by_cases h : py!"ERROR" <:+: line
    · by_cases hc : ∃ ty ds, IsCmError ty ds line
      · obtain ⟨ty, ds, hc⟩ := hc
        refine ⟨_, .code hl hc (fun h => hb ⟨515, .inl rfl, ty, ds, hc, h⟩) (fun h => hb ⟨14, .inr rfl, ty, ds, hc, h⟩)⟩
      · exact ⟨_, .plain hl h (fun ty ds hx => hc ⟨ty, ds, hx⟩)⟩
    · by_cases hn : line = py!"COMMAND NOT SUPPORT"
      · exact ⟨_, .notSupported (hn ▸ hl)⟩
      · exact ⟨_, .fine hl h hn⟩
  · intro r r' h h'
    obtain ⟨l1, hl1, h1⟩ := responseMeans_classify h
    obtain ⟨l2, hl2, h2⟩ := responseMeans_classify h'
    obtain rfl : l1 = l2 := by simpa [hl1] using hl2
    rcases h1 with ⟨rfl, h1⟩ | ⟨_, _, rfl, h1⟩ <;> rcases h2 with ⟨rfl, h2⟩ | ⟨_, _, rfl, h2⟩ <;> rw [h1] at h2 <;> simp_all

/-- C32: `write` raises a `CommandError` (of whatever class) if and only if the last line of the
response contains `ERROR` or is `COMMAND NOT SUPPORT`. (Responses that say busy: C33.) -/
theorem C32_raises_iff {env : Env} {s : St} {data term : PyStr} {ls : List PyStr} {line : PyStr}
    (hdepth : 0 < env.depth) (hr : env.reply ((data ++ term) :: s.log) = .lines ls) (hl : ls.getLast? = some line)
    (hb : ¬ ∃ n, Busy n line) :
    (∃ cls code, (write data true term env s).1 = .error (.command cls code)) ↔
      py!"ERROR" <:+: line ∨ line = py!"COMMAND NOT SUPPORT" := by
  obtain ⟨r, hm⟩ := (C32_total ls line hl).1.2 hb
  rw [C32_mapping hdepth hr hm]
  obtain ⟨line', hl', h⟩ := responseMeans_classify hm
  obtain rfl : line = line' := by simpa [hl] using hl'
  rcases h with ⟨rfl, h⟩ | ⟨cls, code, rfl, h⟩
  · rw [classify_fine] at h
    simp [h.1, h.2]
  · refine ⟨fun _ => ?_, fun _ => ⟨cls, code, rfl⟩⟩
    by_cases h1 : py!"ERROR" <:+: line
    · exact .inl h1
    · by_cases h2 : line = py!"COMMAND NOT SUPPORT"
      · exact .inr h2
      · rw [classify_fine.2 ⟨h1, h2⟩] at h; cases h

/-- C32: without `parseError` the response is returned as it is, whatever it says. -/
theorem C32_unparsed {env : Env} {s : St} {data term : PyStr} {ls : List PyStr}
    (hdepth : 0 < env.depth) (hr : env.reply ((data ++ term) :: s.log) = .lines ls) (hne : ls ≠ []) :
    write data false term env s = (.ok ls, { s with log := (data ++ term) :: s.log }) := by
  obtain ⟨d, hd⟩ : ∃ d, env.depth = d + 1 := ⟨env.depth - 1, by omega⟩
  cases hl : ls.getLast? with
  | none => simp at hl; exact absurd hl hne
  | some line => simp only [write, hd, writeN, hr, hl, Bool.false_eq_true, if_false]

/-- C32: a time-out is passed on to the caller with the lines read. -/
theorem C32_timeout {env : Env} {s : St} {data term : PyStr} {pe : Bool} {d : Option (List PyStr)}
    (hdepth : 0 < env.depth) (hr : env.reply ((data ++ term) :: s.log) = .timeout d) :
    write data pe term env s = (.error (.timeout d), { s with log := (data ++ term) :: s.log }) := by
  obtain ⟨n, hn⟩ : ∃ n, env.depth = n + 1 := ⟨env.depth - 1, by omega⟩
  simp only [write, hn, writeN, hr]

/-! ### Busy -/

/-- The modem answers the next `k` writes of `cmd` with busy; the codes are `codes`. -/
def BusyTimes (env : Env) (log : List PyStr) (cmd : PyStr) (codes : List Nat) : Prop :=
  ∀ i (hi : i < codes.length), ∃ ls line, env.reply (List.replicate (i + 1) cmd ++ log) = .lines ls ∧
    ls.getLast? = some line ∧ Busy codes[i] line

theorem busyTimes_tail {env : Env} {log : List PyStr} {cmd : PyStr} {c : Nat} {codes : List Nat}
    (h : BusyTimes env log cmd (c :: codes)) : BusyTimes env (cmd :: log) cmd codes := by
  intro i hi
  have := h (i + 1) (by simpa using hi)
  simpa [List.replicate_succ' (n := i + 1)] using this

/-- The delay between commands after busy answers `codes` and the final result `fin`. -/
def delayAfter (before : Nat) (fin : Except PyErr (List PyStr)) (codes : List Nat) : Nat :=
  match fin with
  | .ok _ => match codes.head? with | none => before | some c => if c = 515 then 1 else 0
  | .error _ => before + 2 * codes.length

theorem writeN_busy {env : Env} {data term : PyStr} {fin : Except PyErr (List PyStr)} {codes : List Nat} {depth : Nat} {s : St}
    (hd : codes.length < depth) (hb : BusyTimes env s.log (data ++ term) codes)
    (h : (∃ ls, env.reply (List.replicate (codes.length + 1) (data ++ term) ++ s.log) = .lines ls ∧ ResponseMeans ls fin) ∨
      (∃ d, env.reply (List.replicate (codes.length + 1) (data ++ term) ++ s.log) = .timeout d ∧ fin = .error (.timeout d))) :
    writeN depth data true term env s =
      (fin, { s with log := List.replicate (codes.length + 1) (data ++ term) ++ s.log, writeWait := delayAfter s.writeWait fin codes }) := by
  induction codes generalizing depth s with
  | nil =>
    obtain ⟨depth, rfl⟩ : ∃ d, depth = d + 1 := ⟨depth - 1, by simp at hd; omega⟩
    simp only [List.length_nil, Nat.zero_add, List.replicate_one, List.cons_append, List.nil_append] at h
    rcases h with ⟨ls, hr, hm⟩ | ⟨d, hr, rfl⟩
    · obtain ⟨line, hl, hc⟩ := responseMeans_classify hm
      simp only [writeN, hr, hl, if_true]
      rcases hc with ⟨rfl, hc⟩ | ⟨_, _, rfl, hc⟩ <;> simp [hc, delayAfter]
    · simp [writeN, hr, delayAfter]
  | cons c codes ih =>
    obtain ⟨depth, rfl⟩ : ∃ d, depth = d + 1 := ⟨depth - 1, by simp at hd; omega⟩
    have hrep : ∀ n, List.replicate (n + 1 + 1) (data ++ term) ++ s.log = List.replicate (n + 1) (data ++ term) ++ ((data ++ term) :: s.log) := by
      intro n; rw [List.replicate_succ' (n := n + 1)]; simp
    obtain ⟨ls, line, hr, hl, hbusy⟩ := hb 0 (by simp)
    simp only [List.length_cons, hrep] at h
    have ih := ih (depth := depth) (s := { s with log := (data ++ term) :: s.log, writeWait := s.writeWait + 2 })
      (by simpa using hd) (busyTimes_tail hb) h
    simp only [List.getElem_cons_zero] at hbusy
    simp only [Nat.zero_add, List.replicate_one, List.cons_append, List.nil_append] at hr
    simp only [writeN, hr, hl, if_true, busy_classify hbusy, ih, List.length_cons, hrep]
    cases fin with
    | ok v =>
      have : ((c : Int) = 515) ↔ c = 515 := by omega
      simp only [this, delayAfter, List.head?_cons]
    | error e =>
      have : s.writeWait + 2 + 2 * codes.length = s.writeWait + 2 * (codes.length + 1) := by omega
      simp only [delayAfter, this, List.length_cons]

/-- C33: the modem says `k` times that it is busy, and then something else (or nothing, until the
time-out). Then the same command has been written exactly `k + 1` times, the outcome is that of the
last answer only, and no attribute changed except the delay between commands: after a success it is 0.1
seconds if the first answer was busy code 515, and 0 if it was 14; after a failure it has
grown by 0.2 seconds for each repetition. -/
theorem C33_retry {env : Env} {s : St} {data term : PyStr} {codes : List Nat} {fin : Except PyErr (List PyStr)}
    (hdepth : codes.length < env.depth) (hbusy : BusyTimes env s.log (data ++ term) codes)
    (hfin : (∃ ls, env.reply (List.replicate (codes.length + 1) (data ++ term) ++ s.log) = .lines ls ∧ ResponseMeans ls fin) ∨
      (∃ d, env.reply (List.replicate (codes.length + 1) (data ++ term) ++ s.log) = .timeout d ∧ fin = .error (.timeout d))) :
    write data true term env s =
      (fin, { s with log := List.replicate (codes.length + 1) (data ++ term) ++ s.log, writeWait := delayAfter s.writeWait fin codes }) :=
  writeN_busy hdepth hbusy hfin

/-- A modem that answers busy twice, then OK. -/
def busyTwice : Env where
  reply log := .lines (if log.length = 1 then [py!"+CME ERROR: 14"] else if log.length = 2 then [py!"+CME ERROR: 515"] else [py!"OK"])
  depth := 900
  order := id
  order_perm _ := List.Perm.refl _

example : (write py!"AT" true [13] busyTwice {}) = (.ok [py!"OK"], { log := [py!"AT\r", py!"AT\r", py!"AT\r"], writeWait := 0 }) := by decide +kernel
example : BusyTimes busyTwice [] py!"AT\r" [14, 515] := by
  intro i hi
  match i, hi with
  | 0, _ => exact ⟨_, _, rfl, rfl, .inr rfl, py!"CME", py!"14", ⟨.inl rfl, by decide, by decide, [], .inl rfl, rfl⟩, rfl⟩
  | 1, _ => exact ⟨_, _, rfl, rfl, .inl rfl, py!"CME", py!"515", ⟨.inl rfl, by decide, by decide, [], .inl rfl, rfl⟩, rfl⟩

theorem writeN_always_busy {env : Env} {data term : PyStr} {depth : Nat} {s : St} {codes : List Nat}
    (hd : codes.length = depth) (hb : BusyTimes env s.log (data ++ term) codes) :
    writeN depth data true term env s = (.error .recursionError, { s with log := List.replicate depth (data ++ term) ++ s.log, writeWait := s.writeWait + 2 * depth }) := by
  induction codes generalizing depth s with
  | nil => subst hd; simp [writeN, raise]
  | cons c codes ih =>
    subst hd
    obtain ⟨ls, line, hr, hl, hbusy⟩ := hb 0 (by simp)
    have ih := ih (depth := codes.length) (s := { s with log := (data ++ term) :: s.log, writeWait := s.writeWait + 2 }) rfl (busyTimes_tail hb)
    simp only [List.getElem_cons_zero] at hbusy
    simp only [Nat.zero_add, List.replicate_one, List.cons_append, List.nil_append] at hr
    have hrep : List.replicate (codes.length + 1) (data ++ term) ++ s.log = List.replicate codes.length (data ++ term) ++ ((data ++ term) :: s.log) := by
      rw [List.replicate_succ' (n := codes.length)]; simp
    have hw : s.writeWait + 2 + 2 * codes.length = s.writeWait + 2 * (codes.length + 1) := by omega
    simp only [List.length_cons, writeN, hr, hl, if_true, busy_classify hbusy, ih, hrep, hw]

/-- C33: there is no limit on the number of repetitions except Python's recursion limit: a modem that
stays busy makes `write` fail with a `RecursionError` after that many writes, with the delay left at
its last value. -/
theorem C33_always_busy {env : Env} {s : St} {data term : PyStr} {codes : List Nat}
    (hlen : codes.length = env.depth) (hbusy : BusyTimes env s.log (data ++ term) codes) :
    write data true term env s =
      (.error .recursionError, { s with log := List.replicate env.depth (data ++ term) ++ s.log, writeWait := s.writeWait + 2 * env.depth }) :=
  writeN_always_busy hlen hbusy

/-- A modem that is always busy. -/
def alwaysBusy : Env := { busyTwice with depth := 3, reply := fun _ => .lines [py!"+CMS ERROR: 14"] }

example : (write py!"AT" true [13] alwaysBusy {}).1 = .error .recursionError := by decide +kernel
example : BusyTimes alwaysBusy [] py!"AT\r" [14, 14, 14] := by
  intro i hi
  refine ⟨[py!"+CMS ERROR: 14"], py!"+CMS ERROR: 14", rfl, rfl, ?_⟩
  have : [14, 14, 14][i] = 14 := by match i, hi with | 0, _ => rfl | 1, _ => rfl | 2, _ => rfl
  rw [this]
  exact ⟨.inr rfl, py!"CMS", py!"14", ⟨.inr rfl, by decide, by decide, [], .inl rfl, rfl⟩, rfl⟩

theorem writeN_log {data term : PyStr} {pe : Bool} {env : Env} : ∀ (depth : Nat) (s : St),
    ∃ k, k ≤ depth ∧ (0 < depth → 0 < k) ∧ (writeN depth data pe term env s).2.log = List.replicate k (data ++ term) ++ s.log
  | 0, s => ⟨0, by simp, by simp, by simp [writeN, raise]⟩
  | depth + 1, s => by
    simp only [writeN]
    split
    · exact ⟨1, by omega, by omega, by simp⟩
    · split
      · exact ⟨1, by omega, by omega, by simp⟩
      · split
        · split
          · exact ⟨1, by omega, by omega, by simp⟩
          · exact ⟨1, by omega, by omega, by simp⟩
          · obtain ⟨k, h1, _, h3⟩ := writeN_log (data := data) (term := term) (pe := pe) (env := env) depth
              { s with log := (data ++ term) :: s.log, writeWait := s.writeWait + 2 }
            rename_i hr _ _ _ hpe _ _ _
            refine ⟨k + 1, by omega, by omega, ?_⟩
            have : (writeN depth data pe term env { s with log := (data ++ term) :: s.log, writeWait := s.writeWait + 2 }).2.log =
              List.replicate (k + 1) (data ++ term) ++ s.log := by
              rw [h3]; simp [List.replicate_succ' (n := k)]
            split
            · next he => rw [he] at this; exact this
            · next he => rw [he] at this; exact this
        · exact ⟨1, by omega, by omega, by simp⟩

/-- C33: any outcome of `write` comes with at least one and at most `depth` writes of the command, and
of nothing else. -/
theorem C33_only_this_command (data term : PyStr) (pe : Bool) (env : Env) (s : St) (hdepth : 0 < env.depth) :
    ∃ k, 1 ≤ k ∧ k ≤ env.depth ∧ (write data pe term env s).2.log = List.replicate k (data ++ term) ++ s.log := by
  obtain ⟨k, h1, h2, h3⟩ := writeN_log (data := data) (term := term) (pe := pe) (env := env) env.depth s
  exact ⟨k, h2 hdepth, h1, h3⟩

end Gsm
