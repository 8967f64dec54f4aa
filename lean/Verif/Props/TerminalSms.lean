import Verif.Props.TerminalDisplay
import Verif.Spec.Composer
/-! # C60: entering a message in the terminal -/
namespace Gsm
open Spec Term

/-- All that was written to the modem, in order. -/
def transmitted (t : Term) : PyStr := t.sent.reverse.flatten

/-- The state as the specification sees it. -/
def composerOf (t : Term) : Composer := ⟨transmitted t, lineOf t, t.typingSms⟩

/-- What the console sends. -/
def keyFor : Typing → PyStr
  | .edit e => chunkOf e
  | .enter => [10]
  | .send => [26]
  | .cancel => [27]

/-- Edits insert printable characters; Enter is only used while the message is typed. -/
def Ready (c : Composer) : Typing → Prop
  | .edit e => Types e
  | .enter => c.typing = true
  | _ => True

theorem sent_send (s : PyStr) (t : Term) : transmitted (t.send s) = transmitted t ++ s := by
  simp [transmitted, send]

/-- C60: one key while a message may be typed: what the modem gets, the line and the mode are as specified. -/
theorem C60_step (env : TermEnv) (hd : 0 < env.depth) {t : Term} (hok : TermOk t.core) (ha : t.alive = true) (x : Typing)
    (hx : Ready (composerOf t) x) :
    composerOf (happen env t (.key (keyFor x))) = (composerOf t).step x ∧ TermOk (happen env t (.key (keyFor x))).core ∧
      (happen env t (.key (keyFor x))).alive = true := by
  have hc : t.cursorPos ≤ t.inputBuffer.length := hok.1
  have key : ∀ {t1 : Term}, press env (keyFor x) t = (.ok (), t1) → composerOf t1 = (composerOf t).step x → t1.alive = t.alive →
      composerOf (happen env t (.key (keyFor x))) = (composerOf t).step x ∧ TermOk (happen env t (.key (keyFor x))).core ∧
      (happen env t (.key (keyFor x))).alive = true := by
    intro t1 h1 h2 h3
    have h4 := ok_press (env := env) hok (keyFor x)
    have e1 : happen env t (.key (keyFor x)) = t1 := by simp only [happen, ha, if_true, h1]
    rw [h1] at h4
    rw [e1]
    exact ⟨h2, h4, h3.trans ha⟩
  cases x with
  | edit e =>
    obtain ⟨t1, h1, h2, h3⟩ := C57_edit env hc e hx
    have h4 : t1.sent = t.sent := by rw [h3]
    have h5 : t1.typingSms = t.typingSms := by rw [h3]
    have h6 : t1.alive = t.alive := by rw [h3]
    refine key h1 ?_ h6
    simp only [composerOf, transmitted, h4, h5, h2, Composer.step]
  | enter =>
    have hs : t.typingSms = true := hx
    obtain ⟨n, hn⟩ : ∃ n, env.depth = n + 1 := ⟨env.depth - 1, by omega⟩
    refine key (t1 := t.confirmSms) ?_ ?_ rfl
    · change confirm env env.depth t = _
      rw [hn, confirm, if_pos hs]
    · simp only [Composer.step, composerOf, hs, if_true, lineOf]
      have h1 : transmitted t.confirmSms = transmitted (t.send (t.inputBuffer.take t.cursorPos)) := rfl
      have h2 : t.confirmSms.typingSms = true := hs
      have h3 : t.confirmSms.inputBuffer = t.inputBuffer.drop t.cursorPos := rfl
      have h4 : t.confirmSms.cursorPos = 0 := rfl
      rw [h1, h2, h3, h4, sent_send]
      rfl
  | send =>
    refine key (t1 := t.ctrlZ) rfl ?_ ?_
    · unfold ctrlZ
      split
      · next hs =>
        simp only [Composer.step, composerOf, hs, if_true]
        have h1 : ∀ t : Term, transmitted (({ t with typingSms := false, inputBuffer := [], cursorPos := 0 }.emit [.newline]).refresh 0) = transmitted t := fun _ => rfl
        rw [h1, sent_send, sent_send]
        have h2 : transmitted t ++ (lineOf t).before ++ (lineOf t).after ++ [26] = transmitted t ++ t.inputBuffer ++ [26] := by
          rw [List.append_assoc (transmitted t)]
          simp only [lineOf, List.take_append_drop]
        rw [h2]
        rfl
      · next hs => simp only [Composer.step, composerOf, hs]; rfl
    · unfold ctrlZ; split <;> rfl
  | cancel =>
    refine key (t1 := t.esc) rfl ?_ ?_
    · unfold esc
      split
      · next hs =>
        simp only [Composer.step, composerOf, hs, if_true]
        have h1 : ∀ t : Term, transmitted { t with typingSms := false, inputBuffer := [], cursorPos := 0 } = transmitted t := fun _ => rfl
        rw [h1, sent_send]
        rfl
      · next hs => simp only [Composer.step, composerOf, hs]; rfl
    · unfold esc; split <;> rfl

/-- The whole of what is done can be done. -/
def ReadyAll : Composer → List Typing → Prop
  | _, [] => True
  | c, x :: l => Ready c x ∧ ReadyAll (c.step x) l

/-- C60: any sequence of edits, Enter, Ctrl-Z and ESC. -/
theorem C60_compose (env : TermEnv) (hd : 0 < env.depth) : ∀ (l : List Typing) {t : Term}, TermOk t.core → t.alive = true → ReadyAll (composerOf t) l →
    composerOf (session env (l.map fun x => .key (keyFor x)) t) = (composerOf t).run l
  | [], _, _, _, _ => rfl
  | x :: l, t, hok, ha, hl => by
    obtain ⟨h1, h2, h3⟩ := C60_step env hd hok ha x hl.1
    have := C60_compose env hd l h2 h3 (by rw [h1]; exact hl.2)
    rw [List.map_cons, session, List.foldl_cons]
    rw [session] at this
    rw [this, h1]
    rfl

/-- Typing a text. -/
def typeText (s : PyStr) : List Typing := s.map fun c => .edit (.insert c)

theorem run_text (s : PyStr) : ∀ (c : Composer), c.run (typeText s) = { c with line := ⟨c.line.before ++ s, c.line.after⟩ } := by
  induction s with
  | nil => intro c; simp [typeText, Composer.run]
  | cons a s ih =>
    intro c
    have := ih (c.step (.edit (.insert a)))
    simp only [typeText, Composer.run, List.map_cons, List.foldl_cons] at this ⊢
    rw [this]
    simp [Composer.step, Line.edit]

theorem run_append (c : Composer) (a b : List Typing) : c.run (a ++ b) = (c.run a).run b := by simp [Composer.run]

theorem run_lines (last : PyStr) : ∀ (lines : List PyStr) (got : PyStr),
    (⟨got, ⟨[], []⟩, true⟩ : Composer).run ((lines.flatMap fun s => typeText s ++ [.enter]) ++ (typeText last ++ [.send])) =
      ⟨got ++ lines.flatten ++ last ++ [26], ⟨[], []⟩, false⟩
  | [], got => by
    rw [List.flatMap_nil, List.nil_append, run_append, run_text]
    simp [Composer.run, Composer.step]
  | s :: lines, got => by
    have e : ((s :: lines).flatMap fun s => typeText s ++ [.enter]) ++ (typeText last ++ [.send]) =
        typeText s ++ ([.enter] ++ ((lines.flatMap fun s => typeText s ++ [.enter]) ++ (typeText last ++ [.send]))) := by simp
    rw [e, run_append, run_text, run_append]
    have := run_lines last lines (got ++ s)
    simp only [Composer.run, List.foldl_cons, List.foldl_nil, Composer.step, if_true, List.nil_append] at this ⊢
    rw [this]
    simp

theorem ready_text {s : PyStr} (h : ∀ c ∈ s, Types (.insert c)) : ∀ (c : Composer) (l : List Typing),
    ReadyAll { c with line := ⟨c.line.before ++ s, c.line.after⟩ } l → ReadyAll c (typeText s ++ l) := by
  induction s with
  | nil =>
    intro c l hl
    rw [List.append_nil] at hl
    exact hl
  | cons a s ih =>
    intro c l hl
    refine ⟨h a (by simp), ?_⟩
    refine ih (fun x hx => h x (by simp [hx])) _ l ?_
    simpa [Composer.step, Line.edit] using hl

theorem ready_lines {last : PyStr} (hlast : ∀ c ∈ last, Types (.insert c)) : ∀ (lines : List PyStr) (got : PyStr), (∀ s ∈ lines, ∀ c ∈ s, Types (.insert c)) →
    ReadyAll ⟨got, ⟨[], []⟩, true⟩ ((lines.flatMap fun s => typeText s ++ [.enter]) ++ (typeText last ++ [.send]))
  | [], got, _ => by
    refine ready_text hlast _ _ ?_
    exact ⟨trivial, trivial⟩
  | s :: lines, got, h => by
    rw [List.flatMap_cons, List.append_assoc, List.append_assoc]
    refine ready_text (h s (by simp)) _ _ ⟨rfl, ?_⟩
    have := ready_lines hlast lines (got ++ s) fun s' h' => h s' (by simp [h'])
    simpa [Composer.step] using this

/-- C60: a message typed in several lines reaches the modem as one line: the ends of lines are lost. -/
theorem C60_message (env : TermEnv) (hd : 0 < env.depth) {t : Term} (hok : TermOk t.core) (ha : t.alive = true) (ht : t.typingSms = true)
    (hb : t.inputBuffer = []) (lines : List PyStr) (last : PyStr) (hl : ∀ s ∈ lines, ∀ c ∈ s, Types (.insert c)) (hlast : ∀ c ∈ last, Types (.insert c)) :
    composerOf (session env (typed (lines.flatMap (· ++ [10]) ++ last ++ [26])) t) =
      ⟨transmitted t ++ lines.flatten ++ last ++ [26], ⟨[], []⟩, false⟩ := by
  have hc : composerOf t = ⟨transmitted t, ⟨[], []⟩, true⟩ := by simp [composerOf, lineOf, hb, ht]
  have h1 := C60_compose env hd ((lines.flatMap fun s => typeText s ++ [.enter]) ++ (typeText last ++ [.send])) hok ha (by
    rw [hc]; exact ready_lines hlast lines _ hl)
  rw [hc, run_lines] at h1
  rw [← h1]
  congr 2
  simp only [typed, typeText, List.map_append, List.map_map, List.map_flatMap, List.append_assoc]
  rfl

/-- C60: ESC and Ctrl-Z do nothing when no message is typed. -/
theorem C60_idle (env : TermEnv) {t : Term} (ht : t.typingSms = false) : press env [27] t = (.ok (), t) ∧ press env [26] t = (.ok (), t) := by
  constructor
  · change (Except.ok (), t.esc) = _
    simp [esc, ht]
  · change (Except.ok (), t.ctrlZ) = _
    simp [ctrlZ, ht]

/-- C60: Enter on `AT+CMGS=...` sends it. If the modem answers in time, whatever it says is taken for the prompt, and a message is typed;
otherwise not. -/
theorem C60_start (env : TermEnv) (hd : 0 < env.depth) {t : Term} (ht : t.typingSms = false) (hk : kindOf t.categories (strip2 t.inputBuffer) = .sms) :
    let s := strip2 t.inputBuffer
    transmitted (press env [10] t).2 = transmitted t ++ s ++ [13] ∧
    (press env [10] t).2.inputBuffer = [] ∧ (press env [10] t).2.cursorPos = 0 ∧
    match env.reply ((s ++ [13]) :: t.sent) with
    | .timeout _ => (press env [10] t).1 = .ok () ∧ (press env [10] t).2.typingSms = false
    | .lines [] => (press env [10] t).1 = .error .indexError
    | .lines (p :: _) => (press env [10] t).1 = .ok () ∧ (press env [10] t).2.typingSms = true ∧ (press env [10] t).2.smsPrompt = p := by
  obtain ⟨n, hn⟩ : ∃ n, env.depth = n + 1 := ⟨env.depth - 1, by omega⟩
  have hb : t.inputBuffer ≠ [] := by
    intro hb
    rw [hb] at hk
    have : kindOf t.categories (strip2 []) = .nothing := by
      simp [kindOf, strip2, lower2]
    rw [this] at hk
    cases hk
  have hs : strip2 t.inputBuffer ≠ [] := by
    intro hs
    rw [hs] at hk
    have : kindOf t.categories [] = .nothing := by simp [kindOf, lower2]
    rw [this] at hk
    cases hk
  obtain ⟨h3, h4, _⟩ := accept_text hs
  have hcat : t.accept.2.categories = t.categories := by
    unfold accept; dsimp only; split <;> rfl
  have e : press env [10] t = startSms env (strip2 t.inputBuffer) t.accept.2 := by
    rw [enter_press, hn, confirm, if_neg (by simp [ht]), if_neg hb]
    dsimp only
    have hacc : t.accept.1 = strip2 t.inputBuffer := rfl
    rw [hacc, hcat, hk]
  have hb2 : t.accept.2.inputBuffer = [] ∧ t.accept.2.cursorPos = 0 := by unfold accept; dsimp only; split <;> exact ⟨rfl, rfl⟩
  dsimp only
  rw [e]
  generalize strip2 t.inputBuffer = s at *
  generalize t.accept.2 = t2 at *
  have hsent : (({ t2 with typingSms := true }.emit [.newline]).send (s ++ [13])).sent = (s ++ [13]) :: t.sent := by
    change (s ++ [13]) :: t2.sent = _
    rw [h3]
  have htr : ∀ x : Term, x.sent = (s ++ [13]) :: t.sent → transmitted x = transmitted t ++ s ++ [13] := by
    intro x hx; simp [transmitted, hx]
  unfold startSms
  dsimp only
  rw [hsent]
  cases hr : env.reply ((s ++ [13]) :: t.sent) with
  | timeout ls => 
    refine ⟨htr _ ?_, hb2.1, hb2.2, rfl, rfl⟩
    rfl
  | lines ls =>
    cases ls with
    | nil => 
      refine ⟨htr _ ?_, hb2.1, hb2.2, rfl⟩
      exact hsent
    | cons p ps => 
      refine ⟨htr _ ?_, hb2.1, hb2.2, rfl, rfl, rfl⟩
      rfl

/-- C60 violated in scripts: once a message is typed, the further lines of the script do not reach the modem. -/
theorem C60_script_lost (env : TermEnv) (n : Nat) : ∀ (lines : List PyStr) {t : Term}, t.typingSms = true → t.cursorPos = 0 →
    transmitted (script (confirm env (n + 1)) lines t).2 = transmitted t ∧ (script (confirm env (n + 1)) lines t).2.typingSms = true
  | [], _, ht, _ => ⟨rfl, ht⟩
  | line :: lines, t, ht, h0 => by
    unfold script
    dsimp only
    split
    · have e : confirm env (n + 1) ({ t with inputBuffer := strip2 line }.refresh (strip2 line).length) =
          (.ok (), ({ t with inputBuffer := strip2 line }.refresh (strip2 line).length).confirmSms) := by
        rw [confirm]
        exact if_pos ht
      rw [e]
      dsimp only
      have h1 : transmitted ({ t with inputBuffer := strip2 line }.refresh (strip2 line).length).confirmSms = transmitted t := by
        have : transmitted ({ t with inputBuffer := strip2 line }.refresh (strip2 line).length).confirmSms =
            transmitted (t.send ((strip2 line).take t.cursorPos)) := rfl
        rw [this, sent_send, h0]
        simp
      have := C60_script_lost env n lines (t := ({ t with inputBuffer := strip2 line }.refresh (strip2 line).length).confirmSms) ht rfl
      rw [h1] at this
      exact this
    · exact C60_script_lost env n lines ht h0

example : (session demoEnv (typed (py!"AT+CMGS=\"12\"" ++ [10] ++ py!"Hello" ++ [10] ++ py!"Bob" ++ [26])) demoTerm).sent.reverse =
    [py!"AT+CMGS=\"12\"\r", py!"Hello", py!"Bob", [26]] := by decide +kernel
example : kindOf [] py!"AT+CMGS=1" = .sms := by decide +kernel
/-- An error of the modem is taken for the prompt. -/
example : (session ⟨fun _ => .lines [py!"ERROR"], fun _ => none, 10⟩ (typed (py!"AT+CMGS=1" ++ [10] ++ py!"ATI" ++ [10])) demoTerm).sent.reverse =
    [py!"AT+CMGS=1\r", py!"ATI"] := by decide +kernel
example : transmitted (session ⟨demoEnv.reply, fun _ => some [py!"AT+CMGS=1", py!"Hello"], 10⟩ (typed (py!"load x" ++ [10, 26])) demoTerm) =
    py!"AT+CMGS=1\rHello" ++ [26] := by decide +kernel
example : transmitted (session ⟨demoEnv.reply, fun _ => some [py!"AT+CMGS=1", py!"Hello", py!"Bob"], 10⟩ (typed (py!"load x" ++ [10, 26])) demoTerm) =
    py!"AT+CMGS=1\rBob" ++ [26] := by decide +kernel

end Gsm
