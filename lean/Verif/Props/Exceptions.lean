import Verif.Spec.Exceptions
import Verif.Model.Examples
import Verif.Model.Tools
/-! # Claim C84: the exception classes -/
namespace Gsm
open Exc Spec

/-- What an `except` clause for a class catches. -/
theorem C84_hierarchy (c d : Cls) : c.isSub d = true ↔ c ∈ caughtBy d := by
  cases c <;> cases d <;> decide

example : Cls.smscUnknown.isSub .command = true ∧ Cls.smscUnknown.isSub .cme = false := by decide

/-- The class, text and attributes of `CmeError(command, code)`. -/
theorem C84_cme (command : Val) (n : Int) :
    ∃ o, construct .cme [command, .int n] = .ok o ∧ CmeMeans n o.cls o.text ∧ ErrorSays o command py!"CME" n := by
  by_cases h11 : n = 11
  · subst h11; exact ⟨_, rfl, .pin, rfl, rfl, rfl⟩
  by_cases h16 : n = 16
  · subst h16; exact ⟨_, rfl, .password, rfl, rfl, rfl⟩
  by_cases h12 : n = 12
  · subst h12; exact ⟨_, rfl, .puk, rfl, rfl, rfl⟩
  have hs : special .cme [command, .int n] = none := by
    simp only [special]; rw [if_pos (by decide), if_neg (by simpa using h11), if_neg (by simpa using h16), if_neg (by simpa using h12)]
  refine ⟨{ cls := .cme, command := command, type := .str py!"CME", code := .int n, args := [.str (py!"CME" ++ py!" " ++ intStr n ++ [])] }, ?_, ?_, rfl, rfl, rfl⟩
  · unfold construct; rw [hs]; rfl
  · have := CmeMeans.other h11 h12 h16
    simpa [Obj.text, Val.format] using this

example : construct .cme [.str py!"AT+CPIN?", .int 11] =
    .ok { cls := .pinRequired, command := .str py!"AT+CPIN?", type := .str py!"CME", code := .int 11, args := [.str py!"CME 11 (SIM card PIN is required)"] } := by decide +kernel

/-- The class, text and attributes of `CmsError(command, code)`. -/
theorem C84_cms (command : Val) (n : Int) :
    ∃ o, construct .cms [command, .int n] = .ok o ∧ CmsMeans n o.cls o.text ∧ ErrorSays o command py!"CMS" n := by
  by_cases h : n = 330
  · subst h; exact ⟨_, rfl, .smsc, rfl, rfl, rfl⟩
  have hs : special .cms [command, .int n] = none := by
    simp only [special]; rw [if_neg (by decide), if_pos (by decide), if_neg (by simpa using h)]
  refine ⟨{ cls := .cms, command := command, type := .str py!"CMS", code := .int n, args := [.str (py!"CMS" ++ py!" " ++ intStr n ++ [])] }, ?_, ?_, rfl, rfl, rfl⟩
  · unfold construct; rw [hs]; rfl
  · have := CmsMeans.other h
    simpa [Obj.text, Val.format] using this

example : ∃ o, construct .cms [.str py!"AT+CMGR=3", .int 321] = .ok o ∧ o.cls = .cms ∧ o.text = py!"CMS 321" := ⟨_, rfl, rfl, by decide +kernel⟩

/-- The derived classes: whatever class is named, an error code that has a class of its own gives an object of that class,
and the object keeps command and code. -/
theorem C84_derived {c : Cls} (hc : c ∈ caughtBy .cme) (command : Val) (n : Int) :
    ∃ o text, construct c [command, .int n] = .ok o ∧ ErrorSays o command py!"CME" n ∧
      (CmeMeans n o.cls text ∧ o.cls ≠ .cme ∨ CmeMeans n .cme text ∧ o.cls = c) := by
  by_cases h11 : n = 11
  · subst h11; revert c; simp only [caughtBy, List.mem_cons, List.not_mem_nil, or_false]
    rintro c (rfl | rfl | rfl | rfl | rfl) <;> exact ⟨_, _, rfl, ⟨rfl, rfl, rfl⟩, Or.inl ⟨.pin, fun h => nomatch h⟩⟩
  by_cases h16 : n = 16
  · subst h16; revert c; simp only [caughtBy, List.mem_cons, List.not_mem_nil, or_false]
    rintro c (rfl | rfl | rfl | rfl | rfl) <;> exact ⟨_, _, rfl, ⟨rfl, rfl, rfl⟩, Or.inl ⟨.password, fun h => nomatch h⟩⟩
  by_cases h12 : n = 12
  · subst h12; revert c; simp only [caughtBy, List.mem_cons, List.not_mem_nil, or_false]
    rintro c (rfl | rfl | rfl | rfl | rfl) <;> exact ⟨_, _, rfl, ⟨rfl, rfl, rfl⟩, Or.inl ⟨.puk, fun h => nomatch h⟩⟩
  have hs : special c [command, .int n] = none := by
    simp only [special]; rw [if_pos ((C84_hierarchy c .cme).2 hc), if_neg (by simpa using h11), if_neg (by simpa using h16), if_neg (by simpa using h12)]
  revert c; simp only [caughtBy, List.mem_cons, List.not_mem_nil, or_false]
  rintro c (rfl | rfl | rfl | rfl | rfl) hs <;>
    exact ⟨_, _, by unfold construct; rw [hs]; rfl, ⟨rfl, rfl, rfl⟩, Or.inr ⟨.other h11 h12 h16, rfl⟩⟩

example : ∃ o, construct .security [.str py!"AT", .int 30] = .ok o ∧ o.cls = .security ∧ o.text = py!"CME 30" := ⟨_, rfl, rfl, by decide +kernel⟩

/-- Asking for one class can give another one that is not derived from it. -/
theorem C84_other_class (command : Val) :
    ∃ o, construct .pinRequired [command, .int 16] = .ok o ∧ o.cls = .incorrectPin ∧ o.cls.isSub .pinRequired = false := ⟨_, rfl, rfl, rfl⟩

/-- With the code as a keyword argument, no class is chosen: the property fails for `CmeError(command, code=11)`. -/
theorem C84_keyword (command : Val) (n : Int) :
    ∃ o, construct .cme [command] [(.code, .int n)] = .ok o ∧ o.cls = .cme ∧ ErrorSays o command py!"CME" n := ⟨_, rfl, rfl, rfl, rfl, rfl⟩

theorem C84_keyword_pin (command : Val) :
    ¬ ∃ o, construct .cme [command] [(.code, .int 11)] = .ok o ∧ CmeMeans 11 o.cls o.text := by
  rintro ⟨o, h, hm⟩
  cases h; cases hm; contradiction

/-- A class with one argument: the specific classes know their code, the others need it. -/
theorem C84_one_argument (c : Cls) (hc : c ∈ caughtBy .command) (command : Val) (h : c ≠ .command) :
    (∃ o, construct c [command] = .ok o ∧ o.cls = c ∧ ((∃ n, CmeMeans n c o.text ∧ ErrorSays o command py!"CME" n) ∨ ∃ n, CmsMeans n c o.text ∧ ErrorSays o command py!"CMS" n)) ↔
      c ∈ [Cls.pinRequired, .incorrectPin, .pukRequired, .smscUnknown] := by
  revert c; simp only [caughtBy, List.mem_cons, List.not_mem_nil, or_false]
  rintro c (rfl | rfl | rfl | rfl | rfl | rfl | rfl | rfl) h
  · contradiction
  · constructor
    · rintro ⟨o, h, _⟩; cases h
    · intro h; simp at h
  · constructor
    · rintro ⟨o, h, _⟩; cases h
    · intro h; simp at h
  · exact ⟨fun _ => by simp, fun _ => ⟨_, rfl, rfl, Or.inl ⟨_, .pin, rfl, rfl, rfl⟩⟩⟩
  · exact ⟨fun _ => by simp, fun _ => ⟨_, rfl, rfl, Or.inl ⟨_, .password, rfl, rfl, rfl⟩⟩⟩
  · exact ⟨fun _ => by simp, fun _ => ⟨_, rfl, rfl, Or.inl ⟨_, .puk, rfl, rfl, rfl⟩⟩⟩
  · constructor
    · rintro ⟨o, h, _⟩; cases h
    · intro h; simp at h
  · exact ⟨fun _ => by simp, fun _ => ⟨_, rfl, rfl, Or.inr ⟨_, .smsc, rfl, rfl, rfl⟩⟩⟩

/-- Copying (or pickling) what the library raises: an error with a class of its own is copied, any other one cannot be
copied, because its class needs two arguments and remembers one. -/
theorem C84_copy {command : Val} {n : Int} {o : Obj} (h : construct .cme [command, .int n] = .ok o ∨ construct .cms [command, .int n] = .ok o) :
    o.copy = if o.cls = .cme ∨ o.cls = .cms then .error .typeError else .ok o := by
  rcases h with h | h
  · obtain ⟨o', h1, hm, hs⟩ := C84_cme command n
    have : o' = o := by rw [h1] at h; exact Except.ok.inj h
    subst this
    clear h
    by_cases h11 : n = 11
    · subst h11; cases h1; rfl
    by_cases h16 : n = 16
    · subst h16; cases h1; rfl
    by_cases h12 : n = 12
    · subst h12; cases h1; rfl
    have hs : special .cme [command, .int n] = none := by
      simp only [special]; rw [if_pos (by decide), if_neg (by simpa using h11), if_neg (by simpa using h16), if_neg (by simpa using h12)]
    unfold construct at h1; rw [hs] at h1; cases h1; rfl
  · by_cases h330 : n = 330
    · subst h330; cases h; rfl
    have hs : special .cms [command, .int n] = none := by
      simp only [special]; rw [if_neg (by decide), if_pos (by decide), if_neg (by simpa using h330)]
    unfold construct at h; rw [hs] at h; cases h; rfl

example : (construct .cme [.str py!"AT", .int 30]).bind Obj.copy = .error .typeError := by decide +kernel
example : (construct .cme [.str py!"AT", .int 11]).bind Obj.copy = construct .cme [.str py!"AT", .int 11] := by decide +kernel

/-- A copy of a specific error with another code has the text of its usual code. -/
theorem C84_copy_text : ((construct .pinRequired [.str py!"AT", .int 17]).map fun o => (o.code, o.text)) = .ok (.int 17, py!"CME 17 (SIM card PIN is required)") ∧
    ((construct .pinRequired [.str py!"AT", .int 17]).bind Obj.copy).map (fun o => (o.code, o.text)) = .ok (.int 17, py!"CME 11 (SIM card PIN is required)") := by decide +kernel

/-- A plain `CommandError` shows its command, or the kind and the code, and can be copied. -/
theorem C84_command (command type code : Val) :
    ∃ o, construct .command [command, type, code] = .ok o ∧ o.cls = .command ∧ o.command = command ∧ o.type = type ∧ o.code = code ∧ o.copy = .ok o ∧
      o.text = if type ≠ .none ∧ code ≠ .none then type.format ++ py!" " ++ code.format else if command ≠ .none then command.format else [] := by
  refine ⟨_, rfl, rfl, rfl, rfl, rfl, ?_, ?_⟩
  · by_cases h : type ≠ .none ∧ code ≠ .none
    · simp only [commandInit, if_pos h]; rfl
    · by_cases h2 : command = .none
      · subst h2; simp only [commandInit, if_neg h]; rfl
      · simp only [commandInit, if_neg h, if_pos h2]
        simp [Obj.copy, construct, special, plain, initObj, bindArgs, Cls.params, commandInit, h2, bind, Except.bind, pure, Except.pure]
  · by_cases h : type ≠ .none ∧ code ≠ .none
    · simp only [commandInit, if_pos h]; show (type.format ++ py!" " ++ code.format ++ []) = _; rw [List.append_nil]
    · by_cases h2 : command = .none
      · subst h2; simp only [commandInit, if_neg h]; rfl
      · simp only [commandInit, if_neg h, if_pos h2]; rfl

/-! ### The model of the library -/

/-- The errors raised by `write` are the objects that the classes make. -/
theorem C84_write (data : PyStr) (n : Nat) :
    (construct .cme [.str data, .int n]).toOption.map (fun o => (some o.cls, o.code)) = some (clsOf (cmeError n), .int n) ∧
    (construct .cms [.str data, .int n]).toOption.map (fun o => (some o.cls, o.code)) = some (clsOf (cmsError n), .int n) := by
  constructor
  · obtain ⟨o, h, hm, hs⟩ := C84_cme (.str data) n
    rw [h]
    show some (some o.cls, o.code) = _
    rw [hs.code]
    have : some o.cls = clsOf (cmeError n) := by
      revert hm; generalize o.cls = c; generalize o.text = t
      intro hm
      unfold cmeError
      by_cases h11 : n = 11
      · subst h11; cases hm <;> first | rfl | contradiction
      by_cases h16 : n = 16
      · subst h16; cases hm <;> first | rfl | contradiction
      by_cases h12 : n = 12
      · subst h12; cases hm <;> first | rfl | contradiction
      rw [if_neg h11, if_neg h16, if_neg h12]
      generalize hz : (n : Int) = z at hm
      cases hm with
      | pin => omega
      | puk => omega
      | password => omega
      | other => rfl
    rw [this]
  · obtain ⟨o, h, hm, hs⟩ := C84_cms (.str data) n
    rw [h]
    show some (some o.cls, o.code) = _
    rw [hs.code]
    have : some o.cls = clsOf (cmsError n) := by
      revert hm; generalize o.cls = c; generalize o.text = t
      intro hm
      unfold cmsError
      generalize hz : (n : Int) = z at hm
      cases hm with
      | smsc => rw [if_pos (by omega)]; rfl
      | other h => rw [if_neg (by omega)]; rfl
    rw [this]

/-- The handlers of the library and of the example programs catch what their classes say. -/
theorem C84_handlers (e : PyErr) :
    (isCommandError e = handles .command e) ∧ (isCmeError e = handles .cme e) ∧ (isInterrupted e = handles .interrupted e) ∧
    (isPlaybackError e = (handles .interrupted e || handles .command e)) ∧ ((pinComplaint e).isSome = (handles .pinRequired e || handles .incorrectPin e)) := by
  cases e with
  | command c n => cases c <;> exact ⟨rfl, rfl, rfl, rfl, rfl⟩
  | _ => exact ⟨rfl, rfl, rfl, rfl, rfl⟩

example : handles .command (.command .smscUnknown (some 330)) = true ∧ handles .cme (.command .smscUnknown (some 330)) = false := by decide

/-- `except InvalidStateException` around `sendDtmfTone` also catches that the call was ended meanwhile. -/
theorem C84_interrupted (code : Nat) : handles .invalidState (.interrupted code) = true := rfl

end Gsm
