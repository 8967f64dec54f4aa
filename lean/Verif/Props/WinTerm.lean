import Verif.Lemmas.WinTerm
/-! # Property C124: the terminal on Windows -/
namespace Gsm
open Spec Term

/-- C124. Keys are told from each other, in every order: each gives one string, F1 to F10 nothing. -/
theorem C124_strokes : ∀ ks : List Stroke, (∀ k ∈ ks, k.Proper) → winKeys (ks.flatMap Stroke.bytes) = ks.filterMap Stroke.console
  | [], _ => rfl
  | k :: ks, h => by
    have ih := C124_strokes ks (fun x hx => h x (by simp [hx]))
    have hk := h k (by simp)
    cases k with
    | char c => rw [List.flatMap_cons, show Stroke.bytes (.char c) = [c] from rfl, List.singleton_append, winKeys_char hk.1 hk.2, ih]; rfl
    | special code => rw [List.flatMap_cons, show Stroke.bytes (.special code) ++ ks.flatMap Stroke.bytes = 0xe0 :: code :: ks.flatMap Stroke.bytes from rfl, winKeys, if_pos rfl, ih]; rfl
    | function code => rw [List.flatMap_cons, show Stroke.bytes (.function code) ++ ks.flatMap Stroke.bytes = 0 :: code :: ks.flatMap Stroke.bytes from rfl, winKeys, if_neg (by decide), if_pos rfl, ih]; rfl

/-- C124. A session on Windows does what it does on a POSIX system: the same line, cursor, history and characters sent to the modem, for all keys; the keys
that the terminal does not know on Windows (Home, End, Delete) do nothing. -/
theorem C124_same (env : TermEnv) (t : Term) (ks : List Stroke) (h : ∀ k ∈ ks, k.Proper) :
    winSession env (ks.flatMap Stroke.bytes) t = session env ((ks.filterMap Stroke.posix).map .key) t := by
  unfold winSession session
  rw [C124_strokes ks h]
  clear h
  induction ks generalizing t with
  | nil => rfl
  | cons k ks ih =>
    cases hc : k.console with
    | none =>
      have : k.posix = none := by cases k <;> first | rfl | cases hc
      rw [List.filterMap_cons_none hc, List.filterMap_cons_none this, ih]
    | some c =>
      rw [List.filterMap_cons_some hc, List.foldl_cons, win_stroke env t k c hc]
      cases hp : k.posix with
      | none => rw [List.filterMap_cons_none hp]; exact ih t
      | some p => rw [List.filterMap_cons_some hp, List.map_cons, List.foldl_cons]; exact ih _

/-- The entry for `DELETE`, `HOME` and `END` is never used: no key gives the empty string. -/
theorem C124_empty : ∀ bytes : List Nat, [] ∉ winKeys bytes
  | [] => by simp [winKeys]
  | [z] => by unfold winKeys; split <;> simp
  | z :: b :: rest => by
    have h1 := C124_empty rest
    have h2 := C124_empty (b :: rest)
    rw [winKeys]
    split
    · simp [h1]
    · split
      · exact h1
      · simp [h2]

/-- Backspace, which gives the character 8 on Windows, Home, End and Delete are ignored, whatever the terminal does. -/
theorem C124_dead (env : TermEnv) (t : Term) {k : Stroke} (hk : k = .char 8 ∨ k = .special 0x47 ∨ k = .special 0x4f ∨ k = .special 0x53) :
    winSession env k.bytes t = t := by
  have := C124_same env t [k] (by rcases hk with rfl | rfl | rfl | rfl <;> simp [Stroke.Proper])
  rw [List.flatMap_cons, List.flatMap_nil, List.append_nil] at this
  rw [this]
  rcases hk with rfl | rfl | rfl | rfl
  · show (if t.alive then t else t) = t
    split <;> rfl
  · rfl
  · rfl
  · rfl

/-- So a mistake cannot be corrected with the key for it. -/
theorem C124_backspace_violated : ¬ ∀ (env : TermEnv) (t : Term), 0 < t.cursorPos → (winSession env (Stroke.char 8).bytes t).inputBuffer.length < t.inputBuffer.length := by
  intro h
  have := h demoEnv (session demoEnv (typed py!"ATX") demoTerm) (by decide +kernel)
  rw [C124_dead demoEnv _ (.inl rfl)] at this
  exact Nat.lt_irrefl _ this

/-- A letter whose code is 0xE0 (`à` in the usual code page) swallows the key that is pressed next: with Enter nothing is sent, and with `K` it is the arrow
to the left. -/
theorem C124_letter (env : TermEnv) (t : Term) (b : Nat) (rest : List Nat) :
    winSession env (0xe0 :: b :: rest) t = winSession env ((Stroke.special b).bytes ++ rest) t ∧ winSession env [0xe0, 13] t = t := by
  refine ⟨rfl, ?_⟩
  have := C124_same env t [.special 13] (by simp [Stroke.Proper])
  exact this

/-- Without moves of the cursor the screen is as on a POSIX system. -/
theorem C124_still {t : Term} (h : Still t.out) : winScreen t = screenOf t.out := by
  unfold winScreen
  generalize t.out = out at h
  induction out with
  | nil => rfl
  | cons o out ih =>
    have ho : Still out := fun x hx => h x (by simp [hx])
    have hc := still_col ho
    have ih := ih ho
    obtain ⟨h1, h2⟩ := h o (by simp)
    rw [List.map_cons, show screenOf (winOut o :: out.map winOut) = (screenOf (out.map winOut)).put (winOut o) from rfl, ih,
      show screenOf (o :: out) = (screenOf out).put o from rfl]
    cases o with
    | right => exact absurd rfl h1
    | left n =>
      cases h2 n rfl
      generalize screenOf out = x at hc
      obtain ⟨row, col⟩ := x
      simp only at hc
      simp [winOut, Screen.put, Nat.sub_eq_zero_of_le hc]
    | _ => rfl

/-- C124. While only characters are typed, with Enter, the tabulator, CTRL+Z and ESC (and no scripts are loaded), the screen of Windows is the one of POSIX
systems. -/
theorem C124_typing {env : TermEnv} (hf : ∀ f, env.files f = none) {t : Term} (h : CursorAtEnd t) {typed : List Nat} (ht : ∀ c ∈ typed, c ≠ 0 ∧ c ≠ 0xe0 ∧ c ≠ 127) :
    winScreen (winSession env typed t) = screenOf (winSession env typed t).out := by
  have hs := C124_same env t (typed.map .char) (by
    intro k hk
    obtain ⟨c, hc, rfl⟩ := List.mem_map.1 hk
    exact ⟨(ht c hc).1, (ht c hc).2.1⟩)
  rw [show (typed.map Stroke.char).flatMap Stroke.bytes = typed from typed_bytes typed] at hs
  rw [hs]
  apply C124_still
  have key : ∀ (cs : List PyStr) (t : Term), (∀ c ∈ cs, Forward c) → CursorAtEnd t → CursorAtEnd (session env (cs.map .key) t) := by
    intro cs
    induction cs with
    | nil => intro t _ h; exact h
    | cons c cs ih =>
      intro t hc h
      refine ih (happen env t (.key c)) (fun x hx => hc x (by simp [hx])) ?_
      have := atEnd_press hf h (hc c (by simp))
      unfold happen
      dsimp only
      split
      · split
        · next he => rw [he] at this; exact this
        · next he => rw [he] at this; exact this
      · exact h
  refine (key _ t ?_ h).2
  intro c hc
  obtain ⟨k, hk, hk'⟩ := List.mem_filterMap.1 hc
  obtain ⟨x, hx, rfl⟩ := List.mem_map.1 hk
  simp only [Stroke.posix, Option.some.injEq] at hk'
  refine ⟨_, hk'.symm, ?_⟩
  have := ht x hx
  split <;> omega

/-- The terminal starts so. -/
theorem C124_start (completion : Trie (Option CmdHelp)) (categories : List PyStr) : CursorAtEnd (start completion categories) :=
  atEnd_fresh (t := ({ completion, categories : Term }).emit [.page]) (still_emit (by intro o ho; cases ho) still_page) rfl (Nat.zero_le _)

/-- An arrow to the left that moves the cursor spoils the screen of Windows, whatever it shows: if it was right before, it is wrong afterwards. -/
theorem C124_arrow {env : TermEnv} {t : Term} (ha : t.alive = true) (hc : 0 < t.cursorPos) (hl : t.cursorPos ≤ t.inputBuffer.length)
    (h : Displays (winScreen t) t.termPrompt (lineOf t)) :
    ¬ Displays (winScreen (winSession env (Stroke.special 0x4b).bytes t)) t.termPrompt (lineOf (winSession env (Stroke.special 0x4b).bytes t)) := by
  have hs : winSession env (Stroke.special 0x4b).bytes t = t.cursorLeft := by
    show (if t.alive then t.cursorLeft else t) = t.cursorLeft
    rw [if_pos ha]
  rw [hs]
  intro h'
  have h1 := h.2
  have h2 := h'.2
  have hcl : t.cursorLeft = { t with cursorPos := t.cursorPos - 1 }.emit [.left 1] := by unfold cursorLeft; rw [if_pos hc]
  rw [hcl] at h2
  have hw : winScreen (({ t with cursorPos := t.cursorPos - 1 } : Term).emit [.left 1]) = (winScreen t).put (.text [0xe0, 0x4b]) := rfl
  rw [hw] at h2
  simp only [Screen.put, lineOf, emit, List.length_take, List.length_cons, List.length_nil] at h1 h2
  omega

/-! ### Cases -/

example : winKeys [65, 84, 0, 59, 0xe0, 0x4b, 13] = [[65], [84], [0xe0, 0x4b], [10]] := by decide
example : (winSession demoEnv (py!"ATI" ++ [13]) demoTerm).sent = [py!"\r", py!"ATI"] := by decide +kernel
example : lineOf (winSession demoEnv (py!"AX" ++ [0xe0, 0x4b] ++ py!"T") demoTerm) = ⟨py!"AT", py!"X"⟩ := by decide +kernel
/-- What is seen then. -/
example : winScreen (winSession demoEnv (py!"AX" ++ [0xe0, 0x4b]) demoTerm) = ⟨py!"GSM> AX" ++ [0xe0, 0x4b], 9⟩ := by decide +kernel
example : (winSession demoEnv (py!"ATX" ++ [8] ++ py!"I" ++ [13]) demoTerm).sent = [py!"\r", py!"ATXI"] := by decide +kernel

end Gsm
