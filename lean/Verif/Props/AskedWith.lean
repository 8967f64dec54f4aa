import Verif.Lemmas.AskedWith
import Verif.Props.Asked
import Verif.Props.Callbacks
/-! # C125: With callbacks that use the modem, nothing is sent that nobody asked for

C115 says which lines the methods may send when callbacks are only recorded. Here the callbacks run code, which
may use the modem, and cause callbacks in turn. -/
namespace Gsm
open M Spec

variable {env : Env}

theorem codeSends {kinds : List Purpose} {cb : UserCode} (h : ∀ c s, SentOnly kinds s.log (cb c env s).2.log) : CodeSends env kinds cb :=
  fun c => ⟨fun s => ⟨h c s, rfl⟩⟩

/-- A method sends lines of its kinds and of those of the callbacks, whatever the code of the callbacks is. -/
theorem C125_method [PyUnicode] {kinds : List Purpose} {cb : UserCode} (h : ∀ c s, SentOnly kinds s.log (cb c env s).2.log) (op : Op) (s : St) :
    SentOnly (opMay op ++ kinds) s.log (op.runWith cb env s).2.log :=
  ((aw_op op (fun _ hk => List.mem_append_left _ hk) fun c => sendsOnly_mono (fun _ hk => List.mem_append_right _ hk) (codeSends h c)).run s).1

theorem sent_trans {ks ks' ks'' : List Purpose} {a b c : List PyStr} (h : SentOnly ks a b) (h' : SentOnly ks' b c) (hs : ∀ k ∈ ks, k ∈ ks'') (hs' : ∀ k ∈ ks', k ∈ ks'') :
    SentOnly ks'' a c := by
  obtain ⟨x, rfl, hx⟩ := h
  obtain ⟨y, rfl, hy⟩ := h'
  refine ⟨y ++ x, by simp, fun l hl => ?_⟩
  rcases List.mem_append.1 hl with hl | hl
  · obtain ⟨k, hk, hk'⟩ := hy l hl; exact ⟨k, hs' k hk, hk'⟩
  · obtain ⟨k, hk, hk'⟩ := hx l hl; exact ⟨k, hs k hk, hk'⟩

/-- Any sequence of methods and events. -/
theorem C125_history [PyUnicode] {kinds : List Purpose} {cb : UserCode} (h : ∀ c s, SentOnly kinds s.log (cb c env s).2.log) : ∀ (ops : List Op) (s : St),
    SentOnly (ops.flatMap opMay ++ kinds) s.log (runOpsWith cb env ops s).log
  | [], s => ⟨[], rfl, by simp⟩
  | op :: ops, s => by
    refine sent_trans (C125_method h op s) (C125_history h ops _) ?_ ?_ <;> simp only [List.flatMap_cons, List.mem_append] <;> grind

/-- Code that uses the methods of the modem: the callbacks that these cause, to any depth, add nothing to it. -/
theorem C125_user [PyUnicode] {kinds : List Purpose} {user : Callback → St → UserProg} (h : ∀ c s, UsesOnly kinds (user c s)) (depth : Nat) (ops : List Op) (s : St) :
    SentOnly (ops.flatMap opMay ++ kinds) s.log (runOpsWith (userCode user depth) env ops s).log :=
  C125_history (fun c s => ((aw_userCode (env := env) h depth c).run s).1) ops s

/-- A line that neither the program nor the code of the callbacks may send is not sent. -/
theorem C125_not_sent [PyUnicode] {k : Purpose} {kinds : List Purpose} {user : Callback → St → UserProg} (h : ∀ c s, UsesOnly kinds (user c s)) (hk : k ∉ kinds)
    {ops : List Op} (ho : ∀ op ∈ ops, k ∉ opMay op) (depth : Nat) (s : St) :
    ∃ sent, (runOpsWith (userCode user depth) env ops s).log = sent ++ s.log ∧ ∀ c ∈ sent, ¬ k.Of c := by
  obtain ⟨sent, h1, h2⟩ := C125_user (env := env) h depth ops s
  refine ⟨sent, h1, fun c hc hc' => ?_⟩
  obtain ⟨k', hk', hk2⟩ := h2 c hc
  rw [← C115_kinds hc' hk2] at hk'
  rcases List.mem_append.1 hk' with hk' | hk'
  · obtain ⟨op, hop, hm⟩ := List.mem_flatMap.1 hk'
    exact ho op hop hm
  · exact hk hk'

/-- A program that only waits: what comes from outside makes it send what its callbacks may send, and the lines for fetching and removing messages,
for the kind of rings and for the state of calls. -/
theorem C125_events [PyUnicode] {kinds : List Purpose} {user : Callback → St → UserProg} (h : ∀ c s, UsesOnly kinds (user c s)) (depth : Nat) (es : List Event) (s : St) :
    SentOnly ([.ringType, .memory, .fetch, .erase, .ask] ++ kinds) s.log (runOpsWith (userCode user depth) env (es.map .event) s).log := by
  obtain ⟨sent, h1, h2⟩ := C125_user (env := env) h depth (es.map .event) s
  refine ⟨sent, h1, fun c hc => ?_⟩
  obtain ⟨k, hk, hk'⟩ := h2 c hc
  refine ⟨k, ?_, hk'⟩
  rcases List.mem_append.1 hk with hk | hk
  · obtain ⟨op, ho, hm⟩ := List.mem_flatMap.1 hk
    obtain ⟨e, -, rfl⟩ := List.mem_map.1 ho
    exact List.mem_append_left _ (event_kinds hm)
  · exact List.mem_append_right _ hk

/-- What a notification makes the program send by itself is sent before the code of the user is run. -/
theorem C125_before [PyUnicode] (lines : List PyStr) (s : St) : ∃ s1, SentOnly [.ringType, .memory, .fetch, .erase] s.log s1.log ∧
    ((∃ r, ∀ cb, handleNotificationWith cb lines env s = (r, s1)) ∨
      ∃ c after, (∀ cb, handleNotificationWith cb lines env s = after (cb c env s1)) ∧ (∀ e s2, after (.error e, s2) = (.error e, s2)) ∧ ((∀ i, c ≠ .callStatus i) → after = id)) := by
  have key : SentOnly [.ringType, .memory, .fetch, .erase] s.log (handleNotificationWith (fun _ => M.raise .callback) lines env s).2.log := by
    have := C125_method (env := env) (kinds := []) (cb := fun _ => M.raise .callback) (fun c s => ⟨[], rfl, by simp⟩) (.event (.notify lines)) s
    rw [List.append_nil] at this
    exact this
  cases C89_once (env := env) lines s with
  | never r hr =>
    rw [hr] at key
    exact ⟨r.2, key, .inl ⟨r.1, hr⟩⟩
  | once c s1 after h1 h2 h3 =>
    have e : handleNotificationWith (fun _ => M.raise .callback) lines env s = (.error .callback, s1) := by rw [h1]; exact h2 _ _
    rw [e] at key
    exact ⟨s1, key, .inr ⟨c, after, h1, h2, h3⟩⟩

/-- Code that does not use the modem. -/
theorem C125_quiet [PyUnicode] {bad : Callback → Bool} (ops : List Op) (s : St) : SentOnly (ops.flatMap opMay) s.log (runOpsWith (raisingOn bad) env ops s).log := by
  have := C125_history (env := env) (kinds := []) (cb := raisingOn bad) (fun c s => ⟨[], by unfold raisingOn; split <;> rfl, by simp⟩) ops s
  rwa [List.append_nil] at this

/-! ### Examples -/

/-- Every message is answered, and every call is hung up. -/
def answersMessages : Callback → St → UserProg
  | .smsReceived (.received _ (some number) _ _ _), _ => .act (.send number py!"SMS received" false) orRaise
  | .incomingCall i, _ => .act (.hangup i) orRaise
  | _, _ => .done

theorem orRaise_uses (kinds : List Purpose) (r : Except PyErr Unit) (s : St) : UsesOnly kinds (orRaise r s) := by
  cases r
  · exact .raise _
  · exact .done

theorem answersMessages_uses (c : Callback) (s : St) : UsesOnly [.post, .body, .hangUp] (answersMessages c s) := by
  unfold answersMessages
  split
  · exact .act (by simp [opMay]) (orRaise_uses _)
  · exact .act (by simp [opMay]) (orRaise_uses _)
  · exact .done

/-- Such a program dials no number, whatever comes. -/
example [PyUnicode] (es : List Event) (depth : Nat) (s : St) :
    ∃ sent, (runOpsWith (userCode answersMessages depth) env (es.map .event) s).log = sent ++ s.log ∧ ∀ c ∈ sent, ¬ Purpose.dial.Of c :=
  C125_not_sent answersMessages_uses (by decide) (fun op ho hk => by
    obtain ⟨e, -, rfl⟩ := List.mem_map.1 ho
    exact absurd (event_kinds hk) (by decide)) depth s

attribute [local instance] asciiUnicode

example : (runOpsWith (userCode answersMessages 3) (twoMessages hiPdu) [.event (.notify [py!"+CMTI: \"SM\",3"]), .event (.notify [py!"RING"])] {}).log.reverse =
    [py!"AT+CPMS=\"SM\"\r", py!"AT+CMGR=3\r", py!"AT+CMGD=3,0\r", py!"AT+CMGS=21\r", py!"002100069172214300000CD3E614242F8FCB697B990C" ++ [26], py!"ATH\r"] := by decide +kernel

end Gsm
