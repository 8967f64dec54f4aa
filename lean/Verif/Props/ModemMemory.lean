import Verif.Props.ModemMode
/-! # Property C36: selection of the SMS memory -/
namespace Gsm
open M Spec

variable {env : Env}

/-- The remembered memory is the last one accepted. (`connect` remembers the name with its quotes, which is
never the name a caller gives.) -/
def MemOk (env : Env) (s : St) : Prop :=
  ∀ m, s.smsMemReadDelete = some m → 34 ∉ m → LastAccepted env.reply SelectsMemory s.log (memoryCmd m)

theorem memoryCmd_eq (m : PyStr) : cpmsCmd m ++ [13] = memoryCmd m := by simp [cpmsCmd, memoryCmd]

theorem selects_memoryCmd (m : PyStr) : SelectsMemory (memoryCmd m) := by
  refine ⟨⟨py!"\"" ++ m ++ py!"\"\r", by simp [memoryCmd]⟩, ⟨py!"AT+CPMS=\"" ++ m ++ py!"\"", by simp [memoryCmd]⟩, ?_⟩
  intro h
  simp [memoryCmd] at h

abbrev MemFrame : St → St → Prop := Frame (fun c => ¬ SelectsMemory c) (·.smsMemReadDelete)

theorem memOk_frame {a b : St} (h : MemFrame a b) (ha : MemOk env a) : MemOk env b := by
  obtain ⟨⟨new, h1, h2⟩, h3⟩ := h
  intro m hm hq
  rw [h1]
  exact last_append (ha m (h3.symm.trans hm) hq) h2

theorem memFrame_of_plain {a b : St} (h : PlainFrame a b) : MemFrame a b := by
  obtain ⟨⟨new, h1, h2⟩, h3⟩ := h
  exact ⟨⟨new, h1, fun c hc => (h2 c hc).2⟩, congrArg (fun p => p.2.2) h3⟩

theorem not_memory_mode (v : Bool) : ¬ SelectsMemory (py!"AT+CMGF=" ++ (if v then py!"1" else py!"0") ++ [13]) := by
  rintro ⟨⟨t, h⟩, _⟩
  simp at h

theorem mf_setMode (v : Bool) : Steps env MemFrame (setSmsTextMode v) := by
  have h : Steps env MemFrame (write (py!"AT+CMGF=" ++ (if v then py!"1" else py!"0"))) :=
    frame_write (not_memory_mode v) fun _ _ _ => rfl
  unfold setSmsTextMode
  steps frame_pre <;> exact frame_same rfl rfl

/-- How `_setSmsMemory` runs. -/
theorem setSmsMemory_run (m : PyStr) (s : St) : setSmsMemory (some m) none env s =
    if some m ≠ s.smsMemReadDelete then
      (match write (cpmsCmd m) true [13] env s with
      | (.ok _, s1) => (.ok (), { s1 with smsMemReadDelete := some m })
      | (.error e, s1) => (.error e, s1))
    else (.ok (), s) := by
  simp only [setSmsMemory, run_bind, run_get, run_ite, run_modify, run_pure, ne_eq, not_true_eq_false, false_and, if_false]
  split
  · split <;> simp_all
  · rfl

theorem memOk_set (m : Option PyStr) {s : St} (hs : MemOk env s) : MemOk env (setSmsMemory m none env s).2 := by
  cases m with
  | none => simpa [setSmsMemory, run_bind, run_get, run_pure, run_ite] using hs
  | some m =>
    rw [setSmsMemory_run]
    split
    · split
      · next ls s1 he =>
        intro m' hm' _
        simp only [Option.some.injEq] at hm'
        subst hm'
        have := write_ok_last (P := SelectsMemory) he (by rw [memoryCmd_eq]; exact selects_memoryCmd m)
        rwa [memoryCmd_eq] at this
      · next e s1 he =>
        intro m' hm' hq
        obtain ⟨k, w, h, _⟩ := write_outcome (data := cpmsCmd m) (term := [13]) (env := env) s
        rw [he] at h
        have h' : s1.smsMemReadDelete = s.smsMemReadDelete := by dsimp only at h; rw [h]
        exact write_error_last he (hs m' (h'.symm.trans hm') hq)
    · exact hs

theorem memOk_atom (a b : St) (h : Atom env a b) (ha : MemOk env a) : MemOk env b := by
  rcases atom_cases h with h | ⟨v, rfl⟩ | ⟨m, rfl⟩
  · exact memOk_frame (memFrame_of_plain h) ha
  · exact memOk_frame ((mf_setMode v).run a) ha
  · exact memOk_set m ha

/-- During `connect`, a remembered memory has quotes. -/
def MemQuoted (s : St) : Prop := ∀ m, s.smsMemReadDelete = some m → 34 ∈ m

theorem quoted_pre : IsPre fun a b => MemQuoted a → MemQuoted b := ⟨fun _ h => h, fun h1 h2 h => h2 (h1 h)⟩

theorem quoted_of_plain {α : Type} {m : M α} (h : Steps env PlainFrame m) : Steps env (fun a b => MemQuoted a → MemQuoted b) m :=
  h.mono fun _ _ h hs m hm => hs m ((congrArg (fun p => p.2.2) h.2).symm.trans hm)

theorem quoted_write {data term : PyStr} {pe : Bool} : Steps env (fun a b => MemQuoted a → MemQuoted b) (write data pe term) :=
  Steps.write fun _ _ _ hs => hs

theorem quoted_preferred {i m : PyStr} (h : preferredMemory i = some m) : 34 ∈ m := by
  unfold preferredMemory at h
  repeat' split at h
  all_goals cases h
  all_goals decide

theorem quoted_connectMemory : Steps env (fun a b => MemQuoted a → MemQuoted b) connectMemory := by
  unfold connectMemory
  steps quoted_pre
  · exact quoted_write
  · rename_i hm _ _ _ h
    obtain ⟨i, _, hi⟩ := Option.bind_eq_some_iff.1 hm
    simp only [Option.some.injEq] at h
    exact h ▸ quoted_preferred hi
  · exact quoted_write
  · exact quoted_write

theorem quoted_connect (pin : Option PyStr) : Steps env (fun a b => MemQuoted a → MemQuoted b) (connect pin) := by
  have h1 := quoted_of_plain (pf_basics (env := env) pin)
  have h2 := quoted_of_plain (pf_identify (env := env))
  have h3 := fun h cs => quoted_of_plain (pf_callTable (env := env) h cs)
  have h4 := quoted_of_plain (pf_notifications (env := env))
  have h5 := quoted_connectMemory (env := env)
  have h6 : Steps env (fun a b => MemQuoted a → MemQuoted b) connectSms := by
    have hg := quoted_of_plain (pf_getSmsc (env := env))
    have hset := fun n => quoted_of_plain (pf_setSmsc (env := env) n)
    unfold connectSms
    steps quoted_pre <;> first | exact quoted_write | exact hset _
  unfold connect
  steps quoted_pre
  exact h3 _ _

theorem memOk_connect (pin : Option PyStr) {s : St} (hs : s.smsMemReadDelete = none) : MemOk env (connect pin env s).2 :=
  fun m hm hq => absurd ((quoted_connect pin).run s (fun m h => by rw [hs] at h; cases h) m hm) hq

/-! ### Commands that use the memory -/

/-- Everything written from now on that reads, lists or deletes, is written with `x` selected. -/
def Selected (env : Env) (x : PyStr) (a b : St) : Prop :=
  LastAccepted env.reply SelectsMemory a.log x →
    LastAccepted env.reply SelectsMemory b.log x ∧
    UsedOnlyWith env.reply x a.log b.log

theorem selected_pre (x : PyStr) : IsPre (Selected env x) where
  refl := fun _ h => ⟨h, [], rfl, by simp⟩
  trans := by
    intro a b c h1 h2 h
    obtain ⟨h3, n1, h4, h5⟩ := h1 h
    obtain ⟨h6, n2, h7, h8⟩ := h2 h3
    refine ⟨h6, n2 ++ n1, by rw [h7, h4, List.append_assoc], ?_⟩
    intro l1 d l2 hd hu
    rcases List.append_eq_append_iff.1 hd with ⟨m, rfl, hm⟩ | ⟨m, rfl, hm⟩
    · exact h5 m d l2 hm hu
    · cases m with
      | nil => exact h5 [] d l2 (by simpa using hm.symm) hu
      | cons y m =>
        simp only [List.cons_append, List.cons.injEq] at hm
        obtain ⟨rfl, rfl⟩ := hm
        have := h8 l1 d m rfl hu
        rwa [h4, ← List.append_assoc] at this

theorem selected_plain {x : PyStr} {a b : St} (h : PlainFrame a b) : Selected env x a b := by
  obtain ⟨⟨new, h1, h2⟩, _⟩ := h
  intro hl
  refine ⟨h1 ▸ last_append hl fun c hc => (h2 c hc).2, new, h1, ?_⟩
  rintro l1 c l2 rfl _
  exact last_append hl fun c hc => (h2 c (by simp [hc])).2

theorem selected_write {x data term : PyStr} {pe : Bool} (h : PlainCmd (data ++ term)) : Steps env (Selected env x) (write data pe term) :=
  (pf_write h).mono fun _ _ => selected_plain

theorem plain_cmgr (i : PyStr) : PlainCmd (cmgrCmd i ++ [13]) := by simpa [cmgrCmd] using plain_prefix py!"AT+CMGR" _
theorem plain_cmgd (i : PyStr) : PlainCmd (cmgdCmd i ++ [13]) := by simpa [cmgdCmd] using plain_prefix py!"AT+CMGD" _

theorem selected_memory_none (x : PyStr) : Steps env (Selected env x) (setSmsMemory none) :=
  ⟨fun s => by simpa [setSmsMemory, run_bind, run_get, run_pure, run_ite] using (selected_pre x).refl s⟩

theorem selected_delete (x i : PyStr) : Steps env (Selected env x) (deleteStoredSms i none) := by
  have h1 := selected_memory_none (env := env) x
  have h2 := selected_write (env := env) (x := x) (pe := true) (plain_cmgd i)
  unfold deleteStoredSms
  steps selected_pre x

theorem selected_deleteAll (x : PyStr) : ∀ is : List Int, Steps env (Selected env x) (deleteAll is)
  | [] => by unfold deleteAll; steps selected_pre x
  | i :: is => by
    have h1 := selected_deleteAll x is
    have h2 := selected_delete (env := env) x (intStr i)
    unfold deleteAll; steps selected_pre x

theorem selected_deleteMultiple (x : PyStr) (f : Int) : Steps env (Selected env x) (deleteMultipleStoredSms f none) := by
  have h1 := selected_memory_none (env := env) x
  have h2 : Steps env (Selected env x) (write (py!"AT+CMGD=1," ++ intStr f)) :=
    selected_write (by simpa using plain_prefix py!"AT+CMGD" _)
  unfold deleteMultipleStoredSms
  steps selected_pre x

/-- First the memory is selected, and if this succeeds the rest is run. -/
theorem used_after {α : Type} {m : PyStr} {rest : Unit → M α} {s : St} (hs : MemOk env s) (hq : 34 ∉ m)
    (hr : Steps env (Selected env (memoryCmd m)) (rest ())) :
    UsedOnlyWith env.reply (memoryCmd m) s.log ((setSmsMemory (some m) none >>= rest) env s).2.log := by
  have hok := memOk_set (some m) hs
  have hfr : ∃ k w v, (setSmsMemory (some m) none env s).2 = { s with log := List.replicate k (memoryCmd m) ++ s.log, writeWait := w, smsMemReadDelete := v } ∧
      ((setSmsMemory (some m) none env s).1 = .ok () → v = some m) := by
    rw [setSmsMemory_run]
    obtain ⟨k, w, h, _⟩ := write_outcome (data := cpmsCmd m) (term := [13]) (env := env) s
    rw [memoryCmd_eq] at h
    split
    · split
      · next he => rw [he] at h; dsimp only at h; subst h; exact ⟨k, w, _, rfl, fun _ => rfl⟩
      · next he => rw [he] at h; dsimp only at h; subst h; exact ⟨k, w, _, rfl, fun h => by cases h⟩
    · next h => exact ⟨0, s.writeWait, _, rfl, fun _ => (Classical.not_not.1 h).symm⟩
  obtain ⟨k, w, v, h1, h2⟩ := hfr
  have hcmd : ∀ c ∈ List.replicate k (memoryCmd m), ¬ UsesMemory c := by
    intro c hc hu
    rw [List.eq_of_mem_replicate hc] at hu
    rcases hu with ⟨t, h⟩ | ⟨t, h⟩ | ⟨t, h⟩ <;> simp [memoryCmd] at h
  have hfirst : UsedOnlyWith env.reply (memoryCmd m) s.log (setSmsMemory (some m) none env s).2.log := by
    rw [h1]
    refine ⟨_, rfl, ?_⟩
    intro l1 c l2 hl hu
    exact absurd hu (hcmd c (by rw [hl]; simp))
  rw [run_bind]
  split
  · next u s1 he =>
    rw [he] at h1 h2 hok hfirst
    dsimp only at h1
    obtain ⟨_, n2, h7, h8⟩ := hr.run s1 (hok m (by rw [h1]; exact h2 rfl) hq)
    refine ⟨n2 ++ List.replicate k (memoryCmd m), by rw [h7, h1, List.append_assoc], ?_⟩
    intro l1 d l2 hd hu
    rcases List.append_eq_append_iff.1 hd with ⟨x, rfl, hm⟩ | ⟨x, rfl, hm⟩
    · exact absurd hu (hcmd d (by rw [hm]; simp))
    · cases x with
      | nil => exact absurd hu (hcmd d (by simp only [List.nil_append] at hm; rw [← hm]; simp))
      | cons y x =>
        simp only [List.cons_append, List.cons.injEq] at hm
        obtain ⟨rfl, rfl⟩ := hm
        have := h8 l1 d x rfl hu
        rwa [h1, ← List.append_assoc] at this
  · next e s1 he => rw [he] at hfirst; exact hfirst

/-- The memory that an operation names. -/
def Op.memory : Op → Option PyStr
  | .read _ m => m
  | .delete _ m => m
  | .deleteMultiple _ m => m
  | .list _ m _ => m
  | _ => none

/-- After any history that starts with `connect`, successful or not: an operation that names the memory `m`
writes its read, list and delete commands only while `m` is the last selection the modem accepted. -/
theorem C36_memory_selected [PyUnicode] (pin : Option PyStr) {s : St} (hs : s.smsMemReadDelete = none) (ops : List Op) (op : Op)
    {m : PyStr} (hm : op.memory = some m) (hq : 34 ∉ m) :
    UsedOnlyWith env.reply (memoryCmd m) (runOps env ops (connect pin env s).2).log
      (op.run env (runOps env ops (connect pin env s).2)).2.log := by
  have hok := runOps_inv memOk_atom ops (memOk_connect (env := env) pin hs)
  generalize runOps env ops (connect pin env s).2 = s1 at hok
  have hd : ∀ {α : Type} (p : M α), (discard p env s1).2 = (p env s1).2 := by
    intro α p
    simp only [discard, run_bind, run_pure]
    split <;> simp_all
  cases op <;> simp only [Op.memory, reduceCtorEq] at hm
  case read i m' =>
    subst hm
    simp only [Op.run, hd, readStoredSms]
    refine used_after hok hq ?_
    have h2 := selected_write (env := env) (x := memoryCmd m) (pe := true) (plain_cmgr i)
    steps selected_pre _
  case delete i m' =>
    subst hm
    refine used_after hok hq ?_
    have h2 := selected_write (env := env) (x := memoryCmd m) (pe := true) (plain_cmgd i)
    steps selected_pre _
  case deleteMultiple f m' =>
    subst hm
    simp only [Op.run, deleteMultipleStoredSms]
    split
    · refine used_after hok hq ?_
      have h2 : Steps env (Selected env (memoryCmd m)) (write (py!"AT+CMGD=1," ++ intStr f)) :=
        selected_write (by simpa using plain_prefix py!"AT+CMGD" _)
      steps selected_pre _
    · exact ⟨[], rfl, by simp⟩
  case list st m' del =>
    subst hm
    simp only [Op.run, hd, listStoredSms]
    refine used_after hok hq ?_
    have h4 := selected_deleteMultiple (env := env) (memoryCmd m) 4
    have h5 : ∀ l : List Int, Steps env (Selected env (memoryCmd m)) (deleteSet l) := fun l => ⟨fun s => (selected_deleteAll _ _).run s⟩
    refine Steps.bind (selected_pre _) (Steps.get (selected_pre _)) fun s => Steps.ofExcept_bind (selected_pre _) fun c hc => ?_
    have h2 : Steps env (Selected env (memoryCmd m)) (write c) := selected_write (calm_list hc).1
    unfold deleteListed
    steps selected_pre _ <;> exact h5 _

attribute [local instance] asciiUnicode in
/-- Two reads: the second one need not select the memory again. -/
example : (runOps goodModem [.read py!"1" (some py!"SM"), .read py!"2" (some py!"SM")] (connected goodModem)).log.take 3 =
    [py!"AT+CMGR=2\r", py!"AT+CMGR=1\r", py!"AT+CPMS=\"SM\"\r"] := by decide +kernel

/-- A modem that rejects the selection of `SM`. -/
def noSim : Env := modemWith fun log =>
  if log.head? = some py!"AT+CPMS=\"SM\"\r" then some (.lines [py!"+CMS ERROR: 322"]) else none

attribute [local instance] asciiUnicode in
/-- A rejected selection: nothing is read, and it is tried again next time. -/
example : (runOps noSim [.read py!"1" (some py!"SM"), .read py!"2" (some py!"SM")] (connected noSim)).log.take 3 =
    [py!"AT+CPMS=\"SM\"\r", py!"AT+CPMS=\"SM\"\r", py!"AT+CVHU=0\r"] := by decide +kernel

/-- C36, violated: asking for another memory to write to raises TypeError, with nothing written and nothing
changed; asking for the one in use only selects the other memory. -/
theorem C36_write_memory (rd : Option PyStr) (w : PyStr) (s : St) :
    (some w ≠ s.smsMemWrite → setSmsMemory rd (some w) env s = (.error .typeError, s)) ∧
    (some w = s.smsMemWrite → setSmsMemory rd (some w) env s = setSmsMemory rd none env s) := by
  constructor
  · intro h
    simp only [setSmsMemory, run_bind, run_get, run_ite, ne_eq, reduceCtorEq, not_false_eq_true, true_and]
    rw [if_pos h]; rfl
  · intro h
    simp only [setSmsMemory, run_bind, run_get, run_ite, ne_eq, reduceCtorEq, not_false_eq_true, not_true_eq_false, true_and, false_and, if_false]
    rw [if_neg (by simp [h])]

end Gsm
