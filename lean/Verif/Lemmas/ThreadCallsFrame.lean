import Verif.Lemmas.ThreadCalls
import Verif.Lemmas.ThreadsEnd
import Verif.Lemmas.Notify
/-! # What becomes of the calls, whatever the threads do -/
namespace Gsm
open M Spec

variable {env : Env}

theorem Spec.SameCall.rfl (c : CallObj) : SameCall c c := ⟨.refl _, .refl _, .refl _, .refl _, .refl _, .refl _, fun h => h, fun h => h⟩
theorem Spec.SameCall.trans {a b c : CallObj} (h : SameCall a b) (h' : SameCall b c) : SameCall a c :=
  ⟨h'.incoming.trans h.incoming, h'.id.trans h.id, h'.type.trans h.type, h'.number.trans h.number, h'.ton.trans h.ton, h'.callback.trans h.callback, h.active ∘ h'.active, h.ringing ∘ h'.ringing⟩

theorem Spec.CallsGrow.rfl (s : St) : CallsGrow s s := ⟨.rfl s, .refl _, .refl _, id, fun _ c h => ⟨c, h, .rfl c⟩, fun _ _ => id⟩

theorem calls_length {a b : St} (h : CallsGrow a b) : a.calls.length ≤ b.calls.length := by
  by_contra hlt
  have hi : b.calls.length < a.calls.length := by omega
  obtain ⟨c', h1, _⟩ := h.calls b.calls.length a.calls[b.calls.length] (List.getElem?_eq_getElem hi)
  simp at h1

theorem Spec.CallsGrow.trans {a b c : St} (h : CallsGrow a b) (h' : CallsGrow b c) : CallsGrow a c :=
  ⟨h.grows.trans h'.grows, h'.updates.trans h.updates, h'.clip.trans h.clip, h'.table ∘ h.table, fun i x hx => by
    obtain ⟨y, h1, h2⟩ := h.calls i x hx
    obtain ⟨z, h3, h4⟩ := h'.calls i y h1
    exact ⟨z, h3, h2.trans h4⟩, fun i hi hn => h'.removed i (by have := calls_length h; omega) (h.removed i hi hn)⟩

theorem Spec.CallsStay.rfl (s : St) : CallsStay s s := ⟨.rfl s, fun _ c h h' => ⟨c, h, h'⟩, fun _ h => h, fun _ _ h => h⟩
theorem Spec.CallsStay.trans {a b c : St} (h : CallsStay a b) (h' : CallsStay b c) : CallsStay a c :=
  ⟨h.grow.trans h'.grow, fun i x hx ha => by
    obtain ⟨y, h1, h2⟩ := h.active i x hx ha
    exact h'.active i y h1 h2, fun k hk => h'.ids k (h.ids k hk), fun k i hk => h.stale k i (h'.stale k i hk)⟩

theorem grows_calls {s s' : St} (h1 : s'.log = s.log) (h2 : s'.callbacks = s.callbacks) (h3 : s'.smsTrace = s.smsTrace) : Grows s s' :=
  ⟨h1 ▸ List.suffix_rfl, h2 ▸ List.suffix_rfl, h3 ▸ List.suffix_rfl⟩

/-- Nothing about calls. -/
theorem stay_same {a b : St} (hg : Grows a b) (hu : b.callStatusUpdates = a.callStatusUpdates) (hl : b.callingLineIdentification = a.callingLineIdentification) (hc : b.calls = a.calls) (ht : b.activeCalls = a.activeCalls) : CallsStay a b :=
  ⟨⟨hg, hu, hl, by unfold TableKeyed; rw [hc, ht]; exact id, fun i c h => ⟨c, hc ▸ h, .rfl c⟩, fun i _ => by unfold InTable; rw [ht]; exact id⟩,
    fun i c h h' => ⟨c, hc ▸ h, h'⟩, fun k hk => ht ▸ hk, fun k i => by unfold Stale; rw [hc, ht]; exact id⟩

/-- One call changes. -/
theorem grow_modify {s : St} {i : Nat} {f : CallObj → CallObj} (hf : ∀ c, SameCall c (f c)) : CallsGrow s { s with calls := s.calls.modify i f } := by
  have hcalls : ∀ (j : Nat) (c : CallObj), s.calls[j]? = some c → ∃ c', (s.calls.modify i f)[j]? = some c' ∧ SameCall c c' := by
    intro j c hc
    rw [List.getElem?_modify, hc]
    by_cases hij : i = j
    · exact ⟨f c, by simp [hij], hf c⟩
    · exact ⟨c, by simp [hij], .rfl c⟩
  refine ⟨grows_calls rfl rfl rfl, rfl, rfl, fun ⟨h1, h2⟩ => ⟨h1, fun k j hk => ?_⟩, hcalls, fun _ _ => id⟩
  obtain ⟨c, h3, h4⟩ := h2 k j hk
  obtain ⟨c', h5, h6⟩ := hcalls j c h3
  exact ⟨c', h5, h6.id.trans h4⟩

theorem stay_modify {s : St} {i : Nat} {f : CallObj → CallObj} (hf : ∀ c, SameCall c (f c)) (ha : ∀ c, (f c).active = c.active) : CallsStay s { s with calls := s.calls.modify i f } := by
  refine ⟨grow_modify hf, fun j c hc h => ?_, fun _ => id, fun k j ⟨h1, c, h2, h3⟩ => ⟨h1, ?_⟩⟩
  · show ∃ c', (s.calls.modify i f)[j]? = some c' ∧ _
    rw [List.getElem?_modify, hc]
    by_cases hij : i = j
    · exact ⟨f c, by simp [hij], (ha c).trans h⟩
    · exact ⟨c, by simp [hij], h⟩
  · replace h2 : (s.calls.modify i f)[j]? = some c := h2
    rw [List.getElem?_modify] at h2
    cases hj : s.calls[j]? with
    | none => simp [hj] at h2
    | some d =>
      refine ⟨d, rfl, ?_⟩
      by_cases hij : i = j
      · simp [hj, hij] at h2
        rw [← ha d, h2, h3]
      · simp [hj, hij] at h2
        rw [h2, h3]

theorem dictSet_cases {α : Type} : ∀ {d : List (Int × α)} {k k' : Int} {v v' : α}, (k', v') ∈ dictSet d k v → v' = v ∨ (k', v') ∈ d
  | [], _, _, _, _, h => by simp [dictSet] at h; exact .inl h.2
  | (k1, v1) :: d, k, k', v, v', h => by
    unfold dictSet at h
    split at h
    · rcases List.mem_cons.1 h with h | h
      · cases h; exact .inl rfl
      · exact .inr (List.mem_cons_of_mem _ h)
    · rcases List.mem_cons.1 h with h | h
      · exact .inr (h ▸ List.mem_cons_self ..)
      · exact (dictSet_cases h).imp_right (List.mem_cons_of_mem _)

/-- A new call. -/
theorem stay_register {s : St} {c : CallObj} (hc : c.active = true) : CallsStay s { s with calls := s.calls ++ [c], activeCalls := dictSet s.activeCalls c.id s.calls.length } := by
  have old : ∀ (i : Nat) (x : CallObj), s.calls[i]? = some x → (s.calls ++ [c])[i]? = some x := fun i x h =>
    by rw [List.getElem?_append_left (List.getElem?_eq_some_iff.1 h).1]; exact h
  refine ⟨⟨grows_calls rfl rfl rfl, rfl, rfl, fun ⟨h1, h2⟩ => ⟨dictSet_nodup h1, fun k i hk => ?_⟩, fun i x h => ⟨x, old i x h, .rfl x⟩, fun i hi hn => ?_⟩, fun i x h h' => ⟨x, old i x h, h'⟩, fun k hk => ?_, fun k i ⟨h1, x, h2, h3⟩ => ?_⟩
  · rcases dictSet_mem h1 hk with ⟨rfl, rfl⟩ | ⟨_, hk⟩
    · exact ⟨c, by simp, rfl⟩
    · obtain ⟨d, h3, h4⟩ := h2 k i hk
      exact ⟨d, old i d h3, h4⟩
  · rintro ⟨k, hk⟩
    rcases dictSet_cases hk with h | h
    · omega
    · exact hn ⟨k, h⟩
  · show k ∈ (dictSet s.activeCalls c.id s.calls.length).map (·.1)
    rw [dictSet_keys]
    split
    · exact hk
    · exact List.mem_append_left _ hk
  · replace h2 : (s.calls ++ [c])[i]? = some x := h2
    by_cases hi : i < s.calls.length
    · rw [List.getElem?_append_left hi] at h2
      rcases dictSet_cases h1 with h | h
      · omega
      · exact ⟨h, x, h2, h3⟩
    · have : i = s.calls.length := by
        have := (List.getElem?_eq_some_iff.1 h2).1
        simp at this
        omega
      subst this
      simp at h2
      rw [← h2, hc] at h3
      cases h3

theorem stale_remove {s : St} {k : Int} : ∀ key i, Stale { s with activeCalls := dictDel s.activeCalls k } key i → Stale s key i :=
  fun _ _ ⟨h1, h2⟩ => ⟨(dictDel_mem.1 h1).1, h2⟩

/-- An entry is removed. -/
theorem grow_remove {s : St} {k : Int} : CallsGrow s { s with activeCalls := dictDel s.activeCalls k } :=
  ⟨grows_calls rfl rfl rfl, rfl, rfl, fun ⟨h1, h2⟩ => ⟨dictDel_nodup h1, fun k' i hk => h2 k' i (dictDel_mem.1 hk).1⟩, fun i c h => ⟨c, h, .rfl c⟩,
    fun i _ hn ⟨k', hk⟩ => hn ⟨k', (dictDel_mem.1 hk).1⟩⟩

namespace Prog

/-- Steps that neither start nor end a call are allowed; if `D`, steps that end none; if `E`, all steps. -/
structure CallStable (G : St → St → Prop) (D E : Prop) : Prop where
  still : ∀ {a b}, CallsStay a b → b.activeCalls = a.activeCalls → G a b
  start : D → ∀ {a b}, CallsStay a b → G a b
  grow : E → ∀ {a b}, CallsGrow a b → G a b

variable {G : St → St → Prop} {D E : Prop}

/-- No condition. -/
abbrev Always : St → Prop := fun _ => True

theorem callStable_writes (h : CallStable G D E) : Writes Always G fun _ => True :=
  ⟨fun s _ => h.still (.rfl s) rfl, fun _ _ _ => h.still (stay_same (grows_calls rfl rfl rfl) rfl rfl rfl rfl) rfl,
    fun _ _ _ _ => h.still (stay_same ⟨List.suffix_cons _ _, List.suffix_rfl, List.suffix_rfl⟩ rfl rfl rfl rfl) rfl⟩

/-- The methods for messages do nothing about calls. -/
theorem callStable_messages (h : CallStable G D E) : Stable env Always G (fun _ => True) (fun _ => True) True :=
  have hs : ∀ {s s' : St}, s'.log = s.log → s'.callbacks = s.callbacks → s'.smsTrace = s.smsTrace → s'.callStatusUpdates = s.callStatusUpdates → s'.callingLineIdentification = s.callingLineIdentification →
      s'.calls = s.calls → s'.activeCalls = s.activeCalls → G s s' := fun h1 h2 h3 h4 h7 h5 h6 => h.still (stay_same (grows_calls h1 h2 h3) h4 h7 h5 h6) h6
  { writes := callStable_writes h
    memory := fun m _ => keeps_select (callStable_writes h) trivial fun s _ => hs rfl rfl rfl rfl rfl rfl rfl
    read := fun _ => trivial
    delete := fun _ => trivial
    deleteMultiple := fun _ => trivial
    list := fun _ => trivial
    prompt := fun _ => trivial
    text := fun _ => trivial
    mode := fun _ => trivial
    callback := fun s c _ => h.still (stay_same ⟨List.suffix_rfl, List.suffix_cons _ _, List.suffix_rfl⟩ rfl rfl rfl rfl) rfl
    told := fun s _ => hs rfl rfl rfl rfl rfl rfl rfl
    report := fun s st r n t1 t2 d _ => h.still (stay_same ⟨List.suffix_rfl, List.suffix_rfl, List.suffix_cons _ _⟩ rfl rfl rfl rfl) rfl
    record := fun _ d t r ls l _ _ _ => keeps_record (callStable_writes h) (fun s _ => hs rfl rfl rfl rfl rfl rfl rfl) (fun s _ => hs rfl rfl rfl rfl rfl rfl rfl)
      fun s _ => h.still (stay_same ⟨List.suffix_rfl, List.suffix_rfl, List.suffix_cons _ _⟩ rfl rfl rfl rfl) rfl
    textMode := fun s v _ => hs rfl rfl rfl rfl rfl rfl rfl }

theorem keeps_except {α : Type} {P : St → Prop} {Q : α → Prop} {p : Prog α} {c : PyErr → Bool} {g : PyErr → Prog α} (h : Keeps env P G Q p) (hg : ∀ e, Keeps env P G Q (g e)) :
    Keeps env P G Q (p.except c g) := by
  induction p with
  | done r =>
    cases r with
    | ok a => exact h
    | error e => exact keeps_ite (fun _ => hg e) fun _ => trivial
  | io t k ih => exact fun s hs => ⟨(h s hs).1, ih _ (h s hs).2⟩
  | act f k ih => exact fun s hs => ⟨(h s hs).1, ih _ _ (h s hs).2⟩

theorem keeps_tryCommand {α : Type} {P : St → Prop} {p : Prog α} (h : Keeps env P G Any p) : Keeps env P G Any (tryCommand p) :=
  keeps_except (keeps_bind h fun _ _ => keeps_pure trivial) fun _ => keeps_pure trivial

theorem keeps_changeCall (h : CallStable G D E) {i : Nat} {f : CallObj → CallObj} (hf : ∀ c, SameCall c (f c)) (ha : ∀ c, (f c).active = c.active) :
    Keeps env Always G Any (changeCall i f) := keeps_change fun _ _ => h.still (stay_modify hf ha) rfl

theorem keeps_setAnswered (h : CallStable G D E) (i : Nat) (v : Bool) : Keeps env Always G Any (setAnswered i v) :=
  keeps_bind (keeps_changeCall h (fun _ => ⟨rfl, rfl, rfl, rfl, rfl, rfl, id, id⟩) fun _ => rfl) fun _ _ => keeps_look (callStable_writes h) fun s _ => by
    cases s.calls[i]? with
    | none => exact keeps_pure trivial
    | some c => exact keeps_ite (fun _ => keeps_callback (callStable_messages h) _) fun _ => keeps_pure trivial

theorem keeps_ussd (h : CallStable G D E) (lines : List PyStr) : Keeps env Always G Any (handleUssd lines) := by
  refine keeps_look (callStable_writes h) fun s _ => keeps_ite (fun _ => ?_) fun _ => keeps_pure trivial
  refine keeps_bind (keeps_ofExcept _) fun r _ => keeps_bind (keeps_change fun s _ => h.still (stay_same (grows_calls rfl rfl rfl) rfl rfl rfl rfl) rfl) fun _ _ => fun s _ => ⟨?_, keeps_ite (fun _ => keeps_pure trivial) fun _ => keeps_raise _⟩
  dsimp only
  split
  · exact h.still (stay_same (grows_calls rfl rfl rfl) rfl rfl rfl rfl) rfl
  · exact h.still (.rfl s) rfl

theorem keeps_register (h : CallStable G D E) (hD : D) {c : CallObj} (hc : c.active = true) : Keeps env Always G Any (registerCall c) := fun _ _ => ⟨h.start hD (stay_register hc), trivial⟩
theorem keeps_registerNext (h : CallStable G D E) (hD : D) {c : CallObj} (hc : c.active = true) : Keeps env Always G Any (registerNext c) :=
  keeps_look (callStable_writes h) fun _ _ => keeps_register h hD hc

theorem keeps_remove (h : CallStable G D E) (hE : E) (k : Int) : Keeps env Always G Any (removeCall k) := fun s _ => ⟨h.grow hE grow_remove,
  keeps_ite (fun _ => trivial) fun _ => trivial⟩

theorem keeps_lookUp (h : CallStable G D E) (k : Int) : Keeps env Always G Any (lookUp k) := keeps_look (callStable_writes h) fun s _ => by
  cases dictGet s.activeCalls k <;> trivial

theorem keeps_sameSize (h : CallStable G D E) (n : Nat) : Keeps env Always G Any (sameSize n) :=
  keeps_look (callStable_writes h) fun _ _ => keeps_ite (fun _ => trivial) fun _ => trivial

theorem keeps_countRing (h : CallStable G D E) (i : Nat) : Keeps env Always G Any (countRing i) := keeps_look (callStable_writes h) fun s _ => by
  cases s.calls[i]? with
  | none => trivial
  | some c => exact keeps_changeCall h (fun _ => ⟨rfl, rfl, rfl, rfl, rfl, rfl, id, id⟩) fun _ => rfl

theorem keeps_ringLoop (h : CallStable G D E) (n : Option PyStr) (size : Nat) : ∀ is call, Keeps env Always G Any (ringLoop n size is call)
  | [], _ => keeps_bind (keeps_sameSize h size) fun _ _ => keeps_pure trivial
  | (k, i) :: is, call => keeps_bind (keeps_sameSize h size) fun _ _ => keeps_look (callStable_writes h) fun s _ => by
    cases s.calls[i]? with
    | none => exact keeps_ringLoop h n size is call
    | some c =>
      exact keeps_ite (fun _ => keeps_ite (fun _ => keeps_bind (keeps_countRing h i) fun _ _ => keeps_ringLoop h n size is _) fun _ => trivial) fun _ => keeps_ringLoop h n size is call

theorem keeps_ringType (h : CallStable G D E) (l : PyStr) : Keeps env Always G Any (ringType l) :=
  keeps_look (callStable_writes h) fun s _ => keeps_ite (fun _ => by
    cases afterSpace l with
    | some t => trivial
    | none =>
      refine keeps_bind (keeps_tryCommand (any (keeps_write (callStable_writes h) trivial))) fun r _ => ?_
      cases r with
      | some _ => trivial
      | none => exact keeps_bind (keeps_change fun s _ => h.still (stay_same (grows_calls rfl rfl rfl) rfl rfl rfl rfl) rfl) fun _ _ => trivial) fun _ => trivial

theorem keeps_callType {P : St → Prop} : ∀ t, Keeps env P G Any (callTypeOf t)
  | none => trivial
  | some _ => keeps_ite (fun _ => trivial) fun _ => trivial

theorem keeps_newIncoming (h : CallStable G D E) (hD : D) (t n ton : Option PyStr) : Keeps env Always G Any (newIncoming t n ton) :=
  keeps_look (callStable_writes h) fun _ _ => keeps_bind (keeps_callType t) fun _ _ => keeps_bind (keeps_register h hD rfl) fun _ _ => keeps_callback (callStable_messages h) _

theorem keeps_incoming (h : CallStable G D E) (hD : D) : ∀ lines, Keeps env Always G Any (handleIncomingCall lines)
  | [] => trivial
  | _ :: _ => keeps_bind (keeps_ringType h _) fun _ _ => keeps_look (callStable_writes h) fun _ _ => keeps_look (callStable_writes h) fun _ _ =>
    keeps_bind (keeps_ringLoop h _ _ _ _) fun r _ => by
      cases r with
      | some i => exact keeps_callback (callStable_messages h) _
      | none => exact keeps_newIncoming h hD _ _ _

theorem keeps_tellDial (h : CallStable G D E) (a b : Int) : Keeps env Always G Any (tellDial a b) := by
  refine keeps_bind (keeps_change fun s _ => h.still (stay_same (grows_calls rfl rfl rfl) rfl rfl rfl rfl) rfl) fun _ _ => fun s _ => ⟨?_, keeps_ite (fun _ => keeps_pure trivial) fun _ => keeps_raise _⟩
  dsimp only
  split
  · exact h.still (stay_same (grows_calls rfl rfl rfl) rfl rfl rfl rfl) rfl
  · exact h.still (.rfl s) rfl

theorem keeps_initiated (h : CallStable G D E) (a b : Int) : Keeps env Always G Any (handleCallInitiated a b) :=
  keeps_look (callStable_writes h) fun _ _ => keeps_ite (fun _ => keeps_tellDial h a b) fun _ => trivial

theorem keeps_firstOutgoing (h : CallStable G D E) (f : Bool) (size : Nat) : ∀ is, Keeps env Always G Any (firstOutgoing f size is)
  | [] => keeps_bind (keeps_sameSize h size) fun _ _ => trivial
  | _ :: is => keeps_bind (keeps_sameSize h size) fun _ _ => keeps_look (callStable_writes h) fun _ _ => keeps_ite (fun _ => trivial) fun _ => keeps_firstOutgoing h f size is

theorem keeps_answered (h : CallStable G D E) : ∀ k, Keeps env Always G Any (handleCallAnswered k)
  | some k => keeps_bind (keeps_lookUp h k) fun _ _ => keeps_setAnswered h _ _
  | none => keeps_look (callStable_writes h) fun _ _ => keeps_bind (keeps_firstOutgoing h _ _ _) fun r _ => by
    cases r with
    | some i => exact keeps_setAnswered h _ _
    | none => trivial

theorem keeps_inactive (h : CallStable G D E) (hE : E) (i : Nat) : Keeps env Always G Any (changeCall i fun c => { c with active := false }) :=
  keeps_change fun _ _ => h.grow hE (grow_modify fun _ => ⟨rfl, rfl, rfl, rfl, rfl, rfl, (nomatch ·), id⟩)

theorem keeps_endCall (h : CallStable G D E) (hE : E) : ∀ k, Keeps env Always G Any (endCall k)
  | none => trivial
  | some _ => keeps_ite (fun _ => keeps_look (callStable_writes h) fun _ _ => keeps_ite (fun _ => keeps_bind (keeps_lookUp h _) fun _ _ => keeps_bind (keeps_setAnswered h _ _) fun _ _ =>
      keeps_bind (keeps_lookUp h _) fun _ _ => keeps_bind (keeps_inactive h hE _) fun _ _ => keeps_remove h hE _) fun _ => trivial) fun _ => trivial

theorem keeps_ended (h : CallStable G D E) (hE : E) (k : Option Int) (search f : Bool) : Keeps env Always G Any (handleCallEnded k search f) := by
  refine keeps_ite (fun _ => keeps_look (callStable_writes h) fun _ _ => keeps_bind (keeps_firstOutgoing h _ _ _) fun r _ => ?_) fun _ => keeps_endCall h hE k
  cases r with
  | none => exact keeps_endCall h hE k
  | some i => exact keeps_look (callStable_writes h) fun _ _ => keeps_endCall h hE _

theorem keeps_handler (h : CallStable G D E) (hd : CallHandler) (g : List PyStr) (hE : hd = .ended ∨ hd = .rejected → E) : Keeps env Always G Any (runCallHandler hd g) := by
  cases hd with
  | initiated =>
    refine keeps_look (callStable_writes h) fun _ _ => keeps_ite (fun _ => ?_) fun _ => trivial
    rcases g with _ | ⟨g0, _ | ⟨g1, g⟩⟩
    · trivial
    · exact keeps_bind (keeps_ofExcept _) fun _ _ => keeps_tellDial h _ _
    · exact keeps_bind (keeps_ofExcept _) fun _ _ => keeps_bind (keeps_ofExcept _) fun _ _ => keeps_tellDial h _ _
  | answered =>
    rcases g with _ | ⟨g0, _ | ⟨g1, g⟩⟩
    · exact keeps_answered h none
    · exact keeps_answered h none
    · exact keeps_bind (keeps_ofExcept _) fun _ _ => keeps_answered h _
  | ended =>
    have hE := hE (.inl rfl)
    rcases g with _ | ⟨g0, g⟩
    · exact keeps_ended h hE _ _ _
    · exact keeps_bind (keeps_ofExcept _) fun _ _ => keeps_ended h hE _ _ _
  | rejected =>
    have hE := hE (.inr rfl)
    rcases g with _ | ⟨g0, g⟩
    · exact keeps_ended h hE _ _ _
    · exact keeps_bind (keeps_ofExcept _) fun _ _ => keeps_ended h hE _ _ _

theorem ring_line {t : List (List Rx × CallHandler)} {l : PyStr} (h : recognise t l = some .ring) : py!"RING" <:+: l := by
  cases recognise_iff.1 h with
  | ring h => exact h

theorem keeps_dispatch (h : CallStable G D E) (lines : List PyStr) : ∀ ls, (∀ l ∈ ls, py!"RING" <:+: l → D) → (∀ l ∈ ls, ∀ t g, recognise (callTable t) l = some (.call .ended g) ∨ recognise (callTable t) l = some (.call .rejected g) → E) →
    Keeps env Always G Any (dispatchLoop lines ls)
  | [], _, _ => trivial
  | l :: ls, hD, hE => keeps_look (callStable_writes h) fun s _ => by
    cases hr : recognise (callTable s.callStatusUpdates) l with
    | none => exact keeps_dispatch h lines ls (fun l' hl => hD l' (List.mem_cons_of_mem _ hl)) fun l' hl => hE l' (List.mem_cons_of_mem _ hl)
    | some d =>
      cases d with
      | ring => exact keeps_incoming h (hD l (List.mem_cons_self ..) (ring_line hr)) _
      | cmti => exact keeps_received (callStable_messages h) fun _ _ _ => trivial
      | cusd => exact keeps_ussd h _
      | cdsi => exact keeps_statusReport (callStable_messages h) fun _ _ _ => trivial
      | call hd g =>
        refine keeps_handler h hd g fun hh => hE l (List.mem_cons_self ..) s.callStatusUpdates g ?_
        rw [hr]
        rcases hh with rfl | rfl
        · exact .inl rfl
        · exact .inr rfl

theorem keeps_clcc (h : CallStable G D E) : Keeps env Always G Any clccQuery := by
  refine keeps_except (keeps_bind (keeps_write (callStable_writes h) trivial) fun ls _ => keeps_bind (keeps_ofExcept _) fun l _ => ?_) fun _ => trivial
  rcases rxGroups clccRegex l with _ | ⟨_ | ⟨a, _ | ⟨b, _ | ⟨c, _ | ⟨d, g⟩⟩⟩⟩⟩ <;> try trivial
  exact keeps_bind (keeps_ofExcept _) fun _ _ => keeps_bind (keeps_ofExcept _) fun _ _ => keeps_bind (keeps_ofExcept _) fun _ _ => keeps_bind (keeps_ofExcept _) fun _ _ => trivial

theorem keeps_pollStep (h : CallStable G D E) (hE : E) (p : Poller) (r : Option (Int × Int × Int × Int)) : Keeps env Always G Any (pollStep p r) := by
  rcases r with _ | ⟨a, b, c, d⟩
  · exact keeps_ite (fun _ => keeps_bind (keeps_ended h hE _ _ _) fun _ _ => trivial) fun _ => keeps_ite (fun _ => keeps_bind (keeps_ended h hE _ _ _) fun _ _ => trivial) fun _ => trivial
  · exact keeps_ite (fun _ => keeps_ite (fun _ => keeps_ite (fun _ => keeps_bind (keeps_initiated h _ _) fun _ _ => trivial) fun _ => trivial)
      fun _ => keeps_ite (fun _ => keeps_ite (fun _ => keeps_bind (keeps_answered h _) fun _ _ => trivial) fun _ => trivial) fun _ => trivial) fun _ => trivial

theorem keeps_pollRound (h : CallStable G D E) (hE : E) (p : Poller) : Keeps env Always G Any (pollRound p) :=
  keeps_look (callStable_writes h) fun _ _ => keeps_ite (fun _ => keeps_bind (keeps_clcc h) fun _ _ => keeps_pollStep h hE _ _) fun _ => trivial

theorem keeps_poll (h : CallStable G D E) (hE : E) : ∀ n p, Keeps env Always G Any (poll n p)
  | 0, _ => trivial
  | n + 1, p => keeps_bind (keeps_pollRound h hE p) fun p' _ => keeps_ite (fun _ => trivial) fun _ => keeps_poll h hE n p'

theorem keeps_dialNow (h : CallStable G D E) (hD : D) (n : PyStr) (cb : Bool) : Keeps env Always G Any (dialNow n cb) := by
  refine keeps_look (callStable_writes h) fun _ _ => keeps_ite (fun _ => keeps_bind (keeps_write (callStable_writes h) trivial) fun _ _ => ?_) fun _ => keeps_bind (keeps_change fun s hs => ?_) fun _ _ => ?_
  · exact keeps_bind (keeps_registerNext h hD rfl) fun _ _ => trivial
  · exact (callStable_writes h).log s _ trivial hs
  · exact keeps_bind (keeps_registerNext h hD rfl) fun _ _ => trivial

theorem same_quiet (c : CallObj) : SameCall c (if c.incoming then { c with ringing := false } else c) := by
  split
  · exact ⟨rfl, rfl, rfl, rfl, rfl, rfl, id, (nomatch ·)⟩
  · exact .rfl c

theorem keeps_stopRinging (h : CallStable G D E) (i : Nat) : Keeps env Always G Any (stopRinging i) :=
  keeps_changeCall h same_quiet fun c => by split <;> rfl

theorem keeps_hangupActive (h : CallStable G D E) (hE : E) (i : Nat) (c : CallObj) : Keeps env Always G Any (hangupActive i c) :=
  keeps_ite (fun _ => keeps_bind (keeps_write (callStable_writes h) trivial) fun _ _ => keeps_bind (keeps_setAnswered h _ _) fun _ _ => keeps_inactive h hE i) fun _ => trivial

theorem keeps_removeIfThere (h : CallStable G D E) (hE : E) (k : Int) : Keeps env Always G Any (removeIfThere k) :=
  keeps_look (callStable_writes h) fun _ _ => keeps_ite (fun _ => keeps_remove h hE k) fun _ => trivial

theorem keeps_hangup (h : CallStable G D E) (hE : E) (i : Nat) : Keeps env Always G Any (hangup i) :=
  keeps_bind (keeps_stopRinging h i) fun _ _ => keeps_look (callStable_writes h) fun s _ => by
    cases s.calls[i]? with
    | none => trivial
    | some c => exact keeps_bind (keeps_hangupActive h hE i c) fun _ _ => keeps_removeIfThere h hE c.id

theorem keeps_answer (h : CallStable G D E) (i : Nat) : Keeps env Always G Any (answer i) :=
  keeps_look (callStable_writes h) fun s _ => by
    cases s.calls[i]? with
    | none => trivial
    | some c =>
      exact keeps_ite (fun _ => keeps_bind (keeps_write (callStable_writes h) trivial) fun _ _ => keeps_bind (keeps_changeCall h (fun _ => ⟨rfl, rfl, rfl, rfl, rfl, rfl, id, (nomatch ·)⟩) fun _ => rfl)
        fun _ _ => keeps_setAnswered h _ _) fun _ => trivial

theorem keeps_dtmf (h : CallStable G D E) (i : Nat) (t : PyStr) : Keeps env Always G Any (sendDtmfTone i t) :=
  keeps_look (callStable_writes h) fun s _ => by
    cases s.calls[i]? with
    | none => trivial
    | some c =>
      exact keeps_ite (fun _ => keeps_bind (keeps_ofExcept _) fun _ _ => keeps_except (keeps_bind (keeps_write (callStable_writes h) trivial) fun _ _ => trivial) fun _ => trivial) fun _ => trivial

theorem keeps_task [PyUnicode] (h : CallStable G D E) (x : Task) (hD : ¬ StartsNoCalls x → D) (hE : ¬ EndsNoCalls x → E) : Keeps env Always G Any x.prog := by
  cases x with
  | message m => exact keeps_method (callStable_messages h) (by cases m <;> simp [Method.Uses])
  | notify lines =>
    refine keeps_dispatch h lines lines (fun l hl hr => hD fun hn => hn l hl hr) fun l hl t g hr => hE fun hn => ?_
    exact hr.elim (hn l hl t g).1 (hn l hl t g).2
  | poll n p => exact keeps_poll h (hE id) n p
  | dial n cb => exact keeps_dialNow h (hD id) n cb
  | answer i => exact keeps_answer h i
  | hangup i => exact keeps_hangup h (hE id) i
  | dtmf i t => exact keeps_dtmf h i t

theorem callStable_grow : CallStable CallsGrow True True := ⟨fun h _ => h.grow, fun _ _ _ h => h.grow, fun _ _ _ h => h⟩
theorem callStable_stay : CallStable CallsStay True False := ⟨fun h _ => h, fun _ _ _ h => h, fun h => h.elim⟩
/-- Neither starts nor ends a call. -/
def CallsFixed (a b : St) : Prop := CallsStay a b ∧ b.activeCalls = a.activeCalls
theorem callStable_fixed : CallStable CallsFixed False False := ⟨fun h h' => ⟨h, h'⟩, fun h => h.elim, fun h => h.elim⟩

end Prog
end Gsm
