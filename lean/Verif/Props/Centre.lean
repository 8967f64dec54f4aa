import Verif.Lemmas.Centre
import Verif.Props.Deliver
import Verif.Props.Hex
/-! # Property C114: the status of a message follows the reports of the message centre -/
namespace Gsm
open M Spec

variable {env : Env}

/-- In every history: the object of a message has the reference of its last part and the status that the last
report on that part gave, unless the reference was given to a part in the middle of another message since. -/
theorem C114_follows [PyUnicode] {s s' : St} {C : List Posted} (h : Fresh s) (hl : PostLife env [] s C s') {p k : Nat} {x : Posted}
    (hx : C[p]? = some x) (hm : x.message = some k) (hlast : x.last = true) (hu : Undisturbed C p) :
    ∃ m, s'.sent[k]? = some m ∧ m.reference = x.reference ∧ m.status = statusTold x.told := by
  obtain ⟨⟨_, h1⟩, h2⟩ := agree_life (agree_fresh h) hl
  obtain ⟨st, h3, h4⟩ := h2.shown p x k hx hm hlast
  rw [← h1, List.getElem?_map] at h3
  cases hs : s'.sent[k]? with
  | none => rw [hs] at h3; cases h3
  | some m =>
    rw [hs] at h3
    simp only [Option.map_some, Option.some.injEq, Prod.mk.injEq] at h3
    exact ⟨m, rfl, h3.1, by rw [h3.2]; exact h4 hu⟩

/-- Every message of the program has a last part at the centre. -/
theorem C114_all [PyUnicode] {s s' : St} {C : List Posted} (h : Fresh s) (hl : PostLife env [] s C s') {k : Nat} (hk : k < s'.sent.length) : ∃ p, Closes C p k := by
  obtain ⟨⟨_, h1⟩, h2⟩ := agree_life (agree_fresh h) hl
  exact h2.all k (by rw [← h1]; simpa using hk)

/-- If every message fits into one part, and none fails, the status of every message is right, also of those whose
reference is used again. -/
theorem C114_single [PyUnicode] {s s' : St} {C : List Posted} (h : Fresh s) (hl : PostLife env [] s C s') (h1 : ∀ x ∈ C, x.last = true) {k : Nat} {m : Sent}
    (hk : s'.sent[k]? = some m) : ∃ (p : Nat) (x : Posted), C[p]? = some x ∧ x.message = some k ∧ m.reference = x.reference ∧ m.status = statusTold x.told := by
  obtain ⟨p, x, h2, h3, h4⟩ := C114_all h hl (List.getElem?_eq_some_iff.1 hk).1
  obtain ⟨m', h5, h6, h7⟩ := C114_follows h hl h2 h3 h4 fun _ y _ _ _ hy _ => h1 y (List.mem_of_getElem? hy)
  rw [hk] at h5; cases h5
  exact ⟨p, x, h2, h3, h6, h7⟩

/-- The references that follow. -/
theorem counted_later {C : List Posted} (h : Counted C) {p : Nat} {x : Posted} (hx : C[p]? = some x) (hr : x.reference < 256) :
    ∀ (d : Nat) (y : Posted), C[p + d]? = some y → y.reference = (x.reference + d) % 256
  | 0, y, hy => by
    rw [Nat.add_zero, hx] at hy
    cases hy
    rw [Nat.add_zero, Nat.mod_eq_of_lt hr]
  | d + 1, y, hy => by
    have hlt := (List.getElem?_eq_some_iff.1 hy).1
    have hz : C[p + d]? = some C[p + d] := List.getElem?_eq_getElem (by omega)
    have h1 := counted_later h hx hr d _ hz
    have h2 := h (p + d) _ y hz (by rw [Nat.add_assoc]; exact hy)
    rw [h2, h1]
    omega

/-- If the modem counts the references, the last 256 parts can be told apart. -/
theorem C114_recent {C : List Posted} (h : Counted C) (hr : ∀ x ∈ C, x.reference < 256) {p : Nat} (hp : C.length ≤ p + 256) : Newest C p := by
  intro x y q hx hq hy
  have hlt := (List.getElem?_eq_some_iff.1 hy).1
  have h1 := counted_later h hx (hr x (List.mem_of_getElem? hx)) (q - p) y (by rw [show p + (q - p) = q by omega]; exact hy)
  have h2 := hr x (List.mem_of_getElem? hx)
  omega

/-- The same for the status: it is right for every message among the last 256 parts. -/
theorem C114_last_256 [PyUnicode] {s s' : St} {C : List Posted} (h : Fresh s) (hl : PostLife env [] s C s') (hc : Counted C) (hr : ∀ x ∈ C, x.reference < 256)
    {p k : Nat} {x : Posted} (hx : C[p]? = some x) (hm : x.message = some k) (hlast : x.last = true) (hp : C.length ≤ p + 256) :
    ∃ m, s'.sent[k]? = some m ∧ m.reference = x.reference ∧ m.status = statusTold x.told :=
  C114_follows h hl hx hm hlast fun a b q ha hq hb he => absurd he (C114_recent hc hr hp a b q ha hq hb)

/-- What the modem has at a place, for the hypotheses of `PostStep.reported`: a report as it comes from the network (23.040, 9.2.2.3). -/
theorem C114_report_pdu {smsc ra : Option PyStr} {sca raf scts dts rest : List Nat} {fo mr st : Nat} {d1 d2 : DateTime} {line state : PyStr} {more : List PyStr}
    (hs : AddrWire true smsc sca) (hr : AddrWire false ra raf) (ht : TsWire d1 scts) (hd : TsWire d2 dts) (hfo : fo < 256) (hmti : fo % 4 = 2) (hmr : mr < 256)
    (hst : st < 256) (hrest : ∀ x ∈ rest, x < 256) (hl : PduHeader line state) {pdu : PyStr}
    (hp : HexOf (statusReportOctets sca fo mr raf scts dts st rest) pdu) :
    Answers false (line :: pdu :: more) (.ok (.report (pduState state) mr ra d1 d2 st)) := by
  have := C25_status_report hs hr ht hd hfo hmti hmr hst hrest
  exact AnswersPdu.report hl ((C22_hex_input hp).trans this)

/-! ### Waiting for a report -/

/-- Messages that are not changed but for their status. -/
def SameMessages (R : List Int) (s : St) : Prop := SentOk s ∧ (sentMessages s.smsTrace.reverse).map (·.1) = R

theorem sameMessages_event [PyUnicode] {R : List Int} {s : St} (e : Event) (h : SameMessages R s) : SameMessages R (e.run env s).2 := by
  refine ⟨sentOk_op (env := env) (.event e) h.1, ?_⟩
  cases e with
  | poll k =>
    rw [show ((Event.poll k).run env s).2.smsTrace = s.smsTrace from congrArg Prod.snd (rf_poll k s)]
    exact h.2
  | notify batch =>
    show (sentMessages (handleNotification batch env s).2.smsTrace.reverse).map (·.1) = R
    rcases batch_report (env := env) batch s with ⟨r, ds, _, h2⟩ | ⟨_, h2⟩
    · rw [h2, List.reverse_cons, sentMessages_snoc_report, ← h.2]
      split
      · next i _ =>
        apply List.ext_getElem?
        intro j
        rw [List.getElem?_map, List.getElem?_map, List.getElem?_modify]
        cases (sentMessages s.smsTrace.reverse)[j]? with
        | none => rfl
        | some a => by_cases e : i = j <;> simp [e]
      · rfl
    · rw [h2]; exact h.2

theorem sameMessages_events [PyUnicode] {R : List Int} : ∀ (es : List Event) {s : St}, SameMessages R s → SameMessages R (happenAll env es s)
  | [], _, h => h
  | e :: es, _, h => sameMessages_events es (sameMessages_event e h)

theorem told_by [PyUnicode] {R : List Int} {s s' : St} {es : List Event} {told : Bool} (h : AwaitsReport env s es s' told) (hs : SameMessages R s) (ht : told = true) :
    ∃ pre batch post r ds, es = pre ++ Event.notify batch :: post ∧ SameMessages R (happenAll env pre s) ∧ Brings env (happenAll env pre s) batch r ds ∧
      s' = (handleNotification batch env (happenAll env pre s)).2 := by
  induction h with
  | over => cases ht
  | @told s e es r ds hb =>
    cases e with
    | poll => exact hb.elim
    | notify batch =>
      rcases batch_report (env := env) batch s with ⟨r', ds', h1, _⟩ | ⟨_, h2⟩
      · exact ⟨[], batch, es, r', ds', rfl, hs, h1, rfl⟩
      · have h3 := (brings_trace hb).1
        have h4 : ((Event.notify batch).run env s).2.smsTrace = s.smsTrace := h2
        rw [h4] at h3
        have := congrArg List.length h3
        simp at this
  | @other s e es s2 told _ _ ih =>
    obtain ⟨pre, batch, post, r, ds, k1, k2, k3, k4⟩ := ih (sameMessages_event e hs) ht
    exact ⟨e :: pre, batch, post, r, ds, by rw [k1]; rfl, k2, k3, k4⟩

/-- If no other reports are on their way, `sendSms` with `waitForDeliveryReport` returns only when the status of its message is
known. -/
theorem C114_wait [PyUnicode] {s0 s s' : St} {C : List Posted} (h : Fresh s0) (hl : PostLife env [] s0 C s) {destination text : PyStr} {flash : Bool}
    {early during : List Event} {i r : Nat} {s1 : St} {ls : List PyStr} (hsend : sendSms destination text flash env s = (.ok i, s1))
    (hr : env.reply s1.log = .lines ls) (hg : GivesReference ls r)
    (honly : ∀ (pre : List Event) (batch : List PyStr) (post : List Event) (r' ds : Int), during = pre ++ Event.notify batch :: post →
      Brings env (happenAll env pre { happenAll env early s1 with smsStatusReportEvent := some false }) batch r' ds → r' = r)
    (hw : sendSmsWait destination text flash early during env s = (.ok i, s')) :
    ∃ m, s'.sent[i]? = some m ∧ m.reference = r ∧ m.status ≠ 0 := by
  obtain ⟨h1, _⟩ := agree_step (agree_life (agree_fresh h) hl) (.sent (refs := []) hsend hr hg)
  obtain ⟨e1, e2⟩ := send_gives hsend hr hg
  obtain ⟨hs0, _⟩ := agree_life (agree_fresh h) hl
  have hlen : (sentMessages s.smsTrace.reverse).length = i := by rw [← hs0.2, e1]; simp
  have hR : SameMessages ((sentMessages s.smsTrace.reverse).map (·.1) ++ [(r : Int)]) s1 :=
    ⟨h1, by rw [e2, List.reverse_cons, sentMessages_snoc_sent]; simp⟩
  obtain ⟨s2, told, h2, h3⟩ := (C71_wait (env := env) destination text flash early during s).2 i s1 hsend
  rw [hw] at h3
  have ht : told = true := by
    cases told with
    | true => rfl
    | false => simp at h3
  subst ht
  simp only [if_true, Prod.mk.injEq, true_and] at h3
  subst h3
  have hR2 : SameMessages ((sentMessages s.smsTrace.reverse).map (·.1) ++ [(r : Int)]) { happenAll env early s1 with smsStatusReportEvent := some false } :=
    sameMessages_events early hR
  obtain ⟨pre, batch, post, r', ds, k1, ⟨k2, k3⟩, k4, rfl⟩ := told_by h2 hR2 rfl
  obtain rfl := honly pre batch post r' ds k1 k4
  generalize happenAll env pre { happenAll env early s1 with smsStatusReportEvent := some false } = s3 at *
  have hok : SentOk (handleNotification batch env s3).2 := sentOk_op (env := env) (.event (.notify batch)) k2
  have htr := trace_brings k4
  have hm := hok.2
  rw [htr, List.reverse_cons, sentMessages_snoc_report, k3, lastIdx_snoc, if_pos rfl, List.length_map, hlen] at hm
  dsimp only at hm
  have hget : (sentMessages s3.smsTrace.reverse)[i]?.map (·.1) = some (r : Int) := by
    rw [← List.getElem?_map, k3, List.getElem?_append_right (by simp [hlen])]
    simp [hlen]
  have hm2 := congrArg (fun l => l[i]?) hm
  rw [List.getElem?_map, List.getElem?_modify] at hm2
  show ∃ m, (handleNotification batch env s3).2.sent[i]? = some m ∧ _
  cases hx : (sentMessages s3.smsTrace.reverse)[i]? with
  | none => rw [hx] at hget; cases hget
  | some a =>
    rw [hx] at hm2 hget
    simp at hm2 hget
    obtain ⟨m, g1, g2, g3⟩ := hm2
    refine ⟨m, g1, by rw [g2]; exact hget, ?_⟩
    rw [g3]
    unfold statusFor
    split <;> omega

/-! ### Examples and violations -/

attribute [local instance] asciiUnicode

/-- The report with this reference and result, in hexadecimal. -/
def reportPdu (reference result : Nat) : PyStr :=
  pduHex (statusReportOctets [0] 6 reference [2, 129, 33] [0x31, 0x40, 0x92, 0x91, 0x85, 0, 0] [0x31, 0x40, 0x92, 0x91, 0x95, 0, 0] result [])

/-- A modem that gives these references, one after the other; at the place `1000 * r + st` it has the report on `r` with the result `st`. -/
def centreModem (refs : List Nat) : Env := modemWith fun log =>
  let c := log.head?.getD []
  if py!"AT+CMGR=".isPrefixOf c then
    (pyInt? (c.drop 8).dropLast).map fun n => .lines [py!"+CMGR: 0,,25", reportPdu (n.toNat / 1000) (n.toNat % 1000), py!"OK"]
  else if c.getLast? = some 26 then some (.lines [py!"+CMGS: " ++ decStr (refs.getD ((log.filter fun c => c.getLast? = some 26).length - 1) 0), py!"OK"])
  else none

/-- The network reports on the part with this reference. -/
def reports (reference result : Nat) : Op := .event (.notify [py!"+CDSI: \"SM\"," ++ decStr (1000 * reference + result)])

def sends (text : PyStr) : Op := .send py!"12" text false

/-- The states of the messages. -/
def statuses (refs : List Nat) (ops : List Op) : List (Int × Nat) := (runOps (centreModem refs) ops {}).sent.map fun x => (x.reference, x.status)

example : statuses [5, 6, 7] [sends py!"one", sends py!"two", reports 6 0, sends py!"three", reports 5 70] = [(5, 2), (6, 1), (7, 0)] := by decide +kernel

@[irreducible] def centre1 : St := (sendSms py!"12" py!"one" false (centreModem [5, 6]) {}).2

@[irreducible] def centre2 : St := (sendSms py!"12" py!"two" false (centreModem [5, 6]) centre1).2

@[irreducible] def centre3 : St := (handleNotification [py!"+CDSI: \"SM\",5000"] (centreModem [5, 6]) centre2).2

theorem centre_first : PostStep (centreModem [5, 6]) [] {} ([] ++ posted (some 0) [] 5) centre1 := by
  have h : sendSms py!"12" py!"one" false (centreModem [5, 6]) {} = (.ok 0, centre1) := Prod.ext (by decide +kernel) (by unfold centre1; rfl)
  exact .sent (reference := 5) (ls := [py!"+CMGS: 5", py!"OK"]) h (by decide +kernel) ⟨[], [py!"OK"], by decide +kernel, by simp⟩

theorem centre_second (C : List Posted) : PostStep (centreModem [5, 6]) C centre1 (C ++ posted (some 1) [] 6) centre2 := by
  have h : sendSms py!"12" py!"two" false (centreModem [5, 6]) centre1 = (.ok 1, centre2) := Prod.ext (by decide +kernel) (by unfold centre2; rfl)
  exact .sent (reference := 6) (ls := [py!"+CMGS: 6", py!"OK"]) h (by decide +kernel) ⟨[], [py!"OK"], by decide +kernel, by simp⟩

theorem centre_brings : Brings (centreModem [5, 6]) centre2 [py!"+CDSI: \"SM\",5000"] 5 0 := by
  have h3 : (handleNotification [py!"+CDSI: \"SM\",5000"] (centreModem [5, 6]) centre2).2.smsTrace = [.report 5 0, .sent 6, .sent 5] := by decide +kernel
  have h4 : centre2.smsTrace = [.sent 6, .sent 5] := by decide +kernel
  rcases batch_report (env := centreModem [5, 6]) [py!"+CDSI: \"SM\",5000"] centre2 with ⟨r, ds, h1, h2⟩ | ⟨_, h2⟩
  · rw [h3] at h2
    have h5 := (List.cons.inj h2).1
    injection h5 with h6 h7
    subst h6; subst h7
    exact h1
  · rw [h3, h4] at h2
    simp at h2

/-- Such a history is one of those of the theorems. -/
theorem centre_example : PostLife (centreModem [5, 6]) [] {} [⟨some 0, true, 5, some 0⟩, ⟨some 1, true, 6, none⟩] centre3 := by
  have h : PostStep (centreModem [5, 6]) [⟨some 0, true, 5, none⟩, ⟨some 1, true, 6, none⟩] centre2 [⟨some 0, true, 5, some 0⟩, ⟨some 1, true, 6, none⟩]
      (handleNotification [py!"+CDSI: \"SM\",5000"] (centreModem [5, 6]) centre2).2 := by
    refine .reported (p := 0) (x := ⟨some 0, true, 5, none⟩) (result := 0) rfl ?_ centre_brings
    intro x y q hx hq hy
    match q, hq, hy with
    | 1, _, hy => cases hx; cases hy; decide
    | q + 2, _, hy => simp at hy
  rw [show (handleNotification [py!"+CDSI: \"SM\",5000"] (centreModem [5, 6]) centre2).2 = centre3 by unfold centre3; rfl] at h
  exact .next centre_first (.next (centre_second _) (.next h .start))

/-- The first message shows that it was delivered. -/
example : ∃ m, centre3.sent[0]? = some m ∧ m.reference = 5 ∧ m.status = 1 := by
  exact C114_follows ⟨rfl, rfl, rfl, rfl⟩ centre_example (p := 0) (x := ⟨some 0, true, 5, some 0⟩) rfl rfl rfl fun x y q hx hq hy => by
    match q, hq, hy with
    | 1, _, hy => cases hx; cases hy; decide
    | q + 2, _, hy => simp at hy

/-- Waiting for the report; one on another message ends it as well. -/
example : (sendSmsWait py!"12" py!"one" false [] [.notify [py!"+CREG: 1"], .notify [py!"+CDSI: \"SM\",5000"]] (centreModem [5]) {}).1 = .ok 0 ∧
    (sendSmsWait py!"12" py!"one" false [] [.notify [py!"+CREG: 1"], .notify [py!"+CDSI: \"SM\",5000"]] (centreModem [5]) {}).2.sent.map (·.status) = [1] ∧
    (sendSmsWait py!"12" py!"one" false [] [.notify [py!"+CDSI: \"SM\",6000"]] (centreModem [5]) {}).1 = .ok 0 ∧
    (sendSmsWait py!"12" py!"one" false [] [.notify [py!"+CDSI: \"SM\",6000"]] (centreModem [5]) {}).2.sent.map (·.status) = [0] := by decide +kernel

/-- A long message counts as delivered as soon as its last part is: nobody looks at the reports on the other parts. -/
theorem C114_parts_violated : statuses [5, 6] [sends (List.replicate 161 97), reports 5 70, reports 6 0] = [(6, 1)] ∧
    statuses [5, 6] [sends (List.replicate 161 97), reports 6 0, reports 5 70] = [(6, 1)] := by decide +kernel

/-- "Congestion, the centre is still trying" (0x20), "delivered, but not confirmed" (1) and "replaced" (2) count as failed;
the status may change to delivered afterwards. -/
theorem C114_trying_violated : statuses [5] [sends py!"one", reports 5 32] = [(5, 2)] ∧ statuses [5] [sends py!"one", reports 5 32, reports 5 0] = [(5, 1)] ∧
    statuses [5] [sends py!"one", reports 5 1] = [(5, 2)] ∧ statuses [5] [sends py!"one", reports 5 2] = [(5, 2)] := by decide +kernel

/-- A report on a message whose reference was given to another since (after 256 parts) counts for the other one. -/
theorem C114_late_violated : statuses [5, 5] [sends py!"old", sends py!"new", reports 5 0] = [(5, 0), (5, 1)] := by decide +kernel

/-- A delivered message counts as failed when its reference is given to the first part of another one, which fails. -/
theorem C114_middle_violated : statuses [5, 5, 6] [sends py!"old", reports 5 0, sends (List.replicate 161 97), reports 5 70] = [(5, 2), (6, 0)] := by decide +kernel

end Gsm
