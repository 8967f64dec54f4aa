import Verif.Spec.Waiting
import Verif.Lemmas.ThreadCallsFrame
/-! # Threads with events: rely and guarantee -/
namespace Gsm
open M Spec

variable {env : Env}

namespace Proc

/-- The thread takes its steps after changes `R` by the others; each of its steps does `G`; `Q` holds at its end. -/
def Safe {α : Type} (env : Env) (R G : Shared → Shared → Prop) (Q : Except PyErr α → Shared → Prop) : Proc α → Shared → Prop
  | done r, w => Q r w
  | io t k, w => ∀ w', R w w' → G w' (w'.written t) ∧ Safe env R G Q (k (env.reply (t :: w'.st.log))) (w'.written t)
  | act f k, w => ∀ w', R w w' → G w' (f env w') ∧ Safe env R G Q (k env w') (f env w')

variable {R G : Shared → Shared → Prop}

theorem safe_mono {α : Type} {R R' G G' : Shared → Shared → Prop} {Q Q' : Except PyErr α → Shared → Prop} {p : Proc α} {w : Shared} (h : Safe env R G Q p w)
    (hR : ∀ a b, R' a b → R a b) (hG : ∀ a b, G a b → G' a b) (hQ : ∀ r w, Q r w → Q' r w) : Safe env R' G' Q' p w := by
  induction p generalizing w with
  | done r => exact hQ r w h
  | io t k ih => exact fun w' hw => ⟨hG _ _ (h w' (hR _ _ hw)).1, ih _ (h w' (hR _ _ hw)).2⟩
  | act f k ih => exact fun w' hw => ⟨hG _ _ (h w' (hR _ _ hw)).1, ih _ _ (h w' (hR _ _ hw)).2⟩

theorem safe_bind {α β : Type} {Q : Except PyErr α → Shared → Prop} {Q' : Except PyErr β → Shared → Prop} {p : Proc α} {f : α → Proc β} {w : Shared}
    (h : Safe env R G Q p w) (hf : ∀ a w, Q (.ok a) w → Safe env R G Q' (f a) w) (he : ∀ e w, Q (.error e) w → Q' (.error e) w) : Safe env R G Q' (p >>= f) w := by
  show Safe env R G Q' (p.bind f) w
  induction p generalizing w with
  | done r =>
    cases r with
    | ok a => exact hf a w h
    | error e => exact he e w h
  | io t k ih => exact fun w' hw => ⟨(h w' hw).1, ih _ (h w' hw).2⟩
  | act g k ih => exact fun w' hw => ⟨(h w' hw).1, ih _ _ (h w' hw).2⟩

theorem safe_onError {α : Type} {Q Q' : Except PyErr α → Shared → Prop} {p : Proc α} {h : Proc Unit} {w : Shared}
    (hp : Safe env R G Q p w) (ho : ∀ a w, Q (.ok a) w → Q' (.ok a) w) (he : ∀ e w, Q (.error e) w → Safe env R G Q' (do h; raise e) w) : Safe env R G Q' (p.onError h) w := by
  induction p generalizing w with
  | done r =>
    cases r with
    | ok a => exact ho a w hp
    | error e => exact he e w hp
  | io t k ih => exact fun w' hw => ⟨(hp w' hw).1, ih _ (hp w' hw).2⟩
  | act g k ih => exact fun w' hw => ⟨(hp w' hw).1, ih _ _ (hp w' hw).2⟩

theorem safe_look {α : Type} {Q : Except PyErr α → Shared → Prop} {f : Shared → Proc α} {w : Shared} (hG : ∀ w, G w w)
    (hf : ∀ w', R w w' → Safe env R G Q (f w') w') : Safe env R G Q (look >>= f) w := fun w' hw => ⟨hG w', hf w' hw⟩

theorem safe_change {Q : Except PyErr Unit → Shared → Prop} {f : Shared → Shared} {w : Shared} (hf : ∀ w', R w w' → G w' (f w') ∧ Q (.ok ()) (f w')) :
    Safe env R G Q (change f) w := fun w' hw => hf w' hw

/-- Whatever the threads do, calls and histories only grow. -/
theorem safe_since {α : Type} {Q : Except PyErr α → Shared → Prop} {p : Proc α} {w : Shared} (h : Safe env R G Q p w) (hR : ∀ a b, R a b → CallsGrow a.st b.st)
    (hG : ∀ a b, G a b → CallsGrow a.st b.st) {s : St} (hs : CallsGrow s w.st) : Safe env R G (fun r w' => Q r w' ∧ CallsGrow s w'.st) p w := by
  induction p generalizing w with
  | done r => exact ⟨h, hs⟩
  | io t k ih => exact fun w' hw => ⟨(h w' hw).1, ih _ (h w' hw).2 ((hs.trans (hR _ _ hw)).trans (hG _ _ (h w' hw).1))⟩
  | act f k ih => exact fun w' hw => ⟨(h w' hw).1, ih _ _ (h w' hw).2 ((hs.trans (hR _ _ hw)).trans (hG _ _ (h w' hw).1))⟩

/-- The end of a thread among others: each relies on what the others guarantee. -/
theorem safe_procs {R G : Nat → Shared → Shared → Prop} {Q : Nat → Except PyErr Value → Shared → Prop} (hrefl : ∀ i w, R i w w) (htrans : ∀ i a b c, R i a b → R i b c → R i a c)
    (hG : ∀ i j a b, i ≠ j → G j a b → R i a b) : ∀ (schedule : List Nat) (threads : List (Proc Value)) (w : Shared),
      (∀ i p, threads[i]? = some p → ∃ w1, Safe env (R i) (G i) (Q i) p w1 ∧ R i w1 w) →
      ∀ i p, (runProcs env schedule (threads, w)).1[i]? = some p → ∃ w2, Safe env (R i) (G i) (Q i) p w2 ∧ R i w2 (runProcs env schedule (threads, w)).2
  | [], _, _, h, i, p, hd => h i p hd
  | j :: is, threads, w, h, i, r, hd => by
    unfold runProcs at hd ⊢
    cases hj : threads[j]? with
    | none =>
      simp only [hj] at hd ⊢
      exact safe_procs hrefl htrans hG is threads w h i r hd
    | some q =>
      simp only [hj] at hd ⊢
      refine safe_procs hrefl htrans hG is _ _ (fun k p hk => ?_) i r hd
      have hlen : j < threads.length := (List.getElem?_eq_some_iff.1 hj).1
      obtain ⟨w1, h1, h2⟩ := h j q hj
      by_cases hjk : j = k
      · subst hjk
        rw [List.getElem?_set_self hlen] at hk
        cases hk
        cases q with
        | done r' => exact ⟨w1, h1, h2⟩
        | io t k' => exact ⟨_, (h1 w h2).2, hrefl j _⟩
        | act f k' => exact ⟨_, (h1 w h2).2, hrefl j _⟩
      · rw [List.getElem?_set_ne hjk] at hk
        obtain ⟨w3, h3, h4⟩ := h k p hk
        refine ⟨w3, h3, ?_⟩
        cases q with
        | done r' => exact h4
        | io t k' => exact htrans k _ _ _ h4 (hG k j _ _ (Ne.symm hjk) (h1 w h2).1)
        | act f k' => exact htrans k _ _ _ h4 (hG k j _ _ (Ne.symm hjk) (h1 w h2).1)

/-! ### Steps that have nothing to do with events -/

/-- What is kept by the lifted program holds of the thread. -/
theorem safe_lift {α : Type} {P : St → Prop} {G' : St → St → Prop} {Q : α → Prop} {p : Prog α} {w : Shared} (h : Prog.Keeps env P G' Q p)
    (hP : ∀ w : Shared, P w.st) (hG : ∀ (w : Shared) s, G' w.st s → G w { w with st := s }) :
    Safe env R G (fun r _ => ∀ a, r = .ok a → Q a) (lift p) w := by
  induction p generalizing w with
  | done r =>
    rintro a rfl
    exact h
  | io t k ih => exact fun w' _ => ⟨hG w' _ (h w'.st (hP w')).1, ih _ (h w'.st (hP w')).2⟩
  | act f k ih => exact fun w' _ => ⟨hG w' _ (h w'.st (hP w')).1, ih _ _ (h w'.st (hP w')).2⟩

end Proc
end Gsm
