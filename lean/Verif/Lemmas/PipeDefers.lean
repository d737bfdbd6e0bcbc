import Verif.Lemmas.Loop
import Verif.Lemmas.Spec

/-!
# Lemmas about loops that move items and need not return, and about delaying consumers
-/

namespace Verif

open Outcome

/-- A loop each round of which moves some items or ends either returns a good result, or runs for ever and moves any number
of items. -/
theorem loop_or_forever {S ρ I : Type} {body : S → Outcome (Step S ρ)} (Inv : List I → S → Prop) (Post : ρ → Prop)
    (h : ∀ xs s, Inv xs s → (∃ r, body s = ok (.done r) ∧ Post r) ∨
      ∃ ys s', ys ≠ [] ∧ body s = ok (.continue s') ∧ Inv (xs ++ ys) s') {xs : List I} {s : S} (hs : Inv xs s) :
    (∃ r, loop body s = ok r ∧ Post r) ∨ (loop body s = .diverge ∧ ∀ n, ∃ ys s', n ≤ ys.length ∧ Inv ys s') := by
  rcases Classical.em (∃ r, loop body s = ok r ∧ Post r) with h' | hno
  · exact .inl h'
  · right
    have hstep : ∀ xs s, Inv xs s → (¬ ∃ r, loop body s = ok r ∧ Post r) →
        ∃ ys s', ys ≠ [] ∧ body s = ok (.continue s') ∧ Inv (xs ++ ys) s' ∧ ¬ ∃ r, loop body s' = ok r ∧ Post r := by
      intro xs s hi hn
      rcases h xs s hi with ⟨r, hr, hp⟩ | ⟨ys, s', hne, hb, hi'⟩
      · exact absurd ⟨r, by rw [loop_unfold, hr], hp⟩ hn
      · refine ⟨ys, s', hne, hb, hi', ?_⟩
        rintro ⟨r, hr, hp⟩
        exact hn ⟨r, by rw [loop_unfold, hb]; exact hr, hp⟩
    refine ⟨loop_diverge body (fun s => ∃ xs, Inv xs s ∧ ¬ ∃ r, loop body s = ok r ∧ Post r) ?_ s ⟨xs, hs, hno⟩, ?_⟩
    · rintro s ⟨xs, hi, hn⟩
      obtain ⟨ys, s', _, hb, hi', hn'⟩ := hstep xs s hi hn
      exact ⟨s', hb, _, hi', hn'⟩
    · suffices H : ∀ n, ∃ ys s', n ≤ ys.length ∧ Inv ys s' ∧ ¬ ∃ r, loop body s' = ok r ∧ Post r from
        fun n => let ⟨ys, s', h1, h2, _⟩ := H n; ⟨ys, s', h1, h2⟩
      intro n
      induction n with
      | zero => exact ⟨xs, s, Nat.zero_le _, hs, hno⟩
      | succ n ih =>
        obtain ⟨ys, s', h1, h2, h3⟩ := ih
        obtain ⟨zs, s'', hne, _, h4, h5⟩ := hstep ys s' h2 h3
        have := List.length_pos_iff.mpr hne
        exact ⟨ys ++ zs, s'', by simp; omega, h4, h5⟩

variable {σ I F E : Type}

theorem Defers.consume {C : Consumer σ I F E} {D : σ → List I → Option F → Prop} {X : Faults I F E} {s : σ} {l : List I}
    (h : Defers C D X s l) (x : I) : ∃ s', (C.consume s x = ok (s', .ok ()) ∧ Defers C D X s' (l ++ [x])) ∨
    (∃ e d, C.consume s x = ok (s', .error e) ∧ X.during (l ++ [x]) d e ∧ D s' d none) := by
  obtain ⟨R, hR, hs⟩ := h
  obtain ⟨s', ⟨h1, h2⟩ | h1⟩ := hR.consume s l x hs
  · exact ⟨s', .inl ⟨h1, R, hR, h2⟩⟩
  · exact ⟨s', .inr h1⟩

theorem Defers.close {C : Consumer σ I F E} {D : σ → List I → Option F → Prop} {X : Faults I F E} {s : σ} {l : List I}
    (h : Defers C D X s l) (f : F) : ∃ s', (C.close s f = ok (s', .ok ()) ∧ D s' l (some f)) ∨
    (∃ e d, C.close s f = ok (s', .error e) ∧ X.closing l f d e ∧ D s' d none) := by
  obtain ⟨R, hR, hs⟩ := h
  exact hR.close s l f hs

theorem BulkDefers.toDefers {C : BulkConsumer σ I F E} {D : σ → List I → Option F → Prop} {X : Faults I F E} {s : σ}
    {l : List I} (h : BulkDefers C D X s l) : Defers C.toConsumer D X s l := by
  obtain ⟨R, hR, hs⟩ := h
  exact ⟨_, hR.base.toDefersLaw, hs⟩

theorem BulkDefers.bulkConsume {C : BulkConsumer σ I F E} {D : σ → List I → Option F → Prop} {X : Faults I F E} {s : σ}
    {l : List I} (h : BulkDefers C D X s l) {buf : List I} (hne : buf ≠ []) : ∃ s',
    (∃ k, 0 < k ∧ k ≤ buf.length ∧ C.bulkConsume s buf = ok (s', .ok k) ∧ BulkDefers C D X s' (l ++ buf.take k)) ∨
    (∃ e d, C.bulkConsume s buf = ok (s', .error e) ∧ X.during (l ++ buf) d e ∧ D s' d none) := by
  obtain ⟨R, hR, slots, hs⟩ := h
  obtain ⟨s', ⟨k, h1, h2, h3, h4⟩ | h1⟩ := hR.bulkConsume s l slots buf hs hne
  · exact ⟨s', .inl ⟨k, h1, h2, h3, R, hR, h4⟩⟩
  · exact ⟨s', .inr h1⟩

theorem BulkPlays.exposeStep {P : BulkProducer σ I F E} {s : σ} {c : Script I F E} (h : BulkPlays P s c) : ∃ s',
    (∃ xs, xs ≠ [] ∧ c.StartsWith xs ∧ P.exposeItems s = ok (s', .ok (.inl xs)) ∧
      ∀ k, k ≤ xs.length → ∃ s'', P.considerProduced s' k = ok (s'', .ok ()) ∧ BulkPlays P s'' (c.drop k)) ∨
    (∃ f, c 0 = .ok (.inr f) ∧ P.exposeItems s = ok (s', .ok (.inr f))) ∨
    (∃ e, c 0 = .error e ∧ P.exposeItems s = ok (s', .error e)) := by
  obtain ⟨R, hR, n, hs⟩ := h
  obtain ⟨s', ⟨xs, hne, hsw, hex, hR1⟩ | h2⟩ := hR.expose s c n hs
  · refine ⟨s', .inl ⟨xs, hne, hsw, hex, fun k hk => ?_⟩⟩
    obtain ⟨s2, hcp, hR2⟩ := hR.consider s' c xs.length k hR1 (List.length_pos_iff.mpr hne) hk
    exact ⟨s2, hcp, R, hR, _, hR2⟩
  · exact ⟨s', .inr h2⟩

end Verif
