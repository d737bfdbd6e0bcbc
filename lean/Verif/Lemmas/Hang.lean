import Verif.Lemmas.Async
import Verif.HangSpec

/-!
# Futures that wait for others only
-/

namespace Verif

open Outcome

namespace Fut

variable {A B : Type}

theorem Hangs.lift (o : Outcome A) : (Fut.lift o).Hangs := by
  constructor
  intro k k' h
  rcases o with a | _ | _ <;> cases h

theorem Hangs.pure (a : A) : (Pure.pure a : Fut A).Hangs := Hangs.lift (ok a)

theorem Hangs.liftM (o : Outcome A) : (MonadLiftT.monadLift o : Fut A).Hangs := Hangs.lift o

theorem Hangs.bind {f : Fut A} {g : A → Fut B} (hf : f.Hangs) (hg : ∀ a, (g a).Hangs) : (f >>= g).Hangs := by
  show (andThen f g).Hangs
  have hr : ∀ a k k', (g a).poll k = ok (.pending k') → andThenPoll f g (.inr ⟨a, k'⟩) = ok (.pending (.inr ⟨a, k'⟩)) := by
    intro a k k' h
    simp only [andThenPoll, pollIn, (hg a).again k k' h]
    rfl
  constructor
  intro k k' h
  show andThenPoll f g k' = _
  change andThenPoll f g k = _ at h
  rcases k with k | ⟨a, k⟩
  · simp only [andThenPoll, pollIn] at h
    rcases hq : f.poll k with (j | a) | _ | _ <;> rw [hq] at h
    · cases h
      simp only [andThenPoll, pollIn, hf.again k j hq]
      rfl
    · simp only [bind_ok] at h
      rcases hq' : (g a).poll (g a).start with (j | b) | _ | _ <;> rw [hq'] at h <;> cases h
      exact hr a _ j hq'
    · cases h
    · cases h
  · simp only [andThenPoll, pollIn] at h
    rcases hq : (g a).poll k with (j | b) | _ | _ <;> rw [hq] at h <;> cases h
    exact hr a _ j hq

theorem Hangs.loop {σ : Type} {body : σ → Fut (Step σ A)} (h : ∀ s, (body s).Hangs) (s : σ) : (Fut.loop body s).Hangs := by
  have inner : ∀ fuel x y, loopFuel (loopPollBody body) fuel x = ok (.pending y) → (body y.1).poll y.2 = ok (.pending y.2) := by
    intro fuel
    induction fuel with
    | zero => intro x y hp; cases hp
    | succ fuel ih =>
      intro x y hp
      rw [loopFuel, loopPollBody] at hp
      rcases hq : (body x.1).poll x.2 with (k | s' | a) | _ | _ <;> simp only [hq, bind_ok] at hp
      · cases hp
        exact (h _).again _ _ hq
      · exact ih _ y hp
      · cases hp
      · cases hp
      · cases hp
  have outer : ∀ x y : (s : σ) × (body s).κ, Verif.loop (loopPollBody body) x = ok (.pending y) →
      Verif.loop (loopPollBody body) y = ok (.pending y) := by
    intro x y hp
    by_cases hex : ∃ n, loopFuel (loopPollBody body) n x ≠ diverge
    · obtain ⟨n, hn⟩ := hex
      rw [loop_eq_of_fuel hn] at hp
      rw [loop_unfold, loopPollBody, inner n x y hp]
      rfl
    · unfold Verif.loop at hp
      rw [dif_neg hex] at hp
      cases hp
  exact ⟨outer⟩

end Fut

namespace Async

variable {σ τ I F E E₁ E₂ : Type}

/-- Goes through a method. -/
macro "hangs" : tactic => `(tactic| repeat' first
  | with_reducible exact Fut.Hangs.pure _
  | with_reducible exact Fut.Hangs.liftM _
  | with_reducible exact Fut.Hangs.lift _
  | with_reducible refine Fut.Hangs.bind ?_ fun _ => ?_
  | apply_assumption -exfalso -symm
  | split)

theorem bulkProduceDefault_hangs {exposeItems : σ → Fut (σ × Except E (List I ⊕ F))}
    {considerProduced : σ → Nat → Fut (σ × Except E Unit)} (he : ∀ s, (exposeItems s).Hangs)
    (hc : ∀ s amount, (considerProduced s amount).Hangs) (s : σ) (buf : List I) :
    (bulkProduceDefault exposeItems considerProduced s buf).Hangs := by
  unfold bulkProduceDefault
  hangs

theorem bulkConsumeDefault_hangs {exposeSlots : σ → Fut (σ × Except E (List I))} {writeSlots : σ → List I → σ}
    {consumeSlots : σ → Nat → Fut (σ × Except E Unit)} (he : ∀ s, (exposeSlots s).Hangs)
    (hc : ∀ s amount, (consumeSlots s amount).Hangs) (s : σ) (buf : List I) :
    (bulkConsumeDefault exposeSlots writeSlots consumeSlots s buf).Hangs := by
  unfold bulkConsumeDefault
  hangs

end Async

end Verif
