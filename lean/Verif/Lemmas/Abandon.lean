import Verif.AbandonSpec
import Verif.Lemmas.Pipe
import Verif.Lemmas.Poll
import Verif.Lemmas.Async

/-!
# Futures that are abandoned: where the futures that they are made of have been left
-/

namespace Verif.Fut

open Outcome

variable {A B : Type}

/-- A state before or between polls. -/
def Reached (f : Fut A) (k : f.κ) : Prop := k = f.start ∨ f.Pending k

theorem Reached.pending {f : Fut A} {k k' : f.κ} (h : f.Reached k) (hp : f.poll k = ok (.pending k')) : f.Pending k' := by
  rcases h with rfl | h
  · exact .first hp
  · exact .next h hp

theorem Reached.runFrom {f : Fut A} {k : f.κ} (h : f.Reached k) : runFrom f.poll k = f.run := by
  rcases h with rfl | h
  · rfl
  · induction h with
    | first h => exact runFrom_pending h
    | next _ h ih => rw [runFrom_pending h, ih]

theorem Reached.ready {f : Fut A} {k : f.κ} {a : A} (h : f.Reached k) (hp : f.poll k = ok (.ready a)) : f.run = ok a := by
  rw [← h.runFrom, runFrom_ready hp]

/-- Code that does not await anything is never pending. -/
theorem not_pending_lift {o : Outcome A} {k : (lift o).κ} (h : (lift o).Pending k) : False := by
  have hne : ∀ k k', (lift o).poll k ≠ ok (.pending k') := by
    intro k k' h
    simp only [lift] at h
    rcases o with a | _ | _ <;> cases h
  rcases h with h | ⟨_, h⟩
  · exact hne _ _ h
  · exact hne _ _ h

theorem not_pending_pure {a : A} {k : (pure a : Fut A).κ} (h : (pure a : Fut A).Pending k) : False := not_pending_lift h

/-- A sequence is pending where the first part is, or the first part is completed, and it is pending where the second part is. -/
theorem pending_bind {f : Fut A} {g : A → Fut B} {x : f.κ ⊕ ((a : A) × (g a).κ)} (h : (f >>= g).Pending x) :
    (∃ k, x = .inl k ∧ f.Pending k) ∨ ∃ a k, x = .inr ⟨a, k⟩ ∧ f.run = ok a ∧ (g a).Pending k := by
  have step : ∀ (k : f.κ) x, f.Reached k → andThenPoll f g (.inl k) = ok (.pending x) →
      (∃ k, x = .inl k ∧ f.Pending k) ∨ ∃ a k, x = .inr ⟨a, k⟩ ∧ f.run = ok a ∧ (g a).Pending k := by
    intro k x hk h
    rw [andThenPoll] at h
    rcases hp : f.poll k with (k' | a) | _ | _ <;> simp only [hp, pollIn, bind_ok] at h
    · cases h
      exact .inl ⟨k', rfl, hk.pending hp⟩
    · rcases hq : (g a).poll (g a).start with (k' | b) | _ | _ <;> simp only [hq, bind_ok] at h <;> cases h
      exact .inr ⟨a, k', rfl, hk.ready hp, .first hq⟩
    · cases h
    · cases h
  have key : ∀ y : (f >>= g).κ, (f >>= g).Pending y → (fun x : f.κ ⊕ ((a : A) × (g a).κ) =>
      (∃ k, x = .inl k ∧ f.Pending k) ∨ ∃ a k, x = .inr ⟨a, k⟩ ∧ f.run = ok a ∧ (g a).Pending k) y := by
    intro y h
    induction h with
    | first h => exact step _ _ (.inl rfl) h
    | next _ h ih =>
      rcases ih with ⟨k, rfl, hk⟩ | ⟨a, k, rfl, ha, hk⟩
      · exact step _ _ (.inr hk) h
      · have h : andThenPoll f g (.inr ⟨a, k⟩) = _ := h
        rw [andThenPoll] at h
        rcases hq : (g a).poll k with (k' | b) | _ | _ <;> simp only [hq, pollIn, bind_ok] at h <;> cases h
        exact .inr ⟨a, k', rfl, ha, .next hk hq⟩
  exact key x h

/-- A conditional is pending only where the branch that is taken is. -/
theorem pending_ite {p : Prop} [Decidable p] {f : Fut A} {a : A} {k : (if p then f else pure a).κ}
    (h : (if p then f else pure a).Pending k) : p ∧ ∃ k', HEq k k' ∧ f.Pending k' := by
  by_cases hp : p
  · refine ⟨hp, ?_⟩
    revert k
    rw [if_pos hp]
    exact fun {k} h => ⟨k, .rfl, h⟩
  · revert k
    rw [if_neg hp]
    exact fun {k} h => (not_pending_pure h).elim

/-- Some iterations of a loop have been completed. -/
inductive Iterated {σ : Type} (body : σ → Fut (Step σ A)) (s : σ) : σ → Prop where
  | refl : Iterated body s s
  | snoc {s₁ s₂} : Iterated body s s₁ → (body s₁).run = ok (.continue s₂) → Iterated body s s₂

/-- A loop is pending where the current iteration is. -/
theorem pending_loop {σ : Type} {body : σ → Fut (Step σ A)} {s : σ} {x : (s : σ) × (body s).κ} (h : (Fut.loop body s).Pending x) :
    Iterated body s x.1 ∧ (body x.1).Pending x.2 := by
  have step : ∀ n (y : (s : σ) × (body s).κ) x, Iterated body s y.1 → (body y.1).Reached y.2 →
      loopFuel (loopPollBody body) n y = ok (.pending x) → Iterated body s x.1 ∧ (body x.1).Pending x.2 := by
    intro n
    induction n with
    | zero => exact fun _ _ _ _ h => nomatch h
    | succ n ih =>
      intro y x hi hr h
      rw [loopFuel, loopPollBody] at h
      rcases hp : (body y.1).poll y.2 with (k' | s' | a) | _ | _ <;> simp only [hp, bind_ok] at h
      · cases h
        exact ⟨hi, hr.pending hp⟩
      · exact ih ⟨s', (body s').start⟩ x (hi.snoc (hr.ready hp)) (.inl rfl) h
      · cases h
      · cases h
      · cases h
  have key : ∀ y : (Fut.loop body s).κ, (Fut.loop body s).Pending y → (fun x : (s : σ) × (body s).κ =>
      Iterated body s x.1 ∧ (body x.1).Pending x.2) y := by
    intro y h
    induction h with
    | first h =>
      obtain ⟨n, hn⟩ := loop_ok_fuel (show Verif.loop (loopPollBody body) _ = _ from h)
      exact step n _ _ .refl (.inl rfl) hn
    | next _ h ih =>
      obtain ⟨n, hn⟩ := loop_ok_fuel (show Verif.loop (loopPollBody body) _ = _ from h)
      exact step n _ _ ih.1 (.inr ih.2) hn
  exact key x h

/-- Whatever the iterations preserve holds for the current one. -/
theorem Iterated.keeps {σ : Type} {body : σ → Fut (Step σ A)} {s s' : σ} (h : Iterated body s s') {Inv : σ → Prop} (hs : Inv s)
    (hstep : ∀ s₁ s₂, Inv s₁ → (body s₁).run = ok (.continue s₂) → Inv s₂) : Inv s' := by
  induction h with
  | refl => exact hs
  | snoc _ h ih => exact hstep _ _ ih h

end Verif.Fut

namespace Verif.Async

open Outcome

variable {σ τ I F E E₁ E₂ : Type}

theorem pipeBody_run (P : Producer σ I F E₁) (C : Consumer τ I F E₂) (x : σ × τ) :
    (pipeBody P C x).run = Verif.pipeBody P.seq C.seq x := by
  obtain ⟨s, t⟩ := x
  dsimp only [pipeBody, Verif.pipeBody]
  run_congr

theorem bulkPipeBody_run (P : BulkProducer σ I F E₁) (C : BulkConsumer τ I F E₂) (x : σ × τ) :
    (bulkPipeBody P C x).run = Verif.bulkPipeBody P.seq C.seq x := by
  obtain ⟨s, t⟩ := x
  dsimp only [bulkPipeBody, Verif.bulkPipeBody]
  run_congr

theorem pipeAtMostBody_run (P : Producer σ I F E₁) (C : Consumer τ I F E₂) (count : Nat) (x : σ × τ × Nat) :
    (pipeAtMostBody P C count x).run = Verif.pipeAtMostBody P.seq C.seq count x := by
  obtain ⟨s, t, n⟩ := x
  dsimp only [pipeAtMostBody, Verif.pipeAtMostBody]
  run_congr

theorem bulkPipeAtMostBody_run (P : BulkProducer σ I F E₁) (C : BulkConsumer τ I F E₂) (count : Nat) (x : σ × τ × Nat) :
    (bulkPipeAtMostBody P C count x).run = Verif.bulkPipeAtMostBody P.seq C.seq count x := by
  obtain ⟨s, t, n⟩ := x
  dsimp only [bulkPipeAtMostBody, Verif.bulkPipeAtMostBody]
  run_congr

theorem bulkOverwriteFullSliceBody_run (P : BulkProducer σ I F E) (x : σ × List I × Nat) :
    (bulkOverwriteFullSliceBody P x).run = Verif.bulkOverwriteFullSliceBody P.seq x := by
  obtain ⟨s, buf, n⟩ := x
  dsimp only [bulkOverwriteFullSliceBody, Verif.bulkOverwriteFullSliceBody]
  run_congr

theorem bulkConsumeFullSliceBody_run (C : BulkConsumer σ I F E) (buf : List I) (x : σ × Nat) :
    (bulkConsumeFullSliceBody C buf x).run = Verif.bulkConsumeFullSliceBody C.seq buf x := by
  obtain ⟨s, n⟩ := x
  dsimp only [bulkConsumeFullSliceBody, Verif.bulkConsumeFullSliceBody]
  run_congr

end Verif.Async
