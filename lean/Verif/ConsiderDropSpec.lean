import Verif.ResumeSpec

/-!
# Bounded pipes that are dropped while `consider_produced` is pending
-/

namespace Verif.Async

variable {σ τ I F E₁ E₂ : Type}

/-- `bulk_pipe_at_most` (lib.rs:665-705) is dropped while `consider_produced` is pending: `n` items have been moved before, and `a` more
have been consumed. -/
inductive BulkPipeAtMostConsidering {P : BulkProducer σ I F E₁} {C : BulkConsumer τ I F E₂} (dp : ProducerDrops P) (s : σ) (t : τ)
    (count : Nat) : (bulkPipeAtMost P C s t count).κ → (n a : Nat) → σ → τ → Prop where
  | mk {s₁ t₁ n k s₂ ys t₂ a kp s'} :
      HEq k (Sum.inr ⟨(s₂, .ok (.inl ys)), .inr ⟨(t₂, .ok a), .inl kp⟩⟩ : (bulkPipeAtMostStep P C count s₁ t₁ n).κ) →
      dp.considerProduced s₂ a kp s' → BulkPipeAtMostConsidering dp s t count ⟨(s₁, t₁, n), k⟩ n a s' t₂

end Verif.Async
