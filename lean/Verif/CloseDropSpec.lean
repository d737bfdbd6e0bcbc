import Verif.ScramblerDropSpec
import Verif.AbandonSpec

/-!
# Pipes that are dropped while `close` is pending

What is left, given what a dropped call of `close` leaves (`CloseDrops`, `ScramblerDropSpec.lean`). The final value is dropped with the future.
-/

namespace Verif.Async

variable {σ τ I F E E₁ E₂ : Type}

/-- `pipe` (lib.rs:541-574) is dropped while `close` is pending. -/
inductive PipeClosing {P : Producer σ I F E₁} {C : Consumer τ I F E₂} (dc : CloseDrops C) (s : σ) (t : τ) :
    (pipe P C s t).κ → F → σ → τ → Prop where
  | mk {s₁ t₁ s₂ f kc t'} : dc.close t₁ f kc t' → PipeClosing dc s t ⟨(s₁, t₁), .inr ⟨(s₂, .ok (.inr f)), .inl kc⟩⟩ f s₂ t'

/-- `bulk_pipe` (lib.rs:579-613) is dropped while `close` is pending. -/
inductive BulkPipeClosing {P : BulkProducer σ I F E₁} {C : BulkConsumer τ I F E₂} (dc : CloseDrops C.toConsumer) (s : σ) (t : τ) :
    (bulkPipe P C s t).κ → F → σ → τ → Prop where
  | mk {s₁ t₁ s₂ f kc t'} : dc.close t₁ f kc t' → BulkPipeClosing dc s t ⟨(s₁, t₁), .inr ⟨(s₂, .ok (.inr f)), .inl kc⟩⟩ f s₂ t'

/-- `pipe_at_most` (lib.rs:620-658) is dropped while `close` is pending, `n` items having been moved. -/
inductive PipeAtMostClosing {P : Producer σ I F E₁} {C : Consumer τ I F E₂} (dc : CloseDrops C) (s : σ) (t : τ) (count : Nat) :
    (pipeAtMost P C s t count).κ → Nat → F → σ → τ → Prop where
  | mk {s₁ t₁ n k s₂ f kc t'} : HEq k (Sum.inr ⟨(s₂, .ok (.inr f)), .inl kc⟩ : (pipeAtMostStep P C s₁ t₁ n).κ) →
      dc.close t₁ f kc t' → PipeAtMostClosing dc s t count ⟨(s₁, t₁, n), k⟩ n f s₂ t'

/-- `bulk_pipe_at_most` (lib.rs:665-705) is dropped while `close` is pending, `n` items having been moved. -/
inductive BulkPipeAtMostClosing {P : BulkProducer σ I F E₁} {C : BulkConsumer τ I F E₂} (dc : CloseDrops C.toConsumer) (s : σ) (t : τ)
    (count : Nat) : (bulkPipeAtMost P C s t count).κ → Nat → F → σ → τ → Prop where
  | mk {s₁ t₁ n k s₂ f kc t'} : HEq k (Sum.inr ⟨(s₂, .ok (.inr f)), .inl kc⟩ : (bulkPipeAtMostStep P C count s₁ t₁ n).κ) →
      dc.close t₁ f kc t' → BulkPipeAtMostClosing dc s t count ⟨(s₁, t₁, n), k⟩ n f s₂ t'

/-- `close` of a `TestConsumer` awaits `maybe_yield` first, and is not pending afterwards. -/
inductive TestConsumer.CloseDropped [Inhabited I] (test : Bool) (t : TestConsumer I F E) (f : F) :
    ((TestConsumer.consumer test I F E).close t f).κ → TestConsumer I F E → Prop where
  | mk {k y} : YieldDropped t.yielder k y → CloseDropped test t f (Sum.inl (Sum.inl k)) { t with yielder := y }

/-- consumer/test_consumer.rs:375-382 -/
def TestConsumer.closeDrops (test : Bool) (I F E : Type) [Inhabited I] : CloseDrops (TestConsumer.consumer test I F E).toConsumer where
  close := CloseDropped test

end Verif.Async
