import Verif.ResumeSpec
import Verif.AbandonSpec

/-!
# Dropped transfers that move one item at a time

What dropped calls of `consume_full_slice`, `overwrite_full_slice` and `pipe_at_most` leave, given what a dropped call of `consume` or
`produce` leaves.
-/

namespace Verif.Async

variable {σ τ I F E E₁ E₂ : Type}

/-- The loop of `consume_full_slice` (lib.rs:144-153) is dropped while `consume` is pending. `i` items have been consumed before
the loop gets to `buf`, and `n` items when it is dropped. -/
inductive ConsumeSliceDropped {C : Consumer τ I F E} (d : ConsumeDrops C) :
    (t : τ) → (i : Nat) → (buf : List I) → (consumeFullSliceFrom C t i buf).κ → (n : Nat) → τ → Prop where
  | consuming {t i x rest k t'} : d.consume t x k t' → ConsumeSliceDropped d t i (x :: rest) (Sum.inl k) i t'
  | later {t i x rest t₁ k n t'} : ConsumeSliceDropped d t₁ (i + 1) rest k n t' →
      ConsumeSliceDropped d t i (x :: rest) (Sum.inr ⟨(t₁, .ok ()), k⟩) n t'

/-- The loop of `overwrite_full_slice` (lib.rs:376-392) is dropped while `produce` is pending; `left` is what is then in the buffer.
The first slots of the buffer contain `written` before the loop gets to `todo`. -/
inductive OverwriteSliceDropped {P : Producer σ I F E} (d : ItemDrops P) :
    (s : σ) → (written todo : List I) → (overwriteFullSliceFrom P s written todo).κ → (n : Nat) → (left : List I) → σ → Prop where
  | producing {s written old todo k s'} : d.produce s k s' →
      OverwriteSliceDropped d s written (old :: todo) (Sum.inl k) written.length (written ++ old :: todo) s'
  | later {s written old todo s₁ x k n left s'} : OverwriteSliceDropped d s₁ (written ++ [x]) todo k n left s' →
      OverwriteSliceDropped d s written (old :: todo) (Sum.inr ⟨(s₁, .ok (.inl x)), k⟩) n left s'

/-- `pipe_at_most` (lib.rs:620-658) is dropped while `produce` is pending, `n` items having been moved. -/
inductive PipeAtMostProducing {P : Producer σ I F E₁} {C : Consumer τ I F E₂} (dp : ItemDrops P) (s : σ) (t : τ) (count : Nat) :
    (pipeAtMost P C s t count).κ → Nat → σ → τ → Prop where
  | mk {s₁ t₁ n k kp s'} : HEq k (Sum.inl kp : (pipeAtMostStep P C s₁ t₁ n).κ) → dp.produce s₁ kp s' →
      PipeAtMostProducing dp s t count ⟨(s₁, t₁, n), k⟩ n s' t₁

/-- `pipe_at_most` is dropped while `consume` is pending, `n` items having been moved. The item `x` is dropped with the future. -/
inductive PipeAtMostConsuming {P : Producer σ I F E₁} {C : Consumer τ I F E₂} (dc : ConsumeDrops C) (s : σ) (t : τ) (count : Nat) :
    (pipeAtMost P C s t count).κ → Nat → I → σ → τ → Prop where
  | mk {s₁ t₁ n k s₂ x kc t'} : HEq k (Sum.inr ⟨(s₂, .ok (.inl x)), .inl kc⟩ : (pipeAtMostStep P C s₁ t₁ n).κ) →
      dc.consume t₁ x kc t' → PipeAtMostConsuming dc s t count ⟨(s₁, t₁, n), k⟩ n x s₂ t'

end Verif.Async
