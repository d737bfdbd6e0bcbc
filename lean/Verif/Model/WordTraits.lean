import Verif.Model.WordQueue
import Verif.Model.Traits

/-!
# The counting functions of `/repo/ufotofu/src/lib.rs` with machine arithmetic

`Model/Traits.lean` takes `usize` to be `Nat`. This file models the functions of lib.rs that add or subtract once more, with sums and
differences as they are computed on a machine.
-/

namespace Verif

open Outcome

/-- Body of the `while` loop of `bulk_consume_full_slice`, lib.rs:279-289; state = (consumer, consumed_so_far). -/
def wordBulkConsumeFullSliceBody {σ I F E : Type} (w : Word) (C : BulkConsumer σ I F E) (buf : List I) :
    σ × Nat → Outcome (Step (σ × Nat) (σ × Except (ConsumeAtLeastError E) Unit))
  | (s, consumed) => do
    if consumed < buf.length then
      match ← C.bulkConsume s (buf.drop consumed) with
      | (s, .ok count) => return .continue (s, ← w.add consumed count)
      | (s, .error err) => return .done (s, .error { count := consumed, reason := err })
    else
      return .done (s, .ok ())

/-- `/repo/ufotofu/src/lib.rs:269-293` `BulkConsumer::bulk_consume_full_slice`. -/
noncomputable def wordBulkConsumeFullSlice {σ I F E : Type} (w : Word) (C : BulkConsumer σ I F E) (s : σ) (buf : List I) :
    Outcome (σ × Except (ConsumeAtLeastError E) Unit) :=
  loop (wordBulkConsumeFullSliceBody w C buf) (s, 0)

/-- Body of the `while` loop of `bulk_overwrite_full_slice`, lib.rs:516-532;
state = (producer, buffer, produced_so_far). -/
def wordBulkOverwriteFullSliceBody {σ I F E : Type} (w : Word) (P : BulkProducer σ I F E) :
    σ × List I × Nat →
      Outcome (Step (σ × List I × Nat) (σ × Except (ProduceAtLeastError F E) Unit × List I))
  | (s, buf, produced) => do
    if produced < buf.length then
      match ← P.bulkProduce s (buf.drop produced) with
      | (s, .ok (.inl count), tail) => return .continue (s, buf.take produced ++ tail, ← w.add produced count)
      | (s, .ok (.inr fin), tail) =>
        return .done (s, .error { count := produced, reason := .inl fin }, buf.take produced ++ tail)
      | (s, .error err, tail) =>
        return .done (s, .error { count := produced, reason := .inr err }, buf.take produced ++ tail)
    else
      return .done (s, .ok (), buf)

/-- `/repo/ufotofu/src/lib.rs:506-536` `BulkProducer::bulk_overwrite_full_slice`. -/
noncomputable def wordBulkOverwriteFullSlice {σ I F E : Type} (w : Word) (P : BulkProducer σ I F E) (s : σ) (buf : List I) :
    Outcome (σ × Except (ProduceAtLeastError F E) Unit × List I) :=
  loop (wordBulkOverwriteFullSliceBody w P) (s, buf, 0)

/-- Body of the loop of `pipe_at_most`, lib.rs:630-655; state = (producer, consumer, piped). -/
def wordPipeAtMostBody {σ τ I F E₁ E₂ : Type} (w : Word) (P : Producer σ I F E₁) (C : Consumer τ I F E₂) (count : Nat) :
    σ × τ × Nat → Outcome (Step (σ × τ × Nat) ((σ × τ) × Except (PipeError E₁ E₂) Nat))
  | (s, t, piped) => do
    if piped < count then
      match ← P.produce s with
      | (s, .ok (.inl item)) =>
        match ← C.consume t item with
        | (t, .ok ()) => return .continue (s, t, ← w.add piped 1)
        | (t, .error e) => return .done ((s, t), .error (.consumer e))
      | (s, .ok (.inr fin)) =>
        match ← C.close t fin with
        | (t, .ok ()) => return .done ((s, t), .ok piped)
        | (t, .error e) => return .done ((s, t), .error (.consumer e))
      | (s, .error e) => return .done ((s, t), .error (.producer e))
    else
      return .done ((s, t), .ok piped)

/-- `/repo/ufotofu/src/lib.rs:620-658` `pipe_at_most`. -/
noncomputable def wordPipeAtMost {σ τ I F E₁ E₂ : Type} (w : Word) (P : Producer σ I F E₁) (C : Consumer τ I F E₂)
    (s : σ) (t : τ) (count : Nat) : Outcome ((σ × τ) × Except (PipeError E₁ E₂) Nat) :=
  loop (wordPipeAtMostBody w P C count) (s, t, 0)

/-- Body of the loop of `bulk_pipe_at_most`, lib.rs:676-702. -/
def wordBulkPipeAtMostBody {σ τ I F E₁ E₂ : Type} (w : Word) (P : BulkProducer σ I F E₁) (C : BulkConsumer τ I F E₂)
    (count : Nat) :
    σ × τ × Nat → Outcome (Step (σ × τ × Nat) ((σ × τ) × Except (PipeError E₁ E₂) Nat))
  | (s, t, piped) => do
    if piped < count then
      match ← P.exposeItems s with
      | (s, .ok (.inl slots)) =>
        let maxSlots := min (← w.sub count piped) slots.length
        match ← C.bulkConsume t (← slice slots 0 maxSlots) with
        | (t, .error e) => return .done ((s, t), .error (.consumer e))
        | (t, .ok amount) =>
          match ← P.considerProduced s amount with
          | (s, .ok ()) => return .continue (s, t, ← w.add piped amount)
          | (s, .error e) => return .done ((s, t), .error (.producer e))
      | (s, .ok (.inr fin)) =>
        match ← C.close t fin with
        | (t, .ok ()) => return .done ((s, t), .ok piped)
        | (t, .error e) => return .done ((s, t), .error (.consumer e))
      | (s, .error e) => return .done ((s, t), .error (.producer e))
    else
      return .done ((s, t), .ok piped)

/-- `/repo/ufotofu/src/lib.rs:665-705` `bulk_pipe_at_most`. -/
noncomputable def wordBulkPipeAtMost {σ τ I F E₁ E₂ : Type} (w : Word) (P : BulkProducer σ I F E₁) (C : BulkConsumer τ I F E₂)
    (s : σ) (t : τ) (count : Nat) : Outcome ((σ × τ) × Except (PipeError E₁ E₂) Nat) :=
  loop (wordBulkPipeAtMostBody w P C count) (s, t, 0)

end Verif
