import Verif.Model.AsyncTraits

/-!
# Futures that are abandoned

Dropping a future at some time means that it is not polled any more. So whatever can be said about the state of a future between
polls can be said about an abandoned future.
-/

namespace Verif

open Outcome

/-- The states in which a future can be found between two polls. -/
inductive Fut.Pending {A : Type} (f : Fut A) : f.κ → Prop where
  | first {k} : f.poll f.start = ok (.pending k) → Pending f k
  | next {k k'} : Pending f k → f.poll k = ok (.pending k') → Pending f k'

namespace Async

variable {σ τ I F E E₁ E₂ : Type}

/-- An iteration of `pipe_at_most` before the limit is reached, lib.rs:631-653. -/
def pipeAtMostStep (P : Producer σ I F E₁) (C : Consumer τ I F E₂) (s : σ) (t : τ) (piped : Nat) :
    Fut (Step (σ × τ × Nat) ((σ × τ) × Except (PipeError E₁ E₂) Nat)) := do
  match ← P.produce s with
  | (s, .ok (.inl item)) =>
    match ← C.consume t item with
    | (t, .ok ()) => return .continue (s, t, piped + 1)
    | (t, .error e) => return .done ((s, t), .error (.consumer e))
  | (s, .ok (.inr fin)) =>
    match ← C.close t fin with
    | (t, .ok ()) => return .done ((s, t), .ok piped)
    | (t, .error e) => return .done ((s, t), .error (.consumer e))
  | (s, .error e) => return .done ((s, t), .error (.producer e))

/-- An iteration of `bulk_pipe_at_most` before the limit is reached, lib.rs:677-700. -/
def bulkPipeAtMostStep (P : BulkProducer σ I F E₁) (C : BulkConsumer τ I F E₂) (count : Nat) (s : σ) (t : τ) (piped : Nat) :
    Fut (Step (σ × τ × Nat) ((σ × τ) × Except (PipeError E₁ E₂) Nat)) := do
  match ← P.exposeItems s with
  | (s, .ok (.inl slots)) =>
    let maxSlots := min (count - piped) slots.length
    match ← C.bulkConsume t (slots.take maxSlots) with
    | (t, .error e) => return .done ((s, t), .error (.consumer e))
    | (t, .ok amount) =>
      match ← P.considerProduced s amount with
      | (s, .ok ()) => return .continue (s, t, piped + amount)
      | (s, .error e) => return .done ((s, t), .error (.producer e))
  | (s, .ok (.inr fin)) =>
    match ← C.close t fin with
    | (t, .ok ()) => return .done ((s, t), .ok piped)
    | (t, .error e) => return .done ((s, t), .error (.consumer e))
  | (s, .error e) => return .done ((s, t), .error (.producer e))

/-- An iteration of `bulk_overwrite_full_slice` before the end of the buffer is reached, lib.rs:517-531. -/
def bulkOverwriteStep (P : BulkProducer σ I F E) (s : σ) (buf : List I) (produced : Nat) :
    Fut (Step (σ × List I × Nat) (σ × Except (ProduceAtLeastError F E) Unit × List I)) := do
  match ← P.bulkProduce s (buf.drop produced) with
  | (s, .ok (.inl count), tail) => return .continue (s, buf.take produced ++ tail, produced + count)
  | (s, .ok (.inr fin), tail) =>
    return .done (s, .error { count := produced, reason := .inl fin }, buf.take produced ++ tail)
  | (s, .error err, tail) =>
    return .done (s, .error { count := produced, reason := .inr err }, buf.take produced ++ tail)

/-- An iteration of `bulk_consume_full_slice` before the end of the buffer is reached, lib.rs:280-288. -/
def bulkConsumeStep (C : BulkConsumer σ I F E) (buf : List I) (s : σ) (consumed : Nat) :
    Fut (Step (σ × Nat) (σ × Except (ConsumeAtLeastError E) Unit)) := do
  match ← C.bulkConsume s (buf.drop consumed) with
  | (s, .ok count) => return .continue (s, consumed + count)
  | (s, .error err) => return .done (s, .error { count := consumed, reason := err })

end Async

end Verif
