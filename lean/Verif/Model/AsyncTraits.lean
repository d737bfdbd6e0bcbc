import Verif.Model.Traits
import Verif.Model.Poll

/-!
# The traits and the functions on them, poll by poll

Model of `/repo/ufotofu/src/lib.rs`, as `Verif/Model/Traits.lean`, but the methods return futures, which may be pending, instead
of answers. A method takes the state of the producer or consumer with it (`&mut self`) and gives it back once the future is
completed; futures are polled until then (lib.rs:33).
-/

namespace Verif.Async

open Outcome

/-- `/repo/ufotofu/src/lib.rs:303-397` trait `Producer` (required method). -/
structure Producer (σ I F E : Type) where
  /-- lib.rs:319-321 -/
  produce : σ → Fut (σ × Except E (I ⊕ F))

/-- `/repo/ufotofu/src/lib.rs:400-412` trait `BufferedProducer`. -/
structure BufferedProducer (σ I F E : Type) extends Producer σ I F E where
  /-- lib.rs:411 -/
  slurp : σ → Fut (σ × Except E Unit)

/-- `/repo/ufotofu/src/lib.rs:469-489` default `BulkProducer::bulk_produce`, as a function of the two
required methods. The buffer is passed in and its new contents are returned. -/
def bulkProduceDefault {σ I F E : Type}
    (exposeItems : σ → Fut (σ × Except E (List I ⊕ F)))
    (considerProduced : σ → Nat → Fut (σ × Except E Unit))
    (s : σ) (buf : List I) : Fut (σ × Except E (Nat ⊕ F) × List I) := do
  match ← exposeItems s with
  | (s, .error e) => return (s, .error e, buf)
  | (s, .ok (.inl slots)) =>
    let amount := min slots.length buf.length
    let buf := slots.take amount ++ buf.drop amount
    match ← considerProduced s amount with
    | (s, .error e) => return (s, .error e, buf)
    | (s, .ok ()) => return (s, .ok (.inl amount), buf)
  | (s, .ok (.inr fin)) => return (s, .ok (.inr fin), buf)

/-- `/repo/ufotofu/src/lib.rs:417-537` trait `BulkProducer`. `bulk_produce` may be overridden, so it is a
field with the default of lib.rs:469-489. -/
structure BulkProducer (σ I F E : Type) extends BufferedProducer σ I F E where
  /-- lib.rs:433-437; the returned slice is modelled by its contents. -/
  exposeItems : σ → Fut (σ × Except E (List I ⊕ F))
  /-- lib.rs:451-452 -/
  considerProduced : σ → Nat → Fut (σ × Except E Unit)
  /-- lib.rs:469-489 -/
  bulkProduce : σ → List I → Fut (σ × Except E (Nat ⊕ F) × List I) :=
    bulkProduceDefault exposeItems considerProduced

/-- `/repo/ufotofu/src/lib.rs:93-158` trait `Consumer` (required methods). -/
structure Consumer (σ I F E : Type) where
  /-- lib.rs:109 -/
  consume : σ → I → Fut (σ × Except E Unit)
  /-- lib.rs:119 -/
  close : σ → F → Fut (σ × Except E Unit)

/-- `/repo/ufotofu/src/lib.rs:164-178` trait `BufferedConsumer`. -/
structure BufferedConsumer (σ I F E : Type) extends Consumer σ I F E where
  /-- lib.rs:177 -/
  flush : σ → Fut (σ × Except E Unit)

/-- `/repo/ufotofu/src/lib.rs:237-252` default `BulkConsumer::bulk_consume`. -/
def bulkConsumeDefault {σ I E : Type}
    (exposeSlots : σ → Fut (σ × Except E (List I)))
    (writeSlots : σ → List I → σ)
    (consumeSlots : σ → Nat → Fut (σ × Except E Unit))
    (s : σ) (buf : List I) : Fut (σ × Except E Nat) := do
  match ← exposeSlots s with
  | (s, .error e) => return (s, .error e)
  | (s, .ok slots) =>
    let amount := min slots.length buf.length
    let s := writeSlots s (buf.take amount)
    match ← consumeSlots s amount with
    | (s, .error e) => return (s, .error e)
    | (s, .ok ()) => return (s, .ok amount)

/-- `/repo/ufotofu/src/lib.rs:183-294` trait `BulkConsumer`. The `&mut [Item]` returned by `expose_slots` is
modelled by the current contents of the slots (`exposeSlots`) together with the effect of writing a list
of items into the first slots through that reference (`writeSlots`). -/
structure BulkConsumer (σ I F E : Type) extends BufferedConsumer σ I F E where
  /-- lib.rs:199-203 -/
  exposeSlots : σ → Fut (σ × Except E (List I))
  /-- writing to the first slots of the slice returned by `expose_slots` -/
  writeSlots : σ → List I → σ
  /-- lib.rs:220 -/
  consumeSlots : σ → Nat → Fut (σ × Except E Unit)
  /-- lib.rs:237-252 -/
  bulkConsume : σ → List I → Fut (σ × Except E Nat) :=
    bulkConsumeDefault exposeSlots writeSlots consumeSlots

/-- The `for i in 0..buf.len()` loop of `consume_full_slice`, `i` items already consumed. -/
def consumeFullSliceFrom {σ I F E : Type} (C : Consumer σ I F E) :
    σ → Nat → List I → Fut (σ × Except (ConsumeAtLeastError E) Unit)
  | s, _, [] => return (s, .ok ())
  | s, i, item :: rest => do
    match ← C.consume s item with
    | (s, .error err) => return (s, .error { count := i, reason := err })
    | (s, .ok ()) => consumeFullSliceFrom C s (i + 1) rest

/-- `/repo/ufotofu/src/lib.rs:136-157` `Consumer::consume_full_slice`. -/
def consumeFullSlice {σ I F E : Type} (C : Consumer σ I F E) (s : σ) (buf : List I) :
    Fut (σ × Except (ConsumeAtLeastError E) Unit) :=
  consumeFullSliceFrom C s 0 buf

/-- Body of the `while` loop of `bulk_consume_full_slice`, lib.rs:279-289; state = (consumer, consumed_so_far). -/
def bulkConsumeFullSliceBody {σ I F E : Type} (C : BulkConsumer σ I F E) (buf : List I) :
    σ × Nat → Fut (Step (σ × Nat) (σ × Except (ConsumeAtLeastError E) Unit))
  | (s, consumed) => do
    if consumed < buf.length then
      match ← C.bulkConsume s (buf.drop consumed) with
      | (s, .ok count) => return .continue (s, consumed + count)
      | (s, .error err) => return .done (s, .error { count := consumed, reason := err })
    else
      return .done (s, .ok ())

/-- `/repo/ufotofu/src/lib.rs:269-293` `BulkConsumer::bulk_consume_full_slice`. -/
noncomputable def bulkConsumeFullSlice {σ I F E : Type} (C : BulkConsumer σ I F E) (s : σ) (buf : List I) :
    Fut (σ × Except (ConsumeAtLeastError E) Unit) :=
  Fut.loop (bulkConsumeFullSliceBody C buf) (s, 0)

/-- `/repo/ufotofu/src/lib.rs:337-354` `Producer::produce_item`. -/
def produceItem {σ I F E : Type} (P : Producer σ I F E) (s : σ) :
    Fut (σ × Except (ProduceAtLeastError F E) I) := do
  match ← P.produce s with
  | (s, .ok (.inl item)) => return (s, .ok item)
  | (s, .ok (.inr fin)) => return (s, .error { count := 0, reason := .inl fin })
  | (s, .error err) => return (s, .error { count := 0, reason := .inr err })

/-- The `for i in 0..buf.len()` loop of `overwrite_full_slice`, `done` slots already overwritten (they are
in `written`), `todo` is the part of the buffer not yet reached. Returns the whole buffer. -/
def overwriteFullSliceFrom {σ I F E : Type} (P : Producer σ I F E) :
    σ → (written todo : List I) → Fut (σ × Except (ProduceAtLeastError F E) Unit × List I)
  | s, written, [] => return (s, .ok (), written)
  | s, written, old :: todo => do
    match ← P.produce s with
    | (s, .ok (.inl item)) => overwriteFullSliceFrom P s (written ++ [item]) todo
    | (s, .ok (.inr fin)) =>
      return (s, .error { count := written.length, reason := .inl fin }, written ++ old :: todo)
    | (s, .error err) =>
      return (s, .error { count := written.length, reason := .inr err }, written ++ old :: todo)

/-- `/repo/ufotofu/src/lib.rs:371-396` `Producer::overwrite_full_slice`; returns the new contents of the
buffer as third component. -/
def overwriteFullSlice {σ I F E : Type} (P : Producer σ I F E) (s : σ) (buf : List I) :
    Fut (σ × Except (ProduceAtLeastError F E) Unit × List I) :=
  overwriteFullSliceFrom P s [] buf

/-- Body of the `while` loop of `bulk_overwrite_full_slice`, lib.rs:516-532;
state = (producer, buffer, produced_so_far). -/
def bulkOverwriteFullSliceBody {σ I F E : Type} (P : BulkProducer σ I F E) :
    σ × List I × Nat →
      Fut (Step (σ × List I × Nat) (σ × Except (ProduceAtLeastError F E) Unit × List I))
  | (s, buf, produced) => do
    if produced < buf.length then
      match ← P.bulkProduce s (buf.drop produced) with
      | (s, .ok (.inl count), tail) => return .continue (s, buf.take produced ++ tail, produced + count)
      | (s, .ok (.inr fin), tail) =>
        return .done (s, .error { count := produced, reason := .inl fin }, buf.take produced ++ tail)
      | (s, .error err, tail) =>
        return .done (s, .error { count := produced, reason := .inr err }, buf.take produced ++ tail)
    else
      return .done (s, .ok (), buf)

/-- `/repo/ufotofu/src/lib.rs:506-536` `BulkProducer::bulk_overwrite_full_slice`. -/
noncomputable def bulkOverwriteFullSlice {σ I F E : Type} (P : BulkProducer σ I F E) (s : σ) (buf : List I) :
    Fut (σ × Except (ProduceAtLeastError F E) Unit × List I) :=
  Fut.loop (bulkOverwriteFullSliceBody P) (s, buf, 0)

/-- Body of the loop of `pipe`, lib.rs:550-572. -/
def pipeBody {σ τ I F E₁ E₂ : Type} (P : Producer σ I F E₁) (C : Consumer τ I F E₂) :
    σ × τ → Fut (Step (σ × τ) ((σ × τ) × Except (PipeError E₁ E₂) Unit))
  | (s, t) => do
    match ← P.produce s with
    | (s, .ok (.inl item)) =>
      match ← C.consume t item with
      | (t, .ok ()) => return .continue (s, t)
      | (t, .error e) => return .done ((s, t), .error (.consumer e))
    | (s, .ok (.inr fin)) =>
      match ← C.close t fin with
      | (t, .ok ()) => return .done ((s, t), .ok ())
      | (t, .error e) => return .done ((s, t), .error (.consumer e))
    | (s, .error e) => return .done ((s, t), .error (.producer e))

/-- `/repo/ufotofu/src/lib.rs:541-574` `pipe`. -/
noncomputable def pipe {σ τ I F E₁ E₂ : Type} (P : Producer σ I F E₁) (C : Consumer τ I F E₂) (s : σ) (t : τ) :
    Fut ((σ × τ) × Except (PipeError E₁ E₂) Unit) :=
  Fut.loop (pipeBody P C) (s, t)

/-- Body of the loop of `bulk_pipe`, lib.rs:589-611. -/
def bulkPipeBody {σ τ I F E₁ E₂ : Type} (P : BulkProducer σ I F E₁) (C : BulkConsumer τ I F E₂) :
    σ × τ → Fut (Step (σ × τ) ((σ × τ) × Except (PipeError E₁ E₂) Unit))
  | (s, t) => do
    match ← P.exposeItems s with
    | (s, .ok (.inl slots)) =>
      match ← C.bulkConsume t slots with
      | (t, .error e) => return .done ((s, t), .error (.consumer e))
      | (t, .ok amount) =>
        match ← P.considerProduced s amount with
        | (s, .ok ()) => return .continue (s, t)
        | (s, .error e) => return .done ((s, t), .error (.producer e))
    | (s, .ok (.inr fin)) =>
      match ← C.close t fin with
      | (t, .ok ()) => return .done ((s, t), .ok ())
      | (t, .error e) => return .done ((s, t), .error (.consumer e))
    | (s, .error e) => return .done ((s, t), .error (.producer e))

/-- `/repo/ufotofu/src/lib.rs:579-613` `bulk_pipe`. -/
noncomputable def bulkPipe {σ τ I F E₁ E₂ : Type} (P : BulkProducer σ I F E₁) (C : BulkConsumer τ I F E₂)
    (s : σ) (t : τ) : Fut ((σ × τ) × Except (PipeError E₁ E₂) Unit) :=
  Fut.loop (bulkPipeBody P C) (s, t)

/-- Body of the loop of `pipe_at_most`, lib.rs:630-655; state = (producer, consumer, piped). -/
def pipeAtMostBody {σ τ I F E₁ E₂ : Type} (P : Producer σ I F E₁) (C : Consumer τ I F E₂) (count : Nat) :
    σ × τ × Nat → Fut (Step (σ × τ × Nat) ((σ × τ) × Except (PipeError E₁ E₂) Nat))
  | (s, t, piped) => do
    if piped < count then
      match ← P.produce s with
      | (s, .ok (.inl item)) =>
        match ← C.consume t item with
        | (t, .ok ()) => return .continue (s, t, piped + 1)
        | (t, .error e) => return .done ((s, t), .error (.consumer e))
      | (s, .ok (.inr fin)) =>
        match ← C.close t fin with
        | (t, .ok ()) => return .done ((s, t), .ok piped)
        | (t, .error e) => return .done ((s, t), .error (.consumer e))
      | (s, .error e) => return .done ((s, t), .error (.producer e))
    else
      return .done ((s, t), .ok piped)

/-- `/repo/ufotofu/src/lib.rs:620-658` `pipe_at_most`. -/
noncomputable def pipeAtMost {σ τ I F E₁ E₂ : Type} (P : Producer σ I F E₁) (C : Consumer τ I F E₂)
    (s : σ) (t : τ) (count : Nat) : Fut ((σ × τ) × Except (PipeError E₁ E₂) Nat) :=
  Fut.loop (pipeAtMostBody P C count) (s, t, 0)

/-- Body of the loop of `bulk_pipe_at_most`, lib.rs:676-702. `count - piped` cannot underflow in the
`piped < count` branch; `&slots[..max_slots]` is in range because of the `min`. -/
def bulkPipeAtMostBody {σ τ I F E₁ E₂ : Type} (P : BulkProducer σ I F E₁) (C : BulkConsumer τ I F E₂)
    (count : Nat) :
    σ × τ × Nat → Fut (Step (σ × τ × Nat) ((σ × τ) × Except (PipeError E₁ E₂) Nat))
  | (s, t, piped) => do
    if piped < count then
      match ← P.exposeItems s with
      | (s, .ok (.inl slots)) =>
        let maxSlots := min (count - piped) slots.length
        match ← C.bulkConsume t (slots.take maxSlots) with
        | (t, .error e) => return .done ((s, t), .error (.consumer e))
        | (t, .ok amount) =>
          match ← P.considerProduced s amount with
          | (s, .ok ()) => return .continue (s, t, piped + amount)
          | (s, .error e) => return .done ((s, t), .error (.producer e))
      | (s, .ok (.inr fin)) =>
        match ← C.close t fin with
        | (t, .ok ()) => return .done ((s, t), .ok piped)
        | (t, .error e) => return .done ((s, t), .error (.consumer e))
      | (s, .error e) => return .done ((s, t), .error (.producer e))
    else
      return .done ((s, t), .ok piped)

/-- `/repo/ufotofu/src/lib.rs:665-705` `bulk_pipe_at_most`. -/
noncomputable def bulkPipeAtMost {σ τ I F E₁ E₂ : Type} (P : BulkProducer σ I F E₁) (C : BulkConsumer τ I F E₂)
    (s : σ) (t : τ) (count : Nat) : Fut ((σ × τ) × Except (PipeError E₁ E₂) Nat) :=
  Fut.loop (bulkPipeAtMostBody P C count) (s, t, 0)

end Verif.Async
