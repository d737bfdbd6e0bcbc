import Verif.Model.Consumers
import Verif.Model.Queue

/-!
# Clones

In the rest of the model, `Clone::clone` copies. Here are the functions that call it, with an arbitrary `clone`: it may return
something else than its argument, and it may panic. `clone x = none` stands for a panic. Whoever catches it can go on using the
values that were being worked on; so the functions here also say in which state they leave them.

`clone_from_slice` clones item by item (`dst[i].clone_from(&src[i])`, and `clone_from` is `*self = source.clone()` unless it is
overridden), so that after a panic the first items have been overwritten. It is called with slices of the same length only.
-/

namespace Verif

open Outcome

/-- How a function that clones ends, unless it panics for other reasons. -/
inductive Unwind (A : Type) where
  | returned (a : A)
  /-- by a panic of `clone` -/
  | unwound
  deriving DecidableEq, Repr

/-- Nobody catches the panic. -/
def uncaught {σ A : Type} (o : Outcome (σ × Unwind A)) : Outcome (σ × A) :=
  o.bind fun
    | (s, .returned a) => ok (s, a)
    | (_, .unwound) => .panic

/-- The clones that `clone_from_slice` makes of `xs`, and whether it gets through. -/
def cloneSlice {I : Type} (clone : I → Option I) : List I → List I × Unwind Unit
  | [] => ([], .returned ())
  | x :: xs =>
    match clone x with
    | none => ([], .unwound)
    | some y => let (ys, u) := cloneSlice clone xs; (y :: ys, u)

/-! ## Traits -/

section

variable {σ I F E : Type} (clone : I → Option I)

/-- `/repo/ufotofu/src/lib.rs:469-489` default `BulkProducer::bulk_produce` (line 480 clones). -/
def bulkProduceCloning (exposeItems : σ → Outcome (σ × Except E (List I ⊕ F)))
    (considerProduced : σ → Nat → Outcome (σ × Except E Unit))
    (s : σ) (buf : List I) : Outcome ((σ × List I) × Unwind (Except E (Nat ⊕ F))) := do
  match ← exposeItems s with
  | (s, .error e) => return ((s, buf), .returned (.error e))
  | (s, .ok (.inl slots)) =>
    let amount := min slots.length buf.length
    let (ys, u) := cloneSlice clone (slots.take amount)
    let buf := ys ++ buf.drop ys.length
    match u with
    | .unwound => return ((s, buf), .unwound)
    | .returned () =>
      match ← considerProduced s amount with
      | (s, .error e) => return ((s, buf), .returned (.error e))
      | (s, .ok ()) => return ((s, buf), .returned (.ok (.inl amount)))
  | (s, .ok (.inr fin)) => return ((s, buf), .returned (.ok (.inr fin)))

/-- `/repo/ufotofu/src/lib.rs:237-252` default `BulkConsumer::bulk_consume` (line 247 clones). -/
def bulkConsumeCloning (exposeSlots : σ → Outcome (σ × Except E (List I))) (writeSlots : σ → List I → σ)
    (consumeSlots : σ → Nat → Outcome (σ × Except E Unit)) (s : σ) (buf : List I) : Outcome (σ × Unwind (Except E Nat)) := do
  match ← exposeSlots s with
  | (s, .error e) => return (s, .returned (.error e))
  | (s, .ok slots) =>
    let amount := min slots.length buf.length
    let (ys, u) := cloneSlice clone (buf.take amount)
    let s := writeSlots s ys
    match u with
    | .unwound => return (s, .unwound)
    | .returned () =>
      match ← consumeSlots s amount with
      | (s, .error e) => return (s, .returned (.error e))
      | (s, .ok ()) => return (s, .returned (.ok amount))

/-- The `for i in 0..buf.len()` loop of `consume_full_slice`, `i` items already consumed. -/
def consumeFullSliceCloningFrom (C : Consumer σ I F E) :
    σ → Nat → List I → Outcome (σ × Unwind (Except (ConsumeAtLeastError E) Unit))
  | s, _, [] => return (s, .returned (.ok ()))
  | s, i, item :: rest =>
    match clone item with
    | none => return (s, .unwound)
    | some item => do
      match ← C.consume s item with
      | (s, .error err) => return (s, .returned (.error { count := i, reason := err }))
      | (s, .ok ()) => consumeFullSliceCloningFrom C s (i + 1) rest

/-- `/repo/ufotofu/src/lib.rs:136-157` `Consumer::consume_full_slice` (line 145 clones). -/
def consumeFullSliceCloning (C : Consumer σ I F E) (s : σ) (buf : List I) :
    Outcome (σ × Unwind (Except (ConsumeAtLeastError E) Unit)) :=
  consumeFullSliceCloningFrom clone C s 0 buf

/-- A consumer with the default `bulk_consume`. -/
def BulkConsumer.cloning (C : BulkConsumer σ I F E) : BulkConsumer σ I F E :=
  { C with bulkConsume := fun s buf => uncaught (bulkConsumeCloning clone C.exposeSlots C.writeSlots C.consumeSlots s buf) }

/-- A producer with the default `bulk_produce`, and with a `produce` that may clone. -/
def BulkProducer.cloning (P : BulkProducer σ I F E) (produce : σ → Outcome (σ × Unwind (Except E (I ⊕ F)))) : BulkProducer σ I F E :=
  { P with
    produce := fun s => uncaught (produce s)
    bulkProduce := fun s buf => (uncaught (bulkProduceCloning clone P.exposeItems P.considerProduced s buf)).bind
      fun ((s, buf), r) => ok (s, r, buf) }

end

/-! ## `FromSlice`, `FromBoxedSlice`, `IntoVec` -/

section

variable {T : Type} (clone : T → Option T)

/-- `/repo/ufotofu/src/producer/from_slice.rs:157-166` (line 161 clones). -/
def FromSlice.produceCloning (s : FromSlice T) : Outcome (FromSlice T × Unwind (Except Empty (T ⊕ Unit))) := do
  if s.data.length = s.pos then
    return (s, .returned (.ok (.inr ())))
  else
    match clone (← index s.data s.pos) with
    | none => return (s, .unwound)
    | some item => return ({ s with pos := s.pos + 1 }, .returned (.ok (.inl item)))

/-- from_slice.rs:152-196 -/
def FromSlice.cloningProducer : BulkProducer (FromSlice T) T Unit Empty :=
  (FromSlice.producer T).cloning clone (FromSlice.produceCloning clone)

/-- `/repo/ufotofu/src/producer/from_boxed_slice.rs:196-205` (line 200 clones). -/
def FromBoxedSlice.produceCloning (s : FromBoxedSlice T) : Outcome (FromBoxedSlice T × Unwind (Except Empty (T ⊕ Unit))) := do
  if s.data.length = s.pos then
    return (s, .returned (.ok (.inr ())))
  else
    match clone (← index s.data s.pos) with
    | none => return (s, .unwound)
    | some item => return ({ s with pos := s.pos + 1 }, .returned (.ok (.inl item)))

/-- from_boxed_slice.rs:188-235 -/
def FromBoxedSlice.cloningProducer : BulkProducer (FromBoxedSlice T) T Unit Empty :=
  (FromBoxedSlice.producer T).cloning clone (FromBoxedSlice.produceCloning clone)

/-- `/repo/ufotofu/src/consumer/into_vec.rs:166-208` -/
def IntoVec.cloningConsumer [Inhabited T] : BulkConsumer (IntoVec T) T Unit Empty := (IntoVec.consumer T).cloning clone

end

/-! ## Queues -/

section

variable {κ I : Type} (clone : I → Option I)

/-- `/repo/ufotofu_queues/src/lib.rs:93-105` default `Queue::bulk_enqueue` (line 99 clones). -/
def bulkEnqueueCloning (exposeSlots : κ → Outcome (κ × Option (List I))) (writeSlots : κ → List I → κ)
    (considerEnqueued : κ → Nat → Outcome κ) (q : κ) (buffer : List I) : Outcome (κ × Unwind Nat) := do
  match ← exposeSlots q with
  | (q, none) => return (q, .returned 0)
  | (q, some slots) =>
    let amount := min slots.length buffer.length
    let (ys, u) := cloneSlice clone (buffer.take amount)
    let q := writeSlots q ys
    match u with
    | .unwound => return (q, .unwound)
    | .returned () =>
      let q ← considerEnqueued q amount
      return (q, .returned amount)

/-- `/repo/ufotofu_queues/src/lib.rs:144-156` default `Queue::bulk_dequeue` (line 150 clones). -/
def bulkDequeueCloning (exposeItems : κ → Outcome (κ × Option (List I))) (considerDequeued : κ → Nat → Outcome κ) (q : κ)
    (buffer : List I) : Outcome ((κ × List I) × Unwind Nat) := do
  match ← exposeItems q with
  | (q, none) => return ((q, buffer), .returned 0)
  | (q, some slots) =>
    let amount := min slots.length buffer.length
    let (ys, u) := cloneSlice clone (slots.take amount)
    let buffer := ys ++ buffer.drop ys.length
    match u with
    | .unwound => return ((q, buffer), .unwound)
    | .returned () =>
      let q ← considerDequeued q amount
      return ((q, buffer), .returned amount)

/-- `/repo/ufotofu_queues/src/fixed.rs:270-281` (line 279 clones, after the item has been removed). -/
def Fixed.dequeueCloning (q : Fixed I) : Outcome (Fixed I × Unwind (Option I)) := do
  if q.amount = 0 then
    return (q, .returned none)
  else
    let previousRead := q.read
    let read ← mod (q.read + 1) q.capacity
    let amount ← sub q.amount 1
    let q := { q with read := read, amount := amount }
    match clone (← index q.data previousRead) with
    | none => return (q, .unwound)
    | some item => return (q, .returned (some item))

/-- `/repo/ufotofu_queues/src/static_.rs:107-118` (line 116 clones, after the item has been removed). -/
def Static.dequeueCloning {N : Nat} (q : Static I N) : Outcome (Static I N × Unwind (Option I)) := do
  if q.amount = 0 then
    return (q, .returned none)
  else
    let previousRead := q.read
    let read ← mod (q.read + 1) N
    let amount ← sub q.amount 1
    let q := { q with read := read, amount := amount }
    match clone (← index q.data previousRead) with
    | none => return (q, .unwound)
    | some item => return (q, .returned (some item))

/-- A queue with the default bulk methods. -/
def Queue.cloning (Q : Queue κ I) (dequeue : κ → Outcome (κ × Unwind (Option I))) : Queue κ I :=
  { Q with
    bulkEnqueue := fun q buf => uncaught (bulkEnqueueCloning clone Q.exposeSlots Q.writeSlots Q.considerEnqueued q buf)
    dequeue := fun q => uncaught (dequeue q)
    bulkDequeue := fun q buf => (uncaught (bulkDequeueCloning clone Q.exposeItems Q.considerDequeued q buf)).bind
      fun ((q, buf), n) => ok (q, n, buf) }

/-- fixed.rs:240-295 -/
def Fixed.cloningQueue : Queue (Fixed I) I := (Fixed.queue I).cloning clone (Fixed.dequeueCloning clone)

/-- static_.rs:77-132 -/
def Static.cloningQueue (N : Nat) : Queue (Static I N) I := (Static.queue I N).cloning clone (Static.dequeueCloning clone)

end

end Verif
