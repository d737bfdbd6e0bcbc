import Verif.Model.WordQueue
import Verif.Model.Consumers

/-!
# Producers and consumers that count, with machine arithmetic

`FromSlice`, `FromBoxedSlice`, `IntoVec`, both `Limit`s and both `Invariant`s once more, with sums, differences and products as they are
computed on a machine. Shared with the models in which `usize` is `Nat` are the types of the states, and the methods that compute
nothing.
-/

namespace Verif

open Outcome

namespace WordFromSlice

variable {T : Type}

/-- `/repo/ufotofu/src/producer/from_slice.rs:157-166` -/
def produce (w : Word) (s : FromSlice T) : Outcome (FromSlice T × Except Empty (T ⊕ Unit)) := do
  if s.data.length = s.pos then
    return (s, .ok (.inr ()))
  else
    let item ← index s.data s.pos
    return ({ s with pos := ← w.add s.pos 1 }, .ok (.inl item))

/-- from_slice.rs:191-195 -/
def considerProduced (w : Word) (s : FromSlice T) (amount : Nat) : Outcome (FromSlice T × Except Empty Unit) := do
  return ({ s with pos := ← w.add s.pos amount }, .ok ())

/-- from_slice.rs:152-196 -/
def producer (w : Word) (T : Type) : BulkProducer (FromSlice T) T Unit Empty where
  produce := produce w
  slurp := FromSlice.slurp
  exposeItems := FromSlice.exposeItems
  considerProduced := considerProduced w

end WordFromSlice

namespace WordFromBoxedSlice

variable {T : Type}

/-- `/repo/ufotofu/src/producer/from_boxed_slice.rs:196-205` -/
def produce (w : Word) (s : FromBoxedSlice T) : Outcome (FromBoxedSlice T × Except Empty (T ⊕ Unit)) := do
  if s.data.length = s.pos then
    return (s, .ok (.inr ()))
  else
    let item ← index s.data s.pos
    return ({ s with pos := ← w.add s.pos 1 }, .ok (.inl item))

/-- from_boxed_slice.rs:230-234 -/
def considerProduced (w : Word) (s : FromBoxedSlice T) (amount : Nat) : Outcome (FromBoxedSlice T × Except Empty Unit) := do
  return ({ s with pos := ← w.add s.pos amount }, .ok ())

/-- from_boxed_slice.rs:188-235 -/
def producer (w : Word) (T : Type) : BulkProducer (FromBoxedSlice T) T Unit Empty where
  produce := produce w
  slurp := FromBoxedSlice.slurp
  exposeItems := FromBoxedSlice.exposeItems
  considerProduced := considerProduced w

end WordFromBoxedSlice

namespace WordIntoVec

variable {T : Type} [Inhabited T]

/-- `/repo/ufotofu/src/consumer/into_vec.rs:150-155` -/
def makeSpaceIfNeeded (w : Word) (s : IntoVec T) : Outcome (IntoVec T) := do
  if s.consumed = s.v.length then
    return { s with v := IntoVec.resizeWith s.v (← w.add (← w.mul s.consumed 2) 1) }
  else
    return s

/-- into_vec.rs:157-159 -/
def makeSpaceEvenIfNotNeeded (w : Word) (s : IntoVec T) : Outcome (IntoVec T) := do
  return { s with v := IntoVec.resizeWith s.v (← w.add (← w.mul s.v.length 2) 1) }

omit [Inhabited T] in
/-- into_vec.rs:161-163 -/
def remainingSlots (w : Word) (s : IntoVec T) : Outcome Nat := w.sub s.v.length s.consumed

/-- into_vec.rs:171-179 -/
def consume (w : Word) (s : IntoVec T) (item : T) : Outcome (IntoVec T × Except Empty Unit) := do
  let s ← makeSpaceIfNeeded w s
  let v ← setIndex s.v s.consumed item
  return ({ v := v, consumed := ← w.add s.consumed 1 }, .ok ())

/-- into_vec.rs:193-201 -/
def exposeSlots (w : Word) (s : IntoVec T) : Outcome (IntoVec T × Except Empty (List T)) := do
  let s ← makeSpaceIfNeeded w s
  let slots ← slice s.v s.consumed s.v.length
  return (s, .ok slots)

omit [Inhabited T] in
/-- into_vec.rs:203-207 -/
def consumeSlots (w : Word) (s : IntoVec T) (amount : Nat) : Outcome (IntoVec T × Except Empty Unit) := do
  return ({ s with consumed := ← w.add s.consumed amount }, .ok ())

/-- into_vec.rs:166-208 -/
def consumer (w : Word) (T : Type) [Inhabited T] : BulkConsumer (IntoVec T) T Unit Empty where
  consume := consume w
  close := IntoVec.close
  flush := IntoVec.flush
  exposeSlots := exposeSlots w
  writeSlots := IntoVec.writeSlots
  consumeSlots := consumeSlots w

end WordIntoVec

section

variable {σ I F E : Type}

/-- `/repo/ufotofu/src/producer/limit.rs:74-95`. (`produce` uses `checked_sub`.) -/
def wordLimitBulkProducer (w : Word) (P : BulkProducer σ I F E) : BulkProducer (LimitSt σ) I (Option F) E where
  toBufferedProducer := limitBufferedProducer P.toBufferedProducer
  exposeItems := (limitBulkProducer P).exposeItems
  /- limit.rs:91-94 -/
  considerProduced s amount := do
    let remaining ← w.sub s.remaining amount
    let (inner, r) ← P.considerProduced s.inner amount
    return (⟨inner, remaining⟩, r)

/-- `/repo/ufotofu/src/consumer/limit.rs:65-83`. (`consume` uses `checked_sub`.) -/
def wordLimitBulkConsumer (w : Word) (C : BulkConsumer σ I F E) : BulkConsumer (LimitSt σ) I F (Option E) where
  toBufferedConsumer := limitBufferedConsumer C.toBufferedConsumer
  exposeSlots := (limitBulkConsumer C).exposeSlots
  writeSlots := (limitBulkConsumer C).writeSlots
  /- limit.rs:79-82 -/
  consumeSlots s amount := do
    let remaining ← w.sub s.remaining amount
    let (inner, r) ← C.consumeSlots s.inner amount
    return (⟨inner, remaining⟩, r.mapError some)

/-- `/repo/ufotofu/src/producer/invariant.rs:115-148` -/
def wordInvariantBulkProducer (w : Word) (P : BulkProducer σ I F E) : BulkProducer (InvariantSt σ) I F E where
  toBufferedProducer := invariantBufferedProducer P.toBufferedProducer
  exposeItems := (invariantBulkProducer P).exposeItems
  /- invariant.rs:136-147 -/
  considerProduced s amount := do
    s.checkInactive
    if amount > s.exposedSlots then
      .panic
    else
      let exposedSlots ← w.sub s.exposedSlots amount
      let (inner, r) ← P.considerProduced s.inner amount
      return (⟨inner, s.active, exposedSlots⟩, r)

/-- `/repo/ufotofu/src/consumer/invariant.rs:117-152` -/
def wordInvariantBulkConsumer (w : Word) (C : BulkConsumer σ I F E) : BulkConsumer (InvariantSt σ) I F E where
  toBufferedConsumer := invariantBufferedConsumer C.toBufferedConsumer
  exposeSlots := (invariantBulkConsumer C).exposeSlots
  writeSlots := (invariantBulkConsumer C).writeSlots
  /- invariant.rs:138-151 -/
  consumeSlots s amount := do
    s.checkInactive
    if amount > s.exposedSlots then
      .panic
    else
      let exposedSlots ← w.sub s.exposedSlots amount
      let (inner, r) ← C.consumeSlots s.inner amount
      return (⟨inner, s.active, exposedSlots⟩, r)

end

end Verif
