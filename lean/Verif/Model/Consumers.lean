import Verif.Model.Producers

/-!
# Consumers of `ufotofu::consumer`

Model of `/repo/ufotofu/src/consumer/{into_vec,limit,map_item,map_final,map_error,invariant,invariant_noop}.rs`.
(`into_slice.rs`, which is not part of the crate, is modelled in `Model/IntoSlice.lean`.)

`IntoVec_` (the public type `IntoVec`) is a newtype around `Invariant<IntoVec>` whose trait methods forward to it
(consumer/macros.rs:19-129).
-/

namespace Verif

open Outcome

/-! ## `IntoVec` -/

/-- `/repo/ufotofu/src/consumer/into_vec.rs:128-132` -/
structure IntoVec (T : Type) where
  v : List T
  consumed : Nat
  deriving DecidableEq, Repr

namespace IntoVec

variable {T : Type}

/-- `Vec::resize_with(n, Default::default)`: truncate, or fill up with default values. -/
def resizeWith [Inhabited T] (v : List T) (n : Nat) : List T := v.take n ++ List.replicate (n - v.length) default

/-- into_vec.rs:83-90 -/
def fromVec (v : List T) : IntoVec T := { consumed := v.length, v := v }

/-- into_vec.rs:41-43. (`with_capacity`, 62-64, is the same: the capacity of a vector is not observable.) -/
def new : IntoVec T := fromVec []

/-- into_vec.rs:134-138 -/
def asRef (s : IntoVec T) : Outcome (List T) := slice s.v 0 s.consumed

/-- into_vec.rs:142-146 -/
def intoVec (s : IntoVec T) : List T := s.v.take s.consumed

/-- into_vec.rs:150-155 -/
def makeSpaceIfNeeded [Inhabited T] (s : IntoVec T) : IntoVec T :=
  if s.consumed = s.v.length then { s with v := resizeWith s.v (s.consumed * 2 + 1) } else s

/-- into_vec.rs:157-159 -/
def makeSpaceEvenIfNotNeeded [Inhabited T] (s : IntoVec T) : IntoVec T :=
  { s with v := resizeWith s.v (s.v.length * 2 + 1) }

/-- into_vec.rs:161-163 -/
def remainingSlots (s : IntoVec T) : Outcome Nat := sub s.v.length s.consumed

/-- into_vec.rs:171-179 -/
def consume [Inhabited T] (s : IntoVec T) (item : T) : Outcome (IntoVec T × Except Empty Unit) := do
  let s := s.makeSpaceIfNeeded
  let v ← setIndex s.v s.consumed item
  return ({ v := v, consumed := s.consumed + 1 }, .ok ())

/-- into_vec.rs:181-183 -/
def close (s : IntoVec T) (_fin : Unit) : Outcome (IntoVec T × Except Empty Unit) := return (s, .ok ())

/-- into_vec.rs:187-189 -/
def flush (s : IntoVec T) : Outcome (IntoVec T × Except Empty Unit) := return (s, .ok ())

/-- into_vec.rs:193-201 -/
def exposeSlots [Inhabited T] (s : IntoVec T) : Outcome (IntoVec T × Except Empty (List T)) := do
  let s := s.makeSpaceIfNeeded
  let slots ← slice s.v s.consumed s.v.length
  return (s, .ok slots)

/-- Writing to the first slots of `&mut self.v[self.consumed..]`. -/
def writeSlots (s : IntoVec T) (ws : List T) : IntoVec T :=
  { s with v := s.v.take s.consumed ++ ws ++ s.v.drop (s.consumed + ws.length) }

/-- into_vec.rs:203-207 -/
def consumeSlots (s : IntoVec T) (amount : Nat) : Outcome (IntoVec T × Except Empty Unit) :=
  return ({ s with consumed := s.consumed + amount }, .ok ())

/-- into_vec.rs:166-208 -/
def consumer (T : Type) [Inhabited T] : BulkConsumer (IntoVec T) T Unit Empty where
  consume := consume
  close := close
  flush := flush
  exposeSlots := exposeSlots
  writeSlots := writeSlots
  consumeSlots := consumeSlots

end IntoVec

/-! ## Adaptors -/

section

variable {σ I F E : Type}

/-- `/repo/ufotofu/src/consumer/limit.rs:38-57` -/
def limitConsumer (C : Consumer σ I F E) : Consumer (LimitSt σ) I F (Option E) where
  /- limit.rs:44-52 -/
  consume s item := do
    match s.remaining with
    | 0 => return (s, .error none)
    | decremented + 1 =>
      let (inner, r) ← C.consume s.inner item
      return (⟨inner, decremented⟩, r.mapError some)
  /- limit.rs:54-56 -/
  close s fin := do
    let (inner, r) ← C.close s.inner fin
    return (⟨inner, s.remaining⟩, r.mapError some)

/-- limit.rs:59-63 -/
def limitBufferedConsumer (C : BufferedConsumer σ I F E) : BufferedConsumer (LimitSt σ) I F (Option E) where
  toConsumer := limitConsumer C.toConsumer
  flush s := do
    let (inner, r) ← C.flush s.inner
    return (⟨inner, s.remaining⟩, r.mapError some)

/-- limit.rs:65-83 -/
def limitBulkConsumer (C : BulkConsumer σ I F E) : BulkConsumer (LimitSt σ) I F (Option E) where
  toBufferedConsumer := limitBufferedConsumer C.toBufferedConsumer
  /- limit.rs:66-77; `?` converts the error `e` to `Some(e)` -/
  exposeSlots s := do
    if s.remaining = 0 then
      return (s, .error none)
    else
      match ← C.exposeSlots s.inner with
      | (inner, .error e) => return (⟨inner, s.remaining⟩, .error (some e))
      | (inner, .ok slots) =>
        let slots ← slice slots 0 (min s.remaining slots.length)
        return (⟨inner, s.remaining⟩, .ok slots)
  writeSlots s ws := { s with inner := C.writeSlots s.inner ws }
  /- limit.rs:79-82 -/
  consumeSlots s amount := do
    let remaining ← sub s.remaining amount
    let (inner, r) ← C.consumeSlots s.inner amount
    return (⟨inner, remaining⟩, r.mapError some)

/-- `/repo/ufotofu/src/consumer/map_item.rs:37-53` -/
def mapItemConsumer {φ B : Type} (f : φ → B → φ × I) (C : Consumer σ I F E) : Consumer (MapItemSt σ φ) B F E where
  /- map_item.rs:46-48 -/
  consume s item := do
    let (captured, mapped) := f s.captured item
    let (inner, r) ← C.consume s.inner mapped
    return (⟨inner, captured⟩, r)
  /- map_item.rs:50-52 -/
  close s fin := do
    let (inner, r) ← C.close s.inner fin
    return (⟨inner, s.captured⟩, r)

/-- map_item.rs:55-63 -/
def mapItemBufferedConsumer {φ B : Type} (f : φ → B → φ × I) (C : BufferedConsumer σ I F E) :
    BufferedConsumer (MapItemSt σ φ) B F E where
  toConsumer := mapItemConsumer f C.toConsumer
  flush s := do
    let (inner, r) ← C.flush s.inner
    return (⟨inner, s.captured⟩, r)

/-- `/repo/ufotofu/src/consumer/map_final.rs:37-56` -/
def mapFinalConsumer {B : Type} (C : Consumer σ I F E) : Consumer (MapFinalSt σ B F) I B E where
  /- map_final.rs:42-44 -/
  consume s item := do
    let (inner, r) ← C.consume s.inner item
    return (⟨inner, s.fn⟩, r)
  /- map_final.rs:46-55 -/
  close s fin := do
    let f ← unwrap s.fn
    let (inner, r) ← C.close s.inner (f fin)
    return (⟨inner, none⟩, r)

/-- map_final.rs:58-62 -/
def mapFinalBufferedConsumer {B : Type} (C : BufferedConsumer σ I F E) :
    BufferedConsumer (MapFinalSt σ B F) I B E where
  toConsumer := mapFinalConsumer C.toConsumer
  flush s := do
    let (inner, r) ← C.flush s.inner
    return (⟨inner, s.fn⟩, r)

/-- map_final.rs:64-75 -/
def mapFinalBulkConsumer {B : Type} (C : BulkConsumer σ I F E) : BulkConsumer (MapFinalSt σ B F) I B E where
  toBufferedConsumer := mapFinalBufferedConsumer C.toBufferedConsumer
  exposeSlots s := do
    let (inner, r) ← C.exposeSlots s.inner
    return (⟨inner, s.fn⟩, r)
  writeSlots s ws := { s with inner := C.writeSlots s.inner ws }
  consumeSlots s amount := do
    let (inner, r) ← C.consumeSlots s.inner amount
    return (⟨inner, s.fn⟩, r)

/-- `/repo/ufotofu/src/consumer/map_error.rs:33-53` -/
def mapErrorConsumer {B : Type} (C : Consumer σ I F E) : Consumer (MapErrorSt σ E B) I F B where
  /- map_error.rs:38-44 -/
  consume s item := do
    let (inner, r) ← C.consume s.inner item
    mapErrTake inner s.fn r
  /- map_error.rs:46-52 -/
  close s fin := do
    let (inner, r) ← C.close s.inner fin
    mapErrTake inner s.fn r

/-- map_error.rs:55-63 -/
def mapErrorBufferedConsumer {B : Type} (C : BufferedConsumer σ I F E) :
    BufferedConsumer (MapErrorSt σ E B) I F B where
  toConsumer := mapErrorConsumer C.toConsumer
  flush s := do
    let (inner, r) ← C.flush s.inner
    mapErrTake inner s.fn r

/-- map_error.rs:65-84 -/
def mapErrorBulkConsumer {B : Type} (C : BulkConsumer σ I F E) : BulkConsumer (MapErrorSt σ E B) I F B where
  toBufferedConsumer := mapErrorBufferedConsumer C.toBufferedConsumer
  /- map_error.rs:66-75 -/
  exposeSlots s := do
    let (inner, r) ← C.exposeSlots s.inner
    mapErrTake inner s.fn r
  writeSlots s ws := { s with inner := C.writeSlots s.inner ws }
  /- map_error.rs:77-83 -/
  consumeSlots s amount := do
    let (inner, r) ← C.consumeSlots s.inner amount
    mapErrTake inner s.fn r

/-! ## `Invariant` -/

/-- `/repo/ufotofu/src/consumer/invariant.rs:78-102`; the struct (invariant.rs:21-31) and `check_inactive` (59-63) are the
same as for producers. -/
def invariantConsumer (C : Consumer σ I F E) : Consumer (InvariantSt σ) I F E where
  /- invariant.rs:86-94 -/
  consume s item := do
    s.checkInactive
    match ← C.consume s.inner item with
    | (inner, .error e) => return (⟨inner, false, s.exposedSlots⟩, .error e)
    | (inner, .ok ()) => return (⟨inner, s.active, s.exposedSlots⟩, .ok ())
  /- invariant.rs:96-101 -/
  close s fin := do
    s.checkInactive
    let (inner, r) ← C.close s.inner fin
    return (⟨inner, false, s.exposedSlots⟩, r)

/-- invariant.rs:104-115 -/
def invariantBufferedConsumer (C : BufferedConsumer σ I F E) : BufferedConsumer (InvariantSt σ) I F E where
  toConsumer := invariantConsumer C.toConsumer
  flush s := do
    s.checkInactive
    match ← C.flush s.inner with
    | (inner, .error e) => return (⟨inner, false, s.exposedSlots⟩, .error e)
    | (inner, .ok ()) => return (⟨inner, s.active, s.exposedSlots⟩, .ok ())

/-- invariant.rs:117-152 -/
def invariantBulkConsumer (C : BulkConsumer σ I F E) : BulkConsumer (InvariantSt σ) I F E where
  toBufferedConsumer := invariantBufferedConsumer C.toBufferedConsumer
  /- invariant.rs:121-136 -/
  exposeSlots s := do
    s.checkInactive
    match ← C.exposeSlots s.inner with
    | (inner, .error e) => return (⟨inner, false, s.exposedSlots⟩, .error e)
    | (inner, .ok slots) => return (⟨inner, s.active, slots.length⟩, .ok slots)
  writeSlots s ws := { s with inner := C.writeSlots s.inner ws }
  /- invariant.rs:138-151 -/
  consumeSlots s amount := do
    s.checkInactive
    if amount > s.exposedSlots then
      .panic
    else
      let exposedSlots ← sub s.exposedSlots amount
      let (inner, r) ← C.consumeSlots s.inner amount
      return (⟨inner, s.active, exposedSlots⟩, r)

/-- `/repo/ufotofu/src/consumer/invariant_noop.rs:60-100`: everything is forwarded, but `bulk_consume` is the default. -/
def invariantNoopBulkConsumer (C : BulkConsumer σ I F E) : BulkConsumer σ I F E where
  toBufferedConsumer := C.toBufferedConsumer
  exposeSlots := C.exposeSlots
  writeSlots := C.writeSlots
  consumeSlots := C.consumeSlots

end

end Verif
