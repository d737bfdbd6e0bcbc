import Verif.Model.Producers
import Verif.Model.Consumers
import Verif.Model.AsyncTraits

/-!
# The adaptors, poll by poll

Model of `/repo/ufotofu/src/{producer,consumer}/{limit,map_item,map_final,map_error,invariant,invariant_noop}.rs`, as in
`Verif/Model/Producers.lean` and `Verif/Model/Consumers.lean`, for wrapped producers and consumers whose futures may be pending.
-/

namespace Verif.Async

open Outcome

variable {σ I F E : Type}

/-! ## Producers -/

/-- `/repo/ufotofu/src/producer/limit.rs:48-66` -/
def limitProducer (P : Producer σ I F E) : Producer (LimitSt σ) I (Option F) E where
  /- limit.rs:54-65 -/
  produce s := do
    match s.remaining with
    | 0 => return (s, .ok (.inr none))
    | decremented + 1 =>
      match ← P.produce s.inner with
      | (inner, .error e) => return (⟨inner, decremented⟩, .error e)
      | (inner, .ok (.inl item)) => return (⟨inner, decremented⟩, .ok (.inl item))
      | (inner, .ok (.inr fin)) => return (⟨inner, decremented⟩, .ok (.inr (some fin)))

/-- limit.rs:68-72 -/
def limitBufferedProducer (P : BufferedProducer σ I F E) : BufferedProducer (LimitSt σ) I (Option F) E where
  toProducer := limitProducer P.toProducer
  slurp s := do
    let (inner, r) ← P.slurp s.inner
    return (⟨inner, s.remaining⟩, r)

/-- limit.rs:74-95 -/
def limitBulkProducer (P : BulkProducer σ I F E) : BulkProducer (LimitSt σ) I (Option F) E where
  toBufferedProducer := limitBufferedProducer P.toBufferedProducer
  /- limit.rs:75-89 -/
  exposeItems s := do
    if s.remaining = 0 then
      return (s, .ok (.inr none))
    else
      match ← P.exposeItems s.inner with
      | (inner, .error e) => return (⟨inner, s.remaining⟩, .error e)
      | (inner, .ok (.inl items)) =>
        let items ← slice items 0 (min s.remaining items.length)
        return (⟨inner, s.remaining⟩, .ok (.inl items))
      | (inner, .ok (.inr fin)) => return (⟨inner, s.remaining⟩, .ok (.inr (some fin)))
  /- limit.rs:91-94 -/
  considerProduced s amount := do
    let remaining ← sub s.remaining amount
    let (inner, r) ← P.considerProduced s.inner amount
    return (⟨inner, remaining⟩, r)

/-- `/repo/ufotofu/src/producer/map_item.rs:32-43` -/
def mapItemProducer {φ B : Type} (f : φ → I → φ × B) (P : Producer σ I F E) : Producer (MapItemSt σ φ) B F E where
  produce s := do
    match ← P.produce s.inner with
    | (inner, .error e) => return (⟨inner, s.captured⟩, .error e)
    | (inner, .ok (.inl item)) =>
      let (captured, b) := f s.captured item
      return (⟨inner, captured⟩, .ok (.inl b))
    | (inner, .ok (.inr fin)) => return (⟨inner, s.captured⟩, .ok (.inr fin))

/-- map_item.rs:45-49 -/
def mapItemBufferedProducer {φ B : Type} (f : φ → I → φ × B) (P : BufferedProducer σ I F E) :
    BufferedProducer (MapItemSt σ φ) B F E where
  toProducer := mapItemProducer f P.toProducer
  slurp s := do
    let (inner, r) ← P.slurp s.inner
    return (⟨inner, s.captured⟩, r)

/-- `/repo/ufotofu/src/producer/map_final.rs:35-50` -/
def mapFinalProducer {B : Type} (P : Producer σ I F E) : Producer (MapFinalSt σ F B) I B E where
  produce s := do
    match ← P.produce s.inner with
    | (inner, .error e) => return (⟨inner, s.fn⟩, .error e)
    | (inner, .ok (.inl item)) => return (⟨inner, s.fn⟩, .ok (.inl item))
    | (inner, .ok (.inr fin)) =>
      let f ← unwrap s.fn
      return (⟨inner, none⟩, .ok (.inr (f fin)))

/-- map_final.rs:52-56 -/
def mapFinalBufferedProducer {B : Type} (P : BufferedProducer σ I F E) :
    BufferedProducer (MapFinalSt σ F B) I B E where
  toProducer := mapFinalProducer P.toProducer
  slurp s := do
    let (inner, r) ← P.slurp s.inner
    return (⟨inner, s.fn⟩, r)

/-- map_final.rs:58-78 -/
def mapFinalBulkProducer {B : Type} (P : BulkProducer σ I F E) : BulkProducer (MapFinalSt σ F B) I B E where
  toBufferedProducer := mapFinalBufferedProducer P.toBufferedProducer
  /- map_final.rs:59-73 -/
  exposeItems s := do
    match ← P.exposeItems s.inner with
    | (inner, .error e) => return (⟨inner, s.fn⟩, .error e)
    | (inner, .ok (.inl items)) => return (⟨inner, s.fn⟩, .ok (.inl items))
    | (inner, .ok (.inr fin)) =>
      let f ← unwrap s.fn
      return (⟨inner, none⟩, .ok (.inr (f fin)))
  /- map_final.rs:75-77 -/
  considerProduced s amount := do
    let (inner, r) ← P.considerProduced s.inner amount
    return (⟨inner, s.fn⟩, r)

/-- `/repo/ufotofu/src/producer/map_error.rs:35-47` -/
def mapErrorProducer {B : Type} (P : Producer σ I F E) : Producer (MapErrorSt σ E B) I F B where
  produce s := do
    let (inner, r) ← P.produce s.inner
    mapErrTake inner s.fn r

/-- map_error.rs:49-57 -/
def mapErrorBufferedProducer {B : Type} (P : BufferedProducer σ I F E) :
    BufferedProducer (MapErrorSt σ E B) I F B where
  toProducer := mapErrorProducer P.toProducer
  slurp s := do
    let (inner, r) ← P.slurp s.inner
    mapErrTake inner s.fn r

/-- map_error.rs:59-80 -/
def mapErrorBulkProducer {B : Type} (P : BulkProducer σ I F E) : BulkProducer (MapErrorSt σ E B) I F B where
  toBufferedProducer := mapErrorBufferedProducer P.toBufferedProducer
  /- map_error.rs:60-71 -/
  exposeItems s := do
    let (inner, r) ← P.exposeItems s.inner
    mapErrTake inner s.fn r
  /- map_error.rs:73-79 -/
  considerProduced s amount := do
    let (inner, r) ← P.considerProduced s.inner amount
    mapErrTake inner s.fn r

/-- `/repo/ufotofu/src/producer/invariant.rs:82-103` -/
def invariantProducer (P : Producer σ I F E) : Producer (InvariantSt σ) I F E where
  produce s := do
    s.checkInactive
    match ← P.produce s.inner with
    | (inner, .error e) => return (⟨inner, false, s.exposedSlots⟩, .error e)
    | (inner, .ok (.inl item)) => return (⟨inner, s.active, s.exposedSlots⟩, .ok (.inl item))
    | (inner, .ok (.inr fin)) => return (⟨inner, false, s.exposedSlots⟩, .ok (.inr fin))

/-- invariant.rs:105-113 -/
def invariantBufferedProducer (P : BufferedProducer σ I F E) : BufferedProducer (InvariantSt σ) I F E where
  toProducer := invariantProducer P.toProducer
  slurp s := do
    s.checkInactive
    match ← P.slurp s.inner with
    | (inner, .error e) => return (⟨inner, false, s.exposedSlots⟩, .error e)
    | (inner, .ok ()) => return (⟨inner, s.active, s.exposedSlots⟩, .ok ())

/-- invariant.rs:115-148 -/
def invariantBulkProducer (P : BulkProducer σ I F E) : BulkProducer (InvariantSt σ) I F E where
  toBufferedProducer := invariantBufferedProducer P.toBufferedProducer
  /- invariant.rs:116-134 -/
  exposeItems s := do
    s.checkInactive
    match ← P.exposeItems s.inner with
    | (inner, .error e) => return (⟨inner, false, s.exposedSlots⟩, .error e)
    | (inner, .ok (.inl slots)) => return (⟨inner, s.active, slots.length⟩, .ok (.inl slots))
    | (inner, .ok (.inr fin)) => return (⟨inner, false, s.exposedSlots⟩, .ok (.inr fin))
  /- invariant.rs:136-147 -/
  considerProduced s amount := do
    s.checkInactive
    if amount > s.exposedSlots then
      Outcome.panic
    else
      let exposedSlots ← sub s.exposedSlots amount
      let (inner, r) ← P.considerProduced s.inner amount
      return (⟨inner, s.active, exposedSlots⟩, r)

/-- `/repo/ufotofu/src/producer/invariant_noop.rs:64-93`: everything is forwarded, but `bulk_produce` is the default. -/
def invariantNoopBulkProducer (P : BulkProducer σ I F E) : BulkProducer σ I F E where
  toBufferedProducer := P.toBufferedProducer
  exposeItems := P.exposeItems
  considerProduced := P.considerProduced

/-! ## Consumers -/

/-- `/repo/ufotofu/src/consumer/limit.rs:38-57` -/
def limitConsumer (C : Consumer σ I F E) : Consumer (LimitSt σ) I F (Option E) where
  /- limit.rs:44-52 -/
  consume s item := do
    match s.remaining with
    | 0 => return (s, .error none)
    | decremented + 1 =>
      let (inner, r) ← C.consume s.inner item
      return (⟨inner, decremented⟩, r.mapError some)
  /- limit.rs:54-56 -/
  close s fin := do
    let (inner, r) ← C.close s.inner fin
    return (⟨inner, s.remaining⟩, r.mapError some)

/-- limit.rs:59-63 -/
def limitBufferedConsumer (C : BufferedConsumer σ I F E) : BufferedConsumer (LimitSt σ) I F (Option E) where
  toConsumer := limitConsumer C.toConsumer
  flush s := do
    let (inner, r) ← C.flush s.inner
    return (⟨inner, s.remaining⟩, r.mapError some)

/-- limit.rs:65-83 -/
def limitBulkConsumer (C : BulkConsumer σ I F E) : BulkConsumer (LimitSt σ) I F (Option E) where
  toBufferedConsumer := limitBufferedConsumer C.toBufferedConsumer
  /- limit.rs:66-77; `?` converts the error `e` to `Some(e)` -/
  exposeSlots s := do
    if s.remaining = 0 then
      return (s, .error none)
    else
      match ← C.exposeSlots s.inner with
      | (inner, .error e) => return (⟨inner, s.remaining⟩, .error (some e))
      | (inner, .ok slots) =>
        let slots ← slice slots 0 (min s.remaining slots.length)
        return (⟨inner, s.remaining⟩, .ok slots)
  writeSlots s ws := { s with inner := C.writeSlots s.inner ws }
  /- limit.rs:79-82 -/
  consumeSlots s amount := do
    let remaining ← sub s.remaining amount
    let (inner, r) ← C.consumeSlots s.inner amount
    return (⟨inner, remaining⟩, r.mapError some)

/-- `/repo/ufotofu/src/consumer/map_item.rs:37-53` -/
def mapItemConsumer {φ B : Type} (f : φ → B → φ × I) (C : Consumer σ I F E) : Consumer (MapItemSt σ φ) B F E where
  /- map_item.rs:46-48 -/
  consume s item := do
    let (captured, mapped) := f s.captured item
    let (inner, r) ← C.consume s.inner mapped
    return (⟨inner, captured⟩, r)
  /- map_item.rs:50-52 -/
  close s fin := do
    let (inner, r) ← C.close s.inner fin
    return (⟨inner, s.captured⟩, r)

/-- map_item.rs:55-63 -/
def mapItemBufferedConsumer {φ B : Type} (f : φ → B → φ × I) (C : BufferedConsumer σ I F E) :
    BufferedConsumer (MapItemSt σ φ) B F E where
  toConsumer := mapItemConsumer f C.toConsumer
  flush s := do
    let (inner, r) ← C.flush s.inner
    return (⟨inner, s.captured⟩, r)

/-- `/repo/ufotofu/src/consumer/map_final.rs:37-56` -/
def mapFinalConsumer {B : Type} (C : Consumer σ I F E) : Consumer (MapFinalSt σ B F) I B E where
  /- map_final.rs:42-44 -/
  consume s item := do
    let (inner, r) ← C.consume s.inner item
    return (⟨inner, s.fn⟩, r)
  /- map_final.rs:46-55 -/
  close s fin := do
    let f ← unwrap s.fn
    let (inner, r) ← C.close s.inner (f fin)
    return (⟨inner, none⟩, r)

/-- map_final.rs:58-62 -/
def mapFinalBufferedConsumer {B : Type} (C : BufferedConsumer σ I F E) :
    BufferedConsumer (MapFinalSt σ B F) I B E where
  toConsumer := mapFinalConsumer C.toConsumer
  flush s := do
    let (inner, r) ← C.flush s.inner
    return (⟨inner, s.fn⟩, r)

/-- map_final.rs:64-75 -/
def mapFinalBulkConsumer {B : Type} (C : BulkConsumer σ I F E) : BulkConsumer (MapFinalSt σ B F) I B E where
  toBufferedConsumer := mapFinalBufferedConsumer C.toBufferedConsumer
  exposeSlots s := do
    let (inner, r) ← C.exposeSlots s.inner
    return (⟨inner, s.fn⟩, r)
  writeSlots s ws := { s with inner := C.writeSlots s.inner ws }
  consumeSlots s amount := do
    let (inner, r) ← C.consumeSlots s.inner amount
    return (⟨inner, s.fn⟩, r)

/-- `/repo/ufotofu/src/consumer/map_error.rs:33-53` -/
def mapErrorConsumer {B : Type} (C : Consumer σ I F E) : Consumer (MapErrorSt σ E B) I F B where
  /- map_error.rs:38-44 -/
  consume s item := do
    let (inner, r) ← C.consume s.inner item
    mapErrTake inner s.fn r
  /- map_error.rs:46-52 -/
  close s fin := do
    let (inner, r) ← C.close s.inner fin
    mapErrTake inner s.fn r

/-- map_error.rs:55-63 -/
def mapErrorBufferedConsumer {B : Type} (C : BufferedConsumer σ I F E) :
    BufferedConsumer (MapErrorSt σ E B) I F B where
  toConsumer := mapErrorConsumer C.toConsumer
  flush s := do
    let (inner, r) ← C.flush s.inner
    mapErrTake inner s.fn r

/-- map_error.rs:65-84 -/
def mapErrorBulkConsumer {B : Type} (C : BulkConsumer σ I F E) : BulkConsumer (MapErrorSt σ E B) I F B where
  toBufferedConsumer := mapErrorBufferedConsumer C.toBufferedConsumer
  /- map_error.rs:66-75 -/
  exposeSlots s := do
    let (inner, r) ← C.exposeSlots s.inner
    mapErrTake inner s.fn r
  writeSlots s ws := { s with inner := C.writeSlots s.inner ws }
  /- map_error.rs:77-83 -/
  consumeSlots s amount := do
    let (inner, r) ← C.consumeSlots s.inner amount
    mapErrTake inner s.fn r

/-- `/repo/ufotofu/src/consumer/invariant.rs:78-102`; the struct (invariant.rs:21-31) and `check_inactive` (59-63) are the
same as for producers. -/
def invariantConsumer (C : Consumer σ I F E) : Consumer (InvariantSt σ) I F E where
  /- invariant.rs:86-94 -/
  consume s item := do
    s.checkInactive
    match ← C.consume s.inner item with
    | (inner, .error e) => return (⟨inner, false, s.exposedSlots⟩, .error e)
    | (inner, .ok ()) => return (⟨inner, s.active, s.exposedSlots⟩, .ok ())
  /- invariant.rs:96-101 -/
  close s fin := do
    s.checkInactive
    let (inner, r) ← C.close s.inner fin
    return (⟨inner, false, s.exposedSlots⟩, r)

/-- invariant.rs:104-115 -/
def invariantBufferedConsumer (C : BufferedConsumer σ I F E) : BufferedConsumer (InvariantSt σ) I F E where
  toConsumer := invariantConsumer C.toConsumer
  flush s := do
    s.checkInactive
    match ← C.flush s.inner with
    | (inner, .error e) => return (⟨inner, false, s.exposedSlots⟩, .error e)
    | (inner, .ok ()) => return (⟨inner, s.active, s.exposedSlots⟩, .ok ())

/-- invariant.rs:117-152 -/
def invariantBulkConsumer (C : BulkConsumer σ I F E) : BulkConsumer (InvariantSt σ) I F E where
  toBufferedConsumer := invariantBufferedConsumer C.toBufferedConsumer
  /- invariant.rs:121-136 -/
  exposeSlots s := do
    s.checkInactive
    match ← C.exposeSlots s.inner with
    | (inner, .error e) => return (⟨inner, false, s.exposedSlots⟩, .error e)
    | (inner, .ok slots) => return (⟨inner, s.active, slots.length⟩, .ok slots)
  writeSlots s ws := { s with inner := C.writeSlots s.inner ws }
  /- invariant.rs:138-151 -/
  consumeSlots s amount := do
    s.checkInactive
    if amount > s.exposedSlots then
      Outcome.panic
    else
      let exposedSlots ← sub s.exposedSlots amount
      let (inner, r) ← C.consumeSlots s.inner amount
      return (⟨inner, s.active, exposedSlots⟩, r)

/-- `/repo/ufotofu/src/consumer/invariant_noop.rs:60-100`: everything is forwarded, but `bulk_consume` is the default. -/
def invariantNoopBulkConsumer (C : BulkConsumer σ I F E) : BulkConsumer σ I F E where
  toBufferedConsumer := C.toBufferedConsumer
  exposeSlots := C.exposeSlots
  writeSlots := C.writeSlots
  consumeSlots := C.consumeSlots

end Verif.Async
