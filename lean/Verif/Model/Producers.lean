import Verif.Model.Traits

/-!
# Producers of `ufotofu::producer`

Model of `/repo/ufotofu/src/producer/{from_slice,from_boxed_slice,empty,limit,map_item,map_final,map_error,invariant,
invariant_noop}.rs`. All types that do not override `bulk_produce` use the default of the trait.

`FromSlice_`, `FromBoxedSlice_` and `Empty_` (the public types `FromSlice`, `FromBoxedSlice`, `Empty`) are newtypes around
`Invariant<FromSlice>` etc.; their trait methods forward to the wrapped `Invariant` (producer/macros.rs:19-125), so they are
`invariantBulkProducer (FromSlice.producer T)` etc. when testing, and `invariantNoopBulkProducer (FromSlice.producer T)` etc.
otherwise.
-/

namespace Verif

open Outcome

/-! ## `FromSlice`, `FromBoxedSlice` -/

/-- `/repo/ufotofu/src/producer/from_slice.rs:144` `struct FromSlice(&[T], usize)` -/
structure FromSlice (T : Type) where
  data : List T
  pos : Nat
  deriving DecidableEq, Repr

namespace FromSlice

variable {T : Type}

/-- from_slice.rs:33-36 -/
def new (data : List T) : FromSlice T := ⟨data, 0⟩

/-- from_slice.rs:157-166 -/
def produce (s : FromSlice T) : Outcome (FromSlice T × Except Empty (T ⊕ Unit)) := do
  if s.data.length = s.pos then
    return (s, .ok (.inr ()))
  else
    let item ← index s.data s.pos
    return ({ s with pos := s.pos + 1 }, .ok (.inl item))

/-- from_slice.rs:170-173 -/
def slurp (s : FromSlice T) : Outcome (FromSlice T × Except Empty Unit) := return (s, .ok ())

/-- from_slice.rs:177-189 -/
def exposeItems (s : FromSlice T) : Outcome (FromSlice T × Except Empty (List T ⊕ Unit)) := do
  let slice ← Outcome.slice s.data s.pos s.data.length
  if slice.isEmpty then
    return (s, .ok (.inr ()))
  else
    return (s, .ok (.inl slice))

/-- from_slice.rs:191-195 -/
def considerProduced (s : FromSlice T) (amount : Nat) : Outcome (FromSlice T × Except Empty Unit) :=
  return ({ s with pos := s.pos + amount }, .ok ())

/-- from_slice.rs:152-196. `Infallible` is `Empty`. -/
def producer (T : Type) : BulkProducer (FromSlice T) T Unit Empty where
  produce := produce
  slurp := slurp
  exposeItems := exposeItems
  considerProduced := considerProduced

/-- from_slice.rs:59-61 -/
def offset (s : FromSlice T) : Nat := s.pos

/-- from_slice.rs:84-86 -/
def producedSoFar (s : FromSlice T) : Outcome (List T) := Outcome.slice s.data 0 s.offset

/-- from_slice.rs:109-111 -/
def notYetProduced (s : FromSlice T) : Outcome (List T) := Outcome.slice s.data s.offset s.data.length

/-- from_slice.rs:128-130 (and the `AsRef` implementation, 146-150) -/
def intoInner (s : FromSlice T) : List T := s.data

end FromSlice

/-- `/repo/ufotofu/src/producer/from_boxed_slice.rs:180` `struct FromBoxedSlice(Box<[T]>, usize)` -/
structure FromBoxedSlice (T : Type) where
  data : List T
  pos : Nat
  deriving DecidableEq, Repr

namespace FromBoxedSlice

variable {T : Type}

/-- from_boxed_slice.rs:41-45, 63-67 -/
def new (data : List T) : FromBoxedSlice T := ⟨data, 0⟩

/-- from_boxed_slice.rs:196-205 -/
def produce (s : FromBoxedSlice T) : Outcome (FromBoxedSlice T × Except Empty (T ⊕ Unit)) := do
  if s.data.length = s.pos then
    return (s, .ok (.inr ()))
  else
    let item ← index s.data s.pos
    return ({ s with pos := s.pos + 1 }, .ok (.inl item))

/-- from_boxed_slice.rs:209-212 -/
def slurp (s : FromBoxedSlice T) : Outcome (FromBoxedSlice T × Except Empty Unit) := return (s, .ok ())

/-- from_boxed_slice.rs:216-228 -/
def exposeItems (s : FromBoxedSlice T) : Outcome (FromBoxedSlice T × Except Empty (List T ⊕ Unit)) := do
  let slice ← Outcome.slice s.data s.pos s.data.length
  if slice.isEmpty then
    return (s, .ok (.inr ()))
  else
    return (s, .ok (.inl slice))

/-- from_boxed_slice.rs:230-234 -/
def considerProduced (s : FromBoxedSlice T) (amount : Nat) : Outcome (FromBoxedSlice T × Except Empty Unit) :=
  return ({ s with pos := s.pos + amount }, .ok ())

/-- from_boxed_slice.rs:188-235 -/
def producer (T : Type) : BulkProducer (FromBoxedSlice T) T Unit Empty where
  produce := produce
  slurp := slurp
  exposeItems := exposeItems
  considerProduced := considerProduced

/-- from_boxed_slice.rs:90-92 -/
def offset (s : FromBoxedSlice T) : Nat := s.pos

/-- from_boxed_slice.rs:115-117 -/
def producedSoFar (s : FromBoxedSlice T) : Outcome (List T) := Outcome.slice s.data 0 s.offset

/-- from_boxed_slice.rs:140-142 -/
def notYetProduced (s : FromBoxedSlice T) : Outcome (List T) := Outcome.slice s.data s.offset s.data.length

/-- from_boxed_slice.rs:159-161 (and the `AsRef` implementations, 165-169, 182-186) -/
def intoInner (s : FromBoxedSlice T) : List T := s.data

end FromBoxedSlice

/-! ## `Empty` -/

/-- `/repo/ufotofu/src/producer/empty.rs:46-49` -/
structure EmptyProducer (F : Type) where
  fin : Option F
  deriving DecidableEq, Repr

namespace EmptyProducer

variable {I F E : Type}

/-- empty.rs:30-36 -/
def new (fin : F) : EmptyProducer F := ⟨some fin⟩

/-- empty.rs:62-66 -/
def produce (s : EmptyProducer F) : Outcome (EmptyProducer F × Except E (I ⊕ F)) := do
  let fin ← unwrap s.fin
  return (⟨none⟩, .ok (.inr fin))

/-- empty.rs:70-73 -/
def slurp (s : EmptyProducer F) : Outcome (EmptyProducer F × Except E Unit) := return (s, .ok ())

/-- empty.rs:77-86 -/
def exposeItems (s : EmptyProducer F) : Outcome (EmptyProducer F × Except E (List I ⊕ F)) := do
  let fin ← unwrap s.fin
  return (⟨none⟩, .ok (.inr fin))

/-- empty.rs:88-90 -/
def considerProduced (s : EmptyProducer F) (_amount : Nat) : Outcome (EmptyProducer F × Except E Unit) :=
  return (s, .ok ())

/-- empty.rs:57-91 -/
def producer (I F E : Type) : BulkProducer (EmptyProducer F) I F E where
  produce := produce
  slurp := slurp
  exposeItems := exposeItems
  considerProduced := considerProduced

end EmptyProducer

/-! ## Adaptors -/

section

variable {σ I F E : Type}

/-- `/repo/ufotofu/src/producer/limit.rs:7-10` -/
structure LimitSt (σ : Type) where
  inner : σ
  remaining : Nat
  deriving DecidableEq, Repr

/-- limit.rs:43-45; the same for consumers, `/repo/ufotofu/src/consumer/limit.rs:33-35`. -/
def LimitSt.intoInner (s : LimitSt σ) : σ := s.inner

/-- limit.rs:48-66 -/
def limitProducer (P : Producer σ I F E) : Producer (LimitSt σ) I (Option F) E where
  /- limit.rs:54-65 -/
  produce s := do
    match s.remaining with
    | 0 => return (s, .ok (.inr none))
    | decremented + 1 =>
      match ← P.produce s.inner with
      | (inner, .error e) => return (⟨inner, decremented⟩, .error e)
      | (inner, .ok (.inl item)) => return (⟨inner, decremented⟩, .ok (.inl item))
      | (inner, .ok (.inr fin)) => return (⟨inner, decremented⟩, .ok (.inr (some fin)))

/-- limit.rs:68-72 -/
def limitBufferedProducer (P : BufferedProducer σ I F E) : BufferedProducer (LimitSt σ) I (Option F) E where
  toProducer := limitProducer P.toProducer
  slurp s := do
    let (inner, r) ← P.slurp s.inner
    return (⟨inner, s.remaining⟩, r)

/-- limit.rs:74-95 -/
def limitBulkProducer (P : BulkProducer σ I F E) : BulkProducer (LimitSt σ) I (Option F) E where
  toBufferedProducer := limitBufferedProducer P.toBufferedProducer
  /- limit.rs:75-89 -/
  exposeItems s := do
    if s.remaining = 0 then
      return (s, .ok (.inr none))
    else
      match ← P.exposeItems s.inner with
      | (inner, .error e) => return (⟨inner, s.remaining⟩, .error e)
      | (inner, .ok (.inl items)) =>
        let items ← slice items 0 (min s.remaining items.length)
        return (⟨inner, s.remaining⟩, .ok (.inl items))
      | (inner, .ok (.inr fin)) => return (⟨inner, s.remaining⟩, .ok (.inr (some fin)))
  /- limit.rs:91-94 -/
  considerProduced s amount := do
    let remaining ← sub s.remaining amount
    let (inner, r) ← P.considerProduced s.inner amount
    return (⟨inner, remaining⟩, r)

/-- `/repo/ufotofu/src/producer/map_item.rs:7-10`; `fun : FnMut(P::Item) -> B` is a function together with its captured
state `φ`. -/
structure MapItemSt (σ φ : Type) where
  inner : σ
  captured : φ
  deriving DecidableEq, Repr

/-- map_item.rs:27-29; the same for consumers, `/repo/ufotofu/src/consumer/map_item.rs:32-34`. -/
def MapItemSt.intoInner {φ : Type} (s : MapItemSt σ φ) : σ := s.inner

/-- map_item.rs:32-43 -/
def mapItemProducer {φ B : Type} (f : φ → I → φ × B) (P : Producer σ I F E) : Producer (MapItemSt σ φ) B F E where
  produce s := do
    match ← P.produce s.inner with
    | (inner, .error e) => return (⟨inner, s.captured⟩, .error e)
    | (inner, .ok (.inl item)) =>
      let (captured, b) := f s.captured item
      return (⟨inner, captured⟩, .ok (.inl b))
    | (inner, .ok (.inr fin)) => return (⟨inner, s.captured⟩, .ok (.inr fin))

/-- map_item.rs:45-49 -/
def mapItemBufferedProducer {φ B : Type} (f : φ → I → φ × B) (P : BufferedProducer σ I F E) :
    BufferedProducer (MapItemSt σ φ) B F E where
  toProducer := mapItemProducer f P.toProducer
  slurp s := do
    let (inner, r) ← P.slurp s.inner
    return (⟨inner, s.captured⟩, r)

/-- `/repo/ufotofu/src/producer/map_final.rs:7-10` -/
structure MapFinalSt (σ A B : Type) where
  inner : σ
  fn : Option (A → B)

/-- map_final.rs:30-32; the same for consumers, `/repo/ufotofu/src/consumer/map_final.rs:32-34`. -/
def MapFinalSt.intoInner {A B : Type} (s : MapFinalSt σ A B) : σ := s.inner

/-- map_final.rs:35-50 -/
def mapFinalProducer {B : Type} (P : Producer σ I F E) : Producer (MapFinalSt σ F B) I B E where
  produce s := do
    match ← P.produce s.inner with
    | (inner, .error e) => return (⟨inner, s.fn⟩, .error e)
    | (inner, .ok (.inl item)) => return (⟨inner, s.fn⟩, .ok (.inl item))
    | (inner, .ok (.inr fin)) =>
      let f ← unwrap s.fn
      return (⟨inner, none⟩, .ok (.inr (f fin)))

/-- map_final.rs:52-56 -/
def mapFinalBufferedProducer {B : Type} (P : BufferedProducer σ I F E) :
    BufferedProducer (MapFinalSt σ F B) I B E where
  toProducer := mapFinalProducer P.toProducer
  slurp s := do
    let (inner, r) ← P.slurp s.inner
    return (⟨inner, s.fn⟩, r)

/-- map_final.rs:58-78 -/
def mapFinalBulkProducer {B : Type} (P : BulkProducer σ I F E) : BulkProducer (MapFinalSt σ F B) I B E where
  toBufferedProducer := mapFinalBufferedProducer P.toBufferedProducer
  /- map_final.rs:59-73 -/
  exposeItems s := do
    match ← P.exposeItems s.inner with
    | (inner, .error e) => return (⟨inner, s.fn⟩, .error e)
    | (inner, .ok (.inl items)) => return (⟨inner, s.fn⟩, .ok (.inl items))
    | (inner, .ok (.inr fin)) =>
      let f ← unwrap s.fn
      return (⟨inner, none⟩, .ok (.inr (f fin)))
  /- map_final.rs:75-77 -/
  considerProduced s amount := do
    let (inner, r) ← P.considerProduced s.inner amount
    return (⟨inner, s.fn⟩, r)

/-- `/repo/ufotofu/src/producer/map_error.rs:7-10` -/
structure MapErrorSt (σ A B : Type) where
  inner : σ
  fn : Option (A → B)

/-- map_error.rs:30-32; the same for consumers, `/repo/ufotofu/src/consumer/map_error.rs:28-30`. -/
def MapErrorSt.intoInner {A B : Type} (s : MapErrorSt σ A B) : σ := s.inner

/-- `inner_result.map_err(self.fun.take().expect(..))`: the argument of `map_err` is evaluated (so the function is taken)
whether or not the result is an error. -/
def mapErrTake {σ A B α : Type} (inner : σ) (fn : Option (A → B)) (r : Except A α) :
    Outcome (MapErrorSt σ A B × Except B α) := do
  let f ← unwrap fn
  return (⟨inner, none⟩, r.mapError f)

/-- map_error.rs:35-47 -/
def mapErrorProducer {B : Type} (P : Producer σ I F E) : Producer (MapErrorSt σ E B) I F B where
  produce s := do
    let (inner, r) ← P.produce s.inner
    mapErrTake inner s.fn r

/-- map_error.rs:49-57 -/
def mapErrorBufferedProducer {B : Type} (P : BufferedProducer σ I F E) :
    BufferedProducer (MapErrorSt σ E B) I F B where
  toProducer := mapErrorProducer P.toProducer
  slurp s := do
    let (inner, r) ← P.slurp s.inner
    mapErrTake inner s.fn r

/-- map_error.rs:59-80 -/
def mapErrorBulkProducer {B : Type} (P : BulkProducer σ I F E) : BulkProducer (MapErrorSt σ E B) I F B where
  toBufferedProducer := mapErrorBufferedProducer P.toBufferedProducer
  /- map_error.rs:60-71 -/
  exposeItems s := do
    let (inner, r) ← P.exposeItems s.inner
    mapErrTake inner s.fn r
  /- map_error.rs:73-79 -/
  considerProduced s amount := do
    let (inner, r) ← P.considerProduced s.inner amount
    mapErrTake inner s.fn r

/-! ## `Invariant` -/

/-- `/repo/ufotofu/src/producer/invariant.rs:27-35` -/
structure InvariantSt (σ : Type) where
  inner : σ
  active : Bool
  exposedSlots : Nat
  deriving DecidableEq, Repr

/-- invariant.rs:48-54 -/
def InvariantSt.new (inner : σ) : InvariantSt σ := ⟨inner, true, 0⟩

/-- invariant.rs:57-59; the same for consumers, `/repo/ufotofu/src/consumer/invariant.rs:53-55`. -/
def InvariantSt.intoInner (s : InvariantSt σ) : σ := s.inner

/-- invariant.rs:62-66 `check_inactive` -/
def InvariantSt.checkInactive (s : InvariantSt σ) : Outcome Unit := assert s.active

/-- invariant.rs:82-103 -/
def invariantProducer (P : Producer σ I F E) : Producer (InvariantSt σ) I F E where
  produce s := do
    s.checkInactive
    match ← P.produce s.inner with
    | (inner, .error e) => return (⟨inner, false, s.exposedSlots⟩, .error e)
    | (inner, .ok (.inl item)) => return (⟨inner, s.active, s.exposedSlots⟩, .ok (.inl item))
    | (inner, .ok (.inr fin)) => return (⟨inner, false, s.exposedSlots⟩, .ok (.inr fin))

/-- invariant.rs:105-113 -/
def invariantBufferedProducer (P : BufferedProducer σ I F E) : BufferedProducer (InvariantSt σ) I F E where
  toProducer := invariantProducer P.toProducer
  slurp s := do
    s.checkInactive
    match ← P.slurp s.inner with
    | (inner, .error e) => return (⟨inner, false, s.exposedSlots⟩, .error e)
    | (inner, .ok ()) => return (⟨inner, s.active, s.exposedSlots⟩, .ok ())

/-- invariant.rs:115-148 -/
def invariantBulkProducer (P : BulkProducer σ I F E) : BulkProducer (InvariantSt σ) I F E where
  toBufferedProducer := invariantBufferedProducer P.toBufferedProducer
  /- invariant.rs:116-134 -/
  exposeItems s := do
    s.checkInactive
    match ← P.exposeItems s.inner with
    | (inner, .error e) => return (⟨inner, false, s.exposedSlots⟩, .error e)
    | (inner, .ok (.inl slots)) => return (⟨inner, s.active, slots.length⟩, .ok (.inl slots))
    | (inner, .ok (.inr fin)) => return (⟨inner, false, s.exposedSlots⟩, .ok (.inr fin))
  /- invariant.rs:136-147 -/
  considerProduced s amount := do
    s.checkInactive
    if amount > s.exposedSlots then
      .panic
    else
      let exposedSlots ← sub s.exposedSlots amount
      let (inner, r) ← P.considerProduced s.inner amount
      return (⟨inner, s.active, exposedSlots⟩, r)

/-- `/repo/ufotofu/src/producer/invariant_noop.rs:64-93`: everything is forwarded, but `bulk_produce` is the default. -/
def invariantNoopBulkProducer (P : BulkProducer σ I F E) : BulkProducer σ I F E where
  toBufferedProducer := P.toBufferedProducer
  exposeItems := P.exposeItems
  considerProduced := P.considerProduced

end

end Verif
