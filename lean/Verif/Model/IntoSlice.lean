import Verif.Model.Consumers

/-!
# `IntoSlice`

Model of `/repo/ufotofu/src/consumer/into_slice.rs`. The crate does not compile this file (`consumer.rs:33-34` are comments), and it
predates the asynchronous traits: its methods are ordinary functions. They are modelled as methods of the current traits.
-/

namespace Verif

open Outcome

/-- `/repo/ufotofu/src/consumer/into_slice.rs:61-63`. `data` are the contents of the borrowed slice. -/
structure IntoSlice (T : Type) where
  data : List T
  offset : Nat

namespace IntoSlice

variable {T : Type}

/-- into_slice.rs:29-31 -/
def new (slice : List T) : IntoSlice T := ⟨slice, 0⟩

/-- into_slice.rs:34-36 -/
def getOffset (s : IntoSlice T) : Nat := s.offset

/-- into_slice.rs:39-41 and 49-52 -/
def getOverwrittenSoFar (s : IntoSlice T) : Outcome (List T) := slice s.data 0 s.getOffset

/-- into_slice.rs:44-46 and 55-58 -/
def getNotYetOverwritten (s : IntoSlice T) : Outcome (List T) := slice s.data s.getOffset s.data.length

/-- into_slice.rs:65-75 (`as_ref`, `as_mut`) and 77-81 (`into_inner`). -/
def intoInner (s : IntoSlice T) : List T := s.data

/-- into_slice.rs:88-98 -/
def consume (s : IntoSlice T) (item : T) : Outcome (IntoSlice T × Except Unit Unit) := do
  if s.data.length = s.offset then
    return (s, .error ())
  else
    let data ← setIndex s.data s.offset item
    return (⟨data, s.offset + 1⟩, .ok ())

/-- into_slice.rs:100-102 -/
def close (s : IntoSlice T) (_fin : Unit) : Outcome (IntoSlice T × Except Unit Unit) := return (s, .ok ())

/-- into_slice.rs:106-108 -/
def flush (s : IntoSlice T) : Outcome (IntoSlice T × Except Unit Unit) := return (s, .ok ())

/-- into_slice.rs:112-119 -/
def exposeSlots (s : IntoSlice T) : Outcome (IntoSlice T × Except Unit (List T)) := do
  if s.data.length = s.offset then
    return (s, .error ())
  else
    let slots ← slice s.data s.offset s.data.length
    return (s, .ok slots)

/-- Writing to the first slots of `&mut self.0[self.1..]`. -/
def writeSlots (s : IntoSlice T) (ws : List T) : IntoSlice T :=
  { s with data := s.data.take s.offset ++ ws ++ s.data.drop (s.offset + ws.length) }

/-- into_slice.rs:121-125 -/
def consumeSlots (s : IntoSlice T) (amount : Nat) : Outcome (IntoSlice T × Except Unit Unit) :=
  return ({ s with offset := s.offset + amount }, .ok ())

/-- into_slice.rs:83-126 -/
def consumer (T : Type) : BulkConsumer (IntoSlice T) T Unit Unit where
  consume := consume
  close := close
  flush := flush
  exposeSlots := exposeSlots
  writeSlots := writeSlots
  consumeSlots := consumeSlots

end IntoSlice

end Verif
