import Verif.Basic

/-!
# The queues of `ufotofu_queues`

Model of `/repo/ufotofu_queues/src/lib.rs`, `fixed.rs` and `static_.rs` (the `not(feature = "nightly")` variants; the
`nightly` variants repeat the same code for a generic allocator).
-/

namespace Verif

open Outcome

/-- `/repo/ufotofu_queues/src/lib.rs:93-105` default `Queue::bulk_enqueue`. -/
def bulkEnqueueDefault {κ I : Type} (exposeSlots : κ → Outcome (κ × Option (List I))) (writeSlots : κ → List I → κ)
    (considerEnqueued : κ → Nat → Outcome κ) (q : κ) (buffer : List I) : Outcome (κ × Nat) := do
  match ← exposeSlots q with
  | (q, none) => return (q, 0)
  | (q, some slots) =>
    let amount := min slots.length buffer.length
    let q := writeSlots q (buffer.take amount)
    let q ← considerEnqueued q amount
    return (q, amount)

/-- `/repo/ufotofu_queues/src/lib.rs:144-156` default `Queue::bulk_dequeue`; also returns the new contents of the buffer. -/
def bulkDequeueDefault {κ I : Type} (exposeItems : κ → Outcome (κ × Option (List I)))
    (considerDequeued : κ → Nat → Outcome κ) (q : κ) (buffer : List I) : Outcome (κ × Nat × List I) := do
  match ← exposeItems q with
  | (q, none) => return (q, 0, buffer)
  | (q, some slots) =>
    let amount := min slots.length buffer.length
    let buffer := slots.take amount ++ buffer.drop amount
    let q ← considerDequeued q amount
    return (q, amount, buffer)

/-- `/repo/ufotofu_queues/src/lib.rs:39-157` trait `Queue`. The `&mut [Item]` returned by `expose_slots` is modelled by the
contents of the slots together with the effect of writing to the first slots (`writeSlots`). -/
structure Queue (κ I : Type) where
  /-- lib.rs:44 -/
  len : κ → Nat
  /-- lib.rs:47-49 -/
  isEmpty : κ → Bool := fun q => len q == 0
  /-- lib.rs:54 -/
  enqueue : κ → I → Outcome (κ × Option I)
  /-- lib.rs:64 -/
  exposeSlots : κ → Outcome (κ × Option (List I))
  writeSlots : κ → List I → κ
  /-- lib.rs:82 -/
  considerEnqueued : κ → Nat → Outcome κ
  /-- lib.rs:93-105 -/
  bulkEnqueue : κ → List I → Outcome (κ × Nat) := bulkEnqueueDefault exposeSlots writeSlots considerEnqueued
  /-- lib.rs:110 -/
  dequeue : κ → Outcome (κ × Option I)
  /-- lib.rs:121 -/
  exposeItems : κ → Outcome (κ × Option (List I))
  /-- lib.rs:133 -/
  considerDequeued : κ → Nat → Outcome κ
  /-- lib.rs:144-156 -/
  bulkDequeue : κ → List I → Outcome (κ × Nat × List I) := bulkDequeueDefault exposeItems considerDequeued

/-- Overwrite the elements of `data` from index `i` on with `ws`. -/
def overwriteAt {T : Type} (data : List T) (i : Nat) (ws : List T) : List T :=
  data.take i ++ ws ++ data.drop (i + ws.length)

/-! ## `Fixed` -/

/-- `/repo/ufotofu_queues/src/fixed.rs:18-25` -/
structure Fixed (T : Type) where
  data : List T
  read : Nat
  amount : Nat
  deriving DecidableEq, Repr

namespace Fixed

variable {T : Type}

/-- fixed.rs:70-82 `new_with_manual_tmps`, and fixed.rs:43-52 `new` (filler = `Default::default`). The filler function may
return a different value every time, so `tmp` is a function of the index. -/
def new (capacity : Nat) (tmp : Nat → T) : Fixed T :=
  { data := (List.range capacity).map tmp, read := 0, amount := 0 }

/-- fixed.rs:130-132 -/
def capacity (q : Fixed T) : Nat := q.data.length

/-- fixed.rs:103-105 -/
def isDataContiguous (q : Fixed T) : Bool := q.read + q.amount < q.capacity

/-- fixed.rs:134-136 -/
def writeTo (q : Fixed T) : Outcome Nat := mod (q.read + q.amount) q.capacity

/-- fixed.rs:108-114 -/
def readableSlice (q : Fixed T) : Outcome (List T) := do
  if q.isDataContiguous then
    slice q.data q.read (← q.writeTo)
  else
    slice q.data q.read q.data.length

/-- fixed.rs:117-125 -/
def writeableSlice (q : Fixed T) : Outcome (List T) := do
  let capacity := q.capacity
  let writeTo ← q.writeTo
  if q.isDataContiguous then
    slice q.data writeTo capacity
  else
    slice q.data writeTo q.read

/-- fixed.rs:243-245 -/
def len (q : Fixed T) : Nat := q.amount

/-- fixed.rs:247-256 -/
def enqueue (q : Fixed T) (item : T) : Outcome (Fixed T × Option T) := do
  if q.amount = q.capacity then
    return (q, some item)
  else
    let data ← setIndex q.data (← q.writeTo) item
    return ({ q with data := data, amount := q.amount + 1 }, none)

/-- fixed.rs:258-264 -/
def exposeSlots (q : Fixed T) : Outcome (Fixed T × Option (List T)) := do
  if q.amount = q.capacity then
    return (q, none)
  else
    return (q, some (← q.writeableSlice))

/-- Writing to the first slots returned by `expose_slots` (they start at index `write_to`). -/
def writeSlots (q : Fixed T) (ws : List T) : Fixed T :=
  { q with data := overwriteAt q.data ((q.read + q.amount) % q.capacity) ws }

/-- fixed.rs:266-268 -/
def considerEnqueued (q : Fixed T) (amount : Nat) : Outcome (Fixed T) :=
  return { q with amount := q.amount + amount }

/-- fixed.rs:270-281 -/
def dequeue (q : Fixed T) : Outcome (Fixed T × Option T) := do
  if q.amount = 0 then
    return (q, none)
  else
    let previousRead := q.read
    let read ← mod (q.read + 1) q.capacity
    let amount ← sub q.amount 1
    let q := { q with read := read, amount := amount }
    let item ← index q.data previousRead
    return (q, some item)

/-- fixed.rs:283-289 -/
def exposeItems (q : Fixed T) : Outcome (Fixed T × Option (List T)) := do
  if q.amount = 0 then
    return (q, none)
  else
    return (q, some (← q.readableSlice))

/-- fixed.rs:291-294 -/
def considerDequeued (q : Fixed T) (amount : Nat) : Outcome (Fixed T) := do
  let read ← mod (q.read + amount) q.capacity
  let amount ← sub q.amount amount
  return { q with read := read, amount := amount }

/-- fixed.rs:240-295 `impl Queue for Fixed` -/
def queue (T : Type) : Queue (Fixed T) T where
  len := len
  enqueue := enqueue
  exposeSlots := exposeSlots
  writeSlots := writeSlots
  considerEnqueued := considerEnqueued
  dequeue := dequeue
  exposeItems := exposeItems
  considerDequeued := considerDequeued

/-- fixed.rs:366-390 `DataDebugger`: the list of entries that is printed. (fixed.rs:355-364: the struct printed around it
shows `capacity` and `amount`.) -/
def debugEntries (q : Fixed T) : Outcome (List T) := do
  if q.isDataContiguous then
    slice q.data q.read (← q.writeTo)
  else
    let first ← slice q.data q.read q.data.length
    let k ← sub q.amount first.length
    let second ← slice q.data 0 k
    return first ++ second

end Fixed

/-! ## `Static` -/

/-- `/repo/ufotofu_queues/src/static_.rs:10-17`. The array `[T; N]` is a list together with the fact that it has length
`N`. -/
structure Static (T : Type) (N : Nat) where
  data : List T
  size : data.length = N
  read : Nat
  amount : Nat

namespace Static

variable {T : Type} {N : Nat}

/-- static_.rs:36-45 `new_with_manual_tmps`, and static_.rs:25-34 `new`. -/
def new (N : Nat) (tmp : Nat → T) : Static T N :=
  { data := (List.range N).map tmp, size := by simp, read := 0, amount := 0 }

/-- static_.rs:48-50 -/
def isDataContiguous (q : Static T N) : Bool := q.read + q.amount < N

/-- static_.rs:72-74 -/
def writeTo (q : Static T N) : Outcome Nat := mod (q.read + q.amount) N

/-- static_.rs:53-59 -/
def readableSlice (q : Static T N) : Outcome (List T) := do
  if q.isDataContiguous then
    slice q.data q.read (← q.writeTo)
  else
    slice q.data q.read q.data.length

/-- static_.rs:62-70 -/
def writeableSlice (q : Static T N) : Outcome (List T) := do
  let capacity := N
  let writeTo ← q.writeTo
  if q.isDataContiguous then
    slice q.data writeTo capacity
  else
    slice q.data writeTo q.read

/-- static_.rs:80-82 -/
def len (q : Static T N) : Nat := q.amount

/-- static_.rs:84-93 -/
def enqueue (q : Static T N) (item : T) : Outcome (Static T N × Option T) := do
  if q.amount = N then
    return (q, some item)
  else
    let i ← q.writeTo
    if i < q.data.length then
      return ({ q with data := q.data.set i item, size := by simp [q.size], amount := q.amount + 1 }, none)
    else
      .panic

/-- static_.rs:95-101 -/
def exposeSlots (q : Static T N) : Outcome (Static T N × Option (List T)) := do
  if q.amount = N then
    return (q, none)
  else
    return (q, some (← q.writeableSlice))

/-- Writing to the first slots returned by `expose_slots` (they start at index `write_to`). A write that does not fit (which
safe Rust rules out) is modelled as no write. -/
def writeSlots (q : Static T N) (ws : List T) : Static T N :=
  if h : (overwriteAt q.data ((q.read + q.amount) % N) ws).length = N then
    { q with data := overwriteAt q.data ((q.read + q.amount) % N) ws, size := h }
  else q

/-- static_.rs:103-105 -/
def considerEnqueued (q : Static T N) (amount : Nat) : Outcome (Static T N) :=
  return { q with amount := q.amount + amount }

/-- static_.rs:107-118 -/
def dequeue (q : Static T N) : Outcome (Static T N × Option T) := do
  if q.amount = 0 then
    return (q, none)
  else
    let previousRead := q.read
    let read ← mod (q.read + 1) N
    let amount ← sub q.amount 1
    let q := { q with read := read, amount := amount }
    let item ← index q.data previousRead
    return (q, some item)

/-- static_.rs:120-126 -/
def exposeItems (q : Static T N) : Outcome (Static T N × Option (List T)) := do
  if q.amount = 0 then
    return (q, none)
  else
    return (q, some (← q.readableSlice))

/-- static_.rs:128-131 -/
def considerDequeued (q : Static T N) (amount : Nat) : Outcome (Static T N) := do
  let read ← mod (q.read + amount) N
  let amount ← sub q.amount amount
  return { q with read := read, amount := amount }

/-- static_.rs:77-132 `impl Queue for Static` -/
def queue (T : Type) (N : Nat) : Queue (Static T N) T where
  len := len
  enqueue := enqueue
  exposeSlots := exposeSlots
  writeSlots := writeSlots
  considerEnqueued := considerEnqueued
  dequeue := dequeue
  exposeItems := exposeItems
  considerDequeued := considerDequeued

/-- static_.rs:145-165 `DataDebugger` -/
def debugEntries (q : Static T N) : Outcome (List T) := do
  if q.isDataContiguous then
    slice q.data q.read (← q.writeTo)
  else
    let first ← slice q.data q.read q.data.length
    let k ← sub q.amount first.length
    let second ← slice q.data 0 k
    return first ++ second

end Static

end Verif
