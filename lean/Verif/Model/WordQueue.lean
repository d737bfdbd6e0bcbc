import Verif.Model.Queue

/-!
# The queues of `ufotofu_queues` with machine arithmetic

`Model/Queue.lean` takes `usize` to be `Nat`, where sums cannot overflow. This file models the same code once more, with sums and
differences as they are computed on a machine, and shares with `Model/Queue.lean` only the types of the states. (Constants,
lengths of slices and vectors, and arguments are `usize` values, hence smaller than the size of the word.)
-/

namespace Verif

open Outcome

/-- How `usize` arithmetic behaves. `size`: `usize::MAX + 1`. `checks`: compiled with overflow checks (then overflow panics;
otherwise the result wraps around). -/
structure Word where
  size : Nat
  checks : Bool

namespace Word

/-- `a + b` -/
def add (w : Word) (a b : Nat) : Outcome Nat :=
  if a + b < w.size then ok (a + b) else if w.checks then .panic else ok ((a + b) % w.size)

/-- `a * b` -/
def mul (w : Word) (a b : Nat) : Outcome Nat :=
  if a * b < w.size then ok (a * b) else if w.checks then .panic else ok ((a * b) % w.size)

/-- `a - b` -/
def sub (w : Word) (a b : Nat) : Outcome Nat :=
  if b ≤ a then ok (a - b) else if w.checks then .panic else ok (w.size + a - b)

end Word

/-! ## `Fixed` -/

namespace WordFixed

variable {T : Type}

/-- fixed.rs:103-105 -/
def isDataContiguous (w : Word) (q : Fixed T) : Outcome Bool := do
  return (← w.add q.read q.amount) < q.data.length

/-- fixed.rs:134-136 -/
def writeTo (w : Word) (q : Fixed T) : Outcome Nat := do
  mod (← w.add q.read q.amount) q.data.length

/-- fixed.rs:108-114 -/
def readableSlice (w : Word) (q : Fixed T) : Outcome (List T) := do
  if ← isDataContiguous w q then
    slice q.data q.read (← writeTo w q)
  else
    slice q.data q.read q.data.length

/-- fixed.rs:117-125 -/
def writeableSlice (w : Word) (q : Fixed T) : Outcome (List T) := do
  let writeTo ← writeTo w q
  if ← isDataContiguous w q then
    slice q.data writeTo q.data.length
  else
    slice q.data writeTo q.read

/-- fixed.rs:247-256 -/
def enqueue (w : Word) (q : Fixed T) (item : T) : Outcome (Fixed T × Option T) := do
  if q.amount = q.data.length then
    return (q, some item)
  else
    let data ← setIndex q.data (← writeTo w q) item
    let amount ← w.add q.amount 1
    return ({ q with data := data, amount := amount }, none)

/-- fixed.rs:258-264 -/
def exposeSlots (w : Word) (q : Fixed T) : Outcome (Fixed T × Option (List T)) := do
  if q.amount = q.data.length then
    return (q, none)
  else
    return (q, some (← writeableSlice w q))

/-- Writing to the first slots returned by `expose_slots` (they start at index `write_to`). -/
def writeSlots (w : Word) (q : Fixed T) (ws : List T) : Fixed T :=
  match writeTo w q with
  | ok i => { q with data := overwriteAt q.data i ws }
  | _ => q

/-- fixed.rs:266-268 -/
def considerEnqueued (w : Word) (q : Fixed T) (amount : Nat) : Outcome (Fixed T) := do
  return { q with amount := ← w.add q.amount amount }

/-- fixed.rs:270-281 -/
def dequeue (w : Word) (q : Fixed T) : Outcome (Fixed T × Option T) := do
  if q.amount = 0 then
    return (q, none)
  else
    let previousRead := q.read
    let read ← mod (← w.add q.read 1) q.data.length
    let amount ← w.sub q.amount 1
    let q := { q with read := read, amount := amount }
    let item ← index q.data previousRead
    return (q, some item)

/-- fixed.rs:283-289 -/
def exposeItems (w : Word) (q : Fixed T) : Outcome (Fixed T × Option (List T)) := do
  if q.amount = 0 then
    return (q, none)
  else
    return (q, some (← readableSlice w q))

/-- fixed.rs:291-294 -/
def considerDequeued (w : Word) (q : Fixed T) (amount : Nat) : Outcome (Fixed T) := do
  let read ← mod (← w.add q.read amount) q.data.length
  let amount ← w.sub q.amount amount
  return { q with read := read, amount := amount }

/-- fixed.rs:240-295 `impl Queue for Fixed` -/
def queue (w : Word) (T : Type) : Queue (Fixed T) T where
  len q := q.amount
  enqueue := enqueue w
  exposeSlots := exposeSlots w
  writeSlots := writeSlots w
  considerEnqueued := considerEnqueued w
  dequeue := dequeue w
  exposeItems := exposeItems w
  considerDequeued := considerDequeued w

/-- fixed.rs:366-390 `DataDebugger` -/
def debugEntries (w : Word) (q : Fixed T) : Outcome (List T) := do
  if ← isDataContiguous w q then
    slice q.data q.read (← writeTo w q)
  else
    let first ← slice q.data q.read q.data.length
    let k ← w.sub q.amount first.length
    let second ← slice q.data 0 k
    return first ++ second

end WordFixed

/-! ## `Static` -/

namespace WordStatic

variable {T : Type} {N : Nat}

/-- static_.rs:48-50 -/
def isDataContiguous (w : Word) (q : Static T N) : Outcome Bool := do
  return (← w.add q.read q.amount) < N

/-- static_.rs:72-74 -/
def writeTo (w : Word) (q : Static T N) : Outcome Nat := do
  mod (← w.add q.read q.amount) N

/-- static_.rs:53-59 -/
def readableSlice (w : Word) (q : Static T N) : Outcome (List T) := do
  if ← isDataContiguous w q then
    slice q.data q.read (← writeTo w q)
  else
    slice q.data q.read q.data.length

/-- static_.rs:62-70 -/
def writeableSlice (w : Word) (q : Static T N) : Outcome (List T) := do
  let writeTo ← writeTo w q
  if ← isDataContiguous w q then
    slice q.data writeTo N
  else
    slice q.data writeTo q.read

/-- static_.rs:84-93 -/
def enqueue (w : Word) (q : Static T N) (item : T) : Outcome (Static T N × Option T) := do
  if q.amount = N then
    return (q, some item)
  else
    let i ← writeTo w q
    if i < q.data.length then
      let amount ← w.add q.amount 1
      return ({ q with data := q.data.set i item, size := by simp [q.size], amount := amount }, none)
    else
      .panic

/-- static_.rs:95-101 -/
def exposeSlots (w : Word) (q : Static T N) : Outcome (Static T N × Option (List T)) := do
  if q.amount = N then
    return (q, none)
  else
    return (q, some (← writeableSlice w q))

/-- Writing to the first slots returned by `expose_slots` (they start at index `write_to`). A write that does not fit (which
safe Rust rules out) is modelled as no write. -/
def writeSlots (w : Word) (q : Static T N) (ws : List T) : Static T N :=
  match writeTo w q with
  | ok i =>
    if h : (overwriteAt q.data i ws).length = N then { q with data := overwriteAt q.data i ws, size := h } else q
  | _ => q

/-- static_.rs:103-105 -/
def considerEnqueued (w : Word) (q : Static T N) (amount : Nat) : Outcome (Static T N) := do
  return { q with amount := ← w.add q.amount amount }

/-- static_.rs:107-118 -/
def dequeue (w : Word) (q : Static T N) : Outcome (Static T N × Option T) := do
  if q.amount = 0 then
    return (q, none)
  else
    let previousRead := q.read
    let read ← mod (← w.add q.read 1) N
    let amount ← w.sub q.amount 1
    let q := { q with read := read, amount := amount }
    let item ← index q.data previousRead
    return (q, some item)

/-- static_.rs:120-126 -/
def exposeItems (w : Word) (q : Static T N) : Outcome (Static T N × Option (List T)) := do
  if q.amount = 0 then
    return (q, none)
  else
    return (q, some (← readableSlice w q))

/-- static_.rs:128-131 -/
def considerDequeued (w : Word) (q : Static T N) (amount : Nat) : Outcome (Static T N) := do
  let read ← mod (← w.add q.read amount) N
  let amount ← w.sub q.amount amount
  return { q with read := read, amount := amount }

/-- static_.rs:77-132 `impl Queue for Static` -/
def queue (w : Word) (T : Type) (N : Nat) : Queue (Static T N) T where
  len q := q.amount
  enqueue := enqueue w
  exposeSlots := exposeSlots w
  writeSlots := writeSlots w
  considerEnqueued := considerEnqueued w
  dequeue := dequeue w
  exposeItems := exposeItems w
  considerDequeued := considerDequeued w

/-- static_.rs:145-165 `DataDebugger` -/
def debugEntries (w : Word) (q : Static T N) : Outcome (List T) := do
  if ← isDataContiguous w q then
    slice q.data q.read (← writeTo w q)
  else
    let first ← slice q.data q.read q.data.length
    let k ← w.sub q.amount first.length
    let second ← slice q.data 0 k
    return first ++ second

end WordStatic

end Verif
