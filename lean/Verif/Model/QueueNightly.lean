import Verif.Model.Queue

/-!
# The constructors of `Fixed` with feature `nightly`

Model of `/repo/ufotofu_queues/src/fixed.rs:27-38, 54-65, 84-98, 139-198` and of the parts of `Vec` that they use. With the feature,
`Fixed` is generic over an allocator and has constructors that do not panic if there is no memory. (The methods of the queue,
fixed.rs:200-237 and 297-352, and its `Debug` implementations, fixed.rs:392-427, are copies of those without the feature, which are
modelled in `Model/Queue.lean`.)

The allocator decides about every request, and the state records them all. As documented for `Vec`, it may provide more memory than
has been asked for.
-/

namespace Verif

open Outcome

/-- A request for memory: for that many items, or to shrink an allocation to that many items. -/
inductive Request where
  | allocate (items : Nat)
  | shrink (items : Nat)
  deriving DecidableEq, Repr

/-- How the allocator answers, as a function of the earlier requests: with the number of items for which there is space, or not
at all. -/
abbrev Allocator := List Request → Request → Option Nat

/-- `Vec`: its items and the number of items for which memory has been allocated. -/
structure RawVec (T : Type) where
  items : List T
  space : Nat

/-- `Vec::try_with_capacity_in`: an empty vector does not need memory. -/
def RawVec.tryWithCapacity {T : Type} (A : Allocator) (log : List Request) (capacity : Nat) :
    List Request × Option (RawVec T) :=
  if capacity = 0 then (log, some ⟨[], 0⟩)
  else (log ++ [.allocate capacity], (A log (.allocate capacity)).map fun space => ⟨[], space⟩)

/-- `Vec::with_capacity_in`: panics (or aborts) if there is no memory. -/
def RawVec.withCapacity {T : Type} (A : Allocator) (log : List Request) (capacity : Nat) :
    Outcome (List Request × RawVec T) :=
  match RawVec.tryWithCapacity A log capacity with
  | (log, some v) => ok (log, v)
  | (_, none) => .panic

/-- `Vec::resize_with` of a vector that is not longer than `n`: reserves memory if there is not enough. -/
def RawVec.resizeWith {T : Type} (A : Allocator) (log : List Request) (v : RawVec T) (n : Nat) (tmp : Nat → T) :
    Outcome (List Request × RawVec T) :=
  let items := v.items ++ (List.range (n - v.items.length)).map tmp
  if n ≤ v.space then ok (log, ⟨items, v.space⟩)
  else match A log (.allocate n) with
    | some space => ok (log ++ [.allocate n], ⟨items, space⟩)
    | none => .panic

/-- `Vec::into_boxed_slice`: discards excess memory. -/
def RawVec.intoBoxedSlice {T : Type} (A : Allocator) (log : List Request) (v : RawVec T) : Outcome (List Request × List T) :=
  if v.items.length < v.space then
    match A log (.shrink v.items.length) with
    | some _ => ok (log ++ [.shrink v.items.length], v.items)
    | none => .panic
  else ok (log, v.items)

namespace Fixed

variable {T : Type}

/-- `/repo/ufotofu_queues/src/fixed.rs:170-183` `new_in_with_manual_tmps`; fixed.rs:142-151 `new_in` (filler = `Default::default`);
fixed.rs:43-52 `new` and 70-82 `new_with_manual_tmps` (global allocator). Returns the requests for memory as well. -/
def newIn (A : Allocator) (log : List Request) (capacity : Nat) (tmp : Nat → T) : Outcome (List Request × Fixed T) := do
  let (log, v) ← RawVec.withCapacity A log capacity
  let (log, v) ← v.resizeWith A log capacity tmp
  let (log, data) ← v.intoBoxedSlice A log
  return (log, { data := data, read := 0, amount := 0 })

/-- fixed.rs:186-198 `try_new_in_with_manual_tmps`; fixed.rs:154-163 `try_new_in`; fixed.rs:56-65 `try_new` and 86-98
`try_new_with_manual_tmps` (global allocator). -/
def tryNewIn (A : Allocator) (log : List Request) (capacity : Nat) (tmp : Nat → T) :
    Outcome (List Request × Option (Fixed T)) := do
  match RawVec.tryWithCapacity A log capacity with
  | (log, none) => return (log, none)
  | (log, some v) =>
    let (log, v) ← v.resizeWith A log capacity tmp
    let (log, data) ← v.intoBoxedSlice A log
    return (log, some { data := data, read := 0, amount := 0 })

end Fixed

end Verif
