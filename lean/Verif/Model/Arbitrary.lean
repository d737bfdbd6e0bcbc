import Verif.Model.TestDoubles
import Verif.Model.Endian

/-!
# Creating test doubles from random bytes

The `Arbitrary` implementations of the test doubles: `/repo/ufotofu/src/producer/test_producer.rs:134-158`,
`/repo/ufotofu/src/consumer/test_consumer.rs:139-163`, `/repo/ufotofu/src/test_yielder.rs:42-51`; and those that are derived for the
`Invariant` wrappers.

The trait and the implementations for types of the standard library are those of crate `arbitrary`, which is not part of the
repository. The implementations for the parts of a test double are parameters here; those of the crate, as documented there, are
at the end of this file.
-/

namespace Verif

/-- `arbitrary::Unstructured`: the bytes that are left. `starved` records whether somebody asked for more bytes than were left
(the crate then fills up with zeros, or stops early, or returns an error); the code does not contain it. -/
structure Unstructured where
  bytes : List UInt8
  starved : Bool := false
  deriving DecidableEq, Repr

/-- `arbitrary::Error`, its variants do not matter. -/
structure ArbitraryError where
  code : Nat
  deriving DecidableEq, Repr

/-- Trait `Arbitrary`. (A failed call leaves the input in some state, which nobody looks at.) -/
structure Arbitrary (T : Type) where
  arbitrary : Unstructured → Except ArbitraryError (T × Unstructured)
  /-- Lower bound and, if any, upper bound on the number of bytes needed. -/
  sizeHint : (depth : Nat) → Nat × Option Nat

/-- `arbitrary::size_hint::and` -/
def sizeHintAnd (a b : Nat × Option Nat) : Nat × Option Nat :=
  (a.1 + b.1, match a.2, b.2 with
    | some x, some y => some (x + y)
    | _, _ => none)

/-- `arbitrary::size_hint::and_all` -/
def sizeHintAndAll : List (Nat × Option Nat) → Nat × Option Nat
  | [] => (0, some 0)
  | h :: hs => sizeHintAnd h (sizeHintAndAll hs)

/-- test_yielder.rs:42-51 -/
def TestYielder.arbitrary (bools : Arbitrary (List Bool)) : Arbitrary TestYielder where
  /- test_yielder.rs:43-46 -/
  arbitrary u := do
    let (pattern, u) ← bools.arbitrary u
    return (TestYielder.new pattern, u)
  /- test_yielder.rs:48-50 -/
  sizeHint depth := bools.sizeHint depth

section

variable {I F E : Type}

/-- test_producer.rs:134-158. The first four parameters are what `arbitrary` uses; `size_hint` uses the implementations for
`Error` and `usize` instead of the first two. -/
def TestProducer.arbitrary (items : Arbitrary (List I)) (last : Arbitrary (Except E F)) (nonZeros : Arbitrary (List NonZero))
    (bools : Arbitrary (List Bool)) (error : Arbitrary E) (usize : Arbitrary Nat) :
    Arbitrary (InvariantSt (TestProducer I F E)) where
  /- test_producer.rs:137-148 -/
  arbitrary u := do
    let (items, u) ← items.arbitrary u
    let (last, u) ← last.arbitrary u
    let (slotSizes, u) ← nonZeros.arbitrary u
    let (yieldPattern, u) ← bools.arbitrary u
    return (.new (.new items last slotSizes (some yieldPattern)), u)
  /- test_producer.rs:150-157 -/
  sizeHint depth :=
    sizeHintAndAll [error.sizeHint depth, usize.sizeHint depth, nonZeros.sizeHint depth, bools.sizeHint depth]

/-- test_consumer.rs:139-163 -/
def TestConsumer.arbitrary (error : Arbitrary E) (usize : Arbitrary Nat) (nonZeros : Arbitrary (List NonZero))
    (bools : Arbitrary (List Bool)) : Arbitrary (InvariantSt (TestConsumer I F E)) where
  /- test_consumer.rs:142-153 -/
  arbitrary u := do
    let (err, u) ← error.arbitrary u
    let (operationsUntilError, u) ← usize.arbitrary u
    let (slotSizes, u) ← nonZeros.arbitrary u
    let (yieldPattern, u) ← bools.arbitrary u
    return (.new (.new err operationsUntilError slotSizes (some yieldPattern)), u)
  /- test_consumer.rs:155-162 -/
  sizeHint depth :=
    sizeHintAndAll [error.sizeHint depth, usize.sizeHint depth, nonZeros.sizeHint depth, bools.sizeHint depth]

/-- `/repo/ufotofu/src/producer/invariant.rs:26-35`, `/repo/ufotofu/src/consumer/invariant.rs:22-31`: `derive(Arbitrary)` creates the
fields in the order of their declaration. (The macro also makes nested values of the same type fail if there are no bytes left; this
is left out.) -/
def InvariantSt.arbitrary {σ : Type} (inner : Arbitrary σ) (bool : Arbitrary Bool) (usize : Arbitrary Nat) :
    Arbitrary (InvariantSt σ) where
  arbitrary u := do
    let (inner, u) ← inner.arbitrary u
    let (active, u) ← bool.arbitrary u
    let (exposedSlots, u) ← usize.arbitrary u
    return (⟨inner, active, exposedSlots⟩, u)
  sizeHint depth := sizeHintAndAll [inner.sizeHint depth, bool.sizeHint depth, usize.sizeHint depth]

/-- `/repo/ufotofu/src/producer/invariant_noop.rs:26-29`, `/repo/ufotofu/src/consumer/invariant_noop.rs:22-25`: the only field is the
wrapped value, which stands for the `Invariant` here. -/
def invariantNoopArbitrary {σ : Type} (inner : Arbitrary σ) : Arbitrary σ where
  arbitrary u := do
    let (inner, u) ← inner.arbitrary u
    return (inner, u)
  sizeHint depth := sizeHintAndAll [inner.sizeHint depth]

end

/-! ## Some implementations of crate `arbitrary` -/

/-- `Unstructured::fill_buffer`: the next `n` bytes, filled up with zeros. -/
def Unstructured.fill (n : Nat) (u : Unstructured) : List UInt8 × Unstructured :=
  (u.bytes.take n ++ List.replicate (n - u.bytes.length) 0, ⟨u.bytes.drop n, u.starved || decide (u.bytes.length < n)⟩)

namespace Arbitrary

/-- Unsigned integers of `n` bytes. -/
def unsigned (n : Nat) : Arbitrary Nat where
  arbitrary u := .ok (ofLeBytes (u.fill n).1, (u.fill n).2)
  sizeHint _ := (n, some n)

/-- `usize`, on a 64-bit machine -/
def usize : Arbitrary Nat := unsigned 8

def bool : Arbitrary Bool where
  arbitrary u := do
    let (n, u) ← (unsigned 1).arbitrary u
    return (n % 2 == 1, u)
  sizeHint := (unsigned 1).sizeHint

/-- `NonZeroUsize` -/
def nonZeroUsize : Arbitrary NonZero where
  arbitrary u := do
    let (n, u) ← usize.arbitrary u
    if h : 0 < n then .ok (⟨n, h⟩, u) else .error ⟨0⟩
  sizeHint := usize.sizeHint

/-- `Result<A, E>` -/
def result {E A : Type} (a : Arbitrary A) (e : Arbitrary E) : Arbitrary (Except E A) where
  arbitrary u := do
    let (b, u) ← bool.arbitrary u
    if b then
      let (x, u) ← a.arbitrary u
      return (.ok x, u)
    else
      let (x, u) ← e.arbitrary u
      return (.error x, u)
  sizeHint depth := sizeHintAnd (bool.sizeHint depth)
    (min (a.sizeHint depth).1 (e.sizeHint depth).1, match (a.sizeHint depth).2, (e.sizeHint depth).2 with
      | some x, some y => some (max x y)
      | _, _ => none)

/-- Slices: a `bool` before each item says whether there is one. -/
def boxedSliceAux {T : Type} (a : Arbitrary T) : Nat → Unstructured → Except ArbitraryError (List T × Unstructured)
  | 0, u => .ok ([], u)
  | fuel + 1, u => do
    let (more, u) ← bool.arbitrary u
    if more then
      let (x, u) ← a.arbitrary u
      let (xs, u) ← boxedSliceAux a fuel u
      return (x :: xs, u)
    else
      return ([], u)

/-- `Box<[T]>`. The last `bool` is `false` at the latest when there are no bytes left. -/
def boxedSlice {T : Type} (a : Arbitrary T) : Arbitrary (List T) where
  arbitrary u := boxedSliceAux a (u.bytes.length + 1) u
  sizeHint _ := (0, none)

end Arbitrary

end Verif
