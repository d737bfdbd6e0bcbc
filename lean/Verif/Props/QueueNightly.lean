import Verif.Model.QueueNightly
import Verif.Props.Queue

/-!
# C71: fallible construction of queues
-/

namespace Verif

open Outcome

variable {T : Type}

/-- The allocator provides what it is asked for, or nothing. (`Vec` documents that it might provide more.) -/
def Allocator.Exact (A : Allocator) : Prop := ∀ log n space, A log (.allocate n) = some space → space = n

/-- The allocator provides at least what it is asked for, or nothing. -/
def Allocator.Suffices (A : Allocator) : Prop := ∀ log n space, A log (.allocate n) = some space → n ≤ space

/-- Space for at most ten items. -/
def Case.ten : Allocator
  | _, .allocate n => if n ≤ 10 then some n else none
  | _, .shrink n => some n

/-- Rounds up to multiples of eight; does not shrink. -/
def Case.rounding : Allocator
  | _, .allocate n => some ((n + 7) / 8 * 8)
  | _, .shrink _ => none

/-- **C71.** With an allocator that provides exactly what it is asked for, the constructors that may fail never panic. They
return `None` exactly if memory is needed and refused; otherwise the queue is the one that `new` creates. They ask for memory
once, for exactly as many items as there are slots; not at all if there are none. -/
theorem fixed_try_new (A : Allocator) (hA : A.Exact) (log : List Request) (capacity : Nat) (tmp : Nat → T) :
    Fixed.tryNewIn A log capacity tmp =
      if capacity = 0 then ok (log, some (Fixed.new 0 tmp))
      else if A log (.allocate capacity) = none then ok (log ++ [.allocate capacity], none)
      else ok (log ++ [.allocate capacity], some (Fixed.new capacity tmp)) := by
  by_cases h0 : capacity = 0
  · subst h0; simp [Fixed.tryNewIn, RawVec.tryWithCapacity, RawVec.resizeWith, RawVec.intoBoxedSlice, Fixed.new]
  · rcases ha : A log (.allocate capacity) with _ | space
    · simp [Fixed.tryNewIn, RawVec.tryWithCapacity, h0, ha]
    · obtain rfl := hA _ _ _ ha
      simp [Fixed.tryNewIn, RawVec.tryWithCapacity, h0, ha, RawVec.resizeWith, RawVec.intoBoxedSlice, Fixed.new]

theorem Case.ten_exact : Case.ten.Exact := by
  intro log n space h
  simp only [Case.ten] at h
  split at h <;> simp_all

example : Fixed.tryNewIn Case.ten [] 3 (fun _ => 0) = ok ([.allocate 3], some (Fixed.new 3 fun _ => 0)) ∧
    Fixed.tryNewIn Case.ten [] 11 (fun _ => 0) = ok ([.allocate 11], none) :=
  ⟨fixed_try_new Case.ten Case.ten_exact [] 3 _, fixed_try_new Case.ten Case.ten_exact [] 11 _⟩

/-- The other constructors panic instead. -/
theorem fixed_new_in (A : Allocator) (hA : A.Exact) (log : List Request) (capacity : Nat) (tmp : Nat → T) :
    Fixed.newIn A log capacity tmp =
      if capacity = 0 then ok (log, Fixed.new 0 tmp)
      else if A log (.allocate capacity) = none then .panic
      else ok (log ++ [.allocate capacity], Fixed.new capacity tmp) := by
  by_cases h0 : capacity = 0
  · subst h0
    simp [Fixed.newIn, RawVec.withCapacity, RawVec.tryWithCapacity, RawVec.resizeWith, RawVec.intoBoxedSlice, Fixed.new]
  · rcases ha : A log (.allocate capacity) with _ | space
    · simp [Fixed.newIn, RawVec.withCapacity, RawVec.tryWithCapacity, h0, ha]
    · obtain rfl := hA _ _ _ ha
      simp [Fixed.newIn, RawVec.withCapacity, RawVec.tryWithCapacity, h0, ha, RawVec.resizeWith, RawVec.intoBoxedSlice, Fixed.new]

example : Fixed.newIn Case.ten [] 3 (fun _ => 0) = ok ([.allocate 3], Fixed.new 3 fun _ => 0) ∧
    Fixed.newIn Case.ten [] 11 (fun _ => 0) = .panic :=
  ⟨fixed_new_in Case.ten Case.ten_exact [] 3 _, fixed_new_in Case.ten Case.ten_exact [] 11 _⟩

/-- What holds for every allocator that `Vec` permits, even if it provides more memory than it is asked for: a queue that is
returned is the one that `new` creates; the first request is for as many items as there are slots; `None` is returned if (and
only if) it is refused. There is at most one more request: to shrink. -/
theorem fixed_try_new_partial (A : Allocator) (hA : A.Suffices) (log : List Request) (capacity : Nat) (tmp : Nat → T) :
    (∀ log' q, Fixed.tryNewIn A log capacity tmp = ok (log', some q) →
      q = Fixed.new capacity tmp ∧ (capacity = 0 → log' = log) ∧
      (0 < capacity → log' = log ++ [.allocate capacity] ∨ log' = log ++ [.allocate capacity, .shrink capacity])) ∧
    (∀ log', Fixed.tryNewIn A log capacity tmp = ok (log', none) ↔
      0 < capacity ∧ A log (.allocate capacity) = none ∧ log' = log ++ [.allocate capacity]) := by
  by_cases h0 : capacity = 0
  · subst h0
    have : Fixed.tryNewIn A log 0 tmp = ok (log, some (Fixed.new 0 tmp)) := by
      simp [Fixed.tryNewIn, RawVec.tryWithCapacity, RawVec.resizeWith, RawVec.intoBoxedSlice, Fixed.new]
    rw [this]
    constructor
    · intro log' q h
      obtain ⟨rfl, rfl⟩ : log = log' ∧ _ = q := by simpa using h
      exact ⟨rfl, fun _ => rfl, fun h => absurd h (by decide)⟩
    · intro log'; simp
  · rcases ha : A log (.allocate capacity) with _ | space
    · have : Fixed.tryNewIn A log capacity tmp = ok (log ++ [.allocate capacity], none) := by
        simp [Fixed.tryNewIn, RawVec.tryWithCapacity, h0, ha]
      rw [this]
      constructor
      · intro log' q h; simp at h
      · intro log'
        simp only [Outcome.ok.injEq, Prod.mk.injEq, and_true, true_and]
        exact ⟨fun h => ⟨by omega, h.symm⟩, fun h => h.2.symm⟩
    · have hle := hA _ _ _ ha
      have hnone : ∀ log', Fixed.tryNewIn A log capacity tmp ≠ ok (log', none) := by
        intro log'
        simp only [Fixed.tryNewIn, RawVec.tryWithCapacity, h0, ha, RawVec.resizeWith, RawVec.intoBoxedSlice, hle, if_true, if_false,
          Option.map_some, bind_eq, bind_ok, List.nil_append, List.length_map, List.length_range, List.length_nil, Nat.sub_zero]
        split
        · split <;> simp
        · simp
      refine ⟨?_, fun log' => ⟨fun h => absurd h (hnone log'), fun h => by simp at h⟩⟩
      intro log' q h
      simp only [Fixed.tryNewIn, RawVec.tryWithCapacity, h0, ha, RawVec.resizeWith, RawVec.intoBoxedSlice, hle, if_true, if_false,
        Option.map_some, bind_eq, bind_ok, List.nil_append, List.length_map, List.length_range, List.length_nil,
        Nat.sub_zero] at h
      split at h
      · split at h
        · obtain ⟨rfl, rfl⟩ : _ = log' ∧ _ = q := by simpa using h
          exact ⟨rfl, fun h => absurd h h0, fun _ => .inr (by simp)⟩
        · simp at h
      · obtain ⟨rfl, rfl⟩ : _ = log' ∧ _ = q := by simpa using h
        exact ⟨rfl, fun h => absurd h h0, fun _ => .inl rfl⟩

theorem Case.rounding_suffices : Case.rounding.Suffices := by
  intro log n space h
  obtain rfl : _ = space := by simpa [Case.rounding] using h
  omega

/-- Eight slots are returned without shrinking. -/
example : ∃ log', Fixed.tryNewIn Case.rounding [] 8 (fun _ => 0) = ok (log', some (Fixed.new 8 fun _ => 0)) ∧
    log' = [.allocate 8] := ⟨_, rfl, rfl⟩

/-- **C71** fails for allocators of which `Vec` demands only what it documents: `try_new` panics (or aborts) if more memory is
provided than needed, and shrinking fails. -/
theorem fixed_try_new_panics : ∃ A : Allocator, A.Suffices ∧ ∀ (T : Type) (tmp : Nat → T),
    Fixed.tryNewIn A [] 3 tmp = .panic :=
  ⟨Case.rounding, Case.rounding_suffices, fun _ _ => rfl⟩

/-- **C71** fails: `Fixed` is documented to perform "a single heap allocation on creation"; it performs none for capacity 0. -/
theorem fixed_zero_allocates_nothing (A : Allocator) (tmp : Nat → T) :
    Fixed.newIn A [] 0 tmp = ok ([], Fixed.new 0 tmp) ∧ Fixed.tryNewIn A [] 0 tmp = ok ([], some (Fixed.new 0 tmp)) :=
  ⟨rfl, rfl⟩

/-- **C71**, with C01: what `try_new` returns acts as a queue. -/
theorem fixed_try_new_fifo (A : Allocator) (hA : A.Suffices) {log log' : List Request} {capacity : Nat} (hpos : 0 < capacity)
    {tmp : Nat → T} {q : Fixed T} (h : Fixed.tryNewIn A log capacity tmp = ok (log', some q)) (ops : List (QueueOp T)) :
    (Fixed.queue T).ActsAsFifo capacity q [] .start ops := by
  rw [((fixed_try_new_partial A hA log capacity tmp).1 log' q h).1]
  exact fixed_fifo_of_pos capacity hpos tmp ops

example (ops : List (QueueOp Nat)) : (Fixed.queue Nat).ActsAsFifo 8 (Fixed.new 8 fun _ => 0) [] .start ops :=
  fixed_try_new_fifo Case.rounding Case.rounding_suffices (log := []) (log' := [.allocate 8]) (by decide) (tmp := fun _ => 0) rfl ops

end Verif
