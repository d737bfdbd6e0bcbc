import Verif.Lemmas.WordQueue
import Verif.Props.Queue

/-!
# C58: the queues with machine arithmetic

`Fixed` and `Static` compute `read + amount` before taking a remainder. That sum can be almost twice the capacity.
-/

namespace Verif

open Outcome

/-- The sizes of words, with and without overflow checks, used for examples. -/
def Word.checked64 : Word := ⟨2 ^ 64, true⟩
def Word.wrapping64 : Word := ⟨2 ^ 64, false⟩

/-- C58 for `Fixed`: if there is room for twice the capacity in a word, then every sequence of calls that respects the
documented invariants is answered as by an ideal bounded first-in-first-out list and without a panic, with and without
overflow checks. (For capacity 0, as in C01, sequences with `consider_dequeued` are exempt.) -/
theorem word_fixed_fifo {T : Type} (w : Word) (capacity : Nat) (hw : 2 * capacity ≤ w.size) (hpos : 0 < w.size) (tmp : Nat → T)
    (ops : List (QueueOp T)) (h : 0 < capacity ∨ ∀ k, QueueOp.considerDequeued k ∉ ops) :
    (WordFixed.queue w T).ActsAsFifo capacity (Fixed.new capacity tmp) [] .start ops :=
  (WordFixed.fifoLaw w T capacity ⟨hpos, hw⟩).actsAsFifo ops h
    ⟨[], Fixed.holds_new capacity tmp, rfl, by simp [Ledger.start]⟩

/-- Words with four values: there is room for capacity 2, also when the items wrap around. -/
example : (WordFixed.queue ⟨4, false⟩ Nat).ActsAsFifo 2 (Fixed.new 2 fun _ => 0) [] .start
    [.enqueue 1, .enqueue 2, .dequeue, .enqueue 3, .exposeItems, .considerDequeued 1, .dequeue] :=
  word_fixed_fifo _ 2 (by decide) (by decide) _ _ (.inl (by decide))

example : (WordFixed.queue ⟨4, false⟩ Nat).answers (Fixed.new 2 fun _ => 0)
    [.enqueue 1, .enqueue 2, .dequeue, .enqueue 3, .exposeItems, .considerDequeued 1, .dequeue] =
    ok [.item none, .item none, .item (some 1), .item none, .items (some [2]), .unit, .item (some 3)] := by decide

/-- C58 for `Static`. -/
theorem word_static_fifo {T : Type} (w : Word) (N : Nat) (hw : 2 * N ≤ w.size) (hpos : 0 < w.size) (tmp : Nat → T)
    (ops : List (QueueOp T)) (h : 0 < N ∨ ∀ k, QueueOp.considerDequeued k ∉ ops) :
    (WordStatic.queue w T N).ActsAsFifo N (Static.new N tmp) [] .start ops :=
  (WordStatic.fifoLaw w T N ⟨hpos, hw⟩).actsAsFifo ops h ⟨[], Static.holds_new N tmp, rfl, by simp [Ledger.start]⟩

example : (WordStatic.queue ⟨4, true⟩ Nat 2).ActsAsFifo 2 (Static.new 2 fun _ => 0) [] .start
    [.enqueue 1, .enqueue 2, .dequeue, .enqueue 3, .exposeItems, .considerDequeued 1, .dequeue] :=
  word_static_fifo _ 2 (by decide) (by decide) _ _ (.inl (by decide))

/-- Items that take up memory: an allocation has at most `isize::MAX` bytes, so there is room for twice the capacity. -/
theorem word_fixed_fifo_sized {T : Type} (w : Word) (capacity itemSize : Nat) (hsize : 0 < itemSize) (hpos : 0 < capacity)
    (halloc : capacity * itemSize ≤ w.size / 2 - 1) (tmp : Nat → T) (ops : List (QueueOp T)) :
    (WordFixed.queue w T).ActsAsFifo capacity (Fixed.new capacity tmp) [] .start ops := by
  have h : capacity ≤ capacity * itemSize := Nat.le_mul_of_pos_right _ hsize
  exact word_fixed_fifo w capacity (by omega) (by omega) tmp ops (.inl hpos)

/-- The largest queue of bytes on a 64-bit machine. -/
example (ops : List (QueueOp UInt8)) :
    (WordFixed.queue .wrapping64 UInt8).ActsAsFifo (2 ^ 63 - 1) (Fixed.new (2 ^ 63 - 1) fun _ => 0) [] .start ops :=
  word_fixed_fifo_sized .wrapping64 (2 ^ 63 - 1) 1 (by decide) (by decide) (by decide) _ ops

theorem word_static_fifo_sized {T : Type} (w : Word) (N itemSize : Nat) (hsize : 0 < itemSize) (hpos : 0 < N)
    (halloc : N * itemSize ≤ w.size / 2 - 1) (tmp : Nat → T) (ops : List (QueueOp T)) :
    (WordStatic.queue w T N).ActsAsFifo N (Static.new N tmp) [] .start ops := by
  have h : N ≤ N * itemSize := Nat.le_mul_of_pos_right _ hsize
  exact word_static_fifo w N (by omega) (by omega) tmp ops (.inl hpos)

example (ops : List (QueueOp UInt32)) :
    (WordStatic.queue .checked64 UInt32 (2 ^ 61 - 1)).ActsAsFifo (2 ^ 61 - 1) (Static.new (2 ^ 61 - 1) fun _ => 0) [] .start ops :=
  word_static_fifo_sized .checked64 (2 ^ 61 - 1) 4 (by decide) (by decide) (by decide) _ ops

/-- The bound is sharp. If there is no room for twice the capacity in a word (on real machines: only for zero-sized items),
then a sequence of nine calls that respects the documented invariants makes the queue panic, with and without overflow
checks. -/
theorem word_fixed_overflows {T : Type} (w : Word) (capacity : Nat) (h1 : capacity < w.size) (h2 : w.size < 2 * capacity)
    (x : T) (tmp : Nat → T) :
    ¬ (WordFixed.queue w T).ActsAsFifo capacity (Fixed.new capacity tmp) [] .start
      [.exposeSlots, .write (List.replicate capacity x), .considerEnqueued capacity, .exposeItems,
        .considerDequeued (capacity - 1), .exposeSlots, .write (List.replicate (capacity - 1) x),
        .considerEnqueued (w.size - capacity), .exposeItems] :=
  WordFixed.overflows x h1 h2 _ (by simp)

/-- `Fixed::<()>::new(usize::MAX)` on a 64-bit machine. -/
example (checks : Bool) : ¬ ∀ ops,
    (WordFixed.queue ⟨2 ^ 64, checks⟩ Unit).ActsAsFifo (2 ^ 64 - 1) (Fixed.new (2 ^ 64 - 1) fun _ => ()) [] .start ops :=
  fun h => word_fixed_overflows ⟨2 ^ 64, checks⟩ (2 ^ 64 - 1) (by simp) (by simp) () _ (h _)

/-- The history, for words with four values and capacity 3: its last call panics in both modes. -/
example : ([true, false].map fun checks => (WordFixed.queue ⟨4, checks⟩ Unit).answers (Fixed.new 3 fun _ => ())
      [.exposeSlots, .write [(), (), ()], .considerEnqueued 3, .exposeItems, .considerDequeued 2, .exposeSlots,
        .write [(), ()], .considerEnqueued 1]) =
    [ok [.slots (some 3), .unit, .unit, .items (some [(), (), ()]), .unit, .slots (some 2), .unit, .unit],
      ok [.slots (some 3), .unit, .unit, .items (some [(), (), ()]), .unit, .slots (some 2), .unit, .unit]] ∧
    ([true, false].map fun checks => (WordFixed.queue ⟨4, checks⟩ Unit).call ⟨[(), (), ()], 2, 2⟩ .exposeItems) =
      [.panic, .panic] := by decide

theorem word_static_overflows {T : Type} (w : Word) (N : Nat) (h1 : N < w.size) (h2 : w.size < 2 * N) (x : T) (tmp : Nat → T) :
    ¬ (WordStatic.queue w T N).ActsAsFifo N (Static.new N tmp) [] .start
      [.exposeSlots, .write (List.replicate N x), .considerEnqueued N, .exposeItems,
        .considerDequeued (N - 1), .exposeSlots, .write (List.replicate (N - 1) x),
        .considerEnqueued (w.size - N), .exposeItems] :=
  WordStatic.overflows x h1 h2 _ (by simp)

example (checks : Bool) : ¬ ∀ ops,
    (WordStatic.queue ⟨2 ^ 64, checks⟩ Unit (2 ^ 64 - 1)).ActsAsFifo (2 ^ 64 - 1) (Static.new (2 ^ 64 - 1) fun _ => ()) [] .start ops :=
  fun h => word_static_overflows ⟨2 ^ 64, checks⟩ (2 ^ 64 - 1) (by simp) (by simp) () _ (h _)

/-- So a positive capacity is safe exactly if there is room for twice of it. -/
theorem word_fixed_fifo_iff {T : Type} [Inhabited T] (w : Word) (capacity : Nat) (hpos : 0 < capacity) (hlt : capacity < w.size)
    (tmp : Nat → T) :
    (∀ ops, (WordFixed.queue w T).ActsAsFifo capacity (Fixed.new capacity tmp) [] .start ops) ↔ 2 * capacity ≤ w.size := by
  constructor
  · intro h
    rcases Nat.lt_or_ge w.size (2 * capacity) with h2 | h2
    · exact absurd (h _) (word_fixed_overflows w capacity hlt h2 default tmp)
    · exact h2
  · intro h ops
    exact word_fixed_fifo w capacity h (by omega) tmp ops (.inl hpos)

/-- The largest safe capacity of a queue of zero-sized items is 2⁶³. -/
example : (∀ ops, (WordFixed.queue .wrapping64 Unit).ActsAsFifo (2 ^ 63) (Fixed.new (2 ^ 63) fun _ => ()) [] .start ops) ∧
    ¬ (∀ ops, (WordFixed.queue .wrapping64 Unit).ActsAsFifo (2 ^ 63 + 1) (Fixed.new (2 ^ 63 + 1) fun _ => ()) [] .start ops) :=
  ⟨(word_fixed_fifo_iff .wrapping64 _ (by decide) (by decide) _).mpr (by decide),
    fun h => absurd ((word_fixed_fifo_iff .wrapping64 _ (by decide) (by decide) _).mp h) (by decide)⟩

theorem word_static_fifo_iff {T : Type} [Inhabited T] (w : Word) (N : Nat) (hpos : 0 < N) (hlt : N < w.size) (tmp : Nat → T) :
    (∀ ops, (WordStatic.queue w T N).ActsAsFifo N (Static.new N tmp) [] .start ops) ↔ 2 * N ≤ w.size := by
  constructor
  · intro h
    rcases Nat.lt_or_ge w.size (2 * N) with h2 | h2
    · exact absurd (h _) (word_static_overflows w N hlt h2 default tmp)
    · exact h2
  · intro h ops
    exact word_static_fifo w N h (by omega) tmp ops (.inl hpos)

example : (∀ ops, (WordStatic.queue .checked64 Unit (2 ^ 63)).ActsAsFifo (2 ^ 63) (Static.new (2 ^ 63) fun _ => ()) [] .start ops) ∧
    ¬ (∀ ops, (WordStatic.queue .checked64 Unit (2 ^ 63 + 1)).ActsAsFifo (2 ^ 63 + 1) (Static.new (2 ^ 63 + 1) fun _ => ()) [] .start ops) :=
  ⟨(word_static_fifo_iff .checked64 _ (by decide) (by decide) _).mpr (by decide),
    fun h => absurd ((word_static_fifo_iff .checked64 _ (by decide) (by decide) _).mp h) (by decide)⟩

/-- Formatting, with machine arithmetic: in every reachable state, the contents in order. -/
theorem word_fixed_debug {T : Type} (w : Word) (capacity : Nat) (hw : 2 * capacity ≤ w.size) (hpos : 0 < capacity)
    (tmp : Nat → T) (q : Fixed T) (l : List T) (g : Ledger T)
    (h : (WordFixed.queue w T).Reaches capacity (Fixed.new capacity tmp) q l g) : WordFixed.debugEntries w q = ok l := by
  have hf : w.Fits capacity := ⟨by omega, hw⟩
  obtain ⟨_, hR, _⟩ := (WordFixed.fifoLaw w T capacity hf).reaches (by omega) (Fixed.holds_new capacity tmp) h
  rw [WordFixed.debugEntries_eq hf hR]
  exact hR.debugEntries

example : WordFixed.debugEntries ⟨6, true⟩ (⟨[4, 2, 3], 1, 3⟩ : Fixed Nat) = ok [2, 3, 4] := by
  have h1 := Queue.Reaches.start (Q := WordFixed.queue ⟨6, true⟩ Nat) (cap := 3) (q₀ := Fixed.new 3 fun _ => 0)
  have h2 := h1.step (op := .bulkEnqueue [1, 2, 3]) trivial rfl
  have h3 := h2.step (op := .dequeue) trivial rfl
  exact word_fixed_debug ⟨6, true⟩ 3 (by decide) (by decide) _ _ _ _ (h3.step (op := .enqueue 4) trivial rfl)

theorem word_static_debug {T : Type} (w : Word) (N : Nat) (hw : 2 * N ≤ w.size) (hpos : 0 < N) (tmp : Nat → T)
    (q : Static T N) (l : List T) (g : Ledger T)
    (h : (WordStatic.queue w T N).Reaches N (Static.new N tmp) q l g) : WordStatic.debugEntries w q = ok l := by
  have hf : w.Fits N := ⟨by omega, hw⟩
  obtain ⟨_, hR, _⟩ := (WordStatic.fifoLaw w T N hf).reaches (by omega) (Static.holds_new N tmp) h
  rw [WordStatic.debugEntries_eq hf hR, Static.toFixed_debugEntries]
  exact Fixed.Holds.debugEntries hR

example : WordStatic.debugEntries ⟨6, true⟩ (⟨[4, 2, 3], rfl, 1, 3⟩ : Static Nat 3) = ok [2, 3, 4] := by
  have h1 := Queue.Reaches.start (Q := WordStatic.queue ⟨6, true⟩ Nat 3) (cap := 3) (q₀ := Static.new 3 fun _ => 0)
  have h2 := h1.step (op := .bulkEnqueue [1, 2, 3]) trivial rfl
  have h3 := h2.step (op := .dequeue) trivial rfl
  exact word_static_debug ⟨6, true⟩ 3 (by decide) (by decide) _ _ _ _ (h3.step (op := .enqueue 4) trivial rfl)

end Verif
