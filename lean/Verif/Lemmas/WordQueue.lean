import Verif.Model.WordQueue
import Verif.Lemmas.QueueRing

/-!
# Lemmas about queues with machine arithmetic: with enough room in a word, they equal the ones with ideal arithmetic
-/

namespace Verif

open Outcome

namespace Word

theorem add_ok {w : Word} {a b : Nat} (h : a + b < w.size) : w.add a b = ok (a + b) := by simp [add, h]

theorem sub_ok {w : Word} {a b : Nat} (h : b ≤ a) : w.sub a b = ok (a - b) := by simp [sub, h]

theorem add_overflow {w : Word} {a b : Nat} (h : w.size ≤ a + b) :
    w.add a b = if w.checks then .panic else ok ((a + b) % w.size) := by
  simp [add, Nat.not_lt.mpr h]

end Word

/-- There is room for twice the capacity in a word. -/
structure Word.Fits (w : Word) (cap : Nat) : Prop where
  pos : 0 < w.size
  twice : 2 * cap ≤ w.size

namespace WordFixed

variable {T : Type} {w : Word} {cap : Nat} {q : Fixed T} {l slots : List T} {n : Nat}

theorem sum_lt (hw : w.Fits cap) (h : q.Holds cap l slots n) : q.read + q.amount < w.size := by
  have h1 := h.read
  have h2 := h.amount
  have h3 := h.bound
  have := hw.pos
  have := hw.twice
  omega

theorem isDataContiguous_eq (hw : w.Fits cap) (h : q.Holds cap l slots n) :
    isDataContiguous w q = ok q.isDataContiguous := by
  simp [isDataContiguous, Word.add_ok (sum_lt hw h)]
  rfl

theorem writeTo_eq (hw : w.Fits cap) (h : q.Holds cap l slots n) : writeTo w q = q.writeTo := by
  simp [writeTo, Word.add_ok (sum_lt hw h), Fixed.writeTo, Fixed.capacity]

theorem readableSlice_eq (hw : w.Fits cap) (h : q.Holds cap l slots n) : readableSlice w q = q.readableSlice := by
  simp [readableSlice, isDataContiguous_eq hw h, writeTo_eq hw h, Fixed.readableSlice]

theorem writeableSlice_eq (hw : w.Fits cap) (h : q.Holds cap l slots n) : writeableSlice w q = q.writeableSlice := by
  simp [writeableSlice, isDataContiguous_eq hw h, writeTo_eq hw h, Fixed.writeableSlice, Fixed.capacity]

theorem enqueue_eq (hw : w.Fits cap) (h : q.Holds cap l slots n) (x : T) : enqueue w q x = q.enqueue x := by
  by_cases hf : q.amount = q.data.length
  · simp [enqueue, Fixed.enqueue, Fixed.capacity, hf]
  · have : q.amount + 1 < w.size := by
      have h2 := h.amount
      have h3 := h.bound
      have h4 := h.length
      have := hw.pos
      have := hw.twice
      omega
    simp [enqueue, Fixed.enqueue, Fixed.capacity, hf, writeTo_eq hw h, Word.add_ok this]

theorem exposeSlots_eq (hw : w.Fits cap) (h : q.Holds cap l slots n) : exposeSlots w q = q.exposeSlots := by
  simp [exposeSlots, Fixed.exposeSlots, writeableSlice_eq hw h]
  rfl

theorem writeSlots_eq (hw : w.Fits cap) (h : q.Holds cap l slots n) {ws : List T} (hws : ws.length ≤ slots.length) :
    writeSlots w q ws = q.writeSlots ws := by
  rcases Nat.eq_zero_or_pos cap with h0 | h0
  · have h1 := h.length
    have h2 := h.bound
    have h3 : q.data = [] := List.length_eq_zero_iff.mp (by omega)
    have h4 : ws = [] := List.length_eq_zero_iff.mp (by omega)
    obtain ⟨data, read, amount⟩ := q
    simp only at h3
    subst h3 h4
    simp [writeSlots, writeTo_eq hw h, Fixed.writeTo, Fixed.capacity, mod, Fixed.writeSlots, overwriteAt]
  · have hc : 0 < q.capacity := by have := h.length; simp [Fixed.capacity]; omega
    simp [writeSlots, writeTo_eq hw h, Fixed.writeTo, mod_of_pos hc, Fixed.writeSlots]

theorem considerEnqueued_eq (hw : w.Fits cap) (h : q.Holds cap l slots n) {k : Nat} (hk : k ≤ slots.length) :
    considerEnqueued w q k = q.considerEnqueued k := by
  have : q.amount + k < w.size := by
    have h2 := h.amount
    have h3 := h.bound
    have := hw.pos
    have := hw.twice
    omega
  simp [considerEnqueued, Fixed.considerEnqueued, Word.add_ok this]

theorem dequeue_eq (hw : w.Fits cap) (h : q.Holds cap l slots n) : dequeue w q = q.dequeue := by
  by_cases hf : q.amount = 0
  · simp [dequeue, Fixed.dequeue, hf]
  · have : q.read + 1 < w.size := by
      have h1 := h.read
      have h2 := h.amount
      have h3 := h.bound
      have := hw.twice
      omega
    simp [dequeue, Fixed.dequeue, hf, Word.add_ok this, Word.sub_ok (show 1 ≤ q.amount by omega), Fixed.capacity,
      sub_of_le (show 1 ≤ q.amount by omega)]

theorem exposeItems_eq (hw : w.Fits cap) (h : q.Holds cap l slots n) : exposeItems w q = q.exposeItems := by
  simp [exposeItems, Fixed.exposeItems, readableSlice_eq hw h]

theorem considerDequeued_eq (hw : w.Fits cap) (h : q.Holds cap l slots n) {k : Nat} (hk : k ≤ n) :
    considerDequeued w q k = q.considerDequeued k := by
  have h1 := h.read
  have h2 := h.amount
  have h3 := h.bound
  have h4 := h.shown
  have := hw.pos
  have := hw.twice
  simp [considerDequeued, Fixed.considerDequeued, Word.add_ok (show q.read + k < w.size by omega),
    Word.sub_ok (show k ≤ q.amount by omega), Fixed.capacity, sub_of_le (show k ≤ q.amount by omega)]

theorem debugEntries_eq (hw : w.Fits cap) (h : q.Holds cap l slots n) : debugEntries w q = q.debugEntries := by
  have h1 := h.read
  have h2 := h.amount
  have h3 := h.bound
  have h4 := h.length
  by_cases hc : q.isDataContiguous = true
  · simp [debugEntries, Fixed.debugEntries, isDataContiguous_eq hw h, writeTo_eq hw h, hc]
  · have hs : slice q.data q.read q.data.length = ok (q.data.drop q.read) := by
      rw [slice_of_le (by omega) (Nat.le_refl _), List.take_length]
    have hle : q.data.length - q.read ≤ q.amount := by
      have : ¬ q.read + q.amount < q.data.length := fun hlt => hc (decide_eq_true hlt)
      omega
    simp [debugEntries, Fixed.debugEntries, isDataContiguous_eq hw h, hc, hs, Word.sub_ok hle, sub_of_le hle]

/-- A queue with machine arithmetic obeys the same laws. -/
theorem fifoLaw (w : Word) (T : Type) (cap : Nat) (hw : w.Fits cap) : FifoLaw (queue w T) cap (Fixed.Holds cap) where
  bound := (Fixed.fifoLaw T cap).bound
  len := (Fixed.fifoLaw T cap).len
  isEmpty := (Fixed.fifoLaw T cap).isEmpty
  enqueue_full q l slots n x h hl := (enqueue_eq hw h x).trans ((Fixed.fifoLaw T cap).enqueue_full q l slots n x h hl)
  enqueue q l slots n x h hl := by
    simp only [queue, enqueue_eq hw h x]; exact (Fixed.fifoLaw T cap).enqueue q l slots n x h hl
  exposeSlots_full q l slots n h hl :=
    (exposeSlots_eq hw h).trans ((Fixed.fifoLaw T cap).exposeSlots_full q l slots n h hl)
  exposeSlots q l slots n h hl := by
    simp only [queue, exposeSlots_eq hw h]; exact (Fixed.fifoLaw T cap).exposeSlots q l slots n h hl
  write q l slots n ws h hl := by
    simp only [queue, writeSlots_eq hw h hl]; exact (Fixed.fifoLaw T cap).write q l slots n ws h hl
  considerEnqueued q l slots n k h hk := by
    simp only [queue, considerEnqueued_eq hw h hk]; exact (Fixed.fifoLaw T cap).considerEnqueued q l slots n k h hk
  dequeue_empty q slots n h := (dequeue_eq hw h).trans ((Fixed.fifoLaw T cap).dequeue_empty q slots n h)
  dequeue q x l slots n h := by
    simp only [queue, dequeue_eq hw h]; exact (Fixed.fifoLaw T cap).dequeue q x l slots n h
  exposeItems_empty q slots n h := (exposeItems_eq hw h).trans ((Fixed.fifoLaw T cap).exposeItems_empty q slots n h)
  exposeItems q l slots n h hl := by
    simp only [queue, exposeItems_eq hw h]; exact (Fixed.fifoLaw T cap).exposeItems q l slots n h hl
  considerDequeued q l slots n k h hk hc := by
    simp only [queue, considerDequeued_eq hw h hk]; exact (Fixed.fifoLaw T cap).considerDequeued q l slots n k h hk hc
  weaken := (Fixed.fifoLaw T cap).weaken
  bulkEnqueue := rfl
  bulkDequeue := rfl

end WordFixed

namespace WordStatic

variable {T : Type} {N : Nat} {w : Word} {q : Static T N} {l slots : List T} {n : Nat}

theorem sum_lt (hw : w.Fits N) (h : q.Holds l slots n) : q.read + q.amount < w.size := WordFixed.sum_lt hw h

theorem isDataContiguous_eq (hw : w.Fits N) (h : q.Holds l slots n) :
    isDataContiguous w q = ok q.isDataContiguous := by
  simp [isDataContiguous, Word.add_ok (sum_lt hw h), Static.isDataContiguous]

theorem writeTo_eq (hw : w.Fits N) (h : q.Holds l slots n) : writeTo w q = q.writeTo := by
  simp [writeTo, Word.add_ok (sum_lt hw h), Static.writeTo]

theorem readableSlice_eq (hw : w.Fits N) (h : q.Holds l slots n) : readableSlice w q = q.readableSlice := by
  simp [readableSlice, isDataContiguous_eq hw h, writeTo_eq hw h, Static.readableSlice]

theorem writeableSlice_eq (hw : w.Fits N) (h : q.Holds l slots n) : writeableSlice w q = q.writeableSlice := by
  simp [writeableSlice, isDataContiguous_eq hw h, writeTo_eq hw h, Static.writeableSlice]

theorem amount_le (h : q.Holds l slots n) : q.amount + slots.length ≤ N := by
  have h1 : q.amount = l.length := h.amount
  have h2 := h.bound
  omega

theorem enqueue_eq (hw : w.Fits N) (h : q.Holds l slots n) (x : T) : enqueue w q x = q.enqueue x := by
  by_cases hf : q.amount = N
  · simp [enqueue, Static.enqueue, hf]
  · have : q.amount + 1 < w.size := by
      have := amount_le h
      have := hw.pos
      have := hw.twice
      omega
    simp [enqueue, Static.enqueue, hf, writeTo_eq hw h, Word.add_ok this]

theorem exposeSlots_eq (hw : w.Fits N) (h : q.Holds l slots n) : exposeSlots w q = q.exposeSlots := by
  simp [exposeSlots, Static.exposeSlots, writeableSlice_eq hw h]

theorem writeSlots_eq (hw : w.Fits N) (h : q.Holds l slots n) {ws : List T} (hws : ws.length ≤ slots.length) :
    writeSlots w q ws = q.writeSlots ws := by
  rcases Nat.eq_zero_or_pos N with h0 | h0
  · subst h0
    have h2 := h.bound
    have h3 : q.data = [] := List.length_eq_zero_iff.mp q.size
    have h4 : ws = [] := List.length_eq_zero_iff.mp (by omega)
    obtain ⟨data, size, read, amount⟩ := q
    simp only at h3
    subst h3 h4
    simp [writeSlots, writeTo_eq hw h, Static.writeTo, mod, Static.writeSlots, overwriteAt]
  · simp [writeSlots, writeTo_eq hw h, Static.writeTo, mod_of_pos h0, Static.writeSlots]

theorem considerEnqueued_eq (hw : w.Fits N) (h : q.Holds l slots n) {k : Nat} (hk : k ≤ slots.length) :
    considerEnqueued w q k = q.considerEnqueued k := by
  have : q.amount + k < w.size := by
    have := amount_le h
    have := hw.pos
    have := hw.twice
    omega
  simp [considerEnqueued, Static.considerEnqueued, Word.add_ok this]

theorem read_lt (h : q.Holds l slots n) : q.read < N ∨ (N = 0 ∧ q.read = 0) := h.read

theorem dequeue_eq (hw : w.Fits N) (h : q.Holds l slots n) : dequeue w q = q.dequeue := by
  by_cases hf : q.amount = 0
  · simp [dequeue, Static.dequeue, hf]
  · have : q.read + 1 < w.size := by
      have := read_lt h
      have := amount_le h
      have := hw.twice
      omega
    simp [dequeue, Static.dequeue, hf, Word.add_ok this, Word.sub_ok (show 1 ≤ q.amount by omega),
      sub_of_le (show 1 ≤ q.amount by omega)]

theorem exposeItems_eq (hw : w.Fits N) (h : q.Holds l slots n) : exposeItems w q = q.exposeItems := by
  simp [exposeItems, Static.exposeItems, readableSlice_eq hw h]

theorem considerDequeued_eq (hw : w.Fits N) (h : q.Holds l slots n) {k : Nat} (hk : k ≤ n) :
    considerDequeued w q k = q.considerDequeued k := by
  have h1 := read_lt h
  have h2 : q.amount = l.length := h.amount
  have h3 := amount_le h
  have h4 := h.shown
  have := hw.pos
  have := hw.twice
  simp [considerDequeued, Static.considerDequeued, Word.add_ok (show q.read + k < w.size by omega),
    Word.sub_ok (show k ≤ q.amount by omega), sub_of_le (show k ≤ q.amount by omega)]

theorem debugEntries_eq (hw : w.Fits N) (h : q.Holds l slots n) : debugEntries w q = q.debugEntries := by
  have h1 := read_lt h
  have h3 := amount_le h
  have h4 := q.size
  by_cases hc : q.isDataContiguous = true
  · simp [debugEntries, Static.debugEntries, isDataContiguous_eq hw h, writeTo_eq hw h, hc]
  · have hs : slice q.data q.read q.data.length = ok (q.data.drop q.read) := by
      rw [slice_of_le (by omega) (Nat.le_refl _), List.take_length]
    have hle : q.data.length - q.read ≤ q.amount := by
      simp [Static.isDataContiguous] at hc; omega
    simp [debugEntries, Static.debugEntries, isDataContiguous_eq hw h, hc, hs, Word.sub_ok hle, sub_of_le hle]

theorem fifoLaw (w : Word) (T : Type) (N : Nat) (hw : w.Fits N) : FifoLaw (queue w T N) N Static.Holds where
  bound := (Static.fifoLaw T N).bound
  len := (Static.fifoLaw T N).len
  isEmpty := (Static.fifoLaw T N).isEmpty
  enqueue_full q l slots n x h hl := (enqueue_eq hw h x).trans ((Static.fifoLaw T N).enqueue_full q l slots n x h hl)
  enqueue q l slots n x h hl := by
    simp only [queue, enqueue_eq hw h x]; exact (Static.fifoLaw T N).enqueue q l slots n x h hl
  exposeSlots_full q l slots n h hl :=
    (exposeSlots_eq hw h).trans ((Static.fifoLaw T N).exposeSlots_full q l slots n h hl)
  exposeSlots q l slots n h hl := by
    simp only [queue, exposeSlots_eq hw h]; exact (Static.fifoLaw T N).exposeSlots q l slots n h hl
  write q l slots n ws h hl := by
    simp only [queue, writeSlots_eq hw h hl]; exact (Static.fifoLaw T N).write q l slots n ws h hl
  considerEnqueued q l slots n k h hk := by
    simp only [queue, considerEnqueued_eq hw h hk]; exact (Static.fifoLaw T N).considerEnqueued q l slots n k h hk
  dequeue_empty q slots n h := (dequeue_eq hw h).trans ((Static.fifoLaw T N).dequeue_empty q slots n h)
  dequeue q x l slots n h := by
    simp only [queue, dequeue_eq hw h]; exact (Static.fifoLaw T N).dequeue q x l slots n h
  exposeItems_empty q slots n h := (exposeItems_eq hw h).trans ((Static.fifoLaw T N).exposeItems_empty q slots n h)
  exposeItems q l slots n h hl := by
    simp only [queue, exposeItems_eq hw h]; exact (Static.fifoLaw T N).exposeItems q l slots n h hl
  considerDequeued q l slots n k h hk hc := by
    simp only [queue, considerDequeued_eq hw h hk]; exact (Static.fifoLaw T N).considerDequeued q l slots n k h hk hc
  weaken := (Static.fifoLaw T N).weaken
  bulkEnqueue := rfl
  bulkDequeue := rfl

end WordStatic

/-! ## Too little room in a word -/

/-- One step of `ActsAsFifo`, for a call whose result is known. -/
theorem Queue.ActsAsFifo.step {κ I : Type} {Q : Queue κ I} {cap : Nat} {q q' : κ} {l : List I} {g : Ledger I} {op : QueueOp I}
    {a : QueueAns I} {ops : List (QueueOp I)} (h : Q.ActsAsFifo cap q l g (op :: ops)) (hop : g.Allows op)
    (hc : Q.call q op = ok (q', a)) : Q.ActsAsFifo cap q' (fifoNext cap l g op a) (g.next op a) ops := by
  obtain ⟨q'', a', h1, _, h3⟩ := h hop
  rw [hc] at h1
  injection h1 with h1
  injection h1 with h1 h2
  subst h1 h2
  exact h3

/-- A history whose last call must fail if there is no room for twice the capacity in a word: fill the queue, drop all items
but one, and add items until the sum of the read index and the number of items is the size of a word. -/
def overflowing {T : Type} (x : T) (w : Word) (cap : Nat) : List (QueueOp T) :=
  [.exposeSlots, .write (List.replicate cap x), .considerEnqueued cap, .exposeItems, .considerDequeued (cap - 1),
    .exposeSlots, .write (List.replicate (cap - 1) x), .considerEnqueued (w.size - cap), .exposeItems]

namespace WordFixed

variable {T : Type} {w : Word} {cap : Nat}

/-- At the end of the history, exposing the items fails: with overflow checks the sum panics, without them it is 0, and the
range of indices is decreasing. -/
theorem exposeItems_panics {q : Fixed T} (hr : 0 < q.read) (hs : q.read + q.amount = w.size) (h0 : 0 < q.data.length)
    (hamount : q.amount ≠ 0) : exposeItems w q = .panic := by
  by_cases hc : w.checks = true
  · simp [exposeItems, readableSlice, isDataContiguous, hamount, Word.add_overflow (Nat.le_of_eq hs.symm), hc]
  · simp [exposeItems, readableSlice, isDataContiguous, writeTo, hamount, Word.add_overflow (Nat.le_of_eq hs.symm), hc, hs,
      h0, mod_of_pos h0, slice, Nat.not_le.mpr hr]

theorem overflows (x : T) (h1 : cap < w.size) (h2 : w.size < 2 * cap) (d : List T) (hd : d.length = cap) :
    ¬ (queue w T).ActsAsFifo cap ⟨d, 0, 0⟩ [] .start (overflowing x w cap) := by
  intro h
  have hpos : 0 < cap := by omega
  obtain ⟨d2, hd2, hw1⟩ : ∃ d2 : List T, d2.length = cap ∧
      (queue w T).call ⟨d, 0, 0⟩ (.write (List.replicate cap x)) = ok (⟨d2, 0, 0⟩, .unit) := by
    refine ⟨overwriteAt d 0 (List.replicate cap x), ?_, ?_⟩
    · rw [length_overwriteAt (by simp; omega), hd]
    · simp [Queue.call, queue, writeSlots, writeTo, Word.add_ok (show 0 + 0 < w.size by omega), hd, mod_of_pos hpos]
  have h := h.step (a := .slots (some cap)) (q' := ⟨d, 0, 0⟩) trivial (by
    have hne : ¬ (0 = cap) := by omega
    simp [Queue.call, queue, exposeSlots, writeableSlice, writeTo, isDataContiguous,
      Word.add_ok (show 0 + 0 < w.size by omega), hd, mod_of_pos hpos, hpos, slice, hne])
  have h := h.step (by simp [Ledger.Allows, Ledger.next]) hw1
  have h := h.step (a := .unit) (q' := ⟨d2, 0, cap⟩) (by simp [Ledger.Allows, Ledger.next]) (by
    simp [Queue.call, queue, considerEnqueued, Word.add_ok (show 0 + cap < w.size by omega)])
  have h := h.step (a := .items (some d2)) (q' := ⟨d2, 0, cap⟩) trivial (by
    have hne : ¬ (cap = 0) := by omega
    simp [Queue.call, queue, exposeItems, readableSlice, isDataContiguous, hne,
      Word.add_ok (show 0 + cap < w.size by omega), slice, hd2]
    exact List.take_of_length_le (by omega))
  have h := h.step (a := .unit) (q' := ⟨d2, cap - 1, 1⟩) (by simp [Ledger.Allows, Ledger.next, hd2]) (by
    have hlt : cap - 1 < cap := by omega
    have hone : cap - (cap - 1) = 1 := by omega
    simp [Queue.call, queue, considerDequeued, Word.add_ok (show 0 + (cap - 1) < w.size by omega),
      Word.sub_ok (show cap - 1 ≤ cap by omega), hd2, mod_of_pos hpos, Nat.mod_eq_of_lt hlt, hone])
  have hsum : cap - 1 + 1 = cap := by omega
  have hwt : writeTo w (⟨d2, cap - 1, 1⟩ : Fixed T) = ok 0 := by
    simp [writeTo, hsum, Word.add_ok (show cap - 1 + 1 < w.size by omega), hd2, mod_of_pos hpos]
  have h := h.step (a := .slots (some (cap - 1))) (q' := ⟨d2, cap - 1, 1⟩) trivial (by
    have hne : ¬ (1 = cap) := by omega
    simp [Queue.call, queue, exposeSlots, writeableSlice, hwt, isDataContiguous, hsum,
      Word.add_ok (show cap - 1 + 1 < w.size by omega), slice, hne, hd2])
  obtain ⟨d3, hd3, hw2⟩ : ∃ d3 : List T, d3.length = cap ∧
      (queue w T).call ⟨d2, cap - 1, 1⟩ (.write (List.replicate (cap - 1) x)) = ok (⟨d3, cap - 1, 1⟩, .unit) := by
    have hl : (overwriteAt d2 0 (List.replicate (cap - 1) x)).length = cap := by
      rw [length_overwriteAt (by simp; omega), hd2]
    exact ⟨overwriteAt d2 0 (List.replicate (cap - 1) x), hl, by simp [Queue.call, queue, writeSlots, hwt]⟩
  have h := h.step (by simp [Ledger.Allows, Ledger.next]) hw2
  have h := h.step (a := .unit) (q' := ⟨d3, cap - 1, 1 + (w.size - cap)⟩)
    (by simp [Ledger.Allows, Ledger.next]; omega) (by
      simp [Queue.call, queue, considerEnqueued, Word.add_ok (show 1 + (w.size - cap) < w.size by omega)])
  obtain ⟨_, _, h, _⟩ := h trivial
  have hp : exposeItems w (⟨d3, cap - 1, 1 + (w.size - cap)⟩ : Fixed T) = .panic :=
    exposeItems_panics (by show 0 < cap - 1; omega) (by show cap - 1 + (1 + (w.size - cap)) = w.size; omega)
      (by show 0 < d3.length; omega)
      (by show 1 + (w.size - cap) ≠ 0; omega)
  simp [Queue.call, queue, hp] at h

end WordFixed

namespace WordStatic

variable {T : Type} {w : Word} {N : Nat}

theorem exposeItems_panics {q : Static T N} (hr : 0 < q.read) (hs : q.read + q.amount = w.size) (h0 : 0 < N)
    (hamount : q.amount ≠ 0) : exposeItems w q = .panic := by
  by_cases hc : w.checks = true
  · simp [exposeItems, readableSlice, isDataContiguous, hamount, Word.add_overflow (Nat.le_of_eq hs.symm), hc]
  · simp [exposeItems, readableSlice, isDataContiguous, writeTo, hamount, Word.add_overflow (Nat.le_of_eq hs.symm), hc, hs,
      h0, mod_of_pos h0, slice, Nat.not_le.mpr hr]

theorem overflows (x : T) (h1 : N < w.size) (h2 : w.size < 2 * N) (d : List T) (hd : d.length = N) :
    ¬ (queue w T N).ActsAsFifo N ⟨d, hd, 0, 0⟩ [] .start (overflowing x w N) := by
  intro h
  have hpos : 0 < N := by omega
  obtain ⟨d2, hd2, hw1⟩ : ∃ d2 : List T, ∃ hd2 : d2.length = N,
      (queue w T N).call ⟨d, hd, 0, 0⟩ (.write (List.replicate N x)) = ok (⟨d2, hd2, 0, 0⟩, .unit) := by
    refine ⟨overwriteAt d 0 (List.replicate N x), ?_, ?_⟩
    · rw [length_overwriteAt (by simp; omega), hd]
    · have : (overwriteAt d 0 (List.replicate N x)).length = N := by rw [length_overwriteAt (by simp; omega), hd]
      simp [Queue.call, queue, writeSlots, writeTo, Word.add_ok (show 0 + 0 < w.size by omega), mod_of_pos hpos, this]
  have h := h.step (a := .slots (some N)) (q' := ⟨d, hd, 0, 0⟩) trivial (by
    have hne : ¬ (0 = N) := by omega
    simp [Queue.call, queue, exposeSlots, writeableSlice, writeTo, isDataContiguous,
      Word.add_ok (show 0 + 0 < w.size by omega), mod_of_pos hpos, hpos, slice, hne, hd])
  have h := h.step (by simp [Ledger.Allows, Ledger.next]) hw1
  have h := h.step (a := .unit) (q' := ⟨d2, hd2, 0, N⟩) (by simp [Ledger.Allows, Ledger.next]) (by
    simp [Queue.call, queue, considerEnqueued, Word.add_ok (show 0 + N < w.size by omega)])
  have h := h.step (a := .items (some d2)) (q' := ⟨d2, hd2, 0, N⟩) trivial (by
    have hne : ¬ (N = 0) := by omega
    simp [Queue.call, queue, exposeItems, readableSlice, isDataContiguous, hne,
      Word.add_ok (show 0 + N < w.size by omega), slice])
  have h := h.step (a := .unit) (q' := ⟨d2, hd2, N - 1, 1⟩) (by simp [Ledger.Allows, Ledger.next, hd2]) (by
    have hlt : N - 1 < N := by omega
    have hone : N - (N - 1) = 1 := by omega
    simp [Queue.call, queue, considerDequeued, Word.add_ok (show 0 + (N - 1) < w.size by omega),
      Word.sub_ok (show N - 1 ≤ N by omega), mod_of_pos hpos, Nat.mod_eq_of_lt hlt, hone])
  have hsum : N - 1 + 1 = N := by omega
  have hwt : writeTo w (⟨d2, hd2, N - 1, 1⟩ : Static T N) = ok 0 := by
    simp [writeTo, hsum, Word.add_ok (show N - 1 + 1 < w.size by omega), mod_of_pos hpos]
  have h := h.step (a := .slots (some (N - 1))) (q' := ⟨d2, hd2, N - 1, 1⟩) trivial (by
    have hne : ¬ (1 = N) := by omega
    simp [Queue.call, queue, exposeSlots, writeableSlice, hwt, isDataContiguous, hsum,
      Word.add_ok (show N - 1 + 1 < w.size by omega), slice, hne, hd2])
  obtain ⟨d3, hd3, hw2⟩ : ∃ d3 : List T, ∃ hd3 : d3.length = N,
      (queue w T N).call ⟨d2, hd2, N - 1, 1⟩ (.write (List.replicate (N - 1) x)) = ok (⟨d3, hd3, N - 1, 1⟩, .unit) := by
    have hl : (overwriteAt d2 0 (List.replicate (N - 1) x)).length = N := by
      rw [length_overwriteAt (by simp; omega), hd2]
    exact ⟨overwriteAt d2 0 (List.replicate (N - 1) x), hl, by simp [Queue.call, queue, writeSlots, hwt, hl]⟩
  have h := h.step (by simp [Ledger.Allows, Ledger.next]) hw2
  have h := h.step (a := .unit) (q' := ⟨d3, hd3, N - 1, 1 + (w.size - N)⟩)
    (by simp [Ledger.Allows, Ledger.next]; omega) (by
      simp [Queue.call, queue, considerEnqueued, Word.add_ok (show 1 + (w.size - N) < w.size by omega)])
  obtain ⟨_, _, h, _⟩ := h trivial
  have hp : exposeItems w (⟨d3, hd3, N - 1, 1 + (w.size - N)⟩ : Static T N) = .panic :=
    exposeItems_panics (by show 0 < N - 1; omega) (by show N - 1 + (1 + (w.size - N)) = w.size; omega) hpos
      (by show 1 + (w.size - N) ≠ 0; omega)
  simp [Queue.call, queue, hp] at h

end WordStatic

end Verif
