import Verif.Model.Fuzz
import Verif.Lemmas.QueueRing
import Verif.Lemmas.Fuzz

/-!
# What the fuzz targets of the queues accept and detect (C55)
-/

namespace Verif

open Outcome

namespace Fuzz

variable {κ T : Type} [DecidableEq T] [Inhabited T]

/-- One operation on a lawful queue: all assertions hold, and the `VecDeque` has the same contents as the queue afterwards. -/
theorem queueStep_ok {Q : Queue κ T} {cap : Nat} {R : κ → List T → List T → Nat → Prop} (hQ : FifoLaw Q cap R) {q : κ}
    {l slots : List T} {n : Nat} (h : R q l slots n) (op : QueueOperation T) :
    ∃ q' l' slots' n', queueStep Q cap l q op = ok (l', q') ∧ R q' l' slots' n' := by
  have hb := hQ.bound _ _ _ _ h
  cases op with
  | enqueue x =>
    by_cases hf : l.length = cap
    · refine ⟨q, l, slots, n, ?_, h⟩
      simp [queueStep, hQ.enqueue_full _ _ _ _ x h hf, hf, assertEq]
    · have hlt : l.length < cap := by omega
      obtain ⟨q', h1, h2⟩ := hQ.enqueue _ _ _ _ x h hlt
      refine ⟨q', l ++ [x], [], n, ?_, h2⟩
      simp [queueStep, h1, show ¬ cap ≤ l.length by omega, assertEq]
  | dequeue =>
    rcases l with _ | ⟨x, l⟩
    · exact ⟨q, [], slots, n, by simp [queueStep, hQ.dequeue_empty _ _ _ h, assertEq], h⟩
    · obtain ⟨q', h1, h2⟩ := hQ.dequeue _ _ _ _ _ h
      exact ⟨q', l, slots, n - 1, by simp [queueStep, h1, assertEq], h2⟩
  | bulkEnqueue items =>
    obtain ⟨q', k, h1, _, _, _, h2, _⟩ := hQ.bulkEnqueue_call h items
    exact ⟨q', l ++ items.take k, [], n, by simp [queueStep, h1], h2⟩
  | bulkDequeue m =>
    by_cases hm : m > 0
    · obtain ⟨q', k, h1, h2, h3, _, ⟨j, h4, _⟩, _⟩ := hQ.bulkDequeue_call h (List.replicate m default)
      refine ⟨q', l.drop k, slots, j, ?_, h4⟩
      rw [List.length_replicate] at h2
      have hlen : (l.take k).length = k := by rw [List.length_take]; omega
      rw [queueStep, if_pos hm, bind_eq, h1]
      simp only [bind_ok, bind_eq]
      rw [slice_of_le (Nat.zero_le _) (by rw [List.length_append, hlen, List.length_drop, List.length_replicate]; omega),
        slice_of_le (Nat.zero_le _) (by rw [hlen]; exact Nat.le_refl _)]
      simp [assertEq, hlen, List.take_of_length_le (Nat.le_of_eq hlen)]
    · exact ⟨q, l, slots, n, by simp [queueStep, hm], h⟩

theorem queueLoop_ok {Q : Queue κ T} {cap : Nat} {R : κ → List T → List T → Nat → Prop} (hQ : FifoLaw Q cap R) :
    ∀ (ops : List (QueueOperation T)) {q : κ} {l slots : List T} {n : Nat}, R q l slots n → queueLoop Q cap l q ops = ok () := by
  intro ops
  induction ops with
  | nil => intros; rfl
  | cons op ops ih =>
    intro q l slots n h
    obtain ⟨q', l', slots', n', h1, h2⟩ := queueStep_ok hQ h op
    simp [queueLoop, h1, ih h2]

/-- **C55**, fixed_bulk.rs and fixed_enqueue_dequeue.rs: no sequence of operations and no capacity makes an assertion fail. -/
theorem fixed_passes (operations : List (QueueOperation T)) (capacity : Nat) : fixedTarget operations capacity = ok () := by
  unfold fixedTarget
  split
  · exact queueLoop_ok (Fixed.fifoLaw T capacity) operations (Fixed.holds_new capacity _)
  · rfl

/-- **C55**, static_bulk.rs and static_enqueue_dequeue.rs. -/
theorem static_passes (operations : List (QueueOperation T)) : staticTarget operations = ok () :=
  queueLoop_ok (Static.fifoLaw T 42) operations (Static.holds_new 42 _)

/-- The targets are not trivially passed: these runs wrap around the end of the memory of the queue. -/
example : fixedTarget [.enqueue 1, .enqueue 2, .enqueue 3, .dequeue, .bulkEnqueue [4, 5], .bulkDequeue 3, .dequeue] 2 = ok () ∧
    staticTarget [.bulkEnqueue (List.range 50), .bulkDequeue 30, .bulkEnqueue (List.range 50), .bulkDequeue 50] = ok () := by
  constructor <;> rfl

/-- The operations of the targets as calls of queue methods. -/
def QueueOperation.op : QueueOperation T → QueueOp T
  | .enqueue x => .enqueue x
  | .dequeue => .dequeue
  | .bulkEnqueue items => .bulkEnqueue items
  | .bulkDequeue n => .bulkDequeue (List.replicate n default)

/-- Does this operation occur in fixed_enqueue_dequeue.rs and static_enqueue_dequeue.rs? -/
def QueueOperation.single : QueueOperation T → Bool
  | .enqueue _ => true
  | .dequeue => true
  | _ => false

/-- **C55**, what fixed_enqueue_dequeue.rs and static_enqueue_dequeue.rs detect: whatever the implementation, a run in which no
assertion fails is a run in which every answer was the one of an ideal first-in-first-out list. -/
theorem queue_target_detects {Q : Queue κ T} {cap : Nat} : ∀ (ops : List (QueueOperation T)) {q : κ} {l : List T} {g : Ledger T},
    (∀ op ∈ ops, op.single = true) → l.length ≤ cap → queueLoop Q cap l q ops = ok () → Q.ActsAsFifo cap q l g (ops.map (·.op)) := by
  intro ops
  induction ops with
  | nil => intros; trivial
  | cons op ops ih =>
    intro q l g hops hle h _
    have hop := hops op List.mem_cons_self
    have hops' : ∀ op ∈ ops, op.single = true := fun o ho => hops o (List.mem_cons_of_mem _ ho)
    simp only [queueLoop, bind_eq, bind_eq_ok] at h
    obtain ⟨⟨l', q'⟩, h1, h2⟩ := h
    cases op with
    | enqueue x =>
      simp only [queueStep, bind_eq, bind_eq_ok] at h1
      obtain ⟨⟨q₁, r⟩, h3, u, h4, h5⟩ := h1
      refine ⟨q₁, .item r, by simp [Queue.call, QueueOperation.op, h3], ?_, ?_⟩
      · by_cases hf : l.length = cap
        · simp [hf, assertEq, assert] at h4; simp [FifoAnswer, QueueOperation.op, hf, h4]
        · simp [show ¬ cap ≤ l.length by omega, assertEq, assert] at h4; simp [FifoAnswer, QueueOperation.op, hf, h4]
      · by_cases hf : l.length = cap
        · simp [hf] at h5
          obtain ⟨rfl, rfl⟩ := h5
          simpa [fifoNext, QueueOperation.op, hf] using ih hops' hle h2
        · simp [show ¬ cap ≤ l.length by omega] at h5
          obtain ⟨rfl, rfl⟩ := h5
          simpa [fifoNext, QueueOperation.op, hf] using ih hops' (by simp; omega) h2
    | dequeue =>
      simp only [queueStep, bind_eq, bind_eq_ok] at h1
      obtain ⟨⟨q₁, r⟩, h3, u, h4, h5⟩ := h1
      simp [assertEq, assert] at h4
      cases h5
      refine ⟨q₁, .item r, by simp [Queue.call, QueueOperation.op, h3], by simp [FifoAnswer, QueueOperation.op, h4], ?_⟩
      simpa [fifoNext, QueueOperation.op] using ih hops' (by simp; omega) h2
    | bulkEnqueue items => simp [QueueOperation.single] at hop
    | bulkDequeue n => simp [QueueOperation.single] at hop

/-- Runs that are detected: a queue that loses the items when it is full, and one that forgets the order. -/
example : queueLoop { Fixed.queue Nat with enqueue := fun q x => (Fixed.enqueue q x).bind fun (q, _) => ok (q, none) } 1 []
      (Fixed.new 1 fun _ => 0) [.enqueue 1, .enqueue 2] = .panic ∧
    queueLoop { Fixed.queue Nat with dequeue := fun q => (Fixed.dequeue q).bind fun (q, x) => ok (q, x.map (· + 1)) } 2 []
      (Fixed.new 2 fun _ => 0) [.enqueue 1, .dequeue] = .panic := by
  constructor <;> rfl

/-- A queue whose bulk methods never move anything. -/
def blind (Q : Queue κ T) : Queue κ T :=
  { Q with bulkEnqueue := fun q _ => ok (q, 0), bulkDequeue := fun q buf => ok (q, 0, buf) }

/-- **C55**, what fixed_bulk.rs and static_bulk.rs do not detect: bulk methods that never move anything, although the contract
(lib.rs:84-87, 135-138 of ufotofu_queues) wants them to move at least one item if they can. -/
theorem queue_target_blind {Q : Queue κ T} {cap : Nat} {R : κ → List T → List T → Nat → Prop} (hQ : FifoLaw Q cap R) :
    ∀ (ops : List (QueueOperation T)) {q : κ} {l slots : List T} {n : Nat}, R q l slots n →
      queueLoop (blind Q) cap l q ops = ok () := by
  intro ops
  induction ops with
  | nil => intros; rfl
  | cons op ops ih =>
    intro q l slots n h
    rcases op with x | _ | items | m
    · obtain ⟨q', l', slots', n', h1, h2⟩ := queueStep_ok hQ h (.enqueue x)
      have h1' : queueStep (blind Q) cap l q (.enqueue x) = ok (l', q') := h1
      simp [queueLoop, h1', ih h2]
    · obtain ⟨q', l', slots', n', h1, h2⟩ := queueStep_ok hQ h .dequeue
      have h1' : queueStep (blind Q) cap l q .dequeue = ok (l', q') := h1
      simp [queueLoop, h1', ih h2]
    · have h1 : queueStep (blind Q) cap l q (.bulkEnqueue items) = ok (l, q) := by simp [queueStep, blind]
      simp [queueLoop, h1, ih h]
    · have h1 : queueStep (blind Q) cap l q (.bulkDequeue m) = ok (l, q) := by
        simp only [queueStep]
        split
        · simp [blind, slice_of_le, assertEq]
        · rfl
      simp [queueLoop, h1, ih h]

/-- The blind queue is wrong: it refuses to move anything into an empty queue. -/
example : ¬ (blind (Fixed.queue Nat)).ActsAsFifo 2 (Fixed.new 2 fun _ => 0) [] .start [.bulkEnqueue [1]] := by
  intro h
  obtain ⟨q', a, h1, ⟨n, rfl, _, _, h2⟩, _⟩ := h trivial
  have : ok (Fixed.new 2 fun _ => 0, QueueAns.num 0) = ok (q', QueueAns.num n) := h1
  cases this
  simpa using h2 rfl

end Fuzz

end Verif
