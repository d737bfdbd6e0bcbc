import Verif.Model.Queue

/-!
# Specification of queues

An ideal bounded first-in-first-out list, call sequences, and what it means for an implementation to agree with the ideal
one under all of them. Independent of any implementation.
-/

namespace Verif

open Outcome

/-- A call of a queue method (`write ws`: the client writes `ws` to the first slots of the most recently exposed slots). -/
inductive QueueOp (I : Type) where
  | len
  | isEmpty
  | enqueue (x : I)
  | exposeSlots
  | write (ws : List I)
  | considerEnqueued (k : Nat)
  | bulkEnqueue (buf : List I)
  | dequeue
  | exposeItems
  | considerDequeued (k : Nat)
  | bulkDequeue (buf : List I)

/-- What the client sees of the result of a call. Of exposed slots it sees how many there are. -/
inductive QueueAns (I : Type) where
  | unit
  | num (n : Nat)
  | bool (b : Bool)
  | item (x : Option I)
  | slots (n : Option Nat)
  | items (xs : Option (List I))
  | filled (n : Nat) (buf : List I)
  deriving DecidableEq

/-- Call a method of a queue. -/
def Queue.call {κ I : Type} (Q : Queue κ I) (q : κ) : QueueOp I → Outcome (κ × QueueAns I)
  | .len => ok (q, .num (Q.len q))
  | .isEmpty => ok (q, .bool (Q.isEmpty q))
  | .enqueue x => (Q.enqueue q x).bind fun (q, r) => ok (q, .item r)
  | .exposeSlots => (Q.exposeSlots q).bind fun (q, r) => ok (q, .slots (r.map List.length))
  | .write ws => ok (Q.writeSlots q ws, .unit)
  | .considerEnqueued k => (Q.considerEnqueued q k).bind fun q => ok (q, .unit)
  | .bulkEnqueue buf => (Q.bulkEnqueue q buf).bind fun (q, n) => ok (q, .num n)
  | .dequeue => (Q.dequeue q).bind fun (q, r) => ok (q, .item r)
  | .exposeItems => (Q.exposeItems q).bind fun (q, r) => ok (q, .items r)
  | .considerDequeued k => (Q.considerDequeued q k).bind fun q => ok (q, .unit)
  | .bulkDequeue buf => (Q.bulkDequeue q buf).bind fun (q, n, buf) => ok (q, .filled n buf)

/-- What a client must keep track of to respect the documented invariants (lib.rs:66-82, 123-133): how many slots are
exposed, what it has written to the first of them, and how many exposed items have not been dequeued yet. -/
structure Ledger (I : Type) where
  offered : Nat
  written : List I
  shown : Nat

namespace Ledger

variable {I : Type}

def start : Ledger I := ⟨0, [], 0⟩

/-- The documented invariants: write only to exposed slots, consider only slots enqueued that have been written, consider
only items dequeued that have been exposed. -/
def Allows (g : Ledger I) : QueueOp I → Prop
  | .write ws => ws.length ≤ g.offered
  | .considerEnqueued k => k ≤ g.written.length
  | .considerDequeued k => k ≤ g.shown
  | _ => True

/-- Bookkeeping after a call. Any successful enqueueing invalidates the exposed slots. -/
def next (g : Ledger I) : QueueOp I → QueueAns I → Ledger I
  | .enqueue _, .item none => { g with offered := 0, written := [] }
  | .bulkEnqueue _, _ => { g with offered := 0, written := [] }
  | .exposeSlots, .slots r => { g with offered := r.getD 0, written := [] }
  | .write ws, _ => { g with written := ws ++ g.written.drop ws.length }
  | .considerEnqueued k, _ => { g with offered := g.offered - k, written := g.written.drop k }
  | .dequeue, .item (some _) => { g with shown := g.shown - 1 }
  | .exposeItems, .items r => { g with shown := (r.map List.length).getD 0 }
  | .considerDequeued k, _ => { g with shown := g.shown - k }
  | .bulkDequeue _, .filled k _ => { g with shown := g.shown - k }
  | _, _ => g

end Ledger

/-- The answers an ideal first-in-first-out list with contents `l` and capacity `cap` may give. All answers are determined,
except for how many slots or items are exposed at once (and so how many items a bulk method moves): that is any positive
number that makes sense. -/
def FifoAnswer {I : Type} (cap : Nat) (l : List I) : QueueOp I → QueueAns I → Prop
  | .len, a => a = .num l.length
  | .isEmpty, a => a = .bool (l.length == 0)
  | .enqueue x, a => a = .item (if l.length = cap then some x else none)
  | .exposeSlots, a => (l.length = cap ∧ a = .slots none) ∨
      (∃ n, a = .slots (some n) ∧ 0 < n ∧ l.length + n ≤ cap)
  | .write _, a => a = .unit
  | .considerEnqueued _, a => a = .unit
  | .bulkEnqueue buf, a => ∃ n, a = .num n ∧ n ≤ buf.length ∧ l.length + n ≤ cap ∧
      (n = 0 → buf = [] ∨ l.length = cap)
  | .dequeue, a => a = .item l.head?
  | .exposeItems, a => (l = [] ∧ a = .items none) ∨ (∃ xs, a = .items (some xs) ∧ xs ≠ [] ∧ xs <+: l)
  | .considerDequeued _, a => a = .unit
  | .bulkDequeue buf, a => ∃ n, a = .filled n (l.take n ++ buf.drop n) ∧ n ≤ buf.length ∧ n ≤ l.length ∧
      (n = 0 → buf = [] ∨ l = [])

/-- The contents of the ideal list after a call. -/
def fifoNext {I : Type} (cap : Nat) (l : List I) (g : Ledger I) : QueueOp I → QueueAns I → List I
  | .enqueue x, _ => if l.length = cap then l else l ++ [x]
  | .considerEnqueued k, _ => l ++ g.written.take k
  | .bulkEnqueue buf, .num n => l ++ buf.take n
  | .dequeue, _ => l.drop 1
  | .considerDequeued k, _ => l.drop k
  | .bulkDequeue _, .filled n _ => l.drop n
  | _, _ => l

/-- The queue `Q` in state `q` answers every call sequence `ops` that respects the documented invariants like an ideal
first-in-first-out list of capacity `cap` with contents `l` (and never panics). -/
def Queue.ActsAsFifo {κ I : Type} (Q : Queue κ I) (cap : Nat) : κ → List I → Ledger I → List (QueueOp I) → Prop
  | _, _, _, [] => True
  | q, l, g, op :: ops => g.Allows op →
      ∃ q' a, Q.call q op = ok (q', a) ∧ FifoAnswer cap l op a ∧
        Q.ActsAsFifo cap q' (fifoNext cap l g op a) (g.next op a) ops

/-- Two queue states give the same answers to every call of the sequence `ops`, as long as it respects the documented
invariants (and never panic). -/
def Queue.SameAnswers {κ I : Type} (Q : Queue κ I) : κ → κ → Ledger I → List (QueueOp I) → Prop
  | _, _, _, [] => True
  | q₁, q₂, g, op :: ops => g.Allows op →
      ∃ q₁' q₂' a, Q.call q₁ op = ok (q₁', a) ∧ Q.call q₂ op = ok (q₂', a) ∧
        Q.SameAnswers q₁' q₂' (g.next op a) ops

/-- `q` can be reached from `q₀` by calls that respect the documented invariants; then `l` are the contents of the ideal
list after the same calls. -/
inductive Queue.Reaches {κ I : Type} (Q : Queue κ I) (cap : Nat) (q₀ : κ) : κ → List I → Ledger I → Prop where
  | start : Q.Reaches cap q₀ q₀ [] .start
  | step {q l g op q' a} : Q.Reaches cap q₀ q l g → g.Allows op → Q.call q op = ok (q', a) →
      Q.Reaches cap q₀ q' (fifoNext cap l g op a) (g.next op a)

/-- The laws of a bounded first-in-first-out queue of capacity `cap`. `R q l slots n`: the queue in state `q` contains
`l`, the exposed slots contain `slots`, and the first `n` items of `l` are exposed. -/
structure FifoLaw {κ I : Type} (Q : Queue κ I) (cap : Nat) (R : κ → List I → List I → Nat → Prop) : Prop where
  bound : ∀ q l slots n, R q l slots n → l.length + slots.length ≤ cap ∧ n ≤ l.length
  len : ∀ q l slots n, R q l slots n → Q.len q = l.length
  isEmpty : ∀ q l slots n, R q l slots n → Q.isEmpty q = (l.length == 0)
  enqueue_full : ∀ q l slots n x, R q l slots n → l.length = cap → Q.enqueue q x = ok (q, some x)
  enqueue : ∀ q l slots n x, R q l slots n → l.length < cap →
    ∃ q', Q.enqueue q x = ok (q', none) ∧ R q' (l ++ [x]) [] n
  exposeSlots_full : ∀ q l slots n, R q l slots n → l.length = cap → Q.exposeSlots q = ok (q, none)
  exposeSlots : ∀ q l slots n, R q l slots n → l.length < cap →
    ∃ q' slots', slots' ≠ [] ∧ Q.exposeSlots q = ok (q', some slots') ∧ R q' l slots' n
  write : ∀ q l slots n ws, R q l slots n → ws.length ≤ slots.length →
    R (Q.writeSlots q ws) l (ws ++ slots.drop ws.length) n
  considerEnqueued : ∀ q l slots n k, R q l slots n → k ≤ slots.length →
    ∃ q', Q.considerEnqueued q k = ok q' ∧ R q' (l ++ slots.take k) (slots.drop k) n
  dequeue_empty : ∀ q slots n, R q [] slots n → Q.dequeue q = ok (q, none)
  dequeue : ∀ q x l slots n, R q (x :: l) slots n → ∃ q', Q.dequeue q = ok (q', some x) ∧ R q' l slots (n - 1)
  exposeItems_empty : ∀ q slots n, R q [] slots n → Q.exposeItems q = ok (q, none)
  exposeItems : ∀ q l slots n, R q l slots n → l ≠ [] →
    ∃ q' m, 0 < m ∧ m ≤ l.length ∧ Q.exposeItems q = ok (q', some (l.take m)) ∧ R q' l slots (max n m)
  considerDequeued : ∀ q l slots n k, R q l slots n → k ≤ n → 0 < cap →
    ∃ q', Q.considerDequeued q k = ok q' ∧ R q' (l.drop k) slots (n - k)
  /-- forgetting about exposed slots and items -/
  weaken : ∀ q l slots n m, R q l slots n → m ≤ n → R q l [] m ∧ R q l slots m
  bulkEnqueue : Q.bulkEnqueue = bulkEnqueueDefault Q.exposeSlots Q.writeSlots Q.considerEnqueued
  bulkDequeue : Q.bulkDequeue = bulkDequeueDefault Q.exposeItems Q.considerDequeued

end Verif
