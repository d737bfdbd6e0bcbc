import Verif.Model.Clone
import Verif.QueueSpec

/-!
# Specification of queues of items with any `clone`

As in `QueueSpec`, an ideal list, but of items that are cloned on their way. It says where an item is cloned, and what is left of the
list after a panic.
-/

namespace Verif

open Outcome

/-- `produce`, `bulk_produce` as in `P`; of the items exposed by `P`, one sees the clones. This is what a client sees of `P` if it
clones the items that it takes from `expose_items`. -/
def BulkProducer.exposingClones {σ I F E : Type} (cl : I → I) (P : BulkProducer σ I F E) : BulkProducer σ I F E :=
  { P with exposeItems := fun s => (P.exposeItems s).bind fun
      | (s, .ok (.inl xs)) => ok (s, .ok (.inl (xs.map cl)))
      | (s, .ok (.inr f)) => ok (s, .ok (.inr f))
      | (s, .error e) => ok (s, .error e) }

/-- How a call of a queue method ends. -/
def Queue.cloningCall {κ I : Type} (clone : I → Option I) (Q : Queue κ I) (dequeue : κ → Outcome (κ × Unwind (Option I))) (q : κ) :
    QueueOp I → Outcome (κ × Unwind (QueueAns I))
  | .bulkEnqueue buf => (bulkEnqueueCloning clone Q.exposeSlots Q.writeSlots Q.considerEnqueued q buf).bind fun
    | (q, .returned n) => ok (q, .returned (.num n))
    | (q, .unwound) => ok (q, .unwound)
  | .dequeue => (dequeue q).bind fun
    | (q, .returned r) => ok (q, .returned (.item r))
    | (q, .unwound) => ok (q, .unwound)
  | .bulkDequeue buf => (bulkDequeueCloning clone Q.exposeItems Q.considerDequeued q buf).bind fun
    | ((q, buf), .returned n) => ok (q, .returned (.filled n buf))
    | ((q, _), .unwound) => ok (q, .unwound)
  | op => (Q.call q op).bind fun (q, a) => ok (q, .returned a)

/-- The answers of an ideal list with contents `l`. Dequeued items are clones of those in the list. -/
def CloningAnswer {I : Type} (clone : I → Option I) (cap : Nat) (l : List I) : QueueOp I → QueueAns I → Prop
  | .bulkEnqueue buf, a => ∃ n, a = .num n ∧ n ≤ buf.length ∧ l.length + n ≤ cap ∧ (n = 0 → buf = [] ∨ l.length = cap) ∧
      ∀ x ∈ buf.take n, clone x ≠ none
  | .dequeue, a => (l = [] ∧ a = .item none) ∨ ∃ x y, l.head? = some x ∧ clone x = some y ∧ a = .item (some y)
  | .bulkDequeue buf, a => ∃ n, a = .filled n ((l.take n).filterMap clone ++ buf.drop n) ∧ n ≤ buf.length ∧ n ≤ l.length ∧
      (n = 0 → buf = [] ∨ l = []) ∧ ∀ x ∈ l.take n, clone x ≠ none
  | op, a => FifoAnswer cap l op a

/-- The contents of the ideal list after a call that returns. `bulk_enqueue` enqueues clones. -/
def cloningNext {I : Type} (clone : I → Option I) (cap : Nat) (l : List I) (g : Ledger I) : QueueOp I → QueueAns I → List I
  | .bulkEnqueue buf, .num n => l ++ (buf.take n).filterMap clone
  | op, a => fifoNext cap l g op a

/-- The calls that can end by a panic of `clone`. -/
def Unwinds {I : Type} (clone : I → Option I) (l : List I) : QueueOp I → Prop
  | .bulkEnqueue buf => ∃ x ∈ buf, clone x = none
  | .dequeue => ∃ x, l.head? = some x ∧ clone x = none
  | .bulkDequeue _ => ∃ x ∈ l, clone x = none
  | _ => False

/-- Bookkeeping after such a call. -/
def Ledger.unwound {I : Type} (g : Ledger I) : QueueOp I → Ledger I
  | .bulkEnqueue _ => { g with offered := 0, written := [] }
  | .dequeue => { g with shown := g.shown - 1 }
  | _ => g

/-- The queue answers every call sequence that respects the documented invariants like the ideal list, also after panics of `clone`
have been caught; `after l op` are the contents that remain when the call `op` on a list with contents `l` ends by a panic. -/
def Queue.ActsAsCloningFifo {κ I : Type} (clone : I → Option I) (Q : Queue κ I) (dequeue : κ → Outcome (κ × Unwind (Option I)))
    (after : List I → QueueOp I → List I) (cap : Nat) : κ → List I → Ledger I → List (QueueOp I) → Prop
  | _, _, _, [] => True
  | q, l, g, op :: ops => g.Allows op →
      (∃ q' a, Q.cloningCall clone dequeue q op = ok (q', .returned a) ∧ CloningAnswer clone cap l op a ∧
        Q.ActsAsCloningFifo clone dequeue after cap q' (cloningNext clone cap l g op a) (g.next op a) ops) ∨
      (∃ q', Q.cloningCall clone dequeue q op = ok (q', .unwound) ∧ Unwinds clone l op ∧
        Q.ActsAsCloningFifo clone dequeue after cap q' (after l op) (g.unwound op) ops)

/-- Nothing is lost. -/
def keepsAll {I : Type} (l : List I) (_ : QueueOp I) : List I := l

/-- `dequeue` loses the item. -/
def losesDequeued {I : Type} (l : List I) : QueueOp I → List I
  | .dequeue => l.drop 1
  | _ => l

end Verif
