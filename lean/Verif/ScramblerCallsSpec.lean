import Verif.CallsSpec
import Verif.Model.Scramblers

/-!
# Which methods scramblers call

What the scramblers are for: they turn whatever a client calls into a given pattern of calls. The documentation
(`/repo/ufotofu/src/producer/bulk_scrambler.rs:36-61`, `/repo/ufotofu/src/consumer/bulk_scrambler.rs:35-60`) says that they cycle
through the operations they are given. Here is stated which calls exactly the wrapped producer or consumer gets.
-/

namespace Verif

open Outcome

section

variable {σ I F E : Type}

/-- A history of calls (`ProducerRuns`), together with the list of its calls. -/
inductive ProducerRunsBy (P : BulkProducer σ I F E) (s₀ : σ) :
    List (ProducerOp I) → List I → σ → List I → Option (Except E F) → Prop where
  | start : ProducerRunsBy P s₀ [] [] s₀ [] none
  | call {ops handed s shown op s' r} : ProducerRunsBy P s₀ ops handed s shown none → op.Allowed shown →
      P.call s shown op = ok (s', r) → ProducerRunsBy P s₀ (ops ++ [op]) (handed ++ r.items) s' r.shown r.ended

/-- A history of calls (`ConsumerRuns`), together with the list of its calls. -/
inductive ConsumerRunsBy (C : BulkConsumer σ I F E) (s₀ : σ) :
    List (ConsumerOp I F) → List I → σ → List I → Option (ConsumerEnd I F E) → Prop where
  | start : ConsumerRunsBy C s₀ [] [] s₀ [] none
  | call {ops taken s slots op s' r} : ConsumerRunsBy C s₀ ops taken s slots none → op.Allowed slots →
      C.call s slots op = ok (s', r) → ConsumerRunsBy C s₀ (ops ++ [op]) (taken ++ r.items) s' r.slots r.ended

/-! ## Producers -/

/-- The operations to cycle through: the given ones, and `produce` if all of them are `slurp`. -/
def ScrambleProduce.cycle (ops : List ScrambleProduce) : List ScrambleProduce :=
  if ∀ op ∈ ops, op = .slurp then ops ++ [.produce] else ops

/-- The calls made to perform an operation, and the number of items obtained by them. -/
inductive ScrambleProduce.Does : ScrambleProduce → List (ProducerOp I) → Nat → Prop where
  | produce : Does .produce [.produce] 1
  | items {n : NonZero} {k} : k ≤ n.1 → Does (.considerProduced n) [.exposeItems, .considerProduced k] k
  | slurp : Does .slurp [.slurp] 0

/-- The same if one of the calls answers with the final value or an error. -/
inductive ScrambleProduce.Fails : ScrambleProduce → List (ProducerOp I) → Nat → Prop where
  | produce : Fails .produce [.produce] 0
  | expose {n} : Fails (.considerProduced n) [.exposeItems] 0
  | items {n : NonZero} {k} : k ≤ n.1 → Fails (.considerProduced n) [.exposeItems, .considerProduced k] k
  | slurp : Fails .slurp [.slurp] 0

/-- Where a scrambler stands: the number of operations performed so far (which determines the next one), the number of items in its
queue, and whether the wrapped producer has answered with the final value or an error. -/
structure ProducerStanding where
  turn : Nat
  queued : Nat
  stopped : Bool
  deriving DecidableEq

/-- The calls made to fill the queue: operations in turn, until the queue is full or the wrapped producer has come to an end. -/
inductive Fills (ops : List ScrambleProduce) (cap : Nat) : ProducerStanding → List (ProducerOp I) → ProducerStanding → Prop where
  | full {j} : Fills ops cap ⟨j, cap, false⟩ [] ⟨j, cap, false⟩
  | stopped {j a} : Fills ops cap ⟨j, a, true⟩ [] ⟨j, a, true⟩
  | op {j a} {op : ScrambleProduce} {calls k more t} : a < cap → ops[j % ops.length]? = some op → op.Does calls k → a + k ≤ cap →
      Fills ops cap ⟨j + 1, a + k, false⟩ more t → Fills ops cap ⟨j, a, false⟩ (calls ++ more) t
  | fails {j a} {op : ScrambleProduce} {calls k} : a < cap → ops[j % ops.length]? = some op → op.Fails calls k → a + k ≤ cap →
      Fills ops cap ⟨j, a, false⟩ calls ⟨j, a + k, true⟩

/-- How many items a client may get by a call that asks for some. -/
inductive ProducerOp.Gets : ProducerOp I → Nat → Prop where
  | produce : Gets .produce 1
  | expose : Gets .exposeItems 0
  | bulk {buf k} : k ≤ buf.length → Gets (.bulkProduce buf) k

/-- `ScrambledProducer ops cap client handed st calls`: after the calls `client` of a scrambler that cycles through `ops` and whose
queue has room for `cap` items, `handed` items were handed out to the client, the scrambler stands at `st` (`none` if it has answered
with the final value or an error), and the calls `calls` were made of the wrapped producer. -/
inductive ScrambledProducer (ops : List ScrambleProduce) (cap : Nat) :
    List (ProducerOp I) → Nat → Option ProducerStanding → List (ProducerOp I) → Prop where
  | start : ScrambledProducer ops cap [] 0 (some ⟨0, 0, false⟩) []
  /-- The queue is filled, and items taken from it. -/
  | asks {client handed st calls op k new j a b} : ScrambledProducer ops cap client handed (some st) calls → op.Gets k →
      Fills ops cap st new ⟨j, a, b⟩ → 0 < a → k ≤ a →
      ScrambledProducer ops cap (client ++ [op]) (handed + k) (some ⟨j, a - k, b⟩) (calls ++ new)
  /-- The same, but the queue stays empty. -/
  | ends {client handed st calls op new j} : ScrambledProducer ops cap client handed (some st) calls → op.asks = true →
      Fills ops cap st new ⟨j, 0, true⟩ → ScrambledProducer ops cap (client ++ [op]) handed none (calls ++ new)
  /-- Nothing is called to consider items produced. -/
  | considers {client handed j a b calls k} : ScrambledProducer ops cap client handed (some ⟨j, a, b⟩) calls → k ≤ a →
      ScrambledProducer ops cap (client ++ [.considerProduced k]) (handed + k) (some ⟨j, a - k, b⟩) calls
  /-- The queue is filled, and `slurp` passed on, which may fail. -/
  | slurps {client handed st calls new j a b b'} : ScrambledProducer ops cap client handed (some st) calls →
      Fills ops cap st new ⟨j, a, b⟩ → (b = true → b' = true) →
      ScrambledProducer ops cap (client ++ [.slurp]) handed (some ⟨j, a, b'⟩) (calls ++ new ++ [.slurp])
  /-- The same, if the queue is empty and there is an error to report. -/
  | slurpFails {client handed st calls new j} : ScrambledProducer ops cap client handed (some st) calls →
      Fills ops cap st new ⟨j, 0, true⟩ →
      ScrambledProducer ops cap (client ++ [.slurp]) handed none (calls ++ new ++ [.slurp])
  /-- `slurp` is not passed on if the queue is empty because of an error. -/
  | slurpEnds {client handed st calls new j} : ScrambledProducer ops cap client handed (some st) calls →
      Fills ops cap st new ⟨j, 0, true⟩ → ScrambledProducer ops cap (client ++ [.slurp]) handed none (calls ++ new)

/-- The calls made to perform the first `n` operations in turn. -/
inductive ProduceTurns (ops : List ScrambleProduce) : Nat → List (ProducerOp I) → Prop where
  | nil : ProduceTurns ops 0 []
  | snoc {n calls new k} {op : ScrambleProduce} : ProduceTurns ops n calls → ops[n % ops.length]? = some op → op.Does new k →
      ProduceTurns ops (n + 1) (calls ++ new)

/-- How many items are requested by some calls: one for each `produce`, and those that are considered produced. -/
def ProducerOp.requested : List (ProducerOp I) → Nat
  | [] => 0
  | .produce :: ops => 1 + requested ops
  | .considerProduced k :: ops => k + requested ops
  | _ :: ops => requested ops

/-! ## Consumers -/

/-- The operations to cycle through: the given ones, and `consume` if all of them are `flush`. -/
def ScrambleConsume.cycle (ops : List ScrambleConsume) : List ScrambleConsume :=
  if ∀ op ∈ ops, op = .flush then ops ++ [.consume] else ops

/-- The calls made to perform an operation: the first items of the queue are passed on. (More slots may be written than are then
consumed.) -/
inductive ScrambleConsume.Does : ScrambleConsume → List I → List (ConsumerOp I F) → List I → Prop where
  | consume {x q} : Does .consume (x :: q) [.consume x] q
  | slots {n : NonZero} {xs q rest : List I} : xs.length ≤ n.1 →
      Does (.consumeSlots n) (xs ++ q) [.exposeSlots, .write (xs ++ rest), .consumeSlots xs.length] q
  | flush {q} : Does .flush q [.flush] q

/-- The same if one of the calls fails. -/
inductive ScrambleConsume.Fails : ScrambleConsume → List I → List (ConsumerOp I F) → Prop where
  | does {op : ScrambleConsume} {q calls q'} : op.Does q calls q' → Fails op q calls
  | expose {n q} : Fails (.consumeSlots n) q [.exposeSlots]

/-- `Drains ops j q calls r`: the calls made to empty the queue, which contains `q`, if `j` operations were performed before. In the
end `r` operations were performed, or one has failed. -/
inductive Drains (ops : List ScrambleConsume) : Nat → List I → List (ConsumerOp I F) → Option Nat → Prop where
  | done {j} : Drains ops j [] [] (some j)
  | op {j q} {op : ScrambleConsume} {calls q' more r} : q ≠ [] → ops[j % ops.length]? = some op → op.Does q calls q' →
      Drains ops (j + 1) q' more r → Drains ops j q (calls ++ more) r
  | fails {j q} {op : ScrambleConsume} {calls} : q ≠ [] → ops[j % ops.length]? = some op → op.Fails q calls →
      Drains ops j q calls none

/-- The items that a call offers, as far as they are accepted. -/
inductive ConsumerOp.Gives : ConsumerOp I F → List I → Prop where
  | consume {x} : Gives (.consume x) [x]
  | expose : Gives .exposeSlots []
  | bulk {xs rest : List I} : Gives (.bulkConsume (xs ++ rest)) xs

/-- `ScrambledConsumer ops cap client taken st calls`: after the calls `client` of a scrambler that cycles through `ops` and whose
queue has room for `cap` items, it has taken the items `taken`; if it has not come to an end (`none`), `st` are the number of
operations performed and the contents of the queue; and the calls `calls` were made of the wrapped consumer. -/
inductive ScrambledConsumer (ops : List ScrambleConsume) (cap : Nat) :
    List (ConsumerOp I F) → List I → Option (Nat × List I) → List (ConsumerOp I F) → Prop where
  | start : ScrambledConsumer ops cap [] [] (some (0, [])) []
  /-- Nothing is called while there is room in the queue. -/
  | room {client taken j q calls op xs} : ScrambledConsumer ops cap client taken (some (j, q)) calls → q.length < cap → op.Gives xs →
      q.length + xs.length ≤ cap → ScrambledConsumer ops cap (client ++ [op]) (taken ++ xs) (some (j, q ++ xs)) calls
  /-- A full queue is emptied. -/
  | makesRoom {client taken j q calls op xs new j'} : ScrambledConsumer ops cap client taken (some (j, q)) calls → q.length = cap →
      Drains ops j q new (some j') → op.Gives xs → xs.length ≤ cap →
      ScrambledConsumer ops cap (client ++ [op]) (taken ++ xs) (some (j', xs)) (calls ++ new)
  | fails {client taken j q calls op new} : ScrambledConsumer ops cap client taken (some (j, q)) calls → q.length = cap →
      Drains ops j q new none → op.offers = true → ScrambledConsumer ops cap (client ++ [op]) taken none (calls ++ new)
  /-- Nothing is called to write to slots or to consume them. -/
  | write {client taken st calls ws} : ScrambledConsumer ops cap client taken (some st) calls →
      ScrambledConsumer ops cap (client ++ [.write ws]) taken (some st) calls
  | slots {client taken j q calls} {xs : List I} : ScrambledConsumer ops cap client taken (some (j, q)) calls →
      q.length + xs.length ≤ cap →
      ScrambledConsumer ops cap (client ++ [.consumeSlots xs.length]) (taken ++ xs) (some (j, q ++ xs)) calls
  /-- The queue is emptied, and `flush` passed on. -/
  | flushes {client taken j q calls new j'} : ScrambledConsumer ops cap client taken (some (j, q)) calls →
      Drains ops j q new (some j') →
      ScrambledConsumer ops cap (client ++ [.flush]) taken (some (j', [])) (calls ++ new ++ [.flush])
  | flushFails {client taken j q calls new j'} : ScrambledConsumer ops cap client taken (some (j, q)) calls →
      Drains ops j q new (some j') →
      ScrambledConsumer ops cap (client ++ [.flush]) taken none (calls ++ new ++ [.flush])
  | flushEnds {client taken j q calls new} : ScrambledConsumer ops cap client taken (some (j, q)) calls →
      Drains ops j q new none → ScrambledConsumer ops cap (client ++ [.flush]) taken none (calls ++ new)
  /-- The queue is emptied, and `close` passed on. -/
  | closes {client taken j q calls new j' f} : ScrambledConsumer ops cap client taken (some (j, q)) calls →
      Drains ops j q new (some j') →
      ScrambledConsumer ops cap (client ++ [.close f]) taken none (calls ++ new ++ [.close f])
  | closeEnds {client taken j q calls new f} : ScrambledConsumer ops cap client taken (some (j, q)) calls →
      Drains ops j q new none → ScrambledConsumer ops cap (client ++ [.close f]) taken none (calls ++ new)

/-- The calls made to perform the first `n` operations in turn, which pass on the items `xs`. -/
inductive ConsumeTurns (ops : List ScrambleConsume) : Nat → List I → List (ConsumerOp I F) → Prop where
  | nil : ConsumeTurns ops 0 [] []
  | snoc {n xs ys calls new} {op : ScrambleConsume} : ConsumeTurns ops n xs calls → ops[n % ops.length]? = some op →
      op.Does ys new [] → ConsumeTurns ops (n + 1) (xs ++ ys) (calls ++ new)

end

end Verif
