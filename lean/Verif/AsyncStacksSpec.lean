import Verif.ItemStacksSpec
import Verif.ScramblingSpec
import Verif.StacksSpec
import Verif.Model.AsyncAdaptors
import Verif.Model.AsyncScramblers

/-!
# Stacks of adaptors, poll by poll (C88)

The stacks of C84, C86 and C87, made of the adaptors as state machines that are polled.
-/

namespace Verif

variable {σ τ I F E : Type}

/-- The stack of adaptors around a producer. -/
def SourceLayers.applyAsync (P : Async.Producer σ I F E) : {J G : Type} → (L : SourceLayers I F J G) → Async.Producer (L.State σ) J G E
  | _, _, .nil => P
  | _, _, .limit L _ => Async.limitProducer (L.applyAsync P)
  | _, _, .mapItem L f _ => Async.mapItemProducer f (L.applyAsync P)
  | _, _, .mapFinal L _ => Async.mapFinalProducer (L.applyAsync P)
  | _, _, .invariant L => Async.invariantProducer (L.applyAsync P)

/-- The wrapped producer in a state of the stack. -/
def SourceLayers.core : {J G : Type} → (L : SourceLayers I F J G) → L.State σ → σ
  | _, _, .nil, s => s
  | _, _, .limit L _, s => L.core s.inner
  | _, _, .mapItem L _ _, s => L.core s.inner
  | _, _, .mapFinal L _, s => L.core s.inner
  | _, _, .invariant L, s => L.core s.inner

/-- The stack of adaptors around a consumer. -/
def SinkLayers.applyAsync (C : Async.BufferedConsumer τ I F E) :
    {J G E' : Type} → (L : SinkLayers I F E J G E') → Async.BufferedConsumer (L.State τ) J G E'
  | _, _, _, .nil => C
  | _, _, _, .limit L _ => Async.limitBufferedConsumer (L.applyAsync C)
  | _, _, _, .mapItem L f _ => Async.mapItemBufferedConsumer f (L.applyAsync C)
  | _, _, _, .mapFinal L _ => Async.mapFinalBufferedConsumer (L.applyAsync C)
  | _, _, _, .invariant L => Async.invariantBufferedConsumer (L.applyAsync C)

/-- The stack of adaptors, with scramblers, around a producer. -/
noncomputable def ScramblingLayers.applyAsync (debug : Bool) (P : Async.BulkProducer σ I F E) :
    {G : Type} → (L : ScramblingLayers I F G) → Async.BulkProducer (L.State σ E) I G E
  | _, .nil => P
  | _, .limit L _ => Async.limitBulkProducer (L.applyAsync debug P)
  | _, .mapFinal L _ => Async.mapFinalBulkProducer (L.applyAsync debug P)
  | _, .invariant L => Async.invariantBulkProducer (L.applyAsync debug P)
  | _, .invariantNoop L => Async.invariantNoopBulkProducer (L.applyAsync debug P)
  | _, .scrambler L _ _ _ => Async.producerScrambler debug (L.applyAsync debug P)

/-- The wrapped producer in a state of the stack. -/
def ScramblingLayers.core : {G : Type} → (L : ScramblingLayers I F G) → L.State σ E → σ
  | _, .nil, s => s
  | _, .limit L _, s => L.core s.inner
  | _, .mapFinal L _, s => L.core s.inner
  | _, .invariant L, s => L.core s.inner
  | _, .invariantNoop L, s => L.core s
  | _, .scrambler L _ _ _, s => L.core s.inner

/-- The stack of adaptors, with scramblers, around a consumer. -/
noncomputable def DeferringLayers.applyAsync (C : Async.BulkConsumer τ I F E) :
    {G E' : Type} → (L : DeferringLayers I F E G E') → Async.BulkConsumer (L.State τ) I G E'
  | _, _, .nil => C
  | _, _, .limit L _ => Async.limitBulkConsumer (L.applyAsync C)
  | _, _, .mapFinal L _ => Async.mapFinalBulkConsumer (L.applyAsync C)
  | _, _, .invariant L => Async.invariantBulkConsumer (L.applyAsync C)
  | _, _, .invariantNoop L => Async.invariantNoopBulkConsumer (L.applyAsync C)
  | _, _, .scrambler L _ _ _ => Async.consumerScrambler false (L.applyAsync C)

end Verif
