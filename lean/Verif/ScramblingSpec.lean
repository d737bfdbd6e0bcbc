import Verif.Spec
import Verif.AdaptorSpec
import Verif.Model.Producers
import Verif.Model.Scramblers

/-!
# Specification vocabulary for stacks of producer adaptors with scramblers (C86)
-/

namespace Verif

open Outcome

section

variable {σ I F E : Type}

/-- A stack of producer adaptors, including `BulkScrambler`, around a producer with final values `F`, resulting in a producer with
final values `G`. -/
inductive ScramblingLayers (I F : Type) : Type → Type 1 where
  | nil : ScramblingLayers I F F
  | limit {G} (L : ScramblingLayers I F G) (n : Nat) : ScramblingLayers I F (Option G)
  | mapFinal {G H} (L : ScramblingLayers I F G) (f : G → H) : ScramblingLayers I F H
  | invariant {G} (L : ScramblingLayers I F G) : ScramblingLayers I F G
  | invariantNoop {G} (L : ScramblingLayers I F G) : ScramblingLayers I F G
  | scrambler {G} (L : ScramblingLayers I F G) (ops : List ScrambleProduce) (cap : NonZero) (tmp : Nat → I) : ScramblingLayers I F G

namespace ScramblingLayers

/-- The state of the stack. -/
def State (σ E : Type) : {G : Type} → ScramblingLayers I F G → Type
  | _, nil => σ
  | _, limit L _ => LimitSt (L.State σ E)
  | _, @mapFinal _ _ G H L _ => MapFinalSt (L.State σ E) G H
  | _, invariant L => InvariantSt (L.State σ E)
  | _, invariantNoop L => L.State σ E
  | G, scrambler L _ _ _ => ProducerScrambler (L.State σ E) I G E

/-- The stack of adaptors around a producer; `debug` says whether the code is built with debug assertions. -/
noncomputable def apply (debug : Bool) (P : BulkProducer σ I F E) :
    {G : Type} → (L : ScramblingLayers I F G) → BulkProducer (L.State σ E) I G E
  | _, nil => P
  | _, limit L _ => limitBulkProducer (L.apply debug P)
  | _, mapFinal L _ => mapFinalBulkProducer (L.apply debug P)
  | _, invariant L => invariantBulkProducer (L.apply debug P)
  | _, invariantNoop L => invariantNoopBulkProducer (L.apply debug P)
  | _, scrambler L _ _ _ => producerScrambler debug (L.apply debug P)

/-- The initial state of the stack. -/
def wrap (E : Type) (s : σ) : {G : Type} → (L : ScramblingLayers I F G) → L.State σ E
  | _, nil => s
  | _, limit L n => ⟨L.wrap E s, n⟩
  | _, mapFinal L f => ⟨L.wrap E s, some f⟩
  | _, invariant L => .new (L.wrap E s)
  | _, invariantNoop L => L.wrap E s
  | _, scrambler L ops cap tmp => .new (L.wrap E s) ops cap tmp

/-- The composition of the transformations of sequences; scramblers do not change them. -/
def script (c : Script I F E) : {G : Type} → ScramblingLayers I F G → Script I G E
  | _, nil => c
  | _, limit L n => (L.script c).limit n
  | _, mapFinal L f => (L.script c).mapFinal f
  | _, invariant L => L.script c
  | _, invariantNoop L => L.script c
  | _, scrambler L _ _ _ => L.script c

/-- No scrambler in the stack has been told to slurp. -/
def NoSlurps : {G : Type} → ScramblingLayers I F G → Prop
  | _, nil => True
  | _, limit L _ => L.NoSlurps
  | _, mapFinal L _ => L.NoSlurps
  | _, invariant L => L.NoSlurps
  | _, invariantNoop L => L.NoSlurps
  | _, scrambler L ops _ _ => L.NoSlurps ∧ ScrambleProduce.slurp ∉ ops

/-- The stack contains neither a `Limit` nor a scrambler. -/
def Slurpable : {G : Type} → ScramblingLayers I F G → Prop
  | _, nil => True
  | _, limit _ _ => False
  | _, mapFinal L _ => L.Slurpable
  | _, invariant L => L.Slurpable
  | _, invariantNoop L => L.Slurpable
  | _, scrambler _ _ _ _ => False

/-- A scrambler may have been told to slurp only if there are neither a `Limit` nor further scramblers below it. -/
def GoodSlurps : {G : Type} → ScramblingLayers I F G → Prop
  | _, nil => True
  | _, limit L _ => L.GoodSlurps
  | _, mapFinal L _ => L.GoodSlurps
  | _, invariant L => L.GoodSlurps
  | _, invariantNoop L => L.GoodSlurps
  | _, scrambler L ops _ _ => L.GoodSlurps ∧ (ScrambleProduce.slurp ∈ ops → L.Slurpable)

end ScramblingLayers

end

end Verif
