import Verif.Spec
import Verif.AdaptorSpec
import Verif.Model.Producers
import Verif.Model.Consumers

/-!
# Specification vocabulary for stacks of adaptors that change items (C87)
-/

namespace Verif

section

variable {σ τ I F E : Type}

/-- A consumer that has consumed `l₀` before is seen as one that starts afresh. -/
def Policy.after (q : Policy I F E) (l₀ : List I) : Policy I F E where
  refuse l := q.refuse (l₀ ++ l)
  reject l x := q.reject (l₀ ++ l) x
  refuseFlush l := q.refuseFlush (l₀ ++ l)
  refuseClose l f := q.refuseClose (l₀ ++ l) f

/-- The items `xs` and then the final value or error `r`. (What comes after it does not matter.) -/
def Script.Is (c : Script I F E) (xs : List I) (r : Except E F) : Prop := c.StartsWith xs ∧ c xs.length = r.map .inr

/-- A stack of producer adaptors, `MapItem` included, around a producer of items `I` and final values `F`, resulting in a producer
of items `J` and final values `G`. -/
inductive SourceLayers (I F : Type) : Type → Type → Type 1 where
  | nil : SourceLayers I F I F
  | limit {J G} (L : SourceLayers I F J G) (n : Nat) : SourceLayers I F J (Option G)
  | mapItem {J K G φ} (L : SourceLayers I F J G) (f : φ → J → φ × K) (a : φ) : SourceLayers I F K G
  | mapFinal {J G H} (L : SourceLayers I F J G) (f : G → H) : SourceLayers I F J H
  | invariant {J G} (L : SourceLayers I F J G) : SourceLayers I F J G

namespace SourceLayers

/-- The state of the stack. -/
def State (σ : Type) : {J G : Type} → SourceLayers I F J G → Type
  | _, _, nil => σ
  | _, _, limit L _ => LimitSt (L.State σ)
  | _, _, @mapItem _ _ _ _ _ φ L _ _ => MapItemSt (L.State σ) φ
  | _, _, @mapFinal _ _ _ G H L _ => MapFinalSt (L.State σ) G H
  | _, _, invariant L => InvariantSt (L.State σ)

/-- The stack of adaptors around a producer. -/
def apply (P : Producer σ I F E) : {J G : Type} → (L : SourceLayers I F J G) → Producer (L.State σ) J G E
  | _, _, nil => P
  | _, _, limit L _ => limitProducer (L.apply P)
  | _, _, mapItem L f _ => mapItemProducer f (L.apply P)
  | _, _, mapFinal L _ => mapFinalProducer (L.apply P)
  | _, _, invariant L => invariantProducer (L.apply P)

/-- The initial state of the stack. -/
def wrap (s : σ) : {J G : Type} → (L : SourceLayers I F J G) → L.State σ
  | _, _, nil => s
  | _, _, limit L n => ⟨L.wrap s, n⟩
  | _, _, mapItem L _ a => ⟨L.wrap s, a⟩
  | _, _, mapFinal L f => ⟨L.wrap s, some f⟩
  | _, _, invariant L => .new (L.wrap s)

/-- The composition of the transformations of sequences. -/
def script (c : Script I F E) : {J G : Type} → SourceLayers I F J G → Script J G E
  | _, _, nil => c
  | _, _, limit L n => (L.script c).limit n
  | _, _, mapItem L f a => (L.script c).mapItem f a
  | _, _, mapFinal L f => (L.script c).mapFinal f
  | _, _, invariant L => L.script c

/-- What becomes of a finite sequence of items. -/
def items (xs : List I) : {J G : Type} → SourceLayers I F J G → List J
  | _, _, nil => xs
  | _, _, limit L n => (L.items xs).take n
  | _, _, mapItem L f a => results f a (L.items xs)
  | _, _, mapFinal L _ => L.items xs
  | _, _, invariant L => L.items xs

/-- What becomes of the final value or error after the items `xs`. -/
def last (xs : List I) (r : Except E F) : {J G : Type} → SourceLayers I F J G → Except E G
  | _, _, nil => r
  | _, _, limit L n => if (L.items xs).length < n then (L.last xs r).map some else .ok none
  | _, _, mapItem L _ _ => L.last xs r
  | _, _, mapFinal L f => (L.last xs r).map f
  | _, _, invariant L => L.last xs r

end SourceLayers

/-- A stack of consumer adaptors, `MapItem` included, around a consumer of items `I`, final values `F` and errors `E`, resulting in a
consumer of items `J`, final values `G` and errors `E'`. -/
inductive SinkLayers (I F E : Type) : Type → Type → Type → Type 1 where
  | nil : SinkLayers I F E I F E
  | limit {J G E'} (L : SinkLayers I F E J G E') (n : Nat) : SinkLayers I F E J G (Option E')
  | mapItem {J K G E' φ} (L : SinkLayers I F E J G E') (f : φ → K → φ × J) (a : φ) : SinkLayers I F E K G E'
  | mapFinal {J G H E'} (L : SinkLayers I F E J G E') (f : H → G) : SinkLayers I F E J H E'
  | invariant {J G E'} (L : SinkLayers I F E J G E') : SinkLayers I F E J G E'

namespace SinkLayers

/-- The state of the stack. -/
def State (τ : Type) : {J G E' : Type} → SinkLayers I F E J G E' → Type
  | _, _, _, nil => τ
  | _, _, _, limit L _ => LimitSt (L.State τ)
  | _, _, _, @mapItem _ _ _ _ _ _ _ φ L _ _ => MapItemSt (L.State τ) φ
  | _, _, _, @mapFinal _ _ _ _ G H _ L _ => MapFinalSt (L.State τ) H G
  | _, _, _, invariant L => InvariantSt (L.State τ)

/-- The stack of adaptors around a consumer. -/
def apply (C : BufferedConsumer τ I F E) : {J G E' : Type} → (L : SinkLayers I F E J G E') → BufferedConsumer (L.State τ) J G E'
  | _, _, _, nil => C
  | _, _, _, limit L _ => limitBufferedConsumer (L.apply C)
  | _, _, _, mapItem L f _ => mapItemBufferedConsumer f (L.apply C)
  | _, _, _, mapFinal L _ => mapFinalBufferedConsumer (L.apply C)
  | _, _, _, invariant L => invariantBufferedConsumer (L.apply C)

/-- The initial state of the stack. -/
def wrap (t : τ) : {J G E' : Type} → (L : SinkLayers I F E J G E') → L.State τ
  | _, _, _, nil => t
  | _, _, _, limit L n => ⟨L.wrap t, n⟩
  | _, _, _, mapItem L _ a => ⟨L.wrap t, a⟩
  | _, _, _, mapFinal L f => ⟨L.wrap t, some f⟩
  | _, _, _, invariant L => .new (L.wrap t)

/-- The wrapped consumer in a state of the stack. -/
def core : {J G E' : Type} → (L : SinkLayers I F E J G E') → L.State τ → τ
  | _, _, _, nil, s => s
  | _, _, _, limit L _, s => L.core s.inner
  | _, _, _, mapItem L _ _, s => L.core s.inner
  | _, _, _, mapFinal L _, s => L.core s.inner
  | _, _, _, invariant L, s => L.core s.inner

/-- The items that reach the wrapped consumer if the stack accepts `xs`. -/
def items : {J G E' : Type} → SinkLayers I F E J G E' → List J → List I
  | _, _, _, nil, xs => xs
  | _, _, _, limit L _, xs => L.items xs
  | _, _, _, mapItem L f a, xs => L.items (results f a xs)
  | _, _, _, mapFinal L _, xs => L.items xs
  | _, _, _, invariant L, xs => L.items xs

/-- The final value that reaches the wrapped consumer. -/
def final : {J G E' : Type} → SinkLayers I F E J G E' → G → F
  | _, _, _, nil, f => f
  | _, _, _, limit L _, f => L.final f
  | _, _, _, mapItem L _ _, f => L.final f
  | _, _, _, mapFinal L g, f => L.final (g f)
  | _, _, _, invariant L, f => L.final f

/-- The composition of the transformations of policies, for a consumer that has consumed `l₀` before. -/
def policy (l₀ : List I) (q : Policy I F E) : {J G E' : Type} → SinkLayers I F E J G E' → Policy J G E'
  | _, _, _, nil => q.after l₀
  | _, _, _, limit L n => (L.policy l₀ q).limit n
  | _, _, _, mapItem L f a => (L.policy l₀ q).mapItem f a []
  | _, _, _, mapFinal L f => (L.policy l₀ q).mapFinal f
  | _, _, _, invariant L => L.policy l₀ q

/-- No limit in the stack is exceeded by so many items. (Adaptors do not change the number of items.) -/
def Fits (k : Nat) : {J G E' : Type} → SinkLayers I F E J G E' → Prop
  | _, _, _, nil => True
  | _, _, _, limit L n => k ≤ n ∧ L.Fits k
  | _, _, _, mapItem L _ _ => L.Fits k
  | _, _, _, mapFinal L _ => L.Fits k
  | _, _, _, invariant L => L.Fits k

end SinkLayers

end

end Verif
