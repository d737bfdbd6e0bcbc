import Verif.Spec
import Verif.Model.Scramblers
import Verif.Model.Consumers

/-!
# Stacks of consumer adaptors around consumers that delay their effects
-/

namespace Verif

section

variable {σ τ I F E : Type}

/-- A limit of `n` items altogether. The wrapped consumer sees the first `n` items only. `None` is reported if more than `n` items are
offered, or slots are asked for when there are `n` items. -/
def Faults.limit (X : Faults I F E) (n : Nat) : Faults I F (Option E) where
  during l d
    | none => d <+: l.take n ∧ n < l.length
    | some e => X.during (l.take n) d e
  exposing l d
    | none => d <+: l.take n ∧ n ≤ l.length
    | some e => X.during (l.take n) d e ∨ l.length < n ∧ X.exposing l d e
  closing l f d
    | none => d <+: l.take n ∧ n < l.length
    | some e => X.closing (l.take n) f d e

/-- Final values are mapped before they reach the consumer. -/
def Faults.mapFinal {B : Type} (X : Faults I F E) (g : B → F) : Faults I B E where
  during := X.during
  exposing := X.exposing
  closing l f d e := X.closing l (g f) d e

/-- A stack of consumer adaptors, scramblers included, around a consumer of items `I` with final values `F` and errors `E`, resulting
in a consumer with final values `G` and errors `E'`. -/
inductive DeferringLayers (I F E : Type) : Type → Type → Type 1 where
  | nil : DeferringLayers I F E F E
  | limit {G E'} (L : DeferringLayers I F E G E') (n : Nat) : DeferringLayers I F E G (Option E')
  | mapFinal {G H E'} (L : DeferringLayers I F E G E') (f : H → G) : DeferringLayers I F E H E'
  | invariant {G E'} (L : DeferringLayers I F E G E') : DeferringLayers I F E G E'
  | invariantNoop {G E'} (L : DeferringLayers I F E G E') : DeferringLayers I F E G E'
  | scrambler {G E'} (L : DeferringLayers I F E G E') (ops : List ScrambleConsume) (cap : NonZero) (tmp : Nat → I) :
      DeferringLayers I F E G E'

namespace DeferringLayers

/-- The state of the stack. -/
def State (τ : Type) : {G E' : Type} → DeferringLayers I F E G E' → Type
  | _, _, nil => τ
  | _, _, limit L _ => LimitSt (L.State τ)
  | _, _, @mapFinal _ _ _ G H _ L _ => MapFinalSt (L.State τ) H G
  | _, _, invariant L => InvariantSt (L.State τ)
  | _, _, invariantNoop L => L.State τ
  | _, _, scrambler L _ _ _ => ConsumerScrambler (L.State τ) I

/-- The stack of adaptors around a consumer, in release builds as far as scramblers are concerned (see C28). -/
noncomputable def apply (C : BulkConsumer τ I F E) :
    {G E' : Type} → (L : DeferringLayers I F E G E') → BulkConsumer (L.State τ) I G E'
  | _, _, nil => C
  | _, _, limit L _ => limitBulkConsumer (L.apply C)
  | _, _, mapFinal L _ => mapFinalBulkConsumer (L.apply C)
  | _, _, invariant L => invariantBulkConsumer (L.apply C)
  | _, _, invariantNoop L => invariantNoopBulkConsumer (L.apply C)
  | _, _, scrambler L _ _ _ => consumerScrambler false (L.apply C)

/-- The initial state of the stack. -/
def wrap (t : τ) : {G E' : Type} → (L : DeferringLayers I F E G E') → L.State τ
  | _, _, nil => t
  | _, _, limit L n => ⟨L.wrap t, n⟩
  | _, _, mapFinal L f => ⟨L.wrap t, some f⟩
  | _, _, invariant L => .new (L.wrap t)
  | _, _, invariantNoop L => L.wrap t
  | _, _, scrambler L ops cap tmp => .new (L.wrap t) ops cap tmp

/-- The wrapped consumer in a state of the stack. -/
def core : {G E' : Type} → (L : DeferringLayers I F E G E') → L.State τ → τ
  | _, _, nil, s => s
  | _, _, limit L _, s => L.core s.inner
  | _, _, mapFinal L _, s => L.core s.inner
  | _, _, invariant L, s => L.core s.inner
  | _, _, invariantNoop L, s => L.core s
  | _, _, scrambler L _ _ _, s => L.core s.inner

/-- The final value with which the wrapped consumer is closed. -/
def final : {G E' : Type} → DeferringLayers I F E G E' → G → F
  | _, _, nil, f => f
  | _, _, limit L _, f => L.final f
  | _, _, mapFinal L g, f => L.final (g f)
  | _, _, invariant L, f => L.final f
  | _, _, invariantNoop L, f => L.final f
  | _, _, scrambler L _ _ _, f => L.final f

/-- The errors that may come out, for a consumer that has been passed `k` items already. -/
def faults (k : Nat) (X : Faults I F E) : {G E' : Type} → DeferringLayers I F E G E' → Faults I G E'
  | _, _, nil => X
  | _, _, limit L n => (L.faults k X).limit (k + n)
  | _, _, mapFinal L f => (L.faults k X).mapFinal f
  | _, _, invariant L => L.faults k X
  | _, _, invariantNoop L => L.faults k X
  | _, _, scrambler L _ _ _ => L.faults k X

end DeferringLayers

end

end Verif
