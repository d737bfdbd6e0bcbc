import Verif.NetworkSpec

/-!
# Specification vocabulary for what networks can emit (C93, C94)

A network as in C89 is described by its shape: the finite sequences at its leaves, the stacks of adaptors, and the merges. What it
emits also depends on when the leaves are pending.
-/

namespace Verif

/-- The shape of a network of adaptors and merges that emits items `I`, final values `F` and errors `E`. -/
inductive Shape (E : Type) : Type → Type → Type 1 where
  | leaf {I F : Type} (xs : List I) (r : Except E F) : Shape E I F
  | stack {I F J G : Type} (L : SourceLayers I F J G) (N : Shape E I F) : Shape E J G
  | merge {I F : Type} (N₁ N₂ : Shape E I F) : Shape E I F

namespace Shape

variable {E : Type}

/-- What composing the transformations of the stacks and interleaving at the merges allows. -/
def Allows : {I F : Type} → Shape E I F → List I → Except E F → Prop
  | _, _, leaf xs r, ys, r' => ys = xs ∧ r' = r
  | _, _, stack L N, ys, r' => ∃ xs r, N.Allows xs r ∧ ys = L.items xs ∧ r' = L.last xs r
  | _, _, merge N₁ N₂, zs, r => ∃ xs₁ r₁ xs₂ r₂, N₁.Allows xs₁ r₁ ∧ N₂.Allows xs₂ r₂ ∧ Merged xs₁ r₁ xs₂ r₂ zs r

/-- `P` in state `s` is a network of this shape: new adaptors and new merges on top of producers that emit the sequences of the
leaves, pending as often as they like. -/
inductive Built : {I F : Type} → Shape E I F → {σ : Type} → Async.Producer σ I F E → σ → Prop where
  | leaf {I F σ : Type} {P : Async.Producer σ I F E} {s : σ} {c : Script I F E} {xs : List I} {r : Except E F} :
      Plays P.seq s c → c.Is xs r → Built (.leaf xs r) P s
  | stack {I F J G σ : Type} {P : Async.Producer σ I F E} {s : σ} {N : Shape E I F} (L : SourceLayers I F J G) :
      Built N P s → Built (.stack L N) (L.applyAsync P) (L.wrap s)
  | merge {I F σ₁ σ₂ : Type} {P₁ : Async.Producer σ₁ I F E} {P₂ : Async.Producer σ₂ I F E} {s₁ : σ₁} {s₂ : σ₂} {N₁ N₂ : Shape E I F} :
      Built N₁ P₁ s₁ → Built N₂ P₂ s₂ → Built (.merge N₁ N₂) (Async.Merge.producer P₁ P₂) (.new P₁ P₂ s₁ s₂)

/-- Some network of this shape emits the items `xs` and then `r`. -/
def CanEmit {I F : Type} (N : Shape E I F) (xs : List I) (r : Except E F) : Prop :=
  ∃ (σ : Type) (P : Async.Producer σ I F E) (s : σ) (c : Script I F E), N.Built P s ∧ Plays P.seq s c ∧ c.Is xs r

/-- Two shapes of networks are equivalent if networks of the one can emit the same as networks of the other. -/
def Equiv {I F : Type} (N N' : Shape E I F) : Prop := ∀ xs r, N.CanEmit xs r ↔ N'.CanEmit xs r

/-- There is no `Limit` in the stack. -/
def _root_.Verif.SourceLayers.Unlimited {I F : Type} : {J G : Type} → SourceLayers I F J G → Prop
  | _, _, .nil => True
  | _, _, .limit _ _ => False
  | _, _, .mapItem L _ _ => L.Unlimited
  | _, _, .mapFinal L _ => L.Unlimited
  | _, _, .invariant L => L.Unlimited

/-- There is no `Limit` in the network. -/
def Unlimited : {I F : Type} → Shape E I F → Prop
  | _, _, leaf _ _ => True
  | _, _, stack L N => L.Unlimited ∧ N.Unlimited
  | _, _, merge N₁ N₂ => N₁.Unlimited ∧ N₂.Unlimited

/-- There is no `Limit` below a merge. -/
def LimitedOnTop : {I F : Type} → Shape E I F → Prop
  | _, _, leaf _ _ => True
  | _, _, stack _ N => N.LimitedOnTop
  | _, _, merge N₁ N₂ => N₁.Unlimited ∧ N₂.Unlimited

theorem Unlimited.limitedOnTop {I F : Type} {N : Shape E I F} (h : N.Unlimited) : N.LimitedOnTop := by
  induction N with
  | leaf => trivial
  | stack _ _ ih => exact ih h.2
  | merge => exact h

end Shape

end Verif
