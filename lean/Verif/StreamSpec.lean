import Verif.NetworkSpec

/-!
# Specification vocabulary for networks on top of endless producers (C95)
-/

namespace Verif

variable {I F E : Type}

/-- What a stack answers after the items `xs` of the innermost producer if it does not have to ask that for more, because a `Limit` has
been reached. -/
def SourceLayers.cut (xs : List I) : {J G : Type} → SourceLayers I F J G → Option (Except E G)
  | _, _, nil => none
  | _, _, limit L n => if (L.items xs).length < n then (L.cut xs).map (·.map some) else some (.ok none)
  | _, _, mapItem L _ _ => L.cut xs
  | _, _, mapFinal L f => (L.cut xs).map (·.map f)
  | _, _, invariant L => L.cut xs

/-- `P` in state `s` is a network, built from new adaptors and new merges on top of producers that may be endless. It may have emitted
the items `xs` at some time if `B xs`, and it may end with `r` after the items `xs` if `S xs r`. -/
inductive Async.StreamNetwork {E : Type} : {σ I F : Type} → Async.Producer σ I F E → σ → (List I → Prop) →
    (List I → Except E F → Prop) → Prop where
  | leaf {σ I F : Type} {P : Async.Producer σ I F E} {s : σ} {c : Script I F E} : Plays P.seq s c → StreamNetwork P s c.StartsWith c.Is
  | stack {σ I F J G : Type} {P : Async.Producer σ I F E} {s : σ} {B : List I → Prop} {S : List I → Except E F → Prop}
      (L : SourceLayers I F J G) : StreamNetwork P s B S →
      StreamNetwork (L.applyAsync P) (L.wrap s) (fun ys => ∃ xs, B xs ∧ ys = L.items xs) fun ys r' =>
        (∃ xs r, S xs r ∧ ys = L.items xs ∧ r' = L.last xs r) ∨ ∃ xs, B xs ∧ ys = L.items xs ∧ L.cut xs = some r'
  | merge {σ₁ σ₂ I F : Type} {P₁ : Async.Producer σ₁ I F E} {P₂ : Async.Producer σ₂ I F E} {s₁ : σ₁} {s₂ : σ₂}
      {B₁ B₂ : List I → Prop} {S₁ S₂ : List I → Except E F → Prop} : StreamNetwork P₁ s₁ B₁ S₁ → StreamNetwork P₂ s₂ B₂ S₂ →
      StreamNetwork (Async.Merge.producer P₁ P₂) (.new P₁ P₂ s₁ s₂) (fun zs => ∃ xs₁ xs₂, B₁ xs₁ ∧ B₂ xs₂ ∧ Interleaving xs₁ xs₂ zs)
        fun zs r => ∃ xs₁ xs₂, Interleaving xs₁ xs₂ zs ∧
          ((∃ f₁ f₂ f, S₁ xs₁ (.ok f₁) ∧ S₂ xs₂ (.ok f₂) ∧ (f = f₁ ∨ f = f₂) ∧ r = .ok f) ∨
           (∃ e, S₁ xs₁ (.error e) ∧ B₂ xs₂ ∧ r = .error e) ∨
           (∃ e, B₁ xs₁ ∧ S₂ xs₂ (.error e) ∧ r = .error e))

end Verif
