import Verif.MergeSpec
import Verif.AsyncStacksSpec
import Verif.Model.AsyncMerge
import Verif.Lemmas.Async

/-!
# Specification vocabulary for networks of adaptors and merges (C89)
-/

namespace Verif

section

variable {I F E : Type}

/-- What a merge of a producer of the items `xs₁` and then `r₁` with one of the items `xs₂` and then `r₂` may emit: all items of both
and one of the two final values, or else a part of the items and the error of one of them, all items of which have been emitted. -/
inductive Merged (xs₁ : List I) (r₁ : Except E F) (xs₂ : List I) (r₂ : Except E F) : List I → Except E F → Prop where
  | final {zs f₁ f₂ f} : r₁ = .ok f₁ → r₂ = .ok f₂ → f = f₁ ∨ f = f₂ → Interleaving xs₁ xs₂ zs → Merged xs₁ r₁ xs₂ r₂ zs (.ok f)
  | first {ys zs e} : r₁ = .error e → ys <+: xs₂ → Interleaving xs₁ ys zs → Merged xs₁ r₁ xs₂ r₂ zs (.error e)
  | second {ys zs e} : r₂ = .error e → ys <+: xs₁ → Interleaving ys xs₂ zs → Merged xs₁ r₁ xs₂ r₂ zs (.error e)

/-- `P` in state `s` is a network, built from new adaptors and new merges on top of finite producers, which may emit the items `xs` and
then `r` if `S xs r`. -/
inductive Async.Network {E : Type} : {σ I F : Type} → Async.Producer σ I F E → σ → (List I → Except E F → Prop) → Prop where
  | leaf {σ I F : Type} {P : Async.Producer σ I F E} {s : σ} {c : Script I F E} {xs : List I} {r : Except E F} :
      Plays P.seq s c → c.Is xs r → Network P s fun ys r' => ys = xs ∧ r' = r
  | stack {σ I F J G : Type} {P : Async.Producer σ I F E} {s : σ} {S : List I → Except E F → Prop} (L : SourceLayers I F J G) :
      Network P s S → Network (L.applyAsync P) (L.wrap s) fun ys r' => ∃ xs r, S xs r ∧ ys = L.items xs ∧ r' = L.last xs r
  | merge {σ₁ σ₂ I F : Type} {P₁ : Async.Producer σ₁ I F E} {P₂ : Async.Producer σ₂ I F E} {s₁ : σ₁} {s₂ : σ₂}
      {S₁ S₂ : List I → Except E F → Prop} : Network P₁ s₁ S₁ → Network P₂ s₂ S₂ →
      Network (Async.Merge.producer P₁ P₂) (.new P₁ P₂ s₁ s₂) fun zs r =>
        ∃ xs₁ r₁ xs₂ r₂, S₁ xs₁ r₁ ∧ S₂ xs₂ r₂ ∧ Merged xs₁ r₁ xs₂ r₂ zs r

end

end Verif
