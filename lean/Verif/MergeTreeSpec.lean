import Verif.Spec
import Verif.Model.AsyncMerge
import Verif.Lemmas.Async

/-!
# Specification vocabulary for trees of merges (C85)
-/

namespace Verif

/-- `zs` consists of the elements of all the lists `ls`, those of each list in order. -/
inductive Shuffle {A : Type} : List (List A) → List A → Prop where
  | nil {ls} : (∀ l ∈ ls, l = []) → Shuffle ls []
  | cons {pre post x l zs} : Shuffle (pre ++ l :: post) zs → Shuffle (pre ++ (x :: l) :: post) (x :: zs)

section

variable {I F E : Type}

/-- The sequence `c` is a merge of the sequences `cs`: at any time its items so far are a shuffle of the first items of all of
`cs`; it ends with a final value only when all of `cs` have ended with final values, one of which it is; and an error in it is
the next entry of one of `cs`. -/
def MergeOf (cs : List (Script I F E)) (c : Script I F E) : Prop :=
  ∀ zs, c.StartsWith zs → ∃ parts : List (Script I F E × List I),
    parts.map (·.1) = cs ∧ (∀ p ∈ parts, p.1.StartsWith p.2) ∧ Shuffle (parts.map (·.2)) zs ∧
    (∀ f, c zs.length = .ok (.inr f) →
      (∀ p ∈ parts, ∃ g, p.1 p.2.length = .ok (.inr g)) ∧ ∃ p ∈ parts, p.1 p.2.length = .ok (.inr f)) ∧
    (∀ e, c zs.length = .error e → ∃ p ∈ parts, p.1 p.2.length = .error e)

/-- `P` in state `s` is a tree of new merges of producers which emit the sequences `cs`. -/
inductive Async.MergeTree : {σ : Type} → Async.Producer σ I F E → σ → List (Script I F E) → Prop where
  | leaf {σ : Type} {P : Async.Producer σ I F E} {s : σ} {c : Script I F E} : Plays P.seq s c → MergeTree P s [c]
  | node {σ₁ σ₂ : Type} {P₁ : Async.Producer σ₁ I F E} {P₂ : Async.Producer σ₂ I F E} {s₁ : σ₁} {s₂ : σ₂}
      {cs₁ cs₂ : List (Script I F E)} : MergeTree P₁ s₁ cs₁ → MergeTree P₂ s₂ cs₂ →
      MergeTree (Async.Merge.producer P₁ P₂) (.new P₁ P₂ s₁ s₂) (cs₁ ++ cs₂)

end

end Verif
