import Verif.Spec

/-!
# Specification vocabulary for `Merge`
-/

namespace Verif

open Outcome

section

variable {σ I F E : Type}

/-- Calling `produce` again and again from `s₀` has yielded the answers `rs` and led to `s`. Nothing is called after a final
value or an error. -/
inductive Answers (P : Producer σ I F E) (s₀ : σ) : List (Except E (I ⊕ F)) → σ → Prop where
  | nil : Answers P s₀ [] s₀
  | call {rs s s' r} : Answers P s₀ rs s → (∀ a ∈ rs, ∃ x, a = .ok (.inl x)) → P.produce s = ok (s', r) →
      Answers P s₀ (rs ++ [r]) s'

/-- What has been received from one of the sources, in the order in which it has been received. -/
def received (source : Bool) (events : List (Bool × Except E (I ⊕ F))) : List (Except E (I ⊕ F)) :=
  (events.filter (fun ev => ev.1 == source)).map (·.2)

/-- `rs` are the first few entries of the sequence `c`, up to its final value or error at most. -/
def Script.IsPrefix (c : Script I F E) (rs : List (Except E (I ⊕ F))) : Prop :=
  ∃ l : List I, c.StartsWith l ∧
    (rs = l.map (fun x => .ok (.inl x)) ∨
     (∀ x, c l.length ≠ .ok (.inl x)) ∧ rs = l.map (fun x => .ok (.inl x)) ++ [c l.length])

/-- Remove the first final value. -/
def dropFirstFinal : List (Except E (I ⊕ F)) → List (Except E (I ⊕ F))
  | [] => []
  | .ok (.inr _) :: rs => rs
  | r :: rs => r :: dropFirstFinal rs

/-- `rs` is a correct sequence of answers of a merge of two producers that emit `c₁` and `c₂`, which was obtained by receiving
`events` from them, in that order: from each of the producers the next entries of its sequence have been received, up to its
end at most; nothing was received after an error; and everything that has been received was emitted immediately, except for
the first final value. -/
structure MergeTrace (c₁ c₂ : Script I F E) (events : List (Bool × Except E (I ⊕ F))) (rs : List (Except E (I ⊕ F))) :
    Prop where
  first : c₁.IsPrefix (received true events)
  second : c₂.IsPrefix (received false events)
  error_last : ∀ pre post source e, events = pre ++ (source, .error e) :: post → post = []
  emitted : rs = dropFirstFinal (events.map (·.2))

/-- The items among the answers. -/
def itemsOf : List (Except E (I ⊕ F)) → List I
  | [] => []
  | .ok (.inl x) :: rs => x :: itemsOf rs
  | _ :: rs => itemsOf rs

/-- `zs` is an interleaving of `xs` and `ys`: it consists of the elements of both, each in order. -/
inductive Interleaving {A : Type} : List A → List A → List A → Prop where
  | nil : Interleaving [] [] []
  | left {x xs ys zs} : Interleaving xs ys zs → Interleaving (x :: xs) ys (x :: zs)
  | right {y xs ys zs} : Interleaving xs ys zs → Interleaving xs (y :: ys) (y :: zs)

/-- Whenever it is polled again and again, it eventually becomes ready. -/
def Fair (ready : Nat → Bool) : Prop := ∀ n, ∃ m, n ≤ m ∧ ready m = true

end

end Verif
