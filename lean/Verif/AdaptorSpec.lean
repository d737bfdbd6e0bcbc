import Verif.Spec

/-!
# What the adaptors do to sequences and policies

Specification vocabulary: transformations of sequences (`Script`) and policies (`Policy`), independent of the adaptors.
-/

namespace Verif

open Outcome

section

variable {I F E : Type}

namespace Script

/-- The first `n` items of `c`, then the final value `none`; the final value of `c` itself becomes `some`. -/
def limit (c : Script I F E) (n : Nat) : Script I (Option F) E := fun i =>
  if i < n then
    match c i with
    | .ok (.inl x) => .ok (.inl x)
    | .ok (.inr f) => .ok (.inr (some f))
    | .error e => .error e
  else .ok (.inr none)

/-- The final value is replaced by its image under `f`. -/
def mapFinal {B : Type} (f : F → B) (c : Script I F E) : Script I B E := fun i =>
  match c i with
  | .ok (.inl x) => .ok (.inl x)
  | .ok (.inr a) => .ok (.inr (f a))
  | .error e => .error e

/-- The error is replaced by its image under `f`. -/
def mapError {B : Type} (f : E → B) (c : Script I F E) : Script I F B := fun i =>
  match c i with
  | .ok r => .ok r
  | .error e => .error (f e)

/-- The items are replaced one after the other by their images under a function `f` with state. -/
def mapItem {φ B : Type} (f : φ → I → φ × B) : φ → Script I F E → Script B F E
  | a, c, 0 =>
    match c 0 with
    | .ok (.inl x) => .ok (.inl (f a x).2)
    | .ok (.inr fin) => .ok (.inr fin)
    | .error e => .error e
  | a, c, i + 1 =>
    match c 0 with
    | .ok (.inl x) => mapItem f (f a x).1 (c.drop 1) i
    | .ok (.inr fin) => .ok (.inr fin)
    | .error e => .error e

end Script

/-- Apply a function with state to a list, from the front, once per item: the final state. -/
def stateAfter {φ A B : Type} (f : φ → A → φ × B) : φ → List A → φ
  | a, [] => a
  | a, x :: xs => stateAfter f (f a x).1 xs

/-- Apply a function with state to a list, from the front, once per item: the list of the results. -/
def results {φ A B : Type} (f : φ → A → φ × B) : φ → List A → List B
  | _, [] => []
  | a, x :: xs => (f a x).2 :: results f (f a x).1 xs

namespace Policy

/-- Refuse everything after `n` items in total; errors of the original policy become `some`. -/
def limit (q : Policy I F E) (n : Nat) : Policy I F (Option E) where
  refuse l := if n ≤ l.length then some none else (q.refuse l).map some
  reject l x := (q.reject l x).map some
  refuseFlush l := (q.refuseFlush l).map some
  refuseClose l f := (q.refuseClose l f).map some

/-- What is consumed is `l₀` and then the images of the items under the function `f` with initial state `a`. -/
def mapItem {φ A : Type} (f : φ → A → φ × I) (a : φ) (l₀ : List I) (q : Policy I F E) : Policy A F E where
  refuse l := q.refuse (l₀ ++ results f a l)
  reject l x := q.reject (l₀ ++ results f a l) (f (stateAfter f a l) x).2
  refuseFlush l := q.refuseFlush (l₀ ++ results f a l)
  refuseClose l fin := q.refuseClose (l₀ ++ results f a l) fin

/-- The consumer is closed with the image of the final value. -/
def mapFinal {B : Type} (f : B → F) (q : Policy I F E) : Policy I B E where
  refuse := q.refuse
  reject := q.reject
  refuseFlush := q.refuseFlush
  refuseClose l fin := q.refuseClose l (f fin)

end Policy

end

end Verif
