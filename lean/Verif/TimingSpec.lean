import Verif.PaceSpec
import Verif.Lemmas.Poll

/-!
# Specification vocabulary for the timing of networks (C97)

A timeline lists the answers of a producer, and for each of them how often the producer is pending before it. Time is counted in polls
that leave the future pending.
-/

namespace Verif

/-- Items and then a final value or error, each after being pending `wait` times. -/
inductive Timeline (E I F : Type) : Type where
  | last (wait : Nat) (r : Except E F)
  | item (wait : Nat) (x : I) (rest : Timeline E I F)

namespace Timeline

variable {E I F J G φ : Type}

/-- The items. -/
def items : Timeline E I F → List I
  | last _ _ => []
  | item _ x t => x :: t.items

/-- The final value or error. -/
def result : Timeline E I F → Except E F
  | last _ r => r
  | item _ _ t => t.result

/-- How often the producer is pending before the first answer. -/
def wait : Timeline E I F → Nat
  | last d _ => d
  | item d _ _ => d

/-- How often the producer is pending in all. -/
def time : Timeline E I F → Nat
  | last d _ => d
  | item d _ t => d + t.time

/-- The producer is never pending. -/
def Prompt (t : Timeline E I F) : Prop := t.time = 0

/-- What is left after `n` polls that left the future for the first answer pending. -/
def after (n : Nat) : Timeline E I F → Timeline E I F
  | last d r => last (d - n) r
  | item d x t => item (d - n) x t

theorem items_after (n : Nat) (t : Timeline E I F) : (t.after n).items = t.items := by
  cases t <;> rfl

/-- A `Limit` of `n` items; at the limit it is not pending. -/
def limit : Nat → Timeline E I F → Timeline E I (Option F)
  | 0, _ => last 0 (.ok none)
  | _ + 1, last d r => last d (r.map some)
  | n + 1, item d x t => item d x (limit n t)

/-- A `MapItem` with a function with state. -/
def mapItem (f : φ → I → φ × J) : φ → Timeline E I F → Timeline E J F
  | _, last d r => last d r
  | a, item d x t => item d (f a x).2 (mapItem f (f a x).1 t)

/-- A `MapFinal`. -/
def mapFinal (g : F → G) : Timeline E I F → Timeline E I G
  | last d r => last d (r.map g)
  | item d x t => item d x (mapFinal g t)

/-- A `Merge`. The answer that is available after fewer polls comes first, that of the first producer if there is no difference. Each
poll of the merge polls both producers, but the second one only if the first one is pending: until an answer of the first producer
after `d` polls, the second one has also been pending `d` times; until an answer of the second producer after `d` polls, the first one
has been pending once more. The first final value is dropped, and the other producer is asked within the same poll. -/
def merge (t₁ t₂ : Timeline E I F) : Timeline E I F :=
  if t₁.wait ≤ t₂.wait then
    match t₁ with
    | item d x t => item d x (merge t (t₂.after d))
    | last d (.error e) => last d (.error e)
    | last _ (.ok _) => t₂
  else
    match t₂ with
    | item d x t => item d x (merge (t₁.after (d + 1)) t)
    | last d (.error e) => last d (.error e)
    | last _ (.ok _) => t₁.after 1
termination_by t₁.items.length + t₂.items.length
decreasing_by
  · simp only [items_after, items, List.length_cons]; omega
  · simp only [items_after, items, List.length_cons]; omega

end Timeline

/-- A stack of adaptors. -/
def SourceLayers.timeline {E I F : Type} (t : Timeline E I F) : {J G : Type} → SourceLayers I F J G → Timeline E J G
  | _, _, .nil => t
  | _, _, .limit L n => (L.timeline t).limit n
  | _, _, .mapItem L f a => (L.timeline t).mapItem f a
  | _, _, .mapFinal L g => (L.timeline t).mapFinal g
  | _, _, .invariant L => L.timeline t

/-- Asked until it ends, the producer in state `s` answers according to the timeline. -/
inductive Async.Timed {σ I F E : Type} (P : Async.Producer σ I F E) : σ → Timeline E I F → Prop where
  | last {s s' n r} : Fut.Ends (P.produce s).poll (P.produce s).start n (s', r.map .inr) → Timed P s (.last n r)
  | item {s s' n x t} : Fut.Ends (P.produce s).poll (P.produce s).start n (s', .ok (.inl x)) → Timed P s' t → Timed P s (.item n x t)

/-- `P` in state `s` is a network, built from new adaptors and new merges on top of producers with timelines, which are pending `times`
times in all. The timeline `t` is computed from those of the producers. -/
inductive Async.TimedNetwork {E : Type} : {σ I F : Type} → Async.Producer σ I F E → σ → Timeline E I F → List Nat → Prop where
  | leaf {σ I F : Type} {P : Async.Producer σ I F E} {s : σ} {t : Timeline E I F} : Async.Timed P s t → TimedNetwork P s t [t.time]
  | stack {σ I F J G : Type} {P : Async.Producer σ I F E} {s : σ} {t : Timeline E I F} {times : List Nat} (L : SourceLayers I F J G) :
      TimedNetwork P s t times → TimedNetwork (L.applyAsync P) (L.wrap s) (L.timeline t) times
  | merge {σ₁ σ₂ I F : Type} {P₁ : Async.Producer σ₁ I F E} {P₂ : Async.Producer σ₂ I F E} {s₁ : σ₁} {s₂ : σ₂} {t₁ t₂ : Timeline E I F}
      {times₁ times₂ : List Nat} : TimedNetwork P₁ s₁ t₁ times₁ → TimedNetwork P₂ s₂ t₂ times₂ →
      TimedNetwork (Async.Merge.producer P₁ P₂) (.new P₁ P₂ s₁ s₂) (t₁.merge t₂) (times₁ ++ times₂)

/-- For some timing of the leaves, the timeline of a network of this shape is `t`. -/
inductive Shape.Times {E : Type} : {I F : Type} → Shape E I F → Timeline E I F → Prop where
  | leaf {I F : Type} (t : Timeline E I F) : Times (.leaf t.items t.result) t
  | stack {I F J G : Type} {N : Shape E I F} {t : Timeline E I F} (L : SourceLayers I F J G) : Times N t → Times (.stack L N) (L.timeline t)
  | merge {I F : Type} {N₁ N₂ : Shape E I F} {t₁ t₂ : Timeline E I F} : Times N₁ t₁ → Times N₂ t₂ → Times (.merge N₁ N₂) (t₁.merge t₂)

/-- The consumer is never pending. -/
structure Async.Consumer.Prompt {σ I F E : Type} (C : Async.Consumer σ I F E) : Prop where
  consume : ∀ s x n a, Fut.Ends (C.consume s x).poll (C.consume s x).start n a → n = 0
  close : ∀ s f n a, Fut.Ends (C.close s f).poll (C.close s f).start n a → n = 0

end Verif
