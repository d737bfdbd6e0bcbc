import Verif.History

/-!
# Calls of consumers after the end

No method of a consumer may be called any more once it has been closed or has returned an error
(`/repo/ufotofu/src/lib.rs:105-131, 173-178, 195-232`). What happens if it is called nonetheless is not documented.
-/

namespace Verif

open Outcome

section

variable {σ I F E : Type}

/-- In the states `R` no item is accepted: all methods that take items fail with the error `e`, and no call leaves these states.
(`flush` and `close` may give any answers.) -/
structure RefusesLaw (C : BulkConsumer σ I F E) (e : E) (R : σ → Prop) : Prop where
  consume : ∀ s x, R s → ∃ s', C.consume s x = ok (s', .error e) ∧ R s'
  expose : ∀ s, R s → ∃ s', C.exposeSlots s = ok (s', .error e) ∧ R s'
  bulkConsume : ∀ s buf, R s → ∃ s', C.bulkConsume s buf = ok (s', .error e) ∧ R s'
  flush : ∀ s s' r, R s → C.flush s = ok (s', r) → R s'
  close : ∀ s s' f r, R s → C.close s f = ok (s', r) → R s'

/-- The consumer never accepts an item any more; its answer is the error `e`. -/
def Refuses (C : BulkConsumer σ I F E) (s : σ) (e : E) : Prop := ∃ R, RefusesLaw C e R ∧ R s

/-- Offering the items `xs` one after the other, whatever the answers are, yields the answers `rs`. -/
inductive Offered (C : Consumer σ I F E) : σ → List I → List (Except E Unit) → σ → Prop where
  | nil (s) : Offered C s [] [] s
  | cons {s s₁ s₂ x xs r rs} : C.consume s x = ok (s₁, r) → Offered C s₁ xs rs s₂ → Offered C s (x :: xs) (r :: rs) s₂

end

end Verif
