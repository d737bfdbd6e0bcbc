import Verif.Spec

/-!
# Lawful implementations of the required methods

As `BulkPlays` and `BulkCollects` in `Verif/Spec.lean`, but about the methods that an implementation of the bulk traits must
provide; nothing is said about `bulk_produce` and `bulk_consume`.
-/

namespace Verif

open Outcome

section

variable {σ I F E : Type}

/-- The clauses of `BulkPlaysLaw` for `produce`, `slurp`, `expose_items` and `consider_produced`. -/
structure RequiredPlaysLaw (P : BulkProducer σ I F E) (R : σ → Script I F E → Nat → Prop) : Prop where
  base : BufPlaysLaw P.toBufferedProducer (fun s c => ∃ n, R s c n)
  expose : ∀ s c n, R s c n → ∃ s',
    (∃ xs, xs ≠ [] ∧ c.StartsWith xs ∧ P.exposeItems s = ok (s', .ok (.inl xs)) ∧ R s' c xs.length) ∨
    (∃ f, c 0 = .ok (.inr f) ∧ P.exposeItems s = ok (s', .ok (.inr f))) ∨
    (∃ e, c 0 = .error e ∧ P.exposeItems s = ok (s', .error e))
  consider : ∀ s c n k, R s c n → 0 < n → k ≤ n →
    ∃ s', P.considerProduced s k = ok (s', .ok ()) ∧ R s' (c.drop k) (n - k)

/-- The bulk producer `P` in state `s` emits the sequence `c`, whatever mix of its required methods is used. -/
def RequiredPlays (P : BulkProducer σ I F E) (s : σ) (c : Script I F E) : Prop :=
  ∃ R, RequiredPlaysLaw P R ∧ ∃ n, R s c n

/-- The clauses of `BulkCollectsLaw` for `consume`, `close`, `flush`, `expose_slots` and `consume_slots`. -/
structure RequiredCollectsLaw (C : BulkConsumer σ I F E) (D : σ → List I → Option F → Prop) (q : Policy I F E)
    (R : σ → List I → List I → Prop) : Prop where
  base : BufCollectsLaw C.toBufferedConsumer D q (fun s l => ∃ slots, R s l slots)
  expose_ok : ∀ s l slots, R s l slots → q.refuse l = none →
    ∃ s' slots', slots' ≠ [] ∧ C.exposeSlots s = ok (s', .ok slots') ∧ R s' l slots'
  expose_err : ∀ s l slots e, R s l slots → q.refuse l = some e →
    ∃ s', C.exposeSlots s = ok (s', .error e) ∧ D s' l none
  write : ∀ s l slots ws, R s l slots → ws.length ≤ slots.length →
    R (C.writeSlots s ws) l (ws ++ slots.drop ws.length)
  consumeSlots_ok : ∀ s l slots k, R s l slots → slots ≠ [] → k ≤ slots.length →
    q.Accepts l (slots.take k) →
    ∃ s', C.consumeSlots s k = ok (s', .ok ()) ∧ R s' (l ++ slots.take k) (slots.drop k)
  consumeSlots_err : ∀ s l slots k i e, R s l slots → slots ≠ [] → k ≤ slots.length →
    q.FailsAt l (slots.take k) i e →
    ∃ s', C.consumeSlots s k = ok (s', .error e) ∧ D s' (l ++ slots.take i) none

def RequiredCollects (C : BulkConsumer σ I F E) (D : σ → List I → Option F → Prop) (q : Policy I F E) (s : σ)
    (l : List I) : Prop := ∃ R, RequiredCollectsLaw C D q R ∧ ∃ slots, R s l slots

/-- The clauses of `BulkDefersLaw` for `consume`, `close`, `flush`, `expose_slots` and `consume_slots`. -/
structure RequiredDefersLaw (C : BulkConsumer σ I F E) (D : σ → List I → Option F → Prop) (X : Faults I F E)
    (R : σ → List I → List I → Prop) : Prop where
  base : BufDefersLaw C.toBufferedConsumer D X (fun s l => ∃ slots, R s l slots)
  expose : ∀ s l slots, R s l slots → ∃ s',
    (∃ slots', slots' ≠ [] ∧ C.exposeSlots s = ok (s', .ok slots') ∧ R s' l slots') ∨
    (∃ e d, C.exposeSlots s = ok (s', .error e) ∧ X.exposing l d e ∧ D s' d none)
  write : ∀ s l slots ws, R s l slots → ws.length ≤ slots.length →
    R (C.writeSlots s ws) l (ws ++ slots.drop ws.length)
  consumeSlots : ∀ s l slots k, R s l slots → slots ≠ [] → k ≤ slots.length → ∃ s',
    (C.consumeSlots s k = ok (s', .ok ()) ∧ R s' (l ++ slots.take k) (slots.drop k)) ∨
    (∃ e d, C.consumeSlots s k = ok (s', .error e) ∧ X.during (l ++ slots.take k) d e ∧ D s' d none)

def RequiredDefers (C : BulkConsumer σ I F E) (D : σ → List I → Option F → Prop) (X : Faults I F E) (s : σ) (l : List I) :
    Prop := ∃ R, RequiredDefersLaw C D X R ∧ ∃ slots, R s l slots

end

end Verif
