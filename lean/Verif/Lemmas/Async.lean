import Verif.Lemmas.Poll
import Verif.Model.AsyncTraits

/-!
# Asynchronous code, executed to completion
-/

namespace Verif.Async

open Outcome

variable {σ τ I F E E₁ E₂ : Type}

/-! ## From futures to answers, and back -/

/-- Every future of `P` is polled to completion. -/
noncomputable def Producer.seq (P : Producer σ I F E) : Verif.Producer σ I F E where
  produce s := (P.produce s).run

noncomputable def BufferedProducer.seq (P : BufferedProducer σ I F E) : Verif.BufferedProducer σ I F E where
  toProducer := P.toProducer.seq
  slurp s := (P.slurp s).run

noncomputable def BulkProducer.seq (P : BulkProducer σ I F E) : Verif.BulkProducer σ I F E where
  toBufferedProducer := P.toBufferedProducer.seq
  exposeItems s := (P.exposeItems s).run
  considerProduced s amount := (P.considerProduced s amount).run
  bulkProduce s buf := (P.bulkProduce s buf).run

/-- Every future of `C` is polled to completion. -/
noncomputable def Consumer.seq (C : Consumer σ I F E) : Verif.Consumer σ I F E where
  consume s item := (C.consume s item).run
  close s fin := (C.close s fin).run

noncomputable def BufferedConsumer.seq (C : BufferedConsumer σ I F E) : Verif.BufferedConsumer σ I F E where
  toConsumer := C.toConsumer.seq
  flush s := (C.flush s).run

noncomputable def BulkConsumer.seq (C : BulkConsumer σ I F E) : Verif.BulkConsumer σ I F E where
  toBufferedConsumer := C.toBufferedConsumer.seq
  exposeSlots s := (C.exposeSlots s).run
  writeSlots := C.writeSlots
  consumeSlots s amount := (C.consumeSlots s amount).run
  bulkConsume s buf := (C.bulkConsume s buf).run

/-- A producer that is never pending. -/
def BulkProducer.ofSeq (P : Verif.BulkProducer σ I F E) : BulkProducer σ I F E where
  produce s := Fut.lift (P.produce s)
  slurp s := Fut.lift (P.slurp s)
  exposeItems s := Fut.lift (P.exposeItems s)
  considerProduced s amount := Fut.lift (P.considerProduced s amount)
  bulkProduce s buf := Fut.lift (P.bulkProduce s buf)

theorem BulkProducer.ofSeq_seq (P : Verif.BulkProducer σ I F E) : (BulkProducer.ofSeq P).seq = P := by
  unfold ofSeq seq BufferedProducer.seq Producer.seq
  simp only [Fut.run_lift]

/-- A consumer that is never pending. -/
def BulkConsumer.ofSeq (C : Verif.BulkConsumer σ I F E) : BulkConsumer σ I F E where
  consume s item := Fut.lift (C.consume s item)
  close s fin := Fut.lift (C.close s fin)
  flush s := Fut.lift (C.flush s)
  exposeSlots s := Fut.lift (C.exposeSlots s)
  writeSlots := C.writeSlots
  consumeSlots s amount := Fut.lift (C.consumeSlots s amount)
  bulkConsume s buf := Fut.lift (C.bulkConsume s buf)

theorem BulkConsumer.ofSeq_seq (C : Verif.BulkConsumer σ I F E) : (BulkConsumer.ofSeq C).seq = C := by
  unfold ofSeq seq BufferedConsumer.seq Consumer.seq
  simp only [Fut.run_lift]

/-- Splits a goal `(f >>= g).run = o >>= p` into its parts. -/
macro "run_congr" : tactic => `(tactic| repeat' first
  | rfl
  | exact Fut.run_pure _
  | exact Fut.run_lift _
  | exact Fut.run_liftM _
  | refine Fut.run_bind_congr ?_ fun _ => ?_
  | split)

theorem bulkProduceDefault_run (P : BulkProducer σ I F E) (s : σ) (buf : List I) :
    (bulkProduceDefault P.exposeItems P.considerProduced s buf).run =
      Verif.bulkProduceDefault P.seq.exposeItems P.seq.considerProduced s buf := by
  unfold bulkProduceDefault Verif.bulkProduceDefault
  run_congr

theorem bulkConsumeDefault_run (C : BulkConsumer σ I F E) (s : σ) (buf : List I) :
    (bulkConsumeDefault C.exposeSlots C.writeSlots C.consumeSlots s buf).run =
      Verif.bulkConsumeDefault C.seq.exposeSlots C.seq.writeSlots C.seq.consumeSlots s buf := by
  unfold bulkConsumeDefault Verif.bulkConsumeDefault
  run_congr

/-! ## Equality of producers and consumers -/

theorem Producer.seq_of {A : Producer σ I F E} {S : Verif.Producer σ I F E} (hp : ∀ s, (A.produce s).run = S.produce s) :
    A.seq = S := by
  cases S
  unfold Producer.seq
  simp only [Verif.Producer.mk.injEq]
  exact funext hp

theorem BufferedProducer.seq_of {A : BufferedProducer σ I F E} {S : Verif.BufferedProducer σ I F E}
    (h : A.toProducer.seq = S.toProducer) (hs : ∀ s, (A.slurp s).run = S.slurp s) : A.seq = S := by
  cases S
  unfold BufferedProducer.seq
  simp only [Verif.BufferedProducer.mk.injEq]
  exact ⟨h, funext hs⟩

theorem BulkProducer.seq_of {A : BulkProducer σ I F E} {S : Verif.BulkProducer σ I F E}
    (h : A.toBufferedProducer.seq = S.toBufferedProducer) (he : ∀ s, (A.exposeItems s).run = S.exposeItems s)
    (hc : ∀ s n, (A.considerProduced s n).run = S.considerProduced s n)
    (hb : ∀ s buf, (A.bulkProduce s buf).run = S.bulkProduce s buf) : A.seq = S := by
  cases S
  unfold BulkProducer.seq
  simp only [Verif.BulkProducer.mk.injEq]
  exact ⟨h, funext he, funext fun s => funext (hc s), funext fun s => funext (hb s)⟩

/-- If `bulk_produce` is not overridden. -/
theorem BulkProducer.seq_of_default {A : BulkProducer σ I F E} {S : Verif.BulkProducer σ I F E}
    (h : A.toBufferedProducer.seq = S.toBufferedProducer) (he : ∀ s, (A.exposeItems s).run = S.exposeItems s)
    (hc : ∀ s n, (A.considerProduced s n).run = S.considerProduced s n)
    (hA : A.bulkProduce = bulkProduceDefault A.exposeItems A.considerProduced)
    (hS : S.bulkProduce = Verif.bulkProduceDefault S.exposeItems S.considerProduced) : A.seq = S := by
  refine seq_of h he hc fun s buf => ?_
  rw [hA, hS, bulkProduceDefault_run, ← funext he, ← funext fun s => funext (hc s)]
  rfl

theorem Consumer.seq_of {A : Consumer σ I F E} {S : Verif.Consumer σ I F E}
    (hc : ∀ s item, (A.consume s item).run = S.consume s item) (hf : ∀ s fin, (A.close s fin).run = S.close s fin) :
    A.seq = S := by
  cases S
  unfold Consumer.seq
  simp only [Verif.Consumer.mk.injEq]
  exact ⟨funext fun s => funext (hc s), funext fun s => funext (hf s)⟩

theorem BufferedConsumer.seq_of {A : BufferedConsumer σ I F E} {S : Verif.BufferedConsumer σ I F E}
    (h : A.toConsumer.seq = S.toConsumer) (hs : ∀ s, (A.flush s).run = S.flush s) : A.seq = S := by
  cases S
  unfold BufferedConsumer.seq
  simp only [Verif.BufferedConsumer.mk.injEq]
  exact ⟨h, funext hs⟩

theorem BulkConsumer.seq_of {A : BulkConsumer σ I F E} {S : Verif.BulkConsumer σ I F E}
    (h : A.toBufferedConsumer.seq = S.toBufferedConsumer) (he : ∀ s, (A.exposeSlots s).run = S.exposeSlots s)
    (hw : ∀ s ws, A.writeSlots s ws = S.writeSlots s ws)
    (hc : ∀ s n, (A.consumeSlots s n).run = S.consumeSlots s n)
    (hb : ∀ s buf, (A.bulkConsume s buf).run = S.bulkConsume s buf) : A.seq = S := by
  cases S
  unfold BulkConsumer.seq
  simp only [Verif.BulkConsumer.mk.injEq]
  exact ⟨h, funext he, funext fun s => funext (hw s), funext fun s => funext (hc s), funext fun s => funext (hb s)⟩

/-- If `bulk_consume` is not overridden. -/
theorem BulkConsumer.seq_of_default {A : BulkConsumer σ I F E} {S : Verif.BulkConsumer σ I F E}
    (h : A.toBufferedConsumer.seq = S.toBufferedConsumer) (he : ∀ s, (A.exposeSlots s).run = S.exposeSlots s)
    (hw : ∀ s ws, A.writeSlots s ws = S.writeSlots s ws)
    (hc : ∀ s n, (A.consumeSlots s n).run = S.consumeSlots s n)
    (hA : A.bulkConsume = bulkConsumeDefault A.exposeSlots A.writeSlots A.consumeSlots)
    (hS : S.bulkConsume = Verif.bulkConsumeDefault S.exposeSlots S.writeSlots S.consumeSlots) : A.seq = S := by
  refine seq_of h he hw hc fun s buf => ?_
  rw [hA, hS, bulkConsumeDefault_run, ← funext he, ← funext fun s => funext (hc s), ← funext fun s => funext (hw s)]
  rfl

end Verif.Async
