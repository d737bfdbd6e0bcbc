import Verif.Props.Async
import Verif.Props.AsyncTestDoubles
import Verif.Props.Pipe
import Verif.Props.TestDoubles
import Verif.Cases

/-!
# Suspension does not matter: consequences and instances (C61)
-/

namespace Verif.Async

open Outcome

variable {σ τ I F E₁ E₂ : Type}

/-- `pipe` neither sees nor changes how often, and when, producers and consumers are pending. -/
theorem pipe_oblivious {P P' : Producer σ I F E₁} {C C' : Consumer τ I F E₂} (hP : P.seq = P'.seq) (hC : C.seq = C'.seq)
    (s : σ) (t : τ) : (pipe P C s t).run = (pipe P' C' s t).run := by rw [pipe_run, pipe_run, hP, hC]

/-- `bulk_pipe`, too. -/
theorem bulkPipe_oblivious {P P' : BulkProducer σ I F E₁} {C C' : BulkConsumer τ I F E₂} (hP : P.seq = P'.seq)
    (hC : C.seq = C'.seq) (s : σ) (t : τ) : (bulkPipe P C s t).run = (bulkPipe P' C' s t).run := by
  rw [bulkPipe_run, bulkPipe_run, hP, hC]

/-- The yields of a test producer make no difference. -/
example (s : TestProducer Nat Unit String) (t : TestConsumer Nat Unit String) :
    (bulkPipe (TestProducer.producer false Nat Unit String) (TestConsumer.consumer false Nat Unit String) s t).run =
      (bulkPipe (.ofSeq (Verif.TestProducer.producer false Nat Unit String))
        (.ofSeq (Verif.TestConsumer.consumer false Nat Unit String)) s t).run :=
  bulkPipe_oblivious (by rw [testProducer_seq, BulkProducer.ofSeq_seq]) (by rw [testConsumer_seq, BulkConsumer.ofSeq_seq]) s t

/-- C10 for producers and consumers that may be pending: polled to completion, `pipe` moves all items, in order. -/
theorem pipe_polled {P : Producer σ I F E₁} {C : Consumer τ I F E₂} {D : τ → List I → Option F → Prop}
    {c : Script I F E₁} {q : Policy I F E₂} {s : σ} {t : τ} {l : List I} (hP : Plays P.seq s c) (hC : Collects C.seq D q t l)
    {xs : List I} {fin : Option F} {res : Except (PipeError E₁ E₂) Unit} (h : PipeResult c q l xs fin res) :
    ∃ s' t', (pipe P C s t).run = ok ((s', t'), res) ∧ D t' (l ++ xs) fin := by
  rw [pipe_run]
  exact pipe_spec hP hC h

/-- C11 for producers and consumers that may be pending. -/
theorem bulkPipe_polled {P : BulkProducer σ I F E₁} {C : BulkConsumer τ I F E₂} {D : τ → List I → Option F → Prop}
    {c : Script I F E₁} {q : Policy I F E₂} {s : σ} {t : τ} {l : List I} (hP : BulkPlays P.seq s c)
    (hC : BulkCollects C.seq D q t l) {xs : List I} {fin : Option F} {res : Except (PipeError E₁ E₂) Unit}
    (h : PipeResult c q l xs fin res) :
    ∃ s' t', (bulkPipe P C s t).run = ok ((s', t'), res) ∧ D t' (l ++ xs) fin := by
  rw [bulkPipe_run]
  obtain ⟨s', t', h1, h2, -⟩ := bulk_pipe_spec hP hC h
  exact ⟨s', t', h1, h2⟩

/-! ## Instances -/

/-- Produces 1, 2, 3; every method is pending twice and then ready. -/
def slowProducer : TestProducer Nat Unit String := TestProducer.new [1, 2, 3] (.ok ()) [] (some [true, true, false])

/-- Accepts five items; every other poll is pending. -/
def slowConsumer : TestConsumer Nat Unit String := TestConsumer.new "full" 5 [] (some [true, false])

/-- The future really is pending at first. -/
example : ∃ k, ((TestProducer.producer false Nat Unit String).produce slowProducer).poll
    ((TestProducer.producer false Nat Unit String).produce slowProducer).start = ok (.pending k) := ⟨_, rfl⟩

/-- So is that of `pipe`. -/
example : ∃ k, (pipe (TestProducer.producer false Nat Unit String).toProducer
      (TestConsumer.consumer false Nat Unit String).toConsumer slowProducer slowConsumer).poll
    (pipe (TestProducer.producer false Nat Unit String).toProducer
      (TestConsumer.consumer false Nat Unit String).toConsumer slowProducer slowConsumer).start = ok (.pending k) :=
  ⟨_, loop_eq_of_fuel (n := 1) nofun⟩

/-- The three items and the final value arrive all the same. -/
example : ∃ s' t', (bulkPipe (TestProducer.producer false Nat Unit String) (TestConsumer.consumer false Nat Unit String)
      slowProducer slowConsumer).run = ok ((s', t'), .ok ()) ∧ TestConsumer.Seen t' [1, 2, 3] (some ()) :=
  bulkPipe_polled (l := [])
    (by rw [testProducer_seq]; exact test_producer_plays false [1, 2, 3] (.ok ()) [] _)
    (by rw [testConsumer_seq]; exact test_consumer_collects false "full" 5 [] _)
    (.closed (Case.script_starts _) (Case.accepts (n := 5) (by decide)) (Case.script_end _) rfl)

end Verif.Async
