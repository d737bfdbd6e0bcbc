import Verif.Lemmas.Async
import Verif.Model.AsyncScramblers

/-!
# Suspension does not matter: scramblers (C61)
-/

namespace Verif.Async

open Outcome

variable {σ I F E : Type}

namespace ProducerScrambler

theorem performOperation_run (debug : Bool) (P : BulkProducer σ I F E) (s : ProducerScrambler σ I F E) :
    (performOperation debug P s).run = Verif.ProducerScrambler.performOperation debug P.seq s := by
  dsimp only [performOperation, Verif.ProducerScrambler.performOperation]
  run_congr

theorem fillQueue_run (debug : Bool) (P : BulkProducer σ I F E) (s : ProducerScrambler σ I F E) :
    (fillQueue debug P s).run = Verif.ProducerScrambler.fillQueue debug P.seq s := by
  dsimp only [fillQueue, Verif.ProducerScrambler.fillQueue]
  refine Fut.run_bind_congr (Fut.run_loop_congr fun s => ?_) fun s => ?_
  · dsimp only [fillBody, Verif.ProducerScrambler.fillBody]
    split
    · refine Fut.run_bind_congr (performOperation_run debug P s) fun x => ?_
      run_congr
    · run_congr
  · run_congr

theorem slurpInner_run (P : BulkProducer σ I F E) (s : ProducerScrambler σ I F E) :
    (slurpInner P s).run = Verif.ProducerScrambler.slurpInner P.seq s := by
  dsimp only [slurpInner, Verif.ProducerScrambler.slurpInner]
  run_congr

end ProducerScrambler

theorem producerScrambler_seq (debug : Bool) (P : BulkProducer σ I F E) :
    (producerScrambler debug P).seq = Verif.producerScrambler debug P.seq := by
  refine BulkProducer.seq_of_default
    (BufferedProducer.seq_of (Producer.seq_of fun s => ?_) fun s => ?_) (fun s => ?_) (fun s n => ?_) rfl rfl
  · refine Fut.run_bind_congr (ProducerScrambler.fillQueue_run debug P s) fun x => ?_
    run_congr
  · refine Fut.run_bind_congr (ProducerScrambler.fillQueue_run debug P s) fun x => ?_
    rcases x with ⟨s, _ | e | f⟩
    · exact ProducerScrambler.slurpInner_run P _
    · exact Fut.run_pure _
    · exact ProducerScrambler.slurpInner_run P _
  · refine Fut.run_bind_congr (ProducerScrambler.fillQueue_run debug P s) fun x => ?_
    run_congr
  · dsimp only [producerScrambler, Verif.producerScrambler, ProducerScrambler.considerProduced,
      Verif.ProducerScrambler.considerProduced]
    run_congr

namespace ConsumerScrambler

theorem performOperation_run (debug : Bool) (C : BulkConsumer σ I F E) (s : ConsumerScrambler σ I) :
    (performOperation debug C s).run = Verif.ConsumerScrambler.performOperation debug C.seq s := by
  dsimp only [performOperation, Verif.ConsumerScrambler.performOperation]
  run_congr

theorem drain_run (debug : Bool) (C : BulkConsumer σ I F E) (s : ConsumerScrambler σ I) :
    (drain debug C s).run = Verif.ConsumerScrambler.drain debug C.seq s := by
  refine Fut.run_loop_congr fun s => ?_
  dsimp only [drainBody, Verif.ConsumerScrambler.drainBody]
  split
  · refine Fut.run_bind_congr (performOperation_run debug C s) fun x => ?_
    run_congr
  · run_congr

end ConsumerScrambler

theorem consumerScrambler_seq (debug : Bool) (C : BulkConsumer σ I F E) :
    (consumerScrambler debug C).seq = Verif.consumerScrambler debug C.seq := by
  refine BulkConsumer.seq_of_default
    (BufferedConsumer.seq_of (Consumer.seq_of (fun s item => ?_) fun s fin => ?_) fun s => ?_) (fun s => ?_) (fun _ _ => rfl)
    (fun s n => ?_) rfl rfl
  · refine Fut.run_bind_congr (Fut.run_liftM _) fun x => ?_
    rcases x with ⟨buffer, _ | item⟩
    · run_congr
    · refine Fut.run_bind_congr (ConsumerScrambler.drain_run debug C _) fun x => ?_
      run_congr
  · refine Fut.run_bind_congr (ConsumerScrambler.drain_run debug C _) fun x => ?_
    run_congr
  · refine Fut.run_bind_congr (ConsumerScrambler.drain_run debug C _) fun x => ?_
    run_congr
  · dsimp only [consumerScrambler, Verif.consumerScrambler, ConsumerScrambler.exposeSlots, Verif.ConsumerScrambler.exposeSlots]
    split
    · run_congr
    · refine Fut.run_bind_congr (ConsumerScrambler.drain_run debug C _) fun x => ?_
      run_congr
  · dsimp only [consumerScrambler, Verif.consumerScrambler, ConsumerScrambler.consumeSlots, Verif.ConsumerScrambler.consumeSlots]
    run_congr

end Verif.Async
