import Verif.Lemmas.Async
import Verif.Model.AsyncTestDoubles

/-!
# Suspension does not matter: test doubles (C61)
-/

namespace Verif.Async

open Outcome

variable {I F E : Type}

theorem TestYielder.maybeYield_run (y : TestYielder) : (TestYielder.maybeYield y).run = y.maybeYield := by
  show loop _ y = loop _ y
  congr 1
  funext y
  simp only [Fut.runBody, TestYielder.maybeYield, TestYielder.awaitBody]
  unfold Verif.TestYielder.poll
  rcases Outcome.index y.pattern y.index with (_ | _) | _ | _
  · rcases Outcome.mod (y.index + 1) y.pattern.length with n | _ | _ <;> rfl
  · rcases Outcome.mod (y.index + 1) y.pattern.length with n | _ | _
    · simp
    · rfl
    · rfl
  · rfl
  · rfl

theorem maybeYield_run (y : Option TestYielder) : (maybeYield y).run = Verif.maybeYield y := by
  rcases y with _ | y
  · exact Fut.run_pure _
  · refine Fut.run_bind_congr (TestYielder.maybeYield_run y) fun y => ?_
    run_congr

theorem testProducer_seq (test : Bool) :
    (TestProducer.producer test I F E).seq = Verif.TestProducer.producer test I F E := by
  refine BulkProducer.seq_of_default
    (BufferedProducer.seq_of (Producer.seq_of fun s => ?_) fun s => ?_) (fun s => ?_) (fun s n => ?_) rfl rfl
  · refine Fut.run_bind_congr (maybeYield_run s.yielder) fun x => ?_
    run_congr
  · refine Fut.run_bind_congr (maybeYield_run s.yielder) fun x => ?_
    run_congr
  · obtain ⟨inner, last, sizes, yielder⟩ := s
    refine Fut.run_bind_congr (maybeYield_run yielder) fun x => ?_
    rcases sizes with _ | sizes <;> run_congr
  · refine Fut.run_bind_congr (maybeYield_run s.yielder) fun x => ?_
    run_congr

theorem TestConsumer.enter_run (s : TestConsumer I F E) : (TestConsumer.enter s).run = s.enter := by
  refine Fut.run_bind_congr (maybeYield_run s.yielder) fun x => ?_
  run_congr

theorem testConsumer_seq [Inhabited I] (test : Bool) :
    (TestConsumer.consumer test I F E).seq = Verif.TestConsumer.consumer test I F E := by
  refine BulkConsumer.seq_of_default
    (BufferedConsumer.seq_of (Consumer.seq_of (fun s item => ?_) fun s fin => ?_) fun s => ?_) (fun s => ?_) (fun _ _ => rfl)
    (fun s n => ?_) rfl rfl
  all_goals
    refine Fut.run_bind_congr (TestConsumer.enter_run s) fun x => ?_
    run_congr

end Verif.Async
