import Verif.Lemmas.Async
import Verif.Model.AsyncAdaptors
import Verif.Model.AsyncScramblers
import Verif.Model.AsyncIo

/-!
# Suspension does not matter (C61)
-/

namespace Verif.Async

open Outcome

variable {σ τ I F E E₁ E₂ : Type}

/-! ## The functions of lib.rs -/

theorem consumeFullSliceFrom_run (C : Consumer σ I F E) (s : σ) (i : Nat) (buf : List I) :
    (consumeFullSliceFrom C s i buf).run = Verif.consumeFullSliceFrom C.seq s i buf := by
  induction buf generalizing s i with
  | nil => exact Fut.run_pure _
  | cons item rest ih =>
    refine Fut.run_bind_congr rfl fun x => ?_
    rcases x with ⟨s, e | ⟨⟩⟩
    · exact Fut.run_pure _
    · exact ih s (i + 1)

theorem consumeFullSlice_run (C : Consumer σ I F E) (s : σ) (buf : List I) :
    (consumeFullSlice C s buf).run = Verif.consumeFullSlice C.seq s buf := consumeFullSliceFrom_run C s 0 buf

theorem bulkConsumeFullSlice_run (C : BulkConsumer σ I F E) (s : σ) (buf : List I) :
    (bulkConsumeFullSlice C s buf).run = Verif.bulkConsumeFullSlice C.seq s buf := by
  refine Fut.run_loop_congr fun x => ?_
  obtain ⟨s, n⟩ := x
  dsimp only [bulkConsumeFullSliceBody, Verif.bulkConsumeFullSliceBody]
  run_congr

theorem produceItem_run (P : Producer σ I F E) (s : σ) : (produceItem P s).run = Verif.produceItem P.seq s := by
  dsimp only [produceItem, Verif.produceItem]
  run_congr

theorem overwriteFullSliceFrom_run (P : Producer σ I F E) (s : σ) (written todo : List I) :
    (overwriteFullSliceFrom P s written todo).run = Verif.overwriteFullSliceFrom P.seq s written todo := by
  induction todo generalizing s written with
  | nil => exact Fut.run_pure _
  | cons old todo ih =>
    refine Fut.run_bind_congr rfl fun x => ?_
    rcases x with ⟨s, e | item | fin⟩
    · exact Fut.run_pure _
    · exact ih s _
    · exact Fut.run_pure _

theorem overwriteFullSlice_run (P : Producer σ I F E) (s : σ) (buf : List I) :
    (overwriteFullSlice P s buf).run = Verif.overwriteFullSlice P.seq s buf := overwriteFullSliceFrom_run P s [] buf

theorem bulkOverwriteFullSlice_run (P : BulkProducer σ I F E) (s : σ) (buf : List I) :
    (bulkOverwriteFullSlice P s buf).run = Verif.bulkOverwriteFullSlice P.seq s buf := by
  refine Fut.run_loop_congr fun x => ?_
  obtain ⟨s, buf, n⟩ := x
  dsimp only [bulkOverwriteFullSliceBody, Verif.bulkOverwriteFullSliceBody]
  run_congr

theorem pipe_run (P : Producer σ I F E₁) (C : Consumer τ I F E₂) (s : σ) (t : τ) :
    (pipe P C s t).run = Verif.pipe P.seq C.seq s t := by
  refine Fut.run_loop_congr fun x => ?_
  obtain ⟨s, t⟩ := x
  dsimp only [pipeBody, Verif.pipeBody]
  run_congr

theorem bulkPipe_run (P : BulkProducer σ I F E₁) (C : BulkConsumer τ I F E₂) (s : σ) (t : τ) :
    (bulkPipe P C s t).run = Verif.bulkPipe P.seq C.seq s t := by
  refine Fut.run_loop_congr fun x => ?_
  obtain ⟨s, t⟩ := x
  dsimp only [bulkPipeBody, Verif.bulkPipeBody]
  run_congr

theorem pipeAtMost_run (P : Producer σ I F E₁) (C : Consumer τ I F E₂) (s : σ) (t : τ) (count : Nat) :
    (pipeAtMost P C s t count).run = Verif.pipeAtMost P.seq C.seq s t count := by
  refine Fut.run_loop_congr fun x => ?_
  obtain ⟨s, t, n⟩ := x
  dsimp only [pipeAtMostBody, Verif.pipeAtMostBody]
  run_congr

theorem bulkPipeAtMost_run (P : BulkProducer σ I F E₁) (C : BulkConsumer τ I F E₂) (s : σ) (t : τ) (count : Nat) :
    (bulkPipeAtMost P C s t count).run = Verif.bulkPipeAtMost P.seq C.seq s t count := by
  refine Fut.run_loop_congr fun x => ?_
  obtain ⟨s, t, n⟩ := x
  dsimp only [bulkPipeAtMostBody, Verif.bulkPipeAtMostBody]
  run_congr

/-! ## Adaptors -/

theorem limitProducer_seq (P : Producer σ I F E) :
    (limitProducer P).seq = Verif.limitProducer P.seq := by
  exact Producer.seq_of fun s => by
    obtain ⟨inner, _ | n⟩ := s <;> dsimp only [limitProducer, Verif.limitProducer] <;> run_congr

theorem limitBufferedProducer_seq (P : BufferedProducer σ I F E) :
    (limitBufferedProducer P).seq = Verif.limitBufferedProducer P.seq := by
  exact BufferedProducer.seq_of (limitProducer_seq P.toProducer) fun s => by dsimp only [limitBufferedProducer, Verif.limitBufferedProducer]; run_congr

theorem limitBulkProducer_seq (P : BulkProducer σ I F E) :
    (limitBulkProducer P).seq = Verif.limitBulkProducer P.seq := by
  refine BulkProducer.seq_of_default (limitBufferedProducer_seq P.toBufferedProducer) (fun s => ?_) (fun s n => ?_) rfl rfl
  · dsimp only [limitBulkProducer, Verif.limitBulkProducer]; run_congr
  · dsimp only [limitBulkProducer, Verif.limitBulkProducer]; run_congr

theorem mapItemProducer_seq {φ B : Type} (f : φ → I → φ × B) (P : Producer σ I F E) :
    (mapItemProducer f P).seq = Verif.mapItemProducer f P.seq := by
  exact Producer.seq_of fun s => by dsimp only [mapItemProducer, Verif.mapItemProducer]; run_congr

theorem mapItemBufferedProducer_seq {φ B : Type} (f : φ → I → φ × B) (P : BufferedProducer σ I F E) :
    (mapItemBufferedProducer f P).seq = Verif.mapItemBufferedProducer f P.seq := by
  exact BufferedProducer.seq_of (mapItemProducer_seq f P.toProducer) fun s => by dsimp only [mapItemBufferedProducer, Verif.mapItemBufferedProducer]; run_congr

theorem mapFinalProducer_seq {B : Type} (P : Producer σ I F E) :
    (mapFinalProducer (B := B) P).seq = Verif.mapFinalProducer P.seq := by
  exact Producer.seq_of fun s => by dsimp only [mapFinalProducer, Verif.mapFinalProducer]; run_congr

theorem mapFinalBufferedProducer_seq {B : Type} (P : BufferedProducer σ I F E) :
    (mapFinalBufferedProducer (B := B) P).seq = Verif.mapFinalBufferedProducer P.seq := by
  exact BufferedProducer.seq_of (mapFinalProducer_seq P.toProducer) fun s => by dsimp only [mapFinalBufferedProducer, Verif.mapFinalBufferedProducer]; run_congr

theorem mapFinalBulkProducer_seq {B : Type} (P : BulkProducer σ I F E) :
    (mapFinalBulkProducer (B := B) P).seq = Verif.mapFinalBulkProducer P.seq := by
  refine BulkProducer.seq_of_default (mapFinalBufferedProducer_seq P.toBufferedProducer) (fun s => ?_) (fun s n => ?_) rfl rfl
  · dsimp only [mapFinalBulkProducer, Verif.mapFinalBulkProducer]; run_congr
  · dsimp only [mapFinalBulkProducer, Verif.mapFinalBulkProducer]; run_congr

theorem mapErrorProducer_seq {B : Type} (P : Producer σ I F E) :
    (mapErrorProducer (B := B) P).seq = Verif.mapErrorProducer P.seq := by
  exact Producer.seq_of fun s => by dsimp only [mapErrorProducer, Verif.mapErrorProducer]; run_congr

theorem mapErrorBufferedProducer_seq {B : Type} (P : BufferedProducer σ I F E) :
    (mapErrorBufferedProducer (B := B) P).seq = Verif.mapErrorBufferedProducer P.seq := by
  exact BufferedProducer.seq_of (mapErrorProducer_seq P.toProducer) fun s => by dsimp only [mapErrorBufferedProducer, Verif.mapErrorBufferedProducer]; run_congr

theorem mapErrorBulkProducer_seq {B : Type} (P : BulkProducer σ I F E) :
    (mapErrorBulkProducer (B := B) P).seq = Verif.mapErrorBulkProducer P.seq := by
  refine BulkProducer.seq_of_default (mapErrorBufferedProducer_seq P.toBufferedProducer) (fun s => ?_) (fun s n => ?_) rfl rfl
  · dsimp only [mapErrorBulkProducer, Verif.mapErrorBulkProducer]; run_congr
  · dsimp only [mapErrorBulkProducer, Verif.mapErrorBulkProducer]; run_congr

theorem invariantProducer_seq (P : Producer σ I F E) :
    (invariantProducer P).seq = Verif.invariantProducer P.seq := by
  exact Producer.seq_of fun s => by dsimp only [invariantProducer, Verif.invariantProducer]; run_congr

theorem invariantBufferedProducer_seq (P : BufferedProducer σ I F E) :
    (invariantBufferedProducer P).seq = Verif.invariantBufferedProducer P.seq := by
  exact BufferedProducer.seq_of (invariantProducer_seq P.toProducer) fun s => by dsimp only [invariantBufferedProducer, Verif.invariantBufferedProducer]; run_congr

theorem invariantBulkProducer_seq (P : BulkProducer σ I F E) :
    (invariantBulkProducer P).seq = Verif.invariantBulkProducer P.seq := by
  refine BulkProducer.seq_of_default (invariantBufferedProducer_seq P.toBufferedProducer) (fun s => ?_) (fun s n => ?_) rfl rfl
  · dsimp only [invariantBulkProducer, Verif.invariantBulkProducer]; run_congr
  · dsimp only [invariantBulkProducer, Verif.invariantBulkProducer]; run_congr

theorem invariantNoopBulkProducer_seq (P : BulkProducer σ I F E) :
    (invariantNoopBulkProducer P).seq = Verif.invariantNoopBulkProducer P.seq := by
  refine BulkProducer.seq_of_default rfl (fun s => ?_) (fun s n => ?_) rfl rfl
  · dsimp only [invariantNoopBulkProducer, Verif.invariantNoopBulkProducer]; run_congr
  · dsimp only [invariantNoopBulkProducer, Verif.invariantNoopBulkProducer]; run_congr

theorem limitConsumer_seq (C : Consumer σ I F E) :
    (limitConsumer C).seq = Verif.limitConsumer C.seq := by
  refine Consumer.seq_of (fun s item => ?_) (fun s fin => ?_)
  · obtain ⟨inner, _ | n⟩ := s <;> dsimp only [limitConsumer, Verif.limitConsumer] <;> run_congr
  · dsimp only [limitConsumer, Verif.limitConsumer]; run_congr

theorem limitBufferedConsumer_seq (C : BufferedConsumer σ I F E) :
    (limitBufferedConsumer C).seq = Verif.limitBufferedConsumer C.seq := by
  exact BufferedConsumer.seq_of (limitConsumer_seq C.toConsumer) fun s => by dsimp only [limitBufferedConsumer, Verif.limitBufferedConsumer]; run_congr

theorem limitBulkConsumer_seq (C : BulkConsumer σ I F E) :
    (limitBulkConsumer C).seq = Verif.limitBulkConsumer C.seq := by
  refine BulkConsumer.seq_of_default (limitBufferedConsumer_seq C.toBufferedConsumer) (fun s => ?_) (fun _ _ => rfl) (fun s n => ?_) rfl rfl
  · dsimp only [limitBulkConsumer, Verif.limitBulkConsumer]; run_congr
  · dsimp only [limitBulkConsumer, Verif.limitBulkConsumer]; run_congr

theorem mapItemConsumer_seq {φ B : Type} (f : φ → B → φ × I) (C : Consumer σ I F E) :
    (mapItemConsumer f C).seq = Verif.mapItemConsumer f C.seq := by
  refine Consumer.seq_of (fun s item => ?_) (fun s fin => ?_)
  · dsimp only [mapItemConsumer, Verif.mapItemConsumer]; run_congr
  · dsimp only [mapItemConsumer, Verif.mapItemConsumer]; run_congr

theorem mapItemBufferedConsumer_seq {φ B : Type} (f : φ → B → φ × I) (C : BufferedConsumer σ I F E) :
    (mapItemBufferedConsumer f C).seq = Verif.mapItemBufferedConsumer f C.seq := by
  exact BufferedConsumer.seq_of (mapItemConsumer_seq f C.toConsumer) fun s => by dsimp only [mapItemBufferedConsumer, Verif.mapItemBufferedConsumer]; run_congr

theorem mapFinalConsumer_seq {B : Type} (C : Consumer σ I F E) :
    (mapFinalConsumer (B := B) C).seq = Verif.mapFinalConsumer C.seq := by
  refine Consumer.seq_of (fun s item => ?_) (fun s fin => ?_)
  · dsimp only [mapFinalConsumer, Verif.mapFinalConsumer]; run_congr
  · dsimp only [mapFinalConsumer, Verif.mapFinalConsumer]; run_congr

theorem mapFinalBufferedConsumer_seq {B : Type} (C : BufferedConsumer σ I F E) :
    (mapFinalBufferedConsumer (B := B) C).seq = Verif.mapFinalBufferedConsumer C.seq := by
  exact BufferedConsumer.seq_of (mapFinalConsumer_seq C.toConsumer) fun s => by dsimp only [mapFinalBufferedConsumer, Verif.mapFinalBufferedConsumer]; run_congr

theorem mapFinalBulkConsumer_seq {B : Type} (C : BulkConsumer σ I F E) :
    (mapFinalBulkConsumer (B := B) C).seq = Verif.mapFinalBulkConsumer C.seq := by
  refine BulkConsumer.seq_of_default (mapFinalBufferedConsumer_seq C.toBufferedConsumer) (fun s => ?_) (fun _ _ => rfl) (fun s n => ?_) rfl rfl
  · dsimp only [mapFinalBulkConsumer, Verif.mapFinalBulkConsumer]; run_congr
  · dsimp only [mapFinalBulkConsumer, Verif.mapFinalBulkConsumer]; run_congr

theorem mapErrorConsumer_seq {B : Type} (C : Consumer σ I F E) :
    (mapErrorConsumer (B := B) C).seq = Verif.mapErrorConsumer C.seq := by
  refine Consumer.seq_of (fun s item => ?_) (fun s fin => ?_)
  · dsimp only [mapErrorConsumer, Verif.mapErrorConsumer]; run_congr
  · dsimp only [mapErrorConsumer, Verif.mapErrorConsumer]; run_congr

theorem mapErrorBufferedConsumer_seq {B : Type} (C : BufferedConsumer σ I F E) :
    (mapErrorBufferedConsumer (B := B) C).seq = Verif.mapErrorBufferedConsumer C.seq := by
  exact BufferedConsumer.seq_of (mapErrorConsumer_seq C.toConsumer) fun s => by dsimp only [mapErrorBufferedConsumer, Verif.mapErrorBufferedConsumer]; run_congr

theorem mapErrorBulkConsumer_seq {B : Type} (C : BulkConsumer σ I F E) :
    (mapErrorBulkConsumer (B := B) C).seq = Verif.mapErrorBulkConsumer C.seq := by
  refine BulkConsumer.seq_of_default (mapErrorBufferedConsumer_seq C.toBufferedConsumer) (fun s => ?_) (fun _ _ => rfl) (fun s n => ?_) rfl rfl
  · dsimp only [mapErrorBulkConsumer, Verif.mapErrorBulkConsumer]; run_congr
  · dsimp only [mapErrorBulkConsumer, Verif.mapErrorBulkConsumer]; run_congr

theorem invariantConsumer_seq (C : Consumer σ I F E) :
    (invariantConsumer C).seq = Verif.invariantConsumer C.seq := by
  refine Consumer.seq_of (fun s item => ?_) (fun s fin => ?_)
  · dsimp only [invariantConsumer, Verif.invariantConsumer]; run_congr
  · dsimp only [invariantConsumer, Verif.invariantConsumer]; run_congr

theorem invariantBufferedConsumer_seq (C : BufferedConsumer σ I F E) :
    (invariantBufferedConsumer C).seq = Verif.invariantBufferedConsumer C.seq := by
  exact BufferedConsumer.seq_of (invariantConsumer_seq C.toConsumer) fun s => by dsimp only [invariantBufferedConsumer, Verif.invariantBufferedConsumer]; run_congr

theorem invariantBulkConsumer_seq (C : BulkConsumer σ I F E) :
    (invariantBulkConsumer C).seq = Verif.invariantBulkConsumer C.seq := by
  refine BulkConsumer.seq_of_default (invariantBufferedConsumer_seq C.toBufferedConsumer) (fun s => ?_) (fun _ _ => rfl) (fun s n => ?_) rfl rfl
  · dsimp only [invariantBulkConsumer, Verif.invariantBulkConsumer]; run_congr
  · dsimp only [invariantBulkConsumer, Verif.invariantBulkConsumer]; run_congr

theorem invariantNoopBulkConsumer_seq (C : BulkConsumer σ I F E) :
    (invariantNoopBulkConsumer C).seq = Verif.invariantNoopBulkConsumer C.seq := by
  refine BulkConsumer.seq_of_default rfl (fun s => ?_) (fun _ _ => rfl) (fun s n => ?_) rfl rfl
  · dsimp only [invariantNoopBulkConsumer, Verif.invariantNoopBulkConsumer]; run_congr
  · dsimp only [invariantNoopBulkConsumer, Verif.invariantNoopBulkConsumer]; run_congr

end Verif.Async
