import Verif.Lemmas.PollCount
import Verif.Model.AsyncAdaptors

/-!
# How often the futures of adaptors are pending (C63)
-/

namespace Verif.Async

open Outcome

variable {σ τ I F E E₁ E₂ : Type} {w : σ → Nat} {v : τ → Nat}

theorem limitProducer_counts {P : Producer σ I F E} (hP : P.Counts w) :
    (limitProducer P).Counts (fun s => w s.inner) where
  produce s := by
    obtain ⟨h⟩ := hP
    dsimp only [limitProducer]
    counts

theorem limitBufferedProducer_counts {P : BufferedProducer σ I F E} (hP : P.Counts w) :
    (limitBufferedProducer P).Counts (fun s => w s.inner) where
  toCounts := limitProducer_counts hP.toCounts
  slurp s := by
    obtain ⟨_, h⟩ := hP
    dsimp only [limitBufferedProducer]
    counts

theorem limitBulkProducer_counts {P : BulkProducer σ I F E} (hP : P.Counts w) :
    (limitBulkProducer P).Counts (fun s => w s.inner) := by
  have he : ∀ s, ((limitBulkProducer P).exposeItems s).Always fun n r => w r.1.inner = w s.inner + n := by
    intro s
    obtain ⟨_, h⟩ := hP
    dsimp only [limitBulkProducer]
    counts
  have hc : ∀ s amount, ((limitBulkProducer P).considerProduced s amount).Always fun n r => w r.1.inner = w s.inner + n := by
    intro s amount
    obtain ⟨_, _, h⟩ := hP
    dsimp only [limitBulkProducer]
    counts
  exact ⟨limitBufferedProducer_counts hP.toBuffered, he, hc, bulkProduceDefault_counts (w := fun s : LimitSt σ => w s.inner) he hc⟩

theorem mapItemProducer_counts {φ B : Type} (f : φ → I → φ × B) {P : Producer σ I F E} (hP : P.Counts w) :
    (mapItemProducer f P).Counts (fun s => w s.inner) where
  produce s := by
    obtain ⟨h⟩ := hP
    dsimp only [mapItemProducer]
    counts

theorem mapItemBufferedProducer_counts {φ B : Type} (f : φ → I → φ × B) {P : BufferedProducer σ I F E} (hP : P.Counts w) :
    (mapItemBufferedProducer f P).Counts (fun s => w s.inner) where
  toCounts := mapItemProducer_counts f hP.toCounts
  slurp s := by
    obtain ⟨_, h⟩ := hP
    dsimp only [mapItemBufferedProducer]
    counts

theorem mapFinalProducer_counts {B : Type} {P : Producer σ I F E} (hP : P.Counts w) :
    (mapFinalProducer (B := B) P).Counts (fun s => w s.inner) where
  produce s := by
    obtain ⟨h⟩ := hP
    dsimp only [mapFinalProducer]
    counts

theorem mapFinalBufferedProducer_counts {B : Type} {P : BufferedProducer σ I F E} (hP : P.Counts w) :
    (mapFinalBufferedProducer (B := B) P).Counts (fun s => w s.inner) where
  toCounts := mapFinalProducer_counts hP.toCounts
  slurp s := by
    obtain ⟨_, h⟩ := hP
    dsimp only [mapFinalBufferedProducer]
    counts

theorem mapFinalBulkProducer_counts {B : Type} {P : BulkProducer σ I F E} (hP : P.Counts w) :
    (mapFinalBulkProducer (B := B) P).Counts (fun s => w s.inner) := by
  have he : ∀ s, ((mapFinalBulkProducer (B := B) P).exposeItems s).Always fun n r => w r.1.inner = w s.inner + n := by
    intro s
    obtain ⟨_, h⟩ := hP
    dsimp only [mapFinalBulkProducer]
    counts
  have hc : ∀ s amount, ((mapFinalBulkProducer (B := B) P).considerProduced s amount).Always fun n r => w r.1.inner = w s.inner + n := by
    intro s amount
    obtain ⟨_, _, h⟩ := hP
    dsimp only [mapFinalBulkProducer]
    counts
  exact ⟨mapFinalBufferedProducer_counts hP.toBuffered, he, hc, bulkProduceDefault_counts (w := fun s : MapFinalSt σ F B => w s.inner) he hc⟩

theorem mapErrorProducer_counts {B : Type} {P : Producer σ I F E} (hP : P.Counts w) :
    (mapErrorProducer (B := B) P).Counts (fun s => w s.inner) where
  produce s := by
    obtain ⟨h⟩ := hP
    dsimp only [mapErrorProducer]
    have hm := @mapErrTake_counts σ w
    counts

theorem mapErrorBufferedProducer_counts {B : Type} {P : BufferedProducer σ I F E} (hP : P.Counts w) :
    (mapErrorBufferedProducer (B := B) P).Counts (fun s => w s.inner) where
  toCounts := mapErrorProducer_counts hP.toCounts
  slurp s := by
    obtain ⟨_, h⟩ := hP
    dsimp only [mapErrorBufferedProducer]
    have hm := @mapErrTake_counts σ w
    counts

theorem mapErrorBulkProducer_counts {B : Type} {P : BulkProducer σ I F E} (hP : P.Counts w) :
    (mapErrorBulkProducer (B := B) P).Counts (fun s => w s.inner) := by
  have he : ∀ s, ((mapErrorBulkProducer (B := B) P).exposeItems s).Always fun n r => w r.1.inner = w s.inner + n := by
    intro s
    obtain ⟨_, h⟩ := hP
    dsimp only [mapErrorBulkProducer]
    have hm := @mapErrTake_counts σ w
    counts
  have hc : ∀ s amount, ((mapErrorBulkProducer (B := B) P).considerProduced s amount).Always fun n r => w r.1.inner = w s.inner + n := by
    intro s amount
    obtain ⟨_, _, h⟩ := hP
    dsimp only [mapErrorBulkProducer]
    have hm := @mapErrTake_counts σ w
    counts
  exact ⟨mapErrorBufferedProducer_counts hP.toBuffered, he, hc, bulkProduceDefault_counts (w := fun s : MapErrorSt σ E B => w s.inner) he hc⟩

theorem invariantProducer_counts {P : Producer σ I F E} (hP : P.Counts w) :
    (invariantProducer P).Counts (fun s => w s.inner) where
  produce s := by
    obtain ⟨h⟩ := hP
    dsimp only [invariantProducer]
    counts

theorem invariantBufferedProducer_counts {P : BufferedProducer σ I F E} (hP : P.Counts w) :
    (invariantBufferedProducer P).Counts (fun s => w s.inner) where
  toCounts := invariantProducer_counts hP.toCounts
  slurp s := by
    obtain ⟨_, h⟩ := hP
    dsimp only [invariantBufferedProducer]
    counts

theorem invariantBulkProducer_counts {P : BulkProducer σ I F E} (hP : P.Counts w) :
    (invariantBulkProducer P).Counts (fun s => w s.inner) := by
  have he : ∀ s, ((invariantBulkProducer P).exposeItems s).Always fun n r => w r.1.inner = w s.inner + n := by
    intro s
    obtain ⟨_, h⟩ := hP
    dsimp only [invariantBulkProducer]
    counts
  have hc : ∀ s amount, ((invariantBulkProducer P).considerProduced s amount).Always fun n r => w r.1.inner = w s.inner + n := by
    intro s amount
    obtain ⟨_, _, h⟩ := hP
    dsimp only [invariantBulkProducer]
    counts
  exact ⟨invariantBufferedProducer_counts hP.toBuffered, he, hc, bulkProduceDefault_counts (w := fun s : InvariantSt σ => w s.inner) he hc⟩

theorem invariantNoopBulkProducer_counts {P : BulkProducer σ I F E} (hP : P.Counts w) : (invariantNoopBulkProducer P).Counts w :=
  ⟨hP.toBuffered, hP.exposeItems, hP.considerProduced, bulkProduceDefault_counts hP.exposeItems hP.considerProduced⟩

theorem limitConsumer_counts {C : Consumer σ I F E} (hC : C.Counts w) :
    (limitConsumer C).Counts (fun s => w s.inner) where
  consume s item := by
    obtain ⟨h, _⟩ := hC
    dsimp only [limitConsumer]
    counts
  close s fin := by
    obtain ⟨_, h⟩ := hC
    dsimp only [limitConsumer]
    counts

theorem limitBufferedConsumer_counts {C : BufferedConsumer σ I F E} (hC : C.Counts w) :
    (limitBufferedConsumer C).Counts (fun s => w s.inner) where
  toCounts := limitConsumer_counts hC.toCounts
  flush s := by
    obtain ⟨_, h⟩ := hC
    dsimp only [limitBufferedConsumer]
    counts

theorem limitBulkConsumer_counts {C : BulkConsumer σ I F E} (hC : C.Counts w) :
    (limitBulkConsumer C).Counts (fun s => w s.inner) := by
  have he : ∀ s, ((limitBulkConsumer C).exposeSlots s).Always fun n r => w r.1.inner = w s.inner + n := by
    intro s
    obtain ⟨_, h⟩ := hC
    dsimp only [limitBulkConsumer]
    counts
  have hc : ∀ s amount, ((limitBulkConsumer C).consumeSlots s amount).Always fun n r => w r.1.inner = w s.inner + n := by
    intro s amount
    obtain ⟨_, _, _, h⟩ := hC
    dsimp only [limitBulkConsumer]
    counts
  have hw : ∀ s ws, w ((limitBulkConsumer C).writeSlots s ws).inner = w s.inner := fun s ws => hC.writeSlots s.inner ws
  exact ⟨limitBufferedConsumer_counts hC.toBuffered, he, hw, hc, bulkConsumeDefault_counts (w := fun s : LimitSt σ => w s.inner) he hw hc⟩

theorem mapItemConsumer_counts {φ B : Type} (f : φ → B → φ × I) {C : Consumer σ I F E} (hC : C.Counts w) :
    (mapItemConsumer f C).Counts (fun s => w s.inner) where
  consume s item := by
    obtain ⟨h, _⟩ := hC
    dsimp only [mapItemConsumer]
    counts
  close s fin := by
    obtain ⟨_, h⟩ := hC
    dsimp only [mapItemConsumer]
    counts

theorem mapItemBufferedConsumer_counts {φ B : Type} (f : φ → B → φ × I) {C : BufferedConsumer σ I F E} (hC : C.Counts w) :
    (mapItemBufferedConsumer f C).Counts (fun s => w s.inner) where
  toCounts := mapItemConsumer_counts f hC.toCounts
  flush s := by
    obtain ⟨_, h⟩ := hC
    dsimp only [mapItemBufferedConsumer]
    counts

theorem mapFinalConsumer_counts {B : Type} {C : Consumer σ I F E} (hC : C.Counts w) :
    (mapFinalConsumer (B := B) C).Counts (fun s => w s.inner) where
  consume s item := by
    obtain ⟨h, _⟩ := hC
    dsimp only [mapFinalConsumer]
    counts
  close s fin := by
    obtain ⟨_, h⟩ := hC
    dsimp only [mapFinalConsumer]
    counts

theorem mapFinalBufferedConsumer_counts {B : Type} {C : BufferedConsumer σ I F E} (hC : C.Counts w) :
    (mapFinalBufferedConsumer (B := B) C).Counts (fun s => w s.inner) where
  toCounts := mapFinalConsumer_counts hC.toCounts
  flush s := by
    obtain ⟨_, h⟩ := hC
    dsimp only [mapFinalBufferedConsumer]
    counts

theorem mapFinalBulkConsumer_counts {B : Type} {C : BulkConsumer σ I F E} (hC : C.Counts w) :
    (mapFinalBulkConsumer (B := B) C).Counts (fun s => w s.inner) := by
  have he : ∀ s, ((mapFinalBulkConsumer (B := B) C).exposeSlots s).Always fun n r => w r.1.inner = w s.inner + n := by
    intro s
    obtain ⟨_, h⟩ := hC
    dsimp only [mapFinalBulkConsumer]
    counts
  have hc : ∀ s amount, ((mapFinalBulkConsumer (B := B) C).consumeSlots s amount).Always fun n r => w r.1.inner = w s.inner + n := by
    intro s amount
    obtain ⟨_, _, _, h⟩ := hC
    dsimp only [mapFinalBulkConsumer]
    counts
  have hw : ∀ s ws, w ((mapFinalBulkConsumer (B := B) C).writeSlots s ws).inner = w s.inner := fun s ws => hC.writeSlots s.inner ws
  exact ⟨mapFinalBufferedConsumer_counts hC.toBuffered, he, hw, hc, bulkConsumeDefault_counts (w := fun s : MapFinalSt σ B F => w s.inner) he hw hc⟩

theorem mapErrorConsumer_counts {B : Type} {C : Consumer σ I F E} (hC : C.Counts w) :
    (mapErrorConsumer (B := B) C).Counts (fun s => w s.inner) where
  consume s item := by
    obtain ⟨h, _⟩ := hC
    dsimp only [mapErrorConsumer]
    have hm := @mapErrTake_counts σ w
    counts
  close s fin := by
    obtain ⟨_, h⟩ := hC
    dsimp only [mapErrorConsumer]
    have hm := @mapErrTake_counts σ w
    counts

theorem mapErrorBufferedConsumer_counts {B : Type} {C : BufferedConsumer σ I F E} (hC : C.Counts w) :
    (mapErrorBufferedConsumer (B := B) C).Counts (fun s => w s.inner) where
  toCounts := mapErrorConsumer_counts hC.toCounts
  flush s := by
    obtain ⟨_, h⟩ := hC
    dsimp only [mapErrorBufferedConsumer]
    have hm := @mapErrTake_counts σ w
    counts

theorem mapErrorBulkConsumer_counts {B : Type} {C : BulkConsumer σ I F E} (hC : C.Counts w) :
    (mapErrorBulkConsumer (B := B) C).Counts (fun s => w s.inner) := by
  have he : ∀ s, ((mapErrorBulkConsumer (B := B) C).exposeSlots s).Always fun n r => w r.1.inner = w s.inner + n := by
    intro s
    obtain ⟨_, h⟩ := hC
    dsimp only [mapErrorBulkConsumer]
    have hm := @mapErrTake_counts σ w
    counts
  have hc : ∀ s amount, ((mapErrorBulkConsumer (B := B) C).consumeSlots s amount).Always fun n r => w r.1.inner = w s.inner + n := by
    intro s amount
    obtain ⟨_, _, _, h⟩ := hC
    dsimp only [mapErrorBulkConsumer]
    have hm := @mapErrTake_counts σ w
    counts
  have hw : ∀ s ws, w ((mapErrorBulkConsumer (B := B) C).writeSlots s ws).inner = w s.inner := fun s ws => hC.writeSlots s.inner ws
  exact ⟨mapErrorBufferedConsumer_counts hC.toBuffered, he, hw, hc, bulkConsumeDefault_counts (w := fun s : MapErrorSt σ E B => w s.inner) he hw hc⟩

theorem invariantConsumer_counts {C : Consumer σ I F E} (hC : C.Counts w) :
    (invariantConsumer C).Counts (fun s => w s.inner) where
  consume s item := by
    obtain ⟨h, _⟩ := hC
    dsimp only [invariantConsumer]
    counts
  close s fin := by
    obtain ⟨_, h⟩ := hC
    dsimp only [invariantConsumer]
    counts

theorem invariantBufferedConsumer_counts {C : BufferedConsumer σ I F E} (hC : C.Counts w) :
    (invariantBufferedConsumer C).Counts (fun s => w s.inner) where
  toCounts := invariantConsumer_counts hC.toCounts
  flush s := by
    obtain ⟨_, h⟩ := hC
    dsimp only [invariantBufferedConsumer]
    counts

theorem invariantBulkConsumer_counts {C : BulkConsumer σ I F E} (hC : C.Counts w) :
    (invariantBulkConsumer C).Counts (fun s => w s.inner) := by
  have he : ∀ s, ((invariantBulkConsumer C).exposeSlots s).Always fun n r => w r.1.inner = w s.inner + n := by
    intro s
    obtain ⟨_, h⟩ := hC
    dsimp only [invariantBulkConsumer]
    counts
  have hc : ∀ s amount, ((invariantBulkConsumer C).consumeSlots s amount).Always fun n r => w r.1.inner = w s.inner + n := by
    intro s amount
    obtain ⟨_, _, _, h⟩ := hC
    dsimp only [invariantBulkConsumer]
    counts
  have hw : ∀ s ws, w ((invariantBulkConsumer C).writeSlots s ws).inner = w s.inner := fun s ws => hC.writeSlots s.inner ws
  exact ⟨invariantBufferedConsumer_counts hC.toBuffered, he, hw, hc, bulkConsumeDefault_counts (w := fun s : InvariantSt σ => w s.inner) he hw hc⟩

theorem invariantNoopBulkConsumer_counts {C : BulkConsumer σ I F E} (hC : C.Counts w) : (invariantNoopBulkConsumer C).Counts w :=
  ⟨hC.toBuffered, hC.exposeSlots, hC.writeSlots, hC.consumeSlots,
    bulkConsumeDefault_counts hC.exposeSlots hC.writeSlots hC.consumeSlots⟩

/-! ## The functions of the traits and the pipes -/

theorem produceItem_counts {P : Producer σ I F E} (hP : P.Counts w) (s : σ) :
    (produceItem P s).Always fun n r => w r.1 = w s + n := by
  obtain ⟨h⟩ := hP
  unfold produceItem
  counts

theorem consumeFullSlice_counts {C : Consumer σ I F E} (hC : C.Counts w) (s : σ) (buf : List I) :
    (consumeFullSlice C s buf).Always fun n r => w r.1 = w s + n := by
  have key : ∀ s i, (consumeFullSliceFrom C s i buf).Always fun n r => w r.1 = w s + n := by
    induction buf with
    | nil => exact fun s i => Fut.Always.pure rfl
    | cons item rest ih =>
      intro s i
      obtain ⟨h, _⟩ := hC
      unfold consumeFullSliceFrom
      counts
  exact key s 0

theorem overwriteFullSlice_counts {P : Producer σ I F E} (hP : P.Counts w) (s : σ) (buf : List I) :
    (overwriteFullSlice P s buf).Always fun n r => w r.1 = w s + n := by
  have key : ∀ s written, (overwriteFullSliceFrom P s written buf).Always fun n r => w r.1 = w s + n := by
    induction buf with
    | nil => exact fun s i => Fut.Always.pure rfl
    | cons item rest ih =>
      intro s i
      obtain ⟨h⟩ := hP
      unfold overwriteFullSliceFrom
      counts
  exact key s []

theorem bulkConsumeFullSlice_counts {C : BulkConsumer σ I F E} (hC : C.Counts w) (s : σ) (buf : List I) :
    (bulkConsumeFullSlice C s buf).Always fun n r => w r.1 = w s + n := by
  refine Fut.Always.loop (body := bulkConsumeFullSliceBody C buf) (m := fun x => w x.1)
    (m' := fun x => w x.1) (fun x => ?_) (s, 0)
  have h := hC.bulkConsume
  unfold bulkConsumeFullSliceBody
  counts

theorem bulkOverwriteFullSlice_counts {P : BulkProducer σ I F E} (hP : P.Counts w) (s : σ) (buf : List I) :
    (bulkOverwriteFullSlice P s buf).Always fun n r => w r.1 = w s + n := by
  refine Fut.Always.loop (body := bulkOverwriteFullSliceBody P) (m := fun x => w x.1)
    (m' := fun x => w x.1) (fun x => ?_) (s, buf, 0)
  have h := hP.bulkProduce
  unfold bulkOverwriteFullSliceBody
  counts

/-- `pipe` is pending exactly as often as the producer and the consumer together. -/
theorem pipe_counts {P : Producer σ I F E₁} {C : Consumer τ I F E₂} (hP : P.Counts w) (hC : C.Counts v) (s : σ) (t : τ) :
    (pipe P C s t).Always fun n r => w r.1.1 + v r.1.2 = w s + v t + n := by
  refine Fut.Always.loop (body := pipeBody P C) (m := fun x => w x.1 + v x.2)
    (m' := fun x => w x.1.1 + v x.1.2) (fun x => ?_) (s, t)
  obtain ⟨hp⟩ := hP
  obtain ⟨hc, hf⟩ := hC
  unfold pipeBody
  counts

theorem bulkPipe_counts {P : BulkProducer σ I F E₁} {C : BulkConsumer τ I F E₂} (hP : P.Counts w) (hC : C.Counts v) (s : σ)
    (t : τ) : (bulkPipe P C s t).Always fun n r => w r.1.1 + v r.1.2 = w s + v t + n := by
  refine Fut.Always.loop (body := bulkPipeBody P C) (m := fun x => w x.1 + v x.2)
    (m' := fun x => w x.1.1 + v x.1.2) (fun x => ?_) (s, t)
  have h1 := hP.exposeItems
  have h2 := hP.considerProduced
  have h3 := hC.bulkConsume
  have h4 := hC.toBuffered.toCounts.close
  unfold bulkPipeBody
  counts

theorem pipeAtMost_counts {P : Producer σ I F E₁} {C : Consumer τ I F E₂} (hP : P.Counts w) (hC : C.Counts v) (s : σ) (t : τ)
    (count : Nat) : (pipeAtMost P C s t count).Always fun n r => w r.1.1 + v r.1.2 = w s + v t + n := by
  refine Fut.Always.loop (body := pipeAtMostBody P C count) (m := fun x => w x.1 + v x.2.1)
    (m' := fun x => w x.1.1 + v x.1.2) (fun x => ?_) (s, t, 0)
  obtain ⟨hp⟩ := hP
  obtain ⟨hc, hf⟩ := hC
  unfold pipeAtMostBody
  counts

theorem bulkPipeAtMost_counts {P : BulkProducer σ I F E₁} {C : BulkConsumer τ I F E₂} (hP : P.Counts w) (hC : C.Counts v)
    (s : σ) (t : τ) (count : Nat) :
    (bulkPipeAtMost P C s t count).Always fun n r => w r.1.1 + v r.1.2 = w s + v t + n := by
  refine Fut.Always.loop (body := bulkPipeAtMostBody P C count) (m := fun x => w x.1 + v x.2.1)
    (m' := fun x => w x.1.1 + v x.1.2) (fun x => ?_) (s, t, 0)
  have h1 := hP.exposeItems
  have h2 := hP.considerProduced
  have h3 := hC.bulkConsume
  have h4 := hC.toBuffered.toCounts.close
  unfold bulkPipeAtMostBody
  counts

end Verif.Async
