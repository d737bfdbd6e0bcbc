import Verif.Lemmas.Hang
import Verif.Model.AsyncAdaptors

/-!
# Pending adaptors wait for what they wrap (C65)
-/

namespace Verif.Async

open Outcome

variable {σ τ I F E E₁ E₂ : Type} 

theorem limitProducer_hangs {P : Producer σ I F E} (hP : P.Hangs) :
    (limitProducer P).Hangs where
  produce s := by
    obtain ⟨h⟩ := hP
    dsimp only [limitProducer]
    hangs

theorem limitBufferedProducer_hangs {P : BufferedProducer σ I F E} (hP : P.Hangs) :
    (limitBufferedProducer P).Hangs where
  toHangs := limitProducer_hangs hP.toHangs
  slurp s := by
    obtain ⟨_, h⟩ := hP
    dsimp only [limitBufferedProducer]
    hangs

theorem limitBulkProducer_hangs {P : BulkProducer σ I F E} (hP : P.Hangs) :
    (limitBulkProducer P).Hangs := by
  have he : ∀ s, ((limitBulkProducer P).exposeItems s).Hangs := by
    intro s
    obtain ⟨_, h⟩ := hP
    dsimp only [limitBulkProducer]
    hangs
  have hc : ∀ s amount, ((limitBulkProducer P).considerProduced s amount).Hangs := by
    intro s amount
    obtain ⟨_, _, h⟩ := hP
    dsimp only [limitBulkProducer]
    hangs
  exact ⟨limitBufferedProducer_hangs hP.toBuffered, he, hc, bulkProduceDefault_hangs he hc⟩

theorem mapItemProducer_hangs {φ B : Type} (f : φ → I → φ × B) {P : Producer σ I F E} (hP : P.Hangs) :
    (mapItemProducer f P).Hangs where
  produce s := by
    obtain ⟨h⟩ := hP
    dsimp only [mapItemProducer]
    hangs

theorem mapItemBufferedProducer_hangs {φ B : Type} (f : φ → I → φ × B) {P : BufferedProducer σ I F E} (hP : P.Hangs) :
    (mapItemBufferedProducer f P).Hangs where
  toHangs := mapItemProducer_hangs f hP.toHangs
  slurp s := by
    obtain ⟨_, h⟩ := hP
    dsimp only [mapItemBufferedProducer]
    hangs

theorem mapFinalProducer_hangs {B : Type} {P : Producer σ I F E} (hP : P.Hangs) :
    (mapFinalProducer (B := B) P).Hangs where
  produce s := by
    obtain ⟨h⟩ := hP
    dsimp only [mapFinalProducer]
    hangs

theorem mapFinalBufferedProducer_hangs {B : Type} {P : BufferedProducer σ I F E} (hP : P.Hangs) :
    (mapFinalBufferedProducer (B := B) P).Hangs where
  toHangs := mapFinalProducer_hangs hP.toHangs
  slurp s := by
    obtain ⟨_, h⟩ := hP
    dsimp only [mapFinalBufferedProducer]
    hangs

theorem mapFinalBulkProducer_hangs {B : Type} {P : BulkProducer σ I F E} (hP : P.Hangs) :
    (mapFinalBulkProducer (B := B) P).Hangs := by
  have he : ∀ s, ((mapFinalBulkProducer (B := B) P).exposeItems s).Hangs := by
    intro s
    obtain ⟨_, h⟩ := hP
    dsimp only [mapFinalBulkProducer]
    hangs
  have hc : ∀ s amount, ((mapFinalBulkProducer (B := B) P).considerProduced s amount).Hangs := by
    intro s amount
    obtain ⟨_, _, h⟩ := hP
    dsimp only [mapFinalBulkProducer]
    hangs
  exact ⟨mapFinalBufferedProducer_hangs hP.toBuffered, he, hc, bulkProduceDefault_hangs he hc⟩

theorem mapErrorProducer_hangs {B : Type} {P : Producer σ I F E} (hP : P.Hangs) :
    (mapErrorProducer (B := B) P).Hangs where
  produce s := by
    obtain ⟨h⟩ := hP
    dsimp only [mapErrorProducer]
    hangs

theorem mapErrorBufferedProducer_hangs {B : Type} {P : BufferedProducer σ I F E} (hP : P.Hangs) :
    (mapErrorBufferedProducer (B := B) P).Hangs where
  toHangs := mapErrorProducer_hangs hP.toHangs
  slurp s := by
    obtain ⟨_, h⟩ := hP
    dsimp only [mapErrorBufferedProducer]
    hangs

theorem mapErrorBulkProducer_hangs {B : Type} {P : BulkProducer σ I F E} (hP : P.Hangs) :
    (mapErrorBulkProducer (B := B) P).Hangs := by
  have he : ∀ s, ((mapErrorBulkProducer (B := B) P).exposeItems s).Hangs := by
    intro s
    obtain ⟨_, h⟩ := hP
    dsimp only [mapErrorBulkProducer]
    hangs
  have hc : ∀ s amount, ((mapErrorBulkProducer (B := B) P).considerProduced s amount).Hangs := by
    intro s amount
    obtain ⟨_, _, h⟩ := hP
    dsimp only [mapErrorBulkProducer]
    hangs
  exact ⟨mapErrorBufferedProducer_hangs hP.toBuffered, he, hc, bulkProduceDefault_hangs he hc⟩

theorem invariantProducer_hangs {P : Producer σ I F E} (hP : P.Hangs) :
    (invariantProducer P).Hangs where
  produce s := by
    obtain ⟨h⟩ := hP
    dsimp only [invariantProducer]
    hangs

theorem invariantBufferedProducer_hangs {P : BufferedProducer σ I F E} (hP : P.Hangs) :
    (invariantBufferedProducer P).Hangs where
  toHangs := invariantProducer_hangs hP.toHangs
  slurp s := by
    obtain ⟨_, h⟩ := hP
    dsimp only [invariantBufferedProducer]
    hangs

theorem invariantBulkProducer_hangs {P : BulkProducer σ I F E} (hP : P.Hangs) :
    (invariantBulkProducer P).Hangs := by
  have he : ∀ s, ((invariantBulkProducer P).exposeItems s).Hangs := by
    intro s
    obtain ⟨_, h⟩ := hP
    dsimp only [invariantBulkProducer]
    hangs
  have hc : ∀ s amount, ((invariantBulkProducer P).considerProduced s amount).Hangs := by
    intro s amount
    obtain ⟨_, _, h⟩ := hP
    dsimp only [invariantBulkProducer]
    hangs
  exact ⟨invariantBufferedProducer_hangs hP.toBuffered, he, hc, bulkProduceDefault_hangs he hc⟩

theorem invariantNoopBulkProducer_hangs {P : BulkProducer σ I F E} (hP : P.Hangs) : (invariantNoopBulkProducer P).Hangs :=
  ⟨hP.toBuffered, hP.exposeItems, hP.considerProduced, bulkProduceDefault_hangs hP.exposeItems hP.considerProduced⟩

theorem limitConsumer_hangs {C : Consumer σ I F E} (hC : C.Hangs) :
    (limitConsumer C).Hangs where
  consume s item := by
    obtain ⟨h, _⟩ := hC
    dsimp only [limitConsumer]
    hangs
  close s fin := by
    obtain ⟨_, h⟩ := hC
    dsimp only [limitConsumer]
    hangs

theorem limitBufferedConsumer_hangs {C : BufferedConsumer σ I F E} (hC : C.Hangs) :
    (limitBufferedConsumer C).Hangs where
  toHangs := limitConsumer_hangs hC.toHangs
  flush s := by
    obtain ⟨_, h⟩ := hC
    dsimp only [limitBufferedConsumer]
    hangs

theorem limitBulkConsumer_hangs {C : BulkConsumer σ I F E} (hC : C.Hangs) :
    (limitBulkConsumer C).Hangs := by
  have he : ∀ s, ((limitBulkConsumer C).exposeSlots s).Hangs := by
    intro s
    obtain ⟨_, h⟩ := hC
    dsimp only [limitBulkConsumer]
    hangs
  have hc : ∀ s amount, ((limitBulkConsumer C).consumeSlots s amount).Hangs := by
    intro s amount
    obtain ⟨_, _, _, h⟩ := hC
    dsimp only [limitBulkConsumer]
    hangs
  exact ⟨limitBufferedConsumer_hangs hC.toBuffered, he, hc, bulkConsumeDefault_hangs (writeSlots := (limitBulkConsumer C).writeSlots) he hc⟩

theorem mapItemConsumer_hangs {φ B : Type} (f : φ → B → φ × I) {C : Consumer σ I F E} (hC : C.Hangs) :
    (mapItemConsumer f C).Hangs where
  consume s item := by
    obtain ⟨h, _⟩ := hC
    dsimp only [mapItemConsumer]
    hangs
  close s fin := by
    obtain ⟨_, h⟩ := hC
    dsimp only [mapItemConsumer]
    hangs

theorem mapItemBufferedConsumer_hangs {φ B : Type} (f : φ → B → φ × I) {C : BufferedConsumer σ I F E} (hC : C.Hangs) :
    (mapItemBufferedConsumer f C).Hangs where
  toHangs := mapItemConsumer_hangs f hC.toHangs
  flush s := by
    obtain ⟨_, h⟩ := hC
    dsimp only [mapItemBufferedConsumer]
    hangs

theorem mapFinalConsumer_hangs {B : Type} {C : Consumer σ I F E} (hC : C.Hangs) :
    (mapFinalConsumer (B := B) C).Hangs where
  consume s item := by
    obtain ⟨h, _⟩ := hC
    dsimp only [mapFinalConsumer]
    hangs
  close s fin := by
    obtain ⟨_, h⟩ := hC
    dsimp only [mapFinalConsumer]
    hangs

theorem mapFinalBufferedConsumer_hangs {B : Type} {C : BufferedConsumer σ I F E} (hC : C.Hangs) :
    (mapFinalBufferedConsumer (B := B) C).Hangs where
  toHangs := mapFinalConsumer_hangs hC.toHangs
  flush s := by
    obtain ⟨_, h⟩ := hC
    dsimp only [mapFinalBufferedConsumer]
    hangs

theorem mapFinalBulkConsumer_hangs {B : Type} {C : BulkConsumer σ I F E} (hC : C.Hangs) :
    (mapFinalBulkConsumer (B := B) C).Hangs := by
  have he : ∀ s, ((mapFinalBulkConsumer (B := B) C).exposeSlots s).Hangs := by
    intro s
    obtain ⟨_, h⟩ := hC
    dsimp only [mapFinalBulkConsumer]
    hangs
  have hc : ∀ s amount, ((mapFinalBulkConsumer (B := B) C).consumeSlots s amount).Hangs := by
    intro s amount
    obtain ⟨_, _, _, h⟩ := hC
    dsimp only [mapFinalBulkConsumer]
    hangs
  exact ⟨mapFinalBufferedConsumer_hangs hC.toBuffered, he, hc, bulkConsumeDefault_hangs (writeSlots := (mapFinalBulkConsumer (B := B) C).writeSlots) he hc⟩

theorem mapErrorConsumer_hangs {B : Type} {C : Consumer σ I F E} (hC : C.Hangs) :
    (mapErrorConsumer (B := B) C).Hangs where
  consume s item := by
    obtain ⟨h, _⟩ := hC
    dsimp only [mapErrorConsumer]
    hangs
  close s fin := by
    obtain ⟨_, h⟩ := hC
    dsimp only [mapErrorConsumer]
    hangs

theorem mapErrorBufferedConsumer_hangs {B : Type} {C : BufferedConsumer σ I F E} (hC : C.Hangs) :
    (mapErrorBufferedConsumer (B := B) C).Hangs where
  toHangs := mapErrorConsumer_hangs hC.toHangs
  flush s := by
    obtain ⟨_, h⟩ := hC
    dsimp only [mapErrorBufferedConsumer]
    hangs

theorem mapErrorBulkConsumer_hangs {B : Type} {C : BulkConsumer σ I F E} (hC : C.Hangs) :
    (mapErrorBulkConsumer (B := B) C).Hangs := by
  have he : ∀ s, ((mapErrorBulkConsumer (B := B) C).exposeSlots s).Hangs := by
    intro s
    obtain ⟨_, h⟩ := hC
    dsimp only [mapErrorBulkConsumer]
    hangs
  have hc : ∀ s amount, ((mapErrorBulkConsumer (B := B) C).consumeSlots s amount).Hangs := by
    intro s amount
    obtain ⟨_, _, _, h⟩ := hC
    dsimp only [mapErrorBulkConsumer]
    hangs
  exact ⟨mapErrorBufferedConsumer_hangs hC.toBuffered, he, hc, bulkConsumeDefault_hangs (writeSlots := (mapErrorBulkConsumer (B := B) C).writeSlots) he hc⟩

theorem invariantConsumer_hangs {C : Consumer σ I F E} (hC : C.Hangs) :
    (invariantConsumer C).Hangs where
  consume s item := by
    obtain ⟨h, _⟩ := hC
    dsimp only [invariantConsumer]
    hangs
  close s fin := by
    obtain ⟨_, h⟩ := hC
    dsimp only [invariantConsumer]
    hangs

theorem invariantBufferedConsumer_hangs {C : BufferedConsumer σ I F E} (hC : C.Hangs) :
    (invariantBufferedConsumer C).Hangs where
  toHangs := invariantConsumer_hangs hC.toHangs
  flush s := by
    obtain ⟨_, h⟩ := hC
    dsimp only [invariantBufferedConsumer]
    hangs

theorem invariantBulkConsumer_hangs {C : BulkConsumer σ I F E} (hC : C.Hangs) :
    (invariantBulkConsumer C).Hangs := by
  have he : ∀ s, ((invariantBulkConsumer C).exposeSlots s).Hangs := by
    intro s
    obtain ⟨_, h⟩ := hC
    dsimp only [invariantBulkConsumer]
    hangs
  have hc : ∀ s amount, ((invariantBulkConsumer C).consumeSlots s amount).Hangs := by
    intro s amount
    obtain ⟨_, _, _, h⟩ := hC
    dsimp only [invariantBulkConsumer]
    hangs
  exact ⟨invariantBufferedConsumer_hangs hC.toBuffered, he, hc, bulkConsumeDefault_hangs (writeSlots := (invariantBulkConsumer C).writeSlots) he hc⟩

theorem invariantNoopBulkConsumer_hangs {C : BulkConsumer σ I F E} (hC : C.Hangs) : (invariantNoopBulkConsumer C).Hangs :=
  ⟨hC.toBuffered, hC.exposeSlots, hC.consumeSlots,
    bulkConsumeDefault_hangs hC.exposeSlots hC.consumeSlots⟩

/-! ## Instances -/

/-- Never answers. -/
def Case.never (A : Type) : Fut A where
  κ := Unit
  start := ()
  poll _ := ok (.pending ())

theorem Case.never_hangs (A : Type) : (Case.never A).Hangs := ⟨fun _ _ _ => rfl⟩

/-- Produces two items and then does not answer any more. -/
def Case.stalled (item : Nat → I) : BulkProducer Nat I Unit String where
  produce s := if s < 2 then return (s + 1, .ok (.inl (item s))) else Case.never _
  slurp s := return (s, .ok ())
  exposeItems s := if s < 2 then return (s, .ok (.inl [item s])) else Case.never _
  considerProduced s amount := return (s + amount, .ok ())

theorem Case.stalled_hangs (item : Nat → I) : (Case.stalled item).Hangs := by
  have hn := Case.never_hangs
  have he : ∀ s, ((Case.stalled item).exposeItems s).Hangs := fun s => by dsimp only [Case.stalled]; hangs
  have hc : ∀ s amount, ((Case.stalled item).considerProduced s amount).Hangs := fun s amount => by
    dsimp only [Case.stalled]; hangs
  exact ⟨⟨⟨fun s => by dsimp only [Case.stalled]; hangs⟩, fun s => by dsimp only [Case.stalled]; hangs⟩, he, hc,
    bulkProduceDefault_hangs he hc⟩

/-- Consumes three items and then does not answer any more. -/
def Case.stalledConsumer [Inhabited I] : BulkConsumer (List I) I Unit String where
  consume s item := if s.length < 3 then return (s ++ [item], .ok ()) else Case.never _
  close s _ := return (s, .ok ())
  flush s := return (s, .ok ())
  exposeSlots s := if s.length < 3 then return (s, .ok [default]) else Case.never _
  writeSlots s ws := s ++ ws
  consumeSlots s _ := return (s, .ok ())

theorem Case.stalledConsumer_hangs [Inhabited I] : (Case.stalledConsumer (I := I)).Hangs := by
  have hn := Case.never_hangs
  have he : ∀ s, ((Case.stalledConsumer (I := I)).exposeSlots s).Hangs := fun s => by dsimp only [Case.stalledConsumer]; hangs
  have hc : ∀ s amount, ((Case.stalledConsumer (I := I)).consumeSlots s amount).Hangs := fun s amount => by
    dsimp only [Case.stalledConsumer]; hangs
  exact ⟨⟨⟨fun s item => by dsimp only [Case.stalledConsumer]; hangs, fun s fin => by dsimp only [Case.stalledConsumer]; hangs⟩,
    fun s => by dsimp only [Case.stalledConsumer]; hangs⟩, he, hc,
    bulkConsumeDefault_hangs (writeSlots := (Case.stalledConsumer (I := I)).writeSlots) he hc⟩

/-- After two items the third call of a limited stalled producer is pending for ever. -/
example : (limitBulkProducer (Case.stalled id)).Hangs ∧
    (((limitBulkProducer (Case.stalled id)).produce ⟨0, 9⟩).poll ((limitBulkProducer (Case.stalled id)).produce ⟨0, 9⟩).start =
      ok (.ready (⟨1, 8⟩, .ok (.inl 0)))) ∧
    ∃ k, (((limitBulkProducer (Case.stalled id)).produce ⟨2, 7⟩).poll
      ((limitBulkProducer (Case.stalled id)).produce ⟨2, 7⟩).start = ok (.pending k)) :=
  ⟨limitBulkProducer_hangs (Case.stalled_hangs id), rfl, _, rfl⟩

/-- After three items the fourth call of a consumer with a function on its errors is pending for ever. -/
example : (mapErrorBulkConsumer (Case.stalledConsumer (I := Nat)) (B := Nat)).Hangs ∧
    ∃ k, ((mapErrorBulkConsumer (Case.stalledConsumer (I := Nat))).consume ⟨[1, 2, 3], some String.length⟩ 4).poll
      ((mapErrorBulkConsumer (Case.stalledConsumer (I := Nat))).consume ⟨[1, 2, 3], some String.length⟩ 4).start = ok (.pending k) :=
  ⟨mapErrorBulkConsumer_hangs Case.stalledConsumer_hangs, _, rfl⟩

/-! ## The functions of the traits and the pipes -/

theorem produceItem_hangs {P : Producer σ I F E} (hP : P.Hangs) (s : σ) :
    (produceItem P s).Hangs := by
  obtain ⟨h⟩ := hP
  unfold produceItem
  hangs

theorem consumeFullSlice_hangs {C : Consumer σ I F E} (hC : C.Hangs) (s : σ) (buf : List I) :
    (consumeFullSlice C s buf).Hangs := by
  have key : ∀ s i, (consumeFullSliceFrom C s i buf).Hangs := by
    induction buf with
    | nil => exact fun s i => Fut.Hangs.pure _
    | cons item rest ih =>
      intro s i
      obtain ⟨h, _⟩ := hC
      unfold consumeFullSliceFrom
      hangs
  exact key s 0

theorem overwriteFullSlice_hangs {P : Producer σ I F E} (hP : P.Hangs) (s : σ) (buf : List I) :
    (overwriteFullSlice P s buf).Hangs := by
  have key : ∀ s written, (overwriteFullSliceFrom P s written buf).Hangs := by
    induction buf with
    | nil => exact fun s i => Fut.Hangs.pure _
    | cons item rest ih =>
      intro s i
      obtain ⟨h⟩ := hP
      unfold overwriteFullSliceFrom
      hangs
  exact key s []

theorem bulkConsumeFullSlice_hangs {C : BulkConsumer σ I F E} (hC : C.Hangs) (s : σ) (buf : List I) :
    (bulkConsumeFullSlice C s buf).Hangs := by
  refine Fut.Hangs.loop (body := bulkConsumeFullSliceBody C buf) (fun x => ?_) (s, 0)
  have h := hC.bulkConsume
  unfold bulkConsumeFullSliceBody
  hangs

theorem bulkOverwriteFullSlice_hangs {P : BulkProducer σ I F E} (hP : P.Hangs) (s : σ) (buf : List I) :
    (bulkOverwriteFullSlice P s buf).Hangs := by
  refine Fut.Hangs.loop (body := bulkOverwriteFullSliceBody P) (fun x => ?_) (s, buf, 0)
  have h := hP.bulkProduce
  unfold bulkOverwriteFullSliceBody
  hangs

/-- A pending `pipe` goes on only if the producer or the consumer does. -/
theorem pipe_hangs {P : Producer σ I F E₁} {C : Consumer τ I F E₂} (hP : P.Hangs) (hC : C.Hangs) (s : σ) (t : τ) :
    (pipe P C s t).Hangs := by
  refine Fut.Hangs.loop (body := pipeBody P C) (fun x => ?_) (s, t)
  obtain ⟨hp⟩ := hP
  obtain ⟨hc, hf⟩ := hC
  unfold pipeBody
  hangs

theorem bulkPipe_hangs {P : BulkProducer σ I F E₁} {C : BulkConsumer τ I F E₂} (hP : P.Hangs) (hC : C.Hangs) (s : σ)
    (t : τ) : (bulkPipe P C s t).Hangs := by
  refine Fut.Hangs.loop (body := bulkPipeBody P C) (fun x => ?_) (s, t)
  have h1 := hP.exposeItems
  have h2 := hP.considerProduced
  have h3 := hC.bulkConsume
  have h4 := hC.toBuffered.toHangs.close
  unfold bulkPipeBody
  hangs

theorem pipeAtMost_hangs {P : Producer σ I F E₁} {C : Consumer τ I F E₂} (hP : P.Hangs) (hC : C.Hangs) (s : σ) (t : τ)
    (count : Nat) : (pipeAtMost P C s t count).Hangs := by
  refine Fut.Hangs.loop (body := pipeAtMostBody P C count) (fun x => ?_) (s, t, 0)
  obtain ⟨hp⟩ := hP
  obtain ⟨hc, hf⟩ := hC
  unfold pipeAtMostBody
  hangs

theorem bulkPipeAtMost_hangs {P : BulkProducer σ I F E₁} {C : BulkConsumer τ I F E₂} (hP : P.Hangs) (hC : C.Hangs)
    (s : σ) (t : τ) (count : Nat) :
    (bulkPipeAtMost P C s t count).Hangs := by
  refine Fut.Hangs.loop (body := bulkPipeAtMostBody P C count) (fun x => ?_) (s, t, 0)
  have h1 := hP.exposeItems
  have h2 := hP.considerProduced
  have h3 := hC.bulkConsume
  have h4 := hC.toBuffered.toHangs.close
  unfold bulkPipeAtMostBody
  hangs

/-- The producer stalls when two items have been piped. -/
example : (pipe (Case.stalled id).toProducer Case.stalledConsumer.toConsumer 0 []).Hangs ∧
    ∃ k, (pipe (Case.stalled id).toProducer Case.stalledConsumer.toConsumer 0 []).poll
      (pipe (Case.stalled id).toProducer Case.stalledConsumer.toConsumer 0 []).start = ok (.pending ⟨(2, [0, 1]), k⟩) :=
  ⟨pipe_hangs (Case.stalled_hangs id).toHangs Case.stalledConsumer_hangs.toHangs 0 [], _,
    loop_eq_of_fuel (n := 3) (body := Fut.loopPollBody _) nofun⟩

end Verif.Async
