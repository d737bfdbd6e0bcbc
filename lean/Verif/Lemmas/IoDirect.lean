import Verif.IoDirectSpec
import Verif.Lemmas.AsyncMerge

/-!
# Lemmas about readers and writers without queues
-/

namespace Verif

open Outcome

/-- The methods of `P'` on states `g s` are those of `P`. -/
structure BulkProducer.Mirrors {σ τ I F E : Type} (P' : BulkProducer τ I F E) (P : BulkProducer σ I F E) (g : σ → τ) : Prop where
  produce : ∀ s, P'.produce (g s) = (P.produce s).onState g
  slurp : ∀ s, P'.slurp (g s) = (P.slurp s).onState g
  bulkProduce : ∀ s buf, P'.bulkProduce (g s) buf = (P.bulkProduce s buf).onState g

structure BulkConsumer.Mirrors {σ τ I F E : Type} (C' : BulkConsumer τ I F E) (C : BulkConsumer σ I F E) (g : σ → τ) : Prop where
  consume : ∀ s x, C'.consume (g s) x = (C.consume s x).onState g
  close : ∀ s f, C'.close (g s) f = (C.close s f).onState g
  flush : ∀ s, C'.flush (g s) = (C.flush s).onState g
  bulkConsume : ∀ s buf, C'.bulkConsume (g s) buf = (C.bulkConsume s buf).onState g

theorem loop_onState {S T A B : Type} {b : S → Outcome (Step S A)} {b' : T → Outcome (Step T B)} (g : S → T) (h : A → B)
    (hb : ∀ s, b' (g s) = (b s).bind fun
      | .continue s => ok (.continue (g s))
      | .done a => ok (.done (h a))) (s : S) : loop b' (g s) = (loop b s).bind fun a => ok (h a) := by
  have := loop_rel (b₁ := b) (b₂ := b') (R := fun s t => t = g s) (Q := fun a c => c = h a) (fun s t hst => by
    subst hst
    rw [hb]
    rcases b s with (s | a) | _ | _
    · exact .ok (.continue rfl)
    · exact .ok (.done rfl)
    · exact .panic
    · exact .diverge) (s := s) (t := g s) rfl
  generalize loop b s = x at this
  generalize loop b' (g s) = y at this
  cases this with
  | ok hq => subst hq; rfl
  | panic => rfl
  | diverge => rfl

namespace BulkProducer.Mirrors

variable {σ τ ν I F E E₂ : Type} {P' : BulkProducer τ I F E} {P : BulkProducer σ I F E} {g : σ → τ} (h : P'.Mirrors P g)
include h

theorem callAll (ops : List (ProducerOp I)) (hops : ∀ op ∈ ops, op.Direct) (s : σ) (shown shown' : List I) :
    P'.callAll (g s) shown' ops = (P.callAll s shown ops).onState g := by
  induction ops generalizing s shown shown' with
  | nil => rfl
  | cons op ops ih =>
    have hcall : P'.call (g s) shown' op = (P.call s shown op).onState g := by
      have hd := hops op (by simp)
      cases op with
      | produce =>
        simp only [BulkProducer.call, h.produce]
        rcases P.produce s with ⟨s', (e | (x | f))⟩ | _ | _ <;> rfl
      | slurp =>
        simp only [BulkProducer.call, h.slurp]
        rcases P.slurp s with ⟨s', (e | x)⟩ | _ | _ <;> rfl
      | bulkProduce buf =>
        simp only [BulkProducer.call, h.bulkProduce]
        rcases P.bulkProduce s buf with ⟨s', (e | (x | f)), buf'⟩ | _ | _ <;> rfl
      | exposeItems => exact hd.elim
      | considerProduced k => exact hd.elim
    simp only [BulkProducer.callAll, hcall]
    rcases P.call s shown op with ⟨s', a⟩ | _ | _
    · simp only [onState, Outcome.bind] at ih ⊢
      rw [ih (fun op hop => hops op (by simp [hop])) s' a.shown a.shown]
      rcases P.callAll s' a.shown ops with ⟨s'', as⟩ | _ | _ <;> rfl
    · rfl
    · rfl

theorem produceItem (s : σ) : Verif.produceItem P'.toProducer (g s) = (Verif.produceItem P.toProducer s).onState g := by
  simp only [Verif.produceItem, h.produce, bind_eq, pure_eq]
  rcases P.produce s with ⟨s', (e | (x | f))⟩ | _ | _ <;> rfl

theorem overwriteFullSlice (s : σ) (buf : List I) :
    Verif.overwriteFullSlice P'.toProducer (g s) buf = (Verif.overwriteFullSlice P.toProducer s buf).onState g := by
  suffices hs : ∀ todo s written, overwriteFullSliceFrom P'.toProducer (g s) written todo =
      (overwriteFullSliceFrom P.toProducer s written todo).onState g from hs buf s []
  intro todo
  induction todo with
  | nil => intros; rfl
  | cons old todo ih =>
    intro s written
    simp only [overwriteFullSliceFrom, h.produce, bind_eq, pure_eq]
    rcases P.produce s with ⟨s', (e | (x | f))⟩ | _ | _
    · rfl
    · exact ih s' _
    · rfl
    · rfl
    · rfl

theorem bulkOverwriteFullSlice (s : σ) (buf : List I) :
    Verif.bulkOverwriteFullSlice P' (g s) buf = (Verif.bulkOverwriteFullSlice P s buf).onState g := by
  unfold Verif.bulkOverwriteFullSlice
  refine (loop_onState (b := bulkOverwriteFullSliceBody P) (b' := bulkOverwriteFullSliceBody P')
    (fun (s, b, n) => (g s, b, n)) (fun (s, a) => (g s, a)) ?_ (s, buf, 0)).trans rfl
  rintro ⟨s, b, n⟩
  simp only [bulkOverwriteFullSliceBody, h.bulkProduce, bind_eq, pure_eq]
  split
  · rcases P.bulkProduce s (b.drop n) with ⟨s', (e | (x | f)), buf'⟩ | _ | _ <;> rfl
  · rfl

theorem pipe (C : Consumer ν I F E₂) (s : σ) (t : ν) :
    Verif.pipe P'.toProducer C (g s) t = (Verif.pipe P.toProducer C s t).onState fun (s, t) => (g s, t) := by
  unfold Verif.pipe
  refine (loop_onState (b := pipeBody P.toProducer C) (b' := pipeBody P'.toProducer C)
    (fun (s, t) => (g s, t)) (fun ((s, t), a) => ((g s, t), a)) ?_ (s, t)).trans rfl
  rintro ⟨s, t⟩
  simp only [pipeBody, h.produce, bind_eq, pure_eq]
  rcases P.produce s with ⟨s', (e | (x | f))⟩ | _ | _
  · rfl
  · simp only [onState, Outcome.bind]
    rcases C.consume t x with ⟨t', (e | _)⟩ | _ | _ <;> rfl
  · simp only [onState, Outcome.bind]
    rcases C.close t f with ⟨t', (e | _)⟩ | _ | _ <;> rfl
  · rfl
  · rfl

theorem pipeAtMost (C : Consumer ν I F E₂) (s : σ) (t : ν) (count : Nat) :
    Verif.pipeAtMost P'.toProducer C (g s) t count =
      (Verif.pipeAtMost P.toProducer C s t count).onState fun (s, t) => (g s, t) := by
  unfold Verif.pipeAtMost
  refine (loop_onState (b := pipeAtMostBody P.toProducer C count) (b' := pipeAtMostBody P'.toProducer C count)
    (fun (s, t, n) => (g s, t, n)) (fun ((s, t), a) => ((g s, t), a)) ?_ (s, t, 0)).trans rfl
  rintro ⟨s, t, n⟩
  simp only [pipeAtMostBody, h.produce, bind_eq, pure_eq]
  split
  · rcases P.produce s with ⟨s', (e | (x | f))⟩ | _ | _
    · rfl
    · simp only [onState, Outcome.bind]
      rcases C.consume t x with ⟨t', (e | _)⟩ | _ | _ <;> rfl
    · simp only [onState, Outcome.bind]
      rcases C.close t f with ⟨t', (e | _)⟩ | _ | _ <;> rfl
    · rfl
    · rfl
  · rfl

end BulkProducer.Mirrors

namespace BulkConsumer.Mirrors

variable {σ τ ν I F E E₁ : Type} {C' : BulkConsumer τ I F E} {C : BulkConsumer σ I F E} {g : σ → τ} (h : C'.Mirrors C g)
include h

theorem callAll (ops : List (ConsumerOp I F)) (hops : ∀ op ∈ ops, op.Direct) (s : σ) (slots slots' : List I) :
    C'.callAll (g s) slots' ops = (C.callAll s slots ops).onState g := by
  induction ops generalizing s slots slots' with
  | nil => rfl
  | cons op ops ih =>
    have hcall : C'.call (g s) slots' op = (C.call s slots op).onState g := by
      have hd := hops op (by simp)
      cases op with
      | consume x =>
        simp only [BulkConsumer.call, h.consume]
        rcases C.consume s x with ⟨s', (e | x)⟩ | _ | _ <;> rfl
      | flush =>
        simp only [BulkConsumer.call, h.flush]
        rcases C.flush s with ⟨s', (e | x)⟩ | _ | _ <;> rfl
      | bulkConsume buf =>
        simp only [BulkConsumer.call, h.bulkConsume]
        rcases C.bulkConsume s buf with ⟨s', (e | x)⟩ | _ | _ <;> rfl
      | close f =>
        simp only [BulkConsumer.call, h.close]
        rcases C.close s f with ⟨s', (e | x)⟩ | _ | _ <;> rfl
      | exposeSlots => exact hd.elim
      | write ws => exact hd.elim
      | consumeSlots k => exact hd.elim
    simp only [BulkConsumer.callAll, hcall]
    rcases C.call s slots op with ⟨s', a⟩ | _ | _
    · simp only [onState, Outcome.bind] at ih ⊢
      rw [ih (fun op hop => hops op (by simp [hop])) s' a.slots a.slots]
      rcases C.callAll s' a.slots ops with ⟨s'', as⟩ | _ | _ <;> rfl
    · rfl
    · rfl

theorem consumeFullSlice (s : σ) (buf : List I) :
    Verif.consumeFullSlice C'.toConsumer (g s) buf = (Verif.consumeFullSlice C.toConsumer s buf).onState g := by
  suffices hs : ∀ buf s n, consumeFullSliceFrom C'.toConsumer (g s) n buf =
      (consumeFullSliceFrom C.toConsumer s n buf).onState g from hs buf s 0
  intro buf
  induction buf with
  | nil => intros; rfl
  | cons x buf ih =>
    intro s n
    simp only [consumeFullSliceFrom, h.consume, bind_eq, pure_eq]
    rcases C.consume s x with ⟨s', (e | _)⟩ | _ | _
    · rfl
    · exact ih s' _
    · rfl
    · rfl

theorem bulkConsumeFullSlice (s : σ) (buf : List I) :
    Verif.bulkConsumeFullSlice C' (g s) buf = (Verif.bulkConsumeFullSlice C s buf).onState g := by
  unfold Verif.bulkConsumeFullSlice
  refine (loop_onState (b := bulkConsumeFullSliceBody C buf) (b' := bulkConsumeFullSliceBody C' buf)
    (fun (s, n) => (g s, n)) (fun (s, a) => (g s, a)) ?_ (s, 0)).trans rfl
  rintro ⟨s, n⟩
  simp only [bulkConsumeFullSliceBody, h.bulkConsume, bind_eq, pure_eq]
  split
  · rcases C.bulkConsume s (buf.drop n) with ⟨s', (e | x)⟩ | _ | _ <;> rfl
  · rfl

theorem pipe (P : Producer ν I F E₁) (t : ν) (s : σ) :
    Verif.pipe P C'.toConsumer t (g s) = (Verif.pipe P C.toConsumer t s).onState fun (t, s) => (t, g s) := by
  unfold Verif.pipe
  refine (loop_onState (b := pipeBody P C.toConsumer) (b' := pipeBody P C'.toConsumer)
    (fun (t, s) => (t, g s)) (fun ((t, s), a) => ((t, g s), a)) ?_ (t, s)).trans rfl
  rintro ⟨t, s⟩
  simp only [pipeBody, bind_eq, pure_eq]
  rcases P.produce t with ⟨t', (e | (x | f))⟩ | _ | _
  · rfl
  · simp only [Outcome.bind, h.consume]
    rcases C.consume s x with ⟨s', (e | _)⟩ | _ | _ <;> rfl
  · simp only [Outcome.bind, h.close]
    rcases C.close s f with ⟨s', (e | _)⟩ | _ | _ <;> rfl
  · rfl
  · rfl

theorem pipeAtMost (P : Producer ν I F E₁) (t : ν) (s : σ) (count : Nat) :
    Verif.pipeAtMost P C'.toConsumer t (g s) count =
      (Verif.pipeAtMost P C.toConsumer t s count).onState fun (t, s) => (t, g s) := by
  unfold Verif.pipeAtMost
  refine (loop_onState (b := pipeAtMostBody P C.toConsumer count) (b' := pipeAtMostBody P C'.toConsumer count)
    (fun (t, s, n) => (t, g s, n)) (fun ((t, s), a) => ((t, g s), a)) ?_ (t, s, 0)).trans rfl
  rintro ⟨t, s, n⟩
  simp only [pipeAtMostBody, bind_eq, pure_eq]
  split
  · rcases P.produce t with ⟨t', (e | (x | f))⟩ | _ | _
    · rfl
    · simp only [Outcome.bind, h.consume]
      rcases C.consume s x with ⟨s', (e | _)⟩ | _ | _ <;> rfl
    · simp only [Outcome.bind, h.close]
      rcases C.close s f with ⟨s', (e | _)⟩ | _ | _ <;> rfl
    · rfl
    · rfl
  · rfl

theorem bulkPipe (P : BulkProducer ν I F E₁) (t : ν) (s : σ) :
    Verif.bulkPipe P C' t (g s) = (Verif.bulkPipe P C t s).onState fun (t, s) => (t, g s) := by
  unfold Verif.bulkPipe
  refine (loop_onState (b := bulkPipeBody P C) (b' := bulkPipeBody P C')
    (fun (t, s) => (t, g s)) (fun ((t, s), a) => ((t, g s), a)) ?_ (t, s)).trans rfl
  rintro ⟨t, s⟩
  simp only [bulkPipeBody, bind_eq, pure_eq]
  rcases P.exposeItems t with ⟨t', (e | (xs | f))⟩ | _ | _
  · rfl
  · simp only [Outcome.bind, h.bulkConsume]
    rcases C.bulkConsume s xs with ⟨s', (e | n)⟩ | _ | _
    · rfl
    · simp only [onState, Outcome.bind]
      rcases P.considerProduced t' n with ⟨t'', (e | _)⟩ | _ | _ <;> rfl
    · rfl
    · rfl
  · simp only [Outcome.bind, h.close]
    rcases C.close s f with ⟨s', (e | _)⟩ | _ | _ <;> rfl
  · rfl
  · rfl

theorem bulkPipeAtMost (P : BulkProducer ν I F E₁) (t : ν) (s : σ) (count : Nat) :
    Verif.bulkPipeAtMost P C' t (g s) count =
      (Verif.bulkPipeAtMost P C t s count).onState fun (t, s) => (t, g s) := by
  unfold Verif.bulkPipeAtMost
  refine (loop_onState (b := bulkPipeAtMostBody P C count) (b' := bulkPipeAtMostBody P C' count)
    (fun (t, s, n) => (t, g s, n)) (fun ((t, s), a) => ((t, g s), a)) ?_ (t, s, 0)).trans rfl
  rintro ⟨t, s, n⟩
  simp only [bulkPipeAtMostBody, bind_eq, pure_eq]
  split
  · rcases P.exposeItems t with ⟨t', (e | (xs | f))⟩ | _ | _
    · rfl
    · simp only [Outcome.bind, h.bulkConsume]
      rcases C.bulkConsume s (xs.take (min (count - n) xs.length)) with ⟨s', (e | k)⟩ | _ | _
      · rfl
      · simp only [onState, Outcome.bind]
        rcases P.considerProduced t' k with ⟨t'', (e | _)⟩ | _ | _ <;> rfl
      · rfl
      · rfl
    · simp only [Outcome.bind, h.close]
      rcases C.close s f with ⟨s', (e | _)⟩ | _ | _ <;> rfl
    · rfl
    · rfl
  · rfl

end BulkConsumer.Mirrors

theorem reader_mirrors {ρ κ : Type} (Rd : AsyncRead ρ) {Q : Queue κ UInt8} {q : κ} (hq : Q.SaysEmpty q) :
    (readerProducer Rd Q).Mirrors (bareReader Rd) fun r => ⟨r, q⟩ where
  produce r := by
    simp only [readerProducer, bareReader, hq.dequeue, readByte, bind_eq, pure_eq, Outcome.bind]
    rcases readExact Rd r [17] with ⟨r', (e | _), buf⟩ | _ | _
    · by_cases he : e.kind = .unexpectedEof <;> simp [he, onState, Outcome.bind]
    · simp only [onState, Outcome.bind]
    · simp only [onState, Outcome.bind]
    · simp only [onState, Outcome.bind]
  slurp r := rfl
  bulkProduce r buf := by
    simp only [readerProducer, bareReader, hq.isEmpty, bind_eq, pure_eq, if_true]
    rcases Rd.read r buf with ⟨r', (e | (_ | n)), buf⟩ | _ | _ <;> rfl

theorem flushInternalBuffer_of_saysEmpty {ω κ : Type} (W : AsyncWrite ω) {Q : Queue κ UInt8} {q : κ} (hq : Q.SaysEmpty q) (w : ω) :
    (⟨w, q⟩ : QueueWriter ω κ).flushInternalBuffer W Q = ok (⟨w, q⟩, .ok ()) := by
  unfold QueueWriter.flushInternalBuffer
  rw [loop_unfold]
  simp only [QueueWriter.flushBody, hq.exposeItems, bind_eq, pure_eq, Outcome.bind]

theorem writer_mirrors {ω κ : Type} (W : AsyncWrite ω) {Q : Queue κ UInt8} {q : κ} (hq : Q.SaysEmpty q) :
    (writerConsumer W Q).Mirrors (bareWriter W) fun w => ⟨w, q⟩ where
  consume w x := by
    simp only [writerConsumer, bareWriter, flushInternalBuffer_of_saysEmpty W hq, bind_eq, pure_eq, Outcome.bind, onState]
  close w f := by
    simp only [writerConsumer, bareWriter, flushInternalBuffer_of_saysEmpty W hq, bind_eq, pure_eq, Outcome.bind, onState]
  flush w := by
    simp only [writerConsumer, bareWriter, flushInternalBuffer_of_saysEmpty W hq, bind_eq, pure_eq, Outcome.bind, onState]
  bulkConsume w buf := by
    simp only [writerConsumer, bareWriter, flushInternalBuffer_of_saysEmpty W hq, bind_eq, pure_eq, onState]
    simp only [Outcome.bind]
    rcases W.write w buf with ⟨w', (e | (_ | n))⟩ | _ | _ <;> rfl

end Verif
