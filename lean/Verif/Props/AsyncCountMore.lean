import Verif.Props.AsyncCount
import Verif.Model.AsyncScramblers
import Verif.Model.AsyncIo
import Verif.Model.AsyncCodec
import Verif.Model.AsyncTestDoubles
import Verif.Lemmas.TestDoubles

/-!
# How often the futures of scramblers, readers, writers, codecs and test doubles are pending (C63)
-/

namespace Verif.Async

open Outcome

variable {σ τ I F E : Type} {w : σ → Nat}

/-! ## Scramblers -/

theorem ProducerScrambler.advance_counts (s : ProducerScrambler σ I F E) :
    (MonadLiftT.monadLift s.advance : Fut _).Always fun n s' => w s'.inner = w s.inner + n := by
  refine Fut.Always.lift fun a h => ?_
  rcases hm : mod (s.index + 1) s.operations.length with i | _ | _ <;>
    rw [Verif.ProducerScrambler.advance, hm] at h <;> cases h
  rfl

theorem ConsumerScrambler.advance_counts (s : ConsumerScrambler σ I) :
    (MonadLiftT.monadLift s.advance : Fut _).Always fun n s' => w s'.inner = w s.inner + n := by
  refine Fut.Always.lift fun a h => ?_
  rcases hm : mod (s.index + 1) s.operations.length with i | _ | _ <;>
    rw [Verif.ConsumerScrambler.advance, hm] at h <;> cases h
  rfl

theorem ProducerScrambler.performOperation_counts {P : BulkProducer σ I F E} (hP : P.Counts w) (debug : Bool)
    (s : ProducerScrambler σ I F E) :
    (ProducerScrambler.performOperation debug P s).Always fun n r => w r.1.inner = w s.inner + n := by
  have h1 := hP.toBuffered.toCounts.produce
  have h2 := hP.exposeItems
  have h3 := hP.considerProduced
  have h4 := hP.toBuffered.slurp
  have h5 := @ProducerScrambler.advance_counts σ I F E w
  unfold ProducerScrambler.performOperation
  counts

theorem ProducerScrambler.fillQueue_counts {P : BulkProducer σ I F E} (hP : P.Counts w) (debug : Bool)
    (s : ProducerScrambler σ I F E) :
    (ProducerScrambler.fillQueue debug P s).Always fun n r => w r.1.inner = w s.inner + n := by
  have h1 : ∀ s, (Fut.loop (ProducerScrambler.fillBody debug P) s).Always fun n r => w r.inner = w s.inner + n := by
    refine Fut.Always.loop (body := ProducerScrambler.fillBody debug P) (m := fun s => w s.inner) (m' := fun s => w s.inner)
      fun s => ?_
    have h := ProducerScrambler.performOperation_counts hP debug
    unfold ProducerScrambler.fillBody
    counts
  unfold ProducerScrambler.fillQueue
  counts

theorem producerScrambler_counts {P : BulkProducer σ I F E} (hP : P.Counts w) (debug : Bool) :
    (producerScrambler debug P).Counts (fun s => w s.inner) := by
  have hf := ProducerScrambler.fillQueue_counts hP debug
  have hs := hP.toBuffered.slurp
  have hi : ∀ s : ProducerScrambler σ I F E,
      (ProducerScrambler.slurpInner P s).Always fun n r => w r.1.inner = w s.inner + n := by
    intro s
    unfold ProducerScrambler.slurpInner
    counts
  have he : ∀ s, ((producerScrambler debug P).exposeItems s).Always fun n r => w r.1.inner = w s.inner + n := by
    intro s
    dsimp only [producerScrambler, ProducerScrambler.exposeItems]
    counts
  have hc : ∀ s amount, ((producerScrambler debug P).considerProduced s amount).Always fun n r => w r.1.inner = w s.inner + n := by
    intro s amount
    dsimp only [producerScrambler, ProducerScrambler.considerProduced]
    counts
  refine ⟨⟨⟨fun s => ?_⟩, fun s => ?_⟩, he, hc,
    bulkProduceDefault_counts (w := fun s : ProducerScrambler σ I F E => w s.inner) he hc⟩
  · dsimp only [producerScrambler, ProducerScrambler.produce]
    counts
  · dsimp only [producerScrambler, ProducerScrambler.slurp]
    counts

theorem ConsumerScrambler.performOperation_counts {C : BulkConsumer σ I F E} (hC : C.Counts w) (debug : Bool)
    (s : ConsumerScrambler σ I) :
    (ConsumerScrambler.performOperation debug C s).Always fun n r => w r.1.inner = w s.inner + n := by
  have h1 := hC.toBuffered.toCounts.consume
  have h2 := hC.exposeSlots
  have h3 := hC.consumeSlots
  have h4 := hC.toBuffered.flush
  have h5 := @ConsumerScrambler.advance_counts σ I w
  have hw := hC.writeSlots
  unfold ConsumerScrambler.performOperation
  counts

theorem ConsumerScrambler.drain_counts {C : BulkConsumer σ I F E} (hC : C.Counts w) (debug : Bool) (s : ConsumerScrambler σ I) :
    (ConsumerScrambler.drain debug C s).Always fun n r => w r.1.inner = w s.inner + n := by
  refine Fut.Always.loop (body := ConsumerScrambler.drainBody debug C) (m := fun s => w s.inner) (m' := fun r => w r.1.inner)
    (fun s => ?_) s
  have h := ConsumerScrambler.performOperation_counts hC debug
  unfold ConsumerScrambler.drainBody
  counts

theorem consumerScrambler_counts {C : BulkConsumer σ I F E} (hC : C.Counts w) (debug : Bool) :
    (consumerScrambler debug C).Counts (fun s => w s.inner) := by
  have hd := ConsumerScrambler.drain_counts hC debug
  have h1 := hC.toBuffered.toCounts.close
  have h2 := hC.toBuffered.flush
  have he : ∀ s, ((consumerScrambler debug C).exposeSlots s).Always fun n r => w r.1.inner = w s.inner + n := by
    intro s
    dsimp only [consumerScrambler, ConsumerScrambler.exposeSlots]
    counts
  have hc : ∀ s amount, ((consumerScrambler debug C).consumeSlots s amount).Always fun n r => w r.1.inner = w s.inner + n := by
    intro s amount
    dsimp only [consumerScrambler, ConsumerScrambler.consumeSlots]
    counts
  have hw : ∀ s ws, w ((consumerScrambler debug C).writeSlots s ws).inner = w s.inner := fun _ _ => rfl
  refine ⟨⟨⟨fun s item => ?_, fun s fin => ?_⟩, fun s => ?_⟩, he, hw, hc,
    bulkConsumeDefault_counts (w := fun s : ConsumerScrambler σ I => w s.inner) he hw hc⟩
  · dsimp only [consumerScrambler, ConsumerScrambler.consume]
    counts
  · dsimp only [consumerScrambler, ConsumerScrambler.close]
    counts
  · dsimp only [consumerScrambler, ConsumerScrambler.flush]
    counts

/-! ## Readers and writers -/

structure AsyncRead.Counts (Rd : AsyncRead σ) (w : σ → Nat) : Prop where
  read : ∀ r buf, (Rd.read r buf).Always fun n x => w x.1 = w r + n

structure AsyncBufRead.Counts (Rd : AsyncBufRead σ) (w : σ → Nat) : Prop extends Rd.toAsyncRead.Counts w where
  fillBuf : ∀ r, (Rd.fillBuf r).Always fun n x => w x.1 = w r + n
  consume : ∀ r amount r', Rd.consume r amount = ok r' → w r' = w r

structure AsyncWrite.Counts (W : AsyncWrite σ) (w : σ → Nat) : Prop where
  write : ∀ s buf, (W.write s buf).Always fun n x => w x.1 = w s + n
  flush : ∀ s, (W.flush s).Always fun n x => w x.1 = w s + n
  close : ∀ s, (W.close s).Always fun n x => w x.1 = w s + n

theorem readByte_counts {Rd : AsyncRead σ} (h : Rd.Counts w) (r : σ) (init : UInt8) :
    (readByte Rd r init).Always fun n x => w x.1 = w r + n := by
  have hr : ∀ r buf, (readExact Rd r buf).Always fun n x => w x.1 = w r + n := by
    intro r buf
    refine Fut.Always.loop (body := readExactBody Rd) (m := fun x => w x.1) (m' := fun x => w x.1) (fun x => ?_) (r, [], buf)
    have h := h.read
    unfold readExactBody
    counts
  unfold readByte
  counts

theorem writeAll_counts {W : AsyncWrite σ} (h : W.Counts w) (s : σ) (buf : List UInt8) :
    (writeAll W s buf).Always fun n x => w x.1 = w s + n := by
  refine Fut.Always.loop (body := writeAllBody W) (m := fun x => w x.1) (m' := fun x => w x.1) (fun x => ?_) (s, buf)
  have h := h.write
  unfold writeAllBody
  counts

theorem bufReaderProducer_counts {Rd : AsyncBufRead σ} (h : Rd.Counts w) : (bufReaderProducer Rd).Counts w := by
  have h1 := readByte_counts h.toCounts
  have h2 := h.fillBuf
  have h3 := h.toCounts.read
  have h4 : ∀ r amount, (MonadLiftT.monadLift (Rd.consume r amount) : Fut _).Always fun n r' => w r' = w r + n :=
    fun r amount => Fut.Always.lift fun r' hr => h.consume r amount r' hr
  refine ⟨⟨⟨fun s => h1 s 0⟩, fun s => ?_⟩, fun s => ?_, fun s amount => ?_, fun s buf => ?_⟩ <;> dsimp only [bufReaderProducer] <;>
    counts

theorem readerProducer_counts {Rd : AsyncRead σ} (h : Rd.Counts w) (Q : Queue τ UInt8) :
    (readerProducer Rd Q).Counts (fun s => w s.reader) := by
  have h1 := readByte_counts h
  have h2 := h.read
  refine ⟨⟨⟨fun s => ?_⟩, fun s => ?_⟩, fun s => ?_, fun s amount => ?_, fun s buf => ?_⟩ <;> dsimp only [readerProducer] <;>
    counts

theorem writerConsumer_counts {W : AsyncWrite σ} (h : W.Counts w) (Q : Queue τ UInt8) :
    (writerConsumer W Q).Counts (fun s => w s.writer) := by
  have h1 := writeAll_counts h
  have hf : ∀ s, (QueueWriter.flushInternalBuffer W Q s).Always fun n r => w r.1.writer = w s.writer + n := by
    refine Fut.Always.loop (body := QueueWriter.flushBody W Q) (m := fun s => w s.writer) (m' := fun r => w r.1.writer) fun s => ?_
    unfold QueueWriter.flushBody
    counts
  obtain ⟨h2, h3, h4⟩ := h
  refine ⟨⟨⟨fun s item => ?_, fun s fin => ?_⟩, fun s => ?_⟩, fun s => ?_, fun s ws => rfl, fun s amount => ?_, fun s buf => ?_⟩ <;>
    dsimp only [writerConsumer] <;> counts

/-! ## Codecs -/

/-- Encoding is pending exactly as often as the consumer of the bytes. -/
def EncodeFn.Counts {T : Type} (f : EncodeFn T) : Prop :=
  ∀ {σ F E : Type} (C : BulkConsumer σ UInt8 F E) (w : σ → Nat), C.Counts w → ∀ s x, (f C s x).Always fun n r => w r.1 = w s + n

def DecodeFn.Counts {T R : Type} (f : DecodeFn T R) : Prop :=
  ∀ {σ F E : Type} (P : BulkProducer σ UInt8 F E) (w : σ → Nat), P.Counts w → ∀ s, (f P s).Always fun n r => w r.1 = w s + n

theorem FixedInt.encode_counts {T : Type} {N : Nat} (i : FixedInt T N) (o : ByteOrder) : EncodeFn.Counts (FixedInt.encode i o) := by
  intro σ F E C w hC s x
  have h := bulkConsumeFullSlice_counts hC
  unfold FixedInt.encode
  counts

theorem FixedInt.decode_counts {T : Type} {N : Nat} (i : FixedInt T N) (o : ByteOrder) : DecodeFn.Counts (FixedInt.decode i o) := by
  intro σ F E P w hP s
  have h := bulkOverwriteFullSlice_counts hP
  unfold FixedInt.decode
  counts

variable {T R RC Rel B : Type}

theorem encoder_counts {t : Encodable T} (ht : EncodeFn.Counts t.encode) {C : BulkConsumer σ UInt8 F E} (hC : C.Counts w) :
    (encoder t C).Counts w :=
  ⟨⟨ht C w hC, hC.toBuffered.toCounts.close⟩, hC.toBuffered.flush⟩

theorem decoderProduce_counts {f : DecodeFn T R} (hf : DecodeFn.Counts f) {P : BulkProducer σ UInt8 F E} (hP : P.Counts w)
    (s : σ) : (decoderProduce f P s).Always fun n r => w r.1 = w s + n := by
  have h1 := hf P w hP
  clear hf
  have h2 := hP.exposeItems
  unfold decoderProduce
  counts

theorem decoderSlurp_counts {P : BulkProducer σ UInt8 F E} (hP : P.Counts w) (s : σ) :
    (decoderSlurp (R := R) P s).Always fun n r => w r.1 = w s + n := by
  have h := hP.toBuffered.slurp
  unfold decoderSlurp
  counts

theorem decoder_counts {t : Decodable T R} (ht : DecodeFn.Counts t.decode) {P : BulkProducer σ UInt8 F E} (hP : P.Counts w) :
    (decoder t P).Counts w :=
  ⟨⟨decoderProduce_counts ht hP⟩, decoderSlurp_counts hP⟩

theorem canonicDecoder_counts {t : DecodableCanonic T R RC} (ht : DecodeFn.Counts t.decodeCanonic) {P : BulkProducer σ UInt8 F E}
    (hP : P.Counts w) : (canonicDecoder t P).Counts w :=
  ⟨⟨decoderProduce_counts ht hP⟩, decoderSlurp_counts hP⟩

theorem relativeEncoder_counts {t : RelativeEncodable T Rel} (ht : ∀ r, EncodeFn.Counts (t.relativeEncode r)) (borrow : B → Rel)
    {C : BulkConsumer σ UInt8 F E} (hC : C.Counts w) : (relativeEncoder t borrow C).Counts (fun s => w s.inner) := by
  have h1 := fun r => ht r C w hC
  clear ht
  have h2 := hC.toBuffered.toCounts.close
  have h3 := hC.toBuffered.flush
  refine ⟨⟨fun s x => ?_, fun s fin => ?_⟩, fun s => ?_⟩ <;> dsimp only [relativeEncoder] <;> counts

theorem relativeDecoder_counts {t : RelativeDecodable T Rel R} (ht : ∀ r, DecodeFn.Counts (t.relativeDecode r)) (borrow : B → Rel)
    {P : BulkProducer σ UInt8 F E} (hP : P.Counts w) : (relativeDecoder t borrow P).Counts (fun s => w s.inner) := by
  have h1 := fun r => decoderProduce_counts (ht r) hP
  have h2 := decoderSlurp_counts (R := R) hP
  refine ⟨⟨fun s => ?_⟩, fun s => ?_⟩ <;> dsimp only [relativeDecoder] <;> counts

theorem relativeCanonicDecoder_counts {t : RelativeDecodableCanonic T Rel R RC}
    (ht : ∀ r, DecodeFn.Counts (t.relativeDecodeCanonic r)) (borrow : B → Rel) {P : BulkProducer σ UInt8 F E} (hP : P.Counts w) :
    (relativeCanonicDecoder t borrow P).Counts (fun s => w s.inner) := by
  have h1 := fun r => decoderProduce_counts (ht r) hP
  have h2 := decoderSlurp_counts (R := RC) hP
  refine ⟨⟨fun s => ?_⟩, fun s => ?_⟩ <;> dsimp only [relativeCanonicDecoder] <;> counts

/-! ## Test doubles -/

theorem TestYielder.maybeYield_counts (y : TestYielder) :
    (TestYielder.maybeYield y).Always fun n y' => y'.suspensions = y.suspensions + n := by
  have hr : ∀ (k y' : TestYielder), (TestYielder.maybeYield y).poll k = ok (.ready y') → y'.suspensions = k.suspensions := by
    intro k p
    simp only [TestYielder.maybeYield, Verif.TestYielder.poll]
    rcases Outcome.index k.pattern k.index with (_ | _) | _ | _ <;>
      rcases Outcome.mod (k.index + 1) k.pattern.length with j | _ | _ <;> intro hp <;> cases hp
    rfl
  have hp : ∀ (k k' : TestYielder), (TestYielder.maybeYield y).poll k = ok (.pending k') →
      k'.suspensions = k.suspensions + 1 := by
    intro k p
    simp only [TestYielder.maybeYield, Verif.TestYielder.poll]
    rcases Outcome.index k.pattern k.index with (_ | _) | _ | _ <;>
      rcases Outcome.mod (k.index + 1) k.pattern.length with j | _ | _ <;> intro hp <;> cases hp
    rfl
  exact fun n y' h => Fut.Ends.measure (m := Verif.TestYielder.suspensions) (m' := Verif.TestYielder.suspensions) hr hp h

theorem maybeYield_counts (y : Option TestYielder) :
    (maybeYield y).Always fun n y' => suspensions y' = suspensions y + n := by
  rcases y with _ | y
  · exact Fut.Always.pure rfl
  · have h := TestYielder.maybeYield_counts
    unfold maybeYield
    refine Fut.Always.bind ((h y).mono fun n y' hy => Fut.Always.pure ?_)
    simpa [suspensions] using hy

theorem TestProducer.takeError_counts (s : TestProducer I F E) :
    (MonadLiftT.monadLift s.takeError : Fut _).Always fun n r => suspensions r.1.yielder = suspensions s.yielder + n := by
  refine Fut.Always.lift fun a h => ?_
  revert h
  unfold TestProducer.takeError
  rcases s.remaining with r | _ | _
  · show (if r.isEmpty then _ else _) = _ → _
    split
    · rcases s.last with _ | _ | _ <;> intro h <;> cases h <;> rfl
    · intro h; cases h; rfl
  · exact nofun
  · exact nofun

/-- The methods of `TestProducer` are pending exactly as often as its yielder counts. -/
theorem testProducer_counts (test : Bool) :
    (TestProducer.producer test I F E).Counts (fun s => suspensions s.yielder) := by
  have h := maybeYield_counts
  have ht := @TestProducer.takeError_counts I F E
  have he : ∀ s, ((TestProducer.producer test I F E).exposeItems s).Always fun n r =>
      suspensions r.1.yielder = suspensions s.yielder + n := by
    intro s
    dsimp only [TestProducer.producer, TestProducer.exposeItems]
    counts
  have hc : ∀ s amount, ((TestProducer.producer test I F E).considerProduced s amount).Always fun n r =>
      suspensions r.1.yielder = suspensions s.yielder + n := by
    intro s amount
    dsimp only [TestProducer.producer, TestProducer.considerProduced]
    counts
  refine ⟨⟨⟨fun s => ?_⟩, fun s => ?_⟩, he, hc,
    bulkProduceDefault_counts (w := fun s : TestProducer I F E => suspensions s.yielder) he hc⟩
  · dsimp only [TestProducer.producer, TestProducer.produce]
    counts
  · dsimp only [TestProducer.producer, TestProducer.slurp]
    counts

/-- `TestProducerBuilder::new(vec![4, 5], Ok(())).yield_pattern(vec![true]).build()` -/
def Case.yielding : TestProducer Nat Unit String := .new [4, 5] (.ok ()) [] (some [true])

/-- A `TestProducer` that yields once before each answer. -/
example : ∃ s', Fut.Ends ((TestProducer.producer true Nat Unit String).produce (Case.yielding)).poll
    ((TestProducer.producer true Nat Unit String).produce (Case.yielding)).start 1 (s', .ok (.inl 4)) :=
  ⟨_, .pending rfl (.ready rfl)⟩

theorem TestConsumer.enter_counts (s : TestConsumer I F E) :
    (TestConsumer.enter s).Always fun n r => suspensions r.1.yielder = suspensions s.yielder + n := by
  have h := maybeYield_counts
  have hc : ∀ s : TestConsumer I F E, (MonadLiftT.monadLift s.checkError : Fut _).Always fun n r =>
      suspensions r.1.yielder = suspensions s.yielder + n := by
    intro s
    refine Fut.Always.lift fun a h => ?_
    revert h
    unfold TestConsumer.checkError
    split
    · rcases s.error with _ | _ <;> intro h <;> cases h
      rfl
    · intro h; cases h; rfl
  unfold TestConsumer.enter
  counts

theorem TestConsumer.nextSize_counts (s : TestConsumer I F E) :
    (MonadLiftT.monadLift s.nextSize : Fut _).Always fun n r => suspensions r.1.yielder = suspensions s.yielder + n := by
  refine Fut.Always.lift fun a h => ?_
  revert h
  unfold TestConsumer.nextSize
  split
  · intro h; cases h; rfl
  · rename_i sizes _
    rcases sizes.next with ⟨sizes, n⟩ | _ | _ <;> intro h <;> cases h
    rfl

theorem testConsumer_counts [Inhabited I] (test : Bool) :
    (TestConsumer.consumer test I F E).Counts (fun s => suspensions s.yielder) := by
  have h := @TestConsumer.enter_counts I F E
  have hn := @TestConsumer.nextSize_counts I F E
  have he : ∀ s, ((TestConsumer.consumer test I F E).exposeSlots s).Always fun n r =>
      suspensions r.1.yielder = suspensions s.yielder + n := by
    intro s
    dsimp only [TestConsumer.consumer, TestConsumer.exposeSlots]
    counts
  have hc : ∀ s amount, ((TestConsumer.consumer test I F E).consumeSlots s amount).Always fun n r =>
      suspensions r.1.yielder = suspensions s.yielder + n := by
    intro s amount
    dsimp only [TestConsumer.consumer, TestConsumer.consumeSlots]
    counts
  refine ⟨⟨⟨fun s item => ?_, fun s fin => ?_⟩, fun s => ?_⟩, he, fun _ _ => rfl, hc,
    bulkConsumeDefault_counts (w := fun s : TestConsumer I F E => suspensions s.yielder) he (fun _ _ => rfl) hc⟩
  · dsimp only [TestConsumer.consumer, TestConsumer.consume]
    counts
  · dsimp only [TestConsumer.consumer, TestConsumer.close]
    counts
  · dsimp only [TestConsumer.consumer, TestConsumer.flush]
    counts

/-- `TestConsumerBuilder::new("no", 9).yield_pattern(vec![true, false, false]).build()` -/
def Case.yieldingConsumer : TestConsumer Nat Unit String := .new "no" 9 [] (some [true, false, false])

/-- Of three items the first and the third are consumed by futures that are pending once. -/
example : ∃ s', Fut.Ends (consumeFullSlice (TestConsumer.consumer true Nat Unit String).toConsumer Case.yieldingConsumer [1, 2, 3]).poll
    (consumeFullSlice (TestConsumer.consumer true Nat Unit String).toConsumer Case.yieldingConsumer [1, 2, 3]).start 2 (s', .ok ()) :=
  ⟨_, .pending rfl (.pending rfl (.ready rfl))⟩

/-! ## Any producer or consumer can be made to count -/

/-- Counts how often the future is pending, starting at `k`. -/
def Fut.counted {σ A : Type} (k : Nat) (f : Fut (σ × A)) : Fut ((σ × Nat) × A) where
  κ := f.κ × Nat
  start := (f.start, k)
  poll x := do
    match ← f.poll x.1 with
    | .pending k => return .pending (k, x.2 + 1)
    | .ready (s, a) => return .ready ((s, x.2), a)

theorem Fut.counted_ends {σ A : Type} {f : Fut (σ × A)} {k n : Nat} {s : σ} {a : A} {c : Nat} :
    Fut.Ends (Fut.counted k f).poll (Fut.counted k f).start n ((s, c), a) ↔ Fut.Ends f.poll f.start n (s, a) ∧ c = k + n := by
  have key : ∀ (poll : f.κ × Nat → Outcome (Poll (f.κ × Nat) ((σ × Nat) × A))),
      (∀ x, poll x = (do
        match ← f.poll x.1 with
        | .pending k => return .pending (k, x.2 + 1)
        | .ready (s, a) => return .ready ((s, x.2), a))) →
      ∀ k₀ k n, Fut.Ends poll (k₀, k) n ((s, c), a) ↔ Fut.Ends f.poll k₀ n (s, a) ∧ c = k + n := by
    intro poll hpoll k₀ k n
    induction n generalizing k₀ k with
    | zero =>
      constructor
      · intro h
        cases h with
        | ready h =>
          rw [hpoll] at h
          rcases hq : f.poll k₀ with (k' | ⟨s', a'⟩) | _ | _ <;> rw [hq] at h <;> cases h
          exact ⟨.ready hq, rfl⟩
      · rintro ⟨h, rfl⟩
        cases h with
        | ready h => exact .ready (by rw [hpoll, h]; rfl)
    | succ n ih =>
      constructor
      · intro h
        cases h with
        | pending h hk =>
          rw [hpoll] at h
          rcases hq : f.poll k₀ with (k' | ⟨s', a'⟩) | _ | _ <;> rw [hq] at h <;> cases h
          obtain ⟨h1, h2⟩ := (ih k' (k + 1)).mp hk
          exact ⟨.pending hq h1, by omega⟩
      · rintro ⟨h, hc⟩
        cases h with
        | pending h hk =>
          exact .pending (by rw [hpoll, h]; rfl) ((ih _ (k + 1)).mpr ⟨hk, by omega⟩)
  exact key _ (fun _ => rfl) f.start k n

/-- The same producer, which also counts how often it is pending. -/
def BulkProducer.counted (P : BulkProducer σ I F E) : BulkProducer (σ × Nat) I F E where
  produce s := Fut.counted s.2 (P.produce s.1)
  slurp s := Fut.counted s.2 (P.slurp s.1)
  exposeItems s := Fut.counted s.2 (P.exposeItems s.1)
  considerProduced s amount := Fut.counted s.2 (P.considerProduced s.1 amount)
  bulkProduce s buf := Fut.counted s.2 (P.bulkProduce s.1 buf)

/-- The same consumer, which also counts how often it is pending. -/
def BulkConsumer.counted (C : BulkConsumer σ I F E) : BulkConsumer (σ × Nat) I F E where
  consume s item := Fut.counted s.2 (C.consume s.1 item)
  close s fin := Fut.counted s.2 (C.close s.1 fin)
  flush s := Fut.counted s.2 (C.flush s.1)
  exposeSlots s := Fut.counted s.2 (C.exposeSlots s.1)
  writeSlots s items := (C.writeSlots s.1 items, s.2)
  consumeSlots s amount := Fut.counted s.2 (C.consumeSlots s.1 amount)
  bulkConsume s buf := Fut.counted s.2 (C.bulkConsume s.1 buf)

theorem Fut.counted_always {σ A : Type} (k : Nat) (f : Fut (σ × A)) : (Fut.counted k f).Always fun n r => r.1.2 = k + n := by
  rintro n ⟨⟨s, c⟩, a⟩ h
  exact (Fut.counted_ends.mp h).2

theorem BulkProducer.counted_counts (P : BulkProducer σ I F E) : P.counted.Counts Prod.snd :=
  ⟨⟨⟨fun s => Fut.counted_always s.2 _⟩, fun s => Fut.counted_always s.2 _⟩, fun s => Fut.counted_always s.2 _,
    fun s _ => Fut.counted_always s.2 _, fun s _ => Fut.counted_always s.2 _⟩

theorem BulkConsumer.counted_counts (C : BulkConsumer σ I F E) : C.counted.Counts Prod.snd :=
  ⟨⟨⟨fun s _ => Fut.counted_always s.2 _, fun s _ => Fut.counted_always s.2 _⟩, fun s => Fut.counted_always s.2 _⟩,
    fun s => Fut.counted_always s.2 _, fun _ _ => rfl, fun s _ => Fut.counted_always s.2 _, fun s _ => Fut.counted_always s.2 _⟩

/-- With counters that start at 0: `bulk_pipe` is pending exactly as often as the two counters count together. -/
theorem bulkPipe_counted {E₁ E₂ : Type} (P : BulkProducer σ I F E₁) (C : BulkConsumer τ I F E₂) (s : σ) (t : τ) :
    (bulkPipe P.counted C.counted (s, 0) (t, 0)).Always fun n r => r.1.1.2 + r.1.2.2 = n :=
  (bulkPipe_counts P.counted_counts C.counted_counts (s, 0) (t, 0)).mono fun n r h => by simpa using h

end Verif.Async
