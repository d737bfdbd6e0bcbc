import Verif.Lemmas.WordScramblers
import Verif.Props.WordTest
import Verif.Props.Scramblers
import Verif.Props.Io

/-!
# C64: the two `BulkScrambler`s, and the IO adaptors, with machine arithmetic
-/

namespace Verif

open Outcome

section

variable {σ I F E : Type}

/-! ## Producer -/

/-- **C64, producer `BulkScrambler`** does not overflow, whatever it wraps: the queue contains at most half of `usize::MAX` items, and
the operations (to which one may have to be appended) fit in memory. -/
theorem word_producer_scrambler_same (w : Word) (debug : Bool) (P : BulkProducer σ I F E) (inner : σ) (ops : List ScrambleProduce)
    (cap : Nat) (tmp : Nat → I) (hw : w.Fits cap) (ho : ops.length + 1 < w.size) :
    (wordProducerScrambler w debug P).Same (producerScrambler debug P) (.new inner ops cap tmp) := by
  refine BulkProducer.same_of_default rfl rfl fun handed s shown hr => ?_
  have h := (ProducerScrambler.keeps hw debug).runs rfl (ProducerScrambler.fits_new w inner cap tmp ho) hr rfl
  exact ⟨(ProducerScrambler.produce_agree hw debug h).1, (ProducerScrambler.slurp_agree hw debug h).1,
    (ProducerScrambler.expose_agree hw debug h).1, fun k hk => (ProducerScrambler.consider_agree hw debug h hk).1⟩

/-- Even around a producer that is not lawful. -/
example : (wordProducerScrambler .checked64 true zeros).Same (producerScrambler true zeros)
    (.new () [.slurp, .considerProduced ⟨5, by decide⟩] 2048 (fun _ => 0)) :=
  word_producer_scrambler_same _ _ _ _ _ _ _ ⟨by decide, by decide⟩ (by decide)

/-- If it is not slurped (see `producer_scrambler_plays_without_slurp`). -/
theorem word_producer_scrambler_plays_without_slurp (w : Word) (debug : Bool) {P : BulkProducer σ I F E} {s : σ} {c : Script I F E}
    (h : BulkPlays P s c) (ops : List ScrambleProduce) {cap : Nat} (hcap : 0 < cap) (tmp : Nat → I) (hw : w.Fits cap)
    (ho : ops.length + 1 < w.size) :
    BulkPlays (wordProducerScrambler w debug P).noSlurp (ProducerScrambler.new s ops cap tmp) c := by
  refine BulkProducer.Same.plays ?_ (producer_scrambler_plays_without_slurp debug h ops hcap tmp)
  refine BulkProducer.same_of_default rfl rfl fun handed t shown hr => ?_
  have hK : (producerScrambler debug P).noSlurp.KeepsInv (ProducerScrambler.Fits w cap) :=
    { ProducerScrambler.keeps hw debug with
      slurp := by rintro s n s' h ⟨⟩; exact h.forget }
  have h := hK.runs rfl (ProducerScrambler.fits_new w s cap tmp ho) hr rfl
  exact ⟨(ProducerScrambler.produce_agree hw debug h).1, rfl,
    (ProducerScrambler.expose_agree hw debug h).1, fun k hk => (ProducerScrambler.consider_agree (P := P) hw debug h hk).1⟩

/-- With machine arithmetic in the wrapped producer, too. -/
example : BulkPlays (wordProducerScrambler .wrapping64 true (WordTestProducer.producer .wrapping64 true Nat Unit String)).noSlurp
    (ProducerScrambler.new (.new [1, 2, 3] (.error "bad") [⟨2, by decide⟩] (some [true]))
      [.slurp, .considerProduced ⟨5, by decide⟩, .produce] 2048 (fun _ => 0))
    (Script.ofList [1, 2, 3] (.error "bad")) :=
  word_producer_scrambler_plays_without_slurp _ _ (word_test_producer_plays _ _ _ _ _ _ (by decide) (by decide) (by rintro _ ⟨⟩; decide))
    _ (by decide) _ ⟨by decide, by decide⟩ (by decide)

/-- If slurping the wrapped producer always succeeds (see `producer_scrambler_plays_partial_of_slurp`, and why this is needed). -/
theorem word_producer_scrambler_plays_partial (w : Word) (debug : Bool) {P : BulkProducer σ I F E} {s : σ} {c : Script I F E}
    (h : BulkPlays P s c) (hslurp : ∀ s, ∃ s', P.slurp s = ok (s', .ok ())) (ops : List ScrambleProduce) {cap : Nat} (hcap : 0 < cap)
    (tmp : Nat → I) (hw : w.Fits cap) (ho : ops.length + 1 < w.size) :
    BulkPlays (wordProducerScrambler w debug P) (ProducerScrambler.new s ops cap tmp) c :=
  (word_producer_scrambler_same w debug P s ops cap tmp hw ho).plays
    (producer_scrambler_plays_partial_of_slurp debug h hslurp ops hcap tmp)

example : BulkPlays (wordProducerScrambler .wrapping64 true (WordFromSlice.producer .wrapping64 Nat))
    (ProducerScrambler.new (FromSlice.new [1, 2, 3]) [.slurp, .considerProduced ⟨5, by decide⟩] 2 (fun _ => 0))
    (Script.ofList [1, 2, 3] (.ok ())) :=
  word_producer_scrambler_plays_partial _ true (word_from_slice_plays _ _ (by decide)) (fun s => ⟨s, rfl⟩) _ (by decide) _
    ⟨by decide, by decide⟩ (by decide)

/-- The bound on the operations cannot be dropped: with as many operations as words, the index overflows (in a build without
overflow checks, unnoticed: it starts over, as it should); with more, the last ones would never be performed. -/
example : WordProducerScrambler.advance ⟨2, true⟩ (⟨(), ⟨[], 0, 0⟩, none, [.produce, .slurp], 1⟩ : ProducerScrambler Unit Nat Unit Nat) =
      .panic ∧
    WordProducerScrambler.advance ⟨2, false⟩ (⟨(), ⟨[], 0, 0⟩, none, [.produce, .slurp, .slurp], 1⟩ :
      ProducerScrambler Unit Nat Unit Nat) = ok ⟨(), ⟨[], 0, 0⟩, none, [.produce, .slurp, .slurp], 0⟩ := ⟨rfl, rfl⟩

/-! ## Consumer -/

/-- **C64, consumer `BulkScrambler`** does not overflow, whatever it wraps. -/
theorem word_consumer_scrambler_same (w : Word) (debug : Bool) (C : BulkConsumer σ I F E) (inner : σ) (ops : List ScrambleConsume)
    (cap : Nat) (tmp : Nat → I) (hw : w.Fits cap) (ho : ops.length + 1 < w.size) :
    (wordConsumerScrambler w debug C).Same (consumerScrambler debug C) (.new inner ops cap tmp) := by
  refine BulkConsumer.same_of_default rfl rfl fun taken s slots hr => ?_
  have h := (ConsumerScrambler.keeps hw debug).runs rfl (ConsumerScrambler.fits_new w inner cap tmp ho) hr rfl
  exact ⟨fun x => (ConsumerScrambler.consume_agree hw debug h x).1, fun f => (ConsumerScrambler.close_agree hw debug h f).1,
    (ConsumerScrambler.flush_agree hw debug h).1, (ConsumerScrambler.expose_agree hw debug h).1,
    fun ws hws => (ConsumerScrambler.write_eq hw debug h hws).1, fun k hk => (ConsumerScrambler.consumeSlots_agree hw debug h hk).1⟩

example : (wordConsumerScrambler .checked64 true zeroEater).Same (consumerScrambler true zeroEater)
    (.new 0 [.flush, .consumeSlots ⟨5, by decide⟩] 2048 (fun _ => 0)) :=
  word_consumer_scrambler_same _ _ _ _ _ _ _ ⟨by decide, by decide⟩ (by decide)

/-- So everything proved of it holds with machine arithmetic. -/
theorem word_consumer_scrambler_defers (w : Word) {C : BulkConsumer σ I F E} {D : σ → List I → Option F → Prop} {X : Faults I F E}
    (hX : X.Regular) {s : σ} {l : List I} (h : BulkDefers C D X s l) (ops : List ScrambleConsume) {cap : Nat}
    (hcap : 0 < cap) (tmp : Nat → I) (hw : w.Fits cap) (ho : ops.length + 1 < w.size) :
    BulkDefers (wordConsumerScrambler w false C) (fun s => D s.inner) X (ConsumerScrambler.new s ops cap tmp) l :=
  (word_consumer_scrambler_same w false C s ops cap tmp hw ho).defers hX (consumer_scrambler_defers hX h ops hcap tmp)

/-- With machine arithmetic in the wrapped consumer, too. -/
example : BulkDefers (wordConsumerScrambler .wrapping64 false (WordTestConsumer.consumer .wrapping64 true Nat Unit String))
    (fun s => TestConsumer.Seen s.inner) (Policy.failAfter 4 "full").faults
    (ConsumerScrambler.new (.new "full" 4 [⟨2, by decide⟩] (some [true])) [.flush, .consumeSlots ⟨5, by decide⟩] 2048 (fun _ => 0)) [] :=
  word_consumer_scrambler_defers _ (Policy.regular_faults _)
    (word_test_consumer_collects _ _ _ _ _ _ (by decide) (by decide) (by rintro _ ⟨⟩; decide)).toBulkDefers
    _ (by decide) _ ⟨by decide, by decide⟩ (by decide)

end

/-! ## IO adaptors

They compute with `usize` only in their queues. -/

/-- **C64, `ReaderToBulkProducer`.** -/
theorem word_reader_plays (w : Word) {ρ : Type} {Rd : AsyncRead ρ} {r : ρ} {c : Script UInt8 Unit IoError} (hr : Reads Rd r c)
    (hc : c.NoUnexpectedEof) (cap : Nat) (hcap : 0 < cap) (hw : w.Fits cap) (tmp : Nat → UInt8) :
    BulkPlays (readerProducer Rd (WordFixed.queue w UInt8)) ⟨r, Fixed.new cap tmp⟩ c ∧
      BulkPlays (readerProducer Rd (WordStatic.queue w UInt8 cap)) ⟨r, Static.new cap tmp⟩ c :=
  ⟨reader_plays hr hc (WordFixed.fifoLaw w UInt8 cap hw) hcap (Fixed.holds_new cap tmp),
    reader_plays hr hc (WordStatic.fifoLaw w UInt8 cap hw) hcap (Static.holds_new cap tmp)⟩

example : BulkPlays (readerProducer (chunkReader 1 (.ok ())).toAsyncRead (WordFixed.queue .wrapping64 UInt8))
    ⟨[1, 2, 3, 4, 5], Fixed.new 3 fun _ => 0⟩ (.ofList [1, 2, 3, 4, 5] (.ok ())) :=
  (word_reader_plays .wrapping64 ⟨_, (chunkReader_reads 1 (.ok ())).read, 0, rfl, by simp⟩ (ofList_noUnexpectedEof _) 3 (by decide)
    ⟨by decide, by decide⟩ _).1

/-- **C64, `WriterToBulkConsumer`.** -/
theorem word_writer_defers (w : Word) {ω : Type} {W : AsyncWrite ω} {D : ω → List UInt8 → Option Unit → Prop} {X : WriterFaults}
    {o : ω} {l : List UInt8} (ho : Writes W D X o l) (cap : Nat) (hcap : 0 < cap) (hw : w.Fits cap) (tmp : Nat → UInt8) :
    BulkDefers (writerConsumer W (WordFixed.queue w UInt8)) (fun s => D s.writer) X.faults ⟨o, Fixed.new cap tmp⟩ l ∧
      BulkDefers (writerConsumer W (WordStatic.queue w UInt8 cap)) (fun s => D s.writer) X.faults ⟨o, Static.new cap tmp⟩ l :=
  ⟨writer_defers ho (WordFixed.fifoLaw w UInt8 cap hw) hcap (Fixed.holds_new cap tmp),
    writer_defers ho (WordStatic.fifoLaw w UInt8 cap hw) hcap (Static.holds_new cap tmp)⟩

example : BulkDefers (writerConsumer (chunkWriter 1 4 ⟨.other 3, none⟩) (WordStatic.queue .checked64 UInt8 2))
    (fun s l f => s.writer = (l, f))
    (WriterFaults.faults ⟨fun l e' => 4 ≤ l.length ∧ e' = ⟨.other 3, none⟩, fun _ => False, fun _ _ => False, fun _ _ => False⟩)
    ⟨([], none), Static.new 2 fun _ => 0⟩ [] :=
  (word_writer_defers .checked64 ⟨_, chunkWriter_writes 1 4 ⟨.other 3, none⟩, rfl⟩ 2 (by decide) ⟨by decide, by decide⟩ _).2

end Verif
