import Verif.Props.Io
import Verif.Props.Slices
import Verif.Model.Scramblers
import Verif.Model.TestDoubles
import Verif.Cases

/-!
# Empty buffers (C47)
-/

namespace Verif

open Outcome

section

variable {σ I F E : Type}

/-- The producer uses the default implementation of `bulk_produce`. -/
def BulkProducer.Default (P : BulkProducer σ I F E) : Prop :=
  P.bulkProduce = bulkProduceDefault P.exposeItems P.considerProduced

/-- The consumer uses the default implementation of `bulk_consume`. -/
def BulkConsumer.Default (C : BulkConsumer σ I F E) : Prop :=
  C.bulkConsume = bulkConsumeDefault C.exposeSlots C.writeSlots C.consumeSlots

/-- **C47, producers.** For every lawful bulk producer with the default `bulk_produce`: calling it with an empty buffer while
there still are items transfers nothing, reports neither the end nor an error, and later calls are unaffected. -/
theorem bulk_produce_empty_partial {P : BulkProducer σ I F E} (hd : P.Default) {s : σ} {c : Script I F E} (h : BulkPlays P s c)
    {x : I} (hx : c 0 = .ok (.inl x)) : ∃ s', P.bulkProduce s [] = ok (s', .ok (.inl 0), []) ∧ BulkPlays P s' c := by
  obtain ⟨R, hR, n, hn⟩ := h
  obtain ⟨s₁, ⟨xs, hne, _, h1, h2⟩ | ⟨f, h0, _⟩ | ⟨e, h0, _⟩⟩ := hR.expose s c n hn
  · obtain ⟨s₂, h3, h4⟩ := hR.consider s₁ c xs.length 0 h2 (List.length_pos_iff.mpr hne) (by omega)
    refine ⟨s₂, by rw [BulkProducer.Default.eq_1] at hd; simp [hd, bulkProduceDefault, h1, h3], R, hR, xs.length - 0, by simpa using h4⟩
  · rw [hx] at h0; simp at h0
  · rw [hx] at h0; simp at h0

example : ∃ s', Case.P.bulkProduce (Case.pro (.error "broken")) [] = ok (s', .ok (.inl 0), []) ∧
    BulkPlays Case.P s' (Case.script (.error "broken")) :=
  bulk_produce_empty_partial (P := Case.P) (by rfl) (Case.plays _) (x := 1) rfl

/-- **C47, consumers.** For every lawful bulk consumer with the default `bulk_consume`: calling it with an empty buffer while the
consumer still accepts items transfers nothing and reports no error; later calls are unaffected. -/
theorem bulk_consume_empty_partial {C : BulkConsumer σ I F E} (hd : C.Default) {D : σ → List I → Option F → Prop}
    {q : Policy I F E} {s : σ} {l : List I} (h : BulkCollects C D q s l) (hq : q.refuse l = none) :
    ∃ s', C.bulkConsume s [] = ok (s', .ok 0) ∧ BulkCollects C D q s' l ∧ D s' l none := by
  obtain ⟨R, hR, sl, hsl⟩ := h
  obtain ⟨s₁, slots, hne, h1, h2⟩ := hR.expose_ok s l sl hsl hq
  have hw := hR.write s₁ l slots [] h2 (by simp)
  obtain ⟨s₂, h3, h4⟩ := hR.consumeSlots_ok (C.writeSlots s₁ []) l slots 0 (by simpa using hw) hne (by omega) (by simp)
  simp only [List.take_zero, List.append_nil, List.drop_zero] at h4
  exact ⟨s₂, by rw [BulkConsumer.Default.eq_1] at hd; simp [hd, bulkConsumeDefault, h1, h3], ⟨R, hR, slots, h4⟩, hR.base.observe _ _ ⟨slots, h4⟩⟩

example : ∃ s', Case.C.bulkConsume (Case.con 4) [] = ok (s', .ok 0) ∧
    BulkCollects Case.C TestConsumer.Seen (Case.policy 4) s' [] ∧ TestConsumer.Seen s' [] none :=
  bulk_consume_empty_partial (C := Case.C) (by rfl) (Case.collects 4) rfl

/-- All bulk producers of the crate except the reader adaptors use the default `bulk_produce`. -/
theorem producers_default (T : Type) (P : BulkProducer σ I F E) (debug test : Bool) (B : Type) :
    (FromSlice.producer T).Default ∧ (FromBoxedSlice.producer T).Default ∧ (EmptyProducer.producer I F E).Default ∧
      (limitBulkProducer P).Default ∧ (mapFinalBulkProducer (B := B) P).Default ∧
      (mapErrorBulkProducer (B := B) P).Default ∧ (invariantBulkProducer P).Default ∧
      (producerScrambler debug P).Default ∧ (TestProducer.producer test I F E).Default ∧ (publicProducer test P).Default := by
  refine ⟨rfl, rfl, rfl, rfl, rfl, rfl, rfl, rfl, rfl, ?_⟩
  cases test <;> rfl

/-- All bulk consumers of the crate except the writer adaptor use the default `bulk_consume`. -/
theorem consumers_default (T : Type) [Inhabited T] [Inhabited I] (C : BulkConsumer σ I F E) (debug test : Bool) (B : Type) :
    (IntoVec.consumer T).Default ∧ (limitBulkConsumer C).Default ∧ (mapFinalBulkConsumer (B := B) C).Default ∧
      (mapErrorBulkConsumer (B := B) C).Default ∧ (invariantBulkConsumer C).Default ∧
      (consumerScrambler debug C).Default ∧ (TestConsumer.consumer test I F E).Default ∧ (publicConsumer test C).Default := by
  refine ⟨rfl, rfl, rfl, rfl, rfl, rfl, rfl, ?_⟩
  cases test <;> rfl

end

example : ∃ s', (FromSlice.producer Nat).bulkProduce (FromSlice.new [1, 2]) [] = ok (s', .ok (.inl 0), []) ∧
    BulkPlays (FromSlice.producer Nat) s' (.ofList [1, 2] (.ok ())) :=
  bulk_produce_empty_partial (P := FromSlice.producer Nat) (by rfl) (from_slice_plays [1, 2]) (x := 1) rfl

example : ∃ s', (IntoVec.consumer Nat).bulkConsume (IntoVec.fromVec [7]) [] = ok (s', .ok 0) ∧ s'.intoVec = [7] := by
  obtain ⟨s', h1, _, h2⟩ := bulk_consume_empty_partial (C := IntoVec.consumer Nat) (by rfl) (into_vec_collects [7]) rfl
  exact ⟨s', h1, h2.2⟩

/-! ## The reader and writer adaptors violate it -/

/-- **C47 is false for `BufReaderToBulkProducer`:** with an empty buffer it reports the end of the sequence, whatever bytes are
still to come, for every reader that answers a read into an empty buffer with `0` bytes (there is nothing else it could
answer). -/
theorem buf_reader_empty_buffer_ends {ρ : Type} (Rd : AsyncBufRead ρ) (r r' : ρ) (h : Rd.read r [] = ok (r', .ok 0, [])) :
    (bufReaderProducer Rd).bulkProduce r [] = ok (r', .ok (.inr ()), []) := by
  simp [bufReaderProducer, h, readAnswer]

example : (bufReaderProducer (chunkReader 1 (.ok ()))).bulkProduce [1, 2, 3] [] = ok ([1, 2, 3], .ok (.inr ()), []) :=
  buf_reader_empty_buffer_ends _ _ _ rfl

/-- **C47 is false for `ReaderToBulkProducer`**, likewise, while its queue is empty. -/
theorem reader_empty_buffer_ends {ρ : Type} (Rd : AsyncRead ρ) (r r' : ρ) (h : Rd.read r [] = ok (r', .ok 0, []))
    (capacity : Nat) (tmp : Nat → UInt8) :
    (readerProducer Rd (Fixed.queue UInt8)).bulkProduce ⟨r, Fixed.new capacity tmp⟩ [] =
      ok (⟨r', Fixed.new capacity tmp⟩, .ok (.inr ()), []) := by
  simp [readerProducer, Fixed.queue, Fixed.len, Fixed.new, h, readAnswer]

example : (readerProducer (chunkReader 1 (.ok ())).toAsyncRead (Fixed.queue UInt8)).bulkProduce
    ⟨[1, 2, 3], Fixed.new 4 fun _ => 0⟩ [] = ok (⟨[1, 2, 3], Fixed.new 4 fun _ => 0⟩, .ok (.inr ()), []) :=
  reader_empty_buffer_ends _ _ _ rfl 4 _

/-- **C47 is false for `WriterToBulkConsumer`:** with an empty buffer it reports an error, although nothing failed. -/
theorem writer_empty_buffer_fails {ω : Type} (W : AsyncWrite ω) (w w' : ω) (h : W.write w [] = ok (w', .ok 0))
    (capacity : Nat) (tmp : Nat → UInt8) :
    (writerConsumer W (Fixed.queue UInt8)).bulkConsume ⟨w, Fixed.new capacity tmp⟩ [] =
      ok (⟨w', Fixed.new capacity tmp⟩, .error wroteZero) := by
  have : QueueWriter.flushInternalBuffer W (Fixed.queue UInt8) ⟨w, Fixed.new capacity tmp⟩ =
      ok (⟨w, Fixed.new capacity tmp⟩, .ok ()) := by
    refine loop_eq_of_fuel (n := 1) ?_
    simp [loopFuel, QueueWriter.flushBody, Fixed.queue, Fixed.exposeItems, Fixed.new]
  simp [writerConsumer, this, h]

example : (writerConsumer (chunkWriter 1 9 ⟨.other 0, none⟩) (Fixed.queue UInt8)).bulkConsume
    ⟨([7], none), Fixed.new 4 fun _ => 0⟩ [] = ok (⟨([7], none), Fixed.new 4 fun _ => 0⟩, .error wroteZero) :=
  writer_empty_buffer_fails _ _ _ rfl 4 _

/-- **C47 for `ReaderToBulkProducer`, exactly**, with any first-in-first-out queue: with an empty buffer it reports the end iff its
queue is empty. Otherwise it transfers nothing, and the queue still contains the same bytes. -/
theorem reader_empty_buffer_exact {ρ κ : Type} {Rd : AsyncRead ρ} {r r' : ρ} (h : Rd.read r [] = ok (r', .ok 0, []))
    {Q : Queue κ UInt8} {cap : Nat} {R : κ → List UInt8 → List UInt8 → Nat → Prop} (hQ : FifoLaw Q cap R) {q : κ}
    {l slots : List UInt8} {n : Nat} (hq : R q l slots n) :
    (l = [] → (readerProducer Rd Q).bulkProduce ⟨r, q⟩ [] = ok (⟨r', q⟩, .ok (.inr ()), [])) ∧
    (l ≠ [] → ∃ q' m, (readerProducer Rd Q).bulkProduce ⟨r, q⟩ [] = ok (⟨r, q'⟩, .ok (.inl 0), []) ∧ R q' l slots m) := by
  have h0 := hQ.isEmpty q l slots n hq
  constructor
  · rintro rfl
    simp [readerProducer, h0, h, readAnswer]
  · intro hl
    have hl' : (l.length == 0) = false := by simpa using hl
    obtain ⟨q₁, m, hm, hm', h1, h2⟩ := hQ.exposeItems q l slots n hq hl
    obtain ⟨q₂, h3, h4⟩ := hQ.considerDequeued q₁ l slots (max n m) 0 h2 (by omega)
      (by have := (hQ.bound q l slots n hq).1; omega)
    exact ⟨q₂, max n m, by simp [readerProducer, h0, hl', hQ.bulkDequeue, bulkDequeueDefault, h1, h3], by simpa using h4⟩

/-- A reader whose queue contains two bytes. -/
example : ∃ q' m, (readerProducer (chunkReader 1 (.ok ())).toAsyncRead (Fixed.queue UInt8)).bulkProduce
      ⟨[3], ⟨[1, 2, 0], 0, 2⟩⟩ [] = ok (⟨[3], q'⟩, .ok (.inl 0), []) ∧ Fixed.Holds 3 q' [1, 2] [] m :=
  (reader_empty_buffer_exact (n := 0) rfl (Fixed.fifoLaw UInt8 3)
    ⟨rfl, rfl, by decide, by decide, .inl (by decide), by
      rintro (_ | _ | i) x h <;> simp at h <;> simp [h], .inl rfl⟩).2 (by simp)

/-- **C47 for `WriterToBulkConsumer`, exactly:** with an empty buffer it never succeeds, whatever the queue does, around every writer
that does not claim to have written bytes it was not given: it fails with the error of flushing its queue, if that fails; else
with the error of writing nothing, if that fails; else with `WriteZero`. -/
theorem writer_empty_buffer_exact {ω κ : Type} {W : AsyncWrite ω} (hW : ∀ w w' k, W.write w [] = ok (w', .ok k) → k = 0)
    (Q : Queue κ UInt8) (s : QueueWriter ω κ) :
    (∀ t e, s.flushInternalBuffer W Q = ok (t, .error e) → (writerConsumer W Q).bulkConsume s [] = ok (t, .error e)) ∧
    (∀ t w' e, s.flushInternalBuffer W Q = ok (t, .ok ()) → W.write t.writer [] = ok (w', .error e) →
      (writerConsumer W Q).bulkConsume s [] = ok (⟨w', t.queue⟩, .error e)) ∧
    (∀ t w' k, s.flushInternalBuffer W Q = ok (t, .ok ()) → W.write t.writer [] = ok (w', .ok k) →
      (writerConsumer W Q).bulkConsume s [] = ok (⟨w', t.queue⟩, .error wroteZero)) ∧
    ∀ t k, (writerConsumer W Q).bulkConsume s [] ≠ ok (t, .ok k) := by
  have h1 : ∀ t w' k, s.flushInternalBuffer W Q = ok (t, .ok ()) → W.write t.writer [] = ok (w', .ok k) →
      (writerConsumer W Q).bulkConsume s [] = ok (⟨w', t.queue⟩, .error wroteZero) := by
    intro t w' k h h'
    have hk := hW _ _ _ h'
    subst hk
    simp [writerConsumer, h, h']
  refine ⟨fun t e h => by simp [writerConsumer, h], fun t w' e h h' => by simp [writerConsumer, h, h'], h1, fun t k hk => ?_⟩
  rcases h : s.flushInternalBuffer W Q with ⟨u, e | _⟩ | _ | _
  · simp [writerConsumer, h] at hk
  · rcases h' : W.write u.writer [] with ⟨w', e | k'⟩ | _ | _
    · simp [writerConsumer, h, h'] at hk
    · rw [h1 u w' k' h h'] at hk; cases hk
    · simp [writerConsumer, h, h'] at hk
    · simp [writerConsumer, h, h'] at hk
  · simp [writerConsumer, h] at hk
  · simp [writerConsumer, h] at hk

example (q : Fixed UInt8) (t : QueueWriter (List UInt8 × Option Unit) (Fixed UInt8)) (k : Nat) :
    (writerConsumer (chunkWriter 1 9 ⟨.other 0, none⟩) (Fixed.queue UInt8)).bulkConsume ⟨([7], none), q⟩ [] ≠ ok (t, .ok k) :=
  (writer_empty_buffer_exact (fun w w' k h => by
    simp only [chunkWriter] at h
    split at h <;> simp at h
    exact h.2.symm) _ _).2.2.2 t k

/-- Concretely: three bytes are still to come, and the reader adaptors claim that the sequence has ended. -/
theorem empty_buffer_counterexamples :
    (BulkPlays (bufReaderProducer (chunkReader 1 (.ok ()))) [1, 2, 3] (.ofList [1, 2, 3] (.ok ())) ∧
      (bufReaderProducer (chunkReader 1 (.ok ()))).bulkProduce [1, 2, 3] [] = ok ([1, 2, 3], .ok (.inr ()), [])) ∧
    (BulkPlays (readerProducer (chunkReader 1 (.ok ())).toAsyncRead (Fixed.queue UInt8)) ⟨[1, 2, 3], Fixed.new 4 fun _ => 0⟩
        (.ofList [1, 2, 3] (.ok ())) ∧
      (readerProducer (chunkReader 1 (.ok ())).toAsyncRead (Fixed.queue UInt8)).bulkProduce
        ⟨[1, 2, 3], Fixed.new 4 fun _ => 0⟩ [] = ok (⟨[1, 2, 3], Fixed.new 4 fun _ => 0⟩, .ok (.inr ()), [])) ∧
    (writerConsumer (chunkWriter 1 9 ⟨.other 0, none⟩) (Fixed.queue UInt8)).bulkConsume
        ⟨([], none), Fixed.new 4 fun _ => 0⟩ [] = ok (⟨([], none), Fixed.new 4 fun _ => 0⟩, .error wroteZero) := by
  refine ⟨⟨buf_reader_plays ⟨_, chunkReader_reads 1 (.ok ()), 0, rfl, by simp⟩ (ofList_noUnexpectedEof _),
    buf_reader_empty_buffer_ends _ _ _ rfl⟩, ⟨reader_fixed_plays ⟨_, (chunkReader_reads 1 (.ok ())).read, 0, rfl, by simp⟩
      (ofList_noUnexpectedEof _) 4 (by decide) _, reader_empty_buffer_ends _ _ _ rfl _ _⟩,
    writer_empty_buffer_fails _ _ _ rfl _ _⟩

end Verif
