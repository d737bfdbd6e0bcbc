import Verif.Lemmas.Io
import Verif.Lemmas.Queue
import Verif.Lemmas.History
import Verif.Props.History

/-!
# Reader and writer adaptors (C35, C36, and the part of C47 about them)
-/

namespace Verif

open Outcome

/-! ## Sample readers and writers, for the examples -/

/-- A reader of the remaining bytes that delivers at most `m + 1` bytes at once and ends with `last`. -/
def chunkReader (m : Nat) (last : Except IoError Unit) : AsyncBufRead (List UInt8) where
  read r buf := match r, last with
    | [], .error e => ok ([], .error e, buf)
    | r, _ =>
      let k := min (min r.length buf.length) (m + 1)
      ok (r.drop k, .ok k, r.take k ++ buf.drop k)
  fillBuf r := match r, last with
    | [], .error e => ok ([], .error e)
    | r, _ => ok (r, .ok (r.take (m + 1)))
  consume r k := ok (r.drop k)

theorem chunkReader_reads (m : Nat) (last : Except IoError Unit) :
    BufReadsLaw (chunkReader m last) (fun r c n => c = .ofList r last ∧ n ≤ r.length) where
  read :=
    { read := by
        rintro r c buf ⟨n, rfl, hn⟩ hne
        have hbuf : 0 < buf.length := List.length_pos_iff.mpr hne
        cases r with
        | nil =>
          rcases last with e | u
          · exact ⟨[], buf, rfl, .inr (.inr ⟨e, rfl, rfl⟩)⟩
          · exact ⟨[], buf, rfl, .inr (.inl ⟨rfl, by simp [chunkReader]⟩)⟩
        | cons x r =>
          generalize hk : min (min (x :: r).length buf.length) (m + 1) = k
          have hlen : (x :: r).length = r.length + 1 := rfl
          refine ⟨(x :: r).drop k, (x :: r).take k ++ buf.drop k, ?_, .inl ⟨k, by omega, by omega, ?_, ?_, 0, ?_, by simp⟩⟩
          · simp only [List.length_append, List.length_take, List.length_drop]; omega
          · simp only [chunkReader, hk]
          · rw [List.take_append_of_le_length (by simp only [List.length_take]; omega)]
            exact ((Script.ofList_startsWith _ _).take k).take k
          · exact Script.ofList_drop _ _ _ (by omega) }
  fillBuf := by
    rintro r c n ⟨rfl, hn⟩
    cases r with
    | nil =>
      rcases last with e | u
      · exact ⟨[], .inr (.inr ⟨e, rfl, rfl⟩)⟩
      · exact ⟨[], .inr (.inl ⟨rfl, rfl, rfl, by simp⟩)⟩
    | cons x r =>
      exact ⟨x :: r, .inl ⟨(x :: r).take (m + 1), by simp, (Script.ofList_startsWith _ _).take _, rfl, rfl,
        by simp only [List.length_take]; omega⟩⟩
  consume := by
    rintro r c n k ⟨rfl, hn⟩ hk
    exact ⟨r.drop k, rfl, Script.ofList_drop _ _ _ (by omega), by simp only [List.length_drop]; omega⟩

/-- A writer that remembers what has been written, accepts at most `m + 1` bytes at once and at most `cap` bytes in total (then
it fails with `e`). -/
def chunkWriter (m cap : Nat) (e : IoError) : AsyncWrite (List UInt8 × Option Unit) where
  write w buf :=
    if w.1.length < cap then
      let k := min (min buf.length (m + 1)) (cap - w.1.length)
      ok ((w.1 ++ buf.take k, w.2), .ok k)
    else
      ok (w, .error e)
  flush w := ok (w, .ok ())
  close w := ok ((w.1, some ()), .ok ())

theorem chunkWriter_writes (m cap : Nat) (e : IoError) :
    WritesLaw (chunkWriter m cap e) (fun w l closed => w = (l, closed))
      ⟨fun l e' => cap ≤ l.length ∧ e' = e, fun _ => False, fun _ _ => False, fun _ _ => False⟩
      (fun w l => w = (l, none)) where
  observe _ _ h := h
  write := by
    rintro w l buf rfl hne
    have hbuf : 0 < buf.length := List.length_pos_iff.mpr hne
    by_cases h : l.length < cap
    · exact ⟨_, .inl ⟨min (min buf.length (m + 1)) (cap - l.length), by omega, by omega, by simp [chunkWriter, h], rfl⟩⟩
    · exact ⟨_, .inr (.inr ⟨e, ⟨by omega, rfl⟩, by simp [chunkWriter, h], rfl⟩)⟩
  flush := by rintro w l rfl; exact ⟨_, .inl ⟨rfl, rfl⟩⟩
  close := by rintro w l rfl; exact ⟨_, .inl ⟨rfl, rfl⟩⟩

theorem ofList_noUnexpectedEof (xs : List UInt8) : (Script.ofList xs (.ok ()) : Script UInt8 Unit IoError).NoUnexpectedEof := by
  intro i e h
  simp only [Script.ofList] at h
  split at h <;> simp [Except.map] at h

/-! ## C35 -/

/-- **C35, `BufReaderToBulkProducer`.** For every buffered reader (whatever amounts it buffers and delivers) the adaptor emits
exactly the bytes of the reader and then its end or error, under every mix of method calls. -/
theorem buf_reader_plays {ρ : Type} {Rd : AsyncBufRead ρ} {r : ρ} {c : Script UInt8 Unit IoError} (hr : BufReads Rd r c)
    (hc : c.NoUnexpectedEof) : BulkPlays (bufReaderProducer Rd) r c := by
  obtain ⟨R, hR, n, h⟩ := hr
  exact ⟨_, bufReader_law hR, n, h, hc⟩

example : BulkPlays (bufReaderProducer (chunkReader 1 (.ok ()))) [1, 2, 3] (.ofList [1, 2, 3] (.ok ())) :=
  buf_reader_plays ⟨_, chunkReader_reads 1 (.ok ()), 0, rfl, by simp⟩ (ofList_noUnexpectedEof _)

/-- **C35, `ReaderToBulkProducer`**, for every first-in-first-out queue of capacity at least 1. -/
theorem reader_plays {ρ κ : Type} {Rd : AsyncRead ρ} {r : ρ} {c : Script UInt8 Unit IoError} (hr : Reads Rd r c)
    (hc : c.NoUnexpectedEof) {Q : Queue κ UInt8} {cap : Nat} {RQ : κ → List UInt8 → List UInt8 → Nat → Prop}
    (hQ : FifoLaw Q cap RQ) (hcap : 0 < cap) {q : κ} (hq : RQ q [] [] 0) : BulkPlays (readerProducer Rd Q) ⟨r, q⟩ c := by
  obtain ⟨R, hR, h⟩ := hr
  exact ⟨_, reader_law hR hQ hcap, 0, [], [], hq, by simp, by simpa using h, hc⟩

example : BulkPlays (readerProducer (chunkReader 1 (.ok ())).toAsyncRead (Static.queue UInt8 3))
    ⟨[1, 2, 3, 4, 5], Static.new 3 fun _ => 0⟩ (.ofList [1, 2, 3, 4, 5] (.ok ())) :=
  reader_plays ⟨_, (chunkReader_reads 1 (.ok ())).read, 0, rfl, by simp⟩ (ofList_noUnexpectedEof _) (Static.fifoLaw UInt8 3)
    (by decide) (Static.holds_new 3 _)

/-- **C35** with a `Fixed` queue. -/
theorem reader_fixed_plays {ρ : Type} {Rd : AsyncRead ρ} {r : ρ} {c : Script UInt8 Unit IoError} (hr : Reads Rd r c)
    (hc : c.NoUnexpectedEof) (capacity : Nat) (hcap : 0 < capacity) (tmp : Nat → UInt8) :
    BulkPlays (readerProducer Rd (Fixed.queue UInt8)) ⟨r, Fixed.new capacity tmp⟩ c :=
  reader_plays hr hc (Fixed.fifoLaw UInt8 capacity) hcap (Fixed.holds_new capacity tmp)

example : BulkPlays (readerProducer (chunkReader 1 (.ok ())).toAsyncRead (Fixed.queue UInt8))
    ⟨[1, 2, 3, 4, 5], Fixed.new 3 fun _ => 0⟩ (.ofList [1, 2, 3, 4, 5] (.ok ())) :=
  reader_fixed_plays ⟨_, (chunkReader_reads 1 (.ok ())).read, 0, rfl, by simp⟩ (ofList_noUnexpectedEof _) 3 (by decide) _

/-- **C35** with a `Static` queue. -/
theorem reader_static_plays {ρ : Type} {Rd : AsyncRead ρ} {r : ρ} {c : Script UInt8 Unit IoError} (hr : Reads Rd r c)
    (hc : c.NoUnexpectedEof) (N : Nat) (hN : 0 < N) (tmp : Nat → UInt8) :
    BulkPlays (readerProducer Rd (Static.queue UInt8 N)) ⟨r, Static.new N tmp⟩ c :=
  reader_plays hr hc (Static.fifoLaw UInt8 N) hN (Static.holds_new N tmp)

/-- An example of an error that is passed on. -/
example : BulkPlays (readerProducer (chunkReader 0 (.error ⟨.other 7, none⟩)).toAsyncRead (Static.queue UInt8 2))
    ⟨[1, 2], Static.new 2 fun _ => 0⟩ (.ofList [1, 2] (.error ⟨.other 7, none⟩)) := by
  refine reader_static_plays ⟨_, (chunkReader_reads 0 _).read, 0, rfl, by simp⟩ ?_ 2 (by decide) _
  intro i e h
  simp only [Script.ofList] at h
  split at h
  · simp at h
  · simp [Except.map] at h; subst h; decide

theorem chunkReader_respectsBuffers (m : Nat) (last : Except IoError Unit) :
    (chunkReader m last).toAsyncRead.RespectsBuffers := by
  intro r buf r' res buf' h
  cases r with
  | nil =>
    cases last <;> simp [chunkReader] at h <;> obtain ⟨rfl, rfl, rfl⟩ := h <;> simp
  | cons x r =>
    simp only [chunkReader, Outcome.ok.injEq, Prod.mk.injEq] at h
    obtain ⟨rfl, rfl, rfl⟩ := h
    refine ⟨?_, fun n hn => ?_⟩
    · simp only [List.length_append, List.length_take, List.length_drop]; omega
    · injection hn with hn; omega

/-- **C35, arbitrary readers.** Whatever the reader does (as long as it respects the lengths of buffers), under every history
of allowed calls: the bytes handed out are a prefix of the bytes that the reader has delivered, and the others are still in
the queue. So no byte is lost, duplicated, reordered or invented, even after the end or an error. -/
theorem reader_conserves {ρ κ : Type} {Rd : AsyncRead ρ} (hR : Rd.RespectsBuffers) {Q : Queue κ UInt8} {cap : Nat}
    {RQ : κ → List UInt8 → List UInt8 → Nat → Prop} (hQ : FifoLaw Q cap RQ) (hcap : 0 < cap) {q : κ} (hq : RQ q [] [] 0)
    (r : ρ) {handed shown : List UInt8} {s : QueueReader (ρ × List UInt8) κ} {ended : Option (Except IoError Unit)}
    (h : ProducerRuns (readerProducer Rd.logged Q) ⟨(r, []), q⟩ handed s shown ended) :
    handed <+: s.reader.2 ∧ s.reader.2.length = handed.length + Q.len s.queue := by
  have : Conserved RQ handed s shown := by
    induction h with
    | start => exact ⟨[], [], 0, hq, by simp, by simp, by simp⟩
    | call _ hop hcall ih => exact conserved_call hR hQ hcap ih hop hcall
  obtain ⟨l, slots, n, hl, hlog, _⟩ := this
  exact ⟨⟨l, hlog.symm⟩, by rw [hlog, hQ.len _ _ _ _ hl, List.length_append]⟩

/-- A history in which one byte is handed out and another one is in the queue. -/
example : ∃ s, ProducerRuns (readerProducer (chunkReader 1 (.ok ())).toAsyncRead.logged (Fixed.queue UInt8))
      ⟨([1, 2, 3], []), Fixed.new 2 fun _ => 0⟩ [1] s [] none ∧ [1] <+: s.reader.2 ∧
    s.reader.2.length = 1 + (Fixed.queue UInt8).len s.queue := by
  have h0 := ProducerRuns.start (P := readerProducer (chunkReader 1 (.ok ())).toAsyncRead.logged (Fixed.queue UInt8))
    (s₀ := ⟨([1, 2, 3], []), Fixed.new 2 fun _ => 0⟩)
  have h1 := h0.call (op := .exposeItems) (s' := ⟨([3], [1, 2]), ⟨[1, 2], 0, 2⟩⟩) (r := ⟨[], [1, 2], none⟩) trivial rfl
  have h2 := h1.call (op := .produce) (s' := ⟨([3], [1, 2]), ⟨[1, 2], 1, 1⟩⟩) (r := ⟨[1], [], none⟩) trivial rfl
  exact ⟨_, h2, reader_conserves (chunkReader_respectsBuffers _ _) (Fixed.fifoLaw UInt8 2) (by decide) (Fixed.holds_new 2 _) _ h2⟩

/-- Why capacity 0 is excluded: exposing items panics, for every reader. -/
theorem reader_capacity_zero_panics {ρ : Type} (Rd : AsyncRead ρ) (r : ρ) (tmp : Nat → UInt8) :
    (readerProducer Rd (Fixed.queue UInt8)).exposeItems ⟨r, Fixed.new 0 tmp⟩ = .panic ∧
      (readerProducer Rd (Static.queue UInt8 0)).exposeItems ⟨r, Static.new 0 tmp⟩ = .panic :=
  ⟨rfl, rfl⟩

/-- Why errors of kind `UnexpectedEof` are excluded: if the reader fails with such an error, then `produce` reports a regular
end of the sequence, whereas `expose_items` and `bulk_produce` report the error. So the error is lost, and what is emitted
depends on which methods are used: the adaptor does not emit any particular sequence. -/
theorem reader_unexpected_eof_swallowed (info : Option String) (tmp : UInt8) :
    let e : IoError := ⟨.unexpectedEof, info⟩
    let P := readerProducer (chunkReader 0 (.error e)).toAsyncRead (Fixed.queue UInt8)
    let s : QueueReader (List UInt8) (Fixed UInt8) := ⟨[], Fixed.new 1 fun _ => tmp⟩
    Reads (chunkReader 0 (.error e)).toAsyncRead [] (.ofList [] (.error e)) ∧
      (∃ s', P.produce s = ok (s', .ok (.inr ()))) ∧ (∃ s', P.exposeItems s = ok (s', .error e)) ∧
      (∃ s' buf, P.bulkProduce s [tmp] = ok (s', .error e, buf)) ∧ ∀ c, ¬ BulkPlays P s c := by
  intro e P s
  have h1 : P.produce s = ok (s, .ok (.inr ())) := by
    have : readExact (chunkReader 0 (.error e)).toAsyncRead [] [17] = ok ([], .error e, [17]) :=
      loop_eq_of_fuel (n := 1) (by simp [loopFuel, readExactBody, chunkReader])
    simp [P, s, readerProducer, Fixed.queue, Fixed.dequeue, Fixed.new, readByte, this, e]
  have h2 : P.exposeItems s = ok (s, .error e) := rfl
  refine ⟨⟨_, (chunkReader_reads 0 (.error e)).read, 0, rfl, by simp⟩, ⟨s, h1⟩, ⟨s, h2⟩, ⟨s, [tmp], rfl⟩, ?_⟩
  rintro c ⟨R, hR, n, h⟩
  obtain ⟨s', hs', _⟩ := hR.base.produce s c ⟨n, h⟩
  have hc : c 0 = .ok (.inr ()) := by
    have := hs'.symm.trans h1
    simp at this; exact this.2
  obtain ⟨s'', ⟨xs, _, _, h3, _⟩ | ⟨f, _, h3⟩ | ⟨e', h3, _⟩⟩ := hR.expose s c n h
  · rw [h2] at h3; simp at h3
  · rw [h2] at h3; simp at h3
  · rw [hc] at h3; cases h3

/-- The same for `BufReaderToBulkProducer`. -/
theorem buf_reader_unexpected_eof_swallowed (info : Option String) :
    let e : IoError := ⟨.unexpectedEof, info⟩
    let P := bufReaderProducer (chunkReader 0 (.error e))
    BufReads (chunkReader 0 (.error e)) [] (.ofList [] (.error e)) ∧
      (∃ s', P.produce [] = ok (s', .ok (.inr ()))) ∧ (∃ s', P.exposeItems [] = ok (s', .error e)) ∧
      ∀ c, ¬ BulkPlays P [] c := by
  intro e P
  have h1 : P.produce [] = ok ([], .ok (.inr ())) := by
    have : readExact (chunkReader 0 (.error e)).toAsyncRead [] [0] = ok ([], .error e, [0]) :=
      loop_eq_of_fuel (n := 1) (by simp [loopFuel, readExactBody, chunkReader])
    simp [P, bufReaderProducer, readByte, this, e]
  have h2 : P.exposeItems [] = ok ([], .error e) := rfl
  refine ⟨⟨_, chunkReader_reads 0 (.error e), 0, rfl, by simp⟩, ⟨[], h1⟩, ⟨[], h2⟩, ?_⟩
  rintro c ⟨R, hR, n, h⟩
  obtain ⟨s', hs', _⟩ := hR.base.produce [] c ⟨n, h⟩
  have hc : c 0 = .ok (.inr ()) := by
    have := hs'.symm.trans h1
    simp at this; exact this.2
  obtain ⟨s'', ⟨xs, _, _, h3, _⟩ | ⟨f, _, h3⟩ | ⟨e', h3, _⟩⟩ := hR.expose [] c n h
  · rw [h2] at h3; simp at h3
  · rw [h2] at h3; simp at h3
  · rw [hc] at h3; cases h3

/-! ## C36 -/

/-- **C36, `WriterToBulkConsumer`**, for every first-in-first-out queue of capacity at least 1: the adaptor never panics, the
bytes written are at every time a prefix of the bytes passed to it (also after an error), they are all of them after each
successful `flush` or `close`, and it fails only if the writer fails. -/
theorem writer_defers {ω κ : Type} {W : AsyncWrite ω} {D : ω → List UInt8 → Option Unit → Prop} {X : WriterFaults} {w : ω}
    {l : List UInt8} (hw : Writes W D X w l) {Q : Queue κ UInt8} {cap : Nat}
    {RQ : κ → List UInt8 → List UInt8 → Nat → Prop} (hQ : FifoLaw Q cap RQ) (hcap : 0 < cap) {q : κ} (hq : RQ q [] [] 0) :
    BulkDefers (writerConsumer W Q) (fun s => D s.writer) X.faults ⟨w, q⟩ l := by
  obtain ⟨R, hR, h⟩ := hw
  exact ⟨_, writer_law hR hQ hcap, [], l, [], 0, by simp, h, hq⟩

example : BulkDefers (writerConsumer (chunkWriter 1 4 ⟨.other 3, none⟩) (Static.queue UInt8 2))
    (fun s l closed => s.writer = (l, closed))
    (WriterFaults.faults ⟨fun l e' => 4 ≤ l.length ∧ e' = ⟨.other 3, none⟩, fun _ => False, fun _ _ => False, fun _ _ => False⟩)
    ⟨([], none), Static.new 2 fun _ => 0⟩ [] :=
  writer_defers ⟨_, chunkWriter_writes 1 4 ⟨.other 3, none⟩, rfl⟩ (Static.fifoLaw UInt8 2) (by decide) (Static.holds_new 2 _)

/-- **C36** with a `Fixed` queue. -/
theorem writer_fixed_defers {ω : Type} {W : AsyncWrite ω} {D : ω → List UInt8 → Option Unit → Prop} {X : WriterFaults} {w : ω}
    {l : List UInt8} (hw : Writes W D X w l) (capacity : Nat) (hcap : 0 < capacity) (tmp : Nat → UInt8) :
    BulkDefers (writerConsumer W (Fixed.queue UInt8)) (fun s => D s.writer) X.faults ⟨w, Fixed.new capacity tmp⟩ l :=
  writer_defers hw (Fixed.fifoLaw UInt8 capacity) hcap (Fixed.holds_new capacity tmp)

example : BulkDefers (writerConsumer (chunkWriter 1 4 ⟨.other 3, none⟩) (Fixed.queue UInt8))
    (fun s l closed => s.writer = (l, closed))
    (WriterFaults.faults ⟨fun l e' => 4 ≤ l.length ∧ e' = ⟨.other 3, none⟩, fun _ => False, fun _ _ => False, fun _ _ => False⟩)
    ⟨([], none), Fixed.new 2 fun _ => 0⟩ [] :=
  writer_fixed_defers ⟨_, chunkWriter_writes 1 4 ⟨.other 3, none⟩, rfl⟩ 2 (by decide) _

/-- **C36** with a `Static` queue. -/
theorem writer_static_defers {ω : Type} {W : AsyncWrite ω} {D : ω → List UInt8 → Option Unit → Prop} {X : WriterFaults} {w : ω}
    {l : List UInt8} (hw : Writes W D X w l) (N : Nat) (hN : 0 < N) (tmp : Nat → UInt8) :
    BulkDefers (writerConsumer W (Static.queue UInt8 N)) (fun s => D s.writer) X.faults ⟨w, Static.new N tmp⟩ l :=
  writer_defers hw (Static.fifoLaw UInt8 N) hN (Static.holds_new N tmp)

example : BulkDefers (writerConsumer (chunkWriter 1 4 ⟨.other 3, none⟩) (Static.queue UInt8 2)) (fun s l f => s.writer = (l, f))
    (WriterFaults.faults ⟨fun l e' => 4 ≤ l.length ∧ e' = ⟨.other 3, none⟩, fun _ => False, fun _ _ => False, fun _ _ => False⟩)
    ⟨([], none), Static.new 2 fun _ => 0⟩ [] :=
  writer_static_defers ⟨_, chunkWriter_writes 1 4 ⟨.other 3, none⟩, rfl⟩ 2 (by decide) _

/-- A history after which three bytes are waiting in the queue. -/
theorem chunkWriter_runs : ConsumerRuns (writerConsumer (chunkWriter 1 9 ⟨.other 3, none⟩) (Fixed.queue UInt8))
    ⟨([], none), Fixed.new 3 fun _ => 0⟩ [5, 6, 7] ⟨([], none), ⟨[5, 6, 7], 0, 3⟩⟩ [] none := by
  have h0 : (writerConsumer (chunkWriter 1 9 ⟨.other 3, none⟩) (Fixed.queue UInt8)).call
      ⟨([], none), Fixed.new 3 fun _ => 0⟩ [] .exposeSlots =
      ok (⟨([], none), Fixed.new 3 fun _ => 0⟩, ⟨[], [0, 0, 0], none⟩) := by
    simp only [BulkConsumer.call, writerConsumer, QueueWriter.flushInternalBuffer]
    rw [loop_eq_of_fuel (n := 1)]
    · rfl
    · simp [loopFuel, QueueWriter.flushBody, Fixed.queue, Fixed.exposeItems, Fixed.new]
  have h1 := (ConsumerRuns.start (C := writerConsumer (chunkWriter 1 9 ⟨.other 3, none⟩) (Fixed.queue UInt8))
    (s₀ := ⟨([], none), Fixed.new 3 fun _ => 0⟩)).call (op := .exposeSlots) trivial h0
  have h2 := h1.call (op := .write [5, 6, 7]) (s' := ⟨([], none), ⟨[5, 6, 7], 0, 0⟩⟩) (r := ⟨[], [5, 6, 7], none⟩)
    (by simp [ConsumerOp.Allowed]) rfl
  exact h2.call (op := .consumeSlots 3) (s' := ⟨([], none), ⟨[5, 6, 7], 0, 3⟩⟩) (r := ⟨[5, 6, 7], [], none⟩)
    (by simp [ConsumerOp.Allowed]) rfl

/-- **C36, histories.** After every history of allowed calls, the bytes written are a prefix of the bytes passed in; all of
them once the adaptor has been closed; after an error they are a prefix of the bytes offered, and it was the writer that
failed at that point. -/
theorem writer_history {ω κ : Type} {W : AsyncWrite ω} {D : ω → List UInt8 → Option Unit → Prop} {X : WriterFaults} {w : ω}
    {l : List UInt8} (hw : Writes W D X w l) {Q : Queue κ UInt8} {cap : Nat}
    {RQ : κ → List UInt8 → List UInt8 → Nat → Prop} (hQ : FifoLaw Q cap RQ) (hcap : 0 < cap) {q : κ} (hq : RQ q [] [] 0)
    {taken : List UInt8} {s : QueueWriter ω κ} {slots : List UInt8} {ended : Option (ConsumerEnd UInt8 Unit IoError)}
    (h : ConsumerRuns (writerConsumer W Q) ⟨w, q⟩ taken s slots ended) :
    match ended with
    | none => ∃ d, d <+: l ++ taken ∧ D s.writer d none
    | some (.closed _) => D s.writer (l ++ taken) (some ())
    | some (.failed e offered) => ∃ d, d <+: l ++ taken ++ offered ∧ D s.writer d none ∧ (X.writing d e ∨ X.flush d e)
    | some (.closeFailed e _) => ∃ d, d <+: l ++ taken ∧ D s.writer d none ∧
        (X.writing d e ∨ X.flush d e ∨ (d = l ++ taken ∧ X.close (l ++ taken) e))
    | some (.flushFailed e) => ∃ d, d <+: l ++ taken ∧ D s.writer d none ∧ (X.writing d e ∨ X.flush d e) := by
  have hA := deferring_consumer_history X.regular (writer_defers hw hQ hcap hq) h
  match ended with
  | none => exact hA
  | some (.closed f) => exact hA
  | some (.failed e offered) =>
    obtain ⟨d, h1, h2, h3⟩ := hA
    cases offered with
    | nil =>
      obtain ⟨h4, h5⟩ := h1 rfl
      exact ⟨d, by simpa using h4, h3, h5⟩
    | cons x offered =>
      obtain ⟨h4, h5⟩ := h2 (by simp)
      exact ⟨d, h4, h3, h5⟩
  | some (.closeFailed e f) =>
    obtain ⟨d, ⟨h1, h2⟩, h3⟩ := hA
    exact ⟨d, h1, h3, h2⟩
  | some (.flushFailed e) =>
    obtain ⟨d, ⟨h1, h2⟩, h3⟩ := hA
    exact ⟨d, h1, h3, h2⟩

example : ∃ d, d <+: [5, 6, 7] ∧ (([], none) : List UInt8 × Option Unit) = (d, none) :=
  writer_history ⟨_, chunkWriter_writes 1 9 ⟨.other 3, none⟩, rfl⟩ (Fixed.fifoLaw UInt8 3) (by decide) (Fixed.holds_new 3 _)
    chunkWriter_runs

/-- **C36, `consume`, `bulk_consume` and `flush`.** After every history of allowed calls: if the next call is a successful
`consume`, `bulk_consume` or `flush`, then everything that has been passed in has been written. -/
theorem writer_writes_immediately {ω κ : Type} {W : AsyncWrite ω} {D : ω → List UInt8 → Option Unit → Prop}
    {X : WriterFaults} {w : ω} {l : List UInt8} (hw : Writes W D X w l) {Q : Queue κ UInt8} {cap : Nat}
    {RQ : κ → List UInt8 → List UInt8 → Nat → Prop} (hQ : FifoLaw Q cap RQ) (hcap : 0 < cap) {q : κ} (hq : RQ q [] [] 0)
    {taken : List UInt8} {s : QueueWriter ω κ} {slots : List UInt8}
    (h : ConsumerRuns (writerConsumer W Q) ⟨w, q⟩ taken s slots none) :
    (∀ x s', (writerConsumer W Q).consume s x = ok (s', .ok ()) → D s'.writer (l ++ taken ++ [x]) none) ∧
    (∀ buf k s', buf ≠ [] → (writerConsumer W Q).bulkConsume s buf = ok (s', .ok k) →
      D s'.writer (l ++ taken ++ buf.take k) none) ∧
    (∀ s', (writerConsumer W Q).flush s = ok (s', .ok ()) → D s'.writer (l ++ taken) none) := by
  have hF := fun s' => deferring_consumer_flush X.regular (writer_defers hw hQ hcap hq) h (s'' := s')
  obtain ⟨R, hR, hw⟩ := hw
  obtain ⟨⟨sl, hs⟩, _⟩ := h.afterDeferring X.regular (writer_law hR hQ hcap) (l := l) (sl := [])
    ⟨l, [], 0, by simp, hw, hq⟩
  exact ⟨fun x s' hc => writer_consume_spec hR hQ hcap hs hc,
    fun buf k s' hne hc => writer_bulkConsume_spec hR hQ hcap hs hne hc, hF⟩

example (s' : QueueWriter (List UInt8 × Option Unit) (Fixed UInt8))
    (h : (writerConsumer (chunkWriter 1 9 ⟨.other 3, none⟩) (Fixed.queue UInt8)).flush ⟨([], none), ⟨[5, 6, 7], 0, 3⟩⟩ =
      ok (s', .ok ())) : s'.writer = ([5, 6, 7], none) :=
  (writer_writes_immediately ⟨_, chunkWriter_writes 1 9 ⟨.other 3, none⟩, rfl⟩ (Fixed.fifoLaw UInt8 3) (by decide)
    (Fixed.holds_new 3 _) chunkWriter_runs).2.2 s' h

theorem chunkWriter_answers (m cap : Nat) (e : IoError) : (chunkWriter m cap e).Answers where
  write w buf := by
    by_cases h : w.1.length < cap
    · exact ⟨_, _, by simp [chunkWriter, h]; exact ⟨rfl, rfl⟩, by intro n hn; injection hn with hn; omega⟩
    · exact ⟨w, .error e, by simp [chunkWriter, h], by simp⟩
  flush w := ⟨_, rfl⟩
  close w := ⟨_, rfl⟩

/-- **C36, arbitrary writers.** Every writer whose methods return (and that never claims to have written more bytes than it was
given) meets the hypotheses of the theorems above, with the record of the bytes that it accepted as observation. -/
theorem writer_logged {ω : Type} {W : AsyncWrite ω} (hW : W.Answers) (w : ω) :
    Writes W.logged logOf .any (w, [], none) [] :=
  ⟨_, logged_writes hW, rfl, rfl⟩

example : Writes (chunkWriter 1 4 ⟨.other 3, none⟩).logged logOf .any (([], none), [], none) [] :=
  writer_logged (chunkWriter_answers _ _ _) _

/-- The same with a writer that records what it has accepted. -/
theorem chunkWriter_runs_logged : ConsumerRuns (writerConsumer (chunkWriter 1 9 ⟨.other 3, none⟩).logged (Fixed.queue UInt8))
    ⟨(([], none), [], none), Fixed.new 3 fun _ => 0⟩ [5, 6, 7] ⟨(([], none), [], none), ⟨[5, 6, 7], 0, 3⟩⟩ [] none := by
  have h0 : (writerConsumer (chunkWriter 1 9 ⟨.other 3, none⟩).logged (Fixed.queue UInt8)).call
      ⟨(([], none), [], none), Fixed.new 3 fun _ => 0⟩ [] .exposeSlots =
      ok (⟨(([], none), [], none), Fixed.new 3 fun _ => 0⟩, ⟨[], [0, 0, 0], none⟩) := by
    simp only [BulkConsumer.call, writerConsumer, QueueWriter.flushInternalBuffer]
    rw [loop_eq_of_fuel (n := 1)]
    · rfl
    · simp [loopFuel, QueueWriter.flushBody, Fixed.queue, Fixed.exposeItems, Fixed.new]
  have h1 := (ConsumerRuns.start (C := writerConsumer (chunkWriter 1 9 ⟨.other 3, none⟩).logged (Fixed.queue UInt8))
    (s₀ := ⟨(([], none), [], none), Fixed.new 3 fun _ => 0⟩)).call (op := .exposeSlots) trivial h0
  have h2 := h1.call (op := .write [5, 6, 7]) (s' := ⟨(([], none), [], none), ⟨[5, 6, 7], 0, 0⟩⟩) (r := ⟨[], [5, 6, 7], none⟩)
    (by simp [ConsumerOp.Allowed]) rfl
  exact h2.call (op := .consumeSlots 3) (s' := ⟨(([], none), [], none), ⟨[5, 6, 7], 0, 3⟩⟩) (r := ⟨[5, 6, 7], [], none⟩)
    (by simp [ConsumerOp.Allowed]) rfl

/-- So for every such writer and every history, the bytes that the writer accepted are a prefix of the bytes passed to the
adaptor; exactly those bytes once it has been closed. -/
theorem writer_conserves {ω κ : Type} {W : AsyncWrite ω} (hW : W.Answers) {Q : Queue κ UInt8} {cap : Nat}
    {RQ : κ → List UInt8 → List UInt8 → Nat → Prop} (hQ : FifoLaw Q cap RQ) (hcap : 0 < cap) {q : κ} (hq : RQ q [] [] 0)
    (w : ω) {taken : List UInt8} {s : QueueWriter (ω × List UInt8 × Option Unit) κ} {slots : List UInt8}
    {ended : Option (ConsumerEnd UInt8 Unit IoError)}
    (h : ConsumerRuns (writerConsumer W.logged Q) ⟨(w, [], none), q⟩ taken s slots ended) :
    match ended with
    | some (.closed _) => s.writer.2.1 = taken ∧ s.writer.2.2 = some ()
    | some (.failed _ offered) => s.writer.2.1 <+: taken ++ offered ∧ s.writer.2.2 = none
    | _ => s.writer.2.1 <+: taken ∧ s.writer.2.2 = none := by
  have hA := writer_history (writer_logged hW w) hQ hcap hq h
  match ended with
  | none => obtain ⟨d, h1, rfl, h2⟩ := hA; exact ⟨h1, h2⟩
  | some (.closed f) => exact hA
  | some (.failed e offered) => obtain ⟨d, h1, ⟨rfl, h2⟩, _⟩ := hA; exact ⟨h1, h2⟩
  | some (.closeFailed e f) => obtain ⟨d, h1, ⟨rfl, h2⟩, _⟩ := hA; exact ⟨h1, h2⟩
  | some (.flushFailed e) => obtain ⟨d, h1, ⟨rfl, h2⟩, _⟩ := hA; exact ⟨h1, h2⟩

example : ∃ s, ConsumerRuns (writerConsumer (chunkWriter 1 9 ⟨.other 3, none⟩).logged (Fixed.queue UInt8))
      ⟨(([], none), [], none), Fixed.new 3 fun _ => 0⟩ [5, 6, 7] s [] none ∧
    s.writer.2.1 <+: [5, 6, 7] ∧ s.writer.2.2 = none :=
  ⟨_, chunkWriter_runs_logged, writer_conserves (chunkWriter_answers _ _ _) (Fixed.fifoLaw UInt8 3) (by decide)
    (Fixed.holds_new 3 _) _ chunkWriter_runs_logged⟩

/-- A history in which bytes are still waiting in the queue, and are then written by `consume` (in two writes of at most two
bytes each). -/
example : ∃ s, ConsumerRuns (writerConsumer (chunkWriter 1 9 ⟨.other 3, none⟩) (Fixed.queue UInt8))
      ⟨([], none), Fixed.new 3 fun _ => 0⟩ [5, 6, 7] s [] none ∧ s.writer = ([], none) ∧
    ∃ s', (writerConsumer (chunkWriter 1 9 ⟨.other 3, none⟩) (Fixed.queue UInt8)).consume s 8 = ok (s', .ok ()) ∧
      s'.writer = ([5, 6, 7, 8], none) := by
  refine ⟨_, chunkWriter_runs, rfl, ?_⟩
  have hq : Fixed.Holds 3 (⟨[5, 6, 7], 0, 3⟩ : Fixed UInt8) [5, 6, 7] [] 0 := by
    refine ⟨rfl, rfl, by simp, by simp, .inl (by simp), ?_, .inl rfl⟩
    intro i x h
    match i, h with
    | 0, h => exact h
    | 1, h => exact h
    | 2, h => exact h
    | i + 3, h => simp at h
  have hl := writer_law (chunkWriter_writes 1 9 ⟨.other 3, none⟩) (Fixed.fifoLaw UInt8 3) (by decide)
  obtain ⟨s', ⟨hc, _⟩ | ⟨e, d, hc, ⟨hd, (⟨h4, _⟩ | ⟨h4, _⟩) | h4⟩, _⟩⟩ := hl.base.consume
    ⟨([], none), ⟨[5, 6, 7], 0, 3⟩⟩ [5, 6, 7] 8 ⟨[], [], [5, 6, 7], 0, rfl, rfl, hq⟩
  · exact ⟨s', hc, writer_consume_spec (chunkWriter_writes 1 9 ⟨.other 3, none⟩) (Fixed.fifoLaw UInt8 3) (by decide)
      (l := [5, 6, 7]) (slots := []) ⟨[], [5, 6, 7], 0, rfl, rfl, hq⟩ hc⟩
  · have := hd.length_le; simp at this; omega
  all_goals exact h4.elim

/-- Why capacity 0 is excluded: exposing slots panics, for every writer. -/
theorem writer_capacity_zero_panics {ω : Type} (W : AsyncWrite ω) (w : ω) (tmp : Nat → UInt8) :
    (writerConsumer W (Fixed.queue UInt8)).exposeSlots ⟨w, Fixed.new 0 tmp⟩ = .panic ∧
      (writerConsumer W (Static.queue UInt8 0)).exposeSlots ⟨w, Static.new 0 tmp⟩ = .panic := by
  constructor
  · simp only [writerConsumer, QueueWriter.flushInternalBuffer]
    rw [loop_eq_of_fuel (n := 1)]
    · rfl
    · simp [loopFuel, QueueWriter.flushBody, Fixed.queue, Fixed.exposeItems, Fixed.new]
  · simp only [writerConsumer, QueueWriter.flushInternalBuffer]
    rw [loop_eq_of_fuel (n := 1)]
    · rfl
    · simp [loopFuel, QueueWriter.flushBody, Static.queue, Static.exposeItems, Static.new]

end Verif
