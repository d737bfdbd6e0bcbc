import Verif.Props.Io
import Verif.Lemmas.IoDirect
import Verif.Lemmas.QueueRing

/-!
# C73: The adaptors for readers and writers sidestep their queue

`/repo/ufotofu/src/producer/reader.rs:113` and `/repo/ufotofu/src/consumer/writer.rs:9`: "Only when calling
`BulkProducer::expose_items` does it fill the buffer, to offer a slice. When interacting with the wrapper solely through
`BulkProducer::bulk_produce` or other methods implemented in terms of `bulk_produce`, the extra buffer gets fully sidestepped."
-/

namespace Verif

open Outcome

/-! ## Sidestepping -/

/-- **C73, `ReaderToBulkProducer`.** Whatever the reader does, as long as the queue says that it is empty: any sequence of calls
other than `expose_items` and `consider_produced` has the same answers and the same effect on the reader as if there was no queue,
and the queue stays as it is. The same holds for the functions that use no other methods. -/
theorem reader_sidesteps {ρ κ : Type} (Rd : AsyncRead ρ) {Q : Queue κ UInt8} {q : κ} (hq : Q.SaysEmpty q) (r : ρ) :
    (∀ ops : List (ProducerOp UInt8), (∀ op ∈ ops, op.Direct) →
      (readerProducer Rd Q).callAll ⟨r, q⟩ [] ops = ((bareReader Rd).callAll r [] ops).onState fun r => ⟨r, q⟩) ∧
    produceItem (readerProducer Rd Q).toProducer ⟨r, q⟩ =
      (produceItem (bareReader Rd).toProducer r).onState (fun r => ⟨r, q⟩) ∧
    (∀ buf, overwriteFullSlice (readerProducer Rd Q).toProducer ⟨r, q⟩ buf =
      (overwriteFullSlice (bareReader Rd).toProducer r buf).onState fun r => ⟨r, q⟩) ∧
    (∀ buf, bulkOverwriteFullSlice (readerProducer Rd Q) ⟨r, q⟩ buf =
      (bulkOverwriteFullSlice (bareReader Rd) r buf).onState fun r => ⟨r, q⟩) ∧
    (∀ (τ E : Type) (C : Consumer τ UInt8 Unit E) t, pipe (readerProducer Rd Q).toProducer C ⟨r, q⟩ t =
      (pipe (bareReader Rd).toProducer C r t).onState fun (r, t) => (⟨r, q⟩, t)) ∧
    (∀ (τ E : Type) (C : Consumer τ UInt8 Unit E) t count, pipeAtMost (readerProducer Rd Q).toProducer C ⟨r, q⟩ t count =
      (pipeAtMost (bareReader Rd).toProducer C r t count).onState fun (r, t) => (⟨r, q⟩, t)) :=
  have h := reader_mirrors Rd hq
  ⟨fun ops hops => h.callAll ops hops r [] [], h.produceItem r, h.overwriteFullSlice r, h.bulkOverwriteFullSlice r,
    fun _ _ C t => h.pipe C r t, fun _ _ C t count => h.pipeAtMost C r t count⟩

/-- **C73, `WriterToBulkConsumer`.** Likewise for any sequence of calls other than `expose_slots` and `consume_slots`, and for the
functions that use no other methods. -/
theorem writer_sidesteps {ω κ : Type} (W : AsyncWrite ω) {Q : Queue κ UInt8} {q : κ} (hq : Q.SaysEmpty q) (w : ω) :
    (∀ ops : List (ConsumerOp UInt8 Unit), (∀ op ∈ ops, op.Direct) →
      (writerConsumer W Q).callAll ⟨w, q⟩ [] ops = ((bareWriter W).callAll w [] ops).onState fun w => ⟨w, q⟩) ∧
    (∀ buf, consumeFullSlice (writerConsumer W Q).toConsumer ⟨w, q⟩ buf =
      (consumeFullSlice (bareWriter W).toConsumer w buf).onState fun w => ⟨w, q⟩) ∧
    (∀ buf, bulkConsumeFullSlice (writerConsumer W Q) ⟨w, q⟩ buf =
      (bulkConsumeFullSlice (bareWriter W) w buf).onState fun w => ⟨w, q⟩) ∧
    (∀ (σ E : Type) (P : Producer σ UInt8 Unit E) s, pipe P (writerConsumer W Q).toConsumer s ⟨w, q⟩ =
      (pipe P (bareWriter W).toConsumer s w).onState fun (s, w) => (s, ⟨w, q⟩)) ∧
    (∀ (σ E : Type) (P : Producer σ UInt8 Unit E) s count, pipeAtMost P (writerConsumer W Q).toConsumer s ⟨w, q⟩ count =
      (pipeAtMost P (bareWriter W).toConsumer s w count).onState fun (s, w) => (s, ⟨w, q⟩)) ∧
    (∀ (σ E : Type) (P : BulkProducer σ UInt8 Unit E) s, bulkPipe P (writerConsumer W Q) s ⟨w, q⟩ =
      (bulkPipe P (bareWriter W) s w).onState fun (s, w) => (s, ⟨w, q⟩)) ∧
    (∀ (σ E : Type) (P : BulkProducer σ UInt8 Unit E) s count, bulkPipeAtMost P (writerConsumer W Q) s ⟨w, q⟩ count =
      (bulkPipeAtMost P (bareWriter W) s w count).onState fun (s, w) => (s, ⟨w, q⟩)) :=
  have h := writer_mirrors W hq
  ⟨fun ops hops => h.callAll ops hops w [] [], h.consumeFullSlice w, h.bulkConsumeFullSlice w,
    fun _ _ P s => h.pipe P s w, fun _ _ P s count => h.pipeAtMost P s w count,
    fun _ _ P s => h.bulkPipe P s w, fun _ _ P s count => h.bulkPipeAtMost P s w count⟩

/-- Queues that act as first-in-first-out queues say that they are empty when they are, in particular new ones (also of capacity
0). -/
theorem FifoLaw.saysEmpty {κ I : Type} {Q : Queue κ I} {cap : Nat} {R : κ → List I → List I → Nat → Prop} (hQ : FifoLaw Q cap R)
    {q : κ} {slots : List I} {n : Nat} (hq : R q [] slots n) : Q.SaysEmpty q where
  isEmpty := hQ.isEmpty q [] slots n hq
  dequeue := hQ.dequeue_empty q slots n hq
  exposeItems := hQ.exposeItems_empty q slots n hq

/-- A history that reads directly: bytes are read into the buffers of the caller, a queue of capacity 0 is enough. -/
example : (readerProducer (chunkReader 1 (.ok ())).toAsyncRead (Fixed.queue UInt8)).callAll ⟨[1, 2, 3, 4], Fixed.new 0 fun _ => 0⟩ []
      [.bulkProduce [7, 7, 7], .slurp, .bulkProduce [7], .bulkProduce [7, 7], .bulkProduce [7]] =
    ok (⟨[], Fixed.new 0 fun _ => 0⟩,
      [⟨[1, 2], [], none⟩, ⟨[], [], none⟩, ⟨[3], [], none⟩, ⟨[4], [], none⟩, ⟨[], [], some (.ok ())⟩]) := by
  rw [(reader_sidesteps _ ((Fixed.fifoLaw UInt8 0).saysEmpty (Fixed.holds_new 0 _)) _).1 _ (by
    intro op hop; simp at hop; rcases hop with rfl | rfl | rfl | rfl | rfl <;> trivial)]
  rfl

/-- A history that writes directly. -/
example : (writerConsumer (chunkWriter 1 4 ⟨.other 3, none⟩) (Static.queue UInt8 0)).callAll ⟨([], none), Static.new 0 fun _ => 0⟩ []
      [.bulkConsume [5, 6, 7], .flush, .bulkConsume [8], .close ()] =
    ok (⟨([5, 6, 8], some ()), Static.new 0 fun _ => 0⟩,
      [⟨[5, 6], [], none⟩, ⟨[], [], none⟩, ⟨[8], [], none⟩, ⟨[], [], some (.closed ())⟩]) := by
  rw [(writer_sidesteps _ ((Static.fifoLaw UInt8 0).saysEmpty (Static.holds_new 0 _)) _).1 _ (by
    intro op hop; simp at hop; rcases hop with rfl | rfl | rfl | rfl <;> trivial)]
  rfl

/-- In contrast, exposing items does fill the queue. -/
example : (readerProducer (chunkReader 1 (.ok ())).toAsyncRead (Fixed.queue UInt8)).exposeItems ⟨[1, 2, 3, 4], Fixed.new 3 fun _ => 0⟩ =
    ok (⟨[3, 4], ⟨[1, 2, 0], 0, 2⟩⟩, .ok (.inl [1, 2])) := rfl

/-! ## Only exposing fills the queue -/

/-- **C73, `ReaderToBulkProducer`.** After every history of allowed calls (for every reader that respects the lengths of buffers;
it is instrumented with a record of the bytes it delivers, which makes no difference): a call puts bytes into the queue only if it
is `expose_items` and the queue was empty. -/
theorem reader_only_expose_fills {ρ κ : Type} {Rd : AsyncRead ρ} (hR : Rd.RespectsBuffers) {Q : Queue κ UInt8} {cap : Nat}
    {RQ : κ → List UInt8 → List UInt8 → Nat → Prop} (hQ : FifoLaw Q cap RQ) (hcap : 0 < cap) {q : κ} (hq : RQ q [] [] 0)
    (r : ρ) {handed shown : List UInt8} {s : QueueReader (ρ × List UInt8) κ}
    (h : ProducerRuns (readerProducer Rd.logged Q) ⟨(r, []), q⟩ handed s shown none) {op : ProducerOp UInt8}
    (hop : op.Allowed shown) {s' : QueueReader (ρ × List UInt8) κ} {a : Handout UInt8 Unit IoError}
    (hcall : (readerProducer Rd.logged Q).call s shown op = ok (s', a)) (hlt : Q.len s.queue < Q.len s'.queue) :
    op = .exposeItems ∧ Q.len s.queue = 0 := by
  have hC : ∀ {handed s shown ended}, ProducerRuns (readerProducer Rd.logged Q) ⟨(r, []), q⟩ handed s shown ended →
      Conserved RQ handed s shown := by
    intro handed s shown ended h
    induction h with
    | start => exact ⟨[], [], 0, hq, by simp, by simp, by simp⟩
    | call _ hop hcall ih => exact conserved_call hR hQ hcap ih hop hcall
  obtain ⟨l, slots, n, hl, hlog, hsh, hn⟩ := hC h
  obtain ⟨l', slots', n', hl', hlog', hsh', hn'⟩ := hC (h.call hop hcall)
  rw [hQ.len _ _ _ _ hl, hQ.len _ _ _ _ hl'] at hlt
  rw [hQ.len _ _ _ _ hl]
  cases op with
  | produce =>
    exfalso
    cases l with
    | nil =>
      simp only [BulkProducer.call, readerProducer, hQ.dequeue_empty _ _ _ hl, bind_eq, pure_eq, Outcome.bind] at hcall
      rcases hr : readByte Rd.logged s.reader 17 with ⟨r', res⟩ | _ | _ <;> rw [hr] at hcall
      · rcases res with e | b | _ <;> (simp only [Outcome.ok.injEq, Prod.mk.injEq] at hcall; obtain ⟨rfl, rfl⟩ := hcall)
        all_goals (have h1 := hQ.len _ _ _ _ hl'; have h2 := hQ.len _ _ _ _ hl; dsimp only at h1; omega)
      · cases hcall
      · cases hcall
    | cons b l =>
      obtain ⟨q', h1, h2⟩ := hQ.dequeue _ b l slots n hl
      simp [BulkProducer.call, readerProducer, h1] at hcall
      obtain ⟨rfl, rfl⟩ := hcall
      have h3 := hQ.len _ _ _ _ hl'
      have h4 := hQ.len _ _ _ _ h2
      dsimp only at h3
      simp only [List.length_cons] at hlt
      omega
  | slurp =>
    exfalso
    simp [BulkProducer.call, readerProducer] at hcall
    obtain ⟨rfl, rfl⟩ := hcall
    have h1 := hQ.len _ _ _ _ hl'
    have h2 := hQ.len _ _ _ _ hl
    omega
  | exposeItems =>
    refine ⟨rfl, ?_⟩
    cases l with
    | nil => rfl
    | cons b l =>
      exfalso
      obtain ⟨q', m, hm0, hml, h1, h2⟩ := hQ.exposeItems _ _ slots n hl (by simp)
      have hemp := hQ.isEmpty _ _ slots n hl
      simp [BulkProducer.call, readerProducer, hemp, h1] at hcall
      obtain ⟨rfl, rfl⟩ := hcall
      have h3 := hQ.len _ _ _ _ hl'
      have h4 := hQ.len _ _ _ _ h2
      dsimp only at h3
      omega
  | considerProduced k =>
    exfalso
    obtain ⟨_, hk⟩ := hop
    obtain ⟨q', h1, h2⟩ := hQ.considerDequeued _ l slots n k hl (by omega) hcap
    simp [BulkProducer.call, readerProducer, h1] at hcall
    obtain ⟨rfl, rfl⟩ := hcall
    have h3 := hQ.len _ _ _ _ hl'
    have h4 := hQ.len _ _ _ _ h2
    dsimp only at h3
    rw [List.length_drop] at h4
    omega
  | bulkProduce buf =>
    exfalso
    have hemp := hQ.isEmpty _ l slots n hl
    cases l with
    | nil =>
      simp only [List.length_nil, beq_self_eq_true] at hemp
      simp only [BulkProducer.call, readerProducer, hemp, bind_eq, pure_eq, if_true] at hcall
      rcases hr : Rd.logged.read s.reader buf with ⟨r', res, buf'⟩ | _ | _ <;> rw [hr] at hcall
      · rcases res with e | (_ | k) <;> (simp [readAnswer, Outcome.bind] at hcall; obtain ⟨rfl, rfl⟩ := hcall)
        all_goals (have h1 := hQ.len _ _ _ _ hl'; have h2 := hQ.len _ _ _ _ hl; dsimp only at h1; omega)
      · cases hcall
      · cases hcall
    | cons b l =>
      obtain ⟨q', k, h1, _, _, _, ⟨m, h2, _⟩, _⟩ := hQ.bulkDequeue_call hl buf
      simp [BulkProducer.call, readerProducer, hemp, h1] at hcall
      obtain ⟨rfl, rfl⟩ := hcall
      have h3 := hQ.len _ _ _ _ hl'
      have h4 := hQ.len _ _ _ _ h2
      dsimp only at h3
      rw [List.length_drop] at h4
      omega

/-- **C73, `WriterToBulkConsumer`.** After every history of allowed calls (for every writer whose methods return; it is
instrumented with a record of the bytes it accepts, which makes no difference): a call puts bytes into the queue only if it is
`consume_slots`, and every successful call of another method (but writing to exposed slots is no call) leaves the queue empty. -/
theorem writer_only_slots_fill {ω κ : Type} {W : AsyncWrite ω} (hW : W.Answers) {Q : Queue κ UInt8} {cap : Nat}
    {RQ : κ → List UInt8 → List UInt8 → Nat → Prop} (hQ : FifoLaw Q cap RQ) (hcap : 0 < cap) {q : κ} (hq : RQ q [] [] 0)
    (w : ω) {taken slots : List UInt8} {s : QueueWriter (ω × List UInt8 × Option Unit) κ}
    (h : ConsumerRuns (writerConsumer W.logged Q) ⟨(w, [], none), q⟩ taken s slots none) {op : ConsumerOp UInt8 Unit}
    (hop : op.Allowed slots) {s' : QueueWriter (ω × List UInt8 × Option Unit) κ} {a : Receipt UInt8 Unit IoError}
    (hcall : (writerConsumer W.logged Q).call s slots op = ok (s', a)) :
    match op with
    | .consumeSlots k => Q.len s'.queue = Q.len s.queue + k
    | .write _ => Q.len s'.queue = Q.len s.queue
    | _ => a.ended = none ∨ a.ended = some (.closed ()) → Q.len s'.queue = 0 := by
  obtain ⟨⟨sl, d, queued, n, hd, hw, hq'⟩, hsl⟩ := h.afterDeferring WriterFaults.any.regular
    (writer_law (logged_writes hW) hQ hcap) (l := []) (sl := []) ⟨[], [], 0, by simp, ⟨rfl, rfl⟩, hq⟩
  have hlen := hQ.len _ _ _ _ hq'
  have hflush := QueueWriter.flush_spec (logged_writes hW) hQ hcap hq' hw
  cases op with
  | consumeSlots k =>
    obtain ⟨hne, hk⟩ := hop
    obtain ⟨d, queued, n, hd, hw, hq'⟩ := hsl hne
    obtain ⟨q', h1, h2⟩ := hQ.considerEnqueued _ _ _ _ k hq' hk
    simp [BulkConsumer.call, writerConsumer, h1] at hcall
    obtain ⟨rfl, rfl⟩ := hcall
    dsimp only
    rw [hQ.len _ _ _ _ h2, hQ.len _ _ _ _ hq', List.length_append, List.length_take, Nat.min_eq_left hk]
  | write ws =>
    have hws : ws.length ≤ slots.length := hop
    simp only [BulkConsumer.call, writerConsumer, Outcome.ok.injEq, Prod.mk.injEq] at hcall
    obtain ⟨rfl, rfl⟩ := hcall
    dsimp only
    rw [hlen]
    by_cases hne : slots = []
    · subst hne
      exact hQ.len _ _ _ _ (hQ.write _ _ _ _ ws hq' (by simp at hws; simp [hws]))
    · obtain ⟨d, queued', n, hd, hw, hq''⟩ := hsl hne
      rw [hQ.len _ _ _ _ (hQ.write _ _ _ _ ws hq'' hws), ← hlen, hQ.len _ _ _ _ hq'']
  | consume x =>
    intro hend
    obtain ⟨s₁, ⟨h1, h2, m, h3⟩ | ⟨e, d', h1, _⟩⟩ := hflush
    · simp only [BulkConsumer.call, writerConsumer, h1, bind_eq, pure_eq, bind_ok] at hcall
      rcases hr : writeAll W.logged s₁.writer [x] with ⟨w', e | _⟩ | _ | _ <;> rw [hr] at hcall <;>
        simp [Outcome.bind] at hcall
      all_goals (obtain ⟨rfl, rfl⟩ := hcall; exact hQ.len _ _ _ _ h3)
    · simp [BulkConsumer.call, writerConsumer, h1] at hcall
      obtain ⟨rfl, rfl⟩ := hcall
      simp at hend
  | flush =>
    intro hend
    obtain ⟨s₁, ⟨h1, h2, m, h3⟩ | ⟨e, d', h1, _⟩⟩ := hflush
    · simp only [BulkConsumer.call, writerConsumer, h1, bind_eq, pure_eq, bind_ok] at hcall
      rcases hr : W.logged.flush s₁.writer with ⟨w', e | _⟩ | _ | _ <;> rw [hr] at hcall <;>
        simp [Outcome.bind] at hcall
      all_goals (obtain ⟨rfl, rfl⟩ := hcall; exact hQ.len _ _ _ _ h3)
    · simp [BulkConsumer.call, writerConsumer, h1] at hcall
      obtain ⟨rfl, rfl⟩ := hcall
      simp at hend
  | close f =>
    intro hend
    obtain ⟨s₁, ⟨h1, h2, m, h3⟩ | ⟨e, d', h1, _⟩⟩ := hflush
    · simp only [BulkConsumer.call, writerConsumer, h1, bind_eq, pure_eq, bind_ok] at hcall
      rcases hr : W.logged.close s₁.writer with ⟨w', e | _⟩ | _ | _ <;> rw [hr] at hcall <;>
        simp [Outcome.bind] at hcall
      all_goals (obtain ⟨rfl, rfl⟩ := hcall; exact hQ.len _ _ _ _ h3)
    · simp [BulkConsumer.call, writerConsumer, h1] at hcall
      obtain ⟨rfl, rfl⟩ := hcall
      simp at hend
  | exposeSlots =>
    intro hend
    obtain ⟨s₁, ⟨h1, h2, m, h3⟩ | ⟨e, d', h1, _⟩⟩ := hflush
    · obtain ⟨q', slots', _, h4, h5⟩ := hQ.exposeSlots _ _ _ _ h3 (by simpa using hcap)
      simp [BulkConsumer.call, writerConsumer, h1, h4] at hcall
      obtain ⟨rfl, rfl⟩ := hcall
      exact hQ.len _ _ _ _ h5
    · simp [BulkConsumer.call, writerConsumer, h1] at hcall
      obtain ⟨rfl, rfl⟩ := hcall
      simp at hend
  | bulkConsume buf =>
    intro hend
    obtain ⟨s₁, ⟨h1, h2, m, h3⟩ | ⟨e, d', h1, _⟩⟩ := hflush
    · simp only [BulkConsumer.call, writerConsumer, h1, bind_eq, pure_eq, bind_ok] at hcall
      rcases hr : W.logged.write s₁.writer buf with ⟨w', e | _ | k⟩ | _ | _ <;> rw [hr] at hcall <;>
        simp [Outcome.bind] at hcall
      all_goals (obtain ⟨rfl, rfl⟩ := hcall; exact hQ.len _ _ _ _ h3)
    · simp [BulkConsumer.call, writerConsumer, h1] at hcall
      obtain ⟨rfl, rfl⟩ := hcall
      simp at hend

/-- Three bytes are waiting in the queue after `consume_slots`; then a call of `flush` empties it. -/
example : (Fixed.queue UInt8).len (⟨[5, 6, 7], 0, 3⟩ : Fixed UInt8) = 3 ∧
    ∀ s', (writerConsumer (chunkWriter 1 9 ⟨.other 3, none⟩).logged (Fixed.queue UInt8)).flush
      ⟨(([], none), [], none), ⟨[5, 6, 7], 0, 3⟩⟩ = ok (s', .ok ()) → (Fixed.queue UInt8).len s'.queue = 0 :=
  ⟨rfl, fun s' h => writer_only_slots_fill (chunkWriter_answers _ _ _) (Fixed.fifoLaw UInt8 3) (by decide) (Fixed.holds_new 3 _) _
    chunkWriter_runs_logged (op := .flush) trivial (a := ⟨[], [], none⟩) (by simp [BulkConsumer.call, h]) (.inl rfl)⟩

/-- The first call of `expose_items` does put bytes into the queue. -/
example : ∃ s' a, (readerProducer (chunkReader 1 (.ok ())).toAsyncRead.logged (Fixed.queue UInt8)).call
      ⟨([1, 2, 3], []), Fixed.new 2 fun _ => 0⟩ [] .exposeItems = ok (s', a) ∧
    (Fixed.queue UInt8).len (Fixed.new 2 fun _ => 0) < (Fixed.queue UInt8).len s'.queue :=
  ⟨⟨([3], [1, 2]), ⟨[1, 2], 0, 2⟩⟩, ⟨[], [1, 2], none⟩, rfl, by decide⟩

end Verif
