import Verif.IoDropSpec
import Verif.Props.ResumeSlices
import Verif.Props.Io
import Verif.Props.AsyncIo

/-!
# Dropped calls of the adaptors for readers and writers (C105)

The adaptors for readers tolerate dropped calls if the reader does. The adaptor for writers does not, even if the writer does: bytes that
have been written when a flush of the internal buffer is dropped are written again.
-/

namespace Verif.Async

open Outcome

variable {ρ ω κ : Type}

/-- A conditional is pending only where the branch that is taken is. -/
theorem _root_.Verif.Fut.pending_branch {A : Type} {p : Prop} [Decidable p] {f g : Fut A} {k : (if p then f else g).κ}
    (h : (if p then f else g).Pending k) : (p ∧ ∃ k', HEq k k' ∧ f.Pending k') ∨ (¬p ∧ ∃ k', HEq k k' ∧ g.Pending k') := by
  by_cases hp : p
  · refine .inl ⟨hp, ?_⟩
    revert k
    rw [if_pos hp]
    exact fun {k} h => ⟨k, .rfl, h⟩
  · refine .inr ⟨hp, ?_⟩
    revert k
    rw [if_neg hp]
    exact fun {k} h => ⟨k, .rfl, h⟩

/-! ## Readers -/

section Reader

variable {Rd : AsyncRead ρ} {d : ReaderDrops Rd} {R : ρ → Script UInt8 Unit IoError → Prop}

/-- A dropped call that was going to read one byte leaves a reader that has still the same to deliver. -/
theorem read_byte_dropped (hR : ReadsLaw Rd.seq R) (hd : d.Tolerated R) {r r' : ρ} {c : Script UInt8 Unit IoError} {init : UInt8}
    (hr : R r c) {k : (readByte Rd r init).κ} (h : (readByte Rd r init).Pending k) (hk : ReadByteDropped d r init k r') : R r' c := by
  cases hk with
  | mk hk hdr =>
    rename_i r₁ filled rest k kr buf'
    obtain ⟨hi, hp⟩ := Fut.pending_loop (Fut.pending_left h)
    have hinv : ∀ p : ρ × List UInt8 × List UInt8, Fut.Iterated (readExactBody Rd) (r, [], [init]) p → (R p.1 c ∨ p.2.2 = []) ∧
        p.2.2.length ≤ 1 := by
      intro p hi
      refine hi.keeps (Inv := fun p => (R p.1 c ∨ p.2.2 = []) ∧ p.2.2.length ≤ 1) ⟨.inl hr, Nat.le_refl 1⟩ ?_
      rintro ⟨r₁, f₁, b₁⟩ p₂ ⟨h1, h2⟩ hrun
      have hrun : (readExactBody Rd (r₁, f₁, b₁)).run = _ := hrun
      have he : (readExactBody Rd (r₁, f₁, b₁)).run = Verif.readExactBody Rd.seq (r₁, f₁, b₁) := by
        dsimp only [readExactBody, Verif.readExactBody]
        run_congr
      rw [he] at hrun
      dsimp only at h1 h2
      by_cases hb : b₁ = []
      · simp [Verif.readExactBody, hb] at hrun
      · replace h1 := h1.resolve_right hb
        obtain ⟨r₂, b₂, hlen, ⟨n, h0, hn, hread, _⟩ | ⟨_, hread⟩ | ⟨e, _, hread⟩⟩ := hR.read r₁ c b₁ h1 hb
        · simp [Verif.readExactBody, hb, hread, Outcome.assert, hlen, hn, Nat.pos_iff_ne_zero.1 h0] at hrun
          subst hrun
          have : b₂.drop n = [] := List.drop_eq_nil_of_le (by omega)
          exact ⟨.inr this, by simp [this]⟩
        · simp [Verif.readExactBody, hb, hread, Outcome.assert] at hrun
        · simp [Verif.readExactBody, hb, hread] at hrun
    obtain ⟨h1, _⟩ := hinv _ hi
    rcases Fut.pending_branch (f := pure _) (g := readExactStep Rd r₁ filled rest) hp with ⟨_, k', _, hp⟩ | ⟨hb, k', hk', hp⟩
    · exact (Fut.not_pending_pure hp).elim
    · cases eq_of_heq (hk'.symm.trans hk)
      exact (hd.read (h1.resolve_right hb) hb (Fut.pending_left hp) hdr).1

variable {Q : Queue κ UInt8} {cap : Nat} {RQ : κ → List UInt8 → List UInt8 → Nat → Prop}

/-- **C105, `ReaderToBulkProducer`, `expose_items`.** If the reader tolerates dropped calls, then so does the adaptor: after a dropped
call it has still the same to emit. -/
theorem reader_drops (hQ : FifoLaw Q cap RQ) (hcap : 0 < cap) (hd : d.Tolerated R) : (readerDrops Q d).Tolerated (ReaderRel R RQ) where
  exposeItems := by
    rintro ⟨r, q⟩ c n k s' ⟨l, slots, hq, hs, hr, hc⟩ h hk
    cases hk with
    | mk hk hdr =>
      rename_i q₁ osl sl kr r' sl'
      rcases Fut.pending_branch (f := readerExposeStep Rd Q ⟨r, q⟩) h with ⟨hemp, k', hk', hp⟩ | ⟨_, k', _, hp⟩
      · cases eq_of_heq (hk'.symm.trans hk)
        rw [hQ.isEmpty q l slots n hq] at hemp
        have hl : l = [] := by simpa using hemp
        subst hl
        obtain ⟨h1, hp⟩ := Fut.pending_right hp
        obtain ⟨h2, hp₂⟩ := Fut.pending_right hp
        have hp₃ := Fut.pending_left hp₂
        clear hp hp₂
        obtain ⟨q₂, sl₂, hne, h3, h4⟩ := hQ.exposeSlots q [] slots n hq (by simpa using hcap)
        rw [Fut.run_liftM] at h1 h2
        cases h3.symm.trans h1
        cases h2
        obtain ⟨hr', hlen⟩ := hd.read hr hne hp₃ hdr
        have hw := hQ.write _ _ _ _ sl' h4 (by omega)
        exact ⟨n, [], _, hw, hs, hr', hc⟩
      · exact absurd hp ((by quiet : Fut.Quiet _) _)

/-- **C105, `ReaderToBulkProducer`, `bulk_produce`.** -/
theorem reader_bulk_drops (hQ : FifoLaw Q cap RQ) (hd : d.Tolerated R) : (readerBulkDrops Q d).Tolerated (ReaderRel R RQ) where
  bulkProduce := by
    rintro ⟨r, q⟩ c n buf k s' ⟨l, slots, hq, hs, hr, hc⟩ hne h hk
    cases hk with
    | mk hk hdr =>
      rename_i kr r' buf'
      rcases Fut.pending_branch (f := readerBulkStep Rd ⟨r, q⟩ buf) h with ⟨hemp, k', hk', hp⟩ | ⟨_, k', _, hp⟩
      · cases eq_of_heq (hk'.symm.trans hk)
        rw [hQ.isEmpty q l slots n hq] at hemp
        have hl : l = [] := by simpa using hemp
        subst hl
        exact ⟨n, [], slots, hq, hs, (hd.read hr hne (Fut.pending_left hp) hdr).1, hc⟩
      · exact absurd hp ((by quiet : Fut.Quiet _) _)

/-- **C105, `ReaderToBulkProducer`, `produce`.** -/
theorem reader_item_drops (hR : ReadsLaw Rd.seq R) (hQ : FifoLaw Q cap RQ) (hd : d.Tolerated R) :
    (readerItemDrops Q d).Tolerated fun s c => ∃ n, ReaderRel R RQ s c n where
  produce := by
    rintro ⟨r, q⟩ c k s' ⟨n, l, slots, hq, hs, hr, hc⟩ h hk
    cases hk with
    | mk hk =>
      rename_i q₁ k r'
      obtain ⟨h1, hp⟩ := Fut.pending_right h
      rw [Fut.run_liftM] at h1
      dsimp only at h1
      cases l with
      | nil =>
        rw [hQ.dequeue_empty q slots n hq] at h1
        cases h1
        exact ⟨n, [], slots, hq, hs, read_byte_dropped hR hd hr (Fut.pending_left hp) hk, hc⟩
      | cons b l =>
        obtain ⟨q', h2, _⟩ := hQ.dequeue q b l slots n hq
        cases h2.symm.trans h1

end Reader

section BufReader

variable {Rd : AsyncBufRead ρ} {d : BufReaderDrops Rd} {R : ρ → Script UInt8 Unit IoError → Nat → Prop}

/-- **C105, `BufReaderToBulkProducer`, `expose_items`.** -/
theorem buf_reader_drops (hR : BufReadsLaw Rd.seq R) (hd : d.Tolerated R) : (bufReaderDrops d).Tolerated (BufReaderRel R) where
  exposeItems := by
    rintro r c n k r' ⟨hr, hc⟩ h hk
    cases hk with
    | first hk =>
      obtain ⟨m, hm⟩ := hd.fillBuf hr (Fut.pending_left h) hk
      exact ⟨m, hm, hc⟩
    | second hk hdr =>
      rename_i r₁ buf k kf
      obtain ⟨h1, hp⟩ := Fut.pending_right h
      have h1 : Rd.seq.fillBuf r = _ := h1
      rcases Fut.pending_branch (f := pure _) (g := bufReaderExposeStep Rd r₁) hp with ⟨_, k', _, hp⟩ | ⟨hb, k', hk', hp⟩
      · exact (Fut.not_pending_pure hp).elim
      · cases eq_of_heq (hk'.symm.trans hk)
        obtain ⟨r₂, ⟨xs, _, _, h2, h3⟩ | ⟨_, h2, h3⟩ | ⟨e, _, h2⟩⟩ := hR.fillBuf r c n hr <;> cases h2.symm.trans h1
        · obtain ⟨m, hm⟩ := hd.fillBuf h3 (Fut.pending_left hp) hdr
          exact ⟨m, hm, hc⟩
        · exact absurd rfl hb

/-- **C105, `BufReaderToBulkProducer`, `bulk_produce`.** -/
theorem buf_reader_bulk_drops (hd : d.Tolerated R) : (bufReaderBulkDrops d).Tolerated (BufReaderRel R) where
  bulkProduce := by
    rintro r c n buf k r' ⟨hr, hc⟩ hne h ⟨hk⟩
    obtain ⟨⟨m, hm⟩, _⟩ := hd.read.read ⟨n, hr⟩ hne (Fut.pending_left h) hk
    exact ⟨m, hm, hc⟩

/-- **C105, `BufReaderToBulkProducer`, `produce`.** -/
theorem buf_reader_item_drops (hR : BufReadsLaw Rd.seq R) (hd : d.Tolerated R) :
    (bufReaderItemDrops d).Tolerated fun r c => ∃ n, BufReaderRel R r c n where
  produce := by
    rintro r c k r' ⟨n, hr, hc⟩ h hk
    obtain ⟨m, hm⟩ := read_byte_dropped hR.read hd.read ⟨n, hr⟩ h hk
    exact ⟨m, hm, hc⟩

end BufReader

/-! ## Writers -/

section Writer

variable {W : AsyncWrite ω} {d : WriterDrops W} {D : ω → List UInt8 → Option Unit → Prop} {X : WriterFaults} {R : ω → List UInt8 → Prop}

theorem writeAllBody_run (W : AsyncWrite ω) (w : ω) (buf : List UInt8) :
    (writeAllBody W (w, buf)).run = Verif.writeAllBody W.seq (w, buf) := by
  dsimp only [writeAllBody, Verif.writeAllBody]
  run_congr

/-- A dropped call of `write_all` has written a part of the buffer, but not all of it. -/
theorem write_all_dropped (hW : WritesLaw W.seq D X R) (hd : d.Tolerated R) {w w' : ω} {l buf : List UInt8} (hw : R w l)
    {k : (writeAll W w buf).κ} (h : (writeAll W w buf).Pending k) (hk : WriteAllDropped d w buf k w') :
    ∃ ys zs, buf = ys ++ zs ∧ zs ≠ [] ∧ R w' (l ++ ys) := by
  cases hk with
  | mk hk hdr =>
    rename_i w₁ rest k kw
    obtain ⟨hi, hp⟩ := Fut.pending_loop h
    obtain ⟨ys, hys, hy⟩ : ∃ ys, buf = ys ++ rest ∧ R w₁ (l ++ ys) := by
      refine hi.keeps (Inv := fun p : ω × List UInt8 => ∃ ys, buf = ys ++ p.2 ∧ R p.1 (l ++ ys)) ⟨[], rfl, by simpa using hw⟩ ?_
      rintro ⟨w₁, b₁⟩ p₂ ⟨ys, h1, h2⟩ hrun
      rw [writeAllBody_run] at hrun
      dsimp only at h1 h2
      by_cases hb : b₁ = []
      · simp [Verif.writeAllBody, hb] at hrun
      · obtain ⟨w₂, ⟨n, h0, hn, hwr, h3⟩ | ⟨_, hwr, _⟩ | ⟨e, _, hwr, _⟩⟩ := hW.write w₁ _ b₁ h2 hb
        · simp [Verif.writeAllBody, hb, hwr, Outcome.assert, hn, Nat.pos_iff_ne_zero.1 h0] at hrun
          subst hrun
          exact ⟨ys ++ b₁.take n, by simpa using h1, by simpa using h3⟩
        · simp [Verif.writeAllBody, hb, hwr, Outcome.assert] at hrun
        · simp [Verif.writeAllBody, hb, hwr] at hrun
    rcases Fut.pending_branch (f := pure _) (g := writeAllStep W w₁ rest) hp with ⟨_, k', _, hp⟩ | ⟨hb, k', hk', hp⟩
    · exact (Fut.not_pending_pure hp).elim
    · cases eq_of_heq (hk'.symm.trans hk)
      exact ⟨ys, rest, hys, hb, hd.write hy hb (Fut.pending_left hp) hdr⟩

/-- If every `write` takes everything, then a dropped call of `write_all` has written nothing. -/
theorem write_all_dropped_whole (hall : W.TakesAll) (hd : d.Tolerated R) {w w' : ω} {l buf : List UInt8} (hw : R w l)
    {k : (writeAll W w buf).κ} (h : (writeAll W w buf).Pending k) (hk : WriteAllDropped d w buf k w') : R w' l := by
  cases hk with
  | mk hk hdr =>
    rename_i w₁ rest k kw
    obtain ⟨hi, hp⟩ := Fut.pending_loop h
    have hinv : rest = [] ∨ w₁ = w := by
      refine hi.keeps (Inv := fun p : ω × List UInt8 => p.2 = [] ∨ p.1 = w) (.inr rfl) ?_
      rintro ⟨w₁, b₁⟩ p₂ _ hrun
      rw [writeAllBody_run] at hrun
      by_cases hb : b₁ = []
      · simp [Verif.writeAllBody, hb] at hrun
      · rcases hwr : W.seq.write w₁ b₁ with ⟨w₂, e | n⟩ | _ | _
        · simp [Verif.writeAllBody, hb, hwr] at hrun
        · obtain rfl := hall _ _ _ _ hwr
          simp [Verif.writeAllBody, hb, hwr, Outcome.assert] at hrun
          subst hrun
          exact .inl (by simp)
        · simp [Verif.writeAllBody, hb, hwr, Outcome.bind] at hrun
        · simp [Verif.writeAllBody, hb, hwr, Outcome.bind] at hrun
    rcases Fut.pending_branch (f := pure _) (g := writeAllStep W w₁ rest) hp with ⟨_, k', _, hp⟩ | ⟨hb, k', hk', hp⟩
    · exact (Fut.not_pending_pure hp).elim
    · cases eq_of_heq (hk'.symm.trans hk)
      obtain rfl := hinv.resolve_left hb
      exact hd.write hw hb (Fut.pending_left hp) hdr

variable {Q : Queue κ UInt8} {cap : Nat} {RQ : κ → List UInt8 → List UInt8 → Nat → Prop}

/-- Where a flush of the internal buffer is dropped: a first part of the buffer has been written and dequeued, and writing a part of what
is left is pending. -/
theorem writer_flush_left (hW : WritesLaw W.seq D X R) (hQ : FifoLaw Q cap RQ) (hcap : 0 < cap)
    {s s' : QueueWriter ω κ} {out l slots : List UInt8} {n : Nat} (hw : R s.writer out) (hq : RQ s.queue l slots n)
    {k : (QueueWriter.flushInternalBuffer W Q s).κ} (h : (QueueWriter.flushInternalBuffer W Q s).Pending k)
    (hk : FlushDropped d s k s') : ∃ xs l₁ m n w₁ k', l = xs ++ l₁ ∧ l₁ ≠ [] ∧ R w₁ (out ++ xs) ∧ RQ s'.queue l₁ slots n ∧
      (writeAll W w₁ (l₁.take m)).Pending k' ∧ WriteAllDropped d w₁ (l₁.take m) k' s'.writer := by
  cases hk with
  | mk hk =>
    rename_i s₁ q items k w'
    obtain ⟨hi, hp⟩ := Fut.pending_loop h
    obtain ⟨xs, l₁, n₁, hl, h1, h2⟩ : ∃ xs l₁ n₁, l = xs ++ l₁ ∧ R s₁.writer (out ++ xs) ∧ RQ s₁.queue l₁ slots n₁ := by
      refine hi.keeps (Inv := fun s₁ : QueueWriter ω κ => ∃ xs l₁ n₁, l = xs ++ l₁ ∧ R s₁.writer (out ++ xs) ∧ RQ s₁.queue l₁ slots n₁)
        ⟨[], l, n, rfl, by simpa using hw, hq⟩ ?_
      rintro ⟨w₁, q₁⟩ s₂ ⟨xs, l₁, n₁, hl, h1, h2⟩ hrun
      have he : (QueueWriter.flushBody W Q ⟨w₁, q₁⟩).run = Verif.QueueWriter.flushBody W.seq Q ⟨w₁, q₁⟩ := by
        refine Fut.run_bind_congr (Fut.run_liftM _) fun x => ?_
        rcases x with ⟨q, _ | items⟩
        · run_congr
        · refine Fut.run_bind_congr (writeAll_run W w₁ items) fun x => ?_
          run_congr
      rw [he] at hrun
      dsimp only at h1 h2
      by_cases hl₁ : l₁ = []
      · subst hl₁
        simp [Verif.QueueWriter.flushBody, hQ.exposeItems_empty _ _ _ h2] at hrun
      · obtain ⟨q₂, m, hm0, hml, h3, h4⟩ := hQ.exposeItems _ _ _ _ h2 hl₁
        obtain ⟨w₂, ⟨h5, h6⟩ | ⟨e, _, h5, _⟩⟩ := hW.writeAll h1 (l₁.take m)
        · obtain ⟨q₃, h7, h8⟩ := hQ.considerDequeued _ _ _ _ m h4 (by omega) hcap
          have hlen : (l₁.take m).length = m := by simp; omega
          simp only [Verif.QueueWriter.flushBody, h3, h5, hlen, h7, bind_eq, bind_ok, pure_eq] at hrun
          cases hrun
          exact ⟨xs ++ l₁.take m, l₁.drop m, _, by simpa using hl, by simpa using h6, h8⟩
        · simp [Verif.QueueWriter.flushBody, h3, h5] at hrun
    obtain ⟨h3, hp⟩ := Fut.pending_right hp
    rw [Fut.run_liftM] at h3
    by_cases hl₁ : l₁ = []
    · subst hl₁
      cases (hQ.exposeItems_empty _ _ _ h2).symm.trans h3
    · obtain ⟨q₂, m, hm0, hml, h4, h5⟩ := hQ.exposeItems _ _ _ _ h2 hl₁
      cases h4.symm.trans h3
      exact ⟨xs, l₁, m, _, _, k, hl, hl₁, h1, h5, Fut.pending_left hp, hk⟩

/-- **C105, the internal buffer of `WriterToBulkConsumer`.** If flushing it is dropped, then a first part `xs` of the buffer has been
written and dequeued; a second part `ys` has been written, but is still in the buffer; and something has not been written. -/
theorem writer_flush_dropped (hW : WritesLaw W.seq D X R) (hQ : FifoLaw Q cap RQ) (hcap : 0 < cap) (hd : d.Tolerated R)
    {s s' : QueueWriter ω κ} {out l slots : List UInt8} {n : Nat} (hw : R s.writer out) (hq : RQ s.queue l slots n)
    {k : (QueueWriter.flushInternalBuffer W Q s).κ} (h : (QueueWriter.flushInternalBuffer W Q s).Pending k)
    (hk : FlushDropped d s k s') : ∃ xs ys zs, l = xs ++ ys ++ zs ∧ zs ≠ [] ∧ WriterLeft R RQ out slots xs ys zs s' := by
  obtain ⟨xs, l₁, m, n₁, w₁, k', hl, _, h1, h2, hp, hk⟩ := writer_flush_left hW hQ hcap hw hq h hk
  obtain ⟨ys, zs, h6, h7, h8⟩ := write_all_dropped hW hd h1 hp hk
  refine ⟨xs, ys, zs ++ l₁.drop m, ?_, by simp [h7], h8, n₁, ?_⟩
  · rw [hl, List.append_assoc, ← List.append_assoc ys, ← h6, List.take_append_drop]
  · rw [← List.append_assoc, ← h6, List.take_append_drop]
    exact h2

/-- **C105.** If every `write` takes everything that it is offered, nothing has been written without being dequeued. -/
theorem writer_flush_dropped_whole (hW : WritesLaw W.seq D X R) (hQ : FifoLaw Q cap RQ) (hcap : 0 < cap) (hd : d.Tolerated R)
    (hall : W.TakesAll) {s s' : QueueWriter ω κ} {out l slots : List UInt8} {n : Nat} (hw : R s.writer out) (hq : RQ s.queue l slots n)
    {k : (QueueWriter.flushInternalBuffer W Q s).κ} (h : (QueueWriter.flushInternalBuffer W Q s).Pending k)
    (hk : FlushDropped d s k s') : ∃ xs zs, l = xs ++ zs ∧ zs ≠ [] ∧ WriterLeft R RQ out slots xs [] zs s' := by
  obtain ⟨xs, l₁, m, n₁, w₁, k', hl, hne, h1, h2, hp, hk⟩ := writer_flush_left hW hQ hcap hw hq h hk
  exact ⟨xs, l₁, hl, hne, by simpa using write_all_dropped_whole hall hd h1 hp hk, n₁, h2⟩

/-- **C105.** So the part that has been written and not dequeued is written again by the next call: whatever call flushes the buffer
successfully, the writer has then got `ys` twice. -/
theorem writer_flush_again (hW : WritesLaw W.seq D X R) (hQ : FifoLaw Q cap RQ) (hcap : 0 < cap) {s' : QueueWriter ω κ}
    {out slots xs ys zs : List UInt8} (h : WriterLeft R RQ out slots xs ys zs s') :
    ∃ s₂, ((QueueWriter.flushInternalBuffer W Q s').run = ok (s₂, .ok ()) ∧ R s₂.writer (out ++ xs ++ ys ++ ys ++ zs) ∧
        ∃ m, RQ s₂.queue [] slots m) ∨
      ∃ e d', (QueueWriter.flushInternalBuffer W Q s').run = ok (s₂, .error e) ∧ d' <+: out ++ xs ++ ys ++ ys ++ zs ∧ X.writing d' e ∧
        D s₂.writer d' none := by
  obtain ⟨hw, n, hq⟩ := h
  have := Verif.QueueWriter.flush_spec hW hQ hcap hq hw
  rw [← flushInternalBuffer_run] at this
  simpa only [List.append_assoc] using this

/-- **C105.** More generally, the adaptor is then in a state as if `ys` had been passed in twice. -/
theorem writer_left_defers (hW : WritesLaw W.seq D X R) (hQ : FifoLaw Q cap RQ) (hcap : 0 < cap) {s' : QueueWriter ω κ}
    {out slots xs ys zs : List UInt8} (h : WriterLeft R RQ out slots xs ys zs s') :
    BulkDefers (writerConsumer W Q).seq (fun s => D s.writer) X.faults s' (out ++ xs ++ ys ++ ys ++ zs) := by
  obtain ⟨hw, n, hq⟩ := h
  rw [writerConsumer_seq]
  exact ⟨_, writer_law hW hQ hcap, slots, _, _, n, by simp, hw, hq⟩

/-- **C105, `consume`.** If it is dropped, nothing of its own byte has been written. Either the flush has been dropped, or the buffer has
been written and is empty. -/
theorem writer_consume_dropped (hW : WritesLaw W.seq D X R) (hQ : FifoLaw Q cap RQ) (hcap : 0 < cap) (hd : d.Tolerated R)
    {s s' : QueueWriter ω κ} {x : UInt8} {out l slots : List UInt8} {n : Nat} (hw : R s.writer out) (hq : RQ s.queue l slots n)
    {k : ((writerConsumer W Q).consume s x).κ} (h : ((writerConsumer W Q).consume s x).Pending k)
    (hk : (writerConsumeDrops Q d).consume s x k s') :
    ∃ xs ys zs, l = xs ++ ys ++ zs ∧ (zs = [] → ys = []) ∧ WriterLeft R RQ out slots xs ys zs s' := by
  cases hk with
  | flushing hk =>
    obtain ⟨xs, ys, zs, h1, h2, h3⟩ := writer_flush_dropped hW hQ hcap hd hw hq (Fut.pending_left h) hk
    exact ⟨xs, ys, zs, h1, fun h => absurd h h2, h3⟩
  | writing hk =>
    rename_i s₁ k w'
    obtain ⟨h1, hp⟩ := Fut.pending_right h
    have h1 : (QueueWriter.flushInternalBuffer W Q s).run = _ := h1
    rw [flushInternalBuffer_run] at h1
    obtain ⟨s₂, ⟨h2, h3, m, h4⟩ | ⟨e, _, h2, _⟩⟩ := Verif.QueueWriter.flush_spec hW hQ hcap hq hw <;> cases h2.symm.trans h1
    obtain ⟨ys, zs, h5, h6, h7⟩ := write_all_dropped hW hd h3 (Fut.pending_left hp) hk
    have hys : ys = [] := by
      rcases ys with _ | ⟨y, ys⟩
      · rfl
      · rw [List.cons_append, List.cons.injEq] at h5
        exact absurd (List.append_eq_nil_iff.1 h5.2.symm).2 h6
    subst hys
    exact ⟨l, [], [], by simp, fun _ => rfl, by simpa using h7, m, h4⟩

/-- **C105, `bulk_consume`.** If it is dropped, nothing of its own buffer has been written. -/
theorem writer_bulk_consume_dropped (hW : WritesLaw W.seq D X R) (hQ : FifoLaw Q cap RQ) (hcap : 0 < cap) (hd : d.Tolerated R)
    {s s' : QueueWriter ω κ} {buf out l slots : List UInt8} {n : Nat} (hw : R s.writer out) (hq : RQ s.queue l slots n) (hne : buf ≠ [])
    {k : ((writerConsumer W Q).bulkConsume s buf).κ} (h : ((writerConsumer W Q).bulkConsume s buf).Pending k)
    (hk : (writerDrops Q d).bulkConsume s buf k s') :
    ∃ xs ys zs, l = xs ++ ys ++ zs ∧ (zs = [] → ys = []) ∧ WriterLeft R RQ out slots xs ys zs s' := by
  cases hk with
  | flushing hk =>
    obtain ⟨xs, ys, zs, h1, h2, h3⟩ := writer_flush_dropped hW hQ hcap hd hw hq (Fut.pending_left h) hk
    exact ⟨xs, ys, zs, h1, fun h => absurd h h2, h3⟩
  | writing hk =>
    rename_i s₁ k w'
    obtain ⟨h1, hp⟩ := Fut.pending_right h
    have h1 : (QueueWriter.flushInternalBuffer W Q s).run = _ := h1
    rw [flushInternalBuffer_run] at h1
    obtain ⟨s₂, ⟨h2, h3, m, h4⟩ | ⟨e, _, h2, _⟩⟩ := Verif.QueueWriter.flush_spec hW hQ hcap hq hw <;> cases h2.symm.trans h1
    have h7 := hd.write h3 hne (Fut.pending_left hp) hk
    exact ⟨l, [], [], by simp, fun _ => rfl, by simpa using h7, m, h4⟩

/-- **C105, `flush`.** If it is dropped, either the flush of the internal buffer has been dropped, or the buffer has been written and is empty. -/
theorem writer_flush_call_dropped (hW : WritesLaw W.seq D X R) (hQ : FifoLaw Q cap RQ) (hcap : 0 < cap) (hd : d.Tolerated R)
    {e : WriterEndDrops W} (he : e.Tolerated R) {s s' : QueueWriter ω κ} {out l slots : List UInt8} {n : Nat} (hw : R s.writer out)
    (hq : RQ s.queue l slots n) {k : ((writerConsumer W Q).flush s).κ} (h : ((writerConsumer W Q).flush s).Pending k)
    (hk : WriterFlushDropped d e s k s') :
    ∃ xs ys zs, l = xs ++ ys ++ zs ∧ (zs = [] → ys = []) ∧ WriterLeft R RQ out slots xs ys zs s' := by
  cases hk with
  | flushing hk =>
    obtain ⟨xs, ys, zs, h1, h2, h3⟩ := writer_flush_dropped hW hQ hcap hd hw hq (Fut.pending_left h) hk
    exact ⟨xs, ys, zs, h1, fun h => absurd h h2, h3⟩
  | ending hk =>
    rename_i s₁ k w'
    obtain ⟨h1, hp⟩ := Fut.pending_right h
    have h1 : (QueueWriter.flushInternalBuffer W Q s).run = _ := h1
    rw [flushInternalBuffer_run] at h1
    obtain ⟨s₂, ⟨h2, h3, m, h4⟩ | ⟨e, _, h2, _⟩⟩ := Verif.QueueWriter.flush_spec hW hQ hcap hq hw <;> cases h2.symm.trans h1
    have h7 := he.flush h3 (Fut.pending_left hp) hk
    exact ⟨l, [], [], by simp, fun _ => rfl, by simpa using h7, m, h4⟩

/-- **C105, `close`.** The same. With `writer_left_defers`: `close` can be called again, and writes `ys` again. -/
theorem writer_close_call_dropped (hW : WritesLaw W.seq D X R) (hQ : FifoLaw Q cap RQ) (hcap : 0 < cap) (hd : d.Tolerated R)
    {e : WriterEndDrops W} (he : e.Tolerated R) {s s' : QueueWriter ω κ} {out l slots : List UInt8} {n : Nat} (hw : R s.writer out)
    (hq : RQ s.queue l slots n) {k : ((writerConsumer W Q).close s ()).κ} (h : ((writerConsumer W Q).close s ()).Pending k)
    (hk : WriterCloseDropped d e s k s') :
    ∃ xs ys zs, l = xs ++ ys ++ zs ∧ (zs = [] → ys = []) ∧ WriterLeft R RQ out slots xs ys zs s' := by
  cases hk with
  | flushing hk =>
    obtain ⟨xs, ys, zs, h1, h2, h3⟩ := writer_flush_dropped hW hQ hcap hd hw hq (Fut.pending_left h) hk
    exact ⟨xs, ys, zs, h1, fun h => absurd h h2, h3⟩
  | ending hk =>
    rename_i s₁ k w'
    obtain ⟨h1, hp⟩ := Fut.pending_right h
    have h1 : (QueueWriter.flushInternalBuffer W Q s).run = _ := h1
    rw [flushInternalBuffer_run] at h1
    obtain ⟨s₂, ⟨h2, h3, m, h4⟩ | ⟨e, _, h2, _⟩⟩ := Verif.QueueWriter.flush_spec hW hQ hcap hq hw <;> cases h2.symm.trans h1
    have h7 := he.close h3 (Fut.pending_left hp) hk
    exact ⟨l, [], [], by simp, fun _ => rfl, by simpa using h7, m, h4⟩

/-- **C105, `expose_slots`.** -/
theorem writer_expose_dropped (hW : WritesLaw W.seq D X R) (hQ : FifoLaw Q cap RQ) (hcap : 0 < cap) (hd : d.Tolerated R)
    {s s' : QueueWriter ω κ} {out l slots : List UInt8} {n : Nat} (hw : R s.writer out) (hq : RQ s.queue l slots n)
    {k : ((writerConsumer W Q).exposeSlots s).κ} (h : ((writerConsumer W Q).exposeSlots s).Pending k)
    (hk : (writerSlotDrops Q d).exposeSlots s k s') :
    ∃ xs ys zs, l = xs ++ ys ++ zs ∧ zs ≠ [] ∧ WriterLeft R RQ out slots xs ys zs s' := by
  cases hk with
  | flushing hk => exact writer_flush_dropped hW hQ hcap hd hw hq (Fut.pending_left h) hk

/-- **C105.** If nothing is in the internal buffer, as when only `consume` and `bulk_consume` are called, then dropped calls of them are
tolerated. -/
theorem writer_drops_unbuffered (hW : WritesLaw W.seq D X R) (hQ : FifoLaw Q cap RQ) (hcap : 0 < cap) (hd : d.Tolerated R) :
    (writerDrops Q d).Tolerated (fun s l slots => R s.writer l ∧ ∃ n, RQ s.queue [] slots n) ∧
    (writerConsumeDrops Q d).Tolerated (fun s l => R s.writer l ∧ ∃ slots n, RQ s.queue [] slots n) := by
  constructor
  · constructor
    rintro s l slots buf k s' ⟨hw, n, hq⟩ hne h hk
    obtain ⟨xs, ys, zs, h1, _, h3, m, h4⟩ := writer_bulk_consume_dropped hW hQ hcap hd hw hq hne h hk
    simp only [List.nil_eq, List.append_eq_nil_iff] at h1
    obtain ⟨⟨rfl, rfl⟩, rfl⟩ := h1
    exact ⟨slots, by simpa using h3, m, h4⟩
  · constructor
    rintro s l x k s' ⟨hw, slots, n, hq⟩ h hk
    obtain ⟨xs, ys, zs, h1, _, h3, m, h4⟩ := writer_consume_dropped hW hQ hcap hd hw hq h hk
    simp only [List.nil_eq, List.append_eq_nil_iff] at h1
    obtain ⟨⟨rfl, rfl⟩, rfl⟩ := h1
    exact ⟨by simpa using h3, slots, m, h4⟩

/-- **C105.** If every `write` takes everything that it is offered, then dropped calls are tolerated. -/
theorem writer_drops_whole (hW : WritesLaw W.seq D X R) (hQ : FifoLaw Q cap RQ) (hcap : 0 < cap) (hd : d.Tolerated R)
    (hall : W.TakesAll) : (writerDrops Q d).Tolerated (WriterRel R RQ) ∧ (writerSlotDrops Q d).Tolerated (WriterRel R RQ) := by
  have hflush : ∀ {s s' : QueueWriter ω κ} {l slots : List UInt8} {k : (QueueWriter.flushInternalBuffer W Q s).κ},
      WriterRel R RQ s l slots → (QueueWriter.flushInternalBuffer W Q s).Pending k → FlushDropped d s k s' → WriterRel R RQ s' l slots := by
    rintro s s' l slots k ⟨out, queued, n, rfl, hw, hq⟩ h hk
    obtain ⟨xs, zs, rfl, _, h3, m, h4⟩ := writer_flush_dropped_whole hW hQ hcap hd hall hw hq h hk
    exact ⟨out ++ xs, zs, m, by simp, by simpa using h3, by simpa using h4⟩
  refine ⟨⟨?_⟩, ⟨?_, ?_⟩⟩
  · rintro s l slots buf k s' hr hne h hk
    cases hk with
    | flushing hk => exact ⟨slots, hflush hr (Fut.pending_left h) hk⟩
    | writing hk =>
      obtain ⟨out, queued, n, rfl, hw, hq⟩ := hr
      rename_i s₁ k w'
      obtain ⟨h1, hp⟩ := Fut.pending_right h
      have h1 : (QueueWriter.flushInternalBuffer W Q s).run = _ := h1
      rw [flushInternalBuffer_run] at h1
      obtain ⟨s₂, ⟨h2, h3, m, h4⟩ | ⟨e, _, h2, _⟩⟩ := Verif.QueueWriter.flush_spec hW hQ hcap hq hw <;> cases h2.symm.trans h1
      exact ⟨slots, _, [], m, by simp, hd.write h3 hne (Fut.pending_left hp) hk, h4⟩
  · rintro s l slots k s' hr h hk
    cases hk with
    | flushing hk => exact ⟨slots, hflush hr (Fut.pending_left h) hk⟩
  · rintro s l slots n k s' _ _ hk
    exact hk.elim

end Writer

/-! ## Cases -/

namespace Case

/-- A file to which bytes are written one by one; if only one byte is offered, `write` is pending once. -/
def sipFile : AsyncWrite (List UInt8 × Option Unit) where
  write w buf :=
    if buf.length < 2 then do
      pause
      Fut.lift ((chunkWriter 0 9 ⟨.other 3, none⟩).write w buf)
    else Fut.lift ((chunkWriter 0 9 ⟨.other 3, none⟩).write w buf)
  flush w := Fut.lift ((chunkWriter 0 9 ⟨.other 3, none⟩).flush w)
  close w := Fut.lift ((chunkWriter 0 9 ⟨.other 3, none⟩).close w)

theorem sipFile_seq : sipFile.seq = chunkWriter 0 9 ⟨.other 3, none⟩ := by
  have h : ∀ w buf, (sipFile.write w buf).run = (chunkWriter 0 9 ⟨.other 3, none⟩).write w buf := by
    intro w buf
    dsimp only [sipFile]
    split
    · exact (Fut.run_bind _ _).trans (by rw [pause_run]; exact Fut.run_lift _)
    · exact Fut.run_lift _
  have h1 : ∀ w, (sipFile.flush w).run = (chunkWriter 0 9 ⟨.other 3, none⟩).flush w := fun _ => Fut.run_lift _
  have h2 : ∀ w, (sipFile.close w).run = (chunkWriter 0 9 ⟨.other 3, none⟩).close w := fun _ => Fut.run_lift _
  simp only [AsyncWrite.seq, h, h1, h2]

/-- While it is pending, nothing has happened. -/
def sipFileDrops : WriterDrops sipFile where
  write w _ _ w' := w' = w

theorem sipFile_tolerated : sipFileDrops.Tolerated fun w l => w = (l, none) where
  write := by intro w l buf k w' h _ _ he; cases he; exact h

def state (o : Outcome (Static UInt8 2 × Option UInt8)) : Static UInt8 2 :=
  match o with
  | ok (q, _) => q
  | _ => Static.new 2 fun _ => 0

/-- 1 and 2 are in the internal buffer. -/
def filled : QueueWriter (List UInt8 × Option Unit) (Static UInt8 2) where
  writer := ([], none)
  queue := state ((Static.queue UInt8 2).enqueue (state ((Static.queue UInt8 2).enqueue (Static.new 2 fun _ => 0) 1)) 2)

theorem filled_holds : filled.queue.Holds [1, 2] [] 0 := by
  obtain ⟨q₁, h1, h2⟩ := (Static.fifoLaw UInt8 2).enqueue (Static.new 2 fun _ => 0) [] [] 0 1 (Static.holds_new 2 _) (by decide)
  obtain ⟨q₂, h3, h4⟩ := (Static.fifoLaw UInt8 2).enqueue q₁ [1] [] 0 2 h2 (by decide)
  simp only [filled, h1, state, h3]
  exact h4

end Case

/-- The first poll of a loop, if the first iteration is pending. -/
theorem _root_.Verif.Fut.first_loop {A S : Type} {body : S → Fut (Step S A)} {s : S} {k : (body s).κ}
    (h : (body s).poll (body s).start = ok (.pending k)) : (Fut.loop body s).poll (Fut.loop body s).start = ok (.pending ⟨s, k⟩) := by
  show Verif.loop (Fut.loopPollBody body) ⟨s, (body s).start⟩ = _
  rw [loop_unfold]
  simp [Fut.loopPollBody, h]
  rfl

/-- The first poll of a sequence, if its first part is pending. -/
theorem _root_.Verif.Fut.first_left {A B : Type} {f : Fut A} {g : A → Fut B} {k : f.κ} (h : f.poll f.start = ok (.pending k)) :
    (f >>= g).poll (f >>= g).start = ok (.pending (Sum.inl k)) := by
  show Fut.andThenPoll f g (.inl f.start) = _
  simp [Fut.andThenPoll, Fut.pollIn, h]
  rfl

/-- The first poll of a sequence, if its first part is completed, and its second part is pending. -/
theorem _root_.Verif.Fut.first_right {A B : Type} {f : Fut A} {g : A → Fut B} {a : A} {k : (g a).κ}
    (hf : f.poll f.start = ok (.ready a)) (h : (g a).poll (g a).start = ok (.pending k)) :
    (f >>= g).poll (f >>= g).start = ok (.pending (Sum.inr ⟨a, k⟩)) := by
  show Fut.andThenPoll f g (.inl f.start) = _
  simp [Fut.andThenPoll, Fut.pollIn, hf, h]
  rfl

/-- **C105**, a witness: 1 and 2 have been passed to the adaptor. The flush in `expose_slots` is dropped after 1 has been written. Then
`close` reports success, and the file contains `[1, 1, 2]`. -/
theorem writer_repeats : ∃ k s', ((writerConsumer Case.sipFile (Static.queue UInt8 2)).exposeSlots Case.filled).Pending k ∧
    (writerSlotDrops (Static.queue UInt8 2) Case.sipFileDrops).exposeSlots Case.filled k s' ∧
    ∃ s₁, ((writerConsumer Case.sipFile (Static.queue UInt8 2)).close s' ()).run = ok (s₁, .ok ()) ∧ s₁.writer = ([1, 1, 2], some ()) := by
  have h1 : (writeAll Case.sipFile ([], none) [1, 2]).poll (writeAll Case.sipFile ([], none) [1, 2]).start =
      ok (.pending ⟨(([1], none), [2]), Sum.inl (Sum.inl true)⟩) := loop_eq_of_fuel (n := 2) nofun
  obtain ⟨q, h2⟩ : ∃ q, (Static.queue UInt8 2).exposeItems Case.filled.queue = ok (q, some [1, 2]) := ⟨_, rfl⟩
  have h3 : (QueueWriter.flushInternalBuffer Case.sipFile (Static.queue UInt8 2) Case.filled).poll
      (QueueWriter.flushInternalBuffer Case.sipFile (Static.queue UInt8 2) Case.filled).start = _ :=
    Fut.first_loop (Fut.first_right (a := (q, some [1, 2])) (by show (Fut.lift _).poll _ = _; rw [h2]; rfl) (Fut.first_left h1))
  obtain ⟨k, hk, hd⟩ := Fut.first_pending (Q := fun k => (writerSlotDrops (Static.queue UInt8 2) Case.sipFileDrops).exposeSlots Case.filled k
    ⟨([1], none), q⟩) (f := (writerConsumer Case.sipFile (Static.queue UInt8 2)).exposeSlots Case.filled) (Fut.first_left h3)
    (.flushing (.mk (.mk HEq.rfl rfl)))
  have hW := chunkWriter_writes 0 9 ⟨.other 3, none⟩
  rw [← Case.sipFile_seq] at hW
  obtain ⟨q', m, _, _, h4, h5⟩ := (Static.fifoLaw UInt8 2).exposeItems _ _ _ _ Case.filled_holds nofun
  cases congrArg (fun o => match o with | ok (q, _) => q | _ => Case.filled.queue) (h4.symm.trans h2)
  obtain ⟨S, hS, slots, hs⟩ := writer_left_defers (out := []) (xs := []) (ys := [1]) (zs := [2]) hW (Static.fifoLaw UInt8 2) (by decide)
    (s' := ⟨([1], none), q⟩) ⟨rfl, _, h5⟩
  obtain ⟨s₁, ⟨h6, h7⟩ | ⟨e, d, _, ⟨hpre, (⟨h8, _⟩ | ⟨h8, _⟩) | h8 | ⟨_, h8⟩⟩, _⟩⟩ := hS.base.toDefersLaw.close _ _ () ⟨slots, hs⟩
  · exact ⟨k, _, hk, hd, s₁, h6, h7⟩
  all_goals first | exact h8.elim | (have := hpre.length_le; have h8 : 9 ≤ d.length := h8; simp at this; omega)

/-- A dropped call of `consume` in the same state: 1 has been written and is still in the buffer. -/
example : ∃ k s', ((writerConsumer Case.sipFile (Static.queue UInt8 2)).consume Case.filled 3).Pending k ∧
    (writerConsumeDrops (Static.queue UInt8 2) Case.sipFileDrops).consume Case.filled 3 k s' ∧
    ∃ xs ys zs, [1, 2] = xs ++ ys ++ zs ∧
      WriterLeft (fun w l => w = (l, none)) Static.Holds [] [] xs ys zs s' := by
  have h1 : (writeAll Case.sipFile ([], none) [1, 2]).poll (writeAll Case.sipFile ([], none) [1, 2]).start =
      ok (.pending ⟨(([1], none), [2]), Sum.inl (Sum.inl true)⟩) := loop_eq_of_fuel (n := 2) nofun
  obtain ⟨q, h2⟩ : ∃ q, (Static.queue UInt8 2).exposeItems Case.filled.queue = ok (q, some [1, 2]) := ⟨_, rfl⟩
  have h3 : (QueueWriter.flushInternalBuffer Case.sipFile (Static.queue UInt8 2) Case.filled).poll
      (QueueWriter.flushInternalBuffer Case.sipFile (Static.queue UInt8 2) Case.filled).start = _ :=
    Fut.first_loop (Fut.first_right (a := (q, some [1, 2])) (by show (Fut.lift _).poll _ = _; rw [h2]; rfl) (Fut.first_left h1))
  obtain ⟨k, hk, s', hd⟩ := Fut.first_pending (Q := fun k => ∃ s', (writerConsumeDrops (Static.queue UInt8 2) Case.sipFileDrops).consume
    Case.filled 3 k s') (f := (writerConsumer Case.sipFile (Static.queue UInt8 2)).consume Case.filled 3) (Fut.first_left h3)
    ⟨_, .flushing (.mk (.mk HEq.rfl rfl))⟩
  have hW := chunkWriter_writes 0 9 ⟨.other 3, none⟩
  rw [← Case.sipFile_seq] at hW
  obtain ⟨xs, ys, zs, h4, _, h5⟩ := writer_consume_dropped hW (Static.fifoLaw UInt8 2) (by decide) Case.sipFile_tolerated
    (out := []) (l := [1, 2]) rfl Case.filled_holds hk hd
  exact ⟨k, s', hk, hd, xs, ys, zs, h4, h5⟩

namespace Case

/-- `flush` and `close` of `sipFile` are never pending. -/
def sipFileEndDrops : WriterEndDrops sipFile where
  flush _ _ _ := False
  close _ _ _ := False

theorem sipFile_end_tolerated : sipFileEndDrops.Tolerated fun w l => w = (l, none) where
  flush := by intro w l k w' _ _ he; exact he.elim
  close := by intro w l k w' _ _ he; exact he.elim

end Case

/-- **C105**, a witness: 1 and 2 have been passed to the adaptor. `close` is dropped after 1 has been written. Then `close` is called again
and reports success, and the file contains `[1, 1, 2]`. -/
theorem writer_close_repeats : ∃ k s', ((writerConsumer Case.sipFile (Static.queue UInt8 2)).close Case.filled ()).Pending k ∧
    WriterCloseDropped Case.sipFileDrops Case.sipFileEndDrops Case.filled k s' ∧
    ∃ s₁, ((writerConsumer Case.sipFile (Static.queue UInt8 2)).close s' ()).run = ok (s₁, .ok ()) ∧ s₁.writer = ([1, 1, 2], some ()) := by
  have h1 : (writeAll Case.sipFile ([], none) [1, 2]).poll (writeAll Case.sipFile ([], none) [1, 2]).start =
      ok (.pending ⟨(([1], none), [2]), Sum.inl (Sum.inl true)⟩) := loop_eq_of_fuel (n := 2) nofun
  obtain ⟨q, h2⟩ : ∃ q, (Static.queue UInt8 2).exposeItems Case.filled.queue = ok (q, some [1, 2]) := ⟨_, rfl⟩
  have h3 : (QueueWriter.flushInternalBuffer Case.sipFile (Static.queue UInt8 2) Case.filled).poll
      (QueueWriter.flushInternalBuffer Case.sipFile (Static.queue UInt8 2) Case.filled).start = _ :=
    Fut.first_loop (Fut.first_right (a := (q, some [1, 2])) (by show (Fut.lift _).poll _ = _; rw [h2]; rfl) (Fut.first_left h1))
  obtain ⟨k, hk, hd⟩ := Fut.first_pending (Q := fun k => WriterCloseDropped Case.sipFileDrops Case.sipFileEndDrops Case.filled k
    ⟨([1], none), q⟩) (f := (writerConsumer Case.sipFile (Static.queue UInt8 2)).close Case.filled ()) (Fut.first_left h3)
    (.flushing (.mk (.mk HEq.rfl rfl)))
  have hW := chunkWriter_writes 0 9 ⟨.other 3, none⟩
  rw [← Case.sipFile_seq] at hW
  obtain ⟨q', m, _, _, h4, h5⟩ := (Static.fifoLaw UInt8 2).exposeItems _ _ _ _ Case.filled_holds nofun
  cases congrArg (fun o => match o with | ok (q, _) => q | _ => Case.filled.queue) (h4.symm.trans h2)
  obtain ⟨S, hS, slots, hs⟩ := writer_left_defers (out := []) (xs := []) (ys := [1]) (zs := [2]) hW (Static.fifoLaw UInt8 2) (by decide)
    (s' := ⟨([1], none), q⟩) ⟨rfl, _, h5⟩
  obtain ⟨s₁, ⟨h6, h7⟩ | ⟨e, d, _, ⟨hpre, (⟨h8, _⟩ | ⟨h8, _⟩) | h8 | ⟨_, h8⟩⟩, _⟩⟩ := hS.base.toDefersLaw.close _ _ () ⟨slots, hs⟩
  · exact ⟨k, _, hk, hd, s₁, h6, h7⟩
  all_goals first | exact h8.elim | (have := hpre.length_le; have h8 : 9 ≤ d.length := h8; simp at this; omega)

/-- The hypotheses of `writer_close_call_dropped` are met by that case, and those of `writer_flush_call_dropped` in the same state. -/
example : (∃ k s', ((writerConsumer Case.sipFile (Static.queue UInt8 2)).close Case.filled ()).Pending k ∧
      WriterCloseDropped Case.sipFileDrops Case.sipFileEndDrops Case.filled k s' ∧
      ∃ xs ys zs, [1, 2] = xs ++ ys ++ zs ∧ WriterLeft (fun w l => w = (l, none)) Static.Holds [] [] xs ys zs s') ∧
    ∃ k s', ((writerConsumer Case.sipFile (Static.queue UInt8 2)).flush Case.filled).Pending k ∧
      WriterFlushDropped Case.sipFileDrops Case.sipFileEndDrops Case.filled k s' ∧
      ∃ xs ys zs, [1, 2] = xs ++ ys ++ zs ∧ WriterLeft (fun w l => w = (l, none)) Static.Holds [] [] xs ys zs s' := by
  have hW := chunkWriter_writes 0 9 ⟨.other 3, none⟩
  rw [← Case.sipFile_seq] at hW
  have h1 : (writeAll Case.sipFile ([], none) [1, 2]).poll (writeAll Case.sipFile ([], none) [1, 2]).start =
      ok (.pending ⟨(([1], none), [2]), Sum.inl (Sum.inl true)⟩) := loop_eq_of_fuel (n := 2) nofun
  obtain ⟨q, h2⟩ : ∃ q, (Static.queue UInt8 2).exposeItems Case.filled.queue = ok (q, some [1, 2]) := ⟨_, rfl⟩
  have h3 : (QueueWriter.flushInternalBuffer Case.sipFile (Static.queue UInt8 2) Case.filled).poll
      (QueueWriter.flushInternalBuffer Case.sipFile (Static.queue UInt8 2) Case.filled).start = _ :=
    Fut.first_loop (Fut.first_right (a := (q, some [1, 2])) (by show (Fut.lift _).poll _ = _; rw [h2]; rfl) (Fut.first_left h1))
  refine ⟨?_, ?_⟩
  · obtain ⟨k, s', hk, hd, _⟩ := writer_close_repeats
    obtain ⟨xs, ys, zs, h4, _, h5⟩ := writer_close_call_dropped hW (Static.fifoLaw UInt8 2) (by decide) Case.sipFile_tolerated
      Case.sipFile_end_tolerated (out := []) (l := [1, 2]) rfl Case.filled_holds hk hd
    exact ⟨k, s', hk, hd, xs, ys, zs, h4, h5⟩
  · obtain ⟨k, hk, s', hd⟩ := Fut.first_pending (Q := fun k => ∃ s', WriterFlushDropped Case.sipFileDrops Case.sipFileEndDrops
      Case.filled k s') (f := (writerConsumer Case.sipFile (Static.queue UInt8 2)).flush Case.filled) (Fut.first_left h3)
      ⟨_, .flushing (.mk (.mk HEq.rfl rfl))⟩
    obtain ⟨xs, ys, zs, h4, _, h5⟩ := writer_flush_call_dropped hW (Static.fifoLaw UInt8 2) (by decide) Case.sipFile_tolerated
      Case.sipFile_end_tolerated (out := []) (l := [1, 2]) rfl Case.filled_holds hk hd
    exact ⟨k, s', hk, hd, xs, ys, zs, h4, h5⟩

namespace Case

/-- A file whose `flush` and `close` are pending once. -/
def lingerFile : AsyncWrite (List UInt8 × Option Unit) where
  write w buf := Fut.lift ((chunkWriter 0 9 ⟨.other 3, none⟩).write w buf)
  flush w := do
    pause
    Fut.lift ((chunkWriter 0 9 ⟨.other 3, none⟩).flush w)
  close w := do
    pause
    Fut.lift ((chunkWriter 0 9 ⟨.other 3, none⟩).close w)

theorem lingerFile_seq : lingerFile.seq = chunkWriter 0 9 ⟨.other 3, none⟩ := by
  have h : ∀ w buf, (lingerFile.write w buf).run = (chunkWriter 0 9 ⟨.other 3, none⟩).write w buf := fun _ _ => Fut.run_lift _
  have h1 : ∀ w, (lingerFile.flush w).run = (chunkWriter 0 9 ⟨.other 3, none⟩).flush w :=
    fun _ => (Fut.run_bind _ _).trans (by rw [pause_run]; exact Fut.run_lift _)
  have h2 : ∀ w, (lingerFile.close w).run = (chunkWriter 0 9 ⟨.other 3, none⟩).close w :=
    fun _ => (Fut.run_bind _ _).trans (by rw [pause_run]; exact Fut.run_lift _)
  simp only [AsyncWrite.seq, h, h1, h2]

def lingerFileDrops : WriterDrops lingerFile where
  write w _ _ w' := w' = w

theorem lingerFile_tolerated : lingerFileDrops.Tolerated fun w l => w = (l, none) where
  write := by intro w l buf k w' h _ _ he; cases he; exact h

/-- While they are pending, nothing has happened. -/
def lingerFileEndDrops : WriterEndDrops lingerFile where
  flush w _ w' := w' = w
  close w _ w' := w' = w

theorem lingerFile_end_tolerated : lingerFileEndDrops.Tolerated fun w l => w = (l, none) where
  flush := by intro w l k w' h _ he; cases he; exact h
  close := by intro w l k w' h _ he; cases he; exact h

end Case

/-- 1 and 2 have been written, the internal buffer is empty. `close` is dropped while `close` of the file is pending. -/
example : ∃ k s', ((writerConsumer Case.lingerFile (Static.queue UInt8 2)).close ⟨([1, 2], none), Static.new 2 fun _ => 0⟩ ()).Pending k ∧
    WriterCloseDropped Case.lingerFileDrops Case.lingerFileEndDrops ⟨([1, 2], none), Static.new 2 fun _ => 0⟩ k s' ∧
    WriterLeft (fun w l => w = (l, none)) Static.Holds [1, 2] [] [] [] [] s' := by
  have hW := chunkWriter_writes 0 9 ⟨.other 3, none⟩
  rw [← Case.lingerFile_seq] at hW
  obtain ⟨s₁, h1⟩ : ∃ s₁, (QueueWriter.flushInternalBuffer Case.lingerFile (Static.queue UInt8 2) ⟨([1, 2], none), Static.new 2 fun _ => 0⟩).poll
      (QueueWriter.flushInternalBuffer Case.lingerFile (Static.queue UInt8 2) ⟨([1, 2], none), Static.new 2 fun _ => 0⟩).start =
      ok (.ready (s₁, .ok ())) := ⟨_, loop_eq_of_fuel (n := 2) nofun⟩
  obtain ⟨k, hk, hd⟩ := Fut.first_pending (Q := fun k => WriterCloseDropped Case.lingerFileDrops Case.lingerFileEndDrops
    ⟨([1, 2], none), Static.new 2 fun _ => 0⟩ k ⟨s₁.writer, s₁.queue⟩)
    (f := (writerConsumer Case.lingerFile (Static.queue UInt8 2)).close ⟨([1, 2], none), Static.new 2 fun _ => 0⟩ ())
    (Fut.first_right h1 (Fut.first_left (Fut.first_left rfl))) (.ending rfl)
  obtain ⟨xs, ys, zs, h4, _, h5⟩ := writer_close_call_dropped hW (Static.fifoLaw UInt8 2) (by decide) Case.lingerFile_tolerated
    Case.lingerFile_end_tolerated (out := [1, 2]) (l := []) rfl (Static.holds_new 2 _) hk hd
  obtain ⟨h6, h7⟩ := List.append_eq_nil_iff.1 h4.symm
  obtain ⟨h8, h9⟩ := List.append_eq_nil_iff.1 h6
  subst h7 h8 h9
  exact ⟨k, _, hk, hd, h5⟩

namespace Case

/-- A reader that is pending once before it delivers anything. -/
def slowReader : AsyncBufRead (List UInt8) where
  read r buf := do
    pause
    Fut.lift ((chunkReader 1 (.ok ())).read r buf)
  fillBuf r := do
    pause
    Fut.lift ((chunkReader 1 (.ok ())).fillBuf r)
  consume := (chunkReader 1 (.ok ())).consume

theorem slowReader_seq : slowReader.seq = chunkReader 1 (.ok ()) := by
  have h : ∀ r buf, (slowReader.read r buf).run = (chunkReader 1 (.ok ())).read r buf := fun r buf =>
    (Fut.run_bind _ _).trans (by rw [pause_run]; exact Fut.run_lift _)
  have h' : ∀ r, (slowReader.fillBuf r).run = (chunkReader 1 (.ok ())).fillBuf r := fun r =>
    (Fut.run_bind _ _).trans (by rw [pause_run]; exact Fut.run_lift _)
  simp only [AsyncBufRead.seq, AsyncRead.seq, h, h']
  rfl

theorem slowReader_reads : BufReadsLaw slowReader.seq fun r c n => c = .ofList r (.ok ()) ∧ n ≤ r.length := by
  rw [slowReader_seq]; exact chunkReader_reads 1 (.ok ())

/-- While it is pending, it has delivered nothing; but the buffer has been overwritten. -/
def slowReaderDrops : BufReaderDrops slowReader where
  read r buf _ r' buf' := r' = r ∧ buf' = buf.map fun _ => 99
  fillBuf r _ r' := r' = r

theorem slowReader_tolerated : slowReaderDrops.Tolerated fun r c n => c = .ofList r (.ok ()) ∧ n ≤ r.length where
  read := ⟨by rintro r c buf k r' buf' h _ _ ⟨rfl, rfl⟩; exact ⟨h, by simp⟩⟩
  fillBuf := by intro r c n k r' h _ he; cases he; exact ⟨n, h⟩

noncomputable abbrev slowQueueReader := readerProducer slowReader.toAsyncRead (Static.queue UInt8 3)

def unread : QueueReader (List UInt8) (Static UInt8 3) := ⟨[1, 2, 3], Static.new 3 fun _ => 0⟩

theorem unread_rel : ReaderRel (fun r c => ∃ n, c = Script.ofList r (.ok ()) ∧ n ≤ r.length) Static.Holds unread
    (.ofList [1, 2, 3] (.ok ())) 0 :=
  ⟨[], [], Static.holds_new 3 _, by simp, ⟨0, by simp [unread], by simp⟩, ofList_noUnexpectedEof _⟩

theorem slowQueueReader_law : BulkPlaysLaw slowQueueReader.seq
    (ReaderRel (fun r c => ∃ n, c = Script.ofList r (.ok ()) ∧ n ≤ r.length) Static.Holds) := by
  rw [readerProducer_seq]; exact reader_law slowReader_reads.read (Static.fifoLaw UInt8 3) (by decide)

end Case

/-- A dropped call of `expose_items`: the slots of the queue have been overwritten, but the adaptor still emits 1, 2, 3. -/
example : ∃ k s', (Case.slowQueueReader.exposeItems Case.unread).Pending k ∧
    (readerDrops _ Case.slowReaderDrops.toReaderDrops).exposeItems Case.unread k s' ∧
    BulkPlays Case.slowQueueReader.seq s' (.ofList [1, 2, 3] (.ok ())) := by
  obtain ⟨k, hk, s', hd⟩ := Fut.first_pending (f := Case.slowQueueReader.exposeItems Case.unread)
    (k := Sum.inr ⟨(_, _), Sum.inr ⟨_, Sum.inl (Sum.inl true)⟩⟩)
    (Q := fun k => ∃ s', (readerDrops _ Case.slowReaderDrops.toReaderDrops).exposeItems Case.unread k s') rfl
    ⟨_, .mk HEq.rfl ⟨rfl, rfl⟩⟩
  obtain ⟨m, hm⟩ := (reader_drops (Static.fifoLaw UInt8 3) (by decide) Case.slowReader_tolerated.read).exposeItems Case.unread_rel hk hd
  exact ⟨k, s', hk, hd, _, Case.slowQueueReader_law, m, hm⟩

/-- A dropped call of `bulk_produce`. -/
example : ∃ k s', (Case.slowQueueReader.bulkProduce Case.unread [0, 0]).Pending k ∧
    (readerBulkDrops _ Case.slowReaderDrops.toReaderDrops).bulkProduce Case.unread [0, 0] k s' ∧
    BulkPlays Case.slowQueueReader.seq s' (.ofList [1, 2, 3] (.ok ())) := by
  obtain ⟨k, hk, s', hd⟩ := Fut.first_pending (f := Case.slowQueueReader.bulkProduce Case.unread [0, 0])
    (k := Sum.inl (Sum.inl true))
    (Q := fun k => ∃ s', (readerBulkDrops _ Case.slowReaderDrops.toReaderDrops).bulkProduce Case.unread [0, 0] k s') rfl
    ⟨_, .mk HEq.rfl ⟨rfl, rfl⟩⟩
  obtain ⟨m, hm⟩ := (reader_bulk_drops (Static.fifoLaw UInt8 3) Case.slowReader_tolerated.read).bulkProduce Case.unread_rel
    (by simp) hk hd
  exact ⟨k, s', hk, hd, _, Case.slowQueueReader_law, m, hm⟩

/-- A dropped call of `produce`. -/
example : ∃ k s', (Case.slowQueueReader.produce Case.unread).Pending k ∧
    (readerItemDrops _ Case.slowReaderDrops.toReaderDrops).produce Case.unread k s' ∧
    BulkPlays Case.slowQueueReader.seq s' (.ofList [1, 2, 3] (.ok ())) := by
  have h : (readExact Case.slowReader.toAsyncRead [1, 2, 3] [17]).poll (readExact Case.slowReader.toAsyncRead [1, 2, 3] [17]).start =
      ok (.pending ⟨([1, 2, 3], [], [17]), Sum.inl (Sum.inl true)⟩) := loop_eq_of_fuel (n := 1) nofun
  obtain ⟨k, hk, s', hd⟩ := Fut.first_pending (f := Case.slowQueueReader.produce Case.unread)
    (Q := fun k => ∃ s', (readerItemDrops _ Case.slowReaderDrops.toReaderDrops).produce Case.unread k s')
    (Fut.first_right (a := (Case.unread.queue, none)) rfl (Fut.first_left (Fut.first_left h)))
    ⟨_, .mk (.mk HEq.rfl ⟨rfl, rfl⟩)⟩
  obtain ⟨m, hm⟩ := (reader_item_drops Case.slowReader_reads.read (Static.fifoLaw UInt8 3) Case.slowReader_tolerated.read).produce
    ⟨0, Case.unread_rel⟩ hk hd
  exact ⟨k, s', hk, hd, _, Case.slowQueueReader_law, m, hm⟩

/-- A dropped call of `expose_items` of the other adaptor. -/
example : ∃ k r', ((bufReaderProducer Case.slowReader).exposeItems [1, 2, 3]).Pending k ∧
    (bufReaderDrops Case.slowReaderDrops).exposeItems [1, 2, 3] k r' ∧
    BulkPlays (bufReaderProducer Case.slowReader).seq r' (.ofList [1, 2, 3] (.ok ())) := by
  obtain ⟨k, hk, s', hd⟩ := Fut.first_pending (f := (bufReaderProducer Case.slowReader).exposeItems [1, 2, 3])
    (k := Sum.inl (Sum.inl true)) (Q := fun k => ∃ r', (bufReaderDrops Case.slowReaderDrops).exposeItems [1, 2, 3] k r') rfl
    ⟨_, .first rfl⟩
  obtain ⟨m, hm⟩ := (buf_reader_drops Case.slowReader_reads Case.slowReader_tolerated).exposeItems
    ⟨⟨rfl, Nat.zero_le _⟩, ofList_noUnexpectedEof _⟩ hk hd
  refine ⟨k, s', hk, hd, _, ?_, m, hm⟩
  rw [bufReaderProducer_seq]; exact bufReader_law Case.slowReader_reads

/-- A dropped call of `bulk_produce` of the other adaptor. -/
example : ∃ k r', ((bufReaderProducer Case.slowReader).bulkProduce [1, 2, 3] [0, 0]).Pending k ∧
    (bufReaderBulkDrops Case.slowReaderDrops).bulkProduce [1, 2, 3] [0, 0] k r' ∧
    BulkPlays (bufReaderProducer Case.slowReader).seq r' (.ofList [1, 2, 3] (.ok ())) := by
  obtain ⟨k, hk, s', hd⟩ := Fut.first_pending (f := (bufReaderProducer Case.slowReader).bulkProduce [1, 2, 3] [0, 0])
    (k := Sum.inl (Sum.inl true)) (Q := fun k => ∃ r', (bufReaderBulkDrops Case.slowReaderDrops).bulkProduce [1, 2, 3] [0, 0] k r') rfl
    ⟨_, .mk ⟨rfl, rfl⟩⟩
  obtain ⟨m, hm⟩ := (buf_reader_bulk_drops Case.slowReader_tolerated).bulkProduce
    ⟨⟨rfl, Nat.zero_le _⟩, ofList_noUnexpectedEof _⟩ (by simp) hk hd
  refine ⟨k, s', hk, hd, _, ?_, m, hm⟩
  rw [bufReaderProducer_seq]; exact bufReader_law Case.slowReader_reads

/-- A dropped call of `produce` of the other adaptor. -/
example : ∃ k r', ((bufReaderProducer Case.slowReader).produce [1, 2, 3]).Pending k ∧
    (bufReaderItemDrops Case.slowReaderDrops).produce [1, 2, 3] k r' ∧
    BulkPlays (bufReaderProducer Case.slowReader).seq r' (.ofList [1, 2, 3] (.ok ())) := by
  have h : (readExact Case.slowReader.toAsyncRead [1, 2, 3] [0]).poll (readExact Case.slowReader.toAsyncRead [1, 2, 3] [0]).start =
      ok (.pending ⟨([1, 2, 3], [], [0]), Sum.inl (Sum.inl true)⟩) := loop_eq_of_fuel (n := 1) nofun
  obtain ⟨k, hk, s', hd⟩ := Fut.first_pending (f := (bufReaderProducer Case.slowReader).produce [1, 2, 3])
    (Q := fun k => ∃ r', (bufReaderItemDrops Case.slowReaderDrops).produce [1, 2, 3] k r') (Fut.first_left h)
    ⟨_, .mk HEq.rfl ⟨rfl, rfl⟩⟩
  obtain ⟨m, hm⟩ := (buf_reader_item_drops Case.slowReader_reads Case.slowReader_tolerated).produce
    ⟨0, ⟨rfl, Nat.zero_le _⟩, ofList_noUnexpectedEof _⟩ hk hd
  refine ⟨k, s', hk, hd, _, ?_, m, hm⟩
  rw [bufReaderProducer_seq]; exact bufReader_law Case.slowReader_reads

/-- `bulk_pipe` from the adaptor is dropped while the reader is pending, and started again: the vector is `[1, 2, 3]`. -/
example : ∃ k s' t', (bulkPipe Case.slowQueueReader (.ofSeq (IntoVec.consumer UInt8)) Case.unread .new).Pending k ∧
    BulkPipeDropped (readerDrops _ Case.slowReaderDrops.toReaderDrops) ⟨fun _ _ _ _ => False⟩ Case.unread .new k s' t' ∧
    ∃ s₁ t₁, (bulkPipe Case.slowQueueReader (.ofSeq (IntoVec.consumer UInt8)) s' t').run = ok ((s₁, t₁), .ok ()) ∧
      t₁.intoVec = [1, 2, 3] := by
  obtain ⟨k, hk, s', hd⟩ := Fut.first_pending (f := bulkPipe Case.slowQueueReader (.ofSeq (IntoVec.consumer UInt8)) Case.unread .new)
    (Q := fun k => ∃ s', BulkPipeDropped (readerDrops _ Case.slowReaderDrops.toReaderDrops) ⟨fun _ _ _ _ => False⟩ Case.unread .new k s' .new)
    (k := ⟨(Case.unread, .new), Sum.inl (Sum.inr ⟨(_, _), Sum.inr ⟨_, Sum.inl (Sum.inl true)⟩⟩)⟩) (Fut.first_loop (Fut.first_left rfl))
    ⟨_, .exposing (.mk HEq.rfl ⟨rfl, rfl⟩)⟩
  have hV : BulkCollectsLaw (BulkConsumer.ofSeq (IntoVec.consumer UInt8)).seq (fun s l _ => s.asRef = ok l ∧ s.intoVec = l) Policy.acceptAll
      IntoVec.Ready := by
    rw [BulkConsumer.ofSeq_seq]; exact IntoVec.law
  obtain ⟨_, s₁, t₁, h1, h2⟩ := bulk_pipe_resumed Case.slowQueueReader_law hV (reader_drops (Static.fifoLaw UInt8 3) (by decide)
    Case.slowReader_tolerated.read) ⟨fun _ _ _ h => False.elim h⟩ Case.unread_rel (IntoVec.ready_fromVec []) (.drop hk hd .refl)
    (.closed (Script.ofList_startsWith _ _) Policy.accepts_acceptAll (Script.ofList_end _ _) rfl)
  exact ⟨k, s', _, hk, hd, s₁, t₁, h1, h2.2⟩

namespace Case

/-- A file that takes everything that it is offered, and is pending once before that. -/
def wholeFile : AsyncWrite (List UInt8) where
  write w buf := do
    pause
    Fut.lift (ok (w ++ buf, .ok buf.length))
  flush w := Fut.lift (ok (w, .ok ()))
  close w := Fut.lift (ok (w, .ok ()))

theorem wholeFile_write (w buf : List UInt8) : (wholeFile.write w buf).run = ok (w ++ buf, .ok buf.length) :=
  (Fut.run_bind _ _).trans (by rw [pause_run]; exact Fut.run_lift _)

theorem wholeFile_takesAll : wholeFile.TakesAll := by
  intro w buf w' n h
  rw [wholeFile_write] at h
  cases h; rfl

theorem wholeFile_writes : WritesLaw wholeFile.seq (fun w l _ => w = l)
    ⟨fun _ _ => False, fun _ => False, fun _ _ => False, fun _ _ => False⟩ (fun w l => w = l) where
  observe _ _ h := h
  write := by
    rintro w l buf rfl hne
    exact ⟨_, .inl ⟨buf.length, List.length_pos_iff.2 hne, Nat.le_refl _, wholeFile_write w buf, by simp⟩⟩
  flush := by rintro w l rfl; exact ⟨_, .inl ⟨Fut.run_lift _, rfl⟩⟩
  close := by rintro w l rfl; exact ⟨_, .inl ⟨Fut.run_lift _, rfl⟩⟩

def wholeFileDrops : WriterDrops wholeFile where
  write w _ _ w' := w' = w

theorem wholeFile_tolerated : wholeFileDrops.Tolerated fun w l => w = l where
  write := by intro w l buf k w' h _ _ he; cases he; exact h

end Case

/-- With such a file, a dropped call is tolerated, though the internal buffer is not empty. -/
example : ∃ k s', ((writerConsumer Case.wholeFile (Static.queue UInt8 2)).exposeSlots ⟨[], Case.filled.queue⟩).Pending k ∧
    (writerSlotDrops (Static.queue UInt8 2) Case.wholeFileDrops).exposeSlots ⟨[], Case.filled.queue⟩ k s' ∧
    ∃ slots, WriterRel (fun w l => w = l) Static.Holds s' [1, 2] slots := by
  have h1 : (writeAll Case.wholeFile [] [1, 2]).poll (writeAll Case.wholeFile [] [1, 2]).start =
      ok (.pending ⟨([], [1, 2]), Sum.inl (Sum.inl true)⟩) := loop_eq_of_fuel (n := 1) nofun
  obtain ⟨q, h2⟩ : ∃ q, (Static.queue UInt8 2).exposeItems Case.filled.queue = ok (q, some [1, 2]) := ⟨_, rfl⟩
  have h3 : (QueueWriter.flushInternalBuffer Case.wholeFile (Static.queue UInt8 2) ⟨[], Case.filled.queue⟩).poll
      (QueueWriter.flushInternalBuffer Case.wholeFile (Static.queue UInt8 2) ⟨[], Case.filled.queue⟩).start = _ :=
    Fut.first_loop (Fut.first_right (a := (q, some [1, 2])) (by show (Fut.lift _).poll _ = _; rw [h2]; rfl) (Fut.first_left h1))
  obtain ⟨k, hk, s', hd⟩ := Fut.first_pending (Q := fun k => ∃ s', (writerSlotDrops (Static.queue UInt8 2) Case.wholeFileDrops).exposeSlots
    ⟨[], Case.filled.queue⟩ k s') (f := (writerConsumer Case.wholeFile (Static.queue UInt8 2)).exposeSlots ⟨[], Case.filled.queue⟩)
    (Fut.first_left h3) ⟨_, .flushing (.mk (.mk HEq.rfl rfl))⟩
  exact ⟨k, s', hk, hd, (writer_drops_whole Case.wholeFile_writes (Static.fifoLaw UInt8 2) (by decide) Case.wholeFile_tolerated
    Case.wholeFile_takesAll).2.exposeSlots ⟨[], [1, 2], 0, rfl, rfl, Case.filled_holds⟩ hk hd⟩

/-- If nothing is in the internal buffer, a dropped call of `bulk_consume` is tolerated. -/
example : ∃ k s', ((writerConsumer Case.sipFile (Static.queue UInt8 2)).bulkConsume ⟨([7], none), Static.new 2 fun _ => 0⟩ [1]).Pending k ∧
    (writerDrops (Static.queue UInt8 2) Case.sipFileDrops).bulkConsume ⟨([7], none), Static.new 2 fun _ => 0⟩ [1] k s' ∧
    s'.writer = ([7], none) := by
  have h1 : (QueueWriter.flushInternalBuffer Case.sipFile (Static.queue UInt8 2) ⟨([7], none), Static.new 2 fun _ => 0⟩).poll
      (QueueWriter.flushInternalBuffer Case.sipFile (Static.queue UInt8 2) ⟨([7], none), Static.new 2 fun _ => 0⟩).start =
      ok (.ready (⟨([7], none), Static.new 2 fun _ => 0⟩, .ok ())) := loop_eq_of_fuel (n := 1) nofun
  have h2 : ((writerConsumer Case.sipFile (Static.queue UInt8 2)).bulkConsume ⟨([7], none), Static.new 2 fun _ => 0⟩ [1]).poll
      ((writerConsumer Case.sipFile (Static.queue UInt8 2)).bulkConsume ⟨([7], none), Static.new 2 fun _ => 0⟩ [1]).start =
      ok (.pending (Sum.inr ⟨(⟨([7], none), Static.new 2 fun _ => 0⟩, .ok ()), Sum.inl (Sum.inl true)⟩)) := Fut.first_right h1 rfl
  obtain ⟨k, hk, s', hd⟩ := Fut.first_pending (Q := fun k => ∃ s', (writerDrops (Static.queue UInt8 2) Case.sipFileDrops).bulkConsume
    ⟨([7], none), Static.new 2 fun _ => 0⟩ [1] k s')
    (f := (writerConsumer Case.sipFile (Static.queue UInt8 2)).bulkConsume ⟨([7], none), Static.new 2 fun _ => 0⟩ [1])
    h2 ⟨_, .writing rfl⟩
  have hW := chunkWriter_writes 0 9 ⟨.other 3, none⟩
  rw [← Case.sipFile_seq] at hW
  obtain ⟨_, h2, _⟩ := (writer_drops_unbuffered hW (Static.fifoLaw UInt8 2) (by decide) Case.sipFile_tolerated).1.bulkConsume
    (l := [7]) ⟨rfl, 0, Static.holds_new 2 _⟩ (by simp) hk hd
  exact ⟨k, s', hk, hd, h2⟩

end Verif.Async
