import Verif.IoSpec
import Verif.QueueSpec
import Verif.History
import Verif.Lemmas.Spec
import Verif.Lemmas.Loop

/-!
# Helper lemmas: readers and writers
-/

namespace Verif

open Outcome

theorem Script.NoUnexpectedEof.drop {I F : Type} {c : Script I F IoError} (h : c.NoUnexpectedEof) (n : Nat) :
    (c.drop n).NoUnexpectedEof := fun i e he => h (n + i) e he

section Reader

variable {ρ : Type} {Rd : AsyncRead ρ} {R : ρ → Script UInt8 Unit IoError → Prop}

theorem ReadsLaw.readByte (hR : ReadsLaw Rd R) {r : ρ} {c : Script UInt8 Unit IoError} (h : R r c)
    (hc : c.NoUnexpectedEof) (init : UInt8) :
    ∃ r', readByte Rd r init = ok (r', c 0) ∧ ∀ x, c 0 = .ok (.inl x) → R r' (c.drop 1) := by
  obtain ⟨r', buf', hlen, ⟨k, h0, hk, hread, hs, hR'⟩ | ⟨h0, hread⟩ | ⟨e, h0, hread⟩⟩ := hR.read r c [init] h (by simp)
  · have hk1 : k = 1 := by simp at hk; omega
    subst hk1
    obtain ⟨b, rfl⟩ : ∃ b, buf' = [b] := by
      match buf', hlen with
      | [b], _ => exact ⟨b, rfl⟩
    have hb : c 0 = .ok (.inl b) := hs 0 b rfl
    refine ⟨r', ?_, fun _ _ => hR'⟩
    simp [Verif.readByte, readExact, loop_unfold, readExactBody, hread, Outcome.assert, index, hb]
  · refine ⟨r', ?_, by simp [h0]⟩
    simp [Verif.readByte, readExact, loop_unfold, readExactBody, hread, Outcome.assert, h0]
  · refine ⟨r', ?_, by simp [h0]⟩
    simp [Verif.readByte, readExact, loop_unfold, readExactBody, hread, h0, hc 0 e h0]

end Reader

/-- The relation behind `buf_reader_plays`. -/
def BufReaderRel {ρ : Type} (R : ρ → Script UInt8 Unit IoError → Nat → Prop) (r : ρ) (c : Script UInt8 Unit IoError)
    (n : Nat) : Prop := R r c n ∧ c.NoUnexpectedEof

theorem bufReader_law {ρ : Type} {Rd : AsyncBufRead ρ} {R : ρ → Script UInt8 Unit IoError → Nat → Prop}
    (hR : BufReadsLaw Rd R) : BulkPlaysLaw (bufReaderProducer Rd) (BufReaderRel R) where
  base :=
    { produce := by
        rintro r c ⟨n, hr, hc⟩
        obtain ⟨r', h1, h2⟩ := hR.read.readByte ⟨n, hr⟩ hc 0
        refine ⟨r', h1, fun x hx => ?_⟩
        obtain ⟨m, hm⟩ := h2 x hx
        exact ⟨m, hm, hc.drop 1⟩
      slurp := by
        rintro r c ⟨n, hr, hc⟩
        obtain ⟨r', ⟨xs, _, _, h1, h2⟩ | ⟨_, h1, h2⟩ | ⟨e, he, h1⟩⟩ := hR.fillBuf r c n hr
        · exact ⟨r', .inl ⟨by simp [bufReaderProducer, h1], _, h2, hc⟩⟩
        · exact ⟨r', .inl ⟨by simp [bufReaderProducer, h1], _, h2, hc⟩⟩
        · exact ⟨r', .inr ⟨e, he, by simp [bufReaderProducer, h1]⟩⟩ }
  expose := by
    rintro r c n ⟨hr, hc⟩
    obtain ⟨r', ⟨xs, hne, hs, h1, h2⟩ | ⟨h0, h1, h2⟩ | ⟨e, he, h1⟩⟩ := hR.fillBuf r c n hr
    · obtain ⟨x, hx⟩ := hs.ne_nil_zero hne
      obtain ⟨r'', ⟨ys, hne', hs', h3, h4⟩ | ⟨h0, _⟩ | ⟨e, h0, _⟩⟩ := hR.fillBuf r' c _ h2
      · exact ⟨r'', .inl ⟨ys, hne', hs', by simp [bufReaderProducer, h1, hne, h3], h4, hc⟩⟩
      · simp [hx] at h0
      · simp [hx] at h0
    · exact ⟨r', .inr (.inl ⟨(), h0, by simp [bufReaderProducer, h1]⟩)⟩
    · exact ⟨r', .inr (.inr ⟨e, he, by simp [bufReaderProducer, h1]⟩)⟩
  consider := by
    rintro r c n k ⟨hr, hc⟩ _ hk
    obtain ⟨r', h1, h2⟩ := hR.consume r c n k hr hk
    exact ⟨r', by simp [bufReaderProducer, h1], h2, hc.drop k⟩
  bulkProduce := by
    rintro r c n buf ⟨hr, hc⟩ hne
    obtain ⟨r', buf', hlen, ⟨k, h0, hk, hread, hs, m, hR'⟩ | ⟨h0, hread⟩ | ⟨e, h0, hread⟩⟩ :=
      hR.read.read r c buf ⟨n, hr⟩ hne
    · refine ⟨r', buf', hlen, .inl ⟨k, h0, hk, ?_, hs, m, hR', hc.drop k⟩⟩
      simp [bufReaderProducer, hread, readAnswer, Nat.pos_iff_ne_zero.mp h0]
    · exact ⟨r', buf', hlen, .inr (.inl ⟨(), h0, by simp [bufReaderProducer, hread, readAnswer]⟩)⟩
    · exact ⟨r', buf', hlen, .inr (.inr ⟨e, h0, by simp [bufReaderProducer, hread, readAnswer]⟩)⟩

/-- The relation behind `reader_plays`: the queue contains the next bytes, the reader delivers what follows. -/
def ReaderRel {ρ κ : Type} (R : ρ → Script UInt8 Unit IoError → Prop) (RQ : κ → List UInt8 → List UInt8 → Nat → Prop)
    (s : QueueReader ρ κ) (c : Script UInt8 Unit IoError) (n : Nat) : Prop :=
  ∃ l slots, RQ s.queue l slots n ∧ c.StartsWith l ∧ R s.reader (c.drop l.length) ∧ c.NoUnexpectedEof

theorem reader_law {ρ κ : Type} {Rd : AsyncRead ρ} {R : ρ → Script UInt8 Unit IoError → Prop} (hR : ReadsLaw Rd R)
    {Q : Queue κ UInt8} {cap : Nat} {RQ : κ → List UInt8 → List UInt8 → Nat → Prop} (hQ : FifoLaw Q cap RQ)
    (hcap : 0 < cap) : BulkPlaysLaw (readerProducer Rd Q) (ReaderRel R RQ) where
  base :=
    { produce := by
        rintro ⟨r, q⟩ c ⟨n, l, slots, hq, hs, hr, hc⟩
        cases l with
        | nil =>
          obtain ⟨r', h1, h2⟩ := hR.readByte hr (hc.drop _) 17
          simp only [List.length_nil, Script.drop_zero] at h1 h2
          have hd := hQ.dequeue_empty q slots n hq
          refine ⟨⟨r', q⟩, by simp [readerProducer, hd, h1], fun x hx => ?_⟩
          exact ⟨n, [], slots, hq, by simp, by simpa using h2 x hx, hc.drop 1⟩
        | cons b l =>
          obtain ⟨q', h1, h2⟩ := hQ.dequeue q b l slots n hq
          obtain ⟨h0, hs'⟩ := Script.startsWith_cons.mp hs
          refine ⟨⟨r, q'⟩, by simp [readerProducer, h1, h0], fun x hx => ?_⟩
          exact ⟨n - 1, l, slots, h2, hs', by simpa [Nat.add_comm] using hr, hc.drop 1⟩
      slurp := by
        rintro s c h
        exact ⟨s, .inl ⟨rfl, h⟩⟩ }
  expose := by
    rintro ⟨r, q⟩ c n ⟨l, slots, hq, hs, hr, hc⟩
    have hemp := hQ.isEmpty q l slots n hq
    by_cases hl : l = []
    · subst hl
      simp only [List.length_nil, beq_self_eq_true] at hemp
      simp only [List.length_nil, Script.drop_zero] at hr
      obtain ⟨q₁, slots₁, hne₁, h1, h2⟩ := hQ.exposeSlots q [] slots n hq (by simpa using hcap)
      obtain ⟨r', buf', hlen, ⟨k, h0, hk, hread, hs', hr'⟩ | ⟨h0, hread⟩ | ⟨e, h0, hread⟩⟩ :=
        hR.read r c slots₁ hr hne₁
      · have hw := hQ.write q₁ [] slots₁ n buf' h2 (by omega)
        obtain ⟨q₂, h3, h4⟩ := hQ.considerEnqueued _ _ _ _ k hw (by simp [hlen]; omega)
        rw [hlen, List.drop_length, List.append_nil, List.nil_append] at h4
        have hne2 : buf'.take k ≠ [] := by
          intro h; have := congrArg List.length h; simp only [List.length_take, List.length_nil] at this; omega
        obtain ⟨q₃, m, hm0, hml, h5, h6⟩ := hQ.exposeItems _ _ _ _ h4 hne2
        have hk' : (buf'.take k).length = k := by simp; omega
        have hmk : (buf'.take k).take m = buf'.take m := by
          rw [List.take_take, Nat.min_eq_left (by omega)]
        refine ⟨⟨r', q₃⟩, .inl ⟨(buf'.take k).take m, ?_, hs'.take m, ?_, ?_⟩⟩
        · intro h; have := congrArg List.length h; simp only [List.length_take, List.length_nil] at this; omega
        · simp [readerProducer, hemp, h1, hread, Nat.pos_iff_ne_zero.mp h0, h3, h5]
        · refine ⟨buf'.take k, buf'.drop k, ?_, hs', by rwa [hk'], hc⟩
          have := (hQ.weaken _ _ _ _ ((buf'.take k).take m).length h6 (by simp; omega)).2
          exact this
      · exact ⟨⟨r', Q.writeSlots q₁ buf'⟩, .inr (.inl ⟨(), h0, by simp [readerProducer, hemp, h1, hread]⟩)⟩
      · exact ⟨⟨r', Q.writeSlots q₁ buf'⟩, .inr (.inr ⟨e, h0, by simp [readerProducer, hemp, h1, hread]⟩)⟩
    · have hpos : l.length ≠ 0 := by simpa using hl
      rw [beq_eq_false_iff_ne.mpr hpos] at hemp
      obtain ⟨q', m, hm0, hml, h1, h2⟩ := hQ.exposeItems q l slots n hq hl
      refine ⟨⟨r, q'⟩, .inl ⟨l.take m, ?_, hs.take m, ?_, l, slots, ?_, hs, hr, hc⟩⟩
      · intro h; have := congrArg List.length h; simp only [List.length_take, List.length_nil] at this; omega
      · simp [readerProducer, hemp, h1]
      · exact (hQ.weaken _ _ _ _ (l.take m).length h2 (by simp; omega)).2
  consider := by
    rintro ⟨r, q⟩ c n k ⟨l, slots, hq, hs, hr, hc⟩ _ hk
    obtain ⟨q', h1, h2⟩ := hQ.considerDequeued q l slots n k hq hk hcap
    have hkl : k ≤ l.length := by have := (hQ.bound q l slots n hq).2; omega
    refine ⟨⟨r, q'⟩, by simp [readerProducer, h1], l.drop k, slots, h2, hs.drop hkl, ?_, hc.drop k⟩
    simp only [Script.drop_drop, List.length_drop]
    rwa [Nat.add_sub_cancel' hkl]
  bulkProduce := by
    rintro ⟨r, q⟩ c n buf ⟨l, slots, hq, hs, hr, hc⟩ hne
    have hemp := hQ.isEmpty q l slots n hq
    by_cases hl : l = []
    · subst hl
      simp only [List.length_nil, beq_self_eq_true] at hemp
      simp only [List.length_nil, Script.drop_zero] at hr
      obtain ⟨r', buf', hlen, ⟨k, h0, hk, hread, hs', hr'⟩ | ⟨h0, hread⟩ | ⟨e, h0, hread⟩⟩ := hR.read r c buf hr hne
      · refine ⟨⟨r', q⟩, buf', hlen, .inl ⟨k, h0, hk, ?_, hs', n, [], slots, hq, by simp, by simpa using hr', hc.drop k⟩⟩
        simp [readerProducer, hemp, hread, readAnswer, Nat.pos_iff_ne_zero.mp h0]
      · exact ⟨⟨r', q⟩, buf', hlen, .inr (.inl ⟨(), h0, by simp [readerProducer, hemp, hread, readAnswer]⟩)⟩
      · exact ⟨⟨r', q⟩, buf', hlen, .inr (.inr ⟨e, h0, by simp [readerProducer, hemp, hread, readAnswer]⟩)⟩
    · have hpos : l.length ≠ 0 := by simpa using hl
      have hbuf : 0 < buf.length := List.length_pos_iff.mpr hne
      rw [beq_eq_false_iff_ne.mpr hpos] at hemp
      obtain ⟨q₁, m, hm0, hml, h1, h2⟩ := hQ.exposeItems q l slots n hq hl
      have hlm : (l.take m).length = m := by simp; omega
      generalize ha : min m buf.length = a
      obtain ⟨q₂, h3, h4⟩ := hQ.considerDequeued q₁ l slots _ a h2 (by omega) hcap
      refine ⟨⟨r, q₂⟩, (l.take m).take a ++ buf.drop a, by simp; omega, .inl ⟨a, by omega, by omega, ?_, ?_, _, l.drop a,
        slots, h4, hs.drop (by omega), ?_, hc.drop a⟩⟩
      · simp only [readerProducer, hemp, hQ.bulkDequeue, bulkDequeueDefault, h1, bind_eq, bind_ok, pure_eq, hlm, ha, h3,
          Bool.false_eq_true, if_false]
      · rw [List.take_append_of_le_length (by simp; omega)]
        exact ((hs.take m).take a).take a
      · simp only [Script.drop_drop, List.length_drop]
        rwa [Nat.add_sub_cancel' (by omega)]

/-! ## Writers -/

section Writer

variable {ω : Type} {W : AsyncWrite ω} {D : ω → List UInt8 → Option Unit → Prop} {X : WriterFaults}
  {R : ω → List UInt8 → Prop}

theorem WritesLaw.writeAll (hW : WritesLaw W D X R) {w : ω} {l : List UInt8} (h : R w l) (buf : List UInt8) :
    ∃ w', (writeAll W w buf = ok (w', .ok ()) ∧ R w' (l ++ buf)) ∨
      (∃ e d, writeAll W w buf = ok (w', .error e) ∧ d <+: l ++ buf ∧ X.writing d e ∧ D w' d none) := by
  have := loop_ok (body := writeAllBody W)
    (fun a b (p : ω × List UInt8) => a = 0 ∧ b = p.2.length ∧ ∃ done, done ++ p.2 = buf ∧ R p.1 (l ++ done))
    (fun p : ω × Except IoError Unit => (p.2 = .ok () ∧ R p.1 (l ++ buf)) ∨
      (∃ e d, p.2 = .error e ∧ d <+: l ++ buf ∧ X.writing d e ∧ D p.1 d none))
    (by
      rintro _ _ ⟨w, rest⟩ ⟨rfl, rfl, done, hd, hR⟩
      by_cases hr : rest = []
      · subst hr
        refine .inl ⟨(w, .ok ()), by simp [writeAllBody], .inl ⟨rfl, ?_⟩⟩
        rw [List.append_nil] at hd; rwa [← hd]
      · have hpre : l ++ done <+: l ++ buf := ⟨rest, by rw [List.append_assoc, hd]⟩
        obtain ⟨w', ⟨k, h0, hk, h1, h2⟩ | ⟨hst, h1, h2⟩ | ⟨e, he, h1, h2⟩⟩ := hW.write w _ rest hR hr
        · refine .inr ⟨(w', rest.drop k), 0, (rest.drop k).length, ?_, .inr ⟨rfl, by simp; omega⟩, rfl, rfl,
            done ++ rest.take k, by simpa using hd, by simpa using h2⟩
          simp [writeAllBody, hr, h1, hk, Outcome.assert, Nat.pos_iff_ne_zero.mp h0]
        · refine .inl ⟨(w', .error ⟨.writeZero, none⟩), ?_, .inr ⟨_, l ++ done, rfl, hpre, .inr ⟨hst, rfl⟩, h2⟩⟩
          simp [writeAllBody, hr, h1, Outcome.assert]
        · refine .inl ⟨(w', .error e), ?_, .inr ⟨_, l ++ done, rfl, hpre, .inl he, h2⟩⟩
          simp [writeAllBody, hr, h1])
    (a := 0) (b := buf.length) (s := (w, buf)) ⟨rfl, rfl, [], rfl, by simpa using h⟩
  obtain ⟨⟨w', res⟩, h1, ⟨rfl, h2⟩ | ⟨e, d, rfl, h2⟩⟩ := this
  · exact ⟨w', .inl ⟨h1, h2⟩⟩
  · exact ⟨w', .inr ⟨e, d, h1, h2⟩⟩

variable {κ : Type} {Q : Queue κ UInt8} {cap : Nat} {RQ : κ → List UInt8 → List UInt8 → Nat → Prop}

theorem QueueWriter.flush_spec (hW : WritesLaw W D X R) (hQ : FifoLaw Q cap RQ) (hcap : 0 < cap) {s : QueueWriter ω κ}
    {d l slots : List UInt8} {n : Nat} (hq : RQ s.queue l slots n) (hw : R s.writer d) :
    ∃ s', (s.flushInternalBuffer W Q = ok (s', .ok ()) ∧ R s'.writer (d ++ l) ∧ ∃ m, RQ s'.queue [] slots m) ∨
      (∃ e d', s.flushInternalBuffer W Q = ok (s', .error e) ∧ d' <+: d ++ l ∧ X.writing d' e ∧ D s'.writer d' none) := by
  have := loop_ok (body := QueueWriter.flushBody W Q)
    (fun a b (s : QueueWriter ω κ) => a = 0 ∧ ∃ d' l', d' ++ l' = d ++ l ∧ b = l'.length ∧ R s.writer d' ∧
      ∃ n, RQ s.queue l' slots n)
    (fun p : QueueWriter ω κ × Except IoError Unit =>
      (p.2 = .ok () ∧ R p.1.writer (d ++ l) ∧ ∃ m, RQ p.1.queue [] slots m) ∨
      (∃ e d', p.2 = .error e ∧ d' <+: d ++ l ∧ X.writing d' e ∧ D p.1.writer d' none))
    (by
      rintro _ _ ⟨w, q⟩ ⟨rfl, d', l', hd, rfl, hw, n, hq⟩
      dsimp only at hw hq
      by_cases hl : l' = []
      · subst hl
        refine .inl ⟨(⟨w, q⟩, .ok ()), ?_, .inl ⟨rfl, ?_, n, hq⟩⟩
        · simp [QueueWriter.flushBody, hQ.exposeItems_empty q slots n hq]
        · rw [List.append_nil] at hd; dsimp only; rwa [← hd]
      · obtain ⟨q₁, m, hm0, hml, h1, h2⟩ := hQ.exposeItems q l' slots n hq hl
        have hlm : (l'.take m).length = m := by simp; omega
        obtain ⟨w', ⟨h3, h4⟩ | ⟨e, d'', h3, hpre, hX, hD⟩⟩ := hW.writeAll hw (l'.take m)
        · obtain ⟨q₂, h5, h6⟩ := hQ.considerDequeued q₁ l' slots _ m h2 (by omega) hcap
          refine .inr ⟨⟨w', q₂⟩, 0, (l'.drop m).length, ?_, .inr ⟨rfl, by simp; omega⟩, rfl, d' ++ l'.take m, l'.drop m,
            by simpa using hd, rfl, h4, _, h6⟩
          simp only [QueueWriter.flushBody, h1, h3, hlm, h5, bind_eq, bind_ok, pure_eq]
        · refine .inl ⟨(⟨w', q₁⟩, .error e), ?_, .inr ⟨e, d'', rfl, hpre.trans ?_, hX, hD⟩⟩
          · simp [QueueWriter.flushBody, h1, h3]
          · rw [← hd]; exact ⟨l'.drop m, by simp⟩)
    (a := 0) (b := l.length) (s := s) ⟨rfl, d, l, rfl, rfl, hw, n, hq⟩
  obtain ⟨⟨s', res⟩, h1, ⟨rfl, h2⟩ | ⟨e, d, rfl, h2⟩⟩ := this
  · exact ⟨s', .inl ⟨h1, h2⟩⟩
  · exact ⟨s', .inr ⟨e, d, h1, h2⟩⟩

/-- The relation behind `writer_defers`: what has been passed in is what has been written followed by what is in the
queue. -/
def WriterRel (R : ω → List UInt8 → Prop) (RQ : κ → List UInt8 → List UInt8 → Nat → Prop) (s : QueueWriter ω κ)
    (l slots : List UInt8) : Prop :=
  ∃ d queued n, l = d ++ queued ∧ R s.writer d ∧ RQ s.queue queued slots n

theorem writer_law (hW : WritesLaw W D X R) (hQ : FifoLaw Q cap RQ) (hcap : 0 < cap) :
    BulkDefersLaw (writerConsumer W Q) (fun s => D s.writer) X.faults (WriterRel R RQ) where
  base :=
    { observe := by
        rintro s l ⟨slots, d, queued, n, rfl, hw, hq⟩
        exact ⟨d, ⟨queued, rfl⟩, hW.observe _ _ hw⟩
      consume := by
        rintro s l x ⟨slots, d, queued, n, rfl, hw, hq⟩
        obtain ⟨s₁, ⟨h1, h2, m, h3⟩ | ⟨e, d', h1, hpre, hX, hD⟩⟩ := QueueWriter.flush_spec hW hQ hcap hq hw
        · obtain ⟨w', ⟨h4, h5⟩ | ⟨e, d', h4, hpre, hX, hD⟩⟩ := hW.writeAll h2 [x]
          · exact ⟨⟨w', s₁.queue⟩, .inl ⟨by simp [writerConsumer, h1, h4], slots, _, [], m, by simp, h5, h3⟩⟩
          · exact ⟨⟨w', s₁.queue⟩, .inr ⟨e, d', by simp [writerConsumer, h1, h4], ⟨hpre, .inl hX⟩, hD⟩⟩
        · exact ⟨s₁, .inr ⟨e, d', by simp [writerConsumer, h1], ⟨hpre.trans ⟨[x], rfl⟩, .inl hX⟩, hD⟩⟩
      close := by
        rintro s l f ⟨slots, d, queued, n, rfl, hw, hq⟩
        obtain ⟨s₁, ⟨h1, h2, m, h3⟩ | ⟨e, d', h1, hpre, hX, hD⟩⟩ := QueueWriter.flush_spec hW hQ hcap hq hw
        · obtain ⟨w', ⟨h4, h5⟩ | ⟨e, he, h4, hD⟩⟩ := hW.close _ _ h2
          · exact ⟨⟨w', s₁.queue⟩, .inl ⟨by simp [writerConsumer, h1, h4], h5⟩⟩
          · exact ⟨⟨w', s₁.queue⟩, .inr ⟨e, _, by simp [writerConsumer, h1, h4],
              ⟨List.prefix_refl _, .inr (.inr ⟨rfl, he⟩)⟩, hD⟩⟩
        · exact ⟨s₁, .inr ⟨e, d', by simp [writerConsumer, h1], ⟨hpre, .inl hX⟩, hD⟩⟩
      flush := by
        rintro s l ⟨slots, d, queued, n, rfl, hw, hq⟩
        obtain ⟨s₁, ⟨h1, h2, m, h3⟩ | ⟨e, d', h1, hpre, hX, hD⟩⟩ := QueueWriter.flush_spec hW hQ hcap hq hw
        · obtain ⟨w', ⟨h4, h5⟩ | ⟨e, he, h4, hD⟩⟩ := hW.flush _ _ h2
          · exact ⟨⟨w', s₁.queue⟩, .inl ⟨by simp [writerConsumer, h1, h4], ⟨slots, _, [], m, by simp, h5, h3⟩,
              hW.observe _ _ h5⟩⟩
          · exact ⟨⟨w', s₁.queue⟩, .inr ⟨e, _, by simp [writerConsumer, h1, h4],
              ⟨List.prefix_refl _, .inr he⟩, hD⟩⟩
        · exact ⟨s₁, .inr ⟨e, d', by simp [writerConsumer, h1], ⟨hpre, .inl hX⟩, hD⟩⟩ }
  expose := by
    rintro s l slots ⟨d, queued, n, rfl, hw, hq⟩
    obtain ⟨s₁, ⟨h1, h2, m, h3⟩ | ⟨e, d', h1, hpre, hX, hD⟩⟩ := QueueWriter.flush_spec hW hQ hcap hq hw
    · obtain ⟨q', slots', hne, h4, h5⟩ := hQ.exposeSlots _ _ _ _ h3 (by simpa using hcap)
      exact ⟨⟨s₁.writer, q'⟩, .inl ⟨slots', hne, by simp [writerConsumer, h1, h4], _, [], m, by simp, h2, h5⟩⟩
    · exact ⟨s₁, .inr ⟨e, d', by simp [writerConsumer, h1], ⟨hpre, .inl hX⟩, hD⟩⟩
  write := by
    rintro s l slots ws ⟨d, queued, n, rfl, hw, hq⟩ hlen
    exact ⟨d, queued, n, rfl, hw, hQ.write _ _ _ _ ws hq hlen⟩
  consumeSlots := by
    rintro s l slots k ⟨d, queued, n, rfl, hw, hq⟩ _ hk
    obtain ⟨q', h1, h2⟩ := hQ.considerEnqueued _ _ _ _ k hq hk
    exact ⟨⟨s.writer, q'⟩, .inl ⟨by simp [writerConsumer, h1], d, queued ++ slots.take k, n, by simp, hw, h2⟩⟩
  bulkConsume := by
    rintro s l slots buf ⟨d, queued, n, rfl, hw, hq⟩ hne
    obtain ⟨s₁, ⟨h1, h2, m, h3⟩ | ⟨e, d', h1, hpre, hX, hD⟩⟩ := QueueWriter.flush_spec hW hQ hcap hq hw
    · obtain ⟨w', ⟨k, h0, hk, h4, h5⟩ | ⟨hst, h4, hD⟩ | ⟨e, he, h4, hD⟩⟩ := hW.write _ _ buf h2 hne
      · refine ⟨⟨w', s₁.queue⟩, .inl ⟨k, h0, hk, ?_, slots, _, [], m, by simp, h5, h3⟩⟩
        simp [writerConsumer, h1, h4, Nat.pos_iff_ne_zero.mp h0]
      · exact ⟨⟨w', s₁.queue⟩, .inr ⟨wroteZero, _, by simp [writerConsumer, h1, h4],
          ⟨⟨buf, rfl⟩, .inl (.inr ⟨hst, rfl⟩)⟩, hD⟩⟩
      · exact ⟨⟨w', s₁.queue⟩, .inr ⟨e, _, by simp [writerConsumer, h1, h4], ⟨⟨buf, rfl⟩, .inl (.inl he)⟩, hD⟩⟩
    · exact ⟨s₁, .inr ⟨e, d', by simp [writerConsumer, h1], ⟨hpre.trans ⟨buf, rfl⟩, .inl hX⟩, hD⟩⟩

/-- A successful `consume` writes everything passed in so far. -/
theorem writer_consume_spec (hW : WritesLaw W D X R) (hQ : FifoLaw Q cap RQ) (hcap : 0 < cap) {s s' : QueueWriter ω κ}
    {l slots : List UInt8} {x : UInt8} (h : WriterRel R RQ s l slots)
    (hc : (writerConsumer W Q).consume s x = ok (s', .ok ())) : D s'.writer (l ++ [x]) none := by
  obtain ⟨d, queued, n, rfl, hw, hq⟩ := h
  obtain ⟨s₁, ⟨h1, h2, m, h3⟩ | ⟨e, d', h1, hpre, hX, hD⟩⟩ := QueueWriter.flush_spec hW hQ hcap hq hw
  · obtain ⟨w', ⟨h4, h5⟩ | ⟨e, d', h4, hpre, hX, hD⟩⟩ := hW.writeAll h2 [x]
    · simp [writerConsumer, h1, h4] at hc
      subst hc; exact hW.observe _ _ h5
    · simp [writerConsumer, h1, h4] at hc
  · simp [writerConsumer, h1] at hc

/-- A successful `bulk_consume` writes everything passed in so far. -/
theorem writer_bulkConsume_spec (hW : WritesLaw W D X R) (hQ : FifoLaw Q cap RQ) (hcap : 0 < cap)
    {s s' : QueueWriter ω κ} {l slots buf : List UInt8} {k : Nat} (h : WriterRel R RQ s l slots) (hne : buf ≠ [])
    (hc : (writerConsumer W Q).bulkConsume s buf = ok (s', .ok k)) : D s'.writer (l ++ buf.take k) none := by
  obtain ⟨d, queued, n, rfl, hw, hq⟩ := h
  obtain ⟨s₁, ⟨h1, h2, m, h3⟩ | ⟨e, d', h1, hpre, hX, hD⟩⟩ := QueueWriter.flush_spec hW hQ hcap hq hw
  · obtain ⟨w', ⟨k', h0, hk, h4, h5⟩ | ⟨hst, h4, hD⟩ | ⟨e, he, h4, hD⟩⟩ := hW.write _ _ buf h2 hne
    · simp [writerConsumer, h1, h4, Nat.pos_iff_ne_zero.mp h0] at hc
      obtain ⟨rfl, rfl⟩ := hc
      exact hW.observe _ _ h5
    · simp [writerConsumer, h1, h4] at hc
    · simp [writerConsumer, h1, h4] at hc
  · simp [writerConsumer, h1] at hc

end Writer

theorem WriterFaults.regular (X : WriterFaults) : X.faults.Regular where
  during_prefix _ _ _ h := h.1
  exposing_prefix _ _ _ h := h.1
  closing_prefix _ _ _ _ h := h.1
  mono _ _ _ _ h h' := ⟨h.1.trans h', h.2⟩
  exposing_during _ _ _ _ h _ := ⟨h.1.trans (List.prefix_append _ _), h.2⟩
  during_exposing _ _ _ h := h
  during_closing := by
    rintro l f d e ⟨h1, h2 | h2⟩
    · exact ⟨h1, .inl h2⟩
    · exact ⟨h1, .inr (.inl h2)⟩

/-! ## Recording readers and writers -/

theorem logged_writes {ω : Type} {W : AsyncWrite ω} (hW : W.Answers) :
    WritesLaw W.logged logOf .any (fun s l => s.2.1 = l ∧ s.2.2 = none) where
  observe _ _ h := h
  write := by
    rintro ⟨w, log, closed⟩ l buf ⟨rfl, rfl⟩ _
    obtain ⟨w', res, h1, h2⟩ := hW.write w buf
    rcases res with e | n
    · exact ⟨(w', log, none), .inr (.inr ⟨e, trivial, by simp [AsyncWrite.logged, h1], rfl, rfl⟩)⟩
    · rcases Nat.eq_zero_or_pos n with rfl | hn
      · exact ⟨(w', log, none), .inr (.inl ⟨trivial, by simp [AsyncWrite.logged, h1], rfl, rfl⟩)⟩
      · exact ⟨(w', log ++ buf.take n, none), .inl ⟨n, hn, h2 n rfl, by simp [AsyncWrite.logged, h1], rfl, rfl⟩⟩
  flush := by
    rintro ⟨w, log, closed⟩ l ⟨rfl, rfl⟩
    obtain ⟨⟨w', res⟩, h1⟩ := hW.flush w
    rcases res with e | _
    · exact ⟨(w', log, none), .inr ⟨e, trivial, by simp [AsyncWrite.logged, h1], rfl, rfl⟩⟩
    · exact ⟨(w', log, none), .inl ⟨by simp [AsyncWrite.logged, h1], rfl, rfl⟩⟩
  close := by
    rintro ⟨w, log, closed⟩ l ⟨rfl, rfl⟩
    obtain ⟨⟨w', res⟩, h1⟩ := hW.close w
    rcases res with e | _
    · exact ⟨(w', log, none), .inr ⟨e, trivial, by simp [AsyncWrite.logged, h1], rfl, rfl⟩⟩
    · exact ⟨(w', log, some ()), .inl ⟨by simp [AsyncWrite.logged, h1], rfl, rfl⟩⟩

section Logged

variable {ρ : Type} {Rd : AsyncRead ρ}

theorem logged_read (hR : Rd.RespectsBuffers) {r r' : ρ} {log log' buf buf' : List UInt8} {res : Except IoError Nat}
    (h : Rd.logged.read (r, log) buf = ok ((r', log'), res, buf')) : buf'.length = buf.length ∧
      ((∃ e, res = .error e ∧ log' = log) ∨ ∃ n, res = .ok n ∧ n ≤ buf.length ∧ log' = log ++ buf'.take n) := by
  rcases hr : Rd.read r buf with ⟨r₁, e | n, b₁⟩ | _ | _ <;> simp [AsyncRead.logged, hr] at h
  · obtain ⟨⟨rfl, rfl⟩, rfl, rfl⟩ := h
    exact ⟨(hR _ _ _ _ _ hr).1, .inl ⟨e, rfl, rfl⟩⟩
  · obtain ⟨⟨rfl, rfl⟩, rfl, rfl⟩ := h
    exact ⟨(hR _ _ _ _ _ hr).1, .inr ⟨n, rfl, (hR _ _ _ _ _ hr).2 n rfl, rfl⟩⟩

theorem logged_readByte (hR : Rd.RespectsBuffers) {r r' : ρ} {log log' : List UInt8} {init : UInt8}
    {res : Except IoError (UInt8 ⊕ Unit)} (h : readByte Rd.logged (r, log) init = ok ((r', log'), res)) :
    (∃ b, res = .ok (.inl b) ∧ log' = log ++ [b]) ∨ ((∀ b, res ≠ .ok (.inl b)) ∧ log' = log) := by
  rcases hr : Rd.logged.read (r, log) [init] with ⟨⟨r₁, log₁⟩, res₁, b₁⟩ | _ | _
  · obtain ⟨hlen, ⟨e, rfl, rfl⟩ | ⟨n, rfl, hn, rfl⟩⟩ := logged_read hR hr
    · right
      simp only [readByte, readExact, loop_unfold, readExactBody, hr, bind_eq, bind_ok, pure_eq, List.cons_ne_nil,
        if_false] at h
      split at h <;> simp at h <;> obtain ⟨⟨rfl, rfl⟩, rfl⟩ := h <;> simp
    · obtain ⟨b, rfl⟩ : ∃ b, b₁ = [b] := by
        match b₁, hlen with
        | [b], _ => exact ⟨b, rfl⟩
      have : n = 0 ∨ n = 1 := by simp at hn; omega
      rcases this with rfl | rfl
      · right
        simp [readByte, readExact, loop_unfold, readExactBody, hr, Outcome.assert] at h
        obtain ⟨⟨rfl, rfl⟩, rfl⟩ := h
        simp
      · left
        simp [readByte, readExact, loop_unfold, readExactBody, hr, Outcome.assert, index] at h
        obtain ⟨⟨rfl, rfl⟩, rfl⟩ := h
        exact ⟨b, rfl, rfl⟩
  · simp [readByte, readExact, loop_unfold, readExactBody, hr] at h
  · simp [readByte, readExact, loop_unfold, readExactBody, hr] at h

variable {κ : Type} {Q : Queue κ UInt8} {cap : Nat} {RQ : κ → List UInt8 → List UInt8 → Nat → Prop}

/-- What the reader has delivered is what has been handed out followed by what is in the queue. -/
def Conserved (RQ : κ → List UInt8 → List UInt8 → Nat → Prop) (handed : List UInt8)
    (s : QueueReader (ρ × List UInt8) κ) (shown : List UInt8) : Prop :=
  ∃ l slots n, RQ s.queue l slots n ∧ s.reader.2 = handed ++ l ∧ shown <+: l ∧ shown.length ≤ n

theorem conserved_call (hR : Rd.RespectsBuffers) (hQ : FifoLaw Q cap RQ) (hcap : 0 < cap) {handed shown : List UInt8}
    {s s' : QueueReader (ρ × List UInt8) κ} {op : ProducerOp UInt8} {a : Handout UInt8 Unit IoError}
    (h : Conserved RQ handed s shown) (hop : op.Allowed shown)
    (hcall : (readerProducer Rd.logged Q).call s shown op = ok (s', a)) : Conserved RQ (handed ++ a.items) s' a.shown := by
  obtain ⟨⟨r, log⟩, q⟩ := s
  obtain ⟨l, slots, n, hq, hlog, hsh, hn⟩ := h
  dsimp only at hq hlog
  subst hlog
  cases op with
  | produce =>
    cases l with
    | nil =>
      have hd := hQ.dequeue_empty q slots n hq
      rcases hr : readByte Rd.logged (r, handed ++ []) 17 with ⟨⟨r', log'⟩, res⟩ | _ | _ <;>
        simp only [BulkProducer.call, readerProducer, hd, hr, bind_eq, bind_ok, pure_eq, bind_panic, bind_diverge,
          reduceCtorEq] at hcall
      rcases logged_readByte hR hr with ⟨b, rfl, rfl⟩ | ⟨hne, rfl⟩
      · simp at hcall; obtain ⟨rfl, rfl⟩ := hcall
        exact ⟨[], slots, n, hq, by simp, by simp, by simp⟩
      · rcases res with e | b | _
        · simp at hcall; obtain ⟨rfl, rfl⟩ := hcall
          exact ⟨[], slots, n, hq, by simp, by simp, by simp⟩
        · exact absurd rfl (hne b)
        · simp at hcall; obtain ⟨rfl, rfl⟩ := hcall
          exact ⟨[], slots, n, hq, by simp, by simp, by simp⟩
    | cons b l =>
      obtain ⟨q', h1, h2⟩ := hQ.dequeue q b l slots n hq
      simp [BulkProducer.call, readerProducer, h1] at hcall
      obtain ⟨rfl, rfl⟩ := hcall
      exact ⟨l, slots, n - 1, h2, by simp, by simp, by simp⟩
  | slurp =>
    simp [BulkProducer.call, readerProducer] at hcall
    obtain ⟨rfl, rfl⟩ := hcall
    exact ⟨l, slots, n, hq, by simp, by simp, by simp⟩
  | exposeItems =>
    have hemp := hQ.isEmpty q l slots n hq
    by_cases hl : l = []
    · subst hl
      simp only [List.length_nil, beq_self_eq_true] at hemp
      obtain ⟨q₁, slots₁, hne₁, h1, h2⟩ := hQ.exposeSlots q [] slots n hq (by simpa using hcap)
      rcases hr : Rd.logged.read (r, handed ++ []) slots₁ with ⟨⟨r', log'⟩, res, buf'⟩ | _ | _ <;>
        simp only [BulkProducer.call, readerProducer, hemp, h1, hr, bind_eq, bind_ok, pure_eq, bind_panic, bind_diverge,
          reduceCtorEq, unwrap_some, if_true] at hcall
      obtain ⟨hlen, ⟨e, rfl, rfl⟩ | ⟨k, rfl, hk, rfl⟩⟩ := logged_read hR hr
      · have hw := hQ.write q₁ [] slots₁ n buf' h2 (by omega)
        simp at hcall; obtain ⟨rfl, rfl⟩ := hcall
        exact ⟨[], _, n, hw, by simp, by simp, by simp⟩
      · have hw := hQ.write q₁ [] slots₁ n buf' h2 (by omega)
        rcases Nat.eq_zero_or_pos k with rfl | h0
        · simp at hcall; obtain ⟨rfl, rfl⟩ := hcall
          exact ⟨[], _, n, hw, by simp, by simp, by simp⟩
        · obtain ⟨q₂, h3, h4⟩ := hQ.considerEnqueued _ _ _ _ k hw (by simp [hlen]; omega)
          rw [hlen, List.drop_length, List.append_nil, List.nil_append] at h4
          have hne2 : buf'.take k ≠ [] := by
            intro h; have := congrArg List.length h; simp only [List.length_take, List.length_nil] at this; omega
          obtain ⟨q₃, m, hm0, hml, h5, h6⟩ := hQ.exposeItems _ _ _ _ h4 hne2
          simp only [Nat.pos_iff_ne_zero.mp h0, if_false, h3, h5, bind_ok, unwrap_some, Outcome.ok.injEq,
            Prod.mk.injEq] at hcall
          obtain ⟨rfl, rfl⟩ := hcall
          refine ⟨buf'.take k, _, _, h6, by simp, List.take_prefix _ _, ?_⟩
          simp only [List.length_take]; omega
    · have hpos : l.length ≠ 0 := by simpa using hl
      rw [beq_eq_false_iff_ne.mpr hpos] at hemp
      obtain ⟨q', m, hm0, hml, h1, h2⟩ := hQ.exposeItems q l slots n hq hl
      simp [BulkProducer.call, readerProducer, hemp, h1] at hcall
      obtain ⟨rfl, rfl⟩ := hcall
      refine ⟨l, slots, _, h2, by simp, List.take_prefix _ _, ?_⟩
      simp only [List.length_take]; omega
  | considerProduced k =>
    obtain ⟨_, hk⟩ := hop
    obtain ⟨q', h1, h2⟩ := hQ.considerDequeued q l slots n k hq (by omega) hcap
    simp [BulkProducer.call, readerProducer, h1] at hcall
    obtain ⟨rfl, rfl⟩ := hcall
    obtain ⟨t, rfl⟩ := hsh
    rw [List.drop_append_of_le_length hk] at h2
    refine ⟨shown.drop k ++ t, slots, n - k, h2, ?_, ⟨t, rfl⟩, ?_⟩
    · simp only [List.append_assoc]
      rw [← List.append_assoc (shown.take k), List.take_append_drop]
    · simp only [List.length_drop]; omega
  | bulkProduce buf =>
    have hne : buf ≠ [] := hop
    have hbuf : 0 < buf.length := List.length_pos_iff.mpr hne
    have hemp := hQ.isEmpty q l slots n hq
    by_cases hl : l = []
    · subst hl
      simp only [List.length_nil, beq_self_eq_true] at hemp
      rcases hr : Rd.logged.read (r, handed ++ []) buf with ⟨⟨r', log'⟩, res, buf'⟩ | _ | _ <;>
        simp only [BulkProducer.call, readerProducer, hemp, hr, bind_eq, bind_ok, pure_eq, bind_panic, bind_diverge,
          reduceCtorEq, if_true] at hcall
      obtain ⟨hlen, ⟨e, rfl, rfl⟩ | ⟨k, rfl, hk, rfl⟩⟩ := logged_read hR hr
      · simp [readAnswer] at hcall; obtain ⟨rfl, rfl⟩ := hcall
        exact ⟨[], slots, n, hq, by simp, by simp, by simp⟩
      · rcases Nat.eq_zero_or_pos k with rfl | h0
        · simp [readAnswer] at hcall; obtain ⟨rfl, rfl⟩ := hcall
          exact ⟨[], slots, n, hq, by simp, by simp, by simp⟩
        · simp [readAnswer, Nat.pos_iff_ne_zero.mp h0] at hcall; obtain ⟨rfl, rfl⟩ := hcall
          exact ⟨[], slots, n, hq, by simp, by simp, by simp⟩
    · have hpos : l.length ≠ 0 := by simpa using hl
      rw [beq_eq_false_iff_ne.mpr hpos] at hemp
      obtain ⟨q₁, m, hm0, hml, h1, h2⟩ := hQ.exposeItems q l slots n hq hl
      have hlm : (l.take m).length = m := by simp; omega
      obtain ⟨q₂, h3, h4⟩ := hQ.considerDequeued q₁ l slots _ (min m buf.length) h2 (by omega) hcap
      simp only [BulkProducer.call, readerProducer, hemp, hQ.bulkDequeue, bulkDequeueDefault, h1, bind_eq, bind_ok,
        pure_eq, hlm, h3, Bool.false_eq_true, if_false, Outcome.ok.injEq, Prod.mk.injEq] at hcall
      obtain ⟨rfl, rfl⟩ := hcall
      refine ⟨l.drop (min m buf.length), slots, _, h4, ?_, by simp, by simp⟩
      rw [List.take_append_of_le_length (by simp; omega), List.take_take, List.take_take, List.append_assoc]
      have : min (min m buf.length) (min (min m buf.length) m) = min m buf.length := by omega
      simp only [Nat.min_self, this]
      rw [show min (min m buf.length) m = min m buf.length by omega, List.take_append_drop]

end Logged

end Verif
