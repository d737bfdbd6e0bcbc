import Verif.Props.ResumeItems

/-!
# Slice transfers and bounded pipes dropped any number of times (C111)

C104 drops `bulk_consume_full_slice`, `bulk_overwrite_full_slice` and `bulk_pipe_at_most` once, and C108 drops `consume_full_slice`,
`overwrite_full_slice` and `pipe_at_most` once. Here the caller learns after every drop how many items have moved, and starts the call again
with what is left. This may happen any number of times.
-/

namespace Verif.Async

open Outcome

variable {σ τ I F E E₁ E₂ : Type}

/-- `bulk_consume_full_slice` is dropped any number of times, and called with the rest of the buffer after every drop. Altogether `n`
items have been consumed. -/
inductive SliceConsumeContinued {C : BulkConsumer τ I F E} (dc : ConsumerDrops C) : τ → List I → Nat → τ → Prop where
  | refl {t buf} : SliceConsumeContinued dc t buf 0 t
  | drop {t buf k n t₁ n' t'} : (bulkConsumeFullSlice C t buf).Pending k → SliceConsumeDropped dc t buf k n t₁ →
      SliceConsumeContinued dc t₁ (buf.drop n) n' t' → SliceConsumeContinued dc t buf (n + n') t'

/-- `bulk_overwrite_full_slice` is dropped any number of times, and called with the rest of the buffer after every drop. -/
inductive SliceProduceContinued {P : BulkProducer σ I F E} (dp : BulkProduceDrops P) : σ → List I → Nat → σ → Prop where
  | refl {s buf} : SliceProduceContinued dp s buf 0 s
  | drop {s buf k n s₁ n' s'} : (bulkOverwriteFullSlice P s buf).Pending k → SliceProduceDropped dp s buf k n s₁ →
      SliceProduceContinued dp s₁ (buf.drop n) n' s' → SliceProduceContinued dp s buf (n + n') s'

/-- `bulk_pipe_at_most` is dropped any number of times, every time while `expose_items` or `bulk_consume` is pending, and called with the
rest of the bound after every drop. -/
inductive BulkPipeAtMostContinued {P : BulkProducer σ I F E₁} {C : BulkConsumer τ I F E₂} (dp : ProducerDrops P) (dc : ConsumerDrops C) :
    σ → τ → Nat → Nat → σ → τ → Prop where
  | refl {s t count} : BulkPipeAtMostContinued dp dc s t count 0 s t
  | drop {s t count k n s₁ t₁ n' s' t'} : (bulkPipeAtMost P C s t count).Pending k → BulkPipeAtMostDropped dp dc s t count k n s₁ t₁ →
      BulkPipeAtMostContinued dp dc s₁ t₁ (count - n) n' s' t' → BulkPipeAtMostContinued dp dc s t count (n + n') s' t'

/-- **C111, `bulk_consume_full_slice`.** However often it is dropped and called with the rest of the buffer, the last call succeeds if the
consumer accepts the whole buffer, and then the consumer has consumed the buffer exactly once. If the consumer fails at item `i`, then the
last call reports its error, and exactly the items before `i` have been consumed. -/
theorem bulk_consume_full_slice_continued {C : BulkConsumer τ I F E} {D : τ → List I → Option F → Prop} {q : Policy I F E}
    {S : τ → List I → List I → Prop} {dc : ConsumerDrops C} {t t' : τ} {l sl buf : List I} {n : Nat} (hS : BulkCollectsLaw C.seq D q S)
    (hdc : dc.Tolerated S) (hsl : S t l sl) (h : SliceConsumeContinued dc t buf n t') :
    n ≤ buf.length ∧
      (q.Accepts l buf → ∃ t₁, (bulkConsumeFullSlice C t' (buf.drop n)).run = ok (t₁, .ok ()) ∧ BulkCollects C.seq D q t₁ (l ++ buf)) ∧
      (∀ i e, q.FailsAt l buf i e → n ≤ i ∧ ∃ t₁ count, count ≤ i - n ∧
        (bulkConsumeFullSlice C t' (buf.drop n)).run = ok (t₁, .error ⟨count, e⟩) ∧ D t₁ (l ++ buf.take i) none) := by
  induction h generalizing l sl with
  | @refl t buf =>
    have hC : BulkCollects C.seq D q t l := ⟨S, hS, sl, hsl⟩
    refine ⟨Nat.zero_le _, fun hacc => ?_, fun i e hf => ⟨Nat.zero_le _, ?_⟩⟩
    · obtain ⟨t₁, h1, h2⟩ := ((bulk_consume_full_slice_spec hC buf).1 hacc).1
      exact ⟨t₁, by rw [bulkConsumeFullSlice_run]; simpa using h1, h2⟩
    · obtain ⟨t₁, count, h0, h1, h2⟩ := ((bulk_consume_full_slice_spec hC buf).2 i e hf).1
      exact ⟨t₁, count, h0, by rw [bulkConsumeFullSlice_run]; simpa using h1, h2⟩
  | @drop t buf k n t₁ n' t' hk hd _ ih =>
    obtain ⟨hlt, ha, sl, hsl'⟩ := bulk_consume_full_slice_dropped hS hdc hsl hk hd
    obtain ⟨_, _, _, hfail, _⟩ := bulk_consume_full_slice_resumed hS hdc hsl hk hd
    obtain ⟨hle, h1, h2⟩ := ih hsl'
    rw [List.length_drop] at hle
    rw [List.drop_drop] at h1 h2
    refine ⟨by omega, fun hacc => ?_, fun i e hf => ?_⟩
    · rw [← List.take_append_drop n buf, Policy.accepts_append] at hacc
      obtain ⟨t₂, h3, h4⟩ := h1 hacc.2
      exact ⟨t₂, h3, by simpa [List.append_assoc] using h4⟩
    · have hle' := (hfail i e hf).1
      have htake : buf.take i = buf.take n ++ (buf.drop n).take (i - n) := by
        rw [← List.take_add, Nat.add_sub_cancel' hle']
      have hf' : q.FailsAt (l ++ buf.take n) (buf.drop n) (i - n) e := by
        obtain ⟨h3, x, hx, hax⟩ := hf
        rw [htake] at h3 hax
        refine ⟨(Policy.accepts_append.1 h3).2, x, ?_, by simpa [List.append_assoc] using hax⟩
        rw [List.getElem?_drop, Nat.add_sub_cancel' hle']
        exact hx
      obtain ⟨hni, t₂, count, h3, h4, h5⟩ := h2 (i - n) e hf'
      refine ⟨by omega, t₂, count, by omega, h4, by rw [htake, ← List.append_assoc]; exact h5⟩

theorem slice_produce_continued {P : BulkProducer σ I F E} {c : Script I F E} {R : σ → Script I F E → Nat → Prop}
    {dp : BulkProduceDrops P} {s s' : σ} {buf : List I} {m n : Nat} (hR : BulkPlaysLaw P.seq R) (hdp : dp.Tolerated R) (hm : R s c m)
    (h : SliceProduceContinued dp s buf n s') :
    ∃ xs : List I, xs.length = n ∧ n ≤ buf.length ∧ c.StartsWith xs ∧ ∃ m, R s' (c.drop n) m := by
  induction h generalizing c m with
  | refl => exact ⟨[], rfl, Nat.zero_le _, by intro i x hi; simp at hi, m, by simpa [Script.drop] using hm⟩
  | @drop s buf k n s₁ n' s' hk hd _ ih =>
    obtain ⟨xs, rfl, hlt, hx, m, hm⟩ := bulk_overwrite_full_slice_dropped hR hdp hm hk hd
    obtain ⟨ys, rfl, hle, hy, m', hm'⟩ := ih hm
    rw [List.length_drop] at hle
    refine ⟨xs ++ ys, by simp, by omega, ?_, m', ?_⟩
    · intro i x hi
      rcases Nat.lt_or_ge i xs.length with h | h
      · exact hx i x (by rwa [List.getElem?_append_left h] at hi)
      · have := hy (i - xs.length) x (by rwa [List.getElem?_append_right h] at hi)
        simpa [Script.drop, Nat.sub_add_cancel h, Nat.add_sub_cancel' h] using this
    · have : (c.drop xs.length).drop ys.length = c.drop (xs.length + ys.length) := by
        funext i; simp [Script.drop, Nat.add_comm, Nat.add_left_comm]
      rwa [this] at hm'

/-- **C111, `bulk_overwrite_full_slice`.** However often it is dropped and called with the rest of the buffer, the producer has emitted some
items `xs`, and the last call emits exactly the items that come after them: none is lost and none comes twice. If the producer ends before
the buffer is full, then the last call reports its final value or error, and the number of items after `xs`. -/
theorem bulk_overwrite_full_slice_continued {P : BulkProducer σ I F E} {c : Script I F E} {R : σ → Script I F E → Nat → Prop}
    {dp : BulkProduceDrops P} {s s' : σ} {buf : List I} {m n : Nat} (hR : BulkPlaysLaw P.seq R) (hdp : dp.Tolerated R) (hm : R s c m)
    (h : SliceProduceContinued dp s buf n s') :
    ∃ xs : List I, xs.length = n ∧ n ≤ buf.length ∧ c.StartsWith xs ∧
      (∀ ys, (xs ++ ys).length = buf.length → c.StartsWith (xs ++ ys) → ∃ s₁,
        (bulkOverwriteFullSlice P s' (buf.drop n)).run = ok (s₁, .ok (), ys) ∧ BulkPlays P.seq s₁ (c.drop buf.length)) ∧
      (∀ ys f, (xs ++ ys).length < buf.length → c.StartsWith (xs ++ ys) → c (xs ++ ys).length = .ok (.inr f) → ∃ s₁ out,
        (bulkOverwriteFullSlice P s' (buf.drop n)).run = ok (s₁, .error ⟨ys.length, .inl f⟩, ys ++ out)) ∧
      (∀ ys e, (xs ++ ys).length < buf.length → c.StartsWith (xs ++ ys) → c (xs ++ ys).length = .error e → ∃ s₁ out,
        (bulkOverwriteFullSlice P s' (buf.drop n)).run = ok (s₁, .error ⟨ys.length, .inr e⟩, ys ++ out)) := by
  obtain ⟨xs, rfl, hl, hx, m, hm⟩ := slice_produce_continued hR hdp hm h
  have hP : BulkPlays P.seq s' (c.drop xs.length) := ⟨R, hR, m, hm⟩
  have hsw : ∀ {ys}, c.StartsWith (xs ++ ys) → (c.drop xs.length).StartsWith ys := by
    intro ys h i x hi
    have := h (xs.length + i) x (by rw [List.getElem?_append_right (by omega)]; simpa using hi)
    simpa [Script.drop, Nat.add_comm] using this
  refine ⟨xs, rfl, hl, hx, fun ys hly hys => ?_, fun ys f hly hys hf => ?_, fun ys e hly hys he => ?_⟩ <;> rw [List.length_append] at hly
  · obtain ⟨s₁, h1, h2⟩ := ((bulk_overwrite_full_slice_spec hP (buf.drop xs.length)).1 ys (by simp; omega) (hsw hys)).1
    refine ⟨s₁, by rw [bulkOverwriteFullSlice_run, h1], ?_⟩
    simpa [Nat.add_sub_cancel' hl] using h2
  · obtain ⟨s₁, out, h1, _⟩ := ((bulk_overwrite_full_slice_spec hP (buf.drop xs.length)).2.1 ys f (by simp; omega) (hsw hys)
      (by simpa [Script.drop, Nat.add_comm] using hf)).1
    exact ⟨s₁, out, by rw [bulkOverwriteFullSlice_run, h1]⟩
  · obtain ⟨s₁, out, h1, _⟩ := ((bulk_overwrite_full_slice_spec hP (buf.drop xs.length)).2.2 ys e (by simp; omega) (hsw hys)
      (by simpa [Script.drop, Nat.add_comm] using he)).1
    exact ⟨s₁, out, by rw [bulkOverwriteFullSlice_run, h1]⟩

theorem bulk_pipe_at_most_continues {P : BulkProducer σ I F E₁} {C : BulkConsumer τ I F E₂} {D : τ → List I → Option F → Prop}
    {c : Script I F E₁} {q : Policy I F E₂} {R : σ → Script I F E₁ → Nat → Prop} {S : τ → List I → List I → Prop}
    {dp : ProducerDrops P} {dc : ConsumerDrops C} {s s' : σ} {t t' : τ} {l sl : List I} {m count n : Nat} (hR : BulkPlaysLaw P.seq R)
    (hS : BulkCollectsLaw C.seq D q S) (hdp : dp.Tolerated R) (hdc : dc.Tolerated S) (hm : R s c m) (hsl : S t l sl)
    (h : BulkPipeAtMostContinued dp dc s t count n s' t') {xs fin res} (hr : AtMostResult c q l count xs fin res) :
    n ≤ count ∧ ∃ res' s₂ t₂, res = res'.map (n + ·) ∧ (bulkPipeAtMost P C s' t' (count - n)).run = ok ((s₂, t₂), res') ∧
      D t₂ (l ++ xs) fin := by
  induction h generalizing c l sl m xs res with
  | refl =>
    obtain ⟨s₁, t₁, h1, h2, _⟩ := bulk_pipe_at_most_spec ⟨R, hR, m, hm⟩ ⟨S, hS, sl, hsl⟩ hr
    exact ⟨Nat.zero_le _, res, s₁, t₁, by cases res <;> simp [Except.map], by rw [bulkPipeAtMost_run]; exact h1, h2⟩
  | @drop s t count k n s₁ t₁ n' s' t' hk hd _ ih =>
    obtain ⟨ys, rfl, hlt, hy, ha, ⟨m', hm'⟩, sl', hsl'⟩ := bulk_pipe_at_most_dropped hR hS hdp hdc hm hsl hk hd
    obtain ⟨res', rfl, hxs, hr'⟩ := AtMostResult.advance hr hy ha (Nat.le_of_lt hlt)
    obtain ⟨hle, res'', s₂, t₂, rfl, h1, h2⟩ := ih hm' hsl' hr'
    refine ⟨by omega, res'', s₂, t₂, ?_, by rw [← Nat.sub_sub]; exact h1, by rw [hxs]; simpa [List.append_assoc] using h2⟩
    cases res'' <;> simp [Except.map, Nat.add_assoc]

/-- **C111, `bulk_pipe_at_most`.** However often it is dropped and called with the rest of the bound, the last call has the result of a
single call that is not dropped, and the consumer has consumed the same; only the count that a success reports is short by the `n` items
that the dropped calls moved. -/
theorem bulk_pipe_at_most_continued {P : BulkProducer σ I F E₁} {C : BulkConsumer τ I F E₂} {D : τ → List I → Option F → Prop}
    {c : Script I F E₁} {q : Policy I F E₂} {R : σ → Script I F E₁ → Nat → Prop} {S : τ → List I → List I → Prop}
    {dp : ProducerDrops P} {dc : ConsumerDrops C} {s s' : σ} {t t' : τ} {l sl : List I} {m count n : Nat} (hR : BulkPlaysLaw P.seq R)
    (hS : BulkCollectsLaw C.seq D q S) (hdp : dp.Tolerated R) (hdc : dc.Tolerated S) (hm : R s c m) (hsl : S t l sl)
    (h : BulkPipeAtMostContinued dp dc s t count n s' t') :
    n ≤ count ∧ ∃ xs fin res s₁ t₁ s₂ t₂, (bulkPipeAtMost P C s t count).run = ok ((s₁, t₁), res.map (n + ·)) ∧ D t₁ (l ++ xs) fin ∧
      (bulkPipeAtMost P C s' t' (count - n)).run = ok ((s₂, t₂), res) ∧ D t₂ (l ++ xs) fin := by
  obtain ⟨xs, fin, res, hr⟩ := AtMostResult.exists c q l count
  obtain ⟨s₁, t₁, h1, h2, _⟩ := bulk_pipe_at_most_spec ⟨R, hR, m, hm⟩ ⟨S, hS, sl, hsl⟩ hr
  obtain ⟨hle, res', s₂, t₂, rfl, h3, h4⟩ := bulk_pipe_at_most_continues hR hS hdp hdc hm hsl h hr
  exact ⟨hle, xs, fin, res', s₁, t₁, s₂, t₂, by rw [bulkPipeAtMost_run, h1], h2, h3, h4⟩

/-! ## One item at a time -/

/-- `consume_full_slice` is dropped any number of times, and called with the rest of the buffer after every drop. -/
inductive ConsumeSliceContinued {C : Consumer τ I F E} (d : ConsumeDrops C) : τ → List I → Nat → τ → Prop where
  | refl {t buf} : ConsumeSliceContinued d t buf 0 t
  | drop {t buf k n t₁ n' t'} : (consumeFullSlice C t buf).Pending k → ConsumeSliceDropped d t 0 buf k n t₁ →
      ConsumeSliceContinued d t₁ (buf.drop n) n' t' → ConsumeSliceContinued d t buf (n + n') t'

/-- `overwrite_full_slice` is dropped any number of times, and called with the rest of the buffer after every drop. `left` is what is then
in the whole buffer. -/
inductive OverwriteSliceContinued {P : Producer σ I F E} (d : ItemDrops P) : σ → List I → Nat → List I → σ → Prop where
  | refl {s buf} : OverwriteSliceContinued d s buf 0 buf s
  | drop {s buf k n left s₁ n' left' s'} : (overwriteFullSlice P s buf).Pending k → OverwriteSliceDropped d s [] buf k n left s₁ →
      OverwriteSliceContinued d s₁ (left.drop n) n' left' s' → OverwriteSliceContinued d s buf (n + n') (left.take n ++ left') s'

/-- `pipe_at_most` is dropped any number of times, every time while `produce` is pending, and called with the rest of the bound after every
drop. -/
inductive PipeAtMostContinued {P : Producer σ I F E₁} (C : Consumer τ I F E₂) (dp : ItemDrops P) : σ → τ → Nat → Nat → σ → τ → Prop where
  | refl {s t count} : PipeAtMostContinued C dp s t count 0 s t
  | drop {s t count k n s₁ t₁ n' s' t'} : (pipeAtMost P C s t count).Pending k → PipeAtMostProducing dp s t count k n s₁ t₁ →
      PipeAtMostContinued C dp s₁ t₁ (count - n) n' s' t' → PipeAtMostContinued C dp s t count (n + n') s' t'

/-- **C111, `consume_full_slice`.** As for `bulk_consume_full_slice`; here the count in the error is exact. -/
theorem consume_full_slice_continued {C : Consumer τ I F E} {D : τ → List I → Option F → Prop} {q : Policy I F E}
    {S : τ → List I → Prop} {d : ConsumeDrops C} {t t' : τ} {l buf : List I} {n : Nat} (hS : CollectsLaw C.seq D q S)
    (hd : d.Tolerated S) (ht : S t l) (h : ConsumeSliceContinued d t buf n t') :
    n ≤ buf.length ∧
      (q.Accepts l buf → ∃ t₁, (consumeFullSlice C t' (buf.drop n)).run = ok (t₁, .ok ()) ∧ Collects C.seq D q t₁ (l ++ buf)) ∧
      (∀ i e, q.FailsAt l buf i e → n ≤ i ∧ ∃ t₁, (consumeFullSlice C t' (buf.drop n)).run = ok (t₁, .error ⟨i - n, e⟩) ∧
        D t₁ (l ++ buf.take i) none) := by
  induction h generalizing l with
  | @refl t buf =>
    have hC : Collects C.seq D q t l := ⟨S, hS, ht⟩
    refine ⟨Nat.zero_le _, fun hacc => ?_, fun i e hf => ⟨Nat.zero_le _, ?_⟩⟩
    · obtain ⟨t₁, h1, h2⟩ := (consume_full_slice_spec hC buf).1 hacc
      exact ⟨t₁, by rw [consumeFullSlice_run]; simpa using h1, h2⟩
    · obtain ⟨t₁, h1, h2⟩ := (consume_full_slice_spec hC buf).2 i e hf
      exact ⟨t₁, by rw [consumeFullSlice_run]; simpa using h1, h2⟩
  | @drop t buf k n t₁ n' t' hk hdr _ ih =>
    obtain ⟨hlt, ha, ht'⟩ := consume_full_slice_dropped hS hd ht hk hdr
    obtain ⟨_, _, _, hfail, _⟩ := consume_full_slice_resumed hS hd ht hk hdr
    obtain ⟨hle, h1, h2⟩ := ih ht'
    rw [List.length_drop] at hle
    rw [List.drop_drop] at h1 h2
    refine ⟨by omega, fun hacc => ?_, fun i e hf => ?_⟩
    · rw [← List.take_append_drop n buf, Policy.accepts_append] at hacc
      obtain ⟨t₂, h3, h4⟩ := h1 hacc.2
      exact ⟨t₂, h3, by simpa [List.append_assoc] using h4⟩
    · have hle' := (hfail i e hf).1
      have htake : buf.take i = buf.take n ++ (buf.drop n).take (i - n) := by
        rw [← List.take_add, Nat.add_sub_cancel' hle']
      have hf' : q.FailsAt (l ++ buf.take n) (buf.drop n) (i - n) e := by
        obtain ⟨h3, x, hx, hax⟩ := hf
        rw [htake] at h3 hax
        refine ⟨(Policy.accepts_append.1 h3).2, x, ?_, by simpa [List.append_assoc] using hax⟩
        rw [List.getElem?_drop, Nat.add_sub_cancel' hle']
        exact hx
      obtain ⟨hni, t₂, h4, h5⟩ := h2 (i - n) e hf'
      exact ⟨by omega, t₂, by rw [← Nat.sub_sub]; exact h4, by rw [htake, ← List.append_assoc]; exact h5⟩

/-- **C111, `overwrite_full_slice`.** However often it is dropped and called with the rest of the buffer, the items `xs` that the producer
has emitted are at the beginning of the buffer, and the last call puts the items that come after them behind them. If the producer ends
before the buffer is full, then the rest of the buffer is as it was. -/
theorem overwrite_full_slice_continued {P : Producer σ I F E} {c : Script I F E} {R : σ → Script I F E → Prop} {d : ItemDrops P}
    {s s' : σ} {buf left : List I} {n : Nat} (hR : PlaysLaw P.seq R) (hd : d.Tolerated R) (hs : R s c)
    (h : OverwriteSliceContinued d s buf n left s') :
    ∃ xs : List I, xs.length = n ∧ n ≤ buf.length ∧ c.StartsWith xs ∧ left = xs ++ buf.drop n ∧
      (∀ ys, (xs ++ ys).length = buf.length → c.StartsWith (xs ++ ys) → ∃ s₁,
        (overwriteFullSlice P s' (left.drop n)).run = ok (s₁, .ok (), ys) ∧ Plays P.seq s₁ (c.drop buf.length)) ∧
      (∀ ys f, (xs ++ ys).length < buf.length → c.StartsWith (xs ++ ys) → c (xs ++ ys).length = .ok (.inr f) → ∃ s₁,
        (overwriteFullSlice P s' (left.drop n)).run = ok (s₁, .error ⟨ys.length, .inl f⟩, ys ++ buf.drop (xs ++ ys).length)) ∧
      (∀ ys e, (xs ++ ys).length < buf.length → c.StartsWith (xs ++ ys) → c (xs ++ ys).length = .error e → ∃ s₁,
        (overwriteFullSlice P s' (left.drop n)).run = ok (s₁, .error ⟨ys.length, .inr e⟩, ys ++ buf.drop (xs ++ ys).length)) := by
  have key : ∃ xs : List I, xs.length = n ∧ n ≤ buf.length ∧ c.StartsWith xs ∧ left = xs ++ buf.drop n ∧ R s' (c.drop n) := by
    induction h generalizing c with
    | refl => exact ⟨[], rfl, Nat.zero_le _, by simp, by simp, by simpa using hs⟩
    | @drop s buf k n left s₁ n' left' s' hk hdr _ ih =>
      obtain ⟨xs, rfl, hlt, hx, rfl, hs₁⟩ := overwrite_full_slice_dropped hR hd hs hk hdr
      obtain ⟨ys, rfl, hle, hy, rfl, hs'⟩ := ih hs₁
      rw [List.drop_left] at hle ⊢
      rw [List.length_drop] at hle
      refine ⟨xs ++ ys, by simp, by omega, ?_, by simp [List.drop_drop], ?_⟩
      · intro i x hi
        rcases Nat.lt_or_ge i xs.length with h | h
        · exact hx i x (by rwa [List.getElem?_append_left h] at hi)
        · have := hy (i - xs.length) x (by rwa [List.getElem?_append_right h] at hi)
          simpa [Script.drop, Nat.sub_add_cancel h, Nat.add_sub_cancel' h] using this
      · have : (c.drop xs.length).drop ys.length = c.drop (xs.length + ys.length) := by
          funext i; simp [Script.drop, Nat.add_comm, Nat.add_left_comm]
        rwa [this] at hs'
  obtain ⟨xs, rfl, hl, hx, rfl, hs'⟩ := key
  have hP : Plays P.seq s' (c.drop xs.length) := ⟨R, hR, hs'⟩
  have hsw : ∀ {ys}, c.StartsWith (xs ++ ys) → (c.drop xs.length).StartsWith ys := by
    intro ys h i x hi
    have := h (xs.length + i) x (by rw [List.getElem?_append_right (by omega)]; simpa using hi)
    simpa [Script.drop, Nat.add_comm] using this
  refine ⟨xs, rfl, hl, hx, rfl, fun ys hly hys => ?_, fun ys f hly hys hf => ?_, fun ys e hly hys he => ?_⟩ <;>
    rw [List.length_append] at hly <;> rw [List.drop_left]
  · obtain ⟨s₁, h1, h2⟩ := (overwrite_full_slice_spec hP (buf.drop xs.length)).1 ys (by simp; omega) (hsw hys)
    refine ⟨s₁, by rw [overwriteFullSlice_run, h1], ?_⟩
    simpa [Nat.add_sub_cancel' hl] using h2
  · obtain ⟨s₁, h1⟩ := (overwrite_full_slice_spec hP (buf.drop xs.length)).2.1 ys f (by simp; omega) (hsw hys)
      (by simpa [Script.drop, Nat.add_comm] using hf)
    exact ⟨s₁, by rw [overwriteFullSlice_run, h1, List.drop_drop, List.length_append]⟩
  · obtain ⟨s₁, h1⟩ := (overwrite_full_slice_spec hP (buf.drop xs.length)).2.2 ys e (by simp; omega) (hsw hys)
      (by simpa [Script.drop, Nat.add_comm] using he)
    exact ⟨s₁, by rw [overwriteFullSlice_run, h1, List.drop_drop, List.length_append]⟩

/-- **C111, `pipe_at_most`.** As for `bulk_pipe_at_most`, if it is always dropped while `produce` is pending. (An item is lost if it is
dropped while `consume` is pending, C108.) -/
theorem pipe_at_most_continued {P : Producer σ I F E₁} {C : Consumer τ I F E₂} {D : τ → List I → Option F → Prop}
    {c : Script I F E₁} {q : Policy I F E₂} {R : σ → Script I F E₁ → Prop} {S : τ → List I → Prop} {dp : ItemDrops P} {s s' : σ}
    {t t' : τ} {count n : Nat} {l : List I} (hR : PlaysLaw P.seq R) (hS : CollectsLaw C.seq D q S) (hdp : dp.Tolerated R) (hs : R s c)
    (ht : S t l) (h : PipeAtMostContinued C dp s t count n s' t') :
    n ≤ count ∧ ∃ xs fin res s₁ t₁ s₂ t₂, (pipeAtMost P C s t count).run = ok ((s₁, t₁), res.map (n + ·)) ∧ D t₁ (l ++ xs) fin ∧
      (pipeAtMost P C s' t' (count - n)).run = ok ((s₂, t₂), res) ∧ D t₂ (l ++ xs) fin := by
  obtain ⟨xs, fin, res, hr⟩ := AtMostResult.exists c q l count
  obtain ⟨s₁, t₁, h1, h2, h0⟩ := pipe_at_most_spec ⟨R, hR, hs⟩ ⟨S, hS, ht⟩ hr
  have key : n ≤ count ∧ ∃ res' s₂ t₂, res = res'.map (n + ·) ∧ (pipeAtMost P C s' t' (count - n)).run = ok ((s₂, t₂), res') ∧
      D t₂ (l ++ xs) fin := by
    clear h0 h1 h2
    induction h generalizing c l xs res with
    | refl =>
      obtain ⟨s₁, t₁, h1, h2, _⟩ := pipe_at_most_spec ⟨R, hR, hs⟩ ⟨S, hS, ht⟩ hr
      exact ⟨Nat.zero_le _, res, s₁, t₁, by cases res <;> simp [Except.map], by rw [pipeAtMost_run]; exact h1, h2⟩
    | @drop s t count k n s₁ t₁ n' s' t' hk hd _ ih =>
      obtain ⟨ys, rfl, hlt, hy, ha, hs', ht'⟩ := pipe_at_most_dropped_producing hR hS hdp hs ht hk hd
      obtain ⟨res', rfl, hxs, hr'⟩ := AtMostResult.advance hr hy ha (Nat.le_of_lt hlt)
      obtain ⟨hle, res'', s₂, t₂, rfl, h1, h2⟩ := ih hs' ht' _ _ hr'
      refine ⟨by omega, res'', s₂, t₂, ?_, by rw [← Nat.sub_sub]; exact h1, by rw [hxs]; simpa [List.append_assoc] using h2⟩
      cases res'' <;> simp [Except.map, Nat.add_assoc]
  obtain ⟨hle, res', s₂, t₂, rfl, h3, h4⟩ := key
  exact ⟨hle, xs, fin, res', s₁, t₁, s₂, t₂, by rw [pipeAtMost_run, h1], h2, h3, h4⟩

/-! ## Cases -/

/-- `[1, 2]` is to be consumed. The call is dropped after one item, called with `[2]`, dropped again, and called with `[2]` once more. Then
the vector is `[1, 2]`. -/
example : ∃ t', SliceConsumeContinued Case.sipVecDrops .new [1, 2] 1 t' ∧
    ∃ t₁, (bulkConsumeFullSlice Case.sipVec t' [2]).run = ok (t₁, .ok ()) ∧ t₁.intoVec = [1, 2] := by
  have h : (bulkConsumeFullSlice Case.sipVec .new [1, 2]).poll (bulkConsumeFullSlice Case.sipVec .new [1, 2]).start =
      ok (.pending ⟨(_, 1), Sum.inl _⟩) := loop_eq_of_fuel (n := 2) nofun
  obtain ⟨k, hk, t', hd⟩ := Fut.first_pending (Q := fun k => ∃ t', SliceConsumeDropped Case.sipVecDrops .new [1, 2] k 1 t') h
    ⟨_, .consuming (n := 1) HEq.rfl rfl⟩
  have h' : (bulkConsumeFullSlice Case.sipVec t' [2]).poll (bulkConsumeFullSlice Case.sipVec t' [2]).start =
      ok (.pending ⟨(t', 0), Sum.inl _⟩) := loop_eq_of_fuel (n := 1) nofun
  obtain ⟨k', hk', t'', hd'⟩ := Fut.first_pending (Q := fun k => ∃ t'', SliceConsumeDropped Case.sipVecDrops t' [2] k 0 t'') h'
    ⟨_, .consuming (n := 0) HEq.rfl rfl⟩
  have hc : SliceConsumeContinued Case.sipVecDrops .new [1, 2] (1 + (0 + 0)) t'' := .drop hk hd (.drop hk' hd' .refl)
  obtain ⟨_, h1, _⟩ := bulk_consume_full_slice_continued Case.sipVec_law Case.sipVec_tolerated (IntoVec.ready_fromVec []) hc
  obtain ⟨t₁, h2, R, hR, sl, hs⟩ := h1 Policy.accepts_acceptAll
  exact ⟨t'', hc, t₁, h2, (hR.base.toCollectsLaw.observe _ _ ⟨sl, hs⟩).2⟩

/-- A buffer of three items is to be filled from a producer of 1, 2, 3. The call is dropped after one item; the next one fills the rest. -/
example : ∃ s', SliceProduceContinued (TestProducer.bulkDrops false Nat Unit String) Case.oneByOne [0, 0, 0] 1 s' ∧
    ∃ s₁, (bulkOverwriteFullSlice Case.TP s' [0, 0]).run = ok (s₁, .ok (), [2, 3]) := by
  have h : (bulkOverwriteFullSlice Case.TP Case.oneByOne [0, 0, 0]).poll (bulkOverwriteFullSlice Case.TP Case.oneByOne [0, 0, 0]).start =
      ok (.pending ⟨(_, [1, 0, 0], 1), Sum.inl (Sum.inl _)⟩) := loop_eq_of_fuel (n := 2) nofun
  obtain ⟨s', hd⟩ := test_producer_drops_expose_total false (Fut.pending_left (Fut.pending_left (Fut.pending_loop (Fut.Pending.first h)).2))
  obtain ⟨k, hk, hd⟩ := Fut.first_pending (Q := fun k => SliceProduceDropped (TestProducer.bulkDrops false Nat Unit String) Case.oneByOne
    [0, 0, 0] k 1 s') h (.producing (n := 1) HEq.rfl (.exposing hd))
  have hc : SliceProduceContinued (TestProducer.bulkDrops false Nat Unit String) Case.oneByOne [0, 0, 0] (1 + 0) s' := .drop hk hd .refl
  obtain ⟨xs, hl, _, hx, h1, _⟩ := bulk_overwrite_full_slice_continued Case.TP_law (test_producer_bulk_drops false) Case.oneByOne_ready hc
  have : xs = [1] := by
    have := Script.StartsWith.prefix hx (Case.script_starts _) (by rw [hl]; decide)
    rw [this, hl]; rfl
  subst this
  obtain ⟨s₁, h2, _⟩ := h1 [2, 3] rfl (Case.script_starts _)
  exact ⟨s', hc, s₁, h2⟩

/-- At most two items are to be moved. The call is dropped after one item, and called with the bound 1. -/
example : ∃ s' t', BulkPipeAtMostContinued (TestProducer.drops false Nat Unit String) Case.sipVecDrops readyProducer .new 2 1 s' t' ∧
    ∃ res s₁ t₁ s₂ t₂, (bulkPipeAtMost Case.TP Case.sipVec readyProducer .new 2).run = ok ((s₁, t₁), res.map (1 + ·)) ∧
      (bulkPipeAtMost Case.TP Case.sipVec s' t' 1).run = ok ((s₂, t₂), res) ∧ t₁.intoVec = t₂.intoVec := by
  have h : (bulkPipeAtMost Case.TP Case.sipVec readyProducer .new 2).poll (bulkPipeAtMost Case.TP Case.sipVec readyProducer .new 2).start =
      ok (.pending ⟨(_, _, 1), .inr ⟨(_, .ok (.inl _)), .inl _⟩⟩) := loop_eq_of_fuel (n := 2) nofun
  obtain ⟨k, hk, s', t', hd⟩ := Fut.first_pending (Q := fun k => ∃ s' t', BulkPipeAtMostDropped (TestProducer.drops false Nat Unit String)
    Case.sipVecDrops readyProducer .new 2 k 1 s' t') h ⟨_, _, .consuming (n := 1) HEq.rfl rfl⟩
  have hc : BulkPipeAtMostContinued (TestProducer.drops false Nat Unit String) Case.sipVecDrops readyProducer .new 2 (1 + 0) s' t' :=
    .drop hk hd .refl
  obtain ⟨_, xs, fin, res, s₁, t₁, s₂, t₂, h1, h2, h3, h4⟩ := bulk_pipe_at_most_continued Case.TP_law Case.sipVec_law
    (test_producer_drops false) Case.sipVec_tolerated Case.ready_ready (IntoVec.ready_fromVec []) hc
  exact ⟨s', t', hc, res, s₁, t₁, s₂, t₂, h1, h3, h2.2.trans h4.2.symm⟩

/-- `[1, 2]` is to be consumed one item at a time. The call is dropped after one item; the next one consumes the rest. -/
example : ∃ t', ConsumeSliceContinued (TestConsumer.consumeDrops false Nat Unit String) Case.sipConsumer [1, 2] 1 t' ∧
    ∃ t₁, (consumeFullSlice Case.TC.toConsumer t' [2]).run = ok (t₁, .ok ()) ∧ Verif.TestConsumer.Seen t₁ [1, 2] none := by
  have h : (consumeFullSlice Case.TC.toConsumer Case.sipConsumer [1, 2]).poll
      (consumeFullSlice Case.TC.toConsumer Case.sipConsumer [1, 2]).start =
      ok (.pending (Sum.inr ⟨(_, .ok ()), Sum.inl _⟩)) := rfl
  obtain ⟨t', hd⟩ := test_consumer_drops_consume_total false (Fut.pending_left (Fut.pending_right (Fut.Pending.first h)).2)
  obtain ⟨k, hk, hd⟩ := Fut.first_pending (Q := fun k => ConsumeSliceDropped (TestConsumer.consumeDrops false Nat Unit String)
    Case.sipConsumer 0 [1, 2] k 1 t') h (.later (.consuming hd))
  have hc : ConsumeSliceContinued (TestConsumer.consumeDrops false Nat Unit String) Case.sipConsumer [1, 2] (1 + 0) t' :=
    .drop hk hd .refl
  obtain ⟨_, h1, _⟩ := consume_full_slice_continued Case.TC_law.base.toCollectsLaw (test_consumer_consume_drops false 5 "full")
    ⟨_, Case.sipConsumer_ready⟩ hc
  obtain ⟨t₁, h2, h3⟩ := h1 (Case.accepts (n := 5) (by decide))
  exact ⟨t', hc, t₁, h2, h3.observe⟩

/-- A buffer of three items is to be filled one item at a time. The call is dropped after one item; the next one fills the rest. -/
example : ∃ s', OverwriteSliceContinued (TestProducer.itemDrops false Nat Unit String) Case.sipProducer [0, 0, 0] 1 [1, 0, 0] s' ∧
    ∃ s₁, (overwriteFullSlice Case.TP.toProducer s' [0, 0]).run = ok (s₁, .ok (), [2, 3]) := by
  have h : (overwriteFullSlice Case.TP.toProducer Case.sipProducer [0, 0, 0]).poll
      (overwriteFullSlice Case.TP.toProducer Case.sipProducer [0, 0, 0]).start =
      ok (.pending (Sum.inr ⟨(_, .ok (.inl 1)), Sum.inl _⟩)) := rfl
  obtain ⟨s', hd⟩ := test_producer_drops_produce_total false (Fut.pending_left (Fut.pending_right (Fut.Pending.first h)).2)
  obtain ⟨k, hk, hd⟩ := Fut.first_pending (Q := fun k => OverwriteSliceDropped (TestProducer.itemDrops false Nat Unit String)
    Case.sipProducer [] [0, 0, 0] k 1 [1, 0, 0] s') h (.later (.producing hd))
  have hc : OverwriteSliceContinued (TestProducer.itemDrops false Nat Unit String) Case.sipProducer [0, 0, 0] (1 + 0)
      ([1, 0, 0].take 1 ++ [1, 0, 0].drop 1) s' := .drop hk hd .refl
  obtain ⟨xs, hl, _, hx, _, h1, _⟩ := overwrite_full_slice_continued Case.TP_law.base.toPlaysLaw (test_producer_item_drops false)
    ⟨0, Case.sipProducer_ready⟩ hc
  have : xs = [1] := by
    have := Script.StartsWith.prefix hx (Case.script_starts _) (by rw [hl]; decide)
    rw [this, hl]; rfl
  subst this
  obtain ⟨s₁, h2, _⟩ := h1 [2, 3] rfl (Case.script_starts _)
  exact ⟨s', hc, s₁, h2⟩

/-- At most two items are to be moved one at a time. The call is dropped after one item, and called with the bound 1. -/
example : ∃ s' t', PipeAtMostContinued Case.TC.toConsumer (TestProducer.itemDrops false Nat Unit String) Case.sipProducer
      (TestConsumer.new "full" 5 [] none) 2 1 s' t' ∧
    ∃ xs fin res s₁ t₁ s₂ t₂, (pipeAtMost Case.TP.toProducer Case.TC.toConsumer Case.sipProducer (TestConsumer.new "full" 5 [] none) 2).run =
        ok ((s₁, t₁), res.map (1 + ·)) ∧ Verif.TestConsumer.Seen t₁ xs fin ∧
      (pipeAtMost Case.TP.toProducer Case.TC.toConsumer s' t' 1).run = ok ((s₂, t₂), res) ∧ Verif.TestConsumer.Seen t₂ xs fin := by
  have h : (pipeAtMost Case.TP.toProducer Case.TC.toConsumer Case.sipProducer (TestConsumer.new "full" 5 [] none) 2).poll
      (pipeAtMost Case.TP.toProducer Case.TC.toConsumer Case.sipProducer (TestConsumer.new "full" 5 [] none) 2).start =
      ok (.pending ⟨(_, _, 1), .inl _⟩) := loop_eq_of_fuel (n := 2) nofun
  obtain ⟨s', hd⟩ := test_producer_drops_produce_total false (Fut.pending_left (Fut.pending_loop (Fut.Pending.first h)).2)
  obtain ⟨k, hk, t', hd⟩ := Fut.first_pending (Q := fun k => ∃ t', PipeAtMostProducing (TestProducer.itemDrops false Nat Unit String)
    Case.sipProducer (TestConsumer.new "full" 5 [] none) 2 k 1 s' t') h ⟨_, .mk (n := 1) HEq.rfl hd⟩
  have hc : PipeAtMostContinued Case.TC.toConsumer (TestProducer.itemDrops false Nat Unit String) Case.sipProducer
      (TestConsumer.new "full" 5 [] none) 2 (1 + 0) s' t' := .drop hk hd .refl
  obtain ⟨_, xs, fin, res, s₁, t₁, s₂, t₂, h1, h2, h3, h4⟩ := pipe_at_most_continued Case.TP_law.base.toPlaysLaw
    Case.TC_law.base.toCollectsLaw (test_producer_item_drops false) ⟨0, Case.sipProducer_ready⟩
    ⟨_, Verif.TestConsumer.ready_new false "full" 5 [] none⟩ hc
  exact ⟨s', t', hc, xs, fin, res, s₁, t₁, s₂, t₂, h1, h2, h3, h4⟩

end Verif.Async
