import Verif.Props.ResumeAdaptors
import Verif.Props.AbandonCodec
import Verif.Props.PipeAtMost
import Verif.Props.FullSlice

/-!
# Dropped slice transfers and bounded pipes that are started again (C104)

`bulk_consume_full_slice`, `bulk_overwrite_full_slice` and `bulk_pipe_at_most` count what they have transferred, and the count is
dropped with the future. With producers and consumers that tolerate dropped calls, a caller who knew the count could carry on. A caller
who starts the same call again repeats items, loses items, or moves more items than the bound.
-/

namespace Verif.Async

open Outcome

variable {σ τ I F E E₁ E₂ : Type}

/-- What a dropped call of `bulk_consume_full_slice` leaves. -/
theorem bulk_consume_full_slice_dropped {C : BulkConsumer τ I F E} {D : τ → List I → Option F → Prop} {q : Policy I F E}
    {S : τ → List I → List I → Prop} {dc : ConsumerDrops C} {t t' : τ} {l sl buf : List I} {n : Nat} (hS : BulkCollectsLaw C.seq D q S)
    (hdc : dc.Tolerated S) (hsl : S t l sl) {k : (bulkConsumeFullSlice C t buf).κ} (h : (bulkConsumeFullSlice C t buf).Pending k)
    (hd : SliceConsumeDropped dc t buf k n t') :
    n < buf.length ∧ q.Accepts l (buf.take n) ∧ ∃ sl, S t' (l ++ buf.take n) sl := by
  obtain ⟨n, t₁, k', rfl, hlt, ha, ⟨sl, hsl⟩, kc, hk, hp⟩ := bulk_consume_full_slice_left hS hsl h
  cases hd with
  | consuming hk' hd =>
    refine ⟨hlt, ha, ?_⟩
    cases eq_of_heq (hk.symm.trans hk')
    exact hdc.bulkConsume hsl (by intro h0; have := congrArg List.length h0; simp at this; omega) hp hd

/-- **C104, `bulk_consume_full_slice`.** If it is dropped, then the first `n` items of the buffer have been consumed, and `n` is
smaller than the length. Consuming the other items then has the result of the call that was dropped. Starting the same call again
consumes the first `n` items twice. -/
theorem bulk_consume_full_slice_resumed {C : BulkConsumer τ I F E} {D : τ → List I → Option F → Prop} {q : Policy I F E}
    {S : τ → List I → List I → Prop} {dc : ConsumerDrops C} {t t' : τ} {l sl buf : List I} {n : Nat} (hS : BulkCollectsLaw C.seq D q S)
    (hdc : dc.Tolerated S) (hsl : S t l sl) {k : (bulkConsumeFullSlice C t buf).κ} (h : (bulkConsumeFullSlice C t buf).Pending k)
    (hd : SliceConsumeDropped dc t buf k n t') :
    n < buf.length ∧ BulkCollects C.seq D q t' (l ++ buf.take n) ∧
      (q.Accepts l buf → ∃ t₁, (bulkConsumeFullSlice C t' (buf.drop n)).run = ok (t₁, .ok ()) ∧ BulkCollects C.seq D q t₁ (l ++ buf)) ∧
      (∀ i e, q.FailsAt l buf i e → n ≤ i ∧ ∃ t₁ count, count ≤ i - n ∧
        (bulkConsumeFullSlice C t' (buf.drop n)).run = ok (t₁, .error ⟨count, e⟩) ∧ D t₁ (l ++ buf.take i) none) ∧
      (q.Accepts (l ++ buf.take n) buf → ∃ t₁, (bulkConsumeFullSlice C t' buf).run = ok (t₁, .ok ()) ∧
        BulkCollects C.seq D q t₁ (l ++ buf.take n ++ buf)) := by
  obtain ⟨hlt, ha, sl, hsl⟩ := bulk_consume_full_slice_dropped hS hdc hsl h hd
  have hC : BulkCollects C.seq D q t' (l ++ buf.take n) := ⟨S, hS, sl, hsl⟩
  refine ⟨hlt, hC, fun hacc => ?_, fun i e hf => ?_, fun hacc => ?_⟩
  · rw [← List.take_append_drop n buf, Policy.accepts_append] at hacc
    obtain ⟨t₁, h1, h2⟩ := ((bulk_consume_full_slice_spec hC (buf.drop n)).1 hacc.2).1
    exact ⟨t₁, by rw [bulkConsumeFullSlice_run, h1], by simpa [List.append_assoc] using h2⟩
  · have hle : n ≤ i := by
      rcases Nat.lt_or_ge i n with hin | hin
      · exfalso
        obtain ⟨_, x, hx, hax⟩ := hf
        have hf' : q.FailsAt l (buf.take n) i e :=
          ⟨by rw [List.take_take, Nat.min_eq_left (by omega)]; assumption, x, by rw [List.getElem?_take_of_lt hin]; exact hx,
            by rw [List.take_take, Nat.min_eq_left (by omega)]; exact hax⟩
        exact hf'.not_accepts ha
      · exact hin
    refine ⟨hle, ?_⟩
    have htake : buf.take i = buf.take n ++ (buf.drop n).take (i - n) := by
      rw [← List.take_add, Nat.add_sub_cancel' hle]
    have hf' : q.FailsAt (l ++ buf.take n) (buf.drop n) (i - n) e := by
      obtain ⟨h1, x, hx, hax⟩ := hf
      rw [htake] at h1 hax
      refine ⟨(Policy.accepts_append.1 h1).2, x, ?_, by simpa [List.append_assoc] using hax⟩
      rw [List.getElem?_drop, Nat.add_sub_cancel' hle]
      exact hx
    obtain ⟨t₁, count, h1, h2, h3⟩ := ((bulk_consume_full_slice_spec hC (buf.drop n)).2 _ _ hf').1
    exact ⟨t₁, count, h1, by rw [bulkConsumeFullSlice_run, h2], by rw [htake]; simpa [List.append_assoc] using h3⟩
  · obtain ⟨t₁, h1, h2⟩ := ((bulk_consume_full_slice_spec hC buf).1 hacc).1
    exact ⟨t₁, by rw [bulkConsumeFullSlice_run, h1], h2⟩

/-- What a dropped call of `bulk_overwrite_full_slice` leaves. -/
theorem bulk_overwrite_full_slice_dropped {P : BulkProducer σ I F E} {c : Script I F E} {R : σ → Script I F E → Nat → Prop}
    {dp : BulkProduceDrops P} {s s' : σ} {buf : List I} {m n : Nat} (hR : BulkPlaysLaw P.seq R) (hdp : dp.Tolerated R) (hm : R s c m)
    {k : (bulkOverwriteFullSlice P s buf).κ} (h : (bulkOverwriteFullSlice P s buf).Pending k) (hd : SliceProduceDropped dp s buf k n s') :
    ∃ xs : List I, xs.length = n ∧ n < buf.length ∧ c.StartsWith xs ∧ ∃ m, R s' (c.drop xs.length) m := by
  obtain ⟨xs, rest, s₁, k', rfl, hx, hne, hl, ⟨m, hm⟩, kp, hk, hp⟩ := bulk_overwrite_full_slice_left hR hm h
  have := List.length_pos_iff.2 hne
  cases hd with
  | producing hk' hd =>
    refine ⟨xs, rfl, by omega, hx, ?_⟩
    cases eq_of_heq (hk.symm.trans hk')
    exact hdp.bulkProduce hm (by simpa using hne) hp hd

/-- **C104, `bulk_overwrite_full_slice`.** If it is dropped, then the producer has emitted some items `xs`, fewer than the buffer has
room for. Starting the same call again fills the buffer with the items that come after `xs`; overwriting only the rest of the buffer
completes what the dropped call began. -/
theorem bulk_overwrite_full_slice_resumed {P : BulkProducer σ I F E} {c : Script I F E} {R : σ → Script I F E → Nat → Prop}
    {dp : BulkProduceDrops P} {s s' : σ} {buf : List I} {m n : Nat} (hR : BulkPlaysLaw P.seq R) (hdp : dp.Tolerated R) (hm : R s c m)
    {k : (bulkOverwriteFullSlice P s buf).κ} (h : (bulkOverwriteFullSlice P s buf).Pending k) (hd : SliceProduceDropped dp s buf k n s') :
    ∃ xs : List I, xs.length = n ∧ n < buf.length ∧ c.StartsWith xs ∧
      (∀ ys, (xs ++ ys).length = buf.length → c.StartsWith (xs ++ ys) → ∃ s₁,
        (bulkOverwriteFullSlice P s' (buf.drop xs.length)).run = ok (s₁, .ok (), ys) ∧ BulkPlays P.seq s₁ (c.drop buf.length)) ∧
      (∀ ys, ys.length = buf.length → c.StartsWith (xs ++ ys) → ∃ s₁,
        (bulkOverwriteFullSlice P s' buf).run = ok (s₁, .ok (), ys) ∧ BulkPlays P.seq s₁ (c.drop (xs.length + buf.length))) ∧
      (∀ ys f, ys.length < buf.length → c.StartsWith (xs ++ ys) → c (xs ++ ys).length = .ok (.inr f) → ∃ s₁ out,
        (bulkOverwriteFullSlice P s' buf).run = ok (s₁, .error ⟨ys.length, .inl f⟩, ys ++ out)) := by
  obtain ⟨xs, rfl, hl, hx, m, hm⟩ := bulk_overwrite_full_slice_dropped hR hdp hm h hd
  have hP : BulkPlays P.seq s' (c.drop xs.length) := ⟨R, hR, m, hm⟩
  have hsw : ∀ {ys}, c.StartsWith (xs ++ ys) → (c.drop xs.length).StartsWith ys := by
    intro ys h i x hi
    have := h (xs.length + i) x (by rw [List.getElem?_append_right (by omega)]; simpa using hi)
    simpa [Script.drop, Nat.add_comm] using this
  refine ⟨xs, rfl, hl, hx, fun ys hly hys => ?_, fun ys hly hys => ?_, fun ys f hly hys hf => ?_⟩
  · rw [List.length_append] at hly
    obtain ⟨s₁, h1, h2⟩ := ((bulk_overwrite_full_slice_spec hP (buf.drop xs.length)).1 ys (by simp; omega) (hsw hys)).1
    refine ⟨s₁, by rw [bulkOverwriteFullSlice_run, h1], ?_⟩
    simpa [Nat.add_sub_cancel' (Nat.le_of_lt hl)] using h2
  · obtain ⟨s₁, h1, h2⟩ := ((bulk_overwrite_full_slice_spec hP buf).1 ys hly (hsw hys)).1
    exact ⟨s₁, by rw [bulkOverwriteFullSlice_run, h1], by simpa using h2⟩
  · obtain ⟨s₁, out, h1, _⟩ := ((bulk_overwrite_full_slice_spec hP buf).2.1 ys f hly (hsw hys)
      (by simpa [Script.drop, Nat.add_comm] using hf)).1
    exact ⟨s₁, out, by rw [bulkOverwriteFullSlice_run, h1]⟩

/-- What a dropped call of `bulk_pipe_at_most` leaves. -/
theorem bulk_pipe_at_most_dropped {P : BulkProducer σ I F E₁} {C : BulkConsumer τ I F E₂} {D : τ → List I → Option F → Prop}
    {c : Script I F E₁} {q : Policy I F E₂} {R : σ → Script I F E₁ → Nat → Prop} {S : τ → List I → List I → Prop}
    {dp : ProducerDrops P} {dc : ConsumerDrops C} {s s' : σ} {t t' : τ} {l sl : List I} {m count n : Nat} (hR : BulkPlaysLaw P.seq R)
    (hS : BulkCollectsLaw C.seq D q S) (hdp : dp.Tolerated R) (hdc : dc.Tolerated S) (hm : R s c m) (hsl : S t l sl)
    {k : (bulkPipeAtMost P C s t count).κ} (h : (bulkPipeAtMost P C s t count).Pending k)
    (hd : BulkPipeAtMostDropped dp dc s t count k n s' t') :
    ∃ xs : List I, xs.length = n ∧ n < count ∧ c.StartsWith xs ∧ q.Accepts l xs ∧ (∃ m, R s' (c.drop n) m) ∧ ∃ sl, S t' (l ++ xs) sl := by
  obtain ⟨xs, s₁, t₁, k', rfl, hlt, hx, ha, ⟨m, hm⟩, ⟨sl, hsl⟩, h⟩ := bulk_pipe_at_most_left hR hS hm hsl h
  cases hd with
  | exposing hk' hd =>
    refine ⟨xs, rfl, hlt, hx, ha, ?_, sl, hsl⟩
    rcases h with ⟨kp, hk, hp⟩ | ⟨s₂, ys, kc, hk, _⟩ | ⟨s₂, ys, t₂, n, kp, hk, _⟩ | ⟨s₂, f, kc, hk, _⟩ <;>
      cases eq_of_heq (hk.symm.trans hk')
    exact hdp.exposeItems hm hp hd
  | consuming hk' hd =>
    refine ⟨xs, rfl, hlt, hx, ha, ?_⟩
    rcases h with ⟨kp, hk, hp⟩ | ⟨s₂, ys, kc, hk, hne, _, h2, hp⟩ | ⟨s₂, ys, t₂, n, kp, hk, _⟩ | ⟨s₂, f, kc, hk, _⟩ <;>
      cases eq_of_heq (hk.symm.trans hk')
    have := List.length_pos_iff.2 hne
    refine ⟨⟨_, h2⟩, hdc.bulkConsume hsl ?_ hp hd⟩
    simp only [ne_eq, List.take_eq_nil_iff, not_or]
    exact ⟨by omega, hne⟩

/-- The right result of a bounded pipe, after some items have been moved. -/
theorem AtMostResult.advance {c : Script I F E₁} {q : Policy I F E₂} {l xs ys : List I} {count fin res}
    (h : AtMostResult c q l count xs fin res) (h1 : c.StartsWith ys) (h2 : q.Accepts l ys) (hle : ys.length ≤ count) :
    ∃ res', res = res'.map (ys.length + ·) ∧ xs = ys ++ xs.drop ys.length ∧
      AtMostResult (c.drop ys.length) q (l ++ ys) (count - ys.length) (xs.drop ys.length) fin res' := by
  cases h with
  | full hl hx ha =>
    have hy : ys = xs.take ys.length := Script.StartsWith.prefix h1 hx (by omega)
    have hxs : xs = ys ++ xs.drop ys.length := by
      conv => lhs; rw [← List.take_append_drop ys.length xs]
      rw [← hy]
    refine ⟨.ok (count - ys.length), by simp [Except.map, Nat.add_sub_cancel' hle], hxs, .full (by simp; omega) ?_ ?_⟩
    · intro i x hi
      have := hx (ys.length + i) x (by simpa using hi)
      simpa [Script.drop, Nat.add_comm] using this
    · rw [hxs] at ha
      exact (Policy.accepts_append.1 ha).2
  | closed hlt hp =>
    obtain ⟨h3, h4, h5⟩ := hp.advance h1 h2
    refine ⟨.ok (xs.drop ys.length).length, by simp [Except.map]; omega, h4, .closed (by simp; omega) h5⟩
  | failed hlt hp =>
    obtain ⟨h3, h4, h5⟩ := hp.advance h1 h2
    exact ⟨.error _, rfl, h4, .failed (by simp; omega) h5⟩

/-- **C104, `bulk_pipe_at_most`.** If it is dropped after having moved `n` items, then another call with the bound `count - n` does
what is missing: the consumer gets what it gets from a single call that is not dropped, and the result is the same, up to the
`n` items that the second call does not count. -/
theorem bulk_pipe_at_most_resumed {P : BulkProducer σ I F E₁} {C : BulkConsumer τ I F E₂} {D : τ → List I → Option F → Prop}
    {c : Script I F E₁} {q : Policy I F E₂} {R : σ → Script I F E₁ → Nat → Prop} {S : τ → List I → List I → Prop}
    {dp : ProducerDrops P} {dc : ConsumerDrops C} {s s' : σ} {t t' : τ} {l sl : List I} {m count n : Nat} (hR : BulkPlaysLaw P.seq R)
    (hS : BulkCollectsLaw C.seq D q S) (hdp : dp.Tolerated R) (hdc : dc.Tolerated S) (hm : R s c m) (hsl : S t l sl)
    {k : (bulkPipeAtMost P C s t count).κ} (h : (bulkPipeAtMost P C s t count).Pending k)
    (hd : BulkPipeAtMostDropped dp dc s t count k n s' t') :
    n < count ∧ ∃ xs fin res s₁ t₁ s₂ t₂, (bulkPipeAtMost P C s t count).run = ok ((s₁, t₁), res.map (n + ·)) ∧ D t₁ (l ++ xs) fin ∧
      (bulkPipeAtMost P C s' t' (count - n)).run = ok ((s₂, t₂), res) ∧ D t₂ (l ++ xs) fin := by
  obtain ⟨ys, rfl, hlt, hy, ha, ⟨m', hm'⟩, sl', hsl'⟩ := bulk_pipe_at_most_dropped hR hS hdp hdc hm hsl h hd
  obtain ⟨xs, fin, res, hr⟩ := AtMostResult.exists c q l count
  obtain ⟨res', rfl, hxs, hr'⟩ := AtMostResult.advance hr hy ha (Nat.le_of_lt hlt)
  obtain ⟨s₁, t₁, h1, h2, _⟩ := bulk_pipe_at_most_spec ⟨R, hR, m, hm⟩ ⟨S, hS, sl, hsl⟩ hr
  obtain ⟨s₂, t₂, h3, h4, _⟩ := bulk_pipe_at_most_spec ⟨R, hR, m', hm'⟩ ⟨S, hS, sl', hsl'⟩ hr'
  exact ⟨hlt, xs, fin, res', s₁, t₁, s₂, t₂, by rw [bulkPipeAtMost_run, h1], h2, by rw [bulkPipeAtMost_run, h3],
    by rw [hxs]; simpa [List.append_assoc] using h4⟩

/-- **C104.** Starting the same call again moves up to `n + count` items altogether: what a single call with that bound moves. -/
theorem bulk_pipe_at_most_restarted {P : BulkProducer σ I F E₁} {C : BulkConsumer τ I F E₂} {D : τ → List I → Option F → Prop}
    {c : Script I F E₁} {q : Policy I F E₂} {R : σ → Script I F E₁ → Nat → Prop} {S : τ → List I → List I → Prop}
    {dp : ProducerDrops P} {dc : ConsumerDrops C} {s s' : σ} {t t' : τ} {l sl : List I} {m count n : Nat} (hR : BulkPlaysLaw P.seq R)
    (hS : BulkCollectsLaw C.seq D q S) (hdp : dp.Tolerated R) (hdc : dc.Tolerated S) (hm : R s c m) (hsl : S t l sl)
    {k : (bulkPipeAtMost P C s t count).κ} (h : (bulkPipeAtMost P C s t count).Pending k)
    (hd : BulkPipeAtMostDropped dp dc s t count k n s' t') :
    (∃ xs fin res s₁ t₁ s₂ t₂, (bulkPipeAtMost P C s t (n + count)).run = ok ((s₁, t₁), res.map (n + ·)) ∧ D t₁ (l ++ xs) fin ∧
      (bulkPipeAtMost P C s' t' count).run = ok ((s₂, t₂), res) ∧ D t₂ (l ++ xs) fin) ∧
    ∀ xs, xs.length = n + count → c.StartsWith xs → q.Accepts l xs →
      ∃ s₂ t₂, (bulkPipeAtMost P C s' t' count).run = ok ((s₂, t₂), .ok count) ∧ D t₂ (l ++ xs) none := by
  obtain ⟨ys, rfl, hlt, hy, ha, ⟨m', hm'⟩, sl', hsl'⟩ := bulk_pipe_at_most_dropped hR hS hdp hdc hm hsl h hd
  constructor
  · obtain ⟨xs, fin, res, hr⟩ := AtMostResult.exists c q l (ys.length + count)
    obtain ⟨res', rfl, hxs, hr'⟩ := AtMostResult.advance hr hy ha (Nat.le_add_right _ _)
    rw [Nat.add_sub_cancel_left] at hr'
    obtain ⟨s₁, t₁, h1, h2, _⟩ := bulk_pipe_at_most_spec ⟨R, hR, m, hm⟩ ⟨S, hS, sl, hsl⟩ hr
    obtain ⟨s₂, t₂, h3, h4, _⟩ := bulk_pipe_at_most_spec ⟨R, hR, m', hm'⟩ ⟨S, hS, sl', hsl'⟩ hr'
    exact ⟨xs, fin, res', s₁, t₁, s₂, t₂, by rw [bulkPipeAtMost_run, h1], h2, by rw [bulkPipeAtMost_run, h3],
      by rw [hxs]; simpa [List.append_assoc] using h4⟩
  · intro xs hl hx hacc
    have hy' : ys = xs.take ys.length := Script.StartsWith.prefix hy hx (by omega)
    have hxs : xs = ys ++ xs.drop ys.length := by
      conv => lhs; rw [← List.take_append_drop ys.length xs]
      rw [← hy']
    obtain ⟨s₂, t₂, h3, h4, _⟩ := bulk_pipe_at_most_spec ⟨R, hR, m', hm'⟩ ⟨S, hS, sl', hsl'⟩
      (count := count) (.full (xs := xs.drop ys.length) (by simp; omega)
        (by intro i x hi
            have := hx (ys.length + i) x (by simpa using hi)
            simpa [Script.drop, Nat.add_comm] using this)
        (by rw [hxs] at hacc; exact (Policy.accepts_append.1 hacc).2))
    exact ⟨s₂, t₂, by rw [bulkPipeAtMost_run, h3], by rw [hxs]; simpa [List.append_assoc] using h4⟩

/-- `TestProducer`s tolerate that `bulk_produce` is dropped. -/
theorem test_producer_bulk_drops (test : Bool) : (TestProducer.bulkDrops test I F E).Tolerated (Verif.TestProducer.Ready test) where
  bulkProduce := by
    intro s c n buf k s' hR _ hk hd
    cases hd with
    | exposing hd => exact (test_producer_drops test).exposeItems hR (Fut.pending_left hk) hd
    | considering hd =>
      obtain ⟨hr, hk⟩ := Fut.pending_right hk
      obtain ⟨s'', ⟨ys, _, _, h1, h2⟩ | ⟨f, _, h1⟩ | ⟨e, _, h1⟩⟩ := (Verif.TestProducer.law test).expose _ _ _ hR <;>
        rw [← testProducer_seq] at h1 <;> cases h1.symm.trans hr
      exact (test_producer_drops_consider test).considerProduced h2 (Fut.pending_left hk) hd

/-! ## Cases -/

namespace Case

/-- An `IntoVec` that consumes one item at a time, and is pending once before it consumes the last item that it is given. -/
noncomputable def sipVec : BulkConsumer (IntoVec Nat) Nat Unit Empty where
  consume := V.consume
  close := V.close
  flush := V.flush
  exposeSlots := V.exposeSlots
  writeSlots := V.writeSlots
  consumeSlots := V.consumeSlots
  bulkConsume s ys :=
    if ys.length < 2 then do
      pause
      V.bulkConsume s (ys.take 1)
    else V.bulkConsume s (ys.take 1)

theorem sipVec_bulk (s : IntoVec Nat) (ys : List Nat) : sipVec.seq.bulkConsume s ys = V.seq.bulkConsume s (ys.take 1) := by
  show (sipVec.bulkConsume s ys).run = (V.bulkConsume s (ys.take 1)).run
  dsimp only [sipVec]
  split
  · exact (Fut.run_bind _ _).trans (by rw [pause_run]; rfl)
  · rfl

theorem sipVec_law : BulkCollectsLaw sipVec.seq (fun s l _ => s.asRef = ok l ∧ s.intoVec = l) Policy.acceptAll IntoVec.Ready where
  base := V_law.base
  expose_ok := V_law.expose_ok
  expose_err := V_law.expose_err
  write := V_law.write
  consumeSlots_ok := V_law.consumeSlots_ok
  consumeSlots_err := V_law.consumeSlots_err
  bulkConsume := by
    intro s l slots buf hR hne
    have hpos := List.length_pos_iff.2 hne
    obtain ⟨s', ⟨k, h1, h2, h3, h4, h5⟩ | ⟨i, e, h1, h2, h3⟩⟩ := V_law.bulkConsume s l slots (buf.take 1) hR (by
      simp only [ne_eq, List.take_eq_nil_iff, not_or]; exact ⟨by omega, hne⟩)
    · rw [List.length_take] at h2
      rw [List.take_take, Nat.min_eq_left (by omega)] at h3 h5
      exact ⟨s', .inl ⟨k, h1, by omega, h3, by rw [sipVec_bulk]; exact h4, h5⟩⟩
    · exact e.elim

/-- While it is pending, nothing has happened. -/
def sipVecDrops : ConsumerDrops sipVec where
  bulkConsume t _ _ t' := t' = t

theorem sipVec_tolerated : sipVecDrops.Tolerated IntoVec.Ready where
  bulkConsume := by intro t l sl ys k t' h _ _ he; cases he; exact ⟨_, h⟩

end Case

/-- The consumer is pending at the first call of `bulk_consume`. After the drop, the rest of the buffer is consumed. -/
example : ∃ k t', (bulkConsumeFullSlice Case.TC slowConsumer [1, 2]).Pending k ∧
    SliceConsumeDropped (TestConsumer.drops false Nat Unit String) slowConsumer [1, 2] k 0 t' ∧
    ∃ t₁, (bulkConsumeFullSlice Case.TC t' [1, 2]).run = ok (t₁, .ok ()) ∧
      BulkCollects Case.TC.seq Verif.TestConsumer.Seen (Policy.failAfter 5 "full") t₁ [1, 2] := by
  have h : (bulkConsumeFullSlice Case.TC slowConsumer [1, 2]).poll (bulkConsumeFullSlice Case.TC slowConsumer [1, 2]).start =
      ok (.pending ⟨(slowConsumer, 0), Sum.inl _⟩) := loop_eq_of_fuel (n := 1) nofun
  obtain ⟨t', hd⟩ := test_consumer_drops_total false (Fut.pending_left (Fut.pending_loop (Fut.Pending.first h)).2)
  have hd' : SliceConsumeDropped (TestConsumer.drops false Nat Unit String) slowConsumer [1, 2] _ 0 t' := .consuming (n := 0) HEq.rfl hd
  obtain ⟨_, _, h1, _⟩ := bulk_consume_full_slice_resumed Case.TC_law (test_consumer_drops false 5 "full") Case.slow_consumer_ready
    (.first h) hd'
  obtain ⟨t₁, h2, h3⟩ := h1 (Case.accepts (n := 5) (by decide))
  exact ⟨_, t', .first h, hd', t₁, h2, h3⟩

/-- After the first poll, the future is in the state `k`. -/
theorem Fut.first_pending {A : Type} {f : Fut A} {k : f.κ} {Q : f.κ → Prop} (h : f.poll f.start = ok (.pending k)) (hq : Q k) :
    ∃ k, f.Pending k ∧ Q k := ⟨k, .first h, hq⟩

/-- **C104**, a witness: `[1, 2]` is to be consumed. The call is dropped and started again; it reports success, and the vector is
`[1, 1, 2]`. -/
theorem bulk_consume_full_slice_repeats : ∃ k t', (bulkConsumeFullSlice Case.sipVec .new [1, 2]).Pending k ∧
    SliceConsumeDropped Case.sipVecDrops .new [1, 2] k 1 t' ∧
    ∃ t₁, (bulkConsumeFullSlice Case.sipVec t' [1, 2]).run = ok (t₁, .ok ()) ∧ t₁.intoVec = [1, 1, 2] := by
  have h : (bulkConsumeFullSlice Case.sipVec .new [1, 2]).poll (bulkConsumeFullSlice Case.sipVec .new [1, 2]).start =
      ok (.pending ⟨(_, 1), Sum.inl _⟩) := loop_eq_of_fuel (n := 2) nofun
  obtain ⟨k, hk, t', hd⟩ := Fut.first_pending (Q := fun k => ∃ t', SliceConsumeDropped Case.sipVecDrops .new [1, 2] k 1 t') h
    ⟨_, .consuming (n := 1) HEq.rfl rfl⟩
  obtain ⟨_, _, _, _, h1⟩ := bulk_consume_full_slice_resumed Case.sipVec_law Case.sipVec_tolerated (IntoVec.ready_fromVec []) hk hd
  obtain ⟨t₁, h2, R, hR, sl, hs⟩ := h1 Policy.accepts_acceptAll
  exact ⟨k, t', hk, hd, t₁, h2, (hR.base.toCollectsLaw.observe _ _ ⟨sl, hs⟩).2⟩

/-- **C104**, a witness: at most two items are to be moved. The call is dropped and started again; it reports two items, and the vector
is `[1, 2, 3]`. -/
theorem bulk_pipe_at_most_exceeds : ∃ k s' t', (bulkPipeAtMost Case.TP Case.sipVec readyProducer .new 2).Pending k ∧
    BulkPipeAtMostDropped (TestProducer.drops false Nat Unit String) Case.sipVecDrops readyProducer .new 2 k 1 s' t' ∧
    ∃ s₂ t₂, (bulkPipeAtMost Case.TP Case.sipVec s' t' 2).run = ok ((s₂, t₂), .ok 2) ∧ t₂.intoVec = [1, 2, 3] := by
  have h : (bulkPipeAtMost Case.TP Case.sipVec readyProducer .new 2).poll (bulkPipeAtMost Case.TP Case.sipVec readyProducer .new 2).start =
      ok (.pending ⟨(_, _, 1), .inr ⟨(_, .ok (.inl _)), .inl _⟩⟩) := loop_eq_of_fuel (n := 2) nofun
  obtain ⟨k, hk, s', t', hd⟩ := Fut.first_pending (Q := fun k => ∃ s' t', BulkPipeAtMostDropped (TestProducer.drops false Nat Unit String)
    Case.sipVecDrops readyProducer .new 2 k 1 s' t') h ⟨_, _, .consuming (n := 1) HEq.rfl rfl⟩
  obtain ⟨_, h1⟩ := bulk_pipe_at_most_restarted Case.TP_law Case.sipVec_law (test_producer_drops false) Case.sipVec_tolerated
    Case.ready_ready (IntoVec.ready_fromVec []) hk hd
  obtain ⟨s₂, t₂, h2, h3⟩ := h1 [1, 2, 3] rfl (Case.script_starts _) Policy.accepts_acceptAll
  exact ⟨k, s', t', hk, hd, s₂, t₂, h2, h3.2⟩

/-- With the bound that is left, it is as if nothing had been dropped. -/
example : ∃ k s' t', (bulkPipeAtMost Case.TP Case.sipVec readyProducer .new 2).Pending k ∧
    BulkPipeAtMostDropped (TestProducer.drops false Nat Unit String) Case.sipVecDrops readyProducer .new 2 k 1 s' t' ∧
    ∃ res s₁ t₁ s₂ t₂, (bulkPipeAtMost Case.TP Case.sipVec readyProducer .new 2).run = ok ((s₁, t₁), res.map (1 + ·)) ∧
      (bulkPipeAtMost Case.TP Case.sipVec s' t' (2 - 1)).run = ok ((s₂, t₂), res) ∧ t₁.intoVec = t₂.intoVec := by
  have h : (bulkPipeAtMost Case.TP Case.sipVec readyProducer .new 2).poll (bulkPipeAtMost Case.TP Case.sipVec readyProducer .new 2).start =
      ok (.pending ⟨(_, _, 1), .inr ⟨(_, .ok (.inl _)), .inl _⟩⟩) := loop_eq_of_fuel (n := 2) nofun
  obtain ⟨k, hk, s', t', hd⟩ := Fut.first_pending (Q := fun k => ∃ s' t', BulkPipeAtMostDropped (TestProducer.drops false Nat Unit String)
    Case.sipVecDrops readyProducer .new 2 k 1 s' t') h ⟨_, _, .consuming (n := 1) HEq.rfl rfl⟩
  obtain ⟨_, xs, fin, res, s₁, t₁, s₂, t₂, h1, h2, h3, h4⟩ := bulk_pipe_at_most_resumed Case.TP_law Case.sipVec_law
    (test_producer_drops false) Case.sipVec_tolerated Case.ready_ready (IntoVec.ready_fromVec []) hk hd
  exact ⟨k, s', t', hk, hd, res, s₁, t₁, s₂, t₂, h1, h3, h2.2.trans h4.2.symm⟩

namespace Case

/-- Produces 1, 2, 3, one at a time; pending at the third call, that is, when the second item is to be exposed. -/
def oneByOne : TestProducer Nat Unit String := TestProducer.new [1, 2, 3] (.ok ()) [⟨1, by decide⟩] (some [false, false, true])

theorem oneByOne_ready : Verif.TestProducer.Ready false oneByOne (Script.ofList [1, 2, 3] (.ok ())) 0 :=
  Verif.TestProducer.ready_new false [1, 2, 3] (.ok ()) [⟨1, by decide⟩] _

end Case

/-- **C104**, a witness: a buffer of two items is to be filled from a producer of 1, 2, 3. The call is dropped and started again; it
reports success, and the buffer is `[2, 3]`. -/
theorem bulk_overwrite_full_slice_loses : ∃ k s', (bulkOverwriteFullSlice Case.TP Case.oneByOne [0, 0]).Pending k ∧
    SliceProduceDropped (TestProducer.bulkDrops false Nat Unit String) Case.oneByOne [0, 0] k 1 s' ∧
    ∃ s₁, (bulkOverwriteFullSlice Case.TP s' [0, 0]).run = ok (s₁, .ok (), [2, 3]) := by
  have h : (bulkOverwriteFullSlice Case.TP Case.oneByOne [0, 0]).poll (bulkOverwriteFullSlice Case.TP Case.oneByOne [0, 0]).start =
      ok (.pending ⟨(_, [1, 0], 1), Sum.inl (Sum.inl _)⟩) := loop_eq_of_fuel (n := 2) nofun
  obtain ⟨s', hd⟩ := test_producer_drops_expose_total false (Fut.pending_left (Fut.pending_left (Fut.pending_loop (Fut.Pending.first h)).2))
  obtain ⟨k, hk, hd⟩ := Fut.first_pending (Q := fun k => SliceProduceDropped (TestProducer.bulkDrops false Nat Unit String) Case.oneByOne
    [0, 0] k 1 s') h (.producing (n := 1) HEq.rfl (.exposing hd))
  obtain ⟨xs, hl, _, hx, _, h1, _⟩ := bulk_overwrite_full_slice_resumed Case.TP_law (test_producer_bulk_drops false) Case.oneByOne_ready hk hd
  have : xs = [1] := by
    have := Script.StartsWith.prefix hx (Case.script_starts _) (by rw [hl]; decide)
    rw [this, hl]; rfl
  subst this
  obtain ⟨s₁, h2, _⟩ := h1 [2, 3] rfl (Case.script_starts _)
  exact ⟨k, s', hk, hd, s₁, h2⟩

end Verif.Async
