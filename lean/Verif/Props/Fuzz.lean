import Verif.Lemmas.Fuzz

/-!
# C55: the fuzz targets

No fuzz target ever finds anything: on every input, each of them returns.
-/

namespace Verif

open Outcome

namespace Fuzz

section

variable {I F E : Type} [DecidableEq I] [DecidableEq F] [DecidableEq E] [Inhabited I]

/-! ## Slices -/

omit [DecidableEq F] in
/-- **C55**, consume_full_slice.rs. -/
theorem consume_full_slice_passes (e : E) (n : Nat) (sizes : List NonZero) (pattern : List Bool) (items : List I) :
    consumeFullSliceTarget (.arbitrary e n sizes pattern : Con I F E) items = ok () := by
  have h0 := con_new (I := I) (F := F) e n sizes pattern
  have hC := (con_law (I := I) (F := F) n e).base.toCollectsLaw
  have hpeek : (Con.arbitrary e n sizes pattern : Con I F E).inner.peekError = some e := rfl
  by_cases hle : items.length ≤ n
  · obtain ⟨s', h1, sl, h2⟩ := hC.consumes ⟨[], h0⟩ (Policy.failAfter_accepts hle)
    have h3 := (consume_full_slice_exact _ _ _ _).1.mpr h1
    have hs := h2.seen
    have he := h2.error
    have hf : s'.inner.finalConsumed = none := hs.2.1
    simp [consumeFullSliceTarget, hpeek, unwrap, h3, TestConsumer.didError, he, hs.1, hf]
  · obtain ⟨ha, x, hx, hq⟩ := Policy.failAfter_failsAt (F := F) (e := e) (Nat.lt_of_not_le hle)
    obtain ⟨s₁, h1, sl, h2⟩ := hC.consumes ⟨[], h0⟩ ha
    obtain ⟨s', h3, h4⟩ := hC.consume_err _ _ _ _ ⟨sl, h2⟩ hq
    have h5 := ((consume_full_slice_exact _ _ _ _).2 n e).mpr ⟨x, s₁, hx, h1, h3⟩
    have hfail : s'.inner.error = none := (con_fails n e).consume _ _ _ _ _ _ h2 h3
    have hf : s'.inner.finalConsumed = none := h4.1.2.1
    simp [consumeFullSliceTarget, hpeek, unwrap, h5, TestConsumer.didError, hfail, h4.1.1, hf,
      slice_of_le (Nat.zero_le n) (show n ≤ items.length by omega)]

example : consumeFullSliceTarget (.arbitrary 7 2 [⟨2, by decide⟩, ⟨1, by decide⟩] [true, false] : Con Nat Nat Nat) [1, 2, 3] = ok () :=
  consume_full_slice_passes ..

/-- **C55**, bulk_consume_full_slice.rs. -/
theorem bulk_consume_full_slice_passes (e : E) (n : Nat) (sizes : List NonZero) (pattern : List Bool) (items : List I) :
    bulkConsumeFullSliceTarget (.arbitrary e n sizes pattern : Con I F E) items = ok () := by
  have h0 := con_new (I := I) (F := F) e n sizes pattern
  have hL := con_law (I := I) (F := F) n e
  have hC := hL.base.toCollectsLaw
  by_cases hle : items.length ≤ n
  · have hacc := Policy.failAfter_accepts (F := F) (e := e) hle
    obtain ⟨s', h1, sl, h2⟩ := hC.consumes ⟨[], h0⟩ hacc
    have h3 := (consume_full_slice_exact _ _ _ _).1.mpr h1
    obtain ⟨s'', h4, sl', h5⟩ := (bulkConsumeFullSlice_aux hL items [] items.length 0 _ (by omega) (by omega)
      ⟨[], by simpa using h0⟩ (by simp)).1 hacc
    have h6 : bulkConsumeFullSlice (con I F E) (.arbitrary e n sizes pattern) items = ok (s'', .ok ()) := h4
    simp [bulkConsumeFullSliceTarget, h3, h6, Con.same_of h5.seen h2.seen (by rw [h2.error, h5.error])]
  · have hfails := Policy.failAfter_failsAt (F := F) (e := e) (Nat.lt_of_not_le hle)
    obtain ⟨ha, x, hx, hq⟩ := hfails
    obtain ⟨s₁, h1, sl, h2⟩ := hC.consumes ⟨[], h0⟩ ha
    obtain ⟨s', h3, h4⟩ := hC.consume_err _ _ _ _ ⟨sl, h2⟩ hq
    have h5 := ((consume_full_slice_exact _ _ _ _).2 n e).mpr ⟨x, s₁, hx, h1, h3⟩
    have hfail : s'.inner.error = none := (con_fails n e).consume _ _ _ _ _ _ h2 h3
    obtain ⟨s'', h6, h7⟩ := bulk_consume_full_slice_count hL ⟨[], h0⟩ items (con_all_or_first n e) n e ⟨ha, x, hx, hq⟩
    have hfail' : s''.inner.error = none := by
      obtain ⟨s₂, count, _, h9, _, s₃, h10⟩ := (bulkConsumeFullSlice_aux hL items [] items.length 0 _ (by omega) (by omega)
        ⟨[], by simpa using h0⟩ (by simp)).2 n e ⟨ha, x, hx, hq⟩
      have h9' : bulkConsumeFullSlice (con I F E) (.arbitrary e n sizes pattern) items = ok (s₂, .error ⟨count, e⟩) := h9
      have := h6.symm.trans h9'
      cases this
      exact con_always_fails.bulkConsume (by rw [con_eq]; rfl) h10
    simp [bulkConsumeFullSliceTarget, h5, h6, Con.same_of h7.1 h4.1 (by rw [hfail, hfail'])]

example : bulkConsumeFullSliceTarget (.arbitrary 7 2 [⟨2, by decide⟩, ⟨1, by decide⟩] [true, false] : Con Nat Nat Nat) [1, 2, 3] = ok () :=
  bulk_consume_full_slice_passes ..

/-- **C55**, overwrite_full_slice.rs. -/
theorem overwrite_full_slice_passes (items : List I) (last : Except E F) (sizes : List NonZero) (pattern : List Bool) (len : Nat) :
    overwriteFullSliceTarget (.arbitrary items last sizes pattern : Pro I F E) len = ok () := by
  have h0 := pro_new items last sizes pattern
  have hP := (pro_law items last).base.toPlaysLaw
  have hrem : (Pro.arbitrary items last sizes pattern).inner.remaining = ok items := by
    simpa using POf.remaining (k := 0) (by simpa using h0) (Nat.zero_le _)
  have hlast : (Pro.arbitrary items last sizes pattern).inner.peekLast = some last := rfl
  unfold overwriteFullSliceTarget
  split
  · by_cases hle : len ≤ items.length
    · have hlen : (items.take len).length = len := by simp; omega
      obtain ⟨s', h1, n, h2⟩ := hP.emits ⟨0, h0⟩ ((Script.ofList_startsWith items last).take len)
      have h3 := (overwrite_full_slice_exact (pro I F E).toProducer _ (List.replicate len default) s' _).1.mpr
        ⟨by simpa using hlen, h1⟩
      simp [hrem, hlast, unwrap, h3, TestProducer.didAlreadyEmitLast, h2.last, slice_of_le (Nat.zero_le len) hle]
    · obtain ⟨s₁, h1, n, h2⟩ := hP.emits ⟨0, h0⟩ (Script.ofList_startsWith items last)
      obtain ⟨s', h3, _⟩ := hP.produce _ _ ⟨n, h2⟩
      simp only [Script.drop_apply, Nat.add_zero, Script.ofList_end] at h3
      have hd : s'.inner.last = none :=
        PDone.last ((pro_ends items last).produce _ _ _ _ _ h2 h3 (by cases last <;> simp [Except.map]))
      have hs1 : slice items 0 items.length = ok items := by simp [slice_of_le (Nat.zero_le _) (Nat.le_refl items.length)]
      have hs2 : slice (items ++ (List.replicate len (default : I)).drop items.length) 0 items.length = ok items := by
        rw [slice_of_le (Nat.zero_le _) (by simp)]; simp
      rcases last with err | fin
      · have h4 := ((overwrite_full_slice_exact (pro I F E).toProducer _ (List.replicate len default) s' _).2.2
          items.length err).mpr ⟨items, s₁, rfl, by simp; omega, h1, h3, rfl⟩
        simp only [bind_eq, hrem, bind_ok, hlast, unwrap, h4, TestProducer.didAlreadyEmitLast, hd, Option.isNone_none,
          assert_true, assertEq_self, hs1, hs2]
      · have h4 := ((overwrite_full_slice_exact (pro I F E).toProducer _ (List.replicate len default) s' _).2.1
          items.length fin).mpr ⟨items, s₁, rfl, by simp; omega, h1, h3, rfl⟩
        simp only [bind_eq, hrem, bind_ok, hlast, unwrap, h4, TestProducer.didAlreadyEmitLast, hd, Option.isNone_none,
          assert_true, assertEq_self, hs1, hs2]
  · rfl

example : overwriteFullSliceTarget (.arbitrary [1, 2, 3] (.error 7) [⟨2, by decide⟩, ⟨1, by decide⟩] [true, false] : Pro Nat Nat Nat) 5 = ok () :=
  overwrite_full_slice_passes ..

/-- **C55**, bulk_overwrite_full_slice.rs. -/
theorem bulk_overwrite_full_slice_passes (items : List I) (last : Except E F) (sizes : List NonZero) (pattern : List Bool)
    (len : Nat) : bulkOverwriteFullSliceTarget (.arbitrary items last sizes pattern : Pro I F E) len = ok () := by
  have h0 := pro_new items last sizes pattern
  have hL := pro_law items last
  have hP := hL.base.toPlaysLaw
  unfold bulkOverwriteFullSliceTarget
  split
  · have hbulk := bulkOverwriteFullSlice_aux hL (List.replicate len default).length _ _ (List.replicate len default) []
      (Nat.le_refl _) ⟨0, h0⟩
    by_cases hle : len ≤ items.length
    · have hlen : (items.take len).length = (List.replicate len (default : I)).length := by simp; omega
      have hsw := (Script.ofList_startsWith items last).take len
      obtain ⟨s', h1, n, h2⟩ := hP.emits ⟨0, h0⟩ hsw
      have h3 := (overwrite_full_slice_exact (pro I F E).toProducer _ (List.replicate len default) s' _).1.mpr ⟨hlen, h1⟩
      obtain ⟨s'', h4, m, h5⟩ := hbulk.1 _ hlen hsw
      have h6 : bulkOverwriteFullSlice (pro I F E) (.arbitrary items last sizes pattern) (List.replicate len default) =
        ok (s'', .ok (), items.take len) := h4
      simp [h3, h6, POf.same h5 h2]
    · obtain ⟨s₁, h1, n, h2⟩ := hP.emits ⟨0, h0⟩ (Script.ofList_startsWith items last)
      obtain ⟨s', h3, _⟩ := hP.produce _ _ ⟨n, h2⟩
      simp only [Script.drop_apply, Nat.add_zero, Script.ofList_end] at h3
      have hd : PDone items s' := (pro_ends items last).produce _ _ _ _ _ h2 h3 (by cases last <;> simp [Except.map])
      have hlt : items.length < (List.replicate len (default : I)).length := by simp; omega
      have hend := Script.ofList_end items last
      have hbd : ∀ {s'' e out}, bulkOverwriteFullSlice (pro I F E) (.arbitrary items last sizes pattern)
          (List.replicate len default) = ok (s'', .error e, out) → PDone items s'' := by
        intro s'' e out h
        obtain ⟨_, _, _, _, _, _, h5, _, h6, h7⟩ := bulkOverwrite_last hL h0 h
        exact bulkProduce_ends hL (pro_ends items last) (by rw [pro_eq]; rfl) h5 h6 h7
      rcases last with err | fin
      · have h4 := ((overwrite_full_slice_exact (pro I F E).toProducer _ (List.replicate len default) s' _).2.2
          items.length err).mpr ⟨items, s₁, rfl, hlt, h1, h3, rfl⟩
        obtain ⟨s'', out, h5, _⟩ := hbulk.2.2 items err hlt (Script.ofList_startsWith _ _) hend
        have h6 : bulkOverwriteFullSlice (pro I F E) (.arbitrary items (.error err) sizes pattern) (List.replicate len default) =
          ok (s'', .error ⟨items.length, .inr err⟩, items ++ out) := by simpa [bulkOverwriteFullSlice] using h5
        simp [h4, h6, PDone.same (hbd h6) hd]
      · have h4 := ((overwrite_full_slice_exact (pro I F E).toProducer _ (List.replicate len default) s' _).2.1
          items.length fin).mpr ⟨items, s₁, rfl, hlt, h1, h3, rfl⟩
        obtain ⟨s'', out, h5, _⟩ := hbulk.2.1 items fin hlt (Script.ofList_startsWith _ _) hend
        have h6 : bulkOverwriteFullSlice (pro I F E) (.arbitrary items (.ok fin) sizes pattern) (List.replicate len default) =
          ok (s'', .error ⟨items.length, .inl fin⟩, items ++ out) := by simpa [bulkOverwriteFullSlice] using h5
        simp [h4, h6, PDone.same (hbd h6) hd]
  · rfl

example : bulkOverwriteFullSliceTarget (.arbitrary [1, 2, 3] (.ok 7) [⟨2, by decide⟩, ⟨1, by decide⟩] [true, false] : Pro Nat Nat Nat) 2 = ok () :=
  bulk_overwrite_full_slice_passes ..

/-! ## Pipes -/

/-- **C55**, pipe.rs. -/
theorem pipe_passes (items : List I) (last : Except E F) (sizes : List NonZero) (pattern : List Bool) (e : E) (n : Nat)
    (sizes' : List NonZero) (pattern' : List Bool) :
    pipeTarget (.arbitrary items last sizes pattern : Pro I F E) (.arbitrary e n sizes' pattern') = ok () := by
  have hs := pro_new items last sizes pattern
  have ht := con_new (I := I) (F := F) e n sizes' pattern'
  have hrem : (Pro.arbitrary items last sizes pattern).inner.remaining = ok items := by
    simpa using POf.remaining (k := 0) (by simpa using hs) (Nat.zero_le _)
  have hlast : (Pro.arbitrary items last sizes pattern).inner.peekLast = some last := rfl
  have hpeek : (Con.arbitrary e n sizes' pattern' : Con I F E).inner.peekError = some e := rfl
  obtain ⟨xs, fin, res, hres⟩ := ofList_result items last (Policy.failAfter n e : Policy I F E) []
  obtain ⟨s', t', hpipe, hD, hend⟩ := pipe_ends (pro_law items last) (pro_ends items last) (con_law n e) (con_fails n e) hs ht hres
  have hpipe' : pipe (pro I F E).toProducer (con I F E).toConsumer (.arbitrary items last sizes pattern)
    (.arbitrary e n sizes' pattern') = ok ((s', t'), res) := hpipe
  obtain ⟨hxs, hle⟩ := startsWith_ofList hres.startsWith
  have hseen : t'.inner.consumed = ok xs := by simpa using hD.1.1
  have hfin : t'.inner.finalConsumed = fin := hD.1.2.1
  have hslice : slice items 0 xs.length = ok xs := by rw [slice_of_le (Nat.zero_le _) hle, ← hxs]; rfl
  have hdrop : ∀ k, k ≤ items.length → slice items k items.length = ok (items.drop k) := by
    intro k hk; rw [slice_of_le hk (Nat.le_refl _)]; simp
  simp only [pipeTarget, bind_eq, hrem, bind_ok, hlast, hpeek, unwrap, hpipe']
  cases hres with
  | closed h1 h2 hc hq =>
    obtain ⟨rfl, h3⟩ := ofList_ended h1 (by simp [hc])
    have hd : s'.inner.last = none := (hend.done (by simp [hc])).last
    rw [hc] at h3
    rcases last with err | f
    · simp [Except.map] at h3
    · simp only [Except.map] at h3
      cases h3
      simp [hseen, hfin, TestProducer.didAlreadyEmitLast, hd, unwrapResult]
  | closeRefused h1 h2 hc hq =>
    obtain ⟨rfl, _⟩ := failAfter_close hq
    obtain ⟨rfl, h3⟩ := ofList_ended h1 (by simp [hc])
    have hd : PDone xs s' := hend.done (by simp [hc])
    have hfail : t'.inner.error = none := hend.failed _ rfl
    rw [hc] at h3
    rcases last with err | f
    · simp [Except.map] at h3
    · simp [hseen, TestProducer.didAlreadyEmitLast, TestProducer.peekLast, hd.last, TestConsumer.didError, hfail, isOk, hslice,
        hd.2.2, hdrop _ (Nat.le_refl _)]
  | itemRefused h1 h2 hc hq =>
    obtain ⟨rfl, _⟩ := failAfter_answer hq
    obtain ⟨m, hgo⟩ := hend.going _ hc
    obtain ⟨_, hlt⟩ := ofList_item hc
    have hfail : t'.inner.error = none := hend.failed _ rfl
    have hr := hgo.remaining hlt
    simp [hseen, TestProducer.didAlreadyEmitLast, TestProducer.peekLast, hgo.last, TestConsumer.didError, hfail, hslice, hr,
      hdrop _ (show xs.length + 1 ≤ items.length from hlt)]
  | producerFailed h1 h2 hc =>
    obtain ⟨rfl, h3⟩ := ofList_ended h1 (by simp [hc])
    have hd : PDone xs s' := hend.done (by simp [hc])
    obtain ⟨sl, hopen⟩ := hend.stillOpen _ rfl
    rw [hc] at h3
    rcases last with err | f
    · simp only [Except.map] at h3
      cases h3
      simp [hseen, TestProducer.didAlreadyEmitLast, hd.last, TestConsumer.didError, hopen.error, unwrapErr, hslice, hd.2.2,
        hdrop _ (Nat.le_refl _)]
    · simp [Except.map] at h3

example : pipeTarget (.arbitrary [1, 2, 3] (.ok 7) [⟨2, by decide⟩, ⟨1, by decide⟩] [true] : Pro Nat Nat Nat)
    (.arbitrary 8 2 [⟨2, by decide⟩, ⟨1, by decide⟩] [false] : Con Nat Nat Nat) = ok () := pipe_passes ..

/-- **C55**, bulk_pipe.rs. -/
theorem bulk_pipe_passes (items : List I) (last : Except E F) (sizes : List NonZero) (pattern : List Bool) (e : E) (n : Nat)
    (sizes' : List NonZero) (pattern' : List Bool) :
    bulkPipeTarget (.arbitrary e n sizes' pattern' : Con I F E) (.arbitrary items last sizes pattern) = ok () := by
  have hs := pro_new items last sizes pattern
  have ht := con_new (I := I) (F := F) e n sizes' pattern'
  have hPL := pro_law items last
  have hCL := con_law (I := I) (F := F) n e
  obtain ⟨_, _, _, hres⟩ := ofList_result items last (Policy.failAfter n e : Policy I F E) []
  obtain ⟨s₁, t₁, h1, _⟩ := bulk_pipe_spec ⟨_, hPL, 0, hs⟩ ⟨_, hCL, [], ht⟩ hres
  obtain ⟨xs, fin, hres, hD, hend⟩ := bulkPipe_ends hPL (pro_ends items last) hCL (con_fails n e) hs ht h1
  obtain ⟨s₂, t₂, h2, hD₂, hend₂⟩ := pipe_ends hPL (pro_ends items last) hCL (con_fails n e) hs ht hres
  have hp := sides_agree hres hD hD₂ hend hend₂
  simp [bulkPipeTarget, h1, h2, hp.1, hp.2]

example : bulkPipeTarget (.arbitrary 8 2 [⟨2, by decide⟩, ⟨1, by decide⟩] [false] : Con Nat Nat Nat)
    (.arbitrary [1, 2, 3] (.ok 7) [⟨2, by decide⟩, ⟨1, by decide⟩] [true] : Pro Nat Nat Nat) = ok () := bulk_pipe_passes ..

/-- **C55**, pipe_at_most.rs. -/
theorem pipe_at_most_passes (items : List I) (last : Except E F) (sizes : List NonZero) (pattern : List Bool) (e : E) (n : Nat)
    (sizes' : List NonZero) (pattern' : List Bool) (count : Nat) :
    pipeAtMostTarget (.arbitrary items last sizes pattern : Pro I F E) (.arbitrary e n sizes' pattern') count = ok () := by
  have hs := pro_new items last sizes pattern
  have ht := con_new (I := I) (F := F) e n sizes' pattern'
  have hrem : (Pro.arbitrary items last sizes pattern).inner.remaining = ok items := by
    simpa using POf.remaining (k := 0) (by simpa using hs) (Nat.zero_le _)
  have hlast : (Pro.arbitrary items last sizes pattern).inner.peekLast = some last := rfl
  have hpeek : (Con.arbitrary e n sizes' pattern' : Con I F E).inner.peekError = some e := rfl
  obtain ⟨xs, fin, res, hres⟩ := ofList_result items last (Policy.failAfter n e : Policy I F E) []
  obtain ⟨hxs, hle⟩ := startsWith_ofList hres.startsWith
  simp only [pipeAtMostTarget, bind_eq, hrem, bind_ok, hlast, hpeek, unwrap]
  by_cases hcount : xs.length < count
  · obtain ⟨s', t', hpipe, hD, hend⟩ := (pipeAtMost_ends (pro_law items last) (pro_ends items last) (con_law n e)
      (con_fails n e) hs ht).2 fin res hcount hres
    have hpipe' : pipeAtMost (pro I F E).toProducer (con I F E).toConsumer (.arbitrary items last sizes pattern)
      (.arbitrary e n sizes' pattern') count = ok ((s', t'), res.map fun _ => xs.length) := hpipe
    have hseen : t'.inner.consumed = ok xs := by simpa using hD.1.1
    have hfin : t'.inner.finalConsumed = fin := hD.1.2.1
    have hslice : slice items 0 xs.length = ok xs := by rw [slice_of_le (Nat.zero_le _) hle, ← hxs]; rfl
    have hdrop : ∀ k, k ≤ items.length → slice items k items.length = ok (items.drop k) := by
      intro k hk; rw [slice_of_le hk (Nat.le_refl _)]; simp
    simp only [hpipe', bind_ok]
    cases hres with
    | closed h1 h2 hc hq =>
      obtain ⟨rfl, h3⟩ := ofList_ended h1 (by simp [hc])
      have hd : s'.inner.last = none := (hend.done (by simp [hc])).last
      rw [hc] at h3
      rcases last with err | f
      · simp [Except.map] at h3
      · simp only [Except.map] at h3
        cases h3
        simp [Except.map, hcount, hseen, hfin, TestProducer.didAlreadyEmitLast, hd, unwrapResult, hslice]
    | closeRefused h1 h2 hc hq =>
      obtain ⟨rfl, _⟩ := failAfter_close hq
      obtain ⟨rfl, h3⟩ := ofList_ended h1 (by simp [hc])
      have hd : PDone xs s' := hend.done (by simp [hc])
      have hfail : t'.inner.error = none := hend.failed _ rfl
      rw [hc] at h3
      rcases last with err | f
      · simp [Except.map] at h3
      · simp [Except.map, hcount, hseen, TestProducer.didAlreadyEmitLast, TestProducer.peekLast, hd.last,
          TestConsumer.didError, hfail, isOk, hslice, hd.2.2, hdrop _ (Nat.le_refl _)]
    | itemRefused h1 h2 hc hq =>
      obtain ⟨rfl, _⟩ := failAfter_answer hq
      obtain ⟨m, hgo⟩ := hend.going _ hc
      obtain ⟨_, hlt⟩ := ofList_item hc
      have hfail : t'.inner.error = none := hend.failed _ rfl
      have hr := hgo.remaining hlt
      simp [Except.map, hcount, hseen, TestProducer.didAlreadyEmitLast, TestProducer.peekLast, hgo.last,
        TestConsumer.didError, hfail, hslice, hr, hdrop _ (show xs.length + 1 ≤ items.length from hlt)]
    | producerFailed h1 h2 hc =>
      obtain ⟨rfl, h3⟩ := ofList_ended h1 (by simp [hc])
      have hd : PDone xs s' := hend.done (by simp [hc])
      obtain ⟨sl, hopen⟩ := hend.stillOpen _ rfl
      rw [hc] at h3
      rcases last with err | f
      · simp only [Except.map] at h3
        cases h3
        simp [Except.map, hcount, hseen, TestProducer.didAlreadyEmitLast, hd.last, TestConsumer.didError, hopen.error,
          unwrapErr, hslice, hd.2.2, hdrop _ (Nat.le_refl _)]
      · simp [Except.map] at h3
  · have hlen : (xs.take count).length = count := by simp; omega
    obtain ⟨s', t', hpipe, ⟨m, hgo⟩, sl, hopen⟩ := (pipeAtMost_ends (pro_law items last) (pro_ends items last) (con_law n e)
      (con_fails n e) hs ht).1 hlen (hres.startsWith.take count) (hres.accepts.take count)
    have hpipe' : pipeAtMost (pro I F E).toProducer (con I F E).toConsumer (.arbitrary items last sizes pattern)
      (.arbitrary e n sizes' pattern') count = ok ((s', t'), .ok count) := hpipe
    have hseen : t'.inner.consumed = ok (xs.take count) := by simpa using hopen.seen.1
    have hslice : slice items 0 count = ok (xs.take count) := by
      rw [slice_of_le (Nat.zero_le _) (by omega), hxs, List.take_take, Nat.min_eq_left (by omega)]; rfl
    simp [hpipe', TestProducer.didAlreadyEmitLast, hgo.last, TestConsumer.didError, hopen.error, hseen, hslice]

example : pipeAtMostTarget (.arbitrary [1, 2, 3] (.ok 7) [⟨2, by decide⟩, ⟨1, by decide⟩] [true] : Pro Nat Nat Nat)
    (.arbitrary 8 2 [⟨2, by decide⟩, ⟨1, by decide⟩] [false] : Con Nat Nat Nat) 2 = ok () := pipe_at_most_passes ..

/-- **C55**, bulk_pipe_at_most.rs. -/
theorem bulk_pipe_at_most_passes (items : List I) (last : Except E F) (sizes : List NonZero) (pattern : List Bool) (e : E)
    (n : Nat) (sizes' : List NonZero) (pattern' : List Bool) (count : Nat) :
    bulkPipeAtMostTarget (.arbitrary e n sizes' pattern' : Con I F E) (.arbitrary items last sizes pattern) count = ok () := by
  have hs := pro_new items last sizes pattern
  have ht := con_new (I := I) (F := F) e n sizes' pattern'
  have hPL := pro_law items last
  have hCL := con_law (I := I) (F := F) n e
  obtain ⟨_, _, res, hat⟩ := AtMostResult.exists (Script.ofList items last) (Policy.failAfter n e : Policy I F E) [] count
  obtain ⟨s₁, t₁, h1, _⟩ := bulk_pipe_at_most_spec ⟨_, hPL, 0, hs⟩ ⟨_, hCL, [], ht⟩ hat
  obtain ⟨xs, hl, rfl, hsw, hacc, ⟨m, hgo⟩, sl, hopen⟩ | ⟨xs, fin, res', hlt, hres, rfl, hD, hend⟩ :=
    bulkPipeAtMost_ends hPL (pro_ends items last) hCL (con_fails n e) hs ht h1
  · obtain ⟨s₂, t₂, h2, ⟨m', hgo'⟩, sl', hopen'⟩ := (pipeAtMost_ends hPL (pro_ends items last) hCL (con_fails n e) hs ht).1
      hl hsw hacc
    simp [bulkPipeAtMostTarget, h1, h2, hgo.same hgo', Con.same_of hopen.seen hopen'.seen (by rw [hopen.error, hopen'.error])]
  · obtain ⟨s₂, t₂, h2, hD₂, hend₂⟩ := (pipeAtMost_ends hPL (pro_ends items last) hCL (con_fails n e) hs ht).2 fin res' hlt hres
    have hp := sides_agree hres hD hD₂ hend hend₂
    simp [bulkPipeAtMostTarget, h1, h2, hp.1, hp.2]

example : bulkPipeAtMostTarget (.arbitrary 8 2 [⟨2, by decide⟩, ⟨1, by decide⟩] [false] : Con Nat Nat Nat)
    (.arbitrary [1, 2, 3] (.ok 7) [⟨2, by decide⟩, ⟨1, by decide⟩] [true] : Pro Nat Nat Nat) 3 = ok () := bulk_pipe_at_most_passes ..

/-- **C55**, bulk_consume.rs. -/
theorem bulk_consume_passes (e : E) (n : Nat) (sizes : List NonZero) (pattern : List Bool) (items : List I)
    (sliceLengths : List NonZero) : bulkConsumeTarget (.arbitrary e n sizes pattern : Con I F E) items sliceLengths = ok () := by
  obtain ⟨⟨c, d⟩, h1, h2⟩ := loop_ok (body := bulkConsumeTargetBody items sliceLengths)
    (fun a _ (st : LoopState (Con I F E) I) => a = sliceLengths.length - st.lengthIndex ∧ st.soFar ≤ items.length ∧
      (∃ sl, COpen n e st.subject (items.take st.soFar) sl) ∧ ∃ sl, COpen n e st.control (items.take st.soFar) sl)
    (fun r => r.1.assertSame r.2 = ok ()) (by
      rintro a - st ⟨rfl, hle, ⟨sl, hs⟩, sl', hs'⟩
      have hsame := Con.same_of hs.seen hs'.seen (by rw [hs.error, hs'.error])
      simp only [bulkConsumeTargetBody, bind_eq]
      by_cases hi : st.lengthIndex < sliceLengths.length
      · rw [if_pos hi]
        rw [slice_of_le hle (Nat.le_refl _)]
        simp only [bind_ok]
        split
        · exact .inl ⟨_, rfl, hsame⟩
        · simp only [index_of_lt hi, sub_of_le hle, bind_ok]
          split
          · exact .inl ⟨_, rfl, hsame⟩
          · rename_i hne
            generalize hk : min (sliceLengths[st.lengthIndex]).val (items.length - st.soFar) = k at hne
            have hk' : st.soFar + k ≤ items.length := by omega
            rw [slice_of_le (Nat.le_add_right _ _) hk']
            have hbuf : (items.take (st.soFar + k)).drop st.soFar = (items.drop st.soFar).take k := by
              rw [List.take_drop]
            have hne' : (items.drop st.soFar).take k ≠ [] := by
              intro h0; have := congrArg List.length h0; simp at this; omega
            simp only [bind_ok, hbuf]
            obtain ⟨s₁, ⟨j, hj, hj', hacc, h1, sl₁, h2⟩ | ⟨i, e', hf, h1, h2⟩⟩ := (con_law n e).bulkConsume _ _ _ _ hs hne'
            · have hlen : ((items.drop st.soFar).take k).length = k := by simp; omega
              rw [hlen] at hj'
              rw [List.take_take, Nat.min_eq_left hj'] at hacc h2
              obtain ⟨t₁, sl₂, h3, h4⟩ := consumeControl_spec j hs' (by omega) hacc
              rw [← List.take_add] at h2
              refine .inr ⟨{ subject := s₁, control := t₁, soFar := st.soFar + j, lengthIndex := st.lengthIndex + 1 },
                sliceLengths.length - (st.lengthIndex + 1), 0, ?_, .inl (by omega), rfl, by simp only []; omega, ⟨sl₁, h2⟩,
                sl₂, h4⟩
              simp [h1, h3, Con.same_of h2.seen h4.seen (by rw [h2.error, h4.error])]
            · obtain ⟨x, xs, hx, ha⟩ := con_all_or_first n e _ _ _ _ _ _ hs hne' h1
              rw [hx] at hf h2
              obtain ⟨rfl, -⟩ := hf.unique (Policy.failsAt_zero_cons.mpr ha)
              have hlt : st.soFar < items.length := by omega
              have hxe : x = items[st.soFar] := by
                rw [List.drop_eq_getElem_cons hlt] at hx
                rcases k with _ | k
                · exact absurd rfl hne
                · rw [List.take_succ_cons] at hx; exact (List.cons.inj hx).1.symm
              subst hxe
              obtain ⟨t₁, h3, h4⟩ := (con_law n e).base.consume_err _ _ _ _ ⟨sl', hs'⟩ ha
              have hf₁ : s₁.inner.error = none := (con_fails n e).bulkConsume _ _ _ _ _ _ hs hne' h1
              have hf₂ : t₁.inner.error = none := (con_fails n e).consume _ _ _ _ _ _ hs' h3
              refine .inl ⟨(s₁, t₁), ?_, ?_⟩
              · simp [h1, index_of_lt hlt, h3, unwrapErr]
              · exact Con.same_of (by simpa using h2.1) h4.1 (by rw [hf₁, hf₂])
      · rw [if_neg hi]
        exact .inl ⟨_, rfl, hsame⟩)
    (s := { subject := .arbitrary e n sizes pattern, control := .arbitrary e n sizes pattern, soFar := 0, lengthIndex := 0 })
    (b := 0) ⟨rfl, Nat.zero_le _, ⟨[], con_new e n sizes pattern⟩, [], con_new e n sizes pattern⟩
  simp [bulkConsumeTarget, h1, h2]

example : bulkConsumeTarget (.arbitrary 8 2 [⟨2, by decide⟩, ⟨1, by decide⟩] [false] : Con Nat Nat Nat) [1, 2, 3]
    [⟨2, by decide⟩, ⟨1, by decide⟩] = ok () := bulk_consume_passes ..

/-- **C55**, bulk_produce.rs. -/
theorem bulk_produce_passes (items : List I) (last : Except E F) (sizes : List NonZero) (pattern : List Bool)
    (sliceLengths : List NonZero) : bulkProduceTarget (.arbitrary items last sizes pattern : Pro I F E) sliceLengths = ok () := by
  have hs := pro_new items last sizes pattern
  have hrem : (Pro.arbitrary items last sizes pattern).inner.remaining = ok items := by
    simpa using POf.remaining (k := 0) (by simpa using hs) (Nat.zero_le _)
  obtain ⟨st, h1, h2, h3, h4, h5⟩ := loop_ok (body := bulkProduceTargetBody items.length sliceLengths)
    (fun a _ (st : LoopState (Pro I F E) I) => a = sliceLengths.length - st.lengthIndex ∧ st.soFar ≤ items.length ∧
      (∃ r, POf items last st.subject ((Script.ofList items last).drop st.soFar) r) ∧
      (∃ r, POf items last st.control ((Script.ofList items last).drop st.soFar) r) ∧ st.produced.length = items.length ∧
      st.produced.take st.soFar = items.take st.soFar ∧ st.producedControl = items.take st.soFar)
    (fun st => st.soFar ≤ st.produced.length ∧ st.produced.take st.soFar = items.take st.soFar ∧
      st.producedControl = items.take st.soFar ∧ st.subject.same st.control = true) (by
      rintro a - st ⟨rfl, hle, ⟨r, hs⟩, ⟨r', hs'⟩, hlen, hp, hc⟩
      have hdone : st.soFar ≤ st.produced.length ∧ st.produced.take st.soFar = items.take st.soFar ∧
        st.producedControl = items.take st.soFar ∧ st.subject.same st.control = true := ⟨by omega, hp, hc, hs.same hs'⟩
      simp only [bulkProduceTargetBody, bind_eq]
      by_cases hi : st.lengthIndex < sliceLengths.length
      · rw [if_pos hi]
        simp only [index_of_lt hi, sub_of_le hle, bind_ok]
        split
        · exact .inl ⟨_, rfl, hdone⟩
        · rename_i hne
          have hlt : st.soFar < items.length := by omega
          rw [slice_of_le (by omega) (Nat.le_refl _), List.take_length]
          have hne' : st.produced.drop st.soFar ≠ [] := by
            intro h0; have := congrArg List.length h0; simp at this; omega
          have h0 : (Script.ofList items last).drop st.soFar 0 = .ok (.inl items[st.soFar]) := by
            simpa [Script.drop] using Script.ofList_startsWith items last _ _ (List.getElem?_eq_getElem hlt)
          obtain ⟨s₁, buf, hb, ⟨k, hk, hk', h1, hsw, m, h2⟩ | ⟨f, hf, _⟩ | ⟨f, hf, _⟩⟩ :=
            (pro_law items last).bulkProduce _ _ _ _ hs hne'
          · rw [List.length_drop] at hk' hb
            obtain ⟨t₁, m', h3, h4⟩ := produceControl_spec k st.producedControl hs' (by omega)
            rw [Script.drop_drop] at h2
            have hbuf : buf.take k = (items.drop st.soFar).take k := by
              rw [Script.ofList_drop _ _ _ hle] at hsw
              have := (startsWith_ofList hsw).1
              rw [List.length_take, Nat.min_eq_left (by omega)] at this
              exact this
            have hpre : (st.produced.take st.soFar ++ buf).take (st.soFar + k) = items.take (st.soFar + k) := by
              rw [hp, List.take_append, List.length_take, Nat.min_eq_left hle, Nat.add_sub_cancel_left, hbuf,
                List.take_of_length_le (by rw [List.length_take]; omega), List.take_add]
            have hpl : (st.produced.take st.soFar ++ buf).length = items.length := by
              rw [List.length_append, List.length_take]; omega
            refine .inr ⟨{ subject := s₁, control := t₁, soFar := st.soFar + k, lengthIndex := st.lengthIndex + 1,
                           produced := st.produced.take st.soFar ++ buf,
                           producedControl := st.producedControl ++ (items.drop st.soFar).take k },
              sliceLengths.length - (st.lengthIndex + 1), 0, ?_, .inl (by omega), rfl, by simp only []; omega, ⟨m, h2⟩,
              ⟨m', h4⟩, hpl, hpre, ?_⟩
            · simp only [bind_ok, h1, h3]
              rw [slice_of_le (Nat.zero_le _) (by rw [hpl]; omega)]
              simp [bind_ok, hpre, hc, ← List.take_add, h2.same h4]
            · simp only [hc, ← List.take_add]
          · rw [h0] at hf; cases hf
          · rw [h0] at hf; cases hf
      · rw [if_neg hi]
        exact .inl ⟨_, rfl, hdone⟩)
    (s := { subject := .arbitrary items last sizes pattern, control := .arbitrary items last sizes pattern, soFar := 0,
            lengthIndex := 0, produced := List.replicate items.length default })
    (b := 0) ⟨rfl, Nat.zero_le _, ⟨0, by simpa using hs⟩, ⟨0, by simpa using hs⟩, by simp, by simp, by simp⟩
  simp [bulkProduceTarget, hrem, h1, slice_of_le (Nat.zero_le _) h2, h3, h4, h5]

example : bulkProduceTarget (.arbitrary [1, 2, 3] (.ok 7) [⟨2, by decide⟩, ⟨1, by decide⟩] [true] : Pro Nat Nat Nat)
    [⟨2, by decide⟩, ⟨1, by decide⟩] = ok () := bulk_produce_passes ..

end

end Fuzz

end Verif
