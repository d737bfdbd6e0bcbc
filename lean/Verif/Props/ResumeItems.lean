import Verif.ItemDropSpec
import Verif.Props.ResumeSlices

/-!
# Dropped transfers that move one item at a time, started again (C108)

The counterpart of C104 for `consume_full_slice`, `overwrite_full_slice` and `pipe_at_most`.
-/

namespace Verif.Async

open Outcome

variable {σ τ I F E E₁ E₂ : Type}

/-- What a dropped call of `consume_full_slice` leaves. -/
theorem consume_full_slice_dropped {C : Consumer τ I F E} {D : τ → List I → Option F → Prop} {q : Policy I F E}
    {S : τ → List I → Prop} {d : ConsumeDrops C} {t t' : τ} {l buf : List I} {n : Nat} (hS : CollectsLaw C.seq D q S)
    (hd : d.Tolerated S) (ht : S t l) {k : (consumeFullSlice C t buf).κ} (h : (consumeFullSlice C t buf).Pending k)
    (hk : ConsumeSliceDropped d t 0 buf k n t') :
    n < buf.length ∧ q.Accepts l (buf.take n) ∧ S t' (l ++ buf.take n) := by
  have key : ∀ (t : τ) (i : Nat) (buf : List I) (k : (consumeFullSliceFrom C t i buf).κ) (n : Nat) (t' : τ),
      ConsumeSliceDropped d t i buf k n t' → ∀ l, S t l → (consumeFullSliceFrom C t i buf).Pending k →
      i ≤ n ∧ n - i < buf.length ∧ q.Accepts l (buf.take (n - i)) ∧ S t' (l ++ buf.take (n - i)) := by
    intro t i buf k n t' hk
    induction hk with
    | consuming hk =>
      intro l ht h
      exact ⟨Nat.le_refl _, by simp, by simp, by simpa using hd.consume ht (Fut.pending_left h) hk⟩
    | @later t i x rest t₁ k n t' hk ih =>
      intro l ht h
      obtain ⟨h1, h2⟩ := Fut.pending_right h
      rcases hq : q.answer l x with _ | e
      · obtain ⟨s', h3, h4⟩ := hS.consume_ok _ _ x ht hq
        cases h3.symm.trans h1
        obtain ⟨h5, h6, h7, h8⟩ := ih _ h4 h2
        obtain ⟨m, rfl⟩ : ∃ m, n = i + (m + 1) := ⟨n - (i + 1), by omega⟩
        have e1 : i + (m + 1) - (i + 1) = m := by omega
        have e2 : i + (m + 1) - i = m + 1 := by omega
        rw [e1] at h6 h7 h8
        rw [e2]
        exact ⟨by omega, by simpa using h6, by simpa using Policy.accepts_cons.mpr ⟨hq, h7⟩, by simpa using h8⟩
      · obtain ⟨s', h3, h4⟩ := hS.consume_err _ _ x e ht hq
        cases h3.symm.trans h1
  have := key t 0 buf k n t' hk l ht h
  simpa using this

/-- **C108, `consume_full_slice`.** If it is dropped, then the first `n` items of the buffer have been consumed, and `n` is smaller than
the length. Consuming the other items then has the result of the call that was dropped. Starting the same call again consumes the
first `n` items twice. -/
theorem consume_full_slice_resumed {C : Consumer τ I F E} {D : τ → List I → Option F → Prop} {q : Policy I F E}
    {S : τ → List I → Prop} {d : ConsumeDrops C} {t t' : τ} {l buf : List I} {n : Nat} (hS : CollectsLaw C.seq D q S)
    (hd : d.Tolerated S) (ht : S t l) {k : (consumeFullSlice C t buf).κ} (h : (consumeFullSlice C t buf).Pending k)
    (hk : ConsumeSliceDropped d t 0 buf k n t') :
    n < buf.length ∧ Collects C.seq D q t' (l ++ buf.take n) ∧
      (q.Accepts l buf → ∃ t₁, (consumeFullSlice C t' (buf.drop n)).run = ok (t₁, .ok ()) ∧ Collects C.seq D q t₁ (l ++ buf)) ∧
      (∀ i e, q.FailsAt l buf i e → n ≤ i ∧ ∃ t₁, (consumeFullSlice C t' (buf.drop n)).run = ok (t₁, .error ⟨i - n, e⟩) ∧
        D t₁ (l ++ buf.take i) none) ∧
      (q.Accepts (l ++ buf.take n) buf → ∃ t₁, (consumeFullSlice C t' buf).run = ok (t₁, .ok ()) ∧
        Collects C.seq D q t₁ (l ++ buf.take n ++ buf)) := by
  obtain ⟨hlt, ha, hsl⟩ := consume_full_slice_dropped hS hd ht h hk
  have hC : Collects C.seq D q t' (l ++ buf.take n) := ⟨S, hS, hsl⟩
  refine ⟨hlt, hC, fun hacc => ?_, fun i e hf => ?_, fun hacc => ?_⟩
  · rw [← List.take_append_drop n buf, Policy.accepts_append] at hacc
    obtain ⟨t₁, h1, h2⟩ := (consume_full_slice_spec hC (buf.drop n)).1 hacc.2
    exact ⟨t₁, by rw [consumeFullSlice_run, h1], by simpa [List.append_assoc] using h2⟩
  · have hle : n ≤ i := by
      rcases Nat.lt_or_ge i n with hin | hin
      · exfalso
        obtain ⟨_, x, hx, hax⟩ := hf
        have hf' : q.FailsAt l (buf.take n) i e :=
          ⟨by rw [List.take_take, Nat.min_eq_left (by omega)]; assumption, x, by rw [List.getElem?_take_of_lt hin]; exact hx,
            by rw [List.take_take, Nat.min_eq_left (by omega)]; exact hax⟩
        exact hf'.not_accepts ha
      · exact hin
    refine ⟨hle, ?_⟩
    have htake : buf.take i = buf.take n ++ (buf.drop n).take (i - n) := by
      rw [← List.take_add, Nat.add_sub_cancel' hle]
    have hf' : q.FailsAt (l ++ buf.take n) (buf.drop n) (i - n) e := by
      obtain ⟨h1, x, hx, hax⟩ := hf
      rw [htake] at h1 hax
      refine ⟨(Policy.accepts_append.1 h1).2, x, ?_, by simpa [List.append_assoc] using hax⟩
      rw [List.getElem?_drop, Nat.add_sub_cancel' hle]
      exact hx
    obtain ⟨t₁, h1, h2⟩ := (consume_full_slice_spec hC (buf.drop n)).2 _ _ hf'
    exact ⟨t₁, by rw [consumeFullSlice_run, h1], by rw [htake]; simpa [List.append_assoc] using h2⟩
  · obtain ⟨t₁, h1, h2⟩ := (consume_full_slice_spec hC buf).1 hacc
    exact ⟨t₁, by rw [consumeFullSlice_run, h1], h2⟩

/-- What a dropped call of `overwrite_full_slice` leaves. -/
theorem overwrite_full_slice_dropped {P : Producer σ I F E} {c : Script I F E} {R : σ → Script I F E → Prop} {d : ItemDrops P}
    {s s' : σ} {buf left : List I} {n : Nat} (hR : PlaysLaw P.seq R) (hd : d.Tolerated R) (hs : R s c)
    {k : (overwriteFullSlice P s buf).κ} (h : (overwriteFullSlice P s buf).Pending k)
    (hk : OverwriteSliceDropped d s [] buf k n left s') :
    ∃ xs : List I, xs.length = n ∧ n < buf.length ∧ c.StartsWith xs ∧ left = xs ++ buf.drop n ∧ R s' (c.drop n) := by
  have key : ∀ (s : σ) (written todo : List I) (k : (overwriteFullSliceFrom P s written todo).κ) (n : Nat) (left : List I) (s' : σ),
      OverwriteSliceDropped d s written todo k n left s' → ∀ c, R s c → (overwriteFullSliceFrom P s written todo).Pending k →
      ∃ xs : List I, written.length + xs.length = n ∧ xs.length < todo.length ∧ c.StartsWith xs ∧
        left = written ++ xs ++ todo.drop xs.length ∧ R s' (c.drop xs.length) := by
    intro s written todo k n left s' hk
    induction hk with
    | producing hk =>
      intro c hs h
      exact ⟨[], by simp, by simp, by simp, by simp, by simpa using hd.produce hs (Fut.pending_left h) hk⟩
    | @later s written old todo s₁ x k n left s' hk ih =>
      intro c hs h
      obtain ⟨h1, h2⟩ := Fut.pending_right h
      obtain ⟨s₂, h3, h4⟩ := hR.produce _ _ hs
      obtain ⟨rfl, hc⟩ : s₂ = s₁ ∧ c 0 = .ok (.inl x) := by simpa using h3.symm.trans h1
      obtain ⟨xs, h5, h6, h7, rfl, h8⟩ := ih _ (h4 x hc) h2
      refine ⟨x :: xs, by simp at h5 ⊢; omega, by simpa using h6, Script.startsWith_cons.mpr ⟨hc, h7⟩, by simp, ?_⟩
      simpa [Nat.add_comm] using h8
  obtain ⟨xs, h1, h2, h3, h4, h5⟩ := key s [] buf k n left s' hk c hs h
  obtain rfl : xs.length = n := by simpa using h1
  exact ⟨xs, rfl, h2, h3, by simpa using h4, h5⟩

/-- **C108, `overwrite_full_slice`.** If it is dropped, then the producer has emitted some items `xs`, fewer than the buffer has room
for, and they are at the beginning of the buffer. Overwriting the rest of the buffer completes what the dropped call began. Starting
the same call again overwrites `xs` with the items that come after `xs`. -/
theorem overwrite_full_slice_resumed {P : Producer σ I F E} {c : Script I F E} {R : σ → Script I F E → Prop} {d : ItemDrops P}
    {s s' : σ} {buf left : List I} {n : Nat} (hR : PlaysLaw P.seq R) (hd : d.Tolerated R) (hs : R s c)
    {k : (overwriteFullSlice P s buf).κ} (h : (overwriteFullSlice P s buf).Pending k)
    (hk : OverwriteSliceDropped d s [] buf k n left s') :
    ∃ xs : List I, xs.length = n ∧ n < buf.length ∧ c.StartsWith xs ∧ left = xs ++ buf.drop n ∧
      (∀ ys, (xs ++ ys).length = buf.length → c.StartsWith (xs ++ ys) → ∃ s₁,
        (overwriteFullSlice P s' (left.drop n)).run = ok (s₁, .ok (), ys) ∧ Plays P.seq s₁ (c.drop buf.length)) ∧
      (∀ ys, ys.length = buf.length → c.StartsWith (xs ++ ys) → ∃ s₁,
        (overwriteFullSlice P s' left).run = ok (s₁, .ok (), ys) ∧ Plays P.seq s₁ (c.drop (n + buf.length))) ∧
      (∀ ys f, ys.length < buf.length → c.StartsWith (xs ++ ys) → c (xs ++ ys).length = .ok (.inr f) → ∃ s₁ out,
        (overwriteFullSlice P s' left).run = ok (s₁, .error ⟨ys.length, .inl f⟩, ys ++ out)) := by
  obtain ⟨xs, rfl, hl, hx, rfl, hs'⟩ := overwrite_full_slice_dropped hR hd hs h hk
  have hP : Plays P.seq s' (c.drop xs.length) := ⟨R, hR, hs'⟩
  have hsw : ∀ {ys}, c.StartsWith (xs ++ ys) → (c.drop xs.length).StartsWith ys := by
    intro ys h i x hi
    have := h (xs.length + i) x (by rw [List.getElem?_append_right (by omega)]; simpa using hi)
    simpa [Script.drop, Nat.add_comm] using this
  have hlen : (xs ++ buf.drop xs.length).length = buf.length := by simp; omega
  refine ⟨xs, rfl, hl, hx, rfl, fun ys hly hys => ?_, fun ys hly hys => ?_, fun ys f hly hys hf => ?_⟩
  · rw [List.length_append] at hly
    rw [List.drop_left]
    obtain ⟨s₁, h1, h2⟩ := (overwrite_full_slice_spec hP (buf.drop xs.length)).1 ys (by simp; omega) (hsw hys)
    refine ⟨s₁, by rw [overwriteFullSlice_run, h1], ?_⟩
    simpa [Nat.add_sub_cancel' (Nat.le_of_lt hl)] using h2
  · obtain ⟨s₁, h1, h2⟩ := (overwrite_full_slice_spec hP (xs ++ buf.drop xs.length)).1 ys (by rw [hlen]; exact hly) (hsw hys)
    rw [hlen] at h2
    exact ⟨s₁, by rw [overwriteFullSlice_run, h1], by simpa using h2⟩
  · obtain ⟨s₁, h1⟩ := (overwrite_full_slice_spec hP (xs ++ buf.drop xs.length)).2.1 ys f (by rw [hlen]; exact hly) (hsw hys)
      (by simpa [Script.drop, Nat.add_comm] using hf)
    exact ⟨s₁, _, by rw [overwriteFullSlice_run, h1]⟩

/-- As `pipe_at_most_abandoned`, for given invariants of the producer and of the consumer. -/
theorem pipe_at_most_left {P : Producer σ I F E₁} {C : Consumer τ I F E₂} {D : τ → List I → Option F → Prop} {c : Script I F E₁}
    {q : Policy I F E₂} {R : σ → Script I F E₁ → Prop} {S : τ → List I → Prop} {s : σ} {t : τ} {count : Nat} {l : List I}
    (hR : PlaysLaw P.seq R) (hS : CollectsLaw C.seq D q S) (hs : R s c) (ht : S t l)
    {k : (pipeAtMost P C s t count).κ} (h : (pipeAtMost P C s t count).Pending k) :
    ∃ xs s₁ t₁ k', k = ⟨(s₁, t₁, xs.length), k'⟩ ∧ xs.length < count ∧ c.StartsWith xs ∧ q.Accepts l xs ∧ R s₁ (c.drop xs.length) ∧
      S t₁ (l ++ xs) ∧
      ((∃ kp, HEq k' (Sum.inl kp : (pipeAtMostStep P C s₁ t₁ xs.length).κ) ∧ (P.produce s₁).Pending kp) ∨
       (∃ s₂ x kc, HEq k' (Sum.inr ⟨(s₂, .ok (.inl x)), .inl kc⟩ : (pipeAtMostStep P C s₁ t₁ xs.length).κ) ∧
          c xs.length = .ok (.inl x) ∧ R s₂ (c.drop (xs.length + 1)) ∧ (C.consume t₁ x).Pending kc) ∨
       (∃ s₂ f kc, HEq k' (Sum.inr ⟨(s₂, .ok (.inr f)), .inl kc⟩ : (pipeAtMostStep P C s₁ t₁ xs.length).κ) ∧
          c xs.length = .ok (.inr f) ∧ (C.close t₁ f).Pending kc)) := by
  obtain ⟨⟨s₁, t₁, n⟩, k⟩ := k
  obtain ⟨hi, hk⟩ := Fut.pending_loop h
  obtain ⟨xs, rfl, hx, ha, hP₁, hC₁⟩ := hi.keeps (Inv := fun x => ∃ xs : List I, xs.length = x.2.2 ∧ c.StartsWith xs ∧ q.Accepts l xs ∧
    R x.1 (c.drop xs.length) ∧ S x.2.1 (l ++ xs))
    ⟨[], rfl, by simp, by simp, by simpa using hs, by simpa using ht⟩ (by
    rintro ⟨s₁, t₁, n⟩ ⟨s₂, t₂, n'⟩ ⟨xs, rfl, hx, ha, hP₁, hC₁⟩ hr
    obtain ⟨s', h1, h2⟩ := hR.produce _ _ hP₁
    rw [pipeAtMostBody_run, Verif.pipeAtMostBody] at hr
    split at hr
    · rcases hc : (c.drop xs.length) 0 with e | x | f <;> simp only [h1, hc, bind_eq, bind_ok] at hr
      · cases hr
      · rcases hq : q.answer (l ++ xs) x with _ | e
        · obtain ⟨t', h3, h4⟩ := hS.consume_ok _ _ x hC₁ hq
          simp only [h3, bind_ok] at hr
          cases hr
          refine ⟨xs ++ [x], by simp, hx.append (by simpa [Script.startsWith_cons] using hc),
            Policy.accepts_append.2 ⟨ha, Policy.accepts_cons.2 ⟨hq, by simp⟩⟩, ?_, by simpa using h4⟩
          simpa using h2 x hc
        · obtain ⟨t', h3, h4⟩ := hS.consume_err _ _ x e hC₁ hq
          simp only [h3, bind_ok] at hr
          cases hr
      · rcases hq : q.refuseClose (l ++ xs) f with _ | e
        · obtain ⟨t', h3, h4⟩ := hS.close_ok _ _ f hC₁ hq
          simp only [h3, bind_ok] at hr
          cases hr
        · obtain ⟨t', h3, h4⟩ := hS.close_err _ _ f e hC₁ hq
          simp only [h3, bind_ok] at hr
          cases hr
    · cases hr)
  obtain ⟨hlt, k', hkk, hk⟩ := Fut.pending_ite (p := xs.length < count) (f := pipeAtMostStep P C s₁ t₁ xs.length)
    (a := .done ((s₁, t₁), .ok xs.length)) hk
  refine ⟨xs, s₁, t₁, k, rfl, hlt, hx, ha, hP₁, hC₁, ?_⟩
  rcases Fut.pending_bind hk with ⟨kp, rfl, hk'⟩ | ⟨⟨s₂, r⟩, k', rfl, hr, hk'⟩
  · exact .inl ⟨kp, hkk, hk'⟩
  · right
    obtain ⟨s', h1, h2⟩ := hR.produce _ _ hP₁
    obtain ⟨rfl, hc⟩ : s' = s₂ ∧ (c.drop xs.length) 0 = r := by simpa using h1.symm.trans hr
    rcases r with e | x | f
    · exact (Fut.not_pending_pure hk').elim
    · rcases Fut.pending_bind hk' with ⟨kc, rfl, hk''⟩ | ⟨⟨t₂, e | ⟨⟩⟩, k', rfl, _, hk''⟩
      · exact .inl ⟨s', x, kc, hkk, by simpa using hc, by simpa using h2 x hc, hk''⟩
      · exact (Fut.not_pending_pure hk'').elim
      · exact (Fut.not_pending_pure hk'').elim
    · rcases Fut.pending_bind hk' with ⟨kc, rfl, hk''⟩ | ⟨⟨t₂, e | ⟨⟩⟩, k', rfl, _, hk''⟩
      · exact .inr ⟨s', f, kc, hkk, by simpa using hc, hk''⟩
      · exact (Fut.not_pending_pure hk'').elim
      · exact (Fut.not_pending_pure hk'').elim

/-- What `pipe_at_most` leaves if it is dropped while `produce` is pending. -/
theorem pipe_at_most_dropped_producing {P : Producer σ I F E₁} {C : Consumer τ I F E₂} {D : τ → List I → Option F → Prop}
    {c : Script I F E₁} {q : Policy I F E₂} {R : σ → Script I F E₁ → Prop} {S : τ → List I → Prop} {dp : ItemDrops P} {s s' : σ}
    {t t' : τ} {count n : Nat} {l : List I} (hR : PlaysLaw P.seq R) (hS : CollectsLaw C.seq D q S) (hdp : dp.Tolerated R) (hs : R s c)
    (ht : S t l) {k : (pipeAtMost P C s t count).κ} (h : (pipeAtMost P C s t count).Pending k)
    (hk : PipeAtMostProducing dp s t count k n s' t') :
    ∃ xs : List I, xs.length = n ∧ n < count ∧ c.StartsWith xs ∧ q.Accepts l xs ∧ R s' (c.drop n) ∧ S t' (l ++ xs) := by
  obtain ⟨xs, s₁, t₁, k', rfl, hlt, hx, ha, hs₁, ht₁, h⟩ := pipe_at_most_left hR hS hs ht h
  cases hk with
  | mk hk' hd =>
    refine ⟨xs, rfl, hlt, hx, ha, ?_, ht₁⟩
    rcases h with ⟨kp, hk, hp⟩ | ⟨s₂, x, kc, hk, _⟩ | ⟨s₂, f, kc, hk, _⟩ <;> cases eq_of_heq (hk.symm.trans hk')
    exact hdp.produce hs₁ hp hd

/-- **C108, `pipe_at_most`, `produce` pending.** If it is dropped after having moved `n` items, then another call with the bound
`count - n` has the outcome of the dropped call, up to the `n` items that it does not count; another call with the bound `count` moves
up to `n` items too many. -/
theorem pipe_at_most_resumed {P : Producer σ I F E₁} {C : Consumer τ I F E₂} {D : τ → List I → Option F → Prop}
    {c : Script I F E₁} {q : Policy I F E₂} {R : σ → Script I F E₁ → Prop} {S : τ → List I → Prop} {dp : ItemDrops P} {s s' : σ}
    {t t' : τ} {count n : Nat} {l : List I} (hR : PlaysLaw P.seq R) (hS : CollectsLaw C.seq D q S) (hdp : dp.Tolerated R) (hs : R s c)
    (ht : S t l) {k : (pipeAtMost P C s t count).κ} (h : (pipeAtMost P C s t count).Pending k)
    (hk : PipeAtMostProducing dp s t count k n s' t') :
    n < count ∧
    (∃ xs fin res s₁ t₁ s₂ t₂, (pipeAtMost P C s t count).run = ok ((s₁, t₁), res.map (n + ·)) ∧ D t₁ (l ++ xs) fin ∧
      (pipeAtMost P C s' t' (count - n)).run = ok ((s₂, t₂), res) ∧ D t₂ (l ++ xs) fin) ∧
    ∀ xs, xs.length = n + count → c.StartsWith xs → q.Accepts l xs →
      ∃ s₂ t₂, (pipeAtMost P C s' t' count).run = ok ((s₂, t₂), .ok count) ∧ D t₂ (l ++ xs) none := by
  obtain ⟨ys, rfl, hlt, hy, ha, hs', ht'⟩ := pipe_at_most_dropped_producing hR hS hdp hs ht h hk
  refine ⟨hlt, ?_, ?_⟩
  · obtain ⟨xs, fin, res, hr⟩ := AtMostResult.exists c q l count
    obtain ⟨res', rfl, hxs, hr'⟩ := AtMostResult.advance hr hy ha (Nat.le_of_lt hlt)
    obtain ⟨s₁, t₁, h1, h2, _⟩ := pipe_at_most_spec ⟨R, hR, hs⟩ ⟨S, hS, ht⟩ hr
    obtain ⟨s₂, t₂, h3, h4, _⟩ := pipe_at_most_spec ⟨R, hR, hs'⟩ ⟨S, hS, ht'⟩ hr'
    exact ⟨xs, fin, res', s₁, t₁, s₂, t₂, by rw [pipeAtMost_run, h1], h2, by rw [pipeAtMost_run, h3],
      by rw [hxs]; simpa [List.append_assoc] using h4⟩
  · intro xs hl hx hacc
    have hy' : ys = xs.take ys.length := Script.StartsWith.prefix hy hx (by omega)
    have hxs : xs = ys ++ xs.drop ys.length := by
      conv => lhs; rw [← List.take_append_drop ys.length xs]
      rw [← hy']
    obtain ⟨s₂, t₂, h3, h4, _⟩ := pipe_at_most_spec ⟨R, hR, hs'⟩ ⟨S, hS, ht'⟩
      (count := count) (.full (xs := xs.drop ys.length) (by simp; omega)
        (by intro i x hi
            have := hx (ys.length + i) x (by simpa using hi)
            simpa [Script.drop, Nat.add_comm] using this)
        (by rw [hxs] at hacc; exact (Policy.accepts_append.1 hacc).2))
    exact ⟨s₂, t₂, by rw [pipeAtMost_run, h3], by rw [hxs]; simpa [List.append_assoc] using h4⟩

/-- **C108, `pipe_at_most`, `consume` pending.** If it is dropped after having moved the items `xs`, then the producer has emitted one
item more, `x`, which the consumer has not got. No other call will move `x`: whatever the bound, the next one begins with the item
after `x`. -/
theorem pipe_at_most_dropped_consuming {P : Producer σ I F E₁} {C : Consumer τ I F E₂} {D : τ → List I → Option F → Prop}
    {c : Script I F E₁} {q : Policy I F E₂} {R : σ → Script I F E₁ → Prop} {S : τ → List I → Prop} {dc : ConsumeDrops C} {s s' : σ}
    {t t' : τ} {count n : Nat} {l : List I} {x : I} (hR : PlaysLaw P.seq R) (hS : CollectsLaw C.seq D q S) (hdc : dc.Tolerated S)
    (hs : R s c) (ht : S t l) {k : (pipeAtMost P C s t count).κ} (h : (pipeAtMost P C s t count).Pending k)
    (hk : PipeAtMostConsuming dc s t count k n x s' t') :
    ∃ xs : List I, xs.length = n ∧ n < count ∧ c.StartsWith (xs ++ [x]) ∧ q.Accepts l xs ∧ Plays P.seq s' (c.drop (n + 1)) ∧
      Collects C.seq D q t' (l ++ xs) ∧
      ∀ m ys fin res, AtMostResult (c.drop (n + 1)) q (l ++ xs) m ys fin res →
        ∃ s₂ t₂, (pipeAtMost P C s' t' m).run = ok ((s₂, t₂), res) ∧ D t₂ (l ++ xs ++ ys) fin := by
  obtain ⟨xs, s₁, t₁, k', rfl, hlt, hx, ha, hs₁, ht₁, h⟩ := pipe_at_most_left hR hS hs ht h
  cases hk with
  | mk hk' hd =>
    rcases h with ⟨kp, hk, hp⟩ | ⟨s₂, x, kc, hk, hc, hs₂, hp⟩ | ⟨s₂, f, kc, hk, _⟩ <;> cases eq_of_heq (hk.symm.trans hk')
    have hP : Plays P.seq s' (c.drop (xs.length + 1)) := ⟨R, hR, hs₂⟩
    have hC : Collects C.seq D q t' (l ++ xs) := ⟨S, hS, hdc.consume ht₁ hp hd⟩
    refine ⟨xs, rfl, hlt, hx.append (by simpa [Script.startsWith_cons] using hc), ha, hP, hC, fun m ys fin res hr => ?_⟩
    obtain ⟨s₂, t₂, h1, h2, _⟩ := pipe_at_most_spec hP hC hr
    exact ⟨s₂, t₂, by rw [pipeAtMost_run, h1], h2⟩

/-! ## Every pending call can be dropped -/

/-- Whenever `consume_full_slice` is pending, the relation says what is left. -/
theorem consume_full_slice_drops_total {C : Consumer τ I F E} {d : ConsumeDrops C}
    (ht : ∀ {t x k}, (C.consume t x).Pending k → ∃ t', d.consume t x k t') {buf : List I} : ∀ {t : τ} {i : Nat}
    {k : (consumeFullSliceFrom C t i buf).κ}, (consumeFullSliceFrom C t i buf).Pending k → ∃ n t', ConsumeSliceDropped d t i buf k n t' := by
  induction buf with
  | nil => intro t i k h; exact (Fut.not_pending_pure h).elim
  | cons x buf ih =>
    intro t i k h
    rcases Fut.pending_bind h with ⟨kc, rfl, hk⟩ | ⟨⟨t₁, e | ⟨⟩⟩, k', rfl, hr, hk⟩
    · obtain ⟨t', hd⟩ := ht hk
      exact ⟨i, t', .consuming hd⟩
    · exact (Fut.not_pending_pure hk).elim
    · obtain ⟨n, t', hd⟩ := ih hk
      exact ⟨n, t', .later hd⟩

/-- The same for `overwrite_full_slice`. -/
theorem overwrite_full_slice_drops_total {P : Producer σ I F E} {d : ItemDrops P}
    (ht : ∀ {s k}, (P.produce s).Pending k → ∃ s', d.produce s k s') {todo : List I} : ∀ {s : σ} {written : List I}
    {k : (overwriteFullSliceFrom P s written todo).κ}, (overwriteFullSliceFrom P s written todo).Pending k →
    ∃ n left s', OverwriteSliceDropped d s written todo k n left s' := by
  induction todo with
  | nil => intro s w k h; exact (Fut.not_pending_pure h).elim
  | cons old todo ih =>
    intro s w k h
    rcases Fut.pending_bind h with ⟨kp, rfl, hk⟩ | ⟨⟨s₁, e | x | f⟩, k', rfl, hr, hk⟩
    · obtain ⟨s', hd⟩ := ht hk
      exact ⟨_, _, s', .producing hd⟩
    · exact (Fut.not_pending_pure hk).elim
    · obtain ⟨n, left, s', hd⟩ := ih hk
      exact ⟨n, left, s', .later hd⟩
    · exact (Fut.not_pending_pure hk).elim

/-- Whenever `pipe_at_most` is pending, either one of the two relations says what is left, or `close` is pending. -/
theorem pipe_at_most_drops_total {P : Producer σ I F E₁} {C : Consumer τ I F E₂} {dp : ItemDrops P} {dc : ConsumeDrops C}
    (hp : ∀ {s k}, (P.produce s).Pending k → ∃ s', dp.produce s k s') (hc : ∀ {t x k}, (C.consume t x).Pending k → ∃ t', dc.consume t x k t')
    {D : τ → List I → Option F → Prop} {c : Script I F E₁} {q : Policy I F E₂} {s : σ} {t : τ} {count : Nat} {l : List I}
    (hP : Plays P.seq s c) (hC : Collects C.seq D q t l) {k : (pipeAtMost P C s t count).κ} (h : (pipeAtMost P C s t count).Pending k) :
    (∃ n s' t', PipeAtMostProducing dp s t count k n s' t') ∨ (∃ n x s' t', PipeAtMostConsuming dc s t count k n x s' t') ∨
      ∃ t₁ f kc, (C.close t₁ f).Pending kc := by
  obtain ⟨xs, s₁, t₁, k', rfl, _, _, _, _, ⟨kp, hk, h1⟩ | ⟨s₂, x, kc, hk, _, _, h1⟩ | ⟨s₂, f, kc, hk, _, h1⟩⟩ :=
    pipe_at_most_abandoned hP hC h
  · obtain ⟨s', hd⟩ := hp h1
    exact .inl ⟨_, s', t₁, .mk hk hd⟩
  · obtain ⟨t', hd⟩ := hc h1
    exact .inr (.inl ⟨_, x, s₂, t', .mk hk hd⟩)
  · exact .inr (.inr ⟨t₁, f, kc, h1⟩)

/-! ## Cases -/

namespace Case

/-- A consumer that is pending at every other call, beginning with the second one. -/
def sipConsumer : TestConsumer Nat Unit String := TestConsumer.new "full" 5 [] (some [false, true])

theorem sipConsumer_ready : Verif.TestConsumer.Ready false 5 "full" sipConsumer [] [] := Verif.TestConsumer.ready_new false "full" 5 [] _

/-- A producer of 1, 2, 3 that is pending at every other call, beginning with the second one. -/
def sipProducer : TestProducer Nat Unit String := TestProducer.new [1, 2, 3] (.ok ()) [] (some [false, true])

theorem sipProducer_ready : Verif.TestProducer.Ready false sipProducer (Script.ofList [1, 2, 3] (.ok ())) 0 :=
  Verif.TestProducer.ready_new false [1, 2, 3] (.ok ()) [] _

end Case

/-- **C108**, a witness: `[1, 2]` is to be consumed. The call is dropped and started again; it reports success, and `[1, 1, 2]` has been
consumed. -/
theorem consume_full_slice_repeats : ∃ k t', (consumeFullSlice Case.TC.toConsumer Case.sipConsumer [1, 2]).Pending k ∧
    ConsumeSliceDropped (TestConsumer.consumeDrops false Nat Unit String) Case.sipConsumer 0 [1, 2] k 1 t' ∧
    ∃ t₁, (consumeFullSlice Case.TC.toConsumer t' [1, 2]).run = ok (t₁, .ok ()) ∧ Verif.TestConsumer.Seen t₁ [1, 1, 2] none := by
  have h : (consumeFullSlice Case.TC.toConsumer Case.sipConsumer [1, 2]).poll
      (consumeFullSlice Case.TC.toConsumer Case.sipConsumer [1, 2]).start =
      ok (.pending (Sum.inr ⟨(_, .ok ()), Sum.inl _⟩)) := rfl
  obtain ⟨t', hd⟩ := test_consumer_drops_consume_total false (Fut.pending_left (Fut.pending_right (Fut.Pending.first h)).2)
  obtain ⟨k, hk, hd⟩ := Fut.first_pending (Q := fun k => ConsumeSliceDropped (TestConsumer.consumeDrops false Nat Unit String)
    Case.sipConsumer 0 [1, 2] k 1 t') h (.later (.consuming hd))
  obtain ⟨_, _, _, _, h1⟩ := consume_full_slice_resumed Case.TC_law.base.toCollectsLaw (test_consumer_consume_drops false 5 "full")
    ⟨_, Case.sipConsumer_ready⟩ hk hd
  obtain ⟨t₁, h2, h3⟩ := h1 (Case.accepts (n := 5) (by decide))
  exact ⟨k, t', hk, hd, t₁, h2, h3.observe⟩

/-- **C108**, a witness: a buffer of two items is to be filled from a producer of 1, 2, 3. The call is dropped when the buffer is
`[1, 0]`, and started again; it reports success, and the buffer is `[2, 3]`. -/
theorem overwrite_full_slice_loses : ∃ k s', (overwriteFullSlice Case.TP.toProducer Case.sipProducer [0, 0]).Pending k ∧
    OverwriteSliceDropped (TestProducer.itemDrops false Nat Unit String) Case.sipProducer [] [0, 0] k 1 [1, 0] s' ∧
    ∃ s₁, (overwriteFullSlice Case.TP.toProducer s' [1, 0]).run = ok (s₁, .ok (), [2, 3]) := by
  have h : (overwriteFullSlice Case.TP.toProducer Case.sipProducer [0, 0]).poll
      (overwriteFullSlice Case.TP.toProducer Case.sipProducer [0, 0]).start =
      ok (.pending (Sum.inr ⟨(_, .ok (.inl 1)), Sum.inl _⟩)) := rfl
  obtain ⟨s', hd⟩ := test_producer_drops_produce_total false (Fut.pending_left (Fut.pending_right (Fut.Pending.first h)).2)
  obtain ⟨k, hk, hd⟩ := Fut.first_pending (Q := fun k => OverwriteSliceDropped (TestProducer.itemDrops false Nat Unit String)
    Case.sipProducer [] [0, 0] k 1 [1, 0] s') h (.later (.producing hd))
  obtain ⟨xs, hl, _, hx, _, _, h1, _⟩ := overwrite_full_slice_resumed Case.TP_law.base.toPlaysLaw (test_producer_item_drops false)
    ⟨0, Case.sipProducer_ready⟩ hk hd
  have : xs = [1] := by
    have := Script.StartsWith.prefix hx (Case.script_starts _) (by rw [hl]; decide)
    rw [this, hl]; rfl
  subst this
  obtain ⟨s₁, h2, _⟩ := h1 [2, 3] rfl (Case.script_starts _)
  exact ⟨k, s', hk, hd, s₁, h2⟩

/-- **C108**, a witness: at most two items are to be moved. The call is dropped while `produce` is pending and started again; it reports
two items, and `[1, 2, 3]` has been consumed. -/
theorem pipe_at_most_exceeds : ∃ k s' t', (pipeAtMost Case.TP.toProducer Case.TC.toConsumer Case.sipProducer (TestConsumer.new "full" 5 [] none) 2).Pending k ∧
    PipeAtMostProducing (TestProducer.itemDrops false Nat Unit String) Case.sipProducer (TestConsumer.new "full" 5 [] none) 2 k 1 s' t' ∧
    ∃ s₂ t₂, (pipeAtMost Case.TP.toProducer Case.TC.toConsumer s' t' 2).run = ok ((s₂, t₂), .ok 2) ∧
      Verif.TestConsumer.Seen t₂ [1, 2, 3] none := by
  have h : (pipeAtMost Case.TP.toProducer Case.TC.toConsumer Case.sipProducer (TestConsumer.new "full" 5 [] none) 2).poll
      (pipeAtMost Case.TP.toProducer Case.TC.toConsumer Case.sipProducer (TestConsumer.new "full" 5 [] none) 2).start =
      ok (.pending ⟨(_, _, 1), .inl _⟩) := loop_eq_of_fuel (n := 2) nofun
  obtain ⟨s', hd⟩ := test_producer_drops_produce_total false (Fut.pending_left (Fut.pending_loop (Fut.Pending.first h)).2)
  obtain ⟨k, hk, t', hd⟩ := Fut.first_pending (Q := fun k => ∃ t', PipeAtMostProducing (TestProducer.itemDrops false Nat Unit String)
    Case.sipProducer (TestConsumer.new "full" 5 [] none) 2 k 1 s' t') h ⟨_, .mk (n := 1) HEq.rfl hd⟩
  obtain ⟨_, _, h1⟩ := pipe_at_most_resumed Case.TP_law.base.toPlaysLaw Case.TC_law.base.toCollectsLaw (test_producer_item_drops false)
    ⟨0, Case.sipProducer_ready⟩ ⟨_, Verif.TestConsumer.ready_new false "full" 5 [] none⟩ hk hd
  obtain ⟨s₂, t₂, h2, h3⟩ := h1 [1, 2, 3] rfl (Case.script_starts _) (Case.accepts (n := 5) (by decide))
  exact ⟨k, s', t', hk, hd, s₂, t₂, h2, h3⟩

/-- **C108**, a witness: at most two items are to be moved. The call is dropped while `consume` is pending and started again; it reports
two items, `[2, 3]` has been consumed, and 1 is lost. -/
theorem pipe_at_most_loses : ∃ k s' t', (pipeAtMost Case.TP.toProducer Case.TC.toConsumer readyProducer slowConsumer 2).Pending k ∧
    PipeAtMostConsuming (TestConsumer.consumeDrops false Nat Unit String) readyProducer slowConsumer 2 k 0 1 s' t' ∧
    ∃ s₂ t₂, (pipeAtMost Case.TP.toProducer Case.TC.toConsumer s' t' 2).run = ok ((s₂, t₂), .ok 2) ∧
      Verif.TestConsumer.Seen t₂ [2, 3] none := by
  have h : (pipeAtMost Case.TP.toProducer Case.TC.toConsumer readyProducer slowConsumer 2).poll
      (pipeAtMost Case.TP.toProducer Case.TC.toConsumer readyProducer slowConsumer 2).start =
      ok (.pending ⟨(_, _, 0), .inr ⟨(_, .ok (.inl 1)), .inl _⟩⟩) := loop_eq_of_fuel (n := 1) nofun
  obtain ⟨t', hd⟩ := test_consumer_drops_consume_total false (Fut.pending_left (Fut.pending_right (Fut.pending_loop (Fut.Pending.first h)).2).2)
  obtain ⟨k, hk, s', hd⟩ := Fut.first_pending (Q := fun k => ∃ s', PipeAtMostConsuming (TestConsumer.consumeDrops false Nat Unit String)
    readyProducer slowConsumer 2 k 0 1 s' t') h ⟨_, .mk (n := 0) HEq.rfl hd⟩
  obtain ⟨xs, hl, _, _, _, _, _, h1⟩ := pipe_at_most_dropped_consuming Case.TP_law.base.toPlaysLaw Case.TC_law.base.toCollectsLaw
    (test_consumer_consume_drops false 5 "full") ⟨0, Case.ready_ready⟩ ⟨_, Case.slow_consumer_ready⟩ hk hd
  obtain rfl := List.length_eq_zero_iff.1 hl
  obtain ⟨s₂, t₂, h2, h3⟩ := h1 2 [2, 3] none (.ok 2) (.full rfl
    (by intro i x hi
        have := Script.ofList_startsWith [1, 2, 3] (.ok () : Except String Unit) (i + 1) x (by simpa using hi)
        simpa [Script.drop, Nat.add_comm] using this)
    (Case.accepts (n := 5) (by decide)))
  exact ⟨k, s', t', hk, hd, s₂, t₂, h2, h3⟩

/-- The hypotheses of `consume_full_slice_drops_total`, `overwrite_full_slice_drops_total` and `pipe_at_most_drops_total` are met by the test
doubles. -/
example : (∃ k n t', (consumeFullSlice Case.TC.toConsumer Case.sipConsumer [1, 2]).Pending k ∧
      ConsumeSliceDropped (TestConsumer.consumeDrops false Nat Unit String) Case.sipConsumer 0 [1, 2] k n t') ∧
    (∃ k n left s', (overwriteFullSlice Case.TP.toProducer Case.sipProducer [0, 0]).Pending k ∧
      OverwriteSliceDropped (TestProducer.itemDrops false Nat Unit String) Case.sipProducer [] [0, 0] k n left s') := by
  obtain ⟨k, _, hk, _⟩ := consume_full_slice_repeats
  obtain ⟨k₁, _, hk₁, _⟩ := overwrite_full_slice_loses
  obtain ⟨n, t', hd⟩ := consume_full_slice_drops_total (test_consumer_drops_consume_total false) hk
  obtain ⟨n₁, left, s', hd₁⟩ := overwrite_full_slice_drops_total (test_producer_drops_produce_total false) hk₁
  exact ⟨⟨k, n, t', hk, hd⟩, ⟨k₁, n₁, left, s', hk₁, hd₁⟩⟩

example {k} (h : (pipeAtMost Case.TP.toProducer Case.TC.toConsumer readyProducer slowConsumer 2).Pending k) :=
  pipe_at_most_drops_total (test_producer_drops_produce_total false) (test_consumer_drops_consume_total false)
    Case.ready_bulk_plays.toPlays Case.slow_collects.toCollects h

end Verif.Async
