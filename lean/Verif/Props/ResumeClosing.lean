import Verif.CloseDropSpec
import Verif.Props.ResumeItems

/-!
# Pipes that are dropped while `close` is pending (C110)

All items have been moved, and the producer has emitted its final value, which is lost with the future. Whoever knows it can still close
the consumer, as the pipe would have done. Whoever starts the pipe again calls a producer that has ended: a `TestProducer` panics.
-/

namespace Verif.Async

open Outcome

variable {σ τ I F E E₁ E₂ : Type}

/-- As `pipe_abandoned`, for given invariants of the producer and of the consumer. -/
theorem pipe_left {P : Producer σ I F E₁} {C : Consumer τ I F E₂} {D : τ → List I → Option F → Prop} {c : Script I F E₁}
    {q : Policy I F E₂} {R : σ → Script I F E₁ → Prop} {S : τ → List I → Prop} {s : σ} {t : τ} {l : List I}
    (hR : PlaysLaw P.seq R) (hS : CollectsLaw C.seq D q S) (hs : R s c) (ht : S t l)
    {k : (pipe P C s t).κ} (h : (pipe P C s t).Pending k) :
    ∃ xs s₁ t₁, c.StartsWith xs ∧ q.Accepts l xs ∧ R s₁ (c.drop xs.length) ∧ S t₁ (l ++ xs) ∧
      ((∃ kp, k = ⟨(s₁, t₁), .inl kp⟩ ∧ (P.produce s₁).Pending kp) ∨
       (∃ s₂ x kc, k = ⟨(s₁, t₁), .inr ⟨(s₂, .ok (.inl x)), .inl kc⟩⟩ ∧ c xs.length = .ok (.inl x) ∧
          R s₂ (c.drop (xs.length + 1)) ∧ (C.consume t₁ x).Pending kc) ∨
       (∃ s₂ f kc, k = ⟨(s₁, t₁), .inr ⟨(s₂, .ok (.inr f)), .inl kc⟩⟩ ∧ c xs.length = .ok (.inr f) ∧ (C.close t₁ f).Pending kc)) := by
  obtain ⟨⟨s₁, t₁⟩, k⟩ := k
  obtain ⟨hi, hk⟩ := Fut.pending_loop h
  obtain ⟨xs, hx, ha, hP₁, hC₁⟩ := hi.keeps (Inv := fun x => ∃ xs, c.StartsWith xs ∧ q.Accepts l xs ∧ R x.1 (c.drop xs.length) ∧
    S x.2 (l ++ xs)) ⟨[], by simp, by simp, by simpa using hs, by simpa using ht⟩ (by
    rintro ⟨s₁, t₁⟩ ⟨s₂, t₂⟩ ⟨xs, hx, ha, hP₁, hC₁⟩ hr
    obtain ⟨s', h1, h2⟩ := hR.produce _ _ hP₁
    rw [pipeBody_run, Verif.pipeBody] at hr
    rcases hc : (c.drop xs.length) 0 with e | x | f <;> simp only [h1, hc, bind_eq, bind_ok] at hr
    · cases hr
    · rcases hq : q.answer (l ++ xs) x with _ | e
      · obtain ⟨t', h3, h4⟩ := hS.consume_ok _ _ x hC₁ hq
        simp only [h3, bind_ok] at hr
        cases hr
        refine ⟨xs ++ [x], hx.append (by simpa [Script.startsWith_cons] using hc),
          Policy.accepts_append.2 ⟨ha, Policy.accepts_cons.2 ⟨hq, by simp⟩⟩, ?_, by simpa using h4⟩
        simpa using h2 x hc
      · obtain ⟨t', h3, h4⟩ := hS.consume_err _ _ x e hC₁ hq
        simp only [h3, bind_ok] at hr
        cases hr
    · rcases hq : q.refuseClose (l ++ xs) f with _ | e
      · obtain ⟨t', h3, h4⟩ := hS.close_ok _ _ f hC₁ hq
        simp only [h3, bind_ok] at hr
        cases hr
      · obtain ⟨t', h3, h4⟩ := hS.close_err _ _ f e hC₁ hq
        simp only [h3, bind_ok] at hr
        cases hr)
  refine ⟨xs, s₁, t₁, hx, ha, hP₁, hC₁, ?_⟩
  rcases Fut.pending_bind hk with ⟨kp, rfl, hk'⟩ | ⟨⟨s₂, r⟩, k', rfl, hr, hk'⟩
  · exact .inl ⟨kp, rfl, hk'⟩
  · right
    obtain ⟨s', h1, h2⟩ := hR.produce _ _ hP₁
    obtain ⟨rfl, hc⟩ : s' = s₂ ∧ (c.drop xs.length) 0 = r := by simpa using h1.symm.trans hr
    rcases r with e | x | f
    · exact (Fut.not_pending_pure hk').elim
    · rcases Fut.pending_bind hk' with ⟨kc, rfl, hk''⟩ | ⟨⟨t₂, e | ⟨⟩⟩, k', rfl, _, hk''⟩
      · exact .inl ⟨s', x, kc, rfl, by simpa using hc, by simpa using h2 x hc, hk''⟩
      · exact (Fut.not_pending_pure hk'').elim
      · exact (Fut.not_pending_pure hk'').elim
    · rcases Fut.pending_bind hk' with ⟨kc, rfl, hk''⟩ | ⟨⟨t₂, e | ⟨⟩⟩, k', rfl, _, hk''⟩
      · exact .inr ⟨s', f, kc, rfl, by simpa using hc, hk''⟩
      · exact (Fut.not_pending_pure hk'').elim
      · exact (Fut.not_pending_pure hk'').elim

/-- Closing, by the policy of the consumer. -/
theorem close_outcome {C : Consumer τ I F E} {D : τ → List I → Option F → Prop} {q : Policy I F E} {S : τ → List I → Prop}
    (hS : CollectsLaw C.seq D q S) {t : τ} {l : List I} (ht : S t l) (f : F) :
    (q.refuseClose l f = none ∧ ∃ t', (C.close t f).run = ok (t', .ok ()) ∧ D t' l (some f)) ∨
    ∃ e, q.refuseClose l f = some e ∧ ∃ t', (C.close t f).run = ok (t', .error e) ∧ D t' l none := by
  rcases hq : q.refuseClose l f with _ | e
  · exact .inl ⟨rfl, hS.close_ok _ _ f ht hq⟩
  · exact .inr ⟨e, rfl, hS.close_err _ _ f e ht hq⟩

/-- **C110, `pipe`.** If it is dropped while `close` is pending, then all items have been moved, and the producer has emitted its final
value. `close` with this value then has the outcome that the dropped call would have had. -/
theorem pipe_dropped_closing {P : Producer σ I F E₁} {C : Consumer τ I F E₂} {D : τ → List I → Option F → Prop} {c : Script I F E₁}
    {q : Policy I F E₂} {R : σ → Script I F E₁ → Prop} {S : τ → List I → Prop} {dc : CloseDrops C} {s s' : σ} {t t' : τ} {l : List I}
    {f : F} (hR : PlaysLaw P.seq R) (hS : CollectsLaw C.seq D q S) (hdc : dc.Tolerated S) (hs : R s c) (ht : S t l)
    {k : (pipe P C s t).κ} (h : (pipe P C s t).Pending k) (hk : PipeClosing dc s t k f s' t') :
    ∃ xs, c.StartsWith xs ∧ c xs.length = .ok (.inr f) ∧ Collects C.seq D q t' (l ++ xs) ∧
      (∃ s₁, R s₁ (c.drop xs.length) ∧ (P.produce s₁).run = ok (s', .ok (.inr f))) ∧
      ∃ r fin s₂ t₂ t₃, (pipe P C s t).run = ok ((s₂, t₂), r.mapError .consumer) ∧ (C.close t' f).run = ok (t₃, r) ∧
        D t₂ (l ++ xs) fin ∧ D t₃ (l ++ xs) fin := by
  obtain ⟨xs, s₁, t₁, hx, ha, hs₁, ht₁, h'⟩ := pipe_left hR hS hs ht h
  cases hk with
  | mk hd =>
    rcases h' with ⟨kp, hk, hp⟩ | ⟨s₂, x, kc, hk, _⟩ | ⟨s₂, f, kc, hk, hc, hp⟩ <;> cases hk
    have hr := (Fut.pending_right (Fut.pending_loop h).2).1
    have ht' := hdc.close ht₁ hp hd
    refine ⟨xs, hx, hc, ⟨S, hS, ht'⟩, ⟨s₁, hs₁, hr⟩, ?_⟩
    rcases close_outcome hS ht' f with ⟨hq, t₃, h1, h2⟩ | ⟨e, hq, t₃, h1, h2⟩
    · obtain ⟨s₂, t₂, h3, h4⟩ := pipe_spec ⟨R, hR, hs⟩ ⟨S, hS, ht⟩ (.closed hx ha hc hq)
      exact ⟨.ok (), some f, s₂, t₂, t₃, by rw [pipe_run, h3]; rfl, h1, h4, h2⟩
    · obtain ⟨s₂, t₂, h3, h4⟩ := pipe_spec ⟨R, hR, hs⟩ ⟨S, hS, ht⟩ (.closeRefused hx ha hc hq)
      exact ⟨.error e, none, s₂, t₂, t₃, by rw [pipe_run, h3]; rfl, h1, h4, h2⟩

/-- **C110, `pipe_at_most`.** The same; fewer items have been moved than the bound allows. -/
theorem pipe_at_most_dropped_closing {P : Producer σ I F E₁} {C : Consumer τ I F E₂} {D : τ → List I → Option F → Prop}
    {c : Script I F E₁} {q : Policy I F E₂} {R : σ → Script I F E₁ → Prop} {S : τ → List I → Prop} {dc : CloseDrops C} {s s' : σ}
    {t t' : τ} {count n : Nat} {l : List I} {f : F} (hR : PlaysLaw P.seq R) (hS : CollectsLaw C.seq D q S) (hdc : dc.Tolerated S)
    (hs : R s c) (ht : S t l) {k : (pipeAtMost P C s t count).κ} (h : (pipeAtMost P C s t count).Pending k)
    (hk : PipeAtMostClosing dc s t count k n f s' t') :
    ∃ xs : List I, xs.length = n ∧ n < count ∧ c.StartsWith xs ∧ c n = .ok (.inr f) ∧ Collects C.seq D q t' (l ++ xs) ∧
      (∃ s₁, R s₁ (c.drop n) ∧ (P.produce s₁).run = ok (s', .ok (.inr f))) ∧
      ∃ r fin s₂ t₂ t₃, (pipeAtMost P C s t count).run = ok ((s₂, t₂), (r.mapError .consumer).map fun _ => n) ∧
        (C.close t' f).run = ok (t₃, r) ∧ D t₂ (l ++ xs) fin ∧ D t₃ (l ++ xs) fin := by
  obtain ⟨xs, s₁, t₁, k', rfl, hlt, hx, ha, hs₁, ht₁, h'⟩ := pipe_at_most_left hR hS hs ht h
  cases hk with
  | mk hk' hd =>
    rcases h' with ⟨kp, hk, hp⟩ | ⟨s₂, x, kc, hk, _⟩ | ⟨s₂, f, kc, hk, hc, hp⟩ <;> cases eq_of_heq (hk.symm.trans hk')
    obtain ⟨_, k₂, hkk, hb⟩ := Fut.pending_ite (p := xs.length < count) (f := pipeAtMostStep P C s₁ t₁ xs.length)
      (a := .done ((s₁, t₁), .ok xs.length)) (Fut.pending_loop h).2
    cases eq_of_heq (hkk.symm.trans hk)
    have hr := (Fut.pending_right hb).1
    have ht' := hdc.close ht₁ hp hd
    refine ⟨xs, rfl, hlt, hx, hc, ⟨S, hS, ht'⟩, ⟨s₁, hs₁, hr⟩, ?_⟩
    rcases close_outcome hS ht' f with ⟨hq, t₃, h1, h2⟩ | ⟨e, hq, t₃, h1, h2⟩
    · obtain ⟨s₂, t₂, h3, h4, _⟩ := pipe_at_most_spec ⟨R, hR, hs⟩ ⟨S, hS, ht⟩ (.closed hlt (.closed hx ha hc hq))
      exact ⟨.ok (), some f, s₂, t₂, t₃, by rw [pipeAtMost_run, h3]; rfl, h1, h4, h2⟩
    · obtain ⟨s₂, t₂, h3, h4, _⟩ := pipe_at_most_spec ⟨R, hR, hs⟩ ⟨S, hS, ht⟩ (.failed hlt (.closeRefused hx ha hc hq))
      exact ⟨.error e, none, s₂, t₂, t₃, by rw [pipeAtMost_run, h3]; rfl, h1, h4, h2⟩

/-- **C110, `bulk_pipe`.** -/
theorem bulk_pipe_closing {P : BulkProducer σ I F E₁} {C : BulkConsumer τ I F E₂} {D : τ → List I → Option F → Prop} {c : Script I F E₁}
    {q : Policy I F E₂} {R : σ → Script I F E₁ → Nat → Prop} {S : τ → List I → List I → Prop} {dc : CloseDrops C.toConsumer} {s s' : σ}
    {t t' : τ} {l sl : List I} {m : Nat} {f : F} (hR : BulkPlaysLaw P.seq R) (hS : BulkCollectsLaw C.seq D q S)
    (hdc : dc.Tolerated fun t l => ∃ sl, S t l sl) (hs : R s c m) (ht : S t l sl)
    {k : (bulkPipe P C s t).κ} (h : (bulkPipe P C s t).Pending k) (hk : BulkPipeClosing dc s t k f s' t') :
    ∃ xs, c.StartsWith xs ∧ c xs.length = .ok (.inr f) ∧ BulkCollects C.seq D q t' (l ++ xs) ∧
      (∃ s₁ m, R s₁ (c.drop xs.length) m ∧ (P.exposeItems s₁).run = ok (s', .ok (.inr f))) ∧
      ∃ r fin s₂ t₂ t₃, (bulkPipe P C s t).run = ok ((s₂, t₂), r.mapError .consumer) ∧ (C.close t' f).run = ok (t₃, r) ∧
        D t₂ (l ++ xs) fin ∧ D t₃ (l ++ xs) fin := by
  obtain ⟨xs, s₁, t₁, hx, ha, ⟨m₁, hs₁⟩, ht₁, h'⟩ := bulk_pipe_left hR hS hs ht h
  cases hk with
  | mk hd =>
    rcases h' with ⟨kp, hk, hp⟩ | ⟨s₂, ys, kc, hk, _⟩ | ⟨s₂, ys, t₂, n, kp, hk, _⟩ | ⟨s₂, f, kc, hk, hc, hp⟩ <;> cases hk
    have hr := (Fut.pending_right (Fut.pending_loop h).2).1
    obtain ⟨sl', ht'⟩ := hdc.close ht₁ hp hd
    refine ⟨xs, hx, hc, ⟨S, hS, sl', ht'⟩, ⟨s₁, m₁, hs₁, hr⟩, ?_⟩
    rcases close_outcome (C := C.toConsumer) hS.base.toCollectsLaw ⟨sl', ht'⟩ f with ⟨hq, t₃, h1, h2⟩ | ⟨e, hq, t₃, h1, h2⟩
    · obtain ⟨s₂, t₂, h3, h4, _⟩ := bulk_pipe_spec ⟨R, hR, m, hs⟩ ⟨S, hS, sl, ht⟩ (.closed hx ha hc hq)
      exact ⟨.ok (), some f, s₂, t₂, t₃, by rw [bulkPipe_run, h3]; rfl, h1, h4, h2⟩
    · obtain ⟨s₂, t₂, h3, h4, _⟩ := bulk_pipe_spec ⟨R, hR, m, hs⟩ ⟨S, hS, sl, ht⟩ (.closeRefused hx ha hc hq)
      exact ⟨.error e, none, s₂, t₂, t₃, by rw [bulkPipe_run, h3]; rfl, h1, h4, h2⟩

/-- **C110, `bulk_pipe_at_most`.** -/
theorem bulk_pipe_at_most_closing {P : BulkProducer σ I F E₁} {C : BulkConsumer τ I F E₂} {D : τ → List I → Option F → Prop}
    {c : Script I F E₁} {q : Policy I F E₂} {R : σ → Script I F E₁ → Nat → Prop} {S : τ → List I → List I → Prop}
    {dc : CloseDrops C.toConsumer} {s s' : σ} {t t' : τ} {count n : Nat} {l sl : List I} {m : Nat} {f : F} (hR : BulkPlaysLaw P.seq R)
    (hS : BulkCollectsLaw C.seq D q S) (hdc : dc.Tolerated fun t l => ∃ sl, S t l sl) (hs : R s c m) (ht : S t l sl)
    {k : (bulkPipeAtMost P C s t count).κ} (h : (bulkPipeAtMost P C s t count).Pending k)
    (hk : BulkPipeAtMostClosing dc s t count k n f s' t') :
    ∃ xs : List I, xs.length = n ∧ n < count ∧ c.StartsWith xs ∧ c n = .ok (.inr f) ∧ BulkCollects C.seq D q t' (l ++ xs) ∧
      (∃ s₁ m, R s₁ (c.drop n) m ∧ (P.exposeItems s₁).run = ok (s', .ok (.inr f))) ∧
      ∃ r fin s₂ t₂ t₃, (bulkPipeAtMost P C s t count).run = ok ((s₂, t₂), (r.mapError .consumer).map fun _ => n) ∧
        (C.close t' f).run = ok (t₃, r) ∧ D t₂ (l ++ xs) fin ∧ D t₃ (l ++ xs) fin := by
  obtain ⟨xs, s₁, t₁, k', rfl, hlt, hx, ha, ⟨m₁, hs₁⟩, ht₁, h'⟩ := bulk_pipe_at_most_left hR hS hs ht h
  cases hk with
  | mk hk' hd =>
    rcases h' with ⟨kp, hk, hp⟩ | ⟨s₂, ys, kc, hk, _⟩ | ⟨s₂, ys, t₂, n, kp, hk, _⟩ | ⟨s₂, f, kc, hk, hc, hp⟩ <;>
      cases eq_of_heq (hk.symm.trans hk')
    obtain ⟨_, k₂, hkk, hb⟩ := Fut.pending_ite (p := xs.length < count) (f := bulkPipeAtMostStep P C count s₁ t₁ xs.length)
      (a := .done ((s₁, t₁), .ok xs.length)) (Fut.pending_loop h).2
    cases eq_of_heq (hkk.symm.trans hk)
    have hr := (Fut.pending_right hb).1
    obtain ⟨sl', ht'⟩ := hdc.close ht₁ hp hd
    refine ⟨xs, rfl, hlt, hx, hc, ⟨S, hS, sl', ht'⟩, ⟨s₁, m₁, hs₁, hr⟩, ?_⟩
    rcases close_outcome (C := C.toConsumer) hS.base.toCollectsLaw ⟨sl', ht'⟩ f with ⟨hq, t₃, h1, h2⟩ | ⟨e, hq, t₃, h1, h2⟩
    · obtain ⟨s₂, t₂, h3, h4, _⟩ := bulk_pipe_at_most_spec ⟨R, hR, m, hs⟩ ⟨S, hS, sl, ht⟩ (.closed hlt (.closed hx ha hc hq))
      exact ⟨.ok (), some f, s₂, t₂, t₃, by rw [bulkPipeAtMost_run, h3]; rfl, h1, h4, h2⟩
    · obtain ⟨s₂, t₂, h3, h4, _⟩ := bulk_pipe_at_most_spec ⟨R, hR, m, hs⟩ ⟨S, hS, sl, ht⟩ (.failed hlt (.closeRefused hx ha hc hq))
      exact ⟨.error e, none, s₂, t₂, t₃, by rw [bulkPipeAtMost_run, h3]; rfl, h1, h4, h2⟩

/-! ## The test doubles -/

theorem test_consumer_close_drops [Inhabited I] (test : Bool) (n : Nat) (e : E) :
    (TestConsumer.closeDrops test I F E).Tolerated (fun t l => ∃ sl, Verif.TestConsumer.Ready test n e t l sl) where
  close := by
    rintro t l f k t' ⟨sl, h⟩ hk ⟨hd⟩
    have hy := yield_dropped_live h.yielder (Fut.pending_left (Fut.pending_left hk)) hd
    exact ⟨sl, h.vec, h.error, h.fin, h.count, h.slots, h.sizes, hy⟩

/-- However a pending call of `close` of a `TestConsumer` is dropped, a state is left. -/
theorem test_consumer_drops_close_total [Inhabited I] (test : Bool) {t : TestConsumer I F E} {f : F} {k}
    (h : ((TestConsumer.consumer test I F E).close t f).Pending k) : ∃ t', (TestConsumer.closeDrops test I F E).close t f k t' := by
  rcases Fut.pending_bind h with ⟨k, rfl, h'⟩ | ⟨⟨t₁, e | _⟩, k, rfl, _, h'⟩
  · rcases Fut.pending_bind h' with ⟨k, rfl, h''⟩ | ⟨y, k, rfl, _, h''⟩
    · obtain ⟨y, hy⟩ := yield_dropped_total h''
      exact ⟨_, .mk hy⟩
    · exact absurd h'' ((by quiet : Fut.Quiet _) _)
  all_goals exact absurd h' ((by quiet : Fut.Quiet _) _)

/-- A `TestProducer` that has emitted its final value panics when it is asked for more. -/
theorem test_producer_spent (test : Bool) {s s' : TestProducer I F E} {c : Script I F E} {m : Nat} {f : F}
    (h : Verif.TestProducer.Ready test s c m) :
    (Verif.TestProducer.produce test s = ok (s', .ok (.inr f)) → Verif.TestProducer.produce test s' = panic) ∧
    (Verif.TestProducer.exposeItems test s = ok (s', .ok (.inr f)) → Verif.TestProducer.exposeItems test s' = panic) := by
  have h0 := h
  obtain ⟨y, hy1, hy2, _⟩ := maybeYield_ok h.2.2.1
  obtain ⟨y', hy1', _⟩ := maybeYield_ok hy2
  obtain ⟨hs, hz, hy, last, hl, rfl⟩ := h
  have hr := hs.notYetProduced
  have key : (Script.ofList s.left last) 0 = .ok (.inr f) → s.left = [] := by
    intro h
    rcases hx : s.left with _ | ⟨x, xs⟩
    · rfl
    · simp [hx, Script.ofList] at h
  refine ⟨fun hp => ?_, fun hp => ?_⟩
  · obtain ⟨s₁, h1, _⟩ := Verif.TestProducer.produce_law h0
    obtain ⟨_, h2⟩ : s₁ = s' ∧ (Script.ofList s.left last) 0 = .ok (.inr f) := by simpa using h1.symm.trans hp
    have he := key h2
    simp only [Verif.TestProducer.left] at he
    simp [Verif.TestProducer.produce, hy1, Verif.TestProducer.remaining, hr, he, hl, unwrap] at hp
    obtain ⟨rfl, _⟩ := hp
    simp [Verif.TestProducer.produce, hy1', Verif.TestProducer.remaining, hr, he, unwrap]
  · obtain ⟨s₁, _, ⟨xs, _, _, h1, _⟩ | ⟨f', hf, h1, _⟩ | ⟨e, _, h1, _⟩⟩ := Verif.TestProducer.expose_law h0 <;> cases h1.symm.trans hp
    have he := key hf
    simp only [Verif.TestProducer.left] at he
    simp [Verif.TestProducer.exposeItems, hy1, Verif.TestProducer.remaining, hr, he, hl, unwrap] at hp
    obtain ⟨rfl, _⟩ := hp
    simp [Verif.TestProducer.exposeItems, hy1', Verif.TestProducer.remaining, hr, he, unwrap]

/-- **C110**: starting `pipe` or `pipe_at_most` again from a `TestProducer` panics, whatever the consumer and the bound, unless it is 0. -/
theorem test_producer_pipe_again (test : Bool) {C C' : Consumer τ I F E₂} {D : τ → List I → Option F → Prop} {c : Script I F E}
    {q : Policy I F E₂} {dc : CloseDrops C} {s s' : TestProducer I F E} {t t' : τ} {l : List I} {m : Nat} {f : F}
    (hs : Verif.TestProducer.Ready test s c m) (hC : Collects C.seq D q t l)
    (h : (∃ k, (pipe (TestProducer.producer test I F E).toProducer C s t).Pending k ∧ PipeClosing dc s t k f s' t') ∨
      ∃ count n k, (pipeAtMost (TestProducer.producer test I F E).toProducer C s t count).Pending k ∧
        PipeAtMostClosing dc s t count k n f s' t') :
    (∀ t₀, (pipe (TestProducer.producer test I F E).toProducer C' s' t₀).run = panic) ∧
    ∀ t₀ count, 0 < count → (pipeAtMost (TestProducer.producer test I F E).toProducer C' s' t₀ count).run = panic := by
  have hP : PlaysLaw (TestProducer.producer test I F E).toProducer.seq (fun s c => ∃ n, Verif.TestProducer.Ready test s c n) := by
    have := (Verif.TestProducer.law (I := I) (F := F) (E := E) test).base.toPlaysLaw
    rw [← testProducer_seq] at this; exact this
  obtain ⟨S, hS, ht⟩ := hC
  have hp : (TestProducer.producer test I F E).seq.produce s' = panic := by
    obtain ⟨s₁, c', m', hr, h1⟩ : ∃ s₁ c' m', Verif.TestProducer.Ready test s₁ c' m' ∧
        (TestProducer.producer test I F E).seq.produce s₁ = ok (s', .ok (.inr f)) := by
      rcases h with ⟨k, h, hk⟩ | ⟨count, n, k, h, hk⟩
      · obtain ⟨xs, s₁, t₁, hx, ha, ⟨m', hs₁⟩, ht₁, h'⟩ := pipe_left hP hS ⟨m, hs⟩ ht h
        cases hk with
        | mk hd =>
          rcases h' with ⟨kp, hk, hp⟩ | ⟨s₂, x, kc, hk, _⟩ | ⟨s₂, f, kc, hk, hc, hp⟩ <;> cases hk
          exact ⟨s₁, _, m', hs₁, (Fut.pending_right (Fut.pending_loop h).2).1⟩
      · obtain ⟨xs, s₁, t₁, k', rfl, hlt, hx, ha, ⟨m', hs₁⟩, ht₁, h'⟩ := pipe_at_most_left hP hS ⟨m, hs⟩ ht h
        cases hk with
        | mk hk' hd =>
          rcases h' with ⟨kp, hk, hp⟩ | ⟨s₂, x, kc, hk, _⟩ | ⟨s₂, f, kc, hk, hc, hp⟩ <;> cases eq_of_heq (hk.symm.trans hk')
          obtain ⟨_, k₂, hkk, hb⟩ := Fut.pending_ite (p := xs.length < count)
            (f := pipeAtMostStep (TestProducer.producer test I F E).toProducer C s₁ t₁ xs.length)
            (a := .done ((s₁, t₁), .ok xs.length)) (Fut.pending_loop h).2
          cases eq_of_heq (hkk.symm.trans hk)
          exact ⟨s₁, _, m', hs₁, (Fut.pending_right hb).1⟩
    rw [testProducer_seq] at h1 ⊢
    exact (test_producer_spent test hr).1 h1
  refine ⟨fun t₀ => ?_, fun t₀ count hpos => ?_⟩
  · rw [pipe_run, Verif.pipe, loop_unfold, Verif.pipeBody]
    rw [show (TestProducer.producer test I F E).toProducer.seq.produce s' = panic from hp]; rfl
  · rw [pipeAtMost_run, Verif.pipeAtMost, loop_unfold, Verif.pipeAtMostBody, if_pos hpos]
    rw [show (TestProducer.producer test I F E).toProducer.seq.produce s' = panic from hp]; rfl

/-- **C110**: the same for `bulk_pipe` and `bulk_pipe_at_most`. -/
theorem test_producer_bulk_pipe_again (test : Bool) {C C' : BulkConsumer τ I F E₂} {D : τ → List I → Option F → Prop} {c : Script I F E}
    {q : Policy I F E₂} {dc : CloseDrops C.toConsumer} {s s' : TestProducer I F E} {t t' : τ} {l : List I} {m : Nat} {f : F}
    (hs : Verif.TestProducer.Ready test s c m) (hC : BulkCollects C.seq D q t l)
    (h : (∃ k, (bulkPipe (TestProducer.producer test I F E) C s t).Pending k ∧ BulkPipeClosing dc s t k f s' t') ∨
      ∃ count n k, (bulkPipeAtMost (TestProducer.producer test I F E) C s t count).Pending k ∧
        BulkPipeAtMostClosing dc s t count k n f s' t') :
    (∀ t₀, (bulkPipe (TestProducer.producer test I F E) C' s' t₀).run = panic) ∧
    ∀ t₀ count, 0 < count → (bulkPipeAtMost (TestProducer.producer test I F E) C' s' t₀ count).run = panic := by
  have hP : BulkPlaysLaw (TestProducer.producer test I F E).seq (Verif.TestProducer.Ready test) := by
    rw [testProducer_seq]; exact Verif.TestProducer.law test
  obtain ⟨S, hS, sl, ht⟩ := hC
  have hp : (TestProducer.producer test I F E).seq.exposeItems s' = panic := by
    obtain ⟨s₁, c', m', hr, h1⟩ : ∃ s₁ c' m', Verif.TestProducer.Ready test s₁ c' m' ∧
        (TestProducer.producer test I F E).seq.exposeItems s₁ = ok (s', .ok (.inr f)) := by
      rcases h with ⟨k, h, hk⟩ | ⟨count, n, k, h, hk⟩
      · obtain ⟨xs, s₁, t₁, hx, ha, ⟨m', hs₁⟩, ht₁, h'⟩ := bulk_pipe_left hP hS hs ht h
        cases hk with
        | mk hd =>
          rcases h' with ⟨kp, hk, hp⟩ | ⟨s₂, ys, kc, hk, _⟩ | ⟨s₂, ys, t₂, n, kp, hk, _⟩ | ⟨s₂, f, kc, hk, hc, hp⟩ <;> cases hk
          exact ⟨s₁, _, m', hs₁, (Fut.pending_right (Fut.pending_loop h).2).1⟩
      · obtain ⟨xs, s₁, t₁, k', rfl, hlt, hx, ha, ⟨m', hs₁⟩, ht₁, h'⟩ := bulk_pipe_at_most_left hP hS hs ht h
        cases hk with
        | mk hk' hd =>
          rcases h' with ⟨kp, hk, hp⟩ | ⟨s₂, ys, kc, hk, _⟩ | ⟨s₂, ys, t₂, n, kp, hk, _⟩ | ⟨s₂, f, kc, hk, hc, hp⟩ <;>
            cases eq_of_heq (hk.symm.trans hk')
          obtain ⟨_, k₂, hkk, hb⟩ := Fut.pending_ite (p := xs.length < count)
            (f := bulkPipeAtMostStep (TestProducer.producer test I F E) C count s₁ t₁ xs.length)
            (a := .done ((s₁, t₁), .ok xs.length)) (Fut.pending_loop h).2
          cases eq_of_heq (hkk.symm.trans hk)
          exact ⟨s₁, _, m', hs₁, (Fut.pending_right hb).1⟩
    rw [testProducer_seq] at h1 ⊢
    exact (test_producer_spent test hr).2 h1
  refine ⟨fun t₀ => ?_, fun t₀ count hpos => ?_⟩
  · rw [bulkPipe_run, Verif.bulkPipe, loop_unfold, Verif.bulkPipeBody]
    rw [hp]; rfl
  · rw [bulkPipeAtMost_run, Verif.bulkPipeAtMost, loop_unfold, Verif.bulkPipeAtMostBody, if_pos hpos]
    rw [hp]; rfl

/-! ## Cases -/

namespace Case

/-- An item, then a final value. -/
def one : TestProducer Nat Unit String := TestProducer.new [7] (.ok ()) [] none

theorem one_ready : Verif.TestProducer.Ready false one (Script.ofList [7] (.ok ())) 0 :=
  Verif.TestProducer.ready_new false [7] (.ok ()) [] _

/-- The items with which `one` begins and after which it ends. -/
theorem one_items {xs : List Nat} (h : (Script.ofList [7] (.ok ()) : Script Nat Unit String).StartsWith xs) (hl : xs.length = 1) : xs = [7] := by
  obtain ⟨x, rfl⟩ := List.length_eq_one_iff.1 hl
  have := h 0 x rfl
  simp [Script.ofList] at this
  rw [this]

/-- An `IntoVec` that is pending when it is closed. -/
noncomputable def lastVec : BulkConsumer (IntoVec Nat) Nat Unit Empty :=
  { V with close := fun s f => do pause; V.close s f }

theorem lastVec_close (s : IntoVec Nat) (f : Unit) : (lastVec.close s f).run = (V.close s f).run :=
  (Fut.run_bind _ _).trans (by rw [pause_run]; rfl)

theorem lastVec_seq : lastVec.seq = V.seq := by
  have h : lastVec.seq.close = V.seq.close := funext fun s => funext fun f => lastVec_close s f
  have e : lastVec.seq = { V.seq with close := lastVec.seq.close } := rfl
  rw [e, h]

theorem lastVec_law : BulkCollectsLaw lastVec.seq (fun s l _ => s.asRef = ok l ∧ s.intoVec = l) Policy.acceptAll IntoVec.Ready := by
  rw [lastVec_seq]; exact V_law

/-- While it is pending, nothing has happened. -/
def lastVecDrops : CloseDrops lastVec.toConsumer where
  close t _ _ t' := t' = t

theorem lastVec_tolerated : lastVecDrops.Tolerated (fun t l => ∃ sl, IntoVec.Ready t l sl) where
  close := by intro t l f k t' h _ he; cases he; exact h

end Case

/-- `bulk_pipe_at_most` of at most five items is dropped while `close` is pending: the item is in the vector, starting again panics. -/
example : ∃ k s' t', (bulkPipeAtMost Case.TP Case.lastVec Case.one .new 5).Pending k ∧
    BulkPipeAtMostClosing Case.lastVecDrops Case.one .new 5 k 1 () s' t' ∧
    t'.intoVec = [7] ∧ ∀ t₀, (bulkPipeAtMost Case.TP Case.lastVec s' t₀ 5).run = panic := by
  have h : (bulkPipeAtMost Case.TP Case.lastVec Case.one .new 5).poll (bulkPipeAtMost Case.TP Case.lastVec Case.one .new 5).start =
      ok (.pending ⟨(_, _, 1), .inr ⟨(_, .ok (.inr ())), .inl _⟩⟩) := loop_eq_of_fuel (n := 2) nofun
  obtain ⟨k, hk, s', t', hd⟩ := Fut.first_pending (Q := fun k => ∃ s' t', BulkPipeAtMostClosing Case.lastVecDrops Case.one .new 5 k 1 () s' t')
    h ⟨_, _, .mk (n := 1) HEq.rfl rfl⟩
  obtain ⟨xs, hl, _, hx, _, hC, _⟩ := bulk_pipe_at_most_closing Case.TP_law Case.lastVec_law Case.lastVec_tolerated
    Case.one_ready (IntoVec.ready_fromVec []) hk hd
  obtain rfl := Case.one_items hx hl
  exact ⟨k, s', t', hk, hd, hC.toCollects.observe.2, fun t₀ => (test_producer_bulk_pipe_again false Case.one_ready
    (⟨_, Case.lastVec_law, _, IntoVec.ready_fromVec []⟩ : BulkCollects _ _ _ _ []) (.inr ⟨_, _, _, hk, hd⟩)).2 t₀ 5 (by decide)⟩

/-- The same for `bulk_pipe`. -/
example : ∃ k s' t', (bulkPipe Case.TP Case.lastVec Case.one .new).Pending k ∧ BulkPipeClosing Case.lastVecDrops Case.one .new k () s' t' ∧
    t'.intoVec = [7] ∧ ∀ t₀, (bulkPipe Case.TP Case.lastVec s' t₀).run = panic := by
  have h : (bulkPipe Case.TP Case.lastVec Case.one .new).poll (bulkPipe Case.TP Case.lastVec Case.one .new).start =
      ok (.pending ⟨(_, _), .inr ⟨(_, .ok (.inr ())), .inl _⟩⟩) := loop_eq_of_fuel (n := 2) nofun
  obtain ⟨k, hk, s', t', hd⟩ := Fut.first_pending (Q := fun k => ∃ s' t', BulkPipeClosing Case.lastVecDrops Case.one .new k () s' t')
    h ⟨_, _, .mk rfl⟩
  obtain ⟨xs, hx, he, hC, _⟩ := bulk_pipe_closing Case.TP_law Case.lastVec_law Case.lastVec_tolerated
    Case.one_ready (IntoVec.ready_fromVec []) hk hd
  have hl : xs.length = 1 := by
    rcases xs with _ | ⟨x, _ | ⟨y, xs⟩⟩
    · cases he
    · rfl
    · cases hx 1 y rfl
  obtain rfl := Case.one_items hx hl
  exact ⟨k, s', t', hk, hd, hC.toCollects.observe.2, (test_producer_bulk_pipe_again false Case.one_ready
    (⟨_, Case.lastVec_law, _, IntoVec.ready_fromVec []⟩ : BulkCollects _ _ _ _ []) (.inl ⟨_, hk, hd⟩)).1⟩

/-- The same for `pipe_at_most`. -/
example : ∃ k s' t', (pipeAtMost Case.TP.toProducer Case.lastVec.toConsumer Case.one .new 5).Pending k ∧
    PipeAtMostClosing Case.lastVecDrops Case.one .new 5 k 1 () s' t' ∧
    t'.intoVec = [7] ∧ ∀ t₀, (pipeAtMost Case.TP.toProducer Case.lastVec.toConsumer s' t₀ 5).run = panic := by
  have h : (pipeAtMost Case.TP.toProducer Case.lastVec.toConsumer Case.one .new 5).poll
      (pipeAtMost Case.TP.toProducer Case.lastVec.toConsumer Case.one .new 5).start =
      ok (.pending ⟨(_, _, 1), .inr ⟨(_, .ok (.inr ())), .inl _⟩⟩) := loop_eq_of_fuel (n := 2) nofun
  obtain ⟨k, hk, s', t', hd⟩ := Fut.first_pending (Q := fun k => ∃ s' t', PipeAtMostClosing Case.lastVecDrops Case.one .new 5 k 1 () s' t')
    h ⟨_, _, .mk (n := 1) HEq.rfl rfl⟩
  obtain ⟨xs, hl, _, hx, _, hC, _⟩ := pipe_at_most_dropped_closing Case.TP_law.base.toPlaysLaw Case.lastVec_law.base.toCollectsLaw
    Case.lastVec_tolerated ⟨0, Case.one_ready⟩ ⟨_, IntoVec.ready_fromVec []⟩ hk hd
  obtain rfl := Case.one_items hx hl
  exact ⟨k, s', t', hk, hd, hC.observe.2, fun t₀ => (test_producer_pipe_again false Case.one_ready
    (⟨_, Case.lastVec_law.base.toCollectsLaw, _, IntoVec.ready_fromVec []⟩ : Collects _ _ _ _ []) (.inr ⟨_, _, _, hk, hd⟩)).2 t₀ 5 (by decide)⟩

/-- The same for `pipe`. -/
example : ∃ k s' t', (pipe Case.TP.toProducer Case.lastVec.toConsumer Case.one .new).Pending k ∧
    PipeClosing Case.lastVecDrops Case.one .new k () s' t' ∧ t'.intoVec = [7] ∧ ∀ t₀, (pipe Case.TP.toProducer Case.lastVec.toConsumer s' t₀).run = panic := by
  have h : (pipe Case.TP.toProducer Case.lastVec.toConsumer Case.one .new).poll
      (pipe Case.TP.toProducer Case.lastVec.toConsumer Case.one .new).start =
      ok (.pending ⟨(_, _), .inr ⟨(_, .ok (.inr ())), .inl _⟩⟩) := loop_eq_of_fuel (n := 2) nofun
  obtain ⟨k, hk, s', t', hd⟩ := Fut.first_pending (Q := fun k => ∃ s' t', PipeClosing Case.lastVecDrops Case.one .new k () s' t')
    h ⟨_, _, .mk rfl⟩
  obtain ⟨xs, hx, he, hC, _⟩ := pipe_dropped_closing Case.TP_law.base.toPlaysLaw Case.lastVec_law.base.toCollectsLaw Case.lastVec_tolerated
    ⟨0, Case.one_ready⟩ ⟨_, IntoVec.ready_fromVec []⟩ hk hd
  have hl : xs.length = 1 := by
    rcases xs with _ | ⟨x, _ | ⟨y, xs⟩⟩
    · cases he
    · rfl
    · cases hx 1 y rfl
  obtain rfl := Case.one_items hx hl
  exact ⟨k, s', t', hk, hd, hC.observe.2, (test_producer_pipe_again false Case.one_ready
    (⟨_, Case.lastVec_law.base.toCollectsLaw, _, IntoVec.ready_fromVec []⟩ : Collects _ _ _ _ []) (.inl ⟨_, hk, hd⟩)).1⟩

end Verif.Async
