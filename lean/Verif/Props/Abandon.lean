import Verif.Lemmas.Abandon
import Verif.Props.AsyncTransfer

/-!
# Abandoned pipes (C76)

A future may be dropped before it has completed; a producer or consumer with a call that was dropped must not be used any more.
When one of the piping functions is dropped, only one of the producer and the consumer has such a call; the other one may still be
used. These theorems say how much it has produced or consumed. `k` is the state in which the future was dropped.
-/

namespace Verif.Async

open Outcome

variable {σ τ I F E E₁ E₂ : Type}

/-- Produces 1, 2, 3, without ever being pending. -/
def readyProducer : TestProducer Nat Unit String := TestProducer.new [1, 2, 3] (.ok ()) [] none

noncomputable abbrev Case.TP : BulkProducer (TestProducer Nat Unit String) Nat Unit String := TestProducer.producer false Nat Unit String

noncomputable abbrev Case.TC : BulkConsumer (TestConsumer Nat Unit String) Nat Unit String := TestConsumer.consumer false Nat Unit String

theorem Case.slow_bulk_plays : BulkPlays Case.TP.seq slowProducer (Script.ofList [1, 2, 3] (.ok ())) := by
  rw [testProducer_seq]; exact test_producer_plays false [1, 2, 3] (.ok ()) [] _

theorem Case.ready_bulk_plays : BulkPlays Case.TP.seq readyProducer (Script.ofList [1, 2, 3] (.ok ())) := by
  rw [testProducer_seq]; exact test_producer_plays false [1, 2, 3] (.ok ()) [] _

theorem Case.slow_collects : BulkCollects Case.TC.seq TestConsumer.Seen (.failAfter 5 "full") slowConsumer [] := by
  rw [testConsumer_seq]; exact test_consumer_collects false "full" 5 [] _


/-- **C76**, `pipe`. Some items `xs` have been moved. If a call of the producer is pending, then the consumer has consumed exactly
`xs`. If a call of the consumer is pending, then the producer has emitted exactly `xs` and the item (or final value) that was passed to
that call, which alone may be lost. -/
theorem pipe_abandoned {P : Producer σ I F E₁} {C : Consumer τ I F E₂} {D : τ → List I → Option F → Prop} {c : Script I F E₁}
    {q : Policy I F E₂} {s : σ} {t : τ} {l : List I} (hP : Plays P.seq s c) (hC : Collects C.seq D q t l)
    {k : (pipe P C s t).κ} (h : (pipe P C s t).Pending k) :
    ∃ xs s₁ t₁, c.StartsWith xs ∧ Plays P.seq s₁ (c.drop xs.length) ∧ Collects C.seq D q t₁ (l ++ xs) ∧
      ((∃ kp, k = ⟨(s₁, t₁), .inl kp⟩ ∧ (P.produce s₁).Pending kp) ∨
       (∃ s₂ x kc, k = ⟨(s₁, t₁), .inr ⟨(s₂, .ok (.inl x)), .inl kc⟩⟩ ∧ c xs.length = .ok (.inl x) ∧
          Plays P.seq s₂ (c.drop (xs.length + 1)) ∧ (C.consume t₁ x).Pending kc) ∨
       (∃ s₂ f kc, k = ⟨(s₁, t₁), .inr ⟨(s₂, .ok (.inr f)), .inl kc⟩⟩ ∧ c xs.length = .ok (.inr f) ∧ (C.close t₁ f).Pending kc)) := by
  obtain ⟨⟨s₁, t₁⟩, k⟩ := k
  obtain ⟨hi, hk⟩ := Fut.pending_loop h
  obtain ⟨xs, hx, hP₁, hC₁⟩ := hi.keeps (Inv := fun x => ∃ xs, c.StartsWith xs ∧ Plays P.seq x.1 (c.drop xs.length) ∧
    Collects C.seq D q x.2 (l ++ xs)) ⟨[], by simp, by simpa using hP, by simpa using hC⟩ (by
    rintro ⟨s₁, t₁⟩ ⟨s₂, t₂⟩ ⟨xs, hx, hP₁, hC₁⟩ hr
    obtain ⟨s', h1, h2⟩ := hP₁.step
    rw [pipeBody_run, Verif.pipeBody] at hr
    rcases hc : (c.drop xs.length) 0 with e | x | f <;> simp only [h1, hc, bind_eq, bind_ok] at hr
    · cases hr
    · rcases hq : q.answer (l ++ xs) x with _ | e
      · obtain ⟨t', h3, h4⟩ := hC₁.consume_ok x hq
        simp only [h3, bind_ok] at hr
        cases hr
        refine ⟨xs ++ [x], hx.append (by simpa [Script.startsWith_cons] using hc), ?_, by simpa using h4⟩
        simpa using h2 x hc
      · obtain ⟨t', h3, h4⟩ := hC₁.consume_err x hq
        simp only [h3, bind_ok] at hr
        cases hr
    · rcases hq : q.refuseClose (l ++ xs) f with _ | e
      · obtain ⟨t', h3, h4⟩ := hC₁.close_ok f hq
        simp only [h3, bind_ok] at hr
        cases hr
      · obtain ⟨t', h3, h4⟩ := hC₁.close_err f hq
        simp only [h3, bind_ok] at hr
        cases hr)
  refine ⟨xs, s₁, t₁, hx, hP₁, hC₁, ?_⟩
  rcases Fut.pending_bind hk with ⟨kp, rfl, hk'⟩ | ⟨⟨s₂, r⟩, k', rfl, hr, hk'⟩
  · exact .inl ⟨kp, rfl, hk'⟩
  · right
    obtain ⟨s', h1, h2⟩ := hP₁.step
    obtain ⟨rfl, hc⟩ : s' = s₂ ∧ (c.drop xs.length) 0 = r := by simpa using h1.symm.trans hr
    rcases r with e | x | f
    · exact (Fut.not_pending_pure hk').elim
    · rcases Fut.pending_bind hk' with ⟨kc, rfl, hk''⟩ | ⟨⟨t₂, e | ⟨⟩⟩, k', rfl, _, hk''⟩
      · exact .inl ⟨s', x, kc, rfl, by simpa using hc, by simpa using h2 x hc, hk''⟩
      · exact (Fut.not_pending_pure hk'').elim
      · exact (Fut.not_pending_pure hk'').elim
    · rcases Fut.pending_bind hk' with ⟨kc, rfl, hk''⟩ | ⟨⟨t₂, e | ⟨⟩⟩, k', rfl, _, hk''⟩
      · exact .inr ⟨s', f, kc, rfl, by simpa using hc, hk''⟩
      · exact (Fut.not_pending_pure hk'').elim
      · exact (Fut.not_pending_pure hk'').elim

/-- After the first poll, the producer's call is pending. -/
example : ∃ k, (pipe Case.TP.toProducer Case.TC.toConsumer slowProducer slowConsumer).Pending k :=
  have h : (pipe Case.TP.toProducer Case.TC.toConsumer slowProducer slowConsumer).poll 
      (pipe Case.TP.toProducer Case.TC.toConsumer slowProducer slowConsumer).start = ok (.pending _) :=
    loop_eq_of_fuel (n := 1) nofun
  have := pipe_abandoned Case.slow_bulk_plays.toPlays Case.slow_collects.toCollects (.first h)
  ⟨_, .first h⟩

/-- After the first poll, the consumer's call is pending. -/
example : ∃ k, (pipe Case.TP.toProducer Case.TC.toConsumer readyProducer slowConsumer).Pending k :=
  have h : (pipe Case.TP.toProducer Case.TC.toConsumer readyProducer slowConsumer).poll 
      (pipe Case.TP.toProducer Case.TC.toConsumer readyProducer slowConsumer).start = ok (.pending _) :=
    loop_eq_of_fuel (n := 1) nofun
  have := pipe_abandoned Case.ready_bulk_plays.toPlays Case.slow_collects.toCollects (.first h)
  ⟨_, .first h⟩

/-- What holds when `bulk_pipe` is dropped, for given invariants `R` of the producer and `S` of the consumer. -/
theorem bulk_pipe_left {P : BulkProducer σ I F E₁} {C : BulkConsumer τ I F E₂} {D : τ → List I → Option F → Prop}
    {c : Script I F E₁} {q : Policy I F E₂} {R : σ → Script I F E₁ → Nat → Prop} {S : τ → List I → List I → Prop} {s : σ} {t : τ}
    {l sl : List I} {m : Nat} (hR : BulkPlaysLaw P.seq R) (hS : BulkCollectsLaw C.seq D q S) (hm : R s c m) (hsl : S t l sl)
    {k : (bulkPipe P C s t).κ} (h : (bulkPipe P C s t).Pending k) :
    ∃ xs s₁ t₁, c.StartsWith xs ∧ q.Accepts l xs ∧ (∃ m, R s₁ (c.drop xs.length) m) ∧ (∃ sl, S t₁ (l ++ xs) sl) ∧
      ((∃ kp, k = ⟨(s₁, t₁), .inl kp⟩ ∧ (P.exposeItems s₁).Pending kp) ∨
       (∃ s₂ ys kc, k = ⟨(s₁, t₁), .inr ⟨(s₂, .ok (.inl ys)), .inl kc⟩⟩ ∧ ys ≠ [] ∧ c.StartsWith (xs ++ ys) ∧
          R s₂ (c.drop xs.length) ys.length ∧ (C.bulkConsume t₁ ys).Pending kc) ∨
       (∃ s₂ ys t₂ n kp, k = ⟨(s₁, t₁), .inr ⟨(s₂, .ok (.inl ys)), .inr ⟨(t₂, .ok n), .inl kp⟩⟩⟩ ∧ c.StartsWith (xs ++ ys) ∧
          0 < n ∧ n ≤ ys.length ∧ R s₂ (c.drop xs.length) ys.length ∧ q.Accepts l (xs ++ ys.take n) ∧
          (∃ sl, S t₂ (l ++ xs ++ ys.take n) sl) ∧ (P.considerProduced s₂ n).Pending kp) ∨
       (∃ s₂ f kc, k = ⟨(s₁, t₁), .inr ⟨(s₂, .ok (.inr f)), .inl kc⟩⟩ ∧ c xs.length = .ok (.inr f) ∧ (C.close t₁ f).Pending kc)) := by
  obtain ⟨⟨s₁, t₁⟩, k⟩ := k
  obtain ⟨hi, hk⟩ := Fut.pending_loop h
  obtain ⟨xs, hx, ha, ⟨m, hm⟩, ⟨sl, hsl⟩⟩ := hi.keeps (Inv := fun x => ∃ xs, c.StartsWith xs ∧ q.Accepts l xs ∧
    (∃ m, R x.1 (c.drop xs.length) m) ∧ ∃ sl, S x.2 (l ++ xs) sl)
    ⟨[], by simp, Policy.accepts_nil, ⟨m, by simpa using hm⟩, sl, by simpa using hsl⟩ (by
    rintro ⟨s₁, t₁⟩ ⟨s₂, t₂⟩ ⟨xs, hx, ha, ⟨m, hm⟩, ⟨sl, hsl⟩⟩ hr
    rw [bulkPipeBody_run, Verif.bulkPipeBody] at hr
    obtain ⟨s', ⟨ys, hne, hys, h1, h2⟩ | ⟨f, hf, h1⟩ | ⟨e, he, h1⟩⟩ := hR.expose _ _ _ hm <;>
      simp only [h1, bind_eq, bind_ok] at hr
    · obtain ⟨t', ⟨n, hn, hn', hacc, h3, sl', h4⟩ | ⟨i, e, _, h3, _⟩⟩ := hS.bulkConsume _ _ _ ys hsl hne <;>
        simp only [h3, bind_ok] at hr
      · obtain ⟨s'', h5, h6⟩ := hR.consider _ _ _ n h2 (by omega) hn'
        simp only [h5, bind_ok] at hr
        cases hr
        refine ⟨xs ++ ys.take n, hx.append (hys.take n), Policy.accepts_append.2 ⟨ha, hacc⟩, ⟨ys.length - n, ?_⟩, sl', by simpa using h4⟩
        simpa [Nat.min_eq_left hn'] using h6
      · cases hr
    · rcases hq : q.refuseClose (l ++ xs) f with _ | e
      · obtain ⟨t', h3, _⟩ := hS.base.close_ok _ _ f ⟨sl, hsl⟩ hq
        simp only [h3, bind_ok] at hr
        cases hr
      · obtain ⟨t', h3, _⟩ := hS.base.close_err _ _ f e ⟨sl, hsl⟩ hq
        simp only [h3, bind_ok] at hr
        cases hr
    · cases hr)
  refine ⟨xs, s₁, t₁, hx, ha, ⟨m, hm⟩, ⟨sl, hsl⟩, ?_⟩
  rcases Fut.pending_bind hk with ⟨kp, rfl, hk'⟩ | ⟨⟨s₂, r⟩, k', rfl, hr, hk'⟩
  · exact .inl ⟨kp, rfl, hk'⟩
  · right
    obtain ⟨s', ⟨ys, hne, hys, h1, h2⟩ | ⟨f, hf, h1⟩ | ⟨e, he, h1⟩⟩ := hR.expose _ _ _ hm <;> cases h1.symm.trans hr
    · rcases Fut.pending_bind hk' with ⟨kc, rfl, hk''⟩ | ⟨⟨t₂, e | n⟩, k', rfl, hr', hk''⟩
      · exact .inl ⟨_, ys, kc, rfl, hne, hx.append hys, h2, hk''⟩
      · exact (Fut.not_pending_pure hk'').elim
      · right; left
        obtain ⟨t', ⟨n, hn, hn', hacc, h3, sl', h4⟩ | ⟨i, e, _, h3, _⟩⟩ := hS.bulkConsume _ _ _ ys hsl hne <;>
          cases h3.symm.trans hr'
        rcases Fut.pending_bind hk'' with ⟨kc, rfl, hk₃⟩ | ⟨⟨s₃, e | ⟨⟩⟩, k', rfl, _, hk₃⟩
        · exact ⟨_, ys, _, n, kc, rfl, hx.append hys, hn, hn', h2, Policy.accepts_append.2 ⟨ha, hacc⟩, ⟨sl', h4⟩, hk₃⟩
        · exact (Fut.not_pending_pure hk₃).elim
        · exact (Fut.not_pending_pure hk₃).elim
    · rcases Fut.pending_bind hk' with ⟨kc, rfl, hk''⟩ | ⟨⟨t₂, e | ⟨⟩⟩, k', rfl, _, hk''⟩
      · exact .inr (.inr ⟨_, f, kc, rfl, by simpa using hf, hk''⟩)
      · exact (Fut.not_pending_pure hk'').elim
      · exact (Fut.not_pending_pure hk'').elim
    · exact (Fut.not_pending_pure hk').elim

/-- **C76**, `bulk_pipe`. Some items `xs` have been moved. If a call of the producer is pending, then the consumer has consumed
exactly `xs`, and, if that call is the one of `consider_produced`, the items that it is about. If a call of the consumer is pending,
then the producer will emit everything after `xs`: nothing is lost. -/
theorem bulk_pipe_abandoned {P : BulkProducer σ I F E₁} {C : BulkConsumer τ I F E₂} {D : τ → List I → Option F → Prop}
    {c : Script I F E₁} {q : Policy I F E₂} {s : σ} {t : τ} {l : List I} (hP : BulkPlays P.seq s c) (hC : BulkCollects C.seq D q t l)
    {k : (bulkPipe P C s t).κ} (h : (bulkPipe P C s t).Pending k) :
    ∃ xs s₁ t₁, c.StartsWith xs ∧ BulkPlays P.seq s₁ (c.drop xs.length) ∧ BulkCollects C.seq D q t₁ (l ++ xs) ∧
      ((∃ kp, k = ⟨(s₁, t₁), .inl kp⟩ ∧ (P.exposeItems s₁).Pending kp) ∨
       (∃ s₂ ys kc, k = ⟨(s₁, t₁), .inr ⟨(s₂, .ok (.inl ys)), .inl kc⟩⟩ ∧ c.StartsWith (xs ++ ys) ∧
          BulkPlays P.seq s₂ (c.drop xs.length) ∧ (C.bulkConsume t₁ ys).Pending kc) ∨
       (∃ s₂ ys t₂ n kp, k = ⟨(s₁, t₁), .inr ⟨(s₂, .ok (.inl ys)), .inr ⟨(t₂, .ok n), .inl kp⟩⟩⟩ ∧ c.StartsWith (xs ++ ys) ∧
          n ≤ ys.length ∧ BulkCollects C.seq D q t₂ (l ++ xs ++ ys.take n) ∧ (P.considerProduced s₂ n).Pending kp) ∨
       (∃ s₂ f kc, k = ⟨(s₁, t₁), .inr ⟨(s₂, .ok (.inr f)), .inl kc⟩⟩ ∧ c xs.length = .ok (.inr f) ∧ (C.close t₁ f).Pending kc)) := by
  obtain ⟨R, hR, m, hm⟩ := hP
  obtain ⟨S, hS, sl, hsl⟩ := hC
  obtain ⟨xs, s₁, t₁, hx, _, ⟨m, hm⟩, ⟨sl, hsl⟩, h⟩ := bulk_pipe_left hR hS hm hsl h
  refine ⟨xs, s₁, t₁, hx, ⟨R, hR, m, hm⟩, ⟨S, hS, sl, hsl⟩, ?_⟩
  rcases h with h | ⟨s₂, ys, kc, h1, _, h2, h3, h4⟩ | ⟨s₂, ys, t₂, n, kp, h1, h2, _, h3, _, _, ⟨sl, h4⟩, h5⟩ | h
  · exact .inl h
  · exact .inr (.inl ⟨s₂, ys, kc, h1, h2, ⟨R, hR, _, h3⟩, h4⟩)
  · exact .inr (.inr (.inl ⟨s₂, ys, t₂, n, kp, h1, h2, h3, ⟨S, hS, sl, h4⟩, h5⟩))
  · exact .inr (.inr (.inr h))

/-! ## Bounded pipes -/

/-- After the first poll, the producer's call is pending. -/
example : ∃ k, (bulkPipe Case.TP Case.TC slowProducer slowConsumer).Pending k :=
  have h : (bulkPipe Case.TP Case.TC slowProducer slowConsumer).poll 
      (bulkPipe Case.TP Case.TC slowProducer slowConsumer).start = ok (.pending _) :=
    loop_eq_of_fuel (n := 1) nofun
  have := bulk_pipe_abandoned Case.slow_bulk_plays Case.slow_collects (.first h)
  ⟨_, .first h⟩

/-- After the first poll, the consumer's call is pending. -/
example : ∃ k, (bulkPipe Case.TP Case.TC readyProducer slowConsumer).Pending k :=
  have h : (bulkPipe Case.TP Case.TC readyProducer slowConsumer).poll 
      (bulkPipe Case.TP Case.TC readyProducer slowConsumer).start = ok (.pending _) :=
    loop_eq_of_fuel (n := 1) nofun
  have := bulk_pipe_abandoned Case.ready_bulk_plays Case.slow_collects (.first h)
  ⟨_, .first h⟩

/-- **C76**, `pipe_at_most`: as `pipe`, and fewer than `count` items have been moved. -/
theorem pipe_at_most_abandoned {P : Producer σ I F E₁} {C : Consumer τ I F E₂} {D : τ → List I → Option F → Prop} {c : Script I F E₁}
    {q : Policy I F E₂} {s : σ} {t : τ} {count : Nat} {l : List I} (hP : Plays P.seq s c) (hC : Collects C.seq D q t l)
    {k : (pipeAtMost P C s t count).κ} (h : (pipeAtMost P C s t count).Pending k) :
    ∃ xs s₁ t₁ k', k = ⟨(s₁, t₁, xs.length), k'⟩ ∧ xs.length < count ∧ c.StartsWith xs ∧ Plays P.seq s₁ (c.drop xs.length) ∧
      Collects C.seq D q t₁ (l ++ xs) ∧
      ((∃ kp, HEq k' (Sum.inl kp : (pipeAtMostStep P C s₁ t₁ xs.length).κ) ∧ (P.produce s₁).Pending kp) ∨
       (∃ s₂ x kc, HEq k' (Sum.inr ⟨(s₂, .ok (.inl x)), .inl kc⟩ : (pipeAtMostStep P C s₁ t₁ xs.length).κ) ∧
          c xs.length = .ok (.inl x) ∧ Plays P.seq s₂ (c.drop (xs.length + 1)) ∧ (C.consume t₁ x).Pending kc) ∨
       (∃ s₂ f kc, HEq k' (Sum.inr ⟨(s₂, .ok (.inr f)), .inl kc⟩ : (pipeAtMostStep P C s₁ t₁ xs.length).κ) ∧
          c xs.length = .ok (.inr f) ∧ (C.close t₁ f).Pending kc)) := by
  obtain ⟨⟨s₁, t₁, n⟩, k⟩ := k
  obtain ⟨hi, hk⟩ := Fut.pending_loop h
  obtain ⟨xs, rfl, hx, hP₁, hC₁⟩ := hi.keeps (Inv := fun x => ∃ xs : List I, xs.length = x.2.2 ∧ c.StartsWith xs ∧
    Plays P.seq x.1 (c.drop xs.length) ∧ Collects C.seq D q x.2.1 (l ++ xs))
    ⟨[], rfl, by simp, by simpa using hP, by simpa using hC⟩ (by
    rintro ⟨s₁, t₁, n⟩ ⟨s₂, t₂, n'⟩ ⟨xs, rfl, hx, hP₁, hC₁⟩ hr
    obtain ⟨s', h1, h2⟩ := hP₁.step
    rw [pipeAtMostBody_run, Verif.pipeAtMostBody] at hr
    split at hr
    · rcases hc : (c.drop xs.length) 0 with e | x | f <;> simp only [h1, hc, bind_eq, bind_ok] at hr
      · cases hr
      · rcases hq : q.answer (l ++ xs) x with _ | e
        · obtain ⟨t', h3, h4⟩ := hC₁.consume_ok x hq
          simp only [h3, bind_ok] at hr
          cases hr
          refine ⟨xs ++ [x], by simp, hx.append (by simpa [Script.startsWith_cons] using hc), ?_, by simpa using h4⟩
          simpa using h2 x hc
        · obtain ⟨t', h3, h4⟩ := hC₁.consume_err x hq
          simp only [h3, bind_ok] at hr
          cases hr
      · rcases hq : q.refuseClose (l ++ xs) f with _ | e
        · obtain ⟨t', h3, h4⟩ := hC₁.close_ok f hq
          simp only [h3, bind_ok] at hr
          cases hr
        · obtain ⟨t', h3, h4⟩ := hC₁.close_err f hq
          simp only [h3, bind_ok] at hr
          cases hr
    · cases hr)
  obtain ⟨hlt, k', hkk, hk⟩ := Fut.pending_ite (p := xs.length < count) (f := pipeAtMostStep P C s₁ t₁ xs.length)
    (a := .done ((s₁, t₁), .ok xs.length)) hk
  refine ⟨xs, s₁, t₁, k, rfl, hlt, hx, hP₁, hC₁, ?_⟩
  rcases Fut.pending_bind hk with ⟨kp, rfl, hk'⟩ | ⟨⟨s₂, r⟩, k', rfl, hr, hk'⟩
  · exact .inl ⟨kp, hkk, hk'⟩
  · right
    obtain ⟨s', h1, h2⟩ := hP₁.step
    obtain ⟨rfl, hc⟩ : s' = s₂ ∧ (c.drop xs.length) 0 = r := by simpa using h1.symm.trans hr
    rcases r with e | x | f
    · exact (Fut.not_pending_pure hk').elim
    · rcases Fut.pending_bind hk' with ⟨kc, rfl, hk''⟩ | ⟨⟨t₂, e | ⟨⟩⟩, k', rfl, _, hk''⟩
      · exact .inl ⟨s', x, kc, hkk, by simpa using hc, by simpa using h2 x hc, hk''⟩
      · exact (Fut.not_pending_pure hk'').elim
      · exact (Fut.not_pending_pure hk'').elim
    · rcases Fut.pending_bind hk' with ⟨kc, rfl, hk''⟩ | ⟨⟨t₂, e | ⟨⟩⟩, k', rfl, _, hk''⟩
      · exact .inr ⟨s', f, kc, hkk, by simpa using hc, hk''⟩
      · exact (Fut.not_pending_pure hk'').elim
      · exact (Fut.not_pending_pure hk'').elim

/-- After the first poll, the producer's call is pending. -/
example : ∃ k, (pipeAtMost Case.TP.toProducer Case.TC.toConsumer slowProducer slowConsumer 2).Pending k :=
  have h : (pipeAtMost Case.TP.toProducer Case.TC.toConsumer slowProducer slowConsumer 2).poll 
      (pipeAtMost Case.TP.toProducer Case.TC.toConsumer slowProducer slowConsumer 2).start = ok (.pending _) :=
    loop_eq_of_fuel (n := 1) nofun
  have := pipe_at_most_abandoned Case.slow_bulk_plays.toPlays Case.slow_collects.toCollects (.first h)
  ⟨_, .first h⟩

/-- After the first poll, the consumer's call is pending. -/
example : ∃ k, (pipeAtMost Case.TP.toProducer Case.TC.toConsumer readyProducer slowConsumer 2).Pending k :=
  have h : (pipeAtMost Case.TP.toProducer Case.TC.toConsumer readyProducer slowConsumer 2).poll 
      (pipeAtMost Case.TP.toProducer Case.TC.toConsumer readyProducer slowConsumer 2).start = ok (.pending _) :=
    loop_eq_of_fuel (n := 1) nofun
  have := pipe_at_most_abandoned Case.ready_bulk_plays.toPlays Case.slow_collects.toCollects (.first h)
  ⟨_, .first h⟩

/-- For given invariants of the producer and of the consumer. -/
theorem bulk_pipe_at_most_left {P : BulkProducer σ I F E₁} {C : BulkConsumer τ I F E₂} {D : τ → List I → Option F → Prop}
    {c : Script I F E₁} {q : Policy I F E₂} {R : σ → Script I F E₁ → Nat → Prop} {S : τ → List I → List I → Prop} {s : σ} {t : τ}
    {count : Nat} {l sl : List I} {m : Nat} (hR : BulkPlaysLaw P.seq R) (hS : BulkCollectsLaw C.seq D q S) (hm : R s c m) (hsl : S t l sl)
    {k : (bulkPipeAtMost P C s t count).κ} (h : (bulkPipeAtMost P C s t count).Pending k) :
    ∃ xs s₁ t₁ k', k = ⟨(s₁, t₁, xs.length), k'⟩ ∧ xs.length < count ∧ c.StartsWith xs ∧ q.Accepts l xs ∧ (∃ m, R s₁ (c.drop xs.length) m) ∧
      (∃ sl, S t₁ (l ++ xs) sl) ∧
      ((∃ kp, HEq k' (Sum.inl kp : (bulkPipeAtMostStep P C count s₁ t₁ xs.length).κ) ∧ (P.exposeItems s₁).Pending kp) ∨
       (∃ s₂ ys kc, HEq k' (Sum.inr ⟨(s₂, .ok (.inl ys)), .inl kc⟩ : (bulkPipeAtMostStep P C count s₁ t₁ xs.length).κ) ∧
          ys ≠ [] ∧ c.StartsWith (xs ++ ys) ∧ R s₂ (c.drop xs.length) ys.length ∧
          (C.bulkConsume t₁ (ys.take (min (count - xs.length) ys.length))).Pending kc) ∨
       (∃ s₂ ys t₂ n kp, HEq k' (Sum.inr ⟨(s₂, .ok (.inl ys)), .inr ⟨(t₂, .ok n), .inl kp⟩⟩ :
            (bulkPipeAtMostStep P C count s₁ t₁ xs.length).κ) ∧ c.StartsWith (xs ++ ys) ∧
          n ≤ ys.length ∧ xs.length + n ≤ count ∧ (∃ sl, S t₂ (l ++ xs ++ ys.take n) sl) ∧
          (P.considerProduced s₂ n).Pending kp) ∨
       (∃ s₂ f kc, HEq k' (Sum.inr ⟨(s₂, .ok (.inr f)), .inl kc⟩ : (bulkPipeAtMostStep P C count s₁ t₁ xs.length).κ) ∧
          c xs.length = .ok (.inr f) ∧ (C.close t₁ f).Pending kc)) := by
  obtain ⟨⟨s₁, t₁, n⟩, k⟩ := k
  obtain ⟨hi, hk⟩ := Fut.pending_loop h
  obtain ⟨xs, rfl, hx, ha, ⟨m, hm⟩, ⟨sl, hsl⟩⟩ := hi.keeps (Inv := fun x => ∃ xs : List I, xs.length = x.2.2 ∧ c.StartsWith xs ∧ q.Accepts l xs ∧
    (∃ m, R x.1 (c.drop xs.length) m) ∧ ∃ sl, S x.2.1 (l ++ xs) sl)
    ⟨[], rfl, by simp, by simp, ⟨m, by simpa using hm⟩, sl, by simpa using hsl⟩ (by
    rintro ⟨s₁, t₁, n⟩ ⟨s₂, t₂, n'⟩ ⟨xs, rfl, hx, ha, ⟨m, hm⟩, ⟨sl, hsl⟩⟩ hr
    rw [bulkPipeAtMostBody_run, Verif.bulkPipeAtMostBody] at hr
    split at hr
    · next hlt =>
      obtain ⟨s', ⟨ys, hne, hys, h1, h2⟩ | ⟨f, hf, h1⟩ | ⟨e, he, h1⟩⟩ := hR.expose _ _ _ hm <;>
        simp only [h1, bind_eq, bind_ok] at hr
      · have hpos : 0 < ys.length := List.length_pos_iff.2 hne
        obtain ⟨t', ⟨n, hn, hn', hacc, h3, sl', h4⟩ | ⟨i, e, _, h3, _⟩⟩ := hS.bulkConsume _ _ _
            (ys.take (min (count - xs.length) ys.length)) hsl (by
              simp only [ne_eq, List.take_eq_nil_iff, not_or]
              exact ⟨by omega, hne⟩) <;>
          simp only [h3, bind_ok] at hr
        · rw [List.length_take] at hn'
          obtain ⟨s'', h5, h6⟩ := hR.consider _ _ _ n h2 hpos (by omega)
          simp only [h5, bind_ok] at hr
          cases hr
          rw [List.take_take, Nat.min_eq_left (by omega)] at h4 hacc
          refine ⟨xs ++ ys.take n, by simp; omega, hx.append (hys.take n), Policy.accepts_append.2 ⟨ha, hacc⟩, ⟨ys.length - n, ?_⟩, sl', by simpa using h4⟩
          simpa [Nat.min_eq_left (show n ≤ ys.length by omega)] using h6
        · cases hr
      · rcases hq : q.refuseClose (l ++ xs) f with _ | e
        · obtain ⟨t', h3, _⟩ := hS.base.close_ok _ _ f ⟨sl, hsl⟩ hq
          simp only [h3, bind_ok] at hr
          cases hr
        · obtain ⟨t', h3, _⟩ := hS.base.close_err _ _ f e ⟨sl, hsl⟩ hq
          simp only [h3, bind_ok] at hr
          cases hr
      · cases hr
    · cases hr)
  obtain ⟨hlt, k', hkk, hk⟩ := Fut.pending_ite (p := xs.length < count) (f := bulkPipeAtMostStep P C count s₁ t₁ xs.length)
    (a := .done ((s₁, t₁), .ok xs.length)) hk
  refine ⟨xs, s₁, t₁, k, rfl, hlt, hx, ha, ⟨m, hm⟩, ⟨sl, hsl⟩, ?_⟩
  rcases Fut.pending_bind hk with ⟨kp, rfl, hk'⟩ | ⟨⟨s₂, r⟩, k', rfl, hr, hk'⟩
  · exact .inl ⟨kp, hkk, hk'⟩
  · right
    obtain ⟨s', ⟨ys, hne, hys, h1, h2⟩ | ⟨f, hf, h1⟩ | ⟨e, he, h1⟩⟩ := hR.expose _ _ _ hm <;> cases h1.symm.trans hr
    · rcases Fut.pending_bind hk' with ⟨kc, rfl, hk''⟩ | ⟨⟨t₂, e | n⟩, k', rfl, hr', hk''⟩
      · exact .inl ⟨_, ys, kc, hkk, hne, hx.append hys, h2, hk''⟩
      · exact (Fut.not_pending_pure hk'').elim
      · right; left
        have hpos : 0 < ys.length := List.length_pos_iff.2 hne
        obtain ⟨t', ⟨n, hn, hn', _, h3, sl', h4⟩ | ⟨i, e, _, h3, _⟩⟩ := hS.bulkConsume _ _ _
            (ys.take (min (count - xs.length) ys.length)) hsl (by
              simp only [ne_eq, List.take_eq_nil_iff, not_or]
              exact ⟨by omega, hne⟩) <;>
          cases h3.symm.trans hr'
        rw [List.length_take] at hn'
        rw [List.take_take, Nat.min_eq_left (by omega)] at h4
        rcases Fut.pending_bind hk'' with ⟨kc, rfl, hk₃⟩ | ⟨⟨s₃, e | ⟨⟩⟩, k', rfl, _, hk₃⟩
        · exact ⟨_, ys, _, n, kc, hkk, hx.append hys, by omega, by omega, ⟨sl', h4⟩, hk₃⟩
        · exact (Fut.not_pending_pure hk₃).elim
        · exact (Fut.not_pending_pure hk₃).elim
    · rcases Fut.pending_bind hk' with ⟨kc, rfl, hk''⟩ | ⟨⟨t₂, e | ⟨⟩⟩, k', rfl, _, hk''⟩
      · exact .inr (.inr ⟨_, f, kc, hkk, by simpa using hf, hk''⟩)
      · exact (Fut.not_pending_pure hk'').elim
      · exact (Fut.not_pending_pure hk'').elim
    · exact (Fut.not_pending_pure hk').elim

/-- **C76**, `bulk_pipe_at_most`: as `bulk_pipe`, and fewer than `count` items have been moved. -/
theorem bulk_pipe_at_most_abandoned {P : BulkProducer σ I F E₁} {C : BulkConsumer τ I F E₂} {D : τ → List I → Option F → Prop}
    {c : Script I F E₁} {q : Policy I F E₂} {s : σ} {t : τ} {count : Nat} {l : List I} (hP : BulkPlays P.seq s c)
    (hC : BulkCollects C.seq D q t l) {k : (bulkPipeAtMost P C s t count).κ} (h : (bulkPipeAtMost P C s t count).Pending k) :
    ∃ xs s₁ t₁ k', k = ⟨(s₁, t₁, xs.length), k'⟩ ∧ xs.length < count ∧ c.StartsWith xs ∧ BulkPlays P.seq s₁ (c.drop xs.length) ∧
      BulkCollects C.seq D q t₁ (l ++ xs) ∧
      ((∃ kp, HEq k' (Sum.inl kp : (bulkPipeAtMostStep P C count s₁ t₁ xs.length).κ) ∧ (P.exposeItems s₁).Pending kp) ∨
       (∃ s₂ ys kc, HEq k' (Sum.inr ⟨(s₂, .ok (.inl ys)), .inl kc⟩ : (bulkPipeAtMostStep P C count s₁ t₁ xs.length).κ) ∧
          c.StartsWith (xs ++ ys) ∧ BulkPlays P.seq s₂ (c.drop xs.length) ∧
          (C.bulkConsume t₁ (ys.take (min (count - xs.length) ys.length))).Pending kc) ∨
       (∃ s₂ ys t₂ n kp, HEq k' (Sum.inr ⟨(s₂, .ok (.inl ys)), .inr ⟨(t₂, .ok n), .inl kp⟩⟩ :
            (bulkPipeAtMostStep P C count s₁ t₁ xs.length).κ) ∧ c.StartsWith (xs ++ ys) ∧
          n ≤ ys.length ∧ xs.length + n ≤ count ∧ BulkCollects C.seq D q t₂ (l ++ xs ++ ys.take n) ∧
          (P.considerProduced s₂ n).Pending kp) ∨
       (∃ s₂ f kc, HEq k' (Sum.inr ⟨(s₂, .ok (.inr f)), .inl kc⟩ : (bulkPipeAtMostStep P C count s₁ t₁ xs.length).κ) ∧
          c xs.length = .ok (.inr f) ∧ (C.close t₁ f).Pending kc)) := by
  obtain ⟨R, hR, m, hm⟩ := hP
  obtain ⟨S, hS, sl, hsl⟩ := hC
  obtain ⟨xs, s₁, t₁, k', h0, h1, h2, _, ⟨m, h3⟩, ⟨sl, h4⟩, h⟩ := bulk_pipe_at_most_left hR hS hm hsl h
  refine ⟨xs, s₁, t₁, k', h0, h1, h2, ⟨R, hR, m, h3⟩, ⟨S, hS, sl, h4⟩, ?_⟩
  rcases h with h | ⟨s₂, ys, kc, h1, _, h2, h3, h4⟩ | ⟨s₂, ys, t₂, n, kp, h1, h2, h3, h4, ⟨sl, h5⟩, h6⟩ | h
  · exact .inl h
  · exact .inr (.inl ⟨s₂, ys, kc, h1, h2, ⟨R, hR, _, h3⟩, h4⟩)
  · exact .inr (.inr (.inl ⟨s₂, ys, t₂, n, kp, h1, h2, h3, h4, ⟨S, hS, sl, h5⟩, h6⟩))
  · exact .inr (.inr (.inr h))

/-- After the first poll, the producer's call is pending. -/
example : ∃ k, (bulkPipeAtMost Case.TP Case.TC slowProducer slowConsumer 2).Pending k :=
  have h : (bulkPipeAtMost Case.TP Case.TC slowProducer slowConsumer 2).poll 
      (bulkPipeAtMost Case.TP Case.TC slowProducer slowConsumer 2).start = ok (.pending _) :=
    loop_eq_of_fuel (n := 1) nofun
  have := bulk_pipe_at_most_abandoned Case.slow_bulk_plays Case.slow_collects (.first h)
  ⟨_, .first h⟩

/-- After the first poll, the consumer's call is pending. -/
example : ∃ k, (bulkPipeAtMost Case.TP Case.TC readyProducer slowConsumer 2).Pending k :=
  have h : (bulkPipeAtMost Case.TP Case.TC readyProducer slowConsumer 2).poll 
      (bulkPipeAtMost Case.TP Case.TC readyProducer slowConsumer 2).start = ok (.pending _) :=
    loop_eq_of_fuel (n := 1) nofun
  have := bulk_pipe_at_most_abandoned Case.ready_bulk_plays Case.slow_collects (.first h)
  ⟨_, .first h⟩

/-- For a given invariant of the producer. -/
theorem bulk_overwrite_full_slice_left {P : BulkProducer σ I F E} {c : Script I F E} {R : σ → Script I F E → Nat → Prop} {s : σ}
    {buf : List I} {m : Nat} (hR : BulkPlaysLaw P.seq R) (hm : R s c m) {k : (bulkOverwriteFullSlice P s buf).κ} (h : (bulkOverwriteFullSlice P s buf).Pending k) :
    ∃ xs rest s₁ k', k = ⟨(s₁, xs ++ rest, xs.length), k'⟩ ∧ c.StartsWith xs ∧ rest ≠ [] ∧ xs.length + rest.length = buf.length ∧
      (∃ m, R s₁ (c.drop xs.length) m) ∧
      ∃ kp, HEq k' (Sum.inl kp : (bulkOverwriteStep P s₁ (xs ++ rest) xs.length).κ) ∧
        (P.bulkProduce s₁ ((xs ++ rest).drop xs.length)).Pending kp := by
  obtain ⟨⟨s₁, b, n⟩, k⟩ := k
  obtain ⟨hi, hk⟩ := Fut.pending_loop h
  obtain ⟨xs, rest, rfl, rfl, hl, hx, ⟨m, hm⟩⟩ := hi.keeps (Inv := fun x => ∃ xs rest : List I, xs ++ rest = x.2.1 ∧ xs.length = x.2.2 ∧
    xs.length + rest.length = buf.length ∧ c.StartsWith xs ∧ ∃ m, R x.1 (c.drop xs.length) m)
    ⟨[], buf, rfl, rfl, by simp, by simp, m, by simpa using hm⟩ (by
    rintro ⟨s₁, b, n⟩ ⟨s₂, b', n'⟩ ⟨xs, rest, rfl, rfl, hl, hx, ⟨m, hm⟩⟩ hr
    rw [bulkOverwriteFullSliceBody_run, Verif.bulkOverwriteFullSliceBody] at hr
    split at hr
    · next hlt =>
      have hne : rest ≠ [] := by
        rintro rfl
        simp at hlt
      rw [List.drop_left' rfl, List.take_left' rfl] at hr
      obtain ⟨s', b', hlen, ⟨i, hi0, hil, hbp, hsw, hR'⟩ | ⟨f, hf, hbp⟩ | ⟨e, he, hbp⟩⟩ := hR.bulkProduce _ _ m _ hm hne <;>
        simp only [hbp, bind_eq, bind_ok] at hr <;> cases hr
      refine ⟨xs ++ b'.take i, b'.drop i, by simp, ?_, ?_, hx.append hsw, ?_⟩
      · simp; omega
      · simp; omega
      · simpa [Nat.min_eq_left (show i ≤ b'.length by omega)] using hR'
    · cases hr)
  obtain ⟨hlt, k', hkk, hk⟩ := Fut.pending_ite (p := xs.length < (xs ++ rest).length) (f := bulkOverwriteStep P s₁ (xs ++ rest) xs.length)
    (a := .done (s₁, .ok (), xs ++ rest)) hk
  refine ⟨xs, rest, s₁, k, rfl, hx, ?_, hl, ⟨m, hm⟩, ?_⟩
  · rintro rfl
    simp at hlt
  · rcases Fut.pending_bind hk with ⟨kp, rfl, hk'⟩ | ⟨⟨s₂, e | x | f, b⟩, k', rfl, _, hk'⟩
    · exact ⟨kp, hkk, hk'⟩
    all_goals exact (Fut.not_pending_pure hk').elim

/-- **C76**, `bulk_overwrite_full_slice`: the items that were produced by the calls that have returned are at the start of the buffer,
and they are the first items of the producer. -/
theorem bulk_overwrite_full_slice_abandoned {P : BulkProducer σ I F E} {c : Script I F E} {s : σ} {buf : List I}
    (hP : BulkPlays P.seq s c) {k : (bulkOverwriteFullSlice P s buf).κ} (h : (bulkOverwriteFullSlice P s buf).Pending k) :
    ∃ xs rest s₁ k', k = ⟨(s₁, xs ++ rest, xs.length), k'⟩ ∧ c.StartsWith xs ∧ rest ≠ [] ∧ xs.length + rest.length = buf.length ∧
      BulkPlays P.seq s₁ (c.drop xs.length) ∧
      ∃ kp, HEq k' (Sum.inl kp : (bulkOverwriteStep P s₁ (xs ++ rest) xs.length).κ) ∧
        (P.bulkProduce s₁ ((xs ++ rest).drop xs.length)).Pending kp := by
  obtain ⟨R, hR, m, hm⟩ := hP
  obtain ⟨xs, rest, s₁, k', h1, h2, h3, h4, ⟨m, h5⟩, h6⟩ := bulk_overwrite_full_slice_left hR hm h
  exact ⟨xs, rest, s₁, k', h1, h2, h3, h4, ⟨R, hR, m, h5⟩, h6⟩

/-- It is pending at first. -/
example : ∃ k, (bulkOverwriteFullSlice Case.TP slowProducer [0, 0]).Pending k :=
  have h : (bulkOverwriteFullSlice Case.TP slowProducer [0, 0]).poll (bulkOverwriteFullSlice Case.TP slowProducer [0, 0]).start =
      ok (.pending _) := loop_eq_of_fuel (n := 1) nofun
  have := bulk_overwrite_full_slice_abandoned Case.slow_bulk_plays (.first h)
  ⟨_, .first h⟩

end Verif.Async
