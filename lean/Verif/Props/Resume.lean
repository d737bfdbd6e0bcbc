import Verif.ResumeSpec
import Verif.Props.Abandon
import Verif.Props.Network

/-!
# Dropped pipes that are started again (C102)

`bulk_pipe` holds no items: whatever it has taken from the producer is in the consumer, and what it has not passed on is still in
the producer. So, with producers and consumers that tolerate that a call is dropped, `bulk_pipe` can be dropped and started again
without losing or repeating anything, except in two places: after the consumer has consumed items and before the producer has been
told so (`consider_produced`), and while the consumer is being closed. `pipe` does hold an item.
-/

namespace Verif.Async

open Outcome

variable {σ τ I F E E₁ E₂ : Type}

/-- One drop: some items `xs` have been moved, and nothing else. -/
theorem bulk_pipe_dropped {P : BulkProducer σ I F E₁} {C : BulkConsumer τ I F E₂} {D : τ → List I → Option F → Prop}
    {c : Script I F E₁} {q : Policy I F E₂} {R : σ → Script I F E₁ → Nat → Prop} {S : τ → List I → List I → Prop}
    {dp : ProducerDrops P} {dc : ConsumerDrops C} {s s' : σ} {t t' : τ} {l sl : List I} {m : Nat} (hR : BulkPlaysLaw P.seq R)
    (hS : BulkCollectsLaw C.seq D q S) (hdp : dp.Tolerated R) (hdc : dc.Tolerated S) (hm : R s c m) (hsl : S t l sl)
    {k : (bulkPipe P C s t).κ} (h : (bulkPipe P C s t).Pending k) (hd : BulkPipeDropped dp dc s t k s' t') :
    ∃ xs, c.StartsWith xs ∧ q.Accepts l xs ∧ (∃ m, R s' (c.drop xs.length) m) ∧ ∃ sl, S t' (l ++ xs) sl := by
  obtain ⟨xs, s₁, t₁, hx, ha, ⟨m, hm⟩, ⟨sl, hsl⟩, h⟩ := bulk_pipe_left hR hS hm hsl h
  refine ⟨xs, hx, ha, ?_⟩
  rcases h with ⟨kp, rfl, hk⟩ | ⟨s₂, ys, kc, rfl, hne, _, h2, hk⟩ | ⟨s₂, ys, t₂, n, kp, rfl, _⟩ | ⟨s₂, f, kc, rfl, _⟩
  · cases hd with
    | exposing hd => exact ⟨hdp.exposeItems hm hk hd, sl, hsl⟩
  · cases hd with
    | consuming hd => exact ⟨⟨_, h2⟩, hdc.bulkConsume hsl hne hk hd⟩
  · cases hd
  · cases hd

/-- **C102.** If `bulk_pipe` is dropped and started again any number of times, always while `expose_items` or `bulk_consume` is
pending, and then runs to completion, then the result and everything the consumer has consumed are those of a single call that is not
dropped. -/
theorem bulk_pipe_resumed {P : BulkProducer σ I F E₁} {C : BulkConsumer τ I F E₂} {D : τ → List I → Option F → Prop}
    {c : Script I F E₁} {q : Policy I F E₂} {R : σ → Script I F E₁ → Nat → Prop} {S : τ → List I → List I → Prop}
    {dp : ProducerDrops P} {dc : ConsumerDrops C} {s s' : σ} {t t' : τ} {l sl : List I} {m : Nat} (hR : BulkPlaysLaw P.seq R)
    (hS : BulkCollectsLaw C.seq D q S) (hdp : dp.Tolerated R) (hdc : dc.Tolerated S) (hm : R s c m) (hsl : S t l sl)
    (h : BulkPipeRetried dp dc s t s' t') {xs : List I} {fin : Option F} {res : Except (PipeError E₁ E₂) Unit}
    (hp : PipeResult c q l xs fin res) :
    (∃ s₁ t₁, (bulkPipe P C s t).run = ok ((s₁, t₁), res) ∧ D t₁ (l ++ xs) fin) ∧
      ∃ s₂ t₂, (bulkPipe P C s' t').run = ok ((s₂, t₂), res) ∧ D t₂ (l ++ xs) fin := by
  constructor
  · obtain ⟨s₁, t₁, h1, h2, _⟩ := bulk_pipe_spec ⟨R, hR, m, hm⟩ ⟨S, hS, sl, hsl⟩ hp
    exact ⟨s₁, t₁, by rw [bulkPipe_run, h1], h2⟩
  · induction h generalizing c l sl m xs with
    | refl =>
      obtain ⟨s₁, t₁, h1, h2, _⟩ := bulk_pipe_spec ⟨R, hR, m, hm⟩ ⟨S, hS, sl, hsl⟩ hp
      exact ⟨s₁, t₁, by rw [bulkPipe_run, h1], h2⟩
    | drop hk hd _ ih =>
      obtain ⟨ys, hy, ha, ⟨m, hm⟩, ⟨sl, hsl⟩⟩ := bulk_pipe_dropped hR hS hdp hdc hm hsl hk hd
      obtain ⟨_, h2, h3⟩ := hp.advance hy ha
      obtain ⟨s₂, t₂, h4, h5⟩ := ih hm hsl h3
      exact ⟨s₂, t₂, h4, by rw [h2]; simpa using h5⟩

/-- **C102.** If `bulk_pipe` is dropped while `consider_produced` is pending, the items that the consumer has consumed last are
emitted again: the consumer gets `xs ++ ys`, and then everything after `xs` once more. -/
theorem bulk_pipe_dropped_considering {P : BulkProducer σ I F E₁} {C : BulkConsumer τ I F E₂} {D : τ → List I → Option F → Prop}
    {c : Script I F E₁} {q : Policy I F E₂} {R : σ → Script I F E₁ → Nat → Prop} {S : τ → List I → List I → Prop}
    {dp : ProducerDrops P} {s s' : σ} {t t' : τ} {l sl : List I} {m : Nat} (hR : BulkPlaysLaw P.seq R)
    (hS : BulkCollectsLaw C.seq D q S) (hdp : dp.Unconsidered R) (hm : R s c m) (hsl : S t l sl)
    {k : (bulkPipe P C s t).κ} (h : (bulkPipe P C s t).Pending k) (hd : BulkPipeConsidering dp s t k s' t') :
    ∃ xs ys, ys ≠ [] ∧ c.StartsWith (xs ++ ys) ∧ q.Accepts l (xs ++ ys) ∧ (∃ m, R s' (c.drop xs.length) m) ∧
      (∃ sl, S t' (l ++ xs ++ ys) sl) ∧
      ∀ zs fin res, PipeResult (c.drop xs.length) q (l ++ xs ++ ys) zs fin res →
        ∃ s₂ t₂, (bulkPipe P C s' t').run = ok ((s₂, t₂), res) ∧ D t₂ (l ++ xs ++ ys ++ zs) fin := by
  obtain ⟨xs, s₁, t₁, hx, ha, ⟨m, hm⟩, ⟨sl, hsl⟩, h⟩ := bulk_pipe_left hR hS hm hsl h
  rcases h with ⟨kp, rfl, hk⟩ | ⟨s₂, ys, kc, rfl, _⟩ | ⟨s₂, ys, t₂, n, kp, rfl, h1, h2, h3, h4, h5, ⟨sl, h6⟩, hk⟩ | ⟨s₂, f, kc, rfl, _⟩
  · cases hd
  · cases hd
  · cases hd with
    | considering hd =>
      obtain ⟨m, h7⟩ := hdp.considerProduced h4 hk hd
      refine ⟨xs, ys.take n, ?_, ?_, h5, ⟨m, h7⟩, ⟨sl, h6⟩, fun zs fin res hp => ?_⟩
      · intro h0
        have := congrArg List.length h0
        simp only [List.length_take, List.length_nil] at this
        omega
      · have := h1.take (xs.length + n)
        rwa [List.take_length_add_append] at this
      · obtain ⟨s₁, t₁, h1, h2, _⟩ := bulk_pipe_spec ⟨R, hR, m, h7⟩ ⟨S, hS, sl, h6⟩ hp
        exact ⟨s₁, t₁, by rw [bulkPipe_run, h1], h2⟩
  · cases hd

/-- **C102.** `pipe` does hold an item: if it is dropped while `consume` is pending, and that call has no effect on the consumer,
the item `x` is lost. -/
theorem pipe_dropped_consuming {P : Producer σ I F E₁} {C : Consumer τ I F E₂} {D : τ → List I → Option F → Prop} {c : Script I F E₁}
    {q : Policy I F E₂} {s s₁ s₂ : σ} {t t₁ t' : τ} {l : List I} {x : I} {kc} (hP : Plays P.seq s c) (hC : Collects C.seq D q t l)
    (h : (pipe P C s t).Pending ⟨(s₁, t₁), .inr ⟨(s₂, .ok (.inl x)), .inl kc⟩⟩)
    (ht : ∀ l, Collects C.seq D q t₁ l → Collects C.seq D q t' l) :
    ∃ xs, c.StartsWith (xs ++ [x]) ∧ Plays P.seq s₂ (c.drop (xs.length + 1)) ∧ Collects C.seq D q t' (l ++ xs) ∧
      ∀ zs fin res, PipeResult (c.drop (xs.length + 1)) q (l ++ xs) zs fin res →
        ∃ s₃ t₃, (pipe P C s₂ t').run = ok ((s₃, t₃), res) ∧ D t₃ (l ++ xs ++ zs) fin := by
  obtain ⟨xs, s₁', t₁', hx, _, hC₁, ⟨kp, hk, _⟩ | ⟨s₂', x', kc', hk, hc, hP₂, _⟩ | ⟨s₂', f, kc', hk, _⟩⟩ := pipe_abandoned hP hC h
  · cases hk
  · cases hk
    refine ⟨xs, hx.append (by simpa [Script.startsWith_cons] using hc), hP₂, ht _ hC₁, fun zs fin res hp => ?_⟩
    obtain ⟨s₃, t₃, h1, h2⟩ := pipe_spec hP₂ (ht _ hC₁) hp
    exact ⟨s₃, t₃, by rw [pipe_run, h1], h2⟩
  · cases hk

/-! ## The test doubles tolerate it -/

theorem yield_dropped_live {y y' : Option TestYielder} {k : (maybeYield y).κ} (hy : YielderLive y) (hk : (maybeYield y).Pending k)
    (h : YieldDropped y k y') : YielderLive y' := by
  cases h with
  | @mk y k =>
    rcases Fut.pending_bind hk with ⟨k', h1, h2⟩ | ⟨a, k', h1, _⟩
    · cases h1
      rintro _ ⟨⟩
      have step : ∀ y₁ y₂ : TestYielder, y₁.Live → (TestYielder.maybeYield y).poll y₁ = ok (.pending y₂) → y₂.Live := by
        intro y₁ y₂ hl h
        have hpos : 0 < y₁.pattern.length := by have := hl.1; omega
        simp only [TestYielder.maybeYield, Verif.TestYielder.poll, index_of_lt hl.1, mod_of_pos hpos, bind_eq, bind_ok] at h
        split at h <;> simp only [pure_eq, bind_ok] at h <;> cases h
        exact ⟨Nat.mod_lt _ hpos, hl.2⟩
      clear hk
      induction h2 with
      | first h => exact step _ _ (hy _ rfl) h
      | next _ h ih => exact step _ _ ih h
    · cases h1

/-- A sequence that is pending in its first part. -/
theorem Fut.pending_left {A B : Type} {f : Fut A} {g : A → Fut B} {k : f.κ} (h : (f >>= g).Pending (Sum.inl k)) : f.Pending k := by
  rcases Fut.pending_bind h with ⟨k', h1, h2⟩ | ⟨a, k', h1, _⟩
  · cases h1; exact h2
  · cases h1

/-- A sequence that is pending in its second part. -/
theorem Fut.pending_right {A B : Type} {f : Fut A} {g : A → Fut B} {a : A} {k : (g a).κ} (h : (f >>= g).Pending (Sum.inr ⟨a, k⟩)) :
    f.run = ok a ∧ (g a).Pending k := by
  rcases Fut.pending_bind h with ⟨k', h1, h2⟩ | ⟨a, k', h1, h2, h3⟩
  · cases h1
  · cases h1; exact ⟨h2, h3⟩

/-- **C102.** A `TestProducer` still has the same to emit after a dropped call of `expose_items`. -/
theorem test_producer_drops (test : Bool) : (TestProducer.drops test I F E).Tolerated (Verif.TestProducer.Ready test) where
  exposeItems := by
    rintro s c n k s' h hk ⟨hd⟩
    exact ⟨n, h.1, h.2.1, yield_dropped_live h.2.2.1 (Fut.pending_left hk) hd, h.2.2.2⟩

/-- **C102.** And after a dropped call of `consider_produced`. -/
theorem test_producer_drops_consider (test : Bool) : (TestProducer.drops test I F E).Unconsidered (Verif.TestProducer.Ready test) where
  considerProduced := by
    rintro s c n a k s' h hk ⟨hd⟩
    exact ⟨n, h.1, h.2.1, yield_dropped_live h.2.2.1 (Fut.pending_left hk) hd, h.2.2.2⟩

/-- **C102.** A `TestConsumer` has consumed the same as before after a dropped call of `bulk_consume`. -/
theorem test_consumer_drops [Inhabited I] (test : Bool) (n : Nat) (e : E) :
    (TestConsumer.drops test I F E).Tolerated (Verif.TestConsumer.Ready test n e) where
  bulkConsume := by
    rintro t l sl ys k t' h hne hk (hd | hd)
    · have hy := yield_dropped_live h.yielder (Fut.pending_left (Fut.pending_left (Fut.pending_left hk))) hd
      exact ⟨sl, h.vec, h.error, h.fin, h.count, h.slots, h.sizes, hy⟩
    · obtain ⟨hr, hk⟩ := Fut.pending_right hk
      have hr' : (TestConsumer.consumer test I F E).seq.exposeSlots t = _ := hr
      rw [testConsumer_seq] at hr'
      have hl := Verif.TestConsumer.law (I := I) (F := F) test n e
      rcases hq : (Policy.failAfter n e : Policy I F E).refuse l with _ | e'
      · obtain ⟨t₂, slots₂, h1, h2, h3⟩ := hl.expose_ok _ _ _ h hq
        cases h2.symm.trans hr'
        rename_i slots _ _ _
        have h4 := hl.write _ _ _ (ys.take (min slots.length ys.length)) h3 (by simp; omega)
        have hy := yield_dropped_live h3.yielder (Fut.pending_left (Fut.pending_left (Fut.pending_left hk))) hd
        exact ⟨_, h4.vec, h4.error, h4.fin, h4.count, h4.slots, h4.sizes, hy⟩
      · obtain ⟨t₂, h1, _⟩ := hl.expose_err _ _ _ _ h hq
        cases h1.symm.trans hr'

/-- Code that is never pending. -/
def Fut.Quiet {A : Type} (f : Fut A) : Prop := ∀ k, ¬ f.Pending k

theorem Fut.quiet_lift {A : Type} (o : Outcome A) : Fut.Quiet (Fut.lift o) := fun _ h => Fut.not_pending_lift h

theorem Fut.quiet_bind {A B : Type} {f : Fut A} {g : A → Fut B} (hf : Fut.Quiet f) (hg : ∀ a, Fut.Quiet (g a)) : Fut.Quiet (f >>= g) := by
  intro k h
  rcases Fut.pending_bind h with ⟨k, _, h⟩ | ⟨a, k, _, _, h⟩
  · exact hf _ h
  · exact hg _ _ h

/-- Shows that code which awaits nothing is never pending. -/
macro "quiet" : tactic => `(tactic| repeat' first
  | exact Fut.quiet_lift _
  | (refine Fut.quiet_bind ?_ fun _ => ?_)
  | split)

theorem yield_dropped_total {y : Option TestYielder} {k : (maybeYield y).κ} (h : (maybeYield y).Pending k) : ∃ y', YieldDropped y k y' := by
  rcases y with _ | y
  · exact (Fut.not_pending_pure h).elim
  · rcases Fut.pending_bind h with ⟨k, rfl, _⟩ | ⟨_, _, rfl, _, h⟩
    · exact ⟨_, .mk⟩
    · exact (Fut.not_pending_pure h).elim

/-- However a pending call of `consider_produced` of a `TestProducer` is dropped, a state is left. -/
theorem test_producer_drops_consider_total (test : Bool) {s : TestProducer I F E} {n : Nat} {k}
    (h : ((TestProducer.producer test I F E).considerProduced s n).Pending k) :
    ∃ s', (TestProducer.drops test I F E).considerProduced s n k s' := by
  rcases Fut.pending_bind h with ⟨k, rfl, h'⟩ | ⟨y, k, rfl, _, h'⟩
  · obtain ⟨y, hy⟩ := yield_dropped_total h'
    exact ⟨_, .mk hy⟩
  · exact absurd h' ((by quiet : Fut.Quiet _) _)

/-- And likewise for `expose_items`. -/
theorem test_producer_drops_expose_total (test : Bool) {s : TestProducer I F E} {k}
    (h : ((TestProducer.producer test I F E).exposeItems s).Pending k) :
    ∃ s', (TestProducer.drops test I F E).exposeItems s k s' := by
  rcases Fut.pending_bind h with ⟨k, rfl, h'⟩ | ⟨y, k, rfl, _, h'⟩
  · obtain ⟨y, hy⟩ := yield_dropped_total h'
    exact ⟨_, .mk hy⟩
  · exact absurd h' ((by quiet : Fut.Quiet _) _)

/-- And for `bulk_consume` of a `TestConsumer`. -/
theorem test_consumer_drops_total [Inhabited I] (test : Bool) {t : TestConsumer I F E} {ys : List I} {k}
    (h : ((TestConsumer.consumer test I F E).bulkConsume t ys).Pending k) :
    ∃ t', (TestConsumer.drops test I F E).bulkConsume t ys k t' := by
  rcases Fut.pending_bind h with ⟨k, rfl, h'⟩ | ⟨⟨t₁, e | slots⟩, k, rfl, _, h'⟩
  · rcases Fut.pending_bind h' with ⟨k, rfl, h''⟩ | ⟨⟨t₁, e | _⟩, k, rfl, _, h''⟩
    · rcases Fut.pending_bind h'' with ⟨k, rfl, h₃⟩ | ⟨y, k, rfl, _, h₃⟩
      · obtain ⟨y, hy⟩ := yield_dropped_total h₃
        exact ⟨_, .exposing hy⟩
      · exact absurd h₃ ((by quiet : Fut.Quiet _) _)
    · exact absurd h'' ((by quiet : Fut.Quiet _) _)
    · exact absurd h'' ((by quiet : Fut.Quiet _) _)
  · exact absurd h' ((by quiet : Fut.Quiet _) _)
  · rcases Fut.pending_bind h' with ⟨k, rfl, h''⟩ | ⟨⟨t₁, e | _⟩, k, rfl, _, h''⟩
    · rcases Fut.pending_bind h'' with ⟨k, rfl, h₃⟩ | ⟨⟨t₁, e | _⟩, k, rfl, _, h₃⟩
      · rcases Fut.pending_bind h₃ with ⟨k, rfl, h₄⟩ | ⟨y, k, rfl, _, h₄⟩
        · obtain ⟨y, hy⟩ := yield_dropped_total h₄
          exact ⟨_, .consuming hy⟩
        · exact absurd h₄ ((by quiet : Fut.Quiet _) _)
      · exact absurd h₃ ((by quiet : Fut.Quiet _) _)
      · exact absurd h₃ ((by quiet : Fut.Quiet _) _)
    · exact absurd h'' ((by quiet : Fut.Quiet _) _)
    · exact absurd h'' ((by quiet : Fut.Quiet _) _)

/-- Whenever `bulk_pipe` from a `TestProducer` is pending in `consider_produced`, it can be dropped there. -/
theorem bulk_pipe_considering_total (test : Bool) {C : BulkConsumer τ I F E₂} {s s₁ s₂ : TestProducer I F E} {t t₁ t₂ : τ}
    {ys : List I} {n : Nat} {kp} (h : (bulkPipe (TestProducer.producer test I F E) C s t).Pending
      ⟨(s₁, t₁), .inr ⟨(s₂, .ok (.inl ys)), .inr ⟨(t₂, .ok n), .inl kp⟩⟩⟩) :
    ∃ s', BulkPipeConsidering (C := C) (TestProducer.drops test I F E) s t
      ⟨(s₁, t₁), .inr ⟨(s₂, .ok (.inl ys)), .inr ⟨(t₂, .ok n), .inl kp⟩⟩⟩ s' t₂ := by
  have hk := Fut.pending_left (Fut.pending_right (Fut.pending_right (Fut.pending_loop h).2).2).2
  obtain ⟨s', hd⟩ := test_producer_drops_consider_total test hk
  exact ⟨s', .considering hd⟩

/-- Whenever it is pending in `expose_items`, it can be dropped there. -/
theorem bulk_pipe_exposing_total (test : Bool) {C : BulkConsumer τ I F E₂} {dc : ConsumerDrops C} {s s₁ : TestProducer I F E} {t t₁ : τ}
    {kp} (h : (bulkPipe (TestProducer.producer test I F E) C s t).Pending ⟨(s₁, t₁), .inl kp⟩) :
    ∃ s', BulkPipeDropped (TestProducer.drops test I F E) dc s t ⟨(s₁, t₁), .inl kp⟩ s' t₁ := by
  obtain ⟨s', hd⟩ := test_producer_drops_expose_total test (Fut.pending_left (Fut.pending_loop h).2)
  exact ⟨s', .exposing hd⟩

/-- Whenever `bulk_pipe` into a `TestConsumer` is pending in `bulk_consume`, it can be dropped there. -/
theorem bulk_pipe_consuming_total [Inhabited I] (test : Bool) {P : BulkProducer σ I F E₁} {dp : ProducerDrops P} {s s₁ s₂ : σ}
    {t t₁ : TestConsumer I F E} {ys : List I} {kc}
    (h : (bulkPipe P (TestConsumer.consumer test I F E) s t).Pending ⟨(s₁, t₁), .inr ⟨(s₂, .ok (.inl ys)), .inl kc⟩⟩) :
    ∃ t', BulkPipeDropped dp (TestConsumer.drops test I F E) s t ⟨(s₁, t₁), .inr ⟨(s₂, .ok (.inl ys)), .inl kc⟩⟩ s₂ t' := by
  obtain ⟨t', hd⟩ := test_consumer_drops_total test (Fut.pending_left (Fut.pending_right (Fut.pending_loop h).2).2)
  exact ⟨t', .consuming hd⟩

/-! ## Cases -/

namespace Case

/-- Produces 1, 2, 3; pending at the second call. -/
def unconsidered : TestProducer Nat Unit String := TestProducer.new [1, 2, 3] (.ok ()) [] (some [false, true])

abbrev V : BulkConsumer (IntoVec Nat) Nat Unit Empty := .ofSeq (IntoVec.consumer Nat)

theorem unconsidered_ready : Verif.TestProducer.Ready false unconsidered (Script.ofList [1, 2, 3] (.ok ())) 0 :=
  Verif.TestProducer.ready_new false [1, 2, 3] (.ok ()) [] _

theorem TP_law : BulkPlaysLaw TP.seq (Verif.TestProducer.Ready false) := by rw [testProducer_seq]; exact Verif.TestProducer.law false

theorem V_law : BulkCollectsLaw V.seq (fun s l _ => s.asRef = ok l ∧ s.intoVec = l) Policy.acceptAll IntoVec.Ready := by
  rw [BulkConsumer.ofSeq_seq]; exact IntoVec.law

theorem slow_ready : Verif.TestProducer.Ready false slowProducer (Script.ofList [1, 2, 3] (.ok ())) 0 :=
  Verif.TestProducer.ready_new false [1, 2, 3] (.ok ()) [] _

theorem ready_ready : Verif.TestProducer.Ready false readyProducer (Script.ofList [1, 2, 3] (.ok ())) 0 :=
  Verif.TestProducer.ready_new false [1, 2, 3] (.ok ()) [] _

theorem slow_consumer_ready : Verif.TestConsumer.Ready false 5 "full" slowConsumer [] [] :=
  Verif.TestConsumer.ready_new false "full" 5 [] _

theorem TC_law : BulkCollectsLaw TC.seq Verif.TestConsumer.Seen (Policy.failAfter 5 "full") (Verif.TestConsumer.Ready false 5 "full") := by
  rw [testConsumer_seq]; exact Verif.TestConsumer.law false 5 "full"

end Case

/-- The pipe is dropped while the producer is pending, and then runs to completion. -/
example : ∃ s' t' k s₁ t₁, (bulkPipe Case.TP Case.TC slowProducer slowConsumer).Pending k ∧
    BulkPipeDropped (TestProducer.drops false Nat Unit String) (TestConsumer.drops false Nat Unit String) slowProducer slowConsumer
      k s' t' ∧ (bulkPipe Case.TP Case.TC s' t').run = ok ((s₁, t₁), .ok ()) ∧ Verif.TestConsumer.Seen t₁ [1, 2, 3] (some ()) := by
  have h : (bulkPipe Case.TP Case.TC slowProducer slowConsumer).poll (bulkPipe Case.TP Case.TC slowProducer slowConsumer).start =
      ok (.pending ⟨(_, _), .inl _⟩) := loop_eq_of_fuel (n := 1) nofun
  obtain ⟨s', hd⟩ := bulk_pipe_exposing_total false (dc := TestConsumer.drops false Nat Unit String) (.first h)
  obtain ⟨_, s₁, t₁, h1, h2⟩ := bulk_pipe_resumed Case.TP_law Case.TC_law (test_producer_drops false) (test_consumer_drops false 5 "full")
    Case.slow_ready Case.slow_consumer_ready (.drop (.first h) hd .refl)
    (.closed (Case.script_starts _) (Case.accepts (n := 5) (by decide)) (Case.script_end _) rfl)
  exact ⟨s', _, _, s₁, t₁, .first h, hd, h1, h2⟩

/-- The pipe is dropped while the consumer is pending, and then runs to completion. -/
example : ∃ s' t' k s₁ t₁, (bulkPipe Case.TP Case.TC readyProducer slowConsumer).Pending k ∧
    BulkPipeDropped (TestProducer.drops false Nat Unit String) (TestConsumer.drops false Nat Unit String) readyProducer slowConsumer
      k s' t' ∧ (bulkPipe Case.TP Case.TC s' t').run = ok ((s₁, t₁), .ok ()) ∧ Verif.TestConsumer.Seen t₁ [1, 2, 3] (some ()) := by
  have h : (bulkPipe Case.TP Case.TC readyProducer slowConsumer).poll (bulkPipe Case.TP Case.TC readyProducer slowConsumer).start =
      ok (.pending ⟨(_, _), .inr ⟨(_, .ok (.inl _)), .inl _⟩⟩) := loop_eq_of_fuel (n := 1) nofun
  obtain ⟨t', hd⟩ := bulk_pipe_consuming_total false (dp := TestProducer.drops false Nat Unit String) (.first h)
  obtain ⟨_, s₁, t₁, h1, h2⟩ := bulk_pipe_resumed Case.TP_law Case.TC_law (test_producer_drops false) (test_consumer_drops false 5 "full")
    Case.ready_ready Case.slow_consumer_ready (.drop (.first h) hd .refl)
    (.closed (Case.script_starts _) (Case.accepts (n := 5) (by decide)) (Case.script_end _) rfl)
  exact ⟨_, t', _, s₁, t₁, .first h, hd, h1, h2⟩

/-- The item 1 is lost. -/
example : ∃ s₂ s₁ t₁, (∃ k, (pipe Case.TP.toProducer Case.TC.toConsumer readyProducer slowConsumer).Pending k) ∧
    (pipe Case.TP.toProducer Case.TC.toConsumer s₂ slowConsumer).run = ok ((s₁, t₁), .ok ()) ∧
    Verif.TestConsumer.Seen t₁ [2, 3] (some ()) := by
  have h : (pipe Case.TP.toProducer Case.TC.toConsumer readyProducer slowConsumer).poll
      (pipe Case.TP.toProducer Case.TC.toConsumer readyProducer slowConsumer).start =
      ok (.pending ⟨(_, slowConsumer), .inr ⟨(_, .ok (.inl 1)), .inl _⟩⟩) := loop_eq_of_fuel (n := 1) nofun
  obtain ⟨xs, h1, h2, h3, h4⟩ := pipe_dropped_consuming Case.ready_bulk_plays.toPlays Case.slow_collects.toCollects (.first h)
    (t' := slowConsumer) (fun _ h => h)
  have h5 := h1 xs.length 1 (by simp)
  have hx : xs = [] := by
    match xs, h5 with
    | [], _ => rfl
    | [_], h5 => cases h5
    | [_, _], h5 => cases h5
    | _ :: _ :: _ :: _, h5 => cases h5
  subst hx
  obtain ⟨s₁, t₁, h6, h7⟩ := h4 [2, 3] (some ()) (.ok ()) (by
    rw [Script.ofList_drop _ _ _ (by decide)]
    exact .closed (Script.ofList_startsWith _ _) (Case.accepts (n := 5) (by decide)) (Script.ofList_end _ _) rfl)
  exact ⟨_, s₁, t₁, ⟨_, .first h⟩, h6, h7⟩

/-- **C102**, a witness: a `TestProducer` that is pending in `consider_produced`, and an `IntoVec`. The pipe is dropped and started
again; it reports success, and the vector is not `[1, 2, 3]`. -/
theorem bulk_pipe_repeats : ∃ k s' t', (bulkPipe Case.TP Case.V Case.unconsidered .new).Pending k ∧
    BulkPipeConsidering (TestProducer.drops false Nat Unit String) Case.unconsidered .new k s' t' ∧
    ∃ s₂ t₂, (bulkPipe Case.TP Case.V s' t').run = ok ((s₂, t₂), .ok ()) ∧ 3 < t₂.intoVec.length := by
  have h : (bulkPipe Case.TP Case.V Case.unconsidered .new).poll (bulkPipe Case.TP Case.V Case.unconsidered .new).start =
      ok (.pending ⟨(_, _), .inr ⟨(_, .ok (.inl _)), .inr ⟨(_, .ok _), .inl _⟩⟩⟩) :=
    loop_eq_of_fuel (n := 1) nofun
  obtain ⟨s', hc⟩ := bulk_pipe_considering_total false (.first h)
  refine ⟨_, _, _, .first h, hc, ?_⟩
  obtain ⟨xs, ys, h1, h2, _, _, _, h3⟩ := bulk_pipe_dropped_considering Case.TP_law Case.V_law (test_producer_drops_consider false) Case.unconsidered_ready
    (IntoVec.ready_fromVec []) (.first h) hc
  have hle : xs.length ≤ 3 := by
    rcases Nat.lt_or_ge 3 xs.length with hlt | hge
    · have := h2.left 3 _ (List.getElem?_eq_getElem hlt)
      cases this
    · exact hge
  obtain ⟨s₂, t₂, h4, h5, h6⟩ := h3 ([1, 2, 3].drop xs.length) (some ()) (.ok ()) (by
    rw [Script.ofList_drop _ _ _ (by simpa using hle)]
    exact .closed (Script.ofList_startsWith _ _) Policy.accepts_acceptAll (Script.ofList_end _ _) rfl)
  refine ⟨s₂, t₂, h4, ?_⟩
  have := List.length_pos_iff.2 h1
  rw [h6]; simp; omega

/-- **C102**, a witness: `bulk_pipe` is pending in `close`. The producer has emitted its final value, so starting again from it
panics, whatever the consumer. -/
theorem bulk_pipe_dropped_closing : ∃ s₁ t₁ s₂ kc, (bulkPipe Case.TP Case.TC (.new [] (.ok ()) [] none) slowConsumer).Pending
      ⟨(s₁, t₁), .inr ⟨(s₂, .ok (.inr ())), .inl kc⟩⟩ ∧ ∀ t, (bulkPipe Case.TP Case.TC s₂ t).run = panic := by
  have h : (bulkPipe Case.TP Case.TC (.new [] (.ok ()) [] none) slowConsumer).poll
      (bulkPipe Case.TP Case.TC (.new [] (.ok ()) [] none) slowConsumer).start =
      ok (.pending ⟨(_, _), .inr ⟨(_, .ok (.inr ())), .inl _⟩⟩) := loop_eq_of_fuel (n := 1) nofun
  refine ⟨_, _, _, _, .first h, fun t => ?_⟩
  rw [bulkPipe_run, testProducer_seq]
  exact loop_eq_of_fuel (n := 1) nofun

end Verif.Async
