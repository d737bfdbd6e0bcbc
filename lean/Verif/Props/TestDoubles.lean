import Verif.TestSpec
import Verif.Lemmas.TestDoubles
import Verif.Lemmas.TestConsumer
import Verif.Lemmas.TestTrace
import Verif.Lemmas.Invariant
import Verif.Lemmas.History

/-!
# C30, C31, C32: `TestProducer`, `TestConsumer`, `TestYielder`
-/

namespace Verif

open Outcome

section

variable {σ I F E : Type}

/-! ## The public types -/

theorem BulkPlaysLaw.unusedInvariant {P : BulkProducer σ I F E} {R : σ → Script I F E → Nat → Prop} (h : BulkPlaysLaw P R) :
    BulkPlaysLaw (unusedInvariantBulkProducer P) (fun s c n => R s.inner c n) := by
  refine .of_default rfl ⟨⟨?_⟩, ?_⟩ ?_ ?_
  · rintro ⟨s, a, x⟩ c hs
    obtain ⟨s', h1, h2⟩ := h.base.produce s c hs
    exact ⟨⟨s', a, x⟩, by simp [unusedInvariantBulkProducer, h1], h2⟩
  · rintro ⟨s, a, x⟩ c hs
    obtain ⟨s', ⟨h1, h2⟩ | ⟨e, h1, h2⟩⟩ := h.base.slurp s c hs
    · exact ⟨⟨s', a, x⟩, .inl ⟨by simp [unusedInvariantBulkProducer, h1], h2⟩⟩
    · exact ⟨⟨s', a, x⟩, .inr ⟨e, h1, by simp [unusedInvariantBulkProducer, h2]⟩⟩
  · rintro ⟨s, a, x⟩ c n hs
    obtain ⟨s', ⟨xs, h1, h2, h3, h4⟩ | ⟨f, h1, h2⟩ | ⟨e, h1, h2⟩⟩ := h.expose s c n hs
    · exact ⟨⟨s', a, x⟩, .inl ⟨xs, h1, h2, by simp [unusedInvariantBulkProducer, h3], h4⟩⟩
    · exact ⟨⟨s', a, x⟩, .inr (.inl ⟨f, h1, by simp [unusedInvariantBulkProducer, h2]⟩)⟩
    · exact ⟨⟨s', a, x⟩, .inr (.inr ⟨e, h1, by simp [unusedInvariantBulkProducer, h2]⟩)⟩
  · rintro ⟨s, a, x⟩ c n k hs h0 hk
    obtain ⟨s', h1, h2⟩ := h.consider s c n k hs h0 hk
    exact ⟨⟨s', a, x⟩, by simp [unusedInvariantBulkProducer, h1], h2⟩

/-- What is made public as an `Invariant` is as lawful as what it wraps, in all builds. -/
theorem public_producer_plays (test : Bool) {P : BulkProducer σ I F E} {s : σ} {c : Script I F E} (h : BulkPlays P s c) :
    BulkPlays (publicProducer test P) (.new s) c := by
  obtain ⟨R, hR, n, hn⟩ := h
  cases test
  · exact ⟨_, hR.unusedInvariant, n, hn⟩
  · exact ⟨_, hR.invariant, 0, rfl, .inl ⟨rfl, n, hn⟩⟩

example : BulkPlays (publicProducer false (FromSlice.producer Nat)) (.new (FromSlice.new [1, 2])) (Script.ofList [1, 2] (.ok ())) :=
  public_producer_plays false ⟨_, FromSlice.law, 0, FromSlice.ready_new [1, 2]⟩

theorem BulkCollectsLaw.unusedInvariant {C : BulkConsumer σ I F E} {D : σ → List I → Option F → Prop} {q : Policy I F E}
    {R : σ → List I → List I → Prop} (h : BulkCollectsLaw C D q R) :
    BulkCollectsLaw (unusedInvariantBulkConsumer C) (fun s => D s.inner) q (fun s => R s.inner) := by
  refine .of_default rfl ⟨⟨?_, ?_, ?_, ?_, ?_⟩, ?_⟩ ?_ ?_ ?_ ?_ ?_
  · rintro ⟨s, a, x⟩ l hs; exact h.base.observe s l hs
  · rintro ⟨s, a, x⟩ l y hs hq
    obtain ⟨s', h1, h2⟩ := h.base.consume_ok s l y hs hq
    exact ⟨⟨s', a, x⟩, by simp [unusedInvariantBulkConsumer, h1], h2⟩
  · rintro ⟨s, a, x⟩ l y e hs hq
    obtain ⟨s', h1, h2⟩ := h.base.consume_err s l y e hs hq
    exact ⟨⟨s', a, x⟩, by simp [unusedInvariantBulkConsumer, h1], h2⟩
  · rintro ⟨s, a, x⟩ l y hs hq
    obtain ⟨s', h1, h2⟩ := h.base.close_ok s l y hs hq
    exact ⟨⟨s', a, x⟩, by simp [unusedInvariantBulkConsumer, h1], h2⟩
  · rintro ⟨s, a, x⟩ l y e hs hq
    obtain ⟨s', h1, h2⟩ := h.base.close_err s l y e hs hq
    exact ⟨⟨s', a, x⟩, by simp [unusedInvariantBulkConsumer, h1], h2⟩
  · rintro ⟨s, a, x⟩ l hs
    obtain ⟨s', ⟨h1, h2⟩ | ⟨e, h1, h2, h3⟩⟩ := h.base.flush s l hs
    · exact ⟨⟨s', a, x⟩, .inl ⟨by simp [unusedInvariantBulkConsumer, h1], h2⟩⟩
    · exact ⟨⟨s', a, x⟩, .inr ⟨e, h1, by simp [unusedInvariantBulkConsumer, h2], h3⟩⟩
  · rintro ⟨s, a, x⟩ l slots hs hq
    obtain ⟨s', slots', h1, h2, h3⟩ := h.expose_ok s l slots hs hq
    exact ⟨⟨s', a, x⟩, slots', h1, by simp [unusedInvariantBulkConsumer, h2], h3⟩
  · rintro ⟨s, a, x⟩ l slots e hs hq
    obtain ⟨s', h1, h2⟩ := h.expose_err s l slots e hs hq
    exact ⟨⟨s', a, x⟩, by simp [unusedInvariantBulkConsumer, h1], h2⟩
  · rintro ⟨s, a, x⟩ l slots ws hs hw; exact h.write s l slots ws hs hw
  · rintro ⟨s, a, x⟩ l slots k hs hne hk hq
    obtain ⟨s', h1, h2⟩ := h.consumeSlots_ok s l slots k hs hne hk hq
    exact ⟨⟨s', a, x⟩, by simp [unusedInvariantBulkConsumer, h1], h2⟩
  · rintro ⟨s, a, x⟩ l slots k i e hs hne hk hq
    obtain ⟨s', h1, h2⟩ := h.consumeSlots_err s l slots k i e hs hne hk hq
    exact ⟨⟨s', a, x⟩, by simp [unusedInvariantBulkConsumer, h1], h2⟩

theorem public_consumer_collects (test : Bool) {C : BulkConsumer σ I F E} {D : σ → List I → Option F → Prop}
    {q : Policy I F E} {s : σ} {l : List I} (h : BulkCollects C D q s l) :
    BulkCollects (publicConsumer test C) (fun s => D s.inner) q (.new s) l := by
  obtain ⟨R, hR, sl, hs⟩ := h
  cases test
  · exact ⟨_, hR.unusedInvariant, sl, hs⟩
  · exact ⟨_, hR.invariant, [], rfl, .inl ⟨rfl, sl, hs⟩⟩

example : BulkCollects (publicConsumer false (IntoVec.consumer Nat)) (fun s l _ => s.inner.asRef = ok l ∧ s.inner.intoVec = l)
    Policy.acceptAll (.new (IntoVec.fromVec [7])) [7] :=
  public_consumer_collects false (D := fun s l _ => s.asRef = ok l ∧ s.intoVec = l) ⟨_, IntoVec.law, [], IntoVec.ready_fromVec [7]⟩

/-! ## C30 -/

/-- **C30.** A `TestProducer` emits its items and then its final value or error, for all sizes of exposed slices, all yield
patterns, and every mix of calls; in test builds and others. -/
theorem test_producer_plays (test : Bool) (items : List I) (last : Except E F) (sizes : List NonZero)
    (pattern : Option (List Bool)) :
    BulkPlays (TestProducer.producer test I F E) (TestProducer.new items last sizes pattern) (Script.ofList items last) :=
  ⟨_, TestProducer.law test, 0, TestProducer.ready_new test items last sizes pattern⟩

/-- The public type. -/
theorem test_producer_public_plays (test : Bool) (items : List I) (last : Except E F) (sizes : List NonZero)
    (pattern : Option (List Bool)) :
    BulkPlays (publicProducer test (TestProducer.producer test I F E)) (.new (TestProducer.new items last sizes pattern))
      (Script.ofList items last) :=
  public_producer_plays test (test_producer_plays test items last sizes pattern)

example : BulkPlays (publicProducer true (TestProducer.producer true Nat Unit String))
    (.new (TestProducer.new [1, 2, 3] (.error "e") [⟨2, by decide⟩, ⟨1, by decide⟩] (some [true, true])))
    (Script.ofList [1, 2, 3] (.error "e")) :=
  test_producer_public_plays true [1, 2, 3] (.error "e") _ _

theorem Script.ofList_inj {xs ys : List I} {a b : Except E F} (h : Script.ofList xs a = Script.ofList ys b) :
    xs = ys ∧ a = b := by
  have hl : xs = ys := by
    apply List.ext_getElem?
    intro i
    have hi := congrFun h i
    simp only [Script.ofList] at hi
    rcases hx : xs[i]? with _ | x <;> rcases hy : ys[i]? with _ | y
    · rfl
    · rw [hx, hy] at hi; cases a <;> simp [Except.map] at hi
    · rw [hx, hy] at hi; cases b <;> simp [Except.map] at hi
    · rw [hx, hy] at hi; simpa using hi
  subst hl
  refine ⟨rfl, ?_⟩
  have := congrFun h xs.length
  rw [Script.ofList_end, Script.ofList_end] at this
  cases a <;> cases b <;> simpa [Except.map] using this

/-- What the accessors of a `TestProducer` say, after every history of calls. -/
theorem test_producer_accessors (test : Bool) (items : List I) (last : Except E F) (sizes : List NonZero)
    (pattern : Option (List Bool)) {handed shown : List I} {s : TestProducer I F E} {ended : Option (Except E F)}
    (h : ProducerRuns (TestProducer.producer test I F E) (TestProducer.new items last sizes pattern) handed s shown ended) :
    s.intoData = (items, s.peekLast) ∧
    (ended = none → s.remaining = ok (items.drop handed.length) ∧ s.peekLast = some last ∧ s.didAlreadyEmitLast = false) ∧
    (∀ r, ended = some r → s.peekLast = none ∧ s.didAlreadyEmitLast = true) := by
  have hmain : s.inner.inner.data = items ∧ (∀ r, ended = some r → s.last = none) := by
    cases h with
    | start => exact ⟨rfl, by simp⟩
    | @call handed s shown op s' r hr hop hcall =>
      have key : ∀ {handed shown ended} {s : TestProducer I F E}, ProducerRuns (TestProducer.producer test I F E)
          (TestProducer.new items last sizes pattern) handed s shown ended → ended = none →
          s.inner.inner.data = items → ∀ {op s' r}, op.Allowed shown →
          (TestProducer.producer test I F E).call s shown op = ok (s', r) →
          s'.inner.inner.data = items ∧ (∀ e, r.ended = some e → s'.last = none) := by
        intro handed shown ended s hruns hend hdata op s' r hop hcall
        obtain ⟨_, h2, _⟩ := hruns.after (TestProducer.law test) (TestProducer.ready_new test items last sizes pattern)
        obtain ⟨_, ⟨m, hm⟩, hsh⟩ := h2 hend
        cases op with
        | produce =>
          obtain ⟨s₁, h1, h3, h4⟩ := TestProducer.produce_law hm
          have h1' : (TestProducer.producer test I F E).produce s = ok (s₁, _) := h1
          simp only [BulkProducer.call, h1', bind_ok] at hcall
          rcases h4 with ⟨x, h5, _⟩ | ⟨h5, h6⟩
          · rw [h5] at hcall
            obtain ⟨rfl, rfl⟩ : s₁ = s' ∧ _ = r := by simpa using hcall
            exact ⟨h3.trans hdata, by simp⟩
          · rcases hc : (Script.ofList items last).drop handed.length 0 with e | x | f
            · rw [hc] at hcall
              obtain ⟨rfl, rfl⟩ : s₁ = s' ∧ _ = r := by simpa using hcall
              exact ⟨h3.trans hdata, fun _ _ => h6⟩
            · exact absurd hc (h5 x)
            · rw [hc] at hcall
              obtain ⟨rfl, rfl⟩ : s₁ = s' ∧ _ = r := by simpa using hcall
              exact ⟨h3.trans hdata, fun _ _ => h6⟩
        | slurp =>
          obtain ⟨s₁, h3, ⟨h1, _⟩ | ⟨e, _, h1, h4⟩⟩ := TestProducer.slurp_law hm
          · have h1' : (TestProducer.producer test I F E).slurp s = ok (s₁, _) := h1
            simp only [BulkProducer.call, h1', bind_ok] at hcall
            obtain ⟨rfl, rfl⟩ : s₁ = s' ∧ _ = r := by simpa using hcall
            exact ⟨by rw [h3]; exact hdata, by simp⟩
          · have h1' : (TestProducer.producer test I F E).slurp s = ok (s₁, _) := h1
            simp only [BulkProducer.call, h1', bind_ok] at hcall
            obtain ⟨rfl, rfl⟩ : s₁ = s' ∧ _ = r := by simpa using hcall
            exact ⟨by rw [h3]; exact hdata, fun _ _ => h4⟩
        | exposeItems =>
          obtain ⟨s₁, h3, ⟨xs, _, _, h1, _⟩ | ⟨f, _, h1, h4⟩ | ⟨e, _, h1, h4⟩⟩ := TestProducer.expose_law hm
          all_goals
            have h1' : (TestProducer.producer test I F E).exposeItems s = ok (s₁, _) := h1
            simp only [BulkProducer.call, h1', bind_ok] at hcall
            obtain ⟨rfl, rfl⟩ : s₁ = s' ∧ _ = r := by simpa using hcall
            refine ⟨by rw [h3]; exact hdata, ?_⟩
          · simp
          · exact fun _ _ => h4
          · exact fun _ _ => h4
        | considerProduced k =>
          have hm' := hsh hop.1
          obtain ⟨s₁, h1, _, h3⟩ := TestProducer.consider_law hm' (List.length_pos_iff.mpr hop.1) hop.2
          have h1' : (TestProducer.producer test I F E).considerProduced s k = ok (s₁, _) := h1
          simp only [BulkProducer.call, h1', bind_ok] at hcall
          obtain ⟨rfl, rfl⟩ : s₁ = s' ∧ _ = r := by simpa using hcall
          exact ⟨by rw [h3]; exact hdata, by simp⟩
        | bulkProduce buf =>
          have hdef : (TestProducer.producer test I F E).bulkProduce s buf =
            bulkProduceDefault (TestProducer.exposeItems test) (TestProducer.considerProduced test) s buf := rfl
          obtain ⟨s₁, h3, ⟨xs, hne, _, h1, hr1⟩ | ⟨f, _, h1, h4⟩ | ⟨e, _, h1, h4⟩⟩ := TestProducer.expose_law hm
          · obtain ⟨s₂, h5, _, h6⟩ := TestProducer.consider_law (k := min xs.length buf.length) hr1
              (List.length_pos_iff.mpr hne) (Nat.min_le_left _ _)
            simp only [BulkProducer.call, hdef, bulkProduceDefault, bind_eq, h1, h5, bind_ok, pure_eq] at hcall
            obtain ⟨rfl, rfl⟩ : s₂ = s' ∧ _ = r := by simpa using hcall
            exact ⟨by rw [h6, h3]; exact hdata, by simp⟩
          · simp only [BulkProducer.call, hdef, bulkProduceDefault, bind_eq, h1, bind_ok, pure_eq] at hcall
            obtain ⟨rfl, rfl⟩ : s₁ = s' ∧ _ = r := by simpa using hcall
            exact ⟨by rw [h3]; exact hdata, fun _ _ => h4⟩
          · simp only [BulkProducer.call, hdef, bulkProduceDefault, bind_eq, h1, bind_ok, pure_eq] at hcall
            obtain ⟨rfl, rfl⟩ : s₁ = s' ∧ _ = r := by simpa using hcall
            exact ⟨by rw [h3]; exact hdata, fun _ _ => h4⟩
      have hdata : ∀ {handed shown ended} {s : TestProducer I F E}, ProducerRuns (TestProducer.producer test I F E)
          (TestProducer.new items last sizes pattern) handed s shown ended → s.inner.inner.data = items := by
        intro handed shown ended s h
        induction h with
        | start => rfl
        | call hr hop hcall ih => exact (key hr rfl ih hop hcall).1
      exact key hr rfl (hdata hr) hop hcall
  refine ⟨by rw [← hmain.1]; rfl, ?_, ?_⟩
  · intro hend
    obtain ⟨h1, h2, _⟩ := h.after (TestProducer.law test) (TestProducer.ready_new test items last sizes pattern)
    obtain ⟨_, ⟨m, hm⟩, _⟩ := h2 hend
    have hlen : handed.length ≤ items.length := by
      rcases Nat.lt_or_ge items.length handed.length with hlt | hge
      · have := h1 items.length (handed[items.length]) (List.getElem?_eq_getElem hlt)
        rw [Script.ofList_end] at this
        cases last <;> simp [Except.map] at this
      · exact hge
    have hrem := hm.remaining
    obtain ⟨_, _, _, last', hl, heq⟩ := hm
    rw [Script.ofList_drop _ _ _ hlen] at heq
    obtain ⟨h4, h5⟩ := Script.ofList_inj heq
    subst h5
    exact ⟨by rw [hrem, h4], hl, by simp [TestProducer.didAlreadyEmitLast, hl]⟩
  · intro r hr
    have := hmain.2 r hr
    exact ⟨this, by simp [TestProducer.didAlreadyEmitLast, this]⟩

example : ∃ s : TestProducer Nat Unit String, ProducerRuns (TestProducer.producer true Nat Unit String)
    (TestProducer.new [1, 2] (.error "e") [] none) [1] s [] none ∧ s.remaining = ok [2] ∧ s.peekLast = some (.error "e") := by
  obtain ⟨s, h⟩ : ∃ s, ProducerRuns (TestProducer.producer true Nat Unit String) (TestProducer.new [1, 2] (.error "e") [] none)
    [1] s [] none := ⟨_, .call (op := .produce) (r := ⟨[_], [], none⟩) .start trivial rfl⟩
  have h1 := (test_producer_accessors true _ _ _ _ h).2.1 rfl
  exact ⟨s, h, h1.1, h1.2.1⟩

/-- **C30**, sizes: after `k` calls of `expose_items` that returned items (and arbitrary calls of other methods), the next one
exposes as many of the remaining items as the `k`-th of the configured sizes (counted cyclically) permits; all of them if no
sizes have been configured. -/
theorem test_producer_exposes (test : Bool) (items : List I) (last : Except E F) (sizes : List NonZero)
    (pattern : Option (List Bool)) {k : Nat} {s s' : TestProducer I F E} {xs : List I}
    (h : ProducerExposures (TestProducer.producer test I F E) (TestProducer.new items last sizes pattern) k s)
    (hx : (TestProducer.producer test I F E).exposeItems s = ok (s', .ok (.inl xs))) :
    ∃ rem, s.remaining = ok rem ∧
      (sizes = [] → xs = rem) ∧
      (∀ size, sizes[k % sizes.length]? = some size → xs = rem.take (min rem.length size.val)) := by
  have hz := h.sizes
  obtain ⟨_, ⟨_, h1⟩ | ⟨ys, hys, ⟨h1, h2, h3⟩ | ⟨z, z', m, rem, h1, h2, h3, h4, h5⟩⟩⟩ := TestProducer.exposeItems_frame hx
  · exact absurd rfl (h1 xs)
  · obtain ⟨⟩ := hys
    refine ⟨xs, h3, fun _ => rfl, ?_⟩
    intro size hsize
    rw [h1] at hz
    unfold sizesAfter at hz
    split at hz
    · cases hz
    · rename_i hlen
      obtain rfl : sizes = [] := List.length_eq_zero_iff.mp (by omega)
      simp at hsize
  · obtain ⟨⟩ := hys
    rw [h1] at hz
    obtain ⟨_, x, h6, rfl⟩ := sizesAfter_next hz.symm h3
    refine ⟨rem, h4, ?_, ?_⟩
    · rintro rfl
      simp at h6
    · intro size hsize
      rw [h6] at hsize
      obtain ⟨⟩ := hsize
      exact h5

/-- The first exposed slice has size 2, the second has size 1, the third has size 2 again. -/
example : ∃ s₁ s₂ : TestProducer Nat Unit String,
    (TestProducer.producer true Nat Unit String).exposeItems
      (TestProducer.new [1, 2, 3, 4] (.ok ()) [⟨2, by decide⟩, ⟨1, by decide⟩] none) = ok (s₁, .ok (.inl [1, 2])) ∧
    (TestProducer.producer true Nat Unit String).exposeItems s₁ = ok (s₂, .ok (.inl [1])) ∧
    ProducerExposures (TestProducer.producer true Nat Unit String)
      (TestProducer.new [1, 2, 3, 4] (.ok ()) [⟨2, by decide⟩, ⟨1, by decide⟩] none) 2 s₂ :=
  ⟨_, _, rfl, rfl, .expose (.expose .start rfl) rfl⟩

/-- A history that ends with the error. -/
example : ∃ s : TestProducer Nat Unit String, ProducerRuns (TestProducer.producer true Nat Unit String)
    (TestProducer.new [1] (.error "e") [] none) [1] s [] (some (.error "e")) :=
  ⟨_, .call (op := .slurp) (r := ⟨[], [], _⟩) (.call (op := .produce) (r := ⟨[_], [], none⟩) .start trivial rfl) trivial rfl⟩

/-! ## C31 -/

variable [Inhabited I]

/-- **C31.** A `TestConsumer` accepts exactly `n` items, records them (and the final value), and then fails with `e`; for all
sizes of exposed slices, all yield patterns, and every mix of calls; in test builds and others. -/
theorem test_consumer_collects (test : Bool) (e : E) (n : Nat) (sizes : List NonZero) (pattern : Option (List Bool)) :
    BulkCollects (TestConsumer.consumer test I F E) TestConsumer.Seen (Policy.failAfter n e)
      (TestConsumer.new e n sizes pattern) [] :=
  ⟨_, TestConsumer.law test n e, [], TestConsumer.ready_new test e n sizes pattern⟩

/-- The public type. -/
theorem test_consumer_public_collects (test : Bool) (e : E) (n : Nat) (sizes : List NonZero) (pattern : Option (List Bool)) :
    BulkCollects (publicConsumer test (TestConsumer.consumer test I F E)) (fun s => TestConsumer.Seen s.inner)
      (Policy.failAfter n e) (.new (TestConsumer.new e n sizes pattern)) [] :=
  public_consumer_collects test (test_consumer_collects test e n sizes pattern)

example : BulkCollects (publicConsumer true (TestConsumer.consumer true Nat Unit String)) (fun s => TestConsumer.Seen s.inner)
    (Policy.failAfter 3 "e") (.new (TestConsumer.new "e" 3 [⟨2, by decide⟩] (some [true, false]))) [] :=
  test_consumer_public_collects true "e" 3 _ _

/-- Two items have been consumed, of the two or of the four that are accepted. -/
theorem Case.test_runs : (∃ s : TestConsumer Nat Unit String, ConsumerRuns (TestConsumer.consumer true Nat Unit String)
      (TestConsumer.new "e" 2 [] none) [5, 6] s [] none) ∧
    ∃ s : TestConsumer Nat Unit String, ConsumerRuns (TestConsumer.consumer true Nat Unit String)
      (TestConsumer.new "e" 4 [] none) [5, 6] s [] none :=
  ⟨⟨_, .call (op := .consume 6) (r := ⟨[6], [], none⟩) (.call (op := .consume 5) (r := ⟨[5], [], none⟩) .start trivial rfl)
    trivial rfl⟩,
    _, .call (op := .consume 6) (r := ⟨[6], [], none⟩) (.call (op := .consume 5) (r := ⟨[5], [], none⟩) .start trivial rfl)
    trivial rfl⟩

/-- At all times, at most `n` items have been consumed, and the accessors report them. -/
theorem test_consumer_records (test : Bool) (e : E) (n : Nat) (sizes : List NonZero) (pattern : Option (List Bool))
    {taken slots : List I} {s : TestConsumer I F E}
    (h : ConsumerRuns (TestConsumer.consumer test I F E) (TestConsumer.new e n sizes pattern) taken s slots none) :
    taken.length ≤ n ∧ s.Seen taken none ∧ s.peekError = some e ∧ s.didError = false := by
  obtain ⟨_, ⟨sl, hr⟩, _⟩ := h.after (TestConsumer.law test n e) (TestConsumer.ready_new test e n sizes pattern)
  rw [List.nil_append] at hr
  have := hr.count
  exact ⟨by omega, hr.seen, hr.error, by simp [TestConsumer.didError, hr.error]⟩

example : ∃ s : TestConsumer Nat Unit String, s.Seen [5, 6] none ∧ s.didError = false :=
  let ⟨s, h⟩ := Case.test_runs.2
  ⟨s, (test_consumer_records _ _ _ _ _ h).2.1, (test_consumer_records _ _ _ _ _ h).2.2.2⟩

/-- While fewer than `n` items have been consumed, no method fails. -/
theorem test_consumer_accepts (test : Bool) (e : E) (n : Nat) (sizes : List NonZero) (pattern : Option (List Bool))
    {taken slots : List I} {s : TestConsumer I F E}
    (h : ConsumerRuns (TestConsumer.consumer test I F E) (TestConsumer.new e n sizes pattern) taken s slots none)
    (hn : taken.length < n) :
    (∀ x, ∃ s', (TestConsumer.consumer test I F E).consume s x = ok (s', .ok ())) ∧
    (∀ f, ∃ s', (TestConsumer.consumer test I F E).close s f = ok (s', .ok ()) ∧ s'.Seen taken (some f)) ∧
    (∃ s', (TestConsumer.consumer test I F E).flush s = ok (s', .ok ())) ∧
    (∃ s' slots, (TestConsumer.consumer test I F E).exposeSlots s = ok (s', .ok slots)) := by
  obtain ⟨_, ⟨sl, hr⟩, _⟩ := h.after (TestConsumer.law test n e) (TestConsumer.ready_new test e n sizes pattern)
  rw [List.nil_append] at hr
  refine ⟨?_, ?_, ?_, ?_⟩
  · intro x
    obtain ⟨s', ⟨_, h3, _⟩ | ⟨h3, _⟩⟩ := TestConsumer.consume_law hr x
    · exact ⟨s', h3⟩
    · exact absurd hn h3
  · intro f
    obtain ⟨s', ⟨_, h3, h4⟩ | ⟨h3, _⟩⟩ := TestConsumer.close_law hr f
    · exact ⟨s', h3, h4⟩
    · exact absurd hn h3
  · obtain ⟨s', ⟨_, h3, _⟩ | ⟨h3, _⟩⟩ := TestConsumer.flush_law hr
    · exact ⟨s', h3⟩
    · exact absurd hn h3
  · obtain ⟨s', ⟨_, slots', h3, _⟩ | ⟨h3, _⟩⟩ := TestConsumer.expose_law hr
    · exact ⟨s', slots', h3⟩
    · exact absurd hn h3

example : ∃ s s' : TestConsumer Nat Unit String, (TestConsumer.consumer true Nat Unit String).close s () = ok (s', .ok ()) ∧
    s'.Seen [5, 6] (some ()) :=
  let ⟨s, h⟩ := Case.test_runs.2
  ⟨s, (test_consumer_accepts _ _ _ _ _ h (by decide)).2.1 ()⟩

/-- Once `n` items have been consumed, every method fails with `e`, and nothing more is recorded. -/
theorem test_consumer_fails (test : Bool) (e : E) (n : Nat) (sizes : List NonZero) (pattern : Option (List Bool))
    {taken slots : List I} {s : TestConsumer I F E}
    (h : ConsumerRuns (TestConsumer.consumer test I F E) (TestConsumer.new e n sizes pattern) taken s slots none)
    (hn : taken.length = n) :
    ∃ s' : TestConsumer I F E, s'.Seen taken none ∧ s'.peekError = none ∧ s'.didError = true ∧
    (∀ x, (TestConsumer.consumer test I F E).consume s x = ok (s', .error e)) ∧
    (∀ f, (TestConsumer.consumer test I F E).close s f = ok (s', .error e)) ∧
    ((TestConsumer.consumer test I F E).flush s = ok (s', .error e)) ∧
    ((TestConsumer.consumer test I F E).exposeSlots s = ok (s', .error e)) ∧
    (∀ k, (TestConsumer.consumer test I F E).consumeSlots s k = ok (s', .error e)) ∧
    (∀ buf, (TestConsumer.consumer test I F E).bulkConsume s buf = ok (s', .error e)) := by
  obtain ⟨_, ⟨sl, hr⟩, _⟩ := h.after (TestConsumer.law test n e) (TestConsumer.ready_new test e n sizes pattern)
  rw [List.nil_append] at hr
  obtain ⟨s', hi, _, _, ⟨h3, _⟩ | ⟨h3, h4, h5, _⟩⟩ := hr.enter
  · omega
  · have herr : s'.error = none := by
      simp only [TestConsumer.enter, TestConsumer.checkError, bind_eq, bind_eq_ok] at h4
      obtain ⟨y, _, h4⟩ := h4
      split at h4
      · simp only [bind_eq_ok, pure_eq] at h4
        obtain ⟨_, _, h4⟩ := h4
        obtain ⟨rfl, _⟩ : _ = s' ∧ _ := by simpa using h4
        rfl
      · simp at h4
    have hex : (TestConsumer.consumer test I F E).exposeSlots s = ok (s', .error e) := by
      show s.exposeSlots test = _
      simp [TestConsumer.exposeSlots, h4]
    refine ⟨s', h5, herr, by simp [TestConsumer.didError, herr], ?_, ?_, ?_, hex, ?_, ?_⟩
    · intro x; show s.consume test x = _; simp [TestConsumer.consume, h4]
    · intro x; show s.close test x = _; simp [TestConsumer.close, h4]
    · show s.flush test = _; simp [TestConsumer.flush, h4]
    · intro x; show s.consumeSlots test x = _; simp [TestConsumer.consumeSlots, h4]
    · intro buf
      show bulkConsumeDefault (TestConsumer.consumer test I F E).exposeSlots (TestConsumer.consumer test I F E).writeSlots
        (TestConsumer.consumer test I F E).consumeSlots s buf = _
      simp [bulkConsumeDefault, hex]

example : ∃ s s' : TestConsumer Nat Unit String, s'.Seen [5, 6] none ∧
    (TestConsumer.consumer true Nat Unit String).bulkConsume s [7, 8] = ok (s', .error "e") :=
  let ⟨s, h⟩ := Case.test_runs.1
  let ⟨s', h1, _, _, _, _, _, _, _, h2⟩ := test_consumer_fails _ _ _ _ _ h rfl
  ⟨s, s', h1, h2 [7, 8]⟩

/-- **C31**, sizes: after `k` calls of `expose_slots` that returned slots, the next one exposes at least one slot, not more than
items may still be consumed, and at most the `k`-th of the configured sizes. It exposes as many as that unless that is more
than 2048. -/
theorem test_consumer_exposes (test : Bool) (e : E) (n : Nat) (sizes : List NonZero) (pattern : Option (List Bool))
    {taken slots slots' : List I} {k : Nat} {s s' : TestConsumer I F E}
    (h : ConsumerRuns (TestConsumer.consumer test I F E) (TestConsumer.new e n sizes pattern) taken s slots none)
    (hk : ConsumerExposures (TestConsumer.consumer test I F E) (TestConsumer.new e n sizes pattern) k s)
    (hx : (TestConsumer.consumer test I F E).exposeSlots s = ok (s', .ok slots')) :
    1 ≤ slots'.length ∧ taken.length + slots'.length ≤ n ∧
    (∀ size, sizes[k % sizes.length]? = some size →
      slots'.length ≤ size.val ∧ min (min size.val 2048) (n - taken.length) ≤ slots'.length) ∧
    (sizes = [] → min 2048 (n - taken.length) ≤ slots'.length) := by
  obtain ⟨_, ⟨sl, hr⟩, _⟩ := h.after (TestConsumer.law test n e) (TestConsumer.ready_new test e n sizes pattern)
  rw [List.nil_append] at hr
  have hx' : s.exposeSlots test = _ := hx
  obtain ⟨s'', ⟨h0, slots'', h3, _, h4, h5, h6, h7⟩ | ⟨h3, h4, _⟩⟩ := TestConsumer.expose_law hr
  · rw [hx'] at h3
    obtain ⟨⟩ := h3
    have hb : ∀ size, sizes[k % sizes.length]? = some size → s.bound = some size.val := by
      intro size hsize
      simp only [TestConsumer.bound, hk.sizes, sizesAfter]
      rw [if_pos]
      · simp [hsize]
      · rcases sizes with _ | _
        · simp at hsize
        · simp
    refine ⟨h4, by omega, ?_, ?_⟩
    · intro size hsize
      have := hb size hsize
      rw [this] at h7
      exact ⟨h6 _ this, h7⟩
    · rintro rfl
      have : s.bound = none := by simp [TestConsumer.bound, hk.sizes, sizesAfter]
      rw [this] at h7
      simpa using h7
  · rw [hx'] at h4; cases h4

/-- The hypotheses of `test_consumer_exposes` can be met: initially, one or two slots are exposed. -/
example : ∃ (s' : TestConsumer Nat Unit String) (slots' : List Nat), (TestConsumer.consumer true Nat Unit String).exposeSlots
      (TestConsumer.new "e" 3 [⟨2, by decide⟩] none) = ok (s', .ok slots') ∧ slots'.length = 2 := by
  obtain ⟨s', slots', h⟩ := (test_consumer_accepts (F := Unit) (I := Nat) true "e" 3 [⟨2, by decide⟩] none .start (by simp)).2.2.2
  have := test_consumer_exposes true "e" 3 [⟨2, by decide⟩] none .start .start h
  have h2 := this.2.2.1 ⟨2, by decide⟩ rfl
  simp at h2
  exact ⟨s', slots', h, by omega⟩

/-! ## C32 -/

theorem extended_eq (p : List Bool) : TestYielder.extended p = effectivePattern p := by
  unfold TestYielder.extended effectivePattern
  by_cases h : false ∈ p
  · rw [if_neg, if_pos h]
    intro ha
    rw [List.all_eq_true] at ha
    exact absurd (ha false h) (by simp)
  · rw [if_pos, if_neg h]
    rw [List.all_eq_true]
    intro b hb
    cases b
    · exact absurd hb h
    · rfl

theorem effectivePattern_length (p : List Bool) : (effectivePattern p).length ≤ p.length + 1 := by
  unfold effectivePattern; split <;> simp

theorem TestYielder.At.live {p : List Bool} {y : TestYielder} (h : y.At p) : y.Live :=
  ⟨by rw [h.1]; exact h.2, by rw [h.1, ← extended_eq]; exact TestYielder.false_mem_extended p⟩

/-- **C32.** For every pattern, including the empty one and those that are true throughout, and from every position on,
`maybe_yield` suspends at most as often as the pattern is long, exactly as the pattern says. -/
theorem yields_follow_pattern (p : List Bool) :
    (TestYielder.new p).At p ∧ (TestYielder.new p).index = 0 ∧
    ∀ y : TestYielder, y.At p → ∃ y' j, y.maybeYield = ok y' ∧ y'.At p ∧ j ≤ p.length ∧ y.Suspends p y' j := by
  refine ⟨⟨extended_eq p, ?_⟩, rfl, ?_⟩
  · rw [← extended_eq]; exact TestYielder.length_extended_pos p
  · intro y hy
    obtain ⟨j, h1, h2, h3, h4⟩ := y.maybeYield_spec hy.live
    have hl := effectivePattern_length p
    rw [hy.1] at h1 h2 h3
    refine ⟨y.after j, j, h4, ⟨hy.1, ?_⟩, by omega, h2, h3, ?_, rfl, rfl⟩
    · simp only [TestYielder.after, hy.1]
      exact Nat.mod_lt _ (by omega)
    · simp only [TestYielder.after, hy.1]

/-- An empty pattern never suspends; `[true]` suspends on every call. -/
example : ∃ y', (TestYielder.new []).maybeYield = ok y' ∧ y'.suspensions = 0 := by
  obtain ⟨h1, _, h2⟩ := yields_follow_pattern []
  obtain ⟨y', j, h3, _, h4, h5⟩ := h2 _ h1
  exact ⟨y', h3, by rw [h5.2.2.2.1]; simp at h4; simp [h4, TestYielder.new]⟩

example : ∃ y', (TestYielder.new [true]).maybeYield = ok y' ∧ y'.suspensions = 1 := by
  refine ⟨⟨[true, false], 0, 1, 1⟩, ?_, rfl⟩
  rw [TestYielder.maybeYield, loop_eq_of_fuel (n := 2)]
  · rfl
  · simp [loopFuel, TestYielder.awaitBody, TestYielder.poll, TestYielder.new, TestYielder.extended, Outcome.index, unwrap, mod]

/-- What a method that was called once did to the (optional) yielder of a test double. -/
def YieldsOnce (p : List Bool) (y y' : Option TestYielder) : Prop :=
  ∀ z, y = some z → z.At p → ∃ z' j, y' = some z' ∧ z'.At p ∧ j ≤ p.length ∧ z.Suspends p z' j

theorem yieldsOnce_of {p : List Bool} {y y' : Option TestYielder} (h : maybeYield y = ok y') : YieldsOnce p y y' := by
  rintro z rfl hz
  obtain ⟨z', j, h1, h2⟩ := (yields_follow_pattern p).2.2 z hz
  refine ⟨z', j, ?_, h2⟩
  simp only [maybeYield, h1, bind_eq, bind_ok, pure_eq] at h
  exact (Outcome.ok.inj h).symm

omit [Inhabited I] in
/-- A test double starts at the beginning of its pattern. -/
theorem test_doubles_start (items : List I) (last : Except E F) (e : E) (n : Nat) (sizes : List NonZero) (p : List Bool) :
    ∃ y, (TestProducer.new items last sizes (some p)).yielder = some y ∧
      (TestConsumer.new e n sizes (some p) : TestConsumer I F E).yielder = some y ∧ y.At p ∧ y.index = 0 ∧ y.suspensions = 0 := by
  refine ⟨TestYielder.new (TestYielder.extended p), rfl, rfl, ?_, rfl, rfl⟩
  have : TestYielder.new (TestYielder.extended p) = TestYielder.new p := by
    simp [TestYielder.new, TestYielder.extended_extended]
  rw [this]
  exact (yields_follow_pattern p).1

omit [Inhabited I] in
/-- **C32.** Every call of a required method of a `TestProducer` suspends at most as often as the pattern is long, as the
pattern says. -/
theorem test_producer_yields (test : Bool) (p : List Bool) (s s' : TestProducer I F E) :
    (∀ r, (TestProducer.producer test I F E).produce s = ok (s', r) → YieldsOnce p s.yielder s'.yielder) ∧
    (∀ r, (TestProducer.producer test I F E).slurp s = ok (s', r) → YieldsOnce p s.yielder s'.yielder) ∧
    (∀ r, (TestProducer.producer test I F E).exposeItems s = ok (s', r) → YieldsOnce p s.yielder s'.yielder) ∧
    (∀ k r, (TestProducer.producer test I F E).considerProduced s k = ok (s', r) → YieldsOnce p s.yielder s'.yielder) :=
  ⟨fun _ h => yieldsOnce_of (TestProducer.produce_frame h).1, fun _ h => yieldsOnce_of (TestProducer.slurp_frame h).1,
    fun _ h => yieldsOnce_of (TestProducer.exposeItems_frame h).1,
    fun _ _ h => yieldsOnce_of (TestProducer.considerProduced_frame h).1⟩

/-- **C32.** Every call of a required method of a `TestConsumer` suspends at most as often as the pattern is long, as the
pattern says. -/
theorem test_consumer_yields (test : Bool) (p : List Bool) (s s' : TestConsumer I F E) :
    (∀ x r, (TestConsumer.consumer test I F E).consume s x = ok (s', r) → YieldsOnce p s.yielder s'.yielder) ∧
    (∀ f r, (TestConsumer.consumer test I F E).close s f = ok (s', r) → YieldsOnce p s.yielder s'.yielder) ∧
    (∀ r, (TestConsumer.consumer test I F E).flush s = ok (s', r) → YieldsOnce p s.yielder s'.yielder) ∧
    (∀ r, (TestConsumer.consumer test I F E).exposeSlots s = ok (s', r) → YieldsOnce p s.yielder s'.yielder) ∧
    (∀ k r, (TestConsumer.consumer test I F E).consumeSlots s k = ok (s', r) → YieldsOnce p s.yielder s'.yielder) :=
  ⟨fun _ _ h => yieldsOnce_of (TestConsumer.consume_frame h).1, fun _ _ h => yieldsOnce_of (TestConsumer.close_frame h).1,
    fun _ h => yieldsOnce_of (TestConsumer.flush_frame h).1,
    fun _ h => yieldsOnce_of (TestConsumer.exposeSlots_frame h).1,
    fun _ _ h => yieldsOnce_of (TestConsumer.consumeSlots_frame h).1⟩

omit [Inhabited I] in
/-- **C32.** `bulk_produce` of a `TestProducer` makes at most two such calls. -/
theorem test_producer_bulk_yields (test : Bool) (p : List Bool) (s s' : TestProducer I F E) (buf r)
    (h : (TestProducer.producer test I F E).bulkProduce s buf = ok (s', r)) :
    ∃ y, YieldsOnce p s.yielder y ∧ (s'.yielder = y ∨ YieldsOnce p y s'.yielder) := by
  have h' : bulkProduceDefault (TestProducer.exposeItems test) (TestProducer.considerProduced test) s buf = ok (s', r) := h
  simp only [bulkProduceDefault, bind_eq, bind_eq_ok, pure_eq] at h'
  obtain ⟨⟨s₁, r₁⟩, h1, h2⟩ := h'
  refine ⟨s₁.yielder, yieldsOnce_of (TestProducer.exposeItems_frame h1).1, ?_⟩
  rcases r₁ with e | xs | f
  · obtain ⟨rfl, _⟩ : s₁ = s' ∧ _ := by simpa using h2
    exact .inl rfl
  · simp only [bind_eq_ok] at h2
    obtain ⟨⟨s₂, r₂⟩, h3, h4⟩ := h2
    have : s₂ = s' := by rcases r₂ with e | _ <;> · simp at h4; exact h4.1
    subst this
    exact .inr (yieldsOnce_of (TestProducer.considerProduced_frame h3).1)
  · obtain ⟨rfl, _⟩ : s₁ = s' ∧ _ := by simpa using h2
    exact .inl rfl

/-- The pattern says: suspend twice, then go on. -/
example : ∃ (s' : TestProducer Nat Unit String) (y : Option TestYielder),
    YieldsOnce [true, true, false] (some (TestYielder.new [true, true, false])) y ∧
    (s'.yielder = y ∨ YieldsOnce [true, true, false] y s'.yielder) := by
  obtain ⟨R, hR, n, hn⟩ := test_producer_plays true [1, 2, 3] (.error "e" : Except String Unit) [] (some [true, true, false])
  obtain ⟨s', buf', _, ⟨k, _, _, h, _⟩ | ⟨f, h, _⟩ | ⟨e, h, _⟩⟩ := hR.bulkProduce _ _ _ [0, 0] hn (by simp)
  · exact ⟨s', test_producer_bulk_yields true [true, true, false] _ s' [0, 0] _ h⟩
  · cases h
  · cases h

/-- **C32.** `bulk_consume` of a `TestConsumer` makes at most two such calls. -/
theorem test_consumer_bulk_yields (test : Bool) (p : List Bool) (s s' : TestConsumer I F E) (buf r)
    (h : (TestConsumer.consumer test I F E).bulkConsume s buf = ok (s', r)) :
    ∃ y, YieldsOnce p s.yielder y ∧ (s'.yielder = y ∨ YieldsOnce p y s'.yielder) := by
  have h' : bulkConsumeDefault (TestConsumer.exposeSlots test) (TestConsumer.consumer test I F E).writeSlots
    (TestConsumer.consumeSlots test) s buf = ok (s', r) := h
  simp only [bulkConsumeDefault, bind_eq, bind_eq_ok, pure_eq] at h'
  obtain ⟨⟨s₁, r₁⟩, h1, h2⟩ := h'
  refine ⟨s₁.yielder, yieldsOnce_of (TestConsumer.exposeSlots_frame h1).1, ?_⟩
  rcases r₁ with e | xs
  · obtain ⟨rfl, _⟩ : s₁ = s' ∧ _ := by simpa using h2
    exact .inl rfl
  · simp only [bind_eq_ok] at h2
    obtain ⟨⟨s₂, r₂⟩, h3, h4⟩ := h2
    have : s₂ = s' := by rcases r₂ with e | _ <;> · simp at h4; exact h4.1
    subst this
    exact .inr (yieldsOnce_of (TestConsumer.consumeSlots_frame h3).1)

example : ∃ (s' : TestConsumer Nat Unit String) (y : Option TestYielder),
    YieldsOnce [true, true, false] (some (TestYielder.new [true, true, false])) y ∧
    (s'.yielder = y ∨ YieldsOnce [true, true, false] y s'.yielder) := by
  obtain ⟨R, hR, n, hn⟩ := test_consumer_collects (I := Nat) (F := Unit) true "e" 2 [] (some [true, true, false])
  obtain ⟨s', ⟨k, _, _, _, h, _⟩ | ⟨i, e, _, h, _⟩⟩ := hR.bulkConsume _ _ _ [5, 6] hn (by simp)
  · exact ⟨s', test_consumer_bulk_yields true [true, true, false] _ s' [5, 6] _ h⟩
  · exact ⟨s', test_consumer_bulk_yields true [true, true, false] _ s' [5, 6] _ h⟩

end

end Verif
