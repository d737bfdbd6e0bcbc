import Verif.Lemmas.WordTest
import Verif.Props.WordAdaptors
import Verif.Props.TestDoubles

/-!
# C64: `TestProducer` and `TestConsumer` with machine arithmetic
-/

namespace Verif

open Outcome

theorem word_public_producer (w : Word) {σ I F E : Type} (test : Bool) (P : BulkProducer σ I F E) :
    wordPublicProducer w test P = publicProducer test P := by
  cases test
  · rfl
  · exact word_invariant_producer w P

theorem word_public_consumer (w : Word) {σ I F E : Type} (test : Bool) (C : BulkConsumer σ I F E) :
    wordPublicConsumer w test C = publicConsumer test C := by
  cases test
  · rfl
  · exact word_invariant_consumer w C

/-! ## `TestProducer` -/

section

variable {I F E : Type}

/-- **C64, `TestProducer`** does not overflow: the items, the sizes and the pattern (to which `false` may have to be appended) fit in
memory. -/
theorem word_test_producer_same (w : Word) (test : Bool) (items : List I) (last : Except E F) (sizes : List NonZero)
    (pattern : Option (List Bool)) (hi : items.length < w.size) (hz : sizes.length < w.size)
    (hp : ∀ p, pattern = some p → p.length + 1 < w.size) :
    (WordTestProducer.producer w test I F E).Same (TestProducer.producer test I F E) (.new items last sizes pattern) := by
  refine BulkProducer.same_of_default rfl rfl fun handed s shown hr => ?_
  obtain ⟨h1, h2, h3, h4⟩ := (TestProducer.keeps w test).runs rfl (s₀ := .new items last sizes pattern)
    ⟨hi, Nat.zero_le _, yielderFits_new hp, sizesFit_new hz⟩ hr rfl
  have hy := word_maybeYield w h3
  have hprod : (WordTestProducer.slice w test).produce s.inner = (TestProducer.slice test).produce s.inner := by
    simp only [WordTestProducer.slice, word_public_producer]
    refine publicProducer_congr.1 ?_
    simp only [WordFromBoxedSlice.producer, WordFromBoxedSlice.produce, FromBoxedSlice.producer, FromBoxedSlice.produce]
    by_cases h : s.inner.inner.data.length = s.inner.inner.pos
    · simp [h]
    · rw [Word.add_ok (by omega)]; rfl
  have hexp : (WordTestProducer.slice w test).exposeItems s.inner = (TestProducer.slice test).exposeItems s.inner := by
    simp only [WordTestProducer.slice, word_public_producer]
    exact publicProducer_congr.2.1 rfl
  have hcon : ∀ k, k ≤ shown.length →
      (WordTestProducer.slice w test).considerProduced s.inner k = (TestProducer.slice test).considerProduced s.inner k := by
    intro k hk
    simp only [WordTestProducer.slice, word_public_producer]
    refine publicProducer_congr.2.2 k ?_
    simp only [WordFromBoxedSlice.producer, WordFromBoxedSlice.considerProduced, FromBoxedSlice.producer,
      FromBoxedSlice.considerProduced]
    rw [Word.add_ok (by omega)]; rfl
  refine ⟨?_, ?_, ?_, fun k hk => ?_⟩
  · simp only [WordTestProducer.producer, WordTestProducer.produce, TestProducer.producer, TestProducer.produce, hy, hprod]
  · simp only [WordTestProducer.producer, WordTestProducer.slurp, TestProducer.producer, TestProducer.slurp, hy]
    rfl
  · simp only [WordTestProducer.producer, WordTestProducer.exposeItems, TestProducer.producer, TestProducer.exposeItems, hy, hexp]
    rcases hs : s.sizes with _ | z
    · rfl
    · simp only [word_next_size w (h4 z hs)]
  · simp only [WordTestProducer.producer, WordTestProducer.considerProduced, TestProducer.producer, TestProducer.considerProduced, hy]
    rcases hm : maybeYield s.yielder with y | _ | _ <;> (try rfl) <;> simp only [bind_eq, bind_ok]
    rcases ht : TestProducer.takeError { s with yielder := y } with ⟨t, o⟩ | _ | _ <;> (try rfl) <;> simp only [bind_ok]
    cases o with
    | some e => rfl
    | none =>
      rw [TestProducer.takeError_none ht]
      simp only [hcon k hk]

/-- So everything proved of `TestProducer` holds with machine arithmetic. -/
theorem word_test_producer_plays (w : Word) (test : Bool) (items : List I) (last : Except E F) (sizes : List NonZero)
    (pattern : Option (List Bool)) (hi : items.length < w.size) (hz : sizes.length < w.size)
    (hp : ∀ p, pattern = some p → p.length + 1 < w.size) :
    BulkPlays (WordTestProducer.producer w test I F E) (.new items last sizes pattern) (Script.ofList items last) :=
  (word_test_producer_same w test items last sizes pattern hi hz hp).plays (test_producer_plays test items last sizes pattern)

example : BulkPlays (WordTestProducer.producer .wrapping64 true Nat Unit String)
    (.new [1, 2, 3] (.error "bad") [⟨2, by decide⟩] (some [true, false, true])) (Script.ofList [1, 2, 3] (.error "bad")) :=
  word_test_producer_plays _ _ _ _ _ _ (by decide) (by decide) (by rintro _ ⟨⟩; decide)

/-- Not so if there are only two words but a pattern of three: without overflow checks, the last element is never looked at. -/
example : WordTestYielder.poll ⟨2, false⟩ ⟨[true, true, false], 1, 0, 0⟩ = ok (⟨[true, true, false], 0, 1, 0⟩, true) := rfl

end

/-! ## `TestConsumer` -/

section

variable {I F E : Type} [Inhabited I]

/-- What it takes for a call of `TestConsumer` not to overflow. -/
theorem word_test_consumer_at (w : Word) (test : Bool) {n : Nat} {s : TestConsumer I F E} {slots : List I}
    (hf : s.Fits w n slots.length) (hw : 2 * s.inner.inner.consumed + 4097 < w.size) :
    (WordTestConsumer.consumer w test I F E).AgreeAt (TestConsumer.consumer test I F E) s slots := by
  have h1 := hf.consumed
  have h2 := hf.slots
  have h3 := hf.length
  have hat := WordIntoVec.sameAt w (s := s.inner.inner) (slots := slots) h1 h2 (by omega) (by omega)
  obtain ⟨a1, a2, a3, a4, a5, a6⟩ := hat
  have he : WordTestConsumer.enter w s = s.enter := by
    simp only [WordTestConsumer.enter, TestConsumer.enter, word_maybeYield w hf.yielder]
  -- the prologue, once and for all
  have enter : ∀ {A : Type} {f g : TestConsumer I F E × Option E → Outcome A},
      (∀ t e, f (t, some e) = g (t, some e)) →
      (∀ y, 0 < s.consumptionsUntilError → f ({ s with yielder := y }, none) = g ({ s with yielder := y }, none)) →
      (WordTestConsumer.enter w s).bind f = s.enter.bind g := by
    intro A f g hs hn
    rw [he]
    rcases ht : s.enter with ⟨t, o⟩ | _ | _ <;> (try rfl) <;> simp only [bind_ok]
    cases o with
    | some e => exact hs t e
    | none =>
      obtain ⟨y, _, rfl, h0⟩ := TestConsumer.enter_none ht
      exact hn y h0
  refine ⟨fun x => ?_, fun f => ?_, ?_, ?_, fun ws hws => ?_, fun k hk => ?_⟩
  · refine enter (fun _ _ => rfl) fun y h0 => ?_
    have : (WordTestConsumer.vec w test).consume s.inner x = (TestConsumer.vec test).consume s.inner x := by
      simp only [WordTestConsumer.vec, word_public_consumer]
      exact publicConsumer_congr.1 x (a1 x)
    simp only [this]
    rw [Word.sub_ok (by omega), sub_of_le (by omega)]
  · refine enter (fun _ _ => rfl) fun y h0 => ?_
    have : (WordTestConsumer.vec w test).close s.inner () = (TestConsumer.vec test).close s.inner () := by
      simp only [WordTestConsumer.vec, word_public_consumer]
      exact publicConsumer_congr.2.1 () (a2 ())
    simp only [this]
  · refine enter (fun _ _ => rfl) fun y h0 => ?_
    have : (WordTestConsumer.vec w test).flush s.inner = (TestConsumer.vec test).flush s.inner := by
      simp only [WordTestConsumer.vec, word_public_consumer]
      exact publicConsumer_congr.2.2.1 a3
    simp only [this]
  · refine enter (fun _ _ => rfl) fun y h0 => ?_
    have hloop : ∀ m, m ≤ 2048 → loop (WordTestConsumer.growBody w m) s.inner.inner = loop (TestConsumer.growBody m) s.inner.inner := by
      intro m hm
      refine loop_agree (fun v => v.consumed = s.inner.inner.consumed ∧ v.consumed ≤ v.v.length) ?_ ⟨rfl, h1⟩
      rintro v ⟨g1, g2⟩
      simp only [WordTestConsumer.growBody, TestConsumer.growBody, WordIntoVec.remainingSlots, IntoVec.remainingSlots,
        WordIntoVec.makeSpaceEvenIfNotNeeded, bind_eq]
      rw [Word.sub_ok g2, sub_of_le g2]
      simp only [bind_ok]
      by_cases hlt : v.v.length - v.consumed < m
      · rw [if_pos hlt, if_pos hlt, Word.mul_ok (by omega)]
        simp only [bind_ok]
        rw [Word.add_ok (by omega)]
        refine ⟨rfl, ?_⟩
        intro u hu
        cases hu
        rw [TestConsumer.length_makeSpaceEven]
        exact ⟨g1, by simp only [IntoVec.makeSpaceEvenIfNotNeeded]; omega⟩
      · rw [if_neg hlt, if_neg hlt]
        exact ⟨rfl, by intro u hu; cases hu⟩
    have hexp : ∀ v : IntoVec I, v.consumed = s.inner.inner.consumed → v.consumed ≤ v.v.length → v.v.length ≤ 2 * v.consumed + 4097 →
        (WordTestConsumer.vec w test).exposeSlots { s.inner with inner := v } =
          (TestConsumer.vec test).exposeSlots { s.inner with inner := v } := by
      intro v g1 g2 g3
      simp only [WordTestConsumer.vec, word_public_consumer]
      obtain ⟨_, _, _, b4, _⟩ := WordIntoVec.sameAt w (s := v) (slots := []) g2 (Nat.zero_le _) (by omega) (by omega)
      exact publicConsumer_congr.2.2.2.1 b4
    have hlen : ∀ {v : IntoVec I} {u : InvariantSt (IntoVec I)} {xs}, v.consumed = s.inner.inner.consumed → v.consumed ≤ v.v.length →
        v.v.length ≤ 2 * v.consumed + 4097 →
        (TestConsumer.vec test).exposeSlots { s.inner with inner := v } = ok (u, .ok xs) → xs.length ≤ w.max := by
      intro v u xs g1 g2 g3 hx
      have hx := publicConsumer_exposeSlots hx
      obtain ⟨k1, k2, _⟩ := v.makeSpaceIfNeeded_spec g2
      have k3 := TestConsumer.makeSpace_keeps g2 g3
      simp only [IntoVec.consumer, IntoVec.exposeSlots] at hx
      rw [slice_of_le (by omega) (Nat.le_refl _)] at hx
      simp at hx
      rw [← hx.2]
      simp only [List.length_drop, Word.max]
      omega
    rcases hz : s.sizes with _ | z
    · simp only [WordTestConsumer.nextSize, TestConsumer.nextSize, pure_eq, bind_eq, bind_ok]
      rw [Nat.min_eq_right (by simp only [Word.max]; omega), hloop 2048 (Nat.le_refl _)]
      rcases hv : loop (TestConsumer.growBody 2048) s.inner.inner with v | _ | _ <;> (try rfl) <;> simp only [bind_ok]
      obtain ⟨g1, g2, g3⟩ := TestConsumer.grow_keeps (Nat.le_refl _) hv h1 h3
      rw [hexp v g1 g2 g3]
      rcases hx : (TestConsumer.vec test).exposeSlots { s.inner with inner := v } with ⟨u, e | xs⟩ | _ | _ <;>
        (try rfl) <;> simp only [bind_ok]
      simp only [unwrapResult, bind_ok]
      rw [Nat.min_eq_left (hlen g1 g2 g3 hx)]
    · simp only [WordTestConsumer.nextSize, TestConsumer.nextSize, bind_eq, word_next_size w (hf.sizes z hz)]
      rcases hn : z.next with ⟨z', m⟩ | _ | _ <;> (try rfl) <;> simp only [bind_ok]
      simp only [pure_eq, bind_ok]
      rw [hloop _ (Nat.min_le_right _ _)]
      rcases hv : loop (TestConsumer.growBody (min m 2048)) s.inner.inner with v | _ | _ <;> (try rfl) <;> simp only [bind_ok]
      obtain ⟨g1, g2, g3⟩ := TestConsumer.grow_keeps (Nat.min_le_right _ _) hv h1 h3
      rw [hexp v g1 g2 g3]
  · simp only [WordTestConsumer.consumer, TestConsumer.consumer, WordTestConsumer.vec, word_public_consumer, TestConsumer.vec,
      publicConsumer_writeSlots]
    rfl
  · refine enter (fun _ _ => rfl) fun y h0 => ?_
    have : (WordTestConsumer.vec w test).consumeSlots s.inner k = (TestConsumer.vec test).consumeSlots s.inner k := by
      simp only [WordTestConsumer.vec, word_public_consumer]
      exact publicConsumer_congr.2.2.2.2 k (a6 k hk)
    have := hf.left
    simp only [*]
    rw [Word.sub_ok (by omega), sub_of_le (by omega)]

omit [Inhabited I] in
theorem TestConsumer.fits_new (w : Word) (e : E) (n : Nat) {sizes : List NonZero} {pattern : Option (List Bool)} (hz : sizes.length < w.size)
    (hp : ∀ p, pattern = some p → p.length + 1 < w.size) : (TestConsumer.new e n sizes pattern : TestConsumer I F E).Fits w n 0 :=
  ⟨Nat.le_refl _, Nat.zero_le _, Nat.zero_le _, Nat.zero_le _, Nat.zero_add _, yielderFits_new hp, sizesFit_new hz⟩

/-- **C64, `TestConsumer`.** As long as it has consumed `N` items with `2 * N + 4097 ≤ usize::MAX`, whatever number of items it is told to
accept. -/
theorem word_test_consumer_until (w : Word) (test : Bool) (e : E) (n N : Nat) (sizes : List NonZero) (pattern : Option (List Bool))
    (hw : 2 * N + 4097 < w.size) (hz : sizes.length < w.size) (hp : ∀ p, pattern = some p → p.length + 1 < w.size) :
    (WordTestConsumer.consumer w test I F E).SameUntil (TestConsumer.consumer test I F E) (.new e n sizes pattern) N := by
  refine BulkConsumer.sameUntil_of_default rfl rfl fun taken s slots hr hN => ?_
  have hf := (TestConsumer.keeps w test n).runs rfl (TestConsumer.fits_new w e n hz hp) hr rfl
  obtain ⟨_, ⟨sl, hR⟩, _⟩ := hr.after (TestConsumer.law test n e) (TestConsumer.ready_new test e n sizes pattern)
  have hlen := congrArg List.length hR.vec.2.1.2.1
  have hc := hf.consumed
  simp only [List.length_take, List.nil_append] at hlen
  exact word_test_consumer_at w test hf (by omega)

/-- If it is told to accept so few, at all times. -/
theorem word_test_consumer_same (w : Word) (test : Bool) (e : E) (n : Nat) (sizes : List NonZero) (pattern : Option (List Bool))
    (hw : 2 * n + 4097 < w.size) (hz : sizes.length < w.size) (hp : ∀ p, pattern = some p → p.length + 1 < w.size) :
    (WordTestConsumer.consumer w test I F E).Same (TestConsumer.consumer test I F E) (.new e n sizes pattern) := by
  refine BulkConsumer.same_of_default rfl rfl fun taken s slots hr => ?_
  have hf := (TestConsumer.keeps w test n).runs rfl (TestConsumer.fits_new w e n hz hp) hr rfl
  have hc := hf.count
  exact word_test_consumer_at w test hf (by omega)

example := word_test_consumer_same (I := Nat) (F := Unit) ⟨2 ^ 16, false⟩ true "full" 5 [⟨2, by decide⟩] (some [true]) (by decide) (by decide)
  (by rintro _ ⟨⟩; decide)

/-- So everything proved of `TestConsumer` holds with machine arithmetic. -/
theorem word_test_consumer_collects (w : Word) (test : Bool) (e : E) (n : Nat) (sizes : List NonZero) (pattern : Option (List Bool))
    (hw : 2 * n + 4097 < w.size) (hz : sizes.length < w.size) (hp : ∀ p, pattern = some p → p.length + 1 < w.size) :
    BulkCollects (WordTestConsumer.consumer w test I F E) TestConsumer.Seen (Policy.failAfter n e) (.new e n sizes pattern) [] :=
  (word_test_consumer_same w test e n sizes pattern hw hz hp).collects (test_consumer_collects test e n sizes pattern)

end

example : BulkCollects (WordTestConsumer.consumer .wrapping64 true Nat Unit String) TestConsumer.Seen (Policy.failAfter 4 "full")
    (.new "full" 4 [⟨2, by decide⟩, ⟨3, by decide⟩] (some [true])) [] :=
  word_test_consumer_collects _ _ _ _ _ _ (by decide) (by decide) (by rintro _ ⟨⟩; decide)

/-- A consumer that is told to accept `usize::MAX` items, for the first 2⁶² of them. -/
example : (WordTestConsumer.consumer .checked64 true Nat Unit String).SameUntil (TestConsumer.consumer true Nat Unit String)
    (.new "full" (2 ^ 64 - 1) [] none) (2 ^ 62) := word_test_consumer_until _ _ _ _ _ _ _ (by decide) (by decide) (by simp)

/-- All in all: `bulk_pipe` between the two, with machine arithmetic throughout. -/
example : bulkPipe (WordTestProducer.producer .wrapping64 true Nat Unit String) (WordTestConsumer.consumer .wrapping64 true Nat Unit String)
    (Case.pro (.ok ())) (Case.con 4) = bulkPipe Case.P Case.C (Case.pro (.ok ())) (Case.con 4) :=
  word_bulk_pipe (N := 3) (fun _ _ _ hr => (Case.plays (.ok ())).handed_le hr) (Case.plays _).showsSome (Case.collects 4).claimsAtMost
    (word_test_producer_same _ _ _ _ _ _ (by decide) (by decide) (by simp))
    (word_test_consumer_until _ _ _ _ _ _ _ (by decide) (by decide) (by simp))

example : pipe (WordTestProducer.producer .wrapping64 true Nat Unit String).toProducer
    (WordTestConsumer.consumer .wrapping64 true Nat Unit String).toConsumer (Case.pro (.error "e")) (Case.con 2) =
      pipe Case.P.toProducer Case.C.toConsumer (Case.pro (.error "e")) (Case.con 2) :=
  word_pipe (N := 3) (fun _ _ _ hr => (Case.plays (.error "e")).handed_le hr)
    (word_test_producer_same _ _ _ _ _ _ (by decide) (by decide) (by simp))
    (word_test_consumer_until _ _ _ _ _ _ _ (by decide) (by decide) (by simp))

end Verif
