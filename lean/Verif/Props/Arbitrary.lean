import Verif.Lemmas.Arbitrary
import Verif.Props.TestDoubles

/-!
# C60: test doubles that are created from random bytes
-/

namespace Verif

open Outcome Arbitrary

section

variable {I F E : Type}

/-- **C60**, producers: what is created from random bytes are exactly the `TestProducer`s with the parts that are created from
the bytes, one after the other. -/
theorem arbitrary_test_producer_iff (items : Arbitrary (List I)) (last : Arbitrary (Except E F))
    (nonZeros : Arbitrary (List NonZero)) (bools : Arbitrary (List Bool)) (error : Arbitrary E) (usize : Arbitrary Nat)
    (u u' : Unstructured) (p : InvariantSt (TestProducer I F E)) :
    (TestProducer.arbitrary items last nonZeros bools error usize).arbitrary u = .ok (p, u') ↔
      ∃ xs u₁ l u₂ sizes u₃ pattern, items.arbitrary u = .ok (xs, u₁) ∧ last.arbitrary u₁ = .ok (l, u₂) ∧
        nonZeros.arbitrary u₂ = .ok (sizes, u₃) ∧ bools.arbitrary u₃ = .ok (pattern, u') ∧
        p = .new (.new xs l sizes (some pattern)) := by
  simp only [TestProducer.arbitrary, Except.bind_eq_ok_iff, Prod.exists, pure, Except.pure, Except.ok.injEq, Prod.mk.injEq]
  constructor
  · rintro ⟨xs, u₁, h1, l, u₂, h2, sizes, u₃, h3, pattern, _, h4, rfl, rfl⟩
    exact ⟨xs, u₁, l, u₂, sizes, u₃, pattern, h1, h2, h3, h4, rfl⟩
  · rintro ⟨xs, u₁, l, u₂, sizes, u₃, pattern, h1, h2, h3, h4, rfl⟩
    exact ⟨xs, u₁, h1, l, u₂, h2, sizes, u₃, h3, pattern, _, h4, rfl, rfl⟩

/-- **C60**, producers: whatever the bytes, the producer emits the items and then the last value that were created from them, in
every mix of calls. -/
theorem arbitrary_test_producer_plays (test : Bool) (items : Arbitrary (List I)) (last : Arbitrary (Except E F))
    (nonZeros : Arbitrary (List NonZero)) (bools : Arbitrary (List Bool)) (error : Arbitrary E) (usize : Arbitrary Nat)
    {u u' : Unstructured} {p : InvariantSt (TestProducer I F E)}
    (h : (TestProducer.arbitrary items last nonZeros bools error usize).arbitrary u = .ok (p, u')) :
    ∃ xs u₁ l u₂, items.arbitrary u = .ok (xs, u₁) ∧ last.arbitrary u₁ = .ok (l, u₂) ∧
      BulkPlays (publicProducer test (TestProducer.producer test I F E)) p (Script.ofList xs l) := by
  obtain ⟨xs, u₁, l, u₂, sizes, u₃, pattern, h1, h2, _, _, rfl⟩ := (arbitrary_test_producer_iff ..).1 h
  exact ⟨xs, u₁, l, u₂, h1, h2, test_producer_public_plays test xs l sizes _⟩

example : ∃ p u', (TestProducer.arbitrary (.boxedSlice (.unsigned 1)) (.result (.unsigned 1) (.unsigned 1)) (.boxedSlice .nonZeroUsize)
      (.boxedSlice .bool) (.unsigned 1) .usize).arbitrary ⟨[1, 7, 1, 8, 0, 1, 9, 0, 1, 1], false⟩ = .ok (p, u') ∧
    BulkPlays (publicProducer true (TestProducer.producer true Nat Nat Nat)) p (Script.ofList [7, 8] (.ok 9)) :=
  ⟨.new (.new [7, 8] (.ok 9) [] (some [true])), ⟨[], true⟩, by rfl, test_producer_public_plays true [7, 8] (.ok 9) [] _⟩

/-- **C60**, consumers: what is created from random bytes are exactly the `TestConsumer`s with the parts that are created from
the bytes. -/
theorem arbitrary_test_consumer_iff (error : Arbitrary E) (usize : Arbitrary Nat) (nonZeros : Arbitrary (List NonZero))
    (bools : Arbitrary (List Bool)) (u u' : Unstructured) (c : InvariantSt (TestConsumer I F E)) :
    (TestConsumer.arbitrary error usize nonZeros bools).arbitrary u = .ok (c, u') ↔
      ∃ e u₁ n u₂ sizes u₃ pattern, error.arbitrary u = .ok (e, u₁) ∧ usize.arbitrary u₁ = .ok (n, u₂) ∧
        nonZeros.arbitrary u₂ = .ok (sizes, u₃) ∧ bools.arbitrary u₃ = .ok (pattern, u') ∧
        c = .new (.new e n sizes (some pattern)) := by
  simp only [TestConsumer.arbitrary, Except.bind_eq_ok_iff, Prod.exists, pure, Except.pure, Except.ok.injEq, Prod.mk.injEq]
  constructor
  · rintro ⟨xs, u₁, h1, l, u₂, h2, sizes, u₃, h3, pattern, _, h4, rfl, rfl⟩
    exact ⟨xs, u₁, l, u₂, sizes, u₃, pattern, h1, h2, h3, h4, rfl⟩
  · rintro ⟨xs, u₁, l, u₂, sizes, u₃, pattern, h1, h2, h3, h4, rfl⟩
    exact ⟨xs, u₁, h1, l, u₂, h2, sizes, u₃, h3, pattern, _, h4, rfl, rfl⟩

/-- **C60**, consumers: whatever the bytes, the consumer accepts as many items as the bytes say and fails then with the error
that was created from them, in every mix of calls. -/
theorem arbitrary_test_consumer_collects [Inhabited I] (test : Bool) (error : Arbitrary E) (usize : Arbitrary Nat)
    (nonZeros : Arbitrary (List NonZero)) (bools : Arbitrary (List Bool)) {u u' : Unstructured}
    {c : InvariantSt (TestConsumer I F E)}
    (h : (TestConsumer.arbitrary error usize nonZeros bools).arbitrary u = .ok (c, u')) :
    ∃ e u₁ n u₂, error.arbitrary u = .ok (e, u₁) ∧ usize.arbitrary u₁ = .ok (n, u₂) ∧
      BulkCollects (publicConsumer test (TestConsumer.consumer test I F E)) (fun s => TestConsumer.Seen s.inner)
        (Policy.failAfter n e) c [] := by
  obtain ⟨e, u₁, n, u₂, sizes, u₃, pattern, h1, h2, _, _, rfl⟩ := (arbitrary_test_consumer_iff ..).1 h
  exact ⟨e, u₁, n, u₂, h1, h2, test_consumer_public_collects test e n sizes _⟩

example : ∃ c u', (TestConsumer.arbitrary (.unsigned 1) .usize (.boxedSlice .nonZeroUsize) (.boxedSlice .bool)).arbitrary
      ⟨[7, 3, 0, 0, 0, 0, 0, 0, 0, 0, 1, 1, 0], false⟩ = .ok (c, u') ∧
    BulkCollects (publicConsumer true (TestConsumer.consumer true Nat Nat Nat)) (fun s => TestConsumer.Seen s.inner)
      (Policy.failAfter 3 7) c [] :=
  ⟨.new (.new 7 3 [] (some [true])), ⟨[], false⟩, by rfl, test_consumer_public_collects true 7 3 [] _⟩

/-- **C60**, yielders: what is created from random bytes are the yielders that never suspend forever (C32). -/
theorem arbitrary_test_yielder (bools : Arbitrary (List Bool)) {u u' : Unstructured} {y : TestYielder}
    (h : (TestYielder.arbitrary bools).arbitrary u = .ok (y, u')) :
    ∃ pattern y', bools.arbitrary u = .ok (pattern, u') ∧ y = .new pattern ∧ y.maybeYield = ok y' := by
  simp only [TestYielder.arbitrary, Except.bind_eq_ok_iff, Prod.exists, pure, Except.pure, Except.ok.injEq, Prod.mk.injEq] at h
  obtain ⟨pattern, _, h1, rfl, rfl⟩ := h
  obtain ⟨h2, _, h3⟩ := yields_follow_pattern pattern
  obtain ⟨y', _, h4, _⟩ := h3 _ h2
  exact ⟨pattern, y', h1, rfl, h4⟩

example : (TestYielder.arbitrary (.boxedSlice .bool)).arbitrary ⟨[1, 1, 1, 1, 0], false⟩ = .ok (.new [true, true], ⟨[], false⟩) := by
  rfl

/-! ## Size hints -/

/-- **C60**, consumers: the size hint of `TestConsumer` is right if those of its parts are. -/
theorem arbitrary_test_consumer_hint {error : Arbitrary E} {usize : Arbitrary Nat} {nonZeros : Arbitrary (List NonZero)}
    {bools : Arbitrary (List Bool)} (he : error.HintSound) (hu : usize.HintSound) (hn : nonZeros.HintSound)
    (hb : bools.HintSound) : (TestConsumer.arbitrary error usize nonZeros bools : Arbitrary (InvariantSt (TestConsumer I F E))).HintSound := by
  intro d u v u' h
  obtain ⟨e, u₁, n, u₂, sizes, u₃, pattern, h1, h2, h3, h4, rfl⟩ := (arbitrary_test_consumer_iff ..).1 h
  exact Used.and (he d _ _ _ h1) (Used.and (hu d _ _ _ h2) (Used.and (hn d _ _ _ h3) (Used.and (hb d _ _ _ h4) (.refl _))))

example : (TestConsumer.arbitrary (.unsigned 2) .usize (.boxedSlice .nonZeroUsize) (.boxedSlice .bool) :
    Arbitrary (InvariantSt (TestConsumer Nat Nat Nat))).HintSound :=
  arbitrary_test_consumer_hint (Arbitrary.hintSound_unsigned 2) (Arbitrary.hintSound_unsigned 8)
    (Arbitrary.hintSound_boxedSlice Arbitrary.hintSound_nonZeroUsize) (Arbitrary.hintSound_boxedSlice Arbitrary.hintSound_bool)

/-- **C60**, yielders: the size hint is right. -/
theorem arbitrary_test_yielder_hint {bools : Arbitrary (List Bool)} (hb : bools.HintSound) :
    (TestYielder.arbitrary bools).HintSound := by
  intro d u v u' h
  obtain ⟨_, _, h1, _⟩ := arbitrary_test_yielder bools h
  exact hb d _ _ _ h1

example : (TestYielder.arbitrary (.boxedSlice .bool)).HintSound :=
  arbitrary_test_yielder_hint (Arbitrary.hintSound_boxedSlice Arbitrary.hintSound_bool)

/-- The `TestProducer` of the fuzz targets: `TestProducer<u16, u16, u16>`, with the implementations of crate `arbitrary`. -/
def Arbitrary.fuzzedProducer : Arbitrary (InvariantSt (TestProducer Nat Nat Nat)) :=
  TestProducer.arbitrary (.boxedSlice (.unsigned 2)) (.result (.unsigned 2) (.unsigned 2)) (.boxedSlice .nonZeroUsize)
    (.boxedSlice .bool) (.unsigned 2) .usize

/-- **C60, negation for producers.** The size hint of `TestProducer` is that of `TestConsumer`: although the hints of all parts
are right, six bytes suffice to create a producer, but the hint says that at least ten are needed. (A fuzzer discards inputs that
are shorter than the lower bound.) -/
theorem arbitrary_test_producer_hint_wrong :
    ¬ Arbitrary.fuzzedProducer.HintSound ∧ (Arbitrary.fuzzedProducer.sizeHint 0).1 = 10 ∧
    Arbitrary.fuzzedProducer.arbitrary ⟨[0, 1, 7, 0, 0, 0], false⟩ = .ok (.new (.new [] (.ok 7) [] (some [])), ⟨[], false⟩) ∧
    (Arbitrary.boxedSlice (Arbitrary.unsigned 2)).HintSound ∧
    (Arbitrary.result (Arbitrary.unsigned 2) (Arbitrary.unsigned 2)).HintSound ∧
    (Arbitrary.boxedSlice Arbitrary.nonZeroUsize).HintSound ∧ (Arbitrary.boxedSlice Arbitrary.bool).HintSound ∧
    (Arbitrary.unsigned 2).HintSound ∧ Arbitrary.usize.HintSound := by
  have h : Arbitrary.fuzzedProducer.arbitrary ⟨[0, 1, 7, 0, 0, 0], false⟩ =
      .ok (.new (.new [] (.ok 7) [] (some [])), ⟨[], false⟩) := by rfl
  refine ⟨?_, rfl, h, Arbitrary.hintSound_boxedSlice (Arbitrary.hintSound_unsigned 2),
    Arbitrary.hintSound_result (Arbitrary.hintSound_unsigned 2) (Arbitrary.hintSound_unsigned 2),
    Arbitrary.hintSound_boxedSlice Arbitrary.hintSound_nonZeroUsize, Arbitrary.hintSound_boxedSlice Arbitrary.hintSound_bool,
    Arbitrary.hintSound_unsigned 2, Arbitrary.hintSound_unsigned 8⟩
  intro hs
  have := ((hs 0 _ _ _ h).2.1 rfl).2
  exact absurd this (by decide)

/-- **C60, negation for producers, in general.** With the implementations of crate `arbitrary` for the other parts, the size hint is
wrong for all item and final types, and for every error type whose own hint is not more than three bytes too low for some error: that
error, created after no items, needs fewer bytes than the hint says. -/
theorem arbitrary_test_producer_hint_never (items : Arbitrary I) (final : Arbitrary F) (error : Arbitrary E) {e : E}
    {bytes : List UInt8} (h : error.arbitrary ⟨bytes ++ [0, 0], false⟩ = .ok (e, ⟨[0, 0], false⟩))
    (hb : bytes.length ≤ (error.sizeHint 0).1 + 3) :
    ∃ p, (TestProducer.arbitrary (.boxedSlice items) (.result final error) (.boxedSlice .nonZeroUsize) (.boxedSlice .bool) error
        .usize).arbitrary ⟨[0, 0] ++ bytes ++ [0, 0], false⟩ = .ok (p, ⟨[], false⟩) ∧
      ([0, 0] ++ bytes ++ [0, 0]).length < ((TestProducer.arbitrary (.boxedSlice items) (.result final error)
        (.boxedSlice .nonZeroUsize) (.boxedSlice .bool) error .usize).sizeHint 0).1 ∧
      ¬ (TestProducer.arbitrary (.boxedSlice items) (.result final error) (.boxedSlice .nonZeroUsize) (.boxedSlice .bool) error
        .usize).HintSound := by
  have hbool (rest : List UInt8) : Arbitrary.bool.arbitrary ⟨0 :: rest, false⟩ = .ok (false, ⟨rest, false⟩) :=
    (Except.bind_eq_ok_iff _ _ _).2 ⟨(0, ⟨rest, false⟩), by simp [Arbitrary.unsigned, Unstructured.fill, ofLeBytes], rfl⟩
  have h1 : (TestProducer.arbitrary (.boxedSlice items) (.result final error) (.boxedSlice .nonZeroUsize) (.boxedSlice .bool) error
      .usize).arbitrary ⟨[0, 0] ++ bytes ++ [0, 0], false⟩ = .ok (.new (.new [] (.error e) [] (some [])), ⟨[], false⟩) := by
    refine (arbitrary_test_producer_iff ..).2 ⟨[], ⟨[0] ++ bytes ++ [0, 0], false⟩, .error e, ⟨[0, 0], false⟩, [], ⟨[0], false⟩, [],
      ?_, ?_, rfl, rfl, rfl⟩
    · exact (Except.bind_eq_ok_iff _ _ _).2 ⟨_, hbool _, rfl⟩
    refine (Except.bind_eq_ok_iff _ _ _).2 ⟨_, hbool _, ?_⟩
    exact (Except.bind_eq_ok_iff _ _ _).2 ⟨_, h, rfl⟩
  have h2 : ([0, 0] ++ bytes ++ [0, 0]).length < ((TestProducer.arbitrary (.boxedSlice items) (.result final error)
      (.boxedSlice .nonZeroUsize) (.boxedSlice .bool) error .usize).sizeHint 0).1 := by
    have : ((TestProducer.arbitrary (.boxedSlice items) (.result final error)
      (.boxedSlice .nonZeroUsize) (.boxedSlice .bool) error .usize).sizeHint 0).1 = (error.sizeHint 0).1 + 8 := rfl
    simp only [List.length_append, List.length_cons, List.length_nil]
    omega
  refine ⟨_, h1, h2, fun hs => ?_⟩
  have := ((hs 0 _ _ _ h1).2.1 rfl).2
  simp only [List.length_nil] at this
  omega

/-- For errors that are numbers of any size. -/
example (n : Nat) (items final : Arbitrary Nat) : ¬ (TestProducer.arbitrary (.boxedSlice items) (.result final (.unsigned n))
    (.boxedSlice .nonZeroUsize) (.boxedSlice .bool) (.unsigned n) .usize).HintSound := by
  obtain ⟨_, _, _, h⟩ := arbitrary_test_producer_hint_never items final (.unsigned n) (bytes := List.replicate n 0)
    (e := ofLeBytes (Unstructured.fill n ⟨List.replicate n 0 ++ [0, 0], false⟩).1)
    (by simp [Arbitrary.unsigned, Unstructured.fill]) (by simp [Arbitrary.unsigned])
  exact h

/-- **C60, what holds for producers.** The size hint would be right if it were made of the hints for what `arbitrary` reads. -/
theorem arbitrary_test_producer_hint_partial {items : Arbitrary (List I)} {last : Arbitrary (Except E F)}
    {nonZeros : Arbitrary (List NonZero)} {bools : Arbitrary (List Bool)} (error : Arbitrary E) (usize : Arbitrary Nat)
    (hi : items.HintSound) (hl : last.HintSound) (hn : nonZeros.HintSound) (hb : bools.HintSound) :
    Arbitrary.HintSound
      { TestProducer.arbitrary items last nonZeros bools error usize with
        sizeHint := fun depth =>
          sizeHintAndAll [items.sizeHint depth, last.sizeHint depth, nonZeros.sizeHint depth, bools.sizeHint depth] } := by
  intro d u v u' h
  obtain ⟨e, u₁, n, u₂, sizes, u₃, pattern, h1, h2, h3, h4, rfl⟩ := (arbitrary_test_producer_iff items last nonZeros bools error usize u u' v).1 h
  exact Used.and (hi d _ _ _ h1) (Used.and (hl d _ _ _ h2) (Used.and (hn d _ _ _ h3) (Used.and (hb d _ _ _ h4) (.refl _))))

example : Arbitrary.HintSound
    { Arbitrary.fuzzedProducer with
      sizeHint := fun depth => sizeHintAndAll [(Arbitrary.boxedSlice (Arbitrary.unsigned 2)).sizeHint depth,
        (Arbitrary.result (Arbitrary.unsigned 2) (Arbitrary.unsigned 2)).sizeHint depth,
        (Arbitrary.boxedSlice Arbitrary.nonZeroUsize).sizeHint depth, (Arbitrary.boxedSlice Arbitrary.bool).sizeHint depth] } :=
  arbitrary_test_producer_hint_partial (.unsigned 2) .usize (Arbitrary.hintSound_boxedSlice (Arbitrary.hintSound_unsigned 2))
    (Arbitrary.hintSound_result (Arbitrary.hintSound_unsigned 2) (Arbitrary.hintSound_unsigned 2))
    (Arbitrary.hintSound_boxedSlice Arbitrary.hintSound_nonZeroUsize) (Arbitrary.hintSound_boxedSlice Arbitrary.hintSound_bool)

end

end Verif
