import Verif.Lemmas.Arbitrary
import Verif.Props.Invariant
import Verif.Props.Slices

/-!
# C67: `Invariant` wrappers that are created from random bytes
-/

namespace Verif

open Outcome Arbitrary

section

variable {σ I F E : Type} {a : Arbitrary σ}

/-- For the examples: a producer of two items, each of them from one byte. -/
def Case.twoItems : Arbitrary (FromSlice Nat) where
  arbitrary u := do
    let (x, u) ← (Arbitrary.unsigned 1).arbitrary u
    let (y, u) ← (Arbitrary.unsigned 1).arbitrary u
    return (FromSlice.new [x, y], u)
  sizeHint _ := (2, some 2)

theorem Case.twoItems_hint : Case.twoItems.HintSound := by
  intro d u v u' h
  simp only [twoItems, Except.bind_eq_ok_iff] at h
  obtain ⟨⟨x, u₁⟩, h1, ⟨y, u₂⟩, h2, h3⟩ := h
  cases h3
  exact Used.and (hintSound_unsigned 1 d _ _ _ h1) (hintSound_unsigned 1 d _ _ _ h2)

/-- For the examples: a consumer into a vector that contains one item already, from one byte. -/
def Case.vector : Arbitrary (IntoVec Nat) where
  arbitrary u := do
    let (x, u) ← (Arbitrary.unsigned 1).arbitrary u
    return (IntoVec.fromVec [x], u)
  sizeHint _ := (1, some 1)

/-! ## Without checks -/

/-- **C67**, without checks: what is created are exactly the wrapped values that are created from the bytes. -/
theorem arbitrary_invariant_noop_iff (a : Arbitrary σ) (u u' : Unstructured) (s : σ) :
    (invariantNoopArbitrary a).arbitrary u = .ok (s, u') ↔ a.arbitrary u = .ok (s, u') := by
  simp only [invariantNoopArbitrary, Except.bind_eq_ok_iff]
  constructor
  · rintro ⟨⟨s, u₁⟩, h1, h2⟩
    cases h2
    exact h1
  · intro h
    exact ⟨_, h, rfl⟩

example : (invariantNoopArbitrary Case.twoItems).arbitrary ⟨[7, 8, 9], false⟩ = .ok (FromSlice.new [7, 8], ⟨[9], false⟩) :=
  (arbitrary_invariant_noop_iff ..).2 rfl

/-- **C67**, without checks: the wrapper emits what the producer that was created from the bytes emits. -/
theorem arbitrary_invariant_noop_plays {P : BulkProducer σ I F E} {u u' : Unstructured} {t : σ}
    (h : (invariantNoopArbitrary a).arbitrary u = .ok (t, u')) :
    ∃ s, a.arbitrary u = .ok (s, u') ∧ ∀ c, BulkPlays P s c → BulkPlays (invariantNoopBulkProducer P) t c :=
  ⟨t, (arbitrary_invariant_noop_iff a u u' t).1 h, fun _ => producer_invariant_noop_plays⟩

example : ∃ t u', (invariantNoopArbitrary Case.twoItems).arbitrary ⟨[7, 8, 9], false⟩ = .ok (t, u') ∧
    BulkPlays (invariantNoopBulkProducer (FromSlice.producer Nat)) t (Script.ofList [7, 8] (.ok ())) := by
  obtain ⟨s, h1, h2⟩ := arbitrary_invariant_noop_plays (P := FromSlice.producer Nat) (a := Case.twoItems)
    (u := ⟨[7, 8, 9], false⟩) rfl
  cases h1
  exact ⟨_, _, rfl, h2 _ (from_slice_plays [7, 8])⟩

/-- **C67**, without checks: the wrapper consumes what the consumer that was created from the bytes consumes. -/
theorem arbitrary_invariant_noop_collects {C : BulkConsumer σ I F E} {D : σ → List I → Option F → Prop} {q : Policy I F E}
    {u u' : Unstructured} {t : σ} (h : (invariantNoopArbitrary a).arbitrary u = .ok (t, u')) :
    ∃ s, a.arbitrary u = .ok (s, u') ∧ ∀ l, BulkCollects C D q s l → BulkCollects (invariantNoopBulkConsumer C) D q t l :=
  ⟨t, (arbitrary_invariant_noop_iff a u u' t).1 h, fun _ => consumer_invariant_noop_collects⟩

example : ∃ t u', (invariantNoopArbitrary Case.vector).arbitrary ⟨[7, 8, 9], false⟩ = .ok (t, u') ∧
    BulkCollects (invariantNoopBulkConsumer Case.V) Case.Contents Policy.acceptAll t [7] := by
  obtain ⟨s, h1, h2⟩ := arbitrary_invariant_noop_collects (C := Case.V) (D := Case.Contents) (q := Policy.acceptAll)
    (a := Case.vector) (u := ⟨[7, 8, 9], false⟩) rfl
  cases h1
  exact ⟨_, _, rfl, h2 _ (Case.vec_collects [7])⟩

/-- **C67**, without checks: the size hint is right if that of the wrapped value is. -/
theorem arbitrary_invariant_noop_hint (ha : a.HintSound) : (invariantNoopArbitrary a).HintSound := by
  intro d u v u' h
  exact Used.and (ha d _ _ _ ((arbitrary_invariant_noop_iff a u u' v).1 h)) (.refl _)

example : (invariantNoopArbitrary Case.twoItems).HintSound ∧ (invariantNoopArbitrary Case.twoItems).sizeHint 0 = (2, some 2) :=
  ⟨arbitrary_invariant_noop_hint Case.twoItems_hint, rfl⟩

/-! ## With checks -/

/-- **C67**, with checks: the state of the checks is created from the bytes as well. -/
theorem arbitrary_invariant_iff (a : Arbitrary σ) (bool : Arbitrary Bool) (usize : Arbitrary Nat) (u u' : Unstructured)
    (t : InvariantSt σ) :
    (InvariantSt.arbitrary a bool usize).arbitrary u = .ok (t, u') ↔
      ∃ s u₁ active u₂ n, a.arbitrary u = .ok (s, u₁) ∧ bool.arbitrary u₁ = .ok (active, u₂) ∧
        usize.arbitrary u₂ = .ok (n, u') ∧ t = ⟨s, active, n⟩ := by
  simp only [InvariantSt.arbitrary, Except.bind_eq_ok_iff]
  constructor
  · rintro ⟨⟨s, u₁⟩, h1, ⟨active, u₂⟩, h2, ⟨n, u₃⟩, h3, h4⟩
    cases h4
    exact ⟨s, u₁, active, u₂, n, h1, h2, h3, rfl⟩
  · rintro ⟨s, u₁, active, u₂, n, h1, h2, h3, rfl⟩
    exact ⟨_, h1, _, h2, _, h3, rfl⟩

example : (InvariantSt.arbitrary Case.twoItems .bool .usize).arbitrary ⟨[7, 8, 1, 5, 0, 0, 0, 0, 0, 0, 0, 9], false⟩ =
    .ok (⟨FromSlice.new [7, 8], true, 5⟩, ⟨[9], false⟩) :=
  (arbitrary_invariant_iff ..).2 ⟨_, _, _, _, _, rfl, rfl, rfl, rfl⟩

/-- **C67**, with checks: the size hint is right if those of the parts are. -/
theorem arbitrary_invariant_hint {bool : Arbitrary Bool} {usize : Arbitrary Nat} (ha : a.HintSound) (hb : bool.HintSound)
    (hu : usize.HintSound) : (InvariantSt.arbitrary a bool usize).HintSound := by
  intro d u v u' h
  obtain ⟨s, u₁, active, u₂, n, h1, h2, h3, rfl⟩ := (arbitrary_invariant_iff a bool usize u u' v).1 h
  exact Used.and (ha d _ _ _ h1) (Used.and (hb d _ _ _ h2) (Used.and (hu d _ _ _ h3) (.refl _)))

example : (InvariantSt.arbitrary Case.twoItems .bool .usize).HintSound ∧
    (InvariantSt.arbitrary Case.twoItems .bool .usize).sizeHint 0 = (11, some 11) :=
  ⟨arbitrary_invariant_hint Case.twoItems_hint hintSound_bool (hintSound_unsigned 8), rfl⟩

/-- **C67**, producers with checks, what holds: if the `bool` created from the bytes after the producer is `true`, then the wrapper
emits what the producer emits. (Missing: the other wrappers, see `arbitrary_invariant_inactive`.) -/
theorem arbitrary_invariant_plays_partial {P : BulkProducer σ I F E} {bool : Arbitrary Bool} {usize : Arbitrary Nat}
    {u u' : Unstructured} {t : InvariantSt σ} (h : (InvariantSt.arbitrary a bool usize).arbitrary u = .ok (t, u')) :
    ∃ s u₁ active u₂, a.arbitrary u = .ok (s, u₁) ∧ bool.arbitrary u₁ = .ok (active, u₂) ∧
      ∀ c, BulkPlays P s c → active = true → BulkPlays (invariantBulkProducer P) t c := by
  obtain ⟨s, u₁, active, u₂, n, h1, h2, _, rfl⟩ := (arbitrary_invariant_iff ..).1 h
  refine ⟨s, u₁, active, u₂, h1, h2, ?_⟩
  rintro c ⟨R, hR, m, hm⟩ rfl
  exact ⟨_, hR.invariant, 0, rfl, .inl ⟨rfl, m, hm⟩⟩

example : ∃ t u', (InvariantSt.arbitrary Case.twoItems .bool .usize).arbitrary ⟨[7, 8, 1, 5], false⟩ = .ok (t, u') ∧
    BulkPlays (invariantBulkProducer (FromSlice.producer Nat)) t (Script.ofList [7, 8] (.ok ())) := by
  obtain ⟨s, u₁, active, u₂, h1, h2, h3⟩ := arbitrary_invariant_plays_partial (P := FromSlice.producer Nat) (a := Case.twoItems)
    (bool := .bool) (usize := .usize) (u := ⟨[7, 8, 1, 5], false⟩) rfl
  cases h1
  cases h2
  exact ⟨_, _, rfl, h3 _ (from_slice_plays [7, 8]) rfl⟩

/-- **C67**, consumers with checks, what holds: if the `bool` created from the bytes after the consumer is `true`, then the wrapper
consumes what the consumer consumes. -/
theorem arbitrary_invariant_collects_partial {C : BulkConsumer σ I F E} {D : σ → List I → Option F → Prop} {q : Policy I F E}
    {bool : Arbitrary Bool} {usize : Arbitrary Nat} {u u' : Unstructured} {t : InvariantSt σ}
    (h : (InvariantSt.arbitrary a bool usize).arbitrary u = .ok (t, u')) :
    ∃ s u₁ active u₂, a.arbitrary u = .ok (s, u₁) ∧ bool.arbitrary u₁ = .ok (active, u₂) ∧
      ∀ l, BulkCollects C D q s l → active = true →
        BulkCollects (invariantBulkConsumer C) (fun s => D s.inner) q t l := by
  obtain ⟨s, u₁, active, u₂, n, h1, h2, _, rfl⟩ := (arbitrary_invariant_iff ..).1 h
  refine ⟨s, u₁, active, u₂, h1, h2, ?_⟩
  rintro l ⟨R, hR, m, hm⟩ rfl
  exact ⟨_, hR.invariant, [], rfl, .inl ⟨rfl, m, hm⟩⟩

example : ∃ t u', (InvariantSt.arbitrary Case.vector .bool .usize).arbitrary ⟨[7, 1, 5], false⟩ = .ok (t, u') ∧
    BulkCollects (invariantBulkConsumer Case.V) (fun s => Case.Contents s.inner) Policy.acceptAll t [7] := by
  obtain ⟨s, u₁, active, u₂, h1, h2, h3⟩ := arbitrary_invariant_collects_partial (C := Case.V) (D := Case.Contents)
    (q := Policy.acceptAll) (a := Case.vector) (bool := .bool) (usize := .usize) (u := ⟨[7, 1, 5], false⟩) rfl
  cases h1
  cases h2
  exact ⟨_, _, rfl, h3 _ (Case.vec_collects [7]) rfl⟩

/-- **C67, negation.** With the implementations of crate `arbitrary`: whenever the byte after the wrapped value is even, or there are
no bytes left, the wrapper panics at every call although no call was made before, whatever it wraps. (`write`, which stands for
writing to slots, is not a call.) -/
theorem arbitrary_invariant_inactive {u u₁ : Unstructured} {s : σ} (h : a.arbitrary u = .ok (s, u₁))
    (heven : (u₁.bytes.headD 0).toNat % 2 = 0) :
    ∃ t u', (InvariantSt.arbitrary a .bool .usize).arbitrary u = .ok (t, u') ∧ t.inner = s ∧
      (∀ (P : BulkProducer σ I F E) shown op, (invariantBulkProducer P).call t shown op = .panic) ∧
      (∀ (C : BulkConsumer σ I F E) slots op, (∀ ws, op ≠ .write ws) → (invariantBulkConsumer C).call t slots op = .panic) := by
  have hb : ∃ u₂, Arbitrary.bool.arbitrary u₁ = .ok (false, u₂) := by
    obtain ⟨bytes, starved⟩ := u₁
    refine ⟨(Unstructured.fill 1 ⟨bytes, starved⟩).2, (Except.bind_eq_ok_iff _ _ _).2 ⟨_, rfl, ?_⟩⟩
    rcases bytes with _ | ⟨x, rest⟩ <;> simp_all [Unstructured.fill, ofLeBytes, pure, Except.pure]
  obtain ⟨u₂, hb⟩ := hb
  refine ⟨_, _, (arbitrary_invariant_iff ..).2 ⟨_, _, _, _, _, h, hb, rfl, rfl⟩, rfl, ?_, ?_⟩
  · exact fun P shown op => producer_inactive_panics rfl shown op
  · exact fun C slots op hw => consumer_inactive_panics rfl slots op hw

example : ∃ t u', (InvariantSt.arbitrary Case.twoItems .bool .usize).arbitrary ⟨[7, 8, 4, 0], false⟩ = .ok (t, u') ∧
    (invariantBulkProducer (FromSlice.producer Nat)).call t [] .produce = .panic ∧
    (FromSlice.producer Nat).produce t.inner = ok (⟨[7, 8], 1⟩, .ok (.inl 7)) := by
  obtain ⟨t, u', h1, h2, h3, _⟩ := arbitrary_invariant_inactive (a := Case.twoItems) (u := ⟨[7, 8, 4, 0], false⟩)
    (I := Nat) (F := Unit) (E := Empty) rfl rfl
  exact ⟨t, u', h1, h3 _ _ _, by rw [h2]; rfl⟩

/-- **C67, negation.** The checks of a wrapper from random bytes miss mistakes that a wrapper made with `new` finds: nothing has been
exposed, but any amount up to the `usize` that was created from the bytes is passed on to the wrapped producer or consumer. -/
theorem arbitrary_invariant_unchecked {bool : Arbitrary Bool} {usize : Arbitrary Nat} {u u₁ u₂ u₃ : Unstructured} {s : σ} {n : Nat}
    (h1 : a.arbitrary u = .ok (s, u₁)) (h2 : bool.arbitrary u₁ = .ok (true, u₂)) (h3 : usize.arbitrary u₂ = .ok (n, u₃)) :
    ∃ t u', (InvariantSt.arbitrary a bool usize).arbitrary u = .ok (t, u') ∧ t.inner = s ∧
      ∀ k, 0 < k → k ≤ n →
        (∀ P : BulkProducer σ I F E, (invariantBulkProducer P).considerProduced (.new s) k = .panic ∧
          ((invariantBulkProducer P).considerProduced t k).bind (fun x => ok (x.1.inner, x.2)) = P.considerProduced s k) ∧
        (∀ C : BulkConsumer σ I F E, (invariantBulkConsumer C).consumeSlots (.new s) k = .panic ∧
          ((invariantBulkConsumer C).consumeSlots t k).bind (fun x => ok (x.1.inner, x.2)) = C.consumeSlots s k) := by
  refine ⟨_, _, (arbitrary_invariant_iff ..).2 ⟨_, _, _, _, _, h1, h2, h3, rfl⟩, rfl, ?_⟩
  intro k hk hkn
  refine ⟨fun P => ⟨?_, ?_⟩, fun C => ⟨?_, ?_⟩⟩
  · simp [invariantBulkProducer, InvariantSt.checkInactive, InvariantSt.new, hk]
  · have : ¬ n < k := by omega
    rcases h : P.considerProduced s k with ⟨s', r⟩ | _ | _ <;>
      simp [invariantBulkProducer, InvariantSt.checkInactive, h, this, Outcome.sub, hkn, Outcome.bind]
  · simp [invariantBulkConsumer, InvariantSt.checkInactive, InvariantSt.new, hk]
  · have : ¬ n < k := by omega
    rcases h : C.consumeSlots s k with ⟨s', r⟩ | _ | _ <;>
      simp [invariantBulkConsumer, InvariantSt.checkInactive, h, this, Outcome.sub, hkn, Outcome.bind]

/-- A producer whose items have not been looked at skips them. -/
example : ∃ t u' t', (InvariantSt.arbitrary Case.twoItems .bool .usize).arbitrary ⟨[7, 8, 1, 5], false⟩ = .ok (t, u') ∧
    (invariantBulkProducer (FromSlice.producer Nat)).considerProduced (.new (FromSlice.new [7, 8])) 2 = .panic ∧
    (invariantBulkProducer (FromSlice.producer Nat)).considerProduced t 2 = ok (t', .ok ()) := by
  obtain ⟨t, u', h1, h2, h3⟩ := arbitrary_invariant_unchecked (a := Case.twoItems) (bool := .bool) (usize := .usize)
    (u := ⟨[7, 8, 1, 5], false⟩) (I := Nat) (F := Unit) (E := Empty) rfl rfl rfl
  refine ⟨t, u', ⟨⟨[7, 8], 2⟩, true, 3⟩, h1, ((h3 2 (by decide) (by decide)).1 _).1, ?_⟩
  cases h1
  rfl

end

end Verif
