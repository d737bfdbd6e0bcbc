import Verif.IoDirectSpec
import Verif.Props.ArbitraryInvariant

/-!
# C67: exactly which `Invariant` wrappers from random bytes are lawful, and which are as good as new ones

The derived implementation creates the fields of the checked wrapper in order: the wrapped value, a `bool` (whether calls are still
allowed), and a `usize` (how much has been exposed).
-/

namespace Verif

open Outcome Arbitrary

section

variable {σ I F E : Type} {a : Arbitrary σ}

/-- The `bool` that is created from bytes is `true` exactly if the first of them is odd. -/
theorem arbitrary_bool_iff (u : Unstructured) :
    ∃ u', Arbitrary.bool.arbitrary u = .ok (decide ((u.bytes.headD 0).toNat % 2 = 1), u') := by
  obtain ⟨bytes, starved⟩ := u
  refine ⟨(Unstructured.fill 1 ⟨bytes, starved⟩).2, (Except.bind_eq_ok_iff _ _ _).2 ⟨_, rfl, ?_⟩⟩
  rcases bytes with _ | ⟨x, rest⟩
  · simp [Unstructured.fill, ofLeBytes, pure, Except.pure]
  · rcases Nat.mod_two_eq_zero_or_one x.toNat with h | h <;> simp [Unstructured.fill, ofLeBytes, pure, Except.pure, h]

example : ∃ u', Arbitrary.bool.arbitrary ⟨[7, 8], false⟩ = .ok (true, u') := arbitrary_bool_iff _

/-- A value that is created: the fields, and nothing else can go wrong once the wrapped value has been created. -/
theorem arbitrary_invariant_fields {u u₁ : Unstructured} {s : σ} (h : a.arbitrary u = .ok (s, u₁)) :
    ∃ n u', (InvariantSt.arbitrary a .bool .usize).arbitrary u =
      .ok (⟨s, decide ((u₁.bytes.headD 0).toNat % 2 = 1), n⟩, u') := by
  obtain ⟨u₂, hb⟩ := arbitrary_bool_iff u₁
  exact ⟨_, _, (arbitrary_invariant_iff ..).2 ⟨_, _, _, _, _, h, hb, rfl, rfl⟩⟩

example : ∃ n u', (InvariantSt.arbitrary Case.twoItems .bool .usize).arbitrary ⟨[7, 8, 1, 5], false⟩ =
    .ok (⟨FromSlice.new [7, 8], true, n⟩, u') :=
  arbitrary_invariant_fields (u₁ := ⟨[1, 5], false⟩) rfl

/-- **C67**, producers with checks, exactly: the wrapper emits what the producer emits if the byte after those of the producer is odd,
and otherwise nothing at all. -/
theorem arbitrary_invariant_plays_iff {u u₁ : Unstructured} {s : σ} (h : a.arbitrary u = .ok (s, u₁)) :
    ∃ t u', (InvariantSt.arbitrary a .bool .usize).arbitrary u = .ok (t, u') ∧ t.inner = s ∧
      ∀ (P : BulkProducer σ I F E) c, BulkPlays P s c →
        (BulkPlays (invariantBulkProducer P) t c ↔ (u₁.bytes.headD 0).toNat % 2 = 1) ∧
        ((∃ c', Plays (invariantBulkProducer P).toProducer t c') ↔ (u₁.bytes.headD 0).toNat % 2 = 1) := by
  obtain ⟨n, u', h1⟩ := arbitrary_invariant_fields h
  refine ⟨_, _, h1, rfl, ?_⟩
  rintro P c ⟨R, hR, m, hm⟩
  have hno : (∃ c', Plays (invariantBulkProducer P).toProducer
      ⟨s, decide ((u₁.bytes.headD 0).toNat % 2 = 1), n⟩ c') → (u₁.bytes.headD 0).toNat % 2 = 1 := by
    rintro ⟨c', R', hR', hs⟩
    refine Classical.byContradiction fun hn => ?_
    obtain ⟨_, h2, _⟩ := hR'.produce _ _ hs
    have h3 := producer_inactive_panics (P := P) (t := ⟨s, decide ((u₁.bytes.headD 0).toNat % 2 = 1), n⟩)
      (decide_eq_false hn) [] .produce
    simp only [BulkProducer.call, h2] at h3
    rcases hc : c' 0 with _ | _ | _ <;> rw [hc] at h3 <;> cases h3
  have hyes : (u₁.bytes.headD 0).toNat % 2 = 1 → BulkPlays (invariantBulkProducer P)
      ⟨s, decide ((u₁.bytes.headD 0).toNat % 2 = 1), n⟩ c := fun hp =>
    ⟨_, hR.invariant, 0, decide_eq_true hp, .inl ⟨rfl, m, hm⟩⟩
  exact ⟨⟨fun hb => hno ⟨c, hb.toBufPlays.toPlays⟩, hyes⟩, hno, fun hp => ⟨c, (hyes hp).toBufPlays.toPlays⟩⟩

/-- The byte 3 makes a producer, the byte 4 does not. -/
example : (∃ t u', (InvariantSt.arbitrary Case.twoItems .bool .usize).arbitrary ⟨[7, 8, 3], false⟩ = .ok (t, u') ∧
      BulkPlays (invariantBulkProducer (FromSlice.producer Nat)) t (Script.ofList [7, 8] (.ok ()))) ∧
    (∃ t u', (InvariantSt.arbitrary Case.twoItems .bool .usize).arbitrary ⟨[7, 8, 4], false⟩ = .ok (t, u') ∧
      ¬ ∃ c, Plays (invariantBulkProducer (FromSlice.producer Nat)).toProducer t c) := by
  constructor
  · obtain ⟨t, u', h1, _, h2⟩ := arbitrary_invariant_plays_iff (I := Nat) (F := Unit) (E := Empty) (a := Case.twoItems)
      (u := ⟨[7, 8, 3], false⟩) rfl
    exact ⟨t, u', h1, (h2 _ _ (from_slice_plays [7, 8])).1.2 rfl⟩
  · obtain ⟨t, u', h1, _, h2⟩ := arbitrary_invariant_plays_iff (I := Nat) (F := Unit) (E := Empty) (a := Case.twoItems)
      (u := ⟨[7, 8, 4], false⟩) rfl
    exact ⟨t, u', h1, fun h => absurd ((h2 _ _ (from_slice_plays [7, 8])).2.1 h) (by decide)⟩

/-- **C67**, consumers with checks, exactly: the wrapper consumes what the consumer consumes if the byte after those of the consumer
is odd, and otherwise nothing at all. -/
theorem arbitrary_invariant_collects_iff {u u₁ : Unstructured} {s : σ} (h : a.arbitrary u = .ok (s, u₁)) (f : F) :
    ∃ t u', (InvariantSt.arbitrary a .bool .usize).arbitrary u = .ok (t, u') ∧ t.inner = s ∧
      ∀ (C : BulkConsumer σ I F E) (D : σ → List I → Option F → Prop) (q : Policy I F E) l, BulkCollects C D q s l →
        (BulkCollects (invariantBulkConsumer C) (fun s => D s.inner) q t l ↔ (u₁.bytes.headD 0).toNat % 2 = 1) ∧
        ((∃ D' q' l', Collects (invariantBulkConsumer C).toConsumer D' q' t l') ↔ (u₁.bytes.headD 0).toNat % 2 = 1) := by
  obtain ⟨n, u', h1⟩ := arbitrary_invariant_fields h
  refine ⟨_, _, h1, rfl, ?_⟩
  rintro C D q l ⟨R, hR, m, hm⟩
  have hno : (∃ D' q' l', Collects (invariantBulkConsumer C).toConsumer D' q'
      ⟨s, decide ((u₁.bytes.headD 0).toNat % 2 = 1), n⟩ l') → (u₁.bytes.headD 0).toNat % 2 = 1 := by
    rintro ⟨D', q', l', R', hR', hs⟩
    refine Classical.byContradiction fun hn => ?_
    have h3 := consumer_inactive_panics (C := C) (t := ⟨s, decide ((u₁.bytes.headD 0).toNat % 2 = 1), n⟩) (decide_eq_false hn) []
      (.close f) (by simp)
    rcases hf : q'.refuseClose l' f with _ | e
    · obtain ⟨_, h2, _⟩ := hR'.close_ok _ _ f hs hf
      simp only [BulkConsumer.call, h2] at h3
      cases h3
    · obtain ⟨_, h2, _⟩ := hR'.close_err _ _ f e hs hf
      simp only [BulkConsumer.call, h2] at h3
      cases h3
  have hyes : (u₁.bytes.headD 0).toNat % 2 = 1 → BulkCollects (invariantBulkConsumer C) (fun s => D s.inner) q
      ⟨s, decide ((u₁.bytes.headD 0).toNat % 2 = 1), n⟩ l := fun hp =>
    ⟨_, hR.invariant, [], decide_eq_true hp, .inl ⟨rfl, m, hm⟩⟩
  exact ⟨⟨fun hb => hno ⟨_, _, _, hb.toBufCollects.toCollects⟩, hyes⟩, hno,
    fun hp => ⟨_, _, _, (hyes hp).toBufCollects.toCollects⟩⟩

example : (∃ t u', (InvariantSt.arbitrary Case.vector .bool .usize).arbitrary ⟨[7, 3], false⟩ = .ok (t, u') ∧
      BulkCollects (invariantBulkConsumer Case.V) (fun s => Case.Contents s.inner) Policy.acceptAll t [7]) ∧
    (∃ t u', (InvariantSt.arbitrary Case.vector .bool .usize).arbitrary ⟨[7, 4], false⟩ = .ok (t, u') ∧
      ¬ ∃ D q l, Collects (invariantBulkConsumer Case.V).toConsumer D q t l) := by
  constructor
  · obtain ⟨t, u', h1, _, h2⟩ := arbitrary_invariant_collects_iff (I := Nat) (F := Unit) (E := Empty) (a := Case.vector)
      (u := ⟨[7, 3], false⟩) rfl ()
    exact ⟨t, u', h1, (h2 _ _ _ _ (Case.vec_collects [7])).1.2 rfl⟩
  · obtain ⟨t, u', h1, _, h2⟩ := arbitrary_invariant_collects_iff (I := Nat) (F := Unit) (E := Empty) (a := Case.vector)
      (u := ⟨[7, 4], false⟩) rfl ()
    exact ⟨t, u', h1, fun h => absurd ((h2 _ _ _ _ (Case.vec_collects [7])).2.1 h) (by decide)⟩

/-- For the next theorem: a producer that does not care how many items are considered produced. -/
def Case.carelessProducer : BulkProducer σ I F E where
  produce _ := .panic
  slurp _ := .panic
  exposeItems _ := .panic
  considerProduced s _ := ok (s, .ok ())
  bulkProduce _ _ := .panic

/-- For the next theorem: a consumer that does not care how many slots are consumed. -/
def Case.carelessConsumer : BulkConsumer σ I F E where
  consume _ _ := .panic
  close _ _ := .panic
  flush _ := .panic
  exposeSlots _ := .panic
  writeSlots s _ := s
  consumeSlots s _ := ok (s, .ok ())
  bulkConsume _ _ := .panic

/-- **C67**, exactly: a created wrapper answers all sequences of calls as a wrapper that was made with `new` does, whatever it wraps,
if and only if the `bool` is `true` and the `usize` is 0. -/
theorem arbitrary_invariant_new_iff {bool : Arbitrary Bool} {usize : Arbitrary Nat} {u u₁ u₂ u' : Unstructured} {s : σ}
    {active : Bool} {n : Nat} (h1 : a.arbitrary u = .ok (s, u₁)) (h2 : bool.arbitrary u₁ = .ok (active, u₂))
    (h3 : usize.arbitrary u₂ = .ok (n, u')) :
    ∃ t, (InvariantSt.arbitrary a bool usize).arbitrary u = .ok (t, u') ∧
      ((∀ (P : BulkProducer σ I F E) ops, ((invariantBulkProducer P).callAll t [] ops).bind (fun x => ok x.2) =
        ((invariantBulkProducer P).callAll (.new s) [] ops).bind (fun x => ok x.2)) ↔ active = true ∧ n = 0) ∧
      ((∀ (C : BulkConsumer σ I F E) ops, ((invariantBulkConsumer C).callAll t [] ops).bind (fun x => ok x.2) =
        ((invariantBulkConsumer C).callAll (.new s) [] ops).bind (fun x => ok x.2)) ↔ active = true ∧ n = 0) := by
  refine ⟨_, (arbitrary_invariant_iff ..).2 ⟨_, _, _, _, _, h1, h2, h3, rfl⟩, ⟨fun h => ?_, ?_⟩, ⟨fun h => ?_, ?_⟩⟩
  · rcases active with _ | _
    · exact nomatch h Case.carelessProducer [.considerProduced 0]
    · rcases n with _ | n
      · exact ⟨rfl, rfl⟩
      · have := h Case.carelessProducer [.considerProduced (n + 1)]
        simp [BulkProducer.callAll, BulkProducer.call, invariantBulkProducer, InvariantSt.checkInactive, InvariantSt.new,
          Case.carelessProducer, Outcome.sub, Outcome.bind] at this
  · rintro ⟨rfl, rfl⟩ P ops
    rfl
  · rcases active with _ | _
    · exact nomatch h Case.carelessConsumer [.consumeSlots 0]
    · rcases n with _ | n
      · exact ⟨rfl, rfl⟩
      · have := h Case.carelessConsumer [.consumeSlots (n + 1)]
        simp [BulkConsumer.callAll, BulkConsumer.call, invariantBulkConsumer, InvariantSt.checkInactive, InvariantSt.new,
          Case.carelessConsumer, Outcome.sub, Outcome.bind] at this
  · rintro ⟨rfl, rfl⟩ C ops
    rfl

/-- The bytes 3 and then zeros make a wrapper that is as good as a new one. -/
example : ∃ t u', (InvariantSt.arbitrary Case.twoItems .bool .usize).arbitrary ⟨[7, 8, 3], false⟩ = .ok (t, u') ∧
    ∀ (P : BulkProducer (FromSlice Nat) Nat Unit Empty) ops, ((invariantBulkProducer P).callAll t [] ops).bind (fun x => ok x.2) =
      ((invariantBulkProducer P).callAll (.new (FromSlice.new [7, 8])) [] ops).bind (fun x => ok x.2) := by
  obtain ⟨t, h1, h2, _⟩ := arbitrary_invariant_new_iff (I := Nat) (F := Unit) (E := Empty) (a := Case.twoItems) (bool := .bool)
    (usize := .usize) (u := ⟨[7, 8, 3], false⟩) rfl rfl rfl
  exact ⟨t, _, h1, h2.2 ⟨rfl, rfl⟩⟩

end

end Verif
