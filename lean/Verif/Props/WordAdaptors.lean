import Verif.Lemmas.WordAdaptors
import Verif.Props.WordTraits
import Verif.Props.WordQueue
import Verif.Props.Limit
import Verif.Props.Slices
import Verif.Props.Maps
import Verif.Props.Pipe

/-!
# C64: producers and consumers that count, with machine arithmetic
-/

namespace Verif

open Outcome

/-! ## `FromSlice`, `FromBoxedSlice`: no overflow -/

section

variable {T : Type}

/-- **C64, `FromSlice`.** The number of items of a slice fits in a word. -/
theorem word_from_slice_same (w : Word) (xs : List T) (hw : xs.length < w.size) :
    (WordFromSlice.producer w T).Same (FromSlice.producer T) (FromSlice.new xs) := by
  refine BulkProducer.same_of_default rfl rfl fun handed s shown hr => ?_
  obtain ⟨hd, hp⟩ := FromSlice.runs_pos hr
  refine ⟨?_, rfl, rfl, fun k hk => ?_⟩
  · simp only [WordFromSlice.producer, WordFromSlice.produce, FromSlice.producer, FromSlice.produce]
    by_cases h : s.data.length = s.pos
    · simp [h]
    · rw [Word.add_ok (by rw [hd] at h; omega)]; rfl
  · simp only [WordFromSlice.producer, WordFromSlice.considerProduced, FromSlice.producer, FromSlice.considerProduced]
    rw [Word.add_ok (by omega)]; rfl

example := word_from_slice_same ⟨4, false⟩ [1, 2, 3] (by decide)

/-- So everything proved of `FromSlice` as a producer holds with machine arithmetic. -/
theorem word_from_slice_plays (w : Word) (xs : List T) (hw : xs.length < w.size) :
    BulkPlays (WordFromSlice.producer w T) (FromSlice.new xs) (Script.ofList xs (.ok ())) :=
  (word_from_slice_same w xs hw).plays (from_slice_plays xs)

example : BulkPlays (WordFromSlice.producer .wrapping64 Nat) (FromSlice.new [1, 2, 3]) (Script.ofList [1, 2, 3] (.ok ())) :=
  word_from_slice_plays _ _ (by decide)

/-- Three items do not fit if there are only three words. -/
example : (WordFromSlice.producer ⟨3, false⟩ Nat).produce ⟨[1, 2, 3], 2⟩ = ok (⟨[1, 2, 3], 0⟩, .ok (.inl 3)) := rfl

theorem word_from_boxed_slice_same (w : Word) (xs : List T) (hw : xs.length < w.size) :
    (WordFromBoxedSlice.producer w T).Same (FromBoxedSlice.producer T) (FromBoxedSlice.new xs) := by
  refine BulkProducer.same_of_default rfl rfl fun handed s shown hr => ?_
  obtain ⟨hd, hp⟩ := FromBoxedSlice.runs_pos hr
  refine ⟨?_, rfl, rfl, fun k hk => ?_⟩
  · simp only [WordFromBoxedSlice.producer, WordFromBoxedSlice.produce, FromBoxedSlice.producer, FromBoxedSlice.produce]
    by_cases h : s.data.length = s.pos
    · simp [h]
    · rw [Word.add_ok (by rw [hd] at h; omega)]; rfl
  · simp only [WordFromBoxedSlice.producer, WordFromBoxedSlice.considerProduced, FromBoxedSlice.producer,
      FromBoxedSlice.considerProduced]
    rw [Word.add_ok (by omega)]; rfl

example := word_from_boxed_slice_same ⟨4, true⟩ [1, 2, 3] (by decide)

theorem word_from_boxed_slice_plays (w : Word) (xs : List T) (hw : xs.length < w.size) :
    BulkPlays (WordFromBoxedSlice.producer w T) (FromBoxedSlice.new xs) (Script.ofList xs (.ok ())) :=
  (word_from_boxed_slice_same w xs hw).plays (from_boxed_slice_plays xs)

example : BulkPlays (WordFromBoxedSlice.producer .checked64 Nat) (FromBoxedSlice.new [1, 2, 3])
    (Script.ofList [1, 2, 3] (.ok ())) := word_from_boxed_slice_plays _ _ (by decide)

end

/-! ## The `Invariant` wrappers: no underflow, for arbitrary producers and consumers and calls, allowed or not -/

section

variable {σ I F E : Type}

theorem word_invariant_producer (w : Word) (P : BulkProducer σ I F E) : wordInvariantBulkProducer w P = invariantBulkProducer P := by
  have h : (wordInvariantBulkProducer w P).considerProduced = (invariantBulkProducer P).considerProduced := by
    funext s k
    simp only [wordInvariantBulkProducer, invariantBulkProducer]
    by_cases hk : k > s.exposedSlots
    · simp [hk]
    · rw [Word.sub_ok (by omega), sub_of_le (by omega)]
  have he : (wordInvariantBulkProducer w P).exposeItems = (invariantBulkProducer P).exposeItems := rfl
  have hb : (wordInvariantBulkProducer w P).bulkProduce = (invariantBulkProducer P).bulkProduce := by
    change bulkProduceDefault (wordInvariantBulkProducer w P).exposeItems (wordInvariantBulkProducer w P).considerProduced = _
    rw [h]; rfl
  unfold wordInvariantBulkProducer invariantBulkProducer at *
  simp only at h hb ⊢
  rw [h]

theorem word_invariant_consumer (w : Word) (C : BulkConsumer σ I F E) : wordInvariantBulkConsumer w C = invariantBulkConsumer C := by
  have h : (wordInvariantBulkConsumer w C).consumeSlots = (invariantBulkConsumer C).consumeSlots := by
    funext s k
    simp only [wordInvariantBulkConsumer, invariantBulkConsumer]
    by_cases hk : k > s.exposedSlots
    · simp [hk]
    · rw [Word.sub_ok (by omega), sub_of_le (by omega)]
  unfold wordInvariantBulkConsumer invariantBulkConsumer at *
  simp only at h ⊢
  rw [h]

example : (wordInvariantBulkProducer .wrapping64 (FromSlice.producer Nat)).considerProduced ⟨FromSlice.new [1, 2], true, 1⟩ 2 =
    .panic := by rw [word_invariant_producer]; rfl

/-! ## `Limit`: no underflow when the calls are allowed, for arbitrary producers and consumers -/

theorem word_limit_producer_same (w : Word) (P : BulkProducer σ I F E) (s : LimitSt σ) :
    (wordLimitBulkProducer w P).Same (limitBulkProducer P) s := by
  refine BulkProducer.same_of_default rfl rfl fun handed t shown hr => ⟨rfl, rfl, rfl, fun k hk => ?_⟩
  have := hr.limit_shown
  simp only [wordLimitBulkProducer, limitBulkProducer]
  rw [Word.sub_ok (by omega), sub_of_le (by omega)]

/-- `Limit` with machine arithmetic around a lawful producer; see `limit_bulk_plays_partial` for the condition. -/
theorem word_limit_plays_partial (w : Word) {P : BulkProducer σ I F E} {s : σ} {c : Script I F E} (h : BulkPlays P s c) (n : Nat)
    (hn : ∀ e, c n = .error e → ∃ i, i < n ∧ ∀ x, c i ≠ .ok (.inl x)) :
    BulkPlays (wordLimitBulkProducer w P) ⟨s, n⟩ (c.limit n) :=
  (word_limit_producer_same w P _).plays (limit_bulk_plays_partial h n hn)

/-- Around `FromSlice` with machine arithmetic. -/
example : BulkPlays (wordLimitBulkProducer .wrapping64 (WordFromSlice.producer .wrapping64 Nat)) ⟨FromSlice.new [1, 2, 3], 2⟩
    ((Script.ofList [1, 2, 3] (.ok ())).limit 2) :=
  word_limit_plays_partial _ (word_from_slice_plays _ _ (by decide)) 2 (fun _ h => by cases h)

/-- Without overflow checks, a call that is not allowed goes unnoticed: `Limit` forgets the limit. -/
example : ((wordLimitBulkProducer .wrapping64 (FromSlice.producer Nat)).considerProduced ⟨FromSlice.new [1, 2, 3], 1⟩ 2) =
    ok (⟨⟨[1, 2, 3], 2⟩, 2 ^ 64 - 1⟩, .ok ()) := rfl

theorem word_limit_consumer_same (w : Word) (C : BulkConsumer σ I F E) (s : LimitSt σ) :
    (wordLimitBulkConsumer w C).Same (limitBulkConsumer C) s := by
  refine BulkConsumer.same_of_default rfl rfl fun taken t slots hr => ⟨fun _ => rfl, fun _ => rfl, rfl, rfl, fun _ _ => rfl,
    fun k hk => ?_⟩
  have := hr.limit_slots
  simp only [wordLimitBulkConsumer, limitBulkConsumer]
  rw [Word.sub_ok (by omega), sub_of_le (by omega)]

theorem word_limit_collects (w : Word) {C : BulkConsumer σ I F E} {D : σ → List I → Option F → Prop} {q : Policy I F E} {s : σ}
    {l : List I} (h : BulkCollects C D q s l) (n : Nat) :
    BulkCollects (wordLimitBulkConsumer w C) (fun t => D t.inner) (q.limit (l.length + n)) ⟨s, n⟩ l :=
  (word_limit_consumer_same w C _).collects (limit_collects h n)

example : BulkCollects (wordLimitBulkConsumer .checked64 Case.C) (fun t => TestConsumer.Seen t.inner) ((Case.policy 4).limit 2)
    ⟨Case.con 4, 2⟩ [] := word_limit_collects _ (Case.collects 4) 2

/-- `Limit` around a consumer that cannot be told apart from `C` as long as the limit is not exceeded. -/
theorem word_limit_until (w : Word) {C' C : BulkConsumer σ I F E} {s : σ} {N : Nat}
    (hC : ∀ {taken u slots u'}, ConsumerRuns C s taken u slots none → C.exposeSlots u ≠ ok (u', .ok []))
    (h : C'.SameUntil C s N) : (wordLimitBulkConsumer w C').Same (limitBulkConsumer C) ⟨s, N⟩ := by
  refine BulkConsumer.same_of_default rfl rfl fun taken t slots hr => ?_
  obtain ⟨slots', ended', h1, h2, h3, h4, h5, _⟩ := limit_consumer_histories hC hr
  obtain rfl : ended' = none := h3
  obtain ⟨h5, h6⟩ := h5 rfl
  have hs := h _ _ _ h1 (by omega)
  have hle := h2.length_le
  obtain ⟨u, m⟩ := t
  simp only at hs h6
  refine ⟨fun x => ?_, fun f => ?_, ?_, ?_, fun ws hws => ?_, fun k hk => ?_⟩
  · simp only [wordLimitBulkConsumer, limitBulkConsumer, limitBufferedConsumer, limitConsumer, hs.consume]
  · simp only [wordLimitBulkConsumer, limitBulkConsumer, limitBufferedConsumer, limitConsumer, hs.close]
  · simp only [wordLimitBulkConsumer, limitBulkConsumer, limitBufferedConsumer, hs.flush]
  · simp only [wordLimitBulkConsumer, limitBulkConsumer, hs.expose]
  · simp only [wordLimitBulkConsumer, limitBulkConsumer, hs.write ws (by omega)]
  · simp only [wordLimitBulkConsumer, limitBulkConsumer]
    rw [Word.sub_ok (by omega), sub_of_le (by omega)]
    simp only [bind_eq, bind_ok, hs.consumeSlots k (by omega)]

example : (wordLimitBulkConsumer .checked64 Case.C).Same (limitBulkConsumer Case.C) ⟨Case.con 4, 2⟩ :=
  word_limit_consumer_same _ _ _


end

/-! ## `IntoVec` -/

section

variable {T : Type} [Inhabited T]

/-- What it takes for a call of `IntoVec` not to overflow. -/
theorem WordIntoVec.sameAt (w : Word) {s : IntoVec T} {slots : List T} (h1 : s.consumed ≤ s.v.length)
    (h2 : slots.length ≤ s.v.length - s.consumed) (h3 : s.v.length < w.size)
    (h4 : s.consumed = s.v.length → 2 * s.consumed + 1 < w.size) :
    (WordIntoVec.consumer w T).AgreeAt (IntoVec.consumer T) s slots := by
  have hm : WordIntoVec.makeSpaceIfNeeded w s = ok s.makeSpaceIfNeeded := by
    unfold WordIntoVec.makeSpaceIfNeeded IntoVec.makeSpaceIfNeeded
    split
    · rename_i h
      have := h4 h
      rw [Word.mul_ok (by omega)]
      simp only [bind_eq, bind_ok]
      rw [Word.add_ok (by omega)]
      rfl
    · rfl
  obtain ⟨g1, g2, _⟩ := s.makeSpaceIfNeeded_spec h1
  refine ⟨fun x => ?_, fun _ => rfl, rfl, ?_, fun _ _ => rfl, fun k hk => ?_⟩
  · simp only [WordIntoVec.consumer, WordIntoVec.consume, IntoVec.consumer, IntoVec.consume, hm, bind_eq, bind_ok]
    rw [setIndex_of_lt g2]
    simp only [bind_ok]
    rw [Word.add_ok]
    · rfl
    · rw [g1]
      by_cases hc : s.consumed = s.v.length
      · have := h4 hc; omega
      · omega
  · simp only [WordIntoVec.consumer, WordIntoVec.exposeSlots, IntoVec.consumer, IntoVec.exposeSlots, hm, bind_eq, bind_ok]
  · simp only [WordIntoVec.consumer, WordIntoVec.consumeSlots, IntoVec.consumer, IntoVec.consumeSlots]
    rw [Word.add_ok (by omega)]
    rfl

/-- **C64, `IntoVec`.** As long as twice the number of items fits in a word. -/
theorem word_into_vec_same (w : Word) (v : List T) {N : Nat} (hw : 2 * (v.length + N) + 1 < w.size) :
    (WordIntoVec.consumer w T).SameUntil (IntoVec.consumer T) (IntoVec.fromVec v) N := by
  refine BulkConsumer.sameUntil_of_default rfl rfl fun taken s slots hr hN => ?_
  obtain ⟨h1, h2, h3, h4, _⟩ := IntoVec.runs_length (G := fun _ => True) (fun _ _ => trivial) hr trivial rfl
  exact WordIntoVec.sameAt w h2 h3 (by omega) (by omega)

example : (WordIntoVec.consumer .checked64 Nat).SameUntil (IntoVec.consumer Nat) (IntoVec.fromVec [1, 2]) 1000000 :=
  word_into_vec_same _ _ (by decide)

/-- **C64, `IntoVec` starting with an empty vector.** As long as the number of items is smaller than `usize::MAX`: the lengths of the
vector are one less than a power of two. -/
theorem word_into_vec_new_same {b : Nat} (hb : 0 < b) (checks : Bool) :
    (WordIntoVec.consumer ⟨2 ^ b, checks⟩ T).SameUntil (IntoVec.consumer T) IntoVec.new (2 ^ b - 2) := by
  refine BulkConsumer.sameUntil_of_default rfl rfl fun taken s slots hr hN => ?_
  obtain ⟨h1, h2, h3, h4, m, h5⟩ := IntoVec.runs_length (v := []) (G := fun n => ∃ m, n + 1 = 2 ^ m)
    (by rintro n ⟨m, hm⟩; exact ⟨m + 1, by rw [Nat.pow_succ]; omega⟩) hr ⟨0, rfl⟩ rfl
  simp only [List.length_nil, Nat.zero_add] at h1
  have hb2 : 2 ^ 1 ≤ 2 ^ b := Nat.pow_le_pow_right (by decide) hb
  have hmb : 2 ^ m ≤ 2 ^ b := by
    by_cases h : m ≤ b
    · exact Nat.pow_le_pow_right (by decide) h
    · have : 2 ^ (b + 1) ≤ 2 ^ m := Nat.pow_le_pow_right (by decide) (by omega)
      rw [Nat.pow_succ] at this
      omega
  refine WordIntoVec.sameAt _ h2 h3 (by simp only; omega) fun hc => ?_
  simp only
  by_cases h : m < b
  · have : 2 ^ (m + 1) ≤ 2 ^ b := Nat.pow_le_pow_right (by decide) (by omega)
    rw [Nat.pow_succ] at this
    omega
  · have : 2 ^ b ≤ 2 ^ m := Nat.pow_le_pow_right (by decide) (by omega)
    omega

/-- On 64-bit machines. -/
example : (WordIntoVec.consumer .wrapping64 T).SameUntil (IntoVec.consumer T) IntoVec.new (2 ^ 64 - 2) :=
  word_into_vec_new_same (by decide) false

/-- `Limit` around `IntoVec` is lawful if twice the number of all items fits in a word. -/
theorem word_limit_into_vec_collects (w : Word) (v : List T) {n : Nat} (hw : 2 * (v.length + n) + 1 < w.size) :
    BulkCollects (wordLimitBulkConsumer w (WordIntoVec.consumer w T)) (fun t l _ => t.inner.asRef = ok l ∧ t.inner.intoVec = l)
      (Policy.acceptAll.limit (v.length + n)) ⟨IntoVec.fromVec v, n⟩ v := by
  refine (word_limit_until w (fun {taken u slots u'} hr he => ?_) (word_into_vec_same w v hw)).collects
    (limit_collects (into_vec_collects v) n)
  obtain ⟨_, ⟨sl, h2⟩, _⟩ := hr.after IntoVec.law (IntoVec.ready_fromVec v)
  obtain ⟨s', slots', hne, h3, _⟩ := IntoVec.law.expose_ok u _ sl h2 rfl
  rw [he] at h3
  simp at h3
  exact hne h3.2

example : BulkCollects (wordLimitBulkConsumer .checked64 (WordIntoVec.consumer .checked64 Nat))
    (fun t l _ => t.inner.asRef = ok l ∧ t.inner.intoVec = l) (Policy.acceptAll.limit 3) ⟨IntoVec.fromVec [7], 2⟩ [7] :=
  word_limit_into_vec_collects .checked64 [7] (n := 2) (by decide)

/-- A pipe from a slice to a vector, both with machine arithmetic. -/
theorem word_pipe_from_slice_into_vec (w : Word) (xs v : List T) (hw : 2 * (v.length + xs.length) + 1 < w.size) :
    (∃ s t, pipe (WordFromSlice.producer w T).toProducer (WordIntoVec.consumer w T).toConsumer (FromSlice.new xs)
      (IntoVec.fromVec v) = ok ((s, t), .ok ()) ∧ t.intoVec = v ++ xs) ∧
    (∃ s t, bulkPipe (WordFromSlice.producer w T) (WordIntoVec.consumer w T) (FromSlice.new xs) (IntoVec.fromVec v) =
      ok ((s, t), .ok ()) ∧ t.intoVec = v ++ xs) := by
  have hN : ∀ handed s' shown, ProducerRuns (FromSlice.producer T) (FromSlice.new xs) handed s' shown none → handed.length ≤ xs.length :=
    fun _ _ _ hr => (from_slice_plays xs).handed_le hr
  have hP := word_from_slice_same w xs (by omega)
  have hC := word_into_vec_same w v hw
  rw [word_pipe hN hP hC, word_bulk_pipe hN (from_slice_plays xs).showsSome (into_vec_collects v).claimsAtMost hP hC]
  have hres : PipeResult (E₁ := Empty) (E₂ := Empty) (Script.ofList xs (.ok ())) Policy.acceptAll v xs (some ()) (.ok ()) := by
    refine .closed (Script.ofList_startsWith _ _) (by simp) ?_ rfl
    simp [Script.ofList, Except.map]
  obtain ⟨s, t, h1, h2⟩ := pipe_spec (from_slice_plays xs).toPlays (into_vec_collects v).toCollects hres
  obtain ⟨s', t', h3, h4, _⟩ := bulk_pipe_spec (from_slice_plays xs) (into_vec_collects v) hres
  exact ⟨⟨s, t, h1, h2.2⟩, s', t', h3, h4.2⟩

example : ∃ s t, pipe (WordFromSlice.producer .wrapping64 Nat).toProducer (WordIntoVec.consumer .wrapping64 Nat).toConsumer
    (FromSlice.new [1, 2, 3]) (IntoVec.fromVec [7]) = ok ((s, t), .ok ()) ∧ t.intoVec = [7, 1, 2, 3] :=
  (word_pipe_from_slice_into_vec .wrapping64 [1, 2, 3] [7] (by decide)).1


end

/-! ## The limit of `IntoVec` -/

/-- After `usize::MAX` items (which is possible only if items take up no memory), `consume` panics; `expose_slots` panics or, without
overflow checks, exposes no slots, so that a `bulk_consume_full_slice` does not return. -/
theorem word_into_vec_overflows {b : Nat} (hb : 0 < b) (checks : Bool) :
    ∃ s : IntoVec Unit, ConsumerRuns (WordIntoVec.consumer ⟨2 ^ b, checks⟩ Unit) IntoVec.new (List.replicate (2 ^ b - 1) ()) s [] none ∧
      (WordIntoVec.consumer ⟨2 ^ b, checks⟩ Unit).consume s () = .panic ∧
      (checks = true → (WordIntoVec.consumer ⟨2 ^ b, checks⟩ Unit).exposeSlots s = .panic) ∧
      (checks = false → (WordIntoVec.consumer ⟨2 ^ b, checks⟩ Unit).exposeSlots s = ok (s, .ok []) ∧
        wordBulkConsumeFullSlice ⟨2 ^ b, checks⟩ (WordIntoVec.consumer ⟨2 ^ b, checks⟩ Unit) s [()] = .diverge) := by
  have hb2 : 2 ^ 1 ≤ 2 ^ b := Nat.pow_le_pow_right (by decide) hb
  have hsame := word_into_vec_new_same (T := Unit) hb checks
  have hruns : ∀ n, ∃ s slots, ConsumerRuns (IntoVec.consumer Unit) IntoVec.new (List.replicate n ()) s slots none := by
    intro n
    induction n with
    | zero => exact ⟨_, _, .start⟩
    | succ n ih =>
      obtain ⟨s, slots, hr⟩ := ih
      obtain ⟨_, h2, _⟩ := hr.after IntoVec.law (IntoVec.ready_fromVec [])
      obtain ⟨s', h3, _⟩ := IntoVec.law.base.consume_ok s _ () h2 rfl
      have := hr.call (op := .consume ()) (s' := s') (r := ⟨[()], [], none⟩) trivial (by simp [BulkConsumer.call, h3])
      rw [← List.replicate_succ'] at this
      exact ⟨_, _, this⟩
  obtain ⟨s, slots, hr⟩ := hruns (2 ^ b - 2)
  have hpow : ∀ {n : Nat}, (∃ m, n + 1 = 2 ^ m) → ∃ m, 2 * n + 1 + 1 = 2 ^ m := by
    rintro n ⟨m, hm⟩
    exact ⟨m + 1, by rw [Nat.pow_succ]; omega⟩
  obtain ⟨h1, h2, h3, h4, _⟩ := IntoVec.runs_length (v := []) (G := fun n => ∃ m, n + 1 = 2 ^ m) (fun _ => hpow) hr ⟨0, rfl⟩ rfl
  simp only [List.length_nil, Nat.zero_add, List.length_replicate] at h1
  have hN : (List.replicate (2 ^ b - 2) ()).length ≤ 2 ^ b - 2 := by simp
  have hat := hsame _ _ _ hr hN
  obtain ⟨g1, g2, _⟩ := s.makeSpaceIfNeeded_spec h2
  have glen : s.makeSpaceIfNeeded.v.length ≤ 2 * s.consumed + 1 := by
    unfold IntoVec.makeSpaceIfNeeded
    split
    · simp [IntoVec.resizeWith]; omega
    · exact h4
  have hstep : (IntoVec.consumer Unit).consume s () =
      ok (⟨s.makeSpaceIfNeeded.v.set s.consumed (), s.consumed + 1⟩, .ok ()) := by
    simp only [IntoVec.consumer, IntoVec.consume]
    rw [setIndex_of_lt g2]; simp [g1]
  have hrep : List.replicate (2 ^ b - 2) () ++ [()] = List.replicate (2 ^ b - 1) () := by
    rw [← List.replicate_succ']; congr 1; omega
  have hr' := hr.call (op := .consume ())
    (s' := ⟨s.makeSpaceIfNeeded.v.set s.consumed (), s.consumed + 1⟩) (r := ⟨[()], [], none⟩) trivial
    (by simp only [BulkConsumer.call, hstep, bind_ok])
  have hw' := ((hsame.runs hN).mpr hr).call (op := .consume ())
    (s' := ⟨s.makeSpaceIfNeeded.v.set s.consumed (), s.consumed + 1⟩) (r := ⟨[()], [], none⟩) trivial
    (by simp only [BulkConsumer.call, hat.consume, hstep, bind_ok])
  simp only [hrep] at hr' hw'
  obtain ⟨k1, k2, _, _, m, k5⟩ := IntoVec.runs_length (v := []) (G := fun n => ∃ m, n + 1 = 2 ^ m) (fun _ => hpow) hr' ⟨0, rfl⟩ rfl
  refine ⟨_, hw', ?_⟩
  have hlen : (s.makeSpaceIfNeeded.v.set s.consumed ()).length + 1 = 2 ^ b := by
    simp only [List.length_set] at k2 k5 ⊢
    have : m = b := by
      by_cases hlt : m < b
      · have : 2 ^ (m + 1) ≤ 2 ^ b := Nat.pow_le_pow_right (by decide) (by omega)
        rw [Nat.pow_succ] at this
        omega
      · by_cases hgt : b < m
        · have : 2 ^ (b + 1) ≤ 2 ^ m := Nat.pow_le_pow_right (by decide) (by omega)
          rw [Nat.pow_succ] at this
          omega
        · omega
    rw [k5, this]
  have hcons : s.consumed + 1 = 2 ^ b - 1 := by omega
  generalize s.makeSpaceIfNeeded.v.set s.consumed () = v at hlen
  generalize s.consumed + 1 = c at hcons
  have hvc : c = v.length := by omega
  subst hvc
  have hm : checks = true → WordIntoVec.makeSpaceIfNeeded ⟨2 ^ b, checks⟩ ⟨v, v.length⟩ = .panic := by
    rintro rfl
    simp only [WordIntoVec.makeSpaceIfNeeded, Word.mul]
    rw [if_pos trivial, if_neg (by omega)]
    rfl
  have hm' : checks = false → WordIntoVec.makeSpaceIfNeeded ⟨2 ^ b, checks⟩ ⟨v, v.length⟩ = ok ⟨v, v.length⟩ := by
    rintro rfl
    simp only [WordIntoVec.makeSpaceIfNeeded, Word.mul]
    rw [if_pos trivial, if_neg (by omega)]
    have : v.length * 2 % 2 ^ b = v.length - 1 := by
      rw [show v.length * 2 = (v.length - 1) + 2 ^ b by omega, Nat.add_mod_right, Nat.mod_eq_of_lt (by omega)]
    simp only [bind_eq, bind_ok, Bool.false_eq_true, if_false, this]
    rw [Word.add_ok (by simp only; omega), show v.length - 1 + 1 = v.length by omega]
    simp [IntoVec.resizeWith]
  have hx : checks = false → (WordIntoVec.consumer ⟨2 ^ b, checks⟩ Unit).exposeSlots ⟨v, v.length⟩ = ok (⟨v, v.length⟩, .ok []) := by
    intro hc
    simp only [WordIntoVec.consumer, WordIntoVec.exposeSlots, hm' hc, bind_eq, bind_ok]
    rw [slice_of_le (Nat.le_refl _) (Nat.le_refl _)]
    simp
  refine ⟨?_, fun hc => ?_, fun hc => ⟨hx hc, ?_⟩⟩
  · simp only [WordIntoVec.consumer, WordIntoVec.consume]
    rcases checks with _ | _
    · rw [hm' rfl]
      simp [setIndex]
    · rw [hm rfl]; rfl
  · simp only [WordIntoVec.consumer, WordIntoVec.exposeSlots, hm hc]; rfl
  · refine loop_diverge _ (fun x : IntoVec Unit × Nat => x = (⟨v, v.length⟩, 0)) ?_ _ rfl
    rintro _ rfl
    refine ⟨(⟨v, v.length⟩, 0), ?_, rfl⟩
    have hb' : (WordIntoVec.consumer ⟨2 ^ b, checks⟩ Unit).bulkConsume ⟨v, v.length⟩ [()] = ok (⟨v, v.length⟩, .ok 0) := by
      have hx' : WordIntoVec.exposeSlots ⟨2 ^ b, checks⟩ ⟨v, v.length⟩ = ok (⟨v, v.length⟩, .ok []) := hx hc
      change bulkConsumeDefault _ _ _ _ _ = _
      simp only [bulkConsumeDefault, hx', bind_eq, bind_ok, IntoVec.writeSlots, WordIntoVec.consumeSlots]
      rw [Word.add_ok (by simp only [List.length_nil, Nat.zero_min]; omega)]
      simp
    simp only [wordBulkConsumeFullSliceBody, List.drop_zero, hb']
    simp
    rw [Word.add_ok (by simp only; omega)]
    rfl

/-- On 64-bit machines. -/
example : ∃ s : IntoVec Unit, (WordIntoVec.consumer .wrapping64 Unit).exposeSlots s = ok (s, .ok []) := by
  obtain ⟨s, _, _, _, h⟩ := word_into_vec_overflows (b := 64) (by decide) false
  exact ⟨s, (h rfl).1⟩

end Verif
