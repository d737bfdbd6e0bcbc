import Verif.Lemmas.History
import Verif.Model.Consumers

/-!
# `FromSlice`, `FromBoxedSlice`, `Empty` and `IntoVec` are lawful
-/

namespace Verif

open Outcome

section

variable {T : Type}

namespace FromSlice

/-- The state is at a valid position of `xs` and `n` items may be considered produced. -/
def Ready (s : FromSlice T) (c : Script T Unit Empty) (n : Nat) : Prop :=
  s.pos + n ≤ s.data.length ∧ c = Script.ofList (s.data.drop s.pos) (.ok ())

theorem law : BulkPlaysLaw (producer T) Ready := by
  refine BulkPlaysLaw.of_default rfl ⟨⟨?_⟩, ?_⟩ ?_ ?_
  · rintro s c ⟨n, hn, rfl⟩
    simp only [producer, produce]
    by_cases h : s.data.length = s.pos
    · refine ⟨s, ?_, ?_⟩
      · simp [h, Script.ofList, Except.map]
      · simp [Script.ofList, ← h, Except.map]
    · have hlt : s.pos < s.data.length := by omega
      refine ⟨⟨s.data, s.pos + 1⟩, ?_, ?_⟩
      · simp [h, Script.ofList, index_of_lt hlt, hlt]
      · rintro x -
        refine ⟨0, by simp; omega, ?_⟩
        rw [Script.ofList_drop _ _ _ (by simp; omega), List.drop_drop]
  · rintro s c ⟨n, hn⟩
    exact ⟨s, .inl ⟨rfl, n, hn⟩⟩
  · rintro s c n ⟨hn, rfl⟩
    simp only [producer, exposeItems]
    rw [slice_of_le (by omega) (Nat.le_refl _), List.take_length]
    by_cases h : s.data.drop s.pos = []
    · refine ⟨s, .inr (.inl ⟨(), ?_, ?_⟩)⟩
      · simp [h, Script.ofList, Except.map]
      · simp [h]
    · refine ⟨s, .inl ⟨s.data.drop s.pos, h, Script.ofList_startsWith _ _, ?_, ?_, rfl⟩⟩
      · simp [h]
      · simp; omega
  · rintro s c n k ⟨hn, rfl⟩ h0 hk
    refine ⟨⟨s.data, s.pos + k⟩, rfl, by simp; omega, ?_⟩
    rw [Script.ofList_drop _ _ _ (by simp; omega), List.drop_drop]

theorem ready_new (xs : List T) : Ready (new xs) (Script.ofList xs (.ok ())) 0 := ⟨by simp [new], by simp [new]⟩

end FromSlice

namespace FromBoxedSlice

def Ready (s : FromBoxedSlice T) (c : Script T Unit Empty) (n : Nat) : Prop :=
  s.pos + n ≤ s.data.length ∧ c = Script.ofList (s.data.drop s.pos) (.ok ())

theorem law : BulkPlaysLaw (producer T) Ready := by
  refine BulkPlaysLaw.of_default rfl ⟨⟨?_⟩, ?_⟩ ?_ ?_
  · rintro s c ⟨n, hn, rfl⟩
    simp only [producer, produce]
    by_cases h : s.data.length = s.pos
    · refine ⟨s, ?_, ?_⟩
      · simp [h, Script.ofList, Except.map]
      · simp [Script.ofList, ← h, Except.map]
    · have hlt : s.pos < s.data.length := by omega
      refine ⟨⟨s.data, s.pos + 1⟩, ?_, ?_⟩
      · simp [h, Script.ofList, index_of_lt hlt, hlt]
      · rintro x -
        refine ⟨0, by simp; omega, ?_⟩
        rw [Script.ofList_drop _ _ _ (by simp; omega), List.drop_drop]
  · rintro s c ⟨n, hn⟩
    exact ⟨s, .inl ⟨rfl, n, hn⟩⟩
  · rintro s c n ⟨hn, rfl⟩
    simp only [producer, exposeItems]
    rw [slice_of_le (by omega) (Nat.le_refl _), List.take_length]
    by_cases h : s.data.drop s.pos = []
    · refine ⟨s, .inr (.inl ⟨(), ?_, ?_⟩)⟩
      · simp [h, Script.ofList, Except.map]
      · simp [h]
    · refine ⟨s, .inl ⟨s.data.drop s.pos, h, Script.ofList_startsWith _ _, ?_, ?_, rfl⟩⟩
      · simp [h]
      · simp; omega
  · rintro s c n k ⟨hn, rfl⟩ h0 hk
    refine ⟨⟨s.data, s.pos + k⟩, rfl, by simp; omega, ?_⟩
    rw [Script.ofList_drop _ _ _ (by simp; omega), List.drop_drop]

theorem ready_new (xs : List T) : Ready (new xs) (Script.ofList xs (.ok ())) 0 := ⟨by simp [new], by simp [new]⟩

end FromBoxedSlice

namespace EmptyProducer

variable {I F E : Type}

def Ready (s : EmptyProducer F) (c : Script I F E) (n : Nat) : Prop :=
  n = 0 ∧ ∃ f, s.fin = some f ∧ c 0 = .ok (.inr f)

theorem law : BulkPlaysLaw (producer I F E) Ready := by
  refine BulkPlaysLaw.of_default rfl ⟨⟨?_⟩, ?_⟩ ?_ ?_
  · rintro s c ⟨n, rfl, f, hf, hc⟩
    exact ⟨⟨none⟩, by simp [producer, produce, hf, hc], by simp [hc]⟩
  · rintro s c ⟨n, hn⟩
    exact ⟨s, .inl ⟨rfl, n, hn⟩⟩
  · rintro s c n ⟨rfl, f, hf, hc⟩
    exact ⟨⟨none⟩, .inr (.inl ⟨f, hc, by simp [producer, exposeItems, hf]⟩)⟩
  · rintro s c n k ⟨rfl, _⟩ h0 hk
    omega

end EmptyProducer

namespace IntoVec

variable [Inhabited T]

/-- What can be observed of an `IntoVec`: both `as_ref` and `into_vec` give `l`. -/
def Contents (s : IntoVec T) (l : List T) (_ : Option Unit) : Prop := s.asRef = ok l ∧ s.intoVec = l

def Ready (s : IntoVec T) (l slots : List T) : Prop :=
  s.consumed ≤ s.v.length ∧ s.v.take s.consumed = l ∧ (s.v.drop s.consumed).take slots.length = slots ∧
    slots.length ≤ s.v.length - s.consumed

theorem Ready.contents {s : IntoVec T} {l slots : List T} (h : s.Ready l slots) (f : Option Unit) : s.Contents l f := by
  obtain ⟨h1, h2, _⟩ := h
  exact ⟨by rw [asRef, slice_of_le (by omega) h1, h2]; rfl, h2⟩

omit [Inhabited T] in
theorem Ready.nil {s : IntoVec T} {l slots : List T} (h : s.Ready l slots) : s.Ready l [] :=
  ⟨h.1, h.2.1, by simp, by simp⟩

theorem makeSpaceIfNeeded_spec (s : IntoVec T) (h : s.consumed ≤ s.v.length) :
    s.makeSpaceIfNeeded.consumed = s.consumed ∧ s.makeSpaceIfNeeded.consumed < s.makeSpaceIfNeeded.v.length ∧
    s.makeSpaceIfNeeded.v.take s.consumed = s.v.take s.consumed := by
  unfold makeSpaceIfNeeded
  split
  · rename_i hc
    refine ⟨rfl, ?_, ?_⟩
    · simp [resizeWith]; omega
    · simp only [resizeWith]
      rw [List.take_append_of_le_length (by simp; omega), List.take_take, Nat.min_eq_left (by omega)]
  · exact ⟨rfl, by omega, rfl⟩

theorem law : BulkCollectsLaw (consumer T) Contents Policy.acceptAll Ready := by
  refine BulkCollectsLaw.of_default rfl ⟨⟨?_, ?_, ?_, ?_, ?_⟩, ?_⟩ ?_ ?_ ?_ ?_ ?_
  · rintro s l ⟨slots, h⟩; exact h.contents _
  · rintro s l x ⟨slots, h⟩ -
    obtain ⟨h1, h2, h3⟩ := s.makeSpaceIfNeeded_spec h.1
    refine ⟨⟨s.makeSpaceIfNeeded.v.set s.consumed x, s.consumed + 1⟩, ?_, [], ?_, ?_, by simp, by simp⟩
    · simp only [consumer, consume]
      rw [setIndex_of_lt h2]; simp [h1]
    · simp; omega
    · simp only
      rw [List.take_succ_eq_append_getElem (by simp; omega)]
      rw [List.take_set_of_le (Nat.le_refl _)]
      simp [h3, h.2.1]
  · intro s l x e _ h; simp [Policy.acceptAll, Policy.answer] at h
  · rintro s l f ⟨slots, h⟩ -; exact ⟨s, rfl, h.contents _⟩
  · intro s l x e _ h; simp [Policy.acceptAll] at h
  · rintro s l h; exact ⟨s, .inl ⟨rfl, h⟩⟩
  · rintro s l slots h -
    obtain ⟨h1, h2, h3⟩ := s.makeSpaceIfNeeded_spec h.1
    have hx : (s.makeSpaceIfNeeded.v.drop s.makeSpaceIfNeeded.consumed).length =
      s.makeSpaceIfNeeded.v.length - s.makeSpaceIfNeeded.consumed := by simp
    refine ⟨s.makeSpaceIfNeeded, s.makeSpaceIfNeeded.v.drop s.makeSpaceIfNeeded.consumed, ?_, ?_, ?_, ?_, ?_, ?_⟩
    · intro h0; rw [h0] at hx; simp at hx; omega
    · simp only [consumer, exposeSlots]
      rw [slice_of_le (by omega) (Nat.le_refl _), List.take_length]; rfl
    · omega
    · rw [h1, h3, h.2.1]
    · rw [List.take_length]
    · omega
  · intro s l slots e _ h; simp [Policy.acceptAll] at h
  · rintro s l slots ws ⟨h1, h2, h3, h4⟩ hw
    have hl : (s.v.take s.consumed).length = s.consumed := by simp; omega
    have hlen : (s.v.take s.consumed ++ ws ++ s.v.drop (s.consumed + ws.length)).length = s.v.length := by
      simp; omega
    refine ⟨?_, ?_, ?_, ?_⟩
    · simp only [consumer, writeSlots, hlen]; exact h1
    · simp only [consumer, writeSlots, List.append_assoc]
      rw [List.take_append_of_le_length (by omega), List.take_take, Nat.min_self, h2]
    · simp only [consumer, writeSlots, List.append_assoc]
      rw [List.drop_left' hl]
      rw [List.length_append, List.take_length_add_append]
      congr 1
      conv => rhs; rw [← h3]
      rw [List.length_drop, List.drop_take, List.drop_drop]
    · simp only [consumer, writeSlots, hlen]
      rw [List.length_append, List.length_drop]; omega
  · rintro s l slots k ⟨h1, h2, h3, h4⟩ - hk -
    refine ⟨⟨s.v, s.consumed + k⟩, rfl, ?_, ?_, ?_, ?_⟩
    · simp only; omega
    · simp only
      rw [List.take_add, h2]
      congr 1
      conv => rhs; rw [← h3]
      rw [List.take_take, Nat.min_eq_left hk]
    · simp only
      conv => rhs; rw [← h3]
      rw [List.length_drop, List.drop_take, List.drop_drop]
    · simp only [List.length_drop]; omega
  · intro s l slots k i e _ _ _ h
    obtain ⟨_, x, _, h⟩ := h
    simp at h

theorem ready_fromVec (v : List T) : (fromVec v).Ready v [] := by
  simp [Ready, fromVec]

end IntoVec

end

end Verif
