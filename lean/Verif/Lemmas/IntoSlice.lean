import Verif.Model.IntoSlice
import Verif.Lemmas.Slices

/-!
# Helper lemmas about `IntoSlice`
-/

namespace Verif

open Outcome

namespace IntoSlice

variable {T : Type}

/-- What can be observed of an `IntoSlice` around a slice of length `n` after it has consumed `l`. -/
def Contents (n : Nat) (s : IntoSlice T) (l : List T) (_ : Option Unit) : Prop :=
  s.getOffset = l.length ∧ s.getOverwrittenSoFar = ok l ∧
    ∃ rest, s.getNotYetOverwritten = ok rest ∧ s.intoInner = l ++ rest ∧ l.length + rest.length = n

/-- Items fit until the slice is full; closing and flushing are always possible. -/
def policy (n : Nat) : Policy T Unit Unit where
  refuse l := if l.length < n then none else some ()
  refuseFlush _ := none
  refuseClose _ _ := none

def Ready (n : Nat) (s : IntoSlice T) (l slots : List T) : Prop :=
  ∃ rest, s.data = l ++ slots ++ rest ∧ s.offset = l.length ∧ s.data.length = n

theorem Ready.contents {n : Nat} {s : IntoSlice T} {l slots : List T} (h : s.Ready n l slots) (f : Option Unit) :
    s.Contents n l f := by
  obtain ⟨rest, h1, h2, h3⟩ := h
  have hle : s.offset ≤ s.data.length := by rw [h1, h2]; simp
  refine ⟨h2, ?_, slots ++ rest, ?_, by simp [intoInner, h1], ?_⟩
  · rw [getOverwrittenSoFar, getOffset, slice_of_le (by omega) hle, h1, h2]; simp
  · rw [getNotYetOverwritten, getOffset, slice_of_le hle (Nat.le_refl _), List.take_length, h1, h2]; simp
  · rw [← h3, h1]; simp

theorem law (n : Nat) : BulkCollectsLaw (consumer T) (Contents n) (policy n) (Ready n) := by
  refine BulkCollectsLaw.of_default rfl ⟨⟨?_, ?_, ?_, ?_, ?_⟩, ?_⟩ ?_ ?_ ?_ ?_ ?_
  · rintro s l ⟨slots, h⟩; exact h.contents _
  · rintro s l x ⟨slots, rest, h1, h2, h3⟩ hq
    have hlt : l.length < n := by
      simp only [policy, Policy.answer] at hq
      split at hq
      · assumption
      · simp at hq
    refine ⟨⟨s.data.set s.offset x, s.offset + 1⟩, ?_, [], (slots ++ rest).drop 1, ?_, by simp [h2], by simpa using h3⟩
    · simp only [consumer, consume, bind_eq]
      rw [if_neg (by omega), setIndex_of_lt (by omega)]; rfl
    · simp only [h1, h2, List.append_assoc, List.append_nil, List.set_append_right _ _ (Nat.le_refl _), Nat.sub_self,
        List.cons_append, List.nil_append]
      congr 1
      have : 0 < (slots ++ rest).length := by
        rw [h1] at h3; simp only [List.length_append] at h3 ⊢; omega
      cases hr : slots ++ rest with
      | nil => rw [hr] at this; simp at this
      | cons => simp
  · rintro s l x e ⟨slots, h⟩ hq
    have hge : ¬ l.length < n := by
      simp only [policy, Policy.answer] at hq
      split at hq
      · simp at hq
      · assumption
    refine ⟨s, ?_, h.contents _⟩
    obtain ⟨rest, h1, h2, h3⟩ := h
    have : l.length ≤ n := by rw [← h3, h1]; simp
    simp only [consumer, consume]
    rw [if_pos (by omega)]; rfl
  · rintro s l f ⟨slots, h⟩ -; exact ⟨s, rfl, h.contents _⟩
  · intro s l x e _ h; simp [policy] at h
  · rintro s l h; exact ⟨s, .inl ⟨rfl, h⟩⟩
  · rintro s l slots ⟨rest, h1, h2, h3⟩ hq
    have hlt : l.length < n := by
      simp only [policy] at hq
      split at hq
      · assumption
      · simp at hq
    have hl : (slots ++ rest).length = n - l.length := by rw [← h3, h1]; simp
    refine ⟨s, slots ++ rest, ?_, ?_, [], by simp [h1], h2, h3⟩
    · intro h0; rw [h0] at hl; simp at hl; omega
    · simp only [consumer, exposeSlots, bind_eq]
      rw [if_neg (by omega), slice_of_le (by omega) (Nat.le_refl _), List.take_length, h1, h2]; simp
  · rintro s l slots e h hq
    have hge : ¬ l.length < n := by
      simp only [policy] at hq
      split at hq
      · simp at hq
      · assumption
    refine ⟨s, ?_, h.contents _⟩
    obtain ⟨rest, h1, h2, h3⟩ := h
    have : l.length ≤ n := by rw [← h3, h1]; simp
    simp only [consumer, exposeSlots]
    rw [if_pos (by omega)]; rfl
  · rintro s l slots ws ⟨rest, h1, h2, h3⟩ hw
    have e : (writeSlots s ws).data = l ++ (ws ++ slots.drop ws.length) ++ rest := by
      simp only [writeSlots, h1, h2, List.append_assoc, List.take_left']
      rw [show l.length + ws.length = l.length + ws.length from rfl, List.drop_append, List.drop_append,
        List.drop_eq_nil_of_le (by omega : l.length ≤ l.length + ws.length), Nat.add_sub_cancel_left,
        show ws.length - slots.length = 0 by omega]
      simp
    refine ⟨rest, e, h2, ?_⟩
    show (writeSlots s ws).data.length = n
    rw [e, ← h3, h1]; simp; omega
  · rintro s l slots k ⟨rest, h1, h2, h3⟩ - hk -
    exact ⟨⟨s.data, s.offset + k⟩, rfl, rest, by simp [h1, List.append_assoc], by simp [h2]; omega, h3⟩
  · rintro s l slots k i e ⟨rest, h1, h2, h3⟩ _ hk ⟨_, x, hx, hq⟩
    exfalso
    have hi : i < (slots.take k).length := (List.getElem?_eq_some_iff.mp hx).1
    have hn : l.length + slots.length ≤ n := by rw [← h3, h1]; simp [← Nat.add_assoc]
    simp only [policy, Policy.answer] at hq
    rw [if_pos] at hq
    · simp at hq
    · simp only [List.length_append, List.length_take] at hi ⊢; omega

theorem ready_new (v : List T) : (new v).Ready v.length [] [] := ⟨v, by simp [new], rfl, rfl⟩

end IntoSlice

end Verif
