import Verif.StacksSpec
import Verif.Lemmas.Maps
import Verif.Lemmas.Adaptors

/-!
# `Limit` and `MapFinal` around consumers that delay their effects, with the errors that may come out
-/

namespace Verif

open Outcome

section

variable {σ I F E : Type}

theorem Faults.Regular.mapFinal {B : Type} {X : Faults I F E} (h : X.Regular) (g : B → F) : (X.mapFinal g).Regular where
  during_prefix := h.during_prefix
  exposing_prefix := h.exposing_prefix
  closing_prefix l f := h.closing_prefix l (g f)
  mono := h.mono
  exposing_during := h.exposing_during
  during_exposing := h.during_exposing
  during_closing l f := h.during_closing l (g f)

theorem prefix_take {l l' : List I} (h : l <+: l') (n : Nat) : l.take n <+: l'.take n := by
  obtain ⟨t, rfl⟩ := h
  rw [List.take_append]
  exact List.prefix_append _ _

theorem Faults.limit_during {X : Faults I F E} {n : Nat} {l d : List I} {e : E} (h : X.during l d e) (hl : l.length ≤ n) :
    (X.limit n).during l d (some e) := by
  show X.during (l.take n) d e
  rwa [List.take_of_length_le hl]

theorem Faults.Regular.limit {X : Faults I F E} (h : X.Regular) (n : Nat) : (X.limit n).Regular where
  during_prefix l d
    | none, ⟨h1, _⟩ => h1.trans (List.take_prefix _ _)
    | some e, h1 => (h.during_prefix _ _ _ h1).trans (List.take_prefix _ _)
  exposing_prefix l d
    | none, ⟨h1, _⟩ => h1.trans (List.take_prefix _ _)
    | some e, .inl h1 => (h.during_prefix _ _ _ h1).trans (List.take_prefix _ _)
    | some e, .inr ⟨_, h1⟩ => h.exposing_prefix _ _ _ h1
  closing_prefix l f d
    | none, ⟨h1, _⟩ => h1.trans (List.take_prefix _ _)
    | some e, h1 => (h.closing_prefix _ _ _ _ h1).trans (List.take_prefix _ _)
  mono l l' d
    | none, ⟨h1, h2⟩, h3 => ⟨h1.trans (prefix_take h3 n), Nat.lt_of_lt_of_le h2 h3.length_le⟩
    | some e, h1, h3 => h.mono _ _ _ _ h1 (prefix_take h3 n)
  exposing_during l buf d
    | none, ⟨h1, h2⟩, hb => ⟨h1.trans (prefix_take (List.prefix_append l buf) n), by
        have := List.length_pos_iff.mpr hb
        rw [List.length_append]; omega⟩
    | some e, .inl h1, _ => h.mono _ _ _ _ h1 (prefix_take (List.prefix_append l buf) n)
    | some e, .inr ⟨h1, h2⟩, hb => by
        show X.during ((l ++ buf).take n) d e
        have := List.length_pos_iff.mpr hb
        rw [List.take_append, List.take_of_length_le (Nat.le_of_lt h1)]
        refine h.exposing_during _ _ _ _ h2 fun h0 => ?_
        have := congrArg List.length h0
        rw [List.length_take, List.length_nil] at this
        omega
  during_exposing l d
    | none, ⟨h1, h2⟩ => ⟨h1, Nat.le_of_lt h2⟩
    | some e, h1 => .inl h1
  during_closing l f d
    | none, h1 => h1
    | some e, h1 => h.during_closing _ _ _ _ h1

theorem BulkDefersLaw.mapFinal {B : Type} (f : B → F) {X : Faults I F E} (hX : X.Regular) {C : BulkConsumer σ I F E} {D : σ → List I → Option F → Prop}
    {R : σ → List I → List I → Prop} (h : BulkDefersLaw C D X R) :
    BulkDefersLaw (mapFinalBulkConsumer C) (fun s l fin => D s.inner l (fin.map f)) (X.mapFinal f)
      (fun s l slots => R s.inner l slots ∧ s.fn = some f) := by
  refine BulkDefersLaw.of_default (hX.mapFinal f) rfl ⟨⟨?_, ?_, ?_⟩, ?_⟩ ?_ ?_ ?_
  · rintro ⟨s, _⟩ l ⟨sl, hR, rfl⟩; exact h.base.observe _ _ ⟨sl, hR⟩
  · rintro ⟨s, _⟩ l x ⟨sl, hR, rfl⟩
    obtain ⟨s', ⟨h1, sl', h2⟩ | ⟨e, d, h1, h2, h3⟩⟩ := h.base.consume s l x ⟨sl, hR⟩
    · exact ⟨⟨s', some f⟩, .inl ⟨by simp [mapFinalBulkConsumer, mapFinalBufferedConsumer, mapFinalConsumer, h1], sl', h2, rfl⟩⟩
    · exact ⟨⟨s', some f⟩, .inr ⟨e, d, by simp [mapFinalBulkConsumer, mapFinalBufferedConsumer, mapFinalConsumer, h1], h2, h3⟩⟩
  · rintro ⟨s, _⟩ l fin ⟨sl, hR, rfl⟩
    obtain ⟨s', ⟨h1, h2⟩ | ⟨e, d, h1, h2, h3⟩⟩ := h.base.close s l (f fin) ⟨sl, hR⟩
    · exact ⟨⟨s', none⟩, .inl ⟨by simp [mapFinalBulkConsumer, mapFinalBufferedConsumer, mapFinalConsumer, h1], h2⟩⟩
    · exact ⟨⟨s', none⟩, .inr ⟨e, d, by simp [mapFinalBulkConsumer, mapFinalBufferedConsumer, mapFinalConsumer, h1], h2, h3⟩⟩
  · rintro ⟨s, _⟩ l ⟨sl, hR, rfl⟩
    obtain ⟨s', ⟨h1, ⟨sl', h2⟩, h3⟩ | ⟨e, d, h1, h2, h3⟩⟩ := h.base.flush s l ⟨sl, hR⟩
    · exact ⟨⟨s', some f⟩, .inl ⟨by simp [mapFinalBulkConsumer, mapFinalBufferedConsumer, h1], ⟨sl', h2, rfl⟩, h3⟩⟩
    · exact ⟨⟨s', some f⟩, .inr ⟨e, d, by simp [mapFinalBulkConsumer, mapFinalBufferedConsumer, h1], h2, h3⟩⟩
  · rintro ⟨s, _⟩ l sl ⟨hR, rfl⟩
    obtain ⟨s', ⟨sl', h1, h2, h3⟩ | ⟨e, d, h1, h2, h3⟩⟩ := h.expose s l sl hR
    · exact ⟨⟨s', some f⟩, .inl ⟨sl', h1, by simp [mapFinalBulkConsumer, h2], h3, rfl⟩⟩
    · exact ⟨⟨s', some f⟩, .inr ⟨e, d, by simp [mapFinalBulkConsumer, h1], h2, h3⟩⟩
  · rintro ⟨s, _⟩ l sl ws ⟨hR, rfl⟩ hw
    exact ⟨h.write s l sl ws hR hw, rfl⟩
  · rintro ⟨s, _⟩ l sl k ⟨hR, rfl⟩ hne hk
    obtain ⟨s', ⟨h1, h2⟩ | ⟨e, d, h1, h2, h3⟩⟩ := h.consumeSlots s l sl k hR hne hk
    · exact ⟨⟨s', some f⟩, .inl ⟨by simp [mapFinalBulkConsumer, h1], h2, rfl⟩⟩
    · exact ⟨⟨s', some f⟩, .inr ⟨e, d, by simp [mapFinalBulkConsumer, h1], h2, h3⟩⟩

theorem BulkDefersLaw.limit {X : Faults I F E} (hX : X.Regular) {C : BulkConsumer σ I F E} {D : σ → List I → Option F → Prop}
    {R : σ → List I → List I → Prop} (h : BulkDefersLaw C D X R) (N : Nat) :
    BulkDefersLaw (limitBulkConsumer C) (fun s => D s.inner) (X.limit N) (LimitSt.Collects N R) := by
  refine BulkDefersLaw.of_default (hX.limit N) rfl ⟨⟨?_, ?_, ?_⟩, ?_⟩ ?_ ?_ ?_
  · rintro ⟨s, m⟩ l ⟨slots, hN, islots, hR, _⟩
    exact h.base.observe _ _ ⟨_, hR⟩
  · rintro ⟨s, m⟩ l x ⟨slots, hN, islots, hR, _⟩
    simp only at hN hR
    cases m with
    | zero =>
      obtain ⟨d, h1, h2⟩ := h.base.observe _ _ ⟨_, hR⟩
      exact ⟨⟨s, 0⟩, .inr ⟨none, d, by simp [limitBulkConsumer, limitBufferedConsumer, limitConsumer],
        ⟨by rw [List.take_left' (by omega)]; exact h1, by simp; omega⟩, h2⟩⟩
    | succ m =>
      obtain ⟨s', ⟨h1, islots', h2⟩ | ⟨e, d, h1, h2, h3⟩⟩ := h.base.consume s l x ⟨_, hR⟩
      · exact ⟨⟨s', m⟩, .inl ⟨by simp [limitBulkConsumer, limitBufferedConsumer, limitConsumer, h1, Except.mapError], [],
          by simp; omega, islots', h2, by simp, by simp⟩⟩
      · exact ⟨⟨s', m⟩, .inr ⟨some e, d, by simp [limitBulkConsumer, limitBufferedConsumer, limitConsumer, h1, Except.mapError],
          Faults.limit_during h2 (by simp; omega), h3⟩⟩
  · rintro ⟨s, m⟩ l f ⟨slots, hN, islots, hR, _⟩
    obtain ⟨s', ⟨h1, h2⟩ | ⟨e, d, h1, h2, h3⟩⟩ := h.base.close s l f ⟨_, hR⟩
    · exact ⟨⟨s', m⟩, .inl ⟨by simp [limitBulkConsumer, limitBufferedConsumer, limitConsumer, h1, Except.mapError], h2⟩⟩
    · exact ⟨⟨s', m⟩, .inr ⟨some e, d, by simp [limitBulkConsumer, limitBufferedConsumer, limitConsumer, h1, Except.mapError],
        by simp only at hN; show X.closing (l.take N) f d e; rwa [List.take_of_length_le (by omega)], h3⟩⟩
  · rintro ⟨s, m⟩ l ⟨slots, hN, islots, hR, _⟩
    obtain ⟨s', ⟨h1, ⟨islots', h2⟩, h3⟩ | ⟨e, d, h1, h2, h3⟩⟩ := h.base.flush s l ⟨_, hR⟩
    · exact ⟨⟨s', m⟩, .inl ⟨by simp [limitBulkConsumer, limitBufferedConsumer, h1, Except.mapError], ⟨[], hN,
        islots', h2, by simp, by simp⟩, h3⟩⟩
    · exact ⟨⟨s', m⟩, .inr ⟨some e, d, by simp [limitBulkConsumer, limitBufferedConsumer, h1, Except.mapError],
        Faults.limit_during h2 (by simp only at hN; omega), h3⟩⟩
  · rintro ⟨s, m⟩ l slots ⟨hN, islots, hR, _⟩
    simp only at hN hR
    by_cases h0 : m = 0
    · obtain ⟨d, h1, h2⟩ := h.base.observe _ _ ⟨_, hR⟩
      exact ⟨⟨s, m⟩, .inr ⟨none, d, by simp [limitBulkConsumer, h0],
        ⟨by rw [List.take_of_length_le (by omega)]; exact h1, by omega⟩, h2⟩⟩
    · obtain ⟨s', ⟨sl, h1, h2, h3⟩ | ⟨e, d, h1, h2, h3⟩⟩ := h.expose s l islots hR
      · have hl : 0 < sl.length := List.length_pos_iff.mpr h1
        refine ⟨⟨s', m⟩, .inl ⟨sl.take (min m sl.length), ?_, ?_, hN, sl, h3, ?_, ?_⟩⟩
        · intro h0
          have := congrArg List.length h0
          simp only [List.length_take, List.length_nil] at this; omega
        · simp [limitBulkConsumer, h2, h0, slice_of_le (Nat.zero_le _) (Nat.min_le_right m sl.length)]
        · rw [List.length_take, Nat.min_eq_left (Nat.min_le_right _ _)]
        · simp; omega
      · exact ⟨⟨s', m⟩, .inr ⟨some e, d, by simp [limitBulkConsumer, h1, h0], .inr ⟨by omega, h2⟩, h3⟩⟩
  · rintro ⟨s, m⟩ l slots ws ⟨hN, islots, hR, h1, h2⟩ hw
    have hle : slots.length ≤ islots.length := by
      have := congrArg List.length h1
      simp at this; omega
    refine ⟨hN, _, h.write s l islots ws hR (by omega), ?_, ?_⟩
    · rw [List.length_append, List.take_length_add_append]
      congr 1
      conv => lhs; rw [h1]
      rw [List.length_drop, List.drop_take]
    · simp only [List.length_append, List.length_drop, limitBulkConsumer] at h2 ⊢; omega
  · rintro ⟨s, m⟩ l slots k ⟨hN, islots, hR, h1, h2⟩ hne hk
    simp only at hN hR h2
    have hle : slots.length ≤ islots.length := by
      have := congrArg List.length h1
      simp at this; omega
    have htk : slots.take k = islots.take k := by rw [h1, List.take_take, Nat.min_eq_left hk]
    have hne' : islots ≠ [] := by rintro rfl; simp at h1; exact hne h1
    obtain ⟨s', ⟨h3, h4⟩ | ⟨e, d, h3, h4, h5⟩⟩ := h.consumeSlots s l islots k hR hne' (by omega)
    · refine ⟨⟨s', m - k⟩, .inl ⟨?_, ?_, _, by rw [htk]; exact h4, ?_, ?_⟩⟩
      · simp [limitBulkConsumer, sub_of_le (show k ≤ m by omega), h3, Except.mapError]
      · simp; omega
      · rw [List.length_drop, ← List.drop_take, ← h1]
      · simp; omega
    · exact ⟨⟨s', m - k⟩, .inr ⟨some e, d,
        by simp [limitBulkConsumer, sub_of_le (show k ≤ m by omega), h3, Except.mapError], by rw [htk]; exact Faults.limit_during h4 (by simp; omega), h5⟩⟩

end

end Verif
