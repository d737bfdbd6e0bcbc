import Verif.ItemStacksSpec
import Verif.Lemmas.Maps

/-!
# Lemmas for stacks of adaptors that change items (C87)
-/

namespace Verif

open Outcome

section

variable {σ I F E : Type}

/-! ## Sequences -/

theorem Script.is_ofList (xs : List I) (r : Except E F) : (Script.ofList xs r).Is xs r := by
  refine ⟨fun i x hi => by simp [Script.ofList, hi], ?_⟩
  simp [Script.ofList]

theorem Script.Is.limit {c : Script I F E} {xs : List I} {r : Except E F} (h : c.Is xs r) (n : Nat) :
    (c.limit n).Is (xs.take n) (if xs.length < n then r.map some else .ok none) := by
  refine ⟨fun i x hi => ?_, ?_⟩
  · rw [List.getElem?_take] at hi
    split at hi
    · rename_i hn
      simp [Script.limit, hn, h.1 i x hi]
    · cases hi
  · rw [List.length_take]
    by_cases hn : xs.length < n
    · rw [if_pos hn, Nat.min_eq_right (by omega)]
      simp only [Script.limit, hn, if_true]
      rw [h.2]
      cases r <;> rfl
    · rw [if_neg hn, Nat.min_eq_left (by omega)]
      simp only [Script.limit, Nat.lt_irrefl, if_false]
      rfl

theorem Script.Is.mapFinal {B : Type} {c : Script I F E} {xs : List I} {r : Except E F} (h : c.Is xs r) (f : F → B) :
    (c.mapFinal f).Is xs (r.map f) := by
  refine ⟨fun i x hi => by simp [Script.mapFinal, h.1 i x hi], ?_⟩
  simp only [Script.mapFinal]
  rw [h.2]
  cases r <;> rfl

theorem Script.Is.mapItem {φ B : Type} (f : φ → I → φ × B) {xs : List I} {r : Except E F} :
    ∀ {c : Script I F E} (a : φ), c.Is xs r → (c.mapItem f a).Is (results f a xs) r := by
  induction xs with
  | nil =>
    intro c a h
    refine ⟨fun i x hi => by simp [results] at hi, ?_⟩
    have h2 := h.2
    simp only [results, List.length_nil, Script.mapItem] at h2 ⊢
    rw [h2]
    cases r <;> rfl
  | cons x xs ih =>
    intro c a h
    have h0 : c 0 = .ok (.inl x) := h.1 0 x rfl
    have hd : (c.drop 1).Is xs r := by
      refine ⟨fun i y hi => ?_, ?_⟩
      · have := h.1 (i + 1) y hi
        rw [Nat.add_comm] at this
        exact this
      · have := h.2
        rw [List.length_cons, Nat.add_comm] at this
        exact this
    obtain ⟨h1, h2⟩ := ih (f a x).1 hd
    refine ⟨fun i y hi => ?_, ?_⟩
    · cases i with
      | zero => simp only [results, List.getElem?_cons_zero, Option.some.injEq] at hi; simp [Script.mapItem, h0, hi]
      | succ i =>
        simp only [Script.mapItem, h0]
        exact h1 i y (by simpa [results] using hi)
    · simp only [results, List.length_cons, Script.mapItem, h0]
      exact h2

/-! ## Consumers -/

theorem BufCollects.after {C : BufferedConsumer σ I F E} {D : σ → List I → Option F → Prop} {q : Policy I F E} {s : σ} {l₀ : List I}
    (h : BufCollects C D q s l₀) : BufCollects C (fun t l => D t (l₀ ++ l)) (q.after l₀) s [] := by
  obtain ⟨R, hR, hs⟩ := h
  refine ⟨fun s l => R s (l₀ ++ l), ⟨⟨?_, ?_, ?_, ?_, ?_⟩, ?_⟩, by simpa using hs⟩
  · exact fun s l h => hR.observe s _ h
  · intro s l x h hq
    obtain ⟨s', h1, h2⟩ := hR.consume_ok s _ x h hq
    exact ⟨s', h1, by rw [← List.append_assoc]; exact h2⟩
  · exact fun s l x e h hq => hR.consume_err s _ x e h hq
  · exact fun s l f h hq => hR.close_ok s _ f h hq
  · exact fun s l f e h hq => hR.close_err s _ f e h hq
  · exact fun s l h => hR.flush s _ h

theorem BufCollects.limit {C : BufferedConsumer σ I F E} {D : σ → List I → Option F → Prop} {q : Policy I F E} {s : σ}
    (h : BufCollects C D q s []) (n : Nat) :
    BufCollects (limitBufferedConsumer C) (fun t => D t.inner) (q.limit n) ⟨s, n⟩ [] := by
  obtain ⟨R, hR, hs⟩ := h
  refine ⟨fun s l => R s.inner l ∧ s.remaining + l.length = n, ⟨⟨?_, ?_, ?_, ?_, ?_⟩, ?_⟩, hs, by simp⟩
  · exact fun s l h => hR.observe _ _ h.1
  · rintro ⟨s, k⟩ l x ⟨h, hk⟩ hq
    simp only [Policy.answer, Policy.limit, Option.or_eq_none_iff] at hq
    obtain ⟨hq1, hq2⟩ := hq
    simp only at hk
    split at hq1
    · cases hq1
    · obtain ⟨k, rfl⟩ : ∃ m, k = m + 1 := ⟨k - 1, by omega⟩
      obtain ⟨s', h1, h2⟩ := hR.consume_ok s l x h (by
        simp only [Option.map_eq_none_iff] at hq1 hq2
        simp [Policy.answer, hq1, hq2])
      exact ⟨⟨s', k⟩, by simp [limitBufferedConsumer, limitConsumer, h1, Except.mapError], h2, by simp; omega⟩
  · rintro ⟨s, k⟩ l x e ⟨h, hk⟩ hq
    simp only at hk
    simp only [Policy.answer, Policy.limit] at hq
    split at hq
    · obtain rfl : k = 0 := by omega
      cases hq
      exact ⟨⟨s, 0⟩, rfl, hR.observe _ _ h⟩
    · obtain ⟨k, rfl⟩ : ∃ m, k = m + 1 := ⟨k - 1, by omega⟩
      obtain ⟨e', he, hq'⟩ : ∃ e', e = some e' ∧ q.answer l x = some e' := by
        simp only [Policy.answer]
        rcases hr : q.refuse l with _ | a <;> rw [hr] at hq
        · rcases hj : q.reject l x with _ | a <;> rw [hj] at hq <;> cases hq
          exact ⟨a, rfl, rfl⟩
        · cases hq; exact ⟨a, rfl, rfl⟩
      subst he
      obtain ⟨s', h1, h2⟩ := hR.consume_err s l x e' h hq'
      exact ⟨⟨s', k⟩, by simp [limitBufferedConsumer, limitConsumer, h1, Except.mapError], h2⟩
  · rintro ⟨s, k⟩ l f ⟨h, hk⟩ hq
    obtain ⟨s', h1, h2⟩ := hR.close_ok s l f h (by simpa [Policy.limit] using hq)
    exact ⟨⟨s', k⟩, by simp [limitBufferedConsumer, limitConsumer, h1, Except.mapError], h2⟩
  · rintro ⟨s, k⟩ l f e ⟨h, hk⟩ hq
    simp only [Policy.limit, Option.map_eq_some_iff] at hq
    obtain ⟨e, hq, rfl⟩ := hq
    obtain ⟨s', h1, h2⟩ := hR.close_err s l f e h hq
    exact ⟨⟨s', k⟩, by simp [limitBufferedConsumer, limitConsumer, h1, Except.mapError], h2⟩
  · rintro ⟨s, k⟩ l ⟨h, hk⟩
    obtain ⟨s', ⟨h1, h2⟩ | ⟨e, h1, h2, h3⟩⟩ := hR.flush s l h
    · exact ⟨⟨s', k⟩, .inl ⟨by simp [limitBufferedConsumer, h1, Except.mapError], h2, hk⟩⟩
    · exact ⟨⟨s', k⟩, .inr ⟨some e, by simp [Policy.limit, h1], by simp [limitBufferedConsumer, h2, Except.mapError], h3⟩⟩

theorem BufCollects.mapFinal {B : Type} (f : B → F) {C : BufferedConsumer σ I F E} {D : σ → List I → Option F → Prop}
    {q : Policy I F E} {s : σ} (h : BufCollects C D q s []) :
    BufCollects (mapFinalBufferedConsumer C) (fun t l fin => D t.inner l (fin.map f)) (q.mapFinal f) ⟨s, some f⟩ [] := by
  obtain ⟨R, hR, hs⟩ := h
  refine ⟨fun s l => R s.inner l ∧ s.fn = some f, ⟨⟨?_, ?_, ?_, ?_, ?_⟩, ?_⟩, hs, rfl⟩
  · exact fun s l h => hR.observe _ _ h.1
  · rintro ⟨s, _⟩ l x ⟨h, rfl⟩ hq
    obtain ⟨s', h1, h2⟩ := hR.consume_ok s l x h hq
    exact ⟨⟨s', some f⟩, by simp [mapFinalBufferedConsumer, mapFinalConsumer, h1], h2, rfl⟩
  · rintro ⟨s, _⟩ l x e ⟨h, rfl⟩ hq
    obtain ⟨s', h1, h2⟩ := hR.consume_err s l x e h hq
    exact ⟨⟨s', some f⟩, by simp [mapFinalBufferedConsumer, mapFinalConsumer, h1], h2⟩
  · rintro ⟨s, _⟩ l x ⟨h, rfl⟩ hq
    obtain ⟨s', h1, h2⟩ := hR.close_ok s l (f x) h hq
    exact ⟨⟨s', none⟩, by simp [mapFinalBufferedConsumer, mapFinalConsumer, h1], h2⟩
  · rintro ⟨s, _⟩ l x e ⟨h, rfl⟩ hq
    obtain ⟨s', h1, h2⟩ := hR.close_err s l (f x) e h hq
    exact ⟨⟨s', none⟩, by simp [mapFinalBufferedConsumer, mapFinalConsumer, h1], h2⟩
  · rintro ⟨s, _⟩ l ⟨h, rfl⟩
    obtain ⟨s', ⟨h1, h2⟩ | ⟨e, h1, h2, h3⟩⟩ := hR.flush s l h
    · exact ⟨⟨s', some f⟩, .inl ⟨by simp [mapFinalBufferedConsumer, h1], h2, rfl⟩⟩
    · exact ⟨⟨s', some f⟩, .inr ⟨e, h1, by simp [mapFinalBufferedConsumer, h2], h3⟩⟩

theorem BufCollects.invariant {C : BufferedConsumer σ I F E} {D : σ → List I → Option F → Prop} {q : Policy I F E} {s : σ}
    (h : BufCollects C D q s []) : BufCollects (invariantBufferedConsumer C) (fun t => D t.inner) q (.new s) [] := by
  obtain ⟨R, hR, hs⟩ := h
  refine ⟨fun s l => R s.inner l ∧ s.active = true, ⟨⟨?_, ?_, ?_, ?_, ?_⟩, ?_⟩, hs, rfl⟩
  · exact fun s l h => hR.observe _ _ h.1
  · rintro ⟨s, _, k⟩ l x ⟨h, rfl⟩ hq
    obtain ⟨s', h1, h2⟩ := hR.consume_ok s l x h hq
    exact ⟨⟨s', true, k⟩, by simp [invariantBufferedConsumer, invariantConsumer, InvariantSt.checkInactive, h1], h2, rfl⟩
  · rintro ⟨s, _, k⟩ l x e ⟨h, rfl⟩ hq
    obtain ⟨s', h1, h2⟩ := hR.consume_err s l x e h hq
    exact ⟨⟨s', false, k⟩, by simp [invariantBufferedConsumer, invariantConsumer, InvariantSt.checkInactive, h1], h2⟩
  · rintro ⟨s, _, k⟩ l x ⟨h, rfl⟩ hq
    obtain ⟨s', h1, h2⟩ := hR.close_ok s l x h hq
    exact ⟨⟨s', false, k⟩, by simp [invariantBufferedConsumer, invariantConsumer, InvariantSt.checkInactive, h1], h2⟩
  · rintro ⟨s, _, k⟩ l x e ⟨h, rfl⟩ hq
    obtain ⟨s', h1, h2⟩ := hR.close_err s l x e h hq
    exact ⟨⟨s', false, k⟩, by simp [invariantBufferedConsumer, invariantConsumer, InvariantSt.checkInactive, h1], h2⟩
  · rintro ⟨s, _, k⟩ l ⟨h, rfl⟩
    obtain ⟨s', ⟨h1, h2⟩ | ⟨e, h1, h2, h3⟩⟩ := hR.flush s l h
    · exact ⟨⟨s', true, k⟩, .inl ⟨by simp [invariantBufferedConsumer, InvariantSt.checkInactive, h1], h2, rfl⟩⟩
    · exact ⟨⟨s', false, k⟩, .inr ⟨e, h1, by simp [invariantBufferedConsumer, InvariantSt.checkInactive, h2], h3⟩⟩

end

end Verif
