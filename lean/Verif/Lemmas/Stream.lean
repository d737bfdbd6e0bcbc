import Verif.StreamSpec
import Verif.Lemmas.Network

/-!
# Lemmas for C95
-/

namespace Verif

variable {I J F G E : Type}

/-! ## Where the answers of adaptors come from -/

theorem Script.StartsWith.of_limit {c : Script I F E} {n : Nat} {ys : List I} (h : (c.limit n).StartsWith ys) :
    c.StartsWith ys ∧ ys.length ≤ n := by
  have key : ∀ i x, ys[i]? = some x → i < n ∧ c i = .ok (.inl x) := by
    intro i x hi
    have h1 := h i x hi
    simp only [Script.limit] at h1
    split at h1
    · refine ⟨by assumption, ?_⟩
      split at h1 <;> cases h1
      assumption
    · cases h1
  refine ⟨fun i x hi => (key i x hi).2, Nat.le_of_not_lt fun hlt => ?_⟩
  exact Nat.lt_irrefl _ (key n _ (List.getElem?_eq_getElem hlt)).1

theorem Script.StartsWith.of_mapFinal {c : Script I F E} {f : F → G} {ys : List I} (h : (c.mapFinal f).StartsWith ys) :
    c.StartsWith ys := by
  intro i x hi
  have h1 := h i x hi
  simp only [Script.mapFinal] at h1
  split at h1 <;> cases h1
  assumption

theorem Script.StartsWith.of_mapItem {φ : Type} {f : φ → I → φ × J} : ∀ {ys : List J} {c : Script I F E} {a : φ},
    (c.mapItem f a).StartsWith ys → ∃ xs, c.StartsWith xs ∧ ys = results f a xs := by
  intro ys
  induction ys with
  | nil => intro c a _; exact ⟨[], by simp, rfl⟩
  | cons y ys ih =>
    intro c a h
    have h0 := h 0 y rfl
    simp only [Script.mapItem] at h0
    split at h0 <;> cases h0
    rename_i x hx
    have ht : ((c.drop 1).mapItem f (f a x).1).StartsWith ys := by
      intro i z hi
      have h1 := h (i + 1) z hi
      simpa only [Script.mapItem, hx] using h1
    obtain ⟨xs, h1, rfl⟩ := ih ht
    refine ⟨x :: xs, ?_, rfl⟩
    intro i z hi
    cases i with
    | zero => cases hi; exact hx
    | succ i =>
      have h2 := h1 i z hi
      rw [Nat.add_comm]
      exact h2

theorem Script.mapItem_length {φ : Type} {f : φ → I → φ × J} : ∀ {xs : List I} {c : Script I F E} {a : φ} {r : Except E F},
    c.StartsWith xs → (c.mapItem f a) (results f a xs).length = r.map .inr → c xs.length = r.map .inr := by
  intro xs
  induction xs with
  | nil =>
    intro c a r _ h
    simp only [results, List.length_nil, Script.mapItem] at h
    split at h
    · cases r <;> cases h
    · cases r <;> cases h; assumption
    · cases r <;> cases h; assumption
  | cons x xs ih =>
    intro c a r hs h
    have h0 : c 0 = .ok (.inl x) := hs 0 x rfl
    simp only [results, List.length_cons, Script.mapItem, h0] at h
    have h1 : (c.drop 1).StartsWith xs := by
      intro i y hi
      have := hs (i + 1) y hi
      rw [Nat.add_comm] at this
      exact this
    have h2 := ih h1 h
    rw [List.length_cons, Nat.add_comm]
    exact h2

theorem SourceLayers.startsWith_script {c : Script I F E} (L : SourceLayers I F J G) {ys : List J} (h : (L.script c).StartsWith ys) :
    ∃ xs, c.StartsWith xs ∧ ys = L.items xs := by
  induction L with
  | nil => exact ⟨ys, h, rfl⟩
  | limit L n ih =>
    obtain ⟨h1, h2⟩ := Script.StartsWith.of_limit h
    obtain ⟨xs, h3, rfl⟩ := ih h1
    exact ⟨xs, h3, (List.take_of_length_le h2).symm⟩
  | mapItem L f a ih =>
    obtain ⟨zs, h1, rfl⟩ := Script.StartsWith.of_mapItem h
    obtain ⟨xs, h3, rfl⟩ := ih h1
    exact ⟨xs, h3, rfl⟩
  | mapFinal L f ih => exact ih (Script.StartsWith.of_mapFinal h)
  | invariant L ih => exact ih h

theorem SourceLayers.is_script {c : Script I F E} (L : SourceLayers I F J G) {ys : List J} {r' : Except E G} (h : (L.script c).Is ys r') :
    (∃ xs r, c.Is xs r ∧ ys = L.items xs ∧ r' = L.last xs r) ∨ ∃ xs, c.StartsWith xs ∧ ys = L.items xs ∧ L.cut xs = some r' := by
  induction L with
  | nil => exact .inl ⟨ys, r', h, rfl, rfl⟩
  | limit L n ih =>
    obtain ⟨h1, h2⟩ := Script.StartsWith.of_limit h.1
    by_cases hn : ys.length < n
    · obtain ⟨r, h3, rfl⟩ : ∃ r, (L.script c).Is ys r ∧ r' = r.map some := by
        have h4 := h.2
        simp only [SourceLayers.script, Script.limit, hn, if_true] at h4
        split at h4
        · cases r' <;> cases h4
        · rename_i f hf
          cases r' <;> cases h4
          exact ⟨.ok f, ⟨h1, hf⟩, rfl⟩
        · rename_i e he
          cases r' <;> cases h4
          exact ⟨.error e, ⟨h1, he⟩, rfl⟩
      rcases ih h3 with ⟨xs, r, h4, rfl, rfl⟩ | ⟨xs, h4, rfl, h5⟩
      · exact .inl ⟨xs, r, h4, (List.take_of_length_le h2).symm, by simp [SourceLayers.last, hn]⟩
      · exact .inr ⟨xs, h4, (List.take_of_length_le h2).symm, by simp [SourceLayers.cut, hn, h5]⟩
    · have h4 := h.2
      simp only [SourceLayers.script, Script.limit, hn, if_false] at h4
      cases r' <;> cases h4
      obtain ⟨xs, h5, rfl⟩ := L.startsWith_script h1
      exact .inr ⟨xs, h5, (List.take_of_length_le h2).symm, by simp [SourceLayers.cut, hn]⟩
  | mapItem L f a ih =>
    obtain ⟨zs, h1, rfl⟩ := Script.StartsWith.of_mapItem h.1
    rcases ih ⟨h1, Script.mapItem_length h1 h.2⟩ with ⟨xs, r, h4, rfl, rfl⟩ | ⟨xs, h4, rfl, h5⟩
    · exact .inl ⟨xs, r, h4, rfl, rfl⟩
    · exact .inr ⟨xs, h4, rfl, h5⟩
  | mapFinal L f ih =>
    have h1 := Script.StartsWith.of_mapFinal h.1
    obtain ⟨r, h3, rfl⟩ : ∃ r, (L.script c).Is ys r ∧ r' = r.map f := by
      have h4 := h.2
      simp only [SourceLayers.script, Script.mapFinal] at h4
      split at h4
      · cases r' <;> cases h4
      · rename_i g hg
        cases r' <;> cases h4
        exact ⟨.ok g, ⟨h1, hg⟩, rfl⟩
      · rename_i e he
        cases r' <;> cases h4
        exact ⟨.error e, ⟨h1, he⟩, rfl⟩
    rcases ih h3 with ⟨xs, r, h4, rfl, rfl⟩ | ⟨xs, h4, rfl, h5⟩
    · exact .inl ⟨xs, r, h4, rfl, rfl⟩
    · exact .inr ⟨xs, h4, rfl, by simp [SourceLayers.cut, h5]⟩
  | invariant L ih => exact ih h

end Verif
