import Verif.NetworkSpec
import Verif.Lemmas.ItemStacks
import Verif.Lemmas.MergeTree

/-!
# Lemmas for C89
-/

namespace Verif

variable {I J F E : Type}

/-- A beginning of a finite sequence is a prefix. -/
theorem Script.Is.prefix {c : Script I F E} {xs ys : List I} {r : Except E F} (h : c.Is xs r) (hy : c.StartsWith ys) : ys <+: xs := by
  have hlen : ys.length ≤ xs.length := by
    refine Nat.le_of_not_lt fun hlt => ?_
    have h1 := hy xs.length _ (List.getElem?_eq_getElem hlt)
    rw [h.2] at h1
    cases r <;> cases h1
  refine List.prefix_iff_getElem?.mpr fun i hi => ?_
  rw [List.getElem?_eq_getElem (by omega)]
  have h1 := hy i _ (List.getElem?_eq_getElem hi)
  have h2 := h.1 i _ (List.getElem?_eq_getElem (show i < xs.length by omega))
  rw [h1] at h2
  injection h2 with h2
  injection h2 with h2
  rw [h2]

/-- Where no item comes next, all items have come. -/
theorem Script.Is.exhausted {c : Script I F E} {xs ys : List I} {r r' : Except E F} (h : c.Is xs r) (hy : c.Is ys r') :
    ys = xs ∧ r' = r := by
  have h1 := h.prefix hy.1
  have h2 := hy.prefix h.1
  obtain rfl := h1.eq_of_length_le h2.length_le
  refine ⟨rfl, ?_⟩
  have h3 := hy.2
  rw [h.2] at h3
  cases r <;> cases r' <;> cases h3 <;> rfl

/-- What becomes of a merge of finite sequences. -/
theorem Merged.of_trace {c₁ c₂ c : Script I F E} {xs₁ xs₂ : List I} {r₁ r₂ : Except E F} (h₁ : c₁.Is xs₁ r₁) (h₂ : c₂.Is xs₂ r₂)
    (h : ∀ n, (∀ i, i < n → ∃ x, c i = .ok (.inl x)) → ∃ events, MergeTrace c₁ c₂ events ((List.range (n + 1)).map c)) :
    ∃ zs r, c.Is zs r ∧ Merged xs₁ r₁ xs₂ r₂ zs r := by
  have hlen : ∀ zs, c.StartsWith zs → zs.length ≤ xs₁.length + xs₂.length := by
    intro zs hz
    obtain ⟨l₁, l₂, h3, h4, h5, _⟩ := MergeTrace.parts h hz
    have h6 := (Shuffle.interleave h5 (.self l₁) (.self l₂)).perm.length_eq
    have h7 := (h₁.prefix h3).length_le
    have h8 := (h₂.prefix h4).length_le
    simp at h6
    omega
  obtain ⟨zs, hz, hne⟩ : ∃ zs, c.StartsWith zs ∧ ∀ x, c zs.length ≠ .ok (.inl x) := by
    refine Classical.byContradiction fun hno => ?_
    have key : ∀ n, ∃ zs : List I, zs.length = n ∧ c.StartsWith zs := by
      intro n
      induction n with
      | zero => exact ⟨[], rfl, by simp⟩
      | succ n ih =>
        obtain ⟨zs, rfl, hz⟩ := ih
        have : ∃ x, c zs.length = .ok (.inl x) := Classical.byContradiction fun h' => hno ⟨zs, hz, fun x hx => h' ⟨x, hx⟩⟩
        obtain ⟨x, hx⟩ := this
        refine ⟨zs ++ [x], by simp, fun i y hi => ?_⟩
        rw [List.getElem?_append] at hi
        split at hi
        · exact hz i y hi
        · rename_i hn
          have hi' : i - zs.length = 0 := by
            have := (List.getElem?_eq_some_iff.mp hi).1
            simp at this
            omega
          rw [hi'] at hi
          cases hi
          have : i = zs.length := by omega
          rw [this, hx]
    obtain ⟨zs, h1, h2⟩ := key (xs₁.length + xs₂.length + 1)
    have := hlen zs h2
    omega
  obtain ⟨l₁, l₂, h3, h4, h5, hf, he⟩ := MergeTrace.parts h hz
  rcases hc : c zs.length with e | x | f
  · refine ⟨zs, .error e, ⟨hz, hc⟩, ?_⟩
    rcases he e hc with h6 | h6
    · obtain ⟨rfl, rfl⟩ := h₁.exhausted (r' := .error e) ⟨h3, h6⟩
      exact .first rfl (h₂.prefix h4) h5
    · obtain ⟨rfl, rfl⟩ := h₂.exhausted (r' := .error e) ⟨h4, h6⟩
      exact .second rfl (h₁.prefix h3) h5
  · exact absurd hc (hne x)
  · refine ⟨zs, .ok f, ⟨hz, hc⟩, ?_⟩
    obtain ⟨f₁, f₂, h6, h7, h8⟩ := hf f hc
    obtain ⟨rfl, rfl⟩ := h₁.exhausted (r' := .ok f₁) ⟨h3, h6⟩
    obtain ⟨rfl, rfl⟩ := h₂.exhausted (r' := .ok f₂) ⟨h4, h7⟩
    exact .final rfl rfl h8 h5

/-- What is filtered out of an interleaving. -/
theorem Interleaving.filterMap (g : I → Option J) {xs ys zs : List I} (h : Interleaving xs ys zs) :
    Interleaving (xs.filterMap g) (ys.filterMap g) (zs.filterMap g) := by
  induction h with
  | nil => exact .nil
  | @left x _ _ _ _ ih =>
    rcases hx : g x with _ | y
    · simpa [hx] using ih
    · simpa [hx] using Interleaving.left ih
  | @right x _ _ _ _ ih =>
    rcases hx : g x with _ | y
    · simpa [hx] using ih
    · simpa [hx] using Interleaving.right ih

theorem Interleaving.right_nil {xs zs : List I} (h : Interleaving xs [] zs) : zs = xs := by
  generalize hy : ([] : List I) = ys at h
  induction h with
  | nil => rfl
  | left _ ih => rw [ih hy]
  | right => cases hy

theorem Interleaving.left_nil {ys zs : List I} (h : Interleaving [] ys zs) : zs = ys := by
  generalize hx : ([] : List I) = xs at h
  induction h with
  | nil => rfl
  | left => cases hx
  | right _ ih => rw [ih hx]

end Verif
