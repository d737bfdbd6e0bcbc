import Verif.Model.Arbitrary

/-!
# Size hints of `Arbitrary` implementations
-/

namespace Verif

theorem Except.bind_eq_ok_iff {ε α β : Type} (x : Except ε α) (f : α → Except ε β) (b : β) :
    (x >>= f) = .ok b ↔ ∃ a, x = .ok a ∧ f a = .ok b := by
  cases x <;> simp [Bind.bind, Except.bind]

namespace Arbitrary

/-- What a size hint promises: as long as the bytes suffice, creating a value takes at least the lower bound and at most the
upper bound of bytes. -/
def HintSound {T : Type} (a : Arbitrary T) : Prop :=
  ∀ depth u v u', a.arbitrary u = .ok (v, u') →
    u'.bytes.length ≤ u.bytes.length ∧
    (u'.starved = false → u.starved = false ∧ u'.bytes.length + (a.sizeHint depth).1 ≤ u.bytes.length) ∧
    (∀ hi, (a.sizeHint depth).2 = some hi → u.bytes.length ≤ u'.bytes.length + hi)

end Arbitrary

namespace Arbitrary

/-- `u'` is left of `u` after something with this size hint was created. -/
def Used (hint : Nat × Option Nat) (u u' : Unstructured) : Prop :=
  u'.bytes.length ≤ u.bytes.length ∧ (u'.starved = false → u.starved = false ∧ u'.bytes.length + hint.1 ≤ u.bytes.length) ∧
  (∀ hi, hint.2 = some hi → u.bytes.length ≤ u'.bytes.length + hi)

theorem Used.refl (u : Unstructured) : Used (0, some 0) u u := ⟨Nat.le_refl _, fun h => ⟨h, Nat.le_refl _⟩, fun hi _ => by omega⟩

theorem Used.and {h₁ h₂ : Nat × Option Nat} {u u₁ u₂ : Unstructured} (a : Used h₁ u u₁) (b : Used h₂ u₁ u₂) :
    Used (sizeHintAnd h₁ h₂) u u₂ := by
  obtain ⟨a1, a2, a3⟩ := a
  obtain ⟨b1, b2, b3⟩ := b
  refine ⟨by omega, ?_, ?_⟩
  · intro hs
    obtain ⟨b4, b5⟩ := b2 hs
    obtain ⟨a4, a5⟩ := a2 b4
    refine ⟨a4, ?_⟩
    simp only [sizeHintAnd]
    omega
  · intro hi
    simp only [sizeHintAnd]
    rcases ha' : h₁.2 with _ | x <;> rcases hb' : h₂.2 with _ | y <;> simp
    rintro rfl
    have := a3 x ha'
    have := b3 y hb'
    omega

/-- A less precise hint. -/
theorem Used.weaken {h h' : Nat × Option Nat} {u u' : Unstructured} (a : Used h u u') (hlo : h'.1 ≤ h.1)
    (hhi : ∀ hi, h'.2 = some hi → ∃ x, h.2 = some x ∧ x ≤ hi) : Used h' u u' := by
  obtain ⟨a1, a2, a3⟩ := a
  refine ⟨a1, fun hs => ⟨(a2 hs).1, ?_⟩, ?_⟩
  · have := (a2 hs).2
    omega
  · intro hi hh
    obtain ⟨x, hx, hle⟩ := hhi hi hh
    have := a3 x hx
    omega

theorem hintSound_unsigned (n : Nat) : (unsigned n).HintSound := by
  rintro d u v u' h
  simp only [unsigned, Unstructured.fill, Except.ok.injEq, Prod.mk.injEq] at h
  obtain ⟨_, rfl⟩ := h
  simp only [unsigned, List.length_drop, Bool.or_eq_false_iff, decide_eq_false_iff_not, Option.some.injEq]
  refine ⟨by omega, fun hs => ⟨hs.1, by have := hs.2; omega⟩, ?_⟩
  rintro _ rfl
  omega

theorem hintSound_bool : bool.HintSound := by
  intro d u v u' h
  simp only [bool, Except.bind_eq_ok_iff, Prod.exists, pure, Except.pure, Except.ok.injEq, Prod.mk.injEq] at h
  obtain ⟨n, _, h1, _, rfl⟩ := h
  exact hintSound_unsigned 1 d _ _ _ h1

theorem hintSound_nonZeroUsize : nonZeroUsize.HintSound := by
  intro d u v u' h
  simp only [nonZeroUsize, Except.bind_eq_ok_iff, Prod.exists] at h
  obtain ⟨n, _, h1, h2⟩ := h
  split at h2
  · simp only [Except.ok.injEq, Prod.mk.injEq] at h2
    obtain ⟨_, rfl⟩ := h2
    exact hintSound_unsigned 8 d _ _ _ h1
  · simp at h2

theorem hintSound_result {A B : Type} {a : Arbitrary A} {b : Arbitrary B} (ha : a.HintSound) (hb : b.HintSound) :
    (result a b).HintSound := by
  intro d u v u' h
  simp only [result, Except.bind_eq_ok_iff, Prod.exists] at h
  obtain ⟨m, u₁, h1, h2⟩ := h
  have h3 := hintSound_bool d _ _ _ h1
  refine Used.and h3 ?_
  split at h2
  · simp only [Except.bind_eq_ok_iff, Prod.exists, pure, Except.pure, Except.ok.injEq, Prod.mk.injEq] at h2
    obtain ⟨x, _, h4, _, rfl⟩ := h2
    refine Used.weaken (ha d _ _ _ h4) (Nat.min_le_left ..) ?_
    intro hi
    rcases (a.sizeHint d).2 with _ | x <;> rcases (b.sizeHint d).2 with _ | y <;> simp
    omega
  · simp only [Except.bind_eq_ok_iff, Prod.exists, pure, Except.pure, Except.ok.injEq, Prod.mk.injEq] at h2
    obtain ⟨x, _, h4, _, rfl⟩ := h2
    refine Used.weaken (hb d _ _ _ h4) (Nat.min_le_right ..) ?_
    intro hi
    rcases (a.sizeHint d).2 with _ | x <;> rcases (b.sizeHint d).2 with _ | y <;> simp
    omega

theorem hintSound_boxedSlice {A : Type} {a : Arbitrary A} (ha : a.HintSound) : (boxedSlice a).HintSound := by
  intro d u v u' h
  simp only [boxedSlice] at h
  show Used (0, none) u u'
  generalize u.bytes.length + 1 = n at h
  induction n generalizing u v with
  | zero =>
    simp only [boxedSliceAux, Except.ok.injEq, Prod.mk.injEq] at h
    obtain ⟨_, rfl⟩ := h
    exact (Used.refl u).weaken (Nat.le_refl _) (by simp)
  | succ n ih =>
    simp only [boxedSliceAux, Except.bind_eq_ok_iff, Prod.exists] at h
    obtain ⟨m, u₁, h1, h2⟩ := h
    have h3 := hintSound_bool d _ _ _ h1
    split at h2
    · simp only [Except.bind_eq_ok_iff, Prod.exists, pure, Except.pure, Except.ok.injEq, Prod.mk.injEq] at h2
      obtain ⟨x, u₂, h4, xs, _, h5, _, rfl⟩ := h2
      exact (Used.and h3 (Used.and (ha d _ _ _ h4) (ih _ _ h5))).weaken (Nat.zero_le _) (by simp)
    · simp only [pure, Except.pure, Except.ok.injEq, Prod.mk.injEq] at h2
      obtain ⟨_, rfl⟩ := h2
      exact Used.weaken h3 (Nat.zero_le _) (by simp)

end Arbitrary

end Verif
