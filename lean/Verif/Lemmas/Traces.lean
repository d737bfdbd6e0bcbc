import Verif.Lemmas.Spec

/-!
# Helper lemmas about traces
-/

namespace Verif

open Outcome

section

variable {σ I F E : Type}

theorem Emits.append {P : Producer σ I F E} {s s₁ s₂ : σ} {xs ys : List I} (h : Emits P s xs s₁)
    (h' : Emits P s₁ ys s₂) : Emits P s (xs ++ ys) s₂ := by
  induction h with
  | nil => exact h'
  | cons hp _ ih => exact .cons hp (ih h')

theorem Consumes.append {C : Consumer σ I F E} {s s₁ s₂ : σ} {xs ys : List I} (h : Consumes C s xs s₁)
    (h' : Consumes C s₁ ys s₂) : Consumes C s (xs ++ ys) s₂ := by
  induction h with
  | nil => exact h'
  | cons hp _ ih => exact .cons hp (ih h')

/-- A lawful producer emits the beginning of its sequence. -/
theorem Plays.emits {P : Producer σ I F E} {s : σ} {c : Script I F E} (h : Plays P s c) {xs : List I}
    (hxs : c.StartsWith xs) : ∃ s', Emits P s xs s' ∧ Plays P s' (c.drop xs.length) := by
  induction xs generalizing s c with
  | nil => exact ⟨s, .nil s, by simpa using h⟩
  | cons x xs ih =>
    rw [Script.startsWith_cons] at hxs
    obtain ⟨s1, h1, h2⟩ := h.step
    obtain ⟨s2, h3, h4⟩ := ih (h2 x hxs.1) hxs.2
    refine ⟨s2, .cons (by rw [h1, hxs.1]) h3, ?_⟩
    simpa [Nat.add_comm] using h4

/-- Whatever a lawful producer emits is the beginning of its sequence. -/
theorem Emits.startsWith {P : Producer σ I F E} {s s' : σ} {xs : List I} (h : Emits P s xs s')
    {c : Script I F E} (hc : Plays P s c) : c.StartsWith xs ∧ Plays P s' (c.drop xs.length) := by
  induction h generalizing c with
  | nil => exact ⟨by simp, by simpa using hc⟩
  | cons hp _ ih =>
    obtain ⟨s2, h1, h2⟩ := hc.step
    rw [hp] at h1
    injection h1 with h1
    injection h1 with h3 h4
    subst h3
    obtain ⟨h5, h6⟩ := ih (h2 _ h4.symm)
    refine ⟨Script.startsWith_cons.mpr ⟨h4.symm, h5⟩, ?_⟩
    simpa [Nat.add_comm] using h6

/-- A consumer whose policy accepts `xs` consumes `xs`. -/
theorem Collects.consumes {C : Consumer σ I F E} {D q s l} (h : Collects C D q s l) {xs : List I}
    (hxs : q.Accepts l xs) : ∃ s', Consumes C s xs s' ∧ Collects C D q s' (l ++ xs) := by
  induction xs generalizing s l with
  | nil => exact ⟨s, .nil s, by simpa using h⟩
  | cons x xs ih =>
    rw [Policy.accepts_cons] at hxs
    obtain ⟨s1, h1, h2⟩ := h.consume_ok x hxs.1
    obtain ⟨s2, h3, h4⟩ := ih h2 hxs.2
    exact ⟨s2, .cons h1 h3, by simpa using h4⟩

end

end Verif
