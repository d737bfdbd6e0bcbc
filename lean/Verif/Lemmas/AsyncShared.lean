import Verif.Lemmas.Async
import Verif.Model.AsyncShared

/-!
# The shared codec adaptors, poll by poll
-/

namespace Verif.Async

open Outcome

variable {σ β Op A : Type}

/-- The critical section is polled to completion. -/
noncomputable def SharedMethod.seq : SharedMethod σ β A → Verif.SharedMethod σ β A
  | .locked run => .locked fun s => (run s).run
  | .immediate b a => .immediate b a

/-- Polling the rest of a method to completion. -/
noncomputable def SharedMethod.runFrom (m : SharedMethod σ β A) (s : σ) (k : m.κ s) : Outcome (σ × A) := Fut.runFrom (m.poll s) k

theorem SharedMethod.runFrom_start (m : SharedMethod σ β A) {s : σ} {k : m.κ s} (h : m.start s = some k)
    {run : σ → Outcome (σ × A)} (hr : m.seq = .locked run) : m.runFrom s k = run s := by
  cases m with
  | locked run =>
    cases hr
    cases h
    rfl
  | immediate => cases h

theorem SharedMethod.start_some (m : SharedMethod σ β A) {run : σ → Outcome (σ × A)} (hr : m.seq = .locked run) (s : σ) :
    ∃ k, m.start s = some k := by
  cases m with
  | locked run => exact ⟨_, rfl⟩
  | immediate => cases hr

/-- The future of the call, which has found `s` in the mutex, has come to `k`. -/
def Critical.Begun {method : β → Op → SharedMethod σ β A} (k : Critical method) (b : β) (op : Op) (s s₁ : σ) : Prop :=
  k = ⟨b, op, none⟩ ∧ s₁ = s ∨
  ∃ k₀, k = ⟨b, op, some ⟨s, k₀⟩⟩ ∧ ∀ run, (method b op).seq = .locked run → (method b op).runFrom s k₀ = run s

theorem Critical.Begun.current {method : β → Op → SharedMethod σ β A} {k : Critical method} {b : β} {op : Op} {s s₁ : σ}
    (h : k.Begun b op s s₁) {x : (s : σ) × (method k.fields k.op).κ s} (hx : k.current s₁ = some x) :
    ∃ (hk : k.fields = b ∧ k.op = op) (hs : x.1 = s),
      ∀ run, (method b op).seq = .locked run → (method k.fields k.op).runFrom x.1 x.2 = run s := by
  rcases h with ⟨rfl, rfl⟩ | ⟨k₀, rfl, h⟩
  · unfold Critical.current at hx
    simp only [Option.map_eq_some_iff] at hx
    obtain ⟨k, hk, rfl⟩ := hx
    exact ⟨⟨rfl, rfl⟩, rfl, fun run hr => SharedMethod.runFrom_start _ hk hr⟩
  · cases hx
    exact ⟨⟨rfl, rfl⟩, rfl, h⟩

theorem suspension_begun {method : β → Op → SharedMethod σ β A} {b : β} {op : Op} {s : σ} {k : (suspension method).κ} {s₁ : σ}
    (h : (suspension method).Path ((suspension method).start b op) s k s₁) : Critical.Begun k b op s s₁ := by
  generalize hk₀ : (suspension method).start b op = k₀ at h
  induction h with
  | refl => subst hk₀; exact .inl ⟨rfl, rfl⟩
  | snoc _ hstep ih =>
    obtain ⟨⟨s', k'⟩, k₁, hx, hp, rfl⟩ := hstep
    obtain ⟨⟨rfl, rfl⟩, rfl, h1⟩ := ih.current hx
    exact .inr ⟨k₁, rfl, fun run hr => (Fut.runFrom_pending hp).trans (h1 run hr)⟩

/-- Polled to completion, the futures do what the methods do. -/
theorem suspension_implements (method : β → Op → SharedMethod σ β A) :
    (suspension method).Implements fun b op => (method b op).seq := by
  intro b op run hm s k s₁ a s₂ hpath hret
  obtain ⟨⟨s', k'⟩, hx, hp⟩ := hret
  obtain ⟨⟨rfl, rfl⟩, rfl, h1⟩ := (suspension_begun hpath).current hx
  rw [← h1 run hm]
  exact Fut.runFrom_ready hp

end Verif.Async
