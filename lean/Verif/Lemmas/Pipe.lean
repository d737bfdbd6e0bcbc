import Verif.Lemmas.Traces

/-!
# Helper lemmas about the loops of the piping functions
-/

namespace Verif

open Outcome

section

variable {σ τ I F E₁ E₂ : Type}

theorem Emits.deterministic {P : Producer σ I F E₁} {s s₁ s₂ : σ} {xs : List I} (h : Emits P s xs s₁)
    (h' : Emits P s xs s₂) : s₁ = s₂ := by
  induction h with
  | nil => cases h'; rfl
  | cons hp _ ih =>
    cases h' with
    | cons hp' h' =>
      rw [hp] at hp'
      injection hp' with hp'
      injection hp' with e1 _
      subst e1
      exact ih h'

/-- While items move from producer to consumer, the loop of `pipe` continues. -/
theorem pipe_skip {P : Producer σ I F E₁} {C : Consumer τ I F E₂} {s s' : σ} {t t' : τ} {xs : List I}
    (hP : Emits P s xs s') (hC : Consumes C t xs t') : pipe P C s t = pipe P C s' t' := by
  induction hP generalizing t with
  | nil => cases hC; rfl
  | cons hp _ ih =>
    cases hC with
    | cons hc hrest =>
      rw [← ih hrest]
      unfold pipe
      rw [loop_unfold]
      simp [pipeBody, hp, hc]

theorem pipe_unfold (P : Producer σ I F E₁) (C : Consumer τ I F E₂) (s : σ) (t : τ) :
    pipe P C s t = match pipeBody P C (s, t) with
      | ok (.continue s') => pipe P C s'.1 s'.2
      | ok (.done r) => ok r
      | .panic => .panic
      | .diverge => .diverge := by
  unfold pipe
  rw [loop_unfold]
  split <;> simp_all

/-- What a run of `pipe` that comes back has done. -/
theorem pipe_fuel_inv (P : Producer σ I F E₁) (C : Consumer τ I F E₂) (n : Nat) (s : σ) (t : τ)
    (r : (σ × τ) × Except (PipeError E₁ E₂) Unit) (h : loopFuel (pipeBody P C) n (s, t) = ok r) :
    ∃ xs s₁ t₁, Emits P s xs s₁ ∧ Consumes C t xs t₁ ∧ pipeBody P C (s₁, t₁) = ok (.done r) := by
  induction n generalizing s t with
  | zero => simp [loopFuel] at h
  | succ n ih =>
    rw [loopFuel] at h
    cases hb : pipeBody P C (s, t) with
    | panic => simp [hb] at h
    | diverge => simp [hb] at h
    | ok st =>
      cases st with
      | done r' =>
        simp [hb] at h; subst h
        exact ⟨[], s, t, .nil _, .nil _, hb⟩
      | «continue» st =>
        simp only [hb] at h
        obtain ⟨s1, t1⟩ := st
        obtain ⟨xs, s₁, t₁, h1, h2, h3⟩ := ih s1 t1 h
        -- one item moved
        have : ∃ x, P.produce s = ok (s1, .ok (.inl x)) ∧ C.consume t x = ok (t1, .ok ()) := by
          simp only [pipeBody] at hb
          rcases hp : P.produce s with ⟨s', e | x | f⟩ | _ | _
          · simp [hp] at hb
          · simp only [hp, bind_eq, bind_ok] at hb
            rcases hc : C.consume t x with ⟨t', e | u⟩ | _ | _
            · simp [hc] at hb
            · simp [hc] at hb
              obtain ⟨rfl, rfl⟩ := hb
              exact ⟨x, rfl, hc⟩
            · simp [hc] at hb
            · simp [hc] at hb
          · simp only [hp, bind_eq, bind_ok] at hb
            rcases hc : C.close t f with ⟨t', e | u⟩ | _ | _ <;> simp [hc] at hb
          · simp [hp] at hb
          · simp [hp] at hb
        obtain ⟨x, hp, hc⟩ := this
        exact ⟨x :: xs, s₁, t₁, .cons hp h1, .cons hc h2, h3⟩

theorem loop_ok_fuel {α ρ : Type} {body : α → Outcome (Step α ρ)} {s : α} {r : ρ} (h : loop body s = ok r) :
    ∃ n, loopFuel body n s = ok r := by
  unfold loop at h
  split at h
  · next hex => exact ⟨_, h⟩
  · cases h

theorem pipe_inv {P : Producer σ I F E₁} {C : Consumer τ I F E₂} {s : σ} {t : τ}
    {r : (σ × τ) × Except (PipeError E₁ E₂) Unit} (h : pipe P C s t = ok r) :
    ∃ xs s₁ t₁, Emits P s xs s₁ ∧ Consumes C t xs t₁ ∧ pipeBody P C (s₁, t₁) = ok (.done r) := by
  obtain ⟨n, hn⟩ := loop_ok_fuel h
  exact pipe_fuel_inv P C n s t r hn

/-- `pipe_at_most`, started with `i` items already piped. -/
noncomputable def pipeAtMostFrom (P : Producer σ I F E₁) (C : Consumer τ I F E₂) (count : Nat) (s : σ) (t : τ)
    (i : Nat) : Outcome ((σ × τ) × Except (PipeError E₁ E₂) Nat) :=
  loop (pipeAtMostBody P C count) (s, t, i)

theorem pipeAtMost_skip {P : Producer σ I F E₁} {C : Consumer τ I F E₂} {count : Nat} {s s' : σ} {t t' : τ}
    {xs : List I} {i : Nat}
    (hP : Emits P s xs s') (hC : Consumes C t xs t') (hle : i + xs.length ≤ count) :
    loop (pipeAtMostBody P C count) (s, t, i) = loop (pipeAtMostBody P C count) (s', t', i + xs.length) := by
  induction hP generalizing t i with
  | nil => cases hC; simp
  | @cons s s₁ s₂ x xs hp _ ih =>
    cases hC with
    | cons hc hrest =>
      simp only [List.length_cons] at hle
      rw [List.length_cons, show i + (xs.length + 1) = (i + 1) + xs.length by omega, ← ih hrest (by omega)]
      conv => lhs; rw [loop_unfold]
      have : i < count := by omega
      simp [pipeAtMostBody, hp, hc, this]

theorem pipeAtMost_fuel_inv (P : Producer σ I F E₁) (C : Consumer τ I F E₂) (count : Nat) (n : Nat) (s : σ) (t : τ)
    (i : Nat) (hi : i ≤ count) (r : (σ × τ) × Except (PipeError E₁ E₂) Nat)
    (h : loopFuel (pipeAtMostBody P C count) n (s, t, i) = ok r) :
    ∃ xs s₁ t₁, i + xs.length ≤ count ∧ Emits P s xs s₁ ∧ Consumes C t xs t₁ ∧
      pipeAtMostBody P C count (s₁, t₁, i + xs.length) = ok (.done r) := by
  induction n generalizing s t i with
  | zero => simp [loopFuel] at h
  | succ n ih =>
    rw [loopFuel] at h
    cases hb : pipeAtMostBody P C count (s, t, i) with
    | panic => simp [hb] at h
    | diverge => simp [hb] at h
    | ok st =>
      cases st with
      | done r' =>
        simp [hb] at h; subst h
        exact ⟨[], s, t, by simpa using hi, .nil _, .nil _, hb⟩
      | «continue» st =>
        simp only [hb] at h
        obtain ⟨s1, t1, j⟩ := st
        -- one item moved
        have : ∃ x, P.produce s = ok (s1, .ok (.inl x)) ∧ C.consume t x = ok (t1, .ok ()) ∧ j = i + 1 ∧ i < count := by
          simp only [pipeAtMostBody] at hb
          by_cases hlt : i < count
          · simp only [hlt, if_true] at hb
            rcases hp : P.produce s with ⟨s', e | x | f⟩ | _ | _
            · simp [hp] at hb
            · simp only [hp, bind_eq, bind_ok] at hb
              rcases hc : C.consume t x with ⟨t', e | u⟩ | _ | _
              · simp [hc] at hb
              · simp [hc] at hb
                obtain ⟨rfl, rfl, rfl⟩ := hb
                exact ⟨x, rfl, hc, rfl, hlt⟩
              · simp [hc] at hb
              · simp [hc] at hb
            · simp only [hp, bind_eq, bind_ok] at hb
              rcases hc : C.close t f with ⟨t', e | u⟩ | _ | _ <;> simp [hc] at hb
            · simp [hp] at hb
            · simp [hp] at hb
          · simp [hlt] at hb
        obtain ⟨x, hp, hc, rfl, hlt⟩ := this
        obtain ⟨xs, s₁, t₁, h0, h1, h2, h3⟩ := ih s1 t1 (i + 1) (by omega) h
        refine ⟨x :: xs, s₁, t₁, by simp; omega, .cons hp h1, .cons hc h2, ?_⟩
        rw [List.length_cons, show i + (xs.length + 1) = i + 1 + xs.length by omega]
        exact h3

end

end Verif
