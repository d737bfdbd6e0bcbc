import Verif.Lemmas.Spec

/-!
# Bulk producers that report errors early

The documentation of `consider_produced` (`/repo/ufotofu/src/lib.rs:439-452`) lets it fail. `BulkPlaysLaw` describes bulk producers
whose `consider_produced` never does. The law below is weaker: `consider_produced` may also report the error that comes directly
after the items that it marks as produced. Nothing is said about `bulk_produce`.
-/

namespace Verif

open Outcome

section

variable {σ I F E : Type}

/-- As `BulkPlaysLaw`, but `consider_produced(k)` may fail with the error that comes after the next `k` items. -/
structure HastyLaw (P : BulkProducer σ I F E) (R : σ → Script I F E → Nat → Prop) : Prop where
  base : BufPlaysLaw P.toBufferedProducer (fun s c => ∃ n, R s c n)
  expose : ∀ s c n, R s c n → ∃ s',
    (∃ xs, xs ≠ [] ∧ c.StartsWith xs ∧ P.exposeItems s = ok (s', .ok (.inl xs)) ∧ R s' c xs.length) ∨
    (∃ f, c 0 = .ok (.inr f) ∧ P.exposeItems s = ok (s', .ok (.inr f))) ∨
    (∃ e, c 0 = .error e ∧ P.exposeItems s = ok (s', .error e))
  consider : ∀ s c n k, R s c n → 0 < n → k ≤ n → ∃ s',
    (P.considerProduced s k = ok (s', .ok ()) ∧ R s' (c.drop k) (n - k)) ∨
    (∃ e, c k = .error e ∧ P.considerProduced s k = ok (s', .error e))

/-- The bulk producer `P` in state `s` emits the sequence `c`, except that `consider_produced` may report an error early. -/
def Hasty (P : BulkProducer σ I F E) (s : σ) (c : Script I F E) : Prop :=
  ∃ R, HastyLaw P R ∧ ∃ n, R s c n

theorem BulkPlaysLaw.hasty {P : BulkProducer σ I F E} {R : σ → Script I F E → Nat → Prop} (h : BulkPlaysLaw P R) : HastyLaw P R where
  base := h.base
  expose := h.expose
  consider s c n k hR h0 hk := let ⟨s', h1, h2⟩ := h.consider s c n k hR h0 hk; ⟨s', .inl ⟨h1, h2⟩⟩

theorem BulkPlays.hasty {P : BulkProducer σ I F E} {s : σ} {c : Script I F E} (h : BulkPlays P s c) : Hasty P s c :=
  let ⟨R, hR, hs⟩ := h
  ⟨R, hR.hasty, hs⟩

theorem Hasty.toPlays {P : BulkProducer σ I F E} {s : σ} {c : Script I F E} (h : Hasty P s c) : Plays P.toProducer s c :=
  let ⟨_, hR, hs⟩ := h
  ⟨_, hR.base.toPlaysLaw, hs⟩

end

/-! ### A case -/

namespace Case

/-- A producer (not from the repository) of the listed items and then the error `"e"`, which it reports as soon as the last item
has been considered produced. It uses the default `bulk_produce`. -/
def hasty : BulkProducer (List Nat) Nat Unit String where
  produce
    | [] => ok ([], .error "e")
    | x :: xs => ok (xs, .ok (.inl x))
  slurp s := ok (s, .ok ())
  exposeItems
    | [] => ok ([], .error "e")
    | x :: xs => ok (x :: xs, .ok (.inl (x :: xs)))
  considerProduced s k := ok (s.drop k, if s.drop k = [] then .error "e" else .ok ())

theorem hasty_hasty (s : List Nat) : Hasty hasty s (Script.ofList s (.error "e")) := by
  refine ⟨fun s c n => c = Script.ofList s (.error "e") ∧ n ≤ s.length, ⟨⟨⟨?_⟩, ?_⟩, ?_, ?_⟩, 0, rfl, Nat.zero_le _⟩
  · rintro s _ ⟨n, rfl, _⟩
    cases s with
    | nil => exact ⟨[], rfl, by intro x hx; cases hx⟩
    | cons x xs => exact ⟨xs, rfl, fun _ _ => ⟨0, by rw [Script.ofList_drop _ _ 1 (by simp)]; rfl, Nat.zero_le _⟩⟩
  · rintro s _ ⟨n, rfl, hn⟩
    exact ⟨s, .inl ⟨rfl, n, rfl, hn⟩⟩
  · rintro s _ n ⟨rfl, _⟩
    cases s with
    | nil => exact ⟨[], .inr (.inr ⟨"e", rfl, rfl⟩)⟩
    | cons x xs => exact ⟨x :: xs, .inl ⟨x :: xs, by simp, Script.ofList_startsWith _ _, rfl, rfl, Nat.le_refl _⟩⟩
  · rintro s _ n k ⟨rfl, hn⟩ _ hk
    refine ⟨s.drop k, ?_⟩
    by_cases h : s.drop k = []
    · have hl := congrArg List.length h
      simp only [List.length_drop, List.length_nil] at hl
      refine .inr ⟨"e", ?_, by simp only [hasty, h, if_true]⟩
      have := Script.ofList_end s (.error "e" : Except String Unit)
      rwa [show s.length = k by omega] at this
    · exact .inl ⟨by simp only [hasty, h, if_false], Script.ofList_drop _ _ k (by omega), by simp; omega⟩

end Case

end Verif
