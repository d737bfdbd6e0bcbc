/-!
# Outcomes of method calls and the loop combinator

How a call of a Rust method can end, and how Rust loops are modelled.
Nothing in this file is specific to ufotofu.
-/

namespace Verif

/-- How a (completed or never completing) Rust computation ends.
`panic` is a Rust panic, `diverge` is a computation that never returns. -/
inductive Outcome (α : Type u) : Type u where
  | ok (a : α)
  | panic
  | diverge
  deriving DecidableEq, Repr

namespace Outcome

/-- Sequencing: the rest runs only if the first part returned. -/
def bind {α : Type u} {β : Type v} : Outcome α → (α → Outcome β) → Outcome β
  | ok a, f => f a
  | panic, _ => panic
  | diverge, _ => diverge

instance : Monad Outcome where
  pure := ok
  bind := bind

/-- `Option::unwrap` / `Option::expect`. -/
def unwrap {α : Type u} : Option α → Outcome α
  | some a => ok a
  | none => panic

/-- `assert!`-like checks. -/
def assert (b : Bool) : Outcome Unit := if b then ok () else panic

/-- `usize` subtraction with overflow check. -/
def sub (a b : Nat) : Outcome Nat := if b ≤ a then ok (a - b) else panic

/-- `usize` remainder. -/
def mod (a b : Nat) : Outcome Nat := if b = 0 then panic else ok (a % b)

/-- `&xs[i]`. -/
def index {α : Type u} (xs : List α) (i : Nat) : Outcome α := unwrap xs[i]?

/-- `xs[i] = x`. -/
def setIndex {α : Type u} (xs : List α) (i : Nat) (x : α) : Outcome (List α) :=
  if i < xs.length then ok (xs.set i x) else panic

/-- `&xs[lo..hi]`. -/
def slice {α : Type u} (xs : List α) (lo hi : Nat) : Outcome (List α) :=
  if lo ≤ hi ∧ hi ≤ xs.length then ok ((xs.take hi).drop lo) else panic

@[simp] theorem pure_eq {α : Type u} (a : α) : (pure a : Outcome α) = ok a := rfl
@[simp] theorem bind_eq {α β : Type u} (x : Outcome α) (f : α → Outcome β) : x >>= f = bind x f := rfl
@[simp] theorem bind_ok {α : Type u} {β : Type v} (a : α) (f : α → Outcome β) : bind (ok a) f = f a := rfl
@[simp] theorem bind_panic {α : Type u} {β : Type v} (f : α → Outcome β) : bind panic f = panic := rfl
@[simp] theorem bind_diverge {α : Type u} {β : Type v} (f : α → Outcome β) : bind diverge f = diverge := rfl
@[simp] theorem unwrap_some {α : Type u} (a : α) : unwrap (some a) = ok a := rfl
@[simp] theorem unwrap_none {α : Type u} : unwrap (none : Option α) = panic := rfl
@[simp] theorem assert_true : assert true = ok () := rfl
@[simp] theorem assert_false : assert false = panic := rfl

theorem sub_of_le {a b : Nat} (h : b ≤ a) : sub a b = ok (a - b) := by simp [sub, h]
theorem mod_of_pos {a b : Nat} (h : 0 < b) : mod a b = ok (a % b) := by
  simp [mod, Nat.pos_iff_ne_zero.mp h]
theorem index_of_lt {α : Type u} {xs : List α} {i : Nat} (h : i < xs.length) :
    index xs i = ok xs[i] := by simp [index, h]
theorem setIndex_of_lt {α : Type u} {xs : List α} {i : Nat} (h : i < xs.length) (x : α) :
    setIndex xs i x = ok (xs.set i x) := by simp [setIndex, h]
theorem slice_of_le {α : Type u} {xs : List α} {lo hi : Nat} (h : lo ≤ hi) (h' : hi ≤ xs.length) :
    slice xs lo hi = ok ((xs.take hi).drop lo) := by simp [slice, h, h']

end Outcome

/-- The result of one iteration of a loop body: go on with a new state, or leave the loop. -/
inductive Step (σ : Type u) (ρ : Type v) : Type (max u v) where
  | continue (s : σ)
  | done (r : ρ)

open Outcome

/-- Run a loop for at most `fuel` iterations; `diverge` if it has not ended by then. -/
def loopFuel {σ : Type u} {ρ : Type v} (body : σ → Outcome (Step σ ρ)) : Nat → σ → Outcome ρ
  | 0, _ => diverge
  | n + 1, s =>
    match body s with
    | ok (.continue s') => loopFuel body n s'
    | ok (.done r) => ok r
    | .panic => .panic
    | diverge => diverge

open Classical in
/-- A Rust `loop { .. }`: whatever its fuelled version says once it has enough fuel;
`diverge` if no amount of fuel is enough. -/
noncomputable def loop {σ : Type u} {ρ : Type v} (body : σ → Outcome (Step σ ρ)) (s : σ) :
    Outcome ρ :=
  if h : ∃ n, loopFuel body n s ≠ diverge then loopFuel body h.choose s else diverge

theorem loopFuel_succ_of_ne {σ : Type u} {ρ : Type v} (body : σ → Outcome (Step σ ρ)) :
    ∀ (n : Nat) (s : σ), loopFuel body n s ≠ diverge → loopFuel body (n + 1) s = loopFuel body n s
  | 0, _, h => absurd rfl h
  | n + 1, s, h => by
    rw [loopFuel]
    conv => rhs; rw [loopFuel]
    rw [loopFuel] at h
    cases hb : body s with
    | panic => rfl
    | diverge => rfl
    | ok st =>
      cases st with
      | done r => rfl
      | «continue» s' =>
        simp only [hb] at h
        exact loopFuel_succ_of_ne body n s' h

theorem loopFuel_mono {σ : Type u} {ρ : Type v} (body : σ → Outcome (Step σ ρ)) {n m : Nat} {s : σ}
    (hnm : n ≤ m) (h : loopFuel body n s ≠ diverge) : loopFuel body m s = loopFuel body n s := by
  induction hnm with
  | refl => rfl
  | step _ ih => rw [loopFuel_succ_of_ne _ _ _ (by rw [ih]; exact h), ih]

/-- Enough fuel computes the loop. -/
theorem loop_eq_of_fuel {σ : Type u} {ρ : Type v} {body : σ → Outcome (Step σ ρ)} {n : Nat} {s : σ}
    (h : loopFuel body n s ≠ diverge) : loop body s = loopFuel body n s := by
  unfold loop
  have hex : ∃ n, loopFuel body n s ≠ diverge := ⟨n, h⟩
  rw [dif_pos hex]
  have hc := hex.choose_spec
  rcases Nat.le_total n hex.choose with hle | hle
  · exact loopFuel_mono body hle h
  · exact (loopFuel_mono body hle hc).symm

/-- The unfolding equation of a loop: exactly the meaning of a Rust `loop`. -/
theorem loop_unfold {σ : Type u} {ρ : Type v} (body : σ → Outcome (Step σ ρ)) (s : σ) :
    loop body s = match body s with
      | ok (.continue s') => loop body s'
      | ok (.done r) => ok r
      | .panic => .panic
      | diverge => diverge := by
  cases hb : body s with
  | panic => rw [loop_eq_of_fuel (n := 1)] <;> simp [loopFuel, hb]
  | diverge =>
    unfold loop
    rw [dif_neg]
    rintro ⟨n, hn⟩
    cases n with
    | zero => exact hn rfl
    | succ n => simp [loopFuel, hb] at hn
  | ok st =>
    cases st with
    | done r => rw [loop_eq_of_fuel (n := 1)] <;> simp [loopFuel, hb]
    | «continue» s' =>
      simp only
      by_cases hex : ∃ n, loopFuel body n s' ≠ diverge
      · obtain ⟨n, hn⟩ := hex
        rw [loop_eq_of_fuel hn, loop_eq_of_fuel (n := n + 1)]
        · simp [loopFuel, hb]
        · simpa [loopFuel, hb] using hn
      · have h' : loop body s' = diverge := by unfold loop; rw [dif_neg hex]
        rw [h']
        unfold loop
        rw [dif_neg]
        rintro ⟨n, hn⟩
        cases n with
        | zero => exact hn rfl
        | succ n =>
          rw [loopFuel, hb] at hn
          exact hex ⟨n, hn⟩

/-- A loop whose invariant always lets it continue never returns. -/
theorem loop_diverge {σ : Type u} {ρ : Type v} (body : σ → Outcome (Step σ ρ)) (Inv : σ → Prop)
    (hstep : ∀ s, Inv s → ∃ s', body s = ok (.continue s') ∧ Inv s') (s : σ) (hs : Inv s) :
    loop body s = diverge := by
  unfold loop
  rw [dif_neg]
  rintro ⟨n, hn⟩
  apply hn
  clear hn
  induction n generalizing s with
  | zero => rfl
  | succ n ih =>
    obtain ⟨s', hb, hi⟩ := hstep s hs
    rw [loopFuel, hb]
    exact ih s' hi

end Verif
