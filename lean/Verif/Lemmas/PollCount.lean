import Verif.Lemmas.Async
import Verif.Lemmas.Pipe
import Verif.Model.Producers

/-!
# How often futures are pending
-/

namespace Verif

open Outcome

namespace Fut

variable {A B : Type}

/-- If the future is completed, after being pending `n` times, with `a`, then `Q n a`. -/
def Always (f : Fut A) (Q : Nat → A → Prop) : Prop := ∀ n a, Ends f.poll f.start n a → Q n a

theorem Ends.unique {κ : Type} {poll : κ → Outcome (Poll κ A)} {k : κ} {n n' : Nat} {a a' : A} (h : Ends poll k n a)
    (h' : Ends poll k n' a') : n = n' ∧ a = a' := by
  induction h generalizing n' with
  | ready h =>
    cases h' with
    | ready h' => rw [h] at h'; cases h'; exact ⟨rfl, rfl⟩
    | pending h' => rw [h] at h'; cases h'
  | pending h _ ih =>
    cases h' with
    | ready h' => rw [h] at h'; cases h'
    | pending h' hk =>
      rw [h] at h'; cases h'
      obtain ⟨rfl, rfl⟩ := ih hk
      exact ⟨rfl, rfl⟩

theorem Ends.measure {κ : Type} {poll : κ → Outcome (Poll κ A)} {m : κ → Nat} {m' : A → Nat}
    (hr : ∀ k a, poll k = ok (.ready a) → m' a = m k) (hp : ∀ k k', poll k = ok (.pending k') → m k' = m k + 1) {k : κ} {n : Nat}
    {a : A} (h : Ends poll k n a) : m' a = m k + n := by
  induction h with
  | ready h => exact hr _ _ h
  | pending h _ ih =>
    have := hp _ _ h
    omega

/-- The number of times is determined. -/
theorem run_ok_ends {f : Fut A} {a : A} (h : f.run = ok a) : ∃ n, Ends f.poll f.start n a :=
  runFrom_ok_iff.mp h

theorem Always.mono {f : Fut A} {Q Q' : Nat → A → Prop} (h : f.Always Q) (hQ : ∀ n a, Q n a → Q' n a) : f.Always Q' :=
  fun n a he => hQ n a (h n a he)

theorem Always.lift {o : Outcome A} {Q : Nat → A → Prop} (h : ∀ a, o = ok a → Q 0 a) : (Fut.lift o).Always Q := by
  intro n a he
  cases he with
  | ready hp =>
    rcases o with a | _ | _
    · cases hp; exact h _ rfl
    · cases hp
    · cases hp
  | pending hp => rcases o with a | _ | _ <;> cases hp

theorem Always.pure {a : A} {Q : Nat → A → Prop} (h : Q 0 a) : (Pure.pure a : Fut A).Always Q :=
  Always.lift (o := ok a) fun _ e => by cases e; exact h

theorem Always.liftM {o : Outcome A} {Q : Nat → A → Prop} (h : ∀ a, o = ok a → Q 0 a) : (MonadLiftT.monadLift o : Fut A).Always Q :=
  Always.lift h

theorem Always.panic {Q : Nat → A → Prop} : (MonadLiftT.monadLift (Outcome.panic : Outcome A) : Fut A).Always Q :=
  Always.lift (o := Outcome.panic) nofun

theorem ends_andThen_inr {f : Fut A} {g : A → Fut B} {x : f.κ ⊕ ((a : A) × (g a).κ)} {n : Nat} {b : B}
    (h : Ends (andThenPoll f g) x n b) : ∀ a k, x = .inr ⟨a, k⟩ → Ends (g a).poll k n b := by
  induction h with
  | ready hp =>
    rintro a k rfl
    simp only [andThenPoll, pollIn] at hp
    rcases hq : (g a).poll k with (k' | b') | _ | _ <;> rw [hq] at hp <;> cases hp
    exact .ready hq
  | pending hp _ ih =>
    rintro a k rfl
    simp only [andThenPoll, pollIn] at hp
    rcases hq : (g a).poll k with (k' | b') | _ | _ <;> rw [hq] at hp <;> cases hp
    exact .pending hq (ih a k' rfl)

theorem ends_andThen {f : Fut A} {g : A → Fut B} {x : f.κ ⊕ ((a : A) × (g a).κ)} {n : Nat} {b : B}
    (h : Ends (andThenPoll f g) x n b) : ∀ k, x = .inl k →
      ∃ n₁ n₂ a, Ends f.poll k n₁ a ∧ Ends (g a).poll (g a).start n₂ b ∧ n = n₁ + n₂ := by
  induction h with
  | ready hp =>
    rintro k rfl
    simp only [andThenPoll, pollIn] at hp
    rcases hq : f.poll k with (k' | a) | _ | _ <;> rw [hq] at hp <;> try cases hp
    simp only [bind_ok] at hp
    rcases hq' : (g a).poll (g a).start with (k' | b') | _ | _ <;> rw [hq'] at hp <;> cases hp
    exact ⟨0, 0, a, .ready hq, .ready hq', rfl⟩
  | pending hp hx ih =>
    rintro k rfl
    simp only [andThenPoll, pollIn] at hp
    rcases hq : f.poll k with (k' | a) | _ | _ <;> rw [hq] at hp
    · cases hp
      obtain ⟨n₁, n₂, a, h1, h2, rfl⟩ := ih k' rfl
      exact ⟨n₁ + 1, n₂, a, .pending hq h1, h2, by omega⟩
    · simp only [bind_ok] at hp
      rcases hq' : (g a).poll (g a).start with (k' | b') | _ | _ <;> rw [hq'] at hp <;> cases hp
      exact ⟨0, _, a, .ready hq, .pending hq' (ends_andThen_inr hx a k' rfl), by omega⟩
    · cases hp
    · cases hp

theorem Always.bind {f : Fut A} {g : A → Fut B} {Q : Nat → B → Prop}
    (h : f.Always fun n a => (g a).Always fun n' b => Q (n + n') b) : (f >>= g).Always Q := by
  intro n b he
  obtain ⟨n₁, n₂, a, h1, h2, rfl⟩ := ends_andThen he f.start rfl
  exact h n₁ a h1 n₂ b h2

/-- Loops: `m` counts, in each state between two iterations. -/
theorem Always.loop {σ : Type} {body : σ → Fut (Step σ A)} {m : σ → Nat} {m' : A → Nat}
    (h : ∀ s, (body s).Always fun n r => match r with | .continue s' => m s' = m s + n | .done a => m' a = m s + n) (s : σ) :
    (Fut.loop body s).Always fun n a => m' a = m s + n := by
  have key : ∀ (x : (s : σ) × (body s).κ) n a, Ends (Verif.loop (loopPollBody body)) x n a → ∀ m₀,
      (∀ j r, Ends (body x.1).poll x.2 j r → match r with | .continue s' => m s' = m₀ + j | .done a => m' a = m₀ + j) →
      m' a = m₀ + n := by
    intro x n a he
    have inner : ∀ fuel x p, loopFuel (loopPollBody body) fuel x = ok p → ∀ m₀,
        (∀ j r, Ends (body x.1).poll x.2 j r → match r with | .continue s' => m s' = m₀ + j | .done a => m' a = m₀ + j) →
        match p with
        | .ready a => m' a = m₀
        | .pending y =>
          ∀ j r, Ends (body y.1).poll y.2 j r → match r with | .continue s' => m s' = m₀ + 1 + j | .done a => m' a = m₀ + 1 + j := by
      intro fuel
      induction fuel with
      | zero => intro x p hp; cases hp
      | succ fuel ih =>
        intro x p hp m₀ hx
        rw [loopFuel, loopPollBody] at hp
        rcases hq : (body x.1).poll x.2 with (k | s' | a) | _ | _ <;> simp only [hq, bind_ok] at hp
        · cases hp
          intro j r hr
          have := hx _ _ (.pending hq hr)
          cases r <;> simp only at this ⊢ <;> omega
        · have h1 := hx _ _ (.ready hq)
          refine ih _ p hp m₀ fun j r hr => ?_
          have h2 := h s' j r hr
          cases r <;> simp only [Nat.add_zero] at h1 h2 ⊢ <;> omega
        · cases hp
          exact hx _ _ (.ready hq)
        · cases hp
        · cases hp
    have outer : ∀ x p, Verif.loop (loopPollBody body) x = ok p → ∃ fuel, loopFuel (loopPollBody body) fuel x = ok p := by
      intro x p hp
      by_cases hex : ∃ n, loopFuel (loopPollBody body) n x ≠ diverge
      · obtain ⟨n, hn⟩ := hex
        rw [loop_eq_of_fuel hn] at hp
        exact ⟨n, hp⟩
      · unfold Verif.loop at hp
        rw [dif_neg hex] at hp
        cases hp
    induction he with
    | ready hp =>
      intro m₀ hx
      obtain ⟨fuel, hf⟩ := outer _ _ hp
      have := inner fuel _ _ hf m₀ hx
      simpa using this
    | pending hp _ ih =>
      intro m₀ hx
      obtain ⟨fuel, hf⟩ := outer _ _ hp
      have := ih (m₀ + 1) (inner fuel _ _ hf m₀ hx)
      omega
  intro n a he
  exact key _ n a he (m s) fun j r hr => h s j r hr

end Fut

namespace Async

variable {σ τ I F E E₁ E₂ : Type}

/-! ## Producers and consumers that are pending as often as `w` counts -/

structure Producer.Counts (P : Producer σ I F E) (w : σ → Nat) : Prop where
  produce : ∀ s, (P.produce s).Always fun n r => w r.1 = w s + n

structure BufferedProducer.Counts (P : BufferedProducer σ I F E) (w : σ → Nat) : Prop extends P.toProducer.Counts w where
  slurp : ∀ s, (P.slurp s).Always fun n r => w r.1 = w s + n

structure BulkProducer.Counts (P : BulkProducer σ I F E) (w : σ → Nat) : Prop extends toBuffered : P.toBufferedProducer.Counts w where
  exposeItems : ∀ s, (P.exposeItems s).Always fun n r => w r.1 = w s + n
  considerProduced : ∀ s amount, (P.considerProduced s amount).Always fun n r => w r.1 = w s + n
  bulkProduce : ∀ s buf, (P.bulkProduce s buf).Always fun n r => w r.1 = w s + n

structure Consumer.Counts (C : Consumer σ I F E) (w : σ → Nat) : Prop where
  consume : ∀ s item, (C.consume s item).Always fun n r => w r.1 = w s + n
  close : ∀ s fin, (C.close s fin).Always fun n r => w r.1 = w s + n

structure BufferedConsumer.Counts (C : BufferedConsumer σ I F E) (w : σ → Nat) : Prop extends C.toConsumer.Counts w where
  flush : ∀ s, (C.flush s).Always fun n r => w r.1 = w s + n

structure BulkConsumer.Counts (C : BulkConsumer σ I F E) (w : σ → Nat) : Prop extends toBuffered : C.toBufferedConsumer.Counts w where
  exposeSlots : ∀ s, (C.exposeSlots s).Always fun n r => w r.1 = w s + n
  writeSlots : ∀ s items, w (C.writeSlots s items) = w s
  consumeSlots : ∀ s amount, (C.consumeSlots s amount).Always fun n r => w r.1 = w s + n
  bulkConsume : ∀ s buf, (C.bulkConsume s buf).Always fun n r => w r.1 = w s + n

/-- Goes through a method. -/
macro "counts" : tactic => `(tactic| repeat' first
  | refine Fut.Always.pure ?_
  | with_reducible refine Fut.Always.bind ?_
  | exact Fut.Always.panic
  | refine Fut.Always.mono (by apply_assumption) fun _ _ _ => ?_
  | refine Fut.Always.lift fun _ _ => ?_
  | refine Fut.Always.liftM fun _ _ => ?_
  | (dsimp only at * <;> omega)
  | split
  | (simp_all only [Nat.add_zero, Nat.zero_add] <;> omega)
  | omega)

theorem mapErrTake_counts {w : σ → Nat} {A B α : Type} (inner : σ) (fn : Option (A → B)) (r : Except A α) :
    (MonadLiftT.monadLift (mapErrTake inner fn r) : Fut _).Always fun n r => w r.1.inner = w inner + n := by
  refine Fut.Always.lift fun a h => ?_
  rcases fn with _ | fn <;> cases h
  rfl

theorem bulkProduceDefault_counts {exposeItems : σ → Fut (σ × Except E (List I ⊕ F))}
    {considerProduced : σ → Nat → Fut (σ × Except E Unit)} {w : σ → Nat}
    (he : ∀ s, (exposeItems s).Always fun n r => w r.1 = w s + n)
    (hc : ∀ s amount, (considerProduced s amount).Always fun n r => w r.1 = w s + n) (s : σ) (buf : List I) :
    (bulkProduceDefault exposeItems considerProduced s buf).Always fun n r => w r.1 = w s + n := by
  unfold bulkProduceDefault
  counts

theorem bulkConsumeDefault_counts {exposeSlots : σ → Fut (σ × Except E (List I))} {writeSlots : σ → List I → σ}
    {consumeSlots : σ → Nat → Fut (σ × Except E Unit)} {w : σ → Nat}
    (he : ∀ s, (exposeSlots s).Always fun n r => w r.1 = w s + n) (hw : ∀ s items, w (writeSlots s items) = w s)
    (hc : ∀ s amount, (consumeSlots s amount).Always fun n r => w r.1 = w s + n) (s : σ) (buf : List I) :
    (bulkConsumeDefault exposeSlots writeSlots consumeSlots s buf).Always fun n r => w r.1 = w s + n := by
  unfold bulkConsumeDefault
  counts

end Async

end Verif
