import Verif.Model.Poll

/-!
# Running futures
-/

namespace Verif

open Outcome

/-! ## Loops -/

/-- `o` is `o'` unless it never ends. -/
def Outcome.Le {A : Type} (o o' : Outcome A) : Prop := o = diverge ∨ o = o'

theorem Outcome.Le.antisymm {A : Type} {o o' : Outcome A} (h : o.Le o') (h' : o'.Le o) : o = o' := by
  rcases h with h | h
  · rcases h' with h' | h'
    · rw [h, h']
    · exact h'.symm
  · exact h

theorem Outcome.Le.refl {A : Type} (o : Outcome A) : o.Le o := .inr rfl

theorem loop_le {σ A : Type} {body : σ → Outcome (Step σ A)} {s : σ} {o : Outcome A} (h : ∀ n, (loopFuel body n s).Le o) :
    (loop body s).Le o := by
  unfold loop
  split
  · next hex => exact h _
  · exact .inl rfl

theorem le_loop {σ A : Type} (body : σ → Outcome (Step σ A)) (n : Nat) (s : σ) : (loopFuel body n s).Le (loop body s) := by
  by_cases h : loopFuel body n s = diverge
  · exact .inl h
  · exact .inr (loop_eq_of_fuel h).symm

/-- Two loops in lock step. -/
theorem loop_sim {σ τ A : Type} {b₁ : σ → Outcome (Step σ A)} {b₂ : τ → Outcome (Step τ A)} (f : σ → τ)
    (h : ∀ s, b₂ (f s) = (b₁ s).bind fun
      | .continue s' => ok (.continue (f s'))
      | .done a => ok (.done a)) (s : σ) : loop b₂ (f s) = loop b₁ s := by
  apply Outcome.Le.antisymm
  · apply loop_le
    intro n
    induction n generalizing s with
    | zero => exact .inl rfl
    | succ n ih =>
      rw [loopFuel, loop_unfold, h]
      rcases b₁ s with (s' | a) | _ | _
      · exact ih s'
      · exact .refl _
      · exact .refl _
      · exact .refl _
  · apply loop_le
    intro n
    induction n generalizing s with
    | zero => exact .inl rfl
    | succ n ih =>
      rw [loopFuel, loop_unfold, h]
      rcases b₁ s with (s' | a) | _ | _
      · exact ih s'
      · exact .refl _
      · exact .refl _
      · exact .refl _

/-- What is done with the result of a loop. -/
def mapDone {X A B : Type} (f : A → B) (o : Outcome (Step X A)) : Outcome (Step X B) :=
  o.bind fun
    | .continue x => ok (.continue x)
    | .done a => ok (.done (f a))

theorem loop_map {X A B : Type} (f : A → B) (body : X → Outcome (Step X A)) (x : X) :
    (loop body x).bind (fun a => ok (f a)) = loop (fun x => mapDone f (body x)) x := by
  have h : ∀ n x, loopFuel (fun x => mapDone f (body x)) n x = (loopFuel body n x).bind fun a => ok (f a) := by
    intro n
    induction n with
    | zero => exact fun _ => rfl
    | succ n ih =>
      intro x
      rw [loopFuel, loopFuel, mapDone]
      rcases body x with (y | a) | _ | _
      · exact ih y
      · rfl
      · rfl
      · rfl
  by_cases hd : ∃ n, loopFuel body n x ≠ diverge
  · obtain ⟨n, hn⟩ := hd
    rw [loop_eq_of_fuel hn, ← h, loop_eq_of_fuel]
    rw [h]
    intro he
    apply hn
    rcases hb : loopFuel body n x with a | _ | _
    · rw [hb] at he; cases he
    · rw [hb] at he; cases he
    · rfl
  · have h1 : loop body x = diverge := by
      unfold loop
      rw [dif_neg hd]
    have h2 : loop (fun x => mapDone f (body x)) x = diverge := by
      unfold loop
      rw [dif_neg]
      rintro ⟨n, hn⟩
      apply hd
      refine ⟨n, fun he => hn ?_⟩
      rw [h, he]
      rfl
    rw [h1, h2]
    rfl

/-- A loop within a loop is one loop. -/
def flatten {X A : Type} (inner : X → Outcome (Step X (Step X A))) (x : X) : Outcome (Step X A) :=
  (inner x).bind fun
    | .continue y => ok (.continue y)
    | .done st => ok st

theorem loop_flatten {X A : Type} (inner : X → Outcome (Step X (Step X A))) (x : X) :
    loop (fun x => loop inner x) x = loop (flatten inner) x := by
  apply Outcome.Le.antisymm
  · have key : ∀ m x, (loopFuel inner m x).Le .diverge ∨ loop (flatten inner) x = (loopFuel inner m x).bind fun
        | .continue y => loop (flatten inner) y
        | .done a => ok a := by
      intro m
      induction m with
      | zero => exact fun x => .inl (.inl rfl)
      | succ m ih =>
        intro x
        rw [loopFuel, loop_unfold, flatten]
        rcases inner x with (y | y | a) | _ | _
        · exact ih y
        · exact .inr rfl
        · exact .inr rfl
        · exact .inr rfl
        · exact .inl (.inl rfl)
    have key' : ∀ x, (loop inner x).Le .diverge ∨ loop (flatten inner) x = (loop inner x).bind fun
        | .continue y => loop (flatten inner) y
        | .done a => ok a := by
      intro x
      by_cases hd : ∃ n, loopFuel inner n x ≠ diverge
      · obtain ⟨n, hn⟩ := hd
        rw [loop_eq_of_fuel hn]
        exact key n x
      · left; left
        unfold loop
        rw [dif_neg hd]
    apply loop_le
    intro n
    induction n generalizing x with
    | zero => exact .inl rfl
    | succ n ih =>
      rw [loopFuel]
      rcases key' x with (h | h) | h
      · rw [h]; exact .inl rfl
      · rw [h]; exact .inl rfl
      · rw [h]
        rcases loop inner x with (y | a) | _ | _
        · exact ih y
        · exact .refl _
        · exact .refl _
        · exact .refl _
  · apply loop_le
    intro n
    induction n generalizing x with
    | zero => exact .inl rfl
    | succ n ih =>
      rw [loopFuel, loop_unfold, loop_unfold inner, flatten]
      rcases inner x with (y | y | a) | _ | _
      · have := ih y
        rw [loop_unfold] at this
        exact this
      · exact ih y
      · exact .refl _
      · exact .refl _
      · exact .refl _

/-! ## Futures -/

namespace Fut

variable {A B : Type}

theorem run_lift (o : Outcome A) : (lift o).run = o := by
  rw [run, loop_unfold]
  rcases o with a | _ | _ <;> rfl

theorem run_pure (a : A) : (pure a : Fut A).run = ok a := run_lift (ok a)

theorem run_liftM (o : Outcome A) : (liftM o : Fut A).run = o := run_lift o

theorem run_monadLift (o : Outcome A) : (monadLift o : Fut A).run = o := run_lift o

/-- Polling from state `k` on. -/
noncomputable def runFrom {κ : Type} (poll : κ → Outcome (Poll κ A)) (k : κ) : Outcome A := Verif.loop (runBody poll) k

theorem runFrom_eq {κ : Type} (poll : κ → Outcome (Poll κ A)) (k : κ) : runFrom poll k = (poll k).bind fun
    | .pending k => runFrom poll k
    | .ready a => ok a := by
  rw [runFrom, loop_unfold, runBody]
  rcases poll k with (k' | a) | _ | _ <;> rfl

theorem runFrom_pending {κ : Type} {poll : κ → Outcome (Poll κ A)} {k k' : κ} (h : poll k = ok (.pending k')) :
    runFrom poll k' = runFrom poll k := by
  rw [runFrom_eq poll k, h]
  rfl

theorem runFrom_ready {κ : Type} {poll : κ → Outcome (Poll κ A)} {k : κ} {a : A} (h : poll k = ok (.ready a)) :
    runFrom poll k = ok a := by
  rw [runFrom_eq poll k, h]
  rfl

theorem runFrom_ok {κ : Type} {poll : κ → Outcome (Poll κ A)} {k : κ} {a : A} (h : runFrom poll k = ok a) :
    (∃ k', poll k = ok (.pending k')) ∨ ∃ a, poll k = ok (.ready a) := by
  rw [runFrom_eq] at h
  rcases hp : poll k with (k' | a) | _ | _
  · exact .inl ⟨k', rfl⟩
  · exact .inr ⟨a, rfl⟩
  · rw [hp] at h; cases h
  · rw [hp] at h; cases h

/-- Polled from state `k` on, the future is pending `n` times and then yields `a`. -/
inductive Ends {κ : Type} (poll : κ → Outcome (Poll κ A)) : κ → Nat → A → Prop where
  | ready {k a} : poll k = ok (.ready a) → Ends poll k 0 a
  | pending {k k' n a} : poll k = ok (.pending k') → Ends poll k' n a → Ends poll k (n + 1) a

theorem runFrom_ok_iff {κ : Type} {poll : κ → Outcome (Poll κ A)} {k : κ} {a : A} :
    runFrom poll k = ok a ↔ ∃ n, Ends poll k n a := by
  constructor
  · intro h
    have hf : ∀ n k, loopFuel (runBody poll) n k = ok a → ∃ n, Ends poll k n a := by
      intro n
      induction n with
      | zero => exact fun _ h => nomatch h
      | succ n ih =>
        intro k h
        rw [loopFuel, runBody] at h
        rcases hp : poll k with (k' | a') | _ | _ <;> simp only [hp, bind_ok] at h
        · obtain ⟨m, hm⟩ := ih k' h
          exact ⟨m + 1, .pending hp hm⟩
        · cases h
          exact ⟨0, .ready hp⟩
        · cases h
        · cases h
    by_cases hex : ∃ n, loopFuel (runBody poll) n k ≠ diverge
    · obtain ⟨n, hn⟩ := hex
      rw [runFrom, loop_eq_of_fuel hn] at h
      exact hf n k h
    · unfold runFrom Verif.loop at h
      rw [dif_neg hex] at h
      cases h
  · rintro ⟨n, h⟩
    induction h with
    | ready h => exact runFrom_ready h
    | pending h _ ih => rw [← runFrom_pending h, ih]

theorem run_eq (f : Fut A) : f.run = runFrom f.poll f.start := rfl

theorem runFrom_andThen_inr (f : Fut A) (g : A → Fut B) (a : A) (k : (g a).κ) :
    runFrom (andThenPoll f g) (.inr ⟨a, k⟩) = runFrom (g a).poll k := by
  refine loop_sim (b₁ := runBody (g a).poll) (b₂ := runBody (andThenPoll f g)) (fun k => .inr ⟨a, k⟩) ?_ k
  intro k
  simp only [runBody, andThenPoll, pollIn]
  rcases (g a).poll k with (k' | b) | _ | _ <;> rfl

theorem runFrom_andThen_step (f : Fut A) (g : A → Fut B) (k : f.κ) :
    runFrom (andThenPoll f g) (.inl k) = (f.poll k).bind fun
      | .pending k => runFrom (andThenPoll f g) (.inl k)
      | .ready a => (g a).run := by
  rw [runFrom_eq]
  simp only [andThenPoll, pollIn]
  rcases f.poll k with (k' | a) | _ | _
  · rfl
  · simp only [bind_ok]
    rw [run_eq, runFrom_eq]
    rcases (g a).poll (g a).start with (k' | b) | _ | _
    · exact runFrom_andThen_inr f g a k'
    · rfl
    · rfl
    · rfl
  · rfl
  · rfl

theorem runFrom_andThen_inl (f : Fut A) (g : A → Fut B) (k : f.κ) :
    runFrom (andThenPoll f g) (.inl k) = (runFrom f.poll k).bind fun a => (g a).run := by
  apply Outcome.Le.antisymm
  · apply loop_le
    intro n
    induction n generalizing k with
    | zero => exact .inl rfl
    | succ n ih =>
      rw [loopFuel, runFrom_eq]
      simp only [runBody, andThenPoll, pollIn]
      rcases f.poll k with (k' | a) | _ | _
      · exact ih k'
      · simp only [bind_ok]
        rw [run_eq, runFrom_eq]
        rcases (g a).poll (g a).start with (k' | b) | _ | _
        · simp only [bind_ok]
          rw [← runFrom_andThen_inr f g a k']
          exact le_loop _ n _
        · exact .refl _
        · exact .refl _
        · exact .refl _
      · exact .refl _
      · exact .refl _
  · have h : ∀ n k, ((loopFuel (runBody f.poll) n k).bind fun a => (g a).run).Le (runFrom (andThenPoll f g) (.inl k)) := by
      intro n
      induction n with
      | zero => exact fun _ => .inl rfl
      | succ n ih =>
        intro k
        rw [loopFuel, runFrom_andThen_step, runBody]
        rcases f.poll k with (k' | a) | _ | _
        · exact ih k'
        · exact .refl _
        · exact .refl _
        · exact .refl _
    by_cases hd : ∃ n, loopFuel (runBody f.poll) n k ≠ diverge
    · obtain ⟨n, hn⟩ := hd
      rw [show runFrom f.poll k = _ from loop_eq_of_fuel hn]
      exact h n k
    · left
      have : runFrom f.poll k = diverge := by
        unfold runFrom Verif.loop
        rw [dif_neg hd]
      rw [this]
      rfl

theorem bind_pending {f : Fut A} {g : A → Fut B} {k : f.κ} (h : f.poll f.start = ok (.pending k)) :
    (f >>= g).poll (f >>= g).start = ok (.pending (.inl k)) := by
  show andThenPoll f g (.inl f.start) = _
  rw [andThenPoll, h]
  rfl

/-- Awaiting is sequencing. -/
theorem run_bind (f : Fut A) (g : A → Fut B) : (f >>= g).run = f.run.bind fun a => (g a).run :=
  runFrom_andThen_inl f g f.start

theorem run_bind_congr {f : Fut A} {g : A → Fut B} {o : Outcome A} {p : A → Outcome B} (hf : f.run = o)
    (hg : ∀ a, (g a).run = p a) : (f >>= g).run = (o >>= p) := by
  rw [run_bind, hf, funext hg]
  rfl

theorem run_map (f : A → B) (x : Fut A) : (f <$> x).run = x.run.bind fun a => ok (f a) := by
  show (x >>= fun a => pure (f a)).run = _
  rw [run_bind]
  congr 1
  exact funext fun a => run_pure _

/-- One poll of a loop at a time, of whatever is being awaited. -/
def loopFlat {σ : Type} (body : σ → Fut (Step σ A)) (x : (s : σ) × (body s).κ) : Outcome (Step ((s : σ) × (body s).κ) A) :=
  ((body x.1).poll x.2).bind fun
    | .pending k => ok (.continue ⟨x.1, k⟩)
    | .ready (.continue s) => ok (.continue ⟨s, (body s).start⟩)
    | .ready (.done a) => ok (.done a)

def pollStep {κ : Type} : Poll κ A → Step κ A
  | .pending k => .continue k
  | .ready a => .done a

def stepIn {σ : Type} (body : σ → Fut (Step σ A)) : Step σ A → Step ((s : σ) × (body s).κ) A
  | .continue s => .continue ⟨s, (body s).start⟩
  | .done a => .done a

/-- A loop that awaits is a loop of the completed iterations. -/
theorem run_loop {σ : Type} (body : σ → Fut (Step σ A)) (s : σ) :
    (Fut.loop body s).run = Verif.loop (fun s => (body s).run) s := by
  have h1 : (Fut.loop body s).run = Verif.loop (loopFlat body) ⟨s, (body s).start⟩ := by
    rw [run_eq]
    show Verif.loop (runBody (Verif.loop (loopPollBody body))) ⟨s, (body s).start⟩ = _
    have e : runBody (Verif.loop (loopPollBody body)) = fun x => Verif.loop (fun x => mapDone pollStep (loopPollBody body x)) x := by
      funext x
      rw [← loop_map]
      simp only [runBody]
      rcases Verif.loop (loopPollBody body) x with (k' | a) | _ | _ <;> rfl
    rw [e, loop_flatten]
    congr 1
    funext x
    simp only [flatten, loopPollBody, loopFlat, mapDone]
    rcases (body x.1).poll x.2 with (k' | s' | a) | _ | _ <;> rfl
  have h2 : Verif.loop (fun s => (body s).run) s = Verif.loop (loopFlat body) ⟨s, (body s).start⟩ := by
    have e : Verif.loop (loopFlat body) = Verif.loop (fun x => Verif.loop (fun x => mapDone (stepIn body)
        ((runBody (body x.1).poll x.2).bind fun
          | .continue k => ok (.continue ⟨x.1, k⟩)
          | .done a => ok (.done a))) x) := by
      funext x
      rw [loop_flatten]
      congr 1
      funext x
      simp only [flatten, loopFlat, mapDone, runBody]
      rcases (body x.1).poll x.2 with (k' | s' | a) | _ | _ <;> rfl
    rw [e]
    symm
    refine loop_sim (fun s => (⟨s, (body s).start⟩ : (s : σ) × (body s).κ)) ?_ s
    intro s
    show Verif.loop _ _ = _
    rw [← loop_map, loop_sim (b₁ := runBody (body s).poll) (fun k => (⟨s, k⟩ : (s : σ) × (body s).κ))
      (fun k => by rcases h : runBody (body s).poll k with (k' | a) | _ | _ <;> simp only <;> rfl) (body s).start]
    rw [run]
    rcases Verif.loop (runBody (body s).poll) (body s).start with (s' | a) | _ | _ <;> rfl
  rw [h1, h2]

theorem run_loop_congr {σ : Type} {body : σ → Fut (Step σ A)} {body' : σ → Outcome (Step σ A)} {s : σ}
    (h : ∀ s, (body s).run = body' s) : (Fut.loop body s).run = Verif.loop body' s := by
  rw [run_loop, funext h]

end Fut

end Verif
