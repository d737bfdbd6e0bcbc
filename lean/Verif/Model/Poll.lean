import Verif.Basic

/-!
# Futures

In the rest of the model, `.await` is sequencing. Here is what it stands for: a future is a state machine that is polled; each
poll either completes it or leaves it pending. An `async` block is put together from the futures that it awaits: polling it polls
the future that it currently awaits; if that is pending then so is the block, and otherwise the block goes on until it comes upon
a future that is pending or until it is done.

Which polls of the futures at the bottom are pending is up to them: their states are arbitrary, and may contain whatever the
environment is going to do.
-/

namespace Verif

open Outcome

/-- `core::task::Poll`; a pending future has a new state. -/
inductive Poll (κ A : Type) where
  | pending (k : κ)
  | ready (a : A)

/-- A future that yields an `A`: its states, its state before the first poll, and `poll`. A poll may panic, or not return. -/
structure Fut (A : Type) : Type 1 where
  κ : Type
  start : κ
  poll : κ → Outcome (Poll κ A)

namespace Fut

variable {A B : Type}

/-- Code that does not await anything. -/
def lift (o : Outcome A) : Fut A where
  κ := Unit
  start := ()
  poll _ := o.bind fun a => ok (.ready a)

/-- Polling a future in a context. -/
def pollIn {κ κ' : Type} (wrap : κ → κ') (o : Outcome (Poll κ A)) (next : A → Outcome (Poll κ' B)) : Outcome (Poll κ' B) :=
  o.bind fun
    | .pending k => ok (.pending (wrap k))
    | .ready a => next a

/-- A poll of `let a = f.await;` followed by `g`. Either `f` is being awaited, or `f` has yielded `a` and the rest is being
executed. -/
def andThenPoll (f : Fut A) (g : A → Fut B) :
    f.κ ⊕ ((a : A) × (g a).κ) → Outcome (Poll (f.κ ⊕ ((a : A) × (g a).κ)) B)
  | .inl k => pollIn .inl (f.poll k) fun a => pollIn (fun k => .inr ⟨a, k⟩) ((g a).poll (g a).start) fun b => ok (.ready b)
  | .inr ⟨a, k⟩ => pollIn (fun k => .inr ⟨a, k⟩) ((g a).poll k) fun b => ok (.ready b)

/-- `let a = f.await;` and then `g`. -/
def andThen (f : Fut A) (g : A → Fut B) : Fut B where
  κ := f.κ ⊕ ((a : A) × (g a).κ)
  start := .inl f.start
  poll := andThenPoll f g

instance : Monad Fut where
  pure a := lift (ok a)
  bind := andThen

instance : MonadLift Outcome Fut where
  monadLift := lift

/-- One iteration of a loop within one poll: the loop awaits something in the iteration that began with `s`. -/
def loopPollBody {σ : Type} (body : σ → Fut (Step σ A)) (x : (s : σ) × (body s).κ) :
    Outcome (Step ((s : σ) × (body s).κ) (Poll ((s : σ) × (body s).κ) A)) :=
  ((body x.1).poll x.2).bind fun
    | .pending k => ok (.done (.pending ⟨x.1, k⟩))
    | .ready (.continue s) => ok (.continue ⟨s, (body s).start⟩)
    | .ready (.done a) => ok (.done (.ready a))

/-- A `loop { .. }` that awaits. Iterations that do not come upon a pending future follow one another within one poll. -/
noncomputable def loop {σ : Type} (body : σ → Fut (Step σ A)) (s : σ) : Fut A where
  κ := (s : σ) × (body s).κ
  start := ⟨s, (body s).start⟩
  poll := Verif.loop (loopPollBody body)

/-- One poll by an executor. -/
def runBody {κ : Type} (poll : κ → Outcome (Poll κ A)) (k : κ) : Outcome (Step κ A) :=
  (poll k).bind fun
    | .pending k => ok (.continue k)
    | .ready a => ok (.done a)

/-- An executor (`pollster::block_on`): polls until the future is completed. -/
noncomputable def run (f : Fut A) : Outcome A := Verif.loop (runBody f.poll) f.start

end Fut

end Verif
