import Verif.Model.Codec

/-!
# The shared codec adaptors

Model of `/repo/ufotofu_codec/src/adaptors/shared_{encoder,decoder,relative_encoder,relative_decoder}.rs`.

These adaptors hold a reference to a `wb_async_utils::Mutex`, which is not part of the repository. What is assumed about it: a
task that awaits `write()` gets the lock at some time when nobody has it (nothing is assumed about the order), and has it until
it drops the guard, here at the end of the method. Several tasks run concurrently; each executes its calls one after the other
(the methods take `&mut self`), and each call may be suspended, within the critical section, any number of times and at
arbitrary points. The scheduler is arbitrary. It is allowed to drop the future of a call before it has returned, provided that
the adaptor is not used any more (`/repo/ufotofu/src/lib.rs:33`): `Shared.Step` includes this for futures that await the lock,
`Shared.StepOrDrop` for all futures (the guard is dropped with the future).
-/

namespace Verif

open Outcome

/-- A method of an adaptor with a reference to a mutex around a `σ`. `β` are the other fields of the adaptor. -/
inductive SharedMethod (σ β A : Type) where
  /-- `let mut c = self.inner.write().await;` and then `run`, until the end of the method. `run` does not change the fields of
  the adaptor. -/
  | locked (run : σ → Outcome (σ × A))
  /-- A method that does not touch the mutex; it may change the fields of the adaptor. -/
  | immediate (fields : β) (answer : A)

section Adaptors

variable {σ T R RC Rel B F E : Type}

inductive SharedEncoderOp (T F : Type) where
  | consume (item : T)
  | close (fin : F)
  | flush
  deriving DecidableEq, Repr

/-- `/repo/ufotofu_codec/src/adaptors/shared_encoder.rs:12-63` `SharedEncoder<'mutex, C, T>` (no fields but the reference) -/
def sharedEncoder (t : Encodable T) (C : BulkConsumer σ UInt8 F E) (_ : Unit) :
    SharedEncoderOp T F → SharedMethod σ Unit (Except E Unit)
  /- shared_encoder.rs:43-46 -/
  | .consume item => .locked fun c => t.encode C c item
  /- shared_encoder.rs:49-51 -/
  | .close _ => .immediate () (.ok ())
  /- shared_encoder.rs:59-62 -/
  | .flush => .locked fun c => C.flush c

inductive SharedDecoderOp where
  | produce
  | slurp
  deriving DecidableEq, Repr

/-- What the methods of a decoder return. -/
inductive SharedDecoderAnswer (T F Err : Type) where
  | produced (r : Except Err (T ⊕ F))
  | slurped (r : Except Err Unit)
  /-- `set_relative_to` returns `()` -/
  | unit
  deriving Repr

def withAnswer {A A' : Type} (f : A → A') (run : σ → Outcome (σ × A)) (s : σ) : Outcome (σ × A') := do
  let (s, a) ← run s
  return (s, f a)

/-- `/repo/ufotofu_codec/src/adaptors/shared_decoder.rs:14-65` `SharedDecoder<'mutex, P, T>`; the body of `produce` (after
acquiring the lock) is that of `Decoder::produce`. -/
def sharedDecoder (t : Decodable T R) (P : BulkProducer σ UInt8 F E) (_ : Unit) :
    SharedDecoderOp → SharedMethod σ Unit (SharedDecoderAnswer T F (DecodeError F E R))
  /- shared_decoder.rs:45-53 -/
  | .produce => .locked (withAnswer .produced (decoderProduce t.decode P))
  /- shared_decoder.rs:61-64 -/
  | .slurp => .locked (withAnswer .slurped (decoderSlurp P))

/-- shared_decoder.rs:70-121 `SharedCanonicDecoder<'mutex, P, T>` -/
def sharedCanonicDecoder (t : DecodableCanonic T R RC) (P : BulkProducer σ UInt8 F E) (_ : Unit) :
    SharedDecoderOp → SharedMethod σ Unit (SharedDecoderAnswer T F (DecodeError F E RC))
  /- shared_decoder.rs:101-109 -/
  | .produce => .locked (withAnswer .produced (decoderProduce t.decodeCanonic P))
  /- shared_decoder.rs:117-120 -/
  | .slurp => .locked (withAnswer .slurped (decoderSlurp P))

inductive SharedRelativeEncoderOp (T F B : Type) where
  | consume (item : T)
  | close (fin : F)
  | flush
  | setRelativeTo (relative_to : B)
  deriving DecidableEq, Repr

/-- `/repo/ufotofu_codec/src/adaptors/shared_relative_encoder.rs:11-72` `SharedRelativeEncoder`; the field is `relative_to`. -/
def sharedRelativeEncoder (t : RelativeEncodable T Rel) (borrow : B → Rel) (C : BulkConsumer σ UInt8 F E) (relativeTo : B) :
    SharedRelativeEncoderOp T F B → SharedMethod σ B (Except E Unit)
  /- shared_relative_encoder.rs:50-54 -/
  | .consume item => .locked fun c => t.relativeEncode (borrow relativeTo) C c item
  /- shared_relative_encoder.rs:57-59 -/
  | .close _ => .immediate relativeTo (.ok ())
  /- shared_relative_encoder.rs:68-71 -/
  | .flush => .locked fun c => C.flush c
  /- shared_relative_encoder.rs:33-35 -/
  | .setRelativeTo relative_to => .immediate relative_to (.ok ())

inductive SharedRelativeDecoderOp (B : Type) where
  | produce
  | slurp
  | setRelativeTo (relative_to : B)
  deriving DecidableEq, Repr

/-- `/repo/ufotofu_codec/src/adaptors/shared_relative_decoder.rs:13-79` `SharedRelativeDecoder` -/
def sharedRelativeDecoder (t : RelativeDecodable T Rel R) (borrow : B → Rel) (P : BulkProducer σ UInt8 F E) (relativeTo : B) :
    SharedRelativeDecoderOp B → SharedMethod σ B (SharedDecoderAnswer T F (DecodeError F E R))
  /- shared_relative_decoder.rs:55-65 -/
  | .produce => .locked (withAnswer .produced (decoderProduce (t.relativeDecode (borrow relativeTo)) P))
  /- shared_relative_decoder.rs:75-78 -/
  | .slurp => .locked (withAnswer .slurped (decoderSlurp P))
  /- shared_relative_decoder.rs:37-39 -/
  | .setRelativeTo relative_to => .immediate relative_to .unit

/-- shared_relative_decoder.rs:84-152 `SharedRelativeCanonicDecoder` -/
def sharedRelativeCanonicDecoder (t : RelativeDecodableCanonic T Rel R RC) (borrow : B → Rel) (P : BulkProducer σ UInt8 F E)
    (relativeTo : B) : SharedRelativeDecoderOp B → SharedMethod σ B (SharedDecoderAnswer T F (DecodeError F E RC))
  /- shared_relative_decoder.rs:127-137 -/
  | .produce => .locked (withAnswer .produced (decoderProduce (t.relativeDecodeCanonic (borrow relativeTo)) P))
  /- shared_relative_decoder.rs:148-151 -/
  | .slurp => .locked (withAnswer .slurped (decoderSlurp P))
  /- shared_relative_decoder.rs:108-110 -/
  | .setRelativeTo relative_to => .immediate relative_to .unit

end Adaptors

/-! ## Concurrent execution -/

/-- How the critical sections are split by suspension points: `κ` are the states of the suspended futures. `step k s k' s'`:
polling a future in state `k`, when the shared value is `s`, may leave them in states `k'` and `s'`; `ret k s a s'`: polling may
complete it with answer `a`. These are relations: when something becomes ready is up to the environment. -/
structure Suspension (σ β Op A : Type) where
  κ : Type
  start : β → Op → κ
  step : κ → σ → κ → σ → Prop
  ret : κ → σ → A → σ → Prop

/-- Some polls in sequence. -/
inductive Suspension.Path {σ β Op A : Type} (m : Suspension σ β Op A) : m.κ → σ → m.κ → σ → Prop where
  | refl (k s) : Path m k s k s
  | snoc {k s k₁ s₁ k₂ s₂} : Path m k s k₁ s₁ → m.step k₁ s₁ k₂ s₂ → Path m k s k₂ s₂

/-- Polled to completion without interference, the futures do what the methods do. -/
def Suspension.Implements {σ β Op A : Type} (m : Suspension σ β Op A) (method : β → Op → SharedMethod σ β A) : Prop :=
  ∀ b op run, method b op = .locked run → ∀ s k s₁ a s₂, m.Path (m.start b op) s k s₁ → m.ret k s₁ a s₂ → run s = ok (s₂, a)

/-- What a task is doing. -/
inductive Phase (κ Op : Type) where
  | idle
  /-- awaiting the lock -/
  | waiting (op : Op)
  /-- in the critical section -/
  | running (op : Op) (k : κ)
  /-- the future of the call has been dropped; the adaptor must not be used any more -/
  | gone (op : Op)

def setAt {ι α : Type} [DecidableEq ι] (f : ι → α) (i : ι) (a : α) : ι → α := fun j => if j = i then a else f j

/-- Tasks `ι`, each with its own adaptor (with fields `β`), that share one mutex-protected value. `called` and `finished` record
the history: the calls made by each task, and all completed calls with their answers in the order of completion. -/
structure Shared (ι σ β Op A κ : Type) where
  shared : σ
  owner : Option ι
  fields : ι → β
  phase : ι → Phase κ Op
  called : ι → List Op
  finished : List (ι × Op × A)

def Shared.init {ι σ β Op A κ : Type} (s : σ) (fields : ι → β) : Shared ι σ β Op A κ :=
  ⟨s, none, fields, fun _ => .idle, fun _ => [], []⟩

section Execution

variable {ι σ β Op A : Type} [DecidableEq ι]

/-- One step of some task. -/
inductive Shared.Step (method : β → Op → SharedMethod σ β A) (m : Suspension σ β Op A) :
    Shared ι σ β Op A m.κ → Shared ι σ β Op A m.κ → Prop where
  /-- A task calls a method that needs the lock. -/
  | call {st} (i op run) : st.phase i = .idle → method (st.fields i) op = .locked run →
      Step method m st { st with phase := setAt st.phase i (.waiting op), called := setAt st.called i (st.called i ++ [op]) }
  /-- A task calls a method that does not need the lock. -/
  | immediate {st} (i op b a) : st.phase i = .idle → method (st.fields i) op = .immediate b a →
      Step method m st { st with fields := setAt st.fields i b, called := setAt st.called i (st.called i ++ [op]),
                                 finished := st.finished ++ [(i, op, a)] }
  /-- The mutex gives the lock to one of the waiting tasks. -/
  | acquire {st} (i op) : st.phase i = .waiting op → st.owner = none →
      Step method m st { st with owner := some i, phase := setAt st.phase i (.running op (m.start (st.fields i) op)) }
  /-- The future of a task that awaits the lock is dropped. -/
  | abandon {st} (i op) : st.phase i = .waiting op → Step method m st { st with phase := setAt st.phase i (.gone op) }
  /-- A task in its critical section is polled and suspends itself. -/
  | step {st} (i op k k' s') : st.phase i = .running op k → m.step k st.shared k' s' →
      Step method m st { st with shared := s', phase := setAt st.phase i (.running op k') }
  /-- A task in its critical section is polled and completes its call; the guard is dropped. -/
  | ret {st} (i op k a s') : st.phase i = .running op k → m.ret k st.shared a s' →
      Step method m st { st with shared := s', owner := none, phase := setAt st.phase i .idle,
                                 finished := st.finished ++ [(i, op, a)] }

/-- One step of some task, including that it is dropped in its critical section. -/
inductive Shared.StepOrDrop (method : β → Op → SharedMethod σ β A) (m : Suspension σ β Op A) :
    Shared ι σ β Op A m.κ → Shared ι σ β Op A m.κ → Prop where
  | step {st st'} : Shared.Step method m st st' → StepOrDrop method m st st'
  | drop {st} (i op k) : st.phase i = .running op k →
      StepOrDrop method m st { st with owner := none, phase := setAt st.phase i (.gone op) }

/-- Everything that can happen if futures can be dropped in their critical section. -/
inductive Shared.ReachableOrDrop (method : β → Op → SharedMethod σ β A) (m : Suspension σ β Op A)
    (st₀ : Shared ι σ β Op A m.κ) : Shared ι σ β Op A m.κ → Prop where
  | refl : ReachableOrDrop method m st₀ st₀
  | snoc {st st'} : ReachableOrDrop method m st₀ st → Shared.StepOrDrop method m st st' → ReachableOrDrop method m st₀ st'

/-- Everything that can happen. -/
inductive Shared.Reachable (method : β → Op → SharedMethod σ β A) (m : Suspension σ β Op A) (st₀ : Shared ι σ β Op A m.κ) :
    Shared ι σ β Op A m.κ → Prop where
  | refl : Reachable method m st₀ st₀
  | snoc {st st'} : Reachable method m st₀ st → Shared.Step method m st st' → Reachable method m st₀ st'

end Execution

end Verif
