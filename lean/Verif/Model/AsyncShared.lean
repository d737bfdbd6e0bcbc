import Verif.Model.Shared
import Verif.Model.AsyncCodec

/-!
# The shared codec adaptors, poll by poll

Model of `/repo/ufotofu_codec/src/adaptors/shared_{encoder,decoder,relative_encoder,relative_decoder}.rs`, as
`Verif/Model/Shared.lean`, for codecs, producers, and consumers whose futures may be pending. The suspension points of the critical
sections, which are arbitrary in `Verif/Model/Shared.lean`, here are where the futures are pending.
-/

namespace Verif.Async

open Outcome

/-- A method of an adaptor with a reference to a mutex around a `σ`. `β` are the other fields of the adaptor. -/
inductive SharedMethod (σ β A : Type) : Type 1 where
  /-- `let mut c = self.inner.write().await;` and then `run`, until the end of the method. -/
  | locked (run : σ → Fut (σ × A))
  /-- A method that does not touch the mutex; it may change the fields of the adaptor. -/
  | immediate (fields : β) (answer : A)

/-- The states of the future of the critical section that has found the value `s` in the mutex. -/
def SharedMethod.κ {σ β A : Type} : SharedMethod σ β A → σ → Type
  | .locked run, s => (run s).κ
  | .immediate _ _, _ => Empty

def SharedMethod.start {σ β A : Type} : (m : SharedMethod σ β A) → (s : σ) → Option (m.κ s)
  | .locked run, s => some (run s).start
  | .immediate _ _, _ => none

def SharedMethod.poll {σ β A : Type} : (m : SharedMethod σ β A) → (s : σ) → m.κ s → Outcome (Poll (m.κ s) (σ × A))
  | .locked run, s => (run s).poll
  | .immediate _ _, _ => nofun

/-- The states of a future within the critical section of a method: either it has the lock but has not been polled since, or it
has been pending; then there are the value that it has found in the mutex, and the state of the rest of the method. -/
structure Critical {σ β Op A : Type} (method : β → Op → SharedMethod σ β A) where
  fields : β
  op : Op
  polled : Option ((s : σ) × (method fields op).κ s)

/-- What is polled next: the rest of the method. If the future has not been polled yet then it works on the value `s` that is in
the mutex. -/
def Critical.current {σ β Op A : Type} {method : β → Op → SharedMethod σ β A} (k : Critical method) (s : σ) :
    Option ((s : σ) × (method k.fields k.op).κ s) :=
  match k.polled with
  | none => ((method k.fields k.op).start s).map fun k => ⟨s, k⟩
  | some x => some x

/-- The critical sections are suspended when their futures are pending. The value in the mutex is changed in place; nobody else
sees it before the call is completed, so nothing is said about what it is in the meantime. -/
def suspension {σ β Op A : Type} (method : β → Op → SharedMethod σ β A) : Suspension σ β Op A where
  κ := Critical method
  start b op := ⟨b, op, none⟩
  step k s k' _ := ∃ x k₁, k.current s = some x ∧ (method k.fields k.op).poll x.1 x.2 = ok (.pending k₁) ∧
    k' = ⟨k.fields, k.op, some ⟨x.1, k₁⟩⟩
  ret k s a s' := ∃ x, k.current s = some x ∧ (method k.fields k.op).poll x.1 x.2 = ok (.ready (s', a))

section Adaptors

variable {σ T R RC Rel B F E : Type}

/-- `/repo/ufotofu_codec/src/adaptors/shared_encoder.rs:12-63` `SharedEncoder<'mutex, C, T>` (no fields but the reference) -/
def sharedEncoder (t : Encodable T) (C : BulkConsumer σ UInt8 F E) (_ : Unit) :
    SharedEncoderOp T F → SharedMethod σ Unit (Except E Unit)
  /- shared_encoder.rs:43-46 -/
  | .consume item => .locked fun c => t.encode C c item
  /- shared_encoder.rs:49-51 -/
  | .close _ => .immediate () (.ok ())
  /- shared_encoder.rs:59-62 -/
  | .flush => .locked fun c => C.flush c

def withAnswer {A A' : Type} (f : A → A') (run : σ → Fut (σ × A)) (s : σ) : Fut (σ × A') := do
  let (s, a) ← run s
  return (s, f a)

/-- `/repo/ufotofu_codec/src/adaptors/shared_decoder.rs:14-65` `SharedDecoder<'mutex, P, T>`; the body of `produce` (after
acquiring the lock) is that of `Decoder::produce`. -/
def sharedDecoder (t : Decodable T R) (P : BulkProducer σ UInt8 F E) (_ : Unit) :
    SharedDecoderOp → SharedMethod σ Unit (SharedDecoderAnswer T F (DecodeError F E R))
  /- shared_decoder.rs:45-53 -/
  | .produce => .locked (withAnswer .produced (decoderProduce t.decode P))
  /- shared_decoder.rs:61-64 -/
  | .slurp => .locked (withAnswer .slurped (decoderSlurp P))

/-- shared_decoder.rs:70-121 `SharedCanonicDecoder<'mutex, P, T>` -/
def sharedCanonicDecoder (t : DecodableCanonic T R RC) (P : BulkProducer σ UInt8 F E) (_ : Unit) :
    SharedDecoderOp → SharedMethod σ Unit (SharedDecoderAnswer T F (DecodeError F E RC))
  /- shared_decoder.rs:101-109 -/
  | .produce => .locked (withAnswer .produced (decoderProduce t.decodeCanonic P))
  /- shared_decoder.rs:117-120 -/
  | .slurp => .locked (withAnswer .slurped (decoderSlurp P))

/-- `/repo/ufotofu_codec/src/adaptors/shared_relative_encoder.rs:11-72` `SharedRelativeEncoder`; the field is `relative_to`. -/
def sharedRelativeEncoder (t : RelativeEncodable T Rel) (borrow : B → Rel) (C : BulkConsumer σ UInt8 F E) (relativeTo : B) :
    SharedRelativeEncoderOp T F B → SharedMethod σ B (Except E Unit)
  /- shared_relative_encoder.rs:50-54 -/
  | .consume item => .locked fun c => t.relativeEncode (borrow relativeTo) C c item
  /- shared_relative_encoder.rs:57-59 -/
  | .close _ => .immediate relativeTo (.ok ())
  /- shared_relative_encoder.rs:68-71 -/
  | .flush => .locked fun c => C.flush c
  /- shared_relative_encoder.rs:33-35 -/
  | .setRelativeTo relative_to => .immediate relative_to (.ok ())

/-- `/repo/ufotofu_codec/src/adaptors/shared_relative_decoder.rs:13-79` `SharedRelativeDecoder` -/
def sharedRelativeDecoder (t : RelativeDecodable T Rel R) (borrow : B → Rel) (P : BulkProducer σ UInt8 F E) (relativeTo : B) :
    SharedRelativeDecoderOp B → SharedMethod σ B (SharedDecoderAnswer T F (DecodeError F E R))
  /- shared_relative_decoder.rs:55-65 -/
  | .produce => .locked (withAnswer .produced (decoderProduce (t.relativeDecode (borrow relativeTo)) P))
  /- shared_relative_decoder.rs:75-78 -/
  | .slurp => .locked (withAnswer .slurped (decoderSlurp P))
  /- shared_relative_decoder.rs:37-39 -/
  | .setRelativeTo relative_to => .immediate relative_to .unit

/-- shared_relative_decoder.rs:84-152 `SharedRelativeCanonicDecoder` -/
def sharedRelativeCanonicDecoder (t : RelativeDecodableCanonic T Rel R RC) (borrow : B → Rel) (P : BulkProducer σ UInt8 F E)
    (relativeTo : B) : SharedRelativeDecoderOp B → SharedMethod σ B (SharedDecoderAnswer T F (DecodeError F E RC))
  /- shared_relative_decoder.rs:127-137 -/
  | .produce => .locked (withAnswer .produced (decoderProduce (t.relativeDecodeCanonic (borrow relativeTo)) P))
  /- shared_relative_decoder.rs:148-151 -/
  | .slurp => .locked (withAnswer .slurped (decoderSlurp P))
  /- shared_relative_decoder.rs:108-110 -/
  | .setRelativeTo relative_to => .immediate relative_to .unit

end Adaptors

end Verif.Async
