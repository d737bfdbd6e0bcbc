import Verif.CodecSpec
import Verif.Model.Shared

/-!
# Specification vocabulary for shared adaptors
-/

namespace Verif

open Outcome

section

variable {ι σ β Op A : Type} [DecidableEq ι]

/-- A sequential execution: the completed calls, with their answers, one after the other and each without interruption, take
the fields from `b` to `b'` and the shared value from `s` to `s'`. -/
inductive Serial (method : β → Op → SharedMethod σ β A) (b : ι → β) (s : σ) : List (ι × Op × A) → (ι → β) → σ → Prop where
  | nil : Serial method b s [] b s
  | locked {l b₁ s₁ i op run a s₂} : Serial method b s l b₁ s₁ → method (b₁ i) op = .locked run → run s₁ = ok (s₂, a) →
      Serial method b s (l ++ [(i, op, a)]) b₁ s₂
  | immediate {l b₁ s₁ i op x a} : Serial method b s l b₁ s₁ → method (b₁ i) op = .immediate x a →
      Serial method b s (l ++ [(i, op, a)]) (setAt b₁ i x) s₁

/-- An execution in which some futures are dropped in their critical sections: the completed calls `l`, with their answers, and the
dropped calls `d`, one after the other. A dropped call leaves the shared value as it is at the point of suspension. -/
inductive SerialOrDrop (method : β → Op → SharedMethod σ β A) (m : Suspension σ β Op A) (b : ι → β) (s : σ) :
    List (ι × Op × A) → List (ι × Op) → (ι → β) → σ → Prop where
  | nil : SerialOrDrop method m b s [] [] b s
  | locked {l d b₁ s₁ i op run a s₂} : SerialOrDrop method m b s l d b₁ s₁ → method (b₁ i) op = .locked run →
      run s₁ = ok (s₂, a) → SerialOrDrop method m b s (l ++ [(i, op, a)]) d b₁ s₂
  | immediate {l d b₁ s₁ i op x a} : SerialOrDrop method m b s l d b₁ s₁ → method (b₁ i) op = .immediate x a →
      SerialOrDrop method m b s (l ++ [(i, op, a)]) d (setAt b₁ i x) s₁
  | dropped {l d b₁ s₁ i op run k s₂} : SerialOrDrop method m b s l d b₁ s₁ → method (b₁ i) op = .locked run →
      m.Path (m.start (b₁ i) op) s₁ k s₂ → SerialOrDrop method m b s l (d ++ [(i, op)]) b₁ s₂

/-- The calls of task `i` among the completed ones. -/
def callsOf (i : ι) (l : List (ι × Op × A)) : List Op := (l.filter (·.1 = i)).map (·.2.1)

/-- The call that a task has not completed yet. -/
def Phase.current {κ : Type} : Phase κ Op → List Op
  | .idle => []
  | .waiting op => [op]
  | .running op _ => [op]
  | .gone op => [op]

end

/-! ### Encoders -/

section

variable {ι T F E : Type}

/-- The values of the completed `consume` calls, in the order of completion. -/
def consumedValues : List (ι × SharedEncoderOp T F × Except E Unit) → List T
  | [] => []
  | (_, .consume x, _) :: l => x :: consumedValues l
  | (_, .close _, _) :: l => consumedValues l
  | (_, .flush, _) :: l => consumedValues l

/-- Polling writes nothing but the bytes of the value, one after the other. -/
def Suspension.Writes {σ β Op : Type} (m : Suspension σ β Op (Except E Unit)) (D : σ → List UInt8 → Option F → Prop)
    (bytes : β → Op → List UInt8) (C : BulkConsumer σ UInt8 F E) (q : Policy UInt8 F E) : Prop :=
  ∀ b op s l k s₁, BulkCollects C D q s l → m.Path (m.start b op) s k s₁ → ∃ part, part <+: bytes b op ∧ D s₁ (l ++ part) none

/-- Polling writes nothing but the bytes of the value, one after the other, and in between the consumer is as usable as ever. -/
def Suspension.WritesParts {σ β Op : Type} (m : Suspension σ β Op (Except E Unit)) (D : σ → List UInt8 → Option F → Prop)
    (bytes : β → Op → List UInt8) (C : BulkConsumer σ UInt8 F E) (q : Policy UInt8 F E) : Prop :=
  ∀ b op s l k s₁, BulkCollects C D q s l → m.Path (m.start b op) s k s₁ →
    ∃ part, part <+: bytes b op ∧ BulkCollects C D q s₁ (l ++ part)

/-- The bytes `bs` consist of, one after the other and in this order, all the bytes of each of the completed calls `l`, and some of
the first bytes of each of the dropped calls `d`. (`bytes l i op` are the bytes of the call `op` of task `i` after the calls `l`.) -/
inductive WrittenOrDropped {Op A : Type} (bytes : List (ι × Op × A) → ι → Op → List UInt8) :
    List (ι × Op × A) → List (ι × Op) → List UInt8 → Prop where
  | nil : WrittenOrDropped bytes [] [] []
  | written {l d bs i op a} : WrittenOrDropped bytes l d bs →
      WrittenOrDropped bytes (l ++ [(i, op, a)]) d (bs ++ bytes l i op)
  | dropped {l d bs i op part} : WrittenOrDropped bytes l d bs → part <+: bytes l i op →
      WrittenOrDropped bytes l (d ++ [(i, op)]) (bs ++ part)

/-- What a call writes. -/
def opBytes (enc : T → List UInt8) : SharedEncoderOp T F → List UInt8
  | .consume x => enc x
  | .close _ => []
  | .flush => []

variable {B Rel : Type} [DecidableEq ι]

/-- The values relative to which the tasks encode, after the completed calls. -/
def relativeTos (b : ι → B) : List (ι × SharedRelativeEncoderOp T F B × Except E Unit) → ι → B
  | [] => b
  | (i, .setRelativeTo r, _) :: l => relativeTos (setAt b i r) l
  | (_, .consume _, _) :: l => relativeTos b l
  | (_, .close _, _) :: l => relativeTos b l
  | (_, .flush, _) :: l => relativeTos b l

/-- The encodings of the values of the completed `consume` calls, in the order of completion, each relative to the value that the
task in question has set last. -/
def consumedBytes (enc : Rel → T → List UInt8) (borrow : B → Rel) (b : ι → B) :
    List (ι × SharedRelativeEncoderOp T F B × Except E Unit) → List UInt8
  | [] => []
  | (i, .consume x, _) :: l => enc (borrow (b i)) x ++ consumedBytes enc borrow b l
  | (i, .setRelativeTo r, _) :: l => consumedBytes enc borrow (setAt b i r) l
  | (_, .close _, _) :: l => consumedBytes enc borrow b l
  | (_, .flush, _) :: l => consumedBytes enc borrow b l

/-- What a call writes. -/
def relativeOpBytes (enc : Rel → T → List UInt8) (borrow : B → Rel) (b : B) : SharedRelativeEncoderOp T F B → List UInt8
  | .consume x => enc (borrow b) x
  | .close _ => []
  | .flush => []
  | .setRelativeTo _ => []

end

/-! ### Decoders -/

section

variable {ι T R F E : Type}

/-- The answers to the completed `produce` calls, in the order of completion, with the tasks that got them. -/
def producedAnswers {Err : Type} :
    List (ι × SharedDecoderOp × SharedDecoderAnswer T F Err) → List (ι × Except Err (T ⊕ F))
  | [] => []
  | (i, _, .produced r) :: l => (i, r) :: producedAnswers l
  | (_, _, .slurped _) :: l => producedAnswers l
  | (_, _, .unit) :: l => producedAnswers l

/-- No error has been returned by `slurp`. -/
def NoSlurpError {Op Err : Type} (l : List (ι × Op × SharedDecoderAnswer T F Err)) : Prop :=
  ∀ i op e, (i, op, .slurped (.error e)) ∉ l

/-- The final value, or an error of `slurp`. -/
def SharedDecoderAnswer.Ends {Err : Type} : SharedDecoderAnswer T F Err → Prop
  | .produced (.ok (.inr _)) => True
  | .slurped (.error _) => True
  | _ => False

/-- A value, or a success of `slurp` (or of `set_relative_to`). -/
def SharedDecoderAnswer.Continues {Err : Type} : SharedDecoderAnswer T F Err → Prop
  | .produced (.ok (.inl _)) => True
  | .slurped (.ok ()) => True
  | .unit => True
  | _ => False

variable {B Rel : Type} [DecidableEq ι]

/-- The completed calls decode the bytes `c` one after the other, each value relative to what its task has set last; what remains
is `c'`. -/
inductive DecodedRelative (g : Rel → Grammar T R) (borrow : B → Rel) (b : ι → B) (c : Script UInt8 F E) :
    List (ι × SharedRelativeDecoderOp B × SharedDecoderAnswer T F (DecodeError F E R)) → (ι → B) → Script UInt8 F E → Prop where
  | nil : DecodedRelative g borrow b c [] b c
  | value {l b' c' i x k} : DecodedRelative g borrow b c l b' c' → DecodesNext (g (borrow (b' i))) c' (.ok (.inl x)) k →
      DecodedRelative g borrow b c (l ++ [(i, .produce, .produced (.ok (.inl x)))]) b' (c'.drop k)
  | slurp {l b' c' i} : DecodedRelative g borrow b c l b' c' →
      DecodedRelative g borrow b c (l ++ [(i, .slurp, .slurped (.ok ()))]) b' c'
  | set {l b' c' i r} : DecodedRelative g borrow b c l b' c' →
      DecodedRelative g borrow b c (l ++ [(i, .setRelativeTo r, .unit)]) (setAt b' i r) c'

/-- Polling reads no more than a beginning of an encoding, and in between the producer is as usable as ever. -/
def Suspension.ReadsParts {σ β A : Type} (m : Suspension σ β SharedDecoderOp A) (g : Grammar T R)
    (P : BulkProducer σ UInt8 F E) : Prop :=
  ∀ b op s c k s₁, BulkPlays P s c → m.Path (m.start b op) s k s₁ →
    ∃ part, c.StartsWith part ∧ g.Reaches part ∧ (op = .slurp → part = []) ∧ BulkPlays P s₁ (c.drop part.length)

/-- The bytes `bs` consist of, one after the other and in this order, encodings of the values that the completed calls `l` have
answered, and for each of the dropped calls `d` a beginning of an encoding. -/
inductive DecodedOrDropped {Err : Type} (g : Grammar T R) :
    List (ι × SharedDecoderOp × SharedDecoderAnswer T F Err) → List (ι × SharedDecoderOp) → List UInt8 → Prop where
  | nil : DecodedOrDropped g [] [] []
  | value {l d bs i part x} : DecodedOrDropped g l d bs → g.Encoding part x →
      DecodedOrDropped g (l ++ [(i, .produce, .produced (.ok (.inl x)))]) d (bs ++ part)
  | slurp {l d bs i} : DecodedOrDropped g l d bs → DecodedOrDropped g (l ++ [(i, .slurp, .slurped (.ok ()))]) d bs
  | dropped {l d bs i op part} : DecodedOrDropped g l d bs → g.Reaches part → (op = .slurp → part = []) →
      DecodedOrDropped g l (d ++ [(i, op)]) (bs ++ part)

/-- As `Suspension.ReadsParts`, for relative decoders: beginnings of encodings relative to the value that is set. -/
def Suspension.ReadsPartsRelative {σ A : Type} (m : Suspension σ B (SharedRelativeDecoderOp B) A) (g : Rel → Grammar T R)
    (borrow : B → Rel) (P : BulkProducer σ UInt8 F E) : Prop :=
  ∀ b op s c k s₁, BulkPlays P s c → m.Path (m.start b op) s k s₁ →
    ∃ part, c.StartsWith part ∧ (g (borrow b)).Reaches part ∧ (op = .slurp → part = []) ∧ BulkPlays P s₁ (c.drop part.length)

/-- As `DecodedOrDropped`, for relative decoders: each value (and each beginning of a value) relative to what its task has set
last; `b` are the values set at first, `b'` those set now. -/
inductive DecodedRelativeOrDropped {Err : Type} (g : Rel → Grammar T R) (borrow : B → Rel) (b : ι → B) :
    List (ι × SharedRelativeDecoderOp B × SharedDecoderAnswer T F Err) → List (ι × SharedRelativeDecoderOp B) → (ι → B) →
    List UInt8 → Prop where
  | nil : DecodedRelativeOrDropped g borrow b [] [] b []
  | value {l d b' bs i part x} : DecodedRelativeOrDropped g borrow b l d b' bs → (g (borrow (b' i))).Encoding part x →
      DecodedRelativeOrDropped g borrow b (l ++ [(i, .produce, .produced (.ok (.inl x)))]) d b' (bs ++ part)
  | slurp {l d b' bs i} : DecodedRelativeOrDropped g borrow b l d b' bs →
      DecodedRelativeOrDropped g borrow b (l ++ [(i, .slurp, .slurped (.ok ()))]) d b' bs
  | set {l d b' bs i r} : DecodedRelativeOrDropped g borrow b l d b' bs →
      DecodedRelativeOrDropped g borrow b (l ++ [(i, .setRelativeTo r, .unit)]) d (setAt b' i r) bs
  | dropped {l d b' bs i op part} : DecodedRelativeOrDropped g borrow b l d b' bs → (g (borrow (b' i))).Reaches part →
      (op = .slurp → part = []) → DecodedRelativeOrDropped g borrow b l (d ++ [(i, op)]) b' (bs ++ part)

end

end Verif
