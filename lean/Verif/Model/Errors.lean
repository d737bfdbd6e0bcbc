import Verif.Model.Traits
import Verif.Model.Codec

/-!
# `Display`, `Error::source` and `into_reason` of the error types

`/repo/ufotofu/src/errors.rs`. A `&dyn Error` is a reference to one of the payloads, given as a sum. `{}` of a `usize` is
`toString`.
-/

namespace Verif

namespace PipeError

variable {E₁ E₂ : Type}

/-- errors.rs:17-34 -/
def display : PipeError E₁ E₂ → String
  | .producer _ => "Failed to pipe a producer into a consumer, because the producer emitted an error"
  | .consumer _ => "Failed to pipe a producer into a consumer, because the consumer emitted an error"

/-- errors.rs:36-48 -/
def source : PipeError E₁ E₂ → Option (E₁ ⊕ E₂)
  | .producer err => some (.inl err)
  | .consumer err => some (.inr err)

end PipeError

namespace ConsumeAtLeastError

variable {E : Type}

/-- errors.rs:62-69 -/
def source (self : ConsumeAtLeastError E) : Option E := some self.reason

/-- errors.rs:71-79 -/
def display (self : ConsumeAtLeastError E) : String :=
  "The consumer failed to consume sufficiently many items, it only consumed " ++ toString self.count ++ " items"

/-- errors.rs:81-86 -/
def intoReason (self : ConsumeAtLeastError E) : E := self.reason

end ConsumeAtLeastError

namespace ProduceAtLeastError

variable {F E : Type}

/-- errors.rs:100-111 -/
def source (self : ProduceAtLeastError F E) : Option E :=
  match self.reason with
  | .inl _ => none
  | .inr err => some err

/-- errors.rs:113-124 -/
def display (self : ProduceAtLeastError F E) : String :=
  match self.reason with
  | .inl _ =>
    "The producer was unable to produce sufficiently many items due to emitting its final item, it stopped after producing "
      ++ toString self.count ++ " items"
  | .inr _ =>
    "The producer was unable to produce sufficiently many items due to an error, it stopped after producing "
      ++ toString self.count ++ " items"

/-- errors.rs:126-131 -/
def intoReason (self : ProduceAtLeastError F E) : F ⊕ E := self.reason

end ProduceAtLeastError

end Verif
