import Verif.History
import Verif.Model.Io
import Verif.Model.Shared

/-!
# Calls after the end

No method of a producer may be called any more once it has returned the final value or an error (`/repo/ufotofu/src/lib.rs:305-321,
411, 433-452`). What happens if it is called nonetheless is not documented. A producer *rests* if it repeats its last value.
-/

namespace Verif

open Outcome

section

variable {σ I F E : Type}

/-- In the states `R` the producer answers every call of `produce` with its last value, and stays in these states. -/
structure RestsLaw (P : Producer σ I F E) (last : Except E F) (R : σ → Prop) : Prop where
  produce : ∀ s, R s → ∃ s', P.produce s = ok (s', last.map .inr) ∧ R s'

/-- The producer answers every further call with `last`. -/
def Rests (P : Producer σ I F E) (s : σ) (last : Except E F) : Prop := ∃ R, RestsLaw P last R ∧ R s

/-- As `RestsLaw`; `slurp` succeeds, or reports the last value if that is an error. -/
structure BufRestsLaw (P : BufferedProducer σ I F E) (last : Except E F) (R : σ → Prop) : Prop
    extends RestsLaw P.toProducer last R where
  slurp : ∀ s, R s → ∃ s', (P.slurp s = ok (s', .ok ()) ∨ ∃ e, last = .error e ∧ P.slurp s = ok (s', .error e)) ∧ R s'

/-- The buffered producer answers every further call with `last`; `slurp` succeeds or reports `last`. -/
def BufRests (P : BufferedProducer σ I F E) (s : σ) (last : Except E F) : Prop := ∃ R, BufRestsLaw P last R ∧ R s

/-- As `BufRestsLaw`; also `expose_items` and `bulk_produce` (which keeps the length of the buffer) answer with the last value. -/
structure BulkRestsLaw (P : BulkProducer σ I F E) (last : Except E F) (R : σ → Prop) : Prop
    extends BufRestsLaw P.toBufferedProducer last R where
  expose : ∀ s, R s → ∃ s', P.exposeItems s = ok (s', last.map .inr) ∧ R s'
  bulkProduce : ∀ s buf, R s → ∃ s' buf', P.bulkProduce s buf = ok (s', last.map .inr, buf') ∧ buf'.length = buf.length ∧ R s'

/-- The bulk producer answers every further call with `last`; `slurp` succeeds or reports `last`. -/
def BulkRests (P : BulkProducer σ I F E) (s : σ) (last : Except E F) : Prop := ∃ R, BulkRestsLaw P last R ∧ R s

/-- Whenever `produce` has been called until it returned a final value, the producer rests. -/
def EndsResting (P : Producer σ I F E) (s : σ) : Prop :=
  ∀ xs s₁ s₂ f, Emits P s xs s₁ → P.produce s₁ = ok (s₂, .ok (.inr f)) → Rests P s₂ (.ok f)

/-- Whenever a history of allowed calls has ended, with a final value or an error, the producer rests. -/
def BulkEndsResting (P : BulkProducer σ I F E) (s : σ) : Prop :=
  ∀ handed s' shown last, ProducerRuns P s handed s' shown (some last) → BulkRests P s' last

/-- Calling `produce` again and again, also after the end, yields the answers `rs`. -/
inductive Asked (P : Producer σ I F E) : σ → List (Except E (I ⊕ F)) → σ → Prop where
  | nil (s) : Asked P s [] s
  | cons {s s₁ s₂ r rs} : P.produce s = ok (s₁, r) → Asked P s₁ rs s₂ → Asked P s (r :: rs) s₂

/-- The answers of a shared decoder that has reported the final value: `produce` reports it again, `slurp` succeeds. -/
def AnswersOver {T R : Type} (f : F) (a : SharedDecoderAnswer T F (DecodeError F E R)) : Prop :=
  a = .produced (.ok (.inr f)) ∨ a = .slurped (.ok ()) ∨ a = .unit

end

/-- The reader has reached the end of the file, and the file does not grow: all further calls of `read` read nothing. -/
def AsyncRead.AtEnd {ρ : Type} (Rd : AsyncRead ρ) (r : ρ) : Prop :=
  ∃ S : ρ → Prop, S r ∧ ∀ r buf, S r → ∃ r' buf', Rd.read r buf = ok (r', .ok 0, buf') ∧ buf'.length = buf.length ∧ S r'

/-- The same for buffered readers. -/
def AsyncBufRead.AtEnd {ρ : Type} (Rd : AsyncBufRead ρ) (r : ρ) : Prop :=
  ∃ S : ρ → Prop, S r ∧ (∀ r buf, S r → ∃ r' buf', Rd.read r buf = ok (r', .ok 0, buf') ∧ buf'.length = buf.length ∧ S r') ∧
    ∀ r, S r → ∃ r', Rd.fillBuf r = ok (r', .ok []) ∧ S r'

end Verif
