import Verif.Spec
import Verif.Model.Codec

/-!
# Specification vocabulary for codecs

The contracts of `Encodable` (`/repo/ufotofu_codec/src/encode.rs:15-27`) and `Decodable`
(`/repo/ufotofu_codec/src/decode.rs:13-30`): the encoding does not depend on the details of the consumer, and the result of
decoding depends on nothing but the bytes and uses none beyond the end of the encoding.
-/

namespace Verif

open Outcome

section

variable {T R : Type}

/-- `encode` writes `enc x` for `x`, whatever the consumer: if the consumer takes all of it, this succeeds; if the consumer
answers one of the bytes with an error, then the bytes before it have been written and the error is returned. With a consumer
that may delay its effects, it succeeds or fails as such a consumer may fail when given `enc x`. -/
structure EncodesLaw (encode : EncodeFn T) (enc : T → List UInt8) : Prop where
  accepted : ∀ {σ F E : Type} {C : BulkConsumer σ UInt8 F E} {D : σ → List UInt8 → Option F → Prop} {q : Policy UInt8 F E}
    {s : σ} {l : List UInt8} (x : T), BulkCollects C D q s l → q.Accepts l (enc x) →
    ∃ s', encode C s x = ok (s', .ok ()) ∧ BulkCollects C D q s' (l ++ enc x)
  refused : ∀ {σ F E : Type} {C : BulkConsumer σ UInt8 F E} {D : σ → List UInt8 → Option F → Prop} {q : Policy UInt8 F E}
    {s : σ} {l : List UInt8} (x : T) {k : Nat} {e : E}, BulkCollects C D q s l → q.FailsAt l (enc x) k e →
    ∃ s', encode C s x = ok (s', .error e) ∧ D s' (l ++ (enc x).take k) none
  deferred : ∀ {σ F E : Type} {C : BulkConsumer σ UInt8 F E} {D : σ → List UInt8 → Option F → Prop} {X : Faults UInt8 F E}
    {s : σ} {l : List UInt8} (x : T), X.Regular → BulkDefers C D X s l → ∃ s',
    (encode C s x = ok (s', .ok ()) ∧ BulkDefers C D X s' (l ++ enc x)) ∨
    (∃ e d, encode C s x = ok (s', .error e) ∧ X.during (l ++ enc x) d e ∧ D s' d none)

/-- What a decoder thinks of the bytes it has read so far. -/
inductive Verdict (T R : Type) where
  | more
  | done (x : T)
  | bad (r : R)
  deriving DecidableEq, Repr

/-- The language of a decoder: its verdict about each byte string. Verdicts about byte strings that have a prefix with a
verdict other than `more` are meaningless. -/
def Grammar (T R : Type) := List UInt8 → Verdict T R

namespace Grammar

/-- More bytes are needed after each strict prefix of `bs`. -/
def Reaches (g : Grammar T R) (bs : List UInt8) : Prop := ∀ k, k < bs.length → g (bs.take k) = .more

/-- `bs` is an encoding of `x`. -/
def Encoding (g : Grammar T R) (bs : List UInt8) (x : T) : Prop := g.Reaches bs ∧ g bs = .done x

/-- `bs` is not (the beginning of) an encoding. -/
def Invalid (g : Grammar T R) (bs : List UInt8) (r : R) : Prop := g.Reaches bs ∧ g bs = .bad r

/-- `bs` is incomplete. -/
def Incomplete (g : Grammar T R) (bs : List UInt8) : Prop := g.Reaches bs ∧ g bs = .more

end Grammar

/-- `decode` decodes the language `g`, whatever the producer: it reads up to the first verdict and returns that, and the
producer continues directly after it; if the producer ends before that, this is reported. -/
structure DecodesLaw (decode : DecodeFn T R) (g : Grammar T R) : Prop where
  value : ∀ {σ F E : Type} {P : BulkProducer σ UInt8 F E} {s : σ} {c : Script UInt8 F E} {bs : List UInt8} {x : T},
    BulkPlays P s c → c.StartsWith bs → g.Encoding bs x →
    ∃ s', decode P s = ok (s', .ok x) ∧ BulkPlays P s' (c.drop bs.length)
  invalid : ∀ {σ F E : Type} {P : BulkProducer σ UInt8 F E} {s : σ} {c : Script UInt8 F E} {bs : List UInt8} {r : R},
    BulkPlays P s c → c.StartsWith bs → g.Invalid bs r → ∃ s', decode P s = ok (s', .error (.other r))
  truncated : ∀ {σ F E : Type} {P : BulkProducer σ UInt8 F E} {s : σ} {c : Script UInt8 F E} {bs : List UInt8} {f : F},
    BulkPlays P s c → c.StartsWith bs → g.Incomplete bs → c bs.length = .ok (.inr f) →
    ∃ s', decode P s = ok (s', .error (.unexpectedEndOfInput f))
  failed : ∀ {σ F E : Type} {P : BulkProducer σ UInt8 F E} {s : σ} {c : Script UInt8 F E} {bs : List UInt8} {e : E},
    BulkPlays P s c → c.StartsWith bs → g.Incomplete bs → c bs.length = .error e →
    ∃ s', decode P s = ok (s', .error (.producer e))

/-- The encodings of a list of values, one after the other. -/
def encodeAll (enc : T → List UInt8) (xs : List T) : List UInt8 := (xs.map enc).flatten

/-! ### Encoders -/

/-- The error with which the consumer answers the first of `xs` that it does not accept. -/
def Policy.firstError {I F E : Type} (q : Policy I F E) : List I → List I → Option E
  | _, [] => none
  | l, x :: xs => (q.answer l x).or (q.firstError (l ++ [x]) xs)

/-- What an encoder refuses: exactly what the consumer of bytes, which has consumed `l` before, refuses. -/
def Policy.encoding {F E : Type} (q : Policy UInt8 F E) (enc : T → List UInt8) (l : List UInt8) : Policy T F E where
  refuse _ := none
  reject xs x := q.firstError (l ++ encodeAll enc xs) (enc x)
  refuseFlush xs := q.refuseFlush (l ++ encodeAll enc xs)
  refuseClose xs f := q.refuseClose (l ++ encodeAll enc xs) f

/-- The consumer of bytes, which had consumed `l` before, has received exactly the encodings of `xs`, and possibly, if it has
not been closed, the beginning of one more encoding. -/
def Encoded {σ F : Type} (D : σ → List UInt8 → Option F → Prop) (enc : T → List UInt8) (l : List UInt8) (s : σ) (xs : List T)
    (fin : Option F) : Prop :=
  D s (l ++ encodeAll enc xs) fin ∨
  fin = none ∧ ∃ x k, k < (enc x).length ∧ D s (l ++ encodeAll enc xs ++ (enc x).take k) none

/-- What an encoder may fail with, if the consumer of bytes may fail as described by `X`. -/
def Faults.encoding {F E : Type} (X : Faults UInt8 F E) (enc : T → List UInt8) : Faults T F E where
  during xs ds e := ds <+: xs ∧ ∃ d, encodeAll enc ds <+: d ∧ X.during (encodeAll enc xs) d e
  exposing xs ds e := ds <+: xs ∧ ∃ d, encodeAll enc ds <+: d ∧ X.exposing (encodeAll enc xs) d e
  closing xs f ds e := ds <+: xs ∧ ∃ d, encodeAll enc ds <+: d ∧ X.closing (encodeAll enc xs) f d e

/-! ### Decoders -/

/-- `r` is the next answer of a decoder for `g` of which the inner producer emits `c`; it uses up `n` items of `c`. -/
inductive DecodesNext {F E : Type} (g : Grammar T R) (c : Script UInt8 F E) :
    Except (DecodeError F E R) (T ⊕ F) → Nat → Prop where
  | value {bs x} : c.StartsWith bs → g.Encoding bs x → DecodesNext g c (.ok (.inl x)) bs.length
  | final {f n} : c 0 = .ok (.inr f) → DecodesNext g c (.ok (.inr f)) n
  | invalid {bs r n} : c.StartsWith bs → g.Invalid bs r → DecodesNext g c (.error (.other r)) n
  | truncated {bs f n} : c.StartsWith bs → bs ≠ [] → g.Incomplete bs → c bs.length = .ok (.inr f) →
      DecodesNext g c (.error (.unexpectedEndOfInput f)) n
  | failed {bs e n} : c.StartsWith bs → g.Incomplete bs → c bs.length = .error e →
      DecodesNext g c (.error (.producer e)) n

/-- `c'` is the sequence that a decoder for `g` must emit if its inner producer emits `c`; the first `n` of its answers use up
`used n` items. -/
def Decodes {F E : Type} (g : Grammar T R) (c : Script UInt8 F E) (c' : Script T F (DecodeError F E R)) (used : Nat → Nat) :
    Prop :=
  used 0 = 0 ∧ ∀ n, (∀ i, i < n → ∃ x, c' i = .ok (.inl x)) →
    ∃ k, DecodesNext g (c.drop (used n)) (c' n) k ∧ used (n + 1) = used n + k

end

end Verif
