import Verif.CodecSpec
import Verif.Model.Proptest

/-!
# Specification vocabulary for the assertion functions of `ufotofu_codec::proptest`
-/

namespace Verif

open Outcome

section

variable {σ I F E T R RC : Type}

/-- The methods of the producer preserve `K`. -/
structure BulkProducer.Keeps (P : BulkProducer σ I F E) (K : σ → Prop) : Prop where
  produce : ∀ s s' r, K s → P.produce s = ok (s', r) → K s'
  slurp : ∀ s s' r, K s → P.slurp s = ok (s', r) → K s'
  exposeItems : ∀ s s' r, K s → P.exposeItems s = ok (s', r) → K s'
  considerProduced : ∀ s k s' r, K s → P.considerProduced s k = ok (s', r) → K s'
  bulkProduce : ∀ s buf s' r, K s → P.bulkProduce s buf = ok (s', r) → K s'

/-- The function changes the state of the producer by calling the methods of the producer only. The type system of Rust sees
to this (the type of the producer is a type parameter of `decode`). -/
def DecodeFn.Uniform (decode : DecodeFn T R) : Prop :=
  ∀ {σ F E : Type} (P : BulkProducer σ UInt8 F E) (K : σ → Prop), P.Keeps K → ∀ s s' r, K s → decode P s = ok (s', r) → K s'

/-- The contracts of `Encodable` and `Decodable` (`/repo/ufotofu_codec/src/encode.rs:15-22`,
`/repo/ufotofu_codec/src/decode.rs:13-19`) for the values that satisfy `dom`: encoding writes `enc x`, decoding accepts the
language `g`, and `enc x` is in this language and decodes to a value equal to `x`. -/
structure BasicContract [BEq T] (dom : T → Prop) (encode : EncodeFn T) (decode : DecodeFn T R) (enc : T → List UInt8)
    (g : Grammar T R) : Prop where
  encodes : EncodesLaw encode enc
  decodes : DecodesLaw decode g
  uniform : decode.Uniform
  inverse : ∀ x, dom x → ∃ y, g.Encoding (enc x) y ∧ x == y

/-- The contract of `DecodableCanonic` (decode.rs:40-50): decoding accepts the language `gc`; nonequal codes decode to nonequal
values; codes also decode via `decode` (whose language is `g`) to the same value; and values are encoded as the code they were
decoded from. -/
structure CanonicContract [BEq T] (decodeCanonic : DecodeFn T RC) (enc : T → List UInt8) (g : Grammar T R) (gc : Grammar T RC) :
    Prop where
  decodes : DecodesLaw decodeCanonic gc
  uniform : decodeCanonic.Uniform
  injective : ∀ bs₁ bs₂ x₁ x₂, gc.Encoding bs₁ x₁ → gc.Encoding bs₂ x₂ → x₁ == x₂ → bs₁ = bs₂
  specialises : ∀ bs x, gc.Encoding bs x → ∃ y, g.Encoding bs y ∧ x == y
  reencodes : ∀ bs x, gc.Encoding bs x → enc x = bs

end

end Verif
