import Verif.Model.Traits

/-!
# Producers and consumers that panic when they are used wrongly

These wrappers are not part of the code. They make "is used only in ways that respect the documented invariants" expressible:
a client that works with the monitored version of every lawful producer (consumer) never breaks the rules. Unlike the
`Invariant` adaptors of the code, they notice every violation.
-/

namespace Verif

open Outcome

/-- `over`: the final value or an error was emitted (or the rules were broken); `exposed`: the number of currently exposed
items or slots. -/
structure Monitored (σ : Type) where
  inner : σ
  over : Bool
  exposed : Nat
  deriving DecidableEq

section

variable {σ I F E : Type}

def Monitored.start (s : σ) : Monitored σ := ⟨s, false, 0⟩

/-- Panics after the last item, if `consider_produced` is called for more items than are currently exposed (or if none are),
and if `bulk_produce` is called with an empty buffer. -/
def monitoredProducer (P : BulkProducer σ I F E) : BulkProducer (Monitored σ) I F E where
  produce s := if s.over then .panic else (P.produce s.inner).bind fun
    | (t, .ok (.inl x)) => ok (⟨t, false, 0⟩, .ok (.inl x))
    | (t, r) => ok (⟨t, true, 0⟩, r)
  slurp s := if s.over then .panic else (P.slurp s.inner).bind fun
    | (t, .ok ()) => ok (⟨t, false, 0⟩, .ok ())
    | (t, r) => ok (⟨t, true, 0⟩, r)
  exposeItems s := if s.over then .panic else (P.exposeItems s.inner).bind fun
    | (t, .ok (.inl xs)) => ok (⟨t, false, xs.length⟩, .ok (.inl xs))
    | (t, r) => ok (⟨t, true, 0⟩, r)
  considerProduced s k := if s.over || s.exposed == 0 || s.exposed < k then .panic else (P.considerProduced s.inner k).bind fun
    | (t, .ok ()) => ok (⟨t, false, s.exposed - k⟩, .ok ())
    | (t, r) => ok (⟨t, true, 0⟩, r)
  bulkProduce s buf := if s.over || buf.isEmpty then .panic else (P.bulkProduce s.inner buf).bind fun
    | (t, .ok (.inl k), buf) => ok (⟨t, false, 0⟩, .ok (.inl k), buf)
    | (t, r, buf) => ok (⟨t, true, 0⟩, r, buf)

/-- Panics after closing or an error, if `consume_slots` is called for more slots than are currently exposed (or if none
are), after writing to slots that are not exposed, and if `bulk_consume` is called with an empty buffer. -/
def monitoredConsumer (C : BulkConsumer σ I F E) : BulkConsumer (Monitored σ) I F E where
  consume s x := if s.over then .panic else (C.consume s.inner x).bind fun
    | (t, .ok ()) => ok (⟨t, false, 0⟩, .ok ())
    | (t, r) => ok (⟨t, true, 0⟩, r)
  close s f := if s.over then .panic else (C.close s.inner f).bind fun
    | (t, r) => ok (⟨t, true, 0⟩, r)
  flush s := if s.over then .panic else (C.flush s.inner).bind fun
    | (t, .ok ()) => ok (⟨t, false, 0⟩, .ok ())
    | (t, r) => ok (⟨t, true, 0⟩, r)
  exposeSlots s := if s.over then .panic else (C.exposeSlots s.inner).bind fun
    | (t, .ok slots) => ok (⟨t, false, slots.length⟩, .ok slots)
    | (t, r) => ok (⟨t, true, 0⟩, r)
  writeSlots s ws := ⟨C.writeSlots s.inner ws, s.over || decide (s.exposed < ws.length), s.exposed⟩
  consumeSlots s k := if s.over || s.exposed == 0 || s.exposed < k then .panic else (C.consumeSlots s.inner k).bind fun
    | (t, .ok ()) => ok (⟨t, false, s.exposed - k⟩, .ok ())
    | (t, r) => ok (⟨t, true, 0⟩, r)
  bulkConsume s buf := if s.over || buf.isEmpty then .panic else (C.bulkConsume s.inner buf).bind fun
    | (t, .ok k) => ok (⟨t, false, 0⟩, .ok k)
    | (t, r) => ok (⟨t, true, 0⟩, r)

end

end Verif
