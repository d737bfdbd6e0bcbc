import Verif.Model.Traits

/-!
# Specification vocabulary

What it means for a producer to emit a given sequence, and for a consumer to accept a given sequence,
*under every sequence of method calls that the trait documentation allows*. These notions are stated purely
in terms of the answers of the trait methods (`/repo/ufotofu/src/lib.rs:86-537`); they do not mention the
internals of any implementation.
-/

namespace Verif

open Outcome

/-! ## Traces: plain successive calls, for arbitrary producers and consumers -/

/-- Calling `produce` again and again from state `s` yields the items `xs` and ends in state `s'`. -/
inductive Emits {σ I F E : Type} (P : Producer σ I F E) : σ → List I → σ → Prop where
  | nil (s) : Emits P s [] s
  | cons {s s₁ s₂ x xs} : P.produce s = ok (s₁, .ok (.inl x)) → Emits P s₁ xs s₂ → Emits P s (x :: xs) s₂

/-- Calling `consume` with each of `xs` in order from state `s` succeeds every time and ends in state `s'`. -/
inductive Consumes {σ I F E : Type} (C : Consumer σ I F E) : σ → List I → σ → Prop where
  | nil (s) : Consumes C s [] s
  | cons {s s₁ s₂ x xs} : C.consume s x = ok (s₁, .ok ()) → Consumes C s₁ xs s₂ → Consumes C s (x :: xs) s₂

/-! ## Producers -/

/-- The sequence a producer is going to emit: `c n` is the answer to the `n`-th `produce` call
(`ok (inl x)` an item, `ok (inr f)` the final value, `error e` an error). Entries after the first final value
or error are meaningless. A sequence without final value or error is infinite. -/
def Script (I F E : Type) := Nat → Except E (I ⊕ F)

namespace Script

variable {I F E : Type}

/-- The rest of the sequence after `n` answers. -/
def drop (c : Script I F E) (n : Nat) : Script I F E := fun i => c (n + i)

/-- The sequence begins with the items `xs`. -/
def StartsWith (c : Script I F E) (xs : List I) : Prop :=
  ∀ i x, xs[i]? = some x → c i = .ok (.inl x)

/-- The finite sequence of the items `xs`, then the final value or error `last`. -/
def ofList (xs : List I) (last : Except E F) : Script I F E := fun i =>
  match xs[i]? with
  | some x => .ok (.inl x)
  | none => last.map .inr

end Script

section Producers

variable {σ I F E : Type}

/-- `R` relates states to the sequences they will emit, and `produce` respects it: it answers with the first
entry and, if that was an item, moves on to the rest. -/
structure PlaysLaw (P : Producer σ I F E) (R : σ → Script I F E → Prop) : Prop where
  produce : ∀ s c, R s c → ∃ s', P.produce s = ok (s', c 0) ∧ ∀ x, c 0 = .ok (.inl x) → R s' (c.drop 1)

/-- The producer `P` in state `s` emits the sequence `c`. -/
def Plays (P : Producer σ I F E) (s : σ) (c : Script I F E) : Prop := ∃ R, PlaysLaw P R ∧ R s c

/-- As `PlaysLaw`; `slurp` either succeeds without changing the sequence, or reports the error that `produce`
would have reported. -/
structure BufPlaysLaw (P : BufferedProducer σ I F E) (R : σ → Script I F E → Prop) : Prop
    extends PlaysLaw P.toProducer R where
  slurp : ∀ s c, R s c → ∃ s',
    (P.slurp s = ok (s', .ok ()) ∧ R s' c) ∨ (∃ e, c 0 = .error e ∧ P.slurp s = ok (s', .error e))

/-- The buffered producer `P` in state `s` emits the sequence `c`, whatever mix of `produce` and `slurp` is
used. -/
def BufPlays (P : BufferedProducer σ I F E) (s : σ) (c : Script I F E) : Prop :=
  ∃ R, BufPlaysLaw P R ∧ R s c

/-- `R s c n`: state `s` will emit `c`, and the first `n` items of `c` are currently exposed.
* `expose_items` answers with a non-empty list of the next items, or the final value or error if that is next;
* `consider_produced(k)`, for `k` at most the number of exposed items, skips `k` items;
* `bulk_produce` into a non-empty buffer writes a positive number of the next items to the front of the buffer
  (saying nothing about the rest of the buffer), or answers with the final value or error if that is next. -/
structure BulkPlaysLaw (P : BulkProducer σ I F E) (R : σ → Script I F E → Nat → Prop) : Prop where
  base : BufPlaysLaw P.toBufferedProducer (fun s c => ∃ n, R s c n)
  expose : ∀ s c n, R s c n → ∃ s',
    (∃ xs, xs ≠ [] ∧ c.StartsWith xs ∧ P.exposeItems s = ok (s', .ok (.inl xs)) ∧ R s' c xs.length) ∨
    (∃ f, c 0 = .ok (.inr f) ∧ P.exposeItems s = ok (s', .ok (.inr f))) ∨
    (∃ e, c 0 = .error e ∧ P.exposeItems s = ok (s', .error e))
  consider : ∀ s c n k, R s c n → 0 < n → k ≤ n →
    ∃ s', P.considerProduced s k = ok (s', .ok ()) ∧ R s' (c.drop k) (n - k)
  bulkProduce : ∀ s c n buf, R s c n → buf ≠ [] → ∃ s' buf', buf'.length = buf.length ∧
    ((∃ k, 0 < k ∧ k ≤ buf.length ∧ P.bulkProduce s buf = ok (s', .ok (.inl k), buf') ∧
        c.StartsWith (buf'.take k) ∧ ∃ m, R s' (c.drop k) m) ∨
     (∃ f, c 0 = .ok (.inr f) ∧ P.bulkProduce s buf = ok (s', .ok (.inr f), buf')) ∨
     (∃ e, c 0 = .error e ∧ P.bulkProduce s buf = ok (s', .error e, buf')))

/-- The bulk producer `P` in state `s` emits the sequence `c`, whatever mix of `produce`, `slurp`,
`expose_items`/`consider_produced` and `bulk_produce` is used. -/
def BulkPlays (P : BulkProducer σ I F E) (s : σ) (c : Script I F E) : Prop :=
  ∃ R, BulkPlaysLaw P R ∧ ∃ n, R s c n

end Producers

/-! ## Consumers -/

/-- Which inputs a consumer refuses, as a function of everything it has consumed so far.
* `refuse l = some e`: after having consumed exactly `l`, any further item and any request for slots is answered with
  the error `e`, whatever the item;
* `reject l x = some e`: after having consumed exactly `l`, the particular item `x` is answered with `e` (even if the
  consumer did expose slots);
* `refuseFlush l = some e`: flushing after having consumed exactly `l` may fail, and then fails with `e`;
* `refuseClose l f = some e`: closing with `f` after having consumed exactly `l` fails with `e`. -/
structure Policy (I F E : Type) where
  refuse : List I → Option E
  reject : List I → I → Option E := fun _ _ => none
  refuseFlush : List I → Option E := refuse
  refuseClose : List I → F → Option E

namespace Policy

variable {I F E : Type}

/-- The policy of a consumer that accepts everything. -/
def acceptAll : Policy I F E where
  refuse _ := none
  refuseClose _ _ := none

/-- The answer to the item `x` after having consumed exactly `l`. -/
def answer (q : Policy I F E) (l : List I) (x : I) : Option E := (q.refuse l).or (q.reject l x)

/-- After having consumed exactly `l`, all of `xs` will be accepted, one after the other. -/
def Accepts (q : Policy I F E) (l xs : List I) : Prop :=
  ∀ i x, xs[i]? = some x → q.answer (l ++ xs.take i) x = none

/-- After having consumed exactly `l`, the first `i` items of `xs` will be accepted, and then the next item of `xs`
is answered with the error `e`. -/
def FailsAt (q : Policy I F E) (l xs : List I) (i : Nat) (e : E) : Prop :=
  q.Accepts l (xs.take i) ∧ ∃ x, xs[i]? = some x ∧ q.answer (l ++ xs.take i) x = some e

end Policy

section Consumers

variable {σ I F E : Type}

/-- `R s l`: the consumer in state `s` has consumed exactly `l` and is still usable. `D s l f`: an outside
observer of the consumer sees that it has consumed the items `l` and the final value `f` (if any). -/
structure CollectsLaw (C : Consumer σ I F E) (D : σ → List I → Option F → Prop) (q : Policy I F E)
    (R : σ → List I → Prop) : Prop where
  observe : ∀ s l, R s l → D s l none
  consume_ok : ∀ s l x, R s l → q.answer l x = none →
    ∃ s', C.consume s x = ok (s', .ok ()) ∧ R s' (l ++ [x])
  consume_err : ∀ s l x e, R s l → q.answer l x = some e →
    ∃ s', C.consume s x = ok (s', .error e) ∧ D s' l none
  close_ok : ∀ s l f, R s l → q.refuseClose l f = none →
    ∃ s', C.close s f = ok (s', .ok ()) ∧ D s' l (some f)
  close_err : ∀ s l f e, R s l → q.refuseClose l f = some e →
    ∃ s', C.close s f = ok (s', .error e) ∧ D s' l none

/-- The consumer `C` in state `s`, having consumed `l` so far, accepts and refuses exactly according to `q`;
`D` can be observed at all times. -/
def Collects (C : Consumer σ I F E) (D : σ → List I → Option F → Prop) (q : Policy I F E) (s : σ)
    (l : List I) : Prop := ∃ R, CollectsLaw C D q R ∧ R s l

/-- As `CollectsLaw`; `flush` succeeds or reports the error given by the policy. -/
structure BufCollectsLaw (C : BufferedConsumer σ I F E) (D : σ → List I → Option F → Prop) (q : Policy I F E)
    (R : σ → List I → Prop) : Prop extends CollectsLaw C.toConsumer D q R where
  flush : ∀ s l, R s l → ∃ s',
    (C.flush s = ok (s', .ok ()) ∧ R s' l) ∨
    (∃ e, q.refuseFlush l = some e ∧ C.flush s = ok (s', .error e) ∧ D s' l none)

/-- As `Collects`, for any mix of `consume` and `flush`, then `close`. -/
def BufCollects (C : BufferedConsumer σ I F E) (D : σ → List I → Option F → Prop) (q : Policy I F E) (s : σ)
    (l : List I) : Prop := ∃ R, BufCollectsLaw C D q R ∧ R s l

/-- `R s l slots`: as above, and the currently exposed slots contain `slots`.
* `expose_slots` answers with a non-empty list of slots (or refuses);
* writing to the first slots changes exactly those;
* `consume_slots(k)`, for `k` at most the number of exposed slots, is the same as `k` calls of `consume`;
* `bulk_consume` of a non-empty buffer consumes a positive number of its first items, or fails like `consume`. -/
structure BulkCollectsLaw (C : BulkConsumer σ I F E) (D : σ → List I → Option F → Prop) (q : Policy I F E)
    (R : σ → List I → List I → Prop) : Prop where
  base : BufCollectsLaw C.toBufferedConsumer D q (fun s l => ∃ slots, R s l slots)
  expose_ok : ∀ s l slots, R s l slots → q.refuse l = none →
    ∃ s' slots', slots' ≠ [] ∧ C.exposeSlots s = ok (s', .ok slots') ∧ R s' l slots'
  expose_err : ∀ s l slots e, R s l slots → q.refuse l = some e →
    ∃ s', C.exposeSlots s = ok (s', .error e) ∧ D s' l none
  write : ∀ s l slots ws, R s l slots → ws.length ≤ slots.length →
    R (C.writeSlots s ws) l (ws ++ slots.drop ws.length)
  consumeSlots_ok : ∀ s l slots k, R s l slots → slots ≠ [] → k ≤ slots.length →
    q.Accepts l (slots.take k) →
    ∃ s', C.consumeSlots s k = ok (s', .ok ()) ∧ R s' (l ++ slots.take k) (slots.drop k)
  consumeSlots_err : ∀ s l slots k i e, R s l slots → slots ≠ [] → k ≤ slots.length →
    q.FailsAt l (slots.take k) i e →
    ∃ s', C.consumeSlots s k = ok (s', .error e) ∧ D s' (l ++ slots.take i) none
  bulkConsume : ∀ s l slots buf, R s l slots → buf ≠ [] → ∃ s',
    (∃ k, 0 < k ∧ k ≤ buf.length ∧ q.Accepts l (buf.take k) ∧
      C.bulkConsume s buf = ok (s', .ok k) ∧ ∃ slots', R s' (l ++ buf.take k) slots') ∨
    (∃ i e, q.FailsAt l buf i e ∧
      C.bulkConsume s buf = ok (s', .error e) ∧ D s' (l ++ buf.take i) none)

/-- As `Collects`, for any mix of `consume`, `flush`, `expose_slots`/`consume_slots` and `bulk_consume`, then
`close`. -/
def BulkCollects (C : BulkConsumer σ I F E) (D : σ → List I → Option F → Prop) (q : Policy I F E) (s : σ)
    (l : List I) : Prop := ∃ R, BulkCollectsLaw C D q R ∧ ∃ slots, R s l slots

/-- `bulk_consume` fails only if not even the first item is accepted. (`BulkCollectsLaw` also allows it to consume some items
before it fails.) -/
def AllOrFirst (C : BulkConsumer σ I F E) (q : Policy I F E) (R : σ → List I → List I → Prop) : Prop :=
  ∀ s l slots buf s' e, R s l slots → buf ≠ [] → C.bulkConsume s buf = ok (s', .error e) →
    ∃ x xs, buf = x :: xs ∧ q.answer l x = some e

/-! ### Consumers that may delay their effects, so that errors can occur later than the items that caused them

`R s l`: every call so far succeeded and the items passed in are `l`. The observer sees a prefix of `l`. -/

/-- Which errors such a consumer may report.
* `during offered d e`: having been passed `offered` in total, it may fail with `e` after having really consumed `d`;
* `exposing l d e`: after having been passed `l`, exposing slots may fail with `e` after having really consumed `d`;
* `closing l f d e`: after having been passed `l`, closing with `f` may fail with `e` after having really consumed `d`. -/
structure Faults (I F E : Type) where
  during : List I → List I → E → Prop
  exposing : List I → List I → E → Prop
  closing : List I → F → List I → E → Prop

/-- Errors may happen at any time. -/
def Faults.any : Faults I F E where
  during offered d _ := d <+: offered
  exposing l d _ := d <+: l
  closing l _ d _ := d <+: l

/-- Only errors that the policy demands: `e` is its answer to the item that follows `d` among those offered, or to flushing
after `d`, or to exposing slots or closing after all items. -/
def Policy.faults (q : Policy I F E) : Faults I F E where
  during offered d e := d <+: offered ∧ ((∃ x, d ++ [x] <+: offered ∧ q.answer d x = some e) ∨ q.refuseFlush d = some e)
  exposing l d e := d <+: l ∧ ((∃ x, d ++ [x] <+: l ∧ q.answer d x = some e) ∨ q.refuseFlush d = some e ∨
    (d = l ∧ q.refuse l = some e))
  closing l f d e := d <+: l ∧ ((∃ x, d ++ [x] <+: l ∧ q.answer d x = some e) ∨ q.refuseFlush d = some e ∨
    (d = l ∧ q.refuseClose l f = some e))

/-- What every sensible `Faults` satisfies. -/
structure Faults.Regular (X : Faults I F E) : Prop where
  during_prefix : ∀ l d e, X.during l d e → d <+: l
  exposing_prefix : ∀ l d e, X.exposing l d e → d <+: l
  closing_prefix : ∀ l f d e, X.closing l f d e → d <+: l
  mono : ∀ l l' d e, X.during l d e → l <+: l' → X.during l' d e
  exposing_during : ∀ l buf d e, X.exposing l d e → buf ≠ [] → X.during (l ++ buf) d e
  during_exposing : ∀ l d e, X.during l d e → X.exposing l d e
  during_closing : ∀ l f d e, X.during l d e → X.closing l f d e

structure DefersLaw (C : Consumer σ I F E) (D : σ → List I → Option F → Prop) (X : Faults I F E) (R : σ → List I → Prop) :
    Prop where
  observe : ∀ s l, R s l → ∃ d, d <+: l ∧ D s d none
  consume : ∀ s l x, R s l → ∃ s',
    (C.consume s x = ok (s', .ok ()) ∧ R s' (l ++ [x])) ∨
    (∃ e d, C.consume s x = ok (s', .error e) ∧ X.during (l ++ [x]) d e ∧ D s' d none)
  close : ∀ s l f, R s l → ∃ s',
    (C.close s f = ok (s', .ok ()) ∧ D s' l (some f)) ∨
    (∃ e d, C.close s f = ok (s', .error e) ∧ X.closing l f d e ∧ D s' d none)

def Defers (C : Consumer σ I F E) (D : σ → List I → Option F → Prop) (X : Faults I F E) (s : σ) (l : List I) : Prop :=
  ∃ R, DefersLaw C D X R ∧ R s l

/-- After a successful `flush` nothing is delayed any more. -/
structure BufDefersLaw (C : BufferedConsumer σ I F E) (D : σ → List I → Option F → Prop) (X : Faults I F E)
    (R : σ → List I → Prop) : Prop extends DefersLaw C.toConsumer D X R where
  flush : ∀ s l, R s l → ∃ s',
    (C.flush s = ok (s', .ok ()) ∧ R s' l ∧ D s' l none) ∨
    (∃ e d, C.flush s = ok (s', .error e) ∧ X.during l d e ∧ D s' d none)

def BufDefers (C : BufferedConsumer σ I F E) (D : σ → List I → Option F → Prop) (X : Faults I F E) (s : σ) (l : List I) :
    Prop := ∃ R, BufDefersLaw C D X R ∧ R s l

structure BulkDefersLaw (C : BulkConsumer σ I F E) (D : σ → List I → Option F → Prop) (X : Faults I F E)
    (R : σ → List I → List I → Prop) : Prop where
  base : BufDefersLaw C.toBufferedConsumer D X (fun s l => ∃ slots, R s l slots)
  expose : ∀ s l slots, R s l slots → ∃ s',
    (∃ slots', slots' ≠ [] ∧ C.exposeSlots s = ok (s', .ok slots') ∧ R s' l slots') ∨
    (∃ e d, C.exposeSlots s = ok (s', .error e) ∧ X.exposing l d e ∧ D s' d none)
  write : ∀ s l slots ws, R s l slots → ws.length ≤ slots.length →
    R (C.writeSlots s ws) l (ws ++ slots.drop ws.length)
  consumeSlots : ∀ s l slots k, R s l slots → slots ≠ [] → k ≤ slots.length → ∃ s',
    (C.consumeSlots s k = ok (s', .ok ()) ∧ R s' (l ++ slots.take k) (slots.drop k)) ∨
    (∃ e d, C.consumeSlots s k = ok (s', .error e) ∧ X.during (l ++ slots.take k) d e ∧ D s' d none)
  bulkConsume : ∀ s l slots buf, R s l slots → buf ≠ [] → ∃ s',
    (∃ k, 0 < k ∧ k ≤ buf.length ∧ C.bulkConsume s buf = ok (s', .ok k) ∧
      ∃ slots', R s' (l ++ buf.take k) slots') ∨
    (∃ e d, C.bulkConsume s buf = ok (s', .error e) ∧ X.during (l ++ buf) d e ∧ D s' d none)

/-- The bulk consumer `C` in state `s`, to which `l` has been passed so far, never panics; what it has done with the items (as
seen by `D`) is always a prefix of what was passed to it, and is everything after each successful `flush` or `close`; it
fails only as described by `X`; for any mix of method calls. -/
def BulkDefers (C : BulkConsumer σ I F E) (D : σ → List I → Option F → Prop) (X : Faults I F E) (s : σ) (l : List I) : Prop :=
  ∃ R, BulkDefersLaw C D X R ∧ ∃ slots, R s l slots

/-- The same, with errors at any time. -/
abbrev DelaysLaw (C : Consumer σ I F E) (D : σ → List I → Option F → Prop) := DefersLaw C D .any
abbrev Delays (C : Consumer σ I F E) (D : σ → List I → Option F → Prop) := Defers C D .any
abbrev BufDelaysLaw (C : BufferedConsumer σ I F E) (D : σ → List I → Option F → Prop) := BufDefersLaw C D .any
abbrev BufDelays (C : BufferedConsumer σ I F E) (D : σ → List I → Option F → Prop) := BufDefers C D .any
abbrev BulkDelaysLaw (C : BulkConsumer σ I F E) (D : σ → List I → Option F → Prop) := BulkDefersLaw C D .any
abbrev BulkDelays (C : BulkConsumer σ I F E) (D : σ → List I → Option F → Prop) := BulkDefers C D .any

end Consumers

end Verif
