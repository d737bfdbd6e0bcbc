import Verif.Model.Scramblers
import Verif.Monitor
import Verif.Lemmas.Monitor
import Verif.Lemmas.ProducerScrambler
import Verif.Lemmas.ConsumerScrambler
import Verif.Lemmas.ScramblerProgress
import Verif.Lemmas.ScramblerExact
import Verif.Props.Slices
import Verif.Props.Limit
import Verif.Cases

/-!
# C27, C28, C29: the two `BulkScrambler`s
-/

namespace Verif

open Outcome

section

variable {σ I F E : Type}

/-! ## C27 -/

/-- **C27, all methods except `slurp`.** A `BulkScrambler` around a lawful producer emits the same sequence, for every list of
operations, every positive capacity and every mix of `produce`, `expose_items`/`consider_produced` and `bulk_produce`. -/
theorem producer_scrambler_plays_without_slurp (debug : Bool) {P : BulkProducer σ I F E} {s : σ} {c : Script I F E}
    (h : BulkPlays P s c) (ops : List ScrambleProduce) {cap : Nat} (hcap : 0 < cap) (tmp : Nat → I) :
    BulkPlays (producerScrambler debug P).noSlurp (ProducerScrambler.new s ops cap tmp) c := by
  obtain ⟨R, hR, m, hm⟩ := h
  have hD := EndsIn.trivial P R
  refine ⟨ProducerScrambler.Plays R (fun _ => True) cap, .of_default rfl
    ⟨⟨ProducerScrambler.plays_produce debug hR hD⟩, fun s c hs => ⟨s, .inl ⟨rfl, hs⟩⟩⟩
    (ProducerScrambler.plays_expose debug hR hD) (ProducerScrambler.plays_consider (P := P) debug),
    0, [], ProducerScrambler.ok_new hcap, by simp, .inl ⟨rfl, m, by rw [List.length_nil, Script.drop_zero]; exact hm⟩⟩

example : BulkPlays (producerScrambler true Case.P).noSlurp
    (ProducerScrambler.new (Case.pro (.error "e")) [.slurp, .considerProduced ⟨5, by decide⟩, .produce] 2 (fun _ => 0))
    (Case.script (.error "e")) :=
  producer_scrambler_plays_without_slurp true (Case.plays _) _ (by decide) _

/-- The producer is used only in ways that respect the documented invariants: the same holds if it panics at every violation. -/
theorem producer_scrambler_respects_without_slurp (debug : Bool) {P : BulkProducer σ I F E} {s : σ} {c : Script I F E}
    (h : BulkPlays P s c) (ops : List ScrambleProduce) {cap : Nat} (hcap : 0 < cap) (tmp : Nat → I) :
    BulkPlays (producerScrambler debug (monitoredProducer P)).noSlurp (ProducerScrambler.new (.start s) ops cap tmp) c :=
  producer_scrambler_plays_without_slurp debug h.monitored ops hcap tmp

/-- With no operations given, around a producer that panics if it is misused. -/
example : BulkPlays (producerScrambler true (monitoredProducer (FromSlice.producer Nat))).noSlurp
    (ProducerScrambler.new (.start (FromSlice.new [1, 2, 3])) [] 2 (fun _ => 0))
    (Script.ofList [1, 2, 3] (.ok ())) :=
  producer_scrambler_respects_without_slurp true (from_slice_plays _) _ (by decide) _

/-- **C27, all methods including `slurp`**, for those producers whose `slurp` succeeds even when it is called after the
final value or an error (such calls violate the documented invariants of producers).
`Done` are the states of the producer after the final value or an error.
What is missing compared to C27: the scrambler does call `slurp` of its producer after the end, see
`producer_scrambler_slurp_panics`. -/
theorem producer_scrambler_plays_partial (debug : Bool) {P : BulkProducer σ I F E} {R : σ → Script I F E → Nat → Prop}
    (hP : BulkPlaysLaw P R) {s : σ} {c : Script I F E} {m : Nat} (hs : R s c m) {Done : σ → Prop} (hD : EndsIn P R Done)
    (htol : ∀ s, Done s → ∃ s', P.slurp s = ok (s', .ok ()) ∧ Done s')
    (ops : List ScrambleProduce) {cap : Nat} (hcap : 0 < cap) (tmp : Nat → I) :
    BulkPlays (producerScrambler debug P) (ProducerScrambler.new s ops cap tmp) c :=
  ⟨ProducerScrambler.Plays R Done cap, .of_default rfl
    ⟨⟨ProducerScrambler.plays_produce debug hP hD⟩, ProducerScrambler.plays_slurp debug hP hD htol⟩
    (ProducerScrambler.plays_expose debug hP hD) (ProducerScrambler.plays_consider (P := P) debug),
    0, [], ProducerScrambler.ok_new hcap, by simp, .inl ⟨rfl, m, by rw [List.length_nil, Script.drop_zero]; exact hs⟩⟩

/-- The public type of a `FromSlice`, in builds without the checks: `slurp` does nothing even after the end. -/
example : ∃ (R : FromSlice Nat → Script Nat Unit Empty → Nat → Prop) (m : Nat), BulkPlaysLaw (FromSlice.producer Nat) R ∧
    R (FromSlice.new [1, 2, 3]) (Script.ofList [1, 2, 3] (.ok ())) m ∧
    BulkPlays (producerScrambler true (FromSlice.producer Nat))
      (ProducerScrambler.new (FromSlice.new [1, 2, 3]) [.produce, .slurp] 1 (fun _ => 0)) (Script.ofList [1, 2, 3] (.ok ())) := by
  obtain ⟨R, hR, m, hm⟩ := from_slice_plays [1, 2, 3]
  exact ⟨R, m, hR, hm, producer_scrambler_plays_partial true hR hm (Done := fun _ => True) (EndsIn.trivial _ R)
    (fun s _ => ⟨s, rfl, trivial⟩) _ (by decide) _⟩

/-- In particular for producers whose `slurp` always succeeds. -/
theorem producer_scrambler_plays_partial_of_slurp (debug : Bool) {P : BulkProducer σ I F E} {s : σ} {c : Script I F E}
    (h : BulkPlays P s c) (hslurp : ∀ s, ∃ s', P.slurp s = ok (s', .ok ()))
    (ops : List ScrambleProduce) {cap : Nat} (hcap : 0 < cap) (tmp : Nat → I) :
    BulkPlays (producerScrambler debug P) (ProducerScrambler.new s ops cap tmp) c := by
  obtain ⟨R, hR, m, hm⟩ := h
  refine producer_scrambler_plays_partial debug hR hm (EndsIn.trivial P R) ?_ ops hcap tmp
  intro s _
  obtain ⟨s', h⟩ := hslurp s
  exact ⟨s', h, trivial⟩

/-- Three items through a scrambler with capacity two that alternates between slurping and exposing at most five items. -/
example : BulkPlays (producerScrambler true (FromSlice.producer Nat))
    (ProducerScrambler.new (FromSlice.new [1, 2, 3]) [.slurp, .considerProduced ⟨5, by decide⟩] 2 (fun _ => 0))
    (Script.ofList [1, 2, 3] (.ok ())) :=
  producer_scrambler_plays_partial_of_slurp true (from_slice_plays _) (fun s => ⟨s, rfl⟩) _ (by decide) _

/-- The public type (an `Invariant` around the scrambler), in test builds. -/
theorem producer_scrambler_invariant_plays_partial (debug : Bool) {P : BulkProducer σ I F E} {s : σ} {c : Script I F E}
    (h : BulkPlays P s c) (hslurp : ∀ s, ∃ s', P.slurp s = ok (s', .ok ()))
    (ops : List ScrambleProduce) {cap : Nat} (hcap : 0 < cap) (tmp : Nat → I) :
    BulkPlays (invariantBulkProducer (producerScrambler debug P)) (.new (ProducerScrambler.new s ops cap tmp)) c :=
  producer_invariant_plays (producer_scrambler_plays_partial_of_slurp debug h hslurp ops hcap tmp)

example : BulkPlays (invariantBulkProducer (producerScrambler true (FromSlice.producer Nat)))
    (.new (ProducerScrambler.new (FromSlice.new [1, 2, 3]) [.produce, .slurp] 1 (fun _ => 0))) (Script.ofList [1, 2, 3] (.ok ())) :=
  producer_scrambler_invariant_plays_partial true (from_slice_plays _) (fun s => ⟨s, rfl⟩) _ (by decide) _

/-- **C27 fails for `slurp`.** The scrambler slurps its producer although that has already emitted its final value: around a
producer that emits `1` and then ends (and that panics if it is used after its end), the very first call of `slurp` panics
if the capacity is at least two. The same happens with the public `FromSlice` in test builds. -/
theorem producer_scrambler_slurp_panics (debug : Bool) :
    (producerScrambler debug (monitoredProducer (FromSlice.producer Nat))).slurp
      (ProducerScrambler.new (.start (FromSlice.new [1])) [] 2 (fun _ => 0)) = .panic ∧
    (producerScrambler debug (invariantBulkProducer (FromSlice.producer Nat))).slurp
      (ProducerScrambler.new (.new (FromSlice.new [1])) [] 2 (fun _ => 0)) = .panic := by
  constructor
  · have h : loopFuel (ProducerScrambler.fillBody debug (monitoredProducer (FromSlice.producer Nat))) 3
        (ProducerScrambler.new (.start (FromSlice.new [1])) [] 2 (fun _ => 0)) =
          ok ⟨⟨⟨[1], 1⟩, true, 0⟩, ⟨[1, 0], 0, 1⟩, some (.ok ()), [.produce], 0⟩ := by
      cases debug <;> rfl
    simp only [producerScrambler, ProducerScrambler.slurp, ProducerScrambler.fillQueue, bind_eq]
    rw [loop_eq_of_fuel (n := 3) (by rw [h]; simp), h]
    rfl
  · have h : loopFuel (ProducerScrambler.fillBody debug (invariantBulkProducer (FromSlice.producer Nat))) 3
        (ProducerScrambler.new (.new (FromSlice.new [1])) [] 2 (fun _ => 0)) =
          ok ⟨⟨⟨[1], 1⟩, false, 0⟩, ⟨[1, 0], 0, 1⟩, some (.ok ()), [.produce], 0⟩ := by
      cases debug <;> rfl
    simp only [producerScrambler, ProducerScrambler.slurp, ProducerScrambler.fillQueue, bind_eq]
    rw [loop_eq_of_fuel (n := 3) (by rw [h]; simp), h]
    rfl

/-- Hence C27 in full generality is false. -/
theorem producer_scrambler_not_lawful (debug : Bool) :
    ¬ ∀ (σ : Type) (P : BulkProducer σ Nat Unit Empty) (s : σ) (c : Script Nat Unit Empty) (ops : List ScrambleProduce)
      (cap : Nat) (tmp : Nat → Nat), BulkPlays P s c → 0 < cap →
      BulkPlays (producerScrambler debug P) (ProducerScrambler.new s ops cap tmp) c := by
  intro h
  obtain ⟨R, hR, n, hn⟩ := h _ _ _ _ [] 2 (fun _ => 0) (from_slice_plays [1]).monitored (by decide)
  have hp := (producer_scrambler_slurp_panics debug).1
  obtain ⟨s', ⟨h1, _⟩ | ⟨e, _, h1⟩⟩ := hR.base.slurp _ _ ⟨n, hn⟩
  · rw [hp] at h1; cases h1
  · rw [hp] at h1; cases h1

/-- Positive capacities are necessary: with capacity zero the first call panics, whatever the producer. -/
theorem producer_scrambler_capacity_zero (debug : Bool) (P : BulkProducer σ I F E) (s : σ) (ops : List ScrambleProduce)
    (tmp : Nat → I) :
    (producerScrambler debug P).produce (ProducerScrambler.new s ops 0 tmp) = .panic ∧
    (producerScrambler debug P).exposeItems (ProducerScrambler.new s ops 0 tmp) = .panic := by
  have h : loop (ProducerScrambler.fillBody debug P) (ProducerScrambler.new s ops 0 tmp) =
      ok (ProducerScrambler.new s ops 0 tmp) := by
    rw [loop_unfold]; rfl
  constructor
  · simp only [producerScrambler, ProducerScrambler.produce, ProducerScrambler.fillQueue, bind_eq, h]; rfl
  · simp only [producerScrambler, ProducerScrambler.exposeItems, ProducerScrambler.fillQueue, bind_eq, h]; rfl

/-! ## C28 -/

/-- **C28**, in release builds. A `BulkScrambler` around a consumer, for every list of operations and every positive capacity:
at any time the wrapped consumer has consumed a prefix of what was passed to the scrambler, after each successful `flush` or
`close` all of it (with the final value); it never panics; it reports only errors that `X` allows the wrapped consumer. -/
theorem consumer_scrambler_defers {C : BulkConsumer σ I F E} {D : σ → List I → Option F → Prop} {X : Faults I F E}
    (hX : X.Regular) {s : σ} {l : List I} (h : BulkDefers C D X s l) (ops : List ScrambleConsume) {cap : Nat}
    (hcap : 0 < cap) (tmp : Nat → I) :
    BulkDefers (consumerScrambler false C) (fun s => D s.inner) X (ConsumerScrambler.new s ops cap tmp) l := by
  obtain ⟨R, hR, sl, hs⟩ := h
  exact ⟨_, ConsumerScrambler.law hX hR cap, [], l, [], by simp, ConsumerScrambler.ok_new hcap, sl, hs⟩

/-- Around a consumer that buffers, too. -/
example : BulkDefers (consumerScrambler false Case.B) (fun s => Case.SeenInside s.inner) (Case.policy 5).faults
    (ConsumerScrambler.new (Case.del 5) [.flush, .consumeSlots ⟨5, by decide⟩] 2 (fun _ => 0)) [] :=
  consumer_scrambler_defers (Policy.regular_faults _) (Case.defers 5) _ (by decide) _

/-- **C28** for consumers that consume immediately: errors are those that the policy of the wrapped consumer demands. -/
theorem consumer_scrambler_collects {C : BulkConsumer σ I F E} {D : σ → List I → Option F → Prop} {q : Policy I F E} {s : σ}
    {l : List I} (h : BulkCollects C D q s l) (ops : List ScrambleConsume) {cap : Nat} (hcap : 0 < cap) (tmp : Nat → I) :
    BulkDefers (consumerScrambler false C) (fun s => D s.inner) q.faults (ConsumerScrambler.new s ops cap tmp) l :=
  consumer_scrambler_defers q.regular_faults h.toBulkDefers ops hcap tmp

/-- A scrambler with capacity two around a vector that already contains `7`. -/
example : BulkDefers (consumerScrambler false (IntoVec.consumer Nat))
    (fun t l _ => t.inner.asRef = ok l ∧ t.inner.intoVec = l) (Policy.acceptAll : Policy Nat Unit Empty).faults
    (ConsumerScrambler.new (IntoVec.fromVec [7]) [.flush, .consumeSlots ⟨5, by decide⟩] 2 (fun _ => 0)) [7] :=
  consumer_scrambler_collects (into_vec_collects [7]) _ (by decide) _

/-- The consumer is used only in ways that respect the documented invariants: the same holds if it panics at every violation. -/
theorem consumer_scrambler_respects {C : BulkConsumer σ I F E} {D : σ → List I → Option F → Prop} {X : Faults I F E}
    (hX : X.Regular) {s : σ} {l : List I} (h : BulkDefers C D X s l) (ops : List ScrambleConsume) {cap : Nat}
    (hcap : 0 < cap) (tmp : Nat → I) :
    BulkDefers (consumerScrambler false (monitoredConsumer C)) (fun s => D s.inner.inner) X
      (ConsumerScrambler.new (.start s) ops cap tmp) l :=
  consumer_scrambler_defers hX h.monitored ops hcap tmp

example : BulkDefers (consumerScrambler false (monitoredConsumer Case.B)) (fun s => Case.SeenInside s.inner.inner)
    (Case.policy 5).faults (ConsumerScrambler.new (.start (Case.del 5)) [] 2 (fun _ => 0)) [] :=
  consumer_scrambler_respects (Policy.regular_faults _) (Case.defers 5) _ (by decide) _

/-- The public type (an `Invariant` around the scrambler). -/
theorem consumer_scrambler_invariant_defers {C : BulkConsumer σ I F E} {D : σ → List I → Option F → Prop} {X : Faults I F E}
    (hX : X.Regular) {s : σ} {l : List I} (h : BulkDefers C D X s l) (ops : List ScrambleConsume) {cap : Nat}
    (hcap : 0 < cap) (tmp : Nat → I) :
    BulkDefers (invariantBulkConsumer (consumerScrambler false C)) (fun s => D s.inner.inner) X
      (.new (ConsumerScrambler.new s ops cap tmp)) l :=
  consumer_invariant_defers hX (consumer_scrambler_defers hX h ops hcap tmp)

example : BulkDefers (invariantBulkConsumer (consumerScrambler false Case.C)) (fun s => TestConsumer.Seen s.inner.inner)
    (Case.policy 2).faults (.new (ConsumerScrambler.new (Case.con 2) [.consume, .flush] 3 (fun _ => 0))) [] :=
  consumer_scrambler_invariant_defers (Policy.regular_faults _) (Case.collects 2).toBulkDefers _ (by decide) _

/-- **C28 in terms of histories.** After every history of allowed calls of a scrambler around a consumer with policy `q`. -/
theorem consumer_scrambler_history {C : BulkConsumer σ I F E} {D : σ → List I → Option F → Prop} {q : Policy I F E} {s : σ}
    {l : List I} (h : BulkCollects C D q s l) (ops : List ScrambleConsume) {cap : Nat} (hcap : 0 < cap) (tmp : Nat → I)
    {taken : List I} {s' : ConsumerScrambler σ I} {slots : List I} {ended : Option (ConsumerEnd I F E)}
    (hr : ConsumerRuns (consumerScrambler false C) (ConsumerScrambler.new s ops cap tmp) taken s' slots ended) :
    (ended = none → (∃ d, d <+: l ++ taken ∧ D s'.inner d none) ∧
      (∀ s'', (consumerScrambler false C).flush s' = ok (s'', .ok ()) → D s''.inner (l ++ taken) none) ∧
      (∀ op : ConsumerOp I F, op.Allowed slots → ∃ s'' r, (consumerScrambler false C).call s' slots op = ok (s'', r))) ∧
    (∀ f, ended = some (.closed f) → D s'.inner (l ++ taken) (some f)) ∧
    (∀ e offered, ended = some (.failed e offered) → ∃ d, D s'.inner d none ∧ d <+: l ++ taken ++ offered) := by
  have hd := consumer_scrambler_collects h ops hcap tmp
  refine ⟨?_, ?_, ?_⟩
  · rintro rfl
    exact ⟨deferring_consumer_history q.regular_faults hd hr,
      fun s'' hf => deferring_consumer_flush q.regular_faults hd hr hf,
      fun op hop => deferring_consumer_history_safe q.regular_faults hd hr hop⟩
  · rintro f rfl
    exact deferring_consumer_history q.regular_faults hd hr
  · rintro e offered rfl
    obtain ⟨d, h1, h2, _⟩ := deferring_consumer_errors hd hr
    exact ⟨d, h1, h2⟩

/-- The item `5` is in the buffer of the scrambler. -/
example : ∃ s', ConsumerRuns (consumerScrambler false (IntoVec.consumer Nat))
      (ConsumerScrambler.new (IntoVec.fromVec [7]) [.consume] 1 (fun _ => 0)) [5] s' [] none ∧
    (∃ d, d <+: [7, 5] ∧ s'.inner.asRef = ok d ∧ s'.inner.intoVec = d) ∧
    ∀ s'', (consumerScrambler false (IntoVec.consumer Nat)).flush s' = ok (s'', .ok ()) →
      s''.inner.asRef = ok [7, 5] ∧ s''.inner.intoVec = [7, 5] := by
  have r := (ConsumerRuns.start (C := consumerScrambler false (IntoVec.consumer Nat))
    (s₀ := ConsumerScrambler.new (IntoVec.fromVec [7]) [.consume] 1 (fun _ => 0))).call (op := .consume 5)
    (s' := ⟨IntoVec.fromVec [7], ⟨[5], 0, 1⟩, [.consume], 0⟩) (r := ⟨[5], [], none⟩) trivial rfl
  have h := (consumer_scrambler_history (into_vec_collects [7]) [.consume] (by decide) _ r).1 rfl
  exact ⟨_, r, h.1, h.2.1⟩

/-- **C28, no success too many.** In addition, whatever the wrapped consumer has consumed its policy accepts, and so it does with
the final value. So if the policy refuses one of the items passed to the scrambler, or the final value, then some call up to
and including `close` reports an error. -/
theorem consumer_scrambler_exact {C : BulkConsumer σ I F E} {D : σ → List I → Option F → Prop} {q : Policy I F E} {s : σ}
    {l : List I} (h : BulkCollects C D q s l) (ops : List ScrambleConsume) {cap : Nat} (hcap : 0 < cap) (tmp : Nat → I) :
    BulkDefers (consumerScrambler false C)
      (fun t l' f => D t.inner l' f ∧ q.AcceptedSince l l' ∧ ∀ x, f = some x → q.refuseClose l' x = none) q.faults
      (ConsumerScrambler.new s ops cap tmp) l := by
  obtain ⟨S, hS, sl, hs⟩ := h
  exact consumer_scrambler_collects ⟨_, hS.accepted l, sl, hs, .refl q l⟩ ops hcap tmp

example : BulkDefers (consumerScrambler false (limitBulkConsumer (IntoVec.consumer Nat)))
    (fun t l' f => (t.inner.inner.asRef = ok l' ∧ t.inner.inner.intoVec = l') ∧
      ((Policy.acceptAll : Policy Nat Unit Empty).limit 3).AcceptedSince [7] l' ∧
      ∀ x, f = some x → ((Policy.acceptAll : Policy Nat Unit Empty).limit 3).refuseClose l' x = none)
    ((Policy.acceptAll : Policy Nat Unit Empty).limit 3).faults
    (ConsumerScrambler.new ⟨IntoVec.fromVec [7], 2⟩ [.flush, .consumeSlots ⟨5, by decide⟩] 2 (fun _ => 0)) [7] :=
  consumer_scrambler_exact (limit_collects (into_vec_collects [7]) 2) _ (by decide) _

/-- **C28, no error too early.** An error of `consume` is caused by the items that were passed to the scrambler before, not by
the one passed to this call: the wrapped consumer has consumed `d`, and `q` refuses the next item passed to the scrambler
before this call, or refuses flushing. -/
theorem consumer_scrambler_consume_exact (debug : Bool) {C : BulkConsumer σ I F E} {D : σ → List I → Option F → Prop}
    {q : Policy I F E} {s : σ} {l : List I} (h : BulkCollects C D q s l) (ops : List ScrambleConsume) {cap : Nat} (hcap : 0 < cap)
    (tmp : Nat → I) {taken : List I} {s' s'' : ConsumerScrambler σ I} {slots : List I} {x : I} {e : E}
    (hr : ConsumerRuns (consumerScrambler false C) (ConsumerScrambler.new s ops cap tmp) taken s' slots none)
    (hx : (consumerScrambler debug C).consume s' x = ok (s'', .error e)) :
    ∃ d, D s''.inner d none ∧ q.AcceptedSince l d ∧ d <+: l ++ taken ∧
      ((∃ y, d ++ [y] <+: l ++ taken ∧ q.answer d y = some e) ∨ q.refuseFlush d = some e) := by
  obtain ⟨S, hS, sl, hs⟩ := h
  have hC := (hS.accepted l).toDefers
  obtain ⟨⟨sl', h1⟩, _⟩ := hr.afterDeferring q.regular_faults (ConsumerScrambler.law q.regular_faults hC cap)
    (show ConsumerScrambler.Defers _ cap (ConsumerScrambler.new s ops cap tmp) l [] from
      ⟨l, [], by simp, ConsumerScrambler.ok_new hcap, sl, hs, .refl q l⟩)
  obtain ⟨d, ⟨h2, h3⟩, h4, h5, _⟩ := ConsumerScrambler.consume_exact q.regular_faults hC h1 hx
  exact ⟨d, h4, h5, h2, h3⟩

/-- With capacity one, around a vector with room for one item: the first two items are buffered, and the third call fails
because of the second item. -/
example : ∃ s₁ s₂ s₃, let C := limitBulkConsumer (IntoVec.consumer Nat)
    let s₀ := ConsumerScrambler.new ⟨IntoVec.new, 1⟩ [.consume] 1 (fun _ => 0)
    (consumerScrambler false C).consume s₀ 5 = ok (s₁, .ok ()) ∧ (consumerScrambler false C).consume s₁ 6 = ok (s₂, .ok ()) ∧
    (consumerScrambler false C).consume s₂ 7 = ok (s₃, .error none) ∧
    ∃ d, (s₃.inner.inner.asRef = ok d ∧ s₃.inner.inner.intoVec = d) ∧
      ((Policy.acceptAll : Policy Nat Unit Empty).limit 1).AcceptedSince [] d ∧ d <+: [5, 6] ∧
      ((∃ y, d ++ [y] <+: [5, 6] ∧ ((Policy.acceptAll : Policy Nat Unit Empty).limit 1).answer d y = some none) ∨
        ((Policy.acceptAll : Policy Nat Unit Empty).limit 1).refuseFlush d = some none) := by
  have h1 : (consumerScrambler false (limitBulkConsumer (IntoVec.consumer Nat))).consume
      (ConsumerScrambler.new ⟨IntoVec.new, 1⟩ [.consume] 1 (fun _ => 0)) 5 =
      ok (⟨⟨IntoVec.new, 1⟩, ⟨[5], 0, 1⟩, [.consume], 0⟩, .ok ()) := rfl
  have h2 : (consumerScrambler false (limitBulkConsumer (IntoVec.consumer Nat))).consume
      ⟨⟨IntoVec.new, 1⟩, ⟨[5], 0, 1⟩, [.consume], 0⟩ 6 = ok (⟨⟨⟨[5], 1⟩, 0⟩, ⟨[6], 0, 1⟩, [.consume], 0⟩, .ok ()) := by
    have h : loopFuel (ConsumerScrambler.drainBody false (limitBulkConsumer (IntoVec.consumer Nat))) 2
        ⟨⟨IntoVec.new, 1⟩, ⟨[5], 0, 1⟩, [.consume], 0⟩ = ok (⟨⟨⟨[5], 1⟩, 0⟩, ⟨[5], 0, 0⟩, [.consume], 0⟩, .ok ()) := rfl
    have h' := loop_eq_of_fuel (n := 2) (body := ConsumerScrambler.drainBody false (limitBulkConsumer (IntoVec.consumer Nat)))
      (s := ⟨⟨IntoVec.new, 1⟩, ⟨[5], 0, 1⟩, [.consume], 0⟩) (by rw [h]; simp)
    rw [h] at h'
    have he : (⟨[5], 0, 1⟩ : Fixed Nat).enqueue 6 = ok (⟨[5], 0, 1⟩, some 6) := rfl
    have hd : ConsumerScrambler.drain false (limitBulkConsumer (IntoVec.consumer Nat))
      ⟨⟨IntoVec.new, 1⟩, ⟨[5], 0, 1⟩, [.consume], 0⟩ = ok (⟨⟨⟨[5], 1⟩, 0⟩, ⟨[5], 0, 0⟩, [.consume], 0⟩, .ok ()) := h'
    simp only [consumerScrambler, ConsumerScrambler.consume, bind_eq, he, bind_ok, hd]
    rfl
  have h3 : (consumerScrambler false (limitBulkConsumer (IntoVec.consumer Nat))).consume
      ⟨⟨⟨[5], 1⟩, 0⟩, ⟨[6], 0, 1⟩, [.consume], 0⟩ 7 = ok (⟨⟨⟨[5], 1⟩, 0⟩, ⟨[6], 0, 0⟩, [.consume], 0⟩, .error none) := by
    have h : loopFuel (ConsumerScrambler.drainBody false (limitBulkConsumer (IntoVec.consumer Nat))) 2
        ⟨⟨⟨[5], 1⟩, 0⟩, ⟨[6], 0, 1⟩, [.consume], 0⟩ = ok (⟨⟨⟨[5], 1⟩, 0⟩, ⟨[6], 0, 0⟩, [.consume], 0⟩, .error none) := rfl
    have h' := loop_eq_of_fuel (n := 2) (body := ConsumerScrambler.drainBody false (limitBulkConsumer (IntoVec.consumer Nat)))
      (s := ⟨⟨⟨[5], 1⟩, 0⟩, ⟨[6], 0, 1⟩, [.consume], 0⟩) (by rw [h]; simp)
    rw [h] at h'
    have he : (⟨[6], 0, 1⟩ : Fixed Nat).enqueue 7 = ok (⟨[6], 0, 1⟩, some 7) := rfl
    have hd : ConsumerScrambler.drain false (limitBulkConsumer (IntoVec.consumer Nat))
      ⟨⟨⟨[5], 1⟩, 0⟩, ⟨[6], 0, 1⟩, [.consume], 0⟩ = ok (⟨⟨⟨[5], 1⟩, 0⟩, ⟨[6], 0, 0⟩, [.consume], 0⟩, .error none) := h'
    simp only [consumerScrambler, ConsumerScrambler.consume, bind_eq, he, bind_ok, hd]
    rfl
  refine ⟨_, _, _, h1, h2, h3, ?_⟩
  have r1 := (ConsumerRuns.start (C := consumerScrambler false (limitBulkConsumer (IntoVec.consumer Nat)))
    (s₀ := ConsumerScrambler.new ⟨IntoVec.new, 1⟩ [.consume] 1 (fun _ => 0))).call (op := .consume 5) (r := ⟨[5], [], none⟩) trivial
    (by simp [BulkConsumer.call, h1]; rfl)
  have r2 := r1.call (op := .consume 6) (r := ⟨[6], [], none⟩) trivial (by simp [BulkConsumer.call, h2]; rfl)
  exact consumer_scrambler_consume_exact false (limit_collects into_vec_new_collects 1) [.consume] (by decide) _ r2 h3

/-- A consumer whose `consume` is replaced by `bulk_consume` of one item, otherwise the same. -/
def BulkConsumer.viaSlots (C : BulkConsumer σ I F E) : BulkConsumer σ I F E where
  consume s x := (C.bulkConsume s [x]).bind fun (s, r) => ok (s, r.map fun _ => ())
  close := C.close
  flush := C.flush
  exposeSlots := C.exposeSlots
  writeSlots := C.writeSlots
  consumeSlots := C.consumeSlots
  bulkConsume := C.bulkConsume

/-- **C28 in debug builds, all methods except `consume`.**
What is missing compared to C28: `consume` panics in debug builds when the buffer is full, see
`consumer_scrambler_debug_consume_panics`. -/
theorem consumer_scrambler_debug_defers_partial {C : BulkConsumer σ I F E} {D : σ → List I → Option F → Prop}
    {X : Faults I F E} (hX : X.Regular) {s : σ} {l : List I} (h : BulkDefers C D X s l) (ops : List ScrambleConsume)
    {cap : Nat} (hcap : 0 < cap) (tmp : Nat → I) :
    BulkDefers (consumerScrambler true C).viaSlots (fun s => D s.inner) X (ConsumerScrambler.new s ops cap tmp) l := by
  obtain ⟨R, hR, sl, hs⟩ := h
  have hslots : ∀ s l slots k, ConsumerScrambler.Defers R cap s l slots → slots ≠ [] → k ≤ slots.length → ∃ s',
      ((consumerScrambler true C).viaSlots.consumeSlots s k = ok (s', .ok ()) ∧
        ConsumerScrambler.Defers R cap s' (l ++ slots.take k) (slots.drop k)) ∨
      (∃ e d, (consumerScrambler true C).viaSlots.consumeSlots s k = ok (s', .error e) ∧ X.during (l ++ slots.take k) d e ∧
        D s'.inner d none) := by
    intro s l slots k hs hne hk
    obtain ⟨s', h⟩ := ConsumerScrambler.defers_consumeSlots (C := C) true s l slots k hs hne hk
    exact ⟨s', .inl h⟩
  refine ⟨ConsumerScrambler.Defers R cap, .of_default hX rfl ⟨⟨?_, ?_, ConsumerScrambler.defers_close true hX hR⟩,
    ConsumerScrambler.defers_flush true hX hR⟩ (ConsumerScrambler.defers_expose true hX hR)
    (ConsumerScrambler.defers_write (C := C) true) hslots, [], l, [], by simp, ConsumerScrambler.ok_new hcap, sl, hs⟩
  · rintro s l ⟨slots, d, b, rfl, hok, hR'⟩
    obtain ⟨d', h1, h2⟩ := hR.base.observe _ _ hR'
    exact ⟨d', h1.trans (List.prefix_append _ _), h2⟩
  · rintro s l x ⟨slots, hs⟩
    obtain ⟨s', ⟨k, h0, h1, h2, h3⟩ | ⟨e, d, h1, h2⟩⟩ := bulkConsumeDefault_defers (C := (consumerScrambler true C).viaSlots) hX
      (ConsumerScrambler.defers_expose true hX hR) (ConsumerScrambler.defers_write (C := C) true) hslots s l slots [x] hs (by simp)
    · have hk : k = 1 := by simp only [List.length_singleton] at h1; omega
      subst hk
      have h2' : (consumerScrambler true C).bulkConsume s [x] = ok (s', .ok 1) := h2
      exact ⟨s', .inl ⟨by simp [BulkConsumer.viaSlots, h2', Except.map], h3⟩⟩
    · have h1' : (consumerScrambler true C).bulkConsume s [x] = ok (s', .error e) := h1
      exact ⟨s', .inr ⟨e, d, by simp [BulkConsumer.viaSlots, h1', Except.map], h2⟩⟩

example : BulkDefers (consumerScrambler true (IntoVec.consumer Nat)).viaSlots
    (fun t l _ => t.inner.asRef = ok l ∧ t.inner.intoVec = l) (Policy.acceptAll : Policy Nat Unit Empty).faults
    (ConsumerScrambler.new (IntoVec.fromVec [7]) [] 1 (fun _ => 0)) [7] :=
  consumer_scrambler_debug_defers_partial (Policy.regular_faults _) (into_vec_collects [7]).toBulkDefers _ (by decide) _

/-- **C28 fails in debug builds**: `consume` on a full buffer panics after having emptied the buffer, because of the inverted
`debug_assert!(yay.is_some())`. Here: capacity one, around a vector, second call of `consume`. -/
theorem consumer_scrambler_debug_consume_panics (tmp : Nat → Nat) :
    ∃ s₁, (consumerScrambler true (IntoVec.consumer Nat)).consume (ConsumerScrambler.new IntoVec.new [] 1 tmp) 1 =
        ok (s₁, .ok ()) ∧
      (consumerScrambler true (IntoVec.consumer Nat)).consume s₁ 2 = .panic := by
  refine ⟨⟨IntoVec.new, ⟨[1], 0, 1⟩, [.consume], 0⟩, rfl, ?_⟩
  have h : loopFuel (ConsumerScrambler.drainBody true (IntoVec.consumer Nat)) 2
      ⟨IntoVec.new, ⟨[1], 0, 1⟩, [.consume], 0⟩ = ok (⟨⟨[1], 1⟩, ⟨[1], 0, 0⟩, [.consume], 0⟩, .ok ()) := rfl
  have h' : ConsumerScrambler.drain true (IntoVec.consumer Nat) ⟨IntoVec.new, ⟨[1], 0, 1⟩, [.consume], 0⟩ =
      ok (⟨⟨[1], 1⟩, ⟨[1], 0, 0⟩, [.consume], 0⟩, .ok ()) := by
    rw [ConsumerScrambler.drain, loop_eq_of_fuel (n := 2) (by rw [h]; simp), h]
  show ConsumerScrambler.consume true (IntoVec.consumer Nat) ⟨IntoVec.new, ⟨[1], 0, 1⟩, [.consume], 0⟩ 2 = .panic
  have he : (⟨[1], 0, 1⟩ : Fixed Nat).enqueue 2 = ok (⟨[1], 0, 1⟩, some 2) := rfl
  simp only [ConsumerScrambler.consume, bind_eq, he, bind_ok, h']
  rfl

/-- Positive capacities are necessary: with capacity zero, `consume` reports success but drops the item (in release builds). -/
theorem consumer_scrambler_capacity_zero (C : BulkConsumer σ I F E) (s : σ) (ops : List ScrambleConsume) (tmp : Nat → I)
    (x : I) :
    (consumerScrambler false C).consume (ConsumerScrambler.new s ops 0 tmp) x =
      ok (ConsumerScrambler.new s ops 0 tmp, .ok ()) := by
  have h : ConsumerScrambler.drain false C (ConsumerScrambler.new s ops 0 tmp) =
      ok (ConsumerScrambler.new s ops 0 tmp, .ok ()) := by
    rw [ConsumerScrambler.drain, loop_unfold]; rfl
  have he : (ConsumerScrambler.new s ops 0 tmp).buffer.enqueue x =
    ok ((ConsumerScrambler.new s ops 0 tmp).buffer, some x) := rfl
  simp only [consumerScrambler, ConsumerScrambler.consume, bind_eq, he, bind_ok, h]
  rfl

/-! ## C29 -/

/-- The producer that emits zeros forever, and whose `slurp` fails. -/
def zeros : BulkProducer Unit Nat Unit Nat where
  produce s := ok (s, .ok (.inl 0))
  slurp s := ok (s, .error 1)
  exposeItems s := ok (s, .ok (.inl [0, 0]))
  considerProduced s _ := ok (s, .ok ())

/-- **C29** for producers: after every history of calls, every call of a method of a `BulkScrambler` ends, for every list of
operations, every positive capacity and every wrapped producer whose own methods end (and whose `expose_items` never
returns an empty slice). -/
theorem producer_scrambler_progress (debug : Bool) {P : BulkProducer σ I F E} (hP : P.Returns) (s : σ)
    (ops : List ScrambleProduce) {cap : Nat} (hcap : 0 < cap) (tmp : Nat → I) {handed shown : List I}
    {t : ProducerScrambler σ I F E} {ended : Option (Except E F)}
    (h : ProducerRuns (producerScrambler debug P) (ProducerScrambler.new s ops cap tmp) handed t shown ended)
    {op : ProducerOp I} (hop : op.Allowed shown) : (producerScrambler debug P).call t shown op ≠ diverge := by
  obtain ⟨l, n, hok, hn⟩ := ProducerScrambler.runs_ok debug hP (ProducerScrambler.ok_new hcap) h
  exact ProducerScrambler.call_ends debug hP hok hn hop

/-- Only `Slurp` operations are given (so that `new` appends one `Produce`). -/
example (t : ProducerScrambler Unit Nat Unit Nat) (handed shown : List Nat)
    (h : ProducerRuns (producerScrambler true zeros) (ProducerScrambler.new () [.slurp, .slurp] 3 (fun _ => 0)) handed t shown none) :
    (producerScrambler true zeros).call t shown .produce ≠ diverge :=
  producer_scrambler_progress true ⟨nofun, nofun, nofun, nofun, nofun⟩ () [.slurp, .slurp] (by decide) _ h trivial

/-- The consumer that accepts zeros only. -/
def zeroEater : BulkConsumer Nat Nat Unit Nat where
  consume s x := if x = 0 then ok (s, .ok ()) else ok (s, .error x)
  close s _ := ok (s, .ok ())
  flush s := ok (s, .ok ())
  exposeSlots s := ok (s, .ok [s])
  writeSlots s ws := ws.headD s
  consumeSlots s k := if k = 0 ∨ s = 0 then ok (s, .ok ()) else ok (s, .error s)

/-- **C29** for consumers. -/
theorem consumer_scrambler_progress (debug : Bool) {C : BulkConsumer σ I F E} (hC : C.Returns) (s : σ)
    (ops : List ScrambleConsume) {cap : Nat} (hcap : 0 < cap) (tmp : Nat → I) {taken slots : List I}
    {t : ConsumerScrambler σ I} {ended : Option (ConsumerEnd I F E)}
    (h : ConsumerRuns (consumerScrambler debug C) (ConsumerScrambler.new s ops cap tmp) taken t slots ended)
    {op : ConsumerOp I F} (hop : op.Allowed slots) : (consumerScrambler debug C).call t slots op ≠ diverge := by
  obtain ⟨b, sl, hok, hsl⟩ := ConsumerScrambler.runs_ok debug hC (ConsumerScrambler.ok_new hcap) h
  exact ConsumerScrambler.call_ends debug hC hok hsl hop

example (t : ConsumerScrambler Nat Nat) (taken slots : List Nat)
    (h : ConsumerRuns (consumerScrambler true zeroEater) (ConsumerScrambler.new 0 [.flush] 3 (fun _ => 0)) taken t slots none) :
    (consumerScrambler true zeroEater).call t slots .flush ≠ diverge :=
  consumer_scrambler_progress true ⟨fun s x => by simp only [zeroEater]; split <;> simp, nofun, nofun, nofun, nofun,
    fun s k => by simp only [zeroEater]; split <;> simp⟩ 0 [.flush] (by decide) _ h trivial

/-- Exposing at least one item is necessary: around a producer whose `expose_items` returns an empty slice (which its
documentation forbids) a scrambler that only exposes items never returns. -/
theorem producer_scrambler_empty_slice_diverges (debug : Bool) :
    (producerScrambler debug { zeros with exposeItems := fun s => ok (s, .ok (.inl [])) }).produce
      (ProducerScrambler.new () [.considerProduced ⟨1, by decide⟩] 1 (fun _ => 0)) = diverge := by
  have h : loop (ProducerScrambler.fillBody debug { zeros with exposeItems := fun s => ok (s, .ok (.inl [])) })
      (ProducerScrambler.new () [.considerProduced ⟨1, by decide⟩] 1 (fun _ => 0)) = diverge := by
    refine loop_diverge _ (fun s => s = ProducerScrambler.new () [.considerProduced ⟨1, by decide⟩] 1 (fun _ => 0)) ?_ _ rfl
    rintro _ rfl
    refine ⟨_, ?_, rfl⟩
    cases debug <;> rfl
  simp only [producerScrambler, ProducerScrambler.produce, ProducerScrambler.fillQueue, bind_eq, h]
  rfl

end

end Verif
