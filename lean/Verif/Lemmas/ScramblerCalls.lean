import Verif.ScramblerCallsSpec
import Verif.Lemmas.Calls
import Verif.Lemmas.Proptest
import Verif.Lemmas.ScramblerProgress
import Verif.Model.Producers
import Verif.Model.Consumers

/-!
# Which methods scramblers call
-/

namespace Verif

open Outcome

/-- If the outcome is a value, then it satisfies `Q`. -/
def Outcome.When {α : Type u} (Q : α → Prop) (o : Outcome α) : Prop := ∀ a, o = ok a → Q a

namespace Outcome

theorem When.bind {α : Type u} {β : Type v} {Q : α → Prop} {Q' : β → Prop} {o : Outcome α} {f : α → Outcome β} (h : o.When Q)
    (hf : ∀ a, Q a → (f a).When Q') : (o.bind f).When Q' := by
  intro b hb
  cases o with
  | ok a => exact hf a (h a rfl) b hb
  | panic => cases hb
  | diverge => cases hb

theorem When.pure {α : Type u} {Q : α → Prop} {a : α} (h : Q a) : (ok a).When Q := by rintro _ ⟨⟩; exact h

theorem When.ite {α : Type u} {Q : α → Prop} {c : Prop} [Decidable c] {o₁ o₂ : Outcome α} (h1 : c → o₁.When Q)
    (h2 : ¬ c → o₂.When Q) : (if c then o₁ else o₂).When Q := by
  by_cases hc : c
  · rw [if_pos hc]; exact h1 hc
  · rw [if_neg hc]; exact h2 hc

theorem when_true {α : Type u} {o : Outcome α} : o.When fun _ => True := fun _ _ => trivial

theorem When.loop {σ ρ : Type} {body : σ → Outcome (Step σ ρ)} (Inv : σ → Prop) (Post : ρ → Prop)
    (h : ∀ s, Inv s → (body s).When fun r => match r with | .continue s' => Inv s' | .done r => Post r) {s : σ} (hs : Inv s) :
    (Verif.loop body s).When Post :=
  fun _ hr => loop_keeps Inv Post (fun s s' hi hb => h s hi _ hb) (fun s r hi hb => h s hi _ hb) hs hr

end Outcome

section

variable {σ I F E : Type}

theorem producerRuns_iff {P : BulkProducer σ I F E} {s₀ s : σ} {handed shown : List I} {ended : Option (Except E F)} :
    ProducerRuns P s₀ handed s shown ended ↔ ∃ ops, ProducerRunsBy P s₀ ops handed s shown ended := by
  constructor
  · intro h
    induction h with
    | start => exact ⟨_, .start⟩
    | call _ ha hc ih => obtain ⟨ops, h⟩ := ih; exact ⟨_, .call h ha hc⟩
  · rintro ⟨ops, h⟩
    induction h with
    | start => exact .start
    | call _ ha hc ih => exact .call ih ha hc

theorem consumerRuns_iff {C : BulkConsumer σ I F E} {s₀ s : σ} {taken slots : List I} {ended : Option (ConsumerEnd I F E)} :
    ConsumerRuns C s₀ taken s slots ended ↔ ∃ ops, ConsumerRunsBy C s₀ ops taken s slots ended := by
  constructor
  · intro h
    induction h with
    | start => exact ⟨_, .start⟩
    | call _ ha hc ih => obtain ⟨ops, h⟩ := ih; exact ⟨_, .call h ha hc⟩
  · rintro ⟨ops, h⟩
    induction h with
    | start => exact .start
    | call _ ha hc ih => exact .call ih ha hc

/-! ## `Invariant` -/

theorem invariant_considerProduced {P : BulkProducer σ I F E} {t t' : InvariantSt σ} {k : Nat} {r : Except E Unit}
    (h : (invariantBulkProducer P).considerProduced t k = ok (t', r)) : P.considerProduced t.inner k = ok (t'.inner, r) := by
  obtain ⟨t, a, n⟩ := t
  cases a
  · cases h
  · simp only [invariantBulkProducer, bind_eq, InvariantSt.checkInactive, assert, if_true, bind_ok] at h
    split at h
    · cases h
    · rename_i hk
      rw [sub, if_pos (Nat.le_of_not_lt hk)] at h
      rcases hp : P.considerProduced t k with ⟨s, r⟩ | _ | _ <;> simp only [bind_ok, hp] at h <;> cases h
      rfl

theorem invariant_exposeItems {P : BulkProducer σ I F E} {t t' : InvariantSt σ} {r : Except E (List I ⊕ F)}
    (h : (invariantBulkProducer P).exposeItems t = ok (t', r)) : P.exposeItems t.inner = ok (t'.inner, r) := by
  obtain ⟨t, a, n⟩ := t
  cases a
  · cases h
  · simp only [invariantBulkProducer, bind_eq, InvariantSt.checkInactive, assert, if_true, bind_ok] at h
    rcases hp : P.exposeItems t with ⟨s, e | x | f⟩ | _ | _ <;> rw [hp] at h <;> cases h <;> rfl

/-- Every call that `Invariant` lets pass is one of the wrapped producer, with the same answer. -/
theorem invariantProducer_call {P : BulkProducer σ I F E} (hP : P.bulkProduce = bulkProduceDefault P.exposeItems P.considerProduced)
    {t t' : InvariantSt σ} {shown : List I} {op : ProducerOp I} {r : Handout I F E}
    (h : (invariantBulkProducer P).call t shown op = ok (t', r)) : P.call t.inner shown op = ok (t'.inner, r) := by
  cases op with
  | produce =>
    obtain ⟨t, a, n⟩ := t
    cases a
    · cases h
    · simp only [BulkProducer.call, invariantBulkProducer, invariantBufferedProducer, invariantProducer, bind_eq,
        InvariantSt.checkInactive, assert, if_true, bind_ok] at h
      simp only [BulkProducer.call]
      rcases hp : P.produce t with ⟨s, e | x | f⟩ | _ | _ <;> rw [hp] at h <;> cases h <;> rfl
  | slurp =>
    obtain ⟨t, a, n⟩ := t
    cases a
    · cases h
    · simp only [BulkProducer.call, invariantBulkProducer, invariantBufferedProducer, bind_eq,
        InvariantSt.checkInactive, assert, if_true, bind_ok] at h
      simp only [BulkProducer.call]
      rcases hp : P.slurp t with ⟨s, e | ⟨⟩⟩ | _ | _ <;> rw [hp] at h <;> cases h <;> rfl
  | exposeItems =>
    simp only [BulkProducer.call] at h ⊢
    rcases hp : (invariantBulkProducer P).exposeItems t with ⟨s, e | x | f⟩ | _ | _ <;> rw [hp] at h <;> cases h <;>
      rw [invariant_exposeItems hp] <;> rfl
  | considerProduced k =>
    simp only [BulkProducer.call] at h ⊢
    rcases hp : (invariantBulkProducer P).considerProduced t k with ⟨s, e | ⟨⟩⟩ | _ | _ <;> rw [hp] at h <;> cases h <;>
      rw [invariant_considerProduced hp] <;> rfl
  | bulkProduce buf =>
    simp only [BulkProducer.call] at h ⊢
    rw [hP]
    rw [show (invariantBulkProducer P).bulkProduce = bulkProduceDefault (invariantBulkProducer P).exposeItems
      (invariantBulkProducer P).considerProduced from rfl] at h
    simp only [bulkProduceDefault, bind_eq] at h ⊢
    rcases hp : (invariantBulkProducer P).exposeItems t with ⟨s, e | x | f⟩ | _ | _ <;> rw [hp] at h
    · cases h; rw [invariant_exposeItems hp]; rfl
    · rw [invariant_exposeItems hp]
      simp only [bind_ok] at h ⊢
      rcases hq : (invariantBulkProducer P).considerProduced s (min x.length buf.length) with ⟨s, e | ⟨⟩⟩ | _ | _ <;> rw [hq] at h <;>
        cases h <;> rw [invariant_considerProduced hq] <;> rfl
    · cases h; rw [invariant_exposeItems hp]; rfl
    · cases h
    · cases h

theorem ProducerRunsBy.ofInvariant {P : BulkProducer σ I F E}
    (hP : P.bulkProduce = bulkProduceDefault P.exposeItems P.considerProduced) {t₀ t : InvariantSt σ} {ops : List (ProducerOp I)}
    {handed shown : List I} {ended : Option (Except E F)} (h : ProducerRunsBy (invariantBulkProducer P) t₀ ops handed t shown ended) :
    ProducerRunsBy P t₀.inner ops handed t.inner shown ended := by
  induction h with
  | start => exact .start
  | call _ ha hc ih => exact .call ih ha (invariantProducer_call hP hc)

theorem invariant_consumeSlots {C : BulkConsumer σ I F E} {t t' : InvariantSt σ} {k : Nat} {r : Except E Unit}
    (h : (invariantBulkConsumer C).consumeSlots t k = ok (t', r)) : C.consumeSlots t.inner k = ok (t'.inner, r) := by
  obtain ⟨t, a, n⟩ := t
  cases a
  · cases h
  · simp only [invariantBulkConsumer, bind_eq, InvariantSt.checkInactive, assert, if_true, bind_ok] at h
    split at h
    · cases h
    · rename_i hk
      rw [sub, if_pos (Nat.le_of_not_lt hk)] at h
      rcases hp : C.consumeSlots t k with ⟨s, r⟩ | _ | _ <;> simp only [bind_ok, hp] at h <;> cases h
      rfl

theorem invariant_exposeSlots {C : BulkConsumer σ I F E} {t t' : InvariantSt σ} {r : Except E (List I)}
    (h : (invariantBulkConsumer C).exposeSlots t = ok (t', r)) : C.exposeSlots t.inner = ok (t'.inner, r) := by
  obtain ⟨t, a, n⟩ := t
  cases a
  · cases h
  · simp only [invariantBulkConsumer, bind_eq, InvariantSt.checkInactive, assert, if_true, bind_ok] at h
    rcases hp : C.exposeSlots t with ⟨s, e | x⟩ | _ | _ <;> rw [hp] at h <;> cases h <;> rfl

theorem invariantConsumer_call {C : BulkConsumer σ I F E}
    (hC : C.bulkConsume = bulkConsumeDefault C.exposeSlots C.writeSlots C.consumeSlots) {t t' : InvariantSt σ} {slots : List I}
    {op : ConsumerOp I F} {r : Receipt I F E} (h : (invariantBulkConsumer C).call t slots op = ok (t', r)) :
    C.call t.inner slots op = ok (t'.inner, r) := by
  cases op with
  | consume x =>
    obtain ⟨t, a, n⟩ := t
    cases a
    · cases h
    · simp only [BulkConsumer.call, invariantBulkConsumer, invariantBufferedConsumer, invariantConsumer, bind_eq,
        InvariantSt.checkInactive, assert, if_true, bind_ok] at h
      simp only [BulkConsumer.call]
      rcases hp : C.consume t x with ⟨s, e | ⟨⟩⟩ | _ | _ <;> rw [hp] at h <;> cases h <;> rfl
  | flush =>
    obtain ⟨t, a, n⟩ := t
    cases a
    · cases h
    · simp only [BulkConsumer.call, invariantBulkConsumer, invariantBufferedConsumer, bind_eq,
        InvariantSt.checkInactive, assert, if_true, bind_ok] at h
      simp only [BulkConsumer.call]
      rcases hp : C.flush t with ⟨s, e | ⟨⟩⟩ | _ | _ <;> rw [hp] at h <;> cases h <;> rfl
  | close f =>
    obtain ⟨t, a, n⟩ := t
    cases a
    · cases h
    · simp only [BulkConsumer.call, invariantBulkConsumer, invariantBufferedConsumer, invariantConsumer, bind_eq,
        InvariantSt.checkInactive, assert, if_true, bind_ok] at h
      simp only [BulkConsumer.call]
      rcases hp : C.close t f with ⟨s, e | ⟨⟩⟩ | _ | _ <;> rw [hp] at h <;> cases h <;> rfl
  | exposeSlots =>
    simp only [BulkConsumer.call] at h ⊢
    rcases hp : (invariantBulkConsumer C).exposeSlots t with ⟨s, e | x⟩ | _ | _ <;> rw [hp] at h <;> cases h <;>
      rw [invariant_exposeSlots hp] <;> rfl
  | write ws => cases h; rfl
  | consumeSlots k =>
    simp only [BulkConsumer.call] at h ⊢
    rcases hp : (invariantBulkConsumer C).consumeSlots t k with ⟨s, e | ⟨⟩⟩ | _ | _ <;> rw [hp] at h <;> cases h <;>
      rw [invariant_consumeSlots hp] <;> rfl
  | bulkConsume buf =>
    simp only [BulkConsumer.call] at h ⊢
    rw [hC]
    rw [show (invariantBulkConsumer C).bulkConsume = bulkConsumeDefault (invariantBulkConsumer C).exposeSlots
      (invariantBulkConsumer C).writeSlots (invariantBulkConsumer C).consumeSlots from rfl] at h
    simp only [bulkConsumeDefault, bind_eq] at h ⊢
    rcases hp : (invariantBulkConsumer C).exposeSlots t with ⟨s, e | x⟩ | _ | _ <;> rw [hp] at h
    · cases h; rw [invariant_exposeSlots hp]; rfl
    · rw [invariant_exposeSlots hp]
      simp only [bind_ok] at h ⊢
      rcases hq : (invariantBulkConsumer C).consumeSlots ((invariantBulkConsumer C).writeSlots s (buf.take (min x.length buf.length)))
        (min x.length buf.length) with ⟨s, e | ⟨⟩⟩ | _ | _ <;> rw [hq] at h <;>
        cases h <;> (replace hq := invariant_consumeSlots hq; simp only [invariantBulkConsumer] at hq; rw [hq]; rfl)
    · cases h
    · cases h

theorem ConsumerRunsBy.ofInvariant {C : BulkConsumer σ I F E}
    (hC : C.bulkConsume = bulkConsumeDefault C.exposeSlots C.writeSlots C.consumeSlots) {t₀ t : InvariantSt σ}
    {ops : List (ConsumerOp I F)} {taken slots : List I} {ended : Option (ConsumerEnd I F E)}
    (h : ConsumerRunsBy (invariantBulkConsumer C) t₀ ops taken t slots ended) :
    ConsumerRunsBy C t₀.inner ops taken t.inner slots ended := by
  induction h with
  | start => exact .start
  | call _ ha hc ih => exact .call ih ha (invariantConsumer_call hC hc)

/-! ## Producers -/

namespace ProducerScrambler

variable {P : BulkProducer σ I F E} {cap : Nat} {ops : List ScrambleProduce}

theorem new_operations {inner : σ} {tmp : Nat → I} :
    (new inner ops cap tmp : ProducerScrambler σ I F E).operations = ScrambleProduce.cycle ops := by
  simp only [new, ScrambleProduce.cycle]
  by_cases h : ∀ op ∈ ops, op = .slurp
  · have : ScrambleProduce.makeProgress ops = false := by
      rw [← Bool.not_eq_true, ScrambleProduce.makeProgress_iff]
      rintro ⟨op, h1, h2⟩; exact h2 (h op h1)
    rw [this, if_pos h]; rfl
  · have : ScrambleProduce.makeProgress ops = true := by
      rw [ScrambleProduce.makeProgress_iff]
      refine Classical.byContradiction fun hn => h fun op hop => Classical.byContradiction fun hne => hn ⟨op, hop, hne⟩
    rw [this, if_neg h]; rfl

/-- The scrambler in state `s`, which exposes `n` items, stands at `st`, and `calls` are the calls made so far. -/
structure At (ops : List ScrambleProduce) (cap : Nat) (s : ProducerScrambler (Recorded σ (ProducerOp I)) I F E)
    (st : ProducerStanding) (n : Nat) (calls : List (ProducerOp I)) : Prop where
  holds : ∃ l, s.Ok cap l n ∧ l.length = st.queued
  stopped : s.last.isSome = st.stopped
  operations : s.operations = ops
  index : s.index = st.turn % ops.length
  calls : s.inner.calls = calls

theorem perform_when (debug : Bool) {s : ProducerScrambler (Recorded σ (ProducerOp I)) I F E} {j a n : Nat} {b : Bool}
    {calls : List (ProducerOp I)} (hs : At ops cap s ⟨j, a, b⟩ n calls) (ha : a < cap) :
    (s.performOperation debug (recordedProducer P)).When fun (s', r) => ∃ op new k, ops[j % ops.length]? = some op ∧ a + k ≤ cap ∧
      ((r = .ok none ∧ op.Does new k ∧ At ops cap s' ⟨j + 1, a + k, b⟩ n (calls ++ new)) ∨
        (r ≠ .ok none ∧ op.Fails new k ∧ At ops cap s' ⟨j, a + k, b⟩ n (calls ++ new))) := by
  obtain ⟨⟨l, hok, hl⟩, hst, hops, hidx, hcalls⟩ := hs
  simp only at hl hst hidx
  subst hl
  have hop : ops[j % ops.length]? = some (s.operations[s.index]'hok.index) := by
    rw [← hidx, ← hops]; exact List.getElem?_eq_getElem hok.index
  have hnext : (s.index + 1) % s.operations.length = (j + 1) % ops.length := by rw [hidx, hops, Nat.mod_add_mod]
  simp only [performOperation, index_of_lt hok.index, bind_eq, bind_ok]
  refine When.bind when_true fun _ _ => ?_
  cases hcase : s.operations[s.index]'hok.index with
  | produce =>
    rw [hcase] at hop
    refine When.bind (Q := fun p => p.1.calls = calls ++ [.produce]) (fun p hp => by rw [← hcalls]; exact recorded_produce hp) ?_
    rintro ⟨inner, e | x | f⟩ hp
    · exact .pure ⟨_, _, 0, hop, by omega, .inr ⟨by simp, .produce, ⟨⟨l, ⟨hok.cap_pos, hok.holds, hok.index, hok.progress⟩, rfl⟩, hst,
      hops, hidx, hp⟩⟩⟩
    · obtain ⟨q, hb1, hb2⟩ := hok.holds.enqueue x ha
      have hok' : Ok cap { s with inner := inner, buffer := q } (l ++ [x]) n := ⟨hok.cap_pos, hb2, hok.index, hok.progress⟩
      obtain ⟨hd, hd'⟩ := hok'.advance
      simp only [hb1, hd, bind_ok, debugAssert_true, Option.isNone_none, pure_eq]
      exact .pure ⟨_, _, 1, hop, by omega, .inl ⟨rfl, .produce, ⟨⟨_, hd', by simp⟩, hst, hops, hnext, hp⟩⟩⟩
    · exact .pure ⟨_, _, 0, hop, by omega, .inr ⟨by simp, .produce, ⟨⟨l, ⟨hok.cap_pos, hok.holds, hok.index, hok.progress⟩, rfl⟩, hst,
      hops, hidx, hp⟩⟩⟩
  | slurp =>
    rw [hcase] at hop
    refine When.bind (Q := fun p => p.1.calls = calls ++ [.slurp]) (fun p hp => by rw [← hcalls]; exact recorded_slurp hp) ?_
    rintro ⟨inner, e | ⟨⟩⟩ hp
    · exact .pure ⟨_, _, 0, hop, by omega, .inr ⟨by simp, .slurp, ⟨⟨l, ⟨hok.cap_pos, hok.holds, hok.index, hok.progress⟩, rfl⟩, hst,
      hops, hidx, hp⟩⟩⟩
    · have hok' : Ok cap { s with inner := inner } l n := ⟨hok.cap_pos, hok.holds, hok.index, hok.progress⟩
      obtain ⟨hd, hd'⟩ := hok'.advance
      simp only [hd, bind_ok, pure_eq]
      exact .pure ⟨_, _, 0, hop, by omega, .inl ⟨rfl, .slurp, ⟨⟨_, hd', rfl⟩, hst, hops, hnext, hp⟩⟩⟩
  | considerProduced m =>
    rw [hcase] at hop
    refine When.bind (Q := fun p => p.1.calls = calls ++ [.exposeItems])
      (fun p hp => by rw [← hcalls]; exact recorded_exposeItems hp) ?_
    rintro ⟨inner, e | xs | f⟩ hp
    · exact .pure ⟨_, _, 0, hop, by omega, .inr ⟨by simp, .expose, ⟨⟨l, ⟨hok.cap_pos, hok.holds, hok.index, hok.progress⟩, rfl⟩, hst,
      hops, hidx, hp⟩⟩⟩
    · have hsl : slice xs 0 (min xs.length m) = ok (xs.take (min xs.length m)) := by
        rw [slice_of_le (Nat.zero_le _) (by omega)]; simp
      obtain ⟨q, k, hb1, hb2, hb3, -, hb5, -⟩ :=
        (Fixed.fifoLaw I cap).bulkEnqueue_call hok.holds (xs.take (min xs.length m))
      have hlt : (xs.take (min xs.length m)).length = min xs.length m := by simp
      have hlk : ((xs.take (min xs.length m)).take k).length = k := by simp only [List.length_take]; omega
      simp only [bind_ok, hsl]
      rw [show (Fixed.queue I).bulkEnqueue s.buffer (xs.take (min xs.length m)) = _ from hb1]
      simp only [bind_ok]
      refine When.bind (Q := fun p => p.1.calls = calls ++ [.exposeItems, .considerProduced k])
        (fun p h => by show p.1.calls = _; rw [recorded_considerProduced h, hp, List.append_assoc]; rfl) ?_
      rintro ⟨inner2, r⟩ hp2
      have hok' : Ok cap { s with inner := inner2, buffer := q } (l ++ (xs.take (min xs.length m)).take k) n :=
        ⟨hok.cap_pos, hb5, hok.index, hok.progress⟩
      obtain ⟨hd, hd'⟩ := hok'.advance
      rcases r with e | ⟨⟩
      · exact .pure ⟨_, _, k, hop, hb3, .inr ⟨by simp, .items (by omega), ⟨⟨_, hok', by rw [List.length_append, hlk]⟩, hst, hops, hidx,
        hp2⟩⟩⟩
      · simp only [hd, bind_ok, pure_eq]
        exact .pure ⟨_, _, k, hop, hb3, .inl ⟨rfl, .items (by omega), ⟨⟨_, hd', by rw [List.length_append, hlk]⟩, hst, hops, hnext, hp2⟩⟩⟩
    · exact .pure ⟨_, _, 0, hop, by omega, .inr ⟨by simp, .expose, ⟨⟨l, ⟨hok.cap_pos, hok.holds, hok.index, hok.progress⟩, rfl⟩, hst,
      hops, hidx, hp⟩⟩⟩

theorem fillLoop_when (debug : Bool) {s : ProducerScrambler (Recorded σ (ProducerOp I)) I F E} {st : ProducerStanding} {n : Nat}
    {calls : List (ProducerOp I)} (hs : At ops cap s st n calls) :
    (loop (fillBody debug (recordedProducer P)) s).When fun s' => ∃ new st', Fills ops cap st new st' ∧
      At ops cap s' st' n (calls ++ new) ∧ (st'.queued = 0 → st'.stopped = true) := by
  refine When.loop (fun s => ∃ new st', At ops cap s st' n (calls ++ new) ∧
    ∀ more t, Fills ops cap st' more t → Fills ops cap st (new ++ more) t) _ ?_
    ⟨[], st, by simpa using hs, fun _ _ h => h⟩
  clear hs s
  rintro s ⟨new, ⟨j, a, b⟩, hs, hfill⟩
  obtain ⟨l, hok, hl⟩ := hs.holds
  have hl : l.length = a := hl
  have hb := hok.holds.bound
  simp only [List.length_nil, Nat.add_zero] at hb
  have hst : s.last.isSome = b := hs.stopped
  simp only [fillBody, bind_eq, pure_eq]
  refine When.ite (fun hc => ?_) (fun hc => ?_)
  · simp only [Bool.and_eq_true, Option.isNone_iff_eq_none, decide_eq_true_eq, hok.len, hok.capacity] at hc
    obtain ⟨hlast, hc⟩ := hc
    obtain rfl : b = false := by rw [← hst, hlast]; rfl
    refine When.bind (perform_when debug hs (by omega)) ?_
    rintro ⟨s', r⟩ ⟨op, new', k, hop, hak, ⟨rfl, hd, h⟩ | ⟨hr, hf, h⟩⟩
    · refine .pure ⟨new ++ new', _, by rw [← List.append_assoc]; exact h, fun more t hm => ?_⟩
      rw [List.append_assoc]
      exact hfill _ _ (.op (by omega) hop hd hak hm)
    · have hfin : ∀ v : Except E F, At ops cap { s' with last := some v } ⟨j, a + k, true⟩ n (calls ++ (new ++ new')) := by
        intro v
        obtain ⟨l', hok', hl'⟩ := h.holds
        exact ⟨⟨l', ⟨hok'.cap_pos, hok'.holds, hok'.index, hok'.progress⟩, hl'⟩, rfl, h.operations, h.index,
          by rw [← List.append_assoc]; exact h.calls⟩
      have hmore : ∀ more t, Fills ops cap ⟨j, a + k, true⟩ more t → Fills ops cap st (new ++ new' ++ more) t := by
        intro more t hm
        cases hm with
        | stopped =>
          rw [List.append_nil]
          exact hfill _ _ (.fails (by omega) hop hf hak)
      rcases r with e | _ | f
      · exact .pure ⟨_, _, hfin _, hmore⟩
      · exact absurd rfl hr
      · exact .pure ⟨_, _, hfin _, hmore⟩
  · simp only [Bool.and_eq_true, Option.isNone_iff_eq_none, decide_eq_true_eq, hok.len, hok.capacity] at hc
    have hcp := hok.cap_pos
    refine .pure ⟨new, ⟨j, a, b⟩, ?_, hs, ?_⟩
    · cases b with
      | true => simpa using hfill _ _ .stopped
      | false =>
        have hlast : s.last = none := by simpa using hst
        have ha : a = cap := by
          by_cases h : l.length < cap
          · exact absurd ⟨hlast, h⟩ hc
          · omega
        subst ha
        simpa using hfill _ _ .full
    · intro h0
      have h0 : a = 0 := h0
      cases b with
      | true => rfl
      | false =>
        have hlast : s.last = none := by simpa using hst
        exact absurd ⟨hlast, by omega⟩ hc

/-- `fill_queue`: if it answers `none`, there is something in the queue, otherwise the wrapped producer has come to an end. -/
theorem fill_when (debug : Bool) {s : ProducerScrambler (Recorded σ (ProducerOp I)) I F E} {st : ProducerStanding} {n : Nat}
    {calls : List (ProducerOp I)} (hs : At ops cap s st n calls) :
    (s.fillQueue debug (recordedProducer P)).When fun (s', r) => ∃ new j a b, Fills ops cap st new ⟨j, a, b⟩ ∧
      ((r = none ∧ 0 < a ∧ At ops cap s' ⟨j, a, b⟩ n (calls ++ new)) ∨
        (∃ v, r = some v ∧ a = 0 ∧ b = true ∧ At ops cap { s' with last := r } ⟨j, 0, true⟩ n (calls ++ new))) := by
  simp only [fillQueue, bind_eq, pure_eq]
  refine When.bind (fillLoop_when debug hs) ?_
  rintro s' ⟨new, ⟨j, a, b⟩, hf, h, h0⟩
  obtain ⟨l, hok, hl⟩ := h.holds
  have hl : l.length = a := hl
  refine When.ite (fun hc => ?_) (fun hc => ?_)
  · rw [hok.len] at hc
    obtain rfl : a = 0 := by omega
    obtain rfl : b = true := h0 rfl
    obtain ⟨v, hv⟩ := Option.isSome_iff_exists.mp h.stopped
    exact .pure ⟨new, j, 0, true, hf, .inr ⟨v, hv, rfl, rfl, h⟩⟩
  · rw [hok.len] at hc
    exact .pure ⟨new, j, a, b, hf, .inl ⟨rfl, by omega, h⟩⟩

theorem produce_when (debug : Bool) {s : ProducerScrambler (Recorded σ (ProducerOp I)) I F E} {st : ProducerStanding} {n : Nat}
    {calls : List (ProducerOp I)} (hs : At ops cap s st n calls) :
    ((producerScrambler debug (recordedProducer P)).produce s).When fun (s', r) => ∃ new j a b, Fills ops cap st new ⟨j, a, b⟩ ∧
      ((∃ x, r = .ok (.inl x) ∧ 0 < a ∧ At ops cap s' ⟨j, a - 1, b⟩ (n - 1) (calls ++ new)) ∨
        ((∀ x, r ≠ .ok (.inl x)) ∧ a = 0 ∧ b = true ∧ s'.inner.calls = calls ++ new)) := by
  simp only [producerScrambler, produce, bind_eq, pure_eq]
  refine When.bind (fill_when debug hs) ?_
  rintro ⟨s', r⟩ ⟨new, j, a, b, hf, ⟨rfl, ha, h⟩ | ⟨v, rfl, rfl, rfl, h⟩⟩
  · obtain ⟨l, hok, hl⟩ := h.holds
    have hl : l.length = a := hl
    cases l with
    | nil => simp only [List.length_nil] at hl; omega
    | cons x l =>
      obtain ⟨q, hb1, hb2⟩ := hok.holds.dequeue
      simp only [hb1, bind_ok, unwrap_some]
      refine .pure ⟨new, j, a, b, hf, .inl ⟨x, rfl, ha, ⟨⟨l, ⟨hok.cap_pos, hb2, hok.index, hok.progress⟩, ?_⟩, h.stopped, h.operations,
        h.index, h.calls⟩⟩⟩
      simp only [List.length_cons] at hl ⊢; omega
  · exact .pure ⟨new, j, 0, true, hf, .inr ⟨by rcases v with e | f <;> simp [Except.map], rfl, rfl, h.calls⟩⟩

theorem expose_when (debug : Bool) {s : ProducerScrambler (Recorded σ (ProducerOp I)) I F E} {st : ProducerStanding} {n : Nat}
    {calls : List (ProducerOp I)} (hs : At ops cap s st n calls) :
    ((producerScrambler debug (recordedProducer P)).exposeItems s).When fun (s', r) => ∃ new j a b, Fills ops cap st new ⟨j, a, b⟩ ∧
      ((∃ xs n', r = .ok (.inl xs) ∧ 0 < a ∧ xs.length ≤ n' ∧ xs.length ≤ a ∧ At ops cap s' ⟨j, a, b⟩ n' (calls ++ new)) ∨
        ((∀ xs, r ≠ .ok (.inl xs)) ∧ a = 0 ∧ b = true ∧ s'.inner.calls = calls ++ new)) := by
  simp only [producerScrambler, exposeItems, bind_eq, pure_eq]
  refine When.bind (fill_when debug hs) ?_
  rintro ⟨s', r⟩ ⟨new, j, a, b, hf, ⟨rfl, ha, h⟩ | ⟨v, rfl, rfl, rfl, h⟩⟩
  · obtain ⟨l, hok, hl⟩ := h.holds
    have hl : l.length = a := hl
    have hne : l ≠ [] := by rintro rfl; simp only [List.length_nil] at hl; omega
    obtain ⟨q, m, hm0, hml, hb1, hb2⟩ := (Fixed.fifoLaw I cap).exposeItems _ _ _ _ hok.holds hne
    have hb1' : s'.buffer.exposeItems = ok (q, some (l.take m)) := hb1
    simp only [hb1', bind_ok, unwrap_some]
    exact .pure ⟨new, j, a, b, hf, .inl ⟨_, max n m, rfl, ha, by simp only [List.length_take]; omega,
      by simp only [List.length_take]; omega,
      ⟨⟨l, ⟨hok.cap_pos, hb2, hok.index, hok.progress⟩, hl⟩, h.stopped, h.operations, h.index, h.calls⟩⟩⟩
  · exact .pure ⟨new, j, 0, true, hf, .inr ⟨by rcases v with e | f <;> simp [Except.map], rfl, rfl, h.calls⟩⟩

theorem consider_when (debug : Bool) {s : ProducerScrambler (Recorded σ (ProducerOp I)) I F E} {j a n k : Nat} {b : Bool}
    {calls : List (ProducerOp I)} (hs : At ops cap s ⟨j, a, b⟩ n calls) (hk : k ≤ n) :
    k ≤ a ∧ ∃ s', (producerScrambler debug (recordedProducer P)).considerProduced s k = ok (s', .ok ()) ∧
      At ops cap s' ⟨j, a - k, b⟩ (n - k) calls := by
  obtain ⟨l, hok, hl⟩ := hs.holds
  have hl : l.length = a := hl
  have hb := hok.holds.shown
  obtain ⟨q, hb1, hb2⟩ := (Fixed.fifoLaw I cap).considerDequeued _ _ _ _ k hok.holds hk hok.cap_pos
  have hb1' : s.buffer.considerDequeued k = ok q := hb1
  refine ⟨by omega, { s with buffer := q }, by simp [producerScrambler, considerProduced, hb1'],
    ⟨⟨l.drop k, ⟨hok.cap_pos, hb2, hok.index, hok.progress⟩, ?_⟩, hs.stopped, hs.operations, hs.index, hs.calls⟩⟩
  rw [List.length_drop, hl]

theorem slurp_when (debug : Bool) {s : ProducerScrambler (Recorded σ (ProducerOp I)) I F E} {st : ProducerStanding} {n : Nat}
    {calls : List (ProducerOp I)} (hs : At ops cap s st n calls) :
    ((producerScrambler debug (recordedProducer P)).slurp s).When fun (s', r) => ∃ new j a b, Fills ops cap st new ⟨j, a, b⟩ ∧
      ((∃ b', r = .ok () ∧ (b = true → b' = true) ∧ At ops cap s' ⟨j, a, b'⟩ n (calls ++ new ++ [.slurp])) ∨
        (r ≠ .ok () ∧ a = 0 ∧ b = true ∧
          (s'.inner.calls = calls ++ new ∨ s'.inner.calls = calls ++ new ++ [.slurp]))) := by
  have hinner : ∀ (s : ProducerScrambler (Recorded σ (ProducerOp I)) I F E) j a b calls, At ops cap s ⟨j, a, b⟩ n calls →
      (slurpInner (recordedProducer P) s).When fun (s', r) =>
        (∃ b', r = .ok () ∧ (b = true → b' = true) ∧ At ops cap s' ⟨j, a, b'⟩ n (calls ++ [.slurp])) ∨
        (r ≠ .ok () ∧ a = 0 ∧ s'.inner.calls = calls ++ [.slurp]) := by
    intro s j a b calls hs
    obtain ⟨l, hok, hl⟩ := hs.holds
    have hl : l.length = a := hl
    simp only [slurpInner, bind_eq, pure_eq]
    refine When.bind (Q := fun p => p.1.calls = calls ++ [.slurp]) (fun p hp => by rw [← hs.calls]; exact recorded_slurp hp) ?_
    rintro ⟨inner, e | ⟨⟩⟩ hp
    · refine When.ite (fun hc => ?_) (fun hc => ?_)
      · rw [hok.len] at hc
        exact .pure (.inr ⟨by simp, by omega, hp⟩)
      · exact .pure (.inl ⟨true, rfl, fun _ => rfl,
          ⟨⟨l, ⟨hok.cap_pos, hok.holds, hok.index, hok.progress⟩, hl⟩, rfl, hs.operations, hs.index, hp⟩⟩)
    · exact .pure (.inl ⟨b, rfl, id,
        ⟨⟨l, ⟨hok.cap_pos, hok.holds, hok.index, hok.progress⟩, hl⟩, hs.stopped, hs.operations, hs.index, hp⟩⟩)
  simp only [producerScrambler, slurp, bind_eq, pure_eq]
  refine When.bind (fill_when debug hs) ?_
  rintro ⟨s', r⟩ ⟨new, j, a, b, hf, ⟨rfl, ha, h⟩ | ⟨v, rfl, rfl, rfl, h⟩⟩
  · rintro ⟨s'', r⟩ hr
    refine ⟨new, j, a, b, hf, ?_⟩
    rcases hinner _ _ _ _ _ h _ hr with h | ⟨_, h, _⟩
    · exact .inl h
    · omega
  · rcases v with e | f
    · exact .pure ⟨new, j, 0, true, hf, .inr ⟨by simp, rfl, rfl, .inl h.calls⟩⟩
    · rintro ⟨s'', r⟩ hr
      refine ⟨new, j, 0, true, hf, ?_⟩
      rcases hinner _ _ _ _ _ h _ hr with h | ⟨h1, _, h⟩
      · exact .inl h
      · exact .inr ⟨h1, rfl, rfl, .inr h⟩

/-- Along every history of calls. -/
theorem runs_calls (debug : Bool) {s₀ s : ProducerScrambler (Recorded σ (ProducerOp I)) I F E} {client : List (ProducerOp I)}
    {handed shown : List I} {ended : Option (Except E F)} (h₀ : At ops cap s₀ ⟨0, 0, false⟩ 0 [])
    (h : ProducerRunsBy (producerScrambler debug (recordedProducer P)) s₀ client handed s shown ended) :
    (ended = none → ∃ st n, shown.length ≤ n ∧ At ops cap s st n s.inner.calls ∧
      ScrambledProducer ops cap client handed.length (some st) s.inner.calls) ∧
    (ended ≠ none → ScrambledProducer ops cap client handed.length none s.inner.calls) := by
  induction h with
  | start => exact ⟨fun _ => ⟨_, 0, by simp, h₀.calls.symm ▸ h₀, h₀.calls.symm ▸ .start⟩, fun h => absurd rfl h⟩
  | @call client handed s shown op s' r _ hop hcall ih =>
    obtain ⟨st, n, hn, hat, hT⟩ := ih.1 rfl
    clear ih
    have hl : ∀ k, k ≤ shown.length → (shown.take k).length = k := fun k hk => by rw [List.length_take]; omega
    have key : ((producerScrambler debug (recordedProducer P)).call s shown op).When (fun (s', r) =>
        (r.ended = none → ∃ st n, r.shown.length ≤ n ∧ At ops cap s' st n s'.inner.calls ∧
          ScrambledProducer ops cap (client ++ [op]) (handed.length + r.items.length) (some st) s'.inner.calls) ∧
        (r.ended ≠ none → ScrambledProducer ops cap (client ++ [op]) (handed.length + r.items.length) none s'.inner.calls)) := by
      cases op with
      | produce =>
        refine When.bind (produce_when debug hat) ?_
        rintro ⟨s', r⟩ ⟨new, j, a, b, hf, ⟨x, rfl, ha, h⟩ | ⟨hr, rfl, rfl, h⟩⟩
        · refine .pure ⟨fun _ => ⟨_, _, Nat.zero_le _, h.calls.symm ▸ h, ?_⟩, fun h => absurd rfl h⟩
          rw [h.calls]
          exact .asks hT .produce hf ha ha
        · rcases r with e | x | f
          · exact .pure ⟨by simp, fun _ => by rw [h]; exact .ends hT rfl hf⟩
          · exact absurd rfl (hr x)
          · exact .pure ⟨by simp, fun _ => by rw [h]; exact .ends hT rfl hf⟩
      | slurp =>
        refine When.bind (slurp_when debug hat) ?_
        rintro ⟨s', r⟩ ⟨new, j, a, b, hf, ⟨b', rfl, hb', h⟩ | ⟨hr, rfl, rfl, h⟩⟩
        · refine .pure ⟨fun _ => ⟨_, _, Nat.zero_le _, h.calls.symm ▸ h, ?_⟩, fun h => absurd rfl h⟩
          rw [h.calls]
          exact .slurps hT hf hb'
        · rcases r with e | ⟨⟩
          · refine .pure ⟨by simp, fun _ => ?_⟩
            rcases h with h | h <;> rw [h]
            · exact .slurpEnds hT hf
            · exact .slurpFails hT hf
          · exact absurd rfl hr
      | exposeItems =>
        refine When.bind (expose_when debug hat) ?_
        rintro ⟨s', r⟩ ⟨new, j, a, b, hf, ⟨xs, n', rfl, ha, hx, _, h⟩ | ⟨hr, rfl, rfl, h⟩⟩
        · refine .pure ⟨fun _ => ⟨_, _, hx, h.calls.symm ▸ h, ?_⟩, fun h => absurd rfl h⟩
          rw [h.calls]
          exact .asks (k := 0) hT .expose hf ha (Nat.zero_le _)
        · rcases r with e | x | f
          · exact .pure ⟨by simp, fun _ => by rw [h]; exact .ends hT rfl hf⟩
          · exact absurd rfl (hr x)
          · exact .pure ⟨by simp, fun _ => by rw [h]; exact .ends hT rfl hf⟩
      | considerProduced k =>
        obtain ⟨j, a, b⟩ := st
        obtain ⟨hk, s'', h1, h2⟩ := consider_when (P := P) debug hat (Nat.le_trans hop.2 hn)
        simp only [BulkProducer.call, h1, bind_ok]
        refine .pure ⟨fun _ => ⟨_, _, ?_, h2.calls.symm ▸ h2, ?_⟩, fun h => absurd rfl h⟩
        · simp only [List.length_drop]; omega
        · rw [h2.calls, hl k hop.2]
          exact .considers hT hk
      | bulkProduce buf =>
        have hk : ((producerScrambler debug (recordedProducer P)).bulkProduce s buf).When fun p => ∃ new j a b,
            Fills ops cap st new ⟨j, a, b⟩ ∧
            ((∃ k n', p.2.1 = .ok (.inl k) ∧ 0 < a ∧ k ≤ a ∧ k ≤ buf.length ∧ p.2.2.length = buf.length ∧
                At ops cap p.1 ⟨j, a - k, b⟩ n' (s.inner.calls ++ new)) ∨
              ((∀ k, p.2.1 ≠ .ok (.inl k)) ∧ a = 0 ∧ b = true ∧ p.1.inner.calls = s.inner.calls ++ new)) := by
          show (bulkProduceDefault (producerScrambler debug (recordedProducer P)).exposeItems
            (producerScrambler debug (recordedProducer P)).considerProduced s buf).When _
          simp only [bulkProduceDefault, bind_eq, pure_eq]
          refine When.bind (expose_when debug hat) ?_
          rintro ⟨s', r⟩ ⟨new, j, a, b, hf, ⟨xs, n', rfl, ha, hx, hxa, h⟩ | ⟨hr, rfl, rfl, h⟩⟩
          · obtain ⟨hk, s'', h1, h2⟩ := consider_when (P := P) debug h (k := min xs.length buf.length) (by omega)
            simp only [h1, bind_ok]
            exact .pure ⟨new, j, a, b, hf, .inl ⟨_, _, rfl, ha, hk, by omega, by simp; omega, h2⟩⟩
          · rcases r with e | x | f
            · exact .pure ⟨new, j, 0, true, hf, .inr ⟨by simp, rfl, rfl, h⟩⟩
            · exact absurd rfl (hr x)
            · exact .pure ⟨new, j, 0, true, hf, .inr ⟨by simp, rfl, rfl, h⟩⟩
        refine When.bind hk ?_
        rintro ⟨s', r, buf'⟩ ⟨new, j, a, b, hf, ⟨k, n', hr, ha, hka, hkb, hlen, h⟩ | ⟨hr, rfl, rfl, h⟩⟩
        · simp only at hr; subst hr
          refine .pure ⟨fun _ => ⟨_, _, Nat.zero_le _, h.calls.symm ▸ h, ?_⟩, fun h => absurd rfl h⟩
          have : (buf'.take k).length = k := by simp only at hlen; rw [List.length_take]; omega
          rw [h.calls, this]
          exact .asks hT (.bulk hkb) hf ha hka
        · rcases r with e | x | f
          · exact .pure ⟨by simp, fun _ => by rw [h]; exact .ends hT rfl hf⟩
          · exact absurd rfl (hr x)
          · exact .pure ⟨by simp, fun _ => by rw [h]; exact .ends hT rfl hf⟩
    have := key _ hcall
    rwa [List.length_append]

theorem at_new {inner : σ} {tmp : Nat → I} (hcap : 0 < cap) :
    At (ScrambleProduce.cycle ops) cap (new ⟨inner, []⟩ ops cap tmp : ProducerScrambler (Recorded σ (ProducerOp I)) I F E)
      ⟨0, 0, false⟩ 0 [] :=
  ⟨⟨[], ok_new hcap, rfl⟩, rfl, new_operations, by simp [new], rfl⟩

end ProducerScrambler

/-! What follows from it. -/

theorem ProducerOp.requested_append (xs ys : List (ProducerOp I)) : requested (xs ++ ys) = requested xs + requested ys := by
  induction xs with
  | nil => simp [requested]
  | cons x xs ih => cases x <;> simp only [List.cons_append, requested, ih] <;> omega

theorem ScrambleProduce.Does.requested {op : ScrambleProduce} {calls : List (ProducerOp I)} {k : Nat} (h : op.Does calls k) :
    ProducerOp.requested calls = k := by
  cases h <;> simp [ProducerOp.requested]

theorem ScrambleProduce.Fails.requested {op : ScrambleProduce} {calls : List (ProducerOp I)} {k : Nat} (h : op.Fails calls k) :
    ProducerOp.requested calls ≤ k + 1 := by
  cases h <;> simp [ProducerOp.requested]

theorem Fills.owes {ops : List ScrambleProduce} {cap : Nat} {st st' : ProducerStanding} {calls : List (ProducerOp I)}
    (h : Fills ops cap st calls st') {n d : Nat} (hd : st.queued ≤ cap)
    (hn : if st.stopped then n ≤ d + st.queued + 1 else n = d + st.queued) :
    st'.queued ≤ cap ∧
      if st'.stopped then n + ProducerOp.requested calls ≤ d + st'.queued + 1 else n + ProducerOp.requested calls = d + st'.queued := by
  induction h generalizing n with
  | full => simpa [ProducerOp.requested] using hn
  | stopped => simpa [ProducerOp.requested] using ⟨hd, hn⟩
  | op _ _ hdo hak _ ih =>
    have := hdo.requested
    simp only [Bool.false_eq_true, ↓reduceIte] at hn
    rw [ProducerOp.requested_append, ← Nat.add_assoc]
    refine ih hak ?_
    simp only [Bool.false_eq_true, ↓reduceIte]; omega
  | fails _ _ hf hak =>
    have := hf.requested
    simp only [Bool.false_eq_true, ↓reduceIte] at hn ⊢
    exact ⟨hak, by omega⟩

theorem ScrambledProducer.owes {ops : List ScrambleProduce} {cap handed : Nat} {client calls : List (ProducerOp I)}
    {r : Option ProducerStanding} (h : ScrambledProducer ops cap client handed r calls) :
    match (generalizing := false) r with
    | some st => st.queued ≤ cap ∧
        if st.stopped then ProducerOp.requested calls ≤ handed + st.queued + 1 else ProducerOp.requested calls = handed + st.queued
    | none => ProducerOp.requested calls ≤ handed + 1 := by
  induction h with
  | start => exact ⟨Nat.zero_le _, rfl⟩
  | @asks _ _ _ _ _ k _ j a b _ _ hf _ hk ih =>
    obtain ⟨h1, h2⟩ := hf.owes ih.1 ih.2
    rw [ProducerOp.requested_append]
    refine ⟨Nat.le_trans (Nat.sub_le _ _) h1, ?_⟩
    cases b <;> simp only [Bool.false_eq_true, ↓reduceIte] at h2 ⊢ <;> omega
  | ends _ _ hf ih =>
    obtain ⟨h1, h2⟩ := hf.owes ih.1 ih.2
    simp only [↓reduceIte, Nat.add_zero] at h2
    rw [ProducerOp.requested_append]
    exact h2
  | @considers _ _ j a b _ k _ hk ih =>
    obtain ⟨h1, h2⟩ := ih
    simp only at h1
    refine ⟨Nat.le_trans (Nat.sub_le _ _) h1, ?_⟩
    cases b <;> simp only [Bool.false_eq_true, ↓reduceIte] at h2 ⊢ <;> omega
  | @slurps _ _ _ _ _ j a b b' _ hf hb ih =>
    obtain ⟨h1, h2⟩ := hf.owes ih.1 ih.2
    simp only at h1
    rw [ProducerOp.requested_append, ProducerOp.requested_append]
    refine ⟨h1, ?_⟩
    cases b <;> cases b' <;> simp only [Bool.false_eq_true, ↓reduceIte,
      ProducerOp.requested] at h2 hb ⊢ <;> first | omega | cases hb trivial
  | slurpFails _ hf ih =>
    obtain ⟨h1, h2⟩ := hf.owes ih.1 ih.2
    simp only [↓reduceIte, Nat.add_zero] at h2
    rw [ProducerOp.requested_append, ProducerOp.requested_append]
    exact h2
  | slurpEnds _ hf ih =>
    obtain ⟨h1, h2⟩ := hf.owes ih.1 ih.2
    simp only [↓reduceIte, Nat.add_zero] at h2
    rw [ProducerOp.requested_append]
    exact h2

/-- The calls so far: operations in turn, and the one that was performed last if it stopped the scrambler. -/
def TurnsThen (ops : List ScrambleProduce) (j : Nat) (stopped : Bool) (calls : List (ProducerOp I)) : Prop :=
  if stopped then ∃ done op last k, calls = done ++ last ∧ ProduceTurns ops j done ∧ ops[j % ops.length]? = some op ∧ op.Fails last k
  else ProduceTurns ops j calls

theorem Fills.turns {ops : List ScrambleProduce} {cap : Nat} {st st' : ProducerStanding} {new : List (ProducerOp I)}
    (h : Fills ops cap st new st') {calls : List (ProducerOp I)} (hn : TurnsThen ops st.turn st.stopped calls) :
    TurnsThen ops st'.turn st'.stopped (calls ++ new) := by
  induction h generalizing calls with
  | full => simpa using hn
  | stopped => simpa using hn
  | op _ hop hdo _ _ ih =>
    rw [← List.append_assoc]
    exact ih (.snoc (by simpa [TurnsThen] using hn) hop hdo)
  | fails _ hop hf _ => exact ⟨_, _, _, _, rfl, by simpa [TurnsThen] using hn, hop, hf⟩

theorem ScrambledProducer.turns {ops : List ScrambleProduce} {cap handed : Nat} {client calls : List (ProducerOp I)}
    {r : Option ProducerStanding} (h : ScrambledProducer ops cap client handed r calls) (hs : .slurp ∉ client) :
    match (generalizing := false) r with
    | some st => TurnsThen ops st.turn st.stopped calls
    | none => ∃ j, TurnsThen ops j true calls := by
  induction h with
  | start => exact .nil
  | asks _ _ hf _ _ ih => exact hf.turns (ih fun hm => hs (List.mem_append_left _ hm))
  | ends _ _ hf ih => exact ⟨_, hf.turns (ih fun hm => hs (List.mem_append_left _ hm))⟩
  | considers _ _ ih => exact ih fun hm => hs (List.mem_append_left _ hm)
  | slurps => simp at hs
  | slurpFails => simp at hs
  | slurpEnds => simp at hs

/-! ## Consumers -/

namespace ConsumerScrambler

variable {C : BulkConsumer σ I F E} {cap : Nat} {ops : List ScrambleConsume}

theorem new_operations {inner : σ} {tmp : Nat → I} : (new inner ops cap tmp).operations = ScrambleConsume.cycle ops := by
  simp only [new, ScrambleConsume.cycle]
  by_cases h : ∀ op ∈ ops, op = .flush
  · have : ScrambleConsume.makeProgress ops = false := by
      rw [← Bool.not_eq_true, ScrambleConsume.makeProgress_iff]
      rintro ⟨op, h1, h2⟩; exact h2 (h op h1)
    rw [this, if_pos h]; rfl
  · have : ScrambleConsume.makeProgress ops = true := by
      rw [ScrambleConsume.makeProgress_iff]
      refine Classical.byContradiction fun hn => h fun op hop => Classical.byContradiction fun hne => hn ⟨op, hop, hne⟩
    rw [this, if_neg h]; rfl

/-- The scrambler in state `s`, whose exposed slots contain `slots`, has performed `j` operations; its queue contains `q`, and
`calls` are the calls made so far. -/
structure At (ops : List ScrambleConsume) (cap : Nat) (s : ConsumerScrambler (Recorded σ (ConsumerOp I F)) I) (j : Nat)
    (q slots : List I) (calls : List (ConsumerOp I F)) : Prop where
  holds : s.Ok cap q slots
  operations : s.operations = ops
  index : s.index = j % ops.length
  calls : s.inner.calls = calls

theorem perform_when (debug : Bool) {s : ConsumerScrambler (Recorded σ (ConsumerOp I F)) I} {j : Nat} {q slots : List I}
    {calls : List (ConsumerOp I F)} (hs : At ops cap s j q slots calls) (hq : q ≠ []) :
    (s.performOperation debug (recordedConsumer C)).When fun (s', r) => ∃ op new, ops[j % ops.length]? = some op ∧
      ((∃ q', r = .ok () ∧ op.Does q new q' ∧ At ops cap s' (j + 1) q' [] (calls ++ new)) ∨
        (r ≠ .ok () ∧ op.Fails q new ∧ s'.inner.calls = calls ++ new)) := by
  obtain ⟨hok, hops, hidx, hcalls⟩ := hs
  have hok := hok.hide
  have hop : ops[j % ops.length]? = some (s.operations[s.index]'hok.index) := by
    rw [← hidx, ← hops]; exact List.getElem?_eq_getElem hok.index
  have hnext : (s.index + 1) % s.operations.length = (j + 1) % ops.length := by rw [hidx, hops, Nat.mod_add_mod]
  simp only [performOperation, index_of_lt hok.index, bind_eq, bind_ok]
  refine When.bind when_true fun _ _ => ?_
  cases hcase : s.operations[s.index]'hok.index with
  | consume =>
    rw [hcase] at hop
    obtain ⟨x, q, rfl⟩ := List.exists_cons_of_ne_nil hq
    obtain ⟨b, hb1, hb2⟩ := hok.holds.dequeue
    simp only [hb1, bind_ok, unwrap_some]
    refine When.bind (Q := fun p => p.1.calls = calls ++ [.consume x]) (fun p hp => by rw [← hcalls]; exact recorded_consume hp) ?_
    rintro ⟨inner, e | ⟨⟩⟩ hp
    · exact .pure ⟨_, _, hop, .inr ⟨by simp, .does .consume, hp⟩⟩
    · have hok' : Ok cap { s with inner := inner, buffer := b } q [] := ⟨hok.cap_pos, hb2, hok.index, hok.progress⟩
      obtain ⟨hd, hd'⟩ := hok'.advance
      simp only [hd, bind_ok, pure_eq]
      exact .pure ⟨_, _, hop, .inl ⟨q, rfl, .consume, ⟨hd', hops, hnext, hp⟩⟩⟩
  | flush =>
    rw [hcase] at hop
    refine When.bind (Q := fun p => p.1.calls = calls ++ [.flush]) (fun p hp => by rw [← hcalls]; exact recorded_flush hp) ?_
    rintro ⟨inner, e | ⟨⟩⟩ hp
    · exact .pure ⟨_, _, hop, .inr ⟨by simp, .does .flush, hp⟩⟩
    · have hok' : Ok cap { s with inner := inner } q [] := ⟨hok.cap_pos, hok.holds, hok.index, hok.progress⟩
      obtain ⟨hd, hd'⟩ := hok'.advance
      simp only [hd, bind_ok, pure_eq]
      exact .pure ⟨_, _, hop, .inl ⟨q, rfl, .flush, ⟨hd', hops, hnext, hp⟩⟩⟩
  | consumeSlots n =>
    rw [hcase] at hop
    refine When.bind (Q := fun p => p.1.calls = calls ++ [.exposeSlots])
      (fun p hp => by rw [← hcalls]; exact recorded_exposeSlots hp) ?_
    rintro ⟨inner, e | xs⟩ hp
    · exact .pure ⟨_, _, hop, .inr ⟨by simp, .expose, hp⟩⟩
    · have hsl : slice xs 0 (min xs.length n) = ok (xs.take (min xs.length n)) := by
        rw [slice_of_le (Nat.zero_le _) (by omega)]; simp
      have hlt : (xs.take (min xs.length n)).length = min xs.length n := by simp
      obtain ⟨b, k, hb1, hb2, hb3, -, ⟨m, hb5, -⟩, -⟩ :=
        (Fixed.fifoLaw I cap).bulkDequeue_call hok.holds (xs.take (min xs.length n))
      simp only [bind_ok, hsl]
      rw [show (Fixed.queue I).bulkDequeue s.buffer (xs.take (min xs.length n)) = _ from hb1]
      simp only [bind_ok]
      have hlk : (q.take k).length = k := by rw [List.length_take]; omega
      have hdoes : ScrambleConsume.Does (F := F) (.consumeSlots n) q
          [.exposeSlots, .write (q.take k ++ (xs.take (min xs.length n)).drop k), .consumeSlots k] (q.drop k) := by
        have h := ScrambleConsume.Does.slots (F := F) (n := n) (xs := q.take k) (q := q.drop k)
          (rest := (xs.take (min xs.length n)).drop k) (by omega)
        rwa [hlk, List.take_append_drop] at h
      refine When.bind (Q := fun p => p.1.calls = calls ++
          [.exposeSlots, .write (q.take k ++ (xs.take (min xs.length n)).drop k), .consumeSlots k])
        (fun p h => by
          show p.1.calls = _
          rw [recorded_consumeSlots h]
          show (inner.calls ++ [_]) ++ [_] = _
          rw [hp]; simp) ?_
      rintro ⟨inner2, e | ⟨⟩⟩ hp2
      · exact .pure ⟨_, _, hop, .inr ⟨by simp, .does hdoes, hp2⟩⟩
      · have hok' : Ok cap { s with inner := inner2, buffer := b } (q.drop k) [] :=
          ⟨hok.cap_pos, hb5.show (Nat.zero_le _), hok.index, hok.progress⟩
        obtain ⟨hd, hd'⟩ := hok'.advance
        simp only [hd, bind_ok, pure_eq]
        exact .pure ⟨_, _, hop, .inl ⟨_, rfl, hdoes, ⟨hd', hops, hnext, hp2⟩⟩⟩

theorem drain_when (debug : Bool) {s : ConsumerScrambler (Recorded σ (ConsumerOp I F)) I} {j : Nat} {q slots : List I}
    {calls : List (ConsumerOp I F)} (hs : At ops cap s j q slots calls) :
    (s.drain debug (recordedConsumer C)).When fun (s', r) => ∃ new,
      (∃ j', r = .ok () ∧ Drains ops j q new (some j') ∧ At ops cap s' j' [] [] (calls ++ new)) ∨
        (r ≠ .ok () ∧ Drains ops j q new none ∧ s'.inner.calls = calls ++ new) := by
  refine When.loop (fun s => ∃ new j' q', At ops cap s j' q' [] (calls ++ new) ∧
    ∀ more r, Drains ops j' q' more r → Drains ops j q (new ++ more) r) _ ?_
    ⟨[], j, q, ⟨hs.holds.hide, hs.operations, hs.index, by simpa using hs.calls⟩, fun _ _ h => h⟩
  clear hs s
  rintro s ⟨new, j', q', hs, hdr⟩
  simp only [drainBody, bind_eq, pure_eq]
  refine When.ite (fun hc => ?_) (fun hc => ?_)
  · rw [hs.holds.len] at hc
    have hq : q' ≠ [] := by rintro rfl; simp at hc
    refine When.bind (perform_when debug hs hq) ?_
    rintro ⟨s', r⟩ ⟨op, new', hop, ⟨q'', rfl, hd, h⟩ | ⟨hr, hf, h⟩⟩
    · refine .pure ⟨new ++ new', _, _, by rw [← List.append_assoc]; exact h, fun more t hm => ?_⟩
      rw [List.append_assoc]
      exact hdr _ _ (.op hq hop hd hm)
    · rcases r with e | ⟨⟩
      · exact .pure ⟨new ++ new', .inr ⟨by simp, hdr _ _ (.fails hq hop hf), by rw [h, List.append_assoc]⟩⟩
      · exact absurd rfl hr
  · rw [hs.holds.len] at hc
    obtain rfl : q' = [] := List.eq_nil_of_length_eq_zero (by omega)
    exact .pure ⟨new, .inl ⟨j', rfl, by simpa using hdr _ _ .done, hs⟩⟩

theorem close_when (debug : Bool) {s : ConsumerScrambler (Recorded σ (ConsumerOp I F)) I} {j : Nat} {q slots : List I}
    {calls : List (ConsumerOp I F)} (hs : At ops cap s j q slots calls) (f : F) :
    ((consumerScrambler debug (recordedConsumer C)).close s f).When fun (s', r) => ∃ new,
      (∃ j', Drains ops j q new (some j') ∧ s'.inner.calls = calls ++ new ++ [.close f]) ∨
        (r ≠ .ok () ∧ Drains ops j q new none ∧ s'.inner.calls = calls ++ new) := by
  simp only [consumerScrambler, close, bind_eq, pure_eq]
  refine When.bind (drain_when debug hs) ?_
  rintro ⟨s', r⟩ ⟨new, ⟨j', rfl, hd, h⟩ | ⟨hr, hd, h⟩⟩
  · refine When.bind (Q := fun p => p.1.calls = calls ++ new ++ [.close f]) (fun p hp => by rw [← h.calls]; exact recorded_close hp) ?_
    rintro ⟨inner, r⟩ hp
    exact .pure ⟨new, .inl ⟨j', hd, hp⟩⟩
  · rcases r with e | ⟨⟩
    · exact .pure ⟨new, .inr ⟨by simp, hd, h⟩⟩
    · exact absurd rfl hr

theorem flush_when (debug : Bool) {s : ConsumerScrambler (Recorded σ (ConsumerOp I F)) I} {j : Nat} {q slots : List I}
    {calls : List (ConsumerOp I F)} (hs : At ops cap s j q slots calls) :
    ((consumerScrambler debug (recordedConsumer C)).flush s).When fun (s', r) => ∃ new,
      (∃ j', Drains ops j q new (some j') ∧ At ops cap s' j' [] [] (calls ++ new ++ [.flush])) ∨
        (r ≠ .ok () ∧ Drains ops j q new none ∧ s'.inner.calls = calls ++ new) := by
  simp only [consumerScrambler, flush, bind_eq, pure_eq]
  refine When.bind (drain_when debug hs) ?_
  rintro ⟨s', r⟩ ⟨new, ⟨j', rfl, hd, h⟩ | ⟨hr, hd, h⟩⟩
  · refine When.bind (Q := fun p => p.1.calls = calls ++ new ++ [.flush]) (fun p hp => by rw [← h.calls]; exact recorded_flush hp) ?_
    rintro ⟨inner, r⟩ hp
    exact .pure ⟨new, .inl ⟨j', hd, ⟨⟨h.holds.cap_pos, h.holds.holds, h.holds.index, h.holds.progress⟩, h.operations, h.index, hp⟩⟩⟩
  · rcases r with e | ⟨⟩
    · exact .pure ⟨new, .inr ⟨by simp, hd, h⟩⟩
    · exact absurd rfl hr

/-- Making room for an item or for some slots. -/
def Rooms (ops : List ScrambleConsume) (cap j : Nat) (q : List I) (calls : List (ConsumerOp I F)) (j' : Nat) (q' : List I) : Prop :=
  (q.length < cap ∧ calls = [] ∧ j' = j ∧ q' = q) ∨ (q.length = cap ∧ q' = [] ∧ Drains ops j q calls (some j'))

theorem consume_when (debug : Bool) {s : ConsumerScrambler (Recorded σ (ConsumerOp I F)) I} {j : Nat} {q slots : List I}
    {calls : List (ConsumerOp I F)} (hs : At ops cap s j q slots calls) (x : I) :
    ((consumerScrambler debug (recordedConsumer C)).consume s x).When fun (s', r) => ∃ new,
      (∃ j' q', r = .ok () ∧ Rooms ops cap j q new j' q' ∧ At ops cap s' j' (q' ++ [x]) [] (calls ++ new)) ∨
        (r ≠ .ok () ∧ q.length = cap ∧ Drains ops j q new none ∧ s'.inner.calls = calls ++ new) := by
  have hok := hs.holds
  have hbd := hok.holds.bound
  simp only [consumerScrambler, consume, bind_eq, pure_eq]
  by_cases hl : q.length < cap
  · obtain ⟨b, h1, h2⟩ := (Fixed.fifoLaw I cap).enqueue _ _ _ _ x hok.holds hl
    have h1' : s.buffer.enqueue x = ok (b, none) := h1
    simp only [h1', bind_ok]
    exact .pure ⟨[], .inl ⟨j, q, rfl, .inl ⟨hl, rfl, rfl, rfl⟩,
      ⟨⟨hok.cap_pos, h2, hok.index, hok.progress⟩, hs.operations, hs.index, by simpa using hs.calls⟩⟩⟩
  · have h1 := (Fixed.fifoLaw I cap).enqueue_full _ _ _ _ x hok.holds (by omega)
    have h1' : s.buffer.enqueue x = ok (s.buffer, some x) := h1
    simp only [h1', bind_ok]
    refine When.bind (drain_when debug hs) ?_
    rintro ⟨s', r⟩ ⟨new, ⟨j', rfl, hd, h⟩ | ⟨hr, hd, h⟩⟩
    · obtain ⟨b, h3, h4⟩ := (Fixed.fifoLaw I cap).enqueue _ _ _ _ x h.holds.holds h.holds.cap_pos
      have h3' : s'.buffer.enqueue x = ok (b, none) := h3
      simp only [h3', bind_ok]
      refine When.bind when_true fun _ _ => ?_
      exact .pure ⟨new, .inl ⟨j', [], rfl, .inr ⟨by omega, rfl, hd⟩,
        ⟨⟨h.holds.cap_pos, h4, h.holds.index, h.holds.progress⟩, h.operations, h.index, h.calls⟩⟩⟩
    · rcases r with e | ⟨⟩
      · exact .pure ⟨new, .inr ⟨by simp, by omega, hd, h⟩⟩
      · exact absurd rfl hr

theorem expose_when (debug : Bool) {s : ConsumerScrambler (Recorded σ (ConsumerOp I F)) I} {j : Nat} {q slots : List I}
    {calls : List (ConsumerOp I F)} (hs : At ops cap s j q slots calls) :
    ((consumerScrambler debug (recordedConsumer C)).exposeSlots s).When fun (s', r) => ∃ new,
      (∃ j' q' sl, r = .ok sl ∧ Rooms ops cap j q new j' q' ∧ At ops cap s' j' q' sl (calls ++ new)) ∨
        ((∀ sl, r ≠ .ok sl) ∧ q.length = cap ∧ Drains ops j q new none ∧ s'.inner.calls = calls ++ new) := by
  have hok := hs.holds
  have hbd := hok.holds.bound
  simp only [consumerScrambler, exposeSlots, bind_eq, pure_eq, hok.len, hok.capacity]
  refine When.ite (fun hl => ?_) (fun hl => ?_)
  · obtain ⟨b, sl, h1, h2, h3⟩ := expose_buffer hok hl
    simp only [h2, bind_ok, unwrap_some]
    exact .pure ⟨[], .inl ⟨j, q, sl, rfl, .inl ⟨hl, rfl, rfl, rfl⟩, ⟨h3, hs.operations, hs.index, by simpa using hs.calls⟩⟩⟩
  · refine When.bind (drain_when debug hs) ?_
    rintro ⟨s', r⟩ ⟨new, ⟨j', rfl, hd, h⟩ | ⟨hr, hd, h⟩⟩
    · obtain ⟨b, sl, h2, h3, h4⟩ := expose_buffer h.holds h.holds.cap_pos
      simp only [h3, bind_ok, unwrap_some]
      exact .pure ⟨new, .inl ⟨j', [], sl, rfl, .inr ⟨by omega, rfl, hd⟩, ⟨h4, h.operations, h.index, h.calls⟩⟩⟩
    · rcases r with e | ⟨⟩
      · exact .pure ⟨new, .inr ⟨by simp, by omega, hd, h⟩⟩
      · exact absurd rfl hr

theorem slots_ok (debug : Bool) {s : ConsumerScrambler (Recorded σ (ConsumerOp I F)) I} {j : Nat} {q slots : List I}
    {calls : List (ConsumerOp I F)} (hs : At ops cap s j q slots calls) {k : Nat} (hk : k ≤ slots.length) :
    ∃ s', (consumerScrambler debug (recordedConsumer C)).consumeSlots s k = ok (s', .ok ()) ∧
      At ops cap s' j (q ++ slots.take k) (slots.drop k) calls := by
  obtain ⟨b, h1, h2⟩ := (Fixed.fifoLaw I cap).considerEnqueued _ _ _ _ k hs.holds.holds hk
  have h1' : s.buffer.considerEnqueued k = ok b := h1
  exact ⟨{ s with buffer := b }, by simp [consumerScrambler, consumeSlots, h1'],
    ⟨hs.holds.cap_pos, h2, hs.holds.index, hs.holds.progress⟩, hs.operations, hs.index, hs.calls⟩

theorem writes_ok (debug : Bool) {s : ConsumerScrambler (Recorded σ (ConsumerOp I F)) I} {j : Nat} {q slots ws : List I}
    {calls : List (ConsumerOp I F)} (hs : At ops cap s j q slots calls) (hw : ws.length ≤ slots.length) :
    At ops cap ((consumerScrambler debug (recordedConsumer C)).writeSlots s ws) j q (ws ++ slots.drop ws.length) calls :=
  ⟨write_ok (C := recordedConsumer C) debug hs.holds hw, hs.operations, hs.index, hs.calls⟩

theorem bulk_when (debug : Bool) {s : ConsumerScrambler (Recorded σ (ConsumerOp I F)) I} {j : Nat} {q slots : List I}
    {calls : List (ConsumerOp I F)} (hs : At ops cap s j q slots calls) (buf : List I) :
    ((consumerScrambler debug (recordedConsumer C)).bulkConsume s buf).When fun (s', r) => ∃ new,
      (∃ j' q' k sl, r = .ok k ∧ Rooms ops cap j q new j' q' ∧ At ops cap s' j' (q' ++ buf.take k) sl (calls ++ new)) ∨
        ((∀ k, r ≠ .ok k) ∧ q.length = cap ∧ Drains ops j q new none ∧ s'.inner.calls = calls ++ new) := by
  show (bulkConsumeDefault (consumerScrambler debug (recordedConsumer C)).exposeSlots
    (consumerScrambler debug (recordedConsumer C)).writeSlots
    (consumerScrambler debug (recordedConsumer C)).consumeSlots s buf).When _
  simp only [bulkConsumeDefault, bind_eq, pure_eq]
  refine When.bind (expose_when debug hs) ?_
  rintro ⟨s', r⟩ ⟨new, ⟨j', q', sl, rfl, hd, h⟩ | ⟨hr, hd, h⟩⟩
  · have hlt : (buf.take (min sl.length buf.length)).length = min sl.length buf.length := by simp
    have hw := writes_ok (C := C) debug h (ws := buf.take (min sl.length buf.length)) (by omega)
    obtain ⟨s'', h1, h2⟩ := slots_ok (C := C) debug hw (k := min sl.length buf.length)
      (by simp only [List.length_append, hlt]; omega)
    simp only [h1, bind_ok]
    rw [List.take_append_of_le_length (by omega), List.take_take, Nat.min_self] at h2
    exact .pure ⟨new, .inl ⟨j', q', _, _, rfl, hd, h2⟩⟩
  · rcases r with e | x
    · exact .pure ⟨new, .inr ⟨by simp, hd, h⟩⟩
    · exact absurd rfl (hr x)

/-- Along every history of calls. -/
theorem runs_calls (debug : Bool) {s₀ s : ConsumerScrambler (Recorded σ (ConsumerOp I F)) I} {client : List (ConsumerOp I F)}
    {taken slots : List I} {ended : Option (ConsumerEnd I F E)} (h₀ : At ops cap s₀ 0 [] [] [])
    (h : ConsumerRunsBy (consumerScrambler debug (recordedConsumer C)) s₀ client taken s slots ended) :
    (ended = none → ∃ j q sl, (slots ≠ [] → slots = sl) ∧ At ops cap s j q sl s.inner.calls ∧
      ScrambledConsumer ops cap client taken (some (j, q)) s.inner.calls) ∧
    (ended ≠ none → ScrambledConsumer ops cap client taken none s.inner.calls) := by
  induction h with
  | start => exact ⟨fun _ => ⟨_, _, _, fun h => absurd rfl h, h₀.calls.symm ▸ h₀, h₀.calls.symm ▸ .start⟩, fun h => absurd rfl h⟩
  | @call client taken s slots op s' r _ hop hcall ih =>
    obtain ⟨j, q, sl, hsl, hat, hT⟩ := ih.1 rfl
    clear ih
    have hgive : ∀ {op : ConsumerOp I F} {xs new j' q'}, op.Gives xs → Rooms ops cap j q new j' q' → (q' ++ xs).length ≤ cap →
        ScrambledConsumer ops cap (client ++ [op]) (taken ++ xs) (some (j', q' ++ xs)) (s.inner.calls ++ new) := by
      rintro op xs new j' q' hg (⟨h1, rfl, rfl, rfl⟩ | ⟨h1, rfl, h2⟩) hlen
      · rw [List.append_nil]
        rw [List.length_append] at hlen
        exact .room hT h1 hg hlen
      · rw [List.nil_append] at hlen ⊢
        exact .makesRoom hT h1 h2 hg hlen
    have key : ((consumerScrambler debug (recordedConsumer C)).call s slots op).When (fun (s', r) =>
        (r.ended = none → ∃ j q sl, (r.slots ≠ [] → r.slots = sl) ∧ At ops cap s' j q sl s'.inner.calls ∧
          ScrambledConsumer ops cap (client ++ [op]) (taken ++ r.items) (some (j, q)) s'.inner.calls) ∧
        (r.ended ≠ none → ScrambledConsumer ops cap (client ++ [op]) (taken ++ r.items) none s'.inner.calls)) := by
      cases op with
      | consume x =>
        refine When.bind (consume_when debug hat x) ?_
        rintro ⟨s', r⟩ ⟨new, ⟨j', q', rfl, hr, h⟩ | ⟨hr, hq, hd, h⟩⟩
        · refine .pure ⟨fun _ => ⟨_, _, _, fun h => absurd rfl h, h.calls.symm ▸ h, ?_⟩, fun h => absurd rfl h⟩
          rw [h.calls]
          exact hgive .consume hr (by have := h.holds.holds.bound; omega)
        · rcases r with e | ⟨⟩
          · refine .pure ⟨by simp, fun _ => ?_⟩
            rw [h, List.append_nil]
            exact .fails hT hq hd rfl
          · exact absurd rfl hr
      | flush =>
        refine When.bind (flush_when debug hat) ?_
        rintro ⟨s', r⟩ ⟨new, ⟨j', hd, h⟩ | ⟨hr, hd, h⟩⟩
        · rcases r with e | ⟨⟩
          · refine .pure ⟨by simp, fun _ => ?_⟩
            rw [h.calls, List.append_nil]
            exact .flushFails hT hd
          · refine .pure ⟨fun _ => ⟨_, _, _, fun h => absurd rfl h, h.calls.symm ▸ h, ?_⟩, fun h => absurd rfl h⟩
            rw [h.calls, List.append_nil]
            exact .flushes hT hd
        · rcases r with e | ⟨⟩
          · refine .pure ⟨by simp, fun _ => ?_⟩
            rw [h, List.append_nil]
            exact .flushEnds hT hd
          · exact absurd rfl hr
      | close f =>
        refine When.bind (close_when debug hat f) ?_
        rintro ⟨s', r⟩ ⟨new, ⟨j', hd, h⟩ | ⟨hr, hd, h⟩⟩
        · rcases r with e | ⟨⟩ <;> refine .pure ⟨by simp, fun _ => ?_⟩ <;> rw [h, List.append_nil] <;> exact .closes hT hd
        · rcases r with e | ⟨⟩
          · refine .pure ⟨by simp, fun _ => ?_⟩
            rw [h, List.append_nil]
            exact .closeEnds hT hd
          · exact absurd rfl hr
      | exposeSlots =>
        refine When.bind (expose_when debug hat) ?_
        rintro ⟨s', r⟩ ⟨new, ⟨j', q', sl', rfl, hr, h⟩ | ⟨hr, hq, hd, h⟩⟩
        · refine .pure ⟨fun _ => ⟨_, _, _, fun _ => rfl, h.calls.symm ▸ h, ?_⟩, fun h => absurd rfl h⟩
          rw [h.calls]
          have := hgive (op := .exposeSlots) .expose hr (by have := h.holds.holds.bound; simp only [List.append_nil]; omega)
          rwa [List.append_nil q'] at this
        · rcases r with e | x
          · refine .pure ⟨by simp, fun _ => ?_⟩
            rw [h, List.append_nil]
            exact .fails hT hq hd rfl
          · exact absurd rfl (hr x)
      | write ws =>
        by_cases hs : slots = []
        · subst hs
          obtain rfl : ws = [] := List.eq_nil_of_length_eq_zero (Nat.le_zero.mp hop)
          have h := writes_ok (C := C) debug hat (ws := []) (Nat.zero_le _)
          refine .pure ⟨fun _ => ⟨_, _, _, fun h => absurd rfl h, h.calls.symm ▸ h, ?_⟩, fun h => absurd rfl h⟩
          rw [h.calls, List.append_nil]
          exact .write hT
        · obtain rfl := hsl hs
          have h := writes_ok (C := C) debug hat hop
          refine .pure ⟨fun _ => ⟨_, _, _, fun _ => rfl, h.calls.symm ▸ h, ?_⟩, fun h => absurd rfl h⟩
          rw [h.calls, List.append_nil]
          exact .write hT
      | consumeSlots k =>
        obtain rfl := hsl hop.1
        obtain ⟨s'', h1, h⟩ := slots_ok (C := C) debug hat hop.2
        simp only [BulkConsumer.call, h1, bind_ok]
        refine .pure ⟨fun _ => ⟨_, _, _, fun _ => rfl, h.calls.symm ▸ h, ?_⟩, fun h => absurd rfl h⟩
        rw [h.calls]
        have hb := h.holds.holds.bound
        rw [List.length_append] at hb
        have := ScrambledConsumer.slots hT (xs := slots.take k) (by omega)
        rwa [show (slots.take k).length = k by rw [List.length_take]; exact Nat.min_eq_left hop.2] at this
      | bulkConsume buf =>
        refine When.bind (bulk_when debug hat buf) ?_
        rintro ⟨s', r⟩ ⟨new, ⟨j', q', k, sl', rfl, hr, h⟩ | ⟨hr, hq, hd, h⟩⟩
        · refine .pure ⟨fun _ => ⟨_, _, _, fun h => absurd rfl h, h.calls.symm ▸ h, ?_⟩, fun h => absurd rfl h⟩
          rw [h.calls]
          have := hgive (op := .bulkConsume (buf.take k ++ buf.drop k)) .bulk hr (by have := h.holds.holds.bound; omega)
          rwa [List.take_append_drop] at this
        · rcases r with e | x
          · refine .pure ⟨by simp, fun _ => ?_⟩
            rw [h, List.append_nil]
            exact .fails hT hq hd rfl
          · exact absurd rfl (hr x)
    exact key _ hcall

theorem at_new {inner : σ} {tmp : Nat → I} (hcap : 0 < cap) :
    At (ScrambleConsume.cycle ops) cap (new (⟨inner, []⟩ : Recorded σ (ConsumerOp I F)) ops cap tmp) 0 [] [] [] :=
  ⟨ok_new hcap, new_operations, by simp [new], rfl⟩

end ConsumerScrambler

/-! What follows from it. -/

theorem ScrambleConsume.Does.split {op : ScrambleConsume} {q q' : List I} {calls : List (ConsumerOp I F)} (h : op.Does q calls q') :
    ∃ xs, q = xs ++ q' ∧ op.Does xs calls [] := by
  cases h with
  | @consume x => exact ⟨[x], rfl, .consume⟩
  | @slots n xs q rest hn =>
    have h := ScrambleConsume.Does.slots (F := F) (q := []) (rest := rest) hn
    rw [List.append_nil] at h
    exact ⟨xs, rfl, h⟩
  | flush => exact ⟨[], rfl, .flush⟩

theorem Drains.turns {ops : List ScrambleConsume} {j : Nat} {q : List I} {new : List (ConsumerOp I F)} {r : Option Nat}
    (h : Drains ops j q new r) {calls : List (ConsumerOp I F)} {xs : List I} (hn : ConsumeTurns ops j xs calls) :
    match (generalizing := false) r with
    | some j' => ConsumeTurns ops j' (xs ++ q) (calls ++ new)
    | none => ∃ j' ys q' done last op, xs ++ q = ys ++ q' ∧ q'.length ≤ q.length ∧ calls ++ new = done ++ last ∧
        ConsumeTurns ops j' ys done ∧ ops[j' % ops.length]? = some op ∧ op.Fails q' last := by
  induction h generalizing calls xs with
  | done => simpa using hn
  | op _ hop hd _ ih =>
    obtain ⟨ys, rfl, hd'⟩ := hd.split
    have := ih (.snoc hn hop hd')
    rw [List.append_assoc, List.append_assoc] at this
    split at this
    · exact this
    · obtain ⟨j', zs, q', done, last, op, h1, h2, h3⟩ := this
      exact ⟨j', zs, q', done, last, op, h1, by rw [List.length_append]; omega, h3⟩
  | fails _ hop hf => exact ⟨_, _, _, _, _, _, rfl, Nat.le_refl _, rfl, hn, hop, hf⟩

theorem ScrambledConsumer.turns {ops : List ScrambleConsume} {cap : Nat} {client calls : List (ConsumerOp I F)} {taken : List I}
    {r : Option (Nat × List I)} (h : ScrambledConsumer ops cap client taken r calls) (hf : .flush ∉ client)
    (hc : ∀ f, .close f ∉ client) :
    match (generalizing := false) r with
    | some (j, q) => q.length ≤ cap ∧ ∃ xs, taken = xs ++ q ∧ ConsumeTurns ops j xs calls
    | none => ∃ j ys q done last op, taken = ys ++ q ∧ q.length ≤ cap ∧ calls = done ++ last ∧ ConsumeTurns ops j ys done ∧
        ops[j % ops.length]? = some op ∧ op.Fails q last := by
  induction h with
  | start => exact ⟨Nat.zero_le _, [], rfl, .nil⟩
  | room _ _ _ hlen ih =>
    obtain ⟨_, xs, rfl, h2⟩ := ih (fun hm => hf (List.mem_append_left _ hm)) (fun f hm => hc f (List.mem_append_left _ hm))
    exact ⟨by rw [List.length_append]; exact hlen, xs, by rw [List.append_assoc], h2⟩
  | makesRoom _ _ hd _ hlen ih =>
    obtain ⟨_, xs, rfl, h2⟩ := ih (fun hm => hf (List.mem_append_left _ hm)) (fun f hm => hc f (List.mem_append_left _ hm))
    exact ⟨hlen, _, rfl, hd.turns h2⟩
  | fails _ hq hd _ ih =>
    obtain ⟨_, xs, rfl, h2⟩ := ih (fun hm => hf (List.mem_append_left _ hm)) (fun f hm => hc f (List.mem_append_left _ hm))
    have := hd.turns h2
    rwa [hq] at this
  | write _ ih => exact ih (fun hm => hf (List.mem_append_left _ hm)) (fun f hm => hc f (List.mem_append_left _ hm))
  | slots _ hlen ih =>
    obtain ⟨_, xs, rfl, h2⟩ := ih (fun hm => hf (List.mem_append_left _ hm)) (fun f hm => hc f (List.mem_append_left _ hm))
    exact ⟨by rw [List.length_append]; exact hlen, xs, by rw [List.append_assoc], h2⟩
  | flushes => simp at hf
  | flushFails => simp at hf
  | flushEnds => simp at hf
  | @closes _ _ _ _ _ _ _ f => exact absurd (List.mem_append_right _ (List.mem_singleton_self _)) (hc f)
  | @closeEnds _ _ _ _ _ _ f => exact absurd (List.mem_append_right _ (List.mem_singleton_self _)) (hc f)

end

end Verif
