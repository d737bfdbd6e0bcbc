import Verif.Props.Invariant

/-!
# C25, C26: what the invariant wrappers detect

`Verif/Props/Invariant.lean` proves that the wrappers are transparent for correct clients, and by witnesses that they miss some
mistakes. Here is what exactly they detect, for all clients (correct or not) and all wrapped producers and consumers.
-/

namespace Verif

open Outcome

variable {σ I F E : Type}

/-- `k` is what is left of the latest exposure in a list of observations: the number of items (or slots) exposed, minus the amounts
since then, whatever else has been observed since. Zero if nothing has been exposed. -/
def LeftOf {O : Type} (exposed : O → Option Nat) (amount : O → Nat) (l : List O) (k : Nat) : Prop :=
  ((∀ o ∈ l, exposed o = none) ∧ k = 0) ∨
  ∃ before o n after, l = before ++ o :: after ∧ exposed o = some n ∧ (∀ o ∈ after, exposed o = none) ∧
    k + (after.map amount).sum = n

section

variable {O : Type} {exposed : O → Option Nat} {amount : O → Nat}

theorem LeftOf.nil : LeftOf exposed amount [] 0 := .inl ⟨nofun, rfl⟩

theorem LeftOf.snoc {l : List O} {k k' : Nat} (h : LeftOf exposed amount l k) (o : O) (ho : exposed o = none)
    (hk : k' + amount o = k) : LeftOf exposed amount (l ++ [o]) k' := by
  rcases h with ⟨h1, h2⟩ | ⟨before, o₁, n, after, rfl, h0, h1, h2⟩
  · refine .inl ⟨?_, by omega⟩
    intro o' ho'
    rcases List.mem_append.1 ho' with h | h
    · exact h1 _ h
    · rw [List.mem_singleton.1 h]; exact ho
  · refine .inr ⟨before, o₁, n, after ++ [o], by simp, h0, ?_, ?_⟩
    · intro o' ho'
      rcases List.mem_append.1 ho' with h | h
      · exact h1 _ h
      · rw [List.mem_singleton.1 h]; exact ho
    · simp only [List.map_append, List.map_cons, List.map_nil, List.sum_append, List.sum_cons, List.sum_nil]; omega

theorem LeftOf.latest (l : List O) {o : O} {n : Nat} (ho : exposed o = some n) : LeftOf exposed amount (l ++ [o]) n :=
  .inr ⟨l, o, n, [], rfl, ho, nofun, rfl⟩

theorem LeftOf.unique {l : List O} {k k' : Nat} (h : LeftOf exposed amount l k) (h' : LeftOf exposed amount l k') : k = k' := by
  rcases h with ⟨h1, rfl⟩ | ⟨before, o, n, after, rfl, h0, h1, h2⟩
  · rcases h' with ⟨_, rfl⟩ | ⟨before, o, n, after, rfl, h0, _, _⟩
    · rfl
    · rw [h1 o (by simp)] at h0; cases h0
  · rcases h' with ⟨h3, _⟩ | ⟨before', o', n', after', h3, h0', h4, h5⟩
    · rw [h3 o (by simp)] at h0; cases h0
    · rcases List.append_eq_append_iff.1 h3 with ⟨a, _, h6⟩ | ⟨a, _, h6⟩
      · cases a with
        | nil =>
          simp only [List.nil_append, List.cons.injEq] at h6
          obtain ⟨rfl, rfl⟩ := h6
          rw [h0] at h0'; cases h0'; omega
        | cons o₁ a =>
          simp only [List.cons_append, List.cons.injEq] at h6
          rw [h1 o' (by simp [h6.2])] at h0'; cases h0'
      · cases a with
        | nil =>
          simp only [List.nil_append, List.cons.injEq] at h6
          obtain ⟨rfl, rfl⟩ := h6
          rw [h0] at h0'; cases h0'; omega
        | cons o₁ a =>
          simp only [List.cons_append, List.cons.injEq] at h6
          rw [h4 o (by simp [h6.2])] at h0; cases h0

private theorem noneEnds {Ends : O → Prop} {l : List O} {o : O} (h : ¬ Ends o) :
    (∃ o' ∈ l ++ [o], Ends o') ↔ ∃ o' ∈ l, Ends o' := by
  constructor
  · rintro ⟨o', h1, h2⟩
    rcases List.mem_append.1 h1 with h1 | h1
    · exact ⟨o', h1, h2⟩
    · rw [List.mem_singleton.1 h1] at h2; exact absurd h2 h
  · rintro ⟨o', h1, h2⟩; exact ⟨o', List.mem_append_left _ h1, h2⟩

end

/-! ## Producers -/

/-- A call of a required method of a producer together with its answer. -/
inductive Produced (I F E : Type) where
  | produce (answer : Except E (I ⊕ F))
  | slurp (answer : Except E Unit)
  | exposeItems (answer : Except E (List I ⊕ F))
  | considerProduced (amount : Nat) (answer : Except E Unit)

/-- What a client has observed, in order, on the way from `s₀` to `s`; the client may call whatever it likes. -/
inductive Observed (P : BulkProducer σ I F E) (s₀ : σ) : List (Produced I F E) → σ → Prop
  | start : Observed P s₀ [] s₀
  | produce {l s s' r} : Observed P s₀ l s → P.produce s = ok (s', r) → Observed P s₀ (l ++ [.produce r]) s'
  | slurp {l s s' r} : Observed P s₀ l s → P.slurp s = ok (s', r) → Observed P s₀ (l ++ [.slurp r]) s'
  | exposeItems {l s s' r} : Observed P s₀ l s → P.exposeItems s = ok (s', r) → Observed P s₀ (l ++ [.exposeItems r]) s'
  | considerProduced {l s s' k r} : Observed P s₀ l s → P.considerProduced s k = ok (s', r) →
      Observed P s₀ (l ++ [.considerProduced k r]) s'

namespace Produced

/-- The answer is a final value, or an error of a method other than `consider_produced`. -/
def Ends : Produced I F E → Prop
  | produce (.error _) | produce (.ok (.inr _)) | slurp (.error _) | exposeItems (.error _) | exposeItems (.ok (.inr _)) => True
  | _ => False

/-- The number of items that the call has considered produced, successfully or not. -/
def amount : Produced I F E → Nat
  | considerProduced k _ => k
  | _ => 0

/-- The number of items that the call has exposed, if it is a successful call of `expose_items`. -/
def exposed : Produced I F E → Option Nat
  | exposeItems (.ok (.inl xs)) => some xs.length
  | _ => none

/-- `k` is the number of items of the latest exposure, minus those that have been considered produced since then, whatever else
has been called since. Zero if nothing has been exposed. -/
def Left (l : List (Produced I F E)) (k : Nat) : Prop := LeftOf exposed amount l k

end Produced

/-- The state of the wrapper, after whatever has been called. -/
theorem Observed.invariant_state {P : BulkProducer σ I F E} {s : σ} {l : List (Produced I F E)} {t : InvariantSt σ}
    (h : Observed (invariantBulkProducer P) (.new s) l t) :
    Observed P s l t.inner ∧ (t.active = false ↔ ∃ o ∈ l, o.Ends) ∧ Produced.Left l t.exposedSlots := by
  induction h with
  | start => exact ⟨.start, by simp [InvariantSt.new], .nil⟩
  | @produce l t t' r _ hc ih =>
    obtain ⟨h1, h2, h3⟩ := ih
    obtain ⟨u, act, e⟩ := t
    cases act with
    | false => simp [invariantBulkProducer, invariantBufferedProducer, invariantProducer, InvariantSt.checkInactive] at hc
    | true =>
      simp only [invariantBulkProducer, invariantBufferedProducer, invariantProducer, InvariantSt.checkInactive] at hc
      rcases hp : P.produce u with ⟨u', e' | x | f⟩ | _ | _ <;> simp [hp] at hc <;> obtain ⟨rfl, rfl⟩ := hc
      · exact ⟨h1.produce hp, by simp [Produced.Ends], h3.snoc _ rfl rfl⟩
      · refine ⟨h1.produce hp, ?_, h3.snoc _ rfl rfl⟩
        rw [noneEnds (by simp [Produced.Ends])]; exact h2
      · exact ⟨h1.produce hp, by simp [Produced.Ends], h3.snoc _ rfl rfl⟩
  | @slurp l t t' r _ hc ih =>
    obtain ⟨h1, h2, h3⟩ := ih
    obtain ⟨u, act, e⟩ := t
    cases act with
    | false => simp [invariantBulkProducer, invariantBufferedProducer, InvariantSt.checkInactive] at hc
    | true =>
      simp only [invariantBulkProducer, invariantBufferedProducer, InvariantSt.checkInactive] at hc
      rcases hp : P.slurp u with ⟨u', e' | x⟩ | _ | _ <;> simp [hp] at hc <;> obtain ⟨rfl, rfl⟩ := hc
      · exact ⟨h1.slurp hp, by simp [Produced.Ends], h3.snoc _ rfl rfl⟩
      · refine ⟨h1.slurp hp, ?_, h3.snoc _ rfl rfl⟩
        rw [noneEnds (by simp [Produced.Ends])]; exact h2
  | @exposeItems l t t' r _ hc ih =>
    obtain ⟨h1, h2, h3⟩ := ih
    obtain ⟨u, act, e⟩ := t
    cases act with
    | false => simp [invariantBulkProducer, InvariantSt.checkInactive] at hc
    | true =>
      simp only [invariantBulkProducer, InvariantSt.checkInactive] at hc
      rcases hp : P.exposeItems u with ⟨u', e' | x | f⟩ | _ | _ <;> simp [hp] at hc <;> obtain ⟨rfl, rfl⟩ := hc
      · exact ⟨h1.exposeItems hp, by simp [Produced.Ends], h3.snoc _ rfl rfl⟩
      · refine ⟨h1.exposeItems hp, ?_, .latest _ rfl⟩
        rw [noneEnds (by simp [Produced.Ends])]; exact h2
      · exact ⟨h1.exposeItems hp, by simp [Produced.Ends], h3.snoc _ rfl rfl⟩
  | @considerProduced l t t' k r _ hc ih =>
    obtain ⟨h1, h2, h3⟩ := ih
    obtain ⟨u, act, e⟩ := t
    cases act with
    | false => simp [invariantBulkProducer, InvariantSt.checkInactive] at hc
    | true =>
      simp only [invariantBulkProducer, InvariantSt.checkInactive] at hc
      by_cases hk : k > e
      · simp [hk] at hc
      · rcases hp : P.considerProduced u k with ⟨u', r'⟩ | _ | _ <;>
          simp [hk, hp, sub, Nat.not_lt.1 hk] at hc
        obtain ⟨rfl, rfl⟩ := hc
        refine ⟨h1.considerProduced hp, ?_, h3.snoc _ rfl (by simp [Produced.amount]; omega)⟩
        rw [noneEnds (by simp [Produced.Ends])]; exact h2

/-- **C25, exactly.** After whatever a client has called and observed of a wrapped producer (lawful or not):

* the unwrapped producer would have given the same answers, and would be in the same state;
* if some answer was a final value, or an error of a method other than `consider_produced`, then every call panics;
* otherwise `produce`, `slurp`, and `expose_items` do what they do for the unwrapped producer, and so does `consider_produced` up
  to the number `k` of items of the latest exposure that are left; beyond that it panics.

So mistakes that are missed are exactly: calls after an error of `consider_produced`; and considering items produced that have been
exposed before an intermediate call of another method. -/
theorem producer_invariant_exact {P : BulkProducer σ I F E} {s : σ} {l : List (Produced I F E)} {t : InvariantSt σ}
    (h : Observed (invariantBulkProducer P) (.new s) l t) {k : Nat} (hk : Produced.Left l k) :
    Observed P s l t.inner ∧
    ((∃ o ∈ l, o.Ends) → (invariantBulkProducer P).produce t = .panic ∧ (invariantBulkProducer P).slurp t = .panic ∧
      (invariantBulkProducer P).exposeItems t = .panic ∧ ∀ n, (invariantBulkProducer P).considerProduced t n = .panic) ∧
    ((∀ o ∈ l, ¬ o.Ends) →
      ((invariantBulkProducer P).produce t).bind (fun x => ok (x.1.inner, x.2)) = P.produce t.inner ∧
      ((invariantBulkProducer P).slurp t).bind (fun x => ok (x.1.inner, x.2)) = P.slurp t.inner ∧
      ((invariantBulkProducer P).exposeItems t).bind (fun x => ok (x.1.inner, x.2)) = P.exposeItems t.inner ∧
      ∀ n, (n ≤ k → ((invariantBulkProducer P).considerProduced t n).bind (fun x => ok (x.1.inner, x.2)) =
          P.considerProduced t.inner n) ∧
        (k < n → (invariantBulkProducer P).considerProduced t n = .panic)) := by
  obtain ⟨h1, h2, h3⟩ := h.invariant_state
  obtain rfl := hk.unique h3
  refine ⟨h1, fun he => ?_, fun he => ?_⟩
  · have ha := h2.2 he
    simp [invariantBulkProducer, invariantBufferedProducer, invariantProducer, InvariantSt.checkInactive, ha]
  · have ha : t.active = true := by
      cases hact : t.active with
      | true => rfl
      | false => obtain ⟨o, ho, hends⟩ := h2.1 hact; exact absurd hends (he o ho)
    obtain ⟨u, act, e⟩ := t
    obtain rfl : act = true := ha
    simp only [invariantBulkProducer, invariantBufferedProducer, invariantProducer, InvariantSt.checkInactive]
    refine ⟨?_, ?_, ?_, fun n => ⟨fun hn => ?_, fun hn => ?_⟩⟩
    · rcases hp : P.produce u with ⟨u', e' | x | f⟩ | _ | _ <;> simp [Outcome.bind]
    · rcases hp : P.slurp u with ⟨u', e' | x⟩ | _ | _ <;> simp [Outcome.bind]
    · rcases hp : P.exposeItems u with ⟨u', e' | x | f⟩ | _ | _ <;> simp [Outcome.bind]
    · rcases hp : P.considerProduced u n with ⟨u', r'⟩ | _ | _ <;> simp [Outcome.bind, sub, hn, Nat.not_lt.2 hn]
    · simp [hn]

/-- A client that has exposed three items, considered two of them produced, and then produced the third one: the wrapper still
lets it consider one item produced, but not two. -/
example : ∃ t, Observed (invariantBulkProducer (FromSlice.producer Nat)) (.new (FromSlice.new [1, 2, 3]))
      [.exposeItems (.ok (.inl [1, 2, 3])), .considerProduced 2 (.ok ()), .produce (.ok (.inl 3))] t ∧
    ((invariantBulkProducer (FromSlice.producer Nat)).considerProduced t 1).bind (fun x => ok (x.1.inner, x.2)) =
      (FromSlice.producer Nat).considerProduced t.inner 1 ∧
    (invariantBulkProducer (FromSlice.producer Nat)).considerProduced t 2 = .panic := by
  have h : Observed (invariantBulkProducer (FromSlice.producer Nat)) (.new (FromSlice.new [1, 2, 3]))
      [.exposeItems (.ok (.inl [1, 2, 3])), .considerProduced 2 (.ok ()), .produce (.ok (.inl 3))] ⟨⟨[1, 2, 3], 3⟩, true, 1⟩ :=
    .produce (.considerProduced (.exposeItems .start rfl) rfl) rfl
  have hk : Produced.Left (F := Unit) (E := Empty) (I := Nat)
      [.exposeItems (.ok (.inl [1, 2, 3])), .considerProduced 2 (.ok ()), .produce (.ok (.inl 3))] 1 :=
    .inr ⟨[], _, 3, _, rfl, rfl, by intro o ho; simp at ho; rcases ho with rfl | rfl <;> rfl, rfl⟩
  have := ((producer_invariant_exact h hk).2.2 (by intro o ho; simp at ho; rcases ho with rfl | rfl | rfl <;> simp [Produced.Ends])).2.2.2
  exact ⟨_, h, (this 1).1 (Nat.le_refl _), (this 2).2 (by decide)⟩

/-! ## Consumers -/

/-- A call of a required method of a consumer together with its answer, or writing to slots. -/
inductive Consumed (I F E : Type) where
  | consume (item : I) (answer : Except E Unit)
  | close (fin : F) (answer : Except E Unit)
  | flush (answer : Except E Unit)
  | exposeSlots (answer : Except E (List I))
  | write (items : List I)
  | consumeSlots (amount : Nat) (answer : Except E Unit)

/-- What a client has done and observed, in order, on the way from `s₀` to `s`; the client may call whatever it likes. -/
inductive ObservedConsumer (C : BulkConsumer σ I F E) (s₀ : σ) : List (Consumed I F E) → σ → Prop
  | start : ObservedConsumer C s₀ [] s₀
  | consume {l s s' x r} : ObservedConsumer C s₀ l s → C.consume s x = ok (s', r) → ObservedConsumer C s₀ (l ++ [.consume x r]) s'
  | close {l s s' f r} : ObservedConsumer C s₀ l s → C.close s f = ok (s', r) → ObservedConsumer C s₀ (l ++ [.close f r]) s'
  | flush {l s s' r} : ObservedConsumer C s₀ l s → C.flush s = ok (s', r) → ObservedConsumer C s₀ (l ++ [.flush r]) s'
  | exposeSlots {l s s' r} : ObservedConsumer C s₀ l s → C.exposeSlots s = ok (s', r) →
      ObservedConsumer C s₀ (l ++ [.exposeSlots r]) s'
  | write {l s ws} : ObservedConsumer C s₀ l s → ObservedConsumer C s₀ (l ++ [.write ws]) (C.writeSlots s ws)
  | consumeSlots {l s s' k r} : ObservedConsumer C s₀ l s → C.consumeSlots s k = ok (s', r) →
      ObservedConsumer C s₀ (l ++ [.consumeSlots k r]) s'

namespace Consumed

/-- A call of `close`, or one that has returned an error, of a method other than `consume_slots`. -/
def Ends : Consumed I F E → Prop
  | close _ _ | consume _ (.error _) | flush (.error _) | exposeSlots (.error _) => True
  | _ => False

/-- The number of slots that the call has considered consumed, successfully or not. -/
def amount : Consumed I F E → Nat
  | consumeSlots k _ => k
  | _ => 0

/-- The number of slots that the call has exposed, if it is a successful call of `expose_slots`. -/
def exposed : Consumed I F E → Option Nat
  | exposeSlots (.ok slots) => some slots.length
  | _ => none

/-- `k` is the number of slots of the latest exposure, minus those that have been consumed since then with `consume_slots`,
whatever else has been called since. Zero if nothing has been exposed. -/
def Left (l : List (Consumed I F E)) (k : Nat) : Prop := LeftOf exposed amount l k

end Consumed

theorem ObservedConsumer.invariant_state {C : BulkConsumer σ I F E} {s : σ} {l : List (Consumed I F E)} {t : InvariantSt σ}
    (h : ObservedConsumer (invariantBulkConsumer C) (.new s) l t) :
    ObservedConsumer C s l t.inner ∧ (t.active = false ↔ ∃ o ∈ l, o.Ends) ∧ Consumed.Left l t.exposedSlots := by
  induction h with
  | start => exact ⟨.start, by simp [InvariantSt.new], .nil⟩
  | @consume l t t' x r _ hc ih =>
    obtain ⟨h1, h2, h3⟩ := ih
    obtain ⟨u, act, e⟩ := t
    cases act with
    | false => simp [invariantBulkConsumer, invariantBufferedConsumer, invariantConsumer, InvariantSt.checkInactive] at hc
    | true =>
      simp only [invariantBulkConsumer, invariantBufferedConsumer, invariantConsumer, InvariantSt.checkInactive] at hc
      rcases hp : C.consume u x with ⟨u', e' | _⟩ | _ | _ <;> simp [hp] at hc <;> obtain ⟨rfl, rfl⟩ := hc
      · exact ⟨h1.consume hp, by simp [Consumed.Ends], h3.snoc _ rfl rfl⟩
      · refine ⟨h1.consume hp, ?_, h3.snoc _ rfl rfl⟩
        rw [noneEnds (by simp [Consumed.Ends])]; exact h2
  | @close l t t' f r _ hc ih =>
    obtain ⟨h1, h2, h3⟩ := ih
    obtain ⟨u, act, e⟩ := t
    cases act with
    | false => simp [invariantBulkConsumer, invariantBufferedConsumer, invariantConsumer, InvariantSt.checkInactive] at hc
    | true =>
      simp only [invariantBulkConsumer, invariantBufferedConsumer, invariantConsumer, InvariantSt.checkInactive] at hc
      rcases hp : C.close u f with ⟨u', r'⟩ | _ | _ <;> simp [hp] at hc
      obtain ⟨rfl, rfl⟩ := hc
      exact ⟨h1.close hp, by simp [Consumed.Ends], h3.snoc _ rfl rfl⟩
  | @flush l t t' r _ hc ih =>
    obtain ⟨h1, h2, h3⟩ := ih
    obtain ⟨u, act, e⟩ := t
    cases act with
    | false => simp [invariantBulkConsumer, invariantBufferedConsumer, InvariantSt.checkInactive] at hc
    | true =>
      simp only [invariantBulkConsumer, invariantBufferedConsumer, InvariantSt.checkInactive] at hc
      rcases hp : C.flush u with ⟨u', e' | _⟩ | _ | _ <;> simp [hp] at hc <;> obtain ⟨rfl, rfl⟩ := hc
      · exact ⟨h1.flush hp, by simp [Consumed.Ends], h3.snoc _ rfl rfl⟩
      · refine ⟨h1.flush hp, ?_, h3.snoc _ rfl rfl⟩
        rw [noneEnds (by simp [Consumed.Ends])]; exact h2
  | @exposeSlots l t t' r _ hc ih =>
    obtain ⟨h1, h2, h3⟩ := ih
    obtain ⟨u, act, e⟩ := t
    cases act with
    | false => simp [invariantBulkConsumer, InvariantSt.checkInactive] at hc
    | true =>
      simp only [invariantBulkConsumer, InvariantSt.checkInactive] at hc
      rcases hp : C.exposeSlots u with ⟨u', e' | x⟩ | _ | _ <;> simp [hp] at hc <;> obtain ⟨rfl, rfl⟩ := hc
      · exact ⟨h1.exposeSlots hp, by simp [Consumed.Ends], h3.snoc _ rfl rfl⟩
      · refine ⟨h1.exposeSlots hp, ?_, .latest _ rfl⟩
        rw [noneEnds (by simp [Consumed.Ends])]; exact h2
  | @write l t ws _ ih =>
    obtain ⟨h1, h2, h3⟩ := ih
    refine ⟨h1.write, ?_, h3.snoc _ rfl rfl⟩
    rw [noneEnds (by simp [Consumed.Ends])]; exact h2
  | @consumeSlots l t t' k r _ hc ih =>
    obtain ⟨h1, h2, h3⟩ := ih
    obtain ⟨u, act, e⟩ := t
    cases act with
    | false => simp [invariantBulkConsumer, InvariantSt.checkInactive] at hc
    | true =>
      simp only [invariantBulkConsumer, InvariantSt.checkInactive] at hc
      by_cases hk : k > e
      · simp [hk] at hc
      · rcases hp : C.consumeSlots u k with ⟨u', r'⟩ | _ | _ <;>
          simp [hk, hp, sub, Nat.not_lt.1 hk] at hc
        obtain ⟨rfl, rfl⟩ := hc
        refine ⟨h1.consumeSlots hp, ?_, h3.snoc _ rfl (by simp [Consumed.amount]; omega)⟩
        rw [noneEnds (by simp [Consumed.Ends])]; exact h2

/-- **C26, exactly.** After whatever a client has called and observed of a wrapped consumer (lawful or not):

* the unwrapped consumer would have given the same answers, and would be in the same state;
* if `close` has been called, or a method other than `consume_slots` has returned an error, then every call panics;
* otherwise `consume`, `close`, `flush`, and `expose_slots` do what they do for the unwrapped consumer, and so does `consume_slots`
  up to the number `k` of slots of the latest exposure that are left; beyond that it panics. -/
theorem consumer_invariant_exact {C : BulkConsumer σ I F E} {s : σ} {l : List (Consumed I F E)} {t : InvariantSt σ}
    (h : ObservedConsumer (invariantBulkConsumer C) (.new s) l t) {k : Nat} (hk : Consumed.Left l k) :
    ObservedConsumer C s l t.inner ∧
    ((∃ o ∈ l, o.Ends) → (∀ x, (invariantBulkConsumer C).consume t x = .panic) ∧
      (∀ f, (invariantBulkConsumer C).close t f = .panic) ∧ (invariantBulkConsumer C).flush t = .panic ∧
      (invariantBulkConsumer C).exposeSlots t = .panic ∧ ∀ n, (invariantBulkConsumer C).consumeSlots t n = .panic) ∧
    ((∀ o ∈ l, ¬ o.Ends) →
      (∀ x, ((invariantBulkConsumer C).consume t x).bind (fun x => ok (x.1.inner, x.2)) = C.consume t.inner x) ∧
      (∀ f, ((invariantBulkConsumer C).close t f).bind (fun x => ok (x.1.inner, x.2)) = C.close t.inner f) ∧
      ((invariantBulkConsumer C).flush t).bind (fun x => ok (x.1.inner, x.2)) = C.flush t.inner ∧
      ((invariantBulkConsumer C).exposeSlots t).bind (fun x => ok (x.1.inner, x.2)) = C.exposeSlots t.inner ∧
      ∀ n, (n ≤ k → ((invariantBulkConsumer C).consumeSlots t n).bind (fun x => ok (x.1.inner, x.2)) =
          C.consumeSlots t.inner n) ∧
        (k < n → (invariantBulkConsumer C).consumeSlots t n = .panic)) := by
  obtain ⟨h1, h2, h3⟩ := h.invariant_state
  obtain rfl := hk.unique h3
  refine ⟨h1, fun he => ?_, fun he => ?_⟩
  · have ha := h2.2 he
    simp [invariantBulkConsumer, invariantBufferedConsumer, invariantConsumer, InvariantSt.checkInactive, ha]
  · have ha : t.active = true := by
      cases hact : t.active with
      | true => rfl
      | false => obtain ⟨o, ho, hends⟩ := h2.1 hact; exact absurd hends (he o ho)
    obtain ⟨u, act, e⟩ := t
    obtain rfl : act = true := ha
    simp only [invariantBulkConsumer, invariantBufferedConsumer, invariantConsumer, InvariantSt.checkInactive]
    refine ⟨fun x => ?_, fun f => ?_, ?_, ?_, fun n => ⟨fun hn => ?_, fun hn => ?_⟩⟩
    · rcases hp : C.consume u x with ⟨u', e' | _⟩ | _ | _ <;> simp [Outcome.bind]
    · rcases hp : C.close u f with ⟨u', r⟩ | _ | _ <;> simp [Outcome.bind]
    · rcases hp : C.flush u with ⟨u', e' | _⟩ | _ | _ <;> simp [Outcome.bind]
    · rcases hp : C.exposeSlots u with ⟨u', e' | x⟩ | _ | _ <;> simp [Outcome.bind]
    · rcases hp : C.consumeSlots u n with ⟨u', r'⟩ | _ | _ <;> simp [Outcome.bind, sub, hn, Nat.not_lt.2 hn]
    · simp [hn]

/-- A client that has exposed a slot and then consumed an item otherwise: the wrapper still lets it consume one slot, but not
two. After closing, everything panics. -/
example : (∃ t, ObservedConsumer (invariantBulkConsumer (IntoVec.consumer Nat)) (.new IntoVec.new)
      [.exposeSlots (.ok [0]), .write [5], .consume 7 (.ok ())] t ∧
    ((invariantBulkConsumer (IntoVec.consumer Nat)).consumeSlots t 1).bind (fun x => ok (x.1.inner, x.2)) =
      (IntoVec.consumer Nat).consumeSlots t.inner 1 ∧
    (invariantBulkConsumer (IntoVec.consumer Nat)).consumeSlots t 2 = .panic) ∧
    ∃ t, ObservedConsumer (invariantBulkConsumer (IntoVec.consumer Nat)) (.new IntoVec.new) [.close () (.ok ())] t ∧
      (invariantBulkConsumer (IntoVec.consumer Nat)).flush t = .panic := by
  constructor
  · have h : ObservedConsumer (invariantBulkConsumer (IntoVec.consumer Nat)) (.new IntoVec.new)
        [.exposeSlots (.ok [0]), .write [5], .consume 7 (.ok ())] ⟨⟨[7], 1⟩, true, 1⟩ :=
      .consume (.write (.exposeSlots .start rfl)) rfl
    have hk : Consumed.Left (F := Unit) (E := Empty) (I := Nat)
        [.exposeSlots (.ok [0]), .write [5], .consume 7 (.ok ())] 1 :=
      .inr ⟨[], _, 1, _, rfl, rfl, by intro o ho; simp at ho; rcases ho with rfl | rfl <;> rfl, rfl⟩
    have := ((consumer_invariant_exact h hk).2.2
      (by intro o ho; simp at ho; rcases ho with rfl | rfl | rfl <;> simp [Consumed.Ends])).2.2.2.2
    exact ⟨_, h, (this 1).1 (Nat.le_refl _), (this 2).2 (by decide)⟩
  · have h : ObservedConsumer (invariantBulkConsumer (IntoVec.consumer Nat)) (.new IntoVec.new) [.close () (.ok ())]
        ⟨IntoVec.new, false, 0⟩ := .close .start rfl
    exact ⟨_, h, ((consumer_invariant_exact h (k := 0) (.inl ⟨by simp [Consumed.exposed], rfl⟩)).2.1
      ⟨_, List.mem_singleton.2 rfl, trivial⟩).2.2.1⟩

end Verif
