import Verif.Model.WordTest
import Verif.Lemmas.WordAdaptors
import Verif.Lemmas.TestConsumer

/-!
# Helper lemmas for `Props/WordTest.lean`
-/

namespace Verif

open Outcome

/-- What every iteration of a loop preserves holds in the end. -/
theorem loop_keeps {σ ρ : Type} {body : σ → Outcome (Step σ ρ)} (Inv : σ → Prop) (Post : ρ → Prop)
    (hc : ∀ s s', Inv s → body s = ok (.continue s') → Inv s') (hd : ∀ s r, Inv s → body s = ok (.done r) → Post r)
    {s : σ} {r : ρ} (hs : Inv s) (h : loop body s = ok r) : Post r := by
  by_cases hex : ∃ n, loopFuel body n s ≠ diverge
  · obtain ⟨n, hn⟩ := hex
    rw [loop_eq_of_fuel hn] at h
    clear hn
    induction n generalizing s with
    | zero => cases h
    | succ n ih =>
      rw [loopFuel] at h
      rcases hb : body s with (s' | r') | _ | _ <;> simp only [hb] at h
      · exact ih (hc s s' hs hb) h
      · cases h; exact hd s _ hs hb
      · cases h
      · cases h
  · unfold loop at h
    rw [dif_neg hex] at h
    cases h

/-! ## `TestYielder` and the sizes -/

namespace TestYielder

theorem poll_pattern {y y' : TestYielder} {b : Bool} (h : y.poll = ok (y', b)) : y'.pattern = y.pattern := by
  simp only [poll, bind_eq, bind_eq_ok] at h
  obtain ⟨d, _, i, _, h⟩ := h
  cases d <;> · simp at h; rw [← h.1]

theorem awaitBody_pattern {y : TestYielder} : (∀ y', y.awaitBody = ok (.continue y') → y'.pattern = y.pattern) ∧
    (∀ y', y.awaitBody = ok (.done y') → y'.pattern = y.pattern) := by
  constructor <;> intro y' h <;> simp only [awaitBody, bind_eq, bind_eq_ok] at h <;> obtain ⟨⟨y'', b⟩, h1, h2⟩ := h <;>
    have := poll_pattern h1 <;> cases b <;> simp only at h2
  · cases h2
  · split at h2
    · cases h2
    · cases h2; exact this
  · cases h2; exact this
  · split at h2 <;> cases h2

theorem maybeYield_pattern {y y' : TestYielder} (h : y.maybeYield = ok y') : y'.pattern = y.pattern :=
  loop_keeps (fun z => z.pattern = y.pattern) (fun z => z.pattern = y.pattern)
    (fun _ _ hs hb => (awaitBody_pattern.1 _ hb).trans hs) (fun _ _ hs hb => (awaitBody_pattern.2 _ hb).trans hs) rfl h

end TestYielder

/-- The pattern of an optional yielder is short enough. -/
def YielderFits (w : Word) (y : Option TestYielder) : Prop := ∀ y', y = some y' → y'.pattern.length < w.size

/-- The number of sizes is small enough. -/
def SizesFit (w : Word) (z : Option Sizes) : Prop := ∀ z', z = some z' → z'.sizes.length < w.size

theorem maybeYield_fits {w : Word} {y y' : Option TestYielder} (hy : YielderFits w y) (h : maybeYield y = ok y') :
    YielderFits w y' := by
  rcases y with _ | y
  · simp [maybeYield] at h; subst h; exact hy
  · simp only [maybeYield, bind_eq, bind_eq_ok] at h
    obtain ⟨z, h1, h2⟩ := h
    simp at h2
    subst h2
    rintro _ ⟨⟩
    rw [TestYielder.maybeYield_pattern h1]
    exact hy y rfl

theorem word_poll (w : Word) {y : TestYielder} (h : y.pattern.length < w.size) : WordTestYielder.poll w y = y.poll := by
  simp only [WordTestYielder.poll, TestYielder.poll]
  by_cases hi : y.index < y.pattern.length
  · rw [index_of_lt hi]
    simp only [bind_eq, bind_ok]
    rw [Word.add_ok (by omega)]
    simp only [bind_ok]
  · simp [index, hi]

theorem word_maybe_yield (w : Word) {y : TestYielder} (h : y.pattern.length < w.size) :
    WordTestYielder.maybeYield w y = y.maybeYield :=
  loop_agree (fun y => y.pattern.length < w.size) (fun y hy => ⟨by
    simp only [WordTestYielder.awaitBody, TestYielder.awaitBody, word_poll w hy]; rfl, fun z hz => by
    rw [TestYielder.awaitBody_pattern.1 z hz]; exact hy⟩) h

theorem word_maybeYield (w : Word) {y : Option TestYielder} (h : YielderFits w y) : wordMaybeYield w y = maybeYield y := by
  rcases y with _ | y
  · rfl
  · simp only [wordMaybeYield, maybeYield, word_maybe_yield w (h y rfl)]

theorem word_next_size (w : Word) {z : Sizes} (h : z.sizes.length < w.size) : wordNextSize w z = z.next := by
  simp only [wordNextSize, Sizes.next]
  by_cases hi : z.index < z.sizes.length
  · rw [index_of_lt hi]
    simp only [bind_eq, bind_ok]
    rw [Word.add_ok (by omega)]
    simp only [bind_ok]
  · simp [index, hi]

theorem Sizes.next_sizes {z z' : Sizes} {m : Nat} (h : z.next = ok (z', m)) : z'.sizes = z.sizes := by
  simp only [next, bind_eq, bind_eq_ok] at h
  obtain ⟨d, _, i, _, h⟩ := h
  cases h
  rfl

theorem yielderFits_new {w : Word} {p : Option (List Bool)} (h : ∀ p', p = some p' → p'.length + 1 < w.size) :
    YielderFits w (p.map fun p => TestYielder.new (TestYielder.extended p)) := by
  rcases p with _ | p
  · simp [YielderFits]
  · rintro _ ⟨⟩
    have := h p rfl
    simp only [TestYielder.new, TestYielder.extended_extended]
    unfold TestYielder.extended
    split
    · simp; omega
    · omega

theorem sizesFit_new {w : Word} {sizes : List NonZero} (h : sizes.length < w.size) : SizesFit w (Sizes.new sizes) := by
  intro z hz
  unfold Sizes.new at hz
  split at hz
  · cases hz; exact h
  · cases hz

/-! ## What all calls preserve -/

section

variable {σ I F E : Type}

/-- `Inv s n` survives all allowed calls that do not end the sequence, where `n` items are exposed. -/
structure BulkProducer.KeepsInv (P : BulkProducer σ I F E) (Inv : σ → Nat → Prop) : Prop where
  produce : ∀ {s n s' x}, Inv s n → P.produce s = ok (s', .ok (.inl x)) → Inv s' 0
  slurp : ∀ {s n s'}, Inv s n → P.slurp s = ok (s', .ok ()) → Inv s' 0
  expose : ∀ {s n s' xs}, Inv s n → P.exposeItems s = ok (s', .ok (.inl xs)) → Inv s' xs.length
  consider : ∀ {s n k s'}, Inv s n → k ≤ n → P.considerProduced s k = ok (s', .ok ()) → Inv s' (n - k)
  forget : ∀ {s n}, Inv s n → Inv s 0

theorem BulkProducer.KeepsInv.runs {P : BulkProducer σ I F E} {Inv : σ → Nat → Prop} (hK : P.KeepsInv Inv)
    (hdef : P.bulkProduce = bulkProduceDefault P.exposeItems P.considerProduced) {s₀ s : σ} (h₀ : Inv s₀ 0)
    {handed shown : List I} {ended : Option (Except E F)} (h : ProducerRuns P s₀ handed s shown ended) :
    ended = none → Inv s shown.length := by
  induction h with
  | start => intro _; exact h₀
  | @call handed s shown op s' r h hop hcall ih =>
    intro hn
    have ih := ih rfl
    cases op with
    | produce =>
      simp only [BulkProducer.call] at hcall
      rcases hp : P.produce s with ⟨t, e | x | f⟩ | _ | _ <;> simp [hp] at hcall <;> obtain ⟨rfl, rfl⟩ := hcall <;> simp at hn
      exact hK.produce ih hp
    | slurp =>
      simp only [BulkProducer.call] at hcall
      rcases hp : P.slurp s with ⟨t, e | x⟩ | _ | _ <;> simp [hp] at hcall <;> obtain ⟨rfl, rfl⟩ := hcall <;> simp at hn
      exact hK.slurp ih hp
    | exposeItems =>
      simp only [BulkProducer.call] at hcall
      rcases hp : P.exposeItems s with ⟨t, e | x | f⟩ | _ | _ <;> simp [hp] at hcall <;> obtain ⟨rfl, rfl⟩ := hcall <;>
        simp at hn
      exact hK.expose ih hp
    | considerProduced k =>
      simp only [BulkProducer.call] at hcall
      rcases hp : P.considerProduced s k with ⟨t, e | x⟩ | _ | _ <;> simp [hp] at hcall <;> obtain ⟨rfl, rfl⟩ := hcall <;>
        simp at hn
      simp only [List.length_drop]
      exact hK.consider ih hop.2 hp
    | bulkProduce buf =>
      simp only [BulkProducer.call, hdef, bulkProduceDefault] at hcall
      rcases hp : P.exposeItems s with ⟨t, e | xs | f⟩ | _ | _ <;> simp [hp] at hcall
      · obtain ⟨rfl, rfl⟩ := hcall; simp at hn
      · have h1 := hK.expose ih hp
        rcases hq : P.considerProduced t (min xs.length buf.length) with ⟨t', e | x⟩ | _ | _ <;> simp [hq] at hcall <;>
          obtain ⟨rfl, rfl⟩ := hcall <;> simp at hn
        exact hK.forget (hK.consider h1 (Nat.min_le_left _ _) hq)
      · obtain ⟨rfl, rfl⟩ := hcall; simp at hn

/-- `Inv s n` survives all allowed calls that do not end the sequence, where `n` slots are exposed. -/
structure BulkConsumer.KeepsInv (C : BulkConsumer σ I F E) (Inv : σ → Nat → Prop) : Prop where
  consume : ∀ {s n s' x}, Inv s n → C.consume s x = ok (s', .ok ()) → Inv s' 0
  flush : ∀ {s n s'}, Inv s n → C.flush s = ok (s', .ok ()) → Inv s' 0
  expose : ∀ {s n s' xs}, Inv s n → C.exposeSlots s = ok (s', .ok xs) → Inv s' xs.length
  write : ∀ {s n ws}, Inv s n → ws.length ≤ n → Inv (C.writeSlots s ws) n
  consumeSlots : ∀ {s n k s'}, Inv s n → k ≤ n → C.consumeSlots s k = ok (s', .ok ()) → Inv s' (n - k)
  forget : ∀ {s n}, Inv s n → Inv s 0

theorem BulkConsumer.KeepsInv.runs {C : BulkConsumer σ I F E} {Inv : σ → Nat → Prop} (hK : C.KeepsInv Inv)
    (hdef : C.bulkConsume = bulkConsumeDefault C.exposeSlots C.writeSlots C.consumeSlots) {s₀ s : σ} (h₀ : Inv s₀ 0)
    {taken slots : List I} {ended : Option (ConsumerEnd I F E)} (h : ConsumerRuns C s₀ taken s slots ended) :
    ended = none → Inv s slots.length := by
  induction h with
  | start => intro _; exact h₀
  | @call taken s slots op s' r h hop hcall ih =>
    intro hn
    have ih := ih rfl
    cases op with
    | consume x =>
      simp only [BulkConsumer.call] at hcall
      rcases hp : C.consume s x with ⟨t, e | x⟩ | _ | _ <;> simp [hp] at hcall <;> obtain ⟨rfl, rfl⟩ := hcall <;> simp at hn
      exact hK.consume ih hp
    | flush =>
      simp only [BulkConsumer.call] at hcall
      rcases hp : C.flush s with ⟨t, e | x⟩ | _ | _ <;> simp [hp] at hcall <;> obtain ⟨rfl, rfl⟩ := hcall <;> simp at hn
      exact hK.flush ih hp
    | close f =>
      simp only [BulkConsumer.call] at hcall
      rcases hp : C.close s f with ⟨t, e | x⟩ | _ | _ <;> simp [hp] at hcall <;> obtain ⟨rfl, rfl⟩ := hcall <;> simp at hn
    | exposeSlots =>
      simp only [BulkConsumer.call] at hcall
      rcases hp : C.exposeSlots s with ⟨t, e | x⟩ | _ | _ <;> simp [hp] at hcall <;> obtain ⟨rfl, rfl⟩ := hcall <;>
        simp at hn
      exact hK.expose ih hp
    | write ws =>
      simp only [ConsumerOp.Allowed] at hop
      simp [BulkConsumer.call] at hcall
      obtain ⟨rfl, rfl⟩ := hcall
      have := hK.write ih hop
      rwa [show (ws ++ slots.drop ws.length).length = slots.length by simp; omega]
    | consumeSlots k =>
      simp only [BulkConsumer.call] at hcall
      rcases hp : C.consumeSlots s k with ⟨t, e | x⟩ | _ | _ <;> simp [hp] at hcall <;> obtain ⟨rfl, rfl⟩ := hcall <;>
        simp at hn
      simp only [List.length_drop]
      exact hK.consumeSlots ih hop.2 hp
    | bulkConsume buf =>
      simp only [BulkConsumer.call, hdef, bulkConsumeDefault] at hcall
      rcases hp : C.exposeSlots s with ⟨t, e | xs⟩ | _ | _ <;> simp [hp] at hcall
      · obtain ⟨rfl, rfl⟩ := hcall; simp at hn
      · have h1 := hK.expose ih hp
        have h2 := hK.write (ws := buf.take (min xs.length buf.length)) h1 (by rw [List.length_take]; omega)
        rcases hq : C.consumeSlots (C.writeSlots t (buf.take (min xs.length buf.length))) (min xs.length buf.length)
          with ⟨t', e | x⟩ | _ | _ <;> simp [hq] at hcall <;> obtain ⟨rfl, rfl⟩ := hcall <;> simp at hn
        exact hK.forget (hK.consumeSlots h2 (Nat.min_le_left _ _) hq)

end

/-! ## The public types -/

section

variable {σ I F E : Type} {test : Bool}

theorem publicProducer_produce {P : BulkProducer σ I F E} {s s' : InvariantSt σ} {r}
    (h : (publicProducer test P).produce s = ok (s', r)) : P.produce s.inner = ok (s'.inner, r) := by
  cases test <;> simp only [publicProducer, unusedInvariantBulkProducer, invariantBulkProducer, invariantBufferedProducer,
    invariantProducer, bind_eq, bind_eq_ok, if_true, Bool.false_eq_true, if_false] at h
  · obtain ⟨⟨u, r'⟩, h1, h2⟩ := h; cases h2; exact h1
  · obtain ⟨_, _, ⟨u, r'⟩, h1, h2⟩ := h
    rw [h1]
    rcases r' with e | x | f <;> · cases h2; rfl

theorem publicProducer_slurp {P : BulkProducer σ I F E} {s s' : InvariantSt σ} {r}
    (h : (publicProducer test P).slurp s = ok (s', r)) : P.slurp s.inner = ok (s'.inner, r) := by
  cases test <;> simp only [publicProducer, unusedInvariantBulkProducer, invariantBulkProducer, invariantBufferedProducer,
    bind_eq, bind_eq_ok, if_true, Bool.false_eq_true, if_false] at h
  · obtain ⟨⟨u, r'⟩, h1, h2⟩ := h; cases h2; exact h1
  · obtain ⟨_, _, ⟨u, r'⟩, h1, h2⟩ := h
    rw [h1]
    rcases r' with e | x <;> · cases h2; rfl

theorem publicProducer_exposeItems {P : BulkProducer σ I F E} {s s' : InvariantSt σ} {r}
    (h : (publicProducer test P).exposeItems s = ok (s', r)) : P.exposeItems s.inner = ok (s'.inner, r) := by
  cases test <;> simp only [publicProducer, unusedInvariantBulkProducer, invariantBulkProducer,
    bind_eq, bind_eq_ok, if_true, Bool.false_eq_true, if_false] at h
  · obtain ⟨⟨u, r'⟩, h1, h2⟩ := h; cases h2; exact h1
  · obtain ⟨_, _, ⟨u, r'⟩, h1, h2⟩ := h
    rw [h1]
    rcases r' with e | x | f <;> · cases h2; rfl

theorem publicProducer_considerProduced {P : BulkProducer σ I F E} {s s' : InvariantSt σ} {k : Nat} {r}
    (h : (publicProducer test P).considerProduced s k = ok (s', r)) : P.considerProduced s.inner k = ok (s'.inner, r) := by
  cases test <;> simp only [publicProducer, unusedInvariantBulkProducer, invariantBulkProducer,
    bind_eq, bind_eq_ok, if_true, Bool.false_eq_true, if_false] at h
  · obtain ⟨⟨u, r'⟩, h1, h2⟩ := h; cases h2; exact h1
  · obtain ⟨_, _, h⟩ := h
    split at h
    · cases h
    · rw [bind_eq_ok] at h
      obtain ⟨_, _, h⟩ := h
      rw [bind_eq_ok] at h
      obtain ⟨⟨u, r'⟩, h1, h2⟩ := h
      cases h2; exact h1

theorem publicConsumer_consume {C : BulkConsumer σ I F E} {s s' : InvariantSt σ} {x : I} {r}
    (h : (publicConsumer test C).consume s x = ok (s', r)) : C.consume s.inner x = ok (s'.inner, r) := by
  cases test <;> simp only [publicConsumer, unusedInvariantBulkConsumer, invariantBulkConsumer, invariantBufferedConsumer,
    invariantConsumer, bind_eq, bind_eq_ok, if_true, Bool.false_eq_true, if_false] at h
  · obtain ⟨⟨u, r'⟩, h1, h2⟩ := h; cases h2; exact h1
  · obtain ⟨_, _, ⟨u, r'⟩, h1, h2⟩ := h
    rw [h1]
    rcases r' with e | x <;> · cases h2; rfl

theorem publicConsumer_flush {C : BulkConsumer σ I F E} {s s' : InvariantSt σ} {r}
    (h : (publicConsumer test C).flush s = ok (s', r)) : C.flush s.inner = ok (s'.inner, r) := by
  cases test <;> simp only [publicConsumer, unusedInvariantBulkConsumer, invariantBulkConsumer, invariantBufferedConsumer,
    bind_eq, bind_eq_ok, if_true, Bool.false_eq_true, if_false] at h
  · obtain ⟨⟨u, r'⟩, h1, h2⟩ := h; cases h2; exact h1
  · obtain ⟨_, _, ⟨u, r'⟩, h1, h2⟩ := h
    rw [h1]
    rcases r' with e | x <;> · cases h2; rfl

theorem publicConsumer_exposeSlots {C : BulkConsumer σ I F E} {s s' : InvariantSt σ} {r}
    (h : (publicConsumer test C).exposeSlots s = ok (s', r)) : C.exposeSlots s.inner = ok (s'.inner, r) := by
  cases test <;> simp only [publicConsumer, unusedInvariantBulkConsumer, invariantBulkConsumer,
    bind_eq, bind_eq_ok, if_true, Bool.false_eq_true, if_false] at h
  · obtain ⟨⟨u, r'⟩, h1, h2⟩ := h; cases h2; exact h1
  · obtain ⟨_, _, ⟨u, r'⟩, h1, h2⟩ := h
    rw [h1]
    rcases r' with e | x <;> · cases h2; rfl

theorem publicConsumer_consumeSlots {C : BulkConsumer σ I F E} {s s' : InvariantSt σ} {k : Nat} {r}
    (h : (publicConsumer test C).consumeSlots s k = ok (s', r)) : C.consumeSlots s.inner k = ok (s'.inner, r) := by
  cases test <;> simp only [publicConsumer, unusedInvariantBulkConsumer, invariantBulkConsumer,
    bind_eq, bind_eq_ok, if_true, Bool.false_eq_true, if_false] at h
  · obtain ⟨⟨u, r'⟩, h1, h2⟩ := h; cases h2; exact h1
  · obtain ⟨_, _, h⟩ := h
    split at h
    · cases h
    · rw [bind_eq_ok] at h
      obtain ⟨_, _, h⟩ := h
      rw [bind_eq_ok] at h
      obtain ⟨⟨u, r'⟩, h1, h2⟩ := h
      cases h2; exact h1

theorem publicConsumer_writeSlots (C : BulkConsumer σ I F E) (s : InvariantSt σ) (ws : List I) :
    (publicConsumer test C).writeSlots s ws = { s with inner := C.writeSlots s.inner ws } := by cases test <;> rfl

/-- The wrappers around a producer of which a method does what that method of another producer does. -/
theorem publicProducer_congr {P' P : BulkProducer σ I F E} {s : InvariantSt σ} :
    (P'.produce s.inner = P.produce s.inner → (publicProducer test P').produce s = (publicProducer test P).produce s) ∧
    (P'.exposeItems s.inner = P.exposeItems s.inner → (publicProducer test P').exposeItems s = (publicProducer test P).exposeItems s) ∧
    (∀ k, P'.considerProduced s.inner k = P.considerProduced s.inner k →
      (publicProducer test P').considerProduced s k = (publicProducer test P).considerProduced s k) := by
  cases test <;> refine ⟨fun h => ?_, fun h => ?_, fun k h => ?_⟩ <;>
    simp only [publicProducer, unusedInvariantBulkProducer, invariantBulkProducer, invariantBufferedProducer,
      invariantProducer, if_true, Bool.false_eq_true, if_false, h]

theorem publicConsumer_congr {C' C : BulkConsumer σ I F E} {s : InvariantSt σ} :
    (∀ x, C'.consume s.inner x = C.consume s.inner x → (publicConsumer test C').consume s x = (publicConsumer test C).consume s x) ∧
    (∀ f, C'.close s.inner f = C.close s.inner f → (publicConsumer test C').close s f = (publicConsumer test C).close s f) ∧
    (C'.flush s.inner = C.flush s.inner → (publicConsumer test C').flush s = (publicConsumer test C).flush s) ∧
    (C'.exposeSlots s.inner = C.exposeSlots s.inner → (publicConsumer test C').exposeSlots s = (publicConsumer test C).exposeSlots s) ∧
    (∀ k, C'.consumeSlots s.inner k = C.consumeSlots s.inner k →
      (publicConsumer test C').consumeSlots s k = (publicConsumer test C).consumeSlots s k) := by
  cases test <;> refine ⟨fun x h => ?_, fun x h => ?_, fun h => ?_, fun h => ?_, fun k h => ?_⟩ <;>
    simp only [publicConsumer, unusedInvariantBulkConsumer, invariantBulkConsumer, invariantBufferedConsumer,
      invariantConsumer, if_true, Bool.false_eq_true, if_false, h]

end

/-! ## `TestProducer` -/

namespace TestProducer

variable {I F E : Type} {test : Bool}

/-- No overflow, with `n` items being exposed. -/
def Fits (w : Word) (s : TestProducer I F E) (n : Nat) : Prop :=
  s.inner.inner.data.length < w.size ∧ s.inner.inner.pos + n ≤ s.inner.inner.data.length ∧ YielderFits w s.yielder ∧
    SizesFit w s.sizes

theorem unwrapItem {A B E : Type} {r : Except E (A ⊕ B)} {x : A}
    (h : (unwrapResult r).bind unwrapLeft = ok x) : r = .ok (.inl x) := by
  rcases r with e | x | f <;> simp [unwrapResult, unwrapLeft] at h
  rw [h]

theorem takeError_none {s s' : TestProducer I F E} (h : s.takeError = ok (s', none)) : s' = s := by
  simp only [takeError, bind_eq, bind_eq_ok] at h
  obtain ⟨xs, _, h⟩ := h
  split at h
  · rw [bind_eq_ok] at h
    obtain ⟨l, _, h⟩ := h
    cases l <;> cases h
    rfl
  · cases h; rfl

theorem keeps (w : Word) (test : Bool) : (producer test I F E).KeepsInv (Fits w) := by
  refine ⟨?_, ?_, ?_, ?_, ?_⟩
  · rintro s n s' x ⟨h1, h2, h3, h4⟩ h
    simp only [producer, produce, bind_eq, bind_eq_ok] at h
    obtain ⟨y, hy, xs, hxs, h⟩ := h
    have hy' := maybeYield_fits h3 hy
    split at h
    · rw [bind_eq_ok] at h
      obtain ⟨l, _, h⟩ := h
      cases l <;> cases h
    · simp only [bind_eq_ok] at h
      obtain ⟨⟨⟨t, ac, ex⟩, r⟩, hp, it, hit, z, hz, h⟩ := h
      cases h
      have hr := unwrapItem (bind_eq_ok.mpr ⟨_, hit, hz⟩)
      subst hr
      have hp := publicProducer_produce hp
      simp only [FromBoxedSlice.producer, FromBoxedSlice.produce] at hp
      split at hp
      · cases hp
      · simp only [bind_eq, bind_eq_ok] at hp
        obtain ⟨a, ha, hp⟩ := hp
        cases hp
        have : s.inner.inner.pos < s.inner.inner.data.length := by
          by_cases hlt : s.inner.inner.pos < s.inner.inner.data.length
          · exact hlt
          · simp [index, hlt] at ha
        exact ⟨h1, by simp only; omega, hy', h4⟩
  · rintro s n s' ⟨h1, h2, h3, h4⟩ h
    simp only [producer, slurp, bind_eq, bind_eq_ok] at h
    obtain ⟨y, hy, ⟨t, o⟩, ht, h⟩ := h
    have hy' := maybeYield_fits h3 hy
    cases o with
    | some e => cases h
    | none =>
      cases h
      rw [takeError_none ht]
      exact ⟨h1, by simp only; omega, hy', h4⟩
  · rintro s n s' xs ⟨h1, h2, h3, h4⟩ h
    have hexp : ∀ {t : FromBoxedSlice I} {r}, s.inner.inner.exposeItems = ok (t, .ok (.inl r)) →
        t = s.inner.inner ∧ r.length + s.inner.inner.pos ≤ s.inner.inner.data.length := by
      intro t r h
      simp only [FromBoxedSlice.exposeItems] at h
      rw [slice_of_le (by omega) (Nat.le_refl _)] at h
      simp only [bind_eq, bind_ok] at h
      split at h <;> cases h
      exact ⟨rfl, by simp; omega⟩
    simp only [producer, exposeItems, bind_eq, bind_eq_ok] at h
    obtain ⟨y, hy, rs, hrs, h⟩ := h
    have hy' := maybeYield_fits h3 hy
    split at h
    · rw [bind_eq_ok] at h
      obtain ⟨l, _, h⟩ := h
      cases l <;> cases h
    · rcases hz : s.sizes with _ | z <;> simp only [hz, bind_eq_ok] at h
      · obtain ⟨⟨t, r⟩, hp, it, hit, z, hz', h⟩ := h
        cases h
        have hr := unwrapItem (bind_eq_ok.mpr ⟨_, hit, hz'⟩)
        subst hr
        obtain ⟨e1, e2⟩ := hexp (publicProducer_exposeItems hp)
        exact ⟨by simp only [e1]; exact h1, by simp only [e1]; omega, hy', by simp [SizesFit]⟩
      · obtain ⟨⟨z', m⟩, hn, ⟨t, r⟩, hp, it, hit, ys, hz', is, his, h⟩ := h
        cases h
        have hr := unwrapItem (bind_eq_ok.mpr ⟨_, hit, hz'⟩)
        subst hr
        obtain ⟨e1, e2⟩ := hexp (publicProducer_exposeItems hp)
        rw [slice_of_le (Nat.zero_le _) (Nat.min_le_left _ _)] at his
        cases his
        refine ⟨by simp only [e1]; exact h1, by simp only [e1, List.length_drop, List.length_take]; omega, hy', ?_⟩
        rintro _ ⟨⟩
        rw [Sizes.next_sizes hn]
        exact h4 z hz
  · rintro s n k s' ⟨h1, h2, h3, h4⟩ hk h
    simp only [producer, considerProduced, bind_eq, bind_eq_ok] at h
    obtain ⟨y, hy, ⟨t, o⟩, ht, h⟩ := h
    have hy' := maybeYield_fits h3 hy
    cases o with
    | some e => cases h
    | none =>
      simp only [bind_eq_ok] at h
      obtain ⟨⟨u, r⟩, hp, _, _, h⟩ := h
      cases h
      rw [takeError_none ht] at hp ⊢
      have hp := publicProducer_considerProduced hp
      simp [FromBoxedSlice.producer, FromBoxedSlice.considerProduced] at hp
      obtain ⟨hp, _⟩ := hp
      exact ⟨by simp only [← hp]; exact h1, by simp only [← hp]; omega, hy', h4⟩
  · rintro s n ⟨h1, h2, h3, h4⟩
    exact ⟨h1, by omega, h3, h4⟩

end TestProducer

/-! ## `TestConsumer` -/

namespace TestConsumer

variable {I F E : Type} [Inhabited I] {test : Bool}

/-- No overflow, with `n` slots being exposed, and in total `N` items accepted. -/
structure Fits (w : Word) (N : Nat) (s : TestConsumer I F E) (n : Nat) : Prop where
  consumed : s.inner.inner.consumed ≤ s.inner.inner.v.length
  slots : n ≤ s.inner.inner.v.length - s.inner.inner.consumed
  length : s.inner.inner.v.length ≤ 2 * s.inner.inner.consumed + 4097
  left : n ≤ s.consumptionsUntilError
  count : s.inner.inner.consumed + s.consumptionsUntilError = N
  yielder : YielderFits w s.yielder
  sizes : SizesFit w s.sizes

omit [Inhabited I] in
theorem enter_none {s s' : TestConsumer I F E} (h : s.enter = ok (s', none)) :
    ∃ y, maybeYield s.yielder = ok y ∧ s' = { s with yielder := y } ∧ 0 < s.consumptionsUntilError := by
  simp only [enter, bind_eq, bind_eq_ok] at h
  obtain ⟨y, hy, h⟩ := h
  refine ⟨y, hy, ?_⟩
  simp only [checkError] at h
  split at h
  · simp only [bind_eq, bind_eq_ok] at h
    obtain ⟨_, _, h⟩ := h
    cases h
  · rename_i h0
    cases h
    exact ⟨rfl, by omega⟩

theorem length_makeSpaceEven (v : IntoVec I) : v.makeSpaceEvenIfNotNeeded.v.length = v.v.length * 2 + 1 := by
  simp [IntoVec.makeSpaceEvenIfNotNeeded, IntoVec.resizeWith]; omega

/-- What the loop that makes space preserves. -/
theorem grow_keeps {v v' : IntoVec I} {m : Nat} (hm : m ≤ 2048) (h : loop (growBody m) v = ok v')
    (h1 : v.consumed ≤ v.v.length) (h2 : v.v.length ≤ 2 * v.consumed + 4097) :
    v'.consumed = v.consumed ∧ v'.consumed ≤ v'.v.length ∧ v'.v.length ≤ 2 * v'.consumed + 4097 := by
  refine loop_keeps (fun u : IntoVec I => u.consumed = v.consumed ∧ u.consumed ≤ u.v.length ∧
    u.v.length ≤ 2 * u.consumed + 4097) (fun u : IntoVec I => u.consumed = v.consumed ∧ u.consumed ≤ u.v.length ∧
    u.v.length ≤ 2 * u.consumed + 4097) ?_ ?_ ⟨rfl, h1, h2⟩ h
  · rintro u u' ⟨g1, g2, g3⟩ hb
    simp only [growBody, IntoVec.remainingSlots, bind_eq, sub_of_le g2, bind_ok] at hb
    split at hb <;> cases hb
    rw [length_makeSpaceEven]
    simp only [IntoVec.makeSpaceEvenIfNotNeeded]
    exact ⟨g1, by omega, by omega⟩
  · rintro u u' ⟨g1, g2, g3⟩ hb
    simp only [growBody, IntoVec.remainingSlots, bind_eq, sub_of_le g2, bind_ok] at hb
    split at hb <;> cases hb
    exact ⟨g1, g2, g3⟩

theorem makeSpace_keeps {v : IntoVec I} (h1 : v.consumed ≤ v.v.length) (h2 : v.v.length ≤ 2 * v.consumed + 4097) :
    v.makeSpaceIfNeeded.v.length ≤ 2 * v.consumed + 4097 := by
  unfold IntoVec.makeSpaceIfNeeded
  split
  · simp [IntoVec.resizeWith]; omega
  · exact h2

omit [Inhabited I] in
theorem nextSize_keeps {w : Word} {s s' : TestConsumer I F E} {b : Option Nat} (hs : SizesFit w s.sizes)
    (h : s.nextSize = ok (s', b)) : ∃ z, s' = { s with sizes := z } ∧ SizesFit w z := by
  rcases hz : s.sizes with _ | z <;> simp only [nextSize, hz] at h
  · cases h; exact ⟨none, by rw [← hz], by simp [SizesFit]⟩
  · simp only [bind_eq, bind_eq_ok] at h
    obtain ⟨⟨z', m⟩, hn, h⟩ := h
    cases h
    refine ⟨some z', rfl, ?_⟩
    rintro _ ⟨⟩
    rw [Sizes.next_sizes hn]
    exact hs z hz

theorem keeps (w : Word) (test : Bool) (N : Nat) : (consumer test I F E).KeepsInv (Fits w N) := by
  refine ⟨?_, ?_, ?_, ?_, ?_, ?_⟩
  · rintro s n s' x hf h
    simp only [consumer, consume, bind_eq, bind_eq_ok] at h
    obtain ⟨⟨t, o⟩, he, h⟩ := h
    cases o with
    | some e => cases h
    | none =>
      obtain ⟨y, hy, rfl, h0⟩ := enter_none he
      simp only [bind_eq_ok] at h
      obtain ⟨⟨⟨u, ac, ex⟩, r⟩, hp, _, _, m, hm, h⟩ := h
      cases h
      have hp := publicConsumer_consume hp
      obtain ⟨g1, g2, _⟩ := s.inner.inner.makeSpaceIfNeeded_spec hf.consumed
      have g3 := makeSpace_keeps hf.consumed hf.length
      simp only [IntoVec.consumer, IntoVec.consume] at hp
      rw [setIndex_of_lt g2] at hp
      simp at hp
      obtain ⟨rfl, _⟩ := hp
      rw [sub_of_le (by omega)] at hm
      cases hm
      have hc := hf.count
      refine ⟨?_, by simp, ?_, by simp, ?_, maybeYield_fits hf.yielder hy, hf.sizes⟩
      · simp only [List.length_set]; omega
      · simp only [List.length_set]; omega
      · simp only; omega
  · rintro s n s' hf h
    simp only [consumer, flush, bind_eq, bind_eq_ok] at h
    obtain ⟨⟨t, o⟩, he, h⟩ := h
    cases o with
    | some e => cases h
    | none =>
      obtain ⟨y, hy, rfl, h0⟩ := enter_none he
      simp only [bind_eq_ok] at h
      obtain ⟨⟨⟨u, ac, ex⟩, r⟩, hp, _, _, h⟩ := h
      cases h
      have hp := publicConsumer_flush hp
      simp [IntoVec.consumer, IntoVec.flush] at hp
      obtain ⟨rfl, _⟩ := hp
      refine ⟨?_, by simp, ?_, by simp, ?_, maybeYield_fits hf.yielder hy, hf.sizes⟩ <;> simp only
      · exact hf.consumed
      · exact hf.length
      · exact hf.count
  · rintro s n s' xs hf h
    simp only [consumer, exposeSlots, bind_eq, bind_eq_ok] at h
    obtain ⟨⟨t, o⟩, he, h⟩ := h
    cases o with
    | some e => cases h
    | none =>
      obtain ⟨y, hy, rfl, h0⟩ := enter_none he
      simp only [bind_eq_ok] at h
      obtain ⟨⟨t, b⟩, hn, v, hv, ⟨⟨u, ac, ex⟩, r⟩, hp, is, his, zs, hzs, h⟩ := h
      obtain ⟨z, rfl, hz⟩ := nextSize_keeps (w := w) (s := { s with yielder := y }) hf.sizes hn
      cases h
      have hp := publicConsumer_exposeSlots hp
      obtain ⟨k1, k2, k3⟩ := grow_keeps (by cases b <;> simp only <;> omega) hv hf.consumed hf.length
      simp only at k1 hp
      obtain ⟨g1, g2, _⟩ := v.makeSpaceIfNeeded_spec k2
      have g3 := makeSpace_keeps k2 k3
      simp only [IntoVec.consumer, IntoVec.exposeSlots] at hp
      rw [slice_of_le (by omega) (Nat.le_refl _)] at hp
      simp only [bind_eq, bind_ok, pure_eq, List.take_length] at hp
      cases r with
      | error e => cases e
      | ok r =>
        simp at hp
        obtain ⟨rfl, hr⟩ := hp
        obtain rfl : r = is := by cases his; rfl
        have hrl : r.length = v.makeSpaceIfNeeded.v.length - v.makeSpaceIfNeeded.consumed := by rw [← hr]; simp
        have hle : xs.length ≤ r.length ∧ xs.length ≤ s.consumptionsUntilError := by
          rw [slice_of_le (Nat.zero_le _) (by cases b <;> simp only <;> omega)] at hzs
          cases hzs
          simp only [List.drop_zero, List.length_take]
          cases b <;> simp only <;> omega
        have hc := hf.count
        refine ⟨?_, ?_, ?_, hle.2, ?_, maybeYield_fits hf.yielder hy, hz⟩
        · simp only; omega
        · simp only; omega
        · simp only; omega
        · simp only; omega
  · rintro s n ws hf hw
    have h1 := hf.consumed
    have h2 := hf.slots
    have hl : (s.inner.inner.v.take s.inner.inner.consumed ++ ws ++
        s.inner.inner.v.drop (s.inner.inner.consumed + ws.length)).length = s.inner.inner.v.length := by
      simp; omega
    have hi : ((consumer test I F E).writeSlots s ws).inner.inner = IntoVec.writeSlots s.inner.inner ws := by
      simp only [consumer, vec, publicConsumer_writeSlots]
      rfl
    refine ⟨?_, ?_, ?_, hf.left, ?_, hf.yielder, hf.sizes⟩
    · rw [hi]; simp only [IntoVec.writeSlots, hl]; exact h1
    · rw [hi]; simp only [IntoVec.writeSlots, hl]; exact h2
    · rw [hi]; simp only [IntoVec.writeSlots, hl]; exact hf.length
    · rw [hi]; exact hf.count
  · rintro s n k s' hf hk h
    simp only [consumer, consumeSlots, bind_eq, bind_eq_ok] at h
    obtain ⟨⟨t, o⟩, he, h⟩ := h
    cases o with
    | some e => cases h
    | none =>
      obtain ⟨y, hy, rfl, h0⟩ := enter_none he
      simp only [bind_eq_ok] at h
      obtain ⟨⟨⟨u, ac, ex⟩, r⟩, hp, _, _, m, hm, h⟩ := h
      cases h
      have hp := publicConsumer_consumeSlots hp
      simp [IntoVec.consumer, IntoVec.consumeSlots] at hp
      obtain ⟨rfl, _⟩ := hp
      have h1 := hf.consumed
      have h2 := hf.slots
      have h3 := hf.left
      have h4 := hf.count
      have h5 := hf.length
      rw [sub_of_le (by omega)] at hm
      cases hm
      refine ⟨?_, ?_, ?_, ?_, ?_, maybeYield_fits hf.yielder hy, hf.sizes⟩
      · simp only; omega
      · simp only; omega
      · simp only; omega
      · simp only; omega
      · simp only; omega
  · rintro s n hf
    exact ⟨hf.consumed, Nat.zero_le _, hf.length, Nat.zero_le _, hf.count, hf.yielder, hf.sizes⟩

end TestConsumer

end Verif
