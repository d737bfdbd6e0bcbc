import Verif.Props.Stacks
import Verif.Props.SlurpExact

/-!
# C48: stacks of producer adaptors, including `slurp`

`producer_stack_plays_partial` has a side condition because of `slurp`. Here is what holds for all stacks, including `slurp`
(`producer_stack_plays_but_slurp`), and exactly for which stacks and sequences nothing goes wrong (`producer_stack_plays_iff`).
-/

namespace Verif

open Outcome

section

variable {σ I F G E : Type}

/-- As in `BulkPlaysLaw`, but `slurp` may also fail when the final value is next. -/
def SlurpLaw (P : BulkProducer σ I F E) (R : σ → Script I F E → Nat → Prop) : Prop :=
  ∀ s c n, R s c n → ∃ s', (P.slurp s = ok (s', .ok ()) ∧ ∃ m, R s' c m) ∨ (∃ e, c 0 = .error e ∧ P.slurp s = ok (s', .error e)) ∨
    (∃ f e, c 0 = .ok (.inr f) ∧ P.slurp s = ok (s', .error e))

/-- The producer `P` in state `s` emits the sequence `c`, whatever mix of methods is used; only that `slurp` may fail if it is called
after all items have been emitted. -/
def PlaysButSlurp (P : BulkProducer σ I F E) (s : σ) (c : Script I F E) : Prop :=
  ∃ R, BulkPlaysLaw P.noSlurp R ∧ SlurpLaw P R ∧ ∃ n, R s c n

theorem BulkPlaysLaw.noSlurp {P : BulkProducer σ I F E} {R : σ → Script I F E → Nat → Prop} (h : BulkPlaysLaw P R) :
    BulkPlaysLaw P.noSlurp R :=
  ⟨⟨⟨h.base.produce⟩, fun s _ hs => ⟨s, .inl ⟨rfl, hs⟩⟩⟩, h.expose, h.consider, h.bulkProduce⟩

theorem BulkPlays.toPlaysButSlurp {P : BulkProducer σ I F E} {s : σ} {c : Script I F E} (h : BulkPlays P s c) :
    PlaysButSlurp P s c := by
  obtain ⟨R, hR, hs⟩ := h
  refine ⟨R, hR.noSlurp, fun s c n hn => ?_, hs⟩
  obtain ⟨s', h | h⟩ := hR.base.slurp s c ⟨n, hn⟩
  · exact ⟨s', .inl h⟩
  · exact ⟨s', .inr (.inl h)⟩

theorem PlaysButSlurp.limit {P : BulkProducer σ I F E} {s : σ} {c : Script I F E} (h : PlaysButSlurp P s c) (n : Nat) :
    PlaysButSlurp (limitBulkProducer P) ⟨s, n⟩ (c.limit n) := by
  obtain ⟨R, hR, hS, k, hk⟩ := h
  refine ⟨LimitSt.Plays (fun _ _ => True) R, .of_default rfl
    ⟨⟨(hR.limit_produce (fun _ _ _ _ _ _ _ _ => trivial)).produce⟩, fun s c hs => ⟨s, .inl ⟨rfl, hs⟩⟩⟩
    hR.limit_expose (hR.limit_consider (fun _ _ _ _ _ _ _ _ => trivial)), ?_,
    0, c, k, [], hk, Nat.zero_le _, Nat.zero_le _, rfl, trivial, by simp, rfl⟩
  rintro ⟨s, m⟩ c' _ ⟨c, n, xs, hR', _, _, rfl, _⟩
  obtain ⟨s', ⟨h1, m', h2⟩ | ⟨e, h1, h2⟩ | ⟨f, e, h1, h2⟩⟩ := hS s c n hR'
  · exact ⟨⟨s', m⟩, .inl ⟨by simp [limitBulkProducer, limitBufferedProducer, h1], 0, c, m', [], h2, Nat.zero_le _, Nat.zero_le _, rfl,
      trivial, by simp, rfl⟩⟩
  · refine ⟨⟨s', m⟩, .inr ?_⟩
    cases m with
    | zero => exact .inr ⟨none, e, by simp [Script.limit], by simp [limitBulkProducer, limitBufferedProducer, h2]⟩
    | succ m => exact .inl ⟨e, by simp [Script.limit, h1], by simp [limitBulkProducer, limitBufferedProducer, h2]⟩
  · refine ⟨⟨s', m⟩, .inr (.inr ?_)⟩
    cases m with
    | zero => exact ⟨none, e, by simp [Script.limit], by simp [limitBulkProducer, limitBufferedProducer, h2]⟩
    | succ m => exact ⟨some f, e, by simp [Script.limit, h1], by simp [limitBulkProducer, limitBufferedProducer, h2]⟩

/-- If the limit cuts off items, then the end of the wrapped producer is never reached and nothing goes wrong. -/
theorem PlaysButSlurp.limit_lawful {P : BulkProducer σ I F E} {s : σ} {c : Script I F E} (h : PlaysButSlurp P s c) {n : Nat}
    (hn : ∀ i, i ≤ n → ∃ x, c i = .ok (.inl x)) : BulkPlays (limitBulkProducer P) ⟨s, n⟩ (c.limit n) := by
  obtain ⟨R, hR, hS, k, hk⟩ := h
  have hQ : ∀ (c : Script I F E) n k xs, (∀ i, i ≤ n → ∃ x, c i = .ok (.inl x)) → c.StartsWith xs → k ≤ xs.length → k ≤ n →
      ∀ i, i ≤ n - k → ∃ x, c.drop k i = .ok (.inl x) := by
    intro c n k xs h _ _ hk i hi
    exact h (k + i) (by omega)
  refine ⟨LimitSt.Plays (fun c n => ∀ i, i ≤ n → ∃ x, c i = .ok (.inl x)) R, .of_default rfl
    ⟨⟨(hR.limit_produce hQ).produce⟩, ?_⟩ hR.limit_expose (hR.limit_consider hQ),
    0, c, k, [], hk, Nat.zero_le _, Nat.zero_le _, rfl, hn, by simp, rfl⟩
  rintro ⟨s, m⟩ c' ⟨_, c, n, xs, hR', _, _, rfl, hc, _⟩
  obtain ⟨x, hx⟩ := hc 0 (Nat.zero_le _)
  obtain ⟨s', ⟨h1, m', h2⟩ | ⟨e, h1, h2⟩ | ⟨f, e, h1, h2⟩⟩ := hS s c n hR'
  · exact ⟨⟨s', m⟩, .inl ⟨by simp [limitBulkProducer, limitBufferedProducer, h1], 0, c, m', [], h2, Nat.zero_le _, Nat.zero_le _, rfl,
      hc, by simp, rfl⟩⟩
  · rw [hx] at h1; cases h1
  · rw [hx] at h1; cases h1

theorem PlaysButSlurp.mapFinal (f : F → G) {P : BulkProducer σ I F E} {s : σ} {c : Script I F E} (h : PlaysButSlurp P s c) :
    PlaysButSlurp (mapFinalBulkProducer P) ⟨s, some f⟩ (c.mapFinal f) := by
  obtain ⟨R, hR, hS, k, hk⟩ := h
  refine ⟨_, (hR.mapFinal f).noSlurp, ?_, k, c, hk, rfl, rfl⟩
  rintro ⟨s, _⟩ c' n ⟨c, hR', rfl, rfl⟩
  obtain ⟨s', ⟨h1, m', h2⟩ | ⟨e, h1, h2⟩ | ⟨g, e, h1, h2⟩⟩ := hS s c n hR'
  · exact ⟨⟨s', some f⟩, .inl ⟨by simp [mapFinalBulkProducer, mapFinalBufferedProducer, h1], m', c, h2, rfl, rfl⟩⟩
  · exact ⟨⟨s', some f⟩, .inr (.inl ⟨e, by simp [Script.mapFinal, h1], by simp [mapFinalBulkProducer, mapFinalBufferedProducer, h2]⟩)⟩
  · exact ⟨⟨s', some f⟩, .inr (.inr ⟨f g, e, by simp [Script.mapFinal, h1], by simp [mapFinalBulkProducer, mapFinalBufferedProducer, h2]⟩)⟩

theorem PlaysButSlurp.invariant {P : BulkProducer σ I F E} {s : σ} {c : Script I F E} (h : PlaysButSlurp P s c) :
    PlaysButSlurp (invariantBulkProducer P) (.new s) c := by
  obtain ⟨R, hR, hS, k, hk⟩ := h
  refine ⟨_, hR.invariant.noSlurp, ?_, 0, rfl, .inl ⟨rfl, k, hk⟩⟩
  rintro ⟨s, act, e⟩ c n hn
  obtain ⟨m, hm⟩ := hn.inner
  obtain ⟨rfl, _⟩ := hn
  obtain ⟨s', ⟨h1, m', h2⟩ | ⟨e', h1, h2⟩ | ⟨g, e', h1, h2⟩⟩ := hS s c m hm
  · exact ⟨⟨s', true, e⟩, .inl ⟨by simp [invariantBulkProducer, invariantBufferedProducer, InvariantSt.checkInactive, h1],
      0, rfl, .inl ⟨rfl, m', h2⟩⟩⟩
  · exact ⟨⟨s', false, e⟩, .inr (.inl ⟨e', h1, by
      simp [invariantBulkProducer, invariantBufferedProducer, InvariantSt.checkInactive, h2]⟩)⟩
  · exact ⟨⟨s', false, e⟩, .inr (.inr ⟨g, e', h1, by
      simp [invariantBulkProducer, invariantBufferedProducer, InvariantSt.checkInactive, h2]⟩)⟩

theorem PlaysButSlurp.invariantNoop {P : BulkProducer σ I F E} {s : σ} {c : Script I F E} (h : PlaysButSlurp P s c) :
    PlaysButSlurp (invariantNoopBulkProducer P) s c := by
  obtain ⟨R, hR, hS, k, hk⟩ := h
  exact ⟨R, hR.invariantNoop.noSlurp, hS, k, hk⟩

/-- **C48, producers.** Every stack of adaptors around a lawful bulk producer emits the transformed sequence, whatever mix of methods is
used. The only exception is that `slurp` may fail after all items have been emitted. -/
theorem producer_stack_plays_but_slurp {P : BulkProducer σ I F E} {s : σ} {c : Script I F E} (h : BulkPlays P s c)
    (L : ProducerLayers F G) : PlaysButSlurp (L.apply P) (L.wrap s) (L.script c) := by
  induction L with
  | nil => exact h.toPlaysButSlurp
  | limit L n ih => exact ih.limit n
  | mapFinal L f ih => exact ih.mapFinal f
  | invariant L ih => exact ih.invariant
  | invariantNoop L ih => exact ih.invariantNoop

/-- The limits cut off the error, one of them directly before it. -/
example : PlaysButSlurp ((((ProducerLayers.nil (F := Unit)).limit 3).invariant.limit 5).apply Case.P)
    ((((ProducerLayers.nil (F := Unit)).limit 3).invariant.limit 5).wrap (Case.pro (.error "broken")))
    ((((ProducerLayers.nil (F := Unit)).limit 3).invariant.limit 5).script (Case.script (.error "broken"))) :=
  producer_stack_plays_but_slurp (Case.plays _) _

/-! ## Exactly -/

theorem limit_produce_inner {P : BulkProducer σ I F E} {s s' : LimitSt σ} {x : I}
    (h : (limitBulkProducer P).produce s = ok (s', .ok (.inl x))) : P.produce s.inner = ok (s'.inner, .ok (.inl x)) := by
  obtain ⟨s, m⟩ := s
  cases m with
  | zero => cases h
  | succ m =>
    simp only [limitBulkProducer, limitBufferedProducer, limitProducer, bind_eq, bind_eq_ok] at h
    obtain ⟨⟨t, r⟩, h1, h2⟩ := h
    rcases r with e | y | f <;> cases h2
    exact h1

theorem mapFinal_produce_inner {P : BulkProducer σ I F E} {s s' : MapFinalSt σ F G} {x : I}
    (h : (mapFinalBulkProducer P).produce s = ok (s', .ok (.inl x))) : P.produce s.inner = ok (s'.inner, .ok (.inl x)) := by
  simp only [mapFinalBulkProducer, mapFinalBufferedProducer, mapFinalProducer, bind_eq, bind_eq_ok] at h
  obtain ⟨⟨t, r⟩, h1, h2⟩ := h
  rcases r with e | y | g
  · cases h2
  · cases h2
    exact h1
  · obtain ⟨u, _, h2⟩ := bind_eq_ok.mp h2
    cases h2

theorem invariant_produce_inner {P : BulkProducer σ I F E} {s s' : InvariantSt σ} {x : I}
    (h : (invariantBulkProducer P).produce s = ok (s', .ok (.inl x))) : P.produce s.inner = ok (s'.inner, .ok (.inl x)) := by
  simp only [invariantBulkProducer, invariantBufferedProducer, invariantProducer, bind_eq, bind_eq_ok] at h
  obtain ⟨_, _, ⟨t, r⟩, h1, h2⟩ := h
  rcases r with e | y | g <;> cases h2
  exact h1

theorem limit_slurp_inner {P : BulkProducer σ I F E} {s s' : LimitSt σ} (h : (limitBulkProducer P).slurp s = ok (s', .ok ())) :
    P.slurp s.inner = ok (s'.inner, .ok ()) := by
  simp only [limitBulkProducer, limitBufferedProducer, bind_eq, bind_eq_ok] at h
  obtain ⟨⟨t, r⟩, h1, h2⟩ := h
  cases h2
  exact h1

theorem mapFinal_slurp_inner {P : BulkProducer σ I F E} {s s' : MapFinalSt σ F G}
    (h : (mapFinalBulkProducer P).slurp s = ok (s', .ok ())) : P.slurp s.inner = ok (s'.inner, .ok ()) := by
  simp only [mapFinalBulkProducer, mapFinalBufferedProducer, bind_eq, bind_eq_ok] at h
  obtain ⟨⟨t, r⟩, h1, h2⟩ := h
  cases h2
  exact h1

theorem invariant_slurp_inner {P : BulkProducer σ I F E} {s s' : InvariantSt σ}
    (h : (invariantBulkProducer P).slurp s = ok (s', .ok ())) : P.slurp s.inner = ok (s'.inner, .ok ()) := by
  simp only [invariantBulkProducer, invariantBufferedProducer, bind_eq, bind_eq_ok] at h
  obtain ⟨_, _, ⟨t, r⟩, h1, h2⟩ := h
  rcases r with e | ⟨⟩ <;> cases h2
  exact h1

namespace ProducerLayers

/-- No limit of the stack cuts off an error that would follow directly: if `c` consists of `n` items and an error, then the stack
either emits this error or less than `n` items. -/
def KeepsError (L : ProducerLayers F G) (c : Script I F E) : Prop :=
  ∀ n e, c n = .error e → (∀ i, i < n → ∃ x, c i = .ok (.inl x)) →
    L.script c n = .error e ∨ ∃ i, i < n ∧ ∀ x, L.script c i ≠ .ok (.inl x)

/-- The state of the wrapped producer. -/
def inner {σ : Type} : {G : Type} → (L : ProducerLayers F G) → L.State σ → σ
  | _, nil, s => s
  | _, limit L _, s => L.inner (LimitSt.inner s)
  | _, mapFinal L _, s => L.inner (MapFinalSt.inner s)
  | _, invariant L, s => L.inner (InvariantSt.inner s)
  | _, invariantNoop L, s => L.inner s

theorem inner_wrap (L : ProducerLayers F G) (s : σ) : L.inner (L.wrap s) = s := by
  induction L with
  | nil => rfl
  | limit L n ih => exact ih
  | mapFinal L f ih => exact ih
  | invariant L ih => exact ih
  | invariantNoop L ih => exact ih

/-- Stacks do not add errors. -/
theorem script_error (L : ProducerLayers F G) {c : Script I F E} {i : Nat} {e : E} (h : L.script c i = .error e) : c i = .error e := by
  induction L with
  | nil => exact h
  | limit L n ih =>
    simp only [script, Script.limit] at h
    split at h
    · rcases hc : L.script c i with e' | x | f <;> rw [hc] at h <;> cases h
      exact ih hc
    · cases h
  | mapFinal L f ih =>
    simp only [script, Script.mapFinal] at h
    rcases hc : L.script c i with e' | x | f <;> rw [hc] at h <;> cases h
    exact ih hc
  | invariant L ih => exact ih h
  | invariantNoop L ih => exact ih h

/-- Stacks do not add items. -/
theorem script_item (L : ProducerLayers F G) {c : Script I F E} {i : Nat} {x : I} (h : L.script c i = .ok (.inl x)) :
    c i = .ok (.inl x) := by
  induction L with
  | nil => exact h
  | limit L n ih =>
    simp only [script, Script.limit] at h
    split at h
    · rcases hc : L.script c i with e' | x | f <;> rw [hc] at h <;> cases h
      exact ih hc
    · cases h
  | mapFinal L f ih =>
    simp only [script, Script.mapFinal] at h
    rcases hc : L.script c i with e' | x | f <;> rw [hc] at h <;> cases h
    exact ih hc
  | invariant L ih => exact ih h
  | invariantNoop L ih => exact ih h

/-- If a stack emits an item, then it comes from the wrapped producer. -/
theorem produce_inner (L : ProducerLayers F G) {P : BulkProducer σ I F E} {s s' : L.State σ} {x : I}
    (h : (L.apply P).produce s = ok (s', .ok (.inl x))) : P.produce (L.inner s) = ok (L.inner s', .ok (.inl x)) := by
  induction L with
  | nil => exact h
  | limit L n ih => exact ih (limit_produce_inner h)
  | mapFinal L f ih => exact ih (mapFinal_produce_inner h)
  | invariant L ih => exact ih (invariant_produce_inner h)
  | invariantNoop L ih => exact ih h

/-- If a stack slurps successfully, then so does the wrapped producer. -/
theorem slurp_inner (L : ProducerLayers F G) {P : BulkProducer σ I F E} {s s' : L.State σ}
    (h : (L.apply P).slurp s = ok (s', .ok ())) : P.slurp (L.inner s) = ok (L.inner s', .ok ()) := by
  induction L with
  | nil => exact h
  | limit L n ih => exact ih (limit_slurp_inner h)
  | mapFinal L f ih => exact ih (mapFinal_slurp_inner h)
  | invariant L ih => exact ih (invariant_slurp_inner h)
  | invariantNoop L ih => exact ih h

/-- After `n` items of the ideal producer. -/
theorem reaches (L : ProducerLayers F G) (c : Script I F E) {R : L.State (Script I F E) → Script I G E → Nat → Prop}
    (hR : BulkPlaysLaw (L.apply (scriptProducer I F E)) R) {n : Nat} (hn : ∀ i, i < n → ∃ x, L.script c i = .ok (.inl x)) {m : Nat}
    (hs : R (L.wrap c) (L.script c) m) : ∃ s m, R s ((L.script c).drop n) m ∧ L.inner s = c.drop n := by
  induction n with
  | zero => exact ⟨_, m, by simpa using hs, by simp [inner_wrap]⟩
  | succ n ih =>
    obtain ⟨s, m, h1, h2⟩ := ih (fun i hi => hn i (by omega))
    obtain ⟨x, hx⟩ := hn n (by omega)
    have hx' : (L.script c).drop n 0 = .ok (.inl x) := by simpa using hx
    obtain ⟨s', h3, h4⟩ := hR.base.produce _ _ ⟨m, h1⟩
    obtain ⟨m', h5⟩ := h4 x hx'
    rw [hx'] at h3
    have h6 := L.produce_inner h3
    rw [h2] at h6
    have h7 : c.drop n 0 = .ok (.inl x) := by simpa using L.script_item hx
    refine ⟨s', m', by simpa using h5, ?_⟩
    simp only [scriptProducer, h7] at h6
    simpa using (Prod.mk.inj (Outcome.ok.inj h6)).1.symm

theorem keepsError_limit {L : ProducerLayers F G} {n : Nat} {c : Script I F E} (h : (L.limit n).KeepsError c) :
    (∀ i, i ≤ n → ∃ x, L.script c i = .ok (.inl x)) ∨
    (L.KeepsError c ∧ ∀ e, L.script c n = .error e → ∃ i, i < n ∧ ∀ x, L.script c i ≠ .ok (.inl x)) := by
  refine Classical.byContradiction fun hcon => ?_
  have h1 : ∃ j, j ≤ n ∧ ∀ x, L.script c j ≠ .ok (.inl x) := Classical.byContradiction fun hx =>
    hcon (.inl fun i hi => Classical.byContradiction fun hi' => hx ⟨i, hi, fun x hx' => hi' ⟨x, hx'⟩⟩)
  obtain ⟨j, hj, hj'⟩ := h1
  refine hcon (.inr ⟨fun N e he hc => ?_, fun e he => ?_⟩)
  · rcases h N e he hc with h2 | ⟨i, hi, h2⟩
    · simp only [script, Script.limit] at h2
      split at h2
      · rcases hd : L.script c N with e' | x | f <;> rw [hd] at h2 <;> cases h2
        exact .inl rfl
      · cases h2
    · refine .inr ?_
      by_cases hin : i < n
      · refine ⟨i, hi, fun x hx => h2 x ?_⟩
        simp [script, Script.limit, hin, hx]
      · exact ⟨j, by omega, hj'⟩
  · refine Classical.byContradiction fun hx => ?_
    have hall : ∀ i, i < n → ∃ x, L.script c i = .ok (.inl x) := fun i hi =>
      Classical.byContradiction fun hi' => hx ⟨i, hi, fun x hx' => hi' ⟨x, hx'⟩⟩
    rcases h n e (L.script_error he) (fun i hi => (hall i hi).imp fun x hx => L.script_item hx) with h2 | ⟨i, hi, h2⟩
    · simp [script, Script.limit] at h2
    · obtain ⟨x, hx'⟩ := hall i hi
      exact h2 x (by simp [script, Script.limit, hi, hx'])

end ProducerLayers

/-- **C48, producers.** Exactly the stacks and sequences for which the stack is lawful around every lawful producer of the sequence,
under every mix of calls including `slurp`: those where no limit cuts off an error that would follow directly, or where a further limit
cuts off even more. -/
theorem producer_stack_plays_iff (L : ProducerLayers F G) (c : Script I F E) :
    (∀ (σ : Type) (P : BulkProducer σ I F E) (s : σ), BulkPlays P s c → BulkPlays (L.apply P) (L.wrap s) (L.script c)) ↔
    L.KeepsError c := by
  constructor
  · intro h n e he hc
    refine Classical.byContradiction fun hcon => ?_
    have hall : ∀ i, i < n → ∃ x, L.script c i = .ok (.inl x) := fun i hi =>
      Classical.byContradiction fun hi' => hcon (.inr ⟨i, hi, fun x hx' => hi' ⟨x, hx'⟩⟩)
    obtain ⟨R, hR, m, hm⟩ := h _ _ _ (script_producer_plays c)
    obtain ⟨s, m, h1, h2⟩ := L.reaches c hR hall hm
    obtain ⟨s', ⟨h3, _⟩ | ⟨e', h3, _⟩⟩ := hR.base.slurp _ _ ⟨m, h1⟩
    · have h4 := L.slurp_inner h3
      rw [h2] at h4
      simp [scriptProducer, he] at h4
    · have h4 : L.script c n = .error e' := by simpa using h3
      have h5 := L.script_error h4
      rw [he] at h5
      cases h5
      exact hcon (.inl h4)
  · intro h σ P s hP
    induction L with
    | nil => exact hP
    | limit L n ih =>
      rcases ProducerLayers.keepsError_limit h with h1 | ⟨h1, h2⟩
      · exact (producer_stack_plays_but_slurp hP L).limit_lawful h1
      · exact limit_bulk_plays_partial (ih h1) n h2
    | mapFinal L f ih =>
      refine map_final_plays f (ih fun n e he hc => ?_)
      rcases h n e he hc with h1 | ⟨i, hi, h1⟩
      · refine .inl ?_
        simp only [ProducerLayers.script, Script.mapFinal] at h1
        rcases hd : L.script c n with e' | x | g <;> rw [hd] at h1 <;> cases h1
        rfl
      · exact .inr ⟨i, hi, fun x hx => h1 x (by simp [ProducerLayers.script, Script.mapFinal, hx])⟩
    | invariant L ih => exact producer_invariant_plays (ih h)
    | invariantNoop L ih => exact producer_invariant_noop_plays (ih h)

/-- Three items and an error: limited to three items goes wrong, but not if it is then limited to two items. -/
example : (∀ (σ : Type) (P : BulkProducer σ Nat Unit String) (s : σ), BulkPlays P s (Case.script (.error "broken")) →
      BulkPlays ((((ProducerLayers.nil (F := Unit)).limit 3).limit 2).apply P) ((((ProducerLayers.nil (F := Unit)).limit 3).limit 2).wrap s)
        ((((ProducerLayers.nil (F := Unit)).limit 3).limit 2).script (Case.script (.error "broken")))) ∧
    ¬ ∀ (σ : Type) (P : BulkProducer σ Nat Unit String) (s : σ), BulkPlays P s (Case.script (.error "broken")) →
      BulkPlays ((((ProducerLayers.nil (F := Unit)).limit 3).limit 4).apply P) ((((ProducerLayers.nil (F := Unit)).limit 3).limit 4).wrap s)
        ((((ProducerLayers.nil (F := Unit)).limit 3).limit 4).script (Case.script (.error "broken"))) := by
  rw [producer_stack_plays_iff, producer_stack_plays_iff]
  refine ⟨fun n e he hc => .inr ⟨2, ?_, fun x hx => by cases hx⟩, fun h => ?_⟩
  · match n, he with
    | 0, he => cases he
    | 1, he => cases he
    | 2, he => cases he
    | n + 3, _ => omega
  · have h0 : ∀ i, i < 3 → ∃ x, Case.script (.error "broken") i = .ok (.inl x) := fun i hi => by
      match i, hi with
      | 0, _ => exact ⟨_, rfl⟩
      | 1, _ => exact ⟨_, rfl⟩
      | 2, _ => exact ⟨_, rfl⟩
    rcases h 3 "broken" rfl h0 with h1 | ⟨i, hi, h1⟩
    · cases h1
    · match i, hi with
      | 0, _ => exact h1 _ rfl
      | 1, _ => exact h1 _ rfl
      | 2, _ => exact h1 _ rfl

end

end Verif
