import Verif.Lemmas.Invariant
import Verif.Cases

/-!
# C25, C26: the `Invariant` wrappers
-/

namespace Verif

open Outcome

section

variable {σ I F E : Type}

/-! ## Producers -/

/-- **C25, transparency for lawful producers.** The wrapped producer emits the same sequence under every mix of calls. -/
theorem producer_invariant_plays {P : BulkProducer σ I F E} {s : σ} {c : Script I F E} (h : BulkPlays P s c) :
    BulkPlays (invariantBulkProducer P) (.new s) c := by
  obtain ⟨R, hR, n, hn⟩ := h
  exact ⟨_, hR.invariant, 0, rfl, .inl ⟨rfl, n, hn⟩⟩

example : BulkPlays (invariantBulkProducer Case.P) (.new (Case.pro (.error "broken"))) (Case.script (.error "broken")) :=
  producer_invariant_plays (Case.plays _)

/-- The no-op wrapper used outside of tests is lawful as well. -/
theorem producer_invariant_noop_plays {P : BulkProducer σ I F E} {s : σ} {c : Script I F E} (h : BulkPlays P s c) :
    BulkPlays (invariantNoopBulkProducer P) s c := by
  obtain ⟨R, hR, n, hn⟩ := h
  exact ⟨_, hR.invariantNoop, n, hn⟩

example : BulkPlays (invariantNoopBulkProducer Case.P) (Case.pro (.error "broken")) (Case.script (.error "broken")) :=
  producer_invariant_noop_plays (Case.plays _)

/-- After a history that has not ended, the wrapper is active and allows everything that is exposed. -/
theorem ProducerRuns.invariant_state {P : BulkProducer σ I F E} {s : σ} {handed : List I} {t : InvariantSt σ}
    {shown : List I} {ended : Option (Except E F)}
    (h : ProducerRuns (invariantBulkProducer P) (.new s) handed t shown ended) :
    ProducerRuns (invariantNoopBulkProducer P) s handed t.inner shown ended ∧ (ended = none → t.active = true) ∧
      shown.length ≤ t.exposedSlots := by
  induction h with
  | start => exact ⟨.start, fun _ => rfl, by simp⟩
  | @call handed t shown op t' r h hop hcall ih =>
    obtain ⟨ih1, ih2, ih3⟩ := ih
    obtain ⟨u, act, e⟩ := t
    obtain rfl : act = true := ih2 rfl
    have hs := invariantBulkProducer_call P u shown e ih3 hop
    rw [hcall] at hs
    rcases hc : (invariantNoopBulkProducer P).call u shown op with ⟨u', r'⟩ | _ | _ <;>
      simp only [hc, SameHandout] at hs
    obtain ⟨rfl, rfl, h3, h4⟩ := hs
    exact ⟨ih1.call hop hc, h3, h4⟩

/-- **C25, transparency, for arbitrary producers (lawful or not).** After every history of allowed calls, the next allowed
call of the wrapped producer ends in the same way as that of the unwrapped one, with the same answer and the same new state
of the producer. (The unwrapped producer with the default `bulk_produce`, since the wrapper does not forward
`bulk_produce`.) -/
theorem producer_invariant_transparent {P : BulkProducer σ I F E} {s : σ} {handed : List I} {t : InvariantSt σ}
    {shown : List I} (h : ProducerRuns (invariantBulkProducer P) (.new s) handed t shown none) {op : ProducerOp I}
    (hop : op.Allowed shown) :
    ((invariantBulkProducer P).call t shown op).bind (fun x => ok (x.1.inner, x.2)) =
      (invariantNoopBulkProducer P).call t.inner shown op := by
  obtain ⟨_, h1, h2⟩ := h.invariant_state
  obtain ⟨u, act, e⟩ := t
  obtain rfl : act = true := h1 rfl
  have hs := invariantBulkProducer_call P u shown e h2 hop
  simp only
  rcases hc : (invariantNoopBulkProducer P).call u shown op with ⟨u', r'⟩ | _ | _ <;>
    rcases hc' : (invariantBulkProducer P).call ⟨u, true, e⟩ shown op with ⟨t', r⟩ | _ | _ <;>
    simp only [hc, hc', SameHandout] at hs
  · obtain ⟨rfl, rfl, _⟩ := hs; rfl
  · rfl
  · rfl

example : ∃ t, ProducerRuns (invariantBulkProducer Case.P) (.new (Case.pro (.ok ()))) [] t [1, 2] none ∧
    ((invariantBulkProducer Case.P).call t [1, 2] (.considerProduced 2)).bind (fun x => ok (x.1.inner, x.2)) =
      (invariantNoopBulkProducer Case.P).call t.inner [1, 2] (.considerProduced 2) := by
  have h0 := ProducerRuns.start (P := invariantBulkProducer Case.P) (s₀ := .new (Case.pro (.ok ())))
  have h1 := h0.call (op := .exposeItems) (r := ⟨[], [1, 2], none⟩) trivial rfl
  exact ⟨_, h1, producer_invariant_transparent h1 ⟨by decide, by decide⟩⟩

/-- **C25, transparency, histories.** The wrapped and the unwrapped producer have the same histories. -/
theorem producer_invariant_histories {P : BulkProducer σ I F E} {s s' : σ} {handed shown : List I}
    {ended : Option (Except E F)} :
    (∃ t, t.inner = s' ∧ ProducerRuns (invariantBulkProducer P) (.new s) handed t shown ended) ↔
      ProducerRuns (invariantNoopBulkProducer P) s handed s' shown ended := by
  constructor
  · rintro ⟨t, rfl, h⟩; exact h.invariant_state.1
  · intro h
    induction h with
    | start => exact ⟨.new s, rfl, .start⟩
    | @call handed u shown op u' r h hop hcall ih =>
      obtain ⟨⟨_, act, e⟩, rfl, ht⟩ := ih
      have htr := producer_invariant_transparent ht hop
      simp only at hcall
      rw [hcall] at htr
      rcases hc' : (invariantBulkProducer P).call ⟨_, act, e⟩ shown op with ⟨t', r'⟩ | _ | _ <;>
        rw [hc'] at htr <;> cases htr
      exact ⟨t', rfl, ht.call hop hc'⟩

/-- An inactive wrapper panics on every call. -/
theorem producer_inactive_panics {P : BulkProducer σ I F E} {t : InvariantSt σ} (h : t.active = false)
    (shown : List I) (op : ProducerOp I) : (invariantBulkProducer P).call t shown op = .panic := by
  cases op <;> simp [BulkProducer.call, invariantBulkProducer, invariantBufferedProducer, invariantProducer,
    bulkProduceDefault, InvariantSt.checkInactive, h]

example (s : TestProducer Nat Unit String) : (invariantBulkProducer Case.P).call ⟨s, false, 3⟩ [1] .slurp = .panic :=
  producer_inactive_panics rfl [1] .slurp

/-- A call (allowed or not) that returned a final value, or an error of `produce`, `slurp` or `expose_items`, deactivates the
wrapper. -/
theorem producer_end_deactivates {P : BulkProducer σ I F E} {t t' : InvariantSt σ} {shown : List I} {op : ProducerOp I}
    {r : Handout I F E} (h : (invariantBulkProducer P).call t shown op = ok (t', r)) {last : Except E F}
    (hr : r.ended = some last) (hc : ∀ k, op ≠ .considerProduced k)
    (hb : ∀ u xs k u' e, P.exposeItems t.inner = ok (u, .ok (.inl xs)) → k ≤ xs.length →
      P.considerProduced u k = ok (u', .error e) → ∀ buf, op ≠ .bulkProduce buf) : t'.active = false := by
  obtain ⟨u, act, e⟩ := t
  cases act with
  | false => rw [producer_inactive_panics rfl] at h; cases h
  | true =>
    cases op with
    | considerProduced k => exact absurd rfl (hc k)
    | produce =>
      simp only [BulkProducer.call, invariantBulkProducer, invariantBufferedProducer, invariantProducer,
        InvariantSt.checkInactive] at h
      rcases hp : P.produce u with ⟨s', e' | x | f⟩ | _ | _ <;> simp [hp] at h <;> obtain ⟨rfl, rfl⟩ := h <;>
        first | rfl | cases hr
    | slurp =>
      simp only [BulkProducer.call, invariantBulkProducer, invariantBufferedProducer, InvariantSt.checkInactive] at h
      rcases hp : P.slurp u with ⟨s', e' | _⟩ | _ | _ <;> simp [hp] at h <;> obtain ⟨rfl, rfl⟩ := h <;>
        first | rfl | cases hr
    | exposeItems =>
      simp only [BulkProducer.call, invariantBulkProducer, InvariantSt.checkInactive] at h
      rcases hp : P.exposeItems u with ⟨s', e' | x | f⟩ | _ | _ <;> simp [hp] at h <;> obtain ⟨rfl, rfl⟩ := h <;>
        first | rfl | cases hr
    | bulkProduce buf =>
      simp only [BulkProducer.call, invariantBulkProducer, InvariantSt.checkInactive, bulkProduceDefault] at h
      rcases hp : P.exposeItems u with ⟨s', e' | xs | f⟩ | _ | _ <;> simp [hp] at h
      · obtain ⟨rfl, rfl⟩ := h; rfl
      · have hk : min xs.length buf.length ≤ xs.length := Nat.min_le_left _ _
        rw [if_neg (by omega), sub_of_le hk] at h
        rcases hq : P.considerProduced s' (min xs.length buf.length) with ⟨s'', e' | _⟩ | _ | _ <;> simp [hq] at h <;>
          obtain ⟨rfl, rfl⟩ := h
        · exact absurd rfl (hb _ _ _ _ _ hp hk hq buf)
        · cases hr
      · obtain ⟨rfl, rfl⟩ := h; rfl

/-- The last call of a client of a producer without items. -/
example : ∃ t', (invariantBulkProducer Case.P).call (.new (.new [] (.error "broken") [] none)) [] .produce =
    ok (t', ⟨[], [], some (.error "broken")⟩) ∧ t'.active = false :=
  ⟨_, rfl, producer_end_deactivates (P := Case.P) (op := .produce) (shown := [])
    (t := .new (.new [] (.error "broken") [] none)) rfl rfl (by simp) (by simp)⟩

/-- **C25, panics after the end, lawful producers.** After every history of a lawful wrapped producer that ended with a
final value or an error, every further call panics. -/
theorem producer_invariant_panics_after_end {P : BulkProducer σ I F E} {s : σ} {c : Script I F E} (hP : BulkPlays P s c)
    {handed : List I} {t : InvariantSt σ} {shown : List I} {last : Except E F}
    (h : ProducerRuns (invariantBulkProducer P) (.new s) handed t shown (some last)) (shown' : List I)
    (op : ProducerOp I) : (invariantBulkProducer P).call t shown' op = .panic := by
  refine producer_inactive_panics ?_ _ _
  generalize hl : some last = ended at h
  cases h with
  | start => cases hl
  | @call handed u shown op t r h hop hcall =>
    obtain ⟨R, hR, n, hn⟩ := hP
    obtain ⟨h1, h2, h3⟩ := h.invariant_state
    obtain ⟨_, h4, _⟩ := h1.after hR.invariantNoop hn
    obtain ⟨_, ⟨m, h5⟩, h6⟩ := h4 rfl
    obtain ⟨u, act, e⟩ := u
    simp only at h1 h2 h3 h5 h6
    obtain rfl := h2 trivial
    refine producer_end_deactivates hcall hl.symm ?_ ?_
    · rintro k rfl
      obtain ⟨hne, hk⟩ := hop
      obtain ⟨u', h7, _⟩ := hR.consider u _ shown.length k (h6 hne) (List.length_pos_iff.mpr hne) hk
      simp [BulkProducer.call, invariantBulkProducer, InvariantSt.checkInactive, sub_of_le (show k ≤ e by omega),
        show ¬ e < k by omega, h7] at hcall
      obtain ⟨_, rfl⟩ := hcall
      cases hl
    · intro u' xs k u'' e' hex hk hcon
      obtain ⟨u₁, ⟨ys, h8, h9, h10, h11⟩ | ⟨f, _, h8⟩ | ⟨e, _, h8⟩⟩ := hR.expose u _ m h5
      · simp only [hex] at h10
        injection h10 with h10; injection h10 with h10 h12; cases h10; injection h12 with h12; injection h12 with h12
        subst h12
        obtain ⟨u₂, h13, _⟩ := hR.consider _ _ _ k h11 (List.length_pos_iff.mpr h8) hk
        rw [hcon] at h13; injection h13 with h13; injection h13 with _ h13; cases h13
      · simp only [hex] at h8
        injection h8 with h8; injection h8 with _ h8; injection h8 with h8; cases h8
      · simp only [hex] at h8
        injection h8 with h8; injection h8 with _ h8; cases h8

example : ∃ t, ProducerRuns (invariantBulkProducer Case.P) (.new (.new [7] (.error "broken") [] none)) [7] t []
      (some (.error "broken")) ∧
    (invariantBulkProducer Case.P).call t [] .produce = .panic := by
  have h0 := ProducerRuns.start (P := invariantBulkProducer Case.P) (s₀ := .new (.new [7] (.error "broken") [] none))
  have h1 := h0.call (op := .produce) (r := ⟨[7], [], none⟩) trivial rfl
  have h2 := h1.call (op := .exposeItems) (r := ⟨[], [], some (.error "broken")⟩) trivial rfl
  exact ⟨_, h2, producer_invariant_panics_after_end (test_producer_plays true [7] (.error "broken") [] none) h2 _ _⟩

/-- Successive successful calls of `consider_produced` with the amounts `ks`. -/
inductive Considered (P : BulkProducer σ I F E) : σ → List Nat → σ → Prop where
  | nil (s) : Considered P s [] s
  | cons {s s₁ s₂ k ks} : P.considerProduced s k = ok (s₁, .ok ()) → Considered P s₁ ks s₂ →
      Considered P s (k :: ks) s₂

theorem Considered.invariant_state {P : BulkProducer σ I F E} {t t' : InvariantSt σ} {ks : List Nat}
    (h : Considered (invariantBulkProducer P) t ks t') : t.exposedSlots = ks.sum + t'.exposedSlots := by
  induction h with
  | nil => simp
  | @cons s s₁ s₂ k ks hc _ ih =>
    simp only [invariantBulkProducer, InvariantSt.checkInactive] at hc
    obtain ⟨u, act, e⟩ := s
    cases act with
    | false => simp at hc
    | true =>
      simp only [assert_true, bind_eq, bind_ok] at hc
      split at hc
      · cases hc
      · rename_i hk
        rw [sub_of_le (by omega), bind_ok] at hc
        rcases hq : P.considerProduced u k with ⟨s'', r⟩ | _ | _ <;> simp [hq] at hc
        obtain ⟨rfl, _⟩ := hc
        simp only [List.sum_cons] at ih ⊢
        omega

/-- **C25, panics on considering too many items, arbitrary producers.** When `expose_items` exposed `xs` and some of these
have been considered produced (by any number of calls), then considering more items produced than are left panics. -/
theorem producer_invariant_panics_beyond_exposed {P : BulkProducer σ I F E} {t t₀ t₁ : InvariantSt σ} {xs : List I}
    (hx : (invariantBulkProducer P).exposeItems t = ok (t₀, .ok (.inl xs))) {ks : List Nat}
    (hk : Considered (invariantBulkProducer P) t₀ ks t₁) {k : Nat} (hlt : xs.length < ks.sum + k) :
    (invariantBulkProducer P).considerProduced t₁ k = .panic := by
  have h0 : t₀.exposedSlots = xs.length := by
    simp only [invariantBulkProducer, InvariantSt.checkInactive] at hx
    obtain ⟨u, act, e⟩ := t
    cases act with
    | false => simp at hx
    | true =>
      rcases hp : P.exposeItems u with ⟨s', e' | x | f⟩ | _ | _ <;> simp [hp] at hx
      obtain ⟨rfl, rfl⟩ := hx; rfl
  have h1 := hk.invariant_state
  simp only [invariantBulkProducer, InvariantSt.checkInactive]
  obtain ⟨u, act, e⟩ := t₁
  cases act with
  | false => simp
  | true =>
    simp only at h1
    simp [show e < k by omega]

/-- Two items are exposed and one is considered produced; two more are too many. -/
example : ∃ t₀ t₁, (invariantBulkProducer Case.P).exposeItems (.new (Case.pro (.ok ()))) = ok (t₀, .ok (.inl [1, 2])) ∧
    Considered (invariantBulkProducer Case.P) t₀ [1] t₁ ∧ (invariantBulkProducer Case.P).considerProduced t₁ 2 = .panic := by
  obtain ⟨t₀, h1, t₁, h2⟩ : ∃ t₀, (invariantBulkProducer Case.P).exposeItems (.new (Case.pro (.ok ()))) =
    ok (t₀, .ok (.inl [1, 2])) ∧ ∃ t₁, (invariantBulkProducer Case.P).considerProduced t₀ 1 = ok (t₁, .ok ()) := ⟨_, rfl, _, rfl⟩
  exact ⟨t₀, t₁, h1, .cons h2 (.nil _), producer_invariant_panics_beyond_exposed h1 (.cons h2 (.nil _)) (by decide)⟩

/-- A freshly created wrapper panics on considering any item produced before anything was exposed. -/
theorem producer_invariant_panics_before_exposed (P : BulkProducer σ I F E) (s : σ) {k : Nat} (hk : 0 < k) :
    (invariantBulkProducer P).considerProduced (.new s) k = .panic := by
  simp [invariantBulkProducer, InvariantSt.checkInactive, InvariantSt.new, hk]

example : (invariantBulkProducer Case.P).considerProduced (.new (Case.pro (.ok ()))) 1 = .panic :=
  producer_invariant_panics_before_exposed _ _ (by decide)

example : (invariantBulkProducer (FromSlice.producer Nat)).call ⟨FromSlice.new [1, 2, 3], true, 0⟩ [] .exposeItems =
    ok (⟨FromSlice.new [1, 2, 3], true, 3⟩, ⟨[], [1, 2, 3], none⟩) := rfl

example : ∃ t₁, Considered (invariantBulkProducer (FromSlice.producer Nat)) ⟨FromSlice.new [1, 2, 3], true, 3⟩ [2] t₁ ∧
    (invariantBulkProducer (FromSlice.producer Nat)).considerProduced t₁ 2 = .panic :=
  ⟨⟨⟨[1, 2, 3], 2⟩, true, 1⟩, .cons rfl (.nil _), rfl⟩

example : ProducerRuns (invariantBulkProducer (FromSlice.producer Nat)) (.new (FromSlice.new [1])) [1]
    ⟨⟨[1], 1⟩, false, 1⟩ [] (some (.ok ())) := by
  have h0 := ProducerRuns.start (P := invariantBulkProducer (FromSlice.producer Nat)) (s₀ := .new (FromSlice.new [1]))
  have h1 := h0.call (op := .exposeItems) (s' := ⟨⟨[1], 0⟩, true, 1⟩) (r := ⟨[], [1], none⟩) trivial rfl
  have h2 := h1.call (op := .produce) (s' := ⟨⟨[1], 1⟩, true, 1⟩) (r := ⟨[1], [], none⟩) trivial rfl
  exact h2.call (op := .produce) (s' := ⟨⟨[1], 1⟩, false, 1⟩) (r := ⟨[], [], some (.ok ())⟩) trivial rfl

/-- **C25 fails for errors of `consider_produced`.** There is a producer such that, although `consider_produced` returned an
error, further calls of the wrapper do not panic (the wrapper does not become inactive). -/
theorem producer_invariant_misses_consider_error :
    ∃ (P : BulkProducer Unit Nat Unit Unit) (t₀ t₁ t₂ : InvariantSt Unit),
      (invariantBulkProducer P).exposeItems (.new ()) = ok (t₀, .ok (.inl [0])) ∧
      (invariantBulkProducer P).considerProduced t₀ 1 = ok (t₁, .error ()) ∧
      (invariantBulkProducer P).produce t₁ = ok (t₂, .ok (.inl 0)) :=
  ⟨{ produce := fun s => ok (s, .ok (.inl 0)), slurp := fun s => ok (s, .ok ()),
     exposeItems := fun s => ok (s, .ok (.inl [0])), considerProduced := fun s _ => ok (s, .error ()) },
    ⟨(), true, 1⟩, ⟨(), true, 0⟩, ⟨(), true, 0⟩, rfl, rfl, rfl⟩

/-- **C25 fails after exposed items were invalidated by `produce`.** The wrapper does not forget the number of exposed items
when one of them is taken with `produce`; so an item can be considered produced twice without a panic, here beyond the end of
the slice, and the panic comes from the wrapped producer instead. -/
theorem producer_invariant_misses_stale_exposure :
    ∃ t₀ t₁ t₂ : InvariantSt (FromSlice Nat),
      (invariantBulkProducer (FromSlice.producer Nat)).exposeItems (.new (FromSlice.new [5])) = ok (t₀, .ok (.inl [5])) ∧
      (invariantBulkProducer (FromSlice.producer Nat)).produce t₀ = ok (t₁, .ok (.inl 5)) ∧
      (invariantBulkProducer (FromSlice.producer Nat)).considerProduced t₁ 1 = ok (t₂, .ok ()) ∧
      (FromSlice.producer Nat).produce t₂.inner = .panic :=
  ⟨⟨⟨[5], 0⟩, true, 1⟩, ⟨⟨[5], 1⟩, true, 1⟩, ⟨⟨[5], 2⟩, true, 0⟩, rfl, rfl, rfl, rfl⟩

/-! ## Consumers -/

/-- **C26, transparency for lawful consumers.** -/
theorem consumer_invariant_collects {C : BulkConsumer σ I F E} {D : σ → List I → Option F → Prop} {q : Policy I F E}
    {s : σ} {l : List I} (h : BulkCollects C D q s l) :
    BulkCollects (invariantBulkConsumer C) (fun s => D s.inner) q (.new s) l := by
  obtain ⟨R, hR, sl, hsl⟩ := h
  exact ⟨_, hR.invariant, [], rfl, .inl ⟨rfl, sl, hsl⟩⟩

example : BulkCollects (invariantBulkConsumer Case.C) (fun s => TestConsumer.Seen s.inner) (Case.policy 4) (.new (Case.con 4)) [] :=
  consumer_invariant_collects (Case.collects 4)

theorem consumer_invariant_noop_collects {C : BulkConsumer σ I F E} {D : σ → List I → Option F → Prop} {q : Policy I F E}
    {s : σ} {l : List I} (h : BulkCollects C D q s l) :
    BulkCollects (invariantNoopBulkConsumer C) D q s l := by
  obtain ⟨R, hR, sl, hsl⟩ := h
  exact ⟨_, hR.invariantNoop, sl, hsl⟩

example : BulkCollects (invariantNoopBulkConsumer Case.C) TestConsumer.Seen (Case.policy 4) (Case.con 4) [] :=
  consumer_invariant_noop_collects (Case.collects 4)

/-- The same for consumers that delay their effects. -/
theorem consumer_invariant_defers {C : BulkConsumer σ I F E} {D : σ → List I → Option F → Prop} {X : Faults I F E}
    (hX : X.Regular) {s : σ} {l : List I} (h : BulkDefers C D X s l) :
    BulkDefers (invariantBulkConsumer C) (fun s => D s.inner) X (.new s) l := by
  obtain ⟨R, hR, sl, hsl⟩ := h
  exact ⟨_, hR.invariant hX, [], rfl, .inl ⟨rfl, sl, hsl⟩⟩

example : BulkDefers (invariantBulkConsumer Case.B) (fun s => Case.SeenInside s.inner) (Case.policy 4).faults (.new (Case.del 4)) [] :=
  consumer_invariant_defers (Policy.regular_faults _) (Case.defers 4)

theorem consumer_invariant_noop_defers {C : BulkConsumer σ I F E} {D : σ → List I → Option F → Prop} {X : Faults I F E}
    (hX : X.Regular) {s : σ} {l : List I} (h : BulkDefers C D X s l) :
    BulkDefers (invariantNoopBulkConsumer C) D X s l := by
  obtain ⟨R, hR, sl, hsl⟩ := h
  exact ⟨_, hR.invariantNoop hX, sl, hsl⟩

example : BulkDefers (invariantNoopBulkConsumer Case.B) Case.SeenInside (Case.policy 4).faults (Case.del 4) [] :=
  consumer_invariant_noop_defers (Policy.regular_faults _) (Case.defers 4)

theorem ConsumerRuns.invariant_state {C : BulkConsumer σ I F E} {s : σ} {taken : List I} {t : InvariantSt σ}
    {slots : List I} {ended : Option (ConsumerEnd I F E)}
    (h : ConsumerRuns (invariantBulkConsumer C) (.new s) taken t slots ended) :
    ConsumerRuns (invariantNoopBulkConsumer C) s taken t.inner slots ended ∧ (ended = none → t.active = true) ∧
      slots.length ≤ t.exposedSlots := by
  induction h with
  | start => exact ⟨.start, fun _ => rfl, by simp⟩
  | @call taken t slots op t' r h hop hcall ih =>
    obtain ⟨ih1, ih2, ih3⟩ := ih
    obtain ⟨u, act, e⟩ := t
    obtain rfl : act = true := ih2 rfl
    have hs := invariantBulkConsumer_call C u slots e ih3 hop
    rw [hcall] at hs
    rcases hc : (invariantNoopBulkConsumer C).call u slots op with ⟨u', r'⟩ | _ | _ <;>
      simp only [hc, SameReceipt] at hs
    obtain ⟨rfl, rfl, h3, h4⟩ := hs
    exact ⟨ih1.call hop hc, h3, h4⟩

/-- **C26, transparency, for arbitrary consumers (lawful or not).** -/
theorem consumer_invariant_transparent {C : BulkConsumer σ I F E} {s : σ} {taken : List I} {t : InvariantSt σ}
    {slots : List I} (h : ConsumerRuns (invariantBulkConsumer C) (.new s) taken t slots none) {op : ConsumerOp I F}
    (hop : op.Allowed slots) :
    ((invariantBulkConsumer C).call t slots op).bind (fun x => ok (x.1.inner, x.2)) =
      (invariantNoopBulkConsumer C).call t.inner slots op := by
  obtain ⟨_, h1, h2⟩ := h.invariant_state
  obtain ⟨u, act, e⟩ := t
  obtain rfl : act = true := h1 rfl
  have hs := invariantBulkConsumer_call C u slots e h2 hop
  simp only
  rcases hc : (invariantNoopBulkConsumer C).call u slots op with ⟨u', r'⟩ | _ | _ <;>
    rcases hc' : (invariantBulkConsumer C).call ⟨u, true, e⟩ slots op with ⟨t', r⟩ | _ | _ <;>
    simp only [hc, hc', SameReceipt] at hs
  · obtain ⟨rfl, rfl, _⟩ := hs; rfl
  · rfl
  · rfl

example : ∃ t slots, ConsumerRuns (invariantBulkConsumer Case.C) (.new (Case.con 1)) [5] t slots none ∧
    ((invariantBulkConsumer Case.C).call t slots (.consume 6)).bind (fun x => ok (x.1.inner, x.2)) =
      (invariantNoopBulkConsumer Case.C).call t.inner slots (.consume 6) := by
  have h0 := ConsumerRuns.start (C := invariantBulkConsumer Case.C) (s₀ := .new (Case.con 1))
  have h1 := h0.call (op := .consume 5) (r := ⟨[5], [], none⟩) trivial rfl
  exact ⟨_, _, h1, consumer_invariant_transparent h1 trivial⟩

/-- **C26, transparency, histories.** -/
theorem consumer_invariant_histories {C : BulkConsumer σ I F E} {s s' : σ} {taken slots : List I}
    {ended : Option (ConsumerEnd I F E)} :
    (∃ t, t.inner = s' ∧ ConsumerRuns (invariantBulkConsumer C) (.new s) taken t slots ended) ↔
      ConsumerRuns (invariantNoopBulkConsumer C) s taken s' slots ended := by
  constructor
  · rintro ⟨t, rfl, h⟩; exact h.invariant_state.1
  · intro h
    induction h with
    | start => exact ⟨.new s, rfl, .start⟩
    | @call taken u slots op u' r h hop hcall ih =>
      obtain ⟨⟨_, act, e⟩, rfl, ht⟩ := ih
      have htr := consumer_invariant_transparent ht hop
      simp only at hcall
      rw [hcall] at htr
      rcases hc' : (invariantBulkConsumer C).call ⟨_, act, e⟩ slots op with ⟨t', r'⟩ | _ | _ <;>
        rw [hc'] at htr <;> cases htr
      exact ⟨t', rfl, ht.call hop hc'⟩

/-- An inactive wrapper panics on every call (writing to a slot is not a call). -/
theorem consumer_inactive_panics {C : BulkConsumer σ I F E} {t : InvariantSt σ} (h : t.active = false)
    (slots : List I) (op : ConsumerOp I F) (hw : ∀ ws, op ≠ .write ws) :
    (invariantBulkConsumer C).call t slots op = .panic := by
  cases op <;> first
    | exact absurd rfl (hw _)
    | simp [BulkConsumer.call, invariantBulkConsumer, invariantBufferedConsumer, invariantConsumer,
        bulkConsumeDefault, InvariantSt.checkInactive, h]

example (s : TestConsumer Nat Unit String) : (invariantBulkConsumer Case.C).call ⟨s, false, 3⟩ [1] .flush = .panic :=
  consumer_inactive_panics rfl [1] .flush (by simp)

/-- A call (allowed or not) that closed the consumer, or returned an error of `consume`, `close`, `flush`, or
`expose_slots`, deactivates the wrapper. -/
theorem consumer_end_deactivates {C : BulkConsumer σ I F E} {t t' : InvariantSt σ} {slots : List I} {op : ConsumerOp I F}
    {r : Receipt I F E} (h : (invariantBulkConsumer C).call t slots op = ok (t', r)) {last : ConsumerEnd I F E}
    (hr : r.ended = some last) (hc : ∀ k, op ≠ .consumeSlots k)
    (hb : ∀ u sl buf u' e, C.exposeSlots t.inner = ok (u, .ok sl) → op = .bulkConsume buf →
      C.consumeSlots (C.writeSlots u (buf.take (min sl.length buf.length))) (min sl.length buf.length) ≠
        ok (u', .error e)) : t'.active = false := by
  obtain ⟨u, act, e⟩ := t
  by_cases hw : ∃ ws, op = .write ws
  · obtain ⟨ws, rfl⟩ := hw
    simp only [BulkConsumer.call] at h
    injection h with h; injection h with _ h; subst h; cases hr
  cases act with
  | false => rw [consumer_inactive_panics rfl _ _ (fun ws h => hw ⟨ws, h⟩)] at h; cases h
  | true =>
    cases op with
    | consumeSlots k => exact absurd rfl (hc k)
    | write ws => exact absurd ⟨ws, rfl⟩ hw
    | consume x =>
      simp only [BulkConsumer.call, invariantBulkConsumer, invariantBufferedConsumer, invariantConsumer,
        InvariantSt.checkInactive] at h
      rcases hp : C.consume u x with ⟨s', e' | _⟩ | _ | _ <;> simp [hp] at h <;> obtain ⟨rfl, rfl⟩ := h <;>
        first | rfl | cases hr
    | flush =>
      simp only [BulkConsumer.call, invariantBulkConsumer, invariantBufferedConsumer, invariantConsumer,
        InvariantSt.checkInactive] at h
      rcases hp : C.flush u with ⟨s', e' | _⟩ | _ | _ <;> simp [hp] at h <;> obtain ⟨rfl, rfl⟩ := h <;>
        first | rfl | cases hr
    | close f =>
      simp only [BulkConsumer.call, invariantBulkConsumer, invariantBufferedConsumer, invariantConsumer,
        InvariantSt.checkInactive] at h
      rcases hp : C.close u f with ⟨s', e' | _⟩ | _ | _ <;> simp [hp] at h <;> obtain ⟨rfl, rfl⟩ := h <;>
        first | rfl | cases hr
    | exposeSlots =>
      simp only [BulkConsumer.call, invariantBulkConsumer, InvariantSt.checkInactive] at h
      rcases hp : C.exposeSlots u with ⟨s', e' | _⟩ | _ | _ <;> simp [hp] at h <;> obtain ⟨rfl, rfl⟩ := h <;>
        first | rfl | cases hr
    | bulkConsume buf =>
      simp only [BulkConsumer.call, invariantBulkConsumer, InvariantSt.checkInactive, bulkConsumeDefault] at h
      rcases hp : C.exposeSlots u with ⟨s', e' | sl⟩ | _ | _ <;> simp [hp] at h
      · obtain ⟨rfl, rfl⟩ := h; rfl
      · have hk : min sl.length buf.length ≤ sl.length := Nat.min_le_left _ _
        rw [if_neg (by omega), sub_of_le hk] at h
        rcases hq : C.consumeSlots (C.writeSlots s' (buf.take (min sl.length buf.length))) (min sl.length buf.length)
          with ⟨s'', e' | _⟩ | _ | _ <;> simp [hq] at h <;> obtain ⟨rfl, rfl⟩ := h
        · exact absurd hq (hb _ _ _ _ _ hp rfl)
        · cases hr

/-- The last call of a client of a consumer that accepts nothing. -/
example : ∃ t', (invariantBulkConsumer Case.C).call (.new (Case.con 0)) [] (.consume 5) =
    ok (t', ⟨[], [], some (.failed "full" [5])⟩) ∧ t'.active = false :=
  ⟨_, rfl, consumer_end_deactivates (C := Case.C) (op := .consume 5) (slots := []) (t := .new (Case.con 0)) rfl rfl (by simp)
    (by simp)⟩

/-- **C26, panics after the end, partial; arbitrary consumers.** After any call (allowed or not) that closed the consumer,
failed to close it, or returned an error of `consume`, `flush` or `expose_slots` (directly, or within `bulk_consume`), every
further call panics. Missing: errors of `consume_slots` (directly or within `bulk_consume`), for which the statement is
false, see `consumer_invariant_misses_consume_slots_error`. -/
theorem consumer_invariant_panics_after_end_partial {C : BulkConsumer σ I F E} {t t' : InvariantSt σ}
    {slots : List I} {op : ConsumerOp I F} {r : Receipt I F E}
    (hcall : (invariantBulkConsumer C).call t slots op = ok (t', r))
    {last : ConsumerEnd I F E} (hr : r.ended = some last) (hc : ∀ k, op ≠ .consumeSlots k)
    (hb : ∀ buf, op = .bulkConsume buf → ∃ u e, C.exposeSlots t.inner = ok (u, .error e))
    (slots' : List I) (op' : ConsumerOp I F) (hw : ∀ ws, op' ≠ .write ws) :
    (invariantBulkConsumer C).call t' slots' op' = .panic := by
  refine consumer_inactive_panics (consumer_end_deactivates hcall hr hc (fun u sl buf u' e hx hop => ?_)) _ _ hw
  obtain ⟨u'', _, h⟩ := hb buf hop
  rw [hx] at h; injection h with h; injection h with _ h; cases h

example : ∃ t', (invariantBulkConsumer Case.C).call (.new (Case.con 0)) [] (.bulkConsume [5, 6]) =
    ok (t', ⟨[], [], some (.failed "full" [5, 6])⟩) ∧ (invariantBulkConsumer Case.C).call t' [] (.close ()) = .panic :=
  ⟨_, rfl, consumer_invariant_panics_after_end_partial (C := Case.C) (op := .bulkConsume [5, 6]) (slots := [])
    (t := .new (Case.con 0)) rfl rfl (by simp) (fun _ _ => ⟨_, "full", rfl⟩) [] (.close ()) (by simp)⟩

/-- **C26, panics after the end, consumers whose `consume_slots` does not fail.** (All consumers of the crate that never
fail, and those that report errors in `expose_slots` only.) After every call that ended the history, every further call
panics. -/
theorem consumer_invariant_panics_after_end {C : BulkConsumer σ I F E}
    (hC : ∀ u k u' e, C.consumeSlots u k ≠ ok (u', .error e)) {s : σ} {taken : List I} {t : InvariantSt σ}
    {slots : List I} {last : ConsumerEnd I F E}
    (h : ConsumerRuns (invariantBulkConsumer C) (.new s) taken t slots (some last))
    (slots' : List I) (op' : ConsumerOp I F) (hw : ∀ ws, op' ≠ .write ws) :
    (invariantBulkConsumer C).call t slots' op' = .panic := by
  refine consumer_inactive_panics ?_ _ _ hw
  generalize hl : some last = ended at h
  cases h with
  | start => cases hl
  | @call taken u slots op t r h hop hcall =>
    refine consumer_end_deactivates hcall hl.symm ?_ (fun u sl buf u' e _ _ => hC _ _ _ _)
    rintro k rfl
    obtain ⟨h1, h2, h3⟩ := h.invariant_state
    obtain ⟨u, act, e⟩ := u
    obtain rfl := h2 rfl
    obtain ⟨hne, hk⟩ := hop
    simp only at h3
    simp only [BulkConsumer.call, invariantBulkConsumer, InvariantSt.checkInactive,
      sub_of_le (show k ≤ e by omega)] at hcall
    rcases hq : C.consumeSlots u k with ⟨s'', e' | _⟩ | _ | _
    · exact hC _ _ _ _ hq
    all_goals simp [hq, show ¬ e < k by omega] at hcall
    obtain ⟨_, rfl⟩ := hcall
    cases hl

example : ∃ t, ConsumerRuns (invariantBulkConsumer Case.V) (.new (IntoVec.fromVec [7])) [1] t [] (some (.closed ())) ∧
    (invariantBulkConsumer Case.V).call t [] (.consume 2) = .panic := by
  have h0 := ConsumerRuns.start (C := invariantBulkConsumer Case.V) (s₀ := .new (IntoVec.fromVec [7]))
  have h1 := h0.call (op := .consume 1) (r := ⟨[1], [], none⟩) trivial rfl
  have h2 := h1.call (op := .close ()) (r := ⟨[], [], some (.closed ())⟩) trivial rfl
  exact ⟨_, h2, consumer_invariant_panics_after_end (fun _ _ _ e => e.elim) h2 [] _ (by simp)⟩

/-- Successive successful calls of `consume_slots` with the amounts `ks`, with arbitrary writes in between. -/
inductive SlotsConsumed (C : BulkConsumer σ I F E) : σ → List Nat → σ → Prop where
  | nil (s) : SlotsConsumed C s [] s
  | cons {s s₁ s₂ ws k ks} : C.consumeSlots (C.writeSlots s ws) k = ok (s₁, .ok ()) → SlotsConsumed C s₁ ks s₂ →
      SlotsConsumed C s (k :: ks) s₂

theorem SlotsConsumed.invariant_state {C : BulkConsumer σ I F E} {t t' : InvariantSt σ} {ks : List Nat}
    (h : SlotsConsumed (invariantBulkConsumer C) t ks t') : t.exposedSlots = ks.sum + t'.exposedSlots := by
  induction h with
  | nil => simp
  | @cons s s₁ s₂ ws k ks hc _ ih =>
    simp only [invariantBulkConsumer, InvariantSt.checkInactive] at hc
    obtain ⟨u, act, e⟩ := s
    cases act with
    | false => simp at hc
    | true =>
      simp only [assert_true, bind_eq, bind_ok] at hc
      split at hc
      · cases hc
      · rename_i hk
        rw [sub_of_le (by omega), bind_ok] at hc
        rcases hq : C.consumeSlots (C.writeSlots u ws) k with ⟨s'', r⟩ | _ | _ <;> simp [hq] at hc
        obtain ⟨rfl, _⟩ := hc
        simp only [List.sum_cons] at ih ⊢
        omega

/-- **C26, panics on consuming too many slots, arbitrary consumers.** -/
theorem consumer_invariant_panics_beyond_exposed {C : BulkConsumer σ I F E} {t t₀ t₁ : InvariantSt σ} {sl : List I}
    (hx : (invariantBulkConsumer C).exposeSlots t = ok (t₀, .ok sl)) {ks : List Nat}
    (hk : SlotsConsumed (invariantBulkConsumer C) t₀ ks t₁) {k : Nat} (hlt : sl.length < ks.sum + k) (ws : List I) :
    (invariantBulkConsumer C).consumeSlots ((invariantBulkConsumer C).writeSlots t₁ ws) k = .panic := by
  have h0 : t₀.exposedSlots = sl.length := by
    simp only [invariantBulkConsumer, InvariantSt.checkInactive] at hx
    obtain ⟨u, act, e⟩ := t
    cases act with
    | false => simp at hx
    | true =>
      rcases hp : C.exposeSlots u with ⟨s', e' | x⟩ | _ | _ <;> simp [hp] at hx
      obtain ⟨rfl, rfl⟩ := hx; rfl
  have h1 := hk.invariant_state
  simp only [invariantBulkConsumer, InvariantSt.checkInactive]
  obtain ⟨u, act, e⟩ := t₁
  cases act with
  | false => simp
  | true =>
    simp only at h1
    simp [show e < k by omega]

/-- Two slots are exposed and one is consumed; two more are too many. -/
example : ∃ t₀ t₁, (invariantBulkConsumer Case.V).exposeSlots (.new (IntoVec.fromVec [1])) = ok (t₀, .ok [0, 0]) ∧
    SlotsConsumed (invariantBulkConsumer Case.V) t₀ [1] t₁ ∧
    (invariantBulkConsumer Case.V).consumeSlots ((invariantBulkConsumer Case.V).writeSlots t₁ [8]) 2 = .panic := by
  obtain ⟨t₀, h1, t₁, h2⟩ : ∃ t₀, (invariantBulkConsumer Case.V).exposeSlots (.new (IntoVec.fromVec [1])) = ok (t₀, .ok [0, 0]) ∧
    ∃ t₁, (invariantBulkConsumer Case.V).consumeSlots ((invariantBulkConsumer Case.V).writeSlots t₀ [5]) 1 = ok (t₁, .ok ()) :=
    ⟨_, rfl, _, rfl⟩
  exact ⟨t₀, t₁, h1, .cons h2 (.nil _), consumer_invariant_panics_beyond_exposed h1 (.cons h2 (.nil _)) (by decide) [8]⟩

/-- A freshly created wrapper panics on consuming any slot before slots were exposed. -/
theorem consumer_invariant_panics_before_exposed (C : BulkConsumer σ I F E) (s : σ) {k : Nat} (hk : 0 < k) :
    (invariantBulkConsumer C).consumeSlots (.new s) k = .panic := by
  simp [invariantBulkConsumer, InvariantSt.checkInactive, InvariantSt.new, hk]

example : (invariantBulkConsumer Case.C).consumeSlots (.new (Case.con 3)) 1 = .panic :=
  consumer_invariant_panics_before_exposed _ _ (by decide)

example : ConsumerRuns (invariantBulkConsumer (IntoVec.consumer Nat)) (.new IntoVec.new) [4] ⟨⟨[4], 1⟩, false, 0⟩ []
    (some (.closed ())) := by
  have h0 := ConsumerRuns.start (C := invariantBulkConsumer (IntoVec.consumer Nat)) (s₀ := .new IntoVec.new)
  have h1 := h0.call (op := .bulkConsume [4, 5]) (s' := ⟨⟨[4], 1⟩, true, 0⟩) (r := ⟨[4], [], none⟩)
    (by simp [ConsumerOp.Allowed]) rfl
  exact h1.call (op := .close ()) (s' := ⟨⟨[4], 1⟩, false, 0⟩) (r := ⟨[], [], some (.closed ())⟩) trivial rfl

example : ∃ t₀ t₁, (invariantBulkConsumer (IntoVec.consumer Nat)).exposeSlots (.new (IntoVec.fromVec [1])) =
      ok (t₀, .ok [0, 0]) ∧
    SlotsConsumed (invariantBulkConsumer (IntoVec.consumer Nat)) t₀ [1] t₁ ∧
    (invariantBulkConsumer (IntoVec.consumer Nat)).consumeSlots t₁ 2 = .panic :=
  ⟨⟨⟨[1, 0, 0], 1⟩, true, 2⟩, ⟨⟨[1, 9, 0], 2⟩, true, 1⟩, rfl, .cons (ws := [9]) rfl (.nil _), rfl⟩

/-- **C26 fails for errors of `consume_slots`.** There is a consumer such that, although `consume_slots` returned an error,
further calls of the wrapper do not panic. -/
theorem consumer_invariant_misses_consume_slots_error :
    ∃ (C : BulkConsumer Unit Nat Unit Unit) (t₀ t₁ t₂ : InvariantSt Unit),
      (invariantBulkConsumer C).exposeSlots (.new ()) = ok (t₀, .ok [0]) ∧
      (invariantBulkConsumer C).consumeSlots t₀ 1 = ok (t₁, .error ()) ∧
      (invariantBulkConsumer C).consume t₁ 7 = ok (t₂, .ok ()) :=
  ⟨{ consume := fun s _ => ok (s, .ok ()), close := fun s _ => ok (s, .ok ()), flush := fun s => ok (s, .ok ()),
     exposeSlots := fun s => ok (s, .ok [0]), writeSlots := fun s _ => s,
     consumeSlots := fun s _ => ok (s, .error ()) },
    ⟨(), true, 1⟩, ⟨(), true, 0⟩, ⟨(), true, 0⟩, rfl, rfl, rfl⟩

/-- **C26 fails after exposed slots were invalidated by `consume`.** The wrapper does not forget the number of exposed slots
when an item is consumed with `consume`; so a slot can be consumed although it is used already, here beyond the end of the
vector, and the wrapped `IntoVec` panics on its next `as_ref`. -/
theorem consumer_invariant_misses_stale_exposure :
    ∃ t₀ t₁ t₂ : InvariantSt (IntoVec Nat),
      (invariantBulkConsumer (IntoVec.consumer Nat)).exposeSlots (.new IntoVec.new) = ok (t₀, .ok [0]) ∧
      (invariantBulkConsumer (IntoVec.consumer Nat)).consume t₀ 7 = ok (t₁, .ok ()) ∧
      (invariantBulkConsumer (IntoVec.consumer Nat)).consumeSlots t₁ 1 = ok (t₂, .ok ()) ∧
      t₂.inner.asRef = .panic :=
  ⟨⟨⟨[0], 0⟩, true, 1⟩, ⟨⟨[7], 1⟩, true, 1⟩, ⟨⟨[7], 2⟩, true, 0⟩, rfl, rfl, rfl, rfl⟩

end

end Verif
