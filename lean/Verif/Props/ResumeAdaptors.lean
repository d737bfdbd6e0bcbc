import Verif.Props.Resume
import Verif.Props.Async

/-!
# Adaptors and dropped calls (C103)

`Limit` counts an item before it awaits the wrapped producer or consumer. So a call that is dropped while the wrapped one is pending
counts although no item has been moved: if it is tried again, fewer items than the limit are moved. This concerns `produce`,
`consider_produced`, `consume` and `consume_slots`, but not `expose_items` and `expose_slots`. So `bulk_pipe` from a `Limit` can be
dropped and started again (while `expose_items` is pending), and `pipe` can not. The producers `MapItem` and `MapFinal` do everything
after they have awaited; the consumer `MapItem` calls its function before.
-/

namespace Verif.Async

open Outcome

variable {σ τ I F E E₁ E₂ : Type}

/-! ## Producers -/

/-- **C103.** After a dropped call of `expose_items`, a `Limit` still has the same to emit, if the producer that it wraps has. -/
theorem limit_drops {P : BulkProducer σ I F E} {d : ProducerDrops P} {R : σ → Script I F E → Nat → Prop} (h : d.Tolerated R) :
    (limitDrops d).Tolerated (LimitSt.Plays NoErrorAt R) where
  exposeItems := by
    rintro s c' m k s' ⟨c, n, xs, hR, _, _, rfl, hq, _⟩ hk ⟨hd⟩
    obtain ⟨m', hm'⟩ := h.exposeItems hR (Fut.pending_left hk) hd
    exact ⟨0, c, m', [], hm', Nat.zero_le _, Nat.zero_le _, rfl, hq, by simp, rfl⟩

/-- **C103.** And so has a `MapFinal`. -/
theorem map_final_drops {B : Type} (f : F → B) {P : BulkProducer σ I F E} {d : ProducerDrops P} {R : σ → Script I F E → Nat → Prop}
    (h : d.Tolerated R) :
    (mapFinalDrops (B := B) d).Tolerated (fun s c' n => ∃ c, R s.inner c n ∧ s.fn = some f ∧ c' = c.mapFinal f) where
  exposeItems := by
    rintro s c' m k s' ⟨c, hR, hf, rfl⟩ hk ⟨hd⟩
    obtain ⟨m', hm'⟩ := h.exposeItems hR (Fut.pending_left hk) hd
    exact ⟨m', c, hm', hf, rfl⟩

/-- **C103.** After a dropped call of `consider_produced` too. -/
theorem map_final_drops_consider {B : Type} (f : F → B) {P : BulkProducer σ I F E} {d : ProducerDrops P}
    {R : σ → Script I F E → Nat → Prop} (h : d.Unconsidered R) :
    (mapFinalDrops (B := B) d).Unconsidered (fun s c' n => ∃ c, R s.inner c n ∧ s.fn = some f ∧ c' = c.mapFinal f) where
  considerProduced := by
    rintro s c' m a k s' ⟨c, hR, hf, rfl⟩ hk ⟨hd⟩
    obtain ⟨m', hm'⟩ := h.considerProduced hR (Fut.pending_left hk) hd
    exact ⟨m', c, hm', hf, rfl⟩

/-- **C103.** After a dropped call of `consider_produced`, a `Limit` has forgotten `a` of the items that it may emit, while the
producer that it wraps has forgotten nothing. -/
theorem limit_consider_dropped {P : BulkProducer σ I F E} {d : ProducerDrops P} {R : σ → Script I F E → Nat → Prop}
    (h : d.Unconsidered R) {s s' : LimitSt σ} {c : Script I F E} {n a : Nat} (hR : R s.inner c n) (ha : a ≤ s.remaining) {k}
    (hk : ((limitBulkProducer P).considerProduced s a).Pending k) (hd : (limitDrops d).considerProduced s a k s') :
    s'.remaining + a = s.remaining ∧ ∃ m, R s'.inner c m := by
  obtain ⟨hd⟩ := hd
  obtain ⟨hr, hk⟩ := Fut.pending_right hk
  replace hr := (Fut.run_lift _).symm.trans hr
  rw [sub_of_le ha] at hr
  cases hr
  exact ⟨Nat.sub_add_cancel ha, h.considerProduced hR (Fut.pending_left hk) hd⟩

/-- **C103.** After a dropped call of `produce`, a `Limit` has forgotten one of the items that it may emit, while the producer that it
wraps has forgotten nothing. -/
theorem limit_produce_dropped {P : Producer σ I F E} {d : ItemDrops P} {R : σ → Script I F E → Prop} (h : d.Tolerated R)
    {s s' : LimitSt σ} {c : Script I F E} (hR : R s.inner c) {k} (hk : ((limitProducer P).produce s).Pending k)
    (hd : (limitItemDrops d).produce s k s') : s'.remaining + 1 = s.remaining ∧ R s'.inner c := by
  obtain ⟨hd⟩ := hd
  exact ⟨rfl, h.produce hR (Fut.pending_left hk) hd⟩

/-- **C103.** After a dropped call of `produce`, a `MapItem` still has the same to emit: its function has not been called. -/
theorem map_item_drops {φ B : Type} (f : φ → I → φ × B) {P : Producer σ I F E} {d : ItemDrops P} {R : σ → Script I F E → Prop}
    (h : d.Tolerated R) {s s' : MapItemSt σ φ} {c : Script I F E} (hR : R s.inner c) {k}
    (hk : ((mapItemProducer f P).produce s).Pending k) (hd : (mapItemDrops f d).produce s k s') :
    s'.captured = s.captured ∧ R s'.inner c := by
  obtain ⟨hd⟩ := hd
  exact ⟨rfl, h.produce hR (Fut.pending_left hk) hd⟩

/-- `pipe` from a `Limit` is pending in `produce`. -/
theorem limit_pipe_producing {P : Producer σ I F E₁} {C : Consumer τ I (Option F) E₂} {D : τ → List I → Option (Option F) → Prop}
    {c : Script I F E₁} {q : Policy I (Option F) E₂} {R : σ → Script I F E₁ → Prop} {S : τ → List I → Prop} (hR : PlaysLaw P.seq R)
    (hS : CollectsLaw C.seq D q S) {s : σ} {n : Nat} {t : τ} {l : List I} (hs : R s c) (ht : S t l) {s₁ t₁ k}
    (h : (pipe (limitProducer P) C ⟨s, n⟩ t).Pending ⟨(s₁, t₁), .inl k⟩) :
    ∃ xs, c.StartsWith xs ∧ R s₁.inner (c.drop xs.length) ∧ s₁.remaining + xs.length = n ∧ S t₁ (l ++ xs) ∧
      ((limitProducer P).produce s₁).Pending k := by
  obtain ⟨hi, hk⟩ := Fut.pending_loop h
  obtain ⟨xs, h1, h2, h3, h4⟩ := hi.keeps (Inv := fun x => ∃ xs, c.StartsWith xs ∧ R x.1.inner (c.drop xs.length) ∧
    x.1.remaining + xs.length = n ∧ S x.2 (l ++ xs)) ⟨[], by simp, by simpa using hs, rfl, by simpa using ht⟩ (by
    rintro ⟨⟨s₁, r⟩, t₁⟩ ⟨s₂, t₂⟩ ⟨xs, hx, hs, hr, ht⟩ h
    rw [pipeBody_run, Verif.pipeBody, limitProducer_seq] at h
    dsimp only at hs hr ht
    cases r with
    | zero =>
      simp only [Verif.limitProducer, bind_eq, bind_ok, pure_eq] at h
      rcases hc : C.seq.close t₁ none with ⟨_, _ | _⟩ | _ | _ <;> simp [hc] at h
    | succ r =>
      obtain ⟨s', h1, h2⟩ := hR.produce _ _ hs
      obtain ⟨h3, _⟩ := limit_produce_step h1 r
      rcases hc : (c.drop xs.length) 0 with e | x | f <;> simp only [h3, Script.limit, hc, bind_eq, bind_ok, Nat.zero_lt_succ, if_true] at h
      · cases h
      · rcases hq : q.answer (l ++ xs) x with _ | e
        · obtain ⟨t', h4, h5⟩ := hS.consume_ok _ _ x ht hq
          simp only [h4, bind_ok] at h
          cases h
          refine ⟨xs ++ [x], hx.append (by simpa [Script.startsWith_cons] using hc), ?_, by simp; omega, by simpa using h5⟩
          have := h2 x hc
          simpa [Script.drop_drop] using this
        · obtain ⟨t', h4, _⟩ := hS.consume_err _ _ x e ht hq
          simp only [h4, bind_ok] at h
          cases h
      · rcases hc : C.seq.close t₁ (some f) with ⟨_, _ | _⟩ | _ | _ <;> simp [hc] at h)
  exact ⟨xs, h1, h2, h3, h4, Fut.pending_left hk⟩

/-- **C103.** `pipe` from a `Limit` of `n + 1` is dropped while `produce` is pending, and started again. It reports success, and has
piped only `n` items, although the producer would have emitted more and the consumer would have accepted them. -/
theorem limit_pipe_dropped {P : Producer σ I F E₁} {C : Consumer τ I (Option F) E₂} {D : τ → List I → Option (Option F) → Prop}
    {c : Script I F E₁} {q : Policy I (Option F) E₂} {R : σ → Script I F E₁ → Prop} {S : τ → List I → Prop} (hR : PlaysLaw P.seq R)
    (hS : CollectsLaw C.seq D q S) {d : ItemDrops P} (hd : d.Tolerated R) {s : σ} {t : τ} {l ys : List I} {n : Nat} (hs : R s c)
    (ht : S t l) (hy : c.StartsWith ys) (hn : ys.length = n + 1) (hq : q.Accepts l ys) (hf : q.refuseClose (l ++ ys.take n) none = none)
    {s₁ s' : LimitSt σ} {t₁ : τ} {k} (h : (pipe (limitProducer P) C ⟨s, n + 1⟩ t).Pending ⟨(s₁, t₁), .inl k⟩)
    (hk : (limitItemDrops d).produce s₁ k s') :
    ∃ s₂ t₂, (pipe (limitProducer P) C s' t₁).run = ok ((s₂, t₂), .ok ()) ∧ D t₂ (l ++ ys.take n) (some none) := by
  obtain ⟨xs, h1, h2, h3, h4, h5⟩ := limit_pipe_producing hR hS hs ht h
  obtain ⟨h6, h7⟩ := limit_produce_dropped hd h2 h5 hk
  obtain ⟨s'', r⟩ := s'
  dsimp only at h6 h7
  have hx : xs = ys.take xs.length := h1.prefix hy (by omega)
  have hP : Plays (limitProducer P).seq ⟨s'', r⟩ ((c.drop xs.length).limit r) := by
    rw [limitProducer_seq]; exact ⟨_, hR.limit, _, h7, rfl⟩
  have hz : ys.take n = xs ++ (ys.drop xs.length).take r := by
    conv => rhs; lhs; rw [hx]
    rw [← List.take_add]; congr 1; omega
  have hy' : (c.drop xs.length).StartsWith ((ys.drop xs.length).take r) := (hy.drop (by omega)).take _
  have ha : q.Accepts l (xs ++ (ys.drop xs.length).take r) := by
    rw [← hz]; exact hq.take _
  obtain ⟨s₂, t₂, h8, h9⟩ := pipe_spec hP ⟨S, hS, h4⟩ (xs := (ys.drop xs.length).take r) (fin := some none) (res := .ok ())
    (.closed (hy'.limit (by simp; omega)) (Policy.accepts_append.1 ha).2
      (by simp [Script.limit]; omega) (by rw [List.append_assoc, ← hz]; exact hf))
  exact ⟨s₂, t₂, by rw [pipe_run, h8], by rw [hz, ← List.append_assoc]; exact h9⟩

/-! ## Consumers -/

/-- **C103.** After a dropped call of `bulk_consume`, a `Limit` has consumed nothing, if the consumer that it wraps has not. If
the call was dropped in `expose_slots` then the limit has not changed; if it was dropped in `consume_slots` then the limit is lower. -/
theorem limit_bulk_consume_dropped {C : BulkConsumer τ I F E} {D : τ → List I → Option F → Prop} {q : Policy I F E}
    {S : τ → List I → List I → Prop} {d : SlotDrops C} (hS : BulkCollectsLaw C.seq D q S) (hd : d.Tolerated S) {t t' : LimitSt τ}
    {l sl ys : List I} (ht : S t.inner l sl) (hne : ys ≠ []) {k} (hk : ((limitBulkConsumer C).bulkConsume t ys).Pending k)
    (h : (limitConsumerDrops d).bulkConsume t ys k t') :
    (∃ sl', S t'.inner l sl') ∧
      ((∃ k', k = Sum.inl k') ∧ t'.remaining = t.remaining ∨ (∃ k', k = Sum.inr k') ∧ t'.remaining < t.remaining) := by
  rcases h with h | h
  · exact ⟨hd.exposeSlots ht (Fut.pending_left (Fut.pending_left hk)) h, .inl ⟨⟨_, rfl⟩, rfl⟩⟩
  · rename_i u t₁ slots r k t'
    clear t
    obtain ⟨hr, hk⟩ := Fut.pending_right hk
    have hk := Fut.pending_left hk
    obtain ⟨hsub, hk⟩ := Fut.pending_right hk
    have hk := Fut.pending_left hk
    have hr' : (limitBulkConsumer C).seq.exposeSlots u = _ := hr
    rw [limitBulkConsumer_seq] at hr'
    have hL := hS.limit (l.length + u.remaining)
    have hT : LimitSt.Collects (l.length + u.remaining) S u l [] := ⟨rfl, sl, ht, by simp, by simp⟩
    rcases hq : (q.limit (l.length + u.remaining)).refuse l with _ | e
    · obtain ⟨t₂, slots₂, h1, h2, h3⟩ := hL.expose_ok _ _ _ hT hq
      cases h2.symm.trans hr'
      have hlen : 0 < slots.length := List.length_pos_iff.2 h1
      have hlen' : 0 < ys.length := List.length_pos_iff.2 hne
      obtain ⟨h4, islots, h5, h6, h7⟩ := h3
      have hle : slots.length ≤ islots.length := by
        have := congrArg List.length h6
        simp only [List.length_take] at this
        omega
      have hw := hS.write _ _ _ (ys.take (min slots.length ys.length)) h5 (by simp; omega)
      refine ⟨hd.consumeSlots hw hk h, .inr ⟨⟨_, rfl⟩, ?_⟩⟩
      have hsub : sub t₁.remaining (min slots.length ys.length) = ok r := (Fut.run_lift _).symm.trans hsub
      rw [sub_of_le (by omega)] at hsub
      cases hsub
      dsimp only
      omega
    · obtain ⟨t₂, h1, _⟩ := hL.expose_err _ _ _ _ hT hq
      cases h1.symm.trans hr'

/-- **C103.** `bulk_pipe` into a `Limit` of `n` is dropped while `consume_slots` is pending, and started again. It fails because of
the limit, with fewer than `n` items consumed, although the producer emits `n` items and the wrapped consumer would have accepted
them. -/
theorem limit_bulk_pipe_dropped {P : BulkProducer σ I F E₁} {C : BulkConsumer τ I F E₂} {D : τ → List I → Option F → Prop}
    {c : Script I F E₁} {q : Policy I F E₂} {R : σ → Script I F E₁ → Nat → Prop} {S : τ → List I → List I → Prop} {d : SlotDrops C}
    (hR : BulkPlaysLaw P.seq R) (hS : BulkCollectsLaw C.seq D q S) (hd : d.Tolerated S) {s : σ} {t : τ} {l sl ys : List I} {m n : Nat}
    (hm : R s c m) (ht : S t l sl) (hy : c.StartsWith ys) (hn : ys.length = n) (hq : q.Accepts l ys) {s₁ s₂ : σ} {t₁ t' : LimitSt τ}
    {zs : List I} {k} (h : (bulkPipe P (limitBulkConsumer C) s ⟨t, n⟩).Pending
      ⟨(s₁, t₁), .inr ⟨(s₂, .ok (.inl zs)), .inl (Sum.inr k)⟩⟩)
    (hk : (limitConsumerDrops d).bulkConsume t₁ zs (Sum.inr k) t') :
    ∃ r s₃ t₃, r < n ∧ (bulkPipe P (limitBulkConsumer C) s₂ t').run = ok ((s₃, t₃), .error (.consumer none)) ∧
      D t₃.inner (l ++ ys.take r) none := by
  have hS' : BulkCollectsLaw (limitBulkConsumer C).seq (fun s => D s.inner) (q.limit (l.length + n))
      (LimitSt.Collects (l.length + n) S) := by rw [limitBulkConsumer_seq]; exact hS.limit _
  obtain ⟨xs, s₁', t₁', hx, ha, _, ⟨sl, hsl⟩, h⟩ := bulk_pipe_left hR hS' hm ⟨rfl, sl, ht, by simp, by simp⟩ (sl := []) h
  rcases h with ⟨_, h, _⟩ | ⟨s₂', ys', kc, h, hne, _, h2, hp⟩ | ⟨_, _, _, _, _, h, _⟩ | ⟨_, _, _, h, _⟩ <;> cases h
  obtain ⟨h3, isl, h4, _⟩ := hsl
  obtain ⟨⟨sl', h5⟩, ⟨⟨_, h6⟩, _⟩ | ⟨_, h6⟩⟩ := limit_bulk_consume_dropped hS hd h4 hne hp hk
  · cases h6
  obtain ⟨t', r⟩ := t'
  dsimp only at h5 h6
  simp only [List.length_append] at h3
  have hx' : xs = ys.take xs.length := hx.prefix hy (by omega)
  have hz : ys.take (xs.length + r) = xs ++ (ys.drop xs.length).take r := by
    conv => rhs; lhs; rw [hx']
    rw [← List.take_add]
  have hlt : xs.length + r < n := by omega
  have hS'' : BulkCollects (limitBulkConsumer C).seq (fun s => D s.inner) (q.limit ((l ++ xs).length + r)) ⟨t', r⟩ (l ++ xs) := by
    rw [limitBulkConsumer_seq]; exact ⟨_, hS.limit _, [], rfl, sl', h5, by simp, by simp⟩
  have hacc : q.Accepts l (xs ++ (ys.drop xs.length).take r) := by rw [← hz]; exact hq.take _
  have hlen : ((ys.drop xs.length).take r).length = r := by simp; omega
  obtain ⟨s₃, t₃, h7, h8, _⟩ := bulk_pipe_spec ⟨R, hR, _, h2⟩ hS'' (xs := (ys.drop xs.length).take r) (fin := none)
    (res := .error (.consumer none)) (.itemRefused (x := ys[xs.length + r]) ((hy.drop (by omega)).take _)
      (limit_accepts.2 ⟨(Policy.accepts_append.1 hacc).2, .inr (by rw [hlen]; omega)⟩)
      (by rw [hlen, Script.drop_apply]; exact hy _ _ (by simp [show xs.length + r < ys.length by omega]))
      (by simp only [Policy.answer, Policy.limit, List.length_append, hlen]; simp))
  exact ⟨xs.length + r, s₃, t₃, hlt, by rw [bulkPipe_run, h7], by rw [hz, ← List.append_assoc]; exact h8⟩

/-- **C103.** After a dropped call of `consume`, the limit of a `Limit` is lower, though the consumer that it wraps has not consumed the
item. -/
theorem limit_consume_dropped {C : Consumer τ I F E} {d : ConsumeDrops C} {S : τ → List I → Prop} (h : d.Tolerated S)
    {t t' : LimitSt τ} {l : List I} {x : I} (ht : S t.inner l) {k} (hk : ((limitConsumer C).consume t x).Pending k)
    (hd : (limitConsumeDrops d).consume t x k t') : t'.remaining + 1 = t.remaining ∧ S t'.inner l := by
  obtain ⟨hd⟩ := hd
  exact ⟨rfl, h.consume ht (Fut.pending_left hk) hd⟩

/-- **C103.** After a dropped call of `consume` of a `MapItem`, its function has been called, though the wrapped consumer has not consumed
the item: if the item is offered again, the function is called twice for it. -/
theorem map_item_consume_dropped {φ B : Type} (f : φ → B → φ × I) {C : Consumer τ I F E} {d : ConsumeDrops C} {S : τ → List I → Prop}
    (h : d.Tolerated S) {t t' : MapItemSt τ φ} {l : List I} {x : B} (ht : S t.inner l) {k}
    (hk : ((mapItemConsumer f C).consume t x).Pending k) (hd : (mapItemConsumeDrops f d).consume t x k t') :
    t'.captured = (f t.captured x).1 ∧ S t'.inner l := by
  obtain ⟨hd⟩ := hd
  exact ⟨rfl, h.consume ht (Fut.pending_left hk) hd⟩

/-! ## The test doubles -/

theorem test_consumer_consume_drops [Inhabited I] (test : Bool) (n : Nat) (e : E) :
    (TestConsumer.consumeDrops test I F E).Tolerated (fun t l => ∃ sl, Verif.TestConsumer.Ready test n e t l sl) where
  consume := by
    rintro t l x k t' ⟨sl, h⟩ hk ⟨hd⟩
    have hy := yield_dropped_live h.yielder (Fut.pending_left (Fut.pending_left hk)) hd
    exact ⟨sl, h.vec, h.error, h.fin, h.count, h.slots, h.sizes, hy⟩

/-- However a pending call of `consume` of a `TestConsumer` is dropped, a state is left. -/
theorem test_consumer_drops_consume_total [Inhabited I] (test : Bool) {t : TestConsumer I F E} {x : I} {k}
    (h : ((TestConsumer.consumer test I F E).consume t x).Pending k) : ∃ t', (TestConsumer.consumeDrops test I F E).consume t x k t' := by
  rcases Fut.pending_bind h with ⟨k, rfl, h'⟩ | ⟨⟨t₁, e | _⟩, k, rfl, _, h'⟩
  · rcases Fut.pending_bind h' with ⟨k, rfl, h''⟩ | ⟨y, k, rfl, _, h''⟩
    · obtain ⟨y, hy⟩ := yield_dropped_total h''
      exact ⟨_, .mk hy⟩
    · exact absurd h'' ((by quiet : Fut.Quiet _) _)
  all_goals exact absurd h' ((by quiet : Fut.Quiet _) _)

theorem test_producer_item_drops (test : Bool) :
    (TestProducer.itemDrops test I F E).Tolerated (fun s c => ∃ n, Verif.TestProducer.Ready test s c n) where
  produce := by
    rintro s c k s' ⟨n, h⟩ hk ⟨hd⟩
    exact ⟨n, h.1, h.2.1, yield_dropped_live h.2.2.1 (Fut.pending_left hk) hd, h.2.2.2⟩

theorem test_consumer_slot_drops [Inhabited I] (test : Bool) (n : Nat) (e : E) :
    (TestConsumer.slotDrops test I F E).Tolerated (Verif.TestConsumer.Ready test n e) where
  exposeSlots := by
    rintro t l sl k t' h hk ⟨hd⟩
    have hy := yield_dropped_live h.yielder (Fut.pending_left (Fut.pending_left hk)) hd
    exact ⟨sl, h.vec, h.error, h.fin, h.count, h.slots, h.sizes, hy⟩
  consumeSlots := by
    rintro t l sl a k t' h hk ⟨hd⟩
    have hy := yield_dropped_live h.yielder (Fut.pending_left (Fut.pending_left hk)) hd
    exact ⟨sl, h.vec, h.error, h.fin, h.count, h.slots, h.sizes, hy⟩

/-- However a pending call of `produce` of a `TestProducer` is dropped, a state is left. -/
theorem test_producer_drops_produce_total (test : Bool) {s : TestProducer I F E} {k}
    (h : ((TestProducer.producer test I F E).produce s).Pending k) : ∃ s', (TestProducer.itemDrops test I F E).produce s k s' := by
  rcases Fut.pending_bind h with ⟨k, rfl, h'⟩ | ⟨y, k, rfl, _, h'⟩
  · obtain ⟨y, hy⟩ := yield_dropped_total h'
    exact ⟨_, .mk hy⟩
  · exact absurd h' ((by quiet : Fut.Quiet _) _)

/-- However a pending call of `produce` of a `Limit` is dropped, a state is left. -/
theorem limit_produce_total {P : Producer σ I F E} {d : ItemDrops P}
    (hd : ∀ {s k}, (P.produce s).Pending k → ∃ s', d.produce s k s') {s : LimitSt σ} {k}
    (h : ((limitProducer P).produce s).Pending k) : ∃ s', (limitItemDrops d).produce s k s' := by
  obtain ⟨s, _ | n⟩ := s
  · exact absurd h ((by exact Fut.quiet_lift _ : Fut.Quiet _) _)
  · rcases Fut.pending_bind h with ⟨k, rfl, h'⟩ | ⟨⟨_, _ | _ | _⟩, k, rfl, _, h'⟩
    · obtain ⟨s', hs⟩ := hd h'
      exact ⟨_, .mk hs⟩
    all_goals exact absurd h' ((by quiet : Fut.Quiet _) _)

/-- And of `expose_items`. -/
theorem limit_expose_total {P : BulkProducer σ I F E} {d : ProducerDrops P}
    (hd : ∀ {s k}, (P.exposeItems s).Pending k → ∃ s', d.exposeItems s k s') {s : LimitSt σ} {k}
    (h : ((limitBulkProducer P).exposeItems s).Pending k) : ∃ s', (limitDrops d).exposeItems s k s' := by
  obtain ⟨s, _ | n⟩ := s
  · exact absurd h ((by exact Fut.quiet_lift _ : Fut.Quiet _) _)
  · rcases Fut.pending_bind h with ⟨k, rfl, h'⟩ | ⟨⟨_, _ | _ | _⟩, k, rfl, _, h'⟩
    · obtain ⟨s', hs⟩ := hd h'
      exact ⟨_, .mk hs⟩
    all_goals exact absurd h' ((by quiet : Fut.Quiet _) _)

/-- Whenever `bulk_pipe` is pending in `expose_items`, it can be dropped there. -/
theorem bulk_pipe_exposing_dropped {P : BulkProducer σ I F E₁} {C : BulkConsumer τ I F E₂} {dp : ProducerDrops P} {dc : ConsumerDrops C}
    (hd : ∀ {s k}, (P.exposeItems s).Pending k → ∃ s', dp.exposeItems s k s') {s s₁ : σ} {t t₁ : τ} {kp}
    (h : (bulkPipe P C s t).Pending ⟨(s₁, t₁), .inl kp⟩) : ∃ s', BulkPipeDropped dp dc s t ⟨(s₁, t₁), .inl kp⟩ s' t₁ := by
  obtain ⟨s', hd⟩ := hd (Fut.pending_left (Fut.pending_loop h).2)
  exact ⟨s', .exposing hd⟩

/-- Whenever `pipe` is pending in `produce`, it can be dropped there. -/
theorem pipe_producing_dropped {P : Producer σ I F E₁} {C : Consumer τ I F E₂} {d : ItemDrops P}
    (hd : ∀ {s k}, (P.produce s).Pending k → ∃ s', d.produce s k s') {s s₁ : σ} {t t₁ : τ} {kp}
    (h : (pipe P C s t).Pending ⟨(s₁, t₁), .inl kp⟩) : ∃ s', d.produce s₁ kp s' :=
  hd (Fut.pending_left (Fut.pending_loop h).2)

/-- Whenever `bulk_pipe` into a `Limit` is pending in the `consume_slots` of the wrapped consumer, it can be dropped there. -/
theorem limit_consuming_dropped {P : BulkProducer σ I F E₁} {C : BulkConsumer τ I F E₂} {d : SlotDrops C}
    (hd : ∀ {t n k}, (C.consumeSlots t n).Pending k → ∃ t', d.consumeSlots t n k t') {s s₁ s₂ : σ} {t t₁ t₂ : LimitSt τ}
    {zs slots : List I} {r : Nat} {k} (h : (bulkPipe P (limitBulkConsumer C) s t).Pending
      ⟨(s₁, t₁), .inr ⟨(s₂, .ok (.inl zs)), .inl (Sum.inr ⟨(t₂, .ok slots), Sum.inl (Sum.inr ⟨r, Sum.inl k⟩)⟩)⟩⟩) :
    ∃ t', (limitConsumerDrops d).bulkConsume t₁ zs (Sum.inr ⟨(t₂, .ok slots), Sum.inl (Sum.inr ⟨r, Sum.inl k⟩)⟩) t' := by
  have h1 := Fut.pending_left (Fut.pending_right (Fut.pending_loop h).2).2
  have h2 := Fut.pending_left (Fut.pending_right h1).2
  obtain ⟨t', h3⟩ := hd (Fut.pending_left (Fut.pending_right h2).2)
  exact ⟨_, .consuming h3⟩

/-! ## Cases -/

namespace Case

/-- A future that is pending once. -/
def pause : Fut Unit where
  κ := Bool
  start := false
  poll b := ok (if b then .ready () else .pending true)

theorem pause_run : pause.run = ok () := loop_eq_of_fuel (n := 2) nofun

/-- An `IntoVec` whose `consume_slots` is pending once. -/
def slowVec : BulkConsumer (IntoVec Nat) Nat Unit Empty where
  consume := V.consume
  close := V.close
  flush := V.flush
  exposeSlots := V.exposeSlots
  writeSlots := V.writeSlots
  consumeSlots s n := do
    pause
    V.consumeSlots s n

theorem slowVec_seq : slowVec.seq = IntoVec.consumer Nat := by
  refine BulkConsumer.seq_of_default ?_ (fun s => Fut.run_lift _) (fun _ _ => rfl) (fun s n => ?_) rfl rfl
  · exact congrArg (·.toBufferedConsumer) (BulkConsumer.ofSeq_seq (IntoVec.consumer Nat))
  · exact (Fut.run_bind _ _).trans (by rw [pause_run]; exact Fut.run_lift _)

/-- While it is pending, nothing has happened. -/
def slowVecDrops : SlotDrops slowVec where
  exposeSlots t _ t' := t' = t
  consumeSlots t _ _ t' := t' = t

theorem slowVec_tolerated : slowVecDrops.Tolerated IntoVec.Ready where
  exposeSlots := by intro t l sl k t' h _ he; cases he; exact ⟨_, h⟩
  consumeSlots := by intro t l sl n k t' h _ he; cases he; exact ⟨_, h⟩

/-- Accepts five items and an optional final value; every other poll is pending. -/
def slowOptional : TestConsumer Nat (Option Unit) String := TestConsumer.new "full" 5 [] (some [true, false])

noncomputable abbrev TCO : BulkConsumer (TestConsumer Nat (Option Unit) String) Nat (Option Unit) String :=
  TestConsumer.consumer false Nat (Option Unit) String

theorem TCO_law : BulkCollectsLaw TCO.seq Verif.TestConsumer.Seen (Policy.failAfter 5 "full") (Verif.TestConsumer.Ready false 5 "full") := by
  rw [testConsumer_seq]; exact Verif.TestConsumer.law false 5 "full"

end Case

/-- `bulk_pipe` from a `Limit` of 2 is dropped while `expose_items` is pending, and started again: the consumer gets two items. -/
example : ∃ s' t' k s₁ t₁, (bulkPipe (limitBulkProducer Case.TP) Case.TCO ⟨slowProducer, 2⟩ Case.slowOptional).Pending k ∧
    BulkPipeDropped (limitDrops (TestProducer.drops false Nat Unit String)) (TestConsumer.drops false Nat (Option Unit) String)
      ⟨slowProducer, 2⟩ Case.slowOptional k s' t' ∧
    (bulkPipe (limitBulkProducer Case.TP) Case.TCO s' t').run = ok ((s₁, t₁), .ok ()) ∧
    Verif.TestConsumer.Seen t₁ [1, 2] (some none) := by
  have h : (bulkPipe (limitBulkProducer Case.TP) Case.TCO ⟨slowProducer, 2⟩ Case.slowOptional).poll
      (bulkPipe (limitBulkProducer Case.TP) Case.TCO ⟨slowProducer, 2⟩ Case.slowOptional).start =
      ok (.pending ⟨(_, _), .inl _⟩) := loop_eq_of_fuel (n := 1) nofun
  obtain ⟨s', hd'⟩ := bulk_pipe_exposing_dropped (dp := limitDrops (TestProducer.drops false Nat Unit String))
    (dc := TestConsumer.drops false Nat (Option Unit) String) (limit_expose_total (test_producer_drops_expose_total false)) (.first h)
  have hm : LimitSt.Plays NoErrorAt (Verif.TestProducer.Ready false) ⟨slowProducer, 2⟩ ((Script.ofList [1, 2, 3] (.ok ())).limit 2) 0 :=
    ⟨_, 0, [], Case.slow_ready, Nat.zero_le _, Nat.zero_le _, rfl, fun _ h => (nomatch h), by simp, rfl⟩
  obtain ⟨_, s₁, t₁, h1, h2⟩ := bulk_pipe_resumed (by rw [limitBulkProducer_seq]; exact Case.TP_law.limit) Case.TCO_law
    (limit_drops (test_producer_drops false)) (test_consumer_drops false 5 "full")
    hm (Verif.TestConsumer.ready_new false "full" 5 [] _) (.drop (.first h) hd' .refl) (xs := [1, 2])
    (.closed (Script.StartsWith.limit (Script.startsWith_cons.2 ⟨rfl, Script.startsWith_cons.2 ⟨rfl, by simp⟩⟩) (by decide))
      (Case.accepts (n := 5) (by decide)) (by rfl) rfl)
  exact ⟨s', _, _, s₁, t₁, .first h, hd', h1, h2⟩

/-- A `MapFinal` around a `TestProducer`. -/
example : (mapFinalDrops (TestProducer.drops false Nat Unit String)).Tolerated
      (fun s c' n => ∃ c, Verif.TestProducer.Ready false s.inner c n ∧ s.fn = some (fun _ => "end") ∧ c' = c.mapFinal fun _ => "end") ∧
    (mapFinalDrops (TestProducer.drops false Nat Unit String)).Unconsidered
      (fun s c' n => ∃ c, Verif.TestProducer.Ready false s.inner c n ∧ s.fn = some (fun _ => "end") ∧ c' = c.mapFinal fun _ => "end") :=
  ⟨map_final_drops _ (test_producer_drops false), map_final_drops_consider _ (test_producer_drops_consider false)⟩

/-- `consider_produced(2)` of a `Limit` of 3 is dropped: one item is left. -/
example : ∃ k s', ((limitBulkProducer Case.TP).considerProduced ⟨slowProducer, 3⟩ 2).Pending k ∧
    (limitDrops (TestProducer.drops false Nat Unit String)).considerProduced ⟨slowProducer, 3⟩ 2 k s' ∧ s'.remaining = 1 ∧
    ∃ m, Verif.TestProducer.Ready false s'.inner (Script.ofList [1, 2, 3] (.ok ())) m := by
  have h : ((limitBulkProducer Case.TP).considerProduced ⟨slowProducer, 3⟩ 2).poll
      ((limitBulkProducer Case.TP).considerProduced ⟨slowProducer, 3⟩ 2).start = ok (.pending (Sum.inr ⟨1, Sum.inl _⟩)) := rfl
  obtain ⟨s', hd⟩ := test_producer_drops_consider_total false (Fut.pending_left (Fut.pending_right (.first h)).2)
  have hd' := LimitConsiderDropped.mk (d := TestProducer.drops false Nat Unit String) (s := ⟨slowProducer, 3⟩) (r := 1) hd
  obtain ⟨h1, h2⟩ := limit_consider_dropped (test_producer_drops_consider false) Case.slow_ready (by decide) (.first h) hd'
  exact ⟨_, _, .first h, hd', rfl, h2⟩

/-- A `MapItem` whose function counts its calls: `produce` is dropped, and there has been no call. -/
example : ∃ k s', ((mapItemProducer (fun (n : Nat) (x : Nat) => (n + 1, x * 10)) Case.TP.toProducer).produce ⟨slowProducer, 0⟩).Pending k ∧
    (mapItemDrops (fun (n : Nat) (x : Nat) => (n + 1, x * 10)) (TestProducer.itemDrops false Nat Unit String)).produce
      ⟨slowProducer, 0⟩ k s' ∧ s'.captured = 0 ∧ ∃ m, Verif.TestProducer.Ready false s'.inner (Script.ofList [1, 2, 3] (.ok ())) m := by
  have h : ((mapItemProducer (fun (n : Nat) (x : Nat) => (n + 1, x * 10)) Case.TP.toProducer).produce ⟨slowProducer, 0⟩).poll
      ((mapItemProducer (fun (n : Nat) (x : Nat) => (n + 1, x * 10)) Case.TP.toProducer).produce ⟨slowProducer, 0⟩).start =
      ok (.pending (Sum.inl _)) := rfl
  obtain ⟨s', hd⟩ := test_producer_drops_produce_total false (Fut.pending_left (.first h))
  have hd' := MapItemProduceDropped.mk (f := fun (n : Nat) (x : Nat) => (n + 1, x * 10))
    (d := TestProducer.itemDrops false Nat Unit String) (s := ⟨slowProducer, 0⟩) hd
  obtain ⟨h1, h2⟩ := map_item_drops _ (test_producer_item_drops false) ⟨0, Case.slow_ready⟩ (.first h) hd'
  exact ⟨_, _, .first h, hd', h1, h2⟩

/-- `consume` of a `Limit` of 2 is dropped, and one item is left. -/
example : ∃ k t', ((limitConsumer Case.TC.toConsumer).consume ⟨slowConsumer, 2⟩ 7).Pending k ∧
    (limitConsumeDrops (TestConsumer.consumeDrops false Nat Unit String)).consume ⟨slowConsumer, 2⟩ 7 k t' ∧ t'.remaining = 1 ∧
    ∃ sl, Verif.TestConsumer.Ready false 5 "full" t'.inner [] sl := by
  have h : ((limitConsumer Case.TC.toConsumer).consume ⟨slowConsumer, 2⟩ 7).poll
      ((limitConsumer Case.TC.toConsumer).consume ⟨slowConsumer, 2⟩ 7).start = ok (.pending (Sum.inl _)) := rfl
  obtain ⟨t', hd⟩ := test_consumer_drops_consume_total false (Fut.pending_left (.first h))
  have hd' := LimitConsumeDropped.mk (d := TestConsumer.consumeDrops false Nat Unit String) (n := 1) hd
  obtain ⟨h1, h2⟩ := limit_consume_dropped (test_consumer_consume_drops false 5 "full") ⟨_, Case.slow_consumer_ready⟩ (.first h) hd'
  exact ⟨_, _, .first h, hd', rfl, h2⟩

/-- A `MapItem` whose function counts its calls: `consume` is dropped, and there has been a call. -/
example : ∃ k t', ((mapItemConsumer (fun (n : Nat) (x : Nat) => (n + 1, x * 10)) Case.TC.toConsumer).consume ⟨slowConsumer, 0⟩ 7).Pending k ∧
    (mapItemConsumeDrops (fun (n : Nat) (x : Nat) => (n + 1, x * 10)) (TestConsumer.consumeDrops false Nat Unit String)).consume
      ⟨slowConsumer, 0⟩ 7 k t' ∧ t'.captured = 1 ∧ ∃ sl, Verif.TestConsumer.Ready false 5 "full" t'.inner [] sl := by
  have h : ((mapItemConsumer (fun (n : Nat) (x : Nat) => (n + 1, x * 10)) Case.TC.toConsumer).consume ⟨slowConsumer, 0⟩ 7).poll
      ((mapItemConsumer (fun (n : Nat) (x : Nat) => (n + 1, x * 10)) Case.TC.toConsumer).consume ⟨slowConsumer, 0⟩ 7).start =
      ok (.pending (Sum.inl _)) := rfl
  obtain ⟨t', hd⟩ := test_consumer_drops_consume_total false (Fut.pending_left (.first h))
  have hd' := MapItemConsumeDropped.mk (f := fun (n : Nat) (x : Nat) => (n + 1, x * 10))
    (d := TestConsumer.consumeDrops false Nat Unit String) (t := ⟨slowConsumer, 0⟩) (x := 7) hd
  obtain ⟨h1, h2⟩ := map_item_consume_dropped _ (test_consumer_consume_drops false 5 "full") ⟨_, Case.slow_consumer_ready⟩ (.first h) hd'
  exact ⟨_, _, .first h, hd', h1, h2⟩

/-- **C103**, a witness: `pipe` from a `Limit` of 3 is dropped while `produce` is pending, and started again: the consumer gets only two
of the three items. -/
theorem limit_pipe_loses : ∃ s₁ t₁ k s' s₂ t₂,
    (pipe (limitProducer Case.TP.toProducer) Case.TCO.toConsumer ⟨slowProducer, 3⟩ Case.slowOptional).Pending ⟨(s₁, t₁), .inl k⟩ ∧
    (limitItemDrops (TestProducer.itemDrops false Nat Unit String)).produce s₁ k s' ∧
    (pipe (limitProducer Case.TP.toProducer) Case.TCO.toConsumer s' t₁).run = ok ((s₂, t₂), .ok ()) ∧
    Verif.TestConsumer.Seen t₂ [1, 2] (some none) := by
  have h : (pipe (limitProducer Case.TP.toProducer) Case.TCO.toConsumer ⟨slowProducer, 3⟩ Case.slowOptional).poll
      (pipe (limitProducer Case.TP.toProducer) Case.TCO.toConsumer ⟨slowProducer, 3⟩ Case.slowOptional).start =
      ok (.pending ⟨(_, _), .inl _⟩) := loop_eq_of_fuel (n := 1) nofun
  obtain ⟨s', hd⟩ := pipe_producing_dropped (d := limitItemDrops (TestProducer.itemDrops false Nat Unit String))
    (limit_produce_total (test_producer_drops_produce_total false)) (.first h)
  obtain ⟨s₂, t₂, h1, h2⟩ := limit_pipe_dropped Case.TP_law.base.toPlaysLaw Case.TCO_law.base.toCollectsLaw (test_producer_item_drops false)
    ⟨0, Case.slow_ready⟩ ⟨[], Verif.TestConsumer.ready_new false "full" 5 [] _⟩ (Script.ofList_startsWith [1, 2, 3] _) rfl
    (Case.accepts (n := 5) (by decide)) rfl (.first h) hd
  exact ⟨_, _, _, s', s₂, t₂, .first h, hd, h1, h2⟩

/-- **C103**, a witness: `bulk_pipe` into a `Limit` of 3 is dropped while `consume_slots` is pending, and started again: it fails
because of the limit, with fewer than three items consumed. -/
theorem limit_bulk_pipe_loses : ∃ s₁ t₁ s₂ zs k t' s₃ t₃,
    (bulkPipe Case.TP (limitBulkConsumer Case.slowVec) readyProducer ⟨.new, 3⟩).Pending
      ⟨(s₁, t₁), .inr ⟨(s₂, .ok (.inl zs)), .inl k⟩⟩ ∧
    (limitConsumerDrops Case.slowVecDrops).bulkConsume t₁ zs k t' ∧
    (bulkPipe Case.TP (limitBulkConsumer Case.slowVec) s₂ t').run = ok ((s₃, t₃), .error (.consumer none)) ∧
    t₃.inner.intoVec.length < 3 := by
  have h : (bulkPipe Case.TP (limitBulkConsumer Case.slowVec) readyProducer ⟨.new, 3⟩).poll
      (bulkPipe Case.TP (limitBulkConsumer Case.slowVec) readyProducer ⟨.new, 3⟩).start =
      ok (.pending ⟨(_, _), .inr ⟨(_, .ok (.inl _)), .inl (.inr ⟨(_, .ok _), Sum.inl (Sum.inr ⟨_, Sum.inl _⟩)⟩)⟩⟩) :=
    loop_eq_of_fuel (n := 1) nofun
  obtain ⟨t', hd⟩ := limit_consuming_dropped (d := Case.slowVecDrops) (fun _ => ⟨_, rfl⟩) (.first h)
  obtain ⟨r, s₃, t₃, h1, h2, h3⟩ := limit_bulk_pipe_dropped (q := Policy.acceptAll) Case.TP_law
    (by rw [Case.slowVec_seq]; exact IntoVec.law) Case.slowVec_tolerated Case.ready_ready (IntoVec.ready_fromVec [])
    (Script.ofList_startsWith [1, 2, 3] _) rfl Policy.accepts_acceptAll (.first h) hd
  refine ⟨_, _, _, _, _, t', s₃, t₃, .first h, hd, h2, ?_⟩
  rw [h3.2]; exact Nat.lt_of_le_of_lt (List.length_take_le r [1, 2, 3]) h1

end Verif.Async
