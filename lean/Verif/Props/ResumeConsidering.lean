import Verif.ConsiderDropSpec
import Verif.Props.ResumeSlices

/-!
# Bounded pipes that are dropped while `consider_produced` is pending (C104)
-/

namespace Verif.Async

open Outcome

variable {σ τ I F E₁ E₂ : Type}

/-- **C104.** If `bulk_pipe_at_most` is dropped while `consider_produced` is pending, the items `ys` that the consumer has consumed last
are emitted again, whatever the bound of the next call. -/
theorem bulk_pipe_at_most_dropped_considering {P : BulkProducer σ I F E₁} {C : BulkConsumer τ I F E₂} {D : τ → List I → Option F → Prop}
    {c : Script I F E₁} {q : Policy I F E₂} {R : σ → Script I F E₁ → Nat → Prop} {S : τ → List I → List I → Prop}
    {dp : ProducerDrops P} {s s' : σ} {t t' : τ} {l sl : List I} {m count n a : Nat} (hR : BulkPlaysLaw P.seq R)
    (hS : BulkCollectsLaw C.seq D q S) (hdp : dp.Unconsidered R) (hm : R s c m) (hsl : S t l sl)
    {k : (bulkPipeAtMost P C s t count).κ} (h : (bulkPipeAtMost P C s t count).Pending k)
    (hd : BulkPipeAtMostConsidering dp s t count k n a s' t') :
    ∃ xs ys : List I, xs.length = n ∧ ys.length = a ∧ 0 < a ∧ n + a ≤ count ∧ c.StartsWith (xs ++ ys) ∧ q.Accepts l (xs ++ ys) ∧
      BulkPlays P.seq s' (c.drop n) ∧ BulkCollects C.seq D q t' (l ++ xs ++ ys) ∧
      ∀ count' zs fin res, AtMostResult (c.drop n) q (l ++ xs ++ ys) count' zs fin res →
        ∃ s₂ t₂, (bulkPipeAtMost P C s' t' count').run = ok ((s₂, t₂), res) ∧ D t₂ (l ++ xs ++ ys ++ zs) fin := by
  obtain ⟨xs, s₁, t₁, k', rfl, hlt, hx, ha, ⟨m₁, hs₁⟩, ⟨sl₁, ht₁⟩, h'⟩ := bulk_pipe_at_most_left hR hS hm hsl h
  cases hd with
  | @mk _ _ _ _ s₂ zs t₂ a kp _ hk' hd =>
    rcases h' with ⟨kp, hk, _⟩ | ⟨s₂, ys, kc, hk, _⟩ | ⟨s₂, ys, t₂, a, kp, hk, h1, h2, h3, _, hp⟩ | ⟨s₂, f, kc, hk, _⟩ <;>
      cases eq_of_heq (hk.symm.trans hk')
    obtain ⟨_, k₂, hkk, hb⟩ := Fut.pending_ite (p := xs.length < count) (f := bulkPipeAtMostStep P C count s₁ t₁ xs.length)
      (a := .done ((s₁, t₁), .ok xs.length)) (Fut.pending_loop h).2
    cases eq_of_heq (hkk.symm.trans hk)
    obtain ⟨hr, hb⟩ := Fut.pending_right hb
    obtain ⟨hc, _⟩ := Fut.pending_right hb
    obtain ⟨s₃, ⟨ys', hne, hys, h4, h5⟩ | ⟨f, _, h4⟩ | ⟨e, _, h4⟩⟩ := hR.expose _ _ _ hs₁ <;> cases h4.symm.trans hr
    have hpos : 0 < zs.length := List.length_pos_iff.2 hne
    obtain ⟨t₃, ⟨a', ha1, ha2, hacc, h6, sl', h7⟩ | ⟨i, e, _, h6, _⟩⟩ := hS.bulkConsume _ _ _
        (zs.take (min (count - xs.length) zs.length)) ht₁ (by
          simp only [ne_eq, List.take_eq_nil_iff, not_or]
          exact ⟨by omega, hne⟩) <;>
      cases h6.symm.trans hc
    rw [List.length_take] at ha2
    rw [List.take_take, Nat.min_eq_left (by omega)] at h7 hacc
    obtain ⟨m', h8⟩ := hdp.considerProduced h5 hp hd
    refine ⟨xs, zs.take a, rfl, by simp; omega, ha1, h3, hx.append (hys.take a), Policy.accepts_append.2 ⟨ha, hacc⟩,
      ⟨R, hR, m', h8⟩, ⟨S, hS, sl', h7⟩, fun count' zs fin res hz => ?_⟩
    obtain ⟨s₂, t₂, h9, h10, _⟩ := bulk_pipe_at_most_spec ⟨R, hR, m', h8⟩ ⟨S, hS, sl', h7⟩ hz
    exact ⟨s₂, t₂, by rw [bulkPipeAtMost_run, h9], h10⟩

/-- **C104**, a witness: at most two items are to be moved. The call is dropped in `consider_produced` and started again; it reports two
items, and the vector has more. -/
theorem bulk_pipe_at_most_repeats : ∃ k a s' t', (bulkPipeAtMost Case.TP Case.V Case.unconsidered .new 2).Pending k ∧
    BulkPipeAtMostConsidering (TestProducer.drops false Nat Unit String) Case.unconsidered .new 2 k 0 a s' t' ∧
    ∃ s₂ t₂, (bulkPipeAtMost Case.TP Case.V s' t' 2).run = ok ((s₂, t₂), .ok 2) ∧ t₂.intoVec = [1, 2].take a ++ [1, 2] ∧ 0 < a := by
  have h : (bulkPipeAtMost Case.TP Case.V Case.unconsidered .new 2).poll (bulkPipeAtMost Case.TP Case.V Case.unconsidered .new 2).start =
      ok (.pending ⟨(_, _, 0), .inr ⟨(_, .ok (.inl _)), .inr ⟨(_, .ok _), .inl _⟩⟩⟩) := loop_eq_of_fuel (n := 1) nofun
  obtain ⟨s', hd⟩ := test_producer_drops_consider_total false
    (Fut.pending_left (Fut.pending_right (Fut.pending_right (Fut.pending_loop (Fut.Pending.first h)).2).2).2)
  obtain ⟨k, hk, a, t', hd⟩ := Fut.first_pending (Q := fun k => ∃ a t', BulkPipeAtMostConsidering (TestProducer.drops false Nat Unit String)
    Case.unconsidered .new 2 k 0 a s' t') h ⟨_, _, .mk (n := 0) HEq.rfl hd⟩
  obtain ⟨xs, ys, hl, hy, ha, hle, hx, _, _, _, h1⟩ := bulk_pipe_at_most_dropped_considering Case.TP_law Case.V_law
    (test_producer_drops_consider false) Case.unconsidered_ready (IntoVec.ready_fromVec []) hk hd
  obtain rfl := List.length_eq_zero_iff.1 hl
  have hys : ys = [1, 2].take a := by
    have h0 := Script.StartsWith.prefix hx (Script.ofList_startsWith ([1, 2] ++ [3]) (.ok () : Except String Unit)).left (by simp; omega)
    simpa [hy] using h0
  obtain ⟨s₂, t₂, h2, h3⟩ := h1 2 [1, 2] none (.ok 2) (.full rfl
    (by simpa using (Script.ofList_startsWith ([1, 2] ++ [3]) (.ok () : Except String Unit)).left) Policy.accepts_acceptAll)
  exact ⟨k, a, s', t', hk, hd, s₂, t₂, h2, by rw [h3.2, hys]; simp, ha⟩

end Verif.Async
