import Verif.CloneSpec
import Verif.Lemmas.QueueRing
import Verif.Lemmas.IoDirect

/-!
# Clones: lemmas
-/

namespace Verif

open Outcome

variable {κ I : Type}

theorem cloneSlice_total (cl : I → I) (xs : List I) : cloneSlice (fun x => some (cl x)) xs = (xs.map cl, .returned ()) := by
  induction xs with
  | nil => rfl
  | cons x xs ih => simp [cloneSlice, ih]

theorem cloneSlice_some (xs : List I) : cloneSlice some xs = (xs, .returned ()) := by
  have := cloneSlice_total id xs
  simpa using this

/-- Either all items are cloned, or some item's clone panics and the clones of some items before it have been made. -/
theorem cloneSlice_cases (clone : I → Option I) (xs : List I) :
    (cloneSlice clone xs = (xs.filterMap clone, .returned ()) ∧ (∀ x ∈ xs, clone x ≠ none) ∧ (xs.filterMap clone).length = xs.length) ∨
    (∃ ys, cloneSlice clone xs = (ys, .unwound) ∧ ys.length ≤ xs.length ∧ ∃ x ∈ xs, clone x = none) := by
  induction xs with
  | nil => exact .inl ⟨rfl, by simp, rfl⟩
  | cons x xs ih =>
    rcases hx : clone x with _ | y
    · exact .inr ⟨[], by simp [cloneSlice, hx], by simp, x, by simp, hx⟩
    · rcases ih with ⟨h1, h2, h3⟩ | ⟨ys, h1, h2, z, hz, h3⟩
      · refine .inl ⟨by simp [cloneSlice, hx, h1], ?_, by simp [hx, h3]⟩
        intro z hz
        rcases List.mem_cons.1 hz with rfl | hz
        · simp [hx]
        · exact h2 z hz
      · exact .inr ⟨y :: ys, by simp [cloneSlice, hx, h1], by simp; omega, z, List.mem_cons_of_mem _ hz, h3⟩

/-- Clone an item that has been dequeued. -/
def cloneDequeued {κ I : Type} (clone : I → Option I) : κ × Option I → Outcome (κ × Unwind (Option I))
  | (q, none) => ok (q, .returned none)
  | (q, some x) =>
    match clone x with
    | none => ok (q, .unwound)
    | some y => ok (q, .returned (some y))

/-- One call. -/
theorem FifoLaw.cloningCall {Q : Queue κ I} {cap : Nat} {R : κ → List I → List I → Nat → Prop} (hQ : FifoLaw Q cap R)
    {clone : I → Option I} {dequeue : κ → Outcome (κ × Unwind (Option I))}
    (hd : ∀ q, dequeue q = (Q.dequeue q).bind (cloneDequeued clone))
    {q : κ} {l : List I} {g : Ledger I} (h : Tracks R q l g) (op : QueueOp I) (hop : g.Allows op)
    (hcap : 0 < cap ∨ ∀ k, op ≠ .considerDequeued k) :
    (∃ q' a, Q.cloningCall clone dequeue q op = ok (q', .returned a) ∧ CloningAnswer clone cap l op a ∧
      Tracks R q' (cloningNext clone cap l g op a) (g.next op a)) ∨
    (∃ q', Q.cloningCall clone dequeue q op = ok (q', .unwound) ∧ Unwinds clone l op ∧
      Tracks R q' (losesDequeued l op) (g.unwound op)) := by
  have hcall := hQ.call h op hop hcap
  cases op with
  | bulkEnqueue buf =>
    obtain ⟨slots, hR, hoff, hwr⟩ := h
    by_cases hf : l.length = cap
    · refine .inl ⟨q, .num 0, ?_, ⟨0, rfl, by omega, by omega, fun _ => .inr hf, by simp⟩, [], ?_, rfl, by simp [Ledger.next]⟩
      · simp [Queue.cloningCall, bulkEnqueueCloning, hQ.exposeSlots_full q l slots _ hR hf]
      · simpa [cloningNext, Ledger.next] using (hQ.weaken _ _ _ _ g.shown hR (Nat.le_refl _)).1
    · have hb := hQ.bound _ _ _ _ hR
      obtain ⟨q1, sl, hne, hex, hR1⟩ := hQ.exposeSlots q l slots _ hR (by omega)
      have hb1 := hQ.bound _ _ _ _ hR1
      have hpos := List.length_pos_iff.mpr hne
      generalize hk : min sl.length buf.length = k
      have hlen : (buf.take k).length = k := by simp; omega
      rcases cloneSlice_cases clone (buf.take k) with ⟨h1, h2, h3⟩ | ⟨ys, h1, h2, x, hx, h3⟩
      · have hW := hQ.write q1 l sl _ ((buf.take k).filterMap clone) hR1 (by omega)
        obtain ⟨q2, hce, hR2⟩ := hQ.considerEnqueued _ _ _ _ k hW (by rw [List.length_append]; omega)
        rw [List.take_left' (by omega)] at hR2
        refine .inl ⟨q2, .num k, ?_, ⟨k, rfl, by omega, by omega, fun h0 => ?_, h2⟩, [], ?_, rfl, by simp [Ledger.next]⟩
        · simp [Queue.cloningCall, bulkEnqueueCloning, hex, hk, h1, hce]
        · left; apply List.length_eq_zero_iff.mp; omega
        · simpa [cloningNext, Ledger.next] using (hQ.weaken _ _ _ _ g.shown hR2 (Nat.le_refl _)).1
      · have hW := hQ.write q1 l sl _ ys hR1 (by omega)
        refine .inr ⟨Q.writeSlots q1 ys, ?_, ⟨x, List.mem_of_mem_take hx, h3⟩, [], ?_, rfl, by simp [Ledger.unwound]⟩
        · simp [Queue.cloningCall, bulkEnqueueCloning, hex, hk, h1]
        · simpa [losesDequeued, Ledger.unwound] using (hQ.weaken _ _ _ _ g.shown hW (Nat.le_refl _)).1
  | dequeue =>
    obtain ⟨slots, hR, hoff, hwr⟩ := h
    cases l with
    | nil =>
      refine .inl ⟨q, .item none, by simp [Queue.cloningCall, cloneDequeued, hd, hQ.dequeue_empty _ _ _ hR], .inl ⟨rfl, rfl⟩, slots, ?_⟩
      simpa [cloningNext, fifoNext, Ledger.next] using ⟨hR, hoff, hwr⟩
    | cons x l =>
      obtain ⟨q', h1, h2⟩ := hQ.dequeue _ _ _ _ _ hR
      rcases hx : clone x with _ | y
      · refine .inr ⟨q', by simp [Queue.cloningCall, cloneDequeued, hd, h1, hx], ⟨x, rfl, hx⟩, slots, ?_⟩
        simpa [losesDequeued, Ledger.unwound] using ⟨h2, hoff, hwr⟩
      · refine .inl ⟨q', .item (some y), by simp [Queue.cloningCall, cloneDequeued, hd, h1, hx], .inr ⟨x, y, rfl, hx, rfl⟩, slots, ?_⟩
        simpa [cloningNext, fifoNext, Ledger.next] using ⟨h2, hoff, hwr⟩
  | bulkDequeue buf =>
    obtain ⟨slots, hR, hoff, hwr⟩ := h
    by_cases hf : l = []
    · subst hf
      refine .inl ⟨q, .filled 0 buf, ?_, ⟨0, by simp, by omega, by omega, fun _ => .inr rfl, by simp⟩, slots, ?_⟩
      · simp [Queue.cloningCall, bulkDequeueCloning, hQ.exposeItems_empty q slots _ hR]
      · simpa [cloningNext, fifoNext, Ledger.next] using ⟨hR, hoff, hwr⟩
    · obtain ⟨q1, m, hm0, hml, hex, hR1⟩ := hQ.exposeItems q l slots _ hR hf
      have hpos := List.length_pos_iff.mpr hf
      have hb := hQ.bound _ _ _ _ hR
      have hlm : (l.take m).length = m := by simp; omega
      generalize hk : min m buf.length = k
      have htt : (l.take m).take k = l.take k := by rw [List.take_take]; congr 1; omega
      have hlen : (l.take k).length = k := by simp; omega
      rcases cloneSlice_cases clone (l.take k) with ⟨h1, h2, h3⟩ | ⟨ys, h1, h2, x, hx, h3⟩
      · obtain ⟨q2, hcd, hR2⟩ := hQ.considerDequeued _ _ _ _ k hR1 (by omega) (by omega)
        refine .inl ⟨q2, .filled k ((l.take k).filterMap clone ++ buf.drop k), ?_,
          ⟨k, rfl, by omega, by omega, fun h0 => ?_, h2⟩, slots, ?_, hoff, hwr⟩
        · simp only [Queue.cloningCall, bulkDequeueCloning, hex, bind_eq, bind_ok, hlm, hk, htt, h1, hcd, pure_eq, h3, hlen]
        · left; apply List.length_eq_zero_iff.mp; omega
        · exact (hQ.weaken _ _ _ _ _ hR2 (by simp only [Ledger.next]; omega)).2
      · refine .inr ⟨q1, ?_, ⟨x, List.mem_of_mem_take hx, h3⟩, slots, ?_, hoff, hwr⟩
        · simp only [Queue.cloningCall, bulkDequeueCloning, hex, bind_eq, bind_ok, hlm, hk, htt, h1, pure_eq]
        · exact (hQ.weaken _ _ _ _ _ hR1 (by simp only [Ledger.unwound]; omega)).2
  | _ =>
    obtain ⟨q', a, h1, h2, h3⟩ := hcall
    refine .inl ⟨q', a, by simp only [Queue.cloningCall, h1, bind_ok], ?_, ?_⟩
    · simpa only [CloningAnswer] using h2
    · simpa only [cloningNext] using h3

theorem FifoLaw.actsAsCloningFifo {Q : Queue κ I} {cap : Nat} {R : κ → List I → List I → Nat → Prop} (hQ : FifoLaw Q cap R)
    {clone : I → Option I} {dequeue : κ → Outcome (κ × Unwind (Option I))}
    (hd : ∀ q, dequeue q = (Q.dequeue q).bind (cloneDequeued clone))
    (hcap : 0 < cap) {q : κ} {l : List I} {g : Ledger I} (h : Tracks R q l g) (ops : List (QueueOp I)) :
    Q.ActsAsCloningFifo clone dequeue losesDequeued cap q l g ops := by
  induction ops generalizing q l g with
  | nil => trivial
  | cons op ops ih =>
    intro hop
    rcases hQ.cloningCall hd h op hop (.inl hcap) with ⟨q', a, h1, h2, h3⟩ | ⟨q', h1, h2, h3⟩
    · exact .inl ⟨q', a, h1, h2, ih h3⟩
    · exact .inr ⟨q', h1, h2, ih h3⟩

theorem Fixed.dequeueCloning_eq (clone : I → Option I) (q : Fixed I) : q.dequeueCloning clone = q.dequeue.bind (cloneDequeued clone) := by
  unfold dequeueCloning dequeue
  split
  · rfl
  · simp only [bind_eq]
    rcases mod (q.read + 1) q.capacity with r | _ | _ <;> try rfl
    rcases sub q.amount 1 with a | _ | _ <;> try rfl
    simp only [bind_ok]
    rcases index q.data q.read with x | _ | _ <;> rfl

theorem Static.dequeueCloning_eq {N : Nat} (clone : I → Option I) (q : Static I N) :
    q.dequeueCloning clone = q.dequeue.bind (cloneDequeued clone) := by
  unfold dequeueCloning dequeue
  split
  · rfl
  · simp only [bind_eq]
    rcases mod (q.read + 1) N with r | _ | _ <;> try rfl
    rcases sub q.amount 1 with a | _ | _ <;> try rfl
    simp only [bind_ok]
    rcases index q.data q.read with x | _ | _ <;> rfl

/-- If `clone` never panics, it does not matter what would be left. -/
theorem Queue.ActsAsCloningFifo.total {Q : Queue κ I} {clone : I → Option I} {dequeue : κ → Outcome (κ × Unwind (Option I))}
    {after : List I → QueueOp I → List I} {cap : Nat} {q : κ} {l : List I} {g : Ledger I} {ops : List (QueueOp I)}
    (h : Q.ActsAsCloningFifo clone dequeue after cap q l g ops) (hc : ∀ x, clone x ≠ none) (after' : List I → QueueOp I → List I) :
    Q.ActsAsCloningFifo clone dequeue after' cap q l g ops := by
  induction ops generalizing q l g with
  | nil => trivial
  | cons op ops ih =>
    intro hop
    rcases h hop with ⟨q', a, h1, h2, h3⟩ | ⟨q', -, h2, -⟩
    · exact .inl ⟨q', a, h1, h2, ih h3⟩
    · exfalso
      cases op <;> first | exact h2 | (obtain ⟨x, -, hx⟩ := h2; exact hc x hx)

/-- A panic of `clone` in `dequeue` makes the queue shorter. -/
theorem FifoLaw.not_keepsAll {Q : Queue κ I} {cap : Nat} {R : κ → List I → List I → Nat → Prop} (hQ : FifoLaw Q cap R)
    {clone : I → Option I} {dequeue : κ → Outcome (κ × Unwind (Option I))}
    (hd : ∀ q, dequeue q = (Q.dequeue q).bind (cloneDequeued clone))
    (hcap : 0 < cap) {x : I} (hx : clone x = none) {q : κ} (h : Tracks R q [] .start) :
    ¬ Q.ActsAsCloningFifo clone dequeue keepsAll cap q [] .start [.enqueue x, .dequeue, .len] := by
  intro hA
  have hne : ([] : List I).length ≠ cap := by simp; omega
  rcases hQ.cloningCall hd h (.enqueue x) trivial (.inl hcap) with ⟨q1, a, h1, -, h3⟩ | ⟨_, _, h2, _⟩
  · rcases hA trivial with ⟨q1', a', h1', -, hA⟩ | ⟨_, h1', -⟩
    · cases h1.symm.trans h1'
      have e : cloningNext clone cap ([] : List I) .start (.enqueue x) a = [x] := by
        simp only [cloningNext, fifoNext, if_neg hne, List.nil_append]
      rw [e] at hA h3
      rcases hQ.cloningCall hd h3 .dequeue trivial (.inl hcap) with ⟨_, _, _, h2, _⟩ | ⟨q2, h4, -, h5⟩
      · rcases h2 with ⟨h2, -⟩ | ⟨y, z, h2, h3, -⟩
        · cases h2
        · cases h2; rw [hx] at h3; cases h3
      · rcases hA trivial with ⟨_, _, h1', -⟩ | ⟨q2', h4', -, hA⟩
        · rw [h4] at h1'; cases h1'
        · cases h4.symm.trans h4'
          rcases hQ.cloningCall hd h5 .len trivial (.inl hcap) with ⟨q3, a3, h6, h7, -⟩ | ⟨_, _, h2, _⟩
          · rcases hA trivial with ⟨q3', a3', h6', h7', -⟩ | ⟨_, h1', -⟩
            · cases h6.symm.trans h6'
              cases h7.symm.trans h7'
            · rw [h6] at h1'; cases h1'
          · exact h2
    · rw [h1] at h1'; cases h1'
  · exact h2

/-! ## Producers and consumers -/

section

variable {σ τ F E E₁ E₂ : Type}

theorem onState_eq_ok {A : Type} {g : σ → τ} {o : Outcome (σ × A)} {t : τ} {a : A} (h : o.onState g = ok (t, a)) :
    ∃ s, o = ok (s, a) ∧ g s = t := by
  rcases o with ⟨s, b⟩ | _ | _ <;> cases h
  exact ⟨s, rfl, rfl⟩

/-- What holds of the images of the states holds of the states. -/
theorem BulkPlays.of_image {P' : BulkProducer τ I F E} {P : BulkProducer σ I F E} {g : σ → τ} {s : σ} {c : Script I F E}
    (produce : ∀ s, P'.produce (g s) = (P.produce s).onState g) (slurp : ∀ s, P'.slurp (g s) = (P.slurp s).onState g)
    (exposeItems : ∀ s, P'.exposeItems (g s) = (P.exposeItems s).onState g)
    (considerProduced : ∀ s k, P'.considerProduced (g s) k = (P.considerProduced s k).onState g)
    (bulkProduce : ∀ s buf, P'.bulkProduce (g s) buf = (P.bulkProduce s buf).onState g)
    (h : BulkPlays P' (g s) c) : BulkPlays P s c := by
  obtain ⟨R, hR, n, hn⟩ := h
  refine ⟨fun s => R (g s), ⟨⟨⟨?_⟩, ?_⟩, ?_, ?_, ?_⟩, n, hn⟩
  · intro s c hs
    obtain ⟨s', h1, h2⟩ := hR.base.produce (g s) c hs
    rw [produce] at h1
    obtain ⟨s'', h3, rfl⟩ := onState_eq_ok h1
    exact ⟨s'', h3, h2⟩
  · intro s c hs
    obtain ⟨s', ⟨h1, h2⟩ | ⟨e, h1, h2⟩⟩ := hR.base.slurp (g s) c hs
    · rw [slurp] at h1
      obtain ⟨s'', h3, rfl⟩ := onState_eq_ok h1
      exact ⟨s'', .inl ⟨h3, h2⟩⟩
    · rw [slurp] at h2
      obtain ⟨s'', h3, rfl⟩ := onState_eq_ok h2
      exact ⟨s'', .inr ⟨e, h1, h3⟩⟩
  · intro s c n hs
    obtain ⟨s', ⟨xs, h1, h2, h3, h4⟩ | ⟨f, h1, h3⟩ | ⟨e, h1, h3⟩⟩ := hR.expose (g s) c n hs <;> rw [exposeItems] at h3 <;>
      obtain ⟨s'', h5, rfl⟩ := onState_eq_ok h3
    · exact ⟨s'', .inl ⟨xs, h1, h2, h5, h4⟩⟩
    · exact ⟨s'', .inr (.inl ⟨f, h1, h5⟩)⟩
    · exact ⟨s'', .inr (.inr ⟨e, h1, h5⟩)⟩
  · intro s c n k hs hn hk
    obtain ⟨s', h1, h2⟩ := hR.consider (g s) c n k hs hn hk
    rw [considerProduced] at h1
    obtain ⟨s'', h3, rfl⟩ := onState_eq_ok h1
    exact ⟨s'', h3, h2⟩
  · intro s c n buf hs hb
    obtain ⟨s', buf', hl, ⟨k, h1, h2, h3, h4⟩ | ⟨f, h1, h3⟩ | ⟨e, h1, h3⟩⟩ := hR.bulkProduce (g s) c n buf hs hb <;>
      rw [bulkProduce] at h3 <;> obtain ⟨s'', h5, rfl⟩ := onState_eq_ok h3
    · exact ⟨s'', buf', hl, .inl ⟨k, h1, h2, h5, h4⟩⟩
    · exact ⟨s'', buf', hl, .inr (.inl ⟨f, h1, h5⟩)⟩
    · exact ⟨s'', buf', hl, .inr (.inr ⟨e, h1, h5⟩)⟩

/-- `bulk_consume` is that of copying items, on the clones. -/
theorem bulkConsume_cloning (cl : I → I) (C : BulkConsumer σ I F E)
    (hC : C.bulkConsume = bulkConsumeDefault C.exposeSlots C.writeSlots C.consumeSlots) (s : σ) (buf : List I) :
    (C.cloning fun x => some (cl x)).bulkConsume s buf = C.bulkConsume s (buf.map cl) := by
  rw [hC]
  simp only [BulkConsumer.cloning, bulkConsumeCloning, bulkConsumeDefault, uncaught, cloneSlice_total, List.length_map, bind_eq,
    List.map_take]
  rcases C.exposeSlots s with ⟨s, e | slots⟩ | _ | _ <;> try rfl
  simp only [bind_ok]
  rcases C.consumeSlots _ _ with ⟨s, e | ⟨⟩⟩ | _ | _ <;> rfl

/-- `bulk_produce` yields the clones of what is exposed. -/
theorem bulkProduce_cloning (cl : I → I) (P : BulkProducer σ I F E) (produce : σ → Outcome (σ × Unwind (Except E (I ⊕ F)))) :
    (P.cloning (fun x => some (cl x)) produce).bulkProduce =
      bulkProduceDefault (((P.cloning (fun x => some (cl x)) produce).exposingClones cl).exposeItems) P.considerProduced := by
  funext s buf
  simp only [BulkProducer.cloning, BulkProducer.exposingClones, bulkProduceCloning, bulkProduceDefault, uncaught, cloneSlice_total,
    List.length_map, bind_eq, List.map_take, List.length_take]
  rcases P.exposeItems s with ⟨s, e | slots | f⟩ | _ | _ <;> try rfl
  simp only [bind_ok, List.length_map, List.map_take]
  rw [show min (min slots.length buf.length) slots.length = min slots.length buf.length by omega]
  rcases P.considerProduced s _ with ⟨s, e | ⟨⟩⟩ | _ | _ <;> rfl

end

/-- The same position in the slice of clones. -/
def FromSlice.clones {T : Type} (cl : T → T) (s : FromSlice T) : FromSlice T := ⟨s.data.map cl, s.pos⟩

def FromBoxedSlice.clones {T : Type} (cl : T → T) (s : FromBoxedSlice T) : FromBoxedSlice T := ⟨s.data.map cl, s.pos⟩

theorem slice_map {T : Type} (cl : T → T) (xs : List T) (i j : Nat) :
    slice (xs.map cl) i j = (slice xs i j).bind fun ys => ok (ys.map cl) := by
  simp only [slice, List.length_map]
  split <;> simp [List.map_drop, List.map_take]

theorem index_map {T : Type} (cl : T → T) (xs : List T) (i : Nat) :
    index (xs.map cl) i = (index xs i).bind fun x => ok (cl x) := by
  simp only [index, List.getElem?_map]
  rcases xs[i]? with _ | x <;> rfl

end Verif
