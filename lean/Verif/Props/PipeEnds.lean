import Verif.Lemmas.PipeEnds
import Verif.Props.Slices
import Verif.Cases

/-!
# C56: where the piping functions leave the producer
-/

namespace Verif

open Outcome

section

variable {σ τ I F E₁ E₂ : Type}

/-- **C56**: if the consumer refuses the item `x`, `pipe` has taken `x` out of the producer: what the producer emits next is
what comes after `x`. -/
theorem pipe_leaves {P : Producer σ I F E₁} {C : Consumer τ I F E₂} {D : τ → List I → Option F → Prop}
    {c : Script I F E₁} {q : Policy I F E₂} {s : σ} {t : τ} {l : List I} (hP : Plays P s c) (hC : Collects C D q t l)
    {xs : List I} {x : I} {e : E₂} (h1 : c.StartsWith (xs ++ [x])) (h2 : q.Accepts l xs) (h3 : q.answer (l ++ xs) x = some e) :
    ∃ s' t', pipe P C s t = ok ((s', t'), .error (.consumer e)) ∧ D t' (l ++ xs) none ∧
      Plays P s' (c.drop (xs.length + 1)) := by
  have hcx : c xs.length = .ok (.inl x) := by simpa using (Script.startsWith_cons.mp h1.right).1
  obtain ⟨s1, hs1, hP1⟩ := hP.emits h1.left
  obtain ⟨t1, ht1, hC1⟩ := hC.consumes h2
  obtain ⟨s2, hs2, hP2⟩ := hP1.step
  simp only [Script.drop_apply, Nat.add_zero, hcx] at hs2
  obtain ⟨t2, ht2, hD⟩ := hC1.consume_err _ h3
  exact ⟨s2, t2, (pipe_consumer_error_iff P C s s2 t t2 _).mpr ⟨_, s1, t1, hs1, ht1, .inl ⟨_, hs2, ht2⟩⟩, hD,
    by simpa using hP2 x (by simpa using hcx)⟩

/-- The refused item 3 is gone: the producer goes on with its end. -/
example : ∃ s' t' s'', pipe Case.P.toProducer Case.C.toConsumer (Case.pro (.ok ())) (Case.con 2) =
    ok ((s', t'), .error (.consumer "full")) ∧ t'.Seen [1, 2] none ∧ Case.P.produce s' = ok (s'', .ok (.inr ())) := by
  obtain ⟨s', t', h1, h2, h3⟩ := pipe_leaves (xs := [1, 2]) (x := 3) (Case.plays (.ok ())).toPlays (Case.collects 2).toCollects
    (Case.script_starts _) (Case.accepts (by decide)) rfl
  obtain ⟨s'', h4, _⟩ := h3.step
  exact ⟨s', t', s'', h1, h2, h4⟩

/-- **C56**: if the consumer refuses the item `x`, `bulk_pipe` has not taken `x` out of the producer; the producer may even
emit some of the items again that the consumer has already consumed. -/
theorem bulk_pipe_leaves {P : BulkProducer σ I F E₁} {C : BulkConsumer τ I F E₂} {D : τ → List I → Option F → Prop}
    {c : Script I F E₁} {q : Policy I F E₂} {s : σ} {t : τ} {l : List I} (hP : BulkPlays P s c)
    (hC : BulkCollects C D q t l) {xs : List I} {x : I} {e : E₂} (h1 : c.StartsWith (xs ++ [x])) (h2 : q.Accepts l xs)
    (h3 : q.answer (l ++ xs) x = some e) :
    ∃ s' t' j, bulkPipe P C s t = ok ((s', t'), .error (.consumer e)) ∧ D t' (l ++ xs) none ∧
      j ≤ xs.length ∧ BulkPlays P s' (c.drop j) := by
  have hcx : c xs.length = .ok (.inl x) := by simpa using (Script.startsWith_cons.mp h1.right).1
  have hres : PipeResult c q l xs none (.error (.consumer e)) := .itemRefused h1.left h2 hcx h3
  obtain ⟨s', t', h4, h5, _⟩ := bulk_pipe_spec hP hC hres
  obtain ⟨R, hR, n, hs⟩ := hP
  obtain ⟨S, hS, sl, ht⟩ := hC
  obtain ⟨ys, fin, h6, h7, h8⟩ := bulkPipe_ends hR (.trivial _ _) hS (.trivial _ _) hs ht h4
  obtain ⟨rfl, rfl, _⟩ := h6.unique hres
  obtain ⟨j, m, hj, hRj, _⟩ := h8.going x hcx
  exact ⟨s', t', j, h4, h5, hj, R, hR, m, hRj⟩

example : BulkPlays Case.P (Case.pro (.ok ())) (Case.script (.ok ())) ∧
    BulkCollects Case.C TestConsumer.Seen (Case.policy 2) (Case.con 2) [] ∧ (Case.script (.ok ())).StartsWith ([1, 2] ++ [3]) ∧
    (Case.policy 2).Accepts [] [1, 2] ∧ (Case.policy 2).answer ([] ++ [1, 2]) 3 = some "full" :=
  ⟨Case.plays _, Case.collects 2, Case.script_starts _, Case.accepts (by decide), rfl⟩

/-- **C56**: if moreover the `bulk_consume` of the consumer fails only when not even the first item is accepted, then the
producer emits exactly the items that the consumer has not consumed, beginning with the refused one. -/
theorem bulk_pipe_leaves_exact {P : BulkProducer σ I F E₁} {C : BulkConsumer τ I F E₂} {D : τ → List I → Option F → Prop}
    {c : Script I F E₁} {q : Policy I F E₂} {s : σ} {t : τ} {l : List I} (hP : BulkPlays P s c)
    {S : τ → List I → List I → Prop} (hS : BulkCollectsLaw C D q S) (hA : AllOrFirst C q S) (ht : ∃ sl, S t l sl)
    {xs : List I} {x : I} {e : E₂} (h1 : c.StartsWith (xs ++ [x])) (h2 : q.Accepts l xs) (h3 : q.answer (l ++ xs) x = some e) :
    ∃ s' t', bulkPipe P C s t = ok ((s', t'), .error (.consumer e)) ∧ D t' (l ++ xs) none ∧
      BulkPlays P s' (c.drop xs.length) := by
  have hcx : c xs.length = .ok (.inl x) := by simpa using (Script.startsWith_cons.mp h1.right).1
  have hres : PipeResult c q l xs none (.error (.consumer e)) := .itemRefused h1.left h2 hcx h3
  obtain ⟨s', t', h4, h5, _⟩ := bulk_pipe_spec hP ⟨S, hS, ht⟩ hres
  obtain ⟨R, hR, n, hs⟩ := hP
  obtain ⟨sl, ht⟩ := ht
  obtain ⟨ys, fin, h6, h7, h8⟩ := bulkPipe_ends hR (.trivial _ _) hS (.trivial _ _) hs ht h4
  obtain ⟨rfl, rfl, _⟩ := h6.unique hres
  obtain ⟨j, m, hj, hRj, hjx⟩ := h8.going x hcx
  obtain rfl := hjx hA
  exact ⟨s', t', h4, h5, R, hR, m, hRj⟩

/-- The refused item 3 is still there. -/
example : ∃ s' t' s'', bulkPipe Case.P Case.C (Case.pro (.ok ())) (Case.con 2) = ok ((s', t'), .error (.consumer "full")) ∧
    t'.Seen [1, 2] none ∧ Case.P.produce s' = ok (s'', .ok (.inl 3)) := by
  obtain ⟨s', t', h1, h2, h3⟩ := bulk_pipe_leaves_exact (xs := [1, 2]) (x := 3) (Case.plays (.ok ()))
    (TestConsumer.law true 2 "full") (TestConsumer.all_or_first true 2 "full") ⟨[], TestConsumer.ready_new true "full" 2 _ none⟩
    (Case.script_starts _) (Case.accepts (by decide)) rfl
  obtain ⟨s'', h4, _⟩ := h3.toPlays.step
  exact ⟨s', t', s'', h1, h2, h4⟩

/-- **C56**: the same for `pipe_at_most`: the refused item is lost. -/
theorem pipe_at_most_leaves {P : Producer σ I F E₁} {C : Consumer τ I F E₂} {D : τ → List I → Option F → Prop}
    {c : Script I F E₁} {q : Policy I F E₂} {s : σ} {t : τ} {l : List I} (hP : Plays P s c) (hC : Collects C D q t l)
    {count : Nat} {xs : List I} {x : I} {e : E₂} (hlt : xs.length < count) (h1 : c.StartsWith (xs ++ [x]))
    (h2 : q.Accepts l xs) (h3 : q.answer (l ++ xs) x = some e) :
    ∃ s' t', pipeAtMost P C s t count = ok ((s', t'), .error (.consumer e)) ∧ D t' (l ++ xs) none ∧
      Plays P s' (c.drop (xs.length + 1)) := by
  have hcx : c xs.length = .ok (.inl x) := by simpa using (Script.startsWith_cons.mp h1.right).1
  obtain ⟨s1, hs1, hP1⟩ := hP.emits h1.left
  obtain ⟨t1, ht1, hC1⟩ := hC.consumes h2
  obtain ⟨s2, hs2, hP2⟩ := hP1.step
  simp only [Script.drop_apply, Nat.add_zero, hcx] at hs2
  obtain ⟨t2, ht2, hD⟩ := hC1.consume_err _ h3
  exact ⟨s2, t2, (pipe_at_most_consumer_error_iff P C count s s2 t t2 _).mpr ⟨_, s1, t1, hlt, hs1, ht1, .inl ⟨_, hs2, ht2⟩⟩, hD,
    by simpa using hP2 x (by simpa using hcx)⟩

example : ∃ s' t' s'', pipeAtMost Case.P.toProducer Case.C.toConsumer (Case.pro (.ok ())) (Case.con 2) 3 =
    ok ((s', t'), .error (.consumer "full")) ∧ t'.Seen [1, 2] none ∧ Case.P.produce s' = ok (s'', .ok (.inr ())) := by
  obtain ⟨s', t', h1, h2, h3⟩ := pipe_at_most_leaves (xs := [1, 2]) (x := 3) (count := 3) (Case.plays (.ok ())).toPlays
    (Case.collects 2).toCollects (by decide) (Case.script_starts _) (Case.accepts (by decide)) rfl
  obtain ⟨s'', h4, _⟩ := h3.step
  exact ⟨s', t', s'', h1, h2, h4⟩

/-- **C56**: the same for `bulk_pipe_at_most`: the refused item and possibly earlier ones are still to be emitted. -/
theorem bulk_pipe_at_most_leaves {P : BulkProducer σ I F E₁} {C : BulkConsumer τ I F E₂} {D : τ → List I → Option F → Prop}
    {c : Script I F E₁} {q : Policy I F E₂} {s : σ} {t : τ} {l : List I} (hP : BulkPlays P s c)
    (hC : BulkCollects C D q t l) {count : Nat} {xs : List I} {x : I} {e : E₂} (hlt : xs.length < count)
    (h1 : c.StartsWith (xs ++ [x])) (h2 : q.Accepts l xs) (h3 : q.answer (l ++ xs) x = some e) :
    ∃ s' t' j, bulkPipeAtMost P C s t count = ok ((s', t'), .error (.consumer e)) ∧ D t' (l ++ xs) none ∧
      j ≤ xs.length ∧ BulkPlays P s' (c.drop j) := by
  have hcx : c xs.length = .ok (.inl x) := by simpa using (Script.startsWith_cons.mp h1.right).1
  have hres : PipeResult c q l xs none (.error (.consumer e)) := .itemRefused h1.left h2 hcx h3
  obtain ⟨s', t', h4, h5, _⟩ := bulk_pipe_at_most_spec hP hC (.failed hlt hres)
  obtain ⟨R, hR, n, hs⟩ := hP
  obtain ⟨S, hS, sl, ht⟩ := hC
  rcases bulkPipeAtMost_ends hR (.trivial _ _) hS (.trivial _ _) hs ht h4 with ⟨_, _, h, _⟩ | ⟨ys, fin, r, _, h6, h7, _, h8⟩
  · cases h
  · obtain ⟨rfl, rfl, _⟩ := h6.unique hres
    obtain ⟨j, m, hj, hRj, _⟩ := h8.going x hcx
    exact ⟨s', t', j, h4, h5, hj, R, hR, m, hRj⟩

example : ∃ s' t' j, bulkPipeAtMost Case.P Case.C (Case.pro (.ok ())) (Case.con 2) 3 = ok ((s', t'), .error (.consumer "full")) ∧
    t'.Seen [1, 2] none ∧ j ≤ 2 ∧ BulkPlays Case.P s' ((Case.script (.ok ())).drop j) :=
  bulk_pipe_at_most_leaves (xs := [1, 2]) (x := 3) (Case.plays (.ok ())) (Case.collects 2) (by decide) (Case.script_starts _)
    (Case.accepts (by decide)) rfl

end

/-! ### Items can be repeated

A lawful consumer that rejects one particular item, in the middle of a `bulk_consume`. -/

/-- State of the consumer: what was consumed, and the exposed slots. -/
structure Picky where
  taken : List Nat
  slots : List Nat

namespace Picky

/-- Takes items until one of them is 2. -/
def eat : List Nat → List Nat → List Nat × Except Unit Unit
  | l, [] => (l, .ok ())
  | l, x :: xs => if x = 2 then (l, .error ()) else eat (l ++ [x]) xs

/-- Refuses the item 2. -/
def consumer : BulkConsumer Picky Nat Unit Unit where
  consume s x := ok ({ s with taken := (eat s.taken [x]).1, slots := [] }, (eat s.taken [x]).2)
  close s _ := ok (s, .ok ())
  flush s := ok (s, .ok ())
  exposeSlots s := ok ({ s with slots := [0, 0, 0] }, .ok [0, 0, 0])
  writeSlots s ws := { s with slots := ws ++ s.slots.drop ws.length }
  consumeSlots s k := ok (⟨(eat s.taken (s.slots.take k)).1, s.slots.drop k⟩, (eat s.taken (s.slots.take k)).2)

def policy : Policy Nat Unit Unit where
  refuse _ := none
  reject _ x := if x = 2 then some () else none
  refuseClose _ _ := none

theorem eat_ok {l xs : List Nat} (h : policy.Accepts l xs) : eat l xs = (l ++ xs, .ok ()) := by
  induction xs generalizing l with
  | nil => simp [eat]
  | cons x xs ih =>
    rw [Policy.accepts_cons] at h
    have : x ≠ 2 := by intro h0; simp [Policy.answer, policy, h0] at h
    simp [eat, this, ih h.2]

theorem eat_err {l xs : List Nat} {i : Nat} {e : Unit} (h : policy.FailsAt l xs i e) :
    eat l xs = (l ++ xs.take i, .error e) := by
  induction xs generalizing l i with
  | nil => obtain ⟨_, x, hx, _⟩ := h; simp at hx
  | cons x xs ih =>
    cases i with
    | zero =>
      have := Policy.failsAt_zero_cons.mp h
      have : x = 2 := by
        rcases Nat.decEq x 2 with h0 | h0
        · simp [Policy.answer, policy, h0] at this
        · exact h0
      simp [eat, this]
    | succ i =>
      obtain ⟨h1, h2⟩ := Policy.failsAt_succ_cons.mp h
      have : x ≠ 2 := by intro h0; simp [Policy.answer, policy, h0] at h1
      simp [eat, this, ih h2]

theorem law : BulkCollectsLaw consumer (fun s l _ => s.taken = l) policy (fun s l slots => s = ⟨l, slots⟩ ∨ (s.taken = l ∧ slots = [])) := by
  refine .of_default rfl ⟨⟨?_, ?_, ?_, ?_, ?_⟩, ?_⟩ ?_ ?_ ?_ ?_ ?_
  · rintro s l ⟨slots, rfl | ⟨rfl, rfl⟩⟩ <;> rfl
  · rintro s l x ⟨slots, hs⟩ hq
    have hl : s.taken = l := by rcases hs with rfl | ⟨rfl, _⟩ <;> rfl
    have := eat_ok (l := l) (xs := [x]) (by rw [Policy.accepts_cons]; exact ⟨hq, by simp⟩)
    exact ⟨_, by simp [consumer, hl, this], [], .inl rfl⟩
  · rintro s l x e ⟨slots, hs⟩ hq
    have hl : s.taken = l := by rcases hs with rfl | ⟨rfl, _⟩ <;> rfl
    have := eat_err (l := l) (xs := [x]) (Policy.failsAt_zero_cons.mpr hq)
    exact ⟨_, by simp [consumer, hl, this]; rfl, by simp⟩
  · rintro s l f ⟨slots, rfl | ⟨rfl, rfl⟩⟩ _ <;> exact ⟨_, rfl, rfl⟩
  · rintro s l f e _ hq; cases hq
  · rintro s l ⟨slots, hs⟩; exact ⟨s, .inl ⟨rfl, slots, hs⟩⟩
  · rintro s l slots hs _
    have hl : s.taken = l := by rcases hs with rfl | ⟨rfl, _⟩ <;> rfl
    exact ⟨⟨l, [0, 0, 0]⟩, [0, 0, 0], by simp, by simp [consumer, hl], .inl rfl⟩
  · rintro s l slots e _ hq; cases hq
  · rintro s l slots ws (rfl | ⟨rfl, rfl⟩) hw
    · exact .inl rfl
    · simp at hw; subst hw
      exact .inr ⟨rfl, rfl⟩
  · rintro s l slots k (rfl | ⟨rfl, rfl⟩) hne hk ha
    · exact ⟨_, by simp [consumer, eat_ok ha], .inl rfl⟩
    · exact absurd rfl hne
  · rintro s l slots k i e (rfl | ⟨rfl, rfl⟩) hne hk hf
    · have := hf.lt
      refine ⟨_, by simp [consumer, eat_err hf]; rfl, ?_⟩
      simp only [List.take_take, List.length_take] at this ⊢
      rw [Nat.min_eq_left (by omega)]
    · exact absurd rfl hne

end Picky

/-- **C56**: items can be consumed twice. There are a producer (`FromSlice` with the items 1, 2, 3) and a lawful consumer
(which rejects the item 2) such that `bulk_pipe` fails, the consumer having consumed 1, but the producer then still emits 1;
whereas after `pipe`, which fails in the same way, the producer continues with 3. -/
theorem bulk_pipe_may_repeat :
    ∃ s t, bulkPipe (FromSlice.producer Nat) Picky.consumer (.new [1, 2, 3]) ⟨[], []⟩ = ok ((s, t), .error (.consumer ())) ∧
      t.taken = [1] ∧ (FromSlice.producer Nat).produce s = ok (⟨[1, 2, 3], 1⟩, .ok (.inl 1)) ∧
    ∃ s' t', pipe (FromSlice.producer Nat).toProducer Picky.consumer.toConsumer (.new [1, 2, 3]) ⟨[], []⟩ =
        ok ((s', t'), .error (.consumer ())) ∧
      t'.taken = [1] ∧ (FromSlice.producer Nat).produce s' = ok (⟨[1, 2, 3], 3⟩, .ok (.inl 3)) := by
  refine ⟨⟨[1, 2, 3], 0⟩, ⟨[1], []⟩, ?_, rfl, rfl, ⟨[1, 2, 3], 2⟩, ⟨[1], []⟩, ?_, rfl, rfl⟩
  · exact (loop_eq_of_fuel (n := 1) (by rw [show loopFuel _ _ _ = ok ((_, _), _) from rfl]; simp)).trans rfl
  · exact (loop_eq_of_fuel (n := 2) (by rw [show loopFuel _ _ _ = ok ((_, _), _) from rfl]; simp)).trans rfl

/-- The hypotheses of `pipe_leaves` and `bulk_pipe_leaves` can be met. -/
example : BulkCollects Picky.consumer (fun s l _ => s.taken = l) Picky.policy ⟨[], []⟩ [] ∧
    Picky.policy.Accepts [] [1] ∧ Picky.policy.answer ([] ++ [1]) 2 = some () ∧
    (Script.ofList [1, 2, 3] (.ok ()) : Script Nat Unit Empty).StartsWith ([1] ++ [2]) :=
  ⟨⟨_, Picky.law, [], .inl rfl⟩, by simp [Policy.accepts_cons, Policy.answer, Picky.policy], rfl,
    (Script.ofList_startsWith [1, 2, 3] _).take 2⟩

end Verif
