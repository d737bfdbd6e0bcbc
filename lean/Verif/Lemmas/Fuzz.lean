import Verif.Model.Fuzz
import Verif.Props.TestDoubles
import Verif.Lemmas.PipeEnds
import Verif.Lemmas.ScramblerExact

/-!
# Helper lemmas about the fuzz targets: the test doubles
-/

namespace Verif

open Outcome

section

variable {σ τ I F E : Type}

theorem Script.ofList_last {xs ys : List I} {a b : Except E F} {k : Nat}
    (h : (Script.ofList xs a).drop k = Script.ofList ys b) : a = b := by
  have := congrFun h (xs.length + ys.length)
  simp only [Script.drop_apply, Script.ofList] at this
  rw [List.getElem?_eq_none (show xs.length ≤ k + (xs.length + ys.length) by omega),
    List.getElem?_eq_none (show ys.length ≤ xs.length + ys.length by omega)] at this
  rcases a with a | a <;> rcases b with b | b <;> simp [Except.map] at this <;> rw [this]

/-- More can be observed of a consumer after it was closed. -/
theorem BulkCollectsLaw.closed {C : BulkConsumer τ I F E} {D : τ → List I → Option F → Prop} {q : Policy I F E}
    {S : τ → List I → List I → Prop} (h : BulkCollectsLaw C D q S) {Q : τ → Prop}
    (hQ : ∀ s l sl f s', S s l sl → C.close s f = ok (s', .ok ()) → Q s') :
    BulkCollectsLaw C (fun s l f => D s l f ∧ (f ≠ none → Q s)) q S := by
  refine ⟨⟨⟨?_, ?_, ?_, ?_, ?_⟩, ?_⟩, h.expose_ok, ?_, h.write, h.consumeSlots_ok, ?_, ?_⟩
  · intro s l hs; exact ⟨h.base.observe s l hs, by simp⟩
  · exact h.base.consume_ok
  · intro s l x e hs hq
    obtain ⟨s', h1, h2⟩ := h.base.consume_err s l x e hs hq
    exact ⟨s', h1, h2, by simp⟩
  · rintro s l f ⟨sl, hs⟩ hq
    obtain ⟨s', h1, h2⟩ := h.base.close_ok s l f ⟨sl, hs⟩ hq
    exact ⟨s', h1, h2, fun _ => hQ _ _ _ _ _ hs h1⟩
  · intro s l f e hs hq
    obtain ⟨s', h1, h2⟩ := h.base.close_err s l f e hs hq
    exact ⟨s', h1, h2, by simp⟩
  · intro s l hs
    obtain ⟨s', h1 | ⟨e, h1, h2, h3⟩⟩ := h.base.flush s l hs
    · exact ⟨s', .inl h1⟩
    · exact ⟨s', .inr ⟨e, h1, h2, h3, by simp⟩⟩
  · intro s l sl e hs hq
    obtain ⟨s', h1, h2⟩ := h.expose_err s l sl e hs hq
    exact ⟨s', h1, h2, by simp⟩
  · intro s l sl k i e hs hne hk hf
    obtain ⟨s', h1, h2⟩ := h.consumeSlots_err s l sl k i e hs hne hk hf
    exact ⟨s', h1, h2, by simp⟩
  · intro s l sl buf hs hne
    obtain ⟨s', h1 | ⟨i, e, h1, h2, h3⟩⟩ := h.bulkConsume s l sl buf hs hne
    · exact ⟨s', .inl h1⟩
    · exact ⟨s', .inr ⟨i, e, h1, h2, h3, by simp⟩⟩

theorem EndsIn.unusedInvariant {P : BulkProducer σ I F E} {R : σ → Script I F E → Nat → Prop} {Done : σ → Prop}
    (h : EndsIn P R Done) :
    EndsIn (unusedInvariantBulkProducer P) (fun s c n => R s.inner c n) (fun s => Done s.inner) := by
  constructor
  · intro s c n s' r hs hp hr
    simp only [unusedInvariantBulkProducer, bind_eq, bind_eq_ok] at hp
    obtain ⟨⟨t, r'⟩, h1, h2⟩ := hp
    cases h2
    exact h.produce _ _ _ _ _ hs h1 hr
  · intro s c n s' r hs hp hr
    simp only [unusedInvariantBulkProducer, bind_eq, bind_eq_ok] at hp
    obtain ⟨⟨t, r'⟩, h1, h2⟩ := hp
    cases h2
    exact h.expose _ _ _ _ _ hs h1 hr
  · intro s c n s' e hs hp
    simp only [unusedInvariantBulkProducer, bind_eq, bind_eq_ok] at hp
    obtain ⟨⟨t, r'⟩, h1, h2⟩ := hp
    cases h2
    exact h.slurp _ _ _ _ _ hs h1

theorem AlwaysFailsIn.bulkConsume {C : BulkConsumer τ I F E} {Failed : τ → Prop} (h : AlwaysFailsIn C Failed)
    (hd : C.bulkConsume = bulkConsumeDefault C.exposeSlots C.writeSlots C.consumeSlots) {t t' : τ} {buf : List I} {e : E}
    (hb : C.bulkConsume t buf = ok (t', .error e)) : Failed t' := by
  obtain h1 | ⟨_, _, _, h1⟩ := bulkConsumeDefault_error hd hb
  · exact h.expose _ _ _ h1
  · exact h.consumeSlots _ _ _ _ h1

theorem AlwaysFailsIn.failsIn {C : BulkConsumer τ I F E} {Failed : τ → Prop} (h : AlwaysFailsIn C Failed)
    (hd : C.bulkConsume = bulkConsumeDefault C.exposeSlots C.writeSlots C.consumeSlots) (S : τ → List I → List I → Prop) :
    FailsIn C S Failed :=
  ⟨fun _ _ _ _ _ _ _ => h.consume _ _ _ _, fun _ _ _ _ _ _ _ => h.close _ _ _ _,
    fun _ _ _ _ _ _ _ _ => h.bulkConsume hd⟩

theorem AlwaysFailsIn.unusedInvariant {C : BulkConsumer τ I F E} {Failed : τ → Prop} (h : AlwaysFailsIn C Failed) :
    AlwaysFailsIn (unusedInvariantBulkConsumer C) (fun t => Failed t.inner) := by
  constructor
  · intro t x t' e hc
    simp only [unusedInvariantBulkConsumer, bind_eq, bind_eq_ok] at hc
    obtain ⟨⟨t, r'⟩, h1, h2⟩ := hc
    cases h2
    exact h.consume _ _ _ _ h1
  · intro t x t' e hc
    simp only [unusedInvariantBulkConsumer, bind_eq, bind_eq_ok] at hc
    obtain ⟨⟨t, r'⟩, h1, h2⟩ := hc
    cases h2
    exact h.close _ _ _ _ h1
  · intro t t' e hc
    simp only [unusedInvariantBulkConsumer, bind_eq, bind_eq_ok] at hc
    obtain ⟨⟨t, r'⟩, h1, h2⟩ := hc
    cases h2
    exact h.flush _ _ _ h1
  · intro t t' e hc
    simp only [unusedInvariantBulkConsumer, bind_eq, bind_eq_ok] at hc
    obtain ⟨⟨t, r'⟩, h1, h2⟩ := hc
    cases h2
    exact h.expose _ _ _ h1
  · intro t k t' e hc
    simp only [unusedInvariantBulkConsumer, bind_eq, bind_eq_ok] at hc
    obtain ⟨⟨t, r'⟩, h1, h2⟩ := hc
    cases h2
    exact h.consumeSlots _ _ _ _ h1

end

namespace TestProducer

variable {I F E : Type}

/-- A producer that was given these items and this last value, and that has not emitted the last value yet. -/
def Of (items : List I) (last : Except E F) (s : TestProducer I F E) (c : Script I F E) (n : Nat) : Prop :=
  s.Ready false c n ∧ s.inner.inner.data = items ∧ s.last = some last

theorem Of.script {items : List I} {last : Except E F} {s : TestProducer I F E} {c : Script I F E} {n : Nat}
    (h : s.Of items last c n) : c = Script.ofList s.left last := by
  obtain ⟨⟨_, _, _, last', h1, h2⟩, _, h3⟩ := h
  rw [h1] at h3; cases h3; exact h2

theorem Ready.same_last {test : Bool} {s s' : TestProducer I F E} {c : Script I F E} {n m k : Nat} (h : s.Ready test c n)
    (h' : s'.Ready test (c.drop k) m) : s'.last = s.last := by
  obtain ⟨_, _, _, last, h1, rfl⟩ := h
  obtain ⟨_, _, _, last', h2, h3⟩ := h'
  rw [h1, h2, Script.ofList_last h3]

theorem Ready.same_last' {test : Bool} {s s' : TestProducer I F E} {c : Script I F E} {n m : Nat} (h : s.Ready test c n)
    (h' : s'.Ready test c m) : s'.last = s.last := h.same_last (k := 0) (by simpa using h')

theorem of_law (items : List I) (last : Except E F) : BulkPlaysLaw (producer false I F E) (Of items last) := by
  refine .of_default rfl ⟨⟨?_⟩, ?_⟩ ?_ ?_
  · rintro s c ⟨n, h, hd, hl⟩
    obtain ⟨s', h1, h4, ⟨x, h2, h3⟩ | ⟨h2, h3⟩⟩ := produce_law h
    · exact ⟨s', h1, fun _ _ => ⟨0, h3, h4.trans hd, (h.same_last h3).trans hl⟩⟩
    · exact ⟨s', h1, fun x hx => absurd hx (h2 x)⟩
  · rintro s c ⟨n, h, hd, hl⟩
    obtain ⟨s', h4, ⟨h1, h2⟩ | ⟨e, h1, h2, h3⟩⟩ := slurp_law h
    · exact ⟨s', .inl ⟨h1, n, h2, by rw [h4, hd], (h.same_last' h2).trans hl⟩⟩
    · exact ⟨s', .inr ⟨e, h1, h2⟩⟩
  · rintro s c n ⟨h, hd, hl⟩
    obtain ⟨s', h4, ⟨xs, h1, h2, h3, h5⟩ | ⟨f, h1, h2, _⟩ | ⟨e, h1, h2, _⟩⟩ := expose_law h
    · exact ⟨s', .inl ⟨xs, h1, h2, h3, h5, by rw [h4, hd], (h.same_last' h5).trans hl⟩⟩
    · exact ⟨s', .inr (.inl ⟨f, h1, h2⟩)⟩
    · exact ⟨s', .inr (.inr ⟨e, h1, h2⟩)⟩
  · rintro s c n k ⟨h, hd, hl⟩ h0 hk
    obtain ⟨s', h1, h2, h3⟩ := consider_law h h0 hk
    exact ⟨s', h1, h2, h3.trans hd, (h.same_last h2).trans hl⟩

/-- The last value has been emitted. -/
def Done (items : List I) (s : TestProducer I F E) : Prop :=
  s.inner.inner.data = items ∧ s.last = none ∧ s.remaining = ok []

theorem produce_end {test : Bool} {s s' : TestProducer I F E} {r : Except E (I ⊕ F)} (h : s.produce test = ok (s', r))
    (hr : ∀ x, r ≠ .ok (.inl x)) : s'.inner = s.inner := by
  simp only [TestProducer.produce, bind_eq, bind_eq_ok] at h
  obtain ⟨_, _, _, _, h⟩ := h
  split at h
  · simp only [bind_eq_ok] at h
    obtain ⟨_, _, h⟩ := h
    cases h; rfl
  · simp only [bind_eq_ok] at h
    obtain ⟨_, _, _, _, _, _, h⟩ := h
    cases h
    exact absurd rfl (hr _)

theorem Ready.remaining_end {test : Bool} {s : TestProducer I F E} {c : Script I F E} {n : Nat} (h : s.Ready test c n)
    (hc : ∀ x, c 0 ≠ .ok (.inl x)) : s.remaining = ok [] := by
  rw [h.remaining]
  obtain ⟨_, _, _, last, _, rfl⟩ := h
  rcases hl : s.left with _ | ⟨x, xs⟩
  · rfl
  · exact absurd (by simp [hl, Script.ofList]) (hc x)

theorem of_ends (items : List I) (last : Except E F) : EndsIn (producer false I F E) (Of items last) (Done items) := by
  constructor
  · rintro s c n s' r ⟨h, hd, hl⟩ hp hr
    obtain ⟨s'', h1, h4, ⟨x, h2, h3⟩ | ⟨h2, h3⟩⟩ := produce_law h
    · have := hp.symm.trans h1; cases this
      exact absurd h2 (hr x)
    · have := hp.symm.trans h1; cases this
      refine ⟨h4.trans hd, h3, ?_⟩
      have := h.remaining_end h2
      rw [TestProducer.remaining] at this ⊢
      rw [produce_end h1 h2]; exact this
  · rintro s c n s' r ⟨h, hd, hl⟩ hp hr
    obtain ⟨s'', h4, ⟨xs, h1, h2, h3, h5⟩ | ⟨f, h1, h2, h3⟩ | ⟨e, h1, h2, h3⟩⟩ := expose_law h
    · have := hp.symm.trans h3; cases this
      exact absurd rfl (hr xs)
    · have := hp.symm.trans h2; cases this
      refine ⟨by rw [h4, hd], h3, ?_⟩
      have := h.remaining_end (by simp [h1])
      rw [TestProducer.remaining] at this ⊢
      rw [h4]; exact this
    · have := hp.symm.trans h2; cases this
      refine ⟨by rw [h4, hd], h3, ?_⟩
      have := h.remaining_end (by simp [h1])
      rw [TestProducer.remaining] at this ⊢
      rw [h4]; exact this
  · rintro s c n s' e ⟨h, hd, hl⟩ hp
    obtain ⟨s'', h4, ⟨h1, h2⟩ | ⟨e', h1, h2, h3⟩⟩ := slurp_law h
    · have := hp.symm.trans h1; cases this
    · have := hp.symm.trans h2; cases this
      refine ⟨by rw [h4, hd], h3, ?_⟩
      have := h.remaining_end (by simp [h1])
      rw [TestProducer.remaining] at this ⊢
      rw [h4]; exact this

end TestProducer

namespace TestConsumer

variable {I F E : Type} [Inhabited I]

/-- The consumer has reported its error. -/
def Failed (s : TestConsumer I F E) : Prop := s.error = none

omit [Inhabited I] in
theorem enter_some {s s' : TestConsumer I F E} {e : E} (h : s.enter = ok (s', some e)) : s'.Failed := by
  simp only [enter, checkError, bind_eq, bind_eq_ok] at h
  obtain ⟨y, _, h⟩ := h
  split at h
  · simp only [bind_eq_ok] at h
    obtain ⟨e', _, h⟩ := h
    cases h; rfl
  · cases h

theorem fails (test : Bool) : AlwaysFailsIn (consumer test I F E) Failed := by
  constructor
  · intro t x t' e h
    simp only [consumer, consume, bind_eq, bind_eq_ok] at h
    obtain ⟨⟨s, _ | e'⟩, h1, h⟩ := h
    · simp only [bind_eq_ok] at h
      obtain ⟨_, _, _, _, _, _, h⟩ := h
      cases h
    · cases h; exact enter_some h1
  · intro t x t' e h
    simp only [consumer, close, bind_eq, bind_eq_ok] at h
    obtain ⟨⟨s, _ | e'⟩, h1, h⟩ := h
    · simp only [bind_eq_ok] at h
      obtain ⟨_, _, _, _, h⟩ := h
      cases h
    · cases h; exact enter_some h1
  · intro t t' e h
    simp only [consumer, flush, bind_eq, bind_eq_ok] at h
    obtain ⟨⟨s, _ | e'⟩, h1, h⟩ := h
    · simp only [bind_eq_ok] at h
      obtain ⟨_, _, _, _, h⟩ := h
      cases h
    · cases h; exact enter_some h1
  · intro t t' e h
    simp only [consumer, exposeSlots, bind_eq, bind_eq_ok] at h
    obtain ⟨⟨s, _ | e'⟩, h1, h⟩ := h
    · simp only [bind_eq_ok] at h
      obtain ⟨⟨_, z⟩, _, h⟩ := h
      rcases z with _ | z
      · obtain ⟨_, _, _, _, _, _, _, _, h⟩ := h
        cases h
      · obtain ⟨_, _, _, _, _, _, _, _, h⟩ := h
        cases h
    · cases h; exact enter_some h1
  · intro t k t' e h
    simp only [consumer, consumeSlots, bind_eq, bind_eq_ok] at h
    obtain ⟨⟨s, _ | e'⟩, h1, h⟩ := h
    · simp only [bind_eq_ok] at h
      obtain ⟨_, _, _, _, _, _, h⟩ := h
      cases h
    · cases h; exact enter_some h1

theorem close_error (n : Nat) (e : E) {s s' : TestConsumer I F E} {l sl : List I} {f : F} (h : s.Ready false n e l sl)
    (hc : (consumer false I F E).close s f = ok (s', .ok ())) : s'.error = some e := by
  obtain ⟨s₁, _, _, _, ⟨h1, h0, h2, h3⟩ | ⟨h1, h2, h3, _⟩⟩ := h.enter
  · obtain ⟨v, h4, h5⟩ := h3.vec.close
    simp [consumer, TestConsumer.close, h2, h4, unwrapResult] at hc
    rw [← hc]; exact h3.error
  · simp [consumer, TestConsumer.close, h2] at hc

end TestConsumer

namespace Fuzz

variable {I F E : Type}

@[simp] theorem assertEq_self {A : Type} [DecidableEq A] (a : A) : assertEq a a = ok () := by simp [assertEq]

/-! ## Producers -/

/-- A `TestProducer` of these items and this last value, which it has not emitted yet. -/
def POf (items : List I) (last : Except E F) (s : Pro I F E) (c : Script I F E) (n : Nat) : Prop := s.inner.Of items last c n

def PDone (items : List I) (s : Pro I F E) : Prop := s.inner.Done items

theorem pro_eq : pro I F E = unusedInvariantBulkProducer (TestProducer.producer false I F E) := by
  simp [pro, publicProducer]

theorem pro_law (items : List I) (last : Except E F) : BulkPlaysLaw (pro I F E) (POf items last) := by
  rw [pro_eq]; exact (TestProducer.of_law items last).unusedInvariant

theorem pro_ends (items : List I) (last : Except E F) : EndsIn (pro I F E) (POf items last) (PDone items) := by
  rw [pro_eq]; exact (TestProducer.of_ends items last).unusedInvariant

theorem pro_new (items : List I) (last : Except E F) (sizes : List NonZero) (pattern : List Bool) :
    POf items last (.arbitrary items last sizes pattern) (Script.ofList items last) 0 :=
  ⟨TestProducer.ready_new false items last sizes (some pattern), rfl, rfl⟩

theorem POf.remaining {items : List I} {last : Except E F} {s : Pro I F E} {k n : Nat}
    (h : POf items last s ((Script.ofList items last).drop k) n) (hk : k ≤ items.length) :
    s.inner.remaining = ok (items.drop k) := by
  rw [TestProducer.Ready.remaining h.1]
  have := h.script
  rw [Script.ofList_drop _ _ _ hk] at this
  rw [(Script.ofList_inj this).1]

theorem POf.same [DecidableEq I] [DecidableEq F] [DecidableEq E] {items : List I} {last : Except E F} {s t : Pro I F E}
    {c d : Script I F E} {n m : Nat} (h : POf items last s c n) (h' : POf items last t d m) : s.same t = true := by
  simp [Pro.same, h.2.1, h'.2.1, h.2.2, h'.2.2]

theorem PDone.same [DecidableEq I] [DecidableEq F] [DecidableEq E] {items : List I} {s t : Pro I F E}
    (h : PDone items s) (h' : PDone items t) : s.same t = true := by
  simp [Pro.same, h.1, h'.1, h.2.1, h'.2.1]

theorem POf.last {items : List I} {last : Except E F} {s : Pro I F E} {c : Script I F E} {n : Nat} (h : POf items last s c n) :
    s.inner.last = some last := h.2.2

theorem PDone.last {items : List I} {s : Pro I F E} (h : PDone items s) : s.inner.last = none := h.2.1

/-- The answers that `bulk_produce` gives at the end leave the producer at its end. -/
theorem bulkProduce_ends {σ : Type} {P : BulkProducer σ I F E} {R : σ → Script I F E → Nat → Prop} {Done : σ → Prop}
    (hP : BulkPlaysLaw P R) (hE : EndsIn P R Done)
    (hd : P.bulkProduce = bulkProduceDefault P.exposeItems P.considerProduced) {s s' : σ} {c : Script I F E} {n : Nat}
    {buf buf' : List I} {r : Except E (Nat ⊕ F)} (hs : R s c n) (h : P.bulkProduce s buf = ok (s', r, buf'))
    (hr : ∀ k, r ≠ .ok (.inl k)) : Done s' := by
  rw [hd] at h
  obtain ⟨s1, ⟨xs, hne, hsw, hex, hR1⟩ | ⟨f, hf, hex⟩ | ⟨e, he, hex⟩⟩ := hP.expose s c n hs
  · obtain ⟨s2, hcp, hR2⟩ := hP.consider s1 c xs.length (min xs.length buf.length) hR1 (List.length_pos_iff.mpr hne)
      (Nat.min_le_left _ _)
    simp [bulkProduceDefault, hex, hcp] at h
    exact absurd h.2.1.symm (hr _)
  · simp [bulkProduceDefault, hex] at h
    rw [← h.1]
    exact hE.expose _ _ _ _ _ hs hex (by simp)
  · simp [bulkProduceDefault, hex] at h
    rw [← h.1]
    exact hE.expose _ _ _ _ _ hs hex (by simp)

theorem startsWith_ofList {items xs : List I} {last : Except E F} (h : (Script.ofList items last).StartsWith xs) :
    xs = items.take xs.length ∧ xs.length ≤ items.length := by
  have hle : xs.length ≤ items.length := by
    rcases Nat.lt_or_ge items.length xs.length with hlt | hge
    · have := h items.length _ (List.getElem?_eq_getElem hlt)
      rw [Script.ofList_end] at this
      cases last <;> simp [Except.map] at this
    · exact hge
  exact ⟨h.prefix (Script.ofList_startsWith items last) hle, hle⟩

/-- At the end of the items there is the last value. -/
theorem ofList_ended {items xs : List I} {last : Except E F} (h : (Script.ofList items last).StartsWith xs)
    (hx : ∀ x, Script.ofList items last xs.length ≠ .ok (.inl x)) :
    xs = items ∧ Script.ofList items last xs.length = last.map .inr := by
  obtain ⟨h1, h2⟩ := startsWith_ofList h
  have : xs.length = items.length := by
    rcases Nat.lt_or_ge xs.length items.length with hlt | hge
    · exact absurd (Script.ofList_startsWith items last _ _ (List.getElem?_eq_getElem hlt)) (hx _)
    · omega
  rw [this] at h1 ⊢
  rw [List.take_length] at h1
  exact ⟨h1, Script.ofList_end items last⟩

theorem ofList_item {items : List I} {last : Except E F} {k : Nat} {x : I}
    (h : Script.ofList items last k = .ok (.inl x)) : items[k]? = some x ∧ k < items.length := by
  rcases Nat.lt_or_ge k items.length with hlt | hge
  · refine ⟨?_, hlt⟩
    have := Script.ofList_startsWith items last _ _ (List.getElem?_eq_getElem hlt)
    rw [h] at this
    cases this; simp [hlt]
  · simp only [Script.ofList, List.getElem?_eq_none hge] at h
    cases last <;> simp [Except.map] at h

/-- Piping a finite sequence has a result. -/
theorem ofList_result {E₂ : Type} (items : List I) (last : Except E F) (q : Policy I F E₂) (l : List I) :
    ∃ xs fin res, PipeResult (Script.ofList items last) q l xs fin res := by
  obtain h | h := PipeResult.exists_or_endless (Script.ofList items last) q l
  · exact h
  · obtain ⟨xs, h1, h2, _⟩ := h (items.length + 1)
    have := (startsWith_ofList h2).2
    omega

/-! ## Consumers -/

variable [Inhabited I]

def COpen (n : Nat) (e : E) (t : Con I F E) (l sl : List I) : Prop := t.inner.Ready false n e l sl

def CSeen (e : E) (t : Con I F E) (l : List I) (f : Option F) : Prop := t.inner.Seen l f ∧ (f ≠ none → t.inner.error = some e)

def CFailed (t : Con I F E) : Prop := t.inner.Failed

theorem con_eq : con I F E = unusedInvariantBulkConsumer (TestConsumer.consumer false I F E) := by
  simp [con, publicConsumer]

theorem con_law (n : Nat) (e : E) : BulkCollectsLaw (con I F E) (CSeen e) (Policy.failAfter n e) (COpen n e) := by
  rw [con_eq]
  exact ((TestConsumer.law false n e).closed (Q := fun s => s.error = some e)
    fun _ _ _ _ _ h => TestConsumer.close_error n e h).unusedInvariant

theorem con_always_fails : AlwaysFailsIn (con I F E) CFailed := by
  rw [con_eq]; exact (TestConsumer.fails false).unusedInvariant

theorem con_fails (n : Nat) (e : E) : FailsIn (con I F E) (COpen n e) CFailed := con_always_fails.failsIn (by rw [con_eq]; rfl) _

theorem con_new (e : E) (n : Nat) (sizes : List NonZero) (pattern : List Bool) :
    COpen n e (.arbitrary e n sizes pattern : Con I F E) [] [] := TestConsumer.ready_new false e n sizes (some pattern)

omit [Inhabited I] in
theorem COpen.error {n : Nat} {e : E} {t : Con I F E} {l sl : List I} (h : COpen n e t l sl) : t.inner.error = some e :=
  TestConsumer.Ready.error h

theorem COpen.seen {n : Nat} {e : E} {t : Con I F E} {l sl : List I} (h : COpen n e t l sl) : t.inner.Seen l none :=
  TestConsumer.Ready.seen h

theorem con_all_or_first (n : Nat) (e : E) : AllOrFirst (con I F E) (Policy.failAfter n e) (COpen n e) := by
  intro s l slots buf s' e' h hne hb
  obtain ⟨x, xs, rfl⟩ := List.exists_cons_of_ne_nil hne
  have : (TestConsumer.consumer false I F E).bulkConsume s.inner (x :: xs) = ok (s'.inner, .error e') := by
    obtain h1 | ⟨t₁, sl, h1, h2⟩ := bulkConsumeDefault_error (C := con I F E) (by rw [con_eq]; rfl) hb
    · rw [con_eq] at h1
      simp only [unusedInvariantBulkConsumer, bind_eq, bind_eq_ok] at h1
      obtain ⟨⟨t, r⟩, h3, h4⟩ := h1
      cases h4
      simp [TestConsumer.consumer, bulkConsumeDefault] at h3 ⊢
      simp [h3]
    · rw [con_eq] at h1 h2
      simp only [unusedInvariantBulkConsumer, bind_eq, bind_eq_ok] at h1 h2
      obtain ⟨⟨t, r⟩, h3, h4⟩ := h1
      cases h4
      obtain ⟨⟨t', r'⟩, h5, h6⟩ := h2
      cases h6
      simp [TestConsumer.consumer, bulkConsumeDefault] at h3 h5 ⊢
      simp [h3, h5]
  exact TestConsumer.all_or_first false n e _ _ _ _ _ _ h hne this

omit [Inhabited I] in
theorem failAfter_answer {n : Nat} {e e' : E} {l : List I} {x : I}
    (h : (Policy.failAfter n e : Policy I F E).answer l x = some e') : e' = e ∧ n ≤ l.length := by
  rw [TestConsumer.answer_failAfter] at h
  split at h
  · cases h
  · cases h; exact ⟨rfl, by omega⟩

omit [Inhabited I] in
theorem failAfter_close {n : Nat} {e e' : E} {l : List I} {f : F}
    (h : (Policy.failAfter n e : Policy I F E).refuseClose l f = some e') : e' = e ∧ n ≤ l.length := by
  simp only [Policy.failAfter] at h
  split at h
  · cases h
  · cases h; exact ⟨rfl, by omega⟩

omit [Inhabited I] in
theorem Con.same_of [DecidableEq I] [DecidableEq F] [DecidableEq E] {c d : Con I F E} {l : List I} {f : Option F}
    (h : c.inner.Seen l f) (h' : d.inner.Seen l f) (he : c.inner.error = d.inner.error) : c.assertSame d = ok () := by
  have h1 : c.inner.fin = f := h.2.1
  have h2 : d.inner.fin = f := h'.2.1
  simp [Con.assertSame, Con.same, h.1, h'.1, h1, h2, he]

omit [Inhabited I] in
/-- The states in which an item-wise pipe and a bulk pipe leave the test doubles are equal, as far as `==` can see. -/
theorem sides_agree [DecidableEq I] [DecidableEq F] [DecidableEq E] {items xs : List I} {last : Except E F} {n : Nat} {e : E}
    {fin : Option F} {res : Except (PipeError E E) Unit} {exact : Prop} {s₁ s₂ : Pro I F E} {t₁ t₂ : Con I F E}
    (hres : PipeResult (Script.ofList items last) (Policy.failAfter n e) [] xs fin res)
    (hD : CSeen e t₁ ([] ++ xs) fin) (hD₂ : CSeen e t₂ ([] ++ xs) fin)
    (hend : PipeEnd (POf items last) (PDone items) (COpen n e) CFailed (Script.ofList items last) [] xs exact s₁ t₁ res)
    (hend₂ : ItemPipeEnd (POf items last) (PDone items) (COpen n e) CFailed (Script.ofList items last) [] xs s₂ t₂ res) :
    t₁.assertSame t₂ = ok () ∧ s₁.same s₂ = true := by
  have hp : s₁.same s₂ = true := by
    rcases hc : Script.ofList items last xs.length with e | x | f
    · exact (hend.done (by simp [hc])).same (hend₂.done (by simp [hc]))
    · obtain ⟨_, _, _, h1, _⟩ := hend.going x hc
      obtain ⟨_, h2⟩ := hend₂.going x hc
      exact h1.same h2
    · exact (hend.done (by simp [hc])).same (hend₂.done (by simp [hc]))
  refine ⟨Con.same_of hD.1 hD₂.1 ?_, hp⟩
  rcases res with ⟨e' | e'⟩ | u
  · obtain ⟨_, h1⟩ := hend.stillOpen e' rfl
    obtain ⟨_, h2⟩ := hend₂.stillOpen e' rfl
    rw [h1.error, h2.error]
  · have h1 : t₁.inner.error = none := hend.failed e' rfl
    have h2 : t₂.inner.error = none := hend₂.failed e' rfl
    rw [h1, h2]
  · cases hres
    rw [hD.2 (by simp), hD₂.2 (by simp)]

/-- The control of bulk_consume.rs consumes item by item what the subject consumed in bulk. -/
theorem consumeControl_spec {items : List I} {n : Nat} {e : E} : ∀ (k : Nat) {t : Con I F E} {m : Nat} {sl : List I},
    COpen n e t (items.take m) sl → m + k ≤ items.length → (Policy.failAfter n e : Policy I F E).Accepts (items.take m) ((items.drop m).take k) →
    ∃ t' sl', consumeControl items t m k = ok (t', m + k) ∧ COpen n e t' (items.take (m + k)) sl' := by
  intro k
  induction k with
  | zero => intro t m sl h _ _; exact ⟨t, sl, rfl, h⟩
  | succ k ih =>
    intro t m sl h hle hacc
    have hlt : m < items.length := by omega
    rw [List.drop_eq_getElem_cons hlt, List.take_succ_cons, Policy.accepts_cons] at hacc
    obtain ⟨t₁, h1, sl₁, h2⟩ := (con_law n e).base.consume_ok t _ _ ⟨sl, h⟩ hacc.1
    rw [List.take_append_getElem hlt] at h2 hacc
    obtain ⟨t₂, sl₂, h3, h4⟩ := ih (m := m + 1) h2 (by omega) hacc.2
    refine ⟨t₂, sl₂, ?_, ?_⟩
    · simp [consumeControl, index_of_lt hlt, h1, isOk, h3, Nat.add_assoc, Nat.add_comm 1 k]
    · rw [show m + (k + 1) = m + 1 + k by omega]; exact h4

omit [Inhabited I] in
/-- The control of bulk_produce.rs produces item by item what the subject produced in bulk. -/
theorem produceControl_spec {items : List I} {last : Except E F} : ∀ (k : Nat) {s : Pro I F E} {m r : Nat} (acc : List I),
    POf items last s ((Script.ofList items last).drop m) r → m + k ≤ items.length →
    ∃ s' r', produceControl s acc m k = ok (s', acc ++ (items.drop m).take k, m + k) ∧
      POf items last s' ((Script.ofList items last).drop (m + k)) r' := by
  intro k
  induction k with
  | zero => intro s m r acc h _; exact ⟨s, r, by simp [produceControl], h⟩
  | succ k ih =>
    intro s m r acc h hle
    have hlt : m < items.length := by omega
    have h0 : (Script.ofList items last).drop m 0 = .ok (.inl items[m]) := by
      simpa [Script.drop] using Script.ofList_startsWith items last m _ (List.getElem?_eq_getElem hlt)
    obtain ⟨s₁, h1, h2⟩ := (pro_law items last).base.produce s _ ⟨r, h⟩
    obtain ⟨r₁, h2⟩ := h2 _ h0
    rw [Script.drop_drop] at h2
    obtain ⟨s₂, r₂, h3, h4⟩ := ih (acc ++ [items[m]]) h2 (by omega)
    refine ⟨s₂, r₂, ?_, ?_⟩
    · rw [h0] at h1
      have h1' : (pro I F E).produce s = ok (s₁, .ok (.inl items[m])) := h1
      have hd : (items.drop m).take (k + 1) = items[m] :: (items.drop (m + 1)).take k := by
        rw [List.drop_eq_getElem_cons hlt, List.take_succ_cons]
      simp [produceControl, h1', unwrapResult, unwrapLeft, h3, hd, Nat.add_assoc, Nat.add_comm 1 k]
    · rw [show m + (k + 1) = m + 1 + k by omega]; exact h4

end Fuzz

end Verif
