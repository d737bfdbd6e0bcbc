import Verif.Lemmas.Fuzz
import Verif.Props.Scramblers
import Verif.Props.Slices

/-!
# Helper lemmas about scramblers, for the fuzz targets
-/

namespace Verif

open Outcome

namespace Fuzz

variable {σ I F E : Type}

theorem scrambledPro_eq (debug : Bool) (P : BulkProducer σ I F E) :
    scrambledPro debug P = unusedInvariantBulkProducer (producerScrambler debug P) := by
  simp [scrambledPro, publicProducer]

theorem scrambledCon_eq (debug : Bool) (C : BulkConsumer σ I F E) :
    scrambledCon debug C = unusedInvariantBulkConsumer (consumerScrambler debug C) := by
  simp [scrambledCon, publicConsumer]

/-- `produce` of a scrambler of the fuzz targets. At the end of the sequence, the wrapped producer is at its end, too. -/
theorem scrambled_produce (debug : Bool) {P : BulkProducer σ I F E} {R : σ → Script I F E → Nat → Prop} {Done : σ → Prop}
    (hP : BulkPlaysLaw P R) (hD : EndsIn P R Done) {cap : Nat} {s : InvariantSt (ProducerScrambler σ I F E)} {c : Script I F E}
    {n : Nat} (hs : s.inner.Plays R Done cap c n) :
    ∃ s', (scrambledPro debug P).produce s = ok (s', c 0) ∧
      ((∃ x m, c 0 = .ok (.inl x) ∧ s'.inner.Plays R Done cap (c.drop 1) m) ∨ ((∀ x, c 0 ≠ .ok (.inl x)) ∧ Done s'.inner.inner)) := by
  rw [scrambledPro_eq]
  obtain ⟨s₁, h1, h2⟩ := ProducerScrambler.plays_produce debug hP hD (cap := cap) s.inner c ⟨n, hs⟩
  refine ⟨{ s with inner := s₁ }, by simp [unusedInvariantBulkProducer, h1], ?_⟩
  rcases Classical.em (∃ x, c 0 = .ok (.inl x)) with ⟨x, hx⟩ | hx
  · obtain ⟨m, hm⟩ := h2 x hx
    exact .inl ⟨x, m, hx, hm⟩
  · refine .inr ⟨fun x h => hx ⟨x, h⟩, ?_⟩
    rcases ProducerScrambler.fill debug hP hD hs with ⟨s', l, hf, hne, hok, hrest⟩ | ⟨s', r, hf, hr, _, hd⟩
    · obtain ⟨y, l, rfl⟩ := List.exists_cons_of_ne_nil hne
      exact absurd ⟨y, (Script.startsWith_cons.mp hrest.1).1⟩ hx
    · simp [producerScrambler, ProducerScrambler.produce, hf] at h1
      rw [← h1.1]; exact hd

theorem scramble_plays [Inhabited I] {R : σ → Script I F E → Nat → Prop} {Done : σ → Prop} {s : σ} {c : Script I F E} {n : Nat}
    (hs : R s c n) (ops : List ScrambleProduce) : (scramblePro s ops).inner.Plays R Done 2048 c 0 :=
  ⟨[], ProducerScrambler.ok_new (by decide), by simp, .inl ⟨rfl, n, by rw [List.length_nil, Script.drop_zero]; exact hs⟩⟩

theorem scrambled_plays [Inhabited I] (debug : Bool) {P : BulkProducer σ I F E} {s : σ} {c : Script I F E}
    (h : BulkPlays P s c) (ops : List ScrambleProduce) : Plays (scrambledPro debug P).toProducer (scramblePro s ops) c := by
  obtain ⟨R, hR, n, hs⟩ := h
  refine ⟨fun s c => ∃ n, s.inner.Plays R (fun _ => True) 2048 c n, ⟨?_⟩, 0, scramble_plays hs ops⟩
  rintro s c ⟨n, hs⟩
  obtain ⟨s', h1, ⟨x, m, _, h2⟩ | ⟨h2, _⟩⟩ := scrambled_produce debug hR (.trivial P R) hs
  · exact ⟨s', h1, fun _ _ => ⟨m, h2⟩⟩
  · exact ⟨s', h1, fun x hx => absurd hx (h2 x)⟩

/-! ## Scrambled test consumers -/

theorem failAfter_accepted {n : Nat} {e : E} {l : List I} (h : (Policy.failAfter n e : Policy I F E).AcceptedSince [] l) :
    l.length ≤ n := by
  obtain ⟨xs, h0, hx⟩ := h
  rw [List.nil_append] at h0
  subst h0
  rcases Nat.lt_or_ge n l.length with hlt | hge
  · have := hx n _ (List.getElem?_eq_getElem hlt)
    rw [TestConsumer.answer_failAfter, if_neg (by rw [List.length_append, List.length_take, List.length_nil]; omega)] at this
    cases this
  · exact hge

theorem failAfter_during {n : Nat} {e e' : E} {l d : List I} (h : (Policy.failAfter n e : Policy I F E).faults.during l d e') :
    e' = e ∧ n ≤ d.length ∧ d <+: l := by
  obtain ⟨hp, ⟨x, _, h⟩ | h⟩ := h
  · exact ⟨(failAfter_answer h).1, (failAfter_answer h).2, hp⟩
  · simp only [Policy.failAfter] at h
    split at h
    · cases h
    · cases h; exact ⟨rfl, by omega, hp⟩

theorem failAfter_closing {n : Nat} {e e' : E} {l d : List I} {f : F}
    (h : (Policy.failAfter n e : Policy I F E).faults.closing l f d e') : e' = e ∧ n ≤ d.length ∧ d <+: l := by
  obtain ⟨hp, h | h | ⟨rfl, h⟩⟩ := h
  · exact failAfter_during ⟨hp, .inl h⟩
  · exact failAfter_during ⟨hp, .inr h⟩
  · exact ⟨(failAfter_close h).1, (failAfter_close h).2, hp⟩

variable [Inhabited I]

def SInner (n : Nat) (e : E) (t : Con I F E) (l sl : List I) : Prop :=
  COpen n e t l sl ∧ (Policy.failAfter n e : Policy I F E).AcceptedSince [] l

/-- A scrambled test consumer that has been passed `l` and has not failed. -/
def SOpen (n : Nat) (e : E) (s : InvariantSt (ConsumerScrambler (Con I F E) I)) (l : List I) : Prop :=
  ∃ slots, s.inner.Defers (SInner n e) 2048 l slots

/-- A scrambled test consumer that has failed: the test consumer has accepted the first `n` items. -/
def SFailed (n : Nat) (s : InvariantSt (ConsumerScrambler (Con I F E) I)) (l : List I) : Prop :=
  n ≤ l.length ∧ s.inner.inner.inner.Seen (l.take n) none ∧ s.inner.inner.inner.error = none

def SSeen (n : Nat) (e : E) (s : Con I F E) (l : List I) (f : Option F) : Prop :=
  CSeen e s l f ∧ (Policy.failAfter n e : Policy I F E).AcceptedSince [] l ∧
    ∀ x, f = some x → (Policy.failAfter n e : Policy I F E).refuseClose l x = none

theorem s_law (n : Nat) (e : E) :
    BulkDefersLaw (con I F E) (SSeen n e) (Policy.failAfter n e : Policy I F E).faults (SInner n e) :=
  ((con_law n e).accepted []).toDefers

theorem s_new (e : E) (n : Nat) (sizes : List NonZero) (pattern : List Bool) (ops : List ScrambleConsume) :
    SOpen n e (scrambleCon (.arbitrary e n sizes pattern : Con I F E) ops) [] :=
  ⟨[], [], [], by simp, ConsumerScrambler.ok_new (by decide), [], con_new e n sizes pattern, .refl _ _⟩

omit [Inhabited I] in
theorem s_failed {n : Nat} {e : E} {s : InvariantSt (ConsumerScrambler (Con I F E) I)} {l d : List I} (hle : n ≤ d.length)
    (hp : d <+: l) (hD : SSeen n e s.inner.inner d none) (hf : CFailed s.inner.inner) : SFailed n s l := by
  have hd := failAfter_accepted hD.2.1
  refine ⟨Nat.le_trans hle hp.length_le, ?_, hf⟩
  have : d = l.take n := by
    rw [List.prefix_iff_eq_take.mp hp]; congr 1; omega
  rw [← this]; exact hD.1.1

theorem s_consume (debug : Bool) {n : Nat} {e : E} {s : InvariantSt (ConsumerScrambler (Con I F E) I)} {l : List I}
    (hs : SOpen n e s l) (hdebug : debug = true → l.length < 2048) (x : I) :
    ∃ s', ((scrambledCon debug (con I F E)).consume s x = ok (s', .ok ()) ∧ SOpen n e s' (l ++ [x])) ∨
      ((scrambledCon debug (con I F E)).consume s x = ok (s', .error e) ∧ SFailed n s' l) := by
  rw [scrambledCon_eq]
  have hb : debug = true → s.inner.buffer.len < 2048 := by
    intro h
    obtain ⟨slots, d, b, rfl, hok, _⟩ := hs
    have := hdebug h
    rw [hok.len]
    rw [List.length_append] at this
    omega
  obtain ⟨s₁, ⟨h1, h2⟩ | ⟨e', d, h1, h2, h3⟩⟩ :=
    ConsumerScrambler.defers_consume debug (Policy.regular_faults _) (s_law n e) s.inner l x hs hb
  · exact ⟨{ s with inner := s₁ }, .inl ⟨by simp [unusedInvariantBulkConsumer, h1], h2⟩⟩
  · obtain ⟨slots, hs⟩ := hs
    obtain ⟨d', h4, h5⟩ := ConsumerScrambler.consume_exact (Policy.regular_faults _) (s_law n e) hs h1
    obtain ⟨rfl, h6, h7⟩ := failAfter_during h4
    exact ⟨{ s with inner := s₁ }, .inr ⟨by simp [unusedInvariantBulkConsumer, h1],
      s_failed h6 h7 h5 (ConsumerScrambler.consume_fails con_always_fails h1)⟩⟩

theorem s_flush (debug : Bool) {n : Nat} {e : E} {s : InvariantSt (ConsumerScrambler (Con I F E) I)} {l : List I}
    (hs : SOpen n e s l) :
    ∃ s', ((scrambledCon debug (con I F E)).flush s = ok (s', .ok ()) ∧ SOpen n e s' l ∧ l.length ≤ n) ∨
      ((scrambledCon debug (con I F E)).flush s = ok (s', .error e) ∧ SFailed n s' l) := by
  rw [scrambledCon_eq]
  obtain ⟨s₁, ⟨h1, h2, h3⟩ | ⟨e', d, h1, h2, h3⟩⟩ :=
    ConsumerScrambler.defers_flush debug (Policy.regular_faults _) (s_law n e) s.inner l hs
  · exact ⟨{ s with inner := s₁ }, .inl ⟨by simp [unusedInvariantBulkConsumer, h1], h2, failAfter_accepted h3.2.1⟩⟩
  · obtain ⟨rfl, h6, h7⟩ := failAfter_during h2
    exact ⟨{ s with inner := s₁ }, .inr ⟨by simp [unusedInvariantBulkConsumer, h1],
      s_failed h6 h7 h3 (ConsumerScrambler.flush_fails con_always_fails h1)⟩⟩

theorem s_close (debug : Bool) {n : Nat} {e : E} {s : InvariantSt (ConsumerScrambler (Con I F E) I)} {l : List I}
    (hs : SOpen n e s l) (f : F) :
    ∃ s', ((scrambledCon debug (con I F E)).close s f = ok (s', .ok ()) ∧ CSeen e s'.inner.inner l (some f) ∧ l.length < n) ∨
      ((scrambledCon debug (con I F E)).close s f = ok (s', .error e) ∧ SFailed n s' l) := by
  rw [scrambledCon_eq]
  obtain ⟨s₁, ⟨h1, h2⟩ | ⟨e', d, h1, h2, h3⟩⟩ :=
    ConsumerScrambler.defers_close debug (Policy.regular_faults _) (s_law n e) s.inner l f hs
  · refine ⟨{ s with inner := s₁ }, .inl ⟨by simp [unusedInvariantBulkConsumer, h1], h2.1, ?_⟩⟩
    have := h2.2.2 f rfl
    simp only [Policy.failAfter] at this
    split at this
    · assumption
    · cases this
  · obtain ⟨rfl, h6, h7⟩ := failAfter_closing h2
    exact ⟨{ s with inner := s₁ }, .inr ⟨by simp [unusedInvariantBulkConsumer, h1],
      s_failed h6 h7 h3 (ConsumerScrambler.close_fails con_always_fails h1)⟩⟩

/-- If an operation of the scrambler fails, then the buffer held an item that the test consumer refuses. -/
theorem perform_error {n : Nat} {e e' : E} {debug : Bool} {s s' : ConsumerScrambler (Con I F E) I} {d b : List I}
    (hok : s.Ok 2048 b []) (hb : b ≠ []) (hR : ∃ sl, COpen n e s.inner d sl)
    (h : s.performOperation debug (con I F E) = ok (s', .error e')) : n < (d ++ b).length := by
  have hbl : 0 < b.length := List.length_pos_iff.mpr hb
  rw [List.length_append]
  obtain ⟨sl, hR⟩ := hR
  rcases Nat.lt_or_ge n (d.length + b.length) with hgt | hle
  · exact hgt
  exfalso
  have hlt : d.length < n := by omega
  simp only [ConsumerScrambler.performOperation, debugAssert_of (debug := debug) (b := decide (s.buffer.len > 0))
    (by rw [hok.len]; simpa using hbl), index_of_lt hok.index, bind_eq, bind_ok] at h
  cases hcase : s.operations[s.index]'(hok.index) with
  | consume =>
    obtain ⟨x, b, rfl⟩ := List.exists_cons_of_ne_nil hb
    obtain ⟨q, hq1, hq2⟩ := hok.holds.dequeue
    obtain ⟨c', h1, -⟩ := (con_law n e).base.consume_ok _ _ x ⟨sl, hR⟩ (by rw [TestConsumer.answer_failAfter, if_pos hlt])
    have h1' : (con I F E).consume s.inner x = ok (c', .ok ()) := h1
    simp [hcase, hq1, unwrap, h1', bind_eq_ok] at h
  | flush =>
    obtain ⟨c', ⟨h1, -⟩ | ⟨e'', h1, -⟩⟩ := (con_law n e).base.flush _ _ ⟨sl, hR⟩
    · simp [hcase, h1, bind_eq_ok] at h
    · simp [Policy.failAfter, hlt] at h1
  | consumeSlots m =>
    obtain ⟨c', xs, hne, hex, hR1⟩ := (con_law n e).expose_ok _ _ _ hR (by simp [Policy.failAfter, hlt])
    have hxs : 0 < xs.length := List.length_pos_iff.mpr hne
    have hsl : slice xs 0 (min xs.length m) = ok (xs.take (min xs.length m)) := by
      rw [slice_of_le (Nat.zero_le _) (by omega)]; simp
    have hlt' : (xs.take (min xs.length m)).length = min xs.length m := by simp
    obtain ⟨q, k, hq1, hq2, hq3, -⟩ := (Fixed.fifoLaw I 2048).bulkDequeue_call hok.holds (xs.take (min xs.length m))
    generalize hwr : b.take k ++ (xs.take (min xs.length m)).drop k = written at *
    have hwl : written.length ≤ xs.length := by
      rw [← hwr]
      simp only [List.length_append, List.length_drop, hlt', List.length_take]; omega
    have hwk' : k ≤ written.length := by
      rw [← hwr]; simp only [List.length_append, List.length_take]; omega
    have hW := (con_law n e).write _ _ _ written hR1 hwl
    have hW2 : k ≤ (written ++ xs.drop written.length).length := by simp only [List.length_append]; omega
    obtain ⟨c₂, h1, -⟩ := (con_law n e).consumeSlots_ok _ _ _ k hW (by
      intro h0
      have := congrArg List.length h0
      simp only [List.length_append, List.length_drop, List.length_nil] at this
      omega) hW2 (by
      intro i x hx
      have hi := (List.getElem?_eq_some_iff.mp hx).1
      rw [List.length_take] at hi
      rw [TestConsumer.answer_failAfter, if_pos]
      rw [List.length_append, List.length_take, List.length_take]
      omega)
    have hq1' : (Fixed.queue I).bulkDequeue s.buffer (xs.take (min xs.length m)) = _ := hq1
    simp [hcase, hex, hsl, hq1', h1, bind_eq_ok] at h

/-- Emptying the buffer of the scrambler fails only if it was passed more than the test consumer accepts. -/
theorem drain_error {n : Nat} {e e' : E} {debug : Bool} {s s' : ConsumerScrambler (Con I F E) I} {l slots : List I}
    (hs : s.Defers (SInner n e) 2048 l slots) (h : s.drain debug (con I F E) = ok (s', .error e')) : n < l.length := by
  obtain ⟨d, b, rfl, hok, hR⟩ := hs
  refine loop_keeps (body := ConsumerScrambler.drainBody debug (con I F E))
    (fun s => ∃ d' b', d ++ b = d' ++ b' ∧ s.Ok 2048 b' [] ∧ ∃ sl, SInner n e s.inner d' sl)
    (fun r => ∀ e, r.2 = .error e → n < (d ++ b).length) ?_ ?_ (s := s) ⟨d, b, rfl, hok.hide, hR⟩ h e' rfl
  · rintro s s₁ ⟨d', b', heq, hok, hR⟩ hbody
    rw [heq]
    simp only [ConsumerScrambler.drainBody] at hbody
    split at hbody
    · rename_i hlen
      have hb : b' ≠ [] := by rintro rfl; simp [hok.len] at hlen
      rcases ConsumerScrambler.perform debug (Policy.regular_faults _) (s_law n e) hok hb hR with
        ⟨s₂, k, hp, hok', hR', -⟩ | ⟨s₂, e, d'', hp, h1, h2⟩
      · simp [hp] at hbody
        subst hbody
        exact ⟨d' ++ b'.take k, b'.drop k, by simp, hok', hR'⟩
      · simp [hp] at hbody
    · cases hbody
  · rintro s ⟨s₁, r⟩ ⟨d', b', heq, hok, sl, hR⟩ hbody e₁ rfl
    rw [heq]
    simp only [ConsumerScrambler.drainBody] at hbody
    split at hbody
    · rename_i hlen
      have hb : b' ≠ [] := by rintro rfl; simp [hok.len] at hlen
      simp only [bind_eq, bind_eq_ok] at hbody
      obtain ⟨⟨s₂, r₂⟩, hp, hbody⟩ := hbody
      rcases r₂ with e₂ | u
      · exact perform_error hok hb ⟨sl, hR.1⟩ hp
      · cases hbody
    · cases hbody

/-- With debug assertions, an item for which there is no room: the scrambler panics if the test consumer accepts all items before
it, and fails otherwise. -/
theorem s_consume_full {n : Nat} {e : E} {s : InvariantSt (ConsumerScrambler (Con I F E) I)} {l slots : List I}
    (hs : s.inner.Defers (SInner n e) 2048 l slots) (hfull : s.inner.buffer.len = 2048) (x : I) :
    (l.length ≤ n ∧ (scrambledCon true (con I F E)).consume s x = .panic) ∨
    (n < l.length ∧ ∃ s', (scrambledCon true (con I F E)).consume s x = ok (s', .error e) ∧ SFailed n s' l) := by
  rw [scrambledCon_eq]
  have hs0 := hs
  obtain ⟨d, b, rfl, hok, hR⟩ := hs0
  rw [hok.len] at hfull
  have h1 := (Fixed.fifoLaw I 2048).enqueue_full _ _ _ _ x hok.holds hfull
  have h1' : s.inner.buffer.enqueue x = ok (s.inner.buffer, some x) := h1
  rcases ConsumerScrambler.drain_loop true (Policy.regular_faults _) (s_law n e) hs with
    ⟨s', h2, hok', sl, hR'⟩ | ⟨s', e', d', h2, h3, h4⟩
  · obtain ⟨q, h3, h4⟩ := (Fixed.fifoLaw I 2048).enqueue _ _ _ _ x hok'.holds hok'.cap_pos
    have h3' : s'.buffer.enqueue x = ok (q, none) := h3
    refine .inl ⟨failAfter_accepted hR'.2, ?_⟩
    simp [unusedInvariantBulkConsumer, consumerScrambler, ConsumerScrambler.consume, h1', h2, h3', debugAssert, Outcome.assert]
  · obtain ⟨rfl, h6, h7⟩ := failAfter_during h3
    have hc : (consumerScrambler true (con I F E)).consume s.inner x = ok (s', .error e') := by
      simp [consumerScrambler, ConsumerScrambler.consume, h1', h2]
    exact .inr ⟨drain_error hs h2, { s with inner := s' }, by simp [unusedInvariantBulkConsumer, hc],
      s_failed h6 h7 h4 (ConsumerScrambler.consume_fails con_always_fails hc)⟩

omit [Inhabited I] in
theorem SOpen.error {n : Nat} {e : E} {s : InvariantSt (ConsumerScrambler (Con I F E) I)} {l : List I} (h : SOpen n e s l) :
    s.inner.inner.inner.error = some e := by
  obtain ⟨_, _, _, _, _, _, h, _⟩ := h
  exact h.error

omit [Inhabited I] in
theorem Con.same_self [DecidableEq I] [DecidableEq F] [DecidableEq E] {c : Con I F E} {l : List I} {f : Option F}
    (h : c.inner.Seen l f) : c.assertSame c = ok () := Con.same_of h h rfl

/-- Everything that was passed to the scrambler is still in its buffer. -/
def SBuffered {σ : Type} (S : σ → List I → List I → Prop) (s : InvariantSt (ConsumerScrambler σ I)) (l : List I) : Prop :=
  s.inner.Ok 2048 l [] ∧ ∃ sl, S s.inner.inner [] sl

theorem sBuffered_new {σ : Type} {S : σ → List I → List I → Prop} {t : σ} {sl : List I} (h : S t [] sl) (ops : List ScrambleConsume) :
    SBuffered S (scrambleCon t ops) [] := ⟨ConsumerScrambler.ok_new (by decide), sl, h⟩

omit [Inhabited I] in
theorem SBuffered.consume {σ : Type} {C : BulkConsumer σ I F E} {S : σ → List I → List I → Prop} (debug : Bool)
    {s : InvariantSt (ConsumerScrambler σ I)} {l : List I} (h : SBuffered S s l) (hl : l.length < 2048) (x : I) :
    ∃ s', (scrambledCon debug C).consume s x = ok (s', .ok ()) ∧ SBuffered S s' (l ++ [x]) := by
  obtain ⟨hok, hS⟩ := h
  obtain ⟨q, h1, h2⟩ := (Fixed.fifoLaw I 2048).enqueue _ _ _ _ x hok.holds hl
  have h1' : s.inner.buffer.enqueue x = ok (q, none) := h1
  refine ⟨{ s with inner := { s.inner with buffer := q } }, ?_, ⟨hok.cap_pos, h2, hok.index, hok.progress⟩, hS⟩
  rw [scrambledCon_eq]
  simp [unusedInvariantBulkConsumer, consumerScrambler, ConsumerScrambler.consume, h1']

/-- As `s_consume`, with debug assertions also if the buffer is full of items of which the test consumer will refuse one. -/
theorem s_consume' (debug : Bool) {n : Nat} {e : E} {s : InvariantSt (ConsumerScrambler (Con I F E) I)} {l : List I}
    (hs : SOpen n e s l) (hdebug : debug = true → l.length < 2048 ∨ n < 2048) (hbuf : debug = true → SBuffered (SInner n e) s l)
    (x : I) :
    ∃ s', ((scrambledCon debug (con I F E)).consume s x = ok (s', .ok ()) ∧ SOpen n e s' (l ++ [x]) ∧
        (debug = true → SBuffered (SInner n e) s' (l ++ [x]))) ∨
      ((scrambledCon debug (con I F E)).consume s x = ok (s', .error e) ∧ SFailed n s' l) := by
  cases debug with
  | false =>
    obtain ⟨s', ⟨h1, h2⟩ | h⟩ := s_consume false hs (by simp) x
    · exact ⟨s', .inl ⟨h1, h2, by simp⟩⟩
    · exact ⟨s', .inr h⟩
  | true =>
    have hb := hbuf rfl
    rcases Nat.lt_or_ge l.length 2048 with hlt | hge
    · obtain ⟨s', h1, h2⟩ := hb.consume (C := con I F E) true hlt x
      exact ⟨s', .inl ⟨h1, ⟨[], [], l ++ [x], rfl, h2⟩, fun _ => h2⟩⟩
    · have hle := hb.1.holds.bound
      rcases s_consume_full ⟨[], l, rfl, hb⟩ (by rw [hb.1.len]; omega) x with ⟨h, _⟩ | ⟨_, s', h⟩
      · have := hdebug rfl; rw [List.nil_append] at h; omega
      · exact ⟨s', .inr h⟩

omit [Inhabited I] in
/-- With debug assertions, an item for which there is no room makes the scrambler panic, unless the wrapped consumer fails. -/
theorem SBuffered.panic {σ : Type} {C : BulkConsumer σ I F E} {D : σ → List I → Option F → Prop} {X : Faults I F E}
    {S : σ → List I → List I → Prop} (hX : X.Regular) (hC : BulkDefersLaw C D X S) {s : InvariantSt (ConsumerScrambler σ I)}
    {l : List I} (h : SBuffered S s l) (hl : l.length = 2048) (hno : ∀ d e, ¬ X.during l d e) (x : I) :
    (scrambledCon true C).consume s x = .panic := by
  have hs : s.inner.Defers S 2048 l [] := ⟨[], l, by simp, h.1, h.2⟩
  rw [scrambledCon_eq]
  rcases ConsumerScrambler.debug_consume_panic hX hC hs (by rw [h.1.len, hl]) x with h1 | ⟨s', e, h1⟩
  · simp [unusedInvariantBulkConsumer, h1]
  · obtain ⟨d, h2, _⟩ := ConsumerScrambler.consume_exact hX hC hs h1
    exact absurd h2 (hno d e)

end Fuzz

end Verif
