import Verif.Model.Scramblers
import Verif.Lemmas.Loop
import Verif.Lemmas.Spec
import Verif.Lemmas.QueueRing
import Verif.Lemmas.ProducerScrambler

/-!
# The consumer `BulkScrambler` is lawful
-/

namespace Verif

open Outcome

section

variable {σ I F E : Type}

theorem ScrambleConsume.makeProgress_iff (ops : List ScrambleConsume) :
    makeProgress ops = true ↔ ∃ op ∈ ops, op ≠ .flush := by
  induction ops with
  | nil => simp [makeProgress]
  | cons op ops ih => by_cases h : op = .flush <;> simp [makeProgress, h, ih]

namespace ConsumerScrambler

/-- The buffer contains `l`, the exposed slots contain `slots`; the operations are as set up by the constructor. -/
structure Ok (cap : Nat) (s : ConsumerScrambler σ I) (l slots : List I) : Prop where
  cap_pos : 0 < cap
  holds : s.buffer.Holds cap l slots 0
  index : s.index < s.operations.length
  progress : ∃ op ∈ s.operations, op ≠ .flush

theorem Ok.len {cap : Nat} {s : ConsumerScrambler σ I} {l slots : List I} (h : s.Ok cap l slots) :
    s.buffer.len = l.length := h.holds.amount

theorem Ok.capacity {cap : Nat} {s : ConsumerScrambler σ I} {l slots : List I} (h : s.Ok cap l slots) :
    s.buffer.capacity = cap := h.holds.length

theorem Ok.advance {cap : Nat} {s : ConsumerScrambler σ I} {l slots : List I} (h : s.Ok cap l slots) :
    s.advance = ok { s with index := (s.index + 1) % s.operations.length } ∧
      Ok cap { s with index := (s.index + 1) % s.operations.length } l slots := by
  have hpos : 0 < s.operations.length := Nat.lt_of_le_of_lt (Nat.zero_le _) h.index
  refine ⟨by simp [ConsumerScrambler.advance, mod_of_pos hpos], h.cap_pos, h.holds, Nat.mod_lt _ hpos, h.progress⟩

theorem Ok.hide {cap : Nat} {s : ConsumerScrambler σ I} {l slots : List I} (h : s.Ok cap l slots) : s.Ok cap l [] :=
  ⟨h.cap_pos, ((Fixed.fifoLaw I cap).weaken _ _ _ _ 0 h.holds (Nat.le_refl _)).1, h.index, h.progress⟩

theorem ok_new {inner : σ} {ops : List ScrambleConsume} {cap : Nat} {tmp : Nat → I} (hcap : 0 < cap) :
    Ok cap (new inner ops cap tmp) [] [] := by
  refine ⟨hcap, Fixed.holds_new cap tmp, ?_, ?_⟩
  · simp only [new]
    split
    · rename_i h
      obtain ⟨op, hop, _⟩ := (ScrambleConsume.makeProgress_iff ops).mp h
      exact List.length_pos_of_mem hop
    · simp
  · simp only [new]
    split
    · rename_i h; exact (ScrambleConsume.makeProgress_iff ops).mp h
    · exact ⟨.consume, by simp, by simp⟩

variable {C : BulkConsumer σ I F E} {D : σ → List I → Option F → Prop} {X : Faults I F E}
  {R : σ → List I → List I → Prop} {cap : Nat}

/-- `l` was passed to the scrambler; `d` of it was passed on, the rest is in the buffer. -/
def Defers (R : σ → List I → List I → Prop) (cap : Nat) (s : ConsumerScrambler σ I) (l slots : List I) : Prop :=
  ∃ d b, l = d ++ b ∧ s.Ok cap b slots ∧ ∃ sl, R s.inner d sl

/-- One operation on the wrapped consumer. -/
theorem perform (debug : Bool) (hX : X.Regular) (hC : BulkDefersLaw C D X R) {s : ConsumerScrambler σ I} {d b slots : List I}
    (hs : s.Ok cap b slots) (hb : b ≠ []) (hR : ∃ sl, R s.inner d sl) :
    (∃ s' k, s.performOperation debug C = ok (s', .ok ()) ∧ s'.Ok cap (b.drop k) [] ∧
      (∃ sl, R s'.inner (d ++ b.take k) sl) ∧
      (0 < k ∨ (s.operations[s.index]? = some .flush ∧ s'.operations = s.operations ∧
        s'.index = (s.index + 1) % s.operations.length))) ∨
    (∃ s' e d', s.performOperation debug C = ok (s', .error e) ∧ X.during (d ++ b) d' e ∧ D s'.inner d' none) := by
  have hbl : 0 < b.length := List.length_pos_iff.mpr hb
  have hdb : debugAssert debug (decide (s.buffer.len > 0)) = ok () :=
    debugAssert_of (by rw [hs.len]; simpa using hbl)
  simp only [performOperation, hdb, index_of_lt hs.index, bind_eq, bind_ok]
  have hop : s.operations[s.index]? = some (s.operations[s.index]'hs.index) := List.getElem?_eq_getElem hs.index
  have hs := hs.hide
  obtain ⟨sl, hR⟩ := hR
  cases hcase : s.operations[s.index]'(hs.index) with
  | consume =>
    obtain ⟨x, b, rfl⟩ := List.exists_cons_of_ne_nil hb
    obtain ⟨q, hq1, hq2⟩ := hs.holds.dequeue
    obtain ⟨inner, ⟨h1, h2⟩ | ⟨e, d', h1, h2, h3⟩⟩ := hC.base.consume _ _ x ⟨sl, hR⟩
    · have hok : Ok cap { s with inner := inner, buffer := q } b [] := ⟨hs.cap_pos, hq2, hs.index, hs.progress⟩
      obtain ⟨ha, ha'⟩ := hok.advance
      refine .inl ⟨{ s with inner := inner, buffer := q, index := (s.index + 1) % s.operations.length }, 1,
        ?_, by simpa using ha', by simpa using h2, .inl (by omega)⟩
      simp only [hq1, bind_ok, unwrap, h1, ha, pure_eq]
    · refine .inr ⟨{ s with inner := inner, buffer := q }, e, d', ?_, hX.mono _ _ _ _ h2 ⟨b, by simp⟩, h3⟩
      simp only [hq1, bind_ok, unwrap, h1, pure_eq]
  | flush =>
    obtain ⟨inner, ⟨h1, h2, -⟩ | ⟨e, d', h1, h2, h3⟩⟩ := hC.base.flush _ _ ⟨sl, hR⟩
    · have hok : Ok cap { s with inner := inner } b [] := ⟨hs.cap_pos, hs.holds, hs.index, hs.progress⟩
      obtain ⟨ha, ha'⟩ := hok.advance
      refine .inl ⟨{ s with inner := inner, index := (s.index + 1) % s.operations.length }, 0,
        by simp only [h1, ha, bind_ok, pure_eq], by simpa using ha', by simpa using h2,
        .inr ⟨by rw [hop, hcase], rfl, rfl⟩⟩
    · exact .inr ⟨{ s with inner := inner }, e, d', by simp only [h1, bind_ok, pure_eq],
        hX.mono _ _ _ _ h2 (List.prefix_append _ _), h3⟩
  | consumeSlots n =>
    obtain ⟨inner, ⟨xs, hne, hex, hR1⟩ | ⟨e, d', h1, h2, h3⟩⟩ := hC.expose _ _ _ hR
    · have hxs : 0 < xs.length := List.length_pos_iff.mpr hne
      have hn := n.2
      have hsl : slice xs 0 (min xs.length n) = ok (xs.take (min xs.length n)) := by
        rw [slice_of_le (Nat.zero_le _) (by omega)]; simp
      have hlt : (xs.take (min xs.length n)).length = min xs.length n := by simp
      obtain ⟨q, k, hq1, hq2, hq3, hq4, ⟨m, hq5, -⟩, -⟩ :=
        (Fixed.fifoLaw I cap).bulkDequeue_call hs.holds (xs.take (min xs.length n))
      have hkpos : 0 < k := by
        rcases Nat.eq_zero_or_pos k with h0 | h0
        · rcases hq4 h0 with h | h
          · rw [h] at hlt; simp only [List.length_nil] at hlt; omega
          · exact absurd h hb
        · exact h0
      have hkle : k ≤ xs.length := by omega
      generalize hwr : b.take k ++ (xs.take (min xs.length n)).drop k = written at *
      have hwl : written.length ≤ xs.length := by
        rw [← hwr]
        simp only [List.length_append, List.length_drop, hlt, List.length_take]; omega
      have hwk : written.take k = b.take k := by
        rw [← hwr, List.take_append_of_le_length (by simp; omega), List.take_take, Nat.min_self]
      have hwk' : k ≤ written.length := by
        rw [← hwr]; simp only [List.length_append, List.length_take]; omega
      have hW := hC.write _ _ _ written hR1 hwl
      have hW1 : (written ++ xs.drop written.length).take k = b.take k := by
        rw [List.take_append_of_le_length hwk', hwk]
      have hW2 : k ≤ (written ++ xs.drop written.length).length := by simp only [List.length_append]; omega
      obtain ⟨inner2, ⟨h1, h2⟩ | ⟨e, d', h1, h2, h3⟩⟩ := hC.consumeSlots _ _ _ k hW (by
        intro h0; rw [h0] at hW2; simp only [List.length_nil] at hW2; omega) hW2
      · rw [hW1] at h2
        have hok : Ok cap { s with inner := inner2, buffer := q } (b.drop k) [] :=
          ⟨hs.cap_pos, hq5.show (Nat.zero_le _), hs.index, hs.progress⟩
        obtain ⟨ha, ha'⟩ := hok.advance
        refine .inl ⟨{ s with inner := inner2, buffer := q, index := (s.index + 1) % s.operations.length }, k, ?_, ha',
          ⟨_, h2⟩, .inl hkpos⟩
        simp only [hex, bind_ok, hsl]
        rw [show (Fixed.queue I).bulkDequeue s.buffer (xs.take (min xs.length n)) = _ from hq1]
        simp only [bind_ok, h1, ha, pure_eq]
      · rw [hW1] at h2
        refine .inr ⟨{ s with inner := inner2, buffer := q }, e, d', ?_, hX.mono _ _ _ _ h2 ?_, h3⟩
        · simp only [hex, bind_ok, hsl]
          rw [show (Fixed.queue I).bulkDequeue s.buffer (xs.take (min xs.length n)) = _ from hq1]
          simp only [bind_ok, h1, pure_eq]
        · rw [List.prefix_append_right_inj]; exact List.take_prefix _ _
    · exact .inr ⟨{ s with inner := inner }, e, d', by simp only [h1, bind_ok, pure_eq],
        hX.exposing_during _ _ _ _ h2 hb, h3⟩

/-- Emptying the buffer. -/
theorem drain_loop (debug : Bool) (hX : X.Regular) (hC : BulkDefersLaw C D X R) {s : ConsumerScrambler σ I} {l slots : List I}
    (hs : s.Defers R cap l slots) :
    (∃ s', s.drain debug C = ok (s', .ok ()) ∧ s'.Ok cap [] [] ∧ ∃ sl, R s'.inner l sl) ∨
    (∃ s' e d', s.drain debug C = ok (s', .error e) ∧ X.during l d' e ∧ D s'.inner d' none) := by
  obtain ⟨d, b, rfl, hok, hR⟩ := hs
  obtain ⟨dist, op, hd⟩ := ahead hok.progress hok.index
  have := loop_ok (body := drainBody debug C) (fun n m s => ∃ d' b', d ++ b = d' ++ b' ∧ s.Ok cap b' [] ∧ (∃ sl, R s.inner d' sl) ∧
      n = b'.length ∧ ∃ op, s.operations[(s.index + m) % s.operations.length]? = some op ∧ op ≠ .flush)
    (fun r => (r.2 = .ok () ∧ r.1.Ok cap [] [] ∧ ∃ sl, R r.1.inner (d ++ b) sl) ∨
      (∃ e d', r.2 = .error e ∧ X.during (d ++ b) d' e ∧ D r.1.inner d' none)) ?_ (a := b.length) (b := dist) (s := s)
    ⟨d, b, rfl, hok.hide, hR, rfl, op, hd⟩
  · obtain ⟨⟨s', r⟩, h1, ⟨h2, h3⟩ | ⟨e, d', h2, h3⟩⟩ := this
    · simp only at h2; subst h2; exact .inl ⟨s', h1, h3⟩
    · simp only at h2; subst h2; exact .inr ⟨s', e, d', h1, h3⟩
  · rintro n m s ⟨d', b', heq, hok, hR, rfl, op, hop, hne⟩
    by_cases hb : b' = []
    · subst hb
      refine .inl ⟨(s, .ok ()), ?_, .inl ⟨rfl, hok, by rw [heq]; simpa using hR⟩⟩
      have := hok.len
      simp only [List.length_nil] at this
      simp [drainBody, this]
    · have hbl : 0 < b'.length := List.length_pos_iff.mpr hb
      have hlen : s.buffer.len > 0 := by rw [hok.len]; exact hbl
      rcases perform debug hX hC hok hb hR with ⟨s', k, hp, hok', hR', hk⟩ | ⟨s', e, d'', hp, h1, h2⟩
      · have hbody : drainBody debug C s = ok (.continue s') := by simp [drainBody, hlen, hp]
        by_cases hk0 : 0 < k
        · obtain ⟨dist', op', hd'⟩ := ahead hok'.progress hok'.index
          exact .inr ⟨s', (b'.drop k).length, dist', hbody, .inl (by simp; omega), d' ++ b'.take k, b'.drop k,
            by rw [List.append_assoc, List.take_append_drop]; exact heq, hok', hR', rfl, op', hd'⟩
        · obtain rfl : k = 0 := by omega
          rcases hk with hk | ⟨hx1, hx2, hx3⟩
          · exact absurd hk hk0
          · have hm : 0 < m := by
              rcases Nat.eq_zero_or_pos m with h0 | h0
              · subst h0
                rw [Nat.add_zero, Nat.mod_eq_of_lt hok.index, hx1] at hop
                cases hop; exact absurd rfl hne
              · exact h0
            refine .inr ⟨s', b'.length, m - 1, hbody, .inr ⟨rfl, by omega⟩, d', b', heq, by simpa using hok',
              by simpa using hR', rfl, op, ?_, hne⟩
            rw [hx2, hx3, Nat.mod_add_mod, show s.index + 1 + (m - 1) = s.index + m by omega]
            exact hop
      · refine .inl ⟨(s', .error e), ?_, .inr ⟨e, d'', rfl, by rw [heq]; exact h1, h2⟩⟩
        simp [drainBody, hlen, hp]

theorem defers_close (debug : Bool) (hX : X.Regular) (hC : BulkDefersLaw C D X R) :
    ∀ s l f, (∃ slots, s.Defers R cap l slots) → ∃ s',
      ((consumerScrambler debug C).close s f = ok (s', .ok ()) ∧ D s'.inner l (some f)) ∨
      (∃ e d, (consumerScrambler debug C).close s f = ok (s', .error e) ∧ X.closing l f d e ∧ D s'.inner d none) := by
  rintro s l f ⟨slots, hs⟩
  rcases drain_loop debug hX hC hs with ⟨s', h1, hok, hR⟩ | ⟨s', e, d', h1, h2, h3⟩
  · obtain ⟨inner, ⟨h2, h3⟩ | ⟨e, d', h2, h3, h4⟩⟩ := hC.base.close _ _ f hR
    · exact ⟨{ s' with inner := inner }, .inl ⟨by simp [consumerScrambler, close, h1, h2], h3⟩⟩
    · exact ⟨{ s' with inner := inner }, .inr ⟨e, d', by simp [consumerScrambler, close, h1, h2], h3, h4⟩⟩
  · exact ⟨s', .inr ⟨e, d', by simp [consumerScrambler, close, h1], hX.during_closing _ _ _ _ h2, h3⟩⟩

theorem defers_flush (debug : Bool) (hX : X.Regular) (hC : BulkDefersLaw C D X R) :
    ∀ s l, (∃ slots, s.Defers R cap l slots) → ∃ s',
      ((consumerScrambler debug C).flush s = ok (s', .ok ()) ∧ (∃ slots, s'.Defers R cap l slots) ∧ D s'.inner l none) ∨
      (∃ e d, (consumerScrambler debug C).flush s = ok (s', .error e) ∧ X.during l d e ∧ D s'.inner d none) := by
  rintro s l ⟨slots, hs⟩
  rcases drain_loop debug hX hC hs with ⟨s', h1, hok, hR⟩ | ⟨s', e, d', h1, h2, h3⟩
  · obtain ⟨inner, ⟨h2, h3, h4⟩ | ⟨e, d', h2, h3, h4⟩⟩ := hC.base.flush _ _ hR
    · exact ⟨{ s' with inner := inner }, .inl ⟨by simp [consumerScrambler, flush, h1, h2],
        ⟨[], l, [], by simp, ⟨hok.cap_pos, hok.holds, hok.index, hok.progress⟩, h3⟩, h4⟩⟩
    · exact ⟨{ s' with inner := inner }, .inr ⟨e, d', by simp [consumerScrambler, flush, h1, h2], h3, h4⟩⟩
  · exact ⟨s', .inr ⟨e, d', by simp [consumerScrambler, flush, h1], h2, h3⟩⟩

theorem expose_buffer {s : ConsumerScrambler σ I} {l slots : List I} (hok : s.Ok cap l slots) (hl : l.length < cap) :
    ∃ b slots', slots' ≠ [] ∧ s.buffer.exposeSlots = ok (b, some slots') ∧ Ok cap { s with buffer := b } l slots' := by
  obtain ⟨b, slots', h1, h2, h3⟩ := (Fixed.fifoLaw I cap).exposeSlots _ _ _ _ hok.holds hl
  exact ⟨b, slots', h1, h2, hok.cap_pos, h3, hok.index, hok.progress⟩

theorem defers_expose (debug : Bool) (hX : X.Regular) (hC : BulkDefersLaw C D X R) :
    ∀ s l slots, s.Defers R cap l slots → ∃ s',
      (∃ slots', slots' ≠ [] ∧ (consumerScrambler debug C).exposeSlots s = ok (s', .ok slots') ∧ s'.Defers R cap l slots') ∨
      (∃ e d, (consumerScrambler debug C).exposeSlots s = ok (s', .error e) ∧ X.exposing l d e ∧ D s'.inner d none) := by
  intro s l slots hs
  have hs0 := hs
  obtain ⟨d, b, rfl, hok, hR⟩ := hs0
  by_cases hl : b.length < cap
  · obtain ⟨q, slots', h1, h2, h3⟩ := expose_buffer hok hl
    refine ⟨{ s with buffer := q }, .inl ⟨slots', h1, ?_, d, b, rfl, h3, hR⟩⟩
    simp [consumerScrambler, exposeSlots, hok.len, hok.capacity, hl, h2]
  · rcases drain_loop debug hX hC hs with ⟨s', h1, hok', hR'⟩ | ⟨s', e, d', h1, h2, h3⟩
    · obtain ⟨q, slots', h2, h3, h4⟩ := expose_buffer hok' hok'.cap_pos
      refine ⟨{ s' with buffer := q }, .inl ⟨slots', h2, ?_, d ++ b, [], by simp, h4, hR'⟩⟩
      simp [consumerScrambler, exposeSlots, hok.len, hok.capacity, hl, h1, h3]
    · exact ⟨s', .inr ⟨e, d', by simp [consumerScrambler, exposeSlots, hok.len, hok.capacity, hl, h1],
        hX.during_exposing _ _ _ h2, h3⟩⟩

theorem defers_write (debug : Bool) :
    ∀ s l slots ws, s.Defers R cap l slots → ws.length ≤ slots.length →
      Defers R cap ((consumerScrambler debug C).writeSlots s ws) l (ws ++ slots.drop ws.length) := by
  rintro s l slots ws ⟨d, b, rfl, hok, hR⟩ hw
  exact ⟨d, b, rfl, ⟨hok.cap_pos, (Fixed.fifoLaw I cap).write _ _ _ _ ws hok.holds hw, hok.index, hok.progress⟩, hR⟩

theorem defers_consumeSlots (debug : Bool) :
    ∀ s l slots k, s.Defers R cap l slots → slots ≠ [] → k ≤ slots.length → ∃ s',
      (consumerScrambler debug C).consumeSlots s k = ok (s', .ok ()) ∧
        s'.Defers R cap (l ++ slots.take k) (slots.drop k) := by
  rintro s l slots k ⟨d, b, rfl, hok, hR⟩ - hk
  obtain ⟨q, h1, h2⟩ := (Fixed.fifoLaw I cap).considerEnqueued _ _ _ _ k hok.holds hk
  have h1' : s.buffer.considerEnqueued k = ok q := h1
  exact ⟨{ s with buffer := q }, by simp [consumerScrambler, consumeSlots, h1'], d, b ++ slots.take k, by simp,
    ⟨hok.cap_pos, h2, hok.index, hok.progress⟩, hR⟩

/-- In release builds, and as long as the buffer is not full. -/
theorem defers_consume (debug : Bool) (hX : X.Regular) (hC : BulkDefersLaw C D X R) :
    ∀ s l x, (∃ slots, s.Defers R cap l slots) → (debug = true → s.buffer.len < cap) → ∃ s',
      ((consumerScrambler debug C).consume s x = ok (s', .ok ()) ∧ ∃ slots, s'.Defers R cap (l ++ [x]) slots) ∨
      (∃ e d, (consumerScrambler debug C).consume s x = ok (s', .error e) ∧ X.during (l ++ [x]) d e ∧
        D s'.inner d none) := by
  rintro s l x ⟨slots, hs⟩ hdebug
  have hs0 := hs
  obtain ⟨d, b, rfl, hok, hR⟩ := hs0
  have hbd := hok.holds.bound
  by_cases hl : b.length < cap
  · obtain ⟨q, h1, h2⟩ := (Fixed.fifoLaw I cap).enqueue _ _ _ _ x hok.holds hl
    have h1' : s.buffer.enqueue x = ok (q, none) := h1
    exact ⟨{ s with buffer := q }, .inl ⟨by simp [consumerScrambler, consume, h1'], [], d, b ++ [x], by simp,
      ⟨hok.cap_pos, h2, hok.index, hok.progress⟩, hR⟩⟩
  · have hd : debug = false := by
      cases debug with
      | false => rfl
      | true => have := hdebug rfl; rw [hok.len] at this; exact absurd this hl
    subst hd
    have h1 := (Fixed.fifoLaw I cap).enqueue_full _ _ _ _ x hok.holds (by omega)
    have h1' : s.buffer.enqueue x = ok (s.buffer, some x) := h1
    rcases drain_loop false hX hC hs with ⟨s', h2, hok', hR'⟩ | ⟨s', e, d', h2, h3, h4⟩
    · obtain ⟨q, h3, h4⟩ := (Fixed.fifoLaw I cap).enqueue _ _ _ _ x hok'.holds hok'.cap_pos
      have h3' : s'.buffer.enqueue x = ok (q, none) := h3
      refine ⟨{ s' with buffer := q }, .inl ⟨?_, [], d ++ b, [x], rfl,
        ⟨hok'.cap_pos, h4, hok'.index, hok'.progress⟩, hR'⟩⟩
      simp [consumerScrambler, consume, h1', h2, h3', debugAssert]
    · refine ⟨s', .inr ⟨e, d', ?_, hX.mono _ _ _ _ h3 (List.prefix_append _ _), h4⟩⟩
      simp [consumerScrambler, consume, h1', h2]

/-- In debug builds, an item for which there is no room makes the scrambler panic. -/
theorem debug_consume_panic (hX : X.Regular) (hC : BulkDefersLaw C D X R) {s : ConsumerScrambler σ I} {l slots : List I}
    (hs : s.Defers R cap l slots) (hfull : s.buffer.len = cap) (x : I) :
    (consumerScrambler true C).consume s x = .panic ∨
      ∃ s' e, (consumerScrambler true C).consume s x = ok (s', .error e) := by
  have hs0 := hs
  obtain ⟨d, b, rfl, hok, hR⟩ := hs0
  rw [hok.len] at hfull
  have h1 := (Fixed.fifoLaw I cap).enqueue_full _ _ _ _ x hok.holds hfull
  have h1' : s.buffer.enqueue x = ok (s.buffer, some x) := h1
  rcases drain_loop true hX hC hs with ⟨s', h2, hok', hR'⟩ | ⟨s', e, d', h2, h3, h4⟩
  · obtain ⟨q, h3, h4⟩ := (Fixed.fifoLaw I cap).enqueue _ _ _ _ x hok'.holds hok'.cap_pos
    have h3' : s'.buffer.enqueue x = ok (q, none) := h3
    left
    simp [consumerScrambler, consume, h1', h2, h3', debugAssert, Outcome.assert]
  · exact .inr ⟨s', e, by simp [consumerScrambler, consume, h1', h2]⟩

theorem law (hX : X.Regular) (hC : BulkDefersLaw C D X R) (cap : Nat) :
    BulkDefersLaw (consumerScrambler false C) (fun s => D s.inner) X (Defers R cap) := by
  refine .of_default hX rfl ⟨⟨?_, ?_, defers_close false hX hC⟩, defers_flush false hX hC⟩ (defers_expose false hX hC)
    (defers_write false) ?_
  · rintro s l ⟨slots, d, b, rfl, hok, hR⟩
    obtain ⟨d', h1, h2⟩ := hC.base.observe _ _ hR
    exact ⟨d', h1.trans (List.prefix_append _ _), h2⟩
  · intro s l x hs; exact defers_consume false hX hC s l x hs (by simp)
  · intro s l slots k hs hne hk
    obtain ⟨s', h⟩ := defers_consumeSlots (C := C) false s l slots k hs hne hk
    exact ⟨s', .inl h⟩

end ConsumerScrambler

end

end Verif
