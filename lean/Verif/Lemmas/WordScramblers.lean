import Verif.Model.WordScramblers
import Verif.Lemmas.WordTest
import Verif.Lemmas.ProducerScrambler
import Verif.Lemmas.ConsumerScrambler

/-!
# Lemmas about the scramblers with machine arithmetic
-/

namespace Verif

open Outcome

/-! ## Computations that agree -/

/-- `o'` and `o` do the same, and what they return (if they return) satisfies `Post`. -/
def Outcome.Agree {α : Type} (o' o : Outcome α) (Post : α → Prop) : Prop := o' = o ∧ ∀ a, o = ok a → Post a

theorem Outcome.Agree.bind {α β : Type} {o' o : Outcome α} {f' f : α → Outcome β} {Q : α → Prop} {Post : β → Prop}
    (h : o'.Agree o Q) (hf : ∀ a, Q a → (f' a).Agree (f a) Post) : (o'.bind f').Agree (o.bind f) Post := by
  obtain ⟨rfl, h⟩ := h
  rcases o' with a | _ | _
  · exact hf a (h a rfl)
  · exact ⟨rfl, by intro a ha; cases ha⟩
  · exact ⟨rfl, by intro a ha; cases ha⟩

theorem Outcome.Agree.self {α : Type} (o : Outcome α) : o.Agree o (fun _ => True) := ⟨rfl, fun _ _ => trivial⟩

theorem Outcome.Agree.ok {α : Type} {a : α} {Post : α → Prop} (h : Post a) : (Outcome.ok a).Agree (.ok a) Post :=
  ⟨rfl, by rintro _ ⟨⟩; exact h⟩

theorem Outcome.Agree.pure {α : Type} {a : α} {Post : α → Prop} (h : Post a) :
    (Pure.pure a : Outcome α).Agree (Pure.pure a) Post := .ok h

theorem Outcome.Agree.mono {α : Type} {o' o : Outcome α} {Q Post : α → Prop} (h : o'.Agree o Q) (hQ : ∀ a, Q a → Post a) :
    o'.Agree o Post := ⟨h.1, fun a ha => hQ a (h.2 a ha)⟩

theorem Outcome.Agree.loop {σ ρ : Type} {body' body : σ → Outcome (Step σ ρ)} {Inv : σ → Prop} {Post : ρ → Prop}
    (h : ∀ s, Inv s → (body' s).Agree (body s) (fun | .continue s' => Inv s' | .done r => Post r)) {s : σ} (hs : Inv s) :
    (Verif.loop body' s).Agree (Verif.loop body s) Post :=
  ⟨loop_agree Inv (fun x hx => ⟨(h x hx).1, fun y hy => (h x hx).2 _ hy⟩) hs,
    fun _ hr => loop_keeps Inv Post (fun s s' hs hb => (h s hs).2 _ hb) (fun s r hs hb => (h s hs).2 _ hb) hs hr⟩

/-! ## The queue -/

namespace WordFixed

variable {I : Type} {w : Word} {cap : Nat} {q : Fixed I} {l slots : List I} {n : Nat}

theorem enqueue_agree (hw : w.Fits cap) (h : q.Holds cap l slots n) (x : I) :
    (enqueue w q x).Agree (q.enqueue x) fun (q', r) =>
      (r = none ∧ q'.Holds cap (l ++ [x]) [] n) ∨ (r = some x ∧ q' = q ∧ l.length = cap) := by
  refine ⟨enqueue_eq hw h x, ?_⟩
  rintro ⟨q', r⟩ hq
  have hb := h.bound
  by_cases hf : l.length = cap
  · rw [h.enqueue_full x hf] at hq
    cases hq
    exact .inr ⟨rfl, rfl, hf⟩
  · obtain ⟨q'', h1, h2⟩ := h.enqueue x (by omega)
    rw [h1] at hq
    cases hq
    exact .inl ⟨rfl, h2⟩

theorem dequeue_agree (hw : w.Fits cap) (h : q.Holds cap l slots n) :
    (dequeue w q).Agree q.dequeue fun (q', _) => q'.Holds cap l.tail slots (n - 1) := by
  refine ⟨dequeue_eq hw h, ?_⟩
  rintro ⟨q', r⟩ hq
  cases l with
  | nil =>
    have h1 : q.dequeue = ok (q, none) := (Fixed.fifoLaw I cap).dequeue_empty _ _ _ h
    rw [h1] at hq
    cases hq
    exact h.show (by have := h.shown; simp at this; simp [this])
  | cons x l =>
    obtain ⟨q'', h1, h2⟩ := h.dequeue
    rw [h1] at hq
    cases hq
    exact h2

theorem exposeItems_agree (hw : w.Fits cap) (h : q.Holds cap l slots n) :
    (exposeItems w q).Agree q.exposeItems fun (q', r) => q' = q ∧ ∀ xs, r = some xs → xs.length ≤ l.length := by
  refine ⟨exposeItems_eq hw h, ?_⟩
  rintro ⟨q', r⟩ hq
  by_cases hne : l = []
  · subst hne
    rw [h.exposeItems_empty] at hq
    cases hq
    exact ⟨rfl, by intro xs hx; cases hx⟩
  · obtain ⟨_, _, h3⟩ := h.exposeItems hne
    rw [h3] at hq
    cases hq
    exact ⟨rfl, by rintro xs ⟨⟩; simp; omega⟩

theorem exposeSlots_agree (hw : w.Fits cap) (h : q.Holds cap l slots n) :
    (exposeSlots w q).Agree q.exposeSlots fun (q', r) => q' = q ∧ ∀ xs, r = some xs → q.Holds cap l xs n := by
  refine ⟨exposeSlots_eq hw h, ?_⟩
  rintro ⟨q', r⟩ hq
  have hb := h.bound
  by_cases hf : l.length = cap
  · rw [h.exposeSlots_full hf] at hq
    cases hq
    exact ⟨rfl, by intro xs hx; cases hx⟩
  · obtain ⟨sl, _, h2, h3, _⟩ := h.exposeSlots (by omega)
    rw [h2] at hq
    cases hq
    exact ⟨rfl, by rintro xs ⟨⟩; exact h3⟩

theorem considerEnqueued_agree (hw : w.Fits cap) (h : q.Holds cap l slots n) {k : Nat} (hk : k ≤ slots.length) :
    (considerEnqueued w q k).Agree (q.considerEnqueued k) fun q' => q'.Holds cap (l ++ slots.take k) (slots.drop k) n := by
  refine ⟨considerEnqueued_eq hw h hk, ?_⟩
  intro q' hq
  obtain ⟨q'', h1, h2⟩ := h.considerEnqueued k hk
  rw [h1] at hq
  cases hq
  exact h2

theorem considerDequeued_agree (hw : w.Fits cap) (h : q.Holds cap l slots n) {k : Nat} (hk : k ≤ n) :
    (considerDequeued w q k).Agree (q.considerDequeued k) fun q' => q'.Holds cap (l.drop k) slots (n - k) := by
  refine ⟨considerDequeued_eq hw h hk, ?_⟩
  intro q' hq
  rcases Nat.eq_zero_or_pos cap with h0 | h0
  · rw [Fixed.considerDequeued_zero q (h.length.trans h0)] at hq
    cases hq
  · obtain ⟨h1, h2⟩ := h.considerDequeued k hk h0
    rw [h1] at hq
    cases hq
    exact h2

theorem bulkEnqueue_agree (hw : w.Fits cap) (h : q.Holds cap l slots n) (buf : List I) :
    ((queue w I).bulkEnqueue q buf).Agree ((Fixed.queue I).bulkEnqueue q buf) fun (q', _) => ∃ l', q'.Holds cap l' [] n := by
  refine (exposeSlots_agree hw h).bind ?_
  rintro ⟨q', r⟩ ⟨rfl, hr⟩
  cases r with
  | none => exact .pure ⟨l, (h.weaken (Nat.le_refl _)).1⟩
  | some sl =>
    have h1 := hr sl rfl
    have hle : (buf.take (min sl.length buf.length)).length ≤ sl.length := by simp; omega
    have h2 := h1.write _ hle
    dsimp only
    rw [writeSlots_eq hw h1 hle]
    refine (considerEnqueued_agree hw h2 (k := min sl.length buf.length) (by simp)).bind ?_
    intro q'' h3
    exact .pure ⟨_, (h3.weaken (Nat.le_refl _)).1⟩

theorem bulkDequeue_agree (hw : w.Fits cap) (h : q.Holds cap l slots n) (buf : List I) :
    ((queue w I).bulkDequeue q buf).Agree ((Fixed.queue I).bulkDequeue q buf) fun (q', _) => ∃ l', q'.Holds cap l' slots 0 := by
  refine (exposeItems_agree hw h).bind ?_
  rintro ⟨q', r⟩ ⟨rfl, hr⟩
  cases r with
  | none => exact .pure ⟨l, h.show (Nat.zero_le _)⟩
  | some xs =>
    have h1 := h.show (hr xs rfl)
    refine (considerDequeued_agree hw h1 (k := min xs.length buf.length) (by omega)).bind ?_
    intro q'' h3
    exact .pure ⟨_, h3.show (Nat.zero_le _)⟩

end WordFixed

section

variable {σ I F E : Type}

/-! ## Producer -/

namespace ProducerScrambler

/-- The capacity and the operations fit in memory, and `n` items of the buffer are exposed. -/
structure Fits (w : Word) (cap : Nat) (s : ProducerScrambler σ I F E) (n : Nat) : Prop where
  buffer : ∃ l, s.buffer.Holds cap l [] n
  index : s.index < s.operations.length
  operations : s.operations.length < w.size

variable {w : Word} {cap : Nat} {s : ProducerScrambler σ I F E} {n : Nat} {P : BulkProducer σ I F E}

theorem fits_new (w : Word) (inner : σ) {ops : List ScrambleProduce} (cap : Nat) (tmp : Nat → I) (h : ops.length + 1 < w.size) :
    (new inner ops cap tmp : ProducerScrambler σ I F E).Fits w cap 0 := by
  refine ⟨⟨[], Fixed.holds_new cap tmp⟩, ?_, ?_⟩
  · simp only [new]
    split
    · rename_i h
      obtain ⟨op, hop, _⟩ := (ScrambleProduce.makeProgress_iff ops).mp h
      exact List.length_pos_of_mem hop
    · simp
  · simp only [new]
    split
    · omega
    · simpa using h

theorem Fits.forget (h : s.Fits w cap n) : s.Fits w cap 0 := by
  obtain ⟨⟨l, hl⟩, h2, h3⟩ := h
  exact ⟨⟨l, hl.show (Nat.zero_le _)⟩, h2, h3⟩

theorem advance_agree (h : s.Fits w cap n) : (WordProducerScrambler.advance w s).Agree s.advance fun s' => s'.Fits w cap n := by
  have h1 := h.index
  have h2 := h.operations
  have hpos : 0 < s.operations.length := by omega
  simp only [WordProducerScrambler.advance, ProducerScrambler.advance, bind_eq]
  rw [Word.add_ok (by omega)]
  simp only [bind_ok, mod_of_pos hpos]
  exact .pure ⟨h.buffer, Nat.mod_lt _ hpos, h2⟩

theorem perform_agree (hw : w.Fits cap) (debug : Bool) (h : s.Fits w cap n) :
    (WordProducerScrambler.performOperation w debug P s).Agree (s.performOperation debug P) fun (s', _) => s'.Fits w cap n := by
  have h0 := h
  obtain ⟨⟨l, hl⟩, h2, h3⟩ := h
  refine (Agree.self _).bind fun _ _ => ?_
  refine (Agree.self _).bind ?_
  rintro (_ | k | _) -
  · refine (Agree.self _).bind ?_
    rintro ⟨inner, e | x | f⟩ -
    · exact .pure ⟨⟨l, hl⟩, h2, h3⟩
    · refine (WordFixed.enqueue_agree hw hl x).bind ?_
      rintro ⟨b, r⟩ hb
      refine (Agree.self _).bind fun _ _ => ?_
      have : (⟨inner, b, s.last, s.operations, s.index⟩ : ProducerScrambler σ I F E).Fits w cap n := by
        rcases hb with ⟨_, hb⟩ | ⟨_, rfl, _⟩
        · exact ⟨⟨_, hb⟩, h2, h3⟩
        · exact ⟨⟨_, hl⟩, h2, h3⟩
      exact (advance_agree this).bind fun s' hs' => .pure hs'
    · exact .pure ⟨⟨l, hl⟩, h2, h3⟩
  · refine (Agree.self _).bind ?_
    rintro ⟨inner, e | xs | f⟩ -
    · exact .pure ⟨⟨l, hl⟩, h2, h3⟩
    · refine (Agree.self _).bind fun ys _ => ?_
      refine (WordFixed.bulkEnqueue_agree hw hl ys).bind ?_
      rintro ⟨b, a⟩ hb
      refine (Agree.self _).bind ?_
      rintro ⟨inner, e | ⟨⟩⟩ -
      · exact .pure ⟨hb, h2, h3⟩
      · have : (⟨inner, b, s.last, s.operations, s.index⟩ : ProducerScrambler σ I F E).Fits w cap n := ⟨hb, h2, h3⟩
        exact (advance_agree this).bind fun s' hs' => .pure hs'
    · exact .pure ⟨⟨l, hl⟩, h2, h3⟩
  · refine (Agree.self _).bind ?_
    rintro ⟨inner, e | ⟨⟩⟩ -
    · exact .pure ⟨⟨l, hl⟩, h2, h3⟩
    · have : (⟨inner, s.buffer, s.last, s.operations, s.index⟩ : ProducerScrambler σ I F E).Fits w cap n := ⟨⟨l, hl⟩, h2, h3⟩
      exact (advance_agree this).bind fun s' hs' => .pure hs'

theorem fill_agree (hw : w.Fits cap) (debug : Bool) (h : s.Fits w cap n) :
    (WordProducerScrambler.fillQueue w debug P s).Agree (s.fillQueue debug P) fun (s', _) => s'.Fits w cap n := by
  refine Agree.bind (Q := fun s' => s'.Fits w cap n) (Agree.loop (Inv := fun s' => s'.Fits w cap n) ?_ h) ?_
  · intro s h
    simp only [WordProducerScrambler.fillBody, fillBody]
    split
    · refine (perform_agree hw debug h).bind ?_
      rintro ⟨s', e | _ | f⟩ h'
      · exact .pure ⟨h'.buffer, h'.index, h'.operations⟩
      · exact .pure h'
      · exact .pure ⟨h'.buffer, h'.index, h'.operations⟩
    · exact .pure h
  · intro s' h'
    dsimp only
    split
    · exact .pure ⟨h'.buffer, h'.index, h'.operations⟩
    · exact .pure h'

theorem slurpInner_keeps (h : s.Fits w cap n) :
    (slurpInner P s).Agree (slurpInner P s) fun (s', _) => s'.Fits w cap n := by
  refine (Agree.self _).bind ?_
  rintro ⟨inner, e | ⟨⟩⟩ -
  · dsimp only
    split
    · exact .pure ⟨h.buffer, h.index, h.operations⟩
    · exact .pure ⟨h.buffer, h.index, h.operations⟩
  · exact .pure ⟨h.buffer, h.index, h.operations⟩

theorem produce_agree (hw : w.Fits cap) (debug : Bool) (h : s.Fits w cap n) :
    ((wordProducerScrambler w debug P).produce s).Agree ((producerScrambler debug P).produce s) fun (s', _) => s'.Fits w cap 0 := by
  refine (fill_agree hw debug h).bind ?_
  rintro ⟨s', _ | r⟩ h'
  · obtain ⟨⟨l, hl⟩, h2, h3⟩ := h'
    refine (WordFixed.dequeue_agree hw hl).bind ?_
    rintro ⟨b, o⟩ hb
    exact (Agree.self _).bind fun _ _ => .pure ⟨⟨_, hb.show (Nat.zero_le _)⟩, h2, h3⟩
  · exact .pure h'.forget

theorem slurp_agree (hw : w.Fits cap) (debug : Bool) (h : s.Fits w cap n) :
    ((wordProducerScrambler w debug P).slurp s).Agree ((producerScrambler debug P).slurp s) fun (s', _) => s'.Fits w cap 0 := by
  refine (fill_agree hw debug h).bind ?_
  rintro ⟨s', _ | e | f⟩ h'
  · exact slurpInner_keeps h'.forget
  · exact .pure h'.forget
  · exact slurpInner_keeps ⟨h'.forget.buffer, h'.index, h'.operations⟩

theorem expose_agree (hw : w.Fits cap) (debug : Bool) (h : s.Fits w cap n) :
    ((wordProducerScrambler w debug P).exposeItems s).Agree ((producerScrambler debug P).exposeItems s)
      fun (s', r) => ∀ xs, r = .ok (.inl xs) → s'.Fits w cap xs.length := by
  refine (fill_agree hw debug h).bind ?_
  rintro ⟨s', _ | r⟩ h'
  · obtain ⟨⟨l, hl⟩, h2, h3⟩ := h'
    refine (WordFixed.exposeItems_agree hw hl).bind ?_
    rintro ⟨b, o⟩ ⟨rfl, ho⟩
    cases o with
    | none => exact ⟨rfl, by rintro _ ⟨⟩⟩
    | some xs =>
      refine .pure ?_
      rintro _ ⟨⟩
      exact ⟨⟨_, hl.show (ho xs rfl)⟩, h2, h3⟩
  · refine .pure ?_
    intro xs hx
    rcases r with e | f <;> cases hx

theorem consider_agree (hw : w.Fits cap) (debug : Bool) (h : s.Fits w cap n) {k : Nat} (hk : k ≤ n) :
    ((wordProducerScrambler w debug P).considerProduced s k).Agree ((producerScrambler debug P).considerProduced s k)
      fun (s', _) => s'.Fits w cap (n - k) := by
  obtain ⟨⟨l, hl⟩, h2, h3⟩ := h
  exact (WordFixed.considerDequeued_agree hw hl hk).bind fun b hb => .pure ⟨⟨_, hb⟩, h2, h3⟩

theorem keeps (hw : w.Fits cap) (debug : Bool) : (producerScrambler debug P).KeepsInv (Fits w cap) where
  produce h hp := (produce_agree hw debug h).2 _ hp
  slurp h hp := (slurp_agree hw debug h).2 _ hp
  expose h hp := (expose_agree hw debug h).2 _ hp _ rfl
  consider h hk hp := (consider_agree hw debug h hk).2 _ hp
  forget h := h.forget

end ProducerScrambler

/-! ## Consumer -/

namespace ConsumerScrambler

/-- The capacity and the operations fit in memory, and `n` slots of the buffer are exposed. -/
structure Fits (w : Word) (cap : Nat) (s : ConsumerScrambler σ I) (n : Nat) : Prop where
  buffer : ∃ l slots, s.buffer.Holds cap l slots 0 ∧ slots.length = n
  index : s.index < s.operations.length
  operations : s.operations.length < w.size

variable {w : Word} {cap : Nat} {s : ConsumerScrambler σ I} {n : Nat} {C : BulkConsumer σ I F E}

theorem fits_new (w : Word) (inner : σ) {ops : List ScrambleConsume} (cap : Nat) (tmp : Nat → I) (h : ops.length + 1 < w.size) :
    (new inner ops cap tmp : ConsumerScrambler σ I).Fits w cap 0 := by
  refine ⟨⟨[], [], Fixed.holds_new cap tmp, rfl⟩, ?_, ?_⟩
  · simp only [new]
    split
    · rename_i h
      obtain ⟨op, hop, _⟩ := (ScrambleConsume.makeProgress_iff ops).mp h
      exact List.length_pos_of_mem hop
    · simp
  · simp only [new]
    split
    · omega
    · simpa using h

theorem Fits.forget (h : s.Fits w cap n) : s.Fits w cap 0 := by
  obtain ⟨⟨l, sl, hl, _⟩, h2, h3⟩ := h
  exact ⟨⟨l, [], (hl.weaken (Nat.le_refl _)).1, rfl⟩, h2, h3⟩

theorem advance_agree (h : s.Fits w cap n) : (WordConsumerScrambler.advance w s).Agree s.advance fun s' => s'.Fits w cap n := by
  have h1 := h.index
  have h2 := h.operations
  have hpos : 0 < s.operations.length := by omega
  simp only [WordConsumerScrambler.advance, ConsumerScrambler.advance, bind_eq]
  rw [Word.add_ok (by omega)]
  simp only [bind_ok, mod_of_pos hpos]
  exact .pure ⟨h.buffer, Nat.mod_lt _ hpos, h2⟩

theorem perform_agree (hw : w.Fits cap) (debug : Bool) (h : s.Fits w cap 0) :
    (WordConsumerScrambler.performOperation w debug C s).Agree (s.performOperation debug C) fun (s', _) => s'.Fits w cap 0 := by
  obtain ⟨⟨l, sl, hl, hsl⟩, h2, h3⟩ := h
  have hb0 : ∃ l slots, s.buffer.Holds cap l slots 0 ∧ slots.length = 0 := ⟨l, sl, hl, hsl⟩
  refine (Agree.self _).bind fun _ _ => ?_
  refine (Agree.self _).bind ?_
  rintro (_ | k | _) -
  · refine (WordFixed.dequeue_agree hw hl).bind ?_
    rintro ⟨b, r⟩ hb
    have hb : ∃ l slots, b.Holds cap l slots 0 ∧ slots.length = 0 := ⟨_, sl, hb.show (Nat.zero_le _), hsl⟩
    refine (Agree.self _).bind fun x _ => ?_
    refine (Agree.self _).bind ?_
    rintro ⟨inner, e | ⟨⟩⟩ -
    · exact .pure ⟨hb, h2, h3⟩
    · have : (⟨inner, b, s.operations, s.index⟩ : ConsumerScrambler σ I).Fits w cap 0 := ⟨hb, h2, h3⟩
      exact (advance_agree this).bind fun s' hs' => .pure hs'
  · refine (Agree.self _).bind ?_
    rintro ⟨inner, e | xs⟩ -
    · exact .pure ⟨hb0, h2, h3⟩
    · refine (Agree.self _).bind fun ys _ => ?_
      refine (WordFixed.bulkDequeue_agree hw hl ys).bind ?_
      rintro ⟨b, a, wr⟩ ⟨l', hb⟩
      have hb : ∃ l slots, b.Holds cap l slots 0 ∧ slots.length = 0 := ⟨l', sl, hb, hsl⟩
      refine (Agree.self _).bind ?_
      rintro ⟨inner, e | ⟨⟩⟩ -
      · exact .pure ⟨hb, h2, h3⟩
      · have : (⟨inner, b, s.operations, s.index⟩ : ConsumerScrambler σ I).Fits w cap 0 := ⟨hb, h2, h3⟩
        exact (advance_agree this).bind fun s' hs' => .pure hs'
  · refine (Agree.self _).bind ?_
    rintro ⟨inner, e | ⟨⟩⟩ -
    · exact .pure ⟨hb0, h2, h3⟩
    · have : (⟨inner, s.buffer, s.operations, s.index⟩ : ConsumerScrambler σ I).Fits w cap 0 := ⟨hb0, h2, h3⟩
      exact (advance_agree this).bind fun s' hs' => .pure hs'

theorem drain_agree (hw : w.Fits cap) (debug : Bool) (h : s.Fits w cap n) :
    (WordConsumerScrambler.drain w debug C s).Agree (s.drain debug C) fun (s', _) => s'.Fits w cap 0 := by
  refine Agree.loop (Inv := fun s' => s'.Fits w cap 0) ?_ h.forget
  intro s h
  simp only [WordConsumerScrambler.drainBody, drainBody]
  split
  · refine (perform_agree hw debug h).bind ?_
    rintro ⟨s', e | ⟨⟩⟩ h'
    · exact .pure h'
    · exact .pure h'
  · exact .pure h

theorem consume_agree (hw : w.Fits cap) (debug : Bool) (h : s.Fits w cap n) (x : I) :
    ((wordConsumerScrambler w debug C).consume s x).Agree ((consumerScrambler debug C).consume s x) fun (s', _) => s'.Fits w cap 0 := by
  have h0 := h.forget
  obtain ⟨⟨l, sl, hl, hsl⟩, h2, h3⟩ := h0
  refine (WordFixed.enqueue_agree hw hl x).bind ?_
  rintro ⟨b, r⟩ (⟨rfl, hb⟩ | ⟨rfl, rfl, _⟩)
  · exact .pure ⟨⟨_, [], hb, rfl⟩, h2, h3⟩
  · refine (drain_agree hw debug (n := 0) ⟨⟨l, sl, hl, hsl⟩, h2, h3⟩).bind ?_
    rintro ⟨s', e | ⟨⟩⟩ h'
    · exact .pure h'
    · obtain ⟨⟨l, sl, hl, hsl⟩, h2, h3⟩ := h'
      refine (WordFixed.enqueue_agree hw hl x).bind ?_
      rintro ⟨b, r⟩ hb
      refine (Agree.self _).bind fun _ _ => .pure ?_
      rcases hb with ⟨rfl, hb⟩ | ⟨rfl, rfl, _⟩
      · exact ⟨⟨_, [], hb, rfl⟩, h2, h3⟩
      · exact ⟨⟨_, _, hl, hsl⟩, h2, h3⟩

theorem close_agree (hw : w.Fits cap) (debug : Bool) (h : s.Fits w cap n) (f : F) :
    ((wordConsumerScrambler w debug C).close s f).Agree ((consumerScrambler debug C).close s f) fun _ => True := by
  refine (drain_agree hw debug h).bind ?_
  rintro ⟨s', e | ⟨⟩⟩ h'
  · exact .pure trivial
  · exact (Agree.self _).bind fun _ _ => .pure trivial

theorem flush_agree (hw : w.Fits cap) (debug : Bool) (h : s.Fits w cap n) :
    ((wordConsumerScrambler w debug C).flush s).Agree ((consumerScrambler debug C).flush s) fun (s', _) => s'.Fits w cap 0 := by
  refine (drain_agree hw debug h).bind ?_
  rintro ⟨s', e | ⟨⟩⟩ h'
  · exact .pure h'
  · exact (Agree.self _).bind fun _ _ => .pure ⟨h'.buffer, h'.index, h'.operations⟩

theorem expose_agree (hw : w.Fits cap) (debug : Bool) (h : s.Fits w cap n) :
    ((wordConsumerScrambler w debug C).exposeSlots s).Agree ((consumerScrambler debug C).exposeSlots s)
      fun (s', r) => ∀ xs, r = .ok xs → s'.Fits w cap xs.length := by
  have key : ∀ {s : ConsumerScrambler σ I} {n}, s.Fits w cap n →
      ((WordFixed.exposeSlots w s.buffer).bind fun (buffer, slots) => (unwrap slots).bind fun slots =>
        (ok ({ s with buffer := buffer }, Except.ok slots) : Outcome (_ × Except E (List I)))).Agree
      ((Fixed.exposeSlots s.buffer).bind fun (buffer, slots) => (unwrap slots).bind fun slots =>
        ok ({ s with buffer := buffer }, Except.ok slots)) fun (s', r) => ∀ xs, r = .ok xs → s'.Fits w cap xs.length := by
    rintro s n ⟨⟨l, sl, hl, hsl⟩, h2, h3⟩
    refine (WordFixed.exposeSlots_agree hw hl).bind ?_
    rintro ⟨b, o⟩ ⟨rfl, ho⟩
    cases o with
    | none => exact ⟨rfl, by rintro _ ⟨⟩⟩
    | some xs =>
      refine .ok ?_
      rintro _ ⟨⟩
      exact ⟨⟨_, _, ho xs rfl, rfl⟩, h2, h3⟩
  simp only [wordConsumerScrambler, consumerScrambler, WordConsumerScrambler.exposeSlots, ConsumerScrambler.exposeSlots]
  split
  · exact key h
  · refine (drain_agree hw debug h).bind ?_
    rintro ⟨s', e | ⟨⟩⟩ h'
    · exact .pure (by intro xs hx; cases hx)
    · exact key h'

theorem write_eq (hw : w.Fits cap) (debug : Bool) (h : s.Fits w cap n) {ws : List I} (hws : ws.length ≤ n) :
    (wordConsumerScrambler w debug C).writeSlots s ws = (consumerScrambler debug C).writeSlots s ws ∧
      ((consumerScrambler debug C).writeSlots s ws).Fits w cap n := by
  obtain ⟨⟨l, sl, hl, rfl⟩, h2, h3⟩ := h
  simp only [wordConsumerScrambler, consumerScrambler, WordFixed.writeSlots_eq hw hl hws, true_and]
  exact ⟨⟨_, _, hl.write ws hws, by simp; omega⟩, h2, h3⟩

theorem consumeSlots_agree (hw : w.Fits cap) (debug : Bool) (h : s.Fits w cap n) {k : Nat} (hk : k ≤ n) :
    ((wordConsumerScrambler w debug C).consumeSlots s k).Agree ((consumerScrambler debug C).consumeSlots s k)
      fun (s', _) => s'.Fits w cap (n - k) := by
  obtain ⟨⟨l, sl, hl, rfl⟩, h2, h3⟩ := h
  exact (WordFixed.considerEnqueued_agree hw hl hk).bind fun b hb => .pure ⟨⟨_, _, hb, by simp⟩, h2, h3⟩

theorem keeps (hw : w.Fits cap) (debug : Bool) : (consumerScrambler debug C).KeepsInv (Fits w cap) where
  consume h hp := (consume_agree hw debug h _).2 _ hp
  flush h hp := (flush_agree hw debug h).2 _ hp
  expose h hp := (expose_agree hw debug h).2 _ hp _ rfl
  write h hws := (write_eq hw debug h hws).2
  consumeSlots h hk hp := (consumeSlots_agree hw debug h hk).2 _ hp
  forget h := h.forget

end ConsumerScrambler

end

end Verif
