import Verif.Spec

/-!
# Helper lemmas about scripts and the laws
-/

namespace Verif

open Outcome

namespace Script

variable {I F E : Type}

@[simp] theorem drop_apply (c : Script I F E) (n i : Nat) : c.drop n i = c (n + i) := rfl

@[simp] theorem drop_zero (c : Script I F E) : c.drop 0 = c := by
  funext i; simp

@[simp] theorem drop_drop (c : Script I F E) (n m : Nat) : (c.drop n).drop m = c.drop (n + m) := by
  funext i; simp [Nat.add_assoc]

@[simp] theorem startsWith_nil (c : Script I F E) : c.StartsWith [] := by
  intro i x h; simp at h

theorem startsWith_cons {c : Script I F E} {x : I} {xs : List I} :
    c.StartsWith (x :: xs) ↔ c 0 = .ok (.inl x) ∧ (c.drop 1).StartsWith xs := by
  constructor
  · intro h
    refine ⟨h 0 x rfl, fun i y hy => ?_⟩
    have := h (i + 1) y (by simpa using hy)
    simpa [Nat.add_comm] using this
  · rintro ⟨h0, h⟩ i y hy
    cases i with
    | zero => simp at hy; subst hy; exact h0
    | succ i =>
      have := h i y (by simpa using hy)
      simpa [Nat.add_comm] using this

theorem StartsWith.append {c : Script I F E} {xs ys : List I} (h : c.StartsWith xs)
    (h' : (c.drop xs.length).StartsWith ys) : c.StartsWith (xs ++ ys) := by
  intro i x hi
  by_cases hlt : i < xs.length
  · rw [List.getElem?_append_left hlt] at hi; exact h i x hi
  · rw [List.getElem?_append_right (by omega)] at hi
    have := h' _ x hi
    simp only [drop_apply] at this
    rwa [show xs.length + (i - xs.length) = i by omega] at this

theorem StartsWith.left {c : Script I F E} {xs ys : List I} (h : c.StartsWith (xs ++ ys)) :
    c.StartsWith xs := by
  intro i x hi
  apply h
  have : i < xs.length := by
    rw [List.getElem?_eq_some_iff] at hi; exact hi.1
  rw [List.getElem?_append_left this, hi]

theorem StartsWith.right {c : Script I F E} {xs ys : List I} (h : c.StartsWith (xs ++ ys)) :
    (c.drop xs.length).StartsWith ys := by
  intro i x hi
  simp only [drop_apply]
  apply h
  rw [List.getElem?_append_right (by omega)]
  simpa using hi

theorem StartsWith.take {c : Script I F E} {xs : List I} (h : c.StartsWith xs) (k : Nat) :
    c.StartsWith (xs.take k) := by
  have := h; rw [← List.take_append_drop k xs] at this; exact this.left

theorem StartsWith.drop {c : Script I F E} {xs : List I} (h : c.StartsWith xs) {k : Nat}
    (hk : k ≤ xs.length) : (c.drop k).StartsWith (xs.drop k) := by
  have := h; rw [← List.take_append_drop k xs] at this
  have := this.right
  rwa [List.length_take, Nat.min_eq_left hk] at this

/-- Two item lists that the same script starts with agree as far as both go. -/
theorem StartsWith.prefix {c : Script I F E} {xs ys : List I} (h : c.StartsWith xs) (h' : c.StartsWith ys)
    (hle : xs.length ≤ ys.length) : xs = ys.take xs.length := by
  apply List.ext_getElem?
  intro i
  by_cases hi : i < xs.length
  · have h1 := h i xs[i] (by simp [hi])
    have hi' : i < ys.length := by omega
    have h2 := h' i ys[i] (by simp [hi'])
    rw [h1] at h2
    simp at h2
    simp [hi, hi', h2]
  · simp [List.getElem?_take, hi]

theorem StartsWith.ne_nil_zero {c : Script I F E} {xs : List I} (h : c.StartsWith xs) (hne : xs ≠ []) :
    ∃ x, c 0 = .ok (.inl x) := by
  cases xs with
  | nil => exact absurd rfl hne
  | cons x xs => exact ⟨x, (startsWith_cons.mp h).1⟩

theorem ofList_startsWith (xs : List I) (last : Except E F) : (ofList xs last).StartsWith xs := by
  intro i x h; simp [ofList, h]

theorem ofList_drop (xs : List I) (last : Except E F) (n : Nat) (h : n ≤ xs.length) :
    (ofList xs last).drop n = ofList (xs.drop n) last := by
  funext i; simp [ofList, List.getElem?_drop]

theorem ofList_end (xs : List I) (last : Except E F) : ofList xs last xs.length = last.map .inr := by
  simp [ofList]

theorem ofList_nil_zero (last : Except E F) : ofList ([] : List I) last 0 = last.map .inr := by
  simp [ofList]

theorem ofList_cons_zero (x : I) (xs : List I) (last : Except E F) :
    ofList (x :: xs) last 0 = .ok (.inl x) := by
  simp [ofList]

end Script

namespace Policy

variable {I F E : Type} {q : Policy I F E} {l xs ys : List I}

@[simp] theorem accepts_nil : q.Accepts l [] := by
  intro i x h; simp at h

theorem accepts_cons {x : I} :
    q.Accepts l (x :: xs) ↔ q.answer l x = none ∧ q.Accepts (l ++ [x]) xs := by
  constructor
  · intro h
    refine ⟨by simpa using h 0 x rfl, fun i y hy => ?_⟩
    have := h (i + 1) y (by simpa using hy)
    simpa using this
  · rintro ⟨h0, h⟩ i y hy
    cases i with
    | zero => simp at hy; subst hy; simpa using h0
    | succ i =>
      have := h i y (by simpa using hy)
      simpa using this

theorem accepts_append : q.Accepts l (xs ++ ys) ↔ q.Accepts l xs ∧ q.Accepts (l ++ xs) ys := by
  induction xs generalizing l with
  | nil => simp
  | cons x xs ih => simp [accepts_cons, ih, and_assoc]

theorem Accepts.take (h : q.Accepts l xs) (k : Nat) : q.Accepts l (xs.take k) := by
  have := h; rw [← List.take_append_drop k xs, accepts_append] at this; exact this.1

theorem Accepts.drop (h : q.Accepts l xs) (k : Nat) : q.Accepts (l ++ xs.take k) (xs.drop k) := by
  have := h; rw [← List.take_append_drop k xs, accepts_append] at this; exact this.2

theorem FailsAt.lt {i : Nat} {e : E} (h : q.FailsAt l xs i e) : i < xs.length := by
  obtain ⟨_, x, hx, _⟩ := h
  rw [List.getElem?_eq_some_iff] at hx; exact hx.1

theorem failsAt_zero_cons {x : I} {e : E} : q.FailsAt l (x :: xs) 0 e ↔ q.answer l x = some e := by
  simp [FailsAt]

theorem failsAt_succ_cons {x : I} {i : Nat} {e : E} :
    q.FailsAt l (x :: xs) (i + 1) e ↔ q.answer l x = none ∧ q.FailsAt (l ++ [x]) xs i e := by
  simp [FailsAt, accepts_cons, and_assoc]

theorem FailsAt.append_left {i : Nat} {e : E} (h : q.Accepts l xs) (h' : q.FailsAt (l ++ xs) ys i e) :
    q.FailsAt l (xs ++ ys) (xs.length + i) e := by
  induction xs generalizing l with
  | nil => simpa using h'
  | cons x xs ih =>
    rw [accepts_cons] at h
    rw [List.length_cons, show xs.length + 1 + i = (xs.length + i) + 1 by omega, List.cons_append,
      failsAt_succ_cons]
    exact ⟨h.1, ih h.2 (by simpa using h')⟩

theorem FailsAt.append_right {i : Nat} {e : E} (h : q.FailsAt l xs i e) (ys : List I) :
    q.FailsAt l (xs ++ ys) i e := by
  have hlt := h.lt
  obtain ⟨h1, x, hx, h2⟩ := h
  refine ⟨?_, x, ?_, ?_⟩
  · rwa [List.take_append_of_le_length (by omega)]
  · rwa [List.getElem?_append_left hlt]
  · rwa [List.take_append_of_le_length (by omega)]

theorem FailsAt.of_take {i k : Nat} {e : E} (h : q.FailsAt l (xs.take k) i e) : q.FailsAt l xs i e := by
  have := h.append_right (xs.drop k)
  rwa [List.take_append_drop] at this

theorem accepts_or_failsAt (q : Policy I F E) (l xs : List I) :
    q.Accepts l xs ∨ ∃ i e, q.FailsAt l xs i e := by
  induction xs generalizing l with
  | nil => simp
  | cons x xs ih =>
    cases hx : q.answer l x with
    | some e => exact .inr ⟨0, e, failsAt_zero_cons.mpr hx⟩
    | none =>
      rcases ih (l ++ [x]) with h | ⟨i, e, h⟩
      · exact .inl (accepts_cons.mpr ⟨hx, h⟩)
      · exact .inr ⟨i + 1, e, failsAt_succ_cons.mpr ⟨hx, h⟩⟩

theorem FailsAt.not_accepts {i : Nat} {e : E} (h : q.FailsAt l xs i e) : ¬ q.Accepts l xs := by
  obtain ⟨_, x, hx, he⟩ := h
  intro ha
  rw [ha i x hx] at he
  cases he

theorem FailsAt.unique {i j : Nat} {e e' : E} (h : q.FailsAt l xs i e) (h' : q.FailsAt l xs j e') :
    i = j ∧ e = e' := by
  have hi := h.lt
  have hj := h'.lt
  obtain ⟨h1, x, hx, he⟩ := h
  obtain ⟨h1', x', hx', he'⟩ := h'
  rcases Nat.lt_trichotomy i j with hlt | heq | hlt
  · have := h1' i x (by rw [List.getElem?_take_of_lt hlt]; exact hx)
    rw [List.take_take, Nat.min_eq_left (by omega), he] at this
    cases this
  · subst heq
    rw [hx] at hx'; cases hx'
    rw [he] at he'; cases he'
    exact ⟨rfl, rfl⟩
  · have := h1 j x' (by rw [List.getElem?_take_of_lt hlt]; exact hx')
    rw [List.take_take, Nat.min_eq_left (by omega), he'] at this
    cases this

@[simp] theorem answer_acceptAll (x : I) : (acceptAll : Policy I F E).answer l x = none := rfl

@[simp] theorem accepts_acceptAll : (acceptAll : Policy I F E).Accepts l xs := fun _ _ _ => rfl

end Policy

section

variable {σ I F E : Type}

theorem BufPlays.toPlays {P : BufferedProducer σ I F E} {s : σ} {c : Script I F E} (h : BufPlays P s c) :
    Plays P.toProducer s c := by
  obtain ⟨R, hR, hs⟩ := h; exact ⟨R, hR.toPlaysLaw, hs⟩

theorem BulkPlays.toBufPlays {P : BulkProducer σ I F E} {s : σ} {c : Script I F E} (h : BulkPlays P s c) :
    BufPlays P.toBufferedProducer s c := by
  obtain ⟨R, hR, hs⟩ := h; exact ⟨_, hR.base, hs⟩

theorem BulkPlays.toPlays {P : BulkProducer σ I F E} {s : σ} {c : Script I F E} (h : BulkPlays P s c) :
    Plays P.toProducer s c := h.toBufPlays.toPlays

theorem BufCollects.toCollects {C : BufferedConsumer σ I F E} {D q s l} (h : BufCollects C D q s l) :
    Collects C.toConsumer D q s l := by
  obtain ⟨R, hR, hs⟩ := h; exact ⟨R, hR.toCollectsLaw, hs⟩

theorem BulkCollects.toBufCollects {C : BulkConsumer σ I F E} {D q s l} (h : BulkCollects C D q s l) :
    BufCollects C.toBufferedConsumer D q s l := by
  obtain ⟨R, hR, hs⟩ := h; exact ⟨_, hR.base, hs⟩

theorem BulkCollects.toCollects {C : BulkConsumer σ I F E} {D q s l} (h : BulkCollects C D q s l) :
    Collects C.toConsumer D q s l := h.toBufCollects.toCollects

theorem BufDelays.toDelays {C : BufferedConsumer σ I F E} {D s l} (h : BufDelays C D s l) :
    Delays C.toConsumer D s l := by
  obtain ⟨R, hR, hs⟩ := h; exact ⟨R, hR.toDefersLaw, hs⟩

theorem BulkDelays.toBufDelays {C : BulkConsumer σ I F E} {D s l} (h : BulkDelays C D s l) :
    BufDelays C.toBufferedConsumer D s l := by
  obtain ⟨R, hR, hs⟩ := h; exact ⟨_, hR.base, hs⟩

theorem BulkDelays.toDelays {C : BulkConsumer σ I F E} {D s l} (h : BulkDelays C D s l) :
    Delays C.toConsumer D s l := h.toBufDelays.toDelays

/-! ### Laws with a step-by-step form, used by clients -/

theorem Plays.step {P : Producer σ I F E} {s : σ} {c : Script I F E} (h : Plays P s c) :
    ∃ s', P.produce s = ok (s', c 0) ∧ ∀ x, c 0 = .ok (.inl x) → Plays P s' (c.drop 1) := by
  obtain ⟨R, hR, hs⟩ := h
  obtain ⟨s', h1, h2⟩ := hR.produce s c hs
  exact ⟨s', h1, fun x hx => ⟨R, hR, h2 x hx⟩⟩

theorem Collects.observe {C : Consumer σ I F E} {D q s l} (h : Collects C D q s l) : D s l none := by
  obtain ⟨R, hR, hs⟩ := h; exact hR.observe _ _ hs

theorem Collects.consume_ok {C : Consumer σ I F E} {D q s l} (h : Collects C D q s l) (x : I)
    (hq : q.answer l x = none) : ∃ s', C.consume s x = ok (s', .ok ()) ∧ Collects C D q s' (l ++ [x]) := by
  obtain ⟨R, hR, hs⟩ := h
  obtain ⟨s', h1, h2⟩ := hR.consume_ok _ _ x hs hq
  exact ⟨s', h1, R, hR, h2⟩

theorem Collects.consume_err {C : Consumer σ I F E} {D q s l} (h : Collects C D q s l) (x : I) {e : E}
    (hq : q.answer l x = some e) : ∃ s', C.consume s x = ok (s', .error e) ∧ D s' l none := by
  obtain ⟨R, hR, hs⟩ := h
  exact hR.consume_err _ _ x e hs hq

theorem Collects.close_ok {C : Consumer σ I F E} {D q s l} (h : Collects C D q s l) (f : F)
    (hq : q.refuseClose l f = none) : ∃ s', C.close s f = ok (s', .ok ()) ∧ D s' l (some f) := by
  obtain ⟨R, hR, hs⟩ := h
  exact hR.close_ok _ _ f hs hq

theorem Collects.close_err {C : Consumer σ I F E} {D q s l} (h : Collects C D q s l) (f : F) {e : E}
    (hq : q.refuseClose l f = some e) : ∃ s', C.close s f = ok (s', .error e) ∧ D s' l none := by
  obtain ⟨R, hR, hs⟩ := h
  exact hR.close_err _ _ f e hs hq

theorem Delays.observe {C : Consumer σ I F E} {D s l} (h : Delays C D s l) : ∃ d, d <+: l ∧ D s d none := by
  obtain ⟨R, hR, hs⟩ := h; exact hR.observe _ _ hs

theorem Delays.consume {C : Consumer σ I F E} {D s l} (h : Delays C D s l) (x : I) : ∃ s',
    (C.consume s x = ok (s', .ok ()) ∧ Delays C D s' (l ++ [x])) ∨
    (∃ e d, C.consume s x = ok (s', .error e) ∧ d <+: l ++ [x] ∧ D s' d none) := by
  obtain ⟨R, hR, hs⟩ := h
  obtain ⟨s', h1 | h1⟩ := hR.consume _ _ x hs
  · exact ⟨s', .inl ⟨h1.1, R, hR, h1.2⟩⟩
  · exact ⟨s', .inr h1⟩

theorem Delays.close {C : Consumer σ I F E} {D s l} (h : Delays C D s l) (f : F) : ∃ s',
    (C.close s f = ok (s', .ok ()) ∧ D s' l (some f)) ∨
    (∃ e d, C.close s f = ok (s', .error e) ∧ d <+: l ∧ D s' d none) := by
  obtain ⟨R, hR, hs⟩ := h
  exact hR.close _ _ f hs

/-! ### The default bulk methods are lawful -/

theorem bulkProduceDefault_law {exposeItems : σ → Outcome (σ × Except E (List I ⊕ F))}
    {considerProduced : σ → Nat → Outcome (σ × Except E Unit)} {R : σ → Script I F E → Nat → Prop}
    (expose : ∀ s c n, R s c n → ∃ s',
      (∃ xs, xs ≠ [] ∧ c.StartsWith xs ∧ exposeItems s = ok (s', .ok (.inl xs)) ∧ R s' c xs.length) ∨
      (∃ f, c 0 = .ok (.inr f) ∧ exposeItems s = ok (s', .ok (.inr f))) ∨
      (∃ e, c 0 = .error e ∧ exposeItems s = ok (s', .error e)))
    (consider : ∀ s c n k, R s c n → 0 < n → k ≤ n →
      ∃ s', considerProduced s k = ok (s', .ok ()) ∧ R s' (c.drop k) (n - k))
    (s : σ) (c : Script I F E) (n : Nat) (buf : List I) (h : R s c n) (hbuf : buf ≠ []) :
    ∃ s' buf', buf'.length = buf.length ∧
    ((∃ k, 0 < k ∧ k ≤ buf.length ∧
        bulkProduceDefault exposeItems considerProduced s buf = ok (s', .ok (.inl k), buf') ∧
        c.StartsWith (buf'.take k) ∧ ∃ m, R s' (c.drop k) m) ∨
     (∃ f, c 0 = .ok (.inr f) ∧
        bulkProduceDefault exposeItems considerProduced s buf = ok (s', .ok (.inr f), buf')) ∨
     (∃ e, c 0 = .error e ∧
        bulkProduceDefault exposeItems considerProduced s buf = ok (s', .error e, buf'))) := by
  obtain ⟨s1, ⟨xs, hne, hsw, hex, hR⟩ | ⟨f, hf, hex⟩ | ⟨e, he, hex⟩⟩ := expose s c n h
  · have hx : 0 < xs.length := List.length_pos_iff.mpr hne
    have hb : 0 < buf.length := List.length_pos_iff.mpr hbuf
    obtain ⟨s2, hc, hR2⟩ := consider s1 c xs.length (min xs.length buf.length) hR hx (Nat.min_le_left _ _)
    refine ⟨s2, xs.take (min xs.length buf.length) ++ buf.drop (min xs.length buf.length), ?_, .inl
      ⟨min xs.length buf.length, by omega, by omega, ?_, ?_, _, hR2⟩⟩
    · simp; omega
    · simp [bulkProduceDefault, hex, hc]
    · have hl : (xs.take (min xs.length buf.length)).length = min xs.length buf.length := by simp
      rw [List.take_append_of_le_length (by omega), List.take_of_length_le (by omega)]
      exact hsw.take _
  · exact ⟨s1, buf, rfl, .inr (.inl ⟨f, hf, by simp [bulkProduceDefault, hex]⟩)⟩
  · exact ⟨s1, buf, rfl, .inr (.inr ⟨e, he, by simp [bulkProduceDefault, hex]⟩)⟩

/-- A bulk producer that does not override `bulk_produce` is lawful as soon as its required methods are. -/
theorem BulkPlaysLaw.of_default {P : BulkProducer σ I F E} {R : σ → Script I F E → Nat → Prop}
    (hdef : P.bulkProduce = bulkProduceDefault P.exposeItems P.considerProduced)
    (base : BufPlaysLaw P.toBufferedProducer (fun s c => ∃ n, R s c n))
    (expose : ∀ s c n, R s c n → ∃ s',
      (∃ xs, xs ≠ [] ∧ c.StartsWith xs ∧ P.exposeItems s = ok (s', .ok (.inl xs)) ∧ R s' c xs.length) ∨
      (∃ f, c 0 = .ok (.inr f) ∧ P.exposeItems s = ok (s', .ok (.inr f))) ∨
      (∃ e, c 0 = .error e ∧ P.exposeItems s = ok (s', .error e)))
    (consider : ∀ s c n k, R s c n → 0 < n → k ≤ n →
      ∃ s', P.considerProduced s k = ok (s', .ok ()) ∧ R s' (c.drop k) (n - k)) :
    BulkPlaysLaw P R where
  base := base
  expose := expose
  consider := consider
  bulkProduce := by
    intro s c n buf h hb
    rw [hdef]
    exact bulkProduceDefault_law expose consider s c n buf h hb

/-- A bulk consumer that does not override `bulk_consume` is lawful as soon as its required methods are. -/
theorem BulkCollectsLaw.of_default {C : BulkConsumer σ I F E} {D : σ → List I → Option F → Prop}
    {q : Policy I F E} {R : σ → List I → List I → Prop}
    (hdef : C.bulkConsume = bulkConsumeDefault C.exposeSlots C.writeSlots C.consumeSlots)
    (base : BufCollectsLaw C.toBufferedConsumer D q (fun s l => ∃ slots, R s l slots))
    (expose_ok : ∀ s l slots, R s l slots → q.refuse l = none →
      ∃ s' slots', slots' ≠ [] ∧ C.exposeSlots s = ok (s', .ok slots') ∧ R s' l slots')
    (expose_err : ∀ s l slots e, R s l slots → q.refuse l = some e →
      ∃ s', C.exposeSlots s = ok (s', .error e) ∧ D s' l none)
    (write : ∀ s l slots ws, R s l slots → ws.length ≤ slots.length →
      R (C.writeSlots s ws) l (ws ++ slots.drop ws.length))
    (consumeSlots_ok : ∀ s l slots k, R s l slots → slots ≠ [] → k ≤ slots.length →
      q.Accepts l (slots.take k) →
      ∃ s', C.consumeSlots s k = ok (s', .ok ()) ∧ R s' (l ++ slots.take k) (slots.drop k))
    (consumeSlots_err : ∀ s l slots k i e, R s l slots → slots ≠ [] → k ≤ slots.length →
      q.FailsAt l (slots.take k) i e →
      ∃ s', C.consumeSlots s k = ok (s', .error e) ∧ D s' (l ++ slots.take i) none) :
    BulkCollectsLaw C D q R where
  base := base
  expose_ok := expose_ok
  expose_err := expose_err
  write := write
  consumeSlots_ok := consumeSlots_ok
  consumeSlots_err := consumeSlots_err
  bulkConsume := by
    intro s l slots buf h hb
    rw [hdef]
    have hb0 : 0 < buf.length := List.length_pos_iff.mpr hb
    obtain ⟨x, rest, rfl⟩ := List.exists_cons_of_ne_nil hb
    cases hq : q.refuse l with
    | some e =>
      obtain ⟨s', h1, h2⟩ := expose_err s l slots e h hq
      refine ⟨s', .inr ⟨0, e, ⟨by simp, x, rfl, by simp [Policy.answer, hq]⟩, ?_, by simpa using h2⟩⟩
      simp [bulkConsumeDefault, h1]
    | none =>
      obtain ⟨s1, sl, hne, hex, hR⟩ := expose_ok s l slots h hq
      have hsl : 0 < sl.length := List.length_pos_iff.mpr hne
      generalize x :: rest = buf at *
      generalize hk : min sl.length buf.length = k at *
      have hk' : k ≤ sl.length ∧ k ≤ buf.length ∧ 0 < k := by omega
      have hlen : (buf.take k).length = k := by simp; omega
      have hW := write s1 l sl (buf.take k) hR (by omega)
      have htk : (buf.take k ++ sl.drop (buf.take k).length).take k = buf.take k := by
        rw [List.take_append_of_le_length (by omega), List.take_take, Nat.min_self]
      have hlen2 : k ≤ (buf.take k ++ sl.drop (buf.take k).length).length := by
        rw [List.length_append]; omega
      have hne2 : buf.take k ++ sl.drop (buf.take k).length ≠ [] := by
        intro h0; rw [h0] at hlen2; simp at hlen2; omega
      rcases q.accepts_or_failsAt l (buf.take k) with hall | ⟨i, e, hf⟩
      · obtain ⟨s2, h1, h2⟩ := consumeSlots_ok _ _ _ k hW hne2 hlen2 (by rw [htk]; exact hall)
        rw [htk] at h2
        refine ⟨s2, .inl ⟨k, by omega, by omega, hall, ?_, _, h2⟩⟩
        simp [bulkConsumeDefault, hex, hk, h1]
      · obtain ⟨s2, h1, h2⟩ := consumeSlots_err _ _ _ k i e hW hne2 hlen2 (by rw [htk]; exact hf)
        have hik := hf.lt
        rw [hlen] at hik
        have htk2 : (buf.take k ++ sl.drop (buf.take k).length).take i = buf.take i := by
          rw [List.take_append_of_le_length (by omega), List.take_take, Nat.min_eq_left (by omega)]
        rw [htk2] at h2
        refine ⟨s2, .inr ⟨i, e, hf.of_take, ?_, h2⟩⟩
        simp [bulkConsumeDefault, hex, hk, h1]

theorem Faults.regular_any : (Faults.any : Faults I F E).Regular where
  during_prefix _ _ _ h := h
  exposing_prefix _ _ _ h := h
  closing_prefix _ _ _ _ h := h
  mono _ _ _ _ h h' := h.trans h'
  exposing_during _ _ _ _ h _ := h.trans (List.prefix_append _ _)
  during_exposing _ _ _ h := h
  during_closing _ _ _ _ h := h

theorem Policy.regular_faults (q : Policy I F E) : q.faults.Regular where
  during_prefix _ _ _ h := h.1
  exposing_prefix _ _ _ h := h.1
  closing_prefix _ _ _ _ h := h.1
  mono := by
    rintro l l' d e ⟨h1, ⟨x, h2, h3⟩ | h2⟩ h
    · exact ⟨h1.trans h, .inl ⟨x, h2.trans h, h3⟩⟩
    · exact ⟨h1.trans h, .inr h2⟩
  exposing_during := by
    rintro l buf d e ⟨h1, ⟨x, h2, h3⟩ | h2 | ⟨rfl, h2⟩⟩ hb
    · exact ⟨h1.trans (List.prefix_append _ _), .inl ⟨x, h2.trans (List.prefix_append _ _), h3⟩⟩
    · exact ⟨h1.trans (List.prefix_append _ _), .inr h2⟩
    · cases buf with
      | nil => exact absurd rfl hb
      | cons x buf => exact ⟨List.prefix_append _ _, .inl ⟨x, ⟨buf, by simp⟩, by simp [Policy.answer, h2]⟩⟩
  during_exposing := by
    rintro l d e ⟨h1, h2 | h2⟩
    · exact ⟨h1, .inl h2⟩
    · exact ⟨h1, .inr (.inl h2)⟩
  during_closing := by
    rintro l f d e ⟨h1, h2 | h2⟩
    · exact ⟨h1, .inl h2⟩
    · exact ⟨h1, .inr (.inl h2)⟩

/-- The default `bulk_consume` in terms of `expose_slots` and `consume_slots`. -/
theorem bulkConsumeDefault_defers {C : BulkConsumer σ I F E} {D : σ → List I → Option F → Prop}
    {X : Faults I F E} (hX : X.Regular) {R : σ → List I → List I → Prop}
    (expose : ∀ s l slots, R s l slots → ∃ s',
      (∃ slots', slots' ≠ [] ∧ C.exposeSlots s = ok (s', .ok slots') ∧ R s' l slots') ∨
      (∃ e d, C.exposeSlots s = ok (s', .error e) ∧ X.exposing l d e ∧ D s' d none))
    (write : ∀ s l slots ws, R s l slots → ws.length ≤ slots.length →
      R (C.writeSlots s ws) l (ws ++ slots.drop ws.length))
    (consumeSlots : ∀ s l slots k, R s l slots → slots ≠ [] → k ≤ slots.length → ∃ s',
      (C.consumeSlots s k = ok (s', .ok ()) ∧ R s' (l ++ slots.take k) (slots.drop k)) ∨
      (∃ e d, C.consumeSlots s k = ok (s', .error e) ∧ X.during (l ++ slots.take k) d e ∧ D s' d none)) :
    ∀ s l slots buf, R s l slots → buf ≠ [] → ∃ s',
      (∃ k, 0 < k ∧ k ≤ buf.length ∧
        bulkConsumeDefault C.exposeSlots C.writeSlots C.consumeSlots s buf = ok (s', .ok k) ∧
        ∃ slots', R s' (l ++ buf.take k) slots') ∨
      (∃ e d, bulkConsumeDefault C.exposeSlots C.writeSlots C.consumeSlots s buf = ok (s', .error e) ∧
        X.during (l ++ buf) d e ∧ D s' d none) := by
  intro s l slots buf h hb
  have hb0 : 0 < buf.length := List.length_pos_iff.mpr hb
  obtain ⟨s1, ⟨sl, hne, hex, hR⟩ | ⟨e, d, hex, hd, hD⟩⟩ := expose s l slots h
  · have hsl : 0 < sl.length := List.length_pos_iff.mpr hne
    generalize hk : min sl.length buf.length = k at *
    have hk' : k ≤ sl.length ∧ k ≤ buf.length ∧ 0 < k := by omega
    have hlen : (buf.take k).length = k := by simp; omega
    have hW := write s1 l sl (buf.take k) hR (by omega)
    have htk : (buf.take k ++ sl.drop (buf.take k).length).take k = buf.take k := by
      rw [List.take_append_of_le_length (by omega), List.take_take, Nat.min_self]
    have hlen2 : k ≤ (buf.take k ++ sl.drop (buf.take k).length).length := by
      rw [List.length_append]; omega
    have hne2 : buf.take k ++ sl.drop (buf.take k).length ≠ [] := by
      intro h0; rw [h0] at hlen2; simp at hlen2; omega
    obtain ⟨s2, ⟨h1, h2⟩ | ⟨e, d, h1, h2, h3⟩⟩ := consumeSlots _ _ _ k hW hne2 hlen2
    · rw [htk] at h2
      refine ⟨s2, .inl ⟨k, by omega, by omega, ?_, _, h2⟩⟩
      simp [bulkConsumeDefault, hex, hk, h1]
    · rw [htk] at h2
      refine ⟨s2, .inr ⟨e, d, ?_, ?_, h3⟩⟩
      · simp [bulkConsumeDefault, hex, hk, h1]
      · exact hX.mono _ _ _ _ h2 (by
          rw [List.prefix_append_right_inj]; exact List.take_prefix _ _)
  · refine ⟨s1, .inr ⟨e, d, ?_, hX.exposing_during _ _ _ _ hd hb, hD⟩⟩
    simp [bulkConsumeDefault, hex]

theorem BulkDefersLaw.of_default {C : BulkConsumer σ I F E} {D : σ → List I → Option F → Prop}
    {X : Faults I F E} (hX : X.Regular)
    {R : σ → List I → List I → Prop}
    (hdef : C.bulkConsume = bulkConsumeDefault C.exposeSlots C.writeSlots C.consumeSlots)
    (base : BufDefersLaw C.toBufferedConsumer D X (fun s l => ∃ slots, R s l slots))
    (expose : ∀ s l slots, R s l slots → ∃ s',
      (∃ slots', slots' ≠ [] ∧ C.exposeSlots s = ok (s', .ok slots') ∧ R s' l slots') ∨
      (∃ e d, C.exposeSlots s = ok (s', .error e) ∧ X.exposing l d e ∧ D s' d none))
    (write : ∀ s l slots ws, R s l slots → ws.length ≤ slots.length →
      R (C.writeSlots s ws) l (ws ++ slots.drop ws.length))
    (consumeSlots : ∀ s l slots k, R s l slots → slots ≠ [] → k ≤ slots.length → ∃ s',
      (C.consumeSlots s k = ok (s', .ok ()) ∧ R s' (l ++ slots.take k) (slots.drop k)) ∨
      (∃ e d, C.consumeSlots s k = ok (s', .error e) ∧ X.during (l ++ slots.take k) d e ∧ D s' d none)) :
    BulkDefersLaw C D X R where
  base := base
  expose := expose
  write := write
  consumeSlots := consumeSlots
  bulkConsume := by rw [hdef]; exact bulkConsumeDefault_defers hX expose write consumeSlots

theorem Policy.FailsAt.faults {q : Policy I F E} {l xs : List I} {i : Nat} {e : E} (h : q.FailsAt l xs i e) :
    q.faults.during (l ++ xs) (l ++ xs.take i) e := by
  obtain ⟨_, x, hx, h2⟩ := h
  refine ⟨?_, .inl ⟨x, ?_, h2⟩⟩
  · rw [List.prefix_append_right_inj]; exact List.take_prefix _ _
  · rw [List.append_assoc, List.prefix_append_right_inj]
    have := List.take_prefix (i + 1) xs
    rwa [List.take_add_one, hx] at this

/-- A consumer that does everything immediately is a special case of one that may delay. -/
theorem BulkCollectsLaw.toDefers {C : BulkConsumer σ I F E} {D : σ → List I → Option F → Prop} {q : Policy I F E}
    {R : σ → List I → List I → Prop} (h : BulkCollectsLaw C D q R) : BulkDefersLaw C D q.faults R where
  base :=
    { observe := fun s l hs => ⟨l, List.prefix_rfl, h.base.observe s l hs⟩
      consume := by
        intro s l x hs
        cases ha : q.answer l x with
        | none =>
          obtain ⟨s', h1, h2⟩ := h.base.consume_ok s l x hs ha
          exact ⟨s', .inl ⟨h1, h2⟩⟩
        | some e =>
          obtain ⟨s', h1, h2⟩ := h.base.consume_err s l x e hs ha
          exact ⟨s', .inr ⟨e, l, h1, ⟨List.prefix_append _ _, .inl ⟨x, List.prefix_rfl, ha⟩⟩, h2⟩⟩
      close := by
        intro s l f hs
        cases ha : q.refuseClose l f with
        | none =>
          obtain ⟨s', h1, h2⟩ := h.base.close_ok s l f hs ha
          exact ⟨s', .inl ⟨h1, h2⟩⟩
        | some e =>
          obtain ⟨s', h1, h2⟩ := h.base.close_err s l f e hs ha
          exact ⟨s', .inr ⟨e, l, h1, ⟨List.prefix_rfl, .inr (.inr ⟨rfl, ha⟩)⟩, h2⟩⟩
      flush := by
        intro s l hs
        obtain ⟨s', ⟨h1, h2⟩ | ⟨e, h1, h2, h3⟩⟩ := h.base.flush s l hs
        · exact ⟨s', .inl ⟨h1, h2, h.base.observe _ _ h2⟩⟩
        · exact ⟨s', .inr ⟨e, l, h2, ⟨List.prefix_rfl, .inr h1⟩, h3⟩⟩ }
  expose := by
    intro s l slots hs
    cases ha : q.refuse l with
    | none =>
      obtain ⟨s', slots', h1, h2, h3⟩ := h.expose_ok s l slots hs ha
      exact ⟨s', .inl ⟨slots', h1, h2, h3⟩⟩
    | some e =>
      obtain ⟨s', h1, h2⟩ := h.expose_err s l slots e hs ha
      exact ⟨s', .inr ⟨e, l, h1, ⟨List.prefix_rfl, .inr (.inr ⟨rfl, ha⟩)⟩, h2⟩⟩
  write := h.write
  consumeSlots := by
    intro s l slots k hs hne hk
    rcases q.accepts_or_failsAt l (slots.take k) with ha | ⟨i, e, ha⟩
    · obtain ⟨s', h1, h2⟩ := h.consumeSlots_ok s l slots k hs hne hk ha
      exact ⟨s', .inl ⟨h1, h2⟩⟩
    · obtain ⟨s', h1, h2⟩ := h.consumeSlots_err s l slots k i e hs hne hk ha
      have hf := ha.faults
      have hi := ha.lt
      simp only [List.length_take] at hi
      rw [List.take_take, Nat.min_eq_left (by omega)] at hf
      exact ⟨s', .inr ⟨e, _, h1, hf, h2⟩⟩
  bulkConsume := by
    intro s l slots buf hs hb
    obtain ⟨s', ⟨k, h1, h2, _, h4, h5⟩ | ⟨i, e, h1, h2, h3⟩⟩ := h.bulkConsume s l slots buf hs hb
    · exact ⟨s', .inl ⟨k, h1, h2, h4, h5⟩⟩
    · exact ⟨s', .inr ⟨e, _, h2, h1.faults, h3⟩⟩

theorem BulkCollects.toBulkDefers {C : BulkConsumer σ I F E} {D q s l} (h : BulkCollects C D q s l) :
    BulkDefers C D q.faults s l := by
  obtain ⟨R, hR, hs⟩ := h
  exact ⟨R, hR.toDefers, hs⟩

/-- A consumer that fails only as `X` allows fails only as a more permissive `Y` allows. -/
theorem BulkDefers.weaken {C : BulkConsumer σ I F E} {D : σ → List I → Option F → Prop} {X Y : Faults I F E}
    (h1 : ∀ l d e, X.during l d e → Y.during l d e) (h2 : ∀ l d e, X.exposing l d e → Y.exposing l d e)
    (h3 : ∀ l f d e, X.closing l f d e → Y.closing l f d e) {s : σ} {l : List I} (h : BulkDefers C D X s l) :
    BulkDefers C D Y s l := by
  obtain ⟨R, hR, hs⟩ := h
  refine ⟨R, ⟨⟨⟨hR.base.observe, ?_, ?_⟩, ?_⟩, ?_, hR.write, ?_, ?_⟩, hs⟩
  · intro s l x h
    obtain ⟨s', h | ⟨e, d, h, h', h''⟩⟩ := hR.base.consume s l x h
    · exact ⟨s', .inl h⟩
    · exact ⟨s', .inr ⟨e, d, h, h1 _ _ _ h', h''⟩⟩
  · intro s l f h
    obtain ⟨s', h | ⟨e, d, h, h', h''⟩⟩ := hR.base.close s l f h
    · exact ⟨s', .inl h⟩
    · exact ⟨s', .inr ⟨e, d, h, h3 _ _ _ _ h', h''⟩⟩
  · intro s l h
    obtain ⟨s', h | ⟨e, d, h, h', h''⟩⟩ := hR.base.flush s l h
    · exact ⟨s', .inl h⟩
    · exact ⟨s', .inr ⟨e, d, h, h1 _ _ _ h', h''⟩⟩
  · intro s l slots h
    obtain ⟨s', h | ⟨e, d, h, h', h''⟩⟩ := hR.expose s l slots h
    · exact ⟨s', .inl h⟩
    · exact ⟨s', .inr ⟨e, d, h, h2 _ _ _ h', h''⟩⟩
  · intro s l slots k h hne hk
    obtain ⟨s', h | ⟨e, d, h, h', h''⟩⟩ := hR.consumeSlots s l slots k h hne hk
    · exact ⟨s', .inl h⟩
    · exact ⟨s', .inr ⟨e, d, h, h1 _ _ _ h', h''⟩⟩
  · intro s l slots buf h hb
    obtain ⟨s', h | ⟨e, d, h, h', h''⟩⟩ := hR.bulkConsume s l slots buf h hb
    · exact ⟨s', .inl h⟩
    · exact ⟨s', .inr ⟨e, d, h, h1 _ _ _ h', h''⟩⟩

theorem BulkDefers.toBulkDelays {C : BulkConsumer σ I F E} {D : σ → List I → Option F → Prop} {X : Faults I F E}
    (hX : X.Regular) {s : σ} {l : List I} (h : BulkDefers C D X s l) : BulkDelays C D s l :=
  h.weaken hX.during_prefix hX.exposing_prefix hX.closing_prefix

end

end Verif
