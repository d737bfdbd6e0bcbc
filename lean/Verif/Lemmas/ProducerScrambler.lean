import Verif.Model.Scramblers
import Verif.Lemmas.Loop
import Verif.Lemmas.Spec
import Verif.Lemmas.QueueRing

/-!
# The producer `BulkScrambler` is lawful
-/

namespace Verif

open Outcome

section

variable {σ I F E : Type}

@[simp] theorem debugAssert_true (debug : Bool) : debugAssert debug true = ok () := by
  cases debug <;> rfl

theorem debugAssert_of {debug b : Bool} (h : b = true) : debugAssert debug b = ok () := by
  subst h; exact debugAssert_true debug

theorem ScrambleProduce.makeProgress_iff (ops : List ScrambleProduce) :
    makeProgress ops = true ↔ ∃ op ∈ ops, op ≠ .slurp := by
  induction ops with
  | nil => simp [makeProgress]
  | cons op ops ih => by_cases h : op = .slurp <;> simp [makeProgress, h, ih]

/-- There is an operation other than `Slurp` some steps ahead. -/
theorem ahead {α : Type} {ops : List α} {p : α → Prop} (h : ∃ op ∈ ops, p op) {i : Nat} (hi : i < ops.length) :
    ∃ d op, ops[(i + d) % ops.length]? = some op ∧ p op := by
  obtain ⟨op, hmem, hp⟩ := h
  obtain ⟨j, hj, rfl⟩ := List.mem_iff_getElem.mp hmem
  refine ⟨j + ops.length - i, _, ?_, hp⟩
  rw [show i + (j + ops.length - i) = j + ops.length by omega, Nat.add_mod_right, Nat.mod_eq_of_lt hj]
  exact List.getElem?_eq_getElem hj

namespace ProducerScrambler

/-- The buffer contains `l`, of which the first `n` are exposed; the operations are as set up by the constructor. -/
structure Ok (cap : Nat) (s : ProducerScrambler σ I F E) (l : List I) (n : Nat) : Prop where
  cap_pos : 0 < cap
  holds : s.buffer.Holds cap l [] n
  index : s.index < s.operations.length
  progress : ∃ op ∈ s.operations, op ≠ .slurp

theorem Ok.len {cap : Nat} {s : ProducerScrambler σ I F E} {l : List I} {n : Nat} (h : s.Ok cap l n) :
    s.buffer.len = l.length := h.holds.amount

theorem Ok.capacity {cap : Nat} {s : ProducerScrambler σ I F E} {l : List I} {n : Nat} (h : s.Ok cap l n) :
    s.buffer.capacity = cap := h.holds.length

theorem Ok.advance {cap : Nat} {s : ProducerScrambler σ I F E} {l : List I} {n : Nat} (h : s.Ok cap l n) :
    s.advance = ok { s with index := (s.index + 1) % s.operations.length } ∧
      Ok cap { s with index := (s.index + 1) % s.operations.length } l n := by
  have hpos : 0 < s.operations.length := Nat.lt_of_le_of_lt (Nat.zero_le _) h.index
  refine ⟨by simp [ProducerScrambler.advance, mod_of_pos hpos], h.cap_pos, h.holds, Nat.mod_lt _ hpos, h.progress⟩

theorem Ok.hide {cap : Nat} {s : ProducerScrambler σ I F E} {l : List I} {n : Nat} (h : s.Ok cap l n) : s.Ok cap l 0 :=
  ⟨h.cap_pos, h.holds.show (Nat.zero_le _), h.index, h.progress⟩

theorem ok_new {inner : σ} {ops : List ScrambleProduce} {cap : Nat} {tmp : Nat → I} (hcap : 0 < cap) :
    Ok cap (new inner ops cap tmp : ProducerScrambler σ I F E) [] 0 := by
  refine ⟨hcap, Fixed.holds_new cap tmp, ?_, ?_⟩
  · simp only [new]
    split
    · rename_i h
      obtain ⟨op, hop, _⟩ := (ScrambleProduce.makeProgress_iff ops).mp h
      exact List.length_pos_of_mem hop
    · simp
  · simp only [new]
    split
    · rename_i h; exact (ScrambleProduce.makeProgress_iff ops).mp h
    · exact ⟨.produce, by simp, by simp⟩

end ProducerScrambler

/-- `Done` holds for the states of the producer after it has reported its final value or an error. -/
structure EndsIn (P : BulkProducer σ I F E) (R : σ → Script I F E → Nat → Prop) (Done : σ → Prop) : Prop where
  produce : ∀ s c n s' r, R s c n → P.produce s = ok (s', r) → (∀ x, r ≠ .ok (.inl x)) → Done s'
  expose : ∀ s c n s' r, R s c n → P.exposeItems s = ok (s', r) → (∀ xs, r ≠ .ok (.inl xs)) → Done s'
  slurp : ∀ s c n s' e, R s c n → P.slurp s = ok (s', .error e) → Done s'

theorem EndsIn.trivial (P : BulkProducer σ I F E) (R : σ → Script I F E → Nat → Prop) : EndsIn P R (fun _ => True) :=
  ⟨fun _ _ _ _ _ _ _ _ => True.intro, fun _ _ _ _ _ _ _ _ => True.intro, fun _ _ _ _ _ _ _ => True.intro⟩

namespace ProducerScrambler

variable {P : BulkProducer σ I F E} {R : σ → Script I F E → Nat → Prop} {Done : σ → Prop} {cap : Nat}

/-- What is left to emit: the buffer, then the wrapped producer or its stored last value. -/
def Rest (R : σ → Script I F E → Nat → Prop) (Done : σ → Prop) (s : ProducerScrambler σ I F E) (c : Script I F E)
    (l : List I) : Prop :=
  c.StartsWith l ∧
    ((s.last = none ∧ ∃ m, R s.inner (c.drop l.length) m) ∨
     (∃ r, s.last = some r ∧ c l.length = r.map .inr ∧ Done s.inner))

/-- The scrambler in state `s` is going to emit `c`, whose first `n` items are exposed. -/
def Plays (R : σ → Script I F E → Nat → Prop) (Done : σ → Prop) (cap : Nat) (s : ProducerScrambler σ I F E)
    (c : Script I F E) (n : Nat) : Prop :=
  ∃ l, s.Ok cap l n ∧ s.Rest R Done c l

/-- One operation on the wrapped producer. -/
theorem perform (debug : Bool) (hP : BulkPlaysLaw P R) (hD : EndsIn P R Done) {s : ProducerScrambler σ I F E}
    {c : Script I F E} {l : List I} {n : Nat} (hs : s.Ok cap l n) (hc : c.StartsWith l) (hl : l.length < cap)
    (hlast : s.last = none) (hR : ∃ m, R s.inner (c.drop l.length) m) :
    (∃ s' xs, s.performOperation debug P = ok (s', .ok none) ∧ s'.Ok cap (l ++ xs) n ∧ c.StartsWith (l ++ xs) ∧
      s'.last = none ∧ (∃ m, R s'.inner (c.drop (l ++ xs).length) m) ∧
      (xs ≠ [] ∨ (s.operations[s.index]? = some .slurp ∧ s'.operations = s.operations ∧
        s'.index = (s.index + 1) % s.operations.length))) ∨
    (∃ s' r, s.performOperation debug P = ok (s', Except.map some r) ∧
      s'.Ok cap l n ∧ c l.length = r.map .inr ∧ s'.last = none ∧ Done s'.inner) := by
  have hdb : debugAssert debug (decide (s.buffer.len < s.buffer.capacity)) = ok () :=
    debugAssert_of (by rw [hs.len, hs.capacity]; simpa using hl)
  simp only [performOperation, hdb, index_of_lt hs.index, bind_eq, bind_ok]
  have hop : s.operations[s.index]? = some (s.operations[s.index]'hs.index) := List.getElem?_eq_getElem hs.index
  obtain ⟨m, hR⟩ := hR
  cases hcase : s.operations[s.index]'hs.index with
  | produce =>
    obtain ⟨inner, hp, hnext⟩ := hP.base.produce _ _ ⟨m, hR⟩
    simp only [Script.drop_apply, Nat.add_zero] at hp hnext
    have hp' : P.produce s.inner = ok (inner, c l.length) := hp
    rcases hcl : c l.length with e | x | f
    · refine .inr ⟨{ s with inner := inner }, .error e, by simp [hp', hcl, Except.map], ⟨hs.cap_pos, hs.holds, hs.index, hs.progress⟩,
        rfl, hlast, hD.produce _ _ _ _ _ hR hp' (by simp [hcl])⟩
    · obtain ⟨b, hb1, hb2⟩ := hs.holds.enqueue x hl
      have hok : Ok cap { s with inner := inner, buffer := b } (l ++ [x]) n := ⟨hs.cap_pos, hb2, hs.index, hs.progress⟩
      obtain ⟨ha, ha'⟩ := hok.advance
      refine .inl ⟨{ s with inner := inner, buffer := b, index := (s.index + 1) % s.operations.length }, [x], by simp only [hp', hcl,
        hb1, ha, bind_ok, debugAssert_true, Option.isNone_none, pure_eq], ha', ?_, hlast, ?_, .inl (by simp)⟩
      · exact hc.append (Script.startsWith_cons.mpr ⟨by simpa using hcl, by simp⟩)
      · obtain ⟨m', hm'⟩ := hnext x hcl
        exact ⟨m', by simpa [Script.drop_drop] using hm'⟩
    · refine .inr ⟨{ s with inner := inner }, .ok f, by simp [hp', hcl, Except.map], ⟨hs.cap_pos, hs.holds, hs.index, hs.progress⟩,
        rfl, hlast, hD.produce _ _ _ _ _ hR hp' (by simp [hcl])⟩
  | slurp =>
    obtain ⟨inner, ⟨h1, m', h2⟩ | ⟨e, h1, h2⟩⟩ := hP.base.slurp _ _ ⟨m, hR⟩
    · have hok : Ok cap { s with inner := inner } l n := ⟨hs.cap_pos, hs.holds, hs.index, hs.progress⟩
      obtain ⟨ha, ha'⟩ := hok.advance
      refine .inl ⟨{ s with inner := inner, index := (s.index + 1) % s.operations.length }, [], by simp only [h1, ha, bind_ok, pure_eq],
        by simpa using ha', by simpa using hc, hlast, ⟨m', by simpa using h2⟩,
        .inr ⟨by rw [hop, hcase], rfl, rfl⟩⟩
    · refine .inr ⟨{ s with inner := inner }, .error e, by simp [h2, Except.map], ⟨hs.cap_pos, hs.holds, hs.index, hs.progress⟩,
        by simpa [Except.map] using h1, hlast, hD.slurp _ _ _ _ _ hR h2⟩
  | considerProduced k =>
    obtain ⟨inner, ⟨xs, hne, hst, hex, hR1⟩ | ⟨f, h1, h2⟩ | ⟨e, h1, h2⟩⟩ := hP.expose _ _ _ hR
    · have hxs : 0 < xs.length := List.length_pos_iff.mpr hne
      have hk := k.2
      have hsl : slice xs 0 (min xs.length k) = ok (xs.take (min xs.length k)) := by
        rw [slice_of_le (Nat.zero_le _) (by omega)]; simp
      obtain ⟨b, amount, hb1, hb2, hb3, hb4, hb5, -⟩ :=
        (Fixed.fifoLaw I cap).bulkEnqueue_call hs.holds (xs.take (min xs.length k))
      have hlt : (xs.take (min xs.length k)).length = min xs.length k := by simp
      have hapos : 0 < amount := by
        rcases Nat.eq_zero_or_pos amount with h0 | h0
        · rcases hb4 h0 with h | h
          · rw [h] at hlt; simp only [List.length_nil] at hlt; omega
          · omega
        · exact h0
      have hale : amount ≤ xs.length := by omega
      rw [List.take_take, Nat.min_eq_left (by omega)] at hb5
      obtain ⟨inner2, hcp, hR2⟩ := hP.consider _ _ _ amount hR1 hxs hale
      have hok : Ok cap { s with inner := inner2, buffer := b } (l ++ xs.take amount) n :=
        ⟨hs.cap_pos, hb5, hs.index, hs.progress⟩
      obtain ⟨ha, ha'⟩ := hok.advance
      refine .inl ⟨{ s with inner := inner2, buffer := b, index := (s.index + 1) % s.operations.length }, xs.take amount, ?_, ha',
        hc.append (hst.take _), hlast, ⟨xs.length - amount, ?_⟩, .inl ?_⟩
      · simp only [hex, bind_ok, hsl]
        rw [show (Fixed.queue I).bulkEnqueue s.buffer (xs.take (min xs.length k)) = _ from hb1]
        simp only [bind_ok, hcp, ha, pure_eq]
      · have : (l ++ xs.take amount).length = l.length + amount := by simp; omega
        rw [this, ← Script.drop_drop]; exact hR2
      · intro h0
        have := congrArg List.length h0
        simp only [List.length_take, List.length_nil] at this
        omega
    · refine .inr ⟨{ s with inner := inner }, .ok f, by simp [h2, Except.map], ⟨hs.cap_pos, hs.holds, hs.index, hs.progress⟩,
        by simpa [Except.map] using h1, hlast, hD.expose _ _ _ _ _ hR h2 (by simp)⟩
    · refine .inr ⟨{ s with inner := inner }, .error e, by simp [h2, Except.map], ⟨hs.cap_pos, hs.holds, hs.index, hs.progress⟩,
        by simpa [Except.map] using h1, hlast, hD.expose _ _ _ _ _ hR h2 (by simp)⟩

/-- The loop of `fill_queue`. -/
theorem fill_loop (debug : Bool) (hP : BulkPlaysLaw P R) (hD : EndsIn P R Done) {s : ProducerScrambler σ I F E}
    {c : Script I F E} {n : Nat} (hs : s.Plays R Done cap c n) :
    ∃ s', loop (fillBody debug P) s = ok s' ∧ ∃ l, s'.Ok cap l n ∧ s'.Rest R Done c l ∧
      (s'.last = none → l.length = cap) := by
  obtain ⟨l, hok, hrest⟩ := hs
  obtain ⟨d, op, hd⟩ := ahead hok.progress hok.index
  refine loop_ok (fun a b s => ∃ l, s.Ok cap l n ∧ s.Rest R Done c l ∧
      (s.last = none → a = cap - l.length + 1 ∧ ∃ op, s.operations[(s.index + b) % s.operations.length]? = some op ∧
        op ≠ .slurp) ∧ (s.last ≠ none → a = 0)) _ ?_ (a := if s.last = none then cap - l.length + 1 else 0) (b := d)
    ⟨l, hok, hrest, fun h => ⟨by simp [h], op, hd⟩, fun h => by simp [h]⟩
  rintro a b s ⟨l, hok, ⟨hc, hrest⟩, h1, h2⟩
  have hb := hok.holds.bound
  simp only [List.length_nil, Nat.add_zero] at hb
  rcases hrest with ⟨hlast, hR⟩ | ⟨r, hlast, hr, hdone⟩
  · obtain ⟨ha, op, hop, hne⟩ := h1 hlast
    by_cases hl : l.length < cap
    · have hcond : (s.last.isNone && decide (s.buffer.len < s.buffer.capacity)) = true := by
        rw [hok.len, hok.capacity]; simp [hlast, hl]
      rcases perform debug hP hD hok hc hl hlast hR with
        ⟨s', xs, hp, hok', hc', hl', hR', hx⟩ | ⟨s', r, hp, hok', hcr, hl', hdone⟩
      · refine .inr ⟨s', ?_⟩
        have hbody : fillBody debug P s = ok (.continue s') := by simp [fillBody, hcond, hp]
        have hb' := hok'.holds.bound
        simp only [List.length_nil, Nat.add_zero, List.length_append] at hb'
        rcases hx with hx | ⟨hx1, hx2, hx3⟩
        · obtain ⟨d', op', hd'⟩ := ahead hok'.progress hok'.index
          have : 0 < xs.length := List.length_pos_iff.mpr hx
          refine ⟨cap - (l ++ xs).length + 1, d', hbody, .inl (by simp only [List.length_append]; omega), l ++ xs, hok',
            ⟨hc', .inl ⟨hl', hR'⟩⟩, fun _ => ⟨rfl, op', hd'⟩, fun h => absurd hl' h⟩
        · have hb0 : 0 < b := by
            rcases Nat.eq_zero_or_pos b with h0 | h0
            · subst h0
              rw [Nat.add_zero, Nat.mod_eq_of_lt hok.index, hx1] at hop
              cases hop; exact absurd rfl hne
            · exact h0
          by_cases hxs : xs = []
          · subst hxs
            refine ⟨a, b - 1, hbody, .inr ⟨rfl, by omega⟩, l ++ [], hok', ⟨hc', .inl ⟨hl', hR'⟩⟩,
              fun _ => ⟨by simpa using ha, op, ?_, hne⟩, fun h => absurd hl' h⟩
            rw [hx2, hx3, Nat.mod_add_mod, show s.index + 1 + (b - 1) = s.index + b by omega]
            exact hop
          · obtain ⟨d', op', hd'⟩ := ahead hok'.progress hok'.index
            have : 0 < xs.length := List.length_pos_iff.mpr hxs
            refine ⟨cap - (l ++ xs).length + 1, d', hbody, .inl (by simp only [List.length_append]; omega), l ++ xs, hok',
              ⟨hc', .inl ⟨hl', hR'⟩⟩, fun _ => ⟨rfl, op', hd'⟩, fun h => absurd hl' h⟩
      · refine .inr ⟨{ s' with last := some r }, 0, 0, ?_, .inl (by omega), l, ⟨hok'.cap_pos, hok'.holds, hok'.index, hok'.progress⟩,
          ⟨hc, .inr ⟨r, rfl, hcr, hdone⟩⟩, by simp, by simp⟩
        cases r <;> simp [fillBody, hcond, hp, Except.map]
    · refine .inl ⟨s, ?_, l, hok, ⟨hc, .inl ⟨hlast, hR⟩⟩, fun _ => by omega⟩
      have hcond : (s.last.isNone && decide (s.buffer.len < s.buffer.capacity)) = false := by
        rw [hok.len, hok.capacity]; simp; omega
      simp [fillBody, hcond]
  · exact .inl ⟨s, by simp [fillBody, hlast], l, hok, ⟨hc, .inr ⟨r, hlast, hr, hdone⟩⟩, by simp [hlast]⟩

/-- `fill_queue`: afterwards there is something in the buffer, or else the last value is returned. -/
theorem fill (debug : Bool) (hP : BulkPlaysLaw P R) (hD : EndsIn P R Done) {s : ProducerScrambler σ I F E}
    {c : Script I F E} {n : Nat} (hs : s.Plays R Done cap c n) :
    (∃ s' l, s.fillQueue debug P = ok (s', none) ∧ l ≠ [] ∧ s'.Ok cap l n ∧ s'.Rest R Done c l) ∨
    (∃ s' r, s.fillQueue debug P = ok (s', some r) ∧ c 0 = r.map .inr ∧ s'.Ok cap [] 0 ∧ Done s'.inner) := by
  obtain ⟨s', hloop, l, hok, hrest, hfull⟩ := fill_loop debug hP hD hs
  by_cases hl : l = []
  · subst hl
    obtain ⟨hc, ⟨hlast, _⟩ | ⟨r, hlast, hr, hdone⟩⟩ := hrest
    · have := hfull hlast; have := hok.cap_pos; simp at *; omega
    · refine .inr ⟨{ s' with last := none }, r, ?_, by simpa using hr,
        ⟨hok.cap_pos, hok.holds.show (Nat.zero_le _), hok.index, hok.progress⟩, hdone⟩
      have := hok.len
      simp only [List.length_nil] at this
      simp [fillQueue, hloop, this, hlast]
  · refine .inl ⟨s', l, ?_, hl, hok, hrest⟩
    have := hok.len
    have hlp : 0 < l.length := List.length_pos_iff.mpr hl
    simp [fillQueue, hloop, this, hl]

theorem Rest.tail {s : ProducerScrambler σ I F E} {c : Script I F E} {l : List I} (h : s.Rest R Done c l) {k : Nat}
    (hk : k ≤ l.length) {b : Fixed I} : Rest R Done { s with buffer := b } (c.drop k) (l.drop k) := by
  obtain ⟨hc, hr⟩ := h
  refine ⟨hc.drop hk, ?_⟩
  rcases hr with ⟨h1, m, h2⟩ | ⟨r, h1, h2, h3⟩
  · exact .inl ⟨h1, m, by rw [Script.drop_drop, List.length_drop, show k + (l.length - k) = l.length by omega]; exact h2⟩
  · exact .inr ⟨r, h1, by rw [Script.drop_apply, List.length_drop, show k + (l.length - k) = l.length by omega]; exact h2, h3⟩

theorem plays_produce (debug : Bool) (hP : BulkPlaysLaw P R) (hD : EndsIn P R Done) :
    ∀ s c, (∃ n, s.Plays R Done cap c n) → ∃ s', (producerScrambler debug P).produce s = ok (s', c 0) ∧
      ∀ x, c 0 = .ok (.inl x) → ∃ n, s'.Plays R Done cap (c.drop 1) n := by
  rintro s c ⟨n, hs⟩
  rcases fill debug hP hD hs with ⟨s', l, hf, hne, hok, hrest⟩ | ⟨s', r, hf, hr, -⟩
  · obtain ⟨x, l, rfl⟩ := List.exists_cons_of_ne_nil hne
    obtain ⟨b, hb1, hb2⟩ := hok.holds.dequeue
    refine ⟨{ s' with buffer := b }, ?_, fun _ _ => ⟨n - 1, l, ⟨hok.cap_pos, hb2, hok.index, hok.progress⟩,
      hrest.tail (k := 1) (by simp)⟩⟩
    simp [producerScrambler, produce, hf, hb1, (Script.startsWith_cons.mp hrest.1).1]
  · refine ⟨s', ?_, ?_⟩
    · simp [producerScrambler, produce, hf, hr]
    · intro x hx; rw [hr] at hx; cases r <;> simp [Except.map] at hx

theorem plays_expose (debug : Bool) (hP : BulkPlaysLaw P R) (hD : EndsIn P R Done) :
    ∀ s c n, s.Plays R Done cap c n → ∃ s',
      (∃ xs, xs ≠ [] ∧ c.StartsWith xs ∧ (producerScrambler debug P).exposeItems s = ok (s', .ok (.inl xs)) ∧
        s'.Plays R Done cap c xs.length) ∨
      (∃ f, c 0 = .ok (.inr f) ∧ (producerScrambler debug P).exposeItems s = ok (s', .ok (.inr f))) ∨
      (∃ e, c 0 = .error e ∧ (producerScrambler debug P).exposeItems s = ok (s', .error e)) := by
  intro s c n hs
  rcases fill debug hP hD hs with ⟨s', l, hf, hne, hok, hrest⟩ | ⟨s', r, hf, hr, -⟩
  · obtain ⟨b, m, hm0, hml, hb1, hb2⟩ := (Fixed.fifoLaw I cap).exposeItems _ _ _ _ hok.holds hne
    have hlen : (l.take m).length = m := by simp; omega
    refine ⟨{ s' with buffer := b }, .inl ⟨l.take m, ?_, hrest.1.take m, ?_, l,
      ⟨hok.cap_pos, hb2.show (by omega), hok.index, hok.progress⟩, ?_⟩⟩
    · intro h0; rw [h0] at hlen; simp only [List.length_nil] at hlen; omega
    · have hb1' : s'.buffer.exposeItems = ok (b, some (l.take m)) := hb1
      simp [producerScrambler, exposeItems, hf, hb1']
    · simpa using hrest.tail (k := 0) (Nat.zero_le _) (b := b)
  · refine ⟨s', ?_⟩
    cases r with
    | ok f => exact .inr (.inl ⟨f, hr, by simp [producerScrambler, exposeItems, hf, Except.map]⟩)
    | error e => exact .inr (.inr ⟨e, hr, by simp [producerScrambler, exposeItems, hf, Except.map]⟩)

theorem plays_consider (debug : Bool) :
    ∀ s c n k, s.Plays R Done cap c n → 0 < n → k ≤ n →
      ∃ s', (producerScrambler debug P).considerProduced s k = ok (s', .ok ()) ∧ s'.Plays R Done cap (c.drop k) (n - k) := by
  rintro s c n k ⟨l, hok, hrest⟩ - hk
  have hn := hok.holds.shown
  obtain ⟨b, hb1, hb2⟩ := (Fixed.fifoLaw I cap).considerDequeued _ _ _ _ k hok.holds hk hok.cap_pos
  have hb1' : s.buffer.considerDequeued k = ok b := hb1
  exact ⟨{ s with buffer := b }, by simp [producerScrambler, considerProduced, hb1'],
    l.drop k, ⟨hok.cap_pos, hb2, hok.index, hok.progress⟩, hrest.tail (by omega)⟩

/-- `slurp`, if the wrapped producer tolerates being slurped after its end. -/
theorem plays_slurp (debug : Bool) (hP : BulkPlaysLaw P R) (hD : EndsIn P R Done)
    (htol : ∀ s, Done s → ∃ s', P.slurp s = ok (s', .ok ()) ∧ Done s') :
    ∀ s c, (∃ n, s.Plays R Done cap c n) → ∃ s',
      ((producerScrambler debug P).slurp s = ok (s', .ok ()) ∧ ∃ n, s'.Plays R Done cap c n) ∨
      (∃ e, c 0 = .error e ∧ (producerScrambler debug P).slurp s = ok (s', .error e)) := by
  rintro s c ⟨n, hs⟩
  rcases fill debug hP hD hs with ⟨s', l, hf, hne, hok, hc, hrest⟩ | ⟨s', r, hf, hr, hok, hdone⟩
  · have hlen : s'.buffer.len ≠ 0 := by rw [hok.len]; simpa using hne
    rcases hrest with ⟨hlast, hR⟩ | ⟨r, hlast, hr, hdone⟩
    · obtain ⟨m, hm⟩ := hR
      obtain ⟨inner, ⟨h1, m', h2⟩ | ⟨e, h1, h2⟩⟩ := hP.base.slurp _ _ ⟨m, hm⟩
      · exact ⟨{ s' with inner := inner }, .inl ⟨by simp [producerScrambler, slurp, slurpInner, hf, h1], n, l,
          ⟨hok.cap_pos, hok.holds, hok.index, hok.progress⟩, hc, .inl ⟨hlast, m', h2⟩⟩⟩
      · exact ⟨{ s' with inner := inner, last := some (.error e) }, .inl
          ⟨by simp [producerScrambler, slurp, slurpInner, hf, h2, hlen], n, l,
          ⟨hok.cap_pos, hok.holds, hok.index, hok.progress⟩, hc,
          .inr ⟨_, rfl, by simpa [Except.map] using h1, hD.slurp _ _ _ _ _ hm h2⟩⟩⟩
    · obtain ⟨inner, h1, h2⟩ := htol _ hdone
      exact ⟨{ s' with inner := inner }, .inl ⟨by simp [producerScrambler, slurp, slurpInner, hf, h1], n, l,
        ⟨hok.cap_pos, hok.holds, hok.index, hok.progress⟩, hc, .inr ⟨r, hlast, hr, h2⟩⟩⟩
  · cases r with
    | error e => exact ⟨s', .inr ⟨e, hr, by simp [producerScrambler, slurp, hf]⟩⟩
    | ok f =>
      obtain ⟨inner, h1, h2⟩ := htol _ hdone
      exact ⟨{ s' with inner := inner, last := some (.ok f) }, .inl
        ⟨by simp [producerScrambler, slurp, slurpInner, hf, h1], 0, [],
        ⟨hok.cap_pos, hok.holds, hok.index, hok.progress⟩, by simp, .inr ⟨_, rfl, by simpa using hr, h2⟩⟩⟩

end ProducerScrambler

end

end Verif
