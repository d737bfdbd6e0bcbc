import Verif.AgainSpec
import Verif.Lemmas.ProducerScrambler
import Verif.Lemmas.History
import Verif.Lemmas.Merge
import Verif.Lemmas.Traces
import Verif.SharedSpec

/-!
# Helper lemmas about calls after the end
-/

namespace Verif

open Outcome

section

variable {σ I F E : Type}

theorem BufRests.toRests {P : BufferedProducer σ I F E} {s : σ} {last : Except E F} (h : BufRests P s last) :
    Rests P.toProducer s last :=
  let ⟨R, hR, hs⟩ := h
  ⟨R, hR.toRestsLaw, hs⟩

theorem BulkRests.toBufRests {P : BulkProducer σ I F E} {s : σ} {last : Except E F} (h : BulkRests P s last) :
    BufRests P.toBufferedProducer s last :=
  let ⟨R, hR, hs⟩ := h
  ⟨R, hR.toBufRestsLaw, hs⟩

/-- With the default `bulk_produce`, the last law follows from the others. -/
theorem BulkRestsLaw.of_default {P : BulkProducer σ I F E} {last : Except E F} {R : σ → Prop}
    (hdef : P.bulkProduce = bulkProduceDefault P.exposeItems P.considerProduced) (base : BufRestsLaw P.toBufferedProducer last R)
    (expose : ∀ s, R s → ∃ s', P.exposeItems s = ok (s', last.map .inr) ∧ R s') : BulkRestsLaw P last R where
  toBufRestsLaw := base
  expose := expose
  bulkProduce s buf hs := by
    obtain ⟨s', h1, h2⟩ := expose s hs
    refine ⟨s', buf, ?_, rfl, h2⟩
    cases last <;> simp [hdef, bulkProduceDefault, h1, Except.map]

/-- Being at rest is kept by all calls. -/
theorem BulkRests.produce {P : BulkProducer σ I F E} {s : σ} {last : Except E F} (h : BulkRests P s last) :
    ∃ s', P.produce s = ok (s', last.map .inr) ∧ BulkRests P s' last :=
  let ⟨R, hR, hs⟩ := h
  let ⟨s', h1, h2⟩ := hR.produce s hs
  ⟨s', h1, R, hR, h2⟩

theorem BulkRests.slurp {P : BulkProducer σ I F E} {s : σ} {last : Except E F} (h : BulkRests P s last) :
    ∃ s', (P.slurp s = ok (s', .ok ()) ∨ ∃ e, last = .error e ∧ P.slurp s = ok (s', .error e)) ∧ BulkRests P s' last :=
  let ⟨R, hR, hs⟩ := h
  let ⟨s', h1, h2⟩ := hR.slurp s hs
  ⟨s', h1, R, hR, h2⟩

theorem BulkRests.expose {P : BulkProducer σ I F E} {s : σ} {last : Except E F} (h : BulkRests P s last) :
    ∃ s', P.exposeItems s = ok (s', last.map .inr) ∧ BulkRests P s' last :=
  let ⟨R, hR, hs⟩ := h
  let ⟨s', h1, h2⟩ := hR.expose s hs
  ⟨s', h1, R, hR, h2⟩

theorem Rests.produce {P : Producer σ I F E} {s : σ} {last : Except E F} (h : Rests P s last) :
    ∃ s', P.produce s = ok (s', last.map .inr) ∧ Rests P s' last :=
  let ⟨R, hR, hs⟩ := h
  let ⟨s', h1, h2⟩ := hR.produce s hs
  ⟨s', h1, R, hR, h2⟩

theorem Emits.snoc {P : Producer σ I F E} {s s₁ s₂ : σ} {xs : List I} {x : I} (h : Emits P s xs s₁)
    (hx : P.produce s₁ = ok (s₂, .ok (.inl x))) : Emits P s (xs ++ [x]) s₂ := by
  induction h with
  | nil => exact .cons hx (.nil _)
  | cons h1 _ ih => exact .cons h1 (ih hx)

/-! ## The relation of a lawful producer, restricted to what has been reached -/

/-- `s` has been reached from `s₀` by a history of allowed calls; the sequence goes on with `c`, and `n` items are exposed. -/
def ReachedPlaying (P : BulkProducer σ I F E) (s₀ : σ) (c₀ : Script I F E) (s : σ) (c : Script I F E) (n : Nat) : Prop :=
  ∃ handed shown, ProducerRuns P s₀ handed s shown none ∧ shown.length = n ∧ c = c₀.drop handed.length

theorem reached_playing_law {P : BulkProducer σ I F E} {R : σ → Script I F E → Nat → Prop} (hP : BulkPlaysLaw P R) {s₀ : σ}
    {c₀ : Script I F E} {n₀ : Nat} (h₀ : R s₀ c₀ n₀) : BulkPlaysLaw P (ReachedPlaying P s₀ c₀) := by
  refine ⟨⟨⟨?_⟩, ?_⟩, ?_, ?_, ?_⟩
  · rintro s c ⟨n, handed, shown, hr, rfl, rfl⟩
    obtain ⟨-, h, -⟩ := hr.after hP h₀
    obtain ⟨-, ⟨m, hR⟩, -⟩ := h rfl
    obtain ⟨s', h1, h2⟩ := hP.base.produce s _ ⟨m, hR⟩
    refine ⟨s', h1, fun x hx => ?_⟩
    rw [hx] at h1
    have := hr.call (op := .produce) trivial (s' := s') (r := ⟨[x], [], none⟩) (by simp [BulkProducer.call, h1])
    exact ⟨0, _, _, this, rfl, by simp [Script.drop_drop]⟩
  · rintro s c ⟨n, handed, shown, hr, rfl, rfl⟩
    obtain ⟨-, h, -⟩ := hr.after hP h₀
    obtain ⟨-, ⟨m, hR⟩, -⟩ := h rfl
    obtain ⟨s', ⟨h1, -⟩ | h1⟩ := hP.base.slurp s _ ⟨m, hR⟩
    · have := hr.call (op := .slurp) trivial (s' := s') (r := ⟨[], [], none⟩) (by simp [BulkProducer.call, h1])
      exact ⟨s', .inl ⟨h1, 0, _, _, this, rfl, by simp⟩⟩
    · exact ⟨s', .inr h1⟩
  · rintro s c n ⟨handed, shown, hr, rfl, rfl⟩
    obtain ⟨-, h, -⟩ := hr.after hP h₀
    obtain ⟨-, ⟨m, hR⟩, -⟩ := h rfl
    obtain ⟨s', ⟨xs, h1, h2, h3, -⟩ | h1⟩ := hP.expose s _ m hR
    · have := hr.call (op := .exposeItems) trivial (s' := s') (r := ⟨[], xs, none⟩) (by simp [BulkProducer.call, h3])
      exact ⟨s', .inl ⟨xs, h1, h2, h3, _, _, this, rfl, by simp⟩⟩
    · exact ⟨s', .inr h1⟩
  · rintro s c n k ⟨handed, shown, hr, rfl, rfl⟩ h0 hk
    obtain ⟨-, h, -⟩ := hr.after hP h₀
    obtain ⟨-, -, h⟩ := h rfl
    have hne : shown ≠ [] := List.length_pos_iff.mp h0
    obtain ⟨s', h1, -⟩ := hP.consider s _ _ k (h hne) h0 hk
    have := hr.call (op := .considerProduced k) ⟨hne, hk⟩ (s' := s') (r := ⟨shown.take k, shown.drop k, none⟩)
      (by simp [BulkProducer.call, h1])
    refine ⟨s', h1, _, _, this, by simp, ?_⟩
    rw [Script.drop_drop, List.length_append, List.length_take, Nat.min_eq_left hk]
  · rintro s c n buf ⟨handed, shown, hr, rfl, rfl⟩ hb
    obtain ⟨-, h, -⟩ := hr.after hP h₀
    obtain ⟨-, ⟨m, hR⟩, -⟩ := h rfl
    obtain ⟨s', buf', hl, ⟨k, h1, h2, h3, h4, -⟩ | h1⟩ := hP.bulkProduce s _ m buf hR hb
    · have := hr.call (op := .bulkProduce buf) hb (s' := s') (r := ⟨buf'.take k, [], none⟩) (by simp [BulkProducer.call, h3])
      refine ⟨s', buf', hl, .inl ⟨k, h1, h2, h3, h4, 0, _, _, this, rfl, ?_⟩⟩
      rw [Script.drop_drop, List.length_append, List.length_take, Nat.min_eq_left (by omega)]
    · exact ⟨s', buf', hl, .inr h1⟩

/-- A producer at rest emits the sequence that consists of its last value. -/
theorem BulkRestsLaw.plays {P : BulkProducer σ I F E} {last : Except E F} {R : σ → Prop} (h : BulkRestsLaw P last R) :
    BulkPlaysLaw P (fun s c n => R s ∧ c = (fun _ => last.map .inr) ∧ n = 0) := by
  refine ⟨⟨⟨?_⟩, ?_⟩, ?_, ?_, ?_⟩
  · rintro s c ⟨n, hs, rfl, rfl⟩
    obtain ⟨s', h1, h2⟩ := h.produce s hs
    refine ⟨s', h1, fun x hx => ?_⟩
    cases last <;> simp [Except.map] at hx
  · rintro s c ⟨n, hs, rfl, rfl⟩
    obtain ⟨s', h1 | ⟨e, rfl, h1⟩, h2⟩ := h.slurp s hs
    · exact ⟨s', .inl ⟨h1, 0, h2, rfl, rfl⟩⟩
    · exact ⟨s', .inr ⟨e, rfl, h1⟩⟩
  · rintro s c n ⟨hs, rfl, rfl⟩
    obtain ⟨s', h1, h2⟩ := h.expose s hs
    cases last with
    | ok f => exact ⟨s', .inr (.inl ⟨f, rfl, h1⟩)⟩
    | error e => exact ⟨s', .inr (.inr ⟨e, rfl, h1⟩)⟩
  · rintro s c n k ⟨hs, rfl, rfl⟩ h0
    exact absurd h0 (by simp)
  · rintro s c n buf ⟨hs, rfl, rfl⟩ hb
    obtain ⟨s', buf', h1, h2, h3⟩ := h.bulkProduce s buf hs
    cases last with
    | ok f => exact ⟨s', buf', h2, .inr (.inl ⟨f, rfl, h1⟩)⟩
    | error e => exact ⟨s', buf', h2, .inr (.inr ⟨e, rfl, h1⟩)⟩

/-! ## Scramblers -/

/-- The sequence ends with `last`. -/
def Script.EndsWith (c : Script I F E) (last : Except E F) : Prop := ∃ xs, c.StartsWith xs ∧ c xs.length = last.map .inr

theorem Script.EndsWith.unique {c : Script I F E} {a b : Except E F} (ha : c.EndsWith a) (hb : c.EndsWith b) : a = b := by
  obtain ⟨xs, h1, h2⟩ := ha
  obtain ⟨ys, h3, h4⟩ := hb
  have key : ∀ {l m : List I} {r : Except E F}, c.StartsWith l → c m.length = r.map .inr → l.length ≤ m.length := by
    intro l m r hl hm
    refine Nat.le_of_not_lt fun hlt => ?_
    have := hl m.length _ (List.getElem?_eq_getElem hlt)
    rw [hm] at this
    cases r <;> simp [Except.map] at this
  have hlen := Nat.le_antisymm (key h1 h4) (key h3 h2)
  rw [hlen, h4] at h2
  cases a <;> cases b <;> simp_all [Except.map]

theorem Script.EndsWith.of_drop {c : Script I F E} {last : Except E F} {xs l : List I} (hx : c.StartsWith xs)
    (hl : (c.drop xs.length).StartsWith l) (h : c.drop xs.length l.length = last.map .inr) : c.EndsWith last :=
  ⟨xs ++ l, hx.append hl, by rw [List.length_append]; exact h⟩

namespace ProducerScrambler

theorem fillQueue_last {debug : Bool} {P : BulkProducer σ I F E} {s s' : ProducerScrambler σ I F E} {r : Except E F}
    (h : s.fillQueue debug P = ok (s', some r)) : s'.last = none := by
  simp only [fillQueue, bind_eq] at h
  rcases hl : loop (fillBody debug P) s with s₁ | _ | _ <;> rw [hl] at h
  · simp only [bind_ok] at h
    split at h
    · simp only [pure_eq] at h
      injection h with h
      injection h with h1 h2
      rw [← h1]
    · simp only [pure_eq] at h
      injection h with h
      injection h with h1 h2
      cases h2
  · cases h
  · cases h

/-- The buffer is empty, and the wrapped producer is at rest. -/
def Over (P : BulkProducer σ I F E) (last : Except E F) (R : σ → Prop) (cap : Nat) (s : ProducerScrambler σ I F E) : Prop :=
  BulkRestsLaw P last R ∧ s.Ok cap [] 0 ∧ (s.last = none ∨ s.last = some last) ∧ R s.inner

theorem Over.fill {debug : Bool} {P : BulkProducer σ I F E} {last : Except E F} {R : σ → Prop} {cap : Nat}
    {s : ProducerScrambler σ I F E} (h : s.Over P last R cap) :
    ∃ s', s.fillQueue debug P = ok (s', some last) ∧ s'.Over P last R cap := by
  obtain ⟨hR, hok, hl, hs⟩ := h
  have hD : EndsIn P (fun s c n => R s ∧ c = (fun _ => last.map .inr) ∧ n = 0) R := by
    refine ⟨?_, ?_, ?_⟩
    · rintro s c n s' r ⟨hs, -, -⟩ h1 -
      obtain ⟨s'', h2, h3⟩ := hR.produce s hs
      rw [h1] at h2; injection h2 with h2; injection h2 with h2; exact h2 ▸ h3
    · rintro s c n s' r ⟨hs, -, -⟩ h1 -
      obtain ⟨s'', h2, h3⟩ := hR.expose s hs
      rw [h1] at h2; injection h2 with h2; injection h2 with h2; exact h2 ▸ h3
    · rintro s c n s' e ⟨hs, -, -⟩ h1
      obtain ⟨s'', h2 | ⟨_, _, h2⟩, h3⟩ := hR.slurp s hs <;>
        (rw [h1] at h2; injection h2 with h2; injection h2 with h2; exact h2 ▸ h3)
  have hp : s.Plays (fun s c n => R s ∧ c = (fun _ => last.map .inr) ∧ n = 0) R cap (fun _ => last.map .inr) 0 := by
    refine ⟨[], hok, Script.startsWith_nil _, ?_⟩
    rcases hl with hl | hl
    · exact .inl ⟨hl, 0, hs, rfl, rfl⟩
    · exact .inr ⟨last, hl, rfl, hs⟩
  rcases ProducerScrambler.fill debug hR.plays hD hp with ⟨s', l, -, hne, -, hc, -⟩ | ⟨s', r, hf, hr, hok', hs'⟩
  · obtain ⟨x, hx⟩ := hc.ne_nil_zero hne
    cases last <;> simp [Except.map] at hx
  · have hlast := fillQueue_last hf
    have : r = last := by cases r <;> cases last <;> simp_all [Except.map]
    subst this
    exact ⟨s', hf, hR, hok', .inl hlast, hs'⟩

theorem over_rests (debug : Bool) {P : BulkProducer σ I F E} {last : Except E F} {R : σ → Prop} {cap : Nat} :
    BulkRestsLaw (producerScrambler debug P) last (Over P last R cap) := by
  refine .of_default rfl ⟨⟨?_⟩, ?_⟩ ?_
  · intro s hs
    obtain ⟨s', h1, h2⟩ := hs.fill (debug := debug)
    exact ⟨s', by simp [producerScrambler, produce, h1], h2⟩
  · intro s hs
    obtain ⟨s', h1, h2⟩ := hs.fill (debug := debug)
    cases last with
    | error e => exact ⟨s', .inr ⟨e, rfl, by simp [producerScrambler, slurp, h1]⟩, h2⟩
    | ok f =>
      obtain ⟨hR, hok, -, hs'⟩ := h2
      obtain ⟨inner, h3 | ⟨_, h3, _⟩, h4⟩ := hR.slurp _ hs'
      · exact ⟨{ s' with inner := inner, last := some (.ok f) }, .inl (by simp [producerScrambler, slurp, slurpInner, h1, h3]), hR,
          ⟨hok.cap_pos, hok.holds, hok.index, hok.progress⟩, .inr rfl, h4⟩
      · cases h3
  · intro s hs
    obtain ⟨s', h1, h2⟩ := hs.fill (debug := debug)
    exact ⟨s', by simp [producerScrambler, exposeItems, h1], h2⟩

/-- The wrapped producer is at rest, at the end of the sequence. -/
def DoneAt (P : BulkProducer σ I F E) (c₀ : Script I F E) (s : σ) : Prop := ∃ last, BulkRests P s last ∧ c₀.EndsWith last

theorem endsIn_reached {P : BulkProducer σ I F E} {R : σ → Script I F E → Nat → Prop} (hP : BulkPlaysLaw P R) {s₀ : σ}
    {c₀ : Script I F E} {n₀ : Nat} (h₀ : R s₀ c₀ n₀) (hrest : BulkEndsResting P s₀) :
    EndsIn P (ReachedPlaying P s₀ c₀) (DoneAt P c₀) := by
  have key : ∀ {handed s shown op s' r last}, ProducerRuns P s₀ handed s shown none → op.Allowed shown →
      P.call s shown op = ok (s', r) → r.ended = some last → DoneAt P c₀ s' := by
    intro handed s shown op s' r last hr hop hcall hlast
    have h := hr.call hop hcall
    rw [hlast] at h
    obtain ⟨h1, -, h2⟩ := h.after hP h₀
    exact ⟨last, hrest _ _ _ _ h, _, h1, h2 _ rfl⟩
  refine ⟨?_, ?_, ?_⟩
  · rintro s c n s' r ⟨handed, shown, hr, -, -⟩ h1 h2
    rcases r with e | x | f
    · exact key hr (op := .produce) trivial (r := ⟨[], [], some (.error e)⟩) (by simp [BulkProducer.call, h1]) rfl
    · exact absurd rfl (h2 x)
    · exact key hr (op := .produce) trivial (r := ⟨[], [], some (.ok f)⟩) (by simp [BulkProducer.call, h1]) rfl
  · rintro s c n s' r ⟨handed, shown, hr, -, -⟩ h1 h2
    rcases r with e | x | f
    · exact key hr (op := .exposeItems) trivial (r := ⟨[], [], some (.error e)⟩) (by simp [BulkProducer.call, h1]) rfl
    · exact absurd rfl (h2 x)
    · exact key hr (op := .exposeItems) trivial (r := ⟨[], [], some (.ok f)⟩) (by simp [BulkProducer.call, h1]) rfl
  · rintro s c n s' e ⟨handed, shown, hr, -, -⟩ h1
    exact key hr (op := .slurp) trivial (r := ⟨[], [], some (.error e)⟩) (by simp [BulkProducer.call, h1]) rfl

/-- The relation for scramblers around producers that end resting: what is left of the sequence `c₀`. -/
def PlaysTail (P : BulkProducer σ I F E) (s₀ : σ) (c₀ : Script I F E) (cap : Nat) (s : ProducerScrambler σ I F E)
    (c : Script I F E) (n : Nat) : Prop :=
  s.Plays (ReachedPlaying P s₀ c₀) (DoneAt P c₀) cap c n ∧ ∃ xs, c₀.StartsWith xs ∧ c = c₀.drop xs.length

/-- What is known when the scrambler has ended. -/
theorem over_of_done {P : BulkProducer σ I F E} {c₀ : Script I F E} {cap : Nat} {s : ProducerScrambler σ I F E} {r : Except E F}
    {xs : List I} (hx : c₀.StartsWith xs) (hr : c₀.drop xs.length 0 = r.map .inr) (hok : s.Ok cap [] 0) (hlast : s.last = none)
    (hd : DoneAt P c₀ s.inner) : ∃ R, s.Over P r R cap := by
  obtain ⟨last, ⟨R, hR, hs⟩, he⟩ := hd
  have : last = r := he.unique (.of_drop hx (l := []) (by simp) hr)
  subst this
  exact ⟨R, hR, hok, .inl hlast, hs⟩

variable {P : BulkProducer σ I F E} {R : σ → Script I F E → Nat → Prop}

/-- `slurp`, for all producers that end resting. -/
theorem tail_slurp (debug : Bool) (hP : BulkPlaysLaw P R) {s₀ : σ} {c₀ : Script I F E} {n₀ : Nat} (h₀ : R s₀ c₀ n₀)
    (hrest : BulkEndsResting P s₀) {cap : Nat} (s : ProducerScrambler σ I F E) (c : Script I F E)
    (h : ∃ n, s.PlaysTail P s₀ c₀ cap c n) : ∃ s',
      ((producerScrambler debug P).slurp s = ok (s', .ok ()) ∧ ∃ n, s'.PlaysTail P s₀ c₀ cap c n) ∨
      (∃ e, c 0 = .error e ∧ (producerScrambler debug P).slurp s = ok (s', .error e) ∧ ∃ R, s'.Over P (.error e) R cap) := by
  obtain ⟨n, hs, xs, hx, rfl⟩ := h
  have hlaw := reached_playing_law hP h₀
  have hD := endsIn_reached hP h₀ hrest
  rcases ProducerScrambler.fill debug hlaw hD hs with ⟨s', l, hf, hne, hok, hc, hr⟩ | ⟨s', r, hf, hr, hok, hdone⟩
  · have hlen : s'.buffer.len ≠ 0 := by rw [hok.len]; simpa using hne
    rcases hr with ⟨hlast, m, hm⟩ | ⟨r, hlast, hr, last, hB, he⟩
    · obtain ⟨inner, ⟨h1, m', h2⟩ | ⟨e, h1, h2⟩⟩ := hlaw.base.slurp _ _ ⟨m, hm⟩
      · exact ⟨{ s' with inner := inner }, .inl ⟨by simp [producerScrambler, slurp, slurpInner, hf, h1], n,
          ⟨l, ⟨hok.cap_pos, hok.holds, hok.index, hok.progress⟩, hc, .inl ⟨hlast, m', h2⟩⟩, xs, hx, rfl⟩⟩
      · exact ⟨{ s' with inner := inner, last := some (.error e) }, .inl
          ⟨by simp [producerScrambler, slurp, slurpInner, hf, h2, hlen], n,
          ⟨l, ⟨hok.cap_pos, hok.holds, hok.index, hok.progress⟩, hc,
          .inr ⟨_, rfl, by simpa [Except.map] using h1, hD.slurp _ _ _ _ _ hm h2⟩⟩, xs, hx, rfl⟩⟩
    · obtain ⟨inner, h1 | ⟨e, rfl, h1⟩, h2⟩ := hB.slurp
      · exact ⟨{ s' with inner := inner }, .inl ⟨by simp [producerScrambler, slurp, slurpInner, hf, h1], n,
          ⟨l, ⟨hok.cap_pos, hok.holds, hok.index, hok.progress⟩, hc, .inr ⟨r, hlast, hr, last, h2, he⟩⟩, xs, hx, rfl⟩⟩
      · have : .error e = r := he.unique (.of_drop hx hc hr)
        subst this
        exact ⟨{ s' with inner := inner, last := some (.error e) }, .inl
          ⟨by simp [producerScrambler, slurp, slurpInner, hf, h1, hlen], n,
          ⟨l, ⟨hok.cap_pos, hok.holds, hok.index, hok.progress⟩, hc, .inr ⟨_, rfl, hr, _, h2, he⟩⟩, xs, hx, rfl⟩⟩
  · cases r with
    | error e =>
      exact ⟨s', .inr ⟨e, hr, by simp [producerScrambler, slurp, hf], over_of_done hx hr hok (fillQueue_last hf) hdone⟩⟩
    | ok f =>
      obtain ⟨last, hB, he⟩ := hdone
      have : last = .ok f := he.unique (.of_drop hx (l := []) (by simp) hr)
      subst this
      obtain ⟨inner, h1 | ⟨_, h1, _⟩, h2⟩ := hB.slurp
      · exact ⟨{ s' with inner := inner, last := some (.ok f) }, .inl
          ⟨by simp [producerScrambler, slurp, slurpInner, hf, h1], 0,
          ⟨[], ⟨hok.cap_pos, hok.holds, hok.index, hok.progress⟩, by simp, .inr ⟨_, rfl, by simpa using hr, _, h2, he⟩⟩, xs, hx, rfl⟩⟩
      · cases h1

theorem tail_law (debug : Bool) (hP : BulkPlaysLaw P R) {s₀ : σ} {c₀ : Script I F E} {n₀ : Nat} (h₀ : R s₀ c₀ n₀)
    (hrest : BulkEndsResting P s₀) {cap : Nat} : BulkPlaysLaw (producerScrambler debug P) (PlaysTail P s₀ c₀ cap) := by
  have hlaw := reached_playing_law hP h₀
  have hD := endsIn_reached hP h₀ hrest
  refine .of_default rfl ⟨⟨?_⟩, ?_⟩ ?_ ?_
  · rintro s c ⟨n, hs, xs, hx, rfl⟩
    obtain ⟨s', h1, h2⟩ := plays_produce debug hlaw hD s _ ⟨n, hs⟩
    refine ⟨s', h1, fun x hc => ?_⟩
    obtain ⟨m, hm⟩ := h2 x hc
    refine ⟨m, hm, xs ++ [x], hx.append (Script.startsWith_cons.mpr ⟨hc, by simp⟩), by simp [Script.drop_drop]⟩
  · intro s c h
    obtain ⟨s', h1 | ⟨e, h1, h2, -⟩⟩ := tail_slurp debug hP h₀ hrest s c h
    · exact ⟨s', .inl h1⟩
    · exact ⟨s', .inr ⟨e, h1, h2⟩⟩
  · rintro s c n ⟨hs, hx⟩
    obtain ⟨s', ⟨ys, h1, h2, h3, h4⟩ | h⟩ := plays_expose debug hlaw hD s c n hs
    · exact ⟨s', .inl ⟨ys, h1, h2, h3, h4, hx⟩⟩
    · exact ⟨s', .inr h⟩
  · rintro s c n k ⟨hs, xs, hx, rfl⟩ h0 hk
    obtain ⟨s', h1, h2⟩ := plays_consider (P := P) debug s _ n k hs h0 hk
    obtain ⟨l, hok, hc, -⟩ := hs
    have hn := hok.holds.shown
    have hl : (l.take k).length = k := by simp; omega
    refine ⟨s', h1, h2, xs ++ l.take k, hx.append (hc.take k), by rw [List.length_append, hl, Script.drop_drop]⟩

theorem tail_new {s₀ : σ} (c₀ : Script I F E) (ops : List ScrambleProduce) {cap : Nat} (hcap : 0 < cap) (tmp : Nat → I) :
    PlaysTail P s₀ c₀ cap (ProducerScrambler.new s₀ ops cap tmp) c₀ 0 :=
  ⟨⟨[], ok_new hcap, by simp, .inl ⟨rfl, 0, [], [], .start, rfl, by simp⟩⟩, [], by simp, by simp⟩

/-- A call that ends the sequence leaves the scrambler at rest. -/
theorem tail_call (debug : Bool) (hP : BulkPlaysLaw P R) {s₀ : σ} {c₀ : Script I F E} {n₀ : Nat} (h₀ : R s₀ c₀ n₀)
    (hrest : BulkEndsResting P s₀) {cap : Nat} {s : ProducerScrambler σ I F E} {c : Script I F E} {n : Nat}
    (hs : s.PlaysTail P s₀ c₀ cap c n) {shown : List I} {op : ProducerOp I} {s' : ProducerScrambler σ I F E}
    {a : Handout I F E} (hcall : (producerScrambler debug P).call s shown op = ok (s', a)) {last : Except E F}
    (hlast : a.ended = some last) : ∃ R, s'.Over P last R cap := by
  have hlaw := reached_playing_law hP h₀
  have hD := endsIn_reached hP h₀ hrest
  have hs' := hs
  obtain ⟨hp, xs, hx, rfl⟩ := hs'
  have hfill := ProducerScrambler.fill debug hlaw hD hp
  cases op with
  | produce =>
    rcases hfill with ⟨s₁, l, hf, hne, hok, -⟩ | ⟨s₁, r, hf, hr, hok, hdone⟩
    · obtain ⟨x, l, rfl⟩ := List.exists_cons_of_ne_nil hne
      obtain ⟨b, hb1, -⟩ := hok.holds.dequeue
      simp [BulkProducer.call, producerScrambler, produce, hf, hb1] at hcall
      obtain ⟨-, rfl⟩ := hcall
      cases hlast
    · have := over_of_done hx hr hok (fillQueue_last hf) hdone
      cases r <;> simp [BulkProducer.call, producerScrambler, produce, hf, Except.map] at hcall <;>
        (obtain ⟨rfl, rfl⟩ := hcall; cases hlast; exact this)
  | slurp =>
    obtain ⟨s₁, ⟨h1, -⟩ | ⟨e, -, h2, h3⟩⟩ := tail_slurp debug hP h₀ hrest s _ ⟨n, hs⟩
    · simp [BulkProducer.call, h1] at hcall
      obtain ⟨-, rfl⟩ := hcall
      cases hlast
    · simp [BulkProducer.call, h2] at hcall
      obtain ⟨rfl, rfl⟩ := hcall
      cases hlast
      exact h3
  | exposeItems =>
    rcases hfill with ⟨s₁, l, hf, hne, hok, -⟩ | ⟨s₁, r, hf, hr, hok, hdone⟩
    · obtain ⟨b, m, -, -, hb1, -⟩ := (Fixed.fifoLaw I cap).exposeItems _ _ _ _ hok.holds hne
      have hb1' : s₁.buffer.exposeItems = ok (b, some (l.take m)) := hb1
      simp [BulkProducer.call, producerScrambler, exposeItems, hf, hb1'] at hcall
      obtain ⟨-, rfl⟩ := hcall
      cases hlast
    · have := over_of_done hx hr hok (fillQueue_last hf) hdone
      cases r <;> simp [BulkProducer.call, producerScrambler, exposeItems, hf, Except.map] at hcall <;>
        (obtain ⟨rfl, rfl⟩ := hcall; cases hlast; exact this)
  | considerProduced k =>
    simp only [BulkProducer.call, producerScrambler, considerProduced, bind_eq] at hcall
    rcases hq : s.buffer.considerDequeued k with b | _ | _ <;> simp [hq] at hcall
    obtain ⟨-, rfl⟩ := hcall
    cases hlast
  | bulkProduce buf =>
    rcases hfill with ⟨s₁, l, hf, hne, hok, -⟩ | ⟨s₁, r, hf, hr, hok, hdone⟩
    · obtain ⟨b, m, -, -, hb1, -⟩ := (Fixed.fifoLaw I cap).exposeItems _ _ _ _ hok.holds hne
      have hb1' : s₁.buffer.exposeItems = ok (b, some (l.take m)) := hb1
      have he : (producerScrambler debug P).exposeItems s = ok ({ s₁ with buffer := b }, .ok (.inl (l.take m))) := by
        simp [producerScrambler, exposeItems, hf, hb1']
      have hb : (producerScrambler debug P).bulkProduce s buf =
          bulkProduceDefault (producerScrambler debug P).exposeItems (considerProduced (F := F) (E := E)) s buf := rfl
      simp only [BulkProducer.call, hb, bulkProduceDefault, he, bind_eq, bind_ok, considerProduced] at hcall
      rcases hq : b.considerDequeued (min (l.take m).length buf.length) with b' | _ | _ <;>
        (rw [hq] at hcall; simp at hcall)
      obtain ⟨-, rfl⟩ := hcall
      cases hlast
    · have := over_of_done hx hr hok (fillQueue_last hf) hdone
      have he : (producerScrambler debug P).exposeItems s = ok (s₁, r.map .inr) := by
        simp [producerScrambler, exposeItems, hf]
      have hb : (producerScrambler debug P).bulkProduce s buf = ok (s₁, r.map .inr, buf) := by
        show bulkProduceDefault (producerScrambler debug P).exposeItems _ s buf = _
        cases r <;> simp [bulkProduceDefault, he, Except.map]
      cases r <;> simp [BulkProducer.call, hb, Except.map] at hcall <;>
        (obtain ⟨rfl, rfl⟩ := hcall; cases hlast; exact this)

end ProducerScrambler

/-! ## Merges -/

/-- Loops of which only the results matter. -/
theorem loop_of_ok {σ : Type} {ρ : Type} {body : σ → Outcome (Step σ ρ)} (Inv : σ → Prop) (Post : ρ → Prop)
    (hdone : ∀ s r, Inv s → body s = ok (.done r) → Post r) (hcont : ∀ s s', Inv s → body s = ok (.continue s') → Inv s')
    {s : σ} (hs : Inv s) {r : ρ} (h : loop body s = ok r) : Post r := by
  have hf : ∀ n s, Inv s → loopFuel body n s = ok r → Post r := by
    intro n
    induction n with
    | zero => intro s _ h; cases h
    | succ n ih =>
      intro s hs h
      rcases hb : body s with (s' | r') | _ | _ <;> simp only [loopFuel, hb] at h
      · exact ih s' (hcont _ _ hs hb) h
      · injection h with h; exact h ▸ hdone _ _ hs hb
      · cases h
      · cases h
  by_cases hex : ∃ n, loopFuel body n s ≠ diverge
  · obtain ⟨n, hn⟩ := hex
    rw [loop_eq_of_fuel hn] at h
    exact hf n s hs h
  · unfold loop at h; rw [dif_neg hex] at h; cases h

namespace Merge

variable {σ₁ σ₂ : Type} {P₁ : Producer σ₁ I F E} {P₂ : Producer σ₂ I F E} {s₁ : σ₁} {s₂ : σ₂} {ready₁ ready₂ : Nat → Bool}

/-- The kept producers have emitted nothing but items. -/
def Going (P₁ : Producer σ₁ I F E) (P₂ : Producer σ₂ I F E) (s₁ : σ₁) (s₂ : σ₂) (s : Merge σ₁ σ₂) : Prop :=
  (∀ p, s.produceFuture₁ = some p → ∃ xs, Emits P₁ s₁ xs p) ∧ (∀ p, s.produceFuture₂ = some p → ∃ xs, Emits P₂ s₂ xs p)

/-- One of the producers is left, and it is at rest. -/
def Over (P₁ : Producer σ₁ I F E) (P₂ : Producer σ₂ I F E) (last : Except E F) (s : Merge σ₁ σ₂) : Prop :=
  (∃ p, s.produceFuture₁ = some p ∧ s.produceFuture₂ = none ∧ Rests P₁ p last) ∨
  (∃ p, s.produceFuture₁ = none ∧ s.produceFuture₂ = some p ∧ Rests P₂ p last)

theorem over_rests (h₁ : Fair ready₁) (h₂ : Fair ready₂) {last : Except E F} :
    RestsLaw (producer P₁ P₂ ready₁ ready₂) last (Over P₁ P₂ last) := by
  refine ⟨?_⟩
  rintro ⟨f₁, f₂, clock⟩ h
  suffices ∃ r, loop (produceBody P₁ P₂ ready₁ ready₂) ⟨f₁, f₂, clock⟩ = ok r ∧ r.2 = last.map .inr ∧ Over P₁ P₂ last r.1 by
    obtain ⟨⟨s', r⟩, h1, rfl, h2⟩ := this
    exact ⟨s', h1, h2⟩
  rcases h with ⟨p, rfl, rfl, hp⟩ | ⟨p, rfl, rfl, hp⟩
  · obtain ⟨t, ht, hr⟩ := h₁ clock
    refine loop_ok (fun a _ s => s.produceFuture₁ = some p ∧ s.produceFuture₂ = none ∧ s.clock + a = t) _ ?_ (a := t - clock) (b := 0)
      ⟨rfl, rfl, by simp; omega⟩
    rintro a b ⟨_, _, k⟩ ⟨rfl, rfl, hk⟩
    simp only at hk
    by_cases hready : ready₁ k = true
    · obtain ⟨p', h1, h2⟩ := hp.produce
      exact .inl ⟨(⟨some p', none, k + 1⟩, last.map .inr), by simp [produceBody, hready, h1], rfl, .inl ⟨p', rfl, rfl, h2⟩⟩
    · have : a ≠ 0 := by rintro rfl; rw [Nat.add_zero] at hk; exact hready (hk ▸ hr)
      exact .inr ⟨⟨some p, none, k + 1⟩, a - 1, 0, by simp [produceBody, hready], .inl (by omega), rfl, rfl, by simp; omega⟩
  · obtain ⟨t, ht, hr⟩ := h₂ clock
    refine loop_ok (fun a _ s => s.produceFuture₁ = none ∧ s.produceFuture₂ = some p ∧ s.clock + a = t) _ ?_ (a := t - clock) (b := 0)
      ⟨rfl, rfl, by simp; omega⟩
    rintro a b ⟨_, _, k⟩ ⟨rfl, rfl, hk⟩
    simp only at hk
    by_cases hready : ready₂ k = true
    · obtain ⟨p', h1, h2⟩ := hp.produce
      exact .inl ⟨(⟨none, some p', k + 1⟩, last.map .inr), by simp [produceBody, hready, h1], rfl, .inr ⟨p', rfl, rfl, h2⟩⟩
    · have : a ≠ 0 := by rintro rfl; rw [Nat.add_zero] at hk; exact hready (hk ▸ hr)
      exact .inr ⟨⟨none, some p, k + 1⟩, a - 1, 0, by simp [produceBody, hready], .inl (by omega), rfl, rfl, by simp; omega⟩

/-- One call of `produce`, as long as only items have been emitted. -/
theorem going_produce (h₁ : EndsResting P₁ s₁) (h₂ : EndsResting P₂ s₂) {s s' : Merge σ₁ σ₂} (hs : s.Going P₁ P₂ s₁ s₂)
    {r : Except E (I ⊕ F)} (h : (producer P₁ P₂ ready₁ ready₂).produce s = ok (s', r)) :
    (∀ x, r = .ok (.inl x) → s'.Going P₁ P₂ s₁ s₂) ∧ (∀ f, r = .ok (.inr f) → s'.Over P₁ P₂ (.ok f)) := by
  refine loop_of_ok (body := produceBody P₁ P₂ ready₁ ready₂) (Going P₁ P₂ s₁ s₂)
    (fun a => (∀ x, a.2 = .ok (.inl x) → a.1.Going P₁ P₂ s₁ s₂) ∧ (∀ f, a.2 = .ok (.inr f) → a.1.Over P₁ P₂ (.ok f)))
    ?_ ?_ hs (r := (s', r)) h
  · rintro ⟨_ | p₁, _ | p₂, k⟩ ⟨s', r⟩ ⟨g₁, g₂⟩ hb
    · cases hb
    · obtain ⟨xs, hx⟩ := g₂ p₂ rfl
      simp only [produceBody, bind_eq, pure_eq] at hb
      split at hb
      · rcases hp : P₂.produce p₂ with ⟨p', r'⟩ | _ | _ <;> simp [hp] at hb
        obtain ⟨rfl, rfl⟩ := hb
        refine ⟨?_, ?_⟩
        · rintro x rfl
          exact ⟨by simp, by simp; exact ⟨_, hx.snoc hp⟩⟩
        · rintro f rfl
          exact .inr ⟨p', rfl, rfl, h₂ _ _ _ _ hx hp⟩
      · cases hb
    · obtain ⟨xs, hx⟩ := g₁ p₁ rfl
      simp only [produceBody, bind_eq, pure_eq] at hb
      split at hb
      · rcases hp : P₁.produce p₁ with ⟨p', r'⟩ | _ | _ <;> simp [hp] at hb
        obtain ⟨rfl, rfl⟩ := hb
        refine ⟨?_, ?_⟩
        · rintro x rfl
          exact ⟨by simp; exact ⟨_, hx.snoc hp⟩, by simp⟩
        · rintro f rfl
          exact .inl ⟨p', rfl, rfl, h₁ _ _ _ _ hx hp⟩
      · cases hb
    · obtain ⟨xs, hx⟩ := g₁ p₁ rfl
      obtain ⟨ys, hy⟩ := g₂ p₂ rfl
      simp only [produceBody, bind_eq, pure_eq] at hb
      split at hb
      · rcases hp : P₁.produce p₁ with ⟨p', e | x | f⟩ | _ | _ <;> simp [hp] at hb
        · obtain ⟨rfl, rfl⟩ := hb
          exact ⟨by simp, by simp⟩
        · obtain ⟨rfl, rfl⟩ := hb
          exact ⟨fun _ _ => ⟨by simp; exact ⟨_, hx.snoc hp⟩, by simp; exact ⟨_, hy⟩⟩, by simp⟩
      · split at hb
        · rcases hp : P₂.produce p₂ with ⟨p', e | x | f⟩ | _ | _ <;> simp [hp] at hb
          · obtain ⟨rfl, rfl⟩ := hb
            exact ⟨by simp, by simp⟩
          · obtain ⟨rfl, rfl⟩ := hb
            exact ⟨fun _ _ => ⟨by simp; exact ⟨_, hx⟩, by simp; exact ⟨_, hy.snoc hp⟩⟩, by simp⟩
        · cases hb
  · rintro ⟨_ | p₁, _ | p₂, k⟩ s' ⟨g₁, g₂⟩ hb
    · cases hb
    · simp only [produceBody, bind_eq, pure_eq] at hb
      split at hb
      · rcases hp : P₂.produce p₂ with ⟨p', r'⟩ | _ | _ <;> simp [hp] at hb
      · cases hb; exact ⟨g₁, g₂⟩
    · simp only [produceBody, bind_eq, pure_eq] at hb
      split at hb
      · rcases hp : P₁.produce p₁ with ⟨p', r'⟩ | _ | _ <;> simp [hp] at hb
      · cases hb; exact ⟨g₁, g₂⟩
    · simp only [produceBody, bind_eq, pure_eq] at hb
      split at hb
      · rcases hp : P₁.produce p₁ with ⟨p', e | x | f⟩ | _ | _ <;> simp [hp] at hb
        subst hb
        exact ⟨by simp, g₂⟩
      · split at hb
        · rcases hp : P₂.produce p₂ with ⟨p', e | x | f⟩ | _ | _ <;> simp [hp] at hb
          subst hb
          exact ⟨g₁, by simp⟩
        · cases hb; exact ⟨g₁, g₂⟩

theorem going_emits (h₁ : EndsResting P₁ s₁) (h₂ : EndsResting P₂ s₂) {s s' : Merge σ₁ σ₂} {xs : List I}
    (h : Emits (producer P₁ P₂ ready₁ ready₂) s xs s') (hs : s.Going P₁ P₂ s₁ s₂) : s'.Going P₁ P₂ s₁ s₂ := by
  induction h with
  | nil => exact hs
  | cons h _ ih => exact ih ((going_produce h₁ h₂ hs h).1 _ rfl)

end Merge

/-! ## Shared decoders -/

/-- The methods of the shared decoders. -/
def IsSharedDecoder {T R β Op : Type} (P : BulkProducer σ UInt8 F E)
    (method : β → Op → SharedMethod σ β (SharedDecoderAnswer T F (DecodeError F E R))) : Prop :=
  ∀ b op, (∃ decode : DecodeFn T R, method b op = .locked (withAnswer .produced (decoderProduce decode P))) ∨
    method b op = .locked (withAnswer .slurped (decoderSlurp P)) ∨ ∃ x, method b op = .immediate x .unit

theorem withAnswer_run {A A' : Type} {f : A → A'} {run : σ → Outcome (σ × A)} {s s' : σ} {a : A'}
    (h : withAnswer f run s = ok (s', a)) : ∃ x, run s = ok (s', x) ∧ a = f x := by
  simp only [withAnswer, bind_eq] at h
  rcases hr : run s with ⟨s₁, x⟩ | _ | _ <;> simp [hr] at h
  exact ⟨x, by rw [h.1], h.2.symm⟩

/-- One more call. -/
theorem shared_decoder_step {T R β Op : Type} {P : BulkProducer σ UInt8 F E}
    {method : β → Op → SharedMethod σ β (SharedDecoderAnswer T F (DecodeError F E R))} (hm : IsSharedDecoder P method)
    {b : β} {op : Op} {run : σ → Outcome (σ × SharedDecoderAnswer T F (DecodeError F E R))} (hop : method b op = .locked run)
    {s s' : σ} {a : SharedDecoderAnswer T F (DecodeError F E R)} (h : run s = ok (s', a)) :
    (∀ f, BulkRests P s (.ok f) → BulkRests P s' (.ok f) ∧ AnswersOver f a) ∧
    ∀ f, a = .produced (.ok (.inr f)) → ∃ s₁, P.exposeItems s₁ = ok (s', .ok (.inr f)) := by
  rcases hm b op with ⟨decode, h1⟩ | h1 | ⟨x, h1⟩ <;> rw [hop] at h1
  · cases h1
    obtain ⟨r, h2, rfl⟩ := withAnswer_run h
    refine ⟨fun f hf => ?_, ?_⟩
    · obtain ⟨s₁, h3, h4⟩ := hf.expose
      simp [decoderProduce, h3, Except.map] at h2
      obtain ⟨rfl, rfl⟩ := h2
      exact ⟨h4, .inl rfl⟩
    · rintro f h3
      cases h3
      simp only [decoderProduce, bind_eq, pure_eq] at h2
      rcases he : P.exposeItems s with ⟨s₁, e | xs | f'⟩ | _ | _ <;> simp [he] at h2
      · rcases hd : decode P s₁ with ⟨s₂, e | x⟩ | _ | _ <;> simp [hd] at h2
      · obtain ⟨rfl, rfl⟩ := h2
        exact ⟨s, he⟩
  · cases h1
    obtain ⟨r, h2, rfl⟩ := withAnswer_run h
    refine ⟨fun f hf => ?_, by rintro f ⟨⟩⟩
    obtain ⟨s₁, h3 | ⟨e, h3, _⟩, h4⟩ := hf.slurp
    · simp [decoderSlurp, h3] at h2
      obtain ⟨rfl, rfl⟩ := h2
      exact ⟨h4, .inr (.inl rfl)⟩
    · cases h3
  · cases h1

theorem shared_decoder_over {T R β Op ι : Type} [DecidableEq ι] {P : BulkProducer σ UInt8 F E}
    {method : β → Op → SharedMethod σ β (SharedDecoderAnswer T F (DecodeError F E R))} (hm : IsSharedDecoder P method)
    (hend : ∀ s s' f, P.exposeItems s = ok (s', .ok (.inr f)) → BulkRests P s' (.ok f)) {b b' : ι → β} {s s' : σ}
    {l : List (ι × Op × SharedDecoderAnswer T F (DecodeError F E R))} (h : Serial method b s l b' s') :
    ∀ l₁ l₂ i op f, l = l₁ ++ (i, op, .produced (.ok (.inr f))) :: l₂ → BulkRests P s' (.ok f) ∧ ∀ c ∈ l₂, AnswersOver f c.2.2 := by
  induction h with
  | nil => intro l₁ l₂ i op f h; simp at h
  | locked _ hop hrun ih =>
    intro l₁ l₂ i op f hl
    obtain ⟨h1, h2⟩ := shared_decoder_step hm hop hrun
    rcases List.eq_nil_or_concat l₂ with rfl | ⟨l₃, x, rfl⟩
    · obtain ⟨-, hx⟩ := List.append_inj' hl rfl
      simp only [List.cons.injEq, Prod.mk.injEq, and_true] at hx
      obtain ⟨s₁, h3⟩ := h2 f hx.2.2
      exact ⟨hend _ _ _ h3, by simp⟩
    · rw [List.concat_eq_append, ← List.cons_append, ← List.append_assoc] at hl
      obtain ⟨hl, hx⟩ := List.append_inj' hl rfl
      obtain ⟨h3, h4⟩ := ih _ _ _ _ _ hl
      obtain ⟨h5, h6⟩ := h1 f h3
      refine ⟨h5, fun c hc => ?_⟩
      simp only [List.cons.injEq, and_true] at hx
      subst hx
      rw [List.concat_eq_append] at hc
      rcases List.mem_append.mp hc with hc | hc
      · exact h4 c hc
      · rw [List.mem_singleton.mp hc]; exact h6
  | @immediate l b₁ s₁ j op' x a _ hop ih =>
    intro l₁ l₂ i op f hl
    have ha : a = .unit := by
      rcases hm (b₁ j) op' with ⟨_, h1⟩ | h1 | ⟨x, h1⟩ <;> rw [hop] at h1 <;> cases h1
      rfl
    rcases List.eq_nil_or_concat l₂ with rfl | ⟨l₃, x, rfl⟩
    · obtain ⟨-, hx⟩ := List.append_inj' hl rfl
      simp [ha] at hx
    · rw [List.concat_eq_append, ← List.cons_append, ← List.append_assoc] at hl
      obtain ⟨hl, hx⟩ := List.append_inj' hl rfl
      obtain ⟨h3, h4⟩ := ih _ _ _ _ _ hl
      refine ⟨h3, fun c hc => ?_⟩
      simp only [List.cons.injEq, and_true] at hx
      subst hx
      rw [List.concat_eq_append] at hc
      rcases List.mem_append.mp hc with hc | hc
      · exact h4 c hc
      · rw [List.mem_singleton.mp hc]; exact .inr (.inr ha)

end

end Verif
