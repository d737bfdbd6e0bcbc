import Verif.Props.Limit
import Verif.Props.Scramblers

/-!
# C20, C27: for which sequences `slurp` goes wrong

`limit_bulk_plays_partial` and `producer_scrambler_plays_partial` have side conditions because of `slurp`. Here it is determined for
which sequences the full claims hold (for every producer that emits the sequence).
-/

namespace Verif

open Outcome

section

variable {σ I F E : Type}

/-- The ideal producer of a sequence: its state is what is left of the sequence. It exposes one item at a time, and `slurp` reports an
error as soon as it is next. -/
def scriptProducer (I F E : Type) : BulkProducer (Script I F E) I F E where
  produce c := match c 0 with
    | .ok (.inl x) => ok (c.drop 1, .ok (.inl x))
    | r => ok (c, r)
  slurp c := match c 0 with
    | .error e => ok (c, .error e)
    | _ => ok (c, .ok ())
  exposeItems c := match c 0 with
    | .ok (.inl x) => ok (c, .ok (.inl [x]))
    | .ok (.inr f) => ok (c, .ok (.inr f))
    | .error e => ok (c, .error e)
  considerProduced c k := ok (c.drop k, .ok ())

/-- Every sequence is emitted by some lawful producer. -/
theorem script_producer_plays (c : Script I F E) : BulkPlays (scriptProducer I F E) c c := by
  refine ⟨fun s c _ => s = c, .of_default rfl ⟨⟨?_⟩, ?_⟩ ?_ ?_, 0, rfl⟩
  · rintro c _ ⟨_, rfl⟩
    rcases h : c 0 with e | x | f
    · exact ⟨c, by simp [scriptProducer, h], by simp⟩
    · exact ⟨c.drop 1, by simp [scriptProducer, h], fun _ _ => ⟨0, rfl⟩⟩
    · exact ⟨c, by simp [scriptProducer, h], by simp⟩
  · rintro c _ ⟨_, rfl⟩
    rcases h : c 0 with e | x | f
    · exact ⟨c, .inr ⟨e, rfl, by simp [scriptProducer, h]⟩⟩
    · exact ⟨c, .inl ⟨by simp [scriptProducer, h], 0, rfl⟩⟩
    · exact ⟨c, .inl ⟨by simp [scriptProducer, h], 0, rfl⟩⟩
  · rintro c _ _ rfl
    rcases h : c 0 with e | x | f
    · exact ⟨c, .inr (.inr ⟨e, rfl, by simp [scriptProducer, h]⟩)⟩
    · exact ⟨c, .inl ⟨[x], by simp, Script.startsWith_cons.mpr ⟨h, by simp⟩, by simp [scriptProducer, h], rfl⟩⟩
    · exact ⟨c, .inr (.inl ⟨f, rfl, by simp [scriptProducer, h]⟩)⟩
  · rintro c _ _ k rfl _ _
    exact ⟨c.drop k, rfl, rfl⟩

/-- The relation of a lawful producer can be restricted to a set of sequences that is closed under taking items away. -/
theorem BulkPlaysLaw.restrict {P : BulkProducer σ I F E} {R : σ → Script I F E → Nat → Prop} (h : BulkPlaysLaw P R)
    {K : Script I F E → Prop} (hK : ∀ c k, K c → K (c.drop k)) : BulkPlaysLaw P (fun s c n => R s c n ∧ K c) := by
  refine ⟨⟨⟨?_⟩, ?_⟩, ?_, ?_, ?_⟩
  · rintro s c ⟨n, hn, hk⟩
    obtain ⟨s', h1, h2⟩ := h.base.produce s c ⟨n, hn⟩
    refine ⟨s', h1, fun x hx => ?_⟩
    obtain ⟨m, hm⟩ := h2 x hx
    exact ⟨m, hm, hK c 1 hk⟩
  · rintro s c ⟨n, hn, hk⟩
    obtain ⟨s', ⟨h1, m, hm⟩ | h1⟩ := h.base.slurp s c ⟨n, hn⟩
    · exact ⟨s', .inl ⟨h1, m, hm, hk⟩⟩
    · exact ⟨s', .inr h1⟩
  · rintro s c n ⟨hn, hk⟩
    obtain ⟨s', ⟨xs, h1, h2, h3, h4⟩ | h1⟩ := h.expose s c n hn
    · exact ⟨s', .inl ⟨xs, h1, h2, h3, h4, hk⟩⟩
    · exact ⟨s', .inr h1⟩
  · rintro s c n k ⟨hn, hk⟩ h0 hl
    obtain ⟨s', h1, h2⟩ := h.consider s c n k hn h0 hl
    exact ⟨s', h1, h2, hK c k hk⟩
  · rintro s c n buf ⟨hn, hk⟩ hb
    obtain ⟨s', buf', hl, ⟨k, h1, h2, h3, h4, m, hm⟩ | h1⟩ := h.bulkProduce s c n buf hn hb
    · exact ⟨s', buf', hl, .inl ⟨k, h1, h2, h3, h4, m, hm, hK c k hk⟩⟩
    · exact ⟨s', buf', hl, .inr h1⟩

/-! ## Limit -/

theorem limit_reaches (c : Script I F E) {n k : Nat} (hk : k ≤ n) (hc : ∀ i, i < k → ∃ x, c i = .ok (.inl x))
    {c' : Script I (Option F) E} {R : LimitSt (Script I F E) → Script I (Option F) E → Nat → Prop}
    (hR : BulkPlaysLaw (limitBulkProducer (scriptProducer I F E)) R) {m : Nat} (hs : R ⟨c, n⟩ c' m) :
    ∃ m, R ⟨c.drop k, n - k⟩ (c'.drop k) m := by
  induction k with
  | zero => exact ⟨m, by simpa using hs⟩
  | succ k ih =>
    obtain ⟨m, hm⟩ := ih (by omega) (fun i hi => hc i (by omega))
    obtain ⟨x, hx⟩ := hc k (by omega)
    obtain ⟨s', h1, h2⟩ := hR.base.produce _ _ ⟨m, hm⟩
    have h3 : (limitBulkProducer (scriptProducer I F E)).produce ⟨c.drop k, n - k⟩ =
        ok (⟨c.drop (k + 1), n - (k + 1)⟩, .ok (.inl x)) := by
      rw [show n - k = n - (k + 1) + 1 by omega]
      simp [limitBulkProducer, limitBufferedProducer, limitProducer, scriptProducer, hx]
    rw [h1] at h3
    obtain ⟨rfl, h4⟩ := Prod.mk.inj (Outcome.ok.inj h3)
    obtain ⟨m', h5⟩ := h2 x h4
    exact ⟨m', by simpa using h5⟩

/-- **C20.** Exactly the sequences for which `Limit` is lawful around every lawful producer, under every mix of calls: those in which
the limit does not cut off an error that follows directly. -/
theorem limit_bulk_plays_iff (c : Script I F E) (n : Nat) :
    (∀ (σ : Type) (P : BulkProducer σ I F E) (s : σ), BulkPlays P s c → BulkPlays (limitBulkProducer P) ⟨s, n⟩ (c.limit n)) ↔
    ¬ ((∃ e, c n = .error e) ∧ ∀ i, i < n → ∃ x, c i = .ok (.inl x)) := by
  constructor
  · rintro h ⟨⟨e, he⟩, hc⟩
    obtain ⟨R, hR, m, hm⟩ := h _ _ _ (script_producer_plays c)
    obtain ⟨m', h1⟩ := limit_reaches c (Nat.le_refl n) hc hR hm
    have h2 : (limitBulkProducer (scriptProducer I F E)).slurp ⟨c.drop n, n - n⟩ = ok (⟨c.drop n, n - n⟩, .error e) := by
      simp [limitBulkProducer, limitBufferedProducer, scriptProducer, he]
    obtain ⟨s', ⟨h3, _⟩ | ⟨e', h3, _⟩⟩ := hR.base.slurp _ _ ⟨m', h1⟩
    · rw [h2] at h3
      simp at h3
    · simp [Script.limit] at h3
  · intro h σ P s hP
    refine limit_bulk_plays_partial hP n fun e he => ?_
    refine Classical.byContradiction fun hn => h ⟨⟨e, he⟩, fun i hi => ?_⟩
    refine Classical.byContradiction fun hx => hn ⟨i, hi, fun x hx' => hx ⟨x, hx'⟩⟩

/-- A sequence of three items and an error can be limited to two or four, but not to three items. -/
example : (∀ (σ : Type) (P : BulkProducer σ Nat Unit String) (s : σ), BulkPlays P s (Case.script (.error "broken")) →
      BulkPlays (limitBulkProducer P) ⟨s, 2⟩ ((Case.script (.error "broken")).limit 2)) ∧
    (∀ (σ : Type) (P : BulkProducer σ Nat Unit String) (s : σ), BulkPlays P s (Case.script (.error "broken")) →
      BulkPlays (limitBulkProducer P) ⟨s, 4⟩ ((Case.script (.error "broken")).limit 4)) ∧
    ¬ ∀ (σ : Type) (P : BulkProducer σ Nat Unit String) (s : σ), BulkPlays P s (Case.script (.error "broken")) →
      BulkPlays (limitBulkProducer P) ⟨s, 3⟩ ((Case.script (.error "broken")).limit 3) := by
  rw [limit_bulk_plays_iff, limit_bulk_plays_iff, limit_bulk_plays_iff]
  refine ⟨fun h => ?_, fun h => ?_, fun h => h ⟨⟨_, rfl⟩, fun i hi => ?_⟩⟩
  · obtain ⟨⟨e, he⟩, _⟩ := h
    cases he
  · obtain ⟨x, hx⟩ := h.2 3 (by decide)
    cases hx
  · match i, hi with
    | 0, _ => exact ⟨_, rfl⟩
    | 1, _ => exact ⟨_, rfl⟩
    | 2, _ => exact ⟨_, rfl⟩

/-! ## Scrambler -/

theorem monitored_endsIn (P : BulkProducer σ I F E) (R : Monitored σ → Script I F E → Nat → Prop)
    (hR : ∀ s c n, R s c n → s.over = false) : EndsIn (monitoredProducer P) R (fun s => s.over = true) := by
  refine ⟨?_, ?_, ?_⟩
  · intro s c n s' r hs h hr
    simp only [monitoredProducer, hR _ _ _ hs, Bool.false_eq_true, if_false, bind_eq_ok] at h
    obtain ⟨⟨t, r'⟩, _, h⟩ := h
    rcases r' with e | x | f <;> cases h
    · rfl
    · exact absurd rfl (hr x)
    · rfl
  · intro s c n s' r hs h hr
    simp only [monitoredProducer, hR _ _ _ hs, Bool.false_eq_true, if_false, bind_eq_ok] at h
    obtain ⟨⟨t, r'⟩, _, h⟩ := h
    rcases r' with e | x | f <;> cases h
    · rfl
    · exact absurd rfl (hr x)
    · rfl
  · intro s c n s' e hs h
    simp only [monitoredProducer, hR _ _ _ hs, Bool.false_eq_true, if_false, bind_eq_ok] at h
    obtain ⟨⟨t, r'⟩, _, h⟩ := h
    rcases r' with e | ⟨⟩ <;> cases h
    rfl

theorem scrambler_slurp_panics [Inhabited I] (debug : Bool) (c : Script I F E) (h0 : ∀ e, c 0 ≠ .error e) {n : Nat}
    (hn : ∀ x, c n ≠ .ok (.inl x)) : (producerScrambler debug (monitoredProducer (scriptProducer I F E))).slurp
      (ProducerScrambler.new (.start c) [] (n + 1) (fun _ => default)) = .panic := by
  obtain ⟨R, hR, m, hm⟩ := script_producer_plays c
  have hD := monitored_endsIn (scriptProducer I F E) (Monitored.Plays R) (fun _ _ _ h => h.1)
  obtain ⟨s', hloop, l, hok, ⟨hc, hrest⟩, hfull⟩ := ProducerScrambler.fill_loop (cap := n + 1) debug hR.monitored hD
    (s := ProducerScrambler.new (.start c) [] (n + 1) (fun _ => default)) (c := c) (n := 0)
    ⟨[], ProducerScrambler.ok_new (by omega), by simp, .inl ⟨rfl, 0, rfl, .inl ⟨rfl, rfl, m, by rw [List.length_nil, Script.drop_zero]; exact hm⟩⟩⟩
  have hpanic : (monitoredProducer (scriptProducer I F E)).slurp s'.inner = .panic ∧
      ∃ r, s'.last = some r ∧ c l.length = r.map .inr := by
    rcases hrest with ⟨hlast, _⟩ | ⟨r, hlast, hr, hdone⟩
    · have hl := hfull hlast
      have : n < l.length := by omega
      exact absurd (hc n _ (List.getElem?_eq_getElem this)) (hn _)
    · exact ⟨by simp [monitoredProducer, hdone], r, hlast, hr⟩
  obtain ⟨hpanic, r, hlast, hr⟩ := hpanic
  have hlen := hok.len
  by_cases hl : l = []
  · subst hl
    rcases r with e | f
    · exact absurd hr (h0 e)
    · simp only [List.length_nil] at hlen
      simp [producerScrambler, ProducerScrambler.slurp, ProducerScrambler.fillQueue, ProducerScrambler.slurpInner, hloop, hlen, hlast,
        hpanic]
  · have : s'.buffer.len ≠ 0 := by rw [hlen]; simpa using hl
    simp [producerScrambler, ProducerScrambler.slurp, ProducerScrambler.fillQueue, ProducerScrambler.slurpInner, hloop, this, hpanic]

/-- **C27.** Exactly the sequences for which the scrambler is lawful around every lawful producer, under every mix of calls including
`slurp`: those that do not end, and the one that consists of an error. -/
theorem producer_scrambler_plays_iff [Inhabited I] (debug : Bool) (c : Script I F E) :
    (∀ (σ : Type) (P : BulkProducer σ I F E) (s : σ) (ops : List ScrambleProduce) (cap : Nat) (tmp : Nat → I), BulkPlays P s c →
      0 < cap → BulkPlays (producerScrambler debug P) (ProducerScrambler.new s ops cap tmp) c) ↔
    (∀ i, ∃ x, c i = .ok (.inl x)) ∨ ∃ e, c 0 = .error e := by
  constructor
  · intro h
    refine Classical.byContradiction fun hn => ?_
    have hex : ∃ n, (∀ x, c n ≠ .ok (.inl x)) := Classical.byContradiction fun hx =>
      hn (.inl fun i => Classical.byContradiction fun hi => hx ⟨i, fun x hx' => hi ⟨x, hx'⟩⟩)
    obtain ⟨n, hend⟩ := hex
    obtain ⟨R, hR, m, hm⟩ := h _ _ _ [] (n + 1) (fun _ => default) (script_producer_plays c).monitored (by omega)
    have hp := scrambler_slurp_panics debug c (fun e he => hn (.inr ⟨e, he⟩)) hend
    obtain ⟨s', ⟨h1, _⟩ | ⟨e, _, h1⟩⟩ := hR.base.slurp _ _ ⟨m, hm⟩
    · rw [hp] at h1; cases h1
    · rw [hp] at h1; cases h1
  · rintro (h | ⟨e, he⟩) σ P s ops cap tmp hP hcap
    · obtain ⟨R, hR, m, hm⟩ := hP
      have hR' := hR.restrict (K := fun c => ∀ i, ∃ x, c i = .ok (.inl x)) (fun c k hc i => hc (k + i))
      refine producer_scrambler_plays_partial debug hR' ⟨hm, h⟩ (Done := fun _ => False) ⟨?_, ?_, ?_⟩ (fun _ hf => hf.elim) ops hcap tmp
      · rintro s c n s' r ⟨hs, hc⟩ hp hr
        obtain ⟨s1, h1, _⟩ := hR.base.produce s c ⟨n, hs⟩
        obtain ⟨x, hx⟩ := hc 0
        rw [h1] at hp
        cases hp
        exact hr x hx
      · rintro s c n s' r ⟨hs, hc⟩ hp hr
        obtain ⟨x, hx⟩ := hc 0
        obtain ⟨s1, ⟨xs, _, _, h1, _⟩ | ⟨f, h1, _⟩ | ⟨e, h1, _⟩⟩ := hR.expose s c n hs
        · rw [h1] at hp
          cases hp
          exact hr xs rfl
        · rw [hx] at h1; cases h1
        · rw [hx] at h1; cases h1
      · rintro s c n s' e ⟨hs, hc⟩ hp
        obtain ⟨x, hx⟩ := hc 0
        obtain ⟨s1, ⟨h1, _⟩ | ⟨e, h1, _⟩⟩ := hR.base.slurp s c ⟨n, hs⟩
        · rw [h1] at hp; cases hp
        · rw [hx] at h1; cases h1
    · obtain ⟨R, hR, m, hm⟩ := hP
      have hD := EndsIn.trivial P R
      refine ⟨fun s c n => s.Plays R (fun _ => True) cap c n ∧ ∃ e, c 0 = .error e, .of_default rfl ⟨⟨?_⟩, ?_⟩ ?_ ?_,
        0, ⟨[], ProducerScrambler.ok_new hcap, by simp, .inl ⟨rfl, m, by rw [List.length_nil, Script.drop_zero]; exact hm⟩⟩, e, he⟩
      · rintro s c ⟨n, hs, e, he⟩
        obtain ⟨s', h1, _⟩ := ProducerScrambler.plays_produce debug hR hD s c ⟨n, hs⟩
        exact ⟨s', h1, fun x hx => by rw [he] at hx; cases hx⟩
      · rintro s c ⟨n, hs, e, he⟩
        rcases ProducerScrambler.fill debug hR hD hs with ⟨s', l, _, hne, _, hc, _⟩ | ⟨s', r, hf, hr, _⟩
        · obtain ⟨x, hx⟩ := hc.ne_nil_zero hne
          rw [he] at hx; cases hx
        · rw [he] at hr
          rcases r with e' | f <;> cases hr
          exact ⟨s', .inr ⟨e, he, by simp [producerScrambler, ProducerScrambler.slurp, hf]⟩⟩
      · rintro s c n ⟨hs, e, he⟩
        obtain ⟨s', ⟨xs, h1, h2, _⟩ | h1⟩ := ProducerScrambler.plays_expose debug hR hD s c n hs
        · obtain ⟨x, hx⟩ := h2.ne_nil_zero h1
          rw [he] at hx; cases hx
        · exact ⟨s', .inr h1⟩
      · rintro s c n k ⟨⟨l, hok, hc, _⟩, e, he⟩ h0 _
        have hn := hok.holds.shown
        obtain ⟨x, hx⟩ := hc.ne_nil_zero (fun hl => by subst hl; simp at hn; omega)
        rw [he] at hx; cases hx

/-- Around every producer that emits nothing but zeros, but not around every producer that emits a zero and then fails. -/
example : (∀ (σ : Type) (P : BulkProducer σ Nat Unit String) (s : σ) (ops : List ScrambleProduce) (cap : Nat) (tmp : Nat → Nat),
      BulkPlays P s (fun _ => .ok (.inl 0)) → 0 < cap →
      BulkPlays (producerScrambler true P) (ProducerScrambler.new s ops cap tmp) (fun _ => .ok (.inl 0))) ∧
    ¬ ∀ (σ : Type) (P : BulkProducer σ Nat Unit String) (s : σ) (ops : List ScrambleProduce) (cap : Nat) (tmp : Nat → Nat),
      BulkPlays P s (Script.ofList [0] (.error "broken")) → 0 < cap →
      BulkPlays (producerScrambler true P) (ProducerScrambler.new s ops cap tmp) (Script.ofList [0] (.error "broken")) := by
  refine ⟨(producer_scrambler_plays_iff true _).mpr (.inl fun _ => ⟨_, rfl⟩), fun h => ?_⟩
  rcases (producer_scrambler_plays_iff true _).mp h with h | ⟨e, h⟩
  · obtain ⟨x, hx⟩ := h 1
    cases hx
  · cases h

end

end Verif
