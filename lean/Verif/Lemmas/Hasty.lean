import Verif.HastySpec
import Verif.Lemmas.Monitor
import Verif.Lemmas.ProducerScrambler

/-!
# The producer `BulkScrambler` around producers that report errors early

As in `Verif.Lemmas.ProducerScrambler`.
-/

namespace Verif

open Outcome

section

variable {σ I F E : Type}

theorem HastyLaw.monitored {P : BulkProducer σ I F E} {R : σ → Script I F E → Nat → Prop} (h : HastyLaw P R) :
    HastyLaw (monitoredProducer P) (Monitored.Plays R) where
  base :=
    { produce := by
        rintro ⟨s, o, e⟩ c ⟨n, hn⟩
        have hi := hn.inner
        obtain ⟨rfl, _⟩ := hn
        obtain ⟨s', h3, h4⟩ := h.base.produce s c hi
        rcases hc : c 0 with e' | x | f
        · exact ⟨⟨s', true, 0⟩, by simp [monitoredProducer, h3, hc], by simp⟩
        · exact ⟨⟨s', false, 0⟩, by simp [monitoredProducer, h3, hc], fun y hy => ⟨0, rfl, .inl ⟨rfl, rfl, h4 x hc⟩⟩⟩
        · exact ⟨⟨s', true, 0⟩, by simp [monitoredProducer, h3, hc], by simp⟩
      slurp := by
        rintro ⟨s, o, e⟩ c ⟨n, hn⟩
        have hi := hn.inner
        obtain ⟨rfl, _⟩ := hn
        obtain ⟨s', ⟨h3, h4⟩ | ⟨e', h3, h4⟩⟩ := h.base.slurp s c hi
        · exact ⟨⟨s', false, 0⟩, .inl ⟨by simp [monitoredProducer, h3], 0, rfl, .inl ⟨rfl, rfl, h4⟩⟩⟩
        · exact ⟨⟨s', true, 0⟩, .inr ⟨e', h3, by simp [monitoredProducer, h4]⟩⟩ }
  expose := by
    rintro ⟨s, o, e⟩ c n hn
    obtain ⟨m, hm⟩ := hn.inner
    obtain ⟨rfl, _⟩ := hn
    obtain ⟨s', ⟨xs, h1, h2, h3, h4⟩ | ⟨f, h1, h2⟩ | ⟨e', h1, h2⟩⟩ := h.expose s c m hm
    · exact ⟨⟨s', false, xs.length⟩, .inl ⟨xs, h1, h2, by simp [monitoredProducer, h3], rfl, .inr ⟨rfl, h4⟩⟩⟩
    · exact ⟨⟨s', true, 0⟩, .inr (.inl ⟨f, h1, by simp [monitoredProducer, h2]⟩)⟩
    · exact ⟨⟨s', true, 0⟩, .inr (.inr ⟨e', h1, by simp [monitoredProducer, h2]⟩)⟩
  consider := by
    rintro ⟨s, o, e⟩ c n k ⟨rfl, ⟨rfl, _⟩ | ⟨hn, hR⟩⟩ h0 hk
    · omega
    · simp only at hn hR
      subst hn
      obtain ⟨s', ⟨h1, h2⟩ | ⟨e, h1, h2⟩⟩ := h.consider s c n k hR h0 hk
      · refine ⟨⟨s', false, n - k⟩, .inl ⟨?_, rfl, .inr ⟨rfl, h2⟩⟩⟩
        simp [monitoredProducer, h1, show ¬ n < k by omega, show n ≠ 0 by omega]
      · refine ⟨⟨s', true, 0⟩, .inr ⟨e, h1, ?_⟩⟩
        simp [monitoredProducer, h2, show ¬ n < k by omega, show n ≠ 0 by omega]

/-- A producer that may report errors early, and panics if it is misused. -/
theorem Hasty.monitored {P : BulkProducer σ I F E} {s : σ} {c : Script I F E} (h : Hasty P s c) :
    Hasty (monitoredProducer P) (.start s) c := by
  obtain ⟨R, hR, n, hn⟩ := h
  exact ⟨_, hR.monitored, 0, rfl, .inl ⟨rfl, rfl, n, hn⟩⟩

namespace ProducerScrambler

variable {P : BulkProducer σ I F E} {R : σ → Script I F E → Nat → Prop} {cap : Nat}

/-- One operation on the wrapped producer. -/
theorem hasty_perform (debug : Bool) (hP : HastyLaw P R) {s : ProducerScrambler σ I F E}
    {c : Script I F E} {l : List I} {n : Nat} (hs : s.Ok cap l n) (hc : c.StartsWith l) (hl : l.length < cap)
    (hlast : s.last = none) (hR : ∃ m, R s.inner (c.drop l.length) m) :
    (∃ s' xs, s.performOperation debug P = ok (s', .ok none) ∧ s'.Ok cap (l ++ xs) n ∧ c.StartsWith (l ++ xs) ∧
      s'.last = none ∧ (∃ m, R s'.inner (c.drop (l ++ xs).length) m) ∧
      (xs ≠ [] ∨ (s.operations[s.index]? = some .slurp ∧ s'.operations = s.operations ∧
        s'.index = (s.index + 1) % s.operations.length))) ∨
    (∃ s' r xs, s.performOperation debug P = ok (s', Except.map some r) ∧
      s'.Ok cap (l ++ xs) n ∧ c.StartsWith (l ++ xs) ∧ c (l ++ xs).length = r.map .inr ∧ s'.last = none) := by
  have hdb : debugAssert debug (decide (s.buffer.len < s.buffer.capacity)) = ok () :=
    debugAssert_of (by rw [hs.len, hs.capacity]; simpa using hl)
  simp only [performOperation, hdb, index_of_lt hs.index, bind_eq, bind_ok]
  have hop : s.operations[s.index]? = some (s.operations[s.index]'hs.index) := List.getElem?_eq_getElem hs.index
  obtain ⟨m, hR⟩ := hR
  cases hcase : s.operations[s.index]'hs.index with
  | produce =>
    obtain ⟨inner, hp, hnext⟩ := hP.base.produce _ _ ⟨m, hR⟩
    simp only [Script.drop_apply, Nat.add_zero] at hp hnext
    have hp' : P.produce s.inner = ok (inner, c l.length) := hp
    rcases hcl : c l.length with e | x | f
    · refine .inr ⟨{ s with inner := inner }, .error e, [], by simp [hp', hcl, Except.map],
        by simpa using ⟨hs.cap_pos, hs.holds, hs.index, hs.progress⟩, by simpa using hc, by simpa [Except.map] using hcl, hlast⟩
    · obtain ⟨b, hb1, hb2⟩ := hs.holds.enqueue x hl
      have hok : Ok cap { s with inner := inner, buffer := b } (l ++ [x]) n := ⟨hs.cap_pos, hb2, hs.index, hs.progress⟩
      obtain ⟨ha, ha'⟩ := hok.advance
      refine .inl ⟨{ s with inner := inner, buffer := b, index := (s.index + 1) % s.operations.length }, [x], by simp only [hp', hcl,
        hb1, ha, bind_ok, debugAssert_true, Option.isNone_none, pure_eq], ha', ?_, hlast, ?_, .inl (by simp)⟩
      · exact hc.append (Script.startsWith_cons.mpr ⟨by simpa using hcl, by simp⟩)
      · obtain ⟨m', hm'⟩ := hnext x hcl
        exact ⟨m', by simpa [Script.drop_drop] using hm'⟩
    · refine .inr ⟨{ s with inner := inner }, .ok f, [], by simp [hp', hcl, Except.map],
        by simpa using ⟨hs.cap_pos, hs.holds, hs.index, hs.progress⟩, by simpa using hc, by simpa [Except.map] using hcl, hlast⟩
  | slurp =>
    obtain ⟨inner, ⟨h1, m', h2⟩ | ⟨e, h1, h2⟩⟩ := hP.base.slurp _ _ ⟨m, hR⟩
    · have hok : Ok cap { s with inner := inner } l n := ⟨hs.cap_pos, hs.holds, hs.index, hs.progress⟩
      obtain ⟨ha, ha'⟩ := hok.advance
      refine .inl ⟨{ s with inner := inner, index := (s.index + 1) % s.operations.length }, [], by simp only [h1, ha, bind_ok, pure_eq],
        by simpa using ha', by simpa using hc, hlast, ⟨m', by simpa using h2⟩,
        .inr ⟨by rw [hop, hcase], rfl, rfl⟩⟩
    · refine .inr ⟨{ s with inner := inner }, .error e, [], by simp [h2, Except.map],
        by simpa using ⟨hs.cap_pos, hs.holds, hs.index, hs.progress⟩, by simpa using hc, by simpa [Except.map] using h1, hlast⟩
  | considerProduced k =>
    obtain ⟨inner, ⟨xs, hne, hst, hex, hR1⟩ | ⟨f, h1, h2⟩ | ⟨e, h1, h2⟩⟩ := hP.expose _ _ _ hR
    · have hxs : 0 < xs.length := List.length_pos_iff.mpr hne
      have hk := k.2
      have hsl : slice xs 0 (min xs.length k) = ok (xs.take (min xs.length k)) := by
        rw [slice_of_le (Nat.zero_le _) (by omega)]; simp
      obtain ⟨b, amount, hb1, hb2, hb3, hb4, hb5, -⟩ :=
        (Fixed.fifoLaw I cap).bulkEnqueue_call hs.holds (xs.take (min xs.length k))
      have hlt : (xs.take (min xs.length k)).length = min xs.length k := by simp
      have hapos : 0 < amount := by
        rcases Nat.eq_zero_or_pos amount with h0 | h0
        · rcases hb4 h0 with h | h
          · rw [h] at hlt; simp only [List.length_nil] at hlt; omega
          · omega
        · exact h0
      have hale : amount ≤ xs.length := by omega
      rw [List.take_take, Nat.min_eq_left (by omega)] at hb5
      obtain ⟨inner2, ⟨hcp, hR2⟩ | ⟨e, he, hcp⟩⟩ := hP.consider _ _ _ amount hR1 hxs hale
      · have hok : Ok cap { s with inner := inner2, buffer := b } (l ++ xs.take amount) n :=
          ⟨hs.cap_pos, hb5, hs.index, hs.progress⟩
        obtain ⟨ha, ha'⟩ := hok.advance
        refine .inl ⟨{ s with inner := inner2, buffer := b, index := (s.index + 1) % s.operations.length }, xs.take amount, ?_, ha',
          hc.append (hst.take _), hlast, ⟨xs.length - amount, ?_⟩, .inl ?_⟩
        · simp only [hex, bind_ok, hsl]
          rw [show (Fixed.queue I).bulkEnqueue s.buffer (xs.take (min xs.length k)) = _ from hb1]
          simp only [bind_ok, hcp, ha, pure_eq]
        · have : (l ++ xs.take amount).length = l.length + amount := by simp; omega
          rw [this, ← Script.drop_drop]; exact hR2
        · intro h0
          have := congrArg List.length h0
          simp only [List.length_take, List.length_nil] at this
          omega
      · refine .inr ⟨{ s with inner := inner2, buffer := b }, .error e, xs.take amount, ?_,
          ⟨hs.cap_pos, hb5, hs.index, hs.progress⟩, hc.append (hst.take _), ?_, hlast⟩
        · simp only [hex, bind_ok, hsl]
          rw [show (Fixed.queue I).bulkEnqueue s.buffer (xs.take (min xs.length k)) = _ from hb1]
          simp only [bind_ok, hcp, pure_eq, Except.map]
        · have : (l ++ xs.take amount).length = l.length + amount := by simp; omega
          rw [this]; exact he
    · refine .inr ⟨{ s with inner := inner }, .ok f, [], by simp [h2, Except.map],
        by simpa using ⟨hs.cap_pos, hs.holds, hs.index, hs.progress⟩, by simpa using hc, by simpa [Except.map] using h1, hlast⟩
    · refine .inr ⟨{ s with inner := inner }, .error e, [], by simp [h2, Except.map],
        by simpa using ⟨hs.cap_pos, hs.holds, hs.index, hs.progress⟩, by simpa using hc, by simpa [Except.map] using h1, hlast⟩

/-- The loop of `fill_queue`. -/
theorem hasty_fill_loop (debug : Bool) (hP : HastyLaw P R) {s : ProducerScrambler σ I F E}
    {c : Script I F E} {n : Nat} (hs : s.Plays R (fun _ => True) cap c n) :
    ∃ s', loop (fillBody debug P) s = ok s' ∧ ∃ l, s'.Ok cap l n ∧ s'.Rest R (fun _ => True) c l ∧
      (s'.last = none → l.length = cap) := by
  obtain ⟨l, hok, hrest⟩ := hs
  obtain ⟨d, op, hd⟩ := ahead hok.progress hok.index
  refine loop_ok (fun a b s => ∃ l, s.Ok cap l n ∧ s.Rest R (fun _ => True) c l ∧
      (s.last = none → a = cap - l.length + 1 ∧ ∃ op, s.operations[(s.index + b) % s.operations.length]? = some op ∧
        op ≠ .slurp) ∧ (s.last ≠ none → a = 0)) _ ?_ (a := if s.last = none then cap - l.length + 1 else 0) (b := d)
    ⟨l, hok, hrest, fun h => ⟨by simp [h], op, hd⟩, fun h => by simp [h]⟩
  rintro a b s ⟨l, hok, ⟨hc, hrest⟩, h1, h2⟩
  have hb := hok.holds.bound
  simp only [List.length_nil, Nat.add_zero] at hb
  rcases hrest with ⟨hlast, hR⟩ | ⟨r, hlast, hr, hdone⟩
  · obtain ⟨ha, op, hop, hne⟩ := h1 hlast
    by_cases hl : l.length < cap
    · have hcond : (s.last.isNone && decide (s.buffer.len < s.buffer.capacity)) = true := by
        rw [hok.len, hok.capacity]; simp [hlast, hl]
      rcases hasty_perform debug hP hok hc hl hlast hR with
        ⟨s', xs, hp, hok', hc', hl', hR', hx⟩ | ⟨s', r, xs, hp, hok', hc', hcr, hl'⟩
      · refine .inr ⟨s', ?_⟩
        have hbody : fillBody debug P s = ok (.continue s') := by simp [fillBody, hcond, hp]
        have hb' := hok'.holds.bound
        simp only [List.length_nil, Nat.add_zero, List.length_append] at hb'
        rcases hx with hx | ⟨hx1, hx2, hx3⟩
        · obtain ⟨d', op', hd'⟩ := ahead hok'.progress hok'.index
          have : 0 < xs.length := List.length_pos_iff.mpr hx
          refine ⟨cap - (l ++ xs).length + 1, d', hbody, .inl (by simp only [List.length_append]; omega), l ++ xs, hok',
            ⟨hc', .inl ⟨hl', hR'⟩⟩, fun _ => ⟨rfl, op', hd'⟩, fun h => absurd hl' h⟩
        · have hb0 : 0 < b := by
            rcases Nat.eq_zero_or_pos b with h0 | h0
            · subst h0
              rw [Nat.add_zero, Nat.mod_eq_of_lt hok.index, hx1] at hop
              cases hop; exact absurd rfl hne
            · exact h0
          by_cases hxs : xs = []
          · subst hxs
            refine ⟨a, b - 1, hbody, .inr ⟨rfl, by omega⟩, l ++ [], hok', ⟨hc', .inl ⟨hl', hR'⟩⟩,
              fun _ => ⟨by simpa using ha, op, ?_, hne⟩, fun h => absurd hl' h⟩
            rw [hx2, hx3, Nat.mod_add_mod, show s.index + 1 + (b - 1) = s.index + b by omega]
            exact hop
          · obtain ⟨d', op', hd'⟩ := ahead hok'.progress hok'.index
            have : 0 < xs.length := List.length_pos_iff.mpr hxs
            refine ⟨cap - (l ++ xs).length + 1, d', hbody, .inl (by simp only [List.length_append]; omega), l ++ xs, hok',
              ⟨hc', .inl ⟨hl', hR'⟩⟩, fun _ => ⟨rfl, op', hd'⟩, fun h => absurd hl' h⟩
      · refine .inr ⟨{ s' with last := some r }, 0, 0, ?_, .inl (by omega), l ++ xs,
          ⟨hok'.cap_pos, hok'.holds, hok'.index, hok'.progress⟩, ⟨hc', .inr ⟨r, rfl, hcr, trivial⟩⟩, by simp, by simp⟩
        cases r <;> simp [fillBody, hcond, hp, Except.map]
    · refine .inl ⟨s, ?_, l, hok, ⟨hc, .inl ⟨hlast, hR⟩⟩, fun _ => by omega⟩
      have hcond : (s.last.isNone && decide (s.buffer.len < s.buffer.capacity)) = false := by
        rw [hok.len, hok.capacity]; simp; omega
      simp [fillBody, hcond]
  · exact .inl ⟨s, by simp [fillBody, hlast], l, hok, ⟨hc, .inr ⟨r, hlast, hr, hdone⟩⟩, by simp [hlast]⟩

/-- `fill_queue`: afterwards there is something in the buffer, or else the last value is returned. -/
theorem hasty_fill (debug : Bool) (hP : HastyLaw P R) {s : ProducerScrambler σ I F E}
    {c : Script I F E} {n : Nat} (hs : s.Plays R (fun _ => True) cap c n) :
    (∃ s' l, s.fillQueue debug P = ok (s', none) ∧ l ≠ [] ∧ s'.Ok cap l n ∧ s'.Rest R (fun _ => True) c l) ∨
    (∃ s' r, s.fillQueue debug P = ok (s', some r) ∧ c 0 = r.map .inr ∧ s'.Ok cap [] 0) := by
  obtain ⟨s', hloop, l, hok, hrest, hfull⟩ := hasty_fill_loop debug hP hs
  by_cases hl : l = []
  · subst hl
    obtain ⟨hc, ⟨hlast, _⟩ | ⟨r, hlast, hr, hdone⟩⟩ := hrest
    · have := hfull hlast; have := hok.cap_pos; simp at *; omega
    · refine .inr ⟨{ s' with last := none }, r, ?_, by simpa using hr,
        ⟨hok.cap_pos, hok.holds.show (Nat.zero_le _), hok.index, hok.progress⟩⟩
      have := hok.len
      simp only [List.length_nil] at this
      simp [fillQueue, hloop, this, hlast]
  · refine .inl ⟨s', l, ?_, hl, hok, hrest⟩
    have := hok.len
    have hlp : 0 < l.length := List.length_pos_iff.mpr hl
    simp [fillQueue, hloop, this, hl]

theorem hasty_plays_produce (debug : Bool) (hP : HastyLaw P R) :
    ∀ s c, (∃ n, s.Plays R (fun _ => True) cap c n) → ∃ s', (producerScrambler debug P).produce s = ok (s', c 0) ∧
      ∀ x, c 0 = .ok (.inl x) → ∃ n, s'.Plays R (fun _ => True) cap (c.drop 1) n := by
  rintro s c ⟨n, hs⟩
  rcases hasty_fill debug hP hs with ⟨s', l, hf, hne, hok, hrest⟩ | ⟨s', r, hf, hr, -⟩
  · obtain ⟨x, l, rfl⟩ := List.exists_cons_of_ne_nil hne
    obtain ⟨b, hb1, hb2⟩ := hok.holds.dequeue
    refine ⟨{ s' with buffer := b }, ?_, fun _ _ => ⟨n - 1, l, ⟨hok.cap_pos, hb2, hok.index, hok.progress⟩,
      hrest.tail (k := 1) (by simp)⟩⟩
    simp [producerScrambler, produce, hf, hb1, (Script.startsWith_cons.mp hrest.1).1]
  · refine ⟨s', ?_, ?_⟩
    · simp [producerScrambler, produce, hf, hr]
    · intro x hx; rw [hr] at hx; cases r <;> simp [Except.map] at hx

theorem hasty_plays_expose (debug : Bool) (hP : HastyLaw P R) :
    ∀ s c n, s.Plays R (fun _ => True) cap c n → ∃ s',
      (∃ xs, xs ≠ [] ∧ c.StartsWith xs ∧ (producerScrambler debug P).exposeItems s = ok (s', .ok (.inl xs)) ∧
        s'.Plays R (fun _ => True) cap c xs.length) ∨
      (∃ f, c 0 = .ok (.inr f) ∧ (producerScrambler debug P).exposeItems s = ok (s', .ok (.inr f))) ∨
      (∃ e, c 0 = .error e ∧ (producerScrambler debug P).exposeItems s = ok (s', .error e)) := by
  intro s c n hs
  rcases hasty_fill debug hP hs with ⟨s', l, hf, hne, hok, hrest⟩ | ⟨s', r, hf, hr, -⟩
  · obtain ⟨b, m, hm0, hml, hb1, hb2⟩ := (Fixed.fifoLaw I cap).exposeItems _ _ _ _ hok.holds hne
    have hlen : (l.take m).length = m := by simp; omega
    refine ⟨{ s' with buffer := b }, .inl ⟨l.take m, ?_, hrest.1.take m, ?_, l,
      ⟨hok.cap_pos, hb2.show (by omega), hok.index, hok.progress⟩, ?_⟩⟩
    · intro h0; rw [h0] at hlen; simp only [List.length_nil] at hlen; omega
    · have hb1' : s'.buffer.exposeItems = ok (b, some (l.take m)) := hb1
      simp [producerScrambler, exposeItems, hf, hb1']
    · simpa using hrest.tail (k := 0) (Nat.zero_le _) (b := b)
  · refine ⟨s', ?_⟩
    cases r with
    | ok f => exact .inr (.inl ⟨f, hr, by simp [producerScrambler, exposeItems, hf, Except.map]⟩)
    | error e => exact .inr (.inr ⟨e, hr, by simp [producerScrambler, exposeItems, hf, Except.map]⟩)

end ProducerScrambler

end

end Verif
