import Verif.ScramblerDropSpec
import Verif.Props.ResumeIo
import Verif.Props.AsyncScramblers
import Verif.Lemmas.ProducerScrambler
import Verif.Lemmas.ConsumerScrambler

/-!
# Dropped calls of the two `BulkScrambler`s (C106)
-/

namespace Verif

open Outcome

theorem Script.after_eq {I F E : Type} {c : Script I F E} {l : List I} (h : c.StartsWith l) : Script.after l (c.drop l.length) = c := by
  funext i
  unfold Script.after
  rcases hi : l[i]? with _ | x
  · have := List.getElem?_eq_none_iff.mp hi
    simp only [Script.drop_apply]
    congr 1; omega
  · exact (h i x hi).symm

theorem Script.after_startsWith {I F E : Type} (c : Script I F E) (l : List I) : (Script.after l c).StartsWith l := by
  intro i x hi
  simp [Script.after, hi]

theorem Script.after_drop {I F E : Type} (c : Script I F E) (l : List I) : (Script.after l c).drop l.length = c := by
  funext i
  simp [Script.after]

namespace Async

variable {σ I F E : Type}

/-! ## Producer -/

section

variable {P : BulkProducer σ I F E} {R : σ → Script I F E → Nat → Prop} {cap : Nat} {debug : Bool}
  {dp : ProducerDrops P} {di : ItemDrops P.toProducer} {ds : SlurpDrops P.toBufferedProducer}

theorem ProducerScrambler.fillBody_run (debug : Bool) (P : BulkProducer σ I F E) (s : ProducerScrambler σ I F E) :
    (fillBody debug P s).run = Verif.ProducerScrambler.fillBody debug P.seq s := by
  dsimp only [fillBody, Verif.ProducerScrambler.fillBody]
  split
  · refine Fut.run_bind_congr (performOperation_run debug P s) fun x => ?_
    run_congr
  · run_congr

/-- An iteration of the loop of `fill_queue` does not change what is going to be emitted. -/
theorem ProducerScrambler.fillBody_keeps (hP : BulkPlaysLaw P.seq R) {s s' : ProducerScrambler σ I F E} {c : Script I F E} {n : Nat}
    (hs : s.Plays R (fun _ => True) cap c n) (h : (fillBody debug P s).run = ok (.continue s')) :
    s'.Plays R (fun _ => True) cap c n := by
  rw [fillBody_run] at h
  obtain ⟨l, hok, hc, ⟨hlast, hR⟩ | ⟨r, hlast, _⟩⟩ := hs
  · by_cases hl : l.length < cap
    · have hcond : (s.last.isNone && decide (s.buffer.len < s.buffer.capacity)) = true := by
        rw [hok.len, hok.capacity]; simp [hlast, hl]
      rcases Verif.ProducerScrambler.perform debug hP (EndsIn.trivial _ _) hok hc hl hlast hR with
        ⟨s₁, xs, hp, hok', hc', hl', hR', -⟩ | ⟨s₁, r, hp, hok', hcr, hl', -⟩
      · simp [Verif.ProducerScrambler.fillBody, hcond, hp] at h
        subst h
        exact ⟨_, hok', hc', .inl ⟨hl', hR'⟩⟩
      · refine ⟨l, ?_⟩
        cases r <;> simp [Verif.ProducerScrambler.fillBody, hcond, hp, Except.map] at h <;> subst h <;>
          exact ⟨⟨hok'.cap_pos, hok'.holds, hok'.index, hok'.progress⟩, hc, .inr ⟨_, rfl, hcr, True.intro⟩⟩
    · have hcond : (s.last.isNone && decide (s.buffer.len < s.buffer.capacity)) = false := by
        rw [hok.len, hok.capacity]; simp; omega
      simp [Verif.ProducerScrambler.fillBody, hcond] at h
  · simp [Verif.ProducerScrambler.fillBody, hlast] at h

/-- **C106.** `fill_queue` of a `BulkScrambler` is dropped. What has been put into the queue without the wrapped producer being told
about it is emitted again; otherwise the same is going to be emitted as before. -/
theorem producer_scrambler_fill_dropped (hP : BulkPlaysLaw P.seq R) (htp : dp.Tolerated R) (htu : dp.Unconsidered R)
    (hti : di.Tolerated fun s c => ∃ n, R s c n) (hts : ds.Tolerated fun s c => ∃ n, R s c n)
    {s s' : ProducerScrambler σ I F E} {c : Script I F E} {n : Nat} (hs : s.Plays R (fun _ => True) cap c n)
    {k : (ProducerScrambler.fillQueue debug P s).κ} (h : (ProducerScrambler.fillQueue debug P s).Pending k) {again : List I}
    (hk : ProducerScrambler.FillDropped debug dp di ds s k again s') :
    ∃ l, c.StartsWith (l ++ again) ∧
      s'.Plays R (fun _ => True) cap (Script.after (l ++ again) (c.drop l.length)) n := by
  cases hk with
  | mk hk hd =>
    rename_i s₁ k kp
    obtain ⟨hi, hp⟩ := Fut.pending_loop (Fut.pending_left h)
    have hs₁ := hi.keeps (Inv := fun s => s.Plays R (fun _ => True) cap c n) hs fun _ _ h₁ h₂ => ProducerScrambler.fillBody_keeps hP h₁ h₂
    obtain ⟨hc, k', hkk, hp⟩ := Fut.pending_ite hp
    cases hk.symm.trans hkk
    have hp := Fut.pending_left hp
    obtain ⟨l, hok, hst, ⟨hlast, m, hR⟩ | ⟨r, hlast, _⟩⟩ := hs₁
    · have hl : l.length < cap := by
        have h1 : s₁.buffer.len = _ := hok.len
        have h2 : s₁.buffer.capacity = _ := hok.capacity
        simp only [Bool.and_eq_true, decide_eq_true_eq] at hc
        omega
      have same : ∀ {inner}, (∃ m, R inner (c.drop l.length) m) → ∃ l, c.StartsWith (l ++ []) ∧
          Verif.ProducerScrambler.Plays R (fun _ => True) cap { s₁ with inner := inner } (Script.after (l ++ []) (c.drop l.length)) n := by
        intro inner hm
        refine ⟨l, by simpa using hst, l, ⟨hok.cap_pos, hok.holds, hok.index, hok.progress⟩, ?_⟩
        rw [List.append_nil, Script.after_eq hst]
        exact ⟨hst, .inl ⟨hlast, hm⟩⟩
      cases hd with
      | producing hd =>
        exact same (hti.produce ⟨m, hR⟩ (Fut.pending_left (Fut.pending_right (Fut.pending_right hp).2).2) hd)
      | exposing hd => exact same (htp.exposeItems hR (Fut.pending_left (Fut.pending_right (Fut.pending_right hp).2).2) hd)
      | slurping hd => exact same (hts.slurp ⟨m, hR⟩ (Fut.pending_left (Fut.pending_right (Fut.pending_right hp).2).2) hd)
      | @considering a inner₁ slots available buffer amount k inner hd =>
        obtain ⟨he, hp₁⟩ := Fut.pending_right (Fut.pending_right (Fut.pending_right hp).2).2
        obtain ⟨ha, hp₂⟩ := Fut.pending_right hp₁
        obtain ⟨hb, hp₃⟩ := Fut.pending_right hp₂
        have hp₄ := Fut.pending_left hp₃
        rw [Fut.run_liftM] at ha hb
        obtain ⟨inner, ⟨xs, hne, hst', hex, hR1⟩ | ⟨f, _, h2⟩ | ⟨e, _, h2⟩⟩ := hP.expose _ _ _ hR
        · have hex : (P.exposeItems s₁.inner).run = _ := hex
          rw [he] at hex
          cases hex
          have hsl : slice slots 0 (min slots.length a) = ok (slots.take (min slots.length a)) := by
            rw [slice_of_le (Nat.zero_le _) (by omega)]; simp
          rw [hsl] at ha
          cases ha
          obtain ⟨b, am, hb1, hb2, hb3, hb4, hb5, -⟩ :=
            (Fixed.fifoLaw I cap).bulkEnqueue_call hok.holds (slots.take (min slots.length a))
          rw [hb] at hb1
          cases hb1
          obtain ⟨m', hR'⟩ := htu.considerProduced hR1 hp₄ hd
          refine ⟨l, hst.append ((hst'.take _).take _), _, ⟨hok.cap_pos, hb5, hok.index, hok.progress⟩, Script.after_startsWith _ _,
            .inl ⟨hlast, m', ?_⟩⟩
          rw [Script.after_drop]
          exact hR'
        · have h2 : (P.exposeItems s₁.inner).run = _ := h2
          rw [he] at h2; cases h2
        · have h2 : (P.exposeItems s₁.inner).run = _ := h2
          rw [he] at h2; cases h2
    · have hlast : s₁.last = some r := hlast
      simp [hlast] at hc

/-- **C106.** If a method other than `consider_produced` of the wrapped producer is pending, then a `BulkScrambler` still has the same to
emit after a dropped call of `expose_items`. -/
theorem producer_scrambler_drops (hP : BulkPlaysLaw P.seq R) (htp : dp.Tolerated R) (htu : dp.Unconsidered R)
    (hti : di.Tolerated fun s c => ∃ n, R s c n) (hts : ds.Tolerated fun s c => ∃ n, R s c n) :
    (producerScramblerDrops debug dp di ds).Tolerated (Verif.ProducerScrambler.Plays R (fun _ => True) cap) where
  exposeItems := by
    rintro s c n k s' hs h ⟨hk⟩
    obtain ⟨l, h1, h2⟩ := producer_scrambler_fill_dropped hP htp htu hti hts hs (Fut.pending_left h) hk
    rw [List.append_nil] at h1 h2
    rw [Script.after_eq h1] at h2
    exact ⟨n, h2⟩

theorem producer_scrambler_item_drops (hP : BulkPlaysLaw P.seq R) (htp : dp.Tolerated R) (htu : dp.Unconsidered R)
    (hti : di.Tolerated fun s c => ∃ n, R s c n) (hts : ds.Tolerated fun s c => ∃ n, R s c n) :
    (producerScramblerItemDrops debug dp di ds).Tolerated fun s c => ∃ n, Verif.ProducerScrambler.Plays R (fun _ => True) cap s c n where
  produce := by
    rintro s c k s' ⟨n, hs⟩ h ⟨hk⟩
    obtain ⟨l, h1, h2⟩ := producer_scrambler_fill_dropped hP htp htu hti hts hs (Fut.pending_left h) hk
    rw [List.append_nil] at h1 h2
    rw [Script.after_eq h1] at h2
    exact ⟨n, h2⟩

/-- **C106.** If `consider_produced` of the wrapped producer is pending when `expose_items` is dropped, then some of the items are emitted
twice. -/
theorem producer_scrambler_expose_again (hP : BulkPlaysLaw P.seq R) (htp : dp.Tolerated R) (htu : dp.Unconsidered R)
    (hti : di.Tolerated fun s c => ∃ n, R s c n) (hts : ds.Tolerated fun s c => ∃ n, R s c n)
    {s s' : ProducerScrambler σ I F E} {c : Script I F E} {n : Nat} (hs : s.Plays R (fun _ => True) cap c n)
    {k : (ProducerScrambler.exposeItems debug P s).κ} (h : (ProducerScrambler.exposeItems debug P s).Pending k) {again : List I}
    (hk : ProducerScrambler.ExposeDropped debug dp di ds s k again s') :
    ∃ l, c.StartsWith (l ++ again) ∧
      BulkPlays (Verif.producerScrambler debug P.seq).noSlurp s' (Script.after (l ++ again) (c.drop l.length)) := by
  obtain ⟨hk⟩ := hk
  obtain ⟨l, h1, h2⟩ := producer_scrambler_fill_dropped hP htp htu hti hts hs (Fut.pending_left h) hk
  have hD := EndsIn.trivial P.seq R
  exact ⟨l, h1, Verif.ProducerScrambler.Plays R (fun _ => True) cap, .of_default rfl
    ⟨⟨Verif.ProducerScrambler.plays_produce debug hP hD⟩, fun s c hs => ⟨s, .inl ⟨rfl, hs⟩⟩⟩
    (Verif.ProducerScrambler.plays_expose debug hP hD) (Verif.ProducerScrambler.plays_consider (P := P.seq) debug), n, h2⟩

/-- **C106, `slurp`.** As for the other methods. -/
theorem producer_scrambler_slurp_dropped (hP : BulkPlaysLaw P.seq R) (htp : dp.Tolerated R) (htu : dp.Unconsidered R)
    (hti : di.Tolerated fun s c => ∃ n, R s c n) (hts : ds.Tolerated fun s c => ∃ n, R s c n)
    {s s' : ProducerScrambler σ I F E} {c : Script I F E} {n : Nat} (hs : s.Plays R (fun _ => True) cap c n)
    {k : (ProducerScrambler.slurp debug P s).κ} (h : (ProducerScrambler.slurp debug P s).Pending k) {again : List I}
    (hk : ProducerScrambler.SlurpDropped debug dp di ds s k again s') :
    ∃ l m, c.StartsWith (l ++ again) ∧
      s'.Plays R (fun _ => True) cap (Script.after (l ++ again) (c.drop l.length)) m := by
  cases hk with
  | filling hk =>
    obtain ⟨l, h1, h2⟩ := producer_scrambler_fill_dropped hP htp htu hti hts hs (Fut.pending_left h) hk
    exact ⟨l, n, h1, h2⟩
  | @slurping s₁ k inner hd =>
    obtain ⟨he, hp⟩ := Fut.pending_right h
    rw [ProducerScrambler.fillQueue_run] at he
    rcases Verif.ProducerScrambler.fill debug hP (EndsIn.trivial P.seq R) hs with ⟨s₂, l, h1, _, hok, hst, hrest⟩ | ⟨s₂, r, h1, _⟩ <;>
      cases h1.symm.trans he
    refine ⟨[], n, by simp, ?_⟩
    have ha : Script.after ([] ++ []) (c.drop ([] : List I).length) = c := Script.after_eq (l := []) (by simp)
    rw [ha]
    refine ⟨l, ⟨hok.cap_pos, hok.holds, hok.index, hok.progress⟩, hst, ?_⟩
    rcases hrest with ⟨hl, hR⟩ | ⟨r, hl, hr, _⟩
    · exact .inl ⟨hl, hts.slurp hR (Fut.pending_left hp) hd⟩
    · exact .inr ⟨r, hl, hr, trivial⟩
  | @ended s₁ fin k inner hd =>
    obtain ⟨he, hp⟩ := Fut.pending_right h
    rw [ProducerScrambler.fillQueue_run] at he
    rcases Verif.ProducerScrambler.fill debug hP (EndsIn.trivial P.seq R) hs with ⟨s₂, l, h1, _, hok, hst, hrest⟩ | ⟨s₂, r, h1, hr, hok, _⟩ <;>
      cases h1.symm.trans he
    refine ⟨[], 0, by simp, ?_⟩
    have ha : Script.after ([] ++ []) (c.drop ([] : List I).length) = c := Script.after_eq (l := []) (by simp)
    rw [ha]
    exact ⟨[], ⟨hok.cap_pos, hok.holds, hok.index, hok.progress⟩, by simp, .inr ⟨_, rfl, by simpa using hr, trivial⟩⟩

end

/-! ## Consumer -/

section

variable {C : BulkConsumer σ I F E} {D : σ → List I → Option F → Prop} {X : Faults I F E} {R : σ → List I → List I → Prop} {cap : Nat}
  {debug : Bool} {dc : ConsumeDrops C.toConsumer} {dl : SlotDrops C} {df : FlushDrops C.toBufferedConsumer}
  {de : CloseDrops C.toConsumer}

theorem ConsumerScrambler.drainBody_run (debug : Bool) (C : BulkConsumer σ I F E) (s : ConsumerScrambler σ I) :
    (drainBody debug C s).run = Verif.ConsumerScrambler.drainBody debug C.seq s := by
  dsimp only [drainBody, Verif.ConsumerScrambler.drainBody]
  split
  · refine Fut.run_bind_congr (performOperation_run debug C s) fun x => ?_
    run_congr
  · run_congr

/-- An iteration of the loop that empties the queue. -/
theorem ConsumerScrambler.drainBody_keeps (hX : X.Regular) (hC : BulkDefersLaw C.seq D X R) {s s' : ConsumerScrambler σ I} {l : List I}
    (hs : ∃ slots, s.Defers R cap l slots) (h : (drainBody debug C s).run = ok (.continue s')) : ∃ slots, s'.Defers R cap l slots := by
  rw [drainBody_run] at h
  obtain ⟨slots, d, b, rfl, hok, hR⟩ := hs
  have hlen := hok.len
  by_cases hb : b = []
  · subst hb
    simp only [List.length_nil] at hlen
    simp [Verif.ConsumerScrambler.drainBody, hlen] at h
  · have hbl : 0 < b.length := List.length_pos_iff.mpr hb
    have hlen : s.buffer.len > 0 := by omega
    rcases Verif.ConsumerScrambler.perform debug hX hC hok hb hR with ⟨s₁, k, hp, hok', hR', -⟩ | ⟨s₁, e, d', hp, -, -⟩
    · simp [Verif.ConsumerScrambler.drainBody, hlen, hp] at h
      subst h
      exact ⟨[], _, _, by rw [List.append_assoc, List.take_append_drop], hok', hR'⟩
    · simp [Verif.ConsumerScrambler.drainBody, hlen, hp] at h

/-- **C106.** The loop that empties the queue is dropped. The items that had been taken out of the queue are lost: `lost` is missing in
what has been passed to the scrambler. -/
theorem consumer_scrambler_drain_dropped (hX : X.Regular) (hC : BulkDefersLaw C.seq D X R) (htc : dc.Tolerated fun t l => ∃ sl, R t l sl)
    (htl : dl.Tolerated R) (htf : df.Tolerated fun t l => ∃ sl, R t l sl) {s s' : ConsumerScrambler σ I} {l slots : List I}
    (hs : s.Defers R cap l slots) {k : (ConsumerScrambler.drain debug C s).κ} (h : (ConsumerScrambler.drain debug C s).Pending k)
    {lost : List I} (hk : ConsumerScrambler.DrainDropped debug dc dl df s k lost s') :
    ∃ d b slots', l = d ++ lost ++ b ∧ s'.Defers R cap (d ++ b) slots' := by
  cases hk with
  | mk hk hd =>
    rename_i s₁ k kp
    obtain ⟨hi, hp⟩ := Fut.pending_loop h
    obtain ⟨slots₁, d, b, rfl, hok, sl, hR⟩ := hi.keeps (Inv := fun s => ∃ slots, s.Defers R cap l slots) ⟨_, hs⟩
      fun _ _ h₁ h₂ => ConsumerScrambler.drainBody_keeps hX hC h₁ h₂
    obtain ⟨hc, k', hkk, hp⟩ := Fut.pending_ite hp
    cases hk.symm.trans hkk
    have hp := Fut.pending_left hp
    have hbl : 0 < b.length := by have := hok.len; omega
    have hb : b ≠ [] := List.length_pos_iff.mp hbl
    have hok := hok.hide
    have same : ∀ {inner}, (∃ sl, R inner d sl) → ∃ d' b' slots', d ++ b = d' ++ [] ++ b' ∧
        Verif.ConsumerScrambler.Defers R cap { s₁ with inner := inner } (d' ++ b') slots' := by
      intro inner hm
      exact ⟨d, b, [], by simp, d, b, rfl, ⟨hok.cap_pos, hok.holds, hok.index, hok.progress⟩, hm⟩
    cases hd with
    | flushing hd => exact same (htf.flush ⟨sl, hR⟩ (Fut.pending_left (Fut.pending_right (Fut.pending_right hp).2).2) hd)
    | exposing hd => exact same (htl.exposeSlots hR (Fut.pending_left (Fut.pending_right (Fut.pending_right hp).2).2) hd)
    | @consuming buffer item x k inner hd =>
      obtain ⟨hq, hp₁⟩ := Fut.pending_right (Fut.pending_right (Fut.pending_right hp).2).2
      obtain ⟨hu, hp₂⟩ := Fut.pending_right hp₁
      rw [Fut.run_liftM] at hq hu
      obtain ⟨y, b, rfl⟩ := List.exists_cons_of_ne_nil hb
      obtain ⟨q, hq1, hq2⟩ := hok.holds.dequeue
      rw [hq] at hq1
      cases hq1
      cases hu
      exact ⟨d, b, [], by simp, d, b, rfl, ⟨hok.cap_pos, hq2, hok.index, hok.progress⟩, htc.consume ⟨sl, hR⟩ (Fut.pending_left hp₂) hd⟩
    | @consumingSlots a inner₁ slots available buffer amount written k inner hd =>
      obtain ⟨he, hp₁⟩ := Fut.pending_right (Fut.pending_right (Fut.pending_right hp).2).2
      obtain ⟨ha, hp₂⟩ := Fut.pending_right hp₁
      obtain ⟨hq, hp₃⟩ := Fut.pending_right hp₂
      have hp₄ := Fut.pending_left hp₃
      rw [Fut.run_liftM] at ha hq
      obtain ⟨inner₂, ⟨xs, hne, hex, hR1⟩ | ⟨e, d', h1, h2, h3⟩⟩ := hC.expose _ _ _ hR
      · have hex : (C.exposeSlots s₁.inner).run = _ := hex
        rw [he] at hex
        cases hex
        have hsl : slice slots 0 (min slots.length a) = ok (slots.take (min slots.length a)) := by
          rw [slice_of_le (Nat.zero_le _) (by omega)]; simp
        rw [hsl] at ha
        cases ha
        have hlt : (slots.take (min slots.length a)).length = min slots.length a := by simp
        obtain ⟨q, m, hq1, hq2, hq3, hq4, ⟨m', hq5, -⟩, -⟩ :=
          (Fixed.fifoLaw I cap).bulkDequeue_call hok.holds (slots.take (min slots.length a))
        rw [hq] at hq1
        cases hq1
        have hwl : (b.take amount ++ (slots.take (min slots.length a)).drop amount).length ≤ slots.length := by
          simp only [List.length_append, List.length_drop, hlt, List.length_take]; omega
        have hW := hC.write _ _ _ _ hR1 hwl
        have hwk : (b.take amount ++ (slots.take (min slots.length a)).drop amount).take amount = b.take amount := by
          rw [List.take_append_of_le_length (by simp; omega), List.take_take, Nat.min_self]
        rw [hwk]
        refine ⟨d, b.drop amount, [], by rw [List.append_assoc, List.take_append_drop], d, b.drop amount, rfl,
          ⟨hok.cap_pos, hq5.show (Nat.zero_le _), hok.index, hok.progress⟩, htl.consumeSlots hW hp₄ hd⟩
      · have h1 : (C.exposeSlots s₁.inner).run = _ := h1
        rw [he] at h1; cases h1

/-- **C106, `consume`.** It is dropped while the queue is being emptied; its own item is not in the queue. -/
theorem consumer_scrambler_consume_dropped (hX : X.Regular) (hC : BulkDefersLaw C.seq D X R)
    (htc : dc.Tolerated fun t l => ∃ sl, R t l sl) (htl : dl.Tolerated R) (htf : df.Tolerated fun t l => ∃ sl, R t l sl)
    {s s' : ConsumerScrambler σ I} {l slots : List I} (hs : s.Defers R cap l slots) {x : I}
    {k : (ConsumerScrambler.consume debug C s x).κ} (h : (ConsumerScrambler.consume debug C s x).Pending k)
    {lost : List I} (hk : ConsumerScrambler.ConsumeDropped debug dc dl df s x k lost s') :
    ∃ d b slots', l = d ++ lost ++ b ∧ s'.Defers R cap (d ++ b) slots' := by
  cases hk with
  | @mk buffer y k _ _ hk =>
    obtain ⟨he, hp⟩ := Fut.pending_right h
    rw [Fut.run_liftM] at he
    have hs0 := hs
    obtain ⟨d, b, rfl, hok, hR⟩ := hs0
    have hbd := hok.holds.bound
    by_cases hl : b.length < cap
    · obtain ⟨q, h1, _⟩ := (Fixed.fifoLaw I cap).enqueue _ _ _ _ x hok.holds hl
      have h1 : s.buffer.enqueue x = ok (q, none) := h1
      rw [he] at h1; cases h1
    · have h1 := (Fixed.fifoLaw I cap).enqueue_full _ _ _ _ x hok.holds (by omega)
      have h1 : s.buffer.enqueue x = ok (s.buffer, some x) := h1
      rw [he] at h1
      cases h1
      exact consumer_scrambler_drain_dropped hX hC htc htl htf hs (Fut.pending_left hp) hk

/-- **C106, `expose_slots`.** -/
theorem consumer_scrambler_expose_dropped (hX : X.Regular) (hC : BulkDefersLaw C.seq D X R)
    (htc : dc.Tolerated fun t l => ∃ sl, R t l sl) (htl : dl.Tolerated R) (htf : df.Tolerated fun t l => ∃ sl, R t l sl)
    {s s' : ConsumerScrambler σ I} {l slots : List I} (hs : s.Defers R cap l slots)
    {k : (ConsumerScrambler.exposeSlots debug C s).κ} (h : (ConsumerScrambler.exposeSlots debug C s).Pending k)
    {lost : List I} (hk : ConsumerScrambler.ExposeDropped debug dc dl df s k lost s') :
    ∃ d b slots', l = d ++ lost ++ b ∧ s'.Defers R cap (d ++ b) slots' := by
  cases hk with
  | mk hk hd =>
    rcases Fut.pending_branch h with ⟨_, k', _, hp⟩ | ⟨_, k', hkk, hp⟩
    · refine absurd hp (Fut.quiet_bind (Fut.quiet_lift _) (fun _ => Fut.quiet_bind (Fut.quiet_lift _) fun _ => Fut.quiet_lift _) k')
    · cases hk.symm.trans hkk
      exact consumer_scrambler_drain_dropped hX hC htc htl htf hs (Fut.pending_left hp) hd

/-- **C106, `flush`.** -/
theorem consumer_scrambler_flush_dropped (hX : X.Regular) (hC : BulkDefersLaw C.seq D X R)
    (htc : dc.Tolerated fun t l => ∃ sl, R t l sl) (htl : dl.Tolerated R) (htf : df.Tolerated fun t l => ∃ sl, R t l sl)
    {s s' : ConsumerScrambler σ I} {l slots : List I} (hs : s.Defers R cap l slots)
    {k : (ConsumerScrambler.flush debug C s).κ} (h : (ConsumerScrambler.flush debug C s).Pending k)
    {lost : List I} (hk : ConsumerScrambler.FlushDropped debug dc dl df s k lost s') :
    ∃ d b slots', l = d ++ lost ++ b ∧ s'.Defers R cap (d ++ b) slots' := by
  cases hk with
  | draining hk => exact consumer_scrambler_drain_dropped hX hC htc htl htf hs (Fut.pending_left h) hk
  | flushing hk =>
    obtain ⟨he, hp⟩ := Fut.pending_right h
    rw [ConsumerScrambler.drain_run] at he
    rcases Verif.ConsumerScrambler.drain_loop debug hX hC hs with ⟨s₂, h1, hok, sl, hR⟩ | ⟨s₂, e, _, h1, _⟩ <;> cases he.symm.trans h1
    exact ⟨l, [], [], by simp, l, [], rfl, ⟨hok.cap_pos, hok.holds, hok.index, hok.progress⟩,
      htf.flush ⟨sl, hR⟩ (Fut.pending_left hp) hk⟩

/-- **C106, `close`.** -/
theorem consumer_scrambler_close_dropped (hX : X.Regular) (hC : BulkDefersLaw C.seq D X R)
    (htc : dc.Tolerated fun t l => ∃ sl, R t l sl) (htl : dl.Tolerated R) (htf : df.Tolerated fun t l => ∃ sl, R t l sl)
    (hte : de.Tolerated fun t l => ∃ sl, R t l sl) {s s' : ConsumerScrambler σ I} {l slots : List I} {fin : F}
    (hs : s.Defers R cap l slots)
    {k : (ConsumerScrambler.close debug C s fin).κ} (h : (ConsumerScrambler.close debug C s fin).Pending k)
    {lost : List I} (hk : ConsumerScrambler.CloseDropped debug dc dl df de s fin k lost s') :
    ∃ d b slots', l = d ++ lost ++ b ∧ s'.Defers R cap (d ++ b) slots' := by
  cases hk with
  | draining hk => exact consumer_scrambler_drain_dropped hX hC htc htl htf hs (Fut.pending_left h) hk
  | closing hk =>
    obtain ⟨he, hp⟩ := Fut.pending_right h
    rw [ConsumerScrambler.drain_run] at he
    rcases Verif.ConsumerScrambler.drain_loop debug hX hC hs with ⟨s₂, h1, hok, sl, hR⟩ | ⟨s₂, e, _, h1, _⟩ <;> cases he.symm.trans h1
    exact ⟨l, [], [], by simp, l, [], rfl, ⟨hok.cap_pos, hok.holds, hok.index, hok.progress⟩,
      hte.close ⟨sl, hR⟩ (Fut.pending_left hp) hk⟩

/-- **C106.** After a dropped call, the scrambler behaves (in builds without `debug_assert`) as if everything but `lost` had been passed to
it. -/
theorem consumer_scrambler_left_defers (hX : X.Regular) (hC : BulkDefersLaw C.seq D X R) {s' : ConsumerScrambler σ I} {l slots : List I}
    (hs : s'.Defers R cap l slots) : BulkDefers (consumerScrambler false C).seq (fun s => D s.inner) X s' l := by
  rw [consumerScrambler_seq]
  exact ⟨_, Verif.ConsumerScrambler.law hX hC cap, slots, hs⟩

end

/-! ## Cases -/

namespace Case

abbrev sliceP : BulkProducer (FromSlice Nat) Nat Unit Empty := .ofSeq (FromSlice.producer Nat)

/-- A `FromSlice` whose `produce` and `consider_produced` are pending once. -/
def slowSlice : BulkProducer (FromSlice Nat) Nat Unit Empty where
  produce s := do
    pause
    sliceP.produce s
  slurp := sliceP.slurp
  exposeItems := sliceP.exposeItems
  considerProduced s n := do
    pause
    sliceP.considerProduced s n

theorem slowSlice_seq : slowSlice.seq = FromSlice.producer Nat := by
  refine BulkProducer.seq_of_default (BufferedProducer.seq_of (Producer.seq_of fun s => ?_) fun s => Fut.run_lift _)
    (fun s => Fut.run_lift _) (fun s n => ?_) rfl rfl
  · exact (Fut.run_bind _ _).trans (by rw [pause_run]; exact Fut.run_lift _)
  · exact (Fut.run_bind _ _).trans (by rw [pause_run]; exact Fut.run_lift _)

theorem slowSlice_law : BulkPlaysLaw slowSlice.seq FromSlice.Ready := by rw [slowSlice_seq]; exact FromSlice.law

/-- While it is pending, nothing has happened. -/
def slowSliceDrops : ProducerDrops slowSlice where
  exposeItems s _ s' := s' = s
  considerProduced s _ _ s' := s' = s

def slowSliceItemDrops : ItemDrops slowSlice.toProducer where
  produce s _ s' := s' = s

def slowSliceSlurpDrops : SlurpDrops slowSlice.toBufferedProducer where
  slurp s _ s' := s' = s

theorem slowSlice_tolerated : slowSliceDrops.Tolerated FromSlice.Ready where
  exposeItems := by intro s c n k s' h _ he; cases he; exact ⟨_, h⟩

theorem slowSlice_unconsidered : slowSliceDrops.Unconsidered FromSlice.Ready where
  considerProduced := by intro s c n a k s' h _ he; cases he; exact ⟨_, h⟩

theorem slowSlice_item_tolerated : slowSliceItemDrops.Tolerated fun s c => ∃ n, FromSlice.Ready s c n where
  produce := by intro s c k s' h _ he; cases he; exact h

theorem slowSlice_slurp_tolerated : slowSliceSlurpDrops.Tolerated fun s c => ∃ n, FromSlice.Ready s c n where
  slurp := by intro s c k s' h _ he; cases he; exact h

/-- A scrambler for the items 1, 2 and 3. -/
def scrambled (op : ScrambleProduce) : ProducerScrambler (FromSlice Nat) Nat Unit Empty :=
  Verif.ProducerScrambler.new (FromSlice.new [1, 2, 3]) [op] 4 (fun _ => 0)

theorem scrambled_plays (op : ScrambleProduce) :
    (scrambled op).Plays FromSlice.Ready (fun _ => True) 4 (Script.ofList [1, 2, 3] (.ok ())) 0 :=
  ⟨[], Verif.ProducerScrambler.ok_new (by decide), by simp, .inl ⟨rfl, 0, by
    rw [List.length_nil, Script.drop_zero]; exact FromSlice.ready_new [1, 2, 3]⟩⟩

end Case

/-- `expose_items` is dropped while `produce` of the wrapped producer is pending. -/
example : ∃ k s', (ProducerScrambler.exposeItems true Case.slowSlice (Case.scrambled .produce)).Pending k ∧
    (producerScramblerDrops true Case.slowSliceDrops Case.slowSliceItemDrops Case.slowSliceSlurpDrops).exposeItems
      (Case.scrambled .produce) k s' ∧
    ∃ n, s'.Plays FromSlice.Ready (fun _ => True) 4 (Script.ofList [1, 2, 3] (.ok ())) n := by
  obtain ⟨k, hk, s', hd⟩ := Fut.first_pending (f := ProducerScrambler.exposeItems true Case.slowSlice (Case.scrambled .produce))
    (Q := fun k => ∃ s', ProducerScrambler.ExposeDropped true Case.slowSliceDrops Case.slowSliceItemDrops Case.slowSliceSlurpDrops
      (Case.scrambled .produce) k [] s')
    (Fut.first_left (Fut.first_left (Fut.first_loop (k := Sum.inl (Sum.inr ⟨(), Sum.inr ⟨.produce, Sum.inl (Sum.inl true)⟩⟩)) rfl)))
    ⟨_, .mk (.mk HEq.rfl (.producing rfl))⟩
  exact ⟨k, s', hk, hd, (producer_scrambler_drops Case.slowSlice_law Case.slowSlice_tolerated Case.slowSlice_unconsidered
    Case.slowSlice_item_tolerated Case.slowSlice_slurp_tolerated).exposeItems (Case.scrambled_plays .produce) hk hd⟩

/-- The same for `produce`. -/
example : ∃ k s', (ProducerScrambler.produce true Case.slowSlice (Case.scrambled .produce)).Pending k ∧
    (producerScramblerItemDrops true Case.slowSliceDrops Case.slowSliceItemDrops Case.slowSliceSlurpDrops).produce
      (Case.scrambled .produce) k s' ∧
    ∃ n, s'.Plays FromSlice.Ready (fun _ => True) 4 (Script.ofList [1, 2, 3] (.ok ())) n := by
  obtain ⟨k, hk, s', hd⟩ := Fut.first_pending (f := ProducerScrambler.produce true Case.slowSlice (Case.scrambled .produce))
    (Q := fun k => ∃ s', ProducerScrambler.ProduceDropped true Case.slowSliceDrops Case.slowSliceItemDrops Case.slowSliceSlurpDrops
      (Case.scrambled .produce) k [] s')
    (Fut.first_left (Fut.first_left (Fut.first_loop (k := Sum.inl (Sum.inr ⟨(), Sum.inr ⟨.produce, Sum.inl (Sum.inl true)⟩⟩)) rfl)))
    ⟨_, .mk (.mk HEq.rfl (.producing rfl))⟩
  exact ⟨k, s', hk, hd, (producer_scrambler_item_drops Case.slowSlice_law Case.slowSlice_tolerated Case.slowSlice_unconsidered
    Case.slowSlice_item_tolerated Case.slowSlice_slurp_tolerated).produce ⟨_, Case.scrambled_plays .produce⟩ hk hd⟩

/-- **C106**, a witness: `expose_items` is dropped while `consider_produced(2)` of the wrapped producer is pending. Then 1, 2, 1, 2 and 3
are emitted instead of 1, 2 and 3. -/
theorem producer_scrambler_repeats : ∃ k s',
    (ProducerScrambler.exposeItems true Case.slowSlice (Case.scrambled (.considerProduced ⟨2, by decide⟩))).Pending k ∧
    ProducerScrambler.ExposeDropped true Case.slowSliceDrops Case.slowSliceItemDrops Case.slowSliceSlurpDrops
      (Case.scrambled (.considerProduced ⟨2, by decide⟩)) k [1, 2] s' ∧
    BulkPlays (Verif.producerScrambler true Case.slowSlice.seq).noSlurp s' (Script.ofList [1, 2, 1, 2, 3] (.ok ())) := by
  obtain ⟨k, hk, s', hd⟩ := Fut.first_pending
    (f := ProducerScrambler.exposeItems true Case.slowSlice (Case.scrambled (.considerProduced ⟨2, by decide⟩)))
    (Q := fun k => ∃ s', ProducerScrambler.ExposeDropped true Case.slowSliceDrops Case.slowSliceItemDrops Case.slowSliceSlurpDrops
      (Case.scrambled (.considerProduced ⟨2, by decide⟩)) k [1, 2] s')
    (Fut.first_left (Fut.first_left (Fut.first_loop (k := Sum.inl (Sum.inr ⟨(), Sum.inr ⟨.considerProduced ⟨2, by decide⟩,
      Sum.inr ⟨(FromSlice.new [1, 2, 3], .ok (.inl [1, 2, 3])), Sum.inr ⟨[1, 2], Sum.inr ⟨(_, 2), Sum.inl (Sum.inl true)⟩⟩⟩⟩⟩)) rfl)))
    ⟨_, .mk (.mk HEq.rfl (.considering (available := [1, 2]) (amount := 2) rfl))⟩
  obtain ⟨l, h1, h2⟩ := producer_scrambler_expose_again Case.slowSlice_law Case.slowSlice_tolerated Case.slowSlice_unconsidered
    Case.slowSlice_item_tolerated Case.slowSlice_slurp_tolerated (Case.scrambled_plays _) hk hd
  have hl : l = [] := by
    have h := h1 l.length 1 (by simp)
    rcases l with _ | ⟨_, _ | ⟨_, _ | ⟨_, l⟩⟩⟩
    · rfl
    all_goals simp [Script.ofList, Except.map] at h
  subst hl
  refine ⟨k, s', hk, hd, ?_⟩
  have : Script.after ([] ++ [1, 2]) (Script.drop (Script.ofList [1, 2, 3] (.ok () : Except Empty Unit)) ([] : List Nat).length) =
      Script.ofList [1, 2, 1, 2, 3] (.ok ()) := by
    funext i
    rcases i with _ | _ | i <;> simp [Script.after, Script.ofList]
  rwa [this] at h2

/-- The same for `slurp`. -/
example : ∃ k s',
    (ProducerScrambler.slurp true Case.slowSlice (Case.scrambled (.considerProduced ⟨2, by decide⟩))).Pending k ∧
    ProducerScrambler.SlurpDropped true Case.slowSliceDrops Case.slowSliceItemDrops Case.slowSliceSlurpDrops
      (Case.scrambled (.considerProduced ⟨2, by decide⟩)) k [1, 2] s' ∧
    ∃ l m, (Script.ofList [1, 2, 3] (.ok () : Except Empty Unit)).StartsWith (l ++ [1, 2]) ∧ s'.Plays FromSlice.Ready (fun _ => True) 4
      (Script.after (l ++ [1, 2]) ((Script.ofList [1, 2, 3] (.ok ())).drop l.length)) m := by
  obtain ⟨k, hk, s', hd⟩ := Fut.first_pending
    (f := ProducerScrambler.slurp true Case.slowSlice (Case.scrambled (.considerProduced ⟨2, by decide⟩)))
    (Q := fun k => ∃ s', ProducerScrambler.SlurpDropped true Case.slowSliceDrops Case.slowSliceItemDrops Case.slowSliceSlurpDrops
      (Case.scrambled (.considerProduced ⟨2, by decide⟩)) k [1, 2] s')
    (Fut.first_left (Fut.first_left (Fut.first_loop (k := Sum.inl (Sum.inr ⟨(), Sum.inr ⟨.considerProduced ⟨2, by decide⟩,
      Sum.inr ⟨(FromSlice.new [1, 2, 3], .ok (.inl [1, 2, 3])), Sum.inr ⟨[1, 2], Sum.inr ⟨(_, 2), Sum.inl (Sum.inl true)⟩⟩⟩⟩⟩)) rfl)))
    ⟨_, .filling (.mk HEq.rfl (.considering (available := [1, 2]) (amount := 2) rfl))⟩
  exact ⟨k, s', hk, hd, producer_scrambler_slurp_dropped Case.slowSlice_law Case.slowSlice_tolerated Case.slowSlice_unconsidered
    Case.slowSlice_item_tolerated Case.slowSlice_slurp_tolerated (Case.scrambled_plays _) hk hd⟩

namespace Case

/-- An `IntoVec` whose `consume` is pending once. -/
def slowConsumeVec : BulkConsumer (IntoVec Nat) Nat Unit Empty where
  consume s x := do
    pause
    V.consume s x
  close := V.close
  flush := V.flush
  exposeSlots := V.exposeSlots
  writeSlots := V.writeSlots
  consumeSlots := V.consumeSlots

theorem slowConsumeVec_seq : slowConsumeVec.seq = IntoVec.consumer Nat := by
  refine BulkConsumer.seq_of_default (BufferedConsumer.seq_of (Consumer.seq_of (fun s x => ?_) fun s f => Fut.run_lift _)
    fun s => Fut.run_lift _) (fun s => Fut.run_lift _) (fun _ _ => rfl) (fun s n => Fut.run_lift _) rfl rfl
  exact (Fut.run_bind _ _).trans (by rw [pause_run]; exact Fut.run_lift _)

theorem slowConsumeVec_law : BulkDefersLaw slowConsumeVec.seq (fun s l _ => s.asRef = ok l ∧ s.intoVec = l) Policy.acceptAll.faults
    IntoVec.Ready := by
  rw [slowConsumeVec_seq]; exact IntoVec.law.toDefers

/-- While it is pending, nothing has happened. -/
def slowConsumeVecDrops : ConsumeDrops slowConsumeVec.toConsumer where
  consume t _ _ t' := t' = t

def slowConsumeVecSlotDrops : SlotDrops slowConsumeVec where
  exposeSlots t _ t' := t' = t
  consumeSlots t _ _ t' := t' = t

def slowConsumeVecFlushDrops : FlushDrops slowConsumeVec.toBufferedConsumer where
  flush t _ t' := t' = t

theorem slowConsumeVec_tolerated : slowConsumeVecDrops.Tolerated fun t l => ∃ sl, IntoVec.Ready t l sl where
  consume := by intro t l x k t' h _ he; cases he; exact h

theorem slowConsumeVec_slot_tolerated : slowConsumeVecSlotDrops.Tolerated IntoVec.Ready where
  exposeSlots := by intro t l sl k t' h _ he; cases he; exact ⟨_, h⟩
  consumeSlots := by intro t l sl n k t' h _ he; cases he; exact ⟨_, h⟩

theorem slowConsumeVec_flush_tolerated : slowConsumeVecFlushDrops.Tolerated fun t l => ∃ sl, IntoVec.Ready t l sl where
  flush := by intro t l k t' h _ he; cases he; exact h

/-- A scrambler with room for one item, which is there. -/
def full : ConsumerScrambler (IntoVec Nat) Nat := ⟨.new, ⟨[1], 0, 1⟩, [.consume], 0⟩

end Case

theorem Case.full_defers : Case.full.Defers IntoVec.Ready 1 [1] [] := by
  obtain ⟨q, h1, h2⟩ := (Fixed.fifoLaw Nat 1).enqueue _ _ _ _ 1 (Fixed.holds_new 1 fun _ => 1) (by decide)
  cases h1
  exact ⟨[], [1], rfl, ⟨by decide, h2, by decide, .consume, by simp [Case.full], by simp⟩, [], IntoVec.ready_fromVec []⟩

/-- **C106**, a witness: 1 has been consumed by a scrambler. The call `consume(2)` is dropped while the wrapped consumer is pending, and
started again. Then `close` reports success, and the vector is `[2]`. -/
theorem consumer_scrambler_loses : ∃ k s', (ConsumerScrambler.consume false Case.slowConsumeVec Case.full 2).Pending k ∧
    ConsumerScrambler.ConsumeDropped false Case.slowConsumeVecDrops Case.slowConsumeVecSlotDrops Case.slowConsumeVecFlushDrops
      Case.full 2 k [1] s' ∧
    ∃ s₁ s₂, (ConsumerScrambler.consume false Case.slowConsumeVec s' 2).run = ok (s₁, .ok ()) ∧
      (ConsumerScrambler.close false Case.slowConsumeVec s₁ ()).run = ok (s₂, .ok ()) ∧ s₂.inner.intoVec = [2] := by
  obtain ⟨k, hk, s', hd⟩ := Fut.first_pending (f := ConsumerScrambler.consume false Case.slowConsumeVec Case.full 2)
    (Q := fun k => ∃ s', ConsumerScrambler.ConsumeDropped false Case.slowConsumeVecDrops Case.slowConsumeVecSlotDrops
      Case.slowConsumeVecFlushDrops Case.full 2 k [1] s')
    (Fut.first_right (a := (Case.full.buffer, some 2)) rfl (Fut.first_left (Fut.first_loop
      (k := Sum.inl (Sum.inr ⟨(), Sum.inr ⟨.consume, Sum.inr ⟨(_, some 1), Sum.inr ⟨1, Sum.inl (Sum.inl true)⟩⟩⟩⟩)) rfl)))
    ⟨_, .mk (.mk HEq.rfl (.consuming rfl))⟩
  have hX := (Policy.acceptAll (I := Nat) (F := Unit) (E := Empty)).regular_faults
  obtain ⟨d, b, slots', h1, h2⟩ := consumer_scrambler_consume_dropped hX Case.slowConsumeVec_law Case.slowConsumeVec_tolerated
    Case.slowConsumeVec_slot_tolerated Case.slowConsumeVec_flush_tolerated Case.full_defers hk hd
  obtain ⟨rfl, rfl⟩ : d = [] ∧ b = [] := by
    have := congrArg List.length h1
    simp at this
    exact ⟨List.length_eq_zero_iff.mp (by omega), List.length_eq_zero_iff.mp (by omega)⟩
  obtain ⟨S, hS, sl, hs⟩ := consumer_scrambler_left_defers hX Case.slowConsumeVec_law h2
  obtain ⟨s₁, ⟨h3, hs₁⟩ | ⟨e, _⟩⟩ := hS.base.consume _ _ 2 ⟨sl, hs⟩
  · obtain ⟨s₂, ⟨h4, h5⟩ | ⟨e, _⟩⟩ := hS.base.close _ _ () hs₁
    · exact ⟨k, s', hk, hd, s₁, s₂, h3, h4, h5.2⟩
    · exact e.elim
  · exact e.elim

/-- What a dropped `close` of the vector leaves. -/
def Case.slowConsumeVecCloseDrops : CloseDrops Case.slowConsumeVec.toConsumer where
  close t _ _ t' := t' = t

theorem Case.slowConsumeVec_close_tolerated : Case.slowConsumeVecCloseDrops.Tolerated fun t l => ∃ sl, IntoVec.Ready t l sl where
  close := by intro t l f k t' h _ he; cases he; exact h

/-- **C106**, a witness: 1 has been consumed by a scrambler. `close` is dropped while the wrapped consumer is pending, and started again. It
reports success, and the vector is empty. -/
theorem consumer_scrambler_close_loses : ∃ k s', (ConsumerScrambler.close false Case.slowConsumeVec Case.full ()).Pending k ∧
    ConsumerScrambler.CloseDropped false Case.slowConsumeVecDrops Case.slowConsumeVecSlotDrops Case.slowConsumeVecFlushDrops
      Case.slowConsumeVecCloseDrops Case.full () k [1] s' ∧
    ∃ s₁, (ConsumerScrambler.close false Case.slowConsumeVec s' ()).run = ok (s₁, .ok ()) ∧ s₁.inner.intoVec = [] := by
  obtain ⟨k, hk, s', hd⟩ := Fut.first_pending (f := ConsumerScrambler.close false Case.slowConsumeVec Case.full ())
    (Q := fun k => ∃ s', ConsumerScrambler.CloseDropped false Case.slowConsumeVecDrops Case.slowConsumeVecSlotDrops
      Case.slowConsumeVecFlushDrops Case.slowConsumeVecCloseDrops Case.full () k [1] s')
    (Fut.first_left (Fut.first_loop
      (k := Sum.inl (Sum.inr ⟨(), Sum.inr ⟨.consume, Sum.inr ⟨(_, some 1), Sum.inr ⟨1, Sum.inl (Sum.inl true)⟩⟩⟩⟩)) rfl))
    ⟨_, .draining (.mk HEq.rfl (.consuming rfl))⟩
  have hX := (Policy.acceptAll (I := Nat) (F := Unit) (E := Empty)).regular_faults
  obtain ⟨d, b, slots', h1, h2⟩ := consumer_scrambler_close_dropped hX Case.slowConsumeVec_law Case.slowConsumeVec_tolerated
    Case.slowConsumeVec_slot_tolerated Case.slowConsumeVec_flush_tolerated Case.slowConsumeVec_close_tolerated Case.full_defers hk hd
  obtain ⟨rfl, rfl⟩ : d = [] ∧ b = [] := by
    have := congrArg List.length h1
    simp at this
    exact ⟨List.length_eq_zero_iff.mp (by omega), List.length_eq_zero_iff.mp (by omega)⟩
  obtain ⟨S, hS, sl, hs⟩ := consumer_scrambler_left_defers hX Case.slowConsumeVec_law h2
  obtain ⟨s₁, ⟨h3, h4⟩ | ⟨e, _⟩⟩ := hS.base.close _ _ () ⟨sl, hs⟩
  · exact ⟨k, s', hk, hd, s₁, h3, h4.2⟩
  · exact e.elim

/-- The same for `expose_slots`, which is pending in the same place. -/
example : ∃ k s', (ConsumerScrambler.exposeSlots true Case.slowConsumeVec Case.full).Pending k ∧
    ConsumerScrambler.ExposeDropped true Case.slowConsumeVecDrops Case.slowConsumeVecSlotDrops Case.slowConsumeVecFlushDrops
      Case.full k [1] s' ∧ ∃ slots, s'.Defers IntoVec.Ready 1 [] slots := by
  obtain ⟨k, hk, s', hd⟩ := Fut.first_pending (f := ConsumerScrambler.exposeSlots true Case.slowConsumeVec Case.full)
    (Q := fun k => ∃ s', ConsumerScrambler.ExposeDropped true Case.slowConsumeVecDrops Case.slowConsumeVecSlotDrops
      Case.slowConsumeVecFlushDrops Case.full k [1] s')
    (Fut.first_left (Fut.first_loop
      (k := Sum.inl (Sum.inr ⟨(), Sum.inr ⟨.consume, Sum.inr ⟨(_, some 1), Sum.inr ⟨1, Sum.inl (Sum.inl true)⟩⟩⟩⟩)) rfl))
    ⟨_, .mk HEq.rfl (.mk HEq.rfl (.consuming rfl))⟩
  obtain ⟨d, b, slots', h1, h2⟩ := consumer_scrambler_expose_dropped (Policy.acceptAll (I := Nat) (F := Unit) (E := Empty)).regular_faults
    Case.slowConsumeVec_law Case.slowConsumeVec_tolerated Case.slowConsumeVec_slot_tolerated Case.slowConsumeVec_flush_tolerated
    Case.full_defers hk hd
  obtain ⟨rfl, rfl⟩ : d = [] ∧ b = [] := by
    have := congrArg List.length h1
    simp at this
    exact ⟨List.length_eq_zero_iff.mp (by omega), List.length_eq_zero_iff.mp (by omega)⟩
  exact ⟨k, s', hk, hd, slots', h2⟩

/-- And for `flush`. -/
example : ∃ k s', (ConsumerScrambler.flush true Case.slowConsumeVec Case.full).Pending k ∧
    ConsumerScrambler.FlushDropped true Case.slowConsumeVecDrops Case.slowConsumeVecSlotDrops Case.slowConsumeVecFlushDrops
      Case.full k [1] s' ∧ ∃ slots, s'.Defers IntoVec.Ready 1 [] slots := by
  obtain ⟨k, hk, s', hd⟩ := Fut.first_pending (f := ConsumerScrambler.flush true Case.slowConsumeVec Case.full)
    (Q := fun k => ∃ s', ConsumerScrambler.FlushDropped true Case.slowConsumeVecDrops Case.slowConsumeVecSlotDrops
      Case.slowConsumeVecFlushDrops Case.full k [1] s')
    (Fut.first_left (Fut.first_loop
      (k := Sum.inl (Sum.inr ⟨(), Sum.inr ⟨.consume, Sum.inr ⟨(_, some 1), Sum.inr ⟨1, Sum.inl (Sum.inl true)⟩⟩⟩⟩)) rfl))
    ⟨_, .draining (.mk HEq.rfl (.consuming rfl))⟩
  obtain ⟨d, b, slots', h1, h2⟩ := consumer_scrambler_flush_dropped (Policy.acceptAll (I := Nat) (F := Unit) (E := Empty)).regular_faults
    Case.slowConsumeVec_law Case.slowConsumeVec_tolerated Case.slowConsumeVec_slot_tolerated Case.slowConsumeVec_flush_tolerated
    Case.full_defers hk hd
  obtain ⟨rfl, rfl⟩ : d = [] ∧ b = [] := by
    have := congrArg List.length h1
    simp at this
    exact ⟨List.length_eq_zero_iff.mp (by omega), List.length_eq_zero_iff.mp (by omega)⟩
  exact ⟨k, s', hk, hd, slots', h2⟩

end Async

end Verif
