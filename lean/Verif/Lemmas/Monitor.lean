import Verif.Monitor
import Verif.Lemmas.Spec

/-!
# Monitored producers and consumers are lawful
-/

namespace Verif

open Outcome

section

variable {σ I F E : Type}

def Monitored.Plays (R : σ → Script I F E → Nat → Prop) (s : Monitored σ) (c : Script I F E) (n : Nat) : Prop :=
  s.over = false ∧ ((n = 0 ∧ s.exposed = 0 ∧ ∃ m, R s.inner c m) ∨ (n = s.exposed ∧ R s.inner c n))

theorem Monitored.Plays.inner {R : σ → Script I F E → Nat → Prop} {s : Monitored σ} {c : Script I F E} {n : Nat}
    (h : s.Plays R c n) : ∃ m, R s.inner c m := by
  obtain ⟨_, ⟨_, _, h⟩ | ⟨_, h⟩⟩ := h
  · exact h
  · exact ⟨_, h⟩

theorem BulkPlaysLaw.monitored {P : BulkProducer σ I F E} {R : σ → Script I F E → Nat → Prop} (h : BulkPlaysLaw P R) :
    BulkPlaysLaw (monitoredProducer P) (Monitored.Plays R) where
  base :=
    { produce := by
        rintro ⟨s, o, e⟩ c ⟨n, hn⟩
        have hi := hn.inner
        obtain ⟨rfl, _⟩ := hn
        obtain ⟨s', h3, h4⟩ := h.base.produce s c hi
        rcases hc : c 0 with e' | x | f
        · exact ⟨⟨s', true, 0⟩, by simp [monitoredProducer, h3, hc], by simp⟩
        · exact ⟨⟨s', false, 0⟩, by simp [monitoredProducer, h3, hc], fun y hy => ⟨0, rfl, .inl ⟨rfl, rfl, h4 x hc⟩⟩⟩
        · exact ⟨⟨s', true, 0⟩, by simp [monitoredProducer, h3, hc], by simp⟩
      slurp := by
        rintro ⟨s, o, e⟩ c ⟨n, hn⟩
        have hi := hn.inner
        obtain ⟨rfl, _⟩ := hn
        obtain ⟨s', ⟨h3, h4⟩ | ⟨e', h3, h4⟩⟩ := h.base.slurp s c hi
        · exact ⟨⟨s', false, 0⟩, .inl ⟨by simp [monitoredProducer, h3], 0, rfl, .inl ⟨rfl, rfl, h4⟩⟩⟩
        · exact ⟨⟨s', true, 0⟩, .inr ⟨e', h3, by simp [monitoredProducer, h4]⟩⟩ }
  expose := by
    rintro ⟨s, o, e⟩ c n hn
    obtain ⟨m, hm⟩ := hn.inner
    obtain ⟨rfl, _⟩ := hn
    obtain ⟨s', ⟨xs, h1, h2, h3, h4⟩ | ⟨f, h1, h2⟩ | ⟨e', h1, h2⟩⟩ := h.expose s c m hm
    · exact ⟨⟨s', false, xs.length⟩, .inl ⟨xs, h1, h2, by simp [monitoredProducer, h3], rfl, .inr ⟨rfl, h4⟩⟩⟩
    · exact ⟨⟨s', true, 0⟩, .inr (.inl ⟨f, h1, by simp [monitoredProducer, h2]⟩)⟩
    · exact ⟨⟨s', true, 0⟩, .inr (.inr ⟨e', h1, by simp [monitoredProducer, h2]⟩)⟩
  consider := by
    rintro ⟨s, o, e⟩ c n k ⟨rfl, ⟨rfl, _⟩ | ⟨hn, hR⟩⟩ h0 hk
    · omega
    · simp only at hn hR
      subst hn
      obtain ⟨s', h1, h2⟩ := h.consider s c n k hR h0 hk
      refine ⟨⟨s', false, n - k⟩, ?_, rfl, .inr ⟨rfl, h2⟩⟩
      simp [monitoredProducer, h1, show ¬ n < k by omega, show n ≠ 0 by omega]
  bulkProduce := by
    rintro ⟨s, o, e⟩ c n buf hn hb
    obtain ⟨m, hm⟩ := hn.inner
    obtain ⟨rfl, _⟩ := hn
    obtain ⟨s', buf', hl, ⟨k, h1, h2, h3, h4, h5⟩ | ⟨f, h1, h2⟩ | ⟨e', h1, h2⟩⟩ := h.bulkProduce s c m buf hm hb
    · exact ⟨⟨s', false, 0⟩, buf', hl, .inl ⟨k, h1, h2, by simp [monitoredProducer, h3, hb], h4, 0, rfl, .inl ⟨rfl, rfl, h5⟩⟩⟩
    · exact ⟨⟨s', true, 0⟩, buf', hl, .inr (.inl ⟨f, h1, by simp [monitoredProducer, h2, hb]⟩)⟩
    · exact ⟨⟨s', true, 0⟩, buf', hl, .inr (.inr ⟨e', h1, by simp [monitoredProducer, h2, hb]⟩)⟩

theorem BulkPlays.monitored {P : BulkProducer σ I F E} {s : σ} {c : Script I F E} (h : BulkPlays P s c) :
    BulkPlays (monitoredProducer P) (.start s) c := by
  obtain ⟨R, hR, n, hn⟩ := h
  exact ⟨_, hR.monitored, 0, rfl, .inl ⟨rfl, rfl, n, hn⟩⟩

def Monitored.Collects (R : σ → List I → List I → Prop) (s : Monitored σ) (l slots : List I) : Prop :=
  s.over = false ∧ ((slots = [] ∧ s.exposed = 0 ∧ ∃ sl, R s.inner l sl) ∨ (slots.length = s.exposed ∧ R s.inner l slots))

theorem Monitored.Collects.inner {R : σ → List I → List I → Prop} {s : Monitored σ} {l slots : List I}
    (h : s.Collects R l slots) : ∃ sl, R s.inner l sl := by
  obtain ⟨_, ⟨_, _, h⟩ | ⟨_, h⟩⟩ := h
  · exact h
  · exact ⟨_, h⟩

theorem Monitored.Collects.idle {R : σ → List I → List I → Prop} {s : σ} {l : List I} (h : ∃ sl, R s l sl) :
    Monitored.Collects R ⟨s, false, 0⟩ l [] := ⟨rfl, .inl ⟨rfl, rfl, h⟩⟩

theorem Monitored.Collects.written {R : σ → List I → List I → Prop} {C : BulkConsumer σ I F E}
    (hw : ∀ s l slots ws, R s l slots → ws.length ≤ slots.length → R (C.writeSlots s ws) l (ws ++ slots.drop ws.length))
    {s : Monitored σ} {l slots ws : List I} (h : s.Collects R l slots) (hl : ws.length ≤ slots.length) :
    Monitored.Collects R ((monitoredConsumer C).writeSlots s ws) l (ws ++ slots.drop ws.length) := by
  obtain ⟨s, o, e⟩ := s
  obtain ⟨rfl, ⟨rfl, rfl, sl, hR⟩ | ⟨rfl, hR⟩⟩ := h
  · have : ws = [] := by simpa using hl
    subst this
    exact ⟨rfl, .inl ⟨by simp, rfl, _, hw _ _ _ [] hR (by simp)⟩⟩
  · refine ⟨by simp [monitoredConsumer, hl], .inr ⟨?_, hw _ _ _ ws hR hl⟩⟩
    simp only [List.length_append, List.length_drop, monitoredConsumer]; omega

theorem BulkCollectsLaw.monitored {C : BulkConsumer σ I F E} {D : σ → List I → Option F → Prop} {q : Policy I F E}
    {R : σ → List I → List I → Prop} (h : BulkCollectsLaw C D q R) :
    BulkCollectsLaw (monitoredConsumer C) (fun s => D s.inner) q (Monitored.Collects R) where
  base :=
    { observe := by
        rintro ⟨s, o, e⟩ l ⟨slots, hs⟩
        exact h.base.observe _ _ hs.inner
      consume_ok := by
        rintro ⟨s, o, e⟩ l x ⟨slots, hs⟩ hq
        have hi := hs.inner
        obtain ⟨rfl, _⟩ := hs
        obtain ⟨s', h1, h2⟩ := h.base.consume_ok s l x hi hq
        exact ⟨⟨s', false, 0⟩, by simp [monitoredConsumer, h1], [], .idle h2⟩
      consume_err := by
        rintro ⟨s, o, e⟩ l x e' ⟨slots, hs⟩ hq
        have hi := hs.inner
        obtain ⟨rfl, _⟩ := hs
        obtain ⟨s', h1, h2⟩ := h.base.consume_err s l x e' hi hq
        exact ⟨⟨s', true, 0⟩, by simp [monitoredConsumer, h1], h2⟩
      close_ok := by
        rintro ⟨s, o, e⟩ l f ⟨slots, hs⟩ hq
        have hi := hs.inner
        obtain ⟨rfl, _⟩ := hs
        obtain ⟨s', h1, h2⟩ := h.base.close_ok s l f hi hq
        exact ⟨⟨s', true, 0⟩, by simp [monitoredConsumer, h1], h2⟩
      close_err := by
        rintro ⟨s, o, e⟩ l f e' ⟨slots, hs⟩ hq
        have hi := hs.inner
        obtain ⟨rfl, _⟩ := hs
        obtain ⟨s', h1, h2⟩ := h.base.close_err s l f e' hi hq
        exact ⟨⟨s', true, 0⟩, by simp [monitoredConsumer, h1], h2⟩
      flush := by
        rintro ⟨s, o, e⟩ l ⟨slots, hs⟩
        have hi := hs.inner
        obtain ⟨rfl, _⟩ := hs
        obtain ⟨s', ⟨h1, h2⟩ | ⟨e', h1, h2, h3⟩⟩ := h.base.flush s l hi
        · exact ⟨⟨s', false, 0⟩, .inl ⟨by simp [monitoredConsumer, h1], [], .idle h2⟩⟩
        · exact ⟨⟨s', true, 0⟩, .inr ⟨e', h1, by simp [monitoredConsumer, h2], h3⟩⟩ }
  expose_ok := by
    rintro ⟨s, o, e⟩ l slots hs hq
    obtain ⟨sl, hi⟩ := hs.inner
    obtain ⟨rfl, _⟩ := hs
    obtain ⟨s', slots', h1, h2, h3⟩ := h.expose_ok s l sl hi hq
    exact ⟨⟨s', false, slots'.length⟩, slots', h1, by simp [monitoredConsumer, h2], rfl, .inr ⟨rfl, h3⟩⟩
  expose_err := by
    rintro ⟨s, o, e⟩ l slots e' hs hq
    obtain ⟨sl, hi⟩ := hs.inner
    obtain ⟨rfl, _⟩ := hs
    obtain ⟨s', h1, h2⟩ := h.expose_err s l sl e' hi hq
    exact ⟨⟨s', true, 0⟩, by simp [monitoredConsumer, h1], h2⟩
  write := fun _ _ _ _ hs hl => hs.written h.write hl
  consumeSlots_ok := by
    rintro ⟨s, o, e⟩ l slots k ⟨rfl, ⟨rfl, _⟩ | ⟨rfl, hR⟩⟩ hne hk ha
    · simp at hne
    · obtain ⟨s', h1, h2⟩ := h.consumeSlots_ok s l slots k hR hne hk ha
      exact ⟨⟨s', false, slots.length - k⟩, by simp [monitoredConsumer, h1, hne, Nat.not_lt.mpr hk], rfl, .inr ⟨by simp, h2⟩⟩
  consumeSlots_err := by
    rintro ⟨s, o, e⟩ l slots k i e' ⟨rfl, ⟨rfl, _⟩ | ⟨rfl, hR⟩⟩ hne hk ha
    · simp at hne
    · obtain ⟨s', h1, h2⟩ := h.consumeSlots_err s l slots k i e' hR hne hk ha
      exact ⟨⟨s', true, 0⟩, by simp [monitoredConsumer, h1, hne, Nat.not_lt.mpr hk], h2⟩
  bulkConsume := by
    rintro ⟨s, o, e⟩ l slots buf hs hb
    obtain ⟨sl, hi⟩ := hs.inner
    obtain ⟨rfl, _⟩ := hs
    obtain ⟨s', ⟨k, h1, h2, h3, h4, h5⟩ | ⟨i, e', h1, h2, h3⟩⟩ := h.bulkConsume s l sl buf hi hb
    · exact ⟨⟨s', false, 0⟩, .inl ⟨k, h1, h2, h3, by simp [monitoredConsumer, h4, hb], [], .idle h5⟩⟩
    · exact ⟨⟨s', true, 0⟩, .inr ⟨i, e', h1, by simp [monitoredConsumer, h2, hb], h3⟩⟩

theorem BulkCollects.monitored {C : BulkConsumer σ I F E} {D q s l} (h : BulkCollects C D q s l) :
    BulkCollects (monitoredConsumer C) (fun s => D s.inner) q (.start s) l := by
  obtain ⟨R, hR, sl, hs⟩ := h
  exact ⟨_, hR.monitored, [], .idle ⟨sl, hs⟩⟩

theorem BulkDefersLaw.monitored {C : BulkConsumer σ I F E} {D : σ → List I → Option F → Prop} {X : Faults I F E}
    {R : σ → List I → List I → Prop} (h : BulkDefersLaw C D X R) :
    BulkDefersLaw (monitoredConsumer C) (fun s => D s.inner) X (Monitored.Collects R) where
  base :=
    { observe := by
        rintro ⟨s, o, e⟩ l ⟨slots, hs⟩
        exact h.base.observe _ _ hs.inner
      consume := by
        rintro ⟨s, o, e⟩ l x ⟨slots, hs⟩
        have hi := hs.inner
        obtain ⟨rfl, _⟩ := hs
        obtain ⟨s', ⟨h1, h2⟩ | ⟨e', d, h1, h2⟩⟩ := h.base.consume s l x hi
        · exact ⟨⟨s', false, 0⟩, .inl ⟨by simp [monitoredConsumer, h1], [], .idle h2⟩⟩
        · exact ⟨⟨s', true, 0⟩, .inr ⟨e', d, by simp [monitoredConsumer, h1], h2⟩⟩
      close := by
        rintro ⟨s, o, e⟩ l f ⟨slots, hs⟩
        have hi := hs.inner
        obtain ⟨rfl, _⟩ := hs
        obtain ⟨s', ⟨h1, h2⟩ | ⟨e', d, h1, h2⟩⟩ := h.base.close s l f hi
        · exact ⟨⟨s', true, 0⟩, .inl ⟨by simp [monitoredConsumer, h1], h2⟩⟩
        · exact ⟨⟨s', true, 0⟩, .inr ⟨e', d, by simp [monitoredConsumer, h1], h2⟩⟩
      flush := by
        rintro ⟨s, o, e⟩ l ⟨slots, hs⟩
        have hi := hs.inner
        obtain ⟨rfl, _⟩ := hs
        obtain ⟨s', ⟨h1, h2, h3⟩ | ⟨e', d, h1, h2⟩⟩ := h.base.flush s l hi
        · exact ⟨⟨s', false, 0⟩, .inl ⟨by simp [monitoredConsumer, h1], ⟨[], .idle h2⟩, h3⟩⟩
        · exact ⟨⟨s', true, 0⟩, .inr ⟨e', d, by simp [monitoredConsumer, h1], h2⟩⟩ }
  expose := by
    rintro ⟨s, o, e⟩ l slots hs
    obtain ⟨sl, hi⟩ := hs.inner
    obtain ⟨rfl, _⟩ := hs
    obtain ⟨s', ⟨slots', h1, h2, h3⟩ | ⟨e', d, h1, h2⟩⟩ := h.expose s l sl hi
    · exact ⟨⟨s', false, slots'.length⟩, .inl ⟨slots', h1, by simp [monitoredConsumer, h2], rfl, .inr ⟨rfl, h3⟩⟩⟩
    · exact ⟨⟨s', true, 0⟩, .inr ⟨e', d, by simp [monitoredConsumer, h1], h2⟩⟩
  write := fun _ _ _ _ hs hl => hs.written h.write hl
  consumeSlots := by
    rintro ⟨s, o, e⟩ l slots k ⟨rfl, ⟨rfl, _⟩ | ⟨rfl, hR⟩⟩ hne hk
    · simp at hne
    · obtain ⟨s', ⟨h1, h2⟩ | ⟨e', d, h1, h2⟩⟩ := h.consumeSlots s l slots k hR hne hk
      · exact ⟨⟨s', false, slots.length - k⟩, .inl ⟨by simp [monitoredConsumer, h1, hne, Nat.not_lt.mpr hk], rfl,
          .inr ⟨by simp, h2⟩⟩⟩
      · exact ⟨⟨s', true, 0⟩, .inr ⟨e', d, by simp [monitoredConsumer, h1, hne, Nat.not_lt.mpr hk], h2⟩⟩
  bulkConsume := by
    rintro ⟨s, o, e⟩ l slots buf hs hb
    obtain ⟨sl, hi⟩ := hs.inner
    obtain ⟨rfl, _⟩ := hs
    obtain ⟨s', ⟨k, h1, h2, h4, h5⟩ | ⟨e', d, h1, h2⟩⟩ := h.bulkConsume s l sl buf hi hb
    · exact ⟨⟨s', false, 0⟩, .inl ⟨k, h1, h2, by simp [monitoredConsumer, h4, hb], [], .idle h5⟩⟩
    · exact ⟨⟨s', true, 0⟩, .inr ⟨e', d, by simp [monitoredConsumer, h1, hb], h2⟩⟩

theorem BulkDefers.monitored {C : BulkConsumer σ I F E} {D X s l} (h : BulkDefers C D X s l) :
    BulkDefers (monitoredConsumer C) (fun s => D s.inner) X (.start s) l := by
  obtain ⟨R, hR, sl, hs⟩ := h
  exact ⟨_, hR.monitored, [], .idle ⟨sl, hs⟩⟩

end

end Verif
