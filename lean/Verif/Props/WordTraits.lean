import Verif.Lemmas.WordSame
import Verif.Props.WordQueue
import Verif.Cases

/-!
# C64: the functions of lib.rs with machine arithmetic

`C'` and `P'` are implementations that cannot be told apart from `C` and `P` (for example `C` and `P` themselves, or the ones with machine
arithmetic of `Props/WordAdaptors.lean`).
-/

namespace Verif

open Outcome

section

variable {σ τ I F E E₁ E₂ : Type}

/-- **C64, `bulk_consume_full_slice`** does not overflow. -/
theorem word_bulk_consume_full_slice (w : Word) {C' C : BulkConsumer σ I F E} {s : σ} {buf : List I} (hw : buf.length < w.size)
    (hC : C.ClaimsAtMost s) (same : C'.SameUntil C s buf.length) :
    wordBulkConsumeFullSlice w C' s buf = bulkConsumeFullSlice C s buf := by
  refine loop_agree (fun x => x.2 ≤ buf.length ∧ ∃ slots, ConsumerRuns C s (buf.take x.2) x.1 slots none) ?_
    ⟨Nat.zero_le _, [], by simpa using ConsumerRuns.start⟩
  rintro ⟨t, consumed⟩ ⟨hle, slots, hr⟩
  simp only [wordBulkConsumeFullSliceBody, bulkConsumeFullSliceBody]
  by_cases hlt : consumed < buf.length
  · have hne : buf.drop consumed ≠ [] := by simp; omega
    have hsame := same _ _ _ hr (by simp; omega)
    simp only [if_pos hlt, hsame.bulkConsume _ hne]
    rcases hb : C.bulkConsume t (buf.drop consumed) with ⟨t', e | k⟩ | _ | _
    · exact ⟨rfl, by intro y hy; simp at hy⟩
    · have hk := hC _ _ _ _ _ _ hr hne hb
      rw [List.length_drop] at hk
      simp only [bind_eq, bind_ok]
      rw [Word.add_ok (by omega)]
      refine ⟨rfl, ?_⟩
      intro y hy
      simp at hy
      subst hy
      have := hr.call (op := .bulkConsume (buf.drop consumed)) (s' := t') (r := ⟨(buf.drop consumed).take k, [], none⟩) hne
        (by simp [BulkConsumer.call, hb])
      refine ⟨by simp; omega, [], ?_⟩
      rw [← List.take_add] at this
      exact this
    · exact ⟨rfl, by intro y hy; simp at hy⟩
    · exact ⟨rfl, by intro y hy; simp at hy⟩
  · simp [hlt]

example : wordBulkConsumeFullSlice .wrapping64 Case.C (Case.con 4) [5, 6, 7] = bulkConsumeFullSlice Case.C (Case.con 4) [5, 6, 7] :=
  word_bulk_consume_full_slice _ (by decide) (Case.collects 4).claimsAtMost ((BulkConsumer.Same.refl _ _).until _)

/-- **C64, `bulk_overwrite_full_slice`** does not overflow. -/
theorem word_bulk_overwrite_full_slice (w : Word) {P' P : BulkProducer σ I F E} {s : σ} {buf : List I} (hw : buf.length < w.size)
    (hP : P.ClaimsAtMost s) (same : P'.Same P s) :
    wordBulkOverwriteFullSlice w P' s buf = bulkOverwriteFullSlice P s buf := by
  refine loop_agree (fun x => x.2.2 ≤ buf.length ∧ x.2.1.length = buf.length ∧
    ∃ handed shown, ProducerRuns P s handed x.1 shown none) ?_ ⟨Nat.zero_le _, rfl, [], [], .start⟩
  rintro ⟨t, b, produced⟩ ⟨hle, hlen, handed, shown, hr⟩
  simp only at hle hlen hr
  simp only [wordBulkOverwriteFullSliceBody, bulkOverwriteFullSliceBody]
  by_cases hlt : produced < b.length
  · have hne : b.drop produced ≠ [] := by simp; omega
    simp only [if_pos hlt, (same _ _ _ hr).bulkProduce _ hne]
    rcases hb : P.bulkProduce t (b.drop produced) with ⟨t', e | k | f, tail⟩ | _ | _
    · exact ⟨rfl, by intro y hy; simp at hy⟩
    · obtain ⟨hk, htail⟩ := hP _ _ _ _ _ _ _ hr hne hb
      rw [List.length_drop] at hk htail
      simp only [bind_eq, bind_ok]
      rw [Word.add_ok (by omega)]
      refine ⟨rfl, ?_⟩
      intro y hy
      simp at hy
      subst hy
      have := hr.call (op := .bulkProduce (b.drop produced)) (s' := t') (r := ⟨tail.take k, [], none⟩) hne
        (by simp [BulkProducer.call, hb])
      refine ⟨by simp; omega, by simp; omega, _, _, this⟩
    · exact ⟨rfl, by intro y hy; simp at hy⟩
    · exact ⟨rfl, by intro y hy; simp at hy⟩
    · exact ⟨rfl, by intro y hy; simp at hy⟩
  · simp [hlt]

example : wordBulkOverwriteFullSlice .wrapping64 Case.P (Case.pro (.ok ())) [0, 0] =
    bulkOverwriteFullSlice Case.P (Case.pro (.ok ())) [0, 0] :=
  word_bulk_overwrite_full_slice _ (by decide) (Case.plays _).claimsAtMost (BulkProducer.Same.refl _ _)

/-- **C64, `pipe_at_most`** does not overflow, whatever the producer and the consumer do. -/
theorem word_pipe_at_most_any (w : Word) (P : Producer σ I F E₁) (C : Consumer τ I F E₂) (s : σ) (t : τ) {count : Nat}
    (hw : count < w.size) : wordPipeAtMost w P C s t count = pipeAtMost P C s t count := by
  refine loop_agree (fun _ => True) ?_ trivial
  rintro ⟨s, t, piped⟩ -
  refine ⟨?_, fun _ _ => trivial⟩
  simp only [wordPipeAtMostBody, pipeAtMostBody]
  by_cases hlt : piped < count
  · simp only [if_pos hlt]
    rw [Word.add_ok (by omega)]
    rfl
  · simp [hlt]

example : wordPipeAtMost .wrapping64 Case.P.toProducer Case.C.toConsumer (Case.pro (.ok ())) (Case.con 4) (2 ^ 64 - 1) =
    pipeAtMost Case.P.toProducer Case.C.toConsumer (Case.pro (.ok ())) (Case.con 4) (2 ^ 64 - 1) :=
  word_pipe_at_most_any _ _ _ _ _ (by decide)

/-- **C64, `pipe_at_most`**. -/
theorem word_pipe_at_most (w : Word) {P' P : BulkProducer σ I F E₁} {C' C : BulkConsumer τ I F E₂} {s : σ} {t : τ} {count : Nat}
    (hw : count < w.size) (sameP : P'.Same P s) (sameC : C'.SameUntil C t count) :
    wordPipeAtMost w P'.toProducer C'.toConsumer s t count = pipeAtMost P.toProducer C.toConsumer s t count := by
  rw [word_pipe_at_most_any w _ _ _ _ hw]
  refine loop_agree (fun x => ∃ handed shown slots, handed.length = x.2.2 ∧ ProducerRuns P s handed x.1 shown none ∧
    ConsumerRuns C t handed x.2.1 slots none) ?_ ⟨[], [], [], rfl, .start, .start⟩
  rintro ⟨s', t', piped⟩ ⟨handed, shown, slots, hlen, hr, hc⟩
  simp only at hlen hr hc
  simp only [pipeAtMostBody]
  by_cases hlt : piped < count
  · have hsC := sameC _ _ _ hc (by omega)
    simp only [if_pos hlt, (sameP _ _ _ hr).produce, hsC.consume, hsC.close]
    refine ⟨trivial, ?_⟩
    intro y hy
    rcases hp : P.produce s' with ⟨s'', e | x | f⟩ | _ | _
    · simp [hp] at hy
    · rcases hx : C.consume t' x with ⟨t'', e | _⟩ | _ | _
      · simp [hp, hx] at hy
      · simp [hp, hx] at hy
        subst hy
        have h1 := hr.call (op := .produce) (s' := s'') (r := ⟨[x], [], none⟩) trivial (by simp [BulkProducer.call, hp])
        have h2 := hc.call (op := .consume x) (s' := t'') (r := ⟨[x], [], none⟩) trivial (by simp [BulkConsumer.call, hx])
        exact ⟨_, _, _, by simp [hlen], h1, h2⟩
      · simp [hp, hx] at hy
      · simp [hp, hx] at hy
    · rcases hx : C.close t' f with ⟨t'', e | _⟩ | _ | _ <;> simp [hp, hx] at hy
    · simp [hp] at hy
    · simp [hp] at hy
  · simp [hlt]

example : wordPipeAtMost .checked64 Case.P.toProducer Case.C.toConsumer (Case.pro (.ok ())) (Case.con 4) 2 =
    pipeAtMost Case.P.toProducer Case.C.toConsumer (Case.pro (.ok ())) (Case.con 4) 2 :=
  word_pipe_at_most _ (by decide) (BulkProducer.Same.refl _ _) ((BulkConsumer.Same.refl _ _).until _)

/-- **C64, `bulk_pipe_at_most`** does not overflow. -/
theorem word_bulk_pipe_at_most (w : Word) {P' P : BulkProducer σ I F E₁} {C' C : BulkConsumer τ I F E₂} {s : σ} {t : τ} {count : Nat}
    (hw : count < w.size) (hP : P.ShowsSome s) (hC : C.ClaimsAtMost t) (sameP : P'.Same P s)
    (sameC : C'.SameUntil C t count) :
    wordBulkPipeAtMost w P' C' s t count = bulkPipeAtMost P C s t count := by
  refine loop_agree (fun x => x.2.2 ≤ count ∧ ∃ handed shown slots, handed.length = x.2.2 ∧
    ProducerRuns P s handed x.1 shown none ∧ ConsumerRuns C t handed x.2.1 slots none) ?_
    ⟨Nat.zero_le _, [], [], [], rfl, .start, .start⟩
  rintro ⟨s', t', piped⟩ ⟨hle, handed, shown, slots, hlen, hr, hc⟩
  simp only at hle hlen hr hc
  simp only [wordBulkPipeAtMostBody, bulkPipeAtMostBody]
  by_cases hlt : piped < count
  · have hsC := sameC _ _ _ hc (by omega)
    simp only [if_pos hlt, (sameP _ _ _ hr).expose, hsC.close]
    rcases hp : P.exposeItems s' with ⟨s'', e | xs | f⟩ | _ | _
    · exact ⟨rfl, by intro y hy; simp at hy⟩
    · have hxs : xs ≠ [] := by rintro rfl; exact hP _ _ _ _ hr hp
      have hpos := List.length_pos_iff.mpr hxs
      have hr' := hr.call (op := .exposeItems) (s' := s'') (r := ⟨[], xs, none⟩) trivial (by simp [BulkProducer.call, hp])
      have hne : xs.take (min (count - piped) xs.length) ≠ [] := by
        rw [← List.length_pos_iff, List.length_take]; omega
      simp only [bind_eq, bind_ok]
      rw [Word.sub_ok (by omega)]
      simp only [bind_ok]
      rw [slice_of_le (Nat.zero_le _) (Nat.min_le_right _ _), List.drop_zero]
      simp only [bind_ok, hsC.bulkConsume _ hne]
      rcases hb : C.bulkConsume t' (xs.take (min (count - piped) xs.length)) with ⟨t'', e | k⟩ | _ | _
      · exact ⟨rfl, by intro y hy; simp at hy⟩
      · have hk := hC _ _ _ _ _ _ hc hne hb
        rw [List.length_take] at hk
        have hkx : k ≤ xs.length := by omega
        simp only [bind_ok, (sameP _ _ _ hr').consider k hkx]
        rcases hq : P.considerProduced s'' k with ⟨s''', e | _⟩ | _ | _
        · exact ⟨rfl, by intro y hy; simp at hy⟩
        · simp only [bind_ok]
          rw [Word.add_ok (by omega)]
          refine ⟨rfl, ?_⟩
          intro y hy
          simp at hy
          subst hy
          have h1 := hr'.call (op := .considerProduced k) (s' := s''') (r := ⟨xs.take k, xs.drop k, none⟩) ⟨hxs, hkx⟩
            (by simp [BulkProducer.call, hq])
          have h2 := hc.call (op := .bulkConsume (xs.take (min (count - piped) xs.length))) (s' := t'')
            (r := ⟨xs.take k, [], none⟩) hne (by
              simp only [BulkConsumer.call, hb, bind_ok]
              rw [List.take_take, Nat.min_eq_left (by omega)])
          refine ⟨by simp only; omega, handed ++ xs.take k, xs.drop k, [], by simp; omega, ?_, h2⟩
          simpa using h1
        · exact ⟨rfl, by intro y hy; simp at hy⟩
        · exact ⟨rfl, by intro y hy; simp at hy⟩
      · exact ⟨rfl, by intro y hy; simp at hy⟩
      · exact ⟨rfl, by intro y hy; simp at hy⟩
    · refine ⟨rfl, ?_⟩
      intro y hy
      rcases hx : C.close t' f with ⟨t'', e | _⟩ | _ | _ <;> simp [hx] at hy
    · exact ⟨rfl, by intro y hy; simp at hy⟩
    · exact ⟨rfl, by intro y hy; simp at hy⟩
  · simp [hlt]

example : wordBulkPipeAtMost .checked64 Case.P Case.C (Case.pro (.ok ())) (Case.con 4) 2 =
    bulkPipeAtMost Case.P Case.C (Case.pro (.ok ())) (Case.con 4) 2 :=
  word_bulk_pipe_at_most _ (by decide) (Case.plays _).showsSome (Case.collects 4).claimsAtMost (BulkProducer.Same.refl _ _)
    ((BulkConsumer.Same.refl _ _).until _)

/-- `pipe` computes nothing; but the producer and the consumer may. `N` bounds the number of items. -/
theorem word_pipe {P' P : BulkProducer σ I F E₁} {C' C : BulkConsumer τ I F E₂} {s : σ} {t : τ} {N : Nat}
    (hN : ∀ handed s' shown, ProducerRuns P s handed s' shown none → handed.length ≤ N) (sameP : P'.Same P s)
    (sameC : C'.SameUntil C t N) :
    pipe P'.toProducer C'.toConsumer s t = pipe P.toProducer C.toConsumer s t := by
  refine loop_agree (fun x => ∃ handed shown slots, ProducerRuns P s handed x.1 shown none ∧
    ConsumerRuns C t handed x.2 slots none) ?_ ⟨[], [], [], .start, .start⟩
  rintro ⟨s', t'⟩ ⟨handed, shown, slots, hr, hc⟩
  simp only at hr hc
  simp only [pipeBody]
  have hsC := sameC _ _ _ hc (hN _ _ _ hr)
  simp only [(sameP _ _ _ hr).produce, hsC.consume, hsC.close]
  refine ⟨trivial, ?_⟩
  intro y hy
  rcases hp : P.produce s' with ⟨s'', e | x | f⟩ | _ | _
  · simp [hp] at hy
  · rcases hx : C.consume t' x with ⟨t'', e | _⟩ | _ | _
    · simp [hp, hx] at hy
    · simp [hp, hx] at hy
      subst hy
      have h1 := hr.call (op := .produce) (s' := s'') (r := ⟨[x], [], none⟩) trivial (by simp [BulkProducer.call, hp])
      have h2 := hc.call (op := .consume x) (s' := t'') (r := ⟨[x], [], none⟩) trivial (by simp [BulkConsumer.call, hx])
      exact ⟨_, _, _, h1, h2⟩
    · simp [hp, hx] at hy
    · simp [hp, hx] at hy
  · rcases hx : C.close t' f with ⟨t'', e | _⟩ | _ | _ <;> simp [hp, hx] at hy
  · simp [hp] at hy
  · simp [hp] at hy

/-- The same for `bulk_pipe`. -/
theorem word_bulk_pipe {P' P : BulkProducer σ I F E₁} {C' C : BulkConsumer τ I F E₂} {s : σ} {t : τ} {N : Nat}
    (hN : ∀ handed s' shown, ProducerRuns P s handed s' shown none → handed.length ≤ N)
    (hP : P.ShowsSome s) (hC : C.ClaimsAtMost t) (sameP : P'.Same P s)
    (sameC : C'.SameUntil C t N) :
    bulkPipe P' C' s t = bulkPipe P C s t := by
  refine loop_agree (fun x => ∃ handed shown slots, ProducerRuns P s handed x.1 shown none ∧
    ConsumerRuns C t handed x.2 slots none) ?_ ⟨[], [], [], .start, .start⟩
  rintro ⟨s', t'⟩ ⟨handed, shown, slots, hr, hc⟩
  simp only at hr hc
  simp only [bulkPipeBody]
  have hsC := sameC _ _ _ hc (hN _ _ _ hr)
  simp only [(sameP _ _ _ hr).expose, hsC.close]
  rcases hp : P.exposeItems s' with ⟨s'', e | xs | f⟩ | _ | _
  · exact ⟨rfl, by intro y hy; simp at hy⟩
  · have hxs : xs ≠ [] := by rintro rfl; exact hP _ _ _ _ hr hp
    have hr' := hr.call (op := .exposeItems) (s' := s'') (r := ⟨[], xs, none⟩) trivial (by simp [BulkProducer.call, hp])
    simp only [bind_eq, bind_ok, hsC.bulkConsume _ hxs]
    rcases hb : C.bulkConsume t' xs with ⟨t'', e | k⟩ | _ | _
    · exact ⟨rfl, by intro y hy; simp at hy⟩
    · have hk := hC _ _ _ _ _ _ hc hxs hb
      simp only [bind_ok, (sameP _ _ _ hr').consider k hk]
      rcases hq : P.considerProduced s'' k with ⟨s''', e | _⟩ | _ | _
      · exact ⟨trivial, by intro y hy; simp at hy⟩
      · refine ⟨trivial, ?_⟩
        intro y hy
        simp at hy
        subst hy
        have h1 := hr'.call (op := .considerProduced k) (s' := s''') (r := ⟨xs.take k, xs.drop k, none⟩) ⟨hxs, hk⟩
          (by simp [BulkProducer.call, hq])
        have h2 := hc.call (op := .bulkConsume xs) (s' := t'') (r := ⟨xs.take k, [], none⟩) hxs (by simp [BulkConsumer.call, hb])
        exact ⟨handed ++ xs.take k, xs.drop k, [], by simpa using h1, h2⟩
      · exact ⟨trivial, by intro y hy; simp at hy⟩
      · exact ⟨trivial, by intro y hy; simp at hy⟩
    · exact ⟨rfl, by intro y hy; simp at hy⟩
    · exact ⟨rfl, by intro y hy; simp at hy⟩
  · refine ⟨rfl, ?_⟩
    intro y hy
    rcases hx : C.close t' f with ⟨t'', e | _⟩ | _ | _ <;> simp [hx] at hy
  · exact ⟨rfl, by intro y hy; simp at hy⟩
  · exact ⟨rfl, by intro y hy; simp at hy⟩

end

end Verif
