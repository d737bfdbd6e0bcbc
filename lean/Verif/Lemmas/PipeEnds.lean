import Verif.Props.PipeAtMost
import Verif.Props.FullSlice
import Verif.Lemmas.Proptest
import Verif.Lemmas.ProducerScrambler

/-!
# The last round of the bulk loops

For the end states of the bulk functions, it suffices to look at the round in which the loop ended.
-/

namespace Verif

open Outcome

section

variable {σ τ I F E₁ E₂ : Type} {P : BulkProducer σ I F E₁} {C : BulkConsumer τ I F E₂} {R : σ → Script I F E₁ → Nat → Prop}
  {D : τ → List I → Option F → Prop} {q : Policy I F E₂} {S : τ → List I → List I → Prop}

/-- What one round of a bulk pipe that goes on looks like. -/
theorem bulkPipe_continue (hP : BulkPlaysLaw P R) (hC : BulkCollectsLaw C D q S) {c : Script I F E₁} {s s' : σ} {t t' : τ}
    {l sl : List I} {n : Nat} (hs : R s c n) (ht : S t l sl) (h : bulkPipeBody P C (s, t) = ok (.continue (s', t'))) :
    ∃ ys m sl', c.StartsWith ys ∧ q.Accepts l ys ∧ R s' (c.drop ys.length) m ∧ S t' (l ++ ys) sl' := by
  obtain ⟨s1, ⟨xs, hne, hsw, hex, hR1⟩ | ⟨f, hf, hex⟩ | ⟨e, he, hex⟩⟩ := hP.expose s c n hs
  · obtain ⟨t1, ⟨k, hk0, hkl, hacc, hbc, slots', hS'⟩ | ⟨i, e, hf, hbc, hD⟩⟩ := hC.bulkConsume t l sl xs ht hne
    · obtain ⟨s2, hcp, hR2⟩ := hP.consider s1 c xs.length k hR1 (List.length_pos_iff.mpr hne) hkl
      have hlen : (xs.take k).length = k := by simp; omega
      simp [bulkPipeBody, hex, hbc, hcp] at h
      obtain ⟨rfl, rfl⟩ := h
      exact ⟨xs.take k, _, slots', hsw.take k, hacc, by rw [hlen]; exact hR2, hS'⟩
    · simp [bulkPipeBody, hex, hbc] at h
  · rcases hcl : C.close t f with ⟨t2, e | u⟩ | _ | _ <;> simp [bulkPipeBody, hex, hcl] at h
  · simp [bulkPipeBody, hex] at h

theorem bulkPipe_last (hP : BulkPlaysLaw P R) (hC : BulkCollectsLaw C D q S) {c : Script I F E₁} {s : σ} {t : τ}
    {l sl : List I} {n : Nat} {r} (hs : R s c n) (ht : S t l sl) (h : bulkPipe P C s t = ok r) :
    ∃ ys s₁ t₁ m sl', c.StartsWith ys ∧ q.Accepts l ys ∧ R s₁ (c.drop ys.length) m ∧ S t₁ (l ++ ys) sl' ∧
      bulkPipeBody P C (s₁, t₁) = ok (.done r) := by
  refine loop_keeps (body := bulkPipeBody P C)
    (fun st => ∃ ys m sl', c.StartsWith ys ∧ q.Accepts l ys ∧ R st.1 (c.drop ys.length) m ∧ S st.2 (l ++ ys) sl')
    (fun r => ∃ ys s₁ t₁ m sl', c.StartsWith ys ∧ q.Accepts l ys ∧ R s₁ (c.drop ys.length) m ∧ S t₁ (l ++ ys) sl' ∧
      bulkPipeBody P C (s₁, t₁) = ok (.done r)) ?_ ?_ ⟨[], n, sl, by simp, by simp, by simpa using hs, by simpa using ht⟩ h
  · rintro ⟨s, t⟩ ⟨s', t'⟩ ⟨ys, m, sl', h1, h2, h3, h4⟩ hb
    obtain ⟨zs, m', sl'', h5, h6, h7, h8⟩ := bulkPipe_continue hP hC h3 h4 hb
    exact ⟨ys ++ zs, m', sl'', h1.append h5, Policy.accepts_append.mpr ⟨h2, h6⟩,
      by rw [List.length_append, ← Script.drop_drop]; exact h7, by rw [← List.append_assoc]; exact h8⟩
  · rintro ⟨s, t⟩ r ⟨ys, m, sl', h1, h2, h3, h4⟩ hb
    exact ⟨ys, s, t, m, sl', h1, h2, h3, h4, hb⟩

theorem bulkPipeAtMost_continue (hP : BulkPlaysLaw P R) (hC : BulkCollectsLaw C D q S) {c : Script I F E₁} {s s' : σ}
    {t t' : τ} {l sl : List I} {n count i i' : Nat} (hs : R s c n) (ht : S t l sl)
    (h : bulkPipeAtMostBody P C count (s, t, i) = ok (.continue (s', t', i'))) :
    ∃ ys m sl', c.StartsWith ys ∧ q.Accepts l ys ∧ R s' (c.drop ys.length) m ∧ S t' (l ++ ys) sl' ∧ i' = i + ys.length ∧
      i' ≤ count := by
  by_cases hlt : i < count
  · obtain ⟨s1, ⟨xs, hne, hsw, hex, hR1⟩ | ⟨f, hf, hex⟩ | ⟨e, he, hex⟩⟩ := hP.expose s c n hs
    · have hpos := List.length_pos_iff.mpr hne
      generalize hm : min (count - i) xs.length = m
      have hm' : m ≤ count - i ∧ m ≤ xs.length ∧ 0 < m := by omega
      have hlen : (xs.take m).length = m := by simp; omega
      have hne2 : xs.take m ≠ [] := by intro h0; rw [h0] at hlen; simp at hlen; omega
      obtain ⟨t1, ⟨k, hk0, hkl, hacc, hbc, slots', hS'⟩ | ⟨j, e, hf, hbc, hD⟩⟩ :=
        hC.bulkConsume t l sl (xs.take m) ht hne2
      · rw [hlen] at hkl
        obtain ⟨s2, hcp, hR2⟩ := hP.consider s1 c xs.length k hR1 hpos (by omega)
        have htk : (xs.take m).take k = xs.take k := by rw [List.take_take, Nat.min_eq_left hkl]
        rw [htk] at hacc hS'
        have hlenk : (xs.take k).length = k := by simp; omega
        simp [bulkPipeAtMostBody, hlt, hex, hm, hbc, hcp] at h
        obtain ⟨rfl, rfl, rfl⟩ := h
        exact ⟨xs.take k, _, slots', hsw.take k, hacc, by rw [hlenk]; exact hR2, hS', by omega, by omega⟩
      · simp [bulkPipeAtMostBody, hlt, hex, hm, hbc] at h
    · rcases hcl : C.close t f with ⟨t2, e | u⟩ | _ | _ <;> simp [bulkPipeAtMostBody, hlt, hex, hcl] at h
    · simp [bulkPipeAtMostBody, hlt, hex] at h
  · simp [bulkPipeAtMostBody, hlt] at h

theorem bulkPipeAtMost_last (hP : BulkPlaysLaw P R) (hC : BulkCollectsLaw C D q S) {c : Script I F E₁} {s : σ} {t : τ}
    {l sl : List I} {n count : Nat} {r} (hs : R s c n) (ht : S t l sl) (h : bulkPipeAtMost P C s t count = ok r) :
    ∃ ys s₁ t₁ m sl', c.StartsWith ys ∧ q.Accepts l ys ∧ R s₁ (c.drop ys.length) m ∧ S t₁ (l ++ ys) sl' ∧
      ys.length ≤ count ∧ bulkPipeAtMostBody P C count (s₁, t₁, ys.length) = ok (.done r) := by
  refine loop_keeps (body := bulkPipeAtMostBody P C count)
    (fun st => ∃ ys m sl', c.StartsWith ys ∧ q.Accepts l ys ∧ R st.1 (c.drop ys.length) m ∧ S st.2.1 (l ++ ys) sl' ∧
      st.2.2 = ys.length ∧ ys.length ≤ count)
    (fun r => ∃ ys s₁ t₁ m sl', c.StartsWith ys ∧ q.Accepts l ys ∧ R s₁ (c.drop ys.length) m ∧ S t₁ (l ++ ys) sl' ∧
      ys.length ≤ count ∧ bulkPipeAtMostBody P C count (s₁, t₁, ys.length) = ok (.done r)) ?_ ?_
    ⟨[], n, sl, by simp, by simp, by simpa using hs, by simpa using ht, rfl, by simp⟩ h
  · rintro ⟨s, t, i⟩ ⟨s', t', i'⟩ ⟨ys, m, sl', h1, h2, h3, h4, h0, h9⟩ hb
    simp only at h0
    obtain ⟨zs, m', sl'', h5, h6, h7, h8, h10, h11⟩ := bulkPipeAtMost_continue hP hC h3 h4 hb
    exact ⟨ys ++ zs, m', sl'', h1.append h5, Policy.accepts_append.mpr ⟨h2, h6⟩,
      by rw [List.length_append, ← Script.drop_drop]; exact h7, by rw [← List.append_assoc]; exact h8,
      by simp only [List.length_append]; omega, by simp only [List.length_append]; omega⟩
  · rintro ⟨s, t, i⟩ r ⟨ys, m, sl', h1, h2, h3, h4, h0, h9⟩ hb
    simp only at h0
    subst h0
    exact ⟨ys, s, t, m, sl', h1, h2, h3, h4, h9, hb⟩

/-- The last call of `bulk_overwrite_full_slice`. -/
theorem bulkOverwrite_last (hP : BulkPlaysLaw P R) {c : Script I F E₁} {s s' : σ} {n : Nat} {buf out : List I} {e}
    (hs : R s c n) (h : bulkOverwriteFullSlice P s buf = ok (s', .error e, out)) :
    ∃ s₁ j m buf₁ buf₂ r, R s₁ (c.drop j) m ∧ buf₁ ≠ [] ∧ P.bulkProduce s₁ buf₁ = ok (s', r, buf₂) ∧ ∀ k, r ≠ .ok (.inl k) := by
  refine loop_keeps (body := bulkOverwriteFullSliceBody P)
    (fun st => ∃ j m, R st.1 (c.drop j) m)
    (fun res => ∀ e, res.2.1 = .error e → ∃ s₁ j m buf₁ buf₂ r, R s₁ (c.drop j) m ∧ buf₁ ≠ [] ∧
      P.bulkProduce s₁ buf₁ = ok (res.1, r, buf₂) ∧ ∀ k, r ≠ .ok (.inl k)) ?_ ?_ ⟨0, n, by simpa using hs⟩ h e rfl
  · rintro ⟨s, buf, k⟩ ⟨s', buf', k'⟩ ⟨j, m, hR⟩ hb
    simp only [bulkOverwriteFullSliceBody] at hb
    split at hb
    · rename_i hlt
      have hne : buf.drop k ≠ [] := by
        intro h0; have := congrArg List.length h0; simp at this; omega
      obtain ⟨s1, buf1, hlen, ⟨i, hi0, hil, hbp, hsw, hR'⟩ | ⟨f, hf, hbp⟩ | ⟨e, he, hbp⟩⟩ := hP.bulkProduce s _ m _ hR hne
      · simp [hbp] at hb
        obtain ⟨rfl, _⟩ := hb
        obtain ⟨m', hR'⟩ := hR'
        exact ⟨j + i, m', by rw [← Script.drop_drop]; exact hR'⟩
      · simp [hbp] at hb
      · simp [hbp] at hb
    · simp at hb
  · rintro ⟨s, buf, k⟩ ⟨s', r, out⟩ ⟨j, m, hR⟩ hb e he
    simp only at he
    subst he
    simp only [bulkOverwriteFullSliceBody] at hb
    split at hb
    · rename_i hlt
      have hne : buf.drop k ≠ [] := by
        intro h0; have := congrArg List.length h0; simp at this; omega
      obtain ⟨s1, buf1, hlen, ⟨i, hi0, hil, hbp, hsw, hR'⟩ | ⟨f, hf, hbp⟩ | ⟨e, he, hbp⟩⟩ := hP.bulkProduce s _ m _ hR hne
      · simp [hbp] at hb
      · simp [hbp] at hb
        obtain ⟨rfl, _⟩ := hb
        exact ⟨s, j, m, _, _, _, hR, hne, hbp, by simp⟩
      · simp [hbp] at hb
        obtain ⟨rfl, _⟩ := hb
        exact ⟨s, j, m, _, _, _, hR, hne, hbp, by simp⟩
    · simp at hb

/-- `Failed` holds of consumers that have reported an error. -/
structure FailsIn (C : BulkConsumer τ I F E₂) (S : τ → List I → List I → Prop) (Failed : τ → Prop) : Prop where
  consume : ∀ t l sl x t' e, S t l sl → C.consume t x = ok (t', .error e) → Failed t'
  close : ∀ t l sl f t' e, S t l sl → C.close t f = ok (t', .error e) → Failed t'
  bulkConsume : ∀ t l sl buf t' e, S t l sl → buf ≠ [] → C.bulkConsume t buf = ok (t', .error e) → Failed t'

theorem FailsIn.trivial (C : BulkConsumer τ I F E₂) (S : τ → List I → List I → Prop) : FailsIn C S (fun _ => True) :=
  ⟨fun _ _ _ _ _ _ _ _ => True.intro, fun _ _ _ _ _ _ _ _ => True.intro, fun _ _ _ _ _ _ _ _ _ => True.intro⟩

/-- How the sides are left by a bulk pipe that has moved `xs`. -/
structure PipeEnd (R : σ → Script I F E₁ → Nat → Prop) (Done : σ → Prop) (S : τ → List I → List I → Prop)
    (Failed : τ → Prop) (c : Script I F E₁) (l xs : List I) (exact : Prop) (s : σ) (t : τ)
    (res : Except (PipeError E₁ E₂) Unit) : Prop where
  failed : ∀ e, res = .error (.consumer e) → Failed t
  stillOpen : ∀ e, res = .error (.producer e) → ∃ sl, S t (l ++ xs) sl
  done : (∀ x, c xs.length ≠ .ok (.inl x)) → Done s
  going : ∀ x, c xs.length = .ok (.inl x) → ∃ j m, j ≤ xs.length ∧ R s (c.drop j) m ∧ (exact → j = xs.length)

theorem bulkPipe_ends {Done : σ → Prop} {Failed : τ → Prop} (hP : BulkPlaysLaw P R) (hE : EndsIn P R Done)
    (hC : BulkCollectsLaw C D q S) (hF : FailsIn C S Failed) {c : Script I F E₁} {s s' : σ} {t t' : τ} {l sl : List I} {n : Nat}
    {res : Except (PipeError E₁ E₂) Unit} (hs : R s c n) (ht : S t l sl) (h : bulkPipe P C s t = ok ((s', t'), res)) :
    ∃ xs fin, PipeResult c q l xs fin res ∧ D t' (l ++ xs) fin ∧
      PipeEnd R Done S Failed c l xs (AllOrFirst C q S) s' t' res := by
  obtain ⟨ys, s₁, t₁, m, sl', h1, h2, h3, h4, hb⟩ := bulkPipe_last hP hC hs ht h
  have hC' := hC.base.toCollectsLaw
  obtain ⟨s1, ⟨xs, hne, hsw, hex, hR1⟩ | ⟨f, hf, hex⟩ | ⟨e, he, hex⟩⟩ := hP.expose s₁ _ m h3
  · obtain ⟨t1, ⟨k, hk0, hkl, hacc, hbc, slots', hS'⟩ | ⟨i, e, hf, hbc, hD⟩⟩ := hC.bulkConsume t₁ _ sl' xs h4 hne
    · obtain ⟨s2, hcp, hR2⟩ := hP.consider s1 _ xs.length k hR1 (List.length_pos_iff.mpr hne) hkl
      simp [bulkPipeBody, hex, hbc, hcp] at hb
    · simp [bulkPipeBody, hex, hbc] at hb
      obtain ⟨⟨rfl, rfl⟩, rfl⟩ := hb
      have hlt := hf.lt
      have hf' := hf
      obtain ⟨hacc, x, hx, hq⟩ := hf
      have hlen : (xs.take i).length = i := by simp; omega
      have hcx : c (ys ++ xs.take i).length = .ok (.inl x) := by
        rw [List.length_append, hlen]; exact hsw i x hx
      refine ⟨ys ++ xs.take i, none, .itemRefused (h1.append (hsw.take i)) (Policy.accepts_append.mpr ⟨h2, hacc⟩) hcx
        (by rw [← List.append_assoc]; exact hq), by rw [← List.append_assoc]; exact hD, ?_, by simp, ?_, ?_⟩
      · intro _ _; exact hF.bulkConsume _ _ _ _ _ _ h4 hne hbc
      · intro h0; exact absurd hcx (h0 x)
      · intro _ _
        refine ⟨ys.length, xs.length, by simp, hR1, fun hex => ?_⟩
        obtain ⟨y, zs, rfl, hy⟩ := hex _ _ _ _ _ _ h4 hne hbc
        have hi0 : i = 0 := by
          rcases Nat.eq_zero_or_pos i with h0 | h0
          · exact h0
          · have := hacc 0 y (by rw [List.getElem?_take_of_lt h0]; rfl)
            simp only [List.take_zero, List.append_nil] at this
            rw [hy] at this; cases this
        simp [hi0]
  · simp only [Script.drop_apply, Nat.add_zero] at hf
    cases hq : q.refuseClose (l ++ ys) f with
    | none =>
      obtain ⟨t1, hcl, hD⟩ := hC'.close_ok t₁ _ f ⟨_, h4⟩ hq
      simp [bulkPipeBody, hex, show C.close t₁ f = _ from hcl] at hb
      obtain ⟨⟨rfl, rfl⟩, rfl⟩ := hb
      exact ⟨ys, some f, .closed h1 h2 hf hq, hD, by simp, by simp,
        fun _ => hE.expose _ _ _ _ _ h3 hex (by simp), by simp [hf]⟩
    | some e =>
      obtain ⟨t1, hcl, hD⟩ := hC'.close_err t₁ _ f e ⟨_, h4⟩ hq
      simp [bulkPipeBody, hex, show C.close t₁ f = _ from hcl] at hb
      obtain ⟨⟨rfl, rfl⟩, rfl⟩ := hb
      exact ⟨ys, none, .closeRefused h1 h2 hf hq, hD, fun _ _ => hF.close _ _ _ _ _ _ h4 hcl, by simp,
        fun _ => hE.expose _ _ _ _ _ h3 hex (by simp), by simp [hf]⟩
  · simp only [Script.drop_apply, Nat.add_zero] at he
    simp [bulkPipeBody, hex] at hb
    obtain ⟨⟨rfl, rfl⟩, rfl⟩ := hb
    exact ⟨ys, none, .producerFailed h1 h2 he, hC'.observe _ _ ⟨_, h4⟩, by simp, fun _ _ => ⟨_, h4⟩,
      fun _ => hE.expose _ _ _ _ _ h3 hex (by simp), by simp [he]⟩

theorem bulkPipeAtMost_ends {Done : σ → Prop} {Failed : τ → Prop} (hP : BulkPlaysLaw P R) (hE : EndsIn P R Done)
    (hC : BulkCollectsLaw C D q S) (hF : FailsIn C S Failed) {c : Script I F E₁} {s s' : σ} {t t' : τ} {l sl : List I}
    {n count : Nat} {res : Except (PipeError E₁ E₂) Nat} (hs : R s c n) (ht : S t l sl)
    (h : bulkPipeAtMost P C s t count = ok ((s', t'), res)) :
    (∃ xs, xs.length = count ∧ res = .ok count ∧ c.StartsWith xs ∧ q.Accepts l xs ∧ (∃ m, R s' (c.drop count) m) ∧
      ∃ sl, S t' (l ++ xs) sl) ∨
    (∃ xs fin res', xs.length < count ∧ PipeResult c q l xs fin res' ∧ res = res'.map (fun _ => xs.length) ∧
      D t' (l ++ xs) fin ∧ PipeEnd R Done S Failed c l xs (AllOrFirst C q S) s' t' res') := by
  obtain ⟨ys, s₁, t₁, m, sl', h1, h2, h3, h4, hle, hb⟩ := bulkPipeAtMost_last hP hC hs ht h
  have hC' := hC.base.toCollectsLaw
  rcases Classical.em (¬ ys.length < count) with hlt | hlt
  · left
    simp [bulkPipeAtMostBody, hlt] at hb
    obtain ⟨⟨rfl, rfl⟩, rfl⟩ := hb
    have : ys.length = count := by omega
    exact ⟨ys, this, by rw [this], h1, h2, ⟨m, by rw [← this]; exact h3⟩, _, h4⟩
  replace hlt := Classical.not_not.mp hlt
  right
  obtain ⟨s1, ⟨xs, hne, hsw, hex, hR1⟩ | ⟨f, hf, hex⟩ | ⟨e, he, hex⟩⟩ := hP.expose s₁ _ m h3
  · have hpos := List.length_pos_iff.mpr hne
    generalize hm : min (count - ys.length) xs.length = k at hb
    have hm' : k ≤ count - ys.length ∧ k ≤ xs.length ∧ 0 < k := by omega
    have hlen : (xs.take k).length = k := by simp; omega
    have hne2 : xs.take k ≠ [] := by intro h0; rw [h0] at hlen; simp at hlen; omega
    obtain ⟨t1, ⟨i, hk0, hkl, hacc, hbc, slots', hS'⟩ | ⟨i, e, hf, hbc, hD⟩⟩ := hC.bulkConsume t₁ _ sl' (xs.take k) h4 hne2
    · obtain ⟨s2, hcp, hR2⟩ := hP.consider s1 _ xs.length i hR1 hpos (by omega)
      simp [bulkPipeAtMostBody, hlt, hex, hm, hbc, hcp] at hb
    · simp [bulkPipeAtMostBody, hlt, hex, hm, hbc] at hb
      obtain ⟨⟨rfl, rfl⟩, rfl⟩ := hb
      have hilt := hf.lt
      rw [hlen] at hilt
      have htk : (xs.take k).take i = xs.take i := by rw [List.take_take, Nat.min_eq_left (by omega)]
      rw [htk] at hD
      obtain ⟨hacc, x, hx, hq⟩ := hf.of_take
      have hleni : (xs.take i).length = i := by simp; omega
      have hcx : c (ys ++ xs.take i).length = .ok (.inl x) := by
        rw [List.length_append, hleni]; exact hsw i x hx
      refine ⟨ys ++ xs.take i, none, .error (.consumer e), by simp; omega,
        .itemRefused (h1.append (hsw.take i)) (Policy.accepts_append.mpr ⟨h2, hacc⟩) hcx
        (by rw [← List.append_assoc]; exact hq), by simp [Except.map], by rw [← List.append_assoc]; exact hD, ?_, by simp, ?_, ?_⟩
      · intro _ _; exact hF.bulkConsume _ _ _ _ _ _ h4 hne2 hbc
      · intro h0; exact absurd hcx (h0 x)
      · intro _ _
        refine ⟨ys.length, xs.length, by simp, hR1, fun hex => ?_⟩
        obtain ⟨y, zs, hyz, hy⟩ := hex _ _ _ _ _ _ h4 hne2 hbc
        have hi0 : i = 0 := by
          rcases Nat.eq_zero_or_pos i with h0 | h0
          · exact h0
          · have := hacc 0 y (by
              rw [List.getElem?_take_of_lt h0]
              have h9 : (xs.take k)[0]? = some y := by rw [hyz]; rfl
              rwa [List.getElem?_take_of_lt hm'.2.2] at h9)
            simp only [List.take_zero, List.append_nil] at this
            rw [hy] at this; cases this
        simp [hi0]
  · simp only [Script.drop_apply, Nat.add_zero] at hf
    cases hq : q.refuseClose (l ++ ys) f with
    | none =>
      obtain ⟨t1, hcl, hD⟩ := hC'.close_ok t₁ _ f ⟨_, h4⟩ hq
      simp [bulkPipeAtMostBody, hlt, hex, show C.close t₁ f = _ from hcl] at hb
      obtain ⟨⟨rfl, rfl⟩, rfl⟩ := hb
      exact ⟨ys, some f, .ok (), hlt, .closed h1 h2 hf hq, by simp [Except.map], hD, by simp, by simp,
        fun _ => hE.expose _ _ _ _ _ h3 hex (by simp), by simp [hf]⟩
    | some e =>
      obtain ⟨t1, hcl, hD⟩ := hC'.close_err t₁ _ f e ⟨_, h4⟩ hq
      simp [bulkPipeAtMostBody, hlt, hex, show C.close t₁ f = _ from hcl] at hb
      obtain ⟨⟨rfl, rfl⟩, rfl⟩ := hb
      exact ⟨ys, none, .error (.consumer e), hlt, .closeRefused h1 h2 hf hq, by simp [Except.map], hD,
        fun _ _ => hF.close _ _ _ _ _ _ h4 hcl, by simp,
        fun _ => hE.expose _ _ _ _ _ h3 hex (by simp), by simp [hf]⟩
  · simp only [Script.drop_apply, Nat.add_zero] at he
    simp [bulkPipeAtMostBody, hlt, hex] at hb
    obtain ⟨⟨rfl, rfl⟩, rfl⟩ := hb
    exact ⟨ys, none, .error (.producer e), hlt, .producerFailed h1 h2 he, by simp [Except.map], hC'.observe _ _ ⟨_, h4⟩,
      by simp, fun _ _ => ⟨_, h4⟩, fun _ => hE.expose _ _ _ _ _ h3 hex (by simp), by simp [he]⟩

end

section

variable {σ I F E : Type}

theorem PlaysLaw.emits {P : Producer σ I F E} {R : σ → Script I F E → Prop} (hP : PlaysLaw P R) {s : σ} {c : Script I F E}
    (h : R s c) {xs : List I} (hxs : c.StartsWith xs) : ∃ s', Emits P s xs s' ∧ R s' (c.drop xs.length) := by
  induction xs generalizing s c with
  | nil => exact ⟨s, .nil s, by simpa using h⟩
  | cons x xs ih =>
    rw [Script.startsWith_cons] at hxs
    obtain ⟨s1, h1, h2⟩ := hP.produce s c h
    obtain ⟨s2, h3, h4⟩ := ih (h2 x hxs.1) hxs.2
    exact ⟨s2, .cons (by rw [h1, hxs.1]) h3, by simpa [Nat.add_comm] using h4⟩

theorem CollectsLaw.consumes {C : Consumer σ I F E} {D : σ → List I → Option F → Prop} {q : Policy I F E} {S : σ → List I → Prop}
    (hC : CollectsLaw C D q S) {s : σ} {l : List I} (h : S s l) {xs : List I} (hxs : q.Accepts l xs) :
    ∃ s', Consumes C s xs s' ∧ S s' (l ++ xs) := by
  induction xs generalizing s l with
  | nil => exact ⟨s, .nil s, by simpa using h⟩
  | cons x xs ih =>
    rw [Policy.accepts_cons] at hxs
    obtain ⟨s1, h1, h2⟩ := hC.consume_ok s l x h hxs.1
    obtain ⟨s2, h3, h4⟩ := ih h2 hxs.2
    exact ⟨s2, .cons h1 h3, by simpa using h4⟩

end

section

variable {σ τ I F E₁ E₂ : Type} {P : BulkProducer σ I F E₁} {C : BulkConsumer τ I F E₂} {R : σ → Script I F E₁ → Nat → Prop}
  {D : τ → List I → Option F → Prop} {q : Policy I F E₂} {S : τ → List I → List I → Prop}

/-- How the sides are left by an item-wise pipe that has moved `xs`. -/
structure ItemPipeEnd (R : σ → Script I F E₁ → Nat → Prop) (Done : σ → Prop) (S : τ → List I → List I → Prop)
    (Failed : τ → Prop) (c : Script I F E₁) (l xs : List I) (s : σ) (t : τ) (res : Except (PipeError E₁ E₂) Unit) : Prop where
  failed : ∀ e, res = .error (.consumer e) → Failed t
  stillOpen : ∀ e, res = .error (.producer e) → ∃ sl, S t (l ++ xs) sl
  done : (∀ x, c xs.length ≠ .ok (.inl x)) → Done s
  going : ∀ x, c xs.length = .ok (.inl x) → ∃ m, R s (c.drop (xs.length + 1)) m

/-- The step after the moved items. -/
theorem itemPipe_end {Done : σ → Prop} {Failed : τ → Prop} (hP : BulkPlaysLaw P R) (hE : EndsIn P R Done)
    (hC : BulkCollectsLaw C D q S) (hF : FailsIn C S Failed) {c : Script I F E₁} {s : σ} {t : τ} {l sl xs : List I} {n : Nat}
    {fin : Option F} {res : Except (PipeError E₁ E₂) Unit} (hs : R s (c.drop xs.length) n) (ht : S t (l ++ xs) sl)
    (h : PipeResult c q l xs fin res) :
    ∃ s' t', pipeBody P.toProducer C.toConsumer (s, t) = ok (.done ((s', t'), res)) ∧ D t' (l ++ xs) fin ∧
      ItemPipeEnd R Done S Failed c l xs s' t' res := by
  have hC' := hC.base.toCollectsLaw
  obtain ⟨s', hp, hnext⟩ := hP.base.produce _ _ ⟨n, hs⟩
  simp only [Script.drop_apply, Nat.add_zero, Script.drop_drop] at hp hnext
  have hp' : P.produce s = ok (s', c xs.length) := hp
  have hdone : (∀ x, c xs.length ≠ .ok (.inl x)) → Done s' := hE.produce _ _ _ _ _ hs hp'
  cases h with
  | closed _ _ hc hq =>
    obtain ⟨t', hcl, hD⟩ := hC'.close_ok t _ _ ⟨_, ht⟩ hq
    exact ⟨s', t', by simp [pipeBody, hp', hc, show C.close t _ = _ from hcl], hD, by simp, by simp, hdone, hnext⟩
  | closeRefused _ _ hc hq =>
    obtain ⟨t', hcl, hD⟩ := hC'.close_err t _ _ _ ⟨_, ht⟩ hq
    exact ⟨s', t', by simp [pipeBody, hp', hc, show C.close t _ = _ from hcl], hD,
      fun _ _ => hF.close _ _ _ _ _ _ ht hcl, by simp, hdone, hnext⟩
  | itemRefused _ _ hc hq =>
    obtain ⟨t', hco, hD⟩ := hC'.consume_err t _ _ _ ⟨_, ht⟩ hq
    exact ⟨s', t', by simp [pipeBody, hp', hc, show C.consume t _ = _ from hco], hD,
      fun _ _ => hF.consume _ _ _ _ _ _ ht hco, by simp, hdone, hnext⟩
  | producerFailed _ _ hc =>
    exact ⟨s', t, by simp [pipeBody, hp', hc], hC'.observe _ _ ⟨_, ht⟩, by simp, fun _ _ => ⟨_, ht⟩, hdone, hnext⟩

theorem pipe_ends {Done : σ → Prop} {Failed : τ → Prop} (hP : BulkPlaysLaw P R) (hE : EndsIn P R Done)
    (hC : BulkCollectsLaw C D q S) (hF : FailsIn C S Failed) {c : Script I F E₁} {s : σ} {t : τ} {l sl xs : List I} {n : Nat}
    {fin : Option F} {res : Except (PipeError E₁ E₂) Unit} (hs : R s c n) (ht : S t l sl) (h : PipeResult c q l xs fin res) :
    ∃ s' t', pipe P.toProducer C.toConsumer s t = ok ((s', t'), res) ∧ D t' (l ++ xs) fin ∧
      ItemPipeEnd R Done S Failed c l xs s' t' res := by
  obtain ⟨s₁, h1, _, h2⟩ := hP.base.toPlaysLaw.emits ⟨n, hs⟩ h.startsWith
  obtain ⟨t₁, h3, _, h4⟩ := hC.base.toCollectsLaw.consumes ⟨sl, ht⟩ h.accepts
  obtain ⟨s', t', h5, h6⟩ := itemPipe_end hP hE hC hF h2 h4 h
  exact ⟨s', t', by rw [pipe_skip h1 h3, pipe_unfold, h5], h6⟩

theorem pipeAtMost_ends {Done : σ → Prop} {Failed : τ → Prop} (hP : BulkPlaysLaw P R) (hE : EndsIn P R Done)
    (hC : BulkCollectsLaw C D q S) (hF : FailsIn C S Failed) {c : Script I F E₁} {s : σ} {t : τ} {l sl xs : List I}
    {n count : Nat} (hs : R s c n) (ht : S t l sl) :
    (xs.length = count → c.StartsWith xs → q.Accepts l xs →
      ∃ s' t', pipeAtMost P.toProducer C.toConsumer s t count = ok ((s', t'), .ok count) ∧ (∃ m, R s' (c.drop count) m) ∧
        ∃ sl, S t' (l ++ xs) sl) ∧
    (∀ fin res, xs.length < count → PipeResult c q l xs fin res →
      ∃ s' t', pipeAtMost P.toProducer C.toConsumer s t count = ok ((s', t'), res.map fun _ => xs.length) ∧
        D t' (l ++ xs) fin ∧ ItemPipeEnd R Done S Failed c l xs s' t' res) := by
  constructor
  · intro hl hsw hacc
    obtain ⟨s₁, h1, h2⟩ := hP.base.toPlaysLaw.emits ⟨n, hs⟩ hsw
    obtain ⟨t₁, h3, h4⟩ := hC.base.toCollectsLaw.consumes ⟨sl, ht⟩ hacc
    exact ⟨s₁, t₁, (pipe_at_most_ok_iff _ _ count count s s₁ t t₁).mpr (.inl ⟨rfl, xs, hl, h1, h3⟩),
      by rw [← hl]; exact h2, h4⟩
  · intro fin res hlt h
    obtain ⟨s₁, h1, _, h2⟩ := hP.base.toPlaysLaw.emits ⟨n, hs⟩ h.startsWith
    obtain ⟨t₁, h3, _, h4⟩ := hC.base.toCollectsLaw.consumes ⟨sl, ht⟩ h.accepts
    obtain ⟨s', t', h5, h6⟩ := itemPipe_end hP hE hC hF h2 h4 h
    refine ⟨s', t', pipeAtMost_of_body (Nat.le_of_lt hlt) h1 h3 ?_, h6⟩
    simp only [pipeBody, pipeAtMostBody, hlt, if_true, bind_eq] at h5 ⊢
    rcases hp : P.produce s₁ with ⟨s2, e | x | f⟩ | _ | _
    · simp [hp] at h5 ⊢
      obtain ⟨h5, rfl⟩ := h5
      simp [h5, Except.map]
    · simp only [hp, bind_ok] at h5 ⊢
      rcases hc : C.consume t₁ x with ⟨t2, e | u⟩ | _ | _ <;> simp [hc] at h5 ⊢
      obtain ⟨h5, rfl⟩ := h5
      simp [h5, Except.map]
    · simp only [hp, bind_ok] at h5 ⊢
      rcases hc : C.close t₁ f with ⟨t2, e | u⟩ | _ | _ <;> simp [hc] at h5 ⊢
      · obtain ⟨h5, rfl⟩ := h5
        simp [h5, Except.map]
      · obtain ⟨h5, rfl⟩ := h5
        simp [h5, Except.map]
    · simp [hp] at h5
    · simp [hp] at h5

end

end Verif
