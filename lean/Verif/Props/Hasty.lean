import Verif.Lemmas.Hasty
import Verif.Props.PipeAtMost
import Verif.Props.FullSlice
import Verif.Props.Limit
import Verif.Props.Scramblers

/-!
# C90: bulk producers that report errors early

What becomes of the library's functions and adaptors if `consider_produced` may fail, as its documentation says.
-/

namespace Verif

open Outcome

section

variable {σ τ I F E E₁ E₂ B : Type}

/-! ## `bulk_pipe` -/

/-- One round of `bulk_pipe`: it ends with the right result, or moves a positive number of items. -/
theorem bulkPipe_round_hasty {P : BulkProducer σ I F E₁} {C : BulkConsumer τ I F E₂} {D : τ → List I → Option F → Prop}
    {c : Script I F E₁} {q : Policy I F E₂} {s : σ} {t : τ} {l : List I} (hP : Hasty P s c)
    (hC : BulkCollects C D q t l) :
    (∃ ys s' t', ys ≠ [] ∧ c.StartsWith ys ∧ q.Accepts l ys ∧ bulkPipeBody P C (s, t) = ok (.continue (s', t')) ∧
      Hasty P s' (c.drop ys.length) ∧ BulkCollects C D q t' (l ++ ys)) ∨
    (∃ xs fin res s' t', PipeResult c q l xs fin res ∧ bulkPipeBody P C (s, t) = ok (.done ((s', t'), res)) ∧
      D t' (l ++ xs) fin ∧ (∀ e, res = .error (.producer e) → BulkCollects C D q t' (l ++ xs))) := by
  obtain ⟨R, hR, n, hs⟩ := hP
  obtain ⟨S, hS, slots, ht⟩ := hC
  have hC : BulkCollects C D q t l := ⟨S, hS, slots, ht⟩
  have hC' := hC.toCollects
  obtain ⟨s1, ⟨xs, hne, hsw, hex, hR1⟩ | ⟨f, hf, hex⟩ | ⟨e, he, hex⟩⟩ := hR.expose s c n hs
  · obtain ⟨t1, ⟨k, hk0, hkl, hacc, hbc, slots', hS'⟩ | ⟨i, e, hf, hbc, hD⟩⟩ := hS.bulkConsume t l slots xs ht hne
    · have hlen : (xs.take k).length = k := by simp; omega
      obtain ⟨s2, ⟨hcp, hR2⟩ | ⟨e, he, hcp⟩⟩ := hR.consider s1 c xs.length k hR1 (List.length_pos_iff.mpr hne) hkl
      · left
        refine ⟨xs.take k, s2, t1, ?_, hsw.take k, hacc, ?_, ?_, S, hS, slots', hS'⟩
        · intro h0; rw [h0] at hlen; simp at hlen; omega
        · simp [bulkPipeBody, hex, hbc, hcp]
        · rw [hlen]; exact ⟨R, hR, _, hR2⟩
      · right
        have hC1 : BulkCollects C D q t1 (l ++ xs.take k) := ⟨S, hS, slots', hS'⟩
        exact ⟨xs.take k, none, _, s2, t1, .producerFailed (hsw.take k) hacc (by rw [hlen]; exact he),
          by simp [bulkPipeBody, hex, hbc, hcp], hC1.toCollects.observe, fun _ _ => hC1⟩
    · right
      have hlt := hf.lt
      obtain ⟨hacc, x, hx, hq⟩ := hf
      have hlen : (xs.take i).length = i := by simp; omega
      refine ⟨xs.take i, none, _, s1, t1, .itemRefused (hsw.take i) hacc ?_ hq, ?_, hD, by simp⟩
      · rw [hlen]; exact hsw i x hx
      · simp [bulkPipeBody, hex, hbc]
  · right
    cases hq : q.refuseClose l f with
    | none =>
      obtain ⟨t1, hcl, hD⟩ := hC'.close_ok f hq
      exact ⟨[], some f, _, s1, t1, .closed (by simp) (by simp) hf (by simpa using hq),
        by simp [bulkPipeBody, hex, hcl], by simpa using hD, by simp⟩
    | some e =>
      obtain ⟨t1, hcl, hD⟩ := hC'.close_err f hq
      exact ⟨[], none, _, s1, t1, .closeRefused (by simp) (by simp) hf (by simpa using hq),
        by simp [bulkPipeBody, hex, hcl], by simpa using hD, by simp⟩
  · right
    exact ⟨[], none, _, s1, t, .producerFailed (by simp) (by simp) he,
      by simp [bulkPipeBody, hex], by simpa using hC'.observe, fun _ _ => by simpa using hC⟩

/-- **C90**: for a producer that may report errors early, `bulk_pipe` still returns exactly the result that `pipe` returns
(`pipe_spec`), with exactly the same items consumed; after a producer error the consumer is still open. -/
theorem bulk_pipe_hasty {P : BulkProducer σ I F E₁} {C : BulkConsumer τ I F E₂} {D : τ → List I → Option F → Prop}
    {c : Script I F E₁} {q : Policy I F E₂} {s : σ} {t : τ} {l : List I} (hP : Hasty P s c)
    (hC : BulkCollects C D q t l)
    {xs : List I} {fin : Option F} {res : Except (PipeError E₁ E₂) Unit} (h : PipeResult c q l xs fin res) :
    ∃ s' t', bulkPipe P C s t = ok ((s', t'), res) ∧ D t' (l ++ xs) fin ∧
      (∀ e, res = .error (.producer e) → BulkCollects C D q t' (l ++ xs)) := by
  suffices H : ∀ n s t c l xs, xs.length ≤ n → Hasty P s c → BulkCollects C D q t l →
      PipeResult c q l xs fin res → ∃ s' t', bulkPipe P C s t = ok ((s', t'), res) ∧ D t' (l ++ xs) fin ∧
      (∀ e, res = .error (.producer e) → BulkCollects C D q t' (l ++ xs)) from
    H xs.length s t c l xs (Nat.le_refl _) hP hC h
  intro n
  induction n with
  | zero =>
    intro s t c l xs hn hP hC h
    rcases bulkPipe_round_hasty hP hC with ⟨ys, s', t', hne, h1, h2, _⟩ | ⟨ys, fin', res', s', t', h1, h2, h3, h4⟩
    · have := (h.advance h1 h2).1
      have := List.length_pos_iff.mpr hne
      omega
    · obtain ⟨rfl, rfl, rfl⟩ := h.unique h1
      exact ⟨s', t', by rw [bulkPipe_unfold, h2], h3, h4⟩
  | succ n ih =>
    intro s t c l xs hn hP hC h
    rcases bulkPipe_round_hasty hP hC with ⟨ys, s', t', hne, h1, h2, h3, h4, h5⟩ | ⟨ys, fin', res', s', t', h1, h2, h3, h4⟩
    · obtain ⟨hle, hsplit, hres⟩ := h.advance h1 h2
      have hpos := List.length_pos_iff.mpr hne
      obtain ⟨s2, t2, h6, h7, h8⟩ := ih s' t' _ _ _ (by simp; omega) h4 h5 hres
      rw [List.append_assoc, ← hsplit] at h7 h8
      exact ⟨s2, t2, by rw [bulkPipe_unfold, h3]; exact h6, h7, h8⟩
    · obtain ⟨rfl, rfl, rfl⟩ := h.unique h1
      exact ⟨s', t', by rw [bulkPipe_unfold, h2], h3, h4⟩

/-- All three items arrive, though the error is reported before the producer is asked for anything else. -/
example : ∃ s' t', bulkPipe Case.hasty Case.C [1, 2, 3] (Case.con 5) = ok ((s', t'), .error (.producer "e")) ∧ t'.Seen [1, 2, 3] none :=
  let ⟨s', t', h1, h2, _⟩ := bulk_pipe_hasty (Case.hasty_hasty [1, 2, 3]) (Case.collects 5)
    (.producerFailed (Script.ofList_startsWith _ _) (Case.accepts (by decide)) (Script.ofList_end _ _))
  ⟨s', t', h1, h2⟩

/-- **C90**: if the sequence and the policy go on for ever, `bulk_pipe` does not return, just like `pipe`. -/
theorem bulk_pipe_hasty_endless {P : BulkProducer σ I F E₁} {C : BulkConsumer τ I F E₂} {D : τ → List I → Option F → Prop}
    {c : Script I F E₁} {q : Policy I F E₂} {s : σ} {t : τ} {l : List I} (hP : Hasty P s c)
    (hC : BulkCollects C D q t l)
    (h : ∀ n, ∃ xs, xs.length = n ∧ c.StartsWith xs ∧ q.Accepts l xs) : bulkPipe P C s t = .diverge := by
  apply loop_diverge (bulkPipeBody P C)
    (Inv := fun st => ∃ c l, Hasty P st.1 c ∧ BulkCollects C D q st.2 l ∧
      ∀ n, ∃ xs, xs.length = n ∧ c.StartsWith xs ∧ q.Accepts l xs)
  · rintro ⟨s, t⟩ ⟨c, l, hP, hC, h⟩
    rcases bulkPipe_round_hasty hP hC with ⟨ys, s', t', hne, h1, h2, h3, h4, h5⟩ | ⟨ys, fin', res', s', t', h1, _⟩
    · refine ⟨(s', t'), h3, _, _, h4, h5, fun n => ?_⟩
      obtain ⟨xs, hl, h6, h7⟩ := h (ys.length + n)
      have htake : xs.take ys.length = ys := (h1.prefix h6 (by omega)).symm
      refine ⟨xs.drop ys.length, by simp; omega, h6.drop (by omega), ?_⟩
      have := h7.drop ys.length
      rwa [htake] at this
    · obtain ⟨zs, hl, h2, h3⟩ := h (ys.length + 1)
      have := (h1.advance h2 h3).1
      omega
  · exact ⟨c, l, hP, hC, h⟩

example : bulkPipe Case.endless Case.V 0 (IntoVec.fromVec []) = .diverge :=
  bulk_pipe_hasty_endless (Case.endless_plays 0).hasty (Case.vec_collects [])
    fun n => let ⟨xs, h1, h2⟩ := Case.endless_starts 0 n; ⟨xs, h1, h2, by simp⟩

/-! ## `bulk_pipe_at_most` -/

/-- One round of `bulk_pipe_at_most`. -/
theorem bulkPipeAtMost_round_hasty {P : BulkProducer σ I F E₁} {C : BulkConsumer τ I F E₂}
    {D : τ → List I → Option F → Prop} {c : Script I F E₁} {q : Policy I F E₂} {s : σ} {t : τ} {l : List I}
    (hP : Hasty P s c) (hC : BulkCollects C D q t l) (count piped : Nat) (hlt : piped < count) :
    (∃ ys s' t', ys ≠ [] ∧ ys.length ≤ count - piped ∧ c.StartsWith ys ∧ q.Accepts l ys ∧
      bulkPipeAtMostBody P C count (s, t, piped) = ok (.continue (s', t', piped + ys.length)) ∧
      Hasty P s' (c.drop ys.length) ∧ BulkCollects C D q t' (l ++ ys)) ∨
    (∃ xs fin res s' t', xs.length ≤ count - piped ∧ (xs.length = count - piped → ∃ e, res = .error (.producer e)) ∧
      PipeResult c q l xs fin res ∧
      bulkPipeAtMostBody P C count (s, t, piped) = ok (.done ((s', t'), res.map fun _ => piped + xs.length)) ∧
      D t' (l ++ xs) fin) := by
  obtain ⟨R, hR, n, hs⟩ := hP
  obtain ⟨S, hS, slots, ht⟩ := hC
  have hC : BulkCollects C D q t l := ⟨S, hS, slots, ht⟩
  have hC' := hC.toCollects
  obtain ⟨s1, ⟨xs, hne, hsw, hex, hR1⟩ | ⟨f, hf, hex⟩ | ⟨e, he, hex⟩⟩ := hR.expose s c n hs
  · have hpos := List.length_pos_iff.mpr hne
    generalize hm : min (count - piped) xs.length = m
    have hm' : m ≤ count - piped ∧ m ≤ xs.length ∧ 0 < m := by omega
    have hlen : (xs.take m).length = m := by simp; omega
    have hne2 : xs.take m ≠ [] := by intro h0; rw [h0] at hlen; simp at hlen; omega
    obtain ⟨t1, ⟨k, hk0, hkl, hacc, hbc, slots', hS'⟩ | ⟨i, e, hf, hbc, hD⟩⟩ :=
      hS.bulkConsume t l slots (xs.take m) ht hne2
    · rw [hlen] at hkl
      have htk : (xs.take m).take k = xs.take k := by rw [List.take_take, Nat.min_eq_left hkl]
      rw [htk] at hacc hS'
      have hlenk : (xs.take k).length = k := by simp; omega
      obtain ⟨s2, ⟨hcp, hR2⟩ | ⟨e, he, hcp⟩⟩ := hR.consider s1 c xs.length k hR1 hpos (by omega)
      · left
        refine ⟨xs.take k, s2, t1, ?_, by omega, hsw.take k, hacc, ?_, ?_, S, hS, slots', hS'⟩
        · intro h0; rw [h0] at hlenk; simp at hlenk; omega
        · rw [hlenk]; simp [bulkPipeAtMostBody, hlt, hex, hm, hbc, hcp]
        · rw [hlenk]; exact ⟨R, hR, _, hR2⟩
      · right
        have hC1 : BulkCollects C D q t1 (l ++ xs.take k) := ⟨S, hS, slots', hS'⟩
        exact ⟨xs.take k, none, _, s2, t1, by omega, fun _ => ⟨e, rfl⟩, .producerFailed (hsw.take k) hacc (by rw [hlenk]; exact he),
          by simp [bulkPipeAtMostBody, hlt, hex, hm, hbc, hcp, Except.map], hC1.toCollects.observe⟩
    · right
      have hilt := hf.lt
      rw [hlen] at hilt
      obtain ⟨hacc, x, hx, hq⟩ := hf.of_take
      have htk : (xs.take m).take i = xs.take i := by rw [List.take_take, Nat.min_eq_left (by omega)]
      rw [htk] at hD
      have hleni : (xs.take i).length = i := by simp; omega
      refine ⟨xs.take i, none, _, s1, t1, by omega, fun _ => by omega, .itemRefused (hsw.take i) hacc ?_ hq, ?_, hD⟩
      · rw [hleni]; exact hsw i x hx
      · simp [bulkPipeAtMostBody, hlt, hex, hm, hbc, Except.map]
  · right
    cases hq : q.refuseClose l f with
    | none =>
      obtain ⟨t1, hcl, hD⟩ := hC'.close_ok f hq
      exact ⟨[], some f, _, s1, t1, Nat.zero_le _, fun h0 => by simp at h0; omega, .closed (by simp) (by simp) hf (by simpa using hq),
        by simp [bulkPipeAtMostBody, hlt, hex, hcl, Except.map], by simpa using hD⟩
    | some e =>
      obtain ⟨t1, hcl, hD⟩ := hC'.close_err f hq
      exact ⟨[], none, _, s1, t1, Nat.zero_le _, fun h0 => by simp at h0; omega,
        .closeRefused (by simp) (by simp) hf (by simpa using hq),
        by simp [bulkPipeAtMostBody, hlt, hex, hcl, Except.map], by simpa using hD⟩
  · right
    exact ⟨[], none, _, s1, t, Nat.zero_le _, fun _ => ⟨e, rfl⟩, .producerFailed (by simp) (by simp) he,
      by simp [bulkPipeAtMostBody, hlt, hex, Except.map], by simpa using hC'.observe⟩

/-- **C90, `bulk_pipe_at_most`**: exactly the items are moved that `pipe_at_most` moves (`pipe_at_most_spec`), and the result is the
same, except that where `pipe_at_most` returns `Ok(count)` and the next thing the producer has is an error, that error may be
returned instead.
What is missing: that exception does occur, see `bulk_pipe_at_most_hasty_differs`. -/
theorem bulk_pipe_at_most_hasty_partial {P : BulkProducer σ I F E₁} {C : BulkConsumer τ I F E₂}
    {D : τ → List I → Option F → Prop} {c : Script I F E₁} {q : Policy I F E₂} {s : σ} {t : τ} {l : List I}
    (hP : Hasty P s c) (hC : BulkCollects C D q t l)
    {count : Nat} {xs : List I} {fin : Option F} {res : Except (PipeError E₁ E₂) Nat}
    (h : AtMostResult c q l count xs fin res) :
    ∃ s' t' res', bulkPipeAtMost P C s t count = ok ((s', t'), res') ∧ D t' (l ++ xs) fin ∧
      (res' = res ∨ (res = .ok count ∧ xs.length = count ∧ ∃ e, c count = .error e ∧ res' = .error (.producer e))) := by
  suffices H : ∀ n s t c' ys, count - ys.length ≤ n → ys.length ≤ count → c.StartsWith ys → q.Accepts l ys →
      c' = c.drop ys.length → Hasty P s c' → BulkCollects C D q t (l ++ ys) →
      ∃ s' t' res', loop (bulkPipeAtMostBody P C count) (s, t, ys.length) = ok ((s', t'), res') ∧ D t' (l ++ xs) fin ∧
      (res' = res ∨ (res = .ok count ∧ xs.length = count ∧ ∃ e, c count = .error e ∧ res' = .error (.producer e))) from
    H count s t c [] (by simp) (by simp) (by simp) (by simp) (by simp) hP (by simpa using hC)
  intro n
  induction n with
  | zero =>
    intro s t c' ys hn hle h1 h2 hc' hP hC
    have hlen : ys.length = count := by omega
    obtain ⟨rfl, rfl, rfl⟩ := h.unique (.full hlen h1 h2)
    refine ⟨s, t, _, ?_, hC.toCollects.observe, .inl rfl⟩
    rw [loop_unfold]; simp [bulkPipeAtMostBody, hlen]
  | succ n ih =>
    intro s t c' ys hn hle h1 h2 hc' hP hC
    by_cases hlt : ys.length < count
    · rcases bulkPipeAtMost_round_hasty hP hC count ys.length hlt with
        ⟨zs, s', t', hne, hzl, h3, h4, h5, h6, h7⟩ | ⟨zs, fin', res', s', t', hzl, hze, h3, h4, h5⟩
      · have hpos := List.length_pos_iff.mpr hne
        have := ih s' t' _ (ys ++ zs) (by simp; omega) (by simp; omega)
          (h1.append (by rw [← hc']; exact h3)) (Policy.accepts_append.mpr ⟨h2, h4⟩) rfl
          (by rw [List.length_append, ← Script.drop_drop, ← hc']; exact h6) (by rw [← List.append_assoc]; exact h7)
        rw [loop_unfold, h5]
        simpa using this
      · -- the round ended the pipe
        have hidx : ∀ r, c' zs.length = r → c (ys ++ zs).length = r := by
          rintro r rfl; rw [hc']; simp
        have hsw : c'.StartsWith zs → c.StartsWith (ys ++ zs) := fun h => h1.append (by rw [← hc']; exact h)
        have hac : q.Accepts (l ++ ys) zs → q.Accepts l (ys ++ zs) :=
          fun h => Policy.accepts_append.mpr ⟨h2, h⟩
        have hres : PipeResult c q l (ys ++ zs) fin' res' := by
          cases h3 with
          | closed ha hb hc hq => exact .closed (hsw ha) (hac hb) (hidx _ hc) (by simpa using hq)
          | closeRefused ha hb hc hq => exact .closeRefused (hsw ha) (hac hb) (hidx _ hc) (by simpa using hq)
          | itemRefused ha hb hc hq => exact .itemRefused (hsw ha) (hac hb) (hidx _ hc) (by simpa using hq)
          | producerFailed ha hb hc => exact .producerFailed (hsw ha) (hac hb) (hidx _ hc)
        rw [List.append_assoc] at h5
        rcases Nat.lt_or_ge (ys ++ zs).length count with hll | hge
        · cases res' with
          | ok u =>
            obtain ⟨rfl, rfl, rfl⟩ := h.unique (.closed hll hres)
            exact ⟨s', t', _, by rw [loop_unfold, h4], h5, .inl (by simp [Except.map])⟩
          | error e =>
            obtain ⟨rfl, rfl, rfl⟩ := h.unique (.failed hll hres)
            exact ⟨s', t', _, by rw [loop_unfold, h4], h5, .inl (by simp [Except.map])⟩
        · have hl' : (ys ++ zs).length = ys.length + zs.length := by simp
          obtain ⟨e, rfl⟩ := hze (by omega)
          cases hres with
          | producerFailed ha hb hc =>
            obtain ⟨rfl, rfl, rfl⟩ := h.unique (.full (by omega) ha hb)
            exact ⟨s', t', _, by rw [loop_unfold, h4], h5, .inr ⟨rfl, by omega, e,
              by rwa [show count = (ys ++ zs).length by omega], by simp [Except.map]⟩⟩
    · exact ih s t c' ys (by omega) hle h1 h2 hc' hP hC

/-- Two of three items: the error is not next. -/
example : ∃ s' t', bulkPipeAtMost Case.hasty Case.C [1, 2, 3] (Case.con 5) 2 = ok ((s', t'), .ok 2) := by
  obtain ⟨s', t', res', h, _, h2 | ⟨_, _, e, h2, _⟩⟩ := bulk_pipe_at_most_hasty_partial (Case.hasty_hasty [1, 2, 3]) (Case.collects 5)
    (.full (count := 2) (xs := [1, 2]) rfl ((Script.ofList_startsWith [1, 2, 3] _).take 2) (Case.accepts (by decide)))
  · exact ⟨s', t', h2 ▸ h⟩
  · cases h2

/-- **C90 fails for `bulk_pipe_at_most`.** Three items and then an error, piped at most three times: `pipe_at_most` returns `Ok(3)`,
`bulk_pipe_at_most` returns the error. -/
theorem bulk_pipe_at_most_hasty_differs :
    (∃ st, pipeAtMost Case.hasty.toProducer Case.V.toConsumer [1, 2, 3] (IntoVec.fromVec []) 3 = ok (st, .ok 3)) ∧
    (∃ st, bulkPipeAtMost Case.hasty Case.V [1, 2, 3] (IntoVec.fromVec []) 3 = ok (st, .error (.producer "e"))) := by
  have h1 : ∃ st, loopFuel (pipeAtMostBody Case.hasty.toProducer Case.V.toConsumer 3) 5 ([1, 2, 3], IntoVec.fromVec [], 0) =
      ok (st, .ok 3) := ⟨_, rfl⟩
  have h2 : ∃ st, loopFuel (bulkPipeAtMostBody Case.hasty Case.V 3) 5 ([1, 2, 3], IntoVec.fromVec [], 0) =
      ok (st, .error (.producer "e")) := ⟨_, rfl⟩
  obtain ⟨st₁, h1⟩ := h1
  obtain ⟨st₂, h2⟩ := h2
  refine ⟨⟨st₁, ?_⟩, ⟨st₂, ?_⟩⟩
  · unfold pipeAtMost
    rw [loop_eq_of_fuel (n := 5) (by rw [h1]; rintro ⟨⟩), h1]
  · unfold bulkPipeAtMost
    rw [loop_eq_of_fuel (n := 5) (by rw [h2]; rintro ⟨⟩), h2]

/-! ## `bulk_produce` -/

/-- **C90, the default `bulk_produce`**: it writes the next items and says how many, or answers with the final value or error if that
is next; or else it writes a number `k` of items and answers with the error that comes after them.
What is missing: in the last case `k` is not reported, so that the items are lost if it is positive, see `bulk_produce_hasty_loses`. -/
theorem bulk_produce_hasty_partial {P : BulkProducer σ I F E} (hdef : P.bulkProduce = bulkProduceDefault P.exposeItems P.considerProduced)
    {s : σ} {c : Script I F E} (h : Hasty P s c) {buf : List I} (hbuf : buf ≠ []) :
    ∃ s' buf', buf'.length = buf.length ∧
    ((∃ k, 0 < k ∧ k ≤ buf.length ∧ P.bulkProduce s buf = ok (s', .ok (.inl k), buf') ∧ c.StartsWith (buf'.take k) ∧
        Hasty P s' (c.drop k)) ∨
     (∃ f, c 0 = .ok (.inr f) ∧ P.bulkProduce s buf = ok (s', .ok (.inr f), buf')) ∨
     (∃ k e, k ≤ buf.length ∧ c.StartsWith (buf'.take k) ∧ c k = .error e ∧ P.bulkProduce s buf = ok (s', .error e, buf'))) := by
  obtain ⟨R, hR, n, hs⟩ := h
  rw [hdef]
  obtain ⟨s1, ⟨xs, hne, hsw, hex, hR1⟩ | ⟨f, hf, hex⟩ | ⟨e, he, hex⟩⟩ := hR.expose s c n hs
  · have hx : 0 < xs.length := List.length_pos_iff.mpr hne
    have hb : 0 < buf.length := List.length_pos_iff.mpr hbuf
    have hl : (xs.take (min xs.length buf.length)).length = min xs.length buf.length := by simp
    have hsw' : c.StartsWith ((xs.take (min xs.length buf.length) ++ buf.drop (min xs.length buf.length)).take
        (min xs.length buf.length)) := by
      rw [List.take_append_of_le_length (by omega), List.take_of_length_le (by omega)]
      exact hsw.take _
    obtain ⟨s2, ⟨hc, hR2⟩ | ⟨e, he, hc⟩⟩ := hR.consider s1 c xs.length (min xs.length buf.length) hR1 hx (Nat.min_le_left _ _)
    · exact ⟨s2, xs.take (min xs.length buf.length) ++ buf.drop (min xs.length buf.length), by simp; omega, .inl
        ⟨min xs.length buf.length, by omega, by omega, by simp [bulkProduceDefault, hex, hc], hsw', R, hR, _, hR2⟩⟩
    · exact ⟨s2, xs.take (min xs.length buf.length) ++ buf.drop (min xs.length buf.length), by simp; omega, .inr (.inr
        ⟨min xs.length buf.length, e, by omega, hsw', he, by simp [bulkProduceDefault, hex, hc]⟩)⟩
  · exact ⟨s1, buf, rfl, .inr (.inl ⟨f, hf, by simp [bulkProduceDefault, hex]⟩)⟩
  · exact ⟨s1, buf, rfl, .inr (.inr ⟨0, e, by omega, by simp, he, by simp [bulkProduceDefault, hex]⟩)⟩

/-- Into a buffer of two. -/
example : Case.hasty.bulkProduce [1, 2, 3] [0, 0] = ok ([3], .ok (.inl 2), [1, 2]) ∧
    Hasty Case.hasty [1, 2, 3] (Script.ofList [1, 2, 3] (.error "e")) :=
  ⟨rfl, Case.hasty_hasty [1, 2, 3]⟩

/-- **C90 fails for the default `bulk_produce`** (and for `bulk_overwrite_full_slice`). A producer that has three items and then an
error: `bulk_produce` into a buffer of four answers with the error, and does not say that there are items in the buffer; likewise
`bulk_overwrite_full_slice` into a buffer of three reports that no item was produced, where `overwrite_full_slice` succeeds. -/
theorem bulk_produce_hasty_loses :
    Case.hasty.bulkProduce [1, 2, 3] [0, 0, 0, 0] = ok ([], .error "e", [1, 2, 3, 0]) ∧
    bulkOverwriteFullSlice Case.hasty [1, 2, 3] [0, 0, 0] = ok ([], .error ⟨0, .inr "e"⟩, [1, 2, 3]) ∧
    overwriteFullSlice Case.hasty.toProducer [1, 2, 3] [0, 0, 0] = ok ([], .ok (), [1, 2, 3]) := by
  refine ⟨rfl, ?_, rfl⟩
  unfold bulkOverwriteFullSlice
  rw [loop_eq_of_fuel (n := 2) (by rintro ⟨⟩)]
  rfl

/-- **C90, `bulk_overwrite_full_slice`** with the default `bulk_produce`: it succeeds only with the slice overwritten by the next items;
otherwise the reason is what comes after the `k` items that have been written, and the reported count is at most `k`, and is `k` if
the reason is the final value.
What is missing: the count may be less than `k`, even with the whole slice overwritten, see `bulk_produce_hasty_loses`. -/
theorem bulk_overwrite_full_slice_hasty_partial {P : BulkProducer σ I F E}
    (hdef : P.bulkProduce = bulkProduceDefault P.exposeItems P.considerProduced) {s : σ} {c : Script I F E} (h : Hasty P s c)
    (buf : List I) :
    ∃ s' out, out.length = buf.length ∧
    ((bulkOverwriteFullSlice P s buf = ok (s', .ok (), out) ∧ c.StartsWith out ∧ Hasty P s' (c.drop buf.length)) ∨
     (∃ k f, k < buf.length ∧ c.StartsWith (out.take k) ∧ c k = .ok (.inr f) ∧
        bulkOverwriteFullSlice P s buf = ok (s', .error ⟨k, .inl f⟩, out)) ∨
     (∃ j k e, j ≤ k ∧ k ≤ buf.length ∧ j < buf.length ∧ c.StartsWith (out.take k) ∧ c k = .error e ∧
        bulkOverwriteFullSlice P s buf = ok (s', .error ⟨j, .inr e⟩, out))) := by
  suffices H : ∀ n s c' pre todo, todo.length ≤ n → c.StartsWith pre → c' = c.drop pre.length → Hasty P s c' →
      ∃ s' out, out.length = (pre ++ todo).length ∧
      ((loop (bulkOverwriteFullSliceBody P) (s, pre ++ todo, pre.length) = ok (s', .ok (), out) ∧ c.StartsWith out ∧
          Hasty P s' (c.drop (pre ++ todo).length)) ∨
       (∃ k f, k < (pre ++ todo).length ∧ c.StartsWith (out.take k) ∧ c k = .ok (.inr f) ∧
          loop (bulkOverwriteFullSliceBody P) (s, pre ++ todo, pre.length) = ok (s', .error ⟨k, .inl f⟩, out)) ∨
       (∃ j k e, j ≤ k ∧ k ≤ (pre ++ todo).length ∧ j < (pre ++ todo).length ∧ c.StartsWith (out.take k) ∧ c k = .error e ∧
          loop (bulkOverwriteFullSliceBody P) (s, pre ++ todo, pre.length) = ok (s', .error ⟨j, .inr e⟩, out))) from
    H buf.length s c [] buf (Nat.le_refl _) (by simp) (by simp) h
  intro n
  induction n with
  | zero =>
    intro s c' pre todo hn hpre hc' h
    have : todo = [] := List.length_eq_zero_iff.mp (by omega)
    subst this
    refine ⟨s, pre, by simp, .inl ⟨?_, hpre, by simpa [hc'] using h⟩⟩
    rw [loop_unfold]; simp [bulkOverwriteFullSliceBody]
  | succ n ih =>
    intro s c' pre todo hn hpre hc' h
    by_cases htodo : todo = []
    · subst htodo; exact ih s c' pre [] (by simp) hpre hc' h
    · have hlt : pre.length < (pre ++ todo).length := by
        have := List.length_pos_iff.mpr htodo
        simp; omega
      have htake : ∀ (k : Nat) (buf' : List I), c'.StartsWith (buf'.take k) → c.StartsWith ((pre ++ buf').take (pre.length + k)) := by
        intro k buf' hk
        rw [List.take_append, List.take_of_length_le (by omega), Nat.add_sub_cancel_left]
        exact hpre.append (by rw [← hc']; exact hk)
      obtain ⟨s1, buf', hlen, ⟨k, hk0, hkl, hbp, hsw, hs1⟩ | ⟨f, hf, hbp⟩ | ⟨k, e, hkl, hsw, he, hbp⟩⟩ :=
        bulk_produce_hasty_partial hdef h htodo
      · have hk : (buf'.take k).length = k := by simp; omega
        have hstep : loop (bulkOverwriteFullSliceBody P) (s, pre ++ todo, pre.length) =
            loop (bulkOverwriteFullSliceBody P) (s1, (pre ++ buf'.take k) ++ buf'.drop k,
              (pre ++ buf'.take k).length) := by
          rw [loop_unfold]
          simp only [bulkOverwriteFullSliceBody, hlt, if_true, List.drop_left, hbp, bind_eq, bind_ok,
            List.take_left, pure_eq]
          rw [List.append_assoc, List.take_append_drop, List.length_append, hk]
        have hl : ((pre ++ buf'.take k) ++ buf'.drop k).length = (pre ++ todo).length := by simp; omega
        have := ih s1 (c'.drop k) (pre ++ buf'.take k) (buf'.drop k) (by simp; omega)
          (hpre.append (by rw [← hc']; exact hsw)) (by rw [hc', Script.drop_drop, List.length_append, hk]) hs1
        rw [hl] at this
        rw [hstep]
        exact this
      · refine ⟨s1, pre ++ buf', by simp [hlen], .inr (.inl ⟨pre.length, f, hlt, by simpa using hpre, ?_, ?_⟩)⟩
        · rw [hc'] at hf; simpa using hf
        · rw [loop_unfold]
          simp only [bulkOverwriteFullSliceBody, hlt, if_true, List.drop_left, hbp, bind_eq, bind_ok,
            List.take_left, pure_eq]
      · refine ⟨s1, pre ++ buf', by simp [hlen], .inr (.inr ⟨pre.length, pre.length + k, e, by omega, by simp; omega, hlt,
          htake k buf' hsw, ?_, ?_⟩)⟩
        · rw [hc'] at he; simpa using he
        · rw [loop_unfold]
          simp only [bulkOverwriteFullSliceBody, hlt, if_true, List.drop_left, hbp, bind_eq, bind_ok,
            List.take_left, pure_eq]

/-- A buffer of two is overwritten. -/
example : bulkOverwriteFullSlice Case.hasty [1, 2, 3] [0, 0] = ok ([3], .ok (), [1, 2]) ∧
    Hasty Case.hasty [1, 2, 3] (Script.ofList [1, 2, 3] (.error "e")) := by
  refine ⟨?_, Case.hasty_hasty [1, 2, 3]⟩
  unfold bulkOverwriteFullSlice
  rw [loop_eq_of_fuel (n := 2) (by rintro ⟨⟩)]
  rfl

/-! ## Adaptors -/

/-- **C90, `MapFinal`**: also around such producers, only the final value is changed. -/
theorem map_final_hasty (f : F → B) {P : BulkProducer σ I F E} {s : σ} {c : Script I F E} (h : Hasty P s c) :
    Hasty (mapFinalBulkProducer P) ⟨s, some f⟩ (c.mapFinal f) := by
  obtain ⟨R, h, n, hn⟩ := h
  refine ⟨fun s c' n => ∃ c, R s.inner c n ∧ s.fn = some f ∧ c' = c.mapFinal f, ⟨⟨⟨?_⟩, ?_⟩, ?_, ?_⟩, n, c, hn, rfl, rfl⟩
  · rintro ⟨s, _⟩ c' ⟨n, c, hR, rfl, rfl⟩
    obtain ⟨s', h1, h2⟩ := h.base.produce s c ⟨n, hR⟩
    rcases hc : c 0 with e | x | fin <;> rw [hc] at h1
    · exact ⟨⟨s', some f⟩, by simp [mapFinalBulkProducer, mapFinalBufferedProducer, mapFinalProducer, h1, Script.mapFinal, hc],
        by simp [Script.mapFinal, hc]⟩
    · obtain ⟨n', h3⟩ := h2 x hc
      exact ⟨⟨s', some f⟩, by simp [mapFinalBulkProducer, mapFinalBufferedProducer, mapFinalProducer, h1, Script.mapFinal, hc],
        fun _ _ => ⟨n', c.drop 1, h3, rfl, rfl⟩⟩
    · exact ⟨⟨s', none⟩, by simp [mapFinalBulkProducer, mapFinalBufferedProducer, mapFinalProducer, h1, Script.mapFinal, hc],
        by simp [Script.mapFinal, hc]⟩
  · rintro ⟨s, _⟩ c' ⟨n, c, hR, rfl, rfl⟩
    obtain ⟨s', ⟨h1, n', h2⟩ | ⟨e, h1, h2⟩⟩ := h.base.slurp s c ⟨n, hR⟩
    · exact ⟨⟨s', some f⟩, .inl ⟨by simp [mapFinalBulkProducer, mapFinalBufferedProducer, h1], n', c, h2, rfl, rfl⟩⟩
    · exact ⟨⟨s', some f⟩, .inr ⟨e, by simp [Script.mapFinal, h1], by simp [mapFinalBulkProducer, mapFinalBufferedProducer, h2]⟩⟩
  · rintro ⟨s, _⟩ c' n ⟨c, hR, rfl, rfl⟩
    obtain ⟨s', ⟨xs, h1, h2, h3, h4⟩ | ⟨fin, h1, h2⟩ | ⟨e, h1, h2⟩⟩ := h.expose s c n hR
    · exact ⟨⟨s', some f⟩, .inl ⟨xs, h1, h2.mapFinal, by simp [mapFinalBulkProducer, h3], c, h4, rfl, rfl⟩⟩
    · exact ⟨⟨s', none⟩, .inr (.inl ⟨f fin, by simp [Script.mapFinal, h1], by simp [mapFinalBulkProducer, h2]⟩)⟩
    · exact ⟨⟨s', some f⟩, .inr (.inr ⟨e, by simp [Script.mapFinal, h1], by simp [mapFinalBulkProducer, h2]⟩)⟩
  · rintro ⟨s, _⟩ c' n k ⟨c, hR, rfl, rfl⟩ h0 hk
    obtain ⟨s', ⟨h1, h2⟩ | ⟨e, h1, h2⟩⟩ := h.consider s c n k hR h0 hk
    · exact ⟨⟨s', some f⟩, .inl ⟨by simp [mapFinalBulkProducer, h1], c.drop k, h2, rfl, rfl⟩⟩
    · exact ⟨⟨s', some f⟩, .inr ⟨e, by simp [Script.mapFinal, h1], by simp [mapFinalBulkProducer, h2]⟩⟩

example : Hasty (mapFinalBulkProducer Case.hasty) ⟨[1, 2, 3], some fun _ => 7⟩
    ((Script.ofList [1, 2, 3] (.error "e")).mapFinal fun (_ : Unit) => 7) :=
  map_final_hasty _ (Case.hasty_hasty [1, 2, 3])

/-- **C90, the public wrappers**: with and without the checks, they emit the same sequence, and report errors no earlier than the
wrapped producer does. -/
theorem invariant_hasty {P : BulkProducer σ I F E} {s : σ} {c : Script I F E} (h : Hasty P s c) :
    Hasty (invariantBulkProducer P) (.new s) c ∧ Hasty (invariantNoopBulkProducer P) s c := by
  obtain ⟨R, h, n, hn⟩ := h
  refine ⟨⟨InvariantSt.Plays R, ⟨⟨⟨?_⟩, ?_⟩, ?_, ?_⟩, 0, rfl, .inl ⟨rfl, n, hn⟩⟩, R, ⟨h.base, h.expose, h.consider⟩, n, hn⟩
  · rintro ⟨s, act, e⟩ c ⟨n, hn⟩
    obtain ⟨m, hm⟩ := hn.inner
    obtain ⟨rfl, _⟩ := hn
    obtain ⟨s', h3, h4⟩ := h.base.produce s c ⟨m, hm⟩
    rcases hc : c 0 with e' | x | f
    · exact ⟨⟨s', false, e⟩, by simp [invariantBulkProducer, invariantBufferedProducer, invariantProducer,
        InvariantSt.checkInactive, h3, hc], by simp⟩
    · exact ⟨⟨s', true, e⟩, by simp [invariantBulkProducer, invariantBufferedProducer, invariantProducer,
        InvariantSt.checkInactive, h3, hc], fun y hy => ⟨0, rfl, .inl ⟨rfl, h4 x hc⟩⟩⟩
    · exact ⟨⟨s', false, e⟩, by simp [invariantBulkProducer, invariantBufferedProducer, invariantProducer,
        InvariantSt.checkInactive, h3, hc], by simp⟩
  · rintro ⟨s, act, e⟩ c ⟨n, hn⟩
    obtain ⟨m, hm⟩ := hn.inner
    obtain ⟨rfl, _⟩ := hn
    obtain ⟨s', ⟨h3, h4⟩ | ⟨e', h3, h4⟩⟩ := h.base.slurp s c ⟨m, hm⟩
    · exact ⟨⟨s', true, e⟩, .inl ⟨by simp [invariantBulkProducer, invariantBufferedProducer,
        InvariantSt.checkInactive, h3], 0, rfl, .inl ⟨rfl, h4⟩⟩⟩
    · exact ⟨⟨s', false, e⟩, .inr ⟨e', h3, by simp [invariantBulkProducer, invariantBufferedProducer,
        InvariantSt.checkInactive, h4]⟩⟩
  · rintro ⟨s, act, e⟩ c n hn
    obtain ⟨m, hm⟩ := hn.inner
    obtain ⟨rfl, _⟩ := hn
    obtain ⟨s', ⟨xs, h1, h2, h3, h4⟩ | ⟨f, h1, h2⟩ | ⟨e', h1, h2⟩⟩ := h.expose s c m hm
    · exact ⟨⟨s', true, xs.length⟩, .inl ⟨xs, h1, h2, by simp [invariantBulkProducer,
        InvariantSt.checkInactive, h3], rfl, .inr ⟨Nat.le_refl _, h4⟩⟩⟩
    · exact ⟨⟨s', false, e⟩, .inr (.inl ⟨f, h1, by simp [invariantBulkProducer, InvariantSt.checkInactive, h2]⟩)⟩
    · exact ⟨⟨s', false, e⟩, .inr (.inr ⟨e', h1, by simp [invariantBulkProducer, InvariantSt.checkInactive, h2]⟩)⟩
  · rintro ⟨s, act, e⟩ c n k ⟨rfl, ⟨rfl, _⟩ | ⟨hn, hR⟩⟩ h0 hk
    · omega
    · simp only at hn
      obtain ⟨s', ⟨h1, h2⟩ | ⟨e', h1, h2⟩⟩ := h.consider s c n k hR h0 hk
      · refine ⟨⟨s', true, e - k⟩, .inl ⟨?_, rfl, .inr ⟨by simp only; omega, h2⟩⟩⟩
        simp [invariantBulkProducer, InvariantSt.checkInactive, sub_of_le (show k ≤ e by omega), h1,
          show ¬ e < k by omega]
      · refine ⟨⟨s', true, e - k⟩, .inr ⟨e', h1, ?_⟩⟩
        simp [invariantBulkProducer, InvariantSt.checkInactive, sub_of_le (show k ≤ e by omega), h2,
          show ¬ e < k by omega]

example : Hasty (invariantBulkProducer Case.hasty) (.new [1, 2, 3]) (Script.ofList [1, 2, 3] (.error "e")) :=
  (invariant_hasty (Case.hasty_hasty [1, 2, 3])).1

/-- **C90, `Limit`**: it emits the limited sequence if that does not hide an error, as for other bulk producers
(`limit_bulk_plays_partial`).
What is missing: with exactly as many items as the limit allows before an error, `consider_produced` may report that error, which
does not belong to the limited sequence, see `limit_hasty_fails`. -/
theorem limit_hasty_partial {P : BulkProducer σ I F E} {s : σ} {c : Script I F E} (h : Hasty P s c) (n : Nat) (hn : NoErrorAt c n) :
    Hasty (limitBulkProducer P) ⟨s, n⟩ (c.limit n) := by
  obtain ⟨R, h, m, hm⟩ := h
  have hQ : ∀ (c : Script I F E) n k xs, NoErrorAt c n → c.StartsWith xs → k ≤ xs.length → k ≤ n →
      NoErrorAt (c.drop k) (n - k) := by
    intro c n k xs h hst hk hkn e
    rw [Script.drop_apply, show k + (n - k) = n by omega]
    intro he
    obtain ⟨i, hi, hx⟩ := h e he
    have : k ≤ i := by
      rcases Nat.lt_or_ge i k with hlt | hge
      · exact absurd (hst i xs[i] (by simp [show i < xs.length by omega])) (hx _)
      · exact hge
    exact ⟨i - k, by omega, fun x => by rw [Script.drop_apply, show k + (i - k) = i by omega]; exact hx x⟩
  refine ⟨LimitSt.Plays NoErrorAt R, ⟨⟨⟨?_⟩, ?_⟩, ?_, ?_⟩, 0, c, m, [], hm, Nat.zero_le _, Nat.zero_le _, rfl, hn, by simp, rfl⟩
  · rintro ⟨s, m⟩ c' ⟨k, c, n, xs, hR, hk, hm, rfl, hq, hst, hxs⟩
    cases m with
    | zero => exact ⟨⟨s, 0⟩, by simp [limitBulkProducer, limitBufferedProducer, limitProducer, Script.limit], by simp [Script.limit]⟩
    | succ m =>
      obtain ⟨s', h1, h2⟩ := h.base.produce s c ⟨n, hR⟩
      obtain ⟨h3, h4⟩ := limit_produce_step h1 m
      refine ⟨⟨s', m⟩, h3, fun x hx => ?_⟩
      obtain ⟨n', hn'⟩ := h2 x ((h4 x).mp hx)
      refine ⟨0, c.drop 1, n', [], hn', Nat.zero_le _, Nat.zero_le _, ?_,
        hQ c (m + 1) 1 [x] hq (Script.startsWith_cons.mpr ⟨(h4 x).mp hx, by simp⟩) (by simp) (by omega), by simp, rfl⟩
      rw [Script.limit_drop _ _ _ (by simp only; omega)]; rfl
  · rintro ⟨s, m⟩ c' ⟨k, c, n, xs, hR, hk, hm, rfl, hq, _⟩
    obtain ⟨s', ⟨h1, n', h2⟩ | ⟨e, h1, h2⟩⟩ := h.base.slurp s c ⟨n, hR⟩
    · exact ⟨⟨s', m⟩, .inl ⟨by simp [limitBulkProducer, limitBufferedProducer, h1], 0, c, n', [], h2, Nat.zero_le _,
        Nat.zero_le _, rfl, hq, by simp, rfl⟩⟩
    · refine ⟨⟨s', m⟩, .inr ⟨e, ?_, by simp [limitBulkProducer, limitBufferedProducer, h2]⟩⟩
      have : 0 < m := by
        rcases Nat.eq_zero_or_pos m with rfl | h0
        · obtain ⟨i, hi, _⟩ := hq e h1
          exact absurd hi (Nat.not_lt_zero i)
        · exact h0
      simp [Script.limit, h1, this]
  · rintro ⟨s, m⟩ c' k ⟨c, n, xs₀, hR, hk, hm, rfl, hq, _⟩
    simp only at hR hk hm hq
    by_cases h0 : m = 0
    · subst h0
      exact ⟨⟨s, 0⟩, .inr (.inl ⟨none, Script.limit_zero _ _, by simp [limitBulkProducer]⟩)⟩
    · obtain ⟨s', ⟨xs, h1, h2, h3, h4⟩ | ⟨f, h1, h2⟩ | ⟨e', h1, h2⟩⟩ := h.expose s c n hR
      · have hl : 0 < xs.length := List.length_pos_iff.mpr h1
        refine ⟨⟨s', m⟩, .inl ⟨xs.take (min m xs.length), ?_, ?_, ?_, c, xs.length, _, h4, ?_, ?_, rfl, hq, h2.take _, rfl⟩⟩
        · intro h0'
          have := congrArg List.length h0'
          simp only [List.length_take, List.length_nil] at this; omega
        · exact (h2.take _).limit (by simp; omega)
        · simp [limitBulkProducer, h0, h3, slice_of_le (Nat.zero_le _) (Nat.min_le_right m xs.length)]
        · simp; omega
        · simp; omega
      · exact ⟨⟨s', m⟩, .inr (.inl ⟨some f, by simp [Script.limit, h1]; omega, by simp [limitBulkProducer, h0, h2]⟩)⟩
      · exact ⟨⟨s', m⟩, .inr (.inr ⟨e', by simp [Script.limit, h1]; omega, by simp [limitBulkProducer, h0, h2]⟩)⟩
  · rintro ⟨s, m⟩ c' n k ⟨c, n', xs, hR, hk', hm, rfl, hq, hst, hxs⟩ h0 hk
    simp only at hR hk' hm hq
    obtain ⟨s', ⟨h1, h2⟩ | ⟨e, h1, h2⟩⟩ := h.consider s c n' k hR (by omega) (by omega)
    · refine ⟨⟨s', m - k⟩, .inl ⟨?_, c.drop k, n' - k, xs.drop k, h2, by omega, by simp only; omega, ?_,
        hQ c m k xs hq hst (by omega) (by omega), hst.drop (by omega), by simp; omega⟩⟩
      · simp [limitBulkProducer, sub_of_le (show k ≤ m by omega), h1]
      · rw [Script.limit_drop _ _ _ (by simp only; omega)]
    · refine ⟨⟨s', m - k⟩, .inr ⟨e, ?_, by simp [limitBulkProducer, sub_of_le (show k ≤ m by omega), h2]⟩⟩
      have : k < m := by
        rcases Nat.lt_or_ge k m with h3 | h3
        · exact h3
        · obtain ⟨i, hi, hx⟩ := hq e (by rwa [show m = k by omega])
          exact absurd (hst i xs[i] (by simp [show i < xs.length by omega])) (hx _)
      simp [Script.limit, h1, this]

/-- Two of the three items. -/
example : Hasty (limitBulkProducer Case.hasty) ⟨[1, 2, 3], 2⟩ ((Script.ofList [1, 2, 3] (.error "e")).limit 2) :=
  limit_hasty_partial (Case.hasty_hasty [1, 2, 3]) 2 (fun _ h => by cases h)

/-- **C90 fails for `Limit`.** Three items and then an error, limited to three items: the sequence to be emitted is the three items and
then the final value, but `consider_produced(3)` reports the error. -/
theorem limit_hasty_fails : ∃ s₁ s₂, (limitBulkProducer Case.hasty).exposeItems ⟨[1, 2, 3], 3⟩ = ok (s₁, .ok (.inl [1, 2, 3])) ∧
    (limitBulkProducer Case.hasty).considerProduced s₁ 3 = ok (s₂, .error "e") ∧
    (Script.ofList [1, 2, 3] (.error "e") : Script Nat Unit String).limit 3 3 = .ok (.inr none) :=
  ⟨⟨[1, 2, 3], 3⟩, ⟨[], 0⟩, rfl, rfl, rfl⟩

/-! ## `BulkScrambler` -/

/-- **C90, the scrambler** (all methods except `slurp`, as for C27): around a producer that may report errors early it emits the same
sequence, and does so by all methods alike: its `consider_produced` does not fail, and its `bulk_produce` loses nothing. -/
theorem producer_scrambler_hasty (debug : Bool) {P : BulkProducer σ I F E} {s : σ} {c : Script I F E}
    (h : Hasty P s c) (ops : List ScrambleProduce) {cap : Nat} (hcap : 0 < cap) (tmp : Nat → I) :
    BulkPlays (producerScrambler debug P).noSlurp (ProducerScrambler.new s ops cap tmp) c := by
  obtain ⟨R, hR, m, hm⟩ := h
  refine ⟨ProducerScrambler.Plays R (fun _ => True) cap, .of_default rfl
    ⟨⟨ProducerScrambler.hasty_plays_produce debug hR⟩, fun s c hs => ⟨s, .inl ⟨rfl, hs⟩⟩⟩
    (ProducerScrambler.hasty_plays_expose debug hR) (ProducerScrambler.plays_consider (P := P) debug),
    0, [], ProducerScrambler.ok_new hcap, by simp, .inl ⟨rfl, m, by rw [List.length_nil, Script.drop_zero]; exact hm⟩⟩

example : BulkPlays (producerScrambler true Case.hasty).noSlurp
    (ProducerScrambler.new [1, 2, 3] [.slurp, .considerProduced ⟨5, by decide⟩, .produce] 4 (fun _ => 0))
    (Script.ofList [1, 2, 3] (.error "e")) :=
  producer_scrambler_hasty true (Case.hasty_hasty [1, 2, 3]) _ (by decide) _

/-! ## The documented invariants -/

/-- **C90**: `bulk_pipe` and the scrambler use the producer only in ways that respect the documented invariants, so in particular not
after `consider_produced` has failed: all of the above holds also if the producer panics at every violation. -/
theorem hasty_respected {P : BulkProducer σ I F E₁} {C : BulkConsumer τ I F E₂} {D : τ → List I → Option F → Prop}
    {c : Script I F E₁} {q : Policy I F E₂} {s : σ} {t : τ} {l : List I} (hP : Hasty P s c) (hC : BulkCollects C D q t l) :
    (∀ xs fin res, PipeResult c q l xs fin res →
      ∃ s' t', bulkPipe (monitoredProducer P) C (.start s) t = ok ((s', t'), res) ∧ D t' (l ++ xs) fin) ∧
    (∀ debug ops cap tmp, 0 < cap →
      BulkPlays (producerScrambler debug (monitoredProducer P)).noSlurp (ProducerScrambler.new (.start s) ops cap tmp) c) :=
  ⟨fun _ _ _ h => let ⟨s', t', h1, h2, _⟩ := bulk_pipe_hasty hP.monitored hC h; ⟨s', t', h1, h2⟩,
    fun debug ops _ tmp hcap => producer_scrambler_hasty debug hP.monitored ops hcap tmp⟩

example : BulkPlays (producerScrambler true (monitoredProducer Case.hasty)).noSlurp
    (ProducerScrambler.new (.start [1, 2, 3]) [.considerProduced ⟨2, by decide⟩] 4 (fun _ => 0)) (Script.ofList [1, 2, 3] (.error "e")) :=
  (hasty_respected (Case.hasty_hasty [1, 2, 3]) (Case.vec_collects [])).2 true _ 4 _ (by decide)

end

end Verif
