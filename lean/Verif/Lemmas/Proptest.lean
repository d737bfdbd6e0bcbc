import Verif.ProptestSpec
import Verif.Props.Codec
import Verif.Props.TestDoubles
import Verif.Lemmas.Pipe

/-!
# Lemmas about the assertion functions of `ufotofu_codec::proptest`
-/

namespace Verif

open Outcome

variable {T R : Type}

theorem Policy.failAfter_accepts {I F E : Type} {n : Nat} {e : E} {xs : List I} (h : xs.length ≤ n) :
    (Policy.failAfter (F := F) n e).Accepts [] xs := by
  intro i x hx
  have : i < xs.length := (List.getElem?_eq_some_iff.mp hx).1
  have h2 : min i xs.length < n := by omega
  simp [Policy.answer, Policy.failAfter, h2]

theorem Policy.failAfter_failsAt {I F E : Type} {n : Nat} {e : E} {xs : List I} (h : n < xs.length) :
    (Policy.failAfter (F := F) n e).FailsAt [] xs n e := by
  refine ⟨Policy.failAfter_accepts (by simp; omega), xs[n], by simp, ?_⟩
  have h2 : ¬ min n xs.length < n := by omega
  simp [Policy.answer, Policy.failAfter, h2]

namespace Proptest

theorem encode_sink {encode : EncodeFn T} {enc : T → List UInt8} (he : EncodesLaw encode enc) (x : T) (n : Nat)
    (sizes : List NonZero) (pattern : List Bool) :
    ∃ s' r, encode sink (Sink.arbitrary n sizes pattern) x = ok (s', r) ∧ s'.inner.consumed = ok ((enc x).take n) := by
  have hc := test_consumer_public_collects (I := UInt8) (F := Unit) false () n sizes (some pattern)
  by_cases h : (enc x).length ≤ n
  · obtain ⟨s', h1, h2⟩ := he.accepted x hc (Policy.failAfter_accepts h)
    refine ⟨s', _, h1, ?_⟩
    have := h2.observe.1
    simpa [List.take_of_length_le h] using this
  · obtain ⟨s', h1, h2⟩ := he.refused x hc (Policy.failAfter_failsAt (Nat.lt_of_not_le h))
    exact ⟨s', _, h1, by simpa using h2.1⟩

end Proptest

/-- Every byte string has a prefix with a verdict, or is the beginning of an encoding. -/
theorem Grammar.classify (g : Grammar T R) (bs : List UInt8) :
    (∃ k, k ≤ bs.length ∧ ((∃ x, g.Encoding (bs.take k) x) ∨ ∃ r, g.Invalid (bs.take k) r)) ∨ g.Incomplete bs := by
  have key : ∀ m, m ≤ bs.length →
      (∃ k, k < m ∧ ((∃ x, g.Encoding (bs.take k) x) ∨ ∃ r, g.Invalid (bs.take k) r)) ∨ ∀ k, k < m → g (bs.take k) = .more := by
    intro m
    induction m with
    | zero => intro _; exact .inr (by omega)
    | succ m ih =>
      intro hm
      obtain ⟨k, hk, h⟩ | h := ih (by omega)
      · exact .inl ⟨k, by omega, h⟩
      · have hr : g.Reaches (bs.take m) := by
          intro k hk
          rw [List.take_take]
          have hk' : k < m := by simp at hk; omega
          rw [Nat.min_eq_left (by omega)]
          exact h k hk'
        cases hg : g (bs.take m) with
        | done x => exact .inl ⟨m, by omega, .inl ⟨x, hr, hg⟩⟩
        | bad r => exact .inl ⟨m, by omega, .inr ⟨r, hr, hg⟩⟩
        | more =>
          refine .inr fun k hk => ?_
          by_cases hkm : k = m
          · exact hkm ▸ hg
          · exact h k (by omega)
  obtain ⟨k, hk, h⟩ | h := key bs.length (by omega)
  · exact .inl ⟨k, by omega, h⟩
  · have hr : g.Reaches bs := h
    cases hg : g bs with
    | done x => exact .inl ⟨bs.length, by omega, .inl ⟨x, by simpa using ⟨hr, hg⟩⟩⟩
    | bad r => exact .inl ⟨bs.length, by omega, .inr ⟨r, by simpa using ⟨hr, hg⟩⟩⟩
    | more => exact .inr ⟨hr, hg⟩

/-- Two prefixes of the same byte string with verdicts are equal. -/
theorem Grammar.unique {g : Grammar T R} {bs : List UInt8} {v₁ v₂ : Verdict T R} {b₁ b₂ : List UInt8} (h₁ : b₁ <+: bs)
    (h₂ : b₂ <+: bs) (r₁ : g.Reaches b₁) (r₂ : g.Reaches b₂) (g₁ : g b₁ = v₁) (g₂ : g b₂ = v₂) (n₁ : v₁ ≠ .more)
    (n₂ : v₂ ≠ .more) : b₁ = b₂ := by
  have e₁ := List.prefix_iff_eq_take.mp h₁
  have e₂ := List.prefix_iff_eq_take.mp h₂
  by_cases hlt : b₁.length < b₂.length
  · have := r₂ _ hlt
    rw [e₂, List.take_take, Nat.min_eq_left (by omega), ← e₁, g₁] at this
    exact absurd this n₁
  · by_cases hgt : b₂.length < b₁.length
    · have := r₁ _ hgt
      rw [e₁, List.take_take, Nat.min_eq_left (by omega), ← e₂, g₂] at this
      exact absurd this n₂
    · rw [e₁, e₂, show b₁.length = b₂.length by omega]

/-- The result of decoding a finite sequence of bytes depends on nothing but the bytes and the final value. -/
theorem DecodesLaw.result {decode : DecodeFn T R} {g : Grammar T R} (hd : DecodesLaw decode g) (F E : Type) (bs : List UInt8)
    (f : F) : ∃ r : Except (DecodeError F E R) T, ∀ {σ : Type} (P : BulkProducer σ UInt8 F E) (s : σ),
      BulkPlays P s (Script.ofList bs (.ok f)) → ∃ s', decode P s = ok (s', r) := by
  have hsw : ∀ k, (Script.ofList bs (.ok f : Except E F)).StartsWith (bs.take k) := by
    intro k
    have := Script.ofList_startsWith bs (.ok f : Except E F)
    exact (show (Script.ofList bs (.ok f : Except E F)).StartsWith (bs.take k ++ bs.drop k) by
      rwa [List.take_append_drop]).left
  obtain ⟨k, hk, ⟨x, h⟩ | ⟨r, h⟩⟩ | h := g.classify bs
  · refine ⟨.ok x, fun P s hp => ?_⟩
    obtain ⟨s', h1, _⟩ := hd.value hp (hsw k) h
    exact ⟨s', h1⟩
  · exact ⟨.error (.other r), fun P s hp => hd.invalid hp (hsw k) h⟩
  · refine ⟨.error (.unexpectedEndOfInput f), fun P s hp => hd.truncated hp (by simpa using hsw bs.length) h ?_⟩
    exact Script.ofList_end _ _

theorem bulkProduceDefault_keeps {σ I F E : Type} {expose : σ → Outcome (σ × Except E (List I ⊕ F))}
    {consider : σ → Nat → Outcome (σ × Except E Unit)} {K : σ → Prop} (h1 : ∀ s s' r, K s → expose s = ok (s', r) → K s')
    (h2 : ∀ s k s' r, K s → consider s k = ok (s', r) → K s') (s : σ) (buf : List I) (s' : σ)
    (r : Except E (Nat ⊕ F) × List I) (hs : K s) (h : bulkProduceDefault expose consider s buf = ok (s', r)) : K s' := by
  simp only [bulkProduceDefault, bind_eq, pure_eq, bind_eq_ok] at h
  obtain ⟨⟨s1, r1⟩, he, h⟩ := h
  have hk := h1 _ _ _ hs he
  cases r1 with
  | error e => cases h; exact hk
  | ok v =>
    cases v with
    | inr f => cases h; exact hk
    | inl xs =>
      simp only [bind_eq_ok] at h
      obtain ⟨⟨s2, r2⟩, hc, h⟩ := h
      have hk2 := h2 _ _ _ _ hk hc
      cases r2 <;> · cases h; exact hk2

namespace FromSlice

theorem exposeItems_data {s s' : FromSlice UInt8} {r} (h : s.exposeItems = ok (s', r)) : s' = s := by
  simp only [FromSlice.exposeItems, bind_eq, pure_eq, bind_eq_ok] at h
  obtain ⟨sl, _, h⟩ := h
  split at h <;> · cases h; rfl

theorem noop_keeps (data : List UInt8) : publicFromSlice.Keeps (fun s => s.data = data) where
  produce s s' r hs h := by
    change s.produce = _ at h
    simp only [FromSlice.produce, bind_eq, pure_eq] at h
    split at h
    · cases h; exact hs
    · simp only [bind_eq_ok] at h
      obtain ⟨_, _, h⟩ := h
      cases h
      exact hs
  slurp s s' r hs h := by
    cases h
    exact hs
  exposeItems s s' r hs h := by rw [exposeItems_data h]; exact hs
  considerProduced s k s' r hs h := by
    cases h
    exact hs
  bulkProduce s buf s' r hs h := by
    refine bulkProduceDefault_keeps (expose := publicFromSlice.exposeItems) (consider := publicFromSlice.considerProduced)
      (K := fun s => s.data = data) ?_ ?_ s buf s' r hs h
    · intro s s' r hs h; rw [exposeItems_data h]; exact hs
    · intro s k s' r hs h; cases h; exact hs

/-- The sequence that a `FromSlice` emits determines its position. -/
theorem plays_position {s : FromSlice UInt8} {c : Script UInt8 Unit Empty} (h : BulkPlays publicFromSlice s c) :
    s.pos ≤ s.data.length ∧ c.StartsWith (s.data.drop s.pos) ∧ c (s.data.length - s.pos) = .ok (.inr ()) := by
  obtain ⟨Q, hQ, n, hs⟩ := h
  have hpos : s.pos ≤ s.data.length := by
    obtain ⟨s', h⟩ : ∃ s' r, s.exposeItems = ok (s', r) := by
      obtain ⟨s', ⟨xs, _, _, h, _⟩ | ⟨f, _, h⟩ | ⟨e, _⟩⟩ := hQ.expose s c n hs
      · exact ⟨s', _, h⟩
      · exact ⟨s', _, h⟩
      · exact nomatch e
    obtain ⟨r, h⟩ := h
    simp only [FromSlice.exposeItems, bind_eq, pure_eq, bind_eq_ok, Outcome.slice] at h
    obtain ⟨_, h, _⟩ := h
    split at h
    · omega
    · cases h
  have hsl : Outcome.slice s.data s.pos s.data.length = ok (s.data.drop s.pos) := by
    rw [slice_of_le hpos (Nat.le_refl _)]; simp
  by_cases hend : s.pos = s.data.length
  · have hx : s.exposeItems = ok (s, .ok (.inr ())) := by
      simp [FromSlice.exposeItems, hsl]
      simp [hend]
    obtain ⟨s', ⟨xs, _, _, h, _⟩ | ⟨f, h0, h⟩ | ⟨e, _⟩⟩ := hQ.expose s c n hs
    · change s.exposeItems = _ at h; rw [hx] at h; cases h
    · refine ⟨hpos, ?_, by simpa [hend] using h0⟩
      simp [hend, Script.StartsWith]
    · exact nomatch e
  · have hne : (s.data.drop s.pos).isEmpty = false := by
      simp; omega
    have hx : s.exposeItems = ok (s, .ok (.inl (s.data.drop s.pos))) := by
      simp only [FromSlice.exposeItems, bind_eq, hsl, bind_ok, hne]
      rfl
    obtain ⟨s', ⟨xs, h0, h1, h, h2⟩ | ⟨f, _, h⟩ | ⟨e, _⟩⟩ := hQ.expose s c n hs
    · change s.exposeItems = _ at h
      rw [hx] at h
      cases h
      refine ⟨hpos, h1, ?_⟩
      have hl : (s.data.drop s.pos).length = s.data.length - s.pos := by simp
      obtain ⟨s2, h3, h4⟩ := hQ.consider _ _ _ _ h2 (by omega) (Nat.le_refl _)
      cases h3
      have hx2 : ({ s with pos := s.pos + (s.data.drop s.pos).length } : FromSlice UInt8).exposeItems
          = ok ({ s with pos := s.pos + (s.data.drop s.pos).length }, .ok (.inr ())) := by
        have hp : s.pos + (s.data.length - s.pos) = s.data.length := by omega
        simp [FromSlice.exposeItems, hl, hp, slice_of_le]
      obtain ⟨s', ⟨xs, _, _, h, _⟩ | ⟨f, h0, h⟩ | ⟨e, _⟩⟩ := hQ.expose _ _ _ h4
      · change FromSlice.exposeItems _ = _ at h; rw [hx2] at h; cases h
      · simpa [Script.drop, hl] using h0
      · exact nomatch e
    · change s.exposeItems = _ at h; rw [hx] at h; cases h
    · exact nomatch e

end FromSlice

/-- After a successful call of a decoder, exactly the bytes of the encoding have been produced. -/
theorem DecodesLaw.producedSoFar {decode : DecodeFn T R} {g : Grammar T R} (hd : DecodesLaw decode g) (hu : decode.Uniform)
    {enc : List UInt8} {p : FromSlice UInt8} {t : T} (h : decode publicFromSlice (FromSlice.new enc) = ok (p, .ok t)) :
    ∃ bs, bs <+: enc ∧ g.Encoding bs t ∧ p.producedSoFar = ok bs := by
  have hp := from_slice_noop_plays enc
  have hsw : ∀ k, (Script.ofList enc (.ok () : Except Empty Unit)).StartsWith (enc.take k) := by
    intro k
    have := Script.ofList_startsWith enc (.ok () : Except Empty Unit)
    exact (show (Script.ofList enc (.ok () : Except Empty Unit)).StartsWith (enc.take k ++ enc.drop k) by
      rwa [List.take_append_drop]).left
  obtain ⟨k, hk, ⟨x, hx⟩ | ⟨r, hr⟩⟩ | hi := g.classify enc
  · obtain ⟨s', h1, h2⟩ := hd.value hp (hsw k) hx
    rw [h] at h1
    cases h1
    have hdata : p.data = enc := hu publicFromSlice _ (FromSlice.noop_keeps enc) _ _ _ rfl h
    obtain ⟨h3, h4, h5⟩ := FromSlice.plays_position h2
    have hlen : (enc.take k).length = k := by simp; omega
    rw [hlen, Script.ofList_drop _ _ _ hk, hdata] at h4 h5
    rw [hdata] at h3
    have hpk : p.pos = k := by
      by_cases h6 : enc.length - p.pos < enc.length - k
      · have hi : enc.length - p.pos < (enc.drop k).length := by simpa using h6
        have := List.getElem?_eq_getElem hi
        have := Script.ofList_startsWith (enc.drop k) (.ok () : Except Empty Unit) _ _ this
        rw [h5] at this; cases this
      · by_cases h7 : enc.length - k < enc.length - p.pos
        · have hi : enc.length - k < (enc.drop p.pos).length := by simpa using h7
          have := List.getElem?_eq_getElem hi
          have h8 := h4 _ _ this
          have h9 := Script.ofList_end (enc.drop k) (.ok () : Except Empty Unit)
          rw [show (enc.drop k).length = enc.length - k by simp, h8] at h9
          cases h9
        · omega
    refine ⟨_, List.take_prefix k enc, hx, ?_⟩
    simp [FromSlice.producedSoFar, FromSlice.offset, hdata, hpk, slice_of_le, hk]
  · obtain ⟨s', h1⟩ := hd.invalid hp (hsw k) hr
    rw [h] at h1; cases h1
  · obtain ⟨s', h1⟩ := hd.truncated hp (by simpa using hsw enc.length) hi (Script.ofList_end _ _)
    rw [h] at h1; cases h1

/-- What the body of a loop preserves, the loop preserves. -/
theorem loop_keeps {σ ρ : Type} {body : σ → Outcome (Step σ ρ)} (Inv : σ → Prop) (Post : ρ → Prop)
    (h1 : ∀ s s', Inv s → body s = ok (.continue s') → Inv s') (h2 : ∀ s r, Inv s → body s = ok (.done r) → Post r) {s : σ}
    {r : ρ} (hs : Inv s) (h : loop body s = ok r) : Post r := by
  replace h := loop_ok_fuel h
  obtain ⟨n, h⟩ := h
  induction n generalizing s with
  | zero => cases h
  | succ n ih =>
    simp only [loopFuel] at h
    cases hb : body s with
    | panic => simp [hb] at h
    | diverge => simp [hb] at h
    | ok st =>
      cases st with
      | done r' =>
        simp [hb] at h
        exact h ▸ h2 _ _ hs hb
      | «continue» s' =>
        simp [hb] at h
        exact ih (h1 _ _ hs hb) h

theorem bulkOverwriteFullSlice_keeps {σ I F E : Type} {P : BulkProducer σ I F E} {K : σ → Prop} (hK : P.Keeps K) {s s' : σ}
    {buf : List I} {r} (hs : K s) (h : bulkOverwriteFullSlice P s buf = ok (s', r)) : K s' := by
  refine loop_keeps (fun st => K st.1) (fun r => K r.1) ?_ ?_ (s := (s, buf, 0)) hs h
  · rintro ⟨s, buf, n⟩ st hs hb
    simp only [bulkOverwriteFullSliceBody, bind_eq, pure_eq] at hb
    split at hb
    · simp only [bind_eq_ok] at hb
      obtain ⟨⟨s1, r1, tail⟩, h1, hb⟩ := hb
      have := hK.bulkProduce _ _ _ _ hs h1
      rcases r1 with e | (k | f) <;> cases hb
      assumption
    · cases hb
  · rintro ⟨s, buf, n⟩ st hs hb
    simp only [bulkOverwriteFullSliceBody, bind_eq, pure_eq] at hb
    split at hb
    · simp only [bind_eq_ok] at hb
      obtain ⟨⟨s1, r1, tail⟩, h1, hb⟩ := hb
      have := hK.bulkProduce _ _ _ _ hs h1
      rcases r1 with e | (k | f) <;> cases hb <;> assumption
    · cases hb
      exact hs

theorem FixedInt.uniform {N : Nat} (i : FixedInt T N) (o : ByteOrder) : DecodeFn.Uniform (i.decode o) := by
  intro σ F E P K hK s s' r hs h
  simp only [FixedInt.decode, bind_eq, pure_eq, bind_eq_ok] at h
  obtain ⟨⟨s1, r1, buf⟩, h1, h⟩ := h
  have := bulkOverwriteFullSlice_keeps hK hs h1
  rcases r1 with e | _ <;> cases h <;> assumption

end Verif
