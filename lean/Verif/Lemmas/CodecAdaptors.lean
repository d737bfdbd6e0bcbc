import Verif.Lemmas.Codec

/-!
# Lemmas about the codec adaptors
-/

namespace Verif

open Outcome

section

variable {σ T R F E : Type}

/-! ## Decoding -/

theorem BulkPlays.expose {P : BulkProducer σ UInt8 F E} {s : σ} {c : Script UInt8 F E} (h : BulkPlays P s c) : ∃ s',
    (∃ x xs, c 0 = .ok (.inl x) ∧ P.exposeItems s = ok (s', .ok (.inl xs)) ∧ BulkPlays P s' c) ∨
    (∃ f, c 0 = .ok (.inr f) ∧ P.exposeItems s = ok (s', .ok (.inr f))) ∨
    (∃ e, c 0 = .error e ∧ P.exposeItems s = ok (s', .error e)) := by
  obtain ⟨Q, hQ, n, hs⟩ := h
  obtain ⟨s', ⟨xs, h1, h2, h3, h4⟩ | h | h⟩ := hQ.expose s c n hs
  · cases xs with
    | nil => exact absurd rfl h1
    | cons x xs => exact ⟨s', .inl ⟨x, _, h2 0 x rfl, h3, Q, hQ, _, h4⟩⟩
  · exact ⟨s', .inr (.inl h)⟩
  · exact ⟨s', .inr (.inr h)⟩

/-- One call of `produce` of a decoder. -/
theorem decoderProduce_spec {decode : DecodeFn T R} {g : Grammar T R} (hd : DecodesLaw decode g) (hg : g [] = .more)
    {P : BulkProducer σ UInt8 F E} {s : σ} {c : Script UInt8 F E} (h : BulkPlays P s c)
    {r : Except (DecodeError F E R) (T ⊕ F)} {k : Nat} (hn : DecodesNext g c r k) :
    ∃ s', decoderProduce decode P s = ok (s', r) ∧ ∀ x, r = .ok (.inl x) → BulkPlays P s' (c.drop k) := by
  obtain ⟨s1, ⟨x, xs, h0, h1, h2⟩ | ⟨f, h0, h1⟩ | ⟨e, h0, h1⟩⟩ := h.expose
  · cases hn with
    | value hsw henc =>
      obtain ⟨s', h3, h4⟩ := hd.value h2 hsw henc
      exact ⟨s', by simp [decoderProduce, h1, h3], fun _ _ => h4⟩
    | final hf => rw [h0] at hf; cases hf
    | invalid hsw hbad =>
      obtain ⟨s', h3⟩ := hd.invalid h2 hsw hbad
      exact ⟨s', by simp [decoderProduce, h1, h3], nofun⟩
    | truncated hsw hne hinc hf =>
      obtain ⟨s', h3⟩ := hd.truncated h2 hsw hinc hf
      exact ⟨s', by simp [decoderProduce, h1, h3], nofun⟩
    | failed hsw hinc he =>
      obtain ⟨s', h3⟩ := hd.failed h2 hsw hinc he
      exact ⟨s', by simp [decoderProduce, h1, h3], nofun⟩
  all_goals
    have key : ∀ bs, c.StartsWith bs → bs = [] := by
      intro bs hsw
      cases bs with
      | nil => rfl
      | cons b bs => have := hsw 0 b rfl; rw [h0] at this; cases this
    cases hn with
    | value hsw henc =>
      rw [key _ hsw] at henc
      have := henc.2; rw [hg] at this; cases this
    | invalid hsw hbad =>
      rw [key _ hsw] at hbad
      have := hbad.2; rw [hg] at this; cases this
    | truncated hsw hne hinc hf => exact absurd (key _ hsw) hne
    | final hf =>
      rw [h0] at hf
      first
        | cases hf
          done
        | cases hf
          exact ⟨s1, by simp [decoderProduce, h1], nofun⟩
    | failed hsw hinc he =>
      rw [key _ hsw] at he
      simp only [List.length_nil, h0] at he
      first
        | cases he
          done
        | cases he
          exact ⟨s1, by simp [decoderProduce, h1, DecodeError.fromError], nofun⟩

/-- A decoder always has an answer if the bytes end. -/
theorem decodesNext_of_ends (g : Grammar T R) {c : Script UInt8 F E} {m : Nat} (hm : ∀ b, c m ≠ .ok (.inl b)) :
    ∃ r k, DecodesNext g c r k := by
  have key : ∀ j, ∀ bs : List UInt8, c.StartsWith bs → g.Reaches bs → bs.length + j = m → ∃ r k, DecodesNext g c r k := by
    intro j
    induction j with
    | zero =>
      intro bs h1 h2 h3
      rw [Nat.add_zero] at h3; subst h3
      cases hv : g bs with
      | done x => exact ⟨_, _, .value h1 ⟨h2, hv⟩⟩
      | bad r => exact ⟨_, 0, .invalid h1 ⟨h2, hv⟩⟩
      | more =>
        cases hc : c bs.length with
        | error e => exact ⟨_, 0, .failed h1 ⟨h2, hv⟩ hc⟩
        | ok a =>
          cases a with
          | inl b => exact absurd hc (hm b)
          | inr f =>
            by_cases hnil : bs = []
            · subst hnil; exact ⟨_, 0, .final hc⟩
            · exact ⟨_, 0, .truncated h1 hnil ⟨h2, hv⟩ hc⟩
    | succ j ih =>
      intro bs h1 h2 h3
      cases hv : g bs with
      | done x => exact ⟨_, _, .value h1 ⟨h2, hv⟩⟩
      | bad r => exact ⟨_, 0, .invalid h1 ⟨h2, hv⟩⟩
      | more =>
        cases hc : c bs.length with
        | error e => exact ⟨_, 0, .failed h1 ⟨h2, hv⟩ hc⟩
        | ok a =>
          cases a with
          | inr f =>
            by_cases hnil : bs = []
            · subst hnil; exact ⟨_, 0, .final hc⟩
            · exact ⟨_, 0, .truncated h1 hnil ⟨h2, hv⟩ hc⟩
          | inl b =>
            refine ih (bs ++ [b]) (h1.append ?_) ?_ (by simp; omega)
            · intro i x hi
              match i, hi with
              | 0, hi => simp at hi; subst hi; simpa using hc
              | i + 1, hi => simp at hi
            · intro k hk
              rcases Nat.lt_or_ge k bs.length with hlt | hge
              · rw [List.take_append_of_le_length (Nat.le_of_lt hlt)]; exact h2 k hlt
              · obtain rfl : k = bs.length := by simp at hk; omega
                rw [List.take_left]; exact hv
  exact key m [] (Script.startsWith_nil c) (fun k hk => absurd hk (Nat.not_lt_zero _)) (by simp)

theorem decoderSlurp_spec {g : Grammar T R} (hg : g [] = .more)
    {P : BulkProducer σ UInt8 F E} {s : σ} {c : Script UInt8 F E} (h : BulkPlays P s c)
    {r : Except (DecodeError F E R) (T ⊕ F)} {k : Nat} (hn : DecodesNext g c r k) : ∃ s',
    (decoderSlurp P s = ok (s', (.ok () : Except (DecodeError F E R) Unit)) ∧ BulkPlays P s' c) ∨
    (∃ e, r = .error e ∧ decoderSlurp P s = ok (s', .error e)) := by
  obtain ⟨Q, hQ, n, hs⟩ := h
  obtain ⟨s', ⟨h1, n', h2⟩ | ⟨e, h0, h1⟩⟩ := hQ.base.slurp s c ⟨n, hs⟩
  · exact ⟨s', .inl ⟨by simp [decoderSlurp, h1], Q, hQ, n', h2⟩⟩
  · refine ⟨s', .inr ⟨.producer e, ?_, by simp [decoderSlurp, h1, DecodeError.fromError]⟩⟩
    have key : ∀ bs, c.StartsWith bs → bs = [] := by
      intro bs hsw
      cases bs with
      | nil => rfl
      | cons b bs => have := hsw 0 b rfl; rw [h0] at this; cases this
    cases hn with
    | value hsw henc =>
      rw [key _ hsw] at henc
      have := henc.2; rw [hg] at this; cases this
    | invalid hsw hbad =>
      rw [key _ hsw] at hbad
      have := hbad.2; rw [hg] at this; cases this
    | truncated hsw hne hinc hf => exact absurd (key _ hsw) hne
    | final hf => rw [h0] at hf; cases hf
    | failed hsw hinc he =>
      rw [key _ hsw] at he
      simp only [List.length_nil, h0] at he
      cases he; rfl

/-- What remains of a decoded sequence after some values. -/
theorem Decodes.next {g : Grammar T R} {c : Script UInt8 F E} {c' : Script T F (DecodeError F E R)} {used : Nat → Nat}
    (h : Decodes g c c' used) {x : T} (hx : c' 0 = .ok (.inl x)) :
    Decodes g (c.drop (used 1)) (c'.drop 1) (fun n => used (n + 1) - used 1) := by
  have mono : ∀ n, (∀ i, i < n → ∃ x, c' i = .ok (.inl x)) → used 0 ≤ used n := by
    intro n hn
    rw [h.1]; omega
  have mono1 : ∀ n, (∀ i, i < n + 1 → ∃ x, c' i = .ok (.inl x)) → used 1 ≤ used (n + 1) := by
    intro n hn
    induction n with
    | zero => exact Nat.le_refl _
    | succ n ih =>
      obtain ⟨k, _, h2⟩ := h.2 (n + 1) (fun i hi => hn i (by omega))
      have := ih (fun i hi => hn i (by omega))
      omega
  refine ⟨by simp, fun n hn => ?_⟩
  have hn' : ∀ i, i < n + 1 → ∃ x, c' i = .ok (.inl x) := by
    intro i hi
    cases i with
    | zero => exact ⟨x, hx⟩
    | succ i =>
      obtain ⟨y, hy⟩ := hn i (by omega)
      exact ⟨y, by rw [← hy, Script.drop_apply, Nat.add_comm]⟩
  obtain ⟨k, h1, h2⟩ := h.2 (n + 1) hn'
  have := mono1 n hn'
  refine ⟨k, ?_, by simp only; omega⟩
  rw [Script.drop_drop, Nat.add_sub_cancel' this, Script.drop_apply, Nat.add_comm 1 n]
  exact h1

/-- A decoder of a lawful codec is a lawful producer, and it uses up exactly the encodings of what it emits. -/
theorem decoder_law {decode : DecodeFn T R} {g : Grammar T R} (hd : DecodesLaw decode g) (hg : g [] = .more)
    (P : BulkProducer σ UInt8 F E) :
    BufPlaysLaw (⟨⟨decoderProduce decode P⟩, decoderSlurp P⟩ : BufferedProducer σ T F (DecodeError F E R))
      (fun s c' => ∃ c used, BulkPlays P s c ∧ Decodes g c c' used) := by
  refine ⟨⟨?_⟩, ?_⟩
  · rintro s c' ⟨c, used, h1, h2⟩
    obtain ⟨k, h3, h4⟩ := h2.2 0 (by intro i hi; omega)
    rw [h2.1, Script.drop_zero] at h3
    obtain ⟨s', h5, h6⟩ := decoderProduce_spec hd hg h1 h3
    refine ⟨s', h5, fun x hx => ⟨_, (fun n => used (n + 1) - k), h6 x hx, ?_⟩⟩
    have := h2.next hx
    rw [h4, h2.1, Nat.zero_add] at this
    exact this
  · rintro s c' ⟨c, used, h1, h2⟩
    obtain ⟨k, h3, h4⟩ := h2.2 0 (by intro i hi; omega)
    rw [h2.1, Script.drop_zero] at h3
    obtain ⟨s', ⟨h5, h6⟩ | ⟨e, h5, h6⟩⟩ := decoderSlurp_spec hg h1 h3
    · exact ⟨s', .inl ⟨h5, c, used, h6, h2⟩⟩
    · exact ⟨s', .inr ⟨e, h5, h6⟩⟩

/-- After emitting `xs`, the inner producer is directly after the encodings of `xs`. -/
theorem decoder_emits {decode : DecodeFn T R} {g : Grammar T R} (hd : DecodesLaw decode g) (hg : g [] = .more)
    {P : BulkProducer σ UInt8 F E} {s : σ} {c : Script UInt8 F E} {c' : Script T F (DecodeError F E R)} {used : Nat → Nat}
    (h : BulkPlays P s c) (hc : Decodes g c c' used) {xs : List T} (hxs : c'.StartsWith xs) :
    ∃ s', Emits (⟨decoderProduce decode P⟩ : Producer σ T F (DecodeError F E R)) s xs s' ∧
      BulkPlays P s' (c.drop (used xs.length)) := by
  induction xs generalizing s c c' used with
  | nil =>
    refine ⟨s, .nil _, ?_⟩
    rw [List.length_nil, hc.1, Script.drop_zero]
    exact h
  | cons x xs ih =>
    obtain ⟨hx, hrest⟩ := Script.startsWith_cons.mp hxs
    obtain ⟨k, h3, h4⟩ := hc.2 0 (by intro i hi; omega)
    rw [hc.1, Script.drop_zero] at h3
    obtain ⟨s1, h5, h6⟩ := decoderProduce_spec hd hg h h3
    have hnext := hc.next hx
    rw [h4, hc.1, Nat.zero_add] at hnext
    obtain ⟨s', h7, h8⟩ := ih (h6 x hx) hnext hrest
    refine ⟨s', .cons (by rw [← hx]; exact h5) h7, ?_⟩
    have hle : ∀ n, n ≤ xs.length → k ≤ used (n + 1) := by
      intro n hn
      induction n with
      | zero => rw [h4, hc.1]; omega
      | succ n ihn =>
        obtain ⟨k', _, h10⟩ := hc.2 (n + 1) (fun i hi => by
          have : i < (x :: xs).length := by simp only [List.length_cons]; omega
          exact ⟨(x :: xs)[i], hxs i _ (List.getElem?_eq_getElem this)⟩)
        have := ihn (by omega)
        omega
    rw [Script.drop_drop, Nat.add_sub_cancel' (hle _ (Nat.le_refl _))] at h8
    exact h8

/-! ### Decoding the encodings of a list of values -/

/-- Encodings, then something that is itself decoded to the final value or error `last` without any values. -/
theorem decodes_encodeAll {g : Grammar T R} {enc : T → List UInt8} (hinv : ∀ x, g.Encoding (enc x) x)
    {c : Script UInt8 F E} {xs : List T} (hsw : c.StartsWith (encodeAll enc xs)) {last : Except (DecodeError F E R) F}
    (hlast : DecodesNext g (c.drop (encodeAll enc xs).length) (last.map .inr) 0) :
    Decodes g c (Script.ofList xs last)
      (fun n => (encodeAll enc (xs.take n)).length) := by
  refine ⟨rfl, fun n hn => ?_⟩
  simp only
  have hle : n ≤ xs.length := by
    rcases Nat.lt_or_ge xs.length n with hlt | hge
    · obtain ⟨x, hx⟩ := hn _ hlt
      rw [Script.ofList_end] at hx
      cases last <;> cases hx
    · exact hge
  rcases Nat.lt_or_eq_of_le hle with hlt | rfl
  · have hsplit : xs = xs.take n ++ xs[n] :: xs.drop (n + 1) := by simp
    have h1 : Script.ofList xs last n = .ok (.inl xs[n]) := Script.ofList_startsWith _ _ n _ (List.getElem?_eq_getElem hlt)
    have htake : xs.take (n + 1) = xs.take n ++ [xs[n]] := by simp
    refine ⟨(enc xs[n]).length, ?_, ?_⟩
    · rw [h1]
      refine .value ?_ (hinv _)
      rw [hsplit, encodeAll_append, encodeAll_cons] at hsw
      exact hsw.right.left
    · rw [htake, encodeAll_concat, List.length_append]
  · refine ⟨0, ?_, by rw [List.take_of_length_le (Nat.le_succ _), List.take_length, Nat.add_zero]⟩
    rw [Script.ofList_end, List.take_length]
    exact hlast

/-! ## Encoding -/

/-- An encoder of a lawful codec is a lawful consumer. -/
theorem encoder_law {encode : EncodeFn T} {enc : T → List UInt8} (he : EncodesLaw encode enc) (C : BulkConsumer σ UInt8 F E)
    (D : σ → List UInt8 → Option F → Prop) (q : Policy UInt8 F E) (l : List UInt8) :
    BufCollectsLaw (⟨⟨fun s x => encode C s x, C.close⟩, C.flush⟩ : BufferedConsumer σ T F E) (Encoded D enc l) (q.encoding enc l)
      (fun s xs => BulkCollects C D q s (l ++ encodeAll enc xs)) := by
  refine ⟨⟨?_, ?_, ?_, ?_, ?_⟩, ?_⟩
  · intro s xs h
    exact .inl h.toCollects.observe
  · intro s xs x h ha
    have ha' : q.Accepts (l ++ encodeAll enc xs) (enc x) := Policy.firstError_eq_none.mp ha
    obtain ⟨s', h1, h2⟩ := he.accepted x h ha'
    exact ⟨s', h1, by rw [encodeAll_concat, ← List.append_assoc]; exact h2⟩
  · intro s xs x e h ha
    have ha' : q.firstError (l ++ encodeAll enc xs) (enc x) = some e := ha
    obtain ⟨k, hf⟩ := Policy.firstError_eq_some.mp ha'
    obtain ⟨s', h1, h2⟩ := he.refused x h hf
    exact ⟨s', h1, .inr ⟨rfl, x, k, hf.lt, h2⟩⟩
  · intro s xs f h hc
    obtain ⟨s', h1, h2⟩ := h.toCollects.close_ok f hc
    exact ⟨s', h1, .inl h2⟩
  · intro s xs f e h hc
    obtain ⟨s', h1, h2⟩ := h.toCollects.close_err f hc
    exact ⟨s', h1, .inl h2⟩
  · rintro s xs ⟨Q, hQ, slots, hs⟩
    obtain ⟨s', ⟨h1, h2⟩ | ⟨e, h1, h2, h3⟩⟩ := hQ.base.flush s _ ⟨slots, hs⟩
    · exact ⟨s', .inl ⟨h1, Q, hQ, h2⟩⟩
    · exact ⟨s', .inr ⟨e, h1, h2, .inl h3⟩⟩

/-- Every prefix of the encodings of `xs` consists of the encodings of the first few values and a strict prefix of the next. -/
theorem prefix_encodeAll {enc : T → List UInt8} {d : List UInt8} {xs : List T} (h : d <+: encodeAll enc xs) :
    ∃ ds, ds <+: xs ∧ (d = encodeAll enc ds ∨
      ∃ x k, k < (enc x).length ∧ ds ++ [x] <+: xs ∧ d = encodeAll enc ds ++ (enc x).take k) := by
  induction xs generalizing d with
  | nil =>
    refine ⟨[], List.prefix_rfl, .inl ?_⟩
    simpa [encodeAll] using h
  | cons x xs ih =>
    rw [encodeAll_cons] at h
    by_cases hl : d.length < (enc x).length
    · refine ⟨[], by simp, .inr ⟨x, d.length, hl, by simp, ?_⟩⟩
      obtain ⟨t, ht⟩ := h
      have := congrArg (List.take d.length) ht
      rw [List.take_left, List.take_append_of_le_length (by omega)] at this
      simpa [encodeAll] using this
    · obtain ⟨t, ht⟩ := h
      have h1 : d.take (enc x).length = enc x := by
        have := congrArg (List.take (enc x).length) ht
        rwa [List.take_append_of_le_length (by omega), List.take_left] at this
      have h2 : d.drop (enc x).length ++ t = encodeAll enc xs := by
        have := congrArg (List.drop (enc x).length) ht
        rwa [List.drop_append_of_le_length (by omega), List.drop_left] at this
      have h3 : d = enc x ++ d.drop (enc x).length := by
        conv => lhs; rw [← List.take_append_drop (enc x).length d, h1]
      obtain ⟨ds, h4, h5⟩ := ih ⟨t, h2⟩
      refine ⟨x :: ds, by simpa using h4, ?_⟩
      rcases h5 with h5 | ⟨y, k, hk, h6, h5⟩
      · left; rw [encodeAll_cons, ← h5]; exact h3
      · right
        refine ⟨y, k, hk, by simpa using h6, ?_⟩
        rw [encodeAll_cons, List.append_assoc, ← h5]; exact h3

theorem encoded_of_prefix {D : σ → List UInt8 → Option F → Prop} {enc : T → List UInt8} {s : σ} {d : List UInt8} {xs : List T}
    (h : d <+: encodeAll enc xs) (hD : D s d none) :
    ∃ ds, ds <+: xs ∧ encodeAll enc ds <+: d ∧ Encoded D enc [] s ds none := by
  obtain ⟨ds, h1, h2 | ⟨x, k, hk, h3, h2⟩⟩ := prefix_encodeAll h
  · exact ⟨ds, h1, by rw [h2]; exact List.prefix_rfl, .inl (by simpa [← h2] using hD)⟩
  · exact ⟨ds, h1, by rw [h2]; exact List.prefix_append _ _, .inr ⟨rfl, x, k, hk, by simpa [← h2] using hD⟩⟩

/-- An encoder into a consumer that may delay its effects. -/
theorem encoder_defers_law {encode : EncodeFn T} {enc : T → List UInt8} (he : EncodesLaw encode enc)
    (C : BulkConsumer σ UInt8 F E) (D : σ → List UInt8 → Option F → Prop) {X : Faults UInt8 F E} (hX : X.Regular) :
    BufDefersLaw (⟨⟨fun s x => encode C s x, C.close⟩, C.flush⟩ : BufferedConsumer σ T F E) (Encoded D enc []) (X.encoding enc)
      (fun s xs => BulkDefers C D X s (encodeAll enc xs)) := by
  refine ⟨⟨?_, ?_, ?_⟩, ?_⟩
  · rintro s xs ⟨Q, hQ, slots, hs⟩
    obtain ⟨d, h1, h2⟩ := hQ.base.observe s _ ⟨slots, hs⟩
    obtain ⟨ds, h3, h4, h5⟩ := encoded_of_prefix h1 h2
    exact ⟨ds, h3, h5⟩
  · intro s xs x h
    obtain ⟨s', ⟨h1, h2⟩ | ⟨e, d, h1, h2, h3⟩⟩ := he.deferred x hX h
    · exact ⟨s', .inl ⟨h1, by rw [encodeAll_concat]; exact h2⟩⟩
    · rw [← encodeAll_concat] at h2
      obtain ⟨ds, h4, h5, h6⟩ := encoded_of_prefix (hX.during_prefix _ _ _ h2) h3
      exact ⟨s', .inr ⟨e, ds, h1, ⟨h4, d, h5, h2⟩, h6⟩⟩
  · rintro s xs f ⟨Q, hQ, slots, hs⟩
    obtain ⟨s', ⟨h1, h2⟩ | ⟨e, d, h1, h2, h3⟩⟩ := hQ.base.close s _ f ⟨slots, hs⟩
    · exact ⟨s', .inl ⟨h1, .inl (by simpa using h2)⟩⟩
    · obtain ⟨ds, h4, h5, h6⟩ := encoded_of_prefix (hX.closing_prefix _ _ _ _ h2) h3
      exact ⟨s', .inr ⟨e, ds, h1, ⟨h4, d, h5, h2⟩, h6⟩⟩
  · rintro s xs ⟨Q, hQ, slots, hs⟩
    obtain ⟨s', ⟨h1, h2, h3⟩ | ⟨e, d, h1, h2, h3⟩⟩ := hQ.base.flush s _ ⟨slots, hs⟩
    · exact ⟨s', .inl ⟨h1, ⟨Q, hQ, h2⟩, .inl (by simpa using h3)⟩⟩
    · obtain ⟨ds, h4, h5, h6⟩ := encoded_of_prefix (hX.during_prefix _ _ _ h2) h3
      exact ⟨s', .inr ⟨e, ds, h1, ⟨h4, d, h5, h2⟩, h6⟩⟩

end

end Verif
