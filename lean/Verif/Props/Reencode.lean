import Verif.Props.Files
import Verif.Props.Proptest

/-!
# C98: decoding any bytes, and encoding again what was decoded

C41 says what a `Decoder` emits for bytes that are the encodings of given values. Here the bytes are arbitrary: they fall into
encodings in exactly one way, up to a rest at which decoding stops. If the decoded values are encoded again, the result consists of the
encodings of the values; for a `CanonicDecoder`, it is the same bytes again. For integers, changing the byte order reverses each
group of bytes.
-/

namespace Verif

open Outcome

section

variable {σ τ T R RC F E E₁ E₂ : Type}

/-! ## Bytes fall into encodings in exactly one way -/

/-- `bs` consists of encodings, each with the value of which it is an encoding, and `rest`, at which decoding stops: it is the beginning of an encoding
(or empty), or begins with something that is not. -/
structure Grammar.Splits (g : Grammar T R) (bs : List UInt8) (codes : List (List UInt8 × T)) (rest : List UInt8) : Prop where
  whole : bs = (codes.map (·.1)).flatten ++ rest
  each : ∀ p ∈ codes, g.Encoding p.1 p.2
  stuck : g.Incomplete rest ∨ ∃ bad r, bad <+: rest ∧ g.Invalid bad r

/-- The first verdict about the beginnings of `bs`. -/
theorem Grammar.first_verdict (g : Grammar T R) (bs : List UInt8) :
    g.Incomplete bs ∨ (∃ bad r, bad <+: bs ∧ g.Invalid bad r) ∨ ∃ code x, code <+: bs ∧ g.Encoding code x := by
  have key : ∀ n, n ≤ bs.length → g.Reaches (bs.take n) ∨ (∃ bad r, bad <+: bs ∧ g.Invalid bad r) ∨
      ∃ code x, code <+: bs ∧ g.Encoding code x := by
    intro n
    induction n with
    | zero => exact fun _ => .inl fun k hk => by simp at hk
    | succ n ih =>
      intro hn
      rcases ih (by omega) with h | h
      · rcases hv : g (bs.take n) with _ | x | r
        rotate_left
        · exact .inr (.inr ⟨_, x, List.take_prefix _ _, h, hv⟩)
        · exact .inr (.inl ⟨_, r, List.take_prefix _ _, h, hv⟩)
        · refine .inl fun k hk => ?_
          rw [List.length_take, Nat.min_eq_left hn] at hk
          rw [List.take_take, Nat.min_eq_left (Nat.le_of_lt hk)]
          rcases Nat.lt_or_eq_of_le (Nat.le_of_lt_succ hk) with hk | rfl
          · have := h k (by rw [List.length_take, Nat.min_eq_left (by omega)]; exact hk)
            rwa [List.take_take, Nat.min_eq_left (Nat.le_of_lt hk)] at this
          · exact hv
      · exact .inr h
  rcases key bs.length (Nat.le_refl _) with h | h
  · rw [List.take_length] at h
    rcases hv : g bs with _ | x | r
    · exact .inl ⟨h, hv⟩
    · exact .inr (.inr ⟨bs, x, List.prefix_refl _, h, hv⟩)
    · exact .inr (.inl ⟨bs, r, List.prefix_refl _, h, hv⟩)
  · exact .inr h

/-- **C98.** All bytes fall into encodings and a rest. -/
theorem Grammar.splits (g : Grammar T R) (hg : g [] = .more) (bs : List UInt8) : ∃ codes rest, g.Splits bs codes rest := by
  generalize hn : bs.length = n
  induction n using Nat.strongRecOn generalizing bs with
  | ind n ih =>
    rcases g.first_verdict bs with h | h | ⟨code, x, ⟨rest, rfl⟩, h⟩
    · exact ⟨[], bs, rfl, by simp, .inl h⟩
    · exact ⟨[], bs, rfl, by simp, .inr h⟩
    · have hpos : 0 < code.length := by
        rcases code with _ | _
        · rw [h.2] at hg; cases hg
        · simp
      obtain ⟨codes, rest', h1, h2, h3⟩ := ih rest.length (by rw [← hn, List.length_append]; omega) rest rfl
      refine ⟨(code, x) :: codes, rest', by simp [h1], ?_, h3⟩
      rintro p (_ | ⟨_, hp⟩)
      · exact h
      · exact h2 p hp

example := Grammar.splits (u16.grammar .big) (by decide) [0, 1, 2]

/-- Two beginnings of the same bytes of which both are reached, and have a verdict, are the same. -/
theorem Grammar.Reaches.unique {g : Grammar T R} {a b bs : List UInt8} (ha : g.Reaches a) (hb : g.Reaches b) (ha' : g a ≠ .more)
    (hb' : g b ≠ .more) (h1 : a <+: bs) (h2 : b <+: bs) : a = b := by
  have h1' := List.prefix_iff_eq_take.mp h1
  have h2' := List.prefix_iff_eq_take.mp h2
  have hla := h1.length_le
  have hlb := h2.length_le
  rcases Nat.lt_trichotomy a.length b.length with h | h | h
  · refine absurd ?_ ha'
    have := hb _ h
    rw [h2', List.take_take, Nat.min_eq_left (Nat.le_of_lt h), ← h1'] at this
    exact this
  · rw [h1', h2', h]
  · refine absurd ?_ hb'
    have := ha _ h
    rw [h1', List.take_take, Nat.min_eq_left (Nat.le_of_lt h), ← h2'] at this
    exact this

/-- An encoding is not the beginning of bytes at which decoding stops. -/
theorem Grammar.Encoding.not_stuck {g : Grammar T R} {code bs : List UInt8} {x : T} (h : g.Encoding code x) (hc : code <+: bs)
    (hs : g.Incomplete bs ∨ ∃ bad r, bad <+: bs ∧ g.Invalid bad r) : False := by
  have hx : g code ≠ .more := by rw [h.2]; nofun
  rcases hs with hs | ⟨bad, r, h1, h2⟩
  · rcases Nat.lt_or_eq_of_le hc.length_le with hl | hl
    · have := hs.1 _ hl
      rw [← List.prefix_iff_eq_take.mp hc] at this
      exact hx this
    · rw [hc.eq_of_length hl] at hx
      exact hx hs.2
  · have := h.1.unique h2.1 hx (by rw [h2.2]; nofun) hc h1
    have h3 := h.2
    rw [this, h2.2] at h3
    cases h3

/-- **C98.** They do so in one way only. -/
theorem Grammar.Splits.unique {g : Grammar T R} {bs : List UInt8} {codes codes' : List (List UInt8 × T)} {rest rest' : List UInt8}
    (h : g.Splits bs codes rest) (h' : g.Splits bs codes' rest') : codes = codes' ∧ rest = rest' := by
  induction codes generalizing bs codes' with
  | nil =>
    cases codes' with
    | nil => exact ⟨rfl, by simpa using h.whole.symm.trans h'.whole⟩
    | cons p codes' =>
      refine ((h'.each p (by simp)).not_stuck (bs := rest) ?_ h.stuck).elim
      have := h.whole.symm.trans h'.whole
      simp only [List.map_nil, List.flatten_nil, List.nil_append, List.map_cons, List.flatten_cons, List.append_assoc] at this
      exact ⟨_, this.symm⟩
  | cons p codes ih =>
    cases codes' with
    | nil =>
      refine ((h.each p (by simp)).not_stuck (bs := rest') ?_ h'.stuck).elim
      have := h'.whole.symm.trans h.whole
      simp only [List.map_nil, List.flatten_nil, List.nil_append, List.map_cons, List.flatten_cons, List.append_assoc] at this
      exact ⟨_, this.symm⟩
    | cons p' codes' =>
      have e := h.whole.symm.trans h'.whole
      simp only [List.map_cons, List.flatten_cons, List.append_assoc] at e
      have hp := h.each p (by simp)
      have hp' := h'.each p' (by simp)
      have e1 : p.1 = p'.1 := hp.1.unique hp'.1 (by rw [hp.2]; nofun) (by rw [hp'.2]; nofun) (List.prefix_append _ _) ⟨_, e.symm⟩
      have e2 : p.2 = p'.2 := by
        have := hp.2
        rw [e1, hp'.2] at this
        injection this with this
        exact this.symm
      rw [e1, List.append_cancel_left_eq] at e
      obtain ⟨h1, h2⟩ := ih ⟨rfl, fun q hq => h.each q (by simp [hq]), h.stuck⟩ ⟨e, fun q hq => h'.each q (by simp [hq]), h'.stuck⟩
      exact ⟨by rw [h1]; congr 1; exact Prod.ext e1 e2, h2⟩

/-- `7` is no truth value. -/
theorem Case.flag_splits : (byteGrammar Case.flagCanonic).Splits [1, 0, 7, 1] [([1], true), ([0], false)] [7, 1] where
  whole := rfl
  each := by
    rintro p (_ | ⟨_, _ | ⟨_, hp⟩⟩)
    · exact Case.flag_encoding_canonic true
    · exact Case.flag_encoding_canonic false
    · cases hp
  stuck := .inr ⟨[7], 7, ⟨[1], rfl⟩, Case.flag_invalid⟩

example {codes : List (List UInt8 × Bool)} {rest : List UInt8} (h : (byteGrammar Case.flagCanonic).Splits [1, 0, 7, 1] codes rest) :
    codes = [([1], true), ([0], false)] ∧ rest = [7, 1] :=
  h.unique Case.flag_splits

/-- A list of values whose encodings are, in this order, part of the bytes: nothing else can be decoded from them. -/
theorem encodeAll_splits {g : Grammar T R} {enc : T → List UInt8} (hinv : ∀ x, g.Encoding (enc x) x) (xs : List T) {rest : List UInt8}
    (hs : g.Incomplete rest ∨ ∃ bad r, bad <+: rest ∧ g.Invalid bad r) :
    g.Splits (encodeAll enc xs ++ rest) (xs.map fun x => (enc x, x)) rest where
  whole := by simp only [encodeAll, List.map_map]; rfl
  each p hp := by
    obtain ⟨x, _, rfl⟩ := List.mem_map.mp hp
    exact hinv x
  stuck := hs

/-- **C98, unique decodability.** If the encodings of `xs` are the beginning of those of `ys`, then `xs` is a beginning of `ys`. -/
theorem encodeAll_prefix_iff {g : Grammar T R} (hg : g [] = .more) {enc : T → List UInt8} (hinv : ∀ x, g.Encoding (enc x) x)
    {xs ys : List T} : encodeAll enc xs <+: encodeAll enc ys ↔ xs <+: ys := by
  refine ⟨fun h => ?_, encodeAll_prefix⟩
  obtain ⟨zs, part, h1, h2⟩ := prefix_cut h
  have hinc : g.Incomplete [] := ⟨fun k hk => absurd hk (Nat.not_lt_zero _), hg⟩
  have hpart : g.Incomplete part := by
    rcases h2.next with rfl | ⟨y, _, h3, h4⟩
    · exact hinc
    · have e := List.prefix_iff_eq_take.mp h3
      refine ⟨fun k hk => ?_, ?_⟩
      · rw [e, List.take_take, Nat.min_eq_left (Nat.le_of_lt hk)]
        exact (hinv y).1 k (by omega)
      · rw [e]; exact (hinv y).1 _ h4
  have hx := encodeAll_splits hinv xs (.inl hinc)
  rw [List.append_nil, h1] at hx
  have h3 := (hx.unique (encodeAll_splits hinv zs (.inl hpart))).1
  have : xs = zs := by simpa [Function.comp_def] using congrArg (List.map (·.2)) h3
  rw [this]
  exact h2.isPrefix

theorem encodeAll_injective {g : Grammar T R} (hg : g [] = .more) {enc : T → List UInt8} (hinv : ∀ x, g.Encoding (enc x) x)
    {xs ys : List T} (h : encodeAll enc xs = encodeAll enc ys) : xs = ys := by
  have h1 := (encodeAll_prefix_iff hg hinv).mp (h ▸ List.prefix_refl _ : encodeAll enc xs <+: encodeAll enc ys)
  have h2 := (encodeAll_prefix_iff hg hinv).mp (h ▸ List.prefix_refl _ : encodeAll enc ys <+: encodeAll enc xs)
  exact h1.eq_of_length (Nat.le_antisymm h1.length_le h2.length_le)

example {xs ys : List UInt16} (h : encodeAll (u16.toBytes .big) xs = encodeAll (u16.toBytes .big) ys) : xs = ys :=
  encodeAll_injective (g := u16.grammar .big) (by simp [FixedInt.grammar]) Case.u16_encoding h

example {xs : List UInt16} (h : encodeAll (u16.toBytes .big) [0x0102] <+: encodeAll (u16.toBytes .big) xs) : [0x0102] <+: xs :=
  (encodeAll_prefix_iff (g := u16.grammar .big) (by simp [FixedInt.grammar]) Case.u16_encoding).mp h

/-! ## What a decoder does with any bytes -/

/-- What a decoder ends with, if it stops at `rest` and the bytes end with `last`. -/
inductive Grammar.Ending (g : Grammar T R) (rest : List UInt8) (last : Except E F) : Except (DecodeError F E R) F → Prop where
  | final {f} : rest = [] → last = .ok f → Ending g rest last (.ok f)
  | truncated {f} : rest ≠ [] → g.Incomplete rest → last = .ok f → Ending g rest last (.error (.unexpectedEndOfInput f))
  | failed {e} : g.Incomplete rest → last = .error e → Ending g rest last (.error (.producer e))
  | invalid {bad r} : bad <+: rest → g.Invalid bad r → Ending g rest last (.error (.other r))

theorem Grammar.Splits.ending {g : Grammar T R} {bs : List UInt8} {codes : List (List UInt8 × T)} {rest : List UInt8}
    (h : g.Splits bs codes rest) (last : Except E F) : ∃ fin, g.Ending rest last fin := by
  rcases h.stuck with h | ⟨bad, r, h1, h2⟩
  · cases last with
    | error e => exact ⟨_, .failed h rfl⟩
    | ok f =>
      by_cases hr : rest = []
      · exact ⟨_, .final hr rfl⟩
      · exact ⟨_, .truncated hr h rfl⟩
  · exact ⟨_, .invalid h1 h2⟩

/-- Encodings, and then something that is itself decoded to the final value or error `last` without any values. -/
theorem decodes_codes {g : Grammar T R} {codes : List (List UInt8 × T)} (hc : ∀ p ∈ codes, g.Encoding p.1 p.2) {c : Script UInt8 F E}
    (hsw : c.StartsWith (codes.map (·.1)).flatten) {last : Except (DecodeError F E R) F}
    (hlast : DecodesNext g (c.drop (codes.map (·.1)).flatten.length) (last.map .inr) 0) :
    Decodes g c (Script.ofList (codes.map (·.2)) last) (fun n => ((codes.take n).map (·.1)).flatten.length) := by
  refine ⟨rfl, fun n hn => ?_⟩
  simp only
  have hle : n ≤ codes.length := by
    rcases Nat.lt_or_ge codes.length n with hlt | hge
    · obtain ⟨x, hx⟩ := hn _ hlt
      have := Script.ofList_end (codes.map (·.2)) last
      rw [List.length_map] at this
      rw [this] at hx
      cases last <;> cases hx
    · exact hge
  rcases Nat.lt_or_eq_of_le hle with hlt | rfl
  · have hsplit : codes = codes.take n ++ codes[n] :: codes.drop (n + 1) := by simp
    have h1 : Script.ofList (codes.map (·.2)) last n = .ok (.inl codes[n].2) :=
      Script.ofList_startsWith _ _ n _ (by simp [List.getElem?_map, List.getElem?_eq_getElem hlt])
    have htake : codes.take (n + 1) = codes.take n ++ [codes[n]] := by simp
    refine ⟨codes[n].1.length, ?_, ?_⟩
    · rw [h1]
      refine .value ?_ (hc _ (List.getElem_mem hlt))
      rw [hsplit, List.map_append, List.flatten_append, List.map_cons, List.flatten_cons] at hsw
      exact hsw.right.left
    · rw [htake, List.map_append, List.flatten_append, List.length_append]
      simp
  · refine ⟨0, ?_, by rw [List.take_of_length_le (Nat.le_succ _), List.take_length, Nat.add_zero]⟩
    have := Script.ofList_end (codes.map (·.2)) last
    rw [List.length_map] at this
    rw [this, List.take_length]
    exact hlast

/-- **C98, decoding.** For all bytes, a `Decoder` emits the values of the encodings into which the bytes fall, and ends as it must. -/
theorem decoder_reads {d : Decodable T R} {g : Grammar T R} (hd : DecodesLaw d.decode g) (hg : g [] = .more)
    {P : BulkProducer σ UInt8 F E} {s : σ} {bs : List UInt8} {last : Except E F} (h : BulkPlays P s (Script.ofList bs last))
    {codes : List (List UInt8 × T)} {rest : List UInt8} (hs : g.Splits bs codes rest) {fin : Except (DecodeError F E R) F}
    (hfin : g.Ending rest last fin) : BufPlays (decoder d P) s (Script.ofList (codes.map (·.2)) fin) := by
  obtain ⟨rfl, h2, _⟩ := hs
  refine decoder_plays hd hg h (decodes_codes h2 (Script.ofList_startsWith _ _).left ?_)
  rw [Script.ofList_drop _ _ _ (by simp), List.drop_left]
  cases hfin with
  | final h1 h3 => subst h1 h3; exact .final (Script.ofList_end _ _)
  | truncated h1 h3 h4 => subst h4; exact .truncated (Script.ofList_startsWith _ _) h1 h3 (Script.ofList_end _ _)
  | failed h1 h3 => subst h3; exact .failed (Script.ofList_startsWith _ _) h1 (Script.ofList_end _ _)
  | invalid h1 h3 => exact .invalid (Script.ofList_startsWith_iff.mpr h1) h3

example : BufPlays (decoder (⟨Case.flagDecodable.decodeCanonic⟩ : Decodable Bool UInt8) Case.bytes) (Case.from_ [1, 0, 7, 1] (.ok 5))
    (Script.ofList [true, false] (.error (.other 7))) :=
  decoder_reads Case.flag_decodes_canonic rfl (Case.from_plays _ _) Case.flag_splits (.invalid (bad := [7]) ⟨[1], rfl⟩ Case.flag_invalid)

/-- So each sequence of bytes has, whatever it is, exactly one decoding. -/
theorem decoder_total {d : Decodable T R} {g : Grammar T R} (hd : DecodesLaw d.decode g) (hg : g [] = .more)
    {P : BulkProducer σ UInt8 F E} {s : σ} {bs : List UInt8} {last : Except E F} (h : BulkPlays P s (Script.ofList bs last)) :
    ∃ codes rest fin, g.Splits bs codes rest ∧ g.Ending rest last fin ∧
      BufPlays (decoder d P) s (Script.ofList (codes.map (·.2)) fin) := by
  obtain ⟨codes, rest, hs⟩ := g.splits hg bs
  obtain ⟨fin, hfin⟩ := hs.ending last
  exact ⟨codes, rest, fin, hs, hfin, decoder_reads hd hg h hs hfin⟩

example : ∃ codes rest fin, (u16.grammar .big).Splits [1, 2, 3] codes rest ∧ (u16.grammar .big).Ending rest (.ok 5) fin ∧
    BufPlays (decoder U16BE.decodable.toDecodable Case.bytes) (Case.from_ [1, 2, 3] (.ok 5)) (Script.ofList (codes.map (·.2)) fin) :=
  decoder_total (u16.decodesLaw .big) (by simp [FixedInt.grammar]) (Case.from_plays _ _)

/-! ## Encoding again -/

/-- What may come out when the values decoded from the bytes `bs`, which end with `last`, are encoded by `enc` again; the consumer of
bytes had been passed `l` before. -/
inductive Recoded (g : Grammar T R) (bs : List UInt8) (last : Except E₁ F) (X : Faults UInt8 F E₂) (enc : T → List UInt8)
    (l : List UInt8) (Open : τ → List UInt8 → Prop) (D : τ → List UInt8 → Option F → Prop) :
    τ → Except (PipeError (DecodeError F E₁ R) E₂) Unit → Prop where
  /-- All bytes have been decoded, and all values encoded. -/
  | all {u' codes f} : g.Splits bs codes [] → last = .ok f → D u' (l ++ encodeAll enc (codes.map (·.2))) (some f) →
      Recoded g bs last X enc l Open D u' (.ok ())
  /-- Decoding has stopped, and all values before that have been encoded. -/
  | stopped {u' codes rest err} : g.Splits bs codes rest → g.Ending rest last (.error err) →
      Open u' (l ++ encodeAll enc (codes.map (·.2))) → Recoded g bs last X enc l Open D u' (.error (.producer err))
  /-- The consumer of bytes has failed. -/
  | refused {u' codes rest d e} : g.Splits bs codes rest →
      (∃ xs, xs <+: codes.map (·.2) ∧ X.during (l ++ encodeAll enc xs) d e) ∨
        (rest = [] ∧ ∃ f, last = .ok f ∧ X.closing (l ++ encodeAll enc (codes.map (·.2))) f d e) → D u' d none →
      Recoded g bs last X enc l Open D u' (.error (.consumer e))

/-- **C98, encoding again.** Whatever the bytes, piping a `Decoder` into an `Encoder` terminates, and the encoder's consumer of bytes
has received the encodings of the decoded values. -/
theorem recode {t : Encodable T} {enc : T → List UInt8} (he : EncodesLaw t.encode enc) {d : Decodable T R} {g : Grammar T R}
    (hd : DecodesLaw d.decode g) (hg : g [] = .more) {P : BulkProducer σ UInt8 F E₁} {s : σ} {bs : List UInt8} {last : Except E₁ F}
    (hP : BulkPlays P s (Script.ofList bs last)) {C : BulkConsumer τ UInt8 F E₂} {D : τ → List UInt8 → Option F → Prop}
    {X : Faults UInt8 F E₂} (hX : X.Regular) {u : τ} {l : List UInt8} (hC : BulkDefers C D X u l) :
    ∃ s' u' res, pipe (decoder d P).toProducer (encoder t C).toConsumer s u = ok ((s', u'), res) ∧
      Recoded g bs last X enc l (BulkDefers C D X) D u' res := by
  obtain ⟨codes, rest, fin, hs, hfin, hplays⟩ := decoder_total hd hg hP
  rcases encoder_pipe he hX hplays.toPlays hC with ⟨s', u', res, h1, h2⟩ | ⟨_, h⟩
  · refine ⟨s', u', res, h1, ?_⟩
    cases h2 with
    | @closed xs f h3 h4 h5 =>
      cases fin with
      | error err =>
        obtain ⟨zs, hz⟩ := Script.ofList_startsWith_iff.mp h3
        rw [← hz] at h4
        cases zs <;> simp [Script.ofList, Except.map] at h4
      | ok f' =>
        obtain ⟨rfl, rfl⟩ := Script.ofList_final h3 h4
        cases hfin with
        | final h6 h7 => subst h6; exact .all hs h7 h5
    | @producerFailed xs err h3 h4 h5 =>
      obtain ⟨zs, hz⟩ := Script.ofList_startsWith_iff.mp h3
      rw [← hz] at h4
      cases zs with
      | cons z zs => simp [Script.ofList] at h4
      | nil =>
        rw [List.append_nil] at hz h4
        rw [Script.ofList_end] at h4
        cases fin with
        | ok f => cases h4
        | error err' => cases h4; exact .stopped hs hfin (hz ▸ h5)
    | @itemFailed xs d' e h3 h4 h5 h6 => exact .refused hs (.inl ⟨xs, Script.ofList_startsWith_iff.mp h4, h5⟩) h6
    | @closeFailed xs f d' e h3 h4 h5 h6 =>
      cases fin with
      | error err =>
        obtain ⟨zs, hz⟩ := Script.ofList_startsWith_iff.mp h3
        rw [← hz] at h4
        cases zs <;> simp [Script.ofList, Except.map] at h4
      | ok f' =>
        obtain ⟨rfl, rfl⟩ := Script.ofList_final h3 h4
        cases hfin with
        | final h7 h8 => exact .refused hs (.inr ⟨h7, f, h8, h5⟩) h6
  · exact (Script.not_endless h).elim

/-- From big endian to little endian, with one byte too many. -/
example : ∃ s' u' res, pipe (decoder U16BE.decodable.toDecodable (FromSlice.producer UInt8)).toProducer
      (encoder U16LE.encodable.toEncodable Case.sink).toConsumer (FromSlice.new [1, 2, 3]) (Case.upTo 5) = ok ((s', u'), res) ∧
    Recoded (u16.grammar .big) [1, 2, 3] (.ok ()) (Policy.failAfter 5 "full").faults (u16.toBytes .little) []
      (BulkDefers Case.sink TestConsumer.Seen (Policy.failAfter 5 "full").faults) TestConsumer.Seen u' res :=
  recode (t := U16LE.encodable.toEncodable) (d := U16BE.decodable.toDecodable) (u16.encodesLaw .little) (u16.decodesLaw .big)
    (by simp [FixedInt.grammar]) (from_slice_plays [1, 2, 3]) (Policy.regular_faults _) (Case.upTo_collects 5).toBulkDefers

/-- What canonic codes decode to is encoded as the same codes. -/
theorem encodeAll_codes {enc : T → List UInt8} {codes : List (List UInt8 × T)} (h : ∀ p ∈ codes, enc p.2 = p.1) :
    encodeAll enc (codes.map (·.2)) = (codes.map (·.1)).flatten := by
  rw [encodeAll, List.map_map]
  congr 1
  exact List.map_congr_left fun p hp => h p hp

/-- **C98, canonic decoding.** If values are encoded as the codes from which they were decoded, then piping a `CanonicDecoder` into an
`Encoder` copies the bytes: all of them, if it succeeds; up to the rest at which decoding stops, if that fails; and a beginning
of them, if the consumer of bytes fails. -/
theorem canonic_recode {t : Encodable T} {enc : T → List UInt8} (he : EncodesLaw t.encode enc) {d : DecodableCanonic T R RC}
    {g : Grammar T RC} (hd : DecodesLaw d.decodeCanonic g) (hg : g [] = .more) (hre : ∀ bs x, g.Encoding bs x → enc x = bs)
    {P : BulkProducer σ UInt8 F E₁} {s : σ} {bs : List UInt8} {last : Except E₁ F} (hP : BulkPlays P s (Script.ofList bs last))
    {C : BulkConsumer τ UInt8 F E₂} {D : τ → List UInt8 → Option F → Prop} {X : Faults UInt8 F E₂} (hX : X.Regular) {u : τ}
    {l : List UInt8} (hC : BulkDefers C D X u l) :
    ∃ s' u' res, pipe (canonicDecoder d P).toProducer (encoder t C).toConsumer s u = ok ((s', u'), res) ∧
      ((res = .ok () ∧ ∃ f, last = .ok f ∧ D u' (l ++ bs) (some f)) ∨
       (∃ err codes rest, res = .error (.producer err) ∧ g.Splits bs codes rest ∧ g.Ending rest last (.error err) ∧
          BulkDefers C D X u' (l ++ (codes.map (·.1)).flatten)) ∨
       (∃ e d, res = .error (.consumer e) ∧ D u' d none ∧
          (X.during (l ++ bs) d e ∨ ∃ f, last = .ok f ∧ X.closing (l ++ bs) f d e))) := by
  obtain ⟨s', u', res, h1, h2⟩ := recode he (d := ⟨d.decodeCanonic⟩) hd hg hP hX hC
  refine ⟨s', u', res, h1, ?_⟩
  have hcodes {codes : List (List UInt8 × T)} {rest : List UInt8} (hs : g.Splits bs codes rest) :=
    encodeAll_codes (enc := enc) fun p hp => hre _ _ (hs.each p hp)
  cases h2 with
  | all hs h3 h4 =>
    refine .inl ⟨rfl, _, h3, ?_⟩
    rw [hcodes hs] at h4
    rwa [hs.whole, List.append_nil]
  | stopped hs h3 h4 => exact .inr (.inl ⟨_, _, _, rfl, hs, h3, hcodes hs ▸ h4⟩)
  | refused hs h3 h4 =>
    refine .inr (.inr ⟨_, _, rfl, h4, ?_⟩)
    rcases h3 with ⟨xs, h5, h6⟩ | ⟨rfl, f, h5, h6⟩
    · refine .inl (hX.mono _ _ _ _ h6 ?_)
      rw [List.prefix_append_right_inj]
      have := encodeAll_prefix (enc := enc) h5
      rw [hcodes hs] at this
      rw [hs.whole]
      exact this.trans (List.prefix_append _ _)
    · rw [hcodes hs] at h6
      refine .inr ⟨f, h5, ?_⟩
      rwa [hs.whole, List.append_nil]

/-- The truth values, and room for three of them. -/
example : ∃ s' u' res, pipe (canonicDecoder Case.flagDecodable (FromSlice.producer UInt8)).toProducer
      (encoder Case.flagEncodable.toEncodable Case.sink).toConsumer (FromSlice.new [1, 0, 7, 1]) (Case.upTo 3) = ok ((s', u'), res) ∧
    ((res = .ok () ∧ ∃ f, (.ok () : Except Empty Unit) = .ok f ∧ TestConsumer.Seen u' ([] ++ [1, 0, 7, 1]) (some f)) ∨
     (∃ err codes rest, res = .error (.producer err) ∧ (byteGrammar Case.flagCanonic).Splits [1, 0, 7, 1] codes rest ∧
        (byteGrammar Case.flagCanonic).Ending rest (.ok ()) (.error err) ∧
        BulkDefers Case.sink TestConsumer.Seen (Policy.failAfter 3 "full").faults u' ([] ++ (codes.map (·.1)).flatten)) ∨
     (∃ e d, res = .error (.consumer e) ∧ TestConsumer.Seen u' d none ∧
        ((Policy.failAfter (F := Unit) 3 "full").faults.during ([] ++ [1, 0, 7, 1]) d e ∨
         ∃ f, (.ok () : Except Empty Unit) = .ok f ∧ (Policy.failAfter 3 "full").faults.closing ([] ++ [1, 0, 7, 1]) f d e))) :=
  canonic_recode Case.flag_encodes Case.flag_decodes_canonic rfl
    (fun bs x h => Case.flag_canonic.reencodes bs x h) (from_slice_plays [1, 0, 7, 1]) (Policy.regular_faults _)
    (Case.upTo_collects 3).toBulkDefers

/-! ## From bytes to bytes in memory -/

/-- A vector that can be used on contains what was passed to it. -/
theorem into_vec_open [Inhabited T] {X : Faults T Unit Empty} {v : IntoVec T} {l : List T}
    (h : BulkDefers (IntoVec.consumer T) (fun v l _ => v.asRef = ok l ∧ v.intoVec = l) X v l) : v.intoVec = l := by
  obtain ⟨v', ⟨h1, h2⟩ | ⟨e, _⟩⟩ := h.toDefers.close ()
  · cases h1
    exact h2.2
  · cases e

/-- **C98**, from a slice to a vector. -/
theorem recode_slice {t : Encodable T} {enc : T → List UInt8} (he : EncodesLaw t.encode enc) {d : Decodable T R} {g : Grammar T R}
    (hd : DecodesLaw d.decode g) (hg : g [] = .more) {bs : List UInt8} {codes : List (List UInt8 × T)} {rest : List UInt8}
    (hs : g.Splits bs codes rest) :
    ∃ s' v res, pipe (decoder d (FromSlice.producer UInt8)).toProducer (encoder t (IntoVec.consumer UInt8)).toConsumer
        (FromSlice.new bs) IntoVec.new = ok ((s', v), res) ∧
      v.intoVec = encodeAll enc (codes.map (·.2)) ∧
      ((res = .ok () ∧ rest = []) ∨ ∃ err, res = .error (.producer err) ∧ g.Ending rest (.ok ()) (.error err)) := by
  obtain ⟨s', v, res, h1, h2⟩ := recode he hd hg (from_slice_plays bs) (Policy.regular_faults _) into_vec_new_collects.toBulkDefers
  refine ⟨s', v, res, h1, ?_⟩
  cases h2 with
  | all hs' h3 h4 =>
    obtain ⟨rfl, rfl⟩ := hs.unique hs'
    exact ⟨h4.2, .inl ⟨rfl, rfl⟩⟩
  | stopped hs' h3 h4 =>
    obtain ⟨rfl, rfl⟩ := hs.unique hs'
    exact ⟨into_vec_open h4, .inr ⟨_, rfl, h3⟩⟩
  | @refused _ _ _ e => cases e

example : ∃ s' v res, pipe (decoder (⟨Case.flagDecodable.decodeCanonic⟩ : Decodable Bool UInt8) (FromSlice.producer UInt8)).toProducer
      (encoder Case.flagEncodable.toEncodable (IntoVec.consumer UInt8)).toConsumer (FromSlice.new [1, 0, 7, 1]) IntoVec.new =
        ok ((s', v), res) ∧ v.intoVec = [1, 0] ∧
    ((res = .ok () ∧ ([7, 1] : List UInt8) = []) ∨
      ∃ err, res = .error (.producer err) ∧ (byteGrammar Case.flagCanonic).Ending [7, 1] (.ok ()) (.error err)) :=
  recode_slice (d := ⟨Case.flagDecodable.decodeCanonic⟩) Case.flag_encodes Case.flag_decodes_canonic rfl Case.flag_splits

/-- **C98, encoding again is idempotent.** Whatever the bytes: what has been encoded again is, if it is decoded and encoded once more, the
same. (For decoders that are not canonic, the bytes may have changed the first time.) -/
theorem recode_idempotent {t : Encodable T} {enc : T → List UInt8} (he : EncodesLaw t.encode enc) {d : Decodable T R}
    {g : Grammar T R} (hd : DecodesLaw d.decode g) (hg : g [] = .more) (hinv : ∀ x, g.Encoding (enc x) x) (bs : List UInt8) :
    ∃ s' v res s'' v', pipe (decoder d (FromSlice.producer UInt8)).toProducer (encoder t (IntoVec.consumer UInt8)).toConsumer
        (FromSlice.new bs) IntoVec.new = ok ((s', v), res) ∧
      pipe (decoder d (FromSlice.producer UInt8)).toProducer (encoder t (IntoVec.consumer UInt8)).toConsumer
        (FromSlice.new v.intoVec) IntoVec.new = ok ((s'', v'), .ok ()) ∧ v'.intoVec = v.intoVec := by
  obtain ⟨codes, rest, hs⟩ := g.splits hg bs
  obtain ⟨s', v, res, h1, h2, _⟩ := recode_slice he hd hg hs
  have hinc : g.Incomplete [] := ⟨fun k hk => absurd hk (Nat.not_lt_zero _), hg⟩
  have hs' := encodeAll_splits hinv (codes.map (·.2)) (.inl hinc)
  rw [List.append_nil, ← h2] at hs'
  obtain ⟨s'', v', res', h3, h4, h5⟩ := recode_slice he hd hg hs'
  have hres : res' = .ok () := by
    rcases h5 with h | ⟨err, _, h⟩
    · exact h.1
    · cases h with
      | truncated h => exact absurd rfl h
      | failed _ h => cases h
      | invalid h h' =>
        obtain rfl := List.prefix_nil.mp h
        rw [Grammar.Invalid, hg] at h'
        cases h'.2
  subst hres
  exact ⟨s', v, res, s'', v', h1, h3, by rw [h4, h2]; simp [Function.comp_def]⟩

/-- Any nonzero byte is decoded to `true`, which is encoded as `1`. -/
example : ∃ s' v res s'' v', pipe (decoder Case.flagDecodable.toDecodable (FromSlice.producer UInt8)).toProducer
        (encoder Case.flagEncodable.toEncodable (IntoVec.consumer UInt8)).toConsumer (FromSlice.new [1, 0, 7]) IntoVec.new =
        ok ((s', v), res) ∧
    pipe (decoder Case.flagDecodable.toDecodable (FromSlice.producer UInt8)).toProducer
        (encoder Case.flagEncodable.toEncodable (IntoVec.consumer UInt8)).toConsumer (FromSlice.new v.intoVec) IntoVec.new =
        ok ((s'', v'), .ok ()) ∧ v'.intoVec = v.intoVec :=
  recode_idempotent Case.flag_encodes Case.flag_decodes rfl Case.flag_encoding [1, 0, 7]

/-- Here the bytes do change: a decoder that is not canonic does not copy. -/
theorem recode_not_copy : ∃ s' v, pipe (decoder Case.flagDecodable.toDecodable (FromSlice.producer UInt8)).toProducer
      (encoder Case.flagEncodable.toEncodable (IntoVec.consumer UInt8)).toConsumer (FromSlice.new [1, 0, 7]) IntoVec.new =
        ok ((s', v), .ok ()) ∧ v.intoVec = [1, 0, 1] := by
  have hs : (byteGrammar Case.flagValue).Splits [1, 0, 7] [([1], true), ([0], false), ([7], true)] [] := by
    refine ⟨rfl, ?_, .inl ⟨fun k hk => absurd hk (Nat.not_lt_zero _), rfl⟩⟩
    rintro p (_ | ⟨_, _ | ⟨_, _ | ⟨_, hp⟩⟩⟩)
    · exact byteGrammar_encoding rfl
    · exact byteGrammar_encoding rfl
    · exact byteGrammar_encoding rfl
    · cases hp
  obtain ⟨s', v, res, h1, h2, ⟨rfl, _⟩ | ⟨err, _, h⟩⟩ := recode_slice Case.flag_encodes Case.flag_decodes rfl hs
  · exact ⟨s', v, h1, h2⟩
  · cases h with
    | truncated h => exact absurd rfl h
    | failed _ h => cases h
    | invalid h h' =>
      obtain rfl := List.prefix_nil.mp h
      cases h'.2

/-! ## Integers: changing the byte order -/

theorem FixedInt.recoded {N : Nat} {i : FixedInt T N} (hi : i.Faithful) (o₁ o₂ : ByteOrder) (bs : List UInt8) (h : bs.length = N) :
    i.toBytes o₂ (i.fromBytes o₁ bs) = if o₁ = o₂ then bs else bs.reverse := by
  have h1 : ∀ x, i.toBytes .big x = (i.toBytes .little x).reverse := fun x => rfl
  cases o₁ <;> cases o₂
  · simpa using i.toBytes_fromBytes hi .big bs h
  · have := i.toBytes_fromBytes hi .big bs h
    rw [h1] at this
    rw [if_neg (by nofun), ← this, List.reverse_reverse, this]
  · rw [if_neg (by nofun), h1, i.toBytes_fromBytes hi .little bs h]
  · simpa using i.toBytes_fromBytes hi .little bs h

theorem length_groups {A : Type} {N : Nat} (f : A → List UInt8) (as : List A) (hf : ∀ a ∈ as, (f a).length = N) :
    (as.map f).flatten.length = N * as.length := by
  induction as with
  | nil => rfl
  | cons a as ih =>
    rw [List.map_cons, List.flatten_cons, List.length_append, hf a (by simp), ih fun q hq => hf q (by simp [hq]), List.length_cons,
      Nat.mul_succ, Nat.add_comm]

/-- The bytes of groups of the same length. -/
theorem getElem?_groups {A : Type} {N : Nat} (hN : 0 < N) (f : A → List UInt8) (as : List A) (hf : ∀ a ∈ as, (f a).length = N) (j : Nat) :
    (as.map f).flatten[j]? = (as[j / N]?).bind fun a => (f a)[j % N]? := by
  induction as generalizing j with
  | nil => simp
  | cons a as ih =>
    rw [List.map_cons, List.flatten_cons]
    have ha := hf a (by simp)
    rcases Nat.lt_or_ge j N with h | h
    · rw [List.getElem?_append_left (by rw [ha]; exact h), Nat.div_eq_of_lt h, Nat.mod_eq_of_lt h]
      simp
    · rw [List.getElem?_append_right (by rw [ha]; exact h), ih (fun a h => hf a (by simp [h])), ha, Nat.mod_eq_sub_mod h, Nat.div_eq_sub_div hN h]
      simp

/-- **C98, integers.** From any bytes, numbers of `N` bytes are read in one byte order and written in the same or the other. All groups
of `N` bytes are converted: copied, or reversed. If some bytes are left over, this is reported. -/
theorem FixedInt.recode {N : Nat} {i : FixedInt T N} (hi : i.Faithful) (hN : 0 < N) (o₁ o₂ : ByteOrder) (bs : List UInt8) :
    ∃ s' v, pipe (decoder (i.codec o₁).decodable.toDecodable (FromSlice.producer UInt8)).toProducer
        (encoder (i.codec o₂).encodable.toEncodable (IntoVec.consumer UInt8)).toConsumer (FromSlice.new bs) IntoVec.new =
        ok ((s', v), if bs.length % N = 0 then .ok () else .error (.producer (.unexpectedEndOfInput ()))) ∧
      v.intoVec.length = N * (bs.length / N) ∧
      ∀ j, j < N * (bs.length / N) → v.intoVec[j]? = bs[if o₁ = o₂ then j else N * (j / N) + (N - 1 - j % N)]? := by
  have hg : i.grammar o₁ [] = .more := by simp [grammar, hN]
  obtain ⟨codes, rest, hs⟩ := (i.grammar o₁).splits hg bs
  have hlen : ∀ p ∈ codes, p.1.length = N := fun p hp => ((i.encoding_iff o₁ _ _).mp (hs.each p hp)).1
  have hrest : rest.length < N := by
    rcases hs.stuck with h | ⟨_, r, _⟩
    · exact (i.incomplete_iff o₁ _).mp h
    · cases r
  have hflat : (codes.map (·.1)).flatten.length = N * codes.length := length_groups _ _ hlen
  have hbs : bs.length = N * codes.length + rest.length := by rw [hs.whole, List.length_append, hflat]
  have hdiv : bs.length / N = codes.length := by
    rw [hbs, Nat.mul_add_div hN, Nat.div_eq_of_lt hrest, Nat.add_zero]
  have hmod : bs.length % N = rest.length := by rw [hbs, Nat.mul_add_mod, Nat.mod_eq_of_lt hrest]
  obtain ⟨s', v, res, h1, h2, h3⟩ := recode_slice (t := (i.codec o₂).encodable.toEncodable) (d := (i.codec o₁).decodable.toDecodable)
    (i.encodesLaw o₂) (i.decodesLaw o₁) hg hs
  have hres : res = if bs.length % N = 0 then .ok () else .error (.producer (.unexpectedEndOfInput ())) := by
    rw [hmod]
    rcases h3 with ⟨rfl, rfl⟩ | ⟨err, rfl, h⟩
    · rfl
    · cases h with
      | truncated h => rw [if_neg (by simpa using h)]
      | failed _ h => cases h
      | @invalid _ r => cases r
  rw [← hres, hdiv]
  have hv : v.intoVec = (codes.map fun p => i.toBytes o₂ p.2).flatten := by rw [h2, encodeAll, List.map_map]; rfl
  refine ⟨s', v, h1, ?_, fun j hj => ?_⟩
  · rw [hv]
    exact length_groups _ _ (by simp)
  · have hq : j / N < codes.length := Nat.div_lt_of_lt_mul hj
    have hr := Nat.mod_lt j hN
    have hp := List.getElem_mem hq
    obtain ⟨hl, hx⟩ := (i.encoding_iff o₁ _ _).mp (hs.each _ hp)
    rw [hv, getElem?_groups hN _ _ (by simp), List.getElem?_eq_getElem hq, Option.bind_some, ← hx, recoded hi o₁ o₂ _ hl, hs.whole]
    have hgroup : ∀ k, k / N = j / N → k % N = (if o₁ = o₂ then j % N else N - 1 - j % N) →
        (if o₁ = o₂ then codes[j / N].1 else codes[j / N].1.reverse)[j % N]? = ((codes.map (·.1)).flatten ++ rest)[k]? := by
      intro k h5 h6
      have hk : k < (codes.map (·.1)).flatten.length := by
        rw [hflat]
        have := Nat.div_add_mod k N
        have h7 := Nat.mod_lt k hN
        have h8 : N * (j / N + 1) ≤ N * codes.length := Nat.mul_le_mul_left _ hq
        rw [Nat.mul_succ, ← h5] at h8
        omega
      rw [List.getElem?_append_left hk, getElem?_groups hN _ _ hlen, h5, List.getElem?_eq_getElem hq, Option.bind_some, h6]
      split
      · rfl
      · rw [List.getElem?_reverse (by rw [hl]; exact hr), hl]
    refine hgroup _ ?_ ?_
    · split
      · rfl
      · rw [Nat.mul_add_div hN, Nat.div_eq_of_lt (a := N - 1 - j % N) (by omega), Nat.add_zero]
    · split
      · rfl
      · rw [Nat.mul_add_mod, Nat.mod_eq_of_lt (by omega)]

/-- In the same byte order, all whole groups are copied. -/
theorem FixedInt.recode_same {N : Nat} {i : FixedInt T N} (hi : i.Faithful) (hN : 0 < N) (o : ByteOrder) (bs : List UInt8) :
    ∃ s' v, pipe (decoder (i.codec o).decodable.toDecodable (FromSlice.producer UInt8)).toProducer
        (encoder (i.codec o).encodable.toEncodable (IntoVec.consumer UInt8)).toConsumer (FromSlice.new bs) IntoVec.new =
        ok ((s', v), if bs.length % N = 0 then .ok () else .error (.producer (.unexpectedEndOfInput ()))) ∧
      v.intoVec = bs.take (N * (bs.length / N)) := by
  obtain ⟨s', v, h1, h2, h3⟩ := FixedInt.recode hi hN o o bs
  refine ⟨s', v, h1, List.ext_getElem? fun j => ?_⟩
  rcases Nat.lt_or_ge j (N * (bs.length / N)) with h | h
  · rw [h3 j h, if_pos rfl, List.getElem?_take_of_lt h]
  · rw [List.getElem?_eq_none (by omega), List.getElem?_eq_none (by rw [List.length_take]; omega)]

example : ∃ s' v, pipe (decoder U16BE.decodable.toDecodable (FromSlice.producer UInt8)).toProducer
      (encoder U16LE.encodable.toEncodable (IntoVec.consumer UInt8)).toConsumer (FromSlice.new [1, 2, 3, 4, 5]) IntoVec.new =
      ok ((s', v), .error (.producer (.unexpectedEndOfInput ()))) ∧ v.intoVec = [2, 1, 4, 3] := by
  obtain ⟨s', v, h1, h2, h3⟩ := FixedInt.recode u16_faithful (by decide) .big .little [1, 2, 3, 4, 5]
  refine ⟨s', v, h1, ?_⟩
  have h2 : v.intoVec.length = 4 := h2
  match hv : v.intoVec, h2 with
  | [a, b, c, d], _ =>
    rw [hv] at h3
    have ha := h3 0 (by decide)
    have hb := h3 1 (by decide)
    have hc := h3 2 (by decide)
    have hd := h3 3 (by decide)
    simp at ha hb hc hd
    rw [ha, hb, hc, hd]

example : ∃ s' v, pipe (decoder U16BE.decodable.toDecodable (FromSlice.producer UInt8)).toProducer
      (encoder U16BE.encodable.toEncodable (IntoVec.consumer UInt8)).toConsumer (FromSlice.new [1, 2, 3, 4]) IntoVec.new =
      ok ((s', v), .ok ()) ∧ v.intoVec = [1, 2, 3, 4] :=
  FixedInt.recode_same u16_faithful (by decide) .big [1, 2, 3, 4]

end

end Verif
