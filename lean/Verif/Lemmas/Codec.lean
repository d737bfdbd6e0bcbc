import Verif.CodecSpec
import Verif.Model.Endian
import Verif.Props.FullSlice

/-!
# Lemmas about codecs
-/

namespace Verif

open Outcome

/-! ## Full slices into consumers that may delay their effects -/

section

variable {σ I F E : Type}

theorem bulkConsumeFullSlice_defers_aux {C : BulkConsumer σ I F E} {D : σ → List I → Option F → Prop} {X : Faults I F E}
    {R : σ → List I → List I → Prop} (hR : BulkDefersLaw C D X R) (buf l : List I) :
    ∀ n consumed s, buf.length - consumed ≤ n → consumed ≤ buf.length →
      (∃ slots, R s (l ++ buf.take consumed) slots) → ∃ s',
      (loop (bulkConsumeFullSliceBody C buf) (s, consumed) = ok (s', .ok ()) ∧ ∃ slots, R s' (l ++ buf) slots) ∨
      (∃ e d count, count < buf.length ∧ loop (bulkConsumeFullSliceBody C buf) (s, consumed) = ok (s', .error ⟨count, e⟩) ∧
        X.during (l ++ buf) d e ∧ D s' d none) := by
  intro n
  induction n with
  | zero =>
    intro consumed s hn hle ⟨slots, hs⟩
    have hc : consumed = buf.length := by omega
    subst hc
    refine ⟨s, .inl ⟨?_, slots, by simpa using hs⟩⟩
    rw [loop_unfold]
    simp [bulkConsumeFullSliceBody]
  | succ n ih =>
    intro consumed s hn hle ⟨slots, hs⟩
    by_cases hlt : consumed < buf.length
    · have hne : buf.drop consumed ≠ [] := by
        intro h; have := congrArg List.length h; simp only [List.length_drop, List.length_nil] at this; omega
      obtain ⟨s1, ⟨k, hk0, hk, hb, slots', hs'⟩ | ⟨e, d, hb, hX, hD⟩⟩ := hR.bulkConsume s _ slots _ hs hne
      · rw [List.length_drop] at hk
        have hs2 : ∃ slots, R s1 (l ++ buf.take (consumed + k)) slots :=
          ⟨slots', by rw [List.take_add, ← List.append_assoc]; exact hs'⟩
        obtain ⟨s', h⟩ := ih (consumed + k) s1 (by omega) (by omega) hs2
        refine ⟨s', ?_⟩
        rw [loop_unfold]
        simp only [bulkConsumeFullSliceBody, hlt, hb, if_true, bind_eq, bind_ok, pure_eq]
        exact h
      · refine ⟨s1, .inr ⟨e, d, consumed, hlt, ?_, ?_, hD⟩⟩
        · rw [loop_unfold]
          simp only [bulkConsumeFullSliceBody, hlt, hb, if_true, bind_eq, bind_ok, pure_eq]
        · rwa [List.append_assoc, List.take_append_drop] at hX
    · have hc : consumed = buf.length := by omega
      subst hc
      refine ⟨s, .inl ⟨?_, slots, by simpa using hs⟩⟩
      rw [loop_unfold]
      simp [bulkConsumeFullSliceBody]

end

/-! ## Bytes of integers -/

@[simp] theorem leBytes_length (N n : Nat) : (leBytes N n).length = N := by
  induction N generalizing n with
  | zero => rfl
  | succ N ih => simp [leBytes, ih]

theorem leBytes_getElem? (N n i : Nat) (h : i < N) : (leBytes N n)[i]? = some (UInt8.ofNat (n / 256 ^ i)) := by
  induction N generalizing n i with
  | zero => omega
  | succ N ih =>
    cases i with
    | zero => simp [leBytes]
    | succ i =>
      rw [leBytes, List.getElem?_cons_succ, ih _ _ (by omega), Nat.div_div_eq_div_mul, Nat.pow_succ', ]

theorem ofLeBytes_lt (bs : List UInt8) : ofLeBytes bs < 256 ^ bs.length := by
  induction bs with
  | nil => simp [ofLeBytes]
  | cons b bs ih =>
    have := b.toNat_lt
    simp only [ofLeBytes, List.length_cons, Nat.pow_succ']
    omega

theorem ofLeBytes_leBytes (N n : Nat) : ofLeBytes (leBytes N n) = n % 256 ^ N := by
  induction N generalizing n with
  | zero => simp [leBytes, ofLeBytes, Nat.mod_one]
  | succ N ih =>
    have h : n % (256 * 256 ^ N) = n % 256 + 256 * (n / 256 % 256 ^ N) := Nat.mod_mul
    rw [Nat.pow_succ', h, leBytes, ofLeBytes, ih, UInt8.toNat_ofNat']

theorem leBytes_ofLeBytes (bs : List UInt8) : leBytes bs.length (ofLeBytes bs) = bs := by
  induction bs with
  | nil => rfl
  | cons b bs ih =>
    have := b.toNat_lt
    have h1 : (b.toNat + 256 * ofLeBytes bs) / 256 = ofLeBytes bs := by omega
    have h2 : UInt8.ofNat (b.toNat + 256 * ofLeBytes bs) = b := by
      apply UInt8.toNat_inj.mp
      rw [UInt8.toNat_ofNat']; omega
    simp only [List.length_cons, leBytes, ofLeBytes, h1, h2, ih]

theorem pow_256 (N : Nat) : 256 ^ N = 2 ^ (8 * N) := by rw [Nat.pow_mul]

namespace FixedInt

variable {T : Type} {N : Nat}

/-- Values and bit patterns correspond one to one. -/
structure Faithful (i : FixedInt T N) : Prop where
  ofBits_toBits : ∀ x, i.ofBits (i.toBits x) = x
  toBits_ofBits : ∀ b, i.toBits (i.ofBits b) = b

@[simp] theorem toBytes_length (i : FixedInt T N) (o : ByteOrder) (x : T) : (i.toBytes o x).length = N := by
  cases o <;> simp [toBytes]

theorem fromBytes_toBytes {i : FixedInt T N} (hi : i.Faithful) (o : ByteOrder) (x : T) :
    i.fromBytes o (i.toBytes o x) = x := by
  have h : BitVec.ofNat (8 * N) (ofLeBytes (leBytes N (i.toBits x).toNat)) = i.toBits x := by
    apply BitVec.eq_of_toNat_eq
    rw [ofLeBytes_leBytes, BitVec.toNat_ofNat, pow_256, Nat.mod_mod, Nat.mod_eq_of_lt (i.toBits x).isLt]
  cases o <;> simp only [fromBytes, toBytes, List.reverse_reverse, h, hi.ofBits_toBits]

theorem toBytes_fromBytes {i : FixedInt T N} (hi : i.Faithful) (o : ByteOrder) (bs : List UInt8) (h : bs.length = N) :
    i.toBytes o (i.fromBytes o bs) = bs := by
  subst h
  have h1 (bs : List UInt8) (m : Nat) (hm : bs.length = m) :
      (BitVec.ofNat (8 * m) (ofLeBytes bs)).toNat = ofLeBytes bs := by
    rw [BitVec.toNat_ofNat, ← pow_256, ← hm, Nat.mod_eq_of_lt (ofLeBytes_lt bs)]
  cases o
  · simp only [toBytes, fromBytes, hi.toBits_ofBits, h1 bs.reverse bs.length (by simp)]
    have := leBytes_ofLeBytes bs.reverse
    rw [List.length_reverse] at this
    rw [this, List.reverse_reverse]
  · simp only [toBytes, fromBytes, hi.toBits_ofBits, h1 bs bs.length rfl, leBytes_ofLeBytes]

end FixedInt

theorem u8_faithful : u8.Faithful := ⟨fun _ => rfl, fun _ => rfl⟩
theorem u16_faithful : u16.Faithful := ⟨fun _ => rfl, fun _ => rfl⟩
theorem u32_faithful : u32.Faithful := ⟨fun _ => rfl, fun _ => rfl⟩
theorem u64_faithful : u64.Faithful := ⟨fun _ => rfl, fun _ => rfl⟩
theorem i8_faithful : i8.Faithful := ⟨fun _ => rfl, fun _ => rfl⟩
theorem i16_faithful : i16.Faithful := ⟨fun _ => rfl, fun _ => rfl⟩
theorem i32_faithful : i32.Faithful := ⟨fun _ => rfl, fun _ => rfl⟩
theorem i64_faithful : i64.Faithful := ⟨fun _ => rfl, fun _ => rfl⟩

/-! ## Encoding -/

theorem encodeAll_nil {T : Type} (enc : T → List UInt8) : encodeAll enc [] = [] := rfl

theorem encodeAll_cons {T : Type} (enc : T → List UInt8) (x : T) (xs : List T) :
    encodeAll enc (x :: xs) = enc x ++ encodeAll enc xs := by simp [encodeAll]

theorem encodeAll_append {T : Type} (enc : T → List UInt8) (xs ys : List T) :
    encodeAll enc (xs ++ ys) = encodeAll enc xs ++ encodeAll enc ys := by simp [encodeAll]

theorem encodeAll_concat {T : Type} (enc : T → List UInt8) (xs : List T) (x : T) :
    encodeAll enc (xs ++ [x]) = encodeAll enc xs ++ enc x := by simp [encodeAll]

namespace Policy

variable {I F E : Type}

theorem firstError_eq_none {q : Policy I F E} {l xs : List I} : q.firstError l xs = none ↔ q.Accepts l xs := by
  induction xs generalizing l with
  | nil => simp [firstError]
  | cons x xs ih => rw [firstError, accepts_cons, Option.or_eq_none_iff, ih]

theorem firstError_eq_some {q : Policy I F E} {l xs : List I} {e : E} :
    q.firstError l xs = some e ↔ ∃ k, q.FailsAt l xs k e := by
  constructor
  · intro h
    rcases q.accepts_or_failsAt l xs with ha | ⟨k, e', hf⟩
    · rw [firstError_eq_none.mpr ha] at h; cases h
    · suffices q.firstError l xs = some e' by
        rw [h] at this; cases this; exact ⟨k, hf⟩
      clear h
      induction xs generalizing l k with
      | nil => have := hf.lt; simp at this
      | cons x xs ih =>
        rw [firstError]
        cases k with
        | zero => rw [failsAt_zero_cons.mp hf]; rfl
        | succ k =>
          obtain ⟨h1, h2⟩ := failsAt_succ_cons.mp hf
          rw [h1, ih k h2]; rfl
  · rintro ⟨k, hf⟩
    cases h : q.firstError l xs with
    | none => exact absurd (firstError_eq_none.mp h) hf.not_accepts
    | some e' =>
      induction xs generalizing l k with
      | nil => have := hf.lt; simp at this
      | cons x xs ih =>
        rw [firstError] at h
        cases k with
        | zero => rw [failsAt_zero_cons.mp hf] at h; exact h.symm
        | succ k =>
          obtain ⟨h1, h2⟩ := failsAt_succ_cons.mp hf
          rw [h1] at h; exact ih k h2 h

end Policy

/-! ## The endian codecs -/

namespace FixedInt

variable {T : Type} {N : Nat}

/-- The language of fixed-width integers: any `N` bytes. -/
def grammar (i : FixedInt T N) (o : ByteOrder) : Grammar T Empty := fun bs =>
  if bs.length < N then .more else .done (i.fromBytes o (bs.take N))

theorem encoding_iff (i : FixedInt T N) (o : ByteOrder) (bs : List UInt8) (x : T) :
    (i.grammar o).Encoding bs x ↔ bs.length = N ∧ i.fromBytes o bs = x := by
  constructor
  · rintro ⟨h1, h2⟩
    have hle : ¬ bs.length < N := by
      intro h; simp [grammar, h] at h2
    have hge : ¬ N < bs.length := by
      intro h
      have := h1 N h
      simp [grammar, Nat.min_eq_left (Nat.le_of_lt h)] at this
    have : bs.length = N := by omega
    subst this
    simp [grammar] at h2
    exact ⟨rfl, h2⟩
  · rintro ⟨rfl, rfl⟩
    refine ⟨fun k hk => ?_, ?_⟩
    · simp only [grammar, List.length_take, Nat.min_eq_left (Nat.le_of_lt hk), hk, if_true]
    · simp [grammar]

theorem incomplete_iff (i : FixedInt T N) (o : ByteOrder) (bs : List UInt8) :
    (i.grammar o).Incomplete bs ↔ bs.length < N := by
  constructor
  · rintro ⟨_, h2⟩
    simp only [grammar] at h2
    split at h2
    · assumption
    · cases h2
  · intro h
    refine ⟨fun k hk => ?_, ?_⟩
    · have : k < N := by omega
      simp only [grammar, List.length_take, Nat.min_def]
      split <;> simp <;> omega
    · simp [grammar, h]

theorem encodesLaw (i : FixedInt T N) (o : ByteOrder) : EncodesLaw (i.encode o) (i.toBytes o) where
  accepted x h ha := by
    obtain ⟨⟨s', h1, h2⟩, _⟩ := (bulk_consume_full_slice_spec h _).1 ha
    exact ⟨s', by simp [encode, h1], h2⟩
  refused x _ _ h hf := by
    obtain ⟨⟨s', count, _, h1, h2⟩, _⟩ := (bulk_consume_full_slice_spec h _).2 _ _ hf
    exact ⟨s', by simp [encode, h1], h2⟩
  deferred x hX h := by
    obtain ⟨R, hR, slots, hs⟩ := h
    obtain ⟨s', ⟨h1, h2⟩ | ⟨e, d, count, _, h1, h2⟩⟩ := bulkConsumeFullSlice_defers_aux hR (i.toBytes o x) _ _ 0 _
      (Nat.le_refl _) (by omega) ⟨slots, by simpa using hs⟩
    · exact ⟨s', .inl ⟨by simp [encode, bulkConsumeFullSlice, h1], R, hR, h2⟩⟩
    · exact ⟨s', .inr ⟨e, d, by simp [encode, bulkConsumeFullSlice, h1], h2⟩⟩

theorem decodesLaw (i : FixedInt T N) (o : ByteOrder) : DecodesLaw (i.decode o) (i.grammar o) where
  value h hsw henc := by
    obtain ⟨hl, rfl⟩ := (encoding_iff i o _ _).mp henc
    obtain ⟨⟨s', h1, h2⟩, _⟩ := (bulk_overwrite_full_slice_spec h (List.replicate N 0)).1 _ (by simpa using hl) hsw
    exact ⟨s', by simp [decode, h1], by simpa [hl] using h2⟩
  invalid h hsw hbad := by rename_i r; exact nomatch r
  truncated h hsw hinc hf := by
    obtain ⟨⟨s', out, h1, h2⟩, _⟩ := (bulk_overwrite_full_slice_spec h (List.replicate N 0)).2.1 _ _
      (by simpa using (incomplete_iff i o _).mp hinc) hsw hf
    exact ⟨s', by simp [decode, h1, DecodeError.fromProduceAtLeast]⟩
  failed h hsw hinc he := by
    obtain ⟨⟨s', out, h1, h2⟩, _⟩ := (bulk_overwrite_full_slice_spec h (List.replicate N 0)).2.2 _ _
      (by simpa using (incomplete_iff i o _).mp hinc) hsw he
    exact ⟨s', by simp [decode, h1, DecodeError.fromProduceAtLeast]⟩

end FixedInt

end Verif
