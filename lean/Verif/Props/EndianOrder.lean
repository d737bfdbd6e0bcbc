import Verif.Props.Endian

/-!
# C74: The order of endian encodings

The types of `/repo/ufotofu_codec_endian/src/lib.rs` derive `PartialOrd` and `Ord` (lines 40, 128) from the integers that they wrap.
Comparing the encodings byte by byte (as sorted stores of encoded keys do) gives the same order for the unsigned big-endian types,
and not for the others.
-/

namespace Verif

open Outcome

theorem bigEndian_succ (N n : Nat) : bigEndian (N + 1) n = UInt8.ofNat (n / 256 ^ N) :: bigEndian N n := by
  simp only [bigEndian, List.range_succ_eq_map, List.map_cons, List.map_map]
  congr 1
  apply List.map_congr_left
  intro i hi
  simp only [Function.comp, Nat.succ_eq_add_one]
  rw [show N + 1 - 1 - (i + 1) = N - 1 - i by omega]

theorem bigEndian_mod (N n : Nat) : bigEndian N (n % 256 ^ N) = bigEndian N n := by
  simp only [bigEndian]
  apply List.map_congr_left
  intro i hi
  have hi : i < N := by simpa using hi
  apply UInt8.toNat_inj.mp
  simp only [UInt8.toNat_ofNat']
  rw [show 256 ^ N = 256 ^ (N - 1 - i) * 256 * 256 ^ i by
    rw [Nat.mul_assoc, Nat.mul_comm 256, ← Nat.pow_succ, ← Nat.pow_add]; congr 1; omega]
  rw [Nat.mul_assoc, Nat.mod_mul_right_div_self, show 2 ^ 8 = 256 from rfl, Nat.mod_mul_right_mod]

/-- Comparing the big-endian bytes of two numbers compares the numbers. -/
theorem bigEndian_lt_iff (N : Nat) {n m : Nat} (hn : n < 256 ^ N) (hm : m < 256 ^ N) : bigEndian N n < bigEndian N m ↔ n < m := by
  induction N generalizing n m with
  | zero => simp at hn hm; subst hn hm; simp [bigEndian]
  | succ N ih =>
    have hpos : 0 < 256 ^ N := Nat.pow_pos (by decide)
    have hdn : n / 256 ^ N < 256 := Nat.div_lt_of_lt_mul (by rw [Nat.pow_succ] at hn; exact hn)
    have hdm : m / 256 ^ N < 256 := Nat.div_lt_of_lt_mul (by rw [Nat.pow_succ] at hm; exact hm)
    rw [bigEndian_succ, bigEndian_succ, List.cons_lt_cons_iff, ← bigEndian_mod N n, ← bigEndian_mod N m,
      ih (Nat.mod_lt _ hpos) (Nat.mod_lt _ hpos), UInt8.lt_iff_toNat_lt, ← UInt8.toNat_inj, UInt8.toNat_ofNat', UInt8.toNat_ofNat',
      Nat.mod_eq_of_lt hdn, Nat.mod_eq_of_lt hdm]
    have en := Nat.div_add_mod n (256 ^ N)
    have em := Nat.div_add_mod m (256 ^ N)
    have ln := Nat.mod_lt n hpos
    have lm := Nat.mod_lt m hpos
    generalize n / 256 ^ N = a at *
    generalize m / 256 ^ N = b at *
    generalize n % 256 ^ N = c at *
    generalize m % 256 ^ N = d at *
    generalize 256 ^ N = p at *
    constructor
    · rintro (h | ⟨rfl, h⟩)
      · have : p * (a + 1) ≤ p * b := Nat.mul_le_mul_left p h
        rw [Nat.mul_add, Nat.mul_one] at this
        omega
      · omega
    · intro h
      rcases Nat.lt_trichotomy a b with hab | rfl | hab
      · exact .inl hab
      · exact .inr ⟨rfl, by omega⟩
      · have : p * (b + 1) ≤ p * a := Nat.mul_le_mul_left p hab
        rw [Nat.mul_add, Nat.mul_one] at this
        omega

/-- Comparing encodings byte by byte amounts to `lt` (`Correct` says that `bytes` are what the codec encodes and decodes). -/
def EndianCodec.SortsBy {T : Type} (k : EndianCodec T) (N : Nat) (lt : T → T → Prop) : Prop :=
  ∃ bytes : T → List UInt8, k.Correct N bytes ∧ ∀ x y, bytes x < bytes y ↔ lt x y

/-- **C74, unsigned big-endian types** (and the single byte one among the little-endian types): the encodings are ordered like the
values. -/
theorem big_endian_order :
    U8BE.SortsBy 1 (· < ·) ∧ U16BE.SortsBy 2 (· < ·) ∧ U32BE.SortsBy 4 (· < ·) ∧ U64BE.SortsBy 8 (· < ·) ∧
    U8LE.SortsBy 1 (· < ·) := by
  refine ⟨⟨_, big_endian_correct.1, fun x y => ?_⟩, ⟨_, big_endian_correct.2.1, fun x y => ?_⟩,
    ⟨_, big_endian_correct.2.2.1, fun x y => ?_⟩, ⟨_, big_endian_correct.2.2.2.1, fun x y => ?_⟩,
    ⟨_, little_endian_correct.1, fun x y => ?_⟩⟩
  · exact bigEndian_lt_iff 1 x.toNat_lt y.toNat_lt
  · exact bigEndian_lt_iff 2 x.toNat_lt y.toNat_lt
  · exact bigEndian_lt_iff 4 x.toNat_lt y.toNat_lt
  · exact bigEndian_lt_iff 8 x.toNat_lt y.toNat_lt
  · rw [← bigEndian_one, ← bigEndian_one]; exact bigEndian_lt_iff 1 x.toNat_lt y.toNat_lt

/-- Two's complement bytes put the negative numbers behind the others. -/
theorem bigEndian_twosComplement_lt_iff (N : Nat) (hN : 0 < N) {x y : Int} (hx : -2 ^ (8 * N - 1) ≤ x ∧ x < 2 ^ (8 * N - 1))
    (hy : -2 ^ (8 * N - 1) ≤ y ∧ y < 2 ^ (8 * N - 1)) :
    bigEndian N (twosComplement N x) < bigEndian N (twosComplement N y) ↔ (0 ≤ x ∧ y < 0) ∨ ((x < 0 ↔ y < 0) ∧ x < y) := by
  have hp : (2 : Int) ^ (8 * N) = 2 * 2 ^ (8 * N - 1) := by
    rw [Int.mul_comm, ← Int.pow_succ]; congr 1; omega
  have h256 : (256 : Nat) ^ N = 2 ^ (8 * N) := by rw [Nat.pow_mul]
  have hpos : (0 : Int) < 2 ^ (8 * N - 1) := Int.pow_pos (by decide)
  have hcast : ((2 ^ (8 * N) : Nat) : Int) = 2 ^ (8 * N) := by simp
  have key : ∀ z : Int, -2 ^ (8 * N - 1) ≤ z ∧ z < 2 ^ (8 * N - 1) →
      ((twosComplement N z : Nat) : Int) = if z < 0 then z + 2 ^ (8 * N) else z := by
    intro z hz
    have : 0 ≤ z % 2 ^ (8 * N) := Int.emod_nonneg _ (by omega)
    rw [twosComplement, Int.toNat_of_nonneg this]
    split
    · rw [← Int.add_emod_right, Int.emod_eq_of_lt (by omega) (by omega)]
    · exact Int.emod_eq_of_lt (by omega) (by omega)
  have kx := key x hx
  have ky := key y hy
  rw [bigEndian_lt_iff N (by rw [h256]; split at kx <;> omega) (by rw [h256]; split at ky <;> omega)]
  split at kx <;> split at ky <;> omega

/-- The negative values come after the others; apart from that the order is the numeric one. -/
def negativesLast (x y : Int) : Prop := (0 ≤ x ∧ y < 0) ∨ ((x < 0 ↔ y < 0) ∧ x < y)

/-- **C74, signed big-endian types** (and the single byte one among the little-endian types): the encodings are ordered like the
values among the negative values, and among the others, but the negative values come last. -/
theorem big_endian_signed_order :
    I8BE.SortsBy 1 (fun x y => negativesLast x.toInt y.toInt) ∧ I16BE.SortsBy 2 (fun x y => negativesLast x.toInt y.toInt) ∧
    I32BE.SortsBy 4 (fun x y => negativesLast x.toInt y.toInt) ∧ I64BE.SortsBy 8 (fun x y => negativesLast x.toInt y.toInt) ∧
    I8LE.SortsBy 1 (fun x y => negativesLast x.toInt y.toInt) := by
  refine ⟨⟨_, big_endian_correct.2.2.2.2.1, fun x y => ?_⟩, ⟨_, big_endian_correct.2.2.2.2.2.1, fun x y => ?_⟩,
    ⟨_, big_endian_correct.2.2.2.2.2.2.1, fun x y => ?_⟩, ⟨_, big_endian_correct.2.2.2.2.2.2.2, fun x y => ?_⟩,
    ⟨_, little_endian_correct.2.2.2.2.1, fun x y => ?_⟩⟩
  · exact bigEndian_twosComplement_lt_iff 1 (by decide) ⟨x.le_toInt, x.toInt_lt⟩ ⟨y.le_toInt, y.toInt_lt⟩
  · exact bigEndian_twosComplement_lt_iff 2 (by decide) ⟨x.le_toInt, x.toInt_lt⟩ ⟨y.le_toInt, y.toInt_lt⟩
  · exact bigEndian_twosComplement_lt_iff 4 (by decide) ⟨x.le_toInt, x.toInt_lt⟩ ⟨y.le_toInt, y.toInt_lt⟩
  · exact bigEndian_twosComplement_lt_iff 8 (by decide) ⟨x.le_toInt, x.toInt_lt⟩ ⟨y.le_toInt, y.toInt_lt⟩
  · rw [← bigEndian_one, ← bigEndian_one]
    exact bigEndian_twosComplement_lt_iff 1 (by decide) ⟨x.le_toInt, x.toInt_lt⟩ ⟨y.le_toInt, y.toInt_lt⟩

/-- There are values whose encodings are in the other order. -/
def EndianCodec.Missorts {T : Type} (k : EndianCodec T) (N : Nat) (lt : T → T → Prop) : Prop :=
  ∃ bytes : T → List UInt8, k.Correct N bytes ∧ ∃ x y, lt x y ∧ bytes y < bytes x

/-- **C74, little-endian types of more than one byte, and signed types**: some values are sorted the wrong way. -/
theorem little_endian_order :
    U16LE.Missorts 2 (· < ·) ∧ U32LE.Missorts 4 (· < ·) ∧ U64LE.Missorts 8 (· < ·) ∧
    I16LE.Missorts 2 (· < ·) ∧ I32LE.Missorts 4 (· < ·) ∧ I64LE.Missorts 8 (· < ·) ∧
    I8BE.Missorts 1 (· < ·) ∧ I16BE.Missorts 2 (· < ·) ∧ I32BE.Missorts 4 (· < ·) ∧ I64BE.Missorts 8 (· < ·) ∧
    I8LE.Missorts 1 (· < ·) := by
  obtain ⟨-, l2, l3, l4, l5, l6, l7, l8⟩ := little_endian_correct
  obtain ⟨-, -, -, -, b5, b6, b7, b8⟩ := big_endian_correct
  exact ⟨⟨_, l2, 1, 256, by decide⟩, ⟨_, l3, 1, 256, by decide⟩, ⟨_, l4, 1, 256, by decide⟩, ⟨_, l6, 1, 256, by decide⟩,
    ⟨_, l7, 1, 256, by decide⟩, ⟨_, l8, 1, 256, by decide⟩, ⟨_, b5, -1, 0, by decide⟩, ⟨_, b6, -1, 0, by decide⟩,
    ⟨_, b7, -1, 0, by decide⟩, ⟨_, b8, -1, 0, by decide⟩, ⟨_, l5, -1, 0, by decide⟩⟩

/-- Encodings in order that differ in the first byte or in the last one; and a negative value, whose encoding comes last. -/
example : bigEndian 4 (0x00010000 : UInt32).toNat < bigEndian 4 (0x01000000 : UInt32).toNat ∧
    bigEndian 4 (0x01020304 : UInt32).toNat < bigEndian 4 (0x01020305 : UInt32).toNat ∧
    negativesLast 7 (-2) ∧ bigEndian 2 (twosComplement 2 (7 : Int16).toInt) < bigEndian 2 (twosComplement 2 (-2 : Int16).toInt) := by
  refine ⟨?_, ?_, .inl (by decide), by decide⟩
  · exact (bigEndian_lt_iff 4 (by decide) (by decide)).mpr (by decide)
  · exact (bigEndian_lt_iff 4 (by decide) (by decide)).mpr (by decide)

end Verif
