import Verif.Model.Shift
/-
  C44 Byte swapping is free of undefined shifts.
-/
namespace Iff

theorem toNat_and_le (x m : BitVec 32) : (x &&& m).toNat ≤ m.toNat := by
  rw [BitVec.toNat_and]; exact Nat.and_le_right

theorem toInt_small {x : BitVec 32} (h : x.toNat < 2147483648) : x.toInt = x.toNat := by
  rw [BitVec.toInt_eq_toNat_cond]; split <;> omega

theorem msb_small {x : BitVec 32} (h : x.toNat < 2147483648) : x.msb = false := by
  rw [BitVec.msb_eq_decide]; simp; omega

/-- A left shift of a number that stays below 2^31. -/
theorem shlInt_ok {x m : BitVec 32} {n : Nat} (h : m.toNat * 2 ^ n < 2147483648)
    (hm : m.toNat < 2147483648) : shlInt (x &&& m) n = .val ((x &&& m) <<< n) := by
  have h1 := toNat_and_le x m
  unfold shlInt
  rw [toInt_small (by omega), if_pos]
  refine ⟨Int.natCast_nonneg _, ?_⟩
  have h2 : (x &&& m).toNat * 2 ^ n ≤ m.toNat * 2 ^ n := Nat.mul_le_mul_right _ h1
  have h3 : (((x &&& m).toNat * 2 ^ n : Nat) : Int) < 2147483648 := by omega
  simpa using h3

theorem shrInt_ok {x m : BitVec 32} {n : Nat} (hm : m.toNat < 2147483648) :
    shrInt (x &&& m) n = (x &&& m) >>> n := by
  have h1 := toNat_and_le x m
  unfold shrInt
  rw [BitVec.sshiftRight_eq_of_msb_false (msb_small (by omega))]

/-- C44 for the 16-bit and the unsigned 32-bit functions: all shifts are defined, and the result is
the one used in the rest of the model. -/
theorem C44_words_partial :
    (∀ v, strictSwapUWord v = .val (swap16 v)) ∧ (∀ v, strictSwapWord v = .val (swap16 v)) ∧
    (∀ v, strictSwapULong v = .val (swap32 v)) := by
  refine ⟨fun v => ?_, fun v => ?_, fun v => rfl⟩
  · unfold strictSwapUWord
    simp only []
    rw [shlInt_ok (by decide) (by decide), shrInt_ok (by decide)]
    simp only [Out.val_bind, Out.val.injEq]
    apply BitVec.eq_of_getLsbD_eq
    intro i hi
    unfold swap16
    have : i = 0 ∨ i = 1 ∨ i = 2 ∨ i = 3 ∨ i = 4 ∨ i = 5 ∨ i = 6 ∨ i = 7 ∨ i = 8 ∨ i = 9 ∨ i = 10 ∨
      i = 11 ∨ i = 12 ∨ i = 13 ∨ i = 14 ∨ i = 15 := by omega
    rcases this with rfl | rfl | rfl | rfl | rfl | rfl | rfl | rfl | rfl | rfl | rfl | rfl | rfl | rfl | rfl | rfl <;>
      simp
  · unfold strictSwapWord
    simp only []
    rw [shlInt_ok (by decide) (by decide), shrInt_ok (by decide)]
    simp only [Out.val_bind, Out.val.injEq]
    apply BitVec.eq_of_getLsbD_eq
    intro i hi
    unfold swap16
    have : i = 0 ∨ i = 1 ∨ i = 2 ∨ i = 3 ∨ i = 4 ∨ i = 5 ∨ i = 6 ∨ i = 7 ∨ i = 8 ∨ i = 9 ∨ i = 10 ∨
      i = 11 ∨ i = 12 ∨ i = 13 ∨ i = 14 ∨ i = 15 := by omega
    rcases this with rfl | rfl | rfl | rfl | rfl | rfl | rfl | rfl | rfl | rfl | rfl | rfl | rfl | rfl | rfl | rfl <;>
      simp [BitVec.getElem_signExtend]

/-- C44 for the signed 32-bit functions: the shifts are defined exactly for values whose low byte is
below 0x80, and then the result is the one used in the rest of the model.  (In `IFF_writeLong` this
is the low byte of the value written, for instance of a chunk size; in `IFF_readLong` the first byte
of the file.) -/
theorem C44_long_partial (v : BitVec 32) :
    strictSwapLong v =
      if (v.extractLsb' 0 8).toNat < 128 then .val (swap32 v) else .ub .signedOverflow := by
  have hlow : (v &&& 0xff#32).toNat = (v.extractLsb' 0 8).toNat := by
    simp only [BitVec.toNat_and, BitVec.extractLsb'_toNat, Nat.shiftRight_zero]
    exact Nat.and_two_pow_sub_one_eq_mod v.toNat 8
  have hlt := (v.extractLsb' 0 8).isLt
  unfold strictSwapLong
  by_cases h : (v.extractLsb' 0 8).toNat < 128
  · rw [if_pos h]
    have h1 : shlInt (v &&& 0xff#32) 24 = .val ((v &&& 0xff#32) <<< 24) := by
      unfold shlInt
      rw [toInt_small (by omega), if_pos]
      omega
    rw [h1, shlInt_ok (by decide) (by decide), shrInt_ok (by decide)]
    rfl
  · rw [if_neg h]
    have h1 : shlInt (v &&& 0xff#32) 24 = .ub .signedOverflow := by
      unfold shlInt
      rw [toInt_small (by omega), if_neg]
      omega
    rw [h1]; rfl

/-- C44 is false: writing the chunk size 128 on a little-endian host shifts 128 by 24 bits. -/
theorem C44_false : strictSwapLong 128 = .ub .signedOverflow := by decide

end Iff
