import Verif.Model.Id
/-
  Bit-level facts about the byte order code of io.c and the ID code of id.c.
-/
namespace Iff

macro "bits8 " i:ident hi:ident : tactic => `(tactic|
  (have h8 : $i = 0 ∨ $i=1 ∨ $i=2 ∨ $i=3∨ $i=4 ∨ $i=5 ∨ $i=6 ∨ $i=7 := by omega
   clear $hi
   rcases h8 with h|h|h|h|h|h|h|h <;> subst h))

/-- The four bytes of a 32-bit integer, most significant first. -/
def bytes32 (v : BitVec 32) : List Byte :=
  [v.extractLsb' 24 8, v.extractLsb' 16 8, v.extractLsb' 8 8, v.extractLsb' 0 8]

/-- The two bytes of a 16-bit integer, most significant first. -/
def bytes16 (v : BitVec 16) : List Byte := [v.extractLsb' 8 8, v.extractLsb' 0 8]

@[simp] theorem bytes32_length (v : BitVec 32) : (bytes32 v).length = 4 := rfl
@[simp] theorem bytes16_length (v : BitVec 16) : (bytes16 v).length = 2 := rfl

theorem toNat_append8 {w : Nat} (x : BitVec w) (y : Byte) :
    (x ++ y).toNat = x.toNat * 256 + y.toNat := by
  rw [BitVec.toNat_append, Nat.shiftLeft_eq, Nat.mul_comm]
  rw [← Nat.two_pow_add_eq_or_of_lt y.isLt]

theorem toNat_append32 (b0 b1 b2 b3 : Byte) :
    (b0 ++ b1 ++ b2 ++ b3 : BitVec 32).toNat =
      ((b0.toNat * 256 + b1.toNat) * 256 + b2.toNat) * 256 + b3.toNat := by
  rw [toNat_append8, toNat_append8, toNat_append8]

theorem toNat_append16 (b0 b1 : Byte) :
    (b0 ++ b1 : BitVec 16).toNat = b0.toNat * 256 + b1.toNat := by
  rw [toNat_append8]

theorem extract_append32 (v : BitVec 32) :
    v.extractLsb' 24 8 ++ v.extractLsb' 16 8 ++ v.extractLsb' 8 8 ++ v.extractLsb' 0 8 = v := by
  apply BitVec.eq_of_toNat_eq
  rw [toNat_append32]
  simp only [BitVec.extractLsb'_toNat, Nat.shiftRight_eq_div_pow]
  have := v.isLt
  omega

theorem extract_append16 (v : BitVec 16) : v.extractLsb' 8 8 ++ v.extractLsb' 0 8 = v := by
  apply BitVec.eq_of_toNat_eq
  rw [toNat_append16]
  simp only [BitVec.extractLsb'_toNat, Nat.shiftRight_eq_div_pow]
  have := v.isLt
  omega

theorem append_extract32 (b0 b1 b2 b3 : Byte) :
    bytes32 (b0 ++ b1 ++ b2 ++ b3) = [b0, b1, b2, b3] := by
  unfold bytes32
  have h0 := b0.isLt
  have h1 := b1.isLt
  have h2 := b2.isLt
  have h3 := b3.isLt
  congr 1
  · apply BitVec.eq_of_toNat_eq
    rw [BitVec.extractLsb'_toNat, toNat_append32, Nat.shiftRight_eq_div_pow]; omega
  congr 1
  · apply BitVec.eq_of_toNat_eq
    rw [BitVec.extractLsb'_toNat, toNat_append32, Nat.shiftRight_eq_div_pow]; omega
  congr 1
  · apply BitVec.eq_of_toNat_eq
    rw [BitVec.extractLsb'_toNat, toNat_append32, Nat.shiftRight_eq_div_pow]; omega
  congr 1
  · apply BitVec.eq_of_toNat_eq
    rw [BitVec.extractLsb'_toNat, toNat_append32, Nat.shiftRight_eq_div_pow]; omega

theorem append_extract16 (b0 b1 : Byte) : bytes16 (b0 ++ b1) = [b0, b1] := by
  unfold bytes16
  have h0 := b0.isLt
  have h1 := b1.isLt
  congr 1
  · apply BitVec.eq_of_toNat_eq
    rw [BitVec.extractLsb'_toNat, toNat_append16, Nat.shiftRight_eq_div_pow]; omega
  congr 1
  · apply BitVec.eq_of_toNat_eq
    rw [BitVec.extractLsb'_toNat, toNat_append16, Nat.shiftRight_eq_div_pow]; omega

theorem bytes32_inj {v w : BitVec 32} (h : bytes32 v = bytes32 w) : v = w := by
  unfold bytes32 at h
  injection h with h1 h; injection h with h2 h; injection h with h3 h; injection h with h4 h
  rw [← extract_append32 v, ← extract_append32 w, h1, h2, h3, h4]

theorem bytes16_inj {v w : BitVec 16} (h : bytes16 v = bytes16 w) : v = w := by
  unfold bytes16 at h
  injection h with h1 h; injection h with h2 h
  rw [← extract_append16 v, ← extract_append16 w, h1, h2]

theorem bytes32_swap32 (v : BitVec 32) : bytes32 (swap32 v) = (bytes32 v).reverse := by
  unfold bytes32 swap32
  simp only [List.reverse_cons, List.reverse_nil, List.nil_append, List.cons_append]
  congr 1
  · apply BitVec.eq_of_getLsbD_eq; intro i hi
    bits8 i hi <;> simp
  congr 1
  · apply BitVec.eq_of_getLsbD_eq; intro i hi
    bits8 i hi <;> simp
  congr 1
  · apply BitVec.eq_of_getLsbD_eq; intro i hi
    bits8 i hi <;> simp
  congr 1
  · apply BitVec.eq_of_getLsbD_eq; intro i hi
    bits8 i hi <;> simp

theorem bytes16_swap16 (v : BitVec 16) : bytes16 (swap16 v) = (bytes16 v).reverse := by
  unfold bytes16 swap16
  simp only [List.reverse_cons, List.reverse_nil, List.nil_append, List.cons_append]
  congr 1
  · apply BitVec.eq_of_getLsbD_eq; intro i hi
    bits8 i hi <;> simp
  congr 1
  · apply BitVec.eq_of_getLsbD_eq; intro i hi
    bits8 i hi <;> simp

theorem swap32_append (b0 b1 b2 b3 : Byte) :
    swap32 (b3 ++ b2 ++ b1 ++ b0) = b0 ++ b1 ++ b2 ++ b3 := by
  apply bytes32_inj
  rw [bytes32_swap32, append_extract32, append_extract32]
  rfl

theorem swap16_append (b0 b1 : Byte) : swap16 (b1 ++ b0) = b0 ++ b1 := by
  apply bytes16_inj
  rw [bytes16_swap16, append_extract16, append_extract16]
  rfl

theorem fromHost32_load (e : Env) (b0 b1 b2 b3 : Byte) :
    fromHost32 e (load32 e b0 b1 b2 b3) = b0 ++ b1 ++ b2 ++ b3 := by
  unfold fromHost32 load32
  split
  · rfl
  · exact swap32_append b0 b1 b2 b3

theorem fromHost16_load (e : Env) (b0 b1 : Byte) :
    fromHost16 e (load16 e b0 b1) = b0 ++ b1 := by
  unfold fromHost16 load16
  split
  · rfl
  · exact swap16_append b0 b1

theorem store32_fromHost (e : Env) (v : BitVec 32) : store32 e (fromHost32 e v) = bytes32 v := by
  unfold fromHost32 store32
  split
  · rfl
  · show (bytes32 (swap32 v)).reverse = _
    rw [bytes32_swap32, List.reverse_reverse]

theorem store16_fromHost (e : Env) (v : BitVec 16) : store16 e (fromHost16 e v) = bytes16 v := by
  unfold fromHost16 store16
  split
  · rfl
  · show (bytes16 (swap16 v)).reverse = _
    rw [bytes16_swap16, List.reverse_reverse]

theorem idToString_eq (id : ID) : idToString id = bytes32 id := by
  unfold idToString bytes32
  congr 1
  congr 1
  · apply BitVec.eq_of_getLsbD_eq; intro i hi
    bits8 i hi <;> simp
  congr 1
  · apply BitVec.eq_of_getLsbD_eq; intro i hi
    bits8 i hi <;> simp
  congr 1
  · apply BitVec.eq_of_getLsbD_eq; intro i hi
    bits8 i hi <;> simp

end Iff
