import Verif.Model.Chunk
/-
  Arithmetic of the C conversions.
-/
namespace Iff

theorem pow_ge (e : Env) (h : 32 ≤ e.sizeBits) : (4294967296 : Int) ≤ ((2 ^ e.sizeBits : Nat) : Int) := by
  have : 2 ^ 32 ≤ 2 ^ e.sizeBits := Nat.pow_le_pow_right (by decide) h
  have h2 : (2:Nat) ^ 32 = 4294967296 := by decide
  omega

theorem toSize_nonneg (e : Env) (h : 32 ≤ e.sizeBits) {x : Int} (h0 : 0 ≤ x) (h1 : x < 4294967296) :
    toSize e x = x.toNat := by
  unfold toSize
  have := pow_ge e h
  rw [Int.emod_eq_of_lt h0 (by omega)]

theorem toSize_neg (e : Env) (h : 32 ≤ e.sizeBits) {x : Int} (h0 : x < 0) (h1 : -4294967296 ≤ x) :
    (toSize e x : Int) = ((2 ^ e.sizeBits : Nat) : Int) + x := by
  unfold toSize
  have := pow_ge e h
  have : x % ((2 ^ e.sizeBits : Nat) : Int) = ((2 ^ e.sizeBits : Nat) : Int) + x := by
    rw [← Int.add_emod_left, Int.emod_eq_of_lt (by omega) (by omega)]
  omega

theorem wrapInt_id {x : Int} (h : inInt x) : wrapInt x = x := by
  unfold wrapInt inInt at *; omega

theorem wrapInt_inInt (x : Int) : inInt (wrapInt x) := by
  unfold wrapInt inInt; omega

theorem isOdd_iff (x : Int) : isOdd x = true ↔ x % 2 = 1 := by
  unfold isOdd
  simp only [bne_iff_ne, ne_eq]
  rcases Int.le_total 0 x with h | h
  · rw [Int.tmod_eq_emod_of_nonneg h]; omega
  · have h2 : (-x).tmod 2 = (-x) % 2 := Int.tmod_eq_emod_of_nonneg (by omega)
    rw [Int.neg_tmod] at h2
    omega

theorem addInt_ok {x y : Int} (h : inInt (x + y)) : addInt x y = .val (x + y) := by
  simp [addInt, h]

theorem subInt_ok {x y : Int} (h : inInt (x - y)) : subInt x y = .val (x - y) := by
  simp [subInt, h]

/-- wrapping to `int` after a computation in `size_t` is wrapping to `int`. -/
theorem wrapInt_toSize (e : Env) (h : 32 ≤ e.sizeBits) (x : Int) :
    wrapInt (toSize e x) = wrapInt x := by
  unfold toSize wrapInt
  have hp := pow_ge e h
  obtain ⟨k, hk⟩ : ∃ k, e.sizeBits = 32 + k := ⟨e.sizeBits - 32, by omega⟩
  have h2 : ((2 ^ e.sizeBits : Nat) : Int) = 4294967296 * ((2 ^ k : Nat) : Int) := by
    rw [hk, Nat.pow_add, Int.natCast_mul]; rfl
  have hnn := Int.emod_nonneg x (b := ((2 ^ e.sizeBits : Nat) : Int)) (by omega)
  rw [Int.toNat_of_nonneg hnn]
  have hd : (x % ((2 ^ e.sizeBits : Nat) : Int)) % 4294967296 = x % 4294967296 := by
    apply Int.emod_emod_of_dvd
    rw [h2]; exact Int.dvd_mul_right _ _
  omega

theorem toSize_add_toSize_left (e : Env) (x y : Int) :
    toSize e ((toSize e x : Int) + y) = toSize e (x + y) := by
  unfold toSize
  have h0 : ((2 ^ e.sizeBits : Nat) : Int) ≠ 0 := by
    have := Nat.two_pow_pos e.sizeBits; omega
  rw [Int.toNat_of_nonneg (Int.emod_nonneg x h0), Int.emod_add_emod]

theorem toSize_add_toSize_right (e : Env) (x y : Int) :
    toSize e (x + (toSize e y : Int)) = toSize e (x + y) := by
  rw [Int.add_comm, toSize_add_toSize_left, Int.add_comm]

/-- Closed form of `IFF_incrementChunkSize`. -/
theorem incrementChunkSize_eq (e : Env) (h : 32 ≤ e.sizeBits) (acc sub : Int) :
    incrementChunkSize e acc sub =
      (addInt acc 4 >>= fun _ =>
        if isOdd sub then addInt (wrapInt (acc + 8 + sub)) 1 else .val (wrapInt (acc + 8 + sub))) := by
  unfold incrementChunkSize
  by_cases ha : inInt (acc + 4)
  · have h1 : addInt acc (idSize : Int) = .val (acc + 4) := addInt_ok ha
    have h2 : addInt acc 4 = .val (acc + 4) := addInt_ok ha
    rw [h1, h2]
    simp only [Out.val_bind, toSize_add_toSize_left, toSize_add_toSize_right, wrapInt_toSize e h]
    have : acc + 4 + 4 + sub = acc + 8 + sub := by omega
    rw [this]
  · have h1 : addInt acc (idSize : Int) = .ub .signedOverflow := by
      unfold addInt; rw [if_neg]; exact ha
    have h2 : addInt acc 4 = .ub .signedOverflow := by unfold addInt; rw [if_neg]; exact ha
    rw [h1, h2, Out.ub_bind, Out.ub_bind]

/-- `IFF_incrementChunkSize` when nothing overflows. -/
theorem incrementChunkSize_ok (e : Env) (h : 32 ≤ e.sizeBits) {acc sub : Int}
    (h0 : 0 ≤ acc) (h1 : 0 ≤ sub) (h2 : acc + 8 + sub + sub % 2 < 2147483648) :
    incrementChunkSize e acc sub = .val (acc + (8 + sub + sub % 2)) := by
  rw [incrementChunkSize_eq e h, addInt_ok (by unfold inInt; omega)]
  simp only [Out.val_bind]
  rw [wrapInt_id (by unfold inInt; omega)]
  by_cases ho : isOdd sub = true
  · rw [if_pos ho]
    rw [isOdd_iff] at ho
    rw [addInt_ok (by unfold inInt; omega)]
    congr 1; omega
  · rw [if_neg ho]
    rw [isOdd_iff] at ho
    congr 1; omega

theorem fits_iff (e : Env) (h : 32 ≤ e.sizeBits) {n : Nat} {size bp : Int}
    (hn : (n : Int) ≤ size) (hs : size < 2147483648) (h0 : 0 ≤ bp) (h1 : bp < 2147483648) :
    fieldDoesNotFitInChunk e n size bp = false ↔ bp + n ≤ size := by
  unfold fieldDoesNotFitInChunk
  rw [toSize_nonneg e h h0 (by omega), toSize_nonneg e h (x := size) (by omega) (by omega),
    toSize_nonneg e h (by omega) (by omega)]
  simp only [gt_iff_lt, decide_eq_false_iff_not]
  omega

theorem increaseBytesProcessed_ok (e : Env) (h : 32 ≤ e.sizeBits) {n : Nat} {bp : Int}
    (h1 : inInt (bp + n)) : increaseBytesProcessed e bp n = bp + n := by
  unfold increaseBytesProcessed
  rw [toSize_add_toSize_left, wrapInt_toSize e h, wrapInt_id h1]

end Iff
