import Verif.Spec.Tree
import Verif.Proofs.Bits
import Verif.Proofs.Registry
import Verif.Proofs.Chunk
/-
  Facts about the encoding.
-/
namespace Iff
open Spec

theorem be4_eq (v : BitVec 32) : be 4 v.toNat = bytes32 v := by
  have := v.isLt
  simp only [be, bytes32]
  congr 1
  · apply BitVec.eq_of_toNat_eq
    simp [BitVec.extractLsb'_toNat, Nat.shiftRight_eq_div_pow]
  congr 1
  · apply BitVec.eq_of_toNat_eq
    simp [BitVec.extractLsb'_toNat, Nat.shiftRight_eq_div_pow]
  congr 1
  · apply BitVec.eq_of_toNat_eq
    simp [BitVec.extractLsb'_toNat, Nat.shiftRight_eq_div_pow]
  congr 1
  · apply BitVec.eq_of_toNat_eq
    simp [BitVec.extractLsb'_toNat]

theorem be2_eq (v : BitVec 16) : be 2 v.toNat = bytes16 v := by
  simp only [be, bytes16]
  congr 1
  · apply BitVec.eq_of_toNat_eq
    simp [BitVec.extractLsb'_toNat, Nat.shiftRight_eq_div_pow]
  congr 1
  · apply BitVec.eq_of_toNat_eq
    simp [BitVec.extractLsb'_toNat]

theorem be1_eq (v : Byte) : be 1 v.toNat = [v] := by
  simp [be]

@[simp] theorem be_length (k n : Nat) : (be k n).length = k := by
  induction k with
  | zero => rfl
  | succ k ih => simp [be, ih]

theorem be4_size {size : Int} (h0 : 0 ≤ size) (h1 : size < 4294967296) :
    be 4 size.toNat = bytes32 (BitVec.ofInt 32 size) := by
  rw [← be4_eq]
  congr 1
  simp only [BitVec.toNat_ofInt]
  have : size % ((2 ^ 32 : Nat) : Int) = size := Int.emod_eq_of_lt h0 (by simpa using h1)
  rw [this]

@[simp] theorem header_length (id : ID) (size : Int) : (header id size).length = 8 := by
  simp [header]

theorem pad_length (size : Int) : ((pad size).length : Int) = size % 2 := by
  unfold pad; split
  · simp; omega
  · simp; omega

theorem encodeVal_length (v : Val) : (encodeVal v).length = v.kind.size := by
  cases v <;> simp [encodeVal, Val.kind, FieldKind.size]

theorem fitting_length (vals : List Val) (room : Nat) :
    ((fitting vals room).flatMap encodeVal).length ≤ room := by
  induction vals generalizing room with
  | nil => simp [fitting]
  | cons v vs ih =>
    unfold fitting
    split
    · have := ih (room - (encodeVal v).length)
      simp only [List.flatMap_cons, List.length_append]
      omega
    · simp

theorem encodeFields_length (vals : List Val) (size : Int) :
    (encodeFields vals size).length ≤ size.toNat := fitting_length vals size.toNat

theorem encodeAll_append (a b : List Chunk) : encodeAll (a ++ b) = encodeAll a ++ encodeAll b := by
  induction a with
  | nil => rfl
  | cons c cs ih => simp [encodeAll, ih]

theorem encodeAll_eq (cs : List Chunk) : encodeAll cs = cs.flatMap encode := by
  induction cs with
  | nil => rfl
  | cons c cs ih => simp [encodeAll, ih]

/-- Size of a consistent chunk: between 0 and 2^31. -/
theorem Spec.Consistent.range {c : Chunk} (h : Consistent c) : 0 ≤ c.size ∧ c.size < 2147483648 := by
  cases h with
  | raw h1 h2 => exact ⟨by simp only [Chunk.size]; omega, h2⟩
  | grp h1 h2 _ => exact ⟨by simp only [Chunk.size]; omega, h2⟩
  | lst h1 h2 _ _ => exact ⟨by simp only [Chunk.size]; omega, h2⟩
  | ext h1 h2 _ => exact ⟨h1, h2⟩

/-- The encoding of a consistent chunk occupies its header, its size and its padding. -/
theorem Spec.Consistent.length {c : Chunk} (h : Consistent c) :
    ((encode c).length : Int) = 8 + c.size + c.size % 2 := by
  cases h with
  | @raw id size data h1 h2 =>
    simp only [encode, List.length_append, header_length, Chunk.size]
    have := pad_length size; omega
  | @grp id size ty subs h1 h2 _ =>
    simp only [encode, List.length_append, header_length, Chunk.size, be_length]
    have := pad_length size; omega
  | @lst id size ty subs props h1 h2 _ _ =>
    simp only [encode, List.length_append, header_length, Chunk.size, be_length]
    have := pad_length size; omega
  | @ext id size vals h1 h2 _ =>
    have hl := encodeFields_length vals size
    simp only [encode, List.length_append, header_length, Chunk.size, List.length_replicate]
    have := pad_length size; omega

theorem ids_ne : idCAT ≠ idFORM ∧ idLIST ≠ idFORM ∧ idLIST ≠ idCAT ∧ idPROP ≠ idFORM ∧
    idPROP ≠ idCAT ∧ idPROP ≠ idLIST := by decide

theorem standard_iff {c : Chunk} {ft : ID} : Dispatched defaultRegistry ft c ↔ Standard c := by
  have hh : ∀ {ft id h}, HandlerFor defaultRegistry ft id h ↔
      findChunkType defaultRegistry ft id = h :=
    fun {ft id h} => (findChunkType_iff defaultRegistry_sorted).symm
  induction c using Chunk.ind generalizing ft with
  | raw id size data =>
    constructor
    · intro h
      cases h with
      | raw h =>
        rw [hh, findChunkType_default] at h
        refine .raw ?_ ?_ ?_ ?_ <;> (intro hc; simp [hc, ids_ne] at h)
    · intro h
      cases h with
      | raw h1 h2 h3 h4 =>
        refine .raw ?_
        rw [hh, findChunkType_default, if_neg h1, if_neg h2, if_neg h3, if_neg h4]
  | ext id size vals =>
    constructor
    · intro h
      cases h with
      | ext h =>
        rw [hh, findChunkType_default] at h
        repeat' split at h
        all_goals simp at h
    · intro h; cases h
  | grp id size ty subs ih =>
    constructor
    · intro h
      cases h with
      | grp h h2 h3 =>
        rw [hh, findChunkType_default] at h
        refine .grp ?_ (fun c hc => (ih c hc).mp (h3 c hc))
        by_cases h1 : id = idFORM
        · exact Or.inl h1
        by_cases h2' : id = idCAT
        · exact Or.inr (Or.inl h2')
        by_cases h4 : id = idPROP
        · exact Or.inr (Or.inr h4)
        rw [if_neg h1, if_neg h2', if_neg h4] at h
        split at h <;> subst h <;> simp at h2
    · intro h
      cases h with
      | grp h h3 =>
        have h3' : ∀ c ∈ subs, Dispatched defaultRegistry ty c :=
          fun c hc => (ih c hc).mpr (h3 c hc)
        rcases h with rfl | rfl | rfl
        · exact .grp (h := .form) (hh.mpr (findChunkType_default _ _)) (by simp) h3'
        · exact .grp (h := .cat) (hh.mpr (findChunkType_default _ _)) (by simp) h3'
        · exact .grp (h := .prop) (hh.mpr (findChunkType_default _ _)) (by simp) h3'
  | lst id size ty subs props ih ih2 =>
    constructor
    · intro h
      cases h with
      | lst h h2 h3 =>
        rw [hh, findChunkType_default] at h
        refine .lst ?_ (fun c hc => (ih c hc).mp (h2 c hc)) (fun c hc => (ih2 c hc).mp (h3 c hc))
        by_cases h1 : id = idLIST
        · exact h1
        rw [if_neg h1] at h
        repeat' split at h
        all_goals simp at h
    · intro h
      cases h with
      | lst h h2 h3 =>
        subst h
        exact .lst (hh.mpr (findChunkType_default _ _)) (fun c hc => (ih c hc).mpr (h2 c hc))
          (fun c hc => (ih2 c hc).mpr (h3 c hc))

end Iff
