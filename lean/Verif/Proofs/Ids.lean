import Verif.Spec.Ids
import Verif.Proofs.Bits
/-
  Lemmas about IDs.
-/
namespace Iff
open Spec

theorem bytes32_toNat (id : ID) : (bytes32 id).map BitVec.toNat = chars id := by
  simp [bytes32, chars, BitVec.extractLsb'_toNat, Nat.shiftRight_eq_div_pow]

theorem idToString_toNat (id : ID) : (idToString id).map BitVec.toNat = chars id := by
  rw [idToString_eq, bytes32_toNat]

theorem makeIdB_eq (a b c d : Byte) : makeIdB a b c d = a ++ b ++ c ++ d := by
  apply bytes32_inj
  rw [append_extract32]
  unfold bytes32 makeIdB
  congr 1
  · apply BitVec.eq_of_getLsbD_eq; intro i hi
    bits8 i hi <;> simp
  congr 1
  · apply BitVec.eq_of_getLsbD_eq; intro i hi
    bits8 i hi <;> simp
  congr 1
  · apply BitVec.eq_of_getLsbD_eq; intro i hi
    bits8 i hi <;> simp
  congr 1
  · apply BitVec.eq_of_getLsbD_eq; intro i hi
    bits8 i hi <;> simp

theorem chars_inj {a b : ID} (h : chars a = chars b) : a = b := by
  apply BitVec.eq_of_toNat_eq
  simp only [chars, List.cons.injEq, and_true] at h
  have := a.isLt
  have := b.isLt
  omega

theorem chars_digits (x : ID) : ∃ a b c d : Nat, a < 256 ∧ b < 256 ∧ c < 256 ∧ d < 256 ∧
    x.toNat = ((a * 256 + b) * 256 + c) * 256 + d ∧ chars x = [a, b, c, d] := by
  refine ⟨_, _, _, _, ?_, ?_, ?_, ?_, ?_, rfl⟩ <;> have := x.isLt <;> omega

/-- A byte compares with an ASCII code the same way whether `char` is signed or not. -/
theorem charVal_range (e : Env) (b : Byte) :
    (charVal e b < 0x20 ∨ charVal e b > 0x7e) ↔ ¬ (0x20 ≤ b.toNat ∧ b.toNat ≤ 0x7e) := by
  unfold charVal
  have := b.isLt
  split
  · rw [BitVec.toInt_eq_toNat_cond]; split <;> omega
  · omega

theorem charVal_ascii (e : Env) (b : Byte) (h : b.toNat ≤ 0x7e) : charVal e b = b.toNat := by
  unfold charVal
  split
  · rw [BitVec.toInt_eq_toNat_cond]; split <;> omega
  · rfl

theorem checkIdChars_eq (e : Env) (bs : List Byte) (log : List Msg) :
    (checkIdChars e bs log = .val (true, log) ∧ ∀ b ∈ bs, 0x20 ≤ b.toNat ∧ b.toNat ≤ 0x7e) ∨
    (∃ m, checkIdChars e bs log = .val (false, log ++ [m]) ∧
      ¬ ∀ b ∈ bs, 0x20 ≤ b.toNat ∧ b.toNat ≤ 0x7e) := by
  induction bs with
  | nil => left; exact ⟨rfl, by simp⟩
  | cons b bs ih =>
    unfold checkIdChars
    by_cases h : charVal e b < 0x20 ∨ charVal e b > 0x7e
    · right
      rw [if_pos h]
      refine ⟨_, rfl, ?_⟩
      rw [charVal_range] at h
      intro hall
      exact h (hall b (List.mem_cons_self))
    · rw [if_neg h]
      rw [charVal_range] at h
      rcases ih with ⟨h1, h2⟩ | ⟨m, h1, h2⟩
      · left
        refine ⟨h1, ?_⟩
        intro x hx
        rcases List.mem_cons.mp hx with rfl | hx
        · omega
        · exact h2 x hx
      · right
        refine ⟨m, h1, ?_⟩
        intro hall
        exact h2 (fun x hx => hall x (List.mem_cons_of_mem _ hx))

theorem forall_chars (id : ID) (P : Nat → Prop) :
    (∀ c ∈ chars id, P c) ↔ ∀ b ∈ idToString id, P b.toNat := by
  rw [← idToString_toNat]; simp

theorem head_chars (id : ID) :
    (chars id).head? = some 0x20 ↔ (idToString id).head? = some 0x20#8 := by
  rw [← idToString_toNat, idToString_eq]
  simp only [bytes32, List.map_cons, List.head?_cons, Option.some.injEq]
  constructor
  · intro h; exact BitVec.eq_of_toNat_eq (by simpa using h)
  · intro h; rw [h]; rfl

theorem checkId_spec (e : Env) (id : ID) (log : List Msg) :
    (checkId e id log = .val (true, log) ∧ ValidId id) ∨
    (∃ m, checkId e id log = .val (false, log ++ [m]) ∧ ¬ ValidId id) := by
  unfold ValidId
  rw [forall_chars, Ne, head_chars]
  rcases checkIdChars_eq e (idToString id) log with ⟨h1, h2⟩ | ⟨m, h1, h2⟩
  · by_cases h : (idToString id).head? = some 0x20#8
    · right
      refine ⟨.leadingSpace, ?_, fun hh => hh.2 h⟩
      simp [checkId, M.bind_apply, h1, h, emit]
    · left
      refine ⟨?_, h2, h⟩
      simp only [checkId, M.bind_apply, h1, if_true]
      rw [if_neg h]; rfl
  · right
    refine ⟨m, ?_, fun hh => h2 hh.1⟩
    simp [checkId, M.bind_apply, h1]

theorem checkFormTypeChars_eq (e : Env) (bs : List Byte) (log : List Msg)
    (hv : ∀ b ∈ bs, b.toNat ≤ 0x7e) :
    (checkFormTypeChars e bs log = .val (true, log) ∧
      ∀ b ∈ bs, ¬ IsLower b.toNat ∧ b.toNat ≠ '.'.toNat) ∨
    (∃ m, checkFormTypeChars e bs log = .val (false, log ++ [m]) ∧
      ¬ ∀ b ∈ bs, ¬ IsLower b.toNat ∧ b.toNat ≠ '.'.toNat) := by
  induction bs with
  | nil => left; exact ⟨rfl, by simp⟩
  | cons b bs ih =>
    have hb : charVal e b = b.toNat := charVal_ascii e b (hv b List.mem_cons_self)
    have key : ((charVal e b ≥ 0x61 ∧ charVal e b ≤ 0x7a) ∨ charVal e b = 0x2e) ↔
        ¬ (¬ IsLower b.toNat ∧ b.toNat ≠ '.'.toNat) := by
      rw [hb]
      have e1 : 'a'.toNat = 0x61 := rfl
      have e2 : 'z'.toNat = 0x7a := rfl
      have e3 : '.'.toNat = 0x2e := rfl
      unfold IsLower
      rw [e1, e2, e3]
      omega
    unfold checkFormTypeChars
    by_cases h : (charVal e b ≥ 0x61 ∧ charVal e b ≤ 0x7a) ∨ charVal e b = 0x2e
    · right
      rw [if_pos h]
      refine ⟨_, rfl, ?_⟩
      intro hall
      exact key.mp h (hall b List.mem_cons_self)
    · rw [if_neg h]
      have hb' : ¬ IsLower b.toNat ∧ b.toNat ≠ '.'.toNat := by
        by_cases hh : ¬ IsLower b.toNat ∧ b.toNat ≠ '.'.toNat
        · exact hh
        · exact absurd (key.mpr hh) h
      rcases ih (fun x hx => hv x (List.mem_cons_of_mem _ hx)) with ⟨h1, h2⟩ | ⟨m, h1, h2⟩
      · left
        refine ⟨h1, ?_⟩
        intro x hx
        rcases List.mem_cons.mp hx with rfl | hx
        · exact hb'
        · exact h2 x hx
      · right
        exact ⟨m, h1, fun hall => h2 (fun x hx => hall x (List.mem_cons_of_mem _ hx))⟩


theorem reserved_iff (id : ID) : id ∈ reservedFormTypes ↔ ReservedName (chars id) := by
  constructor
  · intro h
    have hall : reservedFormTypes.all (fun x =>
        decide (chars x = codes ['L', 'I', 'S', 'T'] ∨ chars x = codes ['F', 'O', 'R', 'M'] ∨
          chars x = codes ['P', 'R', 'O', 'P'] ∨ chars x = codes ['C', 'A', 'T', ' '] ∨
          chars x = codes ['J', 'J', 'J', 'J'] ∨
          ∃ d ∈ [49, 50, 51, 52, 53, 54, 55, 56, 57],
            (chars x = codes ['L', 'I', 'S'] ++ [d] ∨ chars x = codes ['F', 'O', 'R'] ++ [d] ∨
              chars x = codes ['C', 'A', 'T'] ++ [d]))) = true := by decide
    have this := of_decide_eq_true (List.all_eq_true.mp hall id h)
    rcases this with h | h | h | h | h | ⟨d, hd, h⟩
    · exact .inl h
    · exact .inr (.inl h)
    · exact .inr (.inr (.inl h))
    · exact .inr (.inr (.inr (.inl h)))
    · exact .inr (.inr (.inr (.inr (.inl h))))
    · refine .inr (.inr (.inr (.inr (.inr ⟨d, ?_, ?_, h⟩))))
      · simp only [List.mem_cons, List.not_mem_nil, or_false] at hd
        show 49 ≤ d; omega
      · simp only [List.mem_cons, List.not_mem_nil, or_false] at hd
        show d ≤ 57; omega
  · have key : ∀ cs : List Nat, ReservedName cs → cs ∈ reservedFormTypes.map chars := by
      intro cs h
      rcases h with h | h | h | h | h | ⟨d, hd1, hd2, h⟩
      · subst h; decide
      · subst h; decide
      · subst h; decide
      · subst h; decide
      · subst h; decide
      · have hd : d = 49 ∨ d = 50 ∨ d = 51 ∨ d = 52 ∨ d = 53 ∨ d = 54 ∨ d = 55 ∨ d = 56 ∨ d = 57 := by
          have e1 : '1'.toNat = 49 := rfl
          have e2 : '9'.toNat = 57 := rfl
          rw [e1] at hd1; rw [e2] at hd2; omega
        rcases hd with rfl | rfl | rfl | rfl | rfl | rfl | rfl | rfl | rfl <;>
          rcases h with h | h | h <;> subst h <;> decide
    intro h
    obtain ⟨x, hx, hxe⟩ := List.mem_map.mp (key _ h)
    rw [chars_inj hxe.symm]; exact hx

theorem checkFormType_spec (e : Env) (id : ID) (log : List Msg) :
    (checkFormType e id log = .val (true, log) ∧ AcceptedFormType id) ∨
    (∃ m, checkFormType e id log = .val (false, log ++ [m]) ∧ ¬ AcceptedFormType id) := by
  rcases checkId_spec e id log with ⟨h1, h2⟩ | ⟨m, h1, h2⟩
  · have hv : ∀ b ∈ idToString id, b.toNat ≤ 0x7e := by
      have := h2.1
      rw [forall_chars] at this
      exact fun b hb => (this b hb).2
    rcases checkFormTypeChars_eq e (idToString id) log hv with ⟨h3, h4⟩ | ⟨m, h3, h4⟩
    · by_cases hr : id ∈ reservedFormTypes
      · right
        refine ⟨.formTypeReserved id, ?_, fun hh => hh.2.2 ((reserved_iff id).mp hr)⟩
        simp [checkFormType, M.bind_apply, h1, h3, hr, emit]
      · left
        refine ⟨?_, h2, ?_, fun hh => hr ((reserved_iff id).mpr hh)⟩
        · simp [checkFormType, M.bind_apply, h1, h3, hr]
        · rw [forall_chars]; exact h4
    · right
      refine ⟨m, ?_, fun hh => h4 ?_⟩
      · simp [checkFormType, M.bind_apply, h1, h3]
      · have := hh.2.1; rw [forall_chars] at this; exact this
  · right
    exact ⟨m, by simp [checkFormType, M.bind_apply, h1], fun hh => h2 hh.1⟩

end Iff
