import Verif.Proofs.SrcDataRun
import Verif.Proofs.SrcSearch
import Verif.Spec.TestSearch
/-
  The text of the test programs that search, statement by statement.
-/
namespace Iff.Src

open Iff.Heap Iff.Spec

set_option maxRecDepth 4000

section
variable {X : Cfg} {call : Fn → List V → M CS V} {f : Fr}

theorem evalE_typeTEST : evalE X call (IFF_MAKEID (.num .int 84) (.num .int 69) (.num .int 83) (.num .int 84)) f =
    .val (.int .int typeTEST.toNat, f) := evalE_idTEST

theorem evalE_nameHELO : evalE X call (IFF_MAKEID (.num .int 72) (.num .int 69) (.num .int 76) (.num .int 79)) f =
    .val (.int .int nameHELO.toNat, f) := evalE_idHELO

end

/-- What is in `formsLength` after the search. -/
def lengthObj (len : Nat) : Blk := Blk.set ⟨4, cells []⟩ 0 (.int .uint len)

variable {X : Cfg} {a r : Addr} {args : List String} {g g₁ : CS} {stk : List Blk}
variable {h₁ h₂ h₃ : Addr → Option Blk} {k₁ k₂ k₃ : Nat} {i₁ i₂ i₃ o : List Byte} {rm : Nat} {tx : List Byte}
variable {l₁ l₂ l₃ : List ErrPrint} {len : Nat}

/-- searchforms-form.c:30-52 -/
theorem searchforms_form_some (hr : args.length + 1 < 2147483648) (ha : a ≠ 0) (hk : g.stk = stk) (hl : len < 4294967296)
    (h1 : Runs X .IFF_read [.str "hello.TEST", .ptr .void Ptr.null] g (chunkV a) ⟨h₁, k₁, stk, i₁, o, rm, tx, l₁⟩)
    (h2 : Runs X .IFF_searchForms [chunkV a, .int .int typeTEST.toNat, .ptr (.int .uint) ⟨.stk stk.length, 0⟩]
      ⟨h₁, k₁, stk ++ [⟨4, cells []⟩], i₁, o, rm, tx, l₁⟩ (.ptr (.ptr (.struct .IFF_Form)) ⟨.heap r, 0⟩)
      ⟨h₂, k₂, stk ++ [lengthObj len], i₂, o, rm, tx, l₂⟩)
    (h3 : Runs X .IFF_free [chunkV a, .ptr .void Ptr.null] ⟨h₂, k₂, stk ++ [lengthObj len], i₂, o, rm, tx, l₂⟩ .void
      ⟨h₃, k₃, stk ++ [lengthObj len], i₃, o, rm, tx, l₃⟩) :
    Runs X .searchforms_form_main (mainArgs args) g (.int .int (if len = 1 then 0 else 1))
      ⟨h₃, k₃, stk, i₃, o, rm, tx, l₃⟩ := by
  subst hk
  have hw : wrapInt ((args.length + 1 : Nat) : Int) = ((args.length + 1 : Nat) : Int) := wrapInt_of ⟨by omega, by omega⟩
  have hab : (a == 0) = false := by simpa using ha
  have hcell : (lengthObj len).cell 0 = .int .uint len := rfl
  obtain ⟨N1, hN1⟩ := h1
  obtain ⟨N2, hN2⟩ := h2
  obtain ⟨N3, hN3⟩ := h3
  refine ⟨N1 + N2 + N3 + 3, fun n hn => ?_⟩
  obtain ⟨n, rfl⟩ : ∃ n', n = n' + 3 := ⟨n - 3, by omega⟩
  have hr1 := hN1 (n + 2) (by omega)
  have hr2 := hN2 (n + 2) (by omega)
  have hr3 := hN3 (n + 2) (by omega)
  have hfp : ∀ (s : String) (g : CS), callFn X (n + 2) .fprintf [.file .err, .str s] g = .val (.int .int 0, g) := fun _ _ => rfl
  rw [callFn_code rfl]
  by_cases hn : len = 1
  · subst hn
    crun [searchforms_form_main.code, searchforms_form_ID_TEST, evalE_typeTEST, mainArgs, hw, addr_beq_null, hab, hr1, hr2, hr3,
      Ty.size, scalarSize, ITy.bits, blkOf_stk stk_get0, hcell, stk_take0]
  · have hnb : ((len : Int) % 4294967296 != 1) = true := by
      rw [bne_iff_ne]
      omega
    crun [searchforms_form_main.code, searchforms_form_ID_TEST, evalE_typeTEST, mainArgs, hw, addr_beq_null, hab, hr1, hr2, hr3,
      Ty.size, scalarSize, ITy.bits, blkOf_stk stk_get0, hcell, stk_take0, hn, hnb, evalE_stderr, hfp]

/-- searchforms-form.c:30-52, nothing read -/
theorem searchforms_form_none (hr : args.length + 1 < 2147483648) (hk : g₁.stk = g.stk)
    (h1 : Runs X .IFF_read [.str "hello.TEST", .ptr .void Ptr.null] g (chunkV 0) g₁) :
    Runs X .searchforms_form_main (mainArgs args) g (.int .int 1) g₁ := by
  have hk1 : List.take g.stk.length g₁.stk = g₁.stk := by rw [hk, List.take_length]
  have hw : wrapInt ((args.length + 1 : Nat) : Int) = ((args.length + 1 : Nat) : Int) := wrapInt_of ⟨by omega, by omega⟩
  obtain ⟨N1, hN1⟩ := h1
  refine ⟨N1 + 2, fun n hn => ?_⟩
  obtain ⟨n, rfl⟩ : ∃ n', n = n' + 2 := ⟨n - 2, by omega⟩
  have hr1 := hN1 (n + 1) (by omega)
  rw [callFn_code rfl]
  crun [searchforms_form_main.code, mainArgs, hw, addr_beq_null, beq_self_eq_true, hr1, hk1]

/-- searchforms-cat.c:30-52 -/
theorem searchforms_cat_some (hr : args.length + 1 < 2147483648) (ha : a ≠ 0) (hk : g.stk = stk) (hl : len < 4294967296)
    (h1 : Runs X .IFF_read [.str "cat.TEST", .ptr .void Ptr.null] g (chunkV a) ⟨h₁, k₁, stk, i₁, o, rm, tx, l₁⟩)
    (h2 : Runs X .IFF_searchForms [chunkV a, .int .int typeTEST.toNat, .ptr (.int .uint) ⟨.stk stk.length, 0⟩]
      ⟨h₁, k₁, stk ++ [⟨4, cells []⟩], i₁, o, rm, tx, l₁⟩ (.ptr (.ptr (.struct .IFF_Form)) ⟨.heap r, 0⟩)
      ⟨h₂, k₂, stk ++ [lengthObj len], i₂, o, rm, tx, l₂⟩)
    (h3 : Runs X .IFF_free [chunkV a, .ptr .void Ptr.null] ⟨h₂, k₂, stk ++ [lengthObj len], i₂, o, rm, tx, l₂⟩ .void
      ⟨h₃, k₃, stk ++ [lengthObj len], i₃, o, rm, tx, l₃⟩) :
    Runs X .searchforms_cat_main (mainArgs args) g (.int .int (if len = 2 then 0 else 1))
      ⟨h₃, k₃, stk, i₃, o, rm, tx, l₃⟩ := by
  subst hk
  have hw : wrapInt ((args.length + 1 : Nat) : Int) = ((args.length + 1 : Nat) : Int) := wrapInt_of ⟨by omega, by omega⟩
  have hab : (a == 0) = false := by simpa using ha
  have hcell : (lengthObj len).cell 0 = .int .uint len := rfl
  obtain ⟨N1, hN1⟩ := h1
  obtain ⟨N2, hN2⟩ := h2
  obtain ⟨N3, hN3⟩ := h3
  refine ⟨N1 + N2 + N3 + 3, fun n hn => ?_⟩
  obtain ⟨n, rfl⟩ : ∃ n', n = n' + 3 := ⟨n - 3, by omega⟩
  have hr1 := hN1 (n + 2) (by omega)
  have hr2 := hN2 (n + 2) (by omega)
  have hr3 := hN3 (n + 2) (by omega)
  have hfp : ∀ (s : String) (g : CS), callFn X (n + 2) .fprintf [.file .err, .str s] g = .val (.int .int 0, g) := fun _ _ => rfl
  rw [callFn_code rfl]
  by_cases hn : len = 2
  · subst hn
    crun [searchforms_cat_main.code, searchforms_cat_ID_TEST, evalE_typeTEST, mainArgs, hw, addr_beq_null, hab, hr1, hr2, hr3,
      Ty.size, scalarSize, ITy.bits, blkOf_stk stk_get0, hcell, stk_take0]
  · have hnb : ((len : Int) % 4294967296 != 2) = true := by
      rw [bne_iff_ne]
      omega
    crun [searchforms_cat_main.code, searchforms_cat_ID_TEST, evalE_typeTEST, mainArgs, hw, addr_beq_null, hab, hr1, hr2, hr3,
      Ty.size, scalarSize, ITy.bits, blkOf_stk stk_get0, hcell, stk_take0, hn, hnb, evalE_stderr, hfp]

/-- searchforms-cat.c:30-52, nothing read -/
theorem searchforms_cat_none (hr : args.length + 1 < 2147483648) (hk : g₁.stk = g.stk)
    (h1 : Runs X .IFF_read [.str "cat.TEST", .ptr .void Ptr.null] g (chunkV 0) g₁) :
    Runs X .searchforms_cat_main (mainArgs args) g (.int .int 1) g₁ := by
  have hk1 : List.take g.stk.length g₁.stk = g₁.stk := by rw [hk, List.take_length]
  have hw : wrapInt ((args.length + 1 : Nat) : Int) = ((args.length + 1 : Nat) : Int) := wrapInt_of ⟨by omega, by omega⟩
  obtain ⟨N1, hN1⟩ := h1
  refine ⟨N1 + 2, fun n hn => ?_⟩
  obtain ⟨n, rfl⟩ : ∃ n', n = n' + 2 := ⟨n - 2, by omega⟩
  have hr1 := hN1 (n + 1) (by omega)
  rw [callFn_code rfl]
  crun [searchforms_cat_main.code, mainArgs, hw, addr_beq_null, beq_self_eq_true, hr1, hk1]

/-- searchforms-nestedform.c:30-52 -/
theorem searchforms_nestedform_some (hr : args.length + 1 < 2147483648) (ha : a ≠ 0) (hk : g.stk = stk) (hl : len < 4294967296)
    (h1 : Runs X .IFF_read [.str "nestedform.TEST", .ptr .void Ptr.null] g (chunkV a) ⟨h₁, k₁, stk, i₁, o, rm, tx, l₁⟩)
    (h2 : Runs X .IFF_searchForms [chunkV a, .int .int typeTEST.toNat, .ptr (.int .uint) ⟨.stk stk.length, 0⟩]
      ⟨h₁, k₁, stk ++ [⟨4, cells []⟩], i₁, o, rm, tx, l₁⟩ (.ptr (.ptr (.struct .IFF_Form)) ⟨.heap r, 0⟩)
      ⟨h₂, k₂, stk ++ [lengthObj len], i₂, o, rm, tx, l₂⟩)
    (h3 : Runs X .IFF_free [chunkV a, .ptr .void Ptr.null] ⟨h₂, k₂, stk ++ [lengthObj len], i₂, o, rm, tx, l₂⟩ .void
      ⟨h₃, k₃, stk ++ [lengthObj len], i₃, o, rm, tx, l₃⟩) :
    Runs X .searchforms_nestedform_main (mainArgs args) g (.int .int (if len = 2 then 0 else 1))
      ⟨h₃, k₃, stk, i₃, o, rm, tx, l₃⟩ := by
  subst hk
  have hw : wrapInt ((args.length + 1 : Nat) : Int) = ((args.length + 1 : Nat) : Int) := wrapInt_of ⟨by omega, by omega⟩
  have hab : (a == 0) = false := by simpa using ha
  have hcell : (lengthObj len).cell 0 = .int .uint len := rfl
  obtain ⟨N1, hN1⟩ := h1
  obtain ⟨N2, hN2⟩ := h2
  obtain ⟨N3, hN3⟩ := h3
  refine ⟨N1 + N2 + N3 + 3, fun n hn => ?_⟩
  obtain ⟨n, rfl⟩ : ∃ n', n = n' + 3 := ⟨n - 3, by omega⟩
  have hr1 := hN1 (n + 2) (by omega)
  have hr2 := hN2 (n + 2) (by omega)
  have hr3 := hN3 (n + 2) (by omega)
  have hfp : ∀ (s : String) (g : CS), callFn X (n + 2) .fprintf [.file .err, .str s] g = .val (.int .int 0, g) := fun _ _ => rfl
  rw [callFn_code rfl]
  by_cases hn : len = 2
  · subst hn
    crun [searchforms_nestedform_main.code, searchforms_nestedform_ID_TEST, evalE_typeTEST, mainArgs, hw, addr_beq_null, hab, hr1, hr2, hr3,
      Ty.size, scalarSize, ITy.bits, blkOf_stk stk_get0, hcell, stk_take0]
  · have hnb : ((len : Int) % 4294967296 != 2) = true := by
      rw [bne_iff_ne]
      omega
    crun [searchforms_nestedform_main.code, searchforms_nestedform_ID_TEST, evalE_typeTEST, mainArgs, hw, addr_beq_null, hab, hr1, hr2, hr3,
      Ty.size, scalarSize, ITy.bits, blkOf_stk stk_get0, hcell, stk_take0, hn, hnb, evalE_stderr, hfp]

/-- searchforms-nestedform.c:30-52, nothing read -/
theorem searchforms_nestedform_none (hr : args.length + 1 < 2147483648) (hk : g₁.stk = g.stk)
    (h1 : Runs X .IFF_read [.str "nestedform.TEST", .ptr .void Ptr.null] g (chunkV 0) g₁) :
    Runs X .searchforms_nestedform_main (mainArgs args) g (.int .int 1) g₁ := by
  have hk1 : List.take g.stk.length g₁.stk = g₁.stk := by rw [hk, List.take_length]
  have hw : wrapInt ((args.length + 1 : Nat) : Int) = ((args.length + 1 : Nat) : Int) := wrapInt_of ⟨by omega, by omega⟩
  obtain ⟨N1, hN1⟩ := h1
  refine ⟨N1 + 2, fun n hn => ?_⟩
  obtain ⟨n, rfl⟩ : ∃ n', n = n' + 2 := ⟨n - 2, by omega⟩
  have hr1 := hN1 (n + 1) (by omega)
  rw [callFn_code rfl]
  crun [searchforms_nestedform_main.code, mainArgs, hw, addr_beq_null, beq_self_eq_true, hr1, hk1]

/-- A chunk in memory. -/
def HeaderAt (X : Cfg) (h : Addr → Option Blk) (p : Addr) (id : ID) : Prop :=
  ∃ sz par size rest, Struct.size X.e .IFF_Chunk ≤ sz ∧
    h p = some ⟨sz, cells (.ptr (.ofAddr par) :: .int .uint id.toNat :: .int .int size :: rest)⟩

/-- lookupproperty-simple.c:30-61, nothing read -/
theorem lookup_none (hr : args.length + 1 < 2147483648) (hk : g₁.stk = g.stk)
    (h1 : Runs X .IFF_read [.str "hello.TEST", .ptr .void Ptr.null] g (chunkV 0) g₁) :
    Runs X .lookupproperty_simple_main (mainArgs args) g (.int .int 1) g₁ := by
  have hk1 : List.take g.stk.length g₁.stk = g₁.stk := by rw [hk, List.take_length]
  have hw : wrapInt ((args.length + 1 : Nat) : Int) = ((args.length + 1 : Nat) : Int) := wrapInt_of ⟨by omega, by omega⟩
  obtain ⟨N1, hN1⟩ := h1
  refine ⟨N1 + 2, fun n hn => ?_⟩
  obtain ⟨n, rfl⟩ : ∃ n', n = n' + 2 := ⟨n - 2, by omega⟩
  have hr1 := hN1 (n + 1) (by omega)
  rw [callFn_code rfl]
  crun [lookupproperty_simple_main.code, mainArgs, hw, addr_beq_null, beq_self_eq_true, hr1, hk1]

/-- lookupproperty-simple.c:30-61, not a FORM -/
theorem lookup_other (hr : args.length + 1 < 2147483648) (ha : a ≠ 0) (hk : g.stk = stk) {id : ID} (hid : id ≠ idFORM)
    (h1 : Runs X .IFF_read [.str "hello.TEST", .ptr .void Ptr.null] g (chunkV a) ⟨h₁, k₁, stk, i₁, o, rm, tx, l₁⟩)
    (hb : HeaderAt X h₁ a id)
    (h3 : Runs X .IFF_free [chunkV a, .ptr .void Ptr.null] ⟨h₁, k₁, stk, i₁, o, rm, tx, l₁⟩ .void
      ⟨h₃, k₃, stk, i₃, o, rm, tx, l₃⟩) :
    Runs X .lookupproperty_simple_main (mainArgs args) g (.int .int 1) ⟨h₃, k₃, stk, i₃, o, rm, tx, l₃⟩ := by
  subst hk
  have hidb : ((id.toNat : Int) == (idFORM.toNat : Int)) = false := by
    rw [beq_eq_false_iff_ne]
    exact fun h => hid (BitVec.eq_of_toNat_eq (by exact_mod_cast h))
  obtain ⟨sz, par, size, rest, hz, hb⟩ := hb
  have hw : wrapInt ((args.length + 1 : Nat) : Int) = ((args.length + 1 : Nat) : Int) := wrapInt_of ⟨by omega, by omega⟩
  have hab : (a == 0) = false := by simpa using ha
  obtain ⟨N1, hN1⟩ := h1
  obtain ⟨N3, hN3⟩ := h3
  refine ⟨N1 + N3 + 3, fun n hn => ?_⟩
  obtain ⟨n, rfl⟩ : ∃ n', n = n' + 3 := ⟨n - 3, by omega⟩
  have hr1 := hN1 (n + 2) (by omega)
  have hr3 := hN3 (n + 2) (by omega)
  have hfp : ∀ (s : String) (g : CS), callFn X (n + 2) .fprintf [.file .err, .str s] g = .val (.int .int 0, g) := fun _ _ => rfl
  rw [callFn_code rfl]
  crun [lookupproperty_simple_main.code, mainArgs, hw, addr_beq_null, hab, hr1, hr3, ↓evalE_FORM, blkOf_heap hb, hz,
    hidb, evalE_stderr, hfp, List.take_length]

/-- lookupproperty-simple.c:30-61, a FORM -/
theorem lookup_form (hr : args.length + 1 < 2147483648) (ha : a ≠ 0) (hk : g.stk = stk)
    (h1 : Runs X .IFF_read [.str "hello.TEST", .ptr .void Ptr.null] g (chunkV a) ⟨h₁, k₁, stk, i₁, o, rm, tx, l₁⟩)
    (hb : HeaderAt X h₁ a idFORM)
    (h2 : Runs X .IFF_getChunkFromForm [ptrV .IFF_Form a, .int .int nameHELO.toNat]
      ⟨h₁, k₁, stk, i₁, o, rm, tx, l₁⟩ (chunkV r) ⟨h₁, k₁, stk, i₁, o, rm, tx, l₁⟩)
    (hb' : r ≠ 0 → HeaderAt X h₁ r nameHELO)
    (h3 : Runs X .IFF_free [chunkV a, .ptr .void Ptr.null] ⟨h₁, k₁, stk, i₁, o, rm, tx, l₁⟩ .void
      ⟨h₃, k₃, stk, i₃, o, rm, tx, l₃⟩) :
    Runs X .lookupproperty_simple_main (mainArgs args) g (.int .int (if r = 0 then 1 else 0))
      ⟨h₃, k₃, stk, i₃, o, rm, tx, l₃⟩ := by
  subst hk
  obtain ⟨sz, par, size, rest, hz, hb⟩ := hb
  have hw : wrapInt ((args.length + 1 : Nat) : Int) = ((args.length + 1 : Nat) : Int) := wrapInt_of ⟨by omega, by omega⟩
  have hab : (a == 0) = false := by simpa using ha
  obtain ⟨N1, hN1⟩ := h1
  obtain ⟨N2, hN2⟩ := h2
  obtain ⟨N3, hN3⟩ := h3
  refine ⟨N1 + N2 + N3 + 3, fun n hn => ?_⟩
  obtain ⟨n, rfl⟩ : ∃ n', n = n' + 3 := ⟨n - 3, by omega⟩
  have hr1 := hN1 (n + 2) (by omega)
  have hr2 := hN2 (n + 2) (by omega)
  have hr3 := hN3 (n + 2) (by omega)
  have hfp : ∀ (s : String) (g : CS), callFn X (n + 2) .fprintf [.file .err, .str s] g = .val (.int .int 0, g) := fun _ _ => rfl
  rw [callFn_code rfl]
  by_cases h0 : r = 0
  · subst h0
    crun [lookupproperty_simple_main.code, lookupproperty_simple_ID_HELO, ↓evalE_nameHELO, mainArgs, hw, addr_beq_null, hab, hr1, hr2,
      hr3, ↓evalE_FORM, blkOf_heap hb, hz, beq_self_eq_true, evalE_stderr, hfp, List.take_length]
  · have hrb : (r == 0) = false := by simpa using h0
    obtain ⟨sz', par', size', rest', hz', hb'⟩ := hb' h0
    crun [lookupproperty_simple_main.code, lookupproperty_simple_ID_HELO, ↓evalE_nameHELO, mainArgs, hw, addr_beq_null, hab, hrb, hr1,
      hr2, hr3, ↓evalE_FORM, blkOf_heap hb, blkOf_heap hb', hz, hz', h0, beq_self_eq_true, bne_self_eq_false, List.take_length]

end Iff.Src
