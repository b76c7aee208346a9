import Verif.Proofs.SrcData
import Verif.Spec.TestData
/-
  The text of the files of test data and of the programs that use them, statement by statement.
-/
namespace Iff.Src

open Iff.Heap Iff.Spec

set_option maxRecDepth 4000

section
variable {X : Cfg} {call : Fn → List V → M CS V} {f : Fr}

theorem evalE_idTEST : evalE X call (IFF_MAKEID (.num .int 84) (.num .int 69) (.num .int 83) (.num .int 84)) f =
    .val (.int .int (0x54455354 : ID).toNat, f) := evalE_makeid' (a := 84) (b := 69) (c := 83) (d := 84) (by decide)

theorem evalE_idHELO : evalE X call (IFF_MAKEID (.num .int 72) (.num .int 69) (.num .int 76) (.num .int 79)) f =
    .val (.int .int (0x48454c4f : ID).toNat, f) := evalE_makeid' (a := 72) (b := 69) (c := 76) (d := 79) (by decide)

theorem evalE_idBYE : evalE X call (IFF_MAKEID (.num .int 66) (.num .int 89) (.num .int 69) (.num .int 32)) f =
    .val (.int .int (0x42594520 : ID).toNat, f) := evalE_makeid' (a := 66) (b := 89) (c := 69) (d := 32) (by decide)

theorem evalE_idBLA : evalE X call (IFF_MAKEID (.num .int 66) (.num .int 76) (.num .int 65) (.num .int 32)) f =
    .val (.int .int (0x424c4120 : ID).toNat, f) := evalE_makeid' (a := 66) (b := 76) (c := 65) (d := 32) (by decide)

theorem fprintf_run {s : String} {g : CS} : Runs X .fprintf [.file .err, .str s] g (.int .int 0) g :=
  ⟨1, fun n hn => by obtain ⟨n, rfl⟩ : ∃ n', n = n' + 1 := ⟨n - 1, by omega⟩; rfl⟩

end

/-- The pointer to a struct as the functions of the library return it. -/
abbrev ptrV (s : Struct) (p : Addr) : V := .ptr (.struct s) (.ofAddr p)

variable {X : Cfg} {g g₁ g₂ g₃ g₄ g₅ g₆ g₇ : CS} {p a b c : Addr} {args : List String}

/-- formdata.c:56-66 -/
theorem create_form  (hk : g₅.stk = g.stk)
    (h1 : Runs X .IFF_createEmptyForm [.int .int (0x54455354 : ID).toNat] g (ptrV .IFF_Form p) g₁)
    (h2 : Runs X .formdata_createHelloChunk [] g₁ (chunkV a) g₂)
    (h3 : Runs X .formdata_createByeChunk [] g₂ (chunkV b) g₃)
    (h4 : Runs X .IFF_addToForm [ptrV .IFF_Form p, chunkV a] g₃ .void g₄)
    (h5 : Runs X .IFF_addToForm [ptrV .IFF_Form p, chunkV b] g₄ .void g₅) :
    Runs X .formdata_IFF_createTestForm [] g (ptrV .IFF_Form p) g₅ := by
  have hk1 : List.take g.stk.length g₅.stk = g₅.stk := by rw [hk, List.take_length]
  obtain ⟨N1, hN1⟩ := h1
  obtain ⟨N2, hN2⟩ := h2
  obtain ⟨N3, hN3⟩ := h3
  obtain ⟨N4, hN4⟩ := h4
  obtain ⟨N5, hN5⟩ := h5
  refine ⟨N1 + N2 + N3 + N4 + N5 + 2, fun n hn => ?_⟩
  obtain ⟨n, rfl⟩ : ∃ n', n = n' + 2 := ⟨n - 2, by omega⟩
  have hr1 := hN1 (n + 1) (by omega)
  have hr2 := hN2 (n + 1) (by omega)
  have hr3 := hN3 (n + 1) (by omega)
  have hr4 := hN4 (n + 1) (by omega)
  have hr5 := hN5 (n + 1) (by omega)
  rw [callFn_code rfl]
  crun [formdata_IFF_createTestForm.code, formdata_ID_TEST, evalE_idTEST, hr1, hr2, hr3, hr4, hr5, hk1]

/-- formdata-pad.c:56-66 -/
theorem create_pad  (hk : g₅.stk = g.stk)
    (h1 : Runs X .formdata_pad_createHelloChunk [] g (chunkV a) g₁)
    (h2 : Runs X .formdata_pad_createByeChunk [] g₁ (chunkV b) g₂)
    (h3 : Runs X .IFF_createEmptyForm [.int .int (0x54455354 : ID).toNat] g₂ (ptrV .IFF_Form p) g₃)
    (h4 : Runs X .IFF_addToForm [ptrV .IFF_Form p, chunkV a] g₃ .void g₄)
    (h5 : Runs X .IFF_addToForm [ptrV .IFF_Form p, chunkV b] g₄ .void g₅) :
    Runs X .formdata_pad_IFF_createTestForm [] g (ptrV .IFF_Form p) g₅ := by
  have hk1 : List.take g.stk.length g₅.stk = g₅.stk := by rw [hk, List.take_length]
  obtain ⟨N1, hN1⟩ := h1
  obtain ⟨N2, hN2⟩ := h2
  obtain ⟨N3, hN3⟩ := h3
  obtain ⟨N4, hN4⟩ := h4
  obtain ⟨N5, hN5⟩ := h5
  refine ⟨N1 + N2 + N3 + N4 + N5 + 2, fun n hn => ?_⟩
  obtain ⟨n, rfl⟩ : ∃ n', n = n' + 2 := ⟨n - 2, by omega⟩
  have hr1 := hN1 (n + 1) (by omega)
  have hr2 := hN2 (n + 1) (by omega)
  have hr3 := hN3 (n + 1) (by omega)
  have hr4 := hN4 (n + 1) (by omega)
  have hr5 := hN5 (n + 1) (by omega)
  rw [callFn_code rfl]
  crun [formdata_pad_IFF_createTestForm.code, formdata_pad_ID_TEST, evalE_idTEST, hr1, hr2, hr3, hr4, hr5, hk1]

/-- catdata.c:71-79 -/
theorem catdata_form  (hk : g₃.stk = g.stk)
    (h1 : Runs X .IFF_createEmptyForm [.int .int (0x54455354 : ID).toNat] g (ptrV .IFF_Form p) g₁)
    (h2 : Runs X .IFF_addToForm [ptrV .IFF_Form p, chunkV a] g₁ .void g₂)
    (h3 : Runs X .IFF_addToForm [ptrV .IFF_Form p, chunkV b] g₂ .void g₃) :
    Runs X .catdata_createTestForm [chunkV a, chunkV b] g (chunkV p) g₃ := by
  have hk1 : List.take g.stk.length g₃.stk = g₃.stk := by rw [hk, List.take_length]
  obtain ⟨N1, hN1⟩ := h1
  obtain ⟨N2, hN2⟩ := h2
  obtain ⟨N3, hN3⟩ := h3
  refine ⟨N1 + N2 + N3 + 2, fun n hn => ?_⟩
  obtain ⟨n, rfl⟩ : ∃ n', n = n' + 2 := ⟨n - 2, by omega⟩
  have hr1 := hN1 (n + 1) (by omega)
  have hr2 := hN2 (n + 1) (by omega)
  have hr3 := hN3 (n + 1) (by omega)
  rw [callFn_code rfl]
  crun [catdata_createTestForm.code, catdata_ID_TEST, evalE_idTEST, hr1, hr2, hr3, hk1]

/-- catdata.c:81-87 -/
theorem catdata_form1  (hk : g₃.stk = g.stk)
    (h1 : Runs X .catdata_createHelo1Chunk [] g (chunkV a) g₁)
    (h2 : Runs X .catdata_createBye1Chunk [] g₁ (chunkV b) g₂)
    (h3 : Runs X .catdata_createTestForm [chunkV a, chunkV b] g₂ (chunkV p) g₃) :
    Runs X .catdata_createTest1Form [] g (chunkV p) g₃ := by
  have hk1 : List.take g.stk.length g₃.stk = g₃.stk := by rw [hk, List.take_length]
  obtain ⟨N1, hN1⟩ := h1
  obtain ⟨N2, hN2⟩ := h2
  obtain ⟨N3, hN3⟩ := h3
  refine ⟨N1 + N2 + N3 + 2, fun n hn => ?_⟩
  obtain ⟨n, rfl⟩ : ∃ n', n = n' + 2 := ⟨n - 2, by omega⟩
  have hr1 := hN1 (n + 1) (by omega)
  have hr2 := hN2 (n + 1) (by omega)
  have hr3 := hN3 (n + 1) (by omega)
  rw [callFn_code rfl]
  crun [catdata_createTest1Form.code, hr1, hr2, hr3, hk1]

/-- catdata.c:89-95 -/
theorem catdata_form2  (hk : g₃.stk = g.stk)
    (h1 : Runs X .catdata_createHelo2Chunk [] g (chunkV a) g₁)
    (h2 : Runs X .catdata_createBye2Chunk [] g₁ (chunkV b) g₂)
    (h3 : Runs X .catdata_createTestForm [chunkV a, chunkV b] g₂ (chunkV p) g₃) :
    Runs X .catdata_createTest2Form [] g (chunkV p) g₃ := by
  have hk1 : List.take g.stk.length g₃.stk = g₃.stk := by rw [hk, List.take_length]
  obtain ⟨N1, hN1⟩ := h1
  obtain ⟨N2, hN2⟩ := h2
  obtain ⟨N3, hN3⟩ := h3
  refine ⟨N1 + N2 + N3 + 2, fun n hn => ?_⟩
  obtain ⟨n, rfl⟩ : ∃ n', n = n' + 2 := ⟨n - 2, by omega⟩
  have hr1 := hN1 (n + 1) (by omega)
  have hr2 := hN2 (n + 1) (by omega)
  have hr3 := hN3 (n + 1) (by omega)
  rw [callFn_code rfl]
  crun [catdata_createTest2Form.code, hr1, hr2, hr3, hk1]

/-- nestedformdata.c:71-79 -/
theorem nestedformdata_form  (hk : g₃.stk = g.stk)
    (h1 : Runs X .IFF_createEmptyForm [.int .int (0x54455354 : ID).toNat] g (ptrV .IFF_Form p) g₁)
    (h2 : Runs X .IFF_addToForm [ptrV .IFF_Form p, chunkV a] g₁ .void g₂)
    (h3 : Runs X .IFF_addToForm [ptrV .IFF_Form p, chunkV b] g₂ .void g₃) :
    Runs X .nestedformdata_createTestForm [chunkV a, chunkV b] g (chunkV p) g₃ := by
  have hk1 : List.take g.stk.length g₃.stk = g₃.stk := by rw [hk, List.take_length]
  obtain ⟨N1, hN1⟩ := h1
  obtain ⟨N2, hN2⟩ := h2
  obtain ⟨N3, hN3⟩ := h3
  refine ⟨N1 + N2 + N3 + 2, fun n hn => ?_⟩
  obtain ⟨n, rfl⟩ : ∃ n', n = n' + 2 := ⟨n - 2, by omega⟩
  have hr1 := hN1 (n + 1) (by omega)
  have hr2 := hN2 (n + 1) (by omega)
  have hr3 := hN3 (n + 1) (by omega)
  rw [callFn_code rfl]
  crun [nestedformdata_createTestForm.code, nestedformdata_ID_TEST, evalE_idTEST, hr1, hr2, hr3, hk1]

/-- nestedformdata.c:81-87 -/
theorem nestedformdata_form1  (hk : g₃.stk = g.stk)
    (h1 : Runs X .nestedformdata_createHelo1Chunk [] g (chunkV a) g₁)
    (h2 : Runs X .nestedformdata_createBye1Chunk [] g₁ (chunkV b) g₂)
    (h3 : Runs X .nestedformdata_createTestForm [chunkV a, chunkV b] g₂ (chunkV p) g₃) :
    Runs X .nestedformdata_createTest1Form [] g (chunkV p) g₃ := by
  have hk1 : List.take g.stk.length g₃.stk = g₃.stk := by rw [hk, List.take_length]
  obtain ⟨N1, hN1⟩ := h1
  obtain ⟨N2, hN2⟩ := h2
  obtain ⟨N3, hN3⟩ := h3
  refine ⟨N1 + N2 + N3 + 2, fun n hn => ?_⟩
  obtain ⟨n, rfl⟩ : ∃ n', n = n' + 2 := ⟨n - 2, by omega⟩
  have hr1 := hN1 (n + 1) (by omega)
  have hr2 := hN2 (n + 1) (by omega)
  have hr3 := hN3 (n + 1) (by omega)
  rw [callFn_code rfl]
  crun [nestedformdata_createTest1Form.code, hr1, hr2, hr3, hk1]

/-- nestedformdata.c:89-95 -/
theorem nestedformdata_form2  (hk : g₃.stk = g.stk)
    (h1 : Runs X .nestedformdata_createHelo2Chunk [] g (chunkV a) g₁)
    (h2 : Runs X .nestedformdata_createBye2Chunk [] g₁ (chunkV b) g₂)
    (h3 : Runs X .nestedformdata_createTestForm [chunkV a, chunkV b] g₂ (chunkV p) g₃) :
    Runs X .nestedformdata_createTest2Form [] g (chunkV p) g₃ := by
  have hk1 : List.take g.stk.length g₃.stk = g₃.stk := by rw [hk, List.take_length]
  obtain ⟨N1, hN1⟩ := h1
  obtain ⟨N2, hN2⟩ := h2
  obtain ⟨N3, hN3⟩ := h3
  refine ⟨N1 + N2 + N3 + 2, fun n hn => ?_⟩
  obtain ⟨n, rfl⟩ : ∃ n', n = n' + 2 := ⟨n - 2, by omega⟩
  have hr1 := hN1 (n + 1) (by omega)
  have hr2 := hN2 (n + 1) (by omega)
  have hr3 := hN3 (n + 1) (by omega)
  rw [callFn_code rfl]
  crun [nestedformdata_createTest2Form.code, hr1, hr2, hr3, hk1]

/-- catdata.c:97-107 -/
theorem create_cat  (hk : g₅.stk = g.stk)
    (h1 : Runs X .catdata_createTest1Form [] g (chunkV a) g₁)
    (h2 : Runs X .catdata_createTest2Form [] g₁ (chunkV b) g₂)
    (h3 : Runs X .IFF_createEmptyCATWithContentsType [.int .int (0x54455354 : ID).toNat] g₂ (ptrV .IFF_CAT p) g₃)
    (h4 : Runs X .IFF_addToCAT [ptrV .IFF_CAT p, chunkV a] g₃ .void g₄)
    (h5 : Runs X .IFF_addToCAT [ptrV .IFF_CAT p, chunkV b] g₄ .void g₅) :
    Runs X .catdata_IFF_createTestCAT [] g (ptrV .IFF_CAT p) g₅ := by
  have hk1 : List.take g.stk.length g₅.stk = g₅.stk := by rw [hk, List.take_length]
  obtain ⟨N1, hN1⟩ := h1
  obtain ⟨N2, hN2⟩ := h2
  obtain ⟨N3, hN3⟩ := h3
  obtain ⟨N4, hN4⟩ := h4
  obtain ⟨N5, hN5⟩ := h5
  refine ⟨N1 + N2 + N3 + N4 + N5 + 2, fun n hn => ?_⟩
  obtain ⟨n, rfl⟩ : ∃ n', n = n' + 2 := ⟨n - 2, by omega⟩
  have hr1 := hN1 (n + 1) (by omega)
  have hr2 := hN2 (n + 1) (by omega)
  have hr3 := hN3 (n + 1) (by omega)
  have hr4 := hN4 (n + 1) (by omega)
  have hr5 := hN5 (n + 1) (by omega)
  rw [callFn_code rfl]
  crun [catdata_IFF_createTestCAT.code, catdata_ID_TEST, evalE_idTEST, hr1, hr2, hr3, hr4, hr5, hk1]

/-- nestedformdata.c:97-107 -/
theorem create_nested  (hk : g₅.stk = g.stk)
    (h1 : Runs X .nestedformdata_createTest1Form [] g (chunkV a) g₁)
    (h2 : Runs X .nestedformdata_createTest2Form [] g₁ (chunkV b) g₂)
    (h3 : Runs X .IFF_createEmptyForm [.int .int (0x424c4120 : ID).toNat] g₂ (ptrV .IFF_Form p) g₃)
    (h4 : Runs X .IFF_addToForm [ptrV .IFF_Form p, chunkV a] g₃ .void g₄)
    (h5 : Runs X .IFF_addToForm [ptrV .IFF_Form p, chunkV b] g₄ .void g₅) :
    Runs X .nestedformdata_IFF_createTestForm [] g (ptrV .IFF_Form p) g₅ := by
  have hk1 : List.take g.stk.length g₅.stk = g₅.stk := by rw [hk, List.take_length]
  obtain ⟨N1, hN1⟩ := h1
  obtain ⟨N2, hN2⟩ := h2
  obtain ⟨N3, hN3⟩ := h3
  obtain ⟨N4, hN4⟩ := h4
  obtain ⟨N5, hN5⟩ := h5
  refine ⟨N1 + N2 + N3 + N4 + N5 + 2, fun n hn => ?_⟩
  obtain ⟨n, rfl⟩ : ∃ n', n = n' + 2 := ⟨n - 2, by omega⟩
  have hr1 := hN1 (n + 1) (by omega)
  have hr2 := hN2 (n + 1) (by omega)
  have hr3 := hN3 (n + 1) (by omega)
  have hr4 := hN4 (n + 1) (by omega)
  have hr5 := hN5 (n + 1) (by omega)
  rw [callFn_code rfl]
  crun [nestedformdata_IFF_createTestForm.code, nestedformdata_ID_BLA, evalE_idBLA, hr1, hr2, hr3, hr4, hr5, hk1]

/-- listdata.c:65-73 -/
theorem listdata_prop  (hk : g₃.stk = g.stk)
    (h1 : Runs X .listdata_createHeloChunk [] g (chunkV a) g₁)
    (h2 : Runs X .IFF_createEmptyProp [.int .int (0x54455354 : ID).toNat] g₁ (ptrV .IFF_Form p) g₂)
    (h3 : Runs X .IFF_addToProp [ptrV .IFF_Form p, chunkV a] g₂ .void g₃) :
    Runs X .listdata_createTestProp [] g (ptrV .IFF_Form p) g₃ := by
  have hk1 : List.take g.stk.length g₃.stk = g₃.stk := by rw [hk, List.take_length]
  obtain ⟨N1, hN1⟩ := h1
  obtain ⟨N2, hN2⟩ := h2
  obtain ⟨N3, hN3⟩ := h3
  refine ⟨N1 + N2 + N3 + 2, fun n hn => ?_⟩
  obtain ⟨n, rfl⟩ : ∃ n', n = n' + 2 := ⟨n - 2, by omega⟩
  have hr1 := hN1 (n + 1) (by omega)
  have hr2 := hN2 (n + 1) (by omega)
  have hr3 := hN3 (n + 1) (by omega)
  rw [callFn_code rfl]
  crun [listdata_createTestProp.code, listdata_ID_TEST, evalE_idTEST, hr1, hr2, hr3, hk1]

/-- listdata.c:75-80 -/
theorem listdata_form  (hk : g₂.stk = g.stk)
    (h1 : Runs X .IFF_createEmptyForm [.int .int (0x54455354 : ID).toNat] g (ptrV .IFF_Form p) g₁)
    (h2 : Runs X .IFF_addToForm [ptrV .IFF_Form p, chunkV a] g₁ .void g₂) :
    Runs X .listdata_createTestForm [chunkV a] g (chunkV p) g₂ := by
  have hk1 : List.take g.stk.length g₂.stk = g₂.stk := by rw [hk, List.take_length]
  obtain ⟨N1, hN1⟩ := h1
  obtain ⟨N2, hN2⟩ := h2
  refine ⟨N1 + N2 + 2, fun n hn => ?_⟩
  obtain ⟨n, rfl⟩ : ∃ n', n = n' + 2 := ⟨n - 2, by omega⟩
  have hr1 := hN1 (n + 1) (by omega)
  have hr2 := hN2 (n + 1) (by omega)
  rw [callFn_code rfl]
  crun [listdata_createTestForm.code, listdata_ID_TEST, evalE_idTEST, hr1, hr2, hk1]

/-- listdata.c:82-86 -/
theorem listdata_form1  (hk : g₂.stk = g.stk)
    (h1 : Runs X .listdata_createBye1Chunk [] g (chunkV a) g₁)
    (h2 : Runs X .listdata_createTestForm [chunkV a] g₁ (chunkV p) g₂) :
    Runs X .listdata_createTest1Form [] g (chunkV p) g₂ := by
  have hk1 : List.take g.stk.length g₂.stk = g₂.stk := by rw [hk, List.take_length]
  obtain ⟨N1, hN1⟩ := h1
  obtain ⟨N2, hN2⟩ := h2
  refine ⟨N1 + N2 + 2, fun n hn => ?_⟩
  obtain ⟨n, rfl⟩ : ∃ n', n = n' + 2 := ⟨n - 2, by omega⟩
  have hr1 := hN1 (n + 1) (by omega)
  have hr2 := hN2 (n + 1) (by omega)
  rw [callFn_code rfl]
  crun [listdata_createTest1Form.code, hr1, hr2, hk1]

/-- listdata.c:88-92 -/
theorem listdata_form2  (hk : g₂.stk = g.stk)
    (h1 : Runs X .listdata_createBye2Chunk [] g (chunkV a) g₁)
    (h2 : Runs X .listdata_createTestForm [chunkV a] g₁ (chunkV p) g₂) :
    Runs X .listdata_createTest2Form [] g (chunkV p) g₂ := by
  have hk1 : List.take g.stk.length g₂.stk = g₂.stk := by rw [hk, List.take_length]
  obtain ⟨N1, hN1⟩ := h1
  obtain ⟨N2, hN2⟩ := h2
  refine ⟨N1 + N2 + 2, fun n hn => ?_⟩
  obtain ⟨n, rfl⟩ : ∃ n', n = n' + 2 := ⟨n - 2, by omega⟩
  have hr1 := hN1 (n + 1) (by omega)
  have hr2 := hN2 (n + 1) (by omega)
  rw [callFn_code rfl]
  crun [listdata_createTest2Form.code, hr1, hr2, hk1]

/-- listdata.c:94-106 -/
theorem create_list  (hk : g₇.stk = g.stk)
    (h1 : Runs X .listdata_createTestProp [] g (ptrV .IFF_Form a) g₁)
    (h2 : Runs X .listdata_createTest1Form [] g₁ (chunkV b) g₂)
    (h3 : Runs X .listdata_createTest2Form [] g₂ (chunkV c) g₃)
    (h4 : Runs X .IFF_createEmptyListWithContentsType [.int .int (0x54455354 : ID).toNat] g₃ (ptrV .IFF_List p) g₄)
    (h5 : Runs X .IFF_addPropToList [ptrV .IFF_List p, ptrV .IFF_Form a] g₄ .void g₅)
    (h6 : Runs X .IFF_addToList [ptrV .IFF_List p, chunkV b] g₅ .void g₆)
    (h7 : Runs X .IFF_addToList [ptrV .IFF_List p, chunkV c] g₆ .void g₇) :
    Runs X .listdata_IFF_createTestList [] g (ptrV .IFF_List p) g₇ := by
  have hk1 : List.take g.stk.length g₇.stk = g₇.stk := by rw [hk, List.take_length]
  obtain ⟨N1, hN1⟩ := h1
  obtain ⟨N2, hN2⟩ := h2
  obtain ⟨N3, hN3⟩ := h3
  obtain ⟨N4, hN4⟩ := h4
  obtain ⟨N5, hN5⟩ := h5
  obtain ⟨N6, hN6⟩ := h6
  obtain ⟨N7, hN7⟩ := h7
  refine ⟨N1 + N2 + N3 + N4 + N5 + N6 + N7 + 2, fun n hn => ?_⟩
  obtain ⟨n, rfl⟩ : ∃ n', n = n' + 2 := ⟨n - 2, by omega⟩
  have hr1 := hN1 (n + 1) (by omega)
  have hr2 := hN2 (n + 1) (by omega)
  have hr3 := hN3 (n + 1) (by omega)
  have hr4 := hN4 (n + 1) (by omega)
  have hr5 := hN5 (n + 1) (by omega)
  have hr6 := hN6 (n + 1) (by omega)
  have hr7 := hN7 (n + 1) (by omega)
  rw [callFn_code rfl]
  crun [listdata_IFF_createTestList.code, listdata_ID_TEST, evalE_idTEST, hr1, hr2, hr3, hr4, hr5, hr6, hr7, hk1]

/-- writeform.c:27-33 -/
theorem writeform_run (hr : args.length + 1 < 2147483648) {ok : Bool} (hk : g₃.stk = g.stk)
    (h1 : Runs X .formdata_IFF_createTestForm [] g (ptrV .IFF_Form p) g₁)
    (h2 : Runs X .IFF_write [.str "hello.TEST", chunkV p, .ptr .void Ptr.null] g₁ (truth ok) g₂)
    (h3 : Runs X .IFF_free [chunkV p, .ptr .void Ptr.null] g₂ .void g₃) :
    Runs X .writeform_main (mainArgs args) g (truth !ok) g₃ := by
  have hk1 : List.take g.stk.length g₃.stk = g₃.stk := by rw [hk, List.take_length]
  have hw : wrapInt ((args.length + 1 : Nat) : Int) = ((args.length + 1 : Nat) : Int) := wrapInt_of ⟨by omega, by omega⟩
  obtain ⟨N1, hN1⟩ := h1
  obtain ⟨N2, hN2⟩ := h2
  obtain ⟨N3, hN3⟩ := h3
  refine ⟨N1 + N2 + N3 + 2, fun n hn => ?_⟩
  obtain ⟨n, rfl⟩ : ∃ n', n = n' + 2 := ⟨n - 2, by omega⟩
  have hr1 := hN1 (n + 1) (by omega)
  have hr2 := hN2 (n + 1) (by omega)
  have hr3 := hN3 (n + 1) (by omega)
  rw [callFn_code rfl]
  cases ok <;>
  crun [writeform_main.code, mainArgs, hw, truth, hr1, hr2, hr3, hk1]

/-- writeform-pad.c:25-31 -/
theorem writeform_pad_run (hr : args.length + 1 < 2147483648) {ok : Bool} (hk : g₃.stk = g.stk)
    (h1 : Runs X .formdata_pad_IFF_createTestForm [] g (ptrV .IFF_Form p) g₁)
    (h2 : Runs X .IFF_write [.str "hello-pad.TEST", chunkV p, .ptr .void Ptr.null] g₁ (truth ok) g₂)
    (h3 : Runs X .IFF_free [chunkV p, .ptr .void Ptr.null] g₂ .void g₃) :
    Runs X .writeform_pad_main (mainArgs args) g (truth !ok) g₃ := by
  have hk1 : List.take g.stk.length g₃.stk = g₃.stk := by rw [hk, List.take_length]
  have hw : wrapInt ((args.length + 1 : Nat) : Int) = ((args.length + 1 : Nat) : Int) := wrapInt_of ⟨by omega, by omega⟩
  obtain ⟨N1, hN1⟩ := h1
  obtain ⟨N2, hN2⟩ := h2
  obtain ⟨N3, hN3⟩ := h3
  refine ⟨N1 + N2 + N3 + 2, fun n hn => ?_⟩
  obtain ⟨n, rfl⟩ : ∃ n', n = n' + 2 := ⟨n - 2, by omega⟩
  have hr1 := hN1 (n + 1) (by omega)
  have hr2 := hN2 (n + 1) (by omega)
  have hr3 := hN3 (n + 1) (by omega)
  rw [callFn_code rfl]
  cases ok <;>
  crun [writeform_pad_main.code, mainArgs, hw, truth, hr1, hr2, hr3, hk1]

/-- writecat.c:25-31 -/
theorem writecat_run (hr : args.length + 1 < 2147483648) {ok : Bool} (hk : g₃.stk = g.stk)
    (h1 : Runs X .catdata_IFF_createTestCAT [] g (ptrV .IFF_CAT p) g₁)
    (h2 : Runs X .IFF_write [.str "cat.TEST", chunkV p, .ptr .void Ptr.null] g₁ (truth ok) g₂)
    (h3 : Runs X .IFF_free [chunkV p, .ptr .void Ptr.null] g₂ .void g₃) :
    Runs X .writecat_main (mainArgs args) g (truth !ok) g₃ := by
  have hk1 : List.take g.stk.length g₃.stk = g₃.stk := by rw [hk, List.take_length]
  have hw : wrapInt ((args.length + 1 : Nat) : Int) = ((args.length + 1 : Nat) : Int) := wrapInt_of ⟨by omega, by omega⟩
  obtain ⟨N1, hN1⟩ := h1
  obtain ⟨N2, hN2⟩ := h2
  obtain ⟨N3, hN3⟩ := h3
  refine ⟨N1 + N2 + N3 + 2, fun n hn => ?_⟩
  obtain ⟨n, rfl⟩ : ∃ n', n = n' + 2 := ⟨n - 2, by omega⟩
  have hr1 := hN1 (n + 1) (by omega)
  have hr2 := hN2 (n + 1) (by omega)
  have hr3 := hN3 (n + 1) (by omega)
  rw [callFn_code rfl]
  cases ok <;>
  crun [writecat_main.code, mainArgs, hw, truth, hr1, hr2, hr3, hk1]

/-- writenestedform.c:25-31 -/
theorem writenestedform_run (hr : args.length + 1 < 2147483648) {ok : Bool} (hk : g₃.stk = g.stk)
    (h1 : Runs X .nestedformdata_IFF_createTestForm [] g (ptrV .IFF_Form p) g₁)
    (h2 : Runs X .IFF_write [.str "nestedform.TEST", chunkV p, .ptr .void Ptr.null] g₁ (truth ok) g₂)
    (h3 : Runs X .IFF_free [chunkV p, .ptr .void Ptr.null] g₂ .void g₃) :
    Runs X .writenestedform_main (mainArgs args) g (truth !ok) g₃ := by
  have hk1 : List.take g.stk.length g₃.stk = g₃.stk := by rw [hk, List.take_length]
  have hw : wrapInt ((args.length + 1 : Nat) : Int) = ((args.length + 1 : Nat) : Int) := wrapInt_of ⟨by omega, by omega⟩
  obtain ⟨N1, hN1⟩ := h1
  obtain ⟨N2, hN2⟩ := h2
  obtain ⟨N3, hN3⟩ := h3
  refine ⟨N1 + N2 + N3 + 2, fun n hn => ?_⟩
  obtain ⟨n, rfl⟩ : ∃ n', n = n' + 2 := ⟨n - 2, by omega⟩
  have hr1 := hN1 (n + 1) (by omega)
  have hr2 := hN2 (n + 1) (by omega)
  have hr3 := hN3 (n + 1) (by omega)
  rw [callFn_code rfl]
  cases ok <;>
  crun [writenestedform_main.code, mainArgs, hw, truth, hr1, hr2, hr3, hk1]

/-- writelist.c:29-35 -/
theorem writelist_run (hr : args.length + 1 < 2147483648) {ok : Bool} (hk : g₃.stk = g.stk)
    (h1 : Runs X .listdata_IFF_createTestList [] g (ptrV .IFF_List p) g₁)
    (h2 : Runs X .IFF_write [.str "list.TEST", chunkV p, .ptr .void Ptr.null] g₁ (truth ok) g₂)
    (h3 : Runs X .IFF_free [chunkV p, .ptr .void Ptr.null] g₂ .void g₃) :
    Runs X .writelist_main (mainArgs args) g (truth !ok) g₃ := by
  have hk1 : List.take g.stk.length g₃.stk = g₃.stk := by rw [hk, List.take_length]
  have hw : wrapInt ((args.length + 1 : Nat) : Int) = ((args.length + 1 : Nat) : Int) := wrapInt_of ⟨by omega, by omega⟩
  obtain ⟨N1, hN1⟩ := h1
  obtain ⟨N2, hN2⟩ := h2
  obtain ⟨N3, hN3⟩ := h3
  refine ⟨N1 + N2 + N3 + 2, fun n hn => ?_⟩
  obtain ⟨n, rfl⟩ : ∃ n', n = n' + 2 := ⟨n - 2, by omega⟩
  have hr1 := hN1 (n + 1) (by omega)
  have hr2 := hN2 (n + 1) (by omega)
  have hr3 := hN3 (n + 1) (by omega)
  rw [callFn_code rfl]
  cases ok <;>
  crun [writelist_main.code, mainArgs, hw, truth, hr1, hr2, hr3, hk1]

/-- readform.c:26-45 -/
theorem readform_some (hr : args.length + 1 < 2147483648) {ok : Bool} (ha : a ≠ 0) (hk : g₅.stk = g.stk)
    (h1 : Runs X .IFF_read [.str "hello.TEST", .ptr .void Ptr.null] g (chunkV a) g₁)
    (h2 : Runs X .formdata_IFF_createTestForm [] g₁ (ptrV .IFF_Form p) g₂)
    (h3 : Runs X .IFF_compare [chunkV a, chunkV p, .ptr .void Ptr.null] g₂ (truth ok) g₃)
    (h4 : Runs X .IFF_free [chunkV p, .ptr .void Ptr.null] g₃ .void g₄)
    (h5 : Runs X .IFF_free [chunkV a, .ptr .void Ptr.null] g₄ .void g₅) :
    Runs X .readform_main (mainArgs args) g (truth !ok) g₅ := by
  have hk1 : List.take g.stk.length g₅.stk = g₅.stk := by rw [hk, List.take_length]
  have hw : wrapInt ((args.length + 1 : Nat) : Int) = ((args.length + 1 : Nat) : Int) := wrapInt_of ⟨by omega, by omega⟩
  have hab : (a == 0) = false := by simpa using ha
  obtain ⟨N1, hN1⟩ := h1
  obtain ⟨N2, hN2⟩ := h2
  obtain ⟨N3, hN3⟩ := h3
  obtain ⟨N4, hN4⟩ := h4
  obtain ⟨N5, hN5⟩ := h5
  refine ⟨N1 + N2 + N3 + N4 + N5 + 2, fun n hn => ?_⟩
  obtain ⟨n, rfl⟩ : ∃ n', n = n' + 2 := ⟨n - 2, by omega⟩
  have hr1 := hN1 (n + 1) (by omega)
  have hr2 := hN2 (n + 1) (by omega)
  have hr3 := hN3 (n + 1) (by omega)
  have hr4 := hN4 (n + 1) (by omega)
  have hr5 := hN5 (n + 1) (by omega)
  rw [callFn_code rfl]
  cases ok <;>
  crun [readform_main.code, mainArgs, hw, addr_beq_null, hab, truth, hr1, hr2, hr3, hr4, hr5, hk1]

/-- readform-pad.c:26-45 -/
theorem readform_pad_some (hr : args.length + 1 < 2147483648) {ok : Bool} (ha : a ≠ 0) (hk : g₅.stk = g.stk)
    (h1 : Runs X .IFF_read [.str "hello-pad.TEST", .ptr .void Ptr.null] g (chunkV a) g₁)
    (h2 : Runs X .formdata_pad_IFF_createTestForm [] g₁ (ptrV .IFF_Form p) g₂)
    (h3 : Runs X .IFF_compare [chunkV a, chunkV p, .ptr .void Ptr.null] g₂ (truth ok) g₃)
    (h4 : Runs X .IFF_free [chunkV p, .ptr .void Ptr.null] g₃ .void g₄)
    (h5 : Runs X .IFF_free [chunkV a, .ptr .void Ptr.null] g₄ .void g₅) :
    Runs X .readform_pad_main (mainArgs args) g (truth !ok) g₅ := by
  have hk1 : List.take g.stk.length g₅.stk = g₅.stk := by rw [hk, List.take_length]
  have hw : wrapInt ((args.length + 1 : Nat) : Int) = ((args.length + 1 : Nat) : Int) := wrapInt_of ⟨by omega, by omega⟩
  have hab : (a == 0) = false := by simpa using ha
  obtain ⟨N1, hN1⟩ := h1
  obtain ⟨N2, hN2⟩ := h2
  obtain ⟨N3, hN3⟩ := h3
  obtain ⟨N4, hN4⟩ := h4
  obtain ⟨N5, hN5⟩ := h5
  refine ⟨N1 + N2 + N3 + N4 + N5 + 2, fun n hn => ?_⟩
  obtain ⟨n, rfl⟩ : ∃ n', n = n' + 2 := ⟨n - 2, by omega⟩
  have hr1 := hN1 (n + 1) (by omega)
  have hr2 := hN2 (n + 1) (by omega)
  have hr3 := hN3 (n + 1) (by omega)
  have hr4 := hN4 (n + 1) (by omega)
  have hr5 := hN5 (n + 1) (by omega)
  rw [callFn_code rfl]
  cases ok <;>
  crun [readform_pad_main.code, mainArgs, hw, addr_beq_null, hab, truth, hr1, hr2, hr3, hr4, hr5, hk1]

/-- readcat.c:26-45 -/
theorem readcat_some (hr : args.length + 1 < 2147483648) {ok : Bool} (ha : a ≠ 0) (hk : g₅.stk = g.stk)
    (h1 : Runs X .IFF_read [.str "cat.TEST", .ptr .void Ptr.null] g (chunkV a) g₁)
    (h2 : Runs X .catdata_IFF_createTestCAT [] g₁ (ptrV .IFF_CAT p) g₂)
    (h3 : Runs X .IFF_compare [chunkV a, chunkV p, .ptr .void Ptr.null] g₂ (truth ok) g₃)
    (h4 : Runs X .IFF_free [chunkV a, .ptr .void Ptr.null] g₃ .void g₄)
    (h5 : Runs X .IFF_free [chunkV p, .ptr .void Ptr.null] g₄ .void g₅) :
    Runs X .readcat_main (mainArgs args) g (truth !ok) g₅ := by
  have hk1 : List.take g.stk.length g₅.stk = g₅.stk := by rw [hk, List.take_length]
  have hw : wrapInt ((args.length + 1 : Nat) : Int) = ((args.length + 1 : Nat) : Int) := wrapInt_of ⟨by omega, by omega⟩
  have hab : (a == 0) = false := by simpa using ha
  obtain ⟨N1, hN1⟩ := h1
  obtain ⟨N2, hN2⟩ := h2
  obtain ⟨N3, hN3⟩ := h3
  obtain ⟨N4, hN4⟩ := h4
  obtain ⟨N5, hN5⟩ := h5
  refine ⟨N1 + N2 + N3 + N4 + N5 + 2, fun n hn => ?_⟩
  obtain ⟨n, rfl⟩ : ∃ n', n = n' + 2 := ⟨n - 2, by omega⟩
  have hr1 := hN1 (n + 1) (by omega)
  have hr2 := hN2 (n + 1) (by omega)
  have hr3 := hN3 (n + 1) (by omega)
  have hr4 := hN4 (n + 1) (by omega)
  have hr5 := hN5 (n + 1) (by omega)
  rw [callFn_code rfl]
  cases ok <;>
  crun [readcat_main.code, mainArgs, hw, addr_beq_null, hab, truth, hr1, hr2, hr3, hr4, hr5, hk1]

/-- readnestedform.c:26-45 -/
theorem readnestedform_some (hr : args.length + 1 < 2147483648) {ok : Bool} (ha : a ≠ 0) (hk : g₅.stk = g.stk)
    (h1 : Runs X .IFF_read [.str "nestedform.TEST", .ptr .void Ptr.null] g (chunkV a) g₁)
    (h2 : Runs X .nestedformdata_IFF_createTestForm [] g₁ (ptrV .IFF_Form p) g₂)
    (h3 : Runs X .IFF_compare [chunkV a, chunkV p, .ptr .void Ptr.null] g₂ (truth ok) g₃)
    (h4 : Runs X .IFF_free [chunkV p, .ptr .void Ptr.null] g₃ .void g₄)
    (h5 : Runs X .IFF_free [chunkV a, .ptr .void Ptr.null] g₄ .void g₅) :
    Runs X .readnestedform_main (mainArgs args) g (truth !ok) g₅ := by
  have hk1 : List.take g.stk.length g₅.stk = g₅.stk := by rw [hk, List.take_length]
  have hw : wrapInt ((args.length + 1 : Nat) : Int) = ((args.length + 1 : Nat) : Int) := wrapInt_of ⟨by omega, by omega⟩
  have hab : (a == 0) = false := by simpa using ha
  obtain ⟨N1, hN1⟩ := h1
  obtain ⟨N2, hN2⟩ := h2
  obtain ⟨N3, hN3⟩ := h3
  obtain ⟨N4, hN4⟩ := h4
  obtain ⟨N5, hN5⟩ := h5
  refine ⟨N1 + N2 + N3 + N4 + N5 + 2, fun n hn => ?_⟩
  obtain ⟨n, rfl⟩ : ∃ n', n = n' + 2 := ⟨n - 2, by omega⟩
  have hr1 := hN1 (n + 1) (by omega)
  have hr2 := hN2 (n + 1) (by omega)
  have hr3 := hN3 (n + 1) (by omega)
  have hr4 := hN4 (n + 1) (by omega)
  have hr5 := hN5 (n + 1) (by omega)
  rw [callFn_code rfl]
  cases ok <;>
  crun [readnestedform_main.code, mainArgs, hw, addr_beq_null, hab, truth, hr1, hr2, hr3, hr4, hr5, hk1]

/-- readlist.c:26-45 -/
theorem readlist_some (hr : args.length + 1 < 2147483648) {ok : Bool} (ha : a ≠ 0) (hk : g₅.stk = g.stk)
    (h1 : Runs X .IFF_read [.str "list.TEST", .ptr .void Ptr.null] g (chunkV a) g₁)
    (h2 : Runs X .listdata_IFF_createTestList [] g₁ (ptrV .IFF_List p) g₂)
    (h3 : Runs X .IFF_compare [chunkV a, chunkV p, .ptr .void Ptr.null] g₂ (truth ok) g₃)
    (h4 : Runs X .IFF_free [chunkV p, .ptr .void Ptr.null] g₃ .void g₄)
    (h5 : Runs X .IFF_free [chunkV a, .ptr .void Ptr.null] g₄ .void g₅) :
    Runs X .readlist_main (mainArgs args) g (truth !ok) g₅ := by
  have hk1 : List.take g.stk.length g₅.stk = g₅.stk := by rw [hk, List.take_length]
  have hw : wrapInt ((args.length + 1 : Nat) : Int) = ((args.length + 1 : Nat) : Int) := wrapInt_of ⟨by omega, by omega⟩
  have hab : (a == 0) = false := by simpa using ha
  obtain ⟨N1, hN1⟩ := h1
  obtain ⟨N2, hN2⟩ := h2
  obtain ⟨N3, hN3⟩ := h3
  obtain ⟨N4, hN4⟩ := h4
  obtain ⟨N5, hN5⟩ := h5
  refine ⟨N1 + N2 + N3 + N4 + N5 + 2, fun n hn => ?_⟩
  obtain ⟨n, rfl⟩ : ∃ n', n = n' + 2 := ⟨n - 2, by omega⟩
  have hr1 := hN1 (n + 1) (by omega)
  have hr2 := hN2 (n + 1) (by omega)
  have hr3 := hN3 (n + 1) (by omega)
  have hr4 := hN4 (n + 1) (by omega)
  have hr5 := hN5 (n + 1) (by omega)
  rw [callFn_code rfl]
  cases ok <;>
  crun [readlist_main.code, mainArgs, hw, addr_beq_null, hab, truth, hr1, hr2, hr3, hr4, hr5, hk1]

/-- readform.c:26-45, nothing read -/
theorem readform_none (hr : args.length + 1 < 2147483648) (hk : g₂.stk = g.stk)
    (h1 : Runs X .IFF_read [.str "hello.TEST", .ptr .void Ptr.null] g (chunkV 0) g₁)
    (h2 : Runs X .fprintf [.file .err, .str "Cannot open 'hello.TEST'\n"] g₁ (.int .int 0) g₂) :
    Runs X .readform_main (mainArgs args) g (.int .int 1) g₂ := by
  have hk1 : List.take g.stk.length g₂.stk = g₂.stk := by rw [hk, List.take_length]
  have hw : wrapInt ((args.length + 1 : Nat) : Int) = ((args.length + 1 : Nat) : Int) := wrapInt_of ⟨by omega, by omega⟩
  obtain ⟨N1, hN1⟩ := h1
  obtain ⟨N2, hN2⟩ := h2
  refine ⟨N1 + N2 + 2, fun n hn => ?_⟩
  obtain ⟨n, rfl⟩ : ∃ n', n = n' + 2 := ⟨n - 2, by omega⟩
  have hr1 := hN1 (n + 1) (by omega)
  have hr2 := hN2 (n + 1) (by omega)
  rw [callFn_code rfl]
  crun [readform_main.code, mainArgs, hw, addr_beq_null, evalE_stderr, hr1, hr2, hk1]

/-- readform-pad.c:26-45, nothing read -/
theorem readform_pad_none (hr : args.length + 1 < 2147483648) (hk : g₂.stk = g.stk)
    (h1 : Runs X .IFF_read [.str "hello-pad.TEST", .ptr .void Ptr.null] g (chunkV 0) g₁)
    (h2 : Runs X .fprintf [.file .err, .str "Cannot open 'hello-pad.TEST'\n"] g₁ (.int .int 0) g₂) :
    Runs X .readform_pad_main (mainArgs args) g (.int .int 1) g₂ := by
  have hk1 : List.take g.stk.length g₂.stk = g₂.stk := by rw [hk, List.take_length]
  have hw : wrapInt ((args.length + 1 : Nat) : Int) = ((args.length + 1 : Nat) : Int) := wrapInt_of ⟨by omega, by omega⟩
  obtain ⟨N1, hN1⟩ := h1
  obtain ⟨N2, hN2⟩ := h2
  refine ⟨N1 + N2 + 2, fun n hn => ?_⟩
  obtain ⟨n, rfl⟩ : ∃ n', n = n' + 2 := ⟨n - 2, by omega⟩
  have hr1 := hN1 (n + 1) (by omega)
  have hr2 := hN2 (n + 1) (by omega)
  rw [callFn_code rfl]
  crun [readform_pad_main.code, mainArgs, hw, addr_beq_null, evalE_stderr, hr1, hr2, hk1]

/-- readcat.c:26-45, nothing read -/
theorem readcat_none (hr : args.length + 1 < 2147483648) (hk : g₂.stk = g.stk)
    (h1 : Runs X .IFF_read [.str "cat.TEST", .ptr .void Ptr.null] g (chunkV 0) g₁)
    (h2 : Runs X .fprintf [.file .err, .str "Cannot open 'cat.TEST'\n"] g₁ (.int .int 0) g₂) :
    Runs X .readcat_main (mainArgs args) g (.int .int 1) g₂ := by
  have hk1 : List.take g.stk.length g₂.stk = g₂.stk := by rw [hk, List.take_length]
  have hw : wrapInt ((args.length + 1 : Nat) : Int) = ((args.length + 1 : Nat) : Int) := wrapInt_of ⟨by omega, by omega⟩
  obtain ⟨N1, hN1⟩ := h1
  obtain ⟨N2, hN2⟩ := h2
  refine ⟨N1 + N2 + 2, fun n hn => ?_⟩
  obtain ⟨n, rfl⟩ : ∃ n', n = n' + 2 := ⟨n - 2, by omega⟩
  have hr1 := hN1 (n + 1) (by omega)
  have hr2 := hN2 (n + 1) (by omega)
  rw [callFn_code rfl]
  crun [readcat_main.code, mainArgs, hw, addr_beq_null, evalE_stderr, hr1, hr2, hk1]

/-- readnestedform.c:26-45, nothing read -/
theorem readnestedform_none (hr : args.length + 1 < 2147483648) (hk : g₂.stk = g.stk)
    (h1 : Runs X .IFF_read [.str "nestedform.TEST", .ptr .void Ptr.null] g (chunkV 0) g₁)
    (h2 : Runs X .fprintf [.file .err, .str "Cannot open 'nestedform.TEST'\n"] g₁ (.int .int 0) g₂) :
    Runs X .readnestedform_main (mainArgs args) g (.int .int 1) g₂ := by
  have hk1 : List.take g.stk.length g₂.stk = g₂.stk := by rw [hk, List.take_length]
  have hw : wrapInt ((args.length + 1 : Nat) : Int) = ((args.length + 1 : Nat) : Int) := wrapInt_of ⟨by omega, by omega⟩
  obtain ⟨N1, hN1⟩ := h1
  obtain ⟨N2, hN2⟩ := h2
  refine ⟨N1 + N2 + 2, fun n hn => ?_⟩
  obtain ⟨n, rfl⟩ : ∃ n', n = n' + 2 := ⟨n - 2, by omega⟩
  have hr1 := hN1 (n + 1) (by omega)
  have hr2 := hN2 (n + 1) (by omega)
  rw [callFn_code rfl]
  crun [readnestedform_main.code, mainArgs, hw, addr_beq_null, evalE_stderr, hr1, hr2, hk1]

/-- readlist.c:26-45, nothing read -/
theorem readlist_none (hr : args.length + 1 < 2147483648) (hk : g₂.stk = g.stk)
    (h1 : Runs X .IFF_read [.str "list.TEST", .ptr .void Ptr.null] g (chunkV 0) g₁)
    (h2 : Runs X .fprintf [.file .err, .str "Cannot open 'list.TEST'\n"] g₁ (.int .int 0) g₂) :
    Runs X .readlist_main (mainArgs args) g (.int .int 1) g₂ := by
  have hk1 : List.take g.stk.length g₂.stk = g₂.stk := by rw [hk, List.take_length]
  have hw : wrapInt ((args.length + 1 : Nat) : Int) = ((args.length + 1 : Nat) : Int) := wrapInt_of ⟨by omega, by omega⟩
  obtain ⟨N1, hN1⟩ := h1
  obtain ⟨N2, hN2⟩ := h2
  refine ⟨N1 + N2 + 2, fun n hn => ?_⟩
  obtain ⟨n, rfl⟩ : ∃ n', n = n' + 2 := ⟨n - 2, by omega⟩
  have hr1 := hN1 (n + 1) (by omega)
  have hr2 := hN2 (n + 1) (by omega)
  rw [callFn_code rfl]
  crun [readlist_main.code, mainArgs, hw, addr_beq_null, evalE_stderr, hr1, hr2, hk1]

end Iff.Src
