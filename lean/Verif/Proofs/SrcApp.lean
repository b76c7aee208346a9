import Verif.Proofs.SrcTools
/-
  The registry and the functions of tests/test.c.
-/
namespace Iff.Src
set_option maxRecDepth 4000
open Spec
open Heap (Addr Block Mem HS Hdr Grp Lst HX TS lib)

section
variable {X : Cfg}

theorem evalE_HELO {call : Fn → List V → M CS V} {s : Fr} :
    evalE X call TEST_ID_HELO s = .val (.int .int idHELO.toNat, s) :=
  evalE_makeid' (a := 72) (b := 69) (c := 76) (d := 79) (by decide)

theorem evalE_BYE {call : Fn → List V → M CS V} {s : Fr} :
    evalE X call TEST_ID_BYE s = .val (.int .int idBYE.toNat, s) :=
  evalE_makeid' (a := 66) (b := 89) (c := 69) (d := 32) (by decide)

theorem evalE_TEST {call : Fn → List V → M CS V} {s : Fr} :
    evalE X call TEST_ID_TEST s = .val (.int .int idTEST.toNat, s) :=
  evalE_makeid' (a := 84) (b := 69) (c := 83) (d := 84) (by decide)

/-- test.c:31-34 -/
theorem typeAt_test (ht : X.LinkedTest) (j : Nat) (t : ChunkType)
    (h : [(⟨idBYE, byeType⟩ : ChunkType), ⟨idHELO, helloType⟩][j]? = some t) :
    TypeAt X ⟨.static 4, 0 + j * 8⟩ t := by
  have hb := ht .test_applicationChunkTypes rfl
  have key : ∀ j fns, j < 2 → FnsOf t.handler fns →
      (initBlk X (Glob.ty .test_applicationChunkTypes) test_applicationChunkTypes.init).cell (j * 8) =
        .int .uint t.id.toNat →
      (∀ i f, fns[i]? = some f →
        (initBlk X (Glob.ty .test_applicationChunkTypes) test_applicationChunkTypes.init).cell
          (j * 8 + (i + 1)) = .fn f) →
      TypeAt X ⟨.static 4, 0 + j * 8⟩ t := by
    intro j fns hj hf hc hcs
    refine ⟨4, j, _, fns, by rw [Nat.zero_add], hb, ?_, hc, hf, hcs⟩
    exact Nat.mul_le_mul_right _ hj
  match j, h with
  | 0, h =>
    cases h
    refine key 0 _ (by decide) .bye ?_ ?_
    · exact Init_id rfl (fun _ _ => evalE_BYE)
    · intro i f hi
      match i, hi with
      | 0, hi | 1, hi | 2, hi | 3, hi | 4, hi | 5, hi | 6, hi => cases hi; rfl
  | 1, h =>
    cases h
    refine key 1 _ (by decide) .hello ?_ ?_
    · exact Init_id rfl (fun _ _ => evalE_HELO)
    · intro i f hi
      match i, hi with
      | 0, hi | 1, hi | 2, hi | 3, hi | 4, hi | 5, hi | 6, hi => cases hi; rfl

/-- test.c:31-44 -/
theorem regAt_test (hl : X.Linked) (ht : X.LinkedTest) : RegAt X ⟨.static 7, 0⟩ testRegistry := by
  refine ⟨7, _, ⟨.static 6, 0⟩, ⟨.static 1, 0⟩, ⟨.static 2, 0⟩, 0, rfl, ht .test_chunkRegistry rfl, Nat.le_refl _,
    rfl, by decide, rfl, ?_, rfl, ?_, rfl, ?_⟩
  · intro j f hf
    match j, hf with
    | 0, hf =>
      cases hf
      refine ⟨6, 0, _, ⟨.static 5, 0⟩, rfl, ht .test_formChunkTypes rfl, ?_, ?_, rfl, ?_⟩
      · rw [Nat.zero_add, Nat.one_mul]; exact Nat.le_of_eq (Nat.one_mul _).symm
      · exact Init_id rfl (fun _ _ => evalE_TEST)
      · exact ⟨5, _, ⟨.static 4, 0⟩, Ptr.null, rfl, ht .test_applicationChunkTypesNode rfl, Nat.le_refl _, rfl,
          by decide, rfl, typeAt_test ht, rfl, rfl⟩
  · refine ⟨1, _, ⟨.static 0, 0⟩, Ptr.null, rfl, hl .IFF_globalChunkTypesNode rfl, Nat.le_refl _, rfl,
      by decide, rfl, typeAt_linked hl, rfl, rfl⟩
  · refine ⟨2, 0, _, _, rfl, hl .IFF_defaultChunkType rfl, ?_, rfl, .raw, ?_⟩
    · rw [Nat.zero_add, Nat.one_mul]; exact Nat.le_refl _
    · intro i f hi
      match i, hi with
      | 0, hi | 1, hi | 2, hi | 3, hi | 4, hi | 5, hi | 6, hi => cases hi; rfl

/-- The argument `&chunkRegistry` of the functions of test.c. -/
abbrev regV : V := .ptr (.struct .IFF_ChunkRegistry) ⟨.static 7, 0⟩

theorem chunkRegistry_ty : Glob.test_chunkRegistry.ty = .struct .IFF_ChunkRegistry := rfl

theorem chunkRegistry_addr : Glob.test_chunkRegistry.addr = 7 := rfl

/-- test.c:46-49 -/
theorem testRead_run {v : V} {g g' : CS} {p : Addr} (hk : List.take g.stk.length g'.stk = g'.stk)
    (hv : (∃ nm, v = .str nm) ∨ v = .ptr (.int .char) Ptr.null)
    (h : Runs X .IFF_read [v, regV] g (.ptr (.struct .IFF_Chunk) (.ofAddr p)) g') :
    Runs X .TEST_read [v] g (.ptr (.struct .IFF_Chunk) (.ofAddr p)) g' := by
  obtain ⟨N, hN⟩ := h
  refine ⟨N + 1, fun n hn => ?_⟩
  obtain ⟨n, rfl⟩ : ∃ n', n = n' + 1 := ⟨n - 1, by omega⟩
  have hr := hN n (by omega)
  rw [callFn_code rfl]
  rcases hv with ⟨nm, rfl⟩ | rfl <;> crun [TEST_read.code, hr, chunkRegistry_ty, chunkRegistry_addr, hk]

/-- test.c:51-54 -/
theorem testWrite_run {v : V} {g g' : CS} {p : Addr} {r : Bool} (hk : List.take g.stk.length g'.stk = g'.stk)
    (hv : (∃ nm, v = .str nm) ∨ v = .ptr (.int .char) Ptr.null)
    (h : Runs X .IFF_write [v, .ptr (.struct .IFF_Chunk) ⟨.heap p, 0⟩, regV] g (truth r) g') :
    Runs X .TEST_write [v, .ptr (.struct .IFF_Chunk) ⟨.heap p, 0⟩] g (truth r) g' := by
  obtain ⟨N, hN⟩ := h
  refine ⟨N + 1, fun n hn => ?_⟩
  obtain ⟨n, rfl⟩ : ∃ n', n = n' + 1 := ⟨n - 1, by omega⟩
  have hr := hN n (by omega)
  rw [callFn_code rfl]
  rcases hv with ⟨nm, rfl⟩ | rfl <;> crun [TEST_write.code, hr, chunkRegistry_ty, chunkRegistry_addr, hk]

/-- test.c:56-59 -/
theorem testFree_run {g g' : CS} {p : Addr} (hk : List.take g.stk.length g'.stk = g'.stk)
    (h : Runs X .IFF_free [.ptr (.struct .IFF_Chunk) ⟨.heap p, 0⟩, regV] g .void g') :
    Runs X .TEST_free [.ptr (.struct .IFF_Chunk) ⟨.heap p, 0⟩] g .void g' := by
  obtain ⟨N, hN⟩ := h
  refine ⟨N + 1, fun n hn => ?_⟩
  obtain ⟨n, rfl⟩ : ∃ n', n = n' + 1 := ⟨n - 1, by omega⟩
  have hr := hN n (by omega)
  rw [callFn_code rfl]
  crun [TEST_free.code, hr, chunkRegistry_ty, chunkRegistry_addr, hk]

/-- test.c:61-64 -/
theorem testCheck_run {g g' : CS} {p : Addr} {r : Bool} (hk : List.take g.stk.length g'.stk = g'.stk)
    (h : Runs X .IFF_check [.ptr (.struct .IFF_Chunk) ⟨.heap p, 0⟩, regV] g (truth r) g') :
    Runs X .TEST_check [.ptr (.struct .IFF_Chunk) ⟨.heap p, 0⟩] g (truth r) g' := by
  obtain ⟨N, hN⟩ := h
  refine ⟨N + 1, fun n hn => ?_⟩
  obtain ⟨n, rfl⟩ : ∃ n', n = n' + 1 := ⟨n - 1, by omega⟩
  have hr := hN n (by omega)
  rw [callFn_code rfl]
  crun [TEST_check.code, hr, chunkRegistry_ty, chunkRegistry_addr, hk]

/-- test.c:66-69 -/
theorem testPrint_run {g g' : CS} {p : Addr} {level : Nat} (hk : List.take g.stk.length g'.stk = g'.stk) (hl : level < 4294967296)
    (h : Runs X .IFF_print [.ptr (.struct .IFF_Chunk) ⟨.heap p, 0⟩, .int .uint level, regV] g .void g') :
    Runs X .TEST_print [.ptr (.struct .IFF_Chunk) ⟨.heap p, 0⟩, .int .uint level] g .void g' := by
  obtain ⟨N, hN⟩ := h
  refine ⟨N + 1, fun n hn => ?_⟩
  obtain ⟨n, rfl⟩ : ∃ n', n = n' + 1 := ⟨n - 1, by omega⟩
  have hr := hN n (by omega)
  have he : (level : Int) % 4294967296 = level := by omega
  rw [callFn_code rfl]
  crun [TEST_print.code, hr, he, chunkRegistry_ty, chunkRegistry_addr, hk]

/-- test.c:71-74 -/
theorem testCompare_run {g g' : CS} {p p' : Addr} {r : Bool} (hk : List.take g.stk.length g'.stk = g'.stk)
    (h : Runs X .IFF_compare [.ptr (.struct .IFF_Chunk) ⟨.heap p, 0⟩, .ptr (.struct .IFF_Chunk) ⟨.heap p', 0⟩,
      regV] g (truth r) g') :
    Runs X .TEST_compare [.ptr (.struct .IFF_Chunk) ⟨.heap p, 0⟩, .ptr (.struct .IFF_Chunk) ⟨.heap p', 0⟩] g
      (truth r) g' := by
  obtain ⟨N, hN⟩ := h
  refine ⟨N + 1, fun n hn => ?_⟩
  obtain ⟨n, rfl⟩ : ∃ n', n = n' + 1 := ⟨n - 1, by omega⟩
  have hr := hN n (by omega)
  rw [callFn_code rfl]
  crun [TEST_compare.code, hr, chunkRegistry_ty, chunkRegistry_addr, hk]

end

end Iff.Src
