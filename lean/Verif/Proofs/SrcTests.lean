import Verif.Proofs.SrcProgram
import Verif.Props.SrcApp
/-
  The `main` functions of the test programs, given what the functions they call do.
-/
namespace Iff.Src

open Iff.Heap Iff.Spec

set_option maxRecDepth 4000

variable {X : Cfg} {command : String} {args : List String} {g g₁ g₂ g₃ g₄ : CS}

/-- `argv[1]` -/
abbrev argV (args : List String) : V := nameArg (args.head?.map String.toList)

theorem argv1 {e : Env} : ((1 + 1) * scalarSize e (.ptr (.int .char)) ≤ (argvBlk e command args).size) = True :=
  eq_true (Nat.mul_le_mul_right _ (by omega))

theorem argv1_cell {e : Env} : ofCell (.ptr (.int .char)) ((argvBlk e command args).cell 1) = .val (argV args) := by
  cases args with
  | nil => rfl
  | cons a as => simp [argvBlk, argV, nameArg, ofCell_str]

theorem argV_inv : (∃ nm, argV args = .str nm) ∨ argV args = .ptr (.int .char) Ptr.null := by
  cases args with
  | nil => exact .inr rfl
  | cons a as => exact .inl ⟨_, rfl⟩

theorem blkOf_argv (hg : g.stk = startStk X.e command args) {i : Nat} :
    blkOf X g ⟨.stk 1, i⟩ = .val (argvBlk X.e command args) := by
  obtain ⟨heap, tick, stk, inp, out, room, text, log⟩ := g
  cases hg
  rfl

/-- validiff.c:25-30 -/
theorem validiff_null (hr : args.length + 1 < 2147483648) (hg : g.stk = startStk X.e command args)
    (hk : g₁.stk = g.stk)
    (h1 : Runs X .IFF_read [argV args, .ptr (.struct .IFF_ChunkRegistry) Ptr.null] g (chunkV 0) g₁) :
    Runs X .validiff_main (mainArgs args) g (.int .int 1) g₁ := by
  have hw : wrapInt ((args.length + 1 : Nat) : Int) = ((args.length + 1 : Nat) : Int) := wrapInt_of ⟨by omega, by omega⟩
  have hk1 : List.take g.stk.length g₁.stk = g₁.stk := by rw [hk, List.take_length]
  have hv := argV_inv (args := args)
  obtain ⟨N1, hN1⟩ := h1.null (vs' := [argV args, .ptr .void Ptr.null]) rfl
    (by rcases hv with ⟨a, h⟩ | h <;> rw [h] <;> rfl)
  refine ⟨N1 + 2, fun n hn => ?_⟩
  obtain ⟨n, rfl⟩ : ∃ n', n = n' + 2 := ⟨n - 2, by omega⟩
  have hr1 := hN1 (n + 1) (by omega)
  rw [callFn_code rfl]
  rcases hv with ⟨a, h⟩ | h <;> rw [h] at hr1 <;>
  crun [validiff_main.code, mainArgs, hw, blkOf_argv hg, argv1, argv1_cell, h, hr1, addr_beq_null, hk1]

/-- validiff.c:25-37 -/
theorem validiff_some (hr : args.length + 1 < 2147483648) (hg : g.stk = startStk X.e command args)
    (hk : g₃.stk = g.stk) {p : Addr} (hp : p ≠ 0) {ok : Bool}
    (h1 : Runs X .IFF_read [argV args, .ptr (.struct .IFF_ChunkRegistry) Ptr.null] g (chunkV p) g₁)
    (h2 : Runs X .IFF_check [chunkV p, .ptr (.struct .IFF_ChunkRegistry) Ptr.null] g₁ (truth ok) g₂)
    (h3 : Runs X .IFF_free [chunkV p, .ptr (.struct .IFF_ChunkRegistry) Ptr.null] g₂ .void g₃) :
    Runs X .validiff_main (mainArgs args) g (truth !ok) g₃ := by
  have hw : wrapInt ((args.length + 1 : Nat) : Int) = ((args.length + 1 : Nat) : Int) := wrapInt_of ⟨by omega, by omega⟩
  have hk1 : List.take g.stk.length g₃.stk = g₃.stk := by rw [hk, List.take_length]
  have hv := argV_inv (args := args)
  have hpb : (p == 0) = false := by simpa using hp
  obtain ⟨N1, hN1⟩ := h1.null (vs' := [argV args, .ptr .void Ptr.null]) rfl
    (by rcases hv with ⟨a, h⟩ | h <;> rw [h] <;> rfl)
  obtain ⟨N2, hN2⟩ := h2.null (vs' := [chunkV p, .ptr .void Ptr.null]) rfl rfl
  obtain ⟨N3, hN3⟩ := h3.null (vs' := [chunkV p, .ptr .void Ptr.null]) rfl rfl
  refine ⟨N1 + N2 + N3 + 2, fun n hn => ?_⟩
  obtain ⟨n, rfl⟩ : ∃ n', n = n' + 2 := ⟨n - 2, by omega⟩
  have hr1 := hN1 (n + 1) (by omega)
  have hr2 := hN2 (n + 1) (by omega)
  have hr3 := hN3 (n + 1) (by omega)
  rw [callFn_code rfl]
  rcases hv with ⟨a, h⟩ | h <;> rw [h] at hr1 <;> cases ok <;>
  crun [validiff_main.code, mainArgs, hw, blkOf_argv hg, argv1, argv1_cell, h, hr1, hr2, hr3, addr_beq_null, hpb, hk1, truth]

/-- invalidiff.c:25-30 -/
theorem invalidiff_null (hr : args.length + 1 < 2147483648) (hg : g.stk = startStk X.e command args)
    (hk : g₁.stk = g.stk)
    (h1 : Runs X .IFF_read [argV args, .ptr (.struct .IFF_ChunkRegistry) Ptr.null] g (chunkV 0) g₁) :
    Runs X .invalidiff_main (mainArgs args) g (.int .int 0) g₁ := by
  have hw : wrapInt ((args.length + 1 : Nat) : Int) = ((args.length + 1 : Nat) : Int) := wrapInt_of ⟨by omega, by omega⟩
  have hk1 : List.take g.stk.length g₁.stk = g₁.stk := by rw [hk, List.take_length]
  have hv := argV_inv (args := args)
  obtain ⟨N1, hN1⟩ := h1.null (vs' := [argV args, .ptr .void Ptr.null]) rfl
    (by rcases hv with ⟨a, h⟩ | h <;> rw [h] <;> rfl)
  refine ⟨N1 + 2, fun n hn => ?_⟩
  obtain ⟨n, rfl⟩ : ∃ n', n = n' + 2 := ⟨n - 2, by omega⟩
  have hr1 := hN1 (n + 1) (by omega)
  rw [callFn_code rfl]
  rcases hv with ⟨a, h⟩ | h <;> rw [h] at hr1 <;>
  crun [invalidiff_main.code, mainArgs, hw, blkOf_argv hg, argv1, argv1_cell, h, hr1, addr_beq_null, hk1]

/-- invalidiff.c:25-37 -/
theorem invalidiff_some (hr : args.length + 1 < 2147483648) (hg : g.stk = startStk X.e command args)
    (hk : g₃.stk = g.stk) {p : Addr} (hp : p ≠ 0) {ok : Bool}
    (h1 : Runs X .IFF_read [argV args, .ptr (.struct .IFF_ChunkRegistry) Ptr.null] g (chunkV p) g₁)
    (h2 : Runs X .IFF_check [chunkV p, .ptr (.struct .IFF_ChunkRegistry) Ptr.null] g₁ (truth ok) g₂)
    (h3 : Runs X .IFF_free [chunkV p, .ptr (.struct .IFF_ChunkRegistry) Ptr.null] g₂ .void g₃) :
    Runs X .invalidiff_main (mainArgs args) g (truth ok) g₃ := by
  have hw : wrapInt ((args.length + 1 : Nat) : Int) = ((args.length + 1 : Nat) : Int) := wrapInt_of ⟨by omega, by omega⟩
  have hk1 : List.take g.stk.length g₃.stk = g₃.stk := by rw [hk, List.take_length]
  have hv := argV_inv (args := args)
  have hpb : (p == 0) = false := by simpa using hp
  obtain ⟨N1, hN1⟩ := h1.null (vs' := [argV args, .ptr .void Ptr.null]) rfl
    (by rcases hv with ⟨a, h⟩ | h <;> rw [h] <;> rfl)
  obtain ⟨N2, hN2⟩ := h2.null (vs' := [chunkV p, .ptr .void Ptr.null]) rfl rfl
  obtain ⟨N3, hN3⟩ := h3.null (vs' := [chunkV p, .ptr .void Ptr.null]) rfl rfl
  refine ⟨N1 + N2 + N3 + 2, fun n hn => ?_⟩
  obtain ⟨n, rfl⟩ : ∃ n', n = n' + 2 := ⟨n - 2, by omega⟩
  have hr1 := hN1 (n + 1) (by omega)
  have hr2 := hN2 (n + 1) (by omega)
  have hr3 := hN3 (n + 1) (by omega)
  rw [callFn_code rfl]
  rcases hv with ⟨a, h⟩ | h <;> rw [h] at hr1 <;> cases ok <;>
  crun [invalidiff_main.code, mainArgs, hw, blkOf_argv hg, argv1, argv1_cell, h, hr1, hr2, hr3, addr_beq_null, hpb, hk1, truth]

/-- checkextension.c:25-37 -/
theorem checkextension_some (hr : args.length + 1 < 2147483648)
    (hk : g₃.stk = g.stk) {p : Addr} (hp : p ≠ 0) {ok : Bool}
    (h1 : Runs X .TEST_read [.str "extension.TEST"] g (chunkV p) g₁)
    (h2 : Runs X .TEST_check [chunkV p] g₁ (truth ok) g₂)
    (h3 : Runs X .TEST_free [chunkV p] g₂ .void g₃) :
    Runs X .checkextension_main (mainArgs args) g (truth ok) g₃ := by
  have hw : wrapInt ((args.length + 1 : Nat) : Int) = ((args.length + 1 : Nat) : Int) := wrapInt_of ⟨by omega, by omega⟩
  have hk1 : List.take g.stk.length g₃.stk = g₃.stk := by rw [hk, List.take_length]
  have hpb : (p == 0) = false := by simpa using hp
  obtain ⟨N1, hN1⟩ := h1
  obtain ⟨N2, hN2⟩ := h2
  obtain ⟨N3, hN3⟩ := h3
  refine ⟨N1 + N2 + N3 + 2, fun n hn => ?_⟩
  obtain ⟨n, rfl⟩ : ∃ n', n = n' + 2 := ⟨n - 2, by omega⟩
  have hr1 := hN1 (n + 1) (by omega)
  have hr2 := hN2 (n + 1) (by omega)
  have hr3 := hN3 (n + 1) (by omega)
  rw [callFn_code rfl]
  cases ok <;>
  crun [checkextension_main.code, mainArgs, hw, hr1, hr2, hr3, addr_beq_null, hpb, hk1, truth]

/-- ppextension.c:25-37 -/
theorem ppextension_some (hr : args.length + 1 < 2147483648) (hg : g.stk = startStk X.e command args)
    (hk : g₃.stk = g.stk) {p : Addr} (hp : p ≠ 0)
    (h1 : Runs X .TEST_read [argV args] g (chunkV p) g₁)
    (h2 : Runs X .TEST_print [chunkV p, .int .uint 0] g₁ .void g₂)
    (h3 : Runs X .TEST_free [chunkV p] g₂ .void g₃) :
    Runs X .ppextension_main (mainArgs args) g (.int .int 0) g₃ := by
  have hw : wrapInt ((args.length + 1 : Nat) : Int) = ((args.length + 1 : Nat) : Int) := wrapInt_of ⟨by omega, by omega⟩
  have hk1 : List.take g.stk.length g₃.stk = g₃.stk := by rw [hk, List.take_length]
  have hv := argV_inv (args := args)
  have hpb : (p == 0) = false := by simpa using hp
  obtain ⟨N1, hN1⟩ := h1
  obtain ⟨N2, hN2⟩ := h2.null (vs' := [chunkV p, .int .int 0]) rfl rfl
  obtain ⟨N3, hN3⟩ := h3
  refine ⟨N1 + N2 + N3 + 2, fun n hn => ?_⟩
  obtain ⟨n, rfl⟩ : ∃ n', n = n' + 2 := ⟨n - 2, by omega⟩
  have hr1 := hN1 (n + 1) (by omega)
  have hr2 := hN2 (n + 1) (by omega)
  have hr3 := hN3 (n + 1) (by omega)
  rw [callFn_code rfl]
  rcases hv with ⟨a, h⟩ | h <;> rw [h] at hr1 <;>
  crun [ppextension_main.code, mainArgs, hw, blkOf_argv hg, argv1, argv1_cell, h, hr1, hr2, hr3, addr_beq_null, hpb, hk1]

end Iff.Src
