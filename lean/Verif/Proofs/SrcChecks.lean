import Verif.Proofs.SrcHunt
/-
  The checks of tests/lookupproperty-override.c and tests/lookupproperty-nested.c of the contents of a chunk.
-/
namespace Iff.Src

open Iff.Heap Iff.Spec

set_option maxRecDepth 4000

theorem byte_ne {b : Byte} {n : Nat} (h : b ≠ BitVec.ofNat 8 n) : ((b.toNat : Int) != (n : Int)) = true := by
  rw [bne_iff_ne]
  intro h'
  exact h (by rw [← Int.ofNat_inj.mp h', BitVec.ofNat_toNat, BitVec.setWidth_eq])

theorem wrap_byte {b : Byte} : wrapInt (b.toNat : Int) = b.toNat := wrapInt_of (by have := b.isLt; constructor <;> omega)

/-- A raw chunk in memory, with its data. -/
def RawAt (X : Cfg) (h : Addr → Option Blk) (p : Addr) (id : ID) (data : List Byte) : Prop :=
  ∃ par d, h p = some ⟨Struct.size X.e .IFF_RawChunk, cells [.ptr (.ofAddr par), .int .uint id.toNat,
      .int .int data.length, .ptr (.ofAddr d)]⟩ ∧
    h d = some ⟨data.length, byteCells (data.map some)⟩

/-- The checks of one chunk of lookupproperty-nested.c:55-98: that it exists, its size, its contents. -/
def checks (v : Var) (idE : Expr) (p0 p1 p2 p3 : Nat) (m₁ m₂ : String) (els : Stmt) : Stmt :=
  .ite (.land (.bin .ne (.var v) .null) (.bin .eq (.arrow (.var v) .chunkId) idE))
    (.ite (.bin .eq (.arrow (.var v) .chunkSize) (.num .int 4))
      (.ite (.lor (.lor (.lor (.bin .ne (.index (.arrow (.var v) .chunkData) (.num .int 0)) (.num .int p0))
          (.bin .ne (.index (.arrow (.var v) .chunkData) (.num .int 1)) (.num .int p1)))
          (.bin .ne (.index (.arrow (.var v) .chunkData) (.num .int 2)) (.num .int p2)))
          (.bin .ne (.index (.arrow (.var v) .chunkData) (.num .int 3)) (.num .int p3)))
        (.seq (.expr (.call (.fn .fprintf) (.cons (.stream .stderr) (.cons (.str m₁) .nil))))
          (.expr (.assign (.var .status) (.num .int 1))))
        .skip)
      (.seq (.expr (.call (.fn .fprintf) (.cons (.stream .stderr) (.cons (.str m₂) (.cons (.num .int 4) .nil)))))
        (.expr (.assign (.var .status) (.num .int 1)))))
    els

section
variable {X : Cfg} {call : Fn → List V → M CS V} {n : Nat}

theorem checks_null {v : Var} {idE : Expr} {p0 p1 p2 p3 : Nat} {m₁ m₂ : String} {els : Stmt} {loc : Var → Slot} {g : CS}
    (hv : loc v = .reg (.ptr (.struct .IFF_RawChunk)) (.ptr (.struct .IFF_RawChunk) (.ofAddr 0))) :
    exec X call n (checks v idE p0 p1 p2 p3 m₁ m₂ els) ⟨loc, g⟩ = exec X call n els ⟨loc, g⟩ := by
  crun [checks, varL, Ty.size, scalarSize, ITy.bits, hv, addr_beq_null, beq_self_eq_true, bne_self_eq_false]

theorem checks_some {v : Var} {idE : Expr} {p0 p1 p2 p3 : Nat} {m₁ m₂ : String} {els : Stmt} {loc : Var → Slot} {g : CS}
    {c : Addr} {id : ID} {data : List Byte} (h0 : c ≠ 0) (hdl : data.length < 2147483648) {s₀ : Int}
    (hv : loc v = .reg (.ptr (.struct .IFF_RawChunk)) (.ptr (.struct .IFF_RawChunk) (.ofAddr c)))
    (hs : loc .status = .reg (.int .int) (.int .int s₀))
    (hid : ∀ f, evalE X call idE f = .val (.int .int id.toNat, f))
    (hfp : ∀ (s : String) (g : CS), call .fprintf [.file .err, .str s] g = .val (.int .int 0, g))
    (hfp' : ∀ (s : String) (g : CS), call .fprintf [.file .err, .str s, .int .int 4] g = .val (.int .int 0, g))
    (hp0 : p0 < 256) (hp1 : p1 < 256) (hp2 : p2 < 256) (hp3 : p3 < 256)
    (hraw : RawAt X g.heap c id data) :
    exec X call n (checks v idE p0 p1 p2 p3 m₁ m₂ els) ⟨loc, g⟩ = .val (.norm,
      ⟨if data = [BitVec.ofNat 8 p0, BitVec.ofNat 8 p1, BitVec.ofNat 8 p2, BitVec.ofNat 8 p3] then loc
        else setLoc loc .status (.reg (.int .int) (.int .int 1)), g⟩) := by
  obtain ⟨h, k, st, i, o, rm, tx, l⟩ := g
  have hrb : (c == 0) = false := by simpa using h0
  have hrn : (Ptr.ofAddr c != Ptr.null) = true := by rw [bne, addr_beq_null, hrb]; rfl
  obtain ⟨par', d, hb', hd⟩ := hraw
  dsimp only at hb' hd
  by_cases h5 : data.length = 4
  · obtain ⟨b0, b1, b2, b3, rfl⟩ : ∃ b0 b1 b2 b3, data = [b0, b1, b2, b3] := by
      match data, h5 with
      | [b0, b1, b2, b3], _ => exact ⟨b0, b1, b2, b3, rfl⟩
    have c0 : byteCells ([b0, b1, b2, b3].map some) 0 = .int .uchar b0.toNat := rfl
    have c1 : byteCells ([b0, b1, b2, b3].map some) 1 = .int .uchar b1.toNat := rfl
    have c2 : byteCells ([b0, b1, b2, b3].map some) 2 = .int .uchar b2.toNat := rfl
    have c3 : byteCells ([b0, b1, b2, b3].map some) 3 = .int .uchar b3.toNat := rfl
    have hl4 : (([b0, b1, b2, b3] : List Byte).length : Int) = 4 := rfl
    have hl4' : ([b0, b1, b2, b3] : List Byte).length = 4 := rfl
    rw [hl4] at hb'
    rw [hl4'] at hd
    have w0 : wrapInt (p0 : Int) = p0 := wrapInt_of (by constructor <;> omega)
    have w1 : wrapInt (p1 : Int) = p1 := wrapInt_of (by constructor <;> omega)
    have w2 : wrapInt (p2 : Int) = p2 := wrapInt_of (by constructor <;> omega)
    have w3 : wrapInt (p3 : Int) = p3 := wrapInt_of (by constructor <;> omega)
    have heq : ∀ {b : Byte} {q : Nat}, q < 256 → b = BitVec.ofNat 8 q → ((b.toNat : Int) != (q : Int)) = false := by
      rintro b q hq rfl
      rw [BitVec.toNat_ofNat, Nat.mod_eq_of_lt hq]
      exact bne_self_eq_false _
    by_cases e0 : b0 = BitVec.ofNat 8 p0
    case neg =>
      rw [if_neg (by intro h; simp only [List.cons.injEq] at h; exact e0 h.1)]
      crun [checks, varL, Ty.size, scalarSize, ITy.bits, hv, hs, hid, addr_beq_null, hrb, hrn, blkOf_heap hb', blkOf_heap hd, beq_self_eq_true, wrap_byte, w0, c0,
        byte_ne e0, evalE_stderr, hfp]
    by_cases e1 : b1 = BitVec.ofNat 8 p1
    case neg =>
      rw [if_neg (by intro h; simp only [List.cons.injEq] at h; exact e1 h.2.1)]
      crun [checks, varL, Ty.size, scalarSize, ITy.bits, hv, hs, hid, addr_beq_null, hrb, hrn, blkOf_heap hb', blkOf_heap hd, beq_self_eq_true, wrap_byte, w0, w1,
        c0, c1, heq hp0 e0, byte_ne e1, evalE_stderr, hfp]
    by_cases e2 : b2 = BitVec.ofNat 8 p2
    case neg =>
      rw [if_neg (by intro h; simp only [List.cons.injEq] at h; exact e2 h.2.2.1)]
      crun [checks, varL, Ty.size, scalarSize, ITy.bits, hv, hs, hid, addr_beq_null, hrb, hrn, blkOf_heap hb', blkOf_heap hd, beq_self_eq_true, wrap_byte, w0, w1,
        w2, c0, c1, c2, heq hp0 e0, heq hp1 e1, byte_ne e2, evalE_stderr, hfp]
    by_cases e3 : b3 = BitVec.ofNat 8 p3
    case neg =>
      rw [if_neg (by intro h; simp only [List.cons.injEq] at h; exact e3 h.2.2.2.1)]
      crun [checks, varL, Ty.size, scalarSize, ITy.bits, hv, hs, hid, addr_beq_null, hrb, hrn, blkOf_heap hb', blkOf_heap hd, beq_self_eq_true, wrap_byte, w0, w1,
        w2, w3, c0, c1, c2, c3, heq hp0 e0, heq hp1 e1, heq hp2 e2, byte_ne e3, evalE_stderr, hfp]
    rw [if_pos (by rw [e0, e1, e2, e3])]
    crun [checks, varL, Ty.size, scalarSize, ITy.bits, hv, hs, hid, addr_beq_null, hrb, hrn, blkOf_heap hb', blkOf_heap hd, beq_self_eq_true, wrap_byte, w0, w1,
      w2, w3, c0, c1, c2, c3, heq hp0 e0, heq hp1 e1, heq hp2 e2, heq hp3 e3]
  · have hwd : wrapInt (data.length : Int) = data.length := wrapInt_of ⟨by omega, by omega⟩
    have hnb : ((data.length : Int) == 4) = false := by
      rw [beq_eq_false_iff_ne]
      omega
    rw [if_neg fun h => h5 (by rw [h]; rfl)]
    crun [checks, varL, Ty.size, scalarSize, ITy.bits, hv, hs, hid, addr_beq_null, hrb, hrn, blkOf_heap hb', hwd, hnb, beq_self_eq_true, evalE_stderr, hfp']

end

end Iff.Src
