import Verif.Proofs.SrcFieldWrite
/-
  Writing the fields of tests/hello.c and tests/bye.c.
-/
namespace Iff.Src
set_option maxRecDepth 4000
open Heap (Addr Block Mem HS Hdr Grp Lst HX)

theorem writeField_bp {e : Env} {v : Val} {id : ID} {size bp bp' : Int} {a : String} {fs : FieldStatus} {w w' : WS}
    (h : writeField e v id size a bp w = .val ((fs, bp'), w')) (hbp : inInt bp) : inInt bp' := by
  unfold writeField at h
  split at h
  · obtain ⟨h2, rfl⟩ := pure_inv h
    cases h2
    exact hbp
  · obtain ⟨b, w1, h2, h3⟩ := bind_inv h
    cases b <;> obtain ⟨h4, rfl⟩ := pure_inv h3 <;> cases h4
    · exact hbp
    · exact inInt_wrap

theorem word_emod (b : BitVec 16) : (b.toNat : Int) % 65536 = b.toNat := by omega

theorem set_last {stk : List Blk} {a b : Blk} : (stk ++ [a]).set stk.length b = stk ++ [b] := by
  rw [List.set_append_right _ _ (Nat.le_refl _)]; simp

section
variable {X : Cfg} {n : Nat} {stk : List Blk} {inp text : List Byte}

/-- tests/hello.c:65-80 -/
theorem writeHello_run {q : Ptr} {p : Addr} {bp' : Int} {ok : Bool} {s s' : HX WS} (hm : Rep s.mem)
    (h : Heap.writeExt X.e [⟨"a", .ubyte⟩, ⟨"b", .ubyte⟩, ⟨"c", .uword⟩] p 0 s = .val ((ok, bp'), s')) :
    s'.mem = s.mem ∧ inInt bp' ∧
    callFn X (n + 13) .TEST_writeHello [.file .out, .ptr (.struct .IFF_Chunk) ⟨.heap p, 0⟩,
      .ptr (.struct .IFF_ChunkRegistry) q, .ptr (.int .int) ⟨.stk stk.length, 0⟩]
      (sw X (stk ++ [⟨4, cells [.int .int 0]⟩]) inp text s) =
      .val (truth ok, sw X (stk ++ [⟨4, cells [.int .int bp']⟩]) inp text s') := by
  have h0 : inInt 0 := by decide
  unfold Heap.writeExt at h
  obtain ⟨hd, s1, h1, k1⟩ := bind_inv h
  clear h
  obtain ⟨rfl, -, -, -, ⟨blk, hb1, hb2⟩, -⟩ := hgetHdr (X := X) h1
  obtain ⟨vals, s2, h2, k2⟩ := bind_inv k1
  obtain ⟨rfl, hd', hb3, hk⟩ := hgetExt h2
  rw [hb1] at hb3; cases hb3
  cases hb2
  have hs := hm.hdr hb1 rfl
  obtain ⟨a, b, c, rfl, g1⟩ := hello_at (X := X) hb1 hk
  obtain ⟨w, h3, rfl⟩ := dev_inv k2
  clear k2 h2 k1 h1
  refine ⟨rfl, ?_⟩
  have hz : Struct.size X.e .IFF_Chunk ≤ Struct.size X.e .TEST_Hello := size_chunk_ext X [.ubyte, .ubyte, .uword]
  simp only [writeExtFields] at h3
  have hd1 := fun g => @deriveSuccess_run X (n + 11) .last g
  have hd2 := fun g => @deriveSuccess_run X (n + 11) .failure g
  simp only [statusVal] at hd1 hd2
  obtain ⟨⟨f1, b1⟩, w1, e1, k1⟩ := bind_inv h3
  have i1 := writeField_bp e1 h0
  have c1 := fun n => writeField_run (X := X) (n := n) (tick := s2.tick) (stk := stk ++ [⟨4, cells [.int .int 0]⟩]) (inp := inp) (text := text) (j := stk.length) g1 hz hs h0 (by simp) e1
  simp only [fieldWriterOf, Val.kind, ctype, number, wst, set_last] at c1
  cases f1 with
  | failure =>
    obtain ⟨h4, rfl⟩ := pure_inv k1
    cases h4
    refine ⟨i1, ?_⟩
    simp only [statusVal] at c1
    rw [callFn_code rfl]
    crun [TEST_writeHello.code, find_Hello_a, find_Hello_b, find_Hello_c, find_Bye_one, find_Bye_two, blkOf_heap g1, byte_emod, word_emod, wrapInt_toInt, c1,
      IFF_FIELD_MORE, hd1, hd2]
  | last =>
    obtain ⟨h4, rfl⟩ := pure_inv k1
    cases h4
    refine ⟨i1, ?_⟩
    simp only [statusVal] at c1
    rw [callFn_code rfl]
    crun [TEST_writeHello.code, find_Hello_a, find_Hello_b, find_Hello_c, find_Bye_one, find_Bye_two, blkOf_heap g1, byte_emod, word_emod, wrapInt_toInt, c1,
      IFF_FIELD_MORE, hd1, hd2]
  | more =>
    obtain ⟨⟨f2, b2⟩, w2, e2, k2⟩ := bind_inv k1
    have i2 := writeField_bp e2 i1
    have c2 := fun n => writeField_run (X := X) (n := n) (tick := s2.tick) (stk := stk ++ [⟨4, cells [.int .int b1]⟩]) (inp := inp) (text := text) (j := stk.length) g1 hz hs i1 (by simp) e2
    simp only [fieldWriterOf, Val.kind, ctype, number, wst, set_last] at c2
    cases f2 with
    | failure =>
      obtain ⟨h4, rfl⟩ := pure_inv k2
      cases h4
      refine ⟨i2, ?_⟩
      simp only [statusVal] at c1 c2
      rw [callFn_code rfl]
      crun [TEST_writeHello.code, find_Hello_a, find_Hello_b, find_Hello_c, find_Bye_one, find_Bye_two, blkOf_heap g1, byte_emod, word_emod, wrapInt_toInt, c1, c2,
        IFF_FIELD_MORE, hd1, hd2]
    | last =>
      obtain ⟨h4, rfl⟩ := pure_inv k2
      cases h4
      refine ⟨i2, ?_⟩
      simp only [statusVal] at c1 c2
      rw [callFn_code rfl]
      crun [TEST_writeHello.code, find_Hello_a, find_Hello_b, find_Hello_c, find_Bye_one, find_Bye_two, blkOf_heap g1, byte_emod, word_emod, wrapInt_toInt, c1, c2,
        IFF_FIELD_MORE, hd1, hd2]
    | more =>
      obtain ⟨⟨f3, b3⟩, w3, e3, k3⟩ := bind_inv k2
      have i3 := writeField_bp e3 i2
      have c3 := fun n => writeField_run (X := X) (n := n) (tick := s2.tick) (stk := stk ++ [⟨4, cells [.int .int b2]⟩]) (inp := inp) (text := text) (j := stk.length) g1 hz hs i2 (by simp) e3
      simp only [fieldWriterOf, Val.kind, ctype, number, wst, set_last] at c3
      cases f3 with
      | failure =>
        obtain ⟨h4, rfl⟩ := pure_inv k3
        cases h4
        refine ⟨i3, ?_⟩
        simp only [statusVal] at c1 c2 c3
        rw [callFn_code rfl]
        crun [TEST_writeHello.code, find_Hello_a, find_Hello_b, find_Hello_c, find_Bye_one, find_Bye_two, blkOf_heap g1, byte_emod, word_emod, wrapInt_toInt, c1, c2, c3,
          IFF_FIELD_MORE, hd1, hd2]
      | last =>
        obtain ⟨h4, rfl⟩ := pure_inv k3
        cases h4
        refine ⟨i3, ?_⟩
        simp only [statusVal] at c1 c2 c3
        rw [callFn_code rfl]
        crun [TEST_writeHello.code, find_Hello_a, find_Hello_b, find_Hello_c, find_Bye_one, find_Bye_two, blkOf_heap g1, byte_emod, word_emod, wrapInt_toInt, c1, c2, c3,
          IFF_FIELD_MORE, hd1, hd2]
      | more =>
        obtain ⟨h4, rfl⟩ := pure_inv k3
        cases h4
        refine ⟨i3, ?_⟩
        simp only [statusVal] at c1 c2 c3
        rw [callFn_code rfl]
        crun [TEST_writeHello.code, find_Hello_a, find_Hello_b, find_Hello_c, find_Bye_one, find_Bye_two, blkOf_heap g1, byte_emod, word_emod, wrapInt_toInt, c1, c2, c3,
          IFF_FIELD_MORE, hd1, hd2]
        rfl

/-- tests/bye.c:61-73 -/
theorem writeBye_run {q : Ptr} {p : Addr} {bp' : Int} {ok : Bool} {s s' : HX WS} (hm : Rep s.mem)
    (h : Heap.writeExt X.e [⟨"one", .long⟩, ⟨"two", .long⟩] p 0 s = .val ((ok, bp'), s')) :
    s'.mem = s.mem ∧ inInt bp' ∧
    callFn X (n + 13) .TEST_writeBye [.file .out, .ptr (.struct .IFF_Chunk) ⟨.heap p, 0⟩,
      .ptr (.struct .IFF_ChunkRegistry) q, .ptr (.int .int) ⟨.stk stk.length, 0⟩]
      (sw X (stk ++ [⟨4, cells [.int .int 0]⟩]) inp text s) =
      .val (truth ok, sw X (stk ++ [⟨4, cells [.int .int bp']⟩]) inp text s') := by
  have h0 : inInt 0 := by decide
  unfold Heap.writeExt at h
  obtain ⟨hd, s1, h1, k1⟩ := bind_inv h
  clear h
  obtain ⟨rfl, -, -, -, ⟨blk, hb1, hb2⟩, -⟩ := hgetHdr (X := X) h1
  obtain ⟨vals, s2, h2, k2⟩ := bind_inv k1
  obtain ⟨rfl, hd', hb3, hk⟩ := hgetExt h2
  rw [hb1] at hb3; cases hb3
  cases hb2
  have hs := hm.hdr hb1 rfl
  obtain ⟨a, b, rfl, g1⟩ := bye_at (X := X) hb1 hk
  obtain ⟨w, h3, rfl⟩ := dev_inv k2
  clear k2 h2 k1 h1
  refine ⟨rfl, ?_⟩
  have hz : Struct.size X.e .IFF_Chunk ≤ Struct.size X.e .TEST_Bye := size_chunk_ext X [.long, .long]
  simp only [writeExtFields] at h3
  have hd1 := fun g => @deriveSuccess_run X (n + 11) .last g
  have hd2 := fun g => @deriveSuccess_run X (n + 11) .failure g
  simp only [statusVal] at hd1 hd2
  obtain ⟨⟨f1, b1⟩, w1, e1, k1⟩ := bind_inv h3
  have i1 := writeField_bp e1 h0
  have c1 := fun n => writeField_run (X := X) (n := n) (tick := s2.tick) (stk := stk ++ [⟨4, cells [.int .int 0]⟩]) (inp := inp) (text := text) (j := stk.length) g1 hz hs h0 (by simp) e1
  simp only [fieldWriterOf, Val.kind, ctype, number, wst, set_last] at c1
  cases f1 with
  | failure =>
    obtain ⟨h4, rfl⟩ := pure_inv k1
    cases h4
    refine ⟨i1, ?_⟩
    simp only [statusVal] at c1
    rw [callFn_code rfl]
    crun [TEST_writeBye.code, find_Hello_a, find_Hello_b, find_Hello_c, find_Bye_one, find_Bye_two, blkOf_heap g1, byte_emod, word_emod, wrapInt_toInt, c1,
      IFF_FIELD_MORE, hd1, hd2]
  | last =>
    obtain ⟨h4, rfl⟩ := pure_inv k1
    cases h4
    refine ⟨i1, ?_⟩
    simp only [statusVal] at c1
    rw [callFn_code rfl]
    crun [TEST_writeBye.code, find_Hello_a, find_Hello_b, find_Hello_c, find_Bye_one, find_Bye_two, blkOf_heap g1, byte_emod, word_emod, wrapInt_toInt, c1,
      IFF_FIELD_MORE, hd1, hd2]
  | more =>
    obtain ⟨⟨f2, b2⟩, w2, e2, k2⟩ := bind_inv k1
    have i2 := writeField_bp e2 i1
    have c2 := fun n => writeField_run (X := X) (n := n) (tick := s2.tick) (stk := stk ++ [⟨4, cells [.int .int b1]⟩]) (inp := inp) (text := text) (j := stk.length) g1 hz hs i1 (by simp) e2
    simp only [fieldWriterOf, Val.kind, ctype, number, wst, set_last] at c2
    cases f2 with
    | failure =>
      obtain ⟨h4, rfl⟩ := pure_inv k2
      cases h4
      refine ⟨i2, ?_⟩
      simp only [statusVal] at c1 c2
      rw [callFn_code rfl]
      crun [TEST_writeBye.code, find_Hello_a, find_Hello_b, find_Hello_c, find_Bye_one, find_Bye_two, blkOf_heap g1, byte_emod, word_emod, wrapInt_toInt, c1, c2,
        IFF_FIELD_MORE, hd1, hd2]
    | last =>
      obtain ⟨h4, rfl⟩ := pure_inv k2
      cases h4
      refine ⟨i2, ?_⟩
      simp only [statusVal] at c1 c2
      rw [callFn_code rfl]
      crun [TEST_writeBye.code, find_Hello_a, find_Hello_b, find_Hello_c, find_Bye_one, find_Bye_two, blkOf_heap g1, byte_emod, word_emod, wrapInt_toInt, c1, c2,
        IFF_FIELD_MORE, hd1, hd2]
    | more =>
      obtain ⟨h4, rfl⟩ := pure_inv k2
      cases h4
      refine ⟨i2, ?_⟩
      simp only [statusVal] at c1 c2
      rw [callFn_code rfl]
      crun [TEST_writeBye.code, find_Hello_a, find_Hello_b, find_Hello_c, find_Bye_one, find_Bye_two, blkOf_heap g1, byte_emod, word_emod, wrapInt_toInt, c1, c2,
        IFF_FIELD_MORE, hd1, hd2]
      rfl

end
end Iff.Src
