import Verif.Proofs.SrcFields
import Verif.Proofs.SrcFree
/-
  The chunk types of tests/: reading the fields of tests/hello.c and tests/bye.c.
-/
namespace Iff.Src
set_option maxRecDepth 4000
open Heap (Addr Block Mem HS Hdr Grp Lst)

/-! ### What a field reader does -/

theorem readVal_len {e : Env} {k : FieldKind} {id : ID} {a : String} {rs rs' : RS} {v : Option Val}
    (h : readVal e k id a rs = .val (v, rs')) :
    rs'.inp.length ≤ rs.inp.length ∧ ∀ x, v = some x → x.kind = k := by
  obtain ⟨inp, log⟩ := rs
  cases k <;> simp only [readVal, readUByte, readUWord, readWord, readULong, readLong, readId, M.bind_apply, fgetc,
    fread] at h <;>
    rcases inp with _ | ⟨b0, _ | ⟨b1, _ | ⟨b2, _ | ⟨b3, inp⟩⟩⟩⟩ <;> simp [M.bind_apply, RS.emit] at h <;>
    obtain ⟨rfl, rfl⟩ := h <;> simp [Val.kind] <;> omega

theorem readField_len {e : Env} {k : FieldKind} {id : ID} {size : Int} {a : String} {cur v : Val} {bp bp' : Int}
    {rs rs' : RS} {fs : FieldStatus} (hc : cur.kind = k)
    (h : readField e k id size a cur bp rs = .val ((fs, v, bp'), rs')) (hbp : inInt bp) :
    rs'.inp.length ≤ rs.inp.length ∧ inInt bp' ∧ v.kind = k ∧ (fs ≠ .more → v = cur) := by
  unfold readField at h
  by_cases h1 : fieldDoesNotFitInChunk e k.size size bp = true
  · simp only [if_pos h1] at h
    obtain ⟨h2, rfl⟩ := pure_inv h
    cases h2
    exact ⟨Nat.le_refl _, hbp, hc, fun _ => rfl⟩
  · simp only [if_neg h1] at h
    obtain ⟨w, rs1, h2, h3⟩ := bind_inv h
    obtain ⟨h4, h5⟩ := readVal_len h2
    cases w
    · obtain ⟨h6, rfl⟩ := pure_inv h3
      cases h6
      exact ⟨h4, hbp, hc, fun _ => rfl⟩
    · obtain ⟨h6, rfl⟩ := pure_inv h3
      cases h6
      exact ⟨h4, inInt_wrap, h5 _ rfl, fun h => absurd rfl h⟩

section
variable {X : Cfg} {n tick room : Nat} {stk : List Blk} {inp out text : List Byte} {m : Mem}

theorem layout_ext_set {hd : Hdr} {pre post : List Val} {cur v : Val} (h : v.kind = cur.kind) :
    (layout X.e (.ext hd (pre ++ cur :: post))).set (3 + pre.length) (valCell v) =
      layout X.e (.ext hd (pre ++ v :: post)) := by
  simp only [layout, Blk.set, List.map_append, List.map_cons, h]
  rw [cells_set (by simp [hdrCells]; omega)]
  congr 2
  rw [List.set_append_right _ _ (by simp [hdrCells])]
  simp [hdrCells]

/-- A field of an application's chunk. -/
theorem readExtOne {k : FieldKind} {p : Addr} {hd : Hdr} {pre post : List Val} {cur v : Val} {bp bp' : Int}
    {attr : String} {fs : FieldStatus} {ml : List Msg} {rs' : RS}
    (hm : m p = some (.ext hd (pre ++ cur :: post))) (hk : cur.kind = k) (hs : inInt hd.size) (hbp : inInt bp)
    (h : readField X.e k hd.id hd.size attr cur bp ⟨inp, ml⟩ = .val ((fs, v, bp'), rs')) :
    callFn X (n + 11) (fieldReaderOf k)
      [.file .inp, .ptr (.int (ctype k)) ⟨.heap p, 3 + pre.length⟩, .ptr (.struct .IFF_Chunk) ⟨.heap p, 0⟩,
        .str attr, .ptr (.int .int) ⟨.stk stk.length, 0⟩]
      ⟨heapOf X.e m, tick, stk ++ [⟨4, cells [.int .int bp]⟩], inp, out, room, text, errCalls X.e ml⟩ =
    .val (statusVal fs, ⟨heapOf X.e (m.set p (some (.ext hd (pre ++ v :: post)))), tick,
      stk ++ [⟨4, cells [.int .int bp']⟩], rs'.inp, out, room, text, errCalls X.e rs'.log⟩) := by
  obtain ⟨-, -, hvk, hvc⟩ := readField_len hk h hbp
  obtain ⟨sz, rest, hz, hl, -⟩ := hdr_layout X (b := .ext hd (pre ++ cur :: post)) rfl
  have ha := heapOf_some (e := X.e) hm
  have ha' := ha
  rw [hl] at ha'
  have hset : ∀ b : Blk, (stk ++ [(⟨4, cells [.int .int bp]⟩ : Blk)]).set stk.length b = stk ++ [b] := by
    intro b; rw [List.set_append_right _ _ (Nat.le_refl _)]; simp
  have hr := @readField_run X n (heapOf X.e m) tick room (stk ++ [⟨4, cells [.int .int bp]⟩]) inp out text k p sz
    stk.length _ _ _ _ bp bp' attr fs cur v rs' ml ⟨.heap p, 3 + pre.length⟩
    (heapOf X.e (m.set p (some (.ext hd (pre ++ v :: post))))) (stk ++ [⟨4, cells [.int .int bp]⟩])
    ha' hz hs hbp (by simp) h ?_ rfl
  · rw [hset] at hr; exact hr
  · cases fs with
    | more =>
      refine ⟨rfl, ?_⟩
      have := stores_heap (X := X) (stk := stk ++ [⟨4, cells [.int .int bp]⟩]) (i := 3 + pre.length)
        (c := valCell v) ha
      rw [layout_ext_set (hvk.trans hk.symm)] at this
      rw [heapOf_set, Option.map_some]
      simpa only [valCell, hvk] using this
    | _ =>
      refine ⟨?_, rfl⟩
      rw [hvc (by simp)]
      congr 1
      funext x
      simp only [Mem.set]
      split
      · rename_i hx; subst hx; exact hm.symm
      · rfl

theorem mem_set_set {a : Addr} {b c : Option Block} : (m.set a b).set a c = m.set a c := by
  funext x; simp only [Mem.set]; split <;> rfl

theorem mem_set_get {a : Addr} {b : Option Block} : (m.set a b) a = b := by simp [Mem.set]

/-- What reading the fields does with the model's state. -/
def ExtPost (s s' : HS) (p : Addr) (hd : Hdr) (bp' : Int) : Prop :=
  (∃ vals, s'.mem = s.mem.set p (some (.ext hd vals))) ∧ s'.rs.inp.length ≤ s.rs.inp.length ∧ inInt bp'

/-- tests/hello.c:48-63 -/
theorem readHello_run {q : Ptr} {p : Addr} {hd : Hdr} {a b c : Val} {bp' : Int} {ok : Bool} {s s' : HS}
    (hm : s.mem p = some (.ext hd [a, b, c])) (ha : a.kind = .ubyte) (hb : b.kind = .ubyte) (hc : c.kind = .uword)
    (hs : inInt hd.size)
    (h : Heap.readExt X.e [⟨"a", .ubyte⟩, ⟨"b", .ubyte⟩, ⟨"c", .uword⟩] p 0 s = .val ((ok, bp'), s')) :
    ExtPost s s' p hd bp' ∧
    callFn X (n + 13) .TEST_readHello [.file .inp, .ptr (.struct .IFF_Chunk) ⟨.heap p, 0⟩,
      .ptr (.struct .IFF_ChunkRegistry) q, .ptr (.int .int) ⟨.stk stk.length, 0⟩]
      (st X (stk ++ [⟨4, cells [.int .int 0]⟩]) out room text s) =
      .val (truth ok, st X (stk ++ [⟨4, cells [.int .int bp']⟩]) out room text s') := by
  obtain ⟨m, tick, ⟨inp, ml⟩⟩ := s
  have h0 : inInt 0 := by decide
  unfold Heap.readExt at h
  obtain ⟨blk, s1, h1, k1⟩ := bind_inv h
  clear h
  obtain ⟨h1', rfl⟩ := load_inv h1
  rw [hm] at h1'; cases h1'
  obtain ⟨⟨ok2, vals, bp2⟩, s2, h2, k2⟩ := bind_inv k1
  obtain ⟨rs2, h2', rfl⟩ := io_inv h2
  obtain ⟨u3, s3, h3, k3⟩ := bind_inv k2
  obtain ⟨-, rfl⟩ := store_inv h3
  cases k3
  simp only [readExtFields, List.nil_append, List.cons_append] at h2'
  have hd1 := fun g => @deriveSuccess_run X (n + 11) .last g
  have hd2 := fun g => @deriveSuccess_run X (n + 11) .failure g
  simp only [statusVal] at hd1 hd2
  obtain ⟨⟨f1, v1, b1⟩, r1, e1, k1⟩ := bind_inv h2'
  obtain ⟨l1, i1, vk1, vc1⟩ := readField_len ha e1 h0
  have c1 := fun n => @readExtOne X n tick room stk inp out text (m) .ubyte p hd [] [b, c] a v1 0 b1 "a" f1 ml r1 hm ha hs h0 e1
  simp only [fieldReaderOf, ctype, List.length_nil, List.length_cons, Nat.add_zero, List.nil_append, List.cons_append, mem_set_set, Nat.reduceAdd, Nat.zero_add] at c1
  have g1 : heapOf X.e (m) p = some ⟨Struct.size X.e .TEST_Hello, cells (hdrCells hd ++ [valCell a, valCell b, valCell c])⟩ := by
    rw [heapOf_some hm]; simp only [layout, List.map_cons, List.map_nil, ha, hb, hc]; rfl
  cases f1 with
  | failure =>
    obtain ⟨h4, rfl⟩ := pure_inv k1
    cases h4
    refine ⟨⟨⟨_, rfl⟩, ?_, i1⟩, ?_⟩
    · show rs2.inp.length ≤ (RS.mk inp ml).inp.length
      omega
    simp only [statusVal] at c1
    rw [callFn_code rfl]
    crun [TEST_readHello.code, find_Hello_a, find_Hello_b, find_Hello_c, find_Bye_one, find_Bye_two, blkOf_heap g1, c1,
      IFF_FIELD_MORE, hd1, hd2]
  | last =>
    obtain ⟨h4, rfl⟩ := pure_inv k1
    cases h4
    refine ⟨⟨⟨_, rfl⟩, ?_, i1⟩, ?_⟩
    · show rs2.inp.length ≤ (RS.mk inp ml).inp.length
      omega
    simp only [statusVal] at c1
    rw [callFn_code rfl]
    crun [TEST_readHello.code, find_Hello_a, find_Hello_b, find_Hello_c, find_Bye_one, find_Bye_two, blkOf_heap g1, c1,
      IFF_FIELD_MORE, hd1, hd2]
  | more =>
    obtain ⟨⟨f2, v2, b2⟩, r2, e2, k2⟩ := bind_inv k1
    obtain ⟨l2, i2, vk2, vc2⟩ := readField_len hb e2 i1
    have c2 := fun n => @readExtOne X n tick room stk r1.inp out text (m.set p (some (.ext hd [v1, b, c]))) .ubyte p hd [v1] [c] b v2 b1 b2 "b" f2 r1.log r2 mem_set_get hb hs i1 e2
    simp only [fieldReaderOf, ctype, List.length_nil, List.length_cons, Nat.add_zero, List.nil_append, List.cons_append, mem_set_set, Nat.reduceAdd, Nat.zero_add] at c2
    have g2 : heapOf X.e (m.set p (some (.ext hd [v1, b, c]))) p = some ⟨Struct.size X.e .TEST_Hello, cells (hdrCells hd ++ [valCell v1, valCell b, valCell c])⟩ := by
      rw [heapOf_some mem_set_get]; simp only [layout, List.map_cons, List.map_nil, vk1, hb, hc]; rfl
    cases f2 with
    | failure =>
      obtain ⟨h4, rfl⟩ := pure_inv k2
      cases h4
      refine ⟨⟨⟨_, rfl⟩, ?_, i2⟩, ?_⟩
      · show rs2.inp.length ≤ (RS.mk inp ml).inp.length
        omega
      simp only [statusVal] at c1 c2
      rw [callFn_code rfl]
      crun [TEST_readHello.code, find_Hello_a, find_Hello_b, find_Hello_c, find_Bye_one, find_Bye_two, blkOf_heap g1, blkOf_heap g2, c1, c2,
        IFF_FIELD_MORE, hd1, hd2]
    | last =>
      obtain ⟨h4, rfl⟩ := pure_inv k2
      cases h4
      refine ⟨⟨⟨_, rfl⟩, ?_, i2⟩, ?_⟩
      · show rs2.inp.length ≤ (RS.mk inp ml).inp.length
        omega
      simp only [statusVal] at c1 c2
      rw [callFn_code rfl]
      crun [TEST_readHello.code, find_Hello_a, find_Hello_b, find_Hello_c, find_Bye_one, find_Bye_two, blkOf_heap g1, blkOf_heap g2, c1, c2,
        IFF_FIELD_MORE, hd1, hd2]
    | more =>
      obtain ⟨⟨f3, v3, b3⟩, r3, e3, k3⟩ := bind_inv k2
      obtain ⟨l3, i3, vk3, vc3⟩ := readField_len hc e3 i2
      have c3 := fun n => @readExtOne X n tick room stk r2.inp out text (m.set p (some (.ext hd [v1, v2, c]))) .uword p hd [v1, v2] [] c v3 b2 b3 "c" f3 r2.log r3 mem_set_get hc hs i2 e3
      simp only [fieldReaderOf, ctype, List.length_nil, List.length_cons, Nat.add_zero, List.nil_append, List.cons_append, mem_set_set, Nat.reduceAdd, Nat.zero_add] at c3
      have g3 : heapOf X.e (m.set p (some (.ext hd [v1, v2, c]))) p = some ⟨Struct.size X.e .TEST_Hello, cells (hdrCells hd ++ [valCell v1, valCell v2, valCell c])⟩ := by
        rw [heapOf_some mem_set_get]; simp only [layout, List.map_cons, List.map_nil, vk1, vk2, hc]; rfl
      cases f3 with
      | failure =>
        obtain ⟨h4, rfl⟩ := pure_inv k3
        cases h4
        refine ⟨⟨⟨_, rfl⟩, ?_, i3⟩, ?_⟩
        · show rs2.inp.length ≤ (RS.mk inp ml).inp.length
          omega
        simp only [statusVal] at c1 c2 c3
        rw [callFn_code rfl]
        crun [TEST_readHello.code, find_Hello_a, find_Hello_b, find_Hello_c, find_Bye_one, find_Bye_two, blkOf_heap g1, blkOf_heap g2, blkOf_heap g3, c1, c2, c3,
          IFF_FIELD_MORE, hd1, hd2]
      | last =>
        obtain ⟨h4, rfl⟩ := pure_inv k3
        cases h4
        refine ⟨⟨⟨_, rfl⟩, ?_, i3⟩, ?_⟩
        · show rs2.inp.length ≤ (RS.mk inp ml).inp.length
          omega
        simp only [statusVal] at c1 c2 c3
        rw [callFn_code rfl]
        crun [TEST_readHello.code, find_Hello_a, find_Hello_b, find_Hello_c, find_Bye_one, find_Bye_two, blkOf_heap g1, blkOf_heap g2, blkOf_heap g3, c1, c2, c3,
          IFF_FIELD_MORE, hd1, hd2]
      | more =>
        obtain ⟨h4, rfl⟩ := pure_inv k3
        cases h4
        refine ⟨⟨⟨_, rfl⟩, ?_, i3⟩, ?_⟩
        · show rs2.inp.length ≤ (RS.mk inp ml).inp.length
          omega
        simp only [statusVal] at c1 c2 c3
        rw [callFn_code rfl]
        crun [TEST_readHello.code, find_Hello_a, find_Hello_b, find_Hello_c, find_Bye_one, find_Bye_two, blkOf_heap g1, blkOf_heap g2, blkOf_heap g3, c1, c2, c3,
          IFF_FIELD_MORE, hd1, hd2]
        rfl

/-- tests/bye.c:47-59 -/
theorem readBye_run {q : Ptr} {p : Addr} {hd : Hdr} {a b : Val} {bp' : Int} {ok : Bool} {s s' : HS}
    (hm : s.mem p = some (.ext hd [a, b])) (ha : a.kind = .long) (hb : b.kind = .long)
    (hs : inInt hd.size)
    (h : Heap.readExt X.e [⟨"one", .long⟩, ⟨"two", .long⟩] p 0 s = .val ((ok, bp'), s')) :
    ExtPost s s' p hd bp' ∧
    callFn X (n + 13) .TEST_readBye [.file .inp, .ptr (.struct .IFF_Chunk) ⟨.heap p, 0⟩,
      .ptr (.struct .IFF_ChunkRegistry) q, .ptr (.int .int) ⟨.stk stk.length, 0⟩]
      (st X (stk ++ [⟨4, cells [.int .int 0]⟩]) out room text s) =
      .val (truth ok, st X (stk ++ [⟨4, cells [.int .int bp']⟩]) out room text s') := by
  obtain ⟨m, tick, ⟨inp, ml⟩⟩ := s
  have h0 : inInt 0 := by decide
  unfold Heap.readExt at h
  obtain ⟨blk, s1, h1, k1⟩ := bind_inv h
  clear h
  obtain ⟨h1', rfl⟩ := load_inv h1
  rw [hm] at h1'; cases h1'
  obtain ⟨⟨ok2, vals, bp2⟩, s2, h2, k2⟩ := bind_inv k1
  obtain ⟨rs2, h2', rfl⟩ := io_inv h2
  obtain ⟨u3, s3, h3, k3⟩ := bind_inv k2
  obtain ⟨-, rfl⟩ := store_inv h3
  cases k3
  simp only [readExtFields, List.nil_append, List.cons_append] at h2'
  have hd1 := fun g => @deriveSuccess_run X (n + 11) .last g
  have hd2 := fun g => @deriveSuccess_run X (n + 11) .failure g
  simp only [statusVal] at hd1 hd2
  obtain ⟨⟨f1, v1, b1⟩, r1, e1, k1⟩ := bind_inv h2'
  obtain ⟨l1, i1, vk1, vc1⟩ := readField_len ha e1 h0
  have c1 := fun n => @readExtOne X n tick room stk inp out text (m) .long p hd [] [b] a v1 0 b1 "one" f1 ml r1 hm ha hs h0 e1
  simp only [fieldReaderOf, ctype, List.length_nil, List.length_cons, Nat.add_zero, List.nil_append, List.cons_append, mem_set_set, Nat.reduceAdd, Nat.zero_add] at c1
  have g1 : heapOf X.e (m) p = some ⟨Struct.size X.e .TEST_Bye, cells (hdrCells hd ++ [valCell a, valCell b])⟩ := by
    rw [heapOf_some hm]; simp only [layout, List.map_cons, List.map_nil, ha, hb]; rfl
  cases f1 with
  | failure =>
    obtain ⟨h4, rfl⟩ := pure_inv k1
    cases h4
    refine ⟨⟨⟨_, rfl⟩, ?_, i1⟩, ?_⟩
    · show rs2.inp.length ≤ (RS.mk inp ml).inp.length
      omega
    simp only [statusVal] at c1
    rw [callFn_code rfl]
    crun [TEST_readBye.code, find_Hello_a, find_Hello_b, find_Hello_c, find_Bye_one, find_Bye_two, blkOf_heap g1, c1,
      IFF_FIELD_MORE, hd1, hd2]
  | last =>
    obtain ⟨h4, rfl⟩ := pure_inv k1
    cases h4
    refine ⟨⟨⟨_, rfl⟩, ?_, i1⟩, ?_⟩
    · show rs2.inp.length ≤ (RS.mk inp ml).inp.length
      omega
    simp only [statusVal] at c1
    rw [callFn_code rfl]
    crun [TEST_readBye.code, find_Hello_a, find_Hello_b, find_Hello_c, find_Bye_one, find_Bye_two, blkOf_heap g1, c1,
      IFF_FIELD_MORE, hd1, hd2]
  | more =>
    obtain ⟨⟨f2, v2, b2⟩, r2, e2, k2⟩ := bind_inv k1
    obtain ⟨l2, i2, vk2, vc2⟩ := readField_len hb e2 i1
    have c2 := fun n => @readExtOne X n tick room stk r1.inp out text (m.set p (some (.ext hd [v1, b]))) .long p hd [v1] [] b v2 b1 b2 "two" f2 r1.log r2 mem_set_get hb hs i1 e2
    simp only [fieldReaderOf, ctype, List.length_nil, List.length_cons, Nat.add_zero, List.nil_append, List.cons_append, mem_set_set, Nat.reduceAdd, Nat.zero_add] at c2
    have g2 : heapOf X.e (m.set p (some (.ext hd [v1, b]))) p = some ⟨Struct.size X.e .TEST_Bye, cells (hdrCells hd ++ [valCell v1, valCell b])⟩ := by
      rw [heapOf_some mem_set_get]; simp only [layout, List.map_cons, List.map_nil, vk1, hb]; rfl
    cases f2 with
    | failure =>
      obtain ⟨h4, rfl⟩ := pure_inv k2
      cases h4
      refine ⟨⟨⟨_, rfl⟩, ?_, i2⟩, ?_⟩
      · show rs2.inp.length ≤ (RS.mk inp ml).inp.length
        omega
      simp only [statusVal] at c1 c2
      rw [callFn_code rfl]
      crun [TEST_readBye.code, find_Hello_a, find_Hello_b, find_Hello_c, find_Bye_one, find_Bye_two, blkOf_heap g1, blkOf_heap g2, c1, c2,
        IFF_FIELD_MORE, hd1, hd2]
    | last =>
      obtain ⟨h4, rfl⟩ := pure_inv k2
      cases h4
      refine ⟨⟨⟨_, rfl⟩, ?_, i2⟩, ?_⟩
      · show rs2.inp.length ≤ (RS.mk inp ml).inp.length
        omega
      simp only [statusVal] at c1 c2
      rw [callFn_code rfl]
      crun [TEST_readBye.code, find_Hello_a, find_Hello_b, find_Hello_c, find_Bye_one, find_Bye_two, blkOf_heap g1, blkOf_heap g2, c1, c2,
        IFF_FIELD_MORE, hd1, hd2]
    | more =>
      obtain ⟨h4, rfl⟩ := pure_inv k2
      cases h4
      refine ⟨⟨⟨_, rfl⟩, ?_, i2⟩, ?_⟩
      · show rs2.inp.length ≤ (RS.mk inp ml).inp.length
        omega
      simp only [statusVal] at c1 c2
      rw [callFn_code rfl]
      crun [TEST_readBye.code, find_Hello_a, find_Hello_b, find_Hello_c, find_Bye_one, find_Bye_two, blkOf_heap g1, blkOf_heap g2, c1, c2,
        IFF_FIELD_MORE, hd1, hd2]
      rfl

end
end Iff.Src
