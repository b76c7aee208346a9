import Verif.Proofs.SrcTestWrite
/-
  Writing chunks: chunk.c, group.c, list.c, form.c, cat.c, prop.c and iff.c.
-/
namespace Iff.Src
set_option maxRecDepth 4000
open Heap (Addr Block Mem HS Hdr Grp Lst HX)

section
variable {X : Cfg} {stk : List Blk} {inp text : List Byte}

/-- What is known about the writing of sub chunks. -/
def WriteIH (X : Cfg) (q : Ptr) (inp text : List Byte) (wc : ID → Addr → M (HX WS) Bool) : Prop :=
  ∀ {stk : List Blk} {ft : ID} {c : Addr} {s s' : HX WS} {r : Bool}, Rep s.mem →
    wc ft c s = .val (r, s') → s'.mem = s.mem ∧
    Runs X .IFF_writeChunk [.file .out, .ptr (.struct .IFF_Chunk) ⟨.heap c, 0⟩, .int .uint ft.toNat,
      .ptr (.struct .IFF_ChunkRegistry) q] (sw X stk inp text s) (truth r) (sw X stk inp text s')

/-- group.c:117-127 -/
theorem writeMembers_run {q : Ptr} {wc : ID → Addr → M (HX WS) Bool}
    (IH : WriteIH X q inp text wc) {p : Addr} {b : Block} {g : Grp} (hb2 : b.grp? = some g) :
    ∀ {k i : Nat} {bp bp' : Int} {s s' : HX WS} {r : Bool}, s.mem p = some b → Rep s.mem → inInt bp →
      Heap.writeMembers X.e wc p k i bp s = .val ((r, bp'), s') → g.len = i + k →
      s'.mem = s.mem ∧ inInt bp' ∧ ∀ loc : Var → Slot,
        loc .i = .reg (.int .uint) (.int .uint i) →
        loc .file = .reg (.ptr .file) (.file .out) →
        loc .group = .reg (.ptr (.struct .IFF_Group)) (.ptr (.struct .IFF_Group) ⟨.heap p, 0⟩) →
        loc .chunkRegistry = .reg (.ptr (.struct .IFF_ChunkRegistry)) (.ptr (.struct .IFF_ChunkRegistry) q) →
        loc .bytesProcessed = .reg (.ptr (.int .int)) (.ptr (.int .int) ⟨.stk stk.length, 0⟩) →
        ∃ loc' N, ∀ n, N ≤ n → ∀ j, N ≤ j →
        whileN (evalC X (callFn X n) (.bin .lt (.var .i) (.arrow (.var .group) .chunkLength)))
          (forBody X (callFn X n) n
            (.seq (.ite (.not (.call (.fn .IFF_writeChunk) (.cons (.var .file) (.cons (.index (.arrow (.var .group) .chunk) (.var .i)) (.cons (.arrow (.var .group) .groupType) (.cons (.var .chunkRegistry) .nil))))))
              (.seq (.expr (.call (.fn .IFF_error) (.cons (.str "Error writing chunk!\n") .nil)))
                (.ret (.num .int 0)))
              .skip)
              (.expr (.assign (.deref (.var .bytesProcessed)) (.call (.fn .IFF_incrementChunkSize) (.cons (.deref (.var .bytesProcessed)) (.cons (.index (.arrow (.var .group) .chunk) (.var .i)) .nil))))))
            (.inc (.var .i))) j ⟨loc, sw X (stk ++ [⟨4, cells [.int .int bp]⟩]) inp text s⟩ =
          .val (if r then .norm else .ret (.int .int 0), ⟨loc', sw X (stk ++ [⟨4, cells [.int .int bp']⟩]) inp text s'⟩) := by
  obtain ⟨hd, sz, rest, -, -, hz, hly, -⟩ := grp_layout X hb2
  intro k
  induction k with
  | zero =>
    intro i bp bp' s s' r hb1 hm hbp h hl
    have hb := heapOf_some (e := X.e) hb1
    rw [hly] at hb
    have hg := hm.grp hb1 hb2
    obtain ⟨h1, rfl⟩ := pure_inv h
    cases h1
    refine ⟨rfl, hbp, fun loc hi hfl hgr hr hbpl => ⟨loc, 1, fun n hn j hj => ?_⟩⟩
    obtain ⟨j, rfl⟩ : ∃ j', j = j' + 1 := ⟨j - 1, by omega⟩
    rw [whileN_succ]
    crun [hi, hgr, hr, blkOf_heap hb, hz, nat_emod (show g.len < 4294967296 by omega),
      nat_emod (show i < 4294967296 by omega), decide_eq_false (show ¬ (i : Int) < g.len by omega), if_true]
  | succ k ih =>
    intro i bp bp' s s' r hb1 hm hbp h hl
    have hb := heapOf_some (e := X.e) hb1
    rw [hly] at hb
    have hg := hm.grp hb1 hb2
    unfold Heap.writeMembers at h
    obtain ⟨g1, s1, h1, k1⟩ := bind_inv h
    clear h
    obtain ⟨rfl, -, -, -, -, -, ⟨b', hb1', -, hb2'⟩, -⟩ := hgetGrp (X := X) h1
    rw [hb1] at hb1'; cases hb1'
    rw [hb2] at hb2'; cases hb2'
    obtain ⟨c, s2, h2, k2⟩ := bind_inv k1
    obtain ⟨rfl, B, hB, hBs, hBc⟩ := hgetPtr (X := X) h2
    obtain ⟨r5, s3, h5, k5⟩ := bind_inv k2
    obtain ⟨hm3, N1, hN1⟩ := IH (stk := stk ++ [⟨4, cells [.int .int bp]⟩]) hm h5
    cases r5 with
    | false =>
      simp only [Bool.false_eq_true, if_false] at k5
      obtain ⟨u, s4, h6, k6⟩ := bind_inv k5
      obtain ⟨w, h6', rfl⟩ := dev_inv h6
      cases h6'
      obtain ⟨h7, rfl⟩ := pure_inv k6
      cases h7
      refine ⟨hm3, hbp, fun loc hi hfl hgr hr hbpl => ⟨loc, N1 + 1, fun n hn j hj => ?_⟩⟩
      obtain ⟨j, rfl⟩ : ∃ j', j = j' + 1 := ⟨j - 1, by omega⟩
      have hc := hN1 n (by omega)
      obtain ⟨n, rfl⟩ : ∃ n', n = n' + 1 := ⟨n - 1, by omega⟩
      rw [whileN_succ]
      crun [hi, hfl, hgr, hr, hbpl, blkOf_heap hb, hz, nat_emod (show g.len < 4294967296 by omega),
        nat_emod (show i < 4294967296 by omega), decide_eq_true (show (i : Int) < g.len by omega),
        ↓forBody_obind, blkOf_heap hB, hBs, hBc, Int.natCast_nonneg, Int.toNat_natCast, scalarSize, hc,
        step_obind, Bool.false_eq_true, if_false, error0]
      simp only [sw, errCalls_snoc, Msg.prints]
    | true =>
      simp only [if_true] at k5
      obtain ⟨g1, s4, h6, k6⟩ := bind_inv k5
      obtain ⟨rfl, -, -, -, -, -, ⟨b', hb1', -, hb2'⟩, -⟩ := hgetGrp (X := X) h6
      have hb1s := hb1
      rw [← hm3] at hb1s
      have hbs := heapOf_some (e := X.e) hb1s
      rw [hly] at hbs
      rw [hb1s] at hb1'; cases hb1'
      rw [hb2] at hb2'; cases hb2'
      obtain ⟨c2, s5, h7, k7⟩ := bind_inv k6
      obtain ⟨rfl, B2, hB2, hBs2, hBc2⟩ := hgetPtr (X := X) h7
      obtain ⟨hd2, s6, h8, k8⟩ := bind_inv k7
      obtain ⟨rfl, sz8, rest8, hz8, ⟨b8, hb8, hb8'⟩, hb8''⟩ := hgetHdr (X := X) h8
      obtain ⟨x, s7, h9, k9⟩ := bind_inv k8
      obtain ⟨hx, rfl⟩ := ofOut_inv h9
      have hm7 : Rep s7.mem := by rw [hm3]; exact hm
      have hinc := fun n => incrementChunkSize_run (X := X) (n := n) (tick := s7.tick)
        (stk := stk ++ [⟨4, cells [.int .int bp]⟩]) (out := s7.st.out) (room := s7.st.room) (text := text)
        (inp := inp) (log := errCalls X.e s7.st.log) hz8 hb8'' hbp (hm7.hdr hb8 hb8') hx
      have hx' : inInt x := (incrementChunkSize_inv hx).2.1
      obtain ⟨hme, hbe, ih'⟩ := ih hb1s hm7 hx' k9 (by omega)
      refine ⟨hme.trans hm3, hbe, fun loc hi hfl hgr hr hbpl => ?_⟩
      obtain ⟨loc', N2, hN2⟩ := ih' (setLoc loc .i (.reg (.int .uint) (.int .uint ((i + 1 : Nat) : Int))))
        (by simp [setLoc]) (by simp [setLoc, hfl]) (by simp [setLoc, hgr]) (by simp [setLoc, hr]) (by simp [setLoc, hbpl])
      refine ⟨loc', max N1 N2 + 1, fun n hn j hj => ?_⟩
      obtain ⟨j, rfl⟩ : ∃ j', j = j' + 1 := ⟨j - 1, by omega⟩
      have hc := hN1 n (by omega)
      have hw := hN2 n (by omega) j (by omega)
      obtain ⟨n, rfl⟩ : ∃ n', n = n' + 1 := ⟨n - 1, by omega⟩
      rw [whileN_succ]
      crun [hi, hfl, hgr, hr, hbpl, blkOf_heap hb, blkOf_heap hbs, hz, nat_emod (show g.len < 4294967296 by omega),
        nat_emod (show i < 4294967296 by omega), decide_eq_true (show (i : Int) < g.len by omega),
        ↓forBody_obind, blkOf_heap hB, hBs, hBc, blkOf_heap hB2, hBs2, hBc2, blkOf_stk stk_get0, hinc, Int.natCast_nonneg, Int.toNat_natCast, scalarSize, hc,
        wrapInt_of hx', step_obind, succ_emod (show i + 1 < 4294967296 by omega),
        nat_emod (show i + 1 < 4294967296 by omega), hw]
/-- list.c:134-144 -/
theorem writeProps_run {q : Ptr} {wc : ID → Addr → M (HX WS) Bool}
    (IH : WriteIH X q inp text wc) {p : Addr} {b : Block} {l : Lst} (hb2 : b.lst? = some l) :
    ∀ {k i : Nat} {bp bp' : Int} {s s' : HX WS} {r : Bool}, s.mem p = some b → Rep s.mem → inInt bp →
      Heap.writeProps X.e wc p k i bp s = .val ((r, bp'), s') → l.plen = i + k →
      s'.mem = s.mem ∧ inInt bp' ∧ ∀ loc : Var → Slot,
        loc .i = .reg (.int .uint) (.int .uint i) →
        loc .file = .reg (.ptr .file) (.file .out) →
        loc .list = .reg (.ptr (.struct .IFF_List)) (.ptr (.struct .IFF_List) ⟨.heap p, 0⟩) →
        loc .chunkRegistry = .reg (.ptr (.struct .IFF_ChunkRegistry)) (.ptr (.struct .IFF_ChunkRegistry) q) →
        loc .bytesProcessed = .reg (.ptr (.int .int)) (.ptr (.int .int) ⟨.stk stk.length, 0⟩) →
        ∃ loc' N, ∀ n, N ≤ n → ∀ j, N ≤ j →
        whileN (evalC X (callFn X n) (.bin .lt (.var .i) (.arrow (.var .list) .propLength)))
          (forBody X (callFn X n) n
            (.seq (.ite (.not (.call (.fn .IFF_writeChunk) (.cons (.var .file) (.cons (.cast (.ptr (.struct .IFF_Chunk)) (.index (.arrow (.var .list) .prop) (.var .i))) (.cons (.num .int 0) (.cons (.var .chunkRegistry) .nil))))))
              (.seq (.expr (.call (.fn .IFF_error) (.cons (.str "Error writing PROP!\n") .nil)))
                (.ret (.num .int 0)))
              .skip)
              (.expr (.assign (.deref (.var .bytesProcessed)) (.call (.fn .IFF_incrementChunkSize) (.cons (.deref (.var .bytesProcessed)) (.cons (.cast (.ptr (.struct .IFF_Chunk)) (.index (.arrow (.var .list) .prop) (.var .i))) .nil))))))
            (.inc (.var .i))) j ⟨loc, sw X (stk ++ [⟨4, cells [.int .int bp]⟩]) inp text s⟩ =
          .val (if r then .norm else .ret (.int .int 0), ⟨loc', sw X (stk ++ [⟨4, cells [.int .int bp']⟩]) inp text s'⟩) := by
  obtain ⟨hd, g, -, -, hly, -⟩ := lst_layout X hb2
  intro k
  induction k with
  | zero =>
    intro i bp bp' s s' r hb1 hm hbp h hl
    have hb := heapOf_some (e := X.e) hb1
    rw [hly] at hb
    have hg := hm.lst hb1 hb2
    obtain ⟨h1, rfl⟩ := pure_inv h
    cases h1
    refine ⟨rfl, hbp, fun loc hi hfl hgr hr hbpl => ⟨loc, 1, fun n hn j hj => ?_⟩⟩
    obtain ⟨j, rfl⟩ : ∃ j', j = j' + 1 := ⟨j - 1, by omega⟩
    rw [whileN_succ]
    crun [hi, hgr, hr, blkOf_heap hb, nat_emod (show l.plen < 4294967296 by omega),
      nat_emod (show i < 4294967296 by omega), decide_eq_false (show ¬ (i : Int) < l.plen by omega), if_true]
  | succ k ih =>
    intro i bp bp' s s' r hb1 hm hbp h hl
    have hb := heapOf_some (e := X.e) hb1
    rw [hly] at hb
    have hg := hm.lst hb1 hb2
    unfold Heap.writeProps at h
    obtain ⟨g1, s1, h1, k1⟩ := bind_inv h
    clear h
    obtain ⟨rfl, -, -, ⟨b', hb1', -, -, hb2'⟩, -⟩ := hgetLst (X := X) h1
    rw [hb1] at hb1'; cases hb1'
    rw [hb2] at hb2'; cases hb2'
    obtain ⟨c, s2, h2, k2⟩ := bind_inv k1
    obtain ⟨rfl, B, hB, hBs, hBc⟩ := hgetPtr (X := X) h2
    obtain ⟨r5, s3, h5, k5⟩ := bind_inv k2
    obtain ⟨hm3, N1, hN1⟩ := IH (stk := stk ++ [⟨4, cells [.int .int bp]⟩]) hm h5
    have hN1' : ∀ n, N1 ≤ n → callFn X n .IFF_writeChunk [.file .out, .ptr (.struct .IFF_Chunk) ⟨.heap c, 0⟩,
        .int .int 0, .ptr (.struct .IFF_ChunkRegistry) q] (sw X (stk ++ [⟨4, cells [.int .int bp]⟩]) inp text s2) =
        .val (truth r5, sw X (stk ++ [⟨4, cells [.int .int bp]⟩]) inp text s3) := fun n hn => by
      rw [← hN1 n hn]; exact callFn_args rfl rfl
    cases r5 with
    | false =>
      simp only [Bool.false_eq_true, if_false] at k5
      obtain ⟨u, s4, h6, k6⟩ := bind_inv k5
      obtain ⟨w, h6', rfl⟩ := dev_inv h6
      cases h6'
      obtain ⟨h7, rfl⟩ := pure_inv k6
      cases h7
      refine ⟨hm3, hbp, fun loc hi hfl hgr hr hbpl => ⟨loc, N1 + 1, fun n hn j hj => ?_⟩⟩
      obtain ⟨j, rfl⟩ : ∃ j', j = j' + 1 := ⟨j - 1, by omega⟩
      have hc := hN1' n (by omega)
      obtain ⟨n, rfl⟩ : ∃ n', n = n' + 1 := ⟨n - 1, by omega⟩
      rw [whileN_succ]
      crun [hi, hfl, hgr, hr, hbpl, blkOf_heap hb, nat_emod (show l.plen < 4294967296 by omega),
        nat_emod (show i < 4294967296 by omega), decide_eq_true (show (i : Int) < l.plen by omega),
        ↓forBody_obind, blkOf_heap hB, hBs, hBc, Int.natCast_nonneg, Int.toNat_natCast, scalarSize, hc,
        step_obind, Bool.false_eq_true, if_false, error0]
      simp only [sw, errCalls_snoc, Msg.prints]
    | true =>
      simp only [if_true] at k5
      obtain ⟨g1, s4, h6, k6⟩ := bind_inv k5
      obtain ⟨rfl, -, -, ⟨b', hb1', -, -, hb2'⟩, -⟩ := hgetLst (X := X) h6
      have hb1s := hb1
      rw [← hm3] at hb1s
      have hbs := heapOf_some (e := X.e) hb1s
      rw [hly] at hbs
      rw [hb1s] at hb1'; cases hb1'
      rw [hb2] at hb2'; cases hb2'
      obtain ⟨c2, s5, h7, k7⟩ := bind_inv k6
      obtain ⟨rfl, B2, hB2, hBs2, hBc2⟩ := hgetPtr (X := X) h7
      obtain ⟨hd2, s6, h8, k8⟩ := bind_inv k7
      obtain ⟨rfl, sz8, rest8, hz8, ⟨b8, hb8, hb8'⟩, hb8''⟩ := hgetHdr (X := X) h8
      obtain ⟨x, s7, h9, k9⟩ := bind_inv k8
      obtain ⟨hx, rfl⟩ := ofOut_inv h9
      have hm7 : Rep s7.mem := by rw [hm3]; exact hm
      have hinc := fun n => incrementChunkSize_run (X := X) (n := n) (tick := s7.tick)
        (stk := stk ++ [⟨4, cells [.int .int bp]⟩]) (out := s7.st.out) (room := s7.st.room) (text := text)
        (inp := inp) (log := errCalls X.e s7.st.log) hz8 hb8'' hbp (hm7.hdr hb8 hb8') hx
      have hx' : inInt x := (incrementChunkSize_inv hx).2.1
      obtain ⟨hme, hbe, ih'⟩ := ih hb1s hm7 hx' k9 (by omega)
      refine ⟨hme.trans hm3, hbe, fun loc hi hfl hgr hr hbpl => ?_⟩
      obtain ⟨loc', N2, hN2⟩ := ih' (setLoc loc .i (.reg (.int .uint) (.int .uint ((i + 1 : Nat) : Int))))
        (by simp [setLoc]) (by simp [setLoc, hfl]) (by simp [setLoc, hgr]) (by simp [setLoc, hr]) (by simp [setLoc, hbpl])
      refine ⟨loc', max N1 N2 + 1, fun n hn j hj => ?_⟩
      obtain ⟨j, rfl⟩ : ∃ j', j = j' + 1 := ⟨j - 1, by omega⟩
      have hc := hN1' n (by omega)
      have hw := hN2 n (by omega) j (by omega)
      obtain ⟨n, rfl⟩ : ∃ n', n = n' + 1 := ⟨n - 1, by omega⟩
      rw [whileN_succ]
      crun [hi, hfl, hgr, hr, hbpl, blkOf_heap hb, blkOf_heap hbs, nat_emod (show l.plen < 4294967296 by omega),
        nat_emod (show i < 4294967296 by omega), decide_eq_true (show (i : Int) < l.plen by omega),
        ↓forBody_obind, blkOf_heap hB, hBs, hBc, blkOf_heap hB2, hBs2, hBc2, blkOf_stk stk_get0, hinc, Int.natCast_nonneg, Int.toNat_natCast, scalarSize, hc,
        wrapInt_of hx', step_obind, succ_emod (show i + 1 < 4294967296 by omega),
        nat_emod (show i + 1 < 4294967296 by omega), hw]

/-- group.c:113-130 -/
theorem writeGroupSubChunks_run {q : Ptr} {wc : ID → Addr → M (HX WS) Bool}
    (IH : WriteIH X q inp text wc) {p : Addr} {bp bp' : Int} {s s' : HX WS} {r : Bool}
    (hm : Rep s.mem) (hbp : inInt bp)
    (h : Heap.writeGroupSubChunks X.e wc p bp s = .val ((r, bp'), s')) :
    s'.mem = s.mem ∧ inInt bp' ∧ Runs X .IFF_writeGroupSubChunks
      [.file .out, .ptr (.struct .IFF_Group) ⟨.heap p, 0⟩, .ptr (.struct .IFF_ChunkRegistry) q,
        .ptr (.int .int) ⟨.stk stk.length, 0⟩] (sw X (stk ++ [⟨4, cells [.int .int bp]⟩]) inp text s)
      (truth r) (sw X (stk ++ [⟨4, cells [.int .int bp']⟩]) inp text s') := by
  unfold Heap.writeGroupSubChunks at h
  obtain ⟨g, s1, h1, k1⟩ := bind_inv h
  clear h
  obtain ⟨rfl, -, -, -, -, -, ⟨b, hb1, -, hb2⟩, -⟩ := hgetGrp (X := X) h1
  obtain ⟨hme, hbe, hl⟩ := writeMembers_run (stk := stk) IH hb2 hb1 hm hbp k1 (by omega)
  refine ⟨hme, hbe, ?_⟩
  obtain ⟨loc', N, hN⟩ := hl
    (setLoc (setLoc (setLoc (setLoc (setLoc (setLoc (fun _ => .none) .bytesProcessed (.reg (.ptr (.int .int)) (.ptr (.int .int) ⟨.stk stk.length, 0⟩)))
    .chunkRegistry (.reg (.ptr (.struct .IFF_ChunkRegistry)) (.ptr (.struct .IFF_ChunkRegistry) q)))
    .group (.reg (.ptr (.struct .IFF_Group)) (.ptr (.struct .IFF_Group) ⟨.heap p, 0⟩)))
    .file (.reg (.ptr .file) (.file .out)))
    .i (.reg (.int .uint) .undef)) .i (.reg (.int .uint) (.int .uint 0))) (by simp [setLoc])
    (by simp [setLoc]) (by simp [setLoc]) (by simp [setLoc]) (by simp [setLoc])
  refine ⟨N + 1, fun n hn => ?_⟩
  obtain ⟨n, rfl⟩ : ∃ n', n = n' + 1 := ⟨n - 1, by omega⟩
  have hw := hN n (by omega) n (by omega)
  rw [callFn_code rfl]
  cases r <;> simp only [Bool.false_eq_true, if_false, if_true] at hw <;>
  crun [IFF_writeGroupSubChunks.code, ↓exec_for', hw] <;> rfl

/-- list.c:130-147 -/
theorem writeListPropChunks_run {q : Ptr} {wc : ID → Addr → M (HX WS) Bool}
    (IH : WriteIH X q inp text wc) {p : Addr} {bp bp' : Int} {s s' : HX WS} {r : Bool}
    (hm : Rep s.mem) (hbp : inInt bp)
    (h : Heap.writeListPropChunks X.e wc p bp s = .val ((r, bp'), s')) :
    s'.mem = s.mem ∧ inInt bp' ∧ Runs X .writeListPropChunks
      [.file .out, .ptr (.struct .IFF_List) ⟨.heap p, 0⟩, .ptr (.struct .IFF_ChunkRegistry) q,
        .ptr (.int .int) ⟨.stk stk.length, 0⟩] (sw X (stk ++ [⟨4, cells [.int .int bp]⟩]) inp text s)
      (truth r) (sw X (stk ++ [⟨4, cells [.int .int bp']⟩]) inp text s') := by
  unfold Heap.writeListPropChunks at h
  obtain ⟨g, s1, h1, k1⟩ := bind_inv h
  clear h
  obtain ⟨rfl, -, -, ⟨b, hb1, -, -, hb2⟩, -⟩ := hgetLst (X := X) h1
  obtain ⟨hme, hbe, hl⟩ := writeProps_run (stk := stk) IH hb2 hb1 hm hbp k1 (by omega)
  refine ⟨hme, hbe, ?_⟩
  obtain ⟨loc', N, hN⟩ := hl
    (setLoc (setLoc (setLoc (setLoc (setLoc (setLoc (fun _ => .none) .bytesProcessed (.reg (.ptr (.int .int)) (.ptr (.int .int) ⟨.stk stk.length, 0⟩)))
    .chunkRegistry (.reg (.ptr (.struct .IFF_ChunkRegistry)) (.ptr (.struct .IFF_ChunkRegistry) q)))
    .list (.reg (.ptr (.struct .IFF_List)) (.ptr (.struct .IFF_List) ⟨.heap p, 0⟩)))
    .file (.reg (.ptr .file) (.file .out)))
    .i (.reg (.int .uint) .undef)) .i (.reg (.int .uint) (.int .uint 0))) (by simp [setLoc])
    (by simp [setLoc]) (by simp [setLoc]) (by simp [setLoc]) (by simp [setLoc])
  refine ⟨N + 1, fun n hn => ?_⟩
  obtain ⟨n, rfl⟩ : ∃ n', n = n' + 1 := ⟨n - 1, by omega⟩
  have hw := hN n (by omega) n (by omega)
  rw [callFn_code rfl]
  cases r <;> simp only [Bool.false_eq_true, if_false, if_true] at hw <;>
  crun [writeListPropChunks.code, ↓exec_for', hw] <;> rfl

theorem writeGroupType_step {p : Addr} {attr : String} {bp bp' : Int} {s s' : HX WS} {fs : FieldStatus}
    (hm : Rep s.mem) (hbp : inInt bp)
    (h : Heap.writeGroupType X.e attr p bp s = .val ((fs, bp'), s')) :
    s'.mem = s.mem ∧ inInt bp' ∧ ∃ (g : Grp) (hd : Hdr) (sz : Nat) (rest : List Cell),
      Struct.size X.e .IFF_Group ≤ sz ∧ (∃ b, s.mem p = some b ∧ b.grp? = some g) ∧
      heapOf X.e s.mem p = some ⟨sz, cells (.ptr (.ofAddr hd.parent) :: .int .uint hd.id.toNat ::
        .int .int hd.size :: .int .uint g.ty.toNat :: .int .uint g.len :: .ptr (.ofAddr g.arr) :: rest)⟩ ∧
      ∀ n, callFn X (n + 10) .IFF_writeIdField
        [.file .out, .int .uint g.ty.toNat, .ptr (.struct .IFF_Chunk) ⟨.heap p, 0⟩,
          .str attr, .ptr (.int .int) ⟨.stk stk.length, 0⟩]
        (sw X (stk ++ [⟨4, cells [.int .int bp]⟩]) inp text s) =
      .val (statusVal fs, sw X (stk ++ [⟨4, cells [.int .int bp']⟩]) inp text s') := by
  unfold Heap.writeGroupType at h
  obtain ⟨g, s1, h1, k1⟩ := bind_inv h
  clear h
  obtain ⟨rfl, hd, sz, rest, hz1, hz2, ⟨b, hb1, hb2, hb3⟩, hb⟩ := hgetGrp (X := X) h1
  obtain ⟨hd', s2, h2, k2⟩ := bind_inv k1
  obtain ⟨rfl, -, -, -, ⟨b', hb1', hb2'⟩, -⟩ := hgetHdr (X := X) h2
  rw [hb1] at hb1'; cases hb1'
  rw [hb2] at hb2'; cases hb2'
  obtain ⟨w, h3, rfl⟩ := dev_inv k2
  refine ⟨rfl, ?_, g, hd, sz, rest, hz2, ⟨b, hb1, hb3⟩, hb, fun n =>
    writeIdField_run hb hz1 (hm.hdr hb1 hb2) hbp h3⟩
  unfold writeField at h3
  split at h3
  · obtain ⟨h4, rfl⟩ := pure_inv h3; cases h4; exact hbp
  · obtain ⟨r, w1, h4, k4⟩ := bind_inv h3
    cases r with
    | true => obtain ⟨h5, rfl⟩ := pure_inv k4; cases h5; exact inInt_wrap
    | false => obtain ⟨h5, rfl⟩ := pure_inv k4; cases h5; exact hbp

/-- group.c:132-144 -/
theorem writeGroup_run {q : Ptr} {wc : ID → Addr → M (HX WS) Bool}
    (IH : WriteIH X q inp text wc) {p : Addr} {attr : String} {bp bp' : Int} {s s' : HX WS} {r : Bool}
    (hm : Rep s.mem) (hbp : inInt bp)
    (h : Heap.writeGroup X.e wc attr p bp s = .val ((r, bp'), s')) :
    s'.mem = s.mem ∧ inInt bp' ∧ Runs X .IFF_writeGroup
      [.file .out, .ptr (.struct .IFF_Chunk) ⟨.heap p, 0⟩, .str attr, .ptr (.struct .IFF_ChunkRegistry) q,
        .ptr (.int .int) ⟨.stk stk.length, 0⟩] (sw X (stk ++ [⟨4, cells [.int .int bp]⟩]) inp text s)
      (truth r) (sw X (stk ++ [⟨4, cells [.int .int bp']⟩]) inp text s') := by
  unfold Heap.writeGroup at h
  obtain ⟨⟨fs, bp1⟩, s1, h1, k1⟩ := bind_inv h
  clear h
  obtain ⟨hm1, hi1, g, hd, sz, rest, hz, -, hb, hf⟩ := writeGroupType_step (stk := stk) (inp := inp) (text := text) hm hbp h1
  by_cases hfs : fs = .more
  · subst hfs
    simp only at k1
    obtain ⟨hm2, hi2, N, hN⟩ := writeGroupSubChunks_run (stk := stk) IH (by rw [hm1]; exact hm) hi1 k1
    refine ⟨hm2.trans hm1, hi2, N + 12, fun n hn => ?_⟩
    obtain ⟨n, rfl⟩ : ∃ n', n = n' + 12 := ⟨n - 12, by omega⟩
    have hc := hN (n + 11) (by omega)
    have hf := hf (n + 1)
    rw [callFn_code rfl]
    simp only [statusVal] at hf
    cases r <;> crun [IFF_writeGroup.code, blkOf_heap hb, hz, toNat_emod, hf, IFF_FIELD_MORE, hc] <;> rfl
  · have k1' : (pure (deriveSuccess fs, bp1) : M (HX WS) (Bool × Int)) s1 = .val ((r, bp'), s') := by
      cases fs <;> first | exact k1 | exact absurd rfl hfs
    obtain ⟨h5, rfl⟩ := pure_inv k1'
    cases h5
    refine ⟨hm1, hi1, 12, fun n hn => ?_⟩
    obtain ⟨n, rfl⟩ : ∃ n', n = n' + 12 := ⟨n - 12, by omega⟩
    have hf := hf (n + 1)
    have hdv := @deriveSuccess_run X (n + 10) fs
    rw [callFn_code rfl]
    cases fs
    · exact absurd rfl hfs
    all_goals
      simp only [statusVal] at hf hdv
      crun [IFF_writeGroup.code, blkOf_heap hb, hz, toNat_emod, hf, IFF_FIELD_MORE, hdv]
      try rfl

theorem write_form {q : Ptr} {p : Addr} {g g' : CS} {v : Ptr} {r : Bool}
    (h : Runs X .IFF_writeGroup [.file .out, .ptr (.struct .IFF_Chunk) ⟨.heap p, 0⟩, .str "formType",
      .ptr (.struct .IFF_ChunkRegistry) q, .ptr (.int .int) v] g (truth r) g')
    (hl : g'.stk.length = g.stk.length) :
    Runs X .IFF_writeForm [.file .out, .ptr (.struct .IFF_Chunk) ⟨.heap p, 0⟩,
      .ptr (.struct .IFF_ChunkRegistry) q, .ptr (.int .int) v] g (truth r) g' := by
  obtain ⟨N, hN⟩ := h
  refine ⟨N + 1, fun n hn => ?_⟩
  obtain ⟨n, rfl⟩ : ∃ n', n = n' + 1 := ⟨n - 1, by omega⟩
  have hc := hN n (by omega)
  obtain ⟨heap, tick, stk, inp, out, room, text, log⟩ := g
  obtain ⟨heap', tick', stk', inp', out', room', text', log'⟩ := g'
  simp only at hl
  rw [callFn_code rfl]
  crun [IFF_writeForm.code, FORM_GROUPTYPENAME, hc, ← hl, List.take_length]

theorem write_cat {q : Ptr} {p : Addr} {g g' : CS} {v : Ptr} {r : Bool}
    (h : Runs X .IFF_writeGroup [.file .out, .ptr (.struct .IFF_Chunk) ⟨.heap p, 0⟩, .str "contentsType",
      .ptr (.struct .IFF_ChunkRegistry) q, .ptr (.int .int) v] g (truth r) g')
    (hl : g'.stk.length = g.stk.length) :
    Runs X .IFF_writeCAT [.file .out, .ptr (.struct .IFF_Chunk) ⟨.heap p, 0⟩,
      .ptr (.struct .IFF_ChunkRegistry) q, .ptr (.int .int) v] g (truth r) g' := by
  obtain ⟨N, hN⟩ := h
  refine ⟨N + 1, fun n hn => ?_⟩
  obtain ⟨n, rfl⟩ : ∃ n', n = n' + 1 := ⟨n - 1, by omega⟩
  have hc := hN n (by omega)
  obtain ⟨heap, tick, stk, inp, out, room, text, log⟩ := g
  obtain ⟨heap', tick', stk', inp', out', room', text', log'⟩ := g'
  simp only at hl
  rw [callFn_code rfl]
  crun [IFF_writeCAT.code, CAT_GROUPTYPENAME, hc, ← hl, List.take_length]

theorem write_prop {q : Ptr} {p : Addr} {g g' : CS} {v : Ptr} {r : Bool}
    (h : Runs X .IFF_writeGroup [.file .out, .ptr (.struct .IFF_Chunk) ⟨.heap p, 0⟩, .str "formType",
      .ptr (.struct .IFF_ChunkRegistry) q, .ptr (.int .int) v] g (truth r) g')
    (hl : g'.stk.length = g.stk.length) :
    Runs X .IFF_writeProp [.file .out, .ptr (.struct .IFF_Chunk) ⟨.heap p, 0⟩,
      .ptr (.struct .IFF_ChunkRegistry) q, .ptr (.int .int) v] g (truth r) g' := by
  obtain ⟨N, hN⟩ := write_form h hl
  refine ⟨N + 1, fun n hn => ?_⟩
  obtain ⟨n, rfl⟩ : ∃ n', n = n' + 1 := ⟨n - 1, by omega⟩
  have hc := hN n (by omega)
  obtain ⟨heap, tick, stk, inp, out, room, text, log⟩ := g
  obtain ⟨heap', tick', stk', inp', out', room', text', log'⟩ := g'
  simp only at hl
  rw [callFn_code rfl]
  crun [IFF_writeProp.code, hc, ← hl, List.take_length]

/-- list.c:149-164 -/
theorem writeList_run {q : Ptr} {wc : ID → Addr → M (HX WS) Bool}
    (IH : WriteIH X q inp text wc) {p : Addr} {bp bp' : Int} {s s' : HX WS} {r : Bool}
    (hm : Rep s.mem) (hbp : inInt bp)
    (h : Heap.writeList X.e wc p bp s = .val ((r, bp'), s')) :
    s'.mem = s.mem ∧ inInt bp' ∧ Runs X .IFF_writeList
      [.file .out, .ptr (.struct .IFF_Chunk) ⟨.heap p, 0⟩, .ptr (.struct .IFF_ChunkRegistry) q,
        .ptr (.int .int) ⟨.stk stk.length, 0⟩] (sw X (stk ++ [⟨4, cells [.int .int bp]⟩]) inp text s)
      (truth r) (sw X (stk ++ [⟨4, cells [.int .int bp']⟩]) inp text s') := by
  unfold Heap.writeList at h
  obtain ⟨l, s0, h0, k0⟩ := bind_inv h
  clear h
  obtain ⟨rfl, hd, g, ⟨b, hb1, -, hb2, hb3⟩, hb⟩ := hgetLst (X := X) h0
  obtain ⟨⟨fs, bp1⟩, s1, h1, k1⟩ := bind_inv k0
  clear k0
  obtain ⟨hm1, hi1, g', -, -, -, -, ⟨b', hb1', hb2'⟩, -, hf⟩ := writeGroupType_step (stk := stk) (inp := inp) (text := text) hm hbp h1
  rw [hb1] at hb1'; cases hb1'
  rw [hb2] at hb2'; cases hb2'
  by_cases hfs : fs = .more
  · subst hfs
    simp only at k1
    obtain ⟨⟨ok, bp2⟩, s2, h2, k2⟩ := bind_inv k1
    obtain ⟨hm2, hi2, N, hN⟩ := writeListPropChunks_run (stk := stk) IH (by rw [hm1]; exact hm) hi1 h2
    cases ok with
    | false =>
      simp only [Bool.false_eq_true, if_false] at k2
      obtain ⟨h5, rfl⟩ := pure_inv k2
      cases h5
      refine ⟨hm2.trans hm1, hi2, N + 12, fun n hn => ?_⟩
      obtain ⟨n, rfl⟩ : ∃ n', n = n' + 12 := ⟨n - 12, by omega⟩
      have hc := hN (n + 11) (by omega)
      have hf := hf (n + 1)
      rw [callFn_code rfl]
      simp only [statusVal] at hf
      crun [IFF_writeList.code, blkOf_heap hb, toNat_emod, hf, IFF_FIELD_MORE, hc]
      rfl
    | true =>
      simp only [if_true] at k2
      obtain ⟨hm3, hi3, N2, hN2⟩ := writeGroupSubChunks_run (stk := stk) IH (by rw [hm2, hm1]; exact hm) hi2 k2
      refine ⟨(hm3.trans hm2).trans hm1, hi3, max N N2 + 12, fun n hn => ?_⟩
      obtain ⟨n, rfl⟩ : ∃ n', n = n' + 12 := ⟨n - 12, by omega⟩
      have hc := hN (n + 11) (by omega)
      have hc2 := hN2 (n + 11) (by omega)
      have hf := hf (n + 1)
      rw [callFn_code rfl]
      simp only [statusVal] at hf
      cases r <;> crun [IFF_writeList.code, blkOf_heap hb, toNat_emod, hf, IFF_FIELD_MORE, hc, hc2] <;> rfl
  · have k1' : (pure (deriveSuccess fs, bp1) : M (HX WS) (Bool × Int)) s1 = .val ((r, bp'), s') := by
      cases fs <;> first | exact k1 | exact absurd rfl hfs
    obtain ⟨h5, rfl⟩ := pure_inv k1'
    cases h5
    refine ⟨hm1, hi1, 12, fun n hn => ?_⟩
    obtain ⟨n, rfl⟩ : ∃ n', n = n' + 12 := ⟨n - 12, by omega⟩
    have hf := hf (n + 1)
    have hdv := @deriveSuccess_run X (n + 10) fs
    rw [callFn_code rfl]
    cases fs
    · exact absurd rfl hfs
    all_goals
      simp only [statusVal] at hf hdv
      crun [IFF_writeList.code, blkOf_heap hb, toNat_emod, hf, IFF_FIELD_MORE, hdv]
      try rfl

theorem ofInt_toInt {x : Int} (h : inInt x) : (BitVec.ofInt 32 x).toInt = x := by
  rw [BitVec.toInt_ofInt, Int.bmod_def]
  simp only [inInt] at h
  omega

/-- chunk.c:80-95 -/
theorem writeChunk_run {q : Ptr} {r : Registry} (hr : RegAt X q r) : ∀ {k : Nat},
    WriteIH X q inp text (Heap.writeChunk X.alloc X.e r k) := by
  intro k
  induction k with
  | zero => intro stk ft c s s' b _ h; cases h
  | succ k ih =>
    intro stk ft c s s' res hm h
    unfold Heap.writeChunk at h
    obtain ⟨hd, s1, h1, k1⟩ := bind_inv h
    clear h
    obtain ⟨rfl, sz, rest, hz, ⟨b, hb1, hb2⟩, hb⟩ := hgetHdr (X := X) h1
    have hs := hm.hdr hb1 hb2
    have again : ∀ {s2 s3 : HX WS} {hd' : Hdr}, s2.mem = s1.mem →
        Heap.heap (Heap.getHdr c) s2 = .val (hd', s3) → s3 = s2 ∧ hd' = hd := by
      intro s2 s3 hd' hme hh
      obtain ⟨rfl, -, -, -, ⟨b', hb1', hb2'⟩, -⟩ := hgetHdr (X := X) hh
      rw [hme, hb1] at hb1'; cases hb1'
      rw [hb2] at hb2'; cases hb2'
      exact ⟨rfl, rfl⟩
    unfold Heap.writeChunkWith at k1
    obtain ⟨hd2, s2, h2, k2⟩ := bind_inv k1
    clear k1
    obtain ⟨rfl, rfl⟩ := again rfl h2
    obtain ⟨r3, s3, h3, k3⟩ := bind_inv k2
    obtain ⟨w3, h3', rfl⟩ := dev_inv h3
    have hid := fun n => writeId_run (X := X) (n := n) (stk := stk) (inp := inp) (text := text) h3'
    cases r3 with
    | false =>
      simp only [Bool.false_eq_true, if_false] at k3
      obtain ⟨rfl, rfl⟩ := pure_inv k3
      refine ⟨rfl, 10, fun n hn => ?_⟩
      obtain ⟨n, rfl⟩ : ∃ n', n = n' + 10 := ⟨n - 10, by omega⟩
      rw [callFn_code rfl]
      crun [IFF_writeChunk.code, blkOf_heap hb, hz, toNat_emod, hid, List.take_length]
    | true =>
      simp only [if_true] at k3
      obtain ⟨hd4, s4, h4, k4⟩ := bind_inv k3
      obtain ⟨rfl, rfl⟩ := again (s2 := ⟨s2.mem, s2.tick, w3⟩) rfl h4
      obtain ⟨r5, s5, h5, k5⟩ := bind_inv k4
      obtain ⟨w5, h5', rfl⟩ := dev_inv h5
      have hlong := fun n => writeLong_run (X := X) (n := n) (stk := stk) (inp := inp) (text := text) (s := ⟨s2.mem, s2.tick, w3⟩) h5'
      simp only [ofInt_toInt hs] at hlong
      cases r5 with
      | false =>
        simp only [Bool.false_eq_true, if_false] at k5
        obtain ⟨rfl, rfl⟩ := pure_inv k5
        refine ⟨rfl, 10, fun n hn => ?_⟩
        obtain ⟨n, rfl⟩ : ∃ n', n = n' + 10 := ⟨n - 10, by omega⟩
        have hlong := hlong (n + 1)
        rw [callFn_code rfl]
        crun [IFF_writeChunk.code, blkOf_heap hb, hz, toNat_emod, wrapInt_of hs, hid, hlong, List.take_length]
      | true =>
        simp only [if_true] at k5
        obtain ⟨⟨ok, bp⟩, s6, h6, k6⟩ := bind_inv k5
        obtain ⟨fns, hf, hfind⟩ := find_run hr ft hd4.id
        have key : ∃ f, fns[2]? = some f ∧ s6.mem = s2.mem ∧ inInt bp ∧ Runs X f [.file .out,
            .ptr (.struct .IFF_Chunk) ⟨.heap c, 0⟩, .ptr (.struct .IFF_ChunkRegistry) q,
            .ptr (.int .int) ⟨.stk stk.length, 0⟩]
            (sw X (stk ++ [⟨4, cells [.int .int 0]⟩]) inp text ⟨s2.mem, s2.tick, w5⟩) (truth ok)
            (sw X (stk ++ [⟨4, cells [.int .int bp]⟩]) inp text s6) := by
          have h0 : inInt 0 := by simp only [inInt]; omega
          cases hh : findChunkType r ft hd4.id <;> rw [hh] at h6 hf <;> cases hf <;>
            refine ⟨_, rfl, ?_⟩
          · obtain ⟨ha, hb, -⟩ := writeRawChunk_run (n := 0) (q := q) (stk := stk) (inp := inp) (text := text) (s := ⟨s2.mem, s2.tick, w5⟩) hm h0 h6
            refine ⟨ha, hb, 7, fun n hn => ?_⟩
            obtain ⟨n, rfl⟩ : ∃ n', n = n' + 7 := ⟨n - 7, by omega⟩
            exact (writeRawChunk_run (s := ⟨s2.mem, s2.tick, w5⟩) hm h0 h6).2.2
          · obtain ⟨ha, hb, hc⟩ := writeGroup_run (stk := stk) (s := ⟨s2.mem, s2.tick, w5⟩) ih hm h0 h6
            exact ⟨ha, hb, write_form hc (by simp)⟩
          · obtain ⟨ha, hb, hc⟩ := writeGroup_run (stk := stk) (s := ⟨s2.mem, s2.tick, w5⟩) ih hm h0 h6
            exact ⟨ha, hb, write_cat hc (by simp)⟩
          · exact writeList_run (stk := stk) (s := ⟨s2.mem, s2.tick, w5⟩) ih hm h0 h6
          · obtain ⟨ha, hb, hc⟩ := writeGroup_run (stk := stk) (s := ⟨s2.mem, s2.tick, w5⟩) ih hm h0 h6
            exact ⟨ha, hb, write_prop hc (by simp)⟩
          · obtain ⟨ha, hb, -⟩ := writeHello_run (n := 0) (q := q) (stk := stk) (inp := inp) (text := text) (s := ⟨s2.mem, s2.tick, w5⟩) hm h6
            refine ⟨ha, hb, 13, fun n hn => ?_⟩
            obtain ⟨n, rfl⟩ : ∃ n', n = n' + 13 := ⟨n - 13, by omega⟩
            exact (writeHello_run (s := ⟨s2.mem, s2.tick, w5⟩) hm h6).2.2
          · obtain ⟨ha, hb, -⟩ := writeBye_run (n := 0) (q := q) (stk := stk) (inp := inp) (text := text) (s := ⟨s2.mem, s2.tick, w5⟩) hm h6
            refine ⟨ha, hb, 13, fun n hn => ?_⟩
            obtain ⟨n, rfl⟩ : ∃ n', n = n' + 13 := ⟨n - 13, by omega⟩
            exact (writeBye_run (s := ⟨s2.mem, s2.tick, w5⟩) hm h6).2.2
        obtain ⟨f, hf2, hm6, hbp, N, hN⟩ := key
        have body : s'.mem = s2.mem ∧ Runs X .writeChunkBody [.file .out, .ptr (.struct .IFF_Chunk) ⟨.heap c, 0⟩,
            .int .uint ft.toNat, .ptr (.struct .IFF_ChunkRegistry) q]
            (sw X stk inp text ⟨s2.mem, s2.tick, w5⟩) (truth res) (sw X stk inp text s') := by
          have hb6 := hb
          rw [← hm6] at hb6
          cases ok with
          | false =>
            simp only [Bool.false_eq_true, if_false] at k6
            obtain ⟨rfl, rfl⟩ := pure_inv k6
            refine ⟨hm6, max N (Registry.depth r + 4) + 1, fun n hn => ?_⟩
            obtain ⟨n, rfl⟩ : ∃ n', n = n' + 1 := ⟨n - 1, by omega⟩
            have hcl := hN n (by omega)
            obtain ⟨kk, jj, B, hq2, hi, hmo, hfs⟩ := hfind (sw X stk inp text ⟨s2.mem, s2.tick, w5⟩) n (by omega)
            have hcell := hfs 2 f hf2
            have hmo := hmo .writeExtensionChunkFields 3 rfl
            rw [callFn_code rfl]
            crun [writeChunkBody.code, Ty.size, scalarSize, ITy.bits, blkOf_heap hb, hz, toNat_emod, hq2, hmo, blkOf_static hi, hcell, stk_push1, hcl, stk_take0]
            try rfl
          | true =>
            simp only [if_true] at k6
            obtain ⟨hd7, s7, h7, k7⟩ := bind_inv k6
            obtain ⟨rfl, rfl⟩ := again hm6 h7
            obtain ⟨r8, s8, h8, k8⟩ := bind_inv k7
            have hzf := fun n => writeZeroFillerBytes_run (X := X) (n := n) (stk := stk ++ [⟨4, cells [.int .int bp]⟩]) (inp := inp) (text := text) hs hbp h8
            have hm8 := (hzf 0).1
            have hzf := fun n => (hzf n).2
            cases r8 with
            | false =>
              simp only [Bool.false_eq_true, if_false] at k8
              obtain ⟨rfl, rfl⟩ := pure_inv k8
              refine ⟨hm8.trans hm6, max N (Registry.depth r + 4) + 8, fun n hn => ?_⟩
              obtain ⟨n, rfl⟩ : ∃ n', n = n' + 8 := ⟨n - 8, by omega⟩
              have hcl := hN (n + 7) (by omega)
              obtain ⟨kk, jj, B, hq2, hi, hmo, hfs⟩ := hfind (sw X stk inp text ⟨s2.mem, s2.tick, w5⟩) (n + 7) (by omega)
              have hcell := hfs 2 f hf2
              have hmo := hmo .writeExtensionChunkFields 3 rfl
              rw [callFn_code rfl]
              crun [writeChunkBody.code, Ty.size, scalarSize, ITy.bits, blkOf_heap hb, blkOf_heap hb6, hz, toNat_emod, hq2, hmo, blkOf_static hi, hcell, stk_push1, hcl, blkOf_stk stk_get0, wrapInt_of hs, wrapInt_of hbp, hzf, stk_take0]
              try rfl
            | true =>
              simp only [if_true] at k8
              obtain ⟨hd9, s9, h9, k9⟩ := bind_inv k8
              have hm86 := hm8.trans hm6
              obtain ⟨rfl, rfl⟩ := again hm86 h9
              obtain ⟨w10, h10, rfl⟩ := dev_inv k9
              have hpad := fun n => writePaddingByte_run (X := X) (n := n) (stk := stk ++ [⟨4, cells [.int .int bp]⟩]) (inp := inp) (text := text) hs h10
              have hb9 := hb
              rw [← hm86] at hb9
              refine ⟨hm86, max N (Registry.depth r + 4) + 8, fun n hn => ?_⟩
              obtain ⟨n, rfl⟩ : ∃ n', n = n' + 8 := ⟨n - 8, by omega⟩
              have hcl := hN (n + 7) (by omega)
              obtain ⟨kk, jj, B, hq2, hi, hmo, hfs⟩ := hfind (sw X stk inp text ⟨s2.mem, s2.tick, w5⟩) (n + 7) (by omega)
              have hcell := hfs 2 f hf2
              have hmo := hmo .writeExtensionChunkFields 3 rfl
              rw [callFn_code rfl]
              crun [writeChunkBody.code, Ty.size, scalarSize, ITy.bits, blkOf_heap hb, blkOf_heap hb6, blkOf_heap hb9, hz, toNat_emod, hq2, hmo, blkOf_static hi, hcell, stk_push1, hcl, blkOf_stk stk_get0, wrapInt_of hs, wrapInt_of hbp, hzf, hpad, stk_take0]
              try rfl
        obtain ⟨hme, N2, hN2⟩ := body
        refine ⟨hme, N2 + 10, fun n hn => ?_⟩
        obtain ⟨n, rfl⟩ : ∃ n', n = n' + 10 := ⟨n - 10, by omega⟩
        have hc := hN2 (n + 9) (by omega)
        have hlong := hlong (n + 1)
        rw [callFn_code rfl]
        crun [IFF_writeChunk.code, blkOf_heap hb, hz, toNat_emod, wrapInt_of hs, hid, hlong, hc, List.take_length]

/-- iff.c:93-96 -/
theorem writeFd_run (hX : X.Linked) {reg : Option Registry} {q : Ptr} (hq : RegArg X reg q)
    {k : Nat} {p : Addr} {s s' : HX WS} {r : Bool} (hm : Rep s.mem)
    (h : Heap.writeFd X.alloc X.e reg k p s = .val (r, s')) : s'.mem = s.mem ∧
    Runs X .IFF_writeFd [.file .out, .ptr (.struct .IFF_Chunk) ⟨.heap p, 0⟩, .ptr (.struct .IFF_ChunkRegistry) q]
      (sw X stk inp text s) (truth r) (sw X stk inp text s') := by
  unfold Heap.writeFd at h
  obtain ⟨q', hr, hsel⟩ := select_run hX hq
  obtain ⟨hme, N, hN⟩ := writeChunk_run (stk := stk) (inp := inp) (text := text) hr hm h
  have hN' : ∀ n, N ≤ n → callFn X n .IFF_writeChunk [.file .out, .ptr (.struct .IFF_Chunk) ⟨.heap p, 0⟩,
      .int .int 0, .ptr (.struct .IFF_ChunkRegistry) q'] (sw X stk inp text s) =
      .val (truth r, sw X stk inp text s') := fun n hn => by
    rw [← hN n hn]; exact callFn_args rfl rfl
  refine ⟨hme, N + 2, fun n hn => ?_⟩
  obtain ⟨n, rfl⟩ : ∃ n', n = n' + 2 := ⟨n - 2, by omega⟩
  have hr := hN' (n + 1) (by omega)
  rw [callFn_code rfl]
  crun [IFF_writeFd.code, hsel, hr, List.take_length]

end

end Iff.Src
