import Verif.Proofs.SrcWalk
import Verif.Heap.Lookup
/-
  Looking up chunks: form.c:242-314, list.c:295-306, prop.c:106-109.
-/
namespace Iff.Src
set_option maxRecDepth 4000
open Heap (Addr Block Mem HS Hdr Grp Lst)

section
variable {X : Cfg} {room : Nat} {stk : List Blk} {out text : List Byte}

theorem id_ne {a b : ID} (h : ¬ a = b) : ((a.toNat : Int) == b.toNat) = false :=
  beq_eq_false_iff_ne.mpr fun h' => h (BitVec.eq_of_toNat_eq (by omega))

theorem addr_ne {a : Addr} (h : ¬ a = 0) : ((Ptr.ofAddr a) == Ptr.null) = false := by
  simp [Ptr.ofAddr, Ptr.null, h]

/-- form.c:295-299 -/
theorem findMember_run {p : Addr} {cid : ID} {s : HS} (hm : Rep s.mem) {b : Block}
    {g : Grp} (hb1 : s.mem p = some b) (hb2 : b.grp? = some g) :
    ∀ {k i : Nat} {s' : HS} {r : Addr}, Heap.findMember cid p k i s = .val (r, s') →
      g.len = i + k → s' = s ∧ ∀ loc : Var → Slot,
        loc .i = .reg (.int .uint) (.int .uint i) →
        loc .form = .reg (.ptr (.struct .IFF_Form)) (.ptr (.struct .IFF_Form) ⟨.heap p, 0⟩) →
        loc .chunkId = .reg (.int .uint) (.int .uint cid.toNat) →
        ∃ loc' N, ∀ n, N ≤ n → ∀ j, N ≤ j → ∃ fl,
        whileN (evalC X (callFn X n) (.bin .lt (.var .i) (.arrow (.var .form) .chunkLength)))
          (forBody X (callFn X n) n
            (.ite (.bin .eq (.arrow (.index (.arrow (.var .form) .chunk) (.var .i)) .chunkId) (.var .chunkId))
              (.ret (.index (.arrow (.var .form) .chunk) (.var .i)))
              .skip)
            (.inc (.var .i))) j ⟨loc, st X stk out room text s⟩ =
          .val (fl, ⟨loc', st X stk out room text s⟩) ∧
          (fl = .norm ∧ r = 0 ∨ fl = .ret (.ptr (.struct .IFF_Chunk) ⟨.heap r, 0⟩)) := by
  obtain ⟨hd, sz, rest, -, -, hz, hly, -⟩ := grp_layout X hb2
  have hb := heapOf_some (e := X.e) hb1
  rw [hly] at hb
  have hg := hm.grp hb1 hb2
  intro k
  induction k with
  | zero =>
    intro i s' r h hl
    obtain ⟨rfl, rfl⟩ := pure_inv h
    refine ⟨rfl, fun loc hi hgr hr => ⟨loc, 1, fun n hn j hj => ⟨.norm, ?_, .inl ⟨rfl, rfl⟩⟩⟩⟩
    obtain ⟨j, rfl⟩ : ∃ j', j = j' + 1 := ⟨j - 1, by omega⟩
    rw [whileN_succ]
    crun [hi, hgr, hr, blkOf_heap hb, hz, nat_emod (show g.len < 4294967296 by omega),
      nat_emod (show i < 4294967296 by omega), decide_eq_false (show ¬ (i : Int) < g.len by omega), if_true]
  | succ k ih =>
    intro i s' r h hl
    unfold Heap.findMember at h
    obtain ⟨g1, s1, h1, k1⟩ := bind_inv h
    clear h
    obtain ⟨⟨b', hb1', hb2'⟩, rfl⟩ := getGrp_inv h1
    rw [hb1] at hb1'; cases hb1'
    rw [hb2] at hb2'; cases hb2'
    obtain ⟨c, s2, h2, k2⟩ := bind_inv k1
    obtain ⟨rfl, B, hB, hBs, hBc⟩ := getPtr_step (X := X) h2
    obtain ⟨hc, s3, h3, k3⟩ := bind_inv k2
    obtain ⟨rfl, szc, restc, hzc, hbc⟩ := getHdr_step (X := X) h3
    by_cases he : hc.id = cid
    · rw [if_pos he] at k3
      obtain ⟨rfl, rfl⟩ := pure_inv k3
      subst he
      refine ⟨rfl, fun loc hi hgr hr => ⟨loc, 1, fun n hn j hj => ⟨_, ?_, .inr rfl⟩⟩⟩
      obtain ⟨j, rfl⟩ : ∃ j', j = j' + 1 := ⟨j - 1, by omega⟩
      rw [whileN_succ]
      crun [hi, hgr, hr, blkOf_heap hb, hz, nat_emod (show g.len < 4294967296 by omega),
        nat_emod (show i < 4294967296 by omega), decide_eq_true (show (i : Int) < g.len by omega),
        ↓forBody_obind, blkOf_heap hB, hBs, hBc, Int.natCast_nonneg, Int.toNat_natCast, scalarSize,
        blkOf_heap hbc, hzc, toNat_emod, beq_self_eq_true, step_obind]
    · rw [if_neg he] at k3
      obtain ⟨rfl, ih'⟩ := ih k3 (by omega)
      refine ⟨rfl, fun loc hi hgr hr => ?_⟩
      obtain ⟨loc', N2, hN2⟩ := ih' (setLoc loc .i (.reg (.int .uint) (.int .uint ((i + 1 : Nat) : Int))))
        (by simp [setLoc]) (by simp [setLoc, hgr]) (by simp [setLoc, hr])
      refine ⟨loc', N2 + 1, fun n hn j hj => ?_⟩
      obtain ⟨j, rfl⟩ : ∃ j', j = j' + 1 := ⟨j - 1, by omega⟩
      obtain ⟨fl, hw, hfl⟩ := hN2 n (by omega) j (by omega)
      refine ⟨fl, ?_, hfl⟩
      rw [whileN_succ]
      crun [hi, hgr, hr, blkOf_heap hb, hz, nat_emod (show g.len < 4294967296 by omega),
        nat_emod (show i < 4294967296 by omega), decide_eq_true (show (i : Int) < g.len by omega),
        ↓forBody_obind, blkOf_heap hB, hBs, hBc, Int.natCast_nonneg, Int.toNat_natCast, scalarSize,
        blkOf_heap hbc, hzc, toNat_emod, id_ne he, step_obind, succ_emod (show i + 1 < 4294967296 by omega),
        nat_emod (show i + 1 < 4294967296 by omega), hw]

/-- form.c:291-302 -/
theorem getDataChunk_run {p r : Addr} {cid : ID} {s s' : HS} (hm : Rep s.mem)
    (h : Heap.getDataChunk p cid s = .val (r, s')) : s' = s ∧
    Runs X .IFF_getDataChunkFromForm [.ptr (.struct .IFF_Form) ⟨.heap p, 0⟩, .int .uint cid.toNat]
      (st X stk out room text s) (.ptr (.struct .IFF_Chunk) ⟨.heap r, 0⟩) (st X stk out room text s) := by
  unfold Heap.getDataChunk at h
  obtain ⟨g, s1, h1, k1⟩ := bind_inv h
  clear h
  obtain ⟨rfl, hd, sz, rest, -, hz, ⟨b, hb1, -, hb2⟩, hb⟩ := getGrp_step (X := X) h1
  obtain ⟨rfl, hl⟩ := findMember_run (X := X) (stk := stk) (out := out) (room := room) (text := text) hm hb1 hb2 k1 (by omega)
  refine ⟨rfl, ?_⟩
  obtain ⟨loc', N, hN⟩ := hl
    (setLoc (setLoc (setLoc (setLoc (fun _ => .none) .chunkId (.reg (.int .uint) (.int .uint cid.toNat)))
    .form (.reg (.ptr (.struct .IFF_Form)) (.ptr (.struct .IFF_Form) ⟨.heap p, 0⟩)))
    .i (.reg (.int .uint) .undef)) .i (.reg (.int .uint) (.int .uint 0))) (by simp [setLoc])
    (by simp [setLoc]) (by simp [setLoc])
  refine ⟨N + 1, fun n hn => ?_⟩
  obtain ⟨n, rfl⟩ : ∃ n', n = n' + 1 := ⟨n - 1, by omega⟩
  obtain ⟨fl, hw, hfl⟩ := hN n (by omega) n (by omega)
  rw [callFn_code rfl]
  rcases hfl with ⟨rfl, rfl⟩ | rfl <;>
  crun [IFF_getDataChunkFromForm.code, toNat_emod, ↓exec_for', hw, List.take_length]

/-- prop.c:106-109 -/
theorem getChunkFromProp_run {p r : Addr} {cid : ID} {s s' : HS} (hm : Rep s.mem)
    (h : Heap.getDataChunk p cid s = .val (r, s')) : s' = s ∧
    Runs X .IFF_getChunkFromProp [.ptr (.struct .IFF_Form) ⟨.heap p, 0⟩, .int .uint cid.toNat]
      (st X stk out room text s) (.ptr (.struct .IFF_Chunk) ⟨.heap r, 0⟩) (st X stk out room text s) := by
  obtain ⟨rfl, N, hN⟩ := getDataChunk_run (X := X) (stk := stk) (out := out) (room := room) (text := text) hm h
  refine ⟨rfl, N + 1, fun n hn => ?_⟩
  obtain ⟨n, rfl⟩ : ∃ n', n = n' + 1 := ⟨n - 1, by omega⟩
  have hc := hN n (by omega)
  rw [callFn_code rfl]
  crun [IFF_getChunkFromProp.code, toNat_emod, hc, List.take_length]

/-- list.c:299-303 -/
theorem findProp_run {p : Addr} {ft : ID} {s : HS} (hm : Rep s.mem) {b : Block}
    {l : Lst} (hb1 : s.mem p = some b) (hb2 : b.lst? = some l) :
    ∀ {k i : Nat} {s' : HS} {r : Addr}, Heap.findProp ft p k i s = .val (r, s') →
      l.plen = i + k → s' = s ∧ ∀ loc : Var → Slot,
        loc .i = .reg (.int .uint) (.int .uint i) →
        loc .«list» = .reg (.ptr (.struct .IFF_List)) (.ptr (.struct .IFF_List) ⟨.heap p, 0⟩) →
        loc .formType = .reg (.int .uint) (.int .uint ft.toNat) →
        ∃ loc' N, ∀ n, N ≤ n → ∀ j, N ≤ j → ∃ fl,
        whileN (evalC X (callFn X n) (.bin .lt (.var .i) (.arrow (.var .«list») .propLength)))
          (forBody X (callFn X n) n
            (.ite (.bin .eq (.arrow (.index (.arrow (.var .«list») .prop) (.var .i)) .formType) (.var .formType))
              (.ret (.index (.arrow (.var .«list») .prop) (.var .i)))
              .skip)
            (.inc (.var .i))) j ⟨loc, st X stk out room text s⟩ =
          .val (fl, ⟨loc', st X stk out room text s⟩) ∧
          (fl = .norm ∧ r = 0 ∨ fl = .ret (.ptr (.struct .IFF_Form) ⟨.heap r, 0⟩)) := by
  obtain ⟨hd, g, -, -, hly, -⟩ := lst_layout X hb2
  have hb := heapOf_some (e := X.e) hb1
  rw [hly] at hb
  have hg := hm.lst hb1 hb2
  intro k
  induction k with
  | zero =>
    intro i s' r h hl
    obtain ⟨rfl, rfl⟩ := pure_inv h
    refine ⟨rfl, fun loc hi hgr hr => ⟨loc, 1, fun n hn j hj => ⟨.norm, ?_, .inl ⟨rfl, rfl⟩⟩⟩⟩
    obtain ⟨j, rfl⟩ : ∃ j', j = j' + 1 := ⟨j - 1, by omega⟩
    rw [whileN_succ]
    crun [hi, hgr, hr, blkOf_heap hb, nat_emod (show l.plen < 4294967296 by omega),
      nat_emod (show i < 4294967296 by omega), decide_eq_false (show ¬ (i : Int) < l.plen by omega), if_true]
  | succ k ih =>
    intro i s' r h hl
    unfold Heap.findProp at h
    obtain ⟨g1, s1, h1, k1⟩ := bind_inv h
    clear h
    obtain ⟨⟨b', hb1', hb2'⟩, rfl⟩ := getLst_inv h1
    rw [hb1] at hb1'; cases hb1'
    rw [hb2] at hb2'; cases hb2'
    obtain ⟨c, s2, h2, k2⟩ := bind_inv k1
    obtain ⟨rfl, B, hB, hBs, hBc⟩ := getPtr_step (X := X) h2
    obtain ⟨gc, s3, h3, k3⟩ := bind_inv k2
    obtain ⟨rfl, hdc, szc, restc, -, hzc, -, hbc⟩ := getGrp_step (X := X) h3
    by_cases he : gc.ty = ft
    · rw [if_pos he] at k3
      obtain ⟨rfl, rfl⟩ := pure_inv k3
      subst he
      refine ⟨rfl, fun loc hi hgr hr => ⟨loc, 1, fun n hn j hj => ⟨_, ?_, .inr rfl⟩⟩⟩
      obtain ⟨j, rfl⟩ : ∃ j', j = j' + 1 := ⟨j - 1, by omega⟩
      rw [whileN_succ]
      crun [hi, hgr, hr, blkOf_heap hb, nat_emod (show l.plen < 4294967296 by omega),
        nat_emod (show i < 4294967296 by omega), decide_eq_true (show (i : Int) < l.plen by omega),
        ↓forBody_obind, blkOf_heap hB, hBs, hBc, Int.natCast_nonneg, Int.toNat_natCast, scalarSize,
        blkOf_heap hbc, hzc, toNat_emod, beq_self_eq_true, step_obind]
    · rw [if_neg he] at k3
      obtain ⟨rfl, ih'⟩ := ih k3 (by omega)
      refine ⟨rfl, fun loc hi hgr hr => ?_⟩
      obtain ⟨loc', N2, hN2⟩ := ih' (setLoc loc .i (.reg (.int .uint) (.int .uint ((i + 1 : Nat) : Int))))
        (by simp [setLoc]) (by simp [setLoc, hgr]) (by simp [setLoc, hr])
      refine ⟨loc', N2 + 1, fun n hn j hj => ?_⟩
      obtain ⟨j, rfl⟩ : ∃ j', j = j' + 1 := ⟨j - 1, by omega⟩
      obtain ⟨fl, hw, hfl⟩ := hN2 n (by omega) j (by omega)
      refine ⟨fl, ?_, hfl⟩
      rw [whileN_succ]
      crun [hi, hgr, hr, blkOf_heap hb, nat_emod (show l.plen < 4294967296 by omega),
        nat_emod (show i < 4294967296 by omega), decide_eq_true (show (i : Int) < l.plen by omega),
        ↓forBody_obind, blkOf_heap hB, hBs, hBc, Int.natCast_nonneg, Int.toNat_natCast, scalarSize,
        blkOf_heap hbc, hzc, toNat_emod, id_ne he, step_obind, succ_emod (show i + 1 < 4294967296 by omega),
        nat_emod (show i + 1 < 4294967296 by omega), hw]

/-- list.c:295-306 -/
theorem getProp_run {p r : Addr} {ft : ID} {s s' : HS} (hm : Rep s.mem)
    (h : Heap.getProp p ft s = .val (r, s')) : s' = s ∧
    Runs X .IFF_getPropFromList [.ptr (.struct .IFF_List) ⟨.heap p, 0⟩, .int .uint ft.toNat]
      (st X stk out room text s) (.ptr (.struct .IFF_Form) ⟨.heap r, 0⟩) (st X stk out room text s) := by
  unfold Heap.getProp at h
  obtain ⟨g, s1, h1, k1⟩ := bind_inv h
  clear h
  obtain ⟨rfl, hd, g0, ⟨b, hb1, -, -, hb2⟩, hb⟩ := getLst_step (X := X) h1
  obtain ⟨rfl, hl⟩ := findProp_run (X := X) (stk := stk) (out := out) (room := room) (text := text) hm hb1 hb2 k1 (by omega)
  refine ⟨rfl, ?_⟩
  obtain ⟨loc', N, hN⟩ := hl
    (setLoc (setLoc (setLoc (setLoc (fun _ => .none) .formType (.reg (.int .uint) (.int .uint ft.toNat)))
    .«list» (.reg (.ptr (.struct .IFF_List)) (.ptr (.struct .IFF_List) ⟨.heap p, 0⟩)))
    .i (.reg (.int .uint) .undef)) .i (.reg (.int .uint) (.int .uint 0))) (by simp [setLoc])
    (by simp [setLoc]) (by simp [setLoc])
  refine ⟨N + 1, fun n hn => ?_⟩
  obtain ⟨n, rfl⟩ : ∃ n', n = n' + 1 := ⟨n - 1, by omega⟩
  obtain ⟨fl, hw, hfl⟩ := hN n (by omega) n (by omega)
  rw [callFn_code rfl]
  rcases hfl with ⟨rfl, rfl⟩ | rfl <;>
  crun [IFF_getPropFromList.code, toNat_emod, ↓exec_for', hw, List.take_length]

/-- form.c:242-255 -/
theorem searchList_run : ∀ {k : Nat} {p r : Addr} {s s' : HS}, Parented s.mem →
    Heap.searchList k p s = .val (r, s') → s' = s ∧
    Runs X .searchList [.ptr (.struct .IFF_Chunk) ⟨.heap p, 0⟩]
      (st X stk out room text s) (.ptr (.struct .IFF_List) ⟨.heap r, 0⟩) (st X stk out room text s) := by
  intro k
  induction k with
  | zero => intro p r s s' _ h; cases h
  | succ k ih =>
    intro p r s s' hP h
    unfold Heap.searchList at h
    obtain ⟨hp, s1, h1, k1⟩ := bind_inv h
    clear h
    obtain ⟨rfl, sz, rest, hz, ⟨bp, hbp, hbp'⟩, hb⟩ := getHdr_step' (X := X) h1
    by_cases h0 : hp.parent = 0
    · rw [if_pos h0] at k1
      obtain ⟨rfl, rfl⟩ := pure_inv k1
      refine ⟨rfl, 1, fun n hn => ?_⟩
      obtain ⟨n, rfl⟩ : ∃ n', n = n' + 1 := ⟨n - 1, by omega⟩
      rw [callFn_code rfl]
      crun [searchList.code, blkOf_heap hb, hz, h0, List.take_length, beq_self_eq_true]
    · rw [if_neg h0] at k1
      obtain ⟨hq, s2, h2, k2⟩ := bind_inv k1
      obtain ⟨⟨b2, hb2, hb2'⟩, rfl⟩ := getHdr_inv h2
      obtain ⟨b3, g3, hb3, hb3'⟩ := hP _ _ _ hbp hbp' h0
      rw [hb2] at hb3; cases hb3
      obtain ⟨hd4, sz2, rest2, hh4, -, hz2, hly, -⟩ := grp_layout X hb3'
      rw [hb2'] at hh4; cases hh4
      have hb2 := heapOf_some (e := X.e) hb2
      rw [hly] at hb2
      by_cases hl : hq.id = idLIST
      · rw [if_pos hl] at k2
        obtain ⟨rfl, rfl⟩ := pure_inv k2
        refine ⟨rfl, 1, fun n hn => ?_⟩
        obtain ⟨n, rfl⟩ : ∃ n', n = n' + 1 := ⟨n - 1, by omega⟩
        rw [callFn_code rfl]
        crun [searchList.code, blkOf_heap hb, hz, addr_ne h0, Bool.false_eq_true, if_false, blkOf_heap hb2, hz2, toNat_emod, hl, ↓evalE_LIST, List.take_length, beq_self_eq_true]
      · rw [if_neg hl] at k2
        obtain ⟨rfl, N, hN⟩ := ih hP k2
        refine ⟨rfl, N + 1, fun n hn => ?_⟩
        obtain ⟨n, rfl⟩ : ∃ n', n = n' + 1 := ⟨n - 1, by omega⟩
        have hc := hN n (by omega)
        rw [callFn_code rfl]
        crun [searchList.code, blkOf_heap hb, hz, addr_ne h0, Bool.false_eq_true, if_false, blkOf_heap hb2, hz2, toNat_emod, ↓evalE_LIST, id_ne hl, hc, List.take_length]

/-- form.c:265-289 -/
theorem searchProperty_run {ft cid : ID} : ∀ {k : Nat} {p r : Addr} {s s' : HS}, Rep s.mem → Parented s.mem →
    Heap.searchProperty ft cid k p s = .val (r, s') → s' = s ∧
    Runs X .searchProperty [.ptr (.struct .IFF_Chunk) ⟨.heap p, 0⟩, .int .uint ft.toNat, .int .uint cid.toNat]
      (st X stk out room text s) (.ptr (.struct .IFF_Chunk) ⟨.heap r, 0⟩) (st X stk out room text s) := by
  intro k
  induction k with
  | zero => intro p r s s' _ _ h; cases h
  | succ k ih =>
    intro p r s s' hm hP h
    unfold Heap.searchProperty at h
    obtain ⟨l, s1, h1, k1⟩ := bind_inv h
    clear h
    obtain ⟨rfl, N1, hN1⟩ := searchList_run (X := X) (stk := stk) (out := out) (room := room) (text := text) hP h1
    by_cases h0 : l = 0
    · rw [if_pos h0] at k1
      obtain ⟨rfl, rfl⟩ := pure_inv k1
      subst h0
      refine ⟨rfl, N1 + 1, fun n hn => ?_⟩
      obtain ⟨n, rfl⟩ : ∃ n', n = n' + 1 := ⟨n - 1, by omega⟩
      have hc := hN1 n (by omega)
      rw [callFn_code rfl]
      crun [searchProperty.code, toNat_emod, hc, List.take_length, beq_self_eq_true]
    · rw [if_neg h0] at k1
      obtain ⟨q, s2, h2, k2⟩ := bind_inv k1
      obtain ⟨rfl, N2, hN2⟩ := getProp_run (X := X) (stk := stk) (out := out) (room := room) (text := text) hm h2
      by_cases hq : q = 0
      · rw [if_pos hq] at k2
        obtain ⟨rfl, N3, hN3⟩ := ih hm hP k2
        subst hq
        refine ⟨rfl, max N1 (max N2 N3) + 1, fun n hn => ?_⟩
        obtain ⟨n, rfl⟩ : ∃ n', n = n' + 1 := ⟨n - 1, by omega⟩
        have hc := hN1 n (by omega)
        have hc2 := hN2 n (by omega)
        have hc3 := hN3 n (by omega)
        rw [callFn_code rfl]
        crun [searchProperty.code, toNat_emod, hc, hc2, hc3, addr_ne h0, Bool.false_eq_true, if_false, List.take_length, beq_self_eq_true]
      · rw [if_neg hq] at k2
        obtain ⟨c, s3, h3, k3⟩ := bind_inv k2
        obtain ⟨rfl, N3, hN3⟩ := getChunkFromProp_run (X := X) (stk := stk) (out := out) (room := room) (text := text) hm h3
        by_cases hc0 : c = 0
        · rw [if_pos hc0] at k3
          obtain ⟨rfl, N4, hN4⟩ := ih hm hP k3
          subst hc0
          refine ⟨rfl, max N1 (max N2 (max N3 N4)) + 1, fun n hn => ?_⟩
          obtain ⟨n, rfl⟩ : ∃ n', n = n' + 1 := ⟨n - 1, by omega⟩
          have hc := hN1 n (by omega)
          have hc2 := hN2 n (by omega)
          have hc3 := hN3 n (by omega)
          have hc4 := hN4 n (by omega)
          rw [callFn_code rfl]
          crun [searchProperty.code, toNat_emod, hc, hc2, hc3, hc4, addr_ne h0, addr_ne hq, Bool.false_eq_true, if_false, List.take_length, beq_self_eq_true]
        · rw [if_neg hc0] at k3
          obtain ⟨rfl, rfl⟩ := pure_inv k3
          refine ⟨rfl, max N1 (max N2 N3) + 1, fun n hn => ?_⟩
          obtain ⟨n, rfl⟩ : ∃ n', n = n' + 1 := ⟨n - 1, by omega⟩
          have hc := hN1 n (by omega)
          have hc2 := hN2 n (by omega)
          have hc3 := hN3 n (by omega)
          rw [callFn_code rfl]
          crun [searchProperty.code, toNat_emod, hc, hc2, hc3, addr_ne h0, addr_ne hq, addr_ne hc0, Bool.false_eq_true, if_false, List.take_length, beq_self_eq_true]

/-- form.c:304-314 -/
theorem getChunk_run {k : Nat} {p r : Addr} {cid : ID} {s s' : HS} (hm : Rep s.mem) (hP : Parented s.mem)
    (h : Heap.getChunk k p cid s = .val (r, s')) : s' = s ∧
    Runs X .IFF_getChunkFromForm [.ptr (.struct .IFF_Form) ⟨.heap p, 0⟩, .int .uint cid.toNat]
      (st X stk out room text s) (.ptr (.struct .IFF_Chunk) ⟨.heap r, 0⟩) (st X stk out room text s) := by
  unfold Heap.getChunk at h
  obtain ⟨c, s1, h1, k1⟩ := bind_inv h
  clear h
  obtain ⟨rfl, N1, hN1⟩ := getDataChunk_run (X := X) (stk := stk) (out := out) (room := room) (text := text) hm h1
  by_cases h0 : c = 0
  · rw [if_pos h0] at k1
    obtain ⟨g, s2, h2, k2⟩ := bind_inv k1
    obtain ⟨rfl, hd, sz, rest, -, hz, -, hb⟩ := getGrp_step (X := X) h2
    obtain ⟨rfl, N2, hN2⟩ := searchProperty_run (X := X) (stk := stk) (out := out) (room := room) (text := text) hm hP k2
    subst h0
    refine ⟨rfl, max N1 N2 + 1, fun n hn => ?_⟩
    obtain ⟨n, rfl⟩ : ∃ n', n = n' + 1 := ⟨n - 1, by omega⟩
    have hc := hN1 n (by omega)
    have hc2 := hN2 n (by omega)
    rw [callFn_code rfl]
    crun [IFF_getChunkFromForm.code, toNat_emod, hc, hc2, blkOf_heap hb, hz, List.take_length, beq_self_eq_true]
  · rw [if_neg h0] at k1
    obtain ⟨rfl, rfl⟩ := pure_inv k1
    refine ⟨rfl, N1 + 1, fun n hn => ?_⟩
    obtain ⟨n, rfl⟩ : ∃ n', n = n' + 1 := ⟨n - 1, by omega⟩
    have hc := hN1 n (by omega)
    rw [callFn_code rfl]
    crun [IFF_getChunkFromForm.code, toNat_emod, hc, addr_ne h0, Bool.false_eq_true, if_false, List.take_length]

end
end Iff.Src
