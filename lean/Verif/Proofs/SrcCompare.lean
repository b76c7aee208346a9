import Verif.Proofs.SrcWalk
import Verif.Heap.Compare
/-
  Comparison of hierarchies: chunk.c:127-136, rawchunk.c:170-176, group.c:234-250, list.c:251-278.
-/
namespace Iff.Src
set_option maxRecDepth 4000
open Heap (Addr Block Mem HS Hdr Grp Lst)

section
variable {X : Cfg} {room : Nat} {stk : List Blk} {out text : List Byte}

theorem memcmp_run {n k : Nat} {heap : Nat → Option Blk} {tick : Nat} {inp : List Byte}
    {log : List ErrPrint} {a b : Addr} {A B : Blk} {x y : List Byte} {t : ITy} {z : Int}
    (hz : toSize X.e z = k) (ha : heap a = some A) (hb : heap b = some B) (hA : k ≤ A.size)
    (hB : k ≤ B.size) (hx : A.getBytes k = some x) (hy : B.getBytes k = some y) :
    callFn X (n + 1) .memcmp [.ptr (.int .uchar) ⟨.heap a, 0⟩, .ptr (.int .uchar) ⟨.heap b, 0⟩,
      .int t z] ⟨heap, tick, stk, inp, out, room, text, log⟩ =
      .val (.int .int (if x = y then 0 else 1), ⟨heap, tick, stk, inp, out, room, text, log⟩) := by
  subst hz
  rw [callFn_prim rfl]
  show memcmpC X _ _ _ _ = _
  simp only [memcmpC, CS.blk, ha, hb, hA, hB, hx, hy, and_self, if_true]

/-- rawchunk.c:170-176 -/
theorem compareRawChunk_run {q : Ptr} {p p' : Addr} {s s' : HS} {r : Bool} {n : Nat}
    (hm : Rep s.mem) (h : Heap.compareRawChunk X.e p p' s = .val (r, s')) :
    s' = s ∧ callFn X (n + 2) .IFF_compareRawChunk [.ptr (.struct .IFF_Chunk) ⟨.heap p, 0⟩,
      .ptr (.struct .IFF_Chunk) ⟨.heap p', 0⟩, .ptr (.struct .IFF_ChunkRegistry) q]
      (st X stk out room text s) = .val (truth r, st X stk out room text s) := by
  unfold Heap.compareRawChunk at h
  obtain ⟨d, s1, h1, k1⟩ := bind_inv h
  clear h
  obtain ⟨rfl, hd, hp⟩ := getRaw_inv h1
  obtain ⟨d', s1, h2, k2⟩ := bind_inv k1
  obtain ⟨rfl, hd', hp'⟩ := getRaw_inv h2
  obtain ⟨hd2, s1, h3, k3⟩ := bind_inv k2
  obtain ⟨⟨b, hb1, hb2⟩, rfl⟩ := getHdr_inv h3
  rw [hp] at hb1; cases hb1; cases hb2
  obtain ⟨bs, s1, h4, k4⟩ := bind_inv k3
  obtain ⟨rfl, B, hB, hBs, hBb⟩ := readBytes_step (X := X) h4
  obtain ⟨bs', s1, h5, k5⟩ := bind_inv k4
  obtain ⟨rfl, B', hB', hBs', hBb'⟩ := readBytes_step (X := X) h5
  obtain ⟨rfl, rfl⟩ := pure_inv k5
  refine ⟨rfl, ?_⟩
  have hs : inInt hd.size := hm.hdr hp rfl
  have hb := heapOf_some (e := X.e) hp
  have hb' := heapOf_some (e := X.e) hp'
  have hc := memcmp_run (X := X) (n := n) (tick := s'.tick) (stk := stk) (inp := s'.rs.inp) (out := out)
    (room := room) (text := text) (log := errCalls X.e s'.rs.log) (t := .int) (z := hd.size) rfl hB hB' hBs hBs' hBb hBb'
  rw [callFn_code rfl]
  crun [IFF_compareRawChunk.code, blkOf_heap hb, blkOf_heap hb', layout, hdrCells, List.cons_append, List.nil_append, hc, List.take_length, wrapInt_of hs]
  by_cases hx : bs = bs' <;> simp [hx, truth, wrapInt_zero, wrapInt_one]

/-- What is known about the comparison of sub chunks. -/
def CompIH (X : Cfg) (q : Ptr) (stk : List Blk) (out : List Byte) (room : Nat) (text : List Byte)
    (cc : ID → Addr → Addr → M HS Bool) : Prop :=
  ∀ {ft : ID} {c c' : Addr} {s s' : HS} {r : Bool}, Rep s.mem →
    cc ft c c' s = .val (r, s') → s' = s ∧
    Runs X .IFF_compareChunk [.ptr (.struct .IFF_Chunk) ⟨.heap c, 0⟩,
      .ptr (.struct .IFF_Chunk) ⟨.heap c', 0⟩, .int .uint ft.toNat,
      .ptr (.struct .IFF_ChunkRegistry) q] (st X stk out room text s) (truth r)
      (st X stk out room text s)

/-- group.c:240-244 -/
theorem compareMembers_run {q : Ptr} {cc : ID → Addr → Addr → M HS Bool}
    (IH : CompIH X q stk out room text cc) {p p' : Addr} {s : HS} (hm : Rep s.mem) {b : Block}
    {g : Grp} (hb1 : s.mem p = some b) (hb2 : b.grp? = some g) :
    ∀ {k i : Nat} {s' : HS} {r : Bool}, Heap.compareMembers cc p p' k i s = .val (r, s') →
      g.len = i + k → s' = s ∧ ∀ loc : Var → Slot,
        loc .i = .reg (.int .uint) (.int .uint i) →
        loc .group1 = .reg (.ptr (.struct .IFF_Group)) (.ptr (.struct .IFF_Group) ⟨.heap p, 0⟩) →
        loc .group2 = .reg (.ptr (.struct .IFF_Group)) (.ptr (.struct .IFF_Group) ⟨.heap p', 0⟩) →
        loc .chunkRegistry = .reg (.ptr (.struct .IFF_ChunkRegistry)) (.ptr (.struct .IFF_ChunkRegistry) q) →
        ∃ loc' N, ∀ n, N ≤ n → ∀ j, N ≤ j →
        whileN (evalC X (callFn X n) (.bin .lt (.var .i) (.arrow (.var .group1) .chunkLength)))
          (forBody X (callFn X n) n
            (.ite (.not (.call (.fn .IFF_compareChunk) (.cons (.index (.arrow (.var .group1) .chunk) (.var .i)) (.cons (.index (.arrow (.var .group2) .chunk) (.var .i)) (.cons (.arrow (.var .group1) .groupType) (.cons (.var .chunkRegistry) .nil))))))
              (.ret (.num .int 0))
              .skip)
            (.inc (.var .i))) j ⟨loc, st X stk out room text s⟩ =
          .val (if r then .norm else .ret (.int .int 0), ⟨loc', st X stk out room text s⟩) := by
  obtain ⟨hd, sz, rest, -, -, hz, hly, -⟩ := grp_layout X hb2
  have hb := heapOf_some (e := X.e) hb1
  rw [hly] at hb
  have hg := hm.grp hb1 hb2
  intro k
  induction k with
  | zero =>
    intro i s' r h hl
    obtain ⟨rfl, rfl⟩ := pure_inv h
    refine ⟨rfl, fun loc hi hgr hgr' hr => ⟨loc, 1, fun n hn j hj => ?_⟩⟩
    obtain ⟨j, rfl⟩ : ∃ j', j = j' + 1 := ⟨j - 1, by omega⟩
    rw [whileN_succ]
    crun [hi, hgr, hr, blkOf_heap hb, hz, nat_emod (show g.len < 4294967296 by omega),
      nat_emod (show i < 4294967296 by omega), decide_eq_false (show ¬ (i : Int) < g.len by omega), if_true]
  | succ k ih =>
    intro i s' r h hl
    unfold Heap.compareMembers at h
    obtain ⟨g1, s1, h1, k1⟩ := bind_inv h
    clear h
    obtain ⟨⟨b', hb1', hb2'⟩, rfl⟩ := getGrp_inv h1
    rw [hb1] at hb1'; cases hb1'
    rw [hb2] at hb2'; cases hb2'
    obtain ⟨c, s2, h2, k2⟩ := bind_inv k1
    obtain ⟨rfl, B, hB, hBs, hBc⟩ := getPtr_step (X := X) h2
    obtain ⟨g', s3, h3, k3⟩ := bind_inv k2
    obtain ⟨rfl, hd', sz', rest', -, hz', -, hb'⟩ := getGrp_step (X := X) h3
    obtain ⟨c', s4, h4, k4⟩ := bind_inv k3
    obtain ⟨rfl, B', hB', hBs', hBc'⟩ := getPtr_step (X := X) h4
    obtain ⟨r5, s5, h5, k5⟩ := bind_inv k4
    obtain ⟨rfl, N1, hN1⟩ := IH hm h5
    cases r5 with
    | false =>
      simp only [Bool.false_eq_true, if_false] at k5
      obtain ⟨rfl, rfl⟩ := pure_inv k5
      refine ⟨rfl, fun loc hi hgr hgr' hr => ⟨loc, N1 + 1, fun n hn j hj => ?_⟩⟩
      obtain ⟨j, rfl⟩ : ∃ j', j = j' + 1 := ⟨j - 1, by omega⟩
      have hc := hN1 n (by omega)
      rw [whileN_succ]
      crun [hi, hgr, hgr', hr, blkOf_heap hb, blkOf_heap hb', hz, hz', nat_emod (show g.len < 4294967296 by omega),
        nat_emod (show i < 4294967296 by omega), decide_eq_true (show (i : Int) < g.len by omega),
        ↓forBody_obind, blkOf_heap hB, hBs, hBc, blkOf_heap hB', hBs', hBc', Int.natCast_nonneg, Int.toNat_natCast, scalarSize, hc,
        step_obind, Bool.false_eq_true, if_false]
    | true =>
      simp only [if_true] at k5
      obtain ⟨rfl, ih'⟩ := ih k5 (by omega)
      refine ⟨rfl, fun loc hi hgr hgr' hr => ?_⟩
      obtain ⟨loc', N2, hN2⟩ := ih' (setLoc loc .i (.reg (.int .uint) (.int .uint ((i + 1 : Nat) : Int))))
        (by simp [setLoc]) (by simp [setLoc, hgr]) (by simp [setLoc, hgr']) (by simp [setLoc, hr])
      refine ⟨loc', max N1 N2 + 1, fun n hn j hj => ?_⟩
      obtain ⟨j, rfl⟩ : ∃ j', j = j' + 1 := ⟨j - 1, by omega⟩
      have hc := hN1 n (by omega)
      have hw := hN2 n (by omega) j (by omega)
      rw [whileN_succ]
      crun [hi, hgr, hgr', hr, blkOf_heap hb, blkOf_heap hb', hz, hz', nat_emod (show g.len < 4294967296 by omega),
        nat_emod (show i < 4294967296 by omega), decide_eq_true (show (i : Int) < g.len by omega),
        ↓forBody_obind, blkOf_heap hB, hBs, hBc, blkOf_heap hB', hBs', hBc', Int.natCast_nonneg, Int.toNat_natCast, scalarSize, hc,
        step_obind, succ_emod (show i + 1 < 4294967296 by omega),
        nat_emod (show i + 1 < 4294967296 by omega), hw]

/-- group.c:234-250 -/
theorem compareGroup_run {q : Ptr} {cc : ID → Addr → Addr → M HS Bool}
    (IH : CompIH X q stk out room text cc) {p p' : Addr} {s s' : HS} {r : Bool} (hm : Rep s.mem)
    (h : Heap.compareGroup cc p p' s = .val (r, s')) : s' = s ∧
    Runs X .IFF_compareGroup [.ptr (.struct .IFF_Group) ⟨.heap p, 0⟩,
      .ptr (.struct .IFF_Group) ⟨.heap p', 0⟩, .ptr (.struct .IFF_ChunkRegistry) q]
      (st X stk out room text s) (truth r) (st X stk out room text s) := by
  unfold Heap.compareGroup at h
  obtain ⟨g, s1, h1, k1⟩ := bind_inv h
  clear h
  obtain ⟨rfl, hd, sz, rest, -, hz, ⟨b, hb1, -, hb2⟩, hb⟩ := getGrp_step (X := X) h1
  obtain ⟨g', s1, h2, k2⟩ := bind_inv k1
  obtain ⟨rfl, hd', sz', rest', -, hz', ⟨b', hb1', -, hb2'⟩, hb'⟩ := getGrp_step (X := X) h2
  have hg := hm.grp hb1 hb2
  have hg' := hm.grp hb1' hb2'
  by_cases hc : g.ty = g'.ty ∧ g.len = g'.len
  · rw [if_pos hc] at k2
    obtain ⟨rfl, hl⟩ := compareMembers_run IH hm hb1 hb2 k2 (by omega)
    refine ⟨rfl, ?_⟩
    obtain ⟨loc', N, hN⟩ := hl
      (setLoc (setLoc (setLoc (setLoc (setLoc (fun _ => .none) .chunkRegistry (.reg (.ptr (.struct .IFF_ChunkRegistry)) (.ptr (.struct .IFF_ChunkRegistry) q)))
      .group2 (.reg (.ptr (.struct .IFF_Group)) (.ptr (.struct .IFF_Group) ⟨.heap p', 0⟩)))
      .group1 (.reg (.ptr (.struct .IFF_Group)) (.ptr (.struct .IFF_Group) ⟨.heap p, 0⟩)))
      .i (.reg (.int .uint) .undef)) .i (.reg (.int .uint) (.int .uint 0))) (by simp [setLoc])
      (by simp [setLoc]) (by simp [setLoc]) (by simp [setLoc])
    refine ⟨N + 1, fun n hn => ?_⟩
    obtain ⟨n, rfl⟩ : ∃ n', n = n' + 1 := ⟨n - 1, by omega⟩
    have hw := hN n (by omega) n (by omega)
    rw [callFn_code rfl]
    obtain ⟨ht, hl⟩ := hc
    cases r <;> simp only [Bool.false_eq_true, if_false, if_true] at hw <;>
    crun [IFF_compareGroup.code, blkOf_heap hb, blkOf_heap hb', hz, hz', ht, beq_iff_eq.mpr (show (g.len : Int) = g'.len by omega), toNat_emod,
      nat_emod hg', nat_emod hg, beq_self_eq_true, ↓exec_for', hw, List.take_length] <;> rfl
  · rw [if_neg hc] at k2
    obtain ⟨rfl, rfl⟩ := pure_inv k2
    refine ⟨rfl, 1, fun n hn => ?_⟩
    obtain ⟨n, rfl⟩ : ∃ n', n = n' + 1 := ⟨n - 1, by omega⟩
    rw [callFn_code rfl]
    by_cases ht : g.ty = g'.ty
    · have hl : ¬ g.len = g'.len := fun hl => hc ⟨ht, hl⟩
      crun [IFF_compareGroup.code, blkOf_heap hb, blkOf_heap hb', hz, hz', ht, toNat_emod,
        nat_emod hg', nat_emod hg, beq_self_eq_true, beq_eq_false_iff_ne.mpr (show (g.len : Int) ≠ g'.len by omega), List.take_length]
      rfl
    · have ht' : (g.ty.toNat : Int) ≠ g'.ty.toNat := fun h => ht (BitVec.eq_of_toNat_eq (by omega))
      crun [IFF_compareGroup.code, blkOf_heap hb, blkOf_heap hb', hz, hz', toNat_emod,
        beq_eq_false_iff_ne.mpr ht', List.take_length]
      rfl

theorem compare_form {f : Fn} (hf : f = .IFF_compareCAT ∨ f = .IFF_compareForm) {q : Ptr} {p p' : Addr} {g : CS} {r : Bool}
    (h : Runs X .IFF_compareGroup [.ptr (.struct .IFF_Group) ⟨.heap p, 0⟩,
      .ptr (.struct .IFF_Group) ⟨.heap p', 0⟩, .ptr (.struct .IFF_ChunkRegistry) q] g (truth r) g) :
    Runs X f [.ptr (.struct .IFF_Chunk) ⟨.heap p, 0⟩, .ptr (.struct .IFF_Chunk) ⟨.heap p', 0⟩,
      .ptr (.struct .IFF_ChunkRegistry) q] g (truth r) g := by
  obtain ⟨N, hN⟩ := h
  refine ⟨N + 1, fun n hn => ?_⟩
  obtain ⟨n, rfl⟩ : ∃ n', n = n' + 1 := ⟨n - 1, by omega⟩
  have hc := hN n (by omega)
  obtain ⟨heap, tick, stk, inp, out, room, text, log⟩ := g
  rcases hf with rfl | rfl <;> rw [callFn_code rfl]
  · crun [IFF_compareCAT.code, hc, List.take_length]
  · crun [IFF_compareForm.code, hc, List.take_length]

theorem compare_prop {q : Ptr} {p p' : Addr} {g : CS} {r : Bool}
    (h : Runs X .IFF_compareGroup [.ptr (.struct .IFF_Group) ⟨.heap p, 0⟩,
      .ptr (.struct .IFF_Group) ⟨.heap p', 0⟩, .ptr (.struct .IFF_ChunkRegistry) q] g (truth r) g) :
    Runs X .IFF_compareProp [.ptr (.struct .IFF_Chunk) ⟨.heap p, 0⟩, .ptr (.struct .IFF_Chunk) ⟨.heap p', 0⟩,
      .ptr (.struct .IFF_ChunkRegistry) q] g (truth r) g := by
  obtain ⟨N, hN⟩ := compare_form (.inr rfl) h
  refine ⟨N + 1, fun n hn => ?_⟩
  obtain ⟨n, rfl⟩ : ∃ n', n = n' + 1 := ⟨n - 1, by omega⟩
  have hc := hN n (by omega)
  obtain ⟨heap, tick, stk, inp, out, room, text, log⟩ := g
  rw [callFn_code rfl]
  crun [IFF_compareProp.code, hc, List.take_length]

/-- list.c:257-261 -/
theorem compareProps_run {q : Ptr} {cc : ID → Addr → Addr → M HS Bool}
    (IH : CompIH X q stk out room text cc) {p p' : Addr} {s : HS} (hm : Rep s.mem) {b : Block}
    {l : Lst} (hb1 : s.mem p = some b) (hb2 : b.lst? = some l) :
    ∀ {k i : Nat} {s' : HS} {r : Bool}, Heap.compareProps cc p p' k i s = .val (r, s') →
      l.plen = i + k → s' = s ∧ ∀ loc : Var → Slot,
        loc .i = .reg (.int .uint) (.int .uint i) →
        loc .list1 = .reg (.ptr (.struct .IFF_List)) (.ptr (.struct .IFF_List) ⟨.heap p, 0⟩) →
        loc .list2 = .reg (.ptr (.struct .IFF_List)) (.ptr (.struct .IFF_List) ⟨.heap p', 0⟩) →
        loc .chunkRegistry = .reg (.ptr (.struct .IFF_ChunkRegistry)) (.ptr (.struct .IFF_ChunkRegistry) q) →
        ∃ loc' N, ∀ n, N ≤ n → ∀ j, N ≤ j →
        whileN (evalC X (callFn X n) (.bin .lt (.var .i) (.arrow (.var .list1) .propLength)))
          (forBody X (callFn X n) n
            (.ite (.not (.call (.fn .IFF_compareProp) (.cons (.cast (.ptr (.struct .IFF_Chunk)) (.index (.arrow (.var .list1) .prop) (.var .i))) (.cons (.cast (.ptr (.struct .IFF_Chunk)) (.index (.arrow (.var .list2) .prop) (.var .i))) (.cons (.var .chunkRegistry) .nil)))))
              (.ret (.num .int 0))
              .skip)
            (.inc (.var .i))) j ⟨loc, st X stk out room text s⟩ =
          .val (if r then .norm else .ret (.int .int 0), ⟨loc', st X stk out room text s⟩) := by
  obtain ⟨hd, g, -, -, hly, -⟩ := lst_layout X hb2
  have hb := heapOf_some (e := X.e) hb1
  rw [hly] at hb
  have hg := hm.lst hb1 hb2
  intro k
  induction k with
  | zero =>
    intro i s' r h hl
    obtain ⟨rfl, rfl⟩ := pure_inv h
    refine ⟨rfl, fun loc hi hgr hgr' hr => ⟨loc, 1, fun n hn j hj => ?_⟩⟩
    obtain ⟨j, rfl⟩ : ∃ j', j = j' + 1 := ⟨j - 1, by omega⟩
    rw [whileN_succ]
    crun [hi, hgr, hr, blkOf_heap hb, nat_emod (show l.plen < 4294967296 by omega),
      nat_emod (show i < 4294967296 by omega), decide_eq_false (show ¬ (i : Int) < l.plen by omega), if_true]
  | succ k ih =>
    intro i s' r h hl
    unfold Heap.compareProps at h
    obtain ⟨g1, s1, h1, k1⟩ := bind_inv h
    clear h
    obtain ⟨⟨b', hb1', hb2'⟩, rfl⟩ := getLst_inv h1
    rw [hb1] at hb1'; cases hb1'
    rw [hb2] at hb2'; cases hb2'
    obtain ⟨c, s2, h2, k2⟩ := bind_inv k1
    obtain ⟨rfl, B, hB, hBs, hBc⟩ := getPtr_step (X := X) h2
    obtain ⟨g', s3, h3, k3⟩ := bind_inv k2
    obtain ⟨rfl, hd', l', -, hb'⟩ := getLst_step (X := X) h3
    obtain ⟨c', s4, h4, k4⟩ := bind_inv k3
    obtain ⟨rfl, B', hB', hBs', hBc'⟩ := getPtr_step (X := X) h4
    obtain ⟨r5, s5, h5, k5⟩ := bind_inv k4
    obtain ⟨rfl, hrun⟩ := compareGroup_run IH hm h5
    obtain ⟨N1, hN1⟩ := compare_prop hrun
    cases r5 with
    | false =>
      simp only [Bool.false_eq_true, if_false] at k5
      obtain ⟨rfl, rfl⟩ := pure_inv k5
      refine ⟨rfl, fun loc hi hgr hgr' hr => ⟨loc, N1 + 1, fun n hn j hj => ?_⟩⟩
      obtain ⟨j, rfl⟩ : ∃ j', j = j' + 1 := ⟨j - 1, by omega⟩
      have hc := hN1 n (by omega)
      rw [whileN_succ]
      crun [hi, hgr, hgr', hr, blkOf_heap hb, blkOf_heap hb', nat_emod (show l.plen < 4294967296 by omega),
        nat_emod (show i < 4294967296 by omega), decide_eq_true (show (i : Int) < l.plen by omega),
        ↓forBody_obind, blkOf_heap hB, hBs, hBc, blkOf_heap hB', hBs', hBc', Int.natCast_nonneg, Int.toNat_natCast, scalarSize, hc,
        step_obind, Bool.false_eq_true, if_false]
    | true =>
      simp only [if_true] at k5
      obtain ⟨rfl, ih'⟩ := ih k5 (by omega)
      refine ⟨rfl, fun loc hi hgr hgr' hr => ?_⟩
      obtain ⟨loc', N2, hN2⟩ := ih' (setLoc loc .i (.reg (.int .uint) (.int .uint ((i + 1 : Nat) : Int))))
        (by simp [setLoc]) (by simp [setLoc, hgr]) (by simp [setLoc, hgr']) (by simp [setLoc, hr])
      refine ⟨loc', max N1 N2 + 1, fun n hn j hj => ?_⟩
      obtain ⟨j, rfl⟩ : ∃ j', j = j' + 1 := ⟨j - 1, by omega⟩
      have hc := hN1 n (by omega)
      have hw := hN2 n (by omega) j (by omega)
      rw [whileN_succ]
      crun [hi, hgr, hgr', hr, blkOf_heap hb, blkOf_heap hb', nat_emod (show l.plen < 4294967296 by omega),
        nat_emod (show i < 4294967296 by omega), decide_eq_true (show (i : Int) < l.plen by omega),
        ↓forBody_obind, blkOf_heap hB, hBs, hBc, blkOf_heap hB', hBs', hBc', Int.natCast_nonneg, Int.toNat_natCast, scalarSize, hc,
        step_obind, succ_emod (show i + 1 < 4294967296 by omega),
        nat_emod (show i + 1 < 4294967296 by omega), hw]

/-- list.c:251-278 -/
theorem compareList_run {q : Ptr} {cc : ID → Addr → Addr → M HS Bool}
    (IH : CompIH X q stk out room text cc) {p p' : Addr} {s s' : HS} {r : Bool} (hm : Rep s.mem)
    (h : Heap.compareList cc p p' s = .val (r, s')) : s' = s ∧
    Runs X .IFF_compareList [.ptr (.struct .IFF_Chunk) ⟨.heap p, 0⟩,
      .ptr (.struct .IFF_Chunk) ⟨.heap p', 0⟩, .ptr (.struct .IFF_ChunkRegistry) q]
      (st X stk out room text s) (truth r) (st X stk out room text s) := by
  unfold Heap.compareList at h
  obtain ⟨l, s1, h1, k1⟩ := bind_inv h
  clear h
  obtain ⟨rfl, hd, g, ⟨b, hb1, -, -, hb2⟩, hb⟩ := getLst_step (X := X) h1
  obtain ⟨l', s1, h2, k2⟩ := bind_inv k1
  obtain ⟨rfl, hd', g', ⟨b', hb1', -, -, hb2'⟩, hb'⟩ := getLst_step (X := X) h2
  have hg := hm.lst hb1 hb2
  have hg' := hm.lst hb1' hb2'
  have key : ∀ (r1 : Bool) (s2 : HS), (if l.plen = l'.plen then Heap.compareProps cc p p' l.plen 0 else pure false) s1 =
      .val (r1, s2) → s2 = s1 ∧ Runs X .compareListPropChunks [.ptr (.struct .IFF_List) ⟨.heap p, 0⟩,
      .ptr (.struct .IFF_List) ⟨.heap p', 0⟩, .ptr (.struct .IFF_ChunkRegistry) q]
      (st X stk out room text s1) (truth r1) (st X stk out room text s1) := by
    intro r s' k2
    by_cases hc : l.plen = l'.plen
    · rw [if_pos hc] at k2
      obtain ⟨rfl, hl⟩ := compareProps_run IH hm hb1 hb2 k2 (by omega)
      refine ⟨rfl, ?_⟩
      obtain ⟨loc', N, hN⟩ := hl
        (setLoc (setLoc (setLoc (setLoc (setLoc (fun _ => .none) .chunkRegistry (.reg (.ptr (.struct .IFF_ChunkRegistry)) (.ptr (.struct .IFF_ChunkRegistry) q)))
        .list2 (.reg (.ptr (.struct .IFF_List)) (.ptr (.struct .IFF_List) ⟨.heap p', 0⟩)))
        .list1 (.reg (.ptr (.struct .IFF_List)) (.ptr (.struct .IFF_List) ⟨.heap p, 0⟩)))
        .i (.reg (.int .uint) .undef)) .i (.reg (.int .uint) (.int .uint 0))) (by simp [setLoc])
        (by simp [setLoc]) (by simp [setLoc]) (by simp [setLoc])
      refine ⟨N + 1, fun n hn => ?_⟩
      obtain ⟨n, rfl⟩ : ∃ n', n = n' + 1 := ⟨n - 1, by omega⟩
      have hw := hN n (by omega) n (by omega)
      rw [callFn_code rfl]
      cases r <;> simp only [Bool.false_eq_true, if_false, if_true] at hw <;>
      crun [compareListPropChunks.code, blkOf_heap hb, blkOf_heap hb', hc,
        nat_emod hg', beq_self_eq_true, ↓exec_for', hw, List.take_length] <;> rfl
    · rw [if_neg hc] at k2
      obtain ⟨rfl, rfl⟩ := pure_inv k2
      refine ⟨rfl, 1, fun n hn => ?_⟩
      obtain ⟨n, rfl⟩ : ∃ n', n = n' + 1 := ⟨n - 1, by omega⟩
      rw [callFn_code rfl]
      crun [compareListPropChunks.code, blkOf_heap hb, blkOf_heap hb',
        nat_emod hg', nat_emod hg, beq_eq_false_iff_ne.mpr (show (l.plen : Int) ≠ l'.plen by omega), List.take_length]
      rfl
  have key2 : ∃ r1, (if l.plen = l'.plen then Heap.compareProps cc p p' l.plen 0 else pure false) s1 =
      .val (r1, s1) ∧ ((r1 = false ∧ r = false ∧ s' = s1) ∨
        (r1 = true ∧ Heap.compareGroup cc p p' s1 = .val (r, s'))) := by
    by_cases hc : l.plen = l'.plen
    · rw [if_pos hc] at k2
      obtain ⟨r1, s2, h3, k3⟩ := bind_inv k2
      obtain ⟨rfl, -⟩ := key r1 s2 (by rw [if_pos hc]; exact h3)
      refine ⟨r1, by rw [if_pos hc]; exact h3, ?_⟩
      cases r1 with
      | false =>
        simp only [Bool.false_eq_true, if_false] at k3
        obtain ⟨rfl, rfl⟩ := pure_inv k3
        exact .inl ⟨rfl, rfl, rfl⟩
      | true => exact .inr ⟨rfl, k3⟩
    · rw [if_neg hc] at k2
      obtain ⟨rfl, rfl⟩ := pure_inv k2
      exact ⟨false, by rw [if_neg hc]; rfl, .inl ⟨rfl, rfl, rfl⟩⟩
  obtain ⟨r1, h3, hor⟩ := key2
  obtain ⟨-, N1, hN1⟩ := key r1 s1 h3
  rcases hor with ⟨rfl, rfl, rfl⟩ | ⟨rfl, h4⟩
  · refine ⟨rfl, N1 + 1, fun n hn => ?_⟩
    obtain ⟨n, rfl⟩ : ∃ n', n = n' + 1 := ⟨n - 1, by omega⟩
    have hc := hN1 n (by omega)
    rw [callFn_code rfl]
    crun [IFF_compareList.code, hc, List.take_length]
    rfl
  · obtain ⟨rfl, hrun⟩ := compareGroup_run IH hm h4
    obtain ⟨N2, hN2⟩ := compare_form (.inl rfl) hrun
    refine ⟨rfl, max N1 N2 + 1, fun n hn => ?_⟩
    obtain ⟨n, rfl⟩ : ∃ n', n = n' + 1 := ⟨n - 1, by omega⟩
    have hc := hN1 n (by omega)
    have hc2 := hN2 n (by omega)
    rw [callFn_code rfl]
    cases r <;> crun [IFF_compareList.code, hc, hc2, List.take_length] <;> rfl

theorem wrapInt_byte (b : BitVec 8) : wrapInt b.toNat = b.toNat := wrapInt_of (by simp only [inInt]; omega)
theorem wrapInt_word (b : BitVec 16) : wrapInt b.toNat = b.toNat := wrapInt_of (by simp only [inInt]; omega)

theorem nat_bne {k : Nat} {x y : BitVec k} : ((x.toNat : Int) != y.toNat) = !decide (x = y) := by
  by_cases h : x = y
  · subst h; simp
  · have : (x.toNat : Int) ≠ y.toNat := fun h' => h (BitVec.eq_of_toNat_eq (by omega))
    simp [h, this]

theorem int_bne {x y : BitVec 32} : (x.toInt != y.toInt) = !decide (x = y) := by
  by_cases h : x = y
  · subst h; simp
  · have : x.toInt ≠ y.toInt := fun h' => h (BitVec.eq_of_toInt_eq h')
    simp [h, this]

/-- tests/hello.c:108-123 -/
theorem compareHello_run {q : Ptr} {p p' : Addr} {s s' : HS} {r : Bool}
    (h : Heap.compareExt [⟨"a", .ubyte⟩, ⟨"b", .ubyte⟩, ⟨"c", .uword⟩] p p' s = .val (r, s')) : s' = s ∧
    callFn X (n + 2) .TEST_compareHello [.ptr (.struct .IFF_Chunk) ⟨.heap p, 0⟩,
      .ptr (.struct .IFF_Chunk) ⟨.heap p', 0⟩, .ptr (.struct .IFF_ChunkRegistry) q]
      (st X stk out room text s) = .val (truth r, st X stk out room text s) := by
  unfold Heap.compareExt at h
  obtain ⟨vals, s1, h1, k1⟩ := bind_inv h
  clear h
  obtain ⟨rfl, hd, hm, hk⟩ := getExt_step h1
  obtain ⟨vals', s2, h2, k2⟩ := bind_inv k1
  obtain ⟨rfl, hd', hm', hk'⟩ := getExt_step h2
  obtain ⟨rfl, rfl⟩ := pure_inv k2
  obtain ⟨a, b, c, rfl, g⟩ := hello_at (X := X) hm hk
  obtain ⟨a', b', c', rfl, g'⟩ := hello_at (X := X) hm' hk'
  refine ⟨rfl, ?_⟩
  have hd : decide ([Val.ubyte a, .ubyte b, .uword c] = [.ubyte a', .ubyte b', .uword c']) =
      (decide (a = a') && (decide (b = b') && decide (c = c'))) := by
    rw [Bool.eq_iff_iff]; simp
  rw [hd, callFn_code rfl]
  cases ha : decide (a = a') <;> cases hb : decide (b = b') <;> cases hc : decide (c = c') <;>
    crun [TEST_compareHello.code, find_Hello_a, find_Hello_b, find_Hello_c, blkOf_heap g, blkOf_heap g', wrapInt_byte,
      wrapInt_word, nat_bne, ha, hb, hc, Bool.not_true, Bool.not_false, List.take_length] <;> rfl

/-- tests/bye.c:92-104 -/
theorem compareBye_run {q : Ptr} {p p' : Addr} {s s' : HS} {r : Bool}
    (h : Heap.compareExt [⟨"one", .long⟩, ⟨"two", .long⟩] p p' s = .val (r, s')) : s' = s ∧
    callFn X (n + 2) .TEST_compareBye [.ptr (.struct .IFF_Chunk) ⟨.heap p, 0⟩,
      .ptr (.struct .IFF_Chunk) ⟨.heap p', 0⟩, .ptr (.struct .IFF_ChunkRegistry) q]
      (st X stk out room text s) = .val (truth r, st X stk out room text s) := by
  unfold Heap.compareExt at h
  obtain ⟨vals, s1, h1, k1⟩ := bind_inv h
  clear h
  obtain ⟨rfl, hd, hm, hk⟩ := getExt_step h1
  obtain ⟨vals', s2, h2, k2⟩ := bind_inv k1
  obtain ⟨rfl, hd', hm', hk'⟩ := getExt_step h2
  obtain ⟨rfl, rfl⟩ := pure_inv k2
  obtain ⟨a, b, rfl, g⟩ := bye_at (X := X) hm hk
  obtain ⟨a', b', rfl, g'⟩ := bye_at (X := X) hm' hk'
  refine ⟨rfl, ?_⟩
  have hd : decide ([Val.long a, .long b] = [.long a', .long b']) = (decide (a = a') && decide (b = b')) := by
    rw [Bool.eq_iff_iff]; simp
  rw [hd, callFn_code rfl]
  cases ha : decide (a = a') <;> cases hb : decide (b = b') <;>
    crun [TEST_compareBye.code, find_Bye_one, find_Bye_two, blkOf_heap g, blkOf_heap g', wrapInt_toInt, int_bne, ha, hb,
      Bool.not_true, Bool.not_false, List.take_length] <;> rfl

/-- chunk.c:127-136 -/
theorem compareChunk_run {q : Ptr} {r : Registry} (hr : RegAt X q r) : ∀ {k : Nat},
    CompIH X q stk out room text (Heap.compareChunk X.e r k) := by
  intro k
  induction k with
  | zero => intro ft c c' s s' b _ h; cases h
  | succ k ih =>
    intro ft c c' s s' res hm h
    unfold Heap.compareChunk at h
    obtain ⟨hd, s1, h1, k1⟩ := bind_inv h
    clear h
    obtain ⟨rfl, sz, rest, hz, ⟨b, hb1, hb2⟩, hb⟩ := getHdr_step' (X := X) h1
    obtain ⟨hd', s1, h2, k2⟩ := bind_inv k1
    obtain ⟨rfl, sz', rest', hz', ⟨b', hb1', hb2'⟩, hb'⟩ := getHdr_step' (X := X) h2
    have hs := hm.hdr hb1 hb2
    have hs' := hm.hdr hb1' hb2'
    by_cases hc : hd.id = hd'.id ∧ hd.size = hd'.size
    · rw [if_pos hc] at k2
      obtain ⟨fns, hf, hfind⟩ := find_run hr ft hd.id
      have key : ∃ f, fns[6]? = some f ∧ s' = s1 ∧ Runs X f [.ptr (.struct .IFF_Chunk) ⟨.heap c, 0⟩,
          .ptr (.struct .IFF_Chunk) ⟨.heap c', 0⟩, .ptr (.struct .IFF_ChunkRegistry) q]
          (st X stk out room text s1) (truth res) (st X stk out room text s1) := by
        cases hh : findChunkType r ft hd.id <;> rw [hh] at k2 hf <;> cases hf <;>
          refine ⟨_, rfl, ?_⟩
        · refine ⟨(compareRawChunk_run (n := 0) (q := q) (stk := stk) (out := out) (room := room) (text := text) hm k2).1, 2, fun n hn => ?_⟩
          obtain ⟨n, rfl⟩ : ∃ n', n = n' + 2 := ⟨n - 2, by omega⟩
          exact (compareRawChunk_run hm k2).2
        · obtain ⟨h1, h2⟩ := compareGroup_run ih hm k2; exact ⟨h1, compare_form (.inr rfl) h2⟩
        · obtain ⟨h1, h2⟩ := compareGroup_run ih hm k2; exact ⟨h1, compare_form (.inl rfl) h2⟩
        · exact compareList_run ih hm k2
        · obtain ⟨h1, h2⟩ := compareGroup_run ih hm k2; exact ⟨h1, compare_prop h2⟩
        · refine ⟨(compareHello_run (X := X) (n := 0) (q := q) (stk := stk) (out := out) (room := room) (text := text) k2).1, 2, fun n hn => ?_⟩
          obtain ⟨n, rfl⟩ : ∃ n', n = n' + 2 := ⟨n - 2, by omega⟩
          exact (compareHello_run k2).2
        · refine ⟨(compareBye_run (X := X) (n := 0) (q := q) (stk := stk) (out := out) (room := room) (text := text) k2).1, 2, fun n hn => ?_⟩
          obtain ⟨n, rfl⟩ : ∃ n', n = n' + 2 := ⟨n - 2, by omega⟩
          exact (compareBye_run k2).2
      obtain ⟨f, hf6, rfl, N, hN⟩ := key
      refine ⟨rfl, max N (Registry.depth r + 4) + 1, fun n hn => ?_⟩
      obtain ⟨n, rfl⟩ : ∃ n', n = n' + 1 := ⟨n - 1, by omega⟩
      have hcl := hN n (by omega)
      obtain ⟨kk, jj, B, hq2, hi, hmo, hfs⟩ := hfind (st X stk out room text s') n (by omega)
      have hcell := hfs 6 f hf6
      have hmo := hmo .compareExtensionChunk 7 rfl
      rw [callFn_code rfl]
      obtain ⟨hi1, hi2⟩ := hc
      rw [hi1] at hq2 hb
      rw [hi2] at hb
      cases res <;> crun [IFF_compareChunk.code, blkOf_heap hb, blkOf_heap hb', hz, hz', toNat_emod, wrapInt_of hs', beq_self_eq_true, hq2, hmo, blkOf_static hi, hcell, hcl, List.take_length] <;> rfl
    · rw [if_neg hc] at k2
      obtain ⟨rfl, rfl⟩ := pure_inv k2
      refine ⟨rfl, 1, fun n hn => ?_⟩
      obtain ⟨n, rfl⟩ : ∃ n', n = n' + 1 := ⟨n - 1, by omega⟩
      rw [callFn_code rfl]
      by_cases ht : hd.id = hd'.id
      · have hl : ¬ hd.size = hd'.size := fun hl => hc ⟨ht, hl⟩
        crun [IFF_compareChunk.code, blkOf_heap hb, blkOf_heap hb', hz, hz', ht, toNat_emod,
          wrapInt_of hs, wrapInt_of hs', beq_self_eq_true, beq_eq_false_iff_ne.mpr hl, List.take_length]
        rfl
      · have ht' : (hd.id.toNat : Int) ≠ hd'.id.toNat := fun h => ht (BitVec.eq_of_toNat_eq (by omega))
        crun [IFF_compareChunk.code, blkOf_heap hb, blkOf_heap hb', hz, hz', toNat_emod,
          beq_eq_false_iff_ne.mpr ht', List.take_length]
        rfl

/-- iff.c:147-150 -/
theorem compare_run (hX : X.Linked) {reg : Option Registry} {q : Ptr} (hq : RegArg X reg q)
    {k : Nat} {p p' : Addr} {s s' : HS} {r : Bool} (hm : Rep s.mem)
    (h : Heap.compare X.e reg k p p' s = .val (r, s')) : s' = s ∧
    Runs X .IFF_compare [.ptr (.struct .IFF_Chunk) ⟨.heap p, 0⟩,
      .ptr (.struct .IFF_Chunk) ⟨.heap p', 0⟩, .ptr (.struct .IFF_ChunkRegistry) q]
      (st X stk out room text s) (truth r) (st X stk out room text s) := by
  unfold Heap.compare at h
  obtain ⟨q', hr, hsel⟩ := select_run hX hq
  obtain ⟨rfl, N, hN⟩ := compareChunk_run (stk := stk) (out := out) (room := room) (text := text) hr hm h
  have hN' : ∀ n, N ≤ n → callFn X n .IFF_compareChunk [.ptr (.struct .IFF_Chunk) ⟨.heap p, 0⟩,
      .ptr (.struct .IFF_Chunk) ⟨.heap p', 0⟩, .int .int 0, .ptr (.struct .IFF_ChunkRegistry) q']
      (st X stk out room text s') = .val (truth r, st X stk out room text s') := fun n hn => by
    rw [← hN n hn]; exact callFn_args rfl rfl
  refine ⟨rfl, N + 2, fun n hn => ?_⟩
  obtain ⟨n, rfl⟩ : ∃ n', n = n' + 2 := ⟨n - 2, by omega⟩
  have hr := hN' (n + 1) (by omega)
  rw [callFn_code rfl]
  crun [IFF_compare.code, hsel, hr, List.take_length]

end

end Iff.Src
