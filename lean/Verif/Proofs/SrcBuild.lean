import Verif.Proofs.SrcCheck
import Verif.Proofs.HeapRef
import Verif.Proofs.Arith
import Verif.Proofs.SrcUpdate
import Verif.Heap.Build
/-
  Building hierarchies: the create and add functions of group.c, form.c, cat.c, prop.c and list.c, and
  the functions of rawchunk.c that set data.
-/
namespace Iff.Src
set_option maxRecDepth 4000
open Heap (Addr Block Mem HS Hdr Grp Lst)

section
variable {X : Cfg} {n : Nat} {room : Nat} {stk : List Blk} {out text : List Byte}

/-! ### Attaching -/

theorem updHdr_lim' {L : Nat} {p : Addr} {f : Hdr → Hdr} {s s' : HS} {u : Unit} (hm : Small L s.mem)
    (hf : ∀ hd, inInt hd.size → inInt (f hd).size)
    (h : Heap.updHdr p f s = .val (u, s')) : Small L s'.mem ∧ s'.rs = s.rs := by
  refine ⟨updHdr_lim hm hf h, ?_⟩
  obtain ⟨b, hd, h1, h2, rfl⟩ := updHdr_inv h
  rfl

theorem updGrp_lim {L : Nat} {p : Addr} {f : Grp → Grp} {s s' : HS} {u : Unit} (hm : Small L s.mem)
    (hf : ∀ g, 8 * g.len ≤ L → 8 * (f g).len ≤ L)
    (h : Heap.updGrp p f s = .val (u, s')) : Small L s'.mem ∧ s'.rs = s.rs := by
  obtain ⟨b, hd, h1, h2, rfl⟩ := updGrp_inv h
  exact ⟨hm.set ((hm _ _ h1).setGrp (hf _ (hm.grp h1 h2))), rfl⟩

theorem updLst_lim {L : Nat} {p : Addr} {f : Lst → Lst} {s s' : HS} {u : Unit} (hm : Small L s.mem)
    (hf : ∀ g, 8 * g.plen ≤ L → 8 * (f g).plen ≤ L)
    (h : Heap.updLst p f s = .val (u, s')) : Small L s'.mem ∧ s'.rs = s.rs := by
  obtain ⟨b, hd, h1, h2, rfl⟩ := updLst_inv h
  exact ⟨hm.set ((hm _ _ h1).setLst (hf _ (hm.lst h1 h2))), rfl⟩

theorem setPtr_lim {L : Nat} {a : Addr} {i : Nat} {p : Addr} {s s' : HS} {u : Unit} (hm : Small L s.mem)
    (h : Heap.setPtr a i p s = .val (u, s')) : Small L s'.mem ∧ s'.rs = s.rs := by
  obtain ⟨cs, h1, h2, rfl⟩ := setPtr_inv h
  exact ⟨hm.set trivial, rfl⟩

theorem malloc_lim {L : Nat} {q : Heap.Req} {b : Block} {p : Addr} {s s' : HS} (hm : Small L s.mem)
    (hb : Lim L b) (h : Heap.malloc X.alloc q b s = .val (p, s')) : Small L s'.mem ∧ s'.rs = s.rs := by
  rcases malloc_inv h with ⟨-, -, rfl⟩ | ⟨-, -, rfl⟩
  · exact ⟨hm, rfl⟩
  · exact ⟨hm.set hb, rfl⟩

theorem free_lim {L : Nat} {p : Addr} {s s' : HS} {u : Unit} (hm : Small L s.mem)
    (h : Heap.free p s = .val (u, s')) : Small L s'.mem ∧ s'.rs = s.rs := by
  rcases free_inv h with ⟨-, rfl⟩ | ⟨-, -, rfl⟩
  · exact ⟨hm, rfl⟩
  · exact ⟨hm.unset, rfl⟩

theorem realloc_lim {L : Nat} {a a' : Addr} {k : Nat} {s s' : HS} (hm : Small L s.mem)
    (h : Heap.reallocPtrs X.alloc a k s = .val (a', s')) : Small L s'.mem ∧ s'.rs = s.rs := by
  unfold Heap.reallocPtrs at h
  by_cases h0 : a = 0
  · rw [if_pos h0] at h
    exact malloc_lim hm (b := .ptrs _) trivial h
  · rw [if_neg h0] at h
    cases hm' : s.mem a with
    | none => rw [hm'] at h; cases h
    | some b =>
      rw [hm'] at h
      cases b <;> try cases h
      by_cases h1 : k = 0 ∧ X.alloc.realloc0 = true
      · replace h := (if_pos h1).symm.trans h
        cases h
        exact ⟨hm.unset, rfl⟩
      · replace h := (if_neg h1).symm.trans h
        cases hp : X.alloc.pick s.tick (s.mem.set a none) (.array k) with
        | none => rw [hp] at h; cases h; exact ⟨hm, rfl⟩
        | some x => rw [hp] at h; cases h; exact ⟨hm.unset.set trivial, rfl⟩

/-- group.c:60-66 -/
theorem attachToGroup_lim {L : Nat} {p c : Addr} {s s' : HS} {u : Unit} (hL : L + 8 ≤ 4294967296)
    (hm : Small L s.mem) (h : Heap.attachToGroup X.alloc p c s = .val (u, s')) :
    callFn X (n + 2) .IFF_attachToGroup [.ptr (.struct .IFF_Group) ⟨.heap p, 0⟩,
      .ptr (.struct .IFF_Chunk) ⟨.heap c, 0⟩] (st X stk out room text s) =
      .val (.void, st X stk out room text s') ∧ Small (L + 8) s'.mem ∧ s'.rs = s.rs := by
  unfold Heap.attachToGroup at h
  obtain ⟨g, s1, h1, k1⟩ := bind_inv h
  clear h
  obtain ⟨rfl, hd, sz, rest, hz, hz2, ⟨b, hb1, hb2, hb3⟩, hb⟩ := getGrp_step (X := X) h1
  have hl := hm.grp hb1 hb3
  obtain ⟨a, s2, h2, k2⟩ := bind_inv k1
  have hm2 := realloc_lim hm h2
  obtain ⟨u3, s3, h3, k3⟩ := bind_inv k2
  have hm3 := updGrp_lim hm2.1 (by intro _ h; exact h) h3
  obtain ⟨g3, hd3, sz3, rest3, m3, hz3, hz3', -, hb3, he3, rfl⟩ := updGrp_step (X := X) h3
  obtain ⟨g4, s4, h4, k4⟩ := bind_inv k3
  obtain ⟨rfl, hd4, sz4, rest4, hz4, hz4', ⟨b4, h41, -, h42⟩, hb4⟩ := getGrp_step (X := X) h4
  have hl4 := hm3.1.grp h41 h42
  obtain ⟨u5, s5, h5, k5⟩ := bind_inv k4
  have hm5 := setPtr_lim hm3.1 h5
  obtain ⟨B, m5, hB, hBs, he5, rfl⟩ := setPtr_step (X := X) h5
  obtain ⟨u6, s6, h6, k6⟩ := bind_inv k5
  obtain ⟨g6, hd6, sz6, rest6, m6, hz6, hz6', ⟨b6, h61, h62⟩, hb6, he6, rfl⟩ := updGrp_step (X := X) h6
  have hl6 := hm5.1.grp h61 h62
  have hm6 : Small (L + 8) m6 := by
    obtain ⟨b, hd, h1, h2, h3⟩ := updGrp_inv h6
    injection h3 with h3
    rw [h3]
    exact (hm5.1.mono (by omega)).set (((hm5.1 _ _ h1).mono (by omega)).setGrp (by
      have := hm5.1.grp h1 h2; simp only; omega))
  have hm7 := updHdr_lim' hm6 (by intro _ h; exact h) k6
  obtain ⟨hd7, sz7, rest7, m7, hz7, hb7, he7, rfl⟩ := updHdr_step (X := X) k6
  refine ⟨?_, hm7.1, by rw [hm7.2]; exact hm2.2⟩
  rw [callFn_code rfl]
  have hr := realloc_run (stk := stk) (out := out) (room := room) (text := text) h2
  crun [IFF_attachToGroup.code, blkOf_heap hb, hz2, Ty.size, scalarSize, nat_emod (show g.len < 4294967296 by omega),
    succ_emod (show g.len + 1 < 4294967296 by omega), toSize_toSize, toSize_array (show g.len < 536870912 by omega),
    toSize_array' (show g.len < 536870912 by omega), hr,
    blkOf_heap hb3, hz3', he3, blkOf_heap hb4, hz4', blkOf_heap hB, hBs, Int.natCast_nonneg, Int.toNat_natCast,
    he5, blkOf_heap hb6, hz6', nat_emod (show g6.len < 4294967296 by omega),
    succ_emod (show g6.len + 1 < 4294967296 by omega), nat_emod (show g6.len + 1 < 4294967296 by omega), he6,
    blkOf_heap hb7, hz7, he7, List.take_length]
  

/-- list.c:60-66 -/
theorem attachProp_lim {L : Nat} {p c : Addr} {s s' : HS} {u : Unit} (hL : L + 8 ≤ 4294967296)
    (hm : Small L s.mem) (h : Heap.attachProp X.alloc p c s = .val (u, s'))
    (hc : GrpAt s.mem c) :
    callFn X (n + 2) .addPropToList [.ptr (.struct .IFF_List) ⟨.heap p, 0⟩,
      .ptr (.struct .IFF_Form) ⟨.heap c, 0⟩] (st X stk out room text s) =
      .val (.void, st X stk out room text s') ∧ Small (L + 8) s'.mem ∧ s'.rs = s.rs := by
  unfold Heap.attachProp at h
  obtain ⟨g, s1, h1, k1⟩ := bind_inv h
  clear h
  obtain ⟨rfl, hd, g0, ⟨b, hb1, -, -, hb3⟩, hb⟩ := getLst_step (X := X) h1
  have hl := hm.lst hb1 hb3
  obtain ⟨a, s2, h2, k2⟩ := bind_inv k1
  have hm2 := realloc_lim hm h2
  obtain ⟨u3, s3, h3, k3⟩ := bind_inv k2
  have hm3 := updLst_lim hm2.1 (by intro _ h; exact h) h3
  obtain ⟨g3, hd3, g03, m3, -, hb3, he3, rfl⟩ := updLst_step (X := X) h3
  obtain ⟨g4, s4, h4, k4⟩ := bind_inv k3
  obtain ⟨rfl, hd4, g04, ⟨b4, h41, -, -, h42⟩, hb4⟩ := getLst_step (X := X) h4
  have hl4 := hm3.1.lst h41 h42
  obtain ⟨u5, s5, h5, k5⟩ := bind_inv k4
  have hm5 := setPtr_lim hm3.1 h5
  obtain ⟨B, m5, hB, hBs, he5, rfl⟩ := setPtr_step (X := X) h5
  obtain ⟨u6, s6, h6, k6⟩ := bind_inv k5
  obtain ⟨g6, hd6, g06, m6, ⟨b6, h61, h62⟩, hb6, he6, rfl⟩ := updLst_step (X := X) h6
  have hl6 := hm5.1.lst h61 h62
  have hm6 : Small (L + 8) m6 := by
    obtain ⟨b, hd, h1, h2, h3⟩ := updLst_inv h6
    injection h3 with h3
    rw [h3]
    exact (hm5.1.mono (by omega)).set (((hm5.1 _ _ h1).mono (by omega)).setLst (by
      have := hm5.1.lst h1 h2; simp only; omega))
  have hm7 := updHdr_lim' hm6 (by intro _ h; exact h) k6
  obtain ⟨hd7, sz7, rest7, m7, hz7, hb7, he7, rfl⟩ := updHdr_step (X := X) k6
  have hz8 : Struct.size X.e .IFF_Group ≤ sz7 := by
    have hc6 := updLst_keep (setPtr_keep (updLst_keep (realloc_keep hc h2) h3) h5) h6
    obtain ⟨b, g, hc1, hc2⟩ := hc6
    obtain ⟨hd8, sz8, rest8, -, -, hz8, hl8, -⟩ := grp_layout X hc2
    rw [heapOf_some hc1, hl8] at hb7
    have := congrArg (Option.map Blk.size) hb7
    simp only [Option.map_some, Option.some.injEq] at this
    rw [← this]
    exact hz8
  refine ⟨?_, hm7.1, by rw [hm7.2]; exact hm2.2⟩
  rw [callFn_code rfl]
  have hr := realloc_run (stk := stk) (out := out) (room := room) (text := text) h2
  crun [addPropToList.code, blkOf_heap hb, Ty.size, scalarSize, nat_emod (show g.plen < 4294967296 by omega),
    succ_emod (show g.plen + 1 < 4294967296 by omega), toSize_toSize, toSize_array (show g.plen < 536870912 by omega),
    toSize_array' (show g.plen < 536870912 by omega), hr,
    blkOf_heap hb3, he3, blkOf_heap hb4, blkOf_heap hB, hBs, Int.natCast_nonneg, Int.toNat_natCast,
    he5, blkOf_heap hb6, nat_emod (show g6.plen < 4294967296 by omega),
    succ_emod (show g6.plen + 1 < 4294967296 by omega), nat_emod (show g6.plen + 1 < 4294967296 by omega), he6,
    blkOf_heap hb7, hz8, hz7, he7, List.take_length]


/-! ### Creation -/

theorem inInt_idSize : inInt 4 := by decide

theorem idSize_eq : ((idSize : Nat) : Int) = 4 := rfl

/-- group.c:50-53 -/
theorem createEmptyGroup_run {t v : ITy} {id ty : ID} {p : Addr} {s s' : HS}
    (h : Heap.createEmptyGroup X.alloc id ty s = .val (p, s')) :
    callFn X (n + 4) .IFF_createEmptyGroup [.int t id.toNat, .int v ty.toNat]
      (st X stk out room text s) = .val (.ptr (.struct .IFF_Group) (.ofAddr p),
        st X stk out room text s') := by
  have h1 := createGroup_run (n := n) (stk := stk) (out := out) (room := room) (text := text)
    (t := .uint) (u := .int) (v := .uint) inInt_idSize h
  rw [callFn_code rfl]
  crun [IFF_createEmptyGroup.code, IFF_ID_SIZE, toNat_emod, wrapInt_of inInt_idSize, List.take_length, h1]

/-- form.c:68-71 -/
theorem createEmptyForm_run {ty : ID} {p : Addr} {s s' : HS}
    (h : Heap.createEmptyGroup X.alloc idFORM ty s = .val (p, s')) :
    callFn X (n + 5) .IFF_createEmptyForm [.int .uint ty.toNat]
      (st X stk out room text s) = .val (.ptr (.struct .IFF_Form) (.ofAddr p),
        st X stk out room text s') := by
  have h1 := createEmptyGroup_run (n := n) (stk := stk) (out := out) (room := room) (text := text)
    (t := .int) (v := .uint) h
  rw [callFn_code rfl]
  crun [IFF_createEmptyForm.code, ↓evalE_FORM, toNat_emod, List.take_length, h1]

/-- prop.c:39-42 -/
theorem createEmptyProp_run {ty : ID} {p : Addr} {s s' : HS}
    (h : Heap.createEmptyGroup X.alloc idPROP ty s = .val (p, s')) :
    callFn X (n + 5) .IFF_createEmptyProp [.int .uint ty.toNat]
      (st X stk out room text s) = .val (.ptr (.struct .IFF_Form) (.ofAddr p),
        st X stk out room text s') := by
  have h1 := createEmptyGroup_run (n := n) (stk := stk) (out := out) (room := room) (text := text)
    (t := .int) (v := .uint) h
  rw [callFn_code rfl]
  crun [IFF_createEmptyProp.code, ↓evalE_PROP, toNat_emod, List.take_length, h1]

/-- cat.c:35-38 -/
theorem createEmptyCATWith_run {v : ITy} {ty : ID} {p : Addr} {s s' : HS}
    (h : Heap.createEmptyGroup X.alloc idCAT ty s = .val (p, s')) :
    callFn X (n + 5) .IFF_createEmptyCATWithContentsType [.int v ty.toNat]
      (st X stk out room text s) = .val (.ptr (.struct .IFF_CAT) (.ofAddr p),
        st X stk out room text s') := by
  have h1 := createEmptyGroup_run (n := n) (stk := stk) (out := out) (room := room) (text := text)
    (t := .int) (v := .uint) h
  rw [callFn_code rfl]
  crun [IFF_createEmptyCATWithContentsType.code, ↓evalE_CAT, toNat_emod, List.take_length, h1]

/-- cat.c:40-43 -/
theorem createEmptyCAT_run {p : Addr} {s s' : HS}
    (h : Heap.createEmptyGroup X.alloc idCAT idJJJJ s = .val (p, s')) :
    callFn X (n + 6) .IFF_createEmptyCAT []
      (st X stk out room text s) = .val (.ptr (.struct .IFF_CAT) (.ofAddr p),
        st X stk out room text s') := by
  have h1 := createEmptyCATWith_run (n := n) (stk := stk) (out := out) (room := room) (text := text)
    (v := .int) h
  rw [callFn_code rfl]
  crun [IFF_createEmptyCAT.code, ↓evalE_JJJJ, List.take_length, h1]

/-- list.c:45-48 -/
theorem createEmptyListWith_run {v : ITy} {ty : ID} {p : Addr} {s s' : HS}
    (h : Heap.createEmptyList X.alloc ty s = .val (p, s')) :
    callFn X (n + 4) .IFF_createEmptyListWithContentsType [.int v ty.toNat]
      (st X stk out room text s) = .val (.ptr (.struct .IFF_List) (.ofAddr p),
        st X stk out room text s') := by
  have h1 := createList_run (n := n) (stk := stk) (out := out) (room := room) (text := text)
    (u := .int) (v := .uint) inInt_idSize h
  rw [callFn_code rfl]
  crun [IFF_createEmptyListWithContentsType.code, IFF_ID_SIZE, toNat_emod, List.take_length, h1]

/-- list.c:50-53 -/
theorem createEmptyList_run {p : Addr} {s s' : HS}
    (h : Heap.createEmptyList X.alloc idJJJJ s = .val (p, s')) :
    callFn X (n + 5) .IFF_createEmptyList []
      (st X stk out room text s) = .val (.ptr (.struct .IFF_List) (.ofAddr p),
        st X stk out room text s') := by
  have h1 := createEmptyListWith_run (n := n) (stk := stk) (out := out) (room := room) (text := text)
    (v := .int) h
  rw [callFn_code rfl]
  crun [IFF_createEmptyList.code, ↓evalE_JJJJ, List.take_length, h1]

/-! ### Adding -/

theorem attach_grp {p c : Addr} {s s' : HS} {u : Unit}
    (h : Heap.attachToGroup X.alloc p c s = .val (u, s')) :
    ∃ b g, s'.mem p = some b ∧ b.grp? = some g := by
  unfold Heap.attachToGroup at h
  obtain ⟨g, s1, h1, k1⟩ := bind_inv h
  obtain ⟨a, s2, h2, k2⟩ := bind_inv k1
  obtain ⟨u3, s3, h3, k3⟩ := bind_inv k2
  obtain ⟨g4, s4, h4, k4⟩ := bind_inv k3
  obtain ⟨u5, s5, h5, k5⟩ := bind_inv k4
  obtain ⟨u6, s6, h6, k6⟩ := bind_inv k5
  obtain ⟨b, g6, hb1, hb2, rfl⟩ := updGrp_inv h6
  have hg : ∃ g', (b.setGrp { g6 with len := g6.len + 1 }).grp? = some g' := by
    cases b <;> cases hb2 <;> exact ⟨_, rfl⟩
  obtain ⟨g', hg'⟩ := hg
  obtain ⟨b', h1, h2⟩ := (updHdr_same k6).grp (a := p) (by simp only [Mem.set, if_true]) hg'
  exact ⟨b', g', h1, h2⟩

theorem attach_lst {p c : Addr} {s s' : HS} {u : Unit}
    (h : Heap.attachProp X.alloc p c s = .val (u, s')) :
    ∃ b l, s'.mem p = some b ∧ b.lst? = some l := by
  unfold Heap.attachProp at h
  obtain ⟨g, s1, h1, k1⟩ := bind_inv h
  obtain ⟨a, s2, h2, k2⟩ := bind_inv k1
  obtain ⟨u3, s3, h3, k3⟩ := bind_inv k2
  obtain ⟨g4, s4, h4, k4⟩ := bind_inv k3
  obtain ⟨u5, s5, h5, k5⟩ := bind_inv k4
  obtain ⟨u6, s6, h6, k6⟩ := bind_inv k5
  obtain ⟨b, g6, hb1, hb2, rfl⟩ := updLst_inv h6
  have hg : ∃ g', (b.setLst { g6 with plen := g6.plen + 1 }).lst? = some g' := by
    cases b <;> cases hb2 <;> exact ⟨_, rfl⟩
  obtain ⟨g', hg'⟩ := hg
  obtain ⟨b', h1, h2⟩ := (updHdr_same k6).lst (a := p) (by simp only [Mem.set, if_true]) hg'
  exact ⟨b', g', h1, h2⟩

theorem growSize_inv {L : Nat} {p c : Addr} {s s' : HS} {u : Unit} (hm : Small L s.mem)
    (h : Heap.growSize X.e p c s = .val (u, s')) : ∃ (b bc : Block) (hd hc : Hdr) (z : Int),
      s.mem p = some b ∧ b.hdr? = some hd ∧ s.mem c = some bc ∧ bc.hdr? = some hc ∧
      incrementChunkSize X.e hd.size hc.size = .val z ∧ inInt z ∧
      s' = { s with mem := s.mem.set p (some (b.setHdr { hd with size := z })) } ∧ Small L s'.mem := by
  unfold Heap.growSize at h
  obtain ⟨hd, s1, h1, k1⟩ := bind_inv h
  obtain ⟨⟨b, hb1, hb2⟩, rfl⟩ := getHdr_inv h1
  obtain ⟨hc, s2, h2, k2⟩ := bind_inv k1
  obtain ⟨⟨bc, hc1, hc2⟩, rfl⟩ := getHdr_inv h2
  obtain ⟨z, s3, h3, k3⟩ := bind_inv k2
  obtain ⟨h3, rfl⟩ := ofOut_inv h3
  have hz := (incrementChunkSize_inv ‹_›).2.1
  have hm' := updHdr_lim hm (fun _ _ => hz) k3
  obtain ⟨b', hd', hb1', hb2', rfl⟩ := updHdr_inv k3
  rw [hb1] at hb1'; cases hb1'
  rw [hb2] at hb2'; cases hb2'
  exact ⟨b, bc, hd, hc, z, hb1, hb2, hc1, hc2, ‹_›, hz, rfl, hm'⟩

/-- group.c:68-72 -/
theorem addToGroup_run {L : Nat} {p c : Addr} {s s' : HS} {u : Unit} (hL : L + 8 ≤ 4294967296)
    (hm : Small L s.mem) (h : Heap.addToGroup X.alloc X.e p c s = .val (u, s')) :
    callFn X (n + 3) .IFF_addToGroup [.ptr (.struct .IFF_Group) ⟨.heap p, 0⟩,
      .ptr (.struct .IFF_Chunk) ⟨.heap c, 0⟩] (st X stk out room text s) =
      .val (.void, st X stk out room text s') ∧ Small (L + 8) s'.mem ∧ s'.rs = s.rs := by
  unfold Heap.addToGroup at h
  obtain ⟨u1, s1, h1, k1⟩ := bind_inv h
  obtain ⟨ha, hm1, hr1⟩ := attachToGroup_lim (n := n) (stk := stk) (out := out) (room := room) (text := text) hL hm h1
  obtain ⟨b, g, hb1, hb2⟩ := attach_grp h1
  obtain ⟨b', bc, hd, hc, z, hb1', hb3, hc1, hc2, hz, hzi, rfl, hm2⟩ := growSize_inv hm1 k1
  rw [hb1] at hb1'; cases hb1'
  refine ⟨?_, hm2, hr1⟩
  obtain ⟨sz, rest, hz0, hz1, hly, hly'⟩ := grp_layout_hdr X hb2 hb3
  have hb := heapOf_some (e := X.e) hb1
  rw [hly] at hb
  obtain ⟨szc, restc, hzc, hlc, -⟩ := hdr_layout X hc2
  have hbc := heapOf_some (e := X.e) hc1
  rw [hlc] at hbc
  have he6 := heapOf_set (e := X.e) (m := s1.mem) (a := p) (b := some (b.setHdr { hd with size := z }))
  rw [Option.map_some, hly'] at he6
  have hinc := incrementChunkSize_run (X := X) (n := n + 1) (tick := s1.tick) (stk := stk) (inp := s1.rs.inp) (out := out)
    (room := room) (text := text) (log := errCalls X.e s1.rs.log) hzc hbc (hm1.hdr hb1 hb3) (hm1.hdr hc1 hc2) hz
  rw [callFn_code rfl]
  crun [IFF_addToGroup.code, ha, blkOf_heap hb, hz0, hz1, wrapInt_of (hm1.hdr hb1 hb3), hinc, wrapInt_of hzi, ← he6, List.take_length]

/-- list.c:68-72 -/
theorem addProp_run {L : Nat} {p c : Addr} {s s' : HS} {u : Unit} (hL : L + 8 ≤ 4294967296)
    (hm : Small L s.mem) (h : Heap.addPropToList X.alloc X.e p c s = .val (u, s')) (hc : GrpAt s.mem c) :
    callFn X (n + 3) .IFF_addPropToList [.ptr (.struct .IFF_List) ⟨.heap p, 0⟩,
      .ptr (.struct .IFF_Form) ⟨.heap c, 0⟩] (st X stk out room text s) =
      .val (.void, st X stk out room text s') ∧ Small (L + 8) s'.mem ∧ s'.rs = s.rs := by
  unfold Heap.addPropToList at h
  obtain ⟨u1, s1, h1, k1⟩ := bind_inv h
  obtain ⟨ha, hm1, hr1⟩ := attachProp_lim (n := n) (stk := stk) (out := out) (room := room) (text := text) hL hm h1 hc
  obtain ⟨b, l, hb1, hb2⟩ := attach_lst h1
  obtain ⟨b', bc, hd, hc, z, hb1', hb3, hc1, hc2, hz, hzi, rfl, hm2⟩ := growSize_inv hm1 k1
  rw [hb1] at hb1'; cases hb1'
  refine ⟨?_, hm2, hr1⟩
  obtain ⟨g, hly, hly'⟩ := lst_layout_hdr X hb2 hb3
  have hb := heapOf_some (e := X.e) hb1
  rw [hly] at hb
  obtain ⟨szc, restc, hzc, hlc, -⟩ := hdr_layout X hc2
  have hbc := heapOf_some (e := X.e) hc1
  rw [hlc] at hbc
  have he6 := heapOf_set (e := X.e) (m := s1.mem) (a := p) (b := some (b.setHdr { hd with size := z }))
  rw [Option.map_some, hly'] at he6
  have hinc := incrementChunkSize_run (X := X) (n := n + 1) (tick := s1.tick) (stk := stk) (inp := s1.rs.inp) (out := out)
    (room := room) (text := text) (log := errCalls X.e s1.rs.log) hzc hbc (hm1.hdr hb1 hb3) (hm1.hdr hc1 hc2) hz
  rw [callFn_code rfl]
  crun [IFF_addPropToList.code, ha, blkOf_heap hb, wrapInt_of (hm1.hdr hb1 hb3), hinc, wrapInt_of hzi, ← he6, List.take_length]

/-- form.c:78-81 -/
theorem addToForm_run {L : Nat} {p c : Addr} {s s' : HS} {u : Unit} (hL : L + 8 ≤ 4294967296)
    (hm : Small L s.mem) (h : Heap.addToGroup X.alloc X.e p c s = .val (u, s')) :
    callFn X (n + 4) .IFF_addToForm [.ptr (.struct .IFF_Form) ⟨.heap p, 0⟩,
      .ptr (.struct .IFF_Chunk) ⟨.heap c, 0⟩] (st X stk out room text s) =
      .val (.void, st X stk out room text s') := by
  have h1 := (addToGroup_run (n := n) (stk := stk) (out := out) (room := room) (text := text) hL hm h).1
  rw [callFn_code rfl]
  crun [IFF_addToForm.code, List.take_length, h1]

/-- prop.c:49-52 -/
theorem addToProp_run {L : Nat} {p c : Addr} {s s' : HS} {u : Unit} (hL : L + 8 ≤ 4294967296)
    (hm : Small L s.mem) (h : Heap.addToGroup X.alloc X.e p c s = .val (u, s')) :
    callFn X (n + 5) .IFF_addToProp [.ptr (.struct .IFF_Form) ⟨.heap p, 0⟩,
      .ptr (.struct .IFF_Chunk) ⟨.heap c, 0⟩] (st X stk out room text s) =
      .val (.void, st X stk out room text s') := by
  have h1 := addToForm_run (n := n) (stk := stk) (out := out) (room := room) (text := text) hL hm h
  rw [callFn_code rfl]
  crun [IFF_addToProp.code, List.take_length, h1]

/-- cat.c:68-71 -/
theorem addToCAT_run {L : Nat} {p c : Addr} {s s' : HS} {u : Unit} (hL : L + 8 ≤ 4294967296)
    (hm : Small L s.mem) (h : Heap.addToGroup X.alloc X.e p c s = .val (u, s')) :
    callFn X (n + 4) .IFF_addToCAT [.ptr (.struct .IFF_CAT) ⟨.heap p, 0⟩,
      .ptr (.struct .IFF_Chunk) ⟨.heap c, 0⟩] (st X stk out room text s) =
      .val (.void, st X stk out room text s') := by
  have h1 := (addToGroup_run (n := n) (stk := stk) (out := out) (room := room) (text := text) hL hm h).1
  rw [callFn_code rfl]
  crun [IFF_addToCAT.code, List.take_length, h1]

/-- list.c:74-77 -/
theorem addToList_run {L : Nat} {p c : Addr} {s s' : HS} {u : Unit} (hL : L + 8 ≤ 4294967296)
    (hm : Small L s.mem) (h : Heap.addToGroup X.alloc X.e p c s = .val (u, s')) :
    callFn X (n + 5) .IFF_addToList [.ptr (.struct .IFF_List) ⟨.heap p, 0⟩,
      .ptr (.struct .IFF_Chunk) ⟨.heap c, 0⟩] (st X stk out room text s) =
      .val (.void, st X stk out room text s') := by
  have h1 := (addToGroup_run (n := n + 1) (stk := stk) (out := out) (room := room) (text := text) hL hm h).1
  have h2 := addToCAT_run (n := n) (stk := stk) (out := out) (room := room) (text := text) hL hm h
  rw [callFn_code rfl]
  crun [IFF_addToList.code, List.take_length, h1, h2]

/-! ### Contents types -/

/-- cat.c:55-66 -/
theorem updateContentsType_run {L : Nat} {p c : Addr} {s s' : HS} {u : Unit}
    (hL : L ≤ 34359738360) (hm : Small L s.mem) (h : Heap.updateContentsType p c s = .val (u, s')) :
    callFn X (n + 2) .updateContentsType [.ptr (.struct .IFF_CAT) ⟨.heap p, 0⟩,
      .ptr (.struct .IFF_Chunk) ⟨.heap c, 0⟩] (st X stk out room text s) =
      .val (.void, st X stk out room text s') ∧ Small L s'.mem ∧ s'.rs = s.rs := by
  unfold Heap.updateContentsType at h
  obtain ⟨hd, s1, h1, k1⟩ := bind_inv h
  obtain ⟨⟨bc, hc1, hc2⟩, rfl⟩ := getHdr_inv h1
  obtain ⟨szc, restc, hzc, hlc, -⟩ := hdr_layout X hc2
  have hbc := heapOf_some (e := X.e) hc1
  rw [hlc] at hbc
  have hv := checkValid_run (X := X) (n := n) (heap := heapOf X.e s1.mem) (tick := s1.tick) (stk := stk) (inp := s1.rs.inp)
    (out := out) (room := room) (text := text) (log := errCalls X.e s1.rs.log) (id := hd.id)
  rw [callFn_code rfl]
  cases hh : checkValidCATSubChunkId hd.id with
  | false =>
    rw [hh] at k1 hv
    simp only [Bool.false_eq_true, if_false] at k1
    obtain ⟨-, rfl⟩ := pure_inv k1
    refine ⟨?_, hm, rfl⟩
    crun [updateContentsType.code, blkOf_heap hbc, hzc, toNat_emod, hv, List.take_length]
  | true =>
    rw [hh] at k1 hv
    simp only [if_true] at k1
    obtain ⟨gc, s2, h2, k2⟩ := bind_inv k1
    obtain ⟨⟨bc', hc1', hc3⟩, rfl⟩ := getGrp_inv h2
    rw [hc1] at hc1'; cases hc1'
    have hm' := updGrp_lim hm (by intro g hg; exact hg) k2
    obtain ⟨b, g, hb1, hb2, rfl⟩ := updGrp_inv k2
    have hlim := hm.grp hb1 hb2
    refine ⟨?_, hm'.1, rfl⟩
    obtain ⟨hd', szp, restp, -, hzp, hzp', hly, hly'⟩ := grp_layout X hb2
    have hb := heapOf_some (e := X.e) hb1
    rw [hly] at hb
    obtain ⟨hd2, szc, restc, hhd, hzc, hzc', hlc, -⟩ := grp_layout X hc3
    rw [hc2] at hhd; cases hhd
    have hbc := heapOf_some (e := X.e) hc1
    rw [hlc] at hbc
    have he6 := heapOf_set (e := X.e) (m := s2.mem) (a := p)
      (b := some (b.setGrp { g with ty := newContentsType (g.len = 0) g.ty gc.ty }))
    rw [Option.map_some, hly'] at he6
    obtain ⟨gty, glen, garr⟩ := g
    simp only at hb he6 hlim ⊢
    by_cases hl : glen = 0
    · subst hl
      have hn : newContentsType true gty gc.ty = gc.ty := by simp [newContentsType]
      simp only [decide_true, hn] at he6 ⊢
      crun [updateContentsType.code, blkOf_heap hbc, hzc, hzc', toNat_emod, hv, blkOf_heap hb, hzp, hzp',
        List.take_length]
      simp only [st, he6]; rfl
    · have hl' : ((glen : Int) % 4294967296 == 0) = false := by
        rw [Int.emod_eq_of_lt (by omega) (by omega)]; simpa using hl
      simp only [newContentsType, hl, decide_false, Bool.false_eq_true, if_false] at he6 ⊢
      by_cases i1 : gty = idJJJJ
      · rw [if_neg (by simp [i1])] at he6 ⊢
        crun [updateContentsType.code, blkOf_heap hbc, hzc, hzc', toNat_emod, hv, blkOf_heap hb, hzp, hzp', ↓evalE_JJJJ,
          hl', uint_bne, decide_eq_true i1, List.take_length, Bool.false_eq_true, if_false]
        have hsame : s2.mem.set p (some (b.setGrp ⟨gty, glen, garr⟩)) = s2.mem := by
          have : b.setGrp ⟨gty, glen, garr⟩ = b := by cases b <;> cases hb2 <;> rfl
          funext x
          simp only [Mem.set, this]
          split
          · next h => rw [h, hb1]
          · rfl
        simp only [st, hsame]
      · by_cases i2 : gty = gc.ty
        · rw [if_neg (by simp [i2])] at he6 ⊢
          crun [updateContentsType.code, blkOf_heap hbc, hzc, hzc', toNat_emod, hv, blkOf_heap hb, hzp, hzp', ↓evalE_JJJJ,
            hl', uint_bne, decide_eq_false i1, decide_eq_true i2, List.take_length, Bool.false_eq_true, if_false]
          have hsame : s2.mem.set p (some (b.setGrp ⟨gty, glen, garr⟩)) = s2.mem := by
            have : b.setGrp ⟨gty, glen, garr⟩ = b := by cases b <;> cases hb2 <;> rfl
            funext x
            simp only [Mem.set, this]
            split
            · next h => rw [h, hb1]
            · rfl
          simp only [st, hsame]
        · rw [if_pos ⟨i1, i2⟩] at he6 ⊢
          crun [updateContentsType.code, blkOf_heap hbc, hzc, hzc', toNat_emod, hv, blkOf_heap hb, hzp, hzp', ↓evalE_JJJJ,
            hl', uint_bne, decide_eq_false i1, decide_eq_false i2, List.take_length, Bool.false_eq_true, if_false]
          simp only [st, he6]

/-- cat.c:73-77 -/
theorem addAndUpdate_run {L : Nat} {p c : Addr} {s s' : HS} {u : Unit} (hL : L + 8 ≤ 4294967296)
    (hm : Small L s.mem) (h : Heap.addAndUpdate X.alloc X.e p c s = .val (u, s')) :
    callFn X (n + 5) .IFF_addToCATAndUpdateContentsType [.ptr (.struct .IFF_CAT) ⟨.heap p, 0⟩,
      .ptr (.struct .IFF_Chunk) ⟨.heap c, 0⟩] (st X stk out room text s) =
      .val (.void, st X stk out room text s') ∧ Small (L + 8) s'.mem ∧ s'.rs = s.rs := by
  unfold Heap.addAndUpdate at h
  obtain ⟨u1, s1, h1, k1⟩ := bind_inv h
  obtain ⟨ha, hm1, hr1⟩ := updateContentsType_run (X := X) (n := n + 2) (stk := stk) (out := out) (room := room) (text := text)
    (by omega) hm h1
  have hb := addToCAT_run (n := n) (stk := stk) (out := out) (room := room) (text := text) hL hm1 k1
  obtain ⟨-, hm2, hr2⟩ := addToGroup_run (n := n) (stk := stk) (out := out) (room := room) (text := text) hL hm1 k1
  refine ⟨?_, hm2, hr2.trans hr1⟩
  rw [callFn_code rfl]
  crun [IFF_addToCATAndUpdateContentsType.code, List.take_length, ha, hb]

/-- list.c:79-82 -/
theorem addAndUpdateList_run {L : Nat} {p c : Addr} {s s' : HS} {u : Unit} (hL : L + 8 ≤ 4294967296)
    (hm : Small L s.mem) (h : Heap.addAndUpdate X.alloc X.e p c s = .val (u, s')) :
    callFn X (n + 6) .IFF_addToListAndUpdateContentsType [.ptr (.struct .IFF_List) ⟨.heap p, 0⟩,
      .ptr (.struct .IFF_Chunk) ⟨.heap c, 0⟩] (st X stk out room text s) =
      .val (.void, st X stk out room text s') := by
  have h1 := (addAndUpdate_run (n := n) (stk := stk) (out := out) (room := room) (text := text) hL hm h).1
  rw [callFn_code rfl]
  crun [IFF_addToListAndUpdateContentsType.code, List.take_length, h1]

/-! ### Data -/

/-- `memcpy` to the contents of a raw chunk. -/
theorem memcpy_bytes {d : Addr} {k : Nat} {data : List Byte} {src : V} {s s' : HS} {u : Unit}
    (hs : (∃ o, src = .ptr (.int .uchar) ⟨o, 0⟩ ∧
        (st X stk out room text s).blk X o = some (layout X.e (.bytes (data.map some)))) ∨
      ∃ t, src = .str t ∧ cString t = data)
    (h : Heap.copyBytes d data k s = .val (u, s')) :
    memcpyC X (.heap d) src k (st X stk out room text s) =
      .val (.ptr .void ⟨.heap d, 0⟩, st X stk out room text s') := by
  unfold Heap.copyBytes at h
  obtain ⟨b, s1, h1, k1⟩ := bind_inv h
  obtain ⟨hm, rfl⟩ := load_inv h1
  cases b <;> first | (cases k1; done) | skip
  rename_i cs
  simp only at k1
  by_cases hn : k ≤ data.length ∧ k ≤ cs.length
  · rw [if_pos hn] at k1
    obtain ⟨-, rfl⟩ := store_inv k1
    have hl : (data.take k).length ≤ cs.length := by rw [List.length_take]; omega
    have hlk : (data.take k).length = k := by rw [List.length_take]; omega
    have hd : (st X stk out room text s1).blk X (.heap d) = some (layout X.e (.bytes cs)) := heapOf_some hm
    have hsz : k ≤ (layout X.e (.bytes cs)).size := hn.2
    have hput := layout_putBytes (e := X.e) hl
    rw [hlk] at hput
    rcases hs with ⟨o, rfl, ho⟩ | ⟨t, rfl, rfl⟩
    · have hsz' : k ≤ (layout X.e (.bytes (data.map some))).size := by
        simp only [layout, List.length_map]; exact hn.1
      have hg : (layout X.e (.bytes (data.map some))).getBytes k = some (data.take k) := by
        simp only [Blk.getBytes, layout]
        rw [getBytes_cells (by simpa using hn.1), ← List.map_take]
        exact Heap.mapM_some _
      simp only [memcpyC, hd, ho, if_pos hsz', hg, if_pos hsz, CS.setBlk, hput]
      simp only [st, heapOf_set, Option.map_some]
    · simp only [memcpyC, hd, if_pos hn.1, if_pos hsz, CS.setBlk, hput]
      simp only [st, heapOf_set, Option.map_some]
  · rw [if_neg hn] at k1; cases k1

/-- rawchunk.c:48-51 -/
theorem copyData_run {p : Addr} {o : Obj} {data : List Byte} {s s' : HS} {u : Unit}
    (ho : (st X stk out room text s).blk X o = some (layout X.e (.bytes (data.map some))))
    (hm : Rep s.mem)
    (h : Heap.copyData X.e p data s = .val (u, s')) :
    callFn X (n + 2) .IFF_copyDataToRawChunkData [.ptr (.struct .IFF_RawChunk) ⟨.heap p, 0⟩,
      .ptr (.int .uchar) ⟨o, 0⟩] (st X stk out room text s) =
      .val (.void, st X stk out room text s') := by
  unfold Heap.copyData at h
  obtain ⟨b, s1, h1, k1⟩ := bind_inv h
  obtain ⟨hm, rfl⟩ := load_inv h1
  cases b <;> first | (cases k1; done) | skip
  rename_i hd d
  simp only at k1
  have hc : prim X (callFn X n) .memcpy [.ptr (.int .uchar) ⟨.heap d, 0⟩, .ptr (.int .uchar) ⟨o, 0⟩, .int .int hd.size]
      (st X stk out room text s1) = _ :=
    memcpy_bytes (stk := stk) (out := out) (room := room) (text := text) (.inl ⟨o, rfl, ho⟩) k1
  have hb : heapOf X.e s1.mem p = some ⟨Struct.size X.e .IFF_RawChunk, cells [.ptr (.ofAddr hd.parent),
    .int .uint hd.id.toNat, .int .int hd.size, .ptr ⟨.heap d, 0⟩]⟩ := heapOf_some (e := X.e) hm
  rw [callFn_code rfl]
  crun [IFF_copyDataToRawChunkData.code, blkOf_heap hb, List.take_length, hc]

/-- rawchunk.c:53-57 -/
theorem setRawData_run {v : ITy} {p d : Addr} {size z : Int} {s s' : HS} {u : Unit} (hz : wrapInt size = z)
    (h : Heap.setRawData p d z s = .val (u, s')) :
    callFn X (n + 1) .IFF_setRawChunkData [.ptr (.struct .IFF_RawChunk) ⟨.heap p, 0⟩,
      .ptr (.int .uchar) ⟨.heap d, 0⟩, .int v size] (st X stk out room text s) =
      .val (.void, st X stk out room text s') := by
  unfold Heap.setRawData at h
  obtain ⟨b, s1, h1, k1⟩ := bind_inv h
  obtain ⟨hm, rfl⟩ := load_inv h1
  cases b <;> first | (cases k1; done) | skip
  rename_i hd d0
  simp only at k1
  obtain ⟨-, rfl⟩ := store_inv k1
  have hb : heapOf X.e s1.mem p = some ⟨Struct.size X.e .IFF_RawChunk, cells [.ptr (.ofAddr hd.parent),
    .int .uint hd.id.toNat, .int .int hd.size, .ptr ⟨.heap d0, 0⟩]⟩ := heapOf_some (e := X.e) hm
  have he6 := heapOf_set (e := X.e) (m := s1.mem) (a := p) (b := some (.raw { hd with size := z } d))
  have hl : layout X.e (.raw { hd with size := z } d) = ⟨Struct.size X.e .IFF_RawChunk, cells [.ptr (.ofAddr hd.parent),
    .int .uint hd.id.toNat, .int .int z, .ptr ⟨.heap d, 0⟩]⟩ := rfl
  rw [Option.map_some, hl] at he6
  have hzi : wrapInt z = z := by rw [← hz]; exact wrapInt_of (wrapInt_inInt _)
  rw [callFn_code rfl]
  crun [IFF_setRawChunkData.code, blkOf_heap hb, blkOf_heap setHeap_self, setHeap_setHeap, List.take_length, hz, hzi, ← he6]

/-- rawchunk.c:59-66 -/
theorem setText_run {p : Addr} {t : String} {s s' : HS} {u : Unit}
    (h0 : (0 : Byte) ∉ cString t) (hl : (cString t).length < 4294967296)
    (h : Heap.setText X.alloc p (cString t) s = .val (u, s')) :
    callFn X (n + 2) .IFF_setTextData [.ptr (.struct .IFF_RawChunk) ⟨.heap p, 0⟩,
      .str t] (st X stk out room text s) =
      .val (.void, st X stk out room text s') := by
  unfold Heap.setText at h
  obtain ⟨d, s1, h1, k1⟩ := bind_inv h
  obtain ⟨u2, s2, h2, k2⟩ := bind_inv k1
  have hlen := toSize_nat (X := X) hl
  have hone : toSize X.e 1 = 1 := toSize_lit (by decide)
  have hset := setRawData_run (X := X) (n := n) (v := .size) (stk := stk) (out := out) (room := room) (text := text) rfl k2
  have hcpy : prim X (callFn X n) .memcpy [.ptr (.int .uchar) ⟨.heap d, 0⟩, .str t, .int .size (cString t).length]
      (st X stk out room text s1) = .val (.ptr .void ⟨.heap d, 0⟩, st X stk out room text s2) := by
    have := memcpy_bytes (X := X) (stk := stk) (out := out) (room := room) (text := text) (.inr ⟨t, rfl, rfl⟩) h2
    rw [← hlen] at this
    exact this
  have hstr : ∀ g, prim X (callFn X n) .strlen [.str t] g = .val (.int .size (cString t).length, g) := by
    intro g
    show (if (0 : Byte) ∈ cString t then M.ub .badArgument else pure (V.int .size (toSize X.e (cString t).length)) : M CS V) g = _
    rw [if_neg h0, hlen]; rfl
  have hmal : mallocC X (cString t).length (cells []) (st X stk out room text s) =
      .val (.ptr .void ⟨.heap d, 0⟩, st X stk out room text s1) := by
    rcases malloc_inv h1 with ⟨hp, rfl, rfl⟩ | ⟨hp, hd0, rfl⟩
    · rw [pick_alloc rfl] at hp
      exact mallocC_none hp
    · rw [pick_alloc rfl] at hp
      refine (mallocC_some hp).trans ?_
      simp only [st, heapOf_set, Option.map_some, layout, List.length_replicate, ← cells_nil_bytes]
      rfl
  rw [callFn_code rfl]
  crun [IFF_setTextData.code, List.take_length, hstr, hlen, Ty.size, scalarSize, ITy.bits, hone, Int.natCast_one,
    Int.mul_one, hmal, hcpy, hset]

end
end Iff.Src
