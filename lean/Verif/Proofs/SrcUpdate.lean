import Verif.Proofs.SrcLookup
import Verif.Heap.Update
/-
  Recomputing sizes: group.c:281-289, 314-336, list.c:285-293.
-/
namespace Iff.Src
set_option maxRecDepth 4000
open Heap (Addr Block Mem HS Hdr Grp Lst)

/-! ### Limits -/

theorem Small.of_rep {m : Mem} (h : Rep m) : Small 34359738360 m := by
  intro a b hb
  have := h a b hb
  cases b <;> simp only [Lim, Fits] at this ⊢ <;> first | exact this | (obtain ⟨h1, h2⟩ := this; refine ⟨h1, ?_⟩; omega)

theorem Small.rep {L : Nat} {m : Mem} (h : Small L m) (hL : L ≤ 34359738360) : Rep m := by
  intro a b hb
  have := h a b hb
  cases b <;> simp only [Lim, Fits] at this ⊢ <;> first | exact this | (obtain ⟨h1, h2⟩ := this; refine ⟨h1, ?_⟩; omega)

theorem Small.of_bd {L : Nat} {m : Mem} (h : MBd L m) : Small L m := by
  intro a b hb
  have := h a b hb
  cases b <;> simp only [Lim, Bd] at this ⊢ <;> first | exact this | exact this.1

theorem Lim.mono {L L' : Nat} (h : L ≤ L') {b : Block} (hb : Lim L b) : Lim L' b := by
  cases b <;> simp only [Lim] at hb ⊢ <;> first | exact hb | (obtain ⟨h1, h2⟩ := hb; refine ⟨h1, ?_⟩; omega)

theorem Small.mono {L L' : Nat} (h : L ≤ L') {m : Mem} (hm : Small L m) : Small L' m :=
  fun a b hb => (hm a b hb).mono h

theorem Small.set {L : Nat} {m : Mem} {a : Addr} {b : Block} (hm : Small L m) (hb : Lim L b) :
    Small L (m.set a (some b)) := by
  intro x y h
  simp only [Mem.set] at h
  split at h
  · cases h; exact hb
  · exact hm x y h

theorem Small.unset {L : Nat} {m : Mem} {a : Addr} (hm : Small L m) : Small L (m.set a none) := by
  intro x y h
  simp only [Mem.set] at h
  split at h
  · cases h
  · exact hm x y h

theorem Small.hdr {L : Nat} {m : Mem} {a : Addr} {b : Block} {hd : Hdr} (hm : Small L m)
    (h : m a = some b) (hb : b.hdr? = some hd) : inInt hd.size := by
  have := hm a b h
  cases b <;> cases hb <;> first | exact this | exact this.1

theorem Small.grp {L : Nat} {m : Mem} {a : Addr} {b : Block} {g : Grp} (hm : Small L m)
    (h : m a = some b) (hb : b.grp? = some g) : 8 * g.len ≤ L := by
  have := hm a b h
  cases b <;> cases hb
  · exact this.2
  · exact this.2.1

theorem Small.lst {L : Nat} {m : Mem} {a : Addr} {b : Block} {l : Lst} (hm : Small L m)
    (h : m a = some b) (hb : b.lst? = some l) : 8 * l.plen ≤ L := by
  have := hm a b h
  cases b <;> cases hb
  exact this.2.2

theorem Lim.setHdr {L : Nat} {b : Block} {hd : Hdr} (hb : Lim L b) (h : inInt hd.size) :
    Lim L (b.setHdr hd) := by
  cases b <;> simp only [Block.setHdr, Lim] at hb ⊢ <;> first | exact h | exact ⟨h, hb.2⟩

theorem Lim.setGrp {L : Nat} {b : Block} {g : Grp} (hb : Lim L b) (h : 8 * g.len ≤ L) :
    Lim L (b.setGrp g) := by
  cases b <;> simp only [Block.setGrp, Lim] at hb ⊢ <;> first | exact hb | exact ⟨hb.1, h⟩ | exact ⟨hb.1, h, hb.2.2⟩

theorem Lim.setLst {L : Nat} {b : Block} {l : Lst} (hb : Lim L b) (h : 8 * l.plen ≤ L) :
    Lim L (b.setLst l) := by
  cases b <;> simp only [Block.setLst, Lim] at hb ⊢ <;> first | exact hb | exact ⟨hb.1, hb.2.1, h⟩

theorem updHdr_lim {L : Nat} {p : Addr} {f : Hdr → Hdr} {s s' : HS} {u : Unit} (hm : Small L s.mem)
    (hf : ∀ hd, inInt hd.size → inInt (f hd).size)
    (h : Heap.updHdr p f s = .val (u, s')) : Small L s'.mem := by
  obtain ⟨b, hd, h1, h2, rfl⟩ := updHdr_inv h
  exact hm.set ((hm _ _ h1).setHdr (hf _ (hm.hdr h1 h2)))

theorem setHdr_grp {b : Block} {h : Hdr} : (b.setHdr h).grp? = b.grp? := by
  cases b <;> rfl

theorem setHdr_lst {b : Block} {h : Hdr} : (b.setHdr h).lst? = b.lst? := by
  cases b <;> rfl

/-- The group members of the blocks are as before. -/
def SameGrp (m m' : Mem) : Prop := ∀ a, (m' a).bind Block.grp? = (m a).bind Block.grp? ∧
  (m' a).bind Block.lst? = (m a).bind Block.lst?

theorem SameGrp.refl {m : Mem} : SameGrp m m := fun _ => ⟨rfl, rfl⟩
theorem SameGrp.trans {m m' m'' : Mem} (h : SameGrp m m') (h' : SameGrp m' m'') : SameGrp m m'' :=
  fun a => ⟨(h' a).1.trans (h a).1, (h' a).2.trans (h a).2⟩

theorem updHdr_same {p : Addr} {f : Hdr → Hdr} {s s' : HS} {u : Unit}
    (h : Heap.updHdr p f s = .val (u, s')) : SameGrp s.mem s'.mem := by
  obtain ⟨b, hd, h1, h2, rfl⟩ := updHdr_inv h
  intro a
  simp only [Mem.set]
  by_cases ha : a = p
  · subst ha
    simp only [if_true, h1, Option.bind_some, setHdr_grp, setHdr_lst, and_self]
  · simp only [if_neg ha, and_self]

theorem SameGrp.grp {m m' : Mem} (h : SameGrp m m') {a : Addr} {b : Block} {g : Grp}
    (h1 : m a = some b) (h2 : b.grp? = some g) : ∃ b', m' a = some b' ∧ b'.grp? = some g := by
  have := (h a).1
  rw [h1, Option.bind_some, h2] at this
  exact Option.bind_eq_some_iff.mp this

theorem SameGrp.lst {m m' : Mem} (h : SameGrp m m') {a : Addr} {b : Block} {g : Lst}
    (h1 : m a = some b) (h2 : b.lst? = some g) : ∃ b', m' a = some b' ∧ b'.lst? = some g := by
  have := (h a).2
  rw [h1, Option.bind_some, h2] at this
  exact Option.bind_eq_some_iff.mp this

theorem grp_layout_hdr (X : Cfg) {b : Block} {g : Grp} {hd : Hdr} (h : b.grp? = some g)
    (hh : b.hdr? = some hd) : ∃ sz rest,
    Struct.size X.e .IFF_Chunk ≤ sz ∧ Struct.size X.e .IFF_Group ≤ sz ∧
    layout X.e b = ⟨sz, cells (.ptr (.ofAddr hd.parent) :: .int .uint hd.id.toNat ::
      .int .int hd.size :: .int .uint g.ty.toNat :: .int .uint g.len :: .ptr (.ofAddr g.arr) ::
      rest)⟩ ∧
    ∀ hd' : Hdr, layout X.e (b.setHdr hd') = ⟨sz, cells (.ptr (.ofAddr hd'.parent) ::
      .int .uint hd'.id.toNat :: .int .int hd'.size :: .int .uint g.ty.toNat :: .int .uint g.len ::
      .ptr (.ofAddr g.arr) :: rest)⟩ := by
  cases b <;> cases h <;> cases hh
  · exact ⟨_, _, size_IFF_Chunk_IFF_Group X, Nat.le_refl _, rfl, fun _ => rfl⟩
  · exact ⟨_, _, size_IFF_Chunk_IFF_List X, size_IFF_Group_IFF_List X, rfl, fun _ => rfl⟩

theorem lst_layout_hdr (X : Cfg) {b : Block} {l : Lst} {hd : Hdr} (h : b.lst? = some l)
    (hh : b.hdr? = some hd) : ∃ g,
    layout X.e b = ⟨Struct.size X.e .IFF_List, cells (.ptr (.ofAddr hd.parent) ::
      .int .uint hd.id.toNat :: .int .int hd.size :: .int .uint g.ty.toNat :: .int .uint g.len ::
      .ptr (.ofAddr g.arr) :: .int .uint l.plen :: .ptr (.ofAddr l.parr) :: [])⟩ ∧
    ∀ hd' : Hdr, layout X.e (b.setHdr hd') = ⟨Struct.size X.e .IFF_List,
      cells (.ptr (.ofAddr hd'.parent) :: .int .uint hd'.id.toNat :: .int .int hd'.size ::
      .int .uint (g : Grp).ty.toNat :: .int .uint g.len :: .ptr (.ofAddr g.arr) ::
      .int .uint l.plen :: .ptr (.ofAddr l.parr) :: [])⟩ := by
  cases b <;> cases h <;> cases hh
  exact ⟨⟨_, _, _⟩, rfl, fun _ => rfl⟩

section
variable {X : Cfg} {room : Nat} {stk : List Blk} {out text : List Byte}

/-- group.c:287-288 -/
theorem sumMembers_run {p : Addr} {L : Nat} (hL : L ≤ 34359738360) :
    ∀ {k i : Nat} {s s' : HS} {u : Unit}, Small L s.mem →
      Heap.sumMembers X.e p k i s = .val (u, s') →
      (∃ b g, s.mem p = some b ∧ b.grp? = some g ∧ g.len = i + k) →
      Small L s'.mem ∧ SameGrp s.mem s'.mem ∧ s'.rs = s.rs ∧ ∃ N, ∀ n, N ≤ n → ∀ j, N ≤ j → ∀ loc : Var → Slot,
        loc .i = .reg (.int .uint) (.int .uint i) →
        loc .group = .reg (.ptr (.struct .IFF_Group)) (.ptr (.struct .IFF_Group) ⟨.heap p, 0⟩) →
        ∃ loc', whileN (evalC X (callFn X n) (.bin .lt (.var .i) (.arrow (.var .group) .chunkLength)))
          (forBody X (callFn X n) n
            (.expr (.assign (.arrow (.var .group) .chunkSize) (.call (.fn .IFF_incrementChunkSize) (.cons (.arrow (.var .group) .chunkSize) (.cons (.index (.arrow (.var .group) .chunk) (.var .i)) .nil)))))
            (.inc (.var .i))) j ⟨loc, st X stk out room text s⟩ =
          .val (.norm, ⟨loc', st X stk out room text s'⟩) := by
  intro k
  induction k with
  | zero =>
    intro i s s' u hm h hb
    obtain ⟨-, rfl⟩ := pure_inv h
    obtain ⟨b, g, hb1, hb2, hl⟩ := hb
    obtain ⟨hd, sz, rest, -, -, hz, hly, -⟩ := grp_layout X hb2
    have hb := heapOf_some (e := X.e) hb1
    rw [hly] at hb
    have hg := hm.grp hb1 hb2
    refine ⟨hm, .refl, rfl, 1, fun n hn j hj loc hi hgr => ⟨loc, ?_⟩⟩
    obtain ⟨j, rfl⟩ : ∃ j', j = j' + 1 := ⟨j - 1, by omega⟩
    rw [whileN_succ]
    crun [hi, hgr, blkOf_heap hb, hz, nat_emod (show g.len < 4294967296 by omega),
      nat_emod (show i < 4294967296 by omega), decide_eq_false (show ¬ (i : Int) < g.len by omega)]
  | succ k ih =>
    intro i s s' u hm h hfin
    unfold Heap.sumMembers at h
    obtain ⟨hp, s1, h1, k1⟩ := bind_inv h
    clear h
    obtain ⟨⟨b0, hb01, hb02⟩, rfl⟩ := getHdr_inv h1
    obtain ⟨g, s2, h2, k2⟩ := bind_inv k1
    obtain ⟨⟨b, hb1, hb2⟩, rfl⟩ := getGrp_inv h2
    rw [hb01] at hb1; cases hb1
    obtain ⟨b', g', hb1', hb2', hl⟩ := hfin
    rw [hb01] at hb1'; cases hb1'
    rw [hb2] at hb2'; cases hb2'
    obtain ⟨sz, rest, hz0, hz, hly, hly'⟩ := grp_layout_hdr X hb2 hb02
    have hb := heapOf_some (e := X.e) hb01
    rw [hly] at hb
    obtain ⟨c, s3, h3, k3⟩ := bind_inv k2
    obtain ⟨rfl, B, hB, hBs, hBc⟩ := getPtr_step (X := X) h3
    obtain ⟨hc, s4, h4, k4⟩ := bind_inv k3
    obtain ⟨rfl, szc, restc, hzc, ⟨bc, hbc1, hbc2⟩, hbc⟩ := getHdr_step' (X := X) h4
    obtain ⟨z, s5, h5, k5⟩ := bind_inv k4
    obtain ⟨h5', rfl⟩ := ofOut_inv h5
    have hzi := (incrementChunkSize_inv h5').2.1
    obtain ⟨u6, s6, h6, k6⟩ := bind_inv k5
    have hm6 := updHdr_lim hm (fun _ _ => hzi) h6
    have hs6 := updHdr_same h6
    obtain ⟨b5, hd5, hb51, hb52, rfl⟩ := updHdr_inv h6
    rw [hb01] at hb51; cases hb51
    rw [hb02] at hb52; cases hb52
    have he6 := heapOf_set (e := X.e) (m := s5.mem) (a := p) (b := some (b0.setHdr { hp with size := z }))
    rw [Option.map_some, hly'] at he6
    obtain ⟨b6, hb61, hb62⟩ := hs6.grp hb01 hb2
    obtain ⟨hm7, hs7, hr7, N, hN⟩ := ih hm6 k6 ⟨b6, g, hb61, hb62, by omega⟩
    refine ⟨hm7, hs6.trans hs7, hr7, N + 1, fun n hn j hj loc hi hgr => ?_⟩
    obtain ⟨j, rfl⟩ : ∃ j', j = j' + 1 := ⟨j - 1, by omega⟩
    obtain ⟨n, rfl⟩ : ∃ n', n = n' + 1 := ⟨n - 1, by omega⟩
    have hg := hm.grp hb01 hb2
    obtain ⟨loc', hw⟩ := hN (n + 1) (by omega) j (by omega)
      (setLoc loc .i (.reg (.int .uint) (.int .uint ((i + 1 : Nat) : Int)))) (by simp [setLoc])
      (by simp [setLoc, hgr])
    have hinc := incrementChunkSize_run (X := X) (n := n) (tick := s5.tick) (stk := stk) (inp := s5.rs.inp) (out := out)
      (room := room) (text := text) (log := errCalls X.e s5.rs.log) hzc hbc (hm.hdr hb01 hb02) (hm.hdr hbc1 hbc2) h5'
    refine ⟨loc', ?_⟩
    rw [whileN_succ]
    crun [hi, hgr, blkOf_heap hb, hz0, hz, nat_emod (show g.len < 4294967296 by omega),
      nat_emod (show i < 4294967296 by omega), decide_eq_true (show (i : Int) < g.len by omega),
      ↓forBody_obind, blkOf_heap hB, hBs, hBc, Int.natCast_nonneg, Int.toNat_natCast, scalarSize, 
      wrapInt_of (hm.hdr hb01 hb02), hinc, wrapInt_of hzi, ← he6,
      step_obind, succ_emod (show i + 1 < 4294967296 by omega),
      nat_emod (show i + 1 < 4294967296 by omega), hw]

/-- list.c:291-292 -/
theorem sumProps_run {p : Addr} {L : Nat} (hL : L ≤ 34359738360) :
    ∀ {k i : Nat} {s s' : HS} {u : Unit}, Small L s.mem →
      Heap.sumProps X.e p k i s = .val (u, s') →
      (∃ b l, s.mem p = some b ∧ b.lst? = some l ∧ l.plen = i + k) →
      Small L s'.mem ∧ SameGrp s.mem s'.mem ∧ s'.rs = s.rs ∧ ∃ N, ∀ n, N ≤ n → ∀ j, N ≤ j → ∀ loc : Var → Slot,
        loc .i = .reg (.int .uint) (.int .uint i) →
        loc .«list» = .reg (.ptr (.struct .IFF_List)) (.ptr (.struct .IFF_List) ⟨.heap p, 0⟩) →
        ∃ loc', whileN (evalC X (callFn X n) (.bin .lt (.var .i) (.arrow (.var .«list») .propLength)))
          (forBody X (callFn X n) n
            (.expr (.assign (.arrow (.var .«list») .chunkSize) (.call (.fn .IFF_incrementChunkSize) (.cons (.arrow (.var .«list») .chunkSize) (.cons (.cast (.ptr (.struct .IFF_Chunk)) (.index (.arrow (.var .«list») .prop) (.var .i))) .nil)))))
            (.inc (.var .i))) j ⟨loc, st X stk out room text s⟩ =
          .val (.norm, ⟨loc', st X stk out room text s'⟩) := by
  intro k
  induction k with
  | zero =>
    intro i s s' u hm h hb
    obtain ⟨-, rfl⟩ := pure_inv h
    obtain ⟨b, g, hb1, hb2, hl⟩ := hb
    obtain ⟨hd, g0, -, -, hly, -⟩ := lst_layout X hb2
    have hb := heapOf_some (e := X.e) hb1
    rw [hly] at hb
    have hg := hm.lst hb1 hb2
    refine ⟨hm, .refl, rfl, 1, fun n hn j hj loc hi hgr => ⟨loc, ?_⟩⟩
    obtain ⟨j, rfl⟩ : ∃ j', j = j' + 1 := ⟨j - 1, by omega⟩
    rw [whileN_succ]
    crun [hi, hgr, blkOf_heap hb, nat_emod (show g.plen < 4294967296 by omega),
      nat_emod (show i < 4294967296 by omega), decide_eq_false (show ¬ (i : Int) < g.plen by omega)]
  | succ k ih =>
    intro i s s' u hm h hfin
    unfold Heap.sumProps at h
    obtain ⟨hp, s1, h1, k1⟩ := bind_inv h
    clear h
    obtain ⟨⟨b0, hb01, hb02⟩, rfl⟩ := getHdr_inv h1
    obtain ⟨g, s2, h2, k2⟩ := bind_inv k1
    obtain ⟨⟨b, hb1, hb2⟩, rfl⟩ := getLst_inv h2
    rw [hb01] at hb1; cases hb1
    obtain ⟨b', g', hb1', hb2', hl⟩ := hfin
    rw [hb01] at hb1'; cases hb1'
    rw [hb2] at hb2'; cases hb2'
    obtain ⟨g0, hly, hly'⟩ := lst_layout_hdr X hb2 hb02
    have hb := heapOf_some (e := X.e) hb01
    rw [hly] at hb
    obtain ⟨c, s3, h3, k3⟩ := bind_inv k2
    obtain ⟨rfl, B, hB, hBs, hBc⟩ := getPtr_step (X := X) h3
    obtain ⟨hc, s4, h4, k4⟩ := bind_inv k3
    obtain ⟨rfl, szc, restc, hzc, ⟨bc, hbc1, hbc2⟩, hbc⟩ := getHdr_step' (X := X) h4
    obtain ⟨z, s5, h5, k5⟩ := bind_inv k4
    obtain ⟨h5', rfl⟩ := ofOut_inv h5
    have hzi := (incrementChunkSize_inv h5').2.1
    obtain ⟨u6, s6, h6, k6⟩ := bind_inv k5
    have hm6 := updHdr_lim hm (fun _ _ => hzi) h6
    have hs6 := updHdr_same h6
    obtain ⟨b5, hd5, hb51, hb52, rfl⟩ := updHdr_inv h6
    rw [hb01] at hb51; cases hb51
    rw [hb02] at hb52; cases hb52
    have he6 := heapOf_set (e := X.e) (m := s5.mem) (a := p) (b := some (b0.setHdr { hp with size := z }))
    rw [Option.map_some, hly'] at he6
    obtain ⟨b6, hb61, hb62⟩ := hs6.lst hb01 hb2
    obtain ⟨hm7, hs7, hr7, N, hN⟩ := ih hm6 k6 ⟨b6, g, hb61, hb62, by omega⟩
    refine ⟨hm7, hs6.trans hs7, hr7, N + 1, fun n hn j hj loc hi hgr => ?_⟩
    obtain ⟨j, rfl⟩ : ∃ j', j = j' + 1 := ⟨j - 1, by omega⟩
    obtain ⟨n, rfl⟩ : ∃ n', n = n' + 1 := ⟨n - 1, by omega⟩
    have hg := hm.lst hb01 hb2
    obtain ⟨loc', hw⟩ := hN (n + 1) (by omega) j (by omega)
      (setLoc loc .i (.reg (.int .uint) (.int .uint ((i + 1 : Nat) : Int)))) (by simp [setLoc])
      (by simp [setLoc, hgr])
    have hinc := incrementChunkSize_run (X := X) (n := n) (tick := s5.tick) (stk := stk) (inp := s5.rs.inp) (out := out)
      (room := room) (text := text) (log := errCalls X.e s5.rs.log) hzc hbc (hm.hdr hb01 hb02) (hm.hdr hbc1 hbc2) h5'
    refine ⟨loc', ?_⟩
    rw [whileN_succ]
    crun [hi, hgr, blkOf_heap hb, nat_emod (show g.plen < 4294967296 by omega),
      nat_emod (show i < 4294967296 by omega), decide_eq_true (show (i : Int) < g.plen by omega),
      ↓forBody_obind, blkOf_heap hB, hBs, hBc, Int.natCast_nonneg, Int.toNat_natCast, scalarSize, 
      wrapInt_of (hm.hdr hb01 hb02), hinc, wrapInt_of hzi, ← he6,
      step_obind, succ_emod (show i + 1 < 4294967296 by omega),
      nat_emod (show i + 1 < 4294967296 by omega), hw]

/-- group.c:281-289 -/
theorem updateGroupSizes_run {p : Addr} {L : Nat} (hL : L ≤ 34359738360) {s s' : HS} {u : Unit}
    (hm : Small L s.mem) (h : Heap.updateGroupSizes X.e p s = .val (u, s')) :
    Small L s'.mem ∧ SameGrp s.mem s'.mem ∧ s'.rs = s.rs ∧
    Runs X .IFF_updateGroupChunkSizes [.ptr (.struct .IFF_Group) ⟨.heap p, 0⟩]
      (st X stk out room text s) .void (st X stk out room text s') := by
  unfold Heap.updateGroupSizes at h
  obtain ⟨u1, s1, h1, k1⟩ := bind_inv h
  clear h
  have hm1 := updHdr_lim hm (fun _ _ => (by decide : inInt ((idSize : Nat) : Int))) h1
  have hs1 := updHdr_same h1
  obtain ⟨b0, hd0, hb01, hb02, rfl⟩ := updHdr_inv h1
  obtain ⟨g, s2, h2, k2⟩ := bind_inv k1
  obtain ⟨⟨b2, hb21, hb22⟩, rfl⟩ := getGrp_inv h2
  obtain ⟨hm3, hs3, hr3, N, hN⟩ := sumMembers_run (X := X) (stk := stk) (out := out) (room := room) (text := text) hL hm1 k2 ⟨b2, g, hb21, hb22, by omega⟩
  refine ⟨hm3, hs1.trans hs3, hr3, N + 1, fun n hn => ?_⟩
  have hbg : b0.grp? = some g := by
    simp only [Mem.set, if_true, Option.some.injEq] at hb21
    rw [← hb21, setHdr_grp] at hb22
    exact hb22
  obtain ⟨sz, rest, hz0, hz, hly, hly'⟩ := grp_layout_hdr X hbg hb02
  have hb := heapOf_some (e := X.e) hb01
  rw [hly] at hb
  have he6 := heapOf_set (e := X.e) (m := s.mem) (a := p) (b := some (b0.setHdr { hd0 with size := idSize }))
  rw [Option.map_some, hly'] at he6
  obtain ⟨n, rfl⟩ : ∃ n', n = n' + 1 := ⟨n - 1, by omega⟩
  obtain ⟨loc', hw⟩ := hN n (by omega) n (by omega)
    (setLoc (setLoc (setLoc (fun _ => .none) .group (.reg (.ptr (.struct .IFF_Group)) (.ptr (.struct .IFF_Group) ⟨.heap p, 0⟩)))
    .i (.reg (.int .uint) .undef)) .i (.reg (.int .uint) (.int .uint 0))) (by simp [setLoc]) (by simp [setLoc])
  rw [callFn_code rfl]
  have hi : ((idSize : Nat) : Int) = 4 := rfl
  rw [hi] at he6
  simp only [hi] at hw
  crun [IFF_updateGroupChunkSizes.code, IFF_ID_SIZE, blkOf_heap hb, hz, wrapInt_of (show inInt 4 by decide), ← he6, ↓exec_for', hw, List.take_length]

theorem update_group {f : Fn} (hf : f = .IFF_updateFormChunkSizes ∨ f = .IFF_updateCATChunkSizes) {p : Addr} {g g' : CS}
    (h : Runs X .IFF_updateGroupChunkSizes [.ptr (.struct .IFF_Group) ⟨.heap p, 0⟩] g .void g')
    (hs : g'.stk = g.stk) :
    Runs X f [.ptr (.struct (if f = .IFF_updateFormChunkSizes then .IFF_Form else .IFF_CAT)) ⟨.heap p, 0⟩] g .void g' := by
  obtain ⟨N, hN⟩ := h
  refine ⟨N + 1, fun n hn => ?_⟩
  obtain ⟨n, rfl⟩ : ∃ n', n = n' + 1 := ⟨n - 1, by omega⟩
  have hc := hN n (by omega)
  obtain ⟨heap, tick, stk, inp, out, room, text, log⟩ := g
  obtain ⟨heap', tick', stk', inp', out', room', text', log'⟩ := g'
  cases hs
  rcases hf with rfl | rfl <;> rw [callFn_code rfl]
  · crun [IFF_updateFormChunkSizes.code, hc, List.take_length]
  · crun [IFF_updateCATChunkSizes.code, hc, List.take_length]

theorem updateProp_run {p : Addr} {g g' : CS}
    (h : Runs X .IFF_updateGroupChunkSizes [.ptr (.struct .IFF_Group) ⟨.heap p, 0⟩] g .void g')
    (hs : g'.stk = g.stk) :
    Runs X .IFF_updatePropChunkSizes [.ptr (.struct .IFF_Form) ⟨.heap p, 0⟩] g .void g' := by
  obtain ⟨N, hN⟩ := update_group (.inl rfl) h hs
  refine ⟨N + 1, fun n hn => ?_⟩
  obtain ⟨n, rfl⟩ : ∃ n', n = n' + 1 := ⟨n - 1, by omega⟩
  have hc := hN n (by omega)
  simp only [if_true] at hc
  obtain ⟨heap, tick, stk, inp, out, room, text, log⟩ := g
  obtain ⟨heap', tick', stk', inp', out', room', text', log'⟩ := g'
  cases hs
  rw [callFn_code rfl]
  crun [IFF_updatePropChunkSizes.code, hc, List.take_length]

/-- list.c:285-293 -/
theorem updateListSizes_run {p : Addr} {L : Nat} (hL : L ≤ 34359738360) {s s' : HS} {u : Unit}
    (hm : Small L s.mem) (h : Heap.updateListSizes X.e p s = .val (u, s')) :
    Small L s'.mem ∧ SameGrp s.mem s'.mem ∧ s'.rs = s.rs ∧
    Runs X .IFF_updateListChunkSizes [.ptr (.struct .IFF_List) ⟨.heap p, 0⟩]
      (st X stk out room text s) .void (st X stk out room text s') := by
  unfold Heap.updateListSizes at h
  obtain ⟨u1, s1, h1, k1⟩ := bind_inv h
  clear h
  obtain ⟨hm1, hs1, hr1, h1⟩ := updateGroupSizes_run (X := X) (stk := stk) (out := out) (room := room) (text := text) hL hm h1
  obtain ⟨N1, hN1⟩ := update_group (.inr rfl) h1 rfl
  obtain ⟨l, s2, h2, k2⟩ := bind_inv k1
  obtain ⟨⟨b2, hb21, hb22⟩, rfl⟩ := getLst_inv h2
  obtain ⟨hm3, hs3, hr3, N, hN⟩ := sumProps_run (X := X) (stk := stk) (out := out) (room := room) (text := text) hL hm1 k2 ⟨b2, l, hb21, hb22, by omega⟩
  refine ⟨hm3, hs1.trans hs3, hr3.trans hr1, max N1 N + 1, fun n hn => ?_⟩
  obtain ⟨n, rfl⟩ : ∃ n', n = n' + 1 := ⟨n - 1, by omega⟩
  have hc := hN1 n (by omega)
  simp only [reduceCtorEq, if_false] at hc
  obtain ⟨loc', hw⟩ := hN n (by omega) n (by omega)
    (setLoc (setLoc (setLoc (fun _ => .none) .«list» (.reg (.ptr (.struct .IFF_List)) (.ptr (.struct .IFF_List) ⟨.heap p, 0⟩)))
    .i (.reg (.int .uint) .undef)) .i (.reg (.int .uint) (.int .uint 0))) (by simp [setLoc]) (by simp [setLoc])
  rw [callFn_code rfl]
  crun [IFF_updateListChunkSizes.code, hc, ↓exec_for', hw, List.take_length]

/-- group.c:314-336 -/
theorem updateSizes_run {L : Nat} (hL : L ≤ 34359738360) : ∀ {k : Nat} {p : Addr} {s s' : HS} {u : Unit},
    Small L s.mem → Heap.updateSizes X.e k p s = .val (u, s') →
    Small L s'.mem ∧ SameGrp s.mem s'.mem ∧ s'.rs = s.rs ∧
    Runs X .IFF_updateChunkSizes [.ptr (.struct .IFF_Chunk) ⟨.heap p, 0⟩]
      (st X stk out room text s) .void (st X stk out room text s') := by
  intro k
  induction k with
  | zero => intro p s s' u _ h; cases h
  | succ k ih =>
    intro p s s' u hm h
    unfold Heap.updateSizes at h
    obtain ⟨u1, s1, h1, k1⟩ := bind_inv h
    clear h
    unfold Heap.updateOwnSize at h1
    obtain ⟨hd, s2, h2, k2⟩ := bind_inv h1
    clear h1
    obtain ⟨rfl, sz, rest, hz, hb⟩ := getHdr_step (X := X) h2
    obtain ⟨hd3, s3, h3, k3⟩ := bind_inv k1
    obtain ⟨rfl, sz3, rest3, hz3, hb3⟩ := getHdr_step (X := X) h3
    have hsel : (hd.id = idFORM ∧ Heap.updateGroupSizes X.e p s2 = .val (u1, s3)) ∨
        (hd.id = idPROP ∧ Heap.updateGroupSizes X.e p s2 = .val (u1, s3)) ∨
        (hd.id = idCAT ∧ Heap.updateGroupSizes X.e p s2 = .val (u1, s3)) ∨
        (hd.id = idLIST ∧ Heap.updateListSizes X.e p s2 = .val (u1, s3)) ∨
        (hd.id ≠ idFORM ∧ hd.id ≠ idPROP ∧ hd.id ≠ idCAT ∧ hd.id ≠ idLIST ∧ s3 = s2) := by
      by_cases i1 : hd.id = idFORM
      · rw [if_pos i1] at k2; exact .inl ⟨i1, k2⟩
      rw [if_neg i1] at k2
      by_cases i2 : hd.id = idPROP
      · rw [if_pos i2] at k2; exact .inr (.inl ⟨i2, k2⟩)
      rw [if_neg i2] at k2
      by_cases i3 : hd.id = idCAT
      · rw [if_pos i3] at k2; exact .inr (.inr (.inl ⟨i3, k2⟩))
      rw [if_neg i3] at k2
      by_cases i4 : hd.id = idLIST
      · rw [if_pos i4] at k2; exact .inr (.inr (.inr (.inl ⟨i4, k2⟩)))
      rw [if_neg i4] at k2
      obtain ⟨-, rfl⟩ := pure_inv k2
      exact .inr (.inr (.inr (.inr ⟨i1, i2, i3, i4, rfl⟩)))
    have hrest : Small L s3.mem → Small L s'.mem ∧ SameGrp s3.mem s'.mem ∧ s'.rs = s3.rs ∧
        ((hd3.parent = 0 ∧ s' = s3) ∨ (¬ hd3.parent = 0 ∧
          Runs X .IFF_updateChunkSizes [.ptr (.struct .IFF_Chunk) ⟨.heap hd3.parent, 0⟩]
            (st X stk out room text s3) .void (st X stk out room text s'))) := by
      intro hm3
      by_cases h0 : hd3.parent = 0
      · rw [if_neg (by simpa using h0)] at k3
        obtain ⟨-, rfl⟩ := pure_inv k3
        exact ⟨hm3, .refl, rfl, .inl ⟨h0, rfl⟩⟩
      · rw [if_pos h0] at k3
        obtain ⟨hm4, hs4, hr4, hN⟩ := ih hm3 k3
        exact ⟨hm4, hs4, hr4, .inr ⟨h0, hN⟩⟩
    rcases hsel with ⟨i1, k2⟩ | ⟨i1, k2⟩ | ⟨i1, k2⟩ | ⟨i1, k2⟩ | ⟨i1, i2, i3, i4, rfl⟩
    · obtain ⟨hm3, hs3, hr3, hN⟩ := updateGroupSizes_run (X := X) (stk := stk) (out := out) (room := room) (text := text) hL hm k2
      obtain ⟨hm4, hs4, hr4, hN4⟩ := hrest hm3
      refine ⟨hm4, hs3.trans hs4, hr4.trans hr3, ?_⟩
      obtain ⟨N, hN⟩ := update_group (.inl rfl) hN rfl
      simp only [if_true] at hN
      rcases hN4 with ⟨h0, rfl⟩ | ⟨h0, N4, hN4⟩
      · refine ⟨N + 1, fun n hn => ?_⟩
        obtain ⟨n, rfl⟩ : ∃ n', n = n' + 1 := ⟨n - 1, by omega⟩
        have hc := hN n (by omega)
        rw [callFn_code rfl]
        crun [IFF_updateChunkSizes.code, blkOf_heap hb, hz, i1, ↓evalE_FORM, toNat_emod, beq_self_eq_true, Bool.false_or,
          hc, blkOf_heap hb3, hz3, h0, bne_self_eq_false, Bool.false_eq_true, if_false, List.take_length]
      · refine ⟨max N N4 + 1, fun n hn => ?_⟩
        obtain ⟨n, rfl⟩ : ∃ n', n = n' + 1 := ⟨n - 1, by omega⟩
        have hc := hN n (by omega)
        have hc4 := hN4 n (by omega)
        rw [callFn_code rfl]
        crun [IFF_updateChunkSizes.code, blkOf_heap hb, hz, i1, ↓evalE_FORM, toNat_emod, beq_self_eq_true, Bool.false_or,
          hc, blkOf_heap hb3, hz3, addr_bne_null', bne_iff_ne.mpr h0, hc4, if_true, List.take_length]
    · obtain ⟨hm3, hs3, hr3, hN⟩ := updateGroupSizes_run (X := X) (stk := stk) (out := out) (room := room) (text := text) hL hm k2
      obtain ⟨hm4, hs4, hr4, hN4⟩ := hrest hm3
      refine ⟨hm4, hs3.trans hs4, hr4.trans hr3, ?_⟩
      obtain ⟨N, hN⟩ := updateProp_run hN rfl
      rcases hN4 with ⟨h0, rfl⟩ | ⟨h0, N4, hN4⟩
      · refine ⟨N + 1, fun n hn => ?_⟩
        obtain ⟨n, rfl⟩ : ∃ n', n = n' + 1 := ⟨n - 1, by omega⟩
        have hc := hN n (by omega)
        rw [callFn_code rfl]
        crun [IFF_updateChunkSizes.code, blkOf_heap hb, hz, i1, ↓evalE_FORM, ↓evalE_PROP, ↓evalE_CAT, ↓evalE_LIST, toNat_emod, beq_self_eq_true, Bool.false_or,
          id_ne (show ¬ idFORM = idPROP by decide), hc, blkOf_heap hb3, hz3, h0, bne_self_eq_false, Bool.false_eq_true, if_false, List.take_length]
      · refine ⟨max N N4 + 1, fun n hn => ?_⟩
        obtain ⟨n, rfl⟩ : ∃ n', n = n' + 1 := ⟨n - 1, by omega⟩
        have hc := hN n (by omega)
        have hc4 := hN4 n (by omega)
        rw [callFn_code rfl]
        crun [IFF_updateChunkSizes.code, blkOf_heap hb, hz, i1, ↓evalE_FORM, ↓evalE_PROP, ↓evalE_CAT, ↓evalE_LIST, toNat_emod, beq_self_eq_true, Bool.false_or, Bool.false_eq_true, if_false,
          id_ne (show ¬ idFORM = idPROP by decide), hc, blkOf_heap hb3, hz3, addr_bne_null', bne_iff_ne.mpr h0, hc4, if_true, List.take_length]
    · obtain ⟨hm3, hs3, hr3, hN⟩ := updateGroupSizes_run (X := X) (stk := stk) (out := out) (room := room) (text := text) hL hm k2
      obtain ⟨hm4, hs4, hr4, hN4⟩ := hrest hm3
      refine ⟨hm4, hs3.trans hs4, hr4.trans hr3, ?_⟩
      obtain ⟨N, hN⟩ := update_group (.inr rfl) hN rfl
      simp only [reduceCtorEq, if_false] at hN
      rcases hN4 with ⟨h0, rfl⟩ | ⟨h0, N4, hN4⟩
      · refine ⟨N + 1, fun n hn => ?_⟩
        obtain ⟨n, rfl⟩ : ∃ n', n = n' + 1 := ⟨n - 1, by omega⟩
        have hc := hN n (by omega)
        rw [callFn_code rfl]
        crun [IFF_updateChunkSizes.code, blkOf_heap hb, hz, i1, ↓evalE_FORM, ↓evalE_PROP, ↓evalE_CAT, ↓evalE_LIST, toNat_emod, beq_self_eq_true, Bool.false_or,
          id_ne (show ¬ idFORM = idCAT by decide), id_ne (show ¬ idPROP = idCAT by decide), hc, blkOf_heap hb3, hz3, h0, bne_self_eq_false, Bool.false_eq_true, if_false, List.take_length]
      · refine ⟨max N N4 + 1, fun n hn => ?_⟩
        obtain ⟨n, rfl⟩ : ∃ n', n = n' + 1 := ⟨n - 1, by omega⟩
        have hc := hN n (by omega)
        have hc4 := hN4 n (by omega)
        rw [callFn_code rfl]
        crun [IFF_updateChunkSizes.code, blkOf_heap hb, hz, i1, ↓evalE_FORM, ↓evalE_PROP, ↓evalE_CAT, ↓evalE_LIST, toNat_emod, beq_self_eq_true, Bool.false_or, Bool.false_eq_true, if_false,
          id_ne (show ¬ idFORM = idCAT by decide), id_ne (show ¬ idPROP = idCAT by decide), hc, blkOf_heap hb3, hz3, addr_bne_null', bne_iff_ne.mpr h0, hc4, if_true, List.take_length]
    · obtain ⟨hm3, hs3, hr3, hN⟩ := updateListSizes_run (X := X) (stk := stk) (out := out) (room := room) (text := text) hL hm k2
      obtain ⟨hm4, hs4, hr4, hN4⟩ := hrest hm3
      refine ⟨hm4, hs3.trans hs4, hr4.trans hr3, ?_⟩
      obtain ⟨N, hN⟩ := hN
      rcases hN4 with ⟨h0, rfl⟩ | ⟨h0, N4, hN4⟩
      · refine ⟨N + 1, fun n hn => ?_⟩
        obtain ⟨n, rfl⟩ : ∃ n', n = n' + 1 := ⟨n - 1, by omega⟩
        have hc := hN n (by omega)
        rw [callFn_code rfl]
        crun [IFF_updateChunkSizes.code, blkOf_heap hb, hz, i1, ↓evalE_FORM, ↓evalE_PROP, ↓evalE_CAT, ↓evalE_LIST, toNat_emod, beq_self_eq_true, Bool.false_or,
          id_ne (show ¬ idFORM = idLIST by decide), id_ne (show ¬ idPROP = idLIST by decide), id_ne (show ¬ idCAT = idLIST by decide), hc, blkOf_heap hb3, hz3, h0, bne_self_eq_false, Bool.false_eq_true, if_false, List.take_length]
      · refine ⟨max N N4 + 1, fun n hn => ?_⟩
        obtain ⟨n, rfl⟩ : ∃ n', n = n' + 1 := ⟨n - 1, by omega⟩
        have hc := hN n (by omega)
        have hc4 := hN4 n (by omega)
        rw [callFn_code rfl]
        crun [IFF_updateChunkSizes.code, blkOf_heap hb, hz, i1, ↓evalE_FORM, ↓evalE_PROP, ↓evalE_CAT, ↓evalE_LIST, toNat_emod, beq_self_eq_true, Bool.false_or, Bool.false_eq_true, if_false,
          id_ne (show ¬ idFORM = idLIST by decide), id_ne (show ¬ idPROP = idLIST by decide), id_ne (show ¬ idCAT = idLIST by decide), hc, blkOf_heap hb3, hz3, addr_bne_null', bne_iff_ne.mpr h0, hc4, if_true, List.take_length]
    · obtain ⟨hm4, hs4, hr4, hN4⟩ := hrest hm
      have hh : hd3 = hd := by rw [h2] at h3; cases h3; rfl
      subst hh
      refine ⟨hm4, hs4, hr4, ?_⟩
      rcases hN4 with ⟨h0, rfl⟩ | ⟨h0, N4, hN4⟩
      · refine ⟨1, fun n hn => ?_⟩
        obtain ⟨n, rfl⟩ : ∃ n', n = n' + 1 := ⟨n - 1, by omega⟩
        rw [callFn_code rfl]
        crun [IFF_updateChunkSizes.code, blkOf_heap hb, hz, ↓evalE_FORM, ↓evalE_PROP, ↓evalE_CAT, ↓evalE_LIST, toNat_emod, Bool.false_or,
          id_ne (Ne.symm i1), id_ne (Ne.symm i2), id_ne (Ne.symm i3), id_ne (Ne.symm i4), blkOf_heap hb3, hz3, h0, bne_self_eq_false, Bool.false_eq_true, if_false, List.take_length]
      · refine ⟨N4 + 1, fun n hn => ?_⟩
        obtain ⟨n, rfl⟩ : ∃ n', n = n' + 1 := ⟨n - 1, by omega⟩
        have hc4 := hN4 n (by omega)
        rw [callFn_code rfl]
        crun [IFF_updateChunkSizes.code, blkOf_heap hb, hz, ↓evalE_FORM, ↓evalE_PROP, ↓evalE_CAT, ↓evalE_LIST, toNat_emod, Bool.false_or, Bool.false_eq_true, if_false,
          id_ne (Ne.symm i1), id_ne (Ne.symm i2), id_ne (Ne.symm i3), id_ne (Ne.symm i4), blkOf_heap hb3, hz3, addr_bne_null', bne_iff_ne.mpr h0, hc4, if_true, List.take_length]

end
end Iff.Src
