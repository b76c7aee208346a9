import Verif.Proofs.SrcCreate
/-
  Attaching chunks: group.c:60-66, list.c:60-66, group.c:270-279.
-/
namespace Iff.Src
set_option maxRecDepth 4000
open Heap (Addr Block Mem HS Hdr Grp Lst)

section
variable {X : Cfg} {n : Nat} {tick room : Nat} {stk : List Blk} {out text : List Byte}

/-! ### Steps of the heap model in the memory of the C semantics -/

theorem getHdr_step {p : Addr} {hd : Hdr} {s s' : HS} (h : Heap.getHdr p s = .val (hd, s')) :
    s' = s ∧ ∃ sz rest, Struct.size X.e .IFF_Chunk ≤ sz ∧
      heapOf X.e s.mem p = some ⟨sz, cells (.ptr (.ofAddr hd.parent) :: .int .uint hd.id.toNat ::
        .int .int hd.size :: rest)⟩ := by
  obtain ⟨⟨b, hm, hb⟩, rfl⟩ := getHdr_inv h
  obtain ⟨sz, rest, hsz, hl, -⟩ := hdr_layout X hb
  exact ⟨rfl, sz, rest, hsz, by rw [heapOf_some hm, hl]⟩

theorem updHdr_step {p : Addr} {f : Hdr → Hdr} {s s' : HS} {u : Unit}
    (h : Heap.updHdr p f s = .val (u, s')) : ∃ (hd : Hdr) (sz : Nat) (rest : List Cell) (m' : Mem), Struct.size X.e .IFF_Chunk ≤ sz ∧
      heapOf X.e s.mem p = some ⟨sz, cells (.ptr (.ofAddr hd.parent) :: .int .uint hd.id.toNat ::
        .int .int hd.size :: rest)⟩ ∧
      setHeap (heapOf X.e s.mem) p (some ⟨sz, cells (.ptr (.ofAddr (f hd).parent) ::
        .int .uint (f hd).id.toNat :: .int .int (f hd).size :: rest)⟩) = heapOf X.e m' ∧
      s' = ⟨m', s.tick, s.rs⟩ := by
  obtain ⟨b, hd, hm, hb, rfl⟩ := updHdr_inv h
  obtain ⟨sz, rest, hsz, hl, hl'⟩ := hdr_layout X hb
  exact ⟨hd, sz, rest, _, hsz, by rw [heapOf_some hm, hl],
    by rw [heapOf_set, Option.map_some, hl'], rfl⟩

theorem getGrp_step {p : Addr} {g : Grp} {s s' : HS} (h : Heap.getGrp p s = .val (g, s')) :
    s' = s ∧ ∃ (hd : Hdr) (sz : Nat) (rest : List Cell), Struct.size X.e .IFF_Chunk ≤ sz ∧ Struct.size X.e .IFF_Group ≤ sz ∧
      (∃ b, s.mem p = some b ∧ b.hdr? = some hd ∧ b.grp? = some g) ∧
      heapOf X.e s.mem p = some ⟨sz, cells (.ptr (.ofAddr hd.parent) :: .int .uint hd.id.toNat ::
        .int .int hd.size :: .int .uint g.ty.toNat :: .int .uint g.len :: .ptr (.ofAddr g.arr) ::
        rest)⟩ := by
  obtain ⟨⟨b, hm, hb⟩, rfl⟩ := getGrp_inv h
  obtain ⟨hd, sz, rest, hh, hsz, hsz2, hl, -⟩ := grp_layout X hb
  exact ⟨rfl, hd, sz, rest, hsz, hsz2, ⟨b, hm, hh, hb⟩, by rw [heapOf_some hm, hl]⟩

theorem updGrp_step {p : Addr} {f : Grp → Grp} {s s' : HS} {u : Unit}
    (h : Heap.updGrp p f s = .val (u, s')) : ∃ (g : Grp) (hd : Hdr) (sz : Nat) (rest : List Cell) (m' : Mem), Struct.size X.e .IFF_Chunk ≤ sz ∧
      Struct.size X.e .IFF_Group ≤ sz ∧ (∃ b, s.mem p = some b ∧ b.grp? = some g) ∧
      heapOf X.e s.mem p = some ⟨sz, cells (.ptr (.ofAddr hd.parent) :: .int .uint hd.id.toNat ::
        .int .int hd.size :: .int .uint g.ty.toNat :: .int .uint g.len :: .ptr (.ofAddr g.arr) ::
        rest)⟩ ∧
      setHeap (heapOf X.e s.mem) p (some ⟨sz, cells (.ptr (.ofAddr hd.parent) ::
        .int .uint hd.id.toNat :: .int .int hd.size :: .int .uint (f g).ty.toNat ::
        .int .uint (f g).len :: .ptr (.ofAddr (f g).arr) :: rest)⟩) = heapOf X.e m' ∧
      s' = ⟨m', s.tick, s.rs⟩ := by
  obtain ⟨b, g, hm, hb, rfl⟩ := updGrp_inv h
  obtain ⟨hd, sz, rest, hh, hsz, hsz2, hl, hl'⟩ := grp_layout X hb
  exact ⟨g, hd, sz, rest, _, hsz, hsz2, ⟨b, hm, hb⟩, by rw [heapOf_some hm, hl],
    by rw [heapOf_set, Option.map_some, hl'], rfl⟩

theorem getLst_step {p : Addr} {l : Lst} {s s' : HS} (h : Heap.getLst p s = .val (l, s')) :
    s' = s ∧ ∃ (hd : Hdr) (g : Grp), (∃ b, s.mem p = some b ∧ b.hdr? = some hd ∧ b.grp? = some g ∧ b.lst? = some l) ∧
      heapOf X.e s.mem p = some ⟨Struct.size X.e .IFF_List, cells (.ptr (.ofAddr hd.parent) ::
        .int .uint hd.id.toNat :: .int .int hd.size :: .int .uint g.ty.toNat :: .int .uint g.len ::
        .ptr (.ofAddr g.arr) :: .int .uint l.plen :: .ptr (.ofAddr l.parr) :: [])⟩ := by
  obtain ⟨⟨b, hm, hb⟩, rfl⟩ := getLst_inv h
  obtain ⟨hd, g, hh, hg, hl, -⟩ := lst_layout X hb
  exact ⟨rfl, hd, g, ⟨b, hm, hh, hg, hb⟩, by rw [heapOf_some hm, hl]⟩

theorem updLst_step {p : Addr} {f : Lst → Lst} {s s' : HS} {u : Unit}
    (h : Heap.updLst p f s = .val (u, s')) : ∃ (l : Lst) (hd : Hdr) (g : Grp) (m' : Mem), (∃ b, s.mem p = some b ∧ b.lst? = some l) ∧
      heapOf X.e s.mem p = some ⟨Struct.size X.e .IFF_List, cells (.ptr (.ofAddr hd.parent) ::
        .int .uint hd.id.toNat :: .int .int hd.size :: .int .uint g.ty.toNat :: .int .uint g.len ::
        .ptr (.ofAddr g.arr) :: .int .uint l.plen :: .ptr (.ofAddr l.parr) :: [])⟩ ∧
      setHeap (heapOf X.e s.mem) p (some ⟨Struct.size X.e .IFF_List,
        cells (.ptr (.ofAddr hd.parent) :: .int .uint hd.id.toNat :: .int .int hd.size ::
        .int .uint g.ty.toNat :: .int .uint g.len :: .ptr (.ofAddr g.arr) ::
        .int .uint (f l).plen :: .ptr (.ofAddr (f l).parr) :: [])⟩) = heapOf X.e m' ∧
      s' = ⟨m', s.tick, s.rs⟩ := by
  obtain ⟨b, l, hm, hb, rfl⟩ := updLst_inv h
  obtain ⟨hd, g, hh, hg, hl, hl'⟩ := lst_layout X hb
  exact ⟨l, hd, g, _, ⟨b, hm, hb⟩, by rw [heapOf_some hm, hl],
    by rw [heapOf_set, Option.map_some, hl'], rfl⟩

theorem word_pos (X : Cfg) : 0 < X.e.sizeBits / 8 := by
  rcases X.word with hw | hw <;> rw [hw] <;> decide

theorem setPtr_step {arr : Addr} {i : Nat} {a : Addr} {s s' : HS} {u : Unit}
    (h : Heap.setPtr arr i a s = .val (u, s')) : ∃ (B : Blk) (m' : Mem),
      heapOf X.e s.mem arr = some B ∧ (i + 1) * (X.e.sizeBits / 8) ≤ B.size ∧
      setHeap (heapOf X.e s.mem) arr (some (B.set i (.ptr ⟨.heap a, 0⟩))) = heapOf X.e m' ∧
      s' = ⟨m', s.tick, s.rs⟩ := by
  obtain ⟨cs, hm, hi, rfl⟩ := setPtr_inv h
  refine ⟨layout X.e (.ptrs cs), _, heapOf_some hm, Nat.mul_le_mul_right _ hi, ?_, rfl⟩
  rw [layout_setPtr hi, heapOf_set, Option.map_some]

theorem getPtr_step {arr : Addr} {i : Nat} {a : Addr} {s s' : HS}
    (h : Heap.getPtr arr i s = .val (a, s')) : s' = s ∧ ∃ B : Blk,
      heapOf X.e s.mem arr = some B ∧ (i + 1) * (X.e.sizeBits / 8) ≤ B.size ∧
      B.cell i = .ptr ⟨.heap a, 0⟩ := by
  obtain ⟨⟨cs, hm, hi⟩, rfl⟩ := getPtr_inv h
  have hl : i < cs.length := by
    by_cases hl : i < cs.length
    · exact hl
    · rw [List.getElem?_eq_none (by omega)] at hi; cases hi
  refine ⟨rfl, layout X.e (.ptrs cs), heapOf_some hm, Nat.mul_le_mul_right _ hl, ?_⟩
  simp only [layout, ptrCells, hi]

/-! ### realloc -/

theorem layout_realloc (X : Cfg) {cs : List (Option Addr)} {k : Nat} :
    (⟨k * (X.e.sizeBits / 8), fun i => if (i + 1) * (X.e.sizeBits / 8) ≤ k * (X.e.sizeBits / 8)
      then ptrCells cs i else .undef⟩ : Blk) =
      layout X.e (.ptrs (cs.take k ++ List.replicate (k - cs.length) none)) := by
  have hw := word_pos X
  simp only [layout, List.length_append, List.length_take, List.length_replicate]
  congr 1
  · congr 1; omega
  · funext i
    have : (i + 1) * (X.e.sizeBits / 8) ≤ k * (X.e.sizeBits / 8) ↔ i < k :=
      ⟨fun h => Nat.le_of_mul_le_mul_right h hw, fun h => Nat.mul_le_mul_right _ h⟩
    simp only [this, ptrCells, List.getElem?_append, List.length_take, List.getElem?_take,
      List.getElem?_replicate]
    by_cases h1 : i < k <;> by_cases h2 : i < cs.length <;> simp [h1, h2] <;> try omega
    · rw [if_pos (by omega)]

theorem realloc_run {a a' : Addr} {k : Nat} {s s' : HS}
    (h : Heap.reallocPtrs X.alloc a k s = .val (a', s')) :
    reallocC X a (k * (X.e.sizeBits / 8)) (st X stk out room text s) =
      .val (.ptr .void (.ofAddr a'), st X stk out room text s') := by
  unfold Heap.reallocPtrs at h
  unfold reallocC
  by_cases h0 : a = 0
  · rw [if_pos h0] at h ⊢
    rcases malloc_inv h with ⟨hp, rfl, rfl⟩ | ⟨hp, h0, rfl⟩
    · rw [pick_alloc rfl] at hp
      exact mallocC_none hp
    · rw [pick_alloc (k := k * (X.e.sizeBits / 8)) rfl] at hp
      rw [st, mallocC_some hp]
      simp only [st, heapOf_set, Option.map_some, layout, List.length_replicate, ← cells_nil_ptrs]
  · rw [if_neg h0] at h ⊢
    cases hm : s.mem a with
    | none => rw [hm] at h; cases h
    | some b =>
      rw [hm] at h
      cases b <;> try cases h
      rename_i cs
      simp only [st, heapOf_some hm]
      have hw := word_pos X
      have hk : k * (X.e.sizeBits / 8) = 0 ↔ k = 0 := by
        simp only [Nat.mul_eq_zero]; omega
      simp only [hk]
      by_cases h1 : k = 0 ∧ X.realloc0 = true
      · rw [if_pos h1]
        replace h := (if_pos (show k = 0 ∧ X.alloc.realloc0 = true from h1)).symm.trans h
        cases h
        rw [heapOf_set, Option.map_none]
      · rw [if_neg h1]
        replace h := (if_neg (show ¬ (k = 0 ∧ X.alloc.realloc0 = true) from h1)).symm.trans h
        have hpk : X.alloc.pick s.tick (s.mem.set a none) (.array k) =
            X.pick s.tick (sizes (setHeap (heapOf X.e s.mem) a none)) (k * (X.e.sizeBits / 8)) := by
          rw [pick_alloc rfl, heapOf_set]; rfl
        rw [hpk] at h
        cases hp : X.pick s.tick (sizes (setHeap (heapOf X.e s.mem) a none)) (k * (X.e.sizeBits / 8)) with
        | none => rw [hp] at h; cases h; rfl
        | some x =>
          rw [hp] at h; cases h
          simp only [heapOf_set, Option.map_none, Option.map_some, ← layout_realloc]
          rfl

/-! ### Attaching -/

theorem nat_emod {k : Nat} (h : k < 4294967296) : (k : Int) % 4294967296 = k :=
  Int.emod_eq_of_lt (by omega) (by omega)

theorem succ_emod {k : Nat} (h : k + 1 < 4294967296) : ((k : Int) + 1) % 4294967296 = ((k + 1 : Nat) : Int) := by
  rw [Int.emod_eq_of_lt (by omega) (by omega)]; omega

theorem toSize_array {k : Nat} (h : k < 536870912) :
    toSize X.e ((toSize X.e ((k + 1 : Nat) : Int) : Int) * (toSize X.e ((X.e.sizeBits / 8 : Nat) : Int) : Int)) =
      (k + 1) * (X.e.sizeBits / 8) := by
  rw [toSize_nat (by omega)]
  rcases X.word with hw | hw <;> rw [hw]
  · rw [toSize_nat (by decide), ← Int.natCast_mul, toSize_nat (by omega)]
  · rw [toSize_nat (by decide), ← Int.natCast_mul]
    simp only [toSize, hw]
    omega

theorem toSize_array' {k : Nat} (h : k < 536870912) :
    toSize X.e (((k + 1) * (X.e.sizeBits / 8) : Nat) : Int) = (k + 1) * (X.e.sizeBits / 8) := by
  rw [← toSize_array h, toSize_toSize]

/-! ### Bounds on the blocks -/

theorem Bd.mono {L L' : Nat} (h : L ≤ L') {b : Block} (hb : Bd L b) : Bd L' b := by
  cases b <;> simp only [Bd] at hb ⊢ <;> first | exact hb | (obtain ⟨h1, h2⟩ := hb; refine ⟨h1, ?_⟩; omega)

theorem MBd.mono {L L' : Nat} (h : L ≤ L') {m : Mem} (hm : MBd L m) : MBd L' m :=
  fun a b hb => (hm a b hb).mono h

theorem MBd.set {L : Nat} {m : Mem} {a : Addr} {b : Block} (hm : MBd L m) (hb : Bd L b) :
    MBd L (m.set a (some b)) := by
  intro x y h
  simp only [Mem.set] at h
  split at h
  · cases h; exact hb
  · exact hm x y h

theorem MBd.unset {L : Nat} {m : Mem} {a : Addr} (hm : MBd L m) : MBd L (m.set a none) := by
  intro x y h
  simp only [Mem.set] at h
  split at h
  · cases h
  · exact hm x y h

theorem MBd.hdr {L : Nat} {m : Mem} {a : Addr} {b : Block} {hd : Hdr} (hm : MBd L m)
    (h : m a = some b) (hb : b.hdr? = some hd) : inInt hd.size := by
  have := hm a b h
  cases b <;> cases hb <;> exact this.1

theorem MBd.grp {L : Nat} {m : Mem} {a : Addr} {b : Block} {g : Grp} (hm : MBd L m)
    (h : m a = some b) (hb : b.grp? = some g) : 8 * g.len ≤ L := by
  have := hm a b h
  cases b <;> cases hb
  · exact this.2
  · exact this.2.1

theorem MBd.lst {L : Nat} {m : Mem} {a : Addr} {b : Block} {l : Lst} (hm : MBd L m)
    (h : m a = some b) (hb : b.lst? = some l) : 8 * l.plen ≤ L := by
  have := hm a b h
  cases b <;> cases hb
  exact this.2.2

theorem MBd.prop {L : Nat} {m : Mem} {a : Addr} {b : Block} {hd : Hdr} (hm : MBd L m)
    (h : m a = some b) (hb : b.hdr? = some hd) (hi : hd.id = idPROP) : ∃ g, b.grp? = some g := by
  have := hm a b h
  cases b <;> cases hb <;> first | exact absurd hi this.2 | exact ⟨_, rfl⟩

theorem Bd.setHdr {L : Nat} {b : Block} {hd hd' : Hdr} (hb : Bd L b) (hh : b.hdr? = some hd)
    (h : inInt hd'.size) (hi : hd'.id = hd.id) : Bd L (b.setHdr hd') := by
  cases b <;> cases hh <;> simp only [Block.setHdr, Bd] at hb ⊢ <;>
    first | exact ⟨h, hb.2⟩ | exact ⟨h, by rw [hi]; exact hb.2⟩

theorem Bd.setGrp {L : Nat} {b : Block} {g : Grp} (hb : Bd L b) (h : 8 * g.len ≤ L) :
    Bd L (b.setGrp g) := by
  cases b <;> simp only [Block.setGrp, Bd] at hb ⊢ <;> first | exact hb | exact ⟨hb.1, h⟩ | exact ⟨hb.1, h, hb.2.2⟩

theorem Bd.setLst {L : Nat} {b : Block} {l : Lst} (hb : Bd L b) (h : 8 * l.plen ≤ L) :
    Bd L (b.setLst l) := by
  cases b <;> simp only [Block.setLst, Bd] at hb ⊢ <;> first | exact hb | exact ⟨hb.1, hb.2.1, h⟩

theorem updHdr_bd {L : Nat} {p : Addr} {f : Hdr → Hdr} {s s' : HS} {u : Unit} (hm : MBd L s.mem)
    (hf : ∀ hd, (f hd).size = hd.size ∧ (f hd).id = hd.id)
    (h : Heap.updHdr p f s = .val (u, s')) : MBd L s'.mem ∧ s'.rs = s.rs := by
  obtain ⟨b, hd, h1, h2, rfl⟩ := updHdr_inv h
  exact ⟨hm.set ((hm _ _ h1).setHdr h2 (by rw [(hf hd).1]; exact hm.hdr h1 h2) (hf hd).2), rfl⟩

theorem updGrp_bd {L : Nat} {p : Addr} {f : Grp → Grp} {s s' : HS} {u : Unit} (hm : MBd L s.mem)
    (hf : ∀ g, 8 * g.len ≤ L → 8 * (f g).len ≤ L)
    (h : Heap.updGrp p f s = .val (u, s')) : MBd L s'.mem ∧ s'.rs = s.rs := by
  obtain ⟨b, hd, h1, h2, rfl⟩ := updGrp_inv h
  exact ⟨hm.set ((hm _ _ h1).setGrp (hf _ (hm.grp h1 h2))), rfl⟩

theorem updLst_bd {L : Nat} {p : Addr} {f : Lst → Lst} {s s' : HS} {u : Unit} (hm : MBd L s.mem)
    (hf : ∀ g, 8 * g.plen ≤ L → 8 * (f g).plen ≤ L)
    (h : Heap.updLst p f s = .val (u, s')) : MBd L s'.mem ∧ s'.rs = s.rs := by
  obtain ⟨b, hd, h1, h2, rfl⟩ := updLst_inv h
  exact ⟨hm.set ((hm _ _ h1).setLst (hf _ (hm.lst h1 h2))), rfl⟩

theorem setPtr_bd {L : Nat} {a : Addr} {i : Nat} {p : Addr} {s s' : HS} {u : Unit} (hm : MBd L s.mem)
    (h : Heap.setPtr a i p s = .val (u, s')) : MBd L s'.mem ∧ s'.rs = s.rs := by
  obtain ⟨cs, h1, h2, rfl⟩ := setPtr_inv h
  exact ⟨hm.set trivial, rfl⟩

theorem malloc_bd {L : Nat} {q : Heap.Req} {b : Block} {p : Addr} {s s' : HS} (hm : MBd L s.mem)
    (hb : Bd L b) (h : Heap.malloc X.alloc q b s = .val (p, s')) : MBd L s'.mem ∧ s'.rs = s.rs := by
  rcases malloc_inv h with ⟨-, -, rfl⟩ | ⟨-, -, rfl⟩
  · exact ⟨hm, rfl⟩
  · exact ⟨hm.set hb, rfl⟩

theorem free_bd {L : Nat} {p : Addr} {s s' : HS} {u : Unit} (hm : MBd L s.mem)
    (h : Heap.free p s = .val (u, s')) : MBd L s'.mem ∧ s'.rs = s.rs := by
  rcases free_inv h with ⟨-, rfl⟩ | ⟨-, -, rfl⟩
  · exact ⟨hm, rfl⟩
  · exact ⟨hm.unset, rfl⟩

theorem realloc_bd {L : Nat} {a a' : Addr} {k : Nat} {s s' : HS} (hm : MBd L s.mem)
    (h : Heap.reallocPtrs X.alloc a k s = .val (a', s')) : MBd L s'.mem ∧ s'.rs = s.rs := by
  unfold Heap.reallocPtrs at h
  by_cases h0 : a = 0
  · rw [if_pos h0] at h
    exact malloc_bd hm (b := .ptrs _) trivial h
  · rw [if_neg h0] at h
    cases hm' : s.mem a with
    | none => rw [hm'] at h; cases h
    | some b =>
      rw [hm'] at h
      cases b <;> try cases h
      by_cases h1 : k = 0 ∧ X.alloc.realloc0 = true
      · replace h := (if_pos h1).symm.trans h
        cases h
        exact ⟨hm.unset, rfl⟩
      · replace h := (if_neg h1).symm.trans h
        cases hp : X.alloc.pick s.tick (s.mem.set a none) (.array k) with
        | none => rw [hp] at h; cases h; exact ⟨hm, rfl⟩
        | some x => rw [hp] at h; cases h; exact ⟨hm.unset.set trivial, rfl⟩

/-- group.c:60-66 -/
theorem attachToGroup_run {L : Nat} {p c : Addr} {s s' : HS} {u : Unit} (hL : L + 8 ≤ 4294967296)
    (hm : MBd L s.mem) (h : Heap.attachToGroup X.alloc p c s = .val (u, s')) :
    callFn X (n + 2) .IFF_attachToGroup [.ptr (.struct .IFF_Group) ⟨.heap p, 0⟩,
      .ptr (.struct .IFF_Chunk) ⟨.heap c, 0⟩] (st X stk out room text s) =
      .val (.void, st X stk out room text s') ∧ MBd (L + 8) s'.mem ∧ s'.rs = s.rs := by
  unfold Heap.attachToGroup at h
  obtain ⟨g, s1, h1, k1⟩ := bind_inv h
  clear h
  obtain ⟨rfl, hd, sz, rest, hz, hz2, ⟨b, hb1, hb2, hb3⟩, hb⟩ := getGrp_step (X := X) h1
  have hl := hm.grp hb1 hb3
  obtain ⟨a, s2, h2, k2⟩ := bind_inv k1
  have hm2 := realloc_bd hm h2
  obtain ⟨u3, s3, h3, k3⟩ := bind_inv k2
  have hm3 := updGrp_bd hm2.1 (by intro _ h; exact h) h3
  obtain ⟨g3, hd3, sz3, rest3, m3, hz3, hz3', -, hb3, he3, rfl⟩ := updGrp_step (X := X) h3
  obtain ⟨g4, s4, h4, k4⟩ := bind_inv k3
  obtain ⟨rfl, hd4, sz4, rest4, hz4, hz4', ⟨b4, h41, -, h42⟩, hb4⟩ := getGrp_step (X := X) h4
  have hl4 := hm3.1.grp h41 h42
  obtain ⟨u5, s5, h5, k5⟩ := bind_inv k4
  have hm5 := setPtr_bd hm3.1 h5
  obtain ⟨B, m5, hB, hBs, he5, rfl⟩ := setPtr_step (X := X) h5
  obtain ⟨u6, s6, h6, k6⟩ := bind_inv k5
  obtain ⟨g6, hd6, sz6, rest6, m6, hz6, hz6', ⟨b6, h61, h62⟩, hb6, he6, rfl⟩ := updGrp_step (X := X) h6
  have hl6 := hm5.1.grp h61 h62
  have hm6 : MBd (L + 8) m6 := by
    obtain ⟨b, hd, h1, h2, h3⟩ := updGrp_inv h6
    injection h3 with h3
    rw [h3]
    exact (hm5.1.mono (by omega)).set (((hm5.1 _ _ h1).mono (by omega)).setGrp (by
      have := hm5.1.grp h1 h2; simp only; omega))
  have hm7 := updHdr_bd hm6 (by intro _; exact ⟨rfl, rfl⟩) k6
  obtain ⟨hd7, sz7, rest7, m7, hz7, hb7, he7, rfl⟩ := updHdr_step (X := X) k6
  refine ⟨?_, hm7.1, by rw [hm7.2]; exact hm2.2⟩
  rw [callFn_code rfl]
  have hr := realloc_run (stk := stk) (out := out) (room := room) (text := text) h2
  crun [IFF_attachToGroup.code, blkOf_heap hb, hz2, Ty.size, scalarSize, nat_emod (show g.len < 4294967296 by omega),
    succ_emod (show g.len + 1 < 4294967296 by omega), toSize_toSize, toSize_array (show g.len < 536870912 by omega),
    toSize_array' (show g.len < 536870912 by omega), hr,
    blkOf_heap hb3, hz3', he3, blkOf_heap hb4, hz4', blkOf_heap hB, hBs, Int.natCast_nonneg, Int.toNat_natCast,
    he5, blkOf_heap hb6, hz6', nat_emod (show g6.len < 4294967296 by omega),
    succ_emod (show g6.len + 1 < 4294967296 by omega), nat_emod (show g6.len + 1 < 4294967296 by omega), he6,
    blkOf_heap hb7, hz7, he7, List.take_length]
  

/-- There is a group at an address. -/
def GrpAt (m : Mem) (c : Addr) : Prop := ∃ b g, m c = some b ∧ b.grp? = some g

theorem GrpAt.set {m : Mem} {a c : Addr} {b : Option Block} (h : GrpAt m c) (hne : c ≠ a) :
    GrpAt (m.set a b) c := by
  obtain ⟨b', g, h1, h2⟩ := h
  exact ⟨b', g, by simp only [Mem.set, if_neg hne, h1], h2⟩

theorem GrpAt.ne_ptrs {m : Mem} {a c : Addr} {cs : List (Option Addr)} (h : GrpAt m c)
    (ha : m a = some (.ptrs cs)) : c ≠ a := by
  rintro rfl
  obtain ⟨b', g, h1, h2⟩ := h
  rw [ha] at h1; cases h1; cases h2

theorem GrpAt.ne_none {m : Mem} {a c : Addr} (h : GrpAt m c) (ha : m a = none) : c ≠ a := by
  rintro rfl
  obtain ⟨b', g, h1, h2⟩ := h
  rw [ha] at h1; cases h1

theorem updLst_keep {p c : Addr} {f : Lst → Lst} {s s' : HS} {u : Unit} (hc : GrpAt s.mem c)
    (h : Heap.updLst p f s = .val (u, s')) : GrpAt s'.mem c := by
  obtain ⟨b, hd, h1, h2, rfl⟩ := updLst_inv h
  by_cases hp : c = p
  · subst hp
    cases b <;> cases h2
    exact ⟨_, _, by simp only [Mem.set, if_pos]; rfl, rfl⟩
  · exact hc.set hp

theorem setPtr_keep {a c : Addr} {i : Nat} {p : Addr} {s s' : HS} {u : Unit} (hc : GrpAt s.mem c)
    (h : Heap.setPtr a i p s = .val (u, s')) : GrpAt s'.mem c := by
  obtain ⟨cs, h1, h2, rfl⟩ := setPtr_inv h
  exact hc.set (hc.ne_ptrs h1)

theorem realloc_keep {a a' c : Addr} {k : Nat} {s s' : HS} (hc : GrpAt s.mem c)
    (h : Heap.reallocPtrs X.alloc a k s = .val (a', s')) : GrpAt s'.mem c := by
  unfold Heap.reallocPtrs at h
  by_cases h0 : a = 0
  · rw [if_pos h0] at h
    rcases malloc_inv h with ⟨-, -, rfl⟩ | ⟨hp, -, rfl⟩
    · exact hc
    · exact hc.set (hc.ne_none (X.alloc.sound hp).2)
  · rw [if_neg h0] at h
    cases hm' : s.mem a with
    | none => rw [hm'] at h; cases h
    | some b =>
      rw [hm'] at h
      cases b <;> try cases h
      have hc' : GrpAt (s.mem.set a none) c := hc.set (hc.ne_ptrs hm')
      by_cases h1 : k = 0 ∧ X.alloc.realloc0 = true
      · replace h := (if_pos h1).symm.trans h
        cases h
        exact hc'
      · replace h := (if_neg h1).symm.trans h
        cases hp : X.alloc.pick s.tick (s.mem.set a none) (.array k) with
        | none => rw [hp] at h; cases h; exact hc
        | some x =>
          rw [hp] at h; cases h
          exact hc'.set (hc'.ne_none (X.alloc.sound hp).2)

/-- list.c:60-66 -/
theorem addPropToList_run {L : Nat} {p c : Addr} {s s' : HS} {u : Unit} (hL : L + 8 ≤ 4294967296)
    (hm : MBd L s.mem) (h : Heap.attachProp X.alloc p c s = .val (u, s'))
    (hc : GrpAt s.mem c) :
    callFn X (n + 2) .addPropToList [.ptr (.struct .IFF_List) ⟨.heap p, 0⟩,
      .ptr (.struct .IFF_Form) ⟨.heap c, 0⟩] (st X stk out room text s) =
      .val (.void, st X stk out room text s') ∧ MBd (L + 8) s'.mem ∧ s'.rs = s.rs := by
  unfold Heap.attachProp at h
  obtain ⟨g, s1, h1, k1⟩ := bind_inv h
  clear h
  obtain ⟨rfl, hd, g0, ⟨b, hb1, -, -, hb3⟩, hb⟩ := getLst_step (X := X) h1
  have hl := hm.lst hb1 hb3
  obtain ⟨a, s2, h2, k2⟩ := bind_inv k1
  have hm2 := realloc_bd hm h2
  obtain ⟨u3, s3, h3, k3⟩ := bind_inv k2
  have hm3 := updLst_bd hm2.1 (by intro _ h; exact h) h3
  obtain ⟨g3, hd3, g03, m3, -, hb3, he3, rfl⟩ := updLst_step (X := X) h3
  obtain ⟨g4, s4, h4, k4⟩ := bind_inv k3
  obtain ⟨rfl, hd4, g04, ⟨b4, h41, -, -, h42⟩, hb4⟩ := getLst_step (X := X) h4
  have hl4 := hm3.1.lst h41 h42
  obtain ⟨u5, s5, h5, k5⟩ := bind_inv k4
  have hm5 := setPtr_bd hm3.1 h5
  obtain ⟨B, m5, hB, hBs, he5, rfl⟩ := setPtr_step (X := X) h5
  obtain ⟨u6, s6, h6, k6⟩ := bind_inv k5
  obtain ⟨g6, hd6, g06, m6, ⟨b6, h61, h62⟩, hb6, he6, rfl⟩ := updLst_step (X := X) h6
  have hl6 := hm5.1.lst h61 h62
  have hm6 : MBd (L + 8) m6 := by
    obtain ⟨b, hd, h1, h2, h3⟩ := updLst_inv h6
    injection h3 with h3
    rw [h3]
    exact (hm5.1.mono (by omega)).set (((hm5.1 _ _ h1).mono (by omega)).setLst (by
      have := hm5.1.lst h1 h2; simp only; omega))
  have hm7 := updHdr_bd hm6 (by intro _; exact ⟨rfl, rfl⟩) k6
  obtain ⟨hd7, sz7, rest7, m7, hz7, hb7, he7, rfl⟩ := updHdr_step (X := X) k6
  have hz8 : Struct.size X.e .IFF_Group ≤ sz7 := by
    have hc6 := updLst_keep (setPtr_keep (updLst_keep (realloc_keep hc h2) h3) h5) h6
    obtain ⟨b, g, hc1, hc2⟩ := hc6
    obtain ⟨hd8, sz8, rest8, -, -, hz8, hl8, -⟩ := grp_layout X hc2
    rw [heapOf_some hc1, hl8] at hb7
    have := congrArg (Option.map Blk.size) hb7
    simp only [Option.map_some, Option.some.injEq] at this
    rw [← this]
    exact hz8
  refine ⟨?_, hm7.1, by rw [hm7.2]; exact hm2.2⟩
  rw [callFn_code rfl]
  have hr := realloc_run (stk := stk) (out := out) (room := room) (text := text) h2
  crun [addPropToList.code, blkOf_heap hb, Ty.size, scalarSize, nat_emod (show g.plen < 4294967296 by omega),
    succ_emod (show g.plen + 1 < 4294967296 by omega), toSize_toSize, toSize_array (show g.plen < 536870912 by omega),
    toSize_array' (show g.plen < 536870912 by omega), hr,
    blkOf_heap hb3, he3, blkOf_heap hb4, blkOf_heap hB, hBs, Int.natCast_nonneg, Int.toNat_natCast,
    he5, blkOf_heap hb6, nat_emod (show g6.plen < 4294967296 by omega),
    succ_emod (show g6.plen + 1 < 4294967296 by omega), nat_emod (show g6.plen + 1 < 4294967296 by omega), he6,
    blkOf_heap hb7, hz8, hz7, he7, List.take_length]

/-! ### IFF_incrementChunkSize -/

theorem addInt_inv {x y r : Int} (h : addInt x y = .val r) : inInt (x + y) ∧ r = x + y := by
  unfold addInt at h
  split at h
  · cases h; exact ⟨‹_›, rfl⟩
  · cases h

theorem inInt_wrap {x : Int} : inInt (wrapInt x) := by
  simp only [wrapInt, inInt]; omega

theorem incrementChunkSize_inv {e : Env} {x y r : Int} (h : incrementChunkSize e x y = .val r) :
    inInt (x + 4) ∧ inInt r ∧
      (isOdd y = false ∧
        r = wrapInt (toSize e ((toSize e ((toSize e (x + 4) : Int) + 4) : Int) + toSize e y)) ∨
      isOdd y = true ∧
        r = wrapInt (toSize e ((toSize e ((toSize e (x + 4) : Int) + 4) : Int) + toSize e y)) + 1) := by
  have hi : (idSize : Int) = 4 := rfl
  by_cases h1 : inInt (x + 4)
  · rw [incrementChunkSize, hi, addInt, if_pos h1] at h
    refine ⟨h1, ?_⟩
    replace h : (if isOdd y then addInt (wrapInt (toSize e ((toSize e ((toSize e (x + 4) : Int) + 4) : Int)
      + toSize e y))) 1 else .val (wrapInt (toSize e ((toSize e ((toSize e (x + 4) : Int) + 4) : Int)
      + toSize e y)))) = .val r := h
    have hw : inInt (wrapInt (toSize e ((toSize e ((toSize e (x + 4) : Int) + 4) : Int) + toSize e y))) :=
      inInt_wrap
    generalize wrapInt (toSize e ((toSize e ((toSize e (x + 4) : Int) + 4) : Int) + toSize e y)) = w at h hw ⊢
    cases h2 : isOdd y with
    | false =>
      rw [h2, if_neg (by decide)] at h
      injection h with h
      subst h
      exact ⟨hw, .inl ⟨rfl, rfl⟩⟩
    | true =>
      rw [h2, if_pos rfl] at h
      obtain ⟨h3, rfl⟩ := addInt_inv h
      exact ⟨h3, .inr ⟨rfl, rfl⟩⟩
  · rw [incrementChunkSize, hi, addInt, if_neg h1] at h
    cases h

/-- group.c:270-279 -/
theorem incrementChunkSize_run {bp size r : Int} {c sz : Nat} {a b : Cell} {rest : List Cell}
    {heap : Nat → Option Blk} {inp : List Byte} {log : List ErrPrint}
    (hz : Struct.size X.e .IFF_Chunk ≤ sz)
    (hb : heap c = some ⟨sz, cells (a :: b :: .int .int size :: rest)⟩)
    (hbp : inInt bp) (hs : inInt size)
    (h : incrementChunkSize X.e bp size = .val r) :
    callFn X (n + 1) .IFF_incrementChunkSize [.int .int bp,
      .ptr (.struct .IFF_Chunk) ⟨.heap c, 0⟩] ⟨heap, tick, stk, inp, out, room, text, log⟩ =
      .val (.int .int r, ⟨heap, tick, stk, inp, out, room, text, log⟩) := by
  rw [callFn_code rfl]
  obtain ⟨h1, h2, h3⟩ := incrementChunkSize_inv h
  have hw : inInt (wrapInt (toSize X.e ((toSize X.e ((toSize X.e (bp + 4) : Int) + 4) : Int) + toSize X.e size))) :=
    inInt_wrap
  generalize hr : wrapInt (toSize X.e ((toSize X.e ((toSize X.e (bp + 4) : Int) + 4) : Int) + toSize X.e size)) = w at h3 hw
  rcases h3 with ⟨ho, h3⟩ | ⟨ho, h3⟩
  · subst h3
    simp only [isOdd] at ho
    crun [IFF_incrementChunkSize.code, wrapInt_of hs, wrapInt_of hbp, h1, wrapInt_of h1, blkOf_heap hb, hz,
      Ty.size, scalarSize, ITy.bits, toSize_lit, ho, wrapInt_odd, wrapInt_of hw, List.take_length,
      toSize_toSize, hr]
  · subst h3
    simp only [isOdd] at ho
    crun [IFF_incrementChunkSize.code, wrapInt_of hs, wrapInt_of hbp, h1, wrapInt_of h1, blkOf_heap hb, hz,
      Ty.size, scalarSize, ITy.bits, toSize_lit, ho, wrapInt_odd, wrapInt_of hw, List.take_length,
      toSize_toSize, hr, h2, wrapInt_of h2]

end

end Iff.Src
