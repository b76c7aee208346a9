import Verif.Proofs.SrcAttach
/-
  Release of chunks: chunk.c:108-113, rawchunk.c:109-113, group.c:199-207, list.c:213-228.
-/
namespace Iff.Src
set_option maxRecDepth 4000
open Heap (Addr Block Mem HS Hdr Grp Lst)

/-- One iteration of `for`. -/
def forBody (X : Cfg) (call : Fn → List V → M CS V) (n : Nat) (b : Stmt) (t : Expr) : M Fr Flow := do
  let f ← exec X call n b
  f.andThen (do
    let _ ← evalE X call t
    pure .norm)

theorem exec_for' {X : Cfg} {call : Fn → List V → M CS V} {n : Nat} {i c t : Expr} {b : Stmt}
    {s : Fr} : exec X call n (.for i c t b) s = obind (evalE X call i s) fun r =>
      whileN (evalC X call c) (forBody X call n b t) n r.2 := exec_for

theorem forBody_obind {X : Cfg} {call : Fn → List V → M CS V} {n : Nat} {t : Expr} {b : Stmt}
    {s : Fr} : forBody X call n b t s = obind (exec X call n b s) fun r => r.1.andThen (do
      let _ ← evalE X call t
      pure .norm) r.2 := bind_obind _ _ _

theorem step_obind {X : Cfg} {call : Fn → List V → M CS V} {t : Expr} {s : Fr} :
    (do let _ ← evalE X call t; pure Flow.norm : M Fr Flow) s =
      obind (evalE X call t s) fun r => .val (.norm, r.2) := bind_obind _ _ _

section
variable {X : Cfg} {room : Nat} {stk : List Blk} {out text : List Byte}

/-- A heap with some of the blocks of another. -/
def Sub (m' m : Mem) : Prop := ∀ a b, m' a = some b → m a = some b

theorem Sub.refl {m : Mem} : Sub m m := fun _ _ h => h
theorem Sub.trans {m m' m'' : Mem} (h : Sub m m') (h' : Sub m' m'') : Sub m m'' :=
  fun a b hb => h' a b (h a b hb)
theorem Sub.unset {m : Mem} {a : Addr} : Sub (m.set a none) m := by
  intro x b h
  simp only [Mem.set] at h
  split at h
  · cases h
  · exact h
theorem MBd.sub {L : Nat} {m m' : Mem} (hm : MBd L m) (h : Sub m' m) : MBd L m' :=
  fun a b hb => hm a b (h a b hb)

/-- Only blocks are released. -/
def Shrinks (s s' : HS) : Prop := Sub s'.mem s.mem ∧ s'.rs = s.rs

theorem Shrinks.refl {s : HS} : Shrinks s s := ⟨Sub.refl, rfl⟩
theorem Shrinks.trans {s s' s'' : HS} (h : Shrinks s s') (h' : Shrinks s' s'') : Shrinks s s'' :=
  ⟨h'.1.trans h.1, h'.2.trans h.2⟩

theorem free_shrinks {p : Addr} {s s' : HS} {u : Unit} (h : Heap.free p s = .val (u, s')) :
    Shrinks s s' := by
  rcases free_inv h with ⟨-, rfl⟩ | ⟨-, -, rfl⟩
  · exact .refl
  · exact ⟨Sub.unset, rfl⟩

theorem freeMembers_shrinks {fc : ID → Addr → M HS Unit}
    (IH : ∀ {ft c s s' u}, fc ft c s = .val (u, s') → Shrinks s s') {p : Addr} :
    ∀ {k i : Nat} {s s' : HS} {u : Unit}, Heap.freeMembers fc p k i s = .val (u, s') → Shrinks s s' := by
  intro k
  induction k with
  | zero => intro i s s' u h; obtain ⟨-, rfl⟩ := pure_inv h; exact .refl
  | succ k ih =>
    intro i s s' u h
    unfold Heap.freeMembers at h
    obtain ⟨g, s1, h1, k1⟩ := bind_inv h
    obtain ⟨-, rfl⟩ := getGrp_inv h1
    obtain ⟨c, s2, h2, k2⟩ := bind_inv k1
    obtain ⟨-, rfl⟩ := getPtr_inv h2
    obtain ⟨u3, s3, h3, k3⟩ := bind_inv k2
    exact (IH h3).trans (ih k3)

theorem freeProps_shrinks {fc : ID → Addr → M HS Unit}
    (IH : ∀ {ft c s s' u}, fc ft c s = .val (u, s') → Shrinks s s') {p : Addr} :
    ∀ {k i : Nat} {s s' : HS} {u : Unit}, Heap.freeProps fc p k i s = .val (u, s') → Shrinks s s' := by
  intro k
  induction k with
  | zero => intro i s s' u h; obtain ⟨-, rfl⟩ := pure_inv h; exact .refl
  | succ k ih =>
    intro i s s' u h
    unfold Heap.freeProps at h
    obtain ⟨g, s1, h1, k1⟩ := bind_inv h
    obtain ⟨-, rfl⟩ := getLst_inv h1
    obtain ⟨c, s2, h2, k2⟩ := bind_inv k1
    obtain ⟨-, rfl⟩ := getPtr_inv h2
    obtain ⟨g2, s3, h3, k3⟩ := bind_inv k2
    obtain ⟨-, rfl⟩ := getGrp_inv h3
    obtain ⟨u4, s4, h4, k4⟩ := bind_inv k3
    exact (IH h4).trans (ih k4)

theorem freeGroup_shrinks {fc : ID → Addr → M HS Unit}
    (IH : ∀ {ft c s s' u}, fc ft c s = .val (u, s') → Shrinks s s') {p : Addr}
    {s s' : HS} {u : Unit} (h : Heap.freeGroup fc p s = .val (u, s')) : Shrinks s s' := by
  unfold Heap.freeGroup at h
  obtain ⟨g, s1, h1, k1⟩ := bind_inv h
  obtain ⟨-, rfl⟩ := getGrp_inv h1
  obtain ⟨u2, s2, h2, k2⟩ := bind_inv k1
  obtain ⟨g2, s3, h3, k3⟩ := bind_inv k2
  obtain ⟨-, rfl⟩ := getGrp_inv h3
  exact (freeMembers_shrinks IH h2).trans (free_shrinks k3)

theorem freeList_shrinks {fc : ID → Addr → M HS Unit}
    (IH : ∀ {ft c s s' u}, fc ft c s = .val (u, s') → Shrinks s s') {p : Addr}
    {s s' : HS} {u : Unit} (h : Heap.freeList fc p s = .val (u, s')) : Shrinks s s' := by
  unfold Heap.freeList at h
  obtain ⟨u0, s0, h0, k0⟩ := bind_inv h
  obtain ⟨g, s1, h1, k1⟩ := bind_inv k0
  obtain ⟨-, rfl⟩ := getLst_inv h1
  obtain ⟨u2, s2, h2, k2⟩ := bind_inv k1
  obtain ⟨g2, s3, h3, k3⟩ := bind_inv k2
  obtain ⟨-, rfl⟩ := getLst_inv h3
  exact ((freeGroup_shrinks IH h0).trans (freeProps_shrinks IH h2)).trans (free_shrinks k3)

/-- What is known about the release of a sub chunk. -/
def FreeIH (X : Cfg) (q : Ptr) (stk : List Blk) (out : List Byte) (room : Nat) (text : List Byte)
    (fc : ID → Addr → M HS Unit) : Prop :=
  ∀ {ft : ID} {c : Addr} {s s' : HS} {u : Unit} {L : Nat}, MBd L s.mem → L ≤ 4294967296 →
    fc ft c s = .val (u, s') → Shrinks s s' ∧
    Runs X .IFF_freeChunk [.ptr (.struct .IFF_Chunk) ⟨.heap c, 0⟩, .int .uint ft.toNat,
      .ptr (.struct .IFF_ChunkRegistry) q] (st X stk out room text s) .void (st X stk out room text s')

/-- group.c:203-204 -/
theorem freeMembers_run {q : Ptr} {fc : ID → Addr → M HS Unit} (IH : FreeIH X q stk out room text fc)
    (IHs : ∀ {ft c s s' u}, fc ft c s = .val (u, s') → Shrinks s s') {p : Addr} {L : Nat}
    (hL : L ≤ 4294967296) :
    ∀ {k i : Nat} {s s' : HS} {u : Unit}, MBd L s.mem →
      Heap.freeMembers fc p k i s = .val (u, s') →
      (∃ b g, s'.mem p = some b ∧ b.grp? = some g ∧ g.len = i + k) →
      ∃ N, ∀ n, N ≤ n → ∀ j, N ≤ j → ∀ loc : Var → Slot,
        loc .i = .reg (.int .uint) (.int .uint i) →
        loc .group = .reg (.ptr (.struct .IFF_Group)) (.ptr (.struct .IFF_Group) ⟨.heap p, 0⟩) →
        loc .chunkRegistry = .reg (.ptr (.struct .IFF_ChunkRegistry)) (.ptr (.struct .IFF_ChunkRegistry) q) →
        ∃ loc', whileN (evalC X (callFn X n) (.bin .lt (.var .i) (.arrow (.var .group) .chunkLength)))
          (forBody X (callFn X n) n
            (.expr (.call (.fn .IFF_freeChunk) (.cons (.index (.arrow (.var .group) .chunk) (.var .i)) (.cons (.arrow (.var .group) .groupType) (.cons (.var .chunkRegistry) .nil)))))
            (.inc (.var .i))) j ⟨loc, st X stk out room text s⟩ =
          .val (.norm, ⟨loc', st X stk out room text s'⟩) ∧ ∀ x, x ≠ .i → loc' x = loc x := by
  intro k
  induction k with
  | zero =>
    intro i s s' u hm h hb
    obtain ⟨-, rfl⟩ := pure_inv h
    obtain ⟨b, g, hb1, hb2, hl⟩ := hb
    obtain ⟨hd, sz, rest, -, -, hz, hly, -⟩ := grp_layout X hb2
    have hb := heapOf_some (e := X.e) hb1
    rw [hly] at hb
    have hg := hm.grp hb1 hb2
    refine ⟨1, fun n hn j hj loc hi hgr hr => ⟨loc, ?_, fun _ _ => rfl⟩⟩
    obtain ⟨j, rfl⟩ : ∃ j', j = j' + 1 := ⟨j - 1, by omega⟩
    rw [whileN_succ]
    crun [hi, hgr, hr, blkOf_heap hb, hz, nat_emod (show g.len < 4294967296 by omega),
      nat_emod (show i < 4294967296 by omega), decide_eq_false (show ¬ (i : Int) < g.len by omega)]
  | succ k ih =>
    intro i s s' u hm h hfin
    unfold Heap.freeMembers at h
    obtain ⟨g, s1, h1, k1⟩ := bind_inv h
    clear h
    obtain ⟨rfl, hd, sz, rest, -, hz, ⟨b, hb1, -, hb2⟩, hb⟩ := getGrp_step (X := X) h1
    obtain ⟨c, s2, h2, k2⟩ := bind_inv k1
    obtain ⟨rfl, B, hB, hBs, hBc⟩ := getPtr_step (X := X) h2
    obtain ⟨u3, s3, h3, k3⟩ := bind_inv k2
    obtain ⟨hsh, N1, hN1⟩ := IH hm hL h3
    have hm3 := hm.sub hsh.1
    obtain ⟨N2, hN2⟩ := ih hm3 k3 (by
      obtain ⟨b, g, h1, h2, h3⟩ := hfin; exact ⟨b, g, h1, h2, by omega⟩)
    have hlen : g.len = i + (k + 1) := by
      obtain ⟨b', g', h1', h2', h3'⟩ := hfin
      have := hsh.1 _ _ ((freeMembers_shrinks IHs k3).1 _ _ h1')
      rw [hb1] at this; cases this
      rw [hb2] at h2'; cases h2'
      exact h3'
    have hg := hm.grp hb1 hb2
    refine ⟨max N1 N2 + 1, fun n hn j hj loc hi hgr hr => ?_⟩
    obtain ⟨j, rfl⟩ : ∃ j', j = j' + 1 := ⟨j - 1, by omega⟩
    have hc := hN1 n (by omega)
    obtain ⟨loc', hw, hl'⟩ := hN2 n (by omega) j (by omega)
      (setLoc loc .i (.reg (.int .uint) (.int .uint ((i + 1 : Nat) : Int)))) (by simp [setLoc])
      (by simp [setLoc, hgr]) (by simp [setLoc, hr])
    refine ⟨loc', ?_, fun x hx => by rw [hl' x hx]; simp [setLoc, hx]⟩
    rw [whileN_succ]
    crun [hi, hgr, hr, blkOf_heap hb, hz, nat_emod (show g.len < 4294967296 by omega),
      nat_emod (show i < 4294967296 by omega), decide_eq_true (show (i : Int) < g.len by omega),
      ↓forBody_obind, blkOf_heap hB, hBs, hBc, Int.natCast_nonneg, Int.toNat_natCast, scalarSize, hc,
      step_obind, succ_emod (show i + 1 < 4294967296 by omega),
      nat_emod (show i + 1 < 4294967296 by omega), hw]

/-- list.c:217-218 -/
theorem freeProps_run {q : Ptr} {fc : ID → Addr → M HS Unit} (IH : FreeIH X q stk out room text fc)
    (IHs : ∀ {ft c s s' u}, fc ft c s = .val (u, s') → Shrinks s s') {p : Addr} {L : Nat}
    (hL : L ≤ 4294967296) :
    ∀ {k i : Nat} {s s' : HS} {u : Unit}, MBd L s.mem →
      Heap.freeProps fc p k i s = .val (u, s') →
      (∃ b l, s'.mem p = some b ∧ b.lst? = some l ∧ l.plen = i + k) →
      ∃ N, ∀ n, N ≤ n → ∀ j, N ≤ j → ∀ loc : Var → Slot,
        loc .i = .reg (.int .uint) (.int .uint i) →
        loc .«list» = .reg (.ptr (.struct .IFF_List)) (.ptr (.struct .IFF_List) ⟨.heap p, 0⟩) →
        loc .chunkRegistry = .reg (.ptr (.struct .IFF_ChunkRegistry)) (.ptr (.struct .IFF_ChunkRegistry) q) →
        ∃ loc', whileN (evalC X (callFn X n) (.bin .lt (.var .i) (.arrow (.var .«list») .propLength)))
          (forBody X (callFn X n) n
            (.expr (.call (.fn .IFF_freeChunk) (.cons (.cast (.ptr (.struct .IFF_Chunk)) (.index (.arrow (.var .«list») .prop) (.var .i))) (.cons (.arrow (.var .«list») .contentsType) (.cons (.var .chunkRegistry) .nil)))))
            (.inc (.var .i))) j ⟨loc, st X stk out room text s⟩ =
          .val (.norm, ⟨loc', st X stk out room text s'⟩) ∧ ∀ x, x ≠ .i → loc' x = loc x := by
  intro k
  induction k with
  | zero =>
    intro i s s' u hm h hb
    obtain ⟨-, rfl⟩ := pure_inv h
    obtain ⟨b, l, hb1, hb2, hl⟩ := hb
    obtain ⟨hd, g, -, -, hly, -⟩ := lst_layout X hb2
    have hb := heapOf_some (e := X.e) hb1
    rw [hly] at hb
    have hg := hm.lst hb1 hb2
    refine ⟨1, fun n hn j hj loc hi hgr hr => ⟨loc, ?_, fun _ _ => rfl⟩⟩
    obtain ⟨j, rfl⟩ : ∃ j', j = j' + 1 := ⟨j - 1, by omega⟩
    rw [whileN_succ]
    crun [hi, hgr, hr, blkOf_heap hb, nat_emod (show l.plen < 4294967296 by omega),
      nat_emod (show i < 4294967296 by omega), decide_eq_false (show ¬ (i : Int) < l.plen by omega)]
  | succ k ih =>
    intro i s s' u hm h hfin
    unfold Heap.freeProps at h
    obtain ⟨l, s1, h1, k1⟩ := bind_inv h
    clear h
    obtain ⟨rfl, hd, g, ⟨b, hb1, -, hb3, hb2⟩, hb⟩ := getLst_step (X := X) h1
    obtain ⟨c, s2, h2, k2⟩ := bind_inv k1
    obtain ⟨rfl, B, hB, hBs, hBc⟩ := getPtr_step (X := X) h2
    obtain ⟨g', s3, h3, k3⟩ := bind_inv k2
    obtain ⟨⟨b', hb1', hb3'⟩, rfl⟩ := getGrp_inv h3
    rw [hb1] at hb1'; cases hb1'
    rw [hb3] at hb3'; cases hb3'
    obtain ⟨u3, s4, h4, k4⟩ := bind_inv k3
    obtain ⟨hsh, N1, hN1⟩ := IH hm hL h4
    have hm3 := hm.sub hsh.1
    obtain ⟨N2, hN2⟩ := ih hm3 k4 (by
      obtain ⟨b, g, h1, h2, h3⟩ := hfin; exact ⟨b, g, h1, h2, by omega⟩)
    have hlen : l.plen = i + (k + 1) := by
      obtain ⟨b', g', h1', h2', h3'⟩ := hfin
      have := hsh.1 _ _ ((freeProps_shrinks IHs k4).1 _ _ h1')
      rw [hb1] at this; cases this
      rw [hb2] at h2'; cases h2'
      exact h3'
    have hg := hm.lst hb1 hb2
    refine ⟨max N1 N2 + 1, fun n hn j hj loc hi hgr hr => ?_⟩
    obtain ⟨j, rfl⟩ : ∃ j', j = j' + 1 := ⟨j - 1, by omega⟩
    have hc := hN1 n (by omega)
    obtain ⟨loc', hw, hl'⟩ := hN2 n (by omega) j (by omega)
      (setLoc loc .i (.reg (.int .uint) (.int .uint ((i + 1 : Nat) : Int)))) (by simp [setLoc])
      (by simp [setLoc, hgr]) (by simp [setLoc, hr])
    refine ⟨loc', ?_, fun x hx => by rw [hl' x hx]; simp [setLoc, hx]⟩
    rw [whileN_succ]
    crun [hi, hgr, hr, blkOf_heap hb, nat_emod (show l.plen < 4294967296 by omega),
      nat_emod (show i < 4294967296 by omega), decide_eq_true (show (i : Int) < l.plen by omega),
      ↓forBody_obind, blkOf_heap hB, hBs, hBc, Int.natCast_nonneg, Int.toNat_natCast, scalarSize, hc,
      step_obind, succ_emod (show i + 1 < 4294967296 by omega),
      nat_emod (show i + 1 < 4294967296 by omega), hw]

/-- group.c:199-207 -/
theorem freeGroup_run {q : Ptr} {fc : ID → Addr → M HS Unit} (IH : FreeIH X q stk out room text fc)
    (IHs : ∀ {ft c s s' u}, fc ft c s = .val (u, s') → Shrinks s s') {p : Addr} {L : Nat}
    (hL : L ≤ 4294967296) {s s' : HS} {u : Unit} (hm : MBd L s.mem)
    (h : Heap.freeGroup fc p s = .val (u, s')) :
    Runs X .IFF_freeGroup [.ptr (.struct .IFF_Group) ⟨.heap p, 0⟩,
      .ptr (.struct .IFF_ChunkRegistry) q] (st X stk out room text s) .void
      (st X stk out room text s') := by
  unfold Heap.freeGroup at h
  obtain ⟨g, s1, h1, k1⟩ := bind_inv h
  clear h
  obtain ⟨rfl, hd, sz, rest, -, hz, ⟨b, hb1, -, hb2⟩, hb⟩ := getGrp_step (X := X) h1
  obtain ⟨u2, s2, h2, k2⟩ := bind_inv k1
  obtain ⟨g3, s3, h3, k3⟩ := bind_inv k2
  obtain ⟨rfl, hd3, sz3, rest3, -, hz3, ⟨b3, hb31, -, hb32⟩, hb3⟩ := getGrp_step (X := X) h3
  have hsame : b3 = b := by
    have := (freeMembers_shrinks IHs h2).1 _ _ hb31
    rw [hb1] at this; cases this; rfl
  subst hsame
  rw [hb2] at hb32; cases hb32
  obtain ⟨N, hN⟩ := freeMembers_run IH IHs hL hm h2 ⟨_, _, hb31, hb2, by omega⟩
  refine ⟨N + 3, fun n hn => ?_⟩
  obtain ⟨n, rfl⟩ : ∃ n', n = n' + 2 := ⟨n - 2, by omega⟩
  rw [callFn_code rfl]
  obtain ⟨loc', hw, hl'⟩ := hN (n + 1) (by omega) (n + 1) (by omega)
    (setLoc (setLoc (setLoc (setLoc (fun _ => .none) .chunkRegistry (.reg (.ptr (.struct .IFF_ChunkRegistry)) (.ptr (.struct .IFF_ChunkRegistry) q)))
      .group (.reg (.ptr (.struct .IFF_Group)) (.ptr (.struct .IFF_Group) ⟨.heap p, 0⟩)))
      .i (.reg (.int .uint) .undef)) .i (.reg (.int .uint) (.int .uint 0))) (by simp [setLoc])
    (by simp [setLoc]) (by simp [setLoc])
  have hg' : loc' .group = .reg (.ptr (.struct .IFF_Group)) (.ptr (.struct .IFF_Group) ⟨.heap p, 0⟩) := by
    rw [hl' .group (by simp)]; simp [setLoc]
  crun [IFF_freeGroup.code, ↓exec_for', hw, hg', blkOf_heap hb3, hz3, free_run k3, List.take_length]

/-- list.c:213-219 -/
theorem freeListPropChunks_run {q : Ptr} {fc : ID → Addr → M HS Unit}
    (IH : FreeIH X q stk out room text fc)
    (IHs : ∀ {ft c s s' u}, fc ft c s = .val (u, s') → Shrinks s s') {p : Addr} {L : Nat}
    (hL : L ≤ 4294967296) {s s' : HS} {u : Unit} (hm : MBd L s.mem) {b : Block} {l : Lst}
    (hb : s.mem p = some b) (hl : b.lst? = some l) (hb' : s'.mem p = some b)
    (h : Heap.freeProps fc p l.plen 0 s = .val (u, s')) :
    Runs X .freeListPropChunks [.ptr (.struct .IFF_List) ⟨.heap p, 0⟩,
      .ptr (.struct .IFF_ChunkRegistry) q] (st X stk out room text s) .void
      (st X stk out room text s') := by
  obtain ⟨N, hN⟩ := freeProps_run IH IHs hL hm h ⟨_, _, hb', hl, by omega⟩
  refine ⟨N + 3, fun n hn => ?_⟩
  obtain ⟨n, rfl⟩ : ∃ n', n = n' + 2 := ⟨n - 2, by omega⟩
  rw [callFn_code rfl]
  obtain ⟨loc', hw, hl'⟩ := hN (n + 1) (by omega) (n + 1) (by omega)
    (setLoc (setLoc (setLoc (setLoc (fun _ => .none) .chunkRegistry (.reg (.ptr (.struct .IFF_ChunkRegistry)) (.ptr (.struct .IFF_ChunkRegistry) q)))
      .«list» (.reg (.ptr (.struct .IFF_List)) (.ptr (.struct .IFF_List) ⟨.heap p, 0⟩)))
      .i (.reg (.int .uint) .undef)) .i (.reg (.int .uint) (.int .uint 0))) (by simp [setLoc])
    (by simp [setLoc]) (by simp [setLoc])
  crun [freeListPropChunks.code, ↓exec_for', hw, List.take_length]

/-- rawchunk.c:109-113 -/
theorem freeRawChunk_run {q : Ptr} {p d : Addr} {hd : Hdr} {n : Nat} {s s' : HS} {u : Unit}
    (hb : s.mem p = some (.raw hd d)) (h : Heap.free d s = .val (u, s')) :
    callFn X (n + 2) .IFF_freeRawChunk [.ptr (.struct .IFF_Chunk) ⟨.heap p, 0⟩,
      .ptr (.struct .IFF_ChunkRegistry) q] (st X stk out room text s) =
      .val (.void, st X stk out room text s') := by
  have hb := heapOf_some (e := X.e) hb
  rw [callFn_code rfl]
  crun [IFF_freeRawChunk.code, blkOf_heap hb, layout, hdrCells, List.cons_append, List.nil_append, free_run h, List.take_length]

theorem free_cat {f : Fn} (hf : f = .IFF_freeCAT ∨ f = .IFF_freeForm) {q : Ptr} {p : Addr} {g g' : CS}
    (h : Runs X .IFF_freeGroup [.ptr (.struct .IFF_Group) ⟨.heap p, 0⟩,
      .ptr (.struct .IFF_ChunkRegistry) q] g .void g') (hs : g'.stk = g.stk) :
    Runs X f [.ptr (.struct .IFF_Chunk) ⟨.heap p, 0⟩, .ptr (.struct .IFF_ChunkRegistry) q] g
      .void g' := by
  obtain ⟨N, hN⟩ := h
  refine ⟨N + 1, fun n hn => ?_⟩
  obtain ⟨n, rfl⟩ : ∃ n', n = n' + 1 := ⟨n - 1, by omega⟩
  have hc := hN n (by omega)
  obtain ⟨heap, tick, stk, inp, out, room, text, log⟩ := g
  obtain ⟨heap', tick', stk', inp', out', room', text', log'⟩ := g'
  subst hs
  rcases hf with rfl | rfl <;> rw [callFn_code rfl]
  · crun [IFF_freeCAT.code, hc, List.take_length]
  · crun [IFF_freeForm.code, hc, List.take_length]

theorem free_prop {q : Ptr} {p : Addr} {g g' : CS}
    (h : Runs X .IFF_freeGroup [.ptr (.struct .IFF_Group) ⟨.heap p, 0⟩,
      .ptr (.struct .IFF_ChunkRegistry) q] g .void g') (hs : g'.stk = g.stk) :
    Runs X .IFF_freeProp [.ptr (.struct .IFF_Chunk) ⟨.heap p, 0⟩, .ptr (.struct .IFF_ChunkRegistry) q] g
      .void g' := by
  obtain ⟨N, hN⟩ := free_cat (.inr rfl) h hs
  refine ⟨N + 1, fun n hn => ?_⟩
  obtain ⟨n, rfl⟩ : ∃ n', n = n' + 1 := ⟨n - 1, by omega⟩
  have hc := hN n (by omega)
  obtain ⟨heap, tick, stk, inp, out, room, text, log⟩ := g
  obtain ⟨heap', tick', stk', inp', out', room', text', log'⟩ := g'
  subst hs
  rw [callFn_code rfl]
  crun [IFF_freeProp.code, hc, List.take_length]

/-- list.c:221-228 -/
theorem freeList_run {q : Ptr} {fc : ID → Addr → M HS Unit} (IH : FreeIH X q stk out room text fc)
    (IHs : ∀ {ft c s s' u}, fc ft c s = .val (u, s') → Shrinks s s') {p : Addr} {L : Nat}
    (hL : L ≤ 4294967296) {s s' : HS} {u : Unit} (hm : MBd L s.mem)
    (h : Heap.freeList fc p s = .val (u, s')) :
    Runs X .IFF_freeList [.ptr (.struct .IFF_Chunk) ⟨.heap p, 0⟩,
      .ptr (.struct .IFF_ChunkRegistry) q] (st X stk out room text s) .void
      (st X stk out room text s') := by
  unfold Heap.freeList at h
  obtain ⟨u0, s0, h0, k0⟩ := bind_inv h
  clear h
  obtain ⟨N0, hN0⟩ := free_cat (X := X) (.inl rfl) (freeGroup_run IH IHs hL hm h0) rfl
  have hm0 := hm.sub (freeGroup_shrinks IHs h0).1
  obtain ⟨l, s1, h1, k1⟩ := bind_inv k0
  obtain ⟨rfl, hd, g, ⟨b, hb1, -, -, hb2⟩, -⟩ := getLst_step (X := X) h1
  obtain ⟨u2, s2, h2, k2⟩ := bind_inv k1
  obtain ⟨l3, s3, h3, k3⟩ := bind_inv k2
  obtain ⟨rfl, hd3, g3, ⟨b3, hb31, -, -, hb32⟩, hb3⟩ := getLst_step (X := X) h3
  have hsame : b3 = b := by
    have := (freeProps_shrinks IHs h2).1 _ _ hb31
    rw [hb1] at this; cases this; rfl
  subst hsame
  obtain ⟨N1, hN1⟩ := freeListPropChunks_run IH IHs hL hm0 hb1 hb2 hb31 h2
  refine ⟨max N0 N1 + 2, fun n hn => ?_⟩
  obtain ⟨n, rfl⟩ : ∃ n', n = n' + 2 := ⟨n - 2, by omega⟩
  have hc0 := hN0 (n + 1) (by omega)
  have hc1 := hN1 (n + 1) (by omega)
  rw [callFn_code rfl]
  crun [IFF_freeList.code, hc0, hc1, blkOf_heap hb3, free_run k3, List.take_length]

theorem freeChunk_shrinks {r : Registry} : ∀ {k : Nat} {ft : ID} {c : Addr} {s s' : HS} {u : Unit},
    Heap.freeChunk r k ft c s = .val (u, s') → Shrinks s s' := by
  intro k
  induction k with
  | zero => intro ft c s s' u h; cases h
  | succ k ih =>
    intro ft c s s' u h
    unfold Heap.freeChunk at h
    obtain ⟨hd, s1, h1, k1⟩ := bind_inv h
    clear h
    obtain ⟨-, rfl⟩ := getHdr_inv h1
    cases hh : findChunkType r ft hd.id <;> rw [hh] at k1 <;>
      try obtain ⟨u2, s2, h2, k2⟩ := bind_inv k1
    · obtain ⟨-, rfl⟩ := load_inv h2
      cases u2 <;> first | (cases k2; done) | (
        obtain ⟨u3, s3, h3, k3⟩ := bind_inv k2
        first | (cases h3; done) | exact (free_shrinks h3).trans (free_shrinks k3))
    · exact (freeGroup_shrinks ih h2).trans (free_shrinks k2)
    · exact (freeGroup_shrinks ih h2).trans (free_shrinks k2)
    · exact (freeList_shrinks ih h2).trans (free_shrinks k2)
    · exact (freeGroup_shrinks ih h2).trans (free_shrinks k2)
    · exact free_shrinks k1

/-- tests/hello.c:95-97, tests/bye.c:80-82 -/
theorem freeExt_run {f : Fn} (hf : f = .TEST_freeHello ∨ f = .TEST_freeBye) {p : Addr} {q : Ptr} {s : HS} :
    Runs X f [.ptr (.struct .IFF_Chunk) ⟨.heap p, 0⟩, .ptr (.struct .IFF_ChunkRegistry) q]
      (st X stk out room text s) .void (st X stk out room text s) := by
  refine ⟨2, fun n hn => ?_⟩
  obtain ⟨n, rfl⟩ : ∃ n', n = n' + 2 := ⟨n - 2, by omega⟩
  rcases hf with rfl | rfl <;> rw [callFn_code rfl]
  · crun [TEST_freeHello.code, List.take_length]
  · crun [TEST_freeBye.code, List.take_length]

/-- chunk.c:108-113 -/
theorem freeChunk_run {q : Ptr} {r : Registry} (hr : RegAt X q r) : ∀ {k : Nat},
    FreeIH X q stk out room text (Heap.freeChunk r k) := by
  intro k
  induction k with
  | zero => intro ft c s s' u L _ _ h; cases h
  | succ k ih =>
    intro ft c s s' u L hm hL h
    refine ⟨freeChunk_shrinks h, ?_⟩
    unfold Heap.freeChunk at h
    obtain ⟨hd, s1, h1, k1⟩ := bind_inv h
    clear h
    obtain ⟨rfl, sz, rest, hz, hb⟩ := getHdr_step (X := X) h1
    obtain ⟨q', id', hq, ⟨-, -, -, fns, -, -, -, -, hf, -⟩⟩ :=
      findChunkType_run (ft := ft) (id := hd.id) hr (Registry.depth r + 4)
        (st X stk out room text s1) (Nat.le_refl _)
    have key : ∃ f, fns[4]? = some f ∧ ∃ s2, Runs X f [.ptr (.struct .IFF_Chunk) ⟨.heap c, 0⟩,
        .ptr (.struct .IFF_ChunkRegistry) q] (st X stk out room text s1) .void
        (st X stk out room text s2) ∧ Heap.free c s2 = .val (u, s') := by
      cases hh : findChunkType r ft hd.id <;> rw [hh] at k1 hf <;> cases hf <;>
        refine ⟨_, rfl, ?_⟩ <;> first
          | exact ⟨s1, freeExt_run (by simp), k1⟩
          | (obtain ⟨u2, s2, h2, k2⟩ := bind_inv k1; try refine ⟨s2, ?_, k2⟩)
      · obtain ⟨hm3, rfl⟩ := load_inv h2
        cases u2 <;> first | (cases k2; done) | (
          obtain ⟨u3, s3, h3, k3⟩ := bind_inv k2
          first | (cases h3; done) | exact ⟨s3, ⟨2, fun n hn => by
            obtain ⟨n, rfl⟩ : ∃ n', n = n' + 2 := ⟨n - 2, by omega⟩
            exact freeRawChunk_run hm3 h3⟩, k3⟩)
      · exact free_cat (.inr rfl) (freeGroup_run ih freeChunk_shrinks hL hm h2) rfl
      · exact free_cat (.inl rfl) (freeGroup_run ih freeChunk_shrinks hL hm h2) rfl
      · exact freeList_run ih freeChunk_shrinks hL hm h2
      · exact free_prop (freeGroup_run ih freeChunk_shrinks hL hm h2) rfl
    obtain ⟨f, hf4, s2, ⟨N, hN⟩, hfr⟩ := key
    refine ⟨max N (Registry.depth r + 4) + 2, fun n hn => ?_⟩
    obtain ⟨n, rfl⟩ : ∃ n', n = n' + 2 := ⟨n - 2, by omega⟩
    have hc := hN (n + 1) (by omega)
    obtain ⟨q2, id2, hq2, ⟨kk, jj, b, fns', rfl, hi, his, -, hf', hfs⟩⟩ :=
      findChunkType_run (ft := ft) (id := hd.id) hr (n + 1) (st X stk out room text s1) (by omega)
    cases hf.unique hf'
    have hcell := hfs 4 f hf4
    have hmo : ∀ s, memberOf X (.ptr (.struct .IFF_ChunkType) ⟨.static kk, jj * 8⟩) .freeExtensionChunk s =
      .val (.mem .fn ⟨.static kk, jj * 8 + 5⟩, s) := fun s =>
      memberOf_static hi rfl (by decide) his rfl
    rw [callFn_code rfl]
    crun [IFF_freeChunk.code, blkOf_heap hb, hz, hq2, hmo, blkOf_static hi, hcell, hc, free_run hfr, List.take_length]

end

end Iff.Src
