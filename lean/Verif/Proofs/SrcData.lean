import Verif.Props.SrcConstruct
import Verif.Proofs.SrcTests
/-
  The functions of the files of test data, given what the functions of the library do.
-/
namespace Iff.Src

open Iff.Heap Iff.Spec

set_option maxRecDepth 4000

variable {X : Cfg} {g : CS} {m₀ : Mem} {s s₀ : HS} {ts rest : List Node} {L : Nat}

/-! ### Building with several hierarchies in memory -/

/-- While a hierarchy is built: the memory holds the hierarchies `ts` and what it held at first. -/
structure Work (m₀ : Mem) (s₀ : HS) (L : Nat) (s : HS) (ts : List Node) : Prop where
  forest : Forest m₀ s.mem ts
  bd : MBd L s.mem
  rs : s.rs = s₀.rs

theorem Work.perm {us : List Node} (h : Work m₀ s₀ L s ts) (hp : ts.Perm us) : Work m₀ s₀ L s us :=
  ⟨h.forest.perm hp, h.bd, h.rs⟩

theorem Holds.addr_ne {m m' : Mem} {t : Node} (h : Holds m m' t) : t.addr ≠ 0 := fun h0 => h.nonNull (h0 ▸ t.addr_mem)

theorem work_raw (hX : X.Linked) (he : X.e.Sane) (hsv : X.Serves 1024) (hr : Roomy m₀) {o : Obj} {id : ID}
    {data : List Byte} (hd : Given X g o data) (hid : id ≠ idPROP) (hl : data.length ≤ 768)
    (h : Work m₀ s₀ L s ts) (hL : L ≤ 4294967296) :
    ∃ s' t, Does X (fun _ => o) (.raw id data) (emb X g s) t.addr (emb X g s') ∧ Work m₀ s₀ L s' (t :: ts) ∧
      t.chunk = .raw id data.length data ∧ t.addr ≠ 0 := by
  obtain ⟨p, d, m', t', h1, h2⟩ := newRaw_step (A := X.alloc) (e := X.e) (K := 768) (id := id) (data := data) he.wide
    (serves_upTo hsv) (by omega) hl h.forest.null (hr.adds h.forest.adds)
  obtain ⟨k1, k2⟩ := C66_call X hX g (fun _ => o) s _ (.raw id data) p L h.bd hL ⟨hid, by omega, hd⟩ h1
  exact ⟨_, .raw p d id data.length data, k1, ⟨h.forest.new h2, k2, h.rs⟩, rfl, Holds.addr_ne h2⟩

theorem work_group (hX : X.Linked) (hsv : X.Serves 1024) (hr : Roomy m₀) {id ty : ID}
    (h : Work m₀ s₀ L s ts) (hL : L ≤ 4294967296) :
    ∃ s' t, Does X (fun _ => .stk 0) (.group id ty) (emb X g s) t.addr (emb X g s') ∧ Work m₀ s₀ L s' (t :: ts) ∧
      t.chunk = .grp id 4 ty [] ∧ t.addr ≠ 0 ∧ Node.IsGroup t ∧ subCount t = 0 := by
  have hA : ServesUpTo X.alloc 768 := serves_upTo hsv
  rcases createGroup_spec (A := X.alloc) (id := id) (ty := ty) (s := s) with ⟨h1, -⟩ | ⟨p, m', hp, h1, h2⟩
  · have := hA.grp s.tick s.mem (hr.adds h.forest.adds)
    rw [h1] at this; cases this
  · obtain ⟨k1, k2⟩ := C66_call X hX g (fun _ => .stk 0) s _ (.group id ty) p L h.bd hL trivial h1
    exact ⟨_, .grp p 0 id 4 ty [], k1, ⟨h.forest.new h2, k2, h.rs⟩, rfl, hp, trivial, rfl⟩

theorem work_list (hX : X.Linked) (hsv : X.Serves 1024) (hr : Roomy m₀) {ty : ID}
    (h : Work m₀ s₀ L s ts) (hL : L ≤ 4294967296) :
    ∃ s' t, Does X (fun _ => .stk 0) (.list ty) (emb X g s) t.addr (emb X g s') ∧ Work m₀ s₀ L s' (t :: ts) ∧
      t.chunk = .lst idLIST 4 ty [] [] ∧ t.addr ≠ 0 ∧ Node.IsList t ∧ subCount t = 0 ∧ propCount t = 0 := by
  have hA : ServesUpTo X.alloc 768 := serves_upTo hsv
  rcases createList_spec (A := X.alloc) (ty := ty) (s := s) with ⟨h1, -⟩ | ⟨p, m', hp, h1, h2⟩
  · have := hA.lst s.tick s.mem (hr.adds h.forest.adds)
    rw [h1] at this; cases this
  · obtain ⟨k1, k2⟩ := C66_call X hX g (fun _ => .stk 0) s _ (.list ty) p L h.bd hL trivial h1
    exact ⟨_, .lst p 0 0 idLIST 4 ty [] [], k1, ⟨h.forest.new h2, k2, h.rs⟩, rfl, hp, trivial, rfl, rfl⟩

theorem forest_pair {t d : Node} (h : Forest m₀ s.mem (t :: d :: rest)) : (t.blocks ++ d.blocks).Nodup := by
  have := h.distinct
  rw [Node.blocksAll_cons, Node.blocksAll_cons, ← List.append_assoc] at this
  exact (List.nodup_append.mp this).1

theorem work_add (hX : X.Linked) (he : X.e.Sane) (hsv : X.Serves 1024) (hr : Roomy m₀) {t d : Node}
    (h : Work m₀ s₀ L s (t :: d :: rest)) (hg : Node.IsGroup t) (hd : Consistent d.chunk) (hz : 0 ≤ t.chunk.size)
    (hb : t.chunk.size + ((encode d.chunk).length : Int) < 2147483648) (hK : subCount t < 96)
    (hL : L + 8 ≤ 4294967296) :
    ∃ s' t', Does X (fun _ => .stk 0) (.add t.addr d.addr) (emb X g s) 0 (emb X g s') ∧
      Work m₀ s₀ (L + 8) s' (t' :: rest) ∧
      t'.chunk = moreSubs [d.chunk] (encode d.chunk).length t.chunk ∧ t'.addr = t.addr ∧ Node.IsGroup t' ∧
      subCount t' = subCount t + 1 := by
  have hA : ServesUpTo X.alloc 768 := serves_upTo hsv
  have hroom : Roomy s.mem := hr.adds h.forest.adds
  have hin := h.forest.isIn t (by simp)
  have heq : Heap.addToGroup (fallback X.alloc) X.e t.addr d.addr s = Heap.addToGroup X.alloc X.e t.addr d.addr s := by
    cases t with
    | raw => exact hg.elim
    | ext => exact hg.elim
    | grp => exact add_fallback hin.1 rfl hroom fun t m h => hA.array t m _ h (by simp only [subCount] at hK; dsimp only; omega)
    | lst => exact add_fallback hin.1 rfl hroom fun t m h => hA.array t m _ h (by simp only [subCount] at hK; dsimp only; omega)
  have hinc := increment_encode he.wide hd hz hb
  rcases add_spec (A := fallback X.alloc) (e := X.e) hg hin (h.forest.isIn d (by simp)) (forest_pair h.forest) h.forest.null
    with ⟨h1, -⟩ | ⟨u, h1, -⟩ | ⟨a, z, m', h1, h2, h3, h4, h5, h6⟩
  · exact absurd (fallback_arrays X.alloc) (h1 hroom)
  · rw [hinc] at h1; cases h1
  · rw [hinc] at h1; cases h1
    rw [heq] at h2
    have hrun : (Op.add t.addr d.addr).run X.alloc X.e s = .val (0, ⟨m', s.tick + 1, s.rs⟩) := by
      simp only [Op.run, M.bind_apply, h2]; rfl
    obtain ⟨k1, k2⟩ := C66_call X hX g (fun _ => .stk 0) s _ (.add t.addr d.addr) 0 L h.bd hL trivial hrun
    have haddr : (Node.setSize (t.chunk.size + ((encode d.chunk).length : Int)) (Node.attach a d t)).addr = t.addr := by
      cases t with
      | raw => exact hg.elim
      | ext => exact hg.elim
      | grp => rfl
      | lst => rfl
    refine ⟨_, Node.setSize (t.chunk.size + ((encode d.chunk).length : Int)) (Node.attach a d t), k1,
      ⟨Forest.replace (fs := []) (cs := [d]) h.forest h3 h4 haddr h5 ?_, k2, h.rs⟩, ?_, haddr, ?_, ?_⟩
    · intro m₁ hm₁
      exact h6 m₁ (by simpa [Node.blocksAll] using hm₁)
    all_goals
      cases t with
      | raw => exact hg.elim
      | ext => exact hg.elim
      | grp => simp [Node.setSize, Node.attach, Node.IsGroup, Node.chunk, moreSubs, subCount, Node.chunks_append, Chunk.size, Node.chunks]
      | lst => simp [Node.setSize, Node.attach, Node.IsGroup, Node.chunk, moreSubs, subCount, Node.chunks_append, Chunk.size, Node.chunks]

theorem work_addProp (hX : X.Linked) (he : X.e.Sane) (hsv : X.Serves 1024) (hr : Roomy m₀) {t d : Node}
    (h : Work m₀ s₀ L s (t :: d :: rest)) (hg : Node.IsList t) (hdg : Node.IsGroup d) (hd : Consistent d.chunk)
    (hz : 0 ≤ t.chunk.size) (hb : t.chunk.size + ((encode d.chunk).length : Int) < 2147483648) (hK : propCount t < 96)
    (hL : L + 8 ≤ 4294967296) :
    ∃ s' t', Does X (fun _ => .stk 0) (.addProp t.addr d.addr) (emb X g s) 0 (emb X g s') ∧
      Work m₀ s₀ (L + 8) s' (t' :: rest) ∧
      t'.chunk = moreProps [d.chunk] (encode d.chunk).length t.chunk ∧ t'.addr = t.addr ∧ Node.IsGroup t' ∧
      subCount t' = subCount t := by
  have hA : ServesUpTo X.alloc 768 := serves_upTo hsv
  have hroom : Roomy s.mem := hr.adds h.forest.adds
  have hin := h.forest.isIn t (by simp)
  have hdin := h.forest.isIn d (by simp)
  have heq : Heap.addPropToList (fallback X.alloc) X.e t.addr d.addr s = Heap.addPropToList X.alloc X.e t.addr d.addr s := by
    cases t with
    | lst => exact addProp_fallback hin.1 rfl hroom fun t m h => hA.array t m _ h (by simp only [propCount] at hK; dsimp only; omega)
    | _ => exact hg.elim
  have hinc := increment_encode he.wide hd hz hb
  rcases addProp_spec (A := fallback X.alloc) (e := X.e) hg hin hdin (forest_pair h.forest) h.forest.null
    with ⟨h1, -⟩ | ⟨u, h1, -⟩ | ⟨a, z, m', h1, h2, h3, h4, h5, h6⟩
  · exact absurd (fallback_arrays X.alloc) (h1 hroom)
  · rw [hinc] at h1; cases h1
  · rw [hinc] at h1; cases h1
    rw [heq] at h2
    have hrun : (Op.addProp t.addr d.addr).run X.alloc X.e s = .val (0, ⟨m', s.tick + 1, s.rs⟩) := by
      simp only [Op.run, M.bind_apply, h2]; rfl
    obtain ⟨k1, k2⟩ := C66_call X hX g (fun _ => .stk 0) s _ (.addProp t.addr d.addr) 0 L h.bd hL (by
      cases d with
      | raw => exact hdg.elim
      | ext => exact hdg.elim
      | grp => exact ⟨_, _, hdin.1, rfl⟩
      | lst => exact ⟨_, _, hdin.1, rfl⟩) hrun
    have haddr : (Node.setSize (t.chunk.size + ((encode d.chunk).length : Int)) (Node.attachProp a d t)).addr = t.addr := by
      cases t with
      | lst => rfl
      | _ => exact hg.elim
    refine ⟨_, Node.setSize (t.chunk.size + ((encode d.chunk).length : Int)) (Node.attachProp a d t), k1,
      ⟨Forest.replace (fs := []) (cs := [d]) h.forest h3 h4 haddr h5 ?_, k2, h.rs⟩, ?_, haddr, ?_, ?_⟩
    · intro m₁ hm₁
      exact h6 m₁ (by simpa [Node.blocksAll] using hm₁)
    all_goals
      cases t with
      | lst => simp [Node.setSize, Node.attachProp, Node.IsGroup, Node.chunk, moreProps, subCount, Node.chunks_append, Chunk.size, Node.chunks]
      | _ => exact hg.elim

/-! ### The functions that make data chunks -/

/-- formdata.c:38-44, formdata-pad.c:38-44, catdata.c:44-50, nestedformdata.c:44-50, listdata.c:42-48 -/
theorem makeData_run {f : Fn} (hf : code f = some formdata_createTestDataChunk.code) {id : ID} {n : Nat}
    (hn : n < 2147483648) {o : Obj} {r : Addr} {g₁ g₂ : CS} (hk : g₂.stk = g.stk)
    (h1 : Runs X .IFF_createRawChunk [.int .uint id.toNat, .int .int n] g (chunkV r) g₁)
    (h2 : Runs X .IFF_copyDataToRawChunkData [.ptr (.struct .IFF_RawChunk) (.ofAddr r), .ptr (.int .uchar) ⟨o, 0⟩] g₁
      .void g₂) :
    Runs X f [.int .int id.toNat, .int .int n, .ptr (.int .uchar) ⟨o, 0⟩] g (chunkV r) g₂ := by
  have hk1 : List.take g.stk.length g₂.stk = g₂.stk := by rw [hk, List.take_length]
  have hw : wrapInt (n : Int) = n := wrapInt_of ⟨by omega, by omega⟩
  obtain ⟨N1, hN1⟩ := h1
  obtain ⟨N2, hN2⟩ := h2
  refine ⟨N1 + N2 + 2, fun k hk => ?_⟩
  obtain ⟨k, rfl⟩ : ∃ n', k = n' + 2 := ⟨k - 2, by omega⟩
  have hr1 := hN1 (k + 1) (by omega)
  have hr2 := hN2 (k + 1) (by omega)
  rw [callFn_code hf]
  crun [formdata_createTestDataChunk.code, toNat_emod, hw, hr1, hr2, hk1]

/-- The function that makes a data chunk from an array. -/
def leafCode (f : Fn) (e : Expr) (n : Nat) (gl : Glob) : Fun where
  params := []
  ret := .ptr (.struct .IFF_Chunk)
  body := .ret (.call (.fn f) (.cons e (.cons (.num .int n) (.cons (.glob gl) .nil))))

theorem leaf_run {f f' : Fn} {e : Expr} {n : Nat} {gl : Glob} (hf : code f = some (leafCode f' e n gl)) {id : ID}
    (hid : ∀ call s, evalE X call e s = .val (.int .int id.toNat, s)) (hty : gl.ty = .arr n (.int .uchar))
    {r : Addr} {g₁ : CS} (hk : g₁.stk = g.stk)
    (h1 : Runs X f' [.int .int id.toNat, .int .int n, .ptr (.int .uchar) ⟨.static gl.addr, 0⟩] g (chunkV r) g₁) :
    Runs X f [] g (chunkV r) g₁ := by
  have hk1 : List.take g.stk.length g₁.stk = g₁.stk := by rw [hk, List.take_length]
  obtain ⟨N1, hN1⟩ := h1
  refine ⟨N1 + 2, fun k hk => ?_⟩
  obtain ⟨k, rfl⟩ : ∃ n', k = n' + 2 := ⟨k - 2, by omega⟩
  have hr1 := hN1 (k + 1) (by omega)
  rw [callFn_code hf]
  crun [leafCode, hid, hty, hr1, hk1]

/-- A function without parameters that makes a data chunk. -/
theorem work_leaf (hX : X.Linked) (hD : X.LinkedData) (he : X.e.Sane) (hsv : X.Serves 1024) (hr : Roomy m₀) {f f' : Fn}
    {e : Expr} {n : Nat} {gl : Glob} (hf : code f = some (leafCode f' e n gl))
    (hf' : code f' = some formdata_createTestDataChunk.code) {id : ID}
    (hid : ∀ call s, evalE X call e s = .val (.int .int id.toNat, s)) (hty : gl.ty = .arr n (.int .uchar))
    (hgl : 9 ≤ gl.addr) {data : List Byte} (hdl : data.length = n) (hn : n ≤ 768)
    (hinit : initBlk X gl.ty gl.init = layout X.e (.bytes (data.map some))) (hp : id ≠ idPROP)
    (h : Work m₀ s₀ L s ts) (hL : L ≤ 4294967296) :
    ∃ s' t, Runs X f [] (emb X g s) (chunkV t.addr) (emb X g s') ∧ Work m₀ s₀ L s' (t :: ts) ∧
      t.chunk = .raw id n data ∧ t.addr ≠ 0 := by
  obtain ⟨s', t, ⟨g₁, k1, -, k2⟩, k3, k4, k5⟩ := work_raw (g := g) hX he hsv hr (o := .static gl.addr) (id := id)
    (data := data) ⟨nofun, by rw [← hinit]; exact hD gl hgl⟩ hp (by omega) h hL
  rw [hdl] at k1 k4
  exact ⟨s', t, leaf_run hf hid hty rfl (makeData_run hf' (by omega) rfl k1 (k2 k5)), k3, k4, k5⟩

end Iff.Src
