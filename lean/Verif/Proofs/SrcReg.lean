import Verif.Proofs.SrcIo
/-
  chunkregistry.c: running the text of the functions that look up a chunk type does what the model
  says.
-/
namespace Iff.Src
set_option maxRecDepth 4000

section
variable {X : Cfg} {n : Nat} {heap : Nat → Option Blk} {tick room : Nat} {stk : List Blk}
  {inp out text : List Byte} {log : List ErrPrint}

theorem memberOf_static {st : Struct} {k j off i : Nat} {m : Member} {t : Ty} {b : Blk} {s : Fr}
    (hb : X.img k = some b) (ho : off = j * st.slots) (hsl : 0 < st.slots)
    (hs : (j + 1) * st.size X.e ≤ b.size) (hf : st.find m = some (i, t)) :
    memberOf X (.ptr (.struct st) ⟨.static k, off⟩) m s = .val (.mem t ⟨.static k, off + i⟩, s) := by
  have : off / st.slots = j := by rw [ho]; exact Nat.mul_div_cancel _ hsl
  simp only [memberOf, CS.blk, hb, this, if_pos hs, hf]

theorem inInt_neg_one : inInt (-1) := by decide

/-- The value of a comparison function. -/
def cmpVal : Ordering → Int
  | .lt => -1
  | .eq => 0
  | .gt => 1

theorem cmp_cases (x y : ID) : (x.toNat < y.toNat ∧ cmpId x y = .lt) ∨
    (y.toNat < x.toNat ∧ cmpId x y = .gt) ∨ (x.toNat = y.toNat ∧ cmpId x y = .eq) := by
  unfold cmpId
  split
  · exact .inl ⟨‹_›, rfl⟩
  · split
    · exact .inr (.inl ⟨‹_›, rfl⟩)
    · exact .inr (.inr ⟨by omega, rfl⟩)

theorem compareTypes_run {sz : Nat} {id : ID} {rest : List Cell} {t : ChunkType} {p : Ptr}
    {k : Nat} (hsz : Struct.size X.e .IFF_ChunkType ≤ sz)
    (hk : stk[k]? = some ⟨sz, cells (.int .uint id.toNat :: rest)⟩) (hp : TypeAt X p t) :
    callFn X (n + 1) .compareChunkTypes [.ptr .void ⟨.stk k, 0⟩, .ptr .void p]
      ⟨heap, tick, stk, inp, out, room, text, log⟩ =
    .val (.int .int (cmpVal (cmpId id t.id)), ⟨heap, tick, stk, inp, out, room, text, log⟩) := by
  obtain ⟨k', j, b, fns, rfl, hb, hs, hc, -, -⟩ := hp
  rw [callFn_code rfl]
  have hm : ∀ s, memberOf X (.ptr (.struct .IFF_ChunkType) ⟨.static k', j * 8⟩) .chunkId s =
    .val (.mem (.int .uint) ⟨.static k', j * 8 + 0⟩, s) := fun s =>
    memberOf_static hb rfl (by decide) hs rfl
  have hl : b.cell (j * 8 + 0) = .int .uint t.id.toNat := hc
  rcases cmp_cases id t.id with ⟨h, hr⟩ | ⟨h, hr⟩ | ⟨h, hr⟩ <;> rw [hr]
  · have h1 : (id.toNat : Int) < t.id.toNat := by omega
    crun [compareChunkTypes.code, blkOf_stk hk, hsz, hm, blkOf_static hb, hl, h1, inInt_neg_one, List.take_length]; rfl
  · have h1 : ¬ (id.toNat : Int) < t.id.toNat := by omega
    have h2 : (id.toNat : Int) > t.id.toNat := by omega
    crun [compareChunkTypes.code, blkOf_stk hk, hsz, hm, blkOf_static hb, hl, h1, h2, List.take_length]; rfl
  · have h1 : ¬ (id.toNat : Int) < t.id.toNat := by omega
    have h2 : ¬ (id.toNat : Int) > t.id.toNat := by omega
    crun [compareChunkTypes.code, blkOf_stk hk, hsz, hm, blkOf_static hb, hl, h1, h2, List.take_length]; rfl

theorem compareForms_run {sz : Nat} {id : ID} {rest : List Cell} {f : FormChunkTypes} {p : Ptr}
    {k : Nat} (hsz : Struct.size X.e .IFF_FormChunkTypes ≤ sz)
    (hk : stk[k]? = some ⟨sz, cells (.int .uint id.toNat :: rest)⟩) (hp : FormAt X p f) :
    callFn X (n + 1) .compareFormChunkTypes [.ptr .void ⟨.stk k, 0⟩, .ptr .void p]
      ⟨heap, tick, stk, inp, out, room, text, log⟩ =
    .val (.int .int (cmpVal (cmpId id f.formType)),
      ⟨heap, tick, stk, inp, out, room, text, log⟩) := by
  obtain ⟨k', j, b, node, rfl, hb, hs, hc, -, -⟩ := hp
  rw [callFn_code rfl]
  have hm : ∀ s, memberOf X (.ptr (.struct .IFF_FormChunkTypes) ⟨.static k', j * 2⟩) .formType s =
    .val (.mem (.int .uint) ⟨.static k', j * 2 + 0⟩, s) := fun s =>
    memberOf_static hb rfl (by decide) hs rfl
  have hl : b.cell (j * 2 + 0) = .int .uint f.formType.toNat := hc
  rcases cmp_cases id f.formType with ⟨h, hr⟩ | ⟨h, hr⟩ | ⟨h, hr⟩ <;> rw [hr]
  · have h1 : (id.toNat : Int) < f.formType.toNat := by omega
    crun [compareFormChunkTypes.code, blkOf_stk hk, hsz, hm, blkOf_static hb, hl, h1, inInt_neg_one, List.take_length]; rfl
  · have h1 : ¬ (id.toNat : Int) < f.formType.toNat := by omega
    have h2 : (id.toNat : Int) > f.formType.toNat := by omega
    crun [compareFormChunkTypes.code, blkOf_stk hk, hsz, hm, blkOf_static hb, hl, h1, h2, List.take_length]; rfl
  · have h1 : ¬ (id.toNat : Int) < f.formType.toNat := by omega
    have h2 : ¬ (id.toNat : Int) > f.formType.toNat := by omega
    crun [compareFormChunkTypes.code, blkOf_stk hk, hsz, hm, blkOf_static hb, hl, h1, h2, List.take_length]; rfl

/-! ### bsearch -/

/-- What a search returns. -/
def Found {α : Type} (arr : List α) (base : Ptr) (stride : Nat) (p : Ptr) : Option α → Prop
  | none => p = Ptr.null
  | some t => ∃ j, arr[j]? = some t ∧ p = ⟨base.obj, base.off + j * stride⟩

theorem bsearchC_run {α : Type} {key : α → ID} {arr : List α} {id : ID} {base : Ptr} {stride : Nat}
    {cmp : Ptr → M CS V} {g : CS}
    (hc : ∀ j t, arr[j]? = some t → cmp ⟨base.obj, base.off + j * stride⟩ g =
      .val (.int .int (cmpVal (cmpId id (key t))), g)) :
    ∀ m l u, u ≤ arr.length → ∃ p, bsearchC cmp base stride m l u g = .val (.ptr .void p, g) ∧
      Found arr base stride p (bsearchLoop key arr id m l u) := by
  intro m
  induction m with
  | zero => intro l u _; exact ⟨_, rfl, rfl⟩
  | succ m ih =>
    intro l u hu
    unfold bsearchC bsearchLoop
    by_cases hlu : l < u
    · have hi : (l + u) / 2 < arr.length := by omega
      simp only [if_pos hlu, M.bind_apply, List.getElem?_eq_getElem hi,
        hc _ _ (List.getElem?_eq_getElem hi)]
      cases hr : cmpId id (key arr[(l + u) / 2]) with
      | lt =>
        have := ih l ((l + u) / 2) (by omega)
        simpa [cmpVal] using this
      | gt =>
        have := ih ((l + u) / 2 + 1) u hu
        simpa [cmpVal] using this
      | eq => exact ⟨_, rfl, _, List.getElem?_eq_getElem hi, rfl⟩
    · simp only [if_neg hlu]
      exact ⟨_, rfl, rfl⟩

theorem prim_bsearch {call} {g : CS} {st : Struct} {k base : Ptr} {u v : ITy} {m size : Int}
    {cmp : Fn} (hs : size = st.size X.e) :
    prim X call .bsearch [.ptr (.struct st) k, .ptr (.struct st) base, .int u m, .int v size,
      .fn cmp] g =
    bsearchC (fun p => call cmp [.ptr .void k, .ptr .void p]) base st.slots (m.toNat + 1) 0 m.toNat
      g := by
  subst hs
  show (if _ ∧ _ then _ else _ : M CS V) g = _
  rw [if_pos ⟨rfl, rfl⟩]

theorem static_beq_null {k i : Nat} : ((⟨.static k, i⟩ : Ptr) == Ptr.null) = false := rfl
theorem static_bne_null {k i : Nat} : ((⟨.static k, i⟩ : Ptr) != Ptr.null) = true := rfl
theorem null_beq_null : (Ptr.null == Ptr.null) = true := rfl

theorem TypeAt.beq_null {p : Ptr} {t : ChunkType} (h : TypeAt X p t) : (p == Ptr.null) = false := by
  obtain ⟨k, j, b, fns, rfl, -⟩ := h; rfl

/-- chunkregistry.c:66-83 -/
theorem getChunkType_run {id : ID} (chain : Chain) {p : Ptr} (hp : ChainAt X p chain) (n : Nat)
    (g : CS) (hn : chain.length + 3 ≤ n) :
    ∃ q, callFn X n .getChunkType
        [.int .uint id.toNat, .ptr (.struct .IFF_ChunkTypesNode) p] g =
        .val (.ptr (.struct .IFF_ChunkType) q, g) ∧
      (match getChunkType id chain with
       | none => q = Ptr.null
       | some t => TypeAt X q t) := by
  induction chain generalizing p n g with
  | nil =>
    cases hp
    refine ⟨Ptr.null, ?_, rfl⟩
    obtain ⟨heap, tick, stk, inp, out, room, text, log⟩ := g
    obtain ⟨n, rfl⟩ : ∃ m, n = m + 3 := ⟨n - 3, by simp at hn; omega⟩
    rw [callFn_code rfl]
    crun [getChunkType.code, null_beq_null, List.take_length]
  | cons types parents ih =>
    obtain ⟨k, b, base, parent, rfl, hb, hs, hc0, hlen, hc1, htypes, hc2, hpar⟩ := hp
    obtain ⟨heap, tick, stk, inp, out, room, text, log⟩ := g
    obtain ⟨n, rfl⟩ : ∃ m, n = m + 3 := ⟨n - 3, by simp at hn; omega⟩
    obtain ⟨q, hq, hq'⟩ := ih hpar (n + 2)
      ⟨heap, tick, stk ++ [⟨Struct.size X.e .IFF_ChunkType, cells [.int .uint id.toNat]⟩], inp,
            out, room, text, log⟩ (by simp at hn; omega)
    obtain ⟨p, hp, hp'⟩ : ∃ p,
        bsearchC (fun p => callFn X (n + 1) .compareChunkTypes
          [.ptr .void ⟨.stk stk.length, 0⟩, .ptr .void p]) base 8 (types.length + 1) 0 types.length
          ⟨heap, tick, stk ++ [⟨Struct.size X.e .IFF_ChunkType, cells [.int .uint id.toNat]⟩], inp,
            out, room, text, log⟩ =
        .val (.ptr .void p, ⟨heap, tick, stk ++ [⟨Struct.size X.e .IFF_ChunkType,
          cells [.int .uint id.toNat]⟩], inp, out, room, text, log⟩) ∧
        Found types base 8 p (bsearch ChunkType.id types id) :=
      bsearchC_run (key := ChunkType.id) (fun j t hj => compareTypes_run (Nat.le_refl _) stk_get0
        (htypes j t hj)) _ _ _ (Nat.le_refl _)
    rw [callFn_code rfl]
    unfold getChunkType
    cases hr : bsearch ChunkType.id types id with
    | none =>
      rw [hr] at hp'
      cases hp'
      refine ⟨q, ?_, hq'⟩
      crun [getChunkType.code, static_beq_null, null_beq_null, List.take_length, blkOf_static hb, hs,
        hc0, hc1, hc2, prim_bsearch, Ty.size, blkOf_stk stk_get0, slots_IFF_ChunkType, Int.toNat_natCast, hp, hq]
    | some t =>
      rw [hr] at hp'
      obtain ⟨j, hj, rfl⟩ := hp'
      have ht := htypes j t hj
      refine ⟨_, ?_, ht⟩
      crun [getChunkType.code, static_beq_null, ht.beq_null, List.take_length, blkOf_static hb, hs,
        hc0, hc1, hc2, prim_bsearch, Ty.size, blkOf_stk stk_get0, slots_IFF_ChunkType, Int.toNat_natCast, hp]

theorem FormAt.beq_null {p : Ptr} {f : FormChunkTypes} (h : FormAt X p f) :
    (p == Ptr.null) = false := by
  obtain ⟨k, j, b, fns, rfl, -⟩ := h; rfl

/-- chunkregistry.c:40-51 -/
theorem getFormChunkTypes_run {ft : ID} {r : Registry} {p : Ptr} (hp : RegAt X p r) (n : Nat)
    (g : CS) :
    ∃ q, callFn X (n + 3) .getFormChunkTypes
        [.int .uint ft.toNat, .ptr (.struct .IFF_ChunkRegistry) p] g =
        .val (.ptr (.struct .IFF_FormChunkTypes) q, g) ∧
      (match getFormChunkTypes r ft with
       | none => q = Ptr.null
       | some f => FormAt X q f) := by
  obtain ⟨k, b, base, node, dflt, id, rfl, hb, hs, hc0, hlen, hc1, htypes, hc2, hnode, hc3, hd⟩ := hp
  obtain ⟨heap, tick, stk, inp, out, room, text, log⟩ := g
  obtain ⟨p, hp, hp'⟩ : ∃ p,
      bsearchC (fun p => callFn X (n + 1) .compareFormChunkTypes
        [.ptr .void ⟨.stk stk.length, 0⟩, .ptr .void p]) base 2 (r.formTypes.length + 1) 0
        r.formTypes.length
        ⟨heap, tick, stk ++ [⟨Struct.size X.e .IFF_FormChunkTypes, cells [.int .uint ft.toNat]⟩], inp,
          out, room, text, log⟩ =
      .val (.ptr .void p, ⟨heap, tick, stk ++ [⟨Struct.size X.e .IFF_FormChunkTypes,
        cells [.int .uint ft.toNat]⟩], inp, out, room, text, log⟩) ∧
      Found r.formTypes base 2 p (bsearch FormChunkTypes.formType r.formTypes ft) :=
    bsearchC_run (key := FormChunkTypes.formType) (fun j t hj => compareForms_run (Nat.le_refl _)
      stk_get0 (htypes j t hj)) _ _ _ (Nat.le_refl _)
  rw [callFn_code rfl]
  unfold getFormChunkTypes
  refine ⟨p, ?_, ?_⟩
  · crun [getFormChunkTypes.code, static_beq_null, List.take_length, blkOf_static hb, hs, hc0, hc1,
      prim_bsearch, Ty.size, blkOf_stk stk_get0, slots_IFF_FormChunkTypes, Int.toNat_natCast, hp]
  · cases hr : bsearch FormChunkTypes.formType r.formTypes ft with
    | none => rw [hr] at hp'; exact hp'
    | some f =>
      rw [hr] at hp'
      obtain ⟨j, hj, rfl⟩ := hp'
      exact htypes j f hj

/-- The number of nodes of the longest chain of a registry, for bounding the depth of calls. -/
def Registry.depth (r : Registry) : Nat :=
  r.global.length + (r.formTypes.map fun f => f.chain.length).foldr (· + ·) 0

theorem le_depth_form {r : Registry} {f : FormChunkTypes} (h : f ∈ r.formTypes) :
    f.chain.length ≤ Registry.depth r := by
  unfold Registry.depth
  have : ∀ l : List FormChunkTypes, f ∈ l →
      f.chain.length ≤ (l.map fun f => f.chain.length).foldr (· + ·) 0 := by
    intro l hl
    induction l with
    | nil => cases hl
    | cons x xs ih =>
      simp only [List.map_cons, List.foldr_cons]
      rcases List.mem_cons.1 hl with rfl | hl
      · omega
      · have := ih hl; omega
  have := this _ h
  omega

theorem bsearch_mem {α : Type} {key : α → ID} {arr : List α} {k : ID} {t : α}
    (h : bsearch key arr k = some t) : t ∈ arr := by
  have : ∀ m l u, bsearchLoop key arr k m l u = some t → t ∈ arr := by
    intro m
    induction m with
    | zero => intro l u h; cases h
    | succ m ih =>
      intro l u h
      unfold bsearchLoop at h
      split at h
      · dsimp only at h
        split at h
        · cases h
        · rename_i x hx
          split at h
          · exact ih _ _ h
          · exact ih _ _ h
          · cases h; exact List.mem_of_getElem? hx
      · cases h
  exact this _ _ _ h

/-- chunkregistry.c:85-105 -/
theorem findChunkType_run {ft id : ID} {r : Registry} {p : Ptr} (hp : RegAt X p r) (n : Nat)
    (g : CS) (hn : Registry.depth r + 4 ≤ n) :
    ∃ q id', callFn X n .IFF_findChunkType
        [.ptr (.struct .IFF_ChunkRegistry) p, .int .uint ft.toNat, .int .uint id.toNat] g =
        .val (.ptr (.struct .IFF_ChunkType) q, g) ∧
      TypeAt X q ⟨id', findChunkType r ft id⟩ := by
  have hp0 := hp
  obtain ⟨k, b, base, node, dflt, id', rfl, hb, hs, hc0, hlen, hc1, htypes, hc2, hnode, hc3, hd⟩ := hp
  obtain ⟨heap, tick, stk, inp, out, room, text, log⟩ := g
  obtain ⟨n, rfl⟩ : ∃ m, n = m + 4 := ⟨n - 4, by omega⟩
  obtain ⟨q, hq, hq'⟩ := getFormChunkTypes_run (ft := ft) hp0 n
    ⟨heap, tick, stk, inp, out, room, text, log⟩
  rw [callFn_code rfl]
  unfold findChunkType
  cases hr : getFormChunkTypes r ft with
  | none =>
    rw [hr] at hq'
    cases hq'
    obtain ⟨q, hq2, hq3⟩ := getChunkType_run (id := id) _ hnode (n + 3)
      ⟨heap, tick, stk, inp, out, room, text, log⟩
      (by unfold Registry.depth at hn; omega)
    dsimp only
    cases hr2 : getChunkType id r.global with
    | none =>
      rw [hr2] at hq3
      cases hq3
      refine ⟨dflt, id', ?_, hd⟩
      crun [IFF_findChunkType.code, static_beq_null, null_beq_null, hq, hq2, blkOf_static hb, hs, hc2, hc3,
        List.take_length]
    | some t =>
      rw [hr2] at hq3
      refine ⟨q, t.id, ?_, hq3⟩
      crun [IFF_findChunkType.code, static_beq_null, null_beq_null, hq, hq2, blkOf_static hb, hs, hc2, hc3,
        List.take_length, hq3.beq_null]
  | some f =>
    rw [hr] at hq'
    have hnull := hq'.beq_null
    obtain ⟨k', j, b', nd, rfl, hb', hs', -, hc', hch⟩ := hq'
    have hm : ∀ s, memberOf X (.ptr (.struct .IFF_FormChunkTypes) ⟨.static k', j * 2⟩)
      .chunkTypesNode s = .val (.mem (.ptr (.struct .IFF_ChunkTypesNode)) ⟨.static k', j * 2 + 1⟩, s) :=
      fun s => memberOf_static hb' rfl (by decide) hs' rfl
    obtain ⟨q, hq2, hq3⟩ := getChunkType_run (id := id) _ hch (n + 3)
      ⟨heap, tick, stk, inp, out, room, text, log⟩
      (by have := le_depth_form (bsearch_mem hr); omega)
    dsimp only
    cases hr2 : getChunkType id f.chain with
    | none =>
      rw [hr2] at hq3
      cases hq3
      refine ⟨dflt, id', ?_, hd⟩
      crun [IFF_findChunkType.code, static_beq_null, null_beq_null, hq, hq2, blkOf_static hb, hs, hc2, hc3,
        List.take_length, hm, blkOf_static hb', hc']
    | some t =>
      rw [hr2] at hq3
      refine ⟨q, t.id, ?_, hq3⟩
      crun [IFF_findChunkType.code, static_beq_null, null_beq_null, hq, hq2, blkOf_static hb, hs, hc2, hc3,
        List.take_length, hq3.beq_null, hm, blkOf_static hb', hc']

/-! ### Constants -/

section
variable {call : Fn → List V → M CS V} {s : Fr}

theorem evalE_makeid (a b c d : BitVec 32) :
    evalE X call (IFF_MAKEID (.num .int a.toInt) (.num .int b.toInt) (.num .int c.toInt)
      (.num .int d.toInt)) s =
    .val (.int .int (((a <<< 24 ||| b <<< 16) ||| c <<< 8) ||| d).toInt, s) := by
  crun [IFF_MAKEID, shl_int, bor_int]

theorem evalE_CAT : evalE X call IFF_ID_CAT s = .val (.int .int idCAT.toNat, s) :=
  (evalE_makeid 67 65 84 32).trans (by
    rw [show ((((67 : BitVec 32) <<< 24 ||| (65 : BitVec 32) <<< 16) ||| (84 : BitVec 32) <<< 8) |||
      32).toInt = idCAT.toNat from by decide])
theorem evalE_FORM : evalE X call IFF_ID_FORM s = .val (.int .int idFORM.toNat, s) :=
  (evalE_makeid 70 79 82 77).trans (by
    rw [show ((((70 : BitVec 32) <<< 24 ||| (79 : BitVec 32) <<< 16) ||| (82 : BitVec 32) <<< 8) |||
      77).toInt = idFORM.toNat from by decide])
theorem evalE_JJJJ : evalE X call IFF_ID_JJJJ s = .val (.int .int idJJJJ.toNat, s) :=
  (evalE_makeid 74 74 74 74).trans (by
    rw [show ((((74 : BitVec 32) <<< 24 ||| (74 : BitVec 32) <<< 16) ||| (74 : BitVec 32) <<< 8) |||
      74).toInt = idJJJJ.toNat from by decide])
theorem evalE_PROP : evalE X call IFF_ID_PROP s = .val (.int .int idPROP.toNat, s) :=
  (evalE_makeid 80 82 79 80).trans (by
    rw [show ((((80 : BitVec 32) <<< 24 ||| (82 : BitVec 32) <<< 16) ||| (79 : BitVec 32) <<< 8) |||
      80).toInt = idPROP.toNat from by decide])
theorem evalE_LIST : evalE X call IFF_ID_LIST s = .val (.int .int idLIST.toNat, s) :=
  (evalE_makeid 76 73 83 84).trans (by
    rw [show ((((76 : BitVec 32) <<< 24 ||| (73 : BitVec 32) <<< 16) ||| (83 : BitVec 32) <<< 8) |||
      84).toInt = idLIST.toNat from by decide])
theorem evalE_TEXT : evalE X call IFF_ID_TEXT s = .val (.int .int idTEXT.toNat, s) :=
  (evalE_makeid 84 69 88 84).trans (by
    rw [show ((((84 : BitVec 32) <<< 24 ||| (69 : BitVec 32) <<< 16) ||| (88 : BitVec 32) <<< 8) |||
      84).toInt = idTEXT.toNat from by decide])
theorem evalE_EMPTY : evalE X call ID_EMPTY s = .val (.int .int idEMPTY.toNat, s) :=
  (evalE_makeid 32 32 32 32).trans (by
    rw [show ((((32 : BitVec 32) <<< 24 ||| (32 : BitVec 32) <<< 16) ||| (32 : BitVec 32) <<< 8) |||
      32).toInt = idEMPTY.toNat from by decide])

end

/-! ### The default registry -/

theorem Init_fn {t : Ty} {f : Fn} : Init.cell X t (.fn f) = .fn f := rfl

theorem Init_id {t : Ty} {e : Expr} {id : ID} (ht : t = .int .uint)
    (h : ∀ call s, evalE X.bare call e s = .val (.int .int id.toNat, s)) :
    Init.cell X t (.expr e) = .int .uint id.toNat := by
  subst ht
  simp only [Init.cell, constVal, h, conv_int, convI_uint, toNat_emod]

theorem FnsOf.unique {h : Handler} {fs fs' : List Fn} (h1 : FnsOf h fs) (h2 : FnsOf h fs') : fs = fs' := by
  have key : ∀ {h h' : Handler} {fs fs' : List Fn}, FnsOf h fs → FnsOf h' fs' → h = h' → fs = fs' := by
    intro h h' fs fs' h1 h2
    cases h1 <;> cases h2 <;> intro e <;> first | rfl | (exfalso; revert e; simp [helloType, byeType])
  exact key h1 h2 rfl

theorem typeAt_linked (hl : X.Linked) (j : Nat) (t : ChunkType) (h : globalChunkTypes[j]? = some t) :
    TypeAt X ⟨.static 0, 0 + j * 8⟩ t := by
  have hb := hl .IFF_globalChunkTypes rfl
  have key : ∀ j fns, j < 4 → FnsOf t.handler fns →
      (initBlk X (Glob.ty .IFF_globalChunkTypes) IFF_globalChunkTypes.init).cell (j * 8) =
        .int .uint t.id.toNat →
      (∀ i f, fns[i]? = some f →
        (initBlk X (Glob.ty .IFF_globalChunkTypes) IFF_globalChunkTypes.init).cell (j * 8 + (i + 1)) =
          .fn f) →
      TypeAt X ⟨.static 0, 0 + j * 8⟩ t := by
    intro j fns hj hf hc hcs
    refine ⟨0, j, _, fns, by rw [Nat.zero_add], hb, ?_, hc, hf, hcs⟩
    exact Nat.mul_le_mul_right _ hj
  match j, h with
  | 0, h =>
    cases h
    refine key 0 _ (by decide) .cat ?_ ?_
    · exact Init_id rfl (fun _ _ => evalE_CAT)
    · intro i f hi
      match i, hi with
      | 0, hi | 1, hi | 2, hi | 3, hi | 4, hi | 5, hi | 6, hi => cases hi; rfl
  | 1, h =>
    cases h
    refine key 1 _ (by decide) .form ?_ ?_
    · exact Init_id rfl (fun _ _ => evalE_FORM)
    · intro i f hi
      match i, hi with
      | 0, hi | 1, hi | 2, hi | 3, hi | 4, hi | 5, hi | 6, hi => cases hi; rfl
  | 2, h =>
    cases h
    refine key 2 _ (by decide) .list ?_ ?_
    · exact Init_id rfl (fun _ _ => evalE_LIST)
    · intro i f hi
      match i, hi with
      | 0, hi | 1, hi | 2, hi | 3, hi | 4, hi | 5, hi | 6, hi => cases hi; rfl
  | 3, h =>
    cases h
    refine key 3 _ (by decide) .prop ?_ ?_
    · exact Init_id rfl (fun _ _ => evalE_PROP)
    · intro i f hi
      match i, hi with
      | 0, hi | 1, hi | 2, hi | 3, hi | 4, hi | 5, hi | 6, hi => cases hi; rfl

/-- defaultregistry.c:31-46 -/
theorem regAt_default (hl : X.Linked) : RegAt X ⟨.static 3, 0⟩ defaultRegistry := by
  refine ⟨3, _, Ptr.null, ⟨.static 1, 0⟩, ⟨.static 2, 0⟩, 0, rfl, hl .IFF_defaultChunkRegistry rfl, Nat.le_refl _,
    rfl, by decide, rfl, ?_, rfl, ?_, rfl, ?_⟩
  · intro j f hf; cases hf
  · refine ⟨1, _, ⟨.static 0, 0⟩, Ptr.null, rfl, hl .IFF_globalChunkTypesNode rfl, Nat.le_refl _, rfl,
      by decide, rfl, typeAt_linked hl, rfl, rfl⟩
  · refine ⟨2, 0, _, _, rfl, hl .IFF_defaultChunkType rfl, ?_, rfl, .raw, ?_⟩
    · rw [Nat.zero_add, Nat.one_mul]; exact Nat.le_refl _
    · intro i f hi
      match i, hi with
      | 0, hi | 1, hi | 2, hi | 3, hi | 4, hi | 5, hi | 6, hi => cases hi; rfl

end

end Iff.Src
