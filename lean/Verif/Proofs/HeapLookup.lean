import Verif.Heap.Lookup
import Verif.Spec.Lookup
import Verif.Proofs.HeapUpdate
import Verif.Proofs.HeapArray
/-
  Looking up chunks in forms.
-/
namespace Iff.Heap

open Spec

theorem findMember_run {id : ID} {p : Addr} {b : Block} {g : Grp} {s : HS} {q : Addr}
    (hp : s.mem p = some b) (hg : b.grp? = some g) :
    ∀ (post pre : List Node), ArrayIn s.mem g.arr ((pre ++ post).map Node.addr) →
      (∀ c ∈ post, In s.mem q c) →
      findMember id p post.length pre.length s = .val (Node.ptr (Node.first id post), s) := by
  intro post
  induction post with
  | nil => intro pre _ _; rfl
  | cons c cs ih =>
    intro pre harr hin
    obtain ⟨h1, h2⟩ := array_get harr
    obtain ⟨bc, h3, h4⟩ := (hin c (by simp)).hdr
    simp only [List.length_cons, findMember, M.bind_apply, getGrp_eq hp hg, getPtr_eq h1 h2,
      getHdr_eq h3 h4]
    by_cases hid : c.chunk.id = id
    · rw [if_pos hid]
      simp [Node.first, hid, Node.ptr, M.pure_apply]
    · rw [if_neg hid]
      have := ih (pre ++ [c]) (by rw [List.append_assoc]; exact harr) fun d hd => hin d (by simp [hd])
      simp only [List.length_append, List.length_singleton] at this
      rw [this]
      simp [Node.first, hid]

theorem getDataChunk_run {id : ID} {t : Node} {s : HS} {par : Addr} (ht : Node.IsGroup t)
    (hin : In s.mem par t) :
    getDataChunk t.addr id s = .val (Node.ptr (Node.first id t.members), s) := by
  cases t with
  | raw => exact ht.elim
  | ext => exact ht.elim
  | grp a arr i size ty subs =>
    simp only [In] at hin
    simp only [getDataChunk, M.bind_apply, Node.addr, getGrp_eq hin.1 rfl]
    exact findMember_run hin.1 rfl subs [] hin.2.1 (inAll_iff.mp hin.2.2)
  | lst a arr parr i size ty subs props =>
    simp only [In] at hin
    simp only [getDataChunk, M.bind_apply, Node.addr, getGrp_eq hin.1 rfl]
    exact findMember_run hin.1 rfl subs [] hin.2.1 (inAll_iff.mp hin.2.2.2.1)

theorem _root_.Iff.Spec.In.ty {m : Mem} {t : Node} {par : Addr} (hin : In m par t) {ty : ID}
    (h : t.ty? = some ty) : ∃ b g, m t.addr = some b ∧ b.grp? = some g ∧ g.ty = ty := by
  cases t <;> simp only [Node.ty?] at h <;> cases h <;> simp only [In] at hin
  · exact ⟨_, _, hin.1, rfl, rfl⟩
  · exact ⟨_, _, hin.1, rfl, rfl⟩

theorem findProp_run {ft : ID} {p : Addr} {b : Block} {l : Lst} {s : HS} {q : Addr}
    (hp : s.mem p = some b) (hg : b.lst? = some l) :
    ∀ (post pre : List Node), ArrayIn s.mem l.parr ((pre ++ post).map Node.addr) →
      (∀ c ∈ post, In s.mem q c) → (∀ c ∈ post, Node.IsGroup c) →
      findProp ft p post.length pre.length s =
        .val (Node.ptr (post.find? fun c => c.ty? = some ft), s) := by
  intro post
  induction post with
  | nil => intro pre _ _ _; rfl
  | cons c cs ih =>
    intro pre harr hin hgr
    obtain ⟨h1, h2⟩ := array_get harr
    obtain ⟨ty, hty⟩ : ∃ ty, c.ty? = some ty := by
      have := hgr c (by simp)
      cases c
      · exact this.elim
      · exact ⟨_, rfl⟩
      · exact ⟨_, rfl⟩
      · exact this.elim
    obtain ⟨bc, g, h3, h4, h5⟩ := (hin c (by simp)).ty hty
    simp only [List.length_cons, findProp, M.bind_apply, getLst_eq hp hg, getPtr_eq h1 h2,
      getGrp_eq h3 h4, h5]
    by_cases hid : ty = ft
    · rw [if_pos hid]
      simp [hty, hid, Node.ptr, M.pure_apply]
    · rw [if_neg hid]
      have := ih (pre ++ [c]) (by rw [List.append_assoc]; exact harr)
        (fun d hd => hin d (by simp [hd])) fun d hd => hgr d (by simp [hd])
      simp only [List.length_append, List.length_singleton] at this
      rw [this]
      simp [hty, hid]

/-- The members of `IFF_Chunk` of a chunk and of its parent. -/
theorem parent_run {s : HS} {f : Frame} {fs : List Frame} {t : Node}
    (hin : In s.mem 0 (plug (f :: fs) t)) :
    getHdr t.addr s = .val (⟨f.addr, t.chunk.id, t.chunk.size⟩, s) ∧
    getHdr f.addr s = .val (⟨pathParent 0 fs, (f.fill t).chunk.id, (f.fill t).chunk.size⟩, s) := by
  obtain ⟨b, h1, h2⟩ := (in_plug.mp hin).2.hdr
  obtain ⟨b', h3, h4⟩ := (in_plug (fs := fs) (t := f.fill t) |>.mp hin).2.hdr
  rw [Frame.fill_addr] at h3
  exact ⟨getHdr_eq h1 h2, getHdr_eq h3 h4⟩

theorem frame_ne {s : HS} {f : Frame} {fs : List Frame} {t : Node} (h0 : s.mem 0 = none)
    (hin : In s.mem 0 (plug (f :: fs) t)) : f.addr ≠ 0 :=
  hin.ne_zero h0 ((plug_blocks (f :: fs) t).mem_iff.mpr (by simp [pathBlocks, f.addr_mem]))

theorem searchList_fuel {s : HS} (h0 : s.mem 0 = none) : ∀ (fs : List Frame) (t : Node) (n : Nat),
    In s.mem 0 (plug fs t) → fs.length < n →
    searchList (n + 1) t.addr s = searchList n t.addr s := by
  intro fs
  induction fs with
  | nil =>
    intro t n hin hn
    obtain ⟨n, rfl⟩ : ∃ k, n = k + 1 := ⟨n - 1, by simp at hn; omega⟩
    obtain ⟨b, h1, h2⟩ := hin.hdr
    simp only [plug] at h1 h2
    simp only [searchList, M.bind_apply, getHdr_eq h1 h2, if_true]
  | cons f fs ih =>
    intro t n hin hn
    obtain ⟨n, rfl⟩ : ∃ k, n = k + 1 := ⟨n - 1, by simp at hn; omega⟩
    obtain ⟨h1, h2⟩ := parent_run hin
    have hne := frame_ne h0 hin
    have := ih (f.fill t) n hin (by simpa using hn)
    rw [Frame.fill_addr] at this
    have step : ∀ k, searchList (k + 1) t.addr s =
        if (f.fill t).chunk.id = idLIST then .val (f.addr, s) else searchList k f.addr s := by
      intro k
      rw [searchList]
      simp only [M.bind_apply, h1]
      rw [if_neg hne]
      simp only [M.bind_apply, h2]
      split <;> rfl
    rw [step, step, this]

theorem first_isSome {id : ID} {ts : List Node} {m : Mem} {q : Addr} (h0 : m 0 = none)
    (hin : ∀ c ∈ ts, In m q c) :
    Node.ptr (Node.first id ts) = 0 ↔ Node.first id ts = none := by
  cases h : Node.first id ts with
  | none => simp [Node.ptr]
  | some c =>
    have hm : c ∈ ts := List.mem_of_find?_eq_some h
    have := (hin c hm).ne_zero h0 c.addr_mem
    simp [Node.ptr, this]

theorem _root_.Iff.Spec.Typed.prop_group {t : Node} (h : Typed t.chunk) (hp : t.chunk.id = idPROP) :
    Node.IsGroup t := by
  cases t <;> simp only [Node.chunk] at h hp <;> cases h <;> simp_all [Chunk.id, Node.IsGroup]

/-- What `searchProperty` returns. -/
theorem searchProperty_run {ft id : ID} {s : HS} (h0 : s.mem 0 = none) :
    ∀ (fs : List Frame) (t : Node) (n : Nat), In s.mem 0 (plug fs t) → fs.length < n →
    Typed (plug fs t).chunk →
    searchProperty ft id n t.addr s =
      .val (Node.ptr ((enclosing fs t).findSome? (shared ft id)), s) := by
  intro fs
  induction fs with
  | nil =>
    intro t n hin hn ht
    obtain ⟨n, rfl⟩ : ∃ k, n = k + 1 := ⟨n - 1, by simp at hn; omega⟩
    obtain ⟨b, h1, h2⟩ := hin.hdr
    simp only [plug] at h1 h2
    simp only [searchProperty, searchList, M.bind_apply, getHdr_eq h1 h2, if_true, M.pure_apply,
      enclosing, List.findSome?_nil, Node.ptr]
  | cons f fs ih =>
    intro t n hin hn ht
    obtain ⟨n, rfl⟩ : ∃ k, n = k + 1 := ⟨n - 1, by simp at hn; omega⟩
    obtain ⟨h1, h2⟩ := parent_run hin
    have hne := frame_ne h0 hin
    have hin' : In s.mem (pathParent 0 fs) (f.fill t) := (in_plug (fs := fs) |>.mp hin).2
    have htf : Typed (f.fill t).chunk := (typed_plug (fs := fs) ht).1
    have hup := ih (f.fill t) n hin (by simpa using hn) ht
    rw [Frame.fill_addr] at hup
    simp only [enclosing, List.findSome?_cons]
    by_cases hid : (f.fill t).chunk.id = idLIST
    · -- a list
      have hsl : searchList (n + 1) t.addr s = .val (f.addr, s) := by
        rw [searchList]
        simp only [M.bind_apply, h1]
        rw [if_neg hne]
        simp only [M.bind_apply, h2]
        rw [if_pos hid]; rfl
      simp only [searchProperty, M.bind_apply, hsl]
      rw [if_neg hne]
      -- the list as a node
      have hl : ∃ a arr parr i size ty subs props, f.fill t = .lst a arr parr i size ty subs props := by
        cases f with
        | grp a arr i size ty pre post =>
          simp only [Frame.fill, Node.chunk, Chunk.id] at hid htf
          subst hid
          cases htf with
          | grp h _ => exact absurd h (by decide)
        | sub => exact ⟨_, _, _, _, _, _, _, _, rfl⟩
        | prop => exact ⟨_, _, _, _, _, _, _, _, rfl⟩
      obtain ⟨a, arr, parr, i, size, ty, subs, props, hl⟩ := hl
      have hfa : f.addr = a := by rw [← Frame.fill_addr f t, hl]; rfl
      rw [hl] at hin' htf ⊢
      simp only [In] at hin'
      obtain ⟨k1, k2, k3, k4, k5⟩ := hin'
      have hgr : ∀ c ∈ props, Node.IsGroup c := by
        simp only [Node.chunk] at htf
        cases htf with
        | lst e1 e2 e3 e4 =>
          intro c hc
          have hcm : c.chunk ∈ Node.chunks props := by
            rw [Node.chunks_eq]; exact List.mem_map.mpr ⟨c, hc, rfl⟩
          exact (e3 _ hcm).prop_group (e4 _ hcm)
      have hprop : getProp f.addr ft s =
          .val (Node.ptr (props.find? fun c => c.ty? = some ft), s) := by
        simp only [getProp, M.bind_apply, hfa, getLst_eq k1 rfl]
        exact findProp_run k1 rfl props [] k3 (inAll_iff.mp k5) hgr
      simp only [M.bind_apply, hprop, shared, Node.props]
      cases hfind : props.find? fun c => c.ty? = some ft with
      | none =>
        rw [if_pos (show Node.ptr none = 0 from rfl), Option.bind_none, ← hl]
        exact hup
      | some q =>
        have hqm : q ∈ props := List.mem_of_find?_eq_some hfind
        have hqin : In s.mem a q := inAll_iff.mp k5 q hqm
        have hqne : q.addr ≠ 0 := hqin.ne_zero h0 q.addr_mem
        rw [if_neg (show Node.ptr (some q) ≠ 0 from hqne), Option.bind_some]
        have hdata : getDataChunk (Node.ptr (some q)) id s = _ := getDataChunk_run (hgr q hqm) hqin
        simp only [M.bind_apply, hdata]
        have hqmem : ∀ c ∈ q.members, In s.mem q.addr c := by
          cases q with
          | raw => simp [Node.members]
          | ext => simp [Node.members]
          | grp => simp only [In] at hqin; exact inAll_iff.mp hqin.2.2
          | lst => simp only [In] at hqin; exact inAll_iff.mp hqin.2.2.2.1
        cases hf : Node.first id q.members with
        | none =>
          rw [if_pos (show Node.ptr none = 0 from rfl), ← hl]
          exact hup
        | some c =>
          have hcm : c ∈ q.members := List.mem_of_find?_eq_some hf
          have hcne := (hqmem c hcm).ne_zero h0 c.addr_mem
          rw [if_neg (show Node.ptr (some c) ≠ 0 from hcne)]; rfl
    · -- not a list
      have hsh : shared ft id (f.fill t) = none := by
        cases f with
        | grp => simp [shared, Frame.fill, Node.props]
        | sub a arr parr i size ty pre post props =>
          simp only [Frame.fill, Node.chunk] at htf hid
          cases htf with
          | lst h _ _ _ => exact absurd h hid
        | prop a arr parr i size ty subs pre post =>
          simp only [Frame.fill, Node.chunk] at htf hid
          cases htf with
          | lst h _ _ _ => exact absurd h hid
      rw [hsh]
      have hsl : searchList (n + 1) t.addr s = searchList (n + 1) f.addr s := by
        have := searchList_fuel h0 fs (f.fill t) n hin (by simpa using hn)
        rw [Frame.fill_addr] at this
        rw [this]
        rw [searchList]
        simp only [M.bind_apply, h1]
        rw [if_neg hne]
        simp only [M.bind_apply, h2]
        rw [if_neg hid]
      have hup' := ih (f.fill t) (n + 1) hin (by simp at hn; omega) ht
      rw [Frame.fill_addr] at hup'
      rw [← hup']
      simp only [searchProperty, M.bind_apply, hsl]

/-- What `IFF_getChunkFromForm` returns. -/
theorem getChunk_run {id ty : ID} {s : HS} (h0 : s.mem 0 = none) {fs : List Frame} {t : Node}
    {n : Nat} (hin : In s.mem 0 (plug fs t)) (hn : fs.length < n) (ht : Typed (plug fs t).chunk)
    (hty : t.ty? = some ty) :
    getChunk n t.addr id s = .val (Node.ptr (applies fs t ty id), s) := by
  have hint := (in_plug.mp hin).2
  have hg : Node.IsGroup t := by cases t <;> simp_all [Node.ty?, Node.IsGroup]
  have hmem : ∀ c ∈ t.members, In s.mem t.addr c := by
    cases t with
    | raw => simp [Node.members]
    | ext => simp [Node.members]
    | grp => simp only [In] at hint; exact inAll_iff.mp hint.2.2
    | lst => simp only [In] at hint; exact inAll_iff.mp hint.2.2.2.1
  obtain ⟨b, g, h1, h2, h3⟩ := hint.ty hty
  simp only [getChunk, M.bind_apply, getDataChunk_run hg hint, applies]
  cases hf : Node.first id t.members with
  | none =>
    rw [if_pos (show Node.ptr none = 0 from rfl)]
    simp only [M.bind_apply, getGrp_eq h1 h2, h3]
    exact searchProperty_run h0 fs t n hin hn ht
  | some c =>
    have hcm : c ∈ t.members := List.mem_of_find?_eq_some hf
    have hcne := (hmem c hcm).ne_zero h0 c.addr_mem
    rw [if_neg (show Node.ptr (some c) ≠ 0 from hcne)]; rfl

/-- The loop of `IFF_getChunksFromForm`. -/
theorem collect_run {A : Alloc} (hA : ArraysOk A) {id : ID} {p q : Addr} {b : Block} {g : Grp}
    {m : Mem} (hp : m p = some b) (hg : b.grp? = some g) (h0 : m 0 = none) (hr : Roomy m) :
    ∀ (post pre found : List Node) (r : Addr) (s : HS),
      ArrayIn m g.arr ((pre ++ post).map Node.addr) → (∀ c ∈ post, In m q c) →
      Beside m s.mem r [] → ArrayIn s.mem r (found.map Node.addr) →
      ∃ r' m' t', collect A id p post.length pre.length r found.length s =
          .val ((r', (found ++ post.filter fun c => c.chunk.id = id).length),
            { s with mem := m', tick := t' }) ∧
        Beside m m' r' [] ∧
        ArrayIn m' r' ((found ++ post.filter fun c => c.chunk.id = id).map Node.addr) := by
  intro post
  induction post with
  | nil =>
    intro pre found r s _ _ hbs harr
    exact ⟨r, s.mem, s.tick, by simp [collect, M.pure_apply], hbs, by simpa using harr⟩
  | cons c cs ih =>
    intro pre found r s hmem hin hbs harr
    obtain ⟨h1, h2⟩ := array_get hmem
    obtain ⟨bc, h3, h4⟩ := (hin c (by simp)).hdr
    have hold : ∀ {x : Addr} {y : Block}, m x = some y → s.mem x = some y :=
      fun h => (hbs.old (by rw [h]; simp)).trans h
    simp only [List.length_cons, collect, M.bind_apply, getGrp_eq (hold hp) hg,
      getPtr_eq (hold h1) h2, getHdr_eq (hold h3) h4]
    have hnext : ArrayIn m g.arr ((pre ++ [c] ++ cs).map Node.addr) := by
      rw [List.append_assoc]; exact hmem
    by_cases hid : c.chunk.id = id
    · rw [if_pos hid]
      have hs0 := hbs.null h0 (by simp)
      have hre := realloc_run (A := A) harr hs0
      rw [List.length_map] at hre
      have hsome := hA s.tick (s.mem.set r none) found.length (hbs.roomy hr).set_none
      cases hpick : A.pick s.tick (s.mem.set r none) (.array (found.length + 1)) with
      | none => rw [hpick] at hsome; cases hsome
      | some a =>
        rw [hpick] at hre
        obtain ⟨hane, hafree⟩ := A.sound hpick
        have hbs' := hbs.grow (b := .ptrs ((found.map Node.addr).map some ++ [none])) h0 hane hafree
        have hold' : ∀ {x : Addr} {y : Block}, m x = some y →
            ((s.mem.set r none).set a (some (.ptrs ((found.map Node.addr).map some ++ [none])))) x
              = some y := fun h => (hbs'.old (by rw [h]; simp)).trans h
        simp only [M.bind_apply, hre]
        rw [getGrp_eq (s := { s with tick := s.tick + 1, mem := _ }) (hold' hp) hg]
        simp only
        rw [getPtr_eq (s := { s with tick := s.tick + 1, mem := _ }) (hold' h1) h2]
        simp only
        rw [setPtr_eq (s := { s with tick := s.tick + 1, mem := _ }) (Mem.set_same _ _ _) (by simp)]
        simp only
        have hlast := set_last (ps := found.map Node.addr) (c := c.addr)
        rw [List.length_map] at hlast
        rw [hlast]
        have hfin := ih (pre ++ [c]) (found ++ [c]) a
          ⟨((s.mem.set r none).set a
            (some (.ptrs ((found.map Node.addr).map some ++ [none])))).set a
              (some (.ptrs ((found.map Node.addr).map some ++ [some c.addr]))), s.tick + 1, s.rs⟩
          hnext (fun d hd => hin d (by simp [hd])) (hbs'.write hane)
          (by
            rw [List.map_append]
            exact arrayIn_grown hane (Mem.set_same _ _ _))
        simp only [List.length_append, List.length_singleton, List.append_assoc,
          List.singleton_append] at hfin
        obtain ⟨r', m', t', k1, k2, k3⟩ := hfin
        refine ⟨r', m', t', ?_, k2, ?_⟩
        · rw [k1]; simp [List.filter_cons, hid]
        · simpa [List.filter_cons, hid] using k3
    · rw [if_neg hid]
      have hfin := ih (pre ++ [c]) found r s hnext (fun d hd => hin d (by simp [hd])) hbs harr
      simp only [List.length_append, List.length_singleton] at hfin
      obtain ⟨r', m', t', k1, k2, k3⟩ := hfin
      refine ⟨r', m', t', ?_, k2, ?_⟩
      · rw [k1]; simp [List.filter_cons, hid]
      · simpa [List.filter_cons, hid] using k3

theorem getChunks_run {A : Alloc} (hA : ArraysOk A) {id : ID} {t : Node} {s : HS} {par : Addr}
    (ht : Node.IsGroup t) (hin : In s.mem par t) (h0 : s.mem 0 = none) (hr : Roomy s.mem) :
    ∃ r m' t', getChunks A t.addr id s =
        .val ((r, (t.members.filter fun c => c.chunk.id = id).length),
          { s with mem := m', tick := t' }) ∧
      Adds s.mem m' (arrBlocks r) ∧
      ArrayIn m' r ((t.members.filter fun c => c.chunk.id = id).map Node.addr) := by
  cases t with
  | raw => exact ht.elim
  | ext => exact ht.elim
  | grp a arr i size ty subs =>
    simp only [In] at hin
    simp only [getChunks, M.bind_apply, Node.addr, getGrp_eq hin.1 rfl]
    obtain ⟨r, m', t', k1, k2, k3⟩ := collect_run hA (id := id) hin.1 rfl h0 hr subs [] [] 0 s
      hin.2.1 (inAll_iff.mp hin.2.2) .start (.inl ⟨rfl, rfl⟩)
    exact ⟨r, m', t', k1, by simpa using k2.adds, k3⟩
  | lst a arr parr i size ty subs props =>
    simp only [In] at hin
    simp only [getChunks, M.bind_apply, Node.addr, getGrp_eq hin.1 rfl]
    obtain ⟨r, m', t', k1, k2, k3⟩ := collect_run hA (id := id) hin.1 rfl h0 hr subs [] [] 0 s
      hin.2.1 (inAll_iff.mp hin.2.2.2.1) .start (.inl ⟨rfl, rfl⟩)
    exact ⟨r, m', t', k1, by simpa using k2.adds, k3⟩

end Iff.Heap
