import Verif.Proofs.HeapBase
/-
  `IFF_freeChunk` releases exactly the blocks of a hierarchy.
-/
namespace Iff.Heap

open Spec

/-- What releasing a chunk does. -/
def Frees (f : M HS Unit) (m m' : Mem) : Prop :=
  ∀ s : HS, s.mem = m → f s = .val ((), { s with mem := m' })

theorem freeMembers_spec {fc : ID → Addr → M HS Unit} {p q : Addr} {g : Grp} {b : Block} :
    ∀ {ns : List Node} {i : Nat} {cells : List (Option Addr)} {m : Mem},
    (∀ n ∈ ns, ∀ m, In m q n → m 0 = none → Frees (fc g.ty n.addr) m (m.without n.blocks)) →
    m p = some b → b.grp? = some g → m g.arr = some (.ptrs cells) →
    cells.drop i = ns.map (fun n => some n.addr) → InAll m q ns → (Node.blocksAll ns).Nodup →
    p ∉ Node.blocksAll ns → g.arr ∉ Node.blocksAll ns → m 0 = none →
    Frees (freeMembers fc p ns.length i) m (m.without (Node.blocksAll ns)) := by
  intro ns
  induction ns with
  | nil =>
    intro i cells m _ _ _ _ _ _ _ _ _ _ s hs
    simp only [List.length_nil, freeMembers, M.pure_apply, Node.blocksAll_nil, Mem.without_nil]
    rw [← hs]
  | cons n ns ih =>
    intro i cells m hfc hp hg harr hcells hin hnd hpn han h0 s hs
    subst hs
    simp only [Node.blocksAll_cons, List.mem_append, not_or, List.nodup_append] at hnd hpn han
    rw [inAll_cons] at hin
    have hci : cells[i]? = some (some n.addr) := by
      have := congrArg (fun l => l[0]?) hcells
      simpa [List.getElem?_drop] using this
    have hcd : cells.drop (i + 1) = ns.map (fun n => some n.addr) := by
      have := congrArg List.tail hcells
      simpa [List.tail_drop] using this
    simp only [List.length_cons, freeMembers, M.bind_apply, getGrp_eq hp hg, getPtr_eq harr hci]
    rw [hfc n List.mem_cons_self s.mem hin.1 h0 s rfl]
    simp only
    have := ih (i := i + 1) (cells := cells) (m := s.mem.without n.blocks)
      (fun n hn => hfc n (List.mem_cons_of_mem _ hn))
      (by rw [Mem.without_of_notMem hpn.1, hp]) hg
      (by rw [Mem.without_of_notMem han.1, harr]) hcd
      (hin.2.frame fun a ha => Mem.without_of_notMem fun h => hnd.2.2 a h a ha rfl)
      hnd.2.1 hpn.2 han.2 (by
        rw [Mem.without_of_notMem fun h => hin.1.ne_zero h0 h rfl, h0])
    rw [this { s with mem := s.mem.without n.blocks } rfl, Mem.without_without,
      Node.blocksAll_cons]

theorem freeProps_spec {fc : ID → Addr → M HS Unit} {p q : Addr} {g : Grp} {l : Lst} {b : Block} :
    ∀ {ns : List Node} {i : Nat} {cells : List (Option Addr)} {m : Mem},
    (∀ n ∈ ns, ∀ m, In m q n → m 0 = none → Frees (fc g.ty n.addr) m (m.without n.blocks)) →
    m p = some b → b.grp? = some g → b.lst? = some l → m l.parr = some (.ptrs cells) →
    cells.drop i = ns.map (fun n => some n.addr) → InAll m q ns → (Node.blocksAll ns).Nodup →
    p ∉ Node.blocksAll ns → l.parr ∉ Node.blocksAll ns → m 0 = none →
    Frees (freeProps fc p ns.length i) m (m.without (Node.blocksAll ns)) := by
  intro ns
  induction ns with
  | nil =>
    intro i cells m _ _ _ _ _ _ _ _ _ _ _ s hs
    simp only [List.length_nil, freeProps, M.pure_apply, Node.blocksAll_nil, Mem.without_nil]
    rw [← hs]
  | cons n ns ih =>
    intro i cells m hfc hp hg hl harr hcells hin hnd hpn han h0 s hs
    subst hs
    simp only [Node.blocksAll_cons, List.mem_append, not_or, List.nodup_append] at hnd hpn han
    rw [inAll_cons] at hin
    have hci : cells[i]? = some (some n.addr) := by
      have := congrArg (fun l => l[0]?) hcells
      simpa [List.getElem?_drop] using this
    have hcd : cells.drop (i + 1) = ns.map (fun n => some n.addr) := by
      have := congrArg List.tail hcells
      simpa [List.tail_drop] using this
    simp only [List.length_cons, freeProps, M.bind_apply, getGrp_eq hp hg, getLst_eq hp hl,
      getPtr_eq harr hci]
    rw [hfc n List.mem_cons_self s.mem hin.1 h0 s rfl]
    simp only
    have := ih (i := i + 1) (cells := cells) (m := s.mem.without n.blocks)
      (fun n hn => hfc n (List.mem_cons_of_mem _ hn))
      (by rw [Mem.without_of_notMem hpn.1, hp]) hg hl
      (by rw [Mem.without_of_notMem han.1, harr]) hcd
      (hin.2.frame fun a ha => Mem.without_of_notMem fun h => hnd.2.2 a h a ha rfl)
      hnd.2.1 hpn.2 han.2 (by
        rw [Mem.without_of_notMem fun h => hin.1.ne_zero h0 h rfl, h0])
    rw [this { s with mem := s.mem.without n.blocks } rfl, Mem.without_without,
      Node.blocksAll_cons]

/-- The blocks of an array. -/
def arrBlocks (arr : Addr) : List Addr := if arr = 0 then [] else [arr]

theorem free_arr {s : HS} {arr : Addr} {ps : List Addr} (h : ArrayIn s.mem arr ps)
    (h0 : s.mem 0 = none) :
    free arr s = .val ((), { s with mem := s.mem.without (arrBlocks arr) }) := by
  rcases h with ⟨_, rfl⟩ | ⟨_, h1, h2⟩
  · rw [free_null]; simp [arrBlocks, Mem.without_nil]
  · rw [free_eq h2 h0]
    have : s.mem.set arr none = s.mem.without (arrBlocks arr) := by
      funext x; simp [Mem.set, Mem.without, arrBlocks, h1]
    rw [this]

/-- Freeing the members of a group, and its array. -/
theorem freeGroup_spec {fc : ID → Addr → M HS Unit} {p arr : Addr} {b : Block} {ty : ID}
    {ns : List Node} {m : Mem}
    (hfc : ∀ n ∈ ns, ∀ m, In m p n → m 0 = none → Frees (fc ty n.addr) m (m.without n.blocks))
    (hp : m p = some b) (hg : b.grp? = some ⟨ty, ns.length, arr⟩)
    (harr : ArrayIn m arr (ns.map Node.addr)) (hin : InAll m p ns)
    (hnd : (p :: arrBlocks arr ++ Node.blocksAll ns).Nodup) (h0 : m 0 = none) :
    Frees (freeGroup fc p) m (m.without (arrBlocks arr ++ Node.blocksAll ns)) := by
  intro s hs
  subst hs
  have hz : (0 : Addr) ∉ Node.blocksAll ns := fun h => by
    obtain ⟨n, hn, h⟩ := Node.mem_blocksAll.mp h
    exact (inAll_iff.mp hin n hn).ne_zero h0 h rfl
  simp only [List.cons_append, List.nodup_cons, List.mem_append, not_or, List.nodup_append] at hnd
  obtain ⟨⟨hpa, hpn⟩, hna, hnn, hdis⟩ := hnd
  have hmem : freeMembers fc p ns.length 0 s
      = .val ((), { s with mem := s.mem.without (Node.blocksAll ns) }) := by
    rcases harr with ⟨h1, rfl⟩ | ⟨h1, h2, h3⟩
    · have : ns = [] := by simpa using h1
      subst this
      simp [freeMembers, Mem.without_nil]
    · refine freeMembers_spec (g := ⟨ty, ns.length, arr⟩) (cells := (ns.map Node.addr).map some)
        (fun n hn => hfc n hn) hp hg h3 (by simp) hin hnn hpn ?_ h0 s rfl
      intro h
      exact hdis arr (by simp [arrBlocks, h2]) arr h rfl
  simp only [freeGroup, M.bind_apply, getGrp_eq hp hg, hmem]
  have hp' : ({ s with mem := s.mem.without (Node.blocksAll ns) } : HS).mem p = some b := by
    rw [← hp]; exact Mem.without_of_notMem hpn
  rw [getGrp_eq hp' hg]
  simp only
  have harr' : ArrayIn (s.mem.without (Node.blocksAll ns)) arr (ns.map Node.addr) :=
    harr.frame fun h2 => Mem.without_of_notMem fun h =>
      hdis arr (by simp [arrBlocks, h2]) arr h rfl
  rw [free_arr (s := { s with mem := s.mem.without (Node.blocksAll ns) }) harr'
    (by rw [← h0]; exact Mem.without_of_notMem hz)]
  simp only [Mem.without_without]
  congr 3
  exact Mem.without_congr fun a => by simp [or_comm]

theorem freeList_spec {fc : ID → Addr → M HS Unit} {p arr parr : Addr} {b : Block} {ty : ID}
    {ns ps : List Node} {m : Mem}
    (hfc : ∀ n ∈ ns, ∀ m, In m p n → m 0 = none → Frees (fc ty n.addr) m (m.without n.blocks))
    (hfp : ∀ n ∈ ps, ∀ m, In m p n → m 0 = none → Frees (fc ty n.addr) m (m.without n.blocks))
    (hp : m p = some b) (hg : b.grp? = some ⟨ty, ns.length, arr⟩)
    (hl : b.lst? = some ⟨ps.length, parr⟩)
    (harr : ArrayIn m arr (ns.map Node.addr)) (hparr : ArrayIn m parr (ps.map Node.addr))
    (hin : InAll m p ns) (hinp : InAll m p ps)
    (hnd : (p :: arrBlocks arr ++ arrBlocks parr ++ Node.blocksAll ns ++ Node.blocksAll ps).Nodup)
    (h0 : m 0 = none) :
    Frees (freeList fc p) m
      (m.without (arrBlocks arr ++ arrBlocks parr ++ Node.blocksAll ns ++ Node.blocksAll ps)) := by
  intro s hs
  subst hs
  have hz : (0 : Addr) ∉ Node.blocksAll ns := fun h => by
    obtain ⟨n, hn, h⟩ := Node.mem_blocksAll.mp h
    exact (inAll_iff.mp hin n hn).ne_zero h0 h rfl
  have hzp : (0 : Addr) ∉ Node.blocksAll ps := fun h => by
    obtain ⟨n, hn, h⟩ := Node.mem_blocksAll.mp h
    exact (inAll_iff.mp hinp n hn).ne_zero h0 h rfl
  have hza : (0 : Addr) ∉ arrBlocks arr := by
    simp only [arrBlocks]; split
    · simp
    · rename_i h; simpa using fun h' => h h'.symm
  simp only [List.cons_append, List.nodup_cons, List.mem_append, not_or, List.nodup_append] at hnd
  obtain ⟨⟨⟨⟨hpa, hppa⟩, hpn⟩, hpps⟩, ⟨⟨hna, hnpa, hd1⟩, hnn, hd2⟩, hnps, hd3⟩ := hnd
  have hfree := freeGroup_spec hfc hp hg harr hin (by
    simp only [List.cons_append, List.nodup_cons, List.mem_append, not_or, List.nodup_append]
    exact ⟨⟨hpa, hpn⟩, hna, hnn, fun a ha b hb => hd2 a (.inl ha) b hb⟩) h0 s rfl
  let m1 := s.mem.without (arrBlocks arr ++ Node.blocksAll ns)
  let s1 : HS := { s with mem := m1 }
  replace hfree : freeGroup fc p s = .val ((), s1) := hfree
  simp only [freeList, M.bind_apply, hfree]
  have hp1 : s1.mem p = some b := by
    rw [← hp]; exact Mem.without_of_notMem (by simp [hpa, hpn])
  have h01 : s1.mem 0 = none := by
    rw [← h0]; exact Mem.without_of_notMem (by simp [hza, hz])
  have hinp1 : InAll s1.mem p ps := hinp.frame fun a ha => Mem.without_of_notMem (by
    simp only [List.mem_append, not_or]
    exact ⟨fun h => hd3 a (.inl (.inl h)) a ha rfl, fun h => hd3 a (.inr h) a ha rfl⟩)
  have hparr1 : ArrayIn s1.mem parr (ps.map Node.addr) := hparr.frame fun h2 =>
    Mem.without_of_notMem (by
      simp only [List.mem_append, not_or]
      have hm : parr ∈ arrBlocks parr := by simp [arrBlocks, h2]
      exact ⟨fun h => hd1 parr h parr hm rfl, fun h => hd2 parr (.inr hm) parr h rfl⟩)
  rw [getLst_eq hp1 hl]
  simp only
  have hmem : freeProps fc p ps.length 0 s1
      = .val ((), { s1 with mem := s1.mem.without (Node.blocksAll ps) }) := by
    rcases hparr1 with ⟨h1, rfl⟩ | ⟨h1, h2, h3⟩
    · have : ps = [] := by simpa using h1
      subst this
      simp [freeProps, Mem.without_nil]
    · refine freeProps_spec (g := ⟨ty, ns.length, arr⟩) (l := ⟨ps.length, parr⟩)
        (cells := (ps.map Node.addr).map some)
        (fun n hn => hfp n hn) hp1 hg hl h3 (by simp) hinp1 hnps hpps ?_ h01 s1 rfl
      intro h
      exact hd3 parr (.inl (.inr (by simp [arrBlocks, h2]))) parr h rfl
  rw [hmem]
  simp only
  have hp2 : ({ s1 with mem := s1.mem.without (Node.blocksAll ps) } : HS).mem p = some b := by
    rw [← hp1]; exact Mem.without_of_notMem hpps
  rw [getLst_eq hp2 hl]
  simp only
  have hparr2 : ArrayIn (s1.mem.without (Node.blocksAll ps)) parr (ps.map Node.addr) :=
    hparr1.frame fun h2 => Mem.without_of_notMem fun h =>
      hd3 parr (.inl (.inr (by simp [arrBlocks, h2]))) parr h rfl
  rw [free_arr (s := { s1 with mem := s1.mem.without (Node.blocksAll ps) }) hparr2
    (by rw [← h01]; exact Mem.without_of_notMem hzp)]
  simp only [s1, m1, Mem.without_without]
  congr 3
  exact Mem.without_congr fun a => by
    simp only [List.mem_append]
    constructor
    · rintro (((h | h) | h) | h) <;> simp [h]
    · rintro (((h | h) | h) | h) <;> simp [h]

theorem depthAll_le {cs : List Chunk} {k : Nat} (h : depthAll cs ≤ k) :
    ∀ c ∈ cs, depth c ≤ k := by
  induction cs with
  | nil => simp
  | cons c cs ih =>
    simp only [depthAll] at h
    intro d hd
    rcases List.mem_cons.mp hd with rfl | hd
    · omega
    · exact ih (by omega) d hd

theorem nodup_of_mem {n : Node} {ns : List Node} (hn : n ∈ ns) (h : (Node.blocksAll ns).Nodup) :
    n.blocks.Nodup := by
  induction ns with
  | nil => simp at hn
  | cons x xs ih =>
    simp only [Node.blocksAll_cons, List.nodup_append] at h
    rcases List.mem_cons.mp hn with rfl | hn
    · exact h.1
    · exact ih hn h.2.1

/-- Releasing a chunk. -/
theorem freeChunk_spec {r : Registry} : ∀ {t : Node} {ft : ID} {k : Nat} {par : Addr} {m : Mem},
    In m par t → t.blocks.Nodup → m 0 = none → Released r ft t.chunk → depth t.chunk ≤ k →
    Frees (freeChunk r k ft t.addr) m (m.without t.blocks) := by
  intro t
  induction t using Node.ind with
  | raw a d id size data =>
    intro ft k par m hin hnd h0 hrel hk s hs
    subst hs
    cases k with
    | zero => simp [Node.chunk, depth] at hk
    | succ k =>
    simp only [In] at hin
    simp only [Node.blocks, List.nodup_cons, List.mem_singleton] at hnd
    cases hrel with
    | raw hf =>
    simp only [Node.addr, freeChunk, M.bind_apply, getHdr_eq hin.1 rfl, hf, load_eq hin.1,
      free_eq hin.2 h0]
    have hne : a ≠ d := hnd.1
    have h1 : ({ s with mem := s.mem.set d none } : HS).mem a = some (.raw ⟨par, id, size⟩ d) := by
      rw [← hin.1]; exact Mem.set_ne hne
    rw [free_eq h1 (by
      show s.mem.set d none 0 = none
      simp only [Mem.set]; split
      · rfl
      · exact h0)]
    congr 3
    funext x
    simp only [Mem.set, Mem.without, Node.blocks, List.mem_cons, List.not_mem_nil, or_false]
    by_cases hx : x = a <;> by_cases hy : x = d <;> simp [hx, hy]
  | ext a id size vals =>
    intro ft k par m hin hnd h0 hrel hk s hs
    subst hs
    cases k with
    | zero => simp [Node.chunk, depth] at hk
    | succ k =>
    simp only [In] at hin
    cases hrel with
    | ext hf =>
    simp only [Node.addr, freeChunk, M.bind_apply, getHdr_eq hin rfl, hf,
      free_eq hin h0]
    congr 3
    funext x
    simp only [Mem.set, Mem.without, Node.blocks, List.mem_singleton]
  | grp a arr id size ty subs ih =>
    intro ft k par m hin hnd h0 hrel hk s hs
    subst hs
    cases k with
    | zero => simp [Node.chunk, depth] at hk
    | succ k =>
    simp only [In] at hin
    simp only [Node.chunk, depth] at hk
    have hrel' := hrel
    simp only [Node.chunk] at hrel'
    cases hrel' with
    | grp hf hsubs =>
    have hfc : ∀ n ∈ subs, ∀ m, In m a n → m 0 = none →
        Frees (freeChunk r k ty n.addr) m (m.without n.blocks) := fun n hn m hin' h0' =>
      ih n hn hin' (by
        simp only [Node.blocks, List.cons_append, List.nodup_cons, List.nodup_append] at hnd
        exact nodup_of_mem hn hnd.2.2.1) h0' (hsubs _ (by
        rw [Node.chunks_eq]; exact List.mem_map_of_mem hn)) (depthAll_le (cs := Node.chunks subs) (by omega) _ (by
        rw [Node.chunks_eq]; exact List.mem_map_of_mem hn))
    have hfree := freeGroup_spec hfc hin.1 rfl hin.2.1 hin.2.2 hnd h0 s rfl
    have : freeChunk r (k + 1) ft a s = (freeGroup (freeChunk r k) a >>= fun _ => free a) s := by
      simp only [freeChunk, M.bind_apply, getHdr_eq hin.1 rfl]
      rcases hf with hf | hf | hf <;> simp only [hf] <;> rfl
    simp only [Node.addr, this, M.bind_apply, hfree]
    simp only [Node.blocks, List.cons_append, List.nodup_cons] at hnd
    rw [free_eq (b := .grp ⟨par, id, size⟩ ty subs.length arr) (by
      show Mem.without _ _ a = _
      exact (Mem.without_of_notMem hnd.1).trans hin.1) (by
      show Mem.without _ _ 0 = _
      simp only [Mem.without]; split
      · rfl
      · exact h0)]
    simp only [Mem.without_set, Node.blocks]
    congr 3
    exact Mem.without_congr fun x => by simp [arrBlocks]; grind
  | lst a arr parr id size ty subs props ih ih2 =>
    intro ft k par m hin hnd h0 hrel hk s hs
    subst hs
    cases k with
    | zero => simp [Node.chunk, depth] at hk
    | succ k =>
    simp only [In] at hin
    simp only [Node.chunk, depth] at hk
    have hrel' := hrel
    simp only [Node.chunk] at hrel'
    cases hrel' with
    | lst hf hsubs hprops =>
    have hnd' := hnd
    simp only [Node.blocks, List.cons_append, List.nodup_cons, List.nodup_append] at hnd'
    have hfc : ∀ n ∈ subs, ∀ m, In m a n → m 0 = none →
        Frees (freeChunk r k ty n.addr) m (m.without n.blocks) := fun n hn m hin' h0' =>
      ih n hn hin' (nodup_of_mem hn hnd'.2.1.2.1) h0' (hsubs _ (by
        rw [Node.chunks_eq]; exact List.mem_map_of_mem hn)) (depthAll_le (cs := Node.chunks subs) (by omega) _ (by
        rw [Node.chunks_eq]; exact List.mem_map_of_mem hn))
    have hfp : ∀ n ∈ props, ∀ m, In m a n → m 0 = none →
        Frees (freeChunk r k ty n.addr) m (m.without n.blocks) := fun n hn m hin' h0' =>
      ih2 n hn hin' (nodup_of_mem hn hnd'.2.2.1) h0' (hprops _ (by
        rw [Node.chunks_eq]; exact List.mem_map_of_mem hn)) (depthAll_le (cs := Node.chunks props) (by omega) _ (by
        rw [Node.chunks_eq]; exact List.mem_map_of_mem hn))
    have hfree := freeList_spec hfc hfp hin.1 rfl rfl hin.2.1 hin.2.2.1 hin.2.2.2.1 hin.2.2.2.2
      hnd h0 s rfl
    have : freeChunk r (k + 1) ft a s = (freeList (freeChunk r k) a >>= fun _ => free a) s := by
      simp only [freeChunk, M.bind_apply, getHdr_eq hin.1 rfl, hf]
    simp only [Node.addr, this, M.bind_apply, hfree]
    simp only [Node.blocks, List.cons_append, List.nodup_cons] at hnd
    rw [free_eq (b := .lst ⟨par, id, size⟩ ty subs.length arr props.length parr) (by
      show Mem.without _ _ a = _
      exact (Mem.without_of_notMem hnd.1).trans hin.1) (by
      show Mem.without _ _ 0 = _
      simp only [Mem.without]; split
      · rfl
      · exact h0)]
    simp only [Mem.without_set, Node.blocks]
    congr 3
    exact Mem.without_congr fun x => by simp [arrBlocks]; grind
end Iff.Heap
