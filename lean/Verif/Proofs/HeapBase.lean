import Verif.Heap.Read
import Verif.Spec.Heap
import Verif.Proofs.Io
/-
  Lemmas about the heap operations and about hierarchies in memory.
-/
namespace Iff.Heap

open Spec

@[simp] theorem Mem.set_same (m : Mem) (a : Addr) (b) : m.set a b a = b := by simp [Mem.set]

theorem Mem.set_ne {m : Mem} {a x : Addr} {b} (h : x ≠ a) : m.set a b x = m x := by
  simp [Mem.set, h]

theorem Mem.set_set (m : Mem) (a : Addr) (b c) : (m.set a b).set a c = m.set a c := by
  funext x; simp only [Mem.set]; split <;> rfl

theorem Mem.set_none {m : Mem} {a : Addr} (h : m a = none) : m.set a none = m := by
  funext x; simp only [Mem.set]; split
  · subst x; exact h.symm
  · rfl

/-- The memory without some blocks. -/
def Mem.without (m : Mem) (bs : List Addr) : Mem := fun a => if a ∈ bs then none else m a

theorem Mem.without_nil (m : Mem) : m.without [] = m := by
  funext a; simp [Mem.without]

theorem Mem.without_without (m : Mem) (xs ys : List Addr) :
    (m.without xs).without ys = m.without (xs ++ ys) := by
  funext a; simp only [Mem.without, List.mem_append]
  by_cases h1 : a ∈ xs <;> by_cases h2 : a ∈ ys <;> simp [h1, h2]

theorem Mem.without_set (m : Mem) (xs : List Addr) (a : Addr) :
    (m.without xs).set a none = m.without (xs ++ [a]) := by
  funext x; simp only [Mem.without, Mem.set, List.mem_append, List.mem_singleton]
  by_cases h1 : x ∈ xs <;> by_cases h2 : x = a <;> simp [h1, h2]

theorem Mem.without_of_notMem {m : Mem} {xs : List Addr} {a : Addr} (h : a ∉ xs) :
    m.without xs a = m a := by simp [Mem.without, h]

theorem Mem.without_of_mem {m : Mem} {xs : List Addr} {a : Addr} (h : a ∈ xs) :
    m.without xs a = none := by simp [Mem.without, h]

theorem Mem.without_congr {m : Mem} {xs ys : List Addr} (h : ∀ a, a ∈ xs ↔ a ∈ ys) :
    m.without xs = m.without ys := by
  funext a; simp [Mem.without, h a]

theorem Adds.without {m₀ m : Mem} {bs : List Addr} (h : Adds m₀ m bs) : m.without bs = m₀ := by
  funext a
  by_cases ha : a ∈ bs
  · rw [Mem.without_of_mem ha, h.1 a ha]
  · rw [Mem.without_of_notMem ha, h.2 a ha]

/-! ### Operations -/

theorem load_eq {s : HS} {p : Addr} {b : Block} (h : s.mem p = some b) :
    load p s = .val (b, s) := by simp [load, h]

theorem load_null {s : HS} (h : s.mem 0 = none) : load 0 s = .ub .nullDeref := by simp [load, h]

theorem store_eq {s : HS} {p : Addr} {b c : Block} (h : s.mem p = some b) :
    store p c s = .val ((), { s with mem := s.mem.set p (some c) }) := by simp [store, h]

theorem free_null (s : HS) : free 0 s = .val ((), s) := by simp [free]

theorem free_eq {s : HS} {p : Addr} {b : Block} (h : s.mem p = some b) (h0 : s.mem 0 = none) :
    free p s = .val ((), { s with mem := s.mem.set p none }) := by
  have : p ≠ 0 := by rintro rfl; rw [h0] at h; cases h
  simp [free, this, h]

theorem getHdr_eq {s : HS} {p : Addr} {b : Block} {hd : Hdr} (h : s.mem p = some b)
    (hh : b.hdr? = some hd) : getHdr p s = .val (hd, s) := by
  simp [getHdr, M.bind_apply, load_eq h, hh]

theorem getGrp_eq {s : HS} {p : Addr} {b : Block} {g : Grp} (h : s.mem p = some b)
    (hh : b.grp? = some g) : getGrp p s = .val (g, s) := by
  simp [getGrp, M.bind_apply, load_eq h, hh]

theorem getLst_eq {s : HS} {p : Addr} {b : Block} {l : Lst} (h : s.mem p = some b)
    (hh : b.lst? = some l) : getLst p s = .val (l, s) := by
  simp [getLst, M.bind_apply, load_eq h, hh]

theorem updHdr_eq {s : HS} {p : Addr} {b : Block} {hd : Hdr} {f} (h : s.mem p = some b)
    (hh : b.hdr? = some hd) :
    updHdr p f s = .val ((), { s with mem := s.mem.set p (some (b.setHdr (f hd))) }) := by
  simp [updHdr, M.bind_apply, load_eq h, hh, store_eq h]

theorem updGrp_eq {s : HS} {p : Addr} {b : Block} {g : Grp} {f} (h : s.mem p = some b)
    (hh : b.grp? = some g) :
    updGrp p f s = .val ((), { s with mem := s.mem.set p (some (b.setGrp (f g))) }) := by
  simp [updGrp, M.bind_apply, load_eq h, hh, store_eq h]

theorem updLst_eq {s : HS} {p : Addr} {b : Block} {l : Lst} {f} (h : s.mem p = some b)
    (hh : b.lst? = some l) :
    updLst p f s = .val ((), { s with mem := s.mem.set p (some (b.setLst (f l))) }) := by
  simp [updLst, M.bind_apply, load_eq h, hh, store_eq h]

theorem getPtr_eq {s : HS} {arr : Addr} {cells : List (Option Addr)} {i : Nat} {a : Addr}
    (h : s.mem arr = some (.ptrs cells)) (hi : cells[i]? = some (some a)) :
    getPtr arr i s = .val (a, s) := by
  simp [getPtr, M.bind_apply, load_eq h, hi]

theorem setPtr_eq {s : HS} {arr p : Addr} {cells : List (Option Addr)} {i : Nat}
    (h : s.mem arr = some (.ptrs cells)) (hi : i < cells.length) :
    setPtr arr i p s =
      .val ((), { s with mem := s.mem.set arr (some (.ptrs (cells.set i (some p)))) }) := by
  simp [setPtr, M.bind_apply, load_eq h, hi, store_eq h]

theorem io_val {α : Type} {m : M RS α} {s : HS} {a : α} {rs : RS} (h : m s.rs = .val (a, rs)) :
    io m s = .val (a, { s with rs := rs }) := by simp [io, h]

theorem io_ub {α : Type} {m : M RS α} {s : HS} {u : UB} (h : m s.rs = .ub u) :
    io m s = .ub u := by simp [io, h]

theorem io_loop {α : Type} {m : M RS α} {s : HS} (h : m s.rs = .loop) :
    io m s = .loop := by simp [io, h]

end Iff.Heap

namespace Iff.Spec

open Iff.Heap

/-! ### Hierarchies in memory -/

theorem Node.ind {P : Node → Prop}
    (raw : ∀ a d id size data, P (.raw a d id size data))
    (ext : ∀ a id size vals, P (.ext a id size vals))
    (grp : ∀ a arr id size ty subs, (∀ c ∈ subs, P c) → P (.grp a arr id size ty subs))
    (lst : ∀ a arr parr id size ty subs props, (∀ c ∈ subs, P c) → (∀ c ∈ props, P c) →
      P (.lst a arr parr id size ty subs props)) : ∀ t, P t := by
  intro t
  exact Node.rec (motive_1 := P) (motive_2 := fun l => ∀ c ∈ l, P c)
    raw grp lst ext (by simp)
    (fun c cs hc hcs d hd => by
      rcases List.mem_cons.mp hd with rfl | h
      · exact hc
      · exact hcs d h) t

@[simp] theorem Node.chunks_nil : Node.chunks [] = [] := by simp [Node.chunks]
@[simp] theorem Node.chunks_cons (n : Node) (ns) :
    Node.chunks (n :: ns) = n.chunk :: Node.chunks ns := by simp [Node.chunks]

theorem Node.chunks_eq (ns : List Node) : Node.chunks ns = ns.map Node.chunk := by
  induction ns with
  | nil => rfl
  | cons n ns ih => simp [ih]

@[simp] theorem Node.blocksAll_nil : Node.blocksAll [] = [] := by simp [Node.blocksAll]
@[simp] theorem Node.blocksAll_cons (n : Node) (ns) :
    Node.blocksAll (n :: ns) = n.blocks ++ Node.blocksAll ns := by simp [Node.blocksAll]

theorem Node.blocksAll_append (xs ys : List Node) :
    Node.blocksAll (xs ++ ys) = Node.blocksAll xs ++ Node.blocksAll ys := by
  induction xs with
  | nil => simp
  | cons n ns ih => simp [ih]

theorem Node.mem_blocksAll {ns : List Node} {a : Addr} :
    a ∈ Node.blocksAll ns ↔ ∃ n ∈ ns, a ∈ n.blocks := by
  induction ns with
  | nil => simp
  | cons n ns ih => simp [ih]

theorem Node.addr_mem (t : Node) : t.addr ∈ t.blocks := by
  cases t <;> simp [Node.addr, Node.blocks]

@[simp] theorem inAll_nil {m : Mem} {p : Addr} : InAll m p [] := by simp [InAll]
@[simp] theorem inAll_cons {m : Mem} {p : Addr} {n : Node} {ns} :
    InAll m p (n :: ns) ↔ In m p n ∧ InAll m p ns := by simp [InAll]

theorem inAll_iff {m : Mem} {p : Addr} {ns : List Node} :
    InAll m p ns ↔ ∀ n ∈ ns, In m p n := by
  induction ns with
  | nil => simp
  | cons n ns ih => simp [ih]

theorem ArrayIn.frame {m m' : Mem} {arr : Addr} {ps : List Addr} (h : ArrayIn m arr ps)
    (hf : arr ≠ 0 → m' arr = m arr) : ArrayIn m' arr ps := by
  rcases h with h | ⟨h1, h2, h3⟩
  · exact .inl h
  · exact .inr ⟨h1, h2, by rw [hf h2, h3]⟩

/-- A hierarchy stays in memory if its blocks do not change. -/
theorem In.frame {m m' : Mem} : ∀ {t : Node} {par : Addr}, In m par t →
    (∀ a ∈ t.blocks, m' a = m a) → In m' par t := by
  intro t
  induction t using Node.ind with
  | raw a d id size data =>
    intro par h hf
    simp only [In] at h ⊢
    exact ⟨by rw [hf a (by simp [Node.blocks]), h.1], by rw [hf d (by simp [Node.blocks]), h.2]⟩
  | ext a id size vals =>
    intro par h hf
    simp only [In] at h ⊢
    rw [hf a (by simp [Node.blocks]), h]
  | grp a arr id size ty subs ih =>
    intro par h hf
    simp only [In] at h ⊢
    refine ⟨by rw [hf a (by simp [Node.blocks]), h.1], h.2.1.frame fun h0 => ?_, ?_⟩
    · exact hf arr (by simp [Node.blocks, h0])
    · rw [inAll_iff] at h ⊢
      exact fun c hc => ih c hc (h.2.2 c hc) fun x hx => hf x (by
        simp only [Node.blocks, List.mem_cons, List.mem_append, Node.mem_blocksAll]
        exact .inr ⟨c, hc, hx⟩)
  | lst a arr parr id size ty subs props ih ih2 =>
    intro par h hf
    simp only [In] at h ⊢
    obtain ⟨h1, h2, h3, h4, h5⟩ := h
    refine ⟨by rw [hf a (by simp [Node.blocks]), h1], h2.frame fun h0 => ?_,
      h3.frame fun h0 => ?_, ?_, ?_⟩
    · exact hf arr (by simp [Node.blocks, h0])
    · exact hf parr (by simp [Node.blocks, h0])
    · rw [inAll_iff] at h4 ⊢
      exact fun c hc => ih c hc (h4 c hc) fun x hx => hf x (by
        simp only [Node.blocks, List.mem_cons, List.mem_append, Node.mem_blocksAll]
        exact .inl (.inr ⟨c, hc, hx⟩))
    · rw [inAll_iff] at h5 ⊢
      exact fun c hc => ih2 c hc (h5 c hc) fun x hx => hf x (by
        simp only [Node.blocks, List.mem_cons, List.mem_append, Node.mem_blocksAll]
        exact .inr ⟨c, hc, hx⟩)

theorem InAll.frame {m m' : Mem} {ns : List Node} {par : Addr} (h : InAll m par ns)
    (hf : ∀ a ∈ Node.blocksAll ns, m' a = m a) : InAll m' par ns := by
  rw [inAll_iff] at h ⊢
  exact fun n hn => (h n hn).frame fun a ha => hf a (Node.mem_blocksAll.mpr ⟨n, hn, ha⟩)

theorem ArrayIn.mapped {m : Mem} {arr : Addr} {ps : List Addr} (h : ArrayIn m arr ps)
    (h0 : arr ≠ 0) : m arr ≠ none := by
  rcases h with h | h
  · exact absurd h.2 h0
  · rw [h.2.2]; simp

/-- The blocks of a hierarchy in memory are allocated. -/
theorem In.mapped {m : Mem} : ∀ {t : Node} {par : Addr}, In m par t →
    ∀ a ∈ t.blocks, m a ≠ none := by
  intro t
  induction t using Node.ind with
  | raw a d id size data =>
    intro par h x hx
    simp only [In, Node.blocks, List.mem_cons, List.not_mem_nil, or_false] at h hx
    rcases hx with rfl | rfl
    · simp [h.1]
    · simp [h.2]
  | ext a id size vals =>
    intro par h x hx
    simp only [In, Node.blocks, List.mem_cons, List.not_mem_nil, or_false] at h hx
    subst hx; simp [h]
  | grp a arr id size ty subs ih =>
    intro par h x hx
    simp only [In, Node.blocks, List.mem_cons, List.mem_append] at h hx
    rcases hx with (rfl | hx) | hx
    · simp [h.1]
    · split at hx
      · simp at hx
      · rename_i h0
        simp only [List.mem_singleton] at hx; subst hx; exact h.2.1.mapped h0
    · obtain ⟨c, hc, hx⟩ := Node.mem_blocksAll.mp hx
      exact ih c hc (inAll_iff.mp h.2.2 c hc) x hx
  | lst a arr parr id size ty subs props ih ih2 =>
    intro par h x hx
    simp only [In, Node.blocks, List.mem_cons, List.mem_append] at h hx
    obtain ⟨h1, h2, h3, h4, h5⟩ := h
    rcases hx with (((rfl | hx) | hx) | hx) | hx
    · simp [h1]
    · split at hx
      · simp at hx
      · rename_i h0
        simp only [List.mem_singleton] at hx; subst hx; exact h2.mapped h0
    · split at hx
      · simp at hx
      · rename_i h0
        simp only [List.mem_singleton] at hx; subst hx; exact h3.mapped h0
    · obtain ⟨c, hc, hx⟩ := Node.mem_blocksAll.mp hx
      exact ih c hc (inAll_iff.mp h4 c hc) x hx
    · obtain ⟨c, hc, hx⟩ := Node.mem_blocksAll.mp hx
      exact ih2 c hc (inAll_iff.mp h5 c hc) x hx

theorem In.ne_zero {m : Mem} {t : Node} {par a : Addr} (h : In m par t) (h0 : m 0 = none)
    (ha : a ∈ t.blocks) : a ≠ 0 := by
  rintro rfl; exact h.mapped _ ha h0

/-- The members of `IFF_Chunk` of a chunk in memory. -/
theorem In.hdr {m : Mem} {t : Node} {par : Addr} (h : In m par t) :
    ∃ b, m t.addr = some b ∧ b.hdr? = some ⟨par, t.chunk.id, t.chunk.size⟩ := by
  cases t <;> simp only [In] at h
  case raw => exact ⟨_, h.1, rfl⟩
  case grp => exact ⟨_, h.1, rfl⟩
  case lst => exact ⟨_, h.1, rfl⟩
  case ext => exact ⟨_, h, rfl⟩

end Iff.Spec

namespace Iff.Heap

open Spec

theorem ArrayIn.unique {m : Mem} {arr : Addr} {ps qs : List Addr} (h1 : ArrayIn m arr ps)
    (h2 : ArrayIn m arr qs) : ps = qs := by
  rcases h1 with ⟨a, b⟩ | ⟨a, b, c⟩ <;> rcases h2 with ⟨d, f⟩ | ⟨d, f, g⟩
  · rw [a, d]
  · exact absurd b f
  · exact absurd f b
  · rw [c] at g
    simp only [Option.some.injEq, Block.ptrs.injEq] at g
    exact (List.map_inj_right (fun _ _ h => Option.some.inj h)).mp g

theorem inAll_unique {m : Mem} {p q : Addr} {xs : List Node} (ih : ∀ x ∈ xs, ∀ (p q : Addr) (t' : Node),
    In m p x → In m q t' → x.addr = t'.addr → x = t') : ∀ ys, InAll m p xs → InAll m q ys →
      xs.map Node.addr = ys.map Node.addr → xs = ys := by
  induction xs with
  | nil => intro ys _ _ h; cases ys with
    | nil => rfl
    | cons => cases h
  | cons x xs ihx =>
    intro ys h1 h2 h
    cases ys with
    | nil => cases h
    | cons y ys =>
      simp only [List.map_cons, List.cons.injEq] at h
      rw [inAll_cons] at h1 h2
      rw [ih x (by simp) p q y h1.1 h2.1 h.1,
        ihx (fun z hz => ih z (by simp [hz])) ys h1.2 h2.2 h.2]

/-- The hierarchy at an address is determined by the memory. -/
theorem In.unique {m : Mem} (t : Node) : ∀ (p q : Addr) (t' : Node), In m p t → In m q t' →
    t.addr = t'.addr → t = t' := by
  induction t using Node.ind with
  | raw a d id size data =>
    intro p q t' h h' ha
    cases t' <;> simp only [In, Node.addr] at h h' ha <;> subst ha
    · have := h.1.symm.trans h'.1
      simp only [Option.some.injEq, Block.raw.injEq, Hdr.mk.injEq] at this
      obtain ⟨⟨_, rfl, rfl⟩, rfl⟩ := this
      have := h.2.symm.trans h'.2
      simp only [Option.some.injEq, Block.bytes.injEq] at this
      rw [(List.map_inj_right (fun _ _ h => Option.some.inj h)).mp this]
    · cases h.1.symm.trans h'.1
    · cases h.1.symm.trans h'.1
    · cases h.1.symm.trans h'
  | ext a id size vals =>
    intro p q t' h h' ha
    cases t' <;> simp only [In, Node.addr] at h h' ha <;> subst ha
    · cases h.symm.trans h'.1
    · cases h.symm.trans h'.1
    · cases h.symm.trans h'.1
    · cases h.symm.trans h'; rfl
  | grp a arr id size ty subs ih =>
    intro p q t' h h' ha
    cases t' <;> simp only [In, Node.addr] at h h' ha <;> subst ha
    · cases h.1.symm.trans h'.1
    · have := h.1.symm.trans h'.1
      simp only [Option.some.injEq, Block.grp.injEq, Hdr.mk.injEq] at this
      obtain ⟨⟨_, rfl, rfl⟩, rfl, _, rfl⟩ := this
      rw [inAll_unique ih _ h.2.2 h'.2.2 (ArrayIn.unique h.2.1 h'.2.1)]
    · cases h.1.symm.trans h'.1
    · cases h.1.symm.trans h'
  | lst a arr parr id size ty subs props ih ih2 =>
    intro p q t' h h' ha
    cases t' <;> simp only [In, Node.addr] at h h' ha <;> subst ha
    · cases h.1.symm.trans h'.1
    · cases h.1.symm.trans h'.1
    · have := h.1.symm.trans h'.1
      simp only [Option.some.injEq, Block.lst.injEq, Hdr.mk.injEq] at this
      obtain ⟨⟨_, rfl, rfl⟩, rfl, _, rfl, _, rfl⟩ := this
      rw [inAll_unique ih _ h.2.2.2.1 h'.2.2.2.1 (ArrayIn.unique h.2.1 h'.2.1),
        inAll_unique ih2 _ h.2.2.2.2 h'.2.2.2.2 (ArrayIn.unique h.2.2.1 h'.2.2.1)]
    · cases h.1.symm.trans h'

end Iff.Heap
