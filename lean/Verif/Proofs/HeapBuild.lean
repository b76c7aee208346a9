import Verif.Proofs.HeapForest
import Verif.Proofs.HeapRead
/-
  Building hierarchies with pointers.
-/
namespace Iff.Heap

open Spec

/-! ### Creation -/

theorem newStruct_cases {A : Alloc} {b : Block} {s : HS} :
    (A.pick s.tick s.mem (.struct b.skind) = none ∧ newStruct A b s = .val (0, ⟨s.mem, s.tick + 1, s.rs⟩)) ∨
    ∃ p, A.pick s.tick s.mem (.struct b.skind) = some p ∧ p ≠ 0 ∧ s.mem p = none ∧
      newStruct A b s = .val (p, ⟨s.mem.set p (some b), s.tick + 1, s.rs⟩) := by
  simp only [newStruct, malloc]
  cases h : A.pick s.tick s.mem (.struct b.skind) with
  | none => exact .inl ⟨rfl, rfl⟩
  | some p => exact .inr ⟨p, rfl, (A.sound h).1, (A.sound h).2, rfl⟩

theorem holds_leaf {m : Mem} {p : Addr} {b : Block} {t : Node} (hp : p ≠ 0) (hf : m p = none)
    (hb : t.blocks = [p]) (hin : In (m.set p (some b)) 0 t) : Holds m (m.set p (some b)) t := by
  refine ⟨hin, by rw [hb]; simp, by rw [hb]; simpa using Ne.symm hp, ?_, ?_⟩
  · intro x hx
    rw [hb, List.mem_singleton] at hx
    subst hx; exact hf
  · intro x hx
    rw [hb, List.mem_singleton] at hx
    exact Mem.set_ne hx

/-- A new group: NULL, or the memory holds it. -/
theorem createGroup_spec {A : Alloc} {id ty : ID} {s : HS} :
    (A.pick s.tick s.mem (.struct .grp) = none ∧
      createEmptyGroup A id ty s = .val (0, ⟨s.mem, s.tick + 1, s.rs⟩)) ∨
    ∃ p m', p ≠ 0 ∧ createEmptyGroup A id ty s = .val (p, ⟨m', s.tick + 1, s.rs⟩) ∧
      Holds s.mem m' (.grp p 0 id 4 ty []) := by
  rcases newStruct_cases (A := A) (b := .grp ⟨0, id, idSize⟩ ty 0 0) (s := s) with h | ⟨p, _, h1, h2, h3⟩
  · exact .inl h
  · refine .inr ⟨p, _, h1, h3, holds_leaf h1 h2 (by simp [Node.blocks]) ?_⟩
    simp [In, ArrayIn, Mem.set_same, idSize]

theorem createList_spec {A : Alloc} {ty : ID} {s : HS} :
    (A.pick s.tick s.mem (.struct .lst) = none ∧
      createEmptyList A ty s = .val (0, ⟨s.mem, s.tick + 1, s.rs⟩)) ∨
    ∃ p m', p ≠ 0 ∧ createEmptyList A ty s = .val (p, ⟨m', s.tick + 1, s.rs⟩) ∧
      Holds s.mem m' (.lst p 0 0 idLIST 4 ty [] []) := by
  rcases newStruct_cases (A := A) (b := .lst ⟨0, idLIST, idSize⟩ ty 0 0 0 0) (s := s)
    with h | ⟨p, _, h1, h2, h3⟩
  · exact .inl h
  · refine .inr ⟨p, _, h1, h3, holds_leaf h1 h2 (by simp [Node.blocks]) ?_⟩
    simp [In, ArrayIn, Mem.set_same, idSize]

theorem createExt_spec {A : Alloc} {id : ID} {size : Int} {vals : List Val} {s : HS} :
    (A.pick s.tick s.mem (.struct (.ext (vals.map Val.kind))) = none ∧
      createExt A id size vals s = .val (0, ⟨s.mem, s.tick + 1, s.rs⟩)) ∨
    ∃ p m', p ≠ 0 ∧ createExt A id size vals s = .val (p, ⟨m', s.tick + 1, s.rs⟩) ∧
      Holds s.mem m' (.ext p id size vals) := by
  rcases newStruct_cases (A := A) (b := .ext ⟨0, id, size⟩ vals) (s := s) with h | ⟨p, _, h1, h2, h3⟩
  · exact .inl h
  · refine .inr ⟨p, _, h1, h3, holds_leaf h1 h2 (by simp [Node.blocks]) ?_⟩
    simp [In, Mem.set_same]

theorem toSize_nat {e : Env} (he : 32 ≤ e.sizeBits) {n : Nat} (hn : n < 2147483648) :
    toSize e (n : Int) = n := by
  have h : (2 : Nat) ^ 32 ≤ 2 ^ e.sizeBits := Nat.pow_le_pow_right (by omega) he
  simp only [toSize]
  rw [Int.emod_eq_of_lt (by omega) (by
    have : n < 2 ^ e.sizeBits := Nat.lt_of_lt_of_le (by omega) h
    exact_mod_cast this)]
  simp

/-- A new data chunk: NULL with nothing changed, or the memory holds it. -/
theorem newRaw_spec {A : Alloc} {e : Env} (he : 32 ≤ e.sizeBits) {id : ID} {data : List Byte}
    (hl : data.length < 2147483648) {s : HS} (h0 : s.mem 0 = none) :
    (∃ t', newRaw A e id data s = .val (0, ⟨s.mem, t', s.rs⟩) ∧
      ∃ t₁ m₁, A.pick t₁ m₁ (.struct .raw) = none ∨ A.pick t₁ m₁ (.data data.length) = none) ∨
    ∃ p d m' t', p ≠ 0 ∧ newRaw A e id data s = .val (p, ⟨m', t', s.rs⟩) ∧
      Holds s.mem m' (.raw p d id data.length data) := by
  have hsz := toSize_nat he hl
  rcases newStruct_cases (A := A) (b := .raw ⟨0, id, data.length⟩ 0) (s := s)
    with ⟨hn, h⟩ | ⟨p, _, h1, h2, h3⟩
  · left
    refine ⟨s.tick + 1, ?_, _, _, .inl hn⟩
    simp only [newRaw, createRaw, M.bind_apply, h]
    rfl
  · cases hd : A.pick (s.tick + 1) (s.mem.set p (some (.raw ⟨0, id, data.length⟩ 0)))
        (.data data.length) with
    | none =>
      left
      refine ⟨s.tick + 1 + 1, ?_, _, _, .inr hd⟩
      have hback : (s.mem.set p (some (.raw ⟨0, id, data.length⟩ 0))).set p none = s.mem := by
        rw [Mem.set_set, Mem.set_self h2]
      have hcr : createRaw A e id data.length s = .val (0, ⟨s.mem, s.tick + 1 + 1, s.rs⟩) := by
        simp only [createRaw, M.bind_apply, h3, if_neg h1, malloc, hsz, hd, if_true]
        rw [free_eq (s := ⟨_, _, _⟩) (Mem.set_same _ _ _) (by dsimp only; rw [Mem.set_ne (Ne.symm h1), h0])]
        simp only [M.pure_apply, hback]
      simp only [newRaw, M.bind_apply, hcr]
      rfl
    | some d =>
      obtain ⟨hd1, hd2⟩ := A.sound hd
      have hdp : d ≠ p := by
        rintro rfl; rw [Mem.set_same] at hd2; cases hd2
      rw [Mem.set_ne hdp] at hd2
      right
      let m' : Mem := (s.mem.set d (some (.bytes (data.map some)))).set p
        (some (.raw ⟨0, id, data.length⟩ d))
      refine ⟨p, d, m', s.tick + 1 + 1, h1, ?_, ?_, ?_, ?_, ?_, ?_⟩
      · have hcr : createRaw A e id data.length s = .val (p, ⟨((s.mem.set p (some (.raw ⟨0, id,
            data.length⟩ 0))).set d (some (.bytes (List.replicate data.length none)))).set p
            (some (.raw ⟨0, id, data.length⟩ d)), s.tick + 1 + 1, s.rs⟩) := by
          simp only [createRaw, M.bind_apply, h3, if_neg h1, malloc, hsz, hd, if_neg hd1]
          rw [store_eq (s := ⟨_, _, _⟩) (b := .raw ⟨0, id, data.length⟩ 0)
            (by dsimp only; rw [Mem.set_ne (Ne.symm hdp), Mem.set_same])]
          rfl
        simp only [newRaw, M.bind_apply, hcr, if_neg h1, copyData]
        rw [load_eq (s := ⟨_, _, _⟩) (Mem.set_same _ _ _)]
        simp only [copyBytes, M.bind_apply, hsz]
        rw [load_eq (s := ⟨_, _, _⟩) (b := .bytes (List.replicate data.length none))
          (by dsimp only; rw [Mem.set_ne hdp, Mem.set_same])]
        simp only [List.length_replicate, Nat.le_refl, and_self, if_true, List.take_length]
        rw [store_eq (s := ⟨_, _, _⟩) (b := .bytes (List.replicate data.length none))
          (by dsimp only; rw [Mem.set_ne hdp, Mem.set_same])]
        simp only [M.pure_apply, Out.val.injEq, Prod.mk.injEq, true_and, HS.mk.injEq, and_true]
        have hdrop : List.drop data.length (List.replicate data.length (none : Option Byte)) = [] := by
          simp
        rw [hdrop, List.append_nil]
        funext x
        simp only [m', Mem.set]
        by_cases hxp : x = p
        · have : x ≠ d := by rintro rfl; exact hdp hxp
          simp [hxp, Ne.symm hdp]
        · by_cases hxd : x = d <;> simp [hxp, hxd, hdp]
      · simp only [In]
        exact ⟨Mem.set_same _ _ _, by simp only [m']; rw [Mem.set_ne hdp, Mem.set_same]⟩
      · simp [Node.blocks, Ne.symm hdp]
      · simp [Node.blocks, Ne.symm hd1, Ne.symm h1]
      · intro x hx
        simp only [Node.blocks, List.mem_cons, List.not_mem_nil, or_false] at hx
        rcases hx with rfl | rfl
        · exact h2
        · exact hd2
      · intro x hx
        simp only [Node.blocks, List.mem_cons, List.not_mem_nil, or_false, not_or] at hx
        simp only [m']
        rw [Mem.set_ne hx.1, Mem.set_ne hx.2]

/-! ### Adding -/

theorem growSize_run {e : Env} {s : HS} {par q : Addr} {g c : Node} (hin : In s.mem par g)
    (hnd : g.blocks.Nodup) (hc : In s.mem q c) (h0 : s.mem 0 = none) :
    (∃ z m', incrementChunkSize e g.chunk.size c.chunk.size = .val z ∧
      growSize e g.addr c.addr s = .val ((), ⟨m', s.tick, s.rs⟩) ∧ m' 0 = none ∧
      In m' par (Node.setSize z g) ∧ ∀ x, x ≠ g.addr → m' x = s.mem x) ∨
    ∃ u, incrementChunkSize e g.chunk.size c.chunk.size = .ub u ∧
      growSize e g.addr c.addr s = .ub u := by
  obtain ⟨b, hb, hh⟩ := hin.hdr
  obtain ⟨bc, hbc, hhc⟩ := hc.hdr
  have hz := hin.ne_zero h0 g.addr_mem
  simp only [growSize, M.bind_apply, getHdr_eq hb hh, getHdr_eq hbc hhc, M.ofOut]
  cases hi : incrementChunkSize e g.chunk.size c.chunk.size with
  | val z =>
    left
    refine ⟨z, _, rfl, updHdr_eq hb hh, ?_, In.setSize hin hnd hb hh, fun x hx => Mem.set_ne hx⟩
    rw [Mem.set_ne (Ne.symm hz), h0]
  | ub u => exact .inr ⟨u, rfl, rfl⟩
  | loop =>
    exfalso
    simp only [incrementChunkSize, addInt] at hi
    split at hi
    · simp only [Out.val_bind] at hi
      split at hi
      · split at hi <;> cases hi
      · cases hi
    · cases hi

@[simp] theorem setSize_blocks (z : Int) (t : Node) : (Node.setSize z t).blocks = t.blocks := by
  cases t <;> rfl

@[simp] theorem setSize_addr (z : Int) (t : Node) : (Node.setSize z t).addr = t.addr := by
  cases t <;> rfl

@[simp] theorem attach_addr (a : Addr) (c t : Node) : (Node.attach a c t).addr = t.addr := by
  cases t <;> rfl

@[simp] theorem attachProp_addr (a : Addr) (c t : Node) : (Node.attachProp a c t).addr = t.addr := by
  cases t <;> rfl

@[simp] theorem attach_size (a : Addr) (c t : Node) :
    (Node.attach a c t).chunk.size = t.chunk.size := by
  cases t <;> rfl

@[simp] theorem attachProp_size (a : Addr) (c t : Node) :
    (Node.attachProp a c t).chunk.size = t.chunk.size := by
  cases t <;> rfl

/-- Setting the size of a group that was extended. -/
theorem grown {e : Env} {s : HS} {par q : Addr} {g c : Node} {bs : List Addr} (hin : In s.mem par g)
    (hnd : g.blocks.Nodup) (hc : In s.mem q c) (h0 : s.mem 0 = none) {m : Mem}
    (hadds : ∀ m₀, Adds m₀ m bs → Adds m₀ s.mem g.blocks) :
    (∃ z m', incrementChunkSize e g.chunk.size c.chunk.size = .val z ∧
      growSize e g.addr c.addr s = .val ((), ⟨m', s.tick, s.rs⟩) ∧ m' 0 = none ∧
      In m' par (Node.setSize z g) ∧ (Node.setSize z g).blocks.Nodup ∧
      ∀ m₀, Adds m₀ m bs → Adds m₀ m' (Node.setSize z g).blocks) ∨
    ∃ u, incrementChunkSize e g.chunk.size c.chunk.size = .ub u ∧
      growSize e g.addr c.addr s = .ub u := by
  rcases growSize_run (e := e) hin hnd hc h0 with ⟨z, m', h1, h2, h3, h4, h5⟩ | h
  · refine .inl ⟨z, m', h1, h2, h3, h4, by simpa using hnd, fun m₀ hm => ?_⟩
    have := hadds m₀ hm
    rw [setSize_blocks]
    refine ⟨this.1, fun x hx => ?_⟩
    rw [h5 x (fun e => hx (e ▸ g.addr_mem)), this.2 x hx]
  · exact .inr h

/-- `IFF_addToGroup`: the array cannot be grown, or the size overflows, or the memory holds the group
with one more member and the new size. -/
theorem add_spec {A : Alloc} {e : Env} {s : HS} {par q : Addr} {g c : Node} (hg : Node.IsGroup g)
    (hin : In s.mem par g) (hc : In s.mem q c) (hnd : (g.blocks ++ c.blocks).Nodup)
    (h0 : s.mem 0 = none) :
    ((Roomy s.mem → ¬ ArraysOk A) ∧ addToGroup A e g.addr c.addr s = .ub .nullDeref) ∨
    (∃ u, incrementChunkSize e g.chunk.size c.chunk.size = .ub u ∧
      addToGroup A e g.addr c.addr s = .ub u) ∨
    ∃ a z m', incrementChunkSize e g.chunk.size c.chunk.size = .val z ∧
      addToGroup A e g.addr c.addr s = .val ((), ⟨m', s.tick + 1, s.rs⟩) ∧ m' 0 = none ∧
      In m' par (Node.setSize z (Node.attach a c g)) ∧
      (Node.setSize z (Node.attach a c g)).blocks.Nodup ∧
      ∀ m₀, Adds m₀ s.mem (g.blocks ++ c.blocks) →
        Adds m₀ m' (Node.setSize z (Node.attach a c g)).blocks := by
  rcases attach_spec (A := A) hg hin hc hnd h0 with ⟨h1, h2⟩ | ⟨a, m', h1, h2, h3, h4, h5⟩
  · left
    exact ⟨h1, by simp only [addToGroup, M.bind_apply, h2]⟩
  · right
    have hc' : In m' g.addr c := by
      cases g with
      | raw => exact hg.elim
      | ext => exact hg.elim
      | grp =>
        simp only [Node.attach, In] at h3
        exact inAll_iff.mp h3.2.2 c (by simp)
      | lst =>
        simp only [Node.attach, In] at h3
        exact inAll_iff.mp h3.2.2.2.1 c (by simp)
    have hrun : addToGroup A e g.addr c.addr s =
        growSize e (Node.attach a c g).addr c.addr ⟨m', s.tick + 1, s.rs⟩ := by
      simp only [addToGroup, M.bind_apply, h1, attach_addr]
    rcases grown (e := e) (s := ⟨m', s.tick + 1, s.rs⟩) h3 h4 hc' h2 h5
      with ⟨z, m2, k1, k2, k3, k4, k5, k6⟩ | ⟨u, k1, k2⟩
    · rw [attach_size] at k1
      exact .inr ⟨a, z, m2, k1, by rw [hrun, k2], k3, k4, k5, k6⟩
    · rw [attach_size] at k1
      exact .inl ⟨u, k1, by rw [hrun, k2]⟩

/-- `IFF_addPropToList`. -/
theorem addProp_spec {A : Alloc} {e : Env} {s : HS} {par q : Addr} {g c : Node} (hg : Node.IsList g)
    (hin : In s.mem par g) (hc : In s.mem q c) (hnd : (g.blocks ++ c.blocks).Nodup)
    (h0 : s.mem 0 = none) :
    ((Roomy s.mem → ¬ ArraysOk A) ∧ addPropToList A e g.addr c.addr s = .ub .nullDeref) ∨
    (∃ u, incrementChunkSize e g.chunk.size c.chunk.size = .ub u ∧
      addPropToList A e g.addr c.addr s = .ub u) ∨
    ∃ a z m', incrementChunkSize e g.chunk.size c.chunk.size = .val z ∧
      addPropToList A e g.addr c.addr s = .val ((), ⟨m', s.tick + 1, s.rs⟩) ∧ m' 0 = none ∧
      In m' par (Node.setSize z (Node.attachProp a c g)) ∧
      (Node.setSize z (Node.attachProp a c g)).blocks.Nodup ∧
      ∀ m₀, Adds m₀ s.mem (g.blocks ++ c.blocks) →
        Adds m₀ m' (Node.setSize z (Node.attachProp a c g)).blocks := by
  rcases attachProp_spec (A := A) hg hin hc hnd h0 with ⟨h1, h2⟩ | ⟨a, m', h1, h2, h3, h4, h5⟩
  · left
    exact ⟨h1, by simp only [addPropToList, M.bind_apply, h2]⟩
  · right
    have hc' : In m' g.addr c := by
      cases g with
      | raw => exact hg.elim
      | ext => exact hg.elim
      | grp => exact hg.elim
      | lst =>
        simp only [Node.attachProp, In] at h3
        exact inAll_iff.mp h3.2.2.2.2 c (by simp)
    have hrun : addPropToList A e g.addr c.addr s =
        growSize e (Node.attachProp a c g).addr c.addr ⟨m', s.tick + 1, s.rs⟩ := by
      simp only [addPropToList, M.bind_apply, h1, attachProp_addr]
    rcases grown (e := e) (s := ⟨m', s.tick + 1, s.rs⟩) h3 h4 hc' h2 h5
      with ⟨z, m2, k1, k2, k3, k4, k5, k6⟩ | ⟨u, k1, k2⟩
    · rw [attachProp_size] at k1
      exact .inr ⟨a, z, m2, k1, by rw [hrun, k2], k3, k4, k5, k6⟩
    · rw [attachProp_size] at k1
      exact .inl ⟨u, k1, by rw [hrun, k2]⟩

/-! ### Contents types -/

/-- The type of a group. -/
def Node.ty? : Node → Option ID
  | .grp _ _ _ _ ty _ => some ty
  | .lst _ _ _ _ _ ty _ _ => some ty
  | _ => none

/-- The group with another type. -/
def Node.setTy (ty : ID) : Node → Node
  | .grp a arr id size _ subs => .grp a arr id size ty subs
  | .lst a arr parr id size _ subs props => .lst a arr parr id size ty subs props
  | t => t

@[simp] theorem setTy_blocks (ty : ID) (t : Node) : (Node.setTy ty t).blocks = t.blocks := by
  cases t <;> rfl

@[simp] theorem setTy_addr (ty : ID) (t : Node) : (Node.setTy ty t).addr = t.addr := by
  cases t <;> rfl

theorem setTy_isGroup {ty : ID} {t : Node} (h : Node.IsGroup t) : Node.IsGroup (Node.setTy ty t) := by
  cases t <;> first | exact h.elim | trivial

/-- Changing the type in memory. -/
theorem In.setTy {m : Mem} {t : Node} {par : Addr} {b : Block} {g : Grp} {ty : ID}
    (h : In m par t) (hnd : t.blocks.Nodup) (hb : m t.addr = some b) (hg : b.grp? = some g) :
    In (m.set t.addr (some (b.setGrp { g with ty := ty }))) par (Node.setTy ty t) := by
  cases t with
  | raw a d id size data =>
    simp only [In, Node.addr] at h hb
    rw [h.1] at hb; cases hb; cases hg
  | ext a id size vals =>
    simp only [In, Node.addr] at h hb
    rw [h] at hb; cases hb; cases hg
  | grp a arr id size ty' subs =>
    simp only [In, Node.addr, Node.setTy] at h hb ⊢
    rw [h.1] at hb; cases hb; cases hg
    simp only [Node.blocks, List.cons_append] at hnd
    refine ⟨Mem.set_same _ _ _, h.2.1.frame fun h0 => ?_, h.2.2.frame fun x hx => ?_⟩
    · exact Mem.set_ne (rest_ne hnd arr (by simp [h0]))
    · exact Mem.set_ne (rest_ne hnd x (by simp [hx]))
  | lst a arr parr id size ty' subs props =>
    simp only [In, Node.addr, Node.setTy] at h hb ⊢
    rw [h.1] at hb; cases hb; cases hg
    simp only [Node.blocks, List.cons_append] at hnd
    refine ⟨Mem.set_same _ _ _, h.2.1.frame fun h0 => ?_, h.2.2.1.frame fun h0 => ?_,
      h.2.2.2.1.frame fun x hx => ?_, h.2.2.2.2.frame fun x hx => ?_⟩
    · exact Mem.set_ne (rest_ne hnd arr (by simp [h0]))
    · exact Mem.set_ne (rest_ne hnd parr (by simp [h0]))
    · exact Mem.set_ne (rest_ne hnd x (by simp [hx]))
    · exact Mem.set_ne (rest_ne hnd x (by simp [hx]))

/-- `updateContentsType`: undefined if the chunk has the ID of a group but is none, otherwise only the
type changes. -/
theorem updateContents_spec {s : HS} {par q : Addr} {g c : Node} (hg : Node.IsGroup g)
    (hin : In s.mem par g) (hc : In s.mem q c) (hnd : g.blocks.Nodup) (h0 : s.mem 0 = none) :
    (∃ u, Iff.updateContentsType g.chunk c.chunk = .ub u ∧
      updateContentsType g.addr c.addr s = .ub u) ∨
    ∃ ty m', Iff.updateContentsType g.chunk c.chunk = .val (Node.setTy ty g).chunk ∧
      updateContentsType g.addr c.addr s = .val ((), ⟨m', s.tick, s.rs⟩) ∧ m' 0 = none ∧
      In m' par (Node.setTy ty g) ∧ ∀ x, x ≠ g.addr → m' x = s.mem x := by
  obtain ⟨bc, hbc, hhc⟩ := hc.hdr
  have hz := hin.ne_zero h0 g.addr_mem
  simp only [updateContentsType, M.bind_apply, getHdr_eq hbc hhc, Iff.updateContentsType]
  by_cases hv : checkValidCATSubChunkId c.chunk.id = true
  · simp only [hv, if_true]
    cases hcg : Node.ty? c with
    | none =>
      left
      refine ⟨.wrongStruct, ?_, ?_⟩
      · cases c <;> simp [Node.ty?] at hcg <;> rfl
      · have : getGrp c.addr s = .ub .wrongStruct := by
          cases c <;> simp [Node.ty?] at hcg <;> simp only [In, Node.addr] at hc hbc ⊢
          · simp only [getGrp, M.bind_apply, load_eq hc.1]; rfl
          · simp only [getGrp, M.bind_apply, load_eq hc]; rfl
        simp only [M.bind_apply, this]
    | some ct =>
      right
      obtain ⟨gc, hgc, hgct⟩ : ∃ gc, bc.grp? = some gc ∧ gc.ty = ct := by
        cases c <;> simp [Node.ty?] at hcg <;> simp only [In, Node.addr] at hc hbc
        · rw [hc.1] at hbc; cases hbc; exact ⟨_, rfl, hcg⟩
        · rw [hc.1] at hbc; cases hbc; exact ⟨_, rfl, hcg⟩
      have hgt : c.chunk.groupType = .val ct := by
        cases c <;> simp [Node.ty?] at hcg <;> simp [Node.chunk, Chunk.groupType, hcg]
      simp only [M.bind_apply, getGrp_eq hbc hgc, hgct, hgt, Out.val_bind]
      have key : ∀ (b : Block) (gg : Grp), s.mem g.addr = some b → b.grp? = some gg →
          ∃ m', updGrp g.addr (fun gg => { gg with ty := newContentsType (gg.len = 0) gg.ty ct }) s =
            .val ((), ⟨m', s.tick, s.rs⟩) ∧ m' 0 = none ∧
            In m' par (Node.setTy (newContentsType (gg.len = 0) gg.ty ct) g) ∧
            ∀ x, x ≠ g.addr → m' x = s.mem x := by
        intro b gg hb hgg
        refine ⟨_, updGrp_eq hb hgg, ?_, In.setTy hin hnd hb hgg, fun x hx => Mem.set_ne hx⟩
        rw [Mem.set_ne (Ne.symm hz), h0]
      have hemp : ∀ (subs : List Node), decide (subs.length = 0) = (Node.chunks subs).isEmpty := by
        intro subs; cases subs <;> rfl
      cases g with
      | raw => exact hg.elim
      | ext => exact hg.elim
      | grp a arr id size ty subs =>
        obtain ⟨m', h1, h2, h3, h4⟩ := key _ _ (by simp only [In] at hin; exact hin.1) rfl
        refine ⟨_, m', ?_, h1, h2, h3, h4⟩
        simp only [Node.chunk, Node.setTy, hemp]
      | lst a arr parr id size ty subs props =>
        obtain ⟨m', h1, h2, h3, h4⟩ := key _ _ (by simp only [In] at hin; exact hin.1) rfl
        refine ⟨_, m', ?_, h1, h2, h3, h4⟩
        simp only [Node.chunk, Node.setTy, hemp]
  · right
    simp only [hv, if_false, Bool.false_eq_true, M.pure_apply]
    obtain ⟨ty, hty⟩ : ∃ ty, Node.setTy ty g = g := by
      cases g <;> first | exact hg.elim | exact ⟨_, rfl⟩
    exact ⟨ty, s.mem, by rw [hty], rfl, h0, by rw [hty]; exact hin, fun _ _ => rfl⟩

/-! ### Sizes change, links do not -/

/-- The memories differ at most in declared sizes. -/
def SameButSizes (m m' : Mem) : Prop :=
  ∀ x, m' x = m x ∨ ∃ b h z, m x = some b ∧ b.hdr? = some h ∧
    m' x = some (b.setHdr { h with size := z })

theorem SameButSizes.refl (m : Mem) : SameButSizes m m := fun _ => .inl rfl

theorem SameButSizes.trans {m1 m2 m3 : Mem} (h1 : SameButSizes m1 m2) (h2 : SameButSizes m2 m3) :
    SameButSizes m1 m3 := by
  intro x
  rcases h1 x with e1 | ⟨b, h, z, k1, k2, k3⟩
  · rcases h2 x with e2 | ⟨b, h, z, l1, l2, l3⟩
    · exact .inl (e2.trans e1)
    · exact .inr ⟨b, h, z, e1 ▸ l1, l2, l3⟩
  · rcases h2 x with e2 | ⟨b', h', z', l1, l2, l3⟩
    · exact .inr ⟨b, h, z, k1, k2, e2.trans k3⟩
    · rw [k3] at l1; cases l1
      rw [hdr_setHdr k2] at l2; cases l2
      exact .inr ⟨b, h, z', k1, k2, by rw [l3, setHdr_setHdr]⟩

/-- A computation that returns has changed at most the size of the chunk at `a`. -/
def Resizes (a : Addr) {α : Type} (x : M HS α) : Prop :=
  ∀ s r s', x s = .val (r, s') → SameButSizes s.mem s'.mem ∧ ∀ y, y ≠ a → s'.mem y = s.mem y

theorem Resizes.bind {a : Addr} {α β : Type} {x : M HS α} {f : α → M HS β} (hx : Resizes a x)
    (hf : ∀ r, Resizes a (f r)) : Resizes a (x >>= f) := by
  intro s r s' h
  rw [M.bind_apply] at h
  cases hxs : x s with
  | val y =>
    rw [hxs] at h
    have h1 := hx s _ _ hxs
    have h2 := hf _ _ _ _ h
    exact ⟨h1.1.trans h2.1, fun y hy => (h2.2 y hy).trans (h1.2 y hy)⟩
  | ub u => rw [hxs] at h; cases h
  | loop => rw [hxs] at h; cases h

theorem Resizes.pure {a : Addr} {α : Type} (v : α) : Resizes a (Pure.pure v : M HS α) := by
  intro s r s' h; cases h; exact ⟨.refl _, fun _ _ => rfl⟩

theorem Resizes.ub {a : Addr} {α : Type} (u : UB) : Resizes a (M.ub u : M HS α) := by
  intro s r s' h; cases h

theorem Resizes.ofOut {a : Addr} {α : Type} (o : Out α) : Resizes a (M.ofOut o : M HS α) := by
  intro s r s' h
  cases o <;> cases h
  exact ⟨.refl _, fun _ _ => rfl⟩

theorem Resizes.load {a : Addr} (p : Addr) : Resizes a (load p) := by
  intro s r s' h
  simp only [Heap.load] at h
  split at h <;> cases h
  exact ⟨.refl _, fun _ _ => rfl⟩

theorem Resizes.getHdr {a : Addr} (p : Addr) : Resizes a (getHdr p) := by
  refine .bind (.load p) fun b => ?_
  cases b.hdr? with
  | none => exact .ub _
  | some h => exact .pure _

theorem Resizes.getGrp {a : Addr} (p : Addr) : Resizes a (getGrp p) := by
  refine .bind (.load p) fun b => ?_
  cases b.grp? with
  | none => exact .ub _
  | some h => exact .pure _

theorem Resizes.getLst {a : Addr} (p : Addr) : Resizes a (getLst p) := by
  refine .bind (.load p) fun b => ?_
  cases b.lst? with
  | none => exact .ub _
  | some h => exact .pure _

theorem Resizes.getPtr {a : Addr} (p : Addr) (i : Nat) : Resizes a (getPtr p i) := by
  refine .bind (.load p) fun b => ?_
  split
  · split
    · exact .pure _
    · exact .ub _
  · exact .ub _

theorem Resizes.setSize (p : Addr) (z : Int) :
    Resizes p (updHdr p fun h => { h with size := z }) := by
  intro s r s' h
  cases hb : s.mem p with
  | none => simp only [updHdr, M.bind_apply, Heap.load, hb] at h; cases h
  | some b =>
    cases hh : b.hdr? with
    | none => simp only [updHdr, M.bind_apply, load_eq hb, hh] at h; cases h
    | some hd =>
      rw [updHdr_eq hb hh] at h
      cases h
      refine ⟨fun x => ?_, fun y hy => Mem.set_ne hy⟩
      by_cases hx : x = p
      · subst hx; exact .inr ⟨b, hd, z, hb, hh, Mem.set_same _ _ _⟩
      · exact .inl (Mem.set_ne hx)

theorem resizes_sumMembers {e : Env} {p : Addr} : ∀ (k i : Nat), Resizes p (sumMembers e p k i)
  | 0, _ => .pure _
  | k + 1, i => .bind (.getHdr p) fun _ => .bind (.getGrp p) fun _ => .bind (.getPtr _ _) fun _ =>
      .bind (.getHdr _) fun _ => .bind (.ofOut _) fun _ => .bind (.setSize _ _) fun _ =>
      resizes_sumMembers k (i + 1)

theorem resizes_sumProps {e : Env} {p : Addr} : ∀ (k i : Nat), Resizes p (sumProps e p k i)
  | 0, _ => .pure _
  | k + 1, i => .bind (.getHdr p) fun _ => .bind (.getLst p) fun _ => .bind (.getPtr _ _) fun _ =>
      .bind (.getHdr _) fun _ => .bind (.ofOut _) fun _ => .bind (.setSize _ _) fun _ =>
      resizes_sumProps k (i + 1)

theorem resizes_group {e : Env} {p : Addr} : Resizes p (updateGroupSizes e p) :=
  .bind (.setSize _ _) fun _ => .bind (.getGrp _) fun _ => resizes_sumMembers _ _

theorem resizes_own {e : Env} {p : Addr} : Resizes p (updateOwnSize e p) := by
  refine .bind (.getHdr p) fun h => ?_
  split
  · exact resizes_group
  · split
    · exact resizes_group
    · split
      · exact resizes_group
      · split
        · exact .bind resizes_group fun _ => .bind (.getLst _) fun _ => resizes_sumProps _ _
        · exact .pure _

theorem SameButSizes.parentIs {m m' : Mem} (h : SameButSizes m m') {c p : Addr}
    (hp : ParentIs m' c p) : ParentIs m c p := by
  obtain ⟨b, hd, h1, h2, h3⟩ := hp
  rcases h c with e | ⟨b', h', z, k1, k2, k3⟩
  · exact ⟨b, hd, e ▸ h1, h2, h3⟩
  · rw [k3] at h1; cases h1
    rw [hdr_setHdr k2] at h2; cases h2
    exact ⟨b', h', k1, k2, h3⟩

/-- `IFF_updateChunkSizes` changes only sizes, and only in a set of chunks that contains the chunk and
all its ancestors. -/
theorem resizes_update {e : Env} (P : Addr → Prop) : ∀ (n : Nat) (p : Addr) (s : HS) (r : Unit) (s' : HS),
    (∀ x q, P x → ParentIs s.mem x q → q ≠ 0 → P q) → P p → updateSizes e n p s = .val (r, s') →
    SameButSizes s.mem s'.mem ∧ ∀ y, ¬ P y → s'.mem y = s.mem y
  | 0, _, _, _, _, _, _, h => by cases h
  | n + 1, p, s, r, s', hP, hp, h => by
    simp only [updateSizes, M.bind_apply] at h
    cases ho : updateOwnSize e p s with
    | ub u => rw [ho] at h; cases h
    | loop => rw [ho] at h; cases h
    | val y =>
      obtain ⟨u, s1⟩ := y
      rw [ho] at h
      have h1 := resizes_own s u s1 ho
      have h1' : ∀ y, ¬ P y → s1.mem y = s.mem y := fun y hy => h1.2 y fun e => hy (e ▸ hp)
      simp only [getHdr, M.bind_apply] at h
      cases hb : s1.mem p with
      | none => simp only [Heap.load, hb] at h; cases h
      | some b =>
        rw [load_eq hb] at h
        cases hh : b.hdr? with
        | none => simp only [hh] at h; cases h
        | some hd =>
          simp only [hh, M.pure_apply] at h
          split at h
          · rename_i hne
            have hpar : ParentIs s1.mem p hd.parent := ⟨b, hd, hb, hh, rfl⟩
            have h2 := resizes_update P n hd.parent s1 r s'
              (fun x q hx hq hq0 => hP x q hx (h1.1.parentIs hq) hq0)
              (hP p _ hp (h1.1.parentIs hpar) hne) h
            exact ⟨h1.1.trans h2.1, fun y hy => (h2.2 y hy).trans (h1' y hy)⟩
          · cases h
            exact ⟨h1.1, h1'⟩

/-- A hierarchy whose sizes change is still in memory, with the same blocks. -/
theorem SameButSizes.keeps {m m' : Mem} (hs : SameButSizes m m') : ∀ {t : Node} {par : Addr},
    In m par t → ∃ t', In m' par t' ∧ t'.blocks = t.blocks ∧ t'.addr = t.addr ∧
      unsized t'.chunk = unsized t.chunk := by
  have keep : ∀ {x : Addr} {b : Block}, m x = some b → b.hdr? = none → m' x = some b := by
    intro x b hb hh
    rcases hs x with e | ⟨b', h, z, h1, h2, _⟩
    · rw [e, hb]
    · rw [hb] at h1; cases h1; rw [hh] at h2; cases h2
  have arr : ∀ {a : Addr} {ps : List Addr}, ArrayIn m a ps → ArrayIn m' a ps := by
    rintro a ps (h | ⟨h1, h2, h3⟩)
    · exact .inl h
    · exact .inr ⟨h1, h2, keep h3 rfl⟩
  have hdr : ∀ {x : Addr} {b : Block} {h : Hdr}, m x = some b → b.hdr? = some h →
      ∃ z, m' x = some (b.setHdr { h with size := z }) := by
    intro x b h hb hh
    rcases hs x with e | ⟨b', h', z, h1, h2, h3⟩
    · exact ⟨h.size, by rw [e, hb, setHdr_self hh]⟩
    · rw [hb] at h1; cases h1; rw [hh] at h2; cases h2
      exact ⟨z, h3⟩
  have all : ∀ (ts : List Node), (∀ t ∈ ts, ∀ {par : Addr}, In m par t →
      ∃ t', In m' par t' ∧ t'.blocks = t.blocks ∧ t'.addr = t.addr ∧
        unsized t'.chunk = unsized t.chunk) → ∀ {par : Addr}, InAll m par ts →
      ∃ ts', InAll m' par ts' ∧ Node.blocksAll ts' = Node.blocksAll ts ∧
        ts'.map Node.addr = ts.map Node.addr ∧ ts'.length = ts.length ∧
        unsizedAll (Node.chunks ts') = unsizedAll (Node.chunks ts) := by
    intro ts
    induction ts with
    | nil => intro _ par _; exact ⟨[], by simp, rfl, rfl, rfl, rfl⟩
    | cons t ts ih =>
      intro h par hin
      rw [inAll_cons] at hin
      obtain ⟨t', h1, h2, h3, h4⟩ := h t (by simp) hin.1
      obtain ⟨ts', k1, k2, k3, k4, k5⟩ := ih (fun u hu => h u (by simp [hu])) hin.2
      exact ⟨t' :: ts', by rw [inAll_cons]; exact ⟨h1, k1⟩, by simp [h2, k2], by simp [h3, k3],
        by simp [k4], by simp [Node.chunks, unsizedAll, h4, k5]⟩
  intro t
  induction t using Node.ind with
  | raw a d id size data =>
    intro par hin
    simp only [In] at hin
    obtain ⟨z, hz⟩ := hdr hin.1 rfl
    exact ⟨.raw a d id z data, by simp only [In]; exact ⟨hz, keep hin.2 rfl⟩, rfl, rfl, rfl⟩
  | ext a id size vals =>
    intro par hin
    simp only [In] at hin
    obtain ⟨z, hz⟩ := hdr hin rfl
    exact ⟨.ext a id z vals, by simp only [In]; exact hz, rfl, rfl, rfl⟩
  | grp a ar id size ty subs ih =>
    intro par hin
    simp only [In] at hin
    obtain ⟨z, hz⟩ := hdr hin.1 rfl
    obtain ⟨subs', h1, h2, h3, h4, h5⟩ := all subs (fun t ht par h => ih t ht h) hin.2.2
    refine ⟨.grp a ar id z ty subs', ?_, by simp [Node.blocks, h2], rfl,
      by simp [Node.chunk, unsized, h5]⟩
    simp only [In, h3, h4]
    exact ⟨hz, arr hin.2.1, h1⟩
  | lst a ar par' id size ty subs props ih ih2 =>
    intro par hin
    simp only [In] at hin
    obtain ⟨z, hz⟩ := hdr hin.1 rfl
    obtain ⟨subs', h1, h2, h3, h4, h5⟩ := all subs (fun t ht par h => ih t ht h) hin.2.2.2.1
    obtain ⟨props', k1, k2, k3, k4, k5⟩ := all props (fun t ht par h => ih2 t ht h) hin.2.2.2.2
    refine ⟨.lst a ar par' id z ty subs' props', ?_, by simp [Node.blocks, h2, k2], rfl,
      by simp [Node.chunk, unsized, h5, k5]⟩
    simp only [In, h3, h4, k3, k4]
    exact ⟨hz, arr hin.2.1, arr hin.2.2.1, h1, k1⟩

/-! ### Positions for additions -/

theorem perm_two {ts : List Node} {t u : Node} (ht : t ∈ ts) (hu : u ∈ ts) (hne : u ≠ t) :
    ∃ rest, ts.Perm (t :: u :: rest) := by
  obtain ⟨l1, l2, rfl⟩ := List.append_of_mem ht
  have h1 : (l1 ++ t :: l2).Perm (t :: (l1 ++ l2)) := List.perm_middle
  have hu2 : u ∈ l1 ++ l2 := by
    rcases List.mem_append.mp hu with h | h
    · exact List.mem_append_left _ h
    · rcases List.mem_cons.mp h with h | h
      · exact absurd h hne
      · exact List.mem_append_right _ h
  obtain ⟨k1, k2, hk⟩ := List.append_of_mem hu2
  refine ⟨k1 ++ k2, h1.trans ?_⟩
  rw [hk]
  exact .cons _ List.perm_middle

theorem isGroup_of {m : Mem} {par : Addr} {t : Node} {b : Block} {g : Grp} (h : In m par t)
    (hb : m t.addr = some b) (hg : b.grp? = some g) : Node.IsGroup t := by
  cases t <;> simp only [In, Node.addr] at h hb
  · rw [h.1] at hb; cases hb; cases hg
  · trivial
  · trivial
  · rw [h] at hb; cases hb; cases hg

theorem isList_of {m : Mem} {par : Addr} {t : Node} {b : Block} {g : Lst} (h : In m par t)
    (hb : m t.addr = some b) (hg : b.lst? = some g) : Node.IsList t := by
  cases t <;> simp only [In, Node.addr] at h hb
  · rw [h.1] at hb; cases hb; cases hg
  · rw [h.1] at hb; cases hb; cases hg
  · trivial
  · rw [h] at hb; cases hb; cases hg

/-- A chunk without a parent is a whole hierarchy. -/
theorem forest_root {m₀ m : Mem} {ts : List Node} (hf : Forest m₀ m ts) {c : Addr}
    (ho : Own m₀ c) (hp : ParentIs m c 0) : ∃ d ∈ ts, d.addr = c := by
  obtain ⟨b, h, hb, hh, h0⟩ := hp
  obtain ⟨fs, d, h1, h2, h3, h4, h5⟩ := hf.locate ho hb hh
  cases fs with
  | nil => exact ⟨d, h1, h2⟩
  | cons f fs =>
    exfalso
    simp only [pathParent] at h3 h5
    have : f.addr ≠ 0 := by
      have hin := hf.isIn _ h1
      refine hin.ne_zero hf.null ?_
      refine (plug_blocks (f :: fs) d).mem_iff.mpr ?_
      simp [pathBlocks, f.addr_mem]
    exact this (h5.symm.trans h0)

/-- Where an addition takes place. -/
theorem forest_canAdd {m₀ m : Mem} {ts : List Node} (hf : Forest m₀ m ts) {p c : Addr}
    (h : CanAdd m₀ m p c) : ∃ fs g d rest, ts.Perm (plug fs g :: d :: rest) ∧ g.addr = p ∧
      d.addr = c ∧ Node.IsGroup g ∧ In m (pathParent 0 fs) g ∧ In m 0 d ∧
      (g.blocks ++ d.blocks).Nodup := by
  obtain ⟨ho, hoc, ⟨b, gr, hb, hg⟩, hpar, hup⟩ := h
  obtain ⟨hd, hh⟩ : ∃ h, b.hdr? = some h := by
    cases b <;> simp_all [Block.grp?, Block.hdr?]
  obtain ⟨fs, g, h1, h2, h3, h4, _⟩ := hf.locate ho hb hh
  obtain ⟨d, hd1, hd2⟩ := forest_root hf hoc hpar
  have hne : d ≠ plug fs g := by
    rintro rfl
    apply hup
    rw [← h2, ← hd2]
    exact up_root (hf.isIn _ h1)
  obtain ⟨rest, hperm⟩ := perm_two h1 hd1 hne
  refine ⟨fs, g, d, rest, hperm, h2, hd2, isGroup_of h3 (h2 ▸ hb) hg, h3, hf.isIn _ hd1, ?_⟩
  have hnd := (hf.perm hperm).distinct
  rw [Node.blocksAll_cons, Node.blocksAll_cons] at hnd
  have := ((plug_blocks fs g).append_right _).nodup_iff.mp hnd
  rw [List.append_assoc, List.nodup_append] at this
  have h5 := this.2.1
  rw [← List.append_assoc, List.nodup_append] at h5
  exact h5.1

/-! ### Values -/

theorem add_value {e : Env} {g c : Node} {a : Addr} {z : Int} (hg : Node.IsGroup g)
    (h : incrementChunkSize e g.chunk.size c.chunk.size = .val z) :
    Iff.addToGroup e g.chunk c.chunk = .val (Node.setSize z (Node.attach a c g)).chunk := by
  cases g with
  | raw => exact hg.elim
  | ext => exact hg.elim
  | grp a' arr id size ty subs =>
    have h : incrementChunkSize e size c.chunk.size = .val z := h
    simp [Node.chunk, Iff.addToGroup, h, Node.setSize, Node.attach, Node.chunks_eq]
  | lst a' arr parr id size ty subs props =>
    have h : incrementChunkSize e size c.chunk.size = .val z := h
    simp [Node.chunk, Iff.addToGroup, h, Node.setSize, Node.attach, Node.chunks_eq]

theorem addProp_value {e : Env} {g : Node} {a a' arr : Addr} {id : ID} {size : Int} {ty : ID}
    {subs : List Node} {z : Int} (hg : Node.IsList g)
    (h : incrementChunkSize e g.chunk.size size = .val z) :
    Iff.addPropToList e g.chunk (Node.grp a' arr id size ty subs).chunk =
      .val (Node.setSize z (Node.attachProp a (.grp a' arr id size ty subs) g)).chunk := by
  cases g with
  | raw => exact hg.elim
  | ext => exact hg.elim
  | grp => exact hg.elim
  | lst =>
    simp only [Node.chunk, Chunk.size] at h
    simp [Node.chunk, Iff.addPropToList, h, Node.setSize, Node.attachProp, Node.chunks_eq]

/-! ### Every allowed call keeps the application's part of the memory a set of hierarchies -/

theorem step_spec {A : Alloc} {e : Env} (he : 32 ≤ e.sizeBits) {m₀ : Mem} {s s' : HS} {r : Addr}
    {op : Op} {ts : List Node} (hf : Forest m₀ s.mem ts) (ha : Allowed m₀ s.mem op)
    (hr : op.run A e s = .val (r, s')) :
    ∃ ts', Forest m₀ s'.mem ts' ∧ Change e s.rs.log op r ts ts' := by
  have pure0 : ∀ {x : M HS Unit}, (do x; pure 0 : M HS Addr) s = .val (r, s') →
      r = 0 ∧ x s = .val ((), s') := by
    intro x h
    rw [M.bind_apply] at h
    cases hx : x s with
    | val y => rw [hx] at h; cases h; exact ⟨rfl, rfl⟩
    | ub u => rw [hx] at h; cases h
    | loop => rw [hx] at h; cases h
  cases op with
  | read reg bytes =>
    simp only [Op.run] at hr
    have hrel := readFd_rel (A := A) (e := { e with mallocOk := fun _ => true })
      (s := ⟨s.mem, s.tick, ⟨bytes, s.rs.log⟩⟩) ha (fun _ _ _ _ _ => rfl) hf.null
    rw [readFd_env, hr] at hrel
    rcases hrel.val_inv with ⟨rfl, hm, _⟩ | ⟨t, rfl, hz, hh, hr, hd, hY⟩
    · exact ⟨ts, by rw [hm]; exact hf, .none⟩
    · exact ⟨t :: ts, hf.new hh, .new ⟨hr, hd, _, hY⟩⟩
  | raw id data =>
    simp only [Op.run] at hr
    rcases newRaw_spec (A := A) (id := id) he ha hf.null with ⟨t', h, _⟩ | ⟨p, d, m', t', hp, h, hh⟩
    · rw [h] at hr; cases hr; exact ⟨ts, hf, .none⟩
    · rw [h] at hr; cases hr; exact ⟨_, hf.new hh, .new (t := .raw r d id data.length data) rfl⟩
  | group id ty =>
    simp only [Op.run] at hr
    rcases createGroup_spec (A := A) (id := id) (ty := ty) (s := s) with ⟨_, h⟩ | ⟨p, m', hp, h, hh⟩
    · rw [h] at hr; cases hr; exact ⟨ts, hf, .none⟩
    · rw [h] at hr; cases hr; exact ⟨_, hf.new hh, .new (t := .grp r 0 id 4 ty []) rfl⟩
  | list ty =>
    simp only [Op.run] at hr
    rcases createList_spec (A := A) (ty := ty) (s := s) with ⟨_, h⟩ | ⟨p, m', hp, h, hh⟩
    · rw [h] at hr; cases hr; exact ⟨ts, hf, .none⟩
    · rw [h] at hr; cases hr; exact ⟨_, hf.new hh, .new (t := .lst r 0 0 idLIST 4 ty [] []) rfl⟩
  | ext id size vals =>
    simp only [Op.run] at hr
    rcases createExt_spec (A := A) (id := id) (size := size) (vals := vals) (s := s)
      with ⟨_, h⟩ | ⟨p, m', hp, h, hh⟩
    · rw [h] at hr; cases hr; exact ⟨ts, hf, .none⟩
    · rw [h] at hr; cases hr; exact ⟨_, hf.new hh, .new (t := .ext r id size vals) rfl⟩
  | add p c =>
    obtain ⟨rfl, hx⟩ := pure0 hr
    obtain ⟨fs, g, d, rest, hperm, rfl, rfl, hg, hin, hind, hnd⟩ := forest_canAdd hf ha
    rcases add_spec (A := A) (e := e) hg hin hind hnd hf.null with ⟨_, h⟩ | ⟨u, _, h⟩ |
      ⟨a, z, m', h1, h2, h3, h4, h5, h6⟩
    · rw [h] at hx; cases hx
    · rw [h] at hx; cases hx
    · rw [h2] at hx; cases hx
      refine ⟨_, (hf.perm hperm).replace (cs := [d]) h3 h4 (by simp) h5 (fun m₁ hm => h6 m₁ ?_),
        .add hperm (by simp) (add_value hg h1)⟩
      simpa using hm
  | addProp p c =>
    obtain ⟨ha, ⟨b, l, hb, hl⟩, hd, ty, arr, len, hc⟩ := ha
    obtain ⟨rfl, hx⟩ := pure0 hr
    obtain ⟨fs, g, d, rest, hperm, rfl, rfl, hg, hin, hind, hnd⟩ := forest_canAdd hf ha
    have hlist := isList_of hin hb hl
    rcases addProp_spec (A := A) (e := e) hlist hin hind hnd hf.null with ⟨_, h⟩ | ⟨u, _, h⟩ |
      ⟨a, z, m', h1, h2, h3, h4, h5, h6⟩
    · rw [h] at hx; cases hx
    · rw [h] at hx; cases hx
    · rw [h2] at hx; cases hx
      refine ⟨_, (hf.perm hperm).replace (cs := [d]) h3 h4 (by simp) h5 (fun m₁ hm => h6 m₁ ?_),
        .addProp hperm (by simp) ?_⟩
      · simpa using hm
      · cases d <;> simp only [In, Node.addr] at hind hc
        · rw [hind.1] at hc; cases hc
        · exact addProp_value hlist h1
        · rw [hind.1] at hc; cases hc
        · rw [hind] at hc; cases hc
  | addAuto p c =>
    obtain ⟨rfl, hx⟩ := pure0 hr
    obtain ⟨fs, g, d, rest, hperm, rfl, rfl, hg, hin, hind, hnd⟩ := forest_canAdd hf ha
    have hnd' := hnd
    rw [List.nodup_append] at hnd'
    rcases updateContents_spec hg hin hind hnd'.1 hf.null with ⟨u, _, h⟩ | ⟨ty, m1, k1, k2, k3, k4, k5⟩
    · simp only [addAndUpdate, M.bind_apply, h] at hx; cases hx
    · simp only [addAndUpdate, M.bind_apply, k2] at hx
      have hd1 : In m1 0 d := hind.frame fun x hx => k5 x fun e =>
        hnd'.2.2 x (e ▸ g.addr_mem) x hx rfl
      rcases add_spec (A := A) (e := e) (s := ⟨m1, s.tick, s.rs⟩) (setTy_isGroup (ty := ty) hg) k4 hd1
        (by rw [setTy_blocks]; exact hnd) k3 with ⟨_, h⟩ | ⟨u, _, h⟩ |
        ⟨a, z, m', h1, h2, h3, h4, h5, h6⟩
      · rw [setTy_addr] at h; rw [h] at hx; cases hx
      · rw [setTy_addr] at h; rw [h] at hx; cases hx
      · rw [setTy_addr] at h2; rw [h2] at hx; cases hx
        refine ⟨_, (hf.perm hperm).replace (cs := [d]) h3 h4 (by simp) h5 (fun m₁ hm => h6 m₁ ?_),
          .addAuto hperm (by simp) ?_⟩
        · rw [setTy_blocks]
          have hm : Adds m₁ s.mem (g.blocks ++ d.blocks) := by simpa using hm
          refine ⟨hm.1, fun x hx => ?_⟩
          rw [← hm.2 x hx]
          refine k5 x fun e => hx (List.mem_append_left _ (e ▸ g.addr_mem))
        · simp only [Iff.addAndUpdate, k1, Out.val_bind]
          exact add_value (setTy_isGroup hg) h1
  | update n p =>
    obtain ⟨rfl, hx⟩ := pure0 hr
    have hpm : p ∈ Node.blocksAll ts := by
      by_cases hm : p ∈ Node.blocksAll ts
      · exact hm
      · exfalso
        have hp : s.mem p = none := (hf.adds.2 p hm).trans ha
        cases n with
        | zero => cases hx
        | succ n =>
          simp only [updateSizes, updateOwnSize, getHdr, M.bind_apply, load, hp] at hx
          cases hx
    have hclosed : ∀ x q, x ∈ Node.blocksAll ts → ParentIs s.mem x q → q ≠ 0 →
        q ∈ Node.blocksAll ts := by
      rintro x q hx ⟨b, h, hb, hh, rfl⟩ hq
      obtain ⟨fs, g, h1, _, _, _, h5⟩ := hf.locate (hf.adds.1 x hx) hb hh
      rw [h5] at hq ⊢
      cases fs with
      | nil => exact absurd rfl hq
      | cons f fs =>
        refine Node.mem_blocksAll.mpr ⟨_, h1, (plug_blocks (f :: fs) g).mem_iff.mpr ?_⟩
        simp [pathBlocks, pathParent, f.addr_mem]
    obtain ⟨hs, hframe⟩ := resizes_update (· ∈ Node.blocksAll ts) n p s _ _ hclosed hpm hx
    have hnull : s'.mem 0 = none := by
      rcases hs 0 with h | ⟨b, h, z, h1, _⟩
      · rw [h, hf.null]
      · rw [hf.null] at h1; cases h1
    have key : ∀ (us : List Node), (∀ t ∈ us, In s.mem 0 t) → ∃ us', (∀ t ∈ us', In s'.mem 0 t) ∧
        us'.map (fun t => (t.addr, t.blocks, unsized t.chunk)) =
          us.map (fun t => (t.addr, t.blocks, unsized t.chunk)) ∧
        Node.blocksAll us' = Node.blocksAll us := by
      intro us
      induction us with
      | nil => intro _; exact ⟨[], by simp, rfl, rfl⟩
      | cons u us ih =>
        intro h
        obtain ⟨u', h1, h2, h3, h4⟩ := hs.keeps (h u (by simp))
        obtain ⟨us', k1, k2, k3⟩ := ih fun t ht => h t (by simp [ht])
        refine ⟨u' :: us', ?_, by simp [h2, h3, h4, k2], by simp [h2, k3]⟩
        intro t ht
        rcases List.mem_cons.mp ht with rfl | ht
        · exact h1
        · exact k1 t ht
    obtain ⟨ts', h1, h2, h3⟩ := key ts hf.isIn
    refine ⟨ts', ⟨hnull, h1, h3 ▸ hf.distinct, by rw [h3]; exact hf.adds.1, ?_⟩, .update h2⟩
    intro x hx
    rw [h3] at hx
    rw [hframe x hx, hf.adds.2 x hx]
  | free reg n p =>
    obtain ⟨rfl, hx⟩ := pure0 hr
    obtain ⟨ho, t, h1, rfl, h3, h4⟩ := ha
    obtain ⟨d, hd, hda⟩ := forest_root hf ho h1.parentIs
    have hdt : t = d := In.unique t 0 0 d h1 (hf.isIn d hd) hda.symm
    subst hdt
    obtain ⟨l1, l2, rfl⟩ := List.append_of_mem hd
    have hperm : (l1 ++ t :: l2).Perm (t :: (l1 ++ l2)) := List.perm_middle
    have hf2 := hf.perm hperm
    have hnd := hf2.distinct
    rw [Node.blocksAll_cons, List.nodup_append] at hnd
    have := freeChunk_spec h1 hnd.1 hf.null h3 h4 s rfl
    rw [iffFree, this] at hx
    cases hx
    exact ⟨_, hf2.release, .free hperm⟩

end Iff.Heap
