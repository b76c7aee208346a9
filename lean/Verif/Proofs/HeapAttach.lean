import Verif.Proofs.HeapFree
/-
  Attaching a chunk to a group, and a PROP to a list.
-/
namespace Iff.Heap

open Spec

theorem Mem.set_comm {m : Mem} {a b : Addr} {x y} (h : a ≠ b) :
    (m.set a x).set b y = (m.set b y).set a x := by
  funext z; simp only [Mem.set]
  by_cases h1 : z = a <;> by_cases h2 : z = b <;> simp_all

theorem _root_.Iff.Spec.Roomy.set {m : Mem} {a : Addr} {x : Option Block} (h : Roomy m) :
    Roomy (m.set a x) := by
  obtain ⟨b, hb⟩ := h
  refine ⟨b + (a + 1), fun y hy => ?_⟩
  have h1 : y ≠ a := by
    rintro rfl
    exact absurd (Nat.le_trans (Nat.le_add_left (y + 1) b) hy) (Nat.not_succ_le_self _)
  rw [Mem.set_ne h1, hb y (Nat.le_trans (Nat.le_add_right b _) hy)]

theorem _root_.Iff.Spec.Roomy.set_none {m : Mem} {a : Addr} (h : Roomy m) :
    Roomy (m.set a none) := h.set

theorem bounded (bs : List Nat) : ∃ b : Nat, ∀ x ∈ bs, x < b := by
  induction bs with
  | nil => exact ⟨0, by simp⟩
  | cons x xs ih =>
    obtain ⟨b', h'⟩ := ih
    refine ⟨max b' (x + 1), fun y hy => ?_⟩
    rcases List.mem_cons.mp hy with rfl | hy
    · omega
    · have := h' y hy; omega

theorem _root_.Iff.Spec.Roomy.adds {m₀ m : Mem} {bs : List Addr} (h : Roomy m₀)
    (ha : Adds m₀ m bs) : Roomy m := by
  obtain ⟨b, hb⟩ := h
  obtain ⟨b', h'⟩ := bounded bs
  refine ⟨b + b', fun x hx => ?_⟩
  have h1 : x ∉ bs := fun hm => absurd (Nat.lt_of_lt_of_le (h' x hm)
    (Nat.le_trans (Nat.le_add_left b' b) hx)) (Nat.lt_irrefl _)
  rw [ha.2 x h1, hb x (Nat.le_trans (Nat.le_add_right b b') hx)]

theorem hdr_setHdr {b : Block} {hd hd' : Hdr} (h : b.hdr? = some hd) :
    (b.setHdr hd').hdr? = some hd' := by cases b <;> simp_all [Block.hdr?, Block.setHdr]

theorem grp_setGrp {b : Block} {g g' : Grp} (h : b.grp? = some g) :
    (b.setGrp g').grp? = some g' := by cases b <;> simp_all [Block.grp?, Block.setGrp]

theorem setGrp_setGrp {b : Block} {g g' : Grp} : (b.setGrp g).setGrp g' = b.setGrp g' := by
  cases b <;> rfl

theorem lst_setLst {b : Block} {l l' : Lst} (h : b.lst? = some l) :
    (b.setLst l').lst? = some l' := by cases b <;> simp_all [Block.lst?, Block.setLst]

theorem setLst_setLst {b : Block} {l l' : Lst} : (b.setLst l).setLst l' = b.setLst l' := by
  cases b <;> rfl

/-- Growing an array by one element. -/
theorem realloc_run {A : Alloc} {s : HS} {arr : Addr} {ps : List Addr}
    (harr : ArrayIn s.mem arr ps) (h0 : s.mem 0 = none) :
    reallocPtrs A arr (ps.length + 1) s =
      match A.pick s.tick (s.mem.set arr none) (.array (ps.length + 1)) with
      | none => .val (0, { s with tick := s.tick + 1 })
      | some a => .val (a, { s with
          tick := s.tick + 1
          mem := (s.mem.set arr none).set a (some (.ptrs (ps.map some ++ [none]))) }) := by
  rcases harr with ⟨rfl, rfl⟩ | ⟨h1, h2, h3⟩
  · rw [Mem.set_none h0]
    simp only [reallocPtrs, malloc, ↓reduceIte]
    cases A.pick s.tick s.mem (.array (([] : List Addr).length + 1)) <;> rfl
  · simp only [reallocPtrs, if_neg h2, h3]
    rw [if_neg (by omega)]
    cases A.pick s.tick (s.mem.set arr none) (.array (ps.length + 1)) with
    | none => rfl
    | some a =>
      have e1 : List.take (ps.length + 1) (ps.map some) = ps.map some :=
        List.take_of_length_le (by simp)
      have e2 : ps.length + 1 - (ps.map some).length = 1 := by simp
      simp only [e1, e2, List.replicate_one]

theorem set_last {ps : List Addr} {c : Addr} :
    (ps.map some ++ [none]).set ps.length (some c) = ps.map some ++ [some c] := by
  rw [List.set_append_right _ _ (by simp)]; simp

theorem attach_run {A : Alloc} {s : HS} {p c : Addr} {b bc : Block} {g : Grp} {hd : Hdr}
    {ps : List Addr} (hp : s.mem p = some b) (hg : b.grp? = some g) (hc : s.mem c = some bc)
    (hh : bc.hdr? = some hd) (harr : ArrayIn s.mem g.arr ps) (hlen : g.len = ps.length)
    (h0 : s.mem 0 = none) (hpc : p ≠ c) (hpa : p ≠ g.arr) (hca : c ≠ g.arr) :
    attachToGroup A p c s =
      match A.pick s.tick (s.mem.set g.arr none) (.array (ps.length + 1)) with
      | none => .ub .nullDeref
      | some a => .val ((), { s with
          tick := s.tick + 1
          mem := (((s.mem.set g.arr none).set a (some (.ptrs (ps.map some ++ [some c])))).set p
            (some (b.setGrp { g with arr := a, len := ps.length + 1 }))).set c
            (some (bc.setHdr { hd with parent := p })) }) := by
  simp only [attachToGroup, M.bind_apply, getGrp_eq hp hg, hlen, realloc_run harr h0]
  cases hpick : A.pick s.tick (s.mem.set g.arr none) (.array (ps.length + 1)) with
  | none =>
    simp only
    rw [updGrp_eq (s := { s with tick := s.tick + 1 }) hp hg]
    simp only
    rw [getGrp_eq (s := { s with tick := s.tick + 1, mem := _ }) (Mem.set_same _ _ _) (grp_setGrp hg)]
    simp only
    have hp0 : (0 : Addr) ≠ p := by rintro rfl; rw [h0] at hp; cases hp
    simp only [setPtr, M.bind_apply]
    rw [load_null (by show Mem.set _ _ _ _ = none; rw [Mem.set_ne hp0, h0])]
  | some a =>
    have hs := A.sound hpick
    have hap : a ≠ p := by
      rintro rfl; rw [Mem.set_ne hpa, hp] at hs; cases hs.2
    have hac : a ≠ c := by
      rintro rfl; rw [Mem.set_ne hca, hc] at hs; cases hs.2
    simp only
    rw [updGrp_eq (s := { s with tick := s.tick + 1, mem := _ }) (b := b) (g := g) (by
      show Mem.set _ _ _ _ = _
      rw [Mem.set_ne hap.symm, Mem.set_ne hpa, hp]) hg]
    simp only
    rw [getGrp_eq (s := { s with tick := s.tick + 1, mem := _ }) (Mem.set_same _ _ _)
      (grp_setGrp hg)]
    simp only [hlen]
    rw [setPtr_eq (s := { s with tick := s.tick + 1, mem := _ })
      (cells := ps.map some ++ [none]) (by
        show Mem.set _ _ _ _ = _
        rw [Mem.set_ne hap, Mem.set_same]) (by simp), set_last]
    simp only
    rw [updGrp_eq (s := { s with tick := s.tick + 1, mem := _ })
      (b := b.setGrp { g with arr := a, len := ps.length })
      (g := { g with arr := a, len := ps.length }) (by
        show Mem.set _ _ _ _ = _
        rw [Mem.set_ne hap.symm, Mem.set_same]) (grp_setGrp hg)]
    simp only [setGrp_setGrp]
    rw [updHdr_eq (s := { s with tick := s.tick + 1, mem := _ }) (b := bc) (hd := hd) (by
      show Mem.set _ _ _ _ = _
      rw [Mem.set_ne hpc.symm, Mem.set_ne hac.symm, Mem.set_ne hpc.symm, Mem.set_ne hac.symm,
        Mem.set_ne hca, hc]) hh]
    simp only
    congr 4
    rw [Mem.set_comm (a := p) (b := a) hap.symm, Mem.set_set, Mem.set_set]

theorem attachProp_run {A : Alloc} {s : HS} {p c : Addr} {b bc : Block} {g : Lst} {hd : Hdr}
    {ps : List Addr} (hp : s.mem p = some b) (hg : b.lst? = some g) (hc : s.mem c = some bc)
    (hh : bc.hdr? = some hd) (harr : ArrayIn s.mem g.parr ps) (hlen : g.plen = ps.length)
    (h0 : s.mem 0 = none) (hpc : p ≠ c) (hpa : p ≠ g.parr) (hca : c ≠ g.parr) :
    attachProp A p c s =
      match A.pick s.tick (s.mem.set g.parr none) (.array (ps.length + 1)) with
      | none => .ub .nullDeref
      | some a => .val ((), { s with
          tick := s.tick + 1
          mem := (((s.mem.set g.parr none).set a (some (.ptrs (ps.map some ++ [some c])))).set p
            (some (b.setLst { g with parr := a, plen := ps.length + 1 }))).set c
            (some (bc.setHdr { hd with parent := p })) }) := by
  simp only [attachProp, M.bind_apply, getLst_eq hp hg, hlen, realloc_run harr h0]
  cases hpick : A.pick s.tick (s.mem.set g.parr none) (.array (ps.length + 1)) with
  | none =>
    simp only
    rw [updLst_eq (s := { s with tick := s.tick + 1 }) hp hg]
    simp only
    rw [getLst_eq (s := { s with tick := s.tick + 1, mem := _ }) (Mem.set_same _ _ _) (lst_setLst hg)]
    simp only
    have hp0 : (0 : Addr) ≠ p := by rintro rfl; rw [h0] at hp; cases hp
    simp only [setPtr, M.bind_apply]
    rw [load_null (by show Mem.set _ _ _ _ = none; rw [Mem.set_ne hp0, h0])]
  | some a =>
    have hs := A.sound hpick
    have hap : a ≠ p := by
      rintro rfl; rw [Mem.set_ne hpa, hp] at hs; cases hs.2
    have hac : a ≠ c := by
      rintro rfl; rw [Mem.set_ne hca, hc] at hs; cases hs.2
    simp only
    rw [updLst_eq (s := { s with tick := s.tick + 1, mem := _ }) (b := b) (l := g) (by
      show Mem.set _ _ _ _ = _
      rw [Mem.set_ne hap.symm, Mem.set_ne hpa, hp]) hg]
    simp only
    rw [getLst_eq (s := { s with tick := s.tick + 1, mem := _ }) (Mem.set_same _ _ _)
      (lst_setLst hg)]
    simp only [hlen]
    rw [setPtr_eq (s := { s with tick := s.tick + 1, mem := _ })
      (cells := ps.map some ++ [none]) (by
        show Mem.set _ _ _ _ = _
        rw [Mem.set_ne hap, Mem.set_same]) (by simp), set_last]
    simp only
    rw [updLst_eq (s := { s with tick := s.tick + 1, mem := _ })
      (b := b.setLst { g with parr := a, plen := ps.length })
      (l := { g with parr := a, plen := ps.length }) (by
        show Mem.set _ _ _ _ = _
        rw [Mem.set_ne hap.symm, Mem.set_same]) (lst_setLst hg)]
    simp only [setLst_setLst]
    rw [updHdr_eq (s := { s with tick := s.tick + 1, mem := _ }) (b := bc) (hd := hd) (by
      show Mem.set _ _ _ _ = _
      rw [Mem.set_ne hpc.symm, Mem.set_ne hac.symm, Mem.set_ne hpc.symm, Mem.set_ne hac.symm,
        Mem.set_ne hca, hc]) hh]
    simp only
    congr 4
    rw [Mem.set_comm (a := p) (b := a) hap.symm, Mem.set_set, Mem.set_set]

/-- The address of the struct is not among the other blocks. -/
theorem rest_ne {a : Addr} {l : List Addr} (h : (a :: l).Nodup) : ∀ x ∈ l, x ≠ a := by
  rintro x hx rfl; exact (List.nodup_cons.mp h).1 hx

/-- Changing the parent pointer. -/
theorem In.reparent {m m' : Mem} {t : Node} {q p : Addr} {b : Block} {hd : Hdr}
    (h : In m q t) (hnd : t.blocks.Nodup)
    (hb : m t.addr = some b) (hh : b.hdr? = some hd)
    (hm : m' t.addr = some (b.setHdr { hd with parent := p }))
    (hf : ∀ x ∈ t.blocks, x ≠ t.addr → m' x = m x) : In m' p t := by
  cases t with
  | raw a d id size data =>
    simp only [In, Node.addr] at h hb hm hf ⊢
    rw [h.1] at hb; cases hb; cases hh
    exact ⟨hm, (hf d (by simp [Node.blocks]) (rest_ne hnd d (by simp))).trans h.2⟩
  | ext a id size vals =>
    simp only [In, Node.addr] at h hb hm hf ⊢
    rw [h] at hb; cases hb; cases hh
    exact hm
  | grp a arr id size ty subs =>
    simp only [In, Node.addr] at h hb hm hf ⊢
    rw [h.1] at hb; cases hb; cases hh
    have hr := rest_ne hnd
    refine ⟨hm, h.2.1.frame fun h2 => ?_, h.2.2.frame fun x hx => ?_⟩
    · exact hf arr (by simp [Node.blocks, h2]) (hr arr (by simp [h2]))
    · exact hf x (by simp [Node.blocks, hx]) (hr x (by simp [hx]))
  | lst a arr parr id size ty subs props =>
    simp only [In, Node.addr] at h hb hm hf ⊢
    rw [h.1] at hb; cases hb; cases hh
    have hr := rest_ne hnd
    refine ⟨hm, h.2.1.frame fun h2 => ?_, h.2.2.1.frame fun h2 => ?_,
      h.2.2.2.1.frame fun x hx => ?_, h.2.2.2.2.frame fun x hx => ?_⟩
    · exact hf arr (by simp [Node.blocks, h2]) (hr arr (by simp [h2]))
    · exact hf parr (by simp [Node.blocks, h2]) (hr parr (by simp [h2]))
    · exact hf x (by simp [Node.blocks, hx]) (hr x (by simp [hx]))
    · exact hf x (by simp [Node.blocks, hx]) (hr x (by simp [hx]))

theorem inAll_append {m : Mem} {p : Addr} {xs ys : List Node} :
    InAll m p (xs ++ ys) ↔ InAll m p xs ∧ InAll m p ys := by
  induction xs with
  | nil => simp
  | cons x xs ih => simp [ih, and_assoc]

/-- The array that results from growing. -/
theorem arrayIn_grown {m : Mem} {a c : Addr} {ps : List Addr} (ha : a ≠ 0)
    (h : m a = some (.ptrs (ps.map some ++ [some c]))) : ArrayIn m a (ps ++ [c]) :=
  .inr ⟨by simp, ha, by simpa using h⟩

/-- What attaching does to the memory: `p` is the group, `arr` the old array, `a` the new one, `oth`
the other blocks of the group. -/
theorem attach_mem {m : Mem} {p arr a q : Addr} {b : Block} {ps oth : List Addr} {c : Node}
    {bc : Block} {hd : Hdr} (hc : In m q c) (hbc : m c.addr = some bc) (hhc : bc.hdr? = some hd)
    (hnd : (p :: arrBlocks arr ++ oth ++ c.blocks).Nodup) (hp : m p ≠ none)
    (hoth : ∀ x ∈ oth, m x ≠ none) (h0 : m 0 = none)
    (hane : a ≠ 0) (hafree : m.set arr none a = none) {m' : Mem}
    (hm' : m' = (((m.set arr none).set a (some (.ptrs (ps.map some ++ [some c.addr])))).set p
      (some b)).set c.addr (some (bc.setHdr { hd with parent := p }))) :
    m' 0 = none ∧ m' p = some b ∧ ArrayIn m' a (ps ++ [c.addr]) ∧ (∀ x ∈ oth, m' x = m x) ∧ In m' p c ∧
    (p :: arrBlocks a ++ oth ++ c.blocks).Nodup ∧
    ∀ m₀, Adds m₀ m (p :: arrBlocks arr ++ oth ++ c.blocks) →
      Adds m₀ m' (p :: arrBlocks a ++ oth ++ c.blocks) := by
  have hca := c.addr_mem
  simp only [List.cons_append, List.append_assoc, List.nodup_cons, List.mem_append,
    List.nodup_append, not_or] at hnd
  obtain ⟨⟨hpa, hps, hpc⟩, hna, ⟨hns, hnc, hd1⟩, hd2⟩ := hnd
  have hpne : p ≠ 0 := by rintro rfl; exact hp h0
  have hpa : p ≠ arr := by
    by_cases h : arr = 0
    · rw [h]; exact hpne
    · simpa [arrBlocks, h] using hpa
  have hcz : ∀ x ∈ c.blocks, x ≠ 0 := fun x hx => hc.ne_zero h0 hx
  have hsz : ∀ x ∈ oth, x ≠ 0 := by rintro x hx rfl; exact hoth 0 hx h0
  have harrc : ∀ x ∈ c.blocks, x ≠ arr := fun x hx => by
    by_cases h : arr = 0
    · rw [h]; exact hcz x hx
    · exact (hd2 arr (by simp [arrBlocks, h]) x (.inr hx)).symm
  have harrs : ∀ x ∈ oth, x ≠ arr := fun x hx => by
    by_cases h : arr = 0
    · rw [h]; exact hsz x hx
    · exact (hd2 arr (by simp [arrBlocks, h]) x (.inl hx)).symm
  have hpcne : p ≠ c.addr := fun h => hpc (h ▸ hca)
  have hmap : ∀ x, m x ≠ none → x ≠ arr → x ≠ a := by
    rintro x hx hxa rfl
    rw [Mem.set_ne hxa] at hafree
    exact hx hafree
  have hap : p ≠ a := hmap p hp hpa
  have hcax : ∀ x ∈ c.blocks, x ≠ a := fun x hx => hmap x (hc.mapped x hx) (harrc x hx)
  have hsax : ∀ x ∈ oth, x ≠ a := fun x hx => hmap x (hoth x hx) (harrs x hx)
  have hb1 : arrBlocks a = [a] := by simp [arrBlocks, hane]
  subst hm'
  refine ⟨?_, ?_, ?_, ?_, ?_, ?_, ?_⟩
  · rw [Mem.set_ne (hcz _ hca).symm, Mem.set_ne hpne.symm, Mem.set_ne hane.symm]
    simp only [Mem.set]; split
    · rfl
    · exact h0
  · rw [Mem.set_ne hpcne, Mem.set_same]
  · refine arrayIn_grown hane ?_
    rw [Mem.set_ne (hcax _ hca).symm, Mem.set_ne hap.symm, Mem.set_same]
  · intro x hx
    rw [Mem.set_ne (fun h => hd1 x hx _ hca h), Mem.set_ne (fun h : x = p => hps (h ▸ hx)),
      Mem.set_ne (hsax x hx), Mem.set_ne (harrs x hx)]
  · refine In.reparent hc hnc hbc hhc (Mem.set_same _ _ _) fun x hx hne => ?_
    rw [Mem.set_ne hne, Mem.set_ne (fun h : x = p => hpc (h ▸ hx)), Mem.set_ne (hcax x hx),
      Mem.set_ne (harrc x hx)]
  · simp only [hb1, List.cons_append, List.nil_append, List.nodup_cons,
      List.mem_cons, List.mem_append, not_or, List.nodup_append]
    exact ⟨⟨hap, hps, hpc⟩, ⟨fun h => hsax _ h rfl, fun h => hcax _ h rfl⟩, hns, hnc, hd1⟩
  · rintro m₀ ⟨ha1, ha2⟩
    have hfresh : m₀ a = none := by
      by_cases haa : a = arr
      · refine ha1 a ?_
        rw [haa] at hane ⊢
        simp [arrBlocks, hane]
      · rw [Mem.set_ne haa] at hafree
        rw [← ha2 a, hafree]
        simp only [List.cons_append, List.append_assoc, List.mem_cons, List.mem_append, not_or]
        refine ⟨fun h => hap h.symm, ?_, fun h => hsax _ h rfl, fun h => hcax _ h rfl⟩
        simp only [arrBlocks]
        split <;> simp [haa]
    constructor
    · intro x hx
      simp only [hb1, List.cons_append, List.nil_append, List.mem_cons, List.mem_append] at hx
      rcases hx with rfl | rfl | hx | hx
      · exact ha1 _ (by simp)
      · exact hfresh
      · exact ha1 _ (by simp [hx])
      · exact ha1 _ (by simp [hx])
    · intro x hx
      simp only [hb1, List.cons_append, List.nil_append, List.mem_cons,
        List.mem_append, not_or] at hx
      obtain ⟨hx1, hx2, hx3, hx4⟩ := hx
      rw [Mem.set_ne (fun h : x = c.addr => hx4 (h ▸ hca)), Mem.set_ne hx1, Mem.set_ne hx2]
      by_cases hxa : x = arr
      · rw [hxa, Mem.set_same]
        by_cases h : arr = 0
        · rw [h, ← ha2 0, h0]
          intro hm
          simp only [arrBlocks, h, ↓reduceIte, List.cons_append, List.nil_append,
            List.mem_cons, List.mem_append] at hm
          rcases hm with hm | hm | hm
          · exact hpne hm.symm
          · exact hsz 0 hm rfl
          · exact hcz 0 hm rfl
        · exact (ha1 arr (by simp [arrBlocks, h])).symm
      · rw [Mem.set_ne hxa]
        refine ha2 x ?_
        simp only [List.cons_append, List.append_assoc, List.mem_cons, List.mem_append, not_or]
        refine ⟨hx1, ?_, hx3, hx4⟩
        simp only [arrBlocks]
        split <;> simp [hxa]

theorem Adds.congr {m₀ m : Mem} {xs ys : List Addr} (h : ∀ a, a ∈ xs ↔ a ∈ ys) :
    Adds m₀ m xs ↔ Adds m₀ m ys := by
  simp only [Adds, h]

/-- The group with one more member; its array is now at `a`. -/
def Node.attach (a : Addr) (c : Node) : Node → Node
  | .grp p _ id size ty subs => .grp p a id size ty (subs ++ [c])
  | .lst p _ parr id size ty subs props => .lst p a parr id size ty (subs ++ [c]) props
  | t => t

/-- The list with one more PROP; its array is now at `a`. -/
def Node.attachProp (a : Addr) (c : Node) : Node → Node
  | .lst p arr _ id size ty subs props => .lst p arr a id size ty subs (props ++ [c])
  | t => t

/-- The struct of the hierarchy has the members of `IFF_Group`. -/
def Node.IsGroup : Node → Prop
  | .grp .. => True
  | .lst .. => True
  | _ => False

/-- The struct of the hierarchy is an `IFF_List`. -/
def Node.IsList : Node → Prop
  | .lst .. => True
  | _ => False

theorem nodup_congr {xs ys : List Addr} (h : xs.Perm ys) : xs.Nodup ↔ ys.Nodup := h.nodup_iff

/-- Attaching a chunk to a group: either the array cannot be grown, or the memory holds the group
with one more member. -/
theorem attach_spec {A : Alloc} {s : HS} {par q : Addr} {g c : Node} (hg : Node.IsGroup g)
    (hin : In s.mem par g) (hc : In s.mem q c) (hnd : (g.blocks ++ c.blocks).Nodup)
    (h0 : s.mem 0 = none) :
    ((Roomy s.mem → ¬ ArraysOk A) ∧ attachToGroup A g.addr c.addr s = .ub .nullDeref) ∨
    ∃ a m', attachToGroup A g.addr c.addr s = .val ((), { s with mem := m', tick := s.tick + 1 }) ∧
      m' 0 = none ∧ In m' par (Node.attach a c g) ∧ (Node.attach a c g).blocks.Nodup ∧
      ∀ m₀, Adds m₀ s.mem (g.blocks ++ c.blocks) → Adds m₀ m' (Node.attach a c g).blocks := by
  obtain ⟨bc, hbc, hhc⟩ := hc.hdr
  have hca := c.addr_mem
  have hz := fun x hx => hin.ne_zero (a := x) h0 hx
  have hmp := hin.mapped
  cases g with
  | raw => exact hg.elim
  | ext => exact hg.elim
  | grp p arr id size ty subs =>
    have hb1 : (Node.grp p arr id size ty subs).blocks
        = p :: arrBlocks arr ++ Node.blocksAll subs := by simp [Node.blocks, arrBlocks]
    rw [hb1] at hnd hz hmp ⊢
    simp only [In] at hin
    have hpcne : p ≠ c.addr := fun h => by simp [h, hca] at hnd
    have hpa : p ≠ arr := by
      rintro rfl
      have := hz p (by simp)
      simp [arrBlocks, this] at hnd
    have hcarr : c.addr ≠ arr := by
      by_cases h : arr = 0
      · rw [h]; exact hc.ne_zero h0 hca
      · rintro rfl
        simp only [arrBlocks, if_neg h, List.nodup_append] at hnd
        exact hnd.2.2 c.addr (by simp) c.addr hca rfl
    have hrun := attach_run (A := A) (s := s) (p := p) (c := c.addr) (ps := subs.map Node.addr)
      hin.1 rfl hbc hhc hin.2.1 (by simp) h0 hpcne hpa hcarr
    simp only [List.length_map] at hrun
    cases hpick : A.pick s.tick (s.mem.set arr none) (.array (subs.length + 1)) with
    | none =>
      rw [hpick] at hrun
      exact .inl ⟨fun hr h => by
        simpa [hpick] using h s.tick (s.mem.set arr none) subs.length hr.set_none,
        hrun⟩
    | some a =>
      rw [hpick] at hrun
      obtain ⟨hane, hafree⟩ := A.sound hpick
      obtain ⟨hz', h1, h2, h3, h4, h5, h6⟩ := attach_mem hc hbc hhc hnd (by rw [hin.1]; simp)
        (fun x hx => hmp x (by simp [hx])) h0 hane hafree rfl
      refine .inr ⟨a, _, hrun, hz', ?_, ?_, ?_⟩
      · simp only [Node.attach, In, List.length_append, List.length_singleton, List.map_append]
        exact ⟨h1, h2, inAll_append.mpr ⟨hin.2.2.frame h3, inAll_cons.mpr ⟨h4, inAll_nil⟩⟩⟩
      · simp only [Node.attach, Node.blocks, Node.blocksAll_append, Node.blocksAll_cons,
          Node.blocksAll_nil, List.append_nil, ← List.append_assoc]
        exact h5
      · intro m₀ hm
        simp only [Node.attach, Node.blocks, Node.blocksAll_append, Node.blocksAll_cons,
          Node.blocksAll_nil, List.append_nil, ← List.append_assoc]
        exact h6 m₀ hm
  | lst p arr parr id size ty subs props =>
    have hb1 : (Node.lst p arr parr id size ty subs props).blocks
        = p :: arrBlocks arr ++ (arrBlocks parr ++ Node.blocksAll subs ++ Node.blocksAll props) := by
      simp [Node.blocks, arrBlocks]
    rw [hb1] at hnd hz hmp ⊢
    simp only [In] at hin
    have hpcne : p ≠ c.addr := fun h => by simp [h, hca] at hnd
    have hpa : p ≠ arr := by
      rintro rfl
      have := hz p (by simp)
      simp [arrBlocks, this] at hnd
    have hcarr : c.addr ≠ arr := by
      by_cases h : arr = 0
      · rw [h]; exact hc.ne_zero h0 hca
      · rintro rfl
        simp only [arrBlocks, if_neg h, List.nodup_append] at hnd
        exact hnd.2.2 c.addr (by simp) c.addr hca rfl
    have hrun := attach_run (A := A) (s := s) (p := p) (c := c.addr) (ps := subs.map Node.addr)
      hin.1 rfl hbc hhc hin.2.1 (by simp) h0 hpcne hpa hcarr
    simp only [List.length_map] at hrun
    cases hpick : A.pick s.tick (s.mem.set arr none) (.array (subs.length + 1)) with
    | none =>
      rw [hpick] at hrun
      exact .inl ⟨fun hr h => by
        simpa [hpick] using h s.tick (s.mem.set arr none) subs.length hr.set_none,
        hrun⟩
    | some a =>
      rw [hpick] at hrun
      obtain ⟨hane, hafree⟩ := A.sound hpick
      obtain ⟨hz', h1, h2, h3, h4, h5, h6⟩ := attach_mem hc hbc hhc hnd (by rw [hin.1]; simp)
        (fun x hx => hmp x (by simp only [List.mem_append]; exact .inr (by simpa [or_assoc] using hx)))
        h0 hane hafree rfl
      have hperm : (Node.attach a c (Node.lst p arr parr id size ty subs props)).blocks.Perm
          (p :: arrBlocks a ++ (arrBlocks parr ++ Node.blocksAll subs ++ Node.blocksAll props)
            ++ c.blocks) := by
        simp only [Node.attach, Node.blocks, Node.blocksAll_append, Node.blocksAll_cons,
          Node.blocksAll_nil, List.append_nil, arrBlocks, List.append_assoc, List.cons_append]
        refine List.Perm.cons _ (List.Perm.append_left _ (List.Perm.append_left _
          (List.Perm.append_left _ List.perm_append_comm)))
      refine .inr ⟨a, _, hrun, hz', ?_, ?_, ?_⟩
      · simp only [Node.attach, In, List.length_append, List.length_singleton, List.map_append]
        exact ⟨h1, h2, hin.2.2.1.frame fun h => h3 parr (by simp [arrBlocks, h]),
          inAll_append.mpr ⟨hin.2.2.2.1.frame fun x hx => h3 x (by simp [hx]),
            inAll_cons.mpr ⟨h4, inAll_nil⟩⟩, hin.2.2.2.2.frame fun x hx => h3 x (by simp [hx])⟩
      · exact hperm.nodup_iff.mpr h5
      · intro m₀ hm
        exact (Adds.congr fun x => hperm.mem_iff).mpr (h6 m₀ hm)

/-- Attaching a PROP to a list. -/
theorem attachProp_spec {A : Alloc} {s : HS} {par q : Addr} {g c : Node} (hg : Node.IsList g)
    (hin : In s.mem par g) (hc : In s.mem q c) (hnd : (g.blocks ++ c.blocks).Nodup)
    (h0 : s.mem 0 = none) :
    ((Roomy s.mem → ¬ ArraysOk A) ∧ attachProp A g.addr c.addr s = .ub .nullDeref) ∨
    ∃ a m', attachProp A g.addr c.addr s = .val ((), { s with mem := m', tick := s.tick + 1 }) ∧
      m' 0 = none ∧ In m' par (Node.attachProp a c g) ∧ (Node.attachProp a c g).blocks.Nodup ∧
      ∀ m₀, Adds m₀ s.mem (g.blocks ++ c.blocks) → Adds m₀ m' (Node.attachProp a c g).blocks := by
  obtain ⟨bc, hbc, hhc⟩ := hc.hdr
  have hca := c.addr_mem
  have hz := fun x hx => hin.ne_zero (a := x) h0 hx
  have hmp := hin.mapped
  cases g with
  | raw => exact hg.elim
  | ext => exact hg.elim
  | grp => exact hg.elim
  | lst p arr parr id size ty subs props =>
    have hperm0 : (Node.lst p arr parr id size ty subs props).blocks.Perm
        (p :: arrBlocks parr ++ (arrBlocks arr ++ Node.blocksAll subs ++ Node.blocksAll props)) := by
      simp only [Node.blocks, arrBlocks, List.append_assoc, List.cons_append]
      refine List.Perm.cons _ ?_
      exact List.perm_append_comm_assoc _ _ _
    have hpermc := hperm0.append_right c.blocks
    have hnd' := hpermc.nodup_iff.mp hnd
    have hzz : ∀ x ∈ _, x ≠ 0 := fun x hx => hz x (hperm0.mem_iff.mpr hx)
    have hmp' : ∀ x ∈ _, s.mem x ≠ none := fun x hx => hmp x (hperm0.mem_iff.mpr hx)
    simp only [In] at hin
    have hpcne : p ≠ c.addr := fun h => by simp [h, hca] at hnd'
    have hpa : p ≠ parr := by
      rintro rfl
      have := hzz p (by simp)
      simp [arrBlocks, this] at hnd'
    have hcarr : c.addr ≠ parr := by
      by_cases h : parr = 0
      · rw [h]; exact hc.ne_zero h0 hca
      · rintro rfl
        simp only [arrBlocks, if_neg h, List.nodup_append] at hnd'
        exact hnd'.2.2 c.addr (by simp) c.addr hca rfl
    have hrun := attachProp_run (A := A) (s := s) (p := p) (c := c.addr)
      (ps := props.map Node.addr) hin.1 rfl hbc hhc hin.2.2.1 (by simp) h0 hpcne hpa hcarr
    simp only [List.length_map] at hrun
    cases hpick : A.pick s.tick (s.mem.set parr none) (.array (props.length + 1)) with
    | none =>
      rw [hpick] at hrun
      exact .inl ⟨fun hr h => by
        simpa [hpick] using h s.tick (s.mem.set parr none) props.length hr.set_none, hrun⟩
    | some a =>
      rw [hpick] at hrun
      obtain ⟨hane, hafree⟩ := A.sound hpick
      obtain ⟨hz', h1, h2, h3, h4, h5, h6⟩ := attach_mem hc hbc hhc hnd' (by rw [hin.1]; simp)
        (fun x hx => hmp' x (by simp only [List.mem_append]; exact .inr (by simpa [or_assoc] using hx)))
        h0 hane hafree rfl
      have hperm : (Node.attachProp a c (Node.lst p arr parr id size ty subs props)).blocks.Perm
          (p :: arrBlocks a ++ (arrBlocks arr ++ Node.blocksAll subs ++ Node.blocksAll props)
            ++ c.blocks) := by
        simp only [Node.attachProp, Node.blocks, Node.blocksAll_append, Node.blocksAll_cons,
          Node.blocksAll_nil, List.append_nil, arrBlocks, List.append_assoc, List.cons_append]
        refine List.Perm.cons _ ?_
        exact List.perm_append_comm_assoc _ _ _
      refine .inr ⟨a, _, hrun, hz', ?_, ?_, ?_⟩
      · simp only [Node.attachProp, In, List.length_append, List.length_singleton,
          List.map_append]
        exact ⟨h1, hin.2.1.frame fun h => h3 arr (by simp [arrBlocks, h]), h2,
          hin.2.2.2.1.frame fun x hx => h3 x (by simp [hx]),
          inAll_append.mpr ⟨hin.2.2.2.2.frame fun x hx => h3 x (by simp [hx]),
            inAll_cons.mpr ⟨h4, inAll_nil⟩⟩⟩
      · exact hperm.nodup_iff.mpr h5
      · intro m₀ hm
        exact (Adds.congr fun x => hperm.mem_iff).mpr
          (h6 m₀ ((Adds.congr fun x => hpermc.mem_iff).mp hm))

end Iff.Heap
