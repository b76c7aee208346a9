import Verif.Proofs.HeapBuild
import Verif.Proofs.Check
import Verif.Spec.Construct
/-
  Building a given hierarchy call by call.
-/
namespace Iff.Heap
open Spec

theorem Sequence.append {σ : Type} {step : Op → σ → Addr → σ → Prop} {s s' s'' : σ} {xs ys : List (Op × Addr)}
    (h : Sequence step s xs s') (h' : Sequence step s' ys s'') : Sequence step s (xs ++ ys) s'' := by
  induction h with
  | nil => exact h'
  | cons h1 _ ih => exact .cons h1 (ih h')

/-! ### An allocator that answers more requests -/

open Classical in
/-- An allocator that serves every request that can be served. -/
noncomputable def fallback (A : Alloc) : Alloc where
  pick t m q := match A.pick t m q with
    | some a => some a
    | none => if h : ∃ a : Nat, a ≠ 0 ∧ m a = none then some h.choose else none
  sound := by
    intro t m q a h
    cases hp : A.pick t m q with
    | some b => rw [hp] at h; cases h; exact A.sound hp
    | none =>
      rw [hp] at h
      dsimp only at h
      split at h
      · rename_i hx; cases h; exact hx.choose_spec
      · cases h
  realloc0 := A.realloc0

theorem fallback_some {A : Alloc} {t : Nat} {m : Mem} {q : Req} (h : (A.pick t m q).isSome) :
    (fallback A).pick t m q = A.pick t m q := by
  cases hp : A.pick t m q with
  | some a => simp only [fallback, hp]
  | none => rw [hp] at h; cases h

theorem fallback_arrays (A : Alloc) : ArraysOk (fallback A) := by
  intro t m n ⟨b, hb⟩
  cases hp : A.pick t m (.array (n + 1)) with
  | some a => rw [fallback_some (by rw [hp]; rfl), hp]; rfl
  | none =>
    have h : ∃ a : Nat, a ≠ 0 ∧ m a = none := ⟨b + 1, by omega, hb _ (by omega)⟩
    simp only [fallback, hp, dif_pos h]; rfl

theorem realloc_fallback {A : Alloc} {s : HS} {p : Addr} {n : Nat} (hr : Roomy s.mem)
    (h : ∀ t m, Roomy m → (A.pick t m (.array (n + 1))).isSome) :
    reallocPtrs (fallback A) p (n + 1) s = reallocPtrs A p (n + 1) s := by
  simp only [reallocPtrs, malloc, fallback_some (h _ _ hr), fallback_some (h _ _ (Spec.Roomy.set_none hr)), Nat.add_one_ne_zero, false_and, if_false]

theorem add_fallback {A : Alloc} {e : Env} {s : HS} {p c : Addr} {b : Block} {g : Grp} (hb : s.mem p = some b)
    (hg : b.grp? = some g) (hr : Roomy s.mem) (h : ∀ t m, Roomy m → (A.pick t m (.array (g.len + 1))).isSome) :
    addToGroup (fallback A) e p c s = addToGroup A e p c s := by
  simp only [addToGroup, attachToGroup, M.bind_apply, getGrp_eq hb hg, realloc_fallback hr h]

theorem addProp_fallback {A : Alloc} {e : Env} {s : HS} {p c : Addr} {b : Block} {g : Lst} (hb : s.mem p = some b)
    (hg : b.lst? = some g) (hr : Roomy s.mem) (h : ∀ t m, Roomy m → (A.pick t m (.array (g.plen + 1))).isSome) :
    addPropToList (fallback A) e p c s = addPropToList A e p c s := by
  simp only [addPropToList, attachProp, M.bind_apply, getLst_eq hb hg, realloc_fallback hr h]

/-! ### Steps -/

/-- A call in the model; the data are among `D`, and what is added as a PROP is a group. -/
def Step (A : Alloc) (e : Env) (D : List Byte → Prop) (op : Op) (s : HS) (r : Addr) (s' : HS) : Prop :=
  op.run A e s = .val (r, s') ∧ match op with
    | .raw id data => id ≠ idPROP ∧ data.length < 2147483648 ∧ D data
    | .group _ _ => True
    | .list _ => True
    | .add _ _ => True
    | .addProp _ c => ∃ b t, s.mem c = some b ∧ b.grp? = some t
    | _ => False

/-- The group with more members. -/
def moreSubs (cs : List Chunk) (z : Int) : Chunk → Chunk
  | .grp id size ty subs => .grp id (size + z) ty (subs ++ cs)
  | .lst id size ty subs props => .lst id (size + z) ty (subs ++ cs) props
  | c => c

/-- The list with more PROPs. -/
def moreProps (cs : List Chunk) (z : Int) : Chunk → Chunk
  | .lst id size ty subs props => .lst id (size + z) ty subs (props ++ cs)
  | c => c

/-- How many members. -/
def subCount : Node → Nat
  | .grp _ _ _ _ _ subs => subs.length
  | .lst _ _ _ _ _ _ subs _ => subs.length
  | _ => 0

/-- How many PROPs. -/
def propCount : Node → Nat
  | .lst _ _ _ _ _ _ _ props => props.length
  | _ => 0

theorem holds_of_forest {m₀ m : Mem} {t : Node} (h : Forest m₀ m [t]) : Holds m₀ m t := by
  have hb : Node.blocksAll [t] = t.blocks := by simp [Node.blocksAll]
  refine ⟨h.isIn t (by simp), hb ▸ h.distinct, ?_, hb ▸ h.adds⟩
  intro h0
  exact (h.isIn t (by simp)).mapped 0 h0 h.null

theorem forest_of_holds {m₀ m : Mem} {t : Node} (h0 : m₀ 0 = none) (h : Holds m₀ m t) : Forest m₀ m [t] :=
  (Forest.start h0).new h

theorem forest_two {m₀ m : Mem} {g d : Node} (h : Forest m₀ m [d, g]) :
    (g.blocks ++ d.blocks).Nodup ∧ Adds m₀ m (g.blocks ++ d.blocks) := by
  have hb : Node.blocksAll [d, g] = d.blocks ++ g.blocks := by simp [Node.blocksAll]
  have hp : (d.blocks ++ g.blocks).Perm (g.blocks ++ d.blocks) := List.perm_append_comm
  refine ⟨hp.nodup_iff.mp (hb ▸ h.distinct), ?_⟩
  exact (Adds.congr fun _ => hp.mem_iff).mp (hb ▸ h.adds)

/-- Adding a chunk to a group that has room. -/
theorem add_step {A : Alloc} {e : Env} (he : 32 ≤ e.sizeBits) {D : List Byte → Prop} {K : Nat} (hA : ServesUpTo A K) {m₀ : Mem}
    (hr : Roomy m₀) {s : HS} {g d : Node} (hf : Forest m₀ s.mem [d, g]) (hg : Node.IsGroup g)
    (hd : Consistent d.chunk) (hz : 0 ≤ g.chunk.size)
    (hb : g.chunk.size + ((encode d.chunk).length : Int) < 2147483648) (hK : 8 * (subCount g + 1) ≤ K) :
    ∃ g' s', Step A e D (.add g.addr d.addr) s 0 s' ∧ Forest m₀ s'.mem [g'] ∧ s'.rs = s.rs ∧ Node.IsGroup g' ∧
      g'.addr = g.addr ∧ g'.chunk = moreSubs [d.chunk] (encode d.chunk).length g.chunk ∧
      subCount g' = subCount g + 1 ∧ propCount g' = propCount g ∧ (Node.IsList g → Node.IsList g') := by
  obtain ⟨hnd, hadds⟩ := forest_two hf
  have hroom : Roomy s.mem := hr.adds hf.adds
  have hin := hf.isIn g (by simp)
  have heq : addToGroup (fallback A) e g.addr d.addr s = addToGroup A e g.addr d.addr s := by
    cases g with
    | raw => exact hg.elim
    | ext => exact hg.elim
    | grp => exact add_fallback hin.1 rfl hroom fun t m h => hA.array t m _ h hK
    | lst => exact add_fallback hin.1 rfl hroom fun t m h => hA.array t m _ h hK
  have hinc := increment_encode he hd hz hb
  rcases add_spec (A := fallback A) (e := e) hg hin (hf.isIn d (by simp)) hnd hf.null with ⟨h1, -⟩ | ⟨u, h1, -⟩ |
    ⟨a, z, m', h1, h2, h3, h4, h5, h6⟩
  · exact absurd (fallback_arrays A) (h1 hroom)
  · rw [hinc] at h1; cases h1
  · rw [hinc] at h1; cases h1
    rw [heq] at h2
    refine ⟨Node.setSize (g.chunk.size + ((encode d.chunk).length : Int)) (Node.attach a d g), ⟨m', s.tick + 1, s.rs⟩, ⟨?_, trivial⟩, ⟨h3, ?_, ?_, ?_⟩, rfl, ?_, ?_, ?_, ?_, ?_, ?_⟩
    · simp only [Op.run, M.bind_apply, h2]; rfl
    · intro t ht; rw [List.mem_singleton] at ht; subst ht; exact h4
    · simpa [Node.blocksAll] using h5
    · simpa [Node.blocksAll] using h6 m₀ hadds
    all_goals
      cases g with
      | raw => exact hg.elim
      | ext => exact hg.elim
      | grp => simp [Node.setSize, Node.attach, Node.IsGroup, Node.IsList, Node.addr, Node.chunk, moreSubs, subCount, propCount, Node.chunks_append, Chunk.size, Node.chunks]
      | lst => simp [Node.setSize, Node.attach, Node.IsGroup, Node.IsList, Node.addr, Node.chunk, moreSubs, subCount, propCount, Node.chunks_append, Chunk.size, Node.chunks]

/-- Adding a PROP to a list that has room. -/
theorem addProp_step {A : Alloc} {e : Env} (he : 32 ≤ e.sizeBits) {D : List Byte → Prop} {K : Nat} (hA : ServesUpTo A K) {m₀ : Mem}
    (hr : Roomy m₀) {s : HS} {g d : Node} (hf : Forest m₀ s.mem [d, g]) (hg : Node.IsList g) (hdg : Node.IsGroup d)
    (hd : Consistent d.chunk) (hz : 0 ≤ g.chunk.size)
    (hb : g.chunk.size + ((encode d.chunk).length : Int) < 2147483648) (hK : 8 * (propCount g + 1) ≤ K) :
    ∃ g' s', Step A e D (.addProp g.addr d.addr) s 0 s' ∧ Forest m₀ s'.mem [g'] ∧ s'.rs = s.rs ∧ Node.IsList g' ∧
      g'.addr = g.addr ∧ g'.chunk = moreProps [d.chunk] (encode d.chunk).length g.chunk ∧
      propCount g' = propCount g + 1 ∧ subCount g' = subCount g := by
  obtain ⟨hnd, hadds⟩ := forest_two hf
  have hroom : Roomy s.mem := hr.adds hf.adds
  have hin := hf.isIn g (by simp)
  have heq : addPropToList (fallback A) e g.addr d.addr s = addPropToList A e g.addr d.addr s := by
    cases g with
    | lst => exact addProp_fallback hin.1 rfl hroom fun t m h => hA.array t m _ h hK
    | _ => exact hg.elim
  have hinc := increment_encode he hd hz hb
  rcases addProp_spec (A := fallback A) (e := e) hg hin (hf.isIn d (by simp)) hnd hf.null with ⟨h1, -⟩ | ⟨u, h1, -⟩ |
    ⟨a, z, m', h1, h2, h3, h4, h5, h6⟩
  · exact absurd (fallback_arrays A) (h1 hroom)
  · rw [hinc] at h1; cases h1
  · rw [hinc] at h1; cases h1
    rw [heq] at h2
    have hdin := hf.isIn d (by simp)
    refine ⟨Node.setSize (g.chunk.size + ((encode d.chunk).length : Int)) (Node.attachProp a d g), ⟨m', s.tick + 1, s.rs⟩, ⟨?_, ?_⟩, ⟨h3, ?_, ?_, ?_⟩, rfl, ?_, ?_, ?_, ?_, ?_⟩
    · simp only [Op.run, M.bind_apply, h2]; rfl
    · cases d with
      | raw => exact hdg.elim
      | ext => exact hdg.elim
      | grp => exact ⟨_, _, hdin.1, rfl⟩
      | lst => exact ⟨_, _, hdin.1, rfl⟩
    · intro t ht; rw [List.mem_singleton] at ht; subst ht; exact h4
    · simpa [Node.blocksAll] using h5
    · simpa [Node.blocksAll] using h6 m₀ hadds
    all_goals
      cases g with
      | lst => simp [Node.setSize, Node.attachProp, Node.IsList, Node.addr, Node.chunk, moreProps, subCount, propCount, Node.chunks_append, Chunk.size, Node.chunks]
      | _ => exact hg.elim

/-! ### Building -/

theorem newRaw_step {A : Alloc} {e : Env} (he : 32 ≤ e.sizeBits) {K : Nat} (hA : ServesUpTo A K) {id : ID}
    {data : List Byte} (hl : data.length < 2147483648) (hK : data.length ≤ K) {s : HS} (h0 : s.mem 0 = none)
    (hr : Roomy s.mem) : ∃ p d m' t', newRaw A e id data s = .val (p, ⟨m', t', s.rs⟩) ∧
      Holds s.mem m' (.raw p d id data.length data) := by
  rcases newRaw_spec (A := A) (e := e) (id := id) he hl h0 with ⟨t', h, -⟩ | ⟨p, d, m', t', -, h1, h2⟩
  · exfalso
    have hsz := toSize_nat he hl
    obtain ⟨p, hp⟩ := Option.isSome_iff_exists.mp (hA.raw s.tick s.mem hr)
    obtain ⟨d, hd⟩ := Option.isSome_iff_exists.mp (hA.data (s.tick + 1)
      (s.mem.set p (some (.raw ⟨0, id, data.length⟩ 0))) data.length (Spec.Roomy.set hr) hK)
    have h1 := (A.sound hp).1
    have hd1 := (A.sound hd).1
    have hdp : p ≠ d := by
      rintro rfl; have := (A.sound hd).2; rw [Mem.set_same] at this; cases this
    have hcr : createRaw A e id data.length s = .val (p, ⟨((s.mem.set p (some (.raw ⟨0, id,
        data.length⟩ 0))).set d (some (.bytes (List.replicate data.length none)))).set p
        (some (.raw ⟨0, id, data.length⟩ d)), s.tick + 1 + 1, s.rs⟩) := by
      simp only [createRaw, newStruct, Block.skind, M.bind_apply, malloc, hp, if_neg h1, hsz, hd, if_neg hd1]
      rw [store_eq (s := ⟨_, _, _⟩) (b := .raw ⟨0, id, data.length⟩ 0)
        (by dsimp only; rw [Mem.set_ne hdp, Mem.set_same])]
      rfl
    simp only [newRaw, M.bind_apply, hcr, if_neg h1] at h
    revert h
    cases copyData e p data _ with
    | val x =>
      intro h
      simp only [M.pure_apply, Out.val.injEq, Prod.mk.injEq] at h
      exact h1 h.1
    | ub u => nofun
    | loop => nofun
  · exact ⟨p, d, m', t', h1, h2⟩

theorem eight_le {c : Chunk} (h : Consistent c) : 8 ≤ (encode c).length := by
  have h1 := h.length
  have h2 := h.range
  omega

theorem eight_mul_le : ∀ {cs : List Chunk}, (∀ c ∈ cs, Consistent c) → 8 * cs.length ≤ (encodeAll cs).length
  | [], _ => by simp
  | c :: cs, h => by
    have h1 := eight_le (h c (by simp))
    have h2 := eight_mul_le fun x hx => h x (List.mem_cons_of_mem _ hx)
    simp only [List.length_cons, encodeAll, List.length_append]
    omega

/-- What building a chunk achieves. -/
def Built (A : Alloc) (e : Env) (D : List Byte → Prop) (c : Chunk) : Prop :=
  ∀ s : HS, s.mem 0 = none → Roomy s.mem → ∃ calls s' t, Builds c t.addr calls ∧
    Sequence (Step A e D) s calls s' ∧ Holds s.mem s'.mem t ∧ t.chunk = c ∧ s'.rs = s.rs

theorem fill_subs {A : Alloc} {e : Env} (he : 32 ≤ e.sizeBits) {D : List Byte → Prop} {K : Nat}
    (hA : ServesUpTo A K) {m₀ : Mem} (hr : Roomy m₀) : ∀ (cs : List Chunk), (∀ c ∈ cs, Consistent c) →
    (∀ c ∈ cs, Built A e D c) → ∀ {s : HS} {g : Node}, Forest m₀ s.mem [g] → Node.IsGroup g → 0 ≤ g.chunk.size →
    g.chunk.size + ((encodeAll cs).length : Int) < 2147483648 → 8 * (subCount g + cs.length) ≤ K →
    ∃ calls s' g', Adding (.add g.addr) cs calls ∧ Sequence (Step A e D) s calls s' ∧ Forest m₀ s'.mem [g'] ∧
      s'.rs = s.rs ∧ g'.addr = g.addr ∧ g'.chunk = moreSubs cs (encodeAll cs).length g.chunk
  | [], _, _, s, g, hf, hg, _, _, _ => by
    refine ⟨[], s, g, .nil, .nil, hf, rfl, rfl, ?_⟩
    cases g with
    | raw => exact hg.elim
    | ext => exact hg.elim
    | grp => simp [Node.chunk, moreSubs, encodeAll]
    | lst => simp [Node.chunk, moreSubs, encodeAll]
  | c :: cs, hc, hB, s, g, hf, hg, hz, hb, hK => by
    simp only [encodeAll, List.length_append, List.length_cons] at hb hK
    obtain ⟨calls, s1, d, h1, h2, h3, rfl, h4⟩ := hB c (by simp) s hf.null (hr.adds hf.adds)
    obtain ⟨g1, s2, k1, k2, k3, k4, k5, k6, k7, -, -⟩ := add_step he (D := D) hA hr (hf.new h3) hg (hc _ (by simp)) hz (by omega) (by omega)
    have hsz : g1.chunk.size = g.chunk.size + (encode d.chunk).length := by
      rw [k6]
      cases g with
      | raw => exact hg.elim
      | ext => exact hg.elim
      | grp => rfl
      | lst => rfl
    obtain ⟨calls', s3, g2, l1, l2, l3, l4, l5, l6⟩ := fill_subs he hA hr cs
      (fun x hx => hc x (List.mem_cons_of_mem _ hx)) (fun x hx => hB x (List.mem_cons_of_mem _ hx)) k2 k4
      (by omega) (by omega) (by omega)
    rw [k5] at l1
    refine ⟨_, s3, g2, .cons h1 l1, Sequence.append h2 (.cons k1 l2), l3, by rw [l4, k3, h4], l5.trans k5, ?_⟩
    rw [l6, k6]
    cases g with
    | raw => exact hg.elim
    | ext => exact hg.elim
    | grp => simp [Node.chunk, moreSubs, encodeAll, Int.add_assoc]
    | lst => simp [Node.chunk, moreSubs, encodeAll, Int.add_assoc]

theorem isGroup_of_prop {t : Node} (hs : Standard t.chunk) (h : t.chunk.id = idPROP) : Node.IsGroup t := by
  cases t with
  | raw => cases hs with | raw h1 h2 h3 h4 => exact absurd h h4
  | grp => trivial
  | lst => trivial
  | ext => cases hs

theorem fill_props {A : Alloc} {e : Env} (he : 32 ≤ e.sizeBits) {D : List Byte → Prop} {K : Nat}
    (hA : ServesUpTo A K) {m₀ : Mem} (hr : Roomy m₀) : ∀ (cs : List Chunk), (∀ c ∈ cs, Consistent c) →
    (∀ c ∈ cs, Standard c ∧ c.id = idPROP) →
    (∀ c ∈ cs, Built A e D c) → ∀ {s : HS} {g : Node}, Forest m₀ s.mem [g] → Node.IsList g → 0 ≤ g.chunk.size →
    g.chunk.size + ((encodeAll cs).length : Int) < 2147483648 → 8 * (propCount g + cs.length) ≤ K →
    ∃ calls s' g', Adding (.addProp g.addr) cs calls ∧ Sequence (Step A e D) s calls s' ∧ Forest m₀ s'.mem [g'] ∧
      s'.rs = s.rs ∧ Node.IsList g' ∧ g'.addr = g.addr ∧ g'.chunk = moreProps cs (encodeAll cs).length g.chunk ∧
      subCount g' = subCount g
  | [], _, _, _, s, g, hf, hg, _, _, _ => by
    refine ⟨[], s, g, .nil, .nil, hf, rfl, hg, rfl, ?_, rfl⟩
    cases g with
    | lst => simp [Node.chunk, moreProps, encodeAll]
    | _ => exact hg.elim
  | c :: cs, hc, hp, hB, s, g, hf, hg, hz, hb, hK => by
    simp only [encodeAll, List.length_append, List.length_cons] at hb hK
    obtain ⟨calls, s1, d, h1, h2, h3, rfl, h4⟩ := hB c (by simp) s hf.null (hr.adds hf.adds)
    obtain ⟨g1, s2, k1, k2, k3, k4, k5, k6, k7, k8⟩ := addProp_step he (D := D) hA hr (hf.new h3) hg
      (isGroup_of_prop (hp _ (by simp)).1 (hp _ (by simp)).2) (hc _ (by simp)) hz (by omega) (by omega)
    have hsz : g1.chunk.size = g.chunk.size + (encode d.chunk).length := by
      rw [k6]
      cases g with
      | lst => rfl
      | _ => exact hg.elim
    obtain ⟨calls', s3, g2, l1, l2, l3, l4, l5, l6, l7, l8⟩ := fill_props he hA hr cs
      (fun x hx => hc x (List.mem_cons_of_mem _ hx)) (fun x hx => hp x (List.mem_cons_of_mem _ hx))
      (fun x hx => hB x (List.mem_cons_of_mem _ hx)) k2 k4 (by omega) (by omega) (by omega)
    rw [k5] at l1
    refine ⟨_, s3, g2, .cons h1 l1, Sequence.append h2 (.cons k1 l2), l3, by rw [l4, k3, h4], l5, l6.trans k5, ?_,
      l8.trans k8⟩
    rw [l7, k6]
    cases g with
    | lst => simp [Node.chunk, moreProps, encodeAll, Int.add_assoc]
    | _ => exact hg.elim

theorem mem_dataOfAll {d : List Byte} : ∀ {cs : List Chunk} {c : Chunk}, c ∈ cs → d ∈ dataOf c → d ∈ dataOfAll cs
  | x :: cs, c, hc, hd => by
    rw [dataOfAll, List.mem_append]
    rcases List.mem_cons.mp hc with rfl | hc
    · exact .inl hd
    · exact .inr (mem_dataOfAll hc hd)

theorem built {A : Alloc} {e : Env} (he : 32 ≤ e.sizeBits) {D : List Byte → Prop} {K : Nat} (hA : ServesUpTo A K)
    (c : Chunk) : Consistent c → Standard c → ListsSplit c → (encode c).length ≤ K → (∀ d ∈ dataOf c, D d) →
    Built A e D c := by
  induction c using Chunk.ind with
  | raw id size data =>
    intro hc hs _ hK hD s h0 hr
    cases hc with | raw hsz hlt =>
    subst hsz
    have hlen := (Consistent.raw (id := id) (data := data) rfl hlt).length
    simp only [Chunk.size] at hlen
    obtain ⟨p, d, m', t', h1, h2⟩ := newRaw_step (id := id) (data := data) he hA (by omega) (by omega) h0 hr
    cases hs with | raw _ _ _ hnp =>
    exact ⟨[(.raw id data, p)], ⟨m', t', s.rs⟩, .raw p d id data.length data, .raw, .cons ⟨h1, hnp, by omega, hD _ (by simp [dataOf])⟩ .nil, h2, rfl, rfl⟩
  | grp id size ty subs ih =>
    intro hc hs hl hK hD s h0 hr
    have hlen := hc.length
    cases hc with | grp hsz hlt hcs =>
    cases hs with | grp _ hss =>
    cases hl with | grp hls =>
    simp only [Chunk.size] at hlen
    rcases createGroup_spec (A := A) (id := id) (ty := ty) (s := s) with ⟨h, -⟩ | ⟨p, m', hp, h1, h2⟩
    · have := hA.grp s.tick s.mem hr
      rw [h] at this; cases this
    · have h8 := eight_mul_le hcs
      obtain ⟨calls, s', g', k1, k2, k3, k4, k5, k6⟩ := fill_subs he hA hr subs hcs
        (fun x hx => ih x hx (hcs x hx) (hss x hx) (hls x hx) (by have := encodeAll_le hx; omega)
          fun d hd => hD d (by rw [dataOf]; exact mem_dataOfAll hx hd)) (s := ⟨m', s.tick + 1, s.rs⟩)
        (forest_of_holds h0 h2) trivial (by simp [Node.chunk, Chunk.size]) (by simp only [Node.chunk, Chunk.size]; omega) (by simp only [subCount, List.length_nil]; omega)
      refine ⟨(.group id ty, p) :: calls, s', g', ?_, .cons ⟨h1, trivial⟩ k2, holds_of_forest k3, ?_, k4⟩
      · rw [k5]; exact .grp k1
      · rw [k6, hsz]; simp [Node.chunk, moreSubs, Node.chunks]
  | lst id size ty subs props ih1 ih2 =>
    intro hc hs hl hK hD s h0 hr
    have hlen := hc.length
    cases hc with | lst hsz hlt hcs hcp =>
    cases hs with | lst hid hss hsp =>
    cases hl with | lst hn hp' hls hlp =>
    subst hid
    simp only [Chunk.size] at hlen
    rcases createList_spec (A := A) (ty := ty) (s := s) with ⟨h, -⟩ | ⟨p, m', hp, h1, h2⟩
    · have := hA.lst s.tick s.mem hr
      rw [h] at this; cases this
    · have h8 := eight_mul_le hcs
      have h9 := eight_mul_le hcp
      obtain ⟨calls, s1, g1, k1, k2, k3, k4, k5, k6, k7, k8⟩ := fill_props he hA hr props hcp
        (fun x hx => ⟨hsp x hx, hp' x hx⟩)
        (fun x hx => ih2 x hx (hcp x hx) (hsp x hx) (hlp x hx) (by have := encodeAll_le hx; omega)
          fun d hd => hD d (by rw [dataOf, List.mem_append]; exact .inl (mem_dataOfAll hx hd))) (s := ⟨m', s.tick + 1, s.rs⟩)
        (forest_of_holds h0 h2) trivial (by simp [Node.chunk, Chunk.size]) (by simp only [Node.chunk, Chunk.size]; omega) (by simp only [propCount, List.length_nil]; omega)
      have hz1 : g1.chunk.size = 4 + (encodeAll props).length := by rw [k7]; rfl
      obtain ⟨calls', s', g', l1, l2, l3, l4, l5, l6⟩ := fill_subs he hA hr subs hcs
        (fun x hx => ih1 x hx (hcs x hx) (hss x hx) (hls x hx) (by have := encodeAll_le hx; omega)
          fun d hd => hD d (by rw [dataOf, List.mem_append]; exact .inr (mem_dataOfAll hx hd))) (s := s1)
        k3 (by cases g1 <;> first | trivial | exact k5.elim) (by omega) (by omega)
        (by rw [k8]; simp only [subCount, List.length_nil]; omega)
      refine ⟨(.list ty, p) :: (calls ++ calls'), s', g', ?_, .cons ⟨h1, trivial⟩ (Sequence.append k2 l2), holds_of_forest l3, ?_, l4.trans k4⟩
      · rw [l5, k6]; exact .lst k1 (k6 ▸ l1)
      · rw [l6, k7, hsz]; simp [Node.chunk, moreSubs, moreProps, Node.chunks]
  | ext => intro _ hs; cases hs

end Iff.Heap
