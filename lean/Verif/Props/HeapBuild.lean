import Verif.Proofs.HeapBuild
import Verif.Proofs.Registry
import Verif.Props.HeapRead
/-
  C34 IFF_free releases a hierarchy exactly once (hierarchies built with the API).
  C35 Parent links are correct.
  C37 Out of memory is reported, not fatal (building).
  C38 Setting text data.
-/
namespace Iff
open Spec Heap

/-! ### Histories -/

/-- After any history of allowed calls, what the application has allocated is a set of hierarchies. -/
theorem history_forest {A : Alloc} {e : Env} (he : 32 ≤ e.sizeBits) {ok : Op → Prop} {s₀ s : HS}
    (h0 : s₀.mem 0 = none) (h : History A e ok s₀ s) : ∃ ts, Forest s₀.mem s.mem ts := by
  induction h with
  | start => exact ⟨[], .start h0⟩
  | call _ _ ha hr ih =>
    obtain ⟨ts, hf⟩ := ih
    obtain ⟨ts', hf', _⟩ := step_spec he hf ha hr
    exact ⟨ts', hf'⟩

/-! ### C35 -/

/-- C35, histories: after any history of reading, creating, adding, updating and freeing, every member
of a group and every PROP of a list has the group as its parent, and every parent pointer is NULL or
points to the group that the chunk is in. -/
theorem C35_histories (A : Alloc) (e : Env) (he : e.Sane) (ok : Op → Prop) (s₀ s : HS)
    (h0 : s₀.mem 0 = none) (h : History A e ok s₀ s) : Linked s₀.mem s.mem := by
  obtain ⟨ts, hf⟩ := history_forest he.wide h0 h
  exact hf.linked

/-- C35, reading: in what `IFF_readFd` returns, for any input and registry, parent links are correct,
and the parent of the main chunk is NULL. -/
theorem C35_read (A : Alloc) (e : Env) (reg : Option Registry)
    (hreg : ListsConsistent (selectChunkRegistry reg)) (s s' : HS) (p : Addr) (h0 : s.mem 0 = none)
    (h : Heap.readFd A e reg s = .val (p, s')) (hp : p ≠ 0) :
    ParentIs s'.mem p 0 ∧ Linked s.mem s'.mem := by
  have hrel := readFd_rel (A := A) (e := { e with mallocOk := fun _ => true }) hreg
    (fun _ _ _ _ _ => rfl) h0
  rw [readFd_env, h] at hrel
  rcases hrel.val_inv with ⟨h, _⟩ | ⟨t, rfl, hz, hh, _⟩
  · exact absurd h hp
  · exact ⟨hh.isIn.parentIs, ((Forest.start h0).new hh).linked⟩

/-- C35, creation: the parent of a new chunk is NULL. -/
theorem C35_new (A : Alloc) (e : Env) (he : e.Sane) (ok : Op → Prop) (s₀ s s' : HS)
    (h0 : s₀.mem 0 = none) (h : History A e ok s₀ s) (op : Op) (r : Addr)
    (ha : Allowed s₀.mem s.mem op) (hr : op.run A e s = .val (r, s')) (hz : r ≠ 0) :
    ParentIs s'.mem r 0 := by
  obtain ⟨ts, hf⟩ := history_forest he.wide h0 h
  obtain ⟨ts', hf', hc⟩ := step_spec he.wide hf ha hr
  cases hc with
  | new h => exact (hf'.isIn _ (List.mem_cons_self ..)).parentIs
  | _ => exact absurd rfl hz

/-- The last member of a group. -/
theorem last_member {m : Mem} {par a : Addr} {z : Int} {g c : Node} (hg : Node.IsGroup g)
    (h : In m par (Node.setSize z (Node.attach a c g))) :
    MemberAt m g.addr c.addr ∧ ParentIs m c.addr g.addr := by
  cases g with
  | raw => exact hg.elim
  | ext => exact hg.elim
  | grp p arr id size ty subs =>
    simp only [Node.setSize, Node.attach, In] at h
    refine ⟨?_, (inAll_iff.mp h.2.2 c (by simp)).parentIs⟩
    obtain ⟨cells, h1, h2⟩ := elem_at h.2.1 (i := subs.length) (by simp)
    exact ⟨_, _, cells, subs.length, h.1, rfl, h1, by simp, by rw [h2]; simp⟩
  | lst p arr parr id size ty subs props =>
    simp only [Node.setSize, Node.attach, In] at h
    refine ⟨?_, (inAll_iff.mp h.2.2.2.1 c (by simp)).parentIs⟩
    obtain ⟨cells, h1, h2⟩ := elem_at h.2.1 (i := subs.length) (by simp)
    exact ⟨_, _, cells, subs.length, h.1, rfl, h1, by simp, by rw [h2]; simp⟩

theorem last_prop {m : Mem} {par a : Addr} {z : Int} {g c : Node} (hg : Node.IsList g)
    (h : In m par (Node.setSize z (Node.attachProp a c g))) :
    PropAt m g.addr c.addr ∧ ParentIs m c.addr g.addr := by
  cases g with
  | raw => exact hg.elim
  | ext => exact hg.elim
  | grp => exact hg.elim
  | lst p arr parr id size ty subs props =>
    simp only [Node.setSize, Node.attachProp, In] at h
    refine ⟨?_, (inAll_iff.mp h.2.2.2.2 c (by simp)).parentIs⟩
    obtain ⟨cells, h1, h2⟩ := elem_at h.2.2.1 (i := props.length) (by simp)
    exact ⟨_, _, cells, props.length, h.1, rfl, h1, by simp, by rw [h2]; simp⟩

/-- C35, addition: after an add function has returned, the chunk is a member of the group, and its
parent is the group. -/
theorem C35_add (A : Alloc) (e : Env) (he : e.Sane) (ok : Op → Prop) (s₀ s s' : HS)
    (h0 : s₀.mem 0 = none) (h : History A e ok s₀ s) (p c : Addr)
    (ha : CanAdd s₀.mem s.mem p c) (hr : Heap.addToGroup A e p c s = .val ((), s')) :
    MemberAt s'.mem p c ∧ ParentIs s'.mem c p := by
  obtain ⟨ts, hf⟩ := history_forest he.wide h0 h
  obtain ⟨fs, g, d, rest, hperm, rfl, rfl, hg, hin, hind, hnd⟩ := forest_canAdd hf ha
  rcases add_spec (A := A) (e := e) hg hin hind hnd hf.null with ⟨_, h⟩ | ⟨u, _, h⟩ |
    ⟨a, z, m', h1, h2, h3, h4, h5, h6⟩
  · rw [h] at hr; cases hr
  · rw [h] at hr; cases hr
  · rw [h2] at hr; cases hr
    exact last_member hg h4

/-- C35, addition of a PROP to a LIST. -/
theorem C35_add_prop (A : Alloc) (e : Env) (he : e.Sane) (ok : Op → Prop) (s₀ s s' : HS)
    (h0 : s₀.mem 0 = none) (h : History A e ok s₀ s) (p c : Addr)
    (ha : CanAdd s₀.mem s.mem p c) (hl : ∃ b l, s.mem p = some b ∧ b.lst? = some l)
    (hr : Heap.addPropToList A e p c s = .val ((), s')) :
    PropAt s'.mem p c ∧ ParentIs s'.mem c p := by
  obtain ⟨ts, hf⟩ := history_forest he.wide h0 h
  obtain ⟨b, l, hb, hl⟩ := hl
  obtain ⟨fs, g, d, rest, hperm, rfl, rfl, hg, hin, hind, hnd⟩ := forest_canAdd hf ha
  have hlist := isList_of hin hb hl
  rcases addProp_spec (A := A) (e := e) hlist hin hind hnd hf.null with ⟨_, h⟩ | ⟨u, _, h⟩ |
    ⟨a, z, m', h1, h2, h3, h4, h5, h6⟩
  · rw [h] at hr; cases hr
  · rw [h] at hr; cases hr
  · rw [h2] at hr; cases hr
    exact last_prop hlist h4

/-- C35, addition with update of the contents type. -/
theorem C35_add_auto (A : Alloc) (e : Env) (he : e.Sane) (ok : Op → Prop) (s₀ s s' : HS)
    (h0 : s₀.mem 0 = none) (h : History A e ok s₀ s) (p c : Addr)
    (ha : CanAdd s₀.mem s.mem p c) (hr : Heap.addAndUpdate A e p c s = .val ((), s')) :
    MemberAt s'.mem p c ∧ ParentIs s'.mem c p := by
  obtain ⟨ts, hf⟩ := history_forest he.wide h0 h
  obtain ⟨fs, g, d, rest, hperm, rfl, rfl, hg, hin, hind, hnd⟩ := forest_canAdd hf ha
  have hnd' := hnd
  rw [List.nodup_append] at hnd'
  rcases updateContents_spec hg hin hind hnd'.1 hf.null with ⟨u, _, h⟩ | ⟨ty, m1, k1, k2, k3, k4, k5⟩
  · simp only [Heap.addAndUpdate, M.bind_apply, h] at hr; cases hr
  · simp only [Heap.addAndUpdate, M.bind_apply, k2] at hr
    have hd1 : In m1 0 d := hind.frame fun x hx => k5 x fun e =>
      hnd'.2.2 x (e ▸ g.addr_mem) x hx rfl
    rcases add_spec (A := A) (e := e) (s := ⟨m1, s.tick, s.rs⟩) (setTy_isGroup (ty := ty) hg) k4 hd1
      (by rw [setTy_blocks]; exact hnd) k3 with ⟨_, h⟩ | ⟨u, _, h⟩ |
      ⟨a, z, m', h1, h2, h3, h4, h5, h6⟩
    · rw [setTy_addr] at h; rw [h] at hr; cases hr
    · rw [setTy_addr] at h; rw [h] at hr; cases hr
    · rw [setTy_addr] at h2; rw [h2] at hr; cases hr
      have := last_member (setTy_isGroup hg) h4
      rw [setTy_addr] at this
      exact this

/-! ### C34 -/

theorem out_bind_val {α β : Type} {x : Out α} {f : α → Out β} {y : β} (h : x >>= f = .val y) :
    ∃ a, x = .val a ∧ f a = .val y := by
  cases x with
  | val a => exact ⟨a, rfl, h⟩
  | ub u => cases h
  | loop => cases h

theorem released_any {ft ft' : ID} {c : Chunk} (h : Released defaultRegistry ft c) :
    Released defaultRegistry ft' c := by
  have hid : ∀ id, findChunkType defaultRegistry ft id = findChunkType defaultRegistry ft' id := by
    intro id; rw [findChunkType_default, findChunkType_default]
  cases h with
  | raw h => exact .raw (hid _ ▸ h)
  | ext h => exact .ext (hid _ ▸ h)
  | grp h hs => exact .grp (by rw [← hid]; exact h) hs
  | lst h h1 h2 => exact .lst (by rw [← hid]; exact h) h1 h2

/-- A part of a hierarchy that the default registry releases can be replaced by another one. -/
theorem released_plug : ∀ {fs : List Frame} {g g' : Node} {ft : ID},
    Released defaultRegistry ft (plug fs g).chunk →
    Released defaultRegistry 0 g.chunk ∧
      (Released defaultRegistry 0 g'.chunk → Released defaultRegistry ft (plug fs g').chunk)
  | [], g, g', ft, h => ⟨released_any h, fun h => released_any h⟩
  | f :: fs, g, g', ft, h => by
    obtain ⟨h1, h2⟩ := released_plug (fs := fs) (g := f.fill g) (g' := f.fill g') h
    have key : Released defaultRegistry 0 g.chunk ∧ (Released defaultRegistry 0 g'.chunk →
        Released defaultRegistry 0 (f.fill g').chunk) := by
      cases f with
      | grp a arr id size ty pre post =>
        simp only [Frame.fill, Node.chunk, Node.chunks_eq] at h1 ⊢
        cases h1 with
        | grp hk hs =>
          refine ⟨released_any (hs _ (by simp)), fun h => .grp hk fun c hc => ?_⟩
          simp only [List.map_append, List.map_cons, List.mem_append, List.mem_cons] at hc
          rcases hc with hc | rfl | hc
          · exact hs _ (by simp only [List.map_append, List.mem_append]; exact .inl hc)
          · exact released_any h
          · exact hs _ (by simp only [List.map_append, List.map_cons, List.mem_append,
              List.mem_cons]; exact .inr (.inr hc))
      | sub a arr parr id size ty pre post props =>
        simp only [Frame.fill, Node.chunk, Node.chunks_eq] at h1 ⊢
        cases h1 with
        | lst hk hs hp =>
          refine ⟨released_any (hs _ (by simp)), fun h => .lst hk (fun c hc => ?_) hp⟩
          simp only [List.map_append, List.map_cons, List.mem_append, List.mem_cons] at hc
          rcases hc with hc | rfl | hc
          · exact hs _ (by simp only [List.map_append, List.mem_append]; exact .inl hc)
          · exact released_any h
          · exact hs _ (by simp only [List.map_append, List.map_cons, List.mem_append,
              List.mem_cons]; exact .inr (.inr hc))
      | prop a arr parr id size ty subs pre post =>
        simp only [Frame.fill, Node.chunk, Node.chunks_eq] at h1 ⊢
        cases h1 with
        | lst hk hs hp =>
          refine ⟨released_any (hp _ (by simp)), fun h => .lst hk hs (fun c hc => ?_)⟩
          simp only [List.map_append, List.map_cons, List.mem_append, List.mem_cons] at hc
          rcases hc with hc | rfl | hc
          · exact hp _ (by simp only [List.map_append, List.mem_append]; exact .inl hc)
          · exact released_any h
          · exact hp _ (by simp only [List.map_append, List.map_cons, List.mem_append,
              List.mem_cons]; exact .inr (.inr hc))
    exact ⟨key.1, fun h => h2 (key.2 h)⟩

theorem released_add {e : Env} {g c g' : Chunk} (hg : Released defaultRegistry 0 g)
    (hc : Released defaultRegistry 0 c) (h : Iff.addToGroup e g c = .val g') :
    Released defaultRegistry 0 g' := by
  cases hg with
  | raw => simp [Iff.addToGroup] at h
  | ext => simp [Iff.addToGroup] at h
  | grp hk hs =>
    simp only [Iff.addToGroup] at h
    obtain ⟨z, _, h⟩ := out_bind_val h
    cases h
    refine .grp hk fun d hd => ?_
    rcases List.mem_append.mp hd with hd | hd
    · exact hs d hd
    · rw [List.mem_singleton] at hd; subst hd; exact released_any hc
  | lst hk hs hp =>
    simp only [Iff.addToGroup] at h
    obtain ⟨z, _, h⟩ := out_bind_val h
    cases h
    refine .lst hk (fun d hd => ?_) hp
    rcases List.mem_append.mp hd with hd | hd
    · exact hs d hd
    · rw [List.mem_singleton] at hd; subst hd; exact released_any hc

theorem released_addProp {e : Env} {g c g' : Chunk} (hg : Released defaultRegistry 0 g)
    (hc : Released defaultRegistry 0 c) (h : Iff.addPropToList e g c = .val g') :
    Released defaultRegistry 0 g' := by
  cases hg with
  | raw => simp [Iff.addPropToList] at h
  | ext => simp [Iff.addPropToList] at h
  | grp => simp [Iff.addPropToList] at h
  | lst hk hs hp =>
    cases c with
    | grp =>
      simp only [Iff.addPropToList] at h
      obtain ⟨z, _, h⟩ := out_bind_val h
      cases h
      refine .lst hk hs (fun d hd => ?_)
      rcases List.mem_append.mp hd with hd | hd
      · exact hp d hd
      · rw [List.mem_singleton] at hd; subst hd; exact released_any hc
    | _ => simp [Iff.addPropToList] at h

theorem released_addAuto {e : Env} {g c g' : Chunk} (hg : Released defaultRegistry 0 g)
    (hc : Released defaultRegistry 0 c) (h : Iff.addAndUpdate e g c = .val g') :
    Released defaultRegistry 0 g' := by
  simp only [Iff.addAndUpdate] at h
  obtain ⟨g1, h1, h⟩ := out_bind_val h
  refine released_add ?_ hc h
  simp only [Iff.updateContentsType] at h1
  split at h1
  · obtain ⟨t, _, h1⟩ := out_bind_val h1
    cases hg with
    | raw => cases h1
    | ext => cases h1
    | grp hk hs => cases h1; exact .grp hk fun c hc => released_any (hs c hc)
    | lst hk hs hp =>
      cases h1
      exact .lst hk (fun c hc => released_any (hs c hc)) fun c hc => released_any (hp c hc)
  · cases h1; exact hg

/-- Which functions release a hierarchy does not depend on the declared sizes. -/
theorem released_unsized {r : Registry} : ∀ {c c' : Chunk} {ft : ID}, unsized c' = unsized c →
    Released r ft c → Released r ft c' := by
  have all : ∀ (cs : List Chunk), (∀ c ∈ cs, ∀ {c' : Chunk} {ft : ID}, unsized c' = unsized c →
      Released r ft c → Released r ft c') → ∀ {cs' : List Chunk} {ft : ID},
      unsizedAll cs' = unsizedAll cs → (∀ c ∈ cs, Released r ft c) → ∀ c ∈ cs', Released r ft c := by
    intro cs
    induction cs with
    | nil =>
      intro _ cs' ft h _
      cases cs' with
      | nil => simp
      | cons => simp [unsizedAll] at h
    | cons c cs ih =>
      intro hc cs' ft h hr
      cases cs' with
      | nil => simp
      | cons c' cs' =>
        simp only [unsizedAll, List.cons.injEq] at h
        intro d hd
        rcases List.mem_cons.mp hd with rfl | hd
        · exact hc c (by simp) h.1 (hr c (by simp))
        · exact ih (fun x hx => hc x (by simp [hx])) h.2 (fun x hx => hr x (by simp [hx])) d hd
  intro c
  induction c using Chunk.ind with
  | raw id size data =>
    intro c' ft h hr
    cases c' <;> simp only [unsized, reduceCtorEq, Chunk.raw.injEq] at h
    cases hr with
    | raw hk => exact .raw (h.1 ▸ hk)
  | ext id size vals =>
    intro c' ft h hr
    cases c' <;> simp only [unsized, reduceCtorEq, Chunk.ext.injEq] at h
    cases hr with
    | ext hk => exact .ext (by rw [h.1]; exact hk)
  | grp id size ty subs ih =>
    intro c' ft h hr
    cases c' <;> simp only [unsized, reduceCtorEq, Chunk.grp.injEq] at h
    obtain ⟨rfl, _, rfl, h⟩ := h
    cases hr with
    | grp hk hs => exact .grp hk (all subs (fun c hc => ih c hc) h hs)
  | lst id size ty subs props ih ih2 =>
    intro c' ft h hr
    cases c' <;> simp only [unsized, reduceCtorEq, Chunk.lst.injEq] at h
    obtain ⟨rfl, _, rfl, h, h'⟩ := h
    cases hr with
    | lst hk hs hp =>
      exact .lst hk (all subs (fun c hc => ih c hc) h hs) (all props (fun c hc => ih2 c hc) h' hp)

/-- In a history without application chunk types, the default registry releases all hierarchies. -/
theorem history_released {A : Alloc} {e : Env} (he : 32 ≤ e.sizeBits) {s₀ s : HS}
    (h0 : s₀.mem 0 = none) (h : History A e StandardCall s₀ s) :
    ∃ ts, Forest s₀.mem s.mem ts ∧ ∀ t ∈ ts, Released defaultRegistry 0 t.chunk := by
  induction h with
  | start => exact ⟨[], .start h0, by simp⟩
  | @call s op r s' _ hok ha hr ih =>
    obtain ⟨ts, hf, hrel⟩ := ih
    obtain ⟨ts', hf', hc⟩ := step_spec he hf ha hr
    refine ⟨ts', hf', ?_⟩
    have hplug : ∀ {fs : List Frame} {g g' c : Node} {rest : List Node},
        ts.Perm (plug fs g :: c :: rest) →
        (Released defaultRegistry 0 g.chunk → Released defaultRegistry 0 c.chunk →
          Released defaultRegistry 0 g'.chunk) →
        ∀ t ∈ plug fs g' :: rest, Released defaultRegistry 0 t.chunk := by
      intro fs g g' c rest hp hstep t ht
      have h1 := hrel (plug fs g) (hp.mem_iff.mpr (by simp))
      have h2 := hrel c (hp.mem_iff.mpr (by simp))
      rcases List.mem_cons.mp ht with rfl | ht
      · have := released_plug (g' := g') h1
        exact this.2 (hstep this.1 h2)
      · exact hrel t (hp.mem_iff.mpr (by simp [ht]))
    cases hc with
    | none => exact hrel
    | @new op t ts hm =>
      intro u hu
      rcases List.mem_cons.mp hu with rfl | hu
      · cases op with
        | read reg bytes =>
          have : reg = none := hok
          subst this
          exact hm.1
        | raw id data =>
          simp only [Makes] at hm
          rw [hm]
          refine .raw ?_
          rw [findChunkType_default, if_neg hok.1, if_neg hok.2.1, if_neg hok.2.2.1,
            if_neg hok.2.2.2]
        | group id ty =>
          simp only [Makes] at hm
          rw [hm]
          refine .grp ?_ (by simp)
          rw [findChunkType_default]
          rcases hok with rfl | rfl | rfl
          · exact .inl (if_pos rfl)
          · exact .inr (.inl (by rw [if_neg (by decide), if_pos rfl]))
          · exact .inr (.inr (by
              rw [if_neg (by decide), if_neg (by decide), if_neg (by decide), if_pos rfl]))
        | list ty =>
          simp only [Makes] at hm
          rw [hm]
          refine .lst ?_ (by simp) (by simp)
          rw [findChunkType_default, if_neg (by decide), if_neg (by decide), if_pos rfl]
        | ext id size vals => exact hok.elim
        | _ => exact hm.elim
      · exact hrel u hu
    | add hp _ hv => exact hplug hp fun hg hc => released_add hg hc hv
    | addProp hp _ hv => exact hplug hp fun hg hc => released_addProp hg hc hv
    | addAuto hp _ hv => exact hplug hp fun hg hc => released_addAuto hg hc hv
    | update h =>
      intro t ht
      have : (t.addr, t.blocks, unsized t.chunk) ∈ ts.map
          (fun t => (t.addr, t.blocks, unsized t.chunk)) := h ▸ List.mem_map_of_mem ht
      obtain ⟨u, hu, heq⟩ := List.mem_map.mp this
      simp only [Prod.mk.injEq] at heq
      exact released_unsized heq.2.2.symm (hrel u hu)
    | free hp => exact fun t ht => hrel t (hp.mem_iff.mpr (by simp [ht]))

/-- C34 for hierarchies built with the API: after any history of calls (reading, creating, adding,
updating, freeing) without application chunk types, `IFF_free` on any chunk of the application that is
not in a group frees each block of its hierarchy exactly once, and no other block.  `n` bounds the
recursion depth. -/
theorem C34_built (A : Alloc) (e : Env) (he : e.Sane) (s₀ s : HS) (h0 : s₀.mem 0 = none)
    (h : History A e StandardCall s₀ s) (p : Addr) (ho : Own s₀.mem p) (hp : ParentIs s.mem p 0) :
    ∃ t : Node, t.addr = p ∧ In s.mem 0 t ∧ t.blocks.Nodup ∧ (∀ a ∈ t.blocks, s₀.mem a = none) ∧
      ∀ n, depth t.chunk ≤ n → ∃ s', iffFree none n p s = .val ((), s') ∧
        (∀ a ∈ t.blocks, s'.mem a = none) ∧ (∀ a, a ∉ t.blocks → s'.mem a = s.mem a) ∧
        History A e StandardCall s₀ s' := by
  obtain ⟨ts, hf, hrel⟩ := history_released he.wide h0 h
  obtain ⟨t, ht, rfl⟩ := forest_root hf ho hp
  have hsub : ∀ a ∈ t.blocks, a ∈ Node.blocksAll ts := fun a ha =>
    Node.mem_blocksAll.mpr ⟨t, ht, ha⟩
  have hnd : t.blocks.Nodup := by
    obtain ⟨l1, l2, rfl⟩ := List.append_of_mem ht
    have := hf.distinct
    rw [Node.blocksAll_append, Node.blocksAll_cons, List.nodup_append, List.nodup_append] at this
    exact this.2.1.1
  refine ⟨t, rfl, hf.isIn t ht, hnd, fun a ha => hf.adds.1 a (hsub a ha), fun n hn => ?_⟩
  have hfree := freeChunk_spec (hf.isIn t ht) hnd hf.null (hrel t ht) hn s rfl
  refine ⟨_, hfree, fun a ha => Mem.without_of_mem ha, fun a ha => Mem.without_of_notMem ha, ?_⟩
  refine .call (op := .free none n t.addr) (r := 0) h trivial
    ⟨ho, t, hf.isIn t ht, rfl, hrel t ht, hn⟩ ?_
  simp only [Op.run, iffFree, M.bind_apply]
  rw [show selectChunkRegistry none = defaultRegistry from rfl, hfree]
  rfl

/-- C34, nothing is leaked: whatever an application does, once it has freed all its hierarchies (no
chunk without a parent is left), the heap is what it was at the start. -/
theorem C34_no_leak (A : Alloc) (e : Env) (he : e.Sane) (ok : Op → Prop) (s₀ s : HS)
    (h0 : s₀.mem 0 = none) (h : History A e ok s₀ s)
    (hall : ∀ p, Own s₀.mem p → ¬ ParentIs s.mem p 0) : s.mem = s₀.mem := by
  obtain ⟨ts, hf⟩ := history_forest he.wide h0 h
  cases ts with
  | nil => funext a; exact hf.adds.2 a (by simp)
  | cons t ts =>
    exfalso
    refine hall t.addr (hf.adds.1 _ ?_) (hf.isIn t (by simp)).parentIs
    rw [Node.blocksAll_cons]
    exact List.mem_append_left _ t.addr_mem

/-! ### Adding with pointers does what adding values does (C27, C28) -/

theorem Roomy.of_adds {m₀ m : Mem} {bs : List Addr} (h : Roomy m₀) (ha : Adds m₀ m bs) : Roomy m := by
  obtain ⟨b, hb⟩ := h
  have hmax : ∃ k : Nat, ∀ a ∈ bs, ∀ n : Nat, n = a → n < k := by
    clear ha hb
    induction bs with
    | nil => exact ⟨0, by simp⟩
    | cons x xs ih =>
      obtain ⟨k, hk⟩ := ih
      refine ⟨max k (x + 1), fun a ha n hn => ?_⟩
      rcases List.mem_cons.mp ha with rfl | ha
      · subst hn; exact Nat.lt_of_lt_of_le (Nat.lt_succ_self _) (Nat.le_max_right ..)
      · exact Nat.lt_of_lt_of_le (hk a ha n hn) (Nat.le_max_left ..)
  obtain ⟨k, hk⟩ := hmax
  refine ⟨max b k, fun a hab => ?_⟩
  have h1 : b ≤ a := Nat.le_trans (Nat.le_max_left ..) hab
  have h2 : k ≤ a := Nat.le_trans (Nat.le_max_right ..) hab
  rw [ha.2 a fun h => absurd (hk a h a rfl) (Nat.not_lt.mpr h2)]
  exact hb a h1

/-- C27, C28 with pointers: an allowed call of an add function works on the hierarchies at its two
arguments, and leaves at the group the hierarchy that the add function on values gives; it is undefined
exactly if that is (an overflow of the size), or a refused array was stored to. -/
theorem C27_heap_add (A : Alloc) (e : Env) (he : e.Sane) (ok : Op → Prop) (s₀ s : HS)
    (h0 : s₀.mem 0 = none) (h : History A e ok s₀ s) (p c : Addr)
    (ha : CanAdd s₀.mem s.mem p c) :
    ∃ (g d : Node) (par : Addr), g.addr = p ∧ d.addr = c ∧ In s.mem par g ∧ In s.mem 0 d ∧
      ((∃ s' g', Heap.addToGroup A e p c s = .val ((), s') ∧ g'.addr = p ∧ In s'.mem par g' ∧
          Iff.addToGroup e g.chunk d.chunk = .val g'.chunk) ∨
        (∃ u, Heap.addToGroup A e p c s = .ub u ∧ Iff.addToGroup e g.chunk d.chunk = .ub u) ∨
        (Heap.addToGroup A e p c s = .ub .nullDeref ∧ (Roomy s₀.mem → ¬ ArraysOk A))) := by
  obtain ⟨ts, hf⟩ := history_forest he.wide h0 h
  obtain ⟨fs, g, d, rest, hperm, rfl, rfl, hg, hin, hind, hnd⟩ := forest_canAdd hf ha
  refine ⟨g, d, _, rfl, rfl, hin, hind, ?_⟩
  rcases add_spec (A := A) (e := e) hg hin hind hnd hf.null with ⟨h1, h2⟩ | ⟨u, h1, h2⟩ |
    ⟨a, z, m', h1, h2, h3, h4, h5, h6⟩
  · exact .inr (.inr ⟨h2, fun hr => h1 (Roomy.of_adds hr hf.adds)⟩)
  · refine .inr (.inl ⟨u, h2, ?_⟩)
    cases g with
    | raw => exact hg.elim
    | ext => exact hg.elim
    | grp a arr id size ty subs =>
      have h1 : incrementChunkSize e size d.chunk.size = .ub u := h1
      simp [Node.chunk, Iff.addToGroup, h1]
    | lst a arr parr id size ty subs props =>
      have h1 : incrementChunkSize e size d.chunk.size = .ub u := h1
      simp [Node.chunk, Iff.addToGroup, h1]
  · exact .inl ⟨_, _, h2, by simp, h4, add_value hg h1⟩

/-! ### C37 -/

/-- C37, creation: the create functions always return; if a request is refused they return NULL and
leave the heap as it was. -/
theorem C37_create (A : Alloc) (e : Env) (he : e.Sane) (s : HS) (h0 : s.mem 0 = none) (op : Op)
    (hop : (∃ id ty, op = .group id ty) ∨ (∃ ty, op = .list ty) ∨
      (∃ id size vals, op = .ext id size vals) ∨
      ∃ id data, op = .raw id data ∧ data.length < 2147483648) :
    ∃ r s', op.run A e s = .val (r, s') ∧ s'.rs = s.rs ∧ (r = 0 → s'.mem = s.mem) := by
  rcases hop with ⟨id, ty, rfl⟩ | ⟨ty, rfl⟩ | ⟨id, size, vals, rfl⟩ | ⟨id, data, rfl, hl⟩
  · rcases createGroup_spec (A := A) (id := id) (ty := ty) (s := s) with ⟨_, h⟩ | ⟨p, m', hp, h, _⟩
    · exact ⟨_, _, h, rfl, fun _ => rfl⟩
    · exact ⟨_, _, h, rfl, fun h => absurd h hp⟩
  · rcases createList_spec (A := A) (ty := ty) (s := s) with ⟨_, h⟩ | ⟨p, m', hp, h, _⟩
    · exact ⟨_, _, h, rfl, fun _ => rfl⟩
    · exact ⟨_, _, h, rfl, fun h => absurd h hp⟩
  · rcases createExt_spec (A := A) (id := id) (size := size) (vals := vals) (s := s)
      with ⟨_, h⟩ | ⟨p, m', hp, h, _⟩
    · exact ⟨_, _, h, rfl, fun _ => rfl⟩
    · exact ⟨_, _, h, rfl, fun h => absurd h hp⟩
  · rcases newRaw_spec (A := A) (id := id) he.wide hl h0 with ⟨t', h, _⟩ | ⟨p, d, m', t', hp, h, _⟩
    · exact ⟨_, _, h, rfl, fun _ => rfl⟩
    · exact ⟨_, _, h, rfl, fun h => absurd h hp⟩

/-- C37, addition, the part that holds: if no array is refused and the size does not overflow, the add
function returns.  Missing: refused arrays, for which C37 is false (`C37_add_refused`). -/
theorem C37_add_partial (A : Alloc) (hA : ArraysOk A) (e : Env) (he : e.Sane) (ok : Op → Prop)
    (s₀ s : HS) (h0 : s₀.mem 0 = none) (hr : Roomy s₀.mem) (h : History A e ok s₀ s) (p c : Addr)
    (ha : CanAdd s₀.mem s.mem p c)
    (hfit : ∀ b h b' h', s.mem p = some b → b.hdr? = some h → s.mem c = some b' →
      b'.hdr? = some h' → 0 ≤ h.size ∧ 0 ≤ h'.size ∧ h.size + h'.size + 9 < 2147483648) :
    ∃ s', Heap.addToGroup A e p c s = .val ((), s') := by
  obtain ⟨ts, hf⟩ := history_forest he.wide h0 h
  obtain ⟨fs, g, d, rest, hperm, rfl, rfl, hg, hin, hind, hnd⟩ := forest_canAdd hf ha
  rcases add_spec (A := A) (e := e) hg hin hind hnd hf.null with ⟨h1, h2⟩ | ⟨u, h1, h2⟩ |
    ⟨a, z, m', h1, h2, h3, h4, h5, h6⟩
  · exact absurd hA (h1 (Roomy.of_adds hr hf.adds))
  · exfalso
    obtain ⟨b, hb, hh⟩ := hin.hdr
    obtain ⟨b', hb', hh'⟩ := hind.hdr
    obtain ⟨k1, k2, k3⟩ := hfit b _ b' _ hb hh hb' hh'
    simp only at k1 k2 k3
    rw [incrementChunkSize_ok e he.wide k1 k2 (by omega)] at h1
    cases h1
  · exact ⟨_, h2⟩

/-- C37 is false of the add functions: if the request for the array of members is refused, the add
function always stores through NULL, for every group and every chunk. -/
theorem C37_add_refused (A : Alloc) (hA : ∀ t m n, A.pick t m (.array n) = none) (e : Env) (s : HS)
    (h0 : s.mem 0 = none) (par : Addr) (g : Node) (hg : Node.IsGroup g) (hin : In s.mem par g)
    (c : Addr) : Heap.addToGroup A e g.addr c s = .ub .nullDeref := by
  obtain ⟨b, gr, ps, hb, hgr, harr⟩ : ∃ b gr ps, s.mem g.addr = some b ∧ b.grp? = some gr ∧
      ArrayIn s.mem gr.arr ps := by
    cases g with
    | raw => exact hg.elim
    | ext => exact hg.elim
    | grp => simp only [In] at hin; exact ⟨_, _, _, hin.1, rfl, hin.2.1⟩
    | lst => simp only [In] at hin; exact ⟨_, _, _, hin.1, rfl, hin.2.1⟩
  have hre : reallocPtrs A gr.arr (gr.len + 1) s = .val (0, ⟨s.mem, s.tick + 1, s.rs⟩) := by
    rcases harr with ⟨_, h⟩ | ⟨_, h1, h2⟩
    · simp [reallocPtrs, h, malloc, hA]
    · simp [reallocPtrs, h1, h2, hA]
  have hgr' : (b.setGrp { gr with arr := 0 }).grp? = some { gr with arr := 0 } := by
    cases b <;> simp_all [Block.grp?, Block.setGrp]
  have hz := hin.ne_zero h0 g.addr_mem
  simp only [Heap.addToGroup, attachToGroup, M.bind_apply, getGrp_eq hb hgr, hre]
  rw [updGrp_eq (s := ⟨s.mem, s.tick + 1, s.rs⟩) hb hgr]
  simp only [M.bind_apply]
  rw [getGrp_eq (s := ⟨_, _, _⟩) (Mem.set_same _ _ _) hgr']
  simp only [setPtr, M.bind_apply]
  rw [load_null (s := ⟨_, _, _⟩) (by dsimp only; rw [Mem.set_ne (Ne.symm hz), h0])]

/-! ### C38 -/

/-- What `IFF_setTextData` does when the request for the new data is granted. -/
theorem setText_run {A : Alloc} {s : HS} {p d : Addr} {h : Hdr} {dOld : Addr} {text : List Byte}
    (hp : s.mem p = some (.raw h dOld)) (hpick : A.pick s.tick s.mem (.data text.length) = some d) :
    setText A p text s = .val ((), ⟨(s.mem.set d (some (.bytes (text.map some)))).set p
      (some (.raw { h with size := wrapInt text.length } d)), s.tick + 1, s.rs⟩) := by
  obtain ⟨hd1, hd2⟩ := A.sound hpick
  have hdp : d ≠ p := by rintro rfl; rw [hp] at hd2; cases hd2
  simp only [setText, M.bind_apply, malloc, hpick, copyBytes]
  rw [load_eq (s := ⟨_, _, _⟩) (Mem.set_same _ _ _)]
  simp only [List.length_replicate, Nat.le_refl, and_self, if_true, List.take_length]
  rw [store_eq (s := ⟨_, _, _⟩) (Mem.set_same _ _ _)]
  have hdrop : List.drop text.length (List.replicate text.length (none : Option Byte)) = [] := by simp
  simp only [hdrop, List.append_nil, Mem.set_set, setRawData, M.bind_apply]
  rw [load_eq (s := ⟨_, _, _⟩) (b := .raw h dOld) (by dsimp only; rw [Mem.set_ne (Ne.symm hdp), hp])]
  simp only
  rw [store_eq (s := ⟨_, _, _⟩) (b := .raw h dOld) (by dsimp only; rw [Mem.set_ne (Ne.symm hdp), hp])]

/-- C38, the part that holds: if the request for the new data is granted and the text is shorter than
2^31, then after `IFF_setTextData` the chunk's size is the text length and its data the text, in a new
block, and nothing else has changed.  Missing: that the previous data is not leaked, which is false
(`C38_false`), and that a refused request is reported, which is false too (`C38_refused`). -/
theorem C38_partial (A : Alloc) (s : HS) (par p dOld : Addr) (id : ID) (size : Int)
    (old text : List Byte) (hin : In s.mem par (.raw p dOld id size old))
    (hl : text.length < 2147483648)
    (hok : (A.pick s.tick s.mem (.data text.length)).isSome) :
    ∃ d s', setText A p text s = .val ((), s') ∧ s.mem d = none ∧
      In s'.mem par (.raw p d id text.length text) ∧
      ∀ a, a ≠ p → a ≠ d → s'.mem a = s.mem a := by
  obtain ⟨d, hpick⟩ := Option.isSome_iff_exists.mp hok
  obtain ⟨hd1, hd2⟩ := A.sound hpick
  simp only [In] at hin
  have hdp : d ≠ p := by rintro rfl; rw [hin.1] at hd2; cases hd2
  refine ⟨d, _, setText_run hin.1 hpick, hd2, ?_, ?_⟩
  · simp only [In]
    refine ⟨?_, ?_⟩
    · rw [Mem.set_same, wrapInt_id (by unfold inInt; omega)]
    · rw [Mem.set_ne hdp, Mem.set_same]
  · intro a h1 h2
    show Mem.set _ _ _ a = _
    rw [Mem.set_ne h1, Mem.set_ne h2]

/-- C38 is false, for every chunk and every text: the previous data block is still allocated, and no
longer part of the chunk, so that freeing the chunk does not free it. -/
theorem C38_false (A : Alloc) (s s' : HS) (par p dOld : Addr) (id : ID) (size : Int)
    (old text : List Byte) (h0 : s.mem 0 = none) (hin : In s.mem par (.raw p dOld id size old))
    (hid : id ≠ idFORM ∧ id ≠ idCAT ∧ id ≠ idLIST ∧ id ≠ idPROP)
    (h : setText A p text s = .val ((), s')) :
    ∃ s'', iffFree none 1 p s' = .val ((), s'') ∧ s''.mem p = none ∧
      s''.mem dOld = some (.bytes (old.map some)) := by
  simp only [In] at hin
  have hz : p ≠ 0 := by rintro rfl; rw [h0] at hin; cases hin.1
  have hop : dOld ≠ p := by rintro rfl; rw [hin.1] at hin; cases hin.2
  cases hpick : A.pick s.tick s.mem (.data text.length) with
  | none =>
    simp only [setText, M.bind_apply, malloc, hpick, copyBytes] at h
    rw [load_null (s := ⟨s.mem, s.tick + 1, s.rs⟩) h0] at h
    cases h
  | some d =>
    obtain ⟨hd1, hd2⟩ := A.sound hpick
    have hdp : d ≠ p := by rintro rfl; rw [hin.1] at hd2; cases hd2
    have hdo : d ≠ dOld := by rintro rfl; rw [hin.2] at hd2; cases hd2
    rw [setText_run hin.1 hpick] at h
    cases h
    have hin' : In ((s.mem.set d (some (.bytes (text.map some)))).set p
        (some (.raw ⟨par, id, wrapInt text.length⟩ d))) par
        (.raw p d id (wrapInt text.length) text) := by
      simp only [In]
      exact ⟨Mem.set_same _ _ _, by rw [Mem.set_ne hdp, Mem.set_same]⟩
    have hrel : Released (selectChunkRegistry none) 0 (.raw id (wrapInt text.length) text) := by
      refine .raw ?_
      show findChunkType defaultRegistry 0 id = .raw
      rw [findChunkType_default, if_neg hid.1, if_neg hid.2.1, if_neg hid.2.2.1, if_neg hid.2.2.2]
    refine ⟨_, freeChunk_spec hin' (by simp [Node.blocks, Ne.symm hdp]) ?_ hrel (by simp [Node.chunk, depth])
      ⟨_, s.tick + 1, s.rs⟩ rfl, ?_, ?_⟩
    · rw [Mem.set_ne (Ne.symm hz), Mem.set_ne (Ne.symm hd1), h0]
    · exact Mem.without_of_mem (by simp [Node.blocks])
    · refine (Mem.without_of_notMem (by simp [Node.blocks, hop, Ne.symm hdo])).trans ?_
      rw [Mem.set_ne hop, Mem.set_ne (Ne.symm hdo), hin.2]

/-- C38: if the request for the new data is refused, `IFF_setTextData` copies the text to NULL. -/
theorem C38_refused (A : Alloc) (s : HS) (h0 : s.mem 0 = none) (p : Addr) (text : List Byte)
    (hno : A.pick s.tick s.mem (.data text.length) = none) :
    setText A p text s = .ub .nullDeref := by
  simp only [setText, M.bind_apply, malloc, hno, copyBytes]
  rw [load_null (s := ⟨s.mem, s.tick + 1, s.rs⟩) h0]

/-! ### An application -/

/-- The results of two calls, and the first blocks of the heap afterwards. -/
def twoCalls (A : Alloc) (e : Env) (op1 op2 : Op) (s : HS) :
    Option (Addr × Addr × List (Option Block)) :=
  match op1.run A e s with
  | .val (r1, s1) =>
    match op2.run A e s1 with
    | .val (r2, s2) => some (r1, r2, (List.range 5).map s2.mem)
    | _ => none
  | _ => none

theorem twoCalls_eq {A : Alloc} {e : Env} {op1 op2 : Op} {s : HS} {r1 r2 : Addr}
    {bs : List (Option Block)} (h : twoCalls A e op1 op2 s = some (r1, r2, bs)) :
    ∃ s1 s2, op1.run A e s = .val (r1, s1) ∧ op2.run A e s1 = .val (r2, s2) ∧
      (List.range 5).map s2.mem = bs := by
  simp only [twoCalls] at h
  split at h
  · rename_i r1' s1 h1
    split at h
    · rename_i r2' s2 h2
      simp only [Option.some.injEq, Prod.mk.injEq] at h
      obtain ⟨rfl, rfl, rfl⟩ := h
      exact ⟨s1, s2, h1, h2, rfl⟩
    · cases h
  · cases h

/-- The hypotheses of C34, C35 and C37 are met by an application that creates a FORM and a data chunk:
the chunk can then be added to the FORM, and both can be freed. -/
theorem example_application : ∃ s, History (numbered fun _ _ => false) pc StandardCall
      ⟨fun _ => none, 0, ⟨[], []⟩⟩ s ∧
    CanAdd (fun _ => none) s.mem 1 2 ∧ ParentIs s.mem 1 0 ∧ ParentIs s.mem 2 0 ∧
    s.mem 3 = some (.bytes [some 9]) := by
  obtain ⟨s1, s2, h1, h2, h3⟩ := twoCalls_eq (A := numbered fun _ _ => false) (e := pc)
    (op1 := .group idFORM 7) (op2 := .raw 5 [9]) (s := ⟨fun _ => none, 0, ⟨[], []⟩⟩) (r1 := 1) (r2 := 2)
    (bs := [none, some (.grp ⟨0, idFORM, 4⟩ 7 0 0), some (.raw ⟨0, 5, 1⟩ 3), some (.bytes [some 9]), none])
    (by decide +kernel)
  simp only [List.range, List.range.loop, List.map_cons, List.map_nil, List.cons.injEq] at h3
  obtain ⟨m0, m1, m2, m3, _⟩ := h3
  have hH : History (numbered fun _ _ => false) pc StandardCall ⟨fun _ => none, 0, ⟨[], []⟩⟩ s2 :=
    .call (.call .start (op := .group idFORM 7) (.inl rfl) trivial h1) (op := .raw 5 [9])
      (by simp only [StandardCall]; decide) (by simp only [Allowed]; decide) h2
  have p1 : ParentIs s2.mem 1 0 := ⟨_, _, m1, rfl, rfl⟩
  have p2 : ParentIs s2.mem 2 0 := ⟨_, _, m2, rfl, rfl⟩
  refine ⟨s2, hH, ⟨rfl, rfl, ⟨_, _, m1, rfl⟩, p2, ?_⟩, p1, p2, m3⟩
  intro hu
  cases hu with
  | step hp hu =>
    obtain ⟨b, h, hb, hh, rfl⟩ := hp
    rw [m1] at hb; cases hb; cases hh
    cases hu with
    | step hp _ =>
      obtain ⟨b, h, hb, _⟩ := hp
      rw [m0] at hb; cases hb

/-- The chunk at 2 in that heap is one that `IFF_setTextData` can be called on (C38). -/
example : ∃ s : HS, In s.mem 0 (.raw 2 3 5 1 [9]) ∧ s.mem 0 = none ∧
    ((numbered fun _ _ => false).pick s.tick s.mem (.data 4)).isSome := by
  refine ⟨⟨fun a => if a = 2 then some (.raw ⟨0, 5, 1⟩ 3) else if a = 3 then some (.bytes [some 9]) else none,
    3, ⟨[], []⟩⟩, ?_, rfl, by decide⟩
  simp [In]

end Iff
