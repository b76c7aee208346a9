import Verif.Proofs.HeapAttach
/-
  The reader with pointers builds what the reader on values returns.
-/
namespace Iff.Heap

open Spec

section
variable (A : Alloc) (e : Env) (r : Registry)

/-- How the outcome of reading a chunk with pointers relates to that on values. -/
inductive ReadRel (ft : ID) (k : Nat) (m₀ : Mem) :
    Out (Addr × HS) → Out (Option Chunk × RS) → Prop
  | ok (t s') : Holds m₀ s'.mem t → Released r ft t.chunk → depth t.chunk ≤ k →
      ReadRel ft k m₀ (.val (t.addr, s')) (.val (some t.chunk, s'.rs))
  | null (s' : HS) : s'.mem = m₀ → ReadRel ft k m₀ (.val (0, s')) (.val (none, s'.rs))
  | oom (s' : HS) (v) : (Roomy m₀ → ¬ Total A e) → s'.mem = m₀ → ReadRel ft k m₀ (.val (0, s')) v
  | ub (u) : ReadRel ft k m₀ (.ub u) (.ub u)
  | oomUb (v) : (Roomy m₀ → ¬ ArraysOk A) → ReadRel ft k m₀ (.ub .nullDeref) v
  | loop : ReadRel ft k m₀ .loop .loop

/-- The same for reading the fields of the chunk at `p`. -/
inductive FieldsRel (ft : ID) (k : Nat) (m₀ : Mem) (p : Addr) :
    Out ((Bool × Int) × HS) → Out ((Bool × Chunk × Int) × RS) → Prop
  | ok (t s' bp) : t.addr = p → Holds m₀ s'.mem t → Released r ft t.chunk → depth t.chunk ≤ k →
      FieldsRel ft k m₀ p (.val ((true, bp), s')) (.val ((true, t.chunk, bp), s'.rs))
  | fail (s' : HS) (bp bp' c) : Frees (freeChunk r k ft p) s'.mem m₀ →
      FieldsRel ft k m₀ p (.val ((false, bp), s')) (.val ((false, c, bp'), s'.rs))
  | oom (s' : HS) (bp v) : (Roomy m₀ → ¬ Total A e) → Frees (freeChunk r k ft p) s'.mem m₀ →
      FieldsRel ft k m₀ p (.val ((false, bp), s')) v
  | ub (u) : FieldsRel ft k m₀ p (.ub u) (.ub u)
  | oomUb (v) : (Roomy m₀ → ¬ ArraysOk A) → FieldsRel ft k m₀ p (.ub .nullDeref) v
  | loop : FieldsRel ft k m₀ p .loop .loop

/-- Reading the fields of a new chunk, on values. -/
def vFields (n : Nat) (h : Handler) : Chunk → M RS (Bool × Chunk × Int)
  | .raw id size _ => do
    let (ok, data, bp) ← readRawChunk e id size 0
    pure (ok, .raw id size data, bp)
  | .ext id size vals =>
    match h with
    | .ext fields _ => do
      let (ok, vals, bp) ← readExtFields e id size fields vals [] 0
      pure (ok, .ext id size vals, bp)
    | _ => M.ub .wrongStruct
  | .grp id size ty subs => do
    let (st, v, bp) ← readField e .id id size
      (match h with | .cat => "contentsType" | _ => "formType") (.id ty) 0
    match st with
    | .more => do
      let (ok, subs, bp) ← readGroupSubChunks e r n v.toId size subs bp
      pure (ok, .grp id size v.toId subs, bp)
    | st => pure (deriveSuccess st, .grp id size v.toId subs, bp)
  | .lst id size ty subs props => do
    let (st, v, bp) ← readField e .id id size "contentsType" (.id ty) 0
    match st with
    | .more => do
      let (ok, subs, props, bp) ← readListSubChunks e r n v.toId size subs props bp
      if ok then pure (true, .lst id size v.toId subs props, bp)
      else do RS.emit .listRead; pure (false, .lst id size v.toId subs props, bp)
    | st => pure (deriveSuccess st, .lst id size v.toId subs props, bp)

end

theorem finishChunk_false {e : Env} {size : Int} {c : Chunk} {bp : Int} :
    finishChunk e size false c bp = pure none := by simp [finishChunk]

theorem readChunk_unfold (e : Env) (r : Registry) (n : Nat) (ft : ID) (rs : RS) :
    Iff.readChunk e r (n + 1) ft rs =
      (do
        match ← readId e idEMPTY "" with
        | none => pure none
        | some id =>
          match ← readLong e id "chunkSize" with
          | none => pure none
          | some sz =>
            match createChunk e (findChunkType r ft id) id sz.toInt with
            | none => pure none
            | some c => do
              let (ok, c, bp) ← vFields e r n (findChunkType r ft id) c
              finishChunk e sz.toInt ok c bp : M RS (Option Chunk)) rs := by
  simp only [Iff.readChunk, M.bind_apply]
  cases readId e idEMPTY "" rs with
  | ub u => rfl
  | loop => rfl
  | val x =>
    obtain ⟨o, rs⟩ := x
    cases o with
    | none => rfl
    | some id =>
      simp only [M.bind_apply]
      cases readLong e id "chunkSize" rs with
      | ub u => rfl
      | loop => rfl
      | val x =>
        obtain ⟨o, rs⟩ := x
        cases o with
        | none => rfl
        | some sz =>
          simp only
          cases hh : findChunkType r ft id with
          | raw =>
            simp only [createChunk]
            split
            · simp only [vFields, M.bind_apply]
              cases readRawChunk e id sz.toInt 0 rs <;> rfl
            · rfl
          | ext fields ck =>
            simp only [createChunk, vFields, M.bind_apply]
            cases readExtFields e id sz.toInt fields (fields.map fun f => f.kind.zero) [] 0 rs <;> rfl
          | form =>
            simp only [createChunk, vFields, M.bind_apply]
            cases readField e .id id sz.toInt "formType" (.id 0) 0 rs with
            | ub u => rfl
            | loop => rfl
            | val x =>
              obtain ⟨⟨st, v, bp⟩, rs⟩ := x
              cases st <;> try rfl
              simp only [M.bind_apply]
              cases readGroupSubChunks e r n v.toId sz.toInt [] bp rs <;> rfl
          | cat =>
            simp only [createChunk, vFields, M.bind_apply]
            cases readField e .id id sz.toInt "contentsType" (.id 0) 0 rs with
            | ub u => rfl
            | loop => rfl
            | val x =>
              obtain ⟨⟨st, v, bp⟩, rs⟩ := x
              cases st <;> try rfl
              simp only [M.bind_apply]
              cases readGroupSubChunks e r n v.toId sz.toInt [] bp rs <;> rfl
          | prop =>
            simp only [createChunk, vFields, M.bind_apply]
            cases readField e .id id sz.toInt "formType" (.id 0) 0 rs with
            | ub u => rfl
            | loop => rfl
            | val x =>
              obtain ⟨⟨st, v, bp⟩, rs⟩ := x
              cases st <;> try rfl
              simp only [M.bind_apply]
              cases readGroupSubChunks e r n v.toId sz.toInt [] bp rs <;> rfl
          | list =>
            simp only [createChunk, vFields, M.bind_apply]
            cases readField e .id idLIST sz.toInt "contentsType" (.id 0) 0 rs with
            | ub u => rfl
            | loop => rfl
            | val x =>
              obtain ⟨⟨st, v, bp⟩, rs⟩ := x
              cases st <;> try rfl
              simp only [M.bind_apply]
              cases readListSubChunks e r n v.toId sz.toInt [] [] bp rs with
              | ub u => rfl
              | loop => rfl
              | val x =>
                obtain ⟨⟨ok, subs, props, bp⟩, rs⟩ := x
                cases ok
                · simp only [Bool.false_eq_true, ↓reduceIte, M.bind_apply]
                  cases RS.emit .listRead rs <;> rfl
                · rfl


/-! ### Single blocks -/

/-- A block that has just been allocated is a hierarchy without members. -/
theorem _root_.Iff.Spec.Holds.single {m : Mem} {a : Addr} {b : Block} {t : Node} (h0 : a ≠ 0) (hm : m a = none)
    (hb : t.blocks = [a]) (hin : In (m.set a (some b)) 0 t) : Holds m (m.set a (some b)) t where
  isIn := hin
  distinct := by simp [hb]
  nonNull := by simpa [hb] using h0.symm
  adds := by
    constructor
    · intro x hx; rw [hb, List.mem_singleton] at hx; subst hx; exact hm
    · intro x hx; rw [hb, List.mem_singleton] at hx; exact Mem.set_ne hx

theorem _root_.Iff.Spec.Holds.null {m₀ m : Mem} {t : Node} (h : Holds m₀ m t) (h0 : m₀ 0 = none) : m 0 = none := by
  rw [h.adds.2 0 h.nonNull, h0]

theorem _root_.Iff.Spec.Holds.frees {r : Registry} {m₀ m : Mem} {t : Node} {ft : ID} {k : Nat} (h : Holds m₀ m t)
    (h0 : m₀ 0 = none) (hr : Released r ft t.chunk) (hd : depth t.chunk ≤ k) :
    Frees (freeChunk r k ft t.addr) m m₀ := by
  have := freeChunk_spec h.isIn h.distinct (h.null h0) hr hd
  rwa [Adds.without h.adds] at this

/-- Two hierarchies, the second allocated after the first. -/
theorem _root_.Iff.Spec.Holds.join {m₀ m m' : Mem} {t c : Node} (h : Holds m₀ m t) (h' : Holds m m' c) :
    In m' 0 t ∧ (t.blocks ++ c.blocks).Nodup ∧ Adds m₀ m' (t.blocks ++ c.blocks) ∧
      0 ∉ t.blocks ++ c.blocks := by
  have hdis : ∀ a ∈ t.blocks, a ∉ c.blocks := fun a ha hc =>
    h.isIn.mapped a ha (h'.adds.1 a hc)
  refine ⟨h.isIn.frame fun a ha => h'.adds.2 a (hdis a ha), ?_, ⟨?_, ?_⟩, ?_⟩
  · rw [List.nodup_append]
    refine ⟨h.distinct, h'.distinct, fun a ha b hb => ?_⟩
    rintro rfl; exact hdis a ha hb
  · intro a ha
    rcases List.mem_append.mp ha with ha | ha
    · exact h.adds.1 a ha
    · have h1 := h'.adds.1 a ha
      rw [← h.adds.2 a (fun hx => h.isIn.mapped a hx h1), h1]
  · intro a ha
    rw [List.mem_append, not_or] at ha
    rw [h'.adds.2 a ha.2, h.adds.2 a ha.1]
  · simp [h.nonNull, h'.nonNull]

theorem newStruct_run {A : Alloc} {b : Block} {s : HS} :
    (A.pick s.tick s.mem (.struct b.skind) = none ∧
      newStruct A b s = .val (0, { s with tick := s.tick + 1 })) ∨
    ∃ a, a ≠ 0 ∧ s.mem a = none ∧
      newStruct A b s = .val (a, { s with tick := s.tick + 1, mem := s.mem.set a (some b) }) := by
  simp only [newStruct, malloc]
  cases h : A.pick s.tick s.mem (.struct b.skind) with
  | none => exact .inl ⟨rfl, rfl⟩
  | some a => exact .inr ⟨a, (A.sound h).1, (A.sound h).2, rfl⟩

/-! ### The fields of chunks without members -/

/-- Freeing a raw chunk whose data may be uninitialised. -/
theorem freeRaw {r : Registry} {m : Mem} {ft : ID} {k : Nat} {p d : Addr} {hd : Hdr} {b : Block}
    (hp : m p = none) (hd0 : m d = none) (hne : p ≠ d) (hpz : p ≠ 0) (hdz : d ≠ 0)
    (h0 : m 0 = none) (hf : findChunkType r ft hd.id = .raw) :
    Frees (freeChunk r (k + 1) ft p) ((m.set p (some (.raw hd d))).set d (some b)) m := by
  intro s hs
  have h1 : s.mem p = some (.raw hd d) := by rw [hs, Mem.set_ne hne, Mem.set_same]
  have h2 : s.mem d = some b := by rw [hs, Mem.set_same]
  have h3 : s.mem 0 = none := by rw [hs, Mem.set_ne hdz.symm, Mem.set_ne hpz.symm, h0]
  simp only [freeChunk, M.bind_apply, getHdr_eq h1 rfl, hf, load_eq h1, free_eq h2 h3]
  have h4 : ({ s with mem := s.mem.set d none } : HS).mem p = some (.raw hd d) := by
    rw [← h1]; exact Mem.set_ne hne
  rw [free_eq h4 (by show Mem.set _ _ _ _ = _; rw [Mem.set_ne hdz.symm, h3])]
  congr 3
  rw [hs, Mem.set_set, Mem.set_comm hne, Mem.set_set, Mem.set_none (a := p)]
  · exact Mem.set_none hd0
  · rw [Mem.set_ne hne, hp]

section
variable {A : Alloc} {e : Env} {r : Registry}

/-- Creating and reading a raw chunk. -/
theorem createRaw_run {id : ID} {size : Int} {s : HS} (h0 : s.mem 0 = none) :
    (∃ s', createRaw A e id size s = .val (0, s') ∧ s'.mem = s.mem ∧ s'.rs = s.rs ∧
      (e.mallocOk (toSize e size) = true → Roomy s.mem → ¬ Total A e)) ∨
    ∃ p d t, p ≠ 0 ∧ d ≠ 0 ∧ p ≠ d ∧ s.mem p = none ∧ s.mem d = none ∧
      (Grants A e → e.mallocOk (toSize e size) = true) ∧
      createRaw A e id size s = .val (p, { s with
        tick := t
        mem := (s.mem.set p (some (.raw ⟨0, id, size⟩ d))).set d
          (some (.bytes (List.replicate (toSize e size) none))) }) := by
  simp only [createRaw, M.bind_apply]
  rcases newStruct_run (A := A) (b := .raw ⟨0, id, size⟩ 0) (s := s) with ⟨hp, h⟩ | ⟨p, hpz, hp, h⟩
  · refine .inl ⟨{ s with tick := s.tick + 1 }, by rw [h]; rfl, rfl, rfl, fun _ hr ht => ?_⟩
    have h1 := ht.struct s.tick s.mem (Block.raw ⟨0, id, size⟩ 0).skind hr; rw [hp] at h1; cases h1
  · rw [h]
    simp only [if_neg hpz, M.bind_apply, malloc]
    cases hpick : A.pick (s.tick + 1) (s.mem.set p (some (.raw ⟨0, id, size⟩ 0)))
        (.data (toSize e size)) with
    | none =>
      simp only [↓reduceIte, M.bind_apply]
      rw [free_eq (s := { s with tick := _, mem := _ }) (Mem.set_same _ _ _) (by
        show Mem.set _ _ _ _ = _; rw [Mem.set_ne hpz.symm, h0])]
      refine .inl ⟨_, rfl, ?_, rfl, fun hok hr ht => ?_⟩
      · show (s.mem.set p _).set p none = s.mem
        rw [Mem.set_set, Mem.set_none hp]
      · have := ht.data (s.tick + 1) (s.mem.set p (some (.raw ⟨0, id, size⟩ 0))) (toSize e size)
          hr.set hok
        rw [hpick] at this; cases this
    | some d =>
      obtain ⟨hdz, hd⟩ := A.sound hpick
      have hne : p ≠ d := by rintro rfl; rw [Mem.set_same] at hd; cases hd
      rw [Mem.set_ne hne.symm] at hd
      simp only [if_neg hdz, M.bind_apply]
      rw [store_eq (s := { s with tick := _, mem := _ }) (b := .raw ⟨0, id, size⟩ 0) (by
        show Mem.set _ _ _ _ = _; rw [Mem.set_ne hne, Mem.set_same])]
      refine .inr ⟨p, d, s.tick + 1 + 1, hpz, hdz, hne, hp, hd, fun hw => hw _ _ _ _ hpick, ?_⟩
      show Out.val (p, ({ s with tick := _, mem := _ } : HS)) = _
      rw [Mem.set_comm hne.symm, Mem.set_set, Mem.set_comm hne]

theorem readRaw_rel {ft id : ID} {size : Int} {s : HS} {m : Mem} {p d : Addr} {k : Nat}
    (h0 : m 0 = none) (hpz : p ≠ 0) (hdz : d ≠ 0) (hne : p ≠ d) (hp : m p = none)
    (hd : m d = none) (hf : findChunkType r ft id = .raw)
    (hs : s.mem = (m.set p (some (.raw ⟨0, id, size⟩ d))).set d
      (some (.bytes (List.replicate (toSize e size) none)))) :
    FieldsRel A e r ft (k + 1) m p (readRaw e p 0 s)
      (vFields e r k .raw (.raw id size []) s.rs) := by
  have h1 : s.mem p = some (.raw ⟨0, id, size⟩ d) := by rw [hs, Mem.set_ne hne, Mem.set_same]
  have h2 : s.mem d = some (.bytes (List.replicate (toSize e size) none)) := by
    rw [hs, Mem.set_same]
  simp only [readRaw, vFields, readRawChunk, M.bind_apply, load_eq h1, fread, io]
  have h2' : ∀ rs, ({ s with rs := rs } : HS).mem d
      = some (.bytes (List.replicate (toSize e size) none)) := fun _ => h2
  rw [load_eq (h2' _)]
  simp only [List.length_replicate]
  rw [if_pos (by simp; omega)]
  simp only [M.bind_apply]
  rw [store_eq (h2' _)]
  simp only
  have hm' : ∀ b, s.mem.set d (some b) = (m.set p (some (.raw ⟨0, id, size⟩ d))).set d (some b) :=
    fun b => by rw [hs, Mem.set_set]
  by_cases hl : (s.rs.inp.take (toSize e size)).length < toSize e size
  · simp only [if_pos hl, M.bind_apply, RS.emit]
    refine FieldsRel.fail _ _ _ _ ?_
    simp only [hm']
    exact freeRaw hp hd hne hpz hdz h0 hf
  · simp only [if_neg hl, M.bind_apply]
    cases ha : addInt 0 size with
    | val bp =>
      simp only [M.ofOut, M.pure_apply]
      have hlen : (s.rs.inp.take (toSize e size)).length = toSize e size := by
        rw [List.length_take] at hl ⊢; omega
      refine FieldsRel.ok (.raw p d id size (s.rs.inp.take (toSize e size))) _ _ rfl ?_
        (.raw hf) (by simp [Node.chunk, depth])
      simp only [hm', hlen, List.drop_replicate, Nat.sub_self, List.replicate_zero,
        List.append_nil]
      exact {
        isIn := by
          simp only [In]
          exact ⟨by rw [Mem.set_ne hne, Mem.set_same], Mem.set_same _ _ _⟩
        distinct := by simp [Node.blocks, hne]
        nonNull := by simp [Node.blocks, hpz.symm, hdz.symm]
        adds := by
          constructor
          · intro x hx
            simp only [Node.blocks, List.mem_cons, List.not_mem_nil, or_false] at hx
            rcases hx with rfl | rfl
            · exact hp
            · exact hd
          · intro x hx
            simp only [Node.blocks, List.mem_cons, List.not_mem_nil, or_false, not_or] at hx
            rw [Mem.set_ne hx.2, Mem.set_ne hx.1] }
    | ub u => simp only [M.ofOut]; exact .ub _
    | loop => simp only [M.ofOut]; exact .loop

/-- Reading an application-defined chunk. -/
theorem readExt_rel {ft id : ID} {size : Int} {s : HS} {m : Mem} {p : Addr} {k : Nat}
    {fields : List Field} {ck} {vals : List Val}
    (h0 : m 0 = none) (hpz : p ≠ 0) (hp : m p = none)
    (hf : findChunkType r ft id = .ext fields ck)
    (hs : s.mem = m.set p (some (.ext ⟨0, id, size⟩ vals))) :
    FieldsRel A e r ft (k + 1) m p (readExt e fields p 0 s)
      (vFields e r k (.ext fields ck) (.ext id size vals) s.rs) := by
  have h1 : s.mem p = some (.ext ⟨0, id, size⟩ vals) := by rw [hs, Mem.set_same]
  simp only [readExt, vFields, M.bind_apply, load_eq h1, io]
  cases readExtFields e id size fields vals [] 0 s.rs with
  | ub u => exact .ub _
  | loop => exact .loop
  | val x =>
    obtain ⟨⟨ok, vals', bp⟩, rs⟩ := x
    simp only
    have h1' : ({ s with rs := rs } : HS).mem p = some (.ext ⟨0, id, size⟩ vals) := h1
    rw [store_eq h1']
    simp only [M.pure_apply]
    have hholds : Holds m (m.set p (some (.ext ⟨0, id, size⟩ vals'))) (.ext p id size vals') :=
      Holds.single hpz hp rfl (by simp only [In]; exact Mem.set_same _ _ _)
    rw [show s.mem.set p (some (.ext ⟨0, id, size⟩ vals'))
      = m.set p (some (.ext ⟨0, id, size⟩ vals')) by rw [hs, Mem.set_set]]
    cases ok with
    | true =>
      exact FieldsRel.ok (.ext p id size vals') _ _ rfl hholds (.ext hf)
        (by simp [Node.chunk, depth])
    | false =>
      exact FieldsRel.fail _ _ _ _
        (hholds.frees (t := .ext p id size vals') h0 (.ext hf) (by simp [Node.chunk, depth]))

theorem readTypeField_run {name : String} {p : Addr} {s : HS} {b : Block} {hd : Hdr} {g : Grp}
    (h : s.mem p = some b) (hh : b.hdr? = some hd) (hg : b.grp? = some g) :
    readTypeField e name p 0 s =
      match readField e .id hd.id hd.size name (.id g.ty) 0 s.rs with
      | .val ((st, v, bp), rs) => .val ((st, bp), { s with
          rs := rs, mem := s.mem.set p (some (b.setGrp { g with ty := v.toId })) })
      | .ub u => .ub u
      | .loop => .loop := by
  simp only [readTypeField, M.bind_apply, getHdr_eq h hh, getGrp_eq h hg, io]
  cases readField e .id hd.id hd.size name (.id g.ty) 0 s.rs with
  | ub u => rfl
  | loop => rfl
  | val x =>
    obtain ⟨⟨st, v, bp⟩, rs⟩ := x
    simp only
    rw [updGrp_eq (s := { s with rs := rs }) h hg]
    rfl

/-! ### Groups -/

/-- The loop of a group, on values. -/
def vGroup (e : Env) (r : Registry) (n : Nat) (id : ID) (size : Int) (ty : ID) (subs : List Chunk)
    (bp : Int) : M RS (Bool × Chunk × Int) := do
  let (ok, subs, bp) ← readGroupSubChunks e r n ty size subs bp
  pure (ok, .grp id size ty subs, bp)

/-- The loop of a list, on values. -/
def vList (e : Env) (r : Registry) (n : Nat) (id : ID) (size : Int) (ty : ID)
    (subs props : List Chunk) (bp : Int) : M RS (Bool × Chunk × Int) := do
  let (ok, subs, props, bp) ← readListSubChunks e r n ty size subs props bp
  pure (ok, .lst id size ty subs props, bp)

/-- What is shown of the three mutually recursive functions, by induction on the fuel. -/
structure ReadsOk (A : Alloc) (e : Env) (r : Registry) (n : Nat) : Prop where
  chunk : ∀ ft (s : HS), s.mem 0 = none →
    ReadRel A e r ft n s.mem (readChunk A e r n ft s) (Iff.readChunk e r n ft s.rs)
  group : ∀ ft k m₀ (s : HS) p arr id size ty subs bp, n ≤ k → m₀ 0 = none →
    Holds m₀ s.mem (.grp p arr id size ty subs) →
    Released r ft (.grp id size ty (Node.chunks subs)) →
    depth (.grp id size ty (Node.chunks subs)) ≤ k →
    FieldsRel A e r ft k m₀ p (readGroupSubs A e r n p bp s)
      (vGroup e r n id size ty (Node.chunks subs) bp s.rs)
  list : ∀ ft k m₀ (s : HS) p arr parr id size ty subs props bp, n ≤ k → m₀ 0 = none →
    Holds m₀ s.mem (.lst p arr parr id size ty subs props) →
    Released r ft (.lst id size ty (Node.chunks subs) (Node.chunks props)) →
    depth (.lst id size ty (Node.chunks subs) (Node.chunks props)) ≤ k →
    FieldsRel A e r ft k m₀ p (readListSubs A e r n p bp s)
      (vList e r n id size ty (Node.chunks subs) (Node.chunks props) bp s.rs)

theorem depthAll_append (xs ys : List Chunk) :
    depthAll (xs ++ ys) = max (depthAll xs) (depthAll ys) := by
  induction xs with
  | nil => simp [depthAll]
  | cons x xs ih => simp [depthAll, ih, Nat.max_assoc]

theorem Node.chunks_append (xs ys : List Node) :
    Node.chunks (xs ++ ys) = Node.chunks xs ++ Node.chunks ys := by
  simp [Node.chunks_eq]

theorem readsOk_group {n : Nat} (ih : ReadsOk A e r n) : ∀ ft k m₀ (s : HS) p arr id size ty subs bp,
    n + 1 ≤ k → m₀ 0 = none →
    Holds m₀ s.mem (.grp p arr id size ty subs) →
    Released r ft (.grp id size ty (Node.chunks subs)) →
    depth (.grp id size ty (Node.chunks subs)) ≤ k →
    FieldsRel A e r ft k m₀ p (readGroupSubs A e r (n + 1) p bp s)
      (vGroup e r (n + 1) id size ty (Node.chunks subs) bp s.rs) := by
  intro ft k m₀ s p arr id size ty subs bp hnk h0 hh hr hd
  have hin := hh.isIn
  simp only [In] at hin
  have hfr : Frees (freeChunk r k ft p) s.mem m₀ := hh.frees h0 hr hd
  simp only [readGroupSubs, vGroup, readGroupSubChunks, M.bind_apply, getHdr_eq hin.1 rfl,
    getGrp_eq hin.1 rfl]
  by_cases hlt : bp < size
  · simp only [if_pos hlt, M.bind_apply]
    have hrel := ih.chunk ty s (hh.null h0)
    generalize readChunk A e r n ty s = X at hrel
    generalize Iff.readChunk e r n ty s.rs = Y at hrel
    cases hrel with
    | ub u => exact .ub _
    | loop => exact .loop
    | oomUb v h => exact .oomUb _ fun hr => h (hr.adds hh.adds)
    | null s' hm =>
      simp only [↓reduceIte, M.pure_apply]
      exact .fail _ _ _ _ (hm ▸ hfr)
    | oom s' v hT hm =>
      simp only [↓reduceIte, M.pure_apply]
      exact .oom _ _ _ (fun hr => hT (hr.adds hh.adds)) (hm ▸ hfr)
    | ok c s' hc hrc hdc =>
      have hcz : c.addr ≠ 0 := fun h => hc.nonNull (h ▸ c.addr_mem)
      simp only [if_neg hcz, M.bind_apply]
      obtain ⟨j1, j2, j3, j4⟩ := hh.join hc
      have h0' : s'.mem 0 = none := hc.null (hh.null h0)
      rcases attach_spec (A := A) (g := .grp p arr id size ty subs) trivial j1 hc.isIn j2 h0'
        with ⟨hA, hu⟩ | ⟨a, m', hrun, k0, k1, k2, k3⟩
      · rw [show attachToGroup A p c.addr s' = _ from hu]
        exact .oomUb _ fun hr => hA (hr.adds j3)
      · rw [show attachToGroup A p c.addr s' = _ from hrun]
        simp only
        have k1' := k1
        simp only [Node.attach, In] at k1'
        have hcin : In m' p c := (inAll_append.mp k1'.2.2).2 |> fun h => (inAll_cons.mp h).1
        obtain ⟨bc, hbc, hhc⟩ := hcin.hdr
        rw [getHdr_eq (s := { s' with mem := m', tick := s'.tick + 1 }) hbc hhc]
        simp only
        cases hinc : incrementChunkSize e bp c.chunk.size with
        | ub u => simp only [M.ofOut]; exact .ub _
        | loop => simp only [M.ofOut]; exact .loop
        | val bp' =>
          simp only [M.ofOut, M.pure_apply]
          have hnull : 0 ∉ (Node.attach a c (.grp p arr id size ty subs)).blocks := fun hz =>
            k1.ne_zero k0 hz rfl
          simp only [depth] at hd
          have := ih.group ft k m₀ { s' with mem := m', tick := s'.tick + 1 } p a id size ty
            (subs ++ [c]) bp' (by omega) h0 ⟨k1, k2, hnull, k3 _ j3⟩
            (by
              cases hr with
              | grp hf hs =>
                refine .grp hf fun x hx => ?_
                simp only [Node.chunks_append, Node.chunks_cons, Node.chunks_nil, List.mem_append,
                  List.mem_singleton] at hx
                rcases hx with hx | rfl
                · exact hs x hx
                · exact hrc)
            (by
              simp only [depth, Node.chunks_append, Node.chunks_cons, Node.chunks_nil,
                depthAll_append, depthAll]
              omega)
          simp only [vGroup, M.bind_apply, Node.chunks_append, Node.chunks_cons,
            Node.chunks_nil] at this
          exact this
  · simp only [if_neg hlt]
    by_cases hgt : size < bp
    · simp only [gt_iff_lt, hgt, ↓reduceIte, M.bind_apply, io, RS.emit, M.pure_apply]
      exact .ok (.grp p arr id size ty subs) { s with rs := _ } _ rfl hh hr hd
    · simp only [gt_iff_lt, hgt, ↓reduceIte, M.pure_apply]
      exact .ok _ _ _ rfl hh hr hd

theorem readsOk_list {n : Nat} (ih : ReadsOk A e r n) :
    ∀ ft k m₀ (s : HS) p arr parr id size ty subs props bp,
    n + 1 ≤ k → m₀ 0 = none →
    Holds m₀ s.mem (.lst p arr parr id size ty subs props) →
    Released r ft (.lst id size ty (Node.chunks subs) (Node.chunks props)) →
    depth (.lst id size ty (Node.chunks subs) (Node.chunks props)) ≤ k →
    FieldsRel A e r ft k m₀ p (readListSubs A e r (n + 1) p bp s)
      (vList e r (n + 1) id size ty (Node.chunks subs) (Node.chunks props) bp s.rs) := by
  intro ft k m₀ s p arr parr id size ty subs props bp hnk h0 hh hr hd
  have hin := hh.isIn
  simp only [In] at hin
  have hfr : Frees (freeChunk r k ft p) s.mem m₀ := hh.frees h0 hr hd
  simp only [readListSubs, vList, readListSubChunks, M.bind_apply, getHdr_eq hin.1 rfl,
    getLst_eq hin.1 rfl]
  by_cases hlt : bp < size
  · simp only [if_pos hlt, M.bind_apply, getGrp_eq hin.1 rfl]
    have hrel := ih.chunk ty s (hh.null h0)
    generalize readChunk A e r n ty s = X at hrel
    generalize Iff.readChunk e r n ty s.rs = Y at hrel
    cases hrel with
    | ub u => exact .ub _
    | loop => exact .loop
    | oomUb v h => exact .oomUb _ fun hr => h (hr.adds hh.adds)
    | null s' hm =>
      simp only [↓reduceIte, M.pure_apply]
      exact .fail _ _ _ _ (hm ▸ hfr)
    | oom s' v hT hm =>
      simp only [↓reduceIte, M.pure_apply]
      exact .oom _ _ _ (fun hr => hT (hr.adds hh.adds)) (hm ▸ hfr)
    | ok c s' hc hrc hdc =>
      have hcz : c.addr ≠ 0 := fun h => hc.nonNull (h ▸ c.addr_mem)
      obtain ⟨b0, hb0, hh0⟩ := hc.isIn.hdr
      simp only [if_neg hcz, M.bind_apply, getHdr_eq hb0 hh0]
      obtain ⟨j1, j2, j3, j4⟩ := hh.join hc
      have h0' : s'.mem 0 = none := hc.null (hh.null h0)
      by_cases hprop : c.chunk.id = idPROP
      · simp only [if_pos hprop, M.bind_apply]
        rcases attachProp_spec (A := A) (g := .lst p arr parr id size ty subs props) trivial j1
          hc.isIn j2 h0' with ⟨hA, hu⟩ | ⟨a, m', hrun, k0, k1, k2, k3⟩
        · rw [show attachProp A p c.addr s' = _ from hu]
          exact .oomUb _ fun hr => hA (hr.adds j3)
        · rw [show attachProp A p c.addr s' = _ from hrun]
          simp only
          have k1' := k1
          simp only [Node.attachProp, In] at k1'
          have hcin : In m' p c := (inAll_append.mp k1'.2.2.2.2).2 |> fun h => (inAll_cons.mp h).1
          obtain ⟨bc, hbc, hhc⟩ := hcin.hdr
          rw [getHdr_eq (s := { s' with mem := m', tick := s'.tick + 1 }) hbc hhc]
          simp only
          cases hinc : incrementChunkSize e bp c.chunk.size with
          | ub u => simp only [M.ofOut]; exact .ub _
          | loop => simp only [M.ofOut]; exact .loop
          | val bp' =>
            simp only [M.ofOut, M.pure_apply]
            have hnull : 0 ∉ (Node.attachProp a c (.lst p arr parr id size ty subs props)).blocks :=
              fun hz => k1.ne_zero k0 hz rfl
            simp only [depth] at hd
            have := ih.list ft k m₀ { s' with mem := m', tick := s'.tick + 1 } p arr a id size ty
              subs (props ++ [c]) bp' (by omega) h0 ⟨k1, k2, hnull, k3 _ j3⟩
              (by
                cases hr with
                | lst hf hs hs2 =>
                  refine .lst hf hs fun x hx => ?_
                  simp only [Node.chunks_append, Node.chunks_cons, Node.chunks_nil,
                    List.mem_append, List.mem_singleton] at hx
                  rcases hx with hx | rfl
                  · exact hs2 x hx
                  · exact hrc)
              (by
                simp only [depth, Node.chunks_append, Node.chunks_cons, Node.chunks_nil,
                  depthAll_append, depthAll]
                omega)
            simp only [vList, M.bind_apply, Node.chunks_append, Node.chunks_cons,
              Node.chunks_nil] at this
            exact this
      · simp only [if_neg hprop, M.bind_apply]
        rcases attach_spec (A := A) (g := .lst p arr parr id size ty subs props) trivial j1
          hc.isIn j2 h0' with ⟨hA, hu⟩ | ⟨a, m', hrun, k0, k1, k2, k3⟩
        · rw [show attachToGroup A p c.addr s' = _ from hu]
          exact .oomUb _ fun hr => hA (hr.adds j3)
        · rw [show attachToGroup A p c.addr s' = _ from hrun]
          simp only
          have k1' := k1
          simp only [Node.attach, In] at k1'
          have hcin : In m' p c := (inAll_append.mp k1'.2.2.2.1).2 |> fun h => (inAll_cons.mp h).1
          obtain ⟨bc, hbc, hhc⟩ := hcin.hdr
          rw [getHdr_eq (s := { s' with mem := m', tick := s'.tick + 1 }) hbc hhc]
          simp only
          cases hinc : incrementChunkSize e bp c.chunk.size with
          | ub u => simp only [M.ofOut]; exact .ub _
          | loop => simp only [M.ofOut]; exact .loop
          | val bp' =>
            simp only [M.ofOut, M.pure_apply]
            have hnull : 0 ∉ (Node.attach a c (.lst p arr parr id size ty subs props)).blocks :=
              fun hz => k1.ne_zero k0 hz rfl
            simp only [depth] at hd
            have := ih.list ft k m₀ { s' with mem := m', tick := s'.tick + 1 } p a parr id size ty
              (subs ++ [c]) props bp' (by omega) h0 ⟨k1, k2, hnull, k3 _ j3⟩
              (by
                cases hr with
                | lst hf hs hs2 =>
                  refine .lst hf (fun x hx => ?_) hs2
                  simp only [Node.chunks_append, Node.chunks_cons, Node.chunks_nil,
                    List.mem_append, List.mem_singleton] at hx
                  rcases hx with hx | rfl
                  · exact hs x hx
                  · exact hrc)
              (by
                simp only [depth, Node.chunks_append, Node.chunks_cons, Node.chunks_nil,
                  depthAll_append, depthAll]
                omega)
            simp only [vList, M.bind_apply, Node.chunks_append, Node.chunks_cons,
              Node.chunks_nil] at this
            exact this
  · simp only [if_neg hlt]
    by_cases hgt : size < bp
    · simp only [gt_iff_lt, hgt, ↓reduceIte, M.bind_apply, io, RS.emit, M.pure_apply]
      exact .ok (.lst p arr parr id size ty subs props) { s with rs := _ } _ rfl hh hr hd
    · simp only [gt_iff_lt, hgt, ↓reduceIte, M.pure_apply]
      exact .ok _ _ _ rfl hh hr hd

/-- The state after a store and a read. -/
def HS.put (s : HS) (p : Addr) (b : Block) (rs : RS) : HS :=
  { s with mem := s.mem.set p (some b), rs := rs }

/-- The fields of a FORM, CAT or PROP. -/
theorem readGrp_rel {n : Nat} (ih : ReadsOk A e r n) {ft id : ID} {size : Int} {s : HS} {m : Mem}
    {p : Addr} {name : String} (h0 : m 0 = none) (hpz : p ≠ 0) (hp : m p = none)
    (hf : findChunkType r ft id = .form ∨ findChunkType r ft id = .cat ∨
      findChunkType r ft id = .prop)
    (hs : s.mem = m.set p (some (.grp ⟨0, id, size⟩ 0 0 0))) :
    FieldsRel A e r ft (n + 1) m p
      ((do
        let (st, bp) ← readTypeField e name p 0
        match st with
        | .more => readGroupSubs A e r n p bp
        | st => pure (deriveSuccess st, bp) : M HS (Bool × Int)) s)
      ((do
        let (st, v, bp) ← readField e .id id size name (.id 0) 0
        match st with
        | .more => do
          let (ok, subs, bp) ← readGroupSubChunks e r n v.toId size [] bp
          pure (ok, .grp id size v.toId subs, bp)
        | st => pure (deriveSuccess st, .grp id size v.toId [], bp) :
          M RS (Bool × Chunk × Int)) s.rs) := by
  have h1 : s.mem p = some (.grp ⟨0, id, size⟩ 0 0 0) := by rw [hs, Mem.set_same]
  simp only [M.bind_apply, readTypeField_run h1 rfl rfl]
  cases readField e .id id size name (.id 0) 0 s.rs with
  | ub u => exact .ub _
  | loop => exact .loop
  | val x =>
    obtain ⟨⟨st, v, bp⟩, rs⟩ := x
    simp only
    have hholds : Holds m (s.mem.set p (some (.grp ⟨0, id, size⟩ v.toId 0 0)))
        (.grp p 0 id size v.toId []) := by
      rw [hs, Mem.set_set]
      exact Holds.single hpz hp rfl (by
        simp only [In]; exact ⟨Mem.set_same _ _ _, .inl ⟨rfl, rfl⟩, inAll_nil⟩)
    have hrel : Released r ft (.grp id size v.toId (Node.chunks [])) := .grp hf (by simp)
    have hd : depth (.grp id size v.toId (Node.chunks [])) ≤ n + 1 := by simp [depth, depthAll]
    have done : ∀ ok : Bool, FieldsRel A e r ft (n + 1) m p
        (.val ((ok, bp), (HS.put s p (.grp ⟨0, id, size⟩ v.toId 0 0) rs)))
        (.val ((ok, .grp id size v.toId [], bp), rs)) := by
      intro ok
      cases ok with
      | true =>
        exact FieldsRel.ok (.grp p 0 id size v.toId []) (HS.put s p _ rs) _ rfl
          hholds hrel hd
      | false =>
        exact FieldsRel.fail (HS.put s p _ rs) _ _ _
          (Holds.frees hholds h0 hrel hd)
    cases st with
    | more =>
      simp only
      have := ih.group ft (n + 1) m (HS.put s p (.grp ⟨0, id, size⟩ v.toId 0 0) rs) p 0 id size v.toId [] bp (by omega) h0 hholds
        hrel hd
      simp only [vGroup, M.bind_apply, Node.chunks_nil] at this
      exact this
    | failure => exact done _
    | last => exact done _

/-- The fields of a LIST. -/
theorem readLst_rel {n : Nat} (ih : ReadsOk A e r n) {ft id : ID} {size : Int} {s : HS} {m : Mem}
    {p : Addr} (h0 : m 0 = none) (hpz : p ≠ 0) (hp : m p = none)
    (hf : findChunkType r ft id = .list)
    (hs : s.mem = m.set p (some (.lst ⟨0, id, size⟩ 0 0 0 0 0))) {g l} :
    FieldsRel A e r ft (n + 1) m p (readFields e g (readListSubs A e r n) .list p s)
      (vFields e r n l (.lst id size 0 [] []) s.rs) := by
  have h1 : s.mem p = some (.lst ⟨0, id, size⟩ 0 0 0 0 0) := by rw [hs, Mem.set_same]
  simp only [readFields, vFields, M.bind_apply, readTypeField_run h1 rfl rfl]
  cases readField e .id id size "contentsType" (.id 0) 0 s.rs with
  | ub u => exact .ub _
  | loop => exact .loop
  | val x =>
    obtain ⟨⟨st, v, bp⟩, rs⟩ := x
    simp only
    have hholds : Holds m (s.mem.set p (some (.lst ⟨0, id, size⟩ v.toId 0 0 0 0)))
        (.lst p 0 0 id size v.toId [] []) := by
      rw [hs, Mem.set_set]
      exact Holds.single hpz hp rfl (by
        simp only [In]
        exact ⟨Mem.set_same _ _ _, .inl ⟨rfl, rfl⟩, .inl ⟨rfl, rfl⟩, inAll_nil, inAll_nil⟩)
    have hrel : Released r ft (.lst id size v.toId (Node.chunks []) (Node.chunks [])) :=
      .lst hf (by simp) (by simp)
    have hd : depth (.lst id size v.toId (Node.chunks []) (Node.chunks [])) ≤ n + 1 := by
      simp [depth, depthAll]
    have done : ∀ ok : Bool, FieldsRel A e r ft (n + 1) m p
        (.val ((ok, bp), (HS.put s p (.lst ⟨0, id, size⟩ v.toId 0 0 0 0) rs)))
        (.val ((ok, .lst id size v.toId [] [], bp), rs)) := by
      intro ok
      cases ok with
      | true =>
        exact FieldsRel.ok (.lst p 0 0 id size v.toId [] []) (HS.put s p _ rs) _
          rfl hholds hrel hd
      | false =>
        exact FieldsRel.fail (HS.put s p _ rs) _ _ _
          (Holds.frees hholds h0 hrel hd)
    cases st with
    | more =>
      simp only [M.bind_apply]
      have := ih.list ft (n + 1) m (HS.put s p (.lst ⟨0, id, size⟩ v.toId 0 0 0 0) rs) p 0 0 id size v.toId [] [] bp (by omega) h0
        hholds hrel hd
      simp only [vList, M.bind_apply, Node.chunks_nil] at this
      simp only [HS.put] at this
      simp only [Block.setGrp]
      generalize readListSubs A e r n p bp _ = X at this ⊢
      generalize readListSubChunks e r n v.toId size [] [] bp rs = Y at this ⊢
      cases Y with
      | ub u =>
        cases this with
        | ub u => exact .ub _
        | oomUb v h => exact .oomUb _ h
        | oom s' bp v hT hfr =>
          simp only [Bool.false_eq_true, ↓reduceIte, M.bind_apply, io, RS.emit, M.pure_apply]
          exact .oom { s' with rs := _ } _ _ hT hfr
      | loop =>
        cases this with
        | loop => exact .loop
        | oomUb v h => exact .oomUb _ h
        | oom s' bp v hT hfr =>
          simp only [Bool.false_eq_true, ↓reduceIte, M.bind_apply, io, RS.emit, M.pure_apply]
          exact .oom { s' with rs := _ } _ _ hT hfr
      | val y =>
        obtain ⟨⟨ok, subs, props, bp2⟩, rs2⟩ := y
        simp only [M.pure_apply] at this ⊢
        generalize hc : Chunk.lst id size v.toId subs props = c at this ⊢
        cases this with
        | oomUb v h => exact .oomUb _ h
        | oom s' bp v hT hfr =>
          simp only [Bool.false_eq_true, ↓reduceIte, M.bind_apply, io, RS.emit, M.pure_apply]
          exact .oom { s' with rs := _ } _ _ hT hfr
        | ok t s' bp ht hho hre hde =>
          simp only [↓reduceIte, M.pure_apply]
          exact .ok t s' _ ht hho hre hde
        | fail s' bp bp' c hfr =>
          simp only [Bool.false_eq_true, ↓reduceIte, M.bind_apply, io, RS.emit, M.pure_apply]
          exact .fail { s' with rs := _ } _ _ _ hfr
    | failure => exact done _
    | last => exact done _

/-- What follows the fields. -/
theorem finish_rel {ft : ID} {k : Nat} {m₀ : Mem} {p : Addr} {size : Int} {X Y} (h0 : m₀ 0 = none) :
    FieldsRel A e r ft k m₀ p X Y →
    ReadRel A e r ft k m₀
      (match X with
        | .val (a, s) => finish e r k ft p size a.1 a.2 s
        | .ub u => .ub u
        | .loop => .loop)
      (match Y with
        | .val (a, s) => finishChunk e size a.1 a.2.1 a.2.2 s
        | .ub u => .ub u
        | .loop => .loop) := by
  intro h
  cases h with
  | ub u => exact .ub _
  | loop => exact .loop
  | oomUb v h => exact .oomUb _ h
  | oom s' bp v hT hfr =>
    simp only [finish, Bool.false_eq_true, ↓reduceIte, M.bind_apply, M.pure_apply, hfr s' rfl]
    exact .oom { s' with mem := _ } _ hT rfl
  | fail s' bp bp' c hfr =>
    simp only [finish, finishChunk, Bool.false_eq_true, ↓reduceIte, M.bind_apply, M.pure_apply,
      hfr s' rfl]
    exact .null { s' with mem := _ } rfl
  | ok t s' bp ht hh hr hd =>
    cases ht
    obtain ⟨b, hb, hhb⟩ := hh.isIn.hdr
    have hfr := hh.frees h0 hr hd
    simp only [finish, finishChunk, ↓reduceIte, M.bind_apply, getHdr_eq hb hhb, io]
    cases skipUnknownBytes e t.chunk.id size bp s'.rs with
    | ub u => exact .ub _
    | loop => exact .loop
    | val x =>
      obtain ⟨ok, rs⟩ := x
      cases ok with
      | false =>
        simp only [Bool.false_eq_true, ↓reduceIte, M.bind_apply, M.pure_apply]
        rw [hfr { s' with rs := rs } rfl]
        exact .null { s' with mem := _, rs := rs } rfl
      | true =>
        simp only [↓reduceIte, M.bind_apply]
        rw [getHdr_eq (s := { s' with rs := rs }) hb hhb]
        simp only [io]
        cases readPaddingByte size t.chunk.id rs with
        | ub u => exact .ub _
        | loop => exact .loop
        | val x =>
          obtain ⟨ok, rs⟩ := x
          cases ok with
          | false =>
            simp only [Bool.false_eq_true, ↓reduceIte, M.bind_apply, M.pure_apply]
            rw [hfr { s' with rs := rs } rfl]
            exact .null { s' with mem := _, rs := rs } rfl
          | true =>
            simp only [↓reduceIte, M.pure_apply]
            exact .ok t { s' with rs := rs } hh hr hd

theorem readsOk_zero : ReadsOk A e r 0 where
  chunk := fun ft s h0 => by simp only [readChunk, Iff.readChunk, M.loop_apply]; exact .loop
  group := fun ft k m₀ s p arr id size ty subs bp _ _ _ _ _ => by
    simp only [readGroupSubs, vGroup, readGroupSubChunks, M.bind_apply, M.loop_apply]; exact .loop
  list := fun ft k m₀ s p arr parr id size ty subs props bp _ _ _ _ _ => by
    simp only [readListSubs, vList, readListSubChunks, M.bind_apply, M.loop_apply]; exact .loop

/-- A chunk kept in one structure. -/
theorem struct_rel {n : Nat} {ft : ID} {s : HS} {size : Int} {b : Block} {f : Addr → M HS (Bool × Int)}
    {g : M RS (Bool × Chunk × Int)} (h0 : s.mem 0 = none)
    (h : ∀ p s', p ≠ 0 → s.mem p = none → s'.rs = s.rs → s'.mem = s.mem.set p (some b) →
      FieldsRel A e r ft (n + 1) s.mem p (f p s') (g s'.rs)) :
    ReadRel A e r ft (n + 1) s.mem
      ((do
        let p ← newStruct A b
        if p = 0 then pure 0
        else do
          let (ok, bp) ← f p
          finish e r (n + 1) ft p size ok bp : M HS Addr) s)
      ((do
        let (ok, c, bp) ← g
        finishChunk e size ok c bp : M RS (Option Chunk)) s.rs) := by
  simp only [M.bind_apply]
  rcases newStruct_run (A := A) (b := b) (s := s) with ⟨hp, hr⟩ | ⟨p, hpz, hp, hr⟩
  · rw [hr]
    simp only [↓reduceIte, M.pure_apply]
    exact .oom { s with tick := _ } _ (fun hr ht => by
      have h1 := ht.struct s.tick s.mem b.skind hr; rw [hp] at h1; cases h1) rfl
  · rw [hr]
    simp only [if_neg hpz, M.bind_apply]
    have hx := h p { s with tick := s.tick + 1, mem := s.mem.set p (some b) } hpz hp rfl rfl
    simp only at hx
    generalize f p _ = X at hx ⊢
    generalize g _ = Y at hx ⊢
    have hy := finish_rel (size := size) h0 hx
    cases X <;> cases Y <;> exact hy

/-- From the creation of the chunk on. -/
theorem created (hw : Grants A e) (hlc : ListsConsistent r) {n : Nat} (ih : ReadsOk A e r n)
    (ft : ID) (s : HS) (h0 : s.mem 0 = none) (id : ID) (size : Int) :
    ReadRel A e r ft (n + 1) s.mem
      ((do
        let p ← create A e (findChunkType r ft id) id size
        if p = 0 then pure 0
        else do
          let (ok, bp) ← readFields e (readGroupSubs A e r n) (readListSubs A e r n)
            (findChunkType r ft id) p
          finish e r (n + 1) ft p size ok bp : M HS Addr) s)
      ((match createChunk e (findChunkType r ft id) id size with
        | none => pure none
        | some c => do
          let (ok, c, bp) ← vFields e r n (findChunkType r ft id) c
          finishChunk e size ok c bp : M RS (Option Chunk)) s.rs) := by
  cases hf : findChunkType r ft id with
  | raw =>
    simp only [create, createChunk, M.bind_apply]
    rcases createRaw_run (A := A) (e := e) (id := id) (size := size) h0 with
      ⟨s', hrun, hm, hrs, hno⟩ | ⟨p, d, t, hpz, hdz, hne, hp, hd, hok, hrun⟩
    · rw [hrun]
      simp only [↓reduceIte, M.pure_apply]
      split
      · exact .oom s' _ (hno (by assumption)) hm
      · rw [← hrs]
        exact .null s' hm
    · rw [hrun, if_pos (hok hw)]
      simp only [if_neg hpz, M.bind_apply, readFields]
      have hx := readRaw_rel (A := A) (e := e) (k := n) (size := size) (s := { s with
        tick := t
        mem := (s.mem.set p (some (.raw ⟨0, id, size⟩ d))).set d
          (some (.bytes (List.replicate (toSize e size) none))) }) h0 hpz hdz hne hp hd hf rfl
      simp only at hx
      generalize readRaw e p 0 _ = X at hx ⊢
      generalize vFields e r n .raw _ _ = Y at hx ⊢
      have hy := finish_rel (size := size) h0 hx
      cases X <;> cases Y <;> exact hy
  | form =>
    exact struct_rel h0 fun p s' hpz hp hrs hm => readGrp_rel ih h0 hpz hp (.inl hf) hm
  | cat =>
    exact struct_rel h0 fun p s' hpz hp hrs hm => readGrp_rel ih h0 hpz hp (.inr (.inl hf)) hm
  | prop =>
    exact struct_rel h0 fun p s' hpz hp hrs hm => readGrp_rel ih h0 hpz hp (.inr (.inr hf)) hm
  | list =>
    exact struct_rel h0 fun p s' hpz hp hrs hm => readLst_rel ih h0 hpz hp (hlc _ _ hf) hm
  | ext fields ck =>
    exact struct_rel h0 fun p s' hpz hp hrs hm => readExt_rel h0 hpz hp hf hm

theorem readsOk_chunk (hw : Grants A e) (hlc : ListsConsistent r) {n : Nat} (ih : ReadsOk A e r n)
    (ft : ID) (s : HS) (h0 : s.mem 0 = none) :
    ReadRel A e r ft (n + 1) s.mem (readChunk A e r (n + 1) ft s)
      (Iff.readChunk e r (n + 1) ft s.rs) := by
  rw [readChunk_unfold]
  simp only [readChunk, M.bind_apply, io]
  cases readId e idEMPTY "" s.rs with
  | ub u => exact .ub _
  | loop => exact .loop
  | val x =>
    obtain ⟨o, rs⟩ := x
    cases o with
    | none => exact .null { s with rs := rs } rfl
    | some id =>
      simp only [M.bind_apply, io]
      cases readLong e id "chunkSize" rs with
      | ub u => exact .ub _
      | loop => exact .loop
      | val x =>
        obtain ⟨o, rs⟩ := x
        cases o with
        | none => exact .null { s with rs := rs } rfl
        | some sz =>
          simp only [M.bind_apply]
          exact created hw hlc ih ft { s with rs := rs } h0 id sz.toInt

/-- The reader with pointers does what the reader on values does, whatever the allocator does. -/
theorem readsOk (hw : Grants A e) (hlc : ListsConsistent r) : ∀ n, ReadsOk A e r n
  | 0 => readsOk_zero
  | n + 1 =>
    have ih := readsOk hw hlc n
    ⟨readsOk_chunk hw hlc ih, readsOk_group ih, readsOk_list ih⟩

end

/-! ### The environment's `mallocOk` is not used -/

theorem readExtFields_env (e : Env) (f) (id : ID) (size : Int) : ∀ fields vals acc bp,
    readExtFields { e with mallocOk := f } id size fields vals acc bp
      = readExtFields e id size fields vals acc bp
  | [], _, _, _ => rfl
  | fd :: fs, vals, acc, bp => by
    cases vals with
    | nil => rfl
    | cons v vs =>
      simp only [readExtFields, readExtFields_env]
      rfl

/-- Only the allocator decides which requests are granted. -/
theorem read_env (A : Alloc) (e : Env) (f) (r : Registry) : ∀ n,
    (∀ ft, readChunk A { e with mallocOk := f } r n ft = readChunk A e r n ft) ∧
    (∀ p bp, readGroupSubs A { e with mallocOk := f } r n p bp = readGroupSubs A e r n p bp) ∧
    (∀ p bp, readListSubs A { e with mallocOk := f } r n p bp = readListSubs A e r n p bp)
  | 0 => ⟨fun _ => rfl, fun _ _ => rfl, fun _ _ => rfl⟩
  | n + 1 => by
    obtain ⟨h1, h2, h3⟩ := read_env A e f r n
    have h2' : readGroupSubs A { e with mallocOk := f } r n = readGroupSubs A e r n := by
      funext p bp; exact h2 p bp
    have h3' : readListSubs A { e with mallocOk := f } r n = readListSubs A e r n := by
      funext p bp; exact h3 p bp
    have h4 : ∀ fl p bp, readExt { e with mallocOk := f } fl p bp = readExt e fl p bp := by
      intro fl p bp
      simp only [readExt, readExtFields_env]
    have h5 : ∀ g l h p, readFields { e with mallocOk := f } g l h p = readFields e g l h p := by
      intro g l h p
      cases h with
      | ext => simp only [readFields, h4]
      | _ => rfl
    refine ⟨fun ft => ?_, fun p bp => ?_, fun p bp => ?_⟩
    · simp only [readChunk, h2', h3', h5]; rfl
    · simp only [readGroupSubs, h1, h2]; rfl
    · simp only [readListSubs, h1, h3]; rfl

theorem readFd_env (A : Alloc) (e : Env) (f) (reg : Option Registry) :
    readFd A { e with mallocOk := f } reg = readFd A e reg := by
  funext s
  simp only [readFd, (read_env A e f _ _).1]

/-! ### `IFF_readFd` -/

/-- How the outcome of `IFF_readFd` with pointers relates to that on values. -/
theorem readFd_rel {A : Alloc} {e : Env} {reg : Option Registry} {s : HS}
    (hlc : ListsConsistent (selectChunkRegistry reg)) (hw : Grants A e) (h0 : s.mem 0 = none) :
    ReadRel A e (selectChunkRegistry reg) 0 (s.rs.inp.length + 4) s.mem (readFd A e reg s)
      (Iff.readFd e reg s.rs) := by
  have h := (readsOk hw hlc (s.rs.inp.length + 4)).chunk 0 s h0
  simp only [readFd, Iff.readFd, M.bind_apply]
  generalize readChunk A e _ _ 0 s = X at h ⊢
  generalize Iff.readChunk e _ _ 0 s.rs = Y at h ⊢
  cases h with
  | ub u => exact .ub _
  | loop => exact .loop
  | oomUb v h => exact .oomUb _ h
  | null s' hm =>
    simp only [↓reduceIte, M.bind_apply, io, RS.emit, M.pure_apply]
    exact .null { s' with rs := _ } hm
  | oom s' v hT hm =>
    simp only [↓reduceIte, M.bind_apply, io, RS.emit, M.pure_apply]
    exact .oom { s' with rs := _ } _ hT hm
  | ok t s' hh hr hd =>
    have hz : t.addr ≠ 0 := fun h => hh.nonNull (h ▸ t.addr_mem)
    simp only [if_neg hz, M.bind_apply, io]
    cases fgetc s'.rs with
    | ub u => exact .ub _
    | loop => exact .loop
    | val x =>
      obtain ⟨o, rs⟩ := x
      cases o with
      | none => exact .ok t { s' with rs := rs } hh hr hd
      | some b =>
        simp only [M.bind_apply, io, RS.emit, M.pure_apply]
        exact .ok t { s' with rs := _ } hh hr hd

theorem ReadRel.val_inv {A : Alloc} {e : Env} {r : Registry} {ft : ID} {k : Nat} {m₀ : Mem}
    {p : Addr} {s' : HS} {Y} (h : ReadRel A e r ft k m₀ (.val (p, s')) Y) :
    (p = 0 ∧ s'.mem = m₀ ∧ (Y = .val (none, s'.rs) ∨ (Roomy m₀ → ¬ Total A e))) ∨
    ∃ t : Node, p = t.addr ∧ p ≠ 0 ∧ Holds m₀ s'.mem t ∧ Released r ft t.chunk ∧
      depth t.chunk ≤ k ∧ Y = .val (some t.chunk, s'.rs) := by
  generalize hX : Out.val (p, s') = X at h
  cases h with
  | null s'' hm => cases hX; exact .inl ⟨rfl, hm, .inl rfl⟩
  | oom s'' v hT hm => cases hX; exact .inl ⟨rfl, hm, .inr hT⟩
  | ok t s'' hh hr hd =>
    cases hX
    exact .inr ⟨t, rfl, fun h => hh.nonNull (h ▸ t.addr_mem), hh, hr, hd, rfl⟩
  | _ => cases hX

theorem ReadRel.ub_inv {A : Alloc} {e : Env} {r : Registry} {ft : ID} {k : Nat} {m₀ : Mem}
    {u : UB} {Y} (h : ReadRel A e r ft k m₀ (.ub u) Y) :
    Y = .ub u ∨ (u = .nullDeref ∧ (Roomy m₀ → ¬ ArraysOk A)) := by
  generalize hX : Out.ub u = X at h
  cases h with
  | ub u => cases hX; exact .inl rfl
  | oomUb v hA => cases hX; exact .inr ⟨rfl, hA⟩
  | _ => cases hX

theorem ReadRel.loop_inv {A : Alloc} {e : Env} {r : Registry} {ft : ID} {k : Nat} {m₀ : Mem}
    {Y} (h : ReadRel A e r ft k m₀ .loop Y) : Y = .loop := by
  generalize hX : Out.loop = X at h
  cases h with
  | loop => rfl
  | _ => cases hX

end Iff.Heap
