import Verif.Heap.Read
/-
  Reading only consumes input: what remains is a suffix of what there was.
-/
namespace Iff.Heap

/-- What remains of the input is a suffix of what there was. -/
structure Suf {σ α : Type} (i : σ → List Byte) (m : M σ α) : Prop where
  le : ∀ s a s', m s = .val (a, s') → i s' <:+ i s

theorem Suf.bind {σ α β : Type} {i : σ → List Byte} {m : M σ α} {f : α → M σ β} (h : Suf i m)
    (hf : ∀ a, Suf i (f a)) : Suf i (m >>= f) := by
  refine ⟨fun s b s' hb => ?_⟩
  rw [M.bind_apply] at hb
  cases hm : m s with
  | val r =>
    rw [hm] at hb
    exact ((hf _).le _ _ _ hb).trans (h.le _ _ _ hm)
  | ub u => rw [hm] at hb; cases hb
  | loop => rw [hm] at hb; cases hb

theorem Suf.pure {σ α : Type} {i : σ → List Byte} (a : α) : Suf i (Pure.pure a : M σ α) := by
  refine ⟨fun s b s' h => ?_⟩; cases h; exact List.suffix_refl _

theorem Suf.ub {σ α : Type} {i : σ → List Byte} (u : UB) : Suf i (M.ub u : M σ α) := by
  refine ⟨fun s b s' h => ?_⟩; cases h

theorem Suf.loop {σ α : Type} {i : σ → List Byte} : Suf i (M.loop : M σ α) := by
  refine ⟨fun s b s' h => ?_⟩; cases h

theorem Suf.ofOut {σ α : Type} {i : σ → List Byte} (o : Out α) : Suf i (M.ofOut o : M σ α) := by
  refine ⟨fun s b s' h => ?_⟩
  cases o <;> cases h
  exact List.suffix_refl _

theorem Suf.ite {σ α : Type} {i : σ → List Byte} {c : Prop} [Decidable c] {m m' : M σ α} (h : Suf i m)
    (h' : Suf i m') : Suf i (if c then m else m') := by
  split
  · exact h
  · exact h'

theorem Suf.io {α : Type} {m : M RS α} (h : Suf RS.inp m) : Suf (fun s : HS => s.rs.inp) (io m) := by
  refine ⟨fun s a s' hs => ?_⟩
  unfold Heap.io at hs
  cases hm : m s.rs with
  | val r => rw [hm] at hs; cases hs; exact h.le _ _ _ hm
  | ub u => rw [hm] at hs; cases hs
  | loop => rw [hm] at hs; cases hs

/-! ### The stream -/

theorem suf_emit (m : Msg) : Suf RS.inp (RS.emit m) := by
  refine ⟨fun s a s' h => ?_⟩; cases h; exact List.suffix_refl _

theorem suf_fgetc : Suf RS.inp fgetc := by
  refine ⟨?_⟩
  rintro ⟨inp, log⟩ a s' h
  unfold fgetc at h
  split at h <;> cases h
  · exact List.suffix_refl _
  · rename_i hb
    simp only at hb
    subst hb
    exact List.suffix_cons _ _

theorem suf_fread (n : Nat) : Suf RS.inp (fread n) := by
  refine ⟨fun s a s' h => ?_⟩; cases h; exact List.drop_suffix _ _

theorem suf_fseek (e : Env) (n : Nat) : Suf RS.inp (fseekCur e n) := by
  refine ⟨fun s a s' h => ?_⟩
  unfold fseekCur at h
  split at h <;> cases h
  · exact List.drop_suffix _ _
  · exact List.suffix_refl _

theorem suf_readUByte (id : ID) (attr : String) : Suf RS.inp (readUByte id attr) := by
  refine suf_fgetc.bind fun a => ?_
  split
  · exact (suf_emit _).bind fun _ => .pure _
  · exact .pure _

theorem suf_readUWord (e : Env) (id : ID) (attr : String) : Suf RS.inp (readUWord e id attr) := by
  refine (suf_fread 2).bind fun a => ?_
  split
  · exact .pure _
  · exact (suf_emit _).bind fun _ => .pure _

theorem suf_readULong (e : Env) (id : ID) (attr : String) : Suf RS.inp (readULong e id attr) := by
  refine (suf_fread 4).bind fun a => ?_
  split
  · exact .pure _
  · exact (suf_emit _).bind fun _ => .pure _

theorem suf_readVal (e : Env) (k : FieldKind) (id : ID) (attr : String) : Suf RS.inp (readVal e k id attr) := by
  cases k
  · exact (suf_readUByte id attr).bind fun _ => .pure _
  · exact (suf_readUWord e id attr).bind fun _ => .pure _
  · exact (suf_readUWord e id attr).bind fun _ => .pure _
  · exact (suf_readULong e id attr).bind fun _ => .pure _
  · exact (suf_readULong e id attr).bind fun _ => .pure _
  · exact (suf_readULong e id attr).bind fun _ => .pure _

theorem suf_readField (e : Env) (k : FieldKind) (id : ID) (size : Int) (attr : String) (cur : Val) (bp : Int) :
    Suf RS.inp (readField e k id size attr cur bp) := by
  refine .ite (.pure _) ((suf_readVal e k id attr).bind fun a => ?_)
  split
  · exact .pure _
  · exact .pure _

theorem suf_readExtFields (e : Env) (id : ID) (size : Int) : ∀ (fs : List Field) (vs done : List Val) (bp : Int),
    Suf RS.inp (readExtFields e id size fs vs done bp)
  | [], vs, done, bp => by cases vs <;> exact .pure _
  | f :: fs, [], done, bp => .pure _
  | f :: fs, v :: vs, done, bp => by
    refine (suf_readField ..).bind fun a => ?_
    obtain ⟨st, v', bp'⟩ := a
    cases st
    · exact suf_readExtFields e id size fs vs _ _
    · exact .pure _
    · exact .pure _

theorem suf_skip (e : Env) (id : ID) (size bp : Int) : Suf RS.inp (skipUnknownBytes e id size bp) := by
  refine .ite ((Suf.ofOut _).bind fun n => (suf_fseek e _).bind fun a => ?_) (.pure _)
  exact .ite ((suf_emit _).bind fun _ => .pure _) (.pure _)

theorem suf_padding (size : Int) (id : ID) : Suf RS.inp (readPaddingByte size id) := by
  refine .ite (suf_fgetc.bind fun a => ?_) (.pure _)
  split
  · exact (suf_emit _).bind fun _ => .pure _
  · split
    · exact (suf_emit _).bind fun _ => .pure _
    · exact .pure _

/-! ### The heap -/

/-- What remains of the input. -/
abbrev inpOf (s : HS) : List Byte := s.rs.inp

theorem suf_malloc (A : Alloc) (q : Req) (b : Block) : Suf inpOf (malloc A q b) := by
  refine ⟨fun s a s' h => ?_⟩
  unfold malloc at h
  split at h <;> cases h <;> exact List.suffix_refl _

theorem suf_realloc (A : Alloc) (p : Addr) (n : Nat) : Suf inpOf (reallocPtrs A p n) := by
  refine ⟨fun s a s' h => ?_⟩
  unfold reallocPtrs at h
  split at h
  · exact (suf_malloc ..).le _ _ _ h
  repeat' split at h
  all_goals (cases h; try exact List.suffix_refl _)

theorem suf_free (p : Addr) : Suf inpOf (free p) := by
  refine ⟨fun s a s' h => ?_⟩
  unfold free at h
  repeat' split at h
  all_goals (cases h; try exact List.suffix_refl _)

theorem suf_load (p : Addr) : Suf inpOf (load p) := by
  refine ⟨fun s a s' h => ?_⟩
  unfold load at h
  repeat' split at h
  all_goals (cases h; try exact List.suffix_refl _)

theorem suf_store (p : Addr) (b : Block) : Suf inpOf (store p b) := by
  refine ⟨fun s a s' h => ?_⟩
  unfold store at h
  repeat' split at h
  all_goals (cases h; try exact List.suffix_refl _)

theorem suf_getHdr (p : Addr) : Suf inpOf (getHdr p) := by
  refine (suf_load p).bind fun b => ?_
  split <;> first | exact .pure _ | exact .ub _

theorem suf_updHdr (p : Addr) (f : Hdr → Hdr) : Suf inpOf (updHdr p f) := by
  refine (suf_load p).bind fun b => ?_
  split <;> first | exact suf_store _ _ | exact .ub _

theorem suf_getGrp (p : Addr) : Suf inpOf (getGrp p) := by
  refine (suf_load p).bind fun b => ?_
  split <;> first | exact .pure _ | exact .ub _

theorem suf_updGrp (p : Addr) (f : Grp → Grp) : Suf inpOf (updGrp p f) := by
  refine (suf_load p).bind fun b => ?_
  split <;> first | exact suf_store _ _ | exact .ub _

theorem suf_getLst (p : Addr) : Suf inpOf (getLst p) := by
  refine (suf_load p).bind fun b => ?_
  split <;> first | exact .pure _ | exact .ub _

theorem suf_updLst (p : Addr) (f : Lst → Lst) : Suf inpOf (updLst p f) := by
  refine (suf_load p).bind fun b => ?_
  split <;> first | exact suf_store _ _ | exact .ub _

theorem suf_getPtr (p : Addr) (i : Nat) : Suf inpOf (getPtr p i) := by
  refine (suf_load p).bind fun b => ?_
  repeat' split
  all_goals first | exact .pure _ | exact .ub _

theorem suf_setPtr (p : Addr) (i : Nat) (c : Addr) : Suf inpOf (setPtr p i c) := by
  refine (suf_load p).bind fun b => ?_
  repeat' split
  all_goals first | exact suf_store _ _ | exact .ub _

theorem suf_create (A : Alloc) (e : Env) (h : Handler) (id : ID) (size : Int) : Suf inpOf (create A e h id size) := by
  cases h
  · refine (suf_malloc ..).bind fun p => .ite (.pure _) ((suf_malloc ..).bind fun d => .ite ?_ ?_)
    · exact (suf_free _).bind fun _ => .pure _
    · exact (suf_store _ _).bind fun _ => .pure _
  all_goals exact suf_malloc ..

theorem suf_freeMembers {fc : ID → Addr → M HS Unit} (h : ∀ ft p, Suf inpOf (fc ft p)) (p : Addr) :
    ∀ k i, Suf inpOf (freeMembers fc p k i)
  | 0, _ => .pure _
  | k + 1, i => (suf_getGrp p).bind fun _ => (suf_getPtr _ _).bind fun _ => (h _ _).bind fun _ =>
    suf_freeMembers h p k (i + 1)

theorem suf_freeProps {fc : ID → Addr → M HS Unit} (h : ∀ ft p, Suf inpOf (fc ft p)) (p : Addr) :
    ∀ k i, Suf inpOf (freeProps fc p k i)
  | 0, _ => .pure _
  | k + 1, i => (suf_getLst p).bind fun _ => (suf_getPtr _ _).bind fun _ => (suf_getGrp p).bind fun _ =>
    (h _ _).bind fun _ => suf_freeProps h p k (i + 1)

theorem suf_freeGroup {fc : ID → Addr → M HS Unit} (h : ∀ ft p, Suf inpOf (fc ft p)) (p : Addr) :
    Suf inpOf (freeGroup fc p) :=
  (suf_getGrp p).bind fun _ => (suf_freeMembers h p _ _).bind fun _ => (suf_getGrp p).bind fun _ => suf_free _

theorem suf_freeList {fc : ID → Addr → M HS Unit} (h : ∀ ft p, Suf inpOf (fc ft p)) (p : Addr) :
    Suf inpOf (freeList fc p) :=
  (suf_freeGroup h p).bind fun _ => (suf_getLst p).bind fun _ => (suf_freeProps h p _ _).bind fun _ =>
    (suf_getLst p).bind fun _ => suf_free _

theorem suf_freeChunk (r : Registry) : ∀ n ft p, Suf inpOf (freeChunk r n ft p)
  | 0, _, _ => .loop
  | n + 1, ft, p => by
    refine (suf_getHdr p).bind fun h => ?_
    have ih := suf_freeChunk r n
    split
    · refine Suf.bind (suf_load p) fun b => ?_
      split
      · exact (suf_free _).bind fun _ => suf_free _
      · exact (Suf.ub _).bind fun _ => suf_free _
    · exact (suf_freeGroup ih p).bind fun _ => suf_free _
    · exact (suf_freeGroup ih p).bind fun _ => suf_free _
    · exact (suf_freeGroup ih p).bind fun _ => suf_free _
    · exact (suf_freeList ih p).bind fun _ => suf_free _
    · exact (Suf.pure ()).bind fun _ => suf_free _

theorem suf_attachToGroup (A : Alloc) (p c : Addr) : Suf inpOf (attachToGroup A p c) :=
  (suf_getGrp p).bind fun _ => (suf_realloc ..).bind fun _ => (suf_updGrp ..).bind fun _ =>
    (suf_getGrp p).bind fun _ => (suf_setPtr ..).bind fun _ => (suf_updGrp ..).bind fun _ => suf_updHdr ..

theorem suf_attachProp (A : Alloc) (p c : Addr) : Suf inpOf (attachProp A p c) :=
  (suf_getLst p).bind fun _ => (suf_realloc ..).bind fun _ => (suf_updLst ..).bind fun _ =>
    (suf_getLst p).bind fun _ => (suf_setPtr ..).bind fun _ => (suf_updLst ..).bind fun _ => suf_updHdr ..

theorem suf_readTypeField (e : Env) (name : String) (p : Addr) (bp : Int) : Suf inpOf (readTypeField e name p bp) :=
  (suf_getHdr p).bind fun _ => (suf_getGrp p).bind fun _ => (suf_readField ..).io.bind fun _ =>
    (suf_updGrp ..).bind fun _ => .pure _

theorem suf_readRaw (e : Env) (p : Addr) (bp : Int) : Suf inpOf (readRaw e p bp) := by
  refine (suf_load p).bind fun b => ?_
  split
  · refine (suf_fread _).io.bind fun d => (suf_load _).bind fun b => ?_
    split
    · refine .ite ((suf_store ..).bind fun _ => .ite ?_ ?_) (.ub _)
      · exact (suf_emit _).io.bind fun _ => .pure _
      · exact (Suf.ofOut _).bind fun _ => .pure _
    · exact .ub _
  · exact .ub _

theorem suf_readExt (e : Env) (fs : List Field) (p : Addr) (bp : Int) : Suf inpOf (readExt e fs p bp) := by
  refine (suf_load p).bind fun b => ?_
  split
  · exact (suf_readExtFields ..).io.bind fun _ => (suf_store ..).bind fun _ => .pure _
  · exact .ub _

theorem suf_readFields (e : Env) {subs listSubs : Addr → Int → M HS (Bool × Int)} (h : ∀ p bp, Suf inpOf (subs p bp))
    (h' : ∀ p bp, Suf inpOf (listSubs p bp)) (hd : Handler) (p : Addr) :
    Suf inpOf (readFields e subs listSubs hd p) := by
  have hg : ∀ name, Suf inpOf (do
      let (st, bp) ← readTypeField e name p 0
      match st with
      | .more => subs p bp
      | st => pure (deriveSuccess st, bp) : M HS (Bool × Int)) := by
    intro name
    refine (suf_readTypeField ..).bind fun a => ?_
    obtain ⟨st, bp⟩ := a
    cases st
    · exact h p bp
    · exact .pure _
    · exact .pure _
  cases hd
  · exact suf_readRaw ..
  · exact hg _
  · exact hg _
  · refine (suf_readTypeField ..).bind fun a => ?_
    obtain ⟨st, bp⟩ := a
    cases st
    · refine (h' p bp).bind fun a => .ite (.pure _) ((suf_emit _).io.bind fun _ => .pure _)
    · exact .pure _
    · exact .pure _
  · exact hg _
  · exact suf_readExt ..

theorem suf_finish (e : Env) (r : Registry) (n : Nat) (ft : ID) (p : Addr) (size : Int) (ok : Bool) (bp : Int) :
    Suf inpOf (finish e r n ft p size ok bp) := by
  refine Suf.bind (.ite ((suf_getHdr p).bind fun _ => (suf_skip ..).io.bind fun _ => .ite ?_ (.pure _)) (.pure _))
    fun _ => .ite (.pure _) ((suf_freeChunk ..).bind fun _ => .pure _)
  exact (suf_getHdr p).bind fun _ => (suf_padding ..).io

theorem suf_read (A : Alloc) (e : Env) (r : Registry) : ∀ n, (∀ ft, Suf inpOf (readChunk A e r n ft)) ∧
    (∀ p bp, Suf inpOf (readGroupSubs A e r n p bp)) ∧ ∀ p bp, Suf inpOf (readListSubs A e r n p bp)
  | 0 => ⟨fun _ => .loop, fun _ _ => .loop, fun _ _ => .loop⟩
  | n + 1 => by
    obtain ⟨h1, h2, h3⟩ := suf_read A e r n
    refine ⟨fun ft => ?_, fun p bp => ?_, fun p bp => ?_⟩
    · unfold readChunk
      refine Suf.bind (suf_readULong e _ _).io fun a => ?_
      split
      · exact .pure _
      · refine Suf.bind (suf_readULong e _ _).io fun a => ?_
        split
        · exact .pure _
        · exact (suf_create ..).bind fun _ => .ite (.pure _) ((suf_readFields e h2 h3 _ _).bind fun _ => suf_finish ..)
    · unfold readGroupSubs
      refine (suf_getHdr p).bind fun _ => (suf_getGrp p).bind fun _ => .ite ((h1 _).bind fun _ => .ite (.pure _) ?_) ?_
      · exact (suf_attachToGroup ..).bind fun _ => (suf_getHdr _).bind fun _ => (Suf.ofOut _).bind fun _ => h2 _ _
      · exact .ite ((suf_emit _).io.bind fun _ => .pure _) (.pure _)
    · unfold readListSubs
      refine (suf_getHdr p).bind fun _ => (suf_getLst p).bind fun _ => .ite ((suf_getGrp p).bind fun _ => (h1 _).bind fun _ =>
        .ite (.pure _) ((suf_getHdr _).bind fun _ => .ite ?_ ?_)) ?_
      · exact (suf_attachProp ..).bind fun _ => (suf_getHdr _).bind fun _ => (Suf.ofOut _).bind fun _ => h3 _ _
      · exact (suf_attachToGroup ..).bind fun _ => (suf_getHdr _).bind fun _ => (Suf.ofOut _).bind fun _ => h3 _ _
      · exact .ite ((suf_emit _).io.bind fun _ => .pure _) (.pure _)

end Iff.Heap
