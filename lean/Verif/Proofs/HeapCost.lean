import Verif.Heap.Read
/-
  How many requests the reader makes to the allocator: eight requests are paid by three bytes each.
-/
namespace Iff

/-! ### The stream gets shorter -/

/-- The computation takes at least `k a` bytes from the stream when it returns `a`. -/
def Takes {α : Type} (g : M RS α) (k : α → Nat) : Prop :=
  ∀ s a s', g s = .val (a, s') → s'.inp.length + k a ≤ s.inp.length

abbrev Shrinks {α : Type} (g : M RS α) : Prop := Takes g fun _ => 0

theorem shrinks_pure {α : Type} (a : α) : Shrinks (pure a : M RS α) := fun s b s' h => by
  cases h; exact Nat.le_refl _

theorem shrinks_ofOut {α : Type} (o : Out α) : Shrinks (M.ofOut o : M RS α) := fun s b s' h => by
  cases o <;> simp only [M.ofOut] at h <;> cases h
  exact Nat.le_refl _

theorem takes_bind {α β : Type} {g : M RS α} {f : α → M RS β} {k : β → Nat} (hg : Shrinks g)
    (hf : ∀ a, Takes (f a) k) : Takes (g >>= f) k := fun s b s' h => by
  rw [M.bind_apply] at h
  cases hx : g s with
  | val x =>
    rw [hx] at h
    have h1 := hg s x.1 x.2 hx
    have h2 := hf x.1 x.2 b s' h
    simp only at h1
    omega
  | ub u => rw [hx] at h; cases h
  | loop => rw [hx] at h; cases h

theorem shrinks_emit (m : Msg) : Shrinks (RS.emit m) := fun s b s' h => by
  cases h; exact Nat.le_refl _

theorem shrinks_fgetc : Shrinks fgetc := fun s b s' h => by
  unfold fgetc at h
  split at h
  · cases h; exact Nat.le_refl _
  · rename_i hi
    cases h
    rw [hi]
    simp

theorem shrinks_fread (n : Nat) : Shrinks (fread n) := fun s b s' h => by
  cases h
  simp [List.length_drop]

theorem shrinks_fseek (e : Env) (n : Nat) : Shrinks (fseekCur e n) := fun s b s' h => by
  unfold fseekCur at h
  split at h <;> cases h <;> simp [List.length_drop]

theorem takes_readULong (e : Env) (id : ID) (attr : String) :
    Takes (readULong e id attr) fun r => if r.isSome then 4 else 0 := fun s b s' h => by
  unfold readULong at h
  rw [M.bind_apply] at h
  simp only [fread] at h
  generalize hi : s.inp.take 4 = l at h
  have hlen : (s.inp.take 4).length = l.length := by rw [hi]
  rw [List.length_take] at hlen
  split at h
  · cases h
    simp only [Option.isSome_some, if_true, List.length_drop]
    simp only [List.length_cons, List.length_nil] at hlen
    omega
  · cases h
    simp [List.length_drop]

theorem takes_readLong (e : Env) (id : ID) (attr : String) :
    Takes (readLong e id attr) fun r => if r.isSome then 4 else 0 := takes_readULong e id attr

theorem Takes.shrinks {α : Type} {g : M RS α} {k : α → Nat} (h : Takes g k) : Shrinks g :=
  fun s a s' hs => by have := h s a s' hs; simp only; omega

theorem shrinks_readUWord (e : Env) (id : ID) (attr : String) : Shrinks (readUWord e id attr) :=
  takes_bind (shrinks_fread 2) fun l => by
    split
    · exact shrinks_pure _
    · exact takes_bind (shrinks_emit _) fun _ => shrinks_pure _

theorem shrinks_readUByte (id : ID) (attr : String) : Shrinks (readUByte id attr) :=
  takes_bind shrinks_fgetc fun l => by
    split
    · exact takes_bind (shrinks_emit _) fun _ => shrinks_pure _
    · exact shrinks_pure _

theorem shrinks_readVal (e : Env) (k : FieldKind) (id : ID) (attr : String) :
    Shrinks (readVal e k id attr) := by
  cases k <;> refine takes_bind ?_ fun _ => shrinks_pure _
  · exact shrinks_readUByte id attr
  · exact shrinks_readUWord e id attr
  · exact shrinks_readUWord e id attr
  · exact (takes_readULong e id attr).shrinks
  · exact (takes_readLong e id attr).shrinks
  · exact (takes_readULong e id attr).shrinks

theorem shrinks_readField (e : Env) (k : FieldKind) (id : ID) (size : Int) (attr : String) (cur : Val)
    (bp : Int) : Shrinks (readField e k id size attr cur bp) := by
  unfold readField
  split
  · exact shrinks_pure _
  · exact takes_bind (shrinks_readVal e k id attr) fun r => by cases r <;> exact shrinks_pure _

theorem shrinks_readExtFields (e : Env) (id : ID) (size : Int) :
    ∀ (fields : List Field) (cur done : List Val) (bp : Int),
      Shrinks (readExtFields e id size fields cur done bp)
  | [], _, _, _ => by unfold readExtFields; exact shrinks_pure _
  | _ :: _, [], _, _ => by unfold readExtFields; exact shrinks_pure _
  | f :: fs, v :: vs, done, bp => by
    unfold readExtFields
    refine takes_bind (shrinks_readField _ _ _ _ _ _ _) fun a => ?_
    obtain ⟨st, v', bp'⟩ := a
    cases st
    · exact shrinks_readExtFields e id size fs vs _ _
    · exact shrinks_pure _
    · exact shrinks_pure _

theorem shrinks_skip (e : Env) (id : ID) (size bp : Int) : Shrinks (skipUnknownBytes e id size bp) := by
  unfold skipUnknownBytes
  split
  · refine takes_bind (shrinks_ofOut _) fun n => takes_bind (shrinks_fseek e _) fun b => ?_
    split
    · exact takes_bind (shrinks_emit _) fun _ => shrinks_pure _
    · exact shrinks_pure _
  · exact shrinks_pure _

theorem shrinks_padding (size : Int) (id : ID) : Shrinks (readPaddingByte size id) := by
  unfold readPaddingByte
  split
  · refine takes_bind shrinks_fgetc fun b => ?_
    split
    · exact takes_bind (shrinks_emit _) fun _ => shrinks_pure _
    · split
      · exact takes_bind (shrinks_emit _) fun _ => shrinks_pure _
      · exact shrinks_pure _
  · exact shrinks_pure _

namespace Heap

/-! ### Requests -/

/-- Eight times the requests so far, and three times the bytes that are left. -/
def potential (s : HS) : Int := 8 * (s.tick : Int) + 3 * (s.rs.inp.length : Int)

/-- The computation raises the potential by at most `k a` when it returns `a`. -/
def Spends {α : Type} (g : M HS α) (k : α → Int) : Prop :=
  ∀ s a s', g s = .val (a, s') → potential s' ≤ potential s + k a

abbrev Free {α : Type} (g : M HS α) : Prop := Spends g fun _ => 0

variable {α β : Type}

theorem spends_bind {g : M HS α} {f : α → M HS β} {k : α → Int} {l : β → Int} (hg : Spends g k)
    (hf : ∀ a, Spends (f a) fun b => l b - k a) : Spends (g >>= f) l := fun s b s' h => by
  rw [M.bind_apply] at h
  cases hx : g s with
  | val x =>
    rw [hx] at h
    have h1 := hg s x.1 x.2 hx
    have h2 := hf x.1 x.2 b s' h
    simp only at h2
    omega
  | ub u => rw [hx] at h; cases h
  | loop => rw [hx] at h; cases h

theorem free_bind {g : M HS α} {f : α → M HS β} {l : β → Int} (hg : Free g)
    (hf : ∀ a, Spends (f a) l) : Spends (g >>= f) l :=
  spends_bind hg fun a s b s' h => by
    have := hf a s b s' h
    simp only
    omega

theorem Spends.mono {g : M HS α} {k l : α → Int} (h : Spends g k) (hl : ∀ a, k a ≤ l a) : Spends g l :=
  fun s a s' hs => by have := h s a s' hs; have := hl a; omega

theorem spends_pure (a : α) {k : α → Int} (h : 0 ≤ k a) : Spends (pure a : M HS α) k :=
  fun s b s' hs => by cases hs; omega

theorem spends_ub (u : UB) {k : α → Int} : Spends (M.ub u : M HS α) k := fun s b s' h => by cases h

theorem spends_loop {k : α → Int} : Spends (M.loop : M HS α) k := fun s b s' h => by cases h

theorem free_ofOut (o : Out α) : Free (M.ofOut o : M HS α) := fun s b s' h => by
  cases o <;> simp only [M.ofOut] at h <;> cases h
  simp

theorem spends_io {g : M RS α} {k : α → Nat} (h : Takes g k) : Spends (io g) fun a => -3 * (k a : Int) :=
  fun s a s' hs => by
    unfold io at hs
    cases hx : g s.rs with
    | val x =>
      rw [hx] at hs
      have := h s.rs x.1 x.2 hx
      cases hs
      simp only [potential]
      omega
    | ub u => rw [hx] at hs; cases hs
    | loop => rw [hx] at hs; cases hs

theorem free_io {g : M RS α} (h : Shrinks g) : Free (io g) := (spends_io h).mono fun _ => by omega

theorem free_load (p : Addr) : Free (load p) := fun s b s' h => by
  unfold load at h
  split at h
  · cases h; simp
  · cases h

theorem free_store (p : Addr) (b : Block) : Free (store p b) := fun s b s' h => by
  unfold store at h
  split at h
  · cases h; simp [potential]
  · cases h

theorem free_free (p : Addr) : Free (free p) := fun s b s' h => by
  unfold free at h
  split at h
  · cases h; simp
  · split at h
    · cases h; simp [potential]
    · cases h

theorem free_getHdr (p : Addr) : Free (getHdr p) := free_bind (free_load p) fun b => by
  split
  · exact spends_pure _ (by omega)
  · exact spends_ub _

theorem free_getGrp (p : Addr) : Free (getGrp p) := free_bind (free_load p) fun b => by
  split
  · exact spends_pure _ (by omega)
  · exact spends_ub _

theorem free_getLst (p : Addr) : Free (getLst p) := free_bind (free_load p) fun b => by
  split
  · exact spends_pure _ (by omega)
  · exact spends_ub _

theorem free_updHdr (p : Addr) (f : Hdr → Hdr) : Free (updHdr p f) :=
  free_bind (free_load p) fun b => by
    split
    · exact free_store _ _
    · exact spends_ub _

theorem free_updGrp (p : Addr) (f : Grp → Grp) : Free (updGrp p f) :=
  free_bind (free_load p) fun b => by
    split
    · exact free_store _ _
    · exact spends_ub _

theorem free_updLst (p : Addr) (f : Lst → Lst) : Free (updLst p f) :=
  free_bind (free_load p) fun b => by
    split
    · exact free_store _ _
    · exact spends_ub _

theorem free_getPtr (p : Addr) (i : Nat) : Free (getPtr p i) := free_bind (free_load p) fun b => by
  split
  · split
    · exact spends_pure _ (by omega)
    · exact spends_ub _
  · exact spends_ub _

theorem free_setPtr (p : Addr) (i : Nat) (a : Addr) : Free (setPtr p i a) :=
  free_bind (free_load p) fun b => by
    split
    · split
      · exact free_store _ _
      · exact spends_ub _
    · exact spends_ub _

theorem spends_malloc (A : Alloc) (q : Req) (b : Block) : Spends (malloc A q b) fun _ => 8 :=
  fun s a s' h => by
    unfold malloc at h
    split at h <;> cases h <;> simp only [potential] <;> omega

theorem spends_realloc (A : Alloc) (p : Addr) (n : Nat) : Spends (reallocPtrs A p n) fun _ => 8 :=
  fun s a s' h => by
    unfold reallocPtrs at h
    split at h
    · exact spends_malloc A _ _ s a s' h
    · split at h
      · split at h
        · cases h; simp only [potential]; omega
        · split at h <;> cases h <;> simp only [potential] <;> omega
      · cases h
      · cases h

theorem spends_createRaw (A : Alloc) (e : Env) (id : ID) (size : Int) :
    Spends (createRaw A e id size) fun _ => 16 := by
  unfold createRaw newStruct
  refine spends_bind (spends_malloc A _ _) fun p => ?_
  split
  · exact spends_pure _ (by omega)
  · refine spends_bind (spends_malloc A _ _) fun d => ?_
    split
    · exact free_bind (free_free _) fun _ => spends_pure _ (by omega)
    · exact free_bind (free_store _ _) fun _ => spends_pure _ (by omega)

theorem spends_create (A : Alloc) (e : Env) (h : Handler) (id : ID) (size : Int) :
    Spends (create A e h id size) fun _ => 16 := by
  cases h
  · exact spends_createRaw A e id size
  all_goals exact (spends_malloc A _ _).mono fun _ => by omega

theorem free_freeMembers {f : ID → Addr → M HS Unit} (hf : ∀ t a, Free (f t a)) (p : Addr) :
    ∀ k i, Free (freeMembers f p k i)
  | 0, _ => spends_pure _ (by omega)
  | k + 1, i => free_bind (free_getGrp p) fun _ => free_bind (free_getPtr _ _) fun _ =>
      free_bind (hf _ _) fun _ => free_freeMembers hf p k (i + 1)

theorem free_freeProps {f : ID → Addr → M HS Unit} (hf : ∀ t a, Free (f t a)) (p : Addr) :
    ∀ k i, Free (freeProps f p k i)
  | 0, _ => spends_pure _ (by omega)
  | k + 1, i => free_bind (free_getLst p) fun _ => free_bind (free_getPtr _ _) fun _ =>
      free_bind (free_getGrp p) fun _ => free_bind (hf _ _) fun _ => free_freeProps hf p k (i + 1)

theorem free_freeGroup {f : ID → Addr → M HS Unit} (hf : ∀ t a, Free (f t a)) (p : Addr) :
    Free (freeGroup f p) :=
  free_bind (free_getGrp p) fun _ => free_bind (free_freeMembers hf p _ _) fun _ =>
    free_bind (free_getGrp p) fun _ => free_free _

theorem free_freeList {f : ID → Addr → M HS Unit} (hf : ∀ t a, Free (f t a)) (p : Addr) :
    Free (freeList f p) :=
  free_bind (free_freeGroup hf p) fun _ => free_bind (free_getLst p) fun _ =>
    free_bind (free_freeProps hf p _ _) fun _ => free_bind (free_getLst p) fun _ => free_free _

theorem free_freeChunk (r : Registry) : ∀ n ft p, Free (freeChunk r n ft p)
  | 0, _, _ => spends_loop
  | n + 1, ft, p => by
    unfold freeChunk
    refine free_bind (free_getHdr p) fun h => ?_
    dsimp only
    split
    · refine free_bind (free_load p) fun b => ?_
      split
      · exact free_bind (free_free _) fun _ => free_free p
      · exact free_bind (spends_ub _) fun _ => free_free p
    · exact free_bind (free_freeGroup (free_freeChunk r n) p) fun _ => free_free p
    · exact free_bind (free_freeGroup (free_freeChunk r n) p) fun _ => free_free p
    · exact free_bind (free_freeGroup (free_freeChunk r n) p) fun _ => free_free p
    · exact free_bind (free_freeList (free_freeChunk r n) p) fun _ => free_free p
    · exact free_free p

theorem spends_attach (A : Alloc) (p c : Addr) : Spends (attachToGroup A p c) fun _ => 8 :=
  free_bind (free_getGrp p) fun _ => spends_bind (spends_realloc A _ _) fun _ =>
    Spends.mono (k := fun _ => 0) (free_bind (free_updGrp p _) fun _ => free_bind (free_getGrp p) fun _ =>
      free_bind (free_setPtr _ _ _) fun _ => free_bind (free_updGrp p _) fun _ => free_updHdr c _)
      fun _ => by omega

theorem spends_attachProp (A : Alloc) (p c : Addr) : Spends (attachProp A p c) fun _ => 8 :=
  free_bind (free_getLst p) fun _ => spends_bind (spends_realloc A _ _) fun _ =>
    Spends.mono (k := fun _ => 0) (free_bind (free_updLst p _) fun _ => free_bind (free_getLst p) fun _ =>
      free_bind (free_setPtr _ _ _) fun _ => free_bind (free_updLst p _) fun _ => free_updHdr c _)
      fun _ => by omega

theorem free_readRaw (e : Env) (p : Addr) (bp : Int) : Free (readRaw e p bp) := by
  unfold readRaw
  refine free_bind (free_load p) fun b => ?_
  split
  · refine free_bind (free_io (shrinks_fread _)) fun data => free_bind (free_load _) fun b => ?_
    split
    · split
      · refine free_bind (free_store _ _) fun _ => ?_
        split
        · exact free_bind (free_io (shrinks_emit _)) fun _ => spends_pure _ (by omega)
        · exact free_bind (free_ofOut _) fun _ => spends_pure _ (by omega)
      · exact spends_ub _
    · exact spends_ub _
  · exact spends_ub _

theorem free_readExt (e : Env) (fields : List Field) (p : Addr) (bp : Int) :
    Free (readExt e fields p bp) := by
  unfold readExt
  refine free_bind (free_load p) fun b => ?_
  split
  · exact free_bind (free_io (shrinks_readExtFields _ _ _ _ _ _ _)) fun _ => free_bind (free_store _ _) fun _ =>
      spends_pure _ (by omega)
  · exact spends_ub _

theorem free_readTypeField (e : Env) (name : String) (p : Addr) (bp : Int) :
    Free (readTypeField e name p bp) :=
  free_bind (free_getHdr p) fun _ => free_bind (free_getGrp p) fun _ =>
    free_bind (free_io (shrinks_readField _ _ _ _ _ _ _)) fun _ => free_bind (free_updGrp p _) fun _ =>
      spends_pure _ (by omega)

theorem free_readFields (e : Env) {f g : Addr → Int → M HS (Bool × Int)} (hf : ∀ p b, Free (f p b))
    (hg : ∀ p b, Free (g p b)) (h : Handler) (p : Addr) : Free (readFields e f g h p) := by
  cases h with
  | raw => exact free_readRaw e p 0
  | ext fields chk => exact free_readExt e fields p 0
  | list =>
    refine free_bind (free_readTypeField e _ p 0) fun x => ?_
    obtain ⟨st, bp⟩ := x
    cases st
    · refine free_bind (hg p bp) fun y => ?_
      obtain ⟨ok, bp'⟩ := y
      cases ok
      · exact free_bind (free_io (shrinks_emit _)) fun _ => spends_pure _ (by omega)
      · exact spends_pure _ (by omega)
    · exact spends_pure _ (by omega)
    · exact spends_pure _ (by omega)
  | form | cat | prop =>
    refine free_bind (free_readTypeField e _ p 0) fun x => ?_
    obtain ⟨st, bp⟩ := x
    cases st
    · exact hf p bp
    · exact spends_pure _ (by omega)
    · exact spends_pure _ (by omega)

theorem free_finish (e : Env) (r : Registry) (n : Nat) (ft : ID) (p : Addr) (size : Int) (ok : Bool)
    (bp : Int) : Free (finish e r n ft p size ok bp) := by
  unfold finish
  refine free_bind ?_ fun b => ?_
  · split
    · refine free_bind (free_getHdr p) fun _ => free_bind (free_io (shrinks_skip _ _ _ _)) fun b => ?_
      split
      · exact free_bind (free_getHdr p) fun _ => free_io (shrinks_padding _ _)
      · exact spends_pure _ (by omega)
    · exact spends_pure _ (by omega)
  · split
    · exact spends_pure _ (by omega)
    · exact free_bind (free_freeChunk r n ft p) fun _ => spends_pure _ (by omega)

/-- What a chunk costs: the eight bytes of its header pay for three requests, of which the last one
is left to the group it is attached to. -/
theorem spends_read (A : Alloc) (e : Env) (r : Registry) : ∀ n : Nat,
    (∀ ft, Spends (readChunk A e r n ft) fun p => if p = 0 then 0 else -8) ∧
    (∀ p bp, Free (readGroupSubs A e r n p bp)) ∧ (∀ p bp, Free (readListSubs A e r n p bp)) := by
  intro n
  induction n with
  | zero => exact ⟨fun _ => spends_loop, fun _ _ => spends_loop, fun _ _ => spends_loop⟩
  | succ n ih =>
    obtain ⟨ihc, ihg, ihl⟩ := ih
    refine ⟨fun ft => ?_, fun p bp => ?_, fun p bp => ?_⟩
    · unfold readChunk
      refine spends_bind (spends_io (takes_readULong e _ _)) fun x => ?_
      cases x with
      | none => exact spends_pure _ (by simp)
      | some id =>
        refine spends_bind (spends_io (takes_readLong e _ _)) fun y => ?_
        cases y with
        | none => exact spends_pure _ (by simp)
        | some sz =>
          refine spends_bind (spends_create A e _ _ _) fun p => ?_
          split
          · exact spends_pure _ (by simp)
          · refine free_bind (free_readFields e ihg ihl _ p) fun z => ?_
            exact (free_finish _ _ _ _ _ _ _ _).mono fun a => by
              simp only [Option.isSome_some, if_true]
              split <;> omega
    · unfold readGroupSubs
      refine free_bind (free_getHdr p) fun h => free_bind (free_getGrp p) fun g => ?_
      split
      · refine spends_bind (ihc _) fun c => ?_
        split
        · exact spends_pure _ (by omega)
        · refine spends_bind (spends_attach A p c) fun _ => ?_
          exact Spends.mono (k := fun _ => 0) (free_bind (free_getHdr c) fun _ =>
            free_bind (free_ofOut _) fun _ => ihg p _) fun _ => by omega
      · split
        · exact free_bind (free_io (shrinks_emit _)) fun _ => spends_pure _ (by omega)
        · exact spends_pure _ (by omega)
    · unfold readListSubs
      refine free_bind (free_getHdr p) fun h => free_bind (free_getLst p) fun _ => ?_
      split
      · refine free_bind (free_getGrp p) fun g => spends_bind (ihc _) fun c => ?_
        split
        · exact spends_pure _ (by omega)
        · refine free_bind (free_getHdr c) fun _ => ?_
          have hrest : Spends (do
              let hc ← getHdr c
              let bp' ← M.ofOut (incrementChunkSize e bp hc.size)
              readListSubs A e r n p bp') fun _ => 0 - -8 - 8 :=
            Spends.mono (k := fun _ => 0) (free_bind (free_getHdr c) fun _ =>
              free_bind (free_ofOut _) fun _ => ihl p _) fun _ => by omega
          dsimp only
          split
          · exact spends_bind (spends_attachProp A p c) fun _ => hrest
          · exact spends_bind (spends_attach A p c) fun _ => hrest
      · split
        · exact free_bind (free_io (shrinks_emit _)) fun _ => spends_pure _ (by omega)
        · exact spends_pure _ (by omega)

end Heap
end Iff
