import Verif.Heap.Write
import Verif.Heap.Check
import Verif.Heap.Compare
import Verif.Heap.Print
import Verif.Proofs.HeapBase
/-
  Writing, checking, comparing and printing leave the memory as it was, whatever is in it.
-/
namespace Iff.Heap

variable {ω α β : Type} {A : Alloc} {e : Env}

/-- If the computation returns, nothing has changed. -/
def Looking (g : M HS α) : Prop := ∀ s a s', g s = .val (a, s') → s' = s

/-- If the computation returns, the memory is as before. -/
def Keeps (h : M (HX ω) α) : Prop := ∀ s a s', h s = .val (a, s') → s'.mem = s.mem

theorem Looking.pure (a : α) : Looking (Pure.pure a : M HS α) := fun s b s' h => by cases h; rfl

theorem Looking.ub (u : UB) : Looking (M.ub u : M HS α) := fun s b s' h => by cases h

theorem Looking.loop : Looking (M.loop : M HS α) := fun s b s' h => by cases h

theorem Looking.bind {g : M HS α} {f : α → M HS β} (hg : Looking g) (hf : ∀ a, Looking (f a)) :
    Looking (g >>= f) := fun s b s' h => by
  rw [M.bind_apply] at h
  cases hx : g s with
  | val x =>
    obtain ⟨a, s1⟩ := x
    rw [hx] at h
    rw [hf a s1 b s' h, hg s a s1 hx]
  | ub u => rw [hx] at h; cases h
  | loop => rw [hx] at h; cases h

theorem Looking.ite {c : Prop} [Decidable c] {g g' : M HS α} (h : Looking g) (h' : Looking g') :
    Looking (if c then g else g') := by split <;> assumption

theorem looking_load (p : Addr) : Looking (load p) := fun s b s' h => by
  unfold load at h
  split at h <;> cases h; rfl

theorem looking_getHdr (p : Addr) : Looking (getHdr p) := .bind (looking_load p) fun b => by
  split
  · exact .pure _
  · exact .ub _

theorem looking_getGrp (p : Addr) : Looking (getGrp p) := .bind (looking_load p) fun b => by
  split
  · exact .pure _
  · exact .ub _

theorem looking_getLst (p : Addr) : Looking (getLst p) := .bind (looking_load p) fun b => by
  split
  · exact .pure _
  · exact .ub _

theorem looking_getRaw (p : Addr) : Looking (getRaw p) := .bind (looking_load p) fun b => by
  split
  · exact .pure _
  · exact .ub _

theorem looking_getExt (fields : List Field) (p : Addr) : Looking (getExt fields p) :=
  .bind (looking_load p) fun b => by
    split
    · exact .ite (.pure _) (.ub _)
    · exact .ub _

theorem looking_readBytes (p : Addr) (n : Nat) : Looking (readBytes p n) :=
  .bind (looking_load p) fun b => by
    split
    · refine .ite ?_ (.ub _)
      split
      · exact .pure _
      · exact .ub _
    · exact .ub _

theorem looking_getPtr (p : Addr) (i : Nat) : Looking (getPtr p i) := .bind (looking_load p) fun b => by
  split
  · split
    · exact .pure _
    · exact .ub _
  · exact .ub _

theorem Keeps.pure (a : α) : Keeps (Pure.pure a : M (HX ω) α) := fun s b s' h => by cases h; rfl

theorem Keeps.loop : Keeps (M.loop : M (HX ω) α) := fun s b s' h => by cases h

theorem Keeps.ofOut (o : Out α) : Keeps (M.ofOut o : M (HX ω) α) := fun s b s' h => by
  cases o <;> cases h; rfl

theorem Keeps.bind {g : M (HX ω) α} {f : α → M (HX ω) β} (hg : Keeps g) (hf : ∀ a, Keeps (f a)) :
    Keeps (g >>= f) := fun s b s' h => by
  rw [M.bind_apply] at h
  cases hx : g s with
  | val x =>
    obtain ⟨a, s1⟩ := x
    rw [hx] at h
    rw [hf a s1 b s' h, hg s a s1 hx]
  | ub u => rw [hx] at h; cases h
  | loop => rw [hx] at h; cases h

theorem Keeps.ite {c : Prop} [Decidable c] {g g' : M (HX ω) α} (h : Keeps g) (h' : Keeps g') :
    Keeps (if c then g else g') := by split <;> assumption

theorem Keeps.dev (v : M ω α) : Keeps (dev v) := fun s b s' h => by
  unfold Heap.dev at h
  split at h <;> cases h; rfl

theorem Keeps.heap {g : M HS α} (hg : Looking g) : Keeps (heap g : M (HX ω) α) := fun s b s' h => by
  unfold Heap.heap at h
  split at h
  · rename_i a h1 hx
    cases h
    rw [hg _ _ _ hx]
  · cases h
  · cases h

/-- If the computation returns, `p` has been freed, unless it is NULL, and nothing else has
changed. -/
def Drops (p : Addr) (h : M (HX ω) α) : Prop :=
  ∀ s a s', h s = .val (a, s') → s'.mem = if p = 0 then s.mem else s.mem.set p none

theorem Drops.before {p : Addr} {g : M (HX ω) α} {f : α → M (HX ω) β} (hg : Keeps g)
    (hf : ∀ a, Drops p (f a)) : Drops p (g >>= f) := fun s b s' h => by
  rw [M.bind_apply] at h
  cases hx : g s with
  | val x =>
    obtain ⟨a, s1⟩ := x
    rw [hx] at h
    rw [hf a s1 b s' h, hg s a s1 hx]
  | ub u => rw [hx] at h; cases h
  | loop => rw [hx] at h; cases h

theorem Drops.after {p : Addr} {g : M (HX ω) α} {f : α → M (HX ω) β} (hg : Drops p g)
    (hf : ∀ a, Keeps (f a)) : Drops p (g >>= f) := fun s b s' h => by
  rw [M.bind_apply] at h
  cases hx : g s with
  | val x =>
    obtain ⟨a, s1⟩ := x
    rw [hx] at h
    rw [hf a s1 b s' h, hg s a s1 hx]
  | ub u => rw [hx] at h; cases h
  | loop => rw [hx] at h; cases h

theorem Drops.ite {p : Addr} {c : Prop} [Decidable c] {g g' : M (HX ω) α} (h : Drops p g)
    (h' : Drops p g') : Drops p (if c then g else g') := by split <;> assumption

theorem Drops.free (p : Addr) : Drops p (heap (free p) : M (HX ω) Unit) := fun s b s' h => by
  unfold Heap.heap Heap.free at h
  dsimp only at h
  split at h
  · rename_i hx
    split at hx
    · rename_i hp
      cases hx; cases h; rw [if_pos hp]
    · rename_i hp
      split at hx
      · cases hx; cases h; rw [if_neg hp]
      · cases hx
  · cases h
  · cases h

/-! ### Writing -/

theorem keeps_filler (id : ID) (size bp : Int) : Keeps (writeZeroFillerBytes A id size bp) := by
  unfold writeZeroFillerBytes
  refine .ite (.bind (.ofOut _) fun n => ?_) (.pure _)
  have hrest : ∀ p, Drops p (do
      let bs ← heap (readBytes p n.toNat)
      let k ← dev (fwrite bs)
      if k = n.toNat then
        heap (free p)
        pure true
      else
        dev (WS.emit (.fillerFailed n.toNat id))
        heap (free p)
        pure false : M (HX WS) Bool) := fun p =>
    .before (.heap (looking_readBytes _ _)) fun bs => .before (.dev _) fun k =>
      .ite (.after (.free p) fun _ => .pure _)
        (.before (.dev _) fun _ => .after (.free p) fun _ => .pure _)
  intro s b s' h
  rw [M.bind_apply] at h
  unfold Heap.heap malloc at h
  dsimp only at h
  cases hA : A.pick s.tick s.mem (.data n.toNat) with
  | none =>
    rw [hA] at h
    have := hrest 0 _ b s' h
    rw [if_pos rfl] at this
    exact this
  | some a =>
    rw [hA] at h
    have := hrest a _ b s' h
    rw [if_neg (A.sound hA).1] at this
    rw [this]
    dsimp only
    rw [Mem.set_set, Mem.set_none (A.sound hA).2]

theorem keeps_members {wc : ID → Addr → M (HX WS) Bool} (hw : ∀ ft p, Keeps (wc ft p)) (p : Addr) :
    ∀ k i bp, Keeps (writeMembers e wc p k i bp)
  | 0, _, _ => .pure _
  | k + 1, i, bp =>
    .bind (.heap (looking_getGrp _)) fun _ => .bind (.heap (looking_getPtr _ _)) fun _ =>
      .bind (hw _ _) fun _ => .ite
        (.bind (.heap (looking_getGrp _)) fun _ => .bind (.heap (looking_getPtr _ _)) fun _ =>
          .bind (.heap (looking_getHdr _)) fun _ => .bind (.ofOut _) fun _ =>
            keeps_members hw p k (i + 1) _)
        (.bind (.dev _) fun _ => .pure _)

theorem keeps_props {wc : ID → Addr → M (HX WS) Bool} (hw : ∀ ft p, Keeps (wc ft p)) (p : Addr) :
    ∀ k i bp, Keeps (writeProps e wc p k i bp)
  | 0, _, _ => .pure _
  | k + 1, i, bp =>
    .bind (.heap (looking_getLst _)) fun _ => .bind (.heap (looking_getPtr _ _)) fun _ =>
      .bind (hw _ _) fun _ => .ite
        (.bind (.heap (looking_getLst _)) fun _ => .bind (.heap (looking_getPtr _ _)) fun _ =>
          .bind (.heap (looking_getHdr _)) fun _ => .bind (.ofOut _) fun _ =>
            keeps_props hw p k (i + 1) _)
        (.bind (.dev _) fun _ => .pure _)

theorem keeps_groupType (attr : String) (p : Addr) (bp : Int) : Keeps (writeGroupType e attr p bp) :=
  .bind (.heap (looking_getGrp _)) fun _ => .bind (.heap (looking_getHdr _)) fun _ => .dev _

theorem keeps_writeGroup {wc : ID → Addr → M (HX WS) Bool} (hw : ∀ ft p, Keeps (wc ft p))
    (attr : String) (p : Addr) (bp : Int) : Keeps (writeGroup e wc attr p bp) :=
  .bind (keeps_groupType _ _ _) fun ⟨st, _⟩ => by
    dsimp only
    split
    · exact .bind (.heap (looking_getGrp _)) fun _ => keeps_members hw _ _ _ _
    · exact .pure _

theorem keeps_writeList {wc : ID → Addr → M (HX WS) Bool} (hw : ∀ ft p, Keeps (wc ft p))
    (p : Addr) (bp : Int) : Keeps (writeList e wc p bp) :=
  .bind (.heap (looking_getLst _)) fun _ => .bind (keeps_groupType _ _ _) fun ⟨st, _⟩ => by
    dsimp only
    split
    · exact .bind (.bind (.heap (looking_getLst _)) fun _ => keeps_props hw _ _ _ _) fun ⟨ok, _⟩ =>
        .ite (.bind (.heap (looking_getGrp _)) fun _ => keeps_members hw _ _ _ _) (.pure _)
    · exact .pure _

theorem keeps_writeChunkWith {p : Addr} {fields : M (HX WS) (Bool × Int)} (hf : Keeps fields) :
    Keeps (writeChunkWith A e p fields) :=
  .bind (.heap (looking_getHdr _)) fun _ => .bind (.dev _) fun _ => .ite
    (.bind (.heap (looking_getHdr _)) fun _ => .bind (.dev _) fun _ => .ite
      (.bind hf fun ⟨ok, _⟩ => .ite
        (.bind (.heap (looking_getHdr _)) fun _ => .bind (keeps_filler _ _ _) fun _ => .ite
          (.bind (.heap (looking_getHdr _)) fun _ => .dev _) (.pure _))
        (.pure _))
      (.pure _))
    (.pure _)

theorem keeps_writeChunk {r : Registry} : ∀ (n : Nat) (ft : ID) (p : Addr),
    Keeps (writeChunk A e r n ft p)
  | 0, _, _ => .loop
  | n + 1, ft, p => .bind (.heap (looking_getHdr _)) fun h => keeps_writeChunkWith (by
      have ih := keeps_writeChunk (r := r) n
      split
      · exact .bind (.heap (looking_getRaw _)) fun _ => .bind (.heap (looking_getHdr _)) fun _ =>
          .bind (.heap (looking_readBytes _ _)) fun _ => .bind (.dev _) fun _ =>
            .ite (.bind (.dev _) fun _ => .pure _) (.bind (.ofOut _) fun _ => .pure _)
      · exact keeps_writeGroup ih _ _ _
      · exact keeps_writeGroup ih _ _ _
      · exact keeps_writeGroup ih _ _ _
      · exact keeps_writeList ih _ _
      · exact .bind (.heap (looking_getHdr _)) fun _ => .bind (.heap (looking_getExt _ _)) fun _ =>
          .dev _)

end Iff.Heap
