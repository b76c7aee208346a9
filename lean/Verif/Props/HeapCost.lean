import Verif.Spec.Cost
import Verif.Proofs.HeapCost
import Verif.Proofs.ReadShape
import Verif.Props.HeapRead
/-
  C54 The reader's demands on the allocator.
-/
namespace Iff
open Spec
open Heap (HS Alloc Addr)

theorem payloadAll_split (cs : List Chunk) (p : Chunk → Bool) :
    payloadAll (cs.filter fun c => !p c) + payloadAll (cs.filter p) = payloadAll cs := by
  induction cs with
  | nil => simp [payloadAll]
  | cons c cs ih => cases h : p c <;> simp [h, payloadAll] <;> omega

theorem Loose.payload {e : Env} {r : Registry} {ft : ID} {w : List Byte} {c : Chunk}
    (h : Loose e r ft w c) : 8 * Spec.nodes c + Spec.payload c ≤ w.length := by
  have all : ∀ (ps : List Bite), (∀ q ∈ ps, 8 * Spec.nodes q.2 + Spec.payload q.2 ≤ q.1.length) →
      8 * nodesAll (ps.map Prod.snd) + payloadAll (ps.map Prod.snd) ≤ (bites ps).length := by
    intro ps
    induction ps with
    | nil => intro _; simp [nodesAll, payloadAll]
    | cons q ps ih =>
      intro h
      have h1 := h q List.mem_cons_self
      have h2 := ih (fun q hq => h q (List.mem_cons_of_mem _ hq))
      simp only [List.map_cons, nodesAll, payloadAll, bites_cons, List.length_append]
      omega
  induction h with
  | raw => simp only [Spec.nodes, Spec.payload, List.length_append, bytes32_length]; omega
  | ext => simp only [Spec.nodes, Spec.payload, List.length_append, bytes32_length]; omega
  | grp ps _ _ _ _ _ ih =>
    have := all ps ih
    simp only [Spec.nodes, Spec.payload, List.length_append, bytes32_length]; omega
  | lst ps _ _ _ _ ih =>
    have := all ps ih
    have h2 := nodesAll_split (ps.map Prod.snd)
    have h3 := payloadAll_split (ps.map Prod.snd) fun c => decide (c.id = idPROP)
    simp only [Spec.nodes, Spec.payload, List.length_append, bytes32_length, decide_not, ne_eq] at *
    omega

/-- C54: the reader makes at most three requests per eight bytes of the file, whatever the file
contains, which requests are refused and which registry is used. -/
theorem C54_requests (A : Alloc) (e : Env) (reg : Option Registry) (s s' : HS) (p : Addr)
    (h : Heap.readFd A e reg s = .val (p, s')) :
    8 * s'.tick ≤ 8 * s.tick + 3 * s.rs.inp.length := by
  have key : Heap.Free (do
      let p ← Heap.readChunk A e (selectChunkRegistry reg) (s.rs.inp.length + 4) 0
      if p = 0 then do
        Heap.io (RS.emit .mainChunk)
        pure 0
      else do
        match ← Heap.io fgetc with
        | some b => do
          Heap.io (RS.emit (.trailing b.toNat))
          pure p
        | none => pure p : M HS Addr) := by
    refine Heap.free_bind ((Heap.spends_read A e _ _).1 0 |>.mono fun p => ?_) fun p => ?_
    · split <;> omega
    · split
      · exact Heap.free_bind (Heap.free_io (shrinks_emit _)) fun _ => Heap.spends_pure _ (by omega)
      · refine Heap.free_bind (Heap.free_io shrinks_fgetc) fun b => ?_
        cases b with
        | none => exact Heap.spends_pure _ (by omega)
        | some b =>
          exact Heap.free_bind (Heap.free_io (shrinks_emit _)) fun _ => Heap.spends_pure _ (by omega)
  have := key s p s' h
  simp only [Heap.potential] at this
  omega

/-- C54 for `IFF_read` and `IFF_readFile`. -/
theorem C54_requests_file (A : Alloc) (e : Env) (reg : Option Registry) (name : String)
    (contents : Option (List Byte)) (s s' : HS) (p : Addr)
    (h : Heap.readFile A e reg name contents s = .val (p, s')) :
    8 * s'.tick ≤ 8 * s.tick + 3 * (contents.getD []).length := by
  cases contents with
  | none => cases h; simp
  | some bs => exact C54_requests A e reg _ s' p h

/-- C54: the hierarchy that is returned holds no more data than the file. -/
theorem C54_data (e : Env) (he : e.Sane) (reg : Option Registry) (s s' : RS) (c : Chunk)
    (h : readFd e reg s = .val (some c, s')) : 8 * nodes c + payload c ≤ s.inp.length := by
  obtain ⟨s1, h1, _⟩ := readFd_some h
  obtain ⟨w, hw, hl⟩ := (read_loose he _).1 _ _ _ _ h1
  have := hl.payload
  rw [hw, List.length_append]
  omega

/-- Eight bytes: the header of a data chunk of 2 GiB. -/
def hugeChunk : List Byte := [0x41, 0x42, 0x43, 0x44, 0x7f, 0xff, 0xff, 0xff]

/-- C54 is false: the reader requests the declared size of a data chunk before it reads any of it.
Two allocators that differ only in that they refuse or grant 2147483647 bytes can be told apart with a
file of eight bytes: the diagnostics differ. -/
theorem C54_false :
    readFd { pc with mallocOk := fun n => n ≤ 100 } none ⟨hugeChunk, []⟩ =
      .val (none, ⟨[], [.mainChunk]⟩) ∧
    readFd { pc with mallocOk := fun n => n ≤ 100 ∨ n = 2147483647 } none ⟨hugeChunk, []⟩ =
      .val (none, ⟨[], [.rawRead (makeId 'A' 'B' 'C' 'D'), .mainChunk]⟩) := by
  exact ⟨by rfl, by rfl⟩

/-- The hypotheses of `C54_requests` are met: 25 bytes more than suffice for six requests. -/
example : ∃ s', Heap.readFd (numbered fun _ _ => false) pc none ⟨fun _ => none, 0, ⟨truncatedForm, []⟩⟩
    = .val (0, s') ∧ s'.tick = 6 := returned_eq (by decide +kernel)

/-- And so are those of `C54_data`. -/
example : ∃ s', readFd pc none ⟨encode sample, []⟩ = .val (some sample, s') ∧ nodes sample = 6 ∧
    payload sample = 1 := ⟨⟨[], []⟩, by rfl, by decide, by decide⟩

end Iff
