import Verif.Proofs.SrcBuild
import Verif.Spec.SrcUse
import Verif.Props.SrcWrite
import Verif.Props.HeapBuild
/-
  C66 The program text of the functions that build hierarchies does what the model says.
-/
namespace Iff.Src
set_option maxRecDepth 4000
open Spec
open Heap (Addr Block Mem HS HX Alloc Op)

/-! ### What the calls keep -/

theorem updSize_bd {L : Nat} {p : Addr} {z : Int} {s s' : HS} {u : Unit} (hm : MBd L s.mem) (hz : inInt z)
    (h : Heap.updHdr p (fun h => { h with size := z }) s = .val (u, s')) : MBd L s'.mem := by
  obtain ⟨b, hd, h1, h2, rfl⟩ := updHdr_inv h
  exact hm.set ((hm _ _ h1).setHdr h2 hz rfl)

theorem growSize_bd {L : Nat} {e : Env} {p c : Addr} {s s' : HS} {u : Unit} (hm : MBd L s.mem)
    (h : Heap.growSize e p c s = .val (u, s')) : MBd L s'.mem := by
  unfold Heap.growSize at h
  obtain ⟨hd, s1, h1, k1⟩ := bind_inv h
  obtain ⟨-, rfl⟩ := getHdr_inv h1
  obtain ⟨hc, s2, h2, k2⟩ := bind_inv k1
  obtain ⟨-, rfl⟩ := getHdr_inv h2
  obtain ⟨z, s3, h3, k3⟩ := bind_inv k2
  obtain ⟨h3, rfl⟩ := ofOut_inv h3
  exact updSize_bd hm (incrementChunkSize_inv ‹_›).2.1 k3

theorem sumMembers_bd {L : Nat} {e : Env} {p : Addr} : ∀ {k i : Nat} {s s' : HS} {u : Unit}, MBd L s.mem →
    Heap.sumMembers e p k i s = .val (u, s') → MBd L s'.mem := by
  intro k
  induction k with
  | zero => intro i s s' u hm h; obtain ⟨-, rfl⟩ := pure_inv h; exact hm
  | succ k ih =>
    intro i s s' u hm h
    unfold Heap.sumMembers at h
    obtain ⟨hd, s1, h1, k1⟩ := bind_inv h
    obtain ⟨-, rfl⟩ := getHdr_inv h1
    obtain ⟨g, s2, h2, k2⟩ := bind_inv k1
    obtain ⟨-, rfl⟩ := getGrp_inv h2
    obtain ⟨c, s3, h3, k3⟩ := bind_inv k2
    have hs3 := (getPtr_inv h3).2
    obtain ⟨hc, s4, h4, k4⟩ := bind_inv k3
    obtain ⟨-, rfl⟩ := getHdr_inv h4
    obtain ⟨z, s5, h5, k5⟩ := bind_inv k4
    obtain ⟨h5, rfl⟩ := ofOut_inv h5
    obtain ⟨u6, s6, h6, k6⟩ := bind_inv k5
    exact ih (updSize_bd (by rw [hs3]; exact hm) (incrementChunkSize_inv ‹_›).2.1 h6) k6

theorem sumProps_bd {L : Nat} {e : Env} {p : Addr} : ∀ {k i : Nat} {s s' : HS} {u : Unit}, MBd L s.mem →
    Heap.sumProps e p k i s = .val (u, s') → MBd L s'.mem := by
  intro k
  induction k with
  | zero => intro i s s' u hm h; obtain ⟨-, rfl⟩ := pure_inv h; exact hm
  | succ k ih =>
    intro i s s' u hm h
    unfold Heap.sumProps at h
    obtain ⟨hd, s1, h1, k1⟩ := bind_inv h
    obtain ⟨-, rfl⟩ := getHdr_inv h1
    obtain ⟨g, s2, h2, k2⟩ := bind_inv k1
    obtain ⟨-, rfl⟩ := getLst_inv h2
    obtain ⟨c, s3, h3, k3⟩ := bind_inv k2
    have hs3 := (getPtr_inv h3).2
    obtain ⟨hc, s4, h4, k4⟩ := bind_inv k3
    obtain ⟨-, rfl⟩ := getHdr_inv h4
    obtain ⟨z, s5, h5, k5⟩ := bind_inv k4
    obtain ⟨h5, rfl⟩ := ofOut_inv h5
    obtain ⟨u6, s6, h6, k6⟩ := bind_inv k5
    exact ih (updSize_bd (by rw [hs3]; exact hm) (incrementChunkSize_inv ‹_›).2.1 h6) k6

theorem updateGroupSizes_bd {L : Nat} {e : Env} {p : Addr} {s s' : HS} {u : Unit} (hm : MBd L s.mem)
    (h : Heap.updateGroupSizes e p s = .val (u, s')) : MBd L s'.mem := by
  unfold Heap.updateGroupSizes at h
  obtain ⟨u1, s1, h1, k1⟩ := bind_inv h
  have hm1 := updSize_bd hm (by decide) h1
  obtain ⟨g, s2, h2, k2⟩ := bind_inv k1
  obtain ⟨-, rfl⟩ := getGrp_inv h2
  exact sumMembers_bd hm1 k2

theorem updateListSizes_bd {L : Nat} {e : Env} {p : Addr} {s s' : HS} {u : Unit} (hm : MBd L s.mem)
    (h : Heap.updateListSizes e p s = .val (u, s')) : MBd L s'.mem := by
  unfold Heap.updateListSizes at h
  obtain ⟨u1, s1, h1, k1⟩ := bind_inv h
  have hm1 := updateGroupSizes_bd hm h1
  obtain ⟨g, s2, h2, k2⟩ := bind_inv k1
  obtain ⟨-, rfl⟩ := getLst_inv h2
  exact sumProps_bd hm1 k2

theorem updateOwnSize_bd {L : Nat} {e : Env} {p : Addr} {s s' : HS} {u : Unit} (hm : MBd L s.mem)
    (h : Heap.updateOwnSize e p s = .val (u, s')) : MBd L s'.mem := by
  unfold Heap.updateOwnSize at h
  obtain ⟨hd, s1, h1, k1⟩ := bind_inv h
  obtain ⟨-, rfl⟩ := getHdr_inv h1
  split at k1
  · exact updateGroupSizes_bd hm k1
  split at k1
  · exact updateGroupSizes_bd hm k1
  split at k1
  · exact updateGroupSizes_bd hm k1
  split at k1
  · exact updateListSizes_bd hm k1
  · obtain ⟨-, rfl⟩ := pure_inv k1; exact hm

theorem updateSizes_bd {L : Nat} {e : Env} : ∀ {k : Nat} {p : Addr} {s s' : HS} {u : Unit}, MBd L s.mem →
    Heap.updateSizes e k p s = .val (u, s') → MBd L s'.mem := by
  intro k
  induction k with
  | zero => intro p s s' u _ h; cases h
  | succ k ih =>
    intro p s s' u hm h
    unfold Heap.updateSizes at h
    obtain ⟨u1, s1, h1, k1⟩ := bind_inv h
    have hm1 := updateOwnSize_bd hm h1
    obtain ⟨hd, s2, h2, k2⟩ := bind_inv k1
    obtain ⟨-, rfl⟩ := getHdr_inv h2
    split at k2
    · exact ih hm1 k2
    · obtain ⟨-, rfl⟩ := pure_inv k2; exact hm1

theorem copyBytes_bd {L : Nat} {d : Addr} {data : List Byte} {k : Nat} {s s' : HS} {u : Unit} (hm : MBd L s.mem)
    (h : Heap.copyBytes d data k s = .val (u, s')) : MBd L s'.mem ∧ s'.rs = s.rs := by
  unfold Heap.copyBytes at h
  obtain ⟨b, s1, h1, k1⟩ := bind_inv h
  obtain ⟨-, rfl⟩ := load_inv h1
  cases b <;> first | (cases k1; done) | skip
  simp only at k1
  split at k1
  · obtain ⟨-, rfl⟩ := store_inv k1
    exact ⟨hm.set trivial, rfl⟩
  · cases k1

theorem copyData_bd {L : Nat} {e : Env} {p : Addr} {data : List Byte} {s s' : HS} {u : Unit} (hm : MBd L s.mem)
    (h : Heap.copyData e p data s = .val (u, s')) : MBd L s'.mem ∧ s'.rs = s.rs := by
  unfold Heap.copyData at h
  obtain ⟨b, s1, h1, k1⟩ := bind_inv h
  obtain ⟨-, rfl⟩ := load_inv h1
  cases b <;> first | (cases k1; done) | skip
  exact copyBytes_bd hm k1

theorem newStruct_bd {X : Cfg} {L : Nat} {b : Block} {p : Addr} {s s' : HS} (hm : MBd L s.mem) (hb : Bd L b)
    (h : Heap.newStruct X.alloc b s = .val (p, s')) : MBd L s'.mem ∧ s'.rs = s.rs := malloc_bd hm hb h

/-! ### C66 -/

/-- C66, one call: for every platform, allocator, memory and call (`Callable`), if the model of the call
returns then executing the text of each function it can be made with returns the same pointer, without
undefined behaviour, and leaves the same blocks in the heap; it changes nothing else. -/
theorem C66_call (X : Cfg) (hX : X.Linked) (g : CS) (src : List Byte → Obj) (s s' : HS) (op : Op) (r : Addr)
    (L : Nat) (hm : MBd L s.mem) (hL : L + growth op ≤ 4294967296) (hc : Callable X g src s.mem op)
    (h : op.run X.alloc X.e s = .val (r, s')) :
    Does X src op (emb X g s) r (emb X g s') ∧ MBd (L + growth op) s'.mem := by
  cases op with
  | read reg bytes =>
    have hp : Pre (L + bytes.length) ⟨s.mem, s.tick, ⟨bytes, s.rs.log⟩⟩ :=
      ⟨Nat.le_add_left .., hm.mono (by show L ≤ L + bytes.length - bytes.length; omega)⟩
    obtain ⟨hpr, q, hq⟩ := hc
    refine ⟨fun q hq => ?_, ?_⟩
    · exact (readFd_run (stk := g.stk) (out := g.out) (room := g.room) (text := g.text) hX hq hpr
        (N := 536870912) (like_self (by decide)) ⟨hL, hL⟩ hp h).2
    · exact (readFd_run (stk := g.stk) (out := g.out) (room := g.room) (text := g.text) hX hq hpr
        (N := 536870912) (like_self (by decide)) ⟨hL, hL⟩ hp h).1.2.mono (Nat.sub_le ..)
  | raw id data =>
    obtain ⟨hid, hlen, hne, hsrc⟩ := hc
    have hi : inInt (data.length : Int) := ⟨by omega, by omega⟩
    simp only [Op.run, Heap.newRaw] at h
    obtain ⟨p, s1, h1, k1⟩ := bind_inv h
    have hrun := fun n => createRaw_run (n := n) (stk := g.stk) (out := g.out) (room := g.room)
      (text := g.text) hi h1
    obtain ⟨hm1, hr1, -⟩ := create_bd (hd := .raw) hm hi (fun h => absurd h hid) (by intros; exact fun h => nomatch h) h1
    by_cases h0 : p = 0
    · rw [if_pos h0] at k1
      obtain ⟨rfl, rfl⟩ := pure_inv k1
      exact ⟨⟨_, ⟨3, fun n hn => by obtain ⟨n, rfl⟩ : ∃ k, n = k + 3 := ⟨n - 3, by omega⟩; rw [← h0]; exact hrun n⟩, fun _ => rfl,
        fun h => absurd rfl h⟩, hm1⟩
    · rw [if_neg h0] at k1
      obtain ⟨u2, s2, h2, k2⟩ := bind_inv k1
      obtain ⟨rfl, rfl⟩ := pure_inv k2
      have hblk : (emb X g s1).blk X (src data) = some (layout X.e (.bytes (data.map some))) := by
        rw [← hsrc]
        cases hs : src data with
        | heap a => exact absurd hs (hne a)
        | stk i => rfl
        | static k => rfl
      refine ⟨⟨_, ⟨3, fun n hn => by obtain ⟨n, rfl⟩ : ∃ k, n = k + 3 := ⟨n - 3, by omega⟩; exact hrun n⟩, fun h => absurd h h0,
        fun _ => ⟨2, fun n hn => ?_⟩⟩, (copyData_bd hm1 h2).1⟩
      obtain ⟨n, rfl⟩ : ∃ k, n = k + 2 := ⟨n - 2, by omega⟩
      exact copyData_run (stk := g.stk) (out := g.out) (room := g.room) (text := g.text) hblk
        (Rep.of_bd hm1 (by omega)) h2
  | group id ty =>
    refine ⟨⟨?_, ?_, ?_, ?_, ?_⟩, (newStruct_bd hm (b := .grp ⟨0, id, idSize⟩ ty 0 0) ⟨show inInt 4 by decide, Nat.zero_le _⟩ h).1⟩
    · refine ⟨4, fun n hn => ?_⟩
      obtain ⟨n, rfl⟩ : ∃ k, n = k + 4 := ⟨n - 4, by omega⟩
      exact createEmptyGroup_run (stk := g.stk) (out := g.out) (room := g.room) (text := g.text) h
    · rintro rfl
      refine ⟨5, fun n hn => ?_⟩
      obtain ⟨n, rfl⟩ : ∃ k, n = k + 5 := ⟨n - 5, by omega⟩
      exact createEmptyForm_run (stk := g.stk) (out := g.out) (room := g.room) (text := g.text) h
    · rintro rfl
      refine ⟨5, fun n hn => ?_⟩
      obtain ⟨n, rfl⟩ : ∃ k, n = k + 5 := ⟨n - 5, by omega⟩
      exact createEmptyCATWith_run (stk := g.stk) (out := g.out) (room := g.room) (text := g.text) h
    · rintro rfl rfl
      refine ⟨6, fun n hn => ?_⟩
      obtain ⟨n, rfl⟩ : ∃ k, n = k + 6 := ⟨n - 6, by omega⟩
      exact createEmptyCAT_run (stk := g.stk) (out := g.out) (room := g.room) (text := g.text) h
    · rintro rfl
      refine ⟨5, fun n hn => ?_⟩
      obtain ⟨n, rfl⟩ : ∃ k, n = k + 5 := ⟨n - 5, by omega⟩
      exact createEmptyProp_run (stk := g.stk) (out := g.out) (room := g.room) (text := g.text) h
  | list ty =>
    refine ⟨⟨?_, ?_⟩, (newStruct_bd hm (b := .lst ⟨0, idLIST, idSize⟩ ty 0 0 0 0) ⟨show inInt 4 by decide, Nat.zero_le _, Nat.zero_le _⟩ h).1⟩
    · refine ⟨4, fun n hn => ?_⟩
      obtain ⟨n, rfl⟩ : ∃ k, n = k + 4 := ⟨n - 4, by omega⟩
      exact createEmptyListWith_run (stk := g.stk) (out := g.out) (room := g.room) (text := g.text) h
    · rintro rfl
      refine ⟨5, fun n hn => ?_⟩
      obtain ⟨n, rfl⟩ : ∃ k, n = k + 5 := ⟨n - 5, by omega⟩
      exact createEmptyList_run (stk := g.stk) (out := g.out) (room := g.room) (text := g.text) h
  | ext id size vals => exact hc.elim
  | add p c =>
    simp only [Op.run] at h
    obtain ⟨u, s1, h1, k1⟩ := bind_inv h
    obtain ⟨rfl, rfl⟩ := pure_inv k1
    have hs := Small.of_bd hm
    refine ⟨⟨rfl, ?_, ?_, ?_, ?_, ?_⟩, ?_⟩
    · refine ⟨3, fun n hn => ?_⟩
      obtain ⟨n, rfl⟩ : ∃ k, n = k + 3 := ⟨n - 3, by omega⟩
      exact (addToGroup_run (stk := g.stk) (out := g.out) (room := g.room) (text := g.text) hL hs h1).1
    · refine ⟨4, fun n hn => ?_⟩
      obtain ⟨n, rfl⟩ : ∃ k, n = k + 4 := ⟨n - 4, by omega⟩
      exact addToForm_run (stk := g.stk) (out := g.out) (room := g.room) (text := g.text) hL hs h1
    · refine ⟨4, fun n hn => ?_⟩
      obtain ⟨n, rfl⟩ : ∃ k, n = k + 4 := ⟨n - 4, by omega⟩
      exact addToCAT_run (stk := g.stk) (out := g.out) (room := g.room) (text := g.text) hL hs h1
    · refine ⟨5, fun n hn => ?_⟩
      obtain ⟨n, rfl⟩ : ∃ k, n = k + 5 := ⟨n - 5, by omega⟩
      exact addToProp_run (stk := g.stk) (out := g.out) (room := g.room) (text := g.text) hL hs h1
    · refine ⟨5, fun n hn => ?_⟩
      obtain ⟨n, rfl⟩ : ∃ k, n = k + 5 := ⟨n - 5, by omega⟩
      exact addToList_run (stk := g.stk) (out := g.out) (room := g.room) (text := g.text) hL hs h1
    · obtain ⟨u2, s2, h2, k2⟩ := bind_inv h1
      exact growSize_bd (attachToGroup_run (n := 0) (stk := []) (out := []) (room := 0) (text := []) hL hm h2).2.1 k2
  | addProp p c =>
    simp only [Op.run] at h
    obtain ⟨u, s1, h1, k1⟩ := bind_inv h
    obtain ⟨rfl, rfl⟩ := pure_inv k1
    have hs := Small.of_bd hm
    refine ⟨⟨rfl, ?_⟩, ?_⟩
    · refine ⟨3, fun n hn => ?_⟩
      obtain ⟨n, rfl⟩ : ∃ k, n = k + 3 := ⟨n - 3, by omega⟩
      exact (addProp_run (stk := g.stk) (out := g.out) (room := g.room) (text := g.text) hL hs h1 hc).1
    · obtain ⟨u2, s2, h2, k2⟩ := bind_inv h1
      exact growSize_bd (addPropToList_run (n := 0) (stk := []) (out := []) (room := 0) (text := []) hL hm h2 hc).2.1 k2
  | addAuto p c =>
    simp only [Op.run] at h
    obtain ⟨u, s1, h1, k1⟩ := bind_inv h
    obtain ⟨rfl, rfl⟩ := pure_inv k1
    have hs := Small.of_bd hm
    refine ⟨⟨rfl, ?_, ?_⟩, ?_⟩
    · refine ⟨5, fun n hn => ?_⟩
      obtain ⟨n, rfl⟩ : ∃ k, n = k + 5 := ⟨n - 5, by omega⟩
      exact (addAndUpdate_run (stk := g.stk) (out := g.out) (room := g.room) (text := g.text) hL hs h1).1
    · refine ⟨6, fun n hn => ?_⟩
      obtain ⟨n, rfl⟩ : ∃ k, n = k + 6 := ⟨n - 6, by omega⟩
      exact addAndUpdateList_run (stk := g.stk) (out := g.out) (room := g.room) (text := g.text) hL hs h1
    · obtain ⟨u2, s2, h2, k2⟩ := bind_inv h1
      have hm2 : MBd L s2.mem := by
        unfold Heap.updateContentsType at h2
        obtain ⟨hd, s3, h3, k3⟩ := bind_inv h2
        obtain ⟨-, rfl⟩ := getHdr_inv h3
        split at k3
        · obtain ⟨gc, s4, h4, k4⟩ := bind_inv k3
          obtain ⟨-, rfl⟩ := getGrp_inv h4
          exact (updGrp_bd hm (by intro _ h; exact h) k4).1
        · obtain ⟨-, rfl⟩ := pure_inv k3; exact hm
      obtain ⟨u3, s3, h3, k3⟩ := bind_inv k2
      exact growSize_bd (attachToGroup_run (n := 0) (stk := []) (out := []) (room := 0) (text := []) hL hm2 h3).2.1 k3
  | update k p =>
    simp only [Op.run] at h
    obtain ⟨u, s1, h1, k1⟩ := bind_inv h
    obtain ⟨rfl, rfl⟩ := pure_inv k1
    exact ⟨⟨rfl, (updateSizes_run (stk := g.stk) (out := g.out) (room := g.room) (text := g.text)
      (by omega) (Small.of_bd hm) h1).2.2.2⟩, updateSizes_bd hm h1⟩
  | free reg k p =>
    simp only [Op.run] at h
    obtain ⟨u, s1, h1, k1⟩ := bind_inv h
    obtain ⟨rfl, rfl⟩ := pure_inv k1
    refine ⟨⟨rfl, fun q hq => iffFree_run (stk := g.stk) (out := g.out) (room := g.room) (text := g.text)
      hX hq hm (by omega) h1⟩, ?_⟩
    exact hm.sub (freeChunk_shrinks h1).1

/-- C66, programs: the same for a sequence of calls. -/
theorem C66_programs (X : Cfg) (hX : X.Linked) (g : CS) (src : List Byte → Obj) (ok : Mem → Op → Prop)
    (hok : ∀ m op, ok m op → Callable X g src m op) (s₀ : HS) (L : Nat) (hm : MBd L s₀.mem)
    (ops : List Op) (s : HS) (hL : L + (ops.map growth).sum ≤ 4294967296) (h : Made X ok s₀ ops s) :
    Ran X src (emb X g s₀) ops (emb X g s) ∧ MBd (L + (ops.map growth).sum) s.mem := by
  induction h with
  | start => exact ⟨.start, hm⟩
  | @call ops s op r s' hh h1 h2 ih =>
    simp only [List.map_append, List.map_cons, List.map_nil, List.sum_append, List.sum_cons, List.sum_nil,
      Nat.add_zero] at hL ⊢
    obtain ⟨ih1, ih2⟩ := ih (by omega)
    obtain ⟨k1, k2⟩ := C66_call X hX g src s s' op r _ ih2 (by omega) (hok _ _ h1) h2
    rw [Nat.add_assoc] at k2
    exact ⟨.call ih1 k1, k2⟩

/-- C66 with C35: a program that starts with an empty heap and makes allowed calls leaves correct parent
links. -/
theorem C66_links (X : Cfg) (hX : X.Linked) (he : X.e.Sane) (g : CS) (src : List Byte → Obj) (inp : List Byte)
    (ops : List Op) (s : HS) (hL : (ops.map growth).sum ≤ 4294967296)
    (h : Made X (fun m op => Allowed (fun _ => none) m op ∧ Callable X g src m op) (fresh inp) ops s) :
    Ran X src (emb X g (fresh inp)) ops (emb X g s) ∧ Linked (fun _ => none) s.mem := by
  refine ⟨(C66_programs X hX g src _ (fun _ _ h => h.2) (fresh inp) 0 fresh_bd ops s (by omega) h).1, ?_⟩
  refine C35_histories X.alloc X.e he (fun _ => True) (fresh inp) s rfl ?_
  clear hL
  induction h with
  | start => exact .start
  | call _ h1 h2 ih => exact .call ih trivial h1.1 h2

/-- C66, text data: likewise for `IFF_setTextData` with a string literal. -/
theorem C66_set_text (X : Cfg) (g : CS) (s s' : HS) (p : Addr) (t : String) (u : Unit)
    (h0 : (0 : Byte) ∉ cString t) (hl : (cString t).length < 4294967296)
    (h : Heap.setText X.alloc p (cString t) s = .val (u, s')) :
    Runs X .IFF_setTextData [.ptr (.struct .IFF_RawChunk) ⟨.heap p, 0⟩, .str t] (emb X g s) .void
      (emb X g s') := by
  refine ⟨2, fun n hn => ?_⟩
  obtain ⟨n, rfl⟩ : ∃ k, n = k + 2 := ⟨n - 2, by omega⟩
  exact setText_run (stk := g.stk) (out := g.out) (room := g.room) (text := g.text) h0 hl h

/-- The functions that create a group with a given size, with the id of the group and the type of its struct. -/
def sized : List (Fn × ID × Struct) :=
  [(.IFF_createForm, idFORM, .IFF_Form), (.IFF_createCAT, idCAT, .IFF_CAT), (.IFF_createProp, idPROP, .IFF_Form)]

/-- C66, groups of a given size: with the size and the type as arguments, the text of `IFF_createForm`,
`IFF_createCAT` and `IFF_createProp` makes one request to the allocator, and returns a new block that holds a group
with the right id, this size and type, and no chunks; or `NULL`, if the request is refused. -/
theorem C66_create_sized (X : Cfg) (g : CS) (s : HS) (f : Fn) (id ty : ID) (t : Struct) (size : Int)
    (hf : (f, id, t) ∈ sized) (hs : inInt size) :
    match X.alloc.pick s.tick s.mem (.struct .grp) with
    | none => Runs X f [.int .int size, .int .uint ty.toNat] (emb X g s) (.ptr (.struct t) Ptr.null)
        (emb X g ⟨s.mem, s.tick + 1, s.rs⟩)
    | some p => p ≠ 0 ∧ s.mem p = none ∧
      Runs X f [.int .int size, .int .uint ty.toNat] (emb X g s) (.ptr (.struct t) ⟨.heap p, 0⟩)
        (emb X g ⟨s.mem.set p (some (.grp ⟨0, id, size⟩ ty 0 0)), s.tick + 1, s.rs⟩) := by
  have key : ∀ {p : Addr} {s' : HS}, Heap.newStruct X.alloc (.grp ⟨0, id, size⟩ ty 0 0) s = .val (p, s') →
      Runs X f [.int .int size, .int .uint ty.toNat] (emb X g s) (.ptr (.struct t) ⟨.heap p, 0⟩) (emb X g s') := by
    intro p s' h
    refine ⟨4, fun n hn => ?_⟩
    show callFn X n f _ (st X g.stk g.out g.room g.text s) = .val (_, st X g.stk g.out g.room g.text s')
    obtain ⟨n, rfl⟩ : ∃ k, n = k + 4 := ⟨n - 4, by omega⟩
    have h1 := createGroup_run (n := n) (stk := g.stk) (out := g.out) (room := g.room) (text := g.text)
      (t := .int) (u := .int) (v := .uint) hs h
    simp only [sized, List.mem_cons, Prod.mk.injEq, List.not_mem_nil, or_false] at hf
    rcases hf with ⟨rfl, rfl, rfl⟩ | ⟨rfl, rfl, rfl⟩ | ⟨rfl, rfl, rfl⟩ <;> rw [callFn_code rfl]
    · crun [IFF_createForm.code, ↓evalE_FORM, wrapInt_of hs, toNat_emod, List.take_length, h1]
    · crun [IFF_createCAT.code, ↓evalE_CAT, wrapInt_of hs, toNat_emod, List.take_length, h1]
    · crun [IFF_createProp.code, ↓evalE_PROP, wrapInt_of hs, toNat_emod, List.take_length, h1]
  cases hp : X.alloc.pick s.tick s.mem (.struct .grp) with
  | none => exact key (by simp only [Heap.newStruct, Heap.malloc, Heap.Block.skind, hp])
  | some p =>
    exact ⟨(X.alloc.sound hp).1, (X.alloc.sound hp).2, key (by simp only [Heap.newStruct, Heap.malloc, Heap.Block.skind, hp])⟩

/-! ### Examples -/

/-- An application with an array of three bytes. -/
def threeBytes : CS := ⟨fun _ => none, 0, [layout pc (.bytes [some 1, some 2, some 3])], [], [], 0, [], []⟩

/-- The calls that make a FORM with a raw chunk of these bytes. -/
def formCalls : List Op := [.group idFORM 0x54455354#32, .raw 0x41424344#32 [1, 2, 3], .add 1 2]

/-- The hypotheses of `C66_links` are met by these calls. -/
example : ∃ s, Made (linked fun _ _ => false) (fun m op => Allowed (fun _ => none) m op ∧
    Callable (linked fun _ _ => false) threeBytes (fun _ => .stk 0) m op) (fresh []) formCalls s := by
  refine ⟨_, .call (op := .add 1 2) (.call (op := .raw _ _) (.call (op := .group _ _) .start ⟨trivial, trivial⟩ rfl)
    ⟨show 3 < 2147483648 by decide, by decide, by decide, ⟨fun a h => by simp at h, rfl⟩⟩ rfl)
    ⟨⟨rfl, rfl, ⟨_, _, rfl, rfl⟩, ⟨_, _, rfl, rfl, rfl⟩, ?_⟩, trivial⟩ rfl⟩
  · intro h
    cases h with
    | step h1 h2 =>
      obtain ⟨b, h, h3, h4, h5⟩ := h1
      cases h3; cases h4; cases h5
      cases h2 with
      | step h1 h2 =>
        obtain ⟨b, h, h3, h4, h5⟩ := h1
        cases h3

/-- The scalar at an address after an execution. -/
def cellAt (a i : Nat) : Out (V × CS) → Option Cell
  | .val (_, g) => (g.heap a).map fun b => b.cell i
  | _ => none

/-- Call one function after another. -/
def andCall (X : Cfg) (f : Fn) (vs : List V) : Out (V × CS) → Out (V × CS)
  | .val (_, g) => callFn X 40 f vs g
  | o => o

/-- The text can be run: the FORM has the size of its member with its header and padding byte. -/
example :
    let X := linked fun _ _ => false
    let r := andCall X .IFF_addToForm [.ptr (.struct .IFF_Form) ⟨.heap 1, 0⟩,
        .ptr (.struct .IFF_Chunk) ⟨.heap 2, 0⟩]
      (andCall X .IFF_copyDataToRawChunkData [.ptr (.struct .IFF_RawChunk) ⟨.heap 2, 0⟩,
        .ptr (.int .uchar) ⟨.stk 0, 0⟩]
      (andCall X .IFF_createRawChunk [.int .uint 0x41424344, .int .int 3]
      (callFn X 40 .IFF_createEmptyForm [.int .uint 0x54455354] threeBytes)))
    (cellAt 1 2 r, cellAt 1 4 r, cellAt 4 0 r, cellAt 2 0 r, cellAt 3 2 r) =
      (some (.int .int 16), some (.int .uint 1), some (.ptr ⟨.heap 2, 0⟩), some (.ptr ⟨.heap 1, 0⟩),
        some (.int .uchar 3)) := by decide +kernel

/-- Text: the size becomes the number of characters. -/
example :
    let X := linked fun _ _ => false
    let r := andCall X .IFF_setTextData [.ptr (.struct .IFF_RawChunk) ⟨.heap 1, 0⟩, .str "Hi"]
      (callFn X 40 .IFF_createRawChunk [.int .uint 0x54455854, .int .int 0] threeBytes)
    (cellAt 1 2 r, cellAt 3 0 r, cellAt 3 1 r) =
      (some (.int .int 2), some (.int .uchar 72), some (.int .uchar 105)) := by decide +kernel

end Iff.Src
