import Verif.Props.SrcBuild
import Verif.Proofs.SrcPrint
import Verif.Proofs.SrcCheck
import Verif.Proofs.SrcWrite
import Verif.Proofs.SrcSearch
import Verif.Heap.Tools
import Verif.Spec.SrcTools
/-
  The files of iff.c (63-91, 98-120), and the tools: src/iffpp/pp.c, src/iffjoin/join.c.
-/
namespace Iff.Src
set_option maxRecDepth 4000
open Spec
open Heap (Addr Block Mem HS Hdr Grp Lst HX TS lib)

section
variable {X : Cfg} {n room : Nat} {heap : Nat → Option Blk} {tick : Nat} {stk : List Blk}
  {inp out text : List Byte} {log : List ErrPrint}

theorem lib_inv {α : Type} {m : M HS α} {s s' : TS} {a : α} (h : lib m s = .val (a, s')) :
    ∃ inp, m ⟨s.mem, s.tick, ⟨[], s.st⟩⟩ = .val (a, ⟨s'.mem, s'.tick, ⟨inp, s'.st⟩⟩) := by
  unfold lib at h
  cases hm : m ⟨s.mem, s.tick, ⟨[], s.st⟩⟩ with
  | val x =>
    obtain ⟨b, ⟨m', t', ⟨i', l'⟩⟩⟩ := x
    rw [hm] at h
    cases h
    exact ⟨i', rfl⟩
  | ub u => rw [hm] at h; cases h
  | loop => rw [hm] at h; cases h

theorem printed_inv {m : M (HX (List Byte)) Unit} {s s' : TS} {bs : List Byte}
    (h : Heap.printed m s = .val (bs, s')) :
    m ⟨s.mem, s.tick, []⟩ = .val ((), ⟨s'.mem, s'.tick, bs⟩) ∧ s'.st = s.st := by
  unfold Heap.printed at h
  cases hm : m ⟨s.mem, s.tick, []⟩ with
  | val x =>
    obtain ⟨⟨⟩, ⟨m', t', o⟩⟩ := x
    rw [hm] at h
    cases h
    exact ⟨rfl, rfl⟩
  | ub u => rw [hm] at h; cases h
  | loop => rw [hm] at h; cases h

/-! ### The C library -/

theorem fopen_rb {name : String} : callFn X (n + 1) .fopen [.str name, .str "rb"]
    ⟨heap, tick, stk, inp, out, room, text, log⟩ =
    match X.files name with
    | some bs => .val (.file .inp, ⟨heap, tick, stk, bs, out, room, text, log⟩)
    | none => .val (.ptr .void Ptr.null, ⟨heap, tick, stk, inp, out, room, text, log⟩) := by
  rw [callFn_prim rfl]; rfl

theorem fopen_wb {name : String} : callFn X (n + 1) .fopen [.str name, .str "wb"]
    ⟨heap, tick, stk, inp, out, room, text, log⟩ =
    match X.dests name with
    | some r => .val (.file .out, ⟨heap, tick, stk, inp, [], r, text, log⟩)
    | none => .val (.ptr .void Ptr.null, ⟨heap, tick, stk, inp, out, room, text, log⟩) := by
  rw [callFn_prim rfl]; rfl

theorem fclose_inp : callFn X (n + 1) .fclose [.file .inp] ⟨heap, tick, stk, inp, out, room, text, log⟩ =
    .val (.int .int 0, ⟨heap, tick, stk, [], out, room, text, log⟩) := by
  rw [callFn_prim rfl]; rfl

theorem fclose_out : callFn X (n + 1) .fclose [.file .out] ⟨heap, tick, stk, inp, out, room, text, log⟩ =
    .val (.int .int 0, ⟨heap, tick, stk, inp, out, room, text, log⟩) := by
  rw [callFn_prim rfl]; rfl

theorem fprintf_err {s : String} {g : CS} : callFn X (n + 1) .fprintf [.file .err, .str s] g =
    .val (.int .int 0, g) := by
  rw [callFn_prim rfl]; rfl

theorem evalE_stderr {call : Fn → List V → M CS V} {s : Fr} :
    evalE X call (.stream .stderr) s = .val (.file .err, s) := rfl

theorem file_eq_null {e : Env} {f : File} {t : Ty} :
    binop e .eq (.file f) (.ptr t Ptr.null) = .val (truth false) := rfl
theorem str_eq_null {e : Env} {f : String} {t : Ty} :
    binop e .eq (.str f) (.ptr t Ptr.null) = .val (truth false) := rfl

/-! ### Files -/

/-- iff.c:63-83 -/
theorem readFile_run (hX : X.Linked) {reg : Option Registry} {q : Ptr} (hq : RegArg X reg q)
    {N : Nat} {A : Heap.Alloc} (hA : Like X N A)
    {f : Source} (hf : X.files f.name = f.contents) {L : Nat} {p : Addr} {s s' : TS}
    (hpr : ∀ bs, f.contents = some bs → PropFine (selectChunkRegistry reg) bs)
    (hL : L + f.length ≤ 4294967296 ∧ L + f.length ≤ 8 * N) (hm : MBd L s.mem)
    (h : lib (Heap.readFile A X.e reg f.name f.contents) s = .val (p, s')) :
    MBd (L + f.length) s'.mem ∧
    Runs X .IFF_readFile [.str f.name, .ptr (.struct .IFF_ChunkRegistry) q] (sc X stk [] out room text s)
      (.ptr (.struct .IFF_Chunk) (.ofAddr p)) (sc X stk [] out room text s') := by
  obtain ⟨m, t, log⟩ := s
  obtain ⟨m', t', log'⟩ := s'
  obtain ⟨i, h⟩ := lib_inv h
  unfold Heap.readFile at h
  cases hc : f.contents with
  | none =>
    rw [hc] at h hf
    cases h
    refine ⟨hm.mono (by omega), 2, fun n hn => ?_⟩
    obtain ⟨n, rfl⟩ : ∃ n', n = n' + 2 := ⟨n - 2, by omega⟩
    rw [callFn_code rfl]
    crun [IFF_readFile.code, fopen_rb, hf, error_str, beq_self_eq_true, List.take_length]
    exact congrArg (fun l => Out.val (V.ptr (.struct .IFF_Chunk) Ptr.null,
      (⟨heapOf X.e m, t, stk, [], out, room, text, l⟩ : CS)))
      (errCalls_snoc (e := X.e) (l := log) (m := .cannotOpen f.name)).symm
  | some bs =>
    rw [hc] at h hf
    simp only [Source.length, hc] at hL ⊢
    obtain ⟨hp, N, hN⟩ := readFd_run (X := X) (stk := stk) (out := out) (room := room) (text := text) hX hq (hpr _ hc) hA
      hL ⟨Nat.le_add_left _ _, by simpa using hm⟩ h
    refine ⟨hp.2.mono (by omega), N + 2, fun n hn => ?_⟩
    obtain ⟨n, rfl⟩ : ∃ n', n = n' + 2 := ⟨n - 2, by omega⟩
    have hr := hN (n + 1) (by omega)
    rw [callFn_code rfl]
    crun [IFF_readFile.code, fopen_rb, hf, file_eq_null, hr, fclose_inp, List.take_length]

/-- iff.c:85-91 -/
theorem iffRead_run (hX : X.Linked) {reg : Option Registry} {q : Ptr} (hq : RegArg X reg q)
    {N : Nat} {A : Heap.Alloc} (hA : Like X N A)
    {f : Source} {v : V} (hf : SourceArg X inp f v) {L : Nat} {p : Addr} {s s' : TS}
    (hpr : ∀ bs, f.contents = some bs → PropFine (selectChunkRegistry reg) bs)
    (hL : L + f.length ≤ 4294967296 ∧ L + f.length ≤ 8 * N) (hm : MBd L s.mem)
    (h : lib (Heap.readFile A X.e reg f.name f.contents) s = .val (p, s')) :
    MBd (L + f.length) s'.mem ∧ ∃ rest,
    Runs X .IFF_read [v, .ptr (.struct .IFF_ChunkRegistry) q] (sc X stk inp out room text s)
      (.ptr (.struct .IFF_Chunk) (.ofAddr p)) (sc X stk rest out room text s') := by
  rcases hf with ⟨rfl, rfl, hf⟩ | ⟨rfl, hc⟩
  · obtain ⟨hm', N, hN⟩ := readFile_run (X := X) (stk := stk) (out := out) (room := room) (text := text) hX hq hA
      hf hpr hL hm h
    refine ⟨hm', [], N + 2, fun n hn => ?_⟩
    obtain ⟨n, rfl⟩ : ∃ n', n = n' + 2 := ⟨n - 2, by omega⟩
    have hr := hN (n + 1) (by omega)
    rw [callFn_code rfl]
    crun [IFF_read.code, str_eq_null, hr, List.take_length]
  · obtain ⟨m, t, log⟩ := s
    obtain ⟨m', t', log'⟩ := s'
    obtain ⟨i, h⟩ := lib_inv h
    unfold Heap.readFile at h
    rw [hc] at h
    simp only [Source.length, hc] at hL ⊢
    obtain ⟨hp, N, hN⟩ := readFd_run (X := X) (stk := stk) (out := out) (room := room) (text := text) hX hq (hpr _ hc) hA
      hL ⟨Nat.le_add_left _ _, by simpa using hm⟩ h
    refine ⟨hp.2.mono (by omega), i, N + 2, fun n hn => ?_⟩
    obtain ⟨n, rfl⟩ : ∃ n', n = n' + 2 := ⟨n - 2, by omega⟩
    have hr := hN (n + 1) (by omega)
    rw [callFn_code rfl]
    crun [IFF_read.code, beq_self_eq_true, hr, List.take_length]

theorem fillers_like {N : Nat} {A : Heap.Alloc} (hA : Like X N A) :
    Heap.writeZeroFillerBytes A = Heap.writeZeroFillerBytes X.alloc := by
  funext id size bp
  have ht : ∀ k b, Heap.malloc A (.data k) b = Heap.malloc X.alloc (.data k) b :=
    fun k b => malloc_like hA (by intro n h; cases h)
  simp only [Heap.writeZeroFillerBytes, ht]

theorem writeChunk_like {N : Nat} {A : Heap.Alloc} (hA : Like X N A) {e : Env} {r : Registry} : ∀ {k : Nat},
    Heap.writeChunk A e r k = Heap.writeChunk X.alloc e r k := by
  intro k
  induction k with
  | zero => rfl
  | succ k ih =>
    funext ft p
    simp only [Heap.writeChunk, Heap.writeChunkWith, fillers_like hA, ih]

/-- iff.c:98-120 -/
theorem iffWrite_run (hX : X.Linked) {reg : Option Registry} {q : Ptr} (hq : RegArg X reg q)
    {N : Nat} {A : Heap.Alloc} (hA : Like X N A)
    {d : Dest} {v : V} (hd : DestArg X out room d v) {k : Nat} {p : Addr} {s s' : TS} {ok : Bool}
    {o : Option (List Byte)} (hm : Rep s.mem)
    (h : Heap.writeFile A X.e reg k p d s = .val ((ok, o), s')) :
    s'.mem = s.mem ∧ ∃ out' room', Written d out o out' ∧
    Runs X .IFF_write [v, .ptr (.struct .IFF_Chunk) ⟨.heap p, 0⟩, .ptr (.struct .IFF_ChunkRegistry) q]
      (sc X stk inp out room text s) (truth ok) (sc X stk inp out' room' text s') := by
  obtain ⟨m, t, log⟩ := s
  obtain ⟨m', t', log'⟩ := s'
  unfold Heap.writeFile at h
  cases ho : d.opens with
  | false =>
    rw [if_neg (by simp [ho])] at h
    cases h
    rcases hd with ⟨rfl, hd⟩ | ⟨-, h1, -⟩
    · rw [if_neg (by simp [ho])] at hd
      refine ⟨rfl, out, room, .inl ⟨rfl, rfl⟩, 3, fun n hn => ?_⟩
      obtain ⟨n, rfl⟩ : ∃ n', n = n' + 3 := ⟨n - 3, by omega⟩
      rw [callFn_code rfl]
      crun [IFF_write.code, str_eq_null, List.take_length]
      rw [callFn_code rfl]
      crun [IFF_writeFile.code, fopen_wb, hd, error_str, beq_self_eq_true, List.take_length]
      exact congrArg (fun l => Out.val (truth false,
        (⟨heapOf X.e m, t, stk, inp, out, room, text, l⟩ : CS)))
        (errCalls_snoc (e := X.e) (l := log) (m := .cannotOpen d.name)).symm
    · rw [ho] at h1; cases h1
  | true =>
    rw [if_pos ho] at h
    simp only [Heap.writeFd, writeChunk_like hA] at h
    cases hw : Heap.writeFd X.alloc X.e reg k p ⟨m, t, ⟨[], d.cap + d.slack, log⟩⟩ with
    | ub u => rw [Heap.writeFd] at hw; simp only [hw] at h; cases h
    | loop => rw [Heap.writeFd] at hw; simp only [hw] at h; cases h
    | val x =>
      obtain ⟨b, ⟨m1, t1, ⟨o1, r1, l1⟩⟩⟩ := x
      obtain ⟨hme, N, hN⟩ := writeFd_run (X := X) (stk := stk) (inp := inp) (text := text) hX hq hm hw
      rw [Heap.writeFd] at hw
      simp only [hw] at h
      cases h
      refine ⟨hme, o1, r1, .inr rfl, N + 3, fun n hn => ?_⟩
      obtain ⟨n, rfl⟩ : ∃ n', n = n' + 3 := ⟨n - 3, by omega⟩
      have hr1 := hN (n + 1) (by omega)
      have hr2 := hN (n + 2) (by omega)
      rcases hd with ⟨rfl, hd⟩ | ⟨rfl, -, rfl, rfl⟩
      · rw [if_pos ho] at hd
        rw [callFn_code rfl]
        crun [IFF_write.code, str_eq_null, List.take_length]
        rw [callFn_code rfl]
        cases ok <;> simp only [truth_false, truth_true] at hr1 ⊢ <;>
          crun [IFF_writeFile.code, fopen_wb, hd, file_eq_null, hr1, fclose_out, List.take_length]
      · rw [callFn_code rfl]
        crun [IFF_write.code, beq_self_eq_true, List.take_length, hr2]

/-! ### Calls of the tools -/

/-- What does not depend on the input and the diagnostics. -/
def Blind {α : Type} (m : M HS α) : Prop :=
  ∀ s a s' rs, m s = .val (a, s') → m ⟨s.mem, s.tick, rs⟩ = .val (a, ⟨s'.mem, s'.tick, rs⟩)

theorem Blind.bind {α β : Type} {x : M HS α} {f : α → M HS β} (hx : Blind x) (hf : ∀ a, Blind (f a)) :
    Blind (x >>= f) := by
  intro s a s' rs h
  obtain ⟨b, s1, h1, k1⟩ := bind_inv h
  rw [bind_to (hx _ _ _ rs h1)]
  exact hf b _ _ _ rs k1

theorem Blind.pure {α : Type} {a : α} : Blind (Pure.pure a : M HS α) := by
  intro s b s' rs h
  obtain ⟨rfl, rfl⟩ := pure_inv h
  rfl

theorem Blind.ub {α : Type} {u : UB} : Blind (M.ub u : M HS α) := by
  intro s b s' rs h; cases h

theorem Blind.load {p : Addr} : Blind (Heap.load p) := by
  intro s b s' rs h
  obtain ⟨h1, rfl⟩ := load_inv h
  simp only [Heap.load, h1]

theorem Blind.free {p : Addr} : Blind (Heap.free p) := by
  intro s b s' rs h
  unfold Heap.free at h ⊢
  split at h
  · rename_i h0
    cases h; rw [if_pos h0]
  · rename_i h0
    rw [if_neg h0]
    split at h
    · rename_i hb
      cases h; simp only [hb]
    · cases h

theorem Blind.getHdr {p : Addr} : Blind (Heap.getHdr p) :=
  .bind .load fun b => by cases b.hdr? <;> first | exact .pure | exact .ub
theorem Blind.getGrp {p : Addr} : Blind (Heap.getGrp p) :=
  .bind .load fun b => by cases b.grp? <;> first | exact .pure | exact .ub
theorem Blind.getLst {p : Addr} : Blind (Heap.getLst p) :=
  .bind .load fun b => by cases b.lst? <;> first | exact .pure | exact .ub
theorem Blind.getPtr {p : Addr} {i : Nat} : Blind (Heap.getPtr p i) :=
  .bind .load fun b => by
    cases b <;> first | exact .ub | skip
    dsimp only
    split <;> first | exact .pure | exact .ub

theorem Blind.freeMembers {f : ID → Addr → M HS Unit} (hf : ∀ t c, Blind (f t c)) {p : Addr} :
    ∀ {k i : Nat}, Blind (Heap.freeMembers f p k i) := by
  intro k
  induction k with
  | zero => intro i; exact .pure
  | succ k ih => intro i; exact .bind .getGrp fun g => .bind .getPtr fun c => .bind (hf _ _) fun _ => ih

theorem Blind.freeProps {f : ID → Addr → M HS Unit} (hf : ∀ t c, Blind (f t c)) {p : Addr} :
    ∀ {k i : Nat}, Blind (Heap.freeProps f p k i) := by
  intro k
  induction k with
  | zero => intro i; exact .pure
  | succ k ih =>
    intro i
    exact .bind .getLst fun g => .bind .getPtr fun c => .bind .getGrp fun g => .bind (hf _ _) fun _ => ih

theorem Blind.freeGroup {f : ID → Addr → M HS Unit} (hf : ∀ t c, Blind (f t c)) {p : Addr} :
    Blind (Heap.freeGroup f p) :=
  .bind .getGrp fun _ => .bind (.freeMembers hf) fun _ => .bind .getGrp fun _ => .free

theorem Blind.freeList {f : ID → Addr → M HS Unit} (hf : ∀ t c, Blind (f t c)) {p : Addr} :
    Blind (Heap.freeList f p) :=
  .bind (.freeGroup hf) fun _ => .bind .getLst fun _ => .bind (.freeProps hf) fun _ =>
    .bind .getLst fun _ => .free

theorem Blind.freeChunk {r : Registry} : ∀ {k : Nat} {ft : ID} {p : Addr}, Blind (Heap.freeChunk r k ft p) := by
  intro k
  induction k with
  | zero => intro ft p s a s' rs h; cases h
  | succ k ih =>
    intro ft p
    unfold Heap.freeChunk
    refine .bind .getHdr fun h => ?_
    cases findChunkType r ft h.id
    · refine .bind .load fun b => ?_
      cases b <;> first | exact .bind .free fun _ => .free | exact .bind .ub fun _ => .free
    · exact .bind (.freeGroup fun _ _ => ih) fun _ => .free
    · exact .bind (.freeGroup fun _ _ => ih) fun _ => .free
    · exact .bind (.freeList fun _ _ => ih) fun _ => .free
    · exact .bind (.freeGroup fun _ _ => ih) fun _ => .free
    · exact .free

theorem free_tool (hX : X.Linked) {reg : Option Registry} {q : Ptr} (hq : RegArg X reg q)
    {p : Addr} {s s' : TS} {k L : Nat} {u : Unit} (hm : MBd L s.mem) (hL : L ≤ 4294967296)
    (h : lib (Heap.iffFree reg k p) s = .val (u, s')) : MBd L s'.mem ∧
    ∀ inp, Runs X .IFF_free [.ptr (.struct .IFF_Chunk) ⟨.heap p, 0⟩, .ptr (.struct .IFF_ChunkRegistry) q]
      (sc X stk inp out room text s) .void (sc X stk inp out room text s') := by
  obtain ⟨m, t, log⟩ := s
  obtain ⟨m', t', log'⟩ := s'
  obtain ⟨i, h⟩ := lib_inv h
  have hs := freeChunk_shrinks h
  refine ⟨hm.sub hs.1, fun inp => ?_⟩
  cases hs.2
  exact iffFree_run (X := X) (stk := stk) (out := out) (room := room) (text := text) hX hq
    (s := ⟨m, t, ⟨inp, log⟩⟩) (s' := ⟨m', t', ⟨inp, log⟩⟩) hm hL (Blind.freeChunk _ _ _ ⟨inp, log⟩ h)

theorem createCAT_tool {N : Nat} {A : Heap.Alloc} (hA : Like X N A) {p : Addr} {s s' : TS} {L : Nat}
    (hm : MBd L s.mem) (h : lib (Heap.createEmptyGroup A idCAT idJJJJ) s = .val (p, s')) :
    MBd L s'.mem ∧ Runs X .IFF_createEmptyCAT [] (sc X stk [] out room text s)
      (.ptr (.struct .IFF_CAT) (.ofAddr p)) (sc X stk [] out room text s') := by
  obtain ⟨m, t, log⟩ := s
  obtain ⟨m', t', log'⟩ := s'
  obtain ⟨i, h⟩ := lib_inv h
  rw [show Heap.createEmptyGroup A idCAT idJJJJ = Heap.createEmptyGroup X.alloc idCAT idJJJJ by
    simp only [Heap.createEmptyGroup, Heap.newStruct]
    rw [malloc_like hA (by intro n h; cases h)]] at h
  obtain ⟨hm', hr⟩ := newStruct_bd hm (b := .grp ⟨0, idCAT, idSize⟩ idJJJJ 0 0) ⟨show inInt 4 by decide, Nat.zero_le _⟩ h
  cases hr
  refine ⟨hm', 6, fun n hn => ?_⟩
  obtain ⟨n, rfl⟩ : ∃ k, n = k + 6 := ⟨n - 6, by omega⟩
  have hr := createEmptyCAT_run (X := X) (n := n) (stk := stk) (out := out) (room := room) (text := text) h
  simpa only [st] using hr

theorem add_tool {N : Nat} {A : Heap.Alloc} (hA : Like X N A) {p c : Addr} {s s' : TS} {L : Nat} {u : Unit}
    (hm : MBd L s.mem) (hL : L + 8 ≤ 4294967296) (hN : L + 8 ≤ 8 * N)
    (h : lib (Heap.addAndUpdate A X.e p c) s = .val (u, s')) :
    MBd (L + 8) s'.mem ∧ Runs X .IFF_addToCATAndUpdateContentsType [.ptr (.struct .IFF_CAT) ⟨.heap p, 0⟩,
      .ptr (.struct .IFF_Chunk) ⟨.heap c, 0⟩] (sc X stk [] out room text s) .void
      (sc X stk [] out room text s') := by
  obtain ⟨m, t, log⟩ := s
  obtain ⟨m', t', log'⟩ := s'
  obtain ⟨i, h⟩ := lib_inv h
  have h' := h
  unfold Heap.addAndUpdate at h'
  obtain ⟨u2, s2, h2, k2⟩ := bind_inv h'
  have hm2 : MBd L s2.mem := by
    unfold Heap.updateContentsType at h2
    obtain ⟨hd, s3, h3, k3⟩ := bind_inv h2
    obtain ⟨-, rfl⟩ := getHdr_inv h3
    split at k3
    · obtain ⟨gc, s4, h4, k4⟩ := bind_inv k3
      obtain ⟨-, rfl⟩ := getGrp_inv h4
      exact (updGrp_bd hm (by intro _ h; exact h) k4).1
    · obtain ⟨-, rfl⟩ := pure_inv k3; exact hm
  unfold Heap.addToGroup at k2
  obtain ⟨u3, s3, h3, k3⟩ := bind_inv k2
  have h3' := attachToGroup_like hA hm2 hN h3
  have hx : Heap.addAndUpdate X.alloc X.e p c ⟨m, t, ⟨[], log⟩⟩ = .val (u, ⟨m', t', ⟨i, log'⟩⟩) := by
    unfold Heap.addAndUpdate Heap.addToGroup
    rw [bind_to h2, bind_to h3', k3]
  obtain ⟨hr, -, hrs⟩ := addAndUpdate_run (X := X) (n := 0) (stk := stk) (out := out) (room := room) (text := text) hL
    (Small.of_bd hm) hx
  cases hrs
  refine ⟨growSize_bd (attachToGroup_run (n := 0) (stk := []) (out := []) (room := 0) (text := []) hL hm2 h3').2.1 k3,
    5, fun n hn => ?_⟩
  obtain ⟨n, rfl⟩ : ∃ k, n = k + 5 := ⟨n - 5, by omega⟩
  exact (addAndUpdate_run (X := X) (n := n) (stk := stk) (out := out) (room := room) (text := text) hL
    (Small.of_bd hm) hx).1

theorem propOk_none {inp : List Byte} : PropFine (selectChunkRegistry none) inp := .inl fun ft => by
  rw [show findChunkType (selectChunkRegistry none) ft idPROP = .prop from rfl]
  exact ⟨(fun h => nomatch h), (fun _ _ h => nomatch h)⟩

theorem ofAddr_ne {p : Addr} (h : p ≠ 0) : (Ptr.ofAddr p == Ptr.null) = false := by
  rw [addr_beq_null]; simpa using h

theorem band0 {e : Env} : binop e .band (.int .int 0) (.int .int 1) = .val (.int .int 0) := by
  show Out.val (V.int .int (ofBits true (BitVec.ofInt 32 (wrapInt 0) &&& BitVec.ofInt 32 (wrapInt 1)))) = _
  rw [show wrapInt 0 = 0 by decide, show wrapInt 1 = 1 by decide]; rfl

theorem band1 {e : Env} : binop e .band (.int .int 1) (.int .int 1) = .val (.int .int 1) := by
  show Out.val (V.int .int (ofBits true (BitVec.ofInt 32 (wrapInt 1) &&& BitVec.ofInt 32 (wrapInt 1)))) = _
  rw [show wrapInt 1 = 1 by decide]; rfl

/-- An argument NULL is converted to the type of the parameter. -/
theorem Runs.null {f : Fn} {d : Fun} {vs vs' : List V} {g g' : CS} {v : V} (h : Runs X f vs g v g')
    (hc : code f = some d) (hb : bindParams X.e d.params vs' = bindParams X.e d.params vs) :
    Runs X f vs' g v g' := by
  obtain ⟨N, hN⟩ := h
  exact ⟨N, fun n hn => (callFn_args hc hb).trans (hN n hn)⟩

/-- pp.c:25-55 -/
theorem prettyPrint_run (hX : X.Linked) {N : Nat} {A : Heap.Alloc} (hA : Like X N A)
    {f : Source} {v : V} (hf : SourceArg X inp f v) {L k : Nat} (hk : k < 4294967296) {dis : Bool} {s s' : TS}
    {status : Nat} {bs : List Byte}
    (hL : L + f.length ≤ 4294967296 ∧ L + f.length ≤ 8 * N) (hm : MBd L s.mem)
    (h : Heap.prettyPrint A X.e k f dis s = .val ((status, bs), s')) :
    ∃ rest, Runs X .IFF_prettyPrint [v, .int .int (if dis then 1 else 0)] (sc X stk inp out room [] s)
      (.int .int status) (sc X stk rest out room bs s') := by
  have hv : (∃ a, v = .str a) ∨ ∃ a, v = .ptr (.int .char) a := by
    rcases hf with ⟨rfl, -⟩ | ⟨rfl, -⟩
    · exact .inl ⟨_, rfl⟩
    · exact .inr ⟨_, rfl⟩
  have hd : inInt (if dis then 1 else 0) := by cases dis <;> decide
  unfold Heap.prettyPrint at h
  obtain ⟨c, s1, h1, k1⟩ := bind_inv h
  obtain ⟨hm1, rest, h1⟩ := iffRead_run (X := X) (stk := stk) (out := out) (room := room) (text := [])
    hX (reg := none) (q := Ptr.null) rfl hA hf (fun _ _ => propOk_none) hL hm h1
  obtain ⟨N1, hN1⟩ := h1.null (vs' := [v, .ptr .void Ptr.null]) rfl
    (by rcases hv with ⟨a, rfl⟩ | ⟨a, rfl⟩ <;> rfl)
  refine ⟨rest, ?_⟩
  by_cases hc : c = 0
  · rw [if_pos hc] at k1
    obtain ⟨he, rfl⟩ := pure_inv k1
    cases he
    subst hc
    refine ⟨N1 + 2, fun n hn => ?_⟩
    obtain ⟨n, rfl⟩ : ∃ n', n = n' + 2 := ⟨n - 2, by omega⟩
    have hr := hN1 (n + 1) (by omega)
    rw [callFn_code rfl]
    rcases hv with ⟨a, rfl⟩ | ⟨a, rfl⟩ <;>
    crun [IFF_prettyPrint.code, hr, wrapInt_of hd, addr_beq_null, beq_self_eq_true, evalE_stderr, fprintf_err,
      List.take_length] <;> rfl
  · rw [if_neg hc] at k1
    have hcb : (c == 0) = false := by simpa using hc
    obtain ⟨ok, s2, h2, k2⟩ := bind_inv k1
    have hrep := Rep.of_bd hm1 hL.1
    have hmem : s2.mem = s1.mem ∧ (dis = false → Runs X .IFF_check [.ptr (.struct .IFF_Chunk) (.ofAddr c),
        .ptr .void Ptr.null] (sc X stk rest out room [] s1) (truth ok) (sc X stk rest out room [] s2)) ∧
        (dis = true → ok = true ∧ s2 = s1) := by
      cases dis with
      | false =>
        have hx := check_run (X := X) (stk := stk) (inp := rest) (out := out) (room := room) (text := []) hX
          (reg := none) (q := Ptr.null) rfl hrep h2
        exact ⟨hx.1, fun _ => hx.2.null rfl rfl, fun h => by cases h⟩
      | true =>
        obtain ⟨rfl, rfl⟩ := pure_inv h2
        exact ⟨rfl, fun h => (by cases h), fun _ => ⟨rfl, rfl⟩⟩
    clear h2
    obtain ⟨hmem, hchk, hdis⟩ := hmem
    rw [← hmem] at hm1 hrep
    have hcheck : ∃ N2, ∀ n, N2 ≤ n → dis = false → callFn X n .IFF_check [.ptr (.struct .IFF_Chunk) (.ofAddr c),
        .ptr .void Ptr.null] (sc X stk rest out room [] s1) = .val (truth ok, sc X stk rest out room [] s2) := by
      cases dis with
      | false => obtain ⟨N2, hN2⟩ := hchk rfl; exact ⟨N2, fun n hn _ => hN2 n hn⟩
      | true => exact ⟨0, fun _ _ h => nomatch h⟩
    obtain ⟨N2, hN2⟩ := hcheck
    cases ok with
    | true =>
      rw [if_pos rfl] at k2
      obtain ⟨bs', s3, h3, k3⟩ := bind_inv k2
      obtain ⟨h3, hl3⟩ := printed_inv h3
      obtain ⟨u4, s4, h4, k4⟩ := bind_inv k3
      obtain ⟨he, rfl⟩ := pure_inv k4
      cases he
      obtain ⟨hm3, h3⟩ := print_run (X := X) (stk := stk) (inp := rest) (out := out) (room := room)
        (log := errCalls X.e s2.st) hX (reg := none) (q := Ptr.null) rfl (by omega) (by exact hrep) h3
      obtain ⟨N3, hN3⟩ := h3.null (vs' := [.ptr (.struct .IFF_Chunk) (.ofAddr c), .int .int 0, .ptr .void Ptr.null])
        rfl rfl
      obtain ⟨-, h4⟩ := free_tool (X := X) (stk := stk) (out := out) (room := room) (text := bs) hX (reg := none)
        (q := Ptr.null) rfl (by rw [show s3.mem = s2.mem from hm3]; exact hm1) hL.1 h4
      obtain ⟨N4, hN4⟩ := (h4 rest).null (vs' := [.ptr (.struct .IFF_Chunk) (.ofAddr c), .ptr .void Ptr.null]) rfl rfl
      refine ⟨N1 + N2 + N3 + N4 + 2, fun n hn => ?_⟩
      obtain ⟨n, rfl⟩ : ∃ n', n = n' + 2 := ⟨n - 2, by omega⟩
      have hr1 := hN1 (n + 1) (by omega)
      have hr2 := hN2 (n + 1) (by omega)
      have hr3 : callFn X (n + 1) .IFF_print [.ptr (.struct .IFF_Chunk) (.ofAddr c), .int .int 0, .ptr .void Ptr.null]
          (sc X stk rest out room [] s2) = .val (.void, sc X stk rest out room bs s3) :=
        (hN3 (n + 1) (by omega)).trans (by simp only [sp, sc, hl3])
      have hr4 := hN4 (n + 1) (by omega)
      rw [callFn_code rfl]
      cases dis with
      | false =>
        have hr2 := hr2 rfl
        rcases hv with ⟨a, rfl⟩ | ⟨a, rfl⟩ <;>
        crun [IFF_prettyPrint.code, IFFPP_DISABLE_CHECK, hr1, hr2, hr3, hr4, addr_beq_null, hcb, band0, band1, List.take_length]
      | true =>
        obtain ⟨-, rfl⟩ := hdis rfl
        rcases hv with ⟨a, rfl⟩ | ⟨a, rfl⟩ <;>
        crun [IFF_prettyPrint.code, IFFPP_DISABLE_CHECK, hr1, hr3, hr4, addr_beq_null, hcb, band0, band1, List.take_length]
    | false =>
      rw [if_neg Bool.false_ne_true] at k2
      obtain ⟨u4, s4, h4, k4⟩ := bind_inv k2
      obtain ⟨he, rfl⟩ := pure_inv k4
      cases he
      obtain ⟨-, h4⟩ := free_tool (X := X) (stk := stk) (out := out) (room := room) (text := []) hX (reg := none)
        (q := Ptr.null) rfl hm1 hL.1 h4
      obtain ⟨N4, hN4⟩ := (h4 rest).null (vs' := [.ptr (.struct .IFF_Chunk) (.ofAddr c), .ptr .void Ptr.null]) rfl rfl
      refine ⟨N1 + N2 + N4 + 2, fun n hn => ?_⟩
      obtain ⟨n, rfl⟩ : ∃ n', n = n' + 2 := ⟨n - 2, by omega⟩
      have hr1 := hN1 (n + 1) (by omega)
      have hr2 := hN2 (n + 1) (by omega)
      have hr4 := hN4 (n + 1) (by omega)
      rw [callFn_code rfl]
      cases dis with
      | false =>
        have hr2 := hr2 rfl
        rcases hv with ⟨a, rfl⟩ | ⟨a, rfl⟩ <;>
        crun [IFF_prettyPrint.code, IFFPP_DISABLE_CHECK, hr1, hr2, hr4, addr_beq_null, hcb, band0, List.take_length]
      | true =>
        obtain ⟨h, -⟩ := hdis rfl
        cases h

set_option quotPrecheck false in
local notation "jBody" => (Stmt.seq (.decl .chunk (.ptr (.struct .IFF_Chunk)) (some (.call (.fn .IFF_readFile) (.cons (.index (.var .inputFilenames) (.var .i)) (.cons .null .nil)))))
          (.ite (.lor (.bin .eq (.var .chunk) .null) (.not (.call (.fn .IFF_check) (.cons (.var .chunk) (.cons .null .nil)))))
          (.seq (.expr (.call (.fn .IFF_free) (.cons (.cast (.ptr (.struct .IFF_Chunk)) (.var .cat)) (.cons .null .nil))))
            (.ret (.num .int 1)))
          (.expr (.call (.fn .IFF_addToCATAndUpdateContentsType) (.cons (.var .cat) (.cons (.var .chunk) .nil))))))

theorem blkOf_outside_sc {o : Obj} {B : Blk} {i : Nat} {s : TS} (h : outside X stk o = some B) :
    blkOf X (sc X stk inp out room text s) ⟨o, i⟩ = .val B := by
  cases o with
  | heap a => cases h
  | stk f => exact blkOf_stk h
  | static k => exact blkOf_static h

/-- join.c:38-52 -/
theorem joinInputs_run (hX : X.Linked) {N : Nat} {A : Heap.Alloc} (hA : Like X N A) {all : List Source}
    (hall : all.length < 4294967296) (hfiles : ∀ f ∈ all, X.files f.name = f.contents)
    {o : Obj} (ho : NamesAt X stk o all) {k : Nat} {cat : Addr} :
    ∀ {files : List Source} {i L : Nat} {s s' : TS} {r : Bool}, all.drop i = files → i + files.length = all.length →
      L + total files ≤ 4294967296 → L + total files ≤ 8 * N → MBd L s.mem →
      Heap.joinInputs A X.e k cat files s = .val (r, s') → MBd (L + total files) s'.mem ∧ ∀ loc : Var → Slot,
        loc .i = .reg (.int .uint) (.int .uint i) →
        loc .cat = .reg (.ptr (.struct .IFF_CAT)) (.ptr (.struct .IFF_CAT) ⟨.heap cat, 0⟩) →
        loc .inputFilenames = .reg (.ptr (.ptr (.int .char))) (.ptr (.ptr (.int .char)) ⟨o, 0⟩) →
        loc .inputFilenamesLength = .reg (.int .uint) (.int .uint all.length) →
        ∃ loc' M, (∀ x, x ≠ .i → x ≠ .chunk → loc' x = loc x) ∧ ∀ n, M ≤ n → ∀ j, M ≤ j →
        whileN (evalC X (callFn X n) (.bin .lt (.var .i) (.var .inputFilenamesLength)))
          (forBody X (callFn X n) n jBody (.inc (.var .i))) j ⟨loc, sc X stk [] out room text s⟩ =
          .val (if r then .norm else .ret (.int .int 1), ⟨loc', sc X stk [] out room text s'⟩) := by
  obtain ⟨B, hB1, hB2, hB3⟩ := ho
  intro files
  induction files with
  | nil =>
    intro i L s s' r hd hl h1 h2 hm h
    obtain ⟨rfl, rfl⟩ := pure_inv h
    refine ⟨hm.mono (by omega), fun loc hi hc hn hnl => ⟨loc, 1, fun _ _ _ => rfl, fun n hn j hj => ?_⟩⟩
    obtain ⟨j, rfl⟩ : ∃ j', j = j' + 1 := ⟨j - 1, by omega⟩
    simp only [List.length_nil] at hl
    rw [whileN_succ]
    crun [hi, hnl, nat_emod hall, nat_emod (show i < 4294967296 by omega),
      decide_eq_false (show ¬ (i : Int) < all.length by omega), if_true]
  | cons f fs ih =>
    intro i L s s' r hd hl hL1 hL2 hm h
    simp only [List.length_cons] at hl
    have htot : total (f :: fs) = f.length + 8 + total fs := rfl
    rw [htot] at hL1 hL2 ⊢
    have hil : i < all.length := by omega
    have hfi : all[i]? = some f := by
      have := congrArg (fun l => l[0]?) hd
      simpa using this
    have hcell := hB3 i f hfi
    have hsz : (i + 1) * (X.e.sizeBits / 8) ≤ B.size := Nat.le_trans (Nat.mul_le_mul_right _ hil) hB2
    have hff := hfiles f (List.mem_of_getElem? hfi)
    unfold Heap.joinInputs at h
    obtain ⟨c, s1, h1, k1⟩ := bind_inv h
    obtain ⟨hm1, h1⟩ := readFile_run (X := X) (stk := stk) (out := out) (room := room) (text := text)
      hX (reg := none) (q := Ptr.null) rfl hA hff (L := L) (fun _ _ => propOk_none) ⟨by omega, by omega⟩ hm h1
    obtain ⟨N1, hN1⟩ := h1.null (vs' := [.str f.name, .ptr .void Ptr.null]) rfl rfl
    obtain ⟨ok, s2, h2, k2⟩ := bind_inv k1
    by_cases hc : c = 0
    · rw [if_pos hc] at h2
      obtain ⟨rfl, rfl⟩ := pure_inv h2
      rw [if_neg Bool.false_ne_true] at k2
      obtain ⟨u3, s3, h3, k3⟩ := bind_inv k2
      obtain ⟨rfl, rfl⟩ := pure_inv k3
      obtain ⟨hm3, h3⟩ := free_tool (X := X) (stk := stk) (out := out) (room := room) (text := text) hX (reg := none)
        (q := Ptr.null) rfl hm1 (by omega) h3
      obtain ⟨N3, hN3⟩ := (h3 []).null (vs' := [.ptr (.struct .IFF_Chunk) ⟨.heap cat, 0⟩, .ptr .void Ptr.null]) rfl rfl
      refine ⟨hm3.mono (by omega), fun loc hi hcat hn hnl => ⟨setLoc loc .chunk (.reg (.ptr (.struct .IFF_Chunk))
        (.ptr (.struct .IFF_Chunk) (.ofAddr c))), N1 + N3 + 2, ?_, fun n hn' j hj => ?_⟩⟩
      · intro x hx hx'; simp [setLoc, hx']
      · obtain ⟨j, rfl⟩ : ∃ j', j = j' + 1 := ⟨j - 1, by omega⟩
        have hr1 := hN1 n (by omega)
        have hr3 := hN3 n (by omega)
        rw [whileN_succ]
        crun [hi, hn, hnl, hcat, nat_emod hall, nat_emod (show i < 4294967296 by omega),
          decide_eq_true (show (i : Int) < all.length by omega), ↓forBody_obind, blkOf_outside_sc hB1,
          Int.natCast_nonneg, Int.toNat_natCast, scalarSize, hsz, hcell, ofCell, hr1, addr_beq_null, hc,
          beq_self_eq_true, hr3]
    · rw [if_neg hc] at h2
      have hcb : (c == 0) = false := by simpa using hc
      obtain ⟨hmem, h2⟩ := check_run (X := X) (stk := stk) (inp := []) (out := out) (room := room) (text := text) hX
          (reg := none) (q := Ptr.null) rfl (Rep.of_bd hm1 (by omega)) h2
      obtain ⟨N2, hN2⟩ := h2.null (vs' := [.ptr (.struct .IFF_Chunk) (.ofAddr c), .ptr .void Ptr.null]) rfl rfl
      rw [← hmem] at hm1
      cases ok with
      | false =>
        rw [if_neg Bool.false_ne_true] at k2
        obtain ⟨u3, s3, h3, k3⟩ := bind_inv k2
        obtain ⟨rfl, rfl⟩ := pure_inv k3
        obtain ⟨hm3, h3⟩ := free_tool (X := X) (stk := stk) (out := out) (room := room) (text := text) hX (reg := none)
          (q := Ptr.null) rfl hm1 (by omega) h3
        obtain ⟨N3, hN3⟩ := (h3 []).null (vs' := [.ptr (.struct .IFF_Chunk) ⟨.heap cat, 0⟩, .ptr .void Ptr.null]) rfl rfl
        refine ⟨hm3.mono (by omega), fun loc hi hcat hn hnl => ⟨setLoc loc .chunk (.reg (.ptr (.struct .IFF_Chunk))
          (.ptr (.struct .IFF_Chunk) (.ofAddr c))), N1 + N2 + N3 + 2, ?_, fun n hn' j hj => ?_⟩⟩
        · intro x hx hx'; simp [setLoc, hx']
        · obtain ⟨j, rfl⟩ : ∃ j', j = j' + 1 := ⟨j - 1, by omega⟩
          have hr1 := hN1 n (by omega)
          have hr2 := hN2 n (by omega)
          have hr3 := hN3 n (by omega)
          rw [whileN_succ]
          crun [hi, hn, hnl, hcat, nat_emod hall, nat_emod (show i < 4294967296 by omega),
            decide_eq_true (show (i : Int) < all.length by omega), ↓forBody_obind, blkOf_outside_sc hB1,
            Int.natCast_nonneg, Int.toNat_natCast, scalarSize, hsz, hcell, ofCell, hr1, addr_beq_null, hcb,
            hr2, hr3]
      | true =>
        rw [if_pos rfl] at k2
        obtain ⟨u3, s3, h3, k3⟩ := bind_inv k2
        obtain ⟨hm3, N3, hN3⟩ := add_tool (X := X) (stk := stk) (out := out) (room := room) (text := text) hA
          hm1 (by omega) (by omega) h3
        obtain ⟨hm4, hloop⟩ := ih (i := i + 1) (L := L + f.length + 8) (by
          rw [← List.drop_drop, hd]; rfl) (by omega) (by omega) (by omega) hm3 k3
        refine ⟨hm4.mono (by omega), fun loc hi hcat hn hnl => ?_⟩
        obtain ⟨loc', M, hloc, hM⟩ := hloop (setLoc (setLoc loc .chunk (.reg (.ptr (.struct .IFF_Chunk))
          (.ptr (.struct .IFF_Chunk) (.ofAddr c)))) .i (.reg (.int .uint) (.int .uint ((i + 1 : Nat) : Int))))
          (by simp [setLoc]) (by simp [setLoc, hcat]) (by simp [setLoc, hn]) (by simp [setLoc, hnl])
        refine ⟨loc', N1 + N2 + N3 + M + 2, fun x hx hx' => by rw [hloc x hx hx']; simp [setLoc, hx, hx'],
          fun n hn' j hj => ?_⟩
        obtain ⟨j, rfl⟩ : ∃ j', j = j' + 1 := ⟨j - 1, by omega⟩
        have hr1 := hN1 n (by omega)
        have hr2 := hN2 n (by omega)
        have hr3 := hN3 n (by omega)
        have hw := hM n (by omega) j (by omega)
        rw [whileN_succ]
        crun [hi, hn, hnl, hcat, nat_emod hall, nat_emod (show i < 4294967296 by omega),
          decide_eq_true (show (i : Int) < all.length by omega), ↓forBody_obind, blkOf_outside_sc hB1,
          Int.natCast_nonneg, Int.toNat_natCast, scalarSize, hsz, hcell, ofCell, hr1, addr_beq_null, hcb,
          hr2, hr3, step_obind, succ_emod (show i + 1 < 4294967296 by omega),
          nat_emod (show i + 1 < 4294967296 by omega), hw]

/-- join.c:31-61 -/
theorem join_run (hX : X.Linked) {N : Nat} {A : Heap.Alloc} (hA : Like X N A) {files : List Source}
    (hall : files.length < 4294967296) (hfiles : ∀ f ∈ files, X.files f.name = f.contents)
    {o : Obj} (ho : NamesAt X stk o files) {d : Dest} {v : V} (hd : DestArg X out room d v) {k L : Nat}
    {s s' : TS} {status : Nat} {b : Option (List Byte)}
    (hL : L + total files ≤ 4294967296 ∧ L + total files ≤ 8 * N) (hm : MBd L s.mem)
    (h : Heap.join A X.e k files d s = .val ((status, b), s')) :
    ∃ out' room', Written d out b out' ∧
    Runs X .IFF_join [.ptr (.ptr (.int .char)) ⟨o, 0⟩, .int .uint files.length, v]
      (sc X stk [] out room text s) (.int .int status) (sc X stk [] out' room' text s') := by
  have hv : (∃ a, v = .str a) ∨ ∃ a, v = .ptr (.int .char) a := by
    rcases hd with ⟨rfl, -⟩ | ⟨rfl, -⟩
    · exact .inl ⟨_, rfl⟩
    · exact .inr ⟨_, rfl⟩
  unfold Heap.join at h
  obtain ⟨cat, s1, h1, k1⟩ := bind_inv h
  obtain ⟨hm1, N1, hN1⟩ := createCAT_tool (X := X) (stk := stk) (out := out) (room := room) (text := text) hA hm h1
  obtain ⟨ok, s2, h2, k2⟩ := bind_inv k1
  obtain ⟨hm2, hloop⟩ := joinInputs_run (X := X) (stk := stk) (out := out) (room := room) (text := text) hX hA hall
    hfiles ho (i := 0) (files := files) rfl (by omega) hL.1 hL.2 hm1 h2
  obtain ⟨loc', M, hloc, hM⟩ := hloop (setLoc (setLoc (setLoc (setLoc (setLoc (setLoc (setLoc (fun _ => .none)
    .outputFilename (.reg (.ptr (.int .char)) v)) .inputFilenamesLength (.reg (.int .uint) (.int .uint files.length)))
    .inputFilenames (.reg (.ptr (.ptr (.int .char))) (.ptr (.ptr (.int .char)) ⟨o, 0⟩)))
    .cat (.reg (.ptr (.struct .IFF_CAT)) (.ptr (.struct .IFF_CAT) ⟨.heap cat, 0⟩)))
    .i (.reg (.int .uint) .undef)) .status (.reg (.int .int) (.int .int 0))) .i (.reg (.int .uint) (.int .uint 0)))
    (by simp [setLoc]) (by simp [setLoc]) (by simp [setLoc]) (by simp [setLoc])
  have hcat := hloc .cat (by decide) (by decide)
  have hof := hloc .outputFilename (by decide) (by decide)
  have hst := hloc .status (by decide) (by decide)
  simp only [setLoc, reduceCtorEq, if_false, if_true] at hcat hof hst
  cases ok with
  | false =>
    rw [if_neg Bool.false_ne_true] at k2
    obtain ⟨he, rfl⟩ := pure_inv k2
    cases he
    refine ⟨out, room, .inl ⟨rfl, rfl⟩, N1 + M + 2, fun n hn => ?_⟩
    obtain ⟨n, rfl⟩ : ∃ n', n = n' + 2 := ⟨n - 2, by omega⟩
    have hr1 := hN1 (n + 1) (by omega)
    have hw := hM (n + 1) (by omega) (n + 1) (by omega)
    rw [callFn_code rfl]
    rcases hv with ⟨a, rfl⟩ | ⟨a, rfl⟩ <;>
    crun [IFF_join.code, hr1, nat_emod hall, ↓exec_for', hw, List.take_length]
  | true =>
    rw [if_pos rfl] at k2
    obtain ⟨⟨okw, bs⟩, s3, h3, k3⟩ := bind_inv k2
    obtain ⟨hmem, out', room', hw', h3⟩ := iffWrite_run (X := X) (stk := stk) (inp := []) (out := out) (room := room)
      (text := text) hX (reg := none) (q := Ptr.null) rfl hA hd (Rep.of_bd hm2 hL.1) h3
    obtain ⟨N3, hN3⟩ := h3.null (vs' := [v, .ptr (.struct .IFF_Chunk) ⟨.heap cat, 0⟩, .ptr .void Ptr.null]) rfl
      (by rcases hv with ⟨a, rfl⟩ | ⟨a, rfl⟩ <;> rfl)
    obtain ⟨u4, s4, h4, k4⟩ := bind_inv k3
    obtain ⟨he, rfl⟩ := pure_inv k4
    rw [← hmem] at hm2
    obtain ⟨-, h4⟩ := free_tool (X := X) (stk := stk) (out := out') (room := room') (text := text) hX (reg := none)
        (q := Ptr.null) rfl hm2 hL.1 h4
    obtain ⟨N4, hN4⟩ := (h4 []).null (vs' := [.ptr (.struct .IFF_Chunk) ⟨.heap cat, 0⟩, .ptr .void Ptr.null]) rfl rfl
    cases he
    refine ⟨out', room', hw', N1 + M + N3 + N4 + 2, fun n hn => ?_⟩
    obtain ⟨n, rfl⟩ : ∃ n', n = n' + 2 := ⟨n - 2, by omega⟩
    have hr1 := hN1 (n + 1) (by omega)
    have hw := hM (n + 1) (by omega) (n + 1) (by omega)
    have hr3 := hN3 (n + 1) (by omega)
    have hr4 := hN4 (n + 1) (by omega)
    rw [callFn_code rfl]
    cases okw <;> rcases hv with ⟨a, rfl⟩ | ⟨a, rfl⟩ <;>
    crun [IFF_join.code, hr1, nat_emod hall, ↓exec_for', hw, hcat, hof, hst, hr3, hr4, List.take_length]

end

end Iff.Src
