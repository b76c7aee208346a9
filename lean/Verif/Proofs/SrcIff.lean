import Verif.Proofs.SrcReadChunk
import Verif.Spec.Heap
/-
  The functions of iff.c on open files: iff.c:32-61, 122-125.
-/
namespace Iff.Src
open Spec
set_option maxRecDepth 4000
open Heap (Addr Block Mem HS Hdr Grp Lst)

/-- Arguments count after their conversion to the types of the parameters. -/
theorem callFn_args {X : Cfg} {n : Nat} {f : Fn} {d : Fun} {vs vs' : List V} {g : CS}
    (h : code f = some d) (hb : bindParams X.e d.params vs = bindParams X.e d.params vs') :
    callFn X n f vs g = callFn X n f vs' g := by
  cases n with
  | zero => rfl
  | succ n => rw [callFn_code h, callFn_code h]; simp only [runFun, hb]

section
variable {X : Cfg} {room : Nat} {stk : List Blk} {out text : List Byte}

theorem like_self {N : Nat} (h : 8 * N ≤ 4294967296) : Like X N X.alloc := ⟨h, rfl, fun _ _ _ _ _ => rfl⟩

theorem RegAt.nonNull {q : Ptr} {r : Registry} (h : RegAt X q r) : (q == Ptr.null) = false := by
  obtain ⟨k, b, base, node, dflt, id', rfl, -⟩ := h
  rfl

/-- iff.c:32-38 -/
theorem select_run (hX : X.Linked) {reg : Option Registry} {q : Ptr} (hq : RegArg X reg q) :
    ∃ q', RegAt X q' (selectChunkRegistry reg) ∧ ∀ n g, callFn X (n + 1) .selectChunkRegistry
      [.ptr (.struct .IFF_ChunkRegistry) q] g = .val (.ptr (.struct .IFF_ChunkRegistry) q', g) := by
  cases reg with
  | none =>
    refine ⟨⟨.static 3, 0⟩, regAt_default hX, fun n g => ?_⟩
    obtain ⟨heap, tick, stk, inp, out, room, text, log⟩ := g
    cases hq
    rw [callFn_code rfl]
    crun [selectChunkRegistry.code, beq_self_eq_true, List.take_length]
    rfl
  | some r =>
    refine ⟨q, hq, fun n g => ?_⟩
    obtain ⟨heap, tick, stk, inp, out, room, text, log⟩ := g
    rw [callFn_code rfl]
    crun [selectChunkRegistry.code, hq.nonNull, List.take_length]

/-- iff.c:40-61 -/
theorem readFd_run (hX : X.Linked) {reg : Option Registry} {q : Ptr} (hq : RegArg X reg q)
    {p : Addr} {s s' : HS} {K N : Nat} {A : Heap.Alloc}
    (hpr : PropFine (selectChunkRegistry reg) s.rs.inp)
    (hA : Like X N A) (hK : K ≤ 4294967296 ∧ K ≤ 8 * N) (hp : Pre K s)
    (h : Heap.readFd A X.e reg s = .val (p, s')) :
    Pre K s' ∧ Runs X .IFF_readFd [.file .inp, .ptr (.struct .IFF_ChunkRegistry) q]
      (st X stk out room text s) (.ptr (.struct .IFF_Chunk) (.ofAddr p))
      (st X stk out room text s') := by
  unfold Heap.readFd at h
  obtain ⟨q', hr, hsel⟩ := select_run hX hq
  obtain ⟨c, s1, h1, k1⟩ := bind_inv h
  clear h
  obtain ⟨hp1, hl1, -, M, hN⟩ := (read_run (out := out) (room := room) (text := text) hA hr hpr _).1
    (stk := stk) hK hp (List.suffix_refl _) h1
  have hN' : ∀ n, M ≤ n → callFn X n .IFF_readChunk [.file .inp, .int .int 0,
      .ptr (.struct .IFF_ChunkRegistry) q'] (st X stk out room text s) =
        .val (.ptr (.struct .IFF_Chunk) (.ofAddr c), st X stk out room text s1) := fun n hn => by
    rw [← hN n hn]; exact callFn_args rfl rfl
  by_cases hc : c = 0
  · simp only [if_pos hc] at k1
    obtain ⟨u2, s2, h2, k2⟩ := bind_inv k1
    obtain ⟨rs2, h2', rfl⟩ := io_inv h2
    cases h2'
    obtain ⟨rfl, rfl⟩ := pure_inv k2
    subst hc
    refine ⟨hp1.io (Nat.le_refl _) rfl, M + 2, fun n hn => ?_⟩
    obtain ⟨n, rfl⟩ : ∃ n', n = n' + 2 := ⟨n - 2, by omega⟩
    have hr := hN' (n + 1) (by omega)
    rw [callFn_code rfl]
    crun [IFF_readFd.code, hsel, hr, addr_beq_null, beq_self_eq_true, error0, List.take_length]
    simp only [st, errCalls_snoc, Msg.prints]
  · simp only [if_neg hc] at k1
    have hcb : (c == 0) = false := by simpa using hc
    obtain ⟨b, s2, h2, k2⟩ := bind_inv k1
    obtain ⟨rs2, h2', rfl⟩ := io_inv h2
    cases hi : s1.rs.inp with
    | nil =>
      simp only [fgetc, hi] at h2'
      cases h2'
      obtain ⟨rfl, rfl⟩ := pure_inv k2
      refine ⟨hp1.io (Nat.le_refl _) rfl, M + 2, fun n hn => ?_⟩
      obtain ⟨n, rfl⟩ : ∃ n', n = n' + 2 := ⟨n - 2, by omega⟩
      have hr := hN' (n + 1) (by omega)
      simp only [st] at hr ⊢
      rw [hi] at hr
      rw [callFn_code rfl]
      crun [IFF_readFd.code, hsel, hr, addr_beq_null, hcb, List.take_length, hi]
    | cons b bs =>
      simp only [fgetc, hi] at h2'
      cases h2'
      obtain ⟨u3, s3, h3, k3⟩ := bind_inv k2
      obtain ⟨rs3, h3', rfl⟩ := io_inv h3
      cases h3'
      obtain ⟨rfl, rfl⟩ := pure_inv k3
      refine ⟨hp1.io (by rw [hi]; exact Nat.le_succ _) rfl, M + 2, fun n hn => ?_⟩
      obtain ⟨n, rfl⟩ : ∃ n', n = n' + 2 := ⟨n - 2, by omega⟩
      have hr := hN' (n + 1) (by omega)
      simp only [st] at hr ⊢
      rw [hi] at hr
      have hb : inInt (b.toNat : Int) := by have := b.isLt; unfold inInt; omega
      have hb' : ((b.toNat : Int) != -1) = true := by simp
      rw [callFn_code rfl]
      crun [IFF_readFd.code, hsel, hr, addr_beq_null, hcb, List.take_length, error_int, wrapInt_of hb, hb']
      simp only [errCalls_snoc, Msg.prints]

/-- iff.c:122-125 -/
theorem iffFree_run (hX : X.Linked) {reg : Option Registry} {q : Ptr} (hq : RegArg X reg q)
    {p : Addr} {s s' : HS} {k L : Nat} {u : Unit} (hm : MBd L s.mem) (hL : L ≤ 4294967296)
    (h : Heap.iffFree reg k p s = .val (u, s')) :
    Runs X .IFF_free [.ptr (.struct .IFF_Chunk) ⟨.heap p, 0⟩, .ptr (.struct .IFF_ChunkRegistry) q]
      (st X stk out room text s) .void (st X stk out room text s') := by
  obtain ⟨q', hr, hsel⟩ := select_run hX hq
  obtain ⟨-, N, hN⟩ := freeChunk_run (stk := stk) (out := out) (room := room) (text := text) hr hm hL h
  have hN' : ∀ n, N ≤ n → callFn X n .IFF_freeChunk [.ptr (.struct .IFF_Chunk) ⟨.heap p, 0⟩,
      .int .int 0, .ptr (.struct .IFF_ChunkRegistry) q'] (st X stk out room text s) =
        .val (.void, st X stk out room text s') := fun n hn => by
    rw [← hN n hn]; exact callFn_args rfl rfl
  refine ⟨N + 2, fun n hn => ?_⟩
  obtain ⟨n, rfl⟩ : ∃ n', n = n' + 2 := ⟨n - 2, by omega⟩
  have hr := hN' (n + 1) (by omega)
  rw [callFn_code rfl]
  crun [IFF_free.code, hsel, hr, List.take_length]

/-! ### An allocator that does not refuse large arrays -/

open Classical in
/-- Like the allocator of `X`, but arrays of more than `N` pointers and structs with more than three fields of an
application are not refused. -/
noncomputable def complete (X : Cfg) (N : Nat) : Heap.Alloc where
  pick t m q :=
    match q with
    | .array n =>
      if n ≤ N then X.alloc.pick t m (.array n)
      else if h : ∃ a : Nat, a ≠ 0 ∧ m a = none then some h.choose else none
    | .struct (.ext ks) =>
      if ks.length ≤ 3 then X.alloc.pick t m (.struct (.ext ks))
      else if h : ∃ a : Nat, a ≠ 0 ∧ m a = none then some h.choose else none
    | q => X.alloc.pick t m q
  sound := by
    intro t m q a h
    cases q with
    | array n =>
      dsimp only at h
      split at h
      · exact X.alloc.sound h
      · split at h
        · rename_i h'
          cases h
          exact h'.choose_spec
        · cases h
    | struct k =>
      cases k with
      | ext ks =>
        dsimp only at h
        split at h
        · exact X.alloc.sound h
        · split at h
          · rename_i h'
            cases h
            exact h'.choose_spec
          · cases h
      | _ => exact X.alloc.sound h
    | data k => exact X.alloc.sound h
  realloc0 := X.realloc0

theorem like_complete {N : Nat} (h : 8 * N ≤ 4294967296) : Like X N (complete X N) := by
  refine ⟨h, rfl, fun t m q hq hx => ?_⟩
  cases q with
  | array n => exact if_pos (hq n rfl)
  | struct k =>
    cases k with
    | ext ks => exact if_pos (hx ks rfl)
    | _ => rfl
  | data k => rfl

theorem finite_sizes {e : Env} {m : Mem} (h : Roomy m) : Finite (sizes (heapOf e m)) := by
  obtain ⟨b, hb⟩ := h
  exact ⟨b, fun a ha => by simp [sizes, heapOf, hb a ha]⟩

theorem complete_arrays {N : Nat} (h : X.ArraysOk N) : ArraysOk (complete X N) := by
  intro t m n hm
  show (if n + 1 ≤ N then X.alloc.pick t m (.array (n + 1)) else _ : Option Nat).isSome
  split
  · exact h t _ n (finite_sizes hm) (by omega)
  · obtain ⟨b, hb⟩ := hm
    have : ∃ a : Nat, a ≠ 0 ∧ m a = none := ⟨b + 1, by omega, hb _ (by omega)⟩
    rw [dif_pos this]
    rfl

theorem complete_grants {N : Nat} (h : X.Grants) : Grants (complete X N) X.e :=
  fun t m n a hp => h t _ n a hp

theorem complete_total {N : Nat} (hg : X.Grants) (ha : X.ArraysOk N) (h256 : X.Serves 256)
    (hd : ∀ t s n, Finite s → X.e.mallocOk n = true → (X.pick t s n).isSome) :
    Total (complete X N) X.e where
  struct t m k hm := by
    cases k with
    | ext ks =>
      show (if ks.length ≤ 3 then X.alloc.pick t m (.struct (.ext ks)) else _ : Option Nat).isSome
      split
      · rename_i hk
        exact h256 t _ _ (finite_sizes hm) (ext_small X hk)
      · obtain ⟨b, hb⟩ := hm
        have : ∃ a : Nat, a ≠ 0 ∧ m a = none := ⟨b + 1, by omega, hb _ (by omega)⟩
        rw [dif_pos this]
        rfl
    | _ =>
      refine h256 t _ _ (finite_sizes hm) ?_
      exact Nat.le_of_lt (size_small X (by simp))
  array := complete_arrays ha
  data t m n hm hn := hd t _ n (finite_sizes hm) hn
  grants := complete_grants hg

/-- The data of a chunk is part of the encoding. -/
theorem data_length_le {id : ID} {size : Int} {data : List Byte} {c : Chunk}
    (h : Within (.raw id size data) c) : data.length ≤ (encode c).length := by
  have mem : ∀ {c : Chunk} {cs : List Chunk}, c ∈ cs → (encode c).length ≤ (encodeAll cs).length := by
    intro c cs hc
    induction cs with
    | nil => cases hc
    | cons d cs ih =>
      simp only [encodeAll, List.length_append]
      cases hc with
      | head => omega
      | tail _ hc => have := ih hc; omega
  induction h with
  | self => simp only [encode, List.length_append]; omega
  | grp hc _ ih => have := mem hc; simp only [encode, List.length_append]; omega
  | sub hc _ ih => have := mem hc; simp only [encode, List.length_append]; omega
  | prop hc _ ih => have := mem hc; simp only [encode, List.length_append]; omega

end

end Iff.Src
