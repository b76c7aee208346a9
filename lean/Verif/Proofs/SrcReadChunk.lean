import Verif.Proofs.SrcRead
/-
  Reading chunks: chunk.c:46-78 and iff.c:40-61, and the induction over the nesting.
-/
namespace Iff.Src
set_option maxRecDepth 4000
set_option quotPrecheck false
open Heap (Addr Block Mem HS Hdr Grp Lst)

section
variable {X : Cfg} {N : Nat} {T : List Byte} {room : Nat} {stk : List Blk} {out text : List Byte}

/-- chunk.c:46-66 -/
theorem readChunkBody_run {q : Ptr} {r : Registry} (hr : RegAt X q r)
    {subs listSubs : Addr → Int → M HS (Bool × Int)}
    (IHg : SubsIH X N T q out room text subs) (IHl : ListIH X N T q out room text listSubs)
    {ft id : ID} {size : Int} {k : Nat} {p : Addr} {s s' : HS} {K : Nat} (hK : K ≤ 4294967296 ∧ K ≤ 8 * N)
    (hp : Pre K s) (hT : s.rs.inp <:+ T) (hs : inInt size)
    (hpr : id = idPROP → findChunkType r ft id ≠ .raw ∧ ∀ a b, findChunkType r ft id ≠ .ext a b)
    (h : (do
      let p ← Heap.create X.alloc X.e (findChunkType r ft id) id size
      if p = 0 then pure 0
      else do
        let (ok, bp) ← Heap.readFields X.e subs listSubs (findChunkType r ft id) p
        Heap.finish X.e r k ft p size ok bp : M HS Addr) s = .val (p, s')) :
    Pre K s' ∧ s'.rs.inp.length ≤ s.rs.inp.length ∧
    Runs X .readChunkBody [.file .inp, .int .uint id.toNat, .int .int size, .int .uint ft.toNat,
      .ptr (.struct .IFF_ChunkRegistry) q] (st X stk out room text s)
      (.ptr (.struct .IFF_Chunk) (.ofAddr p)) (st X stk out room text s') := by
  obtain ⟨q', id', -, ⟨-, -, -, fns, -, -, -, -, hf, -⟩⟩ :=
    findChunkType_run (ft := ft) (id := id) hr (Registry.depth r + 4)
      (st X stk out room text s) (Nat.le_refl _)
  obtain ⟨c, s1, h1, k1⟩ := bind_inv h
  clear h
  obtain ⟨hm1, hrs1, hl1, hx1⟩ := create_bd hp.2 hs (fun hi => (hpr hi).1) (fun hi => (hpr hi).2) h1
  have hp1 : Pre K s1 := ⟨by rw [hrs1]; exact hp.1, by rw [hrs1]; exact hm1⟩
  obtain ⟨f0, hf0, -⟩ := create_run (X := X) (stk := stk) (out := out) (room := room) (text := text) (n := 0) hf hs h1
  have hcr : ∀ n, callFn X (n + 5) f0 [.int .uint id.toNat, .int .int size]
      (st X stk out room text s) = .val (.ptr (.struct .IFF_Chunk) (.ofAddr c),
        st X stk out room text s1) := by
    intro n
    obtain ⟨f0', hf0', hc⟩ := create_run (X := X) (stk := stk) (out := out) (room := room) (text := text) (n := n) hf hs h1
    rw [hf0] at hf0'; cases hf0'; exact hc
  by_cases hc : c = 0
  · simp only [if_pos hc] at k1
    obtain ⟨rfl, rfl⟩ := pure_inv k1
    subst hc
    refine ⟨hp1, by rw [hrs1], Registry.depth r + 10, fun n hn => ?_⟩
    obtain ⟨n, rfl⟩ : ∃ n', n = n' + 6 := ⟨n - 6, by omega⟩
    obtain ⟨q2, id2, hq2, ⟨kk, jj, b, fns', rfl, hi, his, -, hf', hfs⟩⟩ :=
      findChunkType_run (ft := ft) (id := id) hr (n + 5) (st X stk out room text s) (by omega)
    cases hf.unique hf'
    have hcell := hfs 0 f0 hf0
    have hmo : ∀ s, memberOf X (.ptr (.struct .IFF_ChunkType) ⟨.static kk, jj * 8⟩) .createExtensionChunk s =
      .val (.mem .fn ⟨.static kk, jj * 8 + 1⟩, s) := fun s =>
      memberOf_static hi rfl (by decide) his rfl
    rw [callFn_code rfl]
    crun [readChunkBody.code, hq2, hmo, blkOf_static hi, hcell, hcr, wrapInt_of hs, addr_bne_null, List.take_length]
  · simp only [if_neg hc] at k1
    obtain ⟨⟨ok, bp⟩, s2, h2, k2⟩ := bind_inv k1
    obtain ⟨⟨hp2, hl2, hbp2⟩, f1, hf1, N1, hN1⟩ :=
      readFields_run (stk := stk) IHg IHl hf hK hp1 (by rw [hrs1]; exact hT) (fun hh => hl1 hc hh) (fun a b hh => hx1 hc a b hh) h2
    unfold Heap.finish at k2
    obtain ⟨ok3, s3, h3, k3⟩ := bind_inv k2
    have hcb : (c != 0) = true := by simpa using hc
    cases ok with
    | false =>
      obtain ⟨rfl, rfl⟩ := pure_inv h3
      have hp3 := hp2
      obtain ⟨u4, s4, h4, k4⟩ := bind_inv k3
      obtain ⟨rfl, rfl⟩ := pure_inv k4
      obtain ⟨⟨hsub, hrs⟩, N4, hN4⟩ := freeChunk_run (stk := stk ++ [bpObj bp]) (out := out) (room := room) (text := text) hr hp3.2 (by omega) h4
      refine ⟨⟨by rw [hrs]; exact hp3.1, by rw [hrs]; exact hp3.2.sub hsub⟩, by rw [hrs, ← hrs1]; omega,
        max (max N1 N4) (Registry.depth r + 5) + 9, fun n hn => ?_⟩
      obtain ⟨n, rfl⟩ : ∃ n', n = n' + 9 := ⟨n - 9, by omega⟩
      have hrf := hN1 (n + 8) (by omega)
      obtain ⟨q2, id2, hq2, ⟨kk, jj, b, fns', rfl, hi, his, -, hf', hfs⟩⟩ :=
        findChunkType_run (ft := ft) (id := id) hr (n + 8) (st X stk out room text s) (by omega)
      cases hf.unique hf'
      have hcell := hfs 0 f0 hf0
      have hcell1 := hfs 1 f1 hf1
      have hmo : ∀ s, memberOf X (.ptr (.struct .IFF_ChunkType) ⟨.static kk, jj * 8⟩) .createExtensionChunk s =
        .val (.mem .fn ⟨.static kk, jj * 8 + 1⟩, s) := fun s =>
        memberOf_static hi rfl (by decide) his rfl
      have hmo1 : ∀ s, memberOf X (.ptr (.struct .IFF_ChunkType) ⟨.static kk, jj * 8⟩) .readExtensionChunkFields s =
        .val (.mem .fn ⟨.static kk, jj * 8 + 2⟩, s) := fun s =>
        memberOf_static hi rfl (by decide) his rfl
      have hcr := hcr (n + 3)
      have hfr := hN4 (n + 8) (by omega)
      rw [callFn_code rfl]
      crun [readChunkBody.code, hq2, hmo, hmo1, blkOf_static hi, hcell, hcell1, hcr, wrapInt_of hs, addr_bne_null, hcb, Ty.size, scalarSize, ITy.bits, stk_push1, hrf, hfr, stk_take0]
    | true =>
      obtain ⟨hd, s4, h4, k4⟩ := bind_inv h3
      obtain ⟨rfl, sz, rest, hz, hb⟩ := getHdr_step (X := X) h4
      obtain ⟨b5, s5, h5, k5⟩ := bind_inv k4
      obtain ⟨rs5, h5', rfl⟩ := io_inv h5
      have hl5 := skip_len h5'
      have hsk := fun n => @skip_run X n (heapOf X.e s4.mem) s4.tick room (stk ++ [bpObj bp]) s4.rs.inp out text _ _ _ _ _ _ hs hbp2 h5'
      cases b5 with
      | false =>
        obtain ⟨rfl, rfl⟩ := pure_inv k5
        have hp3 : Pre K ⟨s4.mem, s4.tick, rs5⟩ := hp2.io hl5 rfl
        obtain ⟨u6, s6, h6, k6⟩ := bind_inv k3
        obtain ⟨rfl, rfl⟩ := pure_inv k6
        obtain ⟨⟨hsub, hrs⟩, N4, hN4⟩ := freeChunk_run (stk := stk ++ [bpObj bp]) (out := out) (room := room) (text := text) hr hp3.2 (by omega) h6
        refine ⟨⟨by rw [hrs]; exact hp3.1, by rw [hrs]; exact hp3.2.sub hsub⟩, by rw [hrs, ← hrs1]; show rs5.inp.length ≤ _; omega,
          max (max N1 N4) (Registry.depth r + 5) + 9, fun n hn => ?_⟩
        obtain ⟨n, rfl⟩ : ∃ n', n = n' + 9 := ⟨n - 9, by omega⟩
        have hrf := hN1 (n + 8) (by omega)
        obtain ⟨q2, id2, hq2, ⟨kk, jj, b, fns', rfl, hi, his, -, hf', hfs⟩⟩ :=
          findChunkType_run (ft := ft) (id := id) hr (n + 8) (st X stk out room text s) (by omega)
        cases hf.unique hf'
        have hcell := hfs 0 f0 hf0
        have hcell1 := hfs 1 f1 hf1
        have hmo : ∀ s, memberOf X (.ptr (.struct .IFF_ChunkType) ⟨.static kk, jj * 8⟩) .createExtensionChunk s =
          .val (.mem .fn ⟨.static kk, jj * 8 + 1⟩, s) := fun s =>
          memberOf_static hi rfl (by decide) his rfl
        have hmo1 : ∀ s, memberOf X (.ptr (.struct .IFF_ChunkType) ⟨.static kk, jj * 8⟩) .readExtensionChunkFields s =
          .val (.mem .fn ⟨.static kk, jj * 8 + 2⟩, s) := fun s =>
          memberOf_static hi rfl (by decide) his rfl
        have hcr := hcr (n + 3)
        have hfr := hN4 (n + 8) (by omega)
        have hsk := hsk (n + 1)
        rw [callFn_code rfl]
        crun [readChunkBody.code, hq2, hmo, hmo1, blkOf_static hi, hcell, hcell1, hcr, wrapInt_of hs, addr_bne_null, hcb, Ty.size, scalarSize, ITy.bits, stk_push1, hrf, blkOf_heap hb, hz, hsk, blkOf_stk stk_get0, wrapInt_of hbp2, hfr, stk_take0]
      | true =>
        obtain ⟨hd6, s6, h6, k6⟩ := bind_inv k5
        obtain ⟨⟨b6, hm6, hb6⟩, hs6⟩ := getHdr_inv h6
        subst hs6
        obtain ⟨⟨b4, hm4, hb4⟩, -⟩ := getHdr_inv h4
        rw [hm4] at hm6; cases hm6
        rw [hb4] at hb6; cases hb6
        obtain ⟨rs7, h7', rfl⟩ := io_inv k6
        have hl7 := padding_len h7'
        have hpd := fun n => @padding_run X n (heapOf X.e s4.mem) s4.tick room (stk ++ [bpObj bp]) rs5.inp out text _ _ _ _ _ hs h7'
        have hp3 : Pre K ⟨s4.mem, s4.tick, rs7⟩ := hp2.io (Nat.le_trans hl7 hl5) rfl
        have hl57 : rs7.inp.length ≤ s4.rs.inp.length := Nat.le_trans hl7 hl5
        cases ok3 with
        | false =>
          obtain ⟨u8, s8, h8, k8⟩ := bind_inv k3
          obtain ⟨rfl, rfl⟩ := pure_inv k8
          obtain ⟨⟨hsub, hrs⟩, N4, hN4⟩ := freeChunk_run (stk := stk ++ [bpObj bp]) (out := out) (room := room) (text := text) hr hp3.2 (by omega) h8
          refine ⟨⟨by rw [hrs]; exact hp3.1, by rw [hrs]; exact hp3.2.sub hsub⟩, by rw [hrs, ← hrs1]; show rs7.inp.length ≤ _; omega,
            max (max N1 N4) (Registry.depth r + 5) + 9, fun n hn => ?_⟩
          obtain ⟨n, rfl⟩ : ∃ n', n = n' + 9 := ⟨n - 9, by omega⟩
          have hrf := hN1 (n + 8) (by omega)
          obtain ⟨q2, id2, hq2, ⟨kk, jj, b, fns', rfl, hi, his, -, hf', hfs⟩⟩ :=
            findChunkType_run (ft := ft) (id := id) hr (n + 8) (st X stk out room text s) (by omega)
          cases hf.unique hf'
          have hcell := hfs 0 f0 hf0
          have hcell1 := hfs 1 f1 hf1
          have hmo : ∀ s, memberOf X (.ptr (.struct .IFF_ChunkType) ⟨.static kk, jj * 8⟩) .createExtensionChunk s =
            .val (.mem .fn ⟨.static kk, jj * 8 + 1⟩, s) := fun s =>
            memberOf_static hi rfl (by decide) his rfl
          have hmo1 : ∀ s, memberOf X (.ptr (.struct .IFF_ChunkType) ⟨.static kk, jj * 8⟩) .readExtensionChunkFields s =
            .val (.mem .fn ⟨.static kk, jj * 8 + 2⟩, s) := fun s =>
            memberOf_static hi rfl (by decide) his rfl
          have hcr := hcr (n + 3)
          have hfr := hN4 (n + 8) (by omega)
          have hsk := hsk (n + 1)
          have hpd := hpd (n + 1)
          rw [callFn_code rfl]
          crun [readChunkBody.code, hq2, hmo, hmo1, blkOf_static hi, hcell, hcell1, hcr, wrapInt_of hs, addr_bne_null, hcb, Ty.size, scalarSize, ITy.bits, stk_push1, hrf, blkOf_heap hb, hz, hsk, hpd, blkOf_stk stk_get0, wrapInt_of hbp2, hfr, stk_take0]
        | true =>
          obtain ⟨rfl, rfl⟩ := pure_inv k3
          refine ⟨hp3, by rw [← hrs1]; show rs7.inp.length ≤ _; omega,
            max N1 (Registry.depth r + 5) + 9, fun n hn => ?_⟩
          obtain ⟨n, rfl⟩ : ∃ n', n = n' + 9 := ⟨n - 9, by omega⟩
          have hrf := hN1 (n + 8) (by omega)
          obtain ⟨q2, id2, hq2, ⟨kk, jj, b, fns', rfl, hi, his, -, hf', hfs⟩⟩ :=
            findChunkType_run (ft := ft) (id := id) hr (n + 8) (st X stk out room text s) (by omega)
          cases hf.unique hf'
          have hcell := hfs 0 f0 hf0
          have hcell1 := hfs 1 f1 hf1
          have hmo : ∀ s, memberOf X (.ptr (.struct .IFF_ChunkType) ⟨.static kk, jj * 8⟩) .createExtensionChunk s =
            .val (.mem .fn ⟨.static kk, jj * 8 + 1⟩, s) := fun s =>
            memberOf_static hi rfl (by decide) his rfl
          have hmo1 : ∀ s, memberOf X (.ptr (.struct .IFF_ChunkType) ⟨.static kk, jj * 8⟩) .readExtensionChunkFields s =
            .val (.mem .fn ⟨.static kk, jj * 8 + 2⟩, s) := fun s =>
            memberOf_static hi rfl (by decide) his rfl
          have hcr := hcr (n + 3)
          have hsk := hsk (n + 1)
          have hpd := hpd (n + 1)
          rw [callFn_code rfl]
          crun [readChunkBody.code, hq2, hmo, hmo1, blkOf_static hi, hcell, hcell1, hcr, wrapInt_of hs, addr_bne_null, hcb, Ty.size, scalarSize, ITy.bits, stk_push1, hrf, blkOf_heap hb, hz, hsk, hpd, blkOf_stk stk_get0, wrapInt_of hbp2, stk_take0]

theorem readULong_cases {e : Env} {id : ID} {a : String} {rs rs' : RS} {v : Option (BitVec 32)}
    (h : readULong e id a rs = .val (v, rs')) :
    (rs.inp.length < 4 ∧ v = none ∧ rs' = ⟨[], rs.log ++ [.readError id a]⟩) ∨
    ∃ b0 b1 b2 b3 rest, rs.inp = b0 :: b1 :: b2 :: b3 :: rest ∧
      v = some (fromHost32 e (load32 e b0 b1 b2 b3)) ∧ rs' = ⟨rest, rs.log⟩ := by
  obtain ⟨inp, log⟩ := rs
  simp only [readULong, M.bind_apply, fread] at h
  rcases inp with _ | ⟨b0, _ | ⟨b1, _ | ⟨b2, _ | ⟨b3, inp⟩⟩⟩⟩ <;> simp [M.bind_apply, RS.emit] at h <;>
    obtain ⟨rfl, rfl⟩ := h <;> first | (simp; done) | exact .inr ⟨_, _, _, _, _, rfl, rfl, rfl⟩

theorem stores_first {heap : Nat → Option Blk} {b b' : Blk} {c : Cell} :
    Stores X heap (stk ++ [b, b']) ⟨.stk stk.length, 0⟩ c heap (stk ++ [b.set 0 c, b']) := by
  intro tick xs inp out room text log
  simp only [CS.store, CS.blk, CS.setBlk, stk_push2, stk_get0, stk_set0]

theorem stores_second {heap : Nat → Option Blk} {b b' : Blk} {c : Cell} :
    Stores X heap (stk ++ [b, b']) ⟨.stk (stk.length + 1), 0⟩ c heap (stk ++ [b, b'.set 0 c]) := by
  intro tick xs inp out room text log
  simp only [CS.store, CS.blk, CS.setBlk, stk_push2, stk_get1, stk_set1]

theorem readId_conv {n : Nat} {id : ID} {a : String} {p : Ptr} {g : CS} :
    callFn X (n + 1) .IFF_readId [.file .inp, .ptr (.int .uint) p, .int .int id.toNat, .str a] g =
      callFn X (n + 1) .IFF_readId [.file .inp, .ptr (.int .uint) p, .int .uint id.toNat, .str a] g := by
  obtain ⟨heap, tick, stk, inp, out, room, text, log⟩ := g
  rw [callFn_code (f := .IFF_readId) rfl, callFn_code (f := .IFF_readId) rfl]
  crun [IFF_readId.code]

/-- The next bytes of the input are an id. -/
theorem _root_.Iff.Src.PropFine.at {r : Registry} {T : List Byte} (h : PropFine r T) {e : Env} {ft : ID}
    {b0 b1 b2 b3 : Byte} {rest : List Byte} (hT : b0 :: b1 :: b2 :: b3 :: rest <:+ T) :
    fromHost32 e (load32 e b0 b1 b2 b3) = idPROP →
      findChunkType r ft (fromHost32 e (load32 e b0 b1 b2 b3)) ≠ .raw ∧
      ∀ a b, findChunkType r ft (fromHost32 e (load32 e b0 b1 b2 b3)) ≠ .ext a b := by
  intro hi
  rcases h with h | h
  · rw [hi]; exact h ft
  · rw [fromHost32_load] at hi
    have hb := (append_extract32 b0 b1 b2 b3).symm.trans
      ((congrArg bytes32 hi).trans (by decide : bytes32 idPROP = [0x50, 0x52, 0x4f, 0x50]))
    injection hb with h0 hb; injection hb with h1 hb; injection hb with h2 hb; injection hb with h3 hb
    subst h0 h1 h2 h3
    exact absurd ((List.prefix_append [0x50, 0x52, 0x4f, 0x50] rest).isInfix.trans hT.isInfix) h

/-- chunk.c:68-78 -/
theorem readChunk_run {q : Ptr} {A : Heap.Alloc} {r : Registry} (hA : Like X N A) (hr : RegAt X q r)
    (hpr : PropFine r T) {k : Nat} (IHg : SubsIH X N T q out room text (Heap.readGroupSubs A X.e r k))
    (IHl : ListIH X N T q out room text (Heap.readListSubs A X.e r k)) :
    ReadIH X N T q out room text (Heap.readChunk A X.e r (k + 1)) := by
  intro stk ft p s s' K hK hp hT h
  unfold Heap.readChunk at h
  obtain ⟨v, s1, h1, k1⟩ := bind_inv h
  clear h
  obtain ⟨rs1, h1', rfl⟩ := io_inv h1
  rcases readULong_cases h1' with ⟨hi, rfl, rfl⟩ | ⟨b0, b1, b2, b3, rest, hi, rfl, rfl⟩
  · obtain ⟨rfl, rfl⟩ := pure_inv k1
    refine ⟨hp.io (Nat.zero_le _) rfl, Nat.zero_le _, fun h => absurd rfl h, 10, fun n hn => ?_⟩
    obtain ⟨n, rfl⟩ : ∃ n', n = n' + 10 := ⟨n - 10, by omega⟩
    have hx := @readId_short X n (heapOf X.e s.mem) s.tick room (stk ++ [⟨4, cells []⟩, ⟨4, cells []⟩]) s.rs.inp out text
      (errCalls X.e s.rs.log) ⟨.stk stk.length, 0⟩ idEMPTY "" hi
    rw [← readId_conv] at hx
    rw [callFn_code rfl]
    crun [IFF_readChunk.code, ↓evalE_EMPTY, hx, Ty.size, scalarSize, ITy.bits]
    simp only [st, errCalls_snoc]
  · have hid := fun n => @readId_ok X n (heapOf X.e s.mem) s.tick room (stk ++ [⟨4, cells []⟩, ⟨4, cells []⟩]) out text
      (errCalls X.e s.rs.log) ⟨.stk stk.length, 0⟩ idEMPTY "" b0 b1 b2 b3 rest _ _ (by simp) stores_first
    simp only [← hi, ← readId_conv, set_new0] at hid
    have hpr' := hpr.at (e := X.e) (ft := ft) (by rw [hi] at hT; exact hT)
    generalize fromHost32 X.e (load32 X.e b0 b1 b2 b3) = id at *
    have hlen : s.rs.inp.length = rest.length + 4 := by rw [hi]; rfl
    obtain ⟨v, s2, h2, k2⟩ := bind_inv k1
    obtain ⟨rs2, h2', rfl⟩ := io_inv h2
    rcases readULong_cases (show readULong X.e id "chunkSize" _ = _ from h2') with ⟨hi2, rfl, rfl⟩ | ⟨c0, c1, c2, c3, rest2, hi2, rfl, rfl⟩
    · obtain ⟨rfl, rfl⟩ := pure_inv k2
      refine ⟨hp.io (Nat.zero_le _) rfl, Nat.zero_le _, fun h => absurd rfl h, 10, fun n hn => ?_⟩
      obtain ⟨n, rfl⟩ : ∃ n', n = n' + 10 := ⟨n - 10, by omega⟩
      have hx := @readLong_short X (n + 1) (heapOf X.e s.mem) s.tick room (stk ++ [⟨4, cells [.int .uint id.toNat]⟩, ⟨4, cells []⟩]) rest out text
        (errCalls X.e s.rs.log) ⟨.stk (stk.length + 1), 0⟩ id "chunkSize" hi2
      rw [callFn_code rfl]
      crun [IFF_readChunk.code, ↓evalE_EMPTY, hid, hx, Ty.size, scalarSize, ITy.bits, blkOf_stk stk_get0]
      simp only [st, errCalls_snoc]
    · have hsz := fun n => @readLong_ok X n (heapOf X.e s.mem) s.tick room (stk ++ [⟨4, cells [.int .uint id.toNat]⟩, ⟨4, cells []⟩]) out text
        (errCalls X.e s.rs.log) ⟨.stk (stk.length + 1), 0⟩ id "chunkSize" c0 c1 c2 c3 rest2 _ _ (by simp) stores_second
      have hi2' : rest = c0 :: c1 :: c2 :: c3 :: rest2 := hi2
      simp only [← hi2', set_new0] at hsz
      generalize fromHost32 X.e (load32 X.e c0 c1 c2 c3) = sz at *
      obtain ⟨q', id', -, ⟨-, -, -, fns, -, -, -, -, hfn, -⟩⟩ := findChunkType_run (ft := ft) (id := id) hr (Registry.depth r + 4)
        (st X stk out room text s) (Nat.le_refl _)
      simp only [create_like hA hfn] at k2
      have hlen2 : rest.length = rest2.length + 4 := by rw [hi2']; rfl
      have h8 := hp.1
      have hp2 : Pre (K - 8) ⟨s.mem, s.tick, ⟨rest2, s.rs.log⟩⟩ :=
        ⟨by show rest2.length ≤ _; omega, hp.2.mono (by show _ ≤ K - 8 - rest2.length; omega)⟩
      obtain ⟨hp3, hl3, N, hN⟩ := readChunkBody_run (stk := stk ++ [⟨4, cells [.int .uint id.toNat]⟩, ⟨4, cells [.int .int sz.toInt]⟩])
        hr IHg IHl (by omega) hp2
          (show rest2 <:+ T from (List.suffix_append [b0, b1, b2, b3, c0, c1, c2, c3] rest2).trans (by rw [hi, hi2'] at hT; exact hT))
          (inInt_toInt sz) hpr' k2
      have hl3' : s'.rs.inp.length ≤ rest2.length := hl3
      refine ⟨⟨by have := hp3.1; omega, hp3.2.mono (by omega)⟩, by omega, fun _ => ⟨by omega, hp3.2⟩,
        N + 10, fun n hn => ?_⟩
      obtain ⟨n, rfl⟩ : ∃ n', n = n' + 10 := ⟨n - 10, by omega⟩
      have hb := hN (n + 9) (by omega)
      rw [callFn_code rfl]
      crun [IFF_readChunk.code, ↓evalE_EMPTY, hid, hsz, Ty.size, scalarSize, ITy.bits, blkOf_stk stk_get0, blkOf_stk stk_get1, wrapInt_of (inInt_toInt sz), hb]

/-- The parser of the model does what the C functions do. -/
theorem read_run {q : Ptr} {A : Heap.Alloc} {r : Registry} (hA : Like X N A) (hr : RegAt X q r)
    (hpr : PropFine r T) : ∀ k, ReadIH X N T q out room text (Heap.readChunk A X.e r k) ∧
      SubsIH X N T q out room text (Heap.readGroupSubs A X.e r k) ∧
      ListIH X N T q out room text (Heap.readListSubs A X.e r k) := by
  intro k
  induction k with
  | zero =>
    refine ⟨?_, ?_, ?_⟩
    · intro stk ft p s s' K _ _ _ h; cases h
    · intro stk p bp bp' ok s s' K _ _ _ _ h; cases h
    · intro stk p bp bp' ok s s' K _ _ _ _ h; cases h
  | succ k ih =>
    obtain ⟨h1, h2, h3⟩ := ih
    exact ⟨readChunk_run hA hr hpr h2 h3, readGroupSubs_run hA h1 h2, readListSubs_run hA h1 h3⟩

end

end Iff.Src
