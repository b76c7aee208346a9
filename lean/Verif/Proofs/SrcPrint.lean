import Verif.Proofs.SrcCheck
import Verif.Proofs.ErrText
import Verif.Heap.Print
/-
  Printing of hierarchies: id.c:74-83, rawchunk.c:115-168, group.c:209-232, list.c:230-249,
  chunk.c:115-125 and iff.c:142-145.
-/
namespace Iff.Src
set_option maxRecDepth 4000
open Heap (Addr Block Mem HS Hdr Grp Lst HX)

/-- The state of the C semantics for a state of the printer of the heap model. -/
abbrev sp (X : Cfg) (stk : List Blk) (inp out : List Byte) (room : Nat) (log : List ErrPrint)
    (s : HX (List Byte)) : CS :=
  ⟨heapOf X.e s.mem, s.tick, stk, inp, out, room, s.st, log⟩

theorem put_inv {bs : List Byte} {s s' : HX (List Byte)} {u : Unit} (h : Heap.put bs s = .val (u, s')) :
    s' = ⟨s.mem, s.tick, s.st ++ bs⟩ := by
  cases h; rfl

theorem mapM_id {cs : List (Option Byte)} {bs : List Byte} (h : cs.mapM id = some bs) :
    cs = bs.map some := by
  induction cs generalizing bs with
  | nil => cases h; rfl
  | cons c cs ih =>
    rw [List.mapM_cons] at h
    cases c with
    | none => cases h
    | some b =>
      cases hx : cs.mapM id with
      | none => rw [hx] at h; cases h
      | some bs' =>
        rw [hx] at h
        cases h
        rw [ih hx]; rfl

theorem hreadCells {X : Cfg} {d : Addr} {n : Nat} {bs : List Byte} {s s' : HX (List Byte)}
    (h : Heap.heap (Heap.readBytes d n) s = .val (bs, s')) : s' = s ∧ ∃ B : Blk,
      heapOf X.e s.mem d = some B ∧ n ≤ B.size ∧ bs.length = n ∧
      ∀ i b, bs[i]? = some b → B.cell i = .int .uchar b.toNat := by
  obtain ⟨h', h1, rfl⟩ := heap_inv h
  unfold Heap.readBytes at h1
  obtain ⟨b, s1, h2, k1⟩ := bind_inv h1
  obtain ⟨hm, rfl⟩ := load_inv h2
  cases b <;> first | (cases k1; done) | skip
  rename_i cs
  simp only at k1
  by_cases hn : n ≤ cs.length
  · rw [if_pos hn] at k1
    cases hx : (cs.take n).mapM id with
    | none => simp only [hx] at k1; cases k1
    | some bs' =>
      simp only [hx] at k1
      obtain ⟨rfl, rfl⟩ := pure_inv k1
      have he := mapM_id hx
      refine ⟨rfl, _, heapOf_some hm, hn, ?_, ?_⟩
      · have := congrArg List.length he
        simp only [List.length_take, List.length_map] at this
        omega
      · intro i b hi
        have h3 : (cs.take n)[i]? = some (some b) := by rw [he, List.getElem?_map, hi]; rfl
        have h4 : cs[i]? = some (some b) := by
          rw [List.getElem?_take] at h3
          split at h3
          · exact h3
          · cases h3
        simp only [layout, byteCells, h4]
  · rw [if_neg hn] at k1; cases k1

theorem indent_spaces (level : Nat) :
    List.replicate (2 * level) (BitVec.ofNat 8 32) = (List.replicate level (asc "  ")).flatten := by
  induction level with
  | zero => rfl
  | succ n ih =>
    rw [List.replicate_succ, List.flatten_cons, ← ih,
      show 2 * (n + 1) = 2 * n + 1 + 1 by omega, List.replicate_succ, List.replicate_succ]
    rfl

section
variable {X : Cfg} {stk : List Blk} {inp out text : List Byte} {room n : Nat}
  {heap : Nat → Option Blk} {tick : Nat} {log : List ErrPrint}

theorem printf_run {fmt : String} {vs : List V} {as : List CArg} {bs : List Byte}
    (ha : toArgs X.e vs = .val as) (hv : vprintf fmt.toList as = .val bs) :
    callFn X (n + 1) .printf (.str fmt :: vs) ⟨heap, tick, stk, inp, out, room, text, log⟩ =
      .val (.int .int bs.length, ⟨heap, tick, stk, inp, out, room, text ++ bs, log⟩) := by
  rw [callFn_prim rfl]
  show printC X.e [] fmt vs _ = _
  simp only [printC, ha, hv, List.append_nil]

theorem printf_plain {fmt : String} (h : '%' ∉ fmt.toList) :
    callFn X (n + 1) .printf [.str fmt] ⟨heap, tick, stk, inp, out, room, text, log⟩ =
      .val (.int .int (asc fmt).length, ⟨heap, tick, stk, inp, out, room, text ++ asc fmt, log⟩) :=
  printf_run rfl (vprintf_plain fmt h)

theorem printf_char {b : Byte} :
    callFn X (n + 1) .printf [.str "%c", .int .char (charVal X.e b)] ⟨heap, tick, stk, inp, out, room, text, log⟩ =
      .val (.int .int 1, ⟨heap, tick, stk, inp, out, room, text ++ [b], log⟩) := by
  have := printf_run (X := X) (n := n) (stk := stk) (inp := inp) (out := out) (text := text) (room := room)
    (heap := heap) (tick := tick) (log := log) (fmt := "%c") (vs := [.int .char (charVal X.e b)]) rfl (vprintf_char _)
  rwa [charVal_byte] at this

theorem printf_byte {b : Byte} :
    callFn X (n + 1) .printf [.str "%c", .int .uchar b.toNat] ⟨heap, tick, stk, inp, out, room, text, log⟩ =
      .val (.int .int 1, ⟨heap, tick, stk, inp, out, room, text ++ [b], log⟩) := by
  have := printf_run (X := X) (n := n) (stk := stk) (inp := inp) (out := out) (text := text) (room := room)
    (heap := heap) (tick := tick) (log := log) (fmt := "%c") (vs := [.int .uchar b.toNat]) rfl (vprintf_char _)
  rwa [BitVec.ofInt_natCast, BitVec.ofNat_toNat, BitVec.setWidth_eq] at this

theorem printf_hex {b : Byte} :
    callFn X (n + 1) .printf [.str "%x ", .int .uchar b.toNat] ⟨heap, tick, stk, inp, out, room, text, log⟩ =
      .val (.int .int (hex b ++ asc " ").length, ⟨heap, tick, stk, inp, out, room, text ++ (hex b ++ asc " "), log⟩) := by
  refine printf_run rfl ?_
  show vprintf ('%' :: 'x' :: ' ' :: []) [.int b.toNat] = _
  rw [vprintf, if_pos (Int.natCast_nonneg _)]
  rfl

theorem printIndent_run {level : Nat} {fmt : String} {vs : List V} {as : List CArg} {bs : List Byte}
    (ha : toArgs X.e vs = .val as) (hv : vprintf fmt.toList as = .val bs) :
    callFn X (n + 1) .IFF_printIndent (.file .out :: .int .uint level :: .str fmt :: vs)
        ⟨heap, tick, stk, inp, out, room, text, log⟩ =
      .val (.int .int bs.length, ⟨heap, tick, stk, inp, out, room, text ++ indent level bs, log⟩) := by
  rw [callFn_prim rfl]
  show printC X.e (List.replicate (2 * (level : Int).toNat) (BitVec.ofNat 8 32)) fmt vs _ = _
  simp only [printC, ha, hv, Int.toNat_natCast, indent_spaces, indent, List.append_assoc]

theorem indent_plain {level : Nat} {fmt : String} (h : '%' ∉ fmt.toList) :
    callFn X (n + 1) .IFF_printIndent [.file .out, .int .uint level, .str fmt]
        ⟨heap, tick, stk, inp, out, room, text, log⟩ =
      .val (.int .int (asc fmt).length, ⟨heap, tick, stk, inp, out, room, text ++ indent level (asc fmt), log⟩) :=
  printIndent_run rfl (vprintf_plain fmt h)

theorem indent_size {level : Nat} {x : Int} :
    callFn X (n + 1) .IFF_printIndent [.file .out, .int .uint level, .str "chunkSize = %d;\n", .int .int x]
        ⟨heap, tick, stk, inp, out, room, text, log⟩ =
      .val (.int .int (asc "chunkSize = " ++ decimal x ++ asc ";\n").length,
        ⟨heap, tick, stk, inp, out, room, text ++ indent level (asc "chunkSize = " ++ decimal x ++ asc ";\n"), log⟩) := by
  refine printIndent_run rfl ?_
  show vprintf ("chunkSize = ".toList ++ ('%' :: 'd' :: ";\n".toList)) [.int x] = _
  rw [vprintf_skip _ _ _ (by decide), vprintf, ← List.append_nil ";\n".toList, vprintf_skip _ _ _ (by decide), vprintf]
  simp only [Out.val_bind, List.append_nil, List.append_assoc]
  rfl

/-- `vprintf` of `name = %X;\n`. -/
theorem vprintf_field {name : String} (hn : '%' ∉ name.toList) {c : Char} {as : List CArg} {bs : List Byte}
    (h : vprintf ('%' :: c :: ";\n".toList) as = .val (bs ++ asc ";\n")) :
    vprintf (name.toList ++ (" = ".toList ++ ('%' :: c :: ";\n".toList))) as =
      .val (asc name ++ asc " = " ++ bs ++ asc ";\n") := by
  rw [vprintf_skip _ _ _ hn, vprintf_skip _ _ _ (by decide), h]
  simp only [Out.val_bind, List.append_assoc]
  rfl

theorem vprintf_end : vprintf ";\n".toList [] = .val (asc ";\n") := by
  rw [← List.append_nil ";\n".toList, vprintf_skip _ _ _ (by decide), vprintf]
  rfl

theorem vprintf_byte {v : BitVec 8} : vprintf ('%' :: 'c' :: ";\n".toList) [.int v.toNat] = .val ([v] ++ asc ";\n") := by
  rw [vprintf, vprintf_end]
  simp

theorem vprintf_word {v : BitVec 16} :
    vprintf ('%' :: 'u' :: ";\n".toList) [.int v.toNat] = .val (decimal v.toNat ++ asc ";\n") := by
  rw [vprintf, vprintf_end, if_pos (by omega)]
  rfl

theorem vprintf_long {v : Int} : vprintf ('%' :: 'd' :: ";\n".toList) [.int v] = .val (decimal v ++ asc ";\n") := by
  rw [vprintf, vprintf_end]
  rfl

theorem indent_name {level : Nat} {name : String} (hn : cString name = asc name) :
    callFn X (n + 1) .IFF_printIndent [.file .out, .int .uint level, .str "%s = '", .str name]
        ⟨heap, tick, stk, inp, out, room, text, log⟩ =
      .val (.int .int (asc name ++ asc " = '").length,
        ⟨heap, tick, stk, inp, out, room, text ++ indent level (asc name ++ asc " = '"), log⟩) := by
  refine printIndent_run rfl ?_
  show vprintf ('%' :: 's' :: " = '".toList) [.charPtr (cString name)] = _
  rw [vprintf, ← List.append_nil " = '".toList, vprintf_skip _ _ _ (by decide), vprintf, hn]
  simp only [Out.val_bind, List.append_nil]
  rfl

/-- id.c:74-83 -/
theorem printId_run {id : ID} :
    callFn X (n + 6) .IFF_printId [.int .uint id.toNat] ⟨heap, tick, stk, inp, out, room, text, log⟩ =
    .val (.void, ⟨heap, tick, stk, inp, out, room, text ++ printId id, log⟩) := by
  rw [callFn_code rfl]
  crun [IFF_printId.code, blkOf_stk stk_get0, scalarSize, ITy.bits, Ty.size, idToString_run,
    exec_for, whileN_succ, idToString, List.map, printf_char, List.append_assoc, List.cons_append,
    List.nil_append]
  rfl

/-- group.c:209-214 -/
theorem printGroupType_run {name : String} (hn : cString name = asc name) {ty : ID} {level : Nat}
    (hl : level < 4294967296) :
    callFn X (n + 7) .IFF_printGroupType [.str name, .int .uint ty.toNat, .int .uint level]
      ⟨heap, tick, stk, inp, out, room, text, log⟩ =
    .val (.void, ⟨heap, tick, stk, inp, out, room, text ++ printGroupType name ty level, log⟩) := by
  rw [callFn_code rfl]
  crun [IFF_printGroupType.code, nat_emod hl, toNat_emod, indent_name hn, printId_run,
    printf_plain (fmt := "';\n") (by decide), List.take_length]
  simp only [printGroupType, List.append_assoc]

/-- rawchunk.c:121-124 -/
theorem printTextLoop_run {m : Mem} {p d : Addr} {hd : Hdr} {B : Blk} (hp : m p = some (.raw hd d)) (hs : inInt hd.size)
    (hB : heapOf X.e m d = some B) (hBs : hd.size.toNat ≤ B.size) :
    ∀ {rem : List Byte} {i : Nat} {text : List Byte} (loc : Var → Slot), hd.size.toNat = i + rem.length →
      (∀ k b, rem[k]? = some b → B.cell (i + k) = .int .uchar b.toNat) →
      loc .i = .reg (.int .int) (.int .int i) →
      loc .rawChunk = .reg (.ptr (.struct .IFF_RawChunk)) (.ptr (.struct .IFF_RawChunk) ⟨.heap p, 0⟩) →
      ∃ loc', (∀ x, x ≠ .i → loc' x = loc x) ∧ ∀ n j, rem.length < j →
        whileN (evalC X (callFn X (n + 1)) (.bin .lt (.var .i) (.arrow (.var .rawChunk) .chunkSize)))
          (forBody X (callFn X (n + 1)) (n + 1)
            (.expr (.call (.fn .printf) (.cons (.str "%c") (.cons (.index (.arrow (.var .rawChunk) .chunkData) (.var .i)) .nil))))
            (.inc (.var .i))) j ⟨loc, ⟨heapOf X.e m, tick, stk, inp, out, room, text, log⟩⟩ =
          .val (.norm, ⟨loc', ⟨heapOf X.e m, tick, stk, inp, out, room, text ++ rem, log⟩⟩) := by
  have hb := heapOf_some (e := X.e) hp
  have hin : ∀ k : Nat, k ≤ hd.size.toNat → inInt k := by
    intro k hk; simp only [inInt] at *; omega
  intro rem
  induction rem with
  | nil =>
    intro i text loc hl hc hi hr
    refine ⟨loc, fun _ _ => rfl, fun n j hj => ?_⟩
    obtain ⟨j, rfl⟩ : ∃ j', j = j' + 1 := ⟨j - 1, by omega⟩
    rw [List.length_nil, Nat.add_zero] at hl
    rw [whileN_succ]
    crun [hi, hr, blkOf_heap hb, layout, hdrCells, List.cons_append, List.nil_append, wrapInt_of hs,
      wrapInt_of (hin i (by omega)), decide_eq_false (show ¬ (i : Int) < hd.size by omega), List.append_nil]
  | cons b rem ih =>
    intro i text loc hl hc hi hr
    rw [List.length_cons] at hl
    have hcell : B.cell i = .int .uchar b.toNat := hc 0 b rfl
    obtain ⟨loc', h1, h2⟩ := ih (i := i + 1) (text := text ++ [b]) (setLoc loc .i (.reg (.int .int) (.int .int ((i + 1 : Nat) : Int))))
      (by omega) (fun k b' hk => by
        have := hc (k + 1) b' (by simpa using hk)
        rwa [show i + (k + 1) = i + 1 + k by omega] at this)
      (by simp [setLoc]) (by simp [setLoc, hr])
    refine ⟨loc', fun x hx => by rw [h1 x hx]; simp [setLoc, hx], fun n j hj => ?_⟩
    obtain ⟨j, rfl⟩ : ∃ j', j = j' + 1 := ⟨j - 1, by omega⟩
    rw [List.length_cons] at hj
    have hw := h2 n j (by omega)
    rw [List.append_assoc] at hw
    have hii : inInt ((i + 1 : Nat) : Int) := hin (i + 1) (by omega)
    have hcast : ((i : Int) + 1) = ((i + 1 : Nat) : Int) := by omega
    have hBi : (i + 1) * 1 ≤ B.size := by omega
    rw [whileN_succ]
    crun [hi, hr, blkOf_heap hb, layout, hdrCells, List.cons_append, List.nil_append, wrapInt_of hs,
      wrapInt_of (hin i (by omega)), decide_eq_true (show (i : Int) < hd.size by omega), ↓forBody_obind,
      blkOf_heap hB, hBi, hcell, Int.natCast_nonneg, Int.toNat_natCast, scalarSize, ITy.bits, printf_byte,
      step_obind, hii, wrapInt_of hii, hcast, hw]

/-- rawchunk.c:115-129 -/
theorem printText_run {p : Addr} {level : Nat} {s s' : HX (List Byte)} (hm : Rep s.mem)
    (hl : level + 1 < 4294967296) (h : Heap.printText p level s = .val ((), s')) :
    s'.mem = s.mem ∧ Runs X .IFF_printText [.ptr (.struct .IFF_RawChunk) ⟨.heap p, 0⟩, .int .uint level]
      (sp X stk inp out room log s) .void (sp X stk inp out room log s') := by
  unfold Heap.printText at h
  obtain ⟨u, s1, h1, k1⟩ := bind_inv h
  clear h
  obtain rfl := put_inv h1
  obtain ⟨d, s2, h2, k2⟩ := bind_inv k1
  obtain ⟨rfl, hd, hp⟩ := hgetRaw h2
  obtain ⟨hd', s3, h3, k3⟩ := bind_inv k2
  obtain ⟨rfl, -, -, -, ⟨b, hb1, hb2⟩, -⟩ := hgetHdr (X := X) h3
  simp only at hp hb1
  rw [hp] at hb1; cases hb1; cases hb2
  obtain ⟨bs, s4, h4, k4⟩ := bind_inv k3
  obtain ⟨rfl, B, hB, hBs, hlen, hBc⟩ := hreadCells (X := X) h4
  obtain ⟨u, s5, h5, k5⟩ := bind_inv k4
  obtain rfl := put_inv h5
  obtain rfl := put_inv k5
  have hs : inInt hd.size := hm.hdr hp rfl
  refine ⟨rfl, bs.length + 3, fun n hn => ?_⟩
  obtain ⟨n, rfl⟩ : ∃ n', n = n' + 2 := ⟨n - 2, by omega⟩
  obtain ⟨loc', h6, h7⟩ := printTextLoop_run (X := X) (stk := stk) (inp := inp) (out := out) (room := room) (log := log) (tick := s.tick)
    (text := s.st ++ indent level (asc "text = '\n") ++ indent (level + 1) (asc "")) hp hs hB hBs (rem := bs) (i := 0)
    (setLoc (setLoc (setLoc (setLoc (setLoc (fun _ => .none) .indentLevel (.reg (.int .uint) (.int .uint level)))
      .chunk (.reg (.ptr (.struct .IFF_RawChunk)) (.ptr (.struct .IFF_RawChunk) ⟨.heap p, 0⟩)))
      .rawChunk (.reg (.ptr (.struct .IFF_RawChunk)) (.ptr (.struct .IFF_RawChunk) ⟨.heap p, 0⟩)))
      .i (.reg (.int .int) .undef)) .i (.reg (.int .int) (.int .int 0)))
    (by omega) (fun k b hk => by rw [Nat.zero_add]; exact hBc k b hk) (by simp [setLoc]) (by simp [setLoc])
  have hw := h7 n (n + 1) (by omega)
  have hlv : loc' .indentLevel = .reg (.int .uint) (.int .uint level) := by rw [h6 _ (by decide)]; simp [setLoc]
  rw [callFn_code rfl]
  crun [IFF_printText.code, nat_emod (show level < 4294967296 by omega), succ_emod hl, nat_emod hl,
    indent_plain (fmt := "text = '\n") (by decide), indent_plain (fmt := "") (by decide), ↓exec_for', hw, hlv,
    printf_plain (fmt := "\n") (by decide), indent_plain (fmt := "';\n") (by decide), List.take_length]
  simp only [sp, List.append_assoc]
  rfl

/-- rawchunk.c:139-154 -/
theorem printRawLoop_run {m : Mem} {p d : Addr} {hd : Hdr} {B : Blk} (hp : m p = some (.raw hd d)) (hs : inInt hd.size)
    (hB : heapOf X.e m d = some B) (hBs : hd.size.toNat ≤ B.size) {level : Nat} (hlv : level + 1 < 4294967296) :
    ∀ {rem : List Byte} {i : Nat} {text : List Byte} (loc : Var → Slot), hd.size.toNat = i + rem.length →
      (∀ k b, rem[k]? = some b → B.cell (i + k) = .int .uchar b.toNat) →
      loc .i = .reg (.int .int) (.int .int i) →
      loc .rawChunk = .reg (.ptr (.struct .IFF_RawChunk)) (.ptr (.struct .IFF_RawChunk) ⟨.heap p, 0⟩) →
      loc .indentLevel = .reg (.int .uint) (.int .uint level) →
      (∃ v, loc .byte = .reg (.int .uchar) v) →
      ∃ loc', loc' .indentLevel = .reg (.int .uint) (.int .uint level) ∧ ∀ n j, rem.length < j →
        whileN (evalC X (callFn X (n + 1)) (.bin .lt (.var .i) (.arrow (.var .rawChunk) .chunkSize)))
          (forBody X (callFn X (n + 1)) (n + 1)
            (.seq (.ite (.land (.bin .gt (.var .i) (.num .int 0)) (.bin .eq (.bin .mod (.var .i) (.num .int 10)) (.num .int 0)))
            (.seq (.expr (.call (.fn .printf) (.cons (.str "\n") .nil)))
              (.expr (.call (.fn .IFF_printIndent) (.cons (.stream .stdout) (.cons (.bin .add (.var .indentLevel) (.num .int 1)) (.cons (.str "") .nil))))))
            .skip)
          (.seq (.expr (.assign (.var .byte) (.index (.arrow (.var .rawChunk) .chunkData) (.var .i))))
          (.seq (.ite (.bin .le (.var .byte) (.num .int 15))
            (.expr (.call (.fn .printf) (.cons (.str "0") .nil)))
            .skip)
          (.expr (.call (.fn .printf) (.cons (.str "%x ") (.cons (.var .byte) .nil)))))))
            (.inc (.var .i))) j ⟨loc, ⟨heapOf X.e m, tick, stk, inp, out, room, text, log⟩⟩ =
          .val (.norm, ⟨loc', ⟨heapOf X.e m, tick, stk, inp, out, room, text ++ printRawLoop level i rem, log⟩⟩) := by
  have hb := heapOf_some (e := X.e) hp
  have hin : ∀ k : Nat, k ≤ hd.size.toNat → inInt k := by
    intro k hk; simp only [inInt] at *; omega
  intro rem
  induction rem with
  | nil =>
    intro i text loc hl hc hi hr hlv' hby
    refine ⟨loc, hlv', fun n j hj => ?_⟩
    obtain ⟨j, rfl⟩ : ∃ j', j = j' + 1 := ⟨j - 1, by omega⟩
    rw [List.length_nil, Nat.add_zero] at hl
    rw [whileN_succ]
    crun [hi, hr, blkOf_heap hb, layout, hdrCells, List.cons_append, List.nil_append, wrapInt_of hs,
      wrapInt_of (hin i (by omega)), decide_eq_false (show ¬ (i : Int) < hd.size by omega), printRawLoop, List.append_nil]
  | cons b rem ih =>
    intro i text loc hl hc hi hr hlv' hby
    obtain ⟨v, hby⟩ := hby
    rw [List.length_cons] at hl
    have hcell : B.cell i = .int .uchar b.toNat := hc 0 b rfl
    obtain ⟨loc', h1, h2⟩ := ih (i := i + 1) (text := text ++ ((if i > 0 ∧ i % 10 = 0 then asc "\n" ++ indent (level + 1) [] else []) ++
        (if b.toNat ≤ 0xf then asc "0" else []) ++ hex b ++ asc " "))
      (setLoc (setLoc loc .byte (.reg (.int .uchar) (.int .uchar b.toNat))) .i (.reg (.int .int) (.int .int ((i + 1 : Nat) : Int))))
      (by omega) (fun k b' hk => by
        have := hc (k + 1) b' (by simpa using hk)
        rwa [show i + (k + 1) = i + 1 + k by omega] at this)
      (by simp [setLoc]) (by simp [setLoc, hr]) (by simp [setLoc, hlv']) (by simp [setLoc])
    refine ⟨loc', h1, fun n j hj => ?_⟩
    obtain ⟨j, rfl⟩ : ∃ j', j = j' + 1 := ⟨j - 1, by omega⟩
    rw [List.length_cons] at hj
    have hw := h2 n j (by omega)
    have hii : inInt ((i + 1 : Nat) : Int) := hin (i + 1) (by omega)
    have hi0 : inInt (i : Int) := hin i (by omega)
    have hcast : ((i : Int) + 1) = ((i + 1 : Nat) : Int) := by omega
    have hBi : (i + 1) * 1 ≤ B.size := by omega
    have hmod : ((i : Int).tmod 10) = ((i % 10 : Nat) : Int) := by
      rw [Int.tmod_eq_emod_of_nonneg (by omega)]; omega
    have hmi : inInt ((i % 10 : Nat) : Int) := by simp only [inInt]; omega
    have hbi : inInt (b.toNat : Int) := by have := b.isLt; simp only [inInt]; omega
    have h10 : (10 : Int) ≠ 0 := by decide
    have hasc : asc "" = [] := rfl
    rw [whileN_succ, printRawLoop]
    by_cases c1 : i > 0
    · by_cases c2 : i % 10 = 0
      · have c2' : (((i % 10 : Nat) : Int) == 0) = true := by simp [c2]
        rw [if_pos ⟨c1, c2⟩] at hw ⊢
        by_cases c3 : b.toNat ≤ 0xf
        · rw [if_pos c3] at hw ⊢
          simp only [List.append_assoc, List.nil_append, List.append_nil] at hw
          crun [hi, hr, hlv', hby, blkOf_heap hb, layout, hdrCells, List.cons_append, List.nil_append, wrapInt_of hs,
            wrapInt_of hi0, decide_eq_true (show (i : Int) < hd.size by omega), ↓forBody_obind,
            decide_eq_true (show (0 : Int) < i by omega), c2', decide_eq_true (show (b.toNat : Int) ≤ 15 by omega), hmod, hmi, wrapInt_of hmi, h10, wrapInt_of hbi,
            printf_plain (fmt := "\n") (by decide), indent_plain (fmt := "") (by decide), printf_plain (fmt := "0") (by decide),
            nat_emod (show level < 4294967296 by omega), succ_emod hlv, nat_emod hlv, printf_hex, hasc, List.append_assoc,
            blkOf_heap hB, hBi, hcell, Int.natCast_nonneg, Int.toNat_natCast, scalarSize, ITy.bits, step_obind, hii,
            wrapInt_of hii, hcast, hw]
        · rw [if_neg c3] at hw ⊢
          simp only [List.append_assoc, List.nil_append, List.append_nil] at hw
          crun [hi, hr, hlv', hby, blkOf_heap hb, layout, hdrCells, List.cons_append, List.nil_append, wrapInt_of hs,
            wrapInt_of hi0, decide_eq_true (show (i : Int) < hd.size by omega), ↓forBody_obind,
            decide_eq_true (show (0 : Int) < i by omega), c2', decide_eq_false (show ¬ (b.toNat : Int) ≤ 15 by omega), hmod, hmi, wrapInt_of hmi, h10, wrapInt_of hbi,
            printf_plain (fmt := "\n") (by decide), indent_plain (fmt := "") (by decide), printf_plain (fmt := "0") (by decide),
            nat_emod (show level < 4294967296 by omega), succ_emod hlv, nat_emod hlv, printf_hex, hasc, List.append_assoc,
            blkOf_heap hB, hBi, hcell, Int.natCast_nonneg, Int.toNat_natCast, scalarSize, ITy.bits, step_obind, hii,
            wrapInt_of hii, hcast, hw]
      · have c2' : (((i % 10 : Nat) : Int) == 0) = false := by rw [beq_eq_false_iff_ne]; omega
        rw [if_neg (fun h => c2 h.2)] at hw ⊢
        by_cases c3 : b.toNat ≤ 0xf
        · rw [if_pos c3] at hw ⊢
          simp only [List.append_assoc, List.nil_append, List.append_nil] at hw
          crun [hi, hr, hlv', hby, blkOf_heap hb, layout, hdrCells, List.cons_append, List.nil_append, wrapInt_of hs,
            wrapInt_of hi0, decide_eq_true (show (i : Int) < hd.size by omega), ↓forBody_obind,
            decide_eq_true (show (0 : Int) < i by omega), c2', decide_eq_true (show (b.toNat : Int) ≤ 15 by omega), hmod, hmi, wrapInt_of hmi, h10, wrapInt_of hbi,
            printf_plain (fmt := "\n") (by decide), indent_plain (fmt := "") (by decide), printf_plain (fmt := "0") (by decide),
            nat_emod (show level < 4294967296 by omega), succ_emod hlv, nat_emod hlv, printf_hex, hasc, List.append_assoc,
            blkOf_heap hB, hBi, hcell, Int.natCast_nonneg, Int.toNat_natCast, scalarSize, ITy.bits, step_obind, hii,
            wrapInt_of hii, hcast, hw]
        · rw [if_neg c3] at hw ⊢
          simp only [List.append_assoc, List.nil_append, List.append_nil] at hw
          crun [hi, hr, hlv', hby, blkOf_heap hb, layout, hdrCells, List.cons_append, List.nil_append, wrapInt_of hs,
            wrapInt_of hi0, decide_eq_true (show (i : Int) < hd.size by omega), ↓forBody_obind,
            decide_eq_true (show (0 : Int) < i by omega), c2', decide_eq_false (show ¬ (b.toNat : Int) ≤ 15 by omega), hmod, hmi, wrapInt_of hmi, h10, wrapInt_of hbi,
            printf_plain (fmt := "\n") (by decide), indent_plain (fmt := "") (by decide), printf_plain (fmt := "0") (by decide),
            nat_emod (show level < 4294967296 by omega), succ_emod hlv, nat_emod hlv, printf_hex, hasc, List.append_assoc,
            blkOf_heap hB, hBi, hcell, Int.natCast_nonneg, Int.toNat_natCast, scalarSize, ITy.bits, step_obind, hii,
            wrapInt_of hii, hcast, hw]
    · rw [if_neg (fun h => c1 h.1)] at hw ⊢
      by_cases c3 : b.toNat ≤ 0xf
      · rw [if_pos c3] at hw ⊢
        simp only [List.append_assoc, List.nil_append, List.append_nil] at hw
        crun [hi, hr, hlv', hby, blkOf_heap hb, layout, hdrCells, List.cons_append, List.nil_append, wrapInt_of hs,
          wrapInt_of hi0, decide_eq_true (show (i : Int) < hd.size by omega), ↓forBody_obind,
          decide_eq_false (show ¬ (0 : Int) < i by omega), decide_eq_true (show (b.toNat : Int) ≤ 15 by omega), hmod, hmi, wrapInt_of hmi, h10, wrapInt_of hbi,
          printf_plain (fmt := "\n") (by decide), indent_plain (fmt := "") (by decide), printf_plain (fmt := "0") (by decide),
          nat_emod (show level < 4294967296 by omega), succ_emod hlv, nat_emod hlv, printf_hex, hasc, List.append_assoc,
          blkOf_heap hB, hBi, hcell, Int.natCast_nonneg, Int.toNat_natCast, scalarSize, ITy.bits, step_obind, hii,
          wrapInt_of hii, hcast, hw]
      · rw [if_neg c3] at hw ⊢
        simp only [List.append_assoc, List.nil_append, List.append_nil] at hw
        crun [hi, hr, hlv', hby, blkOf_heap hb, layout, hdrCells, List.cons_append, List.nil_append, wrapInt_of hs,
          wrapInt_of hi0, decide_eq_true (show (i : Int) < hd.size by omega), ↓forBody_obind,
          decide_eq_false (show ¬ (0 : Int) < i by omega), decide_eq_false (show ¬ (b.toNat : Int) ≤ 15 by omega), hmod, hmi, wrapInt_of hmi, h10, wrapInt_of hbi,
          printf_plain (fmt := "\n") (by decide), indent_plain (fmt := "") (by decide), printf_plain (fmt := "0") (by decide),
          nat_emod (show level < 4294967296 by omega), succ_emod hlv, nat_emod hlv, printf_hex, hasc, List.append_assoc,
          blkOf_heap hB, hBi, hcell, Int.natCast_nonneg, Int.toNat_natCast, scalarSize, ITy.bits, step_obind, hii,
          wrapInt_of hii, hcast, hw]

/-- rawchunk.c:131-158 -/
theorem printRaw_run {p : Addr} {level : Nat} {s s' : HX (List Byte)} (hm : Rep s.mem)
    (hl : level + 1 < 4294967296) (h : Heap.printRaw p level s = .val ((), s')) :
    s'.mem = s.mem ∧ Runs X .IFF_printRaw [.ptr (.struct .IFF_RawChunk) ⟨.heap p, 0⟩, .int .uint level]
      (sp X stk inp out room log s) .void (sp X stk inp out room log s') := by
  unfold Heap.printRaw at h
  obtain ⟨u, s1, h1, k1⟩ := bind_inv h
  clear h
  obtain rfl := put_inv h1
  obtain ⟨d, s2, h2, k2⟩ := bind_inv k1
  obtain ⟨rfl, hd, hp⟩ := hgetRaw h2
  obtain ⟨hd', s3, h3, k3⟩ := bind_inv k2
  obtain ⟨rfl, -, -, -, ⟨b, hb1, hb2⟩, -⟩ := hgetHdr (X := X) h3
  simp only at hp hb1
  rw [hp] at hb1; cases hb1; cases hb2
  obtain ⟨bs, s4, h4, k4⟩ := bind_inv k3
  obtain ⟨rfl, B, hB, hBs, hlen, hBc⟩ := hreadCells (X := X) h4
  obtain ⟨u, s5, h5, k5⟩ := bind_inv k4
  obtain rfl := put_inv h5
  obtain rfl := put_inv k5
  have hs : inInt hd.size := hm.hdr hp rfl
  refine ⟨rfl, bs.length + 3, fun n hn => ?_⟩
  obtain ⟨n, rfl⟩ : ∃ n', n = n' + 2 := ⟨n - 2, by omega⟩
  obtain ⟨loc', hlv, h7⟩ := printRawLoop_run (X := X) (stk := stk) (inp := inp) (out := out) (room := room) (log := log) (tick := s.tick)
    (text := s.st ++ indent level (asc "bytes = \n") ++ indent (level + 1) (asc "")) hp hs hB hBs hl (rem := bs) (i := 0)
    (setLoc (setLoc (setLoc (setLoc (setLoc (fun _ => .none) .indentLevel (.reg (.int .uint) (.int .uint level)))
      .rawChunk (.reg (.ptr (.struct .IFF_RawChunk)) (.ptr (.struct .IFF_RawChunk) ⟨.heap p, 0⟩)))
      .i (.reg (.int .int) .undef)) .byte (.reg (.int .uchar) .undef)) .i (.reg (.int .int) (.int .int 0)))
    (by omega) (fun k b hk => by rw [Nat.zero_add]; exact hBc k b hk) (by simp [setLoc]) (by simp [setLoc])
    (by simp [setLoc]) (by simp [setLoc])
  have hw := h7 n (n + 1) (by omega)
  rw [callFn_code rfl]
  crun [IFF_printRaw.code, nat_emod (show level < 4294967296 by omega), succ_emod hl, nat_emod hl,
    indent_plain (fmt := "bytes = \n") (by decide), indent_plain (fmt := "") (by decide), ↓exec_for', hw, hlv,
    printf_plain (fmt := "\n") (by decide), indent_plain (fmt := ";\n") (by decide), List.take_length]
  simp only [sp, List.append_assoc]
  rfl

/-- rawchunk.c:160-168 -/
theorem printRawChunk_run {q : Ptr} {p : Addr} {level : Nat} {s s' : HX (List Byte)} (hm : Rep s.mem)
    (hl : level + 1 < 4294967296) (h : Heap.printRawChunk p level s = .val ((), s')) :
    s'.mem = s.mem ∧ Runs X .IFF_printRawChunk [.ptr (.struct .IFF_Chunk) ⟨.heap p, 0⟩, .int .uint level,
      .ptr (.struct .IFF_ChunkRegistry) q]
      (sp X stk inp out room log s) .void (sp X stk inp out room log s') := by
  unfold Heap.printRawChunk at h
  obtain ⟨d, s2, h2, k2⟩ := bind_inv h
  clear h
  obtain ⟨rfl, hd, hp⟩ := hgetRaw h2
  obtain ⟨hd', s3, h3, k3⟩ := bind_inv k2
  obtain ⟨rfl, -, -, -, ⟨b, hb1, hb2⟩, -⟩ := hgetHdr (X := X) h3
  rw [hp] at hb1; cases hb1; cases hb2
  have hb := heapOf_some (e := X.e) hp
  by_cases hi : hd.id = idTEXT
  · rw [if_pos hi] at k3
    obtain ⟨hme, N, hN⟩ := printText_run (X := X) (stk := stk) (inp := inp) (out := out) (room := room) (log := log) hm hl k3
    refine ⟨hme, N + 7, fun n hn => ?_⟩
    obtain ⟨n, rfl⟩ : ∃ n', n = n' + 7 := ⟨n - 7, by omega⟩
    have hc := hN (n + 6) (by omega)
    rw [callFn_code rfl]
    crun [IFF_printRawChunk.code, blkOf_heap hb, layout, hdrCells, List.cons_append, List.nil_append, toNat_emod,
      ↓evalE_TEXT, uint_beq, decide_eq_true hi, nat_emod (show level < 4294967296 by omega), hc, List.take_length]
  · rw [if_neg hi] at k3
    obtain ⟨hme, N, hN⟩ := printRaw_run (X := X) (stk := stk) (inp := inp) (out := out) (room := room) (log := log) hm hl k3
    refine ⟨hme, N + 7, fun n hn => ?_⟩
    obtain ⟨n, rfl⟩ : ∃ n', n = n' + 7 := ⟨n - 7, by omega⟩
    have hc := hN (n + 6) (by omega)
    rw [callFn_code rfl]
    crun [IFF_printRawChunk.code, blkOf_heap hb, layout, hdrCells, List.cons_append, List.nil_append, toNat_emod,
      ↓evalE_TEXT, uint_beq, decide_eq_false hi, nat_emod (show level < 4294967296 by omega), hc, List.take_length]

/-- What is known about the printing of sub chunks; `K` bounds the nesting. -/
def PrintIH (X : Cfg) (q : Ptr) (inp out : List Byte) (room : Nat) (log : List ErrPrint) (K : Nat)
    (pc : ID → Nat → Addr → M (HX (List Byte)) Unit) : Prop :=
  ∀ {stk : List Blk} {ft : ID} {level : Nat} {c : Addr} {s s' : HX (List Byte)} {u : Unit}, Rep s.mem →
    level + K < 4294967296 → pc ft level c s = .val (u, s') → s'.mem = s.mem ∧
    Runs X .IFF_printChunk [.ptr (.struct .IFF_Chunk) ⟨.heap c, 0⟩, .int .uint level, .int .uint ft.toNat,
      .ptr (.struct .IFF_ChunkRegistry) q] (sp X stk inp out room log s) .void
      (sp X stk inp out room log s')

/-- group.c:222-223 -/
theorem printMembers_run {q : Ptr} {K : Nat} {pc : ID → Nat → Addr → M (HX (List Byte)) Unit}
    (IH : PrintIH X q inp out room log K pc) {p : Addr} {level : Nat} (hlv : level + 1 + K < 4294967296) {b : Block} {g : Grp} (hb2 : b.grp? = some g) :
    ∀ {k i : Nat} {s s' : HX (List Byte)} {u : Unit}, s.mem p = some b → Rep s.mem →
      Heap.printMembers pc p (level + 1) k i s = .val (u, s') → g.len = i + k →
      s'.mem = s.mem ∧ ∀ loc : Var → Slot,
        loc .i = .reg (.int .uint) (.int .uint i) →
        loc .group = .reg (.ptr (.struct .IFF_Group)) (.ptr (.struct .IFF_Group) ⟨.heap p, 0⟩) →
        loc .chunkRegistry = .reg (.ptr (.struct .IFF_ChunkRegistry)) (.ptr (.struct .IFF_ChunkRegistry) q) →
        loc .indentLevel = .reg (.int .uint) (.int .uint level) →
        ∃ loc' N, loc' .indentLevel = .reg (.int .uint) (.int .uint level) ∧
        ∀ n, N ≤ n → ∀ j, N ≤ j →
        whileN (evalC X (callFn X n) (.bin .lt (.var .i) (.arrow (.var .group) .chunkLength)))
          (forBody X (callFn X n) n
            (.expr (.call (.fn .IFF_printChunk) (.cons (.cast (.ptr (.struct .IFF_Chunk)) (.index (.arrow (.var .group) .chunk) (.var .i))) (.cons (.bin .add (.var .indentLevel) (.num .int 1)) (.cons (.arrow (.var .group) .groupType) (.cons (.var .chunkRegistry) .nil))))))
            (.inc (.var .i))) j ⟨loc, sp X stk inp out room log s⟩ =
          .val (.norm, ⟨loc', sp X stk inp out room log s'⟩) := by
  obtain ⟨hd, sz, rest, -, -, hz, hly, -⟩ := grp_layout X hb2
  intro k
  induction k with
  | zero =>
    intro i s s' u hb1 hm h hl
    have hb := heapOf_some (e := X.e) hb1
    rw [hly] at hb
    have hg := hm.grp hb1 hb2
    obtain ⟨-, rfl⟩ := pure_inv h
    refine ⟨rfl, fun loc hi hgr hr ha => ⟨loc, 1, ha, fun n hn j hj => ?_⟩⟩
    obtain ⟨j, rfl⟩ : ∃ j', j = j' + 1 := ⟨j - 1, by omega⟩
    rw [whileN_succ]
    crun [hi, hgr, hr, blkOf_heap hb, hz, nat_emod (show g.len < 4294967296 by omega),
      nat_emod (show i < 4294967296 by omega), decide_eq_false (show ¬ (i : Int) < g.len by omega), if_true]
  | succ k ih =>
    intro i s s' u hb1 hm h hl
    have hb := heapOf_some (e := X.e) hb1
    rw [hly] at hb
    have hg := hm.grp hb1 hb2
    unfold Heap.printMembers at h
    obtain ⟨g1, s1, h1, k1⟩ := bind_inv h
    clear h
    obtain ⟨rfl, -, -, -, -, -, ⟨b', hb1', -, hb2'⟩, -⟩ := hgetGrp (X := X) h1
    rw [hb1] at hb1'; cases hb1'
    rw [hb2] at hb2'; cases hb2'
    obtain ⟨c, s2, h2, k3⟩ := bind_inv k1
    obtain ⟨rfl, B, hB, hBs, hBc⟩ := hgetPtr (X := X) h2
    obtain ⟨u3, s3', h3, k4⟩ := bind_inv k3
    obtain ⟨hm3, N1, hN1⟩ := IH (stk := stk) hm (by omega) h3
    have hb1e := hb1
    rw [← hm3] at hb1e
    obtain ⟨hme, ih'⟩ := ih hb1e (by rw [hm3]; exact hm) k4 (by omega)
    refine ⟨hme.trans hm3, fun loc hi hgr hr ha => ?_⟩
    obtain ⟨loc', N2, hlo, hN2⟩ := ih' (setLoc loc .i (.reg (.int .uint) (.int .uint ((i + 1 : Nat) : Int))))
      (by simp [setLoc]) (by simp [setLoc, hgr]) (by simp [setLoc, hr]) (by simp [setLoc, ha])
    refine ⟨loc', max N1 N2 + 1, hlo, fun n hn j hj => ?_⟩
    obtain ⟨j, rfl⟩ : ∃ j', j = j' + 1 := ⟨j - 1, by omega⟩
    have hc := hN1 n (by omega)
    have hw := hN2 n (by omega) j (by omega)
    rw [whileN_succ]
    crun [hi, hgr, hr, ha, blkOf_heap hb, hz, nat_emod (show g.len < 4294967296 by omega),
      nat_emod (show i < 4294967296 by omega), decide_eq_true (show (i : Int) < g.len by omega), toNat_emod,
      nat_emod (show level < 4294967296 by omega), succ_emod (show level + 1 < 4294967296 by omega),
      nat_emod (show level + 1 < 4294967296 by omega),
      ↓forBody_obind, blkOf_heap hB, hBs, hBc, Int.natCast_nonneg, Int.toNat_natCast, scalarSize, hc,
      step_obind, succ_emod (show i + 1 < 4294967296 by omega),
      nat_emod (show i + 1 < 4294967296 by omega), hw]

/-- list.c:236-237 -/
theorem printProps_run {q : Ptr} {K : Nat} {pc : ID → Nat → Addr → M (HX (List Byte)) Unit}
    (IH : PrintIH X q inp out room log K pc) {p : Addr} {level : Nat} (hlv : level + 1 + K < 4294967296) {b : Block} {l : Lst} (hb2 : b.lst? = some l) :
    ∀ {k i : Nat} {s s' : HX (List Byte)} {u : Unit}, s.mem p = some b → Rep s.mem →
      Heap.printProps pc p (level + 1) k i s = .val (u, s') → l.plen = i + k →
      s'.mem = s.mem ∧ ∀ loc : Var → Slot,
        loc .i = .reg (.int .uint) (.int .uint i) →
        loc .list = .reg (.ptr (.struct .IFF_List)) (.ptr (.struct .IFF_List) ⟨.heap p, 0⟩) →
        loc .chunkRegistry = .reg (.ptr (.struct .IFF_ChunkRegistry)) (.ptr (.struct .IFF_ChunkRegistry) q) →
        loc .indentLevel = .reg (.int .uint) (.int .uint level) →
        ∃ loc' N, loc' .indentLevel = .reg (.int .uint) (.int .uint level) ∧
        ∀ n, N ≤ n → ∀ j, N ≤ j →
        whileN (evalC X (callFn X n) (.bin .lt (.var .i) (.arrow (.var .list) .propLength)))
          (forBody X (callFn X n) n
            (.expr (.call (.fn .IFF_printChunk) (.cons (.cast (.ptr (.struct .IFF_Chunk)) (.index (.arrow (.var .list) .prop) (.var .i))) (.cons (.bin .add (.var .indentLevel) (.num .int 1)) (.cons (.arrow (.var .list) .contentsType) (.cons (.var .chunkRegistry) .nil))))))
            (.inc (.var .i))) j ⟨loc, sp X stk inp out room log s⟩ =
          .val (.norm, ⟨loc', sp X stk inp out room log s'⟩) := by
  obtain ⟨hd, gg, -, hgg, hly, -⟩ := lst_layout X hb2
  intro k
  induction k with
  | zero =>
    intro i s s' u hb1 hm h hl
    have hb := heapOf_some (e := X.e) hb1
    rw [hly] at hb
    have hg := (hm.lst hb1 hb2)
    obtain ⟨-, rfl⟩ := pure_inv h
    refine ⟨rfl, fun loc hi hgr hr ha => ⟨loc, 1, ha, fun n hn j hj => ?_⟩⟩
    obtain ⟨j, rfl⟩ : ∃ j', j = j' + 1 := ⟨j - 1, by omega⟩
    rw [whileN_succ]
    crun [hi, hgr, hr, blkOf_heap hb, nat_emod (show l.plen < 4294967296 by omega),
      nat_emod (show i < 4294967296 by omega), decide_eq_false (show ¬ (i : Int) < l.plen by omega), if_true]
  | succ k ih =>
    intro i s s' u hb1 hm h hl
    have hb := heapOf_some (e := X.e) hb1
    rw [hly] at hb
    have hg := (hm.lst hb1 hb2)
    unfold Heap.printProps at h
    obtain ⟨g1, s1, h1, k1⟩ := bind_inv h
    clear h
    obtain ⟨rfl, -, -, ⟨b', hb1', -, -, hb2'⟩, -⟩ := hgetLst (X := X) h1
    rw [hb1] at hb1'; cases hb1'
    rw [hb2] at hb2'; cases hb2'
    obtain ⟨c, s2, h2, k2⟩ := bind_inv k1
    obtain ⟨rfl, B, hB, hBs, hBc⟩ := hgetPtr (X := X) h2
    obtain ⟨g2, s3, h4, k3⟩ := bind_inv k2
    obtain ⟨rfl, -, -, -, -, -, ⟨b', hb1', -, hb2'⟩, -⟩ := hgetGrp (X := X) h4
    rw [hb1] at hb1'; cases hb1'
    rw [hgg] at hb2'; cases hb2'
    obtain ⟨u3, s3', h3, k4⟩ := bind_inv k3
    obtain ⟨hm3, N1, hN1⟩ := IH (stk := stk) hm (by omega) h3
    have hb1e := hb1
    rw [← hm3] at hb1e
    obtain ⟨hme, ih'⟩ := ih hb1e (by rw [hm3]; exact hm) k4 (by omega)
    refine ⟨hme.trans hm3, fun loc hi hgr hr ha => ?_⟩
    obtain ⟨loc', N2, hlo, hN2⟩ := ih' (setLoc loc .i (.reg (.int .uint) (.int .uint ((i + 1 : Nat) : Int))))
      (by simp [setLoc]) (by simp [setLoc, hgr]) (by simp [setLoc, hr]) (by simp [setLoc, ha])
    refine ⟨loc', max N1 N2 + 1, hlo, fun n hn j hj => ?_⟩
    obtain ⟨j, rfl⟩ : ∃ j', j = j' + 1 := ⟨j - 1, by omega⟩
    have hc := hN1 n (by omega)
    have hw := hN2 n (by omega) j (by omega)
    rw [whileN_succ]
    crun [hi, hgr, hr, ha, blkOf_heap hb, nat_emod (show l.plen < 4294967296 by omega),
      nat_emod (show i < 4294967296 by omega), decide_eq_true (show (i : Int) < l.plen by omega), toNat_emod,
      nat_emod (show level < 4294967296 by omega), succ_emod (show level + 1 < 4294967296 by omega),
      nat_emod (show level + 1 < 4294967296 by omega),
      ↓forBody_obind, blkOf_heap hB, hBs, hBc, Int.natCast_nonneg, Int.toNat_natCast, scalarSize, hc,
      step_obind, succ_emod (show i + 1 < 4294967296 by omega),
      nat_emod (show i + 1 < 4294967296 by omega), hw]

/-- group.c:216-226 -/
theorem printGroupSubChunks_run {q : Ptr} {K : Nat} {pc : ID → Nat → Addr → M (HX (List Byte)) Unit}
    (IH : PrintIH X q inp out room log K pc) {p : Addr} {level : Nat} (hlv : level + 1 + K < 4294967296)
    {s s' : HX (List Byte)} {u : Unit} (hm : Rep s.mem)
    (h : Heap.printGroupSubChunks pc p level s = .val (u, s')) :
    s'.mem = s.mem ∧ Runs X .IFF_printGroupSubChunks [.ptr (.struct .IFF_Group) ⟨.heap p, 0⟩, .int .uint level,
      .ptr (.struct .IFF_ChunkRegistry) q] (sp X stk inp out room log s) .void (sp X stk inp out room log s') := by
  unfold Heap.printGroupSubChunks at h
  obtain ⟨u1, s1, h1, k1⟩ := bind_inv h
  clear h
  obtain rfl := put_inv h1
  obtain ⟨g, s2, h2, k2⟩ := bind_inv k1
  obtain ⟨rfl, -, -, -, -, -, ⟨b, hb1, -, hb2⟩, -⟩ := hgetGrp (X := X) h2
  obtain ⟨u3, s3, h3, k3⟩ := bind_inv k2
  obtain rfl := put_inv k3
  obtain ⟨hme, hl⟩ := printMembers_run (stk := stk) (s := ⟨s.mem, s.tick, s.st ++ indent level (asc "[\n")⟩) IH hlv hb2 hb1 hm h3 (by omega)
  refine ⟨hme, ?_⟩
  obtain ⟨loc', N, hlo, hN⟩ := hl
    (setLoc (setLoc (setLoc (setLoc (setLoc (fun _ => .none)
    .chunkRegistry (.reg (.ptr (.struct .IFF_ChunkRegistry)) (.ptr (.struct .IFF_ChunkRegistry) q)))
    .indentLevel (.reg (.int .uint) (.int .uint level)))
    .group (.reg (.ptr (.struct .IFF_Group)) (.ptr (.struct .IFF_Group) ⟨.heap p, 0⟩)))
    .i (.reg (.int .uint) .undef)) .i (.reg (.int .uint) (.int .uint 0)))
    (by simp [setLoc]) (by simp [setLoc]) (by simp [setLoc]) (by simp [setLoc])
  refine ⟨N + 2, fun n hn => ?_⟩
  obtain ⟨n, rfl⟩ : ∃ n', n = n' + 2 := ⟨n - 2, by omega⟩
  have hw := hN (n + 1) (by omega) (n + 1) (by omega)
  rw [callFn_code rfl]
  crun [IFF_printGroupSubChunks.code, nat_emod (show level < 4294967296 by omega), indent_plain (fmt := "[\n") (by decide),
    ↓exec_for', hw, hlo, indent_plain (fmt := "];\n") (by decide), List.take_length]

/-- list.c:230-240 -/
theorem printListPropChunks_run {q : Ptr} {K : Nat} {pc : ID → Nat → Addr → M (HX (List Byte)) Unit}
    (IH : PrintIH X q inp out room log K pc) {p : Addr} {level : Nat} (hlv : level + 1 + K < 4294967296)
    {s s' : HX (List Byte)} {u : Unit} (hm : Rep s.mem)
    (h : Heap.printListPropChunks pc p level s = .val (u, s')) :
    s'.mem = s.mem ∧ Runs X .printListPropChunks [.ptr (.struct .IFF_List) ⟨.heap p, 0⟩, .int .uint level,
      .ptr (.struct .IFF_ChunkRegistry) q] (sp X stk inp out room log s) .void (sp X stk inp out room log s') := by
  unfold Heap.printListPropChunks at h
  obtain ⟨u1, s1, h1, k1⟩ := bind_inv h
  clear h
  obtain rfl := put_inv h1
  obtain ⟨g, s2, h2, k2⟩ := bind_inv k1
  obtain ⟨rfl, -, -, ⟨b, hb1, -, -, hb2⟩, -⟩ := hgetLst (X := X) h2
  obtain ⟨u3, s3, h3, k3⟩ := bind_inv k2
  obtain rfl := put_inv k3
  obtain ⟨hme, hl⟩ := printProps_run (stk := stk) (s := ⟨s.mem, s.tick, s.st ++ indent level (asc "prop = [\n")⟩) IH hlv hb2 hb1 hm h3 (by omega)
  refine ⟨hme, ?_⟩
  obtain ⟨loc', N, hlo, hN⟩ := hl
    (setLoc (setLoc (setLoc (setLoc (setLoc (fun _ => .none)
    .chunkRegistry (.reg (.ptr (.struct .IFF_ChunkRegistry)) (.ptr (.struct .IFF_ChunkRegistry) q)))
    .indentLevel (.reg (.int .uint) (.int .uint level)))
    .list (.reg (.ptr (.struct .IFF_List)) (.ptr (.struct .IFF_List) ⟨.heap p, 0⟩)))
    .i (.reg (.int .uint) .undef)) .i (.reg (.int .uint) (.int .uint 0)))
    (by simp [setLoc]) (by simp [setLoc]) (by simp [setLoc]) (by simp [setLoc])
  refine ⟨N + 2, fun n hn => ?_⟩
  obtain ⟨n, rfl⟩ : ∃ n', n = n' + 2 := ⟨n - 2, by omega⟩
  have hw := hN (n + 1) (by omega) (n + 1) (by omega)
  rw [callFn_code rfl]
  crun [printListPropChunks.code, nat_emod (show level < 4294967296 by omega), indent_plain (fmt := "prop = [\n") (by decide),
    ↓exec_for', hw, hlo, indent_plain (fmt := "];\n") (by decide), List.take_length]

/-- group.c:228-232 -/
theorem printGroup_run {q : Ptr} {K : Nat} {pc : ID → Nat → Addr → M (HX (List Byte)) Unit}
    (IH : PrintIH X q inp out room log K pc) {name : String} (hn : cString name = asc name)
    {p : Addr} {level : Nat} (hlv : level + 1 + K < 4294967296)
    {s s' : HX (List Byte)} {u : Unit} (hm : Rep s.mem)
    (h : Heap.printGroup pc name p level s = .val (u, s')) :
    s'.mem = s.mem ∧ Runs X .IFF_printGroup [.ptr (.struct .IFF_Group) ⟨.heap p, 0⟩, .int .uint level, .str name,
      .ptr (.struct .IFF_ChunkRegistry) q] (sp X stk inp out room log s) .void (sp X stk inp out room log s') := by
  unfold Heap.printGroup at h
  obtain ⟨g, s1, h1, k1⟩ := bind_inv h
  clear h
  obtain ⟨rfl, hd, sz, rest, hz1, hz, -, hb⟩ := hgetGrp (X := X) h1
  obtain ⟨u1, s2, h2, k2⟩ := bind_inv k1
  obtain rfl := put_inv h2
  obtain ⟨hme, N, hN⟩ := printGroupSubChunks_run (stk := stk) (s := ⟨s1.mem, s1.tick, s1.st ++ printGroupType name g.ty level⟩) IH hlv hm k2
  refine ⟨hme, N + 8, fun n hn' => ?_⟩
  obtain ⟨n, rfl⟩ : ∃ n', n = n' + 8 := ⟨n - 8, by omega⟩
  have hc := hN (n + 7) (by omega)
  rw [callFn_code rfl]
  crun [IFF_printGroup.code, blkOf_heap hb, hz, toNat_emod, nat_emod (show level < 4294967296 by omega),
    printGroupType_run hn (show level < 4294967296 by omega), hc, List.take_length]

/-- list.c:242-249 -/
theorem printList_run {q : Ptr} {K : Nat} {pc : ID → Nat → Addr → M (HX (List Byte)) Unit}
    (IH : PrintIH X q inp out room log K pc) {p : Addr} {level : Nat} (hlv : level + 1 + K < 4294967296)
    {s s' : HX (List Byte)} {u : Unit} (hm : Rep s.mem)
    (h : Heap.printList pc p level s = .val (u, s')) :
    s'.mem = s.mem ∧ Runs X .IFF_printList [.ptr (.struct .IFF_Chunk) ⟨.heap p, 0⟩, .int .uint level,
      .ptr (.struct .IFF_ChunkRegistry) q] (sp X stk inp out room log s) .void (sp X stk inp out room log s') := by
  unfold Heap.printList at h
  obtain ⟨l, s0, h0, k0⟩ := bind_inv h
  clear h
  obtain ⟨rfl, hd, g, ⟨b, hb1, -, hb2, hb3⟩, hb⟩ := hgetLst (X := X) h0
  obtain ⟨g', s1, h1, k1⟩ := bind_inv k0
  obtain ⟨rfl, -, -, -, -, -, ⟨b', hb1', -, hb2'⟩, -⟩ := hgetGrp (X := X) h1
  rw [hb1] at hb1'; cases hb1'
  rw [hb2] at hb2'; cases hb2'
  obtain ⟨u1, s2, h2, k2⟩ := bind_inv k1
  obtain rfl := put_inv h2
  obtain ⟨u3, s3, h3, k3⟩ := bind_inv k2
  obtain ⟨hm3, N, hN⟩ := printListPropChunks_run (stk := stk) (s := ⟨s1.mem, s1.tick, s1.st ++ printGroupType "contentsType" g.ty level⟩) IH hlv hm h3
  obtain ⟨hm4, N2, hN2⟩ := printGroupSubChunks_run (stk := stk) IH hlv (by rw [hm3]; exact hm) k3
  refine ⟨hm4.trans hm3, max N N2 + 8, fun n hn' => ?_⟩
  obtain ⟨n, rfl⟩ : ∃ n', n = n' + 8 := ⟨n - 8, by omega⟩
  have hc := hN (n + 7) (by omega)
  have hc2 := hN2 (n + 7) (by omega)
  rw [callFn_code rfl]
  crun [IFF_printList.code, blkOf_heap hb, toNat_emod, nat_emod (show level < 4294967296 by omega),
    printGroupType_run (name := "contentsType") (by decide) (show level < 4294967296 by omega), hc, hc2, List.take_length]

/-- form.c:184-187 -/
theorem print_form {q : Ptr} {p : Addr} {level : Nat} (hlv : level < 4294967296) {g g' : CS}
    (h : Runs X .IFF_printGroup [.ptr (.struct .IFF_Group) ⟨.heap p, 0⟩, .int .uint level, .str "formType", .ptr (.struct .IFF_ChunkRegistry) q] g .void g') (hl : g'.stk.length = g.stk.length) :
    Runs X .IFF_printForm [.ptr (.struct .IFF_Chunk) ⟨.heap p, 0⟩, .int .uint level,
      .ptr (.struct .IFF_ChunkRegistry) q] g .void g' := by
  obtain ⟨N, hN⟩ := h
  refine ⟨N + 1, fun n hn => ?_⟩
  obtain ⟨n, rfl⟩ : ∃ n', n = n' + 1 := ⟨n - 1, by omega⟩
  have hc := hN n (by omega)
  obtain ⟨heap, tick, stk, inp, out, room, text, log⟩ := g
  obtain ⟨heap', tick', stk', inp', out', room', text', log'⟩ := g'
  simp only at hl
  rw [callFn_code rfl]
  crun [IFF_printForm.code, FORM_GROUPTYPENAME, nat_emod hlv, hc, ← hl, List.take_length]

/-- cat.c:132-135 -/
theorem print_cat {q : Ptr} {p : Addr} {level : Nat} (hlv : level < 4294967296) {g g' : CS}
    (h : Runs X .IFF_printGroup [.ptr (.struct .IFF_Group) ⟨.heap p, 0⟩, .int .uint level, .str "contentsType", .ptr (.struct .IFF_ChunkRegistry) q] g .void g') (hl : g'.stk.length = g.stk.length) :
    Runs X .IFF_printCAT [.ptr (.struct .IFF_Chunk) ⟨.heap p, 0⟩, .int .uint level,
      .ptr (.struct .IFF_ChunkRegistry) q] g .void g' := by
  obtain ⟨N, hN⟩ := h
  refine ⟨N + 1, fun n hn => ?_⟩
  obtain ⟨n, rfl⟩ : ∃ n', n = n' + 1 := ⟨n - 1, by omega⟩
  have hc := hN n (by omega)
  obtain ⟨heap, tick, stk, inp, out, room, text, log⟩ := g
  obtain ⟨heap', tick', stk', inp', out', room', text', log'⟩ := g'
  simp only at hl
  rw [callFn_code rfl]
  crun [IFF_printCAT.code, CAT_GROUPTYPENAME, nat_emod hlv, hc, ← hl, List.take_length]

/-- prop.c:91-94 -/
theorem print_prop {q : Ptr} {p : Addr} {level : Nat} (hlv : level < 4294967296) {g g' : CS}
    (h : Runs X .IFF_printForm [.ptr (.struct .IFF_Chunk) ⟨.heap p, 0⟩, .int .uint level, .ptr (.struct .IFF_ChunkRegistry) q] g .void g') (hl : g'.stk.length = g.stk.length) :
    Runs X .IFF_printProp [.ptr (.struct .IFF_Chunk) ⟨.heap p, 0⟩, .int .uint level,
      .ptr (.struct .IFF_ChunkRegistry) q] g .void g' := by
  obtain ⟨N, hN⟩ := h
  refine ⟨N + 1, fun n hn => ?_⟩
  obtain ⟨n, rfl⟩ : ∃ n', n = n' + 1 := ⟨n - 1, by omega⟩
  have hc := hN n (by omega)
  obtain ⟨heap, tick, stk, inp, out, room, text, log⟩ := g
  obtain ⟨heap', tick', stk', inp', out', room', text', log'⟩ := g'
  simp only at hl
  rw [callFn_code rfl]
  crun [IFF_printProp.code, nat_emod hlv, hc, ← hl, List.take_length]

/-- tests/hello.c:99-106 -/
theorem printHello_run {q : Ptr} {p : Addr} {level : Nat} (hlv : level < 4294967296) {s s' : HX (List Byte)} {u : Unit}
    (h : Heap.printExt [⟨"a", .ubyte⟩, ⟨"b", .ubyte⟩, ⟨"c", .uword⟩] p level s = .val (u, s')) : s'.mem = s.mem ∧
    callFn X (n + 2) .TEST_printHello [.ptr (.struct .IFF_Chunk) ⟨.heap p, 0⟩, .int .uint level,
      .ptr (.struct .IFF_ChunkRegistry) q] (sp X stk inp out room log s) = .val (.void, sp X stk inp out room log s') := by
  unfold Heap.printExt at h
  obtain ⟨vals, s1, h1, k1⟩ := bind_inv h
  clear h
  obtain ⟨rfl, hd, hm, hk⟩ := hgetExt h1
  obtain rfl := put_inv k1
  obtain ⟨a, b, c, rfl, g⟩ := hello_at (X := X) hm hk
  refine ⟨rfl, ?_⟩
  have ha := fun text => @printIndent_run X stk inp out text room (n) (heapOf X.e s1.mem) s1.tick log level "a = %c;\n"
    [.int .uchar a.toNat] _ _ rfl (vprintf_field (name := "a") (by decide) (vprintf_byte (v := a)))
  have hb := fun text => @printIndent_run X stk inp out text room (n) (heapOf X.e s1.mem) s1.tick log level "b = %c;\n"
    [.int .uchar b.toNat] _ _ rfl (vprintf_field (name := "b") (by decide) (vprintf_byte (v := b)))
  have hc := fun text => @printIndent_run X stk inp out text room (n) (heapOf X.e s1.mem) s1.tick log level "c = %u;\n"
    [.int .ushort c.toNat] _ _ rfl (vprintf_field (name := "c") (by decide) (vprintf_word (v := c)))
  rw [callFn_code rfl]
  crun [TEST_printHello.code, find_Hello_a, find_Hello_b, find_Hello_c, nat_emod hlv, blkOf_heap g, ha, hb, hc, List.take_length]
  simp only [Iff.printExt, printVal, List.append_assoc, List.append_nil]

/-- tests/bye.c:84-90 -/
theorem printBye_run {q : Ptr} {p : Addr} {level : Nat} (hlv : level < 4294967296) {s s' : HX (List Byte)} {u : Unit}
    (h : Heap.printExt [⟨"one", .long⟩, ⟨"two", .long⟩] p level s = .val (u, s')) : s'.mem = s.mem ∧
    callFn X (n + 2) .TEST_printBye [.ptr (.struct .IFF_Chunk) ⟨.heap p, 0⟩, .int .uint level,
      .ptr (.struct .IFF_ChunkRegistry) q] (sp X stk inp out room log s) = .val (.void, sp X stk inp out room log s') := by
  unfold Heap.printExt at h
  obtain ⟨vals, s1, h1, k1⟩ := bind_inv h
  clear h
  obtain ⟨rfl, hd, hm, hk⟩ := hgetExt h1
  obtain rfl := put_inv k1
  obtain ⟨a, b, rfl, g⟩ := bye_at (X := X) hm hk
  refine ⟨rfl, ?_⟩
  have ha := fun text => @printIndent_run X stk inp out text room (n) (heapOf X.e s1.mem) s1.tick log level "one = %d;\n"
    [.int .int a.toInt] _ _ rfl (vprintf_field (name := "one") (by decide) vprintf_long)
  have hb := fun text => @printIndent_run X stk inp out text room (n) (heapOf X.e s1.mem) s1.tick log level "two = %d;\n"
    [.int .int b.toInt] _ _ rfl (vprintf_field (name := "two") (by decide) vprintf_long)
  rw [callFn_code rfl]
  crun [TEST_printBye.code, find_Bye_one, find_Bye_two, nat_emod hlv, blkOf_heap g, ha, hb, List.take_length]
  simp only [Iff.printExt, printVal, List.append_assoc, List.append_nil]

/-- chunk.c:115-125 -/
theorem printChunk_run {q : Ptr} {r : Registry} (hr : RegAt X q r) : ∀ {k : Nat},
    PrintIH X q inp out room log k (Heap.printChunk r k) := by
  intro k
  induction k with
  | zero => intro stk ft level c s s' u _ _ h; cases h
  | succ k ih =>
    intro stk ft level c s s' u hm hlv h
    unfold Heap.printChunk at h
    obtain ⟨hd, s1, h1, k1⟩ := bind_inv h
    clear h
    obtain ⟨rfl, sz, rest, hz, ⟨b, hb1, hb2⟩, hb⟩ := hgetHdr (X := X) h1
    have hs := hm.hdr hb1 hb2
    obtain ⟨u2, s2, h2, k2⟩ := bind_inv k1
    obtain rfl := put_inv h2
    generalize htx : s1.st ++ (indent level (asc "'") ++ printId hd.id ++ asc "' = {\n" ++
      indent (level + 1) (asc "chunkSize = " ++ decimal hd.size ++ asc ";\n")) = tx at k2
    obtain ⟨fns, hf, hfind⟩ := find_run hr ft hd.id
    have key : ∃ s3 : HX (List Byte), s' = ⟨s3.mem, s3.tick, s3.st ++ indent level (asc "}\n\n")⟩ ∧
        ∃ f, fns[5]? = some f ∧ s3.mem = s1.mem ∧ Runs X f [
        .ptr (.struct .IFF_Chunk) ⟨.heap c, 0⟩, .int .uint level, .ptr (.struct .IFF_ChunkRegistry) q]
        (sp X stk inp out room log ⟨s1.mem, s1.tick, tx⟩) .void (sp X stk inp out room log s3) := by
      cases hh : findChunkType r ft hd.id <;> simp only [hh] at k2 hf <;> cases hf <;>
        obtain ⟨u3, s3, h3, k3⟩ := bind_inv k2 <;>
        refine ⟨s3, put_inv k3, _, rfl, ?_⟩
      · exact printRawChunk_run (s := ⟨s1.mem, s1.tick, tx⟩) hm (by omega) h3
      · obtain ⟨ha, hc⟩ := printGroup_run (stk := stk) (s := ⟨s1.mem, s1.tick, tx⟩) ih (by decide) (by omega) hm h3
        exact ⟨ha, print_form (by omega) hc rfl⟩
      · obtain ⟨ha, hc⟩ := printGroup_run (stk := stk) (s := ⟨s1.mem, s1.tick, tx⟩) ih (by decide) (by omega) hm h3
        exact ⟨ha, print_cat (by omega) hc rfl⟩
      · exact printList_run (stk := stk) (s := ⟨s1.mem, s1.tick, tx⟩) ih (by omega) hm h3
      · obtain ⟨ha, hc⟩ := printGroup_run (stk := stk) (s := ⟨s1.mem, s1.tick, tx⟩) ih (by decide) (by omega) hm h3
        exact ⟨ha, print_prop (by omega) (print_form (by omega) hc rfl) rfl⟩
      · refine ⟨(printHello_run (X := X) (n := 0) (q := q) (stk := stk) (inp := inp) (out := out) (room := room) (log := log) (s := ⟨s1.mem, s1.tick, tx⟩) (by omega) h3).1, 2, fun n hn => ?_⟩
        obtain ⟨n, rfl⟩ : ∃ n', n = n' + 2 := ⟨n - 2, by omega⟩
        exact (printHello_run (s := ⟨s1.mem, s1.tick, tx⟩) (by omega) h3).2
      · refine ⟨(printBye_run (X := X) (n := 0) (q := q) (stk := stk) (inp := inp) (out := out) (room := room) (log := log) (s := ⟨s1.mem, s1.tick, tx⟩) (by omega) h3).1, 2, fun n hn => ?_⟩
        obtain ⟨n, rfl⟩ : ∃ n', n = n' + 2 := ⟨n - 2, by omega⟩
        exact (printBye_run (s := ⟨s1.mem, s1.tick, tx⟩) (by omega) h3).2
    obtain ⟨s3, rfl, f, hf2, hme, N, hN⟩ := key
    refine ⟨hme, max N (Registry.depth r + 4) + 8, fun n hn => ?_⟩
    obtain ⟨n, rfl⟩ : ∃ n', n = n' + 8 := ⟨n - 8, by omega⟩
    have hcl := hN (n + 7) (by omega)
    obtain ⟨kk, jj, B, hq2, hi, hmo, hfs⟩ := hfind (sp X stk inp out room log s1) (n + 7) (by omega)
    have hcell := hfs 5 f hf2
    have hmo := hmo .printExtensionChunk 6 rfl
    subst htx
    simp only [sp, List.append_assoc] at hcl
    rw [callFn_code rfl]
    crun [IFF_printChunk.code, blkOf_heap hb, hz, toNat_emod, wrapInt_of hs, nat_emod (show level < 4294967296 by omega),
      succ_emod (show level + 1 < 4294967296 by omega), nat_emod (show level + 1 < 4294967296 by omega),
      hq2, indent_plain (fmt := "'") (by decide), printId_run, printf_plain (fmt := "' = {\n") (by decide), indent_size,
      List.append_assoc, hmo, blkOf_static hi, hcell, hcl, indent_plain (fmt := "}\n\n") (by decide), List.take_length]

/-- iff.c:142-145 -/
theorem print_run (hX : X.Linked) {reg : Option Registry} {q : Ptr} (hq : RegArg X reg q)
    {k level : Nat} (hlv : level + k < 4294967296) {p : Addr} {s s' : HX (List Byte)} {u : Unit} (hm : Rep s.mem)
    (h : Heap.print reg k level p s = .val (u, s')) : s'.mem = s.mem ∧
    Runs X .IFF_print [.ptr (.struct .IFF_Chunk) ⟨.heap p, 0⟩, .int .uint level, .ptr (.struct .IFF_ChunkRegistry) q]
      (sp X stk inp out room log s) .void (sp X stk inp out room log s') := by
  unfold Heap.print at h
  obtain ⟨q', hr, hsel⟩ := select_run hX hq
  obtain ⟨hme, N, hN⟩ := printChunk_run (stk := stk) (inp := inp) (out := out) (room := room) (log := log) hr hm hlv h
  have hN' : ∀ n, N ≤ n → callFn X n .IFF_printChunk [.ptr (.struct .IFF_Chunk) ⟨.heap p, 0⟩, .int .uint level,
      .int .int 0, .ptr (.struct .IFF_ChunkRegistry) q'] (sp X stk inp out room log s) =
      .val (.void, sp X stk inp out room log s') := fun n hn => by
    rw [← hN n hn]; exact callFn_args rfl rfl
  refine ⟨hme, N + 2, fun n hn => ?_⟩
  obtain ⟨n, rfl⟩ : ∃ n', n = n' + 2 := ⟨n - 2, by omega⟩
  have hr := hN' (n + 1) (by omega)
  rw [callFn_code rfl]
  crun [IFF_print.code, nat_emod (show level < 4294967296 by omega), hsel, hr, List.take_length]

mutual

/-- Every level of nesting takes a header. -/
theorem depth_le_length : ∀ c : Chunk, Spec.depth c ≤ (Spec.encode c).length
  | .raw _ _ _ => by simp only [Spec.depth, Spec.encode, List.length_append, header_length]; omega
  | .ext _ _ _ => by simp only [Spec.depth, Spec.encode, List.length_append, header_length]; omega
  | .grp _ _ _ subs => by
    have := depthAll_le_length subs
    simp only [Spec.depth, Spec.encode, List.length_append, header_length]; omega
  | .lst _ _ _ subs props => by
    have := depthAll_le_length subs
    have := depthAll_le_length props
    simp only [Spec.depth, Spec.encode, List.length_append, header_length]; omega

theorem depthAll_le_length : ∀ cs : List Chunk, Spec.depthAll cs ≤ (Spec.encodeAll cs).length
  | [] => by simp [Spec.depthAll]
  | c :: cs => by
    have := depth_le_length c
    have := depthAll_le_length cs
    simp only [Spec.depthAll, Spec.encodeAll, List.length_append]; omega

end

end
end Iff.Src
