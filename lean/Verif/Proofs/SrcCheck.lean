import Verif.Proofs.SrcWriteIo
import Verif.Heap.Check
/-
  Checking of hierarchies: id.c:45-72, chunk.c:97-106, group.c:146-197, form.c:93-177, cat.c:50-125,
  list.c:166-211, prop.c:64-84 and iff.c:127-140.
-/
namespace Iff.Src
set_option maxRecDepth 4000
open Heap (Addr Block Mem HS Hdr Grp Lst HX)

/-- The state of the C semantics for a state of the checker of the heap model. -/
abbrev sc (X : Cfg) (stk : List Blk) (inp out : List Byte) (room : Nat) (text : List Byte)
    (s : HX (List Msg)) : CS :=
  ⟨heapOf X.e s.mem, s.tick, stk, inp, out, room, text, errCalls X.e s.st⟩

theorem charVal_inInt {e : Env} {b : Byte} : inInt (charVal e b) := by
  simp only [charVal, inInt]
  have := b.isLt
  have := BitVec.toInt_lt (x := b)
  have := BitVec.le_toInt (x := b)
  split <;> omega

theorem inInt_neg1 : inInt (-1) = True := eq_true (by decide)

theorem charVal_space {e : Env} {b : Byte} : charVal e b = 32 ↔ b = 0x20#8 := by
  simp only [charVal]
  split <;> revert b <;> decide

theorem emit_inv {m : Msg} {l l' : List Msg} {u : Unit} (h : emit m l = .val (u, l')) : l' = l ++ [m] := by
  cases h; rfl

section
variable {X : Cfg} {stk : List Blk} {inp out text : List Byte} {room n : Nat}
  {heap : Nat → Option Blk} {tick : Nat}

/-- id.c:45-72 -/
theorem checkId_run {id : ID} {l l' : List Msg} {r : Bool} (h : checkId X.e id l = .val (r, l')) :
    callFn X (n + 7) .IFF_checkId [.int .uint id.toNat]
      ⟨heap, tick, stk, inp, out, room, text, errCalls X.e l⟩ =
    .val (truth r, ⟨heap, tick, stk, inp, out, room, text, errCalls X.e l'⟩) := by
  unfold checkId at h
  obtain ⟨r1, l1, h1, k1⟩ := bind_inv h
  clear h
  have hs := @idToString_run X (n + 5) heap tick room stk inp out text (errCalls X.e l) id
  generalize hb0 : idToString id = bs at *
  obtain ⟨b0, b1, b2, b3, rfl⟩ : ∃ b0 b1 b2 b3, bs = [b0, b1, b2, b3] := ⟨_, _, _, _, hb0.symm⟩
  simp only [List.map] at hs
  have i0 := @charVal_inInt X.e b0
  have i1 := @charVal_inInt X.e b1
  have i2 := @charVal_inInt X.e b2
  have i3 := @charVal_inInt X.e b3
  have sp := @charVal_space X.e b0
  simp only [checkIdChars] at h1
  rw [callFn_code rfl]
  generalize charVal X.e b0 = c0 at *
  generalize charVal X.e b1 = c1 at *
  generalize charVal X.e b2 = c2 at *
  generalize charVal X.e b3 = c3 at *
  have stop : ∀ {x : Int}, (do emit (.illegalChar x); pure false : M (List Msg) Bool) l = .val (r1, l1) →
      r = false ∧ errCalls X.e l' = errCalls X.e l ++ [⟨"Illegal character: '%c' in ID!\n", [.int x]⟩] := by
    intro x hx
    cases hx
    cases k1
    exact ⟨rfl, by simp only [errCalls_snoc, Msg.prints]⟩
  by_cases a0 : c0 < 32
  · rw [if_pos (.inl a0)] at h1
    obtain ⟨rfl, hl⟩ := stop h1
    crun [IFF_checkId.code, blkOf_stk stk_get0, scalarSize, ITy.bits, Ty.size, hs, exec_for, whileN_succ,
      Bool.false_eq_true, if_false, if_true, error_char, error0, stk_take0, wrapInt_of i0, decide_eq_true a0, hl]
    rfl
  by_cases d0 : c0 > 126
  · rw [if_pos (.inr d0)] at h1
    obtain ⟨rfl, hl⟩ := stop h1
    crun [IFF_checkId.code, blkOf_stk stk_get0, scalarSize, ITy.bits, Ty.size, hs, exec_for, whileN_succ,
      Bool.false_eq_true, if_false, if_true, error_char, error0, stk_take0, wrapInt_of i0, decide_eq_false a0, decide_eq_true d0, hl]
    rfl
  rw [if_neg (by omega)] at h1
  by_cases a1 : c1 < 32
  · rw [if_pos (.inl a1)] at h1
    obtain ⟨rfl, hl⟩ := stop h1
    crun [IFF_checkId.code, blkOf_stk stk_get0, scalarSize, ITy.bits, Ty.size, hs, exec_for, whileN_succ,
      Bool.false_eq_true, if_false, if_true, error_char, error0, stk_take0, wrapInt_of i0,
      decide_eq_false a0, decide_eq_false d0, wrapInt_of i1, decide_eq_true a1, hl]
    rfl
  by_cases d1 : c1 > 126
  · rw [if_pos (.inr d1)] at h1
    obtain ⟨rfl, hl⟩ := stop h1
    crun [IFF_checkId.code, blkOf_stk stk_get0, scalarSize, ITy.bits, Ty.size, hs, exec_for, whileN_succ,
      Bool.false_eq_true, if_false, if_true, error_char, error0, stk_take0, wrapInt_of i0,
      decide_eq_false a0, decide_eq_false d0, wrapInt_of i1, decide_eq_false a1, decide_eq_true d1, hl]
    rfl
  rw [if_neg (by omega)] at h1
  by_cases a2 : c2 < 32
  · rw [if_pos (.inl a2)] at h1
    obtain ⟨rfl, hl⟩ := stop h1
    crun [IFF_checkId.code, blkOf_stk stk_get0, scalarSize, ITy.bits, Ty.size, hs, exec_for, whileN_succ,
      Bool.false_eq_true, if_false, if_true, error_char, error0, stk_take0, wrapInt_of i0,
      decide_eq_false a0, decide_eq_false d0, wrapInt_of i1,
      decide_eq_false a1, decide_eq_false d1, wrapInt_of i2, decide_eq_true a2, hl]
    rfl
  by_cases d2 : c2 > 126
  · rw [if_pos (.inr d2)] at h1
    obtain ⟨rfl, hl⟩ := stop h1
    crun [IFF_checkId.code, blkOf_stk stk_get0, scalarSize, ITy.bits, Ty.size, hs, exec_for, whileN_succ,
      Bool.false_eq_true, if_false, if_true, error_char, error0, stk_take0, wrapInt_of i0,
      decide_eq_false a0, decide_eq_false d0, wrapInt_of i1,
      decide_eq_false a1, decide_eq_false d1, wrapInt_of i2, decide_eq_false a2, decide_eq_true d2, hl]
    rfl
  rw [if_neg (by omega)] at h1
  by_cases a3 : c3 < 32
  · rw [if_pos (.inl a3)] at h1
    obtain ⟨rfl, hl⟩ := stop h1
    crun [IFF_checkId.code, blkOf_stk stk_get0, scalarSize, ITy.bits, Ty.size, hs, exec_for, whileN_succ,
      Bool.false_eq_true, if_false, if_true, error_char, error0, stk_take0, wrapInt_of i0,
      decide_eq_false a0, decide_eq_false d0, wrapInt_of i1,
      decide_eq_false a1, decide_eq_false d1, wrapInt_of i2,
      decide_eq_false a2, decide_eq_false d2, wrapInt_of i3, decide_eq_true a3, hl]
    rfl
  by_cases d3 : c3 > 126
  · rw [if_pos (.inr d3)] at h1
    obtain ⟨rfl, hl⟩ := stop h1
    crun [IFF_checkId.code, blkOf_stk stk_get0, scalarSize, ITy.bits, Ty.size, hs, exec_for, whileN_succ,
      Bool.false_eq_true, if_false, if_true, error_char, error0, stk_take0, wrapInt_of i0,
      decide_eq_false a0, decide_eq_false d0, wrapInt_of i1,
      decide_eq_false a1, decide_eq_false d1, wrapInt_of i2,
      decide_eq_false a2, decide_eq_false d2, wrapInt_of i3, decide_eq_false a3, decide_eq_true d3, hl]
    rfl
  rw [if_neg (by omega)] at h1
  obtain ⟨rfl, rfl⟩ := pure_inv h1
  simp only [if_true] at k1
  by_cases hsp : c0 = 32
  · rw [if_pos (show [b0, b1, b2, b3].head? = some 0x20#8 from congrArg some (sp.mp hsp))] at k1
    cases k1
    have hl : (c0 == 32) = true := by rw [hsp]; rfl
    crun [IFF_checkId.code, blkOf_stk stk_get0, scalarSize, ITy.bits, Ty.size, hs, exec_for, whileN_succ,
      Bool.false_eq_true, if_false, if_true, error_char, error0, stk_take0, wrapInt_of i0,
      decide_eq_false a0, decide_eq_false d0, wrapInt_of i1,
      decide_eq_false a1, decide_eq_false d1, wrapInt_of i2,
      decide_eq_false a2, decide_eq_false d2, wrapInt_of i3,
      decide_eq_false a3, decide_eq_false d3, hl, errCalls_snoc, Msg.prints]
    rfl
  · rw [if_neg (show ¬ [b0, b1, b2, b3].head? = some 0x20#8 from
      fun h => hsp (sp.mpr (Option.some.inj h)))] at k1
    obtain ⟨rfl, rfl⟩ := pure_inv k1
    have hl : (c0 == 32) = false := by simpa using hsp
    crun [IFF_checkId.code, blkOf_stk stk_get0, scalarSize, ITy.bits, Ty.size, hs, exec_for, whileN_succ,
      Bool.false_eq_true, if_false, if_true, error_char, error0, stk_take0, wrapInt_of i0,
      decide_eq_false a0, decide_eq_false d0, wrapInt_of i1,
      decide_eq_false a1, decide_eq_false d1, wrapInt_of i2,
      decide_eq_false a2, decide_eq_false d2, wrapInt_of i3,
      decide_eq_false a3, decide_eq_false d3, hl]
    rfl

theorem uint_beq_false {a b : ID} (h : a ≠ b) : ((a.toNat : Int) == (b.toNat : Int)) = false := by
  rw [beq_eq_false_iff_ne]; intro hx; exact h (BitVec.eq_of_toNat_eq (by omega))
theorem uint_beq {a b : ID} : ((a.toNat : Int) == (b.toNat : Int)) = decide (a = b) := by
  by_cases h : a = b
  · subst h; simp
  · rw [uint_beq_false h, decide_eq_false h]

theorem uint_bne {a b : ID} : ((a.toNat : Int) != (b.toNat : Int)) = !decide (a = b) := by
  rw [bne, uint_beq]

/-- An expression has a truth value and no side effect. -/
def Tests (X : Cfg) (call : Fn → List V → M CS V) (f : Fr) (a : Expr) (b : Bool) : Prop :=
  evalE X call a f = .val (truth b, f)

theorem Tests.lor {call : Fn → List V → M CS V} {f : Fr} {a b : Expr} {x y : Bool}
    (ha : Tests X call f a x) (hb : Tests X call f b y) : Tests X call f (.lor a b) (x || y) := by
  unfold Tests at *
  rw [evalE_lor, ha]
  cases x
  · cases y <;> crun [hb, truth_true, truth_false, Bool.false_eq_true, if_false] <;> rfl
  · crun [truth_true]

theorem Tests.eq {call : Fn → List V → M CS V} {f : Fr} {E : Expr} {x i : ID}
    (hE : ∀ s, evalE X call E s = .val (.int .int i.toNat, s))
    (hv : f.loc .formType = .reg (.int .uint) (.int .uint x.toNat)) :
    Tests X call f (.bin .eq (.var .formType) E) (decide (x = i)) := by
  unfold Tests
  obtain ⟨loc, g⟩ := f
  simp only at hv
  crun [hv, hE, toNat_emod, uint_beq]

theorem evalE_makeid' {call : Fn → List V → M CS V} {s : Fr} {a b c d : BitVec 32} {i : ID}
    (h : (((a <<< 24 ||| b <<< 16) ||| c <<< 8) ||| d).toInt = i.toNat) :
    evalE X call (IFF_MAKEID (.num .int a.toInt) (.num .int b.toInt) (.num .int c.toInt)
      (.num .int d.toInt)) s = .val (.int .int i.toNat, s) :=
  (evalE_makeid a b c d).trans (by rw [h])

theorem Tests.snoc {call : Fn → List V → M CS V} {f : Fr} {a b : Expr} {x i : ID} {l : List ID}
    (ha : Tests X call f a (decide (x ∈ l))) (hb : Tests X call f b (decide (x = i))) :
    Tests X call f (.lor a b) (decide (x ∈ l ++ [i])) := by
  have := ha.lor hb
  rwa [show (decide (x ∈ l) || decide (x = i)) = decide (x ∈ l ++ [i]) from by simp] at this

theorem Tests.one {call : Fn → List V → M CS V} {f : Fr} {a : Expr} {x i : ID}
    (ha : Tests X call f a (decide (x = i))) : Tests X call f a (decide (x ∈ [i])) := by
  rwa [show decide (x ∈ [i]) = decide (x = i) from by simp]

/-- form.c:116-148: the condition. -/
def reservedE : Expr :=
  (.lor (.lor (.lor (.lor (.lor (.lor (.lor (.lor (.lor (.lor (.lor (.lor (.lor (.lor (.lor (.lor (.lor (.lor (.lor (.lor (.lor (.lor (.lor (.lor (.lor (.lor (.lor (.lor (.lor (.lor (.lor (.lor (.bin .eq (.var .formType) IFF_ID_LIST) (.bin .eq (.var .formType) IFF_ID_FORM)) (.bin .eq (.var .formType) IFF_ID_PROP)) (.bin .eq (.var .formType) IFF_ID_CAT)) (.bin .eq (.var .formType) IFF_ID_JJJJ)) (.bin .eq (.var .formType) ID_LIS1)) (.bin .eq (.var .formType) ID_LIS2)) (.bin .eq (.var .formType) ID_LIS3)) (.bin .eq (.var .formType) ID_LIS4)) (.bin .eq (.var .formType) ID_LIS5)) (.bin .eq (.var .formType) ID_LIS6)) (.bin .eq (.var .formType) ID_LIS7)) (.bin .eq (.var .formType) ID_LIS8)) (.bin .eq (.var .formType) ID_LIS9)) (.bin .eq (.var .formType) ID_FOR1)) (.bin .eq (.var .formType) ID_FOR1)) (.bin .eq (.var .formType) ID_FOR2)) (.bin .eq (.var .formType) ID_FOR3)) (.bin .eq (.var .formType) ID_FOR4)) (.bin .eq (.var .formType) ID_FOR5)) (.bin .eq (.var .formType) ID_FOR6)) (.bin .eq (.var .formType) ID_FOR7)) (.bin .eq (.var .formType) ID_FOR8)) (.bin .eq (.var .formType) ID_FOR9)) (.bin .eq (.var .formType) ID_CAT1)) (.bin .eq (.var .formType) ID_CAT2)) (.bin .eq (.var .formType) ID_CAT3)) (.bin .eq (.var .formType) ID_CAT4)) (.bin .eq (.var .formType) ID_CAT5)) (.bin .eq (.var .formType) ID_CAT6)) (.bin .eq (.var .formType) ID_CAT7)) (.bin .eq (.var .formType) ID_CAT8)) (.bin .eq (.var .formType) ID_CAT9))

/-- form.c:116-148 -/
theorem reserved_tests {call : Fn → List V → M CS V} {f : Fr} {x : ID}
    (hv : f.loc .formType = .reg (.int .uint) (.int .uint x.toNat)) :
    Tests X call f reservedE (decide (x ∈ reservedFormTypes)) :=
  (Tests.eq (fun _ => evalE_LIST) hv).one
    |>.snoc (Tests.eq (fun _ => evalE_FORM) hv)
    |>.snoc (Tests.eq (fun _ => evalE_PROP) hv)
    |>.snoc (Tests.eq (fun _ => evalE_CAT) hv)
    |>.snoc (Tests.eq (fun _ => evalE_JJJJ) hv)
    |>.snoc (Tests.eq (fun _ => evalE_makeid' (a := 76) (b := 73) (c := 83) (d := 49) (i := makeId 'L' 'I' 'S' '1') (by decide)) hv)
    |>.snoc (Tests.eq (fun _ => evalE_makeid' (a := 76) (b := 73) (c := 83) (d := 50) (i := makeId 'L' 'I' 'S' '2') (by decide)) hv)
    |>.snoc (Tests.eq (fun _ => evalE_makeid' (a := 76) (b := 73) (c := 83) (d := 51) (i := makeId 'L' 'I' 'S' '3') (by decide)) hv)
    |>.snoc (Tests.eq (fun _ => evalE_makeid' (a := 76) (b := 73) (c := 83) (d := 52) (i := makeId 'L' 'I' 'S' '4') (by decide)) hv)
    |>.snoc (Tests.eq (fun _ => evalE_makeid' (a := 76) (b := 73) (c := 83) (d := 53) (i := makeId 'L' 'I' 'S' '5') (by decide)) hv)
    |>.snoc (Tests.eq (fun _ => evalE_makeid' (a := 76) (b := 73) (c := 83) (d := 54) (i := makeId 'L' 'I' 'S' '6') (by decide)) hv)
    |>.snoc (Tests.eq (fun _ => evalE_makeid' (a := 76) (b := 73) (c := 83) (d := 55) (i := makeId 'L' 'I' 'S' '7') (by decide)) hv)
    |>.snoc (Tests.eq (fun _ => evalE_makeid' (a := 76) (b := 73) (c := 83) (d := 56) (i := makeId 'L' 'I' 'S' '8') (by decide)) hv)
    |>.snoc (Tests.eq (fun _ => evalE_makeid' (a := 76) (b := 73) (c := 83) (d := 57) (i := makeId 'L' 'I' 'S' '9') (by decide)) hv)
    |>.snoc (Tests.eq (fun _ => evalE_makeid' (a := 70) (b := 79) (c := 82) (d := 49) (i := makeId 'F' 'O' 'R' '1') (by decide)) hv)
    |>.snoc (Tests.eq (fun _ => evalE_makeid' (a := 70) (b := 79) (c := 82) (d := 49) (i := makeId 'F' 'O' 'R' '1') (by decide)) hv)
    |>.snoc (Tests.eq (fun _ => evalE_makeid' (a := 70) (b := 79) (c := 82) (d := 50) (i := makeId 'F' 'O' 'R' '2') (by decide)) hv)
    |>.snoc (Tests.eq (fun _ => evalE_makeid' (a := 70) (b := 79) (c := 82) (d := 51) (i := makeId 'F' 'O' 'R' '3') (by decide)) hv)
    |>.snoc (Tests.eq (fun _ => evalE_makeid' (a := 70) (b := 79) (c := 82) (d := 52) (i := makeId 'F' 'O' 'R' '4') (by decide)) hv)
    |>.snoc (Tests.eq (fun _ => evalE_makeid' (a := 70) (b := 79) (c := 82) (d := 53) (i := makeId 'F' 'O' 'R' '5') (by decide)) hv)
    |>.snoc (Tests.eq (fun _ => evalE_makeid' (a := 70) (b := 79) (c := 82) (d := 54) (i := makeId 'F' 'O' 'R' '6') (by decide)) hv)
    |>.snoc (Tests.eq (fun _ => evalE_makeid' (a := 70) (b := 79) (c := 82) (d := 55) (i := makeId 'F' 'O' 'R' '7') (by decide)) hv)
    |>.snoc (Tests.eq (fun _ => evalE_makeid' (a := 70) (b := 79) (c := 82) (d := 56) (i := makeId 'F' 'O' 'R' '8') (by decide)) hv)
    |>.snoc (Tests.eq (fun _ => evalE_makeid' (a := 70) (b := 79) (c := 82) (d := 57) (i := makeId 'F' 'O' 'R' '9') (by decide)) hv)
    |>.snoc (Tests.eq (fun _ => evalE_makeid' (a := 67) (b := 65) (c := 84) (d := 49) (i := makeId 'C' 'A' 'T' '1') (by decide)) hv)
    |>.snoc (Tests.eq (fun _ => evalE_makeid' (a := 67) (b := 65) (c := 84) (d := 50) (i := makeId 'C' 'A' 'T' '2') (by decide)) hv)
    |>.snoc (Tests.eq (fun _ => evalE_makeid' (a := 67) (b := 65) (c := 84) (d := 51) (i := makeId 'C' 'A' 'T' '3') (by decide)) hv)
    |>.snoc (Tests.eq (fun _ => evalE_makeid' (a := 67) (b := 65) (c := 84) (d := 52) (i := makeId 'C' 'A' 'T' '4') (by decide)) hv)
    |>.snoc (Tests.eq (fun _ => evalE_makeid' (a := 67) (b := 65) (c := 84) (d := 53) (i := makeId 'C' 'A' 'T' '5') (by decide)) hv)
    |>.snoc (Tests.eq (fun _ => evalE_makeid' (a := 67) (b := 65) (c := 84) (d := 54) (i := makeId 'C' 'A' 'T' '6') (by decide)) hv)
    |>.snoc (Tests.eq (fun _ => evalE_makeid' (a := 67) (b := 65) (c := 84) (d := 55) (i := makeId 'C' 'A' 'T' '7') (by decide)) hv)
    |>.snoc (Tests.eq (fun _ => evalE_makeid' (a := 67) (b := 65) (c := 84) (d := 56) (i := makeId 'C' 'A' 'T' '8') (by decide)) hv)
    |>.snoc (Tests.eq (fun _ => evalE_makeid' (a := 67) (b := 65) (c := 84) (d := 57) (i := makeId 'C' 'A' 'T' '9') (by decide)) hv)

/-- form.c:107: the condition. -/
def lowerE : Expr :=
  (.lor (.land (.bin .ge (.index (.var .formType2) (.var .i)) (.num .int 97)) (.bin .le (.index (.var .formType2) (.var .i)) (.num .int 122))) (.bin .eq (.index (.var .formType2) (.var .i)) (.num .int 46)))

theorem lower_eval {call : Fn → List V → M CS V} {loc : Var → Slot} {log : List ErrPrint} {c0 c1 c2 c3 : Int}
    (k : Nat) (c : Int) (hk : [c0, c1, c2, c3][k]? = some c) (hc : inInt c)
    (hi : loc .i = .reg (.int .uint) (.int .uint k))
    (hv : loc .formType2 = .obj (.arr 4 (.int .char)) stk.length) :
    evalE X call lowerE ⟨loc, ⟨heap, tick, stk ++ [⟨4, cells [.int .char c0, .int .char c1,
      .int .char c2, .int .char c3]⟩], inp, out, room, text, log⟩⟩ =
    .val (truth (decide ((c ≥ 0x61 ∧ c ≤ 0x7a) ∨ c = 0x2e)), ⟨loc, ⟨heap, tick,
      stk ++ [⟨4, cells [.int .char c0, .int .char c1, .int .char c2, .int .char c3]⟩], inp, out, room,
      text, log⟩⟩) := by
  obtain ⟨hk4, hcell⟩ : k < 4 ∧ cells [.int .char c0, .int .char c1, .int .char c2, .int .char c3] k =
      .int .char c := by
    match k, hk with
    | 0, hk => cases hk; exact ⟨by omega, rfl⟩
    | 1, hk => cases hk; exact ⟨by omega, rfl⟩
    | 2, hk => cases hk; exact ⟨by omega, rfl⟩
    | 3, hk => cases hk; exact ⟨by omega, rfl⟩
  have hkk : (0 ≤ (k : Int) ∧ (k + 1) * 1 ≤ 4) = True := eq_true ⟨by omega, by omega⟩
  by_cases a : c ≥ 97
  · by_cases b : c ≤ 122
    · rw [decide_eq_true (.inl ⟨a, b⟩)]
      crun [lowerE, hi, hv, blkOf_stk stk_get0, scalarSize, ITy.bits, hcell, nat_emod (show k < 4294967296 by omega),
        wrapInt_of hc, hkk, Int.toNat_natCast, Bool.false_eq_true, if_false, if_true, decide_eq_true a, decide_eq_true b]
    · by_cases d : c = 46
      · omega
      · have hd : (c == 46) = false := by simpa using d
        rw [decide_eq_false (by omega)]
        crun [lowerE, hi, hv, blkOf_stk stk_get0, scalarSize, ITy.bits, hcell, nat_emod (show k < 4294967296 by omega),
        wrapInt_of hc, hkk, Int.toNat_natCast, Bool.false_eq_true, if_false, if_true, decide_eq_true a, decide_eq_false b, hd]
  · by_cases d : c = 46
    · have hd : (c == 46) = true := by simpa using d
      rw [decide_eq_true (.inr d)]
      crun [lowerE, hi, hv, blkOf_stk stk_get0, scalarSize, ITy.bits, hcell, nat_emod (show k < 4294967296 by omega),
        wrapInt_of hc, hkk, Int.toNat_natCast, Bool.false_eq_true, if_false, if_true, decide_eq_false a, hd]
    · have hd : (c == 46) = false := by simpa using d
      rw [decide_eq_false (by omega)]
      crun [lowerE, hi, hv, blkOf_stk stk_get0, scalarSize, ITy.bits, hcell, nat_emod (show k < 4294967296 by omega),
        wrapInt_of hc, hkk, Int.toNat_natCast, Bool.false_eq_true, if_false, if_true, decide_eq_false a, hd]

/-- form.c:93-158 -/
theorem checkFormType_code : IFF_checkFormType.code = {
  params := [(.formType, (.int .uint))]
  ,ret := (.int .int)
  ,body :=
    (.seq (.decl .i (.int .uint) none)
      (.seq (.object .formType2 (.arr 4 (.int .char)) none)
      (.seq (.ite (.not (.call (.fn .IFF_checkId) (.cons (.var .formType) .nil)))
        (.ret FALSE)
        .skip)
      (.seq (.expr (.call (.fn .IFF_idToString) (.cons (.var .formType) (.cons (.var .formType2) .nil))))
      (.seq (.for (.assign (.var .i) (.num .int 0)) (.bin .lt (.var .i) IFF_ID_SIZE) (.inc (.var .i))
        (.ite lowerE
          (.seq (.expr (.call (.fn .IFF_error) (.cons (.str "No lowercase characters or punctuation marks allowed in a form type ID!\n") .nil)))
            (.ret FALSE))
          .skip))
      (.seq (.ite reservedE
        (.seq (.expr (.call (.fn .IFF_error) (.cons (.str "Form type: '") .nil)))
          (.seq (.expr (.call (.fn .IFF_errorId) (.cons (.var .formType) .nil)))
          (.seq (.expr (.call (.fn .IFF_error) (.cons (.str "' not allowed!\n") .nil)))
          (.ret FALSE))))
        .skip)
      (.ret TRUE))))))) } := rfl

theorem reserved_eval {call : Fn → List V → M CS V} {loc : Var → Slot} {g : CS} (x : ID)
    (hv : loc .formType = .reg (.int .uint) (.int .uint x.toNat)) :
    evalE X call reservedE ⟨loc, g⟩ = .val (truth (decide (x ∈ reservedFormTypes)), ⟨loc, g⟩) :=
  reserved_tests (f := ⟨loc, g⟩) hv

/-- form.c:93-158 -/
theorem checkFormType_run {id : ID} {l l' : List Msg} {r : Bool} (h : checkFormType X.e id l = .val (r, l')) :
    callFn X (n + 8) .IFF_checkFormType [.int .uint id.toNat]
      ⟨heap, tick, stk, inp, out, room, text, errCalls X.e l⟩ =
    .val (truth r, ⟨heap, tick, stk, inp, out, room, text, errCalls X.e l'⟩) := by
  unfold checkFormType at h
  obtain ⟨r1, l1, h1, k1⟩ := bind_inv h
  clear h
  have hid := @checkId_run X (stk ++ [⟨4, cells []⟩]) inp out text room n heap tick id _ _ _ h1
  rw [callFn_code rfl]
  cases r1 with
  | false =>
    simp only [Bool.false_eq_true, if_false] at k1
    obtain ⟨rfl, rfl⟩ := pure_inv k1
    crun [checkFormType_code, blkOf_stk stk_get0, scalarSize, ITy.bits, Ty.size, stk_push1, hid, stk_take0]
    rfl
  | true =>
    simp only [if_true] at k1
    obtain ⟨r2, l2, h2, k2⟩ := bind_inv k1
    have hs := @idToString_run X (n + 6) heap tick room stk inp out text (errCalls X.e l1) id
    generalize hb0 : idToString id = bs at *
    obtain ⟨b0, b1, b2, b3, rfl⟩ : ∃ b0 b1 b2 b3, bs = [b0, b1, b2, b3] := ⟨_, _, _, _, hb0.symm⟩
    simp only [List.map] at hs
    have i0 := @charVal_inInt X.e b0
    have i1 := @charVal_inInt X.e b1
    have i2 := @charVal_inInt X.e b2
    have i3 := @charVal_inInt X.e b3
    simp only [checkFormTypeChars] at h2
    generalize charVal X.e b0 = c0 at *
    generalize charVal X.e b1 = c1 at *
    generalize charVal X.e b2 = c2 at *
    generalize charVal X.e b3 = c3 at *
    have stop : (do emit .formTypeChars; pure false : M (List Msg) Bool) l1 = .val (r2, l2) →
        r = false ∧ errCalls X.e l' = errCalls X.e l1 ++ [⟨"No lowercase characters or punctuation marks allowed in a form type ID!\n", []⟩] := by
      intro hx
      cases hx
      cases k2
      exact ⟨rfl, by simp only [errCalls_snoc, Msg.prints]⟩
    by_cases a0 : (c0 ≥ 0x61 ∧ c0 ≤ 0x7a) ∨ c0 = 0x2e
    · rw [if_pos a0] at h2
      obtain ⟨rfl, hl⟩ := stop h2
      crun [checkFormType_code, blkOf_stk stk_get0, scalarSize, ITy.bits, Ty.size, hs, hid, stk_push1, exec_for, whileN_succ,
      Bool.false_eq_true, if_false, if_true, error0, stk_take0, ↓lower_eval 0 c0 rfl i0, decide_eq_true a0, hl]
      rfl
    rw [if_neg a0] at h2
    by_cases a1 : (c1 ≥ 0x61 ∧ c1 ≤ 0x7a) ∨ c1 = 0x2e
    · rw [if_pos a1] at h2
      obtain ⟨rfl, hl⟩ := stop h2
      crun [checkFormType_code, blkOf_stk stk_get0, scalarSize, ITy.bits, Ty.size, hs, hid, stk_push1, exec_for, whileN_succ,
      Bool.false_eq_true, if_false, if_true, error0, stk_take0,
        ↓lower_eval 0 c0 rfl i0, decide_eq_false a0, ↓lower_eval 1 c1 rfl i1, decide_eq_true a1, hl]
      rfl
    rw [if_neg a1] at h2
    by_cases a2 : (c2 ≥ 0x61 ∧ c2 ≤ 0x7a) ∨ c2 = 0x2e
    · rw [if_pos a2] at h2
      obtain ⟨rfl, hl⟩ := stop h2
      crun [checkFormType_code, blkOf_stk stk_get0, scalarSize, ITy.bits, Ty.size, hs, hid, stk_push1, exec_for, whileN_succ,
      Bool.false_eq_true, if_false, if_true, error0, stk_take0,
        ↓lower_eval 0 c0 rfl i0, decide_eq_false a0,
        ↓lower_eval 1 c1 rfl i1, decide_eq_false a1, ↓lower_eval 2 c2 rfl i2, decide_eq_true a2, hl]
      rfl
    rw [if_neg a2] at h2
    by_cases a3 : (c3 ≥ 0x61 ∧ c3 ≤ 0x7a) ∨ c3 = 0x2e
    · rw [if_pos a3] at h2
      obtain ⟨rfl, hl⟩ := stop h2
      crun [checkFormType_code, blkOf_stk stk_get0, scalarSize, ITy.bits, Ty.size, hs, hid, stk_push1, exec_for, whileN_succ,
      Bool.false_eq_true, if_false, if_true, error0, stk_take0,
        ↓lower_eval 0 c0 rfl i0, decide_eq_false a0,
        ↓lower_eval 1 c1 rfl i1, decide_eq_false a1,
        ↓lower_eval 2 c2 rfl i2, decide_eq_false a2, ↓lower_eval 3 c3 rfl i3, decide_eq_true a3, hl]
      rfl
    rw [if_neg a3] at h2
    obtain ⟨rfl, rfl⟩ := pure_inv h2
    simp only [if_true] at k2
    by_cases hr : id ∈ reservedFormTypes
    · rw [if_pos hr] at k2
      cases k2
      crun [checkFormType_code, blkOf_stk stk_get0, scalarSize, ITy.bits, Ty.size, hs, hid, stk_push1, exec_for, whileN_succ,
      Bool.false_eq_true, if_false, if_true, error0, stk_take0,
        ↓lower_eval 0 c0 rfl i0, decide_eq_false a0,
        ↓lower_eval 1 c1 rfl i1, decide_eq_false a1,
        ↓lower_eval 2 c2 rfl i2, decide_eq_false a2,
        ↓lower_eval 3 c3 rfl i3, decide_eq_false a3, ↓reserved_eval id, decide_eq_true hr, errorId_run, errCalls_snoc, Msg.prints,
        List.append_assoc, List.cons_append, List.nil_append]
      rfl
    · rw [if_neg hr] at k2
      obtain ⟨rfl, rfl⟩ := pure_inv k2
      crun [checkFormType_code, blkOf_stk stk_get0, scalarSize, ITy.bits, Ty.size, hs, hid, stk_push1, exec_for, whileN_succ,
      Bool.false_eq_true, if_false, if_true, error0, stk_take0,
        ↓lower_eval 0 c0 rfl i0, decide_eq_false a0,
        ↓lower_eval 1 c1 rfl i1, decide_eq_false a1,
        ↓lower_eval 2 c2 rfl i2, decide_eq_false a2,
        ↓lower_eval 3 c3 rfl i3, decide_eq_false a3, ↓reserved_eval id, decide_eq_false hr]
      rfl

/-- The function `f` of the sources is the check `sub` of a group and a member. -/
def SubRun (X : Cfg) (f : Fn) (sub : Addr → Addr → M (HX (List Msg)) Bool) : Prop :=
  ∀ {stk : List Blk} {inp out text : List Byte} {room n : Nat} {p c : Addr} {s s' : HX (List Msg)} {r : Bool},
    sub p c s = .val (r, s') → s'.mem = s.mem ∧ callFn X (n + 8) f [.ptr (.struct .IFF_Group) ⟨.heap p, 0⟩,
      .ptr (.struct .IFF_Chunk) ⟨.heap c, 0⟩] (sc X stk inp out room text s) =
      .val (truth r, sc X stk inp out room text s')

/-- The function `f` of the sources is the check `ty` of a group type. -/
def TypeRun (X : Cfg) (f : Fn) (ty : ID → M (List Msg) Bool) : Prop :=
  ∀ {stk : List Blk} {inp out text : List Byte} {room n tick : Nat} {heap : Nat → Option Blk} {id : ID}
    {l l' : List Msg} {r : Bool}, ty id l = .val (r, l') →
    callFn X (n + 8) f [.int .uint id.toNat] ⟨heap, tick, stk, inp, out, room, text, errCalls X.e l⟩ =
      .val (truth r, ⟨heap, tick, stk, inp, out, room, text, errCalls X.e l'⟩)

theorem checkId_type : TypeRun X .IFF_checkId (checkId X.e) := by
  intro stk inp out text room n tick heap id l l' r h
  exact checkId_run h

theorem checkFormType_type : TypeRun X .IFF_checkFormType (checkFormType X.e) := by
  intro stk inp out text room n tick heap id l l' r h
  exact checkFormType_run h

/-- form.c:160-172 -/
theorem formSubChunkCheck_run : SubRun X .form_subChunkCheck Heap.formSubChunkCheck := by
  intro stk inp out text room n p c s s' r h
  unfold Heap.formSubChunkCheck at h
  obtain ⟨hd, s1, h1, k1⟩ := bind_inv h
  clear h
  obtain ⟨rfl, sz, rest, hz, -, hb⟩ := hgetHdr (X := X) h1
  rw [callFn_code rfl]
  by_cases hi : hd.id = idPROP
  · rw [if_pos hi] at k1
    cases k1
    refine ⟨rfl, ?_⟩
    crun [form_subChunkCheck.code, blkOf_heap hb, hz, toNat_emod, ↓evalE_PROP, uint_beq, decide_eq_true hi, error0, errorId_run,
      List.take_length, List.append_assoc, List.cons_append, List.nil_append]
    simp only [sc, errCalls_snoc, Msg.prints, List.append_assoc, List.cons_append, List.nil_append]
    rfl
  · rw [if_neg hi] at k1
    obtain ⟨rfl, rfl⟩ := pure_inv k1
    refine ⟨rfl, ?_⟩
    crun [form_subChunkCheck.code, blkOf_heap hb, hz, toNat_emod, ↓evalE_PROP, uint_beq, decide_eq_false hi, List.take_length]
    rfl

/-- prop.c:64-79 -/
theorem propSubChunkCheck_run : SubRun X .prop_subChunkCheck Heap.propSubChunkCheck := by
  intro stk inp out text room n p c s s' r h
  unfold Heap.propSubChunkCheck at h
  obtain ⟨hd, s1, h1, k1⟩ := bind_inv h
  clear h
  obtain ⟨rfl, sz, rest, hz, -, hb⟩ := hgetHdr (X := X) h1
  rw [callFn_code rfl]
  by_cases hi : hd.id = idFORM ∨ hd.id = idLIST ∨ hd.id = idCAT ∨ hd.id = idPROP
  · rw [if_pos hi] at k1
    cases k1
    refine ⟨rfl, ?_⟩
    by_cases i1 : hd.id = idFORM
    · crun [prop_subChunkCheck.code, blkOf_heap hb, hz, toNat_emod, ↓evalE_FORM, uint_beq, decide_eq_true i1, error0, errorId_run,
        List.take_length, List.append_assoc, List.cons_append, List.nil_append]
      simp only [sc, errCalls_snoc, Msg.prints, List.append_assoc, List.cons_append, List.nil_append]
      rfl
    by_cases i2 : hd.id = idLIST
    · crun [prop_subChunkCheck.code, blkOf_heap hb, hz, toNat_emod, ↓evalE_FORM, ↓evalE_LIST, uint_beq, decide_eq_false i1,
        decide_eq_true i2, error0, errorId_run, Bool.false_eq_true, if_false,
        List.take_length, List.append_assoc, List.cons_append, List.nil_append]
      simp only [sc, errCalls_snoc, Msg.prints, List.append_assoc, List.cons_append, List.nil_append]
      rfl
    by_cases i3 : hd.id = idCAT
    · crun [prop_subChunkCheck.code, blkOf_heap hb, hz, toNat_emod, ↓evalE_FORM, ↓evalE_LIST, ↓evalE_CAT, uint_beq, decide_eq_false i1,
        decide_eq_false i2, decide_eq_true i3, error0, errorId_run, Bool.false_eq_true, if_false,
        List.take_length, List.append_assoc, List.cons_append, List.nil_append]
      simp only [sc, errCalls_snoc, Msg.prints, List.append_assoc, List.cons_append, List.nil_append]
      rfl
    have i4 : hd.id = idPROP := by simpa [i1, i2, i3] using hi
    crun [prop_subChunkCheck.code, blkOf_heap hb, hz, toNat_emod, ↓evalE_FORM, ↓evalE_LIST, ↓evalE_CAT, ↓evalE_PROP, uint_beq, decide_eq_false i1,
      decide_eq_false i2, decide_eq_false i3, decide_eq_true i4, error0, errorId_run, Bool.false_eq_true, if_false,
      List.take_length, List.append_assoc, List.cons_append, List.nil_append]
    simp only [sc, errCalls_snoc, Msg.prints, List.append_assoc, List.cons_append, List.nil_append]
    rfl
  · rw [if_neg hi] at k1
    obtain ⟨rfl, rfl⟩ := pure_inv k1
    simp only [not_or] at hi
    obtain ⟨i1, i2, i3, i4⟩ := hi
    refine ⟨rfl, ?_⟩
    crun [prop_subChunkCheck.code, blkOf_heap hb, hz, toNat_emod, ↓evalE_FORM, ↓evalE_LIST, ↓evalE_CAT, ↓evalE_PROP, uint_beq, decide_eq_false i1,
      decide_eq_false i2, decide_eq_false i3, decide_eq_false i4, Bool.false_eq_true, if_false, List.take_length]
    rfl

/-- cat.c:50-53 -/
theorem checkValid_run {id : ID} {log : List ErrPrint} :
    callFn X (n + 1) .checkValidCATSubChunkId [.int .uint id.toNat]
      ⟨heap, tick, stk, inp, out, room, text, log⟩ =
    .val (truth (checkValidCATSubChunkId id), ⟨heap, tick, stk, inp, out, room, text, log⟩) := by
  rw [callFn_code rfl, checkValidCATSubChunkId]
  by_cases i1 : id = idFORM
  · rw [decide_eq_true (.inl i1)]
    crun [checkValidCATSubChunkId.code, toNat_emod, ↓evalE_FORM, uint_beq, decide_eq_true i1, List.take_length]
  by_cases i2 : id = idCAT
  · rw [decide_eq_true (.inr (.inl i2))]
    crun [checkValidCATSubChunkId.code, toNat_emod, ↓evalE_FORM, ↓evalE_CAT, uint_beq, decide_eq_false i1,
      decide_eq_true i2, List.take_length, Bool.false_eq_true, if_false]
  by_cases i3 : id = idLIST
  · rw [decide_eq_true (.inr (.inr i3))]
    crun [checkValidCATSubChunkId.code, toNat_emod, ↓evalE_FORM, ↓evalE_CAT, ↓evalE_LIST, uint_beq,
      decide_eq_false i1, decide_eq_false i2, decide_eq_true i3, List.take_length, Bool.false_eq_true, if_false]
  rw [decide_eq_false (by simp [i1, i2, i3])]
  crun [checkValidCATSubChunkId.code, toNat_emod, ↓evalE_FORM, ↓evalE_CAT, ↓evalE_LIST, uint_beq,
    decide_eq_false i1, decide_eq_false i2, decide_eq_false i3, List.take_length, Bool.false_eq_true, if_false]

/-- cat.c:89-120 -/
theorem catSubChunkCheck_run : SubRun X .IFF_checkCATSubChunk Heap.catSubChunkCheck := by
  intro stk inp out text room n p c s s' r h
  unfold Heap.catSubChunkCheck at h
  obtain ⟨hd, s1, h1, k1⟩ := bind_inv h
  clear h
  obtain ⟨rfl, sz, rest, hz, ⟨b, hb1, hb2⟩, hb⟩ := hgetHdr (X := X) h1
  rw [callFn_code rfl]
  cases hv : checkValidCATSubChunkId hd.id with
  | false =>
    simp only [hv, Bool.false_eq_true, if_false] at k1
    cases k1
    refine ⟨rfl, ?_⟩
    crun [IFF_checkCATSubChunk.code, blkOf_heap hb, hz, toNat_emod, checkValid_run, hv, error0, errorId_run,
      List.take_length, List.append_assoc, List.cons_append, List.nil_append]
    simp only [sc, errCalls_snoc, Msg.prints, List.append_assoc, List.cons_append, List.nil_append]
    rfl
  | true =>
    simp only [hv, if_true] at k1
    obtain ⟨g, s2, h2, k2⟩ := bind_inv k1
    obtain ⟨rfl, hd', sz', rest', -, hz', -, hb'⟩ := hgetGrp (X := X) h2
    by_cases hj : g.ty ≠ idJJJJ
    · rw [if_pos hj] at k2
      obtain ⟨gc, s3, h3, k3⟩ := bind_inv k2
      obtain ⟨rfl, hd3, sz3, rest3, hz3', hz3, ⟨b', hb1', hb2', -⟩, hb3⟩ := hgetGrp (X := X) h3
      rw [hb1] at hb1'; cases hb1'
      rw [hb2] at hb2'; cases hb2'
      clear hb hz
      by_cases he : gc.ty ≠ g.ty
      · rw [if_pos he] at k3
        cases k3
        refine ⟨rfl, ?_⟩
        crun [IFF_checkCATSubChunk.code, blkOf_heap hb3, hz3', toNat_emod, checkValid_run, hv, error0,
          blkOf_heap hb', hz', hz3, uint_bne, Bool.not_false, Bool.not_true, Bool.false_eq_true, if_false, if_true, decide_eq_false hj, decide_eq_false he, ↓evalE_JJJJ,
          List.take_length, List.append_assoc, List.cons_append, List.nil_append]
        simp only [sc, errCalls_snoc, Msg.prints, List.append_assoc, List.cons_append, List.nil_append]
        rfl
      · rw [if_neg he] at k3
        obtain ⟨rfl, rfl⟩ := pure_inv k3
        refine ⟨rfl, ?_⟩
        crun [IFF_checkCATSubChunk.code, blkOf_heap hb3, hz3', toNat_emod, checkValid_run, hv,
          blkOf_heap hb', hz', hz3, uint_bne, Bool.not_false, Bool.not_true, Bool.false_eq_true, if_false, if_true, decide_eq_false hj, decide_eq_true (Decidable.not_not.mp he), ↓evalE_JJJJ,
          List.take_length]
        rfl
    · rw [if_neg hj] at k2
      obtain ⟨rfl, rfl⟩ := pure_inv k2
      refine ⟨rfl, ?_⟩
      crun [IFF_checkCATSubChunk.code, blkOf_heap hb, hz, toNat_emod, checkValid_run, hv,
        blkOf_heap hb', hz', uint_bne, Bool.not_false, Bool.not_true, Bool.false_eq_true, if_false, if_true, decide_eq_true (Decidable.not_not.mp hj), ↓evalE_JJJJ, List.take_length]
      rfl

theorem error_int2 {fmt : String} {x y : Int} {log : List ErrPrint} :
    callFn X (n + 1) .IFF_error [.str fmt, .int .int x, .int .int y]
    ⟨heap, tick, stk, inp, out, room, text, log⟩ =
      .val (.void, ⟨heap, tick, stk, inp, out, room, text, log ++ [⟨fmt, [.int x, .int y]⟩]⟩) := by
  rw [IFF_error_run]; rfl

/-- group.c:146-157 -/
theorem checkGroupChunkSize_run {p : Addr} {body : Int} {s s' : HX (List Msg)} {r : Bool} (hm : Rep s.mem)
    (hbd : inInt body) (hp : ∃ b g, s.mem p = some b ∧ b.grp? = some g)
    (h : Heap.checkGroupChunkSize p body s = .val (r, s')) : s'.mem = s.mem ∧
    callFn X (n + 8) .IFF_checkGroupChunkSize [.ptr (.struct .IFF_Group) ⟨.heap p, 0⟩, .int .int body]
      (sc X stk inp out room text s) = .val (truth r, sc X stk inp out room text s') := by
  unfold Heap.checkGroupChunkSize at h
  obtain ⟨hd, s1, h1, k1⟩ := bind_inv h
  clear h
  obtain ⟨rfl, sz, rest, -, ⟨b, hb1, hb2⟩, hb⟩ := hgetHdr (X := X) h1
  obtain ⟨b', g, hg1, hg2⟩ := hp
  rw [hb1] at hg1; cases hg1
  obtain ⟨hd', sz', rest', hh, -, hz, hly, -⟩ := grp_layout X hg2
  rw [hb2] at hh; cases hh
  have hb := heapOf_some (e := X.e) hb1
  rw [hly] at hb
  have hs := hm.hdr hb1 hb2
  rw [callFn_code rfl]
  by_cases hi : body = hd.size
  · rw [if_pos hi] at k1
    obtain ⟨rfl, rfl⟩ := pure_inv k1
    refine ⟨rfl, ?_⟩
    have hq : (body == hd.size) = true := by simpa using hi
    crun [IFF_checkGroupChunkSize.code, blkOf_heap hb, hz, wrapInt_of hs, wrapInt_of hbd, hq, List.take_length]
    rfl
  · rw [if_neg hi] at k1
    cases k1
    refine ⟨rfl, ?_⟩
    have hq : (body == hd.size) = false := by simpa using hi
    crun [IFF_checkGroupChunkSize.code, blkOf_heap hb, hz, wrapInt_of hs, wrapInt_of hbd, toNat_emod, hq, List.take_length, error0, errorId_run, error_int2]
    simp only [sc, errCalls_snoc, Msg.prints, List.append_assoc, List.cons_append, List.nil_append]
    rfl

/-- What is known about the checking of sub chunks. -/
def CheckIH (X : Cfg) (q : Ptr) (inp out : List Byte) (room : Nat) (text : List Byte)
    (cc : ID → Addr → M (HX (List Msg)) Bool) : Prop :=
  ∀ {stk : List Blk} {ft : ID} {c : Addr} {s s' : HX (List Msg)} {r : Bool}, Rep s.mem →
    cc ft c s = .val (r, s') → s'.mem = s.mem ∧
    Runs X .IFF_checkChunk [.ptr (.struct .IFF_Chunk) ⟨.heap c, 0⟩, .int .uint ft.toNat,
      .ptr (.struct .IFF_ChunkRegistry) q] (sc X stk inp out room text s) (truth r)
      (sc X stk inp out room text s')

/-- group.c:164-178 -/
theorem checkMembers_run {q : Ptr} {cc : ID → Addr → M (HX (List Msg)) Bool}
    (IH : CheckIH X q inp out room text cc) {f : Fn} {sub : Addr → Addr → M (HX (List Msg)) Bool}
    (hsub : SubRun X f sub) {p : Addr} {b : Block} {g : Grp} (hb2 : b.grp? = some g) :
    ∀ {k i : Nat} {acc res : Int} {s s' : HX (List Msg)}, s.mem p = some b → Rep s.mem → inInt acc →
      Heap.checkMembers X.e cc sub p k i acc s = .val (res, s') → g.len = i + k →
      s'.mem = s.mem ∧ inInt res ∧ ∀ loc : Var → Slot,
        loc .i = .reg (.int .uint) (.int .uint i) →
        loc .group = .reg (.ptr (.struct .IFF_Group)) (.ptr (.struct .IFF_Group) ⟨.heap p, 0⟩) →
        loc .chunkRegistry = .reg (.ptr (.struct .IFF_ChunkRegistry)) (.ptr (.struct .IFF_ChunkRegistry) q) →
        loc .subChunkCheck = .reg .fn (.fn f) →
        loc .chunkSize = .reg (.int .int) (.int .int acc) →
        ∃ flow loc' N, (flow = .ret (.int .int res) ∨
            flow = .norm ∧ loc' .chunkSize = .reg (.int .int) (.int .int res)) ∧
        ∀ n, N ≤ n → ∀ j, N ≤ j →
        whileN (evalC X (callFn X n) (.bin .lt (.var .i) (.arrow (.var .group) .chunkLength)))
          (forBody X (callFn X n) n
            (.seq (.decl .subChunk (.ptr (.struct .IFF_Chunk)) (some (.index (.arrow (.var .group) .chunk) (.var .i))))
          (.seq (.ite (.not (.call (.var .subChunkCheck) (.cons (.var .group) (.cons (.var .subChunk) .nil))))
            (.ret (.neg (.num .int 1)))
            .skip)
          (.seq (.ite (.not (.call (.fn .IFF_checkChunk) (.cons (.var .subChunk) (.cons (.arrow (.var .group) .groupType) (.cons (.var .chunkRegistry) .nil)))))
            (.ret (.neg (.num .int 1)))
            .skip)
          (.expr (.assign (.var .chunkSize) (.call (.fn .IFF_incrementChunkSize) (.cons (.var .chunkSize) (.cons (.var .subChunk) .nil))))))))
            (.inc (.var .i))) j ⟨loc, sc X stk inp out room text s⟩ =
          .val (flow, ⟨loc', sc X stk inp out room text s'⟩) := by
  obtain ⟨hd, sz, rest, -, -, hz, hly, -⟩ := grp_layout X hb2
  intro k
  induction k with
  | zero =>
    intro i acc res s s' hb1 hm hacc h hl
    have hb := heapOf_some (e := X.e) hb1
    rw [hly] at hb
    have hg := hm.grp hb1 hb2
    obtain ⟨rfl, rfl⟩ := pure_inv h
    refine ⟨rfl, hacc, fun loc hi hgr hr hf ha => ⟨.norm, loc, 1, .inr ⟨rfl, ha⟩, fun n hn j hj => ?_⟩⟩
    obtain ⟨j, rfl⟩ : ∃ j', j = j' + 1 := ⟨j - 1, by omega⟩
    rw [whileN_succ]
    crun [hi, hgr, hr, blkOf_heap hb, hz, nat_emod (show g.len < 4294967296 by omega),
      nat_emod (show i < 4294967296 by omega), decide_eq_false (show ¬ (i : Int) < g.len by omega), if_true]
  | succ k ih =>
    intro i acc res s s' hb1 hm hacc h hl
    have hb := heapOf_some (e := X.e) hb1
    rw [hly] at hb
    have hg := hm.grp hb1 hb2
    unfold Heap.checkMembers at h
    obtain ⟨g1, s1, h1, k1⟩ := bind_inv h
    clear h
    obtain ⟨rfl, -, -, -, -, -, ⟨b', hb1', -, hb2'⟩, -⟩ := hgetGrp (X := X) h1
    rw [hb1] at hb1'; cases hb1'
    rw [hb2] at hb2'; cases hb2'
    obtain ⟨c, s2, h2, k2⟩ := bind_inv k1
    obtain ⟨rfl, B, hB, hBs, hBc⟩ := hgetPtr (X := X) h2
    obtain ⟨r3, s3, h3, k3⟩ := bind_inv k2
    have hc3 := fun n => hsub (stk := stk) (inp := inp) (out := out) (text := text) (room := room) (n := n) h3
    have hm3 := (hc3 0).1
    have hc3 := fun n => (hc3 n).2
    cases r3 with
    | false =>
      simp only [Bool.false_eq_true, if_false] at k3
      obtain ⟨rfl, rfl⟩ := pure_inv k3
      refine ⟨hm3, by decide, fun loc hi hgr hr hf ha => ⟨.ret (.int .int (-1)),
        setLoc loc .subChunk (.reg (.ptr (.struct .IFF_Chunk)) (.ptr (.struct .IFF_Chunk) ⟨.heap c, 0⟩)), 9, .inl rfl, fun n hn j hj => ?_⟩⟩
      obtain ⟨j, rfl⟩ : ∃ j', j = j' + 1 := ⟨j - 1, by omega⟩
      obtain ⟨n, rfl⟩ : ∃ n', n = n' + 8 := ⟨n - 8, by omega⟩
      have hc := hc3 n
      rw [whileN_succ]
      crun [hi, hgr, hr, hf, ha, blkOf_heap hb, hz, nat_emod (show g.len < 4294967296 by omega),
        nat_emod (show i < 4294967296 by omega), decide_eq_true (show (i : Int) < g.len by omega),
        ↓forBody_obind, blkOf_heap hB, hBs, hBc, Int.natCast_nonneg, Int.toNat_natCast, scalarSize, hc,
        step_obind, Bool.false_eq_true, if_false, inInt_neg1]
    | true =>
      simp only [if_true] at k3
      obtain ⟨g1, s4, h4, k4⟩ := bind_inv k3
      obtain ⟨rfl, -, -, -, -, -, ⟨b', hb1', -, hb2'⟩, -⟩ := hgetGrp (X := X) h4
      have hb1s := hb1
      rw [← hm3] at hb1s
      have hbs := heapOf_some (e := X.e) hb1s
      rw [hly] at hbs
      rw [hb1s] at hb1'; cases hb1'
      rw [hb2] at hb2'; cases hb2'
      obtain ⟨r5, s5, h5, k5⟩ := bind_inv k4
      have hm4 : Rep s4.mem := by rw [hm3]; exact hm
      obtain ⟨hm5, N1, hN1⟩ := IH (stk := stk) hm4 h5
      cases r5 with
      | false =>
        simp only [Bool.false_eq_true, if_false] at k5
        obtain ⟨rfl, rfl⟩ := pure_inv k5
        refine ⟨hm5.trans hm3, by decide, fun loc hi hgr hr hf ha => ⟨.ret (.int .int (-1)),
          setLoc loc .subChunk (.reg (.ptr (.struct .IFF_Chunk)) (.ptr (.struct .IFF_Chunk) ⟨.heap c, 0⟩)), N1 + 9, .inl rfl, fun n hn j hj => ?_⟩⟩
        obtain ⟨j, rfl⟩ : ∃ j', j = j' + 1 := ⟨j - 1, by omega⟩
        have hc5 := hN1 n (by omega)
        obtain ⟨n, rfl⟩ : ∃ n', n = n' + 8 := ⟨n - 8, by omega⟩
        have hc := hc3 n
        rw [whileN_succ]
        crun [hi, hgr, hr, hf, ha, blkOf_heap hb, blkOf_heap hbs, hz, nat_emod (show g.len < 4294967296 by omega),
          nat_emod (show i < 4294967296 by omega), decide_eq_true (show (i : Int) < g.len by omega), toNat_emod,
          ↓forBody_obind, blkOf_heap hB, hBs, hBc, Int.natCast_nonneg, Int.toNat_natCast, scalarSize, hc, hc5,
          step_obind, Bool.false_eq_true, if_false, inInt_neg1]
      | true =>
        simp only [if_true] at k5
        obtain ⟨hd6, s6, h6, k6⟩ := bind_inv k5
        obtain ⟨rfl, sz8, rest8, hz8, ⟨b8, hb8, hb8'⟩, hb8''⟩ := hgetHdr (X := X) h6
        obtain ⟨x, s7, h7, k7⟩ := bind_inv k6
        obtain ⟨hx, rfl⟩ := ofOut_inv h7
        have hm7 : Rep s7.mem := by rw [hm5]; exact hm4
        have hinc := fun n => incrementChunkSize_run (X := X) (n := n) (tick := s7.tick)
          (stk := stk) (out := out) (room := room) (text := text)
          (inp := inp) (log := errCalls X.e s7.st) hz8 hb8'' hacc (hm7.hdr hb8 hb8') hx
        have hx' : inInt x := (incrementChunkSize_inv hx).2.1
        have hb1e := hb1s
        rw [← hm5] at hb1e
        obtain ⟨hme, hbe, ih'⟩ := ih hb1e hm7 hx' k7 (by omega)
        refine ⟨hme.trans (hm5.trans hm3), hbe, fun loc hi hgr hr hf ha => ?_⟩
        obtain ⟨flow, loc', N2, hfl, hN2⟩ := ih' (setLoc (setLoc (setLoc loc .subChunk (.reg (.ptr (.struct .IFF_Chunk))
          (.ptr (.struct .IFF_Chunk) ⟨.heap c, 0⟩))) .chunkSize (.reg (.int .int) (.int .int x)))
          .i (.reg (.int .uint) (.int .uint ((i + 1 : Nat) : Int))))
          (by simp [setLoc]) (by simp [setLoc, hgr]) (by simp [setLoc, hr]) (by simp [setLoc, hf]) (by simp [setLoc])
        refine ⟨flow, loc', max N1 N2 + 9, hfl, fun n hn j hj => ?_⟩
        obtain ⟨j, rfl⟩ : ∃ j', j = j' + 1 := ⟨j - 1, by omega⟩
        have hc5 := hN1 n (by omega)
        have hw := hN2 n (by omega) j (by omega)
        obtain ⟨n, rfl⟩ : ∃ n', n = n' + 8 := ⟨n - 8, by omega⟩
        have hc := hc3 n
        rw [whileN_succ]
        crun [hi, hgr, hr, hf, ha, blkOf_heap hb, blkOf_heap hbs, hz, nat_emod (show g.len < 4294967296 by omega),
          nat_emod (show i < 4294967296 by omega), decide_eq_true (show (i : Int) < g.len by omega), toNat_emod,
          ↓forBody_obind, blkOf_heap hB, hBs, hBc, hinc, Int.natCast_nonneg, Int.toNat_natCast, scalarSize, hc, hc5,
          wrapInt_of hx', wrapInt_of hacc, step_obind, succ_emod (show i + 1 < 4294967296 by omega),
          nat_emod (show i + 1 < 4294967296 by omega), hw]

/-- list.c:166-182 -/
theorem checkProps_run {q : Ptr} {cc : ID → Addr → M (HX (List Msg)) Bool}
    (IH : CheckIH X q inp out room text cc) {p : Addr} {b : Block} {l : Lst} (hb2 : b.lst? = some l) :
    ∀ {k i : Nat} {acc res : Int} {s s' : HX (List Msg)}, s.mem p = some b → Rep s.mem → inInt acc →
      Heap.checkProps X.e cc p k i acc s = .val (res, s') → l.plen = i + k →
      s'.mem = s.mem ∧ inInt res ∧ ∀ loc : Var → Slot,
        loc .i = .reg (.int .uint) (.int .uint i) →
        loc .list = .reg (.ptr (.struct .IFF_List)) (.ptr (.struct .IFF_List) ⟨.heap p, 0⟩) →
        loc .chunkRegistry = .reg (.ptr (.struct .IFF_ChunkRegistry)) (.ptr (.struct .IFF_ChunkRegistry) q) →
        loc .chunkSize = .reg (.int .int) (.int .int acc) →
        ∃ flow loc' N, (flow = .ret (.int .int res) ∨
            flow = .norm ∧ loc' .chunkSize = .reg (.int .int) (.int .int res)) ∧
        ∀ n, N ≤ n → ∀ j, N ≤ j →
        whileN (evalC X (callFn X n) (.bin .lt (.var .i) (.arrow (.var .list) .propLength)))
          (forBody X (callFn X n) n
            (.seq (.decl .propChunk (.ptr (.struct .IFF_Chunk)) (some (.cast (.ptr (.struct .IFF_Chunk)) (.index (.arrow (.var .«list») .prop) (.var .i)))))
          (.seq (.ite (.not (.call (.fn .IFF_checkChunk) (.cons (.var .propChunk) (.cons (.arrow (.var .«list») .contentsType) (.cons (.var .chunkRegistry) .nil)))))
            (.ret (.neg (.num .int 1)))
            .skip)
          (.expr (.assign (.var .chunkSize) (.call (.fn .IFF_incrementChunkSize) (.cons (.var .chunkSize) (.cons (.var .propChunk) .nil)))))))
            (.inc (.var .i))) j ⟨loc, sc X stk inp out room text s⟩ =
          .val (flow, ⟨loc', sc X stk inp out room text s'⟩) := by
  obtain ⟨hd, g, -, hb3, hly, -⟩ := lst_layout X hb2
  intro k
  induction k with
  | zero =>
    intro i acc res s s' hb1 hm hacc h hl
    have hb := heapOf_some (e := X.e) hb1
    rw [hly] at hb
    have hg := hm.lst hb1 hb2
    obtain ⟨rfl, rfl⟩ := pure_inv h
    refine ⟨rfl, hacc, fun loc hi hgr hr ha => ⟨.norm, loc, 1, .inr ⟨rfl, ha⟩, fun n hn j hj => ?_⟩⟩
    obtain ⟨j, rfl⟩ : ∃ j', j = j' + 1 := ⟨j - 1, by omega⟩
    rw [whileN_succ]
    crun [hi, hgr, hr, blkOf_heap hb, nat_emod (show l.plen < 4294967296 by omega),
      nat_emod (show i < 4294967296 by omega), decide_eq_false (show ¬ (i : Int) < l.plen by omega), if_true]
  | succ k ih =>
    intro i acc res s s' hb1 hm hacc h hl
    have hb := heapOf_some (e := X.e) hb1
    rw [hly] at hb
    have hg := hm.lst hb1 hb2
    unfold Heap.checkProps at h
    obtain ⟨g1, s1, h1, k1⟩ := bind_inv h
    clear h
    obtain ⟨rfl, -, -, ⟨b', hb1', -, -, hb2'⟩, -⟩ := hgetLst (X := X) h1
    rw [hb1] at hb1'; cases hb1'
    rw [hb2] at hb2'; cases hb2'
    obtain ⟨c, s2, h2, k2⟩ := bind_inv k1
    obtain ⟨rfl, B, hB, hBs, hBc⟩ := hgetPtr (X := X) h2
    obtain ⟨g1, s4, h4, k4⟩ := bind_inv k2
    obtain ⟨rfl, -, -, -, -, -, ⟨b', hb1', -, hb2'⟩, -⟩ := hgetGrp (X := X) h4
    rw [hb1] at hb1'; cases hb1'
    rw [hb3] at hb2'; cases hb2'
    obtain ⟨r5, s5, h5, k5⟩ := bind_inv k4
    obtain ⟨hm5, N1, hN1⟩ := IH (stk := stk) hm h5
    cases r5 with
    | false =>
      simp only [Bool.false_eq_true, if_false] at k5
      obtain ⟨rfl, rfl⟩ := pure_inv k5
      refine ⟨hm5, by decide, fun loc hi hgr hr ha => ⟨.ret (.int .int (-1)),
        setLoc loc .propChunk (.reg (.ptr (.struct .IFF_Chunk)) (.ptr (.struct .IFF_Chunk) ⟨.heap c, 0⟩)), N1 + 9, .inl rfl, fun n hn j hj => ?_⟩⟩
      obtain ⟨j, rfl⟩ : ∃ j', j = j' + 1 := ⟨j - 1, by omega⟩
      have hc5 := hN1 n (by omega)
      rw [whileN_succ]
      crun [hi, hgr, hr, ha, blkOf_heap hb, nat_emod (show l.plen < 4294967296 by omega),
        nat_emod (show i < 4294967296 by omega), decide_eq_true (show (i : Int) < l.plen by omega), toNat_emod,
        ↓forBody_obind, blkOf_heap hB, hBs, hBc, Int.natCast_nonneg, Int.toNat_natCast, scalarSize, hc5,
        step_obind, Bool.false_eq_true, if_false, inInt_neg1]
    | true =>
      simp only [if_true] at k5
      obtain ⟨hd6, s6, h6, k6⟩ := bind_inv k5
      obtain ⟨rfl, sz8, rest8, hz8, ⟨b8, hb8, hb8'⟩, hb8''⟩ := hgetHdr (X := X) h6
      obtain ⟨x, s7, h7, k7⟩ := bind_inv k6
      obtain ⟨hx, rfl⟩ := ofOut_inv h7
      have hm7 : Rep s7.mem := by rw [hm5]; exact hm
      have hinc := fun n => incrementChunkSize_run (X := X) (n := n) (tick := s7.tick)
        (stk := stk) (out := out) (room := room) (text := text)
        (inp := inp) (log := errCalls X.e s7.st) hz8 hb8'' hacc (hm7.hdr hb8 hb8') hx
      have hx' : inInt x := (incrementChunkSize_inv hx).2.1
      have hb1e := hb1
      rw [← hm5] at hb1e
      obtain ⟨hme, hbe, ih'⟩ := ih hb1e hm7 hx' k7 (by omega)
      refine ⟨hme.trans hm5, hbe, fun loc hi hgr hr ha => ?_⟩
      obtain ⟨flow, loc', N2, hfl, hN2⟩ := ih' (setLoc (setLoc (setLoc loc .propChunk (.reg (.ptr (.struct .IFF_Chunk))
        (.ptr (.struct .IFF_Chunk) ⟨.heap c, 0⟩))) .chunkSize (.reg (.int .int) (.int .int x)))
        .i (.reg (.int .uint) (.int .uint ((i + 1 : Nat) : Int))))
        (by simp [setLoc]) (by simp [setLoc, hgr]) (by simp [setLoc, hr]) (by simp [setLoc])
      refine ⟨flow, loc', max N1 N2 + 9, hfl, fun n hn j hj => ?_⟩
      obtain ⟨j, rfl⟩ : ∃ j', j = j' + 1 := ⟨j - 1, by omega⟩
      have hc5 := hN1 n (by omega)
      have hw := hN2 n (by omega) j (by omega)
      obtain ⟨n, rfl⟩ : ∃ n', n = n' + 8 := ⟨n - 8, by omega⟩
      rw [whileN_succ]
      crun [hi, hgr, hr, ha, blkOf_heap hb, nat_emod (show l.plen < 4294967296 by omega),
        nat_emod (show i < 4294967296 by omega), decide_eq_true (show (i : Int) < l.plen by omega), toNat_emod,
        ↓forBody_obind, blkOf_heap hB, hBs, hBc, hinc, Int.natCast_nonneg, Int.toNat_natCast, scalarSize, hc5,
        wrapInt_of hx', wrapInt_of hacc, step_obind, succ_emod (show i + 1 < 4294967296 by omega),
        nat_emod (show i + 1 < 4294967296 by omega), hw]

/-- group.c:159-179 -/
theorem checkGroupSubChunks_run {q : Ptr} {cc : ID → Addr → M (HX (List Msg)) Bool}
    (IH : CheckIH X q inp out room text cc) {f : Fn} {sub : Addr → Addr → M (HX (List Msg)) Bool}
    (hsub : SubRun X f sub) {p : Addr} {res : Int} {s s' : HX (List Msg)} (hm : Rep s.mem)
    (h : Heap.checkGroupSubChunks X.e cc sub p s = .val (res, s')) :
    s'.mem = s.mem ∧ inInt res ∧ Runs X .IFF_checkGroupSubChunks
      [.ptr (.struct .IFF_Group) ⟨.heap p, 0⟩, .fn f, .ptr (.struct .IFF_ChunkRegistry) q]
      (sc X stk inp out room text s) (.int .int res) (sc X stk inp out room text s') := by
  unfold Heap.checkGroupSubChunks at h
  obtain ⟨g, s1, h1, k1⟩ := bind_inv h
  clear h
  obtain ⟨rfl, -, -, -, -, -, ⟨b, hb1, -, hb2⟩, -⟩ := hgetGrp (X := X) h1
  obtain ⟨hme, hbe, hl⟩ := checkMembers_run (stk := stk) IH hsub hb2 hb1 hm (by decide) k1 (by omega)
  refine ⟨hme, hbe, ?_⟩
  obtain ⟨flow, loc', N, hfl, hN⟩ := hl
    (setLoc (setLoc (setLoc (setLoc (setLoc (setLoc (fun _ => .none)
    .chunkRegistry (.reg (.ptr (.struct .IFF_ChunkRegistry)) (.ptr (.struct .IFF_ChunkRegistry) q)))
    .subChunkCheck (.reg .fn (.fn f)))
    .group (.reg (.ptr (.struct .IFF_Group)) (.ptr (.struct .IFF_Group) ⟨.heap p, 0⟩)))
    .i (.reg (.int .uint) .undef)) .chunkSize (.reg (.int .int) (.int .int 0))) .i (.reg (.int .uint) (.int .uint 0)))
    (by simp [setLoc]) (by simp [setLoc]) (by simp [setLoc]) (by simp [setLoc]) (by simp [setLoc])
  refine ⟨N + 1, fun n hn => ?_⟩
  obtain ⟨n, rfl⟩ : ∃ n', n = n' + 1 := ⟨n - 1, by omega⟩
  have hw := hN n (by omega) n (by omega)
  rw [callFn_code rfl]
  rcases hfl with rfl | ⟨rfl, hcs⟩
  · crun [IFF_checkGroupSubChunks.code, ↓exec_for', hw, wrapInt_of hbe, List.take_length]
  · crun [IFF_checkGroupSubChunks.code, ↓exec_for', hw, hcs, wrapInt_of hbe, List.take_length]

/-- list.c:166-182 -/
theorem checkListPropChunks_run {q : Ptr} {cc : ID → Addr → M (HX (List Msg)) Bool}
    (IH : CheckIH X q inp out room text cc) {p : Addr} {res : Int} {s s' : HX (List Msg)} (hm : Rep s.mem)
    (h : Heap.checkListPropChunks X.e cc p s = .val (res, s')) :
    s'.mem = s.mem ∧ inInt res ∧ Runs X .checkListPropChunks
      [.ptr (.struct .IFF_List) ⟨.heap p, 0⟩, .ptr (.struct .IFF_ChunkRegistry) q]
      (sc X stk inp out room text s) (.int .int res) (sc X stk inp out room text s') := by
  unfold Heap.checkListPropChunks at h
  obtain ⟨g, s1, h1, k1⟩ := bind_inv h
  clear h
  obtain ⟨rfl, -, -, ⟨b, hb1, -, -, hb2⟩, -⟩ := hgetLst (X := X) h1
  obtain ⟨hme, hbe, hl⟩ := checkProps_run (stk := stk) IH hb2 hb1 hm (by decide) k1 (by omega)
  refine ⟨hme, hbe, ?_⟩
  obtain ⟨flow, loc', N, hfl, hN⟩ := hl
    (setLoc (setLoc (setLoc (setLoc (setLoc (fun _ => .none)
    .chunkRegistry (.reg (.ptr (.struct .IFF_ChunkRegistry)) (.ptr (.struct .IFF_ChunkRegistry) q)))
    .list (.reg (.ptr (.struct .IFF_List)) (.ptr (.struct .IFF_List) ⟨.heap p, 0⟩)))
    .chunkSize (.reg (.int .int) (.int .int 0))) .i (.reg (.int .uint) .undef)) .i (.reg (.int .uint) (.int .uint 0)))
    (by simp [setLoc]) (by simp [setLoc]) (by simp [setLoc]) (by simp [setLoc])
  refine ⟨N + 1, fun n hn => ?_⟩
  obtain ⟨n, rfl⟩ : ∃ n', n = n' + 1 := ⟨n - 1, by omega⟩
  have hw := hN n (by omega) n (by omega)
  rw [callFn_code rfl]
  rcases hfl with rfl | ⟨rfl, hcs⟩
  · crun [checkListPropChunks.code, ↓exec_for', hw, wrapInt_of hbe, List.take_length]
  · crun [checkListPropChunks.code, ↓exec_for', hw, hcs, wrapInt_of hbe, List.take_length]

theorem inInt_beq_neg1 {x : Int} (h : x ≠ -1) : (x == -1) = false := by simpa using h

/-- group.c:181-197 -/
theorem checkGroup_run {q : Ptr} {cc : ID → Addr → M (HX (List Msg)) Bool}
    (IH : CheckIH X q inp out room text cc) {f f' : Fn} {sub : Addr → Addr → M (HX (List Msg)) Bool}
    {ty : ID → M (List Msg) Bool} (hty : TypeRun X f' ty)
    (hsub : SubRun X f sub) {p : Addr} {r : Bool} {s s' : HX (List Msg)} (hm : Rep s.mem)
    (h : Heap.checkGroup X.e cc ty sub p s = .val (r, s')) :
    s'.mem = s.mem ∧ Runs X .IFF_checkGroup
      [.ptr (.struct .IFF_Group) ⟨.heap p, 0⟩, .fn f', .fn f, .ptr (.struct .IFF_ChunkRegistry) q]
      (sc X stk inp out room text s) (truth r) (sc X stk inp out room text s') := by
  unfold Heap.checkGroup at h
  obtain ⟨g, s1, h1, k1⟩ := bind_inv h
  clear h
  obtain ⟨rfl, hd, sz, rest, hz1, hz, ⟨b, hb1, hb2, hb3⟩, hb⟩ := hgetGrp (X := X) h1
  obtain ⟨r2, s2, h2, k2⟩ := bind_inv k1
  obtain ⟨w, h2', rfl⟩ := dev_inv h2
  have ht := fun n => hty (stk := stk) (inp := inp) (out := out) (text := text) (room := room) (n := n)
    (tick := s1.tick) (heap := heapOf X.e s1.mem) h2'
  cases r2 with
  | false =>
    simp only [Bool.false_eq_true, if_false] at k2
    obtain ⟨rfl, rfl⟩ := pure_inv k2
    refine ⟨rfl, 9, fun n hn => ?_⟩
    obtain ⟨n, rfl⟩ : ∃ n', n = n' + 9 := ⟨n - 9, by omega⟩
    rw [callFn_code rfl]
    crun [IFF_checkGroup.code, blkOf_heap hb, hz, toNat_emod, ht, List.take_length]
    rfl
  | true =>
    simp only [if_true] at k2
    obtain ⟨x, s3, h3, k3⟩ := bind_inv k2
    obtain ⟨hm3, hx, N, hN⟩ := checkGroupSubChunks_run (stk := stk) (s := ⟨s1.mem, s1.tick, w⟩) IH hsub hm h3
    simp only at hm3
    by_cases hx1 : x = -1
    · rw [if_pos hx1] at k3
      obtain ⟨rfl, rfl⟩ := pure_inv k3
      refine ⟨hm3, N + 9, fun n hn => ?_⟩
      obtain ⟨n, rfl⟩ : ∃ n', n = n' + 9 := ⟨n - 9, by omega⟩
      have hc := hN (n + 8) (by omega)
      subst hx1
      have hx2 : ((-1 : Int) == -1) = true := rfl
      rw [callFn_code rfl]
      crun [IFF_checkGroup.code, blkOf_heap hb, hz, toNat_emod, ht, hc, wrapInt_of hx, inInt_neg1, hx2, List.take_length]
      rfl
    · rw [if_neg hx1] at k3
      obtain ⟨y, s4, h4, k4⟩ := bind_inv k3
      obtain ⟨h4', rfl⟩ := ofOut_inv h4
      obtain ⟨hy, rfl⟩ := addInt_inv h4'
      have hp : ∃ b g, s4.mem p = some b ∧ b.grp? = some g := by rw [hm3]; exact ⟨b, g, hb1, hb3⟩
      have hcz := fun n => checkGroupChunkSize_run (X := X) (stk := stk) (inp := inp) (out := out) (text := text) (room := room) (n := n)
        (by rw [hm3]; exact hm) hy hp k4
      have hm4 := (hcz 0).1
      have hcz := fun n => (hcz n).2
      refine ⟨hm4.trans hm3, N + 9, fun n hn => ?_⟩
      obtain ⟨n, rfl⟩ : ∃ n', n = n' + 9 := ⟨n - 9, by omega⟩
      have hc := hN (n + 8) (by omega)
      have hcz := hcz n
      have hi4 : (idSize : Int) = 4 := rfl
      rw [hi4] at hcz hy
      rw [callFn_code rfl]
      cases r <;>
      crun [IFF_checkGroup.code, blkOf_heap hb, hz, toNat_emod, ht, hc, wrapInt_of hx, inInt_neg1, inInt_beq_neg1 hx1, hy, wrapInt_of hy, hcz, List.take_length] <;>
      rfl

/-- form.c:174-177 -/
theorem check_form {q : Ptr} {p : Addr} {g g' : CS} {r : Bool}
    (h : Runs X .IFF_checkGroup [.ptr (.struct .IFF_Group) ⟨.heap p, 0⟩, .fn .IFF_checkFormType, .fn .form_subChunkCheck,
      .ptr (.struct .IFF_ChunkRegistry) q] g (truth r) g') (hl : g'.stk.length = g.stk.length) :
    Runs X .IFF_checkForm [.ptr (.struct .IFF_Chunk) ⟨.heap p, 0⟩,
      .ptr (.struct .IFF_ChunkRegistry) q] g (truth r) g' := by
  obtain ⟨N, hN⟩ := h
  refine ⟨N + 1, fun n hn => ?_⟩
  obtain ⟨n, rfl⟩ : ∃ n', n = n' + 1 := ⟨n - 1, by omega⟩
  have hc := hN n (by omega)
  obtain ⟨heap, tick, stk, inp, out, room, text, log⟩ := g
  obtain ⟨heap', tick', stk', inp', out', room', text', log'⟩ := g'
  simp only at hl
  rw [callFn_code rfl]
  crun [IFF_checkForm.code, hc, ← hl, List.take_length]

/-- cat.c:122-125 -/
theorem check_cat {q : Ptr} {p : Addr} {g g' : CS} {r : Bool}
    (h : Runs X .IFF_checkGroup [.ptr (.struct .IFF_Group) ⟨.heap p, 0⟩, .fn .IFF_checkId, .fn .IFF_checkCATSubChunk,
      .ptr (.struct .IFF_ChunkRegistry) q] g (truth r) g') (hl : g'.stk.length = g.stk.length) :
    Runs X .IFF_checkCAT [.ptr (.struct .IFF_Chunk) ⟨.heap p, 0⟩,
      .ptr (.struct .IFF_ChunkRegistry) q] g (truth r) g' := by
  obtain ⟨N, hN⟩ := h
  refine ⟨N + 1, fun n hn => ?_⟩
  obtain ⟨n, rfl⟩ : ∃ n', n = n' + 1 := ⟨n - 1, by omega⟩
  have hc := hN n (by omega)
  obtain ⟨heap, tick, stk, inp, out, room, text, log⟩ := g
  obtain ⟨heap', tick', stk', inp', out', room', text', log'⟩ := g'
  simp only at hl
  rw [callFn_code rfl]
  crun [IFF_checkCAT.code, hc, ← hl, List.take_length]

/-- prop.c:81-84 -/
theorem check_prop {q : Ptr} {p : Addr} {g g' : CS} {r : Bool}
    (h : Runs X .IFF_checkGroup [.ptr (.struct .IFF_Group) ⟨.heap p, 0⟩, .fn .IFF_checkFormType, .fn .prop_subChunkCheck,
      .ptr (.struct .IFF_ChunkRegistry) q] g (truth r) g') (hl : g'.stk.length = g.stk.length) :
    Runs X .IFF_checkProp [.ptr (.struct .IFF_Chunk) ⟨.heap p, 0⟩,
      .ptr (.struct .IFF_ChunkRegistry) q] g (truth r) g' := by
  obtain ⟨N, hN⟩ := h
  refine ⟨N + 1, fun n hn => ?_⟩
  obtain ⟨n, rfl⟩ : ∃ n', n = n' + 1 := ⟨n - 1, by omega⟩
  have hc := hN n (by omega)
  obtain ⟨heap, tick, stk, inp, out, room, text, log⟩ := g
  obtain ⟨heap', tick', stk', inp', out', room', text', log'⟩ := g'
  simp only at hl
  rw [callFn_code rfl]
  crun [IFF_checkProp.code, hc, ← hl, List.take_length]

/-- list.c:184-211 -/
theorem checkList_run {q : Ptr} {cc : ID → Addr → M (HX (List Msg)) Bool}
    (IH : CheckIH X q inp out room text cc) {p : Addr} {r : Bool} {s s' : HX (List Msg)} (hm : Rep s.mem)
    (h : Heap.checkList X.e cc p s = .val (r, s')) :
    s'.mem = s.mem ∧ Runs X .IFF_checkList
      [.ptr (.struct .IFF_Chunk) ⟨.heap p, 0⟩, .ptr (.struct .IFF_ChunkRegistry) q]
      (sc X stk inp out room text s) (truth r) (sc X stk inp out room text s') := by
  unfold Heap.checkList at h
  obtain ⟨l, s0, h0, k0⟩ := bind_inv h
  clear h
  obtain ⟨rfl, hd, g, ⟨b, hb1, -, hb2, hb3⟩, hb⟩ := hgetLst (X := X) h0
  obtain ⟨g', s1, h1, k1⟩ := bind_inv k0
  clear k0
  obtain ⟨rfl, -, -, -, -, -, ⟨b', hb1', -, hb2'⟩, -⟩ := hgetGrp (X := X) h1
  rw [hb1] at hb1'; cases hb1'
  rw [hb2] at hb2'; cases hb2'
  obtain ⟨r2, s2, h2, k2⟩ := bind_inv k1
  clear k1
  obtain ⟨w, h2', rfl⟩ := dev_inv h2
  have ht := fun n => checkId_run (stk := stk) (inp := inp) (out := out) (text := text) (room := room) (n := n)
    (tick := s1.tick) (heap := heapOf X.e s1.mem) h2'
  have hi4 : (idSize : Int) = 4 := rfl
  have hi4' : inInt 4 := by simp only [inInt]; omega
  have hx2 : ((-1 : Int) == -1) = true := rfl
  cases r2 with
  | false =>
    simp only [Bool.false_eq_true, if_false] at k2
    obtain ⟨rfl, rfl⟩ := pure_inv k2
    refine ⟨rfl, 9, fun n hn => ?_⟩
    obtain ⟨n, rfl⟩ : ∃ n', n = n' + 9 := ⟨n - 9, by omega⟩
    rw [callFn_code rfl]
    crun [IFF_checkList.code, blkOf_heap hb, toNat_emod, ht, wrapInt_of hi4', List.take_length]
    rfl
  | true =>
    simp only [if_true] at k2
    obtain ⟨x, s3, h3, k3⟩ := bind_inv k2
    clear k2
    obtain ⟨hm3, hx, N, hN⟩ := checkListPropChunks_run (stk := stk) (s := ⟨s1.mem, s1.tick, w⟩) IH hm h3
    simp only at hm3
    by_cases hx1 : x = -1
    · rw [if_pos hx1] at k3
      obtain ⟨rfl, rfl⟩ := pure_inv k3
      refine ⟨hm3, N + 9, fun n hn => ?_⟩
      obtain ⟨n, rfl⟩ : ∃ n', n = n' + 9 := ⟨n - 9, by omega⟩
      have hc := hN (n + 8) (by omega)
      subst hx1
      rw [callFn_code rfl]
      crun [IFF_checkList.code, blkOf_heap hb, toNat_emod, ht, hc, wrapInt_of hi4', wrapInt_of hx, inInt_neg1, hx2, List.take_length]
      rfl
    · rw [if_neg hx1] at k3
      obtain ⟨y, s4, h4, k4⟩ := bind_inv k3
      clear k3
      obtain ⟨h4', rfl⟩ := ofOut_inv h4
      obtain ⟨hy, rfl⟩ := addInt_inv h4'
      obtain ⟨x', s5, h5, k5⟩ := bind_inv k4
      clear k4
      obtain ⟨hm5, hx', N', hN'⟩ := checkGroupSubChunks_run (stk := stk) IH catSubChunkCheck_run (by rw [hm3]; exact hm) h5
      rw [hi4] at hy k5
      by_cases hx1' : x' = -1
      · rw [if_pos hx1'] at k5
        obtain ⟨rfl, rfl⟩ := pure_inv k5
        refine ⟨hm5.trans hm3, max N N' + 9, fun n hn => ?_⟩
        obtain ⟨n, rfl⟩ : ∃ n', n = n' + 9 := ⟨n - 9, by omega⟩
        have hc := hN (n + 8) (by omega)
        have hc' := hN' (n + 8) (by omega)
        subst hx1'
        rw [callFn_code rfl]
        crun [IFF_checkList.code, blkOf_heap hb, toNat_emod, ht, hc, hc', wrapInt_of hi4', wrapInt_of hx, wrapInt_of hx', inInt_neg1, hx2, inInt_beq_neg1 hx1, hy, wrapInt_of hy, List.take_length]
        rfl
      · rw [if_neg hx1'] at k5
        obtain ⟨y', s6, h6, k6⟩ := bind_inv k5
        clear k5
        obtain ⟨h6', rfl⟩ := ofOut_inv h6
        obtain ⟨hy', rfl⟩ := addInt_inv h6'
        have hm6 := hm5.trans hm3
        have hp : ∃ b g, s6.mem p = some b ∧ b.grp? = some g := by rw [hm6]; exact ⟨b, _, hb1, hb2⟩
        have hcz := fun n => checkGroupChunkSize_run (X := X) (stk := stk) (inp := inp) (out := out) (text := text) (room := room) (n := n)
          (by rw [hm6]; exact hm) hy' hp k6
        have hm7 := (hcz 0).1
        have hcz := fun n => (hcz n).2
        refine ⟨hm7.trans hm6, max N N' + 9, fun n hn => ?_⟩
        obtain ⟨n, rfl⟩ : ∃ n', n = n' + 9 := ⟨n - 9, by omega⟩
        have hc := hN (n + 8) (by omega)
        have hc' := hN' (n + 8) (by omega)
        have hcz := hcz n
        rw [callFn_code rfl]
        cases r <;>
        crun [IFF_checkList.code, blkOf_heap hb, toNat_emod, ht, hc, hc', wrapInt_of hi4', wrapInt_of hx, wrapInt_of hx', inInt_neg1, inInt_beq_neg1 hx1, inInt_beq_neg1 hx1', hy, wrapInt_of hy, hy', wrapInt_of hy', hcz, List.take_length] <;>
        rfl

/-- tests/hello.c:82-93 -/
theorem checkHello_run {q : Ptr} {p : Addr} {s s' : HX (List Msg)} {r : Bool} {fields : List Field} {chk : List Val → Bool}
    (hh : helloType = .ext fields chk) (h : Heap.checkExt fields chk p s = .val (r, s')) : s'.mem = s.mem ∧
    callFn X (n + 8) .TEST_checkHello [.ptr (.struct .IFF_Chunk) ⟨.heap p, 0⟩, .ptr (.struct .IFF_ChunkRegistry) q]
      (sc X stk inp out room text s) = .val (truth r, sc X stk inp out room text s') := by
  cases hh
  unfold Heap.checkExt at h
  obtain ⟨vals, s1, h1, k1⟩ := bind_inv h
  clear h
  obtain ⟨rfl, hd, hm, hk⟩ := hgetExt h1
  obtain ⟨a, b, c, rfl, g⟩ := hello_at (X := X) hm hk
  have hw : wrapInt (c.toNat : Int) = c.toNat := wrapInt_of (by simp only [inInt]; omega)
  have h0 : decide ((c.toNat : Int) < 0) = false := by simp
  by_cases hc : c.toNat ≤ 1024
  · simp only [decide_eq_true hc, if_true] at k1
    obtain ⟨rfl, rfl⟩ := pure_inv k1
    refine ⟨rfl, ?_⟩
    rw [callFn_code rfl]
    crun [TEST_checkHello.code, find_Hello_c, blkOf_heap g, hw, h0, decide_eq_false (show ¬ (c.toNat : Int) > 1024 by omega), List.take_length]
    try rfl
  · simp only [decide_eq_false hc, Bool.false_eq_true, if_false] at k1
    cases k1
    refine ⟨rfl, ?_⟩
    rw [callFn_code rfl]
    crun [TEST_checkHello.code, find_Hello_c, blkOf_heap g, hw, h0, decide_eq_true (show (c.toNat : Int) > 1024 by omega), error0, List.take_length]
    simp only [sc, errCalls_snoc, Msg.prints, List.append_assoc, List.cons_append, List.nil_append]
    try rfl

/-- tests/bye.c:75-78 -/
theorem checkBye_run {q : Ptr} {p : Addr} {s s' : HX (List Msg)} {r : Bool} {fields : List Field} {chk : List Val → Bool}
    (hh : byeType = .ext fields chk) (h : Heap.checkExt fields chk p s = .val (r, s')) : s'.mem = s.mem ∧
    callFn X (n + 8) .TEST_checkBye [.ptr (.struct .IFF_Chunk) ⟨.heap p, 0⟩, .ptr (.struct .IFF_ChunkRegistry) q]
      (sc X stk inp out room text s) = .val (truth r, sc X stk inp out room text s') := by
  cases hh
  unfold Heap.checkExt at h
  obtain ⟨vals, s1, h1, k1⟩ := bind_inv h
  clear h
  obtain ⟨rfl, hd, hm, hk⟩ := hgetExt h1
  obtain ⟨rfl, rfl⟩ := pure_inv k1
  refine ⟨rfl, ?_⟩
  rw [callFn_code rfl]
  crun [TEST_checkBye.code, List.take_length]
  try rfl

/-- chunk.c:97-106 -/
theorem checkChunk_run {q : Ptr} {r : Registry} (hr : RegAt X q r) : ∀ {k : Nat},
    CheckIH X q inp out room text (Heap.checkChunk X.e r k) := by
  intro k
  induction k with
  | zero => intro stk ft c s s' b _ h; cases h
  | succ k ih =>
    intro stk ft c s s' res hm h
    unfold Heap.checkChunk at h
    obtain ⟨hd, s1, h1, k1⟩ := bind_inv h
    clear h
    obtain ⟨rfl, sz, rest, hz, -, hb⟩ := hgetHdr (X := X) h1
    obtain ⟨r2, s2, h2, k2⟩ := bind_inv k1
    clear k1
    obtain ⟨w, h2', rfl⟩ := dev_inv h2
    have ht := fun n => checkId_run (stk := stk) (inp := inp) (out := out) (text := text) (room := room) (n := n)
      (tick := s1.tick) (heap := heapOf X.e s1.mem) h2'
    cases r2 with
    | false =>
      simp only [Bool.false_eq_true, if_false] at k2
      obtain ⟨rfl, rfl⟩ := pure_inv k2
      refine ⟨rfl, 8, fun n hn => ?_⟩
      obtain ⟨n, rfl⟩ : ∃ n', n = n' + 8 := ⟨n - 8, by omega⟩
      rw [callFn_code rfl]
      crun [IFF_checkChunk.code, blkOf_heap hb, hz, toNat_emod, ht, List.take_length]
      try rfl
    | true =>
      simp only [if_true] at k2
      obtain ⟨fns, hf, hfind⟩ := find_run hr ft hd.id
      have key : ∃ f, fns[3]? = some f ∧ s'.mem = s1.mem ∧ Runs X f [
          .ptr (.struct .IFF_Chunk) ⟨.heap c, 0⟩, .ptr (.struct .IFF_ChunkRegistry) q]
          (sc X stk inp out room text ⟨s1.mem, s1.tick, w⟩) (truth res) (sc X stk inp out room text s') := by
        cases hh : findChunkType r ft hd.id <;> rw [hh] at k2 hf <;> cases hf <;>
          refine ⟨_, rfl, ?_⟩
        · obtain ⟨rfl, rfl⟩ := pure_inv k2
          refine ⟨rfl, 1, fun n hn => ?_⟩
          obtain ⟨n, rfl⟩ : ∃ n', n = n' + 1 := ⟨n - 1, by omega⟩
          rw [callFn_code rfl]
          crun [IFF_checkRawChunk.code, List.take_length]
          try rfl
        · obtain ⟨ha, hc⟩ := checkGroup_run (stk := stk) (s := ⟨s1.mem, s1.tick, w⟩) ih checkFormType_type formSubChunkCheck_run hm k2
          exact ⟨ha, check_form hc rfl⟩
        · obtain ⟨ha, hc⟩ := checkGroup_run (stk := stk) (s := ⟨s1.mem, s1.tick, w⟩) ih checkId_type catSubChunkCheck_run hm k2
          exact ⟨ha, check_cat hc rfl⟩
        · exact checkList_run (stk := stk) (s := ⟨s1.mem, s1.tick, w⟩) ih hm k2
        · obtain ⟨ha, hc⟩ := checkGroup_run (stk := stk) (s := ⟨s1.mem, s1.tick, w⟩) ih checkFormType_type propSubChunkCheck_run hm k2
          exact ⟨ha, check_prop hc rfl⟩
        · refine ⟨(checkHello_run (X := X) (n := 0) (q := q) (stk := stk) (inp := inp) (out := out) (room := room) (text := text) rfl k2).1, 8, fun n hn => ?_⟩
          obtain ⟨n, rfl⟩ : ∃ n', n = n' + 8 := ⟨n - 8, by omega⟩
          exact (checkHello_run rfl k2).2
        · refine ⟨(checkBye_run (X := X) (n := 0) (q := q) (stk := stk) (inp := inp) (out := out) (room := room) (text := text) rfl k2).1, 8, fun n hn => ?_⟩
          obtain ⟨n, rfl⟩ : ∃ n', n = n' + 8 := ⟨n - 8, by omega⟩
          exact (checkBye_run rfl k2).2
      obtain ⟨f, hf2, hme, N, hN⟩ := key
      refine ⟨hme, max N (Registry.depth r + 4) + 8, fun n hn => ?_⟩
      obtain ⟨n, rfl⟩ : ∃ n', n = n' + 8 := ⟨n - 8, by omega⟩
      have hcl := hN (n + 7) (by omega)
      obtain ⟨kk, jj, B, hq2, hi, hmo, hfs⟩ := hfind (sc X stk inp out room text ⟨s1.mem, s1.tick, w⟩) (n + 7) (by omega)
      have hcell := hfs 3 f hf2
      have hmo := hmo .checkExtensionChunk 4 rfl
      rw [callFn_code rfl]
      crun [IFF_checkChunk.code, blkOf_heap hb, hz, toNat_emod, ht, hq2, hmo, blkOf_static hi, hcell, hcl, List.take_length]
      try rfl

/-- iff.c:127-140 -/
theorem check_run (hX : X.Linked) {reg : Option Registry} {q : Ptr} (hq : RegArg X reg q)
    {k : Nat} {p : Addr} {s s' : HX (List Msg)} {r : Bool} (hm : Rep s.mem)
    (h : Heap.check X.e reg k p s = .val (r, s')) : s'.mem = s.mem ∧
    Runs X .IFF_check [.ptr (.struct .IFF_Chunk) ⟨.heap p, 0⟩, .ptr (.struct .IFF_ChunkRegistry) q]
      (sc X stk inp out room text s) (truth r) (sc X stk inp out room text s') := by
  unfold Heap.check at h
  obtain ⟨hd, s1, h1, k1⟩ := bind_inv h
  clear h
  obtain ⟨rfl, sz, rest, hz, -, hb⟩ := hgetHdr (X := X) h1
  by_cases hi : hd.id ≠ idFORM ∧ hd.id ≠ idCAT ∧ hd.id ≠ idLIST
  · rw [if_pos hi] at k1
    cases k1
    refine ⟨rfl, 8, fun n hn => ?_⟩
    obtain ⟨n, rfl⟩ : ∃ n', n = n' + 8 := ⟨n - 8, by omega⟩
    rw [callFn_code rfl]
    crun [IFF_check.code, blkOf_heap hb, hz, toNat_emod, ↓evalE_FORM, ↓evalE_CAT, ↓evalE_LIST, uint_bne,
      decide_eq_false hi.1, decide_eq_false hi.2.1, decide_eq_false hi.2.2, Bool.not_false, error0, List.take_length]
    simp only [sc, errCalls_snoc, Msg.prints, List.append_assoc, List.cons_append, List.nil_append]
    rfl
  · rw [if_neg hi] at k1
    obtain ⟨q', hr, hsel⟩ := select_run hX hq
    obtain ⟨hme, N, hN⟩ := checkChunk_run (stk := stk) (inp := inp) (out := out) (room := room) (text := text) hr hm k1
    have hN' : ∀ n, N ≤ n → callFn X n .IFF_checkChunk [.ptr (.struct .IFF_Chunk) ⟨.heap p, 0⟩,
        .int .int 0, .ptr (.struct .IFF_ChunkRegistry) q'] (sc X stk inp out room text s1) =
        .val (truth r, sc X stk inp out room text s') := fun n hn => by
      rw [← hN n hn]; exact callFn_args rfl rfl
    refine ⟨hme, N + 8, fun n hn => ?_⟩
    obtain ⟨n, rfl⟩ : ∃ n', n = n' + 8 := ⟨n - 8, by omega⟩
    have hr := hN' (n + 7) (by omega)
    rw [callFn_code rfl]
    by_cases i1 : hd.id = idFORM
    · crun [IFF_check.code, blkOf_heap hb, hz, toNat_emod, ↓evalE_FORM, uint_bne, decide_eq_true i1, Bool.not_true, hsel, hr, List.take_length]
    · by_cases i2 : hd.id = idCAT
      · crun [IFF_check.code, blkOf_heap hb, hz, toNat_emod, ↓evalE_FORM, ↓evalE_CAT, uint_bne, decide_eq_false i1, decide_eq_true i2, Bool.not_true, Bool.not_false, hsel, hr, List.take_length]
      · have i3 : hd.id = idLIST := Classical.byContradiction fun h => hi ⟨i1, i2, h⟩
        crun [IFF_check.code, blkOf_heap hb, hz, toNat_emod, ↓evalE_FORM, ↓evalE_CAT, ↓evalE_LIST, uint_bne, decide_eq_false i1, decide_eq_false i2, decide_eq_true i3, Bool.not_true, Bool.not_false, hsel, hr, List.take_length]

end
end Iff.Src
