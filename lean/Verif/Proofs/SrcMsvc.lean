import Verif.Proofs.SrcMainRun
/-
  The text of the `main` functions of the tools, as compiled by Visual C++.
-/
namespace Iff.Src
open Iff.Spec (ascii)

set_option maxRecDepth 4000

section
variable {X : Cfg} {n : Nat} {command : String} {args : List String} {heap : Nat → Option Blk} {tick : Nat}
  {inp out : List Byte} {room : Nat} {text : List Byte} {log : List ErrPrint} {stk tl : List Blk} {b : Blk}

theorem ppUsageMsvc_run : callFn X (n + 2) .iffpp_printUsageMsvc [.str command]
    ⟨heap, tick, stk, inp, out, room, text, log⟩ =
    .val (.void, ⟨heap, tick, stk, inp, out, room, text ++ ppUsageMsvc command, log⟩) := by
  have h1 := printf_run (X := X) (n := n) (stk := stk) (inp := inp) (out := out) (text := text) (room := room)
    (heap := heap) (tick := tick) (log := log) (fmt := "Usage: %s [OPTION] [file.IFF]\n\n") (vs := [.str command])
    (as := [.charPtr (cString command)]) rfl
    (usage_format "Usage: " " [OPTION] [file.IFF]\n\n" (by decide) (by decide) _)
  rw [callFn_code rfl]
  crun [iffpp_printUsageMsvc.code, h1, puts_run]
  have h2 : ppUsageMsvc command = ascii "Usage: " ++ cString command ++ ascii " [OPTION] [file.IFF]\n\n" ++
    (cString "The command `iffpp' displays a textual representation of a given IFF file, which\ncan be used for manual inspection of its contents. If no IFF file is specified,\nit reads an IFF file from the standard input.\n\nOptions:\n  /c    Do not check the IFF file for validity\n  /?    Shows the usage of this command to the user\n  /v    Shows the version of this command to the user" ++
    [BitVec.ofNat 8 10]) := by
      rw [ppUsageMsvc]
      refine congrArg (HAppend.hAppend (α := List Byte) (β := List Byte) _) ?_
      decide +kernel
  rw [h2]
  simp only [List.append_assoc, List.take_length]

theorem joinUsageMsvc_run : callFn X (n + 2) .iffjoin_printUsageMsvc [.str command]
    ⟨heap, tick, stk, inp, out, room, text, log⟩ =
    .val (.void, ⟨heap, tick, stk, inp, out, room, text ++ joinUsageMsvc command, log⟩) := by
  have h1 := printf_run (X := X) (n := n) (stk := stk) (inp := inp) (out := out) (text := text) (room := room)
    (heap := heap) (tick := tick) (log := log) (fmt := "Usage: %s [OPTION] file1.IFF file2.IFF ...\n\n")
    (vs := [.str command]) (as := [.charPtr (cString command)]) rfl
    (usage_format "Usage: " " [OPTION] file1.IFF file2.IFF ...\n\n" (by decide) (by decide) _)
  rw [callFn_code rfl]
  crun [iffjoin_printUsageMsvc.code, h1, puts_run]
  have h2 : joinUsageMsvc command = ascii "Usage: " ++ cString command ++
    ascii " [OPTION] file1.IFF file2.IFF ...\n\n" ++
    (cString "The command `iffjoin' joins an aribitrary number of IFF files into a single\nconcatenation IFF file. The result is written to the standard output, or\noptionally to a given destination file.\n\nOptions:\n  /o FILE    Specify an output file name\n  /?         Shows the usage of this command to the user\n  /v         Shows the version of this command to the user" ++
    [BitVec.ofNat 8 10]) := by
      rw [joinUsageMsvc]
      refine congrArg (HAppend.hAppend (α := List Byte) (β := List Byte) _) ?_
      decide +kernel
  rw [h2]
  simp only [List.append_assoc, List.take_length]

/-! ### The loop over the arguments -/

/-- The body of the loop over the arguments: iffpp/main.c:75-89, iffjoin/main.c:74-88 -/
def msvcIfs (o : String) (S : Stmt) (usage version : Fn) : Stmt :=
  .ite (.bin .eq (.call (.fn .strcmp) (.cons (.index (.var .argv) (.var .i)) (.cons (.str o) .nil))) (.num .int 0)) S
    (.ite (.bin .eq (.call (.fn .strcmp) (.cons (.index (.var .argv) (.var .i)) (.cons (.str "/?") .nil))) (.num .int 0))
      (.seq (.expr (.call (.fn usage) (.cons (.index (.var .argv) (.num .int 0)) .nil))) (.ret (.num .int 0)))
      (.ite (.bin .eq (.call (.fn .strcmp) (.cons (.index (.var .argv) (.var .i)) (.cons (.str "/v") .nil))) (.num .int 0))
        (.seq (.expr (.call (.fn version) (.cons (.index (.var .argv) (.num .int 0)) .nil))) (.ret (.num .int 0)))
        .skip))

theorem strcmp_run {s t : String} {g : CS} : callFn X (n + 1) .strcmp [.str s, .str t] g =
    .val (.int .int (if s = t then 0 else 1), g) := rfl

theorem argv_cell {e : Env} {j : Nat} {a : String} (h : args[j]? = some a) :
    (argvBlk e command args).cell (j + 1) = .str a := by
  simp only [argvBlk, List.getElem?_cons_succ, h]
  rfl

/-- The variables of the loop. -/
structure LoopVars (args : List String) (v : Var) (t : Ty) (acc : V) (k j : Nat) (loc : Var → Slot) : Prop where
  argc : loc .argc = .reg (.int .int) (.int .int ((args.length + 1 : Nat) : Int))
  argv : loc .argv = .reg (.ptr (.ptr (.int .char))) (.ptr (.ptr (.int .char)) ⟨.stk 1, 0⟩)
  i : loc .i = .reg (.int .uint) (.int .uint ((j + 1 : Nat) : Int))
  acc : loc v = .reg t acc
  optind : loc .optind = .reg (.int .uint) (.int .uint (k : Int))

/-- What happens if an argument is the option. -/
def OptStep (X : Cfg) (command : String) (args : List String) (tl : List Blk) (b : Blk) (o : String) (S : Stmt) (v : Var)
    (t : Ty) (A : V → Prop) (v1 : V) : Prop :=
  A v1 ∧ ∀ n nn acc k j loc heap tick inp out room text log, A acc → LoopVars args v t acc k j loc →
    args[j]? = some o → k + 1 < 4294967296 →
    exec X (callFn X (n + 2)) nn S
      ⟨loc, ⟨heap, tick, b :: argvBlk X.e command args :: tl, inp, out, room, text, log⟩⟩ =
    .val (.norm, ⟨setLoc (setLoc loc v (.reg t v1)) .optind (.reg (.int .uint) (.int .uint ((k + 1 : Nat) : Int))),
      ⟨heap, tick, b :: argvBlk X.e command args :: tl, inp, out, room, text, log⟩⟩)

/-- How the loop ends. -/
def LoopEnds (as : List String) (usage version : List Byte) (o : String) (v : Var) (t : Ty) (acc v1 : V) (k : Nat)
    (loc : Var → Slot) (stk : List Blk) (heap : Nat → Option Blk)
    (tick : Nat) (inp out : List Byte) (room : Nat) (text : List Byte) (log : List ErrPrint) (r : Out (Flow × Fr)) : Prop :=
  match infoMsvc as with
  | some a => ∃ loc', r = .val (.ret (.int .int 0), ⟨loc', ⟨heap, tick, stk, inp, out, room,
      text ++ (if a = "/?" then usage else version), log⟩⟩)
  | none => ∃ loc' : Var → Slot, (∀ x, x ≠ .i → x ≠ v → x ≠ .optind → loc' x = loc x) ∧
      loc' v = .reg t (if o ∈ as then v1 else acc) ∧
      loc' .optind = .reg (.int .uint) (.int .uint ((k + as.count o : Nat) : Int)) ∧
      (∃ y, loc' .i = .reg (.int .uint) (.int .uint y)) ∧
      r = .val (.norm, ⟨loc', ⟨heap, tick, stk, inp, out, room, text, log⟩⟩)

theorem loopMsvc_run {nn : Nat} {o : String} {S : Stmt} {usage version : Fn} {ut vt : List Byte} {v : Var} {t : Ty}
    {A : V → Prop} {v1 : V} (hr : args.length + 1 < 2147483648) (ho1 : o ≠ "/?") (ho2 : o ≠ "/v")
    (hv1 : v ≠ .argc) (hv2 : v ≠ .argv) (hv3 : v ≠ .i) (hv4 : v ≠ .optind)
    (hS : OptStep X command args tl b o S v t A v1)
    (hu : ∀ n stk heap tick inp out room text log, callFn X (n + 2) usage [.str command]
      ⟨heap, tick, stk, inp, out, room, text, log⟩ = .val (.void, ⟨heap, tick, stk, inp, out, room, text ++ ut, log⟩))
    (hv : ∀ n stk heap tick inp out room text log, callFn X (n + 2) version [.str command]
      ⟨heap, tick, stk, inp, out, room, text, log⟩ = .val (.void, ⟨heap, tick, stk, inp, out, room, text ++ vt, log⟩)) :
    ∀ (m j k : Nat) (acc : V) (loc : Var → Slot),
    args.length < j + m → j ≤ args.length → k ≤ j + 1 → A acc → LoopVars args v t acc k j loc →
    LoopEnds (args.drop j) ut vt o v t acc v1 k loc (b :: argvBlk X.e command args :: tl) heap tick inp out room text log
      (whileN (evalC X (callFn X (n + 2)) (.bin .lt (.var .i) (.var .argc)))
        (forBody X (callFn X (n + 2)) nn (msvcIfs o S usage version) (.inc (.var .i))) m
        ⟨loc, ⟨heap, tick, b :: argvBlk X.e command args :: tl, inp, out, room, text, log⟩⟩) := by
  intro m
  induction m with
  | zero => intro j k acc loc h1 h2; omega
  | succ m ih =>
    intro j k acc loc h1 h2 hkj hA hL
    have hi := hL.i
    have hargc := hL.argc
    have hargv := hL.argv
    have hlen : args.length + 1 < 4294967296 := by omega
    rw [whileN_succ]
    rcases Nat.lt_or_ge j args.length with hj | hj
    · have hx : args[j]? = some args[j] := List.getElem?_eq_getElem hj
      have hin : ((j + 1 + 1) * scalarSize X.e (.ptr (.int .char)) ≤ (argvBlk X.e command args).size) = True :=
        eq_true (Nat.mul_le_mul_right _ (by omega))
      have hcond : evalC X (callFn X (n + 2)) (.bin .lt (.var .i) (.var .argc))
          ⟨loc, ⟨heap, tick, b :: argvBlk X.e command args :: tl, inp, out, room, text, log⟩⟩ =
          .val (true, ⟨loc, ⟨heap, tick, b :: argvBlk X.e command args :: tl, inp, out, room, text, log⟩⟩) := by
        crun [hi, hargc, nat_emod hlen, nat_emod (show j + 1 < 4294967296 by omega),
          decide_eq_true (show ((j + 1 : Nat) : Int) < ((args.length + 1 : Nat) : Int) by omega)]
      rw [hcond, obind_val, if_pos rfl]
      by_cases hc : args[j] = o
      · have hstep := hS.2 n nn acc k j loc heap tick inp out room text log hA hL (hc ▸ hx) (by omega)
        have hn := ih (j + 1) (k + 1) v1 (setLoc (setLoc (setLoc loc v (.reg t v1)) .optind
          (.reg (.int .uint) (.int .uint ((k + 1 : Nat) : Int)))) .i
          (.reg (.int .uint) (.int .uint ((j + 1 + 1 : Nat) : Int)))) (by omega) hj (by omega) hS.1
          ⟨by simp [setLoc, hv1.symm, hargc], by simp [setLoc, hv2.symm, hargv], by simp [setLoc],
            by simp [setLoc, hv3, hv4], by simp [setLoc]⟩
        have hi' : setLoc loc v (.reg t v1) .i = .reg (.int .uint) (.int .uint ((j + 1 : Nat) : Int)) := by
          simp [setLoc, hv3.symm, hi]
        have hbody : forBody X (callFn X (n + 2)) nn (msvcIfs o S usage version) (.inc (.var .i))
            ⟨loc, ⟨heap, tick, b :: argvBlk X.e command args :: tl, inp, out, room, text, log⟩⟩ =
            .val (.norm, ⟨setLoc (setLoc (setLoc loc v (.reg t v1)) .optind
              (.reg (.int .uint) (.int .uint ((k + 1 : Nat) : Int)))) .i
              (.reg (.int .uint) (.int .uint ((j + 1 + 1 : Nat) : Int))),
              ⟨heap, tick, b :: argvBlk X.e command args :: tl, inp, out, room, text, log⟩⟩) := by
          crun [↓forBody_obind, msvcIfs, hi, hargv, blkOf_1, Int.natCast_nonneg, Int.toNat_natCast, hin, argv_cell hx,
            ofCell_str, strcmp_run, hc, hstep, hi', nat_emod (show j + 1 < 4294967296 by omega),
            succ_emod (show j + 1 + 1 < 4294967296 by omega), nat_emod (show j + 1 + 1 < 4294967296 by omega)]
          done
        rw [hbody]
        have hinfo : infoMsvc (args.drop j) = infoMsvc (args.drop (j + 1)) := by
          rw [List.drop_eq_getElem_cons hj, infoMsvc, infoMsvc, List.find?_cons_of_neg]
          simp [hc, ho1, ho2]
        simp only [LoopEnds, hinfo] at hn ⊢
        cases hf : infoMsvc (args.drop (j + 1)) with
        | some a => simp only [hf] at hn; exact hn
        | none =>
          simp only [hf] at hn
          obtain ⟨loc', hloc, ha, hk, hy, hrun⟩ := hn
          refine ⟨loc', fun x h1 h2 h3 => ?_, ?_, ?_, hy, hrun⟩
          · rw [hloc x h1 h2 h3]; simp [setLoc, h1, h2, h3]
          · rw [ha, List.drop_eq_getElem_cons hj, hc, if_pos (List.mem_cons_self ..), ite_self]
          · rw [hk, List.drop_eq_getElem_cons hj, hc, List.count_cons_self]
            simp only [Nat.add_assoc, Nat.add_comm 1]
      · by_cases hq : args[j] = "/?"
        · have hbody : forBody X (callFn X (n + 2)) nn (msvcIfs o S usage version) (.inc (.var .i))
              ⟨loc, ⟨heap, tick, b :: argvBlk X.e command args :: tl, inp, out, room, text, log⟩⟩ =
              .val (.ret (.int .int 0), ⟨loc,
                ⟨heap, tick, b :: argvBlk X.e command args :: tl, inp, out, room, text ++ ut, log⟩⟩) := by
            crun [↓forBody_obind, msvcIfs, hi, hargv, blkOf_1, Int.natCast_nonneg, Int.toNat_natCast, hin, argv_cell hx,
              ofCell_str, strcmp_run, hq, if_neg ho1.symm, argv0, argv0_cell, hu]
            done
          rw [hbody]
          have hinfo : infoMsvc (args.drop j) = some "/?" := by
            rw [List.drop_eq_getElem_cons hj, infoMsvc, List.find?_cons_of_pos (by simp [hq]), hq]
          simp only [LoopEnds, hinfo]
          exact ⟨loc, rfl⟩
        · by_cases hw : args[j] = "/v"
          · have hbody : forBody X (callFn X (n + 2)) nn (msvcIfs o S usage version) (.inc (.var .i))
                ⟨loc, ⟨heap, tick, b :: argvBlk X.e command args :: tl, inp, out, room, text, log⟩⟩ =
                .val (.ret (.int .int 0), ⟨loc,
                  ⟨heap, tick, b :: argvBlk X.e command args :: tl, inp, out, room, text ++ vt, log⟩⟩) := by
              crun [↓forBody_obind, msvcIfs, hi, hargv, blkOf_1, Int.natCast_nonneg, Int.toNat_natCast, hin, argv_cell hx,
                ofCell_str, strcmp_run, hw, if_neg ho2.symm, if_neg (show ¬ "/v" = "/?" by decide), argv0, argv0_cell, hv]
              done
            rw [hbody]
            have hinfo : infoMsvc (args.drop j) = some "/v" := by
              rw [List.drop_eq_getElem_cons hj, infoMsvc, List.find?_cons_of_pos (by simp [hw]), hw]
            simp only [LoopEnds, hinfo]
            exact ⟨loc, rfl⟩
          · have hn := ih (j + 1) k acc (setLoc loc .i
              (.reg (.int .uint) (.int .uint ((j + 1 + 1 : Nat) : Int)))) (by omega) hj (by omega) hA
              ⟨by simp [setLoc, hargc], by simp [setLoc, hargv], by simp [setLoc],
                by simp [setLoc, hv3, hL.acc], by simp [setLoc, hL.optind]⟩
            have hbody : forBody X (callFn X (n + 2)) nn (msvcIfs o S usage version) (.inc (.var .i))
                ⟨loc, ⟨heap, tick, b :: argvBlk X.e command args :: tl, inp, out, room, text, log⟩⟩ =
                .val (.norm, ⟨setLoc loc .i (.reg (.int .uint) (.int .uint ((j + 1 + 1 : Nat) : Int))),
                  ⟨heap, tick, b :: argvBlk X.e command args :: tl, inp, out, room, text, log⟩⟩) := by
              crun [↓forBody_obind, msvcIfs, hi, hargv, blkOf_1, Int.natCast_nonneg, Int.toNat_natCast, hin, argv_cell hx,
                ofCell_str, strcmp_run, if_neg hc, if_neg hq, if_neg hw, nat_emod (show j + 1 < 4294967296 by omega),
                succ_emod (show j + 1 + 1 < 4294967296 by omega), nat_emod (show j + 1 + 1 < 4294967296 by omega)]
              done
            rw [hbody]
            have hinfo : infoMsvc (args.drop j) = infoMsvc (args.drop (j + 1)) := by
              rw [List.drop_eq_getElem_cons hj, infoMsvc, infoMsvc, List.find?_cons_of_neg]
              simp [hq, hw]
            simp only [LoopEnds, hinfo] at hn ⊢
            cases hf : infoMsvc (args.drop (j + 1)) with
            | some a => simp only [hf] at hn; exact hn
            | none =>
              simp only [hf] at hn
              obtain ⟨loc', hloc, ha, hk, hy, hrun⟩ := hn
              refine ⟨loc', fun x h1 h2 h3 => ?_, ?_, ?_, hy, hrun⟩
              · rw [hloc x h1 h2 h3]; simp [setLoc, h1]
              · rw [ha, List.drop_eq_getElem_cons hj]
                simp only [List.mem_cons, Ne.symm hc, false_or]
              · rw [hk, List.drop_eq_getElem_cons hj, List.count_cons_of_ne hc]
    · obtain rfl : j = args.length := by omega
      have hcond : evalC X (callFn X (n + 2)) (.bin .lt (.var .i) (.var .argc))
          ⟨loc, ⟨heap, tick, b :: argvBlk X.e command args :: tl, inp, out, room, text, log⟩⟩ =
          .val (false, ⟨loc, ⟨heap, tick, b :: argvBlk X.e command args :: tl, inp, out, room, text, log⟩⟩) := by
        crun [hi, hargc, nat_emod hlen,
          decide_eq_false (show ¬ ((args.length + 1 : Nat) : Int) < ((args.length + 1 : Nat) : Int) by omega)]
      rw [hcond, obind_val, if_neg Bool.false_ne_true, List.drop_length]
      simp only [LoopEnds, infoMsvc, List.find?_nil]
      exact ⟨loc, fun _ _ _ _ => rfl, by simp [hL.acc], by simp [hL.optind], ⟨_, hi⟩, rfl⟩

/-! ### iffpp -/

/-- iffpp/main.c:77-78 -/
def ppOptMsvc : Stmt :=
  .seq (.expr (.assignOp .bor (.var .options) IFFPP_DISABLE_CHECK)) (.expr (.inc (.var .optind)))

theorem ppOpt_step : OptStep X command args tl b "/c" ppOptMsvc .options (.int .int)
    (fun w => ∃ c, w = bit c) (bit true) := by
  refine ⟨⟨true, rfl⟩, ?_⟩
  rintro n nn _ k j loc heap tick inp out room text log ⟨c, rfl⟩ hL hj hk
  have ho := hL.acc
  have hk' := hL.optind
  have h0 : loadL X (.reg .options (.int .int))
    ⟨loc, ⟨heap, tick, b :: argvBlk X.e command args :: tl, inp, out, room, text, log⟩⟩ = .val (bit c,
    ⟨loc, ⟨heap, tick, b :: argvBlk X.e command args :: tl, inp, out, room, text, log⟩⟩) := by
    rw [loadL_reg, ho]; rfl
  have h1 : conv X.e (.int .int) (bit true) = .val (bit true) := by
    rw [bit, conv_int, convI_int, if_pos rfl, show wrapInt 1 = 1 by decide]
  crun [ppOptMsvc, ho, IFFPP_DISABLE_CHECK, ↓h0, bor_bit, h1, hk', nat_emod (show k < 4294967296 by omega),
    succ_emod hk, nat_emod hk]
  done

/-- iffpp/main.c:128-137 -/
def ppEndMsvc : Stmt :=
  .seq (.ite (.bin .ge (.var .optind) (.var .argc))
      (.expr (.assign (.var .filename) .null))
      (.expr (.assign (.var .filename) (.index (.var .argv) (.var .optind)))))
    (.ret (.call (.fn .IFF_prettyPrint) (.cons (.var .filename) (.cons (.var .options) .nil))))

theorem ppEndMsvc_run {nn k : Nat} {loc : Var → Slot} {c : Bool} (hr : args.length + 1 < 2147483648)
    (hk : k ≤ args.length)
    (hargc : loc .argc = .reg (.int .int) (.int .int ((args.length + 1 : Nat) : Int)))
    (hargv : loc .argv = .reg (.ptr (.ptr (.int .char))) (.ptr (.ptr (.int .char)) ⟨.stk 1, 0⟩))
    (hopt : loc .optind = .reg (.int .uint) (.int .uint ((1 + k : Nat) : Int)))
    (ho : loc .options = .reg (.int .int) (bit c)) (hf : loc .filename = .reg (.ptr (.int .char)) .undef) :
    exec X (callFn X n) nn ppEndMsvc
      ⟨loc, ⟨heap, tick, b :: argvBlk X.e command args :: tl, inp, out, room, text, log⟩⟩ =
    obind (callFn X n .IFF_prettyPrint [nameArg ((args.drop k).head?.map String.toList), bit c]
      ⟨heap, tick, b :: argvBlk X.e command args :: tl, inp, out, room, text, log⟩)
      fun r => .val (.ret r.1, ⟨setLoc loc .filename (.reg (.ptr (.int .char))
        (nameArg ((args.drop k).head?.map String.toList))), r.2⟩) := by
  rw [Nat.add_comm] at hopt
  rcases Nat.lt_or_ge k args.length with hj | hj
  · have hx : args[k]? = some args[k] := List.getElem?_eq_getElem hj
    have hin : ((k + 1 + 1) * scalarSize X.e (.ptr (.int .char)) ≤ (argvBlk X.e command args).size) = True :=
      eq_true (Nat.mul_le_mul_right _ (by omega))
    have hge : decide (((args.length + 1 : Nat) : Int) ≤ ((k + 1 : Nat) : Int)) = false := decide_eq_false (by omega)
    crun [ppEndMsvc, hargc, hargv, hopt, ho, hf, blkOf_1, bit, nat_emod (show args.length + 1 < 4294967296 by omega),
      nat_emod (show k + 1 < 4294967296 by omega), hge, Int.natCast_nonneg, Int.toNat_natCast, hin, argv_cell hx, ofCell_str]
    rw [List.head?_drop, hx]
    simp only [Option.map_some, nameArg, String.ofList_toList]
    generalize callFn X n .IFF_prettyPrint _ _ = z
    cases z <;> rfl
  · obtain rfl : k = args.length := by omega
    have hge : decide (((args.length + 1 : Nat) : Int) ≤ ((args.length + 1 : Nat) : Int)) = true := decide_eq_true (by omega)
    crun [ppEndMsvc, hargc, hargv, hopt, ho, hf, bit, nat_emod (show args.length + 1 < 4294967296 by omega), hge]
    rw [List.head?_drop, List.getElem?_eq_none (Nat.le_refl _)]
    simp only [Option.map_none, nameArg]
    generalize callFn X n .IFF_prettyPrint _ _ = z
    cases z <;> rfl

/-- iffpp/main.c:65-66,69-70 -/
def ppVarsMsvc (args : List String) : Var → Slot :=
  setLoc (setLoc (setLoc (setLoc (setLoc (argVars args) .options (.reg (.int .int) (.int .int 0))) .filename
    (.reg (.ptr (.int .char)) .undef)) .optind (.reg (.int .uint) (.int .uint 1))) .i (.reg (.int .uint) .undef))
    .i (.reg (.int .uint) (.int .uint 1))

/-- iffpp/main.c:63-138, with Visual C++ -/
theorem pp_msvc_run {g : CS} (hg : g.stk = startStk X.e command args) (hr : args.length + 1 < 2147483648) :
    PpDoes X .iffpp_mainMsvc (ppUsageMsvc command) command args g (ppMeansMsvc args) := by
  have hw : wrapInt ((args.length + 1 : Nat) : Int) = ((args.length + 1 : Nat) : Int) := wrapInt_of ⟨by omega, by omega⟩
  obtain ⟨heap, tick, stk, inp, out, room, text, log⟩ := g
  cases hg
  have hloop := fun n => loopMsvc_run (X := X) (command := command) (args := args) (heap := heap) (tick := tick)
    (inp := inp) (out := out) (room := room) (text := text) (log := log) (tl := [])
    (b := ⟨24, cells [.int .int 1, .undef, .int .uint 0]⟩) (n := n + args.length) (nn := n + args.length + 2)
    (v := .options) hr (by decide) (by decide) (by decide) (by decide) (by decide) (by decide) ppOpt_step
    (fun n stk heap tick inp out room text log => ppUsageMsvc_run (n := n))
    (fun n stk heap tick inp out room text log => ppVersion_run (n := n))
    (n + args.length + 2) 0 1 (bit false) (ppVarsMsvc args) (by omega) (Nat.zero_le _) (by omega) ⟨false, rfl⟩
    ⟨rfl, rfl, rfl, rfl, rfl⟩
  have hcall : ∀ n, callFn X (n + 1) .iffpp_mainMsvc (mainArgs args)
      ⟨heap, tick, startStk X.e command args, inp, out, room, text, log⟩ =
      obind (obind (whileN (evalC X (callFn X n) (.bin .lt (.var .i) (.var .argc)))
        (forBody X (callFn X n) n (msvcIfs "/c" ppOptMsvc .iffpp_printUsageMsvc .iffpp_printVersion) (.inc (.var .i))) n
        ⟨ppVarsMsvc args, ⟨heap, tick, startStk X.e command args, inp, out, room, text, log⟩⟩)
        fun r => r.1.andThen (exec X (callFn X n) n ppEndMsvc) r.2)
        fun r => obind (Flow.result X.e (.int .int) r.1) fun v => .val (v, { r.2.g with stk := r.2.g.stk.take 2 }) := by
    intro n
    rw [callFn_code rfl]
    crun [iffpp_mainMsvc.code, mainArgs, hw, startStk, ↓exec_for']
    rfl
  have hrun : ∀ {r : Out (V × CS)}, (∀ n, callFn X (n + args.length + 2 + 1) .iffpp_mainMsvc (mainArgs args)
      ⟨heap, tick, startStk X.e command args, inp, out, room, text, log⟩ = r) →
      ∃ N, ∀ n, N ≤ n → callFn X n .iffpp_mainMsvc (mainArgs args)
        ⟨heap, tick, startStk X.e command args, inp, out, room, text, log⟩ = r := by
    intro r h
    refine ⟨args.length + 3, fun n hn => ?_⟩
    obtain ⟨n, rfl⟩ : ∃ n', n = n' + args.length + 2 + 1 := ⟨n - args.length - 3, by omega⟩
    rw [h]
  unfold ppMeansMsvc
  rw [List.drop_zero] at hloop
  cases hf : infoMsvc args with
  | some a =>
    simp only [LoopEnds, hf] at hloop
    by_cases ha : a = "/?"
    · simp only [if_pos ha] at hloop ⊢
      refine ⟨startStk X.e command args, hrun fun n => ?_⟩
      obtain ⟨loc', h⟩ := hloop n
      rw [hcall, startStk, h]
      rfl
    · simp only [if_neg ha] at hloop ⊢
      refine ⟨startStk X.e command args, hrun fun n => ?_⟩
      obtain ⟨loc', h⟩ := hloop n
      rw [hcall, startStk, h]
      rfl
  | none =>
    simp only [LoopEnds, hf] at hloop
    have hcount : args.count "/c" ≤ args.length := List.count_le_length
    have hbit : (if "/c" ∈ args then bit true else bit false) = bit (decide ("/c" ∈ args)) := by
      by_cases h : "/c" ∈ args
      · rw [if_pos h, decide_eq_true h]
      · rw [if_neg h, decide_eq_false h]
    have hlast : ∀ n, callFn X (n + args.length + 2 + 1) .iffpp_mainMsvc (mainArgs args)
        ⟨heap, tick, startStk X.e command args, inp, out, room, text, log⟩ =
        obind (callFn X (n + args.length + 2) .IFF_prettyPrint
          [nameArg ((args.drop (args.count "/c")).head?.map String.toList), bit (decide ("/c" ∈ args))]
          ⟨heap, tick, startStk X.e command args, inp, out, room, text, log⟩) fun r =>
          obind (Flow.result X.e (.int .int) (.ret r.1)) fun v => .val (v, { r.2 with stk := r.2.stk.take 2 }) := by
      intro n
      obtain ⟨loc', h1, h2, h3, -, h⟩ := hloop n
      rw [hbit] at h2
      rw [hcall, startStk, h, obind_val, andThen_norm, ppEndMsvc_run hr hcount (h1 .argc nofun nofun nofun)
        (h1 .argv nofun nofun nofun) h3 h2 (h1 .filename nofun nofun nofun)]
      generalize callFn X _ .IFF_prettyPrint _ _ = z
      cases z <;> rfl
    refine ⟨startStk X.e command args, ?_, ?_⟩
    · rintro st g' hst ⟨N, hN⟩
      refine ⟨N + args.length + 3, fun n hn => ?_⟩
      obtain ⟨n, rfl⟩ : ∃ n', n = n' + args.length + 2 + 1 := ⟨n - args.length - 3, by omega⟩
      refine (hlast n).trans ((congrArg (fun z => obind z _) (hN _ (by omega))).trans ?_)
      rw [obind_val, result_ret_int, convI_int, wrapInt_of ⟨by omega, by omega⟩]
      rfl
    · rintro u ⟨N, hN⟩
      refine ⟨N + args.length + 3, fun n hn => ?_⟩
      obtain ⟨n, rfl⟩ : ∃ n', n = n' + args.length + 2 + 1 := ⟨n - args.length - 3, by omega⟩
      exact (hlast n).trans (congrArg (fun z => obind z _) (hN _ (by omega)))

end

end Iff.Src
