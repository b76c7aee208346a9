import Verif.Proofs.SrcMsvc
/-
  The text of iffjoin's `main`, as compiled by Visual C++.
-/
namespace Iff.Src

set_option maxRecDepth 4000

section
variable {X : Cfg} {n : Nat} {command : String} {args : List String} {heap : Nat → Option Blk} {tick : Nat}
  {inp out : List Byte} {room : Nat} {text : List Byte} {log : List ErrPrint} {stk tl : List Blk} {b : Blk}

/-- iffjoin/main.c:76-77 -/
def joinOptMsvc : Stmt :=
  .seq (.expr (.assign (.var .outputFilename) (.index (.var .argv) (.var .i)))) (.expr (.inc (.var .optind)))

theorem joinOpt_step : OptStep X command args tl b "/o" joinOptMsvc .outputFilename (.ptr (.int .char))
    (fun _ => True) (.str "/o") := by
  refine ⟨trivial, ?_⟩
  rintro n nn w k j loc heap tick inp out room text log - hL hx hk
  have ho := hL.acc
  have hk' := hL.optind
  have hi := hL.i
  have hargv := hL.argv
  have hj : j < args.length := (List.getElem?_eq_some_iff.1 hx).1
  have hin : ((j + 1 + 1) * scalarSize X.e (.ptr (.int .char)) ≤ (argvBlk X.e command args).size) = True :=
    eq_true (Nat.mul_le_mul_right _ (by omega))
  crun [joinOptMsvc, ho, hi, hargv, blkOf_1, Int.natCast_nonneg, Int.toNat_natCast, hin, argv_cell hx, ofCell_str, hk',
    nat_emod (show k < 4294967296 by omega), succ_emod hk, nat_emod hk]
  done

/-! ### The array of file names -/

/-- iffjoin/main.c:145 -/
def fillMsvc : Stmt :=
  .expr (.assign (.index (.var .inputFilenames) (.var .i_1)) (.index (.var .argv) (.bin .add (.var .optind) (.var .i_1))))

/-- The names of the input files. -/
def inputsMsvc (args : List String) (k : Nat) : List Arg := (args.drop k).map String.toList

theorem inputsMsvc_length {k : Nat} : (inputsMsvc args k).length = args.length - k := by
  rw [inputsMsvc, List.length_map, List.length_drop]

theorem inputsMsvc_get {k i : Nat} (h : i < (inputsMsvc args k).length) :
    ∃ a, args[k + i]? = some a ∧ (inputsMsvc args k)[i]? = some a.toList := by
  rw [inputsMsvc_length] at h
  refine ⟨args[k + i], List.getElem?_eq_getElem _, ?_⟩
  rw [inputsMsvc, List.getElem?_map, List.getElem?_drop, List.getElem?_eq_getElem (by omega)]
  rfl

theorem fillMsvc_run {a k : Nat} {nn n' : Nat} (hr : args.length + 1 < 2147483648) (hk : k ≤ args.length) :
    ∀ (m i : Nat) (loc : Var → Slot), (inputsMsvc args k).length < i + m → i ≤ (inputsMsvc args k).length →
      loc .argv = .reg (.ptr (.ptr (.int .char))) (.ptr (.ptr (.int .char)) ⟨.stk 1, 0⟩) →
      loc .optind = .reg (.int .uint) (.int .uint ((1 + k : Nat) : Int)) →
      loc .i_1 = .reg (.int .uint) (.int .uint (i : Int)) →
      loc .inputFilenames = .reg (.ptr (.ptr (.int .char))) (.ptr (.ptr (.int .char)) ⟨.heap a, 0⟩) →
      loc .inputFilenamesLength = .reg (.int .uint) (.int .uint ((inputsMsvc args k).length : Int)) →
    ∃ loc', (∀ x, x ≠ .i_1 → loc' x = loc x) ∧
      whileN (evalC X (callFn X nn) (.bin .lt (.var .i_1) (.var .inputFilenamesLength)))
        (forBody X (callFn X nn) n' fillMsvc (.inc (.var .i_1))) m
        ⟨loc, ⟨setHeap heap a (some (fillB X.e (inputsMsvc args k) i)), tick,
          b :: argvBlk X.e command args :: tl, inp, out, room, text, log⟩⟩ =
      .val (.norm, ⟨loc', ⟨setHeap heap a (some (namesBlk X.e (inputsMsvc args k))), tick,
          b :: argvBlk X.e command args :: tl, inp, out, room, text, log⟩⟩) := by
  have hlen' := inputsMsvc_length (args := args) (k := k)
  intro m
  induction m with
  | zero => intro i loc h1 h2; omega
  | succ m ih =>
    intro i loc h1 h2 hargv ho hi hn hl
    have hlen : (inputsMsvc args k).length < 4294967296 := by omega
    rw [whileN_succ]
    rcases Nat.lt_or_ge i (inputsMsvc args k).length with hk' | hk'
    · obtain ⟨x, hx, hy⟩ := inputsMsvc_get hk'
      have hx' : args[k + i]? = some x := hx
      obtain ⟨loc', hloc, hrun⟩ := ih (i + 1) (setLoc loc .i_1 (.reg (.int .uint) (.int .uint ((i + 1 : Nat) : Int))))
        (by omega) hk' hargv ho rfl hn hl
      refine ⟨loc', fun x hx => by rw [hloc x hx]; simp [setLoc, hx], ?_⟩
      simp only [fillMsvc] at hrun
      have hadd : (((1 + k : Nat) : Int) + (i : Int)) % 4294967296 = ((k + i + 1 : Nat) : Int) := by omega
      have hin : ((k + i + 1 + 1) * scalarSize X.e (.ptr (.int .char)) ≤ (argvBlk X.e command args).size) = True :=
        eq_true (Nat.mul_le_mul_right _ (by omega))
      have hin' : ((i + 1) * scalarSize X.e (.ptr (.int .char)) ≤ (fillB X.e (inputsMsvc args k) i).size) = True :=
        eq_true (Nat.mul_le_mul_right _ hk')
      have hset := fillB_set (e := X.e) hy
      rw [String.ofList_toList] at hset
      crun [hi, hl, hn, hargv, ho, nat_emod hlen, nat_emod (show i < 4294967296 by omega),
        nat_emod (show 1 + k < 4294967296 by omega),
        decide_eq_true (show (i : Int) < (inputsMsvc args k).length by omega), ↓forBody_obind, fillMsvc, blkOf_1,
        hadd, Int.natCast_nonneg, Int.toNat_natCast, hin, argv_cell hx', ofCell_str,
        blkOf_heap setHeap_self, hin', conv, storeL, toCell, hset, setHeap_setHeap, step_obind,
        succ_emod (show i + 1 < 4294967296 by omega), nat_emod (show i + 1 < 4294967296 by omega), hrun]
      done
    · obtain rfl : i = (inputsMsvc args k).length := by omega
      refine ⟨loc, fun _ _ => rfl, ?_⟩
      crun [hi, hl, nat_emod hlen, decide_eq_false (show ¬ ((inputsMsvc args k).length : Int) < (inputsMsvc args k).length by omega),
        fillB_all]

/-- iffjoin/main.c:129-153 -/
def joinEndMsvc : Stmt :=
  .ite (.bin .ge (.var .optind) (.var .argc))
    (.seq (.expr (.call (.fn .fprintf) (.cons (.stream .stderr)
        (.cons (.str "ERROR: No IFF input files given!\n") .nil)))) (.ret (.num .int 1)))
    (.seq (.decl .inputFilenamesLength (.int .uint) (some (.bin .sub (.var .argc) (.var .optind))))
      (.seq (.decl .inputFilenames (.ptr (.ptr (.int .char))) (some (.cast (.ptr (.ptr (.int .char)))
        (.call (.fn .malloc) (.cons (.bin .mul (.var .inputFilenamesLength) (.sizeof (.ptr (.int .char)))) .nil)))))
      (.seq (.decl .i_1 (.int .uint) none)
      (.seq (.decl .status (.int .int) none)
      (.seq (.for (.assign (.var .i_1) (.num .int 0)) (.bin .lt (.var .i_1) (.var .inputFilenamesLength)) (.inc (.var .i_1))
        fillMsvc) joinCall)))))

section
variable {k : Nat} {loc : Var → Slot}
  (hargc : loc .argc = .reg (.int .int) (.int .int ((args.length + 1 : Nat) : Int)))
  (hargv : loc .argv = .reg (.ptr (.ptr (.int .char))) (.ptr (.ptr (.int .char)) ⟨.stk 1, 0⟩))
  (hopt : loc .optind = .reg (.int .uint) (.int .uint ((1 + k : Nat) : Int)))
include hargc hopt

theorem joinMsvc_noInput {nn : Nat} (hr : args.length + 1 < 2147483648) (hk : k = args.length) :
    exec X (callFn X (n + 1)) nn joinEndMsvc
      ⟨loc, ⟨heap, tick, b :: argvBlk X.e command args :: tl, inp, out, room, text, log⟩⟩ =
    .val (.ret (.int .int 1), ⟨loc, ⟨heap, tick, b :: argvBlk X.e command args :: tl, inp, out, room, text, log⟩⟩) := by
  subst hk
  rw [Nat.add_comm] at hopt
  crun [joinEndMsvc, hargc, hopt, nat_emod (show args.length + 1 < 4294967296 by omega), Int.le_refl, decide_true,
    evalE_stderr, fprintf_err]
  done

/-- The locals of `main` when the array of file names has been requested. -/
def fillVarsMsvc (loc : Var → Slot) (len a : Nat) : Var → Slot :=
  setLoc (setLoc (setLoc (setLoc (setLoc loc .inputFilenamesLength (.reg (.int .uint) (.int .uint (len : Int))))
    .inputFilenames (.reg (.ptr (.ptr (.int .char))) (.ptr (.ptr (.int .char)) ⟨.heap a, 0⟩)))
    .i_1 (.reg (.int .uint) .undef)) .status (.reg (.int .int) .undef)) .i_1 (.reg (.int .uint) (.int .uint (0 : Int)))

include hargv

theorem joinMsvc_granted {nn : Nat} {a : Nat} (hr : Reasonable X.e args) (hk : k < args.length)
    (hp : X.pick tick (sizes heap) (namesBlk X.e (inputsMsvc args k)).size = some a) (hn : args.length < nn) :
    ∃ loc', (∀ x, x ≠ .i_1 → loc' x = fillVarsMsvc loc (inputsMsvc args k).length a x) ∧
    exec X (callFn X (n + 1)) nn joinEndMsvc
      ⟨loc, ⟨heap, tick, b :: argvBlk X.e command args :: tl, inp, out, room, text, log⟩⟩ =
    exec X (callFn X (n + 1)) nn joinCall ⟨loc', ⟨setHeap heap a (some (namesBlk X.e (inputsMsvc args k))), tick + 1,
      b :: argvBlk X.e command args :: tl, inp, out, room, text, log⟩⟩ := by
  obtain ⟨hr, hr'⟩ := hr
  have hlen' := inputsMsvc_length (args := args) (k := k)
  have hge : decide (((args.length + 1 : Nat) : Int) ≤ ((1 + k : Nat) : Int)) = false := decide_eq_false (by omega)
  have hsub : (((args.length + 1 : Nat) : Int) - ((1 + k : Nat) : Int)) % 4294967296 =
    ((inputsMsvc args k).length : Int) := by omega
  obtain ⟨loc', hloc, hrun⟩ := fillMsvc_run (X := X) (command := command) (heap := heap) (tick := tick + 1)
    (inp := inp) (out := out) (room := room) (text := text) (log := log) (tl := tl) (b := b) (a := a) (nn := n + 1)
    (n' := nn) hr (Nat.le_of_lt hk) nn 0 (fillVarsMsvc loc (inputsMsvc args k).length a) (by omega) (Nat.zero_le _)
    hargv hopt rfl rfl rfl
  refine ⟨loc', hloc, ?_⟩
  have hb : (X.e.sizeBits / 8) < 4294967296 ∧ 4294967296 ≤ 2 ^ X.e.sizeBits := by
    rcases X.word with h | h <;> rw [h] <;> decide
  have hle := Nat.lt_of_le_of_lt (Nat.mul_le_mul_right (X.e.sizeBits / 8)
    (show (inputsMsvc args k).length ≤ args.length + 2 by omega)) hr'
  rw [fillB_zero] at hrun
  replace hp : X.pick tick (sizes heap) ((inputsMsvc args k).length * (X.e.sizeBits / 8)) = some a := hp
  have hz : toSize X.e ((toSize X.e ((inputsMsvc args k).length : Int) : Int) *
      (toSize X.e ((X.e.sizeBits / 8 : Nat) : Int) : Int)) = (inputsMsvc args k).length * (X.e.sizeBits / 8) := by
    rw [toSize_lt' (by omega), toSize_lt' (by omega), ← Int.natCast_mul, toSize_lt' hle]
  crun [joinEndMsvc, hargc, hopt, nat_emod (show args.length + 1 < 4294967296 by omega),
    nat_emod (show 1 + k < 4294967296 by omega), hge, hsub,
    hz, toSize_lt' hle, mallocC_some hp, nat_emod (show (inputsMsvc args k).length < 4294967296 by omega), ↓exec_for',
    Ty.size, scalarSize, Ptr.ofAddr]
  refine (congrArg (fun z => obind z _) hrun).trans ?_
  rfl

theorem joinMsvc_refused {nn : Nat} (hr : Reasonable X.e args) (hk : k < args.length) (h0 : heap 0 = none)
    (hp : X.pick tick (sizes heap) (namesBlk X.e (inputsMsvc args k)).size = none) :
    exec X (callFn X (n + 1)) (nn + 1) joinEndMsvc
      ⟨loc, ⟨heap, tick, b :: argvBlk X.e command args :: tl, inp, out, room, text, log⟩⟩ = .ub .nullDeref := by
  obtain ⟨hr, hr'⟩ := hr
  have hlen' := inputsMsvc_length (args := args) (k := k)
  have hx : args[k]? = some args[k] := List.getElem?_eq_getElem hk
  have hge : decide (((args.length + 1 : Nat) : Int) ≤ ((k + 1 : Nat) : Int)) = false := decide_eq_false (by omega)
  have hsub : (((args.length + 1 : Nat) : Int) - ((k + 1 : Nat) : Int)) % 4294967296 =
    ((inputsMsvc args k).length : Int) := by omega
  rw [Nat.add_comm 1] at hopt
  have hb : (X.e.sizeBits / 8) < 4294967296 ∧ 4294967296 ≤ 2 ^ X.e.sizeBits := by
    rcases X.word with h | h <;> rw [h] <;> decide
  have hle := Nat.lt_of_le_of_lt (Nat.mul_le_mul_right (X.e.sizeBits / 8)
    (show (inputsMsvc args k).length ≤ args.length + 2 by omega)) hr'
  replace hp : X.pick tick (sizes heap) ((inputsMsvc args k).length * (X.e.sizeBits / 8)) = none := hp
  have hz : toSize X.e ((toSize X.e ((inputsMsvc args k).length : Int) : Int) *
      (toSize X.e ((X.e.sizeBits / 8 : Nat) : Int) : Int)) = (inputsMsvc args k).length * (X.e.sizeBits / 8) := by
    rw [toSize_lt' (by omega), toSize_lt' (by omega), ← Int.natCast_mul, toSize_lt' hle]
  have hin : ((k + 1 + 1) * (X.e.sizeBits / 8) ≤ (argvBlk X.e command args).size) = True :=
    eq_true (Nat.mul_le_mul_right _ (by omega))
  crun [joinEndMsvc, hargc, hopt, nat_emod (show args.length + 1 < 4294967296 by omega),
    nat_emod (show k + 1 < 4294967296 by omega), hge, hsub,
    hz, toSize_lt' hle, mallocC_none hp, nat_emod (show (inputsMsvc args k).length < 4294967296 by omega), ↓exec_for',
    Ty.size, scalarSize, whileN_succ, ↓forBody_obind, fillMsvc,
    decide_eq_true (show (0 : Int) < (inputsMsvc args k).length by omega), blkOf_1, hargv, Int.add_zero,
    Int.natCast_nonneg, Int.toNat_natCast, hin, argv_cell hx, ofCell_str, blkOf_null h0]
  rfl
end

/-- iffjoin/main.c:66,69-70 -/
def joinVarsMsvc (args : List String) : Var → Slot :=
  setLoc (setLoc (setLoc (setLoc (argVars args) .outputFilename (.reg (.ptr (.int .char)) (.ptr (.int .char) Ptr.null)))
    .optind (.reg (.int .uint) (.int .uint 1))) .i (.reg (.int .uint) .undef)) .i (.reg (.int .uint) (.int .uint 1))

/-- iffjoin/main.c:64-154, with Visual C++ -/
theorem join_msvc_run {g : CS} (hg : g.stk = startStk X.e command args) (h0 : g.heap 0 = none)
    (hr : Reasonable X.e args) :
    JoinDoes X .iffjoin_mainMsvc (joinUsageMsvc command) command args g (joinMeansMsvc args) := by
  have hlt := hr.1
  have hw : wrapInt ((args.length + 1 : Nat) : Int) = ((args.length + 1 : Nat) : Int) := wrapInt_of ⟨by omega, by omega⟩
  obtain ⟨heap, tick, stk, inp, out, room, text, log⟩ := g
  cases hg
  have hloop := fun n => loopMsvc_run (X := X) (command := command) (args := args) (heap := heap) (tick := tick)
    (inp := inp) (out := out) (room := room) (text := text) (log := log) (tl := [])
    (b := ⟨24, cells [.int .int 1, .undef, .int .uint 0]⟩) (n := n + args.length) (nn := n + args.length + 2)
    (v := .outputFilename) hr.1 (by decide) (by decide) (by decide) (by decide) (by decide) (by decide) joinOpt_step
    (fun n stk heap tick inp out room text log => joinUsageMsvc_run (n := n))
    (fun n stk heap tick inp out room text log => joinVersion_run (n := n))
    (n + args.length + 2) 0 1 (nameArg none) (joinVarsMsvc args) (by omega) (Nat.zero_le _) (by omega) trivial
    ⟨rfl, rfl, rfl, rfl, rfl⟩
  have hcall : ∀ n, callFn X (n + 1) .iffjoin_mainMsvc (mainArgs args)
      ⟨heap, tick, startStk X.e command args, inp, out, room, text, log⟩ =
      obind (obind (whileN (evalC X (callFn X n) (.bin .lt (.var .i) (.var .argc)))
        (forBody X (callFn X n) n (msvcIfs "/o" joinOptMsvc .iffjoin_printUsageMsvc .iffjoin_printVersion)
          (.inc (.var .i))) n
        ⟨joinVarsMsvc args, ⟨heap, tick, startStk X.e command args, inp, out, room, text, log⟩⟩)
        fun r => r.1.andThen (exec X (callFn X n) n joinEndMsvc) r.2)
        fun r => obind (Flow.result X.e (.int .int) r.1) fun v => .val (v, { r.2.g with stk := r.2.g.stk.take 2 }) := by
    intro n
    rw [callFn_code rfl]
    crun [iffjoin_mainMsvc.code, mainArgs, hw, startStk, ↓exec_for']
    rfl
  have hrun : ∀ {r : Out (V × CS)}, (∀ n, callFn X (n + args.length + 2 + 1) .iffjoin_mainMsvc (mainArgs args)
      ⟨heap, tick, startStk X.e command args, inp, out, room, text, log⟩ = r) →
      ∃ N, ∀ n, N ≤ n → callFn X n .iffjoin_mainMsvc (mainArgs args)
        ⟨heap, tick, startStk X.e command args, inp, out, room, text, log⟩ = r := by
    intro r h
    refine ⟨args.length + 3, fun n hn => ?_⟩
    obtain ⟨n, rfl⟩ : ∃ n', n = n' + args.length + 2 + 1 := ⟨n - args.length - 3, by omega⟩
    rw [h]
  unfold joinMeansMsvc
  rw [List.drop_zero] at hloop
  cases hf : infoMsvc args with
  | some a =>
    simp only [LoopEnds, hf] at hloop
    by_cases ha : a = "/?"
    · simp only [if_pos ha] at hloop ⊢
      refine ⟨startStk X.e command args, hrun fun n => ?_⟩
      obtain ⟨loc', h⟩ := hloop n
      rw [hcall, startStk, h]
      rfl
    · simp only [if_neg ha] at hloop ⊢
      refine ⟨startStk X.e command args, hrun fun n => ?_⟩
      obtain ⟨loc', h⟩ := hloop n
      rw [hcall, startStk, h]
      rfl
  | none =>
    simp only [LoopEnds, hf] at hloop
    have hcount : args.count "/o" ≤ args.length := List.count_le_length
    have hout : (if "/o" ∈ args then V.str "/o" else nameArg none) =
        nameArg (if "/o" ∈ args then some "/o".toList else none) := by
      by_cases h : "/o" ∈ args
      · rw [if_pos h, if_pos h]; rfl
      · rw [if_neg h, if_neg h]
    have hlast : ∀ n, ∃ loc' : Var → Slot,
        loc' .argc = .reg (.int .int) (.int .int ((args.length + 1 : Nat) : Int)) ∧
        loc' .argv = .reg (.ptr (.ptr (.int .char))) (.ptr (.ptr (.int .char)) ⟨.stk 1, 0⟩) ∧
        loc' .optind = .reg (.int .uint) (.int .uint ((1 + args.count "/o" : Nat) : Int)) ∧
        loc' .outputFilename = .reg (.ptr (.int .char)) (nameArg (if "/o" ∈ args then some "/o".toList else none)) ∧
        callFn X (n + args.length + 2 + 1) .iffjoin_mainMsvc (mainArgs args)
        ⟨heap, tick, startStk X.e command args, inp, out, room, text, log⟩ =
        obind (exec X (callFn X (n + args.length + 1 + 1)) (n + args.length + 2) joinEndMsvc
          ⟨loc', ⟨heap, tick, startStk X.e command args, inp, out, room, text, log⟩⟩) fun r =>
          obind (Flow.result X.e (.int .int) r.1) fun v => .val (v, { r.2.g with stk := r.2.g.stk.take 2 }) := by
      intro n
      obtain ⟨loc', h1, h2, h3, -, h⟩ := hloop n
      rw [hout] at h2
      refine ⟨loc', h1 .argc nofun nofun nofun, h1 .argv nofun nofun nofun, h3, h2, ?_⟩
      rw [hcall, startStk, h, obind_val, andThen_norm]
    by_cases hne : args.drop (args.count "/o") = []
    · simp only [if_pos hne]
      have hk : args.count "/o" = args.length := by
        have := List.drop_eq_nil_iff.1 hne
        omega
      refine ⟨startStk X.e command args, hrun fun n => ?_⟩
      obtain ⟨loc', h1, h2, h3, h4, h⟩ := hlast n
      rw [h, startStk, joinMsvc_noInput h1 h3 hr.1 hk]
      rfl
    · simp only [if_neg hne]
      have hk : args.count "/o" < args.length := by
        rw [List.drop_eq_nil_iff] at hne
        omega
      have hlen : (inputsMsvc args (args.count "/o")).length < 4294967296 := by rw [inputsMsvc_length]; omega
      show JoinDoes X _ _ _ _ _ (.run (_, inputsMsvc args (args.count "/o")))
      simp only [JoinDoes]
      cases hp : X.pick tick (sizes heap) (namesBlk X.e (inputsMsvc args (args.count "/o"))).size with
      | none =>
        refine hrun fun n => ?_
        obtain ⟨loc', h1, h2, h3, h4, h⟩ := hlast n
        rw [h, startStk, joinMsvc_refused h1 h2 h3 hr hk h0 hp]
        rfl
      | some a =>
        have ha : a ≠ 0 := (X.sound hp).1
        refine ⟨startStk X.e command args, ?_, ?_⟩
        · rintro st g' hst hg' ⟨N, hN⟩
          refine ⟨N + args.length + 3, fun n hn => ?_⟩
          obtain ⟨n, rfl⟩ : ∃ n', n = n' + args.length + 2 + 1 := ⟨n - args.length - 3, by omega⟩
          obtain ⟨loc', h1, h2, h3, h4, h⟩ := hlast n
          obtain ⟨b, hb⟩ := Option.ne_none_iff_exists'.1 hg'
          obtain ⟨loc2, hloc, hj⟩ := joinMsvc_granted (n := n + args.length + 1) (nn := n + args.length + 2)
            (command := command) (inp := inp) (out := out) (room := room) (text := text) (tl := [])
            (b := ⟨24, cells [.int .int 1, .undef, .int .uint 0]⟩)
            (log := log) h1 h2 h3 hr hk hp (by omega)
          obtain ⟨loc3, hc⟩ := joinCall_run (X := X) (n := n + args.length + 1) (nn := n + args.length + 2) (loc := loc2)
            (len := (inputsMsvc args (args.count "/o")).length) (hloc _ nofun) (hloc _ nofun)
            ((hloc .outputFilename nofun).trans h4) (hloc _ nofun) hlen hst ha hb (hN _ (by omega))
          refine h.trans ((congrArg (fun z => obind z _) (hj.trans hc)).trans ?_)
          rw [obind_val, result_ret_int, convI_int, wrapInt_of ⟨by omega, by omega⟩]
          rfl
        · rintro u ⟨N, hN⟩
          refine ⟨N + args.length + 3, fun n hn => ?_⟩
          obtain ⟨n, rfl⟩ : ∃ n', n = n' + args.length + 2 + 1 := ⟨n - args.length - 3, by omega⟩
          obtain ⟨loc', h1, h2, h3, h4, h⟩ := hlast n
          obtain ⟨loc2, hloc, hj⟩ := joinMsvc_granted (n := n + args.length + 1) (nn := n + args.length + 2)
            (command := command) (inp := inp) (out := out) (room := room) (text := text) (tl := [])
            (b := ⟨24, cells [.int .int 1, .undef, .int .uint 0]⟩)
            (log := log) h1 h2 h3 hr hk hp (by omega)
          have hc := joinCall_fails (X := X) (n := n + args.length + 1) (nn := n + args.length + 2) (loc := loc2)
            (len := (inputsMsvc args (args.count "/o")).length) (hloc _ nofun) (hloc _ nofun)
            ((hloc .outputFilename nofun).trans h4) hlen (hN _ (by omega))
          refine h.trans ((congrArg (fun z => obind z _) (hj.trans hc)).trans ?_)
          rfl

end

end Iff.Src
