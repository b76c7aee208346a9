import Verif.Proofs.SrcMain
/-
  The text of iffjoin's `main`.
-/
namespace Iff.Src

set_option maxRecDepth 4000

/-- iffjoin/main.c:110-124 -/
def joinSwitch : Stmt :=
  .switch (.var .c)
    (.case (.num .int 111) (.seq (.expr (.assign (.var .outputFilename) .optarg)) .break)
    (.case (.num .int 104) (.seq (.expr (.call (.fn .iffjoin_printUsage) (.cons (.index (.var .argv) (.num .int 0)) .nil)))
      (.ret (.num .int 0)))
    (.case (.num .int 63) (.seq (.expr (.call (.fn .iffjoin_printUsage) (.cons (.index (.var .argv) (.num .int 0)) .nil)))
      (.ret (.num .int 1)))
    (.case (.num .int 118) (.seq (.expr (.call (.fn .iffjoin_printVersion) (.cons (.index (.var .argv) (.num .int 0)) .nil)))
      (.ret (.num .int 0)))
    .nil))))

theorem declared_join {x : Opt} (h : Declared joinOpts x) :
    x = .bad ∨ (∃ a, x = .arg 'o' a) ∨ x = .flag 'h' ∨ x = .flag 'v' := by
  cases x with
  | bad => exact .inl rfl
  | arg c a =>
    simp only [Declared, joinOpts] at h
    split at h
    · next hc => subst hc; exact .inr (.inl ⟨a, rfl⟩)
    · split at h <;> cases h
  | flag c =>
    simp only [Declared, joinOpts] at h
    split at h
    · cases h
    · split at h
      · next hc => rcases hc with rfl | rfl <;> simp
      · cases h

section
variable {X : Cfg} {inp out text : List Byte} {room n : Nat} {heap : Nat → Option Blk} {tick : Nat}
  {log : List ErrPrint} {command : String} {args : List String} {tl : List Blk} {os : List Opt} {rest : List Arg}

section
variable {loc : Var → Slot} {b : Blk} {nn : Nat}
  (hargv : loc .argv = .reg (.ptr (.ptr (.int .char))) (.ptr (.ptr (.int .char)) ⟨.stk 1, 0⟩))
include hargv

theorem joinSwitch_bad (hc : loc .c = .reg (.int .int) (.int .int 63)) :
    exec X (callFn X (n + 2)) nn joinSwitch
      ⟨loc, ⟨heap, tick, b :: argvBlk X.e command args :: tl, inp, out, room, text, log⟩⟩ =
    .val (.ret (.int .int 1), ⟨loc, ⟨heap, tick, b :: argvBlk X.e command args :: tl, inp, out, room,
      text ++ joinUsage command, log⟩⟩) := by
  crun [joinSwitch, hc, hargv, blkOf_1, argv0, argv0_cell, ofCell_str, joinUsage_run]

theorem joinSwitch_h (hc : loc .c = .reg (.int .int) (.int .int 104)) :
    exec X (callFn X (n + 2)) nn joinSwitch
      ⟨loc, ⟨heap, tick, b :: argvBlk X.e command args :: tl, inp, out, room, text, log⟩⟩ =
    .val (.ret (.int .int 0), ⟨loc, ⟨heap, tick, b :: argvBlk X.e command args :: tl, inp, out, room,
      text ++ joinUsage command, log⟩⟩) := by
  crun [joinSwitch, hc, hargv, blkOf_1, argv0, argv0_cell, ofCell_str, joinUsage_run]

theorem joinSwitch_v (hc : loc .c = .reg (.int .int) (.int .int 118)) :
    exec X (callFn X (n + 2)) nn joinSwitch
      ⟨loc, ⟨heap, tick, b :: argvBlk X.e command args :: tl, inp, out, room, text, log⟩⟩ =
    .val (.ret (.int .int 0), ⟨loc, ⟨heap, tick, b :: argvBlk X.e command args :: tl, inp, out, room,
      text ++ versionText command, log⟩⟩) := by
  crun [joinSwitch, hc, hargv, blkOf_1, argv0, argv0_cell, ofCell_str, joinVersion_run]

omit hargv in
theorem joinSwitch_o {a : Arg} {v : V} {k : Nat} (hc : loc .c = .reg (.int .int) (.int .int 111))
    (ho : loc .outputFilename = .reg (.ptr (.int .char)) v) (hk : os[k]? = some (.arg 'o' a)) :
    exec X (callFn X (n + 2)) nn joinSwitch ⟨loc, ⟨heap, tick, optB os (k + 1) :: tl, inp, out, room, text, log⟩⟩ =
    .val (.norm, ⟨setLoc loc .outputFilename (.reg (.ptr (.int .char)) (nameArg (some a))),
      ⟨heap, tick, optB os (k + 1) :: tl, inp, out, room, text, log⟩⟩) := by
  have h1 : (optB os (k + 1)).cell 1 = .str (String.ofList a) := by
    show (os[k]?).elim Cell.undef optArg = _
    rw [hk]; rfl
  crun [joinSwitch, hc, ho, evalE_optarg, blkOf_0, h1, ofCell_str, nameArg]
end

/-- An option with an argument. -/
def isArg : Opt → Bool
  | .arg _ _ => true
  | _ => false

/-- The number of leading options with an argument. -/
def leadArgs (os : List Opt) : Nat := (os.takeWhile isArg).length

/-- How the loop over the options of iffjoin ends. -/
def JoinEnds (X : Cfg) (L : (Var → Slot) → Prop) (command : String) (args : List String) (os : List Opt)
    (rest : List Arg) (tl : Nat → List Blk) (tle : List Blk) (loc : Var → Slot) (heap : Nat → Option Blk) (tick : Nat)
    (inp out : List Byte) (room : Nat) (text : List Byte) (log : List ErrPrint) (j : Nat) (r : Out (Flow × Fr)) :
    Run (Option Arg) → Prop
  | .run c => ∃ loc', L loc' ∧ loc' .outputFilename = .reg (.ptr (.int .char)) (nameArg c) ∧
      r = .val (.norm, ⟨loc', ⟨heap, tick, optE os (args.length + 1 - rest.length) :: argvE X.e command args rest :: tle,
        inp, out, room, text, log⟩⟩)
  | .usage st => ∃ loc', r = .val (.ret (.int .int st), ⟨loc', ⟨heap, tick,
      optB os j :: argvBlk X.e command args :: tl j, inp, out, room, text ++ joinUsage command, log⟩⟩)
  | .version => ∃ loc', r = .val (.ret (.int .int 0), ⟨loc', ⟨heap, tick,
      optB os j :: argvBlk X.e command args :: tl j, inp, out, room, text ++ versionText command, log⟩⟩)
  | .noInput => False

theorem joinLoop_run {E : Expr} {L : (Var → Slot) → Prop} {tl : Nat → List Blk} {tle : List Blk}
    (hs : Steps X E L command args os rest tl tle) (hd : ∀ x ∈ os, Declared joinOpts x) {nn : Nat} :
    ∀ (m k : Nat) (c : Option Arg) (loc : Var → Slot), os.length < k + m → k ≤ os.length → L loc →
      loc .outputFilename = .reg (.ptr (.int .char)) (nameArg c) →
    JoinEnds X L command args os rest tl tle loc heap tick inp out room text log (k + leadArgs (os.drop k) + 1)
      (whileN (evalC X (callFn X (n + 2)) E) (exec X (callFn X (n + 2)) nn joinSwitch) m
        ⟨loc, ⟨heap, tick, optB os k :: argvBlk X.e command args :: tl k, inp, out, room, text, log⟩⟩)
      (joinLoop (os.drop k) c) := by
  intro m
  induction m with
  | zero => intro k c loc h1 h2; omega
  | succ m ih =>
    intro k c loc h1 h2 hL ho
    rw [whileN_succ]
    rcases Nat.lt_or_ge k os.length with hk | hk
    · have hx : os[k]? = some os[k] := List.getElem?_eq_getElem hk
      rw [hs.next (n + 1) k os[k] loc heap tick inp out room text log hL hx, obind_val, if_pos rfl,
        List.drop_eq_getElem_cons hk]
      have hv := hs.vars loc hL
      have hargv := hv.argv
      have hL' : L (setLoc loc .c (.reg (.int .int) (.int .int (optCode os[k])))) :=
        hs.keep loc .c _ hL (.inl rfl) fun _ => ⟨_, rfl⟩
      have hargv' := (hs.vars _ hL').argv
      rcases declared_join (hd os[k] (List.getElem_mem hk)) with h | ⟨a, h⟩ | h | h <;> rw [h] at hL' hargv' hx ⊢
      · refine ⟨setLoc loc .c (.reg (.int .int) (.int .int (optCode .bad))), ?_⟩
        rw [joinSwitch_bad hargv' rfl]
        rfl
      · have hsw := joinSwitch_o (X := X) (n := n) (nn := nn) (heap := heap) (tick := tick) (inp := inp) (out := out)
          (room := room) (text := text) (log := log) (tl := argvBlk X.e command args :: tl (k + 1))
          (loc := setLoc loc .c (.reg (.int .int) (.int .int (optCode (.arg 'o' a))))) (v := nameArg c) rfl ho hx
        rw [hsw]
        obtain h := ih (k + 1) (some a) _ (by omega) hk (hs.keep _ .outputFilename (.reg (.ptr (.int .char))
          (nameArg (some a))) hL' (.inr (.inr rfl)) nofun) rfl
        rw [show k + leadArgs (.arg 'o' a :: os.drop (k + 1)) + 1 = k + 1 + leadArgs (os.drop (k + 1)) + 1 by
          rw [leadArgs, List.takeWhile_cons_of_pos rfl, List.length_cons, ← leadArgs]; omega]
        exact h
      · refine ⟨setLoc loc .c (.reg (.int .int) (.int .int (optCode (.flag 'h')))), ?_⟩
        rw [joinSwitch_h hargv' rfl]
        rfl
      · refine ⟨setLoc loc .c (.reg (.int .int) (.int .int (optCode (.flag 'v')))), ?_⟩
        rw [joinSwitch_v hargv' rfl]
        rfl
    · obtain rfl : k = os.length := by omega
      rw [hs.last (n + 1) loc heap tick inp out room text log hL, obind_val, if_neg Bool.false_ne_true, List.drop_length]
      exact ⟨_, hs.keep loc .c _ hL (.inl rfl) fun _ => ⟨_, rfl⟩, ho, rfl⟩

/-! ### The array of file names -/

/-- iffjoin/main.c:145 -/
def fillBody : Stmt :=
  .expr (.assign (.index (.var .inputFilenames) (.var .i)) (.index (.var .argv) (.bin .add .optind (.var .i))))

/-- The array of file names when `i` names have been stored. -/
def fillB (e : Env) (inputs : List Arg) (i : Nat) : Blk :=
  ⟨inputs.length * (e.sizeBits / 8), fun j => if j < i then (inputs[j]?).elim .undef fun a => .str (String.ofList a)
    else .undef⟩

theorem fillB_zero {e : Env} {inputs : List Arg} : fillB e inputs 0 = ⟨inputs.length * (e.sizeBits / 8), cells []⟩ := by
  simp only [fillB, Nat.not_lt_zero, if_false, Blk.mk.injEq, true_and]
  rfl

theorem fillB_all {e : Env} {inputs : List Arg} : fillB e inputs inputs.length = namesBlk e inputs := by
  simp only [fillB, namesBlk, Blk.mk.injEq, true_and]
  funext j
  split
  · rfl
  · next h => rw [List.getElem?_eq_none (Nat.le_of_not_lt h)]; rfl

theorem fillB_set {e : Env} {inputs : List Arg} {i : Nat} {a : Arg} (h : inputs[i]? = some a) :
    (fillB e inputs i).set i (.str (String.ofList a)) = fillB e inputs (i + 1) := by
  simp only [fillB, Blk.set, Blk.mk.injEq, true_and]
  funext j
  by_cases hj : j = i
  · subst hj
    rw [if_pos rfl, if_pos (Nat.lt_succ_self _), h]
    rfl
  · rw [if_neg hj]
    by_cases hl : j < i
    · rw [if_pos hl, if_pos (by omega)]
    · rw [if_neg hl, if_neg (by omega)]

theorem argvE_cell' {e : Env} {i : Nat} {a : Arg} (hr : rest.length ≤ args.length) (h : rest[i]? = some a) :
    (argvE e command args rest).cell (args.length + 1 - rest.length + i) = .str (String.ofList a) := by
  have hi : i < rest.length := (List.getElem?_eq_some_iff.1 h).1
  simp only [argvE]
  rw [if_neg (by omega), if_neg (by omega), Nat.add_sub_cancel_left, List.getD_eq_getElem?_getD, h]
  rfl

theorem fill_run {tle : List Blk} {a : Nat} {nn n' : Nat} (hr : args.length + 1 < 2147483648)
    (hrest : rest.length ≤ args.length) :
    ∀ (m i : Nat) (loc : Var → Slot), rest.length < i + m → i ≤ rest.length → Vars args loc →
      loc .i = .reg (.int .uint) (.int .uint (i : Int)) →
      loc .inputFilenames = .reg (.ptr (.ptr (.int .char))) (.ptr (.ptr (.int .char)) ⟨.heap a, 0⟩) →
      loc .inputFilenamesLength = .reg (.int .uint) (.int .uint (rest.length : Int)) →
    ∃ loc', (∀ x, x ≠ .i → loc' x = loc x) ∧
      whileN (evalC X (callFn X nn) (.bin .lt (.var .i) (.var .inputFilenamesLength)))
        (forBody X (callFn X nn) n' fillBody (.inc (.var .i))) m
        ⟨loc, ⟨setHeap heap a (some (fillB X.e rest i)), tick,
          optE os (args.length + 1 - rest.length) :: argvE X.e command args rest :: tle, inp, out, room, text, log⟩⟩ =
      .val (.norm, ⟨loc', ⟨setHeap heap a (some (namesBlk X.e rest)), tick,
          optE os (args.length + 1 - rest.length) :: argvE X.e command args rest :: tle, inp, out, room, text, log⟩⟩) := by
  intro m
  induction m with
  | zero => intro i loc h1 h2; omega
  | succ m ih =>
    intro i loc h1 h2 hv hi hn hl
    have hlen : rest.length < 4294967296 := by omega
    rw [whileN_succ]
    rcases Nat.lt_or_ge i rest.length with hk | hk
    · have hx : rest[i]? = some rest[i] := List.getElem?_eq_getElem hk
      have hargv := hv.argv
      obtain ⟨loc', hloc, hrun⟩ := ih (i + 1) (setLoc loc .i (.reg (.int .uint) (.int .uint ((i + 1 : Nat) : Int))))
        (by omega) hk ⟨hv.argc, hv.argv, hv.c⟩ rfl hn hl
      refine ⟨loc', fun x hx => by rw [hloc x hx]; simp [setLoc, hx], ?_⟩
      simp only [fillBody] at hrun
      have hadd : (((args.length + 1 - rest.length : Nat) : Int) + (i : Int)) % 4294967296 =
        ((args.length + 1 - rest.length + i : Nat) : Int) := by omega
      have hin : ((args.length + 1 - rest.length + i + 1) * scalarSize X.e (.ptr (.int .char)) ≤
        (args.length + 2) * (X.e.sizeBits / 8)) = True := eq_true (Nat.mul_le_mul_right _ (by omega))
      have hin' : ((i + 1) * scalarSize X.e (.ptr (.int .char)) ≤ (fillB X.e rest i).size) = True :=
        eq_true (Nat.mul_le_mul_right _ hk)
      crun [hi, hl, hn, hargv, nat_emod hlen, nat_emod (show i < 4294967296 by omega),
        nat_emod (show args.length + 1 - rest.length < 4294967296 by omega),
        decide_eq_true (show (i : Int) < rest.length by omega), ↓forBody_obind, fillBody, evalE_optind, blkOf_0, blkOf_1,
        optE_cell, hadd, Int.natCast_nonneg, Int.toNat_natCast, argvE_size, hin, argvE_cell' hrest hx, ofCell_str,
        blkOf_heap setHeap_self, hin', conv, storeL, toCell, fillB_set hx, setHeap_setHeap, step_obind,
        succ_emod (show i + 1 < 4294967296 by omega), nat_emod (show i + 1 < 4294967296 by omega), hrun]
      done
    · obtain rfl : i = rest.length := by omega
      refine ⟨loc, fun _ _ => rfl, ?_⟩
      crun [hi, hl, nat_emod hlen, decide_eq_false (show ¬ (rest.length : Int) < rest.length by omega), fillB_all]

/-- iffjoin/main.c:148-151 -/
def joinCall : Stmt :=
  .seq (.expr (.assign (.var .status) (.call (.fn .IFF_join) (.cons (.var .inputFilenames)
      (.cons (.var .inputFilenamesLength) (.cons (.var .outputFilename) .nil))))))
    (.seq (.expr (.call (.fn .free) (.cons (.var .inputFilenames) .nil))) (.ret (.var .status)))

/-- iffjoin/main.c:129-153 -/
def joinEnd : Stmt :=
  .ite (.bin .ge .optind (.var .argc))
    (.seq (.expr (.call (.fn .fprintf) (.cons (.stream .stderr)
        (.cons (.str "ERROR: No IFF input files given!\n") .nil)))) (.ret (.num .int 1)))
    (.seq (.decl .inputFilenamesLength (.int .uint) (some (.bin .sub (.var .argc) .optind)))
      (.seq (.decl .inputFilenames (.ptr (.ptr (.int .char))) (some (.cast (.ptr (.ptr (.int .char)))
        (.call (.fn .malloc) (.cons (.bin .mul (.var .inputFilenamesLength) (.sizeof (.ptr (.int .char)))) .nil)))))
      (.seq (.decl .i (.int .uint) none)
      (.seq (.decl .status (.int .int) none)
      (.seq (.for (.assign (.var .i) (.num .int 0)) (.bin .lt (.var .i) (.var .inputFilenamesLength)) (.inc (.var .i))
        fillBody) joinCall)))))

theorem join_noInput {n nn : Nat} {loc : Var → Slot} {tle : List Blk} (hv : Vars args loc)
    (hr : args.length + 1 < 2147483648) :
    exec X (callFn X (n + 1)) nn joinEnd
      ⟨loc, ⟨heap, tick, optE os (args.length + 1 - 0) :: argvE X.e command args [] :: tle, inp, out, room, text, log⟩⟩ =
    .val (.ret (.int .int 1), ⟨loc, ⟨heap, tick, optE os (args.length + 1 - 0) :: argvE X.e command args [] :: tle,
      inp, out, room, text, log⟩⟩) := by
  obtain ⟨h1, h2, -⟩ := hv
  have hw : wrapInt ((args.length + 1 : Nat) : Int) = ((args.length + 1 : Nat) : Int) := wrapInt_of ⟨by omega, by omega⟩
  crun [joinEnd, Nat.sub_zero, evalE_optind, h1, blkOf_0, optE_cell, hw, Int.le_refl, decide_true, evalE_stderr, fprintf_err]
  done

/-- The locals of `main` when the array of file names has been requested. -/
def fillVars (loc : Var → Slot) (len a : Nat) : Var → Slot :=
  setLoc (setLoc (setLoc (setLoc (setLoc loc .inputFilenamesLength (.reg (.int .uint) (.int .uint (len : Int))))
    .inputFilenames (.reg (.ptr (.ptr (.int .char))) (.ptr (.ptr (.int .char)) ⟨.heap a, 0⟩)))
    .i (.reg (.int .uint) .undef)) .status (.reg (.int .int) .undef)) .i (.reg (.int .uint) (.int .uint (0 : Int)))

theorem toSize_lt' {e : Env} {k : Nat} (h : k < 2 ^ e.sizeBits) : toSize e (k : Int) = k := by
  rw [toSize, Int.emod_eq_of_lt (Int.natCast_nonneg _) (by exact_mod_cast h)]
  rfl

theorem join_granted {n nn : Nat} {loc : Var → Slot} {tle : List Blk} {a : Nat} (hv : Vars args loc)
    (hr : Reasonable X.e args) (hrest : rest.length ≤ args.length) (hne : rest ≠ [])
    (hp : X.pick tick (sizes heap) (namesBlk X.e rest).size = some a) (hn : rest.length < nn) :
    ∃ loc', (∀ x, x ≠ .i → loc' x = fillVars loc rest.length a x) ∧
    exec X (callFn X (n + 1)) nn joinEnd
      ⟨loc, ⟨heap, tick, optE os (args.length + 1 - rest.length) :: argvE X.e command args rest :: tle, inp, out, room,
        text, log⟩⟩ =
    exec X (callFn X (n + 1)) nn joinCall ⟨loc', ⟨setHeap heap a (some (namesBlk X.e rest)), tick + 1,
      optE os (args.length + 1 - rest.length) :: argvE X.e command args rest :: tle, inp, out, room, text, log⟩⟩ := by
  obtain ⟨hr, hr'⟩ := hr
  have h1 := hv.argc
  have hpos : 0 < rest.length := List.length_pos_iff.2 hne
  have hw : wrapInt ((args.length + 1 : Nat) : Int) = ((args.length + 1 : Nat) : Int) := wrapInt_of ⟨by omega, by omega⟩
  have hw' : wrapInt ((args.length + 1 - rest.length : Nat) : Int) = ((args.length + 1 - rest.length : Nat) : Int) :=
    wrapInt_of ⟨by omega, by omega⟩
  have hge : decide (((args.length + 1 : Nat) : Int) ≤ ((args.length + 1 - rest.length : Nat) : Int)) = false :=
    decide_eq_false (by omega)
  have hsub : ((args.length + 1 : Nat) : Int) - ((args.length + 1 - rest.length : Nat) : Int) = (rest.length : Int) := by
    omega
  obtain ⟨loc', hloc, hrun⟩ := fill_run (X := X) (command := command) (os := os) (heap := heap) (tick := tick + 1)
    (inp := inp) (out := out) (room := room) (text := text) (log := log) (tle := tle) (a := a) (nn := n + 1) (n' := nn)
    hr hrest nn 0 (fillVars loc rest.length a) (by omega) (Nat.zero_le _) ⟨h1, hv.argv, hv.c⟩ rfl rfl rfl
  refine ⟨loc', hloc, ?_⟩
  have hb : (X.e.sizeBits / 8) < 4294967296 ∧ 4294967296 ≤ 2 ^ X.e.sizeBits := by
    rcases X.word with h | h <;> rw [h] <;> decide
  have hle := Nat.lt_of_le_of_lt (Nat.mul_le_mul_right (X.e.sizeBits / 8)
    (show rest.length ≤ args.length + 2 by omega)) hr'
  have hi : inInt (rest.length : Int) := ⟨by omega, by omega⟩
  rw [fillB_zero] at hrun
  replace hp : X.pick tick (sizes heap) (rest.length * (X.e.sizeBits / 8)) = some a := hp
  have hz : toSize X.e ((toSize X.e (rest.length : Int) : Int) * (toSize X.e ((X.e.sizeBits / 8 : Nat) : Int) : Int)) =
      rest.length * (X.e.sizeBits / 8) := by
    rw [toSize_lt' (by omega), toSize_lt' (by omega), ← Int.natCast_mul, toSize_lt' hle]
  crun [joinEnd, evalE_optind, h1, blkOf_0, optE_cell, hw, hw', hge, hsub, if_pos hi,
    hz, toSize_lt' hle, mallocC_some hp, nat_emod (show rest.length < 4294967296 by omega), ↓exec_for', Ty.size, scalarSize, Ptr.ofAddr]
  refine (congrArg (fun z => obind z _) hrun).trans ?_
  rfl

theorem blkOf_null (h : heap 0 = none) :
    blkOf X ⟨heap, tick, stk, inp, out, room, text, log⟩ ⟨.heap 0, 0⟩ = .ub .nullDeref := by
  simp [blkOf, CS.blk, h]

theorem join_refused {n nn : Nat} {loc : Var → Slot} {tle : List Blk} (hv : Vars args loc)
    (hr : Reasonable X.e args) (hrest : rest.length ≤ args.length) (hne : rest ≠ []) (h0 : heap 0 = none)
    (hp : X.pick tick (sizes heap) (namesBlk X.e rest).size = none) :
    exec X (callFn X (n + 1)) (nn + 1) joinEnd
      ⟨loc, ⟨heap, tick, optE os (args.length + 1 - rest.length) :: argvE X.e command args rest :: tle, inp, out, room,
        text, log⟩⟩ = .ub .nullDeref := by
  obtain ⟨hr, hr'⟩ := hr
  have h1 := hv.argc
  have hargv := hv.argv
  have hpos : 0 < rest.length := List.length_pos_iff.2 hne
  have hx : rest[0]? = some rest[0] := List.getElem?_eq_getElem hpos
  have hw : wrapInt ((args.length + 1 : Nat) : Int) = ((args.length + 1 : Nat) : Int) := wrapInt_of ⟨by omega, by omega⟩
  have hw' : wrapInt ((args.length + 1 - rest.length : Nat) : Int) = ((args.length + 1 - rest.length : Nat) : Int) :=
    wrapInt_of ⟨by omega, by omega⟩
  have hge : decide (((args.length + 1 : Nat) : Int) ≤ ((args.length + 1 - rest.length : Nat) : Int)) = false :=
    decide_eq_false (by omega)
  have hsub : ((args.length + 1 : Nat) : Int) - ((args.length + 1 - rest.length : Nat) : Int) = (rest.length : Int) := by
    omega
  have hb : (X.e.sizeBits / 8) < 4294967296 ∧ 4294967296 ≤ 2 ^ X.e.sizeBits := by
    rcases X.word with h | h <;> rw [h] <;> decide
  have hle := Nat.lt_of_le_of_lt (Nat.mul_le_mul_right (X.e.sizeBits / 8)
    (show rest.length ≤ args.length + 2 by omega)) hr'
  have hi : inInt (rest.length : Int) := ⟨by omega, by omega⟩
  replace hp : X.pick tick (sizes heap) (rest.length * (X.e.sizeBits / 8)) = none := hp
  have hz : toSize X.e ((toSize X.e (rest.length : Int) : Int) * (toSize X.e ((X.e.sizeBits / 8 : Nat) : Int) : Int)) =
      rest.length * (X.e.sizeBits / 8) := by
    rw [toSize_lt' (by omega), toSize_lt' (by omega), ← Int.natCast_mul, toSize_lt' hle]
  have hin : ((args.length + 1 - rest.length + 1) * (X.e.sizeBits / 8) ≤
    (args.length + 2) * (X.e.sizeBits / 8)) = True := eq_true (Nat.mul_le_mul_right _ (by omega))
  have hcell := argvE_cell' (e := X.e) (command := command) (args := args) hrest hx
  rw [Nat.add_zero] at hcell
  crun [joinEnd, evalE_optind, h1, blkOf_0, optE_cell, hw, hw', hge, hsub, if_pos hi,
    hz, toSize_lt' hle, mallocC_none hp, nat_emod (show rest.length < 4294967296 by omega), ↓exec_for', Ty.size,
    scalarSize, whileN_succ, ↓forBody_obind, fillBody,
    decide_eq_true (show (0 : Int) < rest.length by omega), blkOf_1, hargv,
    nat_emod (show args.length + 1 - rest.length < 4294967296 by omega), Int.add_zero,
    Int.natCast_nonneg, Int.toNat_natCast, argvE_size, hin, hcell, ofCell_str, blkOf_null h0]
  rfl

/-- `IFF_join` returns. -/
theorem joinCall_run {n nn : Nat} {loc : Var → Slot} {len a st : Nat} {c : Option Arg} {g g' : CS} {b : Blk}
    (h1 : loc .inputFilenames = .reg (.ptr (.ptr (.int .char))) (.ptr (.ptr (.int .char)) ⟨.heap a, 0⟩))
    (h2 : loc .inputFilenamesLength = .reg (.int .uint) (.int .uint (len : Int)))
    (h3 : loc .outputFilename = .reg (.ptr (.int .char)) (nameArg c)) (h4 : loc .status = .reg (.int .int) .undef)
    (hlen : len < 4294967296) (hst : st < 2147483648) (ha : a ≠ 0) (hb : g'.heap a = some b)
    (h : callFn X (n + 1) .IFF_join [.ptr (.ptr (.int .char)) ⟨.heap a, 0⟩, .int .uint (len : Int), nameArg c] g =
      .val (.int .int (st : Int), g')) :
    ∃ loc', exec X (callFn X (n + 1)) nn joinCall ⟨loc, g⟩ =
      .val (.ret (.int .int (st : Int)), ⟨loc', { g' with heap := setHeap g'.heap a none }⟩) := by
  refine ⟨setLoc loc .status (.reg (.int .int) (.int .int (st : Int))), ?_⟩
  have hw : wrapInt (st : Int) = st := wrapInt_of ⟨by omega, by omega⟩
  obtain ⟨heap, tick, stk, inp, out, room, text, log⟩ := g
  obtain ⟨heap', tick', stk', inp', out', room', text', log'⟩ := g'
  cases c with
  | none =>
    simp only [nameArg] at h h3
    crun [joinCall, h1, h2, h3, h4, h, hw, freeC_some ha hb]
    done
  | some c =>
    simp only [nameArg] at h h3
    crun [joinCall, h1, h2, h3, h4, h, hw, freeC_some ha hb]
    done

/-- `IFF_join` goes wrong. -/
theorem joinCall_fails {n nn : Nat} {loc : Var → Slot} {len a : Nat} {c : Option Arg} {g : CS} {u : UB}
    (h1 : loc .inputFilenames = .reg (.ptr (.ptr (.int .char))) (.ptr (.ptr (.int .char)) ⟨.heap a, 0⟩))
    (h2 : loc .inputFilenamesLength = .reg (.int .uint) (.int .uint (len : Int)))
    (h3 : loc .outputFilename = .reg (.ptr (.int .char)) (nameArg c))
    (hlen : len < 4294967296)
    (h : callFn X (n + 1) .IFF_join [.ptr (.ptr (.int .char)) ⟨.heap a, 0⟩, .int .uint (len : Int), nameArg c] g =
      .ub u) :
    exec X (callFn X (n + 1)) nn joinCall ⟨loc, g⟩ = .ub u := by
  cases c with
  | none =>
    simp only [nameArg] at h h3
    crun [joinCall, h1, h2, h3, h]
    rfl
  | some c =>
    simp only [nameArg] at h h3
    crun [joinCall, h1, h2, h3, h]
    rfl

/-- The body of iffjoin's `main` after the declarations. -/
def joinRest (X : Cfg) (E : Expr) (n : Nat) (s : Fr) : Out (V × CS) :=
  obind (obind (exec X (callFn X n) n (.while E joinSwitch) s) fun r => r.1.andThen (exec X (callFn X n) n joinEnd) r.2)
    fun r => obind (Flow.result X.e (.int .int) r.1) fun v => .val (v, { r.2.g with stk := r.2.g.stk.take 2 })

theorem joinLoop_status : ∀ {os : List Opt} {c : Option Arg} {st : Nat}, joinLoop os c = .usage st → st < 2147483648 := by
  intro os
  induction os with
  | nil => intro c st h; cases h
  | cons x os ih =>
    intro c st h
    cases x with
    | bad => cases h; decide
    | arg d a =>
      simp only [joinLoop] at h
      split at h <;> exact ih h
    | flag d =>
      simp only [joinLoop] at h
      split at h
      · cases h; decide
      · split at h
        · cases h
        · exact ih h

theorem join_does {main : Fn} {E : Expr} {L : (Var → Slot) → Prop} {tl : Nat → List Blk} {tle : List Blk} {g : CS}
    {loc : Var → Slot} (hs : Steps X E L command args os rest tl tle) (hd : ∀ x ∈ os, Declared joinOpts x)
    (hr : Reasonable X.e args) (hrest : rest.length ≤ args.length) (hL : L loc) (h0 : g.heap 0 = none)
    (ho : loc .outputFilename = .reg (.ptr (.int .char)) (nameArg none))
    (hcall : ∀ n, callFn X (n + 1) main (mainArgs args) g = joinRest X E n
      ⟨loc, ⟨g.heap, g.tick, optB os 0 :: argvBlk X.e command args :: tl 0, g.inp, g.out, g.room, g.text, g.log⟩⟩) :
    ∃ r, joinTail true (os, rest) = .val r ∧ JoinDoes X main (joinUsage command) command args g r := by
  have hloop : ∀ n, JoinEnds X L command args os rest tl tle loc g.heap g.tick g.inp g.out g.room g.text g.log
      (leadArgs os + 1) (exec X (callFn X (n + os.length + 2)) (n + os.length + 2) (.while E joinSwitch)
        ⟨loc, ⟨g.heap, g.tick, optB os 0 :: argvBlk X.e command args :: tl 0, g.inp, g.out, g.room, g.text, g.log⟩⟩)
      (joinLoop os none) := by
    intro n
    rw [exec_while]
    have := joinLoop_run (heap := g.heap) (tick := g.tick) (inp := g.inp) (out := g.out) (room := g.room) (text := g.text)
      (log := g.log) (n := n + os.length) (nn := n + os.length + 2) hs hd (n + os.length + 2) 0 none loc (by omega)
      (Nat.zero_le _) hL ho
    rw [Nat.zero_add] at this
    exact this
  have hrun : ∀ {r : Out (V × CS)}, (∀ n, joinRest X E (n + os.length + 2) ⟨loc, ⟨g.heap, g.tick,
      optB os 0 :: argvBlk X.e command args :: tl 0, g.inp, g.out, g.room, g.text, g.log⟩⟩ = r) →
      ∃ N, ∀ n, N ≤ n → callFn X n main (mainArgs args) g = r := by
    intro r h
    refine ⟨os.length + 3, fun n hn => ?_⟩
    obtain ⟨n, rfl⟩ : ∃ n', n = n' + os.length + 2 + 1 := ⟨n - os.length - 3, by omega⟩
    rw [hcall, h]
  unfold joinTail
  have hz := hloop 0
  cases hl : joinLoop os none with
  | noInput => rw [hl] at hz; exact hz.elim
  | version =>
    simp only [hl] at hloop
    refine ⟨_, rfl, [optB os (leadArgs os + 1), argvBlk X.e command args], hrun fun n => ?_⟩
    obtain ⟨loc', h⟩ := hloop n
    rw [joinRest, h]
    rfl
  | usage st =>
    have hst := joinLoop_status hl
    simp only [hl] at hloop
    refine ⟨_, rfl, [optB os (leadArgs os + 1), argvBlk X.e command args], hrun fun n => ?_⟩
    obtain ⟨loc', h⟩ := hloop n
    rw [joinRest, h, obind_val, andThen_ret, obind_val, result_ret_int, convI_int, wrapInt_of ⟨by omega, by omega⟩]
    rfl
  | run c =>
    simp only [hl] at hloop
    by_cases hne : rest = []
    · subst hne
      refine ⟨.noInput, rfl, [optE os (args.length + 1 - 0), argvE X.e command args []], hrun fun n => ?_⟩
      obtain ⟨loc', h1, h2, h⟩ := hloop n
      rw [joinRest, h, obind_val, andThen_norm]
      simp only [List.length_nil]
      rw [join_noInput (hs.vars _ h1) hr.1]
      rfl
    · refine ⟨.run (c, rest), by simp [hne], ?_⟩
      have hlen : rest.length < 4294967296 := by have := hr.1; omega
      simp only [JoinDoes]
      cases hp : X.pick g.tick (sizes g.heap) (namesBlk X.e rest).size with
      | none =>
        refine hrun fun n => ?_
        obtain ⟨loc', h1, h2, h⟩ := hloop n
        rw [joinRest, h, obind_val, andThen_norm, join_refused (hs.vars _ h1) hr hrest hne h0 hp]
        rfl
      | some a =>
        have ha : a ≠ 0 := (X.sound hp).1
        refine ⟨optE os (args.length + 1 - rest.length) :: argvE X.e command args rest :: tle, ?_, ?_⟩
        · rintro st g' hst hg' ⟨N, hN⟩
          refine ⟨N + os.length + rest.length + 3, fun n hn => ?_⟩
          obtain ⟨n, rfl⟩ : ∃ n', n = n' + os.length + 2 + 1 := ⟨n - os.length - 3, by omega⟩
          obtain ⟨loc', h1, h2, h⟩ := hloop n
          obtain ⟨b, hb⟩ := Option.ne_none_iff_exists'.1 hg'
          obtain ⟨loc2, hloc, hj⟩ := join_granted (n := n + os.length + 1) (nn := n + os.length + 2) (os := os)
            (command := command) (tle := tle) (inp := g.inp) (out := g.out) (room := g.room) (text := g.text)
            (log := g.log) (hs.vars _ h1) hr hrest hne hp (by omega)
          obtain ⟨loc3, hc⟩ := joinCall_run (X := X) (n := n + os.length + 1) (nn := n + os.length + 2) (loc := loc2)
            (len := rest.length) (c := c) (hloc _ nofun) (hloc _ nofun) ((hloc .outputFilename nofun).trans h2) (hloc _ nofun) hlen hst
            ha hb (hN _ (by omega))
          rw [hcall, joinRest, h, obind_val, andThen_norm, hj]
          refine (congrArg (fun z => obind z _) hc).trans ?_
          rw [obind_val, result_ret_int, convI_int, wrapInt_of ⟨by omega, by omega⟩]
          rfl
        · rintro u ⟨N, hN⟩
          refine ⟨N + os.length + rest.length + 3, fun n hn => ?_⟩
          obtain ⟨n, rfl⟩ : ∃ n', n = n' + os.length + 2 + 1 := ⟨n - os.length - 3, by omega⟩
          obtain ⟨loc', h1, h2, h⟩ := hloop n
          obtain ⟨loc2, hloc, hj⟩ := join_granted (n := n + os.length + 1) (nn := n + os.length + 2) (os := os)
            (command := command) (tle := tle) (inp := g.inp) (out := g.out) (room := g.room) (text := g.text)
            (log := g.log) (hs.vars _ h1) hr hrest hne hp (by omega)
          have hc := joinCall_fails (X := X) (n := n + os.length + 1) (nn := n + os.length + 2) (loc := loc2)
            (len := rest.length) (c := c) (hloc _ nofun) (hloc _ nofun) ((hloc .outputFilename nofun).trans h2) hlen (hN _ (by omega))
          rw [hcall, joinRest, h, obind_val, andThen_norm, hj]
          refine (congrArg (fun z => obind z _) hc).trans ?_
          rfl

/-- iffjoin/main.c:66,97 -/
def joinVars (args : List String) : Var → Slot :=
  setLoc (setLoc (argVars args) .outputFilename (.reg (.ptr (.int .char)) (.ptr (.int .char) Ptr.null))) .c
    (.reg (.int .int) .undef)

/-- iffjoin/main.c:64-154, with `getopt_long` -/
theorem join_long_run {g : CS} (hg : g.stk = startStk X.e command args) (h0 : g.heap 0 = none)
    (hr : Reasonable X.e args) :
    ∃ r, joinMainLong true (args.map String.toList) = .val r ∧ JoinDoes X .iffjoin_main (joinUsage command) command args g r := by
  have hr1 := hr.1
  have hw : wrapInt ((args.length + 1 : Nat) : Int) = ((args.length + 1 : Nat) : Int) := wrapInt_of ⟨by omega, by omega⟩
  have hrest := restLong_le (o := joinOpts) (args.map String.toList) none
  rw [List.length_map] at hrest
  obtain ⟨heap, tick, stk, inp, out, room, text, log⟩ := g
  cases hg
  refine join_does (loc := longVars (joinVars args)) (steps_join_long rfl) (getoptLong_declared longOk_join _ none nofun)
    hr hrest ⟨⟨rfl, rfl, _, rfl⟩, rfl, rfl⟩ h0 rfl fun n => ?_
  rw [callFn_code rfl]
  crun [iffjoin_main.code, mainArgs, exec_aggregate, hw, startStk, int_size]
  rfl

/-- iffjoin/main.c:64-154, with `getopt` -/
theorem join_posix_run {g : CS} (hg : g.stk = startStk X.e command args) (h0 : g.heap 0 = none)
    (hr : Reasonable X.e args) :
    ∃ r, joinMainPosix true (args.map String.toList) = .val r ∧ JoinDoes X .iffjoin_mainPosix (joinUsage command) command args g r := by
  have hr1 := hr.1
  have hw : wrapInt ((args.length + 1 : Nat) : Int) = ((args.length + 1 : Nat) : Int) := wrapInt_of ⟨by omega, by omega⟩
  have hrest := rest_le (o := joinOpts) (args.map String.toList) none
  rw [List.length_map] at hrest
  obtain ⟨heap, tick, stk, inp, out, room, text, log⟩ := g
  cases hg
  refine join_does (loc := joinVars args) (steps_posix short_join rfl) (getopt_declared _ none nofun) hr
    hrest ⟨rfl, rfl, _, rfl⟩ h0 rfl fun n => ?_
  rw [callFn_code rfl]
  crun [iffjoin_mainPosix.code, mainArgs, hw, startStk]
  rfl

end

end Iff.Src
