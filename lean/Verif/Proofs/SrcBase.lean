import Verif.Src.Sem
import Verif.Proofs.Bits
/-
  Tools for running the terms of Verif/Src/Code symbolically.
-/
namespace Iff.Src

/-- Sequencing; a copy of `Out.bind` with a congruence rule, so that what follows is only looked at
once the first part has been run. -/
def obind {α β : Type} (o : Out α) (k : α → Out β) : Out β :=
  match o with
  | .val a => k a
  | .ub u => .ub u
  | .loop => .loop

@[congr] theorem obind_congr {α β : Type} {o o' : Out α} {k : α → Out β} (h : o = o') :
    obind o k = obind o' k := by rw [h]

theorem obind_val {α β : Type} {a : α} {k : α → Out β} : obind (.val a) k = k a := rfl
theorem obind_ub {α β : Type} {u : UB} {k : α → Out β} : obind (.ub u) k = .ub u := rfl

theorem bind_obind {σ α β : Type} (x : M σ α) (f : α → M σ β) (s : σ) :
    (x >>= f) s = obind (x s) fun r => f r.1 r.2 := by
  rw [M.bind_apply]; cases x s <;> rfl

theorem bind_obind_ofOut {σ α β : Type} (o : Out α) (f : α → M σ β) (s : σ) :
    (M.ofOut o >>= f) s = obind o fun a => f a s := by
  rw [M.bind_apply]; cases o <;> rfl

section
variable {X : Cfg} {call : Fn → List V → M CS V} {s : Fr}

theorem evalE_num {t n} : evalE X call (.num t n) s = .val (.int t n, s) := rfl
theorem evalE_str {v} : evalE X call (.str v) s = .val (.str v, s) := rfl
theorem evalE_null : evalE X call .null s = .val (.ptr .void Ptr.null, s) := rfl
theorem evalE_eof : evalE X call .eof s = .val (.int .int (-1), s) := rfl
theorem evalE_seekCur : evalE X call .seekCur s = .val (.int .int 1, s) := rfl
theorem evalE_stdin : evalE X call (.stream .stdin) s = .val (.file .inp, s) := rfl
theorem evalE_stdout : evalE X call (.stream .stdout) s = .val (.file .out, s) := rfl
theorem evalE_fn {f} : evalE X call (.fn f) s = .val (.fn f, s) := rfl
theorem evalE_var {x} : evalE X call (.var x) s =
    obind (varL x s) fun r => loadL X r.1 r.2 := bind_obind _ _ _
theorem evalE_glob {g} : evalE X call (.glob g) s =
    loadL X (.mem g.ty ⟨.static g.addr, 0⟩) s := rfl
theorem evalE_addr {e} : evalE X call (.addr e) s = obind (evalL X call e s) fun r =>
    match r.1 with
    | .mem t p => .val (.ptr t p, r.2)
    | .reg _ _ => .ub .badArgument := by
  refine (bind_obind _ _ _).trans ?_
  congr 1; funext r; rcases r with ⟨_ | _, _⟩ <;> rfl
theorem evalE_deref {e} : evalE X call (.deref e) s = obind (evalE X call e s) fun r =>
    obind (derefL r.1 r.2) fun r => loadL X r.1 r.2 := by
  refine (bind_obind _ _ _).trans ?_
  congr 1; funext r; exact bind_obind _ _ _
theorem evalE_arrow {e m} : evalE X call (.arrow e m) s = obind (evalE X call e s) fun r =>
    obind (memberOf X r.1 m r.2) fun r => loadL X r.1 r.2 := by
  refine (bind_obind _ _ _).trans ?_
  congr 1; funext r; exact bind_obind _ _ _
theorem evalE_dot {e m} : evalE X call (.dot e m) s = obind (evalL X call e s) fun r =>
    obind (dotL X r.1 m r.2) fun r => loadL X r.1 r.2 := by
  refine (bind_obind _ _ _).trans ?_
  congr 1; funext r; exact bind_obind _ _ _
theorem evalE_index {e i} : evalE X call (.index e i) s = obind (evalE X call e s) fun r =>
    obind (evalE X call i r.2) fun r' =>
    obind (elementOf X r.1 r'.1 r'.2) fun r => loadL X r.1 r.2 := by
  refine (bind_obind _ _ _).trans ?_
  congr 1; funext r; refine (bind_obind _ _ _).trans ?_
  congr 1; funext r; exact bind_obind _ _ _
theorem evalE_not {e} : evalE X call (.not e) s = obind (evalE X call e s) fun r =>
    obind (isTrue r.1) fun b => .val (truth (!b), r.2) := by
  refine (bind_obind _ _ _).trans ?_
  congr 1; funext r; cases h : isTrue r.1 <;> simp [M.bind_apply, M.ofOut, h, obind]
theorem evalE_neg {e} : evalE X call (.neg e) s = obind (evalE X call e s) fun r =>
    match r.1 with
    | .int .int x => obind (arith X.e .int (-x)) fun v => .val (v, r.2)
    | _ => .ub .badArgument := by
  refine (bind_obind _ _ _).trans ?_
  congr 1; funext r
  rcases r with ⟨v, s⟩
  cases v with
  | int t x =>
    cases t with
    | int => simp only [M.ofOut]; cases arith X.e .int (-x) <;> rfl
    | _ => rfl
  | _ => rfl
theorem evalE_bin {o a b} : evalE X call (.bin o a b) s = obind (evalE X call a s) fun r =>
    obind (evalE X call b r.2) fun r' => obind (binop X.e o r.1 r'.1) fun v => .val (v, r'.2) := by
  refine (bind_obind _ _ _).trans ?_
  congr 1; funext r; refine (bind_obind _ _ _).trans ?_
  congr 1
theorem evalE_land {a b} : evalE X call (.land a b) s = obind (evalE X call a s) fun r =>
    obind (isTrue r.1) fun c => if c then obind (evalE X call b r.2) fun r =>
      obind (isTrue r.1) fun c => .val (truth c, r.2) else .val (truth false, r.2) := by
  refine (bind_obind _ _ _).trans ?_
  congr 1; funext r; simp only [M.bind_apply, M.ofOut]
  cases isTrue r.1 with
  | val c =>
    cases c
    · rfl
    · refine (bind_obind _ _ _).trans ?_
      simp only [obind_val, if_true]
      congr 1; funext r; simp only [M.bind_apply]; cases isTrue r.1 <;> rfl
  | _ => rfl
theorem evalE_lor {a b} : evalE X call (.lor a b) s = obind (evalE X call a s) fun r =>
    obind (isTrue r.1) fun c => if c then .val (truth true, r.2) else
      obind (evalE X call b r.2) fun r => obind (isTrue r.1) fun c => .val (truth c, r.2) := by
  refine (bind_obind _ _ _).trans ?_
  congr 1; funext r; simp only [M.bind_apply, M.ofOut]
  cases isTrue r.1 with
  | val c =>
    cases c
    · refine (bind_obind _ _ _).trans ?_
      simp only [obind_val, Bool.false_eq_true, if_false]
      congr 1; funext r; simp only [M.bind_apply]; cases isTrue r.1 <;> rfl
    · rfl
  | _ => rfl
theorem evalE_cast {t e} : evalE X call (.cast t e) s = obind (evalE X call e s) fun r =>
    obind (conv X.e t r.1) fun v => .val (v, r.2) := by
  refine (bind_obind _ _ _).trans ?_
  congr 1
theorem evalE_sizeof {t} : evalE X call (.sizeof t) s = .val (.int .size (t.size X.e), s) := rfl
theorem evalE_assign {l r} : evalE X call (.assign l r) s = obind (evalE X call r s) fun r =>
    obind (evalL X call l r.2) fun lv => obind (conv X.e lv.1.ty r.1) fun v =>
    obind (storeL X lv.1 v lv.2) fun r => .val (v, r.2) := by
  refine (bind_obind _ _ _).trans ?_
  congr 1; funext r; refine (bind_obind _ _ _).trans ?_
  congr 1; funext lv; simp only [M.bind_apply, M.ofOut]
  cases conv X.e lv.1.ty r.1 with
  | val v => simp only [obind_val]; cases storeL X lv.1 v lv.2 <;> rfl
  | _ => rfl
theorem evalE_assignOp {o l r} : evalE X call (.assignOp o l r) s =
    obind (evalE X call r s) fun y => obind (evalL X call l y.2) fun lv =>
    obind (loadL X lv.1 lv.2) fun x => obind (binop X.e o x.1 y.1) fun v =>
    obind (conv X.e lv.1.ty v) fun v => obind (storeL X lv.1 v x.2) fun r => .val (v, r.2) := by
  refine (bind_obind _ _ _).trans ?_
  congr 1; funext y; refine (bind_obind _ _ _).trans ?_
  congr 1; funext lv; refine (bind_obind _ _ _).trans ?_
  congr 1; funext x; simp only [M.bind_apply, M.ofOut]
  cases binop X.e o x.1 y.1 with
  | val v =>
    simp only [obind_val]
    cases conv X.e lv.1.ty v with
    | val v => simp only [obind_val]; cases storeL X lv.1 v x.2 <;> rfl
    | _ => rfl
  | _ => rfl
theorem evalE_inc {l} : evalE X call (.inc l) s = obind (evalL X call l s) fun lv =>
    obind (loadL X lv.1 lv.2) fun x => obind (binop X.e .add x.1 (.int .int 1)) fun v =>
    obind (conv X.e lv.1.ty v) fun v => obind (storeL X lv.1 v x.2) fun r => .val (x.1, r.2) := by
  refine (bind_obind _ _ _).trans ?_
  congr 1; funext lv; refine (bind_obind _ _ _).trans ?_
  congr 1; funext x; simp only [M.bind_apply, M.ofOut]
  cases binop X.e .add x.1 (.int .int 1) with
  | val v =>
    simp only [obind_val]
    cases conv X.e lv.1.ty v with
    | val v => simp only [obind_val]; cases storeL X lv.1 v x.2 <;> rfl
    | _ => rfl
  | _ => rfl
theorem onG_obind {α : Type} {m : M CS α} : onG m s = obind (m s.g) fun r => .val (r.1, ⟨s.loc, r.2⟩) := by
  simp only [onG]; cases m s.g <;> rfl
theorem evalE_call {f args} : evalE X call (.call f args) s = obind (evalE X call f s) fun f =>
    obind (evalArgs X call args f.2) fun vs =>
    match f.1 with
    | .fn f => obind (call f vs.1 vs.2.g) fun r => .val (r.1, ⟨vs.2.loc, r.2⟩)
    | _ => .ub .badArgument := by
  refine (bind_obind _ _ _).trans ?_
  congr 1; funext f; refine (bind_obind _ _ _).trans ?_
  congr 1; funext vs
  rcases f with ⟨v, s⟩
  cases v <;> first | exact onG_obind | rfl
theorem evalL_var {x} : evalL X call (.var x) s = varL x s := rfl
theorem evalL_glob {g} : evalL X call (.glob g) s = .val (.mem g.ty ⟨.static g.addr, 0⟩, s) := rfl
theorem evalL_deref {e} : evalL X call (.deref e) s =
    obind (evalE X call e s) fun r => derefL r.1 r.2 := bind_obind _ _ _
theorem evalL_arrow {e m} : evalL X call (.arrow e m) s =
    obind (evalE X call e s) fun r => memberOf X r.1 m r.2 := bind_obind _ _ _
theorem evalL_dot {e m} : evalL X call (.dot e m) s =
    obind (evalL X call e s) fun r => dotL X r.1 m r.2 := bind_obind _ _ _
theorem evalL_index {e i} : evalL X call (.index e i) s = obind (evalE X call e s) fun r =>
    obind (evalE X call i r.2) fun r' => elementOf X r.1 r'.1 r'.2 := by
  refine (bind_obind _ _ _).trans ?_
  congr 1; funext r; exact bind_obind _ _ _
theorem evalArgs_nil : evalArgs X call .nil s = .val ([], s) := rfl
theorem evalArgs_cons {e es} : evalArgs X call (.cons e es) s = obind (evalE X call e s) fun r =>
    obind (evalArgs X call es r.2) fun r' => .val (r.1 :: r'.1, r'.2) := by
  refine (bind_obind _ _ _).trans ?_
  congr 1; funext r; exact bind_obind _ _ _

theorem evalC_obind {c} : evalC X call c s = obind (evalE X call c s) fun r =>
    obind (isTrue r.1) fun b => .val (b, r.2) := by
  refine (bind_obind _ _ _).trans ?_
  congr 1

theorem varL_run {x loc g} : varL x ⟨loc, g⟩ = match loc x with
  | .reg t _ => .val (.reg x t, ⟨loc, g⟩)
  | .obj t i => .val (.mem t ⟨.stk i, 0⟩, ⟨loc, g⟩)
  | .none => .ub .badArgument := rfl
theorem derefL_ptr {t p} : derefL (.ptr t p) s = .val (.mem t p, s) := rfl
theorem dotL_mem {t p m} : dotL X (.mem t p) m s = memberOf X (.ptr t p) m s := rfl
theorem loadL_reg {x t loc g} : loadL X (.reg x t) ⟨loc, g⟩ = match loc x with
    | .reg _ .undef => .ub .badArgument
    | .reg _ v => .val (v, ⟨loc, g⟩)
    | _ => .ub .badArgument := rfl
theorem loadL_arr {k t p} : loadL X (.mem (.arr k t) p) s = .val (.ptr t p, s) := rfl
theorem loadL_int {t p} : loadL X (.mem (.int t) p) s = obind (s.g.load X p) fun c =>
    obind (ofCell (.int t) c) fun v => .val (v, s) := by
  simp only [loadL]
  cases s.g.load X p with
  | val c => simp only [obind_val]; cases ofCell (.int t) c <;> rfl
  | _ => rfl
theorem loadL_ptr {t p} : loadL X (.mem (.ptr t) p) s = obind (s.g.load X p) fun c =>
    obind (ofCell (.ptr t) c) fun v => .val (v, s) := by
  simp only [loadL]
  cases s.g.load X p with
  | val c => simp only [obind_val]; cases ofCell (.ptr t) c <;> rfl
  | _ => rfl
theorem loadL_fn {p} : loadL X (.mem .fn p) s = obind (s.g.load X p) fun c =>
    obind (ofCell .fn c) fun v => .val (v, s) := by
  simp only [loadL]
  cases s.g.load X p with
  | val c => simp only [obind_val]; cases ofCell .fn c <;> rfl
  | _ => rfl
theorem storeL_reg {x t v loc g} : storeL X (.reg x t) v ⟨loc, g⟩ =
    .val ((), ⟨setLoc loc x (.reg t v), g⟩) := rfl
theorem storeL_mem {t p v} : storeL X (.mem t p) v s = obind (toCell v) fun c =>
    obind (s.g.store X p c) fun g => .val ((), ⟨s.loc, g⟩) := by
  simp only [storeL]
  cases toCell v with
  | val c => simp only [obind_val]; cases s.g.store X p c <;> rfl
  | _ => rfl

variable {n : Nat}

theorem exec_skip : exec X call n .skip s = .val (.norm, s) := rfl
theorem exec_expr {e} : exec X call n (.expr e) s =
    obind (evalE X call e s) fun r => .val (.norm, r.2) := bind_obind _ _ _
theorem exec_seq {a b} : exec X call n (.seq a b) s =
    obind (exec X call n a s) fun r => r.1.andThen (exec X call n b) r.2 := bind_obind _ _ _
theorem exec_ite {c a b} : exec X call n (.ite c a b) s =
    obind (evalE X call c s) fun r => obind (isTrue r.1) fun t =>
      if t then exec X call n a r.2 else exec X call n b r.2 := by
  refine (bind_obind _ _ _).trans ?_
  rw [evalC_obind]
  cases evalE X call c s with
  | val r =>
    simp only [obind_val]
    cases isTrue r.1 with
    | val c => cases c <;> rfl
    | _ => rfl
  | _ => rfl
theorem exec_while {c b} : exec X call n (.while c b) s =
    whileN (evalC X call c) (exec X call n b) n s := rfl
theorem exec_for {i c t b} : exec X call n (.for i c t b) s =
    obind (evalE X call i s) fun r => whileN (evalC X call c) (do
      let f ← exec X call n b
      f.andThen (do
        let _ ← evalE X call t
        pure .norm)) n r.2 := bind_obind _ _ _
theorem exec_ret {e} : exec X call n (.ret e) s =
    obind (evalE X call e s) fun r => .val (.ret r.1, r.2) := bind_obind _ _ _
theorem exec_retVoid : exec X call n .retVoid s = .val (.ret .void, s) := rfl
theorem exec_break : exec X call n .break s = .val (.brk, s) := rfl
theorem exec_decl {x t} : exec X call n (.decl x t none) s =
    .val (.norm, ⟨setLoc s.loc x (.reg t .undef), s.g⟩) := rfl
theorem exec_declInit {x t i} : exec X call n (.decl x t (some i)) s =
    obind (evalE X call i s) fun r => obind (conv X.e t r.1) fun v =>
      .val (.norm, ⟨setLoc r.2.loc x (.reg t v), r.2.g⟩) := by
  refine (bind_obind _ _ _).trans ?_
  congr 1; funext r; exact bind_obind_ofOut _ _ _
theorem exec_object {x t} : exec X call n (.object x t none) s =
    .val (.norm, ⟨setLoc s.loc x (.obj t s.g.stk.length),
      { s.g with stk := s.g.stk ++ [⟨t.size X.e, cells []⟩] }⟩) := rfl
theorem exec_objectInit {x t i} : exec X call n (.object x t (some i)) s =
    obind (evalE X call i s) fun r => obind (conv X.e t r.1) fun v => obind (toCell v) fun c =>
      .val (.norm, ⟨setLoc r.2.loc x (.obj t r.2.g.stk.length),
        { r.2.g with stk := r.2.g.stk ++ [⟨t.size X.e, cells [c]⟩] }⟩) := by
  refine (bind_obind _ _ _).trans ?_
  congr 1; funext r; simp only [M.bind_apply, M.ofOut]
  cases conv X.e t r.1 with
  | val v => simp only [obind_val]; cases toCell v <;> rfl
  | _ => rfl
theorem exec_switch {e c} : exec X call n (.switch e c) s = obind (evalE X call e s) fun r =>
    match r.1 with
    | .int t x => obind (execCases X call n t x false c r.2) fun r =>
      match r.1 with
      | .brk => .val (.norm, r.2)
      | f => .val (f, r.2)
    | _ => .ub .badArgument := by
  refine (bind_obind _ _ _).trans ?_
  congr 1; funext r
  rcases r with ⟨v, s⟩
  cases v with
  | int t x =>
    refine (bind_obind _ _ _).trans ?_
    congr 1; funext r
    rcases r with ⟨f, s⟩
    cases f <;> rfl
  | _ => rfl
theorem exec_endian {a b} : exec X call n (.endian a b) s =
    if X.e.bigEndian then exec X call n a s else exec X call n b s := by
  show (if X.e.bigEndian then exec X call n a else exec X call n b) s = _
  split <;> rfl
theorem execCases_nil {t x m} : execCases X call n t x m .nil s = .val (.norm, s) := rfl
theorem execCases_case {t x m e b rest} :
    execCases X call n t x m (.case e b rest) s = obind (evalE X call e s) fun r =>
    match r.1 with
    | .int _ y =>
      if m || convI X.e t y == x then
        obind (exec X call n b r.2) fun r => r.1.andThen (execCases X call n t x true rest) r.2
      else execCases X call n t x false rest r.2
    | _ => .ub .badArgument := by
  refine (bind_obind _ _ _).trans ?_
  congr 1; funext r
  rcases r with ⟨v, s⟩
  cases v with
  | int t y => simp only; split
               · exact bind_obind _ _ _
               · rfl
  | _ => rfl
theorem execCases_default {t x m b rest} :
    execCases X call n t x m (.default b rest) s =
      obind (exec X call n b s) fun r => r.1.andThen (execCases X call n t x true rest) r.2 :=
  bind_obind _ _ _

theorem andThen_norm {k} : Flow.norm.andThen k s = k s := rfl
theorem andThen_ret {v k} : (Flow.ret v).andThen k s = .val (.ret v, s) := rfl
theorem andThen_brk {k} : Flow.brk.andThen k s = .val (.brk, s) := rfl

theorem whileN_succ {c b} {k : Nat} : whileN c b (k + 1) s = obind (c s) fun r =>
    if r.1 then obind (b r.2) fun r =>
      match r.1 with
      | .norm => whileN c b k r.2
      | .brk => .val (.norm, r.2)
      | .ret v => .val (.ret v, r.2)
    else .val (.norm, r.2) := by
  refine (bind_obind _ _ _).trans ?_
  congr 1; funext r
  rcases r with ⟨v, s⟩
  cases v with
  | false => rfl
  | true =>
    refine (bind_obind _ _ _).trans ?_
    simp only [if_true]
    congr 1; funext r
    rcases r with ⟨f, s⟩
    cases f <;> rfl

theorem runFun_obind {d : Fun} {vs : List V} {g : CS} : runFun X call n d vs g =
    obind (bindParams X.e d.params vs) fun l => obind (exec X call n d.body ⟨l, g⟩) fun r =>
    obind (r.1.result X.e d.ret) fun v =>
      .val (v, { r.2.g with stk := r.2.g.stk.take g.stk.length }) := by
  simp only [runFun]
  cases bindParams X.e d.params vs with
  | val l =>
    simp only [obind_val]
    cases exec X call n d.body ⟨l, g⟩ with
    | val r =>
      obtain ⟨f, s⟩ := r
      simp only [obind_val]
      cases f.result X.e d.ret <;> rfl
    | _ => rfl
  | _ => rfl

theorem result_ret_int {e : Env} {t : ITy} {u : ITy} {x : Int} :
    Flow.result e (.int t) (.ret (.int u x)) = .val (.int t (convI e t x)) := rfl
theorem result_ret_ptr {e : Env} {t : Ty} {u : Ty} {p : Ptr} :
    Flow.result e (.ptr t) (.ret (.ptr u p)) = .val (.ptr t p) := rfl
theorem result_ret_void {e : Env} {t : Ty} : Flow.result e t (.ret .void) = .val .void := rfl
theorem result_norm {e : Env} {t : Ty} : Flow.result e t .norm = .val .void := rfl

theorem bindParams_nil {e : Env} : bindParams e [] [] = .val fun _ => .none := rfl
theorem bindParams_cons {e : Env} {x t ps v vs} : bindParams e ((x, t) :: ps) (v :: vs) =
    obind (conv e t v) fun v => obind (bindParams e ps vs) fun l => .val (setLoc l x (.reg t v)) := by
  simp only [bindParams]
  cases conv e t v with
  | val v =>
    simp only [Out.val_bind, obind_val]
    cases bindParams e ps vs <;> rfl
  | _ => rfl

theorem isTrue_int {t x} : isTrue (.int t x) = .val (x != 0) := rfl
theorem isTrue_ptr {t p} : isTrue (.ptr t p) = .val (p != Ptr.null) := rfl
theorem isTrue_truth {b} : isTrue (truth b) = .val b := by cases b <;> rfl
theorem ofCell_int {t x} : ofCell (.int t) (.int t x) = .val (.int t x) := by simp [ofCell]
theorem ofCell_ptr {t p} : ofCell (.ptr t) (.ptr p) = .val (.ptr t p) := rfl
theorem ofCell_fn {f} : ofCell .fn (.fn f) = .val (.fn f) := rfl
theorem toCell_int {t x} : toCell (.int t x) = .val (.int t x) := rfl
theorem toCell_ptr {t p} : toCell (.ptr t p) = .val (.ptr p) := rfl

end

/-- A call of a function of the sources. -/
theorem callFn_code {X : Cfg} {n : Nat} {f : Fn} {vs : List V} {g : CS} {d : Fun}
    (h : code f = some d) : callFn X (n + 1) f vs g = runFun X (callFn X n) n d vs g := by
  simp only [callFn, h]

/-- A call of a primitive function. -/
theorem callFn_prim {X : Cfg} {n : Nat} {f : Fn} {vs : List V} {g : CS}
    (h : code f = none) : callFn X (n + 1) f vs g = prim X (callFn X n) f vs g := by
  simp only [callFn, h]

theorem conv_int {e : Env} {t u : ITy} {x : Int} :
    conv e (.int t) (.int u x) = .val (.int t (convI e t x)) := rfl
theorem conv_ptr {e : Env} {t u : Ty} {p : Ptr} :
    conv e (.ptr t) (.ptr u p) = .val (.ptr t p) := rfl
theorem conv_str {e : Env} {t : Ty} {s : String} :
    conv e (.ptr t) (.str s) = .val (.str s) := rfl
theorem conv_file {e : Env} {t : Ty} {f : File} :
    conv e (.ptr t) (.file f) = .val (.file f) := rfl
theorem conv_fn {e : Env} {f : Fn} : conv e .fn (.fn f) = .val (.fn f) := rfl

theorem setLoc_self {l : Var → Slot} {x : Var} {s : Slot} : setLoc l x s x = s := by
  simp [setLoc]

theorem setLoc_ne {l : Var → Slot} {x y : Var} {s : Slot} (h : y ≠ x) :
    setLoc l x s y = l y := by
  simp [setLoc, h]

/-! ### Blocks -/

theorem cells_set {l : List Cell} {i : Nat} {c : Cell} (h : i < l.length) :
    (fun j => if j = i then c else cells l j) = cells (l.set i c) := by
  funext j
  simp only [cells, List.getD_eq_getElem?_getD, List.getElem?_set]
  by_cases hj : j = i
  · subst hj; simp [h]
  · simp [hj, Ne.symm hj]

theorem cells_0 {c0 : Cell} {l : List Cell} :
    cells (c0 :: l) 0 = c0 := rfl
theorem cells_1 {c0 c1 : Cell} {l : List Cell} :
    cells (c0 :: c1 :: l) 1 = c1 := rfl
theorem cells_2 {c0 c1 c2 : Cell} {l : List Cell} :
    cells (c0 :: c1 :: c2 :: l) 2 = c2 := rfl
theorem cells_3 {c0 c1 c2 c3 : Cell} {l : List Cell} :
    cells (c0 :: c1 :: c2 :: c3 :: l) 3 = c3 := rfl
theorem cells_4 {c0 c1 c2 c3 c4 : Cell} {l : List Cell} :
    cells (c0 :: c1 :: c2 :: c3 :: c4 :: l) 4 = c4 := rfl
theorem cells_5 {c0 c1 c2 c3 c4 c5 : Cell} {l : List Cell} :
    cells (c0 :: c1 :: c2 :: c3 :: c4 :: c5 :: l) 5 = c5 := rfl
theorem cells_6 {c0 c1 c2 c3 c4 c5 c6 : Cell} {l : List Cell} :
    cells (c0 :: c1 :: c2 :: c3 :: c4 :: c5 :: c6 :: l) 6 = c6 := rfl
theorem cells_7 {c0 c1 c2 c3 c4 c5 c6 c7 : Cell} {l : List Cell} :
    cells (c0 :: c1 :: c2 :: c3 :: c4 :: c5 :: c6 :: c7 :: l) 7 = c7 := rfl
theorem set_0 {n : Nat} {c0 c : Cell} {l : List Cell} :
    Blk.set ⟨n, cells (c0 :: l)⟩ 0 c = ⟨n, cells (c :: l)⟩ := by
  simp only [Blk.set, Blk.mk.injEq, true_and]; exact cells_set (i := 0) (by simp)
theorem set_1 {n : Nat} {c0 c1 c : Cell} {l : List Cell} :
    Blk.set ⟨n, cells (c0 :: c1 :: l)⟩ 1 c = ⟨n, cells (c0 :: c :: l)⟩ := by
  simp only [Blk.set, Blk.mk.injEq, true_and]; exact cells_set (i := 1) (by simp)
theorem set_2 {n : Nat} {c0 c1 c2 c : Cell} {l : List Cell} :
    Blk.set ⟨n, cells (c0 :: c1 :: c2 :: l)⟩ 2 c = ⟨n, cells (c0 :: c1 :: c :: l)⟩ := by
  simp only [Blk.set, Blk.mk.injEq, true_and]; exact cells_set (i := 2) (by simp)
theorem set_3 {n : Nat} {c0 c1 c2 c3 c : Cell} {l : List Cell} :
    Blk.set ⟨n, cells (c0 :: c1 :: c2 :: c3 :: l)⟩ 3 c = ⟨n, cells (c0 :: c1 :: c2 :: c :: l)⟩ := by
  simp only [Blk.set, Blk.mk.injEq, true_and]; exact cells_set (i := 3) (by simp)
theorem set_4 {n : Nat} {c0 c1 c2 c3 c4 c : Cell} {l : List Cell} :
    Blk.set ⟨n, cells (c0 :: c1 :: c2 :: c3 :: c4 :: l)⟩ 4 c = ⟨n, cells (c0 :: c1 :: c2 :: c3 :: c :: l)⟩ := by
  simp only [Blk.set, Blk.mk.injEq, true_and]; exact cells_set (i := 4) (by simp)
theorem set_5 {n : Nat} {c0 c1 c2 c3 c4 c5 c : Cell} {l : List Cell} :
    Blk.set ⟨n, cells (c0 :: c1 :: c2 :: c3 :: c4 :: c5 :: l)⟩ 5 c = ⟨n, cells (c0 :: c1 :: c2 :: c3 :: c4 :: c :: l)⟩ := by
  simp only [Blk.set, Blk.mk.injEq, true_and]; exact cells_set (i := 5) (by simp)
theorem set_6 {n : Nat} {c0 c1 c2 c3 c4 c5 c6 c : Cell} {l : List Cell} :
    Blk.set ⟨n, cells (c0 :: c1 :: c2 :: c3 :: c4 :: c5 :: c6 :: l)⟩ 6 c = ⟨n, cells (c0 :: c1 :: c2 :: c3 :: c4 :: c5 :: c :: l)⟩ := by
  simp only [Blk.set, Blk.mk.injEq, true_and]; exact cells_set (i := 6) (by simp)
theorem set_7 {n : Nat} {c0 c1 c2 c3 c4 c5 c6 c7 c : Cell} {l : List Cell} :
    Blk.set ⟨n, cells (c0 :: c1 :: c2 :: c3 :: c4 :: c5 :: c6 :: c7 :: l)⟩ 7 c = ⟨n, cells (c0 :: c1 :: c2 :: c3 :: c4 :: c5 :: c6 :: c :: l)⟩ := by
  simp only [Blk.set, Blk.mk.injEq, true_and]; exact cells_set (i := 7) (by simp)

/-! ### Structs -/

theorem find_IFF_Chunk_parent : Struct.find .IFF_Chunk .parent = some (0, .ptr (.struct .IFF_Group)) := rfl
theorem find_IFF_Chunk_chunkId : Struct.find .IFF_Chunk .chunkId = some (1, .int .uint) := rfl
theorem find_IFF_Chunk_chunkSize : Struct.find .IFF_Chunk .chunkSize = some (2, .int .int) := rfl
theorem find_IFF_Group_parent : Struct.find .IFF_Group .parent = some (0, .ptr (.struct .IFF_Group)) := rfl
theorem find_IFF_Group_chunkId : Struct.find .IFF_Group .chunkId = some (1, .int .uint) := rfl
theorem find_IFF_Group_chunkSize : Struct.find .IFF_Group .chunkSize = some (2, .int .int) := rfl
theorem find_IFF_Group_groupType : Struct.find .IFF_Group .groupType = some (3, .int .uint) := rfl
theorem find_IFF_Group_chunkLength : Struct.find .IFF_Group .chunkLength = some (4, .int .uint) := rfl
theorem find_IFF_Group_chunk : Struct.find .IFF_Group .chunk = some (5, .ptr (.ptr (.struct .IFF_Chunk))) := rfl
theorem find_IFF_Form_parent : Struct.find .IFF_Form .parent = some (0, .ptr (.struct .IFF_Group)) := rfl
theorem find_IFF_Form_chunkId : Struct.find .IFF_Form .chunkId = some (1, .int .uint) := rfl
theorem find_IFF_Form_chunkSize : Struct.find .IFF_Form .chunkSize = some (2, .int .int) := rfl
theorem find_IFF_Form_formType : Struct.find .IFF_Form .formType = some (3, .int .uint) := rfl
theorem find_IFF_Form_chunkLength : Struct.find .IFF_Form .chunkLength = some (4, .int .uint) := rfl
theorem find_IFF_Form_chunk : Struct.find .IFF_Form .chunk = some (5, .ptr (.ptr (.struct .IFF_Chunk))) := rfl
theorem find_IFF_CAT_parent : Struct.find .IFF_CAT .parent = some (0, .ptr (.struct .IFF_Group)) := rfl
theorem find_IFF_CAT_chunkId : Struct.find .IFF_CAT .chunkId = some (1, .int .uint) := rfl
theorem find_IFF_CAT_chunkSize : Struct.find .IFF_CAT .chunkSize = some (2, .int .int) := rfl
theorem find_IFF_CAT_contentsType : Struct.find .IFF_CAT .contentsType = some (3, .int .uint) := rfl
theorem find_IFF_CAT_chunkLength : Struct.find .IFF_CAT .chunkLength = some (4, .int .uint) := rfl
theorem find_IFF_CAT_chunk : Struct.find .IFF_CAT .chunk = some (5, .ptr (.ptr (.struct .IFF_Chunk))) := rfl
theorem find_IFF_List_parent : Struct.find .IFF_List .parent = some (0, .ptr (.struct .IFF_Group)) := rfl
theorem find_IFF_List_chunkId : Struct.find .IFF_List .chunkId = some (1, .int .uint) := rfl
theorem find_IFF_List_chunkSize : Struct.find .IFF_List .chunkSize = some (2, .int .int) := rfl
theorem find_IFF_List_contentsType : Struct.find .IFF_List .contentsType = some (3, .int .uint) := rfl
theorem find_IFF_List_chunkLength : Struct.find .IFF_List .chunkLength = some (4, .int .uint) := rfl
theorem find_IFF_List_chunk : Struct.find .IFF_List .chunk = some (5, .ptr (.ptr (.struct .IFF_Chunk))) := rfl
theorem find_IFF_List_propLength : Struct.find .IFF_List .propLength = some (6, .int .uint) := rfl
theorem find_IFF_List_prop : Struct.find .IFF_List .prop = some (7, .ptr (.ptr (.struct .IFF_Form))) := rfl
theorem find_IFF_RawChunk_parent : Struct.find .IFF_RawChunk .parent = some (0, .ptr (.struct .IFF_Group)) := rfl
theorem find_IFF_RawChunk_chunkId : Struct.find .IFF_RawChunk .chunkId = some (1, .int .uint) := rfl
theorem find_IFF_RawChunk_chunkSize : Struct.find .IFF_RawChunk .chunkSize = some (2, .int .int) := rfl
theorem find_IFF_RawChunk_chunkData : Struct.find .IFF_RawChunk .chunkData = some (3, .ptr (.int .uchar)) := rfl
theorem find_IFF_ChunkType_chunkId : Struct.find .IFF_ChunkType .chunkId = some (0, .int .uint) := rfl
theorem find_IFF_ChunkType_createExtensionChunk : Struct.find .IFF_ChunkType .createExtensionChunk = some (1, .fn) := rfl
theorem find_IFF_ChunkType_readExtensionChunkFields : Struct.find .IFF_ChunkType .readExtensionChunkFields = some (2, .fn) := rfl
theorem find_IFF_ChunkType_writeExtensionChunkFields : Struct.find .IFF_ChunkType .writeExtensionChunkFields = some (3, .fn) := rfl
theorem find_IFF_ChunkType_checkExtensionChunk : Struct.find .IFF_ChunkType .checkExtensionChunk = some (4, .fn) := rfl
theorem find_IFF_ChunkType_freeExtensionChunk : Struct.find .IFF_ChunkType .freeExtensionChunk = some (5, .fn) := rfl
theorem find_IFF_ChunkType_printExtensionChunk : Struct.find .IFF_ChunkType .printExtensionChunk = some (6, .fn) := rfl
theorem find_IFF_ChunkType_compareExtensionChunk : Struct.find .IFF_ChunkType .compareExtensionChunk = some (7, .fn) := rfl
theorem find_IFF_ChunkTypesNode_chunkTypesLength : Struct.find .IFF_ChunkTypesNode .chunkTypesLength = some (0, .int .uint) := rfl
theorem find_IFF_ChunkTypesNode_chunkTypes : Struct.find .IFF_ChunkTypesNode .chunkTypes = some (1, .ptr (.struct .IFF_ChunkType)) := rfl
theorem find_IFF_ChunkTypesNode_parent : Struct.find .IFF_ChunkTypesNode .parent = some (2, .ptr (.struct .IFF_ChunkTypesNode)) := rfl
theorem find_IFF_FormChunkTypes_formType : Struct.find .IFF_FormChunkTypes .formType = some (0, .int .uint) := rfl
theorem find_IFF_FormChunkTypes_chunkTypesNode : Struct.find .IFF_FormChunkTypes .chunkTypesNode = some (1, .ptr (.struct .IFF_ChunkTypesNode)) := rfl
theorem find_IFF_ChunkRegistry_formChunkTypesLength : Struct.find .IFF_ChunkRegistry .formChunkTypesLength = some (0, .int .uint) := rfl
theorem find_IFF_ChunkRegistry_formChunkTypes : Struct.find .IFF_ChunkRegistry .formChunkTypes = some (1, .ptr (.struct .IFF_FormChunkTypes)) := rfl
theorem find_IFF_ChunkRegistry_globalChunkTypesNode : Struct.find .IFF_ChunkRegistry .globalChunkTypesNode = some (2, .ptr (.struct .IFF_ChunkTypesNode)) := rfl
theorem find_IFF_ChunkRegistry_defaultChunkType : Struct.find .IFF_ChunkRegistry .defaultChunkType = some (3, .ptr (.struct .IFF_ChunkType)) := rfl
theorem slots_IFF_Chunk : Struct.slots .IFF_Chunk = 3 := rfl
theorem slots_IFF_Group : Struct.slots .IFF_Group = 6 := rfl
theorem slots_IFF_Form : Struct.slots .IFF_Form = 6 := rfl
theorem slots_IFF_CAT : Struct.slots .IFF_CAT = 6 := rfl
theorem slots_IFF_List : Struct.slots .IFF_List = 8 := rfl
theorem slots_IFF_RawChunk : Struct.slots .IFF_RawChunk = 4 := rfl
theorem slots_IFF_ChunkType : Struct.slots .IFF_ChunkType = 8 := rfl
theorem slots_IFF_ChunkTypesNode : Struct.slots .IFF_ChunkTypesNode = 3 := rfl
theorem slots_IFF_FormChunkTypes : Struct.slots .IFF_FormChunkTypes = 2 := rfl
theorem slots_IFF_ChunkRegistry : Struct.slots .IFF_ChunkRegistry = 4 := rfl

theorem size_IFF_Chunk_IFF_Group (X : Cfg) : Struct.size X.e .IFF_Chunk ≤ Struct.size X.e .IFF_Group := by
  rcases X.word with h | h <;> simp only [Struct.size, scalarSize, ITy.bits, h] <;> decide
theorem size_IFF_Chunk_IFF_List (X : Cfg) : Struct.size X.e .IFF_Chunk ≤ Struct.size X.e .IFF_List := by
  rcases X.word with h | h <;> simp only [Struct.size, scalarSize, ITy.bits, h] <;> decide
theorem size_IFF_Chunk_IFF_RawChunk (X : Cfg) : Struct.size X.e .IFF_Chunk ≤ Struct.size X.e .IFF_RawChunk := by
  rcases X.word with h | h <;> simp only [Struct.size, scalarSize, ITy.bits, h] <;> decide
theorem size_IFF_Group_IFF_List (X : Cfg) : Struct.size X.e .IFF_Group ≤ Struct.size X.e .IFF_List := by
  rcases X.word with h | h <;> simp only [Struct.size, scalarSize, ITy.bits, h] <;> decide
theorem size_IFF_Form (X : Cfg) : Struct.size X.e .IFF_Form = Struct.size X.e .IFF_Group := rfl
theorem size_IFF_CAT (X : Cfg) : Struct.size X.e .IFF_CAT = Struct.size X.e .IFF_Group := rfl

/-! ### Integers -/

theorem toNat_emod (b : BitVec 32) : (b.toNat : Int) % 4294967296 = b.toNat := by omega

theorem byte_emod (b : BitVec 8) : (b.toNat : Int) % 256 = b.toNat := by omega

theorem wrapInt_of {x : Int} (h : inInt x) : wrapInt x = x := by
  simp only [wrapInt, inInt] at *; omega

theorem wrapInt_zero : wrapInt 0 = 0 := rfl
theorem wrapInt_one : wrapInt 1 = 1 := rfl
theorem wrapInt_neg_one : wrapInt (-1) = -1 := rfl
theorem wrapInt_lit (n : Nat) (h : n < 2147483648) :
    wrapInt (no_index (OfNat.ofNat n)) = OfNat.ofNat n := by
  apply wrapInt_of
  have : (OfNat.ofNat n : Int) = (n : Int) := rfl
  rw [this]; simp only [inInt]; omega

theorem inInt_toInt (b : BitVec 32) : inInt b.toInt := by
  simp only [inInt]
  exact ⟨b.le_toInt, b.toInt_lt⟩

theorem wrapInt_toInt (b : BitVec 32) : wrapInt b.toInt = b.toInt := wrapInt_of (inInt_toInt b)

theorem wrapInt_toNat (b : BitVec 32) : wrapInt b.toNat = b.toInt := by
  rw [BitVec.toInt_eq_toNat_cond]
  simp only [wrapInt]
  split <;> omega

theorem toInt_emod (b : BitVec 32) : b.toInt % 4294967296 = b.toNat := by
  rw [BitVec.toInt_eq_toNat_cond]
  split <;> omega

theorem ofInt_toNat (b : BitVec 32) : BitVec.ofInt 32 b.toNat = b := by
  rw [BitVec.ofInt_natCast, BitVec.ofNat_toNat, BitVec.setWidth_eq]

theorem ofInt_byte (b : BitVec 8) : BitVec.ofInt 8 b.toNat = b := by
  rw [BitVec.ofInt_natCast, BitVec.ofNat_toNat, BitVec.setWidth_eq]

section
variable {e : Env} (a b : BitVec 32) (k : Int)

theorem band_uint : binop e .band (.int .uint a.toNat) (.int .int k) =
    .val (.int .uint (a &&& BitVec.ofInt 32 k).toNat) := by
  simp only [binop, ITy.promote, ITy.common, binI, bitwise, convI, toNat_emod]
  have : BitVec.ofInt 32 (k % 4294967296) = BitVec.ofInt 32 k := by
    apply BitVec.eq_of_toNat_eq; simp
  show Out.val (V.int .uint (ofBits false (BitVec.ofInt 32 a.toNat &&& BitVec.ofInt 32 (k % 4294967296)))) = _
  rw [ofInt_toNat, this]; rfl

theorem band_uint_uint : binop e .band (.int .uint a.toNat) (.int .uint k) =
    .val (.int .uint (a &&& BitVec.ofInt 32 k).toNat) := by
  simp only [binop, ITy.promote, ITy.common, binI, bitwise, convI, toNat_emod]
  have : BitVec.ofInt 32 (k % 4294967296) = BitVec.ofInt 32 k := by
    apply BitVec.eq_of_toNat_eq; simp
  show Out.val (V.int .uint (ofBits false (BitVec.ofInt 32 a.toNat &&& BitVec.ofInt 32 (k % 4294967296)))) = _
  rw [ofInt_toNat, this]; rfl

theorem bor_uint : binop e .bor (.int .uint a.toNat) (.int .uint b.toNat) =
    .val (.int .uint (a ||| b).toNat) := by
  simp only [binop, ITy.promote, ITy.common, binI, bitwise, convI, toNat_emod]
  show Out.val (V.int .uint (ofBits false (BitVec.ofInt 32 a.toNat ||| BitVec.ofInt 32 b.toNat))) = _
  rw [ofInt_toNat, ofInt_toNat]; rfl

theorem shl_uint (h : 0 ≤ k ∧ k < 32) : binop e .shl (.int .uint a.toNat) (.int .int k) =
    .val (.int .uint (a <<< k.toNat).toNat) := by
  have h' : 0 ≤ k ∧ k.toNat < ITy.bits e (ITy.promote .uint) := ⟨h.1, by simp only [ITy.promote, ITy.bits]; omega⟩
  simp only [binop]
  rw [if_pos h']
  show Out.val (V.int .uint (ofBits false (BitVec.ofInt 32 a.toNat <<< k.toNat))) = _
  rw [ofInt_toNat]; rfl

theorem shr_uint (h : 0 ≤ k ∧ k < 32) : binop e .shr (.int .uint a.toNat) (.int .int k) =
    .val (.int .uint (a >>> k.toNat).toNat) := by
  have h' : 0 ≤ k ∧ k.toNat < ITy.bits e (ITy.promote .uint) := ⟨h.1, by simp only [ITy.promote, ITy.bits]; omega⟩
  simp only [binop]
  rw [if_pos h']
  show Out.val (V.int .uint (ofBits false (BitVec.ofInt 32 a.toNat >>> k.toNat))) = _
  rw [ofInt_toNat]; rfl

/-- The operators on `int`. -/
theorem band_int : binop e .band (.int .int a.toInt) (.int .int k) =
    .val (.int .int (a &&& BitVec.ofInt 32 k).toInt) := by
  simp only [binop, ITy.promote, ITy.common, binI, bitwise, convI, wrapInt_toInt]
  have : BitVec.ofInt 32 (wrapInt k) = BitVec.ofInt 32 k := by
    apply BitVec.eq_of_toInt_eq; simp [wrapInt, Int.bmod_def]
  show Out.val (V.int .int (ofBits true (BitVec.ofInt 32 a.toInt &&& BitVec.ofInt 32 (wrapInt k)))) = _
  rw [this, BitVec.ofInt_toInt]; rfl

theorem band_int_uint : binop e .band (.int .int a.toInt) (.int .uint k) =
    .val (.int .uint (a &&& BitVec.ofInt 32 k).toNat) := by
  simp only [binop, ITy.promote, ITy.common, binI, bitwise, convI, toInt_emod]
  have : BitVec.ofInt 32 (k % 4294967296) = BitVec.ofInt 32 k := by
    apply BitVec.eq_of_toNat_eq; simp
  show Out.val (V.int .uint (ofBits false (BitVec.ofInt 32 a.toNat &&& BitVec.ofInt 32 (k % 4294967296)))) = _
  rw [ofInt_toNat, this]; rfl

theorem bor_int : binop e .bor (.int .int a.toInt) (.int .int b.toInt) =
    .val (.int .int (a ||| b).toInt) := by
  simp only [binop, ITy.promote, ITy.common, binI, bitwise, convI, wrapInt_toInt]
  show Out.val (V.int .int (ofBits true (BitVec.ofInt 32 a.toInt ||| BitVec.ofInt 32 b.toInt))) = _
  rw [BitVec.ofInt_toInt, BitVec.ofInt_toInt]; rfl

theorem bor_int_uint : binop e .bor (.int .int a.toInt) (.int .uint b.toNat) =
    .val (.int .uint (a ||| b).toNat) := by
  simp only [binop, ITy.promote, ITy.common, binI, bitwise, convI, toInt_emod, toNat_emod]
  show Out.val (V.int .uint (ofBits false (BitVec.ofInt 32 a.toNat ||| BitVec.ofInt 32 b.toNat))) = _
  rw [ofInt_toNat, ofInt_toNat]; rfl

theorem shl_int (h : 0 ≤ k ∧ k < 32) : binop e .shl (.int .int a.toInt) (.int .int k) =
    .val (.int .int (a <<< k.toNat).toInt) := by
  have h' : 0 ≤ k ∧ k.toNat < ITy.bits e (ITy.promote .int) := ⟨h.1, by simp only [ITy.promote, ITy.bits]; omega⟩
  simp only [binop]
  rw [if_pos h']
  show Out.val (V.int .int (ofBits true (BitVec.ofInt 32 a.toInt <<< k.toNat))) = _
  rw [BitVec.ofInt_toInt]; rfl

theorem shr_int (h : 0 ≤ k ∧ k < 32) : binop e .shr (.int .int a.toInt) (.int .int k) =
    .val (.int .int (a.sshiftRight k.toNat).toInt) := by
  have h' : 0 ≤ k ∧ k.toNat < ITy.bits e (ITy.promote .int) := ⟨h.1, by simp only [ITy.promote, ITy.bits]; omega⟩
  simp only [binop]
  rw [if_pos h']
  show Out.val (V.int .int (ofBits true (if true = true then (BitVec.ofInt 32 a.toInt).sshiftRight k.toNat
    else BitVec.ofInt 32 a.toInt >>> k.toNat))) = _
  rw [if_pos rfl, BitVec.ofInt_toInt]; rfl

end

/-! ### Access to memory -/

/-- The block a pointer points into. -/
def blkOf (X : Cfg) (g : CS) (p : Ptr) : Out Blk :=
  match g.blk X p.obj with
  | some b => .val b
  | none => .ub (if p = Ptr.null then .nullDeref else .useAfterFree)

section
variable {X : Cfg} {heap : Nat → Option Blk} {tick room : Nat} {stk : List Blk}
  {inp out text : List Byte} {log : List ErrPrint}

theorem blkOf_heap {a i : Nat} {b : Blk} (h : heap a = some b) :
    blkOf X ⟨heap, tick, stk, inp, out, room, text, log⟩ ⟨.heap a, i⟩ = .val b := by
  simp only [blkOf, CS.blk, h]
theorem blkOf_stk {k i : Nat} {b : Blk} (h : stk[k]? = some b) :
    blkOf X ⟨heap, tick, stk, inp, out, room, text, log⟩ ⟨.stk k, i⟩ = .val b := by
  simp only [blkOf, CS.blk, h]
theorem blkOf_static {k i : Nat} {b : Blk} (h : X.img k = some b) :
    blkOf X ⟨heap, tick, stk, inp, out, room, text, log⟩ ⟨.static k, i⟩ = .val b := by
  simp only [blkOf, CS.blk, h]

theorem load_obind {g : CS} {p : Ptr} : g.load X p = obind (blkOf X g p) fun b => .val (b.cell p.off) := by
  simp only [CS.load, blkOf]; cases g.blk X p.obj <;> rfl
theorem store_obind {g : CS} {p : Ptr} {c : Cell} :
    g.store X p c = obind (blkOf X g p) fun b => g.setBlk p.obj (b.set p.off c) := by
  simp only [CS.store, blkOf]; cases g.blk X p.obj <;> rfl
theorem store_heap {g : CS} {a i : Nat} {c : Cell} : g.store X ⟨.heap a, i⟩ c =
    obind (blkOf X g ⟨.heap a, i⟩) fun b => g.setBlk (.heap a) (b.set i c) := store_obind
theorem store_stk {g : CS} {k i : Nat} {c : Cell} : g.store X ⟨.stk k, i⟩ c =
    obind (blkOf X g ⟨.stk k, i⟩) fun b => g.setBlk (.stk k) (b.set i c) := store_obind
theorem setBlk_heap {a : Nat} {b : Blk} :
    CS.setBlk ⟨heap, tick, stk, inp, out, room, text, log⟩ (.heap a) b =
      .val ⟨setHeap heap a (some b), tick, stk, inp, out, room, text, log⟩ := rfl
theorem setBlk_stk {k : Nat} {b : Blk} :
    CS.setBlk ⟨heap, tick, stk, inp, out, room, text, log⟩ (.stk k) b =
      .val ⟨heap, tick, stk.set k b, inp, out, room, text, log⟩ := rfl

theorem memberOf_obind {st : Struct} {o : Obj} {m : Member} {s : Fr} :
    memberOf X (.ptr (.struct st) ⟨o, 0⟩) m s = obind (blkOf X s.g ⟨o, 0⟩) fun b =>
      if st.size X.e ≤ b.size then
        match st.find m with
        | some (i, t) => .val (.mem t ⟨o, i⟩, s)
        | none => .ub .badArgument
      else .ub .outOfBounds := by
  simp only [memberOf, blkOf]
  cases s.g.blk X o with
  | none => rfl
  | some b =>
    simp only [Nat.zero_div, Nat.zero_add, Nat.one_mul]
    split
    · rename_i h; rw [obind_val, if_pos h]; cases st.find m <;> rfl
    · rename_i h; rw [obind_val, if_neg h]

theorem elementOf_obind {t : Ty} {o : Obj} {u : ITy} {k : Int} {s : Fr} :
    elementOf X (.ptr t ⟨o, 0⟩) (.int u k) s = obind (blkOf X s.g ⟨o, 0⟩) fun b =>
      if 0 ≤ k ∧ (k.toNat + 1) * scalarSize X.e t ≤ b.size then .val (.mem t ⟨o, k.toNat⟩, s)
      else .ub .outOfBounds := by
  simp only [elementOf, blkOf]
  cases s.g.blk X o <;> rfl

end

section
variable {l xs : List Blk} {a b c d x : Blk}

theorem stk_len1 : (l ++ [a]).length = l.length + 1 := by simp
theorem stk_len2 : (l ++ [a, b]).length = l.length + 2 := by simp
theorem stk_len3 : (l ++ [a, b, c]).length = l.length + 3 := by simp
theorem stk_get0 : (l ++ a :: xs)[l.length]? = some a := by simp
theorem stk_get1 : (l ++ a :: b :: xs)[l.length + 1]? = some b := by simp
theorem stk_get2 : (l ++ a :: b :: c :: xs)[l.length + 2]? = some c := by simp
theorem stk_get3 : (l ++ a :: b :: c :: d :: xs)[l.length + 3]? = some d := by simp
theorem stk_set0 : (l ++ a :: xs).set l.length x = l ++ x :: xs := by simp
theorem stk_set1 : (l ++ a :: b :: xs).set (l.length + 1) x = l ++ a :: x :: xs := by
  simp [List.set_append]
theorem stk_set2 : (l ++ a :: b :: c :: xs).set (l.length + 2) x = l ++ a :: b :: x :: xs := by
  simp [List.set_append]
theorem stk_set3 : (l ++ a :: b :: c :: d :: xs).set (l.length + 3) x = l ++ a :: b :: c :: x :: xs := by
  simp [List.set_append]
theorem stk_take0 : (l ++ xs).take l.length = l := by simp
theorem stk_take1 : (l ++ a :: xs).take (l.length + 1) = l ++ [a] := by
  simp [List.take_append, List.take_of_length_le]
theorem stk_take2 : (l ++ a :: b :: xs).take (l.length + 2) = l ++ [a, b] := by
  simp [List.take_append, List.take_of_length_le]
theorem stk_take3 : (l ++ a :: b :: c :: xs).take (l.length + 3) = l ++ [a, b, c] := by
  simp [List.take_append, List.take_of_length_le]
theorem stk_push1 : (l ++ [a]) ++ xs = l ++ a :: xs := by simp
theorem stk_push2 : (l ++ [a, b]) ++ xs = l ++ a :: b :: xs := by simp
theorem stk_push3 : (l ++ [a, b, c]) ++ xs = l ++ a :: b :: c :: xs := by simp

end

section
variable {n : Nat} {a b c d : Cell}

theorem set_new {l : List Cell} : Blk.set ⟨n, cells l⟩ l.length c = ⟨n, cells (l ++ [c])⟩ := by
  simp only [Blk.set, Blk.mk.injEq, true_and]
  funext j
  simp only [cells, List.getD_eq_getElem?_getD]
  by_cases hj : j = l.length
  · subst hj; simp
  · simp only [hj, if_false]
    rcases Nat.lt_or_ge j l.length with h | h
    · simp [h, List.getElem?_append_left h]
    · have : l.length < j := by omega
      rw [List.getElem?_eq_none h, List.getElem?_eq_none (by simp; omega)]

theorem set_new0 : Blk.set ⟨n, cells []⟩ 0 c = ⟨n, cells [c]⟩ := set_new
theorem set_new1 : Blk.set ⟨n, cells [a]⟩ 1 c = ⟨n, cells [a, c]⟩ := set_new
theorem set_new2 : Blk.set ⟨n, cells [a, b]⟩ 2 c = ⟨n, cells [a, b, c]⟩ := set_new
theorem set_new3 : Blk.set ⟨n, cells [a, b, d]⟩ 3 c = ⟨n, cells [a, b, d, c]⟩ := set_new

end

/-! ### Operators -/

section
variable {e : Env} {x y : Int}

theorem binop_arith {o : BinOp} {t u : ITy} (h : o ≠ .shl) (h' : o ≠ .shr)
    (_ : o ≠ .band) (_ : o ≠ .bor) :
    binop e o (.int t x) (.int u y) =
      match ITy.common t.promote u.promote with
      | some c => binI e o c (convI e c x) (convI e c y)
      | none => .ub .badArgument := by
  cases o <;> first | exact absurd rfl h | exact absurd rfl h' | rfl
theorem binop_eq_ptr {t u : Ty} {p q : Ptr} :
    binop e .eq (.ptr t p) (.ptr u q) = .val (truth (p == q)) := rfl
theorem binop_ne_ptr {t u : Ty} {p q : Ptr} :
    binop e .ne (.ptr t p) (.ptr u q) = .val (truth (p != q)) := rfl
theorem convI_int : convI e .int x = wrapInt x := rfl
theorem convI_uint : convI e .uint x = x % 4294967296 := rfl
theorem convI_size : convI e .size x = toSize e x := rfl
theorem convI_long : convI e .long x = x := rfl
theorem convI_char : convI e .char x = ofBits e.charSigned (BitVec.ofInt 8 x) := rfl
theorem convI_uchar : convI e .uchar x = x % 256 := rfl
theorem binI_add {t} : binI e .add t x y = arith e t (x + y) := rfl
theorem binI_sub {t} : binI e .sub t x y = arith e t (x - y) := rfl
theorem binI_mul {t} : binI e .mul t x y = arith e t (x * y) := rfl
theorem binI_eq {t} : binI e .eq t x y = .val (truth (x == y)) := rfl
theorem binI_ne {t} : binI e .ne t x y = .val (truth (x != y)) := rfl
theorem binI_lt {t} : binI e .lt t x y = .val (truth (decide (x < y))) := rfl
theorem binI_gt {t} : binI e .gt t x y = .val (truth (decide (x > y))) := rfl
theorem binI_le {t} : binI e .le t x y = .val (truth (decide (x ≤ y))) := rfl
theorem binI_ge {t} : binI e .ge t x y = .val (truth (decide (x ≥ y))) := rfl
theorem binI_mod {t} : binI e .mod t x y =
    if y = 0 then .ub .badArgument else .val (.int t (x.tmod y)) := rfl
theorem arith_int : arith e .int x =
    if inInt x then .val (.int .int x) else .ub .signedOverflow := rfl
theorem arith_uint : arith e .uint x = .val (.int .uint (x % 4294967296)) := rfl
theorem arith_size : arith e .size x = .val (.int .size (toSize e x)) := rfl
theorem conv_truth {b : Bool} : conv e (.int .int) (truth b) = .val (truth b) := by cases b <;> rfl
theorem result_truth {b : Bool} : Flow.result e (.int .int) (.ret (truth b)) = .val (truth b) := by
  cases b <;> rfl

theorem char_conv {w : Nat} {v : BitVec w} (h : w = 32) :
    ofBits e.charSigned (BitVec.ofInt 8 v.toNat) = charVal e (v.truncate 8) := by
  subst h
  have : BitVec.ofInt 8 v.toNat = v.truncate 8 := by
    rw [BitVec.ofInt_natCast]; rfl
  rw [this]; simp only [ofBits, charVal]

end

theorem call_malloc {X : Cfg} {n : Nat} {vs : List V} {g : CS} :
    callFn X (n + 1) .malloc vs g = prim X (callFn X n) .malloc vs g := callFn_prim rfl
theorem call_calloc {X : Cfg} {n : Nat} {vs : List V} {g : CS} :
    callFn X (n + 1) .calloc vs g = prim X (callFn X n) .calloc vs g := callFn_prim rfl
theorem call_realloc {X : Cfg} {n : Nat} {vs : List V} {g : CS} :
    callFn X (n + 1) .realloc vs g = prim X (callFn X n) .realloc vs g := callFn_prim rfl
theorem call_free {X : Cfg} {n : Nat} {vs : List V} {g : CS} :
    callFn X (n + 1) .free vs g = prim X (callFn X n) .free vs g := callFn_prim rfl
theorem call_memcpy {X : Cfg} {n : Nat} {vs : List V} {g : CS} :
    callFn X (n + 1) .memcpy vs g = prim X (callFn X n) .memcpy vs g := callFn_prim rfl
theorem call_memcmp {X : Cfg} {n : Nat} {vs : List V} {g : CS} :
    callFn X (n + 1) .memcmp vs g = prim X (callFn X n) .memcmp vs g := callFn_prim rfl
theorem call_strlen {X : Cfg} {n : Nat} {vs : List V} {g : CS} :
    callFn X (n + 1) .strlen vs g = prim X (callFn X n) .strlen vs g := callFn_prim rfl
theorem call_bsearch {X : Cfg} {n : Nat} {vs : List V} {g : CS} :
    callFn X (n + 1) .bsearch vs g = prim X (callFn X n) .bsearch vs g := callFn_prim rfl
theorem call_fgetc {X : Cfg} {n : Nat} {vs : List V} {g : CS} :
    callFn X (n + 1) .fgetc vs g = prim X (callFn X n) .fgetc vs g := callFn_prim rfl
theorem call_fputc {X : Cfg} {n : Nat} {vs : List V} {g : CS} :
    callFn X (n + 1) .fputc vs g = prim X (callFn X n) .fputc vs g := callFn_prim rfl
theorem call_fread {X : Cfg} {n : Nat} {vs : List V} {g : CS} :
    callFn X (n + 1) .fread vs g = prim X (callFn X n) .fread vs g := callFn_prim rfl
theorem call_fwrite {X : Cfg} {n : Nat} {vs : List V} {g : CS} :
    callFn X (n + 1) .fwrite vs g = prim X (callFn X n) .fwrite vs g := callFn_prim rfl
theorem call_fseek {X : Cfg} {n : Nat} {vs : List V} {g : CS} :
    callFn X (n + 1) .fseek vs g = prim X (callFn X n) .fseek vs g := callFn_prim rfl
theorem prim_fgetc {X : Cfg} {call} {g : CS} : prim X call .fgetc [.file .inp] g =
    match g.inp with
    | [] => .val (.int .int (-1), g)
    | b :: bs => .val (.int .int b.toNat, { g with inp := bs }) := rfl
theorem prim_fread {X : Cfg} {call} {g : CS} {t u v : ITy} {p : Ptr} {size n : Int} :
    prim X call .fread [.ptr (.int t) p, .int u size, .int v n, .file .inp] g =
      freadC X t p (toSize X.e size) (toSize X.e n) g := rfl
theorem prim_malloc {X : Cfg} {call} {g : CS} {t : ITy} {n : Int} :
    prim X call .malloc [.int t n] g = mallocC X (toSize X.e n) (cells []) g := rfl
theorem prim_realloc {X : Cfg} {call} {g : CS} {t : ITy} {u : Ty} {a : Nat} {n : Int} :
    prim X call .realloc [.ptr (.ptr u) ⟨.heap a, 0⟩, .int t n] g = reallocC X a (toSize X.e n) g := rfl
theorem prim_free {X : Cfg} {call} {g : CS} {u : Ty} {a : Nat} :
    prim X call .free [.ptr u ⟨.heap a, 0⟩] g = freeC a g := rfl
theorem prim_fseek {X : Cfg} {call} {g : CS} {t u : ITy} {n : Int} :
    prim X call .fseek [.file .inp, .int t n, .int u 1] g =
    if 0 ≤ n then
      (if X.e.seekable then .val (.int .int 0, { g with inp := g.inp.drop n.toNat })
       else .val (.int .int (-1), g))
    else .ub .badArgument := rfl

theorem IFF_error_run {X : Cfg} {n : Nat} {fmt : String} {vs : List V} {g : CS} :
    callFn X (n + 1) .IFF_error (.str fmt :: vs) g = errorC X.e fmt vs g := by
  rw [callFn_prim rfl]; rfl

set_option maxRecDepth 8000 in
/-- Run a program symbolically. -/
macro "crun" "[" ts:Lean.Parser.Tactic.simpLemma,* "]" : tactic => `(tactic| simp -implicitDefEqProofs only [
    ↓evalE_num, ↓evalE_str, ↓evalE_null, ↓evalE_eof, ↓evalE_seekCur, ↓evalE_stdin, ↓evalE_stdout,
    ↓evalE_fn, ↓evalE_var, ↓evalE_glob, ↓evalE_addr, ↓evalE_deref, ↓evalE_arrow, ↓evalE_dot,
    ↓evalE_index, ↓evalE_not, ↓evalE_neg, ↓evalE_bin, ↓evalE_land, ↓evalE_lor, ↓evalE_cast,
    ↓evalE_sizeof, ↓evalE_assign, ↓evalE_assignOp, ↓evalE_inc, ↓evalE_call, ↓evalL_var, ↓evalL_glob,
    ↓evalL_deref, ↓evalL_arrow, ↓evalL_dot, ↓evalL_index, ↓evalArgs_nil, ↓evalArgs_cons, derefL_ptr,
    dotL_mem, loadL_reg, loadL_arr, loadL_int, loadL_ptr, loadL_fn, storeL_reg, storeL_mem,
    ↓exec_skip, ↓exec_expr, ↓exec_seq, ↓exec_ite, ↓exec_ret, ↓exec_retVoid, ↓exec_break, ↓exec_decl,
    ↓exec_declInit, ↓exec_object, ↓exec_objectInit, ↓exec_switch, ↓exec_endian, ↓execCases_nil,
    ↓execCases_case, ↓execCases_default, andThen_norm, andThen_ret, andThen_brk, result_ret_int,
    result_ret_ptr, result_ret_void, result_norm, bindParams_nil, bindParams_cons, isTrue_int,
    isTrue_ptr, isTrue_truth, ofCell_int, ofCell_ptr, ofCell_fn, toCell_int, toCell_ptr,
    conv_int, conv_ptr, conv_str, conv_file, conv_fn, cells_0, cells_1, cells_2, cells_3,
    cells_4, cells_5, cells_6, cells_7, set_0, set_1, set_2, set_3, set_4, set_5, set_6, set_7,
    find_IFF_Chunk_parent, find_IFF_Chunk_chunkId, find_IFF_Chunk_chunkSize,
    find_IFF_Group_parent, find_IFF_Group_chunkId, find_IFF_Group_chunkSize,
    find_IFF_Group_groupType, find_IFF_Group_chunkLength, find_IFF_Group_chunk,
    find_IFF_Form_parent, find_IFF_Form_chunkId, find_IFF_Form_chunkSize,
    find_IFF_Form_formType, find_IFF_Form_chunkLength, find_IFF_Form_chunk, find_IFF_CAT_parent,
    find_IFF_CAT_chunkId, find_IFF_CAT_chunkSize, find_IFF_CAT_contentsType,
    find_IFF_CAT_chunkLength, find_IFF_CAT_chunk, find_IFF_List_parent, find_IFF_List_chunkId,
    find_IFF_List_chunkSize, find_IFF_List_contentsType, find_IFF_List_chunkLength,
    find_IFF_List_chunk, find_IFF_List_propLength, find_IFF_List_prop, find_IFF_RawChunk_parent,
    find_IFF_RawChunk_chunkId, find_IFF_RawChunk_chunkSize, find_IFF_RawChunk_chunkData,
    find_IFF_ChunkType_chunkId, find_IFF_ChunkType_createExtensionChunk,
    find_IFF_ChunkType_readExtensionChunkFields, find_IFF_ChunkType_writeExtensionChunkFields,
    find_IFF_ChunkType_checkExtensionChunk, find_IFF_ChunkType_freeExtensionChunk,
    find_IFF_ChunkType_printExtensionChunk, find_IFF_ChunkType_compareExtensionChunk,
    find_IFF_ChunkTypesNode_chunkTypesLength, find_IFF_ChunkTypesNode_chunkTypes,
    find_IFF_ChunkTypesNode_parent, find_IFF_FormChunkTypes_formType,
    find_IFF_FormChunkTypes_chunkTypesNode, find_IFF_ChunkRegistry_formChunkTypesLength,
    find_IFF_ChunkRegistry_formChunkTypes, find_IFF_ChunkRegistry_globalChunkTypesNode,
    find_IFF_ChunkRegistry_defaultChunkType, size_IFF_Chunk_IFF_Group, size_IFF_Chunk_IFF_List,
    size_IFF_Chunk_IFF_RawChunk, size_IFF_Group_IFF_List, size_IFF_Form, size_IFF_CAT,
    setBlk_heap, setBlk_stk, stk_len1, stk_len2, stk_len3, stk_get0, stk_get1, stk_get2,
    stk_get3, stk_set0, stk_set1, stk_set2, stk_set3, stk_take0, stk_take1, stk_take2,
    stk_take3, stk_push1, stk_push2, stk_push3, set_new0, set_new1, set_new2, set_new3,
    convI_int, convI_uint, convI_size, convI_long, convI_char, convI_uchar, binI_add, binI_sub,
    binI_mul, binI_eq, binI_ne, binI_lt, binI_gt, binI_le, binI_ge, binI_mod, arith_int,
    arith_uint, arith_size, conv_truth, result_truth, prim_fgetc, prim_fread, prim_malloc,
    prim_realloc, prim_free, prim_fseek, ↓obind_val, obind_val, ↓runFun_obind, varL_run, onG_obind,
    load_obind, store_heap, store_stk, memberOf_obind, elementOf_obind, binop_arith, binop_eq_ptr,
    binop_ne_ptr, setLoc_self, setLoc_ne, LV.ty, ITy.promote, ITy.common, wrapInt_lit,
    wrapInt_zero, wrapInt_one, wrapInt_neg_one, toNat_emod, byte_emod, wrapInt_toInt,
    wrapInt_toNat, TRUE, FALSE, IFF_ID_SIZE, ↓evalC_obind,  reduceCtorEq, ne_eq,
    not_false_eq_true, not_true_eq_false, and_true, true_and, and_self, decide_true,
    decide_false, Bool.false_eq_true, Bool.not_true, Bool.not_false, Bool.or_false,
    Bool.or_true, Bool.true_or, Bool.false_or, Nat.le_refl, Int.toNat_zero, Int.toNat_one,
    ↓reduceIte, Int.reduceLT, Int.reduceLE, Int.reduceGT, Int.reduceGE, Int.reduceAdd, Int.reduceSub,
    Int.reduceMul, Int.reduceMod, Int.reduceNeg, Int.reduceToNat, Int.reduceEq, Int.reduceBEq,
    Int.reduceBNe, Nat.reduceAdd, Nat.reduceMul, Nat.reduceSub, Nat.reduceDiv, Nat.reduceMod,
    Nat.reduceLeDiff, Nat.reduceLT, Nat.reduceEqDiff, Nat.reduceBEq, Nat.reduceBNe, Nat.reducePow,
    Int.cast_ofNat_Int, M.pure_apply, bind_obind, call_malloc, call_calloc, call_realloc, call_free, call_memcpy, call_memcmp, call_strlen, call_bsearch, call_fgetc, call_fputc, call_fread, call_fwrite, call_fseek, $ts,*])

end Iff.Src
