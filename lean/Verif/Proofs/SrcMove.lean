import Verif.Proofs.SrcBase
/-
  It makes no difference to the text where an object is: what it does with a static object that it cannot
  change, it does as well with the same object on the heap.
-/
namespace Iff.Src

/-- The program whose allocator knows that the block `B` is at the address `a`, and that has `B` as the
static object `K`. -/
def Cfg.hold (X : Cfg) (a K : Nat) (B : Blk) : Cfg :=
  { X with
    pick := fun t s n => X.pick t (fun x => if x = a then some B.size else s x) n
    sound := fun {t s n b} h => by
      obtain ⟨h1, h2⟩ := X.sound h
      refine ⟨h1, ?_⟩
      by_cases hb : b = a
      · subst hb; simp at h2
      · simpa [hb] using h2
    img := fun k => if k = K then some B else X.img k }

/-! ### Moving the object -/

/-- Exchange the static object `K` and the block at `a`. -/
def mo (a K : Nat) : Obj → Obj
  | .heap x => if x = a then .static K else .heap x
  | .static k => if k = K then .heap a else .static k
  | .stk i => .stk i

def mp (a K : Nat) (p : Ptr) : Ptr := ⟨mo a K p.obj, p.off⟩

def mv (a K : Nat) : V → V
  | .ptr t p => .ptr t (mp a K p)
  | v => v

def mc (a K : Nat) : Cell → Cell
  | .ptr p => .ptr (mp a K p)
  | c => c

def mb (a K : Nat) (b : Blk) : Blk := ⟨b.size, fun i => mc a K (b.cell i)⟩

def mg (a K : Nat) (B : Blk) (g : CS) : CS :=
  { g with
    heap := fun x => if x = a then some B else (g.heap x).map (mb a K)
    stk := g.stk.map (mb a K) }

def ms (a K : Nat) : Slot → Slot
  | .reg t v => .reg t (mv a K v)
  | s => s

def mf (a K : Nat) (B : Blk) (s : Fr) : Fr := ⟨fun x => ms a K (s.loc x), mg a K B s.g⟩

def ml (a K : Nat) : LV → LV
  | .mem t p => .mem t (mp a K p)
  | l => l

def mw (a K : Nat) : Flow → Flow
  | .ret v => .ret (mv a K v)
  | f => f

/-! ### Simulation -/

/-- Whatever `m'` does, `m` does with the object moved. -/
def Sim {σ α : Type} (ok : σ → Prop) (f : σ → σ) (r : α → α) (m' m : M σ α) : Prop :=
  ∀ s v s', ok s → m' s = .val (v, s') → ok s' ∧ m (f s) = .val (r v, f s')

section
variable {σ α β : Type} {ok : σ → Prop} {f : σ → σ} {r : α → α} {r₂ : β → β}

theorem Sim.bind {m' m : M σ α} {k' k : α → M σ β} (h : Sim ok f r m' m)
    (hk : ∀ x, Sim ok f r₂ (k' x) (k (r x))) : Sim ok f r₂ (m' >>= k') (m >>= k) := by
  intro s v s' hs h'
  rw [M.bind_apply] at h'
  cases hm : m' s with
  | val p =>
    obtain ⟨x, s1⟩ := p
    rw [hm] at h'
    obtain ⟨h1, h2⟩ := h s x s1 hs hm
    obtain ⟨h3, h4⟩ := hk x s1 v s' h1 h'
    refine ⟨h3, ?_⟩
    rw [M.bind_apply, h2]
    exact h4
  | ub u => rw [hm] at h'; cases h'
  | loop => rw [hm] at h'; cases h'

theorem Sim.pure {x y : α} (h : y = r x) : Sim ok f r (Pure.pure x) (Pure.pure y) := by
  intro s v s' hs h'
  cases h'
  exact ⟨hs, by rw [h]; rfl⟩

theorem Sim.ub {u : UB} {m : M σ α} : Sim ok f r (M.ub u) m := fun _ _ _ _ h => nomatch h

theorem Sim.loop {m : M σ α} : Sim ok f r M.loop m := fun _ _ _ _ h => nomatch h

theorem Sim.ofOut {o' o : Out α} (h : ∀ v, o' = .val v → o = .val (r v)) :
    Sim ok f r (M.ofOut o') (M.ofOut o) := by
  intro s v s' hs h'
  cases o' with
  | val x =>
    cases h'
    exact ⟨hs, by rw [h v rfl]; rfl⟩
  | ub u => cases h'
  | loop => cases h'

end

section
variable {X : Cfg} {a K : Nat} {B : Blk}

/-- The object can be moved. -/
structure Movable (X : Cfg) (a K : Nat) (B : Blk) : Prop where
  addr : a ≠ 0
  glob : ∀ g : Glob, g.addr ≠ K
  free : X.img K = none
  img : ∀ k b, X.img k = some b → mb a K b = b
  blk : mb a K B = B

theorem mo_mo {o : Obj} : mo a K (mo a K o) = o := by
  cases o with
  | heap x => by_cases h : x = a <;> simp [mo, h]
  | static k => by_cases h : k = K <;> simp [mo, h]
  | stk i => rfl

theorem mp_mp {p : Ptr} : mp a K (mp a K p) = p := by simp [mp, mo_mo]

theorem mp_inj {p q : Ptr} : mp a K p = mp a K q ↔ p = q :=
  ⟨fun h => by rw [← mp_mp (a := a) (K := K) (p := p), h, mp_mp], fun h => by rw [h]⟩

theorem mp_beq {p q : Ptr} : (mp a K p == mp a K q) = (p == q) := by
  rw [Bool.eq_iff_iff, beq_iff_eq, beq_iff_eq, mp_inj]

theorem mp_null (hM : Movable X a K B) : mp a K Ptr.null = Ptr.null := by
  have := hM.addr
  simp [mp, mo, Ne.symm this]

theorem mp_eq_null (hM : Movable X a K B) {p : Ptr} : mp a K p = Ptr.null ↔ p = Ptr.null := by
  rw [← mp_inj (a := a) (K := K) (p := p), mp_null hM]

/-! ### Memory -/

abbrev Ok (a : Nat) (g : CS) : Prop := g.heap a = none

theorem blk_move (hM : Movable X a K B) {g : CS} (hg : Ok a g) {o : Obj} :
    (mg a K B g).blk X (mo a K o) = (g.blk (X.hold a K B) o).map (mb a K) := by
  cases o with
  | heap x =>
    by_cases hx : x = a
    · subst hx; simp [mo, CS.blk, hM.free, hg]
    · simp [mo, hx, CS.blk, mg]
  | static k =>
    by_cases hk : k = K
    · subst hk; simp [mo, CS.blk, mg, Cfg.hold, hM.blk]
    · simp only [mo, hk, if_false, CS.blk, Cfg.hold]
      cases h : X.img k with
      | none => rfl
      | some b => simp [hM.img k b h]
  | stk i => simp [mo, CS.blk, mg]

theorem load_move (hM : Movable X a K B) {g : CS} (hg : Ok a g) {p : Ptr} {c : Cell}
    (h : g.load (X.hold a K B) p = .val c) : (mg a K B g).load X (mp a K p) = .val (mc a K c) := by
  unfold CS.load at h ⊢
  rw [show (mp a K p).obj = mo a K p.obj from rfl, blk_move hM hg]
  cases hb : g.blk (X.hold a K B) p.obj with
  | none => rw [hb] at h; cases h
  | some b => rw [hb] at h; cases h; rfl

theorem setBlk_move {g g' : CS} (hg : Ok a g) {o : Obj} {b b' : Blk} (hb : (g.blk (X.hold a K B) o).isSome)
    (hb' : b' = mb a K b) (h : g.setBlk o b = .val g') :
    Ok a g' ∧ (mg a K B g).setBlk (mo a K o) b' = .val (mg a K B g') := by
  subst hb'
  cases o with
  | heap x =>
    have hx : x ≠ a := by rintro rfl; simp [CS.blk, hg] at hb
    cases h
    refine ⟨by simp [Ok, setHeap, Ne.symm hx, hg], ?_⟩
    simp only [mo, hx, if_false, CS.setBlk, mg, Out.val.injEq, CS.mk.injEq, and_true, true_and]
    funext y
    simp only [setHeap]
    by_cases hy : y = x
    · subst hy; simp [hx]
    · simp [hy]
  | static k => cases h
  | stk i =>
    cases h
    refine ⟨hg, ?_⟩
    simp [mo, CS.setBlk, mg, List.map_set]

theorem mb_set {b : Blk} {i : Nat} {c : Cell} : (mb a K b).set i (mc a K c) = mb a K (b.set i c) := by
  simp only [mb, Blk.set, Blk.mk.injEq, true_and]
  funext j
  split <;> rfl

theorem store_move (hM : Movable X a K B) {g g' : CS} (hg : Ok a g) {p : Ptr} {c : Cell}
    (h : g.store (X.hold a K B) p c = .val g') :
    Ok a g' ∧ (mg a K B g).store X (mp a K p) (mc a K c) = .val (mg a K B g') := by
  unfold CS.store at h ⊢
  rw [show (mp a K p).obj = mo a K p.obj from rfl, show (mp a K p).off = p.off from rfl, blk_move hM hg]
  cases hb : g.blk (X.hold a K B) p.obj with
  | none => rw [hb] at h; cases h
  | some b =>
    rw [hb] at h
    exact setBlk_move hg (by rw [hb]; rfl) mb_set h

/-! ### Operators -/

theorem conv_move {e : Env} {t : Ty} {v w : V} (h : conv e t v = .val w) :
    conv e t (mv a K v) = .val (mv a K w) := by
  cases t <;> cases v <;> simp_all [conv, mv] <;> subst h <;> rfl

theorem isTrue_move (hM : Movable X a K B) {v : V} {b : Bool} (h : isTrue v = .val b) :
    isTrue (mv a K v) = .val b := by
  cases v with
  | ptr t p =>
    simp only [isTrue, mv, Out.val.injEq] at h ⊢
    rw [← h, Bool.eq_iff_iff, bne_iff_ne, bne_iff_ne, ne_eq, ne_eq, mp_eq_null hM]
  | _ => exact h

theorem mv_truth {b : Bool} : mv a K (truth b) = truth b := rfl

theorem arith_move {e : Env} {t : ITy} {x : Int} {v : V} (h : arith e t x = .val v) : mv a K v = v := by
  unfold arith at h
  split at h
  · split at h
    · cases h; rfl
    · cases h
  · cases h; rfl

theorem binI_move {e : Env} {o : BinOp} {t : ITy} {x y : Int} {v : V} (h : binI e o t x y = .val v) :
    mv a K v = v := by
  cases o <;> simp only [binI] at h
  case add => exact arith_move h
  case sub => exact arith_move h
  case mul => exact arith_move h
  case mod => split at h <;> cases h; rfl
  all_goals first | (cases h; rfl) | cases h

theorem binop_move (hM : Movable X a K B) {e : Env} {o : BinOp} {x y v : V} (h : binop e o x y = .val v) :
    binop e o (mv a K x) (mv a K y) = .val (mv a K v) := by
  cases x with
  | int t x =>
    cases y with
    | int u y =>
      show binop e o (.int t x) (.int u y) = _
      rw [h]
      congr 1
      symm
      have hi : ∀ {o}, (match ITy.common t.promote u.promote with
          | some c => binI e o c (convI e c x) (convI e c y)
          | none => .ub .badArgument) = Out.val v → mv a K v = v := by
        intro o h
        cases hc : ITy.common t.promote u.promote with
        | none => rw [hc] at h; cases h
        | some c => rw [hc] at h; exact binI_move h
      cases o <;> simp only [binop] at h
      case shl => split at h <;> cases h; rfl
      case shr => split at h <;> cases h; rfl
      all_goals exact hi h
    | _ => cases h
  | ptr t p =>
    cases y with
    | ptr u q =>
      cases o <;> first | cases h | skip
      · simp only [mv, binop, mp_beq]; rfl
      · simp only [mv, binop, bne, mp_beq]; rfl
    | _ => cases h
  | str s =>
    cases y with
    | ptr u q =>
      cases o <;> simp only [binop, mv, mp_eq_null hM] at h ⊢ <;> first | cases h | (rw [h]; split at h <;> cases h; rfl)
    | _ => cases h
  | file s =>
    cases y with
    | ptr u q =>
      cases o <;> simp only [binop, mv, mp_eq_null hM] at h ⊢ <;> first | cases h | (rw [h]; split at h <;> cases h; rfl)
    | _ => cases h
  | _ => cases h

theorem ofCell_move {t : Ty} {c : Cell} {v : V} (h : ofCell t c = .val v) :
    ofCell t (mc a K c) = .val (mv a K v) := by
  cases t with
  | int t =>
    cases c with
    | int u x =>
      rw [show mc a K (.int u x) = .int u x from rfl, h]
      simp only [ofCell] at h
      split at h <;> cases h
      rfl
    | _ => cases h
  | _ => cases c <;> cases h <;> rfl

theorem toCell_move {v : V} {c : Cell} (h : toCell v = .val c) : toCell (mv a K v) = .val (mc a K c) := by
  cases v <;> simp_all [toCell, mv] <;> subst h <;> rfl

/-! ### Expressions -/

/-- `M Fr` computations. -/
abbrev SimF (a K : Nat) (B : Blk) {α : Type} (r : α → α) (m' m : M Fr α) : Prop :=
  Sim (fun s : Fr => Ok a s.g) (mf a K B) r m' m

/-- `M CS` computations. -/
abbrev SimG (a K : Nat) (B : Blk) {α : Type} (r : α → α) (m' m : M CS α) : Prop :=
  Sim (Ok a) (mg a K B) r m' m

theorem mf_setLoc {l : Var → Slot} {x : Var} {t : Ty} {v : V} {g : CS} :
    mf a K B ⟨setLoc l x (.reg t v), g⟩ =
      ⟨setLoc (fun y => ms a K (l y)) x (.reg t (mv a K v)), mg a K B g⟩ := by
  simp only [mf, Fr.mk.injEq, and_true]
  funext y
  simp only [setLoc]
  split <;> rfl

theorem ml_ty {l : LV} : (ml a K l).ty = l.ty := by cases l <;> rfl

theorem loadL_move (hM : Movable X a K B) {l : LV} :
    SimF a K B (mv a K) (loadL (X.hold a K B) l) (loadL X (ml a K l)) := by
  intro s v s' hs h
  cases l with
  | reg x t =>
    simp only [loadL, ml, mf] at h ⊢
    cases hx : s.loc x with
    | none => rw [hx] at h; cases h
    | obj t i => rw [hx] at h; cases h
    | reg t w =>
      rw [hx] at h
      cases w <;> cases h <;> exact ⟨hs, rfl⟩
  | mem t p =>
    have key : ∀ t, (match s.g.load (X.hold a K B) p with
        | .val c =>
          match ofCell t c with
          | .val v => .val (v, s)
          | .ub u => .ub u
          | .loop => .loop
        | .ub u => .ub u
        | .loop => .loop) = Out.val (v, s') → Ok a s'.g ∧
        (match (mf a K B s).g.load X (mp a K p) with
        | .val c =>
          match ofCell t c with
          | .val v => .val (v, mf a K B s)
          | .ub u => .ub u
          | .loop => .loop
        | .ub u => .ub u
        | .loop => .loop) = Out.val (mv a K v, mf a K B s') := by
      intro t h
      cases hl : s.g.load (X.hold a K B) p with
      | val c =>
        rw [hl] at h
        have := load_move hM hs hl
        cases hc : ofCell t c with
        | val w =>
          simp only [hc] at h
          cases h
          refine ⟨hs, ?_⟩
          rw [show (mf a K B s).g = mg a K B s.g from rfl, this]
          simp only [ofCell_move hc]
        | ub u => simp only [hc] at h; cases h
        | loop => simp only [hc] at h; cases h
      | ub u => rw [hl] at h; cases h
      | loop => rw [hl] at h; cases h
    cases t with
    | arr n t => cases h; exact ⟨hs, rfl⟩
    | _ => exact key _ h

theorem storeL_move (hM : Movable X a K B) {l : LV} {v : V} :
    SimF a K B id (storeL (X.hold a K B) l v) (storeL X (ml a K l) (mv a K v)) := by
  intro s u s' hs h
  cases l with
  | reg x t => cases h; exact ⟨hs, by rw [mf_setLoc]; rfl⟩
  | mem t p =>
    simp only [storeL, ml] at h ⊢
    cases hc : toCell v with
    | val c =>
      rw [hc] at h
      rw [toCell_move hc]
      cases hg : s.g.store (X.hold a K B) p c with
      | val g =>
        simp only [hg] at h
        cases h
        obtain ⟨h1, h2⟩ := store_move hM hs hg
        refine ⟨h1, ?_⟩
        simp only [show (mf a K B s).g = mg a K B s.g from rfl, h2]
        rfl
      | ub u => simp only [hg] at h; cases h
      | loop => simp only [hg] at h; cases h
    | ub u => rw [hc] at h; cases h
    | loop => rw [hc] at h; cases h

theorem memberOf_move (hM : Movable X a K B) {v : V} {m : Member} :
    SimF a K B (ml a K) (memberOf (X.hold a K B) v m) (memberOf X (mv a K v) m) := by
  intro s u s' hs h
  cases v with
  | ptr t p =>
    cases t with
    | struct st =>
      simp only [memberOf, mv] at h ⊢
      rw [show (mp a K p).obj = mo a K p.obj from rfl, show (mf a K B s).g = mg a K B s.g from rfl,
        blk_move hM hs]
      cases hb : s.g.blk (X.hold a K B) p.obj with
      | none => rw [hb] at h; cases h
      | some b =>
        rw [hb] at h
        simp only [Option.map] at h ⊢
        split at h
        · rename_i hsz
          rw [if_pos (by exact hsz)]
          split at h
          · cases h
            exact ⟨hs, rfl⟩
          · cases h
        · cases h
    | _ => cases h
  | _ => cases h

theorem elementOf_move (hM : Movable X a K B) {v i : V} :
    SimF a K B (ml a K) (elementOf (X.hold a K B) v i) (elementOf X (mv a K v) (mv a K i)) := by
  intro s u s' hs h
  cases v with
  | ptr t p =>
    obtain ⟨o, off⟩ := p
    cases off with
    | succ n => cases h
    | zero =>
      cases i with
      | int ti k =>
        simp only [elementOf, mv, mp] at h ⊢
        rw [show (mf a K B s).g = mg a K B s.g from rfl, blk_move hM hs]
        cases hb : s.g.blk (X.hold a K B) o with
        | none => rw [hb] at h; cases h
        | some b =>
          rw [hb] at h
          simp only [Option.map] at h ⊢
          split at h
          · rename_i hsz
            rw [if_pos (by exact hsz)]
            cases h
            exact ⟨hs, rfl⟩
          · cases h
      | _ => cases h
  | _ => cases h

theorem varL_move {x : Var} : SimF a K B (ml a K) (varL x) (varL x) := by
  intro s u s' hs h
  simp only [varL, mf] at h ⊢
  cases hx : s.loc x <;> rw [hx] at h <;> cases h <;> exact ⟨hs, rfl⟩

theorem derefL_move {v : V} : SimF a K B (ml a K) (derefL v) (derefL (mv a K v)) := by
  cases v with
  | ptr t p => exact Sim.pure rfl
  | _ => exact Sim.ub

theorem dotL_move (hM : Movable X a K B) {l : LV} {m : Member} :
    SimF a K B (ml a K) (dotL (X.hold a K B) l m) (dotL X (ml a K l) m) := by
  cases l with
  | reg => exact Sim.ub
  | mem t p => exact memberOf_move hM

theorem onG_move {α : Type} {r : α → α} {m' m : M CS α} (h : SimG a K B r m' m) :
    SimF a K B r (onG m') (onG m) := by
  intro s u s' hs h'
  simp only [onG] at h' ⊢
  cases hm : m' s.g with
  | val p =>
    obtain ⟨x, g⟩ := p
    rw [hm] at h'
    cases h'
    obtain ⟨h1, h2⟩ := h s.g _ _ hs hm
    exact ⟨h1, by rw [show (mf a K B s).g = mg a K B s.g from rfl, h2]; rfl⟩
  | ub u => rw [hm] at h'; cases h'
  | loop => rw [hm] at h'; cases h'

theorem mp_glob (hM : Movable X a K B) {g : Glob} : mp a K ⟨.static g.addr, 0⟩ = ⟨.static g.addr, 0⟩ := by
  simp [mp, mo, hM.glob g]

theorem Sim.cond {σ α : Type} {ok : σ → Prop} {f : σ → σ} {r : α → α} {m' m n' n : M σ α} {b : Bool}
    (h1 : Sim ok f r m' m) (h2 : Sim ok f r n' n) :
    Sim ok f r (if b = true then m' else n') (if b = true then m else n) := by
  cases b
  · exact h2
  · exact h1

theorem isTrue_sim (hM : Movable X a K B) {v : V} :
    SimF a K B id (M.ofOut (isTrue v)) (M.ofOut (isTrue (mv a K v))) :=
  Sim.ofOut fun _ h => isTrue_move hM h

theorem conv_sim {e : Env} {t : Ty} {v : V} :
    SimF a K B (mv a K) (M.ofOut (conv e t v)) (M.ofOut (conv e t (mv a K v))) :=
  Sim.ofOut fun _ h => conv_move h

theorem binop_sim (hM : Movable X a K B) {e : Env} {o : BinOp} {x y : V} :
    SimF a K B (mv a K) (M.ofOut (binop e o x y)) (M.ofOut (binop e o (mv a K x) (mv a K y))) :=
  Sim.ofOut fun _ h => binop_move hM h

variable {call' call : Fn → List V → M CS V}

mutual

theorem evalE_move (hM : Movable X a K B)
    (hc : ∀ f vs, SimG a K B (mv a K) (call' f vs) (call f (vs.map (mv a K)))) :
    ∀ x : Expr, SimF a K B (mv a K) (evalE (X.hold a K B) call' x) (evalE X call x)
  | .num t n => by simp only [evalE]; exact Sim.pure rfl
  | .str s => by simp only [evalE]; exact Sim.pure rfl
  | .null => by
    simp only [evalE]
    exact Sim.pure (by rw [mv, mp_null hM])
  | .eof => by simp only [evalE]; exact Sim.pure rfl
  | .seekCur => by simp only [evalE]; exact Sim.pure rfl
  | .optind => by simp only [evalE]; exact loadL_move hM (l := .mem _ _)
  | .optarg => by simp only [evalE]; exact loadL_move hM (l := .mem _ _)
  | .stream .stdin => by simp only [evalE]; exact Sim.pure rfl
  | .stream .stdout => by simp only [evalE]; exact Sim.pure rfl
  | .stream .stderr => by simp only [evalE]; exact Sim.pure rfl
  | .fn f => by simp only [evalE]; exact Sim.pure rfl
  | .var x => by simp only [evalE]; exact Sim.bind varL_move fun l => loadL_move hM
  | .glob g => by
    simp only [evalE]
    have := loadL_move hM (l := .mem g.ty ⟨.static g.addr, 0⟩)
    rw [ml, mp_glob hM] at this
    exact this
  | .addr e => by
    simp only [evalE]
    refine Sim.bind (evalL_move hM hc e) fun l => ?_
    cases l with
    | mem t p => exact Sim.pure rfl
    | reg x t => exact Sim.ub
  | .deref e => by
    simp only [evalE]
    exact Sim.bind (evalE_move hM hc e) fun v => Sim.bind derefL_move fun l => loadL_move hM
  | .arrow e m => by
    simp only [evalE]
    exact Sim.bind (evalE_move hM hc e) fun v => Sim.bind (memberOf_move hM) fun l => loadL_move hM
  | .dot e m => by
    simp only [evalE]
    exact Sim.bind (evalL_move hM hc e) fun v => Sim.bind (dotL_move hM) fun l => loadL_move hM
  | .index e i => by
    simp only [evalE]
    exact Sim.bind (evalE_move hM hc e) fun v => Sim.bind (evalE_move hM hc i) fun k =>
      Sim.bind (elementOf_move hM) fun l => loadL_move hM
  | .not e => by
    simp only [evalE]
    exact Sim.bind (evalE_move hM hc e) fun v => Sim.bind (isTrue_sim hM) fun b => Sim.pure rfl
  | .neg e => by
    simp only [evalE]
    refine Sim.bind (evalE_move hM hc e) fun v => ?_
    cases v with
    | int t x =>
      cases t with
      | int => exact Sim.ofOut fun w h => by rw [arith_move h]; exact h
      | _ => exact Sim.ub
    | _ => exact Sim.ub
  | .bin o x y => by
    simp only [evalE]
    exact Sim.bind (evalE_move hM hc x) fun v => Sim.bind (evalE_move hM hc y) fun w => binop_sim hM
  | .land x y => by
    simp only [evalE]
    refine Sim.bind (evalE_move hM hc x) fun v => Sim.bind (isTrue_sim hM) fun b => Sim.cond ?_ ?_
    · exact Sim.bind (evalE_move hM hc y) fun w => Sim.bind (isTrue_sim hM) fun b => Sim.pure rfl
    · exact Sim.pure rfl
  | .lor x y => by
    simp only [evalE]
    refine Sim.bind (evalE_move hM hc x) fun v => Sim.bind (isTrue_sim hM) fun b => Sim.cond ?_ ?_
    · exact Sim.pure rfl
    · exact Sim.bind (evalE_move hM hc y) fun w => Sim.bind (isTrue_sim hM) fun b => Sim.pure rfl
  | .cast t e => by
    simp only [evalE]
    exact Sim.bind (evalE_move hM hc e) fun v => conv_sim
  | .sizeof t => by simp only [evalE]; exact Sim.pure rfl
  | .assign l r => by
    simp only [evalE]
    refine Sim.bind (evalE_move hM hc r) fun v => Sim.bind (evalL_move hM hc l) fun lv => ?_
    rw [ml_ty]
    exact Sim.bind conv_sim fun w => Sim.bind (storeL_move hM) fun _ => Sim.pure rfl
  | .assignOp o l r => by
    simp only [evalE]
    refine Sim.bind (evalE_move hM hc r) fun v => Sim.bind (evalL_move hM hc l) fun lv => ?_
    rw [ml_ty]
    exact Sim.bind (loadL_move hM) fun x => Sim.bind (binop_sim hM) fun y =>
      Sim.bind conv_sim fun w => Sim.bind (storeL_move hM) fun _ => Sim.pure rfl
  | .inc l => by
    simp only [evalE]
    refine Sim.bind (evalL_move hM hc l) fun lv => ?_
    rw [ml_ty]
    exact Sim.bind (loadL_move hM) fun x => Sim.bind (binop_sim hM (y := .int .int 1)) fun y =>
      Sim.bind conv_sim fun w => Sim.bind (storeL_move hM) fun _ => Sim.pure rfl
  | .call f args => by
    simp only [evalE]
    refine Sim.bind (evalE_move hM hc f) fun fv => Sim.bind (evalArgs_move hM hc args) fun vs => ?_
    cases fv with
    | fn f => exact onG_move (hc f vs)
    | _ => exact Sim.ub

theorem evalL_move (hM : Movable X a K B)
    (hc : ∀ f vs, SimG a K B (mv a K) (call' f vs) (call f (vs.map (mv a K)))) :
    ∀ x : Expr, SimF a K B (ml a K) (evalL (X.hold a K B) call' x) (evalL X call x)
  | .var x => by simp only [evalL]; exact varL_move
  | .glob g => by simp only [evalL]; exact Sim.pure (by rw [ml, mp_glob hM])
  | .deref e => by
    simp only [evalL]
    exact Sim.bind (evalE_move hM hc e) fun v => derefL_move
  | .arrow e m => by
    simp only [evalL]
    exact Sim.bind (evalE_move hM hc e) fun v => memberOf_move hM
  | .dot e m => by
    simp only [evalL]
    exact Sim.bind (evalL_move hM hc e) fun v => dotL_move hM
  | .index e i => by
    simp only [evalL]
    exact Sim.bind (evalE_move hM hc e) fun v => Sim.bind (evalE_move hM hc i) fun k => elementOf_move hM
  | .num .. | .str .. | .null | .eof | .seekCur | .optind | .optarg | .stream .. | .fn .. | .addr ..
  | .not .. | .neg .. | .bin .. | .land .. | .lor .. | .cast .. | .sizeof .. | .assign .. | .assignOp ..
  | .inc .. | .call .. => by simp only [evalL]; exact Sim.ub

theorem evalArgs_move (hM : Movable X a K B)
    (hc : ∀ f vs, SimG a K B (mv a K) (call' f vs) (call f (vs.map (mv a K)))) :
    ∀ xs : Args, SimF a K B (List.map (mv a K)) (evalArgs (X.hold a K B) call' xs) (evalArgs X call xs)
  | .nil => by simp only [evalArgs]; exact Sim.pure rfl
  | .cons e es => by
    simp only [evalArgs]
    exact Sim.bind (evalE_move hM hc e) fun v => Sim.bind (evalArgs_move hM hc es) fun vs => Sim.pure rfl

end

/-! ### Statements -/

theorem whileN_move {c' c : M Fr Bool} {b' b : M Fr Flow} (hc : SimF a K B id c' c)
    (hb : SimF a K B (mw a K) b' b) : ∀ n, SimF a K B (mw a K) (whileN c' b' n) (whileN c b n)
  | 0 => Sim.loop
  | n + 1 => by
    simp only [whileN]
    refine Sim.bind hc fun x => Sim.cond (Sim.bind hb fun f => ?_) (Sim.pure rfl)
    cases f with
    | norm => exact whileN_move hc hb n
    | brk => exact Sim.pure rfl
    | ret v => exact Sim.pure rfl

theorem andThen_move {f : Flow} {k' k : M Fr Flow} (h : SimF a K B (mw a K) k' k) :
    SimF a K B (mw a K) (f.andThen k') ((mw a K f).andThen k) := by
  cases f with
  | norm => exact h
  | brk => exact Sim.pure rfl
  | ret v => exact Sim.pure rfl

theorem pushObj_move {x : Var} {t : Ty} {b b' : Blk} (h : b' = mb a K b) :
    SimF a K B id (pushObj x t b) (pushObj x t b') := by
  subst h
  intro s u s' hs h
  cases h
  refine ⟨hs, ?_⟩
  simp only [pushObj, mf, mg, List.length_map, List.map_append, List.map_cons, List.map_nil,
    Out.val.injEq, Prod.mk.injEq, true_and, Fr.mk.injEq, and_true, id]
  funext y
  simp only [setLoc]
  split <;> rfl

theorem mb_cells {n : Nat} {l : List Cell} : mb a K ⟨n, cells l⟩ = ⟨n, cells (l.map (mc a K))⟩ := by
  simp only [mb, Blk.mk.injEq, true_and]
  funext i
  simp only [cells, List.getD_eq_getElem?_getD, List.getElem?_map]
  cases l[i]? <;> rfl

theorem Init_move (hM : Movable X a K B) {t : Ty} {i : Init} : mc a K (i.cell X t) = i.cell X t := by
  cases i with
  | expr e =>
    simp only [Init.cell]
    cases constVal X e with
    | val v =>
      dsimp only
      cases h : conv X.e t v with
      | val w => cases w <;> rfl
      | _ => rfl
    | _ => rfl
  | fn f => rfl
  | null => rw [Init.cell, mc, mp_null hM]
  | glob g => rw [Init.cell, mc, mp_glob hM]

theorem initBlk_move (hM : Movable X a K B) {t : Ty} {is : List Init} :
    mb a K (initBlk X t is) = initBlk X t is := by
  rw [initBlk, mb_cells, List.map_map]
  congr 3
  funext p
  exact Init_move hM

theorem initBlk_hold {t : Ty} {is : List Init} : initBlk (X.hold a K B) t is = initBlk X t is := rfl

theorem evalC_move (hM : Movable X a K B)
    (hc : ∀ f vs, SimG a K B (mv a K) (call' f vs) (call f (vs.map (mv a K)))) (x : Expr) :
    SimF a K B id (evalC (X.hold a K B) call' x) (evalC X call x) :=
  Sim.bind (evalE_move hM hc x) fun _ => isTrue_sim hM

mutual

theorem exec_move (hM : Movable X a K B)
    (hc : ∀ f vs, SimG a K B (mv a K) (call' f vs) (call f (vs.map (mv a K)))) (n : Nat) :
    ∀ s : Stmt, SimF a K B (mw a K) (exec (X.hold a K B) call' n s) (exec X call n s)
  | .skip => by simp only [exec]; exact Sim.pure rfl
  | .expr e => by
    simp only [exec]
    exact Sim.bind (evalE_move hM hc e) fun _ => Sim.pure rfl
  | .seq x y => by
    simp only [exec]
    exact Sim.bind (exec_move hM hc n x) fun _ => andThen_move (exec_move hM hc n y)
  | .ite c x y => by
    simp only [exec]
    exact Sim.bind (evalC_move hM hc c) fun _ => Sim.cond (exec_move hM hc n x) (exec_move hM hc n y)
  | .while c b => by
    simp only [exec]
    exact whileN_move (evalC_move hM hc c) (exec_move hM hc n b) n
  | .for i c s b => by
    simp only [exec]
    refine Sim.bind (evalE_move hM hc i) fun _ => whileN_move (evalC_move hM hc c) ?_ n
    exact Sim.bind (exec_move hM hc n b) fun _ => andThen_move
      (Sim.bind (evalE_move hM hc s) fun _ => Sim.pure rfl)
  | .ret e => by
    simp only [exec]
    exact Sim.bind (evalE_move hM hc e) fun _ => Sim.pure rfl
  | .retVoid => by simp only [exec]; exact Sim.pure rfl
  | .break => by simp only [exec]; exact Sim.pure rfl
  | .decl x t none => by
    simp only [exec]
    intro s v s' hs h
    cases h
    exact ⟨hs, by rw [mf_setLoc]; rfl⟩
  | .decl x t (some i) => by
    simp only [exec]
    refine Sim.bind (evalE_move hM hc i) fun _ => Sim.bind conv_sim fun _ => ?_
    intro s v s' hs h
    cases h
    exact ⟨hs, by rw [mf_setLoc]; rfl⟩
  | .object x t none => by
    simp only [exec]
    exact Sim.bind (pushObj_move (by rw [mb_cells]; rfl)) fun _ => Sim.pure rfl
  | .object x t (some i) => by
    simp only [exec]
    refine Sim.bind (evalE_move hM hc i) fun _ => Sim.bind conv_sim fun _ => Sim.bind
      (Sim.ofOut (r := mc a K) fun _ h => toCell_move h) fun c => ?_
    exact Sim.bind (pushObj_move (by rw [mb_cells]; rfl)) fun _ => Sim.pure rfl
  | .aggregate x t is => by
    simp only [exec]
    exact Sim.bind (pushObj_move (by rw [initBlk_hold, initBlk_move hM])) fun _ => Sim.pure rfl
  | .switch e c => by
    simp only [exec]
    refine Sim.bind (evalE_move hM hc e) fun v => ?_
    cases v with
    | int t x =>
      refine Sim.bind (execCases_move hM hc n t x false c) fun f => ?_
      cases f <;> exact Sim.pure rfl
    | _ => exact Sim.ub
  | .endian x y => by
    simp only [exec]
    exact Sim.cond (exec_move hM hc n x) (exec_move hM hc n y)

theorem execCases_move (hM : Movable X a K B)
    (hc : ∀ f vs, SimG a K B (mv a K) (call' f vs) (call f (vs.map (mv a K)))) (n : Nat) (t : ITy)
    (x : Int) (m : Bool) :
    ∀ c : Cases, SimF a K B (mw a K) (execCases (X.hold a K B) call' n t x m c) (execCases X call n t x m c)
  | .nil => by simp only [execCases]; exact Sim.pure rfl
  | .case e s rest => by
    simp only [execCases]
    refine Sim.bind (evalE_move hM hc e) fun v => ?_
    cases v with
    | int u y =>
      exact Sim.cond (Sim.bind (exec_move hM hc n s) fun _ => andThen_move
        (execCases_move hM hc n t x true rest)) (execCases_move hM hc n t x false rest)
    | _ => exact Sim.ub
  | .default s rest => by
    simp only [execCases]
    exact Sim.bind (exec_move hM hc n s) fun _ => andThen_move (execCases_move hM hc n t x true rest)

end

/-! ### The C library -/

theorem sizes_move {g : CS} : sizes (mg a K B g).heap =
    fun x => if x = a then some B.size else sizes g.heap x := by
  funext x
  simp only [sizes, mg]
  split
  · rfl
  · cases g.heap x <;> rfl

theorem setHeap_move {h : Nat → Option Blk} {x : Nat} {b : Option Blk} (hx : x ≠ a) :
    (fun y => if y = a then some B else (setHeap h x b y).map (mb a K)) =
      setHeap (fun y => if y = a then some B else (h y).map (mb a K)) x (b.map (mb a K)) := by
  funext y
  simp only [setHeap]
  by_cases hy : y = x
  · subst hy; simp [hx]
  · simp [hy]

theorem mp_heap {x : Nat} (hx : x ≠ a) {i : Nat} : mp a K ⟨.heap x, i⟩ = ⟨.heap x, i⟩ := by
  simp [mp, mo, hx]

theorem mallocC_move (hM : Movable X a K B) {n : Nat} {l : List Cell} (hl : ∀ c ∈ l, mc a K c = c) :
    SimG a K B (mv a K) (mallocC (X.hold a K B) n (cells l)) (mallocC X n (cells l)) := by
  intro g v g' hg h
  simp only [mallocC] at h ⊢
  rw [sizes_move]
  cases hp : (X.hold a K B).pick g.tick (sizes g.heap) n with
  | none =>
    rw [hp] at h
    rw [show X.pick (mg a K B g).tick (fun x => if x = a then some B.size else sizes g.heap x) n = none from hp]
    cases h
    exact ⟨hg, by rw [mv, mp_null hM]; rfl⟩
  | some x =>
    rw [hp] at h
    have hx : x ≠ a := by
      have := (X.sound hp).2
      rintro rfl
      simp at this
    rw [show X.pick (mg a K B g).tick (fun x => if x = a then some B.size else sizes g.heap x) n = some x from hp]
    cases h
    refine ⟨by simp [Ok, setHeap, Ne.symm hx, hg], ?_⟩
    simp only [mv, mp_heap hx, mg, Out.val.injEq, Prod.mk.injEq, true_and, CS.mk.injEq, and_true]
    rw [setHeap_move hx, Option.map, mb_cells, List.map_congr_left hl, List.map_id']

theorem reallocC_move (hM : Movable X a K B) {x n : Nat} (hx : x ≠ a) :
    SimG a K B (mv a K) (reallocC (X.hold a K B) x n) (reallocC X x n) := by
  intro g v g' hg h
  simp only [reallocC] at h ⊢
  split at h
  · rename_i h0
    rw [if_pos h0]
    exact mallocC_move hM (l := []) (by simp) g v g' hg h
  · rename_i h0
    rw [if_neg h0]
    rw [show (mg a K B g).heap x = (g.heap x).map (mb a K) from if_neg hx]
    cases hb : g.heap x with
    | none => rw [hb] at h; cases h
    | some b =>
      simp only [hb, Option.map] at h ⊢
      by_cases hz : n = 0 ∧ X.realloc0 = true
      · rw [if_pos (by exact hz)] at h
        rw [if_pos hz]
        cases h
        refine ⟨by simp [Ok, setHeap, Ne.symm hx, hg], ?_⟩
        simp only [mv, mp_null hM, mg, setHeap_move hx, Option.map_none]
      · rw [if_neg (by exact hz)] at h
        rw [if_neg hz]
        have hs : sizes (setHeap (mg a K B g).heap x none) =
            fun y => if y = a then some B.size else sizes (setHeap g.heap x none) y := by
          have := sizes_move (a := a) (K := K) (B := B) (g := { g with heap := setHeap g.heap x none })
          simp only [mg, setHeap_move hx] at this
          exact this
        rw [hs]
        cases hp : (X.hold a K B).pick g.tick (sizes (setHeap g.heap x none)) n with
        | none =>
          rw [hp] at h
          rw [show X.pick (mg a K B g).tick
            (fun y => if y = a then some B.size else sizes (setHeap g.heap x none) y) n = none from hp]
          cases h
          exact ⟨hg, by rw [mv, mp_null hM]; rfl⟩
        | some y =>
          rw [hp] at h
          have hy : y ≠ a := by
            have := (X.sound hp).2
            rintro rfl
            simp at this
          rw [show X.pick (mg a K B g).tick
            (fun y => if y = a then some B.size else sizes (setHeap g.heap x none) y) n = some y from hp]
          cases h
          refine ⟨by simp [Ok, setHeap, Ne.symm hx, Ne.symm hy, hg], ?_⟩
          simp only [mv, mp_heap hy, mg, setHeap_move hx, setHeap_move hy, Option.map_none, Option.map_some,
            Out.val.injEq, Prod.mk.injEq, true_and, CS.mk.injEq, and_true]
          congr 2
          simp only [mb, Blk.mk.injEq, true_and]
          funext i
          by_cases hi : (i + 1) * (X.e.sizeBits / 8) ≤ n
          · rw [if_pos hi]; exact (congrArg (mc a K) (if_pos hi)).symm
          · rw [if_neg hi]
            show mc a K .undef = _
            exact (congrArg (mc a K) (if_neg hi)).symm

theorem freeC_move {x : Nat} (hx : x ≠ a) : SimG a K B (mv a K) (freeC x) (freeC x) := by
  intro g v g' hg h
  simp only [freeC] at h ⊢
  split at h
  · rename_i h0
    rw [if_pos h0]
    cases h
    exact ⟨hg, rfl⟩
  · rename_i h0
    rw [if_neg h0, show (mg a K B g).heap x = (g.heap x).map (mb a K) from if_neg hx]
    cases hb : g.heap x with
    | none => rw [hb] at h; cases h
    | some b =>
      simp only [hb] at h
      cases h
      refine ⟨by simp [Ok, setHeap, Ne.symm hx, hg], ?_⟩
      simp only [Option.map_some, mv, mg, setHeap_move hx, Option.map_none]

theorem byte_move {c : Cell} : (mc a K c).byte? = c.byte? := by cases c <;> rfl

theorem getBytes_move {b : Blk} {n : Nat} : (mb a K b).getBytes n = b.getBytes n := by
  simp only [Blk.getBytes, mb, byte_move]

theorem putBytes_move {b : Blk} {bs : List Byte} : (mb a K b).putBytes bs = mb a K (b.putBytes bs) := by
  simp only [Blk.putBytes, mb, Blk.mk.injEq, true_and]
  funext i
  split <;> rfl

/-- Replace a block and return. -/
theorem setBlk_sim {g : CS} (hg : Ok a g) {o : Obj} {b b' : Blk} {v w : V} {g' : CS}
    (hb : (g.blk (X.hold a K B) o).isSome) (hb' : b' = mb a K b)
    (h : (match g.setBlk o b with
      | .val g => .val (v, g)
      | .ub u => .ub u
      | .loop => .loop) = Out.val (w, g')) :
    Ok a g' ∧ (match (mg a K B g).setBlk (mo a K o) b' with
      | .val g => .val (mv a K v, g)
      | .ub u => .ub u
      | .loop => .loop) = Out.val (mv a K w, mg a K B g') := by
  cases hs : g.setBlk o b with
  | val g1 =>
    rw [hs] at h
    cases h
    obtain ⟨h1, h2⟩ := setBlk_move hg hb hb' hs
    exact ⟨h1, by rw [h2]⟩
  | ub u => rw [hs] at h; cases h
  | loop => rw [hs] at h; cases h

theorem freadC_move (hM : Movable X a K B) {t : ITy} {p : Ptr} {size n : Nat} :
    SimG a K B (mv a K) (freadC (X.hold a K B) t p size n) (freadC X t (mp a K p) size n) := by
  intro g v g' hg h
  simp only [freadC] at h ⊢
  rw [show (mp a K p).obj = mo a K p.obj from rfl, show (mp a K p).off = p.off from rfl, blk_move hM hg]
  cases hb : g.blk (X.hold a K B) p.obj with
  | none => rw [hb] at h; cases h
  | some b =>
    have hs : ∀ i, (({ g with inp := i } : CS).blk (X.hold a K B) p.obj).isSome := by
      intro i
      have : ({ g with inp := i } : CS).blk (X.hold a K B) p.obj = g.blk (X.hold a K B) p.obj := by
        cases p.obj <;> rfl
      rw [this, hb]
      rfl
    simp only [hb, Option.map] at h ⊢
    split at h
    · rename_i h1
      rw [if_pos h1]
      split at h
      · rename_i h2
        rw [if_pos (by exact h2)]
        exact setBlk_sim (g := { g with inp := g.inp.drop n }) hg (hs _) putBytes_move h
      · cases h
    · rename_i h1
      rw [if_neg h1]
      split at h
      · rename_i h2
        rw [if_pos (by exact h2)]
        refine setBlk_sim (g := { g with inp := g.inp.drop size }) hg (hs _) ?_ h
        rw [← mb_set]
        congr 1
        show (if ((g.inp.take size).length == size) = true then _ else _) =
          mc a K (if ((g.inp.take size).length == size) = true then _ else _)
        cases (g.inp.take size).length == size <;> rfl
      · cases h

theorem putOut_move {bs : List Byte} : SimG a K B id (putOut bs) (putOut bs) := by
  intro g v g' hg h
  cases h
  exact ⟨hg, rfl⟩

theorem fwriteC_move (hM : Movable X a K B) {t : ITy} {p : Ptr} {size n : Nat} :
    SimG a K B (mv a K) (fwriteC (X.hold a K B) t p size n) (fwriteC X t (mp a K p) size n) := by
  intro g v g' hg h
  simp only [fwriteC] at h ⊢
  rw [show (mp a K p).obj = mo a K p.obj from rfl, show (mp a K p).off = p.off from rfl, blk_move hM hg]
  cases hb : g.blk (X.hold a K B) p.obj with
  | none => rw [hb] at h; cases h
  | some b =>
    simp only [hb, Option.map] at h ⊢
    split at h
    · rename_i h1
      rw [if_pos h1]
      split at h
      · rename_i h2
        rw [if_pos (by exact h2), getBytes_move]
        split at h
        · cases h
          exact ⟨hg, rfl⟩
        · cases h
      · cases h
    · rename_i h1
      rw [if_neg h1]
      split at h
      · rename_i h2
        rw [if_pos (by exact h2)]
        show _ ∧ (match mc a K (b.cell 0) with | .int u x => _ | _ => _) = _
        split at h
        · rename_i hc
          rw [hc]
          simp only [mc]
          split at h
          · rename_i h3
            rw [if_pos h3]
            cases h
            exact ⟨hg, rfl⟩
          · cases h
        · cases h
      · cases h

theorem toArg_move {e : Env} {v : V} {c : CArg} (h : toArg e v = .val c) : toArg e (mv a K v) = .val c := by
  cases v with
  | ptr t p =>
    cases t with
    | int t => cases t <;> cases h; rfl
    | _ => cases h
  | _ => exact h

theorem toArgs_move {e : Env} : ∀ {vs : List V} {as : List CArg}, toArgs e vs = .val as →
    toArgs e (vs.map (mv a K)) = .val as
  | [], _, h => h
  | v :: vs, as, h => by
    simp only [toArgs, List.map_cons] at h ⊢
    cases h1 : toArg e v with
    | val c =>
      rw [h1] at h
      cases h2 : toArgs e vs with
      | val cs =>
        rw [h2] at h
        rw [toArg_move h1, toArgs_move h2]
        exact h
      | ub u => rw [h2] at h; cases h
      | loop => rw [h2] at h; cases h
    | ub u => rw [h1] at h; cases h
    | loop => rw [h1] at h; cases h

theorem printC_move {e : Env} {pre : List Byte} {fmt : String} {vs : List V} :
    SimG a K B (mv a K) (printC e pre fmt vs) (printC e pre fmt (vs.map (mv a K))) := by
  intro g v g' hg h
  simp only [printC] at h ⊢
  cases h1 : toArgs e vs with
  | val as =>
    rw [h1] at h
    rw [toArgs_move h1]
    dsimp only at h ⊢
    cases h2 : vprintf fmt.toList as with
    | val bs => rw [h2] at h; cases h; exact ⟨hg, rfl⟩
    | ub u => rw [h2] at h; cases h
    | loop => rw [h2] at h; cases h
  | ub u => rw [h1] at h; cases h
  | loop => rw [h1] at h; cases h

theorem errorC_move {e : Env} {fmt : String} {vs : List V} :
    SimG a K B (mv a K) (errorC e fmt vs) (errorC e fmt (vs.map (mv a K))) := by
  intro g v g' hg h
  simp only [errorC] at h ⊢
  cases h1 : toArgs e vs with
  | val as =>
    rw [h1] at h
    rw [toArgs_move h1]
    cases h
    exact ⟨hg, rfl⟩
  | ub u => rw [h1] at h; cases h
  | loop => rw [h1] at h; cases h

theorem bsearchC_move (hM : Movable X a K B) {cmp' cmp : Ptr → M CS V}
    (hc : ∀ p, SimG a K B (mv a K) (cmp' p) (cmp (mp a K p))) {base : Ptr} {stride : Nat} :
    ∀ n l u, SimG a K B (mv a K) (bsearchC cmp' base stride n l u) (bsearchC cmp (mp a K base) stride n l u)
  | 0, l, u => Sim.pure (by rw [mv, mp_null hM])
  | n + 1, l, u => by
    simp only [bsearchC]
    split
    · refine Sim.bind (hc ⟨base.obj, base.off + (l + u) / 2 * stride⟩) fun v => ?_
      cases v with
      | int t x =>
        cases t with
        | int =>
          dsimp only [mv]
          split
          · exact bsearchC_move hM hc n _ _
          · split
            · exact bsearchC_move hM hc n _ _
            · exact Sim.pure rfl
        | _ => exact Sim.ub
      | _ => exact Sim.ub
    · exact Sim.pure (by rw [mv, mp_null hM])

theorem memcmpC_move (hM : Movable X a K B) {o1 o2 : Obj} {n : Nat} :
    SimG a K B (mv a K) (memcmpC (X.hold a K B) o1 o2 n) (memcmpC X (mo a K o1) (mo a K o2) n) := by
  intro g v g' hg h
  simp only [memcmpC] at h ⊢
  rw [blk_move hM hg, blk_move hM hg]
  cases h1 : g.blk (X.hold a K B) o1 with
  | none => rw [h1] at h; cases h
  | some b1 =>
    cases h2 : g.blk (X.hold a K B) o2 with
    | none => rw [h1, h2] at h; cases h
    | some b2 =>
      rw [h1, h2] at h
      simp only [Option.map, getBytes_move] at h ⊢
      split at h
      · rename_i h3
        rw [if_pos (by exact h3)]
        split at h
        · cases h
          exact ⟨hg, rfl⟩
        · cases h
      · cases h

/-- What `memcpy` copies. -/
def copied (X : Cfg) (src : V) (n : Nat) (g : CS) : Option (List Byte) :=
  match src with
  | .ptr (.int .uchar) ⟨o', 0⟩ =>
    match g.blk X o' with
    | some b' => if n ≤ b'.size then b'.getBytes n else none
    | none => none
  | .str s => if n ≤ (cString s).length then some ((cString s).take n) else none
  | _ => none

theorem memcpyC_eq {o : Obj} {src : V} {n : Nat} : memcpyC X o src n = fun g =>
    match g.blk X o with
    | none => .ub .useAfterFree
    | some b =>
      match copied X src n g with
      | some bs =>
        if n ≤ b.size then
          match g.setBlk o (b.putBytes bs) with
          | .val g => .val (.ptr .void ⟨o, 0⟩, g)
          | .ub u => .ub u
          | .loop => .loop
        else .ub .outOfBounds
      | none => .ub .outOfBounds := rfl

theorem copied_move (hM : Movable X a K B) {g : CS} (hg : Ok a g) {src : V} {n : Nat} :
    copied X (mv a K src) n (mg a K B g) = copied (X.hold a K B) src n g := by
  cases src with
  | ptr t p =>
    obtain ⟨o, i⟩ := p
    cases t with
    | int t =>
      cases t with
      | uchar =>
        cases i with
        | zero =>
          simp only [copied, mv, mp]
          rw [blk_move hM hg]
          cases g.blk (X.hold a K B) o with
          | none => rfl
          | some b => simp only [Option.map, getBytes_move]; rfl
        | succ i => rfl
      | _ => rfl
    | _ => rfl
  | _ => rfl

theorem memcpyC_move (hM : Movable X a K B) {o : Obj} {src : V} {n : Nat} :
    SimG a K B (mv a K) (memcpyC (X.hold a K B) o src n) (memcpyC X (mo a K o) (mv a K src) n) := by
  intro g v g' hg h
  rw [memcpyC_eq] at h ⊢
  dsimp only at h ⊢
  rw [blk_move hM hg, copied_move hM hg]
  cases hb : g.blk (X.hold a K B) o with
  | none => rw [hb] at h; cases h
  | some b =>
    simp only [hb, Option.map] at h ⊢
    cases hc : copied (X.hold a K B) src n g with
    | none => rw [hc] at h; cases h
    | some bs =>
      simp only [hc] at h ⊢
      split at h
      · rename_i h3
        rw [if_pos (by exact h3)]
        exact setBlk_sim hg (by rw [hb]; rfl) putBytes_move h
      · cases h

theorem fopenC_move (hM : Movable X a K B) {name mode : String} :
    SimG a K B (mv a K) (fopenC (X.hold a K B) name mode) (fopenC X name mode) := by
  intro g v g' hg h
  simp only [fopenC, Cfg.hold] at h ⊢
  split at h
  · rename_i h1
    rw [if_pos h1]
    split at h <;> cases h
    · exact ⟨hg, rfl⟩
    · exact ⟨hg, by rw [mv, mp_null hM]⟩
  · rename_i h1
    rw [if_neg h1]
    split at h
    · rename_i h2
      rw [if_pos h2]
      split at h <;> cases h
      · exact ⟨hg, rfl⟩
      · exact ⟨hg, by rw [mv, mp_null hM]⟩
    · cases h

theorem fcloseC_move {f : File} : SimG a K B (mv a K) (fcloseC f) (fcloseC f) := by
  intro g v g' hg h
  cases f <;> cases h <;> exact ⟨hg, rfl⟩

theorem argsOf_move {b : Blk} {n : Nat} : argsOf (mb a K b) n = argsOf b n := by
  unfold argsOf
  congr 1
  funext i
  simp only [mb]
  cases b.cell (i + 1) <;> rfl

theorem longTable_move (hM : Movable X a K B) {b : Blk} : ∀ n i, longTable (mb a K b) n i = longTable b n i
  | 0, i => rfl
  | n + 1, i => by
    simp only [longTable, mb]
    rw [show (⟨b.size, fun i => mc a K (b.cell i)⟩ : Blk) = mb a K b from rfl, longTable_move hM n]
    cases b.cell (4 * i) <;> cases b.cell (4 * i + 1) <;> cases b.cell (4 * i + 2) <;>
      cases b.cell (4 * i + 3) <;> first | rfl | simp only [mc, mp_eq_null hM] | skip
    rename_i s t h q u v
    cases t <;> cases u <;> first | rfl | simp only [mc, mp_eq_null hM]

theorem getoptC_move (hM : Movable X a K B) {parse : List Arg → List Opt × List Arg} {argc : Nat} {o : Obj} :
    SimG a K B (mv a K) (getoptC (X.hold a K B) parse argc o) (getoptC X parse argc (mo a K o)) := by
  intro g v g' hg h
  simp only [getoptC] at h ⊢
  rw [blk_move hM hg, show (mg a K B g).stk = g.stk.map (mb a K) from rfl, List.getElem?_map]
  cases hst : g.stk[0]? with
  | none => rw [hst] at h; cases h
  | some st =>
    cases hb : g.blk (X.hold a K B) o with
    | none => rw [hst, hb] at h; cases h
    | some b =>
      rw [hst, hb] at h
      simp only [Option.map, argsOf_move] at h ⊢
      cases hk : st.cell 2 with
      | int t k =>
        rw [show (mb a K st).cell 2 = .int t k from by simp only [mb, hk, mc]]
        rw [hk] at h
        cases t with
        | uint =>
          cases has : argsOf b argc with
          | none => rw [has] at h; cases h
          | some as =>
            simp only [has] at h ⊢
            cases hx : (parse as).1[k.toNat]? with
            | some x =>
              simp only [hx] at h ⊢
              cases h
              refine ⟨hg, ?_⟩
              have : mb a K ⟨st.size, cells [.undef, optArg x, .int .uint (k + 1)]⟩ =
                  ⟨st.size, cells [.undef, optArg x, .int .uint (k + 1)]⟩ := by
                rw [mb_cells]
                cases x <;> rfl
              simp only [mv, mg, List.map_set, this]
              rfl
            | none =>
              simp only [hx] at h ⊢
              generalize hn : argc - (parse as).2.length = i at h ⊢
              cases hs : g.setBlk o ⟨b.size, fun j => if j = 0 ∨ argc ≤ j then b.cell j else if j < i then
                  .undef else .str (String.ofList ((parse as).2.getD (j - i) []))⟩ with
              | val g1 =>
                obtain ⟨h1, h2⟩ := setBlk_move (K := K) (B := B) (X := X) hg (by rw [hb]; rfl) rfl hs
                rw [hs] at h
                cases h
                refine ⟨h1, ?_⟩
                rw [show (⟨(mb a K b).size, fun j => if j = 0 ∨ argc ≤ j then (mb a K b).cell j else
                    if j < i then .undef else .str (String.ofList ((parse as).2.getD (j - i) []))⟩ : Blk) =
                  mb a K ⟨b.size, fun j => if j = 0 ∨ argc ≤ j then b.cell j else if j < i then
                  .undef else .str (String.ofList ((parse as).2.getD (j - i) []))⟩ from by
                    simp only [mb, Blk.mk.injEq, true_and]
                    funext j
                    split
                    · rfl
                    · split <;> rfl, h2]
                have : mb a K ⟨st.size, cells [.int .int i, .undef, .int .uint k]⟩ =
                    ⟨st.size, cells [.int .int i, .undef, .int .uint k]⟩ := by
                  rw [mb_cells]
                  rfl
                simp only [mv, mg, List.map_set, this]
                rfl
              | ub u => rw [hs] at h; cases h
              | loop => rw [hs] at h; cases h
        | _ => cases h
      | _ => rw [hk] at h; cases h

theorem getoptLongC_move (hM : Movable X a K B) {argc : Nat} {o l : Obj} {opts : String} {idx : Ptr} :
    SimG a K B (mv a K) (getoptLongC (X.hold a K B) argc o opts l idx)
      (getoptLongC X argc (mo a K o) opts (mo a K l) (mp a K idx)) := by
  intro g v g' hg h
  simp only [getoptLongC] at h ⊢
  rw [blk_move hM hg]
  cases hb : g.blk (X.hold a K B) l with
  | none => rw [hb] at h; cases h
  | some b =>
    rw [hb] at h
    simp only [Option.map, longTable_move hM] at h ⊢
    rw [show (mb a K b).size = b.size from rfl, show (X.hold a K B).e = X.e from rfl] at *
    cases ht : longTable b (b.size / Struct.size X.e .option) 0 with
    | none => rw [ht] at h; cases h
    | some t =>
      simp only [ht] at h ⊢
      split at h
      · rename_i h1
        rw [if_pos h1]
        split at h
        · rename_i v1 g1 h2
          obtain ⟨h3, h4⟩ := getoptC_move hM g v1 g1 hg h2
          rw [h4]
          dsimp only
          cases hs : g1.store (X.hold a K B) idx .undef with
          | val g2 =>
            rw [hs] at h
            cases h
            obtain ⟨h5, h6⟩ := store_move hM h3 hs
            exact ⟨h5, by rw [show (mg a K B g1).store X (mp a K idx) .undef = _ from h6]⟩
          | ub u => rw [hs] at h; cases h
          | loop => rw [hs] at h; cases h
        · cases h
        · cases h
      · cases h

section
variable (hM : Movable X a K B)
  (hc : ∀ f vs, SimG a K B (mv a K) (call' f vs) (call f (vs.map (mv a K)))) (vs : List V)
include hM

theorem prim_move_malloc : SimG a K B (mv a K) (prim (X.hold a K B) call' .malloc vs)
    (prim X call .malloc (vs.map (mv a K))) := by
  rcases vs with _ | ⟨v, vs⟩
  · exact Sim.ub
  rcases v with _ | _ | ⟨_, n⟩ | ⟨_, _⟩ | _ | _ | _ <;> try (exact Sim.ub)
  rcases vs with _ | ⟨_, _⟩
  case cons => exact Sim.ub
  exact mallocC_move hM (l := []) (by simp)

theorem prim_move_calloc : SimG a K B (mv a K) (prim (X.hold a K B) call' .calloc vs)
    (prim X call .calloc (vs.map (mv a K))) := by
  rcases vs with _ | ⟨v, vs⟩
  · exact Sim.ub
  rcases v with _ | _ | ⟨_, n⟩ | ⟨_, _⟩ | _ | _ | _ <;> try (exact Sim.ub)
  rcases vs with _ | ⟨w, vs⟩
  · exact Sim.ub
  rcases w with _ | _ | ⟨_, m⟩ | ⟨_, _⟩ | _ | _ | _ <;> try (exact Sim.ub)
  rcases vs with _ | ⟨_, _⟩
  case cons => exact Sim.ub
  show SimG a K B (mv a K) (if (toSize X.e n) * (toSize X.e m) < 2 ^ X.e.sizeBits then _ else _)
    (if (toSize X.e n) * (toSize X.e m) < 2 ^ X.e.sizeBits then _ else _)
  split
  · refine mallocC_move hM ?_
    intro c h
    rw [List.eq_of_mem_replicate h]
    rfl
  · exact Sim.pure (by rw [mv, mp_null hM])

theorem prim_move_realloc : SimG a K B (mv a K) (prim (X.hold a K B) call' .realloc vs)
    (prim X call .realloc (vs.map (mv a K))) := by
  rcases vs with _ | ⟨v, vs⟩
  · exact Sim.ub
  rcases v with _ | _ | ⟨_, _⟩ | ⟨t, p⟩ | _ | _ | _ <;> try (exact Sim.ub)
  cases t <;> try (exact Sim.ub)
  rcases p with ⟨o, i⟩
  rcases o with x | _ | _ <;> try (exact Sim.ub)
  rcases i with _ | i
  case succ => exact Sim.ub
  rcases vs with _ | ⟨w, vs⟩
  · exact Sim.ub
  rcases w with _ | _ | ⟨_, n⟩ | ⟨_, _⟩ | _ | _ | _ <;> try (exact Sim.ub)
  rcases vs with _ | ⟨_, _⟩
  case cons => exact Sim.ub
  by_cases hx : x = a
  · subst hx
    intro g v g' hg h
    change reallocC (X.hold x K B) x (toSize X.e n) g = _ at h
    simp [reallocC, hM.addr, show g.heap x = none from hg] at h
  · have := reallocC_move hM (n := toSize X.e n) hx
    simp only [List.map, mv, mp_heap hx]
    exact this

theorem prim_move_free : SimG a K B (mv a K) (prim (X.hold a K B) call' .free vs)
    (prim X call .free (vs.map (mv a K))) := by
  rcases vs with _ | ⟨v, vs⟩
  · exact Sim.ub
  rcases v with _ | _ | ⟨_, _⟩ | ⟨t, p⟩ | _ | _ | _ <;> try (exact Sim.ub)
  rcases p with ⟨o, i⟩
  rcases o with x | _ | _ <;> try (exact Sim.ub)
  rcases i with _ | i
  case succ => exact Sim.ub
  rcases vs with _ | ⟨_, _⟩
  case cons => exact Sim.ub
  by_cases hx : x = a
  · subst hx
    intro g v g' hg h
    change freeC x g = _ at h
    simp [freeC, hM.addr, show g.heap x = none from hg] at h
  · have := freeC_move (K := K) (B := B) hx
    simp only [List.map, mv, mp_heap hx]
    exact this

theorem prim_move_memcpy : SimG a K B (mv a K) (prim (X.hold a K B) call' .memcpy vs)
    (prim X call .memcpy (vs.map (mv a K))) := by
  rcases vs with _ | ⟨v, vs⟩
  · exact Sim.ub
  rcases v with _ | _ | ⟨_, _⟩ | ⟨t, p⟩ | _ | _ | _ <;> try (exact Sim.ub)
  rcases t with _ | i | _ | _ | _ | _ <;> try (exact Sim.ub)
  cases i <;> try (exact Sim.ub)
  rcases p with ⟨o, _ | _⟩
  case succ => exact Sim.ub
  rcases vs with _ | ⟨src, vs⟩
  · exact Sim.ub
  rcases vs with _ | ⟨w, vs⟩
  · exact Sim.ub
  rcases w with _ | _ | ⟨_, n⟩ | ⟨_, _⟩ | _ | _ | _ <;> try (exact Sim.ub)
  rcases vs with _ | ⟨_, _⟩
  case cons => exact Sim.ub
  exact memcpyC_move hM

theorem prim_move_memcmp : SimG a K B (mv a K) (prim (X.hold a K B) call' .memcmp vs)
    (prim X call .memcmp (vs.map (mv a K))) := by
  rcases vs with _ | ⟨v, vs⟩
  · exact Sim.ub
  rcases v with _ | _ | ⟨_, _⟩ | ⟨t, p⟩ | _ | _ | _ <;> try (exact Sim.ub)
  rcases t with _ | i | _ | _ | _ | _ <;> try (exact Sim.ub)
  cases i <;> try (exact Sim.ub)
  rcases p with ⟨o, _ | _⟩
  case succ => exact Sim.ub
  rcases vs with _ | ⟨v', vs⟩
  · exact Sim.ub
  rcases v' with _ | _ | ⟨_, _⟩ | ⟨t', p'⟩ | _ | _ | _ <;> try (exact Sim.ub)
  rcases t' with _ | i' | _ | _ | _ | _ <;> try (exact Sim.ub)
  cases i' <;> try (exact Sim.ub)
  rcases p' with ⟨o', _ | _⟩
  case succ => exact Sim.ub
  rcases vs with _ | ⟨w, vs⟩
  · exact Sim.ub
  rcases w with _ | _ | ⟨_, n⟩ | ⟨_, _⟩ | _ | _ | _ <;> try (exact Sim.ub)
  rcases vs with _ | ⟨_, _⟩
  case cons => exact Sim.ub
  exact memcmpC_move hM

omit hM in
theorem prim_move_strlen : SimG a K B (mv a K) (prim (X.hold a K B) call' .strlen vs)
    (prim X call .strlen (vs.map (mv a K))) := by
  rcases vs with _ | ⟨v, vs⟩
  · exact Sim.ub
  rcases v with _ | _ | ⟨_, _⟩ | ⟨_, _⟩ | s | _ | _ <;> try (exact Sim.ub)
  rcases vs with _ | ⟨_, _⟩
  case cons => exact Sim.ub
  show SimG a K B (mv a K) (if (0 : Byte) ∈ cString s then _ else _) (if (0 : Byte) ∈ cString s then _ else _)
  split
  · exact Sim.ub
  · exact Sim.pure rfl

include hc in
theorem prim_move_bsearch : SimG a K B (mv a K) (prim (X.hold a K B) call' .bsearch vs)
    (prim X call .bsearch (vs.map (mv a K))) := by
  rcases vs with _ | ⟨v, vs⟩
  · exact Sim.ub
  rcases v with _ | _ | ⟨_, _⟩ | ⟨t, k⟩ | _ | _ | _ <;> try (exact Sim.ub)
  cases t <;> try (exact Sim.ub)
  rename_i s
  rcases vs with _ | ⟨v', vs⟩
  · exact Sim.ub
  rcases v' with _ | _ | ⟨_, _⟩ | ⟨t', base⟩ | _ | _ | _ <;> try (exact Sim.ub)
  cases t' <;> try (exact Sim.ub)
  rename_i s'
  rcases vs with _ | ⟨w, vs⟩
  · exact Sim.ub
  rcases w with _ | _ | ⟨_, n⟩ | ⟨_, _⟩ | _ | _ | _ <;> try (exact Sim.ub)
  rcases vs with _ | ⟨w', vs⟩
  · exact Sim.ub
  rcases w' with _ | _ | ⟨_, size⟩ | ⟨_, _⟩ | _ | _ | _ <;> try (exact Sim.ub)
  rcases vs with _ | ⟨c, vs⟩
  · exact Sim.ub
  cases c <;> try (exact Sim.ub)
  rcases vs with _ | ⟨_, _⟩
  case cons => exact Sim.ub
  rename_i cmp
  show SimG a K B (mv a K) (if s = s' ∧ size = s.size X.e then _ else _)
    (if s = s' ∧ size = s.size X.e then _ else _)
  split
  · exact bsearchC_move hM (fun p => hc cmp [.ptr .void k, .ptr .void p]) _ _ _
  · exact Sim.ub

/-- `fgetc` -/
def fgetcC : M CS V := fun g =>
  match g.inp with
  | [] => .val (.int .int (-1), g)
  | b :: bs => .val (.int .int b.toNat, { g with inp := bs })

omit hM in
theorem fgetcC_move : SimG a K B (mv a K) fgetcC fgetcC := by
  intro g v g' hg h
  simp only [fgetcC] at h ⊢
  rw [show (mg a K B g).inp = g.inp from rfl]
  cases hi : g.inp <;> rw [hi] at h <;> cases h <;> exact ⟨hg, rfl⟩

omit hM in
theorem prim_move_fgetc : SimG a K B (mv a K) (prim (X.hold a K B) call' .fgetc vs)
    (prim X call .fgetc (vs.map (mv a K))) := by
  rcases vs with _ | ⟨v, vs⟩
  · exact Sim.ub
  rcases v with _ | _ | ⟨_, _⟩ | ⟨_, _⟩ | _ | f | _ <;> try (exact Sim.ub)
  cases f <;> try (exact Sim.ub)
  rcases vs with _ | ⟨_, _⟩
  case cons => exact Sim.ub
  exact fgetcC_move

omit hM in
theorem prim_move_fputc : SimG a K B (mv a K) (prim (X.hold a K B) call' .fputc vs)
    (prim X call .fputc (vs.map (mv a K))) := by
  rcases vs with _ | ⟨v, vs⟩
  · exact Sim.ub
  rcases v with _ | _ | ⟨_, n⟩ | ⟨_, _⟩ | _ | _ | _ <;> try (exact Sim.ub)
  rcases vs with _ | ⟨w, vs⟩
  · exact Sim.ub
  rcases w with _ | _ | ⟨_, _⟩ | ⟨_, _⟩ | _ | f | _ <;> try (exact Sim.ub)
  cases f <;> try (exact Sim.ub)
  rcases vs with _ | ⟨_, _⟩
  case cons => exact Sim.ub
  exact Sim.bind putOut_move fun _ => Sim.pure rfl

theorem prim_move_fread : SimG a K B (mv a K) (prim (X.hold a K B) call' .fread vs)
    (prim X call .fread (vs.map (mv a K))) := by
  rcases vs with _ | ⟨v, vs⟩
  · exact Sim.ub
  rcases v with _ | _ | ⟨_, _⟩ | ⟨t, p⟩ | _ | _ | _ <;> try (exact Sim.ub)
  rcases t with _ | i | _ | _ | _ | _ <;> try (exact Sim.ub)
  rcases vs with _ | ⟨w, vs⟩
  · exact Sim.ub
  rcases w with _ | _ | ⟨_, n⟩ | ⟨_, _⟩ | _ | _ | _ <;> try (exact Sim.ub)
  rcases vs with _ | ⟨w', vs⟩
  · exact Sim.ub
  rcases w' with _ | _ | ⟨_, m⟩ | ⟨_, _⟩ | _ | _ | _ <;> try (exact Sim.ub)
  rcases vs with _ | ⟨x, vs⟩
  · exact Sim.ub
  rcases x with _ | _ | ⟨_, _⟩ | ⟨_, _⟩ | _ | f | _ <;> try (exact Sim.ub)
  cases f <;> try (exact Sim.ub)
  rcases vs with _ | ⟨_, _⟩
  case cons => exact Sim.ub
  exact freadC_move hM

theorem prim_move_fwrite : SimG a K B (mv a K) (prim (X.hold a K B) call' .fwrite vs)
    (prim X call .fwrite (vs.map (mv a K))) := by
  rcases vs with _ | ⟨v, vs⟩
  · exact Sim.ub
  rcases v with _ | _ | ⟨_, _⟩ | ⟨t, p⟩ | _ | _ | _ <;> try (exact Sim.ub)
  rcases t with _ | i | _ | _ | _ | _ <;> try (exact Sim.ub)
  rcases vs with _ | ⟨w, vs⟩
  · exact Sim.ub
  rcases w with _ | _ | ⟨_, n⟩ | ⟨_, _⟩ | _ | _ | _ <;> try (exact Sim.ub)
  rcases vs with _ | ⟨w', vs⟩
  · exact Sim.ub
  rcases w' with _ | _ | ⟨_, m⟩ | ⟨_, _⟩ | _ | _ | _ <;> try (exact Sim.ub)
  rcases vs with _ | ⟨x, vs⟩
  · exact Sim.ub
  rcases x with _ | _ | ⟨_, _⟩ | ⟨_, _⟩ | _ | f | _ <;> try (exact Sim.ub)
  cases f <;> try (exact Sim.ub)
  rcases vs with _ | ⟨_, _⟩
  case cons => exact Sim.ub
  exact fwriteC_move hM

/-- `fseek` -/
def fseekC (X : Cfg) (n : Int) : M CS V := fun g =>
  if 0 ≤ n then
    (if X.e.seekable then .val (.int .int 0, { g with inp := g.inp.drop n.toNat })
     else .val (.int .int (-1), g))
  else .ub .badArgument

omit hM in
theorem fseekC_move {n : Int} : SimG a K B (mv a K) (fseekC (X.hold a K B) n) (fseekC X n) := by
  intro g v g' hg h
  simp only [fseekC] at h ⊢
  split at h
  · rename_i h1
    rw [if_pos h1]
    cases hk : X.e.seekable with
    | true =>
      rw [if_pos (by exact hk)] at h
      cases h
      exact ⟨hg, by simp [mg, mv]⟩
    | false =>
      rw [if_neg (by simpa [Cfg.hold] using hk)] at h
      cases h
      exact ⟨hg, by simp [mg, mv]⟩
  · cases h

omit hM in
theorem prim_move_fseek : SimG a K B (mv a K) (prim (X.hold a K B) call' .fseek vs)
    (prim X call .fseek (vs.map (mv a K))) := by
  rcases vs with _ | ⟨v, vs⟩
  · exact Sim.ub
  rcases v with _ | _ | ⟨_, _⟩ | ⟨_, _⟩ | _ | f | _ <;> try (exact Sim.ub)
  cases f <;> try (exact Sim.ub)
  rcases vs with _ | ⟨w, vs⟩
  · exact Sim.ub
  rcases w with _ | _ | ⟨_, n⟩ | ⟨_, _⟩ | _ | _ | _ <;> try (exact Sim.ub)
  rcases vs with _ | ⟨x, vs⟩
  · exact Sim.ub
  rcases x with _ | _ | ⟨_, m⟩ | ⟨_, _⟩ | _ | _ | _ <;> try (exact Sim.ub)
  rcases m with (_ | _ | m) | m <;> try (exact Sim.ub)
  rcases vs with _ | ⟨_, _⟩
  case cons => exact Sim.ub
  exact fseekC_move

theorem prim_move_fopen : SimG a K B (mv a K) (prim (X.hold a K B) call' .fopen vs)
    (prim X call .fopen (vs.map (mv a K))) := by
  rcases vs with _ | ⟨v, vs⟩
  · exact Sim.ub
  rcases v with _ | _ | ⟨_, _⟩ | ⟨_, _⟩ | n | _ | _ <;> try (exact Sim.ub)
  rcases vs with _ | ⟨w, vs⟩
  · exact Sim.ub
  rcases w with _ | _ | ⟨_, _⟩ | ⟨_, _⟩ | m | _ | _ <;> try (exact Sim.ub)
  rcases vs with _ | ⟨_, _⟩
  case cons => exact Sim.ub
  exact fopenC_move hM

omit hM in
theorem prim_move_fclose : SimG a K B (mv a K) (prim (X.hold a K B) call' .fclose vs)
    (prim X call .fclose (vs.map (mv a K))) := by
  rcases vs with _ | ⟨v, vs⟩
  · exact Sim.ub
  rcases v with _ | _ | ⟨_, _⟩ | ⟨_, _⟩ | _ | f | _ <;> try (exact Sim.ub)
  rcases vs with _ | ⟨_, _⟩
  case cons => exact Sim.ub
  exact fcloseC_move

omit hM in
theorem prim_move_fprintf : SimG a K B (mv a K) (prim (X.hold a K B) call' .fprintf vs)
    (prim X call .fprintf (vs.map (mv a K))) := by
  rcases vs with _ | ⟨v, vs⟩
  · exact Sim.ub
  rcases v with _ | _ | ⟨_, _⟩ | ⟨_, _⟩ | _ | f | _ <;> try (exact Sim.ub)
  cases f <;> try (exact Sim.ub)
  rcases vs with _ | ⟨w, vs⟩
  · exact Sim.ub
  rcases w with _ | _ | ⟨_, _⟩ | ⟨_, _⟩ | s | _ | _ <;> try (exact Sim.ub)
  exact Sim.bind (Sim.ofOut (r := id) fun _ h => toArgs_move h) fun _ => Sim.pure rfl

omit hM in
theorem prim_move_printf : SimG a K B (mv a K) (prim (X.hold a K B) call' .printf vs)
    (prim X call .printf (vs.map (mv a K))) := by
  rcases vs with _ | ⟨w, vs⟩
  · exact Sim.ub
  rcases w with _ | _ | ⟨_, _⟩ | ⟨_, _⟩ | s | _ | _ <;> try (exact Sim.ub)
  exact printC_move

omit hM in
theorem prim_move_puts : SimG a K B (mv a K) (prim (X.hold a K B) call' .puts vs)
    (prim X call .puts (vs.map (mv a K))) := by
  rcases vs with _ | ⟨w, vs⟩
  · exact Sim.ub
  rcases w with _ | _ | ⟨_, _⟩ | ⟨_, _⟩ | s | _ | _ <;> try (exact Sim.ub)
  rcases vs with _ | ⟨_, _⟩
  case cons => exact Sim.ub
  intro g v g' hg h
  cases h
  exact ⟨hg, rfl⟩

omit hM in
theorem prim_move_strcmp : SimG a K B (mv a K) (prim (X.hold a K B) call' .strcmp vs)
    (prim X call .strcmp (vs.map (mv a K))) := by
  rcases vs with _ | ⟨w, vs⟩
  · exact Sim.ub
  rcases w with _ | _ | ⟨_, _⟩ | ⟨_, _⟩ | s | _ | _ <;> try (exact Sim.ub)
  rcases vs with _ | ⟨v, vs⟩
  · exact Sim.ub
  rcases v with _ | _ | ⟨_, _⟩ | ⟨_, _⟩ | s' | _ | _ <;> try (exact Sim.ub)
  rcases vs with _ | ⟨_, _⟩
  case cons => exact Sim.ub
  exact Sim.pure rfl

theorem prim_move_getopt : SimG a K B (mv a K) (prim (X.hold a K B) call' .getopt vs)
    (prim X call .getopt (vs.map (mv a K))) := by
  rcases vs with _ | ⟨w, vs⟩
  · exact Sim.ub
  rcases w with _ | _ | ⟨_, n⟩ | ⟨_, _⟩ | _ | _ | _ <;> try (exact Sim.ub)
  rcases vs with _ | ⟨v, vs⟩
  · exact Sim.ub
  rcases v with _ | _ | ⟨_, _⟩ | ⟨t, p⟩ | _ | _ | _ <;> try (exact Sim.ub)
  cases t <;> try (exact Sim.ub)
  rename_i t
  rcases t with _ | i | _ | _ | _ | _ <;> try (exact Sim.ub)
  cases i <;> try (exact Sim.ub)
  rcases p with ⟨o, _ | _⟩
  case succ => exact Sim.ub
  rcases vs with _ | ⟨x, vs⟩
  · exact Sim.ub
  rcases x with _ | _ | ⟨_, _⟩ | ⟨_, _⟩ | s | _ | _ <;> try (exact Sim.ub)
  rcases vs with _ | ⟨_, _⟩
  case cons => exact Sim.ub
  exact getoptC_move hM

theorem prim_move_getopt_long : SimG a K B (mv a K) (prim (X.hold a K B) call' .getopt_long vs)
    (prim X call .getopt_long (vs.map (mv a K))) := by
  rcases vs with _ | ⟨w, vs⟩
  · exact Sim.ub
  rcases w with _ | _ | ⟨_, n⟩ | ⟨_, _⟩ | _ | _ | _ <;> try (exact Sim.ub)
  rcases vs with _ | ⟨v, vs⟩
  · exact Sim.ub
  rcases v with _ | _ | ⟨_, _⟩ | ⟨t, p⟩ | _ | _ | _ <;> try (exact Sim.ub)
  cases t <;> try (exact Sim.ub)
  rename_i t
  rcases t with _ | i | _ | _ | _ | _ <;> try (exact Sim.ub)
  cases i <;> try (exact Sim.ub)
  rcases p with ⟨o, _ | _⟩
  case succ => exact Sim.ub
  rcases vs with _ | ⟨x, vs⟩
  · exact Sim.ub
  rcases x with _ | _ | ⟨_, _⟩ | ⟨_, _⟩ | s | _ | _ <;> try (exact Sim.ub)
  rcases vs with _ | ⟨y, vs⟩
  · exact Sim.ub
  rcases y with _ | _ | ⟨_, _⟩ | ⟨ty, l⟩ | _ | _ | _ <;> try (exact Sim.ub)
  cases ty <;> try (exact Sim.ub)
  rename_i st
  cases st <;> try (exact Sim.ub)
  rcases l with ⟨ol, _ | _⟩
  case succ => exact Sim.ub
  rcases vs with _ | ⟨z, vs⟩
  · exact Sim.ub
  rcases z with _ | _ | ⟨_, _⟩ | ⟨tz, idx⟩ | _ | _ | _ <;> try (exact Sim.ub)
  rcases tz with _ | iz | _ | _ | _ | _ <;> try (exact Sim.ub)
  cases iz <;> try (exact Sim.ub)
  rcases vs with _ | ⟨_, _⟩
  case cons => exact Sim.ub
  exact getoptLongC_move hM

omit hM in
theorem prim_move_error : SimG a K B (mv a K) (prim (X.hold a K B) call' .IFF_error vs)
    (prim X call .IFF_error (vs.map (mv a K))) := by
  rcases vs with _ | ⟨w, vs⟩
  · exact Sim.ub
  rcases w with _ | _ | ⟨_, _⟩ | ⟨_, _⟩ | s | _ | _ <;> try (exact Sim.ub)
  exact errorC_move

omit hM in
theorem prim_move_printIndent : SimG a K B (mv a K) (prim (X.hold a K B) call' .IFF_printIndent vs)
    (prim X call .IFF_printIndent (vs.map (mv a K))) := by
  rcases vs with _ | ⟨v, vs⟩
  · exact Sim.ub
  rcases v with _ | _ | ⟨_, _⟩ | ⟨_, _⟩ | _ | f | _ <;> try (exact Sim.ub)
  cases f <;> try (exact Sim.ub)
  rcases vs with _ | ⟨x, vs⟩
  · exact Sim.ub
  rcases x with _ | _ | ⟨_, n⟩ | ⟨_, _⟩ | _ | _ | _ <;> try (exact Sim.ub)
  rcases vs with _ | ⟨w, vs⟩
  · exact Sim.ub
  rcases w with _ | _ | ⟨_, _⟩ | ⟨_, _⟩ | s | _ | _ <;> try (exact Sim.ub)
  exact printC_move

end

theorem prim_move (hM : Movable X a K B)
    (hc : ∀ f vs, SimG a K B (mv a K) (call' f vs) (call f (vs.map (mv a K)))) (f : Fn) (vs : List V) :
    SimG a K B (mv a K) (prim (X.hold a K B) call' f vs) (prim X call f (vs.map (mv a K))) := by
  cases f
  case malloc => exact prim_move_malloc hM vs
  case calloc => exact prim_move_calloc hM vs
  case realloc => exact prim_move_realloc hM vs
  case free => exact prim_move_free hM vs
  case memcpy => exact prim_move_memcpy hM vs
  case memcmp => exact prim_move_memcmp hM vs
  case strlen => exact prim_move_strlen vs
  case bsearch => exact prim_move_bsearch hM hc vs
  case fgetc => exact prim_move_fgetc vs
  case fputc => exact prim_move_fputc vs
  case fread => exact prim_move_fread hM vs
  case fwrite => exact prim_move_fwrite hM vs
  case fseek => exact prim_move_fseek vs
  case fopen => exact prim_move_fopen hM vs
  case fclose => exact prim_move_fclose vs
  case fprintf => exact prim_move_fprintf vs
  case printf => exact prim_move_printf vs
  case puts => exact prim_move_puts vs
  case strcmp => exact prim_move_strcmp vs
  case getopt => exact prim_move_getopt hM vs
  case getopt_long => exact prim_move_getopt_long hM vs
  case IFF_error => exact prim_move_error vs
  case IFF_printIndent => exact prim_move_printIndent vs
  all_goals exact Sim.ub

/-! ### Functions -/

theorem bindParams_move {e : Env} : ∀ {ps : List (Var × Ty)} {vs : List V} {l : Var → Slot},
    bindParams e ps vs = .val l →
    bindParams e ps (vs.map (mv a K)) = .val (fun x => ms a K (l x))
  | [], [], l, h => by cases h; rfl
  | [], _ :: _, l, h => by cases h
  | _ :: _, [], l, h => by cases h
  | (x, t) :: ps, v :: vs, l, h => by
    simp only [bindParams, List.map_cons] at h ⊢
    cases h1 : conv e t v with
    | val w =>
      rw [h1] at h
      cases h2 : bindParams e ps vs with
      | val l' =>
        rw [h2] at h
        rw [conv_move h1, bindParams_move h2]
        cases h
        simp only [bind, Out.bind, Out.val.injEq]
        funext y
        simp only [setLoc]
        split <;> rfl
      | ub u => rw [h2] at h; cases h
      | loop => rw [h2] at h; cases h
    | ub u => rw [h1] at h; cases h
    | loop => rw [h1] at h; cases h

theorem result_move {e : Env} {t : Ty} {f : Flow} {v : V} (h : f.result e t = .val v) :
    (mw a K f).result e t = .val (mv a K v) := by
  cases f with
  | ret w =>
    cases w <;> first | (cases h; rfl) | exact conv_move h
  | _ => cases h; rfl

theorem runFun_move (hM : Movable X a K B)
    (hc : ∀ f vs, SimG a K B (mv a K) (call' f vs) (call f (vs.map (mv a K)))) (n : Nat) (d : Fun)
    (vs : List V) :
    SimG a K B (mv a K) (runFun (X.hold a K B) call' n d vs) (runFun X call n d (vs.map (mv a K))) := by
  intro g v g' hg h
  simp only [runFun] at h ⊢
  cases h1 : bindParams X.e d.params vs with
  | val l =>
    rw [show bindParams (X.hold a K B).e d.params vs = .val l from h1] at h
    rw [bindParams_move h1]
    dsimp only at h ⊢
    cases h2 : exec (X.hold a K B) call' n d.body ⟨l, g⟩ with
    | val p =>
      obtain ⟨f, s⟩ := p
      rw [h2] at h
      obtain ⟨h3, h4⟩ := exec_move hM hc n d.body ⟨l, g⟩ f s hg h2
      rw [show exec X call n d.body ⟨fun x => ms a K (l x), mg a K B g⟩ = _ from h4]
      dsimp only at h ⊢
      cases h5 : f.result X.e d.ret with
      | val w =>
        rw [show f.result (X.hold a K B).e d.ret = .val w from h5] at h
        rw [result_move h5]
        cases h
        refine ⟨h3, ?_⟩
        simp only [mf, mg, List.length_map, List.map_take]
      | ub u => rw [show f.result (X.hold a K B).e d.ret = .ub u from h5] at h; cases h
      | loop => rw [show f.result (X.hold a K B).e d.ret = .loop from h5] at h; cases h
    | ub u => rw [h2] at h; cases h
    | loop => rw [h2] at h; cases h
  | ub u => rw [show bindParams (X.hold a K B).e d.params vs = .ub u from h1] at h; cases h
  | loop => rw [show bindParams (X.hold a K B).e d.params vs = .loop from h1] at h; cases h

/-- A call makes of the moved object what it makes of the object. -/
theorem callFn_move (hM : Movable X a K B) : ∀ (n : Nat) (f : Fn) (vs : List V),
    SimG a K B (mv a K) (callFn (X.hold a K B) n f vs) (callFn X n f (vs.map (mv a K)))
  | 0, _, _ => Sim.loop
  | n + 1, f, vs => by
    simp only [callFn]
    cases code f with
    | some d => exact runFun_move hM (callFn_move hM n) n d vs
    | none => exact prim_move hM (callFn_move hM n) f vs

end

end Iff.Src
