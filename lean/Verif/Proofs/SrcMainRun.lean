import Verif.Proofs.SrcMove
import Verif.Proofs.SrcMainJoin
/-
  iffjoin's `main` has the names of the files in an array on the heap.
-/
namespace Iff.Src

section
variable {X : Cfg} {a K : Nat} {B : Blk}

theorem mb_mb {b : Blk} : mb a K (mb a K b) = b := by
  obtain ⟨n, c⟩ := b
  simp only [mb, Blk.mk.injEq, true_and]
  funext i
  cases c i with
  | ptr p => simp [mc, mp_mp]
  | _ => rfl

theorem map_mb_mb {l : List Blk} : (l.map (mb a K)).map (mb a K) = l := by
  simp [List.map_map, Function.comp_def, mb_mb]

theorem mb_names {e : Env} {inputs : List Arg} : mb a K (namesBlk e inputs) = namesBlk e inputs := by
  simp only [mb, namesBlk, Blk.mk.injEq, true_and]
  funext j
  cases inputs[j]? <;> rfl

theorem glob_ne (g : Glob) : g.addr ≠ 8 := by cases g <;> decide

/-- An array of names can be moved to the heap. -/
theorem movable_names (hX : X.Linked) (hA : X.Alone) (ha : a ≠ 0) {inputs : List Arg} :
    Movable X a 8 (namesBlk X.e inputs) where
  addr := ha
  glob g := glob_ne g
  free := by
    cases h : X.img 8 with
    | none => rfl
    | some b =>
      obtain ⟨g, -, hg⟩ := hA 8 b h
      exact absurd hg.symm (glob_ne g)
  img k b h := by
    obtain ⟨g, hl, rfl⟩ := hA k b h
    rw [hX g hl] at h
    cases h
    exact initBlk_move (X := { X with img := fun _ => none }) (B := ⟨0, cells []⟩)
      ⟨ha, fun g => glob_ne g, rfl, nofun, mb_cells⟩
  blk := mb_names

theorem runs_move (hM : Movable X a K B) {f : Fn} {vs : List V} {g g' : CS} {v : V}
    (h : Runs (X.hold a K B) f vs g v g') (hg : g.heap a = none) :
    g'.heap a = none ∧ Runs X f (vs.map (mv a K)) (mg a K B g) (mv a K v) (mg a K B g') := by
  obtain ⟨N, hN⟩ := h
  exact ⟨(callFn_move hM N f vs g v g' hg (hN N (Nat.le_refl _))).1, N, fun n hn =>
    (callFn_move hM n f vs g v g' hg (hN n hn)).2⟩

theorem hold_linked (hX : X.Linked) : (X.hold a 8 B).Linked := by
  intro g hl
  show (if g.addr = 8 then some B else X.img g.addr) = _
  rw [if_neg (glob_ne g), hX g hl]
  rfl

theorem hold_grants (hg : X.Grants) : (X.hold a K B).Grants := fun _ _ _ _ h => hg _ _ _ _ h

theorem hold_serves (h : ∀ t s n, Finite s → X.e.mallocOk n = true → (X.pick t s n).isSome) :
    ∀ t s n, Finite s → (X.hold a K B).e.mallocOk n = true → ((X.hold a K B).pick t s n).isSome := by
  rintro t s n ⟨b, hb⟩ hn
  refine h t _ n ⟨b + a + 1, fun x hx => ?_⟩ hn
  show (if x = a then _ else s x) = none
  rw [if_neg (by omega), hb x (by omega)]

/-- What iffjoin's `main` does with a run of `IFF_join` on a static array of the names. -/
theorem join_static {main : Fn} {usage : List Byte} {command : String} {args : List String} {g : CS} {out : Option Arg} {inputs : List Arg}
    (hX : X.Linked) (hA : X.Alone) (hg : ∀ x, g.heap x = none) (hp : X.pick g.tick (sizes g.heap)
      (namesBlk X.e inputs).size = some a) (h : JoinDoes X main usage command args g (.run (out, inputs))) :
    ∃ stk', ∀ (st : Nat) (g' : CS), st < 2147483648 →
      Runs (X.hold a 8 (namesBlk X.e inputs)) .IFF_join [.ptr (.ptr (.int .char)) ⟨.static 8, 0⟩,
        .int .uint inputs.length, nameArg out] { g with stk := stk', tick := g.tick + 1 } (.int .int st) g' →
      g'.heap a = none ∧ ∃ stk2, Runs X main (mainArgs args) g (.int .int st)
        { g' with stk := stk2, heap := fun x => (g'.heap x).map (mb a 8) } := by
  have ha : a ≠ 0 := (X.sound hp).1
  have hM : Movable X a 8 (namesBlk X.e inputs) := movable_names hX hA ha
  simp only [JoinDoes, hp] at h
  obtain ⟨stk', h, -⟩ := h
  refine ⟨stk'.map (mb a 8), fun st g' hst hr => ?_⟩
  obtain ⟨h1, h2⟩ := runs_move hM hr (hg a)
  refine ⟨h1, (mg a 8 (namesBlk X.e inputs) g').stk.take 2, ?_⟩
  have hn : mv a 8 (nameArg out) = nameArg out := by
    cases out with
    | none => exact congrArg (V.ptr _) (mp_null hM)
    | some o => rfl
  have e1 : mg a 8 (namesBlk X.e inputs) { g with stk := stk'.map (mb a 8), tick := g.tick + 1 } =
      { g with stk := stk', tick := g.tick + 1, heap := setHeap g.heap a (some (namesBlk X.e inputs)) } := by
    simp only [mg, map_mb_mb, CS.mk.injEq, and_true]
    funext x
    simp only [setHeap, hg, Option.map_none]
  have e2 : mv a 8 (.ptr (.ptr (.int .char)) ⟨.static 8, 0⟩) = .ptr (.ptr (.int .char)) ⟨.heap a, 0⟩ := by
    simp [mv, mp, mo]
  rw [e1] at h2
  rw [List.map_cons, List.map_cons, List.map_cons, List.map_nil, e2, hn] at h2
  have h3 := h st (mg a 8 (namesBlk X.e inputs) g') hst (by simp [mg]) h2
  have e3 : setHeap (mg a 8 (namesBlk X.e inputs) g').heap a none = fun x => (g'.heap x).map (mb a 8) := by
    funext x
    simp only [setHeap, mg]
    split
    · next hx => rw [hx, h1]; rfl
    · rfl
  rw [e3] at h3
  exact h3

end

end Iff.Src
