import Verif.Model.Program
import Verif.Props.Getopt
import Verif.Props.Layout
/-
  The programs on named files and the tools on the contents of files.
-/
namespace Iff
open Spec

/-- The files with these names, as they are. -/
def World.sources (w : World) (ns : List Arg) : List Source :=
  ns.map fun n => ⟨String.ofList n, w.disk n⟩

/-- An outcome in a world whose files stay as they are. -/
def World.keep {α : Type} (w : World) : Out (α × List Msg) → Out (α × World)
  | .val (a, l) => .val (a, ⟨w.disk, w.out, l⟩)
  | .ub u => .ub u
  | .loop => .loop

theorem onLog_eq {α : Type} (m : M (List Msg) α) (w : World) : onLog m w = w.keep (m w.log) := by
  unfold onLog World.keep
  cases m w.log <;> rfl

theorem joinNames_eq (e : Env) : ∀ (ns : List Arg) (cat : Chunk) (w : World),
    joinNames e cat ns w = w.keep (joinInputs e cat (w.sources ns) w.log) := by
  intro ns
  induction ns with
  | nil => intro cat w; rfl
  | cons n ns ih =>
    intro cat w
    rw [joinNames, World.sources, List.map_cons, joinInputs, M.bind_apply, M.bind_apply, readNamed,
      onLog_eq]
    dsimp only
    cases readFile e none (String.ofList n) (w.disk n) w.log with
    | ub u => rfl
    | loop => rfl
    | val x =>
      obtain ⟨oc, l⟩ := x
      cases oc with
      | none => rfl
      | some c =>
        simp only [World.keep]
        rw [M.bind_apply, M.bind_apply, onLog_eq]
        dsimp only
        cases check e none c l with
        | ub u => rfl
        | loop => rfl
        | val x =>
          obtain ⟨b, l2⟩ := x
          cases b with
          | false => rfl
          | true =>
            simp only [World.keep, if_true]
            rw [M.bind_apply, M.bind_apply]
            cases addAndUpdate e cat c with
            | ub u => rfl
            | loop => rfl
            | val cat' =>
              simp only [M.ofOut_val]
              exact ih cat' ⟨w.disk, w.out, l2⟩

/-- `IFF_join` on named files does what it does on the contents that the files have at the start. -/
theorem joinFiles_eq (e : Env) (y : System) (ns : List Arg) (n : Option Arg) (w : World) :
    joinFiles e y ns n w =
      match join e (w.sources ns) (y.dest n) w.log with
      | .val ((status, res), l) => .val (status, World.store ⟨w.disk, w.out, l⟩ n res)
      | .ub u => .ub u
      | .loop => .loop := by
  rw [joinFiles, join, M.bind_apply, M.bind_apply, joinNames_eq]
  cases joinInputs e createEmptyCAT (w.sources ns) w.log with
  | ub u => rfl
  | loop => rfl
  | val x =>
    obtain ⟨oc, l⟩ := x
    cases oc with
    | none => rfl
    | some cat =>
      simp only [World.keep]
      rw [M.bind_apply, M.bind_apply, writeNamed, M.bind_apply, onLog_eq]
      dsimp only
      cases writeFile e none cat (y.dest n) l with
      | ub u => rfl
      | loop => rfl
      | val x =>
        obtain ⟨⟨ok, res⟩, l2⟩ := x
        cases ok <;> rfl

/-- The file that iffpp reads. -/
def System.source (y : System) (w : World) : Option Arg → Source
  | some n => ⟨String.ofList n, w.disk n⟩
  | none => ⟨"stdin", some y.input⟩

theorem printFile_eq (e : Env) (y : System) (k : Bool) (n : Option Arg) (w : World) :
    printFile e y k n w =
      match prettyPrint e (y.source w n) k w.log with
      | .val ((status, t), l) => .val (status, ⟨w.disk, w.out ++ t, l⟩)
      | .ub u => .ub u
      | .loop => .loop := by
  have hr : readInput e y n w =
      w.keep (readFile e none (y.source w n).name (y.source w n).contents w.log) := by
    cases n with
    | none => exact onLog_eq _ _
    | some n => exact onLog_eq _ _
  rw [printFile, prettyPrint, M.bind_apply, M.bind_apply, hr]
  cases readFile e none (y.source w n).name (y.source w n).contents w.log with
  | ub u => rfl
  | loop => rfl
  | val x =>
    obtain ⟨oc, l⟩ := x
    cases oc with
    | none => simp only [World.keep, M.pure_apply, List.append_nil]
    | some c =>
      simp only [World.keep]
      cases k with
      | true =>
        simp only [if_true]
        rw [M.bind_apply, M.bind_apply, M.pure_apply]
        dsimp only
        rw [if_pos rfl, M.bind_apply]
        cases print none 0 c <;> rfl
      | false =>
        simp only [Bool.false_eq_true, if_false]
        rw [M.bind_apply, M.bind_apply, onLog_eq]
        dsimp only
        cases check e none c l with
        | ub u => rfl
        | loop => rfl
        | val x =>
          obtain ⟨b, l2⟩ := x
          cases b with
          | false => simp [World.keep]
          | true =>
            simp only [World.keep, if_true]
            rw [M.bind_apply, M.bind_apply]
            cases print none 0 c <;> rfl

end Iff
