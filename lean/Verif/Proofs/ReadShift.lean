import Verif.Proofs.ReadLog
/-
  What the reader does does not depend on the messages emitted before.
-/
namespace Iff
open Spec

/-- Put messages in front of the log of an outcome. -/
def shifted {α : Type} (l0 : List Msg) : Out (α × RS) → Out (α × RS)
  | .val (a, s) => .val (a, ⟨s.inp, l0 ++ s.log⟩)
  | .ub u => .ub u
  | .loop => .loop

/-- Earlier messages do not matter. -/
def Shifts {α : Type} (m : M RS α) : Prop :=
  ∀ l0 s, m ⟨s.inp, l0 ++ s.log⟩ = shifted l0 (m s)

theorem shifts_pure {α : Type} (a : α) : Shifts (pure a) := fun _ _ => rfl
theorem shifts_ub {α : Type} (u : UB) : Shifts (M.ub u : M RS α) := fun _ _ => rfl

theorem shifts_ofOut {α : Type} (o : Out α) : Shifts (M.ofOut o) := by
  intro l0 s; cases o <;> rfl

theorem shifts_emit (m : Msg) : Shifts (RS.emit m) := by
  intro l0 s; simp [RS.emit, shifted]

theorem shifts_bind {α β : Type} {m : M RS α} {f : α → M RS β} (hm : Shifts m)
    (hf : ∀ a, Shifts (f a)) : Shifts (m >>= f) := by
  intro l0 s
  simp only [M.bind_apply]
  rw [hm l0 s]
  cases m s with
  | ub u => rfl
  | loop => rfl
  | val x => exact hf x.1 l0 x.2

theorem shifts_ite {α : Type} {p : Prop} [Decidable p] {a b : M RS α} (ha : Shifts a)
    (hb : Shifts b) : Shifts (if p then a else b) := by split <;> assumption

theorem shifts_fread (n : Nat) : Shifts (fread n) := fun _ _ => rfl

theorem shifts_fgetc : Shifts fgetc := by
  intro l0 s
  obtain ⟨inp, log⟩ := s
  cases inp <;> rfl

theorem shifts_fseek (e : Env) (n : Nat) : Shifts (fseekCur e n) := by
  intro l0 s
  unfold fseekCur
  split <;> rfl

theorem shifts_readULong (e : Env) (id : ID) (a : String) : Shifts (readULong e id a) := by
  refine shifts_bind (shifts_fread _) (fun l => ?_)
  split
  · exact shifts_pure _
  · exact shifts_bind (shifts_emit _) (fun _ => shifts_pure _)

theorem shifts_readUWord (e : Env) (id : ID) (a : String) : Shifts (readUWord e id a) := by
  refine shifts_bind (shifts_fread _) (fun l => ?_)
  split
  · exact shifts_pure _
  · exact shifts_bind (shifts_emit _) (fun _ => shifts_pure _)

theorem shifts_readUByte (id : ID) (a : String) : Shifts (readUByte id a) := by
  refine shifts_bind shifts_fgetc (fun l => ?_)
  split
  · exact shifts_bind (shifts_emit _) (fun _ => shifts_pure _)
  · exact shifts_pure _

theorem shifts_readVal (e : Env) (k : FieldKind) (id : ID) (a : String) : Shifts (readVal e k id a) := by
  cases k <;> simp only [readVal, readWord_eq, readLong_eq, readId_eq]
  · exact shifts_bind (shifts_readUByte _ _) (fun _ => shifts_pure _)
  · exact shifts_bind (shifts_readUWord _ _ _) (fun _ => shifts_pure _)
  · exact shifts_bind (shifts_readUWord _ _ _) (fun _ => shifts_pure _)
  all_goals exact shifts_bind (shifts_readULong _ _ _) (fun _ => shifts_pure _)

theorem shifts_readField (e : Env) (k : FieldKind) (id : ID) (size : Int) (a : String) (v : Val)
    (bp : Int) : Shifts (readField e k id size a v bp) := by
  unfold readField
  refine shifts_ite (shifts_pure _) (shifts_bind (shifts_readVal _ _ _ _) (fun x => ?_))
  split
  all_goals first
    | exact shifts_pure _
    | exact shifts_bind (shifts_ofOut _) (fun _ => shifts_pure _)

theorem shifts_readExtFields (e : Env) (id : ID) (size : Int) :
    ∀ fields cur done bp, Shifts (readExtFields e id size fields cur done bp)
  | [], cur, done, bp => by simp only [readExtFields]; exact shifts_pure _
  | f :: fs, [], done, bp => by simp only [readExtFields]; exact shifts_pure _
  | f :: fs, v :: vs, done, bp => by
    unfold readExtFields
    refine shifts_bind (shifts_readField _ _ _ _ _ _ _) (fun x => ?_)
    obtain ⟨st, v', bp'⟩ := x
    cases st
    all_goals first
      | exact shifts_readExtFields e id size fs vs _ _
      | exact shifts_pure _

theorem shifts_finish (e : Env) (size : Int) (ok : Bool) (c : Chunk) (bp : Int) :
    Shifts (finishChunk e size ok c bp) := by
  unfold finishChunk
  refine shifts_ite (shifts_bind ?_ fun b => shifts_ite (shifts_bind ?_ fun b => shifts_ite (shifts_pure _)
    (shifts_pure _)) (shifts_pure _)) (shifts_pure _)
  · unfold skipUnknownBytes
    exact shifts_ite (shifts_bind (shifts_ofOut _) fun _ => shifts_bind (shifts_fseek _ _) fun _ =>
      shifts_ite (shifts_bind (shifts_emit _) fun _ => shifts_pure _) (shifts_pure _)) (shifts_pure _)
  · unfold readPaddingByte
    refine shifts_ite (shifts_bind shifts_fgetc fun b => ?_) (shifts_pure _)
    split
    · exact shifts_bind (shifts_emit _) fun _ => shifts_pure _
    · exact shifts_ite (shifts_bind (shifts_emit _) fun _ => shifts_pure _) (shifts_pure _)

theorem shifts_readRaw (e : Env) (id : ID) (size bp : Int) : Shifts (readRawChunk e id size bp) := by
  unfold readRawChunk
  exact shifts_bind (shifts_fread _) fun d => shifts_ite (shifts_bind (shifts_emit _) fun _ => shifts_pure _)
    (shifts_bind (shifts_ofOut _) fun _ => shifts_pure _)

theorem read_shifts {e : Env} {r : Registry} : ∀ n : Nat,
    (∀ ft, Shifts (readChunk e r n ft)) ∧
    (∀ ty size subs bp, Shifts (readGroupSubChunks e r n ty size subs bp)) ∧
    (∀ ty size subs props bp, Shifts (readListSubChunks e r n ty size subs props bp)) := by
  intro n
  induction n with
  | zero =>
    refine ⟨?_, ?_, ?_⟩
    · intro ft l0 s; simp [readChunk, shifted]
    · intro ty size subs bp l0 s; simp [readGroupSubChunks, shifted]
    · intro ty size subs props bp l0 s; simp [readListSubChunks, shifted]
  | succ n ih =>
    obtain ⟨ihc, ihg, ihl⟩ := ih
    refine ⟨?_, ?_, ?_⟩
    · intro ft
      rw [readChunk_succ]
      refine shifts_bind (by rw [readId_eq]; exact shifts_readULong _ _ _) (fun x => ?_)
      split
      · exact shifts_pure _
      · rename_i id
        refine shifts_bind (by rw [readLong_eq]; exact shifts_readULong _ _ _) (fun x => ?_)
        split
        · exact shifts_pure _
        · rename_i sz
          rcases Handler.cases' (findChunkType r ft id) with hh | hh | hh | ⟨f, k, hh⟩
          · rw [hh, readBody_raw]
            exact shifts_ite (shifts_bind (shifts_readRaw _ _ _ _) fun _ => shifts_finish _ _ _ _ _)
              (shifts_pure _)
          · rw [readBody_grp _ _ _ _ _ hh]
            refine shifts_bind (shifts_readField _ _ _ _ _ _ _) (fun x => ?_)
            obtain ⟨st, v, bp⟩ := x
            cases st
            all_goals first
              | exact shifts_bind (ihg _ _ _ _) fun _ => shifts_finish _ _ _ _ _
              | exact shifts_finish _ _ _ _ _
          · rw [hh, readBody_lst]
            refine shifts_bind (shifts_readField _ _ _ _ _ _ _) (fun x => ?_)
            obtain ⟨st, v, bp⟩ := x
            cases st
            all_goals first
              | exact shifts_bind (ihl _ _ _ _ _) fun _ => shifts_ite (shifts_finish _ _ _ _ _)
                  (shifts_bind (shifts_emit _) fun _ => shifts_pure _)
              | exact shifts_finish _ _ _ _ _
          · rw [hh, readBody_ext]
            exact shifts_bind (shifts_readExtFields _ _ _ _ _ _ _) fun _ => shifts_finish _ _ _ _ _
    · intro ty size subs bp
      unfold readGroupSubChunks
      refine shifts_ite (shifts_bind (ihc _) fun x => ?_) (shifts_ite (shifts_bind (shifts_emit _)
        fun _ => shifts_pure _) (shifts_pure _))
      split
      · exact shifts_pure _
      · exact shifts_bind (shifts_ofOut _) fun _ => ihg _ _ _ _
    · intro ty size subs props bp
      unfold readListSubChunks
      refine shifts_ite (shifts_bind (ihc _) fun x => ?_) (shifts_ite (shifts_bind (shifts_emit _)
        fun _ => shifts_pure _) (shifts_pure _))
      split
      · exact shifts_pure _
      · exact shifts_bind (shifts_ofOut _) fun _ => shifts_ite (ihl _ _ _ _ _) (ihl _ _ _ _ _)

/-- `IFF_readFd` does the same whatever was logged before. -/
theorem readFd_shifts (e : Env) (reg : Option Registry) (inp : List Byte) (log : List Msg) :
    readFd e reg ⟨inp, log⟩ = shifted log (readFd e reg ⟨inp, []⟩) := by
  have h := shifts_bind ((read_shifts (e := e) (r := selectChunkRegistry reg) (inp.length + 4)).1 0)
    (f := fun x => match x with
      | none => do RS.emit .mainChunk; pure none
      | some c => do
        match ← fgetc with
        | some b => do RS.emit (.trailing b.toNat); pure (some c)
        | none => pure (some c)) (fun x => ?_) log ⟨inp, []⟩
  · rw [List.append_nil] at h
    exact h
  · cases x with
    | none => exact shifts_bind (shifts_emit _) fun _ => shifts_pure _
    | some c =>
      refine shifts_bind shifts_fgetc fun b => ?_
      cases b with
      | none => exact shifts_pure _
      | some b => exact shifts_bind (shifts_emit _) fun _ => shifts_pure _

end Iff
