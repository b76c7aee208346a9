import Verif.Proofs.ReadShape
/-
  The log only grows while reading, and only by messages about the chunk being read.
-/
namespace Iff
open Spec

/-- Not one of the two messages of `IFF_readFd` itself. -/
def Msg.OfChunk : Msg → Prop
  | .trailing _ => False
  | .mainChunk => False
  | _ => True

/-- `m` only adds messages about chunks to the log. -/
def Logs {α : Type} (m : M RS α) : Prop :=
  ∀ s a s', m s = .val (a, s') → ∃ l, s'.log = s.log ++ l ∧ ∀ x ∈ l, x.OfChunk

theorem logs_pure {α : Type} (a : α) : Logs (pure a) := by
  intro s b s' h
  simp at h
  obtain ⟨_, rfl⟩ := h
  exact ⟨[], by simp, by simp⟩

theorem logs_ub {α : Type} (u : UB) : Logs (M.ub u : M RS α) := by
  intro s b s' h; simp at h

theorem logs_ofOut {α : Type} (o : Out α) : Logs (M.ofOut o) := by
  intro s b s' h
  cases o with
  | val a => simp at h; obtain ⟨_, rfl⟩ := h; exact ⟨[], by simp, by simp⟩
  | ub u => simp at h
  | loop => simp [M.ofOut] at h

theorem logs_emit {m : Msg} (hm : m.OfChunk) : Logs (RS.emit m) := by
  intro s b s' h
  simp [RS.emit] at h
  subst h
  exact ⟨[m], rfl, by simpa using hm⟩

theorem logs_bind {α β : Type} {m : M RS α} {f : α → M RS β} (hm : Logs m) (hf : ∀ a, Logs (f a)) :
    Logs (m >>= f) := by
  intro s b s' h
  rw [M.bind_apply] at h
  cases hx : m s with
  | ub u => simp [hx] at h
  | loop => simp [hx] at h
  | val x =>
    obtain ⟨a, s1⟩ := x
    rw [hx] at h
    obtain ⟨l1, h1, h2⟩ := hm _ _ _ hx
    obtain ⟨l2, h3, h4⟩ := hf a _ _ _ h
    refine ⟨l1 ++ l2, by rw [h3, h1]; simp, ?_⟩
    intro x hx
    rcases List.mem_append.mp hx with hx | hx
    · exact h2 x hx
    · exact h4 x hx

theorem logs_ite {α : Type} {p : Prop} [Decidable p] {a b : M RS α} (ha : Logs a) (hb : Logs b) :
    Logs (if p then a else b) := by split <;> assumption

theorem logs_fread (n : Nat) : Logs (fread n) := by
  intro s b s' h; simp [fread] at h; obtain ⟨_, rfl⟩ := h; exact ⟨[], by simp, by simp⟩

theorem logs_fgetc : Logs fgetc := by
  intro s b s' h
  unfold fgetc at h
  split at h <;> (simp at h; obtain ⟨_, rfl⟩ := h; exact ⟨[], by simp, by simp⟩)

theorem logs_fseek (e : Env) (n : Nat) : Logs (fseekCur e n) := by
  intro s b s' h
  unfold fseekCur at h
  split at h <;> (simp at h; obtain ⟨_, rfl⟩ := h; exact ⟨[], by simp, by simp⟩)

theorem logs_readULong (e : Env) (id : ID) (a : String) : Logs (readULong e id a) := by
  refine logs_bind (logs_fread _) (fun l => ?_)
  split
  · exact logs_pure _
  · exact logs_bind (logs_emit trivial) (fun _ => logs_pure _)

theorem logs_readUWord (e : Env) (id : ID) (a : String) : Logs (readUWord e id a) := by
  refine logs_bind (logs_fread _) (fun l => ?_)
  split
  · exact logs_pure _
  · exact logs_bind (logs_emit trivial) (fun _ => logs_pure _)

theorem logs_readUByte (id : ID) (a : String) : Logs (readUByte id a) := by
  refine logs_bind logs_fgetc (fun l => ?_)
  split
  · exact logs_bind (logs_emit trivial) (fun _ => logs_pure _)
  · exact logs_pure _

theorem logs_readVal (e : Env) (k : FieldKind) (id : ID) (a : String) : Logs (readVal e k id a) := by
  cases k <;> simp only [readVal, readWord_eq, readLong_eq, readId_eq]
  · exact logs_bind (logs_readUByte _ _) (fun _ => logs_pure _)
  · exact logs_bind (logs_readUWord _ _ _) (fun _ => logs_pure _)
  · exact logs_bind (logs_readUWord _ _ _) (fun _ => logs_pure _)
  all_goals exact logs_bind (logs_readULong _ _ _) (fun _ => logs_pure _)

theorem logs_readField (e : Env) (k : FieldKind) (id : ID) (size : Int) (a : String) (v : Val)
    (bp : Int) : Logs (readField e k id size a v bp) := by
  unfold readField
  refine logs_ite (logs_pure _) (logs_bind (logs_readVal _ _ _ _) (fun x => ?_))
  split
  all_goals first
    | exact logs_pure _
    | exact logs_bind (logs_ofOut _) (fun _ => logs_pure _)

theorem logs_readExtFields (e : Env) (id : ID) (size : Int) :
    ∀ fields cur done bp, Logs (readExtFields e id size fields cur done bp)
  | [], cur, done, bp => by simp only [readExtFields]; exact logs_pure _
  | f :: fs, [], done, bp => by simp only [readExtFields]; exact logs_pure _
  | f :: fs, v :: vs, done, bp => by
    unfold readExtFields
    refine logs_bind (logs_readField _ _ _ _ _ _ _) (fun x => ?_)
    obtain ⟨st, v', bp'⟩ := x
    cases st
    all_goals first
      | exact logs_readExtFields e id size fs vs _ _
      | exact logs_pure _

theorem logs_finish (e : Env) (size : Int) (ok : Bool) (c : Chunk) (bp : Int) :
    Logs (finishChunk e size ok c bp) := by
  unfold finishChunk
  refine logs_ite (logs_bind ?_ fun b => logs_ite (logs_bind ?_ fun b => logs_ite (logs_pure _)
    (logs_pure _)) (logs_pure _)) (logs_pure _)
  · unfold skipUnknownBytes
    exact logs_ite (logs_bind (logs_ofOut _) fun _ => logs_bind (logs_fseek _ _) fun _ =>
      logs_ite (logs_bind (logs_emit trivial) fun _ => logs_pure _) (logs_pure _)) (logs_pure _)
  · unfold readPaddingByte
    refine logs_ite (logs_bind logs_fgetc fun b => ?_) (logs_pure _)
    split
    · exact logs_bind (logs_emit trivial) fun _ => logs_pure _
    · exact logs_ite (logs_bind (logs_emit trivial) fun _ => logs_pure _) (logs_pure _)

theorem logs_readRaw (e : Env) (id : ID) (size bp : Int) : Logs (readRawChunk e id size bp) := by
  unfold readRawChunk
  exact logs_bind (logs_fread _) fun d => logs_ite (logs_bind (logs_emit trivial) fun _ => logs_pure _)
    (logs_bind (logs_ofOut _) fun _ => logs_pure _)

theorem read_logs {e : Env} {r : Registry} : ∀ n : Nat,
    (∀ ft, Logs (readChunk e r n ft)) ∧
    (∀ ty size subs bp, Logs (readGroupSubChunks e r n ty size subs bp)) ∧
    (∀ ty size subs props bp, Logs (readListSubChunks e r n ty size subs props bp)) := by
  intro n
  induction n with
  | zero =>
    refine ⟨?_, ?_, ?_⟩
    · intro ft s a s' h; simp [readChunk] at h
    · intro ty size subs bp s a s' h; simp [readGroupSubChunks] at h
    · intro ty size subs props bp s a s' h; simp [readListSubChunks] at h
  | succ n ih =>
    obtain ⟨ihc, ihg, ihl⟩ := ih
    refine ⟨?_, ?_, ?_⟩
    · intro ft
      rw [readChunk_succ]
      refine logs_bind (by rw [readId_eq]; exact logs_readULong _ _ _) (fun x => ?_)
      split
      · exact logs_pure _
      · rename_i id
        refine logs_bind (by rw [readLong_eq]; exact logs_readULong _ _ _) (fun x => ?_)
        split
        · exact logs_pure _
        · rename_i sz
          rcases Handler.cases' (findChunkType r ft id) with hh | hh | hh | ⟨f, k, hh⟩
          · rw [hh, readBody_raw]
            exact logs_ite (logs_bind (logs_readRaw _ _ _ _) fun _ => logs_finish _ _ _ _ _)
              (logs_pure _)
          · rw [readBody_grp _ _ _ _ _ hh]
            refine logs_bind (logs_readField _ _ _ _ _ _ _) (fun x => ?_)
            obtain ⟨st, v, bp⟩ := x
            cases st
            all_goals first
              | exact logs_bind (ihg _ _ _ _) fun _ => logs_finish _ _ _ _ _
              | exact logs_finish _ _ _ _ _
          · rw [hh, readBody_lst]
            refine logs_bind (logs_readField _ _ _ _ _ _ _) (fun x => ?_)
            obtain ⟨st, v, bp⟩ := x
            cases st
            all_goals first
              | exact logs_bind (ihl _ _ _ _ _) fun _ => logs_ite (logs_finish _ _ _ _ _)
                  (logs_bind (logs_emit trivial) fun _ => logs_pure _)
              | exact logs_finish _ _ _ _ _
          · rw [hh, readBody_ext]
            exact logs_bind (logs_readExtFields _ _ _ _ _ _ _) fun _ => logs_finish _ _ _ _ _
    · intro ty size subs bp
      unfold readGroupSubChunks
      refine logs_ite (logs_bind (ihc _) fun x => ?_) (logs_ite (logs_bind (logs_emit trivial)
        fun _ => logs_pure _) (logs_pure _))
      split
      · exact logs_pure _
      · exact logs_bind (logs_ofOut _) fun _ => ihg _ _ _ _
    · intro ty size subs props bp
      unfold readListSubChunks
      refine logs_ite (logs_bind (ihc _) fun x => ?_) (logs_ite (logs_bind (logs_emit trivial)
        fun _ => logs_pure _) (logs_pure _))
      split
      · exact logs_pure _
      · exact logs_bind (logs_ofOut _) fun _ => logs_ite (ihl _ _ _ _ _) (ihl _ _ _ _ _)

end Iff
