import Verif.Proofs.ReadLoose
/-
  Termination of the reader, the undefined behaviour it can reach, and independence of the fuel.
-/
namespace Iff
open Spec

/-- Neither out of fuel nor any undefined behaviour other than signed overflow. -/
def Fine {α : Type} (o : Out α) : Prop := o ≠ .loop ∧ ∀ u, o = .ub u → u = .signedOverflow

theorem Fine.val {α : Type} (a : α) : Fine (Out.val a) := ⟨by simp, by simp⟩

theorem fine_pure {σ α : Type} (a : α) (s : σ) : Fine ((pure a : M σ α) s) := ⟨by simp, by simp⟩

theorem fine_bind {σ α β : Type} {m : M σ α} {f : α → M σ β} {s : σ} (h : Fine (m s))
    (hf : ∀ a s', m s = .val (a, s') → Fine (f a s')) : Fine ((m >>= f) s) := by
  rw [M.bind_apply]
  cases hm : m s with
  | val a => exact hf a.1 a.2 hm
  | ub u => rw [hm] at h; exact ⟨by simp, by intro v hv; cases hv; exact h.2 u rfl⟩
  | loop => rw [hm] at h; exact absurd rfl h.1

theorem fine_addInt {σ : Type} (x y : Int) (s : σ) : Fine ((M.ofOut (addInt x y) : M σ Int) s) := by
  unfold addInt; split <;> simp [Fine, M.ofOut]

theorem fine_subInt {σ : Type} (x y : Int) (s : σ) : Fine ((M.ofOut (subInt x y) : M σ Int) s) := by
  unfold subInt; split <;> simp [Fine, M.ofOut]

theorem fine_increment {σ : Type} (e : Env) (x y : Int) (s : σ) :
    Fine ((M.ofOut (incrementChunkSize e x y) : M σ Int) s) := by
  unfold incrementChunkSize addInt
  split
  · simp only [Out.val_bind]
    split
    · split <;> simp [Fine, M.ofOut]
    · simp [Fine, M.ofOut]
  · simp [Fine, M.ofOut]

theorem fine_emit (m : Msg) (s : RS) : Fine (RS.emit m s) := ⟨by simp [RS.emit], by simp [RS.emit]⟩

theorem fine_padding (size : Int) (id : ID) (s : RS) : Fine (readPaddingByte size id s) := by
  obtain ⟨b, s', h⟩ := readPaddingByte_cases size id s
  rw [h]; exact Fine.val _

theorem fine_fgetc (s : RS) : Fine (fgetc s) := by
  unfold fgetc; split <;> exact Fine.val _

theorem fine_fread (n : Nat) (s : RS) : Fine (fread n s) := Fine.val _

theorem fine_readULong (e : Env) (id : ID) (a : String) (s : RS) : Fine (readULong e id a s) := by
  obtain ⟨inp, log⟩ := s
  by_cases hl : inp.length < 4
  · rw [readULong_short _ _ _ _ hl]; exact Fine.val _
  · obtain ⟨a, b, c, d, rest, rfl⟩ := cons4_of_length (by omega : 4 ≤ inp.length)
    rw [readULong_ok]; exact Fine.val _

theorem fine_readUWord (e : Env) (id : ID) (a : String) (s : RS) : Fine (readUWord e id a s) := by
  obtain ⟨inp, log⟩ := s
  by_cases hl : inp.length < 2
  · rw [readUWord_short _ _ _ _ hl]; exact Fine.val _
  · obtain ⟨a, b, rest, rfl⟩ := cons2_of_length (by omega : 2 ≤ inp.length)
    rw [readUWord_ok]; exact Fine.val _

theorem fine_readVal (e : Env) (k : FieldKind) (id : ID) (a : String) (s : RS) :
    Fine (readVal e k id a s) := by
  cases k <;> simp only [readVal, readWord_eq, readLong_eq, readId_eq]
  case ubyte =>
    refine fine_bind ?_ (fun _ _ _ => Fine.val _)
    exact fine_bind (fine_fgetc s) (fun a s' _ => by
      cases a with
      | none => exact fine_bind (fine_emit _ _) (fun _ _ _ => Fine.val _)
      | some b => exact Fine.val _)
  case uword | word => exact fine_bind (fine_readUWord e id a s) (fun _ _ _ => Fine.val _)
  all_goals exact fine_bind (fine_readULong e id a s) (fun _ _ _ => Fine.val _)

theorem fine_readField (e : Env) (k : FieldKind) (id : ID) (size : Int) (a : String) (cur : Val)
    (bp : Int) (s : RS) : Fine (readField e k id size a cur bp s) := by
  unfold readField
  split
  · exact Fine.val _
  · exact fine_bind (fine_readVal e k id a s) (fun x s' _ => by cases x <;> exact Fine.val _)

theorem fine_readExtFields (e : Env) (id : ID) (size : Int) :
    ∀ (fields : List Field) (cur done : List Val) (bp : Int) (s : RS),
      Fine (readExtFields e id size fields cur done bp s)
  | [], _, _, _, _ => by unfold readExtFields; exact Fine.val _
  | _ :: _, [], _, _, _ => by unfold readExtFields; exact Fine.val _
  | f :: fs, v :: vs, done, bp, s => by
    unfold readExtFields
    refine fine_bind (fine_readField ..) (fun a s' _ => ?_)
    obtain ⟨st, v', bp'⟩ := a
    cases st
    · exact fine_readExtFields e id size fs vs _ _ s'
    · exact Fine.val _
    · exact Fine.val _

theorem fine_finish (e : Env) (size : Int) (ok : Bool) (c : Chunk) (bp : Int) (s : RS) :
    Fine (finishChunk e size ok c bp s) := by
  unfold finishChunk
  split
  · refine fine_bind ?_ (fun b s' _ => ?_)
    · unfold skipUnknownBytes
      split
      · refine fine_bind (fine_subInt ..) (fun n s' _ => ?_)
        refine fine_bind (by unfold fseekCur; split <;> exact Fine.val _) (fun b s' _ => ?_)
        split
        · exact fine_bind (fine_emit _ _) (fun _ _ _ => Fine.val _)
        · exact Fine.val _
      · exact Fine.val _
    · split
      · refine fine_bind (fine_padding ..) (fun b s' _ => ?_)
        split <;> exact Fine.val _
      · exact Fine.val _
  · exact Fine.val _

/-- What a chunk consumes. -/
theorem Loose.length8 {e : Env} {r : Registry} {ft : ID} {w : List Byte} {c : Chunk}
    (h : Loose e r ft w c) : 8 ≤ w.length := by
  cases h <;> simp [bytes32]

theorem readField_id_shrinks {e : Env} (he : 32 ≤ e.sizeBits) {id : ID} {size : Int} {attr : String}
    {s : RS} {v : Val} {bp : Int} {s' : RS}
    (h : readField e .id id size attr (.id 0) 0 s = .val ((.more, v, bp), s')) :
    s'.inp.length + 4 = s.inp.length := by
  rcases readField_id_inv he h with ⟨_, _, ty, _, hin⟩ | h
  · rw [hin]; simp [bytes32]
  · simp at h

/-- Termination: fuel for a quarter of the input is enough. -/
theorem read_fine {e : Env} (he : e.Sane) {r : Registry} : ∀ n : Nat,
    (∀ ft s, s.inp.length / 4 + 1 ≤ n → Fine (readChunk e r n ft s)) ∧
    (∀ ty size subs bp s, s.inp.length / 4 + 2 ≤ n →
      Fine (readGroupSubChunks e r n ty size subs bp s)) ∧
    (∀ ty size subs props bp s, s.inp.length / 4 + 2 ≤ n →
      Fine (readListSubChunks e r n ty size subs props bp s)) := by
  intro n
  induction n with
  | zero => refine ⟨?_, ?_, ?_⟩ <;> (intros; omega)
  | succ n ih =>
    obtain ⟨ihc, ihg, ihl⟩ := ih
    have step : ∀ {ty s c s'}, readChunk e r n ty s = .val (some c, s') →
        s'.inp.length + 8 ≤ s.inp.length := by
      intro ty s c s' h
      obtain ⟨w, hw, hl⟩ := (read_loose he n).1 _ _ _ _ h
      have := hl.length8
      rw [hw, List.length_append]; omega
    refine ⟨?_, ?_, ?_⟩
    · intro ft s hn
      by_cases h8 : s.inp.length < 8
      · obtain ⟨log', h⟩ := readChunk_short e r n ft s h8
        rw [h]; exact Fine.val _
      · obtain ⟨inp, log⟩ := s
        obtain ⟨id, sz, rest, rfl⟩ := split_header (by simpa using h8 : 8 ≤ inp.length)
        rw [readChunk_header]
        have hrest : rest.length / 4 + 3 ≤ n + 1 := by simp [bytes32] at hn; omega
        generalize findChunkType r ft id = hd
        rcases Handler.cases' hd with rfl | hk | rfl | ⟨fields, chk, rfl⟩
        · rw [readBody_raw]
          split
          · refine fine_bind ?_ (fun a s' _ => fine_finish ..)
            unfold readRawChunk
            refine fine_bind (fine_fread ..) (fun a s' _ => ?_)
            split
            · exact fine_bind (fine_emit _ _) (fun _ _ _ => Fine.val _)
            · exact fine_bind (fine_addInt ..) (fun _ _ _ => Fine.val _)
          · exact Fine.val _
        · rw [readBody_grp _ _ _ _ _ hk]
          refine fine_bind (fine_readField ..) (fun a s' ha => ?_)
          obtain ⟨st, v, bp⟩ := a
          cases st
          · have := readField_id_shrinks he.wide ha
            simp only at this
            exact fine_bind (ihg _ _ _ _ _ (by omega)) (fun a s' _ => fine_finish ..)
          · exact fine_finish ..
          · exact fine_finish ..
        · rw [readBody_lst]
          refine fine_bind (fine_readField ..) (fun a s' ha => ?_)
          obtain ⟨st, v, bp⟩ := a
          cases st
          · have := readField_id_shrinks he.wide ha
            simp only at this
            refine fine_bind (ihl _ _ _ _ _ _ (by omega)) (fun a s' _ => ?_)
            simp only
            split
            · exact fine_finish ..
            · exact fine_bind (fine_emit _ _) (fun _ _ _ => Fine.val _)
          · exact fine_finish ..
          · exact fine_finish ..
        · rw [readBody_ext]
          exact fine_bind (fine_readExtFields ..) (fun a s' _ => fine_finish ..)
    · intro ty size subs bp s hn
      unfold readGroupSubChunks
      split
      · refine fine_bind (ihc _ _ (by omega)) (fun a s' ha => ?_)
        cases a with
        | none => exact Fine.val _
        | some c =>
          have := step ha
          exact fine_bind (fine_increment ..) (fun b s'' hb => by
            have : s'' = s' := by
              revert hb; unfold M.ofOut; split <;> simp
              intro _ h; exact h.symm
            subst this
            exact ihg _ _ _ _ _ (by omega))
      · split
        · exact fine_bind (fine_emit _ _) (fun _ _ _ => Fine.val _)
        · exact Fine.val _
    · intro ty size subs props bp s hn
      unfold readListSubChunks
      split
      · refine fine_bind (ihc _ _ (by omega)) (fun a s' ha => ?_)
        cases a with
        | none => exact Fine.val _
        | some c =>
          have := step ha
          exact fine_bind (fine_increment ..) (fun b s'' hb => by
            have : s'' = s' := by
              revert hb; unfold M.ofOut; split <;> simp
              intro _ h; exact h.symm
            subst this
            split <;> exact ihl _ _ _ _ _ _ (by omega))
      · split
        · exact fine_bind (fine_emit _ _) (fun _ _ _ => Fine.val _)
        · exact Fine.val _

/-! ### Fuel independence -/

/-- `y` is what `x` is, unless `x` ran out of fuel. -/
def Refines {α : Type} (x y : Out α) : Prop := x ≠ .loop → y = x

theorem Refines.refl {α : Type} (x : Out α) : Refines x x := fun _ => rfl

theorem refines_bind {σ α β : Type} {m m' : M σ α} {f f' : α → M σ β} {s : σ}
    (h : Refines (m s) (m' s)) (hf : ∀ a s', Refines (f a s') (f' a s')) :
    Refines ((m >>= f) s) ((m' >>= f') s) := by
  intro hne
  rw [M.bind_apply] at hne ⊢
  rw [M.bind_apply]
  cases hm : m s with
  | val a =>
    rw [hm] at h hne
    rw [h (by simp)]
    exact hf _ _ hne
  | ub u => rw [hm] at h; rw [h (by simp)]
  | loop => rw [hm] at hne; exact absurd rfl hne

theorem read_mono {e : Env} {r : Registry} : ∀ n : Nat,
    (∀ ft s, Refines (readChunk e r n ft s) (readChunk e r (n + 1) ft s)) ∧
    (∀ ty size subs bp s, Refines (readGroupSubChunks e r n ty size subs bp s)
      (readGroupSubChunks e r (n + 1) ty size subs bp s)) ∧
    (∀ ty size subs props bp s, Refines (readListSubChunks e r n ty size subs props bp s)
      (readListSubChunks e r (n + 1) ty size subs props bp s)) := by
  intro n
  induction n with
  | zero =>
    refine ⟨?_, ?_, ?_⟩
    · intro ft s h; simp [readChunk] at h
    · intro ty size subs bp s h; simp [readGroupSubChunks] at h
    · intro ty size subs props bp s h; simp [readListSubChunks] at h
  | succ n ih =>
    obtain ⟨ihc, ihg, ihl⟩ := ih
    refine ⟨?_, ?_, ?_⟩
    · intro ft s
      rw [readChunk_succ, readChunk_succ]
      refine refines_bind (Refines.refl _) (fun a s' => ?_)
      cases a with
      | none => exact Refines.refl _
      | some id =>
        refine refines_bind (Refines.refl _) (fun a s' => ?_)
        cases a with
        | none => exact Refines.refl _
        | some sz =>
          show Refines (readBody e r n (findChunkType r ft id) id sz.toInt s')
            (readBody e r (n + 1) (findChunkType r ft id) id sz.toInt s')
          generalize findChunkType r ft id = hd
          rcases Handler.cases' hd with rfl | hk | rfl | ⟨fields, chk, rfl⟩
          · rw [readBody_raw, readBody_raw]; exact Refines.refl _
          · rw [readBody_grp _ _ _ _ _ hk, readBody_grp _ _ _ _ _ hk]
            refine refines_bind (Refines.refl _) (fun a s' => ?_)
            obtain ⟨st, v, bp⟩ := a
            cases st
            · exact refines_bind (ihg _ _ _ _ _) (fun a s' => Refines.refl _)
            · exact Refines.refl _
            · exact Refines.refl _
          · rw [readBody_lst, readBody_lst]
            refine refines_bind (Refines.refl _) (fun a s' => ?_)
            obtain ⟨st, v, bp⟩ := a
            cases st
            · exact refines_bind (ihl _ _ _ _ _ _) (fun a s' => Refines.refl _)
            · exact Refines.refl _
            · exact Refines.refl _
          · rw [readBody_ext, readBody_ext]; exact Refines.refl _
    · intro ty size subs bp s
      rw [readGroupSubChunks, readGroupSubChunks]
      split
      · refine refines_bind (ihc _ _) (fun a s' => ?_)
        cases a with
        | none => exact Refines.refl _
        | some c => exact refines_bind (Refines.refl _) (fun a s' => ihg _ _ _ _ _)
      · exact Refines.refl _
    · intro ty size subs props bp s
      rw [readListSubChunks, readListSubChunks]
      split
      · refine refines_bind (ihc _ _) (fun a s' => ?_)
        cases a with
        | none => exact Refines.refl _
        | some c =>
          refine refines_bind (Refines.refl _) (fun a s' => ?_)
          split
          · exact ihl _ _ _ _ _ _
          · exact ihl _ _ _ _ _ _
      · exact Refines.refl _

/-- With enough fuel, the amount does not matter. -/
theorem readChunk_fuel {e : Env} (he : e.Sane) {r : Registry} {ft : ID} {s : RS} {n m : Nat}
    (hn : s.inp.length / 4 + 1 ≤ n) (hm : s.inp.length / 4 + 1 ≤ m) :
    readChunk e r n ft s = readChunk e r m ft s := by
  have key : ∀ k, readChunk e r (s.inp.length / 4 + 1 + k) ft s =
      readChunk e r (s.inp.length / 4 + 1) ft s := by
    intro k
    induction k with
    | zero => rfl
    | succ k ih =>
      rw [← ih]
      exact (read_mono (s.inp.length / 4 + 1 + k)).1 ft s
        ((read_fine he (s.inp.length / 4 + 1 + k)).1 ft s (by omega)).1
  obtain ⟨a, rfl⟩ : ∃ a, n = s.inp.length / 4 + 1 + a := ⟨n - (s.inp.length / 4 + 1), by omega⟩
  obtain ⟨b, rfl⟩ : ∃ b, m = s.inp.length / 4 + 1 + b := ⟨m - (s.inp.length / 4 + 1), by omega⟩
  rw [key, key]

end Iff
