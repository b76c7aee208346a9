import Verif.Spec.Diagnostics
import Verif.Proofs.ReadFd
import Verif.Model.Check
import Verif.Model.Write
/-
  What the diagnostics of the library can mention, for the default registry.
-/
namespace Iff
open Spec

/-- A diagnostic of the library, with a clean text. -/
def Fair (e : Env) (m : Msg) : Prop := Clean e m ∧ m ≠ .app

theorem fair_of {e : Env} {m : Msg} (h1 : mentioned m = none) (h2 : ∀ c, m ≠ .illegalChar c)
    (h3 : m ≠ .app) : Fair e m :=
  ⟨⟨fun s h => by rw [h1] at h; simp at h, fun c h => absurd h (h2 c)⟩, h3⟩

local macro "fair" : term => `(fair_of rfl (by simp) (by simp))

/-- An attribute name without line breaks. -/
def Attr (a : String) : Prop := (10 : UInt8) ∉ a.toByteArray.data.toList

theorem fair_attr {e : Env} {m : Msg} {a : String} (ha : Attr a) (h1 : mentioned m = some a)
    (h2 : ∀ c, m ≠ .illegalChar c) (h3 : m ≠ .app) : Fair e m :=
  ⟨⟨fun s h => by rw [h1] at h; simp only [Option.some.injEq] at h; exact h ▸ ha,
    fun c h => absurd h (h2 c)⟩, h3⟩

theorem fair_char {e : Env} (b : Byte) : Fair e (.illegalChar (charVal e b)) :=
  ⟨⟨fun s h => by simp [mentioned] at h, fun c h => ⟨b, by simpa using h.symm⟩⟩, by simp⟩

theorem attr_empty : Attr "" := by unfold Attr; decide +kernel
theorem attr_size : Attr "chunkSize" := by unfold Attr; decide +kernel
theorem attr_id : Attr "chunkId" := by unfold Attr; decide +kernel
theorem attr_contents : Attr "contentsType" := by unfold Attr; decide +kernel
theorem attr_form : Attr "formType" := by unfold Attr; decide +kernel

/-- `m` only adds such diagnostics to the log. -/
def Notes {σ α : Type} (lg : σ → List Msg) (P : Msg → Prop) (m : M σ α) : Prop :=
  ∀ s a s', m s = .val (a, s') → ∃ l, lg s' = lg s ++ l ∧ ∀ x ∈ l, P x

section
variable {σ α β : Type} {lg : σ → List Msg} {P : Msg → Prop}

theorem notes_pure (a : α) : Notes lg P (pure a) := by
  intro s b s' h
  simp at h
  obtain ⟨_, rfl⟩ := h
  exact ⟨[], by simp, by simp⟩

theorem notes_ub (u : UB) : Notes lg P (M.ub u : M σ α) := by
  intro s b s' h; simp at h

theorem notes_ofOut (o : Out α) : Notes lg P (M.ofOut o) := by
  intro s b s' h
  cases o with
  | val a => simp at h; obtain ⟨_, rfl⟩ := h; exact ⟨[], by simp, by simp⟩
  | ub u => simp at h
  | loop => simp [M.ofOut] at h

theorem notes_bind {m : M σ α} {f : α → M σ β} (hm : Notes lg P m) (hf : ∀ a, Notes lg P (f a)) :
    Notes lg P (m >>= f) := by
  intro s b s' h
  rw [M.bind_apply] at h
  cases hx : m s with
  | ub u => simp [hx] at h
  | loop => simp [hx] at h
  | val x =>
    obtain ⟨a, s1⟩ := x
    rw [hx] at h
    obtain ⟨l1, h1, h2⟩ := hm _ _ _ hx
    obtain ⟨l2, h3, h4⟩ := hf a _ _ _ h
    refine ⟨l1 ++ l2, by rw [h3, h1]; simp, ?_⟩
    intro x hx
    rcases List.mem_append.mp hx with hx | hx
    · exact h2 x hx
    · exact h4 x hx

theorem notes_ite {p : Prop} [Decidable p] {a b : M σ α} (ha : Notes lg P a) (hb : Notes lg P b) :
    Notes lg P (if p then a else b) := by split <;> assumption

end

/-! ### Reading -/

theorem notesR_emit {e : Env} {m : Msg} (hm : Fair e m) : Notes RS.log (Fair e) (RS.emit m) := by
  intro s b s' h
  simp [RS.emit] at h
  subst h
  exact ⟨[m], rfl, by simpa using hm⟩

theorem notesR_fread {e : Env} (n : Nat) : Notes RS.log (Fair e) (fread n) := by
  intro s b s' h; simp [fread] at h; obtain ⟨_, rfl⟩ := h; exact ⟨[], by simp, by simp⟩

theorem notesR_fgetc {e : Env} : Notes RS.log (Fair e) fgetc := by
  intro s b s' h
  unfold fgetc at h
  split at h <;> (simp at h; obtain ⟨_, rfl⟩ := h; exact ⟨[], by simp, by simp⟩)

theorem notesR_fseek (e : Env) (n : Nat) : Notes RS.log (Fair e) (fseekCur e n) := by
  intro s b s' h
  unfold fseekCur at h
  split at h <;> (simp at h; obtain ⟨_, rfl⟩ := h; exact ⟨[], by simp, by simp⟩)

theorem notesR_readULong (e : Env) (id : ID) (a : String) (ha : Attr a) : Notes RS.log (Fair e) (readULong e id a) := by
  refine notes_bind (notesR_fread _) (fun l => ?_)
  split
  · exact notes_pure _
  · exact notes_bind (notesR_emit (fair_attr ha rfl (by simp) (by simp))) (fun _ => notes_pure _)

theorem notesR_readUWord (e : Env) (id : ID) (a : String) (ha : Attr a) : Notes RS.log (Fair e) (readUWord e id a) := by
  refine notes_bind (notesR_fread _) (fun l => ?_)
  split
  · exact notes_pure _
  · exact notes_bind (notesR_emit (fair_attr ha rfl (by simp) (by simp))) (fun _ => notes_pure _)

theorem notesR_readUByte {e : Env} (id : ID) (a : String) (ha : Attr a) : Notes RS.log (Fair e) (readUByte id a) := by
  refine notes_bind notesR_fgetc (fun l => ?_)
  split
  · exact notes_bind (notesR_emit (fair_attr ha rfl (by simp) (by simp))) (fun _ => notes_pure _)
  · exact notes_pure _

theorem notesR_readVal (e : Env) (k : FieldKind) (id : ID) (a : String) (ha : Attr a) : Notes RS.log (Fair e) (readVal e k id a) := by
  cases k <;> simp only [readVal, readWord_eq, readLong_eq, readId_eq]
  · exact notes_bind (notesR_readUByte _ _ ha) (fun _ => notes_pure _)
  · exact notes_bind (notesR_readUWord _ _ _ ha) (fun _ => notes_pure _)
  · exact notes_bind (notesR_readUWord _ _ _ ha) (fun _ => notes_pure _)
  all_goals exact notes_bind (notesR_readULong _ _ _ ha) (fun _ => notes_pure _)

theorem notesR_readField (e : Env) (k : FieldKind) (id : ID) (size : Int) (a : String) (ha : Attr a)
    (v : Val) (bp : Int) : Notes RS.log (Fair e) (readField e k id size a v bp) := by
  unfold readField
  refine notes_ite (notes_pure _) (notes_bind (notesR_readVal _ _ _ _ ha) (fun x => ?_))
  split
  all_goals first
    | exact notes_pure _
    | exact notes_bind (notes_ofOut _) (fun _ => notes_pure _)

theorem notesR_finish (e : Env) (size : Int) (ok : Bool) (c : Chunk) (bp : Int) :
    Notes RS.log (Fair e) (finishChunk e size ok c bp) := by
  unfold finishChunk
  refine notes_ite (notes_bind ?_ fun b => notes_ite (notes_bind ?_ fun b => notes_ite (notes_pure _)
    (notes_pure _)) (notes_pure _)) (notes_pure _)
  · unfold skipUnknownBytes
    exact notes_ite (notes_bind (notes_ofOut _) fun _ => notes_bind (notesR_fseek _ _) fun _ =>
      notes_ite (notes_bind (notesR_emit fair) fun _ => notes_pure _) (notes_pure _)) (notes_pure _)
  · unfold readPaddingByte
    refine notes_ite (notes_bind notesR_fgetc fun b => ?_) (notes_pure _)
    split
    · exact notes_bind (notesR_emit fair) fun _ => notes_pure _
    · exact notes_ite (notes_bind (notesR_emit fair) fun _ => notes_pure _) (notes_pure _)

theorem notesR_readRaw (e : Env) (id : ID) (size bp : Int) : Notes RS.log (Fair e) (readRawChunk e id size bp) := by
  unfold readRawChunk
  exact notes_bind (notesR_fread _) fun d => notes_ite (notes_bind (notesR_emit fair) fun _ => notes_pure _)
    (notes_bind (notes_ofOut _) fun _ => notes_pure _)

theorem notesR_chunk {e : Env} : ∀ n : Nat,
    (∀ ft, Notes RS.log (Fair e) (readChunk e defaultRegistry n ft)) ∧
    (∀ ty size subs bp, Notes RS.log (Fair e) (readGroupSubChunks e defaultRegistry n ty size subs bp)) ∧
    (∀ ty size subs props bp, Notes RS.log (Fair e) (readListSubChunks e defaultRegistry n ty size subs props bp)) := by
  intro n
  induction n with
  | zero =>
    refine ⟨?_, ?_, ?_⟩
    · intro ft s a s' h; simp [readChunk] at h
    · intro ty size subs bp s a s' h; simp [readGroupSubChunks] at h
    · intro ty size subs props bp s a s' h; simp [readListSubChunks] at h
  | succ n ih =>
    obtain ⟨ihc, ihg, ihl⟩ := ih
    refine ⟨?_, ?_, ?_⟩
    · intro ft
      rw [readChunk_succ]
      refine notes_bind (by rw [readId_eq]; exact notesR_readULong _ _ _ attr_empty) (fun x => ?_)
      split
      · exact notes_pure _
      · rename_i id
        refine notes_bind (by rw [readLong_eq]; exact notesR_readULong _ _ _ attr_size) (fun x => ?_)
        split
        · exact notes_pure _
        · rename_i sz
          rcases Handler.cases' (findChunkType defaultRegistry ft id) with hh | hh | hh | ⟨f, k, hh⟩
          · rw [hh, readBody_raw]
            exact notes_ite (notes_bind (notesR_readRaw _ _ _ _) fun _ => notesR_finish _ _ _ _ _)
              (notes_pure _)
          · rw [readBody_grp _ _ _ _ _ hh]
            refine notes_bind (notesR_readField _ _ _ _ _ (by
              split
              · exact attr_contents
              · exact attr_form) _ _) (fun x => ?_)
            obtain ⟨st, v, bp⟩ := x
            cases st
            all_goals first
              | exact notes_bind (ihg _ _ _ _) fun _ => notesR_finish _ _ _ _ _
              | exact notesR_finish _ _ _ _ _
          · rw [hh, readBody_lst]
            refine notes_bind (notesR_readField _ _ _ _ _ attr_contents _ _) (fun x => ?_)
            obtain ⟨st, v, bp⟩ := x
            cases st
            all_goals first
              | exact notes_bind (ihl _ _ _ _ _) fun _ => notes_ite (notesR_finish _ _ _ _ _)
                  (notes_bind (notesR_emit fair) fun _ => notes_pure _)
              | exact notesR_finish _ _ _ _ _
          · exact absurd hh (noExt_default _ _ _ _)
    · intro ty size subs bp
      unfold readGroupSubChunks
      refine notes_ite (notes_bind (ihc _) fun x => ?_) (notes_ite (notes_bind (notesR_emit fair)
        fun _ => notes_pure _) (notes_pure _))
      split
      · exact notes_pure _
      · exact notes_bind (notes_ofOut _) fun _ => ihg _ _ _ _
    · intro ty size subs props bp
      unfold readListSubChunks
      refine notes_ite (notes_bind (ihc _) fun x => ?_) (notes_ite (notes_bind (notesR_emit fair)
        fun _ => notes_pure _) (notes_pure _))
      split
      · exact notes_pure _
      · exact notes_bind (notes_ofOut _) fun _ => notes_ite (ihl _ _ _ _ _) (ihl _ _ _ _ _)


theorem notesR_fd (e : Env) : Notes RS.log (Fair e) (readFd e none) := by
  intro s a s' h
  unfold readFd at h
  have : Notes RS.log (Fair e) (do
    match ← readChunk e (selectChunkRegistry none) (s.inp.length + 4) 0 with
    | none => RS.emit .mainChunk; pure none
    | some c =>
      match ← fgetc with
      | some b => RS.emit (.trailing b.toNat); pure (some c)
      | none => pure (some c) : M RS (Option Chunk)) := by
    refine notes_bind ((notesR_chunk _).1 _) fun x => ?_
    split
    · exact notes_bind (notesR_emit fair) fun _ => notes_pure _
    · refine notes_bind notesR_fgetc fun b => ?_
      split
      · exact notes_bind (notesR_emit fair) fun _ => notes_pure _
      · exact notes_pure _
  exact this _ _ _ h

/-! ### Writing -/

theorem notesW_emit {e : Env} {m : Msg} (hm : Fair e m) : Notes WS.log (Fair e) (WS.emit m) := by
  intro s b s' h
  simp [WS.emit] at h
  subst h
  exact ⟨[m], rfl, by simpa using hm⟩

theorem notesW_fwrite {e : Env} (bs : List Byte) : Notes WS.log (Fair e) (fwrite bs) := by
  intro s b s' h; simp [fwrite] at h; obtain ⟨_, rfl⟩ := h; exact ⟨[], by simp, by simp⟩

theorem notesW_put {e : Env} {bs : List Byte} {n : Nat} {m : Msg} (hm : Fair e m) :
    Notes WS.log (Fair e) (do if (← fwrite bs) = n then pure true else WS.emit m; pure false) :=
  notes_bind (notesW_fwrite _) fun _ => notes_ite (notes_pure _)
    (notes_bind (notesW_emit hm) fun _ => notes_pure _)

theorem notesW_val (e : Env) (v : Val) (id : ID) (a : String) (ha : Attr a) :
    Notes WS.log (Fair e) (writeVal e v id a) := by
  cases v <;> exact notesW_put (fair_attr ha rfl (by simp) (by simp))

theorem notesW_field (e : Env) (v : Val) (id : ID) (size : Int) (a : String) (ha : Attr a) (bp : Int) :
    Notes WS.log (Fair e) (writeField e v id size a bp) := by
  unfold writeField
  exact notes_ite (notes_pure _) (notes_bind (notesW_val _ _ _ _ ha) fun _ =>
    notes_ite (notes_pure _) (notes_pure _))

theorem notesW_raw (e : Env) (id : ID) (size : Int) (data : List Byte) (bp : Int) :
    Notes WS.log (Fair e) (writeRawChunk e id size data bp) := by
  unfold writeRawChunk
  exact notes_ite (notes_bind (notesW_fwrite _) fun _ => notes_ite (notes_bind (notesW_emit fair)
    fun _ => notes_pure _) (notes_bind (notes_ofOut _) fun _ => notes_pure _)) (notes_ub _)

theorem notesW_with (e : Env) (c : Chunk) {fields : M WS (Bool × Int)} (h : Notes WS.log (Fair e) fields) :
    Notes WS.log (Fair e) (writeChunkWith e c fields) := by
  unfold writeChunkWith
  refine notes_bind (notesW_put (fair_attr attr_id rfl (by simp) (by simp))) fun _ => notes_ite
    (notes_bind (notesW_put (fair_attr attr_size rfl (by simp) (by simp))) fun _ => notes_ite
      (notes_bind h fun _ => notes_ite (notes_bind ?_ fun _ => notes_ite ?_ (notes_pure _)) (notes_pure _))
      (notes_pure _)) (notes_pure _)
  · unfold writeZeroFillerBytes
    exact notes_ite (notes_bind (notes_ofOut _) fun _ => notesW_put fair) (notes_pure _)
  · unfold writePaddingByte
    exact notes_ite (notesW_put fair) (notes_pure _)

theorem notesW_group (e : Env) (id : ID) (size : Int) (ty : ID) (a : String) (ha : Attr a)
    {subs : Int → M WS (Bool × Int)} (h : ∀ bp, Notes WS.log (Fair e) (subs bp)) (bp : Int) :
    Notes WS.log (Fair e) (writeGroupWith e id size ty a subs bp) := by
  unfold writeGroupWith
  refine notes_bind (notesW_field _ _ _ _ _ ha _) ?_
  rintro ⟨st, bp'⟩
  cases st with
  | more => exact h bp'
  | last => exact notes_pure _
  | failure => exact notes_pure _

mutual

theorem notesW_fields (e : Env) (r : Registry) (hr : NoExt r) (h : Handler)
    (hh : ∀ f k, h ≠ .ext f k) : ∀ c : Chunk, Notes WS.log (Fair e) (writeFields e r h c)
  | .raw id size data => by
    cases h <;> simp only [writeFields] <;> first | exact notes_ub _ | exact notesW_raw _ _ _ _ _
  | .ext id size vals => by
    cases h <;> simp only [writeFields]
    case ext f k => exact absurd rfl (hh f k)
    all_goals exact notes_ub _
  | .grp id size ty subs => by
    cases h <;> simp only [writeFields]
    all_goals first
      | exact notes_ub _
      | exact notesW_group _ _ _ _ _ attr_form (notesW_subs e r hr ty subs) _
      | exact notesW_group _ _ _ _ _ attr_contents (notesW_subs e r hr ty subs) _
  | .lst id size ty subs props => by
    cases h <;> simp only [writeFields]
    all_goals first
      | exact notes_ub _
      | exact notesW_group _ _ _ _ _ attr_form (notesW_subs e r hr ty subs) _
      | exact notesW_group _ _ _ _ _ attr_contents (notesW_subs e r hr ty subs) _
      | exact notesW_group _ _ _ _ _ attr_contents (fun bp => notes_bind (notesW_props e r hr props bp)
          fun x => notes_ite (notesW_subs e r hr ty subs _) (notes_pure _)) _

theorem notesW_subs (e : Env) (r : Registry) (hr : NoExt r) (ty : ID) : ∀ (cs : List Chunk) (bp : Int),
    Notes WS.log (Fair e) (writeGroupSubChunks e r ty cs bp)
  | [], bp => by simp only [writeGroupSubChunks]; exact notes_pure _
  | c :: cs, bp => by
    simp only [writeGroupSubChunks]
    exact notes_bind (notesW_with e c (notesW_fields e r hr _ (hr _ _) c)) fun _ => notes_ite
      (notes_bind (notes_ofOut _) fun b => notesW_subs e r hr ty cs b)
      (notes_bind (notesW_emit fair) fun _ => notes_pure _)

theorem notesW_props (e : Env) (r : Registry) (hr : NoExt r) : ∀ (cs : List Chunk) (bp : Int),
    Notes WS.log (Fair e) (writeListPropChunks e r cs bp)
  | [], bp => by simp only [writeListPropChunks]; exact notes_pure _
  | c :: cs, bp => by
    simp only [writeListPropChunks]
    exact notes_bind (notesW_with e c (notesW_fields e r hr _ (hr _ _) c)) fun _ => notes_ite
      (notes_bind (notes_ofOut _) fun b => notesW_props e r hr cs b)
      (notes_bind (notesW_emit fair) fun _ => notes_pure _)

end

theorem notesW_fd (e : Env) (c : Chunk) : Notes WS.log (Fair e) (writeFd e none c) :=
  notesW_with e c (notesW_fields e _ noExt_default _ (noExt_default _ _) c)

/-! ### Checking -/

/-- A diagnostic with a clean text. -/
def Plain (e : Env) (m : Msg) : Prop := Fair e m ∧ Regular m

/-- The log of the checker is its state. -/
def logOf (l : List Msg) : List Msg := l

theorem notesC_emit {e : Env} {m : Msg} (hm : Plain e m) : Notes logOf (Plain e) (emit m) := by
  intro s b s' h
  simp [emit] at h
  subst h
  exact ⟨[m], rfl, by simpa using hm⟩

theorem notesC_say {e : Env} {m : Msg} (hm : Plain e m) : Notes logOf (Plain e) (do emit m; pure false : M (List Msg) Bool) :=
  notes_bind (notesC_emit hm) fun _ => notes_pure _

theorem notesC_checkId (e : Env) (id : ID) : Notes logOf (Plain e) (checkId e id) := by
  have h : ∀ bs, Notes logOf (Plain e) (checkIdChars e bs) := by
    intro bs
    induction bs with
    | nil => exact notes_pure _
    | cons b bs ih => exact notes_ite (notesC_say ⟨fair_char b, trivial⟩) ih
  unfold checkId
  exact notes_bind (h _) fun _ => notes_ite (notes_ite (notesC_say ⟨fair, trivial⟩) (notes_pure _)) (notes_pure _)

theorem notesC_checkFormType (e : Env) (id : ID) : Notes logOf (Plain e) (checkFormType e id) := by
  have h : ∀ bs, Notes logOf (Plain e) (checkFormTypeChars e bs) := by
    intro bs
    induction bs with
    | nil => exact notes_pure _
    | cons b bs ih => exact notes_ite (notesC_say ⟨fair, trivial⟩) ih
  unfold checkFormType
  exact notes_bind (notesC_checkId _ _) fun _ => notes_ite (notes_bind (h _) fun _ => notes_ite
    (notes_ite (notesC_say ⟨fair, trivial⟩) (notes_pure _)) (notes_pure _)) (notes_pure _)

theorem notesC_size {e : Env} (id : ID) (a b : Int) : Notes logOf (Plain e) (checkGroupChunkSize id a b) :=
  notes_ite (notes_pure _) (notesC_say ⟨fair, trivial⟩)

theorem notesC_catSub {e : Env} (ty : ID) (c : Chunk) : Notes logOf (Plain e) (catSubChunkCheck ty c) :=
  notes_ite (notes_ite (notes_ite (notes_bind (notes_ofOut _) fun _ =>
    notes_ite (notesC_say ⟨fair, trivial⟩) (notes_pure _)) (notes_pure _)) (notes_pure _)) (notesC_say ⟨fair, trivial⟩)

theorem notesC_with (e : Env) (c : Chunk) {m : M (List Msg) Bool} (h : Notes logOf (Plain e) m) :
    Notes logOf (Plain e) (checkChunkWith e c m) :=
  notes_bind (notesC_checkId _ _) fun _ => notes_ite h (notes_pure _)

theorem notesC_group {e : Env} {id : ID} {size : Int} {t : M (List Msg) Bool} {subs : M (List Msg) Int}
    (ht : Notes logOf (Plain e) t) (hs : Notes logOf (Plain e) subs) : Notes logOf (Plain e) (checkGroupWith id size t subs) :=
  notes_bind ht fun _ => notes_ite (notes_bind hs fun _ => notes_ite (notes_pure _)
    (notes_bind (notes_ofOut _) fun _ => notesC_size _ _ _)) (notes_pure _)

theorem notesC_subs {e : Env} {r : Registry} {ty : ID} {sub : Chunk → M (List Msg) Bool}
    (hr : NoExt r) (hsub : ∀ c, Notes logOf (Plain e) (sub c)) : ∀ {cs : List Chunk},
    (∀ c ∈ cs, ∀ h, (∀ f k, h ≠ .ext f k) → Notes logOf (Plain e) (checkFields e r h c)) →
      ∀ acc, Notes logOf (Plain e) (checkGroupSubChunks e r ty sub cs acc)
  | [], _, acc => notes_pure _
  | c :: cs, h, acc => by
    rw [checkGroupSubChunks]
    refine notes_bind (hsub c) fun _ => notes_ite (notes_bind
      (notesC_with _ _ (h c List.mem_cons_self _ (hr _ _))) fun _ => notes_ite (notes_bind (notes_ofOut _)
        fun _ => ?_) (notes_pure _)) (notes_pure _)
    exact notesC_subs hr hsub (fun d hd => h d (List.mem_cons_of_mem _ hd)) _

theorem notesC_props {e : Env} {r : Registry} (hr : NoExt r) {ty : ID} : ∀ {cs : List Chunk},
    (∀ c ∈ cs, ∀ h, (∀ f k, h ≠ .ext f k) → Notes logOf (Plain e) (checkFields e r h c)) →
      ∀ acc, Notes logOf (Plain e) (checkListPropChunks e r ty cs acc)
  | [], _, acc => notes_pure _
  | c :: cs, h, acc => by
    rw [checkListPropChunks]
    refine notes_bind
      (notesC_with _ _ (h c List.mem_cons_self _ (hr _ _))) fun _ => notes_ite (notes_bind (notes_ofOut _)
        fun _ => ?_) (notes_pure _)
    exact notesC_props hr (fun d hd => h d (List.mem_cons_of_mem _ hd)) _

theorem notesC_fields (e : Env) (r : Registry) (hr : NoExt r) (c : Chunk) :
    ∀ h, (∀ f k, h ≠ .ext f k) → Notes logOf (Plain e) (checkFields e r h c) := by
  have form : ∀ c, Notes logOf (Plain e) (formSubChunkCheck c) := fun c => notes_ite (notesC_say ⟨fair, trivial⟩) (notes_pure _)
  have prop : ∀ c, Notes logOf (Plain e) (propSubChunkCheck c) := fun c => notes_ite (notesC_say ⟨fair, trivial⟩) (notes_pure _)
  induction c using Chunk.ind with
  | raw id size data => intro h hx; cases h <;> simp only [checkFields] <;> first | exact notes_pure _ | exact notes_ub _
  | ext id size vals =>
    intro h hx
    cases h <;> simp only [checkFields]
    case ext f k => exact absurd rfl (hx f k)
    all_goals first | exact notes_pure _ | exact notes_ub _
  | grp id size ty subs ih =>
    intro h hx
    cases h <;> simp only [checkFields]
    case form => exact notesC_group (notesC_checkFormType _ _) (notesC_subs hr form ih _)
    case cat => exact notesC_group (notesC_checkId _ _) (notesC_subs hr (notesC_catSub _) ih _)
    case prop => exact notesC_group (notesC_checkFormType _ _) (notesC_subs hr prop ih _)
    all_goals first | exact notes_pure _ | exact notes_ub _
  | lst id size ty subs props ih ihp =>
    intro h hx
    cases h <;> simp only [checkFields]
    case form => exact notesC_group (notesC_checkFormType _ _) (notesC_subs hr form ih _)
    case cat => exact notesC_group (notesC_checkId _ _) (notesC_subs hr (notesC_catSub _) ih _)
    case prop => exact notesC_group (notesC_checkFormType _ _) (notesC_subs hr prop ih _)
    case list =>
      refine notes_bind (notesC_checkId _ _) fun _ => notes_ite (notes_bind (notesC_props hr ihp _)
        fun _ => notes_ite (notes_pure _) ?_) (notes_pure _)
      refine notes_bind (notes_ofOut _) fun _ => notes_bind (notesC_subs hr (notesC_catSub _) ih _)
        fun _ => notes_ite (notes_pure _) ?_
      exact notes_bind (notes_ofOut _) fun _ => notesC_size _ _ _
    all_goals first | exact notes_pure _ | exact notes_ub _

theorem notesC_check (e : Env) (c : Chunk) : Notes logOf (Plain e) (check e none c) :=
  notes_ite (notesC_say ⟨fair, trivial⟩) (notesC_with _ _ (notesC_fields _ _ noExt_default _ _ (noExt_default _ _)))

end Iff
