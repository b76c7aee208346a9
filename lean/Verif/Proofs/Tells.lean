import Verif.Model.Check
import Verif.Model.Write
import Verif.Proofs.Arith
/-
  A predicate transformer for "fails iff it says so": the writers and the checkers.
-/
namespace Iff

/-- `m` adds nothing to the log when its result is good, and something when it is not. -/
def Tells {σ α : Type} (lg : σ → List Msg) (good : α → Prop) (m : M σ α) : Prop :=
  ∀ s a s', m s = .val (a, s') → ∃ notes, lg s' = lg s ++ notes ∧ (good a ↔ notes = [])

/-- `m` only adds to the log, and its result is bad. -/
def Refuses {σ α : Type} (lg : σ → List Msg) (good : α → Prop) (m : M σ α) : Prop :=
  ∀ s a s', m s = .val (a, s') → ∃ notes, lg s' = lg s ++ notes ∧ ¬ good a

section
variable {σ α β : Type} {lg : σ → List Msg}

theorem tells_pure {good : α → Prop} {a : α} (h : good a) : Tells lg good (pure a) := by
  intro s b s' hb
  simp at hb
  obtain ⟨rfl, rfl⟩ := hb
  exact ⟨[], by simp, by simp [h]⟩

theorem refuses_pure {good : α → Prop} {a : α} (h : ¬ good a) : Refuses lg good (pure a) := by
  intro s b s' hb
  simp at hb
  obtain ⟨rfl, rfl⟩ := hb
  exact ⟨[], by simp, h⟩

theorem tells_ub {good : α → Prop} {u : UB} : Tells lg good (M.ub u) := by
  intro s b s' hb; simp at hb

theorem tells_ofOut (o : Out α) : Tells lg (fun _ => True) (M.ofOut o) := by
  intro s b s' hb
  cases o with
  | val a => simp at hb; obtain ⟨_, rfl⟩ := hb; exact ⟨[], by simp, by simp⟩
  | ub u => simp at hb
  | loop => simp [M.ofOut] at hb

theorem tells_bind {gm : α → Prop} {good : β → Prop} {m : M σ α} {f : α → M σ β}
    (hm : Tells lg gm m) (hf : ∀ a, gm a → Tells lg good (f a))
    (hf' : ∀ a, ¬ gm a → Refuses lg good (f a)) : Tells lg good (m >>= f) := by
  intro s b s' h
  rw [M.bind_apply] at h
  split at h
  · rename_i a s1 h1
    obtain ⟨n1, e1, g1⟩ := hm _ _ _ h1
    by_cases hg : gm a
    · obtain ⟨n2, e2, g2⟩ := hf a hg _ _ _ h
      obtain rfl := g1.mp hg
      exact ⟨n2, by simp [e2, e1], g2⟩
    · obtain ⟨n2, e2, g2⟩ := hf' a hg _ _ _ h
      refine ⟨n1 ++ n2, by simp [e2, e1], iff_of_false g2 fun hn => ?_⟩
      exact hg (g1.mpr (List.append_eq_nil_iff.mp hn).1)
  · simp at h
  · simp at h

/-- `tells_bind` for a first part that never adds to the log. -/
theorem tells_then {good : β → Prop} {m : M σ α} {f : α → M σ β}
    (hm : Tells lg (fun _ => True) m) (hf : ∀ a, Tells lg good (f a)) : Tells lg good (m >>= f) :=
  tells_bind hm (fun a _ => hf a) (fun _ h => absurd trivial h)

/-- `if (m) a else b`. -/
theorem tells_if {good : β → Prop} {m : M σ Bool} {a b : M σ β} (hm : Tells lg (· = true) m)
    (ha : Tells lg good a) (hb : Refuses lg good b) :
    Tells lg good (m >>= fun x => if x = true then a else b) :=
  tells_bind hm (fun x hx => by rw [if_pos hx]; exact ha) (fun x hx => by rw [if_neg hx]; exact hb)

theorem tells_ite {good : α → Prop} {p : Prop} [Decidable p] {a b : M σ α}
    (ha : p → Tells lg good a) (hb : ¬ p → Tells lg good b) : Tells lg good (if p then a else b) := by
  by_cases hp : p
  · rw [if_pos hp]; exact ha hp
  · rw [if_neg hp]; exact hb hp

end

/-! ### The writers -/

theorem tells_fwrite (bs : List Byte) : Tells WS.log (fun _ => True) (fwrite bs) := by
  intro s a s' h
  simp [fwrite] at h
  obtain ⟨_, rfl⟩ := h
  exact ⟨[], by simp, by simp⟩

/-- A message followed by a bad result. -/
theorem tells_WSemit {β : Type} {good : β → Prop} (m : Msg) {b : β} (hb : ¬ good b) :
    Tells WS.log good (do WS.emit m; pure b) := by
  intro s a s' h
  simp [M.bind_apply, WS.emit] at h
  obtain ⟨rfl, rfl⟩ := h
  exact ⟨[m], rfl, by simp [hb]⟩

/-- A message followed by a bad result. -/
theorem refuses_WSemit {β : Type} {good : β → Prop} (m : Msg) {b : β} (hb : ¬ good b) :
    Refuses WS.log good (do WS.emit m; pure b) := by
  intro s a s' h
  simp [M.bind_apply, WS.emit] at h
  obtain ⟨rfl, rfl⟩ := h
  exact ⟨[m], rfl, hb⟩

theorem tells_put {bs : List Byte} {n : Nat} {m : Msg} :
    Tells WS.log (· = true)
      (do if (← fwrite bs) = n then pure true else WS.emit m; pure false) := by
  refine tells_then (tells_fwrite _) fun a => ?_
  exact tells_ite (fun _ => tells_pure rfl) fun _ => tells_WSemit _ (by simp)

theorem tells_writeVal (e : Env) (v : Val) (id : ID) (a : String) :
    Tells WS.log (· = true) (writeVal e v id a) := by
  cases v <;> exact tells_put

theorem tells_writeId (e : Env) (v : ID) (id : ID) (a : String) :
    Tells WS.log (· = true) (writeId e v id a) := tells_put

theorem tells_writeLong (e : Env) (v : BitVec 32) (id : ID) (a : String) :
    Tells WS.log (· = true) (writeLong e v id a) := tells_put

theorem tells_filler (id : ID) (size bp : Int) :
    Tells WS.log (· = true) (writeZeroFillerBytes id size bp) := by
  unfold writeZeroFillerBytes
  exact tells_ite (fun _ => tells_then (tells_ofOut _) fun n => tells_put) fun _ => tells_pure rfl

theorem tells_padding (size : Int) (id : ID) : Tells WS.log (· = true) (writePaddingByte size id) := by
  unfold writePaddingByte
  exact tells_ite (fun _ => tells_put) fun _ => tells_pure rfl

theorem tells_writeField (e : Env) (v : Val) (id : ID) (size : Int) (a : String) (bp : Int) :
    Tells WS.log (fun x => x.1 ≠ .failure) (writeField e v id size a bp) := by
  unfold writeField
  exact tells_ite (fun _ => tells_pure (by simp)) fun _ => tells_if (tells_writeVal _ _ _ _)
    (tells_pure (by simp)) (refuses_pure (by simp))

theorem tells_writeExt (e : Env) (id : ID) (size : Int) : ∀ (fs : List Field) (vs : List Val)
    (bp : Int), Tells WS.log (fun x => x.1 = true) (writeExtFields e id size fs vs bp)
  | [], vs, bp => by simp only [writeExtFields]; exact tells_pure rfl
  | f :: fs, [], bp => by simp only [writeExtFields]; exact tells_pure rfl
  | f :: fs, v :: vs, bp => by
    unfold writeExtFields
    refine tells_bind (tells_writeField _ _ _ _ _ _) ?_ ?_
    · rintro ⟨st, bp'⟩ h
      cases st with
      | more => exact tells_writeExt e id size fs vs bp'
      | last => exact tells_pure rfl
      | failure => simp at h
    · rintro ⟨st, bp'⟩ h
      cases st with
      | failure => exact refuses_pure (by simp [deriveSuccess])
      | more => simp at h
      | last => simp at h

theorem tells_writeRaw (e : Env) (id : ID) (size : Int) (data : List Byte) (bp : Int) :
    Tells WS.log (fun x => x.1 = true) (writeRawChunk e id size data bp) := by
  unfold writeRawChunk
  refine tells_ite (fun _ => tells_then (tells_fwrite _) fun n => ?_) fun _ => tells_ub
  exact tells_ite (fun _ => tells_WSemit _ (by simp))
    fun _ => tells_then (tells_ofOut _) fun b => tells_pure rfl

theorem tells_writeChunkWith (e : Env) (c : Chunk) {fields : M WS (Bool × Int)}
    (h : Tells WS.log (fun x => x.1 = true) fields) :
    Tells WS.log (· = true) (writeChunkWith e c fields) := by
  unfold writeChunkWith
  refine tells_if (tells_writeId _ _ _ _) (tells_if (tells_writeLong _ _ _ _) ?_
    (refuses_pure (by simp))) (refuses_pure (by simp))
  refine tells_bind h ?_ ?_
  · rintro ⟨ok, bp⟩ rfl
    simp only [if_true]
    exact tells_if (tells_filler _ _ _) (tells_padding _ _) (refuses_pure (by simp))
  · rintro ⟨ok, bp⟩ hok
    simp only at hok
    simp only [if_neg hok]
    exact refuses_pure (by simp)

theorem tells_writeGroupWith (e : Env) (id : ID) (size : Int) (ty : ID) (a : String)
    {subs : Int → M WS (Bool × Int)} (h : ∀ bp, Tells WS.log (fun x => x.1 = true) (subs bp))
    (bp : Int) : Tells WS.log (fun x => x.1 = true) (writeGroupWith e id size ty a subs bp) := by
  unfold writeGroupWith
  refine tells_bind (tells_writeField _ _ _ _ _ _) ?_ ?_
  · rintro ⟨st, bp'⟩ h'
    cases st with
    | more => exact h bp'
    | last => exact tells_pure rfl
    | failure => simp at h'
  · rintro ⟨st, bp'⟩ h'
    cases st with
    | failure => exact refuses_pure (by simp [deriveSuccess])
    | more => simp at h'
    | last => simp at h'

mutual

theorem tells_writeFields (e : Env) (r : Registry) (h : Handler) : ∀ c : Chunk,
    Tells WS.log (fun x => x.1 = true) (writeFields e r h c)
  | .raw id size data => by
    cases h <;> simp only [writeFields] <;> first | exact tells_ub | exact tells_writeRaw _ _ _ _ _
  | .ext id size vals => by
    cases h <;> simp only [writeFields]
    all_goals first
      | exact tells_ub
      | exact tells_ite (fun _ => tells_writeExt _ _ _ _ _ _) fun _ => tells_ub
  | .grp id size ty subs => by
    cases h <;> simp only [writeFields]
    all_goals first
      | exact tells_ub
      | exact tells_writeGroupWith _ _ _ _ _ (tells_writeSubs e r ty subs) _
  | .lst id size ty subs props => by
    cases h <;> simp only [writeFields]
    all_goals first
      | exact tells_ub
      | exact tells_writeGroupWith _ _ _ _ _ (tells_writeSubs e r ty subs) _
      | refine tells_writeGroupWith _ _ _ _ _ (fun bp => ?_) _
        refine tells_bind (tells_writeProps e r props bp) ?_ ?_
        · rintro ⟨ok, bp'⟩ rfl
          exact tells_writeSubs e r ty subs bp'
        · rintro ⟨ok, bp'⟩ hok
          simp only at hok
          simp only [if_neg hok]
          exact refuses_pure (by simp)

theorem tells_writeSubs (e : Env) (r : Registry) (ty : ID) : ∀ (cs : List Chunk) (bp : Int),
    Tells WS.log (fun x => x.1 = true) (writeGroupSubChunks e r ty cs bp)
  | [], bp => by simp only [writeGroupSubChunks]; exact tells_pure rfl
  | c :: cs, bp => by
    simp only [writeGroupSubChunks]
    exact tells_if (tells_writeChunkWith e c (tells_writeFields e r _ c))
      (tells_then (tells_ofOut _) fun b => tells_writeSubs e r ty cs b) (refuses_WSemit _ (by simp))

theorem tells_writeProps (e : Env) (r : Registry) : ∀ (cs : List Chunk) (bp : Int),
    Tells WS.log (fun x => x.1 = true) (writeListPropChunks e r cs bp)
  | [], bp => by simp only [writeListPropChunks]; exact tells_pure rfl
  | c :: cs, bp => by
    simp only [writeListPropChunks]
    exact tells_if (tells_writeChunkWith e c (tells_writeFields e r _ c))
      (tells_then (tells_ofOut _) fun b => tells_writeProps e r cs b) (refuses_WSemit _ (by simp))

end

/-! ### The checkers -/

/-- A diagnostic of a check function followed by a bad result. -/
theorem tells_emit {β : Type} {good : β → Prop} (m : Msg) {b : β} (hb : ¬ good b) :
    Tells id good (do emit m; pure b) := by
  intro s a s' h
  simp [M.bind_apply, emit] at h
  obtain ⟨rfl, rfl⟩ := h
  exact ⟨[m], rfl, by simp [hb]⟩

theorem tells_checkIdChars (e : Env) : ∀ bs : List Byte, Tells id (· = true) (checkIdChars e bs)
  | [] => by simp only [checkIdChars]; exact tells_pure rfl
  | b :: bs => by
    simp only [checkIdChars]
    exact tells_ite (fun _ => tells_emit _ (by simp)) fun _ => tells_checkIdChars e bs

theorem tells_checkId (e : Env) (i : ID) : Tells id (· = true) (checkId e i) := by
  unfold checkId
  exact tells_if (tells_checkIdChars _ _) (tells_ite (fun _ => tells_emit _ (by simp))
    fun _ => tells_pure rfl) (refuses_pure (by simp))

theorem tells_formTypeChars (e : Env) : ∀ bs : List Byte,
    Tells id (· = true) (checkFormTypeChars e bs)
  | [] => by simp only [checkFormTypeChars]; exact tells_pure rfl
  | b :: bs => by
    simp only [checkFormTypeChars]
    exact tells_ite (fun _ => tells_emit _ (by simp)) fun _ => tells_formTypeChars e bs

theorem tells_checkFormType (e : Env) (i : ID) : Tells id (· = true) (checkFormType e i) := by
  unfold checkFormType
  exact tells_if (tells_checkId _ _) (tells_if (tells_formTypeChars _ _)
    (tells_ite (fun _ => tells_emit _ (by simp)) fun _ => tells_pure rfl) (refuses_pure (by simp)))
    (refuses_pure (by simp))

theorem tells_formSub (c : Chunk) : Tells id (· = true) (formSubChunkCheck c) := by
  unfold formSubChunkCheck
  exact tells_ite (fun _ => tells_emit _ (by simp)) fun _ => tells_pure rfl

theorem tells_propSub (c : Chunk) : Tells id (· = true) (propSubChunkCheck c) := by
  unfold propSubChunkCheck
  exact tells_ite (fun _ => tells_emit _ (by simp)) fun _ => tells_pure rfl

theorem tells_catSub (ty : ID) (c : Chunk) : Tells id (· = true) (catSubChunkCheck ty c) := by
  unfold catSubChunkCheck
  refine tells_ite (fun _ => tells_ite (fun _ => tells_ite (fun _ => ?_) fun _ => tells_pure rfl)
    fun _ => tells_pure rfl) fun _ => tells_emit _ (by simp)
  exact tells_then (tells_ofOut _) fun t => tells_ite (fun _ => tells_emit _ (by simp))
    fun _ => tells_pure rfl

theorem tells_size (i : ID) (size body : Int) :
    Tells id (· = true) (checkGroupChunkSize i size body) := by
  unfold checkGroupChunkSize
  exact tells_ite (fun _ => tells_pure rfl) fun _ => tells_emit _ (by simp)

theorem tells_checkChunkWith (e : Env) (c : Chunk) {chk : M (List Msg) Bool}
    (h : Tells id (· = true) chk) : Tells id (· = true) (checkChunkWith e c chk) :=
  tells_if (tells_checkId _ _) h (refuses_pure (by simp))

theorem tells_checkGroupWith (i : ID) (size : Int) {ty : M (List Msg) Bool} {subs : M (List Msg) Int}
    (ht : Tells id (· = true) ty) (hs : Tells id (· ≠ -1) subs) :
    Tells id (· = true) (checkGroupWith i size ty subs) := by
  refine tells_if ht (tells_bind hs ?_ ?_) (refuses_pure (by simp))
  · intro s h
    rw [if_neg h]
    exact tells_then (tells_ofOut _) fun b => tells_size _ _ _
  · intro s h
    rw [if_pos (by omega)]
    exact refuses_pure (by simp)

/-- The sizes computed by `IFF_incrementChunkSize` are even, even where they wrap around. -/
theorem increment_even {e : Env} (he : 32 ≤ e.sizeBits) {acc sub b : Int} (h : acc % 2 = 0)
    (hb : incrementChunkSize e acc sub = .val b) : b % 2 = 0 := by
  rw [incrementChunkSize_eq e he] at hb
  obtain ⟨_, _, hb⟩ := Out.bind_eq_val.mp hb
  have hw : wrapInt (acc + 8 + sub) % 2 = (acc + 8 + sub) % 2 := by
    unfold wrapInt; omega
  split at hb
  · rename_i ho
    rw [isOdd_iff] at ho
    unfold addInt at hb
    split at hb
    · simp only [Out.val.injEq] at hb; omega
    · simp at hb
  · rename_i ho
    rw [isOdd_iff] at ho
    simp only [Out.val.injEq] at hb; omega

/-- `Tells` for results that matter only if they are even. -/
theorem tells_increment {β : Type} {e : Env} (he : 32 ≤ e.sizeBits) {acc sub : Int}
    (h : acc % 2 = 0) {good : β → Prop} {f : Int → M (List Msg) β}
    (hf : ∀ b, b % 2 = 0 → Tells id good (f b)) :
    Tells id good (M.ofOut (incrementChunkSize e acc sub) >>= f) := by
  cases hb : incrementChunkSize e acc sub with
  | val b =>
    have := hf b (increment_even he h hb)
    intro s a s' hs
    simp only [M.bind_apply, M.ofOut_val] at hs
    exact this s a s' hs
  | ub u => intro s a s' hs; simp [M.bind_apply] at hs
  | loop => intro s a s' hs; simp [M.bind_apply, M.ofOut] at hs

mutual

theorem tells_checkFields (e : Env) (he : 32 ≤ e.sizeBits) (r : Registry) (h : Handler) :
    ∀ c : Chunk, Tells id (· = true) (checkFields e r h c)
  | .raw _ _ _ => by
    cases h <;> simp only [checkFields] <;> first | exact tells_ub | exact tells_pure rfl
  | .ext _ _ vals => by
    cases h <;> simp only [checkFields]
    all_goals first
      | exact tells_ub
      | exact tells_pure rfl
      | exact tells_ite (fun _ => tells_ite (fun _ => tells_pure rfl)
          fun _ => tells_emit _ (by simp)) fun _ => tells_ub
  | .grp _ _ ty subs => by
    cases h <;> simp only [checkFields]
    all_goals first
      | exact tells_ub
      | exact tells_pure rfl
      | exact tells_checkGroupWith _ _ (tells_checkFormType _ _)
          (tells_checkSubs e he r ty _ tells_formSub subs 0 rfl)
      | exact tells_checkGroupWith _ _ (tells_checkFormType _ _)
          (tells_checkSubs e he r ty _ tells_propSub subs 0 rfl)
      | exact tells_checkGroupWith _ _ (tells_checkId _ _)
          (tells_checkSubs e he r ty _ (tells_catSub ty) subs 0 rfl)
  | .lst _ _ ty subs props => by
    cases h <;> simp only [checkFields]
    all_goals first
      | exact tells_ub
      | exact tells_pure rfl
      | exact tells_checkGroupWith _ _ (tells_checkFormType _ _)
          (tells_checkSubs e he r ty _ tells_formSub subs 0 rfl)
      | exact tells_checkGroupWith _ _ (tells_checkFormType _ _)
          (tells_checkSubs e he r ty _ tells_propSub subs 0 rfl)
      | exact tells_checkGroupWith _ _ (tells_checkId _ _)
          (tells_checkSubs e he r ty _ (tells_catSub ty) subs 0 rfl)
      | refine tells_if (tells_checkId _ _) (tells_bind (tells_checkProps e he r ty props 0 rfl)
          (fun s hs => ?_) (fun s hs => ?_)) (refuses_pure (by simp))
        · rw [if_neg hs]
          refine tells_then (tells_ofOut _) fun s1 => ?_
          refine tells_bind (tells_checkSubs e he r ty _ (tells_catSub ty) subs 0 rfl)
            (fun t ht => ?_) (fun t ht => ?_)
          · rw [if_neg ht]
            exact tells_then (tells_ofOut _) fun b => tells_size _ _ _
          · rw [if_pos (by omega)]; exact refuses_pure (by simp)
        · rw [if_pos (by omega)]; exact refuses_pure (by simp)

theorem tells_checkSubs (e : Env) (he : 32 ≤ e.sizeBits) (r : Registry) (ty : ID)
    (sc : Chunk → M (List Msg) Bool) (hsc : ∀ c, Tells id (· = true) (sc c)) :
    ∀ (cs : List Chunk) (acc : Int), acc % 2 = 0 →
      Tells id (· ≠ -1) (checkGroupSubChunks e r ty sc cs acc)
  | [], acc, ha => by simp only [checkGroupSubChunks]; exact tells_pure (by omega)
  | c :: cs, acc, ha => by
    simp only [checkGroupSubChunks]
    refine tells_if (hsc c) (tells_if (tells_checkChunkWith e c (tells_checkFields e he r _ c)) ?_
      (refuses_pure (by simp))) (refuses_pure (by simp))
    exact tells_increment he ha fun b hb => tells_checkSubs e he r ty sc hsc cs b hb

theorem tells_checkProps (e : Env) (he : 32 ≤ e.sizeBits) (r : Registry) (ty : ID) :
    ∀ (cs : List Chunk) (acc : Int), acc % 2 = 0 →
      Tells id (· ≠ -1) (checkListPropChunks e r ty cs acc)
  | [], acc, ha => by simp only [checkListPropChunks]; exact tells_pure (by omega)
  | c :: cs, acc, ha => by
    simp only [checkListPropChunks]
    refine tells_if (tells_checkChunkWith e c (tells_checkFields e he r _ c)) ?_
      (refuses_pure (by simp))
    exact tells_increment he ha fun b hb => tells_checkProps e he r ty cs b hb

end

end Iff
