import Verif.Proofs.ReadFuel
/-
  Reading a stream followed by more bytes.
-/
namespace Iff
open Spec

/-- On every stream `p` followed by more bytes `q`, `m` does what it does on `p`, unless it fails on
`p`.  If `tail` holds, it may also swallow some of `q` (a seek beyond the end of `p`). -/
def Extends (tail : Prop) {α : Type} (ok : α → Bool) (m : M RS α) : Prop :=
  ∀ (p q : List Byte) (log : List Msg),
    match m ⟨p, log⟩ with
    | .val (a, s') => ok a = true → s'.inp <:+ p ∧ ∃ k, (k = 0 ∨ (tail ∧ s'.inp = [])) ∧
        m ⟨p ++ q, log⟩ = .val (a, ⟨(s'.inp ++ q).drop k, s'.log⟩)
    | .ub u => m ⟨p ++ q, log⟩ = .ub u
    | .loop => m ⟨p ++ q, log⟩ = .loop

/-- The computation always ends in failure. -/
def Fails {α : Type} (ok : α → Bool) (m : M RS α) : Prop :=
  ∀ s, ∃ a s', m s = .val (a, s') ∧ ok a = false

theorem extends_pure {tail : Prop} {α : Type} (ok : α → Bool) (a : α) :
    Extends tail ok (pure a) := by
  intro p q log
  simp only [M.pure_apply]
  intro _
  exact ⟨List.suffix_refl _, 0, Or.inl rfl, by simp⟩

theorem extends_emit {tail : Prop} (ok : Unit → Bool) (m : Msg) : Extends tail ok (RS.emit m) := by
  intro p q log
  simp only [RS.emit]
  intro _
  exact ⟨List.suffix_refl _, 0, Or.inl rfl, by simp⟩

theorem extends_ofOut {tail : Prop} {α : Type} (ok : α → Bool) (o : Out α) :
    Extends tail ok (M.ofOut o) := by
  intro p q log
  cases o with
  | val a =>
    simp only [M.ofOut_val]
    intro _
    exact ⟨List.suffix_refl _, 0, Or.inl rfl, by simp⟩
  | ub u => rfl
  | loop => rfl

theorem extends_bind {tail : Prop} {α β : Type} {okm : α → Bool} {ok : β → Bool} {m : M RS α}
    {f : α → M RS β} (hm : Extends tail okm m)
    (hf : ∀ a, okm a = true → (∃ s s', m s = .val (a, s')) → Extends tail ok (f a))
    (hn : ∀ a, okm a = false → Fails ok (f a)) : Extends tail ok (m >>= f) := by
  intro p q log
  have h1 := hm p q log
  simp only [M.bind_apply]
  cases hx : m ⟨p, log⟩ with
  | ub u => rw [hx] at h1; simp only at h1 ⊢; rw [h1]
  | loop => rw [hx] at h1; simp only at h1 ⊢; rw [h1]
  | val x =>
    obtain ⟨a, s1⟩ := x
    rw [hx] at h1
    simp only at h1 ⊢
    by_cases hok : okm a = true
    · obtain ⟨hsuf, k, hk, h2⟩ := h1 hok
      rw [h2]
      simp only
      obtain ⟨p1, log1⟩ := s1
      simp only at hsuf hk h2 ⊢
      have h3 := hf a hok ⟨_, _, hx⟩
      rcases hk with rfl | ⟨ht, rfl⟩
      · have h4 := h3 p1 q log1
        rw [List.drop_zero]
        cases hy : f a ⟨p1, log1⟩ with
        | ub u => rw [hy] at h4; exact h4
        | loop => rw [hy] at h4; exact h4
        | val y =>
          rw [hy] at h4
          intro hb
          obtain ⟨hs2, k2, hk2, h5⟩ := h4 hb
          exact ⟨hs2.trans hsuf, k2, hk2, h5⟩
      · have h4 := h3 [] (q.drop k) log1
        simp only [List.nil_append] at h4 ⊢
        cases hy : f a ⟨[], log1⟩ with
        | ub u => rw [hy] at h4; exact h4
        | loop => rw [hy] at h4; exact h4
        | val y =>
          rw [hy] at h4
          intro hb
          obtain ⟨hs2, k2, hk2, h5⟩ := h4 hb
          have he : y.2.inp = [] := List.suffix_nil.mp hs2
          refine ⟨hs2.trans hsuf, k + k2, Or.inr ⟨ht, he⟩, ?_⟩
          rw [h5, he]
          simp [List.drop_drop]
    · have hok' : okm a = false := by simpa using hok
      obtain ⟨b, s', hb, hfb⟩ := hn a hok' s1
      rw [hb]
      intro h; rw [hfb] at h; cases h

/-- Failure is decided by the first component. -/
theorem fails_pure {α : Type} {ok : α → Bool} {a : α} (h : ok a = false) : Fails ok (pure a) :=
  fun _ => ⟨_, _, rfl, h⟩

theorem extends_of_fails {tail : Prop} {α : Type} {ok : α → Bool} {m : M RS α} (h : Fails ok m) :
    Extends tail ok m := by
  intro p q log
  obtain ⟨a, s', h1, h2⟩ := h ⟨p, log⟩
  rw [h1]
  intro h3; rw [h2] at h3; cases h3

/-- Two computations that agree on every stream. -/
theorem extends_fread {tail : Prop} {n : Nat} :
    Extends tail (fun d : List Byte => d.length == n) (fread n) := by
  intro p q log
  simp only [fread, beq_iff_eq, List.length_take]
  intro h
  refine ⟨List.drop_suffix _ _, 0, Or.inl rfl, ?_⟩
  rw [List.take_append_of_le_length (by omega), List.drop_append_of_le_length (by omega),
    List.drop_zero]

theorem extends_readULong {tail : Prop} (e : Env) (id : ID) (a : String) :
    Extends tail Option.isSome (readULong e id a) := by
  unfold readULong
  refine extends_bind (okm := fun d : List Byte => d.length == 4) extends_fread ?_ ?_
  · intro d hd _
    simp only [beq_iff_eq] at hd
    obtain ⟨b0, b1, b2, b3, rest, rfl⟩ := cons4_of_length (by omega : 4 ≤ d.length)
    cases rest with
    | nil => exact extends_pure _ _
    | cons => simp at hd
  · intro d hd s
    simp only [beq_eq_false_iff_ne] at hd
    split
    · simp at hd
    · exact ⟨none, _, rfl, rfl⟩

theorem extends_readUWord {tail : Prop} (e : Env) (id : ID) (a : String) :
    Extends tail Option.isSome (readUWord e id a) := by
  unfold readUWord
  refine extends_bind (okm := fun d : List Byte => d.length == 2) extends_fread ?_ ?_
  · intro d hd _
    simp only [beq_iff_eq] at hd
    obtain ⟨b0, b1, rest, rfl⟩ := cons2_of_length (by omega : 2 ≤ d.length)
    cases rest with
    | nil => exact extends_pure _ _
    | cons => simp at hd
  · intro d hd s
    simp only [beq_eq_false_iff_ne] at hd
    split
    · simp at hd
    · exact ⟨none, _, rfl, rfl⟩

theorem extends_fgetc {tail : Prop} : Extends tail Option.isSome fgetc := by
  intro p q log
  cases p with
  | nil => simp [fgetc]
  | cons b bs =>
    simp only [fgetc, List.cons_append]
    intro _
    exact ⟨List.suffix_cons _ _, 0, Or.inl rfl, by simp⟩

theorem extends_readUByte {tail : Prop} (id : ID) (a : String) :
    Extends tail Option.isSome (readUByte id a) := by
  unfold readUByte
  refine extends_bind extends_fgetc ?_ ?_
  · intro d hd _
    cases d with
    | none => simp at hd
    | some b => exact extends_pure _ _
  · intro d hd s
    cases d with
    | none => exact ⟨none, _, rfl, rfl⟩
    | some b => simp at hd

theorem extends_map {tail : Prop} {α β : Type} {m : M RS (Option α)} (f : α → β)
    (h : Extends tail Option.isSome m) :
    Extends tail Option.isSome (do pure ((← m).map f)) := by
  refine extends_bind h (fun a _ _ => extends_pure _ _) (fun a ha => ?_)
  refine fails_pure ?_
  cases a <;> simp at ha ⊢

theorem extends_readVal {tail : Prop} (e : Env) (k : FieldKind) (id : ID) (a : String) :
    Extends tail Option.isSome (readVal e k id a) := by
  cases k <;> simp only [readVal, readWord_eq, readLong_eq, readId_eq]
  case ubyte => exact extends_map _ (extends_readUByte id a)
  case uword | word => exact extends_map _ (extends_readUWord e id a)
  all_goals exact extends_map _ (extends_readULong e id a)

theorem extends_readField {tail : Prop} (e : Env) (k : FieldKind) (id : ID) (size : Int)
    (a : String) (cur : Val) (bp : Int) :
    Extends tail (fun x : FieldStatus × Val × Int => deriveSuccess x.1)
      (readField e k id size a cur bp) := by
  unfold readField
  split
  · exact extends_pure _ _
  · refine extends_bind (extends_readVal e k id a) ?_ ?_
    · intro x hx _
      cases x with
      | none => simp at hx
      | some v => exact extends_pure _ _
    · intro x hx
      cases x with
      | none => exact fails_pure rfl
      | some v => simp at hx

theorem extends_readExtFields {tail : Prop} (e : Env) (id : ID) (size : Int) :
    ∀ (fields : List Field) (cur done : List Val) (bp : Int),
      Extends tail (fun x : Bool × List Val × Int => x.1)
        (readExtFields e id size fields cur done bp)
  | [], _, _, _ => by unfold readExtFields; exact extends_pure _ _
  | _ :: _, [], _, _ => by unfold readExtFields; exact extends_pure _ _
  | f :: fs, v :: vs, done, bp => by
    unfold readExtFields
    refine extends_bind (extends_readField _ _ _ _ _ _ _) ?_ ?_
    · intro a _ _
      obtain ⟨st, v', bp'⟩ := a
      cases st
      · exact extends_readExtFields e id size fs vs _ _
      · exact extends_pure _ _
      · exact extends_pure _ _
    · intro a ha
      obtain ⟨st, v', bp'⟩ := a
      cases st
      · simp [deriveSuccess] at ha
      · exact fails_pure rfl
      · simp [deriveSuccess] at ha

theorem extends_fread' {tail : Prop} {n : Nat} :
    Extends tail (fun d : List Byte => !decide (d.length < n)) (fread n) := by
  intro p q log
  simp only [fread, List.length_take, Bool.not_eq_true', decide_eq_false_iff_not]
  intro h
  refine ⟨List.drop_suffix _ _, 0, Or.inl rfl, ?_⟩
  rw [List.take_append_of_le_length (by omega), List.drop_append_of_le_length (by omega),
    List.drop_zero]

theorem extends_readRawChunk {tail : Prop} (e : Env) (id : ID) (size bp : Int) :
    Extends tail (fun x : Bool × List Byte × Int => x.1) (readRawChunk e id size bp) := by
  unfold readRawChunk
  refine extends_bind extends_fread' ?_ ?_
  · intro d hd _
    rw [if_neg (by simpa using hd)]
    refine extends_bind (okm := fun _ => true) (extends_ofOut _ _) (fun b _ _ => extends_pure _ _) ?_
    intro a h; simp at h
  · intro d hd s
    rw [if_pos (by simpa using hd)]; exact ⟨_, _, rfl, rfl⟩

theorem extends_padding {tail : Prop} (size : Int) (id : ID) :
    Extends tail (fun b : Bool => b) (readPaddingByte size id) := by
  unfold readPaddingByte
  split
  · refine extends_bind extends_fgetc ?_ ?_
    · intro d hd _
      cases d with
      | none => simp at hd
      | some b =>
        simp only
        split
        · exact extends_bind (okm := fun _ => true) (extends_emit _ _)
            (fun b _ _ => extends_pure _ _) (by intro a h; simp at h)
        · exact extends_pure _ _
    · intro d hd s
      cases d with
      | none => exact ⟨false, _, rfl, rfl⟩
      | some b => simp at hd
  · exact extends_pure _ _

theorem extends_skip {tail : Prop} (e : Env) (id : ID) (size bp : Int)
    (ht : tail ∨ size ≤ bp ∨ e.seekable = false) :
    Extends tail (fun b : Bool => b) (skipUnknownBytes e id size bp) := by
  unfold skipUnknownBytes
  split
  · refine extends_bind (okm := fun _ => true) (extends_ofOut _ _) (fun n _ _ => ?_)
      (by intro a h; simp at h)
    refine extends_bind (okm := fun b : Bool => b) ?_ ?_ ?_
    · intro p q log
      unfold fseekCur
      by_cases hs : e.seekable = true
      · simp only [if_pos hs]
        intro _
        refine ⟨List.drop_suffix _ _, n.toNat - p.length, ?_, ?_⟩
        · by_cases hl : n.toNat ≤ p.length
          · left; omega
          · right
            refine ⟨?_, List.drop_eq_nil_of_le (by omega)⟩
            rcases ht with ht | ht | ht
            · exact ht
            · omega
            · simp [hs] at ht
        · by_cases hl : n.toNat ≤ p.length
          · rw [List.drop_append_of_le_length hl, show n.toNat - p.length = 0 by omega]
            simp
          · rw [List.drop_eq_nil_of_le (by omega : p.length ≤ n.toNat), List.drop_append]
            simp
            omega
      · simp [hs]
    · intro b hb _
      simp only [hb, if_true]
      exact extends_bind (okm := fun _ => true) (extends_emit _ _)
            (fun b _ _ => extends_pure _ _) (by intro a h; simp at h)
    · intro b hb
      simp only [hb]
      exact fails_pure rfl
  · exact extends_pure _ _

theorem extends_finish {tail : Prop} (e : Env) (size : Int) (ok : Bool) (c : Chunk) (bp : Int)
    (ht : ok = true → tail ∨ size ≤ bp ∨ e.seekable = false) :
    Extends tail Option.isSome (finishChunk e size ok c bp) := by
  unfold finishChunk
  split
  · rename_i hok
    refine extends_bind (extends_skip e c.id size bp (ht hok)) ?_ ?_
    · intro b hb _
      simp only [hb, if_true]
      refine extends_bind (extends_padding size c.id) ?_ ?_
      · intro b hb _
        simp only [hb, if_true]
        exact extends_pure _ _
      · intro b hb
        simp only [hb]
        exact fails_pure rfl
    · intro b hb
      simp only [hb]
      exact fails_pure rfl
  · exact extends_of_fails (fails_pure rfl)

theorem fails_finish (e : Env) (size : Int) (c : Chunk) (bp : Int) :
    Fails Option.isSome (finishChunk e size false c bp) :=
  fun s => ⟨_, _, finishChunk_false e size bp c s, rfl⟩

theorem trace_le {e : Env} {size : Int} {l : List Int} {bp bp' : Int}
    (h : Trace e size bp l bp') : size ≤ bp' := by
  induction l generalizing bp with
  | nil => exact h.2 ▸ h.1
  | cons s ss ih => obtain ⟨_, b, _, h2⟩ := h; exact ih h2

/-- No application-defined chunk types. -/
def NoExt (r : Registry) : Prop := ∀ ft id fields chk, findChunkType r ft id ≠ .ext fields chk

theorem read_extends {tail : Prop} {e : Env} (he : e.Sane) {r : Registry}
    (ht : tail ∨ NoExt r ∨ e.seekable = false) : ∀ n : Nat,
    (∀ ft, Extends tail Option.isSome (readChunk e r n ft)) ∧
    (∀ ty size subs bp, Extends tail (fun x : Bool × List Chunk × Int => x.1)
      (readGroupSubChunks e r n ty size subs bp)) ∧
    (∀ ty size subs props bp, Extends tail (fun x : Bool × List Chunk × List Chunk × Int => x.1)
      (readListSubChunks e r n ty size subs props bp)) := by
  intro n
  induction n with
  | zero =>
    refine ⟨?_, ?_, ?_⟩
    · intro ft p q log; simp [readChunk]
    · intro ty size subs bp p q log; simp [readGroupSubChunks]
    · intro ty size subs props bp p q log; simp [readListSubChunks]
  | succ n ih =>
    obtain ⟨ihc, ihg, ihl⟩ := ih
    refine ⟨?_, ?_, ?_⟩
    · intro ft
      rw [readChunk_succ]
      refine extends_bind (okm := Option.isSome) (by rw [readId_eq]; exact extends_readULong _ _ _) ?_ ?_
      · intro x hx _
        cases x with
        | none => simp at hx
        | some id =>
          refine extends_bind (okm := Option.isSome)
            (by rw [readLong_eq]; exact extends_readULong _ _ _) ?_ ?_
          · intro x hx _
            cases x with
            | none => simp at hx
            | some sz =>
              simp only
              generalize hh : findChunkType r ft id = hd
              rcases Handler.cases' hd with rfl | hk | rfl | ⟨fields, chk, rfl⟩
              · rw [readBody_raw]
                split
                · refine extends_bind (extends_readRawChunk _ _ _ _) ?_ ?_
                  · intro x hx hex
                    obtain ⟨ok, data, bp⟩ := x
                    refine extends_finish _ _ _ _ _ (fun _ => Or.inr (Or.inl ?_))
                    obtain ⟨s, s', h⟩ := hex
                    simp only at hx
                    subst hx
                    unfold readRawChunk at h
                    simp only [M.bind_apply, fread] at h
                    split at h
                    · simp [M.bind_apply, RS.emit] at h
                    · simp only [M.bind_apply] at h
                      rw [addInt_ok (by simpa using toInt_inInt sz)] at h
                      simp only [M.ofOut_val, M.pure_apply, Out.val.injEq, Prod.mk.injEq] at h
                      omega
                  · intro x hx
                    obtain ⟨ok, data, bp⟩ := x
                    simp only at hx
                    subst hx
                    exact fails_finish _ _ _ _
                · exact extends_pure _ _
              · rw [readBody_grp _ _ _ _ _ hk]
                refine extends_bind (extends_readField _ _ _ _ _ _ _) ?_ ?_
                · intro a ha hex
                  obtain ⟨s, s', hex⟩ := hex
                  obtain ⟨st, v, bp⟩ := a
                  rcases readField_id_inv he.wide hex with ⟨rfl, _⟩ | rfl
                  · refine extends_bind (ihg _ _ _ _) ?_ ?_
                    · intro x hx hex
                      obtain ⟨ok, subs, bp⟩ := x
                      simp only at hx
                      subst hx
                      obtain ⟨s, s', hex⟩ := hex
                      obtain ⟨ps, _, _, _, htr⟩ := (read_loose he n).2.1 _ _ _ _ _ _ _ _ hex
                      exact extends_finish _ _ _ _ _ (fun _ => Or.inr (Or.inl (trace_le htr)))
                    · intro x hx
                      obtain ⟨ok, subs, bp⟩ := x
                      simp only at hx
                      subst hx
                      exact fails_finish _ _ _ _
                  · simp [deriveSuccess] at ha
                · intro a ha
                  obtain ⟨st, v, bp⟩ := a
                  cases st
                  · simp [deriveSuccess] at ha
                  · exact fails_finish _ _ _ _
                  · simp [deriveSuccess] at ha
              · rw [readBody_lst]
                refine extends_bind (extends_readField _ _ _ _ _ _ _) ?_ ?_
                · intro a ha hex
                  obtain ⟨s, s', hex⟩ := hex
                  obtain ⟨st, v, bp⟩ := a
                  rcases readField_id_inv he.wide hex with ⟨rfl, _⟩ | rfl
                  · refine extends_bind (ihl _ _ _ _ _) ?_ ?_
                    · intro x hx hex
                      obtain ⟨ok, subs, props, bp⟩ := x
                      simp only at hx
                      subst hx
                      obtain ⟨s, s', hex⟩ := hex
                      obtain ⟨ps, _, _, _, _, htr⟩ := (read_loose he n).2.2 _ _ _ _ _ _ _ _ _ _ hex
                      simp only [if_true]
                      exact extends_finish _ _ _ _ _ (fun _ => Or.inr (Or.inl (trace_le htr)))
                    · intro x hx s
                      obtain ⟨ok, subs, props, bp⟩ := x
                      simp only at hx
                      subst hx
                      exact ⟨none, _, rfl, rfl⟩
                  · simp [deriveSuccess] at ha
                · intro a ha
                  obtain ⟨st, v, bp⟩ := a
                  cases st
                  · simp [deriveSuccess] at ha
                  · exact fails_finish _ _ _ _
                  · simp [deriveSuccess] at ha
              · rw [readBody_ext]
                refine extends_bind (extends_readExtFields _ _ _ _ _ _ _) ?_ ?_
                · intro x hx _
                  obtain ⟨ok, vals, bp⟩ := x
                  refine extends_finish _ _ _ _ _ (fun _ => ?_)
                  rcases ht with ht | ht | ht
                  · exact Or.inl ht
                  · exact absurd hh (ht _ _ _ _)
                  · exact Or.inr (Or.inr ht)
                · intro x hx
                  obtain ⟨ok, vals, bp⟩ := x
                  simp only at hx
                  subst hx
                  exact fails_finish _ _ _ _
          · intro x hx
            cases x with
            | none => exact fails_pure rfl
            | some _ => simp at hx
      · intro x hx
        cases x with
        | none => exact fails_pure rfl
        | some _ => simp at hx
    · intro ty size subs bp
      rw [readGroupSubChunks]
      split
      · refine extends_bind (ihc ty) ?_ ?_
        · intro x hx _
          cases x with
          | none => simp at hx
          | some c =>
            exact extends_bind (okm := fun _ => true) (extends_ofOut _ _)
              (fun b _ _ => ihg _ _ _ _) (by intro a h; simp at h)
        · intro x hx
          cases x with
          | none => exact fails_pure rfl
          | some _ => simp at hx
      · split
        · exact extends_bind (okm := fun _ => true) (extends_emit _ _)
            (fun b _ _ => extends_pure _ _) (by intro a h; simp at h)
        · exact extends_pure _ _
    · intro ty size subs props bp
      rw [readListSubChunks]
      split
      · refine extends_bind (ihc ty) ?_ ?_
        · intro x hx _
          cases x with
          | none => simp at hx
          | some c =>
            refine extends_bind (okm := fun _ => true) (extends_ofOut _ _)
              (fun b _ _ => ?_) (by intro a h; simp at h)
            split
            · exact ihl _ _ _ _ _
            · exact ihl _ _ _ _ _
        · intro x hx
          cases x with
          | none => exact fails_pure rfl
          | some _ => simp at hx
      · split
        · exact extends_bind (okm := fun _ => true) (extends_emit _ _)
            (fun b _ _ => extends_pure _ _) (by intro a h; simp at h)
        · exact extends_pure _ _

end Iff
