import Verif.Proofs.ReadExtend
/-
  A successful read depends on the bytes it consumes only.
-/
namespace Iff
open Spec

/-- If `m` succeeds, it consumes some bytes `w`, and does the same whatever follows them. -/
def Local {α : Type} (ok : α → Bool) (m : M RS α) : Prop :=
  ∀ (inp : List Byte) (log : List Msg) (a : α) (s' : RS), m ⟨inp, log⟩ = .val (a, s') →
    ok a = true → ∃ w, inp = w ++ s'.inp ∧ ∀ q, m ⟨w ++ q, log⟩ = .val (a, ⟨q, s'.log⟩)

theorem local_pure {α : Type} (ok : α → Bool) (a : α) : Local ok (pure a) := by
  intro inp log b s' h _
  simp at h
  obtain ⟨rfl, rfl⟩ := h
  exact ⟨[], rfl, fun q => rfl⟩

theorem local_emit (ok : Unit → Bool) (m : Msg) : Local ok (RS.emit m) := by
  intro inp log b s' h _
  simp [RS.emit] at h
  subst h
  exact ⟨[], rfl, fun q => rfl⟩

theorem local_ofOut {α : Type} (ok : α → Bool) (o : Out α) : Local ok (M.ofOut o) := by
  intro inp log b s' h _
  cases o with
  | val a =>
    simp at h
    obtain ⟨rfl, rfl⟩ := h
    exact ⟨[], rfl, fun q => rfl⟩
  | ub u => simp at h
  | loop => simp [M.ofOut] at h

theorem local_bind {α β : Type} {okm : α → Bool} {ok : β → Bool} {m : M RS α} {f : α → M RS β}
    (hm : Local okm m)
    (hf : ∀ a, okm a = true → (∃ s s', m s = .val (a, s')) → Local ok (f a))
    (hn : ∀ a, okm a = false → Fails ok (f a)) : Local ok (m >>= f) := by
  intro inp log b s' h hb
  rw [M.bind_apply] at h
  cases hx : m ⟨inp, log⟩ with
  | ub u => simp [hx] at h
  | loop => simp [hx] at h
  | val x =>
    obtain ⟨a, ⟨i1, l1⟩⟩ := x
    rw [hx] at h
    simp only at h
    by_cases hok : okm a = true
    · obtain ⟨w1, h1, h2⟩ := hm _ _ _ _ hx hok
      obtain ⟨w2, h3, h4⟩ := hf a hok ⟨_, _, hx⟩ _ _ _ _ h hb
      simp only at h1 h2
      refine ⟨w1 ++ w2, by rw [h1, h3]; simp, fun q => ?_⟩
      rw [M.bind_apply, List.append_assoc, h2]
      exact h4 q
    · obtain ⟨b', s'', h5, h6⟩ := hn a (by simpa using hok) ⟨i1, l1⟩
      rw [h5] at h
      cases h
      rw [h6] at hb
      cases hb

theorem local_of_fails {α : Type} {ok : α → Bool} {m : M RS α} (h : Fails ok m) : Local ok m := by
  intro inp log a s' hm ha
  obtain ⟨b, s'', h1, h2⟩ := h ⟨inp, log⟩
  rw [h1] at hm
  cases hm
  rw [h2] at ha
  cases ha

theorem local_fread {n : Nat} : Local (fun d : List Byte => !decide (d.length < n)) (fread n) := by
  intro inp log a s' h ha
  simp [fread] at h
  obtain ⟨rfl, rfl⟩ := h
  simp only [List.length_take, Bool.not_eq_true', decide_eq_false_iff_not] at ha
  refine ⟨inp.take n, by simp, fun q => ?_⟩
  have hl : (inp.take n).length = n := by rw [List.length_take]; omega
  simp only [fread]
  rw [List.take_left' hl, List.drop_left' hl]

theorem local_fgetc : Local Option.isSome fgetc := by
  intro inp log a s' h ha
  cases inp with
  | nil => simp [fgetc] at h; obtain ⟨rfl, rfl⟩ := h; simp at ha
  | cons b bs =>
    simp [fgetc] at h
    obtain ⟨rfl, rfl⟩ := h
    exact ⟨[b], rfl, fun q => rfl⟩

theorem local_readULong (e : Env) (id : ID) (a : String) :
    Local Option.isSome (readULong e id a) := by
  unfold readULong
  refine local_bind local_fread (fun d _ _ => ?_) (fun d hd s => ?_)
  · split
    · exact local_pure _ _
    · exact local_of_fails (fun s => ⟨none, _, rfl, rfl⟩)
  · split
    · simp at hd
    · exact ⟨none, _, rfl, rfl⟩

theorem local_readUWord (e : Env) (id : ID) (a : String) :
    Local Option.isSome (readUWord e id a) := by
  unfold readUWord
  refine local_bind local_fread (fun d _ _ => ?_) (fun d hd s => ?_)
  · split
    · exact local_pure _ _
    · exact local_of_fails (fun s => ⟨none, _, rfl, rfl⟩)
  · split
    · simp at hd
    · exact ⟨none, _, rfl, rfl⟩

theorem local_readUByte (id : ID) (a : String) : Local Option.isSome (readUByte id a) := by
  unfold readUByte
  refine local_bind local_fgetc ?_ ?_
  · intro d hd _
    cases d with
    | none => simp at hd
    | some b => exact local_pure _ _
  · intro d hd s
    cases d with
    | none => exact ⟨none, _, rfl, rfl⟩
    | some b => simp at hd

theorem local_map {α β : Type} {m : M RS (Option α)} (f : α → β)
    (h : Local Option.isSome m) : Local Option.isSome (do pure ((← m).map f)) := by
  refine local_bind h (fun a _ _ => local_pure _ _) (fun a ha => ?_)
  refine fails_pure ?_
  cases a <;> simp at ha ⊢

theorem local_readVal (e : Env) (k : FieldKind) (id : ID) (a : String) :
    Local Option.isSome (readVal e k id a) := by
  cases k <;> simp only [readVal, readWord_eq, readLong_eq, readId_eq]
  case ubyte => exact local_map _ (local_readUByte id a)
  case uword | word => exact local_map _ (local_readUWord e id a)
  all_goals exact local_map _ (local_readULong e id a)

theorem local_readField (e : Env) (k : FieldKind) (id : ID) (size : Int)
    (a : String) (cur : Val) (bp : Int) :
    Local (fun x : FieldStatus × Val × Int => deriveSuccess x.1)
      (readField e k id size a cur bp) := by
  unfold readField
  split
  · exact local_pure _ _
  · refine local_bind (local_readVal e k id a) ?_ ?_
    · intro x hx _
      cases x with
      | none => simp at hx
      | some v => exact local_pure _ _
    · intro x hx
      cases x with
      | none => exact fails_pure rfl
      | some v => simp at hx

theorem local_readExtFields (e : Env) (id : ID) (size : Int) :
    ∀ (fields : List Field) (cur done : List Val) (bp : Int),
      Local (fun x : Bool × List Val × Int => x.1) (readExtFields e id size fields cur done bp)
  | [], _, _, _ => by unfold readExtFields; exact local_pure _ _
  | _ :: _, [], _, _ => by unfold readExtFields; exact local_pure _ _
  | f :: fs, v :: vs, done, bp => by
    unfold readExtFields
    refine local_bind (local_readField _ _ _ _ _ _ _) ?_ ?_
    · intro a _ _
      obtain ⟨st, v', bp'⟩ := a
      cases st
      · exact local_readExtFields e id size fs vs _ _
      · exact local_pure _ _
      · exact local_pure _ _
    · intro a ha
      obtain ⟨st, v', bp'⟩ := a
      cases st
      · simp [deriveSuccess] at ha
      · exact fails_pure rfl
      · simp [deriveSuccess] at ha

theorem local_readRawChunk (e : Env) (id : ID) (size bp : Int) :
    Local (fun x : Bool × List Byte × Int => x.1) (readRawChunk e id size bp) := by
  unfold readRawChunk
  refine local_bind local_fread ?_ ?_
  · intro d hd _
    rw [if_neg (by simpa using hd)]
    refine local_bind (okm := fun _ => true) (local_ofOut _ _) (fun b _ _ => local_pure _ _) ?_
    intro a h; simp at h
  · intro d hd s
    rw [if_pos (by simpa using hd)]; exact ⟨_, _, rfl, rfl⟩

theorem local_padding (size : Int) (id : ID) :
    Local (fun b : Bool => b) (readPaddingByte size id) := by
  unfold readPaddingByte
  split
  · refine local_bind local_fgetc ?_ ?_
    · intro d hd _
      cases d with
      | none => simp at hd
      | some b =>
        simp only
        split
        · exact local_bind (okm := fun _ => true) (local_emit _ _)
            (fun b _ _ => local_pure _ _) (by intro a h; simp at h)
        · exact local_pure _ _
    · intro d hd s
      cases d with
      | none => exact ⟨false, _, rfl, rfl⟩
      | some b => simp at hd
  · exact local_pure _ _

theorem local_skip (e : Env) (id : ID) (size bp : Int) (ht : size ≤ bp ∨ e.seekable = false) :
    Local (fun b : Bool => b) (skipUnknownBytes e id size bp) := by
  unfold skipUnknownBytes
  split
  · refine local_bind (okm := fun _ => true) (local_ofOut _ _) (fun n _ _ => ?_)
      (by intro a h; simp at h)
    have hs : e.seekable = false := by
      rcases ht with ht | ht
      · omega
      · exact ht
    refine local_of_fails (fun s => ⟨false, s, ?_, rfl⟩)
    simp [M.bind_apply, fseekCur, hs]
  · exact local_pure _ _

theorem local_finish (e : Env) (size : Int) (ok : Bool) (c : Chunk) (bp : Int)
    (ht : ok = true → size ≤ bp ∨ e.seekable = false) :
    Local Option.isSome (finishChunk e size ok c bp) := by
  unfold finishChunk
  split
  · rename_i hok
    refine local_bind (local_skip e c.id size bp (ht hok)) ?_ ?_
    · intro b hb _
      simp only [hb, if_true]
      refine local_bind (local_padding size c.id) ?_ ?_
      · intro b hb _
        simp only [hb, if_true]
        exact local_pure _ _
      · intro b hb
        simp only [hb]
        exact fails_pure rfl
    · intro b hb
      simp only [hb]
      exact fails_pure rfl
  · exact local_of_fails (fails_pure rfl)

theorem read_local {e : Env} (he : e.Sane) {r : Registry}
    (ht : NoExt r ∨ e.seekable = false) : ∀ n : Nat,
    (∀ ft, Local Option.isSome (readChunk e r n ft)) ∧
    (∀ ty size subs bp, Local (fun x : Bool × List Chunk × Int => x.1)
      (readGroupSubChunks e r n ty size subs bp)) ∧
    (∀ ty size subs props bp, Local (fun x : Bool × List Chunk × List Chunk × Int => x.1)
      (readListSubChunks e r n ty size subs props bp)) := by
  intro n
  induction n with
  | zero =>
    refine ⟨?_, ?_, ?_⟩
    · intro ft inp log a s' h; simp [readChunk] at h
    · intro ty size subs bp inp log a s' h; simp [readGroupSubChunks] at h
    · intro ty size subs props bp inp log a s' h; simp [readListSubChunks] at h
  | succ n ih =>
    obtain ⟨ihc, ihg, ihl⟩ := ih
    refine ⟨?_, ?_, ?_⟩
    · intro ft
      rw [readChunk_succ]
      refine local_bind (okm := Option.isSome) (by rw [readId_eq]; exact local_readULong _ _ _) ?_ ?_
      · intro x hx _
        cases x with
        | none => simp at hx
        | some id =>
          refine local_bind (okm := Option.isSome)
            (by rw [readLong_eq]; exact local_readULong _ _ _) ?_ ?_
          · intro x hx _
            cases x with
            | none => simp at hx
            | some sz =>
              simp only
              generalize hh : findChunkType r ft id = hd
              rcases Handler.cases' hd with rfl | hk | rfl | ⟨fields, chk, rfl⟩
              · rw [readBody_raw]
                split
                · refine local_bind (local_readRawChunk _ _ _ _) ?_ ?_
                  · intro x hx hex
                    obtain ⟨ok, data, bp⟩ := x
                    refine local_finish _ _ _ _ _ (fun _ => Or.inl ?_)
                    obtain ⟨s, s', h⟩ := hex
                    simp only at hx
                    subst hx
                    unfold readRawChunk at h
                    simp only [M.bind_apply, fread] at h
                    split at h
                    · simp [M.bind_apply, RS.emit] at h
                    · simp only [M.bind_apply] at h
                      rw [addInt_ok (by simpa using toInt_inInt sz)] at h
                      simp only [M.ofOut_val, M.pure_apply, Out.val.injEq, Prod.mk.injEq] at h
                      omega
                  · intro x hx
                    obtain ⟨ok, data, bp⟩ := x
                    simp only at hx
                    subst hx
                    exact fails_finish _ _ _ _
                · exact local_pure _ _
              · rw [readBody_grp _ _ _ _ _ hk]
                refine local_bind (local_readField _ _ _ _ _ _ _) ?_ ?_
                · intro a ha hex
                  obtain ⟨s, s', hex⟩ := hex
                  obtain ⟨st, v, bp⟩ := a
                  rcases readField_id_inv he.wide hex with ⟨rfl, _⟩ | rfl
                  · refine local_bind (ihg _ _ _ _) ?_ ?_
                    · intro x hx hex
                      obtain ⟨ok, subs, bp⟩ := x
                      simp only at hx
                      subst hx
                      obtain ⟨s, s', hex⟩ := hex
                      obtain ⟨ps, _, _, _, htr⟩ := (read_loose he n).2.1 _ _ _ _ _ _ _ _ hex
                      exact local_finish _ _ _ _ _ (fun _ => Or.inl (trace_le htr))
                    · intro x hx
                      obtain ⟨ok, subs, bp⟩ := x
                      simp only at hx
                      subst hx
                      exact fails_finish _ _ _ _
                  · simp [deriveSuccess] at ha
                · intro a ha
                  obtain ⟨st, v, bp⟩ := a
                  cases st
                  · simp [deriveSuccess] at ha
                  · exact fails_finish _ _ _ _
                  · simp [deriveSuccess] at ha
              · rw [readBody_lst]
                refine local_bind (local_readField _ _ _ _ _ _ _) ?_ ?_
                · intro a ha hex
                  obtain ⟨s, s', hex⟩ := hex
                  obtain ⟨st, v, bp⟩ := a
                  rcases readField_id_inv he.wide hex with ⟨rfl, _⟩ | rfl
                  · refine local_bind (ihl _ _ _ _ _) ?_ ?_
                    · intro x hx hex
                      obtain ⟨ok, subs, props, bp⟩ := x
                      simp only at hx
                      subst hx
                      obtain ⟨s, s', hex⟩ := hex
                      obtain ⟨ps, _, _, _, _, htr⟩ := (read_loose he n).2.2 _ _ _ _ _ _ _ _ _ _ hex
                      simp only [if_true]
                      exact local_finish _ _ _ _ _ (fun _ => Or.inl (trace_le htr))
                    · intro x hx s
                      obtain ⟨ok, subs, props, bp⟩ := x
                      simp only at hx
                      subst hx
                      exact ⟨none, _, rfl, rfl⟩
                  · simp [deriveSuccess] at ha
                · intro a ha
                  obtain ⟨st, v, bp⟩ := a
                  cases st
                  · simp [deriveSuccess] at ha
                  · exact fails_finish _ _ _ _
                  · simp [deriveSuccess] at ha
              · rw [readBody_ext]
                refine local_bind (local_readExtFields _ _ _ _ _ _ _) ?_ ?_
                · intro x hx _
                  obtain ⟨ok, vals, bp⟩ := x
                  refine local_finish _ _ _ _ _ (fun _ => ?_)
                  rcases ht with ht | ht
                  · exact absurd hh (ht _ _ _ _)
                  · exact Or.inr ht
                · intro x hx
                  obtain ⟨ok, vals, bp⟩ := x
                  simp only at hx
                  subst hx
                  exact fails_finish _ _ _ _
          · intro x hx
            cases x with
            | none => exact fails_pure rfl
            | some _ => simp at hx
      · intro x hx
        cases x with
        | none => exact fails_pure rfl
        | some _ => simp at hx
    · intro ty size subs bp
      rw [readGroupSubChunks]
      split
      · refine local_bind (ihc ty) ?_ ?_
        · intro x hx _
          cases x with
          | none => simp at hx
          | some c =>
            exact local_bind (okm := fun _ => true) (local_ofOut _ _)
              (fun b _ _ => ihg _ _ _ _) (by intro a h; simp at h)
        · intro x hx
          cases x with
          | none => exact fails_pure rfl
          | some _ => simp at hx
      · split
        · exact local_bind (okm := fun _ => true) (local_emit _ _)
            (fun b _ _ => local_pure _ _) (by intro a h; simp at h)
        · exact local_pure _ _
    · intro ty size subs props bp
      rw [readListSubChunks]
      split
      · refine local_bind (ihc ty) ?_ ?_
        · intro x hx _
          cases x with
          | none => simp at hx
          | some c =>
            refine local_bind (okm := fun _ => true) (local_ofOut _ _)
              (fun b _ _ => ?_) (by intro a h; simp at h)
            split
            · exact ihl _ _ _ _ _
            · exact ihl _ _ _ _ _
        · intro x hx
          cases x with
          | none => exact fails_pure rfl
          | some _ => simp at hx
      · split
        · exact local_bind (okm := fun _ => true) (local_emit _ _)
            (fun b _ _ => local_pure _ _) (by intro a h; simp at h)
        · exact local_pure _ _

end Iff
