import Verif.Proofs.CheckQuiet
import Verif.Props.ReadWrite
import Verif.Model.TestApp
/-
  C20 IFF_check decides IFF-85 conformance.
  C21 The -1 failure marker of the size computation never collides with a real size.
  C22 A rejected hierarchy is always explained, an accepted one never.
  C46 Filler chunks are accepted.
-/
namespace Iff
open Spec

/-! ### C20 -/

/-- C20, what holds: `IFF_check` returns TRUE if the hierarchy follows the rules, with form types
as the code accepts them, and FALSE otherwise; in particular it executes no undefined behaviour.
Missing: `AcceptedFormType` in `Conforms` is weaker than the rule of doc/IFF.asc, `LegalFormType`
(C05). -/
theorem C20_check_decides_partial (e : Env) (he : e.Sane) (c : Chunk) (hs : Standard c)
    (hr : RawSizes c) (hp : PropArrays c) (hl : (encode c).length < 2147483648) (log : List Msg) :
    (Conforms c → check e none c log = .val (true, log)) ∧
    (¬ Conforms c → ∃ log', check e none c log = .val (false, log')) := by
  have hd : Decides (Conforms c) (check e none c) := by
    unfold check Conforms
    split
    · rename_i h
      exact decides_emit (by rintro ⟨h1 | h1 | h1, _⟩ <;> simp [h1] at h) _
    · rename_i h
      refine ((check_member he.wide c hs hr hp hl 0).decides).congr ⟨fun h' => ⟨?_, h'⟩, And.right⟩
      unfold Composite
      refine Classical.byContradiction fun hn => h ⟨fun a => hn (Or.inl a), fun a => hn (Or.inr (Or.inl a)),
        fun a => hn (Or.inr (Or.inr a))⟩
  rcases hd log with ⟨h1, h2⟩ | ⟨h1, l, h2, _⟩
  · exact ⟨fun _ => h2, fun h => absurd h1 h⟩
  · exact ⟨fun h => absurd h h1, fun _ => ⟨l, h2⟩⟩

theorem accepted_of_legal {id : ID} (h : LegalFormType id) : AcceptedFormType id := by
  refine ⟨h.1, fun c hc => ⟨(h.2.1 c hc).1, ?_⟩, h.2.2⟩
  rintro rfl
  apply (h.2.1 _ hc).2
  unfold IsPunct IsLower
  decide

theorem Spec.ConformsBy.mono {F G : ID → Prop} (hfg : ∀ id, F id → G id) {c : Chunk}
    (h : ConformsBy F c) : ConformsBy G c := by
  induction h with
  | data h => exact .data h
  | form h1 h2 h3 _ ih => exact .form (hfg _ h1) h2 h3 ih
  | prop h1 h2 h3 _ ih => exact .prop (hfg _ h1) h2 h3 ih
  | cat h1 h2 h3 h4 _ ih => exact .cat h1 h2 h3 h4 ih
  | list h1 h2 h3 h4 h5 _ _ ih ih2 => exact .list h1 h2 h3 h4 h5 ih ih2

/-- C20: no valid hierarchy is rejected. -/
theorem C20_legal_accepted_partial (e : Env) (he : e.Sane) (c : Chunk) (hs : Standard c)
    (hr : RawSizes c) (hp : PropArrays c) (hl : (encode c).length < 2147483648) (hc : Legal c)
    (log : List Msg) : check e none c log = .val (true, log) :=
  (C20_check_decides_partial e he c hs hr hp hl log).1
    ⟨hc.1, hc.2.mono fun _ => accepted_of_legal⟩

/-- An empty FORM of type 'A!BC'. -/
def punctuated : Chunk := .grp idFORM 4 (makeId 'A' '!' 'B' 'C') []

theorem legal_form_type {size : Int} {ty : ID} {subs : List Chunk}
    (h : Legal (.grp idFORM size ty subs)) : LegalFormType ty := by
  obtain ⟨_, h⟩ := h
  generalize hx : Chunk.grp idFORM size ty subs = x at h
  cases h <;> simp only [Chunk.grp.injEq, reduceCtorEq] at hx
  · rw [hx.2.2.1]; assumption
  · exact absurd hx.1 (by decide)
  · exact absurd hx.1 (by decide)

/-- C20 is false in the other direction: a FORM of type 'A!BC' is not legal but accepted. -/
theorem C20_false : ∃ c, ¬ Legal c ∧ ∀ e, e.Sane → ∀ log, check e none c log = .val (true, log) := by
  refine ⟨punctuated, fun h => ?_, fun e he log => ?_⟩
  · have h2 := (legal_form_type h).2.1
    have : chars (makeId 'A' '!' 'B' 'C') = [65, 33, 66, 67] := by decide
    rw [this] at h2
    exact (h2 33 (by simp)).2 (by unfold IsPunct IsLower; decide)
  · refine (C20_check_decides_partial e he punctuated (.grp (Or.inl rfl) (by simp)) ?_ ?_
      (by decide) log).1 ⟨Or.inl rfl, .form ?_ (by simp) (by decide) (by simp)⟩
    · intro id size data h
      cases h with
      | grp h1 _ => simp at h1
    · intro id size ty subs props h
      cases h with
      | grp h1 _ => simp at h1
    · refine ⟨?_, ?_, ?_⟩
      · unfold ValidId; decide
      · unfold IsLower; decide
      · rw [← reserved_iff]; decide

/-! ### C21 -/

/-- C21: whatever the declared sizes are, if the size computation for the members of a group yields
-1 then some member was found invalid: it is not allowed in the group, or its own check failed. -/
theorem C21_marker_means_invalid (e : Env) (he : e.Sane) (r : Registry) (ty : ID)
    (sub : Chunk → M (List Msg) Bool) (cs : List Chunk) (log log' : List Msg)
    (h : checkGroupSubChunks e r ty sub cs 0 log = .val (-1, log')) :
    ∃ c ∈ cs, ∃ l l', sub c l = .val (false, l') ∨ checkChunk e r ty c l = .val (false, l') :=
  sum_minus_one he.wide cs 0 rfl log log' h

/-- C21 for the PROP chunks of a LIST. -/
theorem C21_marker_means_invalid_props (e : Env) (he : e.Sane) (r : Registry) (ty : ID)
    (cs : List Chunk) (log log' : List Msg)
    (h : checkListPropChunks e r ty cs 0 log = .val (-1, log')) :
    ∃ c ∈ cs, ∃ l l', checkChunk e r ty c l = .val (false, l') := by
  rw [checkListPropChunks_eq] at h
  obtain ⟨c, hc, l, l', h1 | h1⟩ := sum_minus_one he.wide cs 0 rfl log log' h
  · simp at h1
  · exact ⟨c, hc, l, l', h1⟩

/-- C21, the other direction: any other result means that every member was found valid. -/
theorem C21_other_sizes_mean_valid (e : Env) (r : Registry) (ty : ID)
    (sub : Chunk → M (List Msg) Bool) :
    ∀ (cs : List Chunk) (acc n : Int) (log log' : List Msg),
      checkGroupSubChunks e r ty sub cs acc log = .val (n, log') → n ≠ -1 →
      ∀ c ∈ cs, ∃ l l' l'', sub c l = .val (true, l') ∧ checkChunk e r ty c l' = .val (true, l'')
  | [], _, _, _, _, _ => fun _ c hc => nomatch hc
  | c :: cs, acc, n, log, log', h => by
    intro hn d hd
    simp only [checkGroupSubChunks, M.bind_apply] at h
    cases hx : sub c log with
    | ub u => simp [hx] at h
    | loop => simp [hx] at h
    | val x =>
      obtain ⟨y, l⟩ := x
      cases y with
      | false => simp [hx] at h; exact absurd h.1.symm hn
      | true =>
        simp only [hx, if_true, M.bind_apply] at h
        cases hy : checkChunkWith e c (checkFields e r (findChunkType r ty c.id) c) l with
        | ub u => simp [hy] at h
        | loop => simp [hy] at h
        | val x =>
          obtain ⟨y, l'⟩ := x
          cases y with
          | false => simp [hy] at h; exact absurd h.1.symm hn
          | true =>
            simp only [hy, if_true, M.bind_apply] at h
            cases hi : incrementChunkSize e acc c.size with
            | ub u => simp [hi] at h
            | loop => simp [hi, M.ofOut] at h
            | val b =>
              simp only [hi, M.ofOut_val] at h
              cases hd with
              | head => exact ⟨_, _, _, hx, hy⟩
              | tail _ hd => exact C21_other_sizes_mean_valid e r ty sub cs b n _ _ h hn d hd

/-- The other direction for the PROP chunks of a LIST. -/
theorem C21_other_sizes_mean_valid_props (e : Env) (r : Registry) (ty : ID) (cs : List Chunk)
    (acc n : Int) (log log' : List Msg)
    (h : checkListPropChunks e r ty cs acc log = .val (n, log')) (hn : n ≠ -1) :
    ∀ c ∈ cs, ∃ l l', checkChunk e r ty c l = .val (true, l') := by
  rw [checkListPropChunks_eq] at h
  intro c hc
  obtain ⟨_, l, l', _, h2⟩ := C21_other_sizes_mean_valid e r ty _ cs acc n log log' h hn c hc
  exact ⟨l, l', h2⟩

/-- Non-vacuity: sizes may be negative and the sum may pass through -1 before padding (here
8 - 15 + 1 + 8 - 3 = -1, plus 1), but the computation yields -1 only for the invalid member. -/
example (log : List Msg) :
    checkGroupSubChunks pc defaultRegistry idTEST formSubChunkCheck
      [.raw idHELO (-15) [], .raw idHELO (-3) []] 0 log = .val (0, log) ∧
    checkGroupSubChunks pc defaultRegistry idTEST formSubChunkCheck
      [.raw idHELO (-15) [], .grp idPROP 4 idTEST []] 0 log = .val (-1, log ++ [.notInForm idPROP]) := by
  have h1 : ∀ l, checkId pc idHELO l = .val (true, l) := fun _ => by rfl
  have h2 : findChunkType defaultRegistry idTEST idHELO = .raw := by rfl
  have h3 : incrementChunkSize pc 0 (-15) = .val (-6) := by decide
  have h4 : incrementChunkSize pc (-6) (-3) = .val 0 := by decide
  have h5 : ¬ idHELO = idPROP := by decide
  constructor <;>
    simp [checkGroupSubChunks, formSubChunkCheck, checkChunkWith, checkFields, M.bind_apply,
      Chunk.id, Chunk.size, h1, h2, h3, h4, h5, emit]

/-! ### C22 -/

/-- C22, for every registry and every hierarchy: when `IFF_check` returns, it has reported nothing if
the result is TRUE, and at least one error if it is FALSE. -/
theorem C22_explained (e : Env) (he : e.Sane) (reg : Option Registry) (c : Chunk)
    (log log' : List Msg) (b : Bool) (h : check e reg c log = .val (b, log')) :
    (b = true → log' = log) ∧ (b = false → ∃ m ms, log' = log ++ m :: ms) := by
  have hx : Explains (check e reg c) := by
    unfold check
    split
    · exact explains_emit _
    · exact ((decides_checkId e c.id).explains).and (explains_check he.wide c _)
  simpa [Reports] using hx log b log' h

/-! ### C46 -/

/-- The ID of filler chunks, four spaces. -/
def idFiller : ID := makeId ' ' ' ' ' ' ' '

theorem Spec.ConformsBy.within {F : ID → Prop} {id : ID} {size : Int} {data : List Byte} {c : Chunk}
    (hw : Within (.raw id size data) c) (h : ConformsBy F c) : ValidId id := by
  induction hw with
  | self => cases h; assumption
  | grp hm _ ih =>
    cases h with
    | form _ _ _ h => exact ih (h _ hm)
    | prop _ _ _ h => exact ih (h _ hm)
    | cat _ _ _ _ h => exact ih (h _ hm)
  | sub hm _ ih =>
    cases h with
    | list _ _ _ _ _ h _ => exact ih (h _ hm)
  | prop hm _ ih =>
    cases h with
    | list _ _ _ _ _ _ h => exact ih (h _ hm)

/-- C46 is false, in the strongest way: no hierarchy with a filler chunk in it, whatever else is in
it, passes `IFF_check`. -/
theorem C46_filler_rejected (e : Env) (he : e.Sane) (c : Chunk) (hs : Standard c)
    (hr : RawSizes c) (hp : PropArrays c) (hl : (encode c).length < 2147483648)
    (size : Int) (data : List Byte) (hw : Within (.raw idFiller size data) c) (log : List Msg) :
    ∃ log', check e none c log = .val (false, log') := by
  refine (C20_check_decides_partial e he c hs hr hp hl log).2 fun h => ?_
  have := (h.2.within hw).2
  exact this (by decide)

/-- C46 is false: the witness. -/
theorem C46_false :
    check pc none (.grp idFORM 4 idTEST []) [] = .val (true, []) ∧
    check pc none (.grp idFORM 12 idTEST [.raw idFiller 0 []]) [] = .val (false, [.leadingSpace]) := by
  refine ⟨by rfl, by rfl⟩

end Iff
