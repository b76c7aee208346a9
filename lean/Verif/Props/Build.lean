import Verif.Spec.Build
import Verif.Props.Write
/-
  C27 Adding chunks keeps sizes consistent.
  C28 Automatic contents type is the common type or JJJJ.
-/
namespace Iff
open Spec

/-! ### C27 -/

theorem Spec.Consistent.encode_length {c : Chunk} (h : Consistent c) :
    ((encode c).length : Int) = span c.size := by
  have := h.length
  unfold span; omega

theorem encode_ge (c : Chunk) : 8 ≤ (encode c).length := by
  cases c <;> simp [encode] <;> omega

/-- One addition: if the group and the chunk are consistent and the result fits in 31 bits, the
addition is defined and its result is consistent; the chunk comes last. -/
theorem addToGroup_consistent {e : Env} (he : 32 ≤ e.sizeBits) {g c : Chunk} (hg : Consistent g)
    (hc : Consistent c) (hty : ∃ t, g.groupType = .val t)
    (hfit : g.size + (encode c).length < 2147483648) :
    ∃ g', addToGroup e g c = .val g' ∧ Consistent g' ∧ g'.id = g.id ∧
      g'.groupType = g.groupType ∧ members g' = members g ++ [c] ∧ propsOf g' = propsOf g := by
  have hl := hc.length
  have hr := hc.range
  have hgr := hg.range
  cases g with
  | raw => simp [Chunk.groupType] at hty
  | ext => simp [Chunk.groupType] at hty
  | grp id size ty subs =>
    simp only [Chunk.size] at hfit hgr
    cases hg with
    | grp h1 h2 h3 =>
      refine ⟨.grp id (size + (8 + c.size + c.size % 2)) ty (subs ++ [c]), ?_, ?_, rfl, rfl, rfl, rfl⟩
      · unfold addToGroup
        simp only
        rw [incrementChunkSize_ok e he hgr.1 hr.1 (by omega)]
        rfl
      · refine .grp ?_ (by omega) ?_
        · rw [encodeAll_append]; simp [encodeAll]; omega
        · intro d hd
          rcases List.mem_append.mp hd with hd | hd
          · exact h3 d hd
          · simp at hd; rw [hd]; exact hc
  | lst id size ty subs props =>
    simp only [Chunk.size] at hfit hgr
    cases hg with
    | lst h1 h2 h3 h4 =>
      refine ⟨.lst id (size + (8 + c.size + c.size % 2)) ty (subs ++ [c]) props, ?_, ?_, rfl, rfl, rfl, rfl⟩
      · unfold addToGroup
        simp only
        rw [incrementChunkSize_ok e he hgr.1 hr.1 (by omega)]
        rfl
      · refine .lst ?_ (by omega) ?_ h4
        · rw [encodeAll_append]; simp [encodeAll]; omega
        · intro d hd
          rcases List.mem_append.mp hd with hd | hd
          · exact h3 d hd
          · simp at hd; rw [hd]; exact hc

/-- C27, one step: adding a consistent chunk to a consistent group (FORM, CAT, PROP or LIST) is
defined and gives a consistent group with the chunk as last member, as long as the size fits in 31
bits. -/
theorem C27_add (e : Env) (he : e.Sane) (g c : Chunk) (hg : Consistent g)
    (hc : Consistent c) (hty : ∃ t, g.groupType = .val t)
    (hfit : g.size + (encode c).length < 2147483648) :
    ∃ g', addToGroup e g c = .val g' ∧ Consistent g' ∧ g'.id = g.id ∧
      g'.groupType = g.groupType ∧ members g' = members g ++ [c] ∧ propsOf g' = propsOf g :=
  addToGroup_consistent he.wide hg hc hty hfit

theorem addPropToList_consistent {e : Env} (he : 32 ≤ e.sizeBits) {id : ID} {size : Int} {ty : ID}
    {subs props : List Chunk} (hg : Consistent (.lst id size ty subs props)) {pid : ID} {psize : Int}
    {pty : ID} {psubs : List Chunk} (hc : Consistent (.grp pid psize pty psubs))
    (hfit : size + (encode (.grp pid psize pty psubs)).length < 2147483648) :
    ∃ size', addPropToList e (.lst id size ty subs props) (.grp pid psize pty psubs) =
        .val (.lst id size' ty subs (props ++ [.grp pid psize pty psubs])) ∧
      Consistent (.lst id size' ty subs (props ++ [.grp pid psize pty psubs])) := by
  have hl := hc.length
  have hr := hc.range
  have hgr := hg.range
  simp only [Chunk.size] at hfit hgr hr hl
  cases hg with
  | lst h1 h2 h3 h4 =>
    refine ⟨size + (8 + psize + psize % 2), ?_, ?_⟩
    · unfold addPropToList
      simp only
      rw [incrementChunkSize_ok e he hgr.1 hr.1 (by omega)]
      rfl
    · refine .lst ?_ (by omega) h3 ?_
      · rw [encodeAll_append]; simp only [encodeAll, List.length_append, List.append_nil]; omega
      · intro d hd
        rcases List.mem_append.mp hd with hd | hd
        · exact h4 d hd
        · simp only [List.mem_singleton] at hd; rw [hd]; exact hc

/-- C27, one step, for PROPs of a LIST. -/
theorem C27_add_prop (e : Env) (he : e.Sane) (id : ID) (size : Int) (ty : ID) (subs props : List Chunk)
    (hg : Consistent (.lst id size ty subs props)) (pid : ID) (psize : Int)
    (pty : ID) (psubs : List Chunk) (hc : Consistent (.grp pid psize pty psubs))
    (hfit : size + (encode (.grp pid psize pty psubs)).length < 2147483648) :
    ∃ size', addPropToList e (.lst id size ty subs props) (.grp pid psize pty psubs) =
        .val (.lst id size' ty subs (props ++ [.grp pid psize pty psubs])) ∧
      Consistent (.lst id size' ty subs (props ++ [.grp pid psize pty psubs])) :=
  addPropToList_consistent he.wide hg hc hfit

/-- The encoding of the result of an addition has room for both. -/
theorem addToGroup_grows {e : Env} {g c g' : Chunk} (h : addToGroup e g c = .val g') :
    (∃ t, g.groupType = .val t) ∧
      (encode g).length + (encode c).length ≤ (encode g').length + 1 := by
  cases g with
  | raw => simp [addToGroup] at h
  | ext => simp [addToGroup] at h
  | grp id size ty subs =>
    obtain ⟨size', h1, h2⟩ := Out.bind_eq_val.mp h
    simp only [Out.val.injEq] at h2
    subst h2
    have := pad_length size
    refine ⟨⟨_, rfl⟩, ?_⟩
    simp [encode, encodeAll_append, encodeAll]; omega
  | lst id size ty subs props =>
    obtain ⟨size', h1, h2⟩ := Out.bind_eq_val.mp h
    simp only [Out.val.injEq] at h2
    subst h2
    have := pad_length size
    refine ⟨⟨_, rfl⟩, ?_⟩
    simp [encode, encodeAll_append, encodeAll]; omega

/-- Updating the contents type changes nothing else. -/
theorem updateContentsType_keeps {g c g' : Chunk} (h : updateContentsType g c = .val g') :
    g'.id = g.id ∧ g'.size = g.size ∧ members g' = members g ∧ propsOf g' = propsOf g ∧
    (encode g').length = (encode g).length ∧ (Consistent g → Consistent g') ∧
    ((∃ t, g.groupType = .val t) → ∃ t, g'.groupType = .val t) := by
  unfold updateContentsType at h
  split at h
  · obtain ⟨t, h1, h2⟩ := Out.bind_eq_val.mp h
    cases g with
    | raw => simp at h2
    | ext => simp at h2
    | grp id size ty subs =>
      simp only [Out.val.injEq] at h2
      subst h2
      refine ⟨rfl, rfl, rfl, rfl, by simp [encode], ?_, fun _ => ⟨_, rfl⟩⟩
      rintro (_ | ⟨a, b, c⟩); exact .grp a b c
    | lst id size ty subs props =>
      simp only [Out.val.injEq] at h2
      subst h2
      refine ⟨rfl, rfl, rfl, rfl, by simp [encode], ?_, fun _ => ⟨_, rfl⟩⟩
      intro h
      cases h with
      | lst a b c d => exact .lst a b c d
  · simp only [Out.val.injEq] at h
    subst h
    exact ⟨rfl, rfl, rfl, rfl, rfl, id, id⟩

/-- C27: whatever was built bottom-up with the create and add functions, in any order and shape, has
consistent sizes at all levels, as long as its encoding is shorter than 2 GiB. -/
theorem C27_built_consistent (e : Env) (he : e.Sane) (c : Chunk) (h : Built e c)
    (hfit : (encode c).length < 2147483648) : Consistent c := by
  have key : ∀ {g c g' : Chunk}, ((encode g).length < 2147483648 → Consistent g) →
      ((encode c).length < 2147483648 → Consistent c) → addToGroup e g c = .val g' →
      (encode g').length < 2147483648 → Consistent g' := by
    intro g c g' hg hc h hfit
    obtain ⟨ht, hgrow⟩ := addToGroup_grows h
    have h8 := encode_ge c
    have h8' := encode_ge g
    have hg := hg (by omega)
    have hc := hc (by omega)
    have hgl := hg.length
    obtain ⟨g2, h1, h2, _⟩ := addToGroup_consistent he.wide hg hc ht (by omega)
    rw [h] at h1
    simp only [Out.val.injEq] at h1
    rw [h1]; exact h2
  induction h with
  | @raw id data =>
    simp only [encode, List.length_append, header_length] at hfit
    exact .raw rfl (by omega)
  | ext h1 h2 h3 => exact .ext h1 h2 h3
  | group => exact .grp rfl (by decide) (by simp)
  | list => exact .lst rfl (by decide) (by simp) (by simp)
  | add _ _ h ihg ihc => exact key ihg ihc h hfit
  | @addProp l p l' _ _ h ihg ihc =>
    cases l with
    | raw => simp [addPropToList] at h
    | ext => simp [addPropToList] at h
    | grp => simp [addPropToList] at h
    | lst id size ty subs props =>
    cases p with
    | raw => simp [addPropToList] at h
    | ext => simp [addPropToList] at h
    | lst => simp [addPropToList] at h
    | grp pid psize pty psubs =>
      obtain ⟨size', h1, h2⟩ := Out.bind_eq_val.mp h
      simp only [Out.val.injEq] at h2
      subst h2
      have h8 := encode_ge (.grp pid psize pty psubs)
      have hlen : (encode (.lst id size ty subs props)).length +
          (encode (.grp pid psize pty psubs)).length ≤
          (encode (.lst id size' ty subs (props ++ [.grp pid psize pty psubs]))).length + 1 := by
        have := pad_length size
        simp only [encode, encodeAll_append, encodeAll, List.length_append, header_length,
          be_length, List.append_nil]
        omega
      have h8' := encode_ge (.lst id size ty subs props)
      have hg := ihg (by omega)
      have hc := ihc (by omega)
      have hgl := hg.length
      simp only [Chunk.size] at hgl
      obtain ⟨size2, h3, h4⟩ := addPropToList_consistent he.wide hg hc (by omega)
      rw [h] at h3
      simp only [Out.val.injEq, Chunk.lst.injEq, true_and, and_true] at h3
      subst h3
      exact h4
  | addAuto _ _ h ihg ihc =>
    obtain ⟨g1, h1, h2⟩ := Out.bind_eq_val.mp h
    obtain ⟨_, _, _, _, hlen, hcons, _⟩ := updateContentsType_keeps h1
    exact key (fun hl => hcons (ihg (by omega))) ihc h2 hfit

/-- Non-vacuity: a FORM with a data chunk of odd size in a LIST with a PROP, and it fits. -/
example : ∃ c, Built pc c ∧ (encode c).length = 56 ∧
    c = .lst idLIST 48 (makeId 'T' 'E' 'S' 'T')
      [.grp idFORM 14 (makeId 'T' 'E' 'S' 'T') [.raw (makeId 'A' 'B' 'C' 'D') 1 [0x7f]]]
      [.grp idPROP 14 (makeId 'T' 'E' 'S' 'T') [.raw (makeId 'A' 'B' 'C' 'D') 2 [1, 2]]] := by
  have h1 : incrementChunkSize pc 4 2 = .val 14 := by decide
  have h2 : incrementChunkSize pc 4 14 = .val 26 := by decide
  have h3 : incrementChunkSize pc 4 1 = .val 14 := by decide
  have h4 : incrementChunkSize pc 26 14 = .val 48 := by decide
  refine ⟨_, ?_, ?_, rfl⟩
  · have p : Built pc (.grp idPROP 14 (makeId 'T' 'E' 'S' 'T')
        [.raw (makeId 'A' 'B' 'C' 'D') 2 [1, 2]]) :=
      .add (.group (id := idPROP) (ty := makeId 'T' 'E' 'S' 'T'))
        (.raw (id := makeId 'A' 'B' 'C' 'D') (data := [1, 2]))
        (by simp [addToGroup, createEmptyGroup, Chunk.size, idSize, h1])
    have f : Built pc (.grp idFORM 14 (makeId 'T' 'E' 'S' 'T')
        [.raw (makeId 'A' 'B' 'C' 'D') 1 [0x7f]]) :=
      .add (.group (id := idFORM) (ty := makeId 'T' 'E' 'S' 'T'))
        (.raw (id := makeId 'A' 'B' 'C' 'D') (data := [0x7f]))
        (by simp [addToGroup, createEmptyGroup, Chunk.size, idSize, h3])
    refine .addAuto (.addProp (.list (ty := idJJJJ)) p
      (by simp [addPropToList, createEmptyList, idSize, h2]; rfl)) f ?_
    have hv : checkValidCATSubChunkId idFORM = true := by decide
    simp [addAndUpdate, updateContentsType, addToGroup, Chunk.id, Chunk.size, Chunk.groupType, hv,
      newContentsType, h4]
  · decide

/-! ### C28 -/

/-- C28: however many FORM, CAT and LIST chunks were added (at least one) to an empty CAT or LIST with
the functions that update the contents type, and whatever PROPs were added to the LIST in between,
the contents type is the common type of the members if they have one, and JJJJ otherwise. -/
theorem C28_contents_type (e : Env) (g : Chunk) (ht : ∃ t, g.groupType = .val t)
    (hempty : members g = []) (cs : List Chunk) (g' : Chunk) (h : Additions e g cs g')
    (hcs : ∀ c ∈ cs, Composite c.id) (hne : cs ≠ []) :
    (∀ t, (∀ c ∈ cs, HasType t c) → g'.groupType = .val t) ∧
    ((¬ ∃ t, ∀ c ∈ cs, HasType t c) → g'.groupType = .val idJJJJ) := by
  -- the members of the group are the added chunks, and its type follows the rule
  have key : members g' = cs ∧ (∀ c ∈ cs, ∃ t, HasType t c) ∧
      ∃ ty, g'.groupType = .val ty ∧ (cs ≠ [] →
        (∀ t, (∀ c ∈ cs, HasType t c) → ty = t) ∧
        ((¬ ∃ t, ∀ c ∈ cs, HasType t c) → ty = idJJJJ)) := by
    clear hne
    induction h with
    | start => exact ⟨hempty, by simp, by obtain ⟨t, ht⟩ := ht; exact ⟨t, ht, by simp⟩⟩
    | @prop cs p g1 g2 _ h ih =>
      obtain ⟨h1, h2, ty, h3, h4⟩ := ih hcs
      unfold addPropToList at h
      split at h
      · obtain ⟨size', _, h6⟩ := Out.bind_eq_val.mp h
        simp only [Out.val.injEq] at h6
        subst h6
        exact ⟨h1, h2, ty, h3, h4⟩
      · simp at h
    | @add cs c g1 g2 _ h ih =>
      obtain ⟨h1, h2, ty, h3, h4⟩ := ih fun d hd => hcs d (by simp [hd])
      have hc := hcs c (by simp)
      obtain ⟨g1', h5, h6⟩ := Out.bind_eq_val.mp h
      have hv : checkValidCATSubChunkId c.id = true := by
        unfold checkValidCATSubChunkId; unfold Composite at hc; simpa using hc
      unfold updateContentsType at h5
      rw [if_pos hv] at h5
      obtain ⟨t, h7, h8⟩ := Out.bind_eq_val.mp h5
      have hct : ∀ x, HasType x c ↔ t = x := by
        intro x
        cases c <;> simp [Chunk.groupType] at h7 <;> simp [HasType, h7]
      -- the group after the update
      have hres : members g2 = cs ++ [c] ∧
          g2.groupType = .val (newContentsType cs.isEmpty ty t) := by
        cases g1 with
        | raw => simp at h8
        | ext => simp at h8
        | grp id size ty' subs =>
          simp only [Out.val.injEq] at h8
          subst h8
          obtain ⟨size', _, h9⟩ := Out.bind_eq_val.mp h6
          simp only [Out.val.injEq] at h9
          subst h9
          simp only [members] at h1
          simp only [Chunk.groupType, Out.val.injEq] at h3
          subst h1 h3
          exact ⟨rfl, rfl⟩
        | lst id size ty' subs props =>
          simp only [Out.val.injEq] at h8
          subst h8
          obtain ⟨size', _, h9⟩ := Out.bind_eq_val.mp h6
          simp only [Out.val.injEq] at h9
          subst h9
          simp only [members] at h1
          simp only [Chunk.groupType, Out.val.injEq] at h3
          subst h1 h3
          exact ⟨rfl, rfl⟩
      refine ⟨hres.1, ?_, _, hres.2, fun _ => ?_⟩
      · intro d hd
        rcases List.mem_append.mp hd with hd | hd
        · exact h2 d hd
        · simp only [List.mem_singleton] at hd
          exact ⟨t, by rw [hd, hct]⟩
      · cases cs with
        | nil =>
          simp only [List.isEmpty_nil, newContentsType, if_true, List.nil_append,
            List.mem_singleton, forall_eq, hct]
          exact ⟨fun x hx => hx, fun hx => absurd ⟨t, rfl⟩ hx⟩
        | cons d ds =>
          obtain ⟨h10, h11⟩ := h4 (by simp)
          simp only [List.isEmpty_cons, newContentsType, Bool.false_eq_true, if_false]
          have hall : ∀ x, (∀ y ∈ d :: ds ++ [c], HasType x y) ↔
              (∀ y ∈ d :: ds, HasType x y) ∧ t = x := by
            intro x
            simp only [List.mem_append, List.mem_singleton, or_imp, forall_and, forall_eq, hct]
          constructor
          · intro x hx
            rw [hall] at hx
            have := h10 x hx.1
            rw [this, hx.2]
            simp
          · intro hx
            by_cases hcom : ∃ x, ∀ y ∈ d :: ds, HasType x y
            · obtain ⟨x, hcom⟩ := hcom
              have htx : t ≠ x := fun h => hx ⟨x, (hall x).mpr ⟨hcom, h⟩⟩
              rw [h10 x hcom]
              split
              · rfl
              · rename_i h
                refine Classical.byContradiction fun hj => h ⟨hj, fun h => htx h.symm⟩
            · rw [h11 hcom]
              simp
  obtain ⟨_, _, ty, h1, h2⟩ := key
  rw [h1]
  obtain ⟨h3, h4⟩ := h2 hne
  exact ⟨fun t ht => by rw [h3 t ht], fun hn => by rw [h4 hn]⟩

/-- Non-vacuity: members of one type give that type, of two types JJJJ. -/
example :
    Additions pc createEmptyCAT [createEmptyGroup idFORM 1, createEmptyGroup idFORM 1]
      (.grp idCAT 28 1 [createEmptyGroup idFORM 1, createEmptyGroup idFORM 1]) ∧
    Additions pc createEmptyCAT [createEmptyGroup idFORM 1, createEmptyGroup idFORM 2]
      (.grp idCAT 28 idJJJJ [createEmptyGroup idFORM 1, createEmptyGroup idFORM 2]) := by
  have h1 : incrementChunkSize pc 4 4 = .val 16 := by decide
  have h2 : incrementChunkSize pc 16 4 = .val 28 := by decide
  have hv : checkValidCATSubChunkId idFORM = true := by decide
  constructor <;>
  · refine .add (cs := [_]) (.add (cs := []) .start ?_) ?_ (g' := .grp idCAT 16 1 [createEmptyGroup idFORM 1]) <;>
    simp [createEmptyCAT, createEmptyGroup, addAndUpdate, updateContentsType, addToGroup, Chunk.id,
      Chunk.size, Chunk.groupType, hv, newContentsType, idSize, h1, h2]

end Iff
