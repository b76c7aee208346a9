import Verif.Proofs.HeapSearch
/-
  The forms of a hierarchy.
-/
namespace Iff.Spec

open Iff.Heap

theorem mem_formsAll {types : List ID} {ts : List Node} {u : Node} :
    u ∈ formsAll types ts ↔ ∃ t ∈ ts, u ∈ forms types t := by
  induction ts with
  | nil => simp [formsAll]
  | cons t ts ih => simp [formsAll, ih]

theorem mem_outermostAll {types : List ID} {ts : List Node} {u : Node} :
    u ∈ outermostAll types ts ↔ ∃ t ∈ ts, u ∈ outermost types t := by
  induction ts with
  | nil => simp [outermostAll]
  | cons t ts ih => simp [outermostAll, ih]

theorem Reach.trans {t g u : Node} (h1 : Reach t g) (h2 : Reach g u) : Reach t u := by
  induction h2 with
  | self => exact h1
  | step _ hg hc ih => exact ih.step hg hc

/-- A chunk reached from a hierarchy is the hierarchy itself or reached from a member. -/
theorem Reach.inv {t u : Node} (h : Reach t u) : t = u ∨
    ((t.chunk.id = idFORM ∨ t.chunk.id = idCAT ∨ t.chunk.id = idLIST) ∧
      ∃ c ∈ t.members, Reach c u) := by
  induction h with
  | self => exact .inl rfl
  | step _ hg hc ih =>
    rcases ih with rfl | ⟨ht, c', hc', hr⟩
    · exact .inr ⟨hg, _, hc, .self⟩
    · exact .inr ⟨ht, c', hc', hr.step hg hc⟩

theorem Reach.under {t c u : Node}
    (ht : t.chunk.id = idFORM ∨ t.chunk.id = idCAT ∨ t.chunk.id = idLIST) (hc : c ∈ t.members)
    (h : Reach c u) : Reach t u := ((Reach.self).step ht hc).trans h

theorem typed_member {t c : Node} (h : Typed t.chunk) (hc : c ∈ t.members) : Typed c.chunk := by
  cases t with
  | raw => cases hc
  | ext => cases hc
  | grp a arr id size ty subs =>
    simp only [Node.chunk] at h
    cases h with
    | grp _ h => exact h _ (by rw [Node.chunks_eq]; exact List.mem_map.mpr ⟨c, hc, rfl⟩)
  | lst a arr parr id size ty subs props =>
    simp only [Node.chunk] at h
    cases h with
    | lst _ h _ _ => exact h _ (by rw [Node.chunks_eq]; exact List.mem_map.mpr ⟨c, hc, rfl⟩)

/-- `forms` are all requested forms that are reached. -/
theorem mem_forms {types : List ID} : ∀ {t u : Node}, Typed t.chunk →
    (u ∈ forms types t ↔ Reach t u ∧ Requested types u) := by
  intro t
  induction t using Node.ind with
  | raw a d id size data =>
    intro u ht
    simp only [forms, List.not_mem_nil, false_iff, not_and]
    intro h hr
    rcases h.inv with rfl | ⟨_, c, hc, _⟩
    · obtain ⟨_, _, _, h⟩ := hr; cases h
    · cases hc
  | ext a id size vals =>
    intro u ht
    simp only [forms, List.not_mem_nil, false_iff, not_and]
    intro h hr
    rcases h.inv with rfl | ⟨_, c, hc, _⟩
    · obtain ⟨_, _, _, h⟩ := hr; cases h
    · cases hc
  | grp a arr id size ty subs ih =>
    intro u ht
    have hm : ∀ c ∈ subs, Typed c.chunk := fun c hc => typed_member ht hc
    simp only [forms, List.mem_append]
    constructor
    · rintro (h | h)
      · split at h
        · rename_i hid
          rw [List.mem_singleton] at h; subst h
          exact ⟨.self, hid.1, ty, hid.2, rfl⟩
        · cases h
      · split at h
        · rename_i hid
          obtain ⟨c, hc, h⟩ := mem_formsAll.mp h
          obtain ⟨h1, h2⟩ := (ih c hc (hm c hc)).mp h
          exact ⟨Reach.under hid hc h1, h2⟩
        · cases h
    · rintro ⟨h, hr⟩
      rcases h.inv with rfl | ⟨hid, c, hc, h⟩
      · obtain ⟨h1, ty', h2, h3⟩ := hr
        simp only [Node.ty?, Option.some.injEq] at h3
        subst h3
        exact .inl (by rw [if_pos ⟨h1, h2⟩]; simp)
      · right
        rw [if_pos (show id = idFORM ∨ id = idCAT ∨ id = idLIST from hid)]
        exact mem_formsAll.mpr ⟨c, hc, (ih c hc (hm c hc)).mpr ⟨h, hr⟩⟩
  | lst a arr parr id size ty subs props ih _ =>
    intro u ht
    have hm : ∀ c ∈ subs, Typed c.chunk := fun c hc => typed_member ht hc
    have hidl : id = idLIST := by
      simp only [Node.chunk] at ht
      cases ht with
      | lst h _ _ _ => exact h
    simp only [forms]
    constructor
    · intro h
      split at h
      · rename_i hid
        obtain ⟨c, hc, h⟩ := mem_formsAll.mp h
        obtain ⟨h1, h2⟩ := (ih c hc (hm c hc)).mp h
        exact ⟨Reach.under hid hc h1, h2⟩
      · cases h
    · rintro ⟨h, hr⟩
      rcases h.inv with rfl | ⟨hid, c, hc, h⟩
      · have h1 : id = idFORM := hr.1
        rw [hidl] at h1
        exact absurd h1 (by decide)
      · rw [if_pos (show id = idFORM ∨ id = idCAT ∨ id = idLIST from hid)]
        exact mem_formsAll.mpr ⟨c, hc, (ih c hc (hm c hc)).mpr ⟨h, hr⟩⟩

/-- The outermost forms are among the forms, in the same order. -/
theorem outermost_sublist {types : List ID} : ∀ {t : Node},
    (outermost types t).Sublist (forms types t) := by
  intro t
  have all : ∀ (ts : List Node), (∀ c ∈ ts, (outermost types c).Sublist (forms types c)) →
      (outermostAll types ts).Sublist (formsAll types ts) := by
    intro ts
    induction ts with
    | nil => intro _; simp [outermostAll, formsAll]
    | cons c cs ih =>
      intro h
      simp only [outermostAll, formsAll]
      exact (h c (by simp)).append (ih fun d hd => h d (by simp [hd]))
  induction t using Node.ind with
  | raw a d id size data => simp [outermost, forms]
  | ext a id size vals => simp [outermost, forms]
  | grp a arr id size ty subs ih =>
    simp only [outermost, forms]
    split
    · exact List.sublist_append_left _ _
    · split
      · rw [List.nil_append]; exact all subs ih
      · simp
  | lst a arr parr id size ty subs props ih _ =>
    simp only [outermost, forms]
    split
    · exact all subs ih
    · simp

/-- Every form is one of the outermost forms or inside one of them. -/
theorem forms_inside {types : List ID} : ∀ {t u : Node}, u ∈ forms types t →
    ∃ o ∈ outermost types t, u ∈ forms types o := by
  intro t
  induction t using Node.ind with
  | raw a d id size data => intro u h; simp [forms] at h
  | ext a id size vals => intro u h; simp [forms] at h
  | grp a arr id size ty subs ih =>
    intro u h
    by_cases hreq : id = idFORM ∧ ty ∈ types
    · exact ⟨_, by simp only [outermost, if_pos hreq, List.mem_singleton], h⟩
    · simp only [forms, if_neg hreq, List.nil_append] at h
      simp only [outermost, if_neg hreq]
      split at h
      · rename_i hid
        obtain ⟨c, hc, h⟩ := mem_formsAll.mp h
        obtain ⟨o, ho, hu⟩ := ih c hc h
        exact ⟨o, by rw [if_pos hid]; exact mem_outermostAll.mpr ⟨c, hc, ho⟩, hu⟩
      · cases h
  | lst a arr parr id size ty subs props ih _ =>
    intro u h
    simp only [forms] at h
    simp only [outermost]
    split at h
    · rename_i hid
      obtain ⟨c, hc, h⟩ := mem_formsAll.mp h
      obtain ⟨o, ho, hu⟩ := ih c hc h
      exact ⟨o, by rw [if_pos hid]; exact mem_outermostAll.mpr ⟨c, hc, ho⟩, hu⟩
    · cases h

/-- If no form contains another, all forms are outermost. -/
theorem outermost_eq_forms {types : List ID} : ∀ {t : Node},
    (∀ u ∈ forms types t, ∀ c ∈ u.members, forms types c = []) →
    outermost types t = forms types t := by
  intro t
  have all : ∀ (ts : List Node), (∀ c ∈ ts, outermost types c = forms types c) →
      outermostAll types ts = formsAll types ts := by
    intro ts
    induction ts with
    | nil => intro _; simp [outermostAll, formsAll]
    | cons c cs ih =>
      intro h
      simp only [outermostAll, formsAll]
      rw [h c (by simp), ih fun d hd => h d (by simp [hd])]
  have allnil : ∀ (ts : List Node), (∀ c ∈ ts, forms types c = []) → formsAll types ts = [] := by
    intro ts
    induction ts with
    | nil => intro _; rfl
    | cons c cs ih =>
      intro h
      simp only [formsAll, h c (by simp), List.nil_append]
      exact ih fun d hd => h d (by simp [hd])
  induction t using Node.ind with
  | raw a d id size data => intro _; simp [outermost, forms]
  | ext a id size vals => intro _; simp [outermost, forms]
  | grp a arr id size ty subs ih =>
    intro h
    simp only [outermost, forms]
    by_cases hreq : id = idFORM ∧ ty ∈ types
    · have := h (.grp a arr id size ty subs) (by simp [forms, hreq])
      simp only [Node.members] at this
      rw [if_pos hreq, if_pos hreq, allnil subs this]
      simp
    · rw [if_neg hreq, if_neg hreq, List.nil_append]
      simp only [forms, if_neg hreq, List.nil_append] at h
      split
      · rename_i hid
        rw [if_pos hid] at h
        exact all subs fun c hc => ih c hc fun u hu => h u (mem_formsAll.mpr ⟨c, hc, hu⟩)
      · rfl
  | lst a arr parr id size ty subs props ih _ =>
    intro h
    simp only [outermost, forms]
    simp only [forms] at h
    split
    · rename_i hid
      rw [if_pos hid] at h
      exact all subs fun c hc => ih c hc fun u hu => h u (mem_formsAll.mpr ⟨c, hc, hu⟩)
    · rfl

/-- The addresses of the forms are among the blocks. -/
theorem forms_blocks {types : List ID} : ∀ {t : Node},
    ((forms types t).map Node.addr).Sublist t.blocks := by
  intro t
  have all : ∀ (ts : List Node), (∀ c ∈ ts, ((forms types c).map Node.addr).Sublist c.blocks) →
      ((formsAll types ts).map Node.addr).Sublist (Node.blocksAll ts) := by
    intro ts
    induction ts with
    | nil => intro _; simp [formsAll]
    | cons c cs ih =>
      intro h
      simp only [formsAll, List.map_append, Node.blocksAll_cons]
      exact (h c (by simp)).append (ih fun d hd => h d (by simp [hd]))
  induction t using Node.ind with
  | raw a d id size data => simp [forms]
  | ext a id size vals => simp [forms]
  | grp a arr id size ty subs ih =>
    simp only [forms, Node.blocks, List.map_append, List.cons_append]
    have h2 : ((if id = idFORM ∨ id = idCAT ∨ id = idLIST then formsAll types subs else []).map
        Node.addr).Sublist ((if arr = 0 then [] else [arr]) ++ Node.blocksAll subs) := by
      refine List.Sublist.trans ?_ (List.sublist_append_right _ _)
      split
      · exact all subs ih
      · simp
    split
    · exact h2.cons_cons a
    · exact h2.cons a
  | lst a arr parr id size ty subs props ih _ =>
    simp only [forms, Node.blocks, List.cons_append]
    refine List.Sublist.cons a ?_
    refine List.Sublist.trans ?_ (List.sublist_append_left _ _)
    refine List.Sublist.trans ?_ (List.sublist_append_right _ _)
    split
    · exact all subs ih
    · simp

end Iff.Spec
