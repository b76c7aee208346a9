import Verif.Model.Check
import Verif.Spec.Conform
import Verif.Proofs.Tree
import Verif.Proofs.Ids
import Verif.Proofs.Arith
import Verif.Proofs.Write
/-
  The checker against the conformance rules.
-/
namespace Iff
open Spec

/-- `m` decides `P`: TRUE without a diagnostic, or FALSE with at least one. -/
def Decides (P : Prop) (m : M (List Msg) Bool) : Prop :=
  ∀ log, (P ∧ m log = .val (true, log)) ∨
    (¬ P ∧ ∃ log', m log = .val (false, log') ∧ Reports log log')

/-- `m` yields `v` without a diagnostic if `P`, and otherwise -1 with at least one. -/
def Sums (P : Prop) (v : Int) (m : M (List Msg) Int) : Prop :=
  ∀ log, (P ∧ m log = .val (v, log)) ∨
    (¬ P ∧ ∃ log', m log = .val (-1, log') ∧ Reports log log')

theorem Decides.congr {P Q : Prop} {m : M (List Msg) Bool} (h : Decides P m) (hpq : P ↔ Q) :
    Decides Q m := by rw [← propext hpq]; exact h

theorem decides_checkId (e : Env) (id : ID) : Decides (ValidId id) (checkId e id) := by
  intro log
  rcases checkId_spec e id log with ⟨h1, h2⟩ | ⟨m, h1, h2⟩
  · exact Or.inl ⟨h2, h1⟩
  · exact Or.inr ⟨h2, _, h1, m, [], rfl⟩

theorem decides_checkFormType (e : Env) (id : ID) :
    Decides (AcceptedFormType id) (checkFormType e id) := by
  intro log
  rcases checkFormType_spec e id log with ⟨h1, h2⟩ | ⟨m, h1, h2⟩
  · exact Or.inl ⟨h2, h1⟩
  · exact Or.inr ⟨h2, _, h1, m, [], rfl⟩

theorem decides_true {P : Prop} (h : P) : Decides P (pure true) :=
  fun _ => Or.inl ⟨h, rfl⟩

theorem decides_emit {P : Prop} (h : ¬ P) (m : Msg) :
    Decides P (do emit m; pure false) :=
  fun _ => Or.inr ⟨h, _, rfl, m, [], rfl⟩

theorem Decides.and {P Q : Prop} {a b : M (List Msg) Bool} (ha : Decides P a)
    (hb : P → Decides Q b) : Decides (P ∧ Q) (do if ← a then b else pure false) := by
  intro log
  simp only [M.bind_apply]
  rcases ha log with ⟨hp, h⟩ | ⟨hp, log', h, hr⟩
  · rw [h]
    simp only [if_true]
    rcases hb hp log with ⟨hq, h⟩ | ⟨hq, log', h, hr⟩
    · exact Or.inl ⟨⟨hp, hq⟩, h⟩
    · exact Or.inr ⟨fun h => hq h.2, log', h, hr⟩
  · rw [h]
    exact Or.inr ⟨fun h => hp h.1, log', by simp, hr⟩

theorem decides_checkGroupChunkSize (id : ID) (size body : Int) :
    Decides (body = size) (checkGroupChunkSize id size body) := by
  unfold checkGroupChunkSize
  split
  · exact decides_true ‹_›
  · exact decides_emit ‹_› _

/-- group.c:181-197 -/
theorem decides_checkGroup {T P : Prop} {v : Int} {id : ID} {size : Int}
    {tc : M (List Msg) Bool} {subs : M (List Msg) Int} (ht : Decides T tc) (hs : Sums P v subs)
    (hv : P → v ≠ -1) (hb : P → inInt (v + 4)) :
    Decides (T ∧ P ∧ size = 4 + v) (checkGroupWith id size tc subs) := by
  unfold checkGroupWith
  refine ht.and (fun _ => ?_)
  intro log
  simp only [M.bind_apply]
  rcases hs log with ⟨hp, h⟩ | ⟨hp, log', h, hr⟩
  · rw [h]
    simp only [if_neg (hv hp), M.bind_apply]
    rw [addInt_ok (by simpa [idSize] using hb hp)]
    simp only [M.ofOut_val]
    rcases decides_checkGroupChunkSize id size (v + (idSize : Int)) log with ⟨h1, h2⟩ | ⟨h1, log', h2, h3⟩
    · refine Or.inl ⟨⟨hp, ?_⟩, h2⟩
      simp only [idSize] at h1; omega
    · refine Or.inr ⟨fun h => h1 ?_, log', h2, h3⟩
      have := h.2
      simp only [idSize]; omega
  · rw [h]
    exact Or.inr ⟨fun h => hp h.1, log', by simp, hr⟩

/-- What is needed of a member of a group to compute the sum of sizes. -/
structure Member (e : Env) (r : Registry) (ty : ID) (C : Chunk → Prop) (c : Chunk) : Prop where
  decides : Decides (C c) (checkChunkWith e c (checkFields e r (findChunkType r ty c.id) c))
  nonneg : C c → 0 ≤ c.size
  length : C c → span c.size = ((encode c).length : Int)

theorem spans_cons (c : Chunk) (cs : List Chunk) : spans (c :: cs) = span c.size + spans cs := by
  simp [spans]

theorem spans_length {e : Env} {r : Registry} {ty : ID} {C : Chunk → Prop} :
    ∀ {cs : List Chunk}, (∀ c ∈ cs, Member e r ty C c) → (∀ c ∈ cs, C c) →
      spans cs = ((encodeAll cs).length : Int)
  | [], _, _ => by simp [spans, encodeAll]
  | c :: cs, hm, hc => by
    rw [spans_cons, encodeAll, List.length_append,
      (hm c List.mem_cons_self).length (hc c List.mem_cons_self),
      spans_length (fun d hd => hm d (List.mem_cons_of_mem _ hd))
        (fun d hd => hc d (List.mem_cons_of_mem _ hd))]
    omega

/-- group.c:159-179 -/
theorem sums_group {e : Env} (he : 32 ≤ e.sizeBits) {r : Registry} {ty : ID} {C S : Chunk → Prop}
    {sub : Chunk → M (List Msg) Bool} :
    ∀ (cs : List Chunk) (acc : Int), (∀ c ∈ cs, Member e r ty C c) →
      (∀ c ∈ cs, Decides (S c) (sub c)) → 0 ≤ acc →
      acc + ((encodeAll cs).length : Int) < 2147483648 →
      Sums (∀ c ∈ cs, S c ∧ C c) (acc + spans cs) (checkGroupSubChunks e r ty sub cs acc)
  | [], acc, _, _, _, _ => by
    intro log
    left
    exact ⟨by simp, by simp [checkGroupSubChunks, spans]⟩
  | c :: cs, acc, hm, hs, h0, hl => by
    have hmc := hm c List.mem_cons_self
    rw [encodeAll, List.length_append] at hl
    intro log
    simp only [checkGroupSubChunks, M.bind_apply]
    rcases hs c List.mem_cons_self log with ⟨hsc, h⟩ | ⟨hsc, log', h, hr⟩
    · rw [h]
      simp only [if_true, M.bind_apply]
      rcases hmc.decides log with ⟨hcc, h⟩ | ⟨hcc, log', h, hr⟩
      · rw [h]
        simp only [if_true, M.bind_apply]
        have hlen := hmc.length hcc
        have hnn := hmc.nonneg hcc
        unfold span at hlen
        rw [incrementChunkSize_ok e he h0 hnn (by omega)]
        simp only [M.ofOut_val]
        have ih := sums_group he (r := r) (ty := ty) (C := C) (S := S) (sub := sub) cs
          (acc + (8 + c.size + c.size % 2))
          (fun d hd => hm d (List.mem_cons_of_mem _ hd))
          (fun d hd => hs d (List.mem_cons_of_mem _ hd)) (by omega) (by omega) log
        have hsum : acc + (8 + c.size + c.size % 2) + spans cs = acc + spans (c :: cs) := by
          rw [spans_cons, span]; omega
        rw [hsum] at ih
        rcases ih with ⟨h1, h2⟩ | ⟨h1, log', h2, h3⟩
        · left
          refine ⟨?_, h2⟩
          intro d hd
          rcases List.mem_cons.mp hd with rfl | hd
          · exact ⟨hsc, hcc⟩
          · exact h1 d hd
        · exact Or.inr ⟨fun h => h1 fun d hd => h d (List.mem_cons_of_mem _ hd), log', h2, h3⟩
      · rw [h]
        exact Or.inr ⟨fun h => hcc (h c List.mem_cons_self).2, log', by simp, hr⟩
    · rw [h]
      exact Or.inr ⟨fun h => hsc (h c List.mem_cons_self).1, log', by simp, hr⟩

/-- list.c:166-182: the same as the sums of a group without a sub chunk check. -/
theorem checkListPropChunks_eq (e : Env) (r : Registry) (ty : ID) :
    ∀ (cs : List Chunk) (acc : Int), checkListPropChunks e r ty cs acc =
      checkGroupSubChunks e r ty (fun _ => pure true) cs acc
  | [], acc => rfl
  | c :: cs, acc => by
    funext log
    simp only [checkListPropChunks, checkGroupSubChunks, M.bind_apply, M.pure_apply, if_true]
    split
    · split
      · simp only [M.bind_apply]
        split
        · rw [checkListPropChunks_eq e r ty cs]
        · rfl
        · rfl
      · rfl
    · rfl
    · rfl

theorem encodeAll_le {cs : List Chunk} {c : Chunk} (h : c ∈ cs) :
    (encode c).length ≤ (encodeAll cs).length := by
  induction cs with
  | nil => simp at h
  | cons d ds ih =>
    rw [encodeAll, List.length_append]
    rcases List.mem_cons.mp h with rfl | h
    · omega
    · have := ih h; omega

theorem composite_iff (id : ID) : checkValidCATSubChunkId id = true ↔ Composite id := by
  simp [checkValidCATSubChunkId, Composite]

theorem decides_formSub (c : Chunk) : Decides (c.id ≠ idPROP) (formSubChunkCheck c) := by
  unfold formSubChunkCheck
  split
  · exact decides_emit (by simp [*]) _
  · exact decides_true ‹_›

theorem decides_propSub (c : Chunk) :
    Decides (¬ Composite c.id ∧ c.id ≠ idPROP) (propSubChunkCheck c) := by
  unfold propSubChunkCheck Composite
  split
  · rename_i h
    refine decides_emit ?_ _
    rintro ⟨h1, h2⟩
    rcases h with h | h | h | h
    · exact h1 (Or.inl h)
    · exact h1 (Or.inr (Or.inr h))
    · exact h1 (Or.inr (Or.inl h))
    · exact h2 h
  · rename_i h
    refine decides_true ⟨?_, fun h2 => h (by simp [h2])⟩
    rintro (h2 | h2 | h2) <;> exact h (by simp [h2])

/-- A standard chunk with a composite ID has a group type. -/
theorem groupType_standard {c : Chunk} (h : Standard c) (hc : Composite c.id) :
    ∃ t, c.groupType = .val t ∧ ∀ ty, HasType ty c ↔ t = ty := by
  cases h with
  | raw h1 h2 h3 h4 =>
    rcases hc with h | h | h
    · exact absurd h h1
    · exact absurd h h2
    · exact absurd h h3
  | grp => exact ⟨_, rfl, fun _ => Iff.rfl⟩
  | lst => exact ⟨_, rfl, fun _ => Iff.rfl⟩

theorem decides_catSub (ty : ID) {c : Chunk} (h : Standard c) :
    Decides (Composite c.id ∧ (ty = idJJJJ ∨ HasType ty c)) (catSubChunkCheck ty c) := by
  unfold catSubChunkCheck
  by_cases hc : Composite c.id
  · have hb := (composite_iff c.id).mpr hc
    simp only [hb, if_true]
    by_cases hj : ty = idJJJJ
    · simp only [hj, ne_eq, not_true_eq_false, if_false]
      exact decides_true ⟨hc, by simp⟩
    · simp only [hj, ne_eq, not_false_eq_true, if_true]
      obtain ⟨t, h1, h2⟩ := groupType_standard h hc
      rw [h1]
      intro log
      simp only [M.bind_apply, M.ofOut_val]
      by_cases ht : t = ty
      · simp only [ht, not_true_eq_false, if_false]
        exact Or.inl ⟨⟨hc, Or.inr ((h2 ty).mpr ht)⟩, rfl⟩
      · simp only [ht, not_false_eq_true, if_true]
        refine decides_emit ?_ _ log
        rintro ⟨_, h | h⟩
        · exact h.elim
        · exact ht ((h2 ty).mp h)
  · have hb : checkValidCATSubChunkId c.id = false := by
      rw [← Bool.not_eq_true, composite_iff]; exact hc
    simp only [hb]
    exact decides_emit (fun h => hc h.1) _

theorem validIds : ValidId idFORM ∧ ValidId idCAT ∧ ValidId idLIST ∧ ValidId idPROP := by
  refine ⟨?_, ?_, ?_, ?_⟩ <;> unfold ValidId <;> decide

theorem Spec.RawSizes.grp {id size ty subs c} (h : RawSizes (.grp id size ty subs)) (hc : c ∈ subs) :
    RawSizes c := fun i s d hw => h i s d (.grp hc hw)
theorem Spec.RawSizes.sub {id size ty subs props c} (h : RawSizes (.lst id size ty subs props))
    (hc : c ∈ subs) : RawSizes c := fun i s d hw => h i s d (.sub hc hw)
theorem Spec.RawSizes.prop {id size ty subs props c} (h : RawSizes (.lst id size ty subs props))
    (hc : c ∈ props) : RawSizes c := fun i s d hw => h i s d (.prop hc hw)
theorem Spec.PropArrays.grp {id size ty subs c} (h : PropArrays (.grp id size ty subs)) (hc : c ∈ subs) :
    PropArrays c := fun i s t u p hw => h i s t u p (.grp hc hw)
theorem Spec.PropArrays.sub {id size ty subs props c} (h : PropArrays (.lst id size ty subs props))
    (hc : c ∈ subs) : PropArrays c := fun i s t u p hw => h i s t u p (.sub hc hw)
theorem Spec.PropArrays.prop {id size ty subs props c} (h : PropArrays (.lst id size ty subs props))
    (hc : c ∈ props) : PropArrays c := fun i s t u p hw => h i s t u p (.prop hc hw)

theorem and_forall {α : Type} {l : List α} {P Q : α → Prop} :
    (∀ c ∈ l, P c ∧ Q c) ↔ (∀ c ∈ l, P c) ∧ ∀ c ∈ l, Q c :=
  ⟨fun h => ⟨fun c hc => (h c hc).1, fun c hc => (h c hc).2⟩, fun h c hc => ⟨h.1 c hc, h.2 c hc⟩⟩

theorem or_forall {α : Type} {l : List α} {J : Prop} {Q : α → Prop} :
    (∀ c ∈ l, J ∨ Q c) ↔ J ∨ ∀ c ∈ l, Q c := by
  by_cases hj : J <;> simp [hj]

theorem checkChunkWith_eq (e : Env) (c : Chunk) (chk : M (List Msg) Bool) :
    checkChunkWith e c chk = (do if ← checkId e c.id then chk else pure false) := rfl

/-- Numbers about a group whose members are all right. -/
theorem group_numbers {e : Env} {r : Registry} {ty : ID} {C : Chunk → Prop} {cs : List Chunk}
    (hm : ∀ c ∈ cs, Member e r ty C c) (hc : ∀ c ∈ cs, C c) :
    spans cs = ((encodeAll cs).length : Int) ∧ spans cs % 2 = 0 := by
  refine ⟨spans_length hm hc, ?_⟩
  clear hm hc
  induction cs with
  | nil => simp [spans]
  | cons c cs ih => rw [spans_cons, span]; omega

theorem check_member {e : Env} (he : 32 ≤ e.sizeBits) (c : Chunk) :
    Standard c → RawSizes c → PropArrays c → (encode c).length < 2147483648 →
    ∀ ty, Member e defaultRegistry ty (ConformsBy AcceptedFormType) c := by
  induction c using Chunk.ind with
  | raw id size data =>
    intro hs hr hp hl ft
    have hsz := hr _ _ _ .self
    have hconf : ValidId id ↔ ConformsBy AcceptedFormType (.raw id size data) :=
      ⟨fun h => .data h, fun h => by cases h; assumption⟩
    cases hs with
    | raw h1 h2 h3 h4 =>
      refine ⟨?_, fun _ => by simp only [Chunk.size]; omega, fun _ => ?_⟩
      · have hh : findChunkType defaultRegistry ft id = .raw := by
          rw [findChunkType_default, if_neg h1, if_neg h2, if_neg h3, if_neg h4]
        rw [checkChunkWith_eq]
        simp only [Chunk.id, hh, checkFields]
        exact ((decides_checkId e id).and (fun _ => decides_true trivial)).congr (by simpa using hconf)
      · have := pad_length size
        simp only [Chunk.size, span, encode, List.length_append, header_length]
        omega
  | ext id size vals => intro hs; cases hs
  | grp id size ty subs ih =>
    intro hs hr hp hl ft
    cases hs with
    | grp hid hst =>
      have hpl := pad_length size
      have hlen : (encode (.grp id size ty subs)).length =
          12 + (encodeAll subs).length + (pad size).length := by
        simp only [encode, List.length_append, header_length, be_length]; omega
      have hm : ∀ c ∈ subs, Member e defaultRegistry ty (ConformsBy AcceptedFormType) c := by
        intro c hc
        have := encodeAll_le hc
        exact ih c hc (hst c hc) (hr.grp hc) (hp.grp hc) (by omega) ty
      have done : ∀ (T : Prop) (S : Chunk → Prop) (tc : M (List Msg) Bool)
          (sub : Chunk → M (List Msg) Bool), Decides T tc → (∀ c ∈ subs, Decides (S c) (sub c)) →
          ValidId id → ((T ∧ (∀ c ∈ subs, S c ∧ ConformsBy AcceptedFormType c) ∧
            size = 4 + (0 + spans subs)) ↔ ConformsBy AcceptedFormType (.grp id size ty subs)) →
          checkFields e defaultRegistry (findChunkType defaultRegistry ft id) (.grp id size ty subs) =
            checkGroupWith id size tc (checkGroupSubChunks e defaultRegistry ty sub subs 0) →
          Member e defaultRegistry ft (ConformsBy AcceptedFormType) (.grp id size ty subs) := by
        intro T S tc sub ht hsub hv hiff heq
        have hn : (∀ c ∈ subs, S c ∧ ConformsBy AcceptedFormType c) →
            spans subs = ((encodeAll subs).length : Int) ∧ spans subs % 2 = 0 :=
          fun h => group_numbers hm (and_forall.mp h).2
        have hsums := sums_group he subs 0 hm hsub (by omega) (by omega)
        refine ⟨?_, ?_, ?_⟩
        · rw [checkChunkWith_eq]
          simp only [Chunk.id]
          rw [heq]
          refine ((decides_checkId e id).and (fun _ =>
            (decides_checkGroup ht hsums ?_ ?_).congr hiff)).congr
            (by simp [hv])
          · intro h; have := hn h; omega
          · intro h; have := hn h; unfold inInt; omega
        · intro h
          have h := hiff.mpr h
          have := hn h.2.1
          simp only [Chunk.size]; omega
        · intro h
          have h := hiff.mpr h
          have := hn h.2.1
          simp only [Chunk.size, span]
          rw [hlen]; omega
      rcases hid with rfl | rfl | rfl
      · refine done (AcceptedFormType ty) (fun c => c.id ≠ idPROP) (checkFormType e ty)
          formSubChunkCheck (decides_checkFormType e ty) (fun c _ => decides_formSub c)
          validIds.1 ?_ (by rw [findChunkType_default]; simp [checkFields])
        rw [and_forall]
        constructor
        · rintro ⟨h1, ⟨h2, h3⟩, h4⟩
          exact .form h1 h2 (by omega) h3
        · intro h
          cases h with
          | form h1 h2 h3 h4 => exact ⟨h1, ⟨h2, h4⟩, by omega⟩
      · refine done (ValidId ty) (fun c => Composite c.id ∧ (ty = idJJJJ ∨ HasType ty c))
          (checkId e ty) (catSubChunkCheck ty) (decides_checkId e ty)
          (fun c hc => decides_catSub ty (hst c hc)) validIds.2.1 ?_
          (by rw [findChunkType_default]; simp [checkFields, ids_ne])
        rw [and_forall, and_forall, or_forall]
        constructor
        · rintro ⟨h1, ⟨⟨h2, h2'⟩, h3⟩, h4⟩
          exact .cat h1 h2 h2' (by omega) h3
        · intro h
          cases h with
          | cat h1 h2 h2' h3 h4 => exact ⟨h1, ⟨⟨h2, h2'⟩, h4⟩, by omega⟩
      · refine done (AcceptedFormType ty) (fun c => ¬ Composite c.id ∧ c.id ≠ idPROP)
          (checkFormType e ty) propSubChunkCheck (decides_checkFormType e ty)
          (fun c _ => decides_propSub c) validIds.2.2.2 ?_
          (by rw [findChunkType_default]; simp [checkFields, ids_ne])
        rw [and_forall]
        constructor
        · rintro ⟨h1, ⟨h2, h3⟩, h4⟩
          exact .prop h1 h2 (by omega) h3
        · intro h
          cases h with
          | prop h1 h2 h3 h4 => exact ⟨h1, ⟨h2, h4⟩, by omega⟩
  | lst id size ty subs props ih ih2 =>
    intro hs hr hp hl ft
    cases hs with
    | lst hid hst hst2 =>
      subst hid
      have hpl := pad_length size
      have hlen : (encode (.lst idLIST size ty subs props)).length =
          12 + (encodeAll props).length + (encodeAll subs).length + (pad size).length := by
        simp only [encode, List.length_append, header_length, be_length]; omega
      have hm : ∀ c ∈ subs, Member e defaultRegistry ty (ConformsBy AcceptedFormType) c := by
        intro c hc
        have := encodeAll_le hc
        exact ih c hc (hst c hc) (hr.sub hc) (hp.sub hc) (by omega) ty
      have hm2 : ∀ c ∈ props, Member e defaultRegistry ty (ConformsBy AcceptedFormType) c := by
        intro c hc
        have := encodeAll_le hc
        exact ih2 c hc (hst2 c hc) (hr.prop hc) (hp.prop hc) (by omega) ty
      have hpa : ∀ p ∈ props, p.id = idPROP := hp _ _ _ _ _ .self
      have hs1 := sums_group he props 0 hm2 (fun c _ => decides_true (P := True) trivial)
        (by omega) (by omega)
      have hs2 := sums_group he subs 0 hm (fun c hc => decides_catSub ty (hst c hc))
        (by omega) (by omega)
      have hiff : (ValidId ty ∧ ((∀ c ∈ props, True ∧ ConformsBy AcceptedFormType c) ∧
          (∀ c ∈ subs, (Composite c.id ∧ (ty = idJJJJ ∨ HasType ty c)) ∧
            ConformsBy AcceptedFormType c) ∧ 4 + (0 + spans props) + (0 + spans subs) = size)) ↔
          ConformsBy AcceptedFormType (.lst idLIST size ty subs props) := by
        rw [and_forall (P := fun _ => True), and_forall, and_forall, or_forall]
        constructor
        · rintro ⟨h1, ⟨_, h2⟩, ⟨⟨h3, h4⟩, h5⟩, h6⟩
          exact .list h1 h3 h4 hpa (by omega) h5 h2
        · intro h
          cases h with
          | list h1 h2 h3 h4 h5 h6 h7 =>
            exact ⟨h1, ⟨fun _ _ => trivial, h7⟩, ⟨⟨h2, h3⟩, h6⟩, by omega⟩
      have hn1 : (∀ c ∈ props, True ∧ ConformsBy AcceptedFormType c) →
          spans props = ((encodeAll props).length : Int) ∧ spans props % 2 = 0 :=
        fun h => group_numbers hm2 (and_forall.mp h).2
      have hn2 : (∀ c ∈ subs, (Composite c.id ∧ (ty = idJJJJ ∨ HasType ty c)) ∧
            ConformsBy AcceptedFormType c) →
          spans subs = ((encodeAll subs).length : Int) ∧ spans subs % 2 = 0 :=
        fun h => group_numbers hm (and_forall.mp h).2
      refine ⟨?_, ?_, ?_⟩
      · rw [checkChunkWith_eq, findChunkType_default]
        simp only [Chunk.id, ids_ne.2.1, ids_ne.2.2.1, if_false, if_true, checkFields]
        refine ((decides_checkId e idLIST).and (fun _ => ((decides_checkId e ty).and
          (Q := (∀ c ∈ props, True ∧ ConformsBy AcceptedFormType c) ∧
          (∀ c ∈ subs, (Composite c.id ∧ (ty = idJJJJ ∨ HasType ty c)) ∧
            ConformsBy AcceptedFormType c) ∧ 4 + (0 + spans props) + (0 + spans subs) = size)
          (fun _ => ?_)).congr hiff)).congr (by simp [validIds])
        intro log
        simp only [M.bind_apply, checkListPropChunks_eq]
        rcases hs1 log with ⟨h1, h2⟩ | ⟨h1, log', h2, h3⟩
        · have hn := hn1 h1
          rw [h2]
          simp only [if_neg (by omega : ¬ (0 + spans props = -1)), M.bind_apply]
          rw [addInt_ok (by unfold inInt; simp only [idSize]; omega)]
          simp only [M.ofOut_val]
          rcases hs2 log with ⟨h3, h4⟩ | ⟨h3, log', h4, h5⟩
          · have hn' := hn2 h3
            rw [h4]
            simp only [if_neg (by omega : ¬ (0 + spans subs = -1)), M.bind_apply]
            rw [addInt_ok (by unfold inInt; simp only [idSize]; omega)]
            simp only [M.ofOut_val]
            rcases decides_checkGroupChunkSize idLIST size
              ((idSize : Int) + (0 + spans props) + (0 + spans subs)) log with h5 | h5
            · left; exact ⟨⟨h1, h3, h5.1⟩, h5.2⟩
            · right; exact ⟨fun h => h5.1 h.2.2, h5.2⟩
          · rw [h4]
            exact Or.inr ⟨fun h => h3 h.2.1, log', by simp, h5⟩
        · rw [h2]
          exact Or.inr ⟨fun h => h1 h.1, log', by simp, h3⟩
      · intro h
        have h := hiff.mpr h
        have := hn1 h.2.1
        have := hn2 h.2.2.1
        simp only [Chunk.size]; omega
      · intro h
        have h := hiff.mpr h
        have := hn1 h.2.1
        have := hn2 h.2.2.1
        simp only [Chunk.size, span]
        rw [hlen]; omega

end Iff
