import Verif.Proofs.Check
import Verif.Spec.ConformApp
/-
  The check of hierarchies with chunks of an application.
-/
namespace Iff
open Spec

/-- A chunk with a composite ID has a group type. -/
theorem groupType_checkable {r : Registry} {ft : ID} {c : Chunk} (h : Checkable r ft c) (hc : Composite c.id) :
    ∃ t, c.groupType = .val t ∧ ∀ ty, HasType ty c ↔ t = ty := by
  cases h with
  | raw _ h => exact absurd hc h
  | ext _ h => exact absurd hc h
  | form | cat | prop => exact ⟨_, rfl, fun _ => Iff.rfl⟩
  | list => exact ⟨_, rfl, fun _ => Iff.rfl⟩

theorem decides_catSub_app {r : Registry} {ft : ID} (ty : ID) {c : Chunk} (h : Checkable r ft c) :
    Decides (Composite c.id ∧ (ty = idJJJJ ∨ HasType ty c)) (catSubChunkCheck ty c) := by
  unfold catSubChunkCheck
  by_cases hc : Composite c.id
  · have hb := (composite_iff c.id).mpr hc
    simp only [hb, if_true]
    by_cases hj : ty = idJJJJ
    · simp only [hj, ne_eq, not_true_eq_false, if_false]
      exact decides_true ⟨hc, by simp⟩
    · simp only [hj, ne_eq, not_false_eq_true, if_true]
      obtain ⟨t, h1, h2⟩ := groupType_checkable h hc
      rw [h1]
      intro log
      simp only [M.bind_apply, M.ofOut_val]
      by_cases ht : t = ty
      · simp only [ht, not_true_eq_false, if_false]
        exact Or.inl ⟨⟨hc, Or.inr ((h2 ty).mpr ht)⟩, rfl⟩
      · simp only [ht, not_false_eq_true, if_true]
        refine decides_emit ?_ _ log
        rintro ⟨_, h | h⟩
        · exact h.elim
        · exact ht ((h2 ty).mp h)
  · have hb : checkValidCATSubChunkId c.id = false := by
      rw [← Bool.not_eq_true, composite_iff]; exact hc
    simp only [hb]
    exact decides_emit (fun h => hc h.1) _

theorem check_member_app {e : Env} (he : 32 ≤ e.sizeBits) {r : Registry} (hreg : RegistrySorted r) (c : Chunk) :
    ∀ ft, Checkable r ft c → (encode c).length < 2147483648 →
    Member e r ft (ConformsApp r AcceptedFormType ft) c := by
  induction c using Chunk.ind with
  | raw id size data =>
    intro ft hs hl
    have hconf : ValidId id ↔ ConformsApp r AcceptedFormType ft (.raw id size data) :=
      ⟨fun h => .data h, fun h => by cases h; assumption⟩
    cases hs with
    | raw hh _ hsz =>
      refine ⟨?_, fun _ => by simp only [Chunk.size]; omega, fun _ => ?_⟩
      · rw [checkChunkWith_eq]
        simp only [Chunk.id, (findChunkType_iff hreg).mpr hh, checkFields]
        exact ((decides_checkId e id).and (fun _ => decides_true trivial)).congr (by simpa using hconf)
      · have := pad_length size
        simp only [Chunk.size, span, encode, List.length_append, header_length]
        omega
  | ext id size vals =>
    intro ft hs hl
    cases hs with
    | @ext _ _ _ _ fields chk hh _ hk h0 =>
      have hf := (findChunkType_iff hreg).mpr hh
      have hconf : ValidId id ∧ chk vals = true ↔ ConformsApp r AcceptedFormType ft (.ext id size vals) := by
        refine ⟨fun h => .app h.1 hh h.2, fun h => ?_⟩
        cases h with
        | app h1 h2 h3 =>
          have := ((findChunkType_iff hreg).mpr h2).symm.trans hf
          cases this
          exact ⟨h1, h3⟩
      refine ⟨?_, fun _ => h0, fun _ => ?_⟩
      · rw [checkChunkWith_eq]
        simp only [Chunk.id, hf, checkFields, hk, if_true]
        refine ((decides_checkId e id).and (Q := chk vals = true) (fun _ => ?_)).congr hconf
        split
        · exact decides_true ‹_›
        · exact decides_emit ‹_› _
      · have := pad_length size
        have := encodeFields_length vals size
        simp only [Chunk.size, span, encode, List.length_append, header_length, List.length_replicate]
        omega
  | grp id size ty subs ih =>
    intro ft hs hl
    have hpl := pad_length size
    have hlen : (encode (.grp id size ty subs)).length =
        12 + (encodeAll subs).length + (pad size).length := by
      simp only [encode, List.length_append, header_length, be_length]; omega
    have hm : (∀ c ∈ subs, Checkable r ty c) → ∀ c ∈ subs, Member e r ty (ConformsApp r AcceptedFormType ty) c := by
      intro hst c hc
      have := encodeAll_le hc
      exact ih c hc ty (hst c hc) (by omega)
    have done : (∀ c ∈ subs, Checkable r ty c) → ∀ (T : Prop) (S : Chunk → Prop) (tc : M (List Msg) Bool)
        (sub : Chunk → M (List Msg) Bool), Decides T tc → (∀ c ∈ subs, Decides (S c) (sub c)) →
        ValidId id → ((T ∧ (∀ c ∈ subs, S c ∧ ConformsApp r AcceptedFormType ty c) ∧
          size = 4 + (0 + spans subs)) ↔ ConformsApp r AcceptedFormType ft (.grp id size ty subs)) →
        checkFields e r (findChunkType r ft id) (.grp id size ty subs) =
          checkGroupWith id size tc (checkGroupSubChunks e r ty sub subs 0) →
        Member e r ft (ConformsApp r AcceptedFormType ft) (.grp id size ty subs) := by
      intro hst T S tc sub ht hsub hv hiff heq
      have hn : (∀ c ∈ subs, S c ∧ ConformsApp r AcceptedFormType ty c) →
          spans subs = ((encodeAll subs).length : Int) ∧ spans subs % 2 = 0 :=
        fun h => group_numbers (hm hst) (and_forall.mp h).2
      have hsums := sums_group he subs 0 (hm hst) hsub (by omega) (by omega)
      refine ⟨?_, ?_, ?_⟩
      · rw [checkChunkWith_eq]
        simp only [Chunk.id]
        rw [heq]
        refine ((decides_checkId e id).and (fun _ =>
          (decides_checkGroup ht hsums ?_ ?_).congr hiff)).congr
          (by simp [hv])
        · intro h; have := hn h; omega
        · intro h; have := hn h; unfold inInt; omega
      · intro h
        have h := hiff.mpr h
        have := hn h.2.1
        simp only [Chunk.size]; omega
      · intro h
        have h := hiff.mpr h
        have := hn h.2.1
        simp only [Chunk.size, span]
        rw [hlen]; omega
    cases hs with
    | form hh hst =>
      refine done hst (AcceptedFormType ty) (fun c => c.id ≠ idPROP) (checkFormType e ty)
        formSubChunkCheck (decides_checkFormType e ty) (fun c _ => decides_formSub c)
        validIds.1 ?_ (by rw [(findChunkType_iff hreg).mpr hh]; simp [checkFields])
      rw [and_forall]
      constructor
      · rintro ⟨h1, ⟨h2, h3⟩, h4⟩
        exact .form h1 h2 (by omega) h3
      · intro h
        cases h with
        | form h1 h2 h3 h4 => exact ⟨h1, ⟨h2, h4⟩, by omega⟩
    | cat hh hst =>
      refine done hst (ValidId ty) (fun c => Composite c.id ∧ (ty = idJJJJ ∨ HasType ty c))
        (checkId e ty) (catSubChunkCheck ty) (decides_checkId e ty)
        (fun c hc => decides_catSub_app ty (hst c hc)) validIds.2.1 ?_
        (by rw [(findChunkType_iff hreg).mpr hh]; simp [checkFields])
      rw [and_forall, and_forall, or_forall]
      constructor
      · rintro ⟨h1, ⟨⟨h2, h2'⟩, h3⟩, h4⟩
        exact .cat h1 h2 h2' (by omega) h3
      · intro h
        cases h with
        | cat h1 h2 h2' h3 h4 => exact ⟨h1, ⟨⟨h2, h2'⟩, h4⟩, by omega⟩
    | prop hh hst =>
      refine done hst (AcceptedFormType ty) (fun c => ¬ Composite c.id ∧ c.id ≠ idPROP)
        (checkFormType e ty) propSubChunkCheck (decides_checkFormType e ty)
        (fun c _ => decides_propSub c) validIds.2.2.2 ?_
        (by rw [(findChunkType_iff hreg).mpr hh]; simp [checkFields])
      rw [and_forall]
      constructor
      · rintro ⟨h1, ⟨h2, h3⟩, h4⟩
        exact .prop h1 h2 (by omega) h3
      · intro h
        cases h with
        | prop h1 h2 h3 h4 => exact ⟨h1, ⟨h2, h4⟩, by omega⟩
  | lst id size ty subs props ih ih2 =>
    intro ft hs hl
    cases hs with
    | list hh hpa hst hst2 =>
      have hpl := pad_length size
      have hlen : (encode (.lst idLIST size ty subs props)).length =
          12 + (encodeAll props).length + (encodeAll subs).length + (pad size).length := by
        simp only [encode, List.length_append, header_length, be_length]; omega
      have hm : ∀ c ∈ subs, Member e r ty (ConformsApp r AcceptedFormType ty) c := by
        intro c hc
        have := encodeAll_le hc
        exact ih c hc ty (hst c hc) (by omega)
      have hm2 : ∀ c ∈ props, Member e r ty (ConformsApp r AcceptedFormType ty) c := by
        intro c hc
        have := encodeAll_le hc
        exact ih2 c hc ty (hst2 c hc) (by omega)
      have hs1 := sums_group he props 0 hm2 (fun c _ => decides_true (P := True) trivial)
        (by omega) (by omega)
      have hs2 := sums_group he subs 0 hm (fun c hc => decides_catSub_app ty (hst c hc))
        (by omega) (by omega)
      have hiff : (ValidId ty ∧ ((∀ c ∈ props, True ∧ ConformsApp r AcceptedFormType ty c) ∧
          (∀ c ∈ subs, (Composite c.id ∧ (ty = idJJJJ ∨ HasType ty c)) ∧
            ConformsApp r AcceptedFormType ty c) ∧ 4 + (0 + spans props) + (0 + spans subs) = size)) ↔
          ConformsApp r AcceptedFormType ft (.lst idLIST size ty subs props) := by
        rw [and_forall (P := fun _ => True), and_forall, and_forall, or_forall]
        constructor
        · rintro ⟨h1, ⟨_, h2⟩, ⟨⟨h3, h4⟩, h5⟩, h6⟩
          exact .list h1 h3 h4 hpa (by omega) h5 h2
        · intro h
          cases h with
          | list h1 h2 h3 h4 h5 h6 h7 =>
            exact ⟨h1, ⟨fun _ _ => trivial, h7⟩, ⟨⟨h2, h3⟩, h6⟩, by omega⟩
      have hn1 : (∀ c ∈ props, True ∧ ConformsApp r AcceptedFormType ty c) →
          spans props = ((encodeAll props).length : Int) ∧ spans props % 2 = 0 :=
        fun h => group_numbers hm2 (and_forall.mp h).2
      have hn2 : (∀ c ∈ subs, (Composite c.id ∧ (ty = idJJJJ ∨ HasType ty c)) ∧
            ConformsApp r AcceptedFormType ty c) →
          spans subs = ((encodeAll subs).length : Int) ∧ spans subs % 2 = 0 :=
        fun h => group_numbers hm (and_forall.mp h).2
      refine ⟨?_, ?_, ?_⟩
      · rw [checkChunkWith_eq]
        simp only [Chunk.id, (findChunkType_iff hreg).mpr hh, checkFields]
        refine ((decides_checkId e idLIST).and (fun _ => ((decides_checkId e ty).and
          (Q := (∀ c ∈ props, True ∧ ConformsApp r AcceptedFormType ty c) ∧
          (∀ c ∈ subs, (Composite c.id ∧ (ty = idJJJJ ∨ HasType ty c)) ∧
            ConformsApp r AcceptedFormType ty c) ∧ 4 + (0 + spans props) + (0 + spans subs) = size)
          (fun _ => ?_)).congr hiff)).congr (by simp [validIds])
        intro log
        simp only [M.bind_apply, checkListPropChunks_eq]
        rcases hs1 log with ⟨h1, h2⟩ | ⟨h1, log', h2, h3⟩
        · have hn := hn1 h1
          rw [h2]
          simp only [if_neg (by omega : ¬ (0 + spans props = -1)), M.bind_apply]
          rw [addInt_ok (by unfold inInt; simp only [idSize]; omega)]
          simp only [M.ofOut_val]
          rcases hs2 log with ⟨h3, h4⟩ | ⟨h3, log', h4, h5⟩
          · have hn' := hn2 h3
            rw [h4]
            simp only [if_neg (by omega : ¬ (0 + spans subs = -1)), M.bind_apply]
            rw [addInt_ok (by unfold inInt; simp only [idSize]; omega)]
            simp only [M.ofOut_val]
            rcases decides_checkGroupChunkSize idLIST size
              ((idSize : Int) + (0 + spans props) + (0 + spans subs)) log with h5 | h5
            · left; exact ⟨⟨h1, h3, h5.1⟩, h5.2⟩
            · right; exact ⟨fun h => h5.1 h.2.2, h5.2⟩
          · rw [h4]
            exact Or.inr ⟨fun h => h3 h.2.1, log', by simp, h5⟩
        · rw [h2]
          exact Or.inr ⟨fun h => h1 h.1, log', by simp, h3⟩
      · intro h
        have h := hiff.mpr h
        have := hn1 h.2.1
        have := hn2 h.2.2.1
        simp only [Chunk.size]; omega
      · intro h
        have h := hiff.mpr h
        have := hn1 h.2.1
        have := hn2 h.2.2.1
        simp only [Chunk.size, span]
        rw [hlen]; omega

end Iff
