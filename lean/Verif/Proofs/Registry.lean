import Verif.Spec.Registry
/-
  Correctness of the binary search and of registry lookup.
-/
namespace Iff
open Spec

theorem cmpId_lt {a b : ID} : cmpId a b = .lt ↔ a.toNat < b.toNat := by
  unfold cmpId; split
  · simp [*]
  · split <;> simp [*]

theorem cmpId_gt {a b : ID} : cmpId a b = .gt ↔ a.toNat > b.toNat := by
  unfold cmpId; split
  · simp; omega
  · split
    · simp [*]
    · simp; omega

theorem cmpId_eq {a b : ID} : cmpId a b = .eq ↔ a = b := by
  unfold cmpId; split
  · simp; intro h; subst h; omega
  · split
    · simp; intro h; subst h; omega
    · simp; exact BitVec.eq_of_toNat_eq (by omega)

theorem bsearchLoop_spec {α : Type} (key : α → ID) (arr : List α) (k : ID)
    (hs : Ascending (arr.map key)) :
    ∀ (fuel l u : Nat), u ≤ arr.length → u - l < fuel →
      (∀ i (h : i < arr.length), i < l → (key arr[i]).toNat < k.toNat) →
      (∀ i (h : i < arr.length), u ≤ i → k.toNat < (key arr[i]).toNat) →
      (∀ p, bsearchLoop key arr k fuel l u = some p → p ∈ arr ∧ key p = k) ∧
      (bsearchLoop key arr k fuel l u = none → ∀ p ∈ arr, key p ≠ k) := by
  have mono : ∀ i j (hi : i < arr.length) (hj : j < arr.length), i < j →
      (key arr[i]).toNat < (key arr[j]).toNat := by
    intro i j hi hj hij
    have := List.pairwise_iff_getElem.mp hs i j (by simpa using hi) (by simpa using hj) hij
    simpa using this
  intro fuel
  induction fuel with
  | zero => intro l u _ h; omega
  | succ fuel ih =>
    intro l u hu hf hlo hhi
    unfold bsearchLoop
    by_cases hlu : l < u
    · rw [if_pos hlu]
      have hidx : (l + u) / 2 < arr.length := by omega
      simp only [List.getElem?_eq_getElem hidx]
      cases hc : cmpId k (key arr[(l + u) / 2]) with
      | lt =>
        rw [cmpId_lt] at hc
        apply ih l ((l + u) / 2) (by omega) (by omega) hlo
        intro i hi hle
        by_cases he : i = (l + u) / 2
        · subst he; exact hc
        · exact Nat.lt_trans hc (mono _ i hidx hi (by omega))
      | gt =>
        rw [cmpId_gt] at hc
        apply ih ((l + u) / 2 + 1) u hu (by omega) _ hhi
        intro i hi hle
        by_cases he : i = (l + u) / 2
        · subst he; exact hc
        · exact Nat.lt_trans (mono i _ hi hidx (by omega)) hc
      | eq =>
        rw [cmpId_eq] at hc
        refine ⟨?_, by simp⟩
        intro p hp
        simp only [Option.some.injEq] at hp
        subst hp
        exact ⟨List.getElem_mem hidx, hc.symm⟩
    · rw [if_neg hlu]
      refine ⟨by simp, ?_⟩
      intro _ p hp heq
      obtain ⟨i, hi, rfl⟩ := List.getElem_of_mem hp
      by_cases hil : i < l
      · have := hlo i hi hil; rw [heq] at this; omega
      · have := hhi i hi (by omega); rw [heq] at this; omega

theorem bsearch_some {α : Type} {key : α → ID} {arr : List α} {k : ID} {p : α}
    (hs : Ascending (arr.map key)) (h : bsearch key arr k = some p) : p ∈ arr ∧ key p = k :=
  (bsearchLoop_spec key arr k hs (arr.length + 1) 0 arr.length (Nat.le_refl _) (by omega)
    (by intros; omega) (by intros; omega)).1 p h

theorem bsearch_none {α : Type} {key : α → ID} {arr : List α} {k : ID}
    (hs : Ascending (arr.map key)) (h : bsearch key arr k = none) : ∀ p ∈ arr, key p ≠ k :=
  (bsearchLoop_spec key arr k hs (arr.length + 1) 0 arr.length (Nat.le_refl _) (by omega)
    (by intros; omega) (by intros; omega)).2 h

/-- In a strictly ascending array the element with a given key is unique. -/
theorem ascending_unique {α : Type} {key : α → ID} {arr : List α} (hs : Ascending (arr.map key))
    {p q : α} (hp : p ∈ arr) (hq : q ∈ arr) (h : key p = key q) : p = q := by
  obtain ⟨i, hi, rfl⟩ := List.getElem_of_mem hp
  obtain ⟨j, hj, rfl⟩ := List.getElem_of_mem hq
  have mono := List.pairwise_iff_getElem.mp hs
  rcases Nat.lt_trichotomy i j with hij | hij | hij
  · have := mono i j (by simpa using hi) (by simpa using hj) hij
    simp [h] at this
  · subst hij; rfl
  · have := mono j i (by simpa using hj) (by simpa using hi) hij
    simp [h] at this

theorem bsearch_mem {α : Type} {key : α → ID} {arr : List α} {p : α}
    (hs : Ascending (arr.map key)) (hp : p ∈ arr) : bsearch key arr (key p) = some p := by
  cases h : bsearch key arr (key p) with
  | none => exact absurd rfl (bsearch_none hs h p hp)
  | some q =>
    obtain ⟨hq, he⟩ := bsearch_some hs h
    rw [ascending_unique hs hq hp he]

theorem getChunkType_some {ch : Chain} (hs : ChainSorted ch) {id : ID} {t : ChunkType}
    (h : getChunkType id ch = some t) : ChainProvides ch id t.handler := by
  induction ch with
  | nil => simp [getChunkType] at h
  | cons node far ih =>
    unfold getChunkType at h
    have hn := hs node List.mem_cons_self
    cases hb : bsearch ChunkType.id node id with
    | some t' =>
      simp only [hb, Option.some.injEq] at h
      subst h
      obtain ⟨h1, h2⟩ := bsearch_some hn hb
      exact ⟨[], node, far, t', rfl, h1, h2, rfl, by simp⟩
    | none =>
      simp only [hb] at h
      obtain ⟨near, n, far', t', rfl, h1, h2, h3, h4⟩ :=
        ih (fun n hn => hs n (List.mem_cons_of_mem _ hn)) h
      refine ⟨node :: near, n, far', t', rfl, h1, h2, h3, ?_⟩
      intro n' hn'
      rcases List.mem_cons.mp hn' with rfl | hn'
      · exact bsearch_none hn hb
      · exact h4 n' hn'

theorem getChunkType_none {ch : Chain} (hs : ChainSorted ch) {id : ID}
    (h : getChunkType id ch = none) : ChainLacks ch id := by
  induction ch with
  | nil => intro n hn; simp at hn
  | cons node far ih =>
    unfold getChunkType at h
    have hn := hs node List.mem_cons_self
    cases hb : bsearch ChunkType.id node id with
    | some t' => simp [hb] at h
    | none =>
      simp only [hb] at h
      intro n' hn'
      rcases List.mem_cons.mp hn' with rfl | hn'
      · exact bsearch_none hn hb
      · exact ih (fun n hn => hs n (List.mem_cons_of_mem _ hn)) h n' hn'

theorem chainProvides_not_lacks {ch : Chain} {id : ID} {h : Handler}
    (hp : ChainProvides ch id h) (hl : ChainLacks ch id) : False := by
  obtain ⟨near, node, far, t, rfl, h1, h2, _, _⟩ := hp
  exact hl node (by simp) t h1 h2

/-- The nearest entry for an ID is unique (in sorted arrays). -/
theorem chainProvides_unique {ch : Chain} (hs : ChainSorted ch) {id : ID} {h h' : Handler}
    (hp : ChainProvides ch id h) (hp' : ChainProvides ch id h') : h = h' := by
  obtain ⟨near, node, far, t, hc, ht, hid, hh, hnear⟩ := hp
  obtain ⟨near', node', far', t', hc', ht', hid', hh', hnear'⟩ := hp'
  rw [hc] at hc'
  rcases List.append_eq_append_iff.mp hc' with ⟨as, h1, h2⟩ | ⟨as, h1, h2⟩
  · cases as with
    | nil =>
      simp at h2
      obtain ⟨rfl, rfl⟩ := h2
      have hn : Ascending (node.map ChunkType.id) := hs node (by rw [hc]; simp)
      rw [← hh, ← hh', ascending_unique hn ht ht' (hid.trans hid'.symm)]
    | cons a as =>
      simp at h2
      exact absurd hid (hnear' node (by rw [h1, ← h2.1]; simp) t ht)
  · cases as with
    | nil =>
      simp at h2
      obtain ⟨rfl, rfl⟩ := h2
      have hn : Ascending (node'.map ChunkType.id) := hs node' (by rw [hc]; simp)
      rw [← hh, ← hh', ascending_unique hn ht ht' (hid.trans hid'.symm)]
    | cons a as =>
      simp at h2
      exact absurd hid' (hnear node' (by rw [h1, ← h2.1]; simp) t' ht')

theorem chainHandler_iff {ch : Chain} (hs : ChainSorted ch) {dflt : Handler} {id : ID} {h : Handler} :
    (match getChunkType id ch with | none => dflt | some t => t.handler) = h ↔
      ChainHandler ch dflt id h := by
  unfold ChainHandler
  cases hg : getChunkType id ch with
  | none =>
    have hl := getChunkType_none hs hg
    constructor
    · intro h; exact Or.inr ⟨hl, h.symm⟩
    · rintro (hp | ⟨_, rfl⟩)
      · exact (chainProvides_not_lacks hp hl).elim
      · rfl
  | some t =>
    have hp := getChunkType_some hs hg
    constructor
    · intro h; left; rw [← h]; exact hp
    · rintro (hp' | ⟨hl, _⟩)
      · exact chainProvides_unique hs hp hp'
      · exact (chainProvides_not_lacks hp hl).elim

theorem findChunkType_iff {r : Registry} (hs : RegistrySorted r) {ft id : ID} {h : Handler} :
    findChunkType r ft id = h ↔ HandlerFor r ft id h := by
  unfold HandlerFor
  cases hb : bsearch FormChunkTypes.formType r.formTypes ft with
  | none =>
    have hno := bsearch_none hs.forms hb
    have hf : findChunkType r ft id =
        match getChunkType id r.global with | none => r.default | some t => t.handler := by
      simp only [findChunkType, getFormChunkTypes, hb]; rfl
    rw [hf, chainHandler_iff hs.global]
    constructor
    · intro h; exact Or.inr ⟨hno, h⟩
    · rintro (⟨f, hf, hft, _⟩ | ⟨_, h⟩)
      · exact absurd hft (hno f hf)
      · exact h
  | some f =>
    obtain ⟨hmem, hft⟩ := bsearch_some hs.forms hb
    have hf : findChunkType r ft id =
        match getChunkType id f.chain with | none => r.default | some t => t.handler := by
      simp only [findChunkType, getFormChunkTypes, hb]; rfl
    rw [hf, chainHandler_iff (hs.formChains f hmem)]
    constructor
    · intro h; exact Or.inl ⟨f, hmem, hft, h⟩
    · rintro (⟨f', hf', hft', h⟩ | ⟨hno, _⟩)
      · rw [ascending_unique hs.forms hmem hf' (hft.trans hft'.symm)]; exact h
      · exact absurd hft (hno f hmem)

theorem defaultRegistry_sorted : RegistrySorted defaultRegistry where
  forms := by unfold Ascending; decide
  formChains := by simp [defaultRegistry]
  global := by
    intro node hn
    simp only [defaultRegistry, globalNode, List.mem_singleton] at hn
    subst hn
    unfold Ascending
    decide

theorem handlerFor_default {ft id : ID} {h : Handler} :
    HandlerFor defaultRegistry ft id h ↔ ChainHandler globalNode .raw id h := by
  unfold HandlerFor
  constructor
  · rintro (⟨f, hf, _⟩ | ⟨_, h⟩)
    · simp [defaultRegistry] at hf
    · exact h
  · intro h; exact Or.inr ⟨by simp [defaultRegistry], h⟩

theorem findChunkType_default (ft id : ID) :
    findChunkType defaultRegistry ft id =
      if id = idFORM then .form else if id = idCAT then .cat
      else if id = idLIST then .list else if id = idPROP then .prop else .raw := by
  rw [findChunkType_iff defaultRegistry_sorted, handlerFor_default]
  have prov : ∀ t ∈ globalChunkTypes, t.id = id → ChainHandler globalNode .raw id t.handler := by
    intro t ht hid
    exact Or.inl ⟨[], globalChunkTypes, [], t, rfl, ht, hid, rfl, by simp⟩
  by_cases h1 : id = idFORM
  · rw [if_pos h1]; exact prov ⟨idFORM, .form⟩ (by simp [globalChunkTypes]) h1.symm
  by_cases h2 : id = idCAT
  · rw [if_neg h1, if_pos h2]; exact prov ⟨idCAT, .cat⟩ (by simp [globalChunkTypes]) h2.symm
  by_cases h3 : id = idLIST
  · rw [if_neg h1, if_neg h2, if_pos h3]
    exact prov ⟨idLIST, .list⟩ (by simp [globalChunkTypes]) h3.symm
  by_cases h4 : id = idPROP
  · rw [if_neg h1, if_neg h2, if_neg h3, if_pos h4]
    exact prov ⟨idPROP, .prop⟩ (by simp [globalChunkTypes]) h4.symm
  · rw [if_neg h1, if_neg h2, if_neg h3, if_neg h4]
    refine Or.inr ⟨?_, rfl⟩
    intro n hn t ht
    simp only [globalNode, List.mem_singleton] at hn
    subst hn
    simp only [globalChunkTypes, List.mem_cons, List.not_mem_nil, or_false] at ht
    rcases ht with rfl | rfl | rfl | rfl
    · exact fun h => h2 h.symm
    · exact fun h => h1 h.symm
    · exact fun h => h3 h.symm
    · exact fun h => h4 h.symm

end Iff
