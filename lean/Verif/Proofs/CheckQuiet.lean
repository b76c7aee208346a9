import Verif.Proofs.Check
/-
  The failure marker of the size computation, and diagnostics of the checker, for any registry.
-/
namespace Iff
open Spec

/-- TRUE without a diagnostic, or FALSE with at least one (or no result at all). -/
def Explains (m : M (List Msg) Bool) : Prop :=
  ∀ log b log', m log = .val (b, log') → (b = true → log' = log) ∧ (b = false → Reports log log')

/-- An even number without a diagnostic, or -1 with at least one (or no result at all). -/
def ExplainsSum (m : M (List Msg) Int) : Prop :=
  ∀ log v log', m log = .val (v, log') → (v % 2 = 0 ∧ log' = log) ∨ (v = -1 ∧ Reports log log')

theorem Decides.explains {P : Prop} {m : M (List Msg) Bool} (h : Decides P m) : Explains m := by
  intro log b log' hm
  rcases h log with ⟨_, h⟩ | ⟨_, l, h, hr⟩
  · rw [h] at hm; cases hm; simp
  · rw [h] at hm; cases hm; simpa using hr

theorem explains_true : Explains (pure true) := (decides_true (P := True) trivial).explains

theorem explains_emit (m : Msg) : Explains (do emit m; pure false) :=
  (decides_emit (P := False) (by simp) m).explains

theorem explains_ub (u : UB) : Explains (M.ub u) := by
  intro log b log' h; simp at h

theorem Explains.and {a b : M (List Msg) Bool} (ha : Explains a) (hb : Explains b) :
    Explains (do if ← a then b else pure false) := by
  intro log v log' h
  simp only [M.bind_apply] at h
  cases hx : a log with
  | ub u => simp [hx] at h
  | loop => simp [hx] at h
  | val x =>
    obtain ⟨y, l⟩ := x
    rw [hx] at h
    have h1 := ha log y l hx
    cases y with
    | false =>
      simp at h
      obtain ⟨rfl, rfl⟩ := h
      simpa using h1
    | true =>
      have := h1.1 rfl
      subst this
      exact hb _ _ _ (by simpa using h)

theorem explains_catSub (ty : ID) (c : Chunk) : Explains (catSubChunkCheck ty c) := by
  unfold catSubChunkCheck
  split
  · split
    · cases hg : c.groupType with
      | ub u => intro log b log' h; simp [M.bind_apply] at h
      | loop => intro log b log' h; simp [M.bind_apply, M.ofOut] at h
      | val t =>
        intro log b log' h
        simp only [M.bind_apply, M.ofOut_val] at h
        split at h
        · exact explains_emit _ _ _ _ h
        · exact explains_true _ _ _ h
    · exact explains_true
  · exact explains_emit _

theorem even_increment {e : Env} (he : 32 ≤ e.sizeBits) {acc sub v : Int}
    (h : incrementChunkSize e acc sub = .val v) (ha : acc % 2 = 0) : v % 2 = 0 := by
  rw [incrementChunkSize_eq e he] at h
  unfold addInt at h
  split at h
  · simp only [Out.val_bind] at h
    have hw : wrapInt (acc + 8 + sub) % 2 = sub % 2 := by unfold wrapInt; omega
    split at h
    · rename_i ho
      rw [isOdd_iff] at ho
      split at h
      · cases h; omega
      · cases h
    · rename_i ho
      have : sub % 2 ≠ 1 := fun h => ho ((isOdd_iff sub).2 h)
      cases h; omega
  · simp at h

theorem explains_sum {e : Env} (he : 32 ≤ e.sizeBits) {r : Registry} {ty : ID}
    {sub : Chunk → M (List Msg) Bool} :
    ∀ (cs : List Chunk) (acc : Int), acc % 2 = 0 → (∀ c ∈ cs, Explains (sub c)) →
      (∀ c ∈ cs, ∀ h, Explains (checkFields e r h c)) →
      ExplainsSum (checkGroupSubChunks e r ty sub cs acc)
  | [], acc, ha, _, _ => by
    intro log v log' h
    simp [checkGroupSubChunks] at h
    obtain ⟨rfl, rfl⟩ := h
    exact Or.inl ⟨ha, rfl⟩
  | c :: cs, acc, ha, hs, hc => by
    intro log v log' h
    simp only [checkGroupSubChunks, M.bind_apply] at h
    cases hx : sub c log with
    | ub u => simp [hx] at h
    | loop => simp [hx] at h
    | val x =>
      obtain ⟨y, l⟩ := x
      rw [hx] at h
      have h1 := hs c List.mem_cons_self log y l hx
      cases y with
      | false =>
        simp at h
        obtain ⟨rfl, rfl⟩ := h
        exact Or.inr ⟨rfl, h1.2 rfl⟩
      | true =>
        have := h1.1 rfl
        subst this
        simp only [if_true, M.bind_apply] at h
        have hch : Explains (checkChunkWith e c (checkFields e r (findChunkType r ty c.id) c)) :=
          (decides_checkId e c.id).explains.and (hc c List.mem_cons_self _)
        cases hx : checkChunkWith e c (checkFields e r (findChunkType r ty c.id) c) l with
        | ub u => simp [hx] at h
        | loop => simp [hx] at h
        | val x =>
          obtain ⟨y, l'⟩ := x
          rw [hx] at h
          have h1 := hch l y l' hx
          cases y with
          | false =>
            simp at h
            obtain ⟨rfl, rfl⟩ := h
            exact Or.inr ⟨rfl, h1.2 rfl⟩
          | true =>
            have := h1.1 rfl
            subst this
            simp only [if_true, M.bind_apply] at h
            cases hi : incrementChunkSize e acc c.size with
            | ub u => simp [hi] at h
            | loop => simp [hi, M.ofOut] at h
            | val b =>
              simp only [hi, M.ofOut_val] at h
              exact explains_sum he cs b (even_increment he hi ha)
                (fun d hd => hs d (List.mem_cons_of_mem _ hd))
                (fun d hd => hc d (List.mem_cons_of_mem _ hd)) _ _ _ h

theorem explains_group {id : ID} {size : Int} {tc : M (List Msg) Bool} {subs : M (List Msg) Int}
    (ht : Explains tc) (hs : ExplainsSum subs) : Explains (checkGroupWith id size tc subs) := by
  unfold checkGroupWith
  refine ht.and ?_
  intro log b log' h
  simp only [M.bind_apply] at h
  cases hx : subs log with
  | ub u => simp [hx] at h
  | loop => simp [hx] at h
  | val x =>
    obtain ⟨v, l⟩ := x
    rw [hx] at h
    rcases hs log v l hx with ⟨hv, rfl⟩ | ⟨rfl, hr⟩
    · simp only [if_neg (by omega : ¬ v = -1), M.bind_apply] at h
      cases ha : addInt v (idSize : Int) with
      | ub u => simp [ha] at h
      | loop => simp [ha, M.ofOut] at h
      | val w =>
        simp only [ha, M.ofOut_val] at h
        exact (decides_checkGroupChunkSize id size w).explains _ _ _ h
    · simp at h
      obtain ⟨rfl, rfl⟩ := h
      simpa using hr

theorem explains_check {e : Env} (he : 32 ≤ e.sizeBits) {r : Registry} (c : Chunk) :
    ∀ h, Explains (checkFields e r h c) := by
  have cf := fun ty => (decides_checkFormType e ty).explains
  have ci := fun ty => (decides_checkId e ty).explains
  have fs := fun c => (decides_formSub c).explains
  have ps := fun c => (decides_propSub c).explains
  induction c using Chunk.ind with
  | raw id size data =>
    intro h; cases h <;> simp only [checkFields] <;>
      first | exact explains_true | exact explains_ub _
  | ext id size vals =>
    intro h
    cases h <;> simp only [checkFields] <;> try (first | exact explains_true | exact explains_ub _)
    split
    · split
      · exact explains_true
      · exact explains_emit _
    · exact explains_ub _
  | grp id size ty subs ih =>
    intro h
    cases h <;> simp only [checkFields] <;> try (first | exact explains_true | exact explains_ub _)
    · exact explains_group (cf ty) (explains_sum he _ _ rfl (fun c _ => fs c) ih)
    · exact explains_group (ci ty) (explains_sum he _ _ rfl (fun c _ => explains_catSub ty c) ih)
    · exact explains_group (cf ty) (explains_sum he _ _ rfl (fun c _ => ps c) ih)
  | lst id size ty subs props ih ih2 =>
    intro h
    cases h <;> simp only [checkFields] <;> try (first | exact explains_true | exact explains_ub _)
    · exact explains_group (cf ty) (explains_sum he _ _ rfl (fun c _ => fs c) ih)
    · exact explains_group (ci ty) (explains_sum he _ _ rfl (fun c _ => explains_catSub ty c) ih)
    · refine (ci ty).and ?_
      have hs1 := explains_sum he (r := r) (ty := ty) props 0 rfl (fun _ _ => explains_true) ih2
      have hs2 := explains_sum he (r := r) (ty := ty) subs 0 rfl (fun c _ => explains_catSub ty c) ih
      intro log b log' h
      simp only [M.bind_apply, checkListPropChunks_eq] at h
      cases hx : checkGroupSubChunks e r ty (fun _ => pure true) props 0 log with
      | ub u => simp [hx] at h
      | loop => simp [hx] at h
      | val x =>
        obtain ⟨v, l⟩ := x
        rw [hx] at h
        rcases hs1 log v l hx with ⟨hv, rfl⟩ | ⟨rfl, hr⟩
        · simp only [if_neg (by omega : ¬ v = -1), M.bind_apply] at h
          cases ha : addInt (idSize : Int) v with
          | ub u => simp [ha] at h
          | loop => simp [ha, M.ofOut] at h
          | val w =>
            simp only [ha, M.ofOut_val] at h
            cases hy : checkGroupSubChunks e r ty (catSubChunkCheck ty) subs 0 l with
            | ub u => simp [hy] at h
            | loop => simp [hy] at h
            | val x =>
              obtain ⟨v', l'⟩ := x
              rw [hy] at h
              rcases hs2 l v' l' hy with ⟨hv', rfl⟩ | ⟨rfl, hr⟩
              · simp only [if_neg (by omega : ¬ v' = -1), M.bind_apply] at h
                cases ha : addInt w v' with
                | ub u => simp [ha] at h
                | loop => simp [ha, M.ofOut] at h
                | val w' =>
                  simp only [ha, M.ofOut_val] at h
                  exact (decides_checkGroupChunkSize id size w').explains _ _ _ h
              · simp at h
                obtain ⟨rfl, rfl⟩ := h
                simpa using hr
        · simp at h
          obtain ⟨rfl, rfl⟩ := h
          simpa using hr
    · exact explains_group (cf ty) (explains_sum he _ _ rfl (fun c _ => ps c) ih)

/-- Why the sum is -1. -/
theorem sum_minus_one {e : Env} (he : 32 ≤ e.sizeBits) {r : Registry} {ty : ID}
    {sub : Chunk → M (List Msg) Bool} :
    ∀ (cs : List Chunk) (acc : Int), acc % 2 = 0 → ∀ log log',
      checkGroupSubChunks e r ty sub cs acc log = .val (-1, log') →
      ∃ c ∈ cs, ∃ l l', sub c l = .val (false, l') ∨ checkChunk e r ty c l = .val (false, l')
  | [], acc, ha, log, log', h => by
    simp [checkGroupSubChunks] at h
    omega
  | c :: cs, acc, ha, log, log', h => by
    simp only [checkGroupSubChunks, M.bind_apply] at h
    cases hx : sub c log with
    | ub u => simp [hx] at h
    | loop => simp [hx] at h
    | val x =>
      obtain ⟨y, l⟩ := x
      cases y with
      | false => exact ⟨c, List.mem_cons_self, _, _, Or.inl hx⟩
      | true =>
        simp only [hx, if_true, M.bind_apply] at h
        cases hx : checkChunkWith e c (checkFields e r (findChunkType r ty c.id) c) l with
        | ub u => simp [hx] at h
        | loop => simp [hx] at h
        | val x =>
          obtain ⟨y, l'⟩ := x
          cases y with
          | false => exact ⟨c, List.mem_cons_self, _, _, Or.inr hx⟩
          | true =>
            simp only [hx, if_true, M.bind_apply] at h
            cases hi : incrementChunkSize e acc c.size with
            | ub u => simp [hi] at h
            | loop => simp [hi, M.ofOut] at h
            | val b =>
              simp only [hi, M.ofOut_val] at h
              obtain ⟨d, hd, h⟩ := sum_minus_one he cs b (even_increment he hi ha) _ _ h
              exact ⟨d, List.mem_cons_of_mem _ hd, h⟩

end Iff
