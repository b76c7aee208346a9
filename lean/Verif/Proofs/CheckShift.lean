import Verif.Model.Check
import Verif.Proofs.Chunk
/-
  What the checker does does not depend on the messages emitted before.
-/
namespace Iff

/-- Put messages in front of the log of an outcome. -/
def relogged {α : Type} (l0 : List Msg) : Out (α × List Msg) → Out (α × List Msg)
  | .val (a, l) => .val (a, l0 ++ l)
  | .ub u => .ub u
  | .loop => .loop

/-- Earlier messages do not matter. -/
def Relogs {α : Type} (m : M (List Msg) α) : Prop := ∀ l0 l, m (l0 ++ l) = relogged l0 (m l)

theorem relogs_pure {α : Type} (a : α) : Relogs (pure a) := fun _ _ => rfl
theorem relogs_ub {α : Type} (u : UB) : Relogs (M.ub u : M (List Msg) α) := fun _ _ => rfl

theorem relogs_ofOut {α : Type} (o : Out α) : Relogs (M.ofOut o) := by
  intro l0 l; cases o <;> rfl

theorem relogs_emit (m : Msg) : Relogs (emit m) := by
  intro l0 l; simp [emit, relogged]

theorem relogs_bind {α β : Type} {m : M (List Msg) α} {f : α → M (List Msg) β} (hm : Relogs m)
    (hf : ∀ a, Relogs (f a)) : Relogs (m >>= f) := by
  intro l0 l
  simp only [M.bind_apply]
  rw [hm l0 l]
  cases m l with
  | ub u => rfl
  | loop => rfl
  | val x => exact hf x.1 l0 x.2

theorem relogs_ite {α : Type} {p : Prop} [Decidable p] {a b : M (List Msg) α} (ha : Relogs a)
    (hb : Relogs b) : Relogs (if p then a else b) := by split <;> assumption

theorem relogs_say (m : Msg) : Relogs (do emit m; pure false : M (List Msg) Bool) :=
  relogs_bind (relogs_emit _) fun _ => relogs_pure _

theorem relogs_checkId (e : Env) (id : ID) : Relogs (checkId e id) := by
  have h : ∀ bs, Relogs (checkIdChars e bs) := by
    intro bs
    induction bs with
    | nil => exact relogs_pure _
    | cons b bs ih => exact relogs_ite (relogs_say _) ih
  unfold checkId
  exact relogs_bind (h _) fun _ => relogs_ite (relogs_ite (relogs_say _) (relogs_pure _)) (relogs_pure _)

theorem relogs_checkFormType (e : Env) (id : ID) : Relogs (checkFormType e id) := by
  have h : ∀ bs, Relogs (checkFormTypeChars e bs) := by
    intro bs
    induction bs with
    | nil => exact relogs_pure _
    | cons b bs ih => exact relogs_ite (relogs_say _) ih
  unfold checkFormType
  exact relogs_bind (relogs_checkId _ _) fun _ => relogs_ite (relogs_bind (h _) fun _ => relogs_ite
    (relogs_ite (relogs_say _) (relogs_pure _)) (relogs_pure _)) (relogs_pure _)

theorem relogs_size (id : ID) (a b : Int) : Relogs (checkGroupChunkSize id a b) :=
  relogs_ite (relogs_pure _) (relogs_say _)

theorem relogs_catSub (ty : ID) (c : Chunk) : Relogs (catSubChunkCheck ty c) :=
  relogs_ite (relogs_ite (relogs_ite (relogs_bind (relogs_ofOut _) fun _ =>
    relogs_ite (relogs_say _) (relogs_pure _)) (relogs_pure _)) (relogs_pure _)) (relogs_say _)

theorem relogs_with (e : Env) (c : Chunk) {m : M (List Msg) Bool} (h : Relogs m) :
    Relogs (checkChunkWith e c m) :=
  relogs_bind (relogs_checkId _ _) fun _ => relogs_ite h (relogs_pure _)

theorem relogs_group {id : ID} {size : Int} {t : M (List Msg) Bool} {subs : M (List Msg) Int}
    (ht : Relogs t) (hs : Relogs subs) : Relogs (checkGroupWith id size t subs) :=
  relogs_bind ht fun _ => relogs_ite (relogs_bind hs fun _ => relogs_ite (relogs_pure _)
    (relogs_bind (relogs_ofOut _) fun _ => relogs_size _ _ _)) (relogs_pure _)

theorem relogs_subs {e : Env} {r : Registry} {ty : ID} {sub : Chunk → M (List Msg) Bool}
    (hsub : ∀ c, Relogs (sub c)) : ∀ {cs : List Chunk},
    (∀ c ∈ cs, ∀ h, Relogs (checkFields e r h c)) →
      ∀ acc, Relogs (checkGroupSubChunks e r ty sub cs acc)
  | [], _, acc => relogs_pure _
  | c :: cs, h, acc => by
    rw [checkGroupSubChunks]
    refine relogs_bind (hsub c) fun _ => relogs_ite (relogs_bind
      (relogs_with _ _ (h c List.mem_cons_self _)) fun _ => relogs_ite (relogs_bind (relogs_ofOut _)
        fun _ => ?_) (relogs_pure _)) (relogs_pure _)
    exact relogs_subs hsub (fun d hd => h d (List.mem_cons_of_mem _ hd)) _

theorem relogs_props {e : Env} {r : Registry} {ty : ID} : ∀ {cs : List Chunk},
    (∀ c ∈ cs, ∀ h, Relogs (checkFields e r h c)) →
      ∀ acc, Relogs (checkListPropChunks e r ty cs acc)
  | [], _, acc => relogs_pure _
  | c :: cs, h, acc => by
    rw [checkListPropChunks]
    refine relogs_bind
      (relogs_with _ _ (h c List.mem_cons_self _)) fun _ => relogs_ite (relogs_bind (relogs_ofOut _)
        fun _ => ?_) (relogs_pure _)
    exact relogs_props (fun d hd => h d (List.mem_cons_of_mem _ hd)) _

theorem relogs_fields (e : Env) (r : Registry) (c : Chunk) :
    ∀ h, Relogs (checkFields e r h c) := by
  have form : ∀ c, Relogs (formSubChunkCheck c) := fun c => relogs_ite (relogs_say _) (relogs_pure _)
  have prop : ∀ c, Relogs (propSubChunkCheck c) := fun c => relogs_ite (relogs_say _) (relogs_pure _)
  induction c using Chunk.ind with
  | raw id size data => intro h; cases h <;> simp only [checkFields] <;> first | exact relogs_pure _ | exact relogs_ub _
  | ext id size vals =>
    intro h
    cases h <;> simp only [checkFields]
    case ext =>
      exact relogs_ite (relogs_ite (relogs_pure _) (relogs_say _)) (relogs_ub _)
    all_goals first | exact relogs_pure _ | exact relogs_ub _
  | grp id size ty subs ih =>
    intro h
    cases h <;> simp only [checkFields]
    case form => exact relogs_group (relogs_checkFormType _ _) (relogs_subs form ih _)
    case cat => exact relogs_group (relogs_checkId _ _) (relogs_subs (relogs_catSub _) ih _)
    case prop => exact relogs_group (relogs_checkFormType _ _) (relogs_subs prop ih _)
    all_goals first | exact relogs_pure _ | exact relogs_ub _
  | lst id size ty subs props ih ihp =>
    intro h
    cases h <;> simp only [checkFields]
    case form => exact relogs_group (relogs_checkFormType _ _) (relogs_subs form ih _)
    case cat => exact relogs_group (relogs_checkId _ _) (relogs_subs (relogs_catSub _) ih _)
    case prop => exact relogs_group (relogs_checkFormType _ _) (relogs_subs prop ih _)
    case list =>
      refine relogs_bind (relogs_checkId _ _) fun _ => relogs_ite (relogs_bind (relogs_props ihp _)
        fun _ => relogs_ite (relogs_pure _) ?_) (relogs_pure _)
      refine relogs_bind (relogs_ofOut _) fun _ => relogs_bind (relogs_subs (relogs_catSub _) ih _)
        fun _ => relogs_ite (relogs_pure _) ?_
      exact relogs_bind (relogs_ofOut _) fun _ => relogs_size _ _ _
    all_goals first | exact relogs_pure _ | exact relogs_ub _

/-- `IFF_check` does the same whatever was logged before. -/
theorem relogs_check (e : Env) (reg : Option Registry) (c : Chunk) : Relogs (check e reg c) :=
  relogs_ite (relogs_say _) (relogs_with _ _ (relogs_fields _ _ _ _))

end Iff
