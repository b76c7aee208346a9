import Verif.Proofs.Platform
import Verif.Proofs.ErrText
import Verif.Model.Check
/-
  The environment plays no role in checking, apart from the value of a `char` in a diagnostic.
-/
namespace Iff
open Spec

/-- The same diagnostic, on two machines. -/
def MsgSim (e e' : Env) (m m' : Msg) : Prop :=
  m = m' ∨ ∃ b, m = .illegalChar (charVal e b) ∧ m' = .illegalChar (charVal e' b)

/-- The same diagnostics, on two machines. -/
inductive LogSim (e e' : Env) : List Msg → List Msg → Prop
  | nil : LogSim e e' [] []
  | snoc {l l' m m'} : LogSim e e' l l' → MsgSim e e' m m' → LogSim e e' (l ++ [m]) (l' ++ [m'])

/-- The same outcome, for states in relation `R`. -/
inductive OutSim {α σ : Type} (R : σ → σ → Prop) : Out (α × σ) → Out (α × σ) → Prop
  | val {a s s'} : R s s' → OutSim R (.val (a, s)) (.val (a, s'))
  | ub {u} : OutSim R (.ub u) (.ub u)
  | loop : OutSim R .loop .loop

/-- The same computation, for states in relation `R`. -/
def Sim {α σ : Type} (R : σ → σ → Prop) (m m' : M σ α) : Prop :=
  ∀ s s', R s s' → OutSim R (m s) (m' s')

section
variable {α β σ : Type} {R : σ → σ → Prop}

theorem sim_pure (a : α) : Sim R (pure a) (pure a) := fun _ _ h => .val h

theorem sim_ub (u : UB) : Sim R (M.ub u : M σ α) (M.ub u) := fun _ _ _ => .ub

theorem sim_loop : Sim R (M.loop : M σ α) M.loop := fun _ _ _ => .loop

theorem sim_ofOut (o : Out α) : Sim R (M.ofOut o) (M.ofOut o) := by
  intro l l' h
  cases o with
  | val a => exact .val h
  | ub u => exact .ub
  | loop => exact .loop

/-- Sequences; the second part has to agree only on results of the first one. -/
theorem sim_bind' {m m' : M σ α} {f f' : α → M σ β} (h : Sim R m m')
    (hf : ∀ a, (∃ s s1, m s = .val (a, s1)) → Sim R (f a) (f' a)) :
    Sim R (m >>= f) (m' >>= f') := by
  intro l l' hl
  rw [M.bind_apply, M.bind_apply]
  have := h l l' hl
  generalize ho : m l = o at this
  generalize m' l' = o' at this
  cases this with
  | val h => exact hf _ ⟨_, _, ho⟩ _ _ h
  | ub => exact .ub
  | loop => exact .loop

theorem sim_bind {m m' : M σ α} {f f' : α → M σ β} (h : Sim R m m')
    (hf : ∀ a, Sim R (f a) (f' a)) : Sim R (m >>= f) (m' >>= f') :=
  sim_bind' h fun a _ => hf a

theorem sim_ite {c : Prop} [Decidable c] {m m' n n' : M σ α} (hm : Sim R m m')
    (hn : Sim R n n') : Sim R (if c then m else n) (if c then m' else n') := by
  split
  · exact hm
  · exact hn

end

section
variable {e e' : Env} {α : Type}

theorem sim_emit {m m' : Msg} (h : MsgSim e e' m m') : Sim (LogSim e e') (emit m) (emit m') :=
  fun _ _ hl => .val (hl.snoc h)

theorem sim_fail {m m' : Msg} (h : MsgSim e e' m m') (a : α) :
    Sim (LogSim e e') (do emit m; pure a) (do emit m'; pure a) :=
  sim_bind (sim_emit h) fun _ => sim_pure a

theorem sim_say (m : Msg) (a : α) :
    Sim (LogSim e e') (do emit m; pure a) (do emit m; pure a) :=
  sim_fail (.inl rfl) a

end

theorem charVal_bad (e : Env) (b : Byte) :
    (charVal e b < 0x20 ∨ charVal e b > 0x7e) ↔ (b.toNat < 0x20 ∨ b.toNat > 0x7e) := by
  have := b.isLt
  unfold charVal
  split
  · rw [BitVec.toInt_eq_toNat_cond]
    split <;> omega
  · omega

theorem charVal_low (e : Env) (b : Byte) :
    ((charVal e b ≥ 0x61 ∧ charVal e b ≤ 0x7a) ∨ charVal e b = 0x2e) ↔
      ((b.toNat ≥ 0x61 ∧ b.toNat ≤ 0x7a) ∨ b.toNat = 0x2e) := by
  have := b.isLt
  unfold charVal
  split
  · rw [BitVec.toInt_eq_toNat_cond]
    split <;> omega
  · omega

section
variable (e e' : Env)

theorem sim_checkIdChars : ∀ bs, Sim (LogSim e e') (checkIdChars e bs) (checkIdChars e' bs)
  | [] => sim_pure _
  | b :: bs => by
    simp only [checkIdChars, charVal_bad]
    exact sim_ite (sim_fail (.inr ⟨b, rfl, rfl⟩) _) (sim_checkIdChars bs)

theorem sim_checkId (id : ID) : Sim (LogSim e e') (checkId e id) (checkId e' id) := by
  unfold checkId
  refine sim_bind (sim_checkIdChars e e' _) fun b => sim_ite (sim_ite (sim_say _ _) (sim_pure _))
    (sim_pure _)

theorem sim_checkFormTypeChars : ∀ bs,
    Sim (LogSim e e') (checkFormTypeChars e bs) (checkFormTypeChars e' bs)
  | [] => sim_pure _
  | b :: bs => by
    simp only [checkFormTypeChars, charVal_low]
    exact sim_ite (sim_say _ _) (sim_checkFormTypeChars bs)

theorem sim_checkFormType (ft : ID) : Sim (LogSim e e') (checkFormType e ft) (checkFormType e' ft) := by
  unfold checkFormType
  refine sim_bind (sim_checkId e e' _) fun b => sim_ite
    (sim_bind (sim_checkFormTypeChars e e' _) fun b => sim_ite (sim_ite (sim_say _ _) (sim_pure _))
      (sim_pure _)) (sim_pure _)

theorem sim_formSub (c : Chunk) : Sim (LogSim e e') (formSubChunkCheck c) (formSubChunkCheck c) :=
  sim_ite (sim_say _ _) (sim_pure _)

theorem sim_catSub (ty : ID) (c : Chunk) : Sim (LogSim e e') (catSubChunkCheck ty c) (catSubChunkCheck ty c) := by
  unfold catSubChunkCheck
  refine sim_ite (sim_ite (sim_ite (sim_bind (sim_ofOut _) fun _ => sim_ite (sim_say _ _) (sim_pure _))
    (sim_pure _)) (sim_pure _)) (sim_say _ _)

theorem sim_propSub (c : Chunk) : Sim (LogSim e e') (propSubChunkCheck c) (propSubChunkCheck c) :=
  sim_ite (sim_say _ _) (sim_pure _)

theorem sim_size (id : ID) (a b : Int) :
    Sim (LogSim e e') (checkGroupChunkSize id a b) (checkGroupChunkSize id a b) :=
  sim_ite (sim_pure _) (sim_say _ _)

theorem sim_chunkWith (c : Chunk) {m m' : M (List Msg) Bool} (h : Sim (LogSim e e') m m') :
    Sim (LogSim e e') (checkChunkWith e c m) (checkChunkWith e' c m') :=
  sim_bind (sim_checkId e e' _) fun _ => sim_ite h (sim_pure _)

theorem sim_groupWith (id : ID) (size : Int) {m m' : M (List Msg) Bool} {n n' : M (List Msg) Int}
    (hm : Sim (LogSim e e') m m') (hn : Sim (LogSim e e') n n') :
    Sim (LogSim e e') (checkGroupWith id size m n) (checkGroupWith id size m' n') :=
  sim_bind hm fun _ => sim_ite (sim_bind hn fun _ => sim_ite (sim_pure _)
    (sim_bind (sim_ofOut _) fun _ => sim_size e e' _ _ _)) (sim_pure _)

end

section
variable {e e' : Env} (he : e.Sane) (he' : e'.Sane) (r : Registry)
include he he'

mutual

theorem sim_fields : ∀ (c : Chunk) (h : Handler), Sim (LogSim e e') (checkFields e r h c) (checkFields e' r h c)
  | .raw _ _ _, h => by
    cases h <;> first | exact sim_pure _ | exact sim_ub _
  | .ext _ _ vals, h => by
    cases h with
    | raw => exact sim_pure _
    | ext fields chk =>
      simp only [checkFields]
      exact sim_ite (sim_ite (sim_pure _) (sim_say _ _)) (sim_ub _)
    | _ => exact sim_ub _
  | .grp id size ty subs, h => by
    cases h <;> simp only [checkFields]
    · exact sim_pure _
    · exact sim_groupWith e e' _ _ (sim_checkFormType e e' ty) (sim_subs ty (sim_formSub e e') subs 0)
    · exact sim_groupWith e e' _ _ (sim_checkId e e' ty) (sim_subs ty (sim_catSub e e' ty) subs 0)
    · exact sim_ub _
    · exact sim_groupWith e e' _ _ (sim_checkFormType e e' ty) (sim_subs ty (sim_propSub e e') subs 0)
    · exact sim_ub _
  | .lst id size ty subs props, h => by
    cases h <;> simp only [checkFields]
    · exact sim_pure _
    · exact sim_groupWith e e' _ _ (sim_checkFormType e e' ty) (sim_subs ty (sim_formSub e e') subs 0)
    · exact sim_groupWith e e' _ _ (sim_checkId e e' ty) (sim_subs ty (sim_catSub e e' ty) subs 0)
    · refine sim_bind (sim_checkId e e' ty) fun _ => sim_ite (sim_bind (sim_props ty props 0) fun _ =>
        sim_ite (sim_pure _) (sim_bind (sim_ofOut _) fun _ =>
          sim_bind (sim_subs ty (sim_catSub e e' ty) subs 0) fun _ => sim_ite (sim_pure _)
            (sim_bind (sim_ofOut _) fun _ => sim_size e e' _ _ _))) (sim_pure _)
    · exact sim_groupWith e e' _ _ (sim_checkFormType e e' ty) (sim_subs ty (sim_propSub e e') subs 0)
    · exact sim_ub _

theorem sim_subs (ty : ID) {f : Chunk → M (List Msg) Bool} (hf : ∀ c, Sim (LogSim e e') (f c) (f c)) :
    ∀ (cs : List Chunk) (acc : Int),
    Sim (LogSim e e') (checkGroupSubChunks e r ty f cs acc) (checkGroupSubChunks e' r ty f cs acc)
  | [], _ => by simp only [checkGroupSubChunks]; exact sim_pure _
  | c :: cs, acc => by
    simp only [checkGroupSubChunks]
    rw [incrementChunkSize_env he he']
    exact sim_bind (hf c) fun _ => sim_ite (sim_bind (sim_chunkWith e e' c (sim_fields c _)) fun _ =>
      sim_ite (sim_bind (sim_ofOut _) fun _ => sim_subs ty hf cs _) (sim_pure _)) (sim_pure _)

theorem sim_props (ty : ID) : ∀ (cs : List Chunk) (acc : Int),
    Sim (LogSim e e') (checkListPropChunks e r ty cs acc) (checkListPropChunks e' r ty cs acc)
  | [], _ => by simp only [checkListPropChunks]; exact sim_pure _
  | c :: cs, acc => by
    simp only [checkListPropChunks]
    rw [incrementChunkSize_env he he']
    exact sim_bind (sim_chunkWith e e' c (sim_fields c _)) fun _ =>
      sim_ite (sim_bind (sim_ofOut _) fun _ => sim_props ty cs _) (sim_pure _)

end

end

theorem sim_check {e e' : Env} (he : e.Sane) (he' : e'.Sane) (reg : Option Registry) (c : Chunk) :
    Sim (LogSim e e') (check e reg c) (check e' reg c) :=
  sim_ite (sim_say _ _) (sim_chunkWith e e' c (sim_fields he he' _ c _))

/-! ### Text -/

theorem prints_env (e e' : Env) (m : Msg) : printCalls (m.prints e) = printCalls (m.prints e') := by
  have key : Regular m → printCalls (m.prints e) = printCalls (m.prints e') :=
    fun h => (print_text e m h).trans (print_text e' m h).symm
  cases m with
  | truncGroup n => rw [bad_truncGroup, bad_truncGroup]
  | truncList n => rw [bad_truncList, bad_truncList]
  | skipped n i => rw [bad_skipped, bad_skipped]
  | fillerFailed n i => rw [bad_fillerFailed, bad_fillerFailed]
  | app => rfl
  | _ => exact key trivial

theorem text_snoc (e : Env) : ∀ (l : List Msg) (m : Msg), stderrText e (l ++ [m]) =
    (stderrText e l >>= fun a => printCalls (m.prints e) >>= fun b => .val (a ++ b))
  | [], m => by
    simp only [List.nil_append, stderrText, Out.val_bind]
    cases printCalls (m.prints e) <;> simp
  | x :: l, m => by
    simp only [List.cons_append, stderrText, text_snoc e l m]
    cases printCalls (x.prints e) <;> simp
    cases stderrText e l <;> simp
    cases printCalls (m.prints e) <;> simp

theorem MsgSim.text {e e' : Env} {m m' : Msg} (h : MsgSim e e' m m') :
    printCalls (m.prints e) = printCalls (m'.prints e') := by
  rcases h with rfl | ⟨b, rfl, rfl⟩
  · exact prints_env e e' m
  · rw [print_text e (.illegalChar _) trivial, print_text e' (.illegalChar _) trivial]
    simp only [kind, tailOf, charVal_byte]

theorem LogSim.text {e e' : Env} {l l' : List Msg} (h : LogSim e e' l l') :
    stderrText e l = stderrText e' l' := by
  induction h with
  | nil => rfl
  | snoc _ hm ih => rw [text_snoc, text_snoc, ih, hm.text]

theorem LogSim.length {e e' : Env} {l l' : List Msg} (h : LogSim e e' l l') :
    l.length = l'.length := by
  induction h with
  | nil => rfl
  | snoc _ hm ih => simp [ih]

theorem MsgSim.eq {e e' : Env} (hc : e.charSigned = e'.charSigned) {m m' : Msg}
    (h : MsgSim e e' m m') : m = m' := by
  rcases h with rfl | ⟨b, rfl, rfl⟩
  · rfl
  · unfold charVal; rw [hc]

theorem LogSim.eq {e e' : Env} (hc : e.charSigned = e'.charSigned) {l l' : List Msg}
    (h : LogSim e e' l l') : l = l' := by
  induction h with
  | nil => rfl
  | snoc _ hm ih => rw [ih, hm.eq hc]

theorem logSim_refl (e e' : Env) (l : List Msg) : LogSim e e' l l := by
  rw [← List.reverse_reverse l]
  induction l.reverse with
  | nil => exact .nil
  | cons m l ih => rw [List.reverse_cons]; exact ih.snoc (.inl rfl)

end Iff
