import Verif.Proofs.ReadFuel
import Verif.Proofs.ReadShape
import Verif.Proofs.Compare
import Verif.Proofs.Grammar
import Verif.Spec.Groups
import Verif.Model.Write
import Verif.Model.Print
/-
  The undefined behaviour that writing, checking and printing can reach on hierarchies whose struct
  types agree with the registry.
-/
namespace Iff
open Spec

theorem fine_wemit (m : Msg) (s : WS) : Fine (WS.emit m s) := ⟨by simp [WS.emit], by simp [WS.emit]⟩
theorem fine_cemit (m : Msg) (s : List Msg) : Fine (emit m s) := ⟨by simp [emit], by simp [emit]⟩
theorem fine_fwrite (bs : List Byte) (s : WS) : Fine (fwrite bs s) := by
  unfold fwrite; exact ⟨by simp, by simp⟩

theorem fine_ite {α : Type} {P : Prop} [Decidable P] {a b : Out α} (ha : P → Fine a)
    (hb : ¬ P → Fine b) : Fine (if P then a else b) := by
  split
  · exact ha ‹_›
  · exact hb ‹_›

theorem fine_iteM {σ α : Type} {P : Prop} [Decidable P] {a b : M σ α} {s : σ} (ha : P → Fine (a s))
    (hb : ¬ P → Fine (b s)) : Fine ((if P then a else b) s) := by
  split
  · exact ha ‹_›
  · exact hb ‹_›

/-- Write something, look at the count, complain. -/
theorem fine_fwriteThen (bs : List Byte) (n : Nat) (m : Msg) (s : WS) :
    Fine ((do if (← fwrite bs) = n then pure true else WS.emit m; pure false : M WS Bool) s) :=
  fine_bind (fine_fwrite _ _) fun _ _ _ =>
    fine_iteM (fun _ => fine_pure _ _) fun _ => fine_bind (fine_wemit _ _) fun _ _ _ => fine_pure _ _

theorem fine_writeULong (e : Env) (v : BitVec 32) (id : ID) (a : String) (s : WS) :
    Fine (writeULong e v id a s) := fine_fwriteThen _ _ _ _
theorem fine_writeLong (e : Env) (v : BitVec 32) (id : ID) (a : String) (s : WS) :
    Fine (writeLong e v id a s) := fine_fwriteThen _ _ _ _
theorem fine_writeId (e : Env) (v : BitVec 32) (id : ID) (a : String) (s : WS) :
    Fine (writeId e v id a s) := fine_fwriteThen _ _ _ _

theorem fine_writeVal (e : Env) (v : Val) (id : ID) (a : String) (s : WS) :
    Fine (writeVal e v id a s) := by
  cases v <;> exact fine_fwriteThen _ _ _ _

theorem fine_writeField (e : Env) (v : Val) (id : ID) (size : Int) (a : String) (bp : Int) (s : WS) :
    Fine (writeField e v id size a bp s) :=
  fine_iteM (fun _ => fine_pure _ _) fun _ => fine_bind (fine_writeVal _ _ _ _ _) fun _ _ _ =>
    fine_iteM (fun _ => fine_pure _ _) fun _ => fine_pure _ _

theorem fine_filler (id : ID) (size bp : Int) (s : WS) : Fine (writeZeroFillerBytes id size bp s) :=
  fine_iteM (fun _ => fine_bind (fine_subInt _ _ _) fun _ _ _ => fine_fwriteThen _ _ _ _)
    fun _ => fine_pure _ _

theorem fine_writePad (size : Int) (id : ID) (s : WS) : Fine (writePaddingByte size id s) :=
  fine_iteM (fun _ => fine_fwriteThen _ _ _ _) fun _ => fine_pure _ _

theorem fine_chunkWith {e : Env} {c : Chunk} {fields : M WS (Bool × Int)} (h : ∀ s, Fine (fields s))
    (s : WS) : Fine (writeChunkWith e c fields s) := by
  unfold writeChunkWith
  refine fine_bind (fine_writeId _ _ _ _ _) fun _ _ _ => fine_iteM (fun _ => ?_) fun _ => fine_pure _ _
  refine fine_bind (fine_writeLong _ _ _ _ _) fun _ _ _ => fine_iteM (fun _ => ?_)
    fun _ => fine_pure _ _
  refine fine_bind (h _) fun _ _ _ => fine_iteM (fun _ => ?_) fun _ => fine_pure _ _
  exact fine_bind (fine_filler _ _ _ _) fun _ _ _ => fine_iteM (fun _ => fine_writePad _ _ _)
    fun _ => fine_pure _ _

theorem fine_writeExt (e : Env) (id : ID) (size : Int) :
    ∀ (fs : List Field) (vs : List Val) (bp : Int) (s : WS),
      Fine (writeExtFields e id size fs vs bp s)
  | f :: fs, v :: vs, bp, s => by
    unfold writeExtFields
    refine fine_bind (fine_writeField _ _ _ _ _ _ _) fun a _ _ => ?_
    obtain ⟨st, bp'⟩ := a
    cases st with
    | more => exact fine_writeExt e id size fs vs bp' _
    | failure => exact fine_pure _ _
    | last => exact fine_pure _ _
  | [], _, _, _ => by unfold writeExtFields; exact fine_pure _ _
  | _ :: _, [], _, _ => by unfold writeExtFields; exact fine_pure _ _

theorem fine_groupWith {e : Env} {id : ID} {size : Int} {ty : ID} {attr : String}
    {subs : Int → M WS (Bool × Int)} {bp : Int} (h : ∀ bp s, Fine (subs bp s)) (s : WS) :
    Fine (writeGroupWith e id size ty attr subs bp s) := by
  unfold writeGroupWith
  refine fine_bind (fine_writeField _ _ _ _ _ _ _) fun a _ _ => ?_
  obtain ⟨st, bp'⟩ := a
  cases st with
  | more => exact h _ _
  | failure => exact fine_pure _ _
  | last => exact fine_pure _ _

theorem fine_writeSubs {e : Env} {r : Registry} {ty : ID} : ∀ {cs : List Chunk},
    (∀ c ∈ cs, ∀ s, Fine (writeChunk e r ty c s)) → ∀ bp s,
      Fine (writeGroupSubChunks e r ty cs bp s)
  | [], _, bp, s => by rw [writeGroupSubChunks]; exact fine_pure _ _
  | c :: cs, h, bp, s => by
    rw [writeGroupSubChunks]
    refine fine_bind (h c List.mem_cons_self _) fun a _ _ => fine_iteM (fun _ => ?_) fun _ => ?_
    · exact fine_bind (fine_increment _ _ _ _) fun _ _ _ =>
        fine_writeSubs (fun d hd => h d (List.mem_cons_of_mem _ hd)) _ _
    · exact fine_bind (fine_wemit _ _) fun _ _ _ => fine_pure _ _

theorem fine_writeProps {e : Env} {r : Registry} : ∀ {cs : List Chunk},
    (∀ c ∈ cs, ∀ s, Fine (writeChunk e r 0 c s)) → ∀ bp s,
      Fine (writeListPropChunks e r cs bp s)
  | [], _, bp, s => by rw [writeListPropChunks]; exact fine_pure _ _
  | c :: cs, h, bp, s => by
    rw [writeListPropChunks]
    refine fine_bind (h c List.mem_cons_self _) fun a _ _ => fine_iteM (fun _ => ?_) fun _ => ?_
    · exact fine_bind (fine_increment _ _ _ _) fun _ _ _ =>
        fine_writeProps (fun d hd => h d (List.mem_cons_of_mem _ hd)) _ _
    · exact fine_bind (fine_wemit _ _) fun _ _ _ => fine_pure _ _

theorem fine_writeRaw {e : Env} (he : 32 ≤ e.sizeBits) (id : ID) {size : Int} {data : List Byte}
    (h : size = ((data.length : Nat) : Int)) (hs : size < 2147483648) (bp : Int) (s : WS) :
    Fine (writeRawChunk e id size data bp s) := by
  unfold writeRawChunk
  have hz : toSize e size = size.toNat := toSize_nonneg e he (by omega) (by omega)
  refine fine_iteM (fun _ => ?_) fun hn => absurd (by omega) hn
  refine fine_bind (fine_fwrite _ _) fun _ _ _ => fine_iteM (fun _ => ?_) fun _ => ?_
  · exact fine_bind (fine_wemit _ _) fun _ _ _ => fine_pure _ _
  · exact fine_bind (fine_addInt _ _ _) fun _ _ _ => fine_pure _ _

theorem fine_write {e : Env} (he : 32 ≤ e.sizeBits) {r : Registry} (hr : RegistrySorted r)
    (c : Chunk) : ∀ ft, Sound r ft c → ∀ s, Fine (writeChunk e r ft c s) := by
  induction c using Chunk.ind with
  | raw id size data =>
    intro ft h s
    cases h.dispatched with
    | raw hh =>
      rw [← findChunkType_iff hr] at hh
      refine fine_chunkWith (fun s => ?_) s
      simp only [Chunk.id, hh, writeFields]
      exact fine_writeRaw he id (h.raws _ _ _ .self) (h.small _ _ _ .self) _ _
  | ext id size vals =>
    intro ft h s
    cases h.dispatched with
    | ext hh hk =>
      rw [← findChunkType_iff hr] at hh
      refine fine_chunkWith (fun s => ?_) s
      simp only [Chunk.id, hh, writeFields, if_pos hk]
      exact fine_writeExt _ _ _ _ _ _ _
  | grp id size ty subs ih =>
    intro ft h s
    have hsub : ∀ bp s, Fine (writeGroupSubChunks e r ty subs bp s) :=
      fine_writeSubs fun c hc => ih c hc ty (h.grp hc)
    cases h.dispatched with
    | grp hh hk _ =>
      rw [← findChunkType_iff hr] at hh
      refine fine_chunkWith (fun s => ?_) s
      rcases hk with rfl | rfl | rfl <;> simp only [Chunk.id, hh, writeFields] <;>
        exact fine_groupWith hsub _
  | lst id size ty subs props ih ihp =>
    intro ft h s
    have hsub : ∀ bp s, Fine (writeGroupSubChunks e r ty subs bp s) :=
      fine_writeSubs fun c hc => ih c hc ty (h.sub hc)
    have hprop : ∀ bp s, Fine (writeListPropChunks e r props bp s) :=
      fine_writeProps fun c hc => ihp c hc 0 (h.prop hc)
    cases h.dispatched with
    | lst hh _ _ =>
      rw [← findChunkType_iff hr] at hh
      refine fine_chunkWith (fun s => ?_) s
      simp only [Chunk.id, hh, writeFields]
      exact fine_groupWith (fun bp s => fine_bind (hprop _ _) fun _ _ _ =>
        fine_iteM (fun _ => hsub _ _) fun _ => fine_pure _ _) _

/-- With the library's tables for groups in every context, chunks with a group ID are groups. -/
theorem groupType_composite {r : Registry} (hr : RegistrySorted r) (hg : GroupsEverywhere r) {ft : ID}
    {c : Chunk} (h : Dispatched r ft c) (hc : Composite c.id) : ∃ t, c.groupType = .val t := by
  have key : ∀ {id : ID} {h' : Handler}, Composite id → HandlerFor r ft id h' →
      h' = .form ∨ h' = .cat ∨ h' = .list := by
    intro id h' hid hh
    rw [← findChunkType_iff hr] at hh
    rcases hid with rfl | rfl | rfl
    · rw [(findChunkType_iff hr).mpr (hg.form ft)] at hh; exact Or.inl hh.symm
    · rw [(findChunkType_iff hr).mpr (hg.cat ft)] at hh; exact Or.inr (Or.inl hh.symm)
    · rw [(findChunkType_iff hr).mpr (hg.list ft)] at hh; exact Or.inr (Or.inr hh.symm)
  cases h with
  | raw hh => rcases key hc hh with h | h | h <;> cases h
  | ext hh _ => rcases key hc hh with h | h | h <;> cases h
  | grp => exact ⟨_, rfl⟩
  | lst => exact ⟨_, rfl⟩

theorem fine_checkId (e : Env) (id : ID) (s : List Msg) : Fine (checkId e id s) := by
  rcases checkId_spec e id s with ⟨h1, h2⟩ | ⟨m, h1, h2⟩ <;> rw [h1] <;> exact Fine.val _

theorem fine_checkFormType (e : Env) (id : ID) (s : List Msg) : Fine (checkFormType e id s) := by
  rcases checkFormType_spec e id s with ⟨h1, h2⟩ | ⟨m, h1, h2⟩ <;> rw [h1] <;> exact Fine.val _

theorem fine_say (m : Msg) (s : List Msg) : Fine ((do emit m; pure false : M (List Msg) Bool) s) :=
  fine_bind (fine_cemit _ _) fun _ _ _ => fine_pure _ _

theorem fine_formSub (c : Chunk) (s : List Msg) : Fine (formSubChunkCheck c s) :=
  fine_iteM (fun _ => fine_say _ _) fun _ => fine_pure _ _

theorem fine_propSub (c : Chunk) (s : List Msg) : Fine (propSubChunkCheck c s) :=
  fine_iteM (fun _ => fine_say _ _) fun _ => fine_pure _ _

theorem fine_catSub {c : Chunk} (ty : ID) (h : Composite c.id → ∃ t, c.groupType = .val t)
    (s : List Msg) : Fine (catSubChunkCheck ty c s) := by
  unfold catSubChunkCheck
  refine fine_iteM (fun hc => ?_) fun _ => fine_say _ _
  obtain ⟨t, ht⟩ := h ((composite_iff _).mp hc)
  refine fine_iteM (fun _ => ?_) fun _ => fine_pure _ _
  refine fine_iteM (fun _ => ?_) fun _ => fine_pure _ _
  rw [ht]
  exact fine_bind (Fine.val _) fun _ _ _ => fine_iteM (fun _ => fine_say _ _) fun _ => fine_pure _ _

theorem fine_checkSize (id : ID) (size body : Int) (s : List Msg) :
    Fine (checkGroupChunkSize id size body s) :=
  fine_iteM (fun _ => fine_pure _ _) fun _ => fine_say _ _

theorem fine_checkSubs {e : Env} {r : Registry} {ty : ID} {sub : Chunk → M (List Msg) Bool} :
    ∀ {cs : List Chunk}, (∀ c ∈ cs, ∀ s, Fine (sub c s)) →
      (∀ c ∈ cs, ∀ s, Fine (checkChunk e r ty c s)) → ∀ acc s,
      Fine (checkGroupSubChunks e r ty sub cs acc s)
  | [], _, _, acc, s => by rw [checkGroupSubChunks]; exact fine_pure _ _
  | c :: cs, h1, h2, acc, s => by
    rw [checkGroupSubChunks]
    refine fine_bind (h1 c List.mem_cons_self _) fun _ _ _ => fine_iteM (fun _ => ?_)
      fun _ => fine_pure _ _
    refine fine_bind (h2 c List.mem_cons_self _) fun _ _ _ => fine_iteM (fun _ => ?_)
      fun _ => fine_pure _ _
    exact fine_bind (fine_increment _ _ _ _) fun _ _ _ =>
      fine_checkSubs (fun d hd => h1 d (List.mem_cons_of_mem _ hd))
        (fun d hd => h2 d (List.mem_cons_of_mem _ hd)) _ _

theorem fine_checkGroup {id : ID} {size : Int} {tc : M (List Msg) Bool} {subs : M (List Msg) Int}
    (h1 : ∀ s, Fine (tc s)) (h2 : ∀ s, Fine (subs s)) (s : List Msg) :
    Fine (checkGroupWith id size tc subs s) := by
  unfold checkGroupWith
  refine fine_bind (h1 _) fun _ _ _ => fine_iteM (fun _ => ?_) fun _ => fine_pure _ _
  refine fine_bind (h2 _) fun _ _ _ => fine_iteM (fun _ => fine_pure _ _) fun _ => ?_
  exact fine_bind (fine_addInt _ _ _) fun _ _ _ => fine_checkSize _ _ _ _

/-- A PROP group is dispatched alike in all contexts. -/
theorem dispatched_prop {r : Registry} (hg : GroupsEverywhere r) {ft ft' : ID} {size : Int} {ty : ID}
    {subs : List Chunk} (h : Dispatched r ft (.grp idPROP size ty subs)) :
    Dispatched r ft' (.grp idPROP size ty subs) := by
  cases h with
  | grp _ _ h => exact .grp (hg.prop _) (Or.inr (Or.inr rfl)) h

theorem fine_check {e : Env} {r : Registry} (hr : RegistrySorted r)
    (hg : GroupsEverywhere r) (c : Chunk) : ∀ ft, Dispatched r ft c → PropArrays c → PropGroups c →
      ∀ s, Fine (checkChunk e r ft c s) := by
  have head : ∀ (c : Chunk) (m : M (List Msg) Bool), (∀ s, Fine (m s)) → ∀ s,
      Fine (checkChunkWith e c m s) := fun c m h s =>
    fine_bind (fine_checkId _ _ _) fun _ _ _ => fine_iteM (fun _ => h _) fun _ => fine_pure _ _
  induction c using Chunk.ind with
  | raw id size data =>
    intro ft h _ _ s
    cases h with
    | raw hh =>
      rw [← findChunkType_iff hr] at hh
      refine head _ _ (fun s => ?_) s
      simp only [Chunk.id, hh, checkFields]
      exact fine_pure _ _
  | ext id size vals =>
    intro ft h _ _ s
    cases h with
    | ext hh hk =>
      rw [← findChunkType_iff hr] at hh
      refine head _ _ (fun s => ?_) s
      simp only [Chunk.id, hh, checkFields, if_pos hk]
      exact fine_iteM (fun _ => fine_pure _ _) fun _ => fine_say _ _
  | grp id size ty subs ih =>
    intro ft h hp hq s
    cases h with
    | grp hh hk hd =>
      have hsub : ∀ sub : Chunk → M (List Msg) Bool, (∀ c ∈ subs, ∀ s, Fine (sub c s)) → ∀ s,
          Fine (checkGroupSubChunks e r ty sub subs 0 s) := fun sub h1 s =>
        fine_checkSubs h1 (fun c hc => ih c hc ty (hd c hc) (hp.grp hc) (hq.grp hc)) _ _
      rw [← findChunkType_iff hr] at hh
      refine head _ _ (fun s => ?_) s
      rcases hk with rfl | rfl | rfl <;> simp only [Chunk.id, hh, checkFields]
      · exact fine_checkGroup (fine_checkFormType _ _) (hsub _ fun c _ => fine_formSub c) _
      · exact fine_checkGroup (fine_checkId _ _)
          (hsub _ fun c hc => fine_catSub _ fun h => groupType_composite hr hg (hd c hc) h) _
      · exact fine_checkGroup (fine_checkFormType _ _) (hsub _ fun c _ => fine_propSub c) _
  | lst id size ty subs props ih ihp =>
    intro ft h hp hq s
    cases h with
    | lst hh hd hd' =>
      have hsub : ∀ s, Fine (checkGroupSubChunks e r ty (catSubChunkCheck ty) subs 0 s) := fun s =>
        fine_checkSubs
          (fun c hc => fine_catSub _ fun h => groupType_composite hr hg (hd c hc) h)
          (fun c hc => ih c hc ty (hd c hc) (hp.sub hc) (hq.sub hc)) _ _
      have hprop : ∀ s, Fine (checkListPropChunks e r ty props 0 s) := fun s => by
        rw [checkListPropChunks_eq]
        refine fine_checkSubs (fun _ _ _ => fine_pure _ _) (fun c hc => ?_) _ _
        refine ihp c hc ty ?_ (hp.prop hc) (hq.prop hc)
        obtain ⟨i, z, t, u, rfl⟩ := hq _ _ _ _ _ .self c hc
        have hi : i = idPROP := hp _ _ _ _ _ .self _ hc
        subst hi
        exact dispatched_prop hg (hd' _ hc)
      rw [← findChunkType_iff hr] at hh
      refine head _ _ (fun s => ?_) s
      simp only [Chunk.id, hh, checkFields]
      refine fine_bind (fine_checkId _ _ _) fun _ _ _ => fine_iteM (fun _ => ?_) fun _ => fine_pure _ _
      refine fine_bind (hprop _) fun _ _ _ => fine_iteM (fun _ => fine_pure _ _) fun _ => ?_
      refine fine_bind (fine_addInt _ _ _) fun _ _ _ => ?_
      refine fine_bind (hsub _) fun _ _ _ => fine_iteM (fun _ => fine_pure _ _) fun _ => ?_
      exact fine_bind (fine_addInt _ _ _) fun _ _ _ => fine_checkSize _ _ _ _

/-! ### Printing -/

theorem prints_subs {r : Registry} {ty : ID} {level : Nat} : ∀ {cs : List Chunk},
    (∀ c ∈ cs, ∃ t, printChunk r level ty c = .val t) → ∃ t, printSubs r ty level cs = .val t
  | [], _ => ⟨[], by rw [printSubs]⟩
  | c :: cs, h => by
    obtain ⟨a, ha⟩ := h c List.mem_cons_self
    obtain ⟨b, hb⟩ := prints_subs fun d hd => h d (List.mem_cons_of_mem _ hd)
    refine ⟨a ++ b, ?_⟩
    rw [printSubs]
    unfold printChunk at ha
    rw [ha, hb]; rfl

/-- Printing is defined. -/
theorem prints {r : Registry} (hr : RegistrySorted r)
    (hg : GroupsEverywhere r) (c : Chunk) : ∀ ft level, Dispatched r ft c → RawSizes c →
      PropArrays c → PropGroups c → ∃ t, printChunk r level ft c = .val t := by
  have head : ∀ (level : Nat) (c : Chunk) (m : Out (List Byte)), (∃ t, m = .val t) →
      ∃ t, printChunkWith c level m = .val t := by
    rintro level c m ⟨t, rfl⟩; exact ⟨_, rfl⟩
  have group : ∀ (name : String) (ty : ID) (level : Nat) (m : Out (List Byte)), (∃ t, m = .val t) →
      ∃ t, printGroupWith name ty level m = .val t := by
    rintro name ty level m ⟨t, rfl⟩; exact ⟨_, rfl⟩
  induction c using Chunk.ind with
  | raw id size data =>
    intro ft level h hz _ _
    have hsz := hz _ _ _ .self
    have hd : dataBytes size data = .val data := by
      unfold dataBytes
      have : size.toNat = data.length := by omega
      rw [this, if_pos (Nat.le_refl _), List.take_length]
    cases h with
    | raw hh =>
      rw [← findChunkType_iff hr] at hh
      refine head _ _ _ ?_
      simp only [Chunk.id, hh, printFields, printRawChunk]
      split
      · unfold printText; rw [hd]; exact ⟨_, rfl⟩
      · unfold printRaw; rw [hd]; exact ⟨_, rfl⟩
  | ext id size vals =>
    intro ft level h _ _ _
    cases h with
    | ext hh hk =>
      rw [← findChunkType_iff hr] at hh
      refine head _ _ _ ?_
      simp only [Chunk.id, hh, printFields, if_pos hk]
      exact ⟨_, rfl⟩
  | grp id size ty subs ih =>
    intro ft level h hz hp hq
    cases h with
    | grp hh hk hd =>
      have hs := prints_subs (level := level + 1)
        fun c hc => ih c hc ty (level + 1) (hd c hc) (hz.grp hc) (hp.grp hc) (hq.grp hc)
      rw [← findChunkType_iff hr] at hh
      refine head _ _ _ ?_
      rcases hk with rfl | rfl | rfl <;> simp only [Chunk.id, hh, printFields] <;>
        exact group _ _ _ _ hs
  | lst id size ty subs props ih ihp =>
    intro ft level h hz hp hq
    cases h with
    | lst hh hd hd' =>
      obtain ⟨t, ht⟩ := prints_subs (level := level + 1)
        fun c hc => ih c hc ty (level + 1) (hd c hc) (hz.sub hc) (hp.sub hc) (hq.sub hc)
      obtain ⟨u, hu⟩ := prints_subs (r := r) (ty := ty) (level := level + 1) (cs := props)
        (fun c hc => by
          refine ihp c hc ty (level + 1) ?_ (hz.prop hc) (hp.prop hc) (hq.prop hc)
          obtain ⟨i, z, t, u, rfl⟩ := hq _ _ _ _ _ .self c hc
          have hi : i = idPROP := hp _ _ _ _ _ .self _ hc
          subst hi
          exact dispatched_prop hg (hd' _ hc))
      rw [← findChunkType_iff hr] at hh
      refine head _ _ _ ?_
      simp only [Chunk.id, hh, printFields, ht, hu]
      exact ⟨_, rfl⟩

/-! ### What is read -/

/-- With the library's tables for groups in every context, everything that is read has the struct
types the other operations expect. -/
theorem Loose.sound {e : Env} {r : Registry} (hr : RegistrySorted r) (hg : GroupsEverywhere r)
    {ft : ID} {w : List Byte} {c : Chunk} (h : Loose e r ft w c) :
    Dispatched r ft c ∧ PropArrays c ∧ PropGroups c := by
  induction h with
  | raw hh _ _ _ =>
    exact ⟨.raw ((findChunkType_iff hr).mp hh), fun _ _ _ _ _ hw => (by cases hw),
      fun _ _ _ _ _ hw => (by cases hw)⟩
  | ext hh hk _ =>
    exact ⟨.ext ((findChunkType_iff hr).mp hh) hk, fun _ _ _ _ _ hw => (by cases hw),
      fun _ _ _ _ _ hw => (by cases hw)⟩
  | @grp ft id ty p pn h' bp sz ps hh hk hq _ _ ih =>
    have mem : ∀ c ∈ ps.map Prod.snd, ∃ q ∈ ps, q.2 = c := fun c hc => List.mem_map.mp hc
    refine ⟨.grp ((findChunkType_iff hr).mp hh) hk fun c hc => ?_, fun _ _ _ _ _ hw => ?_,
      fun _ _ _ _ _ hw => ?_⟩
    · obtain ⟨q, hq, rfl⟩ := mem c hc; exact (ih q hq).1
    · cases hw with
      | grp hm hw => obtain ⟨q, hq, rfl⟩ := mem _ hm; exact (ih q hq).2.1 _ _ _ _ _ hw
    · cases hw with
      | grp hm hw => obtain ⟨q, hq, rfl⟩ := mem _ hm; exact (ih q hq).2.2 _ _ _ _ _ hw
  | @lst ft id ty p pn bp sz ps hh hq _ _ ih =>
    have mem : ∀ c ∈ ps.map Prod.snd, ∃ q ∈ ps, q.2 = c := fun c hc => List.mem_map.mp hc
    have memp : ∀ c ∈ (ps.map Prod.snd).filter (fun c => c.id = idPROP),
        c.id = idPROP ∧ ∃ q ∈ ps, q.2 = c := by
      intro c hc
      obtain ⟨h1, h2⟩ := List.mem_filter.mp hc
      exact ⟨by simpa using h2, mem c h1⟩
    have mems : ∀ c ∈ (ps.map Prod.snd).filter (fun c => c.id ≠ idPROP), ∃ q ∈ ps, q.2 = c :=
      fun c hc => mem c (List.mem_filter.mp hc).1
    have hgrp : ∀ c ∈ (ps.map Prod.snd).filter (fun c => c.id = idPROP),
        Dispatched r 0 c ∧ ∃ i s t u, c = .grp i s t u := by
      intro c hc
      obtain ⟨h1, q, hq, rfl⟩ := memp c hc
      have hd := (ih q hq).1
      have key : ∀ {h' : Handler}, HandlerFor r ty idPROP h' → h' = .prop := by
        intro h' hh'
        rw [← findChunkType_iff hr, (findChunkType_iff hr).mpr (hg.prop ty)] at hh'
        exact hh'.symm
      cases hd' : q.2 with
      | raw i s d =>
        rw [hd'] at h1 hd; simp only [Chunk.id] at h1; subst h1
        cases hd with | raw hh' => cases key hh'
      | ext i s d =>
        rw [hd'] at h1 hd; simp only [Chunk.id] at h1; subst h1
        cases hd with | ext hh' => cases key hh'
      | lst i s t u v =>
        rw [hd'] at h1 hd; simp only [Chunk.id] at h1; subst h1
        cases hd with | lst hh' => cases key hh'
      | grp i s t u =>
        rw [hd'] at h1 hd; simp only [Chunk.id] at h1; subst h1
        exact ⟨dispatched_prop hg hd, _, _, _, _, rfl⟩
    refine ⟨.lst (hg.list ft) (fun c hc => ?_) (fun c hc => (hgrp c hc).1), fun _ _ _ _ _ hw => ?_,
      fun _ _ _ _ _ hw => ?_⟩
    · obtain ⟨q, hq, rfl⟩ := mems c hc; exact (ih q hq).1
    · cases hw with
      | self => exact fun p hp => (memp p hp).1
      | sub hm hw => obtain ⟨q, hq, rfl⟩ := mems _ hm; exact (ih q hq).2.1 _ _ _ _ _ hw
      | prop hm hw => obtain ⟨_, q, hq, rfl⟩ := memp _ hm; exact (ih q hq).2.1 _ _ _ _ _ hw
    · cases hw with
      | self => exact fun p hp => (hgrp p hp).2
      | sub hm hw => obtain ⟨q, hq, rfl⟩ := mems _ hm; exact (ih q hq).2.2 _ _ _ _ _ hw
      | prop hm hw => obtain ⟨_, q, hq, rfl⟩ := memp _ hm; exact (ih q hq).2.2 _ _ _ _ _ hw

/-- Declared sizes of data are representable. -/
theorem Loose.small {e : Env} {r : Registry} {ft : ID} {w : List Byte} {c : Chunk}
    (h : Loose e r ft w c) : ∀ id size data, Within (.raw id size data) c → size < 2147483648 := by
  induction h with
  | @raw ft id data p pn sz _ _ _ _ =>
    intro i s d hw
    cases hw
    have := toInt_inInt sz
    exact this.2
  | ext => intro i s d hw; cases hw
  | @grp ft id ty p pn h' bp sz ps hh hk hq _ _ ih =>
    intro i s d hw
    cases hw with
    | grp hm hw => obtain ⟨q, hq, rfl⟩ := List.mem_map.mp hm; exact ih q hq _ _ _ hw
  | @lst ft id ty p pn bp sz ps hh hq _ _ ih =>
    intro i s d hw
    cases hw with
    | sub hm hw =>
      obtain ⟨q, hq, rfl⟩ := List.mem_map.mp (List.mem_filter.mp hm).1; exact ih q hq _ _ _ hw
    | prop hm hw =>
      obtain ⟨q, hq, rfl⟩ := List.mem_map.mp (List.mem_filter.mp hm).1; exact ih q hq _ _ _ hw

end Iff
