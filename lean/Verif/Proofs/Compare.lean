import Verif.Model.Compare
import Verif.Spec.Conform
import Verif.Proofs.Registry
import Verif.Proofs.Arith
import Verif.Proofs.Tree
import Verif.Proofs.Check
/-
  What `IFF_compare` computes.
-/
namespace Iff
open Spec

mutual

/-- Equal, except for the IDs and sizes of the PROPs of a LIST. -/
def Alike : Chunk → Chunk → Prop
  | .raw i s a, .raw j t b => i = j ∧ s = t ∧ a = b
  | .ext i s a, .ext j t b => i = j ∧ s = t ∧ a = b
  | .grp i s ty subs, .grp j t ty' subs' => i = j ∧ s = t ∧ ty = ty' ∧ AlikeAll subs subs'
  | .lst i s ty subs props, .lst j t ty' subs' props' =>
    i = j ∧ s = t ∧ ty = ty' ∧ AlikeAll subs subs' ∧ AlikeProps props props'
  | _, _ => False

/-- `Alike` for the members of a group. -/
def AlikeAll : List Chunk → List Chunk → Prop
  | [], [] => True
  | c :: cs, d :: ds => Alike c d ∧ AlikeAll cs ds
  | _, _ => False

/-- `Alike` for the PROPs of a LIST. -/
def AlikeProps : List Chunk → List Chunk → Prop
  | [], [] => True
  | .grp _ _ ty subs :: cs, .grp _ _ ty' subs' :: ds =>
    ty = ty' ∧ AlikeAll subs subs' ∧ AlikeProps cs ds
  | _, _ => False

end

/-- The result is defined, and TRUE iff `P`. -/
def Says (P : Prop) (o : Out Bool) : Prop := ∃ b, o = .val b ∧ (b = true ↔ P)

theorem says_false {P : Prop} (h : ¬ P) : Says P (.val false) := ⟨false, rfl, by simp [h]⟩
theorem says_true {P : Prop} (h : P) : Says P (.val true) := ⟨true, rfl, by simp [h]⟩

theorem Says.and {P Q : Prop} {a : Out Bool} {b : Out Bool} (ha : Says P a) (hb : P → Says Q b) :
    Says (P ∧ Q) (a >>= fun x => if x = true then b else .val false) := by
  obtain ⟨x, rfl, hx⟩ := ha
  cases x with
  | false => exact says_false (fun h => by simpa using hx.mpr h.1)
  | true =>
    obtain ⟨y, rfl, hy⟩ := hb (hx.mp rfl)
    exact ⟨y, rfl, by rw [hy]; simp [hx.mp rfl]⟩

theorem Says.congr {P Q : Prop} {o : Out Bool} (h : Says P o) (hpq : P ↔ Q) : Says Q o := by
  rw [← propext hpq]; exact h

theorem says_raw (e : Env) (he : 32 ≤ e.sizeBits) {size : Int} {a b : List Byte}
    (ha : size = ((a.length : Nat) : Int)) (hb : size = ((b.length : Nat) : Int))
    (hs : size < 2147483648) : Says (a = b) (compareRawChunk e size a b) := by
  unfold compareRawChunk
  have hz : toSize e size = size.toNat := toSize_nonneg e he (by omega) (by omega)
  simp only [hz]
  have h1 : size.toNat = a.length := by omega
  have h2 : b.length = a.length := by omega
  rw [if_pos (by omega), h1, List.take_length, ← h2, List.take_length]
  exact ⟨_, rfl, by simp⟩

theorem Spec.PropGroups.grp {id size ty subs c} (h : PropGroups (.grp id size ty subs)) (hc : c ∈ subs) :
    PropGroups c := fun i s t u p hw => h i s t u p (.grp hc hw)
theorem Spec.PropGroups.sub {id size ty subs props c} (h : PropGroups (.lst id size ty subs props))
    (hc : c ∈ subs) : PropGroups c := fun i s t u p hw => h i s t u p (.sub hc hw)
theorem Spec.PropGroups.prop {id size ty subs props c} (h : PropGroups (.lst id size ty subs props))
    (hc : c ∈ props) : PropGroups c := fun i s t u p hw => h i s t u p (.prop hc hw)

/-- What a chunk needs to be compared: proper struct types, data blocks of the declared size, and
PROP arrays of groups. -/
structure Sound (r : Registry) (ft : ID) (c : Chunk) : Prop where
  dispatched : Dispatched r ft c
  raws : RawSizes c
  small : ∀ id size data, Within (.raw id size data) c → size < 2147483648
  props : PropGroups c

theorem Sound.grp {r : Registry} {ft id : ID} {size : Int} {ty : ID} {subs : List Chunk} {c : Chunk}
    (h : Sound r ft (.grp id size ty subs)) (hc : c ∈ subs) : Sound r ty c where
  dispatched := by cases h.dispatched with | grp _ _ h => exact h c hc
  raws := h.raws.grp hc
  small := fun i s d hw => h.small i s d (.grp hc hw)
  props := h.props.grp hc

theorem Sound.sub {r : Registry} {ft id : ID} {size : Int} {ty : ID} {subs props : List Chunk}
    {c : Chunk} (h : Sound r ft (.lst id size ty subs props)) (hc : c ∈ subs) : Sound r ty c where
  dispatched := by cases h.dispatched with | lst _ h _ => exact h c hc
  raws := h.raws.sub hc
  small := fun i s d hw => h.small i s d (.sub hc hw)
  props := h.props.sub hc

theorem Sound.prop {r : Registry} {ft id : ID} {size : Int} {ty : ID} {subs props : List Chunk}
    {c : Chunk} (h : Sound r ft (.lst id size ty subs props)) (hc : c ∈ props) : Sound r 0 c where
  dispatched := by cases h.dispatched with | lst _ _ h => exact h c hc
  raws := h.raws.prop hc
  small := fun i s d hw => h.small i s d (.prop hc hw)
  props := h.props.prop hc

/-- The comparison of one pair of chunks. -/
def Compares (e : Env) (r : Registry) (c : Chunk) : Prop :=
  ∀ ft d, Sound r ft c → Sound r ft d →
    Says (Alike c d) (compareChunk e r ft c d)

theorem alikeAll_length : ∀ {cs ds : List Chunk}, AlikeAll cs ds → cs.length = ds.length
  | [], [], _ => rfl
  | c :: cs, d :: ds, h => by
    rw [AlikeAll] at h; simp [alikeAll_length h.2]
  | [], _ :: _, h => by rw [AlikeAll] at h; exact h.elim; all_goals simp
  | _ :: _, [], h => by rw [AlikeAll] at h; exact h.elim; all_goals simp

theorem compares_subs {e : Env} {r : Registry} {ty : ID} :
    ∀ {cs ds : List Chunk}, cs.length = ds.length → (∀ c ∈ cs, Compares e r c) →
      (∀ c ∈ cs, Sound r ty c) → (∀ d ∈ ds, Sound r ty d) →
      Says (AlikeAll cs ds) (compareSubs e r ty cs ds)
  | [], [], _, _, _, _ => by rw [compareSubs, AlikeAll]; exact says_true trivial; all_goals simp
  | [], d :: ds, h, _, _, _ => by simp at h
  | c :: cs, [], h, _, _, _ => by simp at h
  | c :: cs, d :: ds, h, hc, h1, h2 => by
    have ih := compares_subs (e := e) (r := r) (ty := ty) (cs := cs) (ds := ds) (by simpa using h)
      (fun x hx => hc x (List.mem_cons_of_mem _ hx)) (fun x hx => h1 x (List.mem_cons_of_mem _ hx))
      (fun x hx => h2 x (List.mem_cons_of_mem _ hx))
    have hcd := hc c List.mem_cons_self ty d (h1 c List.mem_cons_self) (h2 d List.mem_cons_self)
    rw [compareSubs, AlikeAll]
    unfold compareChunk at hcd
    split
    · rename_i hx
      rw [if_pos hx] at hcd
      exact hcd.and fun _ => ih
    · rename_i hx
      rw [if_neg hx] at hcd
      obtain ⟨b, hb, hp⟩ := hcd
      cases hb
      exact says_false fun h => by simpa using hp.mpr h.1

theorem compares_group {e : Env} {r : Registry} {ty ty2 : ID} {cs ds : List Chunk} {d : Chunk}
    (hd : d.asGroup = .val (ty2, ds)) (hc : ∀ c ∈ cs, Compares e r c)
    (h1 : ∀ c ∈ cs, Sound r ty c) (h2 : ∀ d ∈ ds, Sound r ty2 d) :
    Says (ty = ty2 ∧ AlikeAll cs ds) (compareGroupWith ty cs.length (compareSubs e r ty cs) d) := by
  unfold compareGroupWith
  rw [hd]
  simp only [Out.val_bind]
  split
  · rename_i hx
    obtain ⟨rfl, hx⟩ := hx
    exact (compares_subs hx hc h1 h2).congr (by simp)
  · rename_i hx
    exact says_false fun h => hx ⟨h.1, alikeAll_length h.2⟩

theorem alikeProps_length : ∀ {cs ds : List Chunk}, AlikeProps cs ds → cs.length = ds.length
  | [], [], _ => rfl
  | c :: cs, d :: ds, h => by
    cases c <;> cases d <;> simp only [AlikeProps] at h
    simp [alikeProps_length h.2.2]
  | [], _ :: _, h => by simp [AlikeProps] at h
  | c :: _, [], h => by cases c <;> simp [AlikeProps] at h

theorem compares_props {e : Env} {r : Registry} :
    ∀ {cs ds : List Chunk}, cs.length = ds.length →
      (∀ i s t u, .grp i s t u ∈ cs → ∀ c ∈ u, Compares e r c) →
      (∀ c ∈ cs, Sound r 0 c ∧ ∃ i s t u, c = .grp i s t u) →
      (∀ c ∈ ds, Sound r 0 c ∧ ∃ i s t u, c = .grp i s t u) →
      Says (AlikeProps cs ds) (compareProps e r cs ds)
  | [], [], _, _, _, _ => by simp only [compareProps, AlikeProps]; exact says_true trivial
  | [], d :: ds, h, _, _, _ => by simp at h
  | c :: cs, [], h, _, _, _ => by simp at h
  | c :: cs, d :: ds, h, hc, h1, h2 => by
    have ih := compares_props (e := e) (r := r) (cs := cs) (ds := ds) (by simpa using h)
      (fun i s t u hx => hc i s t u (List.mem_cons_of_mem _ hx))
      (fun x hx => h1 x (List.mem_cons_of_mem _ hx)) (fun x hx => h2 x (List.mem_cons_of_mem _ hx))
    obtain ⟨hs1, i, s, t, u, rfl⟩ := h1 c List.mem_cons_self
    obtain ⟨hs2, i', s', t', u', rfl⟩ := h2 d List.mem_cons_self
    simp only [compareProps, AlikeProps]
    have hg := compares_group (e := e) (r := r) (ty := t) (ty2 := t') (cs := u) (ds := u')
      (d := .grp i' s' t' u') rfl (hc i s t u List.mem_cons_self) (fun c hc => hs1.grp hc)
      (fun c hc => hs2.grp hc)
    exact (hg.and fun _ => ih).congr (by rw [and_assoc])

theorem compares {e : Env} (he : 32 ≤ e.sizeBits) {r : Registry} (hr : RegistrySorted r)
    (c : Chunk) : Compares e r c ∧ (∀ i s t u, c = .grp i s t u → ∀ x ∈ u, Compares e r x) := by
  have uniq : ∀ {ft id id' h h'}, id = id' → HandlerFor r ft id h → HandlerFor r ft id' h' → h = h' :=
    fun h0 h1 h2 => by
      subst h0
      rw [← (findChunkType_iff hr).mpr h1, ← (findChunkType_iff hr).mpr h2]
  have dif : ∀ {ft c d}, ¬ (c.id = d.id ∧ c.size = d.size) → ¬ Alike c d →
      Says (Alike c d) (compareChunk e r ft c d) := fun h1 h2 => by
    unfold compareChunk; rw [if_neg h1]; exact says_false h2
  induction c using Chunk.ind with
  | raw id size data =>
    refine ⟨?_, by intros; simp_all⟩
    intro ft d hc hd
    by_cases hx : (Chunk.raw id size data).id = d.id ∧ (Chunk.raw id size data).size = d.size
    · cases hc.dispatched with
      | raw hh =>
        unfold compareChunk
        rw [if_pos hx]
        simp only [Chunk.id]
        rw [(findChunkType_iff hr).mpr hh]
        have h1 := hc.raws _ _ _ .self
        have h2 := hc.small _ _ _ .self
        cases hdd : hd.dispatched with
        | raw hh' =>
          have h3 := hd.raws _ _ _ .self
          simp only [Chunk.id, Chunk.size] at hx
          obtain ⟨rfl, rfl⟩ := hx
          simp only [compareFields]
          exact (says_raw e he h1 h3 h2).congr (by simp [Alike])
        | grp hh' hk _ =>
          have := uniq hx.1 hh hh'
          subst this; simp at hk
        | lst hh' _ _ => have := uniq hx.1 hh hh'; simp at this
        | ext hh' _ => have := uniq hx.1 hh hh'; simp at this
    · refine dif hx ?_
      cases d <;> simp [Alike]
      intro h1 h2; exact absurd ⟨h1, h2⟩ hx
  | ext id size vals =>
    refine ⟨?_, by intros; simp_all⟩
    intro ft d hc hd
    by_cases hx : (Chunk.ext id size vals).id = d.id ∧ (Chunk.ext id size vals).size = d.size
    · cases hc.dispatched with
      | ext hh hk =>
        unfold compareChunk
        rw [if_pos hx]
        simp only [Chunk.id]
        rw [(findChunkType_iff hr).mpr hh]
        cases hdd : hd.dispatched with
        | ext hh' hk' =>
          have := uniq hx.1 hh hh'
          simp only [Handler.ext.injEq] at this
          obtain ⟨rfl, rfl⟩ := this
          simp only [Chunk.id, Chunk.size] at hx
          obtain ⟨rfl, rfl⟩ := hx
          simp only [compareFields]
          rw [if_pos ⟨hk, hk'⟩]
          exact ⟨_, rfl, by simp [Alike]⟩
        | grp hh' hk _ =>
          have := uniq hx.1 hh hh'
          subst this; simp at hk
        | lst hh' _ _ => have := uniq hx.1 hh hh'; simp at this
        | raw hh' => have := uniq hx.1 hh hh'; simp at this
    · refine dif hx ?_
      cases d <;> simp [Alike]
      intro h1 h2; exact absurd ⟨h1, h2⟩ hx
  | grp id size ty subs ih =>
    refine ⟨?_, fun i s t u h => by
      simp only [Chunk.grp.injEq] at h; obtain ⟨_, _, _, rfl⟩ := h; exact fun x hx => (ih x hx).1⟩
    intro ft d hc hd
    by_cases hx : (Chunk.grp id size ty subs).id = d.id ∧ (Chunk.grp id size ty subs).size = d.size
    · cases hcc : hc.dispatched with
      | @grp _ _ _ _ _ h hh hk _ =>
        unfold compareChunk
        rw [if_pos hx]
        simp only [Chunk.id]
        rw [(findChunkType_iff hr).mpr hh]
        cases hdd : hd.dispatched with
        | @grp _ id' size' ty' subs' h' hh' hk' _ =>
          have hg := compares_group (e := e) (r := r) (ty := ty) (cs := subs)
            (d := .grp id' size' ty' subs') rfl (fun c h => (ih c h).1) (fun c h => hc.grp h)
            (fun c h => hd.grp h)
          simp only [Chunk.id, Chunk.size] at hx
          obtain ⟨rfl, rfl⟩ := hx
          rcases hk with rfl | rfl | rfl <;> simp only [compareFields] <;>
            exact hg.congr (by simp [Alike])
        | lst hh' _ _ =>
          have := uniq hx.1 hh hh'
          subst this; simp at hk
        | raw hh' => have := uniq hx.1 hh hh'; subst this; simp at hk
        | ext hh' _ => have := uniq hx.1 hh hh'; subst this; simp at hk
    · refine dif hx ?_
      cases d <;> simp [Alike]
      intro h1 h2; exact absurd ⟨h1, h2⟩ hx
  | lst id size ty subs props ih ih2 =>
    refine ⟨?_, by intros; simp_all⟩
    intro ft d hc hd
    by_cases hx : (Chunk.lst id size ty subs props).id = d.id ∧
        (Chunk.lst id size ty subs props).size = d.size
    · cases hcc : hc.dispatched with
      | lst hh _ _ =>
        unfold compareChunk
        rw [if_pos hx]
        simp only [Chunk.id]
        rw [(findChunkType_iff hr).mpr hh]
        cases hdd : hd.dispatched with
        | @lst _ id' size' ty' subs' props' hh' _ _ =>
          have hg := compares_group (e := e) (r := r) (ty := ty) (cs := subs)
            (d := .lst id' size' ty' subs' props') rfl (fun c h => (ih c h).1) (fun c h => hc.sub h)
            (fun c h => hd.sub h)
          simp only [Chunk.id, Chunk.size] at hx
          obtain ⟨rfl, rfl⟩ := hx
          simp only [compareFields, Chunk.asList, Out.val_bind]
          split
          · rename_i hlen
            have hp := compares_props (e := e) (r := r) hlen
              (fun i s t u hm => (ih2 _ hm).2 i s t u rfl)
              (fun p hm => ⟨hc.prop hm, hc.props _ _ _ _ _ .self p hm⟩)
              (fun p hm => ⟨hd.prop hm, hd.props _ _ _ _ _ .self p hm⟩)
            refine (hp.and fun _ => hg).congr ?_
            simp only [Alike, true_and]
            exact ⟨fun ⟨a, b, c⟩ => ⟨b, c, a⟩, fun ⟨b, c, a⟩ => ⟨a, b, c⟩⟩
          · rename_i hlen
            refine says_false ?_
            simp only [Alike]
            exact fun h => hlen (alikeProps_length h.2.2.2.2)
        | grp hh' hk _ =>
          have := uniq hx.1 hh hh'
          subst this; simp at hk
        | raw hh' => have := uniq hx.1 hh hh'; simp at this
        | ext hh' _ => have := uniq hx.1 hh hh'; simp at this
    · refine dif hx ?_
      cases d <;> simp [Alike]
      intro h1 h2; exact absurd ⟨h1, h2⟩ hx

/-- Induction that also reaches the members of the PROPs of a LIST. -/
theorem Chunk.indProps {P : Chunk → Prop}
    (raw : ∀ id size data, P (.raw id size data)) (ext : ∀ id size vals, P (.ext id size vals))
    (grp : ∀ id size ty subs, (∀ c ∈ subs, P c) → P (.grp id size ty subs))
    (lst : ∀ id size ty subs props, (∀ c ∈ subs, P c) →
      (∀ i s t u, .grp i s t u ∈ props → ∀ c ∈ u, P c) → P (.lst id size ty subs props)) (c : Chunk) :
    P c := by
  have : P c ∧ (∀ i s t u, c = .grp i s t u → ∀ x ∈ u, P x) := by
    induction c using Chunk.ind with
    | raw => exact ⟨raw _ _ _, by intros; simp_all⟩
    | ext => exact ⟨ext _ _ _, by intros; simp_all⟩
    | grp id size ty subs ih =>
      refine ⟨grp _ _ _ _ fun c hc => (ih c hc).1, fun i s t u h => ?_⟩
      simp only [Chunk.grp.injEq] at h; obtain ⟨_, _, _, rfl⟩ := h
      exact fun x hx => (ih x hx).1
    | lst id size ty subs props ih ih2 =>
      exact ⟨lst _ _ _ _ _ (fun c hc => (ih c hc).1) fun i s t u hm => (ih2 _ hm).2 i s t u rfl,
        by intros; simp_all⟩
  exact this.1

theorem alikeAll_refl {cs : List Chunk} (h : ∀ c ∈ cs, Alike c c) : AlikeAll cs cs := by
  induction cs with
  | nil => simp [AlikeAll]
  | cons c cs ih =>
    rw [AlikeAll]
    exact ⟨h c List.mem_cons_self, ih fun c hc => h c (List.mem_cons_of_mem _ hc)⟩

theorem alike_refl (c : Chunk) : PropGroups c → Alike c c := by
  induction c using Chunk.indProps with
  | raw => intro _; simp [Alike]
  | ext => intro _; simp [Alike]
  | grp id size ty subs ih =>
    intro h; simp only [Alike, true_and]; exact alikeAll_refl fun c hc => ih c hc (h.grp hc)
  | lst id size ty subs props ih ih2 =>
    intro h; simp only [Alike, true_and]
    refine ⟨alikeAll_refl fun c hc => ih c hc (h.sub hc), ?_⟩
    have hp := h _ _ _ _ _ .self
    have hg : ∀ p ∈ props, PropGroups p := fun p hm => h.prop hm
    clear h ih
    induction props with
    | nil => simp [AlikeProps]
    | cons p ps ihp =>
      obtain ⟨i, s, t, u, rfl⟩ := hp p List.mem_cons_self
      simp only [AlikeProps, true_and]
      refine ⟨alikeAll_refl fun c hc => ih2 i s t u List.mem_cons_self c hc
        ((hg _ List.mem_cons_self).grp hc), ihp ?_ ?_ ?_⟩
      · exact fun i s t u hm => ih2 i s t u (List.mem_cons_of_mem _ hm)
      · exact fun p hm => hp p (List.mem_cons_of_mem _ hm)
      · exact fun p hm => hg p (List.mem_cons_of_mem _ hm)

theorem alikeAll_symm {cs : List Chunk} (h : ∀ c ∈ cs, ∀ d, Alike c d → Alike d c) :
    ∀ {ds}, AlikeAll cs ds → AlikeAll ds cs := by
  induction cs with
  | nil => intro ds hd; cases ds <;> simp_all [AlikeAll]
  | cons c cs ih =>
    intro ds hd
    cases ds with
    | nil => simp [AlikeAll] at hd
    | cons d ds =>
      rw [AlikeAll] at hd ⊢
      exact ⟨h c List.mem_cons_self d hd.1, ih (fun c hc => h c (List.mem_cons_of_mem _ hc)) hd.2⟩

theorem alike_symm (c : Chunk) : ∀ d, Alike c d → Alike d c := by
  induction c using Chunk.indProps with
  | raw => intro d h; cases d <;> simp_all [Alike]
  | ext => intro d h; cases d <;> simp_all [Alike]
  | grp id size ty subs ih =>
    intro d h
    cases d <;> simp only [Alike] at h ⊢
    exact ⟨h.1.symm, h.2.1.symm, h.2.2.1.symm, alikeAll_symm ih h.2.2.2⟩
  | lst id size ty subs props ih ih2 =>
    intro d h
    cases d <;> simp only [Alike] at h ⊢
    rename_i id' size' ty' subs' props'
    refine ⟨h.1.symm, h.2.1.symm, h.2.2.1.symm, alikeAll_symm ih h.2.2.2.1, ?_⟩
    obtain ⟨_, _, _, _, h⟩ := h
    clear ih
    induction props generalizing props' with
    | nil => cases props' <;> simp_all [AlikeProps]
    | cons p ps ihp =>
      cases props' with
      | nil => cases p <;> simp [AlikeProps] at h
      | cons q qs =>
        cases p <;> cases q <;> simp only [AlikeProps] at h ⊢
        exact ⟨h.1.symm, alikeAll_symm (ih2 _ _ _ _ List.mem_cons_self) h.2.1,
          ihp (fun i s t u hm => ih2 i s t u (List.mem_cons_of_mem _ hm)) _ h.2.2⟩

theorem alikeAll_trans {cs : List Chunk}
    (h : ∀ c ∈ cs, ∀ d f, Alike c d → Alike d f → Alike c f) :
    ∀ {ds fs}, AlikeAll cs ds → AlikeAll ds fs → AlikeAll cs fs := by
  induction cs with
  | nil =>
    intro ds fs hd hf
    cases ds with
    | nil => exact hf
    | cons => simp [AlikeAll] at hd
  | cons c cs ih =>
    intro ds fs hd hf
    cases ds with
    | nil => simp [AlikeAll] at hd
    | cons d ds =>
      cases fs with
      | nil => simp [AlikeAll] at hf
      | cons f fs =>
        rw [AlikeAll] at hd hf ⊢
        exact ⟨h c List.mem_cons_self d f hd.1 hf.1,
          ih (fun c hc => h c (List.mem_cons_of_mem _ hc)) hd.2 hf.2⟩

theorem alike_trans (c : Chunk) : ∀ d f, Alike c d → Alike d f → Alike c f := by
  induction c using Chunk.indProps with
  | raw => intro d f h g; cases d <;> cases f <;> simp_all [Alike]
  | ext => intro d f h g; cases d <;> cases f <;> simp_all [Alike]
  | grp id size ty subs ih =>
    intro d f h g
    cases d <;> cases f <;> simp only [Alike] at h g ⊢
    exact ⟨h.1.trans g.1, h.2.1.trans g.2.1, h.2.2.1.trans g.2.2.1,
      alikeAll_trans ih h.2.2.2 g.2.2.2⟩
  | lst id size ty subs props ih ih2 =>
    intro d f h g
    cases d <;> cases f <;> simp only [Alike] at h g ⊢
    rename_i id' size' ty' subs' props' id'' size'' ty'' subs'' props''
    refine ⟨h.1.trans g.1, h.2.1.trans g.2.1, h.2.2.1.trans g.2.2.1,
      alikeAll_trans ih h.2.2.2.1 g.2.2.2.1, ?_⟩
    obtain ⟨_, _, _, _, h⟩ := h
    obtain ⟨_, _, _, _, g⟩ := g
    clear ih
    induction props generalizing props' props'' with
    | nil =>
      cases props' with
      | nil => exact g
      | cons => simp [AlikeProps] at h
    | cons p ps ihp =>
      cases props' with
      | nil => cases p <;> simp [AlikeProps] at h
      | cons q qs =>
        cases props'' with
        | nil => cases q <;> simp [AlikeProps] at g
        | cons r rs =>
          cases p <;> cases q <;> cases r <;> simp only [AlikeProps] at h g ⊢
          exact ⟨h.1.trans g.1, alikeAll_trans (ih2 _ _ _ _ List.mem_cons_self) h.2.1 g.2.1,
            ihp (fun i s t u hm => ih2 i s t u (List.mem_cons_of_mem _ hm)) _ _ h.2.2 g.2.2⟩

theorem alikeAll_eq {cs : List Chunk} {Q : Chunk → Prop}
    (h : ∀ c ∈ cs, ∀ d, Q d → Alike c d → c = d) :
    ∀ {ds}, (∀ d ∈ ds, Q d) → AlikeAll cs ds → cs = ds := by
  induction cs with
  | nil => intro ds hq hd; cases ds <;> simp_all [AlikeAll]
  | cons c cs ih =>
    intro ds hq hd
    cases ds with
    | nil => simp [AlikeAll] at hd
    | cons d ds =>
      rw [AlikeAll] at hd
      rw [h c List.mem_cons_self d (hq d List.mem_cons_self) hd.1,
        ih (fun c hc => h c (List.mem_cons_of_mem _ hc))
          (fun d hd => hq d (List.mem_cons_of_mem _ hd)) hd.2]

/-- For consistent hierarchies the relation is equality. -/
theorem alike_eq (c : Chunk) : Consistent c → PropArrays c →
    ∀ d, Consistent d ∧ PropArrays d → Alike c d → c = d := by
  induction c using Chunk.indProps with
  | raw => intro _ _ d _ h; cases d <;> simp_all [Alike]
  | ext => intro _ _ d _ h; cases d <;> simp_all [Alike]
  | grp id size ty subs ih =>
    intro hc hp d hd h
    cases d <;> simp only [Alike] at h
    obtain ⟨rfl, rfl, rfl, h⟩ := h
    cases hc with
    | grp _ _ hc =>
      cases hd.1 with
      | grp _ _ hd' =>
        rw [alikeAll_eq (Q := fun d => Consistent d ∧ PropArrays d)
          (fun c hm => ih c hm (hc c hm) (hp.grp hm)) (fun d hm => ⟨hd' d hm, hd.2.grp hm⟩) h]
  | lst id size ty subs props ih ih2 =>
    intro hc hp d hd h
    cases d <;> simp only [Alike] at h
    rename_i props'
    obtain ⟨rfl, rfl, rfl, h, h'⟩ := h
    cases hc with
    | lst z1 _ hc hc' =>
      cases hd.1 with
      | lst z2 _ hd' hd'' =>
        have e1 := alikeAll_eq (Q := fun d => Consistent d ∧ PropArrays d)
          (fun c hm => ih c hm (hc c hm) (hp.sub hm)) (fun d hm => ⟨hd' d hm, hd.2.sub hm⟩) h
        subst e1
        have e2 : props = props' := by
          have a1 := hp _ _ _ _ _ .self
          have a2 := hd.2 _ _ _ _ _ .self
          have b1 : ∀ p ∈ props, PropArrays p := fun p hm => hp.prop hm
          have b2 : ∀ p ∈ props', PropArrays p := fun p hm => hd.2.prop hm
          clear ih hp hd h z1 z2
          induction props generalizing props' with
          | nil => cases props' <;> simp_all [AlikeProps]
          | cons p ps ihp =>
            cases props' with
            | nil => cases p <;> simp [AlikeProps] at h'
            | cons q qs =>
              cases p <;> cases q <;> simp only [AlikeProps] at h'
              rename_i i s t u i' s' t' u'
              obtain ⟨rfl, h1, h2⟩ := h'
              cases hc' _ List.mem_cons_self with
              | grp p1 _ p2 =>
                cases hd'' _ List.mem_cons_self with
                | grp q1 _ q2 =>
                  have e3 := alikeAll_eq (Q := fun d => Consistent d ∧ PropArrays d)
                    (fun c hm => ih2 _ _ _ _ List.mem_cons_self c hm (p2 c hm)
                      ((b1 _ List.mem_cons_self).grp hm))
                    (fun d hm => ⟨q2 d hm, (b2 _ List.mem_cons_self).grp hm⟩) h1
                  subst e3
                  have e4 := a1 _ List.mem_cons_self
                  have e5 := a2 _ List.mem_cons_self
                  simp only [Chunk.id] at e4 e5
                  rw [e4, e5, p1, q1]
                  congr 1
                  exact ihp (fun i s t u hm => ih2 i s t u (List.mem_cons_of_mem _ hm)) qs h2
                    (fun c hm => hc' c (List.mem_cons_of_mem _ hm))
                    (fun c hm => hd'' c (List.mem_cons_of_mem _ hm))
                    (fun c hm => a1 c (List.mem_cons_of_mem _ hm))
                    (fun c hm => a2 c (List.mem_cons_of_mem _ hm))
                    (fun c hm => b1 c (List.mem_cons_of_mem _ hm))
                    (fun c hm => b2 c (List.mem_cons_of_mem _ hm))
        rw [e2]

end Iff
