import Verif.Heap.Access
import Verif.Proofs.HeapBase
/-
  A computation on a hierarchy in memory does the same as one on the hierarchy as a value, and
  leaves the memory as it was.
-/
namespace Iff.Heap

open Spec

/-- The number of requests to the allocator: it may have grown only if `al`. -/
def Later (al : Bool) (t t' : Nat) : Prop := t' = t ∨ (al = true ∧ t ≤ t')

theorem Later.trans {al : Bool} {a b c : Nat} (h : Later al a b) (h' : Later al b c) :
    Later al a c := by
  rcases h with rfl | ⟨h1, h2⟩
  · exact h'
  · rcases h' with rfl | ⟨_, h4⟩
    · exact .inr ⟨h1, h2⟩
    · exact .inr ⟨h1, by omega⟩

/-- Outcome `x` is `o` with memory `m`. -/
def Same {ω α : Type} (al : Bool) (m : Mem) (t : Nat) (x : Out (α × HX ω)) : Out (α × ω) → Prop
  | .val (a, w') => ∃ t', x = .val (a, ⟨m, t', w'⟩) ∧ Later al t t'
  | .ub u => x = .ub u
  | .loop => x = .loop

/-- Started in memory `m` with output state `w`, the computation has the outcome `o` and the memory
is as before. -/
def Ref {ω α : Type} (al : Bool) (m : Mem) (w : ω) (h : M (HX ω) α) (o : Out (α × ω)) : Prop :=
  ∀ t, Same al m t (h ⟨m, t, w⟩) o

variable {ω α β : Type} {al : Bool} {m : Mem} {w : ω}

theorem Ref.pure (a : α) : Ref al m w (Pure.pure a) ((Pure.pure a : M ω α) w) :=
  fun t => ⟨t, rfl, .inl rfl⟩

theorem Ref.dev (v : M ω α) : Ref al m w (dev v) (v w) := by
  intro t
  unfold Heap.dev
  cases v w with
  | val p => exact ⟨t, rfl, .inl rfl⟩
  | ub u => rfl
  | loop => rfl

theorem Ref.bind {h : M (HX ω) α} {hf : α → M (HX ω) β} {v : M ω α} {vf : α → M ω β}
    (h1 : Ref al m w h (v w))
    (h2 : ∀ a w', v w = .val (a, w') → Ref al m w' (hf a) (vf a w')) :
    Ref al m w (h >>= hf) ((v >>= vf) w) := by
  intro t
  specialize h1 t
  rw [M.bind_apply, M.bind_apply]
  cases hv : v w with
  | ub u => rw [hv] at h1; rw [show h ⟨m, t, w⟩ = .ub u from h1]; rfl
  | loop => rw [hv] at h1; rw [show h ⟨m, t, w⟩ = .loop from h1]; rfl
  | val p =>
    obtain ⟨a, w'⟩ := p
    rw [hv] at h1
    obtain ⟨t', e, hl⟩ := h1
    have := h2 a w' hv t'
    rw [e]
    simp only
    cases hv2 : vf a w' with
    | ub u => rw [hv2] at this; exact this
    | loop => rw [hv2] at this; exact this
    | val q =>
      obtain ⟨b, w''⟩ := q
      rw [hv2] at this
      obtain ⟨t'', e', hl'⟩ := this
      exact ⟨t'', e', hl.trans hl'⟩

theorem Ref.ofOut_bind {hf : α → M (HX ω) β} {vf : α → M ω β} (o : Out α)
    (h : ∀ a, o = .val a → Ref al m w (hf a) (vf a w)) :
    Ref al m w (M.ofOut o >>= hf) ((M.ofOut o >>= vf) w) := by
  intro t
  cases o with
  | val a => simpa [M.bind_apply] using h a rfl t
  | ub u => rfl
  | loop => rfl

/-- The computation looks at memory `m` and finds `a`. -/
def Finds (m : Mem) (g : M HS α) (a : α) : Prop := ∀ s : HS, s.mem = m → g s = .val (a, s)

/-- The computation looks at memory `m` with undefined behaviour. -/
def Stumbles (m : Mem) (g : M HS α) (u : UB) : Prop := ∀ s : HS, s.mem = m → g s = .ub u

theorem Ref.find {g : M HS α} {a : α} {hf : α → M (HX ω) β} {o : Out (β × ω)} (hg : Finds m g a)
    (h : Ref al m w (hf a) o) : Ref al m w (heap g >>= hf) o := by
  intro t
  have : (heap g >>= hf) (⟨m, t, w⟩ : HX ω) = hf a ⟨m, t, w⟩ := by
    rw [M.bind_apply]
    unfold heap
    rw [hg ⟨m, t, ⟨[], []⟩⟩ rfl]
  rw [this]
  exact h t

theorem Ref.stumble {g : M HS α} {u : UB} {hf : α → M (HX ω) β} (hg : Stumbles m g u) :
    Ref al m w (heap g >>= hf) (.ub u) := by
  intro t
  show (heap g >>= hf) (⟨m, t, w⟩ : HX ω) = .ub u
  rw [M.bind_apply]
  unfold heap
  rw [hg ⟨m, t, ⟨[], []⟩⟩ rfl]

theorem Ref.bind_ub {h : M (HX ω) α} {hf : α → M (HX ω) β} {u : UB} (hg : Ref al m w h (.ub u)) :
    Ref al m w (h >>= hf) (.ub u) := by
  intro t
  have : h ⟨m, t, w⟩ = .ub u := hg t
  show (h >>= hf) (⟨m, t, w⟩ : HX ω) = .ub u
  rw [M.bind_apply, this]

/-! ### What is found in memory -/

theorem finds_hdr {p : Addr} {b : Block} {hd : Hdr} (h : m p = some b) (h' : b.hdr? = some hd) :
    Finds m (getHdr p) hd := fun _ hs => getHdr_eq (hs ▸ h) h'

theorem finds_node {t : Node} {par : Addr} (h : In m par t) :
    Finds m (getHdr t.addr) ⟨par, t.chunk.id, t.chunk.size⟩ := by
  cases t <;> simp only [In] at h
  · exact finds_hdr h.1 rfl
  · exact finds_hdr h.1 rfl
  · exact finds_hdr h.1 rfl
  · exact finds_hdr h rfl

theorem finds_grp {p : Addr} {b : Block} {g : Grp} (h : m p = some b) (h' : b.grp? = some g) :
    Finds m (getGrp p) g := fun _ hs => getGrp_eq (hs ▸ h) h'

theorem finds_lst {p : Addr} {b : Block} {l : Lst} (h : m p = some b) (h' : b.lst? = some l) :
    Finds m (getLst p) l := fun _ hs => getLst_eq (hs ▸ h) h'

theorem stumbles_grp {p : Addr} {b : Block} (h : m p = some b) (h' : b.grp? = none) :
    Stumbles m (getGrp p) .wrongStruct := fun s hs => by
  subst hs
  simp [getGrp, M.bind_apply, load_eq h, h']

theorem stumbles_lst {p : Addr} {b : Block} (h : m p = some b) (h' : b.lst? = none) :
    Stumbles m (getLst p) .wrongStruct := fun s hs => by
  subst hs
  simp [getLst, M.bind_apply, load_eq h, h']

theorem finds_raw {p d : Addr} {hd : Hdr} (h : m p = some (.raw hd d)) : Finds m (getRaw p) d :=
  fun s hs => by
  subst hs
  simp [getRaw, M.bind_apply, load_eq h]

theorem stumbles_raw {p : Addr} {b : Block} (h : m p = some b) (h' : ∀ hd d, b ≠ .raw hd d) :
    Stumbles m (getRaw p) .wrongStruct := fun s hs => by
  subst hs
  simp only [getRaw, M.bind_apply, load_eq h]
  cases b <;> simp_all

theorem finds_ext {p : Addr} {hd : Hdr} {vals : List Val} {fields : List Field}
    (h : m p = some (.ext hd vals)) (hk : vals.map Val.kind = fields.map Field.kind) :
    Finds m (getExt fields p) vals := fun s hs => by
  subst hs
  simp [getExt, M.bind_apply, load_eq h, hk]

theorem stumbles_ext {p : Addr} {hd : Hdr} {vals : List Val} {fields : List Field}
    (h : m p = some (.ext hd vals)) (hk : vals.map Val.kind ≠ fields.map Field.kind) :
    Stumbles m (getExt fields p) .wrongStruct := fun s hs => by
  subst hs
  simp [getExt, M.bind_apply, load_eq h, hk]

theorem stumbles_ext' {p : Addr} {b : Block} {fields : List Field} (h : m p = some b)
    (h' : ∀ hd vals, b ≠ .ext hd vals) : Stumbles m (getExt fields p) .wrongStruct := fun s hs => by
  subst hs
  simp only [getExt, M.bind_apply, load_eq h]
  cases b <;> simp_all

theorem mapM_some {α : Type} (l : List α) : (l.map some).mapM id = some l := by
  induction l with
  | nil => rfl
  | cons a l ih => simp [List.mapM_cons, ih]

theorem finds_bytes {d : Addr} {data : List Byte} {n : Nat}
    (h : m d = some (.bytes (data.map some))) (hn : n ≤ data.length) :
    Finds m (readBytes d n) (data.take n) := fun s hs => by
  subst hs
  simp only [readBytes, M.bind_apply, load_eq h, List.length_map, hn, if_true, ← List.map_take,
    mapM_some]
  rfl

theorem stumbles_bytes {d : Addr} {data : List Byte} {n : Nat}
    (h : m d = some (.bytes (data.map some))) (hn : ¬ n ≤ data.length) :
    Stumbles m (readBytes d n) .outOfBounds := fun s hs => by
  subst hs
  simp only [readBytes, M.bind_apply, load_eq h, List.length_map, hn, if_false]
  rfl

theorem finds_ptr {arr : Addr} {ps : List Addr} (h : ArrayIn m arr ps) {i : Nat} {a : Addr}
    (hi : ps[i]? = some a) : Finds m (getPtr arr i) a := fun s hs => by
  subst hs
  rcases h with ⟨rfl, _⟩ | ⟨_, _, h⟩
  · simp at hi
  · exact getPtr_eq h (by simp [hi])

end Iff.Heap
