import Verif.Proofs.HeapBase
import Verif.Spec.Owner
/-
  What a release that returns says about the heap it started with.
-/
namespace Iff
open Spec Heap

/-- The blocks in `L`, all allocated and different, were released, and nothing else. -/
def Freed (s s' : HS) (L : List Addr) : Prop :=
  s'.mem = s.mem.without L ∧ L.Nodup ∧ ∀ a ∈ L, s.mem a ≠ none

theorem Freed.refl (s : HS) : Freed s s [] := ⟨(Mem.without_nil _).symm, .nil, fun _ h => nomatch h⟩

theorem Freed.trans {s₁ s₂ s₃ : HS} {L₁ L₂ : List Addr} (h : Freed s₁ s₂ L₁) (h' : Freed s₂ s₃ L₂) :
    Freed s₁ s₃ (L₁ ++ L₂) := by
  obtain ⟨e, n, l⟩ := h
  obtain ⟨e', n', l'⟩ := h'
  have hd : ∀ a ∈ L₂, a ∉ L₁ := fun a ha hb => l' a ha (by rw [e, Mem.without_of_mem hb])
  refine ⟨by rw [e', e, Mem.without_without], List.nodup_append.mpr ⟨n, n', ?_⟩, ?_⟩
  · rintro a ha b hb rfl; exact hd a hb ha
  · intro a ha
    rcases List.mem_append.mp ha with ha | ha
    · exact l a ha
    · have := l' a ha
      rwa [e, Mem.without_of_notMem (hd a ha)] at this

theorem Freed.null {s s' : HS} {L : List Addr} (h : Freed s s' L) (h0 : s.mem 0 = none) : s'.mem 0 = none := by
  rw [h.1]; unfold Mem.without; split
  · rfl
  · exact h0

theorem Freed.notMem {s s' : HS} {L : List Addr} (h : Freed s s' L) {a : Addr} {b : Block}
    (ha : s'.mem a = some b) : a ∉ L := by
  intro hm; rw [h.1, Mem.without_of_mem hm] at ha; cases ha

/-- The heap `m'` is `m` without some blocks. -/
def Less (m m' : Mem) : Prop := ∀ a b, m' a = some b → m a = some b

theorem Freed.less {m : Mem} {s s' : HS} {L : List Addr} (h : Freed s s' L) (hl : Less m s.mem) :
    Less m s'.mem := by
  intro a b ha
  have := h.notMem ha
  rw [h.1, Mem.without_of_notMem this] at ha
  exact hl a b ha

theorem bind_val {α β : Type} {f : M HS α} {g : α → M HS β} {s : HS} {y : β × HS}
    (h : (f >>= g) s = .val y) : ∃ a s₁, f s = .val (a, s₁) ∧ g a s₁ = .val y := by
  rw [M.bind_apply] at h
  cases hf : f s with
  | val x => rw [hf] at h; exact ⟨x.1, x.2, rfl, h⟩
  | ub u => rw [hf] at h; cases h
  | loop => rw [hf] at h; cases h

theorem load_inv {p : Addr} {s s' : HS} {b : Block} (h : load p s = .val (b, s')) :
    s.mem p = some b ∧ s' = s := by
  unfold load at h
  split at h
  · cases h; exact ⟨‹_›, rfl⟩
  · cases h

theorem getHdr_inv {p : Addr} {s s' : HS} {d : Hdr} (h : getHdr p s = .val (d, s')) :
    ∃ b, s.mem p = some b ∧ b.hdr? = some d ∧ s' = s := by
  obtain ⟨b, s₁, h1, h2⟩ := bind_val h
  obtain ⟨h1, rfl⟩ := load_inv h1
  cases hb : b.hdr? <;> simp only [hb] at h2 <;> cases h2
  exact ⟨b, h1, hb, rfl⟩

theorem getGrp_inv {p : Addr} {s s' : HS} {g : Grp} (h : getGrp p s = .val (g, s')) :
    ∃ b, s.mem p = some b ∧ b.grp? = some g ∧ s' = s := by
  obtain ⟨b, s₁, h1, h2⟩ := bind_val h
  obtain ⟨h1, rfl⟩ := load_inv h1
  cases hb : b.grp? <;> simp only [hb] at h2 <;> cases h2
  exact ⟨b, h1, hb, rfl⟩

theorem getLst_inv {p : Addr} {s s' : HS} {l : Lst} (h : getLst p s = .val (l, s')) :
    ∃ b, s.mem p = some b ∧ b.lst? = some l ∧ s' = s := by
  obtain ⟨b, s₁, h1, h2⟩ := bind_val h
  obtain ⟨h1, rfl⟩ := load_inv h1
  cases hb : b.lst? <;> simp only [hb] at h2 <;> cases h2
  exact ⟨b, h1, hb, rfl⟩

theorem getPtr_inv {arr : Addr} {i : Nat} {s s' : HS} {a : Addr} (h : getPtr arr i s = .val (a, s')) :
    ∃ cells, s.mem arr = some (.ptrs cells) ∧ cells[i]? = some (some a) ∧ s' = s := by
  obtain ⟨b, s₁, h1, h2⟩ := bind_val h
  obtain ⟨h3, rfl⟩ := load_inv h1
  cases b with
  | ptrs cells =>
    simp only at h2
    cases hi : cells[i]? with
    | none => rw [hi] at h2; cases h2
    | some o =>
      cases o with
      | none => rw [hi] at h2; cases h2
      | some a' => rw [hi] at h2; cases h2; exact ⟨_, h3, hi, rfl⟩
  | _ => cases h2

theorem free_inv {p : Addr} {s s' : HS} {u : Unit} (h : free p s = .val (u, s')) :
    (p = 0 ∧ s' = s) ∨ (p ≠ 0 ∧ Freed s s' [p]) := by
  unfold free at h
  split at h
  · cases h; exact .inl ⟨‹_›, rfl⟩
  · split at h
    · cases h
      refine .inr ⟨‹_›, ?_, by simp, by simp [*]⟩
      show s.mem.set p none = _
      rw [← Mem.without_nil s.mem, Mem.without_set]; simp [Mem.without_nil]
    · cases h

theorem free_freed {p : Addr} {s s' : HS} {u : Unit} (h : free p s = .val (u, s')) : ∃ L, Freed s s' L := by
  rcases free_inv h with ⟨-, rfl⟩ | ⟨-, h⟩
  · exact ⟨_, .refl _⟩
  · exact ⟨_, h⟩

/-- What the release of a chunk says. -/
def Owns (r : Registry) (m : Mem) (ft : ID) (p : Addr) (L : List Addr) : Prop :=
  (∀ ks x, Reaches r m ft p ks x → x ∈ L) ∧
  ∀ ks ks' x, Reaches r m ft p ks x → Reaches r m ft p ks' x → ks = ks'

/-- What a function that releases a chunk guarantees. -/
def Releases (r : Registry) (m : Mem) (f : ID → Addr → M HS Unit) : Prop :=
  ∀ ft p s s' u, f ft p s = .val (u, s') → s.mem 0 = none → Less m s.mem →
    ∃ L, Freed s s' L ∧ Owns r m ft p L

/-- What the release of the chunks `at j`, for `j` in a range, says. -/
def OwnsAll (r : Registry) (m : Mem) (ty : ID) (i k : Nat) (child : Nat → Addr → Prop) (L : List Addr) : Prop :=
  (∀ j q, i ≤ j → j < i + k → child j q → ∀ ks x, Reaches r m ty q ks x → x ∈ L) ∧
  ∀ j j' q q', i ≤ j → j < i + k → i ≤ j' → j' < i + k → child j q → child j' q' →
    ∀ ks ks' x, Reaches r m ty q ks x → Reaches r m ty q' ks' x → j = j' ∧ ks = ks'

theorem OwnsAll.nil {r : Registry} {m : Mem} {ty : ID} {i : Nat} {child : Nat → Addr → Prop} :
    OwnsAll r m ty i 0 child [] :=
  ⟨fun j q h1 h2 => by omega, fun j j' q q' h1 h2 => by omega⟩

/-- The first chunk and the others. -/
theorem OwnsAll.cons {r : Registry} {m : Mem} {ty : ID} {i k : Nat} {child : Nat → Addr → Prop} {c : Addr}
    {L₁ L₂ : List Addr} (hc : ∀ q, child i q → q = c) (h1 : Owns r m ty c L₁)
    (h2 : OwnsAll r m ty (i + 1) k child L₂) (hd : (L₁ ++ L₂).Nodup) :
    OwnsAll r m ty i (k + 1) child (L₁ ++ L₂) := by
  have hdis : ∀ x, x ∈ L₁ → x ∈ L₂ → False := fun x a b => (List.nodup_append.mp hd).2.2 x a x b rfl
  constructor
  · intro j q hj hj' hq ks x hx
    by_cases h : j = i
    · subst h; cases hc q hq; exact List.mem_append_left _ (h1.1 ks x hx)
    · exact List.mem_append_right _ (h2.1 j q (by omega) (by omega) hq ks x hx)
  · intro j j' q q' hj hjk hj' hjk' hq hq' ks ks' x hx hx'
    by_cases h : j = i <;> by_cases h' : j' = i
    · subst h; subst h'; cases hc q hq; cases hc q' hq'
      exact ⟨rfl, h1.2 ks ks' x hx hx'⟩
    · subst h; cases hc q hq
      exact (hdis x (h1.1 ks x hx) (h2.1 j' q' (by omega) (by omega) hq' ks' x hx')).elim
    · subst h'; cases hc q' hq'
      exact (hdis x (h1.1 ks' x hx') (h2.1 j q (by omega) (by omega) hq ks x hx)).elim
    · exact h2.2 j j' q q' (by omega) (by omega) (by omega) (by omega) hq hq' ks ks' x hx hx'

variable {r : Registry} {m : Mem} {f : ID → Addr → M HS Unit}

theorem freeMembers_owns (hf : Releases r m f) {p : Addr} {b : Block} {g : Grp} (hp : m p = some b)
    (hg : b.grp? = some g) : ∀ k i s s' u, freeMembers f p k i s = .val (u, s') → s.mem 0 = none →
    Less m s.mem → ∃ L, Freed s s' L ∧
      OwnsAll r m g.ty i k (fun j q => ∃ cells, m g.arr = some (.ptrs cells) ∧ cells[j]? = some (some q)) L
  | 0, i, s, s', u, h, _, _ => by cases h; exact ⟨[], .refl _, .nil⟩
  | k + 1, i, s, s', u, h, h0, hl => by
    obtain ⟨g', s₁, e1, k1⟩ := bind_val h
    obtain ⟨b', hb, hg', rfl⟩ := getGrp_inv e1
    obtain rfl : b' = b := by have := hl _ _ hb; rw [hp] at this; cases this; rfl
    obtain rfl : g' = g := by rw [hg] at hg'; cases hg'; rfl
    obtain ⟨c, s₂, e2, k2⟩ := bind_val k1
    obtain ⟨cells, hc, hi, rfl⟩ := getPtr_inv e2
    obtain ⟨v, s₃, e3, k3⟩ := bind_val k2
    obtain ⟨L₁, hL₁, ho⟩ := hf _ _ _ _ _ e3 h0 hl
    obtain ⟨L₂, hL₂, ho₂⟩ := freeMembers_owns hf hp hg k (i + 1) s₃ s' u k3 (hL₁.null h0) (hL₁.less hl)
    refine ⟨L₁ ++ L₂, hL₁.trans hL₂, .cons ?_ ho ho₂ (hL₁.trans hL₂).2.1⟩
    rintro q ⟨cells', hc', hi'⟩
    rw [hl _ _ hc] at hc'; cases hc'
    rw [hi] at hi'; cases hi'; rfl

theorem freeProps_owns (hf : Releases r m f) {p : Addr} {b : Block} {g : Grp} {l : Lst} (hp : m p = some b)
    (hg : b.grp? = some g) (hlst : b.lst? = some l) : ∀ k i s s' u, freeProps f p k i s = .val (u, s') →
    s.mem 0 = none → Less m s.mem → ∃ L, Freed s s' L ∧
      OwnsAll r m g.ty i k (fun j q => ∃ cells, m l.parr = some (.ptrs cells) ∧ cells[j]? = some (some q)) L
  | 0, i, s, s', u, h, _, _ => by cases h; exact ⟨[], .refl _, .nil⟩
  | k + 1, i, s, s', u, h, h0, hl => by
    obtain ⟨l', s₁, e1, k1⟩ := bind_val h
    obtain ⟨b', hb, hl', rfl⟩ := getLst_inv e1
    obtain rfl : b' = b := by have := hl _ _ hb; rw [hp] at this; cases this; rfl
    obtain rfl : l' = l := by rw [hlst] at hl'; cases hl'; rfl
    obtain ⟨c, s₂, e2, k2⟩ := bind_val k1
    obtain ⟨cells, hc, hi, rfl⟩ := getPtr_inv e2
    obtain ⟨g', s₄, e4, k3⟩ := bind_val k2
    obtain ⟨b'', hb', hg', rfl⟩ := getGrp_inv e4
    obtain rfl : b'' = b' := by rw [hb] at hb'; cases hb'; rfl
    obtain rfl : g' = g := by rw [hg] at hg'; cases hg'; rfl
    obtain ⟨v, s₃, e3, k4⟩ := bind_val k3
    obtain ⟨L₁, hL₁, ho⟩ := hf _ _ _ _ _ e3 h0 hl
    obtain ⟨L₂, hL₂, ho₂⟩ := freeProps_owns hf hp hg hlst k (i + 1) s₃ s' u k4 (hL₁.null h0) (hL₁.less hl)
    refine ⟨L₁ ++ L₂, hL₁.trans hL₂, .cons ?_ ho ho₂ (hL₁.trans hL₂).2.1⟩
    rintro q ⟨cells', hc', hi'⟩
    rw [hl _ _ hc] at hc'; cases hc'
    rw [hi] at hi'; cases hi'; rfl

/-- The members of a group. -/
abbrev OwnsMembers (r : Registry) (m : Mem) (g : Grp) (L : List Addr) : Prop :=
  OwnsAll r m g.ty 0 g.len (fun j q => ∃ cells, m g.arr = some (.ptrs cells) ∧ cells[j]? = some (some q)) L

theorem freeGroup_owns (hf : Releases r m f) {p : Addr} {b : Block} (hp : m p = some b) {s s' : HS} {u : Unit}
    (h : freeGroup f p s = .val (u, s')) (h0 : s.mem 0 = none) (hl : Less m s.mem) :
    ∃ g L L', b.grp? = some g ∧ Freed s s' (L ++ L') ∧ OwnsMembers r m g L := by
  obtain ⟨g, s₁, e1, k1⟩ := bind_val h
  obtain ⟨b', hb, hg, rfl⟩ := getGrp_inv e1
  obtain rfl : b' = b := by have := hl _ _ hb; rw [hp] at this; cases this; rfl
  obtain ⟨v, s₂, e2, k2⟩ := bind_val k1
  obtain ⟨L, hL, ho⟩ := freeMembers_owns hf hp hg _ _ _ _ _ e2 h0 hl
  obtain ⟨g', s₃, e3, k3⟩ := bind_val k2
  obtain ⟨_, -, -, rfl⟩ := getGrp_inv e3
  obtain ⟨L', hL'⟩ := free_freed k3
  exact ⟨g, L, L', hg, hL.trans hL', ho⟩

/-- The chunks that a chunk holds are owned, so the chunk owns all it reaches. -/
theorem owns_of {ft : ID} {p : Addr} {L : List Addr} (hp : p ∉ L)
    (h1 : ∀ k ty q, Child r m ft p k ty q → ∀ ks x, Reaches r m ty q ks x → x ∈ L)
    (h2 : ∀ k k' ty ty' q q', Child r m ft p k ty q → Child r m ft p k' ty' q' → ∀ ks ks' x,
      Reaches r m ty q ks x → Reaches r m ty' q' ks' x → k = k' ∧ ks = ks') : Owns r m ft p (L ++ [p]) := by
  constructor
  · intro ks x hx
    cases hx with
    | here => simp
    | step hc hx => exact List.mem_append_left _ (h1 _ _ _ hc _ _ hx)
  · intro ks ks' x hx hx'
    cases hx with
    | here =>
      cases hx' with
      | here => rfl
      | step hc hx' => exact absurd (h1 _ _ _ hc _ _ hx') hp
    | step hc hx =>
      cases hx' with
      | here => exact absurd (h1 _ _ _ hc _ _ hx) hp
      | step hc' hx' => obtain ⟨rfl, rfl⟩ := h2 _ _ _ _ _ _ hc hc' _ _ _ hx hx'; rfl

theorem freeList_owns (hf : Releases r m f) {p : Addr} {b : Block} (hp : m p = some b) {s s' : HS} {u : Unit}
    (h : freeList f p s = .val (u, s')) (h0 : s.mem 0 = none) (hl : Less m s.mem) :
    ∃ g l L L₁ L₂ L', b.grp? = some g ∧ b.lst? = some l ∧ Freed s s' (L ++ L₁ ++ (L₂ ++ L')) ∧
      OwnsMembers r m g L ∧
      OwnsAll r m g.ty 0 l.plen (fun j q => ∃ cells, m l.parr = some (.ptrs cells) ∧ cells[j]? = some (some q)) L₂ := by
  obtain ⟨v, s₁, e1, k1⟩ := bind_val h
  obtain ⟨g, L, L₁, hg, hL, ho⟩ := freeGroup_owns hf hp e1 h0 hl
  obtain ⟨l, s₂, e2, k2⟩ := bind_val k1
  obtain ⟨b', hb, hlst, rfl⟩ := getLst_inv e2
  obtain rfl : b' = b := by have := hL.less hl _ _ hb; rw [hp] at this; cases this; rfl
  obtain ⟨w, s₃, e3, k3⟩ := bind_val k2
  obtain ⟨L₂, hL₂, ho₂⟩ := freeProps_owns hf hp hg hlst _ _ _ _ _ e3 (hL.null h0) (hL.less hl)
  obtain ⟨l', s₄, e4, k4⟩ := bind_val k3
  obtain ⟨_, -, -, rfl⟩ := getLst_inv e4
  obtain ⟨L', hL'⟩ := free_freed k4
  exact ⟨g, l, L, L₁, L₂, L', hg, hlst, hL.trans (hL₂.trans hL'), ho, ho₂⟩

theorem freeChunk_owns (r : Registry) (m : Mem) : ∀ n, Releases r m (freeChunk r n)
  | 0 => fun _ _ _ _ _ h => nomatch h
  | n + 1 => by
    intro ft p s s' u h h0 hl
    have ih := freeChunk_owns r m n
    obtain ⟨d, s₁, e1, k1⟩ := bind_val h
    obtain ⟨b, hb, hd, rfl⟩ := getHdr_inv e1
    have hp := hl _ _ hb
    -- the release of the struct itself, after that of what it holds
    have fin : ∀ {s₂ : HS} {L : List Addr}, Freed s₁ s₂ L → free p s₂ = .val (u, s') →
        p ∉ L ∧ Freed s₁ s' (L ++ [p]) := by
      intro s₂ L hL hfr
      rcases free_inv hfr with ⟨rfl, -⟩ | ⟨-, hfr⟩
      · rw [h0] at hb; cases hb
      · refine ⟨fun hm => hfr.2.2 p (by simp) ?_, hL.trans hfr⟩
        rw [hL.1, Mem.without_of_mem hm]
    -- the groups without PROPs
    have grp : GroupHandler (findChunkType r ft d.id) → findChunkType r ft d.id ≠ .list →
        (freeGroup (freeChunk r n) p >>= fun _ => free p) s₁ = .val (u, s') →
        ∃ L, Freed s₁ s' L ∧ Owns r m ft p L := by
      intro hg hn k2
      obtain ⟨v, s₂, e2, k3⟩ := bind_val k2
      obtain ⟨g, L, L', hgr, hL, ho⟩ := freeGroup_owns ih hp e2 h0 hl
      obtain ⟨hnm, hF⟩ := fin hL k3
      refine ⟨_, hF, owns_of hnm ?_ ?_⟩
      · intro k ty q hc ks x hx
        cases hc with
        | member c1 c2 c3 c4 c5 c6 c7 =>
          rw [hp] at c1; cases c1; rw [hgr] at c4; cases c4
          exact List.mem_append_left _ (ho.1 _ _ (by omega) (by omega) ⟨_, c5, c7⟩ _ _ hx)
        | prop c1 c2 c3 =>
          rw [hp] at c1; cases c1; rw [hd] at c2; cases c2; exact absurd c3 hn
      · intro k k' ty ty' q q' hc hc' ks ks' x hx hx'
        cases hc with
        | prop c1 c2 c3 =>
          rw [hp] at c1; cases c1; rw [hd] at c2; cases c2; exact absurd c3 hn
        | member c1 c2 c3 c4 c5 c6 c7 =>
          cases hc' with
          | prop d1 d2 d3 =>
            rw [hp] at d1; cases d1; rw [hd] at d2; cases d2; exact absurd d3 hn
          | member d1 d2 d3 d4 d5 d6 d7 =>
            rw [hp] at c1 d1; cases c1; cases d1; rw [hgr] at c4 d4; cases c4; cases d4
            obtain ⟨rfl, rfl⟩ := ho.2 _ _ _ _ (by omega) (by omega) (by omega) (by omega) ⟨_, c5, c7⟩ ⟨_, d5, d7⟩
              _ _ _ hx hx'
            exact ⟨rfl, rfl⟩
    -- the chunks that hold no chunks
    have leaf : ¬ GroupHandler (findChunkType r ft d.id) → ∀ {s₂ : HS} {L : List Addr}, Freed s₁ s₂ L →
        free p s₂ = .val (u, s') → ∃ L, Freed s₁ s' L ∧ Owns r m ft p L := by
      intro hn s₂ L hL hfr
      obtain ⟨hnm, hF⟩ := fin hL hfr
      have no : ∀ k ty q, ¬ Child r m ft p k ty q := by
        intro k ty q hc
        cases hc with
        | member c1 c2 c3 => rw [hp] at c1; cases c1; rw [hd] at c2; cases c2; exact hn c3
        | prop c1 c2 c3 =>
          rw [hp] at c1; cases c1; rw [hd] at c2; cases c2; exact hn (.inr (.inr (.inr c3)))
      exact ⟨_, hF, owns_of hnm (fun _ _ _ hc => absurd hc (no _ _ _)) (fun _ _ _ _ _ _ hc => absurd hc (no _ _ _))⟩
    cases ht : findChunkType r ft d.id with
    | raw =>
      rw [ht] at k1
      obtain ⟨b', s₃, e3, k3⟩ := bind_val k1
      obtain ⟨-, rfl⟩ := load_inv e3
      cases b' with
      | raw h' d' =>
        obtain ⟨v, s₂, e2, k2⟩ := bind_val k3
        obtain ⟨L, hL⟩ := free_freed e2
        exact leaf (by rw [ht]; rintro (h | h | h | h) <;> cases h) hL k2
      | _ => cases k3
    | ext fields chk =>
      rw [ht] at k1
      exact leaf (by rw [ht]; rintro (h | h | h | h) <;> cases h) (.refl _) k1
    | form => rw [ht] at k1; exact grp (by rw [ht]; exact .inl rfl) (by rw [ht]; exact nofun) k1
    | cat => rw [ht] at k1; exact grp (by rw [ht]; exact .inr (.inl rfl)) (by rw [ht]; exact nofun) k1
    | prop => rw [ht] at k1; exact grp (by rw [ht]; exact .inr (.inr (.inl rfl))) (by rw [ht]; exact nofun) k1
    | list =>
      rw [ht] at k1
      obtain ⟨v, s₂, e2, k2⟩ := bind_val k1
      obtain ⟨g, l, L, L₁, L₂, L', hgr, hlst, hL, ho, ho₂⟩ := freeList_owns ih hp e2 h0 hl
      obtain ⟨hnm, hF⟩ := fin hL k2
      have dis : ∀ x, x ∈ L → x ∈ L₂ → False := fun x a b =>
        (List.nodup_append.mp hL.2.1).2.2 x (List.mem_append_left _ a) x (List.mem_append_left _ b) rfl
      -- a child is a member or a PROP
      have kid : ∀ {k ty q}, Child r m ft p k ty q → ty = g.ty ∧
          ((∃ i, k = .member i ∧ i < g.len ∧ ∃ cells, m g.arr = some (.ptrs cells) ∧ cells[i]? = some (some q)) ∨
           (∃ i, k = .prop i ∧ i < l.plen ∧ ∃ cells, m l.parr = some (.ptrs cells) ∧ cells[i]? = some (some q))) := by
        intro k ty q hc
        cases hc with
        | member c1 c2 c3 c4 c5 c6 c7 =>
          rw [hp] at c1; cases c1; rw [hgr] at c4; cases c4
          exact ⟨rfl, .inl ⟨_, rfl, c6, _, c5, c7⟩⟩
        | prop c1 c2 c3 c4 c5 c6 c7 c8 =>
          rw [hp] at c1; cases c1; rw [hgr] at c4; cases c4; rw [hlst] at c5; cases c5
          exact ⟨rfl, .inr ⟨_, rfl, c7, _, c6, c8⟩⟩
      refine ⟨_, hF, owns_of hnm ?_ ?_⟩
      · intro k ty q hc ks x hx
        obtain ⟨rfl, ⟨i, rfl, hi, hq⟩ | ⟨i, rfl, hi, hq⟩⟩ := kid hc
        · exact List.mem_append_left _ (List.mem_append_left _ (ho.1 _ _ (by omega) (by omega) hq _ _ hx))
        · exact List.mem_append_right _ (List.mem_append_left _ (ho₂.1 _ _ (by omega) (by omega) hq _ _ hx))
      · intro k k' ty ty' q q' hc hc' ks ks' x hx hx'
        obtain ⟨rfl, ⟨i, rfl, hi, hq⟩ | ⟨i, rfl, hi, hq⟩⟩ := kid hc <;>
          obtain ⟨rfl, ⟨j, rfl, hj, hq'⟩ | ⟨j, rfl, hj, hq'⟩⟩ := kid hc'
        · obtain ⟨rfl, rfl⟩ := ho.2 _ _ _ _ (by omega) (by omega) (by omega) (by omega) hq hq' _ _ _ hx hx'
          exact ⟨rfl, rfl⟩
        · exact (dis x (ho.1 _ _ (by omega) (by omega) hq _ _ hx) (ho₂.1 _ _ (by omega) (by omega) hq' _ _ hx')).elim
        · exact (dis x (ho.1 _ _ (by omega) (by omega) hq' _ _ hx') (ho₂.1 _ _ (by omega) (by omega) hq _ _ hx)).elim
        · obtain ⟨rfl, rfl⟩ := ho₂.2 _ _ _ _ (by omega) (by omega) (by omega) (by omega) hq hq' _ _ _ hx hx'
          exact ⟨rfl, rfl⟩

end Iff
