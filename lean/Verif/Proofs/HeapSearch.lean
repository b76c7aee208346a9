import Verif.Heap.Search
import Verif.Spec.Search
import Verif.Proofs.HeapUpdate
import Verif.Proofs.HeapArray
/-
  Searching forms.
-/
namespace Iff.Heap

open Spec

theorem copy_run {target source : Addr} {ps qs : List Addr} (hne : source ≠ target) :
    ∀ (todo cp : List Addr) (s : HS), qs = cp ++ todo →
      s.mem source = some (.ptrs (qs.map some)) →
      s.mem target = some (.ptrs ((ps ++ cp).map some ++ List.replicate todo.length none)) →
      copyPtrs target ps.length source todo.length cp.length s =
        .val ((), ⟨s.mem.set target (some (.ptrs ((ps ++ qs).map some))), s.tick, s.rs⟩) := by
  intro todo
  induction todo with
  | nil =>
    intro cp s hq hs ht
    simp only [List.append_nil, List.length_nil, List.replicate_zero] at hq ht
    subst hq
    simp only [List.length_nil, copyPtrs, M.pure_apply]
    rw [Mem.set_self ht]
  | cons c cs ih =>
    intro cp s hq hs ht
    have hget : (qs.map some)[cp.length]? = some (some c) := by rw [hq]; simp
    have hlt : cp.length + ps.length <
        ((ps ++ cp).map some ++ List.replicate (c :: cs).length none).length := by
      simp; omega
    simp only [List.length_cons, copyPtrs, M.bind_apply, getPtr_eq hs hget, setPtr_eq ht hlt]
    have hset : ((ps ++ cp).map some ++ List.replicate (cs.length + 1) none).set
        (cp.length + ps.length) (some c) =
        (ps ++ (cp ++ [c])).map some ++ List.replicate cs.length none := by
      rw [List.set_append_right _ _ (by simp; omega)]
      simp [List.replicate_succ, Nat.add_comm]
    rw [hset]
    have := ih (cp ++ [c])
      ⟨s.mem.set target (some (.ptrs ((ps ++ (cp ++ [c])).map some ++
        List.replicate cs.length none))), s.tick, s.rs⟩
      (by rw [hq]; simp) ((Mem.set_ne hne).trans hs) (Mem.set_same _ _ _)
    simp only [List.length_append, List.length_singleton] at this
    rw [this]
    simp only [Mem.set_set]

/-- Merging: the target grows by the source, the source stays allocated.  Blocks that get lost
besides the source: only the target, when `realloc(p, 0)` returns NULL without freeing. -/
theorem merge_run {A : Alloc} (hA : ArraysOk A) {m : Mem} (h0 : m 0 = none) (hr : Roomy m) {s : HS}
    {r q : Addr} {ps qs ls : List Addr} (hbs : Beside m s.mem r ls) (hls : ∀ x ∈ ls, x ≠ 0)
    (htgt : ArrayOrNull s.mem r ps) (hsrc : ArrayOrNull s.mem q qs) (hq : q ≠ 0 → q ∈ ls) :
    ∃ r' m' ls', mergeFormArray A r ps.length q qs.length s =
        .val ((r', (ps ++ qs).length), ⟨m', s.tick + 1, s.rs⟩) ∧
      Beside m m' r' (ls' ++ ls) ∧ (∀ x ∈ ls' ++ ls, x ≠ 0) ∧ ArrayOrNull m' r' (ps ++ qs) ∧
      (ZeroUsual A → ((∀ t m, A.pick t m (.array 0) = none) → ps = [] → r = 0) →
        ls' = [] ∧ ((∀ t m, A.pick t m (.array 0) = none) → ps ++ qs = [] → r' = 0)) := by
  have hs0 := hbs.null h0 hls
  by_cases hz : ps.length + qs.length = 0
  · -- nothing to store
    have hps : ps = [] := List.length_eq_zero_iff.mp (by omega)
    have hqs : qs = [] := List.length_eq_zero_iff.mp (by omega)
    subst hps hqs
    simp only [mergeFormArray, List.length_nil, Nat.add_zero, M.bind_apply, copyPtrs, M.pure_apply,
      List.append_nil]
    rcases htgt with ⟨rfl, _⟩ | ⟨hrne, hcell⟩
    · simp only [reallocPtrs, malloc, if_true]
      cases hpick : A.pick s.tick s.mem (.array 0) with
      | none =>
        exact ⟨0, s.mem, [], rfl, hbs, hls, .inl ⟨rfl, rfl⟩, fun _ _ => ⟨rfl, fun _ _ => rfl⟩⟩
      | some a =>
        obtain ⟨hane, hafree⟩ := A.sound hpick
        have hg := hbs.grow (b := .ptrs []) h0 hane (by rw [Mem.set_none hs0]; exact hafree)
        rw [Mem.set_none hs0] at hg
        refine ⟨a, _, [], rfl, hg, hls, .inr ⟨hane, Mem.set_same _ _ _⟩, fun _ _ => ⟨rfl, fun h _ => ?_⟩⟩
        rw [h] at hpick; cases hpick
    · simp only [List.map_nil] at hcell
      simp only [reallocPtrs, if_neg hrne, hcell, true_and]
      by_cases hre : A.realloc0 = true
      · rw [if_pos hre]
        refine ⟨0, _, [], rfl, ?_, hls, .inl ⟨rfl, rfl⟩, fun _ _ => ⟨rfl, fun _ _ => rfl⟩⟩
        refine ⟨⟨fun x hx => hbs.adds.1 x ?_, fun x hx => ?_⟩, fun h => hls 0 h rfl, fun x hx => ?_⟩
        · simp only [arrBlocks, if_true, List.nil_append] at hx
          simp [hx]
        · simp only [arrBlocks, if_true, List.nil_append] at hx
          by_cases hxr : x = r
          · subst hxr
            simp only [Mem.set_same]
            exact (hbs.adds.1 x (by simp [arrBlocks, hrne])).symm
          · simp only [Mem.set_ne hxr]
            exact hbs.adds.2 x (by simp [arrBlocks, hrne, hxr]; exact hx)
        · have hxr : x ≠ r := fun e => hbs.apart (e ▸ hx)
          simp only [Mem.set_ne hxr]; exact hbs.leaked x hx
      · rw [if_neg hre]
        cases hpick : A.pick s.tick (s.mem.set r none) (.array 0) with
        | none =>
          refine ⟨0, s.mem, [r], rfl, ?_, ?_, .inl ⟨rfl, rfl⟩, ?_⟩
          · refine ⟨⟨fun x hx => hbs.adds.1 x ?_, fun x hx => hbs.adds.2 x ?_⟩, ?_, fun x hx => ?_⟩
            · simpa [arrBlocks, hrne] using hx
            · simpa [arrBlocks, hrne] using hx
            · simp only [List.singleton_append, List.mem_cons, not_or]
              exact ⟨Ne.symm hrne, fun h => hls 0 h rfl⟩
            · simp only [List.singleton_append, List.mem_cons] at hx
              rcases hx with rfl | hx
              · rw [hcell]; simp
              · exact hbs.leaked x hx
          · intro x hx
            simp only [List.singleton_append, List.mem_cons] at hx
            rcases hx with rfl | hx
            · exact hrne
            · exact hls x hx
          · intro hcase hnone
            exfalso
            rcases hcase with h | h | h
            · exact hre h
            · have := h s.tick (s.mem.set r none) (hbs.roomy hr).set_none
              rw [hpick] at this; cases this
            · exact hrne (hnone h trivial)
        | some a =>
          obtain ⟨hane, hafree⟩ := A.sound hpick
          have hg := hbs.grow (b := .ptrs []) h0 hane hafree
          refine ⟨a, _, [], rfl, hg, hls, .inr ⟨hane, Mem.set_same _ _ _⟩,
            fun _ _ => ⟨rfl, fun h _ => ?_⟩⟩
          rw [h] at hpick; cases hpick
  · -- at least one element
    have hnil : ps ++ qs ≠ [] := fun h => hz (by rw [← List.length_append, h]; rfl)
    obtain ⟨k, hk⟩ : ∃ k, ps.length + qs.length = k + 1 := ⟨ps.length + qs.length - 1, by omega⟩
    have hsome := hA s.tick (s.mem.set r none) k (hbs.roomy hr).set_none
    cases hpick : A.pick s.tick (s.mem.set r none) (.array (k + 1)) with
    | none => rw [hpick] at hsome; cases hsome
    | some a =>
      obtain ⟨hane, hafree⟩ := A.sound hpick
      have hre : reallocPtrs A r (ps.length + qs.length) s = .val (a, ⟨(s.mem.set r none).set a
          (some (.ptrs (ps.map some ++ List.replicate qs.length none))), s.tick + 1, s.rs⟩) := by
        rw [hk]
        rcases htgt with ⟨rfl, rfl⟩ | ⟨hrne, hcell⟩
        · have hk' : qs.length = k + 1 := by simpa using hk
          simp only [reallocPtrs, malloc, if_true]
          rw [Mem.set_none hs0] at hpick
          rw [hpick, Mem.set_none hs0]
          simp [hk']
        · simp only [reallocPtrs, if_neg hrne, hcell]
          rw [if_neg (by omega), hpick]
          have e1 : List.take (k + 1) (ps.map some) = ps.map some :=
            List.take_of_length_le (by simp; omega)
          have e2 : k + 1 - (ps.map some).length = qs.length := by simp; omega
          simp only [e1, e2]
      have hg := hbs.grow (b := .ptrs (ps.map some ++ List.replicate qs.length none)) h0 hane hafree
      simp only [mergeFormArray, M.bind_apply, hre]
      rcases hsrc with ⟨rfl, rfl⟩ | ⟨hqne, hqcell⟩
      · simp only [List.length_nil, copyPtrs, M.pure_apply, List.append_nil, Nat.add_zero,
          List.replicate_zero]
        refine ⟨a, _, [], rfl, ?_, hls, .inr ⟨hane, Mem.set_same _ _ _⟩,
          fun _ _ => ⟨rfl, fun _ h => absurd (by simpa using h) hnil⟩⟩
        simpa using hg
      · have hqa : q ≠ a := fun e => hg.apart (e ▸ hq hqne)
        have hqr : q ≠ r := fun e => hbs.apart (e ▸ hq hqne)
        have hcp := copy_run (target := a) (source := q) (ps := ps) (qs := qs) hqa qs []
          ⟨(s.mem.set r none).set a (some (.ptrs (ps.map some ++ List.replicate qs.length none))),
            s.tick + 1, s.rs⟩ rfl
          (by
            show Mem.set _ _ _ _ = _
            rw [Mem.set_ne hqa, Mem.set_ne hqr, hqcell])
          (by
            show Mem.set _ _ _ _ = _
            rw [Mem.set_same]; simp)
        simp only [List.length_nil] at hcp
        rw [hcp]
        simp only [M.pure_apply, Mem.set_set]
        refine ⟨a, _, [], by rw [List.length_append], ?_, hls,
          .inr ⟨hane, Mem.set_same _ _ _⟩, fun _ _ => ⟨rfl, fun _ h => absurd h hnil⟩⟩
        have := hg.write (b := .ptrs ((ps ++ qs).map some)) hane
        rwa [Mem.set_set] at this

/-- What a search that started in memory `m` has done. -/
structure Searched (A : Alloc) (m : Mem) (s : HS) (o : Out ((Addr × Nat) × HS)) (found : List Node)
    (ls : List Addr) : Prop where
  run : ∃ r m' t', o = .val ((r, found.length), ⟨m', t', s.rs⟩) ∧ Beside m m' r ls ∧
    ArrayOrNull m' r (found.map Node.addr)
  nonNull : ∀ x ∈ ls, x ≠ 0

/-- The loop of `IFF_searchFormsInGroup`. -/
theorem searchMembers_run {A : Alloc} (hA : ArraysOk A) {types : List ID} {m : Mem} {p q : Addr}
    {b : Block} {g : Grp} {search : Addr → M HS (Addr × Nat)} (hp : m p = some b)
    (hg : b.grp? = some g) (h0 : m 0 = none) (hr : Roomy m) :
    ∀ (post pre found : List Node) (r : Addr) (ls : List Addr) (s : HS),
      ArrayIn m g.arr ((pre ++ post).map Node.addr) → (∀ c ∈ post, In m q c) →
      (∀ c ∈ post, ∀ s' : HS, (∀ x, m x ≠ none → s'.mem x = m x) → s'.mem 0 = none → Roomy s'.mem →
        ∃ ls', Searched A s'.mem s' (search c.addr s') (outermost types c) ls') →
      Beside m s.mem r ls → (∀ x ∈ ls, x ≠ 0) → ArrayOrNull s.mem r (found.map Node.addr) →
      ∃ ls', Searched A m s (searchMembers A search p post.length pre.length r found.length s)
          (found ++ outermostAll types post) (ls' ++ ls) ∧
        (outermostAll types post ≠ [] → ls' ≠ []) ∧
        ((∀ c ∈ post, ∀ s' : HS, (∀ x, m x ≠ none → s'.mem x = m x) →
            search c.addr s' = .val ((0, 0), s')) → ZeroUsual A →
          ((∀ t m, A.pick t m (.array 0) = none) → found = [] → r = 0) → ls' = []) := by
  intro post
  induction post with
  | nil =>
    intro pre found r ls s _ _ _ hbs hls harr
    refine ⟨[], ⟨⟨r, s.mem, s.tick, ?_, by simpa using hbs, by simpa [outermostAll] using harr⟩,
      by simpa using hls⟩, by simp [outermostAll], fun _ _ _ => rfl⟩
    simp [searchMembers, M.pure_apply, outermostAll]
  | cons c cs ih =>
    intro pre found r ls s hmem hin hsearch hbs hls harr
    obtain ⟨h1, h2⟩ := array_get hmem
    have hold : ∀ {x : Addr} {y : Block}, m x = some y → s.mem x = some y :=
      fun h => (hbs.old (by rw [h]; simp)).trans h
    have hs0 := hbs.null h0 hls
    obtain ⟨lc, ⟨r1, m1, t1, hrun, hb1, harr1⟩, hlc0⟩ := hsearch c (by simp) s
      (fun x hx => hbs.old hx) hs0 (hbs.roomy hr)
    simp only [List.length_cons, searchMembers, M.bind_apply, getGrp_eq (hold hp) hg,
      getPtr_eq (hold h1) h2, hrun]
    -- the memory after the search of the member
    have hm10 : m1 0 = none := hb1.null hs0 hlc0
    have hb : Beside m m1 r (arrBlocks r1 ++ lc ++ ls) := by
      refine ⟨⟨fun x hx => ?_, fun x hx => ?_⟩, ?_, fun x hx => ?_⟩
      · simp only [List.mem_append] at hx
        rcases hx with hx | ((hx | hx) | hx)
        · exact hbs.adds.1 x (by simp [hx])
        · have := hb1.adds.1 x (by simp [hx])
          by_cases hmx : m x = none
          · exact hmx
          · rw [hbs.old hmx] at this; exact absurd this hmx
        · have := hb1.adds.1 x (by simp [hx])
          by_cases hmx : m x = none
          · exact hmx
          · rw [hbs.old hmx] at this; exact absurd this hmx
        · exact hbs.adds.1 x (by simp [hx])
      · simp only [List.mem_append, not_or] at hx
        rw [hb1.adds.2 x (by simp [hx]), hbs.adds.2 x (by simp [hx])]
      · simp only [List.mem_append, not_or]
        refine ⟨?_, hbs.apart⟩
        by_cases hr0 : r = 0
        · subst hr0
          refine ⟨?_, fun h => hlc0 0 h rfl⟩
          simp only [arrBlocks]; split
          · simp
          · rename_i hne; simpa using Ne.symm hne
        · have halloc : s.mem r ≠ none := by
            rcases harr with h | h
            · exact absurd h.1 hr0
            · rw [h.2]; simp
          exact ⟨fun h => halloc (hb1.adds.1 r (by simp [h])),
            fun h => halloc (hb1.adds.1 r (by simp [h]))⟩
      · simp only [List.mem_append] at hx
        rcases hx with (hx | hx) | hx
        · simp only [arrBlocks] at hx
          split at hx
          · cases hx
          · rename_i hne
            simp only [List.mem_singleton] at hx; subst hx
            rcases harr1 with h | h
            · exact absurd h.1 hne
            · rw [h.2]; simp
        · exact hb1.leaked x hx
        · have := hbs.leaked x hx
          rw [hb1.old this]; exact this
    have hls1 : ∀ x ∈ arrBlocks r1 ++ lc ++ ls, x ≠ 0 := by
      intro x hx
      simp only [List.mem_append] at hx
      rcases hx with (hx | hx) | hx
      · simp only [arrBlocks] at hx
        split at hx
        · cases hx
        · simp only [List.mem_singleton] at hx; subst hx; assumption
      · exact hlc0 x hx
      · exact hls x hx
    have htgt : ArrayOrNull m1 r (found.map Node.addr) := by
      rcases harr with h | h
      · exact .inl h
      · exact .inr ⟨h.1, (hb1.old (by rw [h.2]; simp)).trans h.2⟩
    obtain ⟨r2, m2, l2, hm1, hm2, hm3, hm4, hm5⟩ := merge_run hA h0 hr (s := ⟨m1, t1, s.rs⟩) hb hls1
      htgt harr1 (fun h => by simp [arrBlocks, h])
    simp only [List.length_map] at hm1
    rw [hm1]
    simp only
    have hnext : ArrayIn m g.arr ((pre ++ [c] ++ cs).map Node.addr) := by
      rw [List.append_assoc]; exact hmem
    have hfin := ih (pre ++ [c]) (found ++ outermost types c) r2 (l2 ++ (arrBlocks r1 ++ lc ++ ls))
      ⟨m2, t1 + 1, s.rs⟩ hnext (fun d hd => hin d (by simp [hd])) (fun d hd => hsearch d (by simp [hd]))
      hm2 hm3 (by simpa using hm4)
    obtain ⟨l3, ⟨⟨r3, m3, t3, k1, k2, k3⟩, k4⟩, k5, k6⟩ := hfin
    refine ⟨l3 ++ (l2 ++ (arrBlocks r1 ++ lc)), ⟨⟨r3, m3, t3, ?_, ?_, ?_⟩, ?_⟩, ?_, ?_⟩
    · simp only [List.length_append, List.length_singleton, List.length_map] at k1 ⊢
      rw [k1]
      simp [outermostAll, Nat.add_assoc]
    · simpa [List.append_assoc] using k2
    · simpa [outermostAll, List.append_assoc] using k3
    · simpa [List.append_assoc] using k4
    · intro hne h
      simp only [List.append_eq_nil_iff] at h
      obtain ⟨e3, e2, e1, e0⟩ := h
      have hc : outermost types c = [] := by
        rcases harr1 with h | h
        · simpa using h.2
        · exfalso; simp [arrBlocks, h.1] at e1
      refine k5 (fun h => hne ?_) e3
      simp [outermostAll, hc, h]
    · intro hnull hzu hr0
      have hc0 := hnull c (by simp) s fun x hx => hbs.old hx
      rw [hrun] at hc0
      simp only [Out.val.injEq, Prod.mk.injEq] at hc0
      obtain ⟨⟨rfl, hlen⟩, hst⟩ := hc0
      have hc : outermost types c = [] := List.length_eq_zero_iff.mp hlen
      have hm1s : m1 = s.mem := by rw [← hst]
      have e2 := hm5 hzu (fun h1 h2 => hr0 h1 (by simpa using h2))
      have e3 := k6 (fun d hd => hnull d (by simp [hd])) hzu (fun h1 h2 =>
        e2.2 h1 (by simpa using h2))
      have hlc : lc = [] := by
        cases lc with
        | nil => rfl
        | cons x xs =>
          exfalso
          have h1 := hb1.adds.1 x (by simp)
          have h2 := hb1.leaked x (by simp)
          rw [hm1s] at h2; exact h2 h1
      rw [e3, e2.1, hlc]; simp [arrBlocks]

theorem search_plain {A : Alloc} {types : List ID} {n : Nat} {c : Node} {s : HS} {par : Addr}
    (hin : In s.mem par c) (hp : Plain c) :
    searchForms A types (n + 1) c.addr s = .val ((0, 0), s) := by
  obtain ⟨b, h1, h2⟩ := hin.hdr
  obtain ⟨i, hi⟩ : ∃ i, c.chunk.id = i := ⟨_, rfl⟩
  simp only [Plain] at hp
  rw [hi] at h2 hp
  simp only [searchForms, M.bind_apply, getHdr_eq h1 h2]
  rw [if_neg hp.1, if_neg hp.2.1, if_neg hp.2.2]
  rfl

/-- `IFF_searchFormsInGroup`. -/
theorem searchGroup_run {A : Alloc} (hA : ArraysOk A) {types : List ID} {t : Node} {s : HS}
    {par : Addr} {search : Addr → M HS (Addr × Nat)} (ht : Node.IsGroup t) (hin : In s.mem par t)
    (h0 : s.mem 0 = none) (hr : Roomy s.mem)
    (hsearch : ∀ c ∈ t.members, ∀ s' : HS, In s'.mem t.addr c → s'.mem 0 = none → Roomy s'.mem →
      ∃ ls, Searched A s'.mem s' (search c.addr s') (outermost types c) ls) :
    ∃ ls, Searched A s.mem s (searchGroup A search t.addr s) (outermostAll types t.members) ls ∧
      (outermostAll types t.members ≠ [] → ls ≠ []) ∧
      ((∀ c ∈ t.members, ∀ s' : HS, In s'.mem t.addr c → search c.addr s' = .val ((0, 0), s')) →
        ZeroUsual A → ls = []) := by
  have hfr : ∀ c ∈ t.members, ∀ s' : HS, (∀ x, s.mem x ≠ none → s'.mem x = s.mem x) →
      In s'.mem t.addr c := by
    intro c hc s' hs'
    have hcin : In s.mem t.addr c := by
      cases t with
      | raw => exact ht.elim
      | ext => exact ht.elim
      | grp => simp only [In] at hin; exact inAll_iff.mp hin.2.2 c hc
      | lst => simp only [In] at hin; exact inAll_iff.mp hin.2.2.2.1 c hc
    exact hcin.frame fun x hx => hs' x (hcin.mapped x hx)
  have key : ∀ (g : Grp) (b : Block), s.mem t.addr = some b → b.grp? = some g →
      g.len = t.members.length → ArrayIn s.mem g.arr (t.members.map Node.addr) →
      InAll s.mem t.addr t.members → ∃ ls, Searched A s.mem s (searchGroup A search t.addr s)
        (outermostAll types t.members) ls ∧ (outermostAll types t.members ≠ [] → ls ≠ []) ∧
      ((∀ c ∈ t.members, ∀ s' : HS, In s'.mem t.addr c → search c.addr s' = .val ((0, 0), s')) →
        ZeroUsual A → ls = []) := by
    intro g b hb hg hlen harr hall
    have hgr := getGrp_eq hb hg
    obtain ⟨ls, h1, h2, h3⟩ := searchMembers_run hA (types := types) (search := search) hb hg h0 hr
      t.members [] [] 0 [] s harr (inAll_iff.mp hall)
      (fun c hc s' hs' hs0 hsr => hsearch c hc s' (hfr c hc s' hs') hs0 hsr)
      .start (by simp) (.inl ⟨rfl, rfl⟩)
    rw [List.append_nil] at h1
    simp only [List.nil_append] at h1
    refine ⟨ls, ?_, h2, fun h hz => h3 (fun c hc s' hs' => h c hc s' (hfr c hc s' hs')) hz
      fun _ _ => rfl⟩
    have : searchGroup A search t.addr s =
        searchMembers A search t.addr t.members.length 0 0 0 s := by
      simp only [searchGroup, M.bind_apply, hgr, hlen]
    rw [this]; exact h1
  cases t with
  | raw => exact ht.elim
  | ext => exact ht.elim
  | grp a arr i size ty subs =>
    simp only [In] at hin
    exact key _ _ hin.1 rfl rfl hin.2.1 hin.2.2
  | lst a arr parr i size ty subs props =>
    simp only [In] at hin
    exact key _ _ hin.1 rfl rfl hin.2.1 hin.2.2.2.1

/-- `IFF_searchFormsFromArray`. -/
theorem searchForms_run {A : Alloc} (hA : ArraysOk A) {types : List ID} : ∀ (t : Node) (par : Addr)
    (n : Nat) (s : HS), In s.mem par t → s.mem 0 = none → Roomy s.mem → Typed t.chunk →
    depth t.chunk ≤ n →
    ∃ ls, Searched A s.mem s (searchForms A types n t.addr s) (outermost types t) ls ∧
      (Requested types t → ls = []) ∧
      (¬ Requested types t → outermost types t ≠ [] → ls ≠ []) ∧
      ((∀ c ∈ t.members, Plain c) → ZeroUsual A → ls = []) := by
  intro t
  have nothing : ∀ (s : HS) (u : Node) (n : Nat), outermost types u = [] →
      searchForms A types n u.addr s = .val ((0, 0), s) →
      ∃ ls, Searched A s.mem s (searchForms A types n u.addr s) (outermost types u) ls ∧
        (Requested types u → ls = []) ∧
        (¬ Requested types u → outermost types u ≠ [] → ls ≠ []) ∧
        ((∀ c ∈ u.members, Plain c) → ZeroUsual A → ls = []) := by
    intro s u n ho hrun
    refine ⟨[], ⟨⟨0, s.mem, s.tick, ?_, .start, .inl ⟨rfl, by simp [ho]⟩⟩, by simp⟩, fun _ => rfl,
      fun _ h => absurd ho h, fun _ _ => rfl⟩
    rw [hrun, ho]; rfl
  induction t using Node.ind with
  | raw a d id size data =>
    intro par n s hin h0 hr ht hn
    obtain ⟨n, rfl⟩ : ∃ k, n = k + 1 := ⟨n - 1, by simp [Node.chunk, depth] at hn; omega⟩
    refine nothing s _ _ rfl (search_plain hin ?_)
    simp only [Node.chunk] at ht
    cases ht; exact ⟨by assumption, by assumption, by assumption⟩
  | ext a id size vals =>
    intro par n s hin h0 hr ht hn
    obtain ⟨n, rfl⟩ : ∃ k, n = k + 1 := ⟨n - 1, by simp [Node.chunk, depth] at hn; omega⟩
    refine nothing s _ _ rfl (search_plain hin ?_)
    simp only [Node.chunk] at ht
    cases ht; exact ⟨by assumption, by assumption, by assumption⟩
  | grp a arr id size ty subs ih =>
    intro par n s hin h0 hr ht hn
    simp only [Node.chunk, depth] at hn
    obtain ⟨n, rfl⟩ : ∃ k, n = k + 1 := ⟨n - 1, by omega⟩
    simp only [Node.chunk] at ht
    have htm : ∀ c ∈ subs, Typed c.chunk := by
      cases ht with
      | grp _ h => exact fun c hc => h _ (by rw [Node.chunks_eq]; exact List.mem_map.mpr ⟨c, hc, rfl⟩)
    have hdm : ∀ c ∈ subs, depth c.chunk ≤ n := fun c hc =>
      depthAll_le (cs := Node.chunks subs) (by omega) _
        (by rw [Node.chunks_eq]; exact List.mem_map_of_mem hc)
    have hgroup := searchGroup_run hA (types := types) (search := searchForms A types n)
      (t := .grp a arr id size ty subs) trivial hin h0 hr
      (fun c hc s' hs' hs0 hsr => by
        obtain ⟨ls, h1, _⟩ := ih c hc _ n s' hs' hs0 hsr (htm c hc) (hdm c hc)
        exact ⟨ls, h1⟩)
    obtain ⟨ls, h1, h2, h3⟩ := hgroup
    simp only [Node.members] at h1 h2 h3
    have h3' : (∀ c ∈ subs, Plain c) → ZeroUsual A → ls = [] := by
      intro hpl hz
      refine h3 (fun c hc s' hs' => ?_) hz
      cases n with
      | zero =>
        have := hdm c hc
        exfalso
        revert this
        cases c.chunk <;> simp [depth]
      | succ n => exact search_plain hs' (hpl c hc)
    have hhdr := getHdr_eq (s := s) (p := a) (by simp only [In] at hin; exact hin.1)
      (hd := ⟨par, id, size⟩) rfl
    by_cases hform : id = idFORM
    · subst hform
      have hrun : searchForms A types (n + 1) (Node.grp a arr idFORM size ty subs).addr s =
          searchInForm A types (searchForms A types n) a s := by
        simp only [searchForms, M.bind_apply, Node.addr, hhdr]
        rw [if_pos trivial]
      rw [hrun]
      have hgrp := getGrp_eq (s := s) (p := a) (by simp only [In] at hin; exact hin.1)
        (g := ⟨ty, subs.length, arr⟩) rfl
      by_cases hty : ty ∈ types
      · -- a requested form
        have hout : outermost types (.grp a arr idFORM size ty subs) =
            [.grp a arr idFORM size ty subs] := by simp [outermost, hty]
        rw [hout]
        simp only [searchInForm, M.bind_apply, hgrp]
        rw [if_pos hty]
        have hsome := hA s.tick s.mem 0 hr
        cases hpick : A.pick s.tick s.mem (.array 1) with
        | none => rw [hpick] at hsome; cases hsome
        | some r =>
          obtain ⟨hrne, hrfree⟩ := A.sound hpick
          have hreq : Requested types (.grp a arr idFORM size ty subs) := ⟨rfl, ty, hty, rfl⟩
          have hmal : malloc A (.array 1) (.ptrs [none]) s =
              .val (r, ⟨s.mem.set r (some (.ptrs [none])), s.tick + 1, s.rs⟩) := by
            simp [malloc, hpick]
          simp only [M.bind_apply, hmal]
          rw [setPtr_eq (s := ⟨_, _, _⟩) (Mem.set_same _ _ _) (by simp)]
          simp only [M.pure_apply]
          have hb := (Beside.start (m := s.mem)).grow (b := .ptrs [none]) h0 hrne
            (by rw [Mem.set_none h0]; exact hrfree)
          rw [Mem.set_none h0] at hb
          refine ⟨[], ⟨⟨r, _, _, rfl, hb.write hrne, .inr ⟨hrne, Mem.set_same _ _ _⟩⟩, by simp⟩,
            fun _ => rfl, fun h => absurd hreq h, fun _ _ => rfl⟩
      · have hout : outermost types (.grp a arr idFORM size ty subs) = outermostAll types subs := by
          simp [outermost, hty]
        rw [hout]
        have hnreq : ¬ Requested types (.grp a arr idFORM size ty subs) := by
          rintro ⟨_, ty', h1, h2⟩
          simp only [Node.ty?, Option.some.injEq] at h2
          subst h2; exact hty h1
        refine ⟨ls, ?_, fun h => absurd h hnreq, fun _ => h2, h3'⟩
        simp only [searchInForm, M.bind_apply, hgrp]
        rw [if_neg hty]
        exact h1
    · have hnreq : ¬ Requested types (.grp a arr id size ty subs) := fun h => hform h.1
      by_cases hcat : id = idCAT
      · subst hcat
        have hrun : searchForms A types (n + 1) (Node.grp a arr idCAT size ty subs).addr s =
            searchGroup A (searchForms A types n) a s := by
          simp only [searchForms, M.bind_apply, Node.addr, hhdr]
          rw [if_neg (by decide), if_pos trivial]
        have hout : outermost types (.grp a arr idCAT size ty subs) = outermostAll types subs := by
          have : ¬ (idCAT = idFORM ∧ ty ∈ types) := fun h => absurd h.1 (by decide)
          simp [outermost, this]
        rw [hrun, hout]
        exact ⟨ls, h1, fun h => absurd h hnreq, fun _ => h2, h3'⟩
      · -- a PROP
        have hl : id ≠ idLIST := by
          rintro rfl
          cases ht with
          | grp h _ => exact absurd h (by decide)
        refine nothing s _ _ ?_ (search_plain hin ⟨hform, hcat, hl⟩)
        simp [outermost, hform, hcat, hl]
  | lst a arr parr id size ty subs props ih ih2 =>
    intro par n s hin h0 hr ht hn
    simp only [Node.chunk, depth] at hn
    obtain ⟨n, rfl⟩ : ∃ k, n = k + 1 := ⟨n - 1, by omega⟩
    simp only [Node.chunk] at ht
    have hid : id = idLIST := by
      cases ht with
      | lst h _ _ _ => exact h
    subst hid
    have htm : ∀ c ∈ subs, Typed c.chunk := by
      cases ht with
      | lst _ h _ _ =>
        exact fun c hc => h _ (by rw [Node.chunks_eq]; exact List.mem_map.mpr ⟨c, hc, rfl⟩)
    have hdm : ∀ c ∈ subs, depth c.chunk ≤ n := fun c hc =>
      depthAll_le (cs := Node.chunks subs) (by omega) _
        (by rw [Node.chunks_eq]; exact List.mem_map_of_mem hc)
    have hgroup := searchGroup_run hA (types := types) (search := searchForms A types n)
      (t := .lst a arr parr idLIST size ty subs props) trivial hin h0 hr
      (fun c hc s' hs' hs0 hsr => by
        obtain ⟨ls, h1, _⟩ := ih c hc _ n s' hs' hs0 hsr (htm c hc) (hdm c hc)
        exact ⟨ls, h1⟩)
    obtain ⟨ls, h1, h2, h3⟩ := hgroup
    simp only [Node.members] at h1 h2 h3
    have h3' : (∀ c ∈ subs, Plain c) → ZeroUsual A → ls = [] := by
      intro hpl hz
      refine h3 (fun c hc s' hs' => ?_) hz
      cases n with
      | zero =>
        have := hdm c hc
        exfalso
        revert this
        cases c.chunk <;> simp [depth]
      | succ n => exact search_plain hs' (hpl c hc)
    have hhdr := getHdr_eq (s := s) (p := a) (by simp only [In] at hin; exact hin.1)
      (hd := ⟨par, idLIST, size⟩) rfl
    have hnreq : ¬ Requested types (.lst a arr parr idLIST size ty subs props) :=
      fun h => absurd h.1 (by simp only [Node.chunk, Chunk.id]; decide)
    have hrun : searchForms A types (n + 1) (Node.lst a arr parr idLIST size ty subs props).addr s =
        searchGroup A (searchForms A types n) a s := by
      simp only [searchForms, M.bind_apply, Node.addr, hhdr]
      rw [if_neg (by decide), if_neg (by decide), if_pos trivial]
    have hout : outermost types (.lst a arr parr idLIST size ty subs props) =
        outermostAll types subs := by simp [outermost]
    rw [hrun, hout]
    exact ⟨ls, h1, fun h => absurd h hnreq, fun _ => h2, h3'⟩

end Iff.Heap
