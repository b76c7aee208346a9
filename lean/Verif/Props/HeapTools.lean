import Verif.Proofs.HeapTools
/-
  C52 iffpp frees what it reads.
  C53 iffjoin frees what it reads and builds.
-/
namespace Iff
open Spec Heap

/-! ### C52 -/

theorem prettyPrint_rel (A : Alloc) (e : Env) (hg : Grants A e) (m : Mem) (h0 : m 0 = none)
    (f : Source) (disableCheck : Bool) (n : Nat)
    (hn : ∀ bs, f.contents = some bs → bs.length + 4 ≤ n) (tick : Nat) (log : List Msg) :
    (∃ x t' log', Heap.prettyPrint A e n f disableCheck ⟨m, tick, log⟩ = .val (x, ⟨m, t', log'⟩) ∧
      (prettyPrint e f disableCheck log = .val (x, log') ∨ (Roomy m → ¬ Total A e))) ∨
    (∃ u, Heap.prettyPrint A e n f disableCheck ⟨m, tick, log⟩ = .ub u ∧
      (prettyPrint e f disableCheck log = .ub u ∨ (Roomy m → ¬ Total A e))) ∨
    (Heap.prettyPrint A e n f disableCheck ⟨m, tick, log⟩ = .loop ∧
      prettyPrint e f disableCheck log = .loop) := by
  unfold Heap.prettyPrint prettyPrint
  rw [M.bind_apply, M.bind_apply]
  rcases lib_readFile (tick := tick) (log := log) hg h0 f hn with ⟨t', log', h1, h2⟩ |
    ⟨t, ⟨m', t', l'⟩, h1, hz, hh, hr, hd, h2⟩ | ⟨u, h1, h2⟩ | ⟨h1, h2⟩
  · rw [h1]
    refine .inl ⟨(1, []), t', log', rfl, ?_⟩
    rcases h2 with h2 | h2
    · rw [h2]; exact .inl rfl
    · exact .inr h2
  · rw [h1, h2]
    have hfree := fun (tick : Nat) (log : List Msg) =>
      lib_free (tick := tick) (log := log) hh h0 hr (n := n) hd
    have hpr := fun (tick : Nat) (log : List Msg) =>
      printed_eq (tick := tick) (log := log) hh.isIn (n := n) hd
    dsimp only
    rw [if_neg hz]
    cases disableCheck with
    | true =>
      simp only [if_true, M.bind_apply, M.pure_apply]
      rw [hpr]
      cases print none 0 t.chunk with
      | val out =>
        simp only [hfree, M.ofOut_val]
        exact .inl ⟨_, _, _, rfl, .inl rfl⟩
      | ub u => exact .inr (.inl ⟨u, rfl, .inl rfl⟩)
      | loop => exact .inr (.inr ⟨rfl, rfl⟩)
    | false =>
      simp only [Bool.false_eq_true, if_false, M.bind_apply]
      rw [C50_check e none m' 0 t hh.isIn n hd]
      cases check e none t.chunk l' with
      | ub u => exact .inr (.inl ⟨u, rfl, .inl rfl⟩)
      | loop => exact .inr (.inr ⟨rfl, rfl⟩)
      | val y =>
        obtain ⟨b, l2⟩ := y
        simp only [keeping]
        cases b with
        | false =>
          simp only [Bool.false_eq_true, if_false, M.bind_apply, hfree, M.pure_apply]
          exact .inl ⟨_, _, _, rfl, .inl rfl⟩
        | true =>
          simp only [if_true, M.bind_apply]
          rw [hpr]
          cases print none 0 t.chunk with
          | val out =>
            simp only [hfree, M.ofOut_val]
            exact .inl ⟨_, _, _, rfl, .inl rfl⟩
          | ub u => exact .inr (.inl ⟨u, rfl, .inl rfl⟩)
          | loop => exact .inr (.inr ⟨rfl, rfl⟩)
  · rw [h1]
    refine .inr (.inl ⟨u, rfl, ?_⟩)
    rcases h2 with h2 | h2
    · rw [h2]; exact .inl rfl
    · exact .inr h2
  · rw [h1, h2]
    exact .inr (.inr ⟨rfl, rfl⟩)

/-- C52: whatever the file contains, with and without the check, and whatever requests the allocator
refuses: whenever iffpp comes to an end, it has freed all it allocated, and nothing else.  (`Grants`
only relates `e` to the allocator: the tool itself does not look at `e.mallocOk`.  `n` is the stack
depth of the recursive functions.) -/
theorem C52_frees_everything (A : Alloc) (e : Env) (hg : Grants A e) (m : Mem) (h0 : m 0 = none)
    (f : Source) (disableCheck : Bool) (n : Nat)
    (hn : ∀ bs, f.contents = some bs → bs.length + 4 ≤ n) (tick : Nat) (log : List Msg)
    (x : Nat × List Byte) (s' : TS)
    (h : Heap.prettyPrint A e n f disableCheck ⟨m, tick, log⟩ = .val (x, s')) : s'.mem = m := by
  rcases prettyPrint_rel A e hg m h0 f disableCheck n hn tick log with ⟨x', t', log', h1, _⟩ |
    ⟨u, h1, _⟩ | ⟨h1, _⟩
  · rw [h1] at h; cases h; rfl
  · rw [h1] at h; cases h
  · rw [h1] at h; cases h

/-- C52: if no request is refused (beyond those that `mallocOk` refuses), the status, the output, the
diagnostics and the undefined behaviour are those of the tool on values, to which C31 applies. -/
theorem C52_same_result (A : Alloc) (e : Env) (hA : Total A e) (m : Mem) (h0 : m 0 = none)
    (hr : Roomy m) (f : Source) (disableCheck : Bool) (n : Nat)
    (hn : ∀ bs, f.contents = some bs → bs.length + 4 ≤ n) (tick : Nat) (log : List Msg) :
    ∃ tick', Heap.prettyPrint A e n f disableCheck ⟨m, tick, log⟩ =
      keeping m tick' (prettyPrint e f disableCheck log) := by
  rcases prettyPrint_rel A e hA.grants m h0 f disableCheck n hn tick log with
    ⟨x', t', log', h1, h2 | h2⟩ | ⟨u, h1, h2 | h2⟩ | ⟨h1, h2⟩
  · exact ⟨t', by rw [h1, h2]; rfl⟩
  · exact absurd hA (h2 hr)
  · exact ⟨tick, by rw [h1, h2]; rfl⟩
  · exact absurd hA (h2 hr)
  · exact ⟨tick, by rw [h1, h2]; rfl⟩

/-! ### C53 -/

/-- `IFF_read` returns a hierarchy for the contents of this file. -/
def Readable (e : Env) (f : Source) : Prop :=
  ∃ bs c s', f.contents = some bs ∧ readFd e none ⟨bs, []⟩ = .val (some c, s')

/-- `IFF_read` returns the hierarchy `c` for the contents of this file, and `IFF_check` rejects it. -/
def Rejects (e : Env) (f : Source) (c : Chunk) : Prop :=
  ∃ bs, f.contents = some bs ∧ (∃ s', readFd e none ⟨bs, []⟩ = .val (some c, s')) ∧
    ∃ log, check e none c [] = .val (false, log)

theorem joinInputs_rel {A : Alloc} {e : Env} (hg : Grants A e) {m₀ : Mem} (h0 : m₀ 0 = none)
    {n : Nat} : ∀ (files : List Source),
    (∀ f ∈ files, ∀ bs, f.contents = some bs → bs.length + 5 ≤ n) →
    ∀ (g : Node) (m : Mem) (tick : Nat) (log : List Msg), Joining m₀ m n g →
    (∃ g' m' t' log', Heap.joinInputs A e n g.addr files ⟨m, tick, log⟩ =
        .val (true, ⟨m', t', log'⟩) ∧ Joining m₀ m' n g' ∧ g'.addr = g.addr ∧
      joinInputs e g.chunk files log = .val (some g'.chunk, log')) ∨
    (∃ t' log', Heap.joinInputs A e n g.addr files ⟨m, tick, log⟩ = .val (false, ⟨m₀, t', log'⟩) ∧
      (joinInputs e g.chunk files log = .val (none, log') ∧ (∃ f ∈ files, ¬ Readable e f) ∨
        (Roomy m₀ → ¬ Total A e))) ∨
    (∃ c m' t' log', Heap.joinInputs A e n g.addr files ⟨m, tick, log⟩ =
        .val (false, ⟨m', t', log'⟩) ∧ Holds m₀ m' c ∧ (∃ f ∈ files, Rejects e f c.chunk) ∧
      joinInputs e g.chunk files log = .val (none, log')) ∨
    (∃ u, Heap.joinInputs A e n g.addr files ⟨m, tick, log⟩ = .ub u ∧
      (joinInputs e g.chunk files log = .ub u ∨ (Roomy m₀ → ¬ Total A e))) ∨
    (Heap.joinInputs A e n g.addr files ⟨m, tick, log⟩ = .loop ∧
      joinInputs e g.chunk files log = .loop) := by
  intro files
  induction files with
  | nil =>
    intro _ g m tick log hj
    exact .inl ⟨g, m, tick, log, rfl, hj, rfl, rfl⟩
  | cons f fs ih =>
    intro hn g m tick log hj
    have ih := ih fun f' hf' => hn f' (List.mem_cons_of_mem _ hf')
    have h0m : m 0 = none := by
      rw [hj.holds.adds.2 0 hj.holds.nonNull, h0]
    have hroom : Roomy m₀ → Roomy m := fun h => Roomy.of_adds h hj.holds.adds
    have hk : ∀ bs, f.contents = some bs → bs.length + 4 ≤ n - 1 := fun bs hb => by
      have := hn f (by simp) bs hb
      omega
    rw [Heap.joinInputs, joinInputs, M.bind_apply, M.bind_apply]
    rcases lib_readFile (tick := tick) (log := log) hg h0m f hk with ⟨t', log', h1, h2⟩ |
      ⟨t, ⟨m', t', l'⟩, h1, hz, hh, hr, hd, h2⟩ | ⟨u, h1, h2⟩ | ⟨h1, h2⟩
    · rw [h1]
      have hfree := lib_free (tick := t') (log := log') hj.holds h0 hj.released hj.depth
      simp only [if_true, M.bind_apply, M.pure_apply, Bool.false_eq_true, if_false, hfree]
      refine .inr (.inl ⟨t', log', rfl, ?_⟩)
      rcases h2 with h2 | h2
      · rw [h2]
        refine .inl ⟨rfl, f, by simp, ?_⟩
        rintro ⟨bs, c, s', hb, hs⟩
        exact readFile_none h2 bs s' c hb hs
      · exact .inr fun h => h2 (hroom h)
    · rw [h1, h2]
      obtain ⟨bs, sr, hb, hs⟩ := readFile_val h2
      have hpos : depth t.chunk + 1 ≤ n := by
        have := hn f (by simp) bs hb
        omega
      dsimp only
      rw [if_neg hz]
      simp only [M.bind_apply]
      rw [C50_check e none m' 0 t hh.isIn n (by omega)]
      cases hc : check e none t.chunk l' with
      | ub u => exact .inr (.inr (.inr (.inl ⟨u, rfl, .inl rfl⟩)))
      | loop => exact .inr (.inr (.inr (.inr ⟨rfl, rfl⟩)))
      | val y =>
        obtain ⟨b, l2⟩ := y
        simp only [keeping]
        cases b with
        | false =>
          obtain ⟨m2, hf, hh2⟩ := lib_free_leaving (tick := t') (log := l2) h0 hj hh
          simp only [Bool.false_eq_true, if_false, M.bind_apply, hf, M.pure_apply]
          refine .inr (.inr (.inl ⟨t, m2, t', l2, rfl, hh2, ⟨f, by simp, bs, hb, ⟨sr, hs⟩, ?_⟩, rfl⟩))
          exact check_val hc
        | true =>
          simp only [if_true, M.bind_apply]
          rcases lib_add (A := A) (e := e) (tick := t') (log := l2) h0 hj hh hr hpos with
            ⟨g', m2, t2, h3, h4, h5, h6⟩ | ⟨u, h3, h4⟩
          · rw [h3, h6, ← h5]
            simp only [M.ofOut_val]
            rcases ih g' m2 t2 l2 h4 with ⟨g'', m3, t3, l3, k1, k2, k3, k4⟩ | ⟨t3, l3, k1, k2⟩ |
              ⟨c, m3, t3, l3, k1, k2, ⟨f', hf', k3⟩, k4⟩ | ⟨u, k1, k2⟩ | ⟨k1, k2⟩
            · exact .inl ⟨g'', m3, t3, l3, k1, k2, k3, k4⟩
            · refine .inr (.inl ⟨t3, l3, k1, ?_⟩)
              rcases k2 with ⟨k2, f', hf', k3⟩ | k2
              · exact .inl ⟨k2, f', List.mem_cons_of_mem _ hf', k3⟩
              · exact .inr k2
            · exact .inr (.inr (.inl ⟨c, m3, t3, l3, k1, k2,
                ⟨f', List.mem_cons_of_mem _ hf', k3⟩, k4⟩))
            · exact .inr (.inr (.inr (.inl ⟨u, k1, k2⟩)))
            · exact .inr (.inr (.inr (.inr ⟨k1, k2⟩)))
          · rw [h3]
            refine .inr (.inr (.inr (.inl ⟨u, rfl, ?_⟩)))
            rcases h4 with h4 | h4
            · rw [h4]; exact .inl rfl
            · exact .inr h4
    · rw [h1]
      refine .inr (.inr (.inr (.inl ⟨u, rfl, ?_⟩)))
      rcases h2 with h2 | h2
      · rw [h2]; exact .inl rfl
      · exact .inr fun h => h2 (hroom h)
    · rw [h1, h2]
      exact .inr (.inr (.inr (.inr ⟨rfl, rfl⟩)))

/-- The concatenation that `IFF_join` starts with. -/
theorem joining_start {m m' : Mem} {p : Addr} {n : Nat} (hn : 1 ≤ n)
    (h : Holds m m' (.grp p 0 idCAT 4 idJJJJ [])) : Joining m m' n (.grp p 0 idCAT 4 idJJJJ []) := by
  refine ⟨h, ?_, trivial, ?_⟩
  · simp only [Node.chunk, Node.chunks]
    exact .grp (Or.inr (Or.inl rfl)) fun c hc => by cases hc
  · simp only [Node.chunk, Node.chunks, depth, depthAll]
    omega

/-- Without a concatenation `IFF_join` does not return. -/
theorem joinInputs_null {A : Alloc} {e : Env} (hg : Grants A e) {n : Nat} : ∀ (files : List Source)
    (m : Mem) (tick : Nat) (log : List Msg) (b : Bool) (s' : TS), m 0 = none →
    (∀ f ∈ files, ∀ bs, f.contents = some bs → bs.length + 5 ≤ n) →
    Heap.joinInputs A e n 0 files ⟨m, tick, log⟩ = .val (b, s') → s' = ⟨m, tick, log⟩ ∧ b = true := by
  intro files m tick log b s' h0 hn h
  cases files with
  | nil => cases h; exact ⟨rfl, rfl⟩
  | cons f fs =>
    exfalso
    rw [Heap.joinInputs, M.bind_apply] at h
    rcases lib_readFile (tick := tick) (log := log) hg h0 f (k := n) (fun bs hb => by
      have := hn f (by simp) bs hb
      omega) with ⟨t', log', h1, h2⟩ | ⟨t, ⟨m', t', l'⟩, h1, hz, hh, hr, hd, h2⟩ | ⟨u, h1, h2⟩ | ⟨h1, h2⟩
    · rw [h1] at h
      simp only [if_true, M.bind_apply, M.pure_apply, Bool.false_eq_true, if_false] at h
      cases hx : lib (iffFree none n 0) ⟨m, t', log'⟩ with
      | val x => exact lib_free_null h0 x hx
      | ub u => rw [hx] at h; cases h
      | loop => rw [hx] at h; cases h
    · have h0' : m' 0 = none := (hh.adds.2 0 hh.nonNull).trans h0
      rw [h1] at h
      dsimp only at h
      rw [if_neg hz] at h
      simp only [M.bind_apply] at h
      rw [C50_check e none m' 0 t hh.isIn n hd] at h
      cases hc : check e none t.chunk l' with
      | ub u => rw [hc] at h; cases h
      | loop => rw [hc] at h; cases h
      | val y =>
        obtain ⟨b', l2⟩ := y
        rw [hc] at h
        simp only [keeping] at h
        cases b' with
        | false =>
          simp only [Bool.false_eq_true, if_false, M.bind_apply] at h
          cases hx : lib (iffFree none n 0) ⟨m', t', l2⟩ with
          | val x => exact lib_free_null h0' x hx
          | ub u => rw [hx] at h; cases h
          | loop => rw [hx] at h; cases h
        | true =>
          simp only [if_true, M.bind_apply] at h
          have hadd : ∀ x, lib (Heap.addAndUpdate A e 0 t.addr) ⟨m', t', l2⟩ ≠ .val x := by
            intro x hx
            unfold lib at hx
            cases ha : Heap.addAndUpdate A e 0 t.addr ⟨m', t', ⟨[], l2⟩⟩ with
            | val y => exact add_null h0' y ha
            | ub u => rw [ha] at hx; cases hx
            | loop => rw [ha] at hx; cases hx
          cases hx : lib (Heap.addAndUpdate A e 0 t.addr) ⟨m', t', l2⟩ with
          | val x => exact hadd x hx
          | ub u => rw [hx] at h; cases h
          | loop => rw [hx] at h; cases h
    · rw [h1] at h; cases h
    · rw [h1] at h; cases h

theorem writeFile_keeps {A : Alloc} {e : Env} {reg : Option Registry} {n : Nat} {p : Addr} {d : Dest}
    {s s' : TS} {x : Bool × Option (List Byte)} (h : Heap.writeFile A e reg n p d s = .val (x, s')) :
    s'.mem = s.mem := by
  unfold Heap.writeFile at h
  split at h
  · cases hw : Heap.writeFd A e reg n p ⟨s.mem, s.tick, ⟨[], d.cap + d.slack, s.st⟩⟩ with
    | val y =>
      obtain ⟨ok, h'⟩ := y
      rw [hw] at h
      have := C51_memory_unchanged A e reg n p _ h' ok hw
      cases h
      exact this
    | ub u => rw [hw] at h; cases h
    | loop => rw [hw] at h; cases h
  · cases h; rfl

theorem join_null {A : Alloc} {e : Env} (hg : Grants A e) {m : Mem} (h0 : m 0 = none)
    {files : List Source} {d : Dest} {n : Nat}
    (hn : ∀ f ∈ files, ∀ bs, f.contents = some bs → bs.length + 5 ≤ n) {tick : Nat} {log : List Msg}
    {x : (Nat × Option (List Byte)) × TS} :
    (do
      if ← Heap.joinInputs A e n 0 files then
        let (ok, out) ← Heap.writeFile A e none n 0 d
        lib (iffFree none n 0)
        pure (if ok then 0 else 1, out)
      else pure (1, none) : M TS (Nat × Option (List Byte))) ⟨m, tick, log⟩ ≠ .val x := by
  intro h
  rw [M.bind_apply] at h
  cases hi : Heap.joinInputs A e n 0 files ⟨m, tick, log⟩ with
  | ub u => rw [hi] at h; cases h
  | loop => rw [hi] at h; cases h
  | val y =>
    obtain ⟨b, s'⟩ := y
    obtain ⟨rfl, rfl⟩ := joinInputs_null hg files m tick log b s' h0 hn hi
    rw [hi] at h
    simp only [if_true, M.bind_apply] at h
    cases hw : Heap.writeFile A e none n 0 d ⟨m, tick, log⟩ with
    | ub u => rw [hw] at h; cases h
    | loop => rw [hw] at h; cases h
    | val y =>
      obtain ⟨⟨ok, out⟩, ⟨m3, t3, l3⟩⟩ := y
      have hm := writeFile_keeps hw
      simp only at hm
      subst hm
      rw [hw] at h
      simp only [M.bind_apply] at h
      cases hx : lib (iffFree none n 0) ⟨m3, t3, l3⟩ with
      | val x => exact lib_free_null h0 x hx
      | ub u => rw [hx] at h; cases h
      | loop => rw [hx] at h; cases h

/-- C53, what holds for every allocator: when iffjoin comes to an end, it has freed all it allocated,
and nothing else, or else it exits with status 1 without having opened the destination, and what is
left is exactly one input that was read and rejected.  Missing: the case that the input is rejected,
for which the claim is false (`C53_leaks`), and that it ends at all when the first request is refused,
which is false, too (`C53_refused`). -/
theorem C53_frees_partial (A : Alloc) (e : Env) (hg : Grants A e) (m : Mem) (h0 : m 0 = none)
    (files : List Source) (d : Dest) (n : Nat) (hn1 : 1 ≤ n)
    (hn : ∀ f ∈ files, ∀ bs, f.contents = some bs → bs.length + 5 ≤ n) (tick : Nat) (log : List Msg)
    (x : Nat × Option (List Byte)) (s' : TS)
    (h : Heap.join A e n files d ⟨m, tick, log⟩ = .val (x, s')) :
    s'.mem = m ∨
    x = (1, none) ∧ ∃ c, Holds m s'.mem c ∧ ∃ f ∈ files, Rejects e f c.chunk := by
  unfold Heap.join at h
  rw [M.bind_apply] at h
  rcases createGroup_spec (A := A) (id := idCAT) (ty := idJJJJ) (s := ⟨m, tick, ⟨[], log⟩⟩) with
    ⟨_, h1⟩ | ⟨p, m', hp, h1, hh⟩
  · have h1' : lib (Heap.createEmptyGroup A idCAT idJJJJ) ⟨m, tick, log⟩ = .val (0, ⟨m, tick + 1, log⟩) := by
      unfold lib; rw [h1]
    rw [h1'] at h
    exact absurd h (join_null hg h0 hn)
  · have h1' : lib (Heap.createEmptyGroup A idCAT idJJJJ) ⟨m, tick, log⟩ = .val (p, ⟨m', tick + 1, log⟩) := by
      unfold lib; rw [h1]
    rw [h1'] at h
    simp only [M.bind_apply] at h
    have hj := joining_start hn1 hh
    rcases joinInputs_rel hg h0 files hn _ m' (tick + 1) log hj with
      ⟨g', m2, t2, l2, k1, k2, k3, k4⟩ | ⟨t2, l2, k1, k2⟩ | ⟨c, m2, t2, l2, k1, k2, k3, k4⟩ |
      ⟨u, k1, k2⟩ | ⟨k1, k2⟩
    · rw [Node.addr] at k1 k3
      rw [k1] at h
      simp only [if_true, M.bind_apply] at h
      cases hw : Heap.writeFile A e none n p d ⟨m2, t2, l2⟩ with
      | ub u => rw [hw] at h; cases h
      | loop => rw [hw] at h; cases h
      | val y =>
        obtain ⟨⟨ok, out⟩, ⟨m3, t3, l3⟩⟩ := y
        have hm := writeFile_keeps hw
        simp only at hm
        subst hm
        rw [hw] at h
        have hfree := lib_free (tick := t3) (log := l3) k2.holds h0 k2.released k2.depth
        rw [k3] at hfree
        simp only [M.bind_apply, hfree, M.pure_apply] at h
        cases h
        exact .inl rfl
    · rw [Node.addr] at k1
      rw [k1] at h
      simp only [Bool.false_eq_true, if_false, M.pure_apply] at h
      cases h
      exact .inl rfl
    · rw [Node.addr] at k1
      rw [k1] at h
      simp only [Bool.false_eq_true, if_false, M.pure_apply] at h
      cases h
      exact .inr ⟨rfl, c, k2, k3⟩
    · rw [Node.addr] at k1
      rw [k1] at h; cases h
    · rw [Node.addr] at k1
      rw [k1] at h; cases h

/-- C53: an iffjoin that succeeds has freed everything. -/
theorem C53_frees_on_success (A : Alloc) (e : Env) (hg : Grants A e) (m : Mem) (h0 : m 0 = none)
    (files : List Source) (d : Dest) (n : Nat) (hn1 : 1 ≤ n)
    (hn : ∀ f ∈ files, ∀ bs, f.contents = some bs → bs.length + 5 ≤ n) (tick : Nat) (log : List Msg)
    (out : Option (List Byte)) (s' : TS)
    (h : Heap.join A e n files d ⟨m, tick, log⟩ = .val ((0, out), s')) : s'.mem = m := by
  rcases C53_frees_partial A e hg m h0 files d n hn1 hn tick log _ s' h with h | ⟨h, _⟩
  · exact h
  · cases h

/-- C53: the result of `IFF_createEmptyCAT` is not checked.  If the allocator refuses it, iffjoin does
not come to an end, whatever the inputs: it dereferences the NULL pointer at the latest when it frees
the concatenation. -/
theorem C53_refused (A : Alloc) (e : Env) (hg : Grants A e) (m : Mem) (h0 : m 0 = none)
    (files : List Source) (d : Dest) (n : Nat)
    (hn : ∀ f ∈ files, ∀ bs, f.contents = some bs → bs.length + 5 ≤ n) (tick : Nat) (log : List Msg)
    (hA : A.pick tick m (.struct .grp) = none) (x : (Nat × Option (List Byte)) × TS) :
    Heap.join A e n files d ⟨m, tick, log⟩ ≠ .val x := by
  unfold Heap.join
  rw [M.bind_apply]
  rcases createGroup_spec (A := A) (id := idCAT) (ty := idJJJJ) (s := ⟨m, tick, ⟨[], log⟩⟩) with
    ⟨_, h1⟩ | ⟨p, m', hp, h1, hh⟩
  · have h1' : lib (Heap.createEmptyGroup A idCAT idJJJJ) ⟨m, tick, log⟩ =
        .val (0, ⟨m, tick + 1, log⟩) := by
      unfold lib; rw [h1]
    rw [h1']
    exact join_null hg h0 hn
  · have h2 := createGroup_refused (id := idCAT) (ty := idJJJJ) (s := ⟨m, tick, ⟨[], log⟩⟩) hA
    rw [h1] at h2
    cases h2
    exact absurd rfl hp

/-- The outcome of the loop, if no request is refused. -/
theorem join_rel (A : Alloc) (e : Env) (hA : Total A e) (hm : ∀ k < 2147483648, e.mallocOk k = true) (m : Mem)
    (h0 : m 0 = none) (hr : Roomy m) (files : List Source) (d : Dest) (n : Nat) (hn1 : 1 ≤ n)
    (hn : ∀ f ∈ files, ∀ bs, f.contents = some bs → bs.length + 5 ≤ n) (tick : Nat)
    (log : List Msg) :
    (∃ tick', Heap.join A e n files d ⟨m, tick, log⟩ = keeping m tick' (join e files d log) ∧
      (∀ log', joinInputs e createEmptyCAT files log = .val (none, log') →
        ∃ f ∈ files, ¬ Readable e f)) ∨
    ∃ c s', Heap.join A e n files d ⟨m, tick, log⟩ = .val ((1, none), s') ∧ Holds m s'.mem c ∧
      (∃ f ∈ files, Rejects e f c.chunk) ∧ join e files d log = .val ((1, none), s'.st) := by
  unfold Heap.join join
  rw [M.bind_apply, M.bind_apply]
  rcases createGroup_spec (A := A) (id := idCAT) (ty := idJJJJ) (s := ⟨m, tick, ⟨[], log⟩⟩) with
    ⟨h1, _⟩ | ⟨p, m', hp, h1, hh⟩
  · have := hA.struct tick m .grp hr
    simp only at h1
    rw [h1] at this
    cases this
  have h1' : lib (Heap.createEmptyGroup A idCAT idJJJJ) ⟨m, tick, log⟩ =
      .val (p, ⟨m', tick + 1, log⟩) := by
    unfold lib; rw [h1]
  rw [h1']
  simp only [M.bind_apply]
  have hj := joining_start hn1 hh
  have hrel := joinInputs_rel hA.grants h0 files hn _ m' (tick + 1) log hj
  rw [Node.addr, show (Node.grp p 0 idCAT 4 idJJJJ []).chunk = createEmptyCAT from rfl] at hrel
  rcases hrel with
    ⟨g', m2, t2, l2, k1, k2, k3, k4⟩ | ⟨t2, l2, k1, k2⟩ | ⟨c, m2, t2, l2, k1, k2, k3, k4⟩ |
    ⟨u, k1, k2⟩ | ⟨k1, k2⟩
  · rw [k1, k4]
    simp only [if_true, M.bind_apply]
    have hroom : Roomy m2 := Roomy.of_adds hr k2.holds.adds
    have hfree := fun (t3 : Nat) (l3 : List Msg) =>
      lib_free (tick := t3) (log := l3) k2.holds h0 k2.released k2.depth
    rw [k3] at hfree
    have hno : ∀ log', Out.val (some g'.chunk, l2) = .val (none, log') →
      ∃ f ∈ files, ¬ Readable e f := fun log' h => by cases h
    unfold Heap.writeFile writeFile
    by_cases ho : d.opens = true
    · rw [if_pos ho, if_pos ho]
      obtain ⟨t3, hw⟩ := C51_write_partial A e none m2 0 g' k2.holds.isIn
        (fun t k _ hk => hA.data t m2 k hroom (hm k hk)) n k2.depth t2 ⟨[], d.cap + d.slack, l2⟩
      rw [k3] at hw
      rw [hw]
      cases writeFd e none g'.chunk ⟨[], d.cap + d.slack, l2⟩ with
      | val y =>
        obtain ⟨ok, w⟩ := y
        simp only [keeping, M.bind_apply, hfree, M.pure_apply]
        exact .inl ⟨t3, rfl, hno⟩
      | ub u => exact .inl ⟨t3, rfl, hno⟩
      | loop => exact .inl ⟨t3, rfl, hno⟩
    · rw [if_neg ho, if_neg ho]
      simp only [M.bind_apply, hfree, M.pure_apply]
      exact .inl ⟨t2, rfl, hno⟩
  · rw [k1]
    rcases k2 with ⟨k2, k3⟩ | k2
    · rw [k2]
      exact .inl ⟨t2, rfl, fun _ _ => k3⟩
    · exact absurd hA (k2 hr)
  · rw [k1, k4]
    exact .inr ⟨c, ⟨m2, t2, l2⟩, rfl, k2, k3, rfl⟩
  · rw [k1]
    rcases k2 with k2 | k2
    · rw [k2]
      exact .inl ⟨tick, rfl, fun _ h => by cases h⟩
    · exact absurd hA (k2 hr)
  · rw [k1, k2]
    exact .inl ⟨tick, rfl, fun _ h => by cases h⟩

/-- C53: if no request is refused, the status, the destination, the diagnostics and the undefined
behaviour are those of the tool on values, to which C30 applies. -/
theorem C53_same_result (A : Alloc) (e : Env) (hA : Total A e) (hm : ∀ k < 2147483648, e.mallocOk k = true)
    (m : Mem) (h0 : m 0 = none) (hr : Roomy m) (files : List Source) (d : Dest) (n : Nat)
    (hn1 : 1 ≤ n) (hn : ∀ f ∈ files, ∀ bs, f.contents = some bs → bs.length + 5 ≤ n) (tick : Nat)
    (log : List Msg) :
    ∃ m' tick', Heap.join A e n files d ⟨m, tick, log⟩ = keeping m' tick' (join e files d log) := by
  rcases join_rel A e hA hm m h0 hr files d n hn1 hn tick log with ⟨t', h, _⟩ |
    ⟨c, s', h1, _, _, h2⟩
  · exact ⟨m, t', h⟩
  · exact ⟨s'.mem, s'.tick, by rw [h1, h2]; rfl⟩

/-- C53, all inputs valid: under the conditions of C30 iffjoin writes the CAT of the inputs and frees
everything. -/
theorem C53_joins (A : Alloc) (e : Env) (he : e.Sane) (hA : Total A e)
    (hm : ∀ k < 2147483648, e.mallocOk k = true) (m : Mem) (h0 : m 0 = none) (hr : Roomy m) (files : List Source)
    (inputs : List (List Byte × Chunk))
    (hfiles : files.map Source.contents = inputs.map (fun i => some i.1))
    (hacc : ∀ i ∈ inputs, i.1.length < 2147483648 ∧ Accepts e i.1 i.2)
    (hfit : 12 + (encodeAll (inputs.map Prod.snd)).length < 2147483648)
    (d : Dest) (ho : d.opens = true) (hroom : 12 + (encodeAll (inputs.map Prod.snd)).length ≤ d.cap)
    (n : Nat) (hn1 : 1 ≤ n) (hn : ∀ f ∈ files, ∀ bs, f.contents = some bs → bs.length + 5 ≤ n)
    (tick : Nat) (log : List Msg) :
    ∃ ty size tick' log', Heap.join A e n files d ⟨m, tick, log⟩ =
      .val ((0, some (encode (.grp idCAT size ty (inputs.map Prod.snd)))), ⟨m, tick', log'⟩) := by
  obtain ⟨ty, size, log', h, _⟩ := C30_joins_partial e he files inputs hfiles hacc hfit d ho hroom log
  obtain ⟨m', tick', h'⟩ := C53_same_result A e hA hm m h0 hr files d n hn1 hn tick log
  rw [h] at h'
  have := C53_frees_on_success A e hA.grants m h0 files d n hn1 hn tick log _ _ h'
  subst this
  exact ⟨ty, size, tick', log', h'⟩

/-- C53 is false: `IFF_join` does not free an input that `IFF_check` rejects.  Whenever all inputs can
be read, and iffjoin gives up though the destination could be opened, a rejected input stays
allocated. -/
theorem C53_leaks (A : Alloc) (e : Env) (hA : Total A e) (hm : ∀ k < 2147483648, e.mallocOk k = true)
    (m : Mem) (h0 : m 0 = none) (hr : Roomy m) (files : List Source) (d : Dest) (n : Nat)
    (hn1 : 1 ≤ n) (hn : ∀ f ∈ files, ∀ bs, f.contents = some bs → bs.length + 5 ≤ n) (tick : Nat)
    (log log' : List Msg) (hread : ∀ f ∈ files, Readable e f) (ho : d.opens = true)
    (hj : join e files d log = .val ((1, none), log')) :
    ∃ c s', Heap.join A e n files d ⟨m, tick, log⟩ = .val ((1, none), s') ∧
      (∃ f ∈ files, Rejects e f c.chunk) ∧ Holds m s'.mem c ∧ s'.mem ≠ m := by
  rcases join_rel A e hA hm m h0 hr files d n hn1 hn tick log with ⟨t', h, hno⟩ |
    ⟨c, s', h1, h2, h3, _⟩
  · exfalso
    unfold join at hj
    rw [M.bind_apply] at hj
    cases hi : joinInputs e createEmptyCAT files log with
    | ub u => rw [hi] at hj; cases hj
    | loop => rw [hi] at hj; cases hj
    | val y =>
      obtain ⟨oc, l2⟩ := y
      cases oc with
      | none =>
        obtain ⟨f, hf, hnr⟩ := hno l2 hi
        exact hnr (hread f hf)
      | some cat =>
        rw [hi] at hj
        simp only [M.bind_apply] at hj
        unfold writeFile at hj
        rw [if_pos ho] at hj
        cases hw : writeFd e none cat ⟨[], d.cap + d.slack, l2⟩ with
        | ub u => rw [hw] at hj; cases hj
        | loop => rw [hw] at hj; cases hj
        | val z =>
          rw [hw] at hj
          simp [M.pure_apply] at hj
  · refine ⟨c, s', h1, h3, h2, fun heq => ?_⟩
    have hmap := h2.isIn.mapped c.addr c.addr_mem
    rw [heq] at hmap
    exact hmap (h2.adds.1 _ c.addr_mem)

/-- The hypotheses of `C53_joins` are met: two files, a common PC, and an allocator that refuses only what
does not fit the address space. -/
example : ∃ (A : Alloc) (ty : ID) (size : Int) (tick' : Nat) (log' : List Msg),
    Heap.join A pc 30 [⟨"a", some (encode (.grp idFORM 4 idTEST []))⟩, ⟨"b", some (encode (.grp idFORM 4 idTEST []))⟩]
      ⟨"o", true, 1000, 0⟩ ⟨fun _ => none, 0, []⟩ =
      .val ((0, some (encode (.grp idCAT size ty [.grp idFORM 4 idTEST [], .grp idFORM 4 idTEST []]))),
        ⟨fun _ => none, tick', log'⟩) := by
  obtain ⟨A, hA⟩ := total_exists pc
  have hacc : Accepts pc (encode (.grp idFORM 4 idTEST [])) (.grp idFORM 4 idTEST []) := by
    exact ⟨⟨_, rfl⟩, _, rfl⟩
  refine ⟨A, C53_joins A pc pc_sane hA (fun k hk => decide_eq_true (show k < 2 ^ 63 by omega))
    (fun _ => none) rfl ⟨0, fun _ _ => rfl⟩ _
    [(encode (.grp idFORM 4 idTEST []), .grp idFORM 4 idTEST []),
      (encode (.grp idFORM 4 idTEST []), .grp idFORM 4 idTEST [])] rfl ?_ (by decide) _ rfl (by decide) 30
    (by decide) ?_ 0 []⟩
  · intro i hi
    simp only [List.mem_cons, List.not_mem_nil, or_false, or_self] at hi
    subst hi
    exact ⟨by decide, hacc⟩
  · intro f hf bs hb
    simp only [List.mem_cons, List.not_mem_nil, or_false] at hf
    rcases hf with rfl | rfl <;> (cases hb; decide)

/-- What a tool returned, how many requests it made to the allocator, and which of the addresses
below 20 are allocated when it ends. -/
def ended {α : Type} : Out (α × TS) → Option (α × Nat × List Addr)
  | .val (x, s) => some (x, s.tick, (List.range 20).filter fun a => (s.mem a).isSome)
  | _ => none

/-- What iffpp prints of the file below. -/
def printedSample : List Byte := asc ("'FORM' = {\n  chunkSize = 14;\nformType = 'TEST';\n[\n" ++
  "  'ABCD' = {\n    chunkSize = 2;\n  bytes = \n    01 02 \n  ;\n  }\n\n];\n}\n\n")

/-- The hypotheses of C52 are met by a valid file, an invalid file, and a file that the allocator
cannot hold; each time something is allocated, and nothing remains. -/
example :
    ended (Heap.prettyPrint (numbered fun _ _ => false) pc 30
      ⟨"a", some (encode (.grp idFORM 14 idTEST [.raw (makeId 'A' 'B' 'C' 'D') 2 [1, 2]]))⟩ false
      ⟨fun _ => none, 0, []⟩) = some ((0, printedSample), 4, []) ∧
    ended (Heap.prettyPrint (numbered fun _ _ => false) pc 30
      ⟨"a", some (encode (.grp idPROP 4 idTEST []))⟩ false ⟨fun _ => none, 0, []⟩) =
      some ((1, []), 1, []) ∧
    ended (Heap.prettyPrint (numbered fun t _ => t == 2) pc 30
      ⟨"a", some (encode (.grp idFORM 14 idTEST [.raw (makeId 'A' 'B' 'C' 'D') 2 [1, 2]]))⟩ false
      ⟨fun _ => none, 0, []⟩) = some ((1, []), 3, []) := by
  refine ⟨?_, ?_, ?_⟩ <;> decide +kernel

/-- An instance of `C53_leaks`: a FORM and a PROP.  The PROP is rejected and stays allocated; with two
FORMs, or with a file that is no IFF file, nothing remains. -/
theorem C53_false :
    ended (Heap.join (numbered fun _ _ => false) pc 30
      [⟨"a", some (encode (.grp idFORM 4 idTEST []))⟩, ⟨"b", some (encode (.grp idPROP 4 idTEST []))⟩]
      ⟨"o", true, 1000, 0⟩ ⟨fun _ => none, 0, []⟩) = some ((1, none), 4, [4]) ∧
    ended (Heap.join (numbered fun _ _ => false) pc 30
      [⟨"a", some (encode (.grp idFORM 4 idTEST []))⟩, ⟨"b", some (encode (.grp idFORM 4 idTEST []))⟩]
      ⟨"o", true, 1000, 0⟩ ⟨fun _ => none, 0, []⟩) = some ((0, some (encode
        (catOf idTEST [.grp idFORM 4 idTEST [], .grp idFORM 4 idTEST []]))), 5, []) ∧
    ended (Heap.join (numbered fun _ _ => false) pc 30
      [⟨"a", some (encode (.grp idFORM 4 idTEST []))⟩, ⟨"b", some []⟩]
      ⟨"o", true, 1000, 0⟩ ⟨fun _ => none, 0, []⟩) = some ((1, none), 3, []) := by
  refine ⟨?_, ?_, ?_⟩ <;> decide +kernel

/-- An instance of `C53_refused`: the NULL pointer is dereferenced. -/
example : stoppedWith (Heap.join (numbered fun t _ => t == 0) pc 30
    [⟨"a", some (encode (.grp idFORM 4 idTEST []))⟩] ⟨"o", true, 1000, 0⟩ ⟨fun _ => none, 0, []⟩) =
    some .nullDeref := by decide +kernel

end Iff
