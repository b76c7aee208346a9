import Verif.Proofs.SrcLookup
import Verif.Proofs.SrcIff
import Verif.Heap.Search
import Verif.Spec.SrcUse
/-
  Searching forms and collecting chunks: form.c:194-229, 316-334, group.c:252-268, 291-312,
  cat.c:142-145, list.c:280-283.
-/
namespace Iff.Src
set_option maxRecDepth 4000
open Heap (Addr Block Mem HS Hdr Grp Lst)

section
variable {X : Cfg} {room : Nat} {stk : List Blk} {out text : List Byte}

theorem add_emod {i k : Nat} (h : i + k < 4294967296) :
    ((i : Int) + (k : Int)) % 4294967296 = ((i + k : Nat) : Int) := by
  rw [Int.emod_eq_of_lt (by omega) (by omega)]; omega

/-- form.c:201-202 -/
theorem copyPtrs_run {target source : Addr} {tlen slen q : Nat} {B : Blk} (hq : stk[q]? = some B)
    (hB : B.cell 0 = .int .uint tlen) (hlen : tlen + slen < 4294967296) :
    ∀ {k i : Nat} {s s' : HS} {u : Unit}, Heap.copyPtrs target tlen source k i s = .val (u, s') →
      i + k = slen → ∀ loc : Var → Slot,
        loc .i = .reg (.int .uint) (.int .uint i) →
        loc .target = .reg (.ptr (.ptr (.struct .IFF_Form))) (.ptr (.ptr (.struct .IFF_Form)) ⟨.heap target, 0⟩) →
        loc .targetLength = .reg (.ptr (.int .uint)) (.ptr (.int .uint) ⟨.stk q, 0⟩) →
        loc .source = .reg (.ptr (.ptr (.struct .IFF_Form))) (.ptr (.ptr (.struct .IFF_Form)) ⟨.heap source, 0⟩) →
        loc .sourceLength = .reg (.int .uint) (.int .uint slen) →
        ∃ loc' N, (∀ x, x ≠ .i → loc' x = loc x) ∧ ∀ n, N ≤ n → ∀ j, N ≤ j →
        whileN (evalC X (callFn X n) (.bin .lt (.var .i) (.var .sourceLength)))
          (forBody X (callFn X n) n
            (.expr (.assign (.index (.var .target) (.bin .add (.var .i) (.deref (.var .targetLength)))) (.index (.var .source) (.var .i))))
            (.inc (.var .i))) j ⟨loc, st X stk out room text s⟩ =
          .val (.norm, ⟨loc', st X stk out room text s'⟩) := by
  intro k
  induction k with
  | zero =>
    intro i s s' u h hl loc hi ht htl hs hsl
    obtain ⟨-, rfl⟩ := pure_inv h
    refine ⟨loc, 1, fun _ _ => rfl, fun n hn j hj => ?_⟩
    obtain ⟨j, rfl⟩ : ∃ j', j = j' + 1 := ⟨j - 1, by omega⟩
    rw [whileN_succ]
    crun [hi, hsl, nat_emod (show slen < 4294967296 by omega),
      nat_emod (show i < 4294967296 by omega), decide_eq_false (show ¬ (i : Int) < slen by omega), if_true]
  | succ k ih =>
    intro i s s' u h hl loc hi ht htl hs hsl
    unfold Heap.copyPtrs at h
    obtain ⟨c, s1, h1, k1⟩ := bind_inv h
    clear h
    obtain ⟨rfl, C, hC, hCs, hCc⟩ := getPtr_step (X := X) h1
    obtain ⟨u2, s2, h2, k2⟩ := bind_inv k1
    obtain ⟨T, m2, hT, hTs, he2, rfl⟩ := setPtr_step (X := X) h2
    obtain ⟨loc', N, hloc, hN⟩ := ih k2 (by omega) (setLoc loc .i (.reg (.int .uint) (.int .uint ((i + 1 : Nat) : Int))))
      (by simp [setLoc]) (by simp [setLoc, ht]) (by simp [setLoc, htl]) (by simp [setLoc, hs]) (by simp [setLoc, hsl])
    refine ⟨loc', N + 1, fun x hx => by rw [hloc x hx]; simp [setLoc, hx], fun n hn j hj => ?_⟩
    obtain ⟨j, rfl⟩ : ∃ j', j = j' + 1 := ⟨j - 1, by omega⟩
    have hw := hN n (by omega) j (by omega)
    rw [whileN_succ]
    crun [hi, ht, htl, hs, hsl, nat_emod (show slen < 4294967296 by omega), nat_emod (show tlen < 4294967296 by omega),
      nat_emod (show i < 4294967296 by omega), decide_eq_true (show (i : Int) < slen by omega),
      ↓forBody_obind, blkOf_heap hC, hCs, hCc, Int.natCast_nonneg, Int.toNat_natCast, scalarSize,
      blkOf_stk hq, hB, add_emod (show i + tlen < 4294967296 by omega), blkOf_heap hT, hTs, he2,
      step_obind, succ_emod (show i + 1 < 4294967296 by omega),
      nat_emod (show i + 1 < 4294967296 by omega), hw]

theorem toSize_arr {k : Nat} (h : k < 536870912) :
    toSize X.e ((toSize X.e (k : Int) : Int) * (toSize X.e ((X.e.sizeBits / 8 : Nat) : Int) : Int)) =
      k * (X.e.sizeBits / 8) := by
  rw [toSize_nat (by omega)]
  rcases X.word with hw | hw <;> rw [hw]
  · rw [toSize_nat (by decide), ← Int.natCast_mul, toSize_nat (by omega)]
  · rw [toSize_nat (by decide), ← Int.natCast_mul]
    simp only [toSize, hw]
    omega

theorem toSize_arr' {k : Nat} (h : k < 536870912) :
    toSize X.e ((k * (X.e.sizeBits / 8) : Nat) : Int) = k * (X.e.sizeBits / 8) := by
  rw [← toSize_arr h, toSize_toSize]

theorem take_set {q : Nat} {b : Blk} : (stk.set q b).take stk.length = stk.set q b :=
  List.take_of_length_le (by simp)

/-- form.c:194-207 -/
theorem mergeFormArray_run {target source target' : Addr} {tlen slen len q : Nat} {B : Blk} (hq : stk[q]? = some B)
    (hB : B.cell 0 = .int .uint tlen) {s s' : HS}
    (h : Heap.mergeFormArray X.alloc target tlen source slen s = .val ((target', len), s'))
    (hlen : tlen + slen < 536870912) : len = tlen + slen ∧
    Runs X .IFF_mergeFormArray [.ptr (.ptr (.struct .IFF_Form)) ⟨.heap target, 0⟩,
      .ptr (.int .uint) ⟨.stk q, 0⟩, .ptr (.ptr (.struct .IFF_Form)) ⟨.heap source, 0⟩,
      .int .uint slen] (st X stk out room text s) (.ptr (.ptr (.struct .IFF_Form)) ⟨.heap target', 0⟩)
      (st X (stk.set q (B.set 0 (.int .uint len))) out room text s') := by
  unfold Heap.mergeFormArray at h
  obtain ⟨a, s1, h1, k1⟩ := bind_inv h
  clear h
  obtain ⟨u, s2, h2, k2⟩ := bind_inv k1
  obtain ⟨h3, rfl⟩ := pure_inv k2
  cases h3
  refine ⟨rfl, ?_⟩
  have hr := realloc_run (stk := stk) (out := out) (room := room) (text := text) h1
  obtain ⟨loc', N, hloc, hN⟩ := copyPtrs_run (X := X) (stk := stk) (out := out) (room := room) (text := text)
    hq hB (show tlen + slen < 4294967296 by omega) h2 (by omega)
    (setLoc (setLoc (setLoc (setLoc (setLoc (setLoc (setLoc (setLoc (fun _ => .none)
      .sourceLength (.reg (.int .uint) (.int .uint slen)))
      .source (.reg (.ptr (.ptr (.struct .IFF_Form))) (.ptr (.ptr (.struct .IFF_Form)) ⟨.heap source, 0⟩)))
      .targetLength (.reg (.ptr (.int .uint)) (.ptr (.int .uint) ⟨.stk q, 0⟩)))
      .target (.reg (.ptr (.ptr (.struct .IFF_Form))) (.ptr (.ptr (.struct .IFF_Form)) ⟨.heap target, 0⟩)))
      .i (.reg (.int .uint) .undef))
      .newLength (.reg (.int .uint) (.int .uint ((tlen + slen : Nat) : Int))))
      .target (.reg (.ptr (.ptr (.struct .IFF_Form))) (.ptr (.ptr (.struct .IFF_Form)) ⟨.heap target', 0⟩)))
      .i (.reg (.int .uint) (.int .uint 0)))
    (by simp [setLoc]) (by simp [setLoc]) (by simp [setLoc]) (by simp [setLoc]) (by simp [setLoc])
  have l1 := (hloc .target (by decide)).trans (by simp [setLoc]; rfl)
  have l2 := (hloc .targetLength (by decide)).trans (by simp [setLoc]; rfl)
  have l3 := (hloc .newLength (by decide)).trans (by simp [setLoc]; rfl)
  refine ⟨N + 2, fun n hn => ?_⟩
  obtain ⟨n, rfl⟩ : ∃ n', n = n' + 2 := ⟨n - 2, by omega⟩
  have hw := hN (n + 1) (by omega) (n + 1) (by omega)
  rw [callFn_code rfl]
  crun [IFF_mergeFormArray.code, nat_emod (show slen < 4294967296 by omega), nat_emod (show tlen < 4294967296 by omega),
    blkOf_stk hq, hB, add_emod (show tlen + slen < 4294967296 by omega), nat_emod (show tlen + slen < 4294967296 by omega),
    Ty.size, scalarSize, toSize_toSize, toSize_arr hlen, toSize_arr' hlen, hr, ↓exec_for', hw, l1, l2, l3, take_set]

/-! ### Structs are not changed -/

/-- Groups are not changed, and what is true of arrays of pointers and of all blocks is still true of all blocks. -/
def Kept (m m' : Mem) : Prop :=
  (∀ a b g, m a = some b → b.grp? = some g → m' a = some b) ∧
  ∀ P : Block → Prop, (∀ cs, P (.ptrs cs)) → (∀ a b, m a = some b → P b) → ∀ a b, m' a = some b → P b

theorem Kept.rep {m m' : Mem} (h : Kept m m') (hm : Rep m) : Rep m' := h.2 Fits (fun _ => trivial) hm

theorem Kept.bd {m m' : Mem} {L : Nat} (h : Kept m m') (hm : MBd L m) : MBd L m' := h.2 (Bd L) (fun _ => trivial) hm

theorem Kept.refl {m : Mem} : Kept m m := ⟨fun _ _ _ h _ => h, fun _ _ h => h⟩

theorem Kept.trans {m m' m'' : Mem} (h : Kept m m') (h' : Kept m' m'') : Kept m m'' :=
  ⟨fun a b g h1 h2 => h'.1 a b g (h.1 a b g h1 h2) h2, fun P hp h1 => h'.2 P hp (h.2 P hp h1)⟩

theorem Kept.setPtrs {m : Mem} {a : Addr} {cs : List (Option Addr)}
    (h : ∀ b, m a = some b → b.grp? = none) : Kept m (m.set a (some (.ptrs cs))) := by
  refine ⟨fun x b g h1 h2 => ?_, fun P hp hm x b hb => ?_⟩
  · by_cases hx : x = a
    · subst hx
      rw [h b h1] at h2; cases h2
    · simp only [Mem.set, if_neg hx, h1]
  · by_cases hx : x = a
    · subst hx
      simp only [Mem.set, if_true, Option.some.injEq] at hb
      subst hb; exact hp _
    · simp only [Mem.set, if_neg hx] at hb
      exact hm x b hb

theorem Kept.setNone {m : Mem} {a : Addr} (h : ∀ b, m a = some b → b.grp? = none) : Kept m (m.set a none) := by
  refine ⟨fun x b g h1 h2 => ?_, fun P hp hm x b hb => ?_⟩
  · by_cases hx : x = a
    · subst hx
      rw [h b h1] at h2; cases h2
    · simp only [Mem.set, if_neg hx, h1]
  · by_cases hx : x = a
    · subst hx
      simp only [Mem.set, if_true] at hb
      cases hb
    · simp only [Mem.set, if_neg hx] at hb
      exact hm x b hb

theorem malloc_kept {q : Heap.Req} {cs : List (Option Addr)} {p : Addr} {s s' : HS}
    (h : Heap.malloc X.alloc q (.ptrs cs) s = .val (p, s')) : Kept s.mem s'.mem := by
  rcases malloc_inv h with ⟨-, -, rfl⟩ | ⟨h1, -, rfl⟩
  · exact .refl
  · exact .setPtrs fun b hb => by rw [(X.alloc.sound h1).2] at hb; cases hb

theorem setPtr_kept {a : Addr} {i : Nat} {p : Addr} {s s' : HS} {u : Unit}
    (h : Heap.setPtr a i p s = .val (u, s')) : Kept s.mem s'.mem := by
  obtain ⟨cs, h1, h2, rfl⟩ := setPtr_inv h
  exact .setPtrs fun b hb => by rw [h1] at hb; cases hb; rfl

theorem realloc_kept {a a' : Addr} {k : Nat} {s s' : HS}
    (h : Heap.reallocPtrs X.alloc a k s = .val (a', s')) : Kept s.mem s'.mem := by
  unfold Heap.reallocPtrs at h
  by_cases h0 : a = 0
  · rw [if_pos h0] at h
    exact malloc_kept h
  · rw [if_neg h0] at h
    cases hm' : s.mem a with
    | none => rw [hm'] at h; cases h
    | some b =>
      rw [hm'] at h
      cases b <;> try cases h
      have hn : Kept s.mem (s.mem.set a none) := .setNone fun b hb => by rw [hm'] at hb; cases hb; rfl
      by_cases h1 : k = 0 ∧ X.alloc.realloc0 = true
      · simp only [if_pos h1] at h
        cases h
        exact hn
      · simp only [if_neg h1] at h
        split at h
        · cases h; exact .refl
        · rename_i hp
          cases h
          exact hn.trans (.setPtrs fun b hb => by rw [(X.alloc.sound hp).2] at hb; cases hb)

theorem copyPtrs_kept {target source : Addr} {tlen : Nat} : ∀ {k i : Nat} {s s' : HS} {u : Unit},
    Heap.copyPtrs target tlen source k i s = .val (u, s') → Kept s.mem s'.mem := by
  intro k
  induction k with
  | zero => intro i s s' u h; obtain ⟨-, rfl⟩ := pure_inv h; exact .refl
  | succ k ih =>
    intro i s s' u h
    unfold Heap.copyPtrs at h
    obtain ⟨c, s1, h1, k1⟩ := bind_inv h
    obtain ⟨-, rfl⟩ := getPtr_inv h1
    obtain ⟨u2, s2, h2, k2⟩ := bind_inv k1
    exact (setPtr_kept h2).trans (ih k2)

theorem merge_kept {target source target' : Addr} {tlen slen len : Nat} {s s' : HS}
    (h : Heap.mergeFormArray X.alloc target tlen source slen s = .val ((target', len), s')) :
    Kept s.mem s'.mem ∧ len = tlen + slen := by
  unfold Heap.mergeFormArray at h
  obtain ⟨a, s1, h1, k1⟩ := bind_inv h
  obtain ⟨u, s2, h2, k2⟩ := bind_inv k1
  obtain ⟨h3, rfl⟩ := pure_inv k2
  cases h3
  exact ⟨(realloc_kept h1).trans (copyPtrs_kept h2), rfl⟩

theorem searchMembers_le {search : Addr → M HS (Addr × Nat)} {p : Addr} :
    ∀ {k i : Nat} {forms r : Addr} {len len' : Nat} {s s' : HS},
    Heap.searchMembers X.alloc search p k i forms len s = .val ((r, len'), s') → len ≤ len' := by
  intro k
  induction k with
  | zero => intro i forms r len len' s s' h; obtain ⟨h1, -⟩ := pure_inv h; cases h1; exact Nat.le_refl _
  | succ k ih =>
    intro i forms r len len' s s' h
    unfold Heap.searchMembers at h
    obtain ⟨g, s1, h1, k1⟩ := bind_inv h
    obtain ⟨c, s2, h2, k2⟩ := bind_inv k1
    obtain ⟨⟨a, al⟩, s3, h3, k3⟩ := bind_inv k2
    obtain ⟨⟨b, bl⟩, s4, h4, k4⟩ := bind_inv k3
    have := (merge_kept h4).2
    have := ih k4
    omega

/-! ### The objects on the stack -/

theorem Blk.set_same {B : Blk} {i : Nat} {c : Cell} (h : B.cell i = c) : B.set i c = B := by
  cases B
  simp only [Blk.set, Blk.mk.injEq, true_and]
  funext j
  split
  · subst_vars; rfl
  · rfl

theorem Blk.set_again {B : Blk} {i : Nat} {c d : Cell} : (B.set i c).set i d = B.set i d := by
  simp only [Blk.set, Blk.mk.injEq, true_and]
  funext j
  split <;> rfl

theorem set_same {q : Nat} {B : Blk} (h : stk[q]? = some B) : stk.set q B = stk := by
  apply List.ext_getElem?
  intro i
  by_cases hi : q = i
  · subst hi
    rw [List.getElem?_set_self', h]; rfl
  · rw [List.getElem?_set_ne hi]

theorem stk_lt {q : Nat} {B : Blk} (h : stk[q]? = some B) : q < stk.length := by
  by_cases hf : q < stk.length
  · exact hf
  · rw [List.getElem?_eq_none (by omega)] at h; cases h

theorem TypesAt.stack {o : Obj} {types : List ID} {q : Nat} {b : Blk} {ext : List Blk}
    (h : TypesAt X stk o types) (hq : o ≠ .stk q) : TypesAt X (stk.set q b ++ ext) o types := by
  obtain ⟨B, h1, h2⟩ := h
  refine ⟨B, ?_, h2⟩
  cases o with
  | heap a => cases h1
  | static k => exact h1
  | stk f =>
    have hne : q ≠ f := fun h => hq (by rw [h])
    simp only [outside] at h1 ⊢
    have hf : f < stk.length := by
      by_cases hf : f < stk.length
      · exact hf
      · rw [List.getElem?_eq_none (by omega)] at h1; cases h1
    rw [List.getElem?_append_left (by simpa using hf), List.getElem?_set_ne hne, h1]

theorem TypesAt.push {o : Obj} {types : List ID} {ext : List Blk}
    (h : TypesAt X stk o types) : TypesAt X (stk ++ ext) o types := by
  obtain ⟨B, h1, h2⟩ := h
  refine ⟨B, ?_, h2⟩
  cases o with
  | heap a => cases h1
  | static k => exact h1
  | stk f =>
    simp only [outside] at h1 ⊢
    have hf : f < stk.length := by
      by_cases hf : f < stk.length
      · exact hf
      · rw [List.getElem?_eq_none (by omega)] at h1; cases h1
    rw [List.getElem?_append_left hf, h1]

/-- What a search does when its text is executed: the array is returned, its length is stored at
`*formsLength`, the `q`-th object on the stack. -/
def SearchOk (X : Cfg) (out : List Byte) (room : Nat) (text : List Byte) (types : List ID) (f : Fn) (T : Ty)
    (search : Addr → M HS (Addr × Nat)) : Prop :=
  ∀ ⦃stk : List Blk⦄ ⦃q : Nat⦄ ⦃B : Blk⦄ ⦃o : Obj⦄ ⦃p r : Addr⦄ ⦃len : Nat⦄ ⦃s s' : HS⦄,
    stk[q]? = some B → TypesAt X stk o types → o ≠ .stk q → Rep s.mem → len < 536870912 →
    search p s = .val ((r, len), s') → Kept s.mem s'.mem ∧
    Runs X f [.ptr T ⟨.heap p, 0⟩, .ptr (.int .uint) ⟨o, 0⟩, .int .uint types.length,
      .ptr (.int .uint) ⟨.stk q, 0⟩] (st X stk out room text s)
      (.ptr (.ptr (.struct .IFF_Form)) ⟨.heap r, 0⟩)
      (st X (stk.set q (B.set 0 (.int .uint len))) out room text s')

/-- group.c:259-265 -/
theorem searchMembers_run {types : List ID} {search : Addr → M HS (Addr × Nat)}
    (hS : SearchOk X out room text types .IFF_searchFormsFromArray (.struct .IFF_Chunk) search)
    (ht : types.length < 4294967296) {p : Addr} {q : Nat} {o : Obj} (hoq : o ≠ .stk q) {b : Block} {g : Grp}
    (hb2 : b.grp? = some g) :
    ∀ {k i : Nat} {stk : List Blk} {B : Blk} {forms r : Addr} {len len' : Nat} {s s' : HS},
      stk[q]? = some B → B.cell 0 = .int .uint len → TypesAt X stk o types → Rep s.mem → len' < 536870912 →
      s.mem p = some b → Heap.searchMembers X.alloc search p k i forms len s = .val ((r, len'), s') →
      g.len = i + k → Kept s.mem s'.mem ∧ ∀ loc : Var → Slot,
        loc .i = .reg (.int .uint) (.int .uint i) →
        loc .group = .reg (.ptr (.struct .IFF_Group)) (.ptr (.struct .IFF_Group) ⟨.heap p, 0⟩) →
        loc .formTypes = .reg (.ptr (.int .uint)) (.ptr (.int .uint) ⟨o, 0⟩) →
        loc .formTypesLength = .reg (.int .uint) (.int .uint types.length) →
        loc .formsLength = .reg (.ptr (.int .uint)) (.ptr (.int .uint) ⟨.stk q, 0⟩) →
        loc .forms = .reg (.ptr (.ptr (.struct .IFF_Form))) (.ptr (.ptr (.struct .IFF_Form)) ⟨.heap forms, 0⟩) →
        ∃ loc' N ext, loc' .forms = .reg (.ptr (.ptr (.struct .IFF_Form))) (.ptr (.ptr (.struct .IFF_Form)) ⟨.heap r, 0⟩) ∧
        ∀ n, N ≤ n → ∀ j, N ≤ j →
        whileN (evalC X (callFn X n) (.bin .lt (.var .i) (.arrow (.var .group) .chunkLength)))
          (forBody X (callFn X n) n
            (.seq (.object .resultLength (.int .uint) none)
          (.seq (.decl .result (.ptr (.ptr (.struct .IFF_Form))) (some (.call (.fn .IFF_searchFormsFromArray) (.cons (.index (.arrow (.var .group) .chunk) (.var .i)) (.cons (.var .formTypes) (.cons (.var .formTypesLength) (.cons (.addr (.var .resultLength)) .nil)))))))
          (.expr (.assign (.var .forms) (.call (.fn .IFF_mergeFormArray) (.cons (.var .forms) (.cons (.var .formsLength) (.cons (.var .result) (.cons (.var .resultLength) .nil)))))))))
            (.inc (.var .i))) j ⟨loc, st X stk out room text s⟩ =
          .val (.norm, ⟨loc', st X (stk.set q (B.set 0 (.int .uint len')) ++ ext) out room text s'⟩) := by
  obtain ⟨hd, sz, rest, -, -, hz, hly, -⟩ := grp_layout X hb2
  intro k
  induction k with
  | zero =>
    intro i stk B forms r len len' s s' hq hB hT hm hlen hb1 h hl
    obtain ⟨h1, rfl⟩ := pure_inv h
    cases h1
    have hb := heapOf_some (e := X.e) hb1
    rw [hly] at hb
    have hg := hm.grp hb1 hb2
    refine ⟨.refl, fun loc hi hgr _ _ _ hf => ⟨loc, 1, [], hf, fun n hn j hj => ?_⟩⟩
    obtain ⟨j, rfl⟩ : ∃ j', j = j' + 1 := ⟨j - 1, by omega⟩
    have hset : stk.set q (B.set 0 (.int .uint len)) = stk := by
      rw [Blk.set_same hB, set_same hq]
    rw [whileN_succ, hset]
    crun [hi, hgr, blkOf_heap hb, hz, nat_emod (show g.len < 4294967296 by omega),
      nat_emod (show i < 4294967296 by omega), decide_eq_false (show ¬ (i : Int) < g.len by omega), if_true,
      List.append_nil]
  | succ k ih =>
    intro i stk B forms r len len' s s' hq hB hT hm hlen hb1 h hl
    unfold Heap.searchMembers at h
    obtain ⟨g1, s1, h1, k1⟩ := bind_inv h
    clear h
    obtain ⟨⟨b', hb1', hb2'⟩, rfl⟩ := getGrp_inv h1
    rw [hb1] at hb1'; cases hb1'
    rw [hb2] at hb2'; cases hb2'
    obtain ⟨c, s2, h2, k2⟩ := bind_inv k1
    obtain ⟨rfl, C, hC, hCs, hCc⟩ := getPtr_step (X := X) h2
    obtain ⟨⟨a, al⟩, s3, h3, k3⟩ := bind_inv k2
    obtain ⟨⟨a', al'⟩, s4, h4, k4⟩ := bind_inv k3
    have hle := searchMembers_le k4
    obtain ⟨hk4, rfl⟩ := merge_kept h4
    simp only at h3 h4 k4 hle
    have hq' := stk_lt hq
    have hb := heapOf_some (e := X.e) hb1
    rw [hly] at hb
    have hg := hm.grp hb1 hb2
    obtain ⟨hk3, N3, hN3⟩ := hS (stk := stk ++ [⟨Ty.size X.e (.int .uint), cells []⟩]) (q := stk.length)
      (B := ⟨Ty.size X.e (.int .uint), cells []⟩) (by simp) hT.push (by
        rintro rfl
        obtain ⟨B, h1, -⟩ := hT
        simp [outside] at h1) hm (by omega) h3
    obtain ⟨-, N4, hN4⟩ := mergeFormArray_run (X := X) (out := out) (room := room) (text := text)
      (stk := stk ++ [⟨Ty.size X.e (.int .uint), cells [.int .uint al]⟩]) (q := q) (B := B)
      (by rw [List.getElem?_append_left hq', hq]) hB h4 (by omega)
    have hk := hk3.trans hk4
    obtain ⟨hk5, h5⟩ := ih (stk := stk.set q (B.set 0 (.int .uint ((len + al : Nat) : Int))) ++
      [⟨Ty.size X.e (.int .uint), cells [.int .uint al]⟩]) (B := B.set 0 (.int .uint ((len + al : Nat) : Int)))
      (by rw [List.getElem?_append_left (by simpa using hq')]; simp [hq']) (by simp [Blk.set]) (hT.stack hoq)
      (hk.rep hm) hlen (hk.1 _ _ _ hb1 hb2) k4 (by omega)
    refine ⟨hk.trans hk5, fun loc hi hgr hft hftl hfl hf => ?_⟩
    obtain ⟨loc', N, ext, hf', hN⟩ := h5 (setLoc (setLoc (setLoc (setLoc loc
        .resultLength (.obj (.int .uint) stk.length))
        .result (.reg (.ptr (.ptr (.struct .IFF_Form))) (.ptr (.ptr (.struct .IFF_Form)) ⟨.heap a, 0⟩)))
        .forms (.reg (.ptr (.ptr (.struct .IFF_Form))) (.ptr (.ptr (.struct .IFF_Form)) ⟨.heap a', 0⟩)))
        .i (.reg (.int .uint) (.int .uint ((i + 1 : Nat) : Int))))
        (by simp [setLoc]) (by simp [setLoc, hgr]) (by simp [setLoc, hft]) (by simp [setLoc, hftl])
        (by simp [setLoc, hfl]) (by simp [setLoc])
    refine ⟨loc', N + N3 + N4 + 1, ⟨Ty.size X.e (.int .uint), cells [.int .uint al]⟩ :: ext, hf', fun n hn j hj => ?_⟩
    obtain ⟨j, rfl⟩ : ∃ j', j = j' + 1 := ⟨j - 1, by omega⟩
    have hw := hN n (by omega) j (by omega)
    have hse := hN3 n (by omega)
    have hme := hN4 n (by omega)
    rw [List.set_append_left _ _ hq'] at hme
    rw [List.set_append_left _ _ (by simpa using hq'), List.set_set, Blk.set_again, List.append_assoc,
      List.singleton_append] at hw
    rw [whileN_succ]
    crun [hi, hgr, hft, hftl, hfl, hf, blkOf_heap hb, hz, nat_emod (show g.len < 4294967296 by omega),
      nat_emod (show i < 4294967296 by omega), decide_eq_true (show (i : Int) < g.len by omega),
      ↓forBody_obind, blkOf_heap hC, hCs, hCc, Int.natCast_nonneg, Int.toNat_natCast, scalarSize,
      nat_emod ht, hse, blkOf_stk stk_get0, nat_emod (show al < 4294967296 by omega), hme, step_obind,
      succ_emod (show i + 1 < 4294967296 by omega), nat_emod (show i + 1 < 4294967296 by omega), hw]

/-- group.c:252-268 -/
theorem searchGroup_run {types : List ID} {search : Addr → M HS (Addr × Nat)}
    (hS : SearchOk X out room text types .IFF_searchFormsFromArray (.struct .IFF_Chunk) search)
    (ht : types.length < 4294967296) :
    SearchOk X out room text types .IFF_searchFormsInGroup (.struct .IFF_Group) (Heap.searchGroup X.alloc search) := by
  intro stk q B o p r len s s' hq hT hoq hm hlen h
  unfold Heap.searchGroup at h
  obtain ⟨g, s1, h1, k1⟩ := bind_inv h
  clear h
  obtain ⟨⟨b, hb1, hb2⟩, rfl⟩ := getGrp_inv h1
  obtain ⟨hk, hl⟩ := searchMembers_run hS ht hoq hb2 (stk := stk.set q (B.set 0 (.int .uint 0)))
    (B := B.set 0 (.int .uint 0)) (by simp [stk_lt hq]) (by simp [Blk.set]) (by simpa using hT.stack (ext := []) hoq) hm hlen
    hb1 k1 (by omega)
  refine ⟨hk, ?_⟩
  obtain ⟨loc', N, ext, hf, hN⟩ := hl
    (setLoc (setLoc (setLoc (setLoc (setLoc (setLoc (setLoc (fun _ => .none)
      .formsLength (.reg (.ptr (.int .uint)) (.ptr (.int .uint) ⟨.stk q, 0⟩)))
      .formTypesLength (.reg (.int .uint) (.int .uint types.length)))
      .formTypes (.reg (.ptr (.int .uint)) (.ptr (.int .uint) ⟨o, 0⟩)))
      .group (.reg (.ptr (.struct .IFF_Group)) (.ptr (.struct .IFF_Group) ⟨.heap p, 0⟩)))
      .forms (.reg (.ptr (.ptr (.struct .IFF_Form))) (.ptr (.ptr (.struct .IFF_Form)) Ptr.null)))
      .i (.reg (.int .uint) .undef)) .i (.reg (.int .uint) (.int .uint 0)))
    (by simp [setLoc]) (by simp [setLoc]) (by simp [setLoc]) (by simp [setLoc]) (by simp [setLoc]) (by simp [setLoc])
  refine ⟨N + 1, fun n hn => ?_⟩
  obtain ⟨n, rfl⟩ : ∃ n', n = n' + 1 := ⟨n - 1, by omega⟩
  have hw := hN n (by omega) n (by omega)
  rw [List.set_set, Blk.set_again] at hw
  have htake : (stk.set q (B.set 0 (.int .uint len)) ++ ext).take stk.length = stk.set q (B.set 0 (.int .uint len)) := by
    rw [List.take_append_of_le_length (by simp), take_set]
  rw [callFn_code rfl]
  crun [IFF_searchFormsInGroup.code, nat_emod ht, blkOf_stk hq, ↓exec_for', hw, hf, htake]

/-- cat.c:142-145 -/
theorem searchCAT_run {types : List ID} {search : Addr → M HS (Addr × Nat)}
    (hS : SearchOk X out room text types .IFF_searchFormsInGroup (.struct .IFF_Group) search)
    (ht : types.length < 4294967296) :
    SearchOk X out room text types .IFF_searchFormsInCAT (.struct .IFF_CAT) search := by
  intro stk q B o p r len s s' hq hT hoq hm hlen h
  obtain ⟨hk, N, hN⟩ := hS hq hT hoq hm hlen h
  refine ⟨hk, N + 1, fun n hn => ?_⟩
  obtain ⟨n, rfl⟩ : ∃ n', n = n' + 1 := ⟨n - 1, by omega⟩
  have hw := hN n (by omega)
  rw [callFn_code rfl]
  crun [IFF_searchFormsInCAT.code, nat_emod ht, hw, take_set]

/-- list.c:280-283 -/
theorem searchLIST_run {types : List ID} {search : Addr → M HS (Addr × Nat)}
    (hS : SearchOk X out room text types .IFF_searchFormsInCAT (.struct .IFF_CAT) search)
    (ht : types.length < 4294967296) :
    SearchOk X out room text types .IFF_searchFormsInList (.struct .IFF_List) search := by
  intro stk q B o p r len s s' hq hT hoq hm hlen h
  obtain ⟨hk, N, hN⟩ := hS hq hT hoq hm hlen h
  refine ⟨hk, N + 1, fun n hn => ?_⟩
  obtain ⟨n, rfl⟩ : ∃ n', n = n' + 1 := ⟨n - 1, by omega⟩
  have hw := hN n (by omega)
  rw [callFn_code rfl]
  crun [IFF_searchFormsInList.code, nat_emod ht, hw, take_set]

theorem blkOf_outside {o : Obj} {B : Blk} {i : Nat} {s : HS} (h : outside X stk o = some B) :
    blkOf X (st X stk out room text s) ⟨o, i⟩ = .val B := by
  cases o with
  | heap a => cases h
  | stk f => exact blkOf_stk h
  | static k => exact blkOf_static h

set_option quotPrecheck false in
local notation "fBody" => (Stmt.seq (.decl .formType (.int .uint) (some (.index (.var .formTypes) (.var .i))))
          (.ite (.bin .eq (.arrow (.var .form) .formType) (.var .formType))
          (.seq (.decl .forms (.ptr (.ptr (.struct .IFF_Form))) (some (.cast (.ptr (.ptr (.struct .IFF_Form))) (.call (.fn .malloc) (.cons (.sizeof (.ptr (.struct .IFF_Form))) .nil)))))
            (.seq (.expr (.assign (.index (.var .forms) (.num .int 0)) (.var .form)))
            (.seq (.expr (.assign (.deref (.var .formsLength)) (.num .int 1)))
            (.ret (.var .forms)))))
          .skip))

/-- form.c:213-226, the form is not of a requested type -/
theorem formTypes_none {types : List ID} (ht : types.length < 4294967296) {p : Addr} {o : Obj} {b : Block} {g : Grp}
    {s : HS} (hT : TypesAt X stk o types) (hb1 : s.mem p = some b) (hb2 : b.grp? = some g) (hg : g.ty ∉ types) :
    ∀ {k i : Nat}, i + k = types.length → ∀ loc : Var → Slot,
        loc .i = .reg (.int .uint) (.int .uint i) →
        loc .form = .reg (.ptr (.struct .IFF_Form)) (.ptr (.struct .IFF_Form) ⟨.heap p, 0⟩) →
        loc .formTypes = .reg (.ptr (.int .uint)) (.ptr (.int .uint) ⟨o, 0⟩) →
        loc .formTypesLength = .reg (.int .uint) (.int .uint types.length) →
        ∃ loc' N, (∀ x, x ≠ .i → x ≠ .formType → loc' x = loc x) ∧ ∀ n, N ≤ n → ∀ j, N ≤ j →
        whileN (evalC X (callFn X n) (.bin .lt (.var .i) (.var .formTypesLength)))
          (forBody X (callFn X n) n fBody (.inc (.var .i))) j ⟨loc, st X stk out room text s⟩ =
          .val (.norm, ⟨loc', st X stk out room text s⟩) := by
  obtain ⟨hd, sz, rest, -, -, hz, hly, -⟩ := grp_layout X hb2
  have hb := heapOf_some (e := X.e) hb1
  rw [hly] at hb
  obtain ⟨T, hT1, hT2, hT3⟩ := hT
  intro k
  induction k with
  | zero =>
    intro i hl loc hi hf hft hftl
    refine ⟨loc, 1, fun _ _ _ => rfl, fun n hn j hj => ?_⟩
    obtain ⟨j, rfl⟩ : ∃ j', j = j' + 1 := ⟨j - 1, by omega⟩
    rw [whileN_succ]
    crun [hi, hftl, nat_emod ht, nat_emod (show i < 4294967296 by omega),
      decide_eq_false (show ¬ (i : Int) < types.length by omega), if_true]
  | succ k ih =>
    intro i hl loc hi hf hft hftl
    have hil : i < types.length := by omega
    have hc := hT3 i types[i] (List.getElem?_eq_getElem hil)
    have hne : ¬ g.ty = types[i] := fun h => hg (h ▸ List.getElem_mem hil)
    obtain ⟨loc', N, hloc, hN⟩ := ih (i := i + 1) (by omega) (setLoc (setLoc loc .formType (.reg (.int .uint) (.int .uint types[i].toNat)))
      .i (.reg (.int .uint) (.int .uint ((i + 1 : Nat) : Int))))
      (by simp [setLoc]) (by simp [setLoc, hf]) (by simp [setLoc, hft]) (by simp [setLoc, hftl])
    refine ⟨loc', N + 1, fun x hx hx' => by rw [hloc x hx hx']; simp [setLoc, hx, hx'], fun n hn j hj => ?_⟩
    obtain ⟨j, rfl⟩ : ∃ j', j = j' + 1 := ⟨j - 1, by omega⟩
    have hw := hN n (by omega) j (by omega)
    rw [whileN_succ]
    crun [hi, hf, hft, hftl, nat_emod ht, nat_emod (show i < 4294967296 by omega),
      decide_eq_true (show (i : Int) < types.length by omega), ↓forBody_obind, blkOf_outside hT1,
      Int.natCast_nonneg, Int.toNat_natCast, scalarSize, ITy.bits, show (i + 1) * 4 ≤ T.size by omega, hc,
      blkOf_heap hb, hz, id_ne hne, step_obind, succ_emod (show i + 1 < 4294967296 by omega),
      nat_emod (show i + 1 < 4294967296 by omega), hw]

/-- form.c:213-226, the form is of a requested type -/
theorem formTypes_some {types : List ID} (ht : types.length < 4294967296) {p r : Addr} {o : Obj} {b : Block} {g : Grp}
    {s s1 s2 : HS} {u : Unit} {q : Nat} {B : Blk} (hq : stk[q]? = some B) (hT : TypesAt X stk o types)
    (hb1 : s.mem p = some b) (hb2 : b.grp? = some g)
    (h1 : Heap.malloc X.alloc (.array 1) (.ptrs [none]) s = .val (r, s1))
    (h2 : Heap.setPtr r 0 p s1 = .val (u, s2)) :
    ∀ {k i : Nat}, i + k = types.length → g.ty ∈ types.drop i → ∀ loc : Var → Slot,
        loc .i = .reg (.int .uint) (.int .uint i) →
        loc .form = .reg (.ptr (.struct .IFF_Form)) (.ptr (.struct .IFF_Form) ⟨.heap p, 0⟩) →
        loc .formTypes = .reg (.ptr (.int .uint)) (.ptr (.int .uint) ⟨o, 0⟩) →
        loc .formTypesLength = .reg (.int .uint) (.int .uint types.length) →
        loc .formsLength = .reg (.ptr (.int .uint)) (.ptr (.int .uint) ⟨.stk q, 0⟩) →
        ∃ loc' N, ∀ n, N ≤ n → ∀ j, N ≤ j →
        whileN (evalC X (callFn X n) (.bin .lt (.var .i) (.var .formTypesLength)))
          (forBody X (callFn X n) n fBody (.inc (.var .i))) j ⟨loc, st X stk out room text s⟩ =
          .val (.ret (.ptr (.ptr (.struct .IFF_Form)) ⟨.heap r, 0⟩),
            ⟨loc', st X (stk.set q (B.set 0 (.int .uint 1))) out room text s2⟩) := by
  obtain ⟨hd, sz, rest, -, -, hz, hly, -⟩ := grp_layout X hb2
  have hb := heapOf_some (e := X.e) hb1
  rw [hly] at hb
  obtain ⟨T, hT1, hT2, hT3⟩ := hT
  have hmal := realloc_run (X := X) (a := 0) (k := 1) (stk := stk) (out := out) (room := room) (text := text) (s := s) (s' := s1)
    (a' := r) (by simpa [Heap.reallocPtrs] using h1)
  rw [reallocC, if_pos rfl, Nat.one_mul] at hmal
  obtain ⟨C, m2, hC, hCs, he2, rfl⟩ := setPtr_step (X := X) h2
  have hts : toSize X.e ((X.e.sizeBits / 8 : Nat) : Int) = X.e.sizeBits / 8 := by
    have := toSize_arr' (X := X) (k := 1) (by decide)
    rwa [Nat.one_mul] at this
  have hCs' : 1 * (X.e.sizeBits / 8) ≤ C.size := hCs
  intro k
  induction k with
  | zero =>
    intro i hl hg
    rw [List.drop_eq_nil_of_le (by omega)] at hg
    cases hg
  | succ k ih =>
    intro i hl hg loc hi hf hft hftl hfl
    have hil : i < types.length := by omega
    have hc := hT3 i types[i] (List.getElem?_eq_getElem hil)
    by_cases hne : g.ty = types[i]
    · refine ⟨setLoc (setLoc loc .formType (.reg (.int .uint) (.int .uint types[i].toNat))) .forms
        (.reg (.ptr (.ptr (.struct .IFF_Form))) (.ptr (.ptr (.struct .IFF_Form)) ⟨.heap r, 0⟩)), 2, fun n hn j hj => ?_⟩
      obtain ⟨j, rfl⟩ : ∃ j', j = j' + 1 := ⟨j - 1, by omega⟩
      obtain ⟨n, rfl⟩ : ∃ j', n = j' + 1 := ⟨n - 1, by omega⟩
      rw [whileN_succ]
      crun [hi, hf, hft, hftl, hfl, nat_emod ht, nat_emod (show i < 4294967296 by omega),
        decide_eq_true (show (i : Int) < types.length by omega), ↓forBody_obind, blkOf_outside hT1,
        Int.natCast_nonneg, Int.toNat_natCast, scalarSize, ITy.bits, show (i + 1) * 4 ≤ T.size by omega, hc,
        blkOf_heap hb, hz, hne, beq_self_eq_true, step_obind, Ty.size, hts, hmal, blkOf_heap hC, hCs', he2,
        blkOf_stk hq]
    · rw [List.drop_eq_getElem_cons hil, List.mem_cons] at hg
      have hg' := hg.resolve_left hne
      obtain ⟨loc', N, hN⟩ := ih (i := i + 1) (by omega) hg' (setLoc (setLoc loc .formType (.reg (.int .uint) (.int .uint types[i].toNat)))
        .i (.reg (.int .uint) (.int .uint ((i + 1 : Nat) : Int))))
        (by simp [setLoc]) (by simp [setLoc, hf]) (by simp [setLoc, hft]) (by simp [setLoc, hftl]) (by simp [setLoc, hfl])
      refine ⟨loc', N + 1, fun n hn j hj => ?_⟩
      obtain ⟨j, rfl⟩ : ∃ j', j = j' + 1 := ⟨j - 1, by omega⟩
      have hw := hN n (by omega) j (by omega)
      rw [whileN_succ]
      crun [hi, hf, hft, hftl, nat_emod ht, nat_emod (show i < 4294967296 by omega),
        decide_eq_true (show (i : Int) < types.length by omega), ↓forBody_obind, blkOf_outside hT1,
        Int.natCast_nonneg, Int.toNat_natCast, scalarSize, ITy.bits, show (i + 1) * 4 ≤ T.size by omega, hc,
        blkOf_heap hb, hz, id_ne hne, step_obind, succ_emod (show i + 1 < 4294967296 by omega),
        nat_emod (show i + 1 < 4294967296 by omega), hw]

/-- form.c:209-229 -/
theorem searchForm_run {types : List ID} {search : Addr → M HS (Addr × Nat)}
    (hS : SearchOk X out room text types .IFF_searchFormsInGroup (.struct .IFF_Group) (Heap.searchGroup X.alloc search))
    (ht : types.length < 4294967296) :
    SearchOk X out room text types .IFF_searchFormsInForm (.struct .IFF_Form)
      (Heap.searchInForm X.alloc types search) := by
  intro stk q B o p r len s s' hq hT hoq hm hlen h
  unfold Heap.searchInForm at h
  obtain ⟨g, s1, h1, k1⟩ := bind_inv h
  clear h
  obtain ⟨⟨b, hb1, hb2⟩, rfl⟩ := getGrp_inv h1
  by_cases hg : g.ty ∈ types
  · rw [if_pos hg] at k1
    obtain ⟨f, s2, h2, k2⟩ := bind_inv k1
    obtain ⟨u, s3, h3, k3⟩ := bind_inv k2
    obtain ⟨h4, rfl⟩ := pure_inv k3
    cases h4
    refine ⟨(malloc_kept h2).trans (setPtr_kept h3), ?_⟩
    obtain ⟨loc', N, hN⟩ := formTypes_some (X := X) (stk := stk) (out := out) (room := room) (text := text) ht hq hT hb1 hb2
      h2 h3 (Nat.zero_add _) (by simpa using hg)
      (setLoc (setLoc (setLoc (setLoc (setLoc (setLoc (fun _ => .none)
      .formsLength (.reg (.ptr (.int .uint)) (.ptr (.int .uint) ⟨.stk q, 0⟩)))
      .formTypesLength (.reg (.int .uint) (.int .uint types.length)))
      .formTypes (.reg (.ptr (.int .uint)) (.ptr (.int .uint) ⟨o, 0⟩)))
      .form (.reg (.ptr (.struct .IFF_Form)) (.ptr (.struct .IFF_Form) ⟨.heap p, 0⟩)))
      .i (.reg (.int .uint) .undef)) .i (.reg (.int .uint) (.int .uint 0)))
      (by simp [setLoc]) (by simp [setLoc]) (by simp [setLoc]) (by simp [setLoc]) (by simp [setLoc])
    refine ⟨N + 1, fun n hn => ?_⟩
    obtain ⟨n, rfl⟩ : ∃ n', n = n' + 1 := ⟨n - 1, by omega⟩
    have hw := hN n (by omega) n (by omega)
    rw [callFn_code rfl]
    crun [IFF_searchFormsInForm.code, nat_emod ht, ↓exec_for', hw, take_set]
  · rw [if_neg hg] at k1
    obtain ⟨hk, N', hN'⟩ := hS hq hT hoq hm hlen k1
    refine ⟨hk, ?_⟩
    obtain ⟨loc', N, hloc, hN⟩ := formTypes_none (X := X) (stk := stk) (out := out) (room := room) (text := text) ht hT hb1 hb2
      hg (Nat.zero_add _)
      (setLoc (setLoc (setLoc (setLoc (setLoc (setLoc (fun _ => .none)
      .formsLength (.reg (.ptr (.int .uint)) (.ptr (.int .uint) ⟨.stk q, 0⟩)))
      .formTypesLength (.reg (.int .uint) (.int .uint types.length)))
      .formTypes (.reg (.ptr (.int .uint)) (.ptr (.int .uint) ⟨o, 0⟩)))
      .form (.reg (.ptr (.struct .IFF_Form)) (.ptr (.struct .IFF_Form) ⟨.heap p, 0⟩)))
      .i (.reg (.int .uint) .undef)) .i (.reg (.int .uint) (.int .uint 0)))
      (by simp [setLoc]) (by simp [setLoc]) (by simp [setLoc]) (by simp [setLoc])
    have l1 := (hloc .form (by decide) (by decide)).trans (by simp [setLoc]; rfl)
    have l2 := (hloc .formTypes (by decide) (by decide)).trans (by simp [setLoc]; rfl)
    have l3 := (hloc .formTypesLength (by decide) (by decide)).trans (by simp [setLoc]; rfl)
    have l4 := (hloc .formsLength (by decide) (by decide)).trans (by simp [setLoc]; rfl)
    refine ⟨N + N' + 1, fun n hn => ?_⟩
    obtain ⟨n, rfl⟩ : ∃ n', n = n' + 1 := ⟨n - 1, by omega⟩
    have hw := hN n (by omega) n (by omega)
    have hc := hN' n (by omega)
    rw [callFn_code rfl]
    crun [IFF_searchFormsInForm.code, nat_emod ht, ↓exec_for', hw, l1, l2, l3, l4, hc, take_set]

/-- group.c:291-305 -/
theorem searchForms_run (types : List ID) (ht : types.length < 4294967296) : ∀ n,
    SearchOk X out room text types .IFF_searchFormsFromArray (.struct .IFF_Chunk)
      (Heap.searchForms X.alloc types n) := by
  intro k
  induction k with
  | zero => intro stk q B o p r len s s' hq hT hoq hm hlen h; cases h
  | succ k ih =>
    intro stk q B o p r len s s' hq hT hoq hm hlen h
    unfold Heap.searchForms at h
    obtain ⟨hd, s1, h1, k1⟩ := bind_inv h
    clear h
    obtain ⟨rfl, sz, rest, hz, hb⟩ := getHdr_step (X := X) h1
    have hG := searchGroup_run ih ht
    by_cases i1 : hd.id = idFORM
    · rw [if_pos i1] at k1
      obtain ⟨hk, N, hN⟩ := searchForm_run hG ht hq hT hoq hm hlen k1
      refine ⟨hk, N + 1, fun n hn => ?_⟩
      obtain ⟨n, rfl⟩ : ∃ n', n = n' + 1 := ⟨n - 1, by omega⟩
      have hc := hN n (by omega)
      rw [callFn_code rfl]
      crun [IFF_searchFormsFromArray.code, nat_emod ht, ↓evalE_FORM, ↓evalE_CAT, ↓evalE_LIST, blkOf_heap hb, hz, i1, hc,
        take_set, beq_self_eq_true]
    rw [if_neg i1] at k1
    by_cases i2 : hd.id = idCAT
    · rw [if_pos i2] at k1
      obtain ⟨hk, N, hN⟩ := searchCAT_run hG ht hq hT hoq hm hlen k1
      refine ⟨hk, N + 1, fun n hn => ?_⟩
      obtain ⟨n, rfl⟩ : ∃ n', n = n' + 1 := ⟨n - 1, by omega⟩
      have hc := hN n (by omega)
      rw [callFn_code rfl]
      crun [IFF_searchFormsFromArray.code, nat_emod ht, ↓evalE_FORM, ↓evalE_CAT, ↓evalE_LIST, blkOf_heap hb, hz, i2, hc, id_ne (show ¬ idFORM = idCAT by decide),
        take_set, beq_self_eq_true]
    rw [if_neg i2] at k1
    by_cases i3 : hd.id = idLIST
    · rw [if_pos i3] at k1
      obtain ⟨hk, N, hN⟩ := searchLIST_run (searchCAT_run hG ht) ht hq hT hoq hm hlen k1
      refine ⟨hk, N + 1, fun n hn => ?_⟩
      obtain ⟨n, rfl⟩ : ∃ n', n = n' + 1 := ⟨n - 1, by omega⟩
      have hc := hN n (by omega)
      rw [callFn_code rfl]
      crun [IFF_searchFormsFromArray.code, nat_emod ht, ↓evalE_FORM, ↓evalE_CAT, ↓evalE_LIST, blkOf_heap hb, hz, i3, hc, id_ne (show ¬ idFORM = idLIST by decide), id_ne (show ¬ idCAT = idLIST by decide),
        take_set, beq_self_eq_true]
    rw [if_neg i3] at k1
    obtain ⟨h4, rfl⟩ := pure_inv k1
    cases h4
    refine ⟨.refl, 1, fun n hn => ?_⟩
    obtain ⟨n, rfl⟩ : ∃ n', n = n' + 1 := ⟨n - 1, by omega⟩
    rw [callFn_code rfl]
    crun [IFF_searchFormsFromArray.code, nat_emod ht, ↓evalE_FORM, ↓evalE_CAT, ↓evalE_LIST, blkOf_heap hb, hz, id_ne (Ne.symm i1),
      id_ne (Ne.symm i2), id_ne (Ne.symm i3), take_set, blkOf_stk hq]

/-- group.c:307-312 -/
theorem searchFormsOfType_run {ft : ID} {k q : Nat} {B : Blk} {p r : Addr} {len : Nat} {s s' : HS}
    (hq : stk[q]? = some B) (hm : Rep s.mem) (hlen : len < 536870912)
    (h : Heap.searchFormsOfType X.alloc k p ft s = .val ((r, len), s')) : Kept s.mem s'.mem ∧
    Runs X .IFF_searchForms [.ptr (.struct .IFF_Chunk) ⟨.heap p, 0⟩, .int .uint ft.toNat,
      .ptr (.int .uint) ⟨.stk q, 0⟩] (st X stk out room text s)
      (.ptr (.ptr (.struct .IFF_Form)) ⟨.heap r, 0⟩)
      (st X (stk.set q (B.set 0 (.int .uint len))) out room text s') := by
  have hq' := stk_lt hq
  obtain ⟨hk, N, hN⟩ := searchForms_run (X := X) (out := out) (room := room) (text := text) [ft]
    (by decide : 1 < 4294967296) k
    (stk := stk ++ [⟨Ty.size X.e (.arr 1 (.int .uint)), cells [.int .uint ft.toNat]⟩]) (q := q) (B := B)
    (o := .stk stk.length) (by rw [List.getElem?_append_left hq', hq])
    ⟨_, stk_get0, by simp [Ty.size, scalarSize, ITy.bits], by
      intro i t h
      cases i with
      | zero => cases h; rfl
      | succ i => cases h⟩ (by simp; omega) hm hlen h
  refine ⟨hk, N + 1, fun n hn => ?_⟩
  obtain ⟨n, rfl⟩ : ∃ n', n = n' + 1 := ⟨n - 1, by omega⟩
  have hc := hN n (by omega)
  rw [List.set_append_left _ _ hq'] at hc
  have hc' := (callFn_args (X := X) (n := n) (f := .IFF_searchFormsFromArray) (vs := [.ptr (.struct .IFF_Chunk) ⟨.heap p, 0⟩,
    .ptr (.int .uint) ⟨.stk stk.length, 0⟩, .int .int 1, .ptr (.int .uint) ⟨.stk q, 0⟩]) (vs' := [.ptr (.struct .IFF_Chunk) ⟨.heap p, 0⟩,
    .ptr (.int .uint) ⟨.stk stk.length, 0⟩, .int .uint 1, .ptr (.int .uint) ⟨.stk q, 0⟩]) rfl rfl).trans hc
  have h11 : 1 * scalarSize X.e (.int .uint) ≤ Ty.size X.e (.arr 1 (.int .uint)) := Nat.le_refl _
  have htake : ∀ b, (stk.set q (B.set 0 (.int .uint len)) ++ [b]).take stk.length = stk.set q (B.set 0 (.int .uint len)) := by
    intro b
    rw [List.take_append_of_le_length (by simp), take_set]
  rw [callFn_code rfl]
  crun [IFF_searchForms.code, toNat_emod, blkOf_stk stk_get0, h11, hc', htake]

/-- form.c:323-331 -/
theorem collect_run {p : Addr} {cid : ID} {q : Nat} {b : Block} {g : Grp} (hb2 : b.grp? = some g) :
    ∀ {k i : Nat} {stk : List Blk} {B : Blk} {res r : Addr} {len len' : Nat} {s s' : HS},
      stk[q]? = some B → B.cell 0 = .int .uint len → Rep s.mem → len' < 536870912 →
      s.mem p = some b → Heap.collect X.alloc cid p k i res len s = .val ((r, len'), s') →
      g.len = i + k → (len ≤ len' ∧ Kept s.mem s'.mem) ∧ ∀ loc : Var → Slot,
        loc .i = .reg (.int .uint) (.int .uint i) →
        loc .form = .reg (.ptr (.struct .IFF_Form)) (.ptr (.struct .IFF_Form) ⟨.heap p, 0⟩) →
        loc .chunkId = .reg (.int .uint) (.int .uint cid.toNat) →
        loc .chunksLength = .reg (.ptr (.int .uint)) (.ptr (.int .uint) ⟨.stk q, 0⟩) →
        loc .result = .reg (.ptr (.ptr (.struct .IFF_Chunk))) (.ptr (.ptr (.struct .IFF_Chunk)) ⟨.heap res, 0⟩) →
        ∃ loc' N, loc' .result = .reg (.ptr (.ptr (.struct .IFF_Chunk))) (.ptr (.ptr (.struct .IFF_Chunk)) ⟨.heap r, 0⟩) ∧
        ∀ n, N ≤ n → ∀ j, N ≤ j →
        whileN (evalC X (callFn X n) (.bin .lt (.var .i) (.arrow (.var .form) .chunkLength)))
          (forBody X (callFn X n) n
            (.ite (.bin .eq (.arrow (.index (.arrow (.var .form) .chunk) (.var .i)) .chunkId) (.var .chunkId))
          (.seq (.expr (.assign (.var .result) (.cast (.ptr (.ptr (.struct .IFF_Chunk))) (.call (.fn .realloc) (.cons (.var .result) (.cons (.bin .mul (.bin .add (.deref (.var .chunksLength)) (.num .int 1)) (.sizeof (.ptr (.struct .IFF_Chunk)))) .nil))))))
            (.seq (.expr (.assign (.index (.var .result) (.deref (.var .chunksLength))) (.index (.arrow (.var .form) .chunk) (.var .i))))
            (.expr (.assign (.deref (.var .chunksLength)) (.bin .add (.deref (.var .chunksLength)) (.num .int 1))))))
          .skip)
            (.inc (.var .i))) j ⟨loc, st X stk out room text s⟩ =
          .val (.norm, ⟨loc', st X (stk.set q (B.set 0 (.int .uint len'))) out room text s'⟩) := by
  obtain ⟨hd, sz, rest, -, -, hz, hly, -⟩ := grp_layout X hb2
  intro k
  induction k with
  | zero =>
    intro i stk B res r len len' s s' hq hB hm hlen hb1 h hl
    obtain ⟨h1, rfl⟩ := pure_inv h
    cases h1
    have hb := heapOf_some (e := X.e) hb1
    rw [hly] at hb
    have hg := hm.grp hb1 hb2
    refine ⟨⟨Nat.le_refl _, .refl⟩, fun loc hi hgr _ _ hf => ⟨loc, 1, hf, fun n hn j hj => ?_⟩⟩
    obtain ⟨j, rfl⟩ : ∃ j', j = j' + 1 := ⟨j - 1, by omega⟩
    have hset : stk.set q (B.set 0 (.int .uint len)) = stk := by
      rw [Blk.set_same hB, set_same hq]
    rw [whileN_succ, hset]
    crun [hi, hgr, blkOf_heap hb, hz, nat_emod (show g.len < 4294967296 by omega),
      nat_emod (show i < 4294967296 by omega), decide_eq_false (show ¬ (i : Int) < g.len by omega), if_true]
  | succ k ih =>
    intro i stk B res r len len' s s' hq hB hm hlen hb1 h hl
    have hq' := stk_lt hq
    have hb := heapOf_some (e := X.e) hb1
    rw [hly] at hb
    have hg := hm.grp hb1 hb2
    unfold Heap.collect at h
    obtain ⟨g1, s1, h1, k1⟩ := bind_inv h
    clear h
    obtain ⟨⟨b', hb1', hb2'⟩, rfl⟩ := getGrp_inv h1
    rw [hb1] at hb1'; cases hb1'
    rw [hb2] at hb2'; cases hb2'
    obtain ⟨c, s2, h2, k2⟩ := bind_inv k1
    obtain ⟨rfl, C, hC, hCs, hCc⟩ := getPtr_step (X := X) h2
    obtain ⟨hc, s3, h3, k3⟩ := bind_inv k2
    obtain ⟨rfl, szc, restc, hzc, hbc⟩ := getHdr_step (X := X) h3
    by_cases he : hc.id = cid
    · rw [if_pos he] at k3
      subst he
      obtain ⟨res2, s4, h4, k4⟩ := bind_inv k3
      have hk4 := realloc_kept h4
      have hb14 := hk4.1 _ _ _ hb1 hb2
      obtain ⟨g5, s5, h5, k5⟩ := bind_inv k4
      obtain ⟨⟨b', hb1', hb2'⟩, rfl⟩ := getGrp_inv h5
      rw [hb14] at hb1'; cases hb1'
      rw [hb2] at hb2'; cases hb2'
      have hb5 := heapOf_some (e := X.e) hb14
      rw [hly] at hb5
      obtain ⟨c6, s6, h6, k6⟩ := bind_inv k5
      obtain ⟨rfl, C6, hC6, hCs6, hCc6⟩ := getPtr_step (X := X) h6
      obtain ⟨u7, s7, h7, k7⟩ := bind_inv k6
      have hk7 := setPtr_kept h7
      obtain ⟨T, m7, hT, hTs, he7, rfl⟩ := setPtr_step (X := X) h7
      have hk := hk4.trans hk7
      obtain ⟨⟨hle, hk8⟩, h8⟩ := ih (stk := stk.set q (B.set 0 (.int .uint ((len + 1 : Nat) : Int))))
        (B := B.set 0 (.int .uint ((len + 1 : Nat) : Int))) (by simp [hq']) (by simp [Blk.set])
        (hk.rep hm) hlen (hk.1 _ _ _ hb1 hb2) k7 (by omega)
      refine ⟨⟨by omega, hk.trans hk8⟩, fun loc hi hgr hcid hcl hres => ?_⟩
      obtain ⟨loc', N, hf', hN⟩ := h8 (setLoc (setLoc loc
        .result (.reg (.ptr (.ptr (.struct .IFF_Chunk))) (.ptr (.ptr (.struct .IFF_Chunk)) ⟨.heap res2, 0⟩)))
        .i (.reg (.int .uint) (.int .uint ((i + 1 : Nat) : Int))))
        (by simp [setLoc]) (by simp [setLoc, hgr]) (by simp [setLoc, hcid]) (by simp [setLoc, hcl]) (by simp [setLoc])
      refine ⟨loc', N + 2, hf', fun n hn j hj => ?_⟩
      obtain ⟨j, rfl⟩ : ∃ j', j = j' + 1 := ⟨j - 1, by omega⟩
      obtain ⟨n, rfl⟩ : ∃ j', n = j' + 1 := ⟨n - 1, by omega⟩
      have hw := hN (n + 1) (by omega) j (by omega)
      rw [List.set_set, Blk.set_again] at hw
      have hr := realloc_run (stk := stk) (out := out) (room := room) (text := text) h4
      rw [whileN_succ]
      crun [hi, hgr, hcid, hcl, hres, blkOf_heap hb, hz, nat_emod (show g.len < 4294967296 by omega),
        nat_emod (show i < 4294967296 by omega), decide_eq_true (show (i : Int) < g.len by omega),
        ↓forBody_obind, blkOf_heap hC, hCs, hCc, Int.natCast_nonneg, Int.toNat_natCast, scalarSize, Ty.size,
        blkOf_heap hbc, hzc, toNat_emod, beq_self_eq_true, blkOf_stk hq, hB, nat_emod (show len < 4294967296 by omega),
        succ_emod (show len + 1 < 4294967296 by omega), toSize_toSize, toSize_array (show len < 536870912 by omega),
        toSize_array' (show len < 536870912 by omega), hr, blkOf_heap hb5, blkOf_heap hC6, hCs6, hCc6, blkOf_heap hT, hTs, he7,
        nat_emod (show len + 1 < 4294967296 by omega),
        step_obind, succ_emod (show i + 1 < 4294967296 by omega), nat_emod (show i + 1 < 4294967296 by omega), hw]
    · rw [if_neg he] at k3
      obtain ⟨hk8, h8⟩ := ih hq hB hm hlen hb1 k3 (by omega)
      refine ⟨hk8, fun loc hi hgr hcid hcl hres => ?_⟩
      obtain ⟨loc', N, hf', hN⟩ := h8 (setLoc loc
        .i (.reg (.int .uint) (.int .uint ((i + 1 : Nat) : Int))))
        (by simp [setLoc]) (by simp [setLoc, hgr]) (by simp [setLoc, hcid]) (by simp [setLoc, hcl]) (by simp [setLoc, hres])
      refine ⟨loc', N + 2, hf', fun n hn j hj => ?_⟩
      obtain ⟨j, rfl⟩ : ∃ j', j = j' + 1 := ⟨j - 1, by omega⟩
      have hw := hN n (by omega) j (by omega)
      rw [whileN_succ]
      crun [hi, hgr, hcid, hcl, hres, blkOf_heap hb, hz, nat_emod (show g.len < 4294967296 by omega),
        nat_emod (show i < 4294967296 by omega), decide_eq_true (show (i : Int) < g.len by omega),
        ↓forBody_obind, blkOf_heap hC, hCs, hCc, Int.natCast_nonneg, Int.toNat_natCast, scalarSize,
        blkOf_heap hbc, hzc, toNat_emod, id_ne he,
        step_obind, succ_emod (show i + 1 < 4294967296 by omega), nat_emod (show i + 1 < 4294967296 by omega), hw]

/-- form.c:316-334 -/
theorem getChunks_run {p r : Addr} {cid : ID} {q len : Nat} {B : Blk} {s s' : HS} (hq : stk[q]? = some B)
    (hm : Rep s.mem) (hlen : len < 536870912)
    (h : Heap.getChunks X.alloc p cid s = .val ((r, len), s')) : Kept s.mem s'.mem ∧
    Runs X .IFF_getChunksFromForm [.ptr (.struct .IFF_Form) ⟨.heap p, 0⟩, .int .uint cid.toNat,
      .ptr (.int .uint) ⟨.stk q, 0⟩] (st X stk out room text s)
      (.ptr (.ptr (.struct .IFF_Chunk)) ⟨.heap r, 0⟩)
      (st X (stk.set q (B.set 0 (.int .uint len))) out room text s') := by
  unfold Heap.getChunks at h
  obtain ⟨g, s1, h1, k1⟩ := bind_inv h
  clear h
  obtain ⟨⟨b, hb1, hb2⟩, rfl⟩ := getGrp_inv h1
  obtain ⟨⟨-, hk⟩, hl⟩ := collect_run (X := X) (out := out) (room := room) (text := text) hb2 (q := q) (stk := stk.set q (B.set 0 (.int .uint 0)))
    (B := B.set 0 (.int .uint 0)) (by simp [stk_lt hq]) (by simp [Blk.set]) hm hlen
    hb1 k1 (by omega)
  refine ⟨hk, ?_⟩
  obtain ⟨loc', N, hf, hN⟩ := hl
    (setLoc (setLoc (setLoc (setLoc (setLoc (setLoc (fun _ => .none)
      .chunksLength (.reg (.ptr (.int .uint)) (.ptr (.int .uint) ⟨.stk q, 0⟩)))
      .chunkId (.reg (.int .uint) (.int .uint cid.toNat)))
      .form (.reg (.ptr (.struct .IFF_Form)) (.ptr (.struct .IFF_Form) ⟨.heap p, 0⟩)))
      .result (.reg (.ptr (.ptr (.struct .IFF_Chunk))) (.ptr (.ptr (.struct .IFF_Chunk)) Ptr.null)))
      .i (.reg (.int .uint) .undef)) .i (.reg (.int .uint) (.int .uint 0)))
    (by simp [setLoc]) (by simp [setLoc]) (by simp [setLoc]) (by simp [setLoc]) (by simp [setLoc])
  refine ⟨N + 1, fun n hn => ?_⟩
  obtain ⟨n, rfl⟩ : ∃ n', n = n' + 1 := ⟨n - 1, by omega⟩
  have hw := hN n (by omega) n (by omega)
  rw [List.set_set, Blk.set_again] at hw
  rw [callFn_code rfl]
  crun [IFF_getChunksFromForm.code, toNat_emod, blkOf_stk hq, ↓exec_for', hw, hf, take_set]

/-! ### Allocators that are alike -/

theorem bind_to {σ α β : Type} {m : M σ α} {f : α → M σ β} {s s' : σ} {a : α} (h : m s = .val (a, s')) :
    (m >>= f) s = f a s' := by
  rw [M.bind_apply, h]

theorem merge_like {N : Nat} {A : Heap.Alloc} (hA : Like X N A) {a b tlen slen : Nat} (h : tlen + slen ≤ N) :
    Heap.mergeFormArray A a tlen b slen = Heap.mergeFormArray X.alloc a tlen b slen := by
  unfold Heap.mergeFormArray
  rw [realloc_like hA h]

theorem merge_len {A : Heap.Alloc} {a b r tlen slen len : Nat} {s s' : HS}
    (h : Heap.mergeFormArray A a tlen b slen s = .val ((r, len), s')) : len = tlen + slen := by
  unfold Heap.mergeFormArray at h
  obtain ⟨_, s1, h1, k1⟩ := bind_inv h
  obtain ⟨u, s2, h2, k2⟩ := bind_inv k1
  obtain ⟨h3, rfl⟩ := pure_inv k2
  cases h3; rfl

theorem members_len {A : Heap.Alloc} {search : Addr → M HS (Addr × Nat)} {p : Addr} :
    ∀ {k i : Nat} {forms r : Addr} {len len' : Nat} {s s' : HS},
    Heap.searchMembers A search p k i forms len s = .val ((r, len'), s') → len ≤ len' := by
  intro k
  induction k with
  | zero => intro i forms r len len' s s' h; obtain ⟨h1, -⟩ := pure_inv h; cases h1; exact Nat.le_refl _
  | succ k ih =>
    intro i forms r len len' s s' h
    unfold Heap.searchMembers at h
    obtain ⟨g, s1, h1, k1⟩ := bind_inv h
    obtain ⟨c, s2, h2, k2⟩ := bind_inv k1
    obtain ⟨⟨a, al⟩, s3, h3, k3⟩ := bind_inv k2
    obtain ⟨⟨b, bl⟩, s4, h4, k4⟩ := bind_inv k3
    have := merge_len h4
    have := ih k4
    omega

theorem members_like {N : Nat} {A : Heap.Alloc} (hA : Like X N A)
    {search search' : Addr → M HS (Addr × Nat)} {p : Addr}
    (hs : ∀ c r len s s', len ≤ N → search c s = .val ((r, len), s') → search' c s = .val ((r, len), s')) :
    ∀ {k i : Nat} {forms r : Addr} {len len' : Nat} {s s' : HS}, len' ≤ N →
    Heap.searchMembers A search p k i forms len s = .val ((r, len'), s') →
    Heap.searchMembers X.alloc search' p k i forms len s = .val ((r, len'), s') := by
  intro k
  induction k with
  | zero => intro i forms r len len' s s' _ h; exact h
  | succ k ih =>
    intro i forms r len len' s s' hn h
    unfold Heap.searchMembers at h ⊢
    obtain ⟨g, s1, h1, k1⟩ := bind_inv h
    obtain ⟨c, s2, h2, k2⟩ := bind_inv k1
    obtain ⟨⟨a, al⟩, s3, h3, k3⟩ := bind_inv k2
    obtain ⟨⟨b, bl⟩, s4, h4, k4⟩ := bind_inv k3
    have e1 := merge_len h4
    have e2 := members_len k4
    rw [merge_like hA (by omega)] at h4
    rw [bind_to h1, bind_to h2, bind_to (hs _ _ _ _ _ (show al ≤ N by omega) h3)]
    exact (bind_to h4).trans (ih hn k4)

theorem group_like {N : Nat} {A : Heap.Alloc} (hA : Like X N A)
    {search search' : Addr → M HS (Addr × Nat)} {p : Addr}
    (hs : ∀ c r len s s', len ≤ N → search c s = .val ((r, len), s') → search' c s = .val ((r, len), s'))
    {r : Addr} {len : Nat} {s s' : HS} (hn : len ≤ N)
    (h : Heap.searchGroup A search p s = .val ((r, len), s')) :
    Heap.searchGroup X.alloc search' p s = .val ((r, len), s') := by
  unfold Heap.searchGroup at h ⊢
  obtain ⟨g, s1, h1, k1⟩ := bind_inv h
  rw [M.bind_apply, h1]
  exact members_like hA hs hn k1

/-- Searching for at most `N` forms allocates arrays of at most `N` pointers. -/
theorem searchForms_like {N : Nat} {A : Heap.Alloc} (hA : Like X N A) (h1N : 1 ≤ N) {types : List ID} :
    ∀ {n : Nat} (p r : Addr) (len : Nat) (s s' : HS), len ≤ N →
    Heap.searchForms A types n p s = .val ((r, len), s') →
    Heap.searchForms X.alloc types n p s = .val ((r, len), s') := by
  intro n
  induction n with
  | zero => intro p r len s s' _ h; cases h
  | succ n ih =>
    intro p r len s s' hn h
    unfold Heap.searchForms at h ⊢
    obtain ⟨hd, s1, h1, k1⟩ := bind_inv h
    rw [bind_to h1]
    by_cases hF : hd.id = idFORM
    · rw [if_pos hF] at k1 ⊢
      unfold Heap.searchInForm at k1 ⊢
      obtain ⟨g, s2, h2, k2⟩ := bind_inv k1
      rw [bind_to h2]
      by_cases ht : g.ty ∈ types
      · rw [if_pos ht] at k2 ⊢
        rw [malloc_like hA (by intro n h; cases h; exact h1N)] at k2
        exact k2
      · rw [if_neg ht] at k2 ⊢
        exact group_like hA ih hn k2
    · rw [if_neg hF] at k1 ⊢
      by_cases hC : hd.id = idCAT
      · rw [if_pos hC] at k1 ⊢
        exact group_like hA ih hn k1
      · rw [if_neg hC] at k1 ⊢
        by_cases hL : hd.id = idLIST
        · rw [if_pos hL] at k1 ⊢
          exact group_like hA ih hn k1
        · rw [if_neg hL] at k1 ⊢
          exact k1

theorem collect_len {A : Heap.Alloc} {cid : ID} {p : Addr} :
    ∀ {k i : Nat} {res r : Addr} {len len' : Nat} {s s' : HS},
    Heap.collect A cid p k i res len s = .val ((r, len'), s') → len ≤ len' := by
  intro k
  induction k with
  | zero => intro i res r len len' s s' h; obtain ⟨h1, -⟩ := pure_inv h; cases h1; exact Nat.le_refl _
  | succ k ih =>
    intro i res r len len' s s' h
    unfold Heap.collect at h
    obtain ⟨g, s1, h1, k1⟩ := bind_inv h
    obtain ⟨c, s2, h2, k2⟩ := bind_inv k1
    obtain ⟨hd, s3, h3, k3⟩ := bind_inv k2
    split at k3
    · obtain ⟨a, s4, h4, k4⟩ := bind_inv k3
      obtain ⟨_, s5, h5, k5⟩ := bind_inv k4
      obtain ⟨_, s6, h6, k6⟩ := bind_inv k5
      obtain ⟨_, s7, h7, k7⟩ := bind_inv k6
      have := ih k7
      omega
    · exact ih k3

/-- Collecting at most `N` chunks allocates arrays of at most `N` pointers. -/
theorem collect_like {N : Nat} {A : Heap.Alloc} (hA : Like X N A) {cid : ID} {p : Addr} :
    ∀ {k i : Nat} {res r : Addr} {len len' : Nat} {s s' : HS}, len' ≤ N →
    Heap.collect A cid p k i res len s = .val ((r, len'), s') →
    Heap.collect X.alloc cid p k i res len s = .val ((r, len'), s') := by
  intro k
  induction k with
  | zero => intro i res r len len' s s' _ h; exact h
  | succ k ih =>
    intro i res r len len' s s' hn h
    unfold Heap.collect at h ⊢
    obtain ⟨g, s1, h1, k1⟩ := bind_inv h
    obtain ⟨c, s2, h2, k2⟩ := bind_inv k1
    obtain ⟨hd, s3, h3, k3⟩ := bind_inv k2
    rw [bind_to h1, bind_to h2, bind_to h3]
    split at k3
    · rename_i hid
      rw [if_pos hid]
      obtain ⟨a, s4, h4, k4⟩ := bind_inv k3
      obtain ⟨g5, s5, h5, k5⟩ := bind_inv k4
      obtain ⟨c6, s6, h6, k6⟩ := bind_inv k5
      obtain ⟨u7, s7, h7, k7⟩ := bind_inv k6
      have := collect_len k7
      rw [realloc_like hA (by omega)] at h4
      rw [bind_to h4, bind_to h5, bind_to h6, bind_to h7]
      exact ih hn k7
    · rename_i hid
      rw [if_neg hid]
      exact ih hn k3

theorem getChunks_like {N : Nat} {A : Heap.Alloc} (hA : Like X N A) {cid : ID} {p r : Addr} {len : Nat}
    {s s' : HS} (hn : len ≤ N) (h : Heap.getChunks A p cid s = .val ((r, len), s')) :
    Heap.getChunks X.alloc p cid s = .val ((r, len), s') := by
  unfold Heap.getChunks at h ⊢
  obtain ⟨g, s1, h1, k1⟩ := bind_inv h
  rw [M.bind_apply, h1]
  exact collect_like hA hn k1

end

end Iff.Src
