import Verif.Proofs.SrcLookupProp
import Verif.Spec.TestLookup
/-
  The text of tests/lookupproperty-nested.c, statement by statement.
-/
namespace Iff.Src

open Iff.Heap Iff.Spec

set_option maxRecDepth 4000

variable {X : Cfg} {a r p c : Addr} {args : List String} {g g₁ : CS} {stk : List Blk}
variable {h₁ h₂ h₃ : Addr → Option Blk} {k₁ k₂ k₃ : Nat} {i₁ i₂ i₃ o : List Byte} {rm : Nat} {tx : List Byte}
variable {l₁ l₂ l₃ : List ErrPrint} {len : Nat}

theorem evalE_nameBYE {call : Fn → List V → M CS V} {f : Fr} :
    evalE X call (IFF_MAKEID (.num .int 66) (.num .int 89) (.num .int 69) (.num .int 32)) f =
    .val (.int .int nameBYE.toNat, f) := evalE_idBYE

theorem evalE_heloOf {call : Fn → List V → M CS V} {f : Fr} : evalE X call lookupproperty_nested_ID_HELO f =
    .val (.int .int nameHELO.toNat, f) := evalE_nameHELO

theorem evalE_byeOf {call : Fn → List V → M CS V} {f : Fr} : evalE X call lookupproperty_nested_ID_BYE f =
    .val (.int .int nameBYE.toNat, f) := evalE_nameBYE

/-- lookupproperty-nested.c:36-110, nothing read -/
theorem nested_none (hr : args.length + 1 < 2147483648) (hk : g₁.stk = g.stk)
    (h1 : Runs X .IFF_read [.str "lookupproperty-nested.TEST", .ptr .void Ptr.null] g (chunkV 0) g₁) :
    Runs X .lookupproperty_nested_main (mainArgs args) g (.int .int 1) g₁ := by
  have hk1 : List.take g.stk.length g₁.stk = g₁.stk := by rw [hk, List.take_length]
  have hw : wrapInt ((args.length + 1 : Nat) : Int) = ((args.length + 1 : Nat) : Int) := wrapInt_of ⟨by omega, by omega⟩
  obtain ⟨N1, hN1⟩ := h1
  refine ⟨N1 + 2, fun n hn => ?_⟩
  obtain ⟨n, rfl⟩ : ∃ n', n = n' + 2 := ⟨n - 2, by omega⟩
  have hr1 := hN1 (n + 1) (by omega)
  rw [callFn_code rfl]
  crun [lookupproperty_nested_main.code, mainArgs, hw, addr_beq_null, beq_self_eq_true, hr1, hk1]

/-- lookupproperty-nested.c:36-110, another number of forms -/
theorem nested_number (hr : args.length + 1 < 2147483648) (ha : a ≠ 0) (hk : g.stk = stk) (hl : len < 4294967296)
    (hl0 : len ≠ 2)
    (h1 : Runs X .IFF_read [.str "lookupproperty-nested.TEST", .ptr .void Ptr.null] g (chunkV a)
      ⟨h₁, k₁, stk, i₁, o, rm, tx, l₁⟩)
    (h2 : Runs X .IFF_searchForms [chunkV a, .int .int typeTEST.toNat, .ptr (.int .uint) ⟨.stk stk.length, 0⟩]
      ⟨h₁, k₁, stk ++ [⟨4, cells []⟩], i₁, o, rm, tx, l₁⟩ (.ptr (.ptr (.struct .IFF_Form)) ⟨.heap r, 0⟩)
      ⟨h₂, k₂, stk ++ [lengthObj len], i₂, o, rm, tx, l₂⟩)
    (h3 : Runs X .IFF_free [chunkV a, .ptr .void Ptr.null] ⟨h₂, k₂, stk ++ [lengthObj len], i₂, o, rm, tx, l₂⟩ .void
      ⟨h₃, k₃, stk ++ [lengthObj len], i₃, o, rm, tx, l₃⟩) :
    Runs X .lookupproperty_nested_main (mainArgs args) g (.int .int 1) ⟨h₃, k₃, stk, i₃, o, rm, tx, l₃⟩ := by
  subst hk
  have hw : wrapInt ((args.length + 1 : Nat) : Int) = ((args.length + 1 : Nat) : Int) := wrapInt_of ⟨by omega, by omega⟩
  have hab : (a == 0) = false := by simpa using ha
  have hcell : (lengthObj len).cell 0 = .int .uint len := rfl
  have hnb : ((len : Int) % 4294967296 == 2) = false := by
    rw [beq_eq_false_iff_ne]
    omega
  obtain ⟨N1, hN1⟩ := h1
  obtain ⟨N2, hN2⟩ := h2
  obtain ⟨N3, hN3⟩ := h3
  refine ⟨N1 + N2 + N3 + 3, fun n hn => ?_⟩
  obtain ⟨n, rfl⟩ : ∃ n', n = n' + 3 := ⟨n - 3, by omega⟩
  have hr1 := hN1 (n + 2) (by omega)
  have hr2 := hN2 (n + 2) (by omega)
  have hr3 := hN3 (n + 2) (by omega)
  have hfp : ∀ (s : String) (g : CS), callFn X (n + 2) .fprintf [.file .err, .str s] g = .val (.int .int 0, g) := fun _ _ => rfl
  rw [callFn_code rfl]
  crun [lookupproperty_nested_main.code, lookupproperty_nested_ID_TEST, ↓evalE_typeTEST, mainArgs, hw, addr_beq_null, hab, hr1,
    hr2, hr3, Ty.size, scalarSize, ITy.bits, blkOf_stk stk_get0, hcell, stk_take0, hnb, evalE_stderr, hfp]

theorem nested_code : lookupproperty_nested_main.code =
    { params := [(.argc, (.int .int)), (.argv, (.ptr (.ptr (.int .char))))]
      ret := (.int .int)
      body :=
        (.seq (.decl .chunk (.ptr (.struct .IFF_Chunk)) (some (.call (.fn .IFF_read) (.cons (.str "lookupproperty-nested.TEST") (.cons .null .nil)))))
          (.ite (.bin .eq (.var .chunk) .null)
          (.ret (.num .int 1))
          (.seq (.decl .status (.int .int) (some (.num .int 0)))
            (.seq (.object .formsLength (.int .uint) none)
            (.seq (.decl .forms (.ptr (.ptr (.struct .IFF_Form))) (some (.call (.fn .IFF_searchForms) (.cons (.var .chunk) (.cons lookupproperty_nested_ID_TEST (.cons (.addr (.var .formsLength)) .nil))))))
            (.seq (.ite (.bin .eq (.var .formsLength) (.num .int 2))
              (.seq (.decl .form (.ptr (.struct .IFF_Form)) (some (.index (.var .forms) (.num .int 1))))
                (.seq (.decl .heloChunk (.ptr (.struct .IFF_RawChunk)) (some (.cast (.ptr (.struct .IFF_RawChunk)) (.call (.fn .IFF_getChunkFromForm) (.cons (.var .form) (.cons lookupproperty_nested_ID_HELO .nil))))))
                (.seq (.decl .byeChunk (.ptr (.struct .IFF_RawChunk)) (some (.cast (.ptr (.struct .IFF_RawChunk)) (.call (.fn .IFF_getChunkFromForm) (.cons (.var .form) (.cons lookupproperty_nested_ID_BYE .nil))))))
                (.seq (checks .heloChunk lookupproperty_nested_ID_HELO 49 50 51 52 "Error: 'HELO' chunk contents should be: '1', '2', '3', '4'!\n"
            "Error: size of helo chunk should be: %u!\n"
            (.seq (.expr (.call (.fn .fprintf) (.cons (.stream .stderr) (.cons (.str "Error: we should be able to find a HELO chunk!\n") .nil)))) (.expr (.assign (.var .status) (.num .int 1)))))
                (checks .byeChunk lookupproperty_nested_ID_BYE 113 119 101 114 "Error: 'BYE ' chunk contents should be: 'q', 'w', 'e', 'r'!\n"
            "Error: size of helo chunk should be: %u!\n"
            .skip)))))
              (.seq (.expr (.call (.fn .fprintf) (.cons (.stream .stderr) (.cons (.str "Error: we should be able to find 2 TEST forms!\n") .nil))))
                (.expr (.assign (.var .status) (.num .int 1)))))
            (.seq (.expr (.call (.fn .IFF_free) (.cons (.var .chunk) (.cons .null .nil))))
            (.ret (.var .status))))))))) } := rfl

/-- lookupproperty-nested.c:36-110, two forms found -/
theorem nested_some (hr : args.length + 1 < 2147483648) (ha : a ≠ 0) (hk : g.stk = stk)
    {B : Blk} (hB : h₂ r = some B) (hBs : 2 * (X.e.sizeBits / 8) ≤ B.size) (hBc : B.cell 1 = .ptr (.ofAddr p))
    {data data' : List Byte} (hdl : data.length < 2147483648) (hdl' : data'.length < 2147483648) {c' : Addr}
    (h1 : Runs X .IFF_read [.str "lookupproperty-nested.TEST", .ptr .void Ptr.null] g (chunkV a)
      ⟨h₁, k₁, stk, i₁, o, rm, tx, l₁⟩)
    (h2 : Runs X .IFF_searchForms [chunkV a, .int .int typeTEST.toNat, .ptr (.int .uint) ⟨.stk stk.length, 0⟩]
      ⟨h₁, k₁, stk ++ [⟨4, cells []⟩], i₁, o, rm, tx, l₁⟩ (.ptr (.ptr (.struct .IFF_Form)) ⟨.heap r, 0⟩)
      ⟨h₂, k₂, stk ++ [lengthObj 2], i₂, o, rm, tx, l₂⟩)
    (h4 : Runs X .IFF_getChunkFromForm [ptrV .IFF_Form p, .int .int nameHELO.toNat]
      ⟨h₂, k₂, stk ++ [lengthObj 2], i₂, o, rm, tx, l₂⟩ (chunkV c) ⟨h₂, k₂, stk ++ [lengthObj 2], i₂, o, rm, tx, l₂⟩)
    (h5 : Runs X .IFF_getChunkFromForm [ptrV .IFF_Form p, .int .int nameBYE.toNat]
      ⟨h₂, k₂, stk ++ [lengthObj 2], i₂, o, rm, tx, l₂⟩ (chunkV c') ⟨h₂, k₂, stk ++ [lengthObj 2], i₂, o, rm, tx, l₂⟩)
    (hb : c ≠ 0 → RawAt X h₂ c nameHELO data) (hb' : c' ≠ 0 → RawAt X h₂ c' nameBYE data')
    (h3 : Runs X .IFF_free [chunkV a, .ptr .void Ptr.null] ⟨h₂, k₂, stk ++ [lengthObj 2], i₂, o, rm, tx, l₂⟩ .void
      ⟨h₃, k₃, stk ++ [lengthObj 2], i₃, o, rm, tx, l₃⟩) :
    Runs X .lookupproperty_nested_main (mainArgs args) g
      (.int .int (if (c ≠ 0 ∧ data = [49#8, 50#8, 51#8, 52#8]) ∧ (c' = 0 ∨ data' = [113#8, 119#8, 101#8, 114#8]) then 0 else 1))
      ⟨h₃, k₃, stk, i₃, o, rm, tx, l₃⟩ := by
  subst hk
  have hw : wrapInt ((args.length + 1 : Nat) : Int) = ((args.length + 1 : Nat) : Int) := wrapInt_of ⟨by omega, by omega⟩
  have hab : (a == 0) = false := by simpa using ha
  have hcell : (lengthObj 2).cell 0 = .int .uint 2 := rfl
  obtain ⟨N1, hN1⟩ := h1
  obtain ⟨N2, hN2⟩ := h2
  obtain ⟨N3, hN3⟩ := h3
  obtain ⟨N4, hN4⟩ := h4
  obtain ⟨N5, hN5⟩ := h5
  refine ⟨N1 + N2 + N3 + N4 + N5 + 3, fun n hn => ?_⟩
  obtain ⟨n, rfl⟩ : ∃ n', n = n' + 3 := ⟨n - 3, by omega⟩
  have hr1 := hN1 (n + 2) (by omega)
  have hr2 := hN2 (n + 2) (by omega)
  have hr3 := hN3 (n + 2) (by omega)
  have hr4 := hN4 (n + 2) (by omega)
  have hr5 := hN5 (n + 2) (by omega)
  have hfp : ∀ (s : String) (g : CS), callFn X (n + 2) .fprintf [.file .err, .str s] g = .val (.int .int 0, g) := fun _ _ => rfl
  have hfp' : ∀ (s : String) (g : CS), callFn X (n + 2) .fprintf [.file .err, .str s, .int .int 4] g = .val (.int .int 0, g) :=
    fun _ _ => rfl
  have hhelo : ∀ (k : Nat) (m₁ m₂ m₃ : String) (loc : Var → Slot),
      loc .heloChunk = .reg (.ptr (.struct .IFF_RawChunk)) (.ptr (.struct .IFF_RawChunk) (.ofAddr c)) →
      loc .status = .reg (.int .int) (.int .int 0) →
      exec X (callFn X (n + 2)) k (checks .heloChunk lookupproperty_nested_ID_HELO 49 50 51 52 m₁ m₂
          (.seq (.expr (.call (.fn .fprintf) (.cons (.stream .stderr) (.cons (.str m₃) .nil))))
            (.expr (.assign (.var .status) (.num .int 1))))) ⟨loc, ⟨h₂, k₂, g.stk ++ [lengthObj 2], i₂, o, rm, tx, l₂⟩⟩ =
        .val (.norm, ⟨if c ≠ 0 ∧ data = [49#8, 50#8, 51#8, 52#8] then loc
          else setLoc loc .status (.reg (.int .int) (.int .int 1)), ⟨h₂, k₂, g.stk ++ [lengthObj 2], i₂, o, rm, tx, l₂⟩⟩) := by
    intro k m₁ m₂ m₃ loc hv hs
    by_cases h0 : c = 0
    · subst h0
      rw [if_neg (by simp), checks_null hv]
      crun [varL, hs, evalE_stderr, hfp]
    · have hck := checks_some (n := k) (idE := lookupproperty_nested_ID_HELO) (m₁ := m₁) (m₂ := m₂)
        (els := .seq (.expr (.call (.fn .fprintf) (.cons (.stream .stderr) (.cons (.str m₃) .nil))))
            (.expr (.assign (.var .status) (.num .int 1))))
        h0 hdl hv hs (fun f => evalE_heloOf (f := f)) hfp hfp' (p0 := 49) (p1 := 50) (p2 := 51) (p3 := 52)
        (by decide) (by decide) (by decide) (by decide) (g := ⟨h₂, k₂, g.stk ++ [lengthObj 2], i₂, o, rm, tx, l₂⟩) (hb h0)
      refine hck.trans ?_
      simp only [ne_eq, h0, not_false_eq_true, true_and]
  have hbye : ∀ (k : Nat) (m₁ m₂ : String) (loc : Var → Slot) (s₀ : Int),
      loc .byeChunk = .reg (.ptr (.struct .IFF_RawChunk)) (.ptr (.struct .IFF_RawChunk) (.ofAddr c')) →
      loc .status = .reg (.int .int) (.int .int s₀) →
      exec X (callFn X (n + 2)) k (checks .byeChunk lookupproperty_nested_ID_BYE 113 119 101 114 m₁ m₂ .skip)
          ⟨loc, ⟨h₂, k₂, g.stk ++ [lengthObj 2], i₂, o, rm, tx, l₂⟩⟩ =
        .val (.norm, ⟨if c' = 0 ∨ data' = [113#8, 119#8, 101#8, 114#8] then loc
          else setLoc loc .status (.reg (.int .int) (.int .int 1)), ⟨h₂, k₂, g.stk ++ [lengthObj 2], i₂, o, rm, tx, l₂⟩⟩) := by
    intro k m₁ m₂ loc s₀ hv hs
    by_cases h0 : c' = 0
    · subst h0
      rw [if_pos (.inl rfl), checks_null hv]
      rfl
    · have hck := checks_some (n := k) (idE := lookupproperty_nested_ID_BYE) (m₁ := m₁) (m₂ := m₂) (els := .skip)
        h0 hdl' hv hs (fun f => evalE_byeOf (f := f)) hfp hfp' (p0 := 113) (p1 := 119) (p2 := 101) (p3 := 114)
        (by decide) (by decide) (by decide) (by decide) (g := ⟨h₂, k₂, g.stk ++ [lengthObj 2], i₂, o, rm, tx, l₂⟩) (hb' h0)
      refine hck.trans ?_
      simp only [h0, false_or]
  rw [callFn_code (show code .lookupproperty_nested_main = _ from congrArg some nested_code)]
  by_cases e1 : c ≠ 0 ∧ data = [49#8, 50#8, 51#8, 52#8]
  · simp only [if_pos e1] at hhelo
    have hbye := fun k m₁ m₂ loc => hbye k m₁ m₂ loc 0
    by_cases e2 : c' = 0 ∨ data' = [113#8, 119#8, 101#8, 114#8]
    · rw [if_pos ⟨e1, e2⟩]
      simp only [if_pos e2] at hbye
      crun [↓hhelo, ↓hbye, lookupproperty_nested_ID_TEST, ↓evalE_typeTEST,
        mainArgs, hw, addr_beq_null, hab, hr1, hr2, hr3, hr4, hr5, Ty.size, scalarSize, ITy.bits, blkOf_stk stk_get0,
        hcell, stk_take0, blkOf_heap hB, hBs, hBc, beq_self_eq_true, ↓evalE_heloOf, ↓evalE_byeOf]
    · rw [if_neg fun h => e2 h.2]
      simp only [if_neg e2] at hbye
      crun [↓hhelo, ↓hbye, lookupproperty_nested_ID_TEST, ↓evalE_typeTEST,
        mainArgs, hw, addr_beq_null, hab, hr1, hr2, hr3, hr4, hr5, Ty.size, scalarSize, ITy.bits, blkOf_stk stk_get0,
        hcell, stk_take0, blkOf_heap hB, hBs, hBc, beq_self_eq_true, ↓evalE_heloOf, ↓evalE_byeOf]
  · rw [if_neg fun h => e1 h.1]
    simp only [if_neg e1] at hhelo
    by_cases e2 : c' = 0 ∨ data' = [113#8, 119#8, 101#8, 114#8]
    · simp only [if_pos e2] at hbye
      have hbye := fun k m₁ m₂ loc => hbye k m₁ m₂ loc 1
      crun [↓hhelo, ↓hbye, lookupproperty_nested_ID_TEST, ↓evalE_typeTEST,
        mainArgs, hw, addr_beq_null, hab, hr1, hr2, hr3, hr4, hr5, Ty.size, scalarSize, ITy.bits, blkOf_stk stk_get0,
        hcell, stk_take0, blkOf_heap hB, hBs, hBc, beq_self_eq_true, ↓evalE_heloOf, ↓evalE_byeOf]
    · simp only [if_neg e2] at hbye
      have hbye := fun k m₁ m₂ loc => hbye k m₁ m₂ loc 1
      crun [↓hhelo, ↓hbye, lookupproperty_nested_ID_TEST, ↓evalE_typeTEST,
        mainArgs, hw, addr_beq_null, hab, hr1, hr2, hr3, hr4, hr5, Ty.size, scalarSize, ITy.bits, blkOf_stk stk_get0,
        hcell, stk_take0, blkOf_heap hB, hBs, hBc, beq_self_eq_true, ↓evalE_heloOf, ↓evalE_byeOf]

end Iff.Src
