import Verif.Proofs.SrcChecks
/-
  The text of tests/lookupproperty-prop.c and tests/lookupproperty-override.c, statement by statement.
-/
namespace Iff.Src

open Iff.Heap Iff.Spec

set_option maxRecDepth 4000

variable {X : Cfg} {a r p c : Addr} {args : List String} {g g₁ : CS} {stk : List Blk}
variable {h₁ h₂ h₃ : Addr → Option Blk} {k₁ k₂ k₃ : Nat} {i₁ i₂ i₃ o : List Byte} {rm : Nat} {tx : List Byte}
variable {l₁ l₂ l₃ : List ErrPrint} {len : Nat}

/-- lookupproperty-prop.c:31-63, nothing read -/
theorem lookupprop_none (hr : args.length + 1 < 2147483648) (hk : g₁.stk = g.stk)
    (h1 : Runs X .IFF_read [.str "list.TEST", .ptr .void Ptr.null] g (chunkV 0) g₁) :
    Runs X .lookupproperty_prop_main (mainArgs args) g (.int .int 1) g₁ := by
  have hk1 : List.take g.stk.length g₁.stk = g₁.stk := by rw [hk, List.take_length]
  have hw : wrapInt ((args.length + 1 : Nat) : Int) = ((args.length + 1 : Nat) : Int) := wrapInt_of ⟨by omega, by omega⟩
  obtain ⟨N1, hN1⟩ := h1
  refine ⟨N1 + 2, fun n hn => ?_⟩
  obtain ⟨n, rfl⟩ : ∃ n', n = n' + 2 := ⟨n - 2, by omega⟩
  have hr1 := hN1 (n + 1) (by omega)
  rw [callFn_code rfl]
  crun [lookupproperty_prop_main.code, mainArgs, hw, addr_beq_null, beq_self_eq_true, hr1, hk1]

/-- lookupproperty-prop.c:31-63, no form found -/
theorem lookupprop_nothing (hr : args.length + 1 < 2147483648) (ha : a ≠ 0) (hk : g.stk = stk)
    (h1 : Runs X .IFF_read [.str "list.TEST", .ptr .void Ptr.null] g (chunkV a) ⟨h₁, k₁, stk, i₁, o, rm, tx, l₁⟩)
    (h2 : Runs X .IFF_searchForms [chunkV a, .int .int typeTEST.toNat, .ptr (.int .uint) ⟨.stk stk.length, 0⟩]
      ⟨h₁, k₁, stk ++ [⟨4, cells []⟩], i₁, o, rm, tx, l₁⟩ (.ptr (.ptr (.struct .IFF_Form)) ⟨.heap r, 0⟩)
      ⟨h₂, k₂, stk ++ [lengthObj 0], i₂, o, rm, tx, l₂⟩)
    (h3 : Runs X .IFF_free [chunkV a, .ptr .void Ptr.null] ⟨h₂, k₂, stk ++ [lengthObj 0], i₂, o, rm, tx, l₂⟩ .void
      ⟨h₃, k₃, stk ++ [lengthObj 0], i₃, o, rm, tx, l₃⟩) :
    Runs X .lookupproperty_prop_main (mainArgs args) g (.int .int 1) ⟨h₃, k₃, stk, i₃, o, rm, tx, l₃⟩ := by
  subst hk
  have hw : wrapInt ((args.length + 1 : Nat) : Int) = ((args.length + 1 : Nat) : Int) := wrapInt_of ⟨by omega, by omega⟩
  have hab : (a == 0) = false := by simpa using ha
  have hcell : (lengthObj 0).cell 0 = .int .uint 0 := rfl
  obtain ⟨N1, hN1⟩ := h1
  obtain ⟨N2, hN2⟩ := h2
  obtain ⟨N3, hN3⟩ := h3
  refine ⟨N1 + N2 + N3 + 3, fun n hn => ?_⟩
  obtain ⟨n, rfl⟩ : ∃ n', n = n' + 3 := ⟨n - 3, by omega⟩
  have hr1 := hN1 (n + 2) (by omega)
  have hr2 := hN2 (n + 2) (by omega)
  have hr3 := hN3 (n + 2) (by omega)
  have hfp : ∀ (s : String) (g : CS), callFn X (n + 2) .fprintf [.file .err, .str s] g = .val (.int .int 0, g) := fun _ _ => rfl
  rw [callFn_code rfl]
  crun [lookupproperty_prop_main.code, lookupproperty_prop_ID_TEST, ↓evalE_typeTEST, mainArgs, hw, addr_beq_null, hab, hr1, hr2,
    hr3, Ty.size, scalarSize, ITy.bits, blkOf_stk stk_get0, hcell, stk_take0, evalE_stderr, hfp]

/-- lookupproperty-prop.c:31-63, a form found -/
theorem lookupprop_some (hr : args.length + 1 < 2147483648) (ha : a ≠ 0) (hk : g.stk = stk) (hl : len < 4294967296)
    (hl0 : len ≠ 0) {B : Blk} (hB : h₂ r = some B) (hBs : 1 * (X.e.sizeBits / 8) ≤ B.size) (hBc : B.cell 0 = .ptr (.ofAddr p))
    (h1 : Runs X .IFF_read [.str "list.TEST", .ptr .void Ptr.null] g (chunkV a) ⟨h₁, k₁, stk, i₁, o, rm, tx, l₁⟩)
    (h2 : Runs X .IFF_searchForms [chunkV a, .int .int typeTEST.toNat, .ptr (.int .uint) ⟨.stk stk.length, 0⟩]
      ⟨h₁, k₁, stk ++ [⟨4, cells []⟩], i₁, o, rm, tx, l₁⟩ (.ptr (.ptr (.struct .IFF_Form)) ⟨.heap r, 0⟩)
      ⟨h₂, k₂, stk ++ [lengthObj len], i₂, o, rm, tx, l₂⟩)
    (h4 : Runs X .IFF_getChunkFromForm [ptrV .IFF_Form p, .int .int nameHELO.toNat]
      ⟨h₂, k₂, stk ++ [lengthObj len], i₂, o, rm, tx, l₂⟩ (chunkV c) ⟨h₂, k₂, stk ++ [lengthObj len], i₂, o, rm, tx, l₂⟩)
    (hb' : c ≠ 0 → HeaderAt X h₂ c nameHELO)
    (h3 : Runs X .IFF_free [chunkV a, .ptr .void Ptr.null] ⟨h₂, k₂, stk ++ [lengthObj len], i₂, o, rm, tx, l₂⟩ .void
      ⟨h₃, k₃, stk ++ [lengthObj len], i₃, o, rm, tx, l₃⟩) :
    Runs X .lookupproperty_prop_main (mainArgs args) g (.int .int (if c = 0 then 1 else 0))
      ⟨h₃, k₃, stk, i₃, o, rm, tx, l₃⟩ := by
  subst hk
  have hw : wrapInt ((args.length + 1 : Nat) : Int) = ((args.length + 1 : Nat) : Int) := wrapInt_of ⟨by omega, by omega⟩
  have hab : (a == 0) = false := by simpa using ha
  have hcell : (lengthObj len).cell 0 = .int .uint len := rfl
  have hpos : decide ((0 : Int) < len) = true := by
    rw [decide_eq_true_iff]
    omega
  obtain ⟨N1, hN1⟩ := h1
  obtain ⟨N2, hN2⟩ := h2
  obtain ⟨N3, hN3⟩ := h3
  obtain ⟨N4, hN4⟩ := h4
  refine ⟨N1 + N2 + N3 + N4 + 3, fun n hn => ?_⟩
  obtain ⟨n, rfl⟩ : ∃ n', n = n' + 3 := ⟨n - 3, by omega⟩
  have hr1 := hN1 (n + 2) (by omega)
  have hr2 := hN2 (n + 2) (by omega)
  have hr3 := hN3 (n + 2) (by omega)
  have hr4 := hN4 (n + 2) (by omega)
  have hfp : ∀ (s : String) (g : CS), callFn X (n + 2) .fprintf [.file .err, .str s] g = .val (.int .int 0, g) := fun _ _ => rfl
  rw [callFn_code rfl]
  by_cases h0 : c = 0
  · subst h0
    crun [lookupproperty_prop_main.code, lookupproperty_prop_ID_TEST, lookupproperty_prop_ID_HELO, ↓evalE_typeTEST, ↓evalE_nameHELO,
      mainArgs, hw, addr_beq_null, hab, hr1, hr2, hr3, hr4, Ty.size, scalarSize, ITy.bits, blkOf_stk stk_get0, hcell, stk_take0,
      nat_emod hl, hpos, blkOf_heap hB, hBs, hBc, beq_self_eq_true, evalE_stderr, hfp]
  · have hrb : (c == 0) = false := by simpa using h0
    obtain ⟨sz', par', size', rest', hz', hb'⟩ := hb' h0
    crun [lookupproperty_prop_main.code, lookupproperty_prop_ID_TEST, lookupproperty_prop_ID_HELO, ↓evalE_typeTEST, ↓evalE_nameHELO,
      mainArgs, hw, addr_beq_null, hab, hrb, hr1, hr2, hr3, hr4, Ty.size, scalarSize, ITy.bits, blkOf_stk stk_get0, hcell, stk_take0,
      nat_emod hl, hpos, blkOf_heap hB, hBs, hBc, blkOf_heap hb', hz', h0, bne_self_eq_false]

/-- lookupproperty-override.c:33-83, nothing read -/
theorem override_none (hr : args.length + 1 < 2147483648) (hk : g₁.stk = g.stk)
    (h1 : Runs X .IFF_read [.str "lookupproperty-override.TEST", .ptr .void Ptr.null] g (chunkV 0) g₁) :
    Runs X .lookupproperty_override_main (mainArgs args) g (.int .int 1) g₁ := by
  have hk1 : List.take g.stk.length g₁.stk = g₁.stk := by rw [hk, List.take_length]
  have hw : wrapInt ((args.length + 1 : Nat) : Int) = ((args.length + 1 : Nat) : Int) := wrapInt_of ⟨by omega, by omega⟩
  obtain ⟨N1, hN1⟩ := h1
  refine ⟨N1 + 2, fun n hn => ?_⟩
  obtain ⟨n, rfl⟩ : ∃ n', n = n' + 2 := ⟨n - 2, by omega⟩
  have hr1 := hN1 (n + 1) (by omega)
  rw [callFn_code rfl]
  crun [lookupproperty_override_main.code, mainArgs, hw, addr_beq_null, beq_self_eq_true, hr1, hk1]

/-- lookupproperty-override.c:33-83, another number of forms -/
theorem override_number (hr : args.length + 1 < 2147483648) (ha : a ≠ 0) (hk : g.stk = stk) (hl : len < 4294967296)
    (hl0 : len ≠ 2)
    (h1 : Runs X .IFF_read [.str "lookupproperty-override.TEST", .ptr .void Ptr.null] g (chunkV a)
      ⟨h₁, k₁, stk, i₁, o, rm, tx, l₁⟩)
    (h2 : Runs X .IFF_searchForms [chunkV a, .int .int typeTEST.toNat, .ptr (.int .uint) ⟨.stk stk.length, 0⟩]
      ⟨h₁, k₁, stk ++ [⟨4, cells []⟩], i₁, o, rm, tx, l₁⟩ (.ptr (.ptr (.struct .IFF_Form)) ⟨.heap r, 0⟩)
      ⟨h₂, k₂, stk ++ [lengthObj len], i₂, o, rm, tx, l₂⟩)
    (h3 : Runs X .IFF_free [chunkV a, .ptr .void Ptr.null] ⟨h₂, k₂, stk ++ [lengthObj len], i₂, o, rm, tx, l₂⟩ .void
      ⟨h₃, k₃, stk ++ [lengthObj len], i₃, o, rm, tx, l₃⟩) :
    Runs X .lookupproperty_override_main (mainArgs args) g (.int .int 1) ⟨h₃, k₃, stk, i₃, o, rm, tx, l₃⟩ := by
  subst hk
  have hw : wrapInt ((args.length + 1 : Nat) : Int) = ((args.length + 1 : Nat) : Int) := wrapInt_of ⟨by omega, by omega⟩
  have hab : (a == 0) = false := by simpa using ha
  have hcell : (lengthObj len).cell 0 = .int .uint len := rfl
  have hnb : ((len : Int) % 4294967296 == 2) = false := by
    rw [beq_eq_false_iff_ne]
    omega
  obtain ⟨N1, hN1⟩ := h1
  obtain ⟨N2, hN2⟩ := h2
  obtain ⟨N3, hN3⟩ := h3
  refine ⟨N1 + N2 + N3 + 3, fun n hn => ?_⟩
  obtain ⟨n, rfl⟩ : ∃ n', n = n' + 3 := ⟨n - 3, by omega⟩
  have hr1 := hN1 (n + 2) (by omega)
  have hr2 := hN2 (n + 2) (by omega)
  have hr3 := hN3 (n + 2) (by omega)
  have hfp : ∀ (s : String) (g : CS), callFn X (n + 2) .fprintf [.file .err, .str s] g = .val (.int .int 0, g) := fun _ _ => rfl
  rw [callFn_code rfl]
  crun [lookupproperty_override_main.code, lookupproperty_override_ID_TEST, ↓evalE_typeTEST, mainArgs, hw, addr_beq_null, hab, hr1,
    hr2, hr3, Ty.size, scalarSize, ITy.bits, blkOf_stk stk_get0, hcell, stk_take0, hnb, evalE_stderr, hfp]

theorem override_code : lookupproperty_override_main.code =
    { params := [(.argc, (.int .int)), (.argv, (.ptr (.ptr (.int .char))))]
      ret := (.int .int)
      body :=
        (.seq (.decl .chunk (.ptr (.struct .IFF_Chunk)) (some (.call (.fn .IFF_read) (.cons (.str "lookupproperty-override.TEST") (.cons .null .nil)))))
          (.ite (.bin .eq (.var .chunk) .null)
          (.ret (.num .int 1))
          (.seq (.decl .status (.int .int) (some (.num .int 0)))
            (.seq (.object .formsLength (.int .uint) none)
            (.seq (.decl .forms (.ptr (.ptr (.struct .IFF_Form))) (some (.call (.fn .IFF_searchForms) (.cons (.var .chunk) (.cons lookupproperty_override_ID_TEST (.cons (.addr (.var .formsLength)) .nil))))))
            (.seq (.ite (.bin .eq (.var .formsLength) (.num .int 2))
              (.seq (.decl .heloChunk (.ptr (.struct .IFF_RawChunk)) (some (.cast (.ptr (.struct .IFF_RawChunk)) (.call (.fn .IFF_getChunkFromForm) (.cons (.index (.var .forms) (.num .int 0)) (.cons lookupproperty_override_ID_HELO .nil))))))
                (checks .heloChunk lookupproperty_override_ID_HELO 49 50 51 52 "Error: HELO chunk contents should be: '1', '2', '3', '4'!\n"
            "Error: size of helo chunk should be: %u!\n"
            (.seq (.expr (.call (.fn .fprintf) (.cons (.stream .stderr) (.cons (.str "Error: we should be able to find a HELO chunk!\n") .nil)))) (.expr (.assign (.var .status) (.num .int 1))))))
              (.seq (.expr (.call (.fn .fprintf) (.cons (.stream .stderr) (.cons (.str "Error: we should be able to find 2 TEST forms!\n") .nil))))
                (.expr (.assign (.var .status) (.num .int 1)))))
            (.seq (.expr (.call (.fn .IFF_free) (.cons (.var .chunk) (.cons .null .nil))))
            (.ret (.var .status))))))))) } := rfl

/-- lookupproperty-override.c:33-83, two forms found -/
theorem override_some (hr : args.length + 1 < 2147483648) (ha : a ≠ 0) (hk : g.stk = stk)
    {B : Blk} (hB : h₂ r = some B) (hBs : 1 * (X.e.sizeBits / 8) ≤ B.size) (hBc : B.cell 0 = .ptr (.ofAddr p))
    {data : List Byte} (hdl : data.length < 2147483648)
    (h1 : Runs X .IFF_read [.str "lookupproperty-override.TEST", .ptr .void Ptr.null] g (chunkV a)
      ⟨h₁, k₁, stk, i₁, o, rm, tx, l₁⟩)
    (h2 : Runs X .IFF_searchForms [chunkV a, .int .int typeTEST.toNat, .ptr (.int .uint) ⟨.stk stk.length, 0⟩]
      ⟨h₁, k₁, stk ++ [⟨4, cells []⟩], i₁, o, rm, tx, l₁⟩ (.ptr (.ptr (.struct .IFF_Form)) ⟨.heap r, 0⟩)
      ⟨h₂, k₂, stk ++ [lengthObj 2], i₂, o, rm, tx, l₂⟩)
    (h4 : Runs X .IFF_getChunkFromForm [ptrV .IFF_Form p, .int .int nameHELO.toNat]
      ⟨h₂, k₂, stk ++ [lengthObj 2], i₂, o, rm, tx, l₂⟩ (chunkV c) ⟨h₂, k₂, stk ++ [lengthObj 2], i₂, o, rm, tx, l₂⟩)
    (hb' : c ≠ 0 → RawAt X h₂ c nameHELO data)
    (h3 : Runs X .IFF_free [chunkV a, .ptr .void Ptr.null] ⟨h₂, k₂, stk ++ [lengthObj 2], i₂, o, rm, tx, l₂⟩ .void
      ⟨h₃, k₃, stk ++ [lengthObj 2], i₃, o, rm, tx, l₃⟩) :
    Runs X .lookupproperty_override_main (mainArgs args) g
      (.int .int (if c ≠ 0 ∧ data = [49#8, 50#8, 51#8, 52#8] then 0 else 1)) ⟨h₃, k₃, stk, i₃, o, rm, tx, l₃⟩ := by
  subst hk
  have hw : wrapInt ((args.length + 1 : Nat) : Int) = ((args.length + 1 : Nat) : Int) := wrapInt_of ⟨by omega, by omega⟩
  have hab : (a == 0) = false := by simpa using ha
  have hcell : (lengthObj 2).cell 0 = .int .uint 2 := rfl
  obtain ⟨N1, hN1⟩ := h1
  obtain ⟨N2, hN2⟩ := h2
  obtain ⟨N3, hN3⟩ := h3
  obtain ⟨N4, hN4⟩ := h4
  refine ⟨N1 + N2 + N3 + N4 + 3, fun n hn => ?_⟩
  obtain ⟨n, rfl⟩ : ∃ n', n = n' + 3 := ⟨n - 3, by omega⟩
  have hr1 := hN1 (n + 2) (by omega)
  have hr2 := hN2 (n + 2) (by omega)
  have hr3 := hN3 (n + 2) (by omega)
  have hr4 := hN4 (n + 2) (by omega)
  have hfp : ∀ (s : String) (g : CS), callFn X (n + 2) .fprintf [.file .err, .str s] g = .val (.int .int 0, g) := fun _ _ => rfl
  have hfp' : ∀ (s : String) (g : CS), callFn X (n + 2) .fprintf [.file .err, .str s, .int .int 4] g = .val (.int .int 0, g) :=
    fun _ _ => rfl
  rw [callFn_code (show code .lookupproperty_override_main = _ from congrArg some override_code)]
  by_cases h0 : c = 0
  · subst h0
    rw [if_neg (by simp)]
    crun [↓checks_null, lookupproperty_override_ID_TEST, lookupproperty_override_ID_HELO, ↓evalE_typeTEST,
      ↓evalE_nameHELO, mainArgs, hw, addr_beq_null, hab, hr1, hr2, hr3, hr4, Ty.size, scalarSize, ITy.bits, blkOf_stk stk_get0, hcell,
      stk_take0, blkOf_heap hB, hBs, hBc, beq_self_eq_true, bne_self_eq_false, evalE_stderr, hfp]
  · have hck := fun (k : Nat) (m₁ m₂ : String) (els : Stmt) (loc : Var → Slot)
        (hv : loc .heloChunk = .reg (.ptr (.struct .IFF_RawChunk)) (.ptr (.struct .IFF_RawChunk) (.ofAddr c)))
        (hs : loc .status = .reg (.int .int) (.int .int 0)) =>
      checks_some (n := k) (m₁ := m₁) (m₂ := m₂) (els := els) h0 hdl hv hs (fun f => evalE_nameHELO (f := f)) hfp hfp'
        (p0 := 49) (p1 := 50) (p2 := 51) (p3 := 52) (by decide) (by decide) (by decide) (by decide)
        (g := ⟨h₂, k₂, g.stk ++ [lengthObj 2], i₂, o, rm, tx, l₂⟩) (hb' h0)
    by_cases hd : data = [49#8, 50#8, 51#8, 52#8]
    · rw [if_pos ⟨h0, hd⟩]
      simp only [if_pos hd] at hck
      crun [↓hck, lookupproperty_override_ID_TEST, lookupproperty_override_ID_HELO, ↓evalE_typeTEST,
        ↓evalE_nameHELO, mainArgs, hw, addr_beq_null, hab, hr1, hr2, hr3, hr4, Ty.size, scalarSize, ITy.bits, blkOf_stk stk_get0,
        hcell, stk_take0, blkOf_heap hB, hBs, hBc, beq_self_eq_true]
    · rw [if_neg fun h => hd h.2]
      simp only [if_neg hd] at hck
      crun [↓hck, lookupproperty_override_ID_TEST, lookupproperty_override_ID_HELO, ↓evalE_typeTEST,
        ↓evalE_nameHELO, mainArgs, hw, addr_beq_null, hab, hr1, hr2, hr3, hr4, Ty.size, scalarSize, ITy.bits, blkOf_stk stk_get0,
        hcell, stk_take0, blkOf_heap hB, hBs, hBc, beq_self_eq_true]

end Iff.Src
