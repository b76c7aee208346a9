import Verif.Proofs.SrcDataRun
/-
  The functions that build the hierarchies of the test data.
-/
namespace Iff.Src

open Iff.Heap Iff.Spec

set_option maxRecDepth 4000

theorem init_bytes {X : Cfg} {gl : Glob} {data : List Byte} (hs : gl.ty = .arr data.length (.int .uchar))
    (h : ∀ i ≤ data.length, (cells ((gl.ty.scalars.zip gl.init).map fun p => p.2.cell X p.1)) i =
      byteCells (data.map some) i) (hl : gl.init.length ≤ data.length) :
    initBlk X gl.ty gl.init = layout X.e (.bytes (data.map some)) := by
  unfold initBlk layout
  congr 1
  · rw [hs]; simp [Ty.size, scalarSize, ITy.bits]
  · funext i
    by_cases hi : i ≤ data.length
    · exact h i hi
    · rw [cells, List.getD_eq_getElem?_getD, List.getElem?_eq_none (by simp; omega), byteCells,
        List.getElem?_eq_none (by simp; omega)]
      rfl

variable {X : Cfg} {g : CS} {m₀ : Mem} {s s₀ : HS} {ts rest : List Node} {L : Nat}

theorem Work.mono {L' : Nat} (h : Work m₀ s₀ L s ts) (hL : L ≤ L') : Work m₀ s₀ L' s ts :=
  ⟨h.forest, h.bd.mono hL, h.rs⟩

/-- The new hierarchy that a function returns. -/
def Makes (X : Cfg) (m₀ : Mem) (s₀ : HS) (g : CS) (f : Fn) (ty : Struct) (k : Nat) (c : Chunk) : Prop :=
  ∀ {L s ts}, Work m₀ s₀ L s ts → L + k ≤ 4294967296 → ∃ s' t, Runs X f [] (emb X g s) (ptrV ty t.addr) (emb X g s') ∧
    Work m₀ s₀ (L + k) s' (t :: ts) ∧ t.chunk = c ∧ t.addr ≠ 0

/-! ### The data chunks -/

theorem formdata_createHelloChunk_makes (hX : X.Linked) (hD : X.LinkedData) (he : X.e.Sane) (hsv : X.Serves 1024) (hr : Roomy m₀) :
    Makes X m₀ s₀ g .formdata_createHelloChunk .IFF_Chunk 0 (Fixture.helo [0x61, 0x62, 0x63, 0x64]) := fun h hL =>
  work_leaf hX hD he hsv hr (f' := .formdata_createTestDataChunk) (e := formdata_ID_HELO) (n := 4) (gl := .formdata_heloData) rfl rfl
    (id := 0x48454c4f) (fun _ _ => evalE_idHELO) rfl (by decide) (data := [0x61, 0x62, 0x63, 0x64]) rfl (by decide)
    (init_bytes rfl (fun i _ => by rcases i with _ | _ | _ | _ | _ | _ | i <;> rfl)
      (Nat.le_refl _)) (by decide) h hL

theorem formdata_createByeChunk_makes (hX : X.Linked) (hD : X.LinkedData) (he : X.e.Sane) (hsv : X.Serves 1024) (hr : Roomy m₀) :
    Makes X m₀ s₀ g .formdata_createByeChunk .IFF_Chunk 0 (Fixture.bye [0x45, 0x46, 0x47, 0x48]) := fun h hL =>
  work_leaf hX hD he hsv hr (f' := .formdata_createTestDataChunk) (e := formdata_ID_BYE) (n := 4) (gl := .formdata_byeData) rfl rfl
    (id := 0x42594520) (fun _ _ => evalE_idBYE) rfl (by decide) (data := [0x45, 0x46, 0x47, 0x48]) rfl (by decide)
    (init_bytes rfl (fun i _ => by rcases i with _ | _ | _ | _ | _ | _ | i <;> rfl)
      (Nat.le_refl _)) (by decide) h hL

theorem formdata_pad_createHelloChunk_makes (hX : X.Linked) (hD : X.LinkedData) (he : X.e.Sane) (hsv : X.Serves 1024) (hr : Roomy m₀) :
    Makes X m₀ s₀ g .formdata_pad_createHelloChunk .IFF_Chunk 0 (Fixture.helo [0x61, 0x62, 0x63, 0x64]) := fun h hL =>
  work_leaf hX hD he hsv hr (f' := .formdata_pad_createTestDataChunk) (e := formdata_pad_ID_HELO) (n := 4) (gl := .formdata_pad_heloData) rfl rfl
    (id := 0x48454c4f) (fun _ _ => evalE_idHELO) rfl (by decide) (data := [0x61, 0x62, 0x63, 0x64]) rfl (by decide)
    (init_bytes rfl (fun i _ => by rcases i with _ | _ | _ | _ | _ | _ | i <;> rfl)
      (Nat.le_refl _)) (by decide) h hL

theorem formdata_pad_createByeChunk_makes (hX : X.Linked) (hD : X.LinkedData) (he : X.e.Sane) (hsv : X.Serves 1024) (hr : Roomy m₀) :
    Makes X m₀ s₀ g .formdata_pad_createByeChunk .IFF_Chunk 0 (Fixture.bye [0x45, 0x46, 0x47, 0x48, 0x49]) := fun h hL =>
  work_leaf hX hD he hsv hr (f' := .formdata_pad_createTestDataChunk) (e := formdata_pad_ID_BYE) (n := 5) (gl := .formdata_pad_byeData) rfl rfl
    (id := 0x42594520) (fun _ _ => evalE_idBYE) rfl (by decide) (data := [0x45, 0x46, 0x47, 0x48, 0x49]) rfl (by decide)
    (init_bytes rfl (fun i _ => by rcases i with _ | _ | _ | _ | _ | _ | _ | i <;> rfl)
      (Nat.le_refl _)) (by decide) h hL

theorem catdata_createHelo1Chunk_makes (hX : X.Linked) (hD : X.LinkedData) (he : X.e.Sane) (hsv : X.Serves 1024) (hr : Roomy m₀) :
    Makes X m₀ s₀ g .catdata_createHelo1Chunk .IFF_Chunk 0 (Fixture.helo [0x61, 0x62, 0x63, 0x64]) := fun h hL =>
  work_leaf hX hD he hsv hr (f' := .catdata_createTestDataChunk) (e := catdata_ID_HELO) (n := 4) (gl := .catdata_helo1Data) rfl rfl
    (id := 0x48454c4f) (fun _ _ => evalE_idHELO) rfl (by decide) (data := [0x61, 0x62, 0x63, 0x64]) rfl (by decide)
    (init_bytes rfl (fun i _ => by rcases i with _ | _ | _ | _ | _ | _ | i <;> rfl)
      (Nat.le_refl _)) (by decide) h hL

theorem catdata_createBye1Chunk_makes (hX : X.Linked) (hD : X.LinkedData) (he : X.e.Sane) (hsv : X.Serves 1024) (hr : Roomy m₀) :
    Makes X m₀ s₀ g .catdata_createBye1Chunk .IFF_Chunk 0 (Fixture.bye [0x45, 0x46, 0x47]) := fun h hL =>
  work_leaf hX hD he hsv hr (f' := .catdata_createTestDataChunk) (e := catdata_ID_BYE) (n := 3) (gl := .catdata_bye1Data) rfl rfl
    (id := 0x42594520) (fun _ _ => evalE_idBYE) rfl (by decide) (data := [0x45, 0x46, 0x47]) rfl (by decide)
    (init_bytes rfl (fun i _ => by rcases i with _ | _ | _ | _ | _ | i <;> rfl)
      (Nat.le_refl _)) (by decide) h hL

theorem catdata_createHelo2Chunk_makes (hX : X.Linked) (hD : X.LinkedData) (he : X.e.Sane) (hsv : X.Serves 1024) (hr : Roomy m₀) :
    Makes X m₀ s₀ g .catdata_createHelo2Chunk .IFF_Chunk 0 (Fixture.helo [0x61, 0x62, 0x63, 0x64, 0x65]) := fun h hL =>
  work_leaf hX hD he hsv hr (f' := .catdata_createTestDataChunk) (e := catdata_ID_HELO) (n := 5) (gl := .catdata_helo2Data) rfl rfl
    (id := 0x48454c4f) (fun _ _ => evalE_idHELO) rfl (by decide) (data := [0x61, 0x62, 0x63, 0x64, 0x65]) rfl (by decide)
    (init_bytes rfl (fun i _ => by rcases i with _ | _ | _ | _ | _ | _ | _ | i <;> rfl)
      (Nat.le_refl _)) (by decide) h hL

theorem catdata_createBye2Chunk_makes (hX : X.Linked) (hD : X.LinkedData) (he : X.e.Sane) (hsv : X.Serves 1024) (hr : Roomy m₀) :
    Makes X m₀ s₀ g .catdata_createBye2Chunk .IFF_Chunk 0 (Fixture.bye [0x46, 0x47, 0x48, 0x49]) := fun h hL =>
  work_leaf hX hD he hsv hr (f' := .catdata_createTestDataChunk) (e := catdata_ID_BYE) (n := 4) (gl := .catdata_bye2Data) rfl rfl
    (id := 0x42594520) (fun _ _ => evalE_idBYE) rfl (by decide) (data := [0x46, 0x47, 0x48, 0x49]) rfl (by decide)
    (init_bytes rfl (fun i _ => by rcases i with _ | _ | _ | _ | _ | _ | i <;> rfl)
      (Nat.le_refl _)) (by decide) h hL

theorem nestedformdata_createHelo1Chunk_makes (hX : X.Linked) (hD : X.LinkedData) (he : X.e.Sane) (hsv : X.Serves 1024) (hr : Roomy m₀) :
    Makes X m₀ s₀ g .nestedformdata_createHelo1Chunk .IFF_Chunk 0 (Fixture.helo [0x61, 0x62, 0x63, 0x64]) := fun h hL =>
  work_leaf hX hD he hsv hr (f' := .nestedformdata_createTestDataChunk) (e := nestedformdata_ID_HELO) (n := 4) (gl := .nestedformdata_helo1Data) rfl rfl
    (id := 0x48454c4f) (fun _ _ => evalE_idHELO) rfl (by decide) (data := [0x61, 0x62, 0x63, 0x64]) rfl (by decide)
    (init_bytes rfl (fun i _ => by rcases i with _ | _ | _ | _ | _ | _ | i <;> rfl)
      (Nat.le_refl _)) (by decide) h hL

theorem nestedformdata_createBye1Chunk_makes (hX : X.Linked) (hD : X.LinkedData) (he : X.e.Sane) (hsv : X.Serves 1024) (hr : Roomy m₀) :
    Makes X m₀ s₀ g .nestedformdata_createBye1Chunk .IFF_Chunk 0 (Fixture.bye [0x45, 0x46, 0x47]) := fun h hL =>
  work_leaf hX hD he hsv hr (f' := .nestedformdata_createTestDataChunk) (e := nestedformdata_ID_BYE) (n := 3) (gl := .nestedformdata_bye1Data) rfl rfl
    (id := 0x42594520) (fun _ _ => evalE_idBYE) rfl (by decide) (data := [0x45, 0x46, 0x47]) rfl (by decide)
    (init_bytes rfl (fun i _ => by rcases i with _ | _ | _ | _ | _ | i <;> rfl)
      (Nat.le_refl _)) (by decide) h hL

theorem nestedformdata_createHelo2Chunk_makes (hX : X.Linked) (hD : X.LinkedData) (he : X.e.Sane) (hsv : X.Serves 1024) (hr : Roomy m₀) :
    Makes X m₀ s₀ g .nestedformdata_createHelo2Chunk .IFF_Chunk 0 (Fixture.helo [0x61, 0x62, 0x63, 0x64, 0x65]) := fun h hL =>
  work_leaf hX hD he hsv hr (f' := .nestedformdata_createTestDataChunk) (e := nestedformdata_ID_HELO) (n := 5) (gl := .nestedformdata_helo2Data) rfl rfl
    (id := 0x48454c4f) (fun _ _ => evalE_idHELO) rfl (by decide) (data := [0x61, 0x62, 0x63, 0x64, 0x65]) rfl (by decide)
    (init_bytes rfl (fun i _ => by rcases i with _ | _ | _ | _ | _ | _ | _ | i <;> rfl)
      (Nat.le_refl _)) (by decide) h hL

theorem nestedformdata_createBye2Chunk_makes (hX : X.Linked) (hD : X.LinkedData) (he : X.e.Sane) (hsv : X.Serves 1024) (hr : Roomy m₀) :
    Makes X m₀ s₀ g .nestedformdata_createBye2Chunk .IFF_Chunk 0 (Fixture.bye [0x46, 0x47, 0x48, 0x49]) := fun h hL =>
  work_leaf hX hD he hsv hr (f' := .nestedformdata_createTestDataChunk) (e := nestedformdata_ID_BYE) (n := 4) (gl := .nestedformdata_bye2Data) rfl rfl
    (id := 0x42594520) (fun _ _ => evalE_idBYE) rfl (by decide) (data := [0x46, 0x47, 0x48, 0x49]) rfl (by decide)
    (init_bytes rfl (fun i _ => by rcases i with _ | _ | _ | _ | _ | _ | i <;> rfl)
      (Nat.le_refl _)) (by decide) h hL

theorem listdata_createHeloChunk_makes (hX : X.Linked) (hD : X.LinkedData) (he : X.e.Sane) (hsv : X.Serves 1024) (hr : Roomy m₀) :
    Makes X m₀ s₀ g .listdata_createHeloChunk .IFF_Chunk 0 (Fixture.helo [0x71, 0x77, 0x65, 0x72]) := fun h hL =>
  work_leaf hX hD he hsv hr (f' := .listdata_createTestDataChunk) (e := listdata_ID_HELO) (n := 4) (gl := .listdata_heloData) rfl rfl
    (id := 0x48454c4f) (fun _ _ => evalE_idHELO) rfl (by decide) (data := [0x71, 0x77, 0x65, 0x72]) rfl (by decide)
    (init_bytes rfl (fun i _ => by rcases i with _ | _ | _ | _ | _ | _ | i <;> rfl)
      (Nat.le_refl _)) (by decide) h hL

theorem listdata_createBye1Chunk_makes (hX : X.Linked) (hD : X.LinkedData) (he : X.e.Sane) (hsv : X.Serves 1024) (hr : Roomy m₀) :
    Makes X m₀ s₀ g .listdata_createBye1Chunk .IFF_Chunk 0 (Fixture.bye [0x61, 0x62, 0x63, 0x64]) := fun h hL =>
  work_leaf hX hD he hsv hr (f' := .listdata_createTestDataChunk) (e := listdata_ID_BYE) (n := 4) (gl := .listdata_bye1Data) rfl rfl
    (id := 0x42594520) (fun _ _ => evalE_idBYE) rfl (by decide) (data := [0x61, 0x62, 0x63, 0x64]) rfl (by decide)
    (init_bytes rfl (fun i _ => by rcases i with _ | _ | _ | _ | _ | _ | i <;> rfl)
      (Nat.le_refl _)) (by decide) h hL

theorem listdata_createBye2Chunk_makes (hX : X.Linked) (hD : X.LinkedData) (he : X.e.Sane) (hsv : X.Serves 1024) (hr : Roomy m₀) :
    Makes X m₀ s₀ g .listdata_createBye2Chunk .IFF_Chunk 0 (Fixture.bye [0x45, 0x46, 0x47, 0x48]) := fun h hL =>
  work_leaf hX hD he hsv hr (f' := .listdata_createTestDataChunk) (e := listdata_ID_BYE) (n := 4) (gl := .listdata_bye2Data) rfl rfl
    (id := 0x42594520) (fun _ _ => evalE_idBYE) rfl (by decide) (data := [0x45, 0x46, 0x47, 0x48]) rfl (by decide)
    (init_bytes rfl (fun i _ => by rcases i with _ | _ | _ | _ | _ | _ | i <;> rfl)
      (Nat.le_refl _)) (by decide) h hL

/-! ### Groups -/

theorem form_new (hX : X.Linked) (hsv : X.Serves 1024) (hr : Roomy m₀) (ty : ID) (h : Work m₀ s₀ L s ts)
    (hL : L ≤ 4294967296) :
    ∃ s' t, Runs X .IFF_createEmptyForm [.int .int ty.toNat] (emb X g s) (ptrV .IFF_Form t.addr) (emb X g s') ∧
      Work m₀ s₀ L s' (t :: ts) ∧ t.chunk = .grp idFORM 4 ty [] ∧ t.addr ≠ 0 ∧ Node.IsGroup t ∧ subCount t = 0 := by
  obtain ⟨s', t, k1, k⟩ := work_group (g := g) (id := idFORM) (ty := ty) hX hsv hr h hL
  exact ⟨s', t, (k1.2.1 rfl).null rfl (by crun [IFF_createEmptyForm.code, toNat_emod]), k⟩

theorem prop_new (hX : X.Linked) (hsv : X.Serves 1024) (hr : Roomy m₀) (ty : ID) (h : Work m₀ s₀ L s ts)
    (hL : L ≤ 4294967296) :
    ∃ s' t, Runs X .IFF_createEmptyProp [.int .int ty.toNat] (emb X g s) (ptrV .IFF_Form t.addr) (emb X g s') ∧
      Work m₀ s₀ L s' (t :: ts) ∧ t.chunk = .grp idPROP 4 ty [] ∧ t.addr ≠ 0 ∧ Node.IsGroup t ∧ subCount t = 0 := by
  obtain ⟨s', t, k1, k⟩ := work_group (g := g) (id := idPROP) (ty := ty) hX hsv hr h hL
  exact ⟨s', t, (k1.2.2.2.2 rfl).null rfl (by crun [IFF_createEmptyProp.code, toNat_emod]), k⟩

theorem cat_new (hX : X.Linked) (hsv : X.Serves 1024) (hr : Roomy m₀) (ty : ID) (h : Work m₀ s₀ L s ts)
    (hL : L ≤ 4294967296) :
    ∃ s' t, Runs X .IFF_createEmptyCATWithContentsType [.int .int ty.toNat] (emb X g s) (ptrV .IFF_CAT t.addr)
        (emb X g s') ∧
      Work m₀ s₀ L s' (t :: ts) ∧ t.chunk = .grp idCAT 4 ty [] ∧ t.addr ≠ 0 ∧ Node.IsGroup t ∧ subCount t = 0 := by
  obtain ⟨s', t, k1, k⟩ := work_group (g := g) (id := idCAT) (ty := ty) hX hsv hr h hL
  exact ⟨s', t, (k1.2.2.1 rfl).null rfl (by crun [IFF_createEmptyCATWithContentsType.code, toNat_emod]), k⟩

theorem list_new (hX : X.Linked) (hsv : X.Serves 1024) (hr : Roomy m₀) (ty : ID) (h : Work m₀ s₀ L s ts)
    (hL : L ≤ 4294967296) :
    ∃ s' t, Runs X .IFF_createEmptyListWithContentsType [.int .int ty.toNat] (emb X g s) (ptrV .IFF_List t.addr)
        (emb X g s') ∧
      Work m₀ s₀ L s' (t :: ts) ∧ t.chunk = .lst idLIST 4 ty [] [] ∧ t.addr ≠ 0 ∧ Node.IsList t ∧ subCount t = 0 ∧
      propCount t = 0 := by
  obtain ⟨s', t, k1, k⟩ := work_list (g := g) (ty := ty) hX hsv hr h hL
  exact ⟨s', t, k1.1.null rfl (by crun [IFF_createEmptyListWithContentsType.code, toNat_emod]), k⟩

/-- Adding two chunks to a group. -/
theorem add_two (hX : X.Linked) (he : X.e.Sane) (hsv : X.Serves 1024) (hr : Roomy m₀) {t a b : Node}
    (h : Work m₀ s₀ L s (t :: a :: b :: rest)) (hg : Node.IsGroup t) (ha : Consistent a.chunk) (hb : Consistent b.chunk)
    (hz : 0 ≤ t.chunk.size) (hs : t.chunk.size + (encode a.chunk).length + (encode b.chunk).length < 2147483648)
    (hK : subCount t < 95) (hL : L + 16 ≤ 4294967296) :
    ∃ s₁ s₂ t', Does X (fun _ => .stk 0) (.add t.addr a.addr) (emb X g s) 0 (emb X g s₁) ∧
      Does X (fun _ => .stk 0) (.add t.addr b.addr) (emb X g s₁) 0 (emb X g s₂) ∧
      Work m₀ s₀ (L + 16) s₂ (t' :: rest) ∧ t'.addr = t.addr ∧
      t'.chunk = moreSubs [b.chunk] (encode b.chunk).length (moreSubs [a.chunk] (encode a.chunk).length t.chunk) := by
  obtain ⟨s₁, t₁, d1, w1, c1, a1, g1, n1⟩ := work_add (g := g) hX he hsv hr h hg ha hz (by omega) (by omega) (by omega)
  have hsz : t₁.chunk.size = t.chunk.size + (encode a.chunk).length := by
    rw [c1]; cases t with
    | raw => exact hg.elim
    | ext => exact hg.elim
    | grp => rfl
    | lst => rfl
  obtain ⟨s₂, t₂, d2, w2, c2, a2, -, -⟩ := work_add (g := g) hX he hsv hr w1 g1 hb (by omega) (by omega) (by omega) (by omega)
  rw [a1] at d2
  exact ⟨s₁, s₂, t₂, d1, d2, w2, a2.trans a1, by rw [c2, c1]⟩

theorem consistent_helo {data : List Byte} (h : data.length < 2147483648) : Consistent (Fixture.helo data) :=
  .raw rfl (by omega)

theorem consistent_bye {data : List Byte} (h : data.length < 2147483648) : Consistent (Fixture.bye data) :=
  .raw rfl (by omega)

theorem consistent_two {id ty : ID} {size : Int} {a b : Chunk} (ha : Consistent a) (hb : Consistent b)
    (h : size = 4 + ((encode a).length + (encode b).length : Nat)) (hs : size < 2147483648) :
    Consistent (.grp id size ty [a, b]) := by
  refine .grp (by simpa [encodeAll] using h) hs ?_
  simp [ha, hb]

theorem consistent_one {id ty : ID} {size : Int} {a : Chunk} (ha : Consistent a)
    (h : size = 4 + ((encode a).length : Nat)) (hs : size < 2147483648) :
    Consistent (.grp id size ty [a]) := by
  refine .grp (by simpa [encodeAll] using h) hs ?_
  simp [ha]

/-! ### The functions of the files -/

theorem form_makes (hX : X.Linked) (hD : X.LinkedData) (he : X.e.Sane) (hsv : X.Serves 1024) (hr : Roomy m₀) :
    Makes X m₀ s₀ g .formdata_IFF_createTestForm .IFF_Form 16 Fixture.form.chunk := fun {L s ts} h hL => by
  obtain ⟨s₁, t, r1, w1, ct, nt, gt, kt⟩ := form_new (g := g) hX hsv hr 0x54455354 h (by omega)
  obtain ⟨s₂, a, r2, w2, ca, -⟩ := formdata_createHelloChunk_makes (g := g) hX hD he hsv hr w1 (by omega)
  obtain ⟨s₃, b, r3, w3, cb, -⟩ := formdata_createByeChunk_makes (g := g) hX hD he hsv hr w2 (by omega)
  have hp : (b :: a :: t :: ts).Perm (t :: a :: b :: ts) :=
    ((List.Perm.swap t a ts).cons b).trans ((List.Perm.swap t b (a :: ts)).trans ((List.Perm.swap a b ts).cons t))
  obtain ⟨s₄, s₅, u, d1, d2, w5, au, cu⟩ := add_two (g := g) hX he hsv hr (w3.perm hp) gt
    (by rw [ca]; exact consistent_helo (by decide)) (by rw [cb]; exact consistent_bye (by decide))
    (by rw [ct]; decide) (by rw [ct, ca, cb]; decide) (by omega) (by omega)
  refine ⟨s₅, u, ?_, w5, by rw [cu, ct, ca, cb]; rfl, by rw [au]; exact nt⟩
  rw [au]
  exact create_form rfl r1 r2 r3 d1.2.2.1 d2.2.2.1

theorem pad_makes (hX : X.Linked) (hD : X.LinkedData) (he : X.e.Sane) (hsv : X.Serves 1024) (hr : Roomy m₀) :
    Makes X m₀ s₀ g .formdata_pad_IFF_createTestForm .IFF_Form 16 Fixture.pad.chunk := fun {L s ts} h hL => by
  obtain ⟨s₁, a, r1, w1, ca, -⟩ := formdata_pad_createHelloChunk_makes (g := g) hX hD he hsv hr h (by omega)
  obtain ⟨s₂, b, r2, w2, cb, -⟩ := formdata_pad_createByeChunk_makes (g := g) hX hD he hsv hr w1 (by omega)
  obtain ⟨s₃, t, r3, w3, ct, nt, gt, kt⟩ := form_new (g := g) hX hsv hr 0x54455354 w2 (by omega)
  obtain ⟨s₄, s₅, u, d1, d2, w5, au, cu⟩ := add_two (g := g) hX he hsv hr (w3.perm ((List.Perm.swap a b ts).cons t)) gt
    (by rw [ca]; exact consistent_helo (by decide)) (by rw [cb]; exact consistent_bye (by decide))
    (by rw [ct]; decide) (by rw [ct, ca, cb]; decide) (by omega) (by omega)
  refine ⟨s₅, u, ?_, w5, by rw [cu, ct, ca, cb]; rfl, by rw [au]; exact nt⟩
  rw [au]
  exact create_pad rfl r1 r2 r3 d1.2.2.1 d2.2.2.1

theorem catdata_form1_makes (hX : X.Linked) (hD : X.LinkedData) (he : X.e.Sane) (hsv : X.Serves 1024) (hr : Roomy m₀) :
    Makes X m₀ s₀ g .catdata_createTest1Form .IFF_Chunk 16
      (Fixture.testForm 28 [Fixture.helo [0x61, 0x62, 0x63, 0x64], Fixture.bye [0x45, 0x46, 0x47]]) := fun {L s ts} h hL => by
  obtain ⟨s₁, a, r1, w1, ca, -⟩ := catdata_createHelo1Chunk_makes (g := g) hX hD he hsv hr h (by omega)
  obtain ⟨s₂, b, r2, w2, cb, -⟩ := catdata_createBye1Chunk_makes (g := g) hX hD he hsv hr w1 (by omega)
  obtain ⟨s₃, t, r3, w3, ct, nt, gt, kt⟩ := form_new (g := g) hX hsv hr 0x54455354 w2 (by omega)
  obtain ⟨s₄, s₅, u, d1, d2, w5, au, cu⟩ := add_two (g := g) hX he hsv hr (w3.perm ((List.Perm.swap a b ts).cons t)) gt
    (by rw [ca]; exact consistent_helo (by decide)) (by rw [cb]; exact consistent_bye (by decide))
    (by rw [ct]; decide) (by rw [ct, ca, cb]; decide) (by omega) (by omega)
  refine ⟨s₅, u, ?_, w5, by rw [cu, ct, ca, cb]; rfl, by rw [au]; exact nt⟩
  rw [au]
  exact catdata_form1 rfl r1 r2 (catdata_form rfl r3 d1.2.2.1 d2.2.2.1)

theorem catdata_form2_makes (hX : X.Linked) (hD : X.LinkedData) (he : X.e.Sane) (hsv : X.Serves 1024) (hr : Roomy m₀) :
    Makes X m₀ s₀ g .catdata_createTest2Form .IFF_Chunk 16
      (Fixture.testForm 30 [Fixture.helo [0x61, 0x62, 0x63, 0x64, 0x65], Fixture.bye [0x46, 0x47, 0x48, 0x49]]) := fun {L s ts} h hL => by
  obtain ⟨s₁, a, r1, w1, ca, -⟩ := catdata_createHelo2Chunk_makes (g := g) hX hD he hsv hr h (by omega)
  obtain ⟨s₂, b, r2, w2, cb, -⟩ := catdata_createBye2Chunk_makes (g := g) hX hD he hsv hr w1 (by omega)
  obtain ⟨s₃, t, r3, w3, ct, nt, gt, kt⟩ := form_new (g := g) hX hsv hr 0x54455354 w2 (by omega)
  obtain ⟨s₄, s₅, u, d1, d2, w5, au, cu⟩ := add_two (g := g) hX he hsv hr (w3.perm ((List.Perm.swap a b ts).cons t)) gt
    (by rw [ca]; exact consistent_helo (by decide)) (by rw [cb]; exact consistent_bye (by decide))
    (by rw [ct]; decide) (by rw [ct, ca, cb]; decide) (by omega) (by omega)
  refine ⟨s₅, u, ?_, w5, by rw [cu, ct, ca, cb]; rfl, by rw [au]; exact nt⟩
  rw [au]
  exact catdata_form2 rfl r1 r2 (catdata_form rfl r3 d1.2.2.1 d2.2.2.1)

theorem cat_makes (hX : X.Linked) (hD : X.LinkedData) (he : X.e.Sane) (hsv : X.Serves 1024) (hr : Roomy m₀) :
    Makes X m₀ s₀ g .catdata_IFF_createTestCAT .IFF_CAT 48 Fixture.cat.chunk := fun {L s ts} h hL => by
  obtain ⟨s₁, a, r1, w1, ca, -⟩ := catdata_form1_makes (g := g) hX hD he hsv hr h (by omega)
  obtain ⟨s₂, b, r2, w2, cb, -⟩ := catdata_form2_makes (g := g) hX hD he hsv hr w1 (by omega)
  obtain ⟨s₃, t, r3, w3, ct, nt, gt, kt⟩ := cat_new (g := g) hX hsv hr 0x54455354 w2 (by omega)
  obtain ⟨s₄, s₅, u, d1, d2, w5, au, cu⟩ := add_two (g := g) hX he hsv hr (w3.perm ((List.Perm.swap a b ts).cons t)) gt
    (by rw [ca]; exact consistent_two (consistent_helo (by decide)) (consistent_bye (by decide)) (by decide) (by decide))
    (by rw [cb]; exact consistent_two (consistent_helo (by decide)) (consistent_bye (by decide)) (by decide) (by decide))
    (by rw [ct]; decide) (by rw [ct, ca, cb]; decide) (by omega) (by omega)
  refine ⟨s₅, u, ?_, w5, by rw [cu, ct, ca, cb]; rfl, by rw [au]; exact nt⟩
  rw [au]
  exact create_cat rfl r1 r2 r3 d1.2.2.2.1 d2.2.2.2.1

theorem nestedformdata_form1_makes (hX : X.Linked) (hD : X.LinkedData) (he : X.e.Sane) (hsv : X.Serves 1024) (hr : Roomy m₀) :
    Makes X m₀ s₀ g .nestedformdata_createTest1Form .IFF_Chunk 16
      (Fixture.testForm 28 [Fixture.helo [0x61, 0x62, 0x63, 0x64], Fixture.bye [0x45, 0x46, 0x47]]) := fun {L s ts} h hL => by
  obtain ⟨s₁, a, r1, w1, ca, -⟩ := nestedformdata_createHelo1Chunk_makes (g := g) hX hD he hsv hr h (by omega)
  obtain ⟨s₂, b, r2, w2, cb, -⟩ := nestedformdata_createBye1Chunk_makes (g := g) hX hD he hsv hr w1 (by omega)
  obtain ⟨s₃, t, r3, w3, ct, nt, gt, kt⟩ := form_new (g := g) hX hsv hr 0x54455354 w2 (by omega)
  obtain ⟨s₄, s₅, u, d1, d2, w5, au, cu⟩ := add_two (g := g) hX he hsv hr (w3.perm ((List.Perm.swap a b ts).cons t)) gt
    (by rw [ca]; exact consistent_helo (by decide)) (by rw [cb]; exact consistent_bye (by decide))
    (by rw [ct]; decide) (by rw [ct, ca, cb]; decide) (by omega) (by omega)
  refine ⟨s₅, u, ?_, w5, by rw [cu, ct, ca, cb]; rfl, by rw [au]; exact nt⟩
  rw [au]
  exact nestedformdata_form1 rfl r1 r2 (nestedformdata_form rfl r3 d1.2.2.1 d2.2.2.1)

theorem nestedformdata_form2_makes (hX : X.Linked) (hD : X.LinkedData) (he : X.e.Sane) (hsv : X.Serves 1024) (hr : Roomy m₀) :
    Makes X m₀ s₀ g .nestedformdata_createTest2Form .IFF_Chunk 16
      (Fixture.testForm 30 [Fixture.helo [0x61, 0x62, 0x63, 0x64, 0x65], Fixture.bye [0x46, 0x47, 0x48, 0x49]]) := fun {L s ts} h hL => by
  obtain ⟨s₁, a, r1, w1, ca, -⟩ := nestedformdata_createHelo2Chunk_makes (g := g) hX hD he hsv hr h (by omega)
  obtain ⟨s₂, b, r2, w2, cb, -⟩ := nestedformdata_createBye2Chunk_makes (g := g) hX hD he hsv hr w1 (by omega)
  obtain ⟨s₃, t, r3, w3, ct, nt, gt, kt⟩ := form_new (g := g) hX hsv hr 0x54455354 w2 (by omega)
  obtain ⟨s₄, s₅, u, d1, d2, w5, au, cu⟩ := add_two (g := g) hX he hsv hr (w3.perm ((List.Perm.swap a b ts).cons t)) gt
    (by rw [ca]; exact consistent_helo (by decide)) (by rw [cb]; exact consistent_bye (by decide))
    (by rw [ct]; decide) (by rw [ct, ca, cb]; decide) (by omega) (by omega)
  refine ⟨s₅, u, ?_, w5, by rw [cu, ct, ca, cb]; rfl, by rw [au]; exact nt⟩
  rw [au]
  exact nestedformdata_form2 rfl r1 r2 (nestedformdata_form rfl r3 d1.2.2.1 d2.2.2.1)

theorem nested_makes (hX : X.Linked) (hD : X.LinkedData) (he : X.e.Sane) (hsv : X.Serves 1024) (hr : Roomy m₀) :
    Makes X m₀ s₀ g .nestedformdata_IFF_createTestForm .IFF_Form 48 Fixture.nested.chunk := fun {L s ts} h hL => by
  obtain ⟨s₁, a, r1, w1, ca, -⟩ := nestedformdata_form1_makes (g := g) hX hD he hsv hr h (by omega)
  obtain ⟨s₂, b, r2, w2, cb, -⟩ := nestedformdata_form2_makes (g := g) hX hD he hsv hr w1 (by omega)
  obtain ⟨s₃, t, r3, w3, ct, nt, gt, kt⟩ := form_new (g := g) hX hsv hr 0x424c4120 w2 (by omega)
  obtain ⟨s₄, s₅, u, d1, d2, w5, au, cu⟩ := add_two (g := g) hX he hsv hr (w3.perm ((List.Perm.swap a b ts).cons t)) gt
    (by rw [ca]; exact consistent_two (consistent_helo (by decide)) (consistent_bye (by decide)) (by decide) (by decide))
    (by rw [cb]; exact consistent_two (consistent_helo (by decide)) (consistent_bye (by decide)) (by decide) (by decide))
    (by rw [ct]; decide) (by rw [ct, ca, cb]; decide) (by omega) (by omega)
  refine ⟨s₅, u, ?_, w5, by rw [cu, ct, ca, cb]; rfl, by rw [au]; exact nt⟩
  rw [au]
  exact create_nested rfl r1 r2 r3 d1.2.2.1 d2.2.2.1

theorem listdata_prop_makes (hX : X.Linked) (hD : X.LinkedData) (he : X.e.Sane) (hsv : X.Serves 1024) (hr : Roomy m₀) {L : Nat} {s : HS} {ts : List Node} (h : Work m₀ s₀ L s ts) (hL : L + 8 ≤ 4294967296) :
    ∃ s' t, Runs X .listdata_createTestProp [] (emb X g s) (ptrV .IFF_Form t.addr) (emb X g s') ∧
      Work m₀ s₀ (L + 8) s' (t :: ts) ∧ t.chunk = .grp idPROP 16 0x54455354 [Fixture.helo [0x71, 0x77, 0x65, 0x72]] ∧ Node.IsGroup t := by
  obtain ⟨s₁, a, r1, w1, ca, -⟩ := listdata_createHeloChunk_makes (g := g) hX hD he hsv hr h (by omega)
  obtain ⟨s₂, t, r2, w2, ct, nt, gt, kt⟩ := prop_new (g := g) hX hsv hr 0x54455354 w1 (by omega)
  obtain ⟨s₃, u, d1, w3, cu, au, gu, -⟩ := work_add (g := g) hX he hsv hr w2 gt
    (by rw [ca]; exact consistent_helo (by decide)) (by rw [ct]; decide) (by rw [ct, ca]; decide) (by omega) (by omega)
  refine ⟨s₃, u, ?_, w3, by rw [cu, ct, ca]; rfl, gu⟩
  rw [au]
  exact listdata_prop rfl r1 r2 d1.2.2.2.2.1

theorem listdata_form1_makes (hX : X.Linked) (hD : X.LinkedData) (he : X.e.Sane) (hsv : X.Serves 1024) (hr : Roomy m₀) :
    Makes X m₀ s₀ g .listdata_createTest1Form .IFF_Chunk 8 (Fixture.testForm 16 [Fixture.bye [0x61, 0x62, 0x63, 0x64]]) :=
  fun {L s ts} h hL => by
  obtain ⟨s₁, a, r1, w1, ca, -⟩ := listdata_createBye1Chunk_makes (g := g) hX hD he hsv hr h (by omega)
  obtain ⟨s₂, t, r2, w2, ct, nt, gt, kt⟩ := form_new (g := g) hX hsv hr 0x54455354 w1 (by omega)
  obtain ⟨s₃, u, d1, w3, cu, au, -, -⟩ := work_add (g := g) hX he hsv hr w2 gt
    (by rw [ca]; exact consistent_bye (by decide)) (by rw [ct]; decide) (by rw [ct, ca]; decide) (by omega) (by omega)
  refine ⟨s₃, u, ?_, w3, by rw [cu, ct, ca]; rfl, by rw [au]; exact nt⟩
  rw [au]
  exact listdata_form1 rfl r1 (listdata_form rfl r2 d1.2.2.1)

theorem listdata_form2_makes (hX : X.Linked) (hD : X.LinkedData) (he : X.e.Sane) (hsv : X.Serves 1024) (hr : Roomy m₀) :
    Makes X m₀ s₀ g .listdata_createTest2Form .IFF_Chunk 8 (Fixture.testForm 16 [Fixture.bye [0x45, 0x46, 0x47, 0x48]]) :=
  fun {L s ts} h hL => by
  obtain ⟨s₁, a, r1, w1, ca, -⟩ := listdata_createBye2Chunk_makes (g := g) hX hD he hsv hr h (by omega)
  obtain ⟨s₂, t, r2, w2, ct, nt, gt, kt⟩ := form_new (g := g) hX hsv hr 0x54455354 w1 (by omega)
  obtain ⟨s₃, u, d1, w3, cu, au, -, -⟩ := work_add (g := g) hX he hsv hr w2 gt
    (by rw [ca]; exact consistent_bye (by decide)) (by rw [ct]; decide) (by rw [ct, ca]; decide) (by omega) (by omega)
  refine ⟨s₃, u, ?_, w3, by rw [cu, ct, ca]; rfl, by rw [au]; exact nt⟩
  rw [au]
  exact listdata_form2 rfl r1 (listdata_form rfl r2 d1.2.2.1)

theorem list_makes (hX : X.Linked) (hD : X.LinkedData) (he : X.e.Sane) (hsv : X.Serves 1024) (hr : Roomy m₀) :
    Makes X m₀ s₀ g .listdata_IFF_createTestList .IFF_List 48 Fixture.list.chunk := fun {L s ts} h hL => by
  obtain ⟨s₁, p, r1, w1, cp, gp⟩ := listdata_prop_makes (g := g) hX hD he hsv hr h (by omega)
  obtain ⟨s₂, a, r2, w2, ca, -⟩ := listdata_form1_makes (g := g) hX hD he hsv hr w1 (by omega)
  obtain ⟨s₃, b, r3, w3, cb, -⟩ := listdata_form2_makes (g := g) hX hD he hsv hr w2 (by omega)
  obtain ⟨s₄, t, r4, w4, ct, nt, lt, kt, kp⟩ := list_new (g := g) hX hsv hr 0x54455354 w3 (by omega)
  have hp : (t :: b :: a :: p :: ts).Perm (t :: p :: a :: b :: ts) :=
    (((List.Perm.swap p a ts).cons b).trans ((List.Perm.swap p b (a :: ts)).trans ((List.Perm.swap a b ts).cons p))).cons t
  obtain ⟨s₅, v, d0, w5, cv, av, gv, kv⟩ := work_addProp (g := g) hX he hsv hr (w4.perm hp) lt gp
    (by rw [cp]; exact consistent_one (consistent_helo (by decide)) (by decide) (by decide))
    (by rw [ct]; decide) (by rw [ct, cp]; decide) (by omega) (by omega)
  rw [ct, cp] at cv
  obtain ⟨s₆, s₇, u, d1, d2, w7, au, cu⟩ := add_two (g := g) hX he hsv hr w5 gv
    (by rw [ca]; exact consistent_one (consistent_bye (by decide)) (by decide) (by decide))
    (by rw [cb]; exact consistent_one (consistent_bye (by decide)) (by decide) (by decide))
    (by rw [cv]; decide) (by rw [cv, ca, cb]; decide) (by omega) (by omega)
  refine ⟨s₇, u, ?_, w7, by rw [cu, cv, ca, cb]; rfl, by rw [au, av]; exact nt⟩
  rw [av] at d1 d2
  rw [au, av]
  exact create_list rfl r1 r2 r3 r4 d0.2 d1.2.2.2.2.2 d2.2.2.2.2.2

end Iff.Src
