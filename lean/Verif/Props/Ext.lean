import Verif.Proofs.Fine
import Verif.Proofs.ReadFd
import Verif.Proofs.ReadWire
import Verif.Proofs.Write
import Verif.Props.Compare
/-
  C40 Application registries still parse nested group chunks.
  C41 Application chunks tolerate truncated and extended sizes.
-/
namespace Iff
open Spec

/-- C40 restricted to registries that know the group chunks inside every form type, too: groups are
read as groups at every level, and of whatever was read, `IFF_print` and `IFF_compare` are defined,
and `IFF_check` and `IFF_write` can at most overflow an `int`.  Missing are the registries that do
not repeat the group chunks for their form types, as those of README.md and of the tests: for them
the property is false (`C40_false`). -/
theorem C40_groups_partial (e : Env) (he : e.Sane) (r : Registry) (hr : RegistrySorted r)
    (hg : GroupsEverywhere r) (s s' : RS) (c : Chunk)
    (h : readFd e (some r) s = .val (some c, s')) :
    (∀ d, Within d c → d.id = idFORM ∨ d.id = idCAT ∨ d.id = idPROP →
      ∃ id size ty subs, d = .grp id size ty subs) ∧
    (∀ d, Within d c → d.id = idLIST → ∃ id size ty subs props, d = .lst id size ty subs props) ∧
    (∀ level, ∃ t, print (some r) level c = .val t) ∧
    (∀ w u, writeFd e (some r) c w = .ub u → u = .signedOverflow) ∧
    (∀ l u, check e (some r) c l = .ub u → u = .signedOverflow) ∧
    (∀ s₂ s₂' d, readFd e (some r) s₂ = .val (some d, s₂') →
      ∃ b, compare e (some r) c d = .val b) := by
  have sound : ∀ {s s' : RS} {c : Chunk}, readFd e (some r) s = .val (some c, s') →
      Sound r 0 c ∧ PropArrays c := by
    intro s s' c h
    obtain ⟨s1, h1, _⟩ := readFd_some h
    obtain ⟨w, _, hl⟩ := (read_loose he _).1 _ _ _ _ h1
    obtain ⟨h2, h3, h4⟩ := hl.sound hr hg
    exact ⟨⟨h2, fun _ _ _ hw => (hl.data hw).1, hl.small, h4⟩, h3⟩
  obtain ⟨hs, hp⟩ := sound h
  have within : ∀ {ft : ID} {d c : Chunk}, Within d c → Dispatched r ft c →
      ∃ ft', Dispatched r ft' d := by
    intro ft d c hw
    induction hw generalizing ft with
    | self => exact fun h => ⟨ft, h⟩
    | grp hm _ ih => intro h; cases h with | grp _ _ h => exact ih (h _ hm)
    | sub hm _ ih => intro h; cases h with | lst _ h _ => exact ih (h _ hm)
    | prop hm _ ih => intro h; cases h with | lst _ _ h => exact ih (h _ hm)
  have same : ∀ {ft id : ID} {h h' : Handler}, HandlerFor r ft id h → HandlerFor r ft id h' → h = h' := by
    intro ft id h h' h1 h2
    rw [← findChunkType_iff hr] at h1 h2
    exact h1.symm.trans h2
  refine ⟨?_, ?_, fun level => ?_, fun w u hu => ?_, fun l u hu => ?_, ?_⟩
  · intro d hw hid
    obtain ⟨ft', hd⟩ := within hw hs.dispatched
    cases hd with
    | grp => exact ⟨_, _, _, _, rfl⟩
    | raw hh =>
      rcases hid with hid | hid | hid <;> simp only [Chunk.id] at hid <;> subst hid
      · cases same hh (hg.form _)
      · cases same hh (hg.cat _)
      · cases same hh (hg.prop _)
    | ext hh =>
      rcases hid with hid | hid | hid <;> simp only [Chunk.id] at hid <;> subst hid
      · cases same hh (hg.form _)
      · cases same hh (hg.cat _)
      · cases same hh (hg.prop _)
    | lst hh =>
      rcases hid with hid | hid | hid <;> simp only [Chunk.id] at hid <;> subst hid
      · cases same hh (hg.form _)
      · cases same hh (hg.cat _)
      · cases same hh (hg.prop _)
  · intro d hw hid
    obtain ⟨ft', hd⟩ := within hw hs.dispatched
    cases hd with
    | lst => exact ⟨_, _, _, _, _, rfl⟩
    | raw hh => simp only [Chunk.id] at hid; subst hid; cases same hh (hg.list _)
    | ext hh => simp only [Chunk.id] at hid; subst hid; cases same hh (hg.list _)
    | grp hh hk =>
      simp only [Chunk.id] at hid; subst hid
      have := same hh (hg.list _)
      subst this
      rcases hk with h | h | h <;> cases h
  · exact prints hr hg c 0 level hs.dispatched hs.raws hp hs.props
  · exact (fine_write he.wide hr c 0 hs w).2 u hu
  · unfold check at hu
    split at hu
    · cases hu
    · exact (fine_check hr hg c 0 hs.dispatched hp hs.props l).2 u hu
  · intro s₂ s₂' d hd
    obtain ⟨b, hb, _⟩ := (compares he.wide hr c).1 0 d hs (sound hd).1
    exact ⟨b, hb⟩

/-- A sufficient condition on the arrays a registry is made of: the chain of every form type ends
with the table of the library (`IFF_globalChunkTypesNode`), and the other tables do not redefine the
group chunks.  When the arrays are sorted, too, `IFF_findChunkType` finds the group types everywhere. -/
theorem C40_linked_registries (r : Registry) (hgl : r.global = [globalChunkTypes])
    (h : ∀ f ∈ r.formTypes, ∃ near, f.chain = near ++ [globalChunkTypes] ∧ ∀ n ∈ near, ∀ t ∈ n,
      t.id ≠ idFORM ∧ t.id ≠ idCAT ∧ t.id ≠ idLIST ∧ t.id ≠ idPROP) :
    GroupsEverywhere r ∧ (RegistrySorted r → ∀ ft, findChunkType r ft idFORM = .form ∧
      findChunkType r ft idCAT = .cat ∧ findChunkType r ft idLIST = .list ∧
      findChunkType r ft idPROP = .prop) := by
  suffices hg : GroupsEverywhere r from ⟨hg, fun hs ft => ⟨(findChunkType_iff hs).2 (hg.form ft),
    (findChunkType_iff hs).2 (hg.cat ft), (findChunkType_iff hs).2 (hg.list ft),
    (findChunkType_iff hs).2 (hg.prop ft)⟩⟩
  have key : ∀ (t : ChunkType), t ∈ globalChunkTypes →
      t.id = idFORM ∨ t.id = idCAT ∨ t.id = idLIST ∨ t.id = idPROP →
      ∀ ft, HandlerFor r ft t.id t.handler := by
    intro t ht hid ft
    by_cases hf : ∃ f ∈ r.formTypes, f.formType = ft
    · obtain ⟨f, hf, hft⟩ := hf
      obtain ⟨near, hc, hn⟩ := h f hf
      refine Or.inl ⟨f, hf, hft, Or.inl ⟨near, _, [], t, hc, ht, rfl, rfl, ?_⟩⟩
      intro n hn' t' ht' heq
      obtain ⟨h1, h2, h3, h4⟩ := hn n hn' t' ht'
      rw [← heq] at hid
      rcases hid with h | h | h | h
      · exact h1 h
      · exact h2 h
      · exact h3 h
      · exact h4 h
    · refine Or.inr ⟨fun f hf' hft => hf ⟨f, hf', hft⟩, Or.inl ⟨[], _, [], t, hgl, ht, rfl, rfl, ?_⟩⟩
      simp
  exact
    { form := key ⟨idFORM, .form⟩ (by simp [globalChunkTypes]) (Or.inl rfl)
      cat := key ⟨idCAT, .cat⟩ (by simp [globalChunkTypes]) (Or.inr (Or.inl rfl))
      list := key ⟨idLIST, .list⟩ (by simp [globalChunkTypes]) (Or.inr (Or.inr (Or.inl rfl)))
      prop := key ⟨idPROP, .prop⟩ (by simp [globalChunkTypes]) (Or.inr (Or.inr (Or.inr rfl))) }

/-- A CAT of TEST forms: `CAT TEST { FORM TEST {} }`. -/
def catTest : List Byte :=
  [0x43, 0x41, 0x54, 0x20, 0, 0, 0, 16, 0x54, 0x45, 0x53, 0x54,
   0x46, 0x4f, 0x52, 0x4d, 0, 0, 0, 4, 0x54, 0x45, 0x53, 0x54]

/-- The same FORM inside a FORM of type TEST. -/
def formTest : List Byte :=
  [0x46, 0x4f, 0x52, 0x4d, 0, 0, 0, 16, 0x54, 0x45, 0x53, 0x54,
   0x46, 0x4f, 0x52, 0x4d, 0, 0, 0, 4, 0x54, 0x45, 0x53, 0x54]

/-- C40 is false: with the registry of the tests (whose chain for the form type TEST ends with NULL)
the FORM inside a CAT of contents type TEST is read as raw data, and `IFF_check` then reads the group
type from a struct that is not a group.  Inside a FORM TEST the inner FORM becomes raw data, too. -/
theorem C40_false :
    readFd pc (some testRegistry) ⟨catTest, []⟩ =
      .val (some (.grp idCAT 16 idTEST [.raw idFORM 4 [0x54, 0x45, 0x53, 0x54]]), ⟨[], []⟩) ∧
    check pc (some testRegistry) (.grp idCAT 16 idTEST [.raw idFORM 4 [0x54, 0x45, 0x53, 0x54]]) [] =
      .ub .wrongStruct ∧
    readFd pc (some testRegistry) ⟨formTest, []⟩ =
      .val (some (.grp idFORM 16 idTEST [.raw idFORM 4 [0x54, 0x45, 0x53, 0x54]]), ⟨[], []⟩) :=
  ⟨rfl, rfl, rfl⟩

/-- The registry of the tests with the chain linked to the table of the library. -/
def linkedRegistry : Registry :=
  extendDefaultWithFormTypes
    [⟨idTEST, [[⟨idBYE, byeType⟩, ⟨idHELO, helloType⟩], globalChunkTypes]⟩]

/-- Non-vacuity of C40: `linkedRegistry` meets the hypotheses, and reads `catTest` as it should. -/
example : RegistrySorted linkedRegistry ∧ GroupsEverywhere linkedRegistry ∧
    readFd pc (some linkedRegistry) ⟨catTest, []⟩ =
      .val (some (.grp idCAT 16 idTEST [.grp idFORM 4 idTEST []]), ⟨[], []⟩) := by
  refine ⟨⟨by unfold Ascending; decide, ?_, defaultRegistry_sorted.global⟩,
    (C40_linked_registries _ rfl ?_).1, rfl⟩
  · intro f hf
    simp only [linkedRegistry, extendDefaultWithFormTypes, List.mem_singleton] at hf
    subst hf
    intro node hn
    simp only [List.mem_cons, List.not_mem_nil, or_false] at hn
    rcases hn with rfl | rfl <;> (unfold Ascending; decide)
  · intro f hf
    simp only [linkedRegistry, extendDefaultWithFormTypes, List.mem_singleton] at hf
    subst hf
    refine ⟨[[⟨idBYE, byeType⟩, ⟨idHELO, helloType⟩]], rfl, ?_⟩
    intro n hn t ht
    simp only [List.mem_singleton] at hn
    subst hn
    simp only [List.mem_cons, List.not_mem_nil, or_false] at ht
    rcases ht with rfl | rfl <;> decide

/-! ### C41 -/

/-- C41 for chunks whose first field that does not fit is not larger than the whole chunk (`TailOk`),
for every layout, value and size: the written chunk takes its declared size, and reading it - or any
chunk with other bytes in the place of the filler and padding - gives back the fields that fit, the
others at their defaults, and stops behind the chunk.  Missing: chunks smaller than that field
(`C41_false`). -/
theorem C41_sizes_partial (e e' : Env) (he : e.Sane) (he' : e'.Sane) (r : Registry)
    (hr : RegistrySorted r) (ft id : ID) (fields : List Field) (chk : List Val → Bool)
    (hh : HandlerFor r ft id (.ext fields chk)) (vals : List Val)
    (hk : vals.map Val.kind = fields.map Field.kind) (size : Int) (h0 : 0 ≤ size)
    (h1 : size < 2147483648) (ht : TailOk size vals size.toNat) :
    (∀ s : WS, (8 + size + size % 2).toNat ≤ s.room →
      writeChunk e r ft (.ext id size vals) s = .val (true,
        ⟨s.out ++ (header id size ++ (encodeFields vals size ++
            List.replicate (size.toNat - (encodeFields vals size).length) 0) ++ pad size),
          s.room - (8 + size + size % 2).toNat, s.log⟩)) ∧
    (∀ (filler p rest : List Byte) (log : List Msg) (n : Nat),
      ((encodeFields vals size).length : Int) + filler.length = size →
      (p.length : Int) = size % 2 → filler = [] ∨ e'.seekable = true → 8 + size + size % 2 ≤ n →
      ∃ log', readChunk e' r n ft
          ⟨header id size ++ (encodeFields vals size ++ filler) ++ p ++ rest, log⟩ =
        .val (some (.ext id size (fitting vals size.toNat ++
          (fields.map fun f => f.kind.zero).drop (fitting vals size.toNat).length)),
          ⟨rest, log'⟩)) := by
  refine ⟨fun s hs => ?_, fun filler p rest log n hf hp hfs hn => ?_⟩
  · have hw := writes_chunk e he.wide hr (.ext id size vals) ft (.ext h0 h1 ht) (.ext hh hk)
    have hlen : (encode (.ext id size vals)).length = (8 + size + size % 2).toNat := by
      have := (Consistent.ext (id := id) h0 h1 ht).length
      simp only [Chunk.size] at this
      omega
    have := hw.full s (by omega)
    rw [this, hlen]
    simp only [encode]
  · have hpw : ∃ pn, PadWire size p pn := by
      by_cases ho : size % 2 = 0
      · have : p = [] := List.eq_nil_of_length_eq_zero (by omega)
        exact ⟨_, Or.inl ⟨ho, this, rfl⟩⟩
      · obtain ⟨b, rfl⟩ := List.length_eq_one_iff.mp (by omega : p.length = 1)
        exact ⟨_, Or.inr ⟨by omega, b, rfl, rfl⟩⟩
    obtain ⟨pn, hpw⟩ := hpw
    have := Wire.reads he'.wide (Wire.ext (e := e') (r := r) (ft := ft) (id := id)
      ((findChunkType_iff hr).mpr hh) hk h0 h1 ht hf hfs hpw) n rest log (by
        simp only [List.length_append, header_length]; omega)
    exact ⟨_, this⟩

/-- C41 is false for a chunk that is smaller than a field: the fields that do not fit are written
nevertheless, so that the chunk takes 16 bytes instead of 10, and reading 2 bytes of data takes 6
bytes of what follows as well.  Witness: a BYE chunk of size 2. -/
theorem C41_false :
    writeChunk pc testRegistry idTEST (.ext idBYE 2 [.long 1, .long 2]) ⟨[], 100, []⟩ =
      .val (true, ⟨be 4 idBYE.toNat ++ [0, 0, 0, 2, 0, 0, 0, 1, 0, 0, 0, 2], 84, []⟩) ∧
    readChunk pc testRegistry 20 idTEST
        ⟨be 4 idBYE.toNat ++ [0, 0, 0, 2, 0, 0, 0, 1, 0, 0, 0, 2, 0, 0], []⟩ =
      .val (some (.ext idBYE 2 [.long 1, .long 2]), ⟨[0, 0], []⟩) := by
  refine ⟨by decide, ?_⟩
  have h := readChunk_at pc testRegistry 19 idTEST idBYE (size := 2) (by decide) (by decide)
    [0, 0, 0, 1, 0, 0, 0, 2, 0, 0] []
  have hf : findChunkType testRegistry idTEST idBYE = byeType := rfl
  rw [hf, byeType, readBody_ext, M.bind_apply,
    show readExtFields pc idBYE 2 [⟨"one", .long⟩, ⟨"two", .long⟩]
      (List.map (fun f : Field => f.kind.zero) [⟨"one", .long⟩, ⟨"two", .long⟩]) [] 0
      ⟨[0, 0, 0, 1, 0, 0, 0, 2, 0, 0], []⟩ = .val ((true, [.long 1, .long 2], 8), ⟨[0, 0], []⟩)
      by decide +kernel] at h
  have hw : header idBYE 2 ++ [0, 0, 0, 1, 0, 0, 0, 2, 0, 0] =
    be 4 idBYE.toNat ++ [0, 0, 0, 2, 0, 0, 0, 1, 0, 0, 0, 2, 0, 0] := by decide
  rw [hw] at h
  exact h

/-- Non-vacuity of C41: HELO chunks (fields of 1, 1 and 2 bytes) of all sizes from 2 on meet the
hypotheses. -/
example (a b : BitVec 8) (c : BitVec 16) (size : Int) (h : 2 ≤ size) :
    TailOk size [.ubyte a, .ubyte b, .uword c] size.toNat := by
  have h1 : 1 ≤ size.toNat := by omega
  have h2 : 1 ≤ size.toNat - 1 := by omega
  simp only [TailOk, encodeVal, be_length, if_pos h1, if_pos h2]
  split
  · trivial
  · exact_mod_cast h

end Iff
