import Verif.Proofs.Compare
import Verif.Props.Grammar
import Verif.Proofs.TestApp
/-
  C23 IFF_compare is an equivalence and means equal files.
-/
namespace Iff
open Spec

/-- What `IFF_compare` may be applied to: the structs are of the types that the registry works with,
data blocks have the declared sizes (which are `int`s), and PROP arrays hold groups. -/
structure Comparable (reg : Option Registry) (c : Chunk) : Prop where
  dispatched : Dispatched (selectChunkRegistry reg) 0 c
  raws : RawSizes c
  small : ∀ id size data, Within (.raw id size data) c → size < 2147483648
  props : PropGroups c

theorem Comparable.sound {reg : Option Registry} {c : Chunk} (h : Comparable reg c) :
    Sound (selectChunkRegistry reg) 0 c := ⟨h.dispatched, h.raws, h.small, h.props⟩

/-- C23: `IFF_compare` is defined and an equivalence relation, also on hierarchies with wrong group
sizes, with any registry. -/
theorem C23_equivalence (e : Env) (he : e.Sane) (reg : Option Registry)
    (hr : RegistrySorted (selectChunkRegistry reg)) :
    (∀ c, Comparable reg c → compare e reg c c = .val true) ∧
    (∀ c d, Comparable reg c → Comparable reg d →
      ∃ b, compare e reg c d = .val b ∧ compare e reg d c = .val b) ∧
    (∀ c d f, Comparable reg c → Comparable reg d → Comparable reg f →
      compare e reg c d = .val true → compare e reg d f = .val true →
      compare e reg c f = .val true) := by
  have key : ∀ c d, Comparable reg c → Comparable reg d → Says (Alike c d) (compare e reg c d) :=
    fun c d hc hd => (compares he.wide hr c).1 0 d hc.sound hd.sound
  refine ⟨fun c hc => ?_, fun c d hc hd => ?_, fun c d f hc hd hf h1 h2 => ?_⟩
  · obtain ⟨b, h1, h2⟩ := key c c hc hc
    rw [h1, h2.mpr (alike_refl c hc.props)]
  · obtain ⟨b, h1, h2⟩ := key c d hc hd
    obtain ⟨b', h1', h2'⟩ := key d c hd hc
    refine ⟨b, h1, ?_⟩
    rw [h1']
    have : b = true ↔ b' = true := by
      rw [h2, h2']; exact ⟨alike_symm c d, alike_symm d c⟩
    cases b <;> cases b' <;> simp_all
  · obtain ⟨b, g1, g2⟩ := key c d hc hd
    obtain ⟨b', g1', g2'⟩ := key d f hd hf
    obtain ⟨b'', g1'', g2''⟩ := key c f hc hf
    rw [h1] at g1; rw [h2] at g1'
    simp only [Out.val.injEq] at g1 g1'
    rw [g1'', g2''.mpr (alike_trans c d f (g2.mp g1.symm) (g2'.mp g1'.symm))]

/-- C23: consistent hierarchies compare equal iff they are equal, in every field, with any
registry. -/
theorem C23_equal (e : Env) (he : e.Sane) (reg : Option Registry)
    (hr : RegistrySorted (selectChunkRegistry reg)) (c d : Chunk) (hc : Comparable reg c)
    (hd : Comparable reg d) (cc : Consistent c) (cd : Consistent d) (pc : PropArrays c)
    (pd : PropArrays d) : ∃ b, compare e reg c d = .val b ∧ (b = true ↔ c = d) := by
  obtain ⟨b, h1, h2⟩ := (compares he.wide hr c).1 0 d hc.sound hd.sound
  refine ⟨b, h1, h2.trans ⟨alike_eq c cc pc d ⟨cd, pd⟩, ?_⟩⟩
  rintro rfl
  exact alike_refl c hc.props

theorem propGroups_standard {c : Chunk} (hs : Standard c) (hl : PropArrays c) : PropGroups c := by
  intro id size ty subs props hw
  induction hw with
  | self =>
    intro p hp
    have h1 := hl _ _ _ _ _ .self p hp
    cases hs with
    | lst _ _ h3 =>
      cases h3 p hp with
      | raw _ _ _ h4 => exact absurd h1 h4
      | grp h5 h6 => exact ⟨_, _, _, _, rfl⟩
      | lst h4 _ _ =>
        simp only [Chunk.id] at h1
        rw [h4] at h1
        exact absurd h1 (by decide)
  | grp hm _ ih => cases hs with | grp _ h => exact ih (h _ hm) (hl.grp hm)
  | sub hm _ ih => cases hs with | lst _ h _ => exact ih (h _ hm) (hl.sub hm)
  | prop hm _ ih => cases hs with | lst _ _ h => exact ih (h _ hm) (hl.prop hm)

theorem small_of_consistent {c : Chunk} (h : Consistent c) :
    ∀ id size data, Within (.raw id size data) c → size < 2147483648 := by
  intro id size data hw
  induction hw with
  | self => cases h; assumption
  | grp hm _ ih => cases h with | grp _ _ h => exact ih (h _ hm)
  | sub hm _ ih => cases h with | lst _ _ h _ => exact ih (h _ hm)
  | prop hm _ ih => cases h with | lst _ _ _ h => exact ih (h _ hm)

theorem comparable_standard {c : Chunk} (hs : Standard c) (hc : Consistent c) (hl : ListsSplit c) :
    Comparable none c :=
  ⟨standard_iff.mpr hs, rawSizes_of_consistent hc, small_of_consistent hc,
    propGroups_standard hs (propArrays_of_split hl)⟩

/-- C23 for the default registry: two consistent hierarchies compare equal iff `IFF_write` produces
the same bytes for them (on any media with room). -/
theorem C23_equal_files (e e' : Env) (he : e.Sane) (he' : e'.Sane) (c d : Chunk)
    (sc : Standard c) (cc : Consistent c) (lc : ListsSplit c)
    (sd : Standard d) (cd : Consistent d) (ld : ListsSplit d) (room : Nat)
    (hc : (encode c).length ≤ room) (hd : (encode d).length ≤ room) :
    ∃ b, compare e none c d = .val b ∧
      (b = true ↔ ∃ file room', writeFd e' none c ⟨[], room, []⟩ = .val (true, ⟨file, room', []⟩) ∧
        writeFd e' none d ⟨[], room, []⟩ = .val (true, ⟨file, room', []⟩)) := by
  obtain ⟨b, h1, h2⟩ := C23_equal e he none defaultRegistry_sorted c d (comparable_standard sc cc lc)
    (comparable_standard sd cd ld) cc cd (propArrays_of_split lc) (propArrays_of_split ld)
  refine ⟨b, h1, h2.trans ?_⟩
  have w1 := C09_write_encodes_default e' he' c cc sc ⟨[], room, []⟩ hc
  have w2 := C09_write_encodes_default e' he' d cd sd ⟨[], room, []⟩ hd
  constructor
  · rintro rfl
    exact ⟨_, _, w1, w1⟩
  · rintro ⟨file, room', h3, h4⟩
    rw [w1] at h3; rw [w2] at h4
    simp only [Out.val.injEq, Prod.mk.injEq, WS.mk.injEq, true_and, and_true, List.nil_append] at h3 h4
    have hE := encodes_encode c cc sc lc
    have hE' := encodes_encode d cd sd ld
    exact (C12_unambiguous _ _ [] [] c d hE.weaken hE'.weaken
      (by rw [h3.1, h4.1])).2

/-- A FORM with a HELO chunk of two bytes; the third field is not part of it. -/
def shortHello (c : BitVec 16) : Chunk :=
  .grp idFORM 14 idTEST [.ext idHELO 2 [.ubyte 1, .ubyte 2, .uword c]]

theorem shortHello_consistent (c : BitVec 16) : Consistent (shortHello c) := by
  refine .grp ?_ (by decide) ?_
  · have : (encodeAll [.ext idHELO 2 [.ubyte 1, .ubyte 2, .uword c]]).length = 10 := by
      simp [encodeAll, encode, encodeFields, fitting, encodeVal, pad]
    rw [this]; decide
  · intro x hx
    simp only [List.mem_singleton] at hx
    subst hx
    refine .ext (by decide) (by decide) ?_
    simp [TailOk, encodeVal]

theorem shortHello_comparable (c : BitVec 16) : Comparable (some testRegistry) (shortHello c) where
  dispatched := by
    refine .grp test_form (Or.inl rfl) ?_
    intro x hx
    simp only [List.mem_singleton] at hx
    subst hx
    exact .ext test_hello (by simp [Val.kind])
  raws := by
    intro id size data hw
    cases hw with
    | grp hm hw => simp only [List.mem_singleton] at hm; subst hm; cases hw
  small := by
    intro id size data hw
    cases hw with
    | grp hm hw => simp only [List.mem_singleton] at hm; subst hm; cases hw
  props := by
    intro id size ty subs props hw
    cases hw with
    | grp hm hw => simp only [List.mem_singleton] at hm; subst hm; cases hw

/-- C23, "equal files mean equal", is false for application chunks whose declared size does not cover
all fields: the fields behind the end are not written, but compared.  Witness: a HELO chunk of two
bytes. -/
theorem C23_false_with_application_chunks : ∃ c d : Chunk,
    Consistent c ∧ Consistent d ∧ Comparable (some testRegistry) c ∧ Comparable (some testRegistry) d ∧
    encode c = encode d ∧ compare pc (some testRegistry) c d = .val false :=
  ⟨shortHello 3, shortHello 4, shortHello_consistent 3, shortHello_consistent 4,
    shortHello_comparable 3, shortHello_comparable 4, by decide, by decide⟩

/-- Non-vacuity: `sample` is comparable, and so are hierarchies with wrong group sizes. -/
example : Comparable none sample ∧ Comparable none (.grp idFORM 77 idTEST []) := by
  refine ⟨comparable_standard sample_standard sample_consistent sample_split,
    standard_iff.mpr (.grp (Or.inl rfl) (by simp)), ?_, ?_, ?_⟩
  · intro id size data hw; cases hw with | grp hm hw => simp at hm
  · intro id size data hw; cases hw with | grp hm hw => simp at hm
  · intro id size ty subs props hw; cases hw with | grp hm hw => simp at hm

end Iff
