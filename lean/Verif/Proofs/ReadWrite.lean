import Verif.Proofs.ReadWire
/-
  The encoding of a consistent hierarchy is a well-formed input.
-/
namespace Iff
open Spec

theorem wires_map (cs : List Chunk) (f : Chunk → List Msg) :
    wires (cs.map fun c => ⟨encode c, c, f c⟩) = encodeAll cs := by
  induction cs with
  | nil => rfl
  | cons c cs ih => simp only [List.map_cons, wires_cons, ih, encodeAll]

theorem skipNotesAll_eq (cs : List Chunk) : skipNotesAll cs = cs.flatMap skipNotes := by
  induction cs with
  | nil => rfl
  | cons c cs ih => simp [skipNotesAll, ih]

theorem skipNotes_standard {c : Chunk} (h : Standard c) : skipNotes c = [] := by
  induction h with
  | raw => rfl
  | grp _ _ ih =>
    rw [skipNotes, skipNotesAll_eq, List.flatMap_eq_nil_iff]; exact ih
  | lst _ _ _ ih ih2 =>
    rw [skipNotes, skipNotesAll_eq, skipNotesAll_eq]
    rw [List.append_eq_nil_iff, List.flatMap_eq_nil_iff, List.flatMap_eq_nil_iff]
    exact ⟨ih2, ih⟩

/-- A member as a piece of the encoding. -/
def pieceOf (c : Chunk) : Piece := ⟨encode c, c, skipNotes c⟩

theorem pieces_c (cs : List Chunk) : (cs.map pieceOf).map Piece.c = cs := by
  induction cs with
  | nil => rfl
  | cons c cs ih => simp only [List.map_cons, ih]; rfl

theorem pieces_notes (cs : List Chunk) : (cs.map pieceOf).flatMap Piece.notes = skipNotesAll cs := by
  induction cs with
  | nil => rfl
  | cons c cs ih => simp only [List.map_cons, List.flatMap_cons, ih]; rfl

theorem wires_pieces (cs : List Chunk) : wires (cs.map pieceOf) = encodeAll cs := wires_map cs _

theorem wire_encode (e : Env) {r : Registry} (hr : RegistrySorted r) (c : Chunk) :
    ∀ ft, Consistent c → Loadable e r ft c → Wire e r ft (encode c) c (skipNotes c) := by
  induction c using Chunk.ind with
  | raw id size data =>
    intro ft hc hl
    cases hc with
    | raw h1 h2 =>
      cases hl with
      | raw hh hm =>
        exact .raw ((findChunkType_iff hr).mpr hh) h1 h2 hm (PadWire.zero size)
  | ext id size vals =>
    intro ft hc hl
    cases hc with
    | ext h1 h2 ht =>
      cases hl with
      | @ext _ _ _ _ fields chk hh hk hs hz =>
        have hlen := encodeFields_length vals size
        have := Wire.ext (e := e) (id := id) (size := size) (vals := vals)
          (filler := List.replicate (size.toNat - (encodeFields vals size).length) 0)
          ((findChunkType_iff hr).mpr hh) hk h1 h2 ht (by rw [List.length_replicate]; omega)
          (by
            rcases hs with hs | hs
            · left; rw [hs]; simp
            · right; exact hs) (PadWire.zero size)
        rw [← hz] at this
        simp only [List.replicate_eq_nil_iff, List.length_replicate, List.append_nil] at this
        exact this
  | grp id size ty subs ih =>
    intro ft hc hl
    cases hc with
    | grp h1 h2 h3 =>
      cases hl with
      | grp hh hk hs =>
        have := Wire.grp (e := e) (id := id) (size := size) (ty := ty) (subs.map pieceOf)
          ((findChunkType_iff hr).mpr hh) hk (by rw [wires_pieces]; exact h1) h2
          (by
            intro q hq
            obtain ⟨c, hc, rfl⟩ := List.mem_map.mp hq
            exact ih c hc ty (h3 c hc) (hs c hc)) (PadWire.zero size)
        rw [wires_pieces, pieces_c, pieces_notes, List.append_nil] at this
        exact this
  | lst id size ty subs props ih ih2 =>
    intro ft hc hl
    cases hc with
    | lst h1 h2 h3 h4 =>
      cases hl with
      | lst hh hsi hpi hs hp =>
        have := Wire.lst (e := e) (size := size) (ty := ty) ((props ++ subs).map pieceOf)
          ((findChunkType_iff hr).mpr hh)
          (by rw [wires_pieces, encodeAll_append, List.length_append]; omega) h2
          (by
            intro q hq
            obtain ⟨c, hc, rfl⟩ := List.mem_map.mp hq
            rcases List.mem_append.mp hc with hc | hc
            · exact ih2 c hc ty (h4 c hc) (hp c hc)
            · exact ih c hc ty (h3 c hc) (hs c hc)) (PadWire.zero size)
        rw [wires_pieces, pieces_c, pieces_notes, List.append_nil, encodeAll_append,
          skipNotesAll_eq, List.flatMap_append, ← skipNotesAll_eq, ← skipNotesAll_eq,
          List.filter_append, List.filter_append] at this
        rw [List.filter_eq_nil_iff.mpr (by intro c hc; simp [hpi c hc]),
          List.filter_eq_self.mpr (by intro c hc; simp [hsi c hc]),
          List.filter_eq_self.mpr (by intro c hc; simp [hpi c hc]),
          List.filter_eq_nil_iff.mpr (by intro c hc; simp [hsi c hc])] at this
        simpa [encode, skipNotes] using this

/-- For the default registry the requirements are about the hierarchy alone. -/
theorem loadable_standard (e : Env) {c : Chunk} (hs : Standard c) (hl : ListsSplit c) :
    ∀ ft, (∀ id size data, Within (.raw id size data) c → e.mallocOk data.length = true) →
      Loadable e defaultRegistry ft c := by
  have hh : ∀ {ft id h}, findChunkType defaultRegistry ft id = h →
      HandlerFor defaultRegistry ft id h :=
    fun {ft id h} => (findChunkType_iff defaultRegistry_sorted).mp
  induction hs with
  | @raw id size data h1 h2 h3 h4 =>
    intro ft hm
    refine .raw (hh ?_) (hm _ _ _ .self)
    rw [findChunkType_default, if_neg h1, if_neg h2, if_neg h3, if_neg h4]
  | @grp id size ty subs h1 h2 ih =>
    intro ft hm
    cases hl with
    | grp hl =>
      have hs : ∀ c ∈ subs, Loadable e defaultRegistry ty c := fun c hc =>
        ih c hc (hl c hc) ty (fun i s d hw => hm i s d (.grp hc hw))
      rcases h1 with rfl | rfl | rfl
      · exact .grp (h := .form) (hh (findChunkType_default _ _)) (by simp) hs
      · exact .grp (h := .cat) (hh (findChunkType_default _ _)) (by simp) hs
      · exact .grp (h := .prop) (hh (findChunkType_default _ _)) (by simp) hs
  | @lst id size ty subs props h1 h2 h3 ih ih2 =>
    intro ft hm
    subst h1
    cases hl with
    | lst hi hi2 hl hl2 =>
      exact .lst (hh (findChunkType_default _ _)) hi hi2
        (fun c hc => ih c hc (hl c hc) ty (fun i s d hw => hm i s d (.sub hc hw)))
        (fun c hc => ih2 c hc (hl2 c hc) ty (fun i s d hw => hm i s d (.prop hc hw)))

end Iff
