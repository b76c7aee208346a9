import Verif.Proofs.ReadTame
import Verif.Proofs.ReadFd
import Verif.Props.ReadWrite
/-
  C15 The reader always terminates.
  C16 Reading never executes undefined behaviour (false; partial).
  C18 Chunk data is exactly the declared size.
-/
namespace Iff
open Spec

/-! ### C15 -/

/-- C15: reading any input, with any registry, terminates. -/
theorem C15_terminates (e : Env) (he : e.Sane) (reg : Option Registry) (s : RS) :
    readFd e reg s ≠ .loop := by
  have h := (read_fine he (s.inp.length + 4) (r := selectChunkRegistry reg)).1 0 s (by omega)
  unfold readFd
  exact (fine_bind h (fun a s' _ => by
    cases a with
    | none => exact fine_bind (fine_emit _ _) (fun _ _ _ => Fine.val _)
    | some c => exact fine_bind (fine_fgetc _) (fun b s'' _ => by
        cases b with
        | none => exact Fine.val _
        | some b => exact fine_bind (fine_emit _ _) (fun _ _ _ => Fine.val _)))).1

/-- C15: the recursion budget of the model has no influence on the result: any budget from a quarter
of the input length on gives the same. -/
theorem C15_budget_irrelevant (e : Env) (he : e.Sane) (r : Registry) (ft : ID) (s : RS) (n m : Nat)
    (hn : s.inp.length / 4 + 1 ≤ n) (hm : s.inp.length / 4 + 1 ≤ m) :
    readChunk e r n ft s = readChunk e r m ft s := readChunk_fuel he hn hm

/-- C15: a chunk takes at least its 8 header bytes from the stream. -/
theorem C15_progress (e : Env) (he : e.Sane) (r : Registry) (n : Nat) (ft : ID) (s s' : RS)
    (c : Chunk) (h : readChunk e r n ft s = .val (some c, s')) :
    s'.inp.length + 8 ≤ s.inp.length := by
  obtain ⟨w, hw, hl⟩ := (read_loose he n).1 _ _ _ _ h
  have := hl.length8
  rw [hw, List.length_append]; omega

/-- C15: the hierarchy has at most one chunk per 8 bytes of input, and at most one level of nesting
per 12 bytes (besides the innermost one, which may take just 8). -/
theorem C15_size_and_depth (e : Env) (he : e.Sane) (reg : Option Registry) (s s' : RS) (c : Chunk)
    (h : readFd e reg s = .val (some c, s')) :
    8 * nodes c ≤ s.inp.length ∧ 12 * (depth c - 1) + 8 ≤ s.inp.length ∧ 1 ≤ depth c := by
  obtain ⟨s1, h1, _⟩ := readFd_some h
  obtain ⟨w, hw, hl⟩ := (read_loose he _).1 _ _ _ _ h1
  have hn := hl.nodes
  have hd := hl.depth
  have h1 : 1 ≤ depth c := by cases c <;> simp only [depth] <;> omega
  have : w.length ≤ s.inp.length := by rw [hw, List.length_append]; omega
  omega

/-- Non-vacuity: `sample` (70 bytes) has 6 chunks in 3 levels. -/
example : nodes sample = 6 ∧ depth sample = 3 ∧ 8 * 6 ≤ (encode sample).length := by decide

/-! ### C16 -/

/-- C16, the part that holds for all inputs and all registries: reading has no invalid memory access
(no access through the wrong struct type): the only undefined behaviour it can reach is an
overflowing addition or subtraction of `int`s. -/
theorem C16_only_overflow (e : Env) (he : e.Sane) (reg : Option Registry) (s : RS) (u : UB)
    (h : readFd e reg s = .ub u) : u = .signedOverflow := by
  have hf := (read_fine he (s.inp.length + 4) (r := selectChunkRegistry reg)).1 0 s (by omega)
  unfold readFd at h
  exact (fine_bind hf (fun a s' _ => by
    cases a with
    | none => exact fine_bind (fine_emit _ _) (fun _ _ _ => Fine.val _)
    | some c => exact fine_bind (fine_fgetc _) (fun b s'' _ => by
        cases b with
        | none => exact Fine.val _
        | some b => exact fine_bind (fine_emit _ _) (fun _ _ _ => Fine.val _)))).2 u h

/-- C16 for the default registry, for inputs below 2 GiB in which no group ID is followed by a
negative size.  Missing: inputs with negative group sizes, for which C16 is false (`C16_false`). -/
theorem C16_no_undefined_behaviour_partial (e : Env) (he : e.Sane) (s : RS)
    (hn : NoNegativeGroups s.inp) (hl : s.inp.length < 2147483648) :
    ∃ c s', readFd e none s = .val (c, s') := by
  have hd : Defined (readFd e none s) := by
    unfold readFd
    refine defined_bind ((read_defined he _).1 0 s hn hl) (fun a s' _ => ?_)
    cases a with
    | none => exact defined_bind (Defined.val _) (fun _ _ _ => Defined.val _)
    | some c =>
      refine defined_bind (by unfold fgetc; split <;> exact Defined.val _) (fun b s'' _ => ?_)
      cases b with
      | none => exact Defined.val _
      | some b => exact defined_bind (Defined.val _) (fun _ _ _ => Defined.val _)
  have ht := C15_terminates e he none s
  cases hx : readFd e none s with
  | val x => exact ⟨x.1, x.2, rfl⟩
  | ub u => exact absurd hx (hd u)
  | loop => exact absurd hx ht

/-- A file whose innermost group sizes are negative. -/
def overflowing : List Byte :=
  [0x46, 0x4f, 0x52, 0x4d, 0x7f, 0xff, 0xff, 0xff, 0x54, 0x45, 0x53, 0x54,
   0x46, 0x4f, 0x52, 0x4d, 0x80, 0x00, 0x00, 0x00, 0x54, 0x45, 0x53, 0x54,
   0x46, 0x4f, 0x52, 0x4d, 0xff, 0xff, 0xff, 0xe8, 0x54, 0x45, 0x53, 0x54,
   0x46, 0x4f, 0x52, 0x4d, 0x00, 0x00, 0x00, 0x04, 0x54, 0x45, 0x53, 0x54]

/-- C16 is false: reading this 48-byte file overflows an `int`. -/
theorem C16_false : readFd pc none ⟨overflowing, []⟩ = .ub .signedOverflow := by rfl

/-- `NoNegativeGroups` can be computed. -/
theorem noNegativeGroups_of {bs : List Byte}
    (h : ∀ i < bs.length, ([idFORM, idCAT, idLIST, idPROP].all fun id =>
      (bs.drop i).take 4 ≠ be 4 id.toNat ∨ (bs[i + 4]?.all fun b => b.toNat < 128) = true) = true) :
    NoNegativeGroups bs := by
  intro pre id b post hid hb
  subst hb
  have h4 : (be 4 id.toNat).length = 4 := be_length _ _
  have := of_decide_eq_true (List.all_eq_true.mp (h pre.length (by simp; omega)) id
    (by simpa using hid))
  have := this.resolve_left (by
    rw [List.append_assoc, List.drop_left, List.take_left' h4]; simp)
  rw [List.getElem?_append_right (by simp [h4])] at this
  simpa [h4] using this

/-- Non-vacuity of `C16_no_undefined_behaviour_partial`: a well-formed file, and a FORM cut off in
the middle. -/
example : NoNegativeGroups (encode sample) ∧ NoNegativeGroups [0x46, 0x4f, 0x52, 0x4d, 0x7f, 0xff] :=
  ⟨noNegativeGroups_of (by decide), noNegativeGroups_of (by decide)⟩

/-! ### C18 -/

/-- C18: every data chunk of a hierarchy that `IFF_readFd` returns occurs in the input: its ID, its
size and, as many as the size says, its data bytes. -/
theorem C18_data_as_declared (e : Env) (he : e.Sane) (reg : Option Registry) (s s' : RS) (c : Chunk)
    (h : readFd e reg s = .val (some c, s')) (id : ID) (size : Int) (data : List Byte)
    (hw : Within (.raw id size data) c) :
    0 ≤ size ∧ size = ((data.length : Nat) : Int) ∧ header id size ++ data <:+: s.inp := by
  obtain ⟨s1, h1, _⟩ := readFd_some h
  obtain ⟨w, hin, hl⟩ := (read_loose he _).1 _ _ _ _ h1
  obtain ⟨h2, h3⟩ := hl.data hw
  refine ⟨by omega, h2, h3.trans ?_⟩
  rw [hin]
  exact ⟨[], s1.inp, by simp⟩

/-- Non-vacuity: reading the encoding of `sample` succeeds, and it has a data chunk inside. -/
example : (∃ s', readFd pc none ⟨encode sample, []⟩ = .val (some sample, s')) ∧
    Within (.raw (makeId 'A' 'B' 'C' 'D') 1 [0x7f]) sample := by
  refine ⟨⟨⟨[], []⟩, by rfl⟩, .grp List.mem_cons_self (.grp List.mem_cons_self .self)⟩

end Iff
