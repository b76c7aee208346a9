import Verif.Spec.Field
import Verif.Proofs.Arith
import Verif.Props.Ints
/-
  C06 A field that does not fit in its chunk is neither read nor written.
-/
namespace Iff
open Spec

/-- C06 as stated, for reading: a field that does not fit gives `IFF_FIELD_LAST` and touches
nothing; a field that fits is read by the integer reader of its type. -/
def C06_read_statement (e : Env) (k : FieldKind) (id : ID) (size : Int) (attr : String) (cur : Val)
    (bp : Int) (s : RS) : Prop :=
  if Fits (width k) size bp then
    readField e k id size attr cur bp s =
      match readVal e k id attr s with
      | .val (some v, s') => .val ((.more, v, bp + width k), s')
      | .val (none, s') => .val ((.failure, cur, bp), s')
      | .ub u => .ub u
      | .loop => .loop
  else readField e k id size attr cur bp s = .val ((.last, cur, bp), s)

/-- C06 as stated, for writing. -/
def C06_write_statement (e : Env) (v : Val) (id : ID) (size : Int) (attr : String) (bp : Int)
    (s : WS) : Prop :=
  if Fits (width v.kind) size bp then
    writeField e v id size attr bp s =
      match writeVal e v id attr s with
      | .val (true, s') => .val ((.more, bp + width v.kind), s')
      | .val (false, s') => .val ((.failure, bp), s')
      | .ub u => .ub u
      | .loop => .loop
  else writeField e v id size attr bp s = .val ((.last, bp), s)

/-- C06 is false: in a chunk that is smaller than its first field, `size - fieldSize` wraps around
in `size_t` and the field is transferred nevertheless.  Witness: a `chunkSize` of 0 and a 4-byte
field, on a platform with a 64-bit `size_t`. -/
theorem C06_false :
    (¬ ∀ (e : Env) (k : FieldKind) (id : ID) (size : Int) (attr : String) (cur : Val) (bp : Int)
      (s : RS), e.Sane → inInt size → inInt bp → 0 ≤ bp →
      C06_read_statement e k id size attr cur bp s) ∧
    (¬ ∀ (e : Env) (v : Val) (id : ID) (size : Int) (attr : String) (bp : Int) (s : WS),
      e.Sane → inInt size → inInt bp → 0 ≤ bp →
      C06_write_statement e v id size attr bp s) := by
  let e : Env := ⟨64, false, true, fun n => n < 2 ^ 63, true⟩
  have he : e.Sane := ⟨by decide, by
    intro n hn
    have h63 : e.sizeBits - 1 = 63 := rfl
    rw [h63] at hn
    show decide (n < 2 ^ 63) = false
    rw [decide_eq_false_iff_not]
    omega⟩
  constructor
  · intro h
    have := h e .id idFORM 0 "" (.id 0) 0 ⟨[0x41, 0x42, 0x43, 0x44], []⟩ he (by decide) (by decide)
      (by decide)
    unfold C06_read_statement at this
    rw [if_neg (by decide)] at this
    revert this
    decide
  · intro h
    have := h e (.id 0) idFORM 0 "" 0 ⟨[], 8, []⟩ he (by decide) (by decide) (by decide)
    unfold C06_write_statement at this
    rw [if_neg (by decide)] at this
    revert this
    decide

theorem size_width (k : FieldKind) : k.size = width k := by cases k <;> rfl

/-- C06 for chunks that have at least the size of the field in question: missing are the chunks that
are smaller than the field (see `C06_false` and `C06_small_chunk_partial`). -/
theorem C06_read_partial (e : Env) (he : e.Sane) (k : FieldKind) (id : ID) (size : Int)
    (attr : String) (cur : Val) (bp : Int) (s : RS) (hs : inInt size) (hb : inInt bp)
    (h0 : 0 ≤ bp) (hk : (width k : Int) ≤ size) :
    C06_read_statement e k id size attr cur bp s := by
  unfold C06_read_statement
  rw [← size_width] at *
  have hf := fits_iff e he.wide hk hs.2 h0 hb.2
  by_cases hfit : Fits k.size size bp
  · rw [if_pos hfit]
    have h1 := hf.mpr hfit.2
    simp only [readField, h1]
    rw [if_neg (by simp), M.bind_apply,
      increaseBytesProcessed_ok e he.wide (by unfold inInt at *; unfold Fits at hfit; omega)]
    cases readVal e k id attr s with
    | val a => obtain ⟨v, s'⟩ := a; cases v <;> rfl
    | ub u => rfl
    | loop => rfl
  · rw [if_neg hfit]
    have h1 : fieldDoesNotFitInChunk e k.size size bp = true := by
      cases h : fieldDoesNotFitInChunk e k.size size bp with
      | true => rfl
      | false => exact absurd ⟨h0, hf.mp h⟩ hfit
    simp only [readField, h1, if_true, M.pure_apply]

/-- C06 for writing, for chunks that have at least the size of the field in question. -/
theorem C06_write_partial (e : Env) (he : e.Sane) (v : Val) (id : ID) (size : Int)
    (attr : String) (bp : Int) (s : WS) (hs : inInt size) (hb : inInt bp)
    (h0 : 0 ≤ bp) (hk : (width v.kind : Int) ≤ size) :
    C06_write_statement e v id size attr bp s := by
  unfold C06_write_statement
  rw [← size_width] at *
  have hf := fits_iff e he.wide hk hs.2 h0 hb.2
  by_cases hfit : Fits v.kind.size size bp
  · rw [if_pos hfit]
    have h1 := hf.mpr hfit.2
    simp only [writeField, h1]
    rw [if_neg (by simp), M.bind_apply,
      increaseBytesProcessed_ok e he.wide (by unfold inInt at *; unfold Fits at hfit; omega)]
    cases writeVal e v id attr s with
    | val a => obtain ⟨b, s'⟩ := a; cases b <;> rfl
    | ub u => rfl
    | loop => rfl
  · rw [if_neg hfit]
    have h1 : fieldDoesNotFitInChunk e v.kind.size size bp = true := by
      cases h : fieldDoesNotFitInChunk e v.kind.size size bp with
      | true => rfl
      | false => exact absurd ⟨h0, hf.mp h⟩ hfit
    simp only [writeField, h1, if_true, M.pure_apply]

/-- What happens instead in a chunk with a non-negative size smaller than the field: the field is
always taken for fitting, wherever it starts. -/
theorem C06_small_chunk_partial (e : Env) (he : e.Sane) (n : Nat) (hn : n ≤ 4) (size bp : Int)
    (hs : 0 ≤ size) (hk : size < n) (h0 : 0 ≤ bp) (hb : inInt bp) :
    fieldDoesNotFitInChunk e n size bp = false := by
  unfold fieldDoesNotFitInChunk
  have h1 := toSize_neg e he.wide (x := size - n) (by omega) (by omega)
  have hp := pow_ge e he.wide
  rw [toSize_nonneg e he.wide h0 (by unfold inInt at hb; omega),
    toSize_nonneg e he.wide (x := size) (by omega) (by omega)]
  unfold inInt at hb
  have : ((size.toNat : Nat) : Int) - (n : Int) = size - n := by omega
  rw [this]
  simp only [gt_iff_lt, decide_eq_false_iff_not]
  omega

/-- Non-vacuity: a 4-byte field at offset 4 of a 6-byte chunk does not fit (and the hypotheses of
`C06_read_partial` hold), one of 2 bytes does. -/
example : ¬ Fits (width .id) 6 4 ∧ (width .id : Int) ≤ 6 ∧ inInt 6 ∧ inInt 4 ∧
    Fits (width .uword) 6 4 := by decide

end Iff
