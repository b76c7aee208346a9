/-
  C semantics used by the model: outcomes (including undefined behaviour as a
  distinct outcome), the platform parameters, and integer conversions.
-/
namespace Iff

/-- `IFF_UByte` (src/libiff/ifftypes.h.in:34). -/
abbrev Byte := BitVec 8

/-- `IFF_ID` (src/libiff/ifftypes.h.in:49): a 32-bit unsigned integer. -/
abbrev ID := BitVec 32

/-- The kinds of undefined behaviour the model distinguishes. -/
inductive UB where
  /-- signed `int` arithmetic out of range -/
  | signedOverflow
  /-- a struct accessed through a pointer to an incompatible struct type -/
  | wrongStruct
  /-- an access outside an allocated block -/
  | outOfBounds
  /-- access through a NULL pointer -/
  | nullDeref
  /-- access to a block that is not (or no longer) allocated -/
  | useAfterFree
  /-- `free` of something that is not an allocated block -/
  | badFree
  /-- a variadic argument that does not have the type its conversion requires -/
  | badArgument
  deriving DecidableEq, Repr

/-- Outcome of running a piece of C: a value, undefined behaviour, or `loop`: the recursion
budget (`fuel`) of the model was used up.  Theorems show that `loop` does not occur. -/
inductive Out (α : Type) where
  | val (a : α)
  | ub (u : UB)
  | loop
  deriving DecidableEq, Repr

namespace Out

@[inline] protected def bind {α β : Type} : Out α → (α → Out β) → Out β
  | .val a, f => f a
  | .ub u, _ => .ub u
  | .loop, _ => .loop

instance : Monad Out where
  pure := .val
  bind := Out.bind

@[simp] theorem pure_eq {α : Type} (a : α) : (pure a : Out α) = .val a := rfl
@[simp] theorem val_bind {α β : Type} (a : α) (f : α → Out β) : (Out.val a >>= f) = f a := rfl
@[simp] theorem ub_bind {α β : Type} (u : UB) (f : α → Out β) : (Out.ub u >>= f) = .ub u := rfl
@[simp] theorem loop_bind {α β : Type} (f : α → Out β) : (Out.loop >>= f) = .loop := rfl

theorem bind_eq_val {α β : Type} {x : Out α} {f : α → Out β} {b : β} :
    (x >>= f) = .val b ↔ ∃ a, x = .val a ∧ f a = .val b := by
  cases x <;> simp

end Out

/-- Computations with a mutable state `σ` (a stream, a message log, a heap, ...). -/
def M (σ α : Type) := σ → Out (α × σ)

namespace M

@[inline] protected def bind {σ α β : Type} (x : M σ α) (f : α → M σ β) : M σ β := fun s =>
  match x s with
  | .val (a, s') => f a s'
  | .ub u => .ub u
  | .loop => .loop

instance {σ : Type} : Monad (M σ) where
  pure a := fun s => .val (a, s)
  bind := M.bind

/-- Undefined behaviour. -/
def ub {σ α : Type} (u : UB) : M σ α := fun _ => .ub u

/-- The recursion budget is used up. -/
def loop {σ α : Type} : M σ α := fun _ => .loop

/-- Lift a stateless outcome. -/
def ofOut {σ α : Type} (o : Out α) : M σ α := fun s =>
  match o with
  | .val a => .val (a, s)
  | .ub u => .ub u
  | .loop => .loop

@[simp] theorem pure_apply {σ α : Type} (a : α) (s : σ) : (pure a : M σ α) s = .val (a, s) := rfl
theorem bind_apply {σ α β : Type} (x : M σ α) (f : α → M σ β) (s : σ) :
    (x >>= f) s = match x s with
      | .val (a, s') => f a s'
      | .ub u => .ub u
      | .loop => .loop := rfl
@[simp] theorem ub_apply {σ α : Type} (u : UB) (s : σ) : (M.ub u : M σ α) s = .ub u := rfl
@[simp] theorem loop_apply {σ α : Type} (s : σ) : (M.loop : M σ α) s = .loop := rfl
@[simp] theorem ofOut_val {σ α : Type} (a : α) (s : σ) :
    (M.ofOut (.val a) : M σ α) s = .val (a, s) := rfl
@[simp] theorem ofOut_ub {σ α : Type} (u : UB) (s : σ) :
    (M.ofOut (.ub u) : M σ α) s = .ub u := rfl

end M

/-- The platform: everything C leaves to the implementation and that the library's behaviour
could depend on. -/
structure Env where
  /-- number of bits of `size_t` (32 on i686, 64 on x86_64) -/
  sizeBits : Nat
  /-- `IFF_BIG_ENDIAN`, set by configure.ac (ifftypes.h.in:54) to match the host -/
  bigEndian : Bool
  /-- is plain `char` signed? (used by `IFF_ID2`, id.h:30) -/
  charSigned : Bool
  /-- does `malloc(n)` for the data of a raw chunk return a non-NULL pointer? -/
  mallocOk : Nat → Bool
  /-- can the input stream be repositioned with `fseek` (regular file), or not (pipe)? -/
  seekable : Bool

/-- `size_t` is at least as wide as `int`, and `malloc` refuses more than half the address space. -/
structure Env.Sane (e : Env) : Prop where
  wide : 32 ≤ e.sizeBits
  halfSpace : ∀ n, 2 ^ (e.sizeBits - 1) ≤ n → e.mallocOk n = false

/-- Is `x` representable in `int` / `IFF_Long` (ifftypes.h.in:43)? -/
def inInt (x : Int) : Prop := -2147483648 ≤ x ∧ x < 2147483648

instance (x : Int) : Decidable (inInt x) := inferInstanceAs (Decidable (_ ∧ _))

/-- Conversion of an integer to `int`; modulo 2^32 as on all the platforms of README.md. -/
def wrapInt (x : Int) : Int := (x + 2147483648) % 4294967296 - 2147483648

/-- Conversion of an integer to `size_t`. -/
def toSize (e : Env) (x : Int) : Nat := (x % ((2 ^ e.sizeBits : Nat) : Int)).toNat

/-- Addition of two `int`s: undefined when the sum is not representable. -/
def addInt (x y : Int) : Out Int :=
  if inInt (x + y) then .val (x + y) else .ub .signedOverflow

/-- Subtraction of two `int`s: undefined when the difference is not representable. -/
def subInt (x y : Int) : Out Int :=
  if inInt (x - y) then .val (x - y) else .ub .signedOverflow

/-- C's `x % 2 != 0` for an `int` (remainder truncated towards zero). -/
def isOdd (x : Int) : Bool := x.tmod 2 != 0

/-- `IFF_ID_SIZE` (ifftypes.h.in:25). -/
def idSize : Nat := 4

end Iff
