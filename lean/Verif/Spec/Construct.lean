import Verif.Heap.Build
import Verif.Spec.Tree
import Verif.Spec.Heap
/-
  How an application builds a given hierarchy with the functions of the library.
-/
namespace Iff.Spec
open Heap (Addr Mem HS Op)

mutual

/-- `Builds c p calls`: the calls, with the pointers they return (0 if they return nothing), that build the
hierarchy `c` from the outside to the inside: a chunk is created, then its members are built and added one by one, the
PROPs of a LIST first.  `p` is the pointer to the hierarchy.  (tests/formdata.c:56-67, tests/listdata.c) -/
inductive Builds : Chunk → Addr → List (Op × Addr) → Prop
  | raw {id size data p} : Builds (.raw id size data) p [(.raw id data, p)]
  | grp {id size ty subs p calls} : Adding (.add p) subs calls →
      Builds (.grp id size ty subs) p ((.group id ty, p) :: calls)
  | lst {id size ty subs props p calls calls'} : Adding (.addProp p) props calls → Adding (.add p) subs calls' →
      Builds (.lst id size ty subs props) p ((.list ty, p) :: (calls ++ calls'))

/-- The same for a sequence of members; `add` is the call that adds one of them. -/
inductive Adding : (Addr → Op) → List Chunk → List (Op × Addr) → Prop
  | nil {add} : Adding add [] []
  | cons {add c cs p calls calls'} : Builds c p calls → Adding add cs calls' →
      Adding add (c :: cs) (calls ++ (add p, 0) :: calls')

end

/-- `Sequence step s calls s'`: one after the other, the calls return their results, and lead from `s` to `s'`. -/
inductive Sequence {σ : Type} (step : Op → σ → Addr → σ → Prop) : σ → List (Op × Addr) → σ → Prop
  | nil {s} : Sequence step s [] s
  | cons {s s' s'' op r calls} : step op s r s' → Sequence step s' calls s'' →
      Sequence step s ((op, r) :: calls) s''

mutual

/-- The data of the data chunks of a hierarchy. -/
def dataOf : Chunk → List (List Byte)
  | .raw _ _ data => [data]
  | .grp _ _ _ subs => dataOfAll subs
  | .lst _ _ _ subs props => dataOfAll props ++ dataOfAll subs
  | .ext _ _ _ => []

/-- The same for a sequence. -/
def dataOfAll : List Chunk → List (List Byte)
  | [] => []
  | c :: cs => dataOf c ++ dataOfAll cs

end

/-- The allocator refuses no request for the structs of the library, and no request for arrays and data of
up to `K` bytes (8 bytes for a pointer). -/
structure ServesUpTo (A : Heap.Alloc) (K : Nat) : Prop where
  raw : ∀ t m, Roomy m → (A.pick t m (.struct .raw)).isSome
  grp : ∀ t m, Roomy m → (A.pick t m (.struct .grp)).isSome
  lst : ∀ t m, Roomy m → (A.pick t m (.struct .lst)).isSome
  array : ∀ t m n, Roomy m → 8 * (n + 1) ≤ K → (A.pick t m (.array (n + 1))).isSome
  data : ∀ t m n, Roomy m → n ≤ K → (A.pick t m (.data n)).isSome

end Iff.Spec
