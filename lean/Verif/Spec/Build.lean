import Verif.Spec.Conform
import Verif.Model.Build
/-
  Histories of create and add operations.
-/
namespace Iff.Spec

/-- The hierarchies an application can build bottom-up: data chunks whose size is the size of their
data, application chunks, empty groups and lists, and what the add functions return for two such
hierarchies. -/
inductive Built (e : Env) : Chunk → Prop
  | raw {id data} : Built e (.raw id ((data.length : Nat) : Int) data)
  | ext {id size vals} : 0 ≤ size → size < 2147483648 → TailOk size vals size.toNat →
      Built e (.ext id size vals)
  | group {id ty} : Built e (createEmptyGroup id ty)
  | list {ty} : Built e (createEmptyList ty)
  | add {g c g'} : Built e g → Built e c → addToGroup e g c = .val g' → Built e g'
  | addProp {l p l'} : Built e l → Built e p → addPropToList e l p = .val l' → Built e l'
  | addAuto {g c g'} : Built e g → Built e c → addAndUpdate e g c = .val g' → Built e g'

/-- `Additions e g cs g'`: starting with the group `g`, the chunks `cs` were added in this order with
the functions that update the contents type, possibly with PROP chunks added in between, giving
`g'`. -/
inductive Additions (e : Env) (g : Chunk) : List Chunk → Chunk → Prop
  | start : Additions e g [] g
  | add {cs c g' g''} : Additions e g cs g' → addAndUpdate e g' c = .val g'' →
      Additions e g (cs ++ [c]) g''
  | prop {cs p g' g''} : Additions e g cs g' → addPropToList e g' p = .val g'' →
      Additions e g cs g''

/-- The members of a group, without the PROPs of a LIST. -/
def members : Chunk → List Chunk
  | .grp _ _ _ subs => subs
  | .lst _ _ _ subs _ => subs
  | _ => []

/-- The PROPs of a LIST. -/
def propsOf : Chunk → List Chunk
  | .lst _ _ _ _ props => props
  | _ => []

end Iff.Spec
