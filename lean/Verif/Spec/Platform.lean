import Verif.Model.Registry
import Verif.Spec.Tree
import Verif.Spec.Field
/-
  Specification of "the same machine, except for its word size, its byte order and the signedness of
  its characters".
-/
namespace Iff.Spec

/-- Two machines whose streams behave alike and whose allocators answer alike to the requests that
both can express: those below 2 GiB. -/
structure Agree (e e' : Env) : Prop where
  streams : e.seekable = e'.seekable
  memory : ∀ n, n < 2147483648 → e.mallocOk n = e'.mallocOk n

/-- The fields of an application-defined chunk take less than 2 GiB. -/
def ShortFields (r : Registry) : Prop :=
  ∀ ft id fields chk, findChunkType r ft id = .ext fields chk →
    (fields.map fun f => width f.kind).sum < 2147483648

/-- What fits in the structs of the library: sizes are of type `int`, and data blocks have less than
2 GiB. -/
def Representable (c : Chunk) : Prop :=
  ∀ d, Within d c → inInt d.size ∧ ∀ id size data, d = .raw id size data → data.length < 2147483648

end Iff.Spec
