import Verif.Spec.Registry
import Verif.Model.Chunk
/-
  Specification of the IFF-85 encoding of a hierarchy (doc/IFF.asc), of consistent sizes, and of
  hierarchies whose struct types agree with the registry.
-/
namespace Iff.Spec

/-- The `k` big-endian bytes of a number. -/
def be : Nat → Nat → List Byte
  | 0, _ => []
  | k + 1, n => BitVec.ofNat 8 (n / 256 ^ k) :: be k n

/-- The bytes of a field. -/
def encodeVal : Val → List Byte
  | .ubyte v => be 1 v.toNat
  | .uword v => be 2 v.toNat
  | .word v => be 2 v.toNat
  | .ulong v => be 4 v.toNat
  | .long v => be 4 v.toNat
  | .id v => be 4 v.toNat

/-- The leading fields that fit in `room` bytes: up to the first one that does not. -/
def fitting : List Val → Nat → List Val
  | [], _ => []
  | v :: vs, room =>
    if (encodeVal v).length ≤ room then v :: fitting vs (room - (encodeVal v).length) else []

/-- The bytes of the fields of an application chunk that fit in its declared size. -/
def encodeFields (vals : List Val) (size : Int) : List Byte :=
  (fitting vals size.toNat).flatMap encodeVal

/-- ID and size. -/
def header (id : ID) (size : Int) : List Byte := be 4 id.toNat ++ be 4 size.toNat

/-- A zero byte after a chunk with an odd size. -/
def pad (size : Int) : List Byte := if size % 2 = 1 then [0] else []

mutual

/-- The IFF-85 encoding of a hierarchy. -/
def encode : Chunk → List Byte
  | .raw id size data => header id size ++ data ++ pad size
  | .grp id size ty subs => header id size ++ (be 4 ty.toNat ++ encodeAll subs) ++ pad size
  | .lst id size ty subs props =>
    header id size ++ (be 4 ty.toNat ++ encodeAll props ++ encodeAll subs) ++ pad size
  | .ext id size vals =>
    header id size ++
      (encodeFields vals size ++
        List.replicate (size.toNat - (encodeFields vals size).length) 0) ++ pad size

/-- The encodings of a sequence of chunks. -/
def encodeAll : List Chunk → List Byte
  | [] => []
  | c :: cs => encode c ++ encodeAll cs

end

/-- The first field that does not fit in the rest of the chunk (if there is one) is not larger than
the whole chunk.  (For larger ones the code does not recognise that they do not fit: C06.) -/
def TailOk (size : Int) : List Val → Nat → Prop
  | [], _ => True
  | v :: vs, room =>
    if (encodeVal v).length ≤ room then TailOk size vs (room - (encodeVal v).length)
    else ((encodeVal v).length : Int) ≤ size

/-- Declared sizes fit in 31 bits and are, at every level, the sizes of the encoded contents. -/
inductive Consistent : Chunk → Prop
  | raw {id size data} : size = (data.length : Int) → size < 2147483648 →
      Consistent (.raw id size data)
  | grp {id size ty subs} : size = 4 + ((encodeAll subs).length : Int) → size < 2147483648 →
      (∀ c ∈ subs, Consistent c) → Consistent (.grp id size ty subs)
  | lst {id size ty subs props} :
      size = 4 + ((encodeAll props).length : Int) + ((encodeAll subs).length : Int) →
      size < 2147483648 → (∀ c ∈ subs, Consistent c) → (∀ c ∈ props, Consistent c) →
      Consistent (.lst id size ty subs props)
  | ext {id size vals} : 0 ≤ size → size < 2147483648 → TailOk size vals size.toNat →
      Consistent (.ext id size vals)

/-- The chunks are of the struct types that the function tables of the registry work on: what the
writer needs.  `ft` is the form type (or contents type) of the enclosing group. -/
inductive Dispatched (r : Registry) : ID → Chunk → Prop
  | raw {ft id size data} : HandlerFor r ft id .raw → Dispatched r ft (.raw id size data)
  | grp {ft id size ty subs h} : HandlerFor r ft id h → h = .form ∨ h = .cat ∨ h = .prop →
      (∀ c ∈ subs, Dispatched r ty c) → Dispatched r ft (.grp id size ty subs)
  | lst {ft id size ty subs props} : HandlerFor r ft id .list →
      (∀ c ∈ subs, Dispatched r ty c) → (∀ p ∈ props, Dispatched r 0 p) →
      Dispatched r ft (.lst id size ty subs props)
  | ext {ft id size vals fields chk} : HandlerFor r ft id (.ext fields chk) →
      vals.map Val.kind = fields.map Field.kind → Dispatched r ft (.ext id size vals)

/-- The hierarchies of the default registry: groups are FORM, CAT, PROP, lists are LIST, and
everything else is raw data. -/
inductive Standard : Chunk → Prop
  | raw {id size data} : id ≠ idFORM → id ≠ idCAT → id ≠ idLIST → id ≠ idPROP →
      Standard (.raw id size data)
  | grp {id size ty subs} : id = idFORM ∨ id = idCAT ∨ id = idPROP →
      (∀ c ∈ subs, Standard c) → Standard (.grp id size ty subs)
  | lst {id size ty subs props} : id = idLIST →
      (∀ c ∈ subs, Standard c) → (∀ p ∈ props, Standard p) →
      Standard (.lst id size ty subs props)

/-- In every LIST, the PROP array holds the members with the ID PROP and the other array the others
(as it is when the list was built with `IFF_addPropToList` and `IFF_addToList`, or read). -/
inductive ListsSplit : Chunk → Prop
  | raw {id size data} : ListsSplit (.raw id size data)
  | ext {id size vals} : ListsSplit (.ext id size vals)
  | grp {id size ty subs} : (∀ c ∈ subs, ListsSplit c) → ListsSplit (.grp id size ty subs)
  | lst {id size ty subs props} : (∀ c ∈ subs, c.id ≠ idPROP) → (∀ c ∈ props, c.id = idPROP) →
      (∀ c ∈ subs, ListsSplit c) → (∀ c ∈ props, ListsSplit c) →
      ListsSplit (.lst id size ty subs props)

/-- What reading a hierarchy back needs besides consistent sizes: the registry dispatches its parts
to the struct types they have (PROPs inside the contents type of their LIST), lists are split,
memory for the data is available, a stream with filler bytes can be repositioned, and fields that
do not fit in their chunk have their default value. -/
inductive Loadable (e : Env) (r : Registry) : ID → Chunk → Prop
  | raw {ft id size data} : HandlerFor r ft id .raw → e.mallocOk data.length = true →
      Loadable e r ft (.raw id size data)
  | grp {ft id size ty subs h} : HandlerFor r ft id h → h = .form ∨ h = .cat ∨ h = .prop →
      (∀ c ∈ subs, Loadable e r ty c) → Loadable e r ft (.grp id size ty subs)
  | lst {ft size ty subs props} : HandlerFor r ft idLIST .list →
      (∀ c ∈ subs, c.id ≠ idPROP) → (∀ p ∈ props, p.id = idPROP) →
      (∀ c ∈ subs, Loadable e r ty c) → (∀ p ∈ props, Loadable e r ty p) →
      Loadable e r ft (.lst idLIST size ty subs props)
  | ext {ft id size vals fields chk} : HandlerFor r ft id (.ext fields chk) →
      vals.map Val.kind = fields.map Field.kind →
      ((encodeFields vals size).length = size.toNat ∨ e.seekable = true) →
      vals = fitting vals size.toNat ++
        (fields.map fun f => f.kind.zero).drop (fitting vals size.toNat).length →
      Loadable e r ft (.ext id size vals)

/-- `d` is `c` or occurs inside it. -/
inductive Within (d : Chunk) : Chunk → Prop
  | self : Within d d
  | grp {id size ty subs c} : c ∈ subs → Within d c → Within d (.grp id size ty subs)
  | sub {id size ty subs props c} : c ∈ subs → Within d c → Within d (.lst id size ty subs props)
  | prop {id size ty subs props c} : c ∈ props → Within d c → Within d (.lst id size ty subs props)

mutual

/-- The "skipping unknown bytes" messages that reading the encoding of a hierarchy emits. -/
def skipNotes : Chunk → List Msg
  | .raw _ _ _ => []
  | .ext id size vals =>
    if size.toNat - (encodeFields vals size).length = 0 then []
    else [.skipped ((size.toNat - (encodeFields vals size).length : Nat) : Int) id]
  | .grp _ _ _ subs => skipNotesAll subs
  | .lst _ _ _ subs props => skipNotesAll props ++ skipNotesAll subs

/-- `skipNotes` of the members of a group. -/
def skipNotesAll : List Chunk → List Msg
  | [] => []
  | c :: cs => skipNotes c ++ skipNotesAll cs

end

end Iff.Spec
