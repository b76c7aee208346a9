import Verif.Spec.Tree
import Verif.Spec.Ids
/-
  Specification of IFF-85 conformance of a hierarchy, and of the IFF-85 grammar.
-/
namespace Iff.Spec

/-- Bytes taken by a chunk with declared size `n`: header, contents and padding. -/
def span (n : Int) : Int := 8 + n + n % 2

/-- Bytes taken by a sequence of chunks, according to their declared sizes. -/
def spans (cs : List Chunk) : Int := (cs.map fun c => span c.size).sum

/-- The composite chunks that may occur in a CAT or LIST, or as a file. -/
def Composite (id : ID) : Prop := id = idFORM ∨ id = idCAT ∨ id = idLIST

/-- The chunk is a group with the given group type. -/
def HasType (ty : ID) : Chunk → Prop
  | .grp _ _ t _ => t = ty
  | .lst _ _ t _ _ => t = ty
  | _ => False

/-- A chunk and everything inside it follows the rules of IFF-85, given which IDs may be form types:
legal IDs and types, nesting (PROP only directly in LIST, only data chunks in PROP, only FORM, CAT
and LIST in CAT and LIST, of the type announced), and group sizes. -/
inductive ConformsBy (formType : ID → Prop) : Chunk → Prop
  | data {id size bytes} : ValidId id → ConformsBy formType (.raw id size bytes)
  | form {size ty subs} : formType ty → (∀ c ∈ subs, c.id ≠ idPROP) → size = 4 + spans subs →
      (∀ c ∈ subs, ConformsBy formType c) → ConformsBy formType (.grp idFORM size ty subs)
  | prop {size ty subs} : formType ty → (∀ c ∈ subs, ¬ Composite c.id ∧ c.id ≠ idPROP) →
      size = 4 + spans subs → (∀ c ∈ subs, ConformsBy formType c) →
      ConformsBy formType (.grp idPROP size ty subs)
  | cat {size ty subs} : ValidId ty → (∀ c ∈ subs, Composite c.id) →
      (ty = idJJJJ ∨ ∀ c ∈ subs, HasType ty c) → size = 4 + spans subs →
      (∀ c ∈ subs, ConformsBy formType c) → ConformsBy formType (.grp idCAT size ty subs)
  | list {size ty subs props} : ValidId ty → (∀ c ∈ subs, Composite c.id) →
      (ty = idJJJJ ∨ ∀ c ∈ subs, HasType ty c) → (∀ c ∈ props, c.id = idPROP) →
      size = 4 + spans props + spans subs →
      (∀ c ∈ subs, ConformsBy formType c) → (∀ c ∈ props, ConformsBy formType c) →
      ConformsBy formType (.lst idLIST size ty subs props)

/-- A valid IFF-85 file according to doc/IFF.asc. -/
def Legal (c : Chunk) : Prop := Composite c.id ∧ ConformsBy LegalFormType c

/-- A valid IFF-85 file, except that form types may contain punctuation marks other than the full
stop (C05). -/
def Conforms (c : Chunk) : Prop := Composite c.id ∧ ConformsBy AcceptedFormType c

/-- The declared size of every data chunk is the size of its data. -/
def RawSizes (c : Chunk) : Prop :=
  ∀ id size data, Within (.raw id size data) c → size = ((data.length : Nat) : Int)

/-- The array of PROPs of a LIST (an array of `IFF_Prop *`) holds PROP chunks. -/
def PropArrays (c : Chunk) : Prop :=
  ∀ id size ty subs props, Within (.lst id size ty subs props) c → ∀ p ∈ props, p.id = idPROP

/-- The PROP arrays of all LISTs hold group chunks. -/
def PropGroups (c : Chunk) : Prop :=
  ∀ id size ty subs props, Within (.lst id size ty subs props) c →
    ∀ p ∈ props, ∃ i s t u, p = .grp i s t u

/-- `w` is an IFF-85 encoding of `c`: ID, size, contents, and a padding byte after an odd size.  The
members of a LIST are kept in two arrays, PROPs and others.  If `strict`, padding bytes are zero, and
PROPs come first; otherwise padding bytes and the position of PROPs in a LIST are arbitrary. -/
inductive Encodes (strict : Prop) : List Byte → Chunk → Prop
  | data {id size bytes p} : ¬ Composite id → id ≠ idPROP →
      size = ((bytes.length : Nat) : Int) → size < 2147483648 →
      (p.length : Int) = size % 2 → (strict → p = pad size) →
      Encodes strict (header id size ++ bytes ++ p) (.raw id size bytes)
  | group {id size ty} (ms : List (List Byte × Chunk)) : id = idFORM ∨ id = idCAT ∨ id = idPROP →
      size = 4 + ((ms.flatMap Prod.fst).length : Int) → size < 2147483648 →
      (∀ m ∈ ms, Encodes strict m.1 m.2) →
      Encodes strict (header id size ++ (be 4 ty.toNat ++ ms.flatMap Prod.fst))
        (.grp id size ty (ms.map Prod.snd))
  | list {size ty} (ms : List (List Byte × Chunk)) :
      size = 4 + ((ms.flatMap Prod.fst).length : Int) → size < 2147483648 →
      (∀ m ∈ ms, Encodes strict m.1 m.2) →
      (strict → ∃ ps os, ms = ps ++ os ∧ (∀ m ∈ ps, m.2.id = idPROP) ∧ (∀ m ∈ os, m.2.id ≠ idPROP)) →
      Encodes strict (header idLIST size ++ (be 4 ty.toNat ++ ms.flatMap Prod.fst))
        (.lst idLIST size ty ((ms.map Prod.snd).filter fun c => c.id ≠ idPROP)
          ((ms.map Prod.snd).filter fun c => c.id = idPROP))

end Iff.Spec
