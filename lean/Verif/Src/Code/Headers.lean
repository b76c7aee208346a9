import Verif.Src.Syntax
/-
  Generated by tools/c2lean.py: the structs and macros of the headers of src/libiff.
-/
namespace Iff.Src

/-- The members of a struct with their types, in order. -/
def Struct.members : Struct → List (Member × Ty)
  | .IFF_Chunk => [(.parent, (.ptr (.struct .IFF_Group))), (.chunkId, (.int .uint)), (.chunkSize, (.int .int))]
  | .IFF_Group => [(.parent, (.ptr (.struct .IFF_Group))), (.chunkId, (.int .uint)), (.chunkSize, (.int .int)), (.groupType, (.int .uint)), (.chunkLength, (.int .uint)), (.chunk, (.ptr (.ptr (.struct .IFF_Chunk))))]
  | .IFF_Form => [(.parent, (.ptr (.struct .IFF_Group))), (.chunkId, (.int .uint)), (.chunkSize, (.int .int)), (.formType, (.int .uint)), (.chunkLength, (.int .uint)), (.chunk, (.ptr (.ptr (.struct .IFF_Chunk))))]
  | .IFF_CAT => [(.parent, (.ptr (.struct .IFF_Group))), (.chunkId, (.int .uint)), (.chunkSize, (.int .int)), (.contentsType, (.int .uint)), (.chunkLength, (.int .uint)), (.chunk, (.ptr (.ptr (.struct .IFF_Chunk))))]
  | .IFF_List => [(.parent, (.ptr (.struct .IFF_Group))), (.chunkId, (.int .uint)), (.chunkSize, (.int .int)), (.contentsType, (.int .uint)), (.chunkLength, (.int .uint)), (.chunk, (.ptr (.ptr (.struct .IFF_Chunk)))), (.propLength, (.int .uint)), (.prop, (.ptr (.ptr (.struct .IFF_Form))))]
  | .IFF_RawChunk => [(.parent, (.ptr (.struct .IFF_Group))), (.chunkId, (.int .uint)), (.chunkSize, (.int .int)), (.chunkData, (.ptr (.int .uchar)))]
  | .IFF_ChunkType => [(.chunkId, (.int .uint)), (.createExtensionChunk, .fn), (.readExtensionChunkFields, .fn), (.writeExtensionChunkFields, .fn), (.checkExtensionChunk, .fn), (.freeExtensionChunk, .fn), (.printExtensionChunk, .fn), (.compareExtensionChunk, .fn)]
  | .IFF_ChunkTypesNode => [(.chunkTypesLength, (.int .uint)), (.chunkTypes, (.ptr (.struct .IFF_ChunkType))), (.parent, (.ptr (.struct .IFF_ChunkTypesNode)))]
  | .IFF_FormChunkTypes => [(.formType, (.int .uint)), (.chunkTypesNode, (.ptr (.struct .IFF_ChunkTypesNode)))]
  | .IFF_ChunkRegistry => [(.formChunkTypesLength, (.int .uint)), (.formChunkTypes, (.ptr (.struct .IFF_FormChunkTypes))), (.globalChunkTypesNode, (.ptr (.struct .IFF_ChunkTypesNode))), (.defaultChunkType, (.ptr (.struct .IFF_ChunkType)))]
  | .option => [(.name, (.ptr (.int .char))), (.has_arg, (.int .int)), (.flag, (.ptr (.int .int))), (.val, (.int .int))]
  | .TEST_Hello => [(.parent, (.ptr (.struct .IFF_Group))), (.chunkId, (.int .uint)), (.chunkSize, (.int .int)), (.a, (.int .uchar)), (.b, (.int .uchar)), (.c, (.int .ushort))]
  | .TEST_Bye => [(.parent, (.ptr (.struct .IFF_Group))), (.chunkId, (.int .uint)), (.chunkSize, (.int .int)), (.one, (.int .int)), (.two, (.int .int))]

/-- id.h `IFF_MAKEID` -/
def IFF_MAKEID (a b c d : Expr) : Expr :=
  .bin .bor (.bin .bor (.bin .bor (.bin .shl a (.num .int 24)) (.bin .shl b (.num .int 16)))
    (.bin .shl c (.num .int 8))) d

/-- ifftypes.h.in:25 -/
def IFF_ID_SIZE : Expr := (.num .int 4)

/-- ifftypes.h.in:51 -/
def TRUE : Expr := (.num .int 1)

/-- ifftypes.h.in:52 -/
def FALSE : Expr := (.num .int 0)

/-- form.h:25 -/
def IFF_ID_FORM : Expr := (IFF_MAKEID (.num .int 70) (.num .int 79) (.num .int 82) (.num .int 77))

/-- cat.h:25 -/
def IFF_ID_CAT : Expr := (IFF_MAKEID (.num .int 67) (.num .int 65) (.num .int 84) (.num .int 32))

/-- cat.h:26 -/
def IFF_ID_JJJJ : Expr := (IFF_MAKEID (.num .int 74) (.num .int 74) (.num .int 74) (.num .int 74))

/-- prop.h:25 -/
def IFF_ID_PROP : Expr := (IFF_MAKEID (.num .int 80) (.num .int 82) (.num .int 79) (.num .int 80))

/-- list.h:25 -/
def IFF_ID_LIST : Expr := (IFF_MAKEID (.num .int 76) (.num .int 73) (.num .int 83) (.num .int 84))

/-- rawchunk.h:25 -/
def IFF_ID_TEXT : Expr := (IFF_MAKEID (.num .int 84) (.num .int 69) (.num .int 88) (.num .int 84))

/-- defaultregistry.h:29 -/
def IFF_NUM_OF_CHUNK_TYPES : Expr := (.num .int 4)

/-- pp.h:25 -/
def IFFPP_DISABLE_CHECK : Expr := (.num .int 1)

/-- hello.h:30 -/
def TEST_ID_HELO : Expr := (IFF_MAKEID (.num .int 72) (.num .int 69) (.num .int 76) (.num .int 79))

/-- hello.h:31 -/
def TEST_HELO_DEFAULT_SIZE : Expr := (.bin .add (.bin .mul (.num .int 2) (.sizeof (.int .uchar))) (.sizeof (.int .ushort)))

/-- bye.h:30 -/
def TEST_ID_BYE : Expr := (IFF_MAKEID (.num .int 66) (.num .int 89) (.num .int 69) (.num .int 32))

/-- bye.h:31 -/
def TEST_BYE_DEFAULT_SIZE : Expr := (.bin .mul (.num .int 2) (.sizeof (.int .int)))

/-- test.h:26 -/
def TEST_ID_TEST : Expr := (IFF_MAKEID (.num .int 84) (.num .int 69) (.num .int 83) (.num .int 84))

/-- field.h -/
def IFF_FIELD_MORE : Expr := .num .int 0

/-- field.h -/
def IFF_FIELD_FAILURE : Expr := .num .int 1

/-- field.h -/
def IFF_FIELD_LAST : Expr := .num .int 2

end Iff.Src
