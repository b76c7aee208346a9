import Verif.Src.Code.Headers
/-
  Generated by tools/c2lean.py from src/libiff/prop.c.
-/
namespace Iff.Src

/-- prop.c:32 -/
def PROP_GROUPTYPENAME : Expr := (.str "formType")

/-- prop.c:34-37 -/
def IFF_createProp.code : Fun where
  params := [(.chunkSize, (.int .int)), (.formType, (.int .uint))]
  ret := (.ptr (.struct .IFF_Form))
  body :=
    (.ret (.cast (.ptr (.struct .IFF_Form)) (.call (.fn .IFF_createGroup) (.cons IFF_ID_PROP (.cons (.var .chunkSize) (.cons (.var .formType) .nil))))))

/-- prop.c:39-42 -/
def IFF_createEmptyProp.code : Fun where
  params := [(.formType, (.int .uint))]
  ret := (.ptr (.struct .IFF_Form))
  body :=
    (.ret (.cast (.ptr (.struct .IFF_Form)) (.call (.fn .IFF_createEmptyGroup) (.cons IFF_ID_PROP (.cons (.var .formType) .nil)))))

/-- prop.c:44-47 -/
def IFF_createUnparsedProp.code : Fun where
  params := [(.chunkId, (.int .uint)), (.chunkSize, (.int .int))]
  ret := (.ptr (.struct .IFF_Chunk))
  body :=
    (.ret (.call (.fn .IFF_createUnparsedGroup) (.cons (.var .chunkId) (.cons (.var .chunkSize) .nil))))

/-- prop.c:49-52 -/
def IFF_addToProp.code : Fun where
  params := [(.prop, (.ptr (.struct .IFF_Form))), (.chunk, (.ptr (.struct .IFF_Chunk)))]
  ret := .void
  body :=
    (.expr (.call (.fn .IFF_addToForm) (.cons (.cast (.ptr (.struct .IFF_Form)) (.var .prop)) (.cons (.var .chunk) .nil))))

/-- prop.c:54-57 -/
def IFF_readProp.code : Fun where
  params := [(.file, (.ptr .file)), (.chunk, (.ptr (.struct .IFF_Chunk))), (.chunkRegistry, (.ptr (.struct .IFF_ChunkRegistry))), (.bytesProcessed, (.ptr (.int .int)))]
  ret := (.int .int)
  body :=
    (.ret (.call (.fn .IFF_readGroup) (.cons (.var .file) (.cons (.var .chunk) (.cons PROP_GROUPTYPENAME (.cons (.var .chunkRegistry) (.cons (.var .bytesProcessed) .nil)))))))

/-- prop.c:59-62 -/
def IFF_writeProp.code : Fun where
  params := [(.file, (.ptr .file)), (.chunk, (.ptr (.struct .IFF_Chunk))), (.chunkRegistry, (.ptr (.struct .IFF_ChunkRegistry))), (.bytesProcessed, (.ptr (.int .int)))]
  ret := (.int .int)
  body :=
    (.ret (.call (.fn .IFF_writeForm) (.cons (.var .file) (.cons (.var .chunk) (.cons (.var .chunkRegistry) (.cons (.var .bytesProcessed) .nil))))))

/-- prop.c:64-79 -/
def prop_subChunkCheck.code : Fun where
  params := [(.group, (.ptr (.struct .IFF_Group))), (.subChunk, (.ptr (.struct .IFF_Chunk)))]
  ret := (.int .int)
  body :=
    (.ite (.lor (.lor (.lor (.bin .eq (.arrow (.var .subChunk) .chunkId) IFF_ID_FORM) (.bin .eq (.arrow (.var .subChunk) .chunkId) IFF_ID_LIST)) (.bin .eq (.arrow (.var .subChunk) .chunkId) IFF_ID_CAT)) (.bin .eq (.arrow (.var .subChunk) .chunkId) IFF_ID_PROP))
      (.seq (.expr (.call (.fn .IFF_error) (.cons (.str "ERROR: Element with chunk Id: '") .nil)))
        (.seq (.expr (.call (.fn .IFF_errorId) (.cons (.arrow (.var .subChunk) .chunkId) .nil)))
        (.seq (.expr (.call (.fn .IFF_error) (.cons (.str "' not allowed in PROP chunk!\n") .nil)))
        (.ret FALSE))))
      (.ret TRUE))

/-- prop.c:81-84 -/
def IFF_checkProp.code : Fun where
  params := [(.chunk, (.ptr (.struct .IFF_Chunk))), (.chunkRegistry, (.ptr (.struct .IFF_ChunkRegistry)))]
  ret := (.int .int)
  body :=
    (.ret (.call (.fn .IFF_checkGroup) (.cons (.cast (.ptr (.struct .IFF_Group)) (.var .chunk)) (.cons (.fn .IFF_checkFormType) (.cons (.fn .prop_subChunkCheck) (.cons (.var .chunkRegistry) .nil))))))

/-- prop.c:86-89 -/
def IFF_freeProp.code : Fun where
  params := [(.chunk, (.ptr (.struct .IFF_Chunk))), (.chunkRegistry, (.ptr (.struct .IFF_ChunkRegistry)))]
  ret := .void
  body :=
    (.expr (.call (.fn .IFF_freeForm) (.cons (.var .chunk) (.cons (.var .chunkRegistry) .nil))))

/-- prop.c:91-94 -/
def IFF_printProp.code : Fun where
  params := [(.chunk, (.ptr (.struct .IFF_Chunk))), (.indentLevel, (.int .uint)), (.chunkRegistry, (.ptr (.struct .IFF_ChunkRegistry)))]
  ret := .void
  body :=
    (.expr (.call (.fn .IFF_printForm) (.cons (.var .chunk) (.cons (.var .indentLevel) (.cons (.var .chunkRegistry) .nil)))))

/-- prop.c:96-99 -/
def IFF_compareProp.code : Fun where
  params := [(.chunk1, (.ptr (.struct .IFF_Chunk))), (.chunk2, (.ptr (.struct .IFF_Chunk))), (.chunkRegistry, (.ptr (.struct .IFF_ChunkRegistry)))]
  ret := (.int .int)
  body :=
    (.ret (.call (.fn .IFF_compareForm) (.cons (.var .chunk1) (.cons (.var .chunk2) (.cons (.var .chunkRegistry) .nil)))))

/-- prop.c:101-104 -/
def IFF_updatePropChunkSizes.code : Fun where
  params := [(.prop, (.ptr (.struct .IFF_Form)))]
  ret := .void
  body :=
    (.expr (.call (.fn .IFF_updateFormChunkSizes) (.cons (.cast (.ptr (.struct .IFF_Form)) (.var .prop)) .nil)))

/-- prop.c:106-109 -/
def IFF_getChunkFromProp.code : Fun where
  params := [(.prop, (.ptr (.struct .IFF_Form))), (.chunkId, (.int .uint))]
  ret := (.ptr (.struct .IFF_Chunk))
  body :=
    (.ret (.call (.fn .IFF_getDataChunkFromForm) (.cons (.cast (.ptr (.struct .IFF_Form)) (.var .prop)) (.cons (.var .chunkId) .nil))))

end Iff.Src
