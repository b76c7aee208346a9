import Verif.Src.Code.Headers
/-
  Generated by tools/c2lean.py from src/libiff/cat.c.
-/
namespace Iff.Src

/-- cat.c:28 -/
def CAT_GROUPTYPENAME : Expr := (.str "contentsType")

/-- cat.c:30-33 -/
def IFF_createCAT.code : Fun where
  params := [(.chunkSize, (.int .int)), (.contentsType, (.int .uint))]
  ret := (.ptr (.struct .IFF_CAT))
  body :=
    (.ret (.cast (.ptr (.struct .IFF_CAT)) (.call (.fn .IFF_createGroup) (.cons IFF_ID_CAT (.cons (.var .chunkSize) (.cons (.var .contentsType) .nil))))))

/-- cat.c:35-38 -/
def IFF_createEmptyCATWithContentsType.code : Fun where
  params := [(.contentsType, (.int .uint))]
  ret := (.ptr (.struct .IFF_CAT))
  body :=
    (.ret (.cast (.ptr (.struct .IFF_CAT)) (.call (.fn .IFF_createEmptyGroup) (.cons IFF_ID_CAT (.cons (.var .contentsType) .nil)))))

/-- cat.c:40-43 -/
def IFF_createEmptyCAT.code : Fun where
  params := []
  ret := (.ptr (.struct .IFF_CAT))
  body :=
    (.ret (.cast (.ptr (.struct .IFF_CAT)) (.call (.fn .IFF_createEmptyCATWithContentsType) (.cons IFF_ID_JJJJ .nil))))

/-- cat.c:45-48 -/
def IFF_createUnparsedCAT.code : Fun where
  params := [(.chunkId, (.int .uint)), (.chunkSize, (.int .int))]
  ret := (.ptr (.struct .IFF_Chunk))
  body :=
    (.ret (.call (.fn .IFF_createUnparsedGroup) (.cons (.var .chunkId) (.cons (.var .chunkSize) .nil))))

/-- cat.c:50-53 -/
def checkValidCATSubChunkId.code : Fun where
  params := [(.chunkId, (.int .uint))]
  ret := (.int .int)
  body :=
    (.ret (.lor (.lor (.bin .eq (.var .chunkId) IFF_ID_FORM) (.bin .eq (.var .chunkId) IFF_ID_CAT)) (.bin .eq (.var .chunkId) IFF_ID_LIST)))

/-- cat.c:55-66 -/
def updateContentsType.code : Fun where
  params := [(.cat, (.ptr (.struct .IFF_CAT))), (.chunk, (.ptr (.struct .IFF_Chunk)))]
  ret := .void
  body :=
    (.ite (.call (.fn .checkValidCATSubChunkId) (.cons (.arrow (.var .chunk) .chunkId) .nil))
      (.seq (.decl .group (.ptr (.struct .IFF_Group)) (some (.cast (.ptr (.struct .IFF_Group)) (.var .chunk))))
        (.ite (.bin .eq (.arrow (.var .cat) .chunkLength) (.num .int 0))
        (.expr (.assign (.arrow (.var .cat) .contentsType) (.arrow (.var .group) .groupType)))
        (.ite (.land (.bin .ne (.arrow (.var .cat) .contentsType) IFF_ID_JJJJ) (.bin .ne (.arrow (.var .cat) .contentsType) (.arrow (.var .group) .groupType)))
          (.expr (.assign (.arrow (.var .cat) .contentsType) IFF_ID_JJJJ))
          .skip)))
      .skip)

/-- cat.c:68-71 -/
def IFF_addToCAT.code : Fun where
  params := [(.cat, (.ptr (.struct .IFF_CAT))), (.chunk, (.ptr (.struct .IFF_Chunk)))]
  ret := .void
  body :=
    (.expr (.call (.fn .IFF_addToGroup) (.cons (.cast (.ptr (.struct .IFF_Group)) (.var .cat)) (.cons (.var .chunk) .nil))))

/-- cat.c:73-77 -/
def IFF_addToCATAndUpdateContentsType.code : Fun where
  params := [(.cat, (.ptr (.struct .IFF_CAT))), (.chunk, (.ptr (.struct .IFF_Chunk)))]
  ret := .void
  body :=
    (.seq (.expr (.call (.fn .updateContentsType) (.cons (.var .cat) (.cons (.var .chunk) .nil))))
      (.expr (.call (.fn .IFF_addToCAT) (.cons (.var .cat) (.cons (.var .chunk) .nil)))))

/-- cat.c:79-82 -/
def IFF_readCAT.code : Fun where
  params := [(.file, (.ptr .file)), (.chunk, (.ptr (.struct .IFF_Chunk))), (.chunkRegistry, (.ptr (.struct .IFF_ChunkRegistry))), (.bytesProcessed, (.ptr (.int .int)))]
  ret := (.int .int)
  body :=
    (.ret (.call (.fn .IFF_readGroup) (.cons (.var .file) (.cons (.var .chunk) (.cons CAT_GROUPTYPENAME (.cons (.var .chunkRegistry) (.cons (.var .bytesProcessed) .nil)))))))

/-- cat.c:84-87 -/
def IFF_writeCAT.code : Fun where
  params := [(.file, (.ptr .file)), (.chunk, (.ptr (.struct .IFF_Chunk))), (.chunkRegistry, (.ptr (.struct .IFF_ChunkRegistry))), (.bytesProcessed, (.ptr (.int .int)))]
  ret := (.int .int)
  body :=
    (.ret (.call (.fn .IFF_writeGroup) (.cons (.var .file) (.cons (.var .chunk) (.cons CAT_GROUPTYPENAME (.cons (.var .chunkRegistry) (.cons (.var .bytesProcessed) .nil)))))))

/-- cat.c:89-120 -/
def IFF_checkCATSubChunk.code : Fun where
  params := [(.group, (.ptr (.struct .IFF_Group))), (.subChunk, (.ptr (.struct .IFF_Chunk)))]
  ret := (.int .int)
  body :=
    (.seq (.decl .cat (.ptr (.struct .IFF_CAT)) (some (.cast (.ptr (.struct .IFF_CAT)) (.var .group))))
      (.seq (.ite (.not (.call (.fn .checkValidCATSubChunkId) (.cons (.arrow (.var .subChunk) .chunkId) .nil)))
        (.seq (.expr (.call (.fn .IFF_error) (.cons (.str "ERROR: Element with chunk Id: '") .nil)))
          (.seq (.expr (.call (.fn .IFF_errorId) (.cons (.arrow (.var .subChunk) .chunkId) .nil)))
          (.seq (.expr (.call (.fn .IFF_error) (.cons (.str "' not allowed in CAT chunk!\n") .nil)))
          (.ret FALSE))))
        .skip)
      (.seq (.ite (.bin .ne (.arrow (.var .cat) .contentsType) IFF_ID_JJJJ)
        (.ite (.call (.fn .checkValidCATSubChunkId) (.cons (.arrow (.var .subChunk) .chunkId) .nil))
          (.seq (.decl .group_1 (.ptr (.struct .IFF_Group)) (some (.cast (.ptr (.struct .IFF_Group)) (.var .subChunk))))
            (.ite (.bin .ne (.arrow (.var .group_1) .groupType) (.arrow (.var .cat) .contentsType))
            (.seq (.expr (.call (.fn .IFF_error) (.cons (.str "Sub form does not match contentsType of the CAT!\n") .nil)))
              (.ret FALSE))
            .skip))
          .skip)
        .skip)
      (.ret TRUE))))

/-- cat.c:122-125 -/
def IFF_checkCAT.code : Fun where
  params := [(.chunk, (.ptr (.struct .IFF_Chunk))), (.chunkRegistry, (.ptr (.struct .IFF_ChunkRegistry)))]
  ret := (.int .int)
  body :=
    (.ret (.call (.fn .IFF_checkGroup) (.cons (.cast (.ptr (.struct .IFF_Group)) (.var .chunk)) (.cons (.fn .IFF_checkId) (.cons (.fn .IFF_checkCATSubChunk) (.cons (.var .chunkRegistry) .nil))))))

/-- cat.c:127-130 -/
def IFF_freeCAT.code : Fun where
  params := [(.chunk, (.ptr (.struct .IFF_Chunk))), (.chunkRegistry, (.ptr (.struct .IFF_ChunkRegistry)))]
  ret := .void
  body :=
    (.expr (.call (.fn .IFF_freeGroup) (.cons (.cast (.ptr (.struct .IFF_Group)) (.var .chunk)) (.cons (.var .chunkRegistry) .nil))))

/-- cat.c:132-135 -/
def IFF_printCAT.code : Fun where
  params := [(.chunk, (.ptr (.struct .IFF_Chunk))), (.indentLevel, (.int .uint)), (.chunkRegistry, (.ptr (.struct .IFF_ChunkRegistry)))]
  ret := .void
  body :=
    (.expr (.call (.fn .IFF_printGroup) (.cons (.cast (.ptr (.struct .IFF_Group)) (.var .chunk)) (.cons (.var .indentLevel) (.cons CAT_GROUPTYPENAME (.cons (.var .chunkRegistry) .nil))))))

/-- cat.c:137-140 -/
def IFF_compareCAT.code : Fun where
  params := [(.chunk1, (.ptr (.struct .IFF_Chunk))), (.chunk2, (.ptr (.struct .IFF_Chunk))), (.chunkRegistry, (.ptr (.struct .IFF_ChunkRegistry)))]
  ret := (.int .int)
  body :=
    (.ret (.call (.fn .IFF_compareGroup) (.cons (.cast (.ptr (.struct .IFF_Group)) (.var .chunk1)) (.cons (.cast (.ptr (.struct .IFF_Group)) (.var .chunk2)) (.cons (.var .chunkRegistry) .nil)))))

/-- cat.c:142-145 -/
def IFF_searchFormsInCAT.code : Fun where
  params := [(.cat, (.ptr (.struct .IFF_CAT))), (.formTypes, (.ptr (.int .uint))), (.formTypesLength, (.int .uint)), (.formsLength, (.ptr (.int .uint)))]
  ret := (.ptr (.ptr (.struct .IFF_Form)))
  body :=
    (.ret (.call (.fn .IFF_searchFormsInGroup) (.cons (.cast (.ptr (.struct .IFF_Group)) (.var .cat)) (.cons (.var .formTypes) (.cons (.var .formTypesLength) (.cons (.var .formsLength) .nil))))))

/-- cat.c:147-150 -/
def IFF_updateCATChunkSizes.code : Fun where
  params := [(.cat, (.ptr (.struct .IFF_CAT)))]
  ret := .void
  body :=
    (.expr (.call (.fn .IFF_updateGroupChunkSizes) (.cons (.cast (.ptr (.struct .IFF_Group)) (.var .cat)) .nil)))

end Iff.Src
