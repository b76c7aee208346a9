import Verif.Src.Code.Headers
/-
  Generated by tools/c2lean.py from src/libiff/group.c.
-/
namespace Iff.Src

/-- group.c:33-38 -/
def IFF_initGroup.code : Fun where
  params := [(.group, (.ptr (.struct .IFF_Group))), (.groupType, (.int .uint))]
  ret := .void
  body :=
    (.seq (.expr (.assign (.arrow (.var .group) .groupType) (.var .groupType)))
      (.seq (.expr (.assign (.arrow (.var .group) .chunkLength) (.num .int 0)))
      (.expr (.assign (.arrow (.var .group) .chunk) .null))))

/-- group.c:40-48 -/
def IFF_createGroup.code : Fun where
  params := [(.chunkId, (.int .uint)), (.chunkSize, (.int .int)), (.groupType, (.int .uint))]
  ret := (.ptr (.struct .IFF_Group))
  body :=
    (.seq (.decl .group (.ptr (.struct .IFF_Group)) (some (.cast (.ptr (.struct .IFF_Group)) (.call (.fn .IFF_createChunk) (.cons (.var .chunkId) (.cons (.var .chunkSize) (.cons (.sizeof (.struct .IFF_Group)) .nil)))))))
      (.seq (.ite (.bin .ne (.var .group) .null)
        (.expr (.call (.fn .IFF_initGroup) (.cons (.var .group) (.cons (.var .groupType) .nil))))
        .skip)
      (.ret (.var .group))))

/-- group.c:50-53 -/
def IFF_createEmptyGroup.code : Fun where
  params := [(.chunkId, (.int .uint)), (.groupType, (.int .uint))]
  ret := (.ptr (.struct .IFF_Group))
  body :=
    (.ret (.call (.fn .IFF_createGroup) (.cons (.var .chunkId) (.cons IFF_ID_SIZE (.cons (.var .groupType) .nil)))))

/-- group.c:55-58 -/
def IFF_createUnparsedGroup.code : Fun where
  params := [(.chunkId, (.int .uint)), (.chunkSize, (.int .int))]
  ret := (.ptr (.struct .IFF_Chunk))
  body :=
    (.ret (.cast (.ptr (.struct .IFF_Chunk)) (.call (.fn .IFF_createGroup) (.cons (.var .chunkId) (.cons (.var .chunkSize) (.cons (.num .int 0) .nil))))))

/-- group.c:60-66 -/
def IFF_attachToGroup.code : Fun where
  params := [(.group, (.ptr (.struct .IFF_Group))), (.chunk, (.ptr (.struct .IFF_Chunk)))]
  ret := .void
  body :=
    (.seq (.expr (.assign (.arrow (.var .group) .chunk) (.cast (.ptr (.ptr (.struct .IFF_Chunk))) (.call (.fn .realloc) (.cons (.arrow (.var .group) .chunk) (.cons (.bin .mul (.bin .add (.arrow (.var .group) .chunkLength) (.num .int 1)) (.sizeof (.ptr (.struct .IFF_Chunk)))) .nil))))))
      (.seq (.expr (.assign (.index (.arrow (.var .group) .chunk) (.arrow (.var .group) .chunkLength)) (.var .chunk)))
      (.seq (.expr (.inc (.arrow (.var .group) .chunkLength)))
      (.expr (.assign (.arrow (.var .chunk) .parent) (.var .group))))))

/-- group.c:68-72 -/
def IFF_addToGroup.code : Fun where
  params := [(.group, (.ptr (.struct .IFF_Group))), (.chunk, (.ptr (.struct .IFF_Chunk)))]
  ret := .void
  body :=
    (.seq (.expr (.call (.fn .IFF_attachToGroup) (.cons (.var .group) (.cons (.var .chunk) .nil))))
      (.expr (.assign (.arrow (.var .group) .chunkSize) (.call (.fn .IFF_incrementChunkSize) (.cons (.arrow (.var .group) .chunkSize) (.cons (.var .chunk) .nil))))))

/-- group.c:74-95 -/
def readGroupSubChunks.code : Fun where
  params := [(.file, (.ptr .file)), (.group, (.ptr (.struct .IFF_Group))), (.chunkRegistry, (.ptr (.struct .IFF_ChunkRegistry))), (.bytesProcessed, (.ptr (.int .int)))]
  ret := (.int .int)
  body :=
    (.seq (.while (.bin .lt (.deref (.var .bytesProcessed)) (.arrow (.var .group) .chunkSize))
        (.seq (.decl .chunk (.ptr (.struct .IFF_Chunk)) (some (.call (.fn .IFF_readChunk) (.cons (.var .file) (.cons (.arrow (.var .group) .groupType) (.cons (.var .chunkRegistry) .nil))))))
          (.seq (.ite (.bin .eq (.var .chunk) .null)
            (.ret FALSE)
            .skip)
          (.seq (.expr (.call (.fn .IFF_attachToGroup) (.cons (.var .group) (.cons (.var .chunk) .nil))))
          (.expr (.assign (.deref (.var .bytesProcessed)) (.call (.fn .IFF_incrementChunkSize) (.cons (.deref (.var .bytesProcessed)) (.cons (.var .chunk) .nil)))))))))
      (.seq (.ite (.bin .gt (.deref (.var .bytesProcessed)) (.arrow (.var .group) .chunkSize))
        (.expr (.call (.fn .IFF_error) (.cons (.str "WARNING: truncated group chunk! The size specifies: %d but the total amount of its sub chunks is: %d bytes. The parser may get confused!\n") (.cons (.arrow (.var .group) .chunkSize) (.cons (.var .bytesProcessed) .nil)))))
        .skip)
      (.ret TRUE)))

/-- group.c:97-111 -/
def IFF_readGroup.code : Fun where
  params := [(.file, (.ptr .file)), (.chunk, (.ptr (.struct .IFF_Chunk))), (.groupTypeName, (.ptr (.int .char))), (.chunkRegistry, (.ptr (.struct .IFF_ChunkRegistry))), (.bytesProcessed, (.ptr (.int .int)))]
  ret := (.int .int)
  body :=
    (.seq (.decl .group (.ptr (.struct .IFF_Group)) (some (.cast (.ptr (.struct .IFF_Group)) (.var .chunk))))
      (.seq (.decl .status (.int .uint) none)
      (.seq (.ite (.bin .ne (.assign (.var .status) (.call (.fn .IFF_readIdField) (.cons (.var .file) (.cons (.addr (.arrow (.var .group) .groupType)) (.cons (.var .chunk) (.cons (.var .groupTypeName) (.cons (.var .bytesProcessed) .nil))))))) IFF_FIELD_MORE)
        (.ret (.call (.fn .IFF_deriveSuccess) (.cons (.var .status) .nil)))
        .skip)
      (.seq (.ite (.not (.call (.fn .readGroupSubChunks) (.cons (.var .file) (.cons (.var .group) (.cons (.var .chunkRegistry) (.cons (.var .bytesProcessed) .nil))))))
        (.ret FALSE)
        .skip)
      (.ret TRUE)))))

/-- group.c:113-130 -/
def IFF_writeGroupSubChunks.code : Fun where
  params := [(.file, (.ptr .file)), (.group, (.ptr (.struct .IFF_Group))), (.chunkRegistry, (.ptr (.struct .IFF_ChunkRegistry))), (.bytesProcessed, (.ptr (.int .int)))]
  ret := (.int .int)
  body :=
    (.seq (.decl .i (.int .uint) none)
      (.seq (.for (.assign (.var .i) (.num .int 0)) (.bin .lt (.var .i) (.arrow (.var .group) .chunkLength)) (.inc (.var .i))
        (.seq (.ite (.not (.call (.fn .IFF_writeChunk) (.cons (.var .file) (.cons (.index (.arrow (.var .group) .chunk) (.var .i)) (.cons (.arrow (.var .group) .groupType) (.cons (.var .chunkRegistry) .nil))))))
            (.seq (.expr (.call (.fn .IFF_error) (.cons (.str "Error writing chunk!\n") .nil)))
              (.ret FALSE))
            .skip)
          (.expr (.assign (.deref (.var .bytesProcessed)) (.call (.fn .IFF_incrementChunkSize) (.cons (.deref (.var .bytesProcessed)) (.cons (.index (.arrow (.var .group) .chunk) (.var .i)) .nil)))))))
      (.ret TRUE)))

/-- group.c:132-144 -/
def IFF_writeGroup.code : Fun where
  params := [(.file, (.ptr .file)), (.chunk, (.ptr (.struct .IFF_Chunk))), (.groupTypeName, (.ptr (.int .char))), (.chunkRegistry, (.ptr (.struct .IFF_ChunkRegistry))), (.bytesProcessed, (.ptr (.int .int)))]
  ret := (.int .int)
  body :=
    (.seq (.decl .group (.ptr (.struct .IFF_Group)) (some (.cast (.ptr (.struct .IFF_Group)) (.var .chunk))))
      (.seq (.decl .status (.int .uint) none)
      (.seq (.ite (.bin .ne (.assign (.var .status) (.call (.fn .IFF_writeIdField) (.cons (.var .file) (.cons (.arrow (.var .group) .groupType) (.cons (.var .chunk) (.cons (.var .groupTypeName) (.cons (.var .bytesProcessed) .nil))))))) IFF_FIELD_MORE)
        (.ret (.call (.fn .IFF_deriveSuccess) (.cons (.var .status) .nil)))
        .skip)
      (.seq (.ite (.not (.call (.fn .IFF_writeGroupSubChunks) (.cons (.var .file) (.cons (.var .group) (.cons (.var .chunkRegistry) (.cons (.var .bytesProcessed) .nil))))))
        (.ret FALSE)
        .skip)
      (.ret TRUE)))))

/-- group.c:146-157 -/
def IFF_checkGroupChunkSize.code : Fun where
  params := [(.group, (.ptr (.struct .IFF_Group))), (.chunkSize, (.int .int))]
  ret := (.int .int)
  body :=
    (.ite (.bin .eq (.var .chunkSize) (.arrow (.var .group) .chunkSize))
      (.ret TRUE)
      (.seq (.expr (.call (.fn .IFF_error) (.cons (.str "Chunk size mismatch! ") .nil)))
        (.seq (.expr (.call (.fn .IFF_errorId) (.cons (.arrow (.var .group) .chunkId) .nil)))
        (.seq (.expr (.call (.fn .IFF_error) (.cons (.str " size: %d, while body has: %d\n") (.cons (.arrow (.var .group) .chunkSize) (.cons (.var .chunkSize) .nil)))))
        (.ret FALSE)))))

/-- group.c:159-179 -/
def IFF_checkGroupSubChunks.code : Fun where
  params := [(.group, (.ptr (.struct .IFF_Group))), (.subChunkCheck, .fn), (.chunkRegistry, (.ptr (.struct .IFF_ChunkRegistry)))]
  ret := (.int .int)
  body :=
    (.seq (.decl .i (.int .uint) none)
      (.seq (.decl .chunkSize (.int .int) (some (.num .int 0)))
      (.seq (.for (.assign (.var .i) (.num .int 0)) (.bin .lt (.var .i) (.arrow (.var .group) .chunkLength)) (.inc (.var .i))
        (.seq (.decl .subChunk (.ptr (.struct .IFF_Chunk)) (some (.index (.arrow (.var .group) .chunk) (.var .i))))
          (.seq (.ite (.not (.call (.var .subChunkCheck) (.cons (.var .group) (.cons (.var .subChunk) .nil))))
            (.ret (.neg (.num .int 1)))
            .skip)
          (.seq (.ite (.not (.call (.fn .IFF_checkChunk) (.cons (.var .subChunk) (.cons (.arrow (.var .group) .groupType) (.cons (.var .chunkRegistry) .nil)))))
            (.ret (.neg (.num .int 1)))
            .skip)
          (.expr (.assign (.var .chunkSize) (.call (.fn .IFF_incrementChunkSize) (.cons (.var .chunkSize) (.cons (.var .subChunk) .nil)))))))))
      (.ret (.var .chunkSize)))))

/-- group.c:181-197 -/
def IFF_checkGroup.code : Fun where
  params := [(.group, (.ptr (.struct .IFF_Group))), (.groupTypeCheck, .fn), (.subChunkCheck, .fn), (.chunkRegistry, (.ptr (.struct .IFF_ChunkRegistry)))]
  ret := (.int .int)
  body :=
    (.seq (.decl .chunkSize (.int .int) none)
      (.seq (.ite (.not (.call (.var .groupTypeCheck) (.cons (.arrow (.var .group) .groupType) .nil)))
        (.ret FALSE)
        .skip)
      (.seq (.ite (.bin .eq (.assign (.var .chunkSize) (.call (.fn .IFF_checkGroupSubChunks) (.cons (.var .group) (.cons (.var .subChunkCheck) (.cons (.var .chunkRegistry) .nil))))) (.neg (.num .int 1)))
        (.ret FALSE)
        .skip)
      (.seq (.expr (.assignOp .add (.var .chunkSize) IFF_ID_SIZE))
      (.seq (.ite (.not (.call (.fn .IFF_checkGroupChunkSize) (.cons (.var .group) (.cons (.var .chunkSize) .nil))))
        (.ret FALSE)
        .skip)
      (.ret TRUE))))))

/-- group.c:199-207 -/
def IFF_freeGroup.code : Fun where
  params := [(.group, (.ptr (.struct .IFF_Group))), (.chunkRegistry, (.ptr (.struct .IFF_ChunkRegistry)))]
  ret := .void
  body :=
    (.seq (.decl .i (.int .uint) none)
      (.seq (.for (.assign (.var .i) (.num .int 0)) (.bin .lt (.var .i) (.arrow (.var .group) .chunkLength)) (.inc (.var .i))
        (.expr (.call (.fn .IFF_freeChunk) (.cons (.index (.arrow (.var .group) .chunk) (.var .i)) (.cons (.arrow (.var .group) .groupType) (.cons (.var .chunkRegistry) .nil))))))
      (.expr (.call (.fn .free) (.cons (.arrow (.var .group) .chunk) .nil)))))

/-- group.c:209-214 -/
def IFF_printGroupType.code : Fun where
  params := [(.groupTypeName, (.ptr (.int .char))), (.groupType, (.int .uint)), (.indentLevel, (.int .uint))]
  ret := .void
  body :=
    (.seq (.expr (.call (.fn .IFF_printIndent) (.cons (.stream .stdout) (.cons (.var .indentLevel) (.cons (.str "%s = '") (.cons (.var .groupTypeName) .nil))))))
      (.seq (.expr (.call (.fn .IFF_printId) (.cons (.var .groupType) .nil)))
      (.expr (.call (.fn .printf) (.cons (.str "';\n") .nil)))))

/-- group.c:216-226 -/
def IFF_printGroupSubChunks.code : Fun where
  params := [(.group, (.ptr (.struct .IFF_Group))), (.indentLevel, (.int .uint)), (.chunkRegistry, (.ptr (.struct .IFF_ChunkRegistry)))]
  ret := .void
  body :=
    (.seq (.decl .i (.int .uint) none)
      (.seq (.expr (.call (.fn .IFF_printIndent) (.cons (.stream .stdout) (.cons (.var .indentLevel) (.cons (.str "[\n") .nil)))))
      (.seq (.for (.assign (.var .i) (.num .int 0)) (.bin .lt (.var .i) (.arrow (.var .group) .chunkLength)) (.inc (.var .i))
        (.expr (.call (.fn .IFF_printChunk) (.cons (.cast (.ptr (.struct .IFF_Chunk)) (.index (.arrow (.var .group) .chunk) (.var .i))) (.cons (.bin .add (.var .indentLevel) (.num .int 1)) (.cons (.arrow (.var .group) .groupType) (.cons (.var .chunkRegistry) .nil)))))))
      (.expr (.call (.fn .IFF_printIndent) (.cons (.stream .stdout) (.cons (.var .indentLevel) (.cons (.str "];\n") .nil))))))))

/-- group.c:228-232 -/
def IFF_printGroup.code : Fun where
  params := [(.group, (.ptr (.struct .IFF_Group))), (.indentLevel, (.int .uint)), (.groupTypeName, (.ptr (.int .char))), (.chunkRegistry, (.ptr (.struct .IFF_ChunkRegistry)))]
  ret := .void
  body :=
    (.seq (.expr (.call (.fn .IFF_printGroupType) (.cons (.var .groupTypeName) (.cons (.arrow (.var .group) .groupType) (.cons (.var .indentLevel) .nil)))))
      (.expr (.call (.fn .IFF_printGroupSubChunks) (.cons (.var .group) (.cons (.var .indentLevel) (.cons (.var .chunkRegistry) .nil))))))

/-- group.c:234-250 -/
def IFF_compareGroup.code : Fun where
  params := [(.group1, (.ptr (.struct .IFF_Group))), (.group2, (.ptr (.struct .IFF_Group))), (.chunkRegistry, (.ptr (.struct .IFF_ChunkRegistry)))]
  ret := (.int .int)
  body :=
    (.ite (.land (.bin .eq (.arrow (.var .group1) .groupType) (.arrow (.var .group2) .groupType)) (.bin .eq (.arrow (.var .group1) .chunkLength) (.arrow (.var .group2) .chunkLength)))
      (.seq (.decl .i (.int .uint) none)
        (.seq (.for (.assign (.var .i) (.num .int 0)) (.bin .lt (.var .i) (.arrow (.var .group1) .chunkLength)) (.inc (.var .i))
          (.ite (.not (.call (.fn .IFF_compareChunk) (.cons (.index (.arrow (.var .group1) .chunk) (.var .i)) (.cons (.index (.arrow (.var .group2) .chunk) (.var .i)) (.cons (.arrow (.var .group1) .groupType) (.cons (.var .chunkRegistry) .nil))))))
            (.ret FALSE)
            .skip))
        (.ret TRUE)))
      (.ret FALSE))

/-- group.c:252-268 -/
def IFF_searchFormsInGroup.code : Fun where
  params := [(.group, (.ptr (.struct .IFF_Group))), (.formTypes, (.ptr (.int .uint))), (.formTypesLength, (.int .uint)), (.formsLength, (.ptr (.int .uint)))]
  ret := (.ptr (.ptr (.struct .IFF_Form)))
  body :=
    (.seq (.decl .forms (.ptr (.ptr (.struct .IFF_Form))) (some .null))
      (.seq (.decl .i (.int .uint) none)
      (.seq (.expr (.assign (.deref (.var .formsLength)) (.num .int 0)))
      (.seq (.for (.assign (.var .i) (.num .int 0)) (.bin .lt (.var .i) (.arrow (.var .group) .chunkLength)) (.inc (.var .i))
        (.seq (.object .resultLength (.int .uint) none)
          (.seq (.decl .result (.ptr (.ptr (.struct .IFF_Form))) (some (.call (.fn .IFF_searchFormsFromArray) (.cons (.index (.arrow (.var .group) .chunk) (.var .i)) (.cons (.var .formTypes) (.cons (.var .formTypesLength) (.cons (.addr (.var .resultLength)) .nil)))))))
          (.expr (.assign (.var .forms) (.call (.fn .IFF_mergeFormArray) (.cons (.var .forms) (.cons (.var .formsLength) (.cons (.var .result) (.cons (.var .resultLength) .nil))))))))))
      (.ret (.var .forms))))))

/-- group.c:270-279 -/
def IFF_incrementChunkSize.code : Fun where
  params := [(.chunkSize, (.int .int)), (.chunk, (.ptr (.struct .IFF_Chunk)))]
  ret := (.int .int)
  body :=
    (.seq (.decl .returnValue (.int .int) (some (.bin .add (.bin .add (.bin .add (.var .chunkSize) IFF_ID_SIZE) (.sizeof (.int .int))) (.arrow (.var .chunk) .chunkSize))))
      (.seq (.ite (.bin .ne (.bin .mod (.arrow (.var .chunk) .chunkSize) (.num .int 2)) (.num .int 0))
        (.expr (.inc (.var .returnValue)))
        .skip)
      (.ret (.var .returnValue))))

/-- group.c:281-289 -/
def IFF_updateGroupChunkSizes.code : Fun where
  params := [(.group, (.ptr (.struct .IFF_Group)))]
  ret := .void
  body :=
    (.seq (.decl .i (.int .uint) none)
      (.seq (.expr (.assign (.arrow (.var .group) .chunkSize) IFF_ID_SIZE))
      (.for (.assign (.var .i) (.num .int 0)) (.bin .lt (.var .i) (.arrow (.var .group) .chunkLength)) (.inc (.var .i))
      (.expr (.assign (.arrow (.var .group) .chunkSize) (.call (.fn .IFF_incrementChunkSize) (.cons (.arrow (.var .group) .chunkSize) (.cons (.index (.arrow (.var .group) .chunk) (.var .i)) .nil))))))))

/-- group.c:291-305 -/
def IFF_searchFormsFromArray.code : Fun where
  params := [(.chunk, (.ptr (.struct .IFF_Chunk))), (.formTypes, (.ptr (.int .uint))), (.formTypesLength, (.int .uint)), (.formsLength, (.ptr (.int .uint)))]
  ret := (.ptr (.ptr (.struct .IFF_Form)))
  body :=
    (.switch (.arrow (.var .chunk) .chunkId)
      (.case IFF_ID_FORM (.ret (.call (.fn .IFF_searchFormsInForm) (.cons (.cast (.ptr (.struct .IFF_Form)) (.var .chunk)) (.cons (.var .formTypes) (.cons (.var .formTypesLength) (.cons (.var .formsLength) .nil))))))
      (.case IFF_ID_CAT (.ret (.call (.fn .IFF_searchFormsInCAT) (.cons (.cast (.ptr (.struct .IFF_CAT)) (.var .chunk)) (.cons (.var .formTypes) (.cons (.var .formTypesLength) (.cons (.var .formsLength) .nil))))))
      (.case IFF_ID_LIST (.ret (.call (.fn .IFF_searchFormsInList) (.cons (.cast (.ptr (.struct .IFF_List)) (.var .chunk)) (.cons (.var .formTypes) (.cons (.var .formTypesLength) (.cons (.var .formsLength) .nil))))))
      (.default (.seq (.expr (.assign (.deref (.var .formsLength)) (.num .int 0)))
        (.ret .null))
      .nil)))))

/-- group.c:307-312 -/
def IFF_searchForms.code : Fun where
  params := [(.chunk, (.ptr (.struct .IFF_Chunk))), (.formType, (.int .uint)), (.formsLength, (.ptr (.int .uint)))]
  ret := (.ptr (.ptr (.struct .IFF_Form)))
  body :=
    (.seq (.object .formTypes (.arr 1 (.int .uint)) none)
      (.seq (.expr (.assign (.index (.var .formTypes) (.num .int 0)) (.var .formType)))
      (.ret (.call (.fn .IFF_searchFormsFromArray) (.cons (.var .chunk) (.cons (.var .formTypes) (.cons (.num .int 1) (.cons (.var .formsLength) .nil))))))))

/-- group.c:314-336 -/
def IFF_updateChunkSizes.code : Fun where
  params := [(.chunk, (.ptr (.struct .IFF_Chunk)))]
  ret := .void
  body :=
    (.seq (.switch (.arrow (.var .chunk) .chunkId)
        (.case IFF_ID_FORM (.seq (.expr (.call (.fn .IFF_updateFormChunkSizes) (.cons (.cast (.ptr (.struct .IFF_Form)) (.var .chunk)) .nil)))
          .break)
        (.case IFF_ID_PROP (.seq (.expr (.call (.fn .IFF_updatePropChunkSizes) (.cons (.cast (.ptr (.struct .IFF_Form)) (.var .chunk)) .nil)))
          .break)
        (.case IFF_ID_CAT (.seq (.expr (.call (.fn .IFF_updateCATChunkSizes) (.cons (.cast (.ptr (.struct .IFF_CAT)) (.var .chunk)) .nil)))
          .break)
        (.case IFF_ID_LIST (.seq (.expr (.call (.fn .IFF_updateListChunkSizes) (.cons (.cast (.ptr (.struct .IFF_List)) (.var .chunk)) .nil)))
          .break)
        .nil)))))
      (.ite (.bin .ne (.arrow (.var .chunk) .parent) .null)
      (.expr (.call (.fn .IFF_updateChunkSizes) (.cons (.cast (.ptr (.struct .IFF_Chunk)) (.arrow (.var .chunk) .parent)) .nil)))
      .skip))

end Iff.Src
