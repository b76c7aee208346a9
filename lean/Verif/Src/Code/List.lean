import Verif.Src.Code.Headers
/-
  Generated by tools/c2lean.py from src/libiff/list.c.
-/
namespace Iff.Src

/-- list.c:30-43 -/
def IFF_createList.code : Fun where
  params := [(.chunkSize, (.int .int)), (.contentsType, (.int .uint))]
  ret := (.ptr (.struct .IFF_List))
  body :=
    (.seq (.decl .«list» (.ptr (.struct .IFF_List)) (some (.cast (.ptr (.struct .IFF_List)) (.call (.fn .IFF_createChunk) (.cons IFF_ID_LIST (.cons (.var .chunkSize) (.cons (.sizeof (.struct .IFF_List)) .nil)))))))
      (.seq (.ite (.bin .ne (.var .«list») .null)
        (.seq (.expr (.call (.fn .IFF_initGroup) (.cons (.cast (.ptr (.struct .IFF_Group)) (.var .«list»)) (.cons (.var .contentsType) .nil))))
          (.seq (.expr (.assign (.arrow (.var .«list») .prop) .null))
          (.expr (.assign (.arrow (.var .«list») .propLength) (.num .int 0)))))
        .skip)
      (.ret (.var .«list»))))

/-- list.c:45-48 -/
def IFF_createEmptyListWithContentsType.code : Fun where
  params := [(.contentsType, (.int .uint))]
  ret := (.ptr (.struct .IFF_List))
  body :=
    (.ret (.call (.fn .IFF_createList) (.cons IFF_ID_SIZE (.cons (.var .contentsType) .nil))))

/-- list.c:50-53 -/
def IFF_createEmptyList.code : Fun where
  params := []
  ret := (.ptr (.struct .IFF_List))
  body :=
    (.ret (.call (.fn .IFF_createEmptyListWithContentsType) (.cons IFF_ID_JJJJ .nil)))

/-- list.c:55-58 -/
def IFF_createUnparsedList.code : Fun where
  params := [(.chunkId, (.int .uint)), (.chunkSize, (.int .int))]
  ret := (.ptr (.struct .IFF_Chunk))
  body :=
    (.ret (.cast (.ptr (.struct .IFF_Chunk)) (.call (.fn .IFF_createList) (.cons (.var .chunkSize) (.cons (.num .int 0) .nil)))))

/-- list.c:60-66 -/
def addPropToList.code : Fun where
  params := [(.«list», (.ptr (.struct .IFF_List))), (.prop, (.ptr (.struct .IFF_Form)))]
  ret := .void
  body :=
    (.seq (.expr (.assign (.arrow (.var .«list») .prop) (.cast (.ptr (.ptr (.struct .IFF_Form))) (.call (.fn .realloc) (.cons (.arrow (.var .«list») .prop) (.cons (.bin .mul (.bin .add (.arrow (.var .«list») .propLength) (.num .int 1)) (.sizeof (.ptr (.struct .IFF_Form)))) .nil))))))
      (.seq (.expr (.assign (.index (.arrow (.var .«list») .prop) (.arrow (.var .«list») .propLength)) (.var .prop)))
      (.seq (.expr (.inc (.arrow (.var .«list») .propLength)))
      (.expr (.assign (.arrow (.var .prop) .parent) (.cast (.ptr (.struct .IFF_Group)) (.var .«list»)))))))

/-- list.c:68-72 -/
def IFF_addPropToList.code : Fun where
  params := [(.«list», (.ptr (.struct .IFF_List))), (.prop, (.ptr (.struct .IFF_Form)))]
  ret := .void
  body :=
    (.seq (.expr (.call (.fn .addPropToList) (.cons (.var .«list») (.cons (.var .prop) .nil))))
      (.expr (.assign (.arrow (.var .«list») .chunkSize) (.call (.fn .IFF_incrementChunkSize) (.cons (.arrow (.var .«list») .chunkSize) (.cons (.cast (.ptr (.struct .IFF_Chunk)) (.var .prop)) .nil))))))

/-- list.c:74-77 -/
def IFF_addToList.code : Fun where
  params := [(.«list», (.ptr (.struct .IFF_List))), (.chunk, (.ptr (.struct .IFF_Chunk)))]
  ret := .void
  body :=
    (.expr (.call (.fn .IFF_addToCAT) (.cons (.cast (.ptr (.struct .IFF_CAT)) (.var .«list»)) (.cons (.var .chunk) .nil))))

/-- list.c:79-82 -/
def IFF_addToListAndUpdateContentsType.code : Fun where
  params := [(.«list», (.ptr (.struct .IFF_List))), (.chunk, (.ptr (.struct .IFF_Chunk)))]
  ret := .void
  body :=
    (.expr (.call (.fn .IFF_addToCATAndUpdateContentsType) (.cons (.cast (.ptr (.struct .IFF_CAT)) (.var .«list»)) (.cons (.var .chunk) .nil))))

/-- list.c:84-108 -/
def readListSubChunks.code : Fun where
  params := [(.file, (.ptr .file)), (.«list», (.ptr (.struct .IFF_List))), (.chunkRegistry, (.ptr (.struct .IFF_ChunkRegistry))), (.bytesProcessed, (.ptr (.int .int)))]
  ret := (.int .int)
  body :=
    (.seq (.while (.bin .lt (.deref (.var .bytesProcessed)) (.arrow (.var .«list») .chunkSize))
        (.seq (.decl .chunk (.ptr (.struct .IFF_Chunk)) (some (.call (.fn .IFF_readChunk) (.cons (.var .file) (.cons (.arrow (.var .«list») .contentsType) (.cons (.var .chunkRegistry) .nil))))))
          (.seq (.ite (.bin .eq (.var .chunk) .null)
            (.ret FALSE)
            .skip)
          (.seq (.ite (.bin .eq (.arrow (.var .chunk) .chunkId) IFF_ID_PROP)
            (.expr (.call (.fn .addPropToList) (.cons (.var .«list») (.cons (.cast (.ptr (.struct .IFF_Form)) (.var .chunk)) .nil))))
            (.expr (.call (.fn .IFF_attachToGroup) (.cons (.cast (.ptr (.struct .IFF_Group)) (.var .«list»)) (.cons (.var .chunk) .nil)))))
          (.expr (.assign (.deref (.var .bytesProcessed)) (.call (.fn .IFF_incrementChunkSize) (.cons (.deref (.var .bytesProcessed)) (.cons (.var .chunk) .nil)))))))))
      (.seq (.ite (.bin .gt (.deref (.var .bytesProcessed)) (.arrow (.var .«list») .chunkSize))
        (.expr (.call (.fn .IFF_error) (.cons (.str "WARNING: truncated LIST chunk! The size specifies: %d but the total amount of its sub chunks is: %d bytes. The parser may get confused!\n") (.cons (.arrow (.var .«list») .chunkSize) (.cons (.var .bytesProcessed) .nil)))))
        .skip)
      (.ret TRUE)))

/-- list.c:110-128 -/
def IFF_readList.code : Fun where
  params := [(.file, (.ptr .file)), (.chunk, (.ptr (.struct .IFF_Chunk))), (.chunkRegistry, (.ptr (.struct .IFF_ChunkRegistry))), (.bytesProcessed, (.ptr (.int .int)))]
  ret := (.int .int)
  body :=
    (.seq (.decl .«list» (.ptr (.struct .IFF_List)) (some (.cast (.ptr (.struct .IFF_List)) (.var .chunk))))
      (.seq (.decl .status (.int .uint) none)
      (.seq (.ite (.bin .ne (.assign (.var .status) (.call (.fn .IFF_readIdField) (.cons (.var .file) (.cons (.addr (.arrow (.var .«list») .contentsType)) (.cons (.var .chunk) (.cons (.str "contentsType") (.cons (.var .bytesProcessed) .nil))))))) IFF_FIELD_MORE)
        (.ret (.call (.fn .IFF_deriveSuccess) (.cons (.var .status) .nil)))
        .skip)
      (.seq (.ite (.not (.call (.fn .readListSubChunks) (.cons (.var .file) (.cons (.var .«list») (.cons (.var .chunkRegistry) (.cons (.var .bytesProcessed) .nil))))))
        (.seq (.expr (.call (.fn .IFF_error) (.cons (.str "Error reading chunk in list!\n") .nil)))
          (.ret FALSE))
        .skip)
      (.ret TRUE)))))

/-- list.c:130-147 -/
def writeListPropChunks.code : Fun where
  params := [(.file, (.ptr .file)), (.«list», (.ptr (.struct .IFF_List))), (.chunkRegistry, (.ptr (.struct .IFF_ChunkRegistry))), (.bytesProcessed, (.ptr (.int .int)))]
  ret := (.int .int)
  body :=
    (.seq (.decl .i (.int .uint) none)
      (.seq (.for (.assign (.var .i) (.num .int 0)) (.bin .lt (.var .i) (.arrow (.var .«list») .propLength)) (.inc (.var .i))
        (.seq (.ite (.not (.call (.fn .IFF_writeChunk) (.cons (.var .file) (.cons (.cast (.ptr (.struct .IFF_Chunk)) (.index (.arrow (.var .«list») .prop) (.var .i))) (.cons (.num .int 0) (.cons (.var .chunkRegistry) .nil))))))
            (.seq (.expr (.call (.fn .IFF_error) (.cons (.str "Error writing PROP!\n") .nil)))
              (.ret FALSE))
            .skip)
          (.expr (.assign (.deref (.var .bytesProcessed)) (.call (.fn .IFF_incrementChunkSize) (.cons (.deref (.var .bytesProcessed)) (.cons (.cast (.ptr (.struct .IFF_Chunk)) (.index (.arrow (.var .«list») .prop) (.var .i))) .nil)))))))
      (.ret TRUE)))

/-- list.c:149-164 -/
def IFF_writeList.code : Fun where
  params := [(.file, (.ptr .file)), (.chunk, (.ptr (.struct .IFF_Chunk))), (.chunkRegistry, (.ptr (.struct .IFF_ChunkRegistry))), (.bytesProcessed, (.ptr (.int .int)))]
  ret := (.int .int)
  body :=
    (.seq (.decl .«list» (.ptr (.struct .IFF_List)) (some (.cast (.ptr (.struct .IFF_List)) (.var .chunk))))
      (.seq (.decl .status (.int .uint) none)
      (.seq (.ite (.bin .ne (.assign (.var .status) (.call (.fn .IFF_writeIdField) (.cons (.var .file) (.cons (.arrow (.var .«list») .contentsType) (.cons (.var .chunk) (.cons (.str "contentsType") (.cons (.var .bytesProcessed) .nil))))))) IFF_FIELD_MORE)
        (.ret (.call (.fn .IFF_deriveSuccess) (.cons (.var .status) .nil)))
        .skip)
      (.seq (.ite (.not (.call (.fn .writeListPropChunks) (.cons (.var .file) (.cons (.var .«list») (.cons (.var .chunkRegistry) (.cons (.var .bytesProcessed) .nil))))))
        (.ret FALSE)
        .skip)
      (.seq (.ite (.not (.call (.fn .IFF_writeGroupSubChunks) (.cons (.var .file) (.cons (.cast (.ptr (.struct .IFF_Group)) (.var .chunk)) (.cons (.var .chunkRegistry) (.cons (.var .bytesProcessed) .nil))))))
        (.ret FALSE)
        .skip)
      (.ret TRUE))))))

/-- list.c:166-182 -/
def checkListPropChunks.code : Fun where
  params := [(.«list», (.ptr (.struct .IFF_List))), (.chunkRegistry, (.ptr (.struct .IFF_ChunkRegistry)))]
  ret := (.int .int)
  body :=
    (.seq (.decl .chunkSize (.int .int) (some (.num .int 0)))
      (.seq (.decl .i (.int .uint) none)
      (.seq (.for (.assign (.var .i) (.num .int 0)) (.bin .lt (.var .i) (.arrow (.var .«list») .propLength)) (.inc (.var .i))
        (.seq (.decl .propChunk (.ptr (.struct .IFF_Chunk)) (some (.cast (.ptr (.struct .IFF_Chunk)) (.index (.arrow (.var .«list») .prop) (.var .i)))))
          (.seq (.ite (.not (.call (.fn .IFF_checkChunk) (.cons (.var .propChunk) (.cons (.arrow (.var .«list») .contentsType) (.cons (.var .chunkRegistry) .nil)))))
            (.ret (.neg (.num .int 1)))
            .skip)
          (.expr (.assign (.var .chunkSize) (.call (.fn .IFF_incrementChunkSize) (.cons (.var .chunkSize) (.cons (.var .propChunk) .nil))))))))
      (.ret (.var .chunkSize)))))

/-- list.c:184-211 -/
def IFF_checkList.code : Fun where
  params := [(.chunk, (.ptr (.struct .IFF_Chunk))), (.chunkRegistry, (.ptr (.struct .IFF_ChunkRegistry)))]
  ret := (.int .int)
  body :=
    (.seq (.decl .«list» (.ptr (.struct .IFF_List)) (some (.cast (.ptr (.struct .IFF_List)) (.var .chunk))))
      (.seq (.decl .chunkSize (.int .int) (some IFF_ID_SIZE))
      (.seq (.decl .subChunkSize (.int .int) none)
      (.seq (.ite (.not (.call (.fn .IFF_checkId) (.cons (.arrow (.var .«list») .contentsType) .nil)))
        (.ret FALSE)
        .skip)
      (.seq (.ite (.bin .eq (.assign (.var .subChunkSize) (.call (.fn .checkListPropChunks) (.cons (.var .«list») (.cons (.var .chunkRegistry) .nil)))) (.neg (.num .int 1)))
        (.ret FALSE)
        .skip)
      (.seq (.expr (.assignOp .add (.var .chunkSize) (.var .subChunkSize)))
      (.seq (.ite (.bin .eq (.assign (.var .subChunkSize) (.call (.fn .IFF_checkGroupSubChunks) (.cons (.cast (.ptr (.struct .IFF_Group)) (.var .«list»)) (.cons (.fn .IFF_checkCATSubChunk) (.cons (.var .chunkRegistry) .nil))))) (.neg (.num .int 1)))
        (.ret FALSE)
        .skip)
      (.seq (.expr (.assignOp .add (.var .chunkSize) (.var .subChunkSize)))
      (.seq (.ite (.not (.call (.fn .IFF_checkGroupChunkSize) (.cons (.cast (.ptr (.struct .IFF_Group)) (.var .«list»)) (.cons (.var .chunkSize) .nil))))
        (.ret FALSE)
        .skip)
      (.ret TRUE))))))))))

/-- list.c:213-219 -/
def freeListPropChunks.code : Fun where
  params := [(.«list», (.ptr (.struct .IFF_List))), (.chunkRegistry, (.ptr (.struct .IFF_ChunkRegistry)))]
  ret := .void
  body :=
    (.seq (.decl .i (.int .uint) none)
      (.for (.assign (.var .i) (.num .int 0)) (.bin .lt (.var .i) (.arrow (.var .«list») .propLength)) (.inc (.var .i))
      (.expr (.call (.fn .IFF_freeChunk) (.cons (.cast (.ptr (.struct .IFF_Chunk)) (.index (.arrow (.var .«list») .prop) (.var .i))) (.cons (.arrow (.var .«list») .contentsType) (.cons (.var .chunkRegistry) .nil)))))))

/-- list.c:221-228 -/
def IFF_freeList.code : Fun where
  params := [(.chunk, (.ptr (.struct .IFF_Chunk))), (.chunkRegistry, (.ptr (.struct .IFF_ChunkRegistry)))]
  ret := .void
  body :=
    (.seq (.decl .«list» (.ptr (.struct .IFF_List)) (some (.cast (.ptr (.struct .IFF_List)) (.var .chunk))))
      (.seq (.expr (.call (.fn .IFF_freeCAT) (.cons (.var .chunk) (.cons (.var .chunkRegistry) .nil))))
      (.seq (.expr (.call (.fn .freeListPropChunks) (.cons (.var .«list») (.cons (.var .chunkRegistry) .nil))))
      (.expr (.call (.fn .free) (.cons (.arrow (.var .«list») .prop) .nil))))))

/-- list.c:230-240 -/
def printListPropChunks.code : Fun where
  params := [(.«list», (.ptr (.struct .IFF_List))), (.indentLevel, (.int .uint)), (.chunkRegistry, (.ptr (.struct .IFF_ChunkRegistry)))]
  ret := .void
  body :=
    (.seq (.decl .i (.int .uint) none)
      (.seq (.expr (.call (.fn .IFF_printIndent) (.cons (.stream .stdout) (.cons (.var .indentLevel) (.cons (.str "prop = [\n") .nil)))))
      (.seq (.for (.assign (.var .i) (.num .int 0)) (.bin .lt (.var .i) (.arrow (.var .«list») .propLength)) (.inc (.var .i))
        (.expr (.call (.fn .IFF_printChunk) (.cons (.cast (.ptr (.struct .IFF_Chunk)) (.index (.arrow (.var .«list») .prop) (.var .i))) (.cons (.bin .add (.var .indentLevel) (.num .int 1)) (.cons (.arrow (.var .«list») .contentsType) (.cons (.var .chunkRegistry) .nil)))))))
      (.expr (.call (.fn .IFF_printIndent) (.cons (.stream .stdout) (.cons (.var .indentLevel) (.cons (.str "];\n") .nil))))))))

/-- list.c:242-249 -/
def IFF_printList.code : Fun where
  params := [(.chunk, (.ptr (.struct .IFF_Chunk))), (.indentLevel, (.int .uint)), (.chunkRegistry, (.ptr (.struct .IFF_ChunkRegistry)))]
  ret := .void
  body :=
    (.seq (.decl .«list» (.ptr (.struct .IFF_List)) (some (.cast (.ptr (.struct .IFF_List)) (.var .chunk))))
      (.seq (.expr (.call (.fn .IFF_printGroupType) (.cons (.str "contentsType") (.cons (.arrow (.var .«list») .contentsType) (.cons (.var .indentLevel) .nil)))))
      (.seq (.expr (.call (.fn .printListPropChunks) (.cons (.var .«list») (.cons (.var .indentLevel) (.cons (.var .chunkRegistry) .nil)))))
      (.expr (.call (.fn .IFF_printGroupSubChunks) (.cons (.cast (.ptr (.struct .IFF_Group)) (.var .«list»)) (.cons (.var .indentLevel) (.cons (.var .chunkRegistry) .nil))))))))

/-- list.c:251-267 -/
def compareListPropChunks.code : Fun where
  params := [(.list1, (.ptr (.struct .IFF_List))), (.list2, (.ptr (.struct .IFF_List))), (.chunkRegistry, (.ptr (.struct .IFF_ChunkRegistry)))]
  ret := (.int .int)
  body :=
    (.ite (.bin .eq (.arrow (.var .list1) .propLength) (.arrow (.var .list2) .propLength))
      (.seq (.decl .i (.int .uint) none)
        (.seq (.for (.assign (.var .i) (.num .int 0)) (.bin .lt (.var .i) (.arrow (.var .list1) .propLength)) (.inc (.var .i))
          (.ite (.not (.call (.fn .IFF_compareProp) (.cons (.cast (.ptr (.struct .IFF_Chunk)) (.index (.arrow (.var .list1) .prop) (.var .i))) (.cons (.cast (.ptr (.struct .IFF_Chunk)) (.index (.arrow (.var .list2) .prop) (.var .i))) (.cons (.var .chunkRegistry) .nil)))))
            (.ret FALSE)
            .skip))
        (.ret TRUE)))
      (.ret FALSE))

/-- list.c:269-278 -/
def IFF_compareList.code : Fun where
  params := [(.chunk1, (.ptr (.struct .IFF_Chunk))), (.chunk2, (.ptr (.struct .IFF_Chunk))), (.chunkRegistry, (.ptr (.struct .IFF_ChunkRegistry)))]
  ret := (.int .int)
  body :=
    (.seq (.ite (.not (.call (.fn .compareListPropChunks) (.cons (.cast (.ptr (.struct .IFF_List)) (.var .chunk1)) (.cons (.cast (.ptr (.struct .IFF_List)) (.var .chunk2)) (.cons (.var .chunkRegistry) .nil)))))
        (.ret FALSE)
        .skip)
      (.seq (.ite (.not (.call (.fn .IFF_compareCAT) (.cons (.var .chunk1) (.cons (.var .chunk2) (.cons (.var .chunkRegistry) .nil)))))
        (.ret FALSE)
        .skip)
      (.ret TRUE)))

/-- list.c:280-283 -/
def IFF_searchFormsInList.code : Fun where
  params := [(.«list», (.ptr (.struct .IFF_List))), (.formTypes, (.ptr (.int .uint))), (.formTypesLength, (.int .uint)), (.formsLength, (.ptr (.int .uint)))]
  ret := (.ptr (.ptr (.struct .IFF_Form)))
  body :=
    (.ret (.call (.fn .IFF_searchFormsInCAT) (.cons (.cast (.ptr (.struct .IFF_CAT)) (.var .«list»)) (.cons (.var .formTypes) (.cons (.var .formTypesLength) (.cons (.var .formsLength) .nil))))))

/-- list.c:285-293 -/
def IFF_updateListChunkSizes.code : Fun where
  params := [(.«list», (.ptr (.struct .IFF_List)))]
  ret := .void
  body :=
    (.seq (.decl .i (.int .uint) none)
      (.seq (.expr (.call (.fn .IFF_updateCATChunkSizes) (.cons (.cast (.ptr (.struct .IFF_CAT)) (.var .«list»)) .nil)))
      (.for (.assign (.var .i) (.num .int 0)) (.bin .lt (.var .i) (.arrow (.var .«list») .propLength)) (.inc (.var .i))
      (.expr (.assign (.arrow (.var .«list») .chunkSize) (.call (.fn .IFF_incrementChunkSize) (.cons (.arrow (.var .«list») .chunkSize) (.cons (.cast (.ptr (.struct .IFF_Chunk)) (.index (.arrow (.var .«list») .prop) (.var .i))) .nil))))))))

/-- list.c:295-306 -/
def IFF_getPropFromList.code : Fun where
  params := [(.«list», (.ptr (.struct .IFF_List))), (.formType, (.int .uint))]
  ret := (.ptr (.struct .IFF_Form))
  body :=
    (.seq (.decl .i (.int .uint) none)
      (.seq (.for (.assign (.var .i) (.num .int 0)) (.bin .lt (.var .i) (.arrow (.var .«list») .propLength)) (.inc (.var .i))
        (.ite (.bin .eq (.arrow (.index (.arrow (.var .«list») .prop) (.var .i)) .formType) (.var .formType))
          (.ret (.index (.arrow (.var .«list») .prop) (.var .i)))
          .skip))
      (.ret .null)))

end Iff.Src
