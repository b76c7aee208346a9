import Verif.Src.Code.Headers
/-
  Generated by tools/c2lean.py from src/libiff/defaultregistry.c.
-/
namespace Iff.Src

/-- defaultregistry.c:31-36 -/
def IFF_globalChunkTypes.init : List Init :=
  [.expr IFF_ID_CAT,
   .fn .IFF_createUnparsedCAT,
   .fn .IFF_readCAT,
   .fn .IFF_writeCAT,
   .fn .IFF_checkCAT,
   .fn .IFF_freeCAT,
   .fn .IFF_printCAT,
   .fn .IFF_compareCAT,
   .expr IFF_ID_FORM,
   .fn .IFF_createUnparsedForm,
   .fn .IFF_readForm,
   .fn .IFF_writeForm,
   .fn .IFF_checkForm,
   .fn .IFF_freeForm,
   .fn .IFF_printForm,
   .fn .IFF_compareForm,
   .expr IFF_ID_LIST,
   .fn .IFF_createUnparsedList,
   .fn .IFF_readList,
   .fn .IFF_writeList,
   .fn .IFF_checkList,
   .fn .IFF_freeList,
   .fn .IFF_printList,
   .fn .IFF_compareList,
   .expr IFF_ID_PROP,
   .fn .IFF_createUnparsedProp,
   .fn .IFF_readProp,
   .fn .IFF_writeProp,
   .fn .IFF_checkProp,
   .fn .IFF_freeProp,
   .fn .IFF_printProp,
   .fn .IFF_compareProp]

/-- defaultregistry.c:38-40 -/
def IFF_globalChunkTypesNode.init : List Init :=
  [.expr IFF_NUM_OF_CHUNK_TYPES,
   .glob .IFF_globalChunkTypes,
   .null]

/-- defaultregistry.c:42-42 -/
def IFF_defaultChunkType.init : List Init :=
  [.expr (.num .int 0),
   .fn .IFF_createRawChunk,
   .fn .IFF_readRawChunk,
   .fn .IFF_writeRawChunk,
   .fn .IFF_checkRawChunk,
   .fn .IFF_freeRawChunk,
   .fn .IFF_printRawChunk,
   .fn .IFF_compareRawChunk]

/-- defaultregistry.c:44-46 -/
def IFF_defaultChunkRegistry.init : List Init :=
  [.expr (.num .int 0),
   .null,
   .glob .IFF_globalChunkTypesNode,
   .glob .IFF_defaultChunkType]

end Iff.Src
