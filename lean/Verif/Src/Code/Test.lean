import Verif.Src.Code.Headers
/-
  Generated by tools/c2lean.py from tests/test.c.
-/
namespace Iff.Src

/-- test.c:28 -/
def TEST_NUM_OF_FORM_CHUNK_TYPES : Expr := (.num .int 1)

/-- test.c:29 -/
def TEST_NUM_OF_CHUNK_TYPES : Expr := (.num .int 2)

/-- test.c:31-34 -/
def test_applicationChunkTypes.init : List Init :=
  [.expr TEST_ID_BYE,
   .fn .TEST_createByeChunk,
   .fn .TEST_readBye,
   .fn .TEST_writeBye,
   .fn .TEST_checkBye,
   .fn .TEST_freeBye,
   .fn .TEST_printBye,
   .fn .TEST_compareBye,
   .expr TEST_ID_HELO,
   .fn .TEST_createHelloChunk,
   .fn .TEST_readHello,
   .fn .TEST_writeHello,
   .fn .TEST_checkHello,
   .fn .TEST_freeHello,
   .fn .TEST_printHello,
   .fn .TEST_compareHello]

/-- test.c:36-38 -/
def test_applicationChunkTypesNode.init : List Init :=
  [.expr TEST_NUM_OF_CHUNK_TYPES,
   .glob .test_applicationChunkTypes,
   .null]

/-- test.c:40-42 -/
def test_formChunkTypes.init : List Init :=
  [.expr TEST_ID_TEST,
   .glob .test_applicationChunkTypesNode]

/-- test.c:44-44 -/
def test_chunkRegistry.init : List Init :=
  [.expr TEST_NUM_OF_FORM_CHUNK_TYPES,
   .glob .test_formChunkTypes,
   .glob .IFF_globalChunkTypesNode,
   .glob .IFF_defaultChunkType]

/-- test.c:46-49 -/
def TEST_read.code : Fun where
  params := [(.filename, (.ptr (.int .char)))]
  ret := (.ptr (.struct .IFF_Chunk))
  body :=
    (.ret (.call (.fn .IFF_read) (.cons (.var .filename) (.cons (.addr (.glob .test_chunkRegistry)) .nil))))

/-- test.c:51-54 -/
def TEST_write.code : Fun where
  params := [(.filename, (.ptr (.int .char))), (.chunk, (.ptr (.struct .IFF_Chunk)))]
  ret := (.int .int)
  body :=
    (.ret (.call (.fn .IFF_write) (.cons (.var .filename) (.cons (.var .chunk) (.cons (.addr (.glob .test_chunkRegistry)) .nil)))))

/-- test.c:56-59 -/
def TEST_free.code : Fun where
  params := [(.chunk, (.ptr (.struct .IFF_Chunk)))]
  ret := .void
  body :=
    (.expr (.call (.fn .IFF_free) (.cons (.var .chunk) (.cons (.addr (.glob .test_chunkRegistry)) .nil))))

/-- test.c:61-64 -/
def TEST_check.code : Fun where
  params := [(.chunk, (.ptr (.struct .IFF_Chunk)))]
  ret := (.int .int)
  body :=
    (.ret (.call (.fn .IFF_check) (.cons (.var .chunk) (.cons (.addr (.glob .test_chunkRegistry)) .nil))))

/-- test.c:66-69 -/
def TEST_print.code : Fun where
  params := [(.chunk, (.ptr (.struct .IFF_Chunk))), (.indentLevel, (.int .uint))]
  ret := .void
  body :=
    (.expr (.call (.fn .IFF_print) (.cons (.var .chunk) (.cons (.var .indentLevel) (.cons (.addr (.glob .test_chunkRegistry)) .nil)))))

/-- test.c:71-74 -/
def TEST_compare.code : Fun where
  params := [(.chunk1, (.ptr (.struct .IFF_Chunk))), (.chunk2, (.ptr (.struct .IFF_Chunk)))]
  ret := (.int .int)
  body :=
    (.ret (.call (.fn .IFF_compare) (.cons (.var .chunk1) (.cons (.var .chunk2) (.cons (.addr (.glob .test_chunkRegistry)) .nil)))))

end Iff.Src
