import Verif.Src.Code.Headers
/-
  Generated by tools/c2lean.py from tests/bye.c.
-/
namespace Iff.Src

/-- bye.c:29-40 -/
def TEST_createByeChunk.code : Fun where
  params := [(.chunkId, (.int .uint)), (.chunkSize, (.int .int))]
  ret := (.ptr (.struct .IFF_Chunk))
  body :=
    (.seq (.decl .bye (.ptr (.struct .TEST_Bye)) (some (.cast (.ptr (.struct .TEST_Bye)) (.call (.fn .IFF_createChunk) (.cons (.var .chunkId) (.cons (.var .chunkSize) (.cons (.sizeof (.struct .TEST_Bye)) .nil)))))))
      (.seq (.ite (.bin .ne (.var .bye) .null)
        (.seq (.expr (.assign (.arrow (.var .bye) .one) (.num .int 0)))
          (.expr (.assign (.arrow (.var .bye) .two) (.num .int 0))))
        .skip)
      (.ret (.cast (.ptr (.struct .IFF_Chunk)) (.var .bye)))))

/-- bye.c:42-45 -/
def TEST_createBye.code : Fun where
  params := [(.chunkSize, (.int .int))]
  ret := (.ptr (.struct .TEST_Bye))
  body :=
    (.ret (.cast (.ptr (.struct .TEST_Bye)) (.call (.fn .TEST_createByeChunk) (.cons TEST_ID_BYE (.cons (.var .chunkSize) .nil)))))

/-- bye.c:47-59 -/
def TEST_readBye.code : Fun where
  params := [(.file, (.ptr .file)), (.chunk, (.ptr (.struct .IFF_Chunk))), (.chunkRegistry, (.ptr (.struct .IFF_ChunkRegistry))), (.bytesProcessed, (.ptr (.int .int)))]
  ret := (.int .int)
  body :=
    (.seq (.decl .bye (.ptr (.struct .TEST_Bye)) (some (.cast (.ptr (.struct .TEST_Bye)) (.var .chunk))))
      (.seq (.decl .status (.int .uint) none)
      (.seq (.ite (.bin .ne (.assign (.var .status) (.call (.fn .IFF_readLongField) (.cons (.var .file) (.cons (.addr (.arrow (.var .bye) .one)) (.cons (.var .chunk) (.cons (.str "one") (.cons (.var .bytesProcessed) .nil))))))) IFF_FIELD_MORE)
        (.ret (.call (.fn .IFF_deriveSuccess) (.cons (.var .status) .nil)))
        .skip)
      (.seq (.ite (.bin .ne (.assign (.var .status) (.call (.fn .IFF_readLongField) (.cons (.var .file) (.cons (.addr (.arrow (.var .bye) .two)) (.cons (.var .chunk) (.cons (.str "two") (.cons (.var .bytesProcessed) .nil))))))) IFF_FIELD_MORE)
        (.ret (.call (.fn .IFF_deriveSuccess) (.cons (.var .status) .nil)))
        .skip)
      (.ret TRUE)))))

/-- bye.c:61-73 -/
def TEST_writeBye.code : Fun where
  params := [(.file, (.ptr .file)), (.chunk, (.ptr (.struct .IFF_Chunk))), (.chunkRegistry, (.ptr (.struct .IFF_ChunkRegistry))), (.bytesProcessed, (.ptr (.int .int)))]
  ret := (.int .int)
  body :=
    (.seq (.decl .bye (.ptr (.struct .TEST_Bye)) (some (.cast (.ptr (.struct .TEST_Bye)) (.var .chunk))))
      (.seq (.decl .status (.int .uint) none)
      (.seq (.ite (.bin .ne (.assign (.var .status) (.call (.fn .IFF_writeLongField) (.cons (.var .file) (.cons (.arrow (.var .bye) .one) (.cons (.var .chunk) (.cons (.str "one") (.cons (.var .bytesProcessed) .nil))))))) IFF_FIELD_MORE)
        (.ret (.call (.fn .IFF_deriveSuccess) (.cons (.var .status) .nil)))
        .skip)
      (.seq (.ite (.bin .ne (.assign (.var .status) (.call (.fn .IFF_writeLongField) (.cons (.var .file) (.cons (.arrow (.var .bye) .two) (.cons (.var .chunk) (.cons (.str "two") (.cons (.var .bytesProcessed) .nil))))))) IFF_FIELD_MORE)
        (.ret (.call (.fn .IFF_deriveSuccess) (.cons (.var .status) .nil)))
        .skip)
      (.ret TRUE)))))

/-- bye.c:75-78 -/
def TEST_checkBye.code : Fun where
  params := [(.chunk, (.ptr (.struct .IFF_Chunk))), (.chunkRegistry, (.ptr (.struct .IFF_ChunkRegistry)))]
  ret := (.int .int)
  body :=
    (.ret TRUE)

/-- bye.c:80-82 -/
def TEST_freeBye.code : Fun where
  params := [(.chunk, (.ptr (.struct .IFF_Chunk))), (.chunkRegistry, (.ptr (.struct .IFF_ChunkRegistry)))]
  ret := .void
  body :=
    .skip

/-- bye.c:84-90 -/
def TEST_printBye.code : Fun where
  params := [(.chunk, (.ptr (.struct .IFF_Chunk))), (.indentLevel, (.int .uint)), (.chunkRegistry, (.ptr (.struct .IFF_ChunkRegistry)))]
  ret := .void
  body :=
    (.seq (.decl .bye (.ptr (.struct .TEST_Bye)) (some (.cast (.ptr (.struct .TEST_Bye)) (.var .chunk))))
      (.seq (.expr (.call (.fn .IFF_printIndent) (.cons (.stream .stdout) (.cons (.var .indentLevel) (.cons (.str "one = %d;\n") (.cons (.arrow (.var .bye) .one) .nil))))))
      (.expr (.call (.fn .IFF_printIndent) (.cons (.stream .stdout) (.cons (.var .indentLevel) (.cons (.str "two = %d;\n") (.cons (.arrow (.var .bye) .two) .nil))))))))

/-- bye.c:92-104 -/
def TEST_compareBye.code : Fun where
  params := [(.chunk1, (.ptr (.struct .IFF_Chunk))), (.chunk2, (.ptr (.struct .IFF_Chunk))), (.chunkRegistry, (.ptr (.struct .IFF_ChunkRegistry)))]
  ret := (.int .int)
  body :=
    (.seq (.decl .bye1 (.ptr (.struct .TEST_Bye)) (some (.cast (.ptr (.struct .TEST_Bye)) (.var .chunk1))))
      (.seq (.decl .bye2 (.ptr (.struct .TEST_Bye)) (some (.cast (.ptr (.struct .TEST_Bye)) (.var .chunk2))))
      (.seq (.ite (.bin .ne (.arrow (.var .bye1) .one) (.arrow (.var .bye2) .one))
        (.ret FALSE)
        .skip)
      (.seq (.ite (.bin .ne (.arrow (.var .bye1) .two) (.arrow (.var .bye2) .two))
        (.ret FALSE)
        .skip)
      (.ret TRUE)))))

end Iff.Src
