import Verif.Src.Code.Headers
/-
  Generated by tools/c2lean.py from tests/hello.c.
-/
namespace Iff.Src

/-- hello.c:29-41 -/
def TEST_createHelloChunk.code : Fun where
  params := [(.chunkId, (.int .uint)), (.chunkSize, (.int .int))]
  ret := (.ptr (.struct .IFF_Chunk))
  body :=
    (.seq (.decl .hello (.ptr (.struct .TEST_Hello)) (some (.cast (.ptr (.struct .TEST_Hello)) (.call (.fn .IFF_createChunk) (.cons (.var .chunkId) (.cons (.var .chunkSize) (.cons (.sizeof (.struct .TEST_Hello)) .nil)))))))
      (.seq (.ite (.bin .ne (.var .hello) .null)
        (.seq (.expr (.assign (.arrow (.var .hello) .a) (.num .int 0)))
          (.seq (.expr (.assign (.arrow (.var .hello) .b) (.num .int 0)))
          (.expr (.assign (.arrow (.var .hello) .c) (.num .int 0)))))
        .skip)
      (.ret (.cast (.ptr (.struct .IFF_Chunk)) (.var .hello)))))

/-- hello.c:43-46 -/
def TEST_createHello.code : Fun where
  params := [(.chunkSize, (.int .int))]
  ret := (.ptr (.struct .TEST_Hello))
  body :=
    (.ret (.cast (.ptr (.struct .TEST_Hello)) (.call (.fn .TEST_createHelloChunk) (.cons TEST_ID_HELO (.cons (.var .chunkSize) .nil)))))

/-- hello.c:48-63 -/
def TEST_readHello.code : Fun where
  params := [(.file, (.ptr .file)), (.chunk, (.ptr (.struct .IFF_Chunk))), (.chunkRegistry, (.ptr (.struct .IFF_ChunkRegistry))), (.bytesProcessed, (.ptr (.int .int)))]
  ret := (.int .int)
  body :=
    (.seq (.decl .hello (.ptr (.struct .TEST_Hello)) (some (.cast (.ptr (.struct .TEST_Hello)) (.var .chunk))))
      (.seq (.decl .status (.int .uint) none)
      (.seq (.ite (.bin .ne (.assign (.var .status) (.call (.fn .IFF_readUByteField) (.cons (.var .file) (.cons (.addr (.arrow (.var .hello) .a)) (.cons (.var .chunk) (.cons (.str "a") (.cons (.var .bytesProcessed) .nil))))))) IFF_FIELD_MORE)
        (.ret (.call (.fn .IFF_deriveSuccess) (.cons (.var .status) .nil)))
        .skip)
      (.seq (.ite (.bin .ne (.assign (.var .status) (.call (.fn .IFF_readUByteField) (.cons (.var .file) (.cons (.addr (.arrow (.var .hello) .b)) (.cons (.var .chunk) (.cons (.str "b") (.cons (.var .bytesProcessed) .nil))))))) IFF_FIELD_MORE)
        (.ret (.call (.fn .IFF_deriveSuccess) (.cons (.var .status) .nil)))
        .skip)
      (.seq (.ite (.bin .ne (.assign (.var .status) (.call (.fn .IFF_readUWordField) (.cons (.var .file) (.cons (.addr (.arrow (.var .hello) .c)) (.cons (.var .chunk) (.cons (.str "c") (.cons (.var .bytesProcessed) .nil))))))) IFF_FIELD_MORE)
        (.ret (.call (.fn .IFF_deriveSuccess) (.cons (.var .status) .nil)))
        .skip)
      (.ret TRUE))))))

/-- hello.c:65-80 -/
def TEST_writeHello.code : Fun where
  params := [(.file, (.ptr .file)), (.chunk, (.ptr (.struct .IFF_Chunk))), (.chunkRegistry, (.ptr (.struct .IFF_ChunkRegistry))), (.bytesProcessed, (.ptr (.int .int)))]
  ret := (.int .int)
  body :=
    (.seq (.decl .hello (.ptr (.struct .TEST_Hello)) (some (.cast (.ptr (.struct .TEST_Hello)) (.var .chunk))))
      (.seq (.decl .status (.int .uint) none)
      (.seq (.ite (.bin .ne (.assign (.var .status) (.call (.fn .IFF_writeUByteField) (.cons (.var .file) (.cons (.arrow (.var .hello) .a) (.cons (.var .chunk) (.cons (.str "a") (.cons (.var .bytesProcessed) .nil))))))) IFF_FIELD_MORE)
        (.ret (.call (.fn .IFF_deriveSuccess) (.cons (.var .status) .nil)))
        .skip)
      (.seq (.ite (.bin .ne (.assign (.var .status) (.call (.fn .IFF_writeUByteField) (.cons (.var .file) (.cons (.arrow (.var .hello) .b) (.cons (.var .chunk) (.cons (.str "b") (.cons (.var .bytesProcessed) .nil))))))) IFF_FIELD_MORE)
        (.ret (.call (.fn .IFF_deriveSuccess) (.cons (.var .status) .nil)))
        .skip)
      (.seq (.ite (.bin .ne (.assign (.var .status) (.call (.fn .IFF_writeUWordField) (.cons (.var .file) (.cons (.arrow (.var .hello) .c) (.cons (.var .chunk) (.cons (.str "c") (.cons (.var .bytesProcessed) .nil))))))) IFF_FIELD_MORE)
        (.ret (.call (.fn .IFF_deriveSuccess) (.cons (.var .status) .nil)))
        .skip)
      (.ret TRUE))))))

/-- hello.c:82-93 -/
def TEST_checkHello.code : Fun where
  params := [(.chunk, (.ptr (.struct .IFF_Chunk))), (.chunkRegistry, (.ptr (.struct .IFF_ChunkRegistry)))]
  ret := (.int .int)
  body :=
    (.seq (.decl .hello (.ptr (.struct .TEST_Hello)) (some (.cast (.ptr (.struct .TEST_Hello)) (.var .chunk))))
      (.seq (.ite (.lor (.bin .lt (.arrow (.var .hello) .c) (.num .int 0)) (.bin .gt (.arrow (.var .hello) .c) (.num .int 1024)))
        (.seq (.expr (.call (.fn .IFF_error) (.cons (.str "'HELO'.c must be between 0 and 1024\n") .nil)))
          (.ret FALSE))
        .skip)
      (.ret TRUE)))

/-- hello.c:95-97 -/
def TEST_freeHello.code : Fun where
  params := [(.chunk, (.ptr (.struct .IFF_Chunk))), (.chunkRegistry, (.ptr (.struct .IFF_ChunkRegistry)))]
  ret := .void
  body :=
    .skip

/-- hello.c:99-106 -/
def TEST_printHello.code : Fun where
  params := [(.chunk, (.ptr (.struct .IFF_Chunk))), (.indentLevel, (.int .uint)), (.chunkRegistry, (.ptr (.struct .IFF_ChunkRegistry)))]
  ret := .void
  body :=
    (.seq (.decl .hello (.ptr (.struct .TEST_Hello)) (some (.cast (.ptr (.struct .TEST_Hello)) (.var .chunk))))
      (.seq (.expr (.call (.fn .IFF_printIndent) (.cons (.stream .stdout) (.cons (.var .indentLevel) (.cons (.str "a = %c;\n") (.cons (.arrow (.var .hello) .a) .nil))))))
      (.seq (.expr (.call (.fn .IFF_printIndent) (.cons (.stream .stdout) (.cons (.var .indentLevel) (.cons (.str "b = %c;\n") (.cons (.arrow (.var .hello) .b) .nil))))))
      (.expr (.call (.fn .IFF_printIndent) (.cons (.stream .stdout) (.cons (.var .indentLevel) (.cons (.str "c = %u;\n") (.cons (.arrow (.var .hello) .c) .nil)))))))))

/-- hello.c:108-123 -/
def TEST_compareHello.code : Fun where
  params := [(.chunk1, (.ptr (.struct .IFF_Chunk))), (.chunk2, (.ptr (.struct .IFF_Chunk))), (.chunkRegistry, (.ptr (.struct .IFF_ChunkRegistry)))]
  ret := (.int .int)
  body :=
    (.seq (.decl .hello1 (.ptr (.struct .TEST_Hello)) (some (.cast (.ptr (.struct .TEST_Hello)) (.var .chunk1))))
      (.seq (.decl .hello2 (.ptr (.struct .TEST_Hello)) (some (.cast (.ptr (.struct .TEST_Hello)) (.var .chunk2))))
      (.seq (.ite (.bin .ne (.arrow (.var .hello1) .a) (.arrow (.var .hello2) .a))
        (.ret FALSE)
        .skip)
      (.seq (.ite (.bin .ne (.arrow (.var .hello1) .b) (.arrow (.var .hello2) .b))
        (.ret FALSE)
        .skip)
      (.seq (.ite (.bin .ne (.arrow (.var .hello1) .c) (.arrow (.var .hello2) .c))
        (.ret FALSE)
        .skip)
      (.ret TRUE))))))

end Iff.Src
