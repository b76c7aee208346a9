import Verif.Src.Code.Headers
/-
  Generated by tools/c2lean.py from src/libiff/chunk.c.
-/
namespace Iff.Src

/-- chunk.c:30 -/
def ID_EMPTY : Expr := (IFF_MAKEID (.num .int 32) (.num .int 32) (.num .int 32) (.num .int 32))

/-- chunk.c:32-44 -/
def IFF_createChunk.code : Fun where
  params := [(.chunkId, (.int .uint)), (.chunkSize, (.int .int)), (.structSize, (.int .size))]
  ret := (.ptr (.struct .IFF_Chunk))
  body :=
    (.seq (.decl .chunk (.ptr (.struct .IFF_Chunk)) (some (.cast (.ptr (.struct .IFF_Chunk)) (.call (.fn .malloc) (.cons (.var .structSize) .nil)))))
      (.seq (.ite (.bin .ne (.var .chunk) .null)
        (.seq (.expr (.assign (.arrow (.var .chunk) .parent) .null))
          (.seq (.expr (.assign (.arrow (.var .chunk) .chunkId) (.var .chunkId)))
          (.expr (.assign (.arrow (.var .chunk) .chunkSize) (.var .chunkSize)))))
        .skip)
      (.ret (.var .chunk))))

/-- chunk.c:46-66 -/
def readChunkBody.code : Fun where
  params := [(.file, (.ptr .file)), (.chunkId, (.int .uint)), (.chunkSize, (.int .int)), (.formType, (.int .uint)), (.chunkRegistry, (.ptr (.struct .IFF_ChunkRegistry)))]
  ret := (.ptr (.struct .IFF_Chunk))
  body :=
    (.seq (.decl .chunkType (.ptr (.struct .IFF_ChunkType)) (some (.call (.fn .IFF_findChunkType) (.cons (.var .chunkRegistry) (.cons (.var .formType) (.cons (.var .chunkId) .nil))))))
      (.seq (.decl .chunk (.ptr (.struct .IFF_Chunk)) (some (.call (.arrow (.var .chunkType) .createExtensionChunk) (.cons (.var .chunkId) (.cons (.var .chunkSize) .nil)))))
      (.seq (.ite (.bin .ne (.var .chunk) .null)
        (.seq (.object .bytesProcessed (.int .int) (some (.num .int 0)))
          (.ite (.lor (.lor (.not (.call (.arrow (.var .chunkType) .readExtensionChunkFields) (.cons (.var .file) (.cons (.var .chunk) (.cons (.var .chunkRegistry) (.cons (.addr (.var .bytesProcessed)) .nil)))))) (.not (.call (.fn .IFF_skipUnknownBytes) (.cons (.var .file) (.cons (.arrow (.var .chunk) .chunkId) (.cons (.var .chunkSize) (.cons (.var .bytesProcessed) .nil))))))) (.not (.call (.fn .IFF_readPaddingByte) (.cons (.var .file) (.cons (.var .chunkSize) (.cons (.arrow (.var .chunk) .chunkId) .nil))))))
          (.seq (.expr (.call (.fn .IFF_freeChunk) (.cons (.var .chunk) (.cons (.var .formType) (.cons (.var .chunkRegistry) .nil)))))
            (.ret .null))
          .skip))
        .skip)
      (.ret (.var .chunk)))))

/-- chunk.c:68-78 -/
def IFF_readChunk.code : Fun where
  params := [(.file, (.ptr .file)), (.formType, (.int .uint)), (.chunkRegistry, (.ptr (.struct .IFF_ChunkRegistry)))]
  ret := (.ptr (.struct .IFF_Chunk))
  body :=
    (.seq (.object .chunkId (.int .uint) none)
      (.seq (.object .chunkSize (.int .int) none)
      (.seq (.ite (.lor (.not (.call (.fn .IFF_readId) (.cons (.var .file) (.cons (.addr (.var .chunkId)) (.cons ID_EMPTY (.cons (.str "") .nil)))))) (.not (.call (.fn .IFF_readLong) (.cons (.var .file) (.cons (.addr (.var .chunkSize)) (.cons (.var .chunkId) (.cons (.str "chunkSize") .nil)))))))
        (.ret .null)
        .skip)
      (.ret (.call (.fn .readChunkBody) (.cons (.var .file) (.cons (.var .chunkId) (.cons (.var .chunkSize) (.cons (.var .formType) (.cons (.var .chunkRegistry) .nil))))))))))

/-- chunk.c:80-88 -/
def writeChunkBody.code : Fun where
  params := [(.file, (.ptr .file)), (.chunk, (.ptr (.struct .IFF_Chunk))), (.formType, (.int .uint)), (.chunkRegistry, (.ptr (.struct .IFF_ChunkRegistry)))]
  ret := (.int .int)
  body :=
    (.seq (.decl .chunkType (.ptr (.struct .IFF_ChunkType)) (some (.call (.fn .IFF_findChunkType) (.cons (.var .chunkRegistry) (.cons (.var .formType) (.cons (.arrow (.var .chunk) .chunkId) .nil))))))
      (.seq (.object .bytesProcessed (.int .int) (some (.num .int 0)))
      (.ret (.land (.land (.call (.arrow (.var .chunkType) .writeExtensionChunkFields) (.cons (.var .file) (.cons (.var .chunk) (.cons (.var .chunkRegistry) (.cons (.addr (.var .bytesProcessed)) .nil))))) (.call (.fn .IFF_writeZeroFillerBytes) (.cons (.var .file) (.cons (.arrow (.var .chunk) .chunkId) (.cons (.arrow (.var .chunk) .chunkSize) (.cons (.var .bytesProcessed) .nil)))))) (.call (.fn .IFF_writePaddingByte) (.cons (.var .file) (.cons (.arrow (.var .chunk) .chunkSize) (.cons (.arrow (.var .chunk) .chunkId) .nil))))))))

/-- chunk.c:90-95 -/
def IFF_writeChunk.code : Fun where
  params := [(.file, (.ptr .file)), (.chunk, (.ptr (.struct .IFF_Chunk))), (.formType, (.int .uint)), (.chunkRegistry, (.ptr (.struct .IFF_ChunkRegistry)))]
  ret := (.int .int)
  body :=
    (.ret (.land (.land (.call (.fn .IFF_writeId) (.cons (.var .file) (.cons (.arrow (.var .chunk) .chunkId) (.cons (.arrow (.var .chunk) .chunkId) (.cons (.str "chunkId") .nil))))) (.call (.fn .IFF_writeLong) (.cons (.var .file) (.cons (.arrow (.var .chunk) .chunkSize) (.cons (.arrow (.var .chunk) .chunkId) (.cons (.str "chunkSize") .nil)))))) (.call (.fn .writeChunkBody) (.cons (.var .file) (.cons (.var .chunk) (.cons (.var .formType) (.cons (.var .chunkRegistry) .nil)))))))

/-- chunk.c:97-106 -/
def IFF_checkChunk.code : Fun where
  params := [(.chunk, (.ptr (.struct .IFF_Chunk))), (.formType, (.int .uint)), (.chunkRegistry, (.ptr (.struct .IFF_ChunkRegistry)))]
  ret := (.int .int)
  body :=
    (.ite (.not (.call (.fn .IFF_checkId) (.cons (.arrow (.var .chunk) .chunkId) .nil)))
      (.ret FALSE)
      (.seq (.decl .chunkType (.ptr (.struct .IFF_ChunkType)) (some (.call (.fn .IFF_findChunkType) (.cons (.var .chunkRegistry) (.cons (.var .formType) (.cons (.arrow (.var .chunk) .chunkId) .nil))))))
        (.ret (.call (.arrow (.var .chunkType) .checkExtensionChunk) (.cons (.var .chunk) (.cons (.var .chunkRegistry) .nil))))))

/-- chunk.c:108-113 -/
def IFF_freeChunk.code : Fun where
  params := [(.chunk, (.ptr (.struct .IFF_Chunk))), (.formType, (.int .uint)), (.chunkRegistry, (.ptr (.struct .IFF_ChunkRegistry)))]
  ret := .void
  body :=
    (.seq (.decl .chunkType (.ptr (.struct .IFF_ChunkType)) (some (.call (.fn .IFF_findChunkType) (.cons (.var .chunkRegistry) (.cons (.var .formType) (.cons (.arrow (.var .chunk) .chunkId) .nil))))))
      (.seq (.expr (.call (.arrow (.var .chunkType) .freeExtensionChunk) (.cons (.var .chunk) (.cons (.var .chunkRegistry) .nil))))
      (.expr (.call (.fn .free) (.cons (.var .chunk) .nil)))))

/-- chunk.c:115-125 -/
def IFF_printChunk.code : Fun where
  params := [(.chunk, (.ptr (.struct .IFF_Chunk))), (.indentLevel, (.int .uint)), (.formType, (.int .uint)), (.chunkRegistry, (.ptr (.struct .IFF_ChunkRegistry)))]
  ret := .void
  body :=
    (.seq (.decl .chunkType (.ptr (.struct .IFF_ChunkType)) (some (.call (.fn .IFF_findChunkType) (.cons (.var .chunkRegistry) (.cons (.var .formType) (.cons (.arrow (.var .chunk) .chunkId) .nil))))))
      (.seq (.expr (.call (.fn .IFF_printIndent) (.cons (.stream .stdout) (.cons (.var .indentLevel) (.cons (.str "'") .nil)))))
      (.seq (.expr (.call (.fn .IFF_printId) (.cons (.arrow (.var .chunk) .chunkId) .nil)))
      (.seq (.expr (.call (.fn .printf) (.cons (.str "' = {\n") .nil)))
      (.seq (.expr (.call (.fn .IFF_printIndent) (.cons (.stream .stdout) (.cons (.bin .add (.var .indentLevel) (.num .int 1)) (.cons (.str "chunkSize = %d;\n") (.cons (.arrow (.var .chunk) .chunkSize) .nil))))))
      (.seq (.expr (.call (.arrow (.var .chunkType) .printExtensionChunk) (.cons (.var .chunk) (.cons (.var .indentLevel) (.cons (.var .chunkRegistry) .nil)))))
      (.expr (.call (.fn .IFF_printIndent) (.cons (.stream .stdout) (.cons (.var .indentLevel) (.cons (.str "}\n\n") .nil)))))))))))

/-- chunk.c:127-136 -/
def IFF_compareChunk.code : Fun where
  params := [(.chunk1, (.ptr (.struct .IFF_Chunk))), (.chunk2, (.ptr (.struct .IFF_Chunk))), (.formType, (.int .uint)), (.chunkRegistry, (.ptr (.struct .IFF_ChunkRegistry)))]
  ret := (.int .int)
  body :=
    (.ite (.land (.bin .eq (.arrow (.var .chunk1) .chunkId) (.arrow (.var .chunk2) .chunkId)) (.bin .eq (.arrow (.var .chunk1) .chunkSize) (.arrow (.var .chunk2) .chunkSize)))
      (.seq (.decl .chunkType (.ptr (.struct .IFF_ChunkType)) (some (.call (.fn .IFF_findChunkType) (.cons (.var .chunkRegistry) (.cons (.var .formType) (.cons (.arrow (.var .chunk1) .chunkId) .nil))))))
        (.ret (.call (.arrow (.var .chunkType) .compareExtensionChunk) (.cons (.var .chunk1) (.cons (.var .chunk2) (.cons (.var .chunkRegistry) .nil))))))
      (.ret FALSE))

end Iff.Src
