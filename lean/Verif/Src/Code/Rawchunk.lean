import Verif.Src.Code.Headers
/-
  Generated by tools/c2lean.py from src/libiff/rawchunk.c.
-/
namespace Iff.Src

/-- rawchunk.c:30-46 -/
def IFF_createRawChunk.code : Fun where
  params := [(.chunkId, (.int .uint)), (.chunkSize, (.int .int))]
  ret := (.ptr (.struct .IFF_Chunk))
  body :=
    (.seq (.decl .rawChunk (.ptr (.struct .IFF_RawChunk)) (some (.cast (.ptr (.struct .IFF_RawChunk)) (.call (.fn .IFF_createChunk) (.cons (.var .chunkId) (.cons (.var .chunkSize) (.cons (.sizeof (.struct .IFF_RawChunk)) .nil)))))))
      (.seq (.ite (.bin .ne (.var .rawChunk) .null)
        (.seq (.expr (.assign (.arrow (.var .rawChunk) .chunkData) (.cast (.ptr (.int .uchar)) (.call (.fn .malloc) (.cons (.bin .mul (.var .chunkSize) (.sizeof (.int .uchar))) .nil)))))
          (.ite (.bin .eq (.arrow (.var .rawChunk) .chunkData) .null)
          (.seq (.expr (.call (.fn .free) (.cons (.var .rawChunk) .nil)))
            (.ret .null))
          .skip))
        .skip)
      (.ret (.cast (.ptr (.struct .IFF_Chunk)) (.var .rawChunk)))))

/-- rawchunk.c:48-51 -/
def IFF_copyDataToRawChunkData.code : Fun where
  params := [(.rawChunk, (.ptr (.struct .IFF_RawChunk))), (.data, (.ptr (.int .uchar)))]
  ret := .void
  body :=
    (.expr (.call (.fn .memcpy) (.cons (.arrow (.var .rawChunk) .chunkData) (.cons (.var .data) (.cons (.arrow (.var .rawChunk) .chunkSize) .nil)))))

/-- rawchunk.c:53-57 -/
def IFF_setRawChunkData.code : Fun where
  params := [(.rawChunk, (.ptr (.struct .IFF_RawChunk))), (.chunkData, (.ptr (.int .uchar))), (.chunkSize, (.int .int))]
  ret := .void
  body :=
    (.seq (.expr (.assign (.arrow (.var .rawChunk) .chunkData) (.var .chunkData)))
      (.expr (.assign (.arrow (.var .rawChunk) .chunkSize) (.var .chunkSize))))

/-- rawchunk.c:59-66 -/
def IFF_setTextData.code : Fun where
  params := [(.rawChunk, (.ptr (.struct .IFF_RawChunk))), (.text, (.ptr (.int .char)))]
  ret := .void
  body :=
    (.seq (.decl .textLength (.int .size) (some (.call (.fn .strlen) (.cons (.var .text) .nil))))
      (.seq (.decl .chunkData (.ptr (.int .uchar)) (some (.cast (.ptr (.int .uchar)) (.call (.fn .malloc) (.cons (.bin .mul (.var .textLength) (.sizeof (.int .uchar))) .nil)))))
      (.seq (.expr (.call (.fn .memcpy) (.cons (.var .chunkData) (.cons (.var .text) (.cons (.var .textLength) .nil)))))
      (.expr (.call (.fn .IFF_setRawChunkData) (.cons (.var .rawChunk) (.cons (.var .chunkData) (.cons (.var .textLength) .nil))))))))

/-- rawchunk.c:68-84 -/
def IFF_readRawChunk.code : Fun where
  params := [(.file, (.ptr .file)), (.chunk, (.ptr (.struct .IFF_Chunk))), (.chunkRegistry, (.ptr (.struct .IFF_ChunkRegistry))), (.bytesProcessed, (.ptr (.int .int)))]
  ret := (.int .int)
  body :=
    (.seq (.decl .rawChunk (.ptr (.struct .IFF_RawChunk)) (some (.cast (.ptr (.struct .IFF_RawChunk)) (.var .chunk))))
      (.ite (.bin .lt (.call (.fn .fread) (.cons (.arrow (.var .rawChunk) .chunkData) (.cons (.sizeof (.int .uchar)) (.cons (.arrow (.var .rawChunk) .chunkSize) (.cons (.var .file) .nil))))) (.arrow (.var .rawChunk) .chunkSize))
      (.seq (.expr (.call (.fn .IFF_error) (.cons (.str "Error reading raw chunk body of chunk: '") .nil)))
        (.seq (.expr (.call (.fn .IFF_errorId) (.cons (.arrow (.var .rawChunk) .chunkId) .nil)))
        (.seq (.expr (.call (.fn .IFF_error) (.cons (.str "'\n") .nil)))
        (.ret FALSE))))
      (.seq (.expr (.assign (.deref (.var .bytesProcessed)) (.bin .add (.deref (.var .bytesProcessed)) (.arrow (.var .rawChunk) .chunkSize))))
        (.ret TRUE))))

/-- rawchunk.c:86-102 -/
def IFF_writeRawChunk.code : Fun where
  params := [(.file, (.ptr .file)), (.chunk, (.ptr (.struct .IFF_Chunk))), (.chunkRegistry, (.ptr (.struct .IFF_ChunkRegistry))), (.bytesProcessed, (.ptr (.int .int)))]
  ret := (.int .int)
  body :=
    (.seq (.decl .rawChunk (.ptr (.struct .IFF_RawChunk)) (some (.cast (.ptr (.struct .IFF_RawChunk)) (.var .chunk))))
      (.ite (.bin .lt (.call (.fn .fwrite) (.cons (.arrow (.var .rawChunk) .chunkData) (.cons (.sizeof (.int .uchar)) (.cons (.arrow (.var .rawChunk) .chunkSize) (.cons (.var .file) .nil))))) (.arrow (.var .rawChunk) .chunkSize))
      (.seq (.expr (.call (.fn .IFF_error) (.cons (.str "Error writing raw chunk body of chunk '") .nil)))
        (.seq (.expr (.call (.fn .IFF_errorId) (.cons (.arrow (.var .rawChunk) .chunkId) .nil)))
        (.seq (.expr (.call (.fn .IFF_error) (.cons (.str "'\n") .nil)))
        (.ret FALSE))))
      (.seq (.expr (.assign (.deref (.var .bytesProcessed)) (.bin .add (.deref (.var .bytesProcessed)) (.arrow (.var .rawChunk) .chunkSize))))
        (.ret TRUE))))

/-- rawchunk.c:104-107 -/
def IFF_checkRawChunk.code : Fun where
  params := [(.chunk, (.ptr (.struct .IFF_Chunk))), (.chunkRegistry, (.ptr (.struct .IFF_ChunkRegistry)))]
  ret := (.int .int)
  body :=
    (.ret TRUE)

/-- rawchunk.c:109-113 -/
def IFF_freeRawChunk.code : Fun where
  params := [(.chunk, (.ptr (.struct .IFF_Chunk))), (.chunkRegistry, (.ptr (.struct .IFF_ChunkRegistry)))]
  ret := .void
  body :=
    (.seq (.decl .rawChunk (.ptr (.struct .IFF_RawChunk)) (some (.cast (.ptr (.struct .IFF_RawChunk)) (.var .chunk))))
      (.expr (.call (.fn .free) (.cons (.arrow (.var .rawChunk) .chunkData) .nil))))

/-- rawchunk.c:115-129 -/
def IFF_printText.code : Fun where
  params := [(.chunk, (.ptr (.struct .IFF_RawChunk))), (.indentLevel, (.int .uint))]
  ret := .void
  body :=
    (.seq (.decl .rawChunk (.ptr (.struct .IFF_RawChunk)) (some (.cast (.ptr (.struct .IFF_RawChunk)) (.var .chunk))))
      (.seq (.decl .i (.int .int) none)
      (.seq (.expr (.call (.fn .IFF_printIndent) (.cons (.stream .stdout) (.cons (.var .indentLevel) (.cons (.str "text = '\n") .nil)))))
      (.seq (.expr (.call (.fn .IFF_printIndent) (.cons (.stream .stdout) (.cons (.bin .add (.var .indentLevel) (.num .int 1)) (.cons (.str "") .nil)))))
      (.seq (.for (.assign (.var .i) (.num .int 0)) (.bin .lt (.var .i) (.arrow (.var .rawChunk) .chunkSize)) (.inc (.var .i))
        (.expr (.call (.fn .printf) (.cons (.str "%c") (.cons (.index (.arrow (.var .rawChunk) .chunkData) (.var .i)) .nil)))))
      (.seq (.expr (.call (.fn .printf) (.cons (.str "\n") .nil)))
      (.expr (.call (.fn .IFF_printIndent) (.cons (.stream .stdout) (.cons (.var .indentLevel) (.cons (.str "';\n") .nil)))))))))))

/-- rawchunk.c:131-158 -/
def IFF_printRaw.code : Fun where
  params := [(.rawChunk, (.ptr (.struct .IFF_RawChunk))), (.indentLevel, (.int .uint))]
  ret := .void
  body :=
    (.seq (.decl .i (.int .int) none)
      (.seq (.decl .byte (.int .uchar) none)
      (.seq (.expr (.call (.fn .IFF_printIndent) (.cons (.stream .stdout) (.cons (.var .indentLevel) (.cons (.str "bytes = \n") .nil)))))
      (.seq (.expr (.call (.fn .IFF_printIndent) (.cons (.stream .stdout) (.cons (.bin .add (.var .indentLevel) (.num .int 1)) (.cons (.str "") .nil)))))
      (.seq (.for (.assign (.var .i) (.num .int 0)) (.bin .lt (.var .i) (.arrow (.var .rawChunk) .chunkSize)) (.inc (.var .i))
        (.seq (.ite (.land (.bin .gt (.var .i) (.num .int 0)) (.bin .eq (.bin .mod (.var .i) (.num .int 10)) (.num .int 0)))
            (.seq (.expr (.call (.fn .printf) (.cons (.str "\n") .nil)))
              (.expr (.call (.fn .IFF_printIndent) (.cons (.stream .stdout) (.cons (.bin .add (.var .indentLevel) (.num .int 1)) (.cons (.str "") .nil))))))
            .skip)
          (.seq (.expr (.assign (.var .byte) (.index (.arrow (.var .rawChunk) .chunkData) (.var .i))))
          (.seq (.ite (.bin .le (.var .byte) (.num .int 15))
            (.expr (.call (.fn .printf) (.cons (.str "0") .nil)))
            .skip)
          (.expr (.call (.fn .printf) (.cons (.str "%x ") (.cons (.var .byte) .nil))))))))
      (.seq (.expr (.call (.fn .printf) (.cons (.str "\n") .nil)))
      (.expr (.call (.fn .IFF_printIndent) (.cons (.stream .stdout) (.cons (.var .indentLevel) (.cons (.str ";\n") .nil)))))))))))

/-- rawchunk.c:160-168 -/
def IFF_printRawChunk.code : Fun where
  params := [(.chunk, (.ptr (.struct .IFF_Chunk))), (.indentLevel, (.int .uint)), (.chunkRegistry, (.ptr (.struct .IFF_ChunkRegistry)))]
  ret := .void
  body :=
    (.seq (.decl .rawChunk (.ptr (.struct .IFF_RawChunk)) (some (.cast (.ptr (.struct .IFF_RawChunk)) (.var .chunk))))
      (.ite (.bin .eq (.arrow (.var .rawChunk) .chunkId) IFF_ID_TEXT)
      (.expr (.call (.fn .IFF_printText) (.cons (.var .rawChunk) (.cons (.var .indentLevel) .nil))))
      (.expr (.call (.fn .IFF_printRaw) (.cons (.var .rawChunk) (.cons (.var .indentLevel) .nil))))))

/-- rawchunk.c:170-176 -/
def IFF_compareRawChunk.code : Fun where
  params := [(.chunk1, (.ptr (.struct .IFF_Chunk))), (.chunk2, (.ptr (.struct .IFF_Chunk))), (.chunkRegistry, (.ptr (.struct .IFF_ChunkRegistry)))]
  ret := (.int .int)
  body :=
    (.seq (.decl .rawChunk1 (.ptr (.struct .IFF_RawChunk)) (some (.cast (.ptr (.struct .IFF_RawChunk)) (.var .chunk1))))
      (.seq (.decl .rawChunk2 (.ptr (.struct .IFF_RawChunk)) (some (.cast (.ptr (.struct .IFF_RawChunk)) (.var .chunk2))))
      (.ret (.bin .eq (.call (.fn .memcmp) (.cons (.arrow (.var .rawChunk1) .chunkData) (.cons (.arrow (.var .rawChunk2) .chunkData) (.cons (.arrow (.var .rawChunk1) .chunkSize) .nil)))) (.num .int 0)))))

end Iff.Src
