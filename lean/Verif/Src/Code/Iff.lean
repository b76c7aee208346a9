import Verif.Src.Code.Headers
/-
  Generated by tools/c2lean.py from src/libiff/iff.c.
-/
namespace Iff.Src

/-- iff.c:32-38 -/
def selectChunkRegistry.code : Fun where
  params := [(.chunkRegistry, (.ptr (.struct .IFF_ChunkRegistry)))]
  ret := (.ptr (.struct .IFF_ChunkRegistry))
  body :=
    (.ite (.bin .eq (.var .chunkRegistry) .null)
      (.ret (.addr (.glob .IFF_defaultChunkRegistry)))
      (.ret (.var .chunkRegistry)))

/-- iff.c:40-61 -/
def IFF_readFd.code : Fun where
  params := [(.file, (.ptr .file)), (.chunkRegistry, (.ptr (.struct .IFF_ChunkRegistry)))]
  ret := (.ptr (.struct .IFF_Chunk))
  body :=
    (.seq (.decl .chunk (.ptr (.struct .IFF_Chunk)) none)
      (.seq (.decl .byte (.int .int) none)
      (.seq (.expr (.assign (.var .chunk) (.call (.fn .IFF_readChunk) (.cons (.var .file) (.cons (.num .int 0) (.cons (.call (.fn .selectChunkRegistry) (.cons (.var .chunkRegistry) .nil)) .nil))))))
      (.seq (.ite (.bin .eq (.var .chunk) .null)
        (.seq (.expr (.call (.fn .IFF_error) (.cons (.str "ERROR: cannot open main chunk!\n") .nil)))
          (.ret .null))
        .skip)
      (.seq (.ite (.bin .ne (.assign (.var .byte) (.call (.fn .fgetc) (.cons (.var .file) .nil))) .eof)
        (.expr (.call (.fn .IFF_error) (.cons (.str "WARNING: Trailing IFF contents found: %d!\n") (.cons (.var .byte) .nil))))
        .skip)
      (.ret (.var .chunk)))))))

/-- iff.c:63-83 -/
def IFF_readFile.code : Fun where
  params := [(.filename, (.ptr (.int .char))), (.chunkRegistry, (.ptr (.struct .IFF_ChunkRegistry)))]
  ret := (.ptr (.struct .IFF_Chunk))
  body :=
    (.seq (.decl .chunk (.ptr (.struct .IFF_Chunk)) none)
      (.seq (.decl .file (.ptr .file) (some (.call (.fn .fopen) (.cons (.var .filename) (.cons (.str "rb") .nil)))))
      (.seq (.ite (.bin .eq (.var .file) .null)
        (.seq (.expr (.call (.fn .IFF_error) (.cons (.str "ERROR: cannot open file: %s\n") (.cons (.var .filename) .nil))))
          (.ret .null))
        .skip)
      (.seq (.expr (.assign (.var .chunk) (.call (.fn .IFF_readFd) (.cons (.var .file) (.cons (.var .chunkRegistry) .nil)))))
      (.seq (.expr (.call (.fn .fclose) (.cons (.var .file) .nil)))
      (.ret (.var .chunk)))))))

/-- iff.c:85-91 -/
def IFF_read.code : Fun where
  params := [(.filename, (.ptr (.int .char))), (.chunkRegistry, (.ptr (.struct .IFF_ChunkRegistry)))]
  ret := (.ptr (.struct .IFF_Chunk))
  body :=
    (.ite (.bin .eq (.var .filename) .null)
      (.ret (.call (.fn .IFF_readFd) (.cons (.stream .stdin) (.cons (.var .chunkRegistry) .nil))))
      (.ret (.call (.fn .IFF_readFile) (.cons (.var .filename) (.cons (.var .chunkRegistry) .nil)))))

/-- iff.c:93-96 -/
def IFF_writeFd.code : Fun where
  params := [(.file, (.ptr .file)), (.chunk, (.ptr (.struct .IFF_Chunk))), (.chunkRegistry, (.ptr (.struct .IFF_ChunkRegistry)))]
  ret := (.int .int)
  body :=
    (.ret (.call (.fn .IFF_writeChunk) (.cons (.var .file) (.cons (.var .chunk) (.cons (.num .int 0) (.cons (.call (.fn .selectChunkRegistry) (.cons (.var .chunkRegistry) .nil)) .nil))))))

/-- iff.c:98-112 -/
def IFF_writeFile.code : Fun where
  params := [(.filename, (.ptr (.int .char))), (.chunk, (.ptr (.struct .IFF_Chunk))), (.chunkRegistry, (.ptr (.struct .IFF_ChunkRegistry)))]
  ret := (.int .int)
  body :=
    (.seq (.decl .status (.int .int) none)
      (.seq (.decl .file (.ptr .file) (some (.call (.fn .fopen) (.cons (.var .filename) (.cons (.str "wb") .nil)))))
      (.seq (.ite (.bin .eq (.var .file) .null)
        (.seq (.expr (.call (.fn .IFF_error) (.cons (.str "ERROR: cannot open file: %s\n") (.cons (.var .filename) .nil))))
          (.ret FALSE))
        .skip)
      (.seq (.expr (.assign (.var .status) (.call (.fn .IFF_writeFd) (.cons (.var .file) (.cons (.var .chunk) (.cons (.var .chunkRegistry) .nil))))))
      (.seq (.expr (.call (.fn .fclose) (.cons (.var .file) .nil)))
      (.ret (.var .status)))))))

/-- iff.c:114-120 -/
def IFF_write.code : Fun where
  params := [(.filename, (.ptr (.int .char))), (.chunk, (.ptr (.struct .IFF_Chunk))), (.chunkRegistry, (.ptr (.struct .IFF_ChunkRegistry)))]
  ret := (.int .int)
  body :=
    (.ite (.bin .eq (.var .filename) .null)
      (.ret (.call (.fn .IFF_writeFd) (.cons (.stream .stdout) (.cons (.var .chunk) (.cons (.var .chunkRegistry) .nil)))))
      (.ret (.call (.fn .IFF_writeFile) (.cons (.var .filename) (.cons (.var .chunk) (.cons (.var .chunkRegistry) .nil))))))

/-- iff.c:122-125 -/
def IFF_free.code : Fun where
  params := [(.chunk, (.ptr (.struct .IFF_Chunk))), (.chunkRegistry, (.ptr (.struct .IFF_ChunkRegistry)))]
  ret := .void
  body :=
    (.expr (.call (.fn .IFF_freeChunk) (.cons (.var .chunk) (.cons (.num .int 0) (.cons (.call (.fn .selectChunkRegistry) (.cons (.var .chunkRegistry) .nil)) .nil)))))

/-- iff.c:127-140 -/
def IFF_check.code : Fun where
  params := [(.chunk, (.ptr (.struct .IFF_Chunk))), (.chunkRegistry, (.ptr (.struct .IFF_ChunkRegistry)))]
  ret := (.int .int)
  body :=
    (.ite (.land (.land (.bin .ne (.arrow (.var .chunk) .chunkId) IFF_ID_FORM) (.bin .ne (.arrow (.var .chunk) .chunkId) IFF_ID_CAT)) (.bin .ne (.arrow (.var .chunk) .chunkId) IFF_ID_LIST))
      (.seq (.expr (.call (.fn .IFF_error) (.cons (.str "Not a valid IFF-85 file: First bytes should start with either: 'FORM', 'CAT ' or 'LIST'\n") .nil)))
        (.ret FALSE))
      (.ret (.call (.fn .IFF_checkChunk) (.cons (.var .chunk) (.cons (.num .int 0) (.cons (.call (.fn .selectChunkRegistry) (.cons (.var .chunkRegistry) .nil)) .nil))))))

/-- iff.c:142-145 -/
def IFF_print.code : Fun where
  params := [(.chunk, (.ptr (.struct .IFF_Chunk))), (.indentLevel, (.int .uint)), (.chunkRegistry, (.ptr (.struct .IFF_ChunkRegistry)))]
  ret := .void
  body :=
    (.expr (.call (.fn .IFF_printChunk) (.cons (.var .chunk) (.cons (.var .indentLevel) (.cons (.num .int 0) (.cons (.call (.fn .selectChunkRegistry) (.cons (.var .chunkRegistry) .nil)) .nil))))))

/-- iff.c:147-150 -/
def IFF_compare.code : Fun where
  params := [(.chunk1, (.ptr (.struct .IFF_Chunk))), (.chunk2, (.ptr (.struct .IFF_Chunk))), (.chunkRegistry, (.ptr (.struct .IFF_ChunkRegistry)))]
  ret := (.int .int)
  body :=
    (.ret (.call (.fn .IFF_compareChunk) (.cons (.var .chunk1) (.cons (.var .chunk2) (.cons (.num .int 0) (.cons (.call (.fn .selectChunkRegistry) (.cons (.var .chunkRegistry) .nil)) .nil))))))

end Iff.Src
