import Verif.Src.Code.Headers
/-
  Generated by tools/c2lean.py from src/libiff/field.c.
-/
namespace Iff.Src

/-- field.c:26-29 -/
def IFF_deriveSuccess.code : Fun where
  params := [(.status, (.int .uint))]
  ret := (.int .int)
  body :=
    (.ret (.bin .ne (.var .status) IFF_FIELD_FAILURE))

/-- field.c:31-34 -/
def fieldDoesNotFitInChunk.code : Fun where
  params := [(.fieldSize, (.int .size)), (.chunkSize, (.int .int)), (.bytesProcessed, (.int .int))]
  ret := (.int .int)
  body :=
    (.ret (.bin .gt (.var .bytesProcessed) (.bin .sub (.var .chunkSize) (.var .fieldSize))))

/-- field.c:36-39 -/
def increaseBytesProcessed.code : Fun where
  params := [(.bytesProcessed, (.ptr (.int .int))), (.fieldSize, (.int .size))]
  ret := .void
  body :=
    (.expr (.assign (.deref (.var .bytesProcessed)) (.bin .add (.deref (.var .bytesProcessed)) (.var .fieldSize))))

/-- field.c:41-54 -/
def IFF_readUByteField.code : Fun where
  params := [(.file, (.ptr .file)), (.value, (.ptr (.int .uchar))), (.chunk, (.ptr (.struct .IFF_Chunk))), (.attributeName, (.ptr (.int .char))), (.bytesProcessed, (.ptr (.int .int)))]
  ret := (.int .uint)
  body :=
    (.seq (.decl .fieldSize (.int .size) (some (.sizeof (.int .uchar))))
      (.ite (.call (.fn .fieldDoesNotFitInChunk) (.cons (.var .fieldSize) (.cons (.arrow (.var .chunk) .chunkSize) (.cons (.deref (.var .bytesProcessed)) .nil))))
      (.ret IFF_FIELD_LAST)
      (.ite (.call (.fn .IFF_readUByte) (.cons (.var .file) (.cons (.var .value) (.cons (.arrow (.var .chunk) .chunkId) (.cons (.var .attributeName) .nil)))))
        (.seq (.expr (.call (.fn .increaseBytesProcessed) (.cons (.var .bytesProcessed) (.cons (.var .fieldSize) .nil))))
          (.ret IFF_FIELD_MORE))
        (.ret IFF_FIELD_FAILURE))))

/-- field.c:56-69 -/
def IFF_writeUByteField.code : Fun where
  params := [(.file, (.ptr .file)), (.value, (.int .uchar)), (.chunk, (.ptr (.struct .IFF_Chunk))), (.attributeName, (.ptr (.int .char))), (.bytesProcessed, (.ptr (.int .int)))]
  ret := (.int .uint)
  body :=
    (.seq (.decl .fieldSize (.int .size) (some (.sizeof (.int .uchar))))
      (.ite (.call (.fn .fieldDoesNotFitInChunk) (.cons (.var .fieldSize) (.cons (.arrow (.var .chunk) .chunkSize) (.cons (.deref (.var .bytesProcessed)) .nil))))
      (.ret IFF_FIELD_LAST)
      (.ite (.call (.fn .IFF_writeUByte) (.cons (.var .file) (.cons (.var .value) (.cons (.arrow (.var .chunk) .chunkId) (.cons (.var .attributeName) .nil)))))
        (.seq (.expr (.call (.fn .increaseBytesProcessed) (.cons (.var .bytesProcessed) (.cons (.var .fieldSize) .nil))))
          (.ret IFF_FIELD_MORE))
        (.ret IFF_FIELD_FAILURE))))

/-- field.c:71-84 -/
def IFF_readUWordField.code : Fun where
  params := [(.file, (.ptr .file)), (.value, (.ptr (.int .ushort))), (.chunk, (.ptr (.struct .IFF_Chunk))), (.attributeName, (.ptr (.int .char))), (.bytesProcessed, (.ptr (.int .int)))]
  ret := (.int .uint)
  body :=
    (.seq (.decl .fieldSize (.int .size) (some (.sizeof (.int .ushort))))
      (.ite (.call (.fn .fieldDoesNotFitInChunk) (.cons (.var .fieldSize) (.cons (.arrow (.var .chunk) .chunkSize) (.cons (.deref (.var .bytesProcessed)) .nil))))
      (.ret IFF_FIELD_LAST)
      (.ite (.call (.fn .IFF_readUWord) (.cons (.var .file) (.cons (.var .value) (.cons (.arrow (.var .chunk) .chunkId) (.cons (.var .attributeName) .nil)))))
        (.seq (.expr (.call (.fn .increaseBytesProcessed) (.cons (.var .bytesProcessed) (.cons (.var .fieldSize) .nil))))
          (.ret IFF_FIELD_MORE))
        (.ret IFF_FIELD_FAILURE))))

/-- field.c:86-99 -/
def IFF_writeUWordField.code : Fun where
  params := [(.file, (.ptr .file)), (.value, (.int .ushort)), (.chunk, (.ptr (.struct .IFF_Chunk))), (.attributeName, (.ptr (.int .char))), (.bytesProcessed, (.ptr (.int .int)))]
  ret := (.int .uint)
  body :=
    (.seq (.decl .fieldSize (.int .size) (some (.sizeof (.int .ushort))))
      (.ite (.call (.fn .fieldDoesNotFitInChunk) (.cons (.var .fieldSize) (.cons (.arrow (.var .chunk) .chunkSize) (.cons (.deref (.var .bytesProcessed)) .nil))))
      (.ret IFF_FIELD_LAST)
      (.ite (.call (.fn .IFF_writeUWord) (.cons (.var .file) (.cons (.var .value) (.cons (.arrow (.var .chunk) .chunkId) (.cons (.var .attributeName) .nil)))))
        (.seq (.expr (.call (.fn .increaseBytesProcessed) (.cons (.var .bytesProcessed) (.cons (.var .fieldSize) .nil))))
          (.ret IFF_FIELD_MORE))
        (.ret IFF_FIELD_FAILURE))))

/-- field.c:101-114 -/
def IFF_readWordField.code : Fun where
  params := [(.file, (.ptr .file)), (.value, (.ptr (.int .short))), (.chunk, (.ptr (.struct .IFF_Chunk))), (.attributeName, (.ptr (.int .char))), (.bytesProcessed, (.ptr (.int .int)))]
  ret := (.int .uint)
  body :=
    (.seq (.decl .fieldSize (.int .size) (some (.sizeof (.int .short))))
      (.ite (.call (.fn .fieldDoesNotFitInChunk) (.cons (.var .fieldSize) (.cons (.arrow (.var .chunk) .chunkSize) (.cons (.deref (.var .bytesProcessed)) .nil))))
      (.ret IFF_FIELD_LAST)
      (.ite (.call (.fn .IFF_readWord) (.cons (.var .file) (.cons (.var .value) (.cons (.arrow (.var .chunk) .chunkId) (.cons (.var .attributeName) .nil)))))
        (.seq (.expr (.call (.fn .increaseBytesProcessed) (.cons (.var .bytesProcessed) (.cons (.var .fieldSize) .nil))))
          (.ret IFF_FIELD_MORE))
        (.ret IFF_FIELD_FAILURE))))

/-- field.c:116-129 -/
def IFF_writeWordField.code : Fun where
  params := [(.file, (.ptr .file)), (.value, (.int .short)), (.chunk, (.ptr (.struct .IFF_Chunk))), (.attributeName, (.ptr (.int .char))), (.bytesProcessed, (.ptr (.int .int)))]
  ret := (.int .uint)
  body :=
    (.seq (.decl .fieldSize (.int .size) (some (.sizeof (.int .short))))
      (.ite (.call (.fn .fieldDoesNotFitInChunk) (.cons (.var .fieldSize) (.cons (.arrow (.var .chunk) .chunkSize) (.cons (.deref (.var .bytesProcessed)) .nil))))
      (.ret IFF_FIELD_LAST)
      (.ite (.call (.fn .IFF_writeWord) (.cons (.var .file) (.cons (.var .value) (.cons (.arrow (.var .chunk) .chunkId) (.cons (.var .attributeName) .nil)))))
        (.seq (.expr (.call (.fn .increaseBytesProcessed) (.cons (.var .bytesProcessed) (.cons (.var .fieldSize) .nil))))
          (.ret IFF_FIELD_MORE))
        (.ret IFF_FIELD_FAILURE))))

/-- field.c:131-144 -/
def IFF_readULongField.code : Fun where
  params := [(.file, (.ptr .file)), (.value, (.ptr (.int .uint))), (.chunk, (.ptr (.struct .IFF_Chunk))), (.attributeName, (.ptr (.int .char))), (.bytesProcessed, (.ptr (.int .int)))]
  ret := (.int .uint)
  body :=
    (.seq (.decl .fieldSize (.int .size) (some (.sizeof (.int .uint))))
      (.ite (.call (.fn .fieldDoesNotFitInChunk) (.cons (.var .fieldSize) (.cons (.arrow (.var .chunk) .chunkSize) (.cons (.deref (.var .bytesProcessed)) .nil))))
      (.ret IFF_FIELD_LAST)
      (.ite (.call (.fn .IFF_readULong) (.cons (.var .file) (.cons (.var .value) (.cons (.arrow (.var .chunk) .chunkId) (.cons (.var .attributeName) .nil)))))
        (.seq (.expr (.call (.fn .increaseBytesProcessed) (.cons (.var .bytesProcessed) (.cons (.var .fieldSize) .nil))))
          (.ret IFF_FIELD_MORE))
        (.ret IFF_FIELD_FAILURE))))

/-- field.c:146-159 -/
def IFF_writeULongField.code : Fun where
  params := [(.file, (.ptr .file)), (.value, (.int .uint)), (.chunk, (.ptr (.struct .IFF_Chunk))), (.attributeName, (.ptr (.int .char))), (.bytesProcessed, (.ptr (.int .int)))]
  ret := (.int .uint)
  body :=
    (.seq (.decl .fieldSize (.int .size) (some (.sizeof (.int .uint))))
      (.ite (.call (.fn .fieldDoesNotFitInChunk) (.cons (.var .fieldSize) (.cons (.arrow (.var .chunk) .chunkSize) (.cons (.deref (.var .bytesProcessed)) .nil))))
      (.ret IFF_FIELD_LAST)
      (.ite (.call (.fn .IFF_writeULong) (.cons (.var .file) (.cons (.var .value) (.cons (.arrow (.var .chunk) .chunkId) (.cons (.var .attributeName) .nil)))))
        (.seq (.expr (.call (.fn .increaseBytesProcessed) (.cons (.var .bytesProcessed) (.cons (.var .fieldSize) .nil))))
          (.ret IFF_FIELD_MORE))
        (.ret IFF_FIELD_FAILURE))))

/-- field.c:161-174 -/
def IFF_readLongField.code : Fun where
  params := [(.file, (.ptr .file)), (.value, (.ptr (.int .int))), (.chunk, (.ptr (.struct .IFF_Chunk))), (.attributeName, (.ptr (.int .char))), (.bytesProcessed, (.ptr (.int .int)))]
  ret := (.int .uint)
  body :=
    (.seq (.decl .fieldSize (.int .size) (some (.sizeof (.int .int))))
      (.ite (.call (.fn .fieldDoesNotFitInChunk) (.cons (.var .fieldSize) (.cons (.arrow (.var .chunk) .chunkSize) (.cons (.deref (.var .bytesProcessed)) .nil))))
      (.ret IFF_FIELD_LAST)
      (.ite (.call (.fn .IFF_readLong) (.cons (.var .file) (.cons (.var .value) (.cons (.arrow (.var .chunk) .chunkId) (.cons (.var .attributeName) .nil)))))
        (.seq (.expr (.call (.fn .increaseBytesProcessed) (.cons (.var .bytesProcessed) (.cons (.var .fieldSize) .nil))))
          (.ret IFF_FIELD_MORE))
        (.ret IFF_FIELD_FAILURE))))

/-- field.c:176-189 -/
def IFF_writeLongField.code : Fun where
  params := [(.file, (.ptr .file)), (.value, (.int .int)), (.chunk, (.ptr (.struct .IFF_Chunk))), (.attributeName, (.ptr (.int .char))), (.bytesProcessed, (.ptr (.int .int)))]
  ret := (.int .uint)
  body :=
    (.seq (.decl .fieldSize (.int .size) (some (.sizeof (.int .int))))
      (.ite (.call (.fn .fieldDoesNotFitInChunk) (.cons (.var .fieldSize) (.cons (.arrow (.var .chunk) .chunkSize) (.cons (.deref (.var .bytesProcessed)) .nil))))
      (.ret IFF_FIELD_LAST)
      (.ite (.call (.fn .IFF_writeLong) (.cons (.var .file) (.cons (.var .value) (.cons (.arrow (.var .chunk) .chunkId) (.cons (.var .attributeName) .nil)))))
        (.seq (.expr (.call (.fn .increaseBytesProcessed) (.cons (.var .bytesProcessed) (.cons (.var .fieldSize) .nil))))
          (.ret IFF_FIELD_MORE))
        (.ret IFF_FIELD_FAILURE))))

/-- field.c:191-204 -/
def IFF_readIdField.code : Fun where
  params := [(.file, (.ptr .file)), (.value, (.ptr (.int .uint))), (.chunk, (.ptr (.struct .IFF_Chunk))), (.attributeName, (.ptr (.int .char))), (.bytesProcessed, (.ptr (.int .int)))]
  ret := (.int .uint)
  body :=
    (.seq (.decl .fieldSize (.int .size) (some IFF_ID_SIZE))
      (.ite (.call (.fn .fieldDoesNotFitInChunk) (.cons (.var .fieldSize) (.cons (.arrow (.var .chunk) .chunkSize) (.cons (.deref (.var .bytesProcessed)) .nil))))
      (.ret IFF_FIELD_LAST)
      (.ite (.call (.fn .IFF_readId) (.cons (.var .file) (.cons (.var .value) (.cons (.arrow (.var .chunk) .chunkId) (.cons (.var .attributeName) .nil)))))
        (.seq (.expr (.call (.fn .increaseBytesProcessed) (.cons (.var .bytesProcessed) (.cons (.var .fieldSize) .nil))))
          (.ret IFF_FIELD_MORE))
        (.ret IFF_FIELD_FAILURE))))

/-- field.c:206-219 -/
def IFF_writeIdField.code : Fun where
  params := [(.file, (.ptr .file)), (.value, (.int .uint)), (.chunk, (.ptr (.struct .IFF_Chunk))), (.attributeName, (.ptr (.int .char))), (.bytesProcessed, (.ptr (.int .int)))]
  ret := (.int .uint)
  body :=
    (.seq (.decl .fieldSize (.int .size) (some IFF_ID_SIZE))
      (.ite (.call (.fn .fieldDoesNotFitInChunk) (.cons (.var .fieldSize) (.cons (.arrow (.var .chunk) .chunkSize) (.cons (.deref (.var .bytesProcessed)) .nil))))
      (.ret IFF_FIELD_LAST)
      (.ite (.call (.fn .IFF_writeId) (.cons (.var .file) (.cons (.var .value) (.cons (.arrow (.var .chunk) .chunkId) (.cons (.var .attributeName) .nil)))))
        (.seq (.expr (.call (.fn .increaseBytesProcessed) (.cons (.var .bytesProcessed) (.cons (.var .fieldSize) .nil))))
          (.ret IFF_FIELD_MORE))
        (.ret IFF_FIELD_FAILURE))))

end Iff.Src
