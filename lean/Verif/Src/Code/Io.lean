import Verif.Src.Code.Headers
/-
  Generated by tools/c2lean.py from src/libiff/io.c.
-/
namespace Iff.Src

/-- io.c:26-40 -/
def IFF_readUByte.code : Fun where
  params := [(.file, (.ptr .file)), (.value, (.ptr (.int .uchar))), (.chunkId, (.int .uint)), (.attributeName, (.ptr (.int .char)))]
  ret := (.int .int)
  body :=
    (.seq (.decl .byte (.int .int) (some (.call (.fn .fgetc) (.cons (.var .file) .nil))))
      (.ite (.bin .eq (.var .byte) .eof)
      (.seq (.expr (.call (.fn .IFF_readError) (.cons (.var .chunkId) (.cons (.var .attributeName) .nil))))
        (.ret FALSE))
      (.seq (.expr (.assign (.deref (.var .value)) (.var .byte)))
        (.ret TRUE))))

/-- io.c:42-51 -/
def IFF_writeUByte.code : Fun where
  params := [(.file, (.ptr .file)), (.value, (.int .uchar)), (.chunkId, (.int .uint)), (.attributeName, (.ptr (.int .char)))]
  ret := (.int .int)
  body :=
    (.ite (.bin .eq (.call (.fn .fputc) (.cons (.var .value) (.cons (.var .file) .nil))) .eof)
      (.seq (.expr (.call (.fn .IFF_writeError) (.cons (.var .chunkId) (.cons (.var .attributeName) .nil))))
        (.ret FALSE))
      (.ret TRUE))

/-- io.c:53-73 -/
def IFF_readUWord.code : Fun where
  params := [(.file, (.ptr .file)), (.value, (.ptr (.int .ushort))), (.chunkId, (.int .uint)), (.attributeName, (.ptr (.int .char)))]
  ret := (.int .int)
  body :=
    (.seq (.object .readUWord (.int .ushort) none)
      (.ite (.bin .eq (.call (.fn .fread) (.cons (.addr (.var .readUWord)) (.cons (.sizeof (.int .ushort)) (.cons (.num .int 1) (.cons (.var .file) .nil))))) (.num .int 1))
      (.seq (.endian
          (.expr (.assign (.deref (.var .value)) (.var .readUWord)))
          (.expr (.assign (.deref (.var .value)) (.bin .bor (.bin .shl (.bin .band (.var .readUWord) (.num .int 255)) (.num .int 8)) (.bin .shr (.bin .band (.var .readUWord) (.num .int 65280)) (.num .int 8))))))
        (.ret TRUE))
      (.seq (.expr (.call (.fn .IFF_readError) (.cons (.var .chunkId) (.cons (.var .attributeName) .nil))))
        (.ret FALSE))))

/-- io.c:75-91 -/
def IFF_writeUWord.code : Fun where
  params := [(.file, (.ptr .file)), (.value, (.int .ushort)), (.chunkId, (.int .uint)), (.attributeName, (.ptr (.int .char)))]
  ret := (.int .int)
  body :=
    (.seq (.endian
        (.object .writeUWord (.int .ushort) (some (.var .value)))
        (.object .writeUWord (.int .ushort) (some (.bin .bor (.bin .shl (.bin .band (.var .value) (.num .int 255)) (.num .int 8)) (.bin .shr (.bin .band (.var .value) (.num .int 65280)) (.num .int 8))))))
      (.ite (.bin .eq (.call (.fn .fwrite) (.cons (.addr (.var .writeUWord)) (.cons (.sizeof (.int .ushort)) (.cons (.num .int 1) (.cons (.var .file) .nil))))) (.num .int 1))
      (.ret TRUE)
      (.seq (.expr (.call (.fn .IFF_writeError) (.cons (.var .chunkId) (.cons (.var .attributeName) .nil))))
        (.ret FALSE))))

/-- io.c:93-112 -/
def IFF_readWord.code : Fun where
  params := [(.file, (.ptr .file)), (.value, (.ptr (.int .short))), (.chunkId, (.int .uint)), (.attributeName, (.ptr (.int .char)))]
  ret := (.int .int)
  body :=
    (.seq (.object .readWord (.int .short) none)
      (.ite (.bin .eq (.call (.fn .fread) (.cons (.addr (.var .readWord)) (.cons (.sizeof (.int .short)) (.cons (.num .int 1) (.cons (.var .file) .nil))))) (.num .int 1))
      (.seq (.endian
          (.expr (.assign (.deref (.var .value)) (.var .readWord)))
          (.expr (.assign (.deref (.var .value)) (.bin .bor (.bin .shl (.bin .band (.var .readWord) (.num .int 255)) (.num .int 8)) (.bin .shr (.bin .band (.var .readWord) (.num .int 65280)) (.num .int 8))))))
        (.ret TRUE))
      (.seq (.expr (.call (.fn .IFF_readError) (.cons (.var .chunkId) (.cons (.var .attributeName) .nil))))
        (.ret FALSE))))

/-- io.c:114-129 -/
def IFF_writeWord.code : Fun where
  params := [(.file, (.ptr .file)), (.value, (.int .short)), (.chunkId, (.int .uint)), (.attributeName, (.ptr (.int .char)))]
  ret := (.int .int)
  body :=
    (.seq (.endian
        (.object .writeWord (.int .short) (some (.var .value)))
        (.object .writeWord (.int .short) (some (.bin .bor (.bin .shl (.bin .band (.var .value) (.num .int 255)) (.num .int 8)) (.bin .shr (.bin .band (.var .value) (.num .int 65280)) (.num .int 8))))))
      (.ite (.bin .eq (.call (.fn .fwrite) (.cons (.addr (.var .writeWord)) (.cons (.sizeof (.int .short)) (.cons (.num .int 1) (.cons (.var .file) .nil))))) (.num .int 1))
      (.ret TRUE)
      (.seq (.expr (.call (.fn .IFF_writeError) (.cons (.var .chunkId) (.cons (.var .attributeName) .nil))))
        (.ret FALSE))))

/-- io.c:131-150 -/
def IFF_readULong.code : Fun where
  params := [(.file, (.ptr .file)), (.value, (.ptr (.int .uint))), (.chunkId, (.int .uint)), (.attributeName, (.ptr (.int .char)))]
  ret := (.int .int)
  body :=
    (.seq (.object .readValue (.int .uint) none)
      (.ite (.bin .eq (.call (.fn .fread) (.cons (.addr (.var .readValue)) (.cons (.sizeof (.int .uint)) (.cons (.num .int 1) (.cons (.var .file) .nil))))) (.num .int 1))
      (.seq (.endian
          (.expr (.assign (.deref (.var .value)) (.var .readValue)))
          (.expr (.assign (.deref (.var .value)) (.bin .bor (.bin .bor (.bin .bor (.bin .shl (.bin .band (.var .readValue) (.num .int 255)) (.num .int 24)) (.bin .shl (.bin .band (.var .readValue) (.num .int 65280)) (.num .int 8))) (.bin .shr (.bin .band (.var .readValue) (.num .int 16711680)) (.num .int 8))) (.bin .shr (.bin .band (.var .readValue) (.num .uint 4278190080)) (.num .int 24))))))
        (.ret TRUE))
      (.seq (.expr (.call (.fn .IFF_readError) (.cons (.var .chunkId) (.cons (.var .attributeName) .nil))))
        (.ret FALSE))))

/-- io.c:152-168 -/
def IFF_writeULong.code : Fun where
  params := [(.file, (.ptr .file)), (.value, (.int .uint)), (.chunkId, (.int .uint)), (.attributeName, (.ptr (.int .char)))]
  ret := (.int .int)
  body :=
    (.seq (.endian
        (.object .writeValue (.int .uint) (some (.var .value)))
        (.object .writeValue (.int .uint) (some (.bin .bor (.bin .bor (.bin .bor (.bin .shl (.bin .band (.var .value) (.num .int 255)) (.num .int 24)) (.bin .shl (.bin .band (.var .value) (.num .int 65280)) (.num .int 8))) (.bin .shr (.bin .band (.var .value) (.num .int 16711680)) (.num .int 8))) (.bin .shr (.bin .band (.var .value) (.num .uint 4278190080)) (.num .int 24))))))
      (.ite (.bin .eq (.call (.fn .fwrite) (.cons (.addr (.var .writeValue)) (.cons (.sizeof (.int .uint)) (.cons (.num .int 1) (.cons (.var .file) .nil))))) (.num .int 1))
      (.ret TRUE)
      (.seq (.expr (.call (.fn .IFF_writeError) (.cons (.var .chunkId) (.cons (.var .attributeName) .nil))))
        (.ret FALSE))))

/-- io.c:170-189 -/
def IFF_readLong.code : Fun where
  params := [(.file, (.ptr .file)), (.value, (.ptr (.int .int))), (.chunkId, (.int .uint)), (.attributeName, (.ptr (.int .char)))]
  ret := (.int .int)
  body :=
    (.seq (.object .readValue (.int .int) none)
      (.ite (.bin .eq (.call (.fn .fread) (.cons (.addr (.var .readValue)) (.cons (.sizeof (.int .int)) (.cons (.num .int 1) (.cons (.var .file) .nil))))) (.num .int 1))
      (.seq (.endian
          (.expr (.assign (.deref (.var .value)) (.var .readValue)))
          (.expr (.assign (.deref (.var .value)) (.bin .bor (.bin .bor (.bin .bor (.bin .shl (.bin .band (.var .readValue) (.num .int 255)) (.num .int 24)) (.bin .shl (.bin .band (.var .readValue) (.num .int 65280)) (.num .int 8))) (.bin .shr (.bin .band (.var .readValue) (.num .int 16711680)) (.num .int 8))) (.bin .shr (.bin .band (.var .readValue) (.num .uint 4278190080)) (.num .int 24))))))
        (.ret TRUE))
      (.seq (.expr (.call (.fn .IFF_readError) (.cons (.var .chunkId) (.cons (.var .attributeName) .nil))))
        (.ret FALSE))))

/-- io.c:191-207 -/
def IFF_writeLong.code : Fun where
  params := [(.file, (.ptr .file)), (.value, (.int .int)), (.chunkId, (.int .uint)), (.attributeName, (.ptr (.int .char)))]
  ret := (.int .int)
  body :=
    (.seq (.endian
        (.object .writeValue (.int .int) (some (.var .value)))
        (.object .writeValue (.int .int) (some (.bin .bor (.bin .bor (.bin .bor (.bin .shl (.bin .band (.var .value) (.num .int 255)) (.num .int 24)) (.bin .shl (.bin .band (.var .value) (.num .int 65280)) (.num .int 8))) (.bin .shr (.bin .band (.var .value) (.num .int 16711680)) (.num .int 8))) (.bin .shr (.bin .band (.var .value) (.num .uint 4278190080)) (.num .int 24))))))
      (.ite (.bin .eq (.call (.fn .fwrite) (.cons (.addr (.var .writeValue)) (.cons (.sizeof (.int .int)) (.cons (.num .int 1) (.cons (.var .file) .nil))))) (.num .int 1))
      (.ret TRUE)
      (.seq (.expr (.call (.fn .IFF_writeError) (.cons (.var .chunkId) (.cons (.var .attributeName) .nil))))
        (.ret FALSE))))

/-- io.c:209-227 -/
def IFF_skipUnknownBytes.code : Fun where
  params := [(.file, (.ptr .file)), (.chunkId, (.int .uint)), (.chunkSize, (.int .int)), (.bytesProcessed, (.int .int))]
  ret := (.int .int)
  body :=
    (.ite (.bin .lt (.var .bytesProcessed) (.var .chunkSize))
      (.seq (.decl .bytesToSkip (.int .long) (some (.bin .sub (.var .chunkSize) (.var .bytesProcessed))))
        (.ite (.bin .eq (.call (.fn .fseek) (.cons (.var .file) (.cons (.var .bytesToSkip) (.cons .seekCur .nil)))) (.num .int 0))
        (.seq (.expr (.call (.fn .IFF_error) (.cons (.str "Cannot skip: %d bytes in data chunk: '") (.cons (.var .bytesToSkip) .nil))))
          (.seq (.expr (.call (.fn .IFF_errorId) (.cons (.var .chunkId) .nil)))
          (.seq (.expr (.call (.fn .IFF_error) (.cons (.str "'\n") .nil)))
          (.ret TRUE))))
        (.ret FALSE)))
      (.ret TRUE))

/-- io.c:229-249 -/
def IFF_writeZeroFillerBytes.code : Fun where
  params := [(.file, (.ptr .file)), (.chunkId, (.int .uint)), (.chunkSize, (.int .int)), (.bytesProcessed, (.int .int))]
  ret := (.int .int)
  body :=
    (.ite (.bin .lt (.var .bytesProcessed) (.var .chunkSize))
      (.seq (.decl .bytesToSkip (.int .size) (some (.bin .sub (.var .chunkSize) (.var .bytesProcessed))))
        (.seq (.decl .emptyData (.ptr (.int .uchar)) (some (.cast (.ptr (.int .uchar)) (.call (.fn .calloc) (.cons (.var .bytesToSkip) (.cons (.sizeof (.int .uchar)) .nil))))))
        (.seq (.decl .status (.int .int) (some (.bin .eq (.call (.fn .fwrite) (.cons (.var .emptyData) (.cons (.sizeof (.int .uchar)) (.cons (.var .bytesToSkip) (.cons (.var .file) .nil))))) (.var .bytesToSkip))))
        (.seq (.ite (.not (.var .status))
          (.seq (.expr (.call (.fn .IFF_error) (.cons (.str "Cannot write: %u zero bytes in data chunk: '") (.cons (.var .bytesToSkip) .nil))))
            (.seq (.expr (.call (.fn .IFF_errorId) (.cons (.var .chunkId) .nil)))
            (.expr (.call (.fn .IFF_error) (.cons (.str "'\n") .nil)))))
          .skip)
        (.seq (.expr (.call (.fn .free) (.cons (.var .emptyData) .nil)))
        (.ret (.var .status)))))))
      (.ret TRUE))

/-- io.c:251-269 -/
def IFF_readPaddingByte.code : Fun where
  params := [(.file, (.ptr .file)), (.chunkSize, (.int .int)), (.chunkId, (.int .uint))]
  ret := (.int .int)
  body :=
    (.seq (.ite (.bin .ne (.bin .mod (.var .chunkSize) (.num .int 2)) (.num .int 0))
        (.seq (.decl .byte (.int .int) (some (.call (.fn .fgetc) (.cons (.var .file) .nil))))
          (.ite (.bin .eq (.var .byte) .eof)
          (.seq (.expr (.call (.fn .IFF_error) (.cons (.str "Unexpected end of file, while reading padding byte of '") .nil)))
            (.seq (.expr (.call (.fn .IFF_errorId) (.cons (.var .chunkId) .nil)))
            (.seq (.expr (.call (.fn .IFF_error) (.cons (.str "'\n") .nil)))
            (.ret FALSE))))
          (.ite (.bin .ne (.var .byte) (.num .int 0))
            (.expr (.call (.fn .IFF_error) (.cons (.str "WARNING: Padding byte is non-zero!\n") .nil)))
            .skip)))
        .skip)
      (.ret TRUE))

/-- io.c:271-287 -/
def IFF_writePaddingByte.code : Fun where
  params := [(.file, (.ptr .file)), (.chunkSize, (.int .int)), (.chunkId, (.int .uint))]
  ret := (.int .int)
  body :=
    (.seq (.ite (.bin .ne (.bin .mod (.var .chunkSize) (.num .int 2)) (.num .int 0))
        (.ite (.bin .eq (.call (.fn .fputc) (.cons (.num .int 0) (.cons (.var .file) .nil))) .eof)
          (.seq (.expr (.call (.fn .IFF_error) (.cons (.str "Cannot write padding byte of '") .nil)))
            (.seq (.expr (.call (.fn .IFF_errorId) (.cons (.var .chunkId) .nil)))
            (.seq (.expr (.call (.fn .IFF_error) (.cons (.str "'\n") .nil)))
            (.ret FALSE))))
          (.ret TRUE))
        .skip)
      (.ret TRUE))

end Iff.Src
