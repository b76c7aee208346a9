import Verif.Src.Code.Headers
/-
  Generated by tools/c2lean.py from tests/formdata.c.
-/
namespace Iff.Src

/-- formdata.c:28 -/
def formdata_ID_TEST : Expr := (IFF_MAKEID (.num .int 84) (.num .int 69) (.num .int 83) (.num .int 84))

/-- formdata.c:29 -/
def formdata_ID_HELO : Expr := (IFF_MAKEID (.num .int 72) (.num .int 69) (.num .int 76) (.num .int 79))

/-- formdata.c:30 -/
def formdata_ID_BYE : Expr := (IFF_MAKEID (.num .int 66) (.num .int 89) (.num .int 69) (.num .int 32))

/-- formdata.c:32 -/
def formdata_HELO_BYTES_SIZE : Expr := (.num .int 4)

/-- formdata.c:33 -/
def formdata_BYE_BYTES_SIZE : Expr := (.num .int 4)

/-- formdata.c:35-35 -/
def formdata_heloData.init : List Init :=
  [.expr (.num .int 97),
   .expr (.num .int 98),
   .expr (.num .int 99),
   .expr (.num .int 100)]

/-- formdata.c:36-36 -/
def formdata_byeData.init : List Init :=
  [.expr (.num .int 69),
   .expr (.num .int 70),
   .expr (.num .int 71),
   .expr (.num .int 72)]

/-- formdata.c:38-44 -/
def formdata_createTestDataChunk.code : Fun where
  params := [(.chunkId, (.int .uint)), (.chunkSize, (.int .int)), (.data, (.ptr (.int .uchar)))]
  ret := (.ptr (.struct .IFF_Chunk))
  body :=
    (.seq (.decl .rawChunk (.ptr (.struct .IFF_RawChunk)) (some (.cast (.ptr (.struct .IFF_RawChunk)) (.call (.fn .IFF_createRawChunk) (.cons (.var .chunkId) (.cons (.var .chunkSize) .nil))))))
      (.seq (.expr (.call (.fn .IFF_copyDataToRawChunkData) (.cons (.var .rawChunk) (.cons (.var .data) .nil))))
      (.ret (.cast (.ptr (.struct .IFF_Chunk)) (.var .rawChunk)))))

/-- formdata.c:46-49 -/
def formdata_createHelloChunk.code : Fun where
  params := []
  ret := (.ptr (.struct .IFF_Chunk))
  body :=
    (.ret (.call (.fn .formdata_createTestDataChunk) (.cons formdata_ID_HELO (.cons formdata_HELO_BYTES_SIZE (.cons (.glob .formdata_heloData) .nil)))))

/-- formdata.c:51-54 -/
def formdata_createByeChunk.code : Fun where
  params := []
  ret := (.ptr (.struct .IFF_Chunk))
  body :=
    (.ret (.call (.fn .formdata_createTestDataChunk) (.cons formdata_ID_BYE (.cons formdata_BYE_BYTES_SIZE (.cons (.glob .formdata_byeData) .nil)))))

/-- formdata.c:56-66 -/
def formdata_IFF_createTestForm.code : Fun where
  params := []
  ret := (.ptr (.struct .IFF_Form))
  body :=
    (.seq (.decl .form (.ptr (.struct .IFF_Form)) (some (.call (.fn .IFF_createEmptyForm) (.cons formdata_ID_TEST .nil))))
      (.seq (.decl .heloChunk (.ptr (.struct .IFF_Chunk)) (some (.call (.fn .formdata_createHelloChunk) .nil)))
      (.seq (.decl .byeChunk (.ptr (.struct .IFF_Chunk)) (some (.call (.fn .formdata_createByeChunk) .nil)))
      (.seq (.expr (.call (.fn .IFF_addToForm) (.cons (.var .form) (.cons (.var .heloChunk) .nil))))
      (.seq (.expr (.call (.fn .IFF_addToForm) (.cons (.var .form) (.cons (.var .byeChunk) .nil))))
      (.ret (.var .form)))))))

end Iff.Src
