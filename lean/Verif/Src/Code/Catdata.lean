import Verif.Src.Code.Headers
/-
  Generated by tools/c2lean.py from tests/catdata.c.
-/
namespace Iff.Src

/-- catdata.c:29 -/
def catdata_HELO_1_BYTES_SIZE : Expr := (.num .int 4)

/-- catdata.c:30 -/
def catdata_BYE_1_BYTES_SIZE : Expr := (.num .int 3)

/-- catdata.c:31 -/
def catdata_HELO_2_BYTES_SIZE : Expr := (.num .int 5)

/-- catdata.c:32 -/
def catdata_BYE_2_BYTES_SIZE : Expr := (.num .int 4)

/-- catdata.c:34 -/
def catdata_ID_HELO : Expr := (IFF_MAKEID (.num .int 72) (.num .int 69) (.num .int 76) (.num .int 79))

/-- catdata.c:35 -/
def catdata_ID_BYE : Expr := (IFF_MAKEID (.num .int 66) (.num .int 89) (.num .int 69) (.num .int 32))

/-- catdata.c:36 -/
def catdata_ID_TEST : Expr := (IFF_MAKEID (.num .int 84) (.num .int 69) (.num .int 83) (.num .int 84))

/-- catdata.c:38-38 -/
def catdata_helo1Data.init : List Init :=
  [.expr (.num .int 97),
   .expr (.num .int 98),
   .expr (.num .int 99),
   .expr (.num .int 100)]

/-- catdata.c:39-39 -/
def catdata_bye1Data.init : List Init :=
  [.expr (.num .int 69),
   .expr (.num .int 70),
   .expr (.num .int 71)]

/-- catdata.c:40-40 -/
def catdata_helo2Data.init : List Init :=
  [.expr (.num .int 97),
   .expr (.num .int 98),
   .expr (.num .int 99),
   .expr (.num .int 100),
   .expr (.num .int 101)]

/-- catdata.c:41-41 -/
def catdata_bye2Data.init : List Init :=
  [.expr (.num .int 70),
   .expr (.num .int 71),
   .expr (.num .int 72),
   .expr (.num .int 73)]

/-- catdata.c:43-49 -/
def catdata_createTestDataChunk.code : Fun where
  params := [(.chunkId, (.int .uint)), (.chunkSize, (.int .int)), (.data, (.ptr (.int .uchar)))]
  ret := (.ptr (.struct .IFF_Chunk))
  body :=
    (.seq (.decl .rawChunk (.ptr (.struct .IFF_RawChunk)) (some (.cast (.ptr (.struct .IFF_RawChunk)) (.call (.fn .IFF_createRawChunk) (.cons (.var .chunkId) (.cons (.var .chunkSize) .nil))))))
      (.seq (.expr (.call (.fn .IFF_copyDataToRawChunkData) (.cons (.var .rawChunk) (.cons (.var .data) .nil))))
      (.ret (.cast (.ptr (.struct .IFF_Chunk)) (.var .rawChunk)))))

/-- catdata.c:51-54 -/
def catdata_createHelo1Chunk.code : Fun where
  params := []
  ret := (.ptr (.struct .IFF_Chunk))
  body :=
    (.ret (.call (.fn .catdata_createTestDataChunk) (.cons catdata_ID_HELO (.cons catdata_HELO_1_BYTES_SIZE (.cons (.glob .catdata_helo1Data) .nil)))))

/-- catdata.c:56-59 -/
def catdata_createBye1Chunk.code : Fun where
  params := []
  ret := (.ptr (.struct .IFF_Chunk))
  body :=
    (.ret (.call (.fn .catdata_createTestDataChunk) (.cons catdata_ID_BYE (.cons catdata_BYE_1_BYTES_SIZE (.cons (.glob .catdata_bye1Data) .nil)))))

/-- catdata.c:61-64 -/
def catdata_createHelo2Chunk.code : Fun where
  params := []
  ret := (.ptr (.struct .IFF_Chunk))
  body :=
    (.ret (.call (.fn .catdata_createTestDataChunk) (.cons catdata_ID_HELO (.cons catdata_HELO_2_BYTES_SIZE (.cons (.glob .catdata_helo2Data) .nil)))))

/-- catdata.c:66-69 -/
def catdata_createBye2Chunk.code : Fun where
  params := []
  ret := (.ptr (.struct .IFF_Chunk))
  body :=
    (.ret (.call (.fn .catdata_createTestDataChunk) (.cons catdata_ID_BYE (.cons catdata_BYE_2_BYTES_SIZE (.cons (.glob .catdata_bye2Data) .nil)))))

/-- catdata.c:71-79 -/
def catdata_createTestForm.code : Fun where
  params := [(.heloChunk, (.ptr (.struct .IFF_Chunk))), (.byeChunk, (.ptr (.struct .IFF_Chunk)))]
  ret := (.ptr (.struct .IFF_Chunk))
  body :=
    (.seq (.decl .testForm (.ptr (.struct .IFF_Form)) (some (.call (.fn .IFF_createEmptyForm) (.cons catdata_ID_TEST .nil))))
      (.seq (.expr (.call (.fn .IFF_addToForm) (.cons (.var .testForm) (.cons (.var .heloChunk) .nil))))
      (.seq (.expr (.call (.fn .IFF_addToForm) (.cons (.var .testForm) (.cons (.var .byeChunk) .nil))))
      (.ret (.cast (.ptr (.struct .IFF_Chunk)) (.var .testForm))))))

/-- catdata.c:81-87 -/
def catdata_createTest1Form.code : Fun where
  params := []
  ret := (.ptr (.struct .IFF_Chunk))
  body :=
    (.seq (.decl .helo1Chunk (.ptr (.struct .IFF_Chunk)) (some (.call (.fn .catdata_createHelo1Chunk) .nil)))
      (.seq (.decl .bye1Chunk (.ptr (.struct .IFF_Chunk)) (some (.call (.fn .catdata_createBye1Chunk) .nil)))
      (.ret (.call (.fn .catdata_createTestForm) (.cons (.var .helo1Chunk) (.cons (.var .bye1Chunk) .nil))))))

/-- catdata.c:89-95 -/
def catdata_createTest2Form.code : Fun where
  params := []
  ret := (.ptr (.struct .IFF_Chunk))
  body :=
    (.seq (.decl .helo2Chunk (.ptr (.struct .IFF_Chunk)) (some (.call (.fn .catdata_createHelo2Chunk) .nil)))
      (.seq (.decl .bye2Chunk (.ptr (.struct .IFF_Chunk)) (some (.call (.fn .catdata_createBye2Chunk) .nil)))
      (.ret (.call (.fn .catdata_createTestForm) (.cons (.var .helo2Chunk) (.cons (.var .bye2Chunk) .nil))))))

/-- catdata.c:97-107 -/
def catdata_IFF_createTestCAT.code : Fun where
  params := []
  ret := (.ptr (.struct .IFF_CAT))
  body :=
    (.seq (.decl .test1Form (.ptr (.struct .IFF_Chunk)) (some (.call (.fn .catdata_createTest1Form) .nil)))
      (.seq (.decl .test2Form (.ptr (.struct .IFF_Chunk)) (some (.call (.fn .catdata_createTest2Form) .nil)))
      (.seq (.decl .cat (.ptr (.struct .IFF_CAT)) (some (.call (.fn .IFF_createEmptyCATWithContentsType) (.cons catdata_ID_TEST .nil))))
      (.seq (.expr (.call (.fn .IFF_addToCAT) (.cons (.var .cat) (.cons (.var .test1Form) .nil))))
      (.seq (.expr (.call (.fn .IFF_addToCAT) (.cons (.var .cat) (.cons (.var .test2Form) .nil))))
      (.ret (.var .cat)))))))

end Iff.Src
