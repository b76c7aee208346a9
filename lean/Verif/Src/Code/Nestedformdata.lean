import Verif.Src.Code.Headers
/-
  Generated by tools/c2lean.py from tests/nestedformdata.c.
-/
namespace Iff.Src

/-- nestedformdata.c:28 -/
def nestedformdata_HELO_1_BYTES_SIZE : Expr := (.num .int 4)

/-- nestedformdata.c:29 -/
def nestedformdata_BYE_1_BYTES_SIZE : Expr := (.num .int 3)

/-- nestedformdata.c:30 -/
def nestedformdata_HELO_2_BYTES_SIZE : Expr := (.num .int 5)

/-- nestedformdata.c:31 -/
def nestedformdata_BYE_2_BYTES_SIZE : Expr := (.num .int 4)

/-- nestedformdata.c:33 -/
def nestedformdata_ID_HELO : Expr := (IFF_MAKEID (.num .int 72) (.num .int 69) (.num .int 76) (.num .int 79))

/-- nestedformdata.c:34 -/
def nestedformdata_ID_BYE : Expr := (IFF_MAKEID (.num .int 66) (.num .int 89) (.num .int 69) (.num .int 32))

/-- nestedformdata.c:35 -/
def nestedformdata_ID_TEST : Expr := (IFF_MAKEID (.num .int 84) (.num .int 69) (.num .int 83) (.num .int 84))

/-- nestedformdata.c:36 -/
def nestedformdata_ID_BLA : Expr := (IFF_MAKEID (.num .int 66) (.num .int 76) (.num .int 65) (.num .int 32))

/-- nestedformdata.c:38-38 -/
def nestedformdata_helo1Data.init : List Init :=
  [.expr (.num .int 97),
   .expr (.num .int 98),
   .expr (.num .int 99),
   .expr (.num .int 100)]

/-- nestedformdata.c:39-39 -/
def nestedformdata_bye1Data.init : List Init :=
  [.expr (.num .int 69),
   .expr (.num .int 70),
   .expr (.num .int 71)]

/-- nestedformdata.c:40-40 -/
def nestedformdata_helo2Data.init : List Init :=
  [.expr (.num .int 97),
   .expr (.num .int 98),
   .expr (.num .int 99),
   .expr (.num .int 100),
   .expr (.num .int 101)]

/-- nestedformdata.c:41-41 -/
def nestedformdata_bye2Data.init : List Init :=
  [.expr (.num .int 70),
   .expr (.num .int 71),
   .expr (.num .int 72),
   .expr (.num .int 73)]

/-- nestedformdata.c:43-49 -/
def nestedformdata_createTestDataChunk.code : Fun where
  params := [(.chunkId, (.int .uint)), (.chunkSize, (.int .int)), (.data, (.ptr (.int .uchar)))]
  ret := (.ptr (.struct .IFF_Chunk))
  body :=
    (.seq (.decl .rawChunk (.ptr (.struct .IFF_RawChunk)) (some (.cast (.ptr (.struct .IFF_RawChunk)) (.call (.fn .IFF_createRawChunk) (.cons (.var .chunkId) (.cons (.var .chunkSize) .nil))))))
      (.seq (.expr (.call (.fn .IFF_copyDataToRawChunkData) (.cons (.var .rawChunk) (.cons (.var .data) .nil))))
      (.ret (.cast (.ptr (.struct .IFF_Chunk)) (.var .rawChunk)))))

/-- nestedformdata.c:51-54 -/
def nestedformdata_createHelo1Chunk.code : Fun where
  params := []
  ret := (.ptr (.struct .IFF_Chunk))
  body :=
    (.ret (.call (.fn .nestedformdata_createTestDataChunk) (.cons nestedformdata_ID_HELO (.cons nestedformdata_HELO_1_BYTES_SIZE (.cons (.glob .nestedformdata_helo1Data) .nil)))))

/-- nestedformdata.c:56-59 -/
def nestedformdata_createBye1Chunk.code : Fun where
  params := []
  ret := (.ptr (.struct .IFF_Chunk))
  body :=
    (.ret (.call (.fn .nestedformdata_createTestDataChunk) (.cons nestedformdata_ID_BYE (.cons nestedformdata_BYE_1_BYTES_SIZE (.cons (.glob .nestedformdata_bye1Data) .nil)))))

/-- nestedformdata.c:61-64 -/
def nestedformdata_createHelo2Chunk.code : Fun where
  params := []
  ret := (.ptr (.struct .IFF_Chunk))
  body :=
    (.ret (.call (.fn .nestedformdata_createTestDataChunk) (.cons nestedformdata_ID_HELO (.cons nestedformdata_HELO_2_BYTES_SIZE (.cons (.glob .nestedformdata_helo2Data) .nil)))))

/-- nestedformdata.c:66-69 -/
def nestedformdata_createBye2Chunk.code : Fun where
  params := []
  ret := (.ptr (.struct .IFF_Chunk))
  body :=
    (.ret (.call (.fn .nestedformdata_createTestDataChunk) (.cons nestedformdata_ID_BYE (.cons nestedformdata_BYE_2_BYTES_SIZE (.cons (.glob .nestedformdata_bye2Data) .nil)))))

/-- nestedformdata.c:71-79 -/
def nestedformdata_createTestForm.code : Fun where
  params := [(.heloChunk, (.ptr (.struct .IFF_Chunk))), (.byeChunk, (.ptr (.struct .IFF_Chunk)))]
  ret := (.ptr (.struct .IFF_Chunk))
  body :=
    (.seq (.decl .testForm (.ptr (.struct .IFF_Form)) (some (.call (.fn .IFF_createEmptyForm) (.cons nestedformdata_ID_TEST .nil))))
      (.seq (.expr (.call (.fn .IFF_addToForm) (.cons (.var .testForm) (.cons (.var .heloChunk) .nil))))
      (.seq (.expr (.call (.fn .IFF_addToForm) (.cons (.var .testForm) (.cons (.var .byeChunk) .nil))))
      (.ret (.cast (.ptr (.struct .IFF_Chunk)) (.var .testForm))))))

/-- nestedformdata.c:81-87 -/
def nestedformdata_createTest1Form.code : Fun where
  params := []
  ret := (.ptr (.struct .IFF_Chunk))
  body :=
    (.seq (.decl .helo1Chunk (.ptr (.struct .IFF_Chunk)) (some (.call (.fn .nestedformdata_createHelo1Chunk) .nil)))
      (.seq (.decl .bye1Chunk (.ptr (.struct .IFF_Chunk)) (some (.call (.fn .nestedformdata_createBye1Chunk) .nil)))
      (.ret (.call (.fn .nestedformdata_createTestForm) (.cons (.var .helo1Chunk) (.cons (.var .bye1Chunk) .nil))))))

/-- nestedformdata.c:89-95 -/
def nestedformdata_createTest2Form.code : Fun where
  params := []
  ret := (.ptr (.struct .IFF_Chunk))
  body :=
    (.seq (.decl .helo2Chunk (.ptr (.struct .IFF_Chunk)) (some (.call (.fn .nestedformdata_createHelo2Chunk) .nil)))
      (.seq (.decl .bye2Chunk (.ptr (.struct .IFF_Chunk)) (some (.call (.fn .nestedformdata_createBye2Chunk) .nil)))
      (.ret (.call (.fn .nestedformdata_createTestForm) (.cons (.var .helo2Chunk) (.cons (.var .bye2Chunk) .nil))))))

/-- nestedformdata.c:97-107 -/
def nestedformdata_IFF_createTestForm.code : Fun where
  params := []
  ret := (.ptr (.struct .IFF_Form))
  body :=
    (.seq (.decl .test1Form (.ptr (.struct .IFF_Chunk)) (some (.call (.fn .nestedformdata_createTest1Form) .nil)))
      (.seq (.decl .test2Form (.ptr (.struct .IFF_Chunk)) (some (.call (.fn .nestedformdata_createTest2Form) .nil)))
      (.seq (.decl .outerForm (.ptr (.struct .IFF_Form)) (some (.call (.fn .IFF_createEmptyForm) (.cons nestedformdata_ID_BLA .nil))))
      (.seq (.expr (.call (.fn .IFF_addToForm) (.cons (.var .outerForm) (.cons (.var .test1Form) .nil))))
      (.seq (.expr (.call (.fn .IFF_addToForm) (.cons (.var .outerForm) (.cons (.var .test2Form) .nil))))
      (.ret (.var .outerForm)))))))

end Iff.Src
