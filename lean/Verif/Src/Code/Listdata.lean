import Verif.Src.Code.Headers
/-
  Generated by tools/c2lean.py from tests/listdata.c.
-/
namespace Iff.Src

/-- listdata.c:30 -/
def listdata_HELO_BYTES_SIZE : Expr := (.num .int 4)

/-- listdata.c:31 -/
def listdata_BYE_1_BYTES_SIZE : Expr := (.num .int 4)

/-- listdata.c:32 -/
def listdata_BYE_2_BYTES_SIZE : Expr := (.num .int 4)

/-- listdata.c:34 -/
def listdata_ID_HELO : Expr := (IFF_MAKEID (.num .int 72) (.num .int 69) (.num .int 76) (.num .int 79))

/-- listdata.c:35 -/
def listdata_ID_BYE : Expr := (IFF_MAKEID (.num .int 66) (.num .int 89) (.num .int 69) (.num .int 32))

/-- listdata.c:36 -/
def listdata_ID_TEST : Expr := (IFF_MAKEID (.num .int 84) (.num .int 69) (.num .int 83) (.num .int 84))

/-- listdata.c:38-38 -/
def listdata_heloData.init : List Init :=
  [.expr (.num .int 113),
   .expr (.num .int 119),
   .expr (.num .int 101),
   .expr (.num .int 114)]

/-- listdata.c:39-39 -/
def listdata_bye1Data.init : List Init :=
  [.expr (.num .int 97),
   .expr (.num .int 98),
   .expr (.num .int 99),
   .expr (.num .int 100)]

/-- listdata.c:40-40 -/
def listdata_bye2Data.init : List Init :=
  [.expr (.num .int 69),
   .expr (.num .int 70),
   .expr (.num .int 71),
   .expr (.num .int 72)]

/-- listdata.c:42-48 -/
def listdata_createTestDataChunk.code : Fun where
  params := [(.chunkId, (.int .uint)), (.chunkSize, (.int .int)), (.data, (.ptr (.int .uchar)))]
  ret := (.ptr (.struct .IFF_Chunk))
  body :=
    (.seq (.decl .rawChunk (.ptr (.struct .IFF_RawChunk)) (some (.cast (.ptr (.struct .IFF_RawChunk)) (.call (.fn .IFF_createRawChunk) (.cons (.var .chunkId) (.cons (.var .chunkSize) .nil))))))
      (.seq (.expr (.call (.fn .IFF_copyDataToRawChunkData) (.cons (.var .rawChunk) (.cons (.var .data) .nil))))
      (.ret (.cast (.ptr (.struct .IFF_Chunk)) (.var .rawChunk)))))

/-- listdata.c:50-53 -/
def listdata_createHeloChunk.code : Fun where
  params := []
  ret := (.ptr (.struct .IFF_Chunk))
  body :=
    (.ret (.call (.fn .listdata_createTestDataChunk) (.cons listdata_ID_HELO (.cons listdata_HELO_BYTES_SIZE (.cons (.glob .listdata_heloData) .nil)))))

/-- listdata.c:55-58 -/
def listdata_createBye1Chunk.code : Fun where
  params := []
  ret := (.ptr (.struct .IFF_Chunk))
  body :=
    (.ret (.call (.fn .listdata_createTestDataChunk) (.cons listdata_ID_BYE (.cons listdata_BYE_1_BYTES_SIZE (.cons (.glob .listdata_bye1Data) .nil)))))

/-- listdata.c:60-63 -/
def listdata_createBye2Chunk.code : Fun where
  params := []
  ret := (.ptr (.struct .IFF_Chunk))
  body :=
    (.ret (.call (.fn .listdata_createTestDataChunk) (.cons listdata_ID_BYE (.cons listdata_BYE_2_BYTES_SIZE (.cons (.glob .listdata_bye2Data) .nil)))))

/-- listdata.c:65-73 -/
def listdata_createTestProp.code : Fun where
  params := []
  ret := (.ptr (.struct .IFF_Form))
  body :=
    (.seq (.decl .heloChunk (.ptr (.struct .IFF_Chunk)) (some (.call (.fn .listdata_createHeloChunk) .nil)))
      (.seq (.decl .testProp (.ptr (.struct .IFF_Form)) (some (.call (.fn .IFF_createEmptyProp) (.cons listdata_ID_TEST .nil))))
      (.seq (.expr (.call (.fn .IFF_addToProp) (.cons (.var .testProp) (.cons (.var .heloChunk) .nil))))
      (.ret (.var .testProp)))))

/-- listdata.c:75-80 -/
def listdata_createTestForm.code : Fun where
  params := [(.byeChunk, (.ptr (.struct .IFF_Chunk)))]
  ret := (.ptr (.struct .IFF_Chunk))
  body :=
    (.seq (.decl .testForm (.ptr (.struct .IFF_Form)) (some (.call (.fn .IFF_createEmptyForm) (.cons listdata_ID_TEST .nil))))
      (.seq (.expr (.call (.fn .IFF_addToForm) (.cons (.var .testForm) (.cons (.var .byeChunk) .nil))))
      (.ret (.cast (.ptr (.struct .IFF_Chunk)) (.var .testForm)))))

/-- listdata.c:82-86 -/
def listdata_createTest1Form.code : Fun where
  params := []
  ret := (.ptr (.struct .IFF_Chunk))
  body :=
    (.seq (.decl .bye1Chunk (.ptr (.struct .IFF_Chunk)) (some (.call (.fn .listdata_createBye1Chunk) .nil)))
      (.ret (.call (.fn .listdata_createTestForm) (.cons (.var .bye1Chunk) .nil))))

/-- listdata.c:88-92 -/
def listdata_createTest2Form.code : Fun where
  params := []
  ret := (.ptr (.struct .IFF_Chunk))
  body :=
    (.seq (.decl .bye2Chunk (.ptr (.struct .IFF_Chunk)) (some (.call (.fn .listdata_createBye2Chunk) .nil)))
      (.ret (.call (.fn .listdata_createTestForm) (.cons (.var .bye2Chunk) .nil))))

/-- listdata.c:94-106 -/
def listdata_IFF_createTestList.code : Fun where
  params := []
  ret := (.ptr (.struct .IFF_List))
  body :=
    (.seq (.decl .testProp (.ptr (.struct .IFF_Form)) (some (.call (.fn .listdata_createTestProp) .nil)))
      (.seq (.decl .test1Form (.ptr (.struct .IFF_Chunk)) (some (.call (.fn .listdata_createTest1Form) .nil)))
      (.seq (.decl .test2Form (.ptr (.struct .IFF_Chunk)) (some (.call (.fn .listdata_createTest2Form) .nil)))
      (.seq (.decl .«list» (.ptr (.struct .IFF_List)) (some (.call (.fn .IFF_createEmptyListWithContentsType) (.cons listdata_ID_TEST .nil))))
      (.seq (.expr (.call (.fn .IFF_addPropToList) (.cons (.var .«list») (.cons (.var .testProp) .nil))))
      (.seq (.expr (.call (.fn .IFF_addToList) (.cons (.var .«list») (.cons (.var .test1Form) .nil))))
      (.seq (.expr (.call (.fn .IFF_addToList) (.cons (.var .«list») (.cons (.var .test2Form) .nil))))
      (.ret (.var .«list»)))))))))

end Iff.Src
