import Verif.Src.Code.Headers
/-
  Generated by tools/c2lean.py from src/libiff/form.c.
-/
namespace Iff.Src

/-- form.c:31 -/
def FORM_GROUPTYPENAME : Expr := (.str "formType")

/-- form.c:33 -/
def ID_FOR1 : Expr := (IFF_MAKEID (.num .int 70) (.num .int 79) (.num .int 82) (.num .int 49))

/-- form.c:34 -/
def ID_FOR2 : Expr := (IFF_MAKEID (.num .int 70) (.num .int 79) (.num .int 82) (.num .int 50))

/-- form.c:35 -/
def ID_FOR3 : Expr := (IFF_MAKEID (.num .int 70) (.num .int 79) (.num .int 82) (.num .int 51))

/-- form.c:36 -/
def ID_FOR4 : Expr := (IFF_MAKEID (.num .int 70) (.num .int 79) (.num .int 82) (.num .int 52))

/-- form.c:37 -/
def ID_FOR5 : Expr := (IFF_MAKEID (.num .int 70) (.num .int 79) (.num .int 82) (.num .int 53))

/-- form.c:38 -/
def ID_FOR6 : Expr := (IFF_MAKEID (.num .int 70) (.num .int 79) (.num .int 82) (.num .int 54))

/-- form.c:39 -/
def ID_FOR7 : Expr := (IFF_MAKEID (.num .int 70) (.num .int 79) (.num .int 82) (.num .int 55))

/-- form.c:40 -/
def ID_FOR8 : Expr := (IFF_MAKEID (.num .int 70) (.num .int 79) (.num .int 82) (.num .int 56))

/-- form.c:41 -/
def ID_FOR9 : Expr := (IFF_MAKEID (.num .int 70) (.num .int 79) (.num .int 82) (.num .int 57))

/-- form.c:43 -/
def ID_CAT1 : Expr := (IFF_MAKEID (.num .int 67) (.num .int 65) (.num .int 84) (.num .int 49))

/-- form.c:44 -/
def ID_CAT2 : Expr := (IFF_MAKEID (.num .int 67) (.num .int 65) (.num .int 84) (.num .int 50))

/-- form.c:45 -/
def ID_CAT3 : Expr := (IFF_MAKEID (.num .int 67) (.num .int 65) (.num .int 84) (.num .int 51))

/-- form.c:46 -/
def ID_CAT4 : Expr := (IFF_MAKEID (.num .int 67) (.num .int 65) (.num .int 84) (.num .int 52))

/-- form.c:47 -/
def ID_CAT5 : Expr := (IFF_MAKEID (.num .int 67) (.num .int 65) (.num .int 84) (.num .int 53))

/-- form.c:48 -/
def ID_CAT6 : Expr := (IFF_MAKEID (.num .int 67) (.num .int 65) (.num .int 84) (.num .int 54))

/-- form.c:49 -/
def ID_CAT7 : Expr := (IFF_MAKEID (.num .int 67) (.num .int 65) (.num .int 84) (.num .int 55))

/-- form.c:50 -/
def ID_CAT8 : Expr := (IFF_MAKEID (.num .int 67) (.num .int 65) (.num .int 84) (.num .int 56))

/-- form.c:51 -/
def ID_CAT9 : Expr := (IFF_MAKEID (.num .int 67) (.num .int 65) (.num .int 84) (.num .int 57))

/-- form.c:53 -/
def ID_LIS1 : Expr := (IFF_MAKEID (.num .int 76) (.num .int 73) (.num .int 83) (.num .int 49))

/-- form.c:54 -/
def ID_LIS2 : Expr := (IFF_MAKEID (.num .int 76) (.num .int 73) (.num .int 83) (.num .int 50))

/-- form.c:55 -/
def ID_LIS3 : Expr := (IFF_MAKEID (.num .int 76) (.num .int 73) (.num .int 83) (.num .int 51))

/-- form.c:56 -/
def ID_LIS4 : Expr := (IFF_MAKEID (.num .int 76) (.num .int 73) (.num .int 83) (.num .int 52))

/-- form.c:57 -/
def ID_LIS5 : Expr := (IFF_MAKEID (.num .int 76) (.num .int 73) (.num .int 83) (.num .int 53))

/-- form.c:58 -/
def ID_LIS6 : Expr := (IFF_MAKEID (.num .int 76) (.num .int 73) (.num .int 83) (.num .int 54))

/-- form.c:59 -/
def ID_LIS7 : Expr := (IFF_MAKEID (.num .int 76) (.num .int 73) (.num .int 83) (.num .int 55))

/-- form.c:60 -/
def ID_LIS8 : Expr := (IFF_MAKEID (.num .int 76) (.num .int 73) (.num .int 83) (.num .int 56))

/-- form.c:61 -/
def ID_LIS9 : Expr := (IFF_MAKEID (.num .int 76) (.num .int 73) (.num .int 83) (.num .int 57))

/-- form.c:63-66 -/
def IFF_createForm.code : Fun where
  params := [(.chunkSize, (.int .int)), (.formType, (.int .uint))]
  ret := (.ptr (.struct .IFF_Form))
  body :=
    (.ret (.cast (.ptr (.struct .IFF_Form)) (.call (.fn .IFF_createGroup) (.cons IFF_ID_FORM (.cons (.var .chunkSize) (.cons (.var .formType) .nil))))))

/-- form.c:68-71 -/
def IFF_createEmptyForm.code : Fun where
  params := [(.formType, (.int .uint))]
  ret := (.ptr (.struct .IFF_Form))
  body :=
    (.ret (.cast (.ptr (.struct .IFF_Form)) (.call (.fn .IFF_createEmptyGroup) (.cons IFF_ID_FORM (.cons (.var .formType) .nil)))))

/-- form.c:73-76 -/
def IFF_createUnparsedForm.code : Fun where
  params := [(.chunkId, (.int .uint)), (.chunkSize, (.int .int))]
  ret := (.ptr (.struct .IFF_Chunk))
  body :=
    (.ret (.call (.fn .IFF_createUnparsedGroup) (.cons (.var .chunkId) (.cons (.var .chunkSize) .nil))))

/-- form.c:78-81 -/
def IFF_addToForm.code : Fun where
  params := [(.form, (.ptr (.struct .IFF_Form))), (.chunk, (.ptr (.struct .IFF_Chunk)))]
  ret := .void
  body :=
    (.expr (.call (.fn .IFF_addToGroup) (.cons (.cast (.ptr (.struct .IFF_Group)) (.var .form)) (.cons (.var .chunk) .nil))))

/-- form.c:83-86 -/
def IFF_readForm.code : Fun where
  params := [(.file, (.ptr .file)), (.chunk, (.ptr (.struct .IFF_Chunk))), (.chunkRegistry, (.ptr (.struct .IFF_ChunkRegistry))), (.bytesProcessed, (.ptr (.int .int)))]
  ret := (.int .int)
  body :=
    (.ret (.call (.fn .IFF_readGroup) (.cons (.var .file) (.cons (.var .chunk) (.cons FORM_GROUPTYPENAME (.cons (.var .chunkRegistry) (.cons (.var .bytesProcessed) .nil)))))))

/-- form.c:88-91 -/
def IFF_writeForm.code : Fun where
  params := [(.file, (.ptr .file)), (.chunk, (.ptr (.struct .IFF_Chunk))), (.chunkRegistry, (.ptr (.struct .IFF_ChunkRegistry))), (.bytesProcessed, (.ptr (.int .int)))]
  ret := (.int .int)
  body :=
    (.ret (.call (.fn .IFF_writeGroup) (.cons (.var .file) (.cons (.var .chunk) (.cons FORM_GROUPTYPENAME (.cons (.var .chunkRegistry) (.cons (.var .bytesProcessed) .nil)))))))

/-- form.c:93-158 -/
def IFF_checkFormType.code : Fun where
  params := [(.formType, (.int .uint))]
  ret := (.int .int)
  body :=
    (.seq (.decl .i (.int .uint) none)
      (.seq (.object .formType2 (.arr 4 (.int .char)) none)
      (.seq (.ite (.not (.call (.fn .IFF_checkId) (.cons (.var .formType) .nil)))
        (.ret FALSE)
        .skip)
      (.seq (.expr (.call (.fn .IFF_idToString) (.cons (.var .formType) (.cons (.var .formType2) .nil))))
      (.seq (.for (.assign (.var .i) (.num .int 0)) (.bin .lt (.var .i) IFF_ID_SIZE) (.inc (.var .i))
        (.ite (.lor (.land (.bin .ge (.index (.var .formType2) (.var .i)) (.num .int 97)) (.bin .le (.index (.var .formType2) (.var .i)) (.num .int 122))) (.bin .eq (.index (.var .formType2) (.var .i)) (.num .int 46)))
          (.seq (.expr (.call (.fn .IFF_error) (.cons (.str "No lowercase characters or punctuation marks allowed in a form type ID!\n") .nil)))
            (.ret FALSE))
          .skip))
      (.seq (.ite (.lor (.lor (.lor (.lor (.lor (.lor (.lor (.lor (.lor (.lor (.lor (.lor (.lor (.lor (.lor (.lor (.lor (.lor (.lor (.lor (.lor (.lor (.lor (.lor (.lor (.lor (.lor (.lor (.lor (.lor (.lor (.lor (.bin .eq (.var .formType) IFF_ID_LIST) (.bin .eq (.var .formType) IFF_ID_FORM)) (.bin .eq (.var .formType) IFF_ID_PROP)) (.bin .eq (.var .formType) IFF_ID_CAT)) (.bin .eq (.var .formType) IFF_ID_JJJJ)) (.bin .eq (.var .formType) ID_LIS1)) (.bin .eq (.var .formType) ID_LIS2)) (.bin .eq (.var .formType) ID_LIS3)) (.bin .eq (.var .formType) ID_LIS4)) (.bin .eq (.var .formType) ID_LIS5)) (.bin .eq (.var .formType) ID_LIS6)) (.bin .eq (.var .formType) ID_LIS7)) (.bin .eq (.var .formType) ID_LIS8)) (.bin .eq (.var .formType) ID_LIS9)) (.bin .eq (.var .formType) ID_FOR1)) (.bin .eq (.var .formType) ID_FOR1)) (.bin .eq (.var .formType) ID_FOR2)) (.bin .eq (.var .formType) ID_FOR3)) (.bin .eq (.var .formType) ID_FOR4)) (.bin .eq (.var .formType) ID_FOR5)) (.bin .eq (.var .formType) ID_FOR6)) (.bin .eq (.var .formType) ID_FOR7)) (.bin .eq (.var .formType) ID_FOR8)) (.bin .eq (.var .formType) ID_FOR9)) (.bin .eq (.var .formType) ID_CAT1)) (.bin .eq (.var .formType) ID_CAT2)) (.bin .eq (.var .formType) ID_CAT3)) (.bin .eq (.var .formType) ID_CAT4)) (.bin .eq (.var .formType) ID_CAT5)) (.bin .eq (.var .formType) ID_CAT6)) (.bin .eq (.var .formType) ID_CAT7)) (.bin .eq (.var .formType) ID_CAT8)) (.bin .eq (.var .formType) ID_CAT9))
        (.seq (.expr (.call (.fn .IFF_error) (.cons (.str "Form type: '") .nil)))
          (.seq (.expr (.call (.fn .IFF_errorId) (.cons (.var .formType) .nil)))
          (.seq (.expr (.call (.fn .IFF_error) (.cons (.str "' not allowed!\n") .nil)))
          (.ret FALSE))))
        .skip)
      (.ret TRUE)))))))

/-- form.c:160-172 -/
def form_subChunkCheck.code : Fun where
  params := [(.group, (.ptr (.struct .IFF_Group))), (.subChunk, (.ptr (.struct .IFF_Chunk)))]
  ret := (.int .int)
  body :=
    (.ite (.bin .eq (.arrow (.var .subChunk) .chunkId) IFF_ID_PROP)
      (.seq (.expr (.call (.fn .IFF_error) (.cons (.str "ERROR: Element with chunk Id: '") .nil)))
        (.seq (.expr (.call (.fn .IFF_errorId) (.cons (.arrow (.var .subChunk) .chunkId) .nil)))
        (.seq (.expr (.call (.fn .IFF_error) (.cons (.str "' not allowed in FORM chunk!\n") .nil)))
        (.ret FALSE))))
      (.ret TRUE))

/-- form.c:174-177 -/
def IFF_checkForm.code : Fun where
  params := [(.chunk, (.ptr (.struct .IFF_Chunk))), (.chunkRegistry, (.ptr (.struct .IFF_ChunkRegistry)))]
  ret := (.int .int)
  body :=
    (.ret (.call (.fn .IFF_checkGroup) (.cons (.cast (.ptr (.struct .IFF_Group)) (.var .chunk)) (.cons (.fn .IFF_checkFormType) (.cons (.fn .form_subChunkCheck) (.cons (.var .chunkRegistry) .nil))))))

/-- form.c:179-182 -/
def IFF_freeForm.code : Fun where
  params := [(.chunk, (.ptr (.struct .IFF_Chunk))), (.chunkRegistry, (.ptr (.struct .IFF_ChunkRegistry)))]
  ret := .void
  body :=
    (.expr (.call (.fn .IFF_freeGroup) (.cons (.cast (.ptr (.struct .IFF_Group)) (.var .chunk)) (.cons (.var .chunkRegistry) .nil))))

/-- form.c:184-187 -/
def IFF_printForm.code : Fun where
  params := [(.chunk, (.ptr (.struct .IFF_Chunk))), (.indentLevel, (.int .uint)), (.chunkRegistry, (.ptr (.struct .IFF_ChunkRegistry)))]
  ret := .void
  body :=
    (.expr (.call (.fn .IFF_printGroup) (.cons (.cast (.ptr (.struct .IFF_Group)) (.var .chunk)) (.cons (.var .indentLevel) (.cons FORM_GROUPTYPENAME (.cons (.var .chunkRegistry) .nil))))))

/-- form.c:189-192 -/
def IFF_compareForm.code : Fun where
  params := [(.chunk1, (.ptr (.struct .IFF_Chunk))), (.chunk2, (.ptr (.struct .IFF_Chunk))), (.chunkRegistry, (.ptr (.struct .IFF_ChunkRegistry)))]
  ret := (.int .int)
  body :=
    (.ret (.call (.fn .IFF_compareGroup) (.cons (.cast (.ptr (.struct .IFF_Group)) (.var .chunk1)) (.cons (.cast (.ptr (.struct .IFF_Group)) (.var .chunk2)) (.cons (.var .chunkRegistry) .nil)))))

/-- form.c:194-207 -/
def IFF_mergeFormArray.code : Fun where
  params := [(.target, (.ptr (.ptr (.struct .IFF_Form)))), (.targetLength, (.ptr (.int .uint))), (.source, (.ptr (.ptr (.struct .IFF_Form)))), (.sourceLength, (.int .uint))]
  ret := (.ptr (.ptr (.struct .IFF_Form)))
  body :=
    (.seq (.decl .i (.int .uint) none)
      (.seq (.decl .newLength (.int .uint) (some (.bin .add (.deref (.var .targetLength)) (.var .sourceLength))))
      (.seq (.expr (.assign (.var .target) (.cast (.ptr (.ptr (.struct .IFF_Form))) (.call (.fn .realloc) (.cons (.var .target) (.cons (.bin .mul (.var .newLength) (.sizeof (.ptr (.struct .IFF_Form)))) .nil))))))
      (.seq (.for (.assign (.var .i) (.num .int 0)) (.bin .lt (.var .i) (.var .sourceLength)) (.inc (.var .i))
        (.expr (.assign (.index (.var .target) (.bin .add (.var .i) (.deref (.var .targetLength)))) (.index (.var .source) (.var .i)))))
      (.seq (.expr (.assign (.deref (.var .targetLength)) (.var .newLength)))
      (.ret (.var .target)))))))

/-- form.c:209-229 -/
def IFF_searchFormsInForm.code : Fun where
  params := [(.form, (.ptr (.struct .IFF_Form))), (.formTypes, (.ptr (.int .uint))), (.formTypesLength, (.int .uint)), (.formsLength, (.ptr (.int .uint)))]
  ret := (.ptr (.ptr (.struct .IFF_Form)))
  body :=
    (.seq (.decl .i (.int .uint) none)
      (.seq (.for (.assign (.var .i) (.num .int 0)) (.bin .lt (.var .i) (.var .formTypesLength)) (.inc (.var .i))
        (.seq (.decl .formType (.int .uint) (some (.index (.var .formTypes) (.var .i))))
          (.ite (.bin .eq (.arrow (.var .form) .formType) (.var .formType))
          (.seq (.decl .forms (.ptr (.ptr (.struct .IFF_Form))) (some (.cast (.ptr (.ptr (.struct .IFF_Form))) (.call (.fn .malloc) (.cons (.sizeof (.ptr (.struct .IFF_Form))) .nil)))))
            (.seq (.expr (.assign (.index (.var .forms) (.num .int 0)) (.var .form)))
            (.seq (.expr (.assign (.deref (.var .formsLength)) (.num .int 1)))
            (.ret (.var .forms)))))
          .skip)))
      (.ret (.call (.fn .IFF_searchFormsInGroup) (.cons (.cast (.ptr (.struct .IFF_Group)) (.var .form)) (.cons (.var .formTypes) (.cons (.var .formTypesLength) (.cons (.var .formsLength) .nil))))))))

/-- form.c:231-234 -/
def IFF_updateFormChunkSizes.code : Fun where
  params := [(.form, (.ptr (.struct .IFF_Form)))]
  ret := .void
  body :=
    (.expr (.call (.fn .IFF_updateGroupChunkSizes) (.cons (.cast (.ptr (.struct .IFF_Group)) (.var .form)) .nil)))

/-- form.c:242-255 -/
def searchList.code : Fun where
  params := [(.chunk, (.ptr (.struct .IFF_Chunk)))]
  ret := (.ptr (.struct .IFF_List))
  body :=
    (.seq (.decl .parent (.ptr (.struct .IFF_Group)) (some (.arrow (.var .chunk) .parent)))
      (.ite (.bin .eq (.var .parent) .null)
      (.ret .null)
      (.ite (.bin .eq (.arrow (.var .parent) .chunkId) IFF_ID_LIST)
        (.ret (.cast (.ptr (.struct .IFF_List)) (.var .parent)))
        (.ret (.call (.fn .searchList) (.cons (.cast (.ptr (.struct .IFF_Chunk)) (.var .parent)) .nil))))))

/-- form.c:265-289 -/
def searchProperty.code : Fun where
  params := [(.chunk, (.ptr (.struct .IFF_Chunk))), (.formType, (.int .uint)), (.chunkId, (.int .uint))]
  ret := (.ptr (.struct .IFF_Chunk))
  body :=
    (.seq (.decl .«list» (.ptr (.struct .IFF_List)) (some (.call (.fn .searchList) (.cons (.var .chunk) .nil))))
      (.ite (.bin .eq (.var .«list») .null)
      (.ret .null)
      (.seq (.decl .prop (.ptr (.struct .IFF_Form)) (some (.call (.fn .IFF_getPropFromList) (.cons (.var .«list») (.cons (.var .formType) .nil)))))
        (.ite (.bin .eq (.var .prop) .null)
        (.ret (.call (.fn .searchProperty) (.cons (.cast (.ptr (.struct .IFF_Chunk)) (.var .«list»)) (.cons (.var .formType) (.cons (.var .chunkId) .nil)))))
        (.seq (.decl .chunk_1 (.ptr (.struct .IFF_Chunk)) (some (.call (.fn .IFF_getChunkFromProp) (.cons (.var .prop) (.cons (.var .chunkId) .nil)))))
          (.ite (.bin .eq (.var .chunk_1) .null)
          (.ret (.call (.fn .searchProperty) (.cons (.cast (.ptr (.struct .IFF_Chunk)) (.var .«list»)) (.cons (.var .formType) (.cons (.var .chunkId) .nil)))))
          (.ret (.var .chunk_1))))))))

/-- form.c:291-302 -/
def IFF_getDataChunkFromForm.code : Fun where
  params := [(.form, (.ptr (.struct .IFF_Form))), (.chunkId, (.int .uint))]
  ret := (.ptr (.struct .IFF_Chunk))
  body :=
    (.seq (.decl .i (.int .uint) none)
      (.seq (.for (.assign (.var .i) (.num .int 0)) (.bin .lt (.var .i) (.arrow (.var .form) .chunkLength)) (.inc (.var .i))
        (.ite (.bin .eq (.arrow (.index (.arrow (.var .form) .chunk) (.var .i)) .chunkId) (.var .chunkId))
          (.ret (.index (.arrow (.var .form) .chunk) (.var .i)))
          .skip))
      (.ret .null)))

/-- form.c:304-314 -/
def IFF_getChunkFromForm.code : Fun where
  params := [(.form, (.ptr (.struct .IFF_Form))), (.chunkId, (.int .uint))]
  ret := (.ptr (.struct .IFF_Chunk))
  body :=
    (.seq (.decl .chunk (.ptr (.struct .IFF_Chunk)) (some (.call (.fn .IFF_getDataChunkFromForm) (.cons (.var .form) (.cons (.var .chunkId) .nil)))))
      (.ite (.bin .eq (.var .chunk) .null)
      (.ret (.call (.fn .searchProperty) (.cons (.cast (.ptr (.struct .IFF_Chunk)) (.var .form)) (.cons (.arrow (.var .form) .formType) (.cons (.var .chunkId) .nil)))))
      (.ret (.var .chunk))))

/-- form.c:316-334 -/
def IFF_getChunksFromForm.code : Fun where
  params := [(.form, (.ptr (.struct .IFF_Form))), (.chunkId, (.int .uint)), (.chunksLength, (.ptr (.int .uint)))]
  ret := (.ptr (.ptr (.struct .IFF_Chunk)))
  body :=
    (.seq (.decl .result (.ptr (.ptr (.struct .IFF_Chunk))) (some .null))
      (.seq (.decl .i (.int .uint) none)
      (.seq (.expr (.assign (.deref (.var .chunksLength)) (.num .int 0)))
      (.seq (.for (.assign (.var .i) (.num .int 0)) (.bin .lt (.var .i) (.arrow (.var .form) .chunkLength)) (.inc (.var .i))
        (.ite (.bin .eq (.arrow (.index (.arrow (.var .form) .chunk) (.var .i)) .chunkId) (.var .chunkId))
          (.seq (.expr (.assign (.var .result) (.cast (.ptr (.ptr (.struct .IFF_Chunk))) (.call (.fn .realloc) (.cons (.var .result) (.cons (.bin .mul (.bin .add (.deref (.var .chunksLength)) (.num .int 1)) (.sizeof (.ptr (.struct .IFF_Chunk)))) .nil))))))
            (.seq (.expr (.assign (.index (.var .result) (.deref (.var .chunksLength))) (.index (.arrow (.var .form) .chunk) (.var .i))))
            (.expr (.assign (.deref (.var .chunksLength)) (.bin .add (.deref (.var .chunksLength)) (.num .int 1))))))
          .skip))
      (.ret (.var .result))))))

end Iff.Src
