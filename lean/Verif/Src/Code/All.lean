import Verif.Src.Code.Error
import Verif.Src.Code.Io
import Verif.Src.Code.Id
import Verif.Src.Code.Field
import Verif.Src.Code.Chunkregistry
import Verif.Src.Code.Chunk
import Verif.Src.Code.Rawchunk
import Verif.Src.Code.Group
import Verif.Src.Code.Form
import Verif.Src.Code.Cat
import Verif.Src.Code.Prop
import Verif.Src.Code.List
import Verif.Src.Code.Defaultregistry
import Verif.Src.Code.Iff
import Verif.Src.Code.Join
import Verif.Src.Code.Pp
import Verif.Src.Code.Hello
import Verif.Src.Code.Bye
import Verif.Src.Code.Test
import Verif.Src.Code.IffjoinMain
import Verif.Src.Code.IffppMain
import Verif.Src.Code.Validiff
import Verif.Src.Code.Invalidiff
import Verif.Src.Code.Checkextension
import Verif.Src.Code.Ppextension
import Verif.Src.Code.Formdata
import Verif.Src.Code.Writeform
import Verif.Src.Code.Readform
import Verif.Src.Code.Formdatapad
import Verif.Src.Code.Writeformpad
import Verif.Src.Code.Readformpad
import Verif.Src.Code.Catdata
import Verif.Src.Code.Writecat
import Verif.Src.Code.Readcat
import Verif.Src.Code.Nestedformdata
import Verif.Src.Code.Writenestedform
import Verif.Src.Code.Readnestedform
import Verif.Src.Code.Listdata
import Verif.Src.Code.Writelist
import Verif.Src.Code.Readlist
import Verif.Src.Code.Searchformsform
import Verif.Src.Code.Searchformscat
import Verif.Src.Code.Searchformsnestedform
import Verif.Src.Code.Lookuppropertysimple
import Verif.Src.Code.Lookuppropertyprop
import Verif.Src.Code.Lookuppropertyoverride
import Verif.Src.Code.Lookuppropertynested
/-
  Generated by tools/c2lean.py: all functions.
-/
namespace Iff.Src

/-- The definition of a function; `none` for those of the C library and those with variable
argument lists. -/
def code : Fn → Option Fun
  | .IFF_errorId => some IFF_errorId.code
  | .IFF_readError => some IFF_readError.code
  | .IFF_writeError => some IFF_writeError.code
  | .IFF_readUByte => some IFF_readUByte.code
  | .IFF_writeUByte => some IFF_writeUByte.code
  | .IFF_readUWord => some IFF_readUWord.code
  | .IFF_writeUWord => some IFF_writeUWord.code
  | .IFF_readWord => some IFF_readWord.code
  | .IFF_writeWord => some IFF_writeWord.code
  | .IFF_readULong => some IFF_readULong.code
  | .IFF_writeULong => some IFF_writeULong.code
  | .IFF_readLong => some IFF_readLong.code
  | .IFF_writeLong => some IFF_writeLong.code
  | .IFF_skipUnknownBytes => some IFF_skipUnknownBytes.code
  | .IFF_writeZeroFillerBytes => some IFF_writeZeroFillerBytes.code
  | .IFF_readPaddingByte => some IFF_readPaddingByte.code
  | .IFF_writePaddingByte => some IFF_writePaddingByte.code
  | .IFF_readId => some IFF_readId.code
  | .IFF_writeId => some IFF_writeId.code
  | .IFF_idToString => some IFF_idToString.code
  | .IFF_checkId => some IFF_checkId.code
  | .IFF_printId => some IFF_printId.code
  | .IFF_deriveSuccess => some IFF_deriveSuccess.code
  | .fieldDoesNotFitInChunk => some fieldDoesNotFitInChunk.code
  | .increaseBytesProcessed => some increaseBytesProcessed.code
  | .IFF_readUByteField => some IFF_readUByteField.code
  | .IFF_writeUByteField => some IFF_writeUByteField.code
  | .IFF_readUWordField => some IFF_readUWordField.code
  | .IFF_writeUWordField => some IFF_writeUWordField.code
  | .IFF_readWordField => some IFF_readWordField.code
  | .IFF_writeWordField => some IFF_writeWordField.code
  | .IFF_readULongField => some IFF_readULongField.code
  | .IFF_writeULongField => some IFF_writeULongField.code
  | .IFF_readLongField => some IFF_readLongField.code
  | .IFF_writeLongField => some IFF_writeLongField.code
  | .IFF_readIdField => some IFF_readIdField.code
  | .IFF_writeIdField => some IFF_writeIdField.code
  | .compareFormChunkTypes => some compareFormChunkTypes.code
  | .getFormChunkTypes => some getFormChunkTypes.code
  | .compareChunkTypes => some compareChunkTypes.code
  | .getChunkType => some getChunkType.code
  | .IFF_findChunkType => some IFF_findChunkType.code
  | .IFF_createChunk => some IFF_createChunk.code
  | .readChunkBody => some readChunkBody.code
  | .IFF_readChunk => some IFF_readChunk.code
  | .writeChunkBody => some writeChunkBody.code
  | .IFF_writeChunk => some IFF_writeChunk.code
  | .IFF_checkChunk => some IFF_checkChunk.code
  | .IFF_freeChunk => some IFF_freeChunk.code
  | .IFF_printChunk => some IFF_printChunk.code
  | .IFF_compareChunk => some IFF_compareChunk.code
  | .IFF_createRawChunk => some IFF_createRawChunk.code
  | .IFF_copyDataToRawChunkData => some IFF_copyDataToRawChunkData.code
  | .IFF_setRawChunkData => some IFF_setRawChunkData.code
  | .IFF_setTextData => some IFF_setTextData.code
  | .IFF_readRawChunk => some IFF_readRawChunk.code
  | .IFF_writeRawChunk => some IFF_writeRawChunk.code
  | .IFF_checkRawChunk => some IFF_checkRawChunk.code
  | .IFF_freeRawChunk => some IFF_freeRawChunk.code
  | .IFF_printText => some IFF_printText.code
  | .IFF_printRaw => some IFF_printRaw.code
  | .IFF_printRawChunk => some IFF_printRawChunk.code
  | .IFF_compareRawChunk => some IFF_compareRawChunk.code
  | .IFF_initGroup => some IFF_initGroup.code
  | .IFF_createGroup => some IFF_createGroup.code
  | .IFF_createEmptyGroup => some IFF_createEmptyGroup.code
  | .IFF_createUnparsedGroup => some IFF_createUnparsedGroup.code
  | .IFF_attachToGroup => some IFF_attachToGroup.code
  | .IFF_addToGroup => some IFF_addToGroup.code
  | .readGroupSubChunks => some readGroupSubChunks.code
  | .IFF_readGroup => some IFF_readGroup.code
  | .IFF_writeGroupSubChunks => some IFF_writeGroupSubChunks.code
  | .IFF_writeGroup => some IFF_writeGroup.code
  | .IFF_checkGroupChunkSize => some IFF_checkGroupChunkSize.code
  | .IFF_checkGroupSubChunks => some IFF_checkGroupSubChunks.code
  | .IFF_checkGroup => some IFF_checkGroup.code
  | .IFF_freeGroup => some IFF_freeGroup.code
  | .IFF_printGroupType => some IFF_printGroupType.code
  | .IFF_printGroupSubChunks => some IFF_printGroupSubChunks.code
  | .IFF_printGroup => some IFF_printGroup.code
  | .IFF_compareGroup => some IFF_compareGroup.code
  | .IFF_searchFormsInGroup => some IFF_searchFormsInGroup.code
  | .IFF_incrementChunkSize => some IFF_incrementChunkSize.code
  | .IFF_updateGroupChunkSizes => some IFF_updateGroupChunkSizes.code
  | .IFF_searchFormsFromArray => some IFF_searchFormsFromArray.code
  | .IFF_searchForms => some IFF_searchForms.code
  | .IFF_updateChunkSizes => some IFF_updateChunkSizes.code
  | .IFF_createForm => some IFF_createForm.code
  | .IFF_createEmptyForm => some IFF_createEmptyForm.code
  | .IFF_createUnparsedForm => some IFF_createUnparsedForm.code
  | .IFF_addToForm => some IFF_addToForm.code
  | .IFF_readForm => some IFF_readForm.code
  | .IFF_writeForm => some IFF_writeForm.code
  | .IFF_checkFormType => some IFF_checkFormType.code
  | .form_subChunkCheck => some form_subChunkCheck.code
  | .IFF_checkForm => some IFF_checkForm.code
  | .IFF_freeForm => some IFF_freeForm.code
  | .IFF_printForm => some IFF_printForm.code
  | .IFF_compareForm => some IFF_compareForm.code
  | .IFF_mergeFormArray => some IFF_mergeFormArray.code
  | .IFF_searchFormsInForm => some IFF_searchFormsInForm.code
  | .IFF_updateFormChunkSizes => some IFF_updateFormChunkSizes.code
  | .searchList => some searchList.code
  | .searchProperty => some searchProperty.code
  | .IFF_getDataChunkFromForm => some IFF_getDataChunkFromForm.code
  | .IFF_getChunkFromForm => some IFF_getChunkFromForm.code
  | .IFF_getChunksFromForm => some IFF_getChunksFromForm.code
  | .IFF_createCAT => some IFF_createCAT.code
  | .IFF_createEmptyCATWithContentsType => some IFF_createEmptyCATWithContentsType.code
  | .IFF_createEmptyCAT => some IFF_createEmptyCAT.code
  | .IFF_createUnparsedCAT => some IFF_createUnparsedCAT.code
  | .checkValidCATSubChunkId => some checkValidCATSubChunkId.code
  | .updateContentsType => some updateContentsType.code
  | .IFF_addToCAT => some IFF_addToCAT.code
  | .IFF_addToCATAndUpdateContentsType => some IFF_addToCATAndUpdateContentsType.code
  | .IFF_readCAT => some IFF_readCAT.code
  | .IFF_writeCAT => some IFF_writeCAT.code
  | .IFF_checkCATSubChunk => some IFF_checkCATSubChunk.code
  | .IFF_checkCAT => some IFF_checkCAT.code
  | .IFF_freeCAT => some IFF_freeCAT.code
  | .IFF_printCAT => some IFF_printCAT.code
  | .IFF_compareCAT => some IFF_compareCAT.code
  | .IFF_searchFormsInCAT => some IFF_searchFormsInCAT.code
  | .IFF_updateCATChunkSizes => some IFF_updateCATChunkSizes.code
  | .IFF_createProp => some IFF_createProp.code
  | .IFF_createEmptyProp => some IFF_createEmptyProp.code
  | .IFF_createUnparsedProp => some IFF_createUnparsedProp.code
  | .IFF_addToProp => some IFF_addToProp.code
  | .IFF_readProp => some IFF_readProp.code
  | .IFF_writeProp => some IFF_writeProp.code
  | .prop_subChunkCheck => some prop_subChunkCheck.code
  | .IFF_checkProp => some IFF_checkProp.code
  | .IFF_freeProp => some IFF_freeProp.code
  | .IFF_printProp => some IFF_printProp.code
  | .IFF_compareProp => some IFF_compareProp.code
  | .IFF_updatePropChunkSizes => some IFF_updatePropChunkSizes.code
  | .IFF_getChunkFromProp => some IFF_getChunkFromProp.code
  | .IFF_createList => some IFF_createList.code
  | .IFF_createEmptyListWithContentsType => some IFF_createEmptyListWithContentsType.code
  | .IFF_createEmptyList => some IFF_createEmptyList.code
  | .IFF_createUnparsedList => some IFF_createUnparsedList.code
  | .addPropToList => some addPropToList.code
  | .IFF_addPropToList => some IFF_addPropToList.code
  | .IFF_addToList => some IFF_addToList.code
  | .IFF_addToListAndUpdateContentsType => some IFF_addToListAndUpdateContentsType.code
  | .readListSubChunks => some readListSubChunks.code
  | .IFF_readList => some IFF_readList.code
  | .writeListPropChunks => some writeListPropChunks.code
  | .IFF_writeList => some IFF_writeList.code
  | .checkListPropChunks => some checkListPropChunks.code
  | .IFF_checkList => some IFF_checkList.code
  | .freeListPropChunks => some freeListPropChunks.code
  | .IFF_freeList => some IFF_freeList.code
  | .printListPropChunks => some printListPropChunks.code
  | .IFF_printList => some IFF_printList.code
  | .compareListPropChunks => some compareListPropChunks.code
  | .IFF_compareList => some IFF_compareList.code
  | .IFF_searchFormsInList => some IFF_searchFormsInList.code
  | .IFF_updateListChunkSizes => some IFF_updateListChunkSizes.code
  | .IFF_getPropFromList => some IFF_getPropFromList.code
  | .selectChunkRegistry => some selectChunkRegistry.code
  | .IFF_readFd => some IFF_readFd.code
  | .IFF_readFile => some IFF_readFile.code
  | .IFF_read => some IFF_read.code
  | .IFF_writeFd => some IFF_writeFd.code
  | .IFF_writeFile => some IFF_writeFile.code
  | .IFF_write => some IFF_write.code
  | .IFF_free => some IFF_free.code
  | .IFF_check => some IFF_check.code
  | .IFF_print => some IFF_print.code
  | .IFF_compare => some IFF_compare.code
  | .IFF_join => some IFF_join.code
  | .IFF_prettyPrint => some IFF_prettyPrint.code
  | .TEST_createHelloChunk => some TEST_createHelloChunk.code
  | .TEST_createHello => some TEST_createHello.code
  | .TEST_readHello => some TEST_readHello.code
  | .TEST_writeHello => some TEST_writeHello.code
  | .TEST_checkHello => some TEST_checkHello.code
  | .TEST_freeHello => some TEST_freeHello.code
  | .TEST_printHello => some TEST_printHello.code
  | .TEST_compareHello => some TEST_compareHello.code
  | .TEST_createByeChunk => some TEST_createByeChunk.code
  | .TEST_createBye => some TEST_createBye.code
  | .TEST_readBye => some TEST_readBye.code
  | .TEST_writeBye => some TEST_writeBye.code
  | .TEST_checkBye => some TEST_checkBye.code
  | .TEST_freeBye => some TEST_freeBye.code
  | .TEST_printBye => some TEST_printBye.code
  | .TEST_compareBye => some TEST_compareBye.code
  | .TEST_read => some TEST_read.code
  | .TEST_write => some TEST_write.code
  | .TEST_free => some TEST_free.code
  | .TEST_check => some TEST_check.code
  | .TEST_print => some TEST_print.code
  | .TEST_compare => some TEST_compare.code
  | .iffjoin_printUsage => some iffjoin_printUsage.code
  | .iffjoin_printVersion => some iffjoin_printVersion.code
  | .iffjoin_main => some iffjoin_main.code
  | .iffjoin_mainPosix => some iffjoin_mainPosix.code
  | .iffjoin_printUsageMsvc => some iffjoin_printUsageMsvc.code
  | .iffjoin_mainMsvc => some iffjoin_mainMsvc.code
  | .iffpp_printUsage => some iffpp_printUsage.code
  | .iffpp_printVersion => some iffpp_printVersion.code
  | .iffpp_main => some iffpp_main.code
  | .iffpp_mainPosix => some iffpp_mainPosix.code
  | .iffpp_printUsageMsvc => some iffpp_printUsageMsvc.code
  | .iffpp_mainMsvc => some iffpp_mainMsvc.code
  | .validiff_main => some validiff_main.code
  | .invalidiff_main => some invalidiff_main.code
  | .checkextension_main => some checkextension_main.code
  | .ppextension_main => some ppextension_main.code
  | .formdata_createTestDataChunk => some formdata_createTestDataChunk.code
  | .formdata_createHelloChunk => some formdata_createHelloChunk.code
  | .formdata_createByeChunk => some formdata_createByeChunk.code
  | .formdata_IFF_createTestForm => some formdata_IFF_createTestForm.code
  | .writeform_main => some writeform_main.code
  | .readform_main => some readform_main.code
  | .formdata_pad_createTestDataChunk => some formdata_pad_createTestDataChunk.code
  | .formdata_pad_createHelloChunk => some formdata_pad_createHelloChunk.code
  | .formdata_pad_createByeChunk => some formdata_pad_createByeChunk.code
  | .formdata_pad_IFF_createTestForm => some formdata_pad_IFF_createTestForm.code
  | .writeform_pad_main => some writeform_pad_main.code
  | .readform_pad_main => some readform_pad_main.code
  | .catdata_createTestDataChunk => some catdata_createTestDataChunk.code
  | .catdata_createHelo1Chunk => some catdata_createHelo1Chunk.code
  | .catdata_createBye1Chunk => some catdata_createBye1Chunk.code
  | .catdata_createHelo2Chunk => some catdata_createHelo2Chunk.code
  | .catdata_createBye2Chunk => some catdata_createBye2Chunk.code
  | .catdata_createTestForm => some catdata_createTestForm.code
  | .catdata_createTest1Form => some catdata_createTest1Form.code
  | .catdata_createTest2Form => some catdata_createTest2Form.code
  | .catdata_IFF_createTestCAT => some catdata_IFF_createTestCAT.code
  | .writecat_main => some writecat_main.code
  | .readcat_main => some readcat_main.code
  | .nestedformdata_createTestDataChunk => some nestedformdata_createTestDataChunk.code
  | .nestedformdata_createHelo1Chunk => some nestedformdata_createHelo1Chunk.code
  | .nestedformdata_createBye1Chunk => some nestedformdata_createBye1Chunk.code
  | .nestedformdata_createHelo2Chunk => some nestedformdata_createHelo2Chunk.code
  | .nestedformdata_createBye2Chunk => some nestedformdata_createBye2Chunk.code
  | .nestedformdata_createTestForm => some nestedformdata_createTestForm.code
  | .nestedformdata_createTest1Form => some nestedformdata_createTest1Form.code
  | .nestedformdata_createTest2Form => some nestedformdata_createTest2Form.code
  | .nestedformdata_IFF_createTestForm => some nestedformdata_IFF_createTestForm.code
  | .writenestedform_main => some writenestedform_main.code
  | .readnestedform_main => some readnestedform_main.code
  | .listdata_createTestDataChunk => some listdata_createTestDataChunk.code
  | .listdata_createHeloChunk => some listdata_createHeloChunk.code
  | .listdata_createBye1Chunk => some listdata_createBye1Chunk.code
  | .listdata_createBye2Chunk => some listdata_createBye2Chunk.code
  | .listdata_createTestProp => some listdata_createTestProp.code
  | .listdata_createTestForm => some listdata_createTestForm.code
  | .listdata_createTest1Form => some listdata_createTest1Form.code
  | .listdata_createTest2Form => some listdata_createTest2Form.code
  | .listdata_IFF_createTestList => some listdata_IFF_createTestList.code
  | .writelist_main => some writelist_main.code
  | .readlist_main => some readlist_main.code
  | .searchforms_form_main => some searchforms_form_main.code
  | .searchforms_cat_main => some searchforms_cat_main.code
  | .searchforms_nestedform_main => some searchforms_nestedform_main.code
  | .lookupproperty_simple_main => some lookupproperty_simple_main.code
  | .lookupproperty_prop_main => some lookupproperty_prop_main.code
  | .lookupproperty_override_main => some lookupproperty_override_main.code
  | .lookupproperty_nested_main => some lookupproperty_nested_main.code
  | _ => none

end Iff.Src
