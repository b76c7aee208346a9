/-
  Generated by tools/c2lean.py from src/libiff, src/iffjoin and src/iffpp: the names that occur in the sources.
-/
namespace Iff.Src

/-- Functions: those of the library, and those of the C library. -/
inductive Fn where
  | IFF_errorId
  | IFF_readError
  | IFF_writeError
  | IFF_readUByte
  | IFF_writeUByte
  | IFF_readUWord
  | IFF_writeUWord
  | IFF_readWord
  | IFF_writeWord
  | IFF_readULong
  | IFF_writeULong
  | IFF_readLong
  | IFF_writeLong
  | IFF_skipUnknownBytes
  | IFF_writeZeroFillerBytes
  | IFF_readPaddingByte
  | IFF_writePaddingByte
  | IFF_readId
  | IFF_writeId
  | IFF_idToString
  | IFF_checkId
  | IFF_printId
  | IFF_deriveSuccess
  | fieldDoesNotFitInChunk
  | increaseBytesProcessed
  | IFF_readUByteField
  | IFF_writeUByteField
  | IFF_readUWordField
  | IFF_writeUWordField
  | IFF_readWordField
  | IFF_writeWordField
  | IFF_readULongField
  | IFF_writeULongField
  | IFF_readLongField
  | IFF_writeLongField
  | IFF_readIdField
  | IFF_writeIdField
  | compareFormChunkTypes
  | getFormChunkTypes
  | compareChunkTypes
  | getChunkType
  | IFF_findChunkType
  | IFF_createChunk
  | readChunkBody
  | IFF_readChunk
  | writeChunkBody
  | IFF_writeChunk
  | IFF_checkChunk
  | IFF_freeChunk
  | IFF_printChunk
  | IFF_compareChunk
  | IFF_createRawChunk
  | IFF_copyDataToRawChunkData
  | IFF_setRawChunkData
  | IFF_setTextData
  | IFF_readRawChunk
  | IFF_writeRawChunk
  | IFF_checkRawChunk
  | IFF_freeRawChunk
  | IFF_printText
  | IFF_printRaw
  | IFF_printRawChunk
  | IFF_compareRawChunk
  | IFF_initGroup
  | IFF_createGroup
  | IFF_createEmptyGroup
  | IFF_createUnparsedGroup
  | IFF_attachToGroup
  | IFF_addToGroup
  | readGroupSubChunks
  | IFF_readGroup
  | IFF_writeGroupSubChunks
  | IFF_writeGroup
  | IFF_checkGroupChunkSize
  | IFF_checkGroupSubChunks
  | IFF_checkGroup
  | IFF_freeGroup
  | IFF_printGroupType
  | IFF_printGroupSubChunks
  | IFF_printGroup
  | IFF_compareGroup
  | IFF_searchFormsInGroup
  | IFF_incrementChunkSize
  | IFF_updateGroupChunkSizes
  | IFF_searchFormsFromArray
  | IFF_searchForms
  | IFF_updateChunkSizes
  | IFF_createForm
  | IFF_createEmptyForm
  | IFF_createUnparsedForm
  | IFF_addToForm
  | IFF_readForm
  | IFF_writeForm
  | IFF_checkFormType
  | form_subChunkCheck
  | IFF_checkForm
  | IFF_freeForm
  | IFF_printForm
  | IFF_compareForm
  | IFF_mergeFormArray
  | IFF_searchFormsInForm
  | IFF_updateFormChunkSizes
  | searchList
  | searchProperty
  | IFF_getDataChunkFromForm
  | IFF_getChunkFromForm
  | IFF_getChunksFromForm
  | IFF_createCAT
  | IFF_createEmptyCATWithContentsType
  | IFF_createEmptyCAT
  | IFF_createUnparsedCAT
  | checkValidCATSubChunkId
  | updateContentsType
  | IFF_addToCAT
  | IFF_addToCATAndUpdateContentsType
  | IFF_readCAT
  | IFF_writeCAT
  | IFF_checkCATSubChunk
  | IFF_checkCAT
  | IFF_freeCAT
  | IFF_printCAT
  | IFF_compareCAT
  | IFF_searchFormsInCAT
  | IFF_updateCATChunkSizes
  | IFF_createProp
  | IFF_createEmptyProp
  | IFF_createUnparsedProp
  | IFF_addToProp
  | IFF_readProp
  | IFF_writeProp
  | prop_subChunkCheck
  | IFF_checkProp
  | IFF_freeProp
  | IFF_printProp
  | IFF_compareProp
  | IFF_updatePropChunkSizes
  | IFF_getChunkFromProp
  | IFF_createList
  | IFF_createEmptyListWithContentsType
  | IFF_createEmptyList
  | IFF_createUnparsedList
  | addPropToList
  | IFF_addPropToList
  | IFF_addToList
  | IFF_addToListAndUpdateContentsType
  | readListSubChunks
  | IFF_readList
  | writeListPropChunks
  | IFF_writeList
  | checkListPropChunks
  | IFF_checkList
  | freeListPropChunks
  | IFF_freeList
  | printListPropChunks
  | IFF_printList
  | compareListPropChunks
  | IFF_compareList
  | IFF_searchFormsInList
  | IFF_updateListChunkSizes
  | IFF_getPropFromList
  | selectChunkRegistry
  | IFF_readFd
  | IFF_readFile
  | IFF_read
  | IFF_writeFd
  | IFF_writeFile
  | IFF_write
  | IFF_free
  | IFF_check
  | IFF_print
  | IFF_compare
  | IFF_join
  | IFF_prettyPrint
  | TEST_createHelloChunk
  | TEST_createHello
  | TEST_readHello
  | TEST_writeHello
  | TEST_checkHello
  | TEST_freeHello
  | TEST_printHello
  | TEST_compareHello
  | TEST_createByeChunk
  | TEST_createBye
  | TEST_readBye
  | TEST_writeBye
  | TEST_checkBye
  | TEST_freeBye
  | TEST_printBye
  | TEST_compareBye
  | TEST_read
  | TEST_write
  | TEST_free
  | TEST_check
  | TEST_print
  | TEST_compare
  | iffjoin_printUsage
  | iffjoin_printVersion
  | iffjoin_main
  | iffjoin_mainPosix
  | iffjoin_printUsageMsvc
  | iffjoin_mainMsvc
  | iffpp_printUsage
  | iffpp_printVersion
  | iffpp_main
  | iffpp_mainPosix
  | iffpp_printUsageMsvc
  | iffpp_mainMsvc
  | validiff_main
  | invalidiff_main
  | checkextension_main
  | ppextension_main
  | formdata_createTestDataChunk
  | formdata_createHelloChunk
  | formdata_createByeChunk
  | formdata_IFF_createTestForm
  | writeform_main
  | readform_main
  | formdata_pad_createTestDataChunk
  | formdata_pad_createHelloChunk
  | formdata_pad_createByeChunk
  | formdata_pad_IFF_createTestForm
  | writeform_pad_main
  | readform_pad_main
  | catdata_createTestDataChunk
  | catdata_createHelo1Chunk
  | catdata_createBye1Chunk
  | catdata_createHelo2Chunk
  | catdata_createBye2Chunk
  | catdata_createTestForm
  | catdata_createTest1Form
  | catdata_createTest2Form
  | catdata_IFF_createTestCAT
  | writecat_main
  | readcat_main
  | nestedformdata_createTestDataChunk
  | nestedformdata_createHelo1Chunk
  | nestedformdata_createBye1Chunk
  | nestedformdata_createHelo2Chunk
  | nestedformdata_createBye2Chunk
  | nestedformdata_createTestForm
  | nestedformdata_createTest1Form
  | nestedformdata_createTest2Form
  | nestedformdata_IFF_createTestForm
  | writenestedform_main
  | readnestedform_main
  | listdata_createTestDataChunk
  | listdata_createHeloChunk
  | listdata_createBye1Chunk
  | listdata_createBye2Chunk
  | listdata_createTestProp
  | listdata_createTestForm
  | listdata_createTest1Form
  | listdata_createTest2Form
  | listdata_IFF_createTestList
  | writelist_main
  | readlist_main
  | searchforms_form_main
  | searchforms_cat_main
  | searchforms_nestedform_main
  | lookupproperty_simple_main
  | lookupproperty_prop_main
  | lookupproperty_override_main
  | lookupproperty_nested_main
  | malloc
  | calloc
  | realloc
  | free
  | memcpy
  | memcmp
  | strlen
  | bsearch
  | fgetc
  | fputc
  | fread
  | fwrite
  | fseek
  | fopen
  | fclose
  | printf
  | fprintf
  | puts
  | strcmp
  | getopt
  | getopt_long
  | IFF_error
  | IFF_printIndent
  deriving DecidableEq, Repr

/-- Parameters and local variables. -/
inductive Var where
  | a
  | argc
  | argv
  | attributeName
  | b
  | bye
  | bye1
  | bye1Chunk
  | bye2
  | bye2Chunk
  | byeChunk
  | byte
  | bytesProcessed
  | bytesToSkip
  | c
  | cat
  | chunk
  | chunk1
  | chunk2
  | chunkData
  | chunkId
  | chunkRegistry
  | chunkSize
  | chunkType
  | chunkTypesNode
  | chunk_1
  | chunksLength
  | command
  | contentsType
  | data
  | emptyData
  | fieldSize
  | file
  | filename
  | form
  | formChunkTypes
  | formType
  | formType2
  | formTypes
  | formTypesLength
  | forms
  | formsLength
  | group
  | group1
  | group2
  | groupType
  | groupTypeCheck
  | groupTypeName
  | group_1
  | hello
  | hello1
  | hello2
  | helo1Chunk
  | helo2Chunk
  | heloChunk
  | i
  | i_1
  | id
  | id2
  | indentLevel
  | inputFilenames
  | inputFilenamesLength
  | key
  | l
  | «list»
  | list1
  | list2
  | long_options
  | lookupChunk
  | newLength
  | optind
  | option_index
  | options
  | outerForm
  | outputFilename
  | parent
  | prop
  | propChunk
  | r
  | rawChunk
  | rawChunk1
  | rawChunk2
  | readUWord
  | readValue
  | readWord
  | result
  | resultLength
  | returnValue
  | source
  | sourceLength
  | status
  | structSize
  | subChunk
  | subChunkCheck
  | subChunkSize
  | target
  | targetLength
  | test1Form
  | test2Form
  | testForm
  | testProp
  | text
  | textLength
  | value
  | writeUWord
  | writeValue
  | writeWord
  deriving DecidableEq, Repr

/-- Members of structs. -/
inductive Member where
  | parent
  | chunkId
  | chunkSize
  | groupType
  | chunkLength
  | chunk
  | formType
  | contentsType
  | propLength
  | prop
  | chunkData
  | createExtensionChunk
  | readExtensionChunkFields
  | writeExtensionChunkFields
  | checkExtensionChunk
  | freeExtensionChunk
  | printExtensionChunk
  | compareExtensionChunk
  | chunkTypesLength
  | chunkTypes
  | chunkTypesNode
  | formChunkTypesLength
  | formChunkTypes
  | globalChunkTypesNode
  | defaultChunkType
  | name
  | has_arg
  | flag
  | val
  | a
  | b
  | c
  | one
  | two
  deriving DecidableEq, Repr

/-- Structs. -/
inductive Struct where
  | IFF_Chunk
  | IFF_Group
  | IFF_Form
  | IFF_CAT
  | IFF_List
  | IFF_RawChunk
  | IFF_ChunkType
  | IFF_ChunkTypesNode
  | IFF_FormChunkTypes
  | IFF_ChunkRegistry
  | option
  | TEST_Hello
  | TEST_Bye
  deriving DecidableEq, Repr

/-- Static objects. -/
inductive Glob where
  | IFF_defaultChunkRegistry
  | IFF_defaultChunkType
  | IFF_globalChunkTypes
  | IFF_globalChunkTypesNode
  | catdata_bye1Data
  | catdata_bye2Data
  | catdata_helo1Data
  | catdata_helo2Data
  | formdata_byeData
  | formdata_heloData
  | formdata_pad_byeData
  | formdata_pad_heloData
  | listdata_bye1Data
  | listdata_bye2Data
  | listdata_heloData
  | nestedformdata_bye1Data
  | nestedformdata_bye2Data
  | nestedformdata_helo1Data
  | nestedformdata_helo2Data
  | test_applicationChunkTypes
  | test_applicationChunkTypesNode
  | test_chunkRegistry
  | test_formChunkTypes
  deriving DecidableEq, Repr

end Iff.Src
