import Verif.Fixtures
import Verif.Model.Build
import Verif.Model.C
import Verif.Model.Check
import Verif.Model.Chunk
import Verif.Model.Compare
import Verif.Model.ErrCalls
import Verif.Model.ErrText
import Verif.Model.Field
import Verif.Model.File
import Verif.Model.Getopt
import Verif.Model.Id
import Verif.Model.Io
import Verif.Model.Msg
import Verif.Model.Print
import Verif.Model.Program
import Verif.Model.Read
import Verif.Model.Registry
import Verif.Model.Shift
import Verif.Model.TestApp
import Verif.Model.Tools
import Verif.Model.Write
import Verif.Spec.Build
import Verif.Spec.CommandLine
import Verif.Spec.Conform
import Verif.Spec.ConformApp
import Verif.Spec.Construct
import Verif.Spec.Cost
import Verif.Spec.Diagnostics
import Verif.Spec.Dump
import Verif.Spec.Field
import Verif.Spec.Format
import Verif.Spec.Groups
import Verif.Spec.Heap
import Verif.Spec.HeapUse
import Verif.Spec.Ids
import Verif.Spec.Ints
import Verif.Spec.Layout
import Verif.Spec.LayoutApp
import Verif.Spec.Links
import Verif.Spec.Lookup
import Verif.Spec.Owner
import Verif.Spec.Path
import Verif.Spec.Platform
import Verif.Spec.Registry
import Verif.Spec.Search
import Verif.Spec.Shape
import Verif.Spec.Src
import Verif.Spec.SrcField
import Verif.Spec.SrcMain
import Verif.Spec.SrcTools
import Verif.Spec.SrcUse
import Verif.Spec.SrcWalk
import Verif.Spec.TestData
import Verif.Spec.TestLookup
import Verif.Spec.TestSearch
import Verif.Spec.Tree
import Verif.Spec.Valid
import Verif.Proofs.Applied
import Verif.Proofs.AppliedIn
import Verif.Proofs.Arith
import Verif.Proofs.Bits
import Verif.Proofs.Check
import Verif.Proofs.CheckApp
import Verif.Proofs.CheckQuiet
import Verif.Proofs.CheckShift
import Verif.Proofs.Chunk
import Verif.Proofs.Compare
import Verif.Proofs.Construct
import Verif.Proofs.ErrText
import Verif.Proofs.Fine
import Verif.Proofs.Getopt
import Verif.Proofs.Grammar
import Verif.Proofs.HeapArray
import Verif.Proofs.HeapAttach
import Verif.Proofs.HeapBase
import Verif.Proofs.HeapBuild
import Verif.Proofs.HeapCheck
import Verif.Proofs.HeapCompare
import Verif.Proofs.HeapCost
import Verif.Proofs.HeapForest
import Verif.Proofs.HeapForms
import Verif.Proofs.HeapFree
import Verif.Proofs.HeapKeep
import Verif.Proofs.HeapLookup
import Verif.Proofs.HeapPath
import Verif.Proofs.HeapPrint
import Verif.Proofs.HeapRead
import Verif.Proofs.HeapRef
import Verif.Proofs.HeapSearch
import Verif.Proofs.HeapSuffix
import Verif.Proofs.HeapTools
import Verif.Proofs.HeapUpdate
import Verif.Proofs.HeapWrite
import Verif.Proofs.Ids
import Verif.Proofs.Io
import Verif.Proofs.Layout
import Verif.Proofs.LayoutApp
import Verif.Proofs.Notes
import Verif.Proofs.Owner
import Verif.Proofs.Platform
import Verif.Proofs.PlatformCheck
import Verif.Proofs.PlatformTools
import Verif.Proofs.Program
import Verif.Proofs.ReadBase
import Verif.Proofs.ReadExtend
import Verif.Proofs.ReadFd
import Verif.Proofs.ReadFuel
import Verif.Proofs.ReadLocal
import Verif.Proofs.ReadLog
import Verif.Proofs.ReadLoose
import Verif.Proofs.ReadQuiet
import Verif.Proofs.ReadShape
import Verif.Proofs.ReadShift
import Verif.Proofs.ReadTame
import Verif.Proofs.ReadWire
import Verif.Proofs.ReadWrite
import Verif.Proofs.Registry
import Verif.Proofs.SrcApp
import Verif.Proofs.SrcAttach
import Verif.Proofs.SrcBase
import Verif.Proofs.SrcBuild
import Verif.Proofs.SrcCheck
import Verif.Proofs.SrcChecks
import Verif.Proofs.SrcCompare
import Verif.Proofs.SrcCreate
import Verif.Proofs.SrcData
import Verif.Proofs.SrcDataBuild
import Verif.Proofs.SrcDataRun
import Verif.Proofs.SrcField
import Verif.Proofs.SrcFieldWrite
import Verif.Proofs.SrcFields
import Verif.Proofs.SrcFree
import Verif.Proofs.SrcHeap
import Verif.Proofs.SrcHunt
import Verif.Proofs.SrcIff
import Verif.Proofs.SrcIo
import Verif.Proofs.SrcLookup
import Verif.Proofs.SrcLookupNested
import Verif.Proofs.SrcLookupProp
import Verif.Proofs.SrcMain
import Verif.Proofs.SrcMainJoin
import Verif.Proofs.SrcMainRun
import Verif.Proofs.SrcMove
import Verif.Proofs.SrcMsvc
import Verif.Proofs.SrcMsvcJoin
import Verif.Proofs.SrcPrint
import Verif.Proofs.SrcProgram
import Verif.Proofs.SrcRead
import Verif.Proofs.SrcReadChunk
import Verif.Proofs.SrcReg
import Verif.Proofs.SrcSearch
import Verif.Proofs.SrcTest
import Verif.Proofs.SrcTestWrite
import Verif.Proofs.SrcTests
import Verif.Proofs.SrcTools
import Verif.Proofs.SrcUpdate
import Verif.Proofs.SrcWalk
import Verif.Proofs.SrcWrite
import Verif.Proofs.SrcWriteIo
import Verif.Proofs.Tells
import Verif.Proofs.TestApp
import Verif.Proofs.Tools
import Verif.Proofs.Tree
import Verif.Proofs.Write
import Verif.Heap.Access
import Verif.Heap.Build
import Verif.Heap.Check
import Verif.Heap.Compare
import Verif.Heap.Lookup
import Verif.Heap.Mem
import Verif.Heap.Print
import Verif.Heap.Read
import Verif.Heap.Search
import Verif.Heap.Tools
import Verif.Heap.Update
import Verif.Heap.Write
import Verif.Src.Sem
import Verif.Src.Syntax
import Verif.Src.Code.All
import Verif.Src.Code.Bye
import Verif.Src.Code.Cat
import Verif.Src.Code.Catdata
import Verif.Src.Code.Checkextension
import Verif.Src.Code.Chunk
import Verif.Src.Code.Chunkregistry
import Verif.Src.Code.Defaultregistry
import Verif.Src.Code.Error
import Verif.Src.Code.Field
import Verif.Src.Code.Form
import Verif.Src.Code.Formdata
import Verif.Src.Code.Formdatapad
import Verif.Src.Code.Group
import Verif.Src.Code.Headers
import Verif.Src.Code.Hello
import Verif.Src.Code.Id
import Verif.Src.Code.Iff
import Verif.Src.Code.IffjoinMain
import Verif.Src.Code.IffppMain
import Verif.Src.Code.Invalidiff
import Verif.Src.Code.Io
import Verif.Src.Code.Join
import Verif.Src.Code.List
import Verif.Src.Code.Listdata
import Verif.Src.Code.Lookuppropertynested
import Verif.Src.Code.Lookuppropertyoverride
import Verif.Src.Code.Lookuppropertyprop
import Verif.Src.Code.Lookuppropertysimple
import Verif.Src.Code.Names
import Verif.Src.Code.Nestedformdata
import Verif.Src.Code.Pp
import Verif.Src.Code.Ppextension
import Verif.Src.Code.Prop
import Verif.Src.Code.Rawchunk
import Verif.Src.Code.Readcat
import Verif.Src.Code.Readform
import Verif.Src.Code.Readformpad
import Verif.Src.Code.Readlist
import Verif.Src.Code.Readnestedform
import Verif.Src.Code.Searchformscat
import Verif.Src.Code.Searchformsform
import Verif.Src.Code.Searchformsnestedform
import Verif.Src.Code.Test
import Verif.Src.Code.Validiff
import Verif.Src.Code.Writecat
import Verif.Src.Code.Writeform
import Verif.Src.Code.Writeformpad
import Verif.Src.Code.Writelist
import Verif.Src.Code.Writenestedform
import Verif.Props.Build
import Verif.Props.Check
import Verif.Props.CheckApp
import Verif.Props.Compare
import Verif.Props.Construct
import Verif.Props.Dump
import Verif.Props.ErrText
import Verif.Props.Ext
import Verif.Props.Field
import Verif.Props.Format
import Verif.Props.Getopt
import Verif.Props.Grammar
import Verif.Props.HeapBuild
import Verif.Props.HeapCost
import Verif.Props.HeapLookup
import Verif.Props.HeapRead
import Verif.Props.HeapSearch
import Verif.Props.HeapTools
import Verif.Props.HeapUpdate
import Verif.Props.HeapUse
import Verif.Props.Ids
import Verif.Props.Instances
import Verif.Props.InstancesHeap
import Verif.Props.Ints
import Verif.Props.Layout
import Verif.Props.LayoutApp
import Verif.Props.Owner
import Verif.Props.Platform
import Verif.Props.Program
import Verif.Props.Read
import Verif.Props.ReadWrite
import Verif.Props.Registry
import Verif.Props.Shift
import Verif.Props.Silent
import Verif.Props.SrcApp
import Verif.Props.SrcBuild
import Verif.Props.SrcCheck
import Verif.Props.SrcConstruct
import Verif.Props.SrcData
import Verif.Props.SrcField
import Verif.Props.SrcHunt
import Verif.Props.SrcLookup
import Verif.Props.SrcLookupProp
import Verif.Props.SrcMain
import Verif.Props.SrcMsvc
import Verif.Props.SrcOwner
import Verif.Props.SrcPrint
import Verif.Props.SrcRead
import Verif.Props.SrcSearch
import Verif.Props.SrcSuite
import Verif.Props.SrcTests
import Verif.Props.SrcTools
import Verif.Props.SrcUpdate
import Verif.Props.SrcWrite
import Verif.Props.Stream
import Verif.Props.Tools
import Verif.Props.Write
