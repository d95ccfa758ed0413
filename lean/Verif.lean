import Verif.Conformance.Data
import Verif.Conformance.Gen
import Verif.Conformance.Prog
import Verif.Conformance.Swc
import Verif.Conformance.Text
import Verif.Conformance.Wire
import Verif.Model.Autosar
import Verif.Model.Builder
import Verif.Model.Client
import Verif.Model.Com
import Verif.Model.ComFile
import Verif.Model.ComPrint
import Verif.Model.Compiler
import Verif.Model.CompilerObj
import Verif.Model.Concurrent
import Verif.Model.Connect
import Verif.Model.Context
import Verif.Model.Element
import Verif.Model.Endpoint
import Verif.Model.File
import Verif.Model.FileManager
import Verif.Model.FileMap
import Verif.Model.FromText
import Verif.Model.GenCode
import Verif.Model.GenFile
import Verif.Model.GenInit
import Verif.Model.GenPrint
import Verif.Model.GenText
import Verif.Model.Generator
import Verif.Model.Import
import Verif.Model.InitValue
import Verif.Model.Lifecycle
import Verif.Model.ManyNodes
import Verif.Model.Node
import Verif.Model.NodeBuild
import Verif.Model.NodeData
import Verif.Model.NumHeader
import Verif.Model.Parser
import Verif.Model.PortAttr
import Verif.Model.Proto
import Verif.Model.Py
import Verif.Model.PyStr
import Verif.Model.PyVal
import Verif.Model.RmfCmd
import Verif.Model.RmfHeader
import Verif.Model.Session
import Verif.Model.Signature
import Verif.Model.Socket
import Verif.Model.Struct
import Verif.Model.Tester
import Verif.Model.Threads
import Verif.Model.Tools
import Verif.Model.Transmit
import Verif.Model.Vm
import Verif.Model.VmObj
import Verif.Model.Writer
import Verif.Proofs.Again
import Verif.Proofs.Bits
import Verif.Proofs.Builder
import Verif.Proofs.CDispatch
import Verif.Proofs.CText
import Verif.Proofs.CTextCode
import Verif.Proofs.CUnit
import Verif.Proofs.CUnitBody
import Verif.Proofs.CUnitFile
import Verif.Proofs.ComText
import Verif.Proofs.Concurrent
import Verif.Proofs.Connect
import Verif.Proofs.Connect2
import Verif.Proofs.Context
import Verif.Proofs.FileManager
import Verif.Proofs.FileManager2
import Verif.Proofs.FileManager3
import Verif.Proofs.FileMap
import Verif.Proofs.FileMap2
import Verif.Proofs.GenCode
import Verif.Proofs.Grammar
import Verif.Proofs.Import
import Verif.Proofs.Import2
import Verif.Proofs.InitValue
import Verif.Proofs.ManyNodes
import Verif.Proofs.Node
import Verif.Proofs.NodeData
import Verif.Proofs.NumHeader
import Verif.Proofs.Order
import Verif.Proofs.Parser
import Verif.Proofs.Partition
import Verif.Proofs.PortAttr
import Verif.Proofs.PyStr
import Verif.Proofs.RmfHeader
import Verif.Proofs.RoundTrip
import Verif.Proofs.Session
import Verif.Proofs.Signature
import Verif.Proofs.Socket
import Verif.Proofs.Struct
import Verif.Proofs.ThreadEnd
import Verif.Proofs.ThreadLock
import Verif.Proofs.ThreadOrder
import Verif.Proofs.ThreadSteps
import Verif.Proofs.Threads
import Verif.Proofs.Tools
import Verif.Proofs.Tools2
import Verif.Proofs.Tools3
import Verif.Proofs.Tools4
import Verif.Proofs.Vm
import Verif.Proofs.VmArray
import Verif.Proofs.VmLax
import Verif.Proofs.VmPack
import Verif.Proofs.VmProg
import Verif.Proofs.VmRead
import Verif.Proofs.VmUnpack
import Verif.Props.Again
import Verif.Props.AgainMore
import Verif.Props.Autosar
import Verif.Props.Builder
import Verif.Props.BuilderMore
import Verif.Props.CReceive
import Verif.Props.CallbackMore
import Verif.Props.Client
import Verif.Props.Com
import Verif.Props.ComFile
import Verif.Props.ComText
import Verif.Props.CompactNames
import Verif.Props.CompilerObj
import Verif.Props.Connect
import Verif.Props.Context
import Verif.Props.Copy
import Verif.Props.CopyNested
import Verif.Props.CopyNumbers
import Verif.Props.DataMore
import Verif.Props.Definition
import Verif.Props.Endpoint
import Verif.Props.ErrorMore
import Verif.Props.File
import Verif.Props.FileManager
import Verif.Props.FileMap
import Verif.Props.FileMapZero
import Verif.Props.Filters
import Verif.Props.Forward
import Verif.Props.GenCode
import Verif.Props.GenDispatch
import Verif.Props.GenFile
import Verif.Props.GenFileMore
import Verif.Props.GenMore
import Verif.Props.GenPrint
import Verif.Props.GenSuffix
import Verif.Props.GenText
import Verif.Props.GenTextMore
import Verif.Props.GenUnit
import Verif.Props.Generator
import Verif.Props.GeneratorMore
import Verif.Props.GeneratorSort
import Verif.Props.Grammar
import Verif.Props.Import
import Verif.Props.ImportCopy
import Verif.Props.ImportNames
import Verif.Props.ImportText
import Verif.Props.InitEnd
import Verif.Props.InitExact
import Verif.Props.InitMore
import Verif.Props.Interop
import Verif.Props.Join
import Verif.Props.JoinEmpty
import Verif.Props.JoinMeaning
import Verif.Props.JoinRefuse
import Verif.Props.Lifecycle
import Verif.Props.LoadNames
import Verif.Props.LockFree
import Verif.Props.ManyNodes
import Verif.Props.MirrorExact
import Verif.Props.Names
import Verif.Props.NeverStuck
import Verif.Props.Node
import Verif.Props.NodeData
import Verif.Props.NodeMore
import Verif.Props.NumHeader
import Verif.Props.OrderMore
import Verif.Props.Parser
import Verif.Props.ParserMore
import Verif.Props.Partition
import Verif.Props.PartitionOrder
import Verif.Props.PortAttr
import Verif.Props.PortExact
import Verif.Props.Proto
import Verif.Props.Reception
import Verif.Props.Relay
import Verif.Props.RmfCmd
import Verif.Props.RmfHeader
import Verif.Props.RoundTrip
import Verif.Props.Session
import Verif.Props.Signature
import Verif.Props.Socket
import Verif.Props.SplitMore
import Verif.Props.Tester
import Verif.Props.ThreadRace
import Verif.Props.Threads
import Verif.Props.Tools
import Verif.Props.Transmit
import Verif.Props.TransmitMore
import Verif.Props.Vm
import Verif.Props.VmArray
import Verif.Props.VmExact
import Verif.Props.VmObj
import Verif.Props.VmSafety
import Verif.Props.WriteMore
import Verif.Props.Writer
import Verif.Spec.Autosar
import Verif.Spec.Builder
import Verif.Spec.CDispatch
import Verif.Spec.CReceive
import Verif.Spec.CText
import Verif.Spec.CUnit
import Verif.Spec.Client
import Verif.Spec.Com
import Verif.Spec.ComFile
import Verif.Spec.ComText
import Verif.Spec.CompilerObj
import Verif.Spec.Connect
import Verif.Spec.Context
import Verif.Spec.File
import Verif.Spec.FileManager
import Verif.Spec.FileMap
import Verif.Spec.Forward
import Verif.Spec.GenCode
import Verif.Spec.GenFile
import Verif.Spec.GenText
import Verif.Spec.Grammar
import Verif.Spec.Import
import Verif.Spec.LaxLayout
import Verif.Spec.Layout
import Verif.Spec.ManyNodes
import Verif.Spec.Node
import Verif.Spec.NodeData
import Verif.Spec.Parser
import Verif.Spec.PortAttr
import Verif.Spec.Reading
import Verif.Spec.Reception
import Verif.Spec.Session
import Verif.Spec.Signature
import Verif.Spec.Stream
import Verif.Spec.Tester
import Verif.Spec.Threads
import Verif.Spec.Tools
import Verif.Spec.Transmit
import Verif.Spec.VmArray
import Verif.Spec.VmSafety
