import Verif.Lemmas.Bits
import Verif.Lemmas.Codec
import Verif.Lemmas.Decode
import Verif.Lemmas.Dict
import Verif.Lemmas.Digits
import Verif.Lemmas.Exhaust
import Verif.Lemmas.Float
import Verif.Lemmas.Graph
import Verif.Lemmas.GraphBounded
import Verif.Lemmas.GraphLinked
import Verif.Lemmas.GraphSend
import Verif.Lemmas.Int
import Verif.Lemmas.Interp
import Verif.Lemmas.Length
import Verif.Lemmas.Logging
import Verif.Lemmas.Manager
import Verif.Lemmas.Names
import Verif.Lemmas.NamesCls
import Verif.Lemmas.Oid
import Verif.Lemmas.Plain
import Verif.Lemmas.ProgramFlow
import Verif.Lemmas.Receive
import Verif.Lemmas.ReceiveAll
import Verif.Lemmas.Region
import Verif.Lemmas.SourceFacts
import Verif.Lemmas.SrcArith
import Verif.Lemmas.SrcAttr
import Verif.Lemmas.SrcBad
import Verif.Lemmas.SrcBase
import Verif.Lemmas.SrcBer
import Verif.Lemmas.SrcCls
import Verif.Lemmas.SrcDec
import Verif.Lemmas.SrcDict
import Verif.Lemmas.SrcEnc
import Verif.Lemmas.SrcEq
import Verif.Lemmas.SrcFin
import Verif.Lemmas.SrcForms
import Verif.Lemmas.SrcGraph
import Verif.Lemmas.SrcInit
import Verif.Lemmas.SrcInt
import Verif.Lemmas.SrcLoop
import Verif.Lemmas.SrcMake
import Verif.Lemmas.SrcMakePdu
import Verif.Lemmas.SrcMakePduAny
import Verif.Lemmas.SrcMakeVbl
import Verif.Lemmas.SrcMgr
import Verif.Lemmas.SrcMgr1
import Verif.Lemmas.SrcMgr2
import Verif.Lemmas.SrcMgr3
import Verif.Lemmas.SrcMgr4
import Verif.Lemmas.SrcMgr5
import Verif.Lemmas.SrcMgr6
import Verif.Lemmas.SrcMsg
import Verif.Lemmas.SrcNew
import Verif.Lemmas.SrcOct
import Verif.Lemmas.SrcOid
import Verif.Lemmas.SrcOidMeth
import Verif.Lemmas.SrcOidOps
import Verif.Lemmas.SrcOidSim
import Verif.Lemmas.SrcPdu
import Verif.Lemmas.SrcRecv
import Verif.Lemmas.SrcRecv2
import Verif.Lemmas.SrcRecv3
import Verif.Lemmas.SrcRep
import Verif.Lemmas.SrcRole
import Verif.Lemmas.SrcRun
import Verif.Lemmas.SrcSeq
import Verif.Lemmas.SrcStep
import Verif.Lemmas.SrcStr
import Verif.Lemmas.SrcTrap
import Verif.Lemmas.SrcTurn
import Verif.Lemmas.SrcTurn2
import Verif.Lemmas.SrcTurn3
import Verif.Lemmas.SrcTurn4
import Verif.Lemmas.SrcTwos
import Verif.Lemmas.SrcUptime
import Verif.Lemmas.SrcUtil
import Verif.Lemmas.SrcVal
import Verif.Lemmas.Stable
import Verif.Lemmas.StrLim
import Verif.Lemmas.Text
import Verif.Lemmas.Unique
import Verif.Lemmas.ValEq
import Verif.Lemmas.World
import Verif.Model.Arith
import Verif.Model.Ber
import Verif.Model.Channels
import Verif.Model.Cls
import Verif.Model.Depth
import Verif.Model.Eq
import Verif.Model.Floats
import Verif.Model.Forms
import Verif.Model.Graph
import Verif.Model.Heap
import Verif.Model.Imports
import Verif.Model.Interp
import Verif.Model.Lang
import Verif.Model.Logging
import Verif.Model.LongInts
import Verif.Model.Manager
import Verif.Model.Names
import Verif.Model.NamesData
import Verif.Model.Obj
import Verif.Model.Process
import Verif.Model.Program
import Verif.Model.Role
import Verif.Model.Run
import Verif.Model.Scripts
import Verif.Model.SourceData
import Verif.Model.Str
import Verif.Model.StrLim
import Verif.Model.Text
import Verif.Model.Threads
import Verif.Model.Turn311
import Verif.Model.World
import Verif.Props.Arith
import Verif.Props.Channels
import Verif.Props.Decoding
import Verif.Props.Depth
import Verif.Props.EndToEnd
import Verif.Props.Equality
import Verif.Props.Fields
import Verif.Props.Forms
import Verif.Props.Grammar
import Verif.Props.Graph
import Verif.Props.Helpers
import Verif.Props.Imports
import Verif.Props.Integers
import Verif.Props.Journey
import Verif.Props.Late
import Verif.Props.Listener
import Verif.Props.Logging
import Verif.Props.LongInts
import Verif.Props.Names
import Verif.Props.Objects
import Verif.Props.OidContents
import Verif.Props.Pdus
import Verif.Props.Process
import Verif.Props.Relay
import Verif.Props.Repr
import Verif.Props.Requests
import Verif.Props.Responses
import Verif.Props.Role
import Verif.Props.Run
import Verif.Props.Scripts
import Verif.Props.Sharing
import Verif.Props.Size
import Verif.Props.Source
import Verif.Props.Source10
import Verif.Props.Source11
import Verif.Props.Source12
import Verif.Props.Source13
import Verif.Props.Source14
import Verif.Props.Source15
import Verif.Props.Source16
import Verif.Props.Source17
import Verif.Props.Source18
import Verif.Props.Source2
import Verif.Props.Source3
import Verif.Props.Source4
import Verif.Props.Source5
import Verif.Props.Source6
import Verif.Props.Source7
import Verif.Props.Source8
import Verif.Props.Source9
import Verif.Props.Text
import Verif.Props.Threads
import Verif.Props.V2Get
import Verif.Props.Walk
import Verif.Props.WalkAgent
import Verif.Props.WalkErrors
import Verif.Props.World
import Verif.Py
import Verif.Spec.Asn
import Verif.Spec.Ber
import Verif.Spec.Channels
import Verif.Spec.Depth
import Verif.Spec.Equality
import Verif.Spec.Forms
import Verif.Spec.Grammar
import Verif.Spec.Graph
import Verif.Spec.Imports
import Verif.Spec.Listener
import Verif.Spec.Logging
import Verif.Spec.LongInts
import Verif.Spec.Manager
import Verif.Spec.Names
import Verif.Spec.Numbers
import Verif.Spec.Process
import Verif.Spec.Protocol
import Verif.Spec.Relay
import Verif.Spec.Repr
import Verif.Spec.Represents
import Verif.Spec.Role
import Verif.Spec.Scripts
import Verif.Spec.Size
import Verif.Spec.Source
import Verif.Spec.SourceAsk
import Verif.Spec.SourceGraph
import Verif.Spec.SourceHelp
import Verif.Spec.SourceHistory
import Verif.Spec.SourceInit
import Verif.Spec.SourceMgr
import Verif.Spec.SourceMore
import Verif.Spec.SourceOid
import Verif.Spec.SourceOps
import Verif.Spec.SourceProgram
import Verif.Spec.SourceRecv
import Verif.Spec.SourceRole
import Verif.Spec.SourceStr
import Verif.Spec.SourceTurn
import Verif.Spec.SourceWaiting
import Verif.Spec.Tags
import Verif.Spec.Text
import Verif.Spec.Threads
import Verif.Spec.Walk
import Verif.Tests.RepoTests
