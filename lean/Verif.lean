import Verif.Go
import Verif.Fmt
import Verif.LLC
import Verif.RoCE
import Verif.CLC.Message
import Verif.Http.Buffer
import Verif.Http.Server
import Verif.Socket
import Verif.Tests.LLC
import Verif.Tests.RoCE
import Verif.Tests.CLC
import Verif.Tests.Http
import Verif.Spec.Wire
import Verif.Spec.LLC
import Verif.Props.LLCWire
import Verif.Props.LLCParse
import Verif.Props.LLCText
import Verif.Props.LLCBits
import Verif.Spec.Show
import Verif.Lemmas.Show
import Verif.Spec.LLCShow
import Verif.Spec.CLCShow
import Verif.Spec.CLCShown
import Verif.Spec.RoCEShow
import Verif.Props.LLCShow
import Verif.Props.CLCShow
import Verif.Props.CLCShown
import Verif.Props.RoCEShow
import Verif.Props.RoCE
import Verif.Props.Dump
import Verif.Dumper
import Verif.Spec.DumpLayout
import Verif.Props.DumpLayout
import Verif.Spec.CLC
import Verif.Props.CLCHeader
import Verif.Props.CLCFixed
import Verif.Spec.Proposal
import Verif.Spec.Message
import Verif.Props.Proposal
import Verif.Props.ProposalV2
import Verif.Props.CLCParse
import Verif.Props.CLCLocal
import Verif.Props.Offsets
import Verif.Props.CLCReuse
import Verif.Props.CLCCrash
import Verif.Props.CLCSpare
import Verif.CLC.Nil
import Verif.CLC.Vars
import Verif.Props.CLCNil
import Verif.Spec.CLCText
import Verif.Props.CLCText
import Verif.Props.CLCTextAll
import Verif.Props.CLCTextParsed
import Verif.Spec.Report
import Verif.Props.CLCReport
import Verif.Spec.CLCBits
import Verif.Props.CLCBits
import Verif.Props.CLCRound
import Verif.Spec.Stream
import Verif.Props.CLCStream
import Verif.Spec.Http
import Verif.Spec.Query
import Verif.Spec.HttpServer
import Verif.Props.Http
import Verif.Props.HttpServer
import Verif.Http.Memory
import Verif.Spec.Race
import Verif.Lemmas.HttpRace
import Verif.Lemmas.HttpFootprint
import Verif.Props.HttpRace
import Verif.Spec.Socket
import Verif.Props.Socket
import Verif.Heap
import Verif.Spec.Heap
import Verif.Props.Heap
import Verif.Spec.Printable
import Verif.Lemmas.Printable
import Verif.Lemmas.Logs
import Verif.Props.Printable
import Verif.Props.Types
import Verif.Spec.CLCEvery
import Verif.Props.CLCEvery
import Verif.Spec.Packet
import Verif.Props.Packet
import Verif.Spec.Alloc
import Verif.Lemmas.Alloc
import Verif.Lemmas.Kept
import Verif.Props.Alloc
import Verif.Lemmas.Few
import Verif.Spec.LogSize
import Verif.Lemmas.LogSize
import Verif.Props.LogSize
import Verif.Spec.TextSize
import Verif.Lemmas.TextSize
import Verif.Lemmas.TextSizeCLC
import Verif.Lemmas.Fits
import Verif.Props.TextSize
import Verif.Crash.Basic
import Verif.Crash.LLC
import Verif.Crash.CLC
import Verif.Spec.Left
import Verif.Lemmas.CrashSteps
import Verif.Lemmas.CrashCLC
import Verif.Lemmas.Tail
import Verif.Lemmas.TailLLC
import Verif.Lemmas.TailCLC
import Verif.Props.Left
import Verif.Spec.LeftValue
import Verif.Spec.LeftWhen
import Verif.Lemmas.Cut
import Verif.Lemmas.CutLLC
import Verif.Lemmas.Held
import Verif.Lemmas.CutLoops
import Verif.Lemmas.CutCLC
import Verif.Lemmas.CutProposal
import Verif.Lemmas.CutProposalV2
import Verif.Props.LeftValue
import Verif.Props.LeftWhen
import Verif.Props.LeftIff
import Verif.Spec.Parallel
import Verif.Lemmas.Parallel
import Verif.Lemmas.ParallelRun
import Verif.Lemmas.Steps
import Verif.Props.Parallel
import Verif.Props.Again
import Verif.Spec.Heading
import Verif.Props.Heading
import Verif.Spec.Page
import Verif.Props.Page
import Verif.Spec.SocketOwn
import Verif.Props.SocketOwn
import Verif.Props.HttpFail
import Verif.Spec.ReadPage
import Verif.Props.ReadPage
import Verif.Http.Start
import Verif.Props.Start
import Verif.Netip
import Verif.Spec.Literal
import Verif.Lemmas.Netip
import Verif.Lemmas.Netip6
import Verif.Props.Literal
import Verif.Tests.Socket
import Verif.Props.Vars
import Verif.Http.Mux
import Verif.Spec.Path
import Verif.Lemmas.Mux
import Verif.Props.Mux
import Verif.Http.Sniff
import Verif.Lemmas.Sniff
import Verif.Props.Sniff
import Verif.Http.Reply
import Verif.Spec.Reply
import Verif.Props.Reply
import Verif.Http.Lent
import Verif.Http.Grow
import Verif.Spec.Lent
import Verif.Lemmas.Lent
import Verif.Lemmas.LentBytes
import Verif.Props.Lent
import Verif.Props.Grow
import Verif.Props.Poll
import Verif.Props.Fresh
import Verif.Props.Answer
import Verif.Props.Segments
import Verif.Props.SocketExact
import Verif.Props.StartExact
import Verif.Props.ReadPageExact
import Verif.Props.VarsExact
import Verif.Props.OffsetsExact
import Verif.Props.Reuse
import Verif.Props.ReuseExact
import Verif.Props.ShowExact
import Verif.Props.LocalExact
import Verif.Props.LLCTextExact
import Verif.Props.SMCDv2Text
import Verif.Props.NamesText
import Verif.Props.SpareExact
import Verif.Props.Stale
import Verif.Crash.Copies
import Verif.Lemmas.Copies
import Verif.Props.Copies
