import Verif.Client
import Verif.Conc
import Verif.Fair
import Verif.Foot
import Verif.Footprints
import Verif.Gen.Complex
import Verif.Gen.Files
import Verif.Gen.Go.ComplexSyntax
import Verif.Gen.Go.ComplexText
import Verif.Gen.Go.MainSyntax
import Verif.Gen.Go.MainText
import Verif.Gen.Go.Sem
import Verif.Gen.Go.Syntax
import Verif.Gen.Go.Valid
import Verif.Gen.Go.Valid1
import Verif.Gen.Go.Valid2
import Verif.Gen.Go.Valid3
import Verif.Gen.Go.Valid4
import Verif.Gen.Jen
import Verif.Gen.Lex
import Verif.Gen.Main
import Verif.Gen.Regexp
import Verif.Gen.Text
import Verif.Go
import Verif.Guards
import Verif.Happens
import Verif.Lemmas.Advance
import Verif.Lemmas.Apart
import Verif.Lemmas.Basic
import Verif.Lemmas.BitLoops
import Verif.Lemmas.Bits
import Verif.Lemmas.ByteOps
import Verif.Lemmas.Calm
import Verif.Lemmas.CapInv
import Verif.Lemmas.Client
import Verif.Lemmas.Conc
import Verif.Lemmas.ConcMap
import Verif.Lemmas.ConcText
import Verif.Lemmas.Encode
import Verif.Lemmas.Exact
import Verif.Lemmas.ExactMini
import Verif.Lemmas.ExactRace
import Verif.Lemmas.FairRun
import Verif.Lemmas.Foot
import Verif.Lemmas.FootOps
import Verif.Lemmas.Gen
import Verif.Lemmas.GenBuffer
import Verif.Lemmas.GenGo
import Verif.Lemmas.GenLex
import Verif.Lemmas.GenMainRun
import Verif.Lemmas.GenMainText
import Verif.Lemmas.GenMainWrite
import Verif.Lemmas.GenMini
import Verif.Lemmas.Guards
import Verif.Lemmas.Happens
import Verif.Lemmas.Heap
import Verif.Lemmas.HeldOps
import Verif.Lemmas.LFoot
import Verif.Lemmas.LFoot1
import Verif.Lemmas.Lin
import Verif.Lemmas.Local
import Verif.Lemmas.Look
import Verif.Lemmas.Looks
import Verif.Lemmas.LooksOps
import Verif.Lemmas.Many
import Verif.Lemmas.ManyOps
import Verif.Lemmas.ManyOrder
import Verif.Lemmas.ManySched
import Verif.Lemmas.Micro
import Verif.Lemmas.MiniRun
import Verif.Lemmas.MiniStep
import Verif.Lemmas.Mixed
import Verif.Lemmas.Must
import Verif.Lemmas.MustOps
import Verif.Lemmas.MustOps1
import Verif.Lemmas.New
import Verif.Lemmas.OpClass
import Verif.Lemmas.Own
import Verif.Lemmas.OwnLin
import Verif.Lemmas.Parts
import Verif.Lemmas.ProgRun
import Verif.Lemmas.Progress
import Verif.Lemmas.Race
import Verif.Lemmas.Reading
import Verif.Lemmas.Resize
import Verif.Lemmas.Room
import Verif.Lemmas.RoomMini
import Verif.Lemmas.Run
import Verif.Lemmas.Safe
import Verif.Lemmas.SafeOps
import Verif.Lemmas.Sched
import Verif.Lemmas.SecInv
import Verif.Lemmas.SemRel
import Verif.Lemmas.Serial
import Verif.Lemmas.Shared
import Verif.Lemmas.Src
import Verif.Lemmas.SrcComplex
import Verif.Lemmas.SrcOut
import Verif.Lemmas.SrcProg
import Verif.Lemmas.Step
import Verif.Lemmas.Store
import Verif.Lemmas.TidyOps
import Verif.Lemmas.Touch
import Verif.Lemmas.TypedRead
import Verif.Lemmas.TypedWrite
import Verif.Lemmas.Unlocked
import Verif.Lemmas.UnlockedApart
import Verif.Lemmas.UnlockedFoot
import Verif.Lemmas.UnlockedOps
import Verif.Lemmas.V1Complex
import Verif.Lemmas.V1Conc
import Verif.Lemmas.V1Foot
import Verif.Lemmas.V1FootOps
import Verif.Lemmas.V1Free
import Verif.Lemmas.V1MiniFoot
import Verif.Lemmas.V1MiniFootCalls
import Verif.Lemmas.V1MiniFootComplex
import Verif.Lemmas.V1MiniStep
import Verif.Lemmas.V1Seq
import Verif.Lemmas.V1Step
import Verif.Lemmas.V2Conc
import Verif.Lemmas.V2Copy
import Verif.Lemmas.V2Exec
import Verif.Lemmas.V2Foot
import Verif.Lemmas.V2FootOps
import Verif.Lemmas.V2Look
import Verif.Lemmas.V2MiniFoot
import Verif.Lemmas.V2MiniFoot1
import Verif.Lemmas.V2MiniFootCalls
import Verif.Lemmas.V2New
import Verif.Lemmas.V2Own
import Verif.Lemmas.V2Parts
import Verif.Lemmas.V2Seq
import Verif.Lemmas.V2Step
import Verif.Lemmas.V3BufferFoot
import Verif.Lemmas.V3BufferFoot1
import Verif.Lemmas.V3BufferFoot2
import Verif.Lemmas.V3BufferFoot3
import Verif.Lemmas.V3BufferFootCalls
import Verif.Lemmas.V3MiniFoot
import Verif.Lemmas.V3MiniFoot1
import Verif.Lemmas.V3MiniFoot2
import Verif.Lemmas.V3MiniFoot3
import Verif.Lemmas.V3MiniFootCalls
import Verif.Linear
import Verif.Many
import Verif.MiniRef
import Verif.Parts
import Verif.Prog
import Verif.Props.Apart
import Verif.Props.Bench
import Verif.Props.BenchCalls
import Verif.Props.BenchRef
import Verif.Props.Benches
import Verif.Props.Bits
import Verif.Props.Bytes
import Verif.Props.Calm
import Verif.Props.Capacity
import Verif.Props.Client
import Verif.Props.Conc
import Verif.Props.Cursors
import Verif.Props.Decls
import Verif.Props.Demo
import Verif.Props.ErrTests
import Verif.Props.Errors
import Verif.Props.ExactRace
import Verif.Props.ExactRaceMini
import Verif.Props.ExactShared
import Verif.Props.Examples
import Verif.Props.Fair
import Verif.Props.Footprints
import Verif.Props.Gen
import Verif.Props.GenGo
import Verif.Props.GenMainText
import Verif.Props.Happens
import Verif.Props.History
import Verif.Props.Laws
import Verif.Props.Looks
import Verif.Props.Many
import Verif.Props.Mini
import Verif.Props.Mixed
import Verif.Props.MixedGrow
import Verif.Props.MixedMini
import Verif.Props.MixedPanic
import Verif.Props.MixedStrict
import Verif.Props.Nearest
import Verif.Props.Nexts
import Verif.Props.Parts
import Verif.Props.Program
import Verif.Props.Progress
import Verif.Props.Resize
import Verif.Props.Room
import Verif.Props.RoomMini
import Verif.Props.Safe
import Verif.Props.SharedRef
import Verif.Props.Sharing
import Verif.Props.SharingPanic
import Verif.Props.SourceCalm
import Verif.Props.SourceConc
import Verif.Props.SourceFoot
import Verif.Props.SourceHappens
import Verif.Props.SourceHist
import Verif.Props.SourceLooks
import Verif.Props.SourceMany
import Verif.Props.SourceNexts
import Verif.Props.SourceSharedRef
import Verif.Props.SourceV1
import Verif.Props.SourceV1Buffer
import Verif.Props.SourceV2
import Verif.Props.SourceV2Buffer
import Verif.Props.SourceV3
import Verif.Props.SourceWire
import Verif.Props.Streams
import Verif.Props.Tests
import Verif.Props.TestsNew
import Verif.Props.TestsV1Buffer
import Verif.Props.TestsV1Mini
import Verif.Props.TestsV2Buffer
import Verif.Props.TestsV2Mini
import Verif.Props.TestsV3Buffer
import Verif.Props.TestsV3Mini
import Verif.Props.Unlocked
import Verif.Props.UnlockedApart
import Verif.Props.UnlockedFoot
import Verif.Props.UnlockedFootV1
import Verif.Props.UnlockedFootV2
import Verif.Props.V1
import Verif.Props.V1Hist
import Verif.Props.V1Mini
import Verif.Props.V1Seq
import Verif.Props.V2
import Verif.Props.V2Mini
import Verif.Props.Wire
import Verif.Props.WireBits
import Verif.Race
import Verif.Ranges
import Verif.Ref
import Verif.Ref1
import Verif.Ref2
import Verif.Spans
import Verif.Spec
import Verif.Src.Bench
import Verif.Src.Calls
import Verif.Src.Calls1
import Verif.Src.Calls2
import Verif.Src.Core
import Verif.Src.Decls
import Verif.Src.ErrTest
import Verif.Src.Link.V1Buffer
import Verif.Src.Link.V1Buffer1
import Verif.Src.Link.V1Buffer2
import Verif.Src.Link.V1Mini
import Verif.Src.Link.V1Mini1
import Verif.Src.Link.V1Mini2
import Verif.Src.Link.V1Utils
import Verif.Src.Link.V1Utils1
import Verif.Src.Link.V2Buffer
import Verif.Src.Link.V2Buffer1
import Verif.Src.Link.V2Buffer2
import Verif.Src.Link.V2Buffer3
import Verif.Src.Link.V2Mini
import Verif.Src.Link.V2Mini1
import Verif.Src.Link.V2Mini2
import Verif.Src.Link.V2Mini3
import Verif.Src.Link.V2Utils
import Verif.Src.Link.V2Utils1
import Verif.Src.Link.V3Buffer
import Verif.Src.Link.V3Buffer1
import Verif.Src.Link.V3Buffer2
import Verif.Src.Link.V3Buffer3
import Verif.Src.Link.V3Mini
import Verif.Src.Link.V3Mini1
import Verif.Src.Link.V3Mini2
import Verif.Src.Link.V3Mini3
import Verif.Src.Micro
import Verif.Src.MicroCalls
import Verif.Src.Program
import Verif.Src.Sem
import Verif.Src.Syntax
import Verif.Src.Tactic
import Verif.Src.TacticProg
import Verif.Src.Tests
import Verif.Src.Text.Benches
import Verif.Src.Text.ErrorsTest
import Verif.Src.Text.FloatingPoint
import Verif.Src.Text.HelloWorld
import Verif.Src.Text.SignedIntegers
import Verif.Src.Text.V1Buffer
import Verif.Src.Text.V1BufferTest
import Verif.Src.Text.V1Crunch
import Verif.Src.Text.V1Errors
import Verif.Src.Text.V1Mini
import Verif.Src.Text.V1MiniTest
import Verif.Src.Text.V1Utils
import Verif.Src.Text.V2Buffer
import Verif.Src.Text.V2BufferTest
import Verif.Src.Text.V2Errors
import Verif.Src.Text.V2Mini
import Verif.Src.Text.V2MiniTest
import Verif.Src.Text.V2Utils
import Verif.Src.Text.V3Buffer
import Verif.Src.Text.V3BufferTest
import Verif.Src.Text.V3Errors
import Verif.Src.Text.V3Mini
import Verif.Src.Text.V3MiniTest
import Verif.Src.V1Buffer
import Verif.Src.V1BufferCalls
import Verif.Src.V1BufferComplex
import Verif.Src.V1Mini
import Verif.Src.V1MiniCalls
import Verif.Src.V1MiniComplex
import Verif.Src.V2Buffer
import Verif.Src.V2BufferCalls
import Verif.Src.V2BufferTyped
import Verif.Src.V2Mini
import Verif.Src.V2MiniCalls
import Verif.Src.V2MiniTyped
import Verif.Src.V3Buffer
import Verif.Src.V3BufferTyped1
import Verif.Src.V3BufferTyped2
import Verif.Src.V3BufferTyped3
import Verif.Src.V3Mini
import Verif.Src.V3MiniTyped1
import Verif.Src.V3MiniTyped2
import Verif.Src.V3MiniTyped3
import Verif.Src.Wrap
import Verif.Unlocked
import Verif.UnlockedApart
import Verif.UnlockedFoot
import Verif.V1.Api
import Verif.V1.Binary
import Verif.V1.Buffer
import Verif.V1.Errors
import Verif.V1.Mini
import Verif.V1.MiniApi
import Verif.V2.Api
import Verif.V2.Buffer
import Verif.V2.BufferTyped
import Verif.V2.Errors
import Verif.V2.Mini
import Verif.V2.MiniApi
import Verif.V2.MiniTyped
import Verif.V3.Api
import Verif.V3.Buffer
import Verif.V3.BufferTyped
import Verif.V3.Errors
import Verif.V3.Kinds
import Verif.V3.Mini
import Verif.V3.MiniApi
import Verif.V3.MiniTyped
import Verif.V3.State
import Verif.Wire
import Verif.Audit
