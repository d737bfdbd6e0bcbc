import Verif.Cases
import Verif.CodecCases
import Verif.SharedCases
import Verif.SharedDropCases
import Verif.Basic
import Verif.Model.Traits
import Verif.Spec
import Verif.Lemmas.Spec
import Verif.Lemmas.Traces
import Verif.Props.FullSlice
import Verif.Lemmas.Pipe
import Verif.Props.Pipe
import Verif.Props.PipeAtMost
import Verif.Model.Queue
import Verif.QueueSpec
import Verif.Lemmas.Queue
import Verif.Lemmas.QueueRing
import Verif.Props.Queue
import Verif.Model.Producers
import Verif.Model.Consumers
import Verif.History
import Verif.Lemmas.History
import Verif.Lemmas.Slices
import Verif.Props.History
import Verif.Lemmas.Invariant
import Verif.Props.Invariant
import Verif.Props.Slices
import Verif.AdaptorSpec
import Verif.Lemmas.Adaptors
import Verif.Lemmas.Maps
import Verif.Props.Limit
import Verif.Props.Maps
import Verif.Props.Stacks
import Verif.Model.Scramblers
import Verif.Lemmas.Loop
import Verif.Lemmas.Progress
import Verif.Lemmas.ProducerScrambler
import Verif.Lemmas.ConsumerScrambler
import Verif.Lemmas.ScramblerProgress
import Verif.Monitor
import Verif.Lemmas.Monitor
import Verif.Props.Scramblers
import Verif.Model.TestDoubles
import Verif.TestSpec
import Verif.Lemmas.TestDoubles
import Verif.Lemmas.TestConsumer
import Verif.Lemmas.TestTrace
import Verif.Props.TestDoubles
import Verif.Model.Merge
import Verif.MergeSpec
import Verif.Lemmas.Merge
import Verif.Props.Merge
import Verif.Props.Io
import Verif.Props.EmptyBuffer
import Verif.Model.Codec
import Verif.Model.Endian
import Verif.CodecSpec
import Verif.Lemmas.Codec
import Verif.Props.Endian
import Verif.Lemmas.CodecAdaptors
import Verif.Props.Codec
import Verif.Props.RelativeCodec
import Verif.Model.Shared
import Verif.SharedSpec
import Verif.Lemmas.Shared
import Verif.Props.Shared
import Verif.Lemmas.SharedDrop
import Verif.Props.SharedDrop
import Verif.Lemmas.SharedContract
import Verif.Props.SharedContract
import Verif.DefaultsSpec
import Verif.Props.Defaults
import Verif.Model.Proptest
import Verif.ProptestSpec
import Verif.Lemmas.Proptest
import Verif.Props.Proptest
import Verif.Props.ProptestDetects
import Verif.Props.ProptestExact
import Verif.Model.Errors
import Verif.Props.Errors
import Verif.Lemmas.PipeEnds
import Verif.Props.PipeEnds
import Verif.Model.Fuzz
import Verif.Lemmas.Fuzz
import Verif.Lemmas.ScramblerExact
import Verif.Lemmas.FuzzScramblers
import Verif.Props.Fuzz
import Verif.Props.FuzzQueues
import Verif.Props.FuzzScramblers
import Verif.Props.FuzzMerge
import Verif.Props.FuzzIo
import Verif.Lemmas.PipeDefers
import Verif.Props.PipeDefers
import Verif.Model.WordQueue
import Verif.Lemmas.WordQueue
import Verif.Props.WordQueue
import Verif.Model.TestVectors
import Verif.TestVectorsSpec
import Verif.Lemmas.TestVectors
import Verif.Props.TestVectors
import Verif.RepoTests
import Verif.Model.Arbitrary
import Verif.Lemmas.Arbitrary
import Verif.Props.Arbitrary
import Verif.Props.ArbitraryInvariant
import Verif.Props.ArbitraryInvariantExact
import Verif.Model.Poll
import Verif.Lemmas.Poll
import Verif.Model.AsyncTraits
import Verif.Model.AsyncAdaptors
import Verif.Model.AsyncScramblers
import Verif.Model.AsyncCodec
import Verif.Model.AsyncIo
import Verif.Model.AsyncTestDoubles
import Verif.Model.AsyncMerge
import Verif.Model.AsyncShared
import Verif.Lemmas.Async
import Verif.Lemmas.AsyncMerge
import Verif.Lemmas.AsyncShared
import Verif.Props.Async
import Verif.Props.AsyncScramblers
import Verif.Props.AsyncIo
import Verif.Props.AsyncCodec
import Verif.Props.AsyncTestDoubles
import Verif.Props.AsyncTransfer
import Verif.Props.AsyncMerge
import Verif.Props.AsyncShared
import Verif.Lemmas.PollCount
import Verif.Props.AsyncCount
import Verif.Props.AsyncCountMore
import Verif.Props.AsyncCases
import Verif.WordSpec
import Verif.Model.WordTraits
import Verif.Model.WordAdaptors
import Verif.Lemmas.WordSame
import Verif.Lemmas.WordAdaptors
import Verif.Props.WordTraits
import Verif.Props.WordAdaptors
import Verif.Model.WordTest
import Verif.Lemmas.WordTest
import Verif.Props.WordTest
import Verif.Model.WordScramblers
import Verif.Lemmas.WordScramblers
import Verif.Props.WordScramblers
import Verif.HangSpec
import Verif.Lemmas.Hang
import Verif.Props.Hang
import Verif.Props.HangMore
import Verif.Props.HangMerge
import Verif.Lemmas.IntoInner
import Verif.Props.IntoInner
import Verif.Props.TestEquality
import Verif.Model.IntoSlice
import Verif.Lemmas.IntoSlice
import Verif.Props.IntoSlice
import Verif.Model.QueueNightly
import Verif.Props.QueueNightly
import Verif.Props.InvariantExact
import Verif.Props.SlurpExact
import Verif.Props.StacksExact
import Verif.Props.QueueSame
import Verif.IoDirectSpec
import Verif.Lemmas.IoDirect
import Verif.Props.IoDirect
import Verif.Props.EndianOrder
import Verif.Props.Debug
import Verif.Props.MapErrorExact
import Verif.AbandonSpec
import Verif.Lemmas.Abandon
import Verif.Props.Abandon
import Verif.Model.Clone
import Verif.CloneSpec
import Verif.Lemmas.Clone
import Verif.Props.Clone
import Verif.CallsSpec
import Verif.Lemmas.Calls
import Verif.Props.Calls
import Verif.ScramblerCallsSpec
import Verif.Lemmas.ScramblerCalls
import Verif.Props.ScramblerCalls
import Verif.Props.Files
import Verif.Props.IntoVecGrowth
import Verif.Props.Rounds
import Verif.StacksSpec
import Verif.Lemmas.StacksDefer
import Verif.Props.StacksDefer
import Verif.MergeTreeSpec
import Verif.Lemmas.MergeTree
import Verif.Props.MergeTree
import Verif.ScramblingSpec
import Verif.Lemmas.Scrambling
import Verif.Props.Scrambling
import Verif.ItemStacksSpec
import Verif.Lemmas.ItemStacks
import Verif.Props.ItemStacks
import Verif.AsyncStacksSpec
import Verif.Props.AsyncStacks
import Verif.NetworkSpec
import Verif.Lemmas.Network
import Verif.Props.Network
import Verif.Props.MergeExact
import Verif.HastySpec
import Verif.Lemmas.Hasty
import Verif.Props.Hasty
import Verif.AgainSpec
import Verif.Lemmas.Again
import Verif.Props.Again
import Verif.RefuseSpec
import Verif.Props.Refuse
import Verif.PaceSpec
import Verif.Lemmas.Pace
import Verif.Props.NetworkExact
import Verif.Lemmas.Merged
import Verif.Props.NetworkLaws
import Verif.StreamSpec
import Verif.Lemmas.Stream
import Verif.Props.Stream
import Verif.Props.EncodedStreams
import Verif.TimingSpec
import Verif.Lemmas.Timing
import Verif.Props.Timing
import Verif.Props.Reencode
import Verif.Props.Frames
import Verif.Props.AbandonCodec
import Verif.Props.Messages
import Verif.ResumeSpec
import Verif.Props.Resume
import Verif.Props.ResumeAdaptors
import Verif.Props.ResumeSlices
import Verif.Props.ResumeIo
import Verif.Props.ResumeScramblers
import Verif.Props.ResumeInvariant
import Verif.Props.ResumeItems
import Verif.Props.ResumeCodec
import Verif.Props.ResumeClosing
import Verif.Props.ResumeConsidering
import Verif.Props.ResumeCounts
import Verif.Props.ResumeCodecOften
