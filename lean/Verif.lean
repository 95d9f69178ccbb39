import Verif.Huffman.Encoder
import Verif.Huffman.Decoder
import Verif.Huffman.Flattener
import Verif.Huffman.Parser
import Verif.Huffman.Asset
import Verif.Spec.Huffman
import Verif.Props.Huffman
import Verif.Props.Flatten
import Verif.Props.FlattenTotal
import Verif.Props.FlattenRows
import Verif.Props.HpackTable
import Verif.Props.Hpack
import Verif.Props.HpackSession
import Verif.Props.HpackMore
import Verif.Props.ProtosWire
import Verif.Props.Protos
import Verif.Props.ProtosPacked
import Verif.Props.ProtosTypes
import Verif.Props.ProtosNested
import Verif.Props.HpackExtra
import Verif.Props.Parser
import Verif.Props.Pipeline
import Verif.Hpack.Client
import Verif.Hpack.Capacity
import Verif.Props.HpackStream
import Verif.Props.HpackCapacity
import Verif.Spec.Rounding
import Verif.Huffman.Float
import Verif.Props.HuffFloat
import Verif.Props.ParserExact
import Verif.Props.ProtosNarrow
import Verif.Conform.Huffman
import Verif.Conform.Hpack
import Verif.Conform.Protos
import Verif.Props.HuffStream
import Verif.Props.HpackStreamSession
import Verif.Spec.HpackTries
import Verif.Props.HpackTries
import Verif.Props.HpackOverflow
import Verif.Spec.HpackDuplex
import Verif.Props.HpackDuplex
import Verif.Props.HpackFlags
import Verif.Props.ProtosStream
import Verif.Props.HpackSpeed
import Verif.Props.HpackFrame
import Verif.Props.ProtosSizes
import Verif.Props.HpackSecrets
import Verif.Props.HpackLoss
import Verif.Props.HpackInjective
import Verif.Props.HpackVerdict
import Verif.Props.ProtosInjective
import Verif.Props.ProtosBound
import Verif.Props.HpackLimit
import Verif.Props.HpackWorkingSet
import Verif.Spec.HpackDefect
import Verif.Lemmas.HpackDefect
import Verif.Props.HpackErrors
import Verif.Props.ErrorKinds
import Verif.Protos.Socket
import Verif.Props.ProtosSocket
import Verif.Props.HpackRelay
import Verif.Props.ProtosRewrite
import Verif.Props.ProtosVerdict
import Verif.Huffman.Native
import Verif.Hpack.Native
import Verif.Lemmas.HuffNative
import Verif.Props.Native
import Verif.Props.HpackLifetime
import Verif.Hpack.NativeCodec
import Verif.Props.NativeCodec
import Verif.Huffman.FlattenNative
import Verif.Props.FlattenNative
import Verif.Props.NativeOps
import Verif.Huffman.Cost
import Verif.Spec.HuffWork
import Verif.Lemmas.HuffCost
import Verif.Props.HuffCost
import Verif.Hpack.Work
import Verif.Spec.RustSource
import Verif.Huffman.Examples
import Verif.Lemmas.RustSource
import Verif.Props.Examples
import Verif.Lemmas.HpackWork
import Verif.Props.HpackWork
import Verif.Spec.Moves
import Verif.Hpack.Cost
import Verif.Protos.Cost
import Verif.Props.Drain
import Verif.ErrorTexts
import Verif.Props.ErrorTexts
import Verif.Props.HpackRoom
import Verif.Props.FlattenFit
import Verif.Props.FlattenPlace
import Verif.Props.HpackBest

import Verif.Props.HpackMismatch
import Verif.Props.HpackUpdates
import Verif.Props.HuffConcat
import Verif.Props.HpackResync
import Verif.Props.ProtosRepeated
import Verif.Props.HuffCanonical
import Verif.Conform.Docs
import Verif.Hpack.Flags
import Verif.Props.HpackFinal
import Verif.Props.ProtosFinish
import Verif.Spec.HpackPeer
import Verif.Props.HpackPeer
import Verif.Spec.ProtosPeer
import Verif.Props.ProtosPeer
import Verif.Spec.ProtosMerge
import Verif.Props.ProtosMerge
import Verif.Props.HpackStateless
import Verif.Props.HpackGuess
import Verif.Props.HpackTableSize
import Verif.Props.ProtosShortest
import Verif.Props.ProtosUnfinished
import Verif.Props.Damage
import Verif.Props.HpackUntilZero
import Verif.Props.HpackListLimit
import Verif.Props.ProtosListLimit
import Verif.Hpack.Types
import Verif.Props.ProtosMethods
import Verif.Props.HpackShortest
