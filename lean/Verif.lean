import Verif.Model.Sample
import Verif.Props.Bits
import Verif.Props.IntRep
import Verif.Props.Huffman
import Verif.Props.Tables
import Verif.Props.HeaderCodec
import Verif.Props.HeaderRfc
import Verif.Props.OneEntry
import Verif.Props.OwnEntry
import Verif.Props.Frames
import Verif.Props.HeaderFrames
import Verif.Props.Transport
import Verif.Props.Client
import Verif.Props.Conversation
import Verif.Props.Dump
import Verif.Props.Printable
import Verif.Props.Sample
import Verif.Props.Total
import Verif.Props.Split
import Verif.Props.Printing
import Verif.Props.Identify
import Verif.Props.Equality
import Verif.Props.Safety
import Verif.Props.Tls
import Verif.Props.FrameRules
import Verif.Props.ServerStream
import Verif.Props.Bounds
import Verif.Props.Wire
import Verif.Props.History
import Verif.Props.Update
import Verif.Props.ClientStream
import Verif.Props.TableApi
import Verif.Props.Resize
import Verif.Props.Entries
import Verif.Props.Sizes
import Verif.Props.Relay
import Verif.Props.Reject
import Verif.Conformance
import Verif.Props.Response
import Verif.Props.Accessors
import Verif.Props.Ignored
import Verif.Props.TableLimit
import Verif.Props.FrameSize
import Verif.Props.HuffmanSavings
import Verif.Props.SampleDuties
import Verif.Props.OneStep
import Verif.Props.Message
import Verif.Props.Threads
import Verif.Props.Body
import Verif.Props.Prepared
import Verif.Props.Kept
import Verif.Props.ServerMeans
import Verif.Props.Requests
import Verif.Props.SettingsTable
import Verif.Props.StreamViolated
import Verif.Props.Indexing
import Verif.Props.InStep
import Verif.Props.Hosts
import Verif.Props.Stdout
import Verif.Props.Calls
import Verif.Props.Shared
import Verif.Props.Makeable
import Verif.Props.Causes
import Verif.Props.Loose
import Verif.Props.LooseFrames
import Verif.Props.Defined
import Verif.Props.Forward
import Verif.Props.Octets
import Verif.Props.Diverged
import Verif.Props.Padding
import Verif.Props.Provenance
import Verif.Props.Multiplex
import Verif.Props.Format
import Verif.Props.FormatText
import Verif.Props.Log
import Verif.Props.What
import Verif.Props.Program
import Verif.Props.Memory
import Verif.Props.MemoryTls
import Verif.Spec.MemorySample
import Verif.Props.MemorySample
import Verif.Spec.AnyProgram
import Verif.Props.AnyProgram
import Verif.Model.Live
import Verif.Spec.Live
import Verif.Proofs.Live
import Verif.Props.Live
import Verif.Props.LiveSample
import Verif.Props.ProgramHistory
