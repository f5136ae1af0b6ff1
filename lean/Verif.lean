import Verif.Spec.Isa
import Verif.Lemmas.Bits
import Verif.Lemmas.Decode
import Verif.Lemmas.Decompose
import Verif.Lemmas.ImmRoundTrip
import Verif.Model.Instr
import Verif.Props.Decode
import Verif.Props.Accept
import Verif.Props.Parser
import Verif.Props.Alu
import Verif.Props.Circuits
import Verif.Props.Memory
import Verif.Props.Interp
import Verif.Props.Oblivious
import Verif.Props.TestDecode
import Verif.Props.TestMem
import Verif.Props.TestVM
import Verif.Props.Mirror
import Verif.Props.Agree
import Verif.Props.Loader
import Verif.Props.EndToEnd
import Verif.Props.Alloc
import Verif.Props.Guests
import Verif.Props.Keys
import Verif.Props.Boot
import Verif.Props.Exact
import Verif.Props.Otc
import Verif.Props.Scratch
import Verif.Props.Noise
import Verif.Props.Layout
import Verif.Props.Depends
import Verif.Props.Template
import Verif.Lemmas.F32Vectors
import Verif.Model.Sources
import Verif.Spec.Sources
import Verif.Spec.Privacy
import Verif.Spec.RustConst
import Verif.Spec.Cargo
import Verif.Spec.Near
import Verif.Props.Sources
import Verif.Spec.TestExact
import Verif.Lemmas.TestWrap
import Verif.Props.Wrap
import Verif.Model.F32Sqrt
import Verif.Lemmas.Sqrt
import Verif.Props.Volatility
import Verif.Spec.Start
import Verif.Props.ExactOutput
import Verif.Props.Matcher
import Verif.Model.Timing
import Verif.Spec.Timing
import Verif.Props.Timing
import Verif.Model.UnitTests
import Verif.Props.UnitTests
import Verif.Model.ElfBytes
import Verif.Spec.ElfFile
import Verif.Spec.ElfWrite
import Verif.Props.ElfFile
import Verif.Model.Host
import Verif.Spec.Host
import Verif.Props.Host
import Verif.Lemmas.BddSample
import Verif.Lemmas.Hybrid
import Verif.Model.Bench
import Verif.Model.GenTests
import Verif.Model.Build
import Verif.Props.Bench
import Verif.Props.Privacy
import Verif.Props.GenTests
import Verif.Props.Build
import Verif.Model.NoiseReport
import Verif.Props.NoiseReport
import Verif.Model.FormatTests
import Verif.Props.FormatTests
import Verif.Model.Calls
import Verif.Spec.Calls
import Verif.Props.Calls
import Verif.Model.Segments
import Verif.Spec.Segments
import Verif.Lemmas.Segments
import Verif.Lemmas.LinkVectors
import Verif.Props.Segments
import Verif.Lemmas.RelocVectors
import Verif.Lemmas.IsaVectors
import Verif.Spec.Println
import Verif.Props.Println
import Verif.Model.Select
import Verif.Spec.Select
import Verif.Lemmas.Select
import Verif.Lemmas.SelectVectors
import Verif.Props.Select
import Verif.Model.Symbols
import Verif.Spec.Symbols
import Verif.Lemmas.SymbolVectors
import Verif.Props.Symbols
import Verif.Spec.DocTable
import Verif.Lemmas.PcChecks.Other
import Verif.Props.DocTable
import Verif.Spec.AnyRom
import Verif.Lemmas.AnyRom
import Verif.Spec.MulDiv
import Verif.Props.MulDiv
import Verif.Props.Assembled
import Verif.Props.Amm
import Verif.Props.Poly
import Verif.Props.GuestHosts
import Verif.Props.Whole
import Verif.Spec.Linked
import Verif.Props.Linked
import Verif.Props.LinkedGuests
import Verif.Model.Reloc
import Verif.Spec.Reloc
import Verif.Lemmas.Reloc
import Verif.Lemmas.ObjectVectors
import Verif.Props.Reloc
import Verif.Props.Objects
import Verif.Props.Divergent
import Verif.Props.Limit
import Verif.Spec.AllInstr
import Verif.Spec.DebugOk
import Verif.Props.AllInstr
import Verif.Props.DebugExact
import Verif.Props.AllObjects
import Verif.Props.TinyGuests
import Verif.Spec.EveryWord
import Verif.Spec.EveryTest
import Verif.Spec.PastEnd
import Verif.Props.EveryWord
import Verif.Props.EveryCompared
import Verif.Props.EveryTest
import Verif.Lemmas.Padded
import Verif.Props.PastEnd
import Verif.Spec.SameStep
import Verif.Props.SameStep
import Verif.Props.ChooseCycles
import Verif.Spec.RunRound
import Verif.Props.RunRound
import Verif.Model.Session
import Verif.Spec.Session
import Verif.Props.Session
import Verif.Spec.Profiles
import Verif.Props.Profiles
import Verif.Spec.Moved
import Verif.Props.Moved
import Verif.Model.ReprC
import Verif.Spec.ReprC
import Verif.Props.ReprC
import Verif.Props.Deep
import Verif.Spec.Static
import Verif.Props.Static
import Verif.Spec.Bound
import Verif.Props.Bound
import Verif.Props.StaticLinked
