import Verif.Props.Backwards
import Verif.Props.Beginnings
import Verif.Props.Bom
import Verif.Props.Cleaning
import Verif.Props.Concat
import Verif.Props.Core
import Verif.Props.Counting
import Verif.Props.Damage
import Verif.Props.Decode
import Verif.Props.Drivers
import Verif.Props.Encode
import Verif.Props.ExactSizes
import Verif.Props.Failure
import Verif.Props.Files
import Verif.Props.FixedMemory
import Verif.Props.FixedWidth
import Verif.Props.Generator
import Verif.Props.GeneratorText
import Verif.Props.Growth
import Verif.Props.Html
import Verif.Props.Lang
import Verif.Props.LeastBuffer
import Verif.Props.Lookahead
import Verif.Props.LossyCount
import Verif.Props.LossyStream
import Verif.Props.LowEdits
import Verif.Props.Machine
import Verif.Props.Middle
import Verif.Props.Offsets
import Verif.Props.Order
import Verif.Props.Outcome
import Verif.Props.Parallel
import Verif.Props.Prefix
import Verif.Props.PyGenerators
import Verif.Props.Readings
import Verif.Props.Restart
import Verif.Props.RoundTrip
import Verif.Props.Safety
import Verif.Props.Search
import Verif.Props.SecondCodes
import Verif.Props.Shape
import Verif.Props.Skipping
import Verif.Props.Source
import Verif.Props.StandAlone
import Verif.Props.Stream
import Verif.Props.Strict
import Verif.Props.Tables
import Verif.Props.TestData
import Verif.Props.TestFiles
import Verif.Props.TestPrograms
import Verif.Props.Tests
import Verif.Props.ThereAndBack
import Verif.Props.Transcode
import Verif.Props.Truncation
import Verif.Props.UnitTests
import Verif.Props.Whatwg
import Verif.Props.WhatwgCounts
import Verif.Props.Work
