import Verif.Model.Api
import Verif.Model.Bits
import Verif.Model.Tables
import Verif.Model.Syntax
import Verif.Model.Arith
import Verif.Model.Sns
import Verif.Model.LtpfTables
import Verif.Model.Ltpf
import Verif.Model.Spec
import Verif.Model.Noise
import Verif.Model.Frame
import Verif.Model.Plc
import Verif.Model.Attdet
import Verif.Model.Mdct
import Verif.Model.MdctTables
import Verif.Lemmas.Bval
import Verif.Lemmas.BitsPlain
import Verif.Lemmas.BitsAc
import Verif.Lemmas.BitsTerm
import Verif.Lemmas.BitsFlush
import Verif.Lemmas.BitsRead
import Verif.Lemmas.BitsSync
import Verif.Lemmas.BitsSafe
import Verif.Lemmas.BitsSwap
import Verif.Lemmas.Syntax
import Verif.Lemmas.SyntaxSafe
import Verif.Lemmas.Frame
import Verif.Lemmas.Sns
import Verif.Lemmas.SnsPulse
import Verif.Lemmas.LtpfFilter
import Verif.Lemmas.LtpfFrame
import Verif.Lemmas.LtpfAnalysis
import Verif.Lemmas.Spec
import Verif.Lemmas.SpecList
import Verif.Lemmas.SpecResidual
import Verif.Lemmas.SpecExact
import Verif.Lemmas.Noise
import Verif.Lemmas.FrameRt
import Verif.Lemmas.FrameSpec
import Verif.Lemmas.Silent
import Verif.Lemmas.FrameSafe
import Verif.Lemmas.Lcg
import Verif.Lemmas.Buf
import Verif.Lemmas.Fft
import Verif.Lemmas.Dft
import Verif.Lemmas.Mdct
import Verif.Lemmas.Dct
import Verif.Lemmas.MdctReal
import Verif.Lemmas.Recon
import Verif.Props.Api
import Verif.Props.Bits
import Verif.Props.Syntax
import Verif.Props.Sns
import Verif.Props.Ltpf
import Verif.Props.LtpfFade
import Verif.Lemmas.LtpfBound
import Verif.Props.LtpfStable
import Verif.Props.Constants
import Verif.Props.Pitch
import Verif.Props.PitchStream
import Verif.Props.Spec
import Verif.Props.Frame
import Verif.Props.Silent
import Verif.Props.Parse
import Verif.Props.Noise
import Verif.Props.Plc
import Verif.Props.Attdet
import Verif.Props.Tns
import Verif.Props.Rate
import Verif.Props.Gain
import Verif.Props.Pcm
import Verif.Props.Float
import Verif.Props.Mdct
import Verif.Model.Bands
import Verif.Model.SnsTables
import Verif.Model.Shaping
import Verif.Lemmas.Bands
import Verif.Lemmas.Shaping
import Verif.Props.Bands
import Verif.Props.Shaping
import Verif.Props.ShapingScf
import Verif.Model.Decoder
import Verif.Lemmas.MdctCongr
import Verif.Lemmas.Decoder
import Verif.Props.Decoder
import Verif.Props.Resync
import Verif.Model.Encoder
import Verif.Lemmas.Fill
import Verif.Lemmas.MdctForward
import Verif.Lemmas.Encoder
import Verif.Props.Encoder
import Verif.Model.Files
import Verif.Props.Files
import Verif.Model.Cpp
import Verif.Props.Cpp
import Verif.Props.CppReset
import Verif.Lemmas.Level
import Verif.Props.Level
import Verif.Props.EndToEnd
import Verif.Model.Tools
import Verif.Model.Args
import Verif.Lemmas.Tools
import Verif.Props.Tools
import Verif.Props.Args
import Verif.Model.Python
import Verif.Props.Python
import Verif.Model.SimdTables
import Verif.Model.Simd
import Verif.Lemmas.Simd
import Verif.Lemmas.SimdFrame
import Verif.Lemmas.HpLevel
import Verif.Lemmas.LtpfLevel
import Verif.Props.Simd
import Verif.Props.EncoderLevel
import Verif.Model.Fastmath
import Verif.Lemmas.F32Round
import Verif.Lemmas.Exp2
import Verif.Lemmas.Log2
import Verif.Lemmas.Db
import Verif.Props.Fastmath
import Verif.Props.FastmathDb
import Verif.Model.MdctNeon
import Verif.Lemmas.Neon
import Verif.Lemmas.NeonReal
import Verif.Props.MdctNeon
import Verif.Lemmas.Twiddle
import Verif.Props.Twiddle
import Verif.Lemmas.FftErr
import Verif.Lemmas.FftStage
import Verif.Lemmas.MdctErr
import Verif.Lemmas.ImdctErr
import Verif.Props.Accuracy
import Verif.Lemmas.NeonErr
import Verif.Props.AccuracyNeon
import Verif.Props.RateState
import Verif.Lemmas.Levinson
import Verif.Lemmas.Lattice
import Verif.Props.TnsLpc
import Verif.Lemmas.OrdField
import Verif.Lemmas.SpecField
import Verif.Lemmas.TnsField
import Verif.Lemmas.FidelityField
import Verif.Props.Fidelity
import Verif.Props.GainSearch
import Verif.Lemmas.RateExact
import Verif.Props.Truncation
import Verif.Props.PulseSearch
import Verif.Props.ScaleFactors
import Verif.Props.PitchCorr
import Verif.Lemmas.Tdac
import Verif.Props.TimeDomain
import Verif.Lemmas.RoundF
import Verif.Lemmas.TnsBound
import Verif.Lemmas.InvBound
import Verif.Lemmas.SpecBound
import Verif.Lemmas.SnsBound
import Verif.Lemmas.LtpfBoundF
import Verif.Lemmas.DecMag
import Verif.Props.Bounded
import Verif.Props.Hostile
import Verif.Props.Fade
import Verif.Props.Conceal
import Verif.Props.LongLoss
import Verif.Props.DigitalSilence
import Verif.Lemmas.ZeroLtpf
import Verif.Lemmas.ZeroDefined
import Verif.Props.SilentStream
import Verif.Props.Formats
import Verif.Props.LeadingSilence
import Verif.Lemmas.Rotate
import Verif.Props.Position
import Verif.Props.Resume
import Verif.Props.LeadingDecoder
import Verif.Props.Corrupted
import Verif.Props.Forget
import Verif.Props.Pause
import Verif.Props.Rejected
import Verif.Props.NoPitch
import Verif.Props.Dry
import Verif.Props.HrDry
import Verif.Props.FilterOff
