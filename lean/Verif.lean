import Verif.Model.Mem
import Verif.Model.Digits
import Verif.Model.Int
import Verif.Spec
import Verif.Concrete
import Verif.Proof.Mem
import Verif.Proof.Kernels
import Verif.Proof.Umul
import Verif.Proof.Kmul
import Verif.Proof.Usqr
import Verif.Proof.Rep
import Verif.Proof.Pad
import Verif.Proof.Good
import Verif.Proof.Basic
import Verif.Proof.Add
import Verif.Proof.Init
import Verif.Proof.Mul
import Verif.Proof.ShiftLoops
import Verif.Proof.Shift
import Verif.Proof.Shift2
import Verif.Proof.Shift3
import Verif.Proof.Knuth
import Verif.Proof.Knuth2
import Verif.Proof.Knuth3
import Verif.Proof.Div
import Verif.Proof.Div2
import Verif.Proof.Expt
import Verif.Proof.Temps
import Verif.Proof.Gcd
import Verif.Proof.Egcd
import Verif.Proof.Root
import Verif.Proof.Barrett
import Verif.Proof.Exptmod
import Verif.SpecExptmod
import Verif.Proof.ExptmodNeg
import Verif.Proof.Bridge
import Verif.Props.Basic
import Verif.Props.Div
import Verif.Props.Expt
import Verif.Props.Gcd
import Verif.Props.Exptmod
import Verif.Model.Conv
import Verif.SpecConv
import Verif.Proof.Conv
import Verif.Proof.ConvLen
import Verif.Proof.ConvRead
import Verif.Proof.ConvBin
import Verif.Proof.ConvBin2
import Verif.Proof.ConvProps
import Verif.Proof.Overrun
import Verif.Proof.Overread
import Verif.Props.Conv
import Verif.SpecHistory
import Verif.Proof.History
import Verif.Props.Quirks
import Verif.Props.History
import Verif.Model.Rat
import Verif.SpecRat
import Verif.Proof.Rat
import Verif.Proof.RatOps
import Verif.Props.Rat
import Verif.Proof.RatStr
import Verif.Proof.RatDec
import Verif.Props.RatStr
import Verif.Props.RatQuirks
import Verif.Proof.RatRead
import Verif.Props.RatRead
import Verif.SpecRatDomain
import Verif.Proof.RatDomain
import Verif.Props.RatDomain
import Verif.Proof.RatToDec
import Verif.Proof.RatToDec2
import Verif.Props.RatDecimal
import Verif.SpecRatTrunc
import Verif.Proof.RatDecTrunc
import Verif.Props.RatDecTrunc
import Verif.Proof.RatOut
import Verif.Props.RatOut
import Verif.SpecRatHistory
import Verif.Proof.RatHistory
import Verif.Props.RatHistory
import Verif.SpecPrime
import Verif.Model.Prime
import Verif.Proof.Prime
import Verif.Props.Prime
import Verif.Model.Rsa
import Verif.Proof.Rsa
import Verif.Props.Rsa
import Verif.SpecGmp
import Verif.Model.Gmp
import Verif.Proof.Gmp
import Verif.Proof.GmpIO
import Verif.Props.Gmp
import Verif.Model.Pi
import Verif.Proof.PiMath
import Verif.Proof.Pi
import Verif.Props.Pi
import Verif.Props.RatLen
import Verif.Model.Keygen
import Verif.SpecKeygen
import Verif.Proof.Keygen
import Verif.Props.Keygen
import Verif.SpecRead
import Verif.Proof.Read
import Verif.Props.Read
import Verif.Props.RatDecTrip
import Verif.Model.Examples
import Verif.SpecExamples
import Verif.Proof.Examples
import Verif.Props.Examples
import Verif.Model.Alloc
import Verif.Model.Calc
import Verif.SpecCalc
import Verif.Proof.Alloc
import Verif.Proof.Alloc2
import Verif.Proof.Calc
import Verif.Proof.Calc2
import Verif.Proof.Calc3
import Verif.Proof.Calc4
import Verif.Proof.Calc5
import Verif.Proof.Calc6
import Verif.Props.Calc
import Verif.Model.Tests
import Verif.SpecTests
import Verif.Proof.Tests
import Verif.Props.Tests
import Verif.Model.Driver
import Verif.SpecDriver
import Verif.Proof.Driver
import Verif.Props.Driver
import Verif.SpecVerdict
import Verif.SpecVerdictQ
import Verif.SpecRun
import Verif.Proof.Verdict1
import Verif.Proof.Verdict2
import Verif.Proof.Verdict3
import Verif.Proof.Verdict4
import Verif.Proof.Verdict5
import Verif.Proof.Verdict6
import Verif.Proof.Verdict7
import Verif.Proof.VerdictQ
import Verif.Proof.VerdictQ2
import Verif.Proof.Run1
import Verif.Proof.Run2
import Verif.Proof.Run3
import Verif.Props.Verdict
import Verif.SpecGmpStr
import Verif.Proof.GmpStr
import Verif.Props.GmpDirect
import Verif.Props.GmpStr
import Verif.SpecGmpHistory
import Verif.Proof.GmpHistory
import Verif.Props.GmpHistory
import Verif.SpecDomain
import Verif.Proof.Domain
import Verif.Props.Overread
import Verif.Props.Domain
