import Verif.Model.Prim
import Verif.Model.Digit
import Verif.Model.AddSub
import Verif.Model.Mul
import Verif.Model.Div
import Verif.Model.UBigAdd
import Verif.Model.UBigMul
import Verif.Model.UBig
import Verif.Model.Text
import Verif.Model.Forms
import Verif.Spec
import Verif.SpecDiv
import Verif.SpecDec
import Verif.SpecMul
import Verif.Proofs.Basic
import Verif.Proofs.Lawful
import Verif.Proofs.Lists
import Verif.Proofs.AddSub
import Verif.Proofs.UBigAdd
import Verif.Props.Digit
import Verif.Props.AddSub
import Verif.Proofs.MulDigit
import Verif.Proofs.Shift
import Verif.Proofs.MulLong
import Verif.Proofs.Safe
import Verif.Proofs.SafePow2
import Verif.Proofs.Buf
import Verif.Proofs.WorkSize
import Verif.Proofs.Karatsuba
import Verif.Proofs.BufOps
import Verif.Proofs.ToomEval
import Verif.Proofs.ToomInterp
import Verif.Proofs.Toom3
import Verif.Props.Word
import Verif.Proofs.MulBig
import Verif.Proofs.DivDigit
import Verif.Proofs.DivLong
import Verif.Proofs.DivPair
import Verif.Props.Mul
import Verif.Props.MulSafe
import Verif.Proofs.DivBz
import Verif.Proofs.DivBig
import Verif.Proofs.DivErr
import Verif.Proofs.DivTie
import Verif.Props.Div
import Verif.Props.DivSafe
import Verif.Props.Decimal
import Verif.Props.TextPlus
import Verif.Model.DivBase
import Verif.Props.DivBase
import Verif.Proofs.Text
import Verif.Proofs.Format
import Verif.Props.Text
import Verif.Proofs.Profile
import Verif.Props.Profile
import Verif.Props.Programs
import Verif.Model.Fibo
import Verif.Model.DigitArith
import Verif.Props.Forms
import Verif.SpecKara
import Verif.Proofs.KaraExact
import Verif.Proofs.KaraFail
import Verif.Proofs.KaraWitness
import Verif.Props.MulExact
import Verif.SpecToom
import Verif.Proofs.ToomDigits
import Verif.Proofs.ToomEvalExact
import Verif.Proofs.ToomInterpExact
import Verif.Proofs.ToomExact
import Verif.Proofs.MulExactAll
import Verif.Proofs.PowExact
import Verif.Props.PowExact
import Verif.SpecFib
import Verif.Props.FiboExact
import Verif.Props.FiboBench
import Verif.SpecDivLen
import Verif.Proofs.DivLengths
import Verif.Proofs.DivBzTie
import Verif.Proofs.DivUnfit
import Verif.Props.DivLengths
import Verif.Props.Laws
import Verif.Props.Fibo
import Verif.Props.Unnormalised
import Verif.Props.DigitArith
import Verif.Props.SquareLong
import Verif.Props.ShiftDecimal
import Verif.Props.LawsClean
import Verif.Props.DecimalLong
import Verif.Model.BaseBench
import Verif.Props.SplitTest
import Verif.Props.BaseBench
import Verif.Proofs.Packed
import Verif.Proofs.PackedSquare
import Verif.Proofs.PackedFast
import Verif.Proofs.PackedEval
import Verif.Proofs.Scale.Table
import Verif.Proofs.Scale.First
import Verif.Proofs.Scale.Second
import Verif.Proofs.Scale.Right
import Verif.SpecSquare
import Verif.Proofs.Win
import Verif.Proofs.ToomStale
import Verif.Proofs.SquareFresh
import Verif.Proofs.SquareSound
import Verif.Proofs.SquareExact
import Verif.Props.SquareFresh
import Verif.Props.LawsSafe
import Verif.Props.Client
import Verif.Props.ClientSound
import Verif.Props.ClientExact
import Verif.SpecProduct
import Verif.Proofs.ProductOk
import Verif.Proofs.Fuel
import Verif.Proofs.FuelRec
import Verif.Proofs.FuelDec
import Verif.Proofs.FuelEq
import Verif.Props.Terminate
import Verif.Tests.Conformance
import Verif.Tests.Units
import Verif.Tests.UnitsMulDiv
import Verif.Tests.UnitsUBig
import Verif.Model.DivLeft
import Verif.Proofs.DivTotal
import Verif.Proofs.DivLeft
import Verif.Props.DivReturns
import Verif.Props.DivLeft
import Verif.Props.Order
import Verif.Props.ClientMore
