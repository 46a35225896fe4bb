import Verif.F64.Basic
import Verif.F64.Round
import Verif.F64.Val
import Verif.F64.Ops
import Verif.Arith
import Verif.Model.Utils
import Verif.Model.Gamma
import Verif.Model.Beta
import Verif.Model.Error
import Verif.Model.Dawson
import Verif.Model.Faddeeva
import Verif.Model.Bessel
import Verif.Model.Cache
import Verif.Spec
import Verif.Proofs.Bits
import Verif.Proofs.Utils
import Verif.Proofs.Cache
import Verif.Props.Utils
import Verif.Props.Cache
import Verif.Proofs.Inst
import Verif.Proofs.Interval
import Verif.Proofs.FactTable
import Verif.Proofs.Factorial
import Verif.Props.Factorial
import Verif.Proofs.Exact
import Verif.Proofs.Poly
import Verif.Proofs.Gamma
import Verif.Proofs.Gamma2
import Verif.Proofs.GammaReal
import Verif.Props.Gamma
import Verif.LibmSpec
import Verif.Proofs.Sign
import Verif.Proofs.IncGamma
import Verif.Proofs.IncGamma2
import Verif.Proofs.OIv
import Verif.Proofs.LnGamma
import Verif.Proofs.IncGamma3
import Verif.Proofs.Gcf
import Verif.Proofs.IncGamma4
import Verif.Proofs.IncGamma5
import Verif.Proofs.IncReal
import Verif.Props.IncGamma
import Verif.Proofs.Beta
import Verif.Proofs.Beta2
import Verif.Props.Beta
import Verif.SpecFun
import Verif.Tables.ErfcxErr
import Verif.Proofs.Error
import Verif.Props.Error
import Verif.Proofs.Erfcx
import Verif.Proofs.ErfcxReal
import Verif.Proofs.ErfcxCheck
import Verif.Proofs.ErfcxAcc
import Verif.Proofs.ErfcxRange
import Verif.Props.Erfcx
import Verif.Proofs.Dawson
import Verif.Proofs.Dawson2
import Verif.Props.Dawson
import Verif.Proofs.NumEq
import Verif.Proofs.FadTile
import Verif.Proofs.Faddeeva
import Verif.Proofs.FadAxis
import Verif.Props.Faddeeva
import Verif.Proofs.Bessel
import Verif.Proofs.Bessel2
import Verif.Proofs.BesselBound
import Verif.Props.Bessel
import Verif.Props.Wronskian
import Verif.Props.Series
import Verif.Props.ContFrac
import Verif.Props.Miller
import Verif.LibmUlp
import Verif.Proofs.ZPoly
import Verif.Proofs.FlErr
import Verif.Proofs.Rel
import Verif.Proofs.Ab
import Verif.Proofs.LanczosReal
import Verif.Proofs.ErfcReal
import Verif.Proofs.ErfcxTail
import Verif.Proofs.ErfcxTailF
import Verif.Proofs.ErfcF
import Verif.Props.ErfcxAll
import Verif.Props.ErfAcc
import Verif.Proofs.LnGammaF
import Verif.Props.LnGammaAcc
import Verif.Proofs.Stirling
import Verif.Proofs.GammaCore
import Verif.Proofs.GammaCore2
import Verif.Proofs.GammaCoreF
import Verif.Proofs.GammaAcc
import Verif.Proofs.GammaAccF
import Verif.Props.GammaAcc
import Verif.Proofs.InvErfc
import Verif.Proofs.InvErfc2
import Verif.Proofs.InvErfc3
import Verif.Proofs.InvErfcF
import Verif.Proofs.InvErfcF2
import Verif.Props.InvErfc
import Verif.SpecBessel
import Verif.Tables.BesselZ
import Verif.Proofs.BesselSer
import Verif.Proofs.BesselLeft
import Verif.Proofs.BesselLeft2
import Verif.Proofs.BesselRight
import Verif.Proofs.BesselRight2
import Verif.Proofs.BesselRight3
import Verif.Proofs.BesselRight4
import Verif.Proofs.BesselRight5
import Verif.Proofs.BesselI
import Verif.Proofs.BesselI2
import Verif.Props.BesselAcc
import Verif.LibmTrig
import Verif.Tables.BesselX
import Verif.Proofs.BesselF
import Verif.Proofs.BesselF2
import Verif.Proofs.BesselF3
import Verif.Proofs.BesselF4
import Verif.Props.BesselF64
import Verif.Proofs.BesselIn
import Verif.Proofs.BesselIn2
import Verif.Proofs.BesselInF
import Verif.Proofs.BesselInF2
import Verif.Proofs.BesselInF3
import Verif.Proofs.BesselInF4
import Verif.Proofs.BesselInF5
import Verif.Props.BesselInAcc
import Verif.Props.BesselInF64
import Verif.Proofs.BesselJn
import Verif.Proofs.BesselJnF
import Verif.Proofs.BesselJd
import Verif.Proofs.BesselJd2
import Verif.Proofs.BesselJd3
import Verif.Props.BesselJnAcc
import Verif.Props.BesselJnDown
import Verif.SpecBesselK
import Verif.Proofs.BesselK
import Verif.Proofs.BesselK2
import Verif.Proofs.BesselK3
import Verif.Proofs.BesselK4
import Verif.Proofs.BesselK5
import Verif.Proofs.BesselK6
import Verif.Proofs.BesselK7
import Verif.Proofs.BesselKF
import Verif.Proofs.BesselKF2
import Verif.Proofs.BesselKF3
import Verif.Proofs.BesselKF4
import Verif.Props.BesselKnAcc
import Verif.Props.IncGammaAcc
import Verif.SpecIncBeta
import Verif.Proofs.HypGeo
import Verif.Proofs.IncBeta
import Verif.Proofs.BetaCfR
import Verif.Proofs.BetaAccR
import Verif.Proofs.BetaF
import Verif.Proofs.BetaWrong
import Verif.Props.BetaAcc
import Verif.Proofs.BetaSand
import Verif.Proofs.BetaSandF
import Verif.Proofs.BetaCfF
import Verif.Proofs.BetaCfG
import Verif.Proofs.BetaCfH
import Verif.Proofs.BetaCfI
import Verif.Props.BetaAcc64
import Verif.Props.BetaOver
import Verif.Props.BetaWide
import Verif.Props.BesselKnUnder
import Verif.Props.BesselIOver
import Verif.SpecBesselY
import Verif.Proofs.EulerGamma
import Verif.Proofs.BesselY
import Verif.Proofs.BesselY2
import Verif.Proofs.BesselY3
import Verif.Proofs.BesselY4
import Verif.Proofs.BesselYF
import Verif.Proofs.BesselYF2
import Verif.Props.BesselYnAcc
import Verif.Proofs.BesselYn
import Verif.Proofs.BesselYn2
import Verif.Proofs.BesselYn3
import Verif.Proofs.BesselYn4
import Verif.Proofs.BesselYnF
import Verif.Proofs.BesselYnF2
import Verif.Proofs.BesselYnF3
import Verif.Props.BesselYnGen
import Verif.Proofs.InvGammaNaN
import Verif.Props.InvGammaPanic
import Verif.Props.InvBetaRet
import Verif.SpecFaddeeva
import Verif.Proofs.FadSpec
import Verif.Props.FaddeevaAcc
import Verif.Proofs.FadMac
import Verif.Proofs.FadHorner
import Verif.Props.FaddeevaDisk
import Verif.Proofs.FadRay
import Verif.Proofs.FadAsy
import Verif.Proofs.FadAsyF
import Verif.Proofs.FadHerm
import Verif.Proofs.FadNear
import Verif.Proofs.FadMid
import Verif.Proofs.FadAsyG
import Verif.Proofs.FadFar
import Verif.Props.FaddeevaFar
import Verif.Props.FaddeevaLower
import Verif.Props.FaddeevaNear
