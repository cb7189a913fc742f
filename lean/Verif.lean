import Verif.Core
import Verif.Crc.Props
import Verif.Bits.PropsBitman
import Verif.Bits.PropsStream
import Verif.Reduce.Props
import Verif.Interleave.Props
import Verif.Xorshift.Props
import Verif.Mls.Props
import Verif.Mls.PropsSeq
import Verif.Permute.Props
import Verif.Sort.Props
import Verif.PrimeField.Props
import Verif.Rotate.Props
import Verif.PolarHelper.Props
import Verif.GF.Props
import Verif.GF.PropsLife
import Verif.RS.Props
import Verif.RS.Props26
import Verif.RS.PropsExample
import Verif.BCH.Props
import Verif.BCH.PropsExample
import Verif.Cauchy.Props
import Verif.Cauchy.PropsBytes
import Verif.CauchyPF.Props
import Verif.Hadamard.Props
import Verif.Polar.PropsEnc
import Verif.Polar.PropsSc
import Verif.Polar.PropsList
import Verif.Polar.PropsPar
import Verif.Polar.PropsScl
import Verif.Polar.PropsMl
import Verif.Polar.PropsSct
import Verif.Polar.PropsFloat
import Verif.Freezer.Props
import Verif.LDPC.Props
import Verif.LDPC.PropsExact
import Verif.LDPC.PropsTurns
import Verif.OSD.Props
import Verif.OSD.PropsList
import Verif.OSD.PropsGen
import Verif.ShortBCH.Props
import Verif.SIMD.PropsSse
import Verif.SIMD.PropsAvx
import Verif.SIMD.PropsNeon
import Verif.SIMD.PropsOps
import Verif.SIMD.PropsPort
import Verif.Targets.PropsPortFloat
import Verif.Polar.PropsFloatEnc
import Verif.Polar.PropsFloatList
import Verif.Polar.PropsFloatMl
import Verif.Targets.Props
import Verif.Targets.PropsLdpc
import Verif.Targets.PropsLdpcErase
import Verif.Crc.PropsPoly
import Verif.Interleave.PropsBurst
import Verif.RS.PropsBurst
import Verif.Targets.PropsFloat
import Verif.Polar.PropsEncSimd
import Verif.Polar.PropsSysIff
import Verif.CrcPolar.Props
import Verif.CrcPolar.PropsFreeze
import Verif.Trials.Props
import Verif.Trials.PropsBCH
import Verif.Trials.PropsShort
import Verif.ShortBCH.PropsBound
import Verif.ShortBCH.PropsChase
import Verif.Trials.PropsChannel
import Verif.Trials.PropsSoft
import Verif.Trials.PropsSoftBCH
import Verif.Polar.PropsScVal
import Verif.Trials.PropsPolar
import Verif.OSD.PropsBest
import Verif.Trials.PropsOsd
import Verif.Trials.PropsOsdEx
import Verif.Trials.PropsLdpc
import Verif.Trials.PropsList
import Verif.Crc.PropsDist
import Verif.Freezer.PropsBec
import Verif.Freezer.PropsBecList
import Verif.Freezer.PropsBecFloat
import Verif.OSD.PropsErase
import Verif.Hadamard.PropsErase
import Verif.ShortBCH.PropsErase
import Verif.Permute.PropsDraws
import Verif.LDPC.PropsErase
import Verif.LDPC.PropsShift
import Verif.RS.PropsShift
import Verif.BCH.PropsShift
import Verif.ShortBCH.PropsShift
import Verif.Polar.PropsShift
import Verif.Hadamard.PropsShift
import Verif.OSD.PropsShift
import Verif.Trials.PropsSort
import Verif.Trials.PropsGf
