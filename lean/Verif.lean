import Verif.Wire.Props
import Verif.Wire.FreeListProps
import Verif.Ser.MoreProps
import Verif.Ser.SafeProps
import Verif.Ser.SizeProps
import Verif.Proto.BasicProps
import Verif.Proto.AbcProps
import Verif.Proto.AbcSim
import Verif.Proto.MoreProps
import Verif.Proto.WireProps
import Verif.Range.Props3
import Verif.Range.RandProps
import Verif.Field.Props
import Verif.Field.Vectors1
import Verif.Field.Vectors2
import Verif.Ec.Vectors
import Verif.Curve.Props
import Verif.Curve.OnceProps
import Verif.Ec.NonceProps
import Verif.Ec.Props2
import Verif.Ec.RandProps
import Verif.Real.Props
import Verif.Real.RangeProps
import Verif.Gen.Props
import Verif.Heap.Props
import Verif.Proto.RefuseProps
import Verif.Proto.NilProps
import Verif.Proto.NilWitness
import Verif.Proto.RestProps
import Verif.Mem.Props
import Verif.Mem.ParProps
import Verif.Rom.Props
import Verif.Rom.ZkProps
import Verif.Rom.AbcProps
import Verif.Rom.RangeProps
import Verif.Rom.BindProps
import Verif.Rom.BitProps
import Verif.Real.Forge
import Verif.Rom.CompleteProps
import Verif.Rom.RangeLeakProps
import Verif.Rom.WrongProps
import Verif.Rom.EvilProps
import Verif.Hostile.Props
import Verif.Offcurve.Props
import Verif.Offcurve.StmtProps
import Verif.Offcurve.AbcProps
import Verif.Text.Props
import Verif.Wire.RandomProps
import Verif.Audit.Props
import Verif.Stream.Props
