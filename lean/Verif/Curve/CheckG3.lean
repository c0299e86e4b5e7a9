import Verif.Curve.TabCheck
import Verif.Curve.Data.TabG3

/-!
# Rows 24 to 31 of the table of multiples of the first base, checked by the kernel
-/

namespace Zk.Curve

theorem rowG24_ok : rowOk rowG24 = true := by decide +kernel

theorem rowG25_ok : rowOk rowG25 = true := by decide +kernel

theorem rowG26_ok : rowOk rowG26 = true := by decide +kernel

theorem rowG27_ok : rowOk rowG27 = true := by decide +kernel

theorem rowG28_ok : rowOk rowG28 = true := by decide +kernel

theorem rowG29_ok : rowOk rowG29 = true := by decide +kernel

theorem rowG30_ok : rowOk rowG30 = true := by decide +kernel

theorem rowG31_ok : rowOk rowG31 = true := by decide +kernel

theorem rowG24_link : linkOk rowG25 rowG24 = true := by decide +kernel

theorem rowG25_link : linkOk rowG26 rowG25 = true := by decide +kernel

theorem rowG26_link : linkOk rowG27 rowG26 = true := by decide +kernel

theorem rowG27_link : linkOk rowG28 rowG27 = true := by decide +kernel

theorem rowG28_link : linkOk rowG29 rowG28 = true := by decide +kernel

theorem rowG29_link : linkOk rowG30 rowG29 = true := by decide +kernel

theorem rowG30_link : linkOk rowG31 rowG30 = true := by decide +kernel

end Zk.Curve
