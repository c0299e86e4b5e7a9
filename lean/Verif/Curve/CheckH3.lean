import Verif.Curve.TabCheck
import Verif.Curve.Data.TabH3

/-!
# Rows 24 to 31 of the table of multiples of the second base, checked by the kernel
-/

namespace Zk.Curve

theorem rowH24_ok : rowOk rowH24 = true := by decide +kernel

theorem rowH25_ok : rowOk rowH25 = true := by decide +kernel

theorem rowH26_ok : rowOk rowH26 = true := by decide +kernel

theorem rowH27_ok : rowOk rowH27 = true := by decide +kernel

theorem rowH28_ok : rowOk rowH28 = true := by decide +kernel

theorem rowH29_ok : rowOk rowH29 = true := by decide +kernel

theorem rowH30_ok : rowOk rowH30 = true := by decide +kernel

theorem rowH31_ok : rowOk rowH31 = true := by decide +kernel

theorem rowH24_link : linkOk rowH25 rowH24 = true := by decide +kernel

theorem rowH25_link : linkOk rowH26 rowH25 = true := by decide +kernel

theorem rowH26_link : linkOk rowH27 rowH26 = true := by decide +kernel

theorem rowH27_link : linkOk rowH28 rowH27 = true := by decide +kernel

theorem rowH28_link : linkOk rowH29 rowH28 = true := by decide +kernel

theorem rowH29_link : linkOk rowH30 rowH29 = true := by decide +kernel

theorem rowH30_link : linkOk rowH31 rowH30 = true := by decide +kernel

end Zk.Curve
