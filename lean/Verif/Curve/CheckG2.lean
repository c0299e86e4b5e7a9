import Verif.Curve.TabCheck
import Verif.Curve.Data.TabG2

/-!
# Rows 16 to 23 of the table of multiples of the first base, checked by the kernel
-/

namespace Zk.Curve

theorem rowG16_ok : rowOk rowG16 = true := by decide +kernel

theorem rowG17_ok : rowOk rowG17 = true := by decide +kernel

theorem rowG18_ok : rowOk rowG18 = true := by decide +kernel

theorem rowG19_ok : rowOk rowG19 = true := by decide +kernel

theorem rowG20_ok : rowOk rowG20 = true := by decide +kernel

theorem rowG21_ok : rowOk rowG21 = true := by decide +kernel

theorem rowG22_ok : rowOk rowG22 = true := by decide +kernel

theorem rowG23_ok : rowOk rowG23 = true := by decide +kernel

theorem rowG16_link : linkOk rowG17 rowG16 = true := by decide +kernel

theorem rowG17_link : linkOk rowG18 rowG17 = true := by decide +kernel

theorem rowG18_link : linkOk rowG19 rowG18 = true := by decide +kernel

theorem rowG19_link : linkOk rowG20 rowG19 = true := by decide +kernel

theorem rowG20_link : linkOk rowG21 rowG20 = true := by decide +kernel

theorem rowG21_link : linkOk rowG22 rowG21 = true := by decide +kernel

theorem rowG22_link : linkOk rowG23 rowG22 = true := by decide +kernel

end Zk.Curve
