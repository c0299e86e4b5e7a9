import Verif.Curve.TabCheck
import Verif.Curve.Data.TabH2

/-!
# Rows 16 to 23 of the table of multiples of the second base, checked by the kernel
-/

namespace Zk.Curve

theorem rowH16_ok : rowOk rowH16 = true := by decide +kernel

theorem rowH17_ok : rowOk rowH17 = true := by decide +kernel

theorem rowH18_ok : rowOk rowH18 = true := by decide +kernel

theorem rowH19_ok : rowOk rowH19 = true := by decide +kernel

theorem rowH20_ok : rowOk rowH20 = true := by decide +kernel

theorem rowH21_ok : rowOk rowH21 = true := by decide +kernel

theorem rowH22_ok : rowOk rowH22 = true := by decide +kernel

theorem rowH23_ok : rowOk rowH23 = true := by decide +kernel

theorem rowH16_link : linkOk rowH17 rowH16 = true := by decide +kernel

theorem rowH17_link : linkOk rowH18 rowH17 = true := by decide +kernel

theorem rowH18_link : linkOk rowH19 rowH18 = true := by decide +kernel

theorem rowH19_link : linkOk rowH20 rowH19 = true := by decide +kernel

theorem rowH20_link : linkOk rowH21 rowH20 = true := by decide +kernel

theorem rowH21_link : linkOk rowH22 rowH21 = true := by decide +kernel

theorem rowH22_link : linkOk rowH23 rowH22 = true := by decide +kernel

end Zk.Curve
