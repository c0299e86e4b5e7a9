import Mathlib.Data.Nat.Notation

/-!
# The field prime
-/

namespace Zk.Field

/-- The field prime, btcec/btcec.go:935 and btcec/field.go:105-107. -/
def P : ℕ := 2 ^ 256 - 4294968273

end Zk.Field
