import Verif.Field.Modulus

/-!
# Checks of the tables of precomputed points, on natural numbers

Used only to check data; Verif/Curve/TabLemmas.lean proves what the checks establish.
-/

namespace Zk.Curve

open Zk.Field

/-- Doubling of Jacobian coordinates given as numbers below p (used only to check data;
the formula of btcec/btcec.go:538-541). -/
def ndbl (p : ℕ × ℕ × ℕ) : ℕ × ℕ × ℕ :=
  match p with
  | (x, y, z) =>
    let xx := x * x % P
    let yy := y * y % P
    let m := 3 * xx % P
    let s := x * yy % P
    let x3 := (m * m + 8 * (P - s)) % P
    let y3 := (m * ((4 * s + (P - x3)) % P) + 8 * (P - yy * yy % P)) % P
    (x3, y3, 2 * y * z % P)

/-- Addition of Jacobian coordinates given as numbers below p (used only to check data;
the formula of btcec/btcec.go:203-205 for common z). -/
def nadd (p q : ℕ × ℕ × ℕ) : ℕ × ℕ × ℕ :=
  match p, q with
  | (x1, y1, z1), (x2, y2, z2) =>
    let zz1 := z1 * z1 % P
    let zz2 := z2 * z2 % P
    let u1 := x1 * zz2 % P
    let u2 := x2 * zz1 % P
    let s1 := y1 * (zz2 * z2 % P) % P
    let s2 := y2 * (zz1 * z1 % P) % P
    let h := (u2 + (P - u1)) % P
    let c := (s2 + (P - s1)) % P
    let hh := h * h % P
    let v := u1 * hh % P
    let x3 := (c * c + (P - hh * (u1 + u2) % P)) % P
    let y3 := (c * ((v + (P - x3)) % P) + (P - s1 * (hh * h % P) % P)) % P
    (x3, y3, (z1 * z2 % P) * h % P)

/-- Equality of the points of two triples (used only to check data; btcec/btcec.go:15-17). -/
def neq (p q : ℕ × ℕ × ℕ) : Bool :=
  (p.1 * (q.2.2 * q.2.2 % P) % P == q.1 * (p.2.2 * p.2.2 % P) % P) &&
    (p.2.1 * (q.2.2 * q.2.2 % P * q.2.2 % P) % P == q.2.1 * (p.2.2 * p.2.2 % P * p.2.2 % P) % P)

/-- An entry of a row (see `tabEntry`).  See btcec/precompute.go:23-67. -/
def entryN (row i : ℕ) : ℕ := row / 2 ^ (840 * i) % 2 ^ 840

/-- A word of a table entry as a number (see `tabWord`).  See btcec/precompute.go:23-67. -/
def wordN (e k : ℕ) : ℕ := e / 2 ^ (28 * k) % 2 ^ 28

/-- The value of a coordinate of a table entry.  See btcec/precompute.go:23-67. -/
def coordN (e c : ℕ) : ℕ :=
  wordN e (10 * c) + wordN e (10 * c + 1) * 2 ^ 26 + wordN e (10 * c + 2) * 2 ^ 52 +
    wordN e (10 * c + 3) * 2 ^ 78 + wordN e (10 * c + 4) * 2 ^ 104 + wordN e (10 * c + 5) * 2 ^ 130 +
    wordN e (10 * c + 6) * 2 ^ 156 + wordN e (10 * c + 7) * 2 ^ 182 + wordN e (10 * c + 8) * 2 ^ 208 +
    wordN e (10 * c + 9) * 2 ^ 234

/-- The words of a coordinate are within magnitude 1.  See btcec/precompute.go:23-67. -/
def magOk (e c : ℕ) : Bool :=
  Nat.ble (wordN e (10 * c)) 68157440 && Nat.ble (wordN e (10 * c + 1)) 68157440 &&
    Nat.ble (wordN e (10 * c + 2)) 68157440 && Nat.ble (wordN e (10 * c + 3)) 68157440 &&
    Nat.ble (wordN e (10 * c + 4)) 68157440 && Nat.ble (wordN e (10 * c + 5)) 68157440 &&
    Nat.ble (wordN e (10 * c + 6)) 68157440 && Nat.ble (wordN e (10 * c + 7)) 68157440 &&
    Nat.ble (wordN e (10 * c + 8)) 68157440 && Nat.ble (wordN e (10 * c + 9)) 4194304

/-- The coordinates of a table entry as numbers.  See btcec/precompute.go:23-67. -/
def ptN (e : ℕ) : ℕ × ℕ × ℕ := (coordN e 0, coordN e 1, coordN e 2)

/-- Magnitudes of all coordinates.  See btcec/precompute.go:23-67. -/
def entMag (e : ℕ) : Bool := magOk e 0 && (magOk e 1 && magOk e 2)

/-- Whether `p` + `q` = `r`, for points with different x.  See btcec/precompute.go:23-67. -/
def addIs (p q r : ℕ × ℕ × ℕ) : Bool :=
  !(Nat.beq (p.1 * (q.2.2 * q.2.2) % P) (q.1 * (p.2.2 * p.2.2) % P)) &&
    (!(Nat.beq (r.2.2 % P) 0) && neq (nadd p q) r)

/-- Entries from `i` on: `prev` is entry `i - 1`, `e1` entry 1.  See btcec/precompute.go:23-67. -/
def rowLoop (row : ℕ) (e1 : ℕ × ℕ × ℕ) : ℕ → ℕ → ℕ × ℕ × ℕ → Bool
  | 0, _, _ => true
  | n + 1, i, prev =>
    entMag (entryN row i) && (addIs prev e1 (ptN (entryN row i)) &&
      rowLoop row e1 n (i + 1) (ptN (entryN row i)))

/-- A whole row, given entry 1.  See btcec/precompute.go:23-67. -/
def rowOk (row : ℕ) : Bool :=
  Nat.beq (entryN row 0) 0 && (entMag (entryN row 1) && (entMag (entryN row 2) &&
    (!(Nat.beq (coordN (entryN row 1) 1 % P) 0) && (!(Nat.beq (coordN (entryN row 2) 2 % P) 0) &&
      (neq (ndbl (ptN (entryN row 1))) (ptN (entryN row 2)) &&
        rowLoop row (ptN (entryN row 1)) 253 3 (ptN (entryN row 2)))))))

/-- The step from one row to the row above.  See btcec/precompute.go:23-67. -/
def linkOk (row up : ℕ) : Bool :=
  addIs (ptN (entryN row 255)) (ptN (entryN row 1)) (ptN (entryN up 1))

end Zk.Curve
