import Verif.Curve.TabCheck

/-!
# Check on natural numbers that the tables are what the generator computes

Used only to check data; Verif/Gen/ExactLemmas.lean proves what the checks establish.
-/

namespace Zk.Gen

open Zk.Field Zk.Curve

/-- The first reduction of a product (used only to check data; btcec/field.go:741-823). -/
def foldN (n : ℕ) : ℕ := n % 2 ^ 260 + n / 2 ^ 260 * 68719492368

/-- The value of a product after both reductions (used only to check data; btcec/field.go:741-880). -/
def redN (n : ℕ) : ℕ := foldN n % 2 ^ 256 + foldN n / 2 ^ 256 * 4294968273

/-- The words of a coordinate are below 2^26, the last below 2^22.
See btcec/gensecp256k1.go:80-116. -/
def canonOk (e c : ℕ) : Bool :=
  Nat.ble (wordN e (10 * c)) 67108863 && Nat.ble (wordN e (10 * c + 1)) 67108863 &&
    Nat.ble (wordN e (10 * c + 2)) 67108863 && Nat.ble (wordN e (10 * c + 3)) 67108863 &&
    Nat.ble (wordN e (10 * c + 4)) 67108863 && Nat.ble (wordN e (10 * c + 5)) 67108863 &&
    Nat.ble (wordN e (10 * c + 6)) 67108863 && Nat.ble (wordN e (10 * c + 7)) 67108863 &&
    Nat.ble (wordN e (10 * c + 8)) 67108863 && Nat.ble (wordN e (10 * c + 9)) 4194303

/-- The same for z, but the third word may hold a carry.  See btcec/gensecp256k1.go:80-116. -/
def carryOk (e : ℕ) : Bool :=
  Nat.ble (wordN e 20) 67108863 && Nat.ble (wordN e 21) 67108863 &&
    Nat.ble (wordN e 22) 68157440 && Nat.ble (wordN e 23) 67108863 &&
    Nat.ble (wordN e 24) 67108863 && Nat.ble (wordN e 25) 67108863 &&
    Nat.ble (wordN e 26) 67108863 && Nat.ble (wordN e 27) 67108863 &&
    Nat.ble (wordN e 28) 67108863 && Nat.ble (wordN e 29) 4194303

/-- The value of the words of z above the third.  See btcec/gensecp256k1.go:80-116. -/
def highZ (e : ℕ) : ℕ :=
  wordN e 23 + wordN e 24 * 2 ^ 26 + wordN e 25 * 2 ^ 52 + wordN e 26 * 2 ^ 78 +
    wordN e 27 * 2 ^ 104 + wordN e 28 * 2 ^ 130 + wordN e 29 * 2 ^ 156

/-- An entry with x and y normalised.  See btcec/gensecp256k1.go:80-116. -/
def entOk (e : ℕ) : Bool :=
  canonOk e 0 && (canonOk e 1 && (carryOk e &&
    (Nat.blt (coordN e 0) P && Nat.blt (coordN e 1) P)))

/-- The factors whose product is z of a sum, for normalised z and x (used only to check data;
btcec/btcec.go:396-404). -/
def zProd (z1 z2 u1 u2 : ℕ) : ℕ :=
  (redN ((z1 + z2) * (z1 + z2)) + (3 * P - (redN (z1 * z1) + redN (z2 * z2)))) * (u2 + (2 * P - u1))

/-- The conditions for the general case of the addition (used only to check data;
btcec/btcec.go:411-453 and 360). -/
def genCond (x1 y1 z1 x2 y2 z2 : ℕ) : Bool :=
  !(Nat.beq (y1 % P) 0) && (!(Nat.beq z1 0) && (!(Nat.beq (y2 % P) 0) && (!(Nat.beq z2 0) &&
    (!(Nat.beq z2 1) && (!(Nat.beq z1 z2) &&
      !(Nat.beq (x1 * (z2 * z2) % P) (x2 * (z1 * z1) % P)))))))

/-- The words of z of entry `e` are those of the product `n`.  See btcec/gensecp256k1.go:80-116. -/
def zIs (n e : ℕ) : Bool :=
  Nat.beq (coordN e 2) (redN n) && Nat.beq (highZ e) (foldN n % 2 ^ 256 / 2 ^ 78)

/-- x and y of the sum.  See btcec/gensecp256k1.go:80-116. -/
def xyIs (s : ℕ × ℕ × ℕ) (x3 y3 : ℕ) : Bool :=
  Nat.beq x3 (s.1 * 4 % P) && Nat.beq y3 (s.2.1 * 8 % P)

/-- Whether entry `e3` holds the words computed for the sum of entry `e1` and the point `q`.
See btcec/gensecp256k1.go:80-116. -/
def genIs (e1 : ℕ) (q : ℕ × ℕ × ℕ) (e3 : ℕ) : Bool :=
  genCond (coordN e1 0) (coordN e1 1) (coordN e1 2 % P) q.1 q.2.1 q.2.2 &&
    (xyIs (nadd (coordN e1 0, coordN e1 1, coordN e1 2 % P) q) (coordN e3 0) (coordN e3 1) &&
      (zIs (zProd (coordN e1 2 % P) q.2.2 (coordN e1 0 * (q.2.2 * q.2.2) % P)
        (q.1 * (coordN e1 2 % P * (coordN e1 2 % P)) % P)) e3 && entOk e3))

/-- The entries `m + d` for `n` values of `m`.  See btcec/gensecp256k1.go:80-116. -/
def genLoop (row : ℕ) (q : ℕ × ℕ × ℕ) (d : ℕ) : ℕ → ℕ → Bool
  | 0, _ => true
  | n + 1, m => genIs (entryN row m) q (entryN row (m + d)) && genLoop row q d n (m + 1)

/-- Whether entry `e2` holds the words computed for twice entry `e1`.
See btcec/gensecp256k1.go:80-116. -/
def dblIs (e1 e2 : ℕ) : Bool :=
  !(Nat.beq (coordN e1 1 % P) 0) && (!(Nat.beq (coordN e1 2 % P) 0) &&
    (Nat.beq (coordN e2 0) (ndbl (ptN e1)).1 && (Nat.beq (coordN e2 1) (ndbl (ptN e1)).2.1 &&
      Nat.beq (coordN e2 2) (ndbl (ptN e1)).2.2)))

/-- An entry with all coordinates normalised.  See btcec/gensecp256k1.go:80-116. -/
def normOk (e : ℕ) : Bool := entOk e && (canonOk e 2 && Nat.blt (coordN e 2) P)

/-- The sums with entry `d` as the last summand.  See btcec/gensecp256k1.go:80-116. -/
def genPart (row d : ℕ) : Bool :=
  normOk (entryN row d) && genLoop row (ptN (entryN row d)) d (d - 1) 1

/-- A whole row.  See btcec/gensecp256k1.go:80-116. -/
def rowGen (row : ℕ) : Bool :=
  Nat.beq (entryN row 0) 0 && (genPart row 1 && (genPart row 2 && (genPart row 4 &&
    (genPart row 8 && (genPart row 16 && (genPart row 32 && (genPart row 64 && (genPart row 128 &&
    (dblIs (entryN row 1) (entryN row 2) && (dblIs (entryN row 2) (entryN row 4) &&
      (dblIs (entryN row 4) (entryN row 8) && (dblIs (entryN row 8) (entryN row 16) &&
        (dblIs (entryN row 16) (entryN row 32) && (dblIs (entryN row 32) (entryN row 64) &&
          dblIs (entryN row 64) (entryN row 128)))))))))))))))

/-- The step from one row to the row above.  See btcec/gensecp256k1.go:80-116. -/
def genLink (row up : ℕ) : Bool := dblIs (entryN row 128) (entryN up 1)

end Zk.Gen
