import Verif.Proto.Model

/-!
# The audit of averages

The exchange between a bank and an auditor that crypto_test.go:125-247 plays through (zkLedger, section 4.2): the bank
shows the auditor how many of its transactions have a value and what the values add up to, with one equivalence proof
each.  Random numbers are arguments.
-/

namespace Zk.Audit

open Zk Zk.Proto

/-- `etx`, crypto_test.go:125-129. -/
structure Etx where
  CM : ECPoint
  CMTok : ECPoint
  ABCP : Option ABCProof

/-- The key of the bank, crypto_test.go:142. -/
def publicKey (cp : Params) (sk : Int) : Go ECPoint := mult cp cp.H (some sk)

/-- The value of a transaction and the numbers drawn for it: `r` in `PedCommit`, `rnd` in `NewABCProof`
(crypto_test.go:149-157). -/
structure Entry where
  value : Int
  r : Int
  rnd : ABCRand

/-- One round of the loop that makes the transactions, crypto_test.go:149-157.  The error of `NewABCProof` is
ignored. -/
def makeTx (hash : Bytes → Bytes) (cp : Params) (PK : ECPoint) (sk : Int) (e : Entry) : Go Etx := do
  let (CM, commRand) ← pedCommit cp e.value e.r
  let CMTok ← mult cp PK (some commRand)
  let (ABCP, _) ← newABCProof hash cp CM CMTok e.value sk Right e.rnd
  pure ⟨CM, CMTok, ABCP⟩

/-- The loop that makes the transactions, crypto_test.go:148-158. -/
def makeTxs (hash : Bytes → Bytes) (cp : Params) (PK : ECPoint) (sk : Int) (es : List Entry) : Go (List Etx) :=
  es.mapM (makeTx hash cp PK sk)

/-- The four sums, crypto_test.go:172-175. -/
structure Totals where
  CM : ECPoint
  CMTok : ECPoint
  C : ECPoint
  CTok : ECPoint

/-- One round of the loop that adds up, crypto_test.go:178-181.  A nil ABC proof is dereferenced and panics. -/
def addTx (cp : Params) (t : Totals) (x : Etx) : Go Totals := do
  let CM ← add cp x.CM t.CM
  let CMTok ← add cp x.CMTok t.CMTok
  let p ← deref x.ABCP
  let C ← add cp p.C t.C
  let CTok ← add cp p.CToken t.CTok
  pure ⟨CM, CMTok, C, CTok⟩

/-- The sums over all transactions, crypto_test.go:172-182. -/
def totals (cp : Params) (txs : List Etx) : Go Totals := txs.foldlM (addTx cp) ⟨Zero, Zero, Zero, Zero⟩

/-- The first base of an equivalence proof: a sum of commitments without the claimed number,
crypto_test.go:185, 198, 217 and 233. -/
def claimBase (cp : Params) (total : ECPoint) (claimed : Int) : Go ECPoint := do
  let p ← mult cp cp.G (some claimed)
  let q ← neg cp p
  add cp total q

/-- The part of the bank, crypto_test.go:172-207, with `u1` and `u2` the numbers drawn by `NewEquivalenceProof`.  A
failing call ends the test. -/
def bankAudit (hash : Bytes → Bytes) (cp : Params) (txs : List Etx) (PK : ECPoint) (sk numTranx totalValue : Int)
    (u1 u2 : Int) : Go (Option EquivalenceProof × Option EquivalenceProof × Option Err) := do
  let t ← totals cp txs
  let B1 ← claimBase cp t.C numTranx
  let p1 ← newEquivalenceProof hash cp B1 t.CTok cp.H PK sk u1
  if p1.2.isSome then pure (none, none, p1.2)
  else do
    let B1 ← claimBase cp t.CM totalValue
    let p2 ← newEquivalenceProof hash cp B1 t.CMTok cp.H PK sk u2
    if p2.2.isSome then pure (p1.1, none, p2.2)
    else pure (p1.1, p2.1, none)

/-- The check of the number of transactions, crypto_test.go:217-231: whether the auditor goes on. -/
def auditCount (hash : Bytes → Bytes) (cp : Params) (txs : List Etx) (PK : ECPoint) (numTranx : Int)
    (p : Option EquivalenceProof) : Go Bool := do
  let t ← totals cp txs
  let B1 ← claimBase cp t.C numTranx
  let r ← equivalenceVerify hash cp p B1 t.CTok cp.H PK
  if r.2.isSome then pure false
  else pure r.1

/-- The check of the sum of the values, crypto_test.go:233-245: whether the auditor goes on. -/
def auditValue (hash : Bytes → Bytes) (cp : Params) (txs : List Etx) (PK : ECPoint) (totalValue : Int)
    (p : Option EquivalenceProof) : Go Bool := do
  let t ← totals cp txs
  let B1 ← claimBase cp t.CM totalValue
  let r ← equivalenceVerify hash cp p B1 t.CMTok cp.H PK
  if r.2.isSome then pure false
  else pure r.1

/-- The part of the auditor, crypto_test.go:209-245, who computes the sums again. -/
def auditor (hash : Bytes → Bytes) (cp : Params) (txs : List Etx) (PK : ECPoint) (numTranx totalValue : Int)
    (p1 p2 : Option EquivalenceProof) : Go Bool := do
  let a ← auditCount hash cp txs PK numTranx p1
  if !a then pure false
  else auditValue hash cp txs PK totalValue p2

end Zk.Audit
