import Verif.Wire.Model
import Mathlib.Logic.Function.Basic
import Mathlib.Logic.Relation

/-!
# The free list of scratch buffers as a concurrent state machine

`binaryFreeList` (wire/common.go:45-165) is a buffered channel of byte slices shared by all
goroutines.  A state holds the channel, the heap of buffers and one program counter per
goroutine; every step is one atomic action of one goroutine.  Filling and draining a buffer is
done one byte per step, so other goroutines may run between any two byte accesses.
-/

namespace Zk.Wire.FreeList

open Zk Zk.Wire

/-- Widths of the primitives: `Uint8/16/32/64` and `PutUint8/16/32/64`, wire/common.go:71-165. -/
inductive Width | w1 | w2 | w4 | w8
deriving DecidableEq

/-- Number of bytes, the `n` of `l.Borrow()[:n]`, wire/common.go:72,86,100,114,127,138,149,160. -/
def Width.size : Width → Nat
  | .w1 => 1 | .w2 => 2 | .w4 => 4 | .w8 => 8

/-- One call of a primitive: `get w s` is a `UintN` call whose reader holds `s`
(wire/common.go:71-122); the `put` calls (wire/common.go:126-165) carry the value. -/
inductive Op
  | get (w : Width) (s : Bytes)
  | put8 (v : UInt8) | put16 (v : UInt16) | put32 (v : UInt32) | put64 (v : UInt64)

/-- Width of the buffer a call uses, wire/common.go:72,86,100,114,127,138,149,160. -/
def Op.width : Op → Width
  | .get w _ => w
  | .put8 _ => .w1 | .put16 _ => .w2 | .put32 _ => .w4 | .put64 _ => .w8

/-- The bytes a call puts into the buffer: what `io.ReadFull` delivers, or the encoded value
(wire/common.go:73,87,101,115,128,139,150,161). -/
def Op.src : Op → Bytes
  | .get _ s => s
  | .put8 v => putUint8 v | .put16 v => putUint16 v | .put32 v => putUint32 v
  | .put64 v => putUint64 v

/-- Program counter of a goroutine in one of the primitives, wire/common.go:71-165. -/
inductive TState
  /-- Not inside a primitive. -/
  | idle
  /-- Called, about to run `Borrow`, wire/common.go:49. -/
  | started (op : Op)
  /-- Holds buffer `b`, `i` bytes filled (`io.ReadFull` or `PutUintN`). -/
  | filling (op : Op) (b i : Nat)
  /-- Holds buffer `b`, has read back `acc` (`byteOrder.UintN(buf)` or `w.Write(buf)`). -/
  | draining (op : Op) (b : Nat) (acc : Bytes)
  /-- About to run `Return(b)`; `res` is what the call produces, `none` for a short read. -/
  | returning (op : Op) (b : Nat) (res : Option Bytes)

/-- Shared state: the free list, wire/common.go:33-67, and the goroutines. -/
structure State where
  /-- The channel contents, oldest first (`binarySerializer`, wire/common.go:169). -/
  free : List Nat
  /-- The backing arrays of the buffers; the length of the list is the capacity. -/
  heap : Nat → Bytes
  /-- Next unused buffer address (`make`, wire/common.go:54). -/
  next : Nat
  /-- Goroutines. -/
  thr : Nat → TState
  /-- Finished calls with their results. -/
  log : List (Op × Option Bytes)
  /-- Some goroutine has panicked (slice bounds). -/
  panicked : Bool

/-- `binaryFreeListMaxItems`, wire/common.go:21. -/
def maxItems : Nat := 1024

/-- Start of the program: empty channel (wire/common.go:169), no goroutine inside a primitive. -/
def init : State where
  free := []
  heap := fun _ => []
  next := 0
  thr := fun _ => .idle
  log := []
  panicked := false

/-- One step of goroutine `t`, wire/common.go:49-165. -/
inductive Step : State → State → Prop
  /-- The goroutine calls a primitive with any arguments. -/
  | call (s : State) (t : Nat) (op : Op) (h : s.thr t = .idle) :
      Step s { s with thr := Function.update s.thr t (.started op) }
  /-- `case buf = <-l`, then `buf[:8]`, wire/common.go:52,56. -/
  | borrow (s : State) (t : Nat) (op : Op) (b : Nat) (fs : List Nat)
      (h : s.thr t = .started op) (hf : s.free = b :: fs) (hc : 8 ≤ (s.heap b).length) :
      Step s { s with free := fs, thr := Function.update s.thr t (.filling op b 0) }
  /-- Same, but the buffer is too small: `buf[:8]` panics. -/
  | borrowPanic (s : State) (t : Nat) (op : Op) (b : Nat) (fs : List Nat)
      (h : s.thr t = .started op) (hf : s.free = b :: fs) (hc : (s.heap b).length < 8) :
      Step s { s with panicked := true }
  /-- `default: buf = make([]byte, 8)`, wire/common.go:53-54. -/
  | alloc (s : State) (t : Nat) (op : Op) (h : s.thr t = .started op) (hf : s.free = []) :
      Step s { s with
        heap := Function.update s.heap s.next (List.replicate 8 0)
        next := s.next + 1
        thr := Function.update s.thr t (.filling op s.next 0) }
  /-- One byte is stored in the buffer. -/
  | fill (s : State) (t : Nat) (op : Op) (b i : Nat) (x : UInt8)
      (h : s.thr t = .filling op b i) (hi : i < op.width.size) (hx : op.src[i]? = some x) :
      Step s { s with
        heap := Function.update s.heap b ((s.heap b).set i x)
        thr := Function.update s.thr t (.filling op b (i + 1)) }
  /-- The reader is exhausted: `err != nil`, wire/common.go:73-76 and its copies. -/
  | short (s : State) (t : Nat) (op : Op) (b i : Nat)
      (h : s.thr t = .filling op b i) (hi : i < op.width.size) (hx : op.src[i]? = none) :
      Step s { s with thr := Function.update s.thr t (.returning op b none) }
  /-- The buffer is full. -/
  | full (s : State) (t : Nat) (op : Op) (b i : Nat)
      (h : s.thr t = .filling op b i) (hi : i = op.width.size) :
      Step s { s with thr := Function.update s.thr t (.draining op b []) }
  /-- One byte is loaded from the buffer. -/
  | drain (s : State) (t : Nat) (op : Op) (b : Nat) (acc : Bytes) (x : UInt8)
      (h : s.thr t = .draining op b acc) (hi : acc.length < op.width.size)
      (hx : (s.heap b)[acc.length]? = some x) :
      Step s { s with thr := Function.update s.thr t (.draining op b (acc ++ [x])) }
  /-- A load outside the buffer panics. -/
  | drainPanic (s : State) (t : Nat) (op : Op) (b : Nat) (acc : Bytes)
      (h : s.thr t = .draining op b acc) (hi : acc.length < op.width.size)
      (hx : (s.heap b)[acc.length]? = none) :
      Step s { s with panicked := true }
  /-- All bytes have been loaded. -/
  | drained (s : State) (t : Nat) (op : Op) (b : Nat) (acc : Bytes)
      (h : s.thr t = .draining op b acc) (hi : acc.length = op.width.size) :
      Step s { s with thr := Function.update s.thr t (.returning op b (some acc)) }
  /-- `Return`: `case l <- buf`, wire/common.go:63. -/
  | giveBack (s : State) (t : Nat) (op : Op) (b : Nat) (r : Option Bytes)
      (h : s.thr t = .returning op b r) (hl : s.free.length < maxItems) :
      Step s { s with free := s.free ++ [b], thr := Function.update s.thr t .idle,
                      log := (op, r) :: s.log }
  /-- `Return`: `default`, the buffer is dropped, wire/common.go:64-65. -/
  | drop (s : State) (t : Nat) (op : Op) (b : Nat) (r : Option Bytes)
      (h : s.thr t = .returning op b r) (hl : ¬ s.free.length < maxItems) :
      Step s { s with thr := Function.update s.thr t .idle, log := (op, r) :: s.log }

/-- States that some interleaving of some calls (wire/common.go:71-165) can produce. -/
def Reachable (s : State) : Prop := Relation.ReflTransGen Step init s

/-- The buffer a goroutine holds, if any: between wire/common.go:49 and 61. -/
def TState.holds : TState → Option Nat
  | .filling _ b _ => some b
  | .draining _ b _ => some b
  | .returning _ b _ => some b
  | _ => none

end Zk.Wire.FreeList
