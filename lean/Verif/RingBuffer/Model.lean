import Verif.Basic.Num

/-!
# `RingBuffer<data_type>` — EKF/RingBuffer.h

The model follows the C++ class statement by statement.  The backing store is a list of slots
(`none` = null pointer), indices are natural numbers (they are `uint8_t` in C++; the C++ index
arithmetic is done in `int` and the stored results are below `_size ≤ 255`).
Undefined behaviour is an explicit outcome.  Allocation with `new` is assumed to succeed.
-/

namespace Ecl.RingBuffer

/-- ways the C++ code can run into undefined behaviour -/
inductive UB
  | nullDeref
  | outOfBounds
  | modByZero
  deriving DecidableEq, Repr

/-- A stored sample: all sample structs have `uint64_t time_us` and a payload (EKF/common.h:81-165). -/
structure Sample (α : Type*) where
  time_us : UInt64
  data : α
  deriving DecidableEq, Repr

/-- value-initialised element of `new data_type[size]{}` (RingBuffer.h:73) -/
def Sample.zero (α : Type*) [Inhabited α] : Sample α := ⟨0, default⟩

/-- member variables, RingBuffer.h:159-165 -/
structure RB (α : Type*) where
  buffer : Option (List (Sample α))
  head : ℕ
  tail : ℕ
  size : ℕ
  firstWrite : Bool
  deriving DecidableEq, Repr

variable {α : Type*}

/-- member initialisers, RingBuffer.h:159-165 -/
def RB.blank : RB α := ⟨none, 0, 0, 0, true⟩

/-- `valid()`, RingBuffer.h:89 -/
def RB.valid (b : RB α) : Bool := b.buffer.isSome && decide (b.size > 0)

/-- `allocate(uint8_t size)`, RingBuffer.h:58-87. -/
def RB.allocate [Inhabited α] (b : RB α) (size : ℕ) : RB α × Bool :=
  if b.valid && size == b.size then (b, true)
  else if size == 0 then (b, false)
  else (⟨some (List.replicate size (Sample.zero α)), 0, 0, size, true⟩, true)

/-- constructor `RingBuffer(size_t size)`, RingBuffer.h:48: the argument is converted to `uint8_t`. -/
def RB.new [Inhabited α] (size : ℕ) : RB α := (RB.blank.allocate (size % 256)).1

/-- `push`, RingBuffer.h:91-109 -/
def RB.push (b : RB α) (s : Sample α) : Except UB (RB α) :=
  if !b.firstWrite && b.size == 0 then .error .modByZero
  else
    let headNew := if !b.firstWrite then (b.head + 1) % b.size else b.head
    match b.buffer with
    | none => .error .nullDeref
    | some l =>
      if headNew < l.length then
        let l' := l.set headNew s
        if headNew == b.tail && !b.firstWrite then
          .ok { b with buffer := some l', head := headNew, tail := (b.tail + 1) % b.size }
        else
          .ok { b with buffer := some l', head := headNew, firstWrite := false }
      else .error .outOfBounds

/-- `get_newest`, RingBuffer.h:115 -/
def RB.getNewest (b : RB α) : Except UB (Sample α) :=
  match b.buffer with
  | none => .error .nullDeref
  | some l => match l[b.head]? with
    | some x => .ok x
    | none => .error .outOfBounds

/-- `get_oldest`, RingBuffer.h:116 -/
def RB.getOldest (b : RB α) : Except UB (Sample α) :=
  match b.buffer with
  | none => .error .nullDeref
  | some l => match l[b.tail]? with
    | some x => .ok x
    | none => .error .outOfBounds

/-- index computation of the scan, RingBuffer.h:124-125 -/
def RB.scanIndex (b : RB α) (i : ℕ) : ℕ := if i ≤ b.head then b.head - i else b.size + b.head - i

/-- the match condition, RingBuffer.h:127 (`uint64_t` arithmetic wraps) -/
def isMatch (ts : UInt64) (x : Sample α) : Bool :=
  decide (ts ≥ x.time_us) && decide (ts < x.time_us + 100000)

/-- state change after a match at `index`, RingBuffer.h:133-141 -/
def RB.consume (b : RB α) (l : List (Sample α)) (index : ℕ) (x : Sample α) : RB α :=
  if index == b.head then
    { b with buffer := some (l.set index { x with time_us := 0 }), tail := b.head, firstWrite := true }
  else
    { b with buffer := some (l.set index { x with time_us := 0 }), tail := (index + 1) % b.size }

/-- loop of `pop_first_older_than`, RingBuffer.h:123-151: `n` iterations left, counter `i`. -/
def RB.popFrom (b : RB α) (l : List (Sample α)) (ts : UInt64) (i : ℕ) :
    ℕ → Except UB (Option (RB α × Sample α))
  | 0 => .ok none
  | n + 1 =>
    let index := b.scanIndex i
    match l[index]? with
    | none => .error .outOfBounds
    | some x =>
      if isMatch ts x then .ok (some (b.consume l index x, x))
      else if index == b.tail then .ok none
      else b.popFrom l ts (i + 1) n

/-- `pop_first_older_than`, RingBuffer.h:120-154.  `none` = returned false (buffer unchanged),
`some (b', x)` = returned true with `*sample = x`. -/
def RB.pop (b : RB α) (ts : UInt64) : Except UB (Option (RB α × Sample α)) :=
  match b.buffer with
  | none => if b.size == 0 then .ok none else .error .nullDeref
  | some l => b.popFrom l ts 0 b.size

end Ecl.RingBuffer
