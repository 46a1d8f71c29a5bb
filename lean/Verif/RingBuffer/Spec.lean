import Verif.RingBuffer.Model

/-!
# Specification: a queue that keeps the newest `n` samples

Written without reference to the ring-buffer model (only the sample type is shared).
A queue is the list of unconsumed samples, oldest first.
-/

namespace Ecl.RingBuffer.Spec

open Ecl.RingBuffer

variable {α : Type*}

/-- keep the newest `n` elements of a list (oldest first) -/
def keepNewest (n : ℕ) (q : List (Sample α)) : List (Sample α) := q.drop (q.length - n)

/-- Append a sample, discard the oldest one if the capacity `n` is exceeded. -/
def push (n : ℕ) (q : List (Sample α)) (s : Sample α) : List (Sample α) := keepNewest n (q ++ [s])

/-- A sample may be delivered for query time `ts` if it is not in the future and less than 100 ms old.
(Samples so close to the end of the 64-bit range that `time + 100 ms` overflows are never delivered.) -/
def Eligible (ts : UInt64) (s : Sample α) : Prop :=
  s.time_us.toNat ≤ ts.toNat ∧ ts.toNat < s.time_us.toNat + 100000 ∧ s.time_us.toNat + 100000 < 2 ^ 64

instance (ts : UInt64) (s : Sample α) : Decidable (Eligible ts s) := by unfold Eligible; infer_instance

/-- Deliver the newest eligible sample and drop it together with everything older:
`some (delivered, remaining)`, or `none` if no sample is eligible. -/
def pop (ts : UInt64) : List (Sample α) → Option (Sample α × List (Sample α))
  | [] => none
  | s :: newer =>
    match pop ts newer with
    | some r => some r
    | none => if Eligible ts s then some (s, newer) else none

/-- Client operations -/
inductive Op (α : Type*)
  | push (s : Sample α)
  | pop (ts : UInt64)

/-- Run a list of operations on the abstract queue; the second component lists the results of the
pop calls, in order. -/
def run (n : ℕ) : List (Op α) → List (Sample α) → List (Sample α) × List (Option (Sample α))
  | [], q => (q, [])
  | .push s :: ops, q => run n ops (push n q s)
  | .pop ts :: ops, q =>
    match pop ts q with
    | some (x, q') => let r := run n ops q'; (r.1, some x :: r.2)
    | none => let r := run n ops q; (r.1, none :: r.2)

end Ecl.RingBuffer.Spec
