import Verif.Basic.Num
import Mathlib.Algebra.Module.Basic

/-!
# `AlphaFilter<T>` — AlphaFilter/AlphaFilter.hpp

Modelled over an arbitrary linearly ordered field `K` (float arithmetic taken as exact) and a `K`-module
`V` of filter values (`float`, `Vector3f`, ...).
-/

namespace Ecl.AlphaFilter

/-- `FLT_EPSILON` (2^-23) as used in AlphaFilter.hpp:68 -/
def fltEpsilon (K : Type*) [Field K] : K := 1 / 2 ^ 23

/-- members `_alpha`, `_filter_state`, AlphaFilter.hpp:103-104 -/
structure Filter (K V : Type*) where
  alpha : K
  state : V

variable {K V : Type*} [Field K] [LinearOrder K] [IsStrictOrderedRing K] [AddCommGroup V] [Module K V]

/-- default constructor, AlphaFilter.hpp:49 (members default to zero) -/
def Filter.init : Filter K V := ⟨0, 0⟩

/-- `setAlpha`, AlphaFilter.hpp:78 -/
def Filter.setAlpha (f : Filter K V) (a : K) : Filter K V := { f with alpha := a }

/-- `setParameters`, AlphaFilter.hpp:64-71 -/
def Filter.setParameters (f : Filter K V) (sampleInterval timeConstant : K) : Filter K V :=
  let denominator := timeConstant + sampleInterval
  if denominator > fltEpsilon K then f.setAlpha (sampleInterval / denominator) else f

/-- `reset`, AlphaFilter.hpp:85 -/
def Filter.reset (f : Filter K V) (s : V) : Filter K V := { f with state := s }

/-- `update`, AlphaFilter.hpp:92-96 and `updateCalculation`, :101 -/
def Filter.update (f : Filter K V) (s : V) : Filter K V :=
  { f with state := (1 - f.alpha) • f.state + f.alpha • s }

/-- a sequence of `update` calls -/
def Filter.updates (f : Filter K V) (us : List V) : Filter K V := us.foldl Filter.update f

end Ecl.AlphaFilter
