import Verif.Model.GpuErrors

/-!
# What failing GPU calls should do
-/

namespace Einsums.Spec

open Model

/-- The exception names declared for a second name of an enumerator. -/
def secondNames : List GpuExc :=
  [.ErrorMemoryAllocation, .ErrorInitializationError, .ErrorMapBufferObjectFailed,
   .ErrorInvalidResourceHandle]

/-- In the header of HIP four enumerators are second names: each has the number of another one. -/
structure HipAliases (code : GpuStatus → Int) : Prop where
  memory : code .hipErrorMemoryAllocation = code .hipErrorOutOfMemory
  initialization : code .hipErrorInitializationError = code .hipErrorNotInitialized
  map : code .hipErrorMapBufferObjectFailed = code .hipErrorMapFailed
  handle : code .hipErrorInvalidResourceHandle = code .hipErrorInvalidHandle

/-- Otherwise the enumerators of one library have different numbers. -/
def DistinctCodes (code : GpuStatus → Int) : Prop :=
  ∀ e e' : GpuExc, e.lib = e'.lib → e ∉ secondNames → e' ∉ secondNames →
    code e.status = code e'.status → e = e'

/-- What the library does with the status `c` of a call. -/
def catchOf (lib : GpuLibrary) (code : GpuStatus → Int) (text : Int → String) (c : Int)
    (site : CallSite) (throwSuccess : Bool) : Option GpuThrown :=
  match lib with
  | .hip => hipCatch code text c site throwSuccess
  | .blas => blasCatch code text c site throwSuccess
  | .solver => solverCatch code c site throwSuccess

/-- The name of the exception for success, and of the one for an unknown status. -/
def successOf : GpuLibrary → GpuExc
  | .hip => .Success
  | .blas => .blasSuccess
  | .solver => .solverSuccess

@[inherit_doc successOf]
def unknownOf : GpuLibrary → GpuExc
  | .hip => .ErrorUnknown
  | .blas => .blasUnknown
  | .solver => .solverUnknown

/-- A text contains another one. -/
def Mentions (m x : String) : Prop := ∃ a b, m = a ++ x ++ b

end Einsums.Spec
