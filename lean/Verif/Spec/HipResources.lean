import Verif.Model.HipResources
/-
The calls of a program to the functions of the GPU backend, and the resources it holds afterwards.
-/
namespace Einsums.Spec
open Model

/-- A call to a function of the GPU backend that allocates memory on the device. -/
inductive BackendCall
  | gemm (copyC : Bool)
  | gemv (copyY : Bool)
  | scal
  | dot
  | axpy
  | ger
  | syev (info : Nat) (work : Option Nat)
  | gesv (nvidia : Bool) (info : Nat)
  | getrf (nvidia ipiv : Bool) (slot info : Nat)
  deriving DecidableEq

/-- The HIP calls of the function. -/
def BackendCall.calls : BackendCall → List HipOp
  | .gemm c => gemmCalls c
  | .gemv c => gemvCalls c
  | .scal => scalCalls
  | .dot => dotCalls
  | .axpy => axpyCalls
  | .ger => gerCalls
  | .syev i w => syevCalls i w
  | .gesv v i => gesvCalls v i
  | .getrf v p s i => getrfCalls v p s i

/-- `syev` or `heev`. -/
def BackendCall.isSyev : BackendCall → Bool
  | .syev _ _ => true
  | _ => false

/-- `getrf`. -/
def BackendCall.isGetrf : BackendCall → Bool
  | .getrf _ _ _ _ => true
  | _ => false

/-- The program makes the calls one after the other; each has its own failures; all return normally. -/
inductive Program : List BackendCall → HipState → HipState → Prop
  | nil (s : HipState) : Program [] s s
  | cons (c : BackendCall) (cs : List BackendCall) (fails : Nat → Bool) (s s' : HipState)
      (ok : (runHip fails 0 c.calls s).1 = true) (rest : Program cs (runHip fails 0 c.calls s).2 s') : Program (c :: cs) s s'

end Einsums.Spec
