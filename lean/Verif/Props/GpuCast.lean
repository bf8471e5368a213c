import Verif.Spec.GpuCast
/-
C173: conversions between the element types of the host and of the device keep the number.
-/
namespace Einsums.Props
open Spec Model

/-- **C173 (partial)**: whatever the two types (other than from `hipComplex` to `hipDoubleComplex`) and whatever
the value, the real part of the result is the real part of the value in the precision of the result, and so is the
imaginary part, where the result has one; real numbers become complex numbers with imaginary part zero.
Missing: the pair of `C173_cast_refuted`. -/
theorem C173_cast_partial {S D : Type} [Zero S] [Zero D] (widen : S → D) (narrow : D → S)
    (hw : widen 0 = 0) (hn : narrow 0 = 0) (to src : HipTy) (h : ¬ (to = .hc64 ∧ src = .hc32))
    (v : HipVal S D src) :
    rePart to (hipCast widen narrow to src v) = (rePart src v).at widen narrow to ∧
    imPart to (hipCast widen narrow to src v) =
      if hasImag to then (imPart src v).at widen narrow to else zeroAt to := by
  cases to <;> cases src <;>
    first
    | exact absurd ⟨rfl, rfl⟩ h
    | exact ⟨rfl, rfl⟩
    | (refine ⟨rfl, ?_⟩
       simp [hipCast, imPart, hasImag, Num.at, isDoubleTy, hw, hn])

/-- **C173, real parts**: the real part is right for every pair of types. -/
theorem C173_real {S D : Type} [Zero S] [Zero D] (widen : S → D) (narrow : D → S) (to src : HipTy)
    (v : HipVal S D src) :
    rePart to (hipCast widen narrow to src v) = (rePart src v).at widen narrow to := by
  cases to <;> cases src <;> rfl

/-- **C173, there and back**: a host value converted to the device type of the same precision and back (as for every
prefactor and fill value given to a GPU routine) is the value it was, bit for bit: no rounding is involved. -/
theorem C173_roundtrip {S D : Type} [Zero S] [Zero D] (widen : S → D) (narrow : D → S) (t : HipTy)
    (v : HipVal S D t) :
    hipCast widen narrow t (otherSide t) (hipCast widen narrow (otherSide t) t v) = v := by
  cases t <;> rfl

/-- **C173, into double precision and back (partial)**: if the compiler's conversion of a single precision number to
double precision and back is the identity, so is that of every single precision value through any double
precision type that can hold it.  Missing: through `hipDoubleComplex` from `hipComplex`. -/
theorem C173_widen_partial {S D : Type} [Zero S] [Zero D] (widen : S → D) (narrow : D → S)
    (hwn : ∀ x, narrow (widen x) = x) (t u : HipTy) (ht : isDoubleTy t = false)
    (hi : hasImag t = true → hasImag u = true) (h : ¬ (u = .hc64 ∧ t = .hc32)) (v : HipVal S D t) :
    hipCast widen narrow t u (hipCast widen narrow u t v) = v := by
  cases t <;> cases u <;>
    first
    | exact absurd ht (by decide)
    | exact absurd ⟨rfl, rfl⟩ h
    | exact absurd (hi rfl) (by decide)
    | rfl
    | exact hwn v
    | exact Prod.ext (hwn v.1) (hwn v.2)

/-- **C173, refuted**: the conversion of a `hipComplex` to a `hipDoubleComplex` has the real part in both places: it is
right only for numbers whose two parts become the same double, and wrong for all others. -/
theorem C173_cast_refuted {S D : Type} [Zero S] [Zero D] (widen : S → D) (narrow : D → S) (x y : S) :
    imPart .hc64 (hipCast widen narrow .hc64 .hc32 (x, y)) = .double (widen x) ∧
    (widen x ≠ widen y → imPart .hc64 (hipCast widen narrow .hc64 .hc32 (x, y)) ≠
      (imPart (D := D) .hc32 ((x, y) : S × S)).at widen narrow .hc64) := by
  refine ⟨rfl, fun h e => h ?_⟩
  have : Num.double (S := S) (widen x) = Num.double (widen y) := e
  exact Num.double.inj this

/-- A model of two precisions for the examples: double precision numbers are integers, single precision numbers are
integers that are rounded to a multiple of ten. -/
example : (imPart .hc64 (hipCast (S := Int) (D := Int) id (fun x => x / 10 * 10) .hc64 .c32 (20, 30)),
    rePart .hc32 (hipCast (S := Int) (D := Int) id (fun x => x / 10 * 10) .hc32 .c64 (27, 31)),
    imPart .hc64 (hipCast (S := Int) (D := Int) id (fun x => x / 10 * 10) .hc64 .hc32 (20, 30))) =
    (.double 30, .single 20, .double 20) := by decide

/-- A case of `C173_cast_partial` with rounding in both parts. -/
example : imPart .hc32 (hipCast (S := Int) (D := Int) id (fun x => x / 10 * 10) .hc32 .c64 (27, 31)) =
    .single 30 :=
  (C173_cast_partial (S := Int) (D := Int) id (fun x => x / 10 * 10) rfl rfl .hc32 .c64 (by decide)
    ((27, 31) : Int × Int)).2

/-- A case of `C173_widen_partial`. -/
example : hipCast (S := Int) (D := Int) (fun x => 2 * x) (fun x => x / 2) .c32 .hc64
    (hipCast (S := Int) (D := Int) (fun x => 2 * x) (fun x => x / 2) .hc64 .c32 ((3, 5) : Int × Int)) =
    ((3, 5) : Int × Int) :=
  C173_widen_partial (S := Int) (D := Int) (fun x => 2 * x) (fun x => x / 2) (fun x => by omega) .c32 .hc64
    rfl (fun _ => rfl) (by decide) ((3, 5) : Int × Int)

end Einsums.Props
