/-
Model of src/include/einsums/_GPUCast.hpp: `HipCast<To, From>::cast`, the conversion between the element types of
the host and those of the device, one case per specialisation.

`S` is the type of single precision numbers, `D` that of double precision numbers; the conversions
`(double)x` and `(float)x` of the compiler are the arguments `widen` and `narrow`, and the literals `0.0f` and `0.0`
are the zeros of the two types.  A complex number is its real and its imaginary part; `std::complex<float>`
and `hipComplex` have the same two members in the same order, so the `reinterpret_cast`s between them keep both.
-/
namespace Einsums.Model

/-- _GPUCast.hpp 19: the types that can be converted: `float`, `double`, `std::complex` of them,
`hipComplex` and `hipDoubleComplex`. -/
inductive HipTy | f32 | f64 | c32 | c64 | hc32 | hc64
  deriving DecidableEq, Repr

/-- _GPUCast.hpp 19: the values of the types. -/
def HipVal (S D : Type) : HipTy → Type
  | .f32 => S
  | .f64 => D
  | .c32 | .hc32 => S × S
  | .c64 | .hc64 => D × D

/-- _GPUCast.hpp 27–227: `HipCast<To, From>::cast(from)`; the argument order is that of the template. -/
def hipCast {S D : Type} [Zero S] [Zero D] (widen : S → D) (narrow : D → S) :
    (to src : HipTy) → HipVal S D src → HipVal S D to
  | .f32, .f32 => fun x => x
  | .f64, .f32 => fun x => widen x
  | .c32, .f32 => fun (x : S) => ((x, 0) : S × S)
  | .c64, .f32 => fun (x : S) => ((widen x, 0) : D × D)
  | .hc32, .f32 => fun (x : S) => ((x, 0) : S × S)
  | .hc64, .f32 => fun (x : S) => ((widen x, 0) : D × D)
  | .f32, .f64 => fun x => narrow x
  | .f64, .f64 => fun x => x
  | .c32, .f64 => fun (x : D) => ((narrow x, 0) : S × S)
  | .c64, .f64 => fun (x : D) => ((x, 0) : D × D)
  | .hc32, .f64 => fun (x : D) => ((narrow x, 0) : S × S)
  | .hc64, .f64 => fun (x : D) => ((x, 0) : D × D)
  | .f32, .c32 => fun (v : S × S) => v.1
  | .f64, .c32 => fun (v : S × S) => widen v.1
  | .c32, .c32 => fun v => v
  | .c64, .c32 => fun (v : S × S) => ((widen v.1, widen v.2) : D × D)
  | .hc32, .c32 => fun v => v
  | .hc64, .c32 => fun (v : S × S) => ((widen v.1, widen v.2) : D × D)
  | .f32, .c64 => fun (v : D × D) => narrow v.1
  | .f64, .c64 => fun (v : D × D) => v.1
  | .c32, .c64 => fun (v : D × D) => ((narrow v.1, narrow v.2) : S × S)
  | .c64, .c64 => fun v => v
  | .hc32, .c64 => fun (v : D × D) => ((narrow v.1, narrow v.2) : S × S)
  | .hc64, .c64 => fun v => v
  | .f32, .hc32 => fun (v : S × S) => v.1
  | .f64, .hc32 => fun (v : S × S) => widen v.1
  | .c32, .hc32 => fun v => v
  | .c64, .hc32 => fun (v : S × S) => ((widen v.1, widen v.2) : D × D)
  | .hc32, .hc32 => fun v => v
  -- line 190: `make_hipDoubleComplex((double)from.x, (double)from.x)`
  | .hc64, .hc32 => fun (v : S × S) => ((widen v.1, widen v.1) : D × D)
  | .f32, .hc64 => fun (v : D × D) => narrow v.1
  | .f64, .hc64 => fun (v : D × D) => v.1
  | .c32, .hc64 => fun (v : D × D) => ((narrow v.1, narrow v.2) : S × S)
  | .c64, .hc64 => fun v => v
  | .hc32, .hc64 => fun (v : D × D) => ((narrow v.1, narrow v.2) : S × S)
  | .hc64, .hc64 => fun v => v

end Einsums.Model
