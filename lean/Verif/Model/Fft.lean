import Verif.Model.Laguerre
import Verif.Model.LinearAlgebra
import Mathlib.Analysis.Complex.Basic
/-
Model of src/FFT.cpp, FFT.hpp and src/backends/fft/fftw3/fft.cpp.

FFTW is an external library: its transforms are arguments (what they compute is a hypothesis of the theorems).
Elements are exact real and complex numbers; rounding is not modelled.
-/
namespace Einsums.Model

/-- The transforms of FFTW that fft.cpp calls (backends/fft/fftw3/fft.cpp 36–125; external): length, input, output.
`c2rInput` is what the transform from complex to real numbers leaves in its input array. -/
structure Fftw where
  forward : Nat → (Nat → ℂ) → Nat → ℂ
  backward : Nat → (Nat → ℂ) → Nat → ℂ
  r2c : Nat → (Nat → ℝ) → Nat → ℂ
  c2r : Nat → (Nat → ℂ) → Nat → ℝ
  c2rInput : Nat → (Nat → ℂ) → Nat → ℂ

/-- Plan and execute a transform of length `n` (backends/fft/fftw3/fft.cpp 36–125 with `verify` 23–28): FFTW makes no plan
for length 0, which ends the process; `nin` elements are read at `src` and `nout` written at `dst`. -/
def runPlan [Zero A] (n nin nout : Nat) (f : (Nat → A) → Nat → B) (src : List A) (dst : List B) : Outcome (List B) :=
  if n = 0 then .error "abort: Unable to create FFTW plan."
  else if src.length < nin then .ub "read past the end"
  else if dst.length < nout then .ub "write past the end"
  else .ok ((List.range nout).map (f fun j => src.getD j 0) ++ dst.drop nout)

/-- FFT.hpp 44–46 (52–54), FFT.cpp 67–70 (78–81) and backends/fft/fftw3/fft.cpp 47–56 (69–78): `fft(a, result)` of complex numbers. -/
noncomputable def fftComplex (W : Fftw) (a r : Strided ℂ) : Outcome (Strided ℂ) :=
  let n := a.dim 0
  runPlan n n n (W.forward n) a.data r.data >>= fun d => .ok { r with data := d }

/-- FFT.hpp 40–42 (48–50), FFT.cpp 43–50, 61–65 (72–76) and backends/fft/fftw3/fft.cpp 36–45 (58–67): `fft(a, result)` of real
numbers; `println_abort` ends the process. -/
noncomputable def fftReal (W : Fftw) (a : Strided ℝ) (r : Strided ℂ) : Outcome (Strided ℂ) :=
  let n := a.dim 0
  if r.dim 0 ≥ n / 2 + 1 then
    runPlan n n (n / 2 + 1) (W.r2c n) a.data r.data >>= fun d => .ok { r with data := d }
  else .error "abort: fft called with too small result tensor size"

/-- FFT.hpp 64–70, FFT.cpp 95–105 and backends/fft/fftw3/fft.cpp 105–125: `ifft(a, result)` of complex numbers. -/
noncomputable def ifftComplex (W : Fftw) (a r : Strided ℂ) : Outcome (Strided ℂ) :=
  let n := r.dim 0
  runPlan n n n (W.backward n) a.data r.data >>= fun d => .ok { r with data := d }

/-- FFT.hpp 56–62, FFT.cpp 52–58, 83–93 and backends/fft/fftw3/fft.cpp 83–103: `ifft(a, result)` to real numbers.  The
storage of `a` is passed to FFTW without `FFTW_PRESERVE_INPUT`; the first component is `a` afterwards. -/
noncomputable def ifftReal (W : Fftw) (a : Strided ℂ) (r : Strided ℝ) : Outcome (Strided ℂ × Strided ℝ) :=
  let n := r.dim 0
  if a.dim 0 ≥ n / 2 + 1 then do
    let d ← runPlan n (n / 2 + 1) n (W.c2r n) a.data r.data
    let s ← runPlan n (n / 2 + 1) (n / 2 + 1) (W.c2rInput n) a.data a.data
    return ({ a with data := s }, { r with data := d })
  else .error "abort: ifft called with too small"

/-- FFT.cpp 24–39: `fftfreq(n, d)`.  A negative `n` is converted to a huge `size_t`, for which the allocation throws. -/
def fftfreq {K : Type} [Field K] [LinearOrder K] [IsStrictOrderedRing K] [FloorRing K] (z : Nat → K) (n : Int) (d : K) :
    Outcome (Strided K) :=
  if n < 0 then .error "std::length_error"
  else do
    let value := 1 / ((n : K) * d)
    let results := Strided.mk' z [n.toNat]
    let N : Int := (n - 1).tdiv 2 + 1
    let p1 ← arange (fieldArith K) z 0 (N : K) 1
    let v ← results.ranges [(0, N)]
    let v ← v.assignView p1
    let results := { results with data := v.data }
    let p2 ← arange (fieldArith K) z ((-(n.tdiv 2) : Int) : K) 0 1
    let v ← results.ranges [(N, n)]
    let v ← v.assignView p2
    let results := { results with data := v.data }
    scale value results

end Einsums.Model
