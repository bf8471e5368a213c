import Verif.Model.Outcome
/-
Model of the typed BLAS/LAPACK front end: the function templates of src/include/einsums/Blas.hpp, each
specialisation of which calls a function of `detail`, and the functions of `detail` in src/Blas.cpp,
each of which calls a routine of the linear algebra backend.  The backend is a function argument.  The two
tables are transcribed from the source text, one entry per specialisation and per definition: the names
of the parameters in the order they are declared, and the names passed on in the order they are passed.

Simplifications: the types of the arguments are left out (an argument is a value of one type), as is
the conversion of `const`.  A template argument other than the four element types does not compile.
Neither EINSUMS_HAVE_MKL_LAPACKE_H nor EINSUMS_HAVE_LAPACKE is defined: nothing in the repository
defines them, and the namespaces `mkl` and `cblas` those branches name do not exist in it.
-/
namespace Einsums.Model

/-- Blas.hpp 99–122: the element types the templates are specialised for. -/
inductive BlasTy | f32 | f64 | c32 | c64
  deriving DecidableEq, Repr

/-- Blas.hpp 99–908: the function templates of `einsums::blas`. -/
inductive BlasFn
  | gemm | gemv | syev | geev | heev | gesv | scal | dot | dotc | axpy | axpby | ger
  | getrf | getri | lange | lassq | gesdd | gesvd | gees | trsyl | geqrf | orgqr | ungqr
  deriving DecidableEq, Repr

/-- Blas.hpp 99–908: the letters in front of a BLAS name. -/
inductive BlasLetter | s | d | c | z | cs | zd
  deriving DecidableEq, Repr

/-- Blas.hpp 99–908: a routine such as `sgemm` or `zdscal`: its letter and the rest of its name. -/
structure BlasRoutine where
  letter : BlasLetter
  fn : BlasFn
  deriving DecidableEq, Repr

/-- Blas.hpp 99–908, Blas.cpp 26–390: the parameter names. -/
inductive BlasArg
  | transa | transb | m | n | k | alpha | a | lda | b | ldb | beta | c
  | ldc | x | incx | y | incy | job | uplo | w | work | lwork | jobvl | jobvr
  | vl | ldvl | vr | ldvr | rwork | nrhs | ipiv | vec | inc | alpha_x | inc_x | inc_y
  | norm_type | A | scale | sumsq | jobz | s | u | ldu | vt | ldvt | jobu | jobvt
  | superb | jobvs | sdim | wr | wi | vs | ldvs | trana | tranb | isgn | tau
  deriving DecidableEq, Repr

/-- Blas.hpp 99–908: one `template <> inline` specialisation: the template, its template argument, whether it is
the overload with a real factor (of `scal` only), the parameters, whether the result type is not `void`, whether the
call is in a `return` statement, the function of `detail` called and the arguments passed. -/
structure BlasSpecialisation where
  fn : BlasFn
  ty : BlasTy
  realFactor : Bool
  params : List BlasArg
  nonVoid : Bool
  returns : Bool
  target : BlasRoutine
  args : List BlasArg
  deriving DecidableEq, Repr

/-- Blas.cpp 26–390: the body of a function of `detail`: a call of a backend routine (in a `return` statement or
not), or the `throw` of Blas.cpp 345 and 356. -/
inductive BlasBody
  | forward (returns : Bool) (target : BlasRoutine) (args : List BlasArg)
  | throws
  deriving DecidableEq, Repr

/-- Blas.cpp 26–390: the definition of a function of `detail`. -/
structure BlasDefinition where
  name : BlasRoutine
  params : List BlasArg
  nonVoid : Bool
  body : BlasBody
  deriving DecidableEq, Repr

/-- Blas.hpp 99–908: the specialisations, in the order of the file. -/
def blasSpecialisations : List BlasSpecialisation :=
  [⟨.gemm, .f32, false, [.transa, .transb, .m, .n, .k, .alpha, .a, .lda, .b, .ldb, .beta, .c, .ldc],
     false, false, ⟨.s, .gemm⟩, [.transa, .transb, .m, .n, .k, .alpha, .a, .lda, .b, .ldb, .beta,
     .c, .ldc]⟩,
   ⟨.gemm, .f64, false, [.transa, .transb, .m, .n, .k, .alpha, .a, .lda, .b, .ldb, .beta, .c, .ldc],
     false, false, ⟨.d, .gemm⟩, [.transa, .transb, .m, .n, .k, .alpha, .a, .lda, .b, .ldb, .beta,
     .c, .ldc]⟩,
   ⟨.gemm, .c32, false, [.transa, .transb, .m, .n, .k, .alpha, .a, .lda, .b, .ldb, .beta, .c, .ldc],
     false, false, ⟨.c, .gemm⟩, [.transa, .transb, .m, .n, .k, .alpha, .a, .lda, .b, .ldb, .beta,
     .c, .ldc]⟩,
   ⟨.gemm, .c64, false, [.transa, .transb, .m, .n, .k, .alpha, .a, .lda, .b, .ldb, .beta, .c, .ldc],
     false, false, ⟨.z, .gemm⟩, [.transa, .transb, .m, .n, .k, .alpha, .a, .lda, .b, .ldb, .beta,
     .c, .ldc]⟩,
   ⟨.gemv, .f32, false, [.transa, .m, .n, .alpha, .a, .lda, .x, .incx, .beta, .y, .incy], false, false,
     ⟨.s, .gemv⟩, [.transa, .m, .n, .alpha, .a, .lda, .x, .incx, .beta, .y, .incy]⟩,
   ⟨.gemv, .f64, false, [.transa, .m, .n, .alpha, .a, .lda, .x, .incx, .beta, .y, .incy], false, false,
     ⟨.d, .gemv⟩, [.transa, .m, .n, .alpha, .a, .lda, .x, .incx, .beta, .y, .incy]⟩,
   ⟨.gemv, .c32, false, [.transa, .m, .n, .alpha, .a, .lda, .x, .incx, .beta, .y, .incy], false, false,
     ⟨.c, .gemv⟩, [.transa, .m, .n, .alpha, .a, .lda, .x, .incx, .beta, .y, .incy]⟩,
   ⟨.gemv, .c64, false, [.transa, .m, .n, .alpha, .a, .lda, .x, .incx, .beta, .y, .incy], false, false,
     ⟨.z, .gemv⟩, [.transa, .m, .n, .alpha, .a, .lda, .x, .incx, .beta, .y, .incy]⟩,
   ⟨.syev, .f32, false, [.job, .uplo, .n, .a, .lda, .w, .work, .lwork], true, true, ⟨.s, .syev⟩, [.job,
     .uplo, .n, .a, .lda, .w, .work, .lwork]⟩,
   ⟨.syev, .f64, false, [.job, .uplo, .n, .a, .lda, .w, .work, .lwork], true, true, ⟨.d, .syev⟩, [.job,
     .uplo, .n, .a, .lda, .w, .work, .lwork]⟩,
   ⟨.geev, .f32, false, [.jobvl, .jobvr, .n, .a, .lda, .w, .vl, .ldvl, .vr, .ldvr], true, true, ⟨.s,
     .geev⟩, [.jobvl, .jobvr, .n, .a, .lda, .w, .vl, .ldvl, .vr, .ldvr]⟩,
   ⟨.geev, .f64, false, [.jobvl, .jobvr, .n, .a, .lda, .w, .vl, .ldvl, .vr, .ldvr], true, true, ⟨.d,
     .geev⟩, [.jobvl, .jobvr, .n, .a, .lda, .w, .vl, .ldvl, .vr, .ldvr]⟩,
   ⟨.geev, .c32, false, [.jobvl, .jobvr, .n, .a, .lda, .w, .vl, .ldvl, .vr, .ldvr], true, true, ⟨.c,
     .geev⟩, [.jobvl, .jobvr, .n, .a, .lda, .w, .vl, .ldvl, .vr, .ldvr]⟩,
   ⟨.geev, .c64, false, [.jobvl, .jobvr, .n, .a, .lda, .w, .vl, .ldvl, .vr, .ldvr], true, true, ⟨.z,
     .geev⟩, [.jobvl, .jobvr, .n, .a, .lda, .w, .vl, .ldvl, .vr, .ldvr]⟩,
   ⟨.heev, .f32, false, [.job, .uplo, .n, .a, .lda, .w, .work, .lwork, .rwork], true, true, ⟨.c,
     .heev⟩, [.job, .uplo, .n, .a, .lda, .w, .work, .lwork, .rwork]⟩,
   ⟨.heev, .f64, false, [.job, .uplo, .n, .a, .lda, .w, .work, .lwork, .rwork], true, true, ⟨.z,
     .heev⟩, [.job, .uplo, .n, .a, .lda, .w, .work, .lwork, .rwork]⟩,
   ⟨.gesv, .f32, false, [.n, .nrhs, .a, .lda, .ipiv, .b, .ldb], true, true, ⟨.s, .gesv⟩, [.n, .nrhs,
     .a, .lda, .ipiv, .b, .ldb]⟩,
   ⟨.gesv, .f64, false, [.n, .nrhs, .a, .lda, .ipiv, .b, .ldb], true, true, ⟨.d, .gesv⟩, [.n, .nrhs,
     .a, .lda, .ipiv, .b, .ldb]⟩,
   ⟨.gesv, .c32, false, [.n, .nrhs, .a, .lda, .ipiv, .b, .ldb], true, true, ⟨.c, .gesv⟩, [.n, .nrhs,
     .a, .lda, .ipiv, .b, .ldb]⟩,
   ⟨.gesv, .c64, false, [.n, .nrhs, .a, .lda, .ipiv, .b, .ldb], true, true, ⟨.z, .gesv⟩, [.n, .nrhs,
     .a, .lda, .ipiv, .b, .ldb]⟩,
   ⟨.scal, .f32, false, [.n, .alpha, .vec, .inc], false, false, ⟨.s, .scal⟩, [.n, .alpha, .vec, .inc]⟩,
   ⟨.scal, .f64, false, [.n, .alpha, .vec, .inc], false, false, ⟨.d, .scal⟩, [.n, .alpha, .vec, .inc]⟩,
   ⟨.scal, .c32, false, [.n, .alpha, .vec, .inc], false, false, ⟨.c, .scal⟩, [.n, .alpha, .vec, .inc]⟩,
   ⟨.scal, .c64, false, [.n, .alpha, .vec, .inc], false, false, ⟨.z, .scal⟩, [.n, .alpha, .vec, .inc]⟩,
   ⟨.scal, .c32, true, [.n, .alpha, .vec, .inc], false, false, ⟨.cs, .scal⟩, [.n, .alpha, .vec, .inc]⟩,
   ⟨.scal, .c64, true, [.n, .alpha, .vec, .inc], false, false, ⟨.zd, .scal⟩, [.n, .alpha, .vec, .inc]⟩,
   ⟨.dot, .f32, false, [.n, .x, .incx, .y, .incy], true, true, ⟨.s, .dot⟩, [.n, .x, .incx, .y, .incy]⟩,
   ⟨.dot, .f64, false, [.n, .x, .incx, .y, .incy], true, true, ⟨.d, .dot⟩, [.n, .x, .incx, .y, .incy]⟩,
   ⟨.dot, .c32, false, [.n, .x, .incx, .y, .incy], true, true, ⟨.c, .dot⟩, [.n, .x, .incx, .y, .incy]⟩,
   ⟨.dot, .c64, false, [.n, .x, .incx, .y, .incy], true, true, ⟨.z, .dot⟩, [.n, .x, .incx, .y, .incy]⟩,
   ⟨.dotc, .c32, false, [.n, .x, .incx, .y, .incy], true, true, ⟨.c, .dotc⟩, [.n, .x, .incx, .y,
     .incy]⟩,
   ⟨.dotc, .c64, false, [.n, .x, .incx, .y, .incy], true, true, ⟨.z, .dotc⟩, [.n, .x, .incx, .y,
     .incy]⟩,
   ⟨.axpy, .f32, false, [.n, .alpha_x, .x, .inc_x, .y, .inc_y], false, false, ⟨.s, .axpy⟩, [.n,
     .alpha_x, .x, .inc_x, .y, .inc_y]⟩,
   ⟨.axpy, .f64, false, [.n, .alpha_x, .x, .inc_x, .y, .inc_y], false, false, ⟨.d, .axpy⟩, [.n,
     .alpha_x, .x, .inc_x, .y, .inc_y]⟩,
   ⟨.axpy, .c32, false, [.n, .alpha_x, .x, .inc_x, .y, .inc_y], false, false, ⟨.c, .axpy⟩, [.n,
     .alpha_x, .x, .inc_x, .y, .inc_y]⟩,
   ⟨.axpy, .c64, false, [.n, .alpha_x, .x, .inc_x, .y, .inc_y], false, false, ⟨.z, .axpy⟩, [.n,
     .alpha_x, .x, .inc_x, .y, .inc_y]⟩,
   ⟨.axpby, .f32, false, [.n, .alpha_x, .x, .inc_x, .b, .y, .inc_y], false, false, ⟨.s, .axpby⟩, [.n,
     .alpha_x, .x, .inc_x, .b, .y, .inc_y]⟩,
   ⟨.axpby, .f64, false, [.n, .alpha_x, .x, .inc_x, .b, .y, .inc_y], false, false, ⟨.d, .axpby⟩, [.n,
     .alpha_x, .x, .inc_x, .b, .y, .inc_y]⟩,
   ⟨.axpby, .c32, false, [.n, .alpha_x, .x, .inc_x, .b, .y, .inc_y], false, false, ⟨.c, .axpby⟩, [.n,
     .alpha_x, .x, .inc_x, .b, .y, .inc_y]⟩,
   ⟨.axpby, .c64, false, [.n, .alpha_x, .x, .inc_x, .b, .y, .inc_y], false, false, ⟨.z, .axpby⟩, [.n,
     .alpha_x, .x, .inc_x, .b, .y, .inc_y]⟩,
   ⟨.ger, .f32, false, [.m, .n, .alpha, .x, .inc_x, .y, .inc_y, .a, .lda], false, false, ⟨.s, .ger⟩,
     [.m, .n, .alpha, .x, .inc_x, .y, .inc_y, .a, .lda]⟩,
   ⟨.ger, .f64, false, [.m, .n, .alpha, .x, .inc_x, .y, .inc_y, .a, .lda], false, false, ⟨.d, .ger⟩,
     [.m, .n, .alpha, .x, .inc_x, .y, .inc_y, .a, .lda]⟩,
   ⟨.ger, .c32, false, [.m, .n, .alpha, .x, .inc_x, .y, .inc_y, .a, .lda], false, false, ⟨.c, .ger⟩,
     [.m, .n, .alpha, .x, .inc_x, .y, .inc_y, .a, .lda]⟩,
   ⟨.ger, .c64, false, [.m, .n, .alpha, .x, .inc_x, .y, .inc_y, .a, .lda], false, false, ⟨.z, .ger⟩,
     [.m, .n, .alpha, .x, .inc_x, .y, .inc_y, .a, .lda]⟩,
   ⟨.getrf, .f32, false, [.m, .n, .a, .lda, .ipiv], true, true, ⟨.s, .getrf⟩, [.m, .n, .a, .lda,
     .ipiv]⟩,
   ⟨.getrf, .f64, false, [.m, .n, .a, .lda, .ipiv], true, true, ⟨.d, .getrf⟩, [.m, .n, .a, .lda,
     .ipiv]⟩,
   ⟨.getrf, .c32, false, [.m, .n, .a, .lda, .ipiv], true, true, ⟨.c, .getrf⟩, [.m, .n, .a, .lda,
     .ipiv]⟩,
   ⟨.getrf, .c64, false, [.m, .n, .a, .lda, .ipiv], true, true, ⟨.z, .getrf⟩, [.m, .n, .a, .lda,
     .ipiv]⟩,
   ⟨.getri, .f32, false, [.n, .a, .lda, .ipiv], true, true, ⟨.s, .getri⟩, [.n, .a, .lda, .ipiv]⟩,
   ⟨.getri, .f64, false, [.n, .a, .lda, .ipiv], true, true, ⟨.d, .getri⟩, [.n, .a, .lda, .ipiv]⟩,
   ⟨.getri, .c32, false, [.n, .a, .lda, .ipiv], true, true, ⟨.c, .getri⟩, [.n, .a, .lda, .ipiv]⟩,
   ⟨.getri, .c64, false, [.n, .a, .lda, .ipiv], true, true, ⟨.z, .getri⟩, [.n, .a, .lda, .ipiv]⟩,
   ⟨.lange, .f32, false, [.norm_type, .m, .n, .A, .lda, .work], true, true, ⟨.s, .lange⟩, [.norm_type,
     .m, .n, .A, .lda, .work]⟩,
   ⟨.lange, .f64, false, [.norm_type, .m, .n, .A, .lda, .work], true, true, ⟨.d, .lange⟩, [.norm_type,
     .m, .n, .A, .lda, .work]⟩,
   ⟨.lange, .c32, false, [.norm_type, .m, .n, .A, .lda, .work], true, true, ⟨.c, .lange⟩, [.norm_type,
     .m, .n, .A, .lda, .work]⟩,
   ⟨.lange, .c64, false, [.norm_type, .m, .n, .A, .lda, .work], true, true, ⟨.z, .lange⟩, [.norm_type,
     .m, .n, .A, .lda, .work]⟩,
   ⟨.lassq, .f32, false, [.n, .x, .incx, .scale, .sumsq], false, false, ⟨.s, .lassq⟩, [.n, .x, .incx,
     .scale, .sumsq]⟩,
   ⟨.lassq, .f64, false, [.n, .x, .incx, .scale, .sumsq], false, false, ⟨.d, .lassq⟩, [.n, .x, .incx,
     .scale, .sumsq]⟩,
   ⟨.lassq, .c32, false, [.n, .x, .incx, .scale, .sumsq], false, false, ⟨.c, .lassq⟩, [.n, .x, .incx,
     .scale, .sumsq]⟩,
   ⟨.lassq, .c64, false, [.n, .x, .incx, .scale, .sumsq], false, false, ⟨.z, .lassq⟩, [.n, .x, .incx,
     .scale, .sumsq]⟩,
   ⟨.gesdd, .f32, false, [.jobz, .m, .n, .a, .lda, .s, .u, .ldu, .vt, .ldvt], true, true, ⟨.s, .gesdd⟩,
     [.jobz, .m, .n, .a, .lda, .s, .u, .ldu, .vt, .ldvt]⟩,
   ⟨.gesdd, .f64, false, [.jobz, .m, .n, .a, .lda, .s, .u, .ldu, .vt, .ldvt], true, true, ⟨.d, .gesdd⟩,
     [.jobz, .m, .n, .a, .lda, .s, .u, .ldu, .vt, .ldvt]⟩,
   ⟨.gesdd, .c32, false, [.jobz, .m, .n, .a, .lda, .s, .u, .ldu, .vt, .ldvt], true, true, ⟨.c, .gesdd⟩,
     [.jobz, .m, .n, .a, .lda, .s, .u, .ldu, .vt, .ldvt]⟩,
   ⟨.gesdd, .c64, false, [.jobz, .m, .n, .a, .lda, .s, .u, .ldu, .vt, .ldvt], true, true, ⟨.z, .gesdd⟩,
     [.jobz, .m, .n, .a, .lda, .s, .u, .ldu, .vt, .ldvt]⟩,
   ⟨.gesvd, .f32, false, [.jobu, .jobvt, .m, .n, .a, .lda, .s, .u, .ldu, .vt, .ldvt, .superb], true,
     true, ⟨.s, .gesvd⟩, [.jobu, .jobvt, .m, .n, .a, .lda, .s, .u, .ldu, .vt, .ldvt, .superb]⟩,
   ⟨.gesvd, .f64, false, [.jobu, .jobvt, .m, .n, .a, .lda, .s, .u, .ldu, .vt, .ldvt, .superb], true,
     true, ⟨.d, .gesvd⟩, [.jobu, .jobvt, .m, .n, .a, .lda, .s, .u, .ldu, .vt, .ldvt, .superb]⟩,
   ⟨.gees, .f32, false, [.jobvs, .n, .a, .lda, .sdim, .wr, .wi, .vs, .ldvs], true, true, ⟨.s, .gees⟩,
     [.jobvs, .n, .a, .lda, .sdim, .wr, .wi, .vs, .ldvs]⟩,
   ⟨.gees, .f64, false, [.jobvs, .n, .a, .lda, .sdim, .wr, .wi, .vs, .ldvs], true, true, ⟨.d, .gees⟩,
     [.jobvs, .n, .a, .lda, .sdim, .wr, .wi, .vs, .ldvs]⟩,
   ⟨.trsyl, .f32, false, [.trana, .tranb, .isgn, .m, .n, .a, .lda, .b, .ldb, .c, .ldc, .scale], true,
     true, ⟨.s, .trsyl⟩, [.trana, .tranb, .isgn, .m, .n, .a, .lda, .b, .ldb, .c, .ldc, .scale]⟩,
   ⟨.trsyl, .f64, false, [.trana, .tranb, .isgn, .m, .n, .a, .lda, .b, .ldb, .c, .ldc, .scale], true,
     true, ⟨.d, .trsyl⟩, [.trana, .tranb, .isgn, .m, .n, .a, .lda, .b, .ldb, .c, .ldc, .scale]⟩,
   ⟨.trsyl, .c32, false, [.trana, .tranb, .isgn, .m, .n, .a, .lda, .b, .ldb, .c, .ldc, .scale], true,
     true, ⟨.c, .trsyl⟩, [.trana, .tranb, .isgn, .m, .n, .a, .lda, .b, .ldb, .c, .ldc, .scale]⟩,
   ⟨.trsyl, .c64, false, [.trana, .tranb, .isgn, .m, .n, .a, .lda, .b, .ldb, .c, .ldc, .scale], true,
     true, ⟨.z, .trsyl⟩, [.trana, .tranb, .isgn, .m, .n, .a, .lda, .b, .ldb, .c, .ldc, .scale]⟩,
   ⟨.geqrf, .f32, false, [.m, .n, .a, .lda, .tau], true, true, ⟨.s, .geqrf⟩, [.m, .n, .a, .lda, .tau]⟩,
   ⟨.geqrf, .f64, false, [.m, .n, .a, .lda, .tau], true, true, ⟨.d, .geqrf⟩, [.m, .n, .a, .lda, .tau]⟩,
   ⟨.geqrf, .c32, false, [.m, .n, .a, .lda, .tau], true, true, ⟨.c, .geqrf⟩, [.m, .n, .a, .lda, .tau]⟩,
   ⟨.geqrf, .c64, false, [.m, .n, .a, .lda, .tau], true, true, ⟨.z, .geqrf⟩, [.m, .n, .a, .lda, .tau]⟩,
   ⟨.orgqr, .f32, false, [.m, .n, .k, .a, .lda, .tau], true, true, ⟨.s, .orgqr⟩, [.m, .n, .k, .a, .lda,
     .tau]⟩,
   ⟨.orgqr, .f64, false, [.m, .n, .k, .a, .lda, .tau], true, true, ⟨.d, .orgqr⟩, [.m, .n, .k, .a, .lda,
     .tau]⟩,
   ⟨.ungqr, .c32, false, [.m, .n, .k, .a, .lda, .tau], true, true, ⟨.c, .ungqr⟩, [.m, .n, .k, .a, .lda,
     .tau]⟩,
   ⟨.ungqr, .c64, false, [.m, .n, .k, .a, .lda, .tau], true, true, ⟨.z, .ungqr⟩, [.m, .n, .k, .a, .lda,
     .tau]⟩]

/-- Blas.cpp 26–390: the functions of `detail`, in the order of the file.  `sgees`, which Blas.hpp 766
declares, is not among them. -/
def blasDefinitions : List BlasDefinition :=
  [⟨⟨.s, .gemm⟩, [.transa, .transb, .m, .n, .k, .alpha, .a, .lda, .b, .ldb, .beta, .c, .ldc], false,
     .forward false ⟨.s, .gemm⟩ [.transa, .transb, .m, .n, .k, .alpha, .a, .lda, .b, .ldb, .beta,
     .c, .ldc]⟩,
   ⟨⟨.d, .gemm⟩, [.transa, .transb, .m, .n, .k, .alpha, .a, .lda, .b, .ldb, .beta, .c, .ldc], false,
     .forward false ⟨.d, .gemm⟩ [.transa, .transb, .m, .n, .k, .alpha, .a, .lda, .b, .ldb, .beta,
     .c, .ldc]⟩,
   ⟨⟨.c, .gemm⟩, [.transa, .transb, .m, .n, .k, .alpha, .a, .lda, .b, .ldb, .beta, .c, .ldc], false,
     .forward false ⟨.c, .gemm⟩ [.transa, .transb, .m, .n, .k, .alpha, .a, .lda, .b, .ldb, .beta,
     .c, .ldc]⟩,
   ⟨⟨.z, .gemm⟩, [.transa, .transb, .m, .n, .k, .alpha, .a, .lda, .b, .ldb, .beta, .c, .ldc], false,
     .forward false ⟨.z, .gemm⟩ [.transa, .transb, .m, .n, .k, .alpha, .a, .lda, .b, .ldb, .beta,
     .c, .ldc]⟩,
   ⟨⟨.s, .gemv⟩, [.transa, .m, .n, .alpha, .a, .lda, .x, .incx, .beta, .y, .incy], false, .forward
     false ⟨.s, .gemv⟩ [.transa, .m, .n, .alpha, .a, .lda, .x, .incx, .beta, .y, .incy]⟩,
   ⟨⟨.d, .gemv⟩, [.transa, .m, .n, .alpha, .a, .lda, .x, .incx, .beta, .y, .incy], false, .forward
     false ⟨.d, .gemv⟩ [.transa, .m, .n, .alpha, .a, .lda, .x, .incx, .beta, .y, .incy]⟩,
   ⟨⟨.c, .gemv⟩, [.transa, .m, .n, .alpha, .a, .lda, .x, .incx, .beta, .y, .incy], false, .forward
     false ⟨.c, .gemv⟩ [.transa, .m, .n, .alpha, .a, .lda, .x, .incx, .beta, .y, .incy]⟩,
   ⟨⟨.z, .gemv⟩, [.transa, .m, .n, .alpha, .a, .lda, .x, .incx, .beta, .y, .incy], false, .forward
     false ⟨.z, .gemv⟩ [.transa, .m, .n, .alpha, .a, .lda, .x, .incx, .beta, .y, .incy]⟩,
   ⟨⟨.s, .syev⟩, [.job, .uplo, .n, .a, .lda, .w, .work, .lwork], true, .forward true ⟨.s, .syev⟩ [.job,
     .uplo, .n, .a, .lda, .w, .work, .lwork]⟩,
   ⟨⟨.d, .syev⟩, [.job, .uplo, .n, .a, .lda, .w, .work, .lwork], true, .forward true ⟨.d, .syev⟩ [.job,
     .uplo, .n, .a, .lda, .w, .work, .lwork]⟩,
   ⟨⟨.s, .geev⟩, [.jobvl, .jobvr, .n, .a, .lda, .w, .vl, .ldvl, .vr, .ldvr], true, .forward true ⟨.s,
     .geev⟩ [.jobvl, .jobvr, .n, .a, .lda, .w, .vl, .ldvl, .vr, .ldvr]⟩,
   ⟨⟨.d, .geev⟩, [.jobvl, .jobvr, .n, .a, .lda, .w, .vl, .ldvl, .vr, .ldvr], true, .forward true ⟨.d,
     .geev⟩ [.jobvl, .jobvr, .n, .a, .lda, .w, .vl, .ldvl, .vr, .ldvr]⟩,
   ⟨⟨.c, .geev⟩, [.jobvl, .jobvr, .n, .a, .lda, .w, .vl, .ldvl, .vr, .ldvr], true, .forward true ⟨.c,
     .geev⟩ [.jobvl, .jobvr, .n, .a, .lda, .w, .vl, .ldvl, .vr, .ldvr]⟩,
   ⟨⟨.z, .geev⟩, [.jobvl, .jobvr, .n, .a, .lda, .w, .vl, .ldvl, .vr, .ldvr], true, .forward true ⟨.z,
     .geev⟩ [.jobvl, .jobvr, .n, .a, .lda, .w, .vl, .ldvl, .vr, .ldvr]⟩,
   ⟨⟨.s, .gesv⟩, [.n, .nrhs, .a, .lda, .ipiv, .b, .ldb], true, .forward true ⟨.s, .gesv⟩ [.n, .nrhs,
     .a, .lda, .ipiv, .b, .ldb]⟩,
   ⟨⟨.d, .gesv⟩, [.n, .nrhs, .a, .lda, .ipiv, .b, .ldb], true, .forward true ⟨.d, .gesv⟩ [.n, .nrhs,
     .a, .lda, .ipiv, .b, .ldb]⟩,
   ⟨⟨.c, .gesv⟩, [.n, .nrhs, .a, .lda, .ipiv, .b, .ldb], true, .forward true ⟨.c, .gesv⟩ [.n, .nrhs,
     .a, .lda, .ipiv, .b, .ldb]⟩,
   ⟨⟨.z, .gesv⟩, [.n, .nrhs, .a, .lda, .ipiv, .b, .ldb], true, .forward true ⟨.z, .gesv⟩ [.n, .nrhs,
     .a, .lda, .ipiv, .b, .ldb]⟩,
   ⟨⟨.c, .heev⟩, [.job, .uplo, .n, .a, .lda, .w, .work, .lwork, .rwork], true, .forward true ⟨.c,
     .heev⟩ [.job, .uplo, .n, .a, .lda, .w, .work, .lwork, .rwork]⟩,
   ⟨⟨.z, .heev⟩, [.job, .uplo, .n, .a, .lda, .w, .work, .lwork, .rwork], true, .forward true ⟨.z,
     .heev⟩ [.job, .uplo, .n, .a, .lda, .w, .work, .lwork, .rwork]⟩,
   ⟨⟨.s, .scal⟩, [.n, .alpha, .vec, .inc], false, .forward false ⟨.s, .scal⟩ [.n, .alpha, .vec, .inc]⟩,
   ⟨⟨.d, .scal⟩, [.n, .alpha, .vec, .inc], false, .forward false ⟨.d, .scal⟩ [.n, .alpha, .vec, .inc]⟩,
   ⟨⟨.c, .scal⟩, [.n, .alpha, .vec, .inc], false, .forward false ⟨.c, .scal⟩ [.n, .alpha, .vec, .inc]⟩,
   ⟨⟨.z, .scal⟩, [.n, .alpha, .vec, .inc], false, .forward false ⟨.z, .scal⟩ [.n, .alpha, .vec, .inc]⟩,
   ⟨⟨.cs, .scal⟩, [.n, .alpha, .vec, .inc], false, .forward false ⟨.cs, .scal⟩ [.n, .alpha, .vec,
     .inc]⟩,
   ⟨⟨.zd, .scal⟩, [.n, .alpha, .vec, .inc], false, .forward false ⟨.zd, .scal⟩ [.n, .alpha, .vec,
     .inc]⟩,
   ⟨⟨.s, .dot⟩, [.n, .x, .incx, .y, .incy], true, .forward true ⟨.s, .dot⟩ [.n, .x, .incx, .y, .incy]⟩,
   ⟨⟨.d, .dot⟩, [.n, .x, .incx, .y, .incy], true, .forward true ⟨.d, .dot⟩ [.n, .x, .incx, .y, .incy]⟩,
   ⟨⟨.c, .dot⟩, [.n, .x, .incx, .y, .incy], true, .forward true ⟨.c, .dot⟩ [.n, .x, .incx, .y, .incy]⟩,
   ⟨⟨.z, .dot⟩, [.n, .x, .incx, .y, .incy], true, .forward true ⟨.z, .dot⟩ [.n, .x, .incx, .y, .incy]⟩,
   ⟨⟨.c, .dotc⟩, [.n, .x, .incx, .y, .incy], true, .forward true ⟨.c, .dotc⟩ [.n, .x, .incx, .y,
     .incy]⟩,
   ⟨⟨.z, .dotc⟩, [.n, .x, .incx, .y, .incy], true, .forward true ⟨.z, .dotc⟩ [.n, .x, .incx, .y,
     .incy]⟩,
   ⟨⟨.s, .axpy⟩, [.n, .alpha_x, .x, .inc_x, .y, .inc_y], false, .forward false ⟨.s, .axpy⟩ [.n,
     .alpha_x, .x, .inc_x, .y, .inc_y]⟩,
   ⟨⟨.d, .axpy⟩, [.n, .alpha_x, .x, .inc_x, .y, .inc_y], false, .forward false ⟨.d, .axpy⟩ [.n,
     .alpha_x, .x, .inc_x, .y, .inc_y]⟩,
   ⟨⟨.c, .axpy⟩, [.n, .alpha_x, .x, .inc_x, .y, .inc_y], false, .forward false ⟨.c, .axpy⟩ [.n,
     .alpha_x, .x, .inc_x, .y, .inc_y]⟩,
   ⟨⟨.z, .axpy⟩, [.n, .alpha_x, .x, .inc_x, .y, .inc_y], false, .forward false ⟨.z, .axpy⟩ [.n,
     .alpha_x, .x, .inc_x, .y, .inc_y]⟩,
   ⟨⟨.s, .axpby⟩, [.n, .alpha_x, .x, .inc_x, .b, .y, .inc_y], false, .forward false ⟨.s, .axpby⟩ [.n,
     .alpha_x, .x, .inc_x, .b, .y, .inc_y]⟩,
   ⟨⟨.d, .axpby⟩, [.n, .alpha_x, .x, .inc_x, .b, .y, .inc_y], false, .forward false ⟨.d, .axpby⟩ [.n,
     .alpha_x, .x, .inc_x, .b, .y, .inc_y]⟩,
   ⟨⟨.c, .axpby⟩, [.n, .alpha_x, .x, .inc_x, .b, .y, .inc_y], false, .forward false ⟨.c, .axpby⟩ [.n,
     .alpha_x, .x, .inc_x, .b, .y, .inc_y]⟩,
   ⟨⟨.z, .axpby⟩, [.n, .alpha_x, .x, .inc_x, .b, .y, .inc_y], false, .forward false ⟨.z, .axpby⟩ [.n,
     .alpha_x, .x, .inc_x, .b, .y, .inc_y]⟩,
   ⟨⟨.s, .ger⟩, [.m, .n, .alpha, .x, .inc_x, .y, .inc_y, .a, .lda], false, .forward false ⟨.s, .ger⟩
     [.m, .n, .alpha, .x, .inc_x, .y, .inc_y, .a, .lda]⟩,
   ⟨⟨.d, .ger⟩, [.m, .n, .alpha, .x, .inc_x, .y, .inc_y, .a, .lda], false, .forward false ⟨.d, .ger⟩
     [.m, .n, .alpha, .x, .inc_x, .y, .inc_y, .a, .lda]⟩,
   ⟨⟨.c, .ger⟩, [.m, .n, .alpha, .x, .inc_x, .y, .inc_y, .a, .lda], false, .forward false ⟨.c, .ger⟩
     [.m, .n, .alpha, .x, .inc_x, .y, .inc_y, .a, .lda]⟩,
   ⟨⟨.z, .ger⟩, [.m, .n, .alpha, .x, .inc_x, .y, .inc_y, .a, .lda], false, .forward false ⟨.z, .ger⟩
     [.m, .n, .alpha, .x, .inc_x, .y, .inc_y, .a, .lda]⟩,
   ⟨⟨.s, .getrf⟩, [.m, .n, .a, .lda, .ipiv], true, .forward true ⟨.s, .getrf⟩ [.m, .n, .a, .lda,
     .ipiv]⟩,
   ⟨⟨.d, .getrf⟩, [.m, .n, .a, .lda, .ipiv], true, .forward true ⟨.d, .getrf⟩ [.m, .n, .a, .lda,
     .ipiv]⟩,
   ⟨⟨.c, .getrf⟩, [.m, .n, .a, .lda, .ipiv], true, .forward true ⟨.c, .getrf⟩ [.m, .n, .a, .lda,
     .ipiv]⟩,
   ⟨⟨.z, .getrf⟩, [.m, .n, .a, .lda, .ipiv], true, .forward true ⟨.z, .getrf⟩ [.m, .n, .a, .lda,
     .ipiv]⟩,
   ⟨⟨.s, .getri⟩, [.n, .a, .lda, .ipiv], true, .forward true ⟨.s, .getri⟩ [.n, .a, .lda, .ipiv]⟩,
   ⟨⟨.d, .getri⟩, [.n, .a, .lda, .ipiv], true, .forward true ⟨.d, .getri⟩ [.n, .a, .lda, .ipiv]⟩,
   ⟨⟨.c, .getri⟩, [.n, .a, .lda, .ipiv], true, .forward true ⟨.c, .getri⟩ [.n, .a, .lda, .ipiv]⟩,
   ⟨⟨.z, .getri⟩, [.n, .a, .lda, .ipiv], true, .forward true ⟨.z, .getri⟩ [.n, .a, .lda, .ipiv]⟩,
   ⟨⟨.s, .lange⟩, [.norm_type, .m, .n, .A, .lda, .work], true, .forward true ⟨.s, .lange⟩ [.norm_type,
     .m, .n, .A, .lda, .work]⟩,
   ⟨⟨.d, .lange⟩, [.norm_type, .m, .n, .A, .lda, .work], true, .forward true ⟨.d, .lange⟩ [.norm_type,
     .m, .n, .A, .lda, .work]⟩,
   ⟨⟨.c, .lange⟩, [.norm_type, .m, .n, .A, .lda, .work], true, .forward true ⟨.c, .lange⟩ [.norm_type,
     .m, .n, .A, .lda, .work]⟩,
   ⟨⟨.z, .lange⟩, [.norm_type, .m, .n, .A, .lda, .work], true, .forward true ⟨.z, .lange⟩ [.norm_type,
     .m, .n, .A, .lda, .work]⟩,
   ⟨⟨.s, .lassq⟩, [.n, .x, .incx, .scale, .sumsq], false, .forward true ⟨.s, .lassq⟩ [.n, .x, .incx,
     .scale, .sumsq]⟩,
   ⟨⟨.d, .lassq⟩, [.n, .x, .incx, .scale, .sumsq], false, .forward true ⟨.d, .lassq⟩ [.n, .x, .incx,
     .scale, .sumsq]⟩,
   ⟨⟨.c, .lassq⟩, [.n, .x, .incx, .scale, .sumsq], false, .forward true ⟨.c, .lassq⟩ [.n, .x, .incx,
     .scale, .sumsq]⟩,
   ⟨⟨.z, .lassq⟩, [.n, .x, .incx, .scale, .sumsq], false, .forward true ⟨.z, .lassq⟩ [.n, .x, .incx,
     .scale, .sumsq]⟩,
   ⟨⟨.s, .gesdd⟩, [.jobz, .m, .n, .a, .lda, .s, .u, .ldu, .vt, .ldvt], true, .forward true ⟨.s, .gesdd⟩
     [.jobz, .m, .n, .a, .lda, .s, .u, .ldu, .vt, .ldvt]⟩,
   ⟨⟨.d, .gesdd⟩, [.jobz, .m, .n, .a, .lda, .s, .u, .ldu, .vt, .ldvt], true, .forward true ⟨.d, .gesdd⟩
     [.jobz, .m, .n, .a, .lda, .s, .u, .ldu, .vt, .ldvt]⟩,
   ⟨⟨.c, .gesdd⟩, [.jobz, .m, .n, .a, .lda, .s, .u, .ldu, .vt, .ldvt], true, .forward true ⟨.c, .gesdd⟩
     [.jobz, .m, .n, .a, .lda, .s, .u, .ldu, .vt, .ldvt]⟩,
   ⟨⟨.z, .gesdd⟩, [.jobz, .m, .n, .a, .lda, .s, .u, .ldu, .vt, .ldvt], true, .forward true ⟨.z, .gesdd⟩
     [.jobz, .m, .n, .a, .lda, .s, .u, .ldu, .vt, .ldvt]⟩,
   ⟨⟨.s, .gesvd⟩, [.jobu, .jobvt, .m, .n, .a, .lda, .s, .u, .ldu, .vt, .ldvt, .superb], true, .forward
     true ⟨.s, .gesvd⟩ [.jobu, .jobvt, .m, .n, .a, .lda, .s, .u, .ldu, .vt, .ldvt, .superb]⟩,
   ⟨⟨.d, .gesvd⟩, [.jobu, .jobvt, .m, .n, .a, .lda, .s, .u, .ldu, .vt, .ldvt, .superb], true, .forward
     true ⟨.d, .gesvd⟩ [.jobu, .jobvt, .m, .n, .a, .lda, .s, .u, .ldu, .vt, .ldvt, .superb]⟩,
   ⟨⟨.d, .gees⟩, [.jobvs, .n, .a, .lda, .sdim, .wr, .wi, .vs, .ldvs], true, .forward true ⟨.d, .gees⟩
     [.jobvs, .n, .a, .lda, .sdim, .wr, .wi, .vs, .ldvs]⟩,
   ⟨⟨.s, .trsyl⟩, [.trana, .tranb, .isgn, .m, .n, .a, .lda, .b, .ldb, .c, .ldc, .scale], true, .forward
     true ⟨.s, .trsyl⟩ [.trana, .tranb, .isgn, .m, .n, .a, .lda, .b, .ldb, .c, .ldc, .scale]⟩,
   ⟨⟨.d, .trsyl⟩, [.trana, .tranb, .isgn, .m, .n, .a, .lda, .b, .ldb, .c, .ldc, .scale], true, .forward
     true ⟨.d, .trsyl⟩ [.trana, .tranb, .isgn, .m, .n, .a, .lda, .b, .ldb, .c, .ldc, .scale]⟩,
   ⟨⟨.c, .trsyl⟩, [.trana, .tranb, .isgn, .m, .n, .a, .lda, .b, .ldb, .c, .ldc, .scale], true, .throws⟩,
   ⟨⟨.z, .trsyl⟩, [.trana, .tranb, .isgn, .m, .n, .a, .lda, .b, .ldb, .c, .ldc, .scale], true, .throws⟩,
   ⟨⟨.s, .geqrf⟩, [.m, .n, .a, .lda, .tau], true, .forward true ⟨.s, .geqrf⟩ [.m, .n, .a, .lda, .tau]⟩,
   ⟨⟨.d, .geqrf⟩, [.m, .n, .a, .lda, .tau], true, .forward true ⟨.d, .geqrf⟩ [.m, .n, .a, .lda, .tau]⟩,
   ⟨⟨.c, .geqrf⟩, [.m, .n, .a, .lda, .tau], true, .forward true ⟨.c, .geqrf⟩ [.m, .n, .a, .lda, .tau]⟩,
   ⟨⟨.z, .geqrf⟩, [.m, .n, .a, .lda, .tau], true, .forward true ⟨.z, .geqrf⟩ [.m, .n, .a, .lda, .tau]⟩,
   ⟨⟨.s, .orgqr⟩, [.m, .n, .k, .a, .lda, .tau], true, .forward true ⟨.s, .orgqr⟩ [.m, .n, .k, .a, .lda,
     .tau]⟩,
   ⟨⟨.d, .orgqr⟩, [.m, .n, .k, .a, .lda, .tau], true, .forward true ⟨.d, .orgqr⟩ [.m, .n, .k, .a, .lda,
     .tau]⟩,
   ⟨⟨.c, .ungqr⟩, [.m, .n, .k, .a, .lda, .tau], true, .forward true ⟨.c, .ungqr⟩ [.m, .n, .k, .a, .lda,
     .tau]⟩,
   ⟨⟨.z, .ungqr⟩, [.m, .n, .k, .a, .lda, .tau], true, .forward true ⟨.z, .ungqr⟩ [.m, .n, .k, .a, .lda,
     .tau]⟩]

/-- Blas.hpp 99–908, Blas.cpp 26–390: the value of a name in a function body: that of the parameter of this
name. -/
def blasArgValue {α : Type} (name : BlasArg) : List BlasArg → List α → Outcome α
  | p :: ps, v :: rest => if name = p then .ok v else blasArgValue name ps rest
  | _, _ => .error "not a parameter"

/-- Blas.hpp 99–908, Blas.cpp 26–390: the argument list of a call in a function body. -/
def blasArgValues {α : Type} (params : List BlasArg) (vals : List α) : List BlasArg → Outcome (List α)
  | [] => .ok []
  | name :: names =>
    blasArgValue name params vals >>= fun v => blasArgValues params vals names >>= fun rest => .ok (v :: rest)

/-- Blas.hpp 99–908, Blas.cpp 26–390: a call of a function with these parameters whose body is a call of
`callee`: the arguments are bound, the callee is called, and its result is the result; a function with a
result that runs off its end is undefined behaviour. -/
def blasBind {α β : Type} (params : List BlasArg) (nonVoid returns : Bool) (args : List BlasArg)
    (callee : List α → Outcome β) (vals : List α) : Outcome β :=
  if vals.length ≠ params.length then .error "no such overload"
  else blasArgValues params vals args >>= fun passed =>
    callee passed >>= fun r => if nonVoid && !returns then .ub "no return" else .ok r

/-- Blas.cpp 26–390: a call of a function of `detail` on the backend `backend`.  A function declared and not
defined does not link. -/
def blasDetail {α β : Type} (backend : BlasRoutine → List α → Outcome β) (r : BlasRoutine)
    (vals : List α) : Outcome β :=
  match blasDefinitions.find? (fun d => decide (d.name = r)) with
  | none => .error "undefined reference"
  | some d =>
    match d.body with
    | .throws => .error "not implemented."
    | .forward returns target args => blasBind d.params d.nonVoid returns args (backend target) vals

/-- Blas.hpp 99–908: a call of `blas::fn<ty>`, with a real factor or not, on the backend `backend`.  A template
that is declared and not specialised for the type does not link. -/
def blasCall {α β : Type} (backend : BlasRoutine → List α → Outcome β) (fn : BlasFn) (ty : BlasTy)
    (realFactor : Bool) (vals : List α) : Outcome β :=
  match blasSpecialisations.find? (fun e => decide (e.fn = fn ∧ e.ty = ty ∧ e.realFactor = realFactor)) with
  | none => .error "undefined reference"
  | some e => blasBind e.params e.nonVoid e.returns e.args (blasDetail backend e.target) vals

end Einsums.Model
