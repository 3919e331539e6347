# Formal model of Odes-NG: design

The model is written in Lean 4 (`lean/Verif/`).

* `Verif/Model/*`: the model, transcribed function by function from `/repo`.
  Every definition cites the file and the lines it stands for.
* `Verif/Spec/*`: what the properties are stated with (band layout, LAPACK
  contracts, Runge-Kutta and Rosenbrock methods, order conditions, ...). These do
  not use the definitions of the model.
* `Verif/Tables/*`: the coefficient tables, generated from the text of `/repo`
  (`GaussCert.lean` is not from `/repo`: 90 digits of the Gauss methods, a certificate
  which the proofs check).
* `Verif/Lemmas/*`: auxiliary results.
* `Verif/Props/*`: the property theorems, with examples which show that their
  hypotheses can be met.

## Trusted base

* Lean's kernel (4.33.0) and Mathlib's definitions used in statements (reals,
  matrices, determinants, sums, derivatives).
* Axioms: every theorem depends on at most `propext`, `Classical.choice` and
  `Quot.sound`. There is no axiom of our own, no `sorry`, no `native_decide`, no
  `bv_decide`, no `implemented_by`. `decide +kernel` evaluates in the kernel.
* The transcription of the C++ text into `Verif/Model`. It was done by hand. The
  compiler, the standard library and LAPACK are not modelled.
* The transcription of the tables (ROCK4 coefficients, Gauss coefficients). It was
  done by scripts from the text of `/repo`: a decimal literal is kept exactly, as a pair
  of integers (mantissa, power of ten).

## Numbers

* `double` in the step-size controllers (Radau5, Rodas, Rock4, Rock4L) is the
  type `X` = NaN, +inf, -inf or a real number.  Operations follow
  IEEE-754 for the special values (0/0 = NaN, inf-inf = NaN, comparisons with NaN are
  false, sqrt of a negative is NaN, ...) and are exact on reals.  Hence
  theorems about controllers cover non-finite values of the user's functions but not
  rounding, overflow, underflow or signed zero.
  CMake passes `-ffast-math` to g++, which allows the compiler to
  assume there are no NaN/inf; the NaN statements are about the code compiled without it.
* Linear-algebra kernels and Runge-Kutta formulas are stated over an arbitrary type of
  scalars, a field, an ordered field, or the reals.  This is exact arithmetic.
* Where the algorithm exists because of rounding (compensated summation, C71) the scalars
  are `p`-bit binary floating point numbers with round to nearest and unbounded exponents
  (`Lemmas/Float.lean`). An example shows that such a rounding exists for every `p`.
* C++ macros `ABS`, `MIN`, `MAX`, `SIGN` are modelled as they expand, including
  the missing parentheses in `ABS` (`-a` with `a = xend-x`).
* Literals are exact rationals.
* `int` and `size_t` arithmetic is on unbounded integers; where a conversion of a `double` to an `int` can be out
  of range (number of stages of Rock4, Rock4L) the result is the undefined outcome.

## External code

User functions (right hand side, Jacobian, `rho`, operators) are arbitrary functions with
values in the scalar type; they return and have no side effects on the solver.
LAPACK and SuperLU routines are parameters; theorems that need their correctness state the
contract as a hypothesis (`Spec/Lapack.lean`).

## Undefined behaviour

Out-of-bounds access, double free, use after free, read of an uninitialised variable and float to
int conversion of a value out of range are outcomes of the model distinct from a result
(`none`, or `HasUb` for the loops). "Defined" theorems show that they do not occur under the
preconditions stated.

## Loops

`for` loops over indices are folds (`Model/Mem.lean`). Unbounded loops become one-step transition
functions together with a fuel-indexed runner (`Model/Machine.lean`); "returns" = some fuel reaches
a return, "diverges" = no fuel suffices. No bound on sizes or steps enters a theorem.

## What is modelled

| file in /repo | model | not modelled |
|---|---|---|
| common/include/fortranArray, fortranComplexArray, fortranRectangularArray, fortranRectangularComplexArray | Model/Storage | printing, `DEBUG` checks |
| common/include/fortranVector, AllocateDestroyVector, switchAdr | Model/Vec, Model/Alloc; element loops written out in the solvers | expression printing, alignment declared inside fortranVector |
| common/include/Matrices | Model/Storage, Model/Hessenberg, Model/NumJac, Model/Alloc | - |
| common/include/Hessenberg | Model/Hessenberg | |
| common/include/logger | Model/Logger, Model/Log | formatting of doubles (a parameter) |
| common/include/OdesException, GenericException, compat, Ivdep, MacrosForCompilers, MatrixType, protos_lapack | exceptions as the outcome "throws" | message texts |
| Radau5-NG/include/Radau5cc | Model/Radau, Model/EndLoop, Model/NumJac, Model/Log | - |
| Rodas-NG/include/Rodascc | Model/Rodas, Model/EndLoop, Model/NumJac, Model/Log | printing |
| Rock4-NG/include/Rock4, Rock4Coeffs, ToolOMP | Model/Rock4, Model/TimeLoop, Model/Omp, Model/Rock4Tables | OpenMP memory model beyond interleavings of atomic accesses |
| Rock4-L/include/Rock4L, Rock4Coeffs | Model/Rock4L, Model/TimeLoop, Model/Rock4Tables | Rock4-L/include/rock4.hpp (dead legacy code) |
| Rock4-L/test/F.hpp, main.cpp | Model/Rock4LTest, Model/Rock4LMain | output |
| SDIRKL/include/* | Model/Sdirkl | |
| SDIRKL/test/Lapl | Model/Lapl1d, Model/Csr | SuperLU itself, printing of PrePremat |
| SDIRKL/test/main.cpp | Model/SdirklTest | output |
| SymplecticRK/include/* | Model/Symplectic, Tables/Gauss, Tables/Extrap | printing |
| SymplecticRK/test/{Kepler2,Outer,OuterNeptune,OuterUranus} | Model/SympTest, Model/Planets (init), Model/PlanetsFl, Model/PlanetsLoop, Model/PlanetsArr, Model/PlanetsHam, Model/SympKepler, Model/KeplerMain (rounded), Model/SympFlat (with the solver in one block of memory), Model/Mains, Model/MainsFlat, Model/MainsOut (main.cc) | printing |
| Radau5-NG/test, Rodas-NG/test, Rock4-NG/test, Rock4-L/test/FRadau5.hpp | Model/StiffTest, Model/Avc, Model/Mains, Model/MainsRadau (init(), loops of the programs) | input, files |
| sage/*, CMake files | | not modelled |

## Per property

The status is that of `MANIFEST.json`; the theorems are named there. "Partial" is used both when
the code violates the claim (then the negation is a theorem and the part that holds is kept under a
name ending in `_partial`) and when something is missing; the last column says which.

| id | property | model | proof | result |
|---|---|---|---|---|
| C01 | Banded storage is LAPACK's band layout | index functions of the storage classes | in bounds + injective + equal to the LAPACK formula, arithmetic for all n, kl, ku | **proved**. All n, kl, ku >= 0; real and complex banded classes. |
| C02 | Full real and complex storage is column major without overlap | index functions of the storage classes | in bounds + injective + equal to the LAPACK formula, arithmetic for all n, kl, ku | **proved**.  |
| C03 | Newton matrices are assembled as specified | assembling loops on bounds-checked buffers | loop lemmas, all n, arbitrary left-over contents | **proved**. Loops executed on bounds-checked buffers with arbitrary previous contents; the Jacobian is only read. |
| C04 | put() copies a vector to the caller's array | vectors and matrices as pointers into a heap with live blocks | invariants by induction over the list of operations; double free as the undefined outcome | **partial**. The code violates the claim: put() writes nothing, proved for every size. |
| C05 | Address switching never aliases or leaks buffers | vectors and matrices as pointers into a heap with live blocks | invariants by induction over the list of operations; double free as the undefined outcome | **proved**.  |
| C06 | Assigning one dynamically sized vector to another is memory safe | vectors and matrices as pointers into a heap with live blocks | invariants by induction over the list of operations; double free as the undefined outcome | **partial**. The code violates the claim: double free for every size; holds for vectors that do not own their buffer (the only use in the library). |
| C07 | Real Hessenberg factorisation + solve solves the system | `dech`, `solh`, `dechc`, `solhc` as loops on buffers | elimination invariant by induction on the column, determinant of Mathlib | **proved**. Exact arithmetic (any ordered field), every n >= 1; the system solved is the one of the upper Hessenberg part. |
| C08 | Hessenberg factorisation detects singularity exactly | `dech`, `solh`, `dechc`, `solhc` as loops on buffers | elimination invariant by induction on the column, determinant of Mathlib | **proved**. Against Mathlib's determinant. |
| C09 | Complex Hessenberg factorisation + solve solves the system | `dech`, `solh`, `dechc`, `solhc` as loops on buffers | elimination invariant by induction on the column, determinant of Mathlib | **partial**. The code violates the claim (Hessenberg.hpp 170, Ar*tr instead of Ar*ti): negation proved on a 2x2 Newton matrix; proved for all runs which do not execute that branch with a multiplier of non zero real part. |
| C10 | A singular complex Newton matrix is reported | `dech`, `solh`, `dechc`, `solhc` as loops on buffers | elimination invariant by induction on the column, determinant of Mathlib | **partial**. The code violates the claim for the complex Hessenberg matrix (return value dropped); the real one throws exactly when singular. |
| C11 | Householder back-transformation is orthogonal and inverts itself | `householder`, `solvereal`, `solvecomplex`; dgehrd a parameter with contract | induction over the reflectors | **partial**. n >= 2 proved; for n = 1 the code accesses out of bounds (proved). |
| C12 | Hessenberg solver solves the original system | `householder`, `solvereal`, `solvecomplex`; dgehrd a parameter with contract | induction over the reflectors | **proved**. dgehrd is a parameter with its contract (J = Q H Q^T, reflectors); the claim is the real system; the complex one is added, for runs clear of the faulty branch (C09). |
| C13 | Invalid band widths are rejected | constructor guard | exact characterisation for every n | **partial**. The code violates the claim (&& instead of \|\|): negation proved for every n. The loops stay inside the matrix all the same. |
| C14 | Complex solve interleaving | interleaving loops; zgetrs/zgbtrs parameters with contract | loop lemmas | **proved**. LAPACK factor+solve is a parameter with a stated contract (SolvesC). |
| C15 | Event log is faithful | map of event lists, text output | induction over sequences of put/clear | **proved**. For every sequence of put/clear calls and every formatting of doubles. |
| C16 | Radau5 returns only at xend | Radau5 `operator()` as a transition system over `X` | invariants over all runs; witness runs computed exactly for the violations; simulation for C29 | **partial**. The code violates the claim: a Newton iteration that did not converge leaves `last` set with a halved step, and the relative end test stops early; both proved by witness runs. Proved: x0 < x <= xend at a return, and x = xend (up to the stop test) when no Newton loop ended with didNotConverge. |
| C17 | Radau5 respects the step limit | Radau5 `operator()` as a transition system over `X` | invariants over all runs; witness runs computed exactly for the violations; simulation for C29 | **partial**. The step counter bound is proved between Newton restarts; the code violates termination: with a NaN right hand side the inner do loop never ends (proved). |
| C18 | Radau5 only uses converged Newton iterates | Radau5 `operator()` as a transition system over `X` | invariants over all runs; witness runs computed exactly for the violations; simulation for C29 | **partial**. The code violates the claim: redonewton stays false after the first convergence, so a didNotConverge result is used (witness run proved). Proved for runs without didNotConverge. |
| C19 | setFacrFacl takes effect | Radau5 `operator()` as a transition system over `X` | invariants over all runs; witness runs computed exactly for the violations; simulation for C29 | **partial**. The code violates the claim: operator() overwrites facr and facl at each call (proved for all values, with a run whose ratio exceeds the limit set). |
| C20 | Radau5 one-step mode advances x together with y | Radau5 `operator()` as a transition system over `X` | invariants over all runs; witness runs computed exactly for the violations; simulation for C29 | **partial**. The code violates the claim: in one-step mode x and naccpt are never advanced (proved for all runs). |
| C21 | Backward integration | Radau5 `operator()` as a transition system over `X` | invariants over all runs; witness runs computed exactly for the violations; simulation for C29 | **partial**. The code violates the claim when x0+xend > 0 (ABS macro gives a negative bound): the step goes the wrong way, proved for all such calls. For x0+xend < 0 monotone backward stepping inside the interval is proved. |
| C22 | Radau5 never steps outside the interval (forward) | Radau5 `operator()` as a transition system over `X` | invariants over all runs; witness runs computed exactly for the violations; simulation for C29 | **proved**. Exact arithmetic, arbitrary right hand side, Jacobian and linear algebra (NaN included); standard settings stated in Std. |
| C23 | Radau5 counters are consistent | Radau5 `operator()` as a transition system over `X` | invariants over all runs; witness runs computed exactly for the violations; simulation for C29 | **proved**.  |
| C24 | Radau5 function-call count is exact | Radau5 `operator()` as a transition system over `X` | invariants over all runs; witness runs computed exactly for the violations; simulation for C29 | **partial**. The code violates the claim: the evaluation in estrad is not counted (witness run proved). The count is a lower bound, exact when that branch is not taken. |
| C25 | Numerical Jacobian leaves the state intact and is exact for affine systems | `numJac` loops of Radau5 and Rodas on buffers | loop lemmas | **proved**. Loop executed on bounds-checked buffers, any scalar type for restoration and bounds, exact real arithmetic for affine exactness. |
| C26 | Radau5 step size selection is bounded | Radau5 `operator()` as a transition system over `X` | invariants over all runs; witness runs computed exactly for the violations; simulation for C29 | **proved**. Forward integration, standard settings (Std), arbitrary right hand side and linear algebra. |
| C27 | Radau5 tolerance policy | Radau5 `operator()` as a transition system over `X` | invariants over all runs; witness runs computed exactly for the violations; simulation for C29 | **proved**. Precondition stated: the vector form needs an entry per component (out of bounds read otherwise). |
| C28 | setFnewt keeps a usable Newton criterion | Radau5 `operator()` as a transition system over `X` | invariants over all runs; witness runs computed exactly for the violations; simulation for C29 | **proved**. All histories of setter calls; tolerances positive. A NaN criterion given by the caller is accepted by the code (the comparison is false), which the statement of the invariant shows. |
| C29 | Radau5 calls are independent of earlier calls | Radau5 `operator()` as a transition system over `X` | invariants over all runs; witness runs computed exactly for the violations; simulation for C29 | **partial**. The code violates the claim: faccon is not reset, the second of two equal calls makes 4 evaluations instead of 7 (witness proved). With equal faccon whole runs agree (simulation, all problems and lengths). |
| C30 | A NaN error estimate is not accepted (Radau5) | Radau5 `operator()` as a transition system over `X` | invariants over all runs; witness runs computed exactly for the violations; simulation for C29 | **partial**. The code violates the claim: MAX(sqrt(nan),1e-10) is 1e-10, the step is accepted (witness run proved). For norms that are numbers the test is right. |
| C31 | getLastTimeStep is defined after Radau5 | Radau5 `operator()` as a transition system over `X` | invariants over all runs; witness runs computed exactly for the violations; simulation for C29 | **partial**. The code violates the claim when the first step is the last one: hopt keeps the value of an earlier call (proved). Holds from the second accepted step on. |
| C32 | Radau5 Newton loop is bounded | Radau5 `operator()` as a transition system over `X` | invariants over all runs; witness runs computed exactly for the violations; simulation for C29 | **partial**. The bound of nit iterations is proved; the code violates the progress part: with nit=1 no Newton loop can converge and the call never ends (proved). |
| C33 | Radau IIA constants | constants of Radau5cc.hpp over the reals | collocation conditions, cube root 9^(1/3) enclosed by rationals | **proved**. Method characterised by the collocation conditions; eigenvalues exact, T and TI to 1e-19, block diagonalisation to 1e-18. |
| C34 | Radau5 Newton step solves the stage equations for linear problems | one Newton iteration (slvrad and updates) over a field | linear algebra; residual bounds for the printed constants | **proved**. Exact arithmetic. Exact for the exact transformation (shown to exist); for the printed T, TI the residual of the stage equations is bounded by 1e-18 times the size of the data. The contract of the linear algebra is met by the models of full and banded storage; with Hessenberg reduction it is not (dechc_solhc_wrong). |
| C35 | Rodas delivers the solution | Rodas `operator()` as a transition system over `X` (C77 also Radau5) | invariants over all runs, witness runs | **partial**. The code violates the claim (put copies the vector onto itself): the caller's array is never changed, proved for every size; the run does start from the array. |
| C36 | Rodas vector tolerances | Rodas `operator()` as a transition system over `X` (C77 also Radau5) | invariants over all runs, witness runs | **partial**. The code violates the claim: reads _rtol[n] for every n >= 1, component i uses entry i+1; scalar tolerances proved. |
| C37 | Rodas returns only at xend | Rodas `operator()` as a transition system over `X` (C77 also Radau5) | invariants over all runs, witness runs | **proved**. Exact arithmetic, arbitrary RHS and linear algebra (NaN included). |
| C38 | Rodas respects the step limit and terminates | Rodas `operator()` as a transition system over `X` (C77 also Radau5) | invariants over all runs, witness runs | **partial**. The code violates termination: with NaN values the rejection loop never ends (the step limit is tested only after an acceptance), proved. Step limit at acceptances proved; termination proved for real data with errors below 1 for small steps. |
| C39 | Rodas step size selection | Rodas `operator()` as a transition system over `X` (C77 also Radau5) | invariants over all runs, witness runs | **partial**. Proved for real error estimates; for a NaN estimate the code sets h to NaN (negation proved). |
| C40 | Rodas stages solve the Rosenbrock equations | stage computation of Rodas | stage equations; tables by kernel evaluation over the rationals; simulation for C42 | **proved**. Linear algebra enters through a contract, shown to be met by the models of full, banded and Hessenberg storage; LAPACK is a parameter. |
| C41 | Rodas coefficient tables are consistent Rosenbrock methods | stage computation of Rodas | stage equations; tables by kernel evaluation over the rationals; simulation for C42 | **proved**. Whole tables by kernel evaluation over Q, tolerance 1e-14. |
| C42 | Autonomous problems: both modes agree | stage computation of Rodas | stage equations; tables by kernel evaluation over the rationals; simulation for C42 | **proved**. Whole runs agree, not only stages; real right hand sides. |
| C43 | Rodas counters are consistent | Rodas `operator()` as a transition system over `X` (C77 also Radau5) | invariants over all runs, witness runs | **partial**. The code violates the claim: rejections before the first acceptance are not counted (witness run proved); factorisations = steps and the inequality proved. |
| C44 | getLastTimeStep reports the last step used (Rodas) | Rodas `operator()` as a transition system over `X` (C77 also Radau5) | invariants over all runs, witness runs | **partial**. The code violates the claim: the proposal for the next step is reported (witness run proved). |
| C45 | Empty interval is a no-op | Rodas `operator()` as a transition system over `X` (C77 also Radau5) | invariants over all runs, witness runs | **partial**. Rodas never returns normally on an empty interval and Radau5 does not terminate (both proved); Rock4 satisfies the claim. |
| C46 | Rock4 reaches the end time exactly and never overshoots | Rock4 `operator()` as a transition system over `X`, buffers behind pointers | invariants, lexicographic measure for termination | **proved**. Exact arithmetic; NaN/inf data covered. |
| C47 | Rock4 terminates | Rock4 `operator()` as a transition system over `X`, buffers behind pointers | invariants, lexicographic measure for termination | **proved**. Termination for every input; the third outcome besides return/exception is the undefined int conversion for non-representable stage numbers (excluded for rho in [0,R], (tend-t0)R<=1e18, finite h; exhibited for NaN rho). |
| C48 | Rock4 table accesses are in range | Rock4 `operator()` as a transition system over `X`, buffers behind pointers | invariants, lexicographic measure for termination | **proved**.  |
| C49 | Rock4 stage number covers the spectrum | Rock4 `operator()` as a transition system over `X`, buffers behind pointers | invariants, lexicographic measure for termination | **proved**.  |
| C50 | Rock4 keeps the spectral radius current | Rock4 `operator()` as a transition system over `X`, buffers behind pointers | invariants, lexicographic measure for termination | **partial**. The code violates the claim: proved negation (arbitrarily many attempts without renewal); holds as long as nothing was rejected. |
| C51 | Rock4 buffers stay disjoint | Rock4 `operator()` as a transition system over `X`, buffers behind pointers | invariants, lexicographic measure for termination | **proved**.  |
| C52 | Rock4 kernel computes the ROCK4 formula | `rtstep` over any scalar type | loop invariant = three-term recurrence | **proved**.  |
| C53 | Rock4 rejected steps have no effect on the state | Rock4 `operator()` as a transition system over `X`, buffers behind pointers | invariants, lexicographic measure for termination | **proved**.  |
| C54 | Rock4 counters | Rock4 `operator()` as a transition system over `X`, buffers behind pointers | invariants, lexicographic measure for termination | **proved**.  |
| C55 | Rock4 NbStages counts both methods | Rock4 `operator()` as a transition system over `X`, buffers behind pointers | invariants, lexicographic measure for termination | **partial**. The code violates the claim: NbStages is always 4 less; proved. |
| C56 | Rock4 OpenMP build computes the same result | threads as interleavings of atomic reads and writes | independence of interleaving by induction on the schedule; lost update witness | **partial**. Element-wise loops: proved for every interleaving. Error norm: the code violates the claim (no reduction clause): lost update proved. |
| C57 | Rock4 error measure is scaled correctly | Rock4 `operator()` as a transition system over `X`, buffers behind pointers | invariants, lexicographic measure for termination | **proved**.  |
| C58 | ROCK4 coefficient tables | coefficient tables as lists of integers (mantissa, exponent) | `decide +kernel` over whole tables lifted by soundness lemmas; elementary differentials in a nilpotent algebra | **partial**. Sizes, degrees and tiling proved for both copies. The code violates "the same numbers": about 330 literals differ in the last printed digit (negation proved at RECF[5]); they agree to a relative 1e-15 (proved for all entries). The numbers are the decimal literals; rounding to double is not modelled. |
| C59 | Linear Rock4 equals Rock4 on linear problems | Rock4L step and time loop on buffers | loop invariants, whole runs | **proved**. Any commutative ring of scalars, any tables, every formula; buffers and pointer permutations modelled. |
| C60 | Affine Rock4L solves y'=Ay+g | Rock4L step and time loop on buffers | loop invariants, whole runs | **partial**. The code violates the claim: with the documented operator (g not multiplied by a) the affine step is wrong, for all tables (negation proved). With the operator of the shipped example it is the step of y'=Ay+b. |
| C61 | Rock4L reaches tend with fixed steps | Rock4L step and time loop on buffers | loop invariants, whole runs | **partial**. Exact arithmetic, both modes, whole runs: number and lengths of steps, exceptions. The code violates "too large steps raise an exception" when the number of stages does not fit an int (undefined conversion, proved). |
| C62 | Rock4L operation count is exact | Rock4L step and time loop on buffers | loop invariants, whole runs | **partial**. The code violates the claim: one evaluation too many is reported per step (proved for all runs); the exact relation is in rock4l_run. |
| C63 | Linear and affine calls cannot be mixed | Rock4L step and time loop on buffers | loop invariants, whole runs | **proved**. Both solvers. |
| C64 | SDIRKL step is the Runge-Kutta step of the tableau | Sdirkl steps over a field, method tables | uniqueness of the stage solution; error expansion; energy identity | **proved**. Any field; work arrays, aloc and Zcomb modelled with their left-over contents; contract of Op.apply: it solves with I - dt A[0][0] L. |
| C65 | Shipped SDIRK methods are consistent | Sdirkl steps over a field, method tables | uniqueness of the stage solution; error expansion; energy identity | **partial**. The code violates the claim: CrN has D=1 where d=b/a=2, so it advances half a step (proved for all problems; not consistent, negation proved). The other methods have local error C dt^(p+1) (orders 4, 4, 2, 1 on linear problems) up to 1e-14 in the coefficients. |
| C66 | SDIRKL step is linear | Sdirkl steps over a field, method tables | uniqueness of the stage solution; error expansion; energy identity | **proved**.  |
| C67 | Symplectic coefficients follow the step size | SymplecticRK classes over any scalar type | invariants over histories; Cooper identity; p-bit floating point for C71; tables by kernel evaluation | **partial**. Any history, any scalar type. The code violates the claim for long double: change_h takes a double, so the coefficients are the tables times the step size rounded to double (proved); for double the claim is proved. |
| C68 | Failed symplectic step leaves the state untouched | SymplecticRK classes over any scalar type | invariants over histories; Cooper identity; p-bit floating point for C71; tables by kernel evaluation | **proved**. Any scalar type (NaN included), any history. |
| C69 | Successful symplectic step is a converged fixed point | SymplecticRK classes over any scalar type | invariants over histories; Cooper identity; p-bit floating point for C71; tables by kernel evaluation | **partial**. Success exactly after the first iteration where the residual is below the threshold and not smaller than the preceding value. The code violates "at least two iterations": the value left in Test (0 after construction) is taken for the preceding one (witness proved for all tables). |
| C70 | Quadratic invariants are preserved | SymplecticRK classes over any scalar type | invariants over histories; Cooper identity; p-bit floating point for C71; tables by kernel evaluation | **proved**. Exact arithmetic; exact identity for the change, exact conservation for an exact tableau and exact stages, bound for the shipped tables after any number of steps of any sizes; defect of all tables checked. |
| C71 | Compensated summation loses nothing | SymplecticRK classes over any scalar type | invariants over histories; Cooper identity; p-bit floating point for C71; tables by kernel evaluation | **proved**. Exact arithmetic: compensation stays 0. Floating point (p bits, unbounded exponents, round to nearest): the subtractions are exact when the correction is not larger than u (Dekker), and this condition is needed (proved). |
| C72 | Extrapolated starting values stay in bounds and extrapolate | SymplecticRK classes over any scalar type | invariants over histories; Cooper identity; p-bit floating point for C71; tables by kernel evaluation | **partial**. The code violates the claim (all proved): out of bounds exactly when it extrapolates with more stages than components; with fewer stages than components the last component is never predicted; with as many the prediction is wrong for constant slopes with every shipped table; a first call with firstStep=false and h=1 reads memory never written. |
| C73 | Unsupported stage numbers are rejected | SymplecticRK classes over any scalar type | invariants over histories; Cooper identity; p-bit floating point for C71; tables by kernel evaluation | **proved**.  |
| C74 | maxIter reports the iterations performed | SymplecticRK classes over any scalar type | invariants over histories; Cooper identity; p-bit floating point for C71; tables by kernel evaluation | **partial**. The code violates the claim: after every successful step maxIter is one less than the number of iterations (proved for all runs); after a failure it is correct. |
| C75 | Copies of work vectors and matrices are independent objects | vectors and matrices as pointers into a heap with live blocks | invariants by induction over the list of operations; double free as the undefined outcome | **partial**. The code violates the claim: negations proved. Only assignment from a vector of the same size copies (assignF_copies_partial). |
| C76 | Backward integration reaches xend | Rodas `operator()` as a transition system over `X` (C77 also Radau5) | invariants over all runs, witness runs | **partial**. The code violates the claim when x0+xend>=0 (ABS macro expands ABS(xend-x) to -xend-x): negation proved. For xend<x0 with x0+xend<0 it is proved that every accepted step is negative, that the times stay in [xend,x0] and (real data, right hand side bounded near every point) that the call ends, at xend after Rosenbrock steps with error estimates at most 1, or by one of its three exceptions. |
| C77 | getfirstAcceptedStep reports the first accepted step | Rodas `operator()` as a transition system over `X` (C77 also Radau5) | invariants over all runs, witness runs | **partial**. Rodas: proved. Radau5 violates the claim: when the Newton loop of the first accepted step ended with didNotConverge, half of the step is reported (radau_first_step_wrong, one step of size 0.1, 0.05 reported); proved otherwise (radau_first_step: exactly these two cases). |
| C78 | Radau5 extrapolated starting values | starting values of Radau5 Newton | polynomial interpolation | **partial**. The code violates the claim: aaa uses 1/C1M1 instead of 1/C1 (Radau5cc.hpp 621), so not even solutions of constant slope are extrapolated. What holds and the size of the defect are in radau_interp_partial; that the data are those of the last accepted step in radau_start_data_partial. |
| C79 | Shipped Rock4L example operator meets its contract | operator of Rock4-L/test/F.hpp | loops on buffers; explicit eigenvector; row sums bound the spectrum, last term of the loop bounds rho() | **proved**. Any field. |
| C80 | rho() of the shipped Rock4L example bounds the spectrum | operator of Rock4-L/test/F.hpp | loops on buffers; explicit eigenvector; row sums bound the spectrum, last term of the loop bounds rho() | **partial**. The code violates the claim: -4/h^2 is an eigenvalue and rho() is smaller, for every number of points (proved). Every eigenvalue is at most 4/h^2 in modulus and rho() is at least 1-3/Size^2 times it (proved). |
| C81 | Order of the ROCK4 formulas | coefficient tables as lists of integers (mantissa, exponent) | `decide +kernel` over whole tables lifted by soundness lemmas; elementary differentials in a nilpotent algebra | **proved**. Exact arithmetic on the decimal literals; right hand sides described by their Taylor expansion in a commutative real algebra with h^5=0 (every polynomial field has one). |
| C82 | SDIRKL is unconditionally stable on dissipative problems | Sdirkl steps over a field, method tables | uniqueness of the stage solution; error expansion; energy identity | **proved**. Exact arithmetic; holds for the literals as printed. |
| C83 | Sparse arrays of the SDIRKL example represent the matrix | triplet list to compressed columns (SDIRKL/test/Lapl) | sorted-list invariants | **partial**. Proved when no column is empty, hence for the example for every n. The code violates the general claim: an empty column gives wrong arrays, more columns than rows writes out of bounds, a second initialisation with a smaller size leaves colptr uninitialised (all proved). |
| C84 | Order of the symplectic tables | SymplecticRK classes over any scalar type | invariants over histories; Cooper identity; p-bit floating point for C71; tables by kernel evaluation | **proved**. Decimal literals as exact numbers; rounding to double (and the passage of the long double literals through initializer_list<double>) not modelled. |
| C85 | ROCK4 formulas are stable on the interval the step size control relies on | Tables/*, Spec/Stability.lean (amplification factor = one step for y'=zy), models of C52, C59, C61 | Lemmas/RealRooted.lean: a polynomial with all roots real is log-concave between its roots, so values at finitely many points bound it everywhere. Lemmas/StabCheck.lean computes with natural numbers (kernel) the sign changes and the cell tests of one formula at certificate points (Tables/RockStab.lean, untrusted); Lemmas/StabSound.lean, StabBound.lean prove that the test implies the bound for every real z. Norms: spectral theorem (Lemmas/AmpNorm.lean). | **partial**. Proved for 47 of the 50 degrees on the whole interval, in both tables. The tables violate the claim for the degrees 63 (end of the interval), 129 and 148 (near -8.39): negation proved, with matrices for which the step chosen by the solver increases the norm; there the factor is at most 1.15, 1.01, 1.01 (proved). Decimal literals, exact arithmetic. |
| C86 | Symplectic steps are symplectic maps | models of C67-C74; Spec/SympMap.lean (fixed point sweeps, map of a step, Hamiltonian field for a skew form) | Lemmas/SympMap.lean: derivative of every sweep, form of a sweep with defect of the tableau and difference of the last two sweeps (geometric bound). Lemmas/SympRev.lean: there-and-back estimate, symmetry permutation of every table by kernel evaluation | **proved**. Exact arithmetic. The map is the one computed with the number of sweeps of the call (first step or new step size); explicit bound for the shipped tables; exact for an exact tableau. |
| C87 | Symplectic steps are time reversible | models of C67-C74; Spec/SympMap.lean (fixed point sweeps, map of a step, Hamiltonian field for a skew form) | Lemmas/SympMap.lean: derivative of every sweep, form of a sweep with defect of the tableau and difference of the last two sweeps (geometric bound). Lemmas/SympRev.lean: there-and-back estimate, symmetry permutation of every table by kernel evaluation | **proved**. Exact arithmetic; explicit bound for the shipped tables, exact for a symmetric tableau and exact stages. |
| C88 | Symplectic step: a contracting iteration is reported as success | models of C67-C74 | residuals of a contraction decrease strictly, so the test v>=vold never holds; the code violates the claim (oscillator), the part which holds is symp_contraction_partial | **partial**. The code violates the claim in exact arithmetic: harmonic oscillator, two stages, h=1, the iteration is a contraction and step() returns false whatever the number of iterations allowed (proved); a call with a contracting iteration succeeds after more than one sweep only if a sweep changed nothing. Proved: success when two consecutive sweeps agree exactly below the limit. |
| C89 | Symplectic test problems: H is the Hamiltonian of the equations | Model/SympTest.lean: the classes of SymplecticRK/test with their loops on arrays (bounds checked), any number of bodies, real numbers; init(): C126; main.cc: C118; Spec/NBody.lean: Newton's equations, energy, angular momentum | loop invariants (Lemmas/SympTest.lean); conservation laws by antisymmetric double sums (Lemmas/NBody.lean); violations: witness state, exact bounds; block of memory without inner bounds for the consequence | **partial**. The code violates the claim in two ways. (1) In all four classes the equations are those of H with time reversed (outer_rhs_partial: minus the right hand side of Newton's equations; kepler_field, kepler_reversed). (2) H of the planets leaves out the pairs of consecutive bodies (outer_H) and is not a first integral (outer_H_fails). Proved: the energy including these pairs is a first integral, and H is one for Kepler2. |
| C90 | Symplectic test problems write only their own result | Model/SympTest.lean: the classes of SymplecticRK/test with their loops on arrays (bounds checked), any number of bodies, real numbers; init(): C126; main.cc: C118; Spec/NBody.lean: Newton's equations, energy, angular momentum | loop invariants (Lemmas/SympTest.lean); conservation laws by antisymmetric double sums (Lemmas/NBody.lean); violations: witness state, exact bounds; block of memory without inner bounds for the consequence | **partial**. The code violates the claim (rhsL_ub, evalsArr_ub: with every operation rounded): dpdt zeroes 3*n elements instead of 3*nb. Out of bounds of Y1 exactly for the last three stages, hence undefined behaviour in every step with any number of stages. With the usual memory layout (members one after the other) the results are right but the compensation e is zeroed in each iteration. The part which holds is outer_rhs_partial. |
| C91 | Symplectic steps preserve linear and angular momentum of the shipped problems | the same, with the models of C67-C74 | C70 with the bilinear form of the angular momentum | **proved**. Exact arithmetic; right hand side taken as the function of vectors which operator() computes (C90). |
| C92 | Right hand sides of the stiff test problems | Model/StiffTest.lean: the problems of Radau5-NG/test, Rodas-NG/test, Rock4-L/test/FRadau5.hpp and Rock4-NG/test/FKPPOMP.hpp (loops on arrays with checked bounds; init(), print functions and main.cc not modelled; AvcF.hpp: see C97; OpenMP loop as a sequential loop); Spec/Heat.lean: diffusion with reflected neighbours, partial derivatives | loop invariants; uniqueness of partial derivatives for the violations | **proved**. Exact arithmetic, every n >= 2; for n = 1 the code reads outside (heat_rhs_ub). |
| C93 | Analytic Jacobians are the derivatives of the right hand sides | Model/StiffTest.lean: the problems of Radau5-NG/test, Rodas-NG/test, Rock4-L/test/FRadau5.hpp and Rock4-NG/test/FKPPOMP.hpp (loops on arrays with checked bounds; init(), print functions and main.cc not modelled; AvcF.hpp: see C97; OpenMP loop as a sequential loop); Spec/Heat.lean: diffusion with reflected neighbours, partial derivatives | loop invariants; uniqueness of partial derivatives for the violations | **partial**. The code violates the claim (negations proved): KPP of Radau5 and Rodas, FRadau5 (boundary lines; an entry never written), Oregonator of Rodas (sign), BZ (declared band too small, wrong entries, two entries of the same storage). Proved: the Oregonator of Radau5, and all other entries of the heat-type Jacobians. |
| C94 | Linear invariants are kept by the stiff integrators | E5 of Model/StiffTest.lean; models of C35-C45 and of Radau5 | every stage of a Rosenbrock step is annihilated by the weights (induction over the stages), difference quotients inherit the invariant; with C40 and C96 whole runs | **proved**. Exact arithmetic. Whole runs of Rodas and of Radau5; the step of E5 in both. |
| C95 | rho() of the Fisher problem bounds the spectrum | FKPPOMP.hpp in Model/StiffTest.lean | Lipschitz constant in the maximum norm, then eigenvalues of the derivative | **proved**. Exact arithmetic. |
| C96 | A run of Radau5 is a sequence of simplified Newton steps that pass the error test | model of C17-C34 (Radau5); Spec/RadauRun.lean: simplified Newton iteration for the collocation equations, error estimate, path of steps, without the transformed variables of the code | Lemmas/RadauReal.lean (transport from X to the reals), RadauRealRun.lean (invariant of the transition system: the object holds matrices of the current step size and a Jacobian of a visited point, the Newton loop holds an iterate) | **proved**. Exact arithmetic on finite data, forward integration. The linear systems are solved or the run throws (contract of LAPACK). |
| C97 | Balance laws of the stroke problem | Model/Avc.lean: the whole right hand side of AvcF.hpp (21 components), constructor and init(), over the reals with explicit failure for a division by 0 and the logarithm of a non-positive number; Spec/Stroke.lean: amounts, charge, solutions, invariants | derivative of the balance vanishes; each formula is defined or fails separately; comparison of solutions with constants for the recovery variables | **proved**. Real numbers; any values of the constants; solutions in the sense of derivatives on an interval. |
| C98 | The stroke problem is defined for all meaningful states | Model/Avc.lean: the whole right hand side of AvcF.hpp (21 components), constructor and init(), over the reals with explicit failure for a division by 0 and the logarithm of a non-positive number; Spec/Stroke.lean: amounts, charge, solutions, invariants | derivative of the balance vanishes; each formula is defined or fails separately; comparison of solutions with constants for the recovery variables | **partial**. The code violates the claim: at a potential of 0 mV or 8 mV it computes 0/0 (removable singularities of the channel formulas; negation proved). Proved: these are the only points; recovery variables stay in [0,1]; the initial state is in the domain. |
| C99 | A problem declared autonomous is autonomous | Model/Avc.lean with the flag; Rodas stages (C40) | the sodium pump is strictly monotone in time; classical form of the Rosenbrock step with zero Jacobian, sums of the three tables by kernel evaluation | **partial**. The code violates the claim: AvcF is declared autonomous and depends on the time at every meaningful state (proved). Proved: what the flag costs (one step of each method on y'=t: error of at least 0.02 h^2 instead of at most 1e-13 h^2), and that the two modes agree when the right hand side does not depend on the time. E5, KPP and Oregonator do not use their argument t (models without time). |
| C100 | Rodas is unconditionally stable on dissipative linear problems | model of C35-C45; Spec/Dissipative.lean | the stages are polynomials in hA applied to a vector (1-hA/4)^-6 y; |D|^2-|N|^2 is a sum of squares minus (z+conj z) times a sum of squares, with rational certificates for the three tables (Tables/RodasStab.lean) checked by the kernel; D and N of degree 6 and 5 for the damping | **proved**. Exact arithmetic with the coefficients exactly as printed; Jacobian computed by the code (its difference quotients are exact here) or supplied. |
| C101 | SDIRKL converges with its order | model of C64-C66 | Lemmas/SdirklErr.lean: local error with constants uniform along a solution; Lemmas/SdirklConv.lean: accumulation of local errors with the growth of a step (from the expansion of the step, or 1 by C82); CrN: closed form of the calls | **partial**. Exact arithmetic with the printed coefficients, solver of the linear systems exact. Proved for the four methods. The code violates the claim for CrN (negation proved: on y'=1 the result is half of the exact one whatever the step). The constant C is not explicit. |
| C102 | The test program of SDIRKL measures the error | Model/SdirklTest.lean: SDIRKL/test/main.cpp (class exact, normdiff, a turn of the loop) | the cosine vector is an eigenvector of the reflected second difference; derivative of exactsolAtt; C101 in the weighted norm, Cauchy-Schwarz | **proved**. Exact arithmetic; cos, exp, atan as mathematical functions; solver of the linear systems exact (C83). Writing of the file not modelled. |
| C103 | Error of the ROCK4 solvers on linear problems | models of C46-C63; `Solution` (derivative at every time), weighted norm | Lemmas/AmpPoly.lean: a step in an eigendirection is multiplication by a polynomial whose first coefficients are the order conditions; Lemmas/AmpErr.lean: its coefficients are nonnegative, so its tail is bounded by its value at 3 (kernel evaluation for all 50 formulas of both tables), and it is compared with the exponential; Lemmas/RockErr.lean: local error in all directions, decay of the bound along the solution; induction over the steps / invariant of the transition system | **proved**. Exact arithmetic with the printed coefficients. The stability factors of C85 enter: 1 up to 63 stages, at most 1.15 per step beyond. |
| C104 | Error of Rodas on dissipative linear problems | models of C35-C45; Spec/Dissipative.lean; `LinearSolution` | Lemmas/RodasErr.lean: numerator minus (Taylor polynomial times denominator) has small coefficients up to degree 4 (kernel evaluation, three tables); powers of hA times (1-hA/4)^-6 are bounded by the energy inequality; Taylor remainder of the solution in the norm of the inner product; contractivity (C100) for the accumulation | **proved**. Exact arithmetic with the coefficients exactly as printed; Jacobian computed by the code or supplied; forward integration. |
| C105 | Stability and error of Radau5 on dissipative linear problems | models of C19-C34; Spec/Radau path of C93; Spec/Dissipative.lean; `LinearSolution` | Lemmas/RadauErr.lean: the Newton iterates of a linear problem satisfy a recursion in the transformed variables in which the starting values drop out at the first iteration; energy inequality for the 3x3 block matrix (coercivity of the printed block diagonal matrix); the exact stage equation gives a rational function with denominator bounded below and numerator close to the Taylor polynomial of degree 5; the difference of the iterates and the exact stages is at most 1e-15. Lemmas/RadauDecay.lean: a returning run (y' = -y) meets all hypotheses | **proved**. Exact arithmetic with the transformation matrices exactly as printed; Jacobian computed by the code or supplied; forward integration. The factor 1+1e-15 and the term 3e-16 \|v\| come from the printed digits of T and T^-1. |
| C106 | CSRLineWise::init builds compressed rows of the matrix | Model/Csr.lean: csr.cpp, map model of C83; Spec/Csr.lean | Lemmas/Csr.lean: loop invariant (ia holds 1 + number of entries of the columns passed); all outcomes of init are characterised | **partial**. The code violates the claim (negation proved): the arrays are those of the transposed matrix; an empty last column leaves ia unwritten, an empty first column throws, more columns than rows write out of bounds. The class is not used. |
| C107 | The test program of Rock4L compares what it claims to compare | Model/Rock4LMain.lean: main.cpp, F.hpp on numbers of type X, FRadau5::init; Spec/Rock4LMain.lean: Euclidean norm, weights, table of the printed numbers | Lemmas/Rock4LMain.lean: summation by parts gives the spectrum of the Laplacian, its kernel gives the mean value; the 30 step sizes are rational, the stages needed are bracketed by integer inequalities (whole table by kernel evaluation); then C61, C85 | **partial**. The code violates the claim about normdiff (negation proved): the loop assigns instead of accumulating, so only the last components are compared. The rest holds in exact arithmetic. |
| C108 | Error of Rock4L for rough initial data | Model/Rock4L.lean, Model/Rock4LMain.lean; Spec: solutions of y'=Ay+b, weighted norm | the test of C85 (Lemmas/StabCheck.lean, kernel evaluation) now checks the bound 0.97 beyond z=-1 for the degrees up to 59; Lemmas/RockRough.lean: powers of the amplification factor against the exponential, slow and fast components apart; modes as in C103 | **proved**. Exact arithmetic. Degrees up to 59; for 67..86 the damping also holds numerically but was not certified, 63, 129 and 148 do not damp (C85). |
| C109 | Error of SymplecticRK in floating point arithmetic | models of C67-C74 over floating point numbers (C71); Spec/RkErr.lean: smooth solution, neighbourhood, truncation terms | Lemmas/RkErr.lean: Taylor formula, truncation error from the conditions B and C of C84, error of a perturbed Runge-Kutta sum, Gronwall; Lemmas/SympFlt.lean: rounding errors of the sums, compensated summation without any condition on the sizes, what the test implies; Lemmas/SympErr.lean: all iterates stay in the neighbourhood (induction), error of one step; induction over the calls | **proved**. Exponents without bound (no overflow, no underflow), Double=double, successful calls, first=true as in test/main.cc. The order proved is q+1 <= s+1, with explicit constants; order 2s is C123. |
| C110 | End of the interval of Rock4 and Rock4L in floating point arithmetic | Model/TimeLoop.lean: variables t and h of the two loops over any scalar type; floating point numbers of C71 | Sterbenz: tend-t is exact and t+(tend-t)=tend if t>=tend/2; invariant of the loop of Rock4L (remaining distance at least 0.005h) and induction; invariant of the loop of Rock4 for arbitrary answers; witnesses by exact rounding of dyadic numbers; simulation of Model/Rock4L and Model/Rock4 | **partial**. Violated by the code: rock4l_float_throws, rock4_float_throws (exception after the end of the work, -0.5 to 0.1) and rock4l_float_hangs (t does not advance) are the negations with witnesses. The other theorems need a last step which starts beyond tend/2. Unbounded exponents; the rest of the program (number of stages, error test, next step) is arbitrary. rock4l_sim and rock4_sim: the loop modelled is that of the models of C47 and C61. |
| C111 | Rounding errors of the Hessenberg solver (dech, solh) | Model/Hessenberg.lean: dech and solh over any type with the operations used, here the floating point numbers of C71 | closed forms dechBody_spec, dech_chain, solh_closed for any such type; error of one elimination step relative to the computed values, growth of the active row, error of one row of the back substitution; the residuals of the rows are followed backwards through the steps | **proved**. Unbounded exponents (no overflow, no underflow); rounding to nearest with any rule for ties; the product and the sum of B(i)+=A(i,k)*t are rounded separately (no fma contraction). |
| C112 | End of the interval of Rodas and Radau5 in floating point arithmetic | Model/EndLoop.lean: the part of the two controllers which computes x, h, last, reject, over any type with the operations used; the rest (error estimate, Newton) is an arbitrary sequence of answers. rodas_sim and radau_sim: the controllers of Model/Rodas and Model/Radau follow it | invariants RInv, ZInv, DInv, with the facts about rounding of C71/C110; the violation is a run in double precision from 1 to 1+2^-49; divergence with h=0 in the arithmetic with infinities and NaN | **partial**. Radau5 has the property (until a Newton iteration ends with didNotConverge, C16/C18). Rodas violates it: after a step shorter than about 2^15 units in the last place of xend, x can be exactly xend without last being set; a step with h=0 follows, and (one unknown) the do loop never ends. Without such short steps there is no step of length zero; the interval and the final time hold for Rodas without that condition. Unbounded exponents; one-step mode left out. |
| C113 | The log describes the run | Model/Log.lean: the events written by each transition of the three controllers, applied to the log of Model/Logger | every run is a run with a log (reach_logged); invariants Tells and Counts over the transitions; violations from runs already constructed for C24, C39, C53 | **partial**. Violated by all three. Radau5: everything but the size printed with a rejection, which is the rejected one. Rodas: nothing is logged for a rejection, so the last logged size is then not the one in force. Rock4: the log is never cleared, and the size printed is not the next one (0.8 of it, or 1e-5). What holds is proved. |
| C114 | Radau5 with Hessenberg reduction computes the same Newton step | Model/Hessenberg under the interface of the linear algebra of Model/Radau (Props/RadauHess) | the contract LinSpec of C34 holds for the state restricted to factorisations avoiding the faulty branch; the violation is computed on [[0,1],[5,1]] with h=ALPH for every dgehrd meeting its contract | **partial**. Violated: dechc has a faulty branch (C09); on a regular 2x2 problem it reports success and the Newton iteration is wrong. Proved whenever that branch is not entered and dechc returns 0 (its return value is ignored by decomc). |
| C115 | Work memory is released by the function which allocated it and aligned where declared | Model/Alloc: free store whose blocks remember their allocation function; life of the work array; addresses in bytes | invariant over the list of sizes requested; permutation of arrays from C51; the three pointers of Rock4L are a permutation of the parts 1, 2, 3 | **partial**. Violated with ALIGN_BLOCKED: Matrices<true,true> releases memory of _mm_malloc by delete[] as soon as LAPACK wants more than n cells (equivalence proved), and Rock4L declares misaligned pointers aligned unless 8 divides the number of unknowns (equivalence proved). Holds without ALIGN_BLOCKED, and for Rock4 if the arrays of the caller come from allocDoubleArray. |
| C116 | Radau5 on nonlinear dissipative problems: stability and error independent of stiffness | Model/Radau through Spec/RadauRun (the run is a sequence of Newton iterations, C96) | algebraic stability of Radau IIA as an identity (the defect is a square with factor 1/324), coercivity of A^-1 with the weights B C^-1 for the stage residuals, Taylor in the norm of the inner product through t -> B(w,y(t)), collocation cancels the polynomials; induction over the path | **proved**. Exact arithmetic; the residuals of the Newton iterations appear in the bound as what the code computes, they are not bounded by the tolerance. |
| C117 | Calls of Rodas, ROCK4 and ROCK4L depend on their arguments only | Model/Rodas, Model/Rock4, Model/Rock4L as they are: start keeps every member the code does not set | simulation between two runs (Lemmas/Sim): the members which may differ are written before they are read; for ROCK4 the two heaps and pointers may be different and the kernel is characterised by its specification (C48), the position in the tables is independent of the old one | **partial**. Holds in full for Rodas and ROCK4L. ROCK4 violates the claim: LastAcceptedTimeStep and NbStages are neither initialised by the constructor nor reset by a call, so after a call which makes no step they are what the object contained; proved with two new objects. Everything else agrees. |
| C118 | The test programs report what they computed | Model/Mains, Model/MainsRadau, Model/MainsFlat (SymplecticRK with the planetary problems), Model/MainsOut (its exception): loops of the programs over the models of the solvers; init as loops over buffers | loop invariants for init; induction over the loops with C117; C46 for the path at the exception; for Radau5 C29, C17, C16 turn by turn; the loop of SymplecticRK makes ceil(years*365.25*h) steps, or fewer when the exception is thrown: exactly one of the two, by induction on the turns left and determinism | **partial**. Violated in three programs. ROCK4: the exception is caught and the program goes on to print ok and to write the results at the end of the integration; the file then contains the values at an earlier time, for instance the initial values. SymplecticRK: the loop makes years*365.25*h steps of size h, so the time is right for h=1 only (h=1/2 gives 50 years instead of 200). Holds for init and for the program of Rodas (at least one loop; with none t is not initialised). Radau5: the second of two turns can differ from the first one (radau_main_turns_differ: 4 evaluations in place of 7, C29) and with integration time 0 the program never ends (radau_main_empty); what is printed depends on the previous turns through faccon only. SymplecticRK stops by exactly one of end and exception (symp_main_outcome); the exception is not caught, and whether the lines given to the stream before it reach the file is not determined. |
| C119 | Convergence of order four of ROCK4 on nonlinear problems | Model/Rock4 and the tables as they are; Spec/PolyField: polynomial field over any real algebra, solution on an interval; Spec/Elem: the eight elementary differentials | Lemmas/Germ: bounded functions of (start, length) modulo those at most C h^5 form a ring in which the order theorem of C81 applies; Lemmas/GermFlow: the truncated series differs from the solution by C h^5 (Gronwall); Lemmas/GermErr: local error, local error with the defects of the conditions kept apart (8e-14 D h), Lipschitz constant 1+Lh+Ch^2 on balls, accumulation; induction over the transitions | **proved**. Exact arithmetic with the printed coefficients, real data, shipped tables. The constant C is not explicit: it depends on the polynomials and on the solution, and is found only in front of powers of h. The bound is only claimed when it is at most 1 (so that the values stay near the solution); nothing is said about tolerances. |
| C120 | Convergence of Rodas on nonlinear problems | Model/Rodas as it is; PolyProb: the problem object belongs to the polynomial field, exact or numerical Jacobian | Lemmas/RosSer: series of a Rosenbrock step from its order conditions (C41) in the ring of C119; Lemmas/RosReal: existence, size and Lipschitz dependence of the stages on data and matrix; Lemmas/RosErr: local error, error of difference quotients from second derivatives; induction over the accepted steps (C40) | **proved**. Exact arithmetic with the printed coefficients, real data, linear systems solved as specified (any of the matrix classes). The constant C is not explicit, and is found only in front of powers of h. The bound is only claimed when it is at most 1; a call which throws is not covered. |
| C121 | The tables of the class Extrap extrapolate | Tables/Extrap: the 64 elements as integers with a common power of ten | reduction to powers (integral of a polynomial), integer arithmetic over the whole table by the kernel, lifted by defect8_eq | **partial**. The nodes are the row sums of the table icoeffs<8,long double>. long double: error at most 2e-26 (table printed with 33 digits, elements up to 6e3). The table for double violates the claim: it is given with 15 digits, but agrees with the other one only to a relative 1.2e-11 (q[1]: last four digits wrong, proved), and predicts with error 7e-10. The class is not used (and extrap.hpp does not compile, line 8); the tables used instead are those of C72. |
| C122 | Convergence of order five of Radau5 on nonlinear problems | Model/Radau as it is, through the run of C96 | Lemmas/Colloc: superconvergence of collocation methods over any commutative real algebra (nonlinear variation of constants done with polynomials: the derivative of the Taylor flow along the collocation polynomial is a multiple of the defect, whose low order parts are orthogonal to polynomials of degree < 2); Lemmas/SmoothTaylor: a smooth f is a polynomial with coefficients in the ring of bounded functions of (t,h), up to h^N; Lemmas/CollocReal: Taylor polynomials of the solution, existence of the stages by contraction, the lemma in that ring, time added as an unknown; Props/RadauNonlin: orthogonality of the nodes of the code, comparison of stages, induction over the run | **proved**. Exact arithmetic with the printed constants, real data, linear systems solved as specified (any of the matrix classes). The stopping test of the Newton iteration is not used: what it leaves enters the bound as the defect of the steps made (the same quantity as in C116). That the stage increments stay below rho is a hypothesis on the run: Newton may converge to stages far away, which solve the equations as well. |
| C123 | Order 2s of SymplecticRK | models of C67-C74 over floating point numbers (C71), tables as in the source | Tables/GaussCert.lean: 90 digits of nodes, matrix and weights, checked in the kernel: the shifted Legendre polynomial changes sign next to each node, the order conditions hold to 85 digits; Lemmas/GaussExact.lean: the exact nodes by the intermediate value theorem, orthogonality of the Legendre polynomial, stability of the moment equations (nodes at least 1/100 apart); superconvergence of C122 (Lemmas/CollocReal) gives the local error; Props/SympOrder.lean: iterates stay in the neighbourhood, comparison with the stages of the exact method, compensated summation as in C109, induction over the calls | **proved**. Exponents without bound (no overflow, no underflow), Double=double or both long double (narrow is the identity), successful calls, first=true as in test/main.cc. h0 and C are not explicit; C is found only in front of h^(2s). The bound is claimed while it, plus the movement of the iterates, is below the radius of the neighbourhood. |
| C124 | SymplecticRK on the shipped Kepler problem | kepler, keplerH, keplerInit of Model/SympTest.lean, keplerFl of Model/SympKepler.lean, keplerHFl of Model/KeplerMain.lean (Kepler2.hpp), SympLoop of Model/Mains, models of C123 | Props/SympKepler.lean: angular momentum and energy are constant, hence the distance to the origin and the velocity are bounded; Lipschitz constant of the force by the mean value theorem on segments; Picard-Lindelof with a time step which depends on l and E only, glued by induction; then C123 with these constants; Props/KeplerMain.lean: induction over the loop of main, Lipschitz constant and rounding errors of H | **proved**. kepler_main: the file of test/main.cc with the class Kepler2, both kinds of lines. Exponents without bound, Double=double, successful calls, first=true. kepler_order is for any way to compute the right hand side, kepler_program for that of Kepler2.hpp; pow of the library is a parameter with error of at most one unit in the last place. h0 and C are not explicit; C is found only in front of h^(2s). The equations are those of Kepler with time reversed (C89). circle_order: all hypotheses met on the unit circle. |
| C125 | Convergence of order four of ROCK4 on smooth problems | Model/Rock4 and the tables as they are; Model/StiffTest (fisherRhs); Spec/ElemSmooth: elementary differentials from partial derivatives | Lemmas/SmoothField, SmoothFlow: in the ring of C119 a smooth field is a cubic with coefficients the classes of its derivatives along the solution, up to h^4 (Taylor on the compact neighbourhood of the solution, C122; cut to 0 outside for long steps); Lemmas/RockSmooth: the increment of a step as a term, its expansion and its dependence on the starting point by induction on the term (mean value theorem for four points); induction over the accepted steps as in C119; Props/FisherExist: Picard-Lindelöf with the global Lipschitz constant rho(), range by the first exit time | **proved**. Exact arithmetic with the printed coefficients, real data, shipped tables. C is not explicit and is found only in front of powers of h and in the condition C H <= 1. The bound is only claimed when it is at most rho/2. rock4_fisher: from every state strictly between 0 and 1 (the solution exists and stays there). For the initial data of the shipped program (ones and zeros, where the clipped term has a kink) only the existence and the range of the solution are proved (fisher_shipped), not the order. |
| C126 | SymplecticRK on the planetary problems | Model/Planets.lean (init), Model/PlanetsFl.lean (operator() with rounding, one component at a time), Model/PlanetsLoop.lean (its loops on arrays), Model/SympFlat.lean (step whose evaluations set delta and e to zero), Model/SympTest.lean (constructors, field), models of C123; Spec/NBody | Props/SympPlanets.lean: loop invariants for init, the three tables checked entry by entry; Lipschitz constant of the force of a pair from an algebraic identity; compactness; Picard-Lindelof with the ball; then C123; Props/SympPlanetsFl.lean: products of factors 1+delta, sums by induction over the loops; Props/SympFlat.lean: the loops commute with setting delta, e, a, hence a step from e=0; Props/SympPlanetsLoop.lean: loop invariants, the two models of the evaluations run side by side; Props/MainsFlat.lean: induction over the loop of main; Props/PlanetsEnergy.lean: Lipschitz constant of the energy, C89 and the mean value theorem for the solution; Model/PlanetsHam.lean, Props/PlanetsHam.lean: H with rounding, sums in the order of the loops | **partial**. planets_main_partial: the same for every line of values written to the file by the loop of test/main.cc; planets_main_energy_partial: their energy, that of Spec/NBody; planets_main_H_partial: the lines with H, which leaves out the pairs of neighbours (C89), so that it is not constant. planets_flat_partial (with Odes.Symp.symp_zeroed_order and stepZ_iff): the members v, Y, Y1, delta, e, a taken to lie one after the other, so that delta and e are zero after the evaluations of every iteration (evalsL_evalsZ: with every operation rounded, the loops of Outer.hpp on this block of memory have exactly this effect): the bound holds with G+kappa/h in place of G, that is one more rounding of the state per step. planets_program_partial: every operation of operator() rounded (eta explicit), but without its writes beyond the array: the shipped classes write there (negation: outer_evals_ub, C90), so the claim does not hold of the shipped program. The equations are those of Newton with time reversed (C89). init with decimal literals as real numbers; shipped_program: masses and G rounded, any floating point state near the one of init. L contains 1/mu, 3e8 with the rounded mass of Pluto: the bound is meaningful for very small steps only. |

## Other faults seen in the text, without a theorem

* Rock4-NG/test/main.cc 41-62: after an exception the program prints "ok" and writes "Results at the end of the
  integration" (C118).
* SymplecticRK/test/main.cc 33: `it<years*365.25*h` should be `it*h<years*365.25` (C118).
* SymplecticRK/test/main.cc: `firstep` stays true (SymplecticRK.hpp 71, `firstStep=false` is commented out), so the
  extrapolation (C72) is never used by the program; the loop runs `years*365.25*h` steps (correct for h=1 only).
* SymplecticRK/include/extrap.hpp 8: `Class` instead of `class`; the file cannot be compiled (it is not included).

## Mutation tests

`seeded/LOG.jsonl` records edits of the model made in a scratch copy (realistic bugs: wrong index, dropped
update, changed comparison, ...), the theorems which stop to hold, and the theorems tightened when an edit went unnoticed.
