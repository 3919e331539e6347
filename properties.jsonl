{"id": "C01", "title": "Banded storage is LAPACK's band layout", "statement": "Writing and reading entry (i,j) of a banded matrix through the public indexing operator addresses exactly the cell AB(kl+ku+1+i-j, j) that LAPACK's dgbtrf/zgbtrf expect: always inside the allocated buffer, two different band entries never share a cell, and the kl fill-in rows reserved for pivoting are never addressed.", "quantifier": "every n, kl, ku and every (i,j) inside the band", "why_tests_cant": "the index arithmetic is a template-constant expression over unbounded n, kl, ku; a test fixes finitely many triples", "anchors": ["common/include/fortranRectangularArray.hpp:fortranRectangularArray::operator()", "common/include/fortranRectangularComplexArray.hpp"]}
{"id": "C02", "title": "Full real and complex storage is column major without overlap", "statement": "For a full n x n real matrix, (i,j) maps bijectively onto the n*n buffer in Fortran column-major order; for a complex one Re(i,j) and Im(i,j) map bijectively onto the 2*n*n buffer as consecutive doubles (the layout zgetrf expects), and set(i,j,v) makes Re=v, Im=0 and touches nothing else.", "quantifier": "every n and every pair of index pairs", "why_tests_cant": "needs injectivity/surjectivity for all n", "anchors": ["common/include/fortranArray.hpp:fortranArray::operator()", "common/include/fortranComplexArray.hpp:set,Re,Im"]}
{"id": "C03", "title": "Newton matrices are assembled as specified", "statement": "The real matrix handed to the factorisation is fac*I - J and the complex one is (alpha+i*beta)*I - J on every entry of the (band of the) Jacobian, for full, banded and Hessenberg storage; no entry of the Jacobian itself is modified by assembling.", "quantifier": "every n, band widths, Jacobian contents, previous buffer contents, fac, alpha, beta", "why_tests_cant": "the buffers are reused between calls with arbitrary leftovers; a test sees finitely many", "anchors": ["common/include/Matrices.hpp:decomr,decomc", "common/include/fortranArray.hpp:equal_minus,addDiag", "common/include/fortranRectangularArray.hpp:equal_minus,addDiag"]}
{"id": "C04", "title": "put() copies a vector to the caller's array", "statement": "After v.put(a), a[i] equals the i-th component of v for all i, and v is unchanged.", "quantifier": "every size, every vector contents, every prior contents of the array", "why_tests_cant": "must hold for every content; a test with equal contents passes vacuously", "anchors": ["common/include/fortranVector.hpp:fortranVectorF::put"]}
{"id": "C05", "title": "Address switching never aliases or leaks buffers", "statement": "After any sequence of switchadr operations between work vectors, every vector still owns exactly one buffer, no two vectors share a buffer, the contents are exchanged exactly, and destroying all vectors frees every buffer exactly once.", "quantifier": "every number of vectors, every sequence of switches", "why_tests_cant": "depends on the whole history of switches performed by the step controller", "anchors": ["common/include/fortranVector.hpp:fortranVectorF::switchadr", "common/include/switchAdr.hpp"]}
{"id": "C06", "title": "Assigning one dynamically sized vector to another is memory safe", "statement": "For two vectors constructed with a size, a=b copies the contents and both vectors remain valid and are freed exactly once when destroyed.", "quantifier": "every size and contents", "why_tests_cant": "memory errors of this kind may go unnoticed at run time", "anchors": ["common/include/fortranVector.hpp:fortranVector::operator=(fortranVector)"]}
{"id": "C07", "title": "Real Hessenberg factorisation + solve solves the system", "statement": "If the Hessenberg factorisation reports success, the subsequent solve returns the exact solution of A x = b (exact arithmetic) where A is the upper-Hessenberg part of the input; whatever is stored below the first subdiagonal is irrelevant.", "quantifier": "every n >= 1, every matrix, every right hand side over an ordered field", "why_tests_cant": "all n and all pivoting patterns", "anchors": ["common/include/Hessenberg.hpp:dech,solh"]}
{"id": "C08", "title": "Hessenberg factorisation detects singularity exactly", "statement": "The factorisation returns 0 if and only if the Hessenberg matrix is non singular (exact arithmetic).", "quantifier": "every n and matrix", "why_tests_cant": "all pivoting patterns and all n", "anchors": ["common/include/Hessenberg.hpp:dech"]}
{"id": "C09", "title": "Complex Hessenberg factorisation + solve solves the system", "statement": "If the complex Hessenberg factorisation reports success, the subsequent complex solve returns the exact solution of (Ar+i*Ai) x = b.", "quantifier": "every n, every pair of matrices, every right hand side", "why_tests_cant": "a branch taken only when a pivot-row entry is purely imaginary is essentially never met by random tests", "anchors": ["common/include/Hessenberg.hpp:dechc,solhc"]}
{"id": "C10", "title": "A singular complex Newton matrix is reported", "statement": "Whenever the complex matrix of the Newton iteration is found singular by the factorisation an exception is raised, as it is for the real one and for full/banded storage.", "quantifier": "every Jacobian and shift for which the factorisation reports failure", "why_tests_cant": "needs a singular shifted Jacobian", "anchors": ["common/include/Matrices.hpp:Matrices<true,true>::decomc", "common/include/Hessenberg.hpp:dechc"]}
{"id": "C11", "title": "Householder back-transformation is orthogonal and inverts itself", "statement": "For elementary reflectors as produced by dgehrd, applying the transformation forward computes Q^T x and backward computes Q x, so backward after forward is the identity; the loop terminates and stays in bounds.", "quantifier": "every n >= 1, every reflector data with tau*(v.v)=2 or tau=0, every x", "why_tests_cant": "all n including n=1,2 where the loop bounds degenerate", "anchors": ["common/include/Hessenberg.hpp:householder"]}
{"id": "C12", "title": "Hessenberg solver solves the original system", "statement": "With Hessenberg reduction enabled, factorise+solve returns the solution of the original system (fac*I - J) z = b, given that dgehrd satisfies J = Q H Q^T.", "quantifier": "every n >= 2, J, fac, b", "why_tests_cant": "all sizes and matrices", "anchors": ["common/include/Matrices.hpp:Matrices<true,true>::decomr,solvereal", "common/include/Hessenberg.hpp"]}
{"id": "C13", "title": "Invalid band widths are rejected", "statement": "Constructing a banded solver with nsub >= n or nsup >= n raises an exception, so the band loops never leave the matrix.", "quantifier": "every n, nsub, nsup", "why_tests_cant": "ranges over all template parameters", "anchors": ["common/include/Matrices.hpp:Matrices<false,false>::Matrices"]}
{"id": "C14", "title": "Complex solve interleaving", "statement": "For full and banded storage the complex solve passes to LAPACK the interleaved vector (Re,Im) and stores back its solution, so that (zr + i zi) solves (alpha+i beta - J) z = b whenever LAPACK's solve is correct.", "quantifier": "every n, every right hand side", "why_tests_cant": "all n", "anchors": ["common/include/Matrices.hpp:solvecomplex"]}
{"id": "C15", "title": "Event log is faithful", "statement": "The log text for a filter lists exactly the events recorded since the last clear whose kind matches, in recording order, numbered consecutively from 1; clearing empties it.", "quantifier": "every sequence of put/clear operations and every filter", "why_tests_cant": "ranges over all histories", "anchors": ["common/include/logger.hpp"]}
{"id": "C16", "title": "Radau5 returns only at xend", "statement": "When the Radau5 call returns normally (one-step mode off) the time argument equals the requested final time.", "quantifier": "every RHS, tolerance, setting, start, end and initial step (exact arithmetic)", "why_tests_cant": "depends on the whole accept/reject/Newton-failure history", "anchors": ["Radau5-NG/include/Radau5cc.hpp:operator()"]}
{"id": "C17", "title": "Radau5 respects the step limit", "statement": "After more than nmax steps have been attempted, Radau5 stops with an exception; the step counter never exceeds nmax+1 and the call always terminates.", "quantifier": "every RHS including non-finite values, every nmax", "why_tests_cant": "termination for all RHS", "anchors": ["Radau5-NG/include/Radau5cc.hpp:operator()", "Radau5-NG/include/Radau5cc.hpp:setNmax"]}
{"id": "C18", "title": "Radau5 only uses converged Newton iterates", "statement": "Every accepted step uses stage values for which the Newton iteration of that attempt (same step size) reported convergence.", "quantifier": "every RHS and setting", "why_tests_cant": "needs an attempt that fails by iteration limit after an earlier success", "anchors": ["Radau5-NG/include/Radau5cc.hpp:operator()", "Radau5-NG/include/Radau5cc.hpp:Newton"]}
{"id": "C19", "title": "setFacrFacl takes effect", "statement": "After setFacrFacl(r,l) subsequent integrations keep consecutive step ratios within the limits given by the caller.", "quantifier": "every r,l, RHS and history of setter calls", "why_tests_cant": "history of setter calls then integration", "anchors": ["Radau5-NG/include/Radau5cc.hpp:setFacrFacl", "Radau5-NG/include/Radau5cc.hpp:operator()"]}
{"id": "C20", "title": "Radau5 one-step mode advances x together with y", "statement": "In one-step mode the returned (x, y) are consistent: y is the numerical solution at the returned x, and the accepted step is counted.", "quantifier": "every RHS, settings", "why_tests_cant": "all RHS", "anchors": ["Radau5-NG/include/Radau5cc.hpp:performOnlyOneStep", "Radau5-NG/include/Radau5cc.hpp:operator()"]}
{"id": "C21", "title": "Backward integration", "statement": "Integrating from x to xend < x steps monotonically from x to xend with |h| at most |xend-x|.", "quantifier": "every x > xend", "why_tests_cant": "the failure depends on signs of x and xend", "anchors": ["Radau5-NG/include/Radau5cc.hpp:operator()", "Radau5-NG/include/Radau5cc.hpp:ABS", "Rodas-NG/include/Rodascc.hpp:operator()"]}
{"id": "C22", "title": "Radau5 never steps outside the interval (forward)", "statement": "Integrating forward, every accepted time lies in [x0, xend], times strictly increase and every tried step satisfies 0 < h <= xend-x0.", "quantifier": "every RHS incl. non finite values, every setting within documented ranges", "why_tests_cant": "all accept/reject histories", "anchors": ["Radau5-NG/include/Radau5cc.hpp:operator()"]}
{"id": "C23", "title": "Radau5 counters are consistent", "statement": "accepted + rejected <= steps, Jacobians <= factorisations, every accepted step was attempted, and the counters restart at each call.", "quantifier": "every RHS and history", "why_tests_cant": "all histories", "anchors": ["Radau5-NG/include/Radau5cc.hpp:getNstep,getNaccpt,getNrejct,getNJac,getNdec"]}
{"id": "C24", "title": "Radau5 function-call count is exact", "statement": "getNfoncCalled equals the number of times the RHS was evaluated during the last call.", "quantifier": "every RHS and history", "why_tests_cant": "all histories", "anchors": ["Radau5-NG/include/Radau5cc.hpp:getNfoncCalled", "Radau5-NG/include/Radau5cc.hpp:estrad"]}
{"id": "C25", "title": "Numerical Jacobian leaves the state intact and is exact for affine systems", "statement": "The finite-difference Jacobian restores y exactly, writes only entries inside the band, makes n RHS calls, and equals the matrix for every affine RHS whose matrix lies in the band.", "quantifier": "every n, band, y, affine RHS (exact arithmetic)", "why_tests_cant": "all n, band widths and matrices", "anchors": ["Radau5-NG/include/Radau5cc.hpp:Jacobian", "Rodas-NG/include/Rodascc.hpp:Jacobian"]}
{"id": "C26", "title": "Radau5 step size selection is bounded", "statement": "After an accepted step the next step is between 1/5 and 8 times the previous one (unless it is cut to end exactly at xend) and, when the step was accepted after a rejection, not larger than it; an error-test rejection strictly reduces |h|: to 1/10 before the first acceptance, to at least 1/5 afterwards; a Newton failure halves h or multiplies it by a factor in [0.8*20^(-1/4), 0.8].", "quantifier": "every error estimate, Newton count, safety factor in (0,1)", "why_tests_cant": "continuous inputs", "anchors": ["Radau5-NG/include/Radau5cc.hpp:operator()"]}
{"id": "C27", "title": "Radau5 tolerance policy", "statement": "Vector tolerances with identical entries behave as the scalar tolerance; internally rtol' = 0.1 rtol^(2/3), atol' = rtol' atol/rtol.", "quantifier": "every n, tolerances", "why_tests_cant": "all n and values", "anchors": ["Radau5-NG/include/Radau5cc.hpp:setTestPolicy"]}
{"id": "C28", "title": "setFnewt keeps a usable Newton criterion", "statement": "setFnewt rejects values <= uround/rtol' and otherwise the value is used for all later Newton iterations until tolerances are reset; defaults always satisfy the bound.", "quantifier": "every value, every history of setter calls", "why_tests_cant": "histories of setters", "anchors": ["Radau5-NG/include/Radau5cc.hpp:setFnewt", "Radau5-NG/include/Radau5cc.hpp:setTestPolicy"]}
{"id": "C29", "title": "Radau5 calls are independent of earlier calls", "statement": "Calling the integrator twice on one object with the same arguments and settings gives the same results as on a fresh object.", "quantifier": "every history of earlier calls", "why_tests_cant": "histories", "anchors": ["Radau5-NG/include/Radau5cc.hpp:operator()", "Radau5-NG/include/Radau5cc.hpp:Newton"]}
{"id": "C30", "title": "A NaN error estimate is not accepted (Radau5)", "statement": "A step whose error estimate is not a number is never accepted.", "quantifier": "every RHS with non finite values", "why_tests_cant": "NaN injection at one point of the history", "anchors": ["Radau5-NG/include/Radau5cc.hpp:estrad", "Radau5-NG/include/Radau5cc.hpp:operator()"]}
{"id": "C31", "title": "getLastTimeStep is defined after Radau5", "statement": "After a normal return getLastTimeStep returns a step size computed during this call.", "quantifier": "every RHS and interval", "why_tests_cant": "depends on the first step being the last", "anchors": ["Radau5-NG/include/Radau5cc.hpp:getLastTimeStep", "Radau5-NG/include/Radau5cc.hpp:operator()"]}
{"id": "C32", "title": "Radau5 Newton loop is bounded", "statement": "Each Newton loop performs at most nit iterations for every documented nit >= 1 and the integrator can make progress for every such nit.", "quantifier": "every nit >= 1, RHS", "why_tests_cant": "all nit and RHS", "anchors": ["Radau5-NG/include/Radau5cc.hpp:Newton", "Radau5-NG/include/Radau5cc.hpp:setMaxIterationsNewton"]}
{"id": "C33", "title": "Radau IIA constants", "statement": "The constants (nodes, eigenvalue data U1, ALPH +- i BETA, transformation T and TI, error weights) are those of the 3-stage Radau IIA method: U1 and ALPH+-iBETA are the eigenvalues of the inverse RK matrix and T, TI are inverse to each other and block-diagonalise it up to the printed precision.", "quantifier": "finite table, real-algebraic identities", "why_tests_cant": "exact algebraic identity cannot be established by floating point evaluation", "anchors": ["Radau5-NG/include/Radau5cc.hpp:Radau5cc"]}
{"id": "C34", "title": "Radau5 Newton step solves the stage equations for linear problems", "statement": "For every linear system with exact Jacobian, and linear solvers which solve their systems (full and banded storage), the simplified Newton iteration yields, after one iteration from any starting value, stage values solving the Radau IIA stage equations.", "quantifier": "every n, matrix, step size, starting values", "why_tests_cant": "all n and matrices", "anchors": ["Radau5-NG/include/Radau5cc.hpp:slvrad", "Radau5-NG/include/Radau5cc.hpp:Newton"]}
{"id": "C35", "title": "Rodas delivers the solution", "statement": "When Rodas returns, the caller's array holds the numerical solution at the returned time.", "quantifier": "every RHS, initial value", "why_tests_cant": "all inputs", "anchors": ["Rodas-NG/include/Rodascc.hpp:operator()", "common/include/fortranVector.hpp:put"]}
{"id": "C36", "title": "Rodas vector tolerances", "statement": "With vector tolerances component i uses the caller's i-th absolute and relative tolerance and nothing outside the caller's arrays is read.", "quantifier": "every n and tolerance arrays", "why_tests_cant": "out of bounds read by one is invisible in ordinary tests", "anchors": ["Rodas-NG/include/Rodascc.hpp:setTestPolicy"]}
{"id": "C37", "title": "Rodas returns only at xend", "statement": "When Rodas returns normally (one-step mode off), x equals xend; forward, every accepted time lies in the interval and times strictly increase.", "quantifier": "every RHS incl. non finite, every start, end and step (exact arithmetic)", "why_tests_cant": "all histories", "anchors": ["Rodas-NG/include/Rodascc.hpp:operator()"]}
{"id": "C38", "title": "Rodas respects the step limit and terminates", "statement": "After more than nmax steps Rodas stops with an exception; every call terminates.", "quantifier": "every RHS including non-finite values", "why_tests_cant": "termination", "anchors": ["Rodas-NG/include/Rodascc.hpp:operator()", "Rodas-NG/include/Rodascc.hpp:setNmax"]}
{"id": "C39", "title": "Rodas step size selection", "statement": "hnew/h lies in [1/5,6] for every error estimate, a rejected step shrinks h, after a rejection the next accepted step is not enlarged.", "quantifier": "every error estimate and safety factor in (0,1]", "why_tests_cant": "continuous inputs", "anchors": ["Rodas-NG/include/Rodascc.hpp:operator()"]}
{"id": "C40", "title": "Rodas stages solve the Rosenbrock equations", "statement": "Every stage vector returned satisfies (I/(h*gamma) - J) k_i = F(x + alpha_i h, y + sum a_ij k_j) + sum (c_ij/h) k_j + h d_i dF/dx, and the new value is y + sum a_6j k_j + k_6, for the three coefficient sets.", "quantifier": "every n, RHS, h, method 1..3", "why_tests_cant": "all n and RHS", "anchors": ["Rodas-NG/include/Rodascc.hpp:operator()", "Rodas-NG/include/Rodascc.hpp:slvrod"]}
{"id": "C41", "title": "Rodas coefficient tables are consistent Rosenbrock methods", "statement": "The three coefficient sets satisfy the relation between a, c, gamma, alpha and d and the order conditions up to order 4 to the printed precision.", "quantifier": "the three finite tables", "why_tests_cant": "rounded evaluation cannot certify", "anchors": ["Rodas-NG/include/Rodascc.hpp:rocoe"]}
{"id": "C42", "title": "Autonomous problems: both modes agree", "statement": "For a RHS that does not depend on x the autonomous and the (numerically differentiated) non-autonomous modes produce the same stages.", "quantifier": "every autonomous RHS", "why_tests_cant": "all RHS", "anchors": ["Rodas-NG/include/Rodascc.hpp:DF_X", "Rodas-NG/include/Rodascc.hpp:slvrod"]}
{"id": "C43", "title": "Rodas counters are consistent", "statement": "getNstep = accepted + rejected, factorisations = steps.", "quantifier": "every RHS", "why_tests_cant": "all histories", "anchors": ["Rodas-NG/include/Rodascc.hpp:getNstep,getNaccpt,getNrejct"]}
{"id": "C44", "title": "getLastTimeStep reports the last step used (Rodas)", "statement": "After a normal return getLastTimeStep is the size of the last step taken.", "quantifier": "every RHS and interval", "why_tests_cant": "all histories", "anchors": ["Rodas-NG/include/Rodascc.hpp:getLastTimeStep"]}
{"id": "C45", "title": "Empty interval is a no-op", "statement": "Integrating from x to x returns immediately leaving y unchanged (Radau5, Rodas, Rock4).", "quantifier": "every x, y, RHS", "why_tests_cant": "special case with division by zero", "anchors": ["Rodas-NG/include/Rodascc.hpp:operator()", "Radau5-NG/include/Radau5cc.hpp:operator()", "Rock4-NG/include/Rock4.hpp:operator()"]}
{"id": "C46", "title": "Rock4 reaches the end time exactly and never overshoots", "statement": "On normal return t = tend, all accepted times lie in [t0,tend]; if t0 >= tend the state is untouched.", "quantifier": "every RHS incl. non finite, spectral radius estimates, tolerances, initial step (exact arithmetic)", "why_tests_cant": "all histories", "anchors": ["Rock4-NG/include/Rock4.hpp:operator()"]}
{"id": "C47", "title": "Rock4 terminates", "statement": "Every Rock4 call on a finite interval returns or raises an exception after finitely many steps.", "quantifier": "every RHS incl. NaN/inf values and every spectral radius estimate", "why_tests_cant": "termination", "anchors": ["Rock4-NG/include/Rock4.hpp:operator()"]}
{"id": "C48", "title": "Rock4 table accesses are in range", "statement": "Every access to the coefficient tables made during any step is inside the table, and belongs to the formula of the chosen degree.", "quantifier": "every step size, spectral radius", "why_tests_cant": "depends on computed degree", "anchors": ["Rock4-NG/include/Rock4.hpp:mdegre,kernel", "Rock4-NG/include/ToolOMP.hpp:apply,cl", "Rock4-NG/include/Rock4Coeffs.hpp"]}
{"id": "C49", "title": "Rock4 stage number covers the spectrum", "statement": "For the step size used, 0.353*(stages)^2 >= 3 + h*rho: the stability interval of the chosen formula covers h*rho.", "quantifier": "every h, rho", "why_tests_cant": "continuous inputs, rounding up and capping interact", "anchors": ["Rock4-NG/include/Rock4.hpp:operator()", "Rock4-NG/include/Rock4.hpp:mdegre"]}
{"id": "C50", "title": "Rock4 keeps the spectral radius current", "statement": "The spectral radius estimate is renewed at least once every 10 attempted steps.", "quantifier": "every accept/reject sequence", "why_tests_cant": "depends on parity of counter after rejections", "anchors": ["Rock4-NG/include/Rock4.hpp:operator()"]}
{"id": "C51", "title": "Rock4 buffers stay disjoint", "statement": "At all times the user's array and the work arrays are distinct buffers; on normal return the user's pointer designates the solution, and every buffer is freed exactly once by user and destructor together.", "quantifier": "every accept/reject and degree sequence", "why_tests_cant": "pointer permutation depends on history", "anchors": ["Rock4-NG/include/Rock4.hpp:operator(),kernel", "common/include/switchAdr.hpp"]}
{"id": "C52", "title": "Rock4 kernel computes the ROCK4 formula", "statement": "One kernel call computes the three-term recurrence of the selected degree followed by the 4-stage finishing method, and the embedded error norm, irrespective of buffer contents.", "quantifier": "every n, degree, RHS, y, h", "why_tests_cant": "all degrees and RHS", "anchors": ["Rock4-NG/include/Rock4.hpp:kernel", "Rock4-NG/include/ToolOMP.hpp"]}
{"id": "C53", "title": "Rock4 rejected steps have no effect on the state", "statement": "After a rejected step y and the stored F(y) are unchanged; at every step start the stored derivative equals F(y).", "quantifier": "every history", "why_tests_cant": "all histories", "anchors": ["Rock4-NG/include/Rock4.hpp:operator()"]}
{"id": "C54", "title": "Rock4 counters", "statement": "NbSteps = NbAccepted + NbRejected, NbRhsComputed is the exact number of RHS evaluations.", "quantifier": "every history", "why_tests_cant": "all histories", "anchors": ["Rock4-NG/include/Rock4.hpp:NbSteps,NbAccepted,NbRejected,NbRhsComputed"]}
{"id": "C55", "title": "Rock4 NbStages counts both methods", "statement": "NbStages returns the number of stages of the last step counting both the recurrence and the finishing method.", "quantifier": "every history", "why_tests_cant": "all degrees", "anchors": ["Rock4-NG/include/Rock4.hpp:NbStages"]}
{"id": "C56", "title": "Rock4 OpenMP build computes the same result", "statement": "With OpenMP the element-wise loops and the error norm give the sequential result under every schedule.", "quantifier": "every interleaving of threads", "why_tests_cant": "schedules", "anchors": ["Rock4-NG/include/ToolOMP.hpp:rpp2,apply,cl,ct"]}
{"id": "C57", "title": "Rock4 error measure is scaled correctly", "statement": "The error returned is the RMS of estimate/(atol+rtol|y_new|); enlarging tolerances never enlarges it and it is never negative.", "quantifier": "every n, data, tolerances", "why_tests_cant": "continuous data", "anchors": ["Rock4-NG/include/ToolOMP.hpp:rpp2"]}
{"id": "C58", "title": "ROCK4 coefficient tables", "statement": "Both copies of the tables (adaptive and linear solver, different layouts) contain the same numbers, the degree list is strictly increasing and blocks of the recurrence table tile it; each formula is consistent (order 1 exactly up to rounding, weights and embedded weights).", "quantifier": "all 50 formulas, 4382+750 numbers", "why_tests_cant": "a finite but large table; rounding masks errors", "anchors": ["Rock4-NG/include/coeffs-rock4", "Rock4-L/include/coeffs-rock4"]}
{"id": "C59", "title": "Linear Rock4 equals Rock4 on linear problems", "statement": "On y'=Ay a step of the linear solver equals a step of the general formula with F(y)=Ay.", "quantifier": "every A, y, h, degree", "why_tests_cant": "all degrees", "anchors": ["Rock4-L/include/Rock4L.hpp:kernel1"]}
{"id": "C60", "title": "Affine Rock4L solves y'=Ay+g", "statement": "With the documented contract of the user's operator, the affine solver's step equals the general formula with F(y)=Ay+g.", "quantifier": "every A,g,y,h,degree", "why_tests_cant": "contract between documentation and code", "anchors": ["Rock4-L/include/Rock4L.hpp:kernel2"]}
{"id": "C61", "title": "Rock4L reaches tend with fixed steps", "statement": "The linear solvers reach tend exactly, every step is at most 1.01 h, and the number of steps is determined by the interval and h; too small or too large steps raise an exception.", "quantifier": "every interval and h", "why_tests_cant": "continuous inputs", "anchors": ["Rock4-L/include/Rock4L.hpp:operator()"]}
{"id": "C62", "title": "Rock4L operation count is exact", "statement": "The reported number of RHS evaluations equals the number of operator applications.", "quantifier": "every degree and number of steps", "why_tests_cant": "all degrees", "anchors": ["Rock4-L/include/Rock4L.hpp:kernel1,kernel2"]}
{"id": "C63", "title": "Linear and affine calls cannot be mixed", "statement": "Calling the affine entry point on a solver built for linear problems or vice versa raises an exception and leaves y unchanged (Rock4L, SDIRKL).", "quantifier": "every input", "why_tests_cant": "all inputs", "anchors": ["Rock4-L/include/Rock4L.hpp:operator()", "SDIRKL/include/Sdirkl.hpp:step"]}
{"id": "C64", "title": "SDIRKL step is the Runge-Kutta step of the tableau", "statement": "For any singly diagonally implicit tableau with the derived data (row sums, d = b A^-1), step() computes u + dt sum b_i k_i with k_i the exact RK stages of u' = A u (+ F).", "quantifier": "every number of stages, n, matrix, forcing, dt", "why_tests_cant": "all stage numbers and matrices", "anchors": ["SDIRKL/include/Sdirkl.hpp:step"]}
{"id": "C65", "title": "Shipped SDIRK methods are consistent", "statement": "Each shipped method has sum b_i = 1 and c = A e, d = bA^-1; the class named after Crank-Nicolson integrates with order 2.", "quantifier": "all shipped tableaux", "why_tests_cant": "finite table but depends on class invariants", "anchors": ["SDIRKL/include/CrN.hpp", "SDIRKL/include/EulerImp.hpp", "SDIRKL/include/RKMethod1.hpp", "SDIRKL/include/RKMethod2.hpp", "SDIRKL/include/RKRS.hpp"]}
{"id": "C66", "title": "SDIRKL step is linear", "statement": "step is a linear (affine) map of the state: superposition holds and zero stays zero.", "quantifier": "every state", "why_tests_cant": "all states", "anchors": ["SDIRKL/include/Sdirkl.hpp:step"]}
{"id": "C67", "title": "Symplectic coefficients follow the step size", "statement": "At each step the coefficients in use are the Gauss coefficients times the step size of this call, whatever sequence of step sizes was used before.", "quantifier": "every sequence of step sizes", "why_tests_cant": "histories", "anchors": ["SymplecticRK/include/GaussianMethod.hpp:change_h", "SymplecticRK/include/SymplecticRK.hpp:step"]}
{"id": "C68", "title": "Failed symplectic step leaves the state untouched", "statement": "If step returns false, u is unchanged and a later step is not influenced through the compensation.", "quantifier": "every RHS incl. non-finite", "why_tests_cant": "all RHS", "anchors": ["SymplecticRK/include/SymplecticRK.hpp:step"]}
{"id": "C69", "title": "Successful symplectic step is a converged fixed point", "statement": "If step returns true the last residual is below the threshold and not smaller than the preceding one (no longer decreasing) and at least two iterations were made.", "quantifier": "every RHS", "why_tests_cant": "all RHS", "anchors": ["SymplecticRK/include/SymplecticRK.hpp:step", "SymplecticRK/include/Ftest.hpp"]}
{"id": "C70", "title": "Quadratic invariants are preserved", "statement": "When the stage equations are solved exactly and the tableau satisfies b_i a_ij + b_j a_ji = b_i b_j, every quadratic first integral is preserved exactly; with the shipped tables the defect is bounded by the printed precision.", "quantifier": "every n, RHS with quadratic invariant, h", "why_tests_cant": "all RHS", "anchors": ["SymplecticRK/include/GaussianMethod.hpp", "SymplecticRK/include/icoeffs.hpp"]}
{"id": "C71", "title": "Compensated summation loses nothing", "statement": "In exact arithmetic the compensation stays zero; in any arithmetic with exact error-free subtraction u+e advances by exactly the increment.", "quantifier": "every history", "why_tests_cant": "histories", "anchors": ["SymplecticRK/include/SymplecticRK.hpp:step"]}
{"id": "C72", "title": "Extrapolated starting values stay in bounds and extrapolate", "statement": "The extrapolation reads only stage data of the previous step for the same component, inside the buffers, and reproduces constant slopes exactly.", "quantifier": "every n and stage number", "why_tests_cant": "depends on relation of n and the number of stages", "anchors": ["SymplecticRK/include/Extrap.hpp", "SymplecticRK/include/SymplecticRK.hpp:step"]}
{"id": "C73", "title": "Unsupported stage numbers are rejected", "statement": "Constructing the method with a number of stages outside 2..16 raises an exception; inside, all tables exist with the right size.", "quantifier": "every number of stages", "why_tests_cant": "all template parameters", "anchors": ["SymplecticRK/include/GaussianMethod.hpp"]}
{"id": "C74", "title": "maxIter reports the iterations performed", "statement": "After a successful step maxIter is the number of fixed point iterations carried out.", "quantifier": "every RHS", "why_tests_cant": "all RHS", "anchors": ["SymplecticRK/include/SymplecticRK.hpp:maxIter"]}
{"id": "C75", "title": "Copies of work vectors and matrices are independent objects", "statement": "Copying a work vector or a matrix (and hence a solver object containing them) gives an object with its own storage: both can be used, written and destroyed independently.", "quantifier": "every vector, every contents", "why_tests_cant": "double frees and aliasing may go unnoticed at run time", "anchors": ["common/include/fortranVector.hpp:fortranVectorF", "common/include/fortranArray.hpp:fortranArray(const fortranArray&)", "common/include/fortranRectangularArray.hpp"]}
{"id": "C76", "title": "Backward integration reaches xend", "statement": "Called with xend < x, Rodas integrates backward and returns with x = xend.", "quantifier": "every RHS, every x0 > xend", "why_tests_cant": "sign handling is spread over macros", "anchors": ["Rodas-NG/include/Rodascc.hpp:operator()"]}
{"id": "C77", "title": "getfirstAcceptedStep reports the first accepted step", "statement": "After a return of Rodas or Radau5, getfirstAcceptedStep is the size of the first step accepted during the call.", "quantifier": "every RHS, every history", "why_tests_cant": "all histories", "anchors": ["Rodas-NG/include/Rodascc.hpp:getfirstAcceptedStep", "Radau5-NG/include/Radau5cc.hpp:getfirstAcceptedStep"]}
{"id": "C78", "title": "Radau5 extrapolated starting values", "statement": "After an accepted step the starting values of the next Newton iteration are those of the cubic polynomial interpolating the accepted step (its beginning and its three stages).", "quantifier": "every solution polynomial, every pair of step sizes", "why_tests_cant": "only the number of Newton iterations shows the difference", "anchors": ["Radau5-NG/include/Radau5cc.hpp:operator()"]}
{"id": "C79", "title": "Shipped Rock4L example operator meets its contract", "statement": "The four overloads of the example operator compute a(A in [+ g]) + b in + c s for one and the same matrix A, the Neumann Laplacian.", "quantifier": "every number of points, all vectors and scalars", "why_tests_cant": "all vectors", "anchors": ["Rock4-L/test/F.hpp:operator()"]}
{"id": "C80", "title": "rho() of the shipped Rock4L example bounds the spectrum", "statement": "The spectral radius returned by the example is at least the modulus of every eigenvalue of its matrix (the stability of the method depends on it).", "quantifier": "every number of points", "why_tests_cant": "the difference is small and only shows for particular step sizes", "anchors": ["Rock4-L/test/F.hpp:rho"]}
{"id": "C81", "title": "Order of the ROCK4 formulas", "statement": "Each of the 50 formulas of each copy of the tables satisfies all order conditions up to order 4 (embedded weights: order 3) to 1e-14: a step of length h on any smooth right hand side differs from the exact solution by terms of order h^5 and by rounding of the tables.", "quantifier": "all 50 formulas, every dimension, every right hand side with a third order Taylor expansion, every starting value", "why_tests_cant": "errors of 1e-12 in one of 5000 coefficients are invisible at test tolerances", "anchors": ["Rock4-NG/include/coeffs-rock4", "Rock4-L/include/coeffs-rock4", "Rock4-NG/include/Rock4.hpp:kernel"]}
{"id": "C82", "title": "SDIRKL is unconditionally stable on dissipative problems", "statement": "With each shipped method, for every step length, the weighted norm of the solution of u'=Lu does not increase when L is symmetric and dissipative for the weighted inner product; with a forcing term the distance of two solutions does not increase. This covers the example operator.", "quantifier": "every n, operator, step length, starting value, number of steps", "why_tests_cant": "all operators and step lengths", "anchors": ["SDIRKL/include/Sdirkl.hpp:step", "SDIRKL/include/RKMethod1.hpp", "SDIRKL/include/RKMethod2.hpp", "SDIRKL/include/RKRS.hpp"]}
{"id": "C83", "title": "Sparse arrays of the SDIRKL example represent the matrix", "statement": "The arrays handed to SuperLU are compressed columns of the assembled matrix, no index leaves the arrays, and for the example this matrix is I - gamma Delta with the Neumann Laplacian.", "quantifier": "every set of entries, every number of points", "why_tests_cant": "all matrices; an empty column shows only with other matrices than the example", "anchors": ["SDIRKL/test/Lapl/SuperLu.cpp:init", "SDIRKL/test/Lapl/BuildMatt1d.hpp", "SDIRKL/test/Lapl/Premat.hpp"]}
{"id": "C84", "title": "Order of the symplectic tables", "statement": "The shipped tables for 2 to 16 stages are those of the Gauss methods: they satisfy B(2s), C(s) and D(s) (hence order 2s) to the printed precision, for double and long double.", "quantifier": "all 30 tables", "why_tests_cant": "an error in the 12th digit of one of 3000 literals is invisible at test tolerances", "anchors": ["SymplecticRK/sage/generated_coeffs.hpp"]}
{"id": "C85", "title": "ROCK4 formulas are stable on the interval the step size control relies on", "statement": "The number of stages s is chosen so that h rho <= 0.353 s^2 - 3. Each of the 50 formulas of each copy of the tables has an amplification factor of modulus at most 1 on [-(0.353 s^2 - 3), 0]; hence on linear problems with a symmetric matrix with spectrum in [-rho,0] no step of Rock4 or Rock4L increases the norm of the solution.", "quantifier": "all 50 formulas, every real z in the interval; every symmetric matrix, step size, starting value, execution", "why_tests_cant": "the maximum of a polynomial of degree 152 over an interval cannot be sampled; the violation found occurs for three degrees only", "anchors": ["Rock4-NG/include/coeffs-rock4", "Rock4-L/include/coeffs-rock4", "Rock4-NG/include/Rock4.hpp:operator()", "Rock4-L/include/Rock4L.hpp"]}
{"id": "C86", "title": "Symplectic steps are symplectic maps", "statement": "A successful step of a Gauss method applied to a Hamiltonian system maps the initial value by a differentiable map whose derivative preserves the symplectic form, up to the error of the tables and of the stopped fixed point iteration; exactly for an exact tableau and exact stages.", "quantifier": "every dimension, Hamiltonian, bilinear skew form, step size, initial value, number of sweeps", "why_tests_cant": "preservation of a two-form is a statement about derivatives for all directions", "anchors": ["SymplecticRK/include/SymplecticRK.hpp:step", "SymplecticRK/sage/generated_coeffs.hpp"]}
{"id": "C87", "title": "Symplectic steps are time reversible", "statement": "A step with h followed by a step with -h returns to the initial value, up to the error of the tables and of the stopped iteration; exactly for an exact symmetric tableau and exact stages.", "quantifier": "every dimension, Lipschitz right hand side, step size, initial value, history of the object", "why_tests_cant": "all right hand sides; symmetry of 30 tables under a permutation of the stages", "anchors": ["SymplecticRK/include/SymplecticRK.hpp:step", "SymplecticRK/sage/generated_coeffs.hpp"]}
{"id": "C88", "title": "Symplectic step: a contracting iteration is reported as success", "statement": "When the fixed point iteration of a step is a contraction and enough iterations are allowed, step() returns true.", "quantifier": "every right hand side, step size, initial value, maximal number of iterations", "why_tests_cant": "the failure is hidden by rounding errors, on which the test silently relies", "anchors": ["SymplecticRK/include/SymplecticRK.hpp:step"]}
{"id": "C89", "title": "Symplectic test problems: H is the Hamiltonian of the equations", "statement": "In each of the four shipped problems (Kepler2, Outer, OuterNeptune, OuterUranus) operator() computes the Hamiltonian field (dH/dp, -dH/dq) of the function H of the same class, so that H is constant along exact solutions (the tests print it as a check of the method).", "quantifier": "every state without collision, any number of bodies, all masses", "why_tests_cant": "H varies slowly, the printed values look plausible", "anchors": ["SymplecticRK/test/Outer.hpp:operator()", "SymplecticRK/test/Outer.hpp:H", "SymplecticRK/test/OuterNeptune.hpp", "SymplecticRK/test/OuterUranus.hpp", "SymplecticRK/test/Kepler2.hpp"]}
{"id": "C90", "title": "Symplectic test problems write only their own result", "statement": "Called by SymplecticRK::step for stage i, operator() of the planets' classes writes n elements of Y1 from i*n on, and nothing else.", "quantifier": "any number of bodies, any number of stages, every stage", "why_tests_cant": "the overrun zeroes members of the solver and goes unnoticed", "anchors": ["SymplecticRK/test/Outer.hpp:dpdt", "SymplecticRK/include/SymplecticRK.hpp:step"]}
{"id": "C91", "title": "Symplectic steps preserve linear and angular momentum of the shipped problems", "statement": "Every step preserves the total linear momentum; with exact stages and an exact tableau also the angular momentum (planets and Kepler).", "quantifier": "any number of bodies, all masses, step sizes, states, tables", "why_tests_cant": "all states; rounding hides small errors", "anchors": ["SymplecticRK/include/SymplecticRK.hpp:step", "SymplecticRK/test/Outer.hpp:operator()", "SymplecticRK/test/Kepler2.hpp:operator()"]}
{"id": "C92", "title": "Right hand sides of the stiff test problems", "statement": "operator() of the reaction-diffusion problems KPP (Radau5, Rodas), FRadau5, BZ and FKPPOMP reads and writes only the n elements of its arrays and computes the central difference discretisation of the reaction-diffusion equation with Neumann conditions on n points.", "quantifier": "every n >= 2, all states", "why_tests_cant": "all sizes; the boundary formulas differ from the interior only at the ends", "anchors": ["Radau5-NG/test/KPP.hpp:operator()", "Rock4-L/test/FRadau5.hpp:operator()", "Radau5-NG/test/BZ.hpp:operator()", "Rodas-NG/test/KPP.hpp:operator()", "Rock4-NG/test/FKPPOMP.hpp:operator()"]}
{"id": "C93", "title": "Analytic Jacobians are the derivatives of the right hand sides", "statement": "Jacobian() of each shipped problem stores, for every pair (i,j), the partial derivative of component i of operator() with respect to y_j, and the declared numbers of sub- and superdiagonals cover all non-zero derivatives.", "quantifier": "every n, all states", "why_tests_cant": "Newton iterations and Rosenbrock steps run with a wrong Jacobian too, only slower or with reduced order", "anchors": ["Radau5-NG/test/KPP.hpp:Jacobian", "Rock4-L/test/FRadau5.hpp:Jacobian", "Radau5-NG/test/BZ.hpp:Jacobian", "Radau5-NG/test/Oregonator.hpp:Jacobian", "Rodas-NG/test/Oregonator.hpp:Jacobian", "Rodas-NG/test/KPP.hpp:Jacobian"]}
{"id": "C94", "title": "Linear invariants are kept by the stiff integrators", "statement": "If a linear combination of the components of the right hand side vanishes identically then, with the Jacobian computed by the code, every run of Rodas and of Radau5 which returns leaves the combination of the solution unchanged; E5 (y1-y2-y3) is such a problem.", "quantifier": "every n, right hand side with invariant, tolerances, run", "why_tests_cant": "all runs and right hand sides", "anchors": ["Rodas-NG/include/Rodascc.hpp:operator()", "Radau5-NG/include/Radau5cc.hpp:operator()", "Rodas-NG/test/E5.hpp:operator()", "Radau5-NG/test/E5.hpp:operator()"]}
{"id": "C95", "title": "rho() of the Fisher problem bounds the spectrum", "statement": "rho() of the Fisher-KPP problem of Rock4 is a bound for the modulus of all eigenvalues of the derivative of the right hand side for states in [0,1], the right hand side is Lipschitz with this constant there, and [0,1] is invariant (the field points inwards).", "quantifier": "every number of points, all states in [0,1]", "why_tests_cant": "all states", "anchors": ["Rock4-NG/test/FKPPOMP.hpp:rho", "Rock4-NG/test/FKPPOMP.hpp:operator()"]}
{"id": "C96", "title": "A run of Radau5 is a sequence of simplified Newton steps that pass the error test", "statement": "In exact arithmetic a run of Radau5 which returns has made a sequence of steps, each of which makes 1 to nit simplified Newton iterations for the collocation equations of the 3-stage Radau IIA method, with the difference-quotient Jacobian of a point passed before, started from zero or from the extrapolated collocation polynomial of the last step; the stage values then pass the error test (root mean square of the scaled estimate below 1).", "quantifier": "every n, right hand side, storage with solvable systems, tolerances, step sizes, history, run", "why_tests_cant": "whole runs; a wrong vector in the estimate or a stale matrix changes only efficiency or accuracy", "anchors": ["Radau5-NG/include/Radau5cc.hpp:operator()", "Radau5-NG/include/Radau5cc.hpp:estrad", "Radau5-NG/include/Radau5cc.hpp:Newton"]}
{"id": "C97", "title": "Balance laws of the stroke problem", "statement": "Along every solution of the stroke problem (AvcF) the amount of each of the five ions in a unit of volume (neurons, astrocytes, outside) is constant, and the charge of the cells of each kind minus a constant times the membrane potential is constant.", "quantifier": "all constants, all solutions", "why_tests_cant": "all solutions; a sign or factor wrong in one of 15 balances looks like physiology", "anchors": ["Radau5-NG/test/AvcF.hpp:operator()", "Rodas-NG/test/AvcF.hpp:operator()"]}
{"id": "C98", "title": "The stroke problem is defined for all meaningful states", "statement": "For positive concentrations and volume fractions operator() of AvcF never divides by zero nor takes the logarithm of a non-positive number; the recovery variables stay in [0,1].", "quantifier": "all states, all times", "why_tests_cant": "removable singularities are isolated points of the state space", "anchors": ["Radau5-NG/test/AvcF.hpp:operator()", "Radau5-NG/test/AvcF.hpp:recup", "Rodas-NG/test/AvcF.hpp:operator()"]}
{"id": "C99", "title": "A problem declared autonomous is autonomous", "statement": "If a problem class for Rodas has autonomous=true, operator() does not depend on the time (Rodas leaves out the terms with the time derivative, and loses its order otherwise).", "quantifier": "all states and times; all three methods, all step sizes", "why_tests_cant": "the result stays plausible, only the order is lost", "anchors": ["Rodas-NG/test/AvcF.hpp:autonomous", "Rodas-NG/test/AvcF.hpp:fdepol", "Rodas-NG/include/Rodascc.hpp:slvrod"]}
{"id": "C100", "title": "Rodas is unconditionally stable on dissipative linear problems", "statement": "For y'=A(y-ye), with A dissipative for some inner product, and each of the three methods, the systems solved are nonsingular and no step of any size increases the distance to the equilibrium; a step of size h divides it by h m/44 when all rates are at least m. Hence a run which returns has not increased it, for every choice of tolerances (A-stability and L-stability).", "quantifier": "every n, matrix, inner product, step size, tolerance, initial value; whole runs", "why_tests_cant": "an unstable coefficient set differs from a stable one by digits; all matrices and step sizes", "anchors": ["Rodas-NG/include/Rodascc.hpp:rocoe", "Rodas-NG/include/Rodascc.hpp:operator()", "Rodas-NG/include/Rodascc.hpp:Jacobian"]}
{"id": "C101", "title": "SDIRKL converges with its order", "statement": "For every linear problem y'=Ly+g and every time T, the arrays after k calls of step (k dt<=T) differ from the solution at time k dt by at most C dt^p, up to an explicit multiple of the error of the printed coefficients: p=4 for RKMethod1 and RKMethod2, 2 for RKRS, 1 for EulerImp; on dissipative problems the explicit term does not grow with the operator. CrN is claimed as Crank-Nicolson.", "quantifier": "every n, matrix, source, solution, T, number of calls", "why_tests_cant": "a limit, over all problems; rounding hides the last digits of the coefficients", "anchors": ["SDIRKL/include/Sdirkl.hpp:step", "SDIRKL/include/RKMethod1.hpp", "SDIRKL/include/RKMethod2.hpp", "SDIRKL/include/RKRS.hpp", "SDIRKL/include/EulerImp.hpp", "SDIRKL/include/CrN.hpp"]}
{"id": "C102", "title": "The test program of SDIRKL measures the error", "statement": "The function exactsolAtt of SDIRKL/test/main.cpp is the exact solution of the semi-discrete problem which the program integrates (no division by zero), normdiff is the l1 distance, and the numbers written tend to 0 like dt^4, up to an explicit term for the decimals of the coefficients.", "quantifier": "every size n>=2, T, beta, number of steps, contents of uninitialised memory", "why_tests_cant": "an error curve which is plausible does not show that the reference is exact", "anchors": ["SDIRKL/test/main.cpp:exact", "SDIRKL/test/main.cpp:normdiff", "SDIRKL/test/main.cpp:main"]}
{"id": "C103", "title": "Error of the ROCK4 solvers on linear problems", "statement": "Each of the 50 formulas of both tables has |R(z)-exp(z)| <= |z|^5/50 (plus 1e-14 times lower powers, for the decimals) on its stability interval. Hence for y'=Ay+b with A symmetric in a weighted scalar product and spectrum in [-rho,0], a call of Rock4L on [t0,te] with step h ends within (te-t0)(H^4/50|A^4 v| + 1e-14(|v|+H|Av|+H^2|A^2 v|+H^3|A^3 v|)) of the solution, v=y'(t0), H=1.01h, and a call of Rock4 within the sum of the corresponding terms over its accepted steps, for whatever tolerances (times the stability factor).", "quantifier": "every n, A, b, weights, rho, solution, interval, step, tolerances", "why_tests_cant": "explicit bound for all problems and all 50 formulas, whole runs; an error in the 12th digit of one coefficient of one formula is invisible", "anchors": ["Rock4-NG/include/Rock4Coeffs.hpp", "Rock4-L/include/Rock4Coeffs.hpp", "Rock4-L/include/Rock4L.hpp:operator()", "Rock4-NG/include/Rock4.hpp:operator()"]}
{"id": "C104", "title": "Error of Rodas on dissipative linear problems", "statement": "For y'=A(y-ye), with A dissipative for some inner product, and each of the three methods, a run which returns has made steps h of total length xend-x0 and ends within the sum of h(h^4/3|A^4 v| + 1e-14(|v|+h|Av|+h^2|A^2 v|+h^3|A^3 v|)) of the solution, v=y'(x0): convergence of order 4 with constants which do not depend on A, for every choice of tolerances.", "quantifier": "every n, A, inner product, solution, interval, tolerances, initial step; whole runs", "why_tests_cant": "explicit bound for all problems; order reduction or a wrong digit of a coefficient shows only for some of them", "anchors": ["Rodas-NG/include/Rodascc.hpp:rocoe", "Rodas-NG/include/Rodascc.hpp:operator()"]}
{"id": "C105", "title": "Stability and error of Radau5 on dissipative linear problems", "statement": "For y'=A(y-ye), with A dissipative for some inner product, every step of Radau5 multiplies the distance to the equilibrium by at most 1+1e-15, whatever the starting values and the number of Newton iterations are; a run which returns at x has made steps h of total length x-x0 and ends within the sum of h(h^5/125|A^5 v| + 3e-16|v|) of the solution, v=y'(x0), up to the same factors: convergence of order 5 down to the digits of the printed transformation, with constants which do not depend on A.", "quantifier": "every n, A, inner product, solution, interval, tolerances, initial step, number of iterations; whole runs", "why_tests_cant": "explicit bound for all problems; a wrong digit in the printed matrices T and T^-1 is corrected by further Newton iterations and shows only when the loop stops early", "anchors": ["Radau5-NG/include/Radau5cc.hpp:Newton", "Radau5-NG/include/Radau5cc.hpp:slvrad", "Radau5-NG/include/Radau5cc.hpp:operator()"]}
{"id": "C106", "title": "CSRLineWise::init builds compressed rows of the matrix", "statement": "The arrays ia, ja, a (indices from 1) made from the map are the compressed rows of its matrix; no element of ia is written out of bounds or left unwritten, and print lists the rows.", "quantifier": "every map with positions in 1..n, every n and field", "why_tests_cant": "all matrices; nothing in the repository calls the class, and symmetric matrices hide a transposition", "anchors": ["SDIRKL/test/Lapl/csr.cpp:init", "SDIRKL/test/Lapl/csr.cpp:print", "SDIRKL/test/Lapl/PrematOrder.hpp"]}
{"id": "C107", "title": "The test program of Rock4L compares what it claims to compare", "statement": "In Rock4-L/test/main.cpp each of the 30 calls of Rock4L returns at Tinteg without an exception, prints fixed numbers of steps and of stages, conserves the mean value and does not let the weighted norm grow (by more than 2.01% in the first and 15% in the eighth call), although rho() is too small; the search for tolerances of Radau5 ends exactly if a call succeeds, with 1e-8*2^k; normdiff is the Euclidean norm of the difference.", "quantifier": "every initial value, contents of memory, outcome of the calls of Radau5, n, vectors", "why_tests_cant": "whether a formula is stable for one of 60 step sizes does not show for one initial value; the wrong norm prints plausible numbers", "anchors": ["Rock4-L/test/main.cpp:main", "Rock4-L/test/main.cpp:normdiff", "Rock4-L/test/F.hpp:rho", "Rock4-L/test/FRadau5.hpp:init"]}
{"id": "C108", "title": "Error of Rock4L for rough initial data", "statement": "The formulas of both tables with at most 63 stages damp every component with h|lambda|>1 by at least 3 percent per step. Hence for y'=Ay+b with A symmetric in a weighted scalar product, spectrum in [-rho,0], equilibrium ye, a call of Rock4L with N>=1 full steps (and a last one) which needs at most 63 stages ends within (2.25/N^4 + 4*0.97^N + 1e-13)|y(t0)-ye| of the solution: no smoothness of the initial value, no dependence on A, rho and the dimension. In the test program this bounds the error from the ninth pass on, and by 3e-12 in the last.", "quantifier": "every n, A, b, weights, rho, initial value, interval, step", "why_tests_cant": "explicit bound for all problems and initial values; a formula which is stable but does not damp passes tests with smooth data", "anchors": ["Rock4-L/include/Rock4Coeffs.hpp", "Rock4-NG/include/Rock4Coeffs.hpp", "Rock4-L/include/Rock4L.hpp:operator()", "Rock4-L/test/main.cpp:main"]}
{"id": "C109", "title": "Error of SymplecticRK in floating point arithmetic", "statement": "Successful calls of step with first=true and a fixed step h, in binary floating point arithmetic (any p>=10 bits, round to nearest), on any problem y'=f(y) with a solution of class C^(q+2), q at most the number of stages, f Lipschitz (constant L) in a neighbourhood of radius rho of the solution and computed there with error at most eta: after N steps value plus compensation is within exp(2 beta L T)(e0 + T G) of the solution, T=Nh, where G collects the truncation error O(h^(q+1)), the printed precision of the tables (2e-12), the threshold of the stopping test, eta and the rounding errors; rounding errors are proportional to T and not to N, up to a term with the square of the unit roundoff. All fixed point iterates stay in the neighbourhood.", "quantifier": "every problem, dimension, table of 2 to 16 stages, precision, step, number of steps", "why_tests_cant": "error bound for all smooth problems and all rounding rules; a wrong coefficient in the fifth digit, a lost compensation or a stage computed from the wrong slopes passes visual tests", "anchors": ["SymplecticRK/include/SymplecticRK.hpp:step", "SymplecticRK/include/GaussianMethod.hpp", "SymplecticRK/include/Ftest.hpp", "SymplecticRK/include/generated_coeffs.hpp", "SymplecticRK/test/main.cc:main"]}
{"id": "C110", "title": "End of the interval of Rock4 and Rock4L in floating point arithmetic", "statement": "The loops while(t<tend) of Rock4L and Rock4, with the rounding errors of t+=h and tend-t: a call with 0<=t0<tend ends at t equal to tend, without passing it, without exception and after about (tend-t0)/h steps (Rock4L). Violated: (1) from -0.5 to 0.1 in one step (double precision) t ends 2^(-55) below tend and the call throws 'step too small' although the work is done, in both programs; (2) the limit 10*uround is not relative to t: from 2^30 with h=2^(-49) the loop of Rock4L never ends. Proved when the last step starts beyond tend/2: Rock4L with 1000*eps*tend <= h <= 0.49*tend and h>=200*10*uround returns at exactly tend; Rock4 never passes tend by more than 3*eps*tend, and if its accepted steps are at most 0.49*tend a call that returns ends exactly at tend.", "quantifier": "every precision, rounding rule, interval, step, answers of the error test", "why_tests_cant": "the failures depend on single bits of t0 and tend; tests use t0=0 and round numbers", "anchors": ["Rock4-L/include/Rock4L.hpp:operator()", "Rock4-NG/include/Rock4.hpp:operator()"]}
{"id": "C111", "title": "Rounding errors of the Hessenberg solver (dech, solh)", "statement": "For every floating point format with unit roundoff u and every n with n*u<=1/32: if dech returns 0 on an upper Hessenberg matrix of order n whose entries are at most M in absolute value, then the vector x computed by solh satisfies, row by row, |b-Hx| <= 3 n^2 (n+3) u M sum|x_j|; x is the exact solution of a system whose coefficients differ from those of H by at most 3 n^2 (n+3) u M (backward stability; partial pivoting on Hessenberg matrices lets the entries grow at most by a factor 8n/7), and its error is at most the row sum of |H^(-1)| times that residual.", "quantifier": "every precision, rounding to nearest, n, matrix, right hand side", "why_tests_cant": "the constant 2^(n-1) of general partial pivoting is only avoided because of the Hessenberg form; tests see a few matrices", "anchors": ["common/include/Hessenberg.hpp:dech", "common/include/Hessenberg.hpp:solh"]}
{"id": "C112", "title": "End of the interval of Rodas and Radau5 in floating point arithmetic", "statement": "For every floating point format, forward integration: all times before the return are in [x0,xend], no step of length zero is attempted (h is a divisor), and the time returned agrees with xend up to eps(|xend|+|xend-x0|) (exactly, if x0 is at least xend/2), or the rest was less than 11 uround|x|.", "quantifier": "every precision, rounding to nearest, interval, initial step, and every sequence of acceptances, rejections and new step sizes", "why_tests_cant": "depends on roundings of x+1.0001h, which agree with x+h for short steps only", "anchors": ["Rodas-NG/include/Rodascc.hpp:operator()", "Radau5-NG/include/Radau5cc.hpp:operator()"]}
{"id": "C113", "title": "The log describes the run", "statement": "After a call of Radau5, Rodas or Rock4 compiled with its log, the log holds only events of this call, in the order of the steps; the number of events rejectedStep is the number of rejections; the step size in force is the one logged last; and the size printed behind 'new step:' for a rejection is the size used next.", "quantifier": "every problem, settings, object, earlier contents of the log and moment of a run", "why_tests_cant": "the log is meant for debugging; the tests print it but compare nothing", "anchors": ["common/include/logger.hpp", "Radau5-NG/include/Radau5cc.hpp:seth,operator()", "Rodas-NG/include/Rodascc.hpp:seth,operator()", "Rock4-NG/include/Rock4.hpp:operator()"]}
{"id": "C114", "title": "Radau5 with Hessenberg reduction computes the same Newton step", "statement": "Radau5 on Matrices<true,true> (reduction to Hessenberg form, own elimination) solves, once the factorisations report no error, the same two linear systems as the version with full LU factorisations: a Newton iteration on a linear problem gives the stages of the Runge-Kutta method.", "quantifier": "every number of unknowns >= 2, Jacobian, inhomogeneity, step size, starting values and every dgehrd meeting its contract", "why_tests_cant": "the option is exercised on a few small problems where the pivots avoid the faulty branch; a wrong Newton direction mostly shows as slow convergence and smaller steps", "anchors": ["common/include/Matrices.hpp:Matrices<true,true>", "common/include/Hessenberg.hpp:dechc,solhc", "Radau5-NG/include/Radau5cc.hpp:slvrad"]}
{"id": "C115", "title": "Work memory is released by the function which allocated it and aligned where declared", "statement": "The work array of the Hessenberg classes, the arrays Rock4 exchanges with its caller and the parts of the array of Rock4L are released exactly once by the function matching their allocation, never accessed beyond their end, and every pointer declared aligned by ASSUME_ALIGNED is a multiple of 64 bytes, with and without ALIGN_BLOCKED.", "quantifier": "every size, sequence of sizes requested by LAPACK, session of calls and kernel execution", "why_tests_cant": "the common implementation of malloc tolerates many mismatches, and misaligned data only fault when the compiler vectorised the loop with aligned loads", "anchors": ["common/include/AllocateDestroyVector.hpp", "common/include/Matrices.hpp:Matrices<true,true>", "Rock4-L/include/Rock4L.hpp:kernel2,splitBigArray", "Rock4-NG/include/Rock4.hpp:~Rock4"]}
{"id": "C116", "title": "Radau5 on nonlinear dissipative problems: stability and error independent of stiffness", "statement": "On y' = F(x,y) with F dissipative for some inner product, two steps of Radau5 side by side move apart by at most three times the residuals of their stages, the residual left by the last Newton iteration is h times the error of its linearisation plus the effect of the printed digits, and the error at the end of a run is at most the initial error plus the sum over the steps of 1.3 h^4 M (M a bound of the fourth derivative of the solution) plus three times these residuals.", "quantifier": "every dissipative right hand side, inner product, dimension, smooth solution, tolerances, Jacobian used in the iteration and every returning run", "why_tests_cant": "stiff nonlinear problems are tested by a few examples; a bound uniform in the stiffness cannot be sampled", "anchors": ["Radau5-NG/include/Radau5cc.hpp:operator()", "Radau5-NG/include/Radau5cc.hpp:Newton"]}
{"id": "C117", "title": "Calls of Rodas, ROCK4 and ROCK4L depend on their arguments only", "statement": "Two calls with the same arguments and settings, on objects whose work arrays and other members are arbitrary (fresh memory or left by earlier calls, also by calls ended by an exception), have the same outcome: both return with the same solution, time, counters and reported values, both throw the same exception, or both go on for ever.", "quantifier": "every right hand side, interval, step, tolerance, dimension and contents of the objects", "why_tests_cant": "needs all histories of an object and all contents of uninitialised memory", "anchors": ["Rodas-NG/include/Rodascc.hpp:operator()", "Rock4-NG/include/Rock4.hpp:operator()", "Rock4-NG/include/Rock4.hpp:kernel", "Rock4-L/include/Rock4L.hpp:operator()"]}
{"id": "C118", "title": "The test programs report what they computed", "statement": "The functions init of the test problems write every component, nothing else, and the same values whatever the array contained. The program of Rodas prints, for every number of loops, the counters, first accepted step and time of one call on a new object. The file written by the program of ROCK4 contains the values at the end of the integration. The turns of the loop of the program of Radau5 are equal, end (or abort with an exception), and stop at the integration time which was typed. The program of SymplecticRK integrates the number of years it was given, for every step size.", "quantifier": "every size, problem, tolerance, step, number of loops and of years", "why_tests_cant": "the programs are run by hand with one set of answers; the branch after an exception and other step sizes are not exercised", "anchors": ["Radau5-NG/test/main.cc", "Rodas-NG/test/main.cc", "Rock4-NG/test/main.cc", "SymplecticRK/test/main.cc", "Radau5-NG/test/KPP.hpp:init", "Radau5-NG/test/BZ.hpp:init", "Radau5-NG/test/Oregonator.hpp:init", "Rock4-NG/test/FKPPOMP.hpp:init"]}
{"id": "C119", "title": "Convergence of order four of ROCK4 on nonlinear problems", "statement": "Let y'=f(y) with polynomial f, y a solution on [t0,te] bounded by R, L a Lipschitz constant of f on the ball of radius R+1, D a bound of the elementary differentials of f up to order four along y. Every formula of the table makes an error of at most C h^5 + 8e-14 D h in a step of length h<=1 from the solution, and a call of Rock4 which starts on the solution and whose accepted steps are at most H<=1 long ends within E=exp((L'+CH)(te-t0))(te-t0)(C H^4+8e-14 D) of it, L'=(1+1e-14)L, as long as E<=1: order four, with a constant C depending on f and y only, down to an explicit multiple of the precision of the printed tables; whatever the steps, numbers of stages and rejections chosen.", "quantifier": "every polynomial right hand side, dimension, solution, interval, initial step, spectral radius estimate, tolerances", "why_tests_cant": "the order of the whole solver with varying steps and formulas can only be sampled; a formula of the table with a wrong coefficient is used for one range of stiffness only", "anchors": ["Rock4-NG/include/Rock4.hpp:operator()", "Rock4-NG/include/Rock4.hpp:kernel", "Rock4-NG/include/Rock4Coeffs.hpp"]}
{"id": "C120", "title": "Convergence of Rodas on nonlinear problems", "statement": "Let y'=f(y) with polynomial f, y a solution on [x0,xe], L and D as in C119, and let the matrix used by Rodas differ from the Jacobian of f by at most kappa near the solution. A run of Rodas with any of the three coefficient sets which starts on the solution and returns, with accepted steps at most H, ends within E=exp((L'+CH)(xe-x0))(xe-x0)(C H^4+8e-14 D+C kappa H) of the solution, as long as CH and E are at most 1; C depends on f, y and an upper limit of kappa only. kappa=0 for the exact Jacobian (order four), kappa=5e-9 n B(R+2) for the one computed by differences of f, B a bound of its second derivatives.", "quantifier": "every polynomial right hand side, dimension, solution, interval, tolerances, linear algebra, method", "why_tests_cant": "order for all problems and all sequences of steps; the contribution of the difference quotients is invisible in tests at moderate tolerances", "anchors": ["Rodas-NG/include/Rodascc.hpp:operator()", "Rodas-NG/include/Rodascc.hpp:rocoe", "Rodas-NG/test/Oregonator.hpp"]}
{"id": "C121", "title": "The tables of the class Extrap extrapolate", "statement": "The two tables of extrap.hpp (double, long double) predict the stages of the next step of the 8-stage Gauss method from the slopes of the last one: for slopes which are the values at the nodes of a polynomial of degree at most 7, sum_j q[8j+i] p(c_j) is the integral of p from 0 to 1+c_i up to the precision of the type, and the two tables agree to the digits printed.", "quantifier": "every polynomial of degree at most 7, every stage, all 64 elements of both tables", "why_tests_cant": "wrong digits of a prediction only cost iterations; no test can see them", "anchors": ["SymplecticRK/include/extrap.hpp"]}
{"id": "C122", "title": "Convergence of order five of Radau5 on nonlinear problems", "statement": "Let y'=f(x,y) have a solution y on [x0,b], f be five times continuously differentiable near the points at distance at most rho of its graph, L a Lipschitz constant of f there. A step of length h of the Runge-Kutta method of Radau5 from the solution makes an error of at most C h^6. A run of Radau5 which returns at x<=b, with steps at most H and stage increments at most rho-E, ends within E=exp((L+CH)(x-x0))(e0+(x-x0)C H^5+(1+CH)S) of the solution, e0 the error of the initial value, S the sum over the steps of what the last Newton iteration leaves of the stage equations (h times the error of its linearisation plus the effect of the printed digits), as long as CH is at most 1; C depends on f, y and rho only.", "quantifier": "every smooth right hand side (time dependent or not), dimension, solution, interval, tolerances, linear algebra, Jacobian used, number of Newton iterations, starting values, sequence of steps", "why_tests_cant": "order for all problems and all sequences of steps; the stage order is three only, and the five of the method shows only if nodes and weights are exact", "anchors": ["Radau5-NG/include/Radau5cc.hpp:operator()", "Radau5-NG/include/Radau5cc.hpp:Newton", "Radau5-NG/include/Radau5cc.hpp:Radau5cc", "Radau5-NG/test/E5.hpp"]}
{"id": "C123", "title": "Order 2s of SymplecticRK", "statement": "Each table of the Gauss methods (2 to 16 stages, double and long double) is the exact Gauss method, the matrix up to half a unit of its last common digit (5e-13 and 5e-34), the weights up to 1e-48. Let y'=f(y) have a solution y on [t0,t1] and f be 2s times continuously differentiable, bounded and Lipschitz (L) at distance at most rho of it. With floating point numbers of at least 10 bits, after N successful steps of size h<=h0 of the method with s stages, value plus compensation differ from y(t0+Nh) by at most exp(2 beta L N h)(e0 + N h G), beta=1+1e-11: G is the sum of C h^(2s), of the rounding errors, of the threshold of the test, of the error of the computed f and of the precision of the tables, all but C explicit; h0 and C depend on f, y, rho and s only.", "quantifier": "every smooth right hand side, dimension, solution, interval, step, number of steps, table, precision, tie rule", "why_tests_cant": "order 2s shows only while h^(2s) is above the roundoff, for 16 stages almost never; a wrong digit lowers the order for one number of stages only", "anchors": ["SymplecticRK/include/SymplecticRK.hpp:step", "SymplecticRK/include/GaussianMethod.hpp", "SymplecticRK/include/icoeffs.hpp", "SymplecticRK/include/Ftest.hpp", "SymplecticRK/test/main.cc"]}
{"id": "C124", "title": "SymplecticRK on the shipped Kepler problem", "statement": "The right hand side of Kepler2.hpp has, for every initial value of non zero angular momentum l and negative energy E, a solution on every interval [0,T]; it stays at distance at least a=l^2/2 of the origin and its components below M=2/|l|+1/|E|. With the tables of double, s stages, any precision of at least 10 bits, every operation of Kepler2.hpp rounded (pow to one unit in the last place: then the right hand side is computed with error at most eta=36 2^-p/a^2 near the orbit), and h<=h0, hL<=1/3, after N successful steps the value differs from the solution at Nh by at most exp(2 beta L N h)(e0 + N h G) + kappa, as in C123, with the explicit constants rho=a/4, L=1+56/a^3, M and M+a/4+4/a^2 (for the shipped initial value a=5e-5), as long as this bound plus the movement of the iterates is at most rho. This bound b holds of every line of values written by the loop of test/main.cc, and the value of H written after it, computed with rounding as in Kepler2.hpp, differs from E by at most 2Vb + 10 2^-p((M+a/4)^2+2/a), V=M+a/4+4/a^2.", "quantifier": "every bound orbit, interval, number of stages, precision, tie rule, step, number of steps", "why_tests_cant": "the right hand side is singular at the origin: a run tells nothing about the next orbit, and the bound depends on how near the orbit comes", "anchors": ["SymplecticRK/test/Kepler2.hpp", "SymplecticRK/include/SymplecticRK.hpp:step", "SymplecticRK/include/icoeffs.hpp"]}
{"id": "C125", "title": "Convergence of order four of ROCK4 on smooth problems", "statement": "Let y be a solution of y'=f(y) on [t0,te] and f four times continuously differentiable at all points at distance at most rho of it (arbitrary elsewhere), L a Lipschitz constant of f relative to the points of y, D a bound of the elementary differentials of f (from its partial derivatives) up to order four along y. A call of Rock4 which starts on the solution and whose accepted steps are at most H<=1/C long ends within E=exp((L'+CH)(te-t0))(te-t0)(C H^4+8e-14 D) of it, L'=(1+1e-14)L, as long as E<=rho/2, with a constant C depending on f, y, rho only. In particular for the Fisher problem shipped with Rock4, whose reaction term is clipped and not polynomial, from every state strictly between 0 and 1, with L=rho(): the solution exists on every interval and stays between 0 and 1.", "quantifier": "every right hand side smooth near the solution, dimension, solution, interval, initial step, spectral radius estimate, tolerances", "why_tests_cant": "the order of the whole solver with varying steps and formulas can only be sampled, and the shipped problem has no known solution", "anchors": ["Rock4-NG/include/Rock4.hpp:operator()", "Rock4-NG/include/Rock4.hpp:kernel", "Rock4-NG/include/Rock4Coeffs.hpp", "Rock4-NG/test/FKPPOMP.hpp:operator()"]}
{"id": "C126", "title": "SymplecticRK on the planetary problems", "statement": "init() of Outer, OuterNeptune and OuterUranus writes every element of the state within the array, whatever it held: bodies at distances of at least 5, the Sun at rest at the origin, momenta which are masses times velocities, every planet with less energy than needed to leave the Sun. For any number of bodies, any masses (at least mu in absolute value; sum_j |G m_i m_j| <= K) and any solution on [0,T] whose bodies stay at distances of at least a and whose components stay below M, SymplecticRK with s stages, applied to the right hand side operator(), converges with order 2s as in C123, with the explicit constants rho=a/8, L=1/mu+112K/a^3, V=(M+a/8)/mu+4K/a^2; every operation of operator() being rounded (p bits, pow to one unit in the last place), its error near the solution is at most 2^-p((M+a/8)/mu+8(35+N)K/a^2). With the members of SymplecticRK one after the other in memory, where the writes of dpdt beyond its result set delta and e to zero in every iteration, each successful step is the step without previous compensation and the error grows by one rounding of the state per step more; this bounds every line of values written by the loop of test/main.cc, and 4NV times the bound bounds the difference of its energy (kinetic plus potential) to that of the solution, which is constant; the value of H written after it, computed with rounding, is this energy plus the potential of the pairs of consecutive bodies, up to this bound and 2(14+N+N^2)2^-p N(2(M+a/8)^2/mu+2K/a). Every solution without collision on a compact interval has such a and M, and from a state with distances a a solution exists on [0,a/(8V)].", "quantifier": "any number of bodies, masses, solution without collision, interval, number of stages, precision, step, number of steps, previous contents of the array", "why_tests_cant": "forces are singular at collisions; a run of one planetary system says nothing of another one, of other masses or of smaller steps", "anchors": ["SymplecticRK/test/Outer.hpp", "SymplecticRK/test/OuterNeptune.hpp", "SymplecticRK/test/OuterUranus.hpp", "SymplecticRK/include/SymplecticRK.hpp:step", "SymplecticRK/test/main.cc:main"]}
