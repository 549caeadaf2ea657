{"id": "C01", "title": "COO put accepts exactly the valid entries", "statement": "CooMatrix::put(i,j,a) returns Ok exactly when i<nrow, j<ncol, fewer than max_nnz entries are stored, and (i,j) lies in the stored triangle for YesLower/YesUpper storage; on Err the matrix is left unchanged, on Ok get_nnz grows by one, and it never panics while the dimensions fit an i32.", "quantifier": "every COO matrix reachable through new/put/reset, every (i,j,a), every storage kind", "why_tests_cant": "tests try a handful of (i,j,kind) combinations; the guard must be exact for all of them", "anchors": ["russell_sparse/src/coo_matrix.rs: NumCooMatrix::new, put, reset, get_nnz"]}
{"id": "C02", "title": "COO history gives the dense sum of the accepted entries", "statement": "After any sequence of put and reset calls, as_dense()(r,c) equals the sum, in insertion order, of the values of the entries accepted since the last reset at (r,c) (and at (c,r) for triangular storage), and zero where there is none; entries put before a reset never show up again.", "quantifier": "every finite history of put/reset calls, every storage kind, every (r,c)", "why_tests_cant": "histories are unbounded; stale array contents after reset are only visible for some histories", "anchors": ["russell_sparse/src/coo_matrix.rs: put, reset, to_dense, as_dense"]}
{"id": "C03", "title": "COO to CSR conversion preserves the matrix", "statement": "CsrMatrix::from_coo succeeds for every non-empty valid COO matrix (duplicates in any order allowed) without panicking, and the dense form of the result equals the dense form of the COO matrix exactly - including rounding, because duplicates are added in insertion order.", "quantifier": "every COO matrix with at least one entry whose sizes fit an i32; every addition operation with 0+(x+y)=(0+x)+y (IEEE addition satisfies it)", "why_tests_cant": "the number of duplicate patterns/orders is unbounded, the algorithm reuses one workspace for three purposes", "anchors": ["russell_sparse/src/csr_matrix.rs: NumCsrMatrix::from_coo, update_from_coo, to_dense"]}
{"id": "C04", "title": "COO to CSC conversion preserves the matrix", "statement": "CscMatrix::from_coo succeeds for every non-empty valid COO matrix without panicking and the dense form of the result equals the dense form of the COO matrix exactly.", "quantifier": "every COO matrix with at least one entry whose sizes fit an i32; every addition with 0+(x+y)=(0+x)+y", "why_tests_cant": "same as for CSR; the column form is produced by a second counting pass over the compressed rows", "anchors": ["russell_sparse/src/csc_matrix.rs: NumCscMatrix::from_coo, update_from_coo, to_dense"]}
{"id": "C05", "title": "CSR/CSC produced from COO are canonical", "statement": "The result of from_coo has pointers that start at 0, are non-decreasing and end at the number of stored entries; indices are in range and strictly increasing within each row (column), hence without duplicates; every stored position is a position put in the COO matrix and vice versa; the storage kind and dimensions are those of the COO matrix.", "quantifier": "every valid COO matrix", "why_tests_cant": "structural invariants relied on by external solvers must hold for all inputs", "anchors": ["russell_sparse/src/csr_matrix.rs: update_from_coo, get_row_pointers, get_col_indices", "russell_sparse/src/csc_matrix.rs: update_from_coo, get_col_pointers, get_row_indices"]}
{"id": "C06", "title": "update_from_coo on a reused matrix equals a fresh conversion", "statement": "For any sequence of COO matrices with matching dimensions/kind/nnz, calling update_from_coo repeatedly on the same CSR (CSC) matrix gives the same visible pointers, indices and values as a fresh from_coo of the last one, whatever the internal workspaces contained; mismatching dimensions/kind/nnz give Err and leave the matrix unchanged.", "quantifier": "every sequence of conversions, arbitrary workspace contents left by earlier ones", "why_tests_cant": "stale workspace contents depend on the whole history of calls", "anchors": ["russell_sparse/src/csr_matrix.rs: update_from_coo", "russell_sparse/src/csc_matrix.rs: update_from_coo"]}
{"id": "C07", "title": "CSR to CSC and CSC to CSR conversions preserve the matrix", "statement": "CscMatrix::from_csr and CsrMatrix::from_csc never panic on a structurally valid matrix whose first pointer is 0, keep the number of entries, the storage kind and the dense form, and give indices sorted within each column (row).", "quantifier": "every valid CSR (CSC) matrix with first pointer 0", "why_tests_cant": "in-place cumulative-sum/shift trick is correct only if it is for every row/column population", "anchors": ["russell_sparse/src/csc_matrix.rs: NumCscMatrix::from_csr", "russell_sparse/src/csr_matrix.rs: NumCsrMatrix::from_csc"]}
{"id": "C08", "title": "CSR to CSC to CSR round trip is the identity", "statement": "For a CSR matrix with first pointer 0 and sorted columns within rows, from_csc(from_csr(a)) has the same pointers, column indices and values as a, and symmetrically for CSC; for unsorted rows the round trip sorts each row stably.", "quantifier": "every valid CSR (CSC) matrix", "why_tests_cant": "equality of arrays for all inputs, not only samples", "anchors": ["russell_sparse/src/csc_matrix.rs: from_csr", "russell_sparse/src/csr_matrix.rs: from_csc"]}
{"id": "C09", "title": "Sparse matrix-vector products agree with the dense product", "statement": "mat_vec_mul (COO, CSR, CSC) gives v = alpha*A*u where A is the dense form, mat_vec_mul_update adds it to v, and mat_t_vec_mul gives alpha*A^T*u; entries of a longer-than-needed v beyond the matrix are zero (COO mat_vec_mul) or unchanged (update); mismatching vector sizes give Err.", "quantifier": "every valid matrix of every storage kind, every alpha, u, v over a commutative semiring", "why_tests_cant": "all sizes, duplicates and storage kinds", "anchors": ["russell_sparse/src/coo_matrix.rs: mat_vec_mul, mat_vec_mul_update, mat_t_vec_mul", "russell_sparse/src/csr_matrix.rs: mat_vec_mul", "russell_sparse/src/csc_matrix.rs: mat_vec_mul"]}
{"id": "C10", "title": "COO assign and add are linear", "statement": "If a.assign(alpha,b) returns Ok then dense(a)=alpha*dense(b); if a.add(alpha,b) returns Ok then the leading block of dense(a) grew by alpha*dense(b) and the rest is unchanged; they return Ok exactly when the kinds and dimensions match as documented and the capacity suffices.", "quantifier": "every pair of COO matrices, every alpha", "why_tests_cant": "capacity and dimension combinations are unbounded", "anchors": ["russell_sparse/src/coo_matrix.rs: assign, add"]}
{"id": "C11", "title": "Lagrange block gives the augmented matrix", "statement": "put_lagrange_block(B) on a matrix with free border adds exactly B in rows ncol(B).. and B^T in columns ncol(B).. of the dense form, for No/YesFull storage by writing both and for triangular storage by writing the stored one only.", "quantifier": "every COO matrix and every non-symmetric B for which the call returns Ok", "why_tests_cant": "all four storage kinds times all shapes", "anchors": ["russell_sparse/src/coo_matrix.rs: put_lagrange_block"]}
{"id": "C12", "title": "get_actual_nnz counts the mirrored entries", "statement": "get_actual_nnz equals the number of entries visited when the matrix is expanded to full storage: every stored entry once, plus once more for each off-diagonal entry of triangular storage.", "quantifier": "every COO matrix", "why_tests_cant": "needs all matrices", "anchors": ["russell_sparse/src/coo_matrix.rs: get_actual_nnz"]}
{"id": "C13", "title": "CSR/CSC constructor accepts exactly well-formed input", "statement": "CsrMatrix::new (CscMatrix::new) returns Ok only for dimensions >= 1, pointers of the right length, non-negative, non-decreasing, in-range indices sorted within rows and square matrices when symmetric; malformed arrays give Err rather than a panic.", "quantifier": "every combination of arrays", "why_tests_cant": "the space of malformed arrays is unbounded and the validation loop reads the arrays while validating them", "anchors": ["russell_sparse/src/csr_matrix.rs: NumCsrMatrix::new", "russell_sparse/src/csc_matrix.rs: NumCscMatrix::new"]}
{"id": "C14", "title": "MatrixMarket write then read gives the matrix back (real)", "statement": "Writing a real CSC matrix in the MatrixMarket format and reading the text back with any symmetry option gives a COO matrix of the same size whose dense form is that of the matrix written, without the entries with |a| <= tol; the kind is general for a general matrix and that of the option for a symmetric one. In the standard and in the visualization format, the number of data lines equals the count in the line with the dimensions.", "quantifier": "every real CSC matrix with at least one kept entry, every tolerance, every option; values are tokens that are read back as the value written", "why_tests_cant": "unbounded contents; the count is computed by a different loop than the data lines; the combinations of storage and option", "anchors": ["russell_sparse/src/write_matrix_market.rs:31-148", "russell_sparse/src/read_matrix_market.rs: read_matrix_market"]}
{"id": "C15", "title": "MatrixMarket reader: symmetric handling, acceptance, panics", "statement": "Reading a symmetric file with MakeItFull, LeaveAsLower and SwapToUpper gives the same dense matrix, in the storage of the option. The reader accepts a text only if it is a MatrixMarket file, and then stores exactly the entries of the file. On any other text it returns an error, except that it panics on four listed kinds of text (no line after the header, an index equal to i32::MIN, an entry above the diagonal of a symmetric file, 2^30 or more entries with MakeItFull).", "quantifier": "every text, every option", "why_tests_cant": "all texts; combinatorics of options and entries", "anchors": ["russell_sparse/src/read_matrix_market.rs: read_matrix_market", "russell_sparse/src/enums.rs: MMsym"]}
{"id": "C16", "title": "VerifyLinSys reports a zero error exactly for solutions", "statement": "VerifyLinSys::from gives max_abs_diff = 0 exactly when A*x = rhs in every component, and the reported maxima are the maximum of |a*x|, |rhs| component-wise norms.", "quantifier": "every matrix and vectors", "why_tests_cant": "must hold for all systems", "anchors": ["russell_sparse/src/verify_lin_sys.rs: VerifyLinSys::from"]}
{"id": "C17", "title": "Numerical Jacobian is exact for affine functions and restores its input", "statement": "numerical_jacobian on f(y)=A*y+b puts every entry alpha*A (ncol*nrow puts in column-major order) for any non-zero step, leaves y unchanged on success, and needs no more than ndim*ndim capacity.", "quantifier": "every dimension, A, b, y, alpha, step sizes", "why_tests_cant": "needs all functions and states", "anchors": ["russell_sparse/src/numerical_jacobian.rs"]}
{"id": "C18", "title": "Linear solver protocol", "statement": "In every sequence of factorize/solve calls, whatever the external library answers, the UMFPACK, MUMPS and cuDSS front-ends do not panic and call the library according to its protocol (one successful initialization, numeric factorizations after it, solutions only after a successful numeric factorization and with the data of the last factorization). solve before any successful factorization, vectors of the wrong size, a matrix whose kind, number of rows or number of entries differs from the first one, parameters given again, and unsuitable first matrices return Err without calling the library and without changing solver or x. An admissible matrix reaches the library (UMFPACK: as the CSC form of exactly that matrix). Exceptions, proved as counterexamples: after a failed re-factorization solve is still forwarded; MUMPS re-factorizes the memory of the first matrix object (other or dropped object: stale or dangling values) and does not compare the number of columns; cuDSS uses the pattern of the first matrix.", "quantifier": "every sequence of factorize/solve calls, every behaviour of the external library, every matrix within i32 range", "why_tests_cant": "call histories and library answers are unbounded", "anchors": ["russell_sparse/src/solver_umfpack.rs", "russell_sparse/src/solver_mumps.rs", "russell_sparse/src/solver_cudss.rs", "russell_sparse/c_code/interface_mumps.c", "russell_sparse/c_code/interface_cudss.cu"]}
{"id": "C19", "title": "sort2/sort3/sort4 sort", "statement": "sort2, sort3, sort4 leave the tuple sorted in ascending order and a permutation of the input.", "quantifier": "every totally ordered type and every tuple", "why_tests_cant": "network correctness for all orders incl. ties", "anchors": ["russell_lab/src/base/sort.rs: sort2, sort3, sort4"]}
{"id": "C20", "title": "argsort returns the stable sorting permutation with NaN last", "statement": "argsort_f64 returns a permutation of 0..n such that the permuted values are non-decreasing with all NaN at the end and equal values in index order; argsort2/argsort3 sort lexicographically by the keys.", "quantifier": "every array of floats incl. NaN", "why_tests_cant": "the comparator must be a total preorder for all values for sort_by not to panic", "anchors": ["russell_lab/src/base/sort.rs: compare_f64, argsort_f64, argsort2_f64, argsort3_f64"]}
{"id": "C21", "title": "find_min_max returns the first minimum and first maximum", "statement": "find_min_max returns indices in range such that x[imin] <= x[i] <= x[imax] for all i and they are the smallest such indices; for an empty array it returns usize::MAX twice.", "quantifier": "every array over a linear order", "why_tests_cant": "all arrays", "anchors": ["russell_lab/src/base/find_min_max.rs: find_min_max"]}
{"id": "C22", "title": "find_valleys_and_peaks finds exactly the local extrema", "statement": "The returned valleys (peaks) are exactly the last indices of the maximal plateaus strictly below (above) their neighbours on both sides, in increasing order, valleys and peaks alternate; the global indices are first minimum and first maximum.", "quantifier": "every array over a linear order", "why_tests_cant": "plateau/monotone patterns are unbounded", "anchors": ["russell_lab/src/base/find_valleys_and_peaks.rs: find_valleys_and_peaks"]}
{"id": "C23", "title": "Dense storage: matrix get/set/transposed/extract laws", "statement": "Matrix::from/initialized/set/get obey the array laws: reading after writing (i,j) gives the written value and leaves all other in-range entries; get_transposed and filling from nested arrays satisfy the entry-wise equations; data layout index is i+j*nrow (column-major) and in range.", "quantifier": "every matrix and in-range index", "why_tests_cant": "all dimensions/indices", "anchors": ["russell_lab/src/matrix/num_matrix.rs: NumMatrix"]}
{"id": "C24", "title": "Vector linspace, differences and cumulative sums", "statement": "linspace(a,b,n) has n entries, first a, last b, constant increments; get_... difference/cumulative helpers are mutually inverse as documented.", "quantifier": "every a,b,n over an ordered field", "why_tests_cant": "all n", "anchors": ["russell_lab/src/vector/num_vector.rs: NumVector::linspace"]}
{"id": "C25", "title": "BLAS band storage holds exactly the band", "statement": "mat_convert_to_blas_band writes dense(i,j) to band(i+mu-j,j) for exactly the entries with j-mu <= i <= j+ml inside the matrix, never out of range, and leaves the other entries of the band array alone; it returns Err exactly on wrong dimensions.", "quantifier": "every m,n,ml,mu and matrix", "why_tests_cant": "all shapes, incl. bandwidth larger than the matrix", "anchors": ["russell_lab/src/matrix/mat_convert_to_blas_band.rs"]}
{"id": "C26", "title": "Small matrix inverse is the inverse", "statement": "small_mat_inv for sizes 1,2,3 (and larger sizes by Gauss-Jordan) returns a matrix with A*Ainv = Ainv*A = I and the determinant of A, or an error. For sizes 1-3 the error occurs exactly when |det| is within the tolerance; for larger sizes a matrix is accepted whenever the absolute row sums of its inverse times the tolerance stay below one, and a refused matrix maps some vector with an entry 1 to a vector with entries within the tolerance.", "quantifier": "every matrix over a field", "why_tests_cant": "polynomial identities for all entries", "anchors": ["russell_lab/src/small/small_mat_inv.rs", "russell_lab/src/matrix/mat_inverse.rs"]}
{"id": "C27", "title": "Gauss-Jordan elimination solves and inverts", "statement": "num_recipes_gaussj with full pivoting turns A into its inverse and each right-hand side b into the solution of A x = b whenever it returns Ok, and returns Err when the matrix is singular.", "quantifier": "every n x n matrix and right-hand sides over an ordered field", "why_tests_cant": "row/column bookkeeping must be right for all pivot sequences", "anchors": ["russell_lab/src/small/num_recipes_gaussj.rs", "russell_lab/src/small/small_solve_lin_sys.rs"]}
{"id": "C28", "title": "sort_vec_mat sorts eigenpairs consistently", "statement": "sort_vec_mat sorts the vector in descending order and applies the same permutation to the columns of the matrix.", "quantifier": "every n>=1, vector and matrix", "why_tests_cant": "pairing for all permutations and ties", "anchors": ["russell_lab/src/matvec/sort_vec_mat.rs"]}
{"id": "C29", "title": "Unrolled array kernels equal the element-wise operation", "statement": "The unrolled kernels for w = a*u + b*v agree with the element-wise loop for every length and touch every element exactly once.", "quantifier": "every length and values", "why_tests_cant": "unroll remainders", "anchors": ["russell_lab/src/internal/array_plus_op.rs", "russell_lab/src/internal/array_plus_opx.rs"]}
{"id": "C30", "title": "Exact small math functions", "statement": "factorial_lookup_22(n)=n! for n<=22; neg_one_pow_n(n)=(-1)^n for all integers; sign/ramp/heaviside/boxcar satisfy their defining identities.", "quantifier": "every integer / value", "why_tests_cant": "all integers", "anchors": ["russell_lab/src/math/functions.rs"]}
{"id": "C31", "title": "Legendre polynomials", "statement": "legendre_pn(n,x) evaluates the Legendre polynomial (three-term recurrence), P_n(1)=1, P_n(-x)=(-1)^n P_n(x), and legendre_pn_deriv1/2 evaluate its first and second derivative for x outside the special-cased neighbourhoods and at +-1.", "quantifier": "every n and x over a field of characteristic zero", "why_tests_cant": "all n and x", "anchors": ["russell_lab/src/math/legendre.rs"]}
{"id": "C32", "title": "Chebyshev polynomials", "statement": "chebyshev_tn(n,x), its derivatives and chebyshev_un evaluate the Chebyshev polynomials for every real x, including the branches x<-1 and x>1 and the end points.", "quantifier": "every n, every real x", "why_tests_cant": "all n and x, branch boundaries", "anchors": ["russell_lab/src/math/chebyshev.rs", "russell_lab/src/math/chebyshev_u.rs"]}
{"id": "C33", "title": "B-spline basis: span search, Cox-de Boor values, partition of unity, points of the curve", "statement": "For a non-decreasing knot vector and u in the parametric range [u_p, u_{n}), find_span terminates and returns the span containing u; calc_basis succeeds and get_basis(i) is the i-th B-spline of the Cox-de Boor recursion for every i; these values are non-negative and sum to one (also at the right end, where clamped knots give 1 for the last function and 0 for the others). recursive_basis gives the same values (away from the right end, knots equal or at least 1e-14 apart). calc_point returns the combination of the control points with these weights, hence a point in their bounding box. new accepts exactly degrees >= 1 with at least 2(p+1) knots, and values outside of all knots are rejected; for knots that are not clamped, values below u_p are accepted and extrapolated (counterexample).", "quantifier": "every degree, every non-decreasing knot vector, every u, every previous state of the structure", "why_tests_cant": "the correctness of the triangular recurrence and of the binary search holds for all degrees and knot vectors, also repeated knots; tests sample a few.", "anchors": ["russell_lab/src/algo/bspline.rs: Bspline"]}
{"id": "C34", "title": "Lagrange interpolation reproduces data and polynomials", "statement": "For every degree N in [1, 2048], each of the three grids and both ways of computing the weights, `InterpLagrange::new` succeeds (and is an error for every other degree or wrong station numbers). The interpolant passes through the data at the nodes; from the nodal values of any polynomial of degree at most N, `eval`, `eval_deriv1` and `eval_deriv2` return the polynomial and its first and second derivatives at every node and at every point of [-1, 1] not closer than DX_EPSILON to a node (the derivatives at -1 and 1 only for the grids that contain the ends). After any history of calls of `calc_dd1_matrix` and `calc_dd2_matrix`, the matrices asked for differentiate such polynomials exactly at the nodes, and the getters give an error for matrices not computed.", "quantifier": "every degree up to 2048, every grid, parameters, polynomial, point and call history", "why_tests_cant": "Tests evaluate a few functions on a few grids; exactness for all polynomials of all degrees needs the barycentric identities.", "anchors": ["russell_lab/src/algo/interp_lagrange.rs: InterpLagrange"]}
{"id": "C35", "title": "Brent root finder keeps a bracket", "statement": "root_finder brent returns, when it reports success, a point inside [min(xa,xb),max(xa,xb)] at which f vanishes or next to which (within twice the tolerance) f changes sign; it evaluates f only inside the bracket and rejects intervals without sign change. The trial step is the zero of the secant or of the inverse quadratic interpolant through the last points.", "quantifier": "every function, bracket and tolerance", "why_tests_cant": "iteration sequences of arbitrary functions", "anchors": ["russell_lab/src/algo/root_finder_brent.rs"]}
{"id": "C36", "title": "Minimum bracketing returns a bracket", "statement": "Whenever MinBracketing::basic (try_bracket_min) succeeds with a non-zero step and a positive expansion factor, it returns a < xo < b with fa = f(a), fb = f(b), fxo = f(xo), f(xo) <= f(a) and f(xo) <= f(b), at least one of them strictly; hence a continuous f attains its minimum over [a,b] strictly inside. The documentation's strict inequality at both ends does not hold (counterexample |x-1| from 0 with step 2).", "quantifier": "every function, guess and positive parameters", "why_tests_cant": "needs every function, including ones that tie.", "anchors": ["russell_lab/src/algo/min_bracketing.rs"]}
{"id": "C37", "title": "Brent minimiser stays inside the bracket and never worsens", "statement": "The Brent minimiser returns a point in [xa,xb] whose function value is <= all values evaluated; the parabolic trial step goes to the vertex of the parabola through the last three points.", "quantifier": "every function and bracket", "why_tests_cant": "arbitrary functions", "anchors": ["russell_lab/src/algo/min_solver.rs"]}
{"id": "C38", "title": "Cubic solver returns roots", "statement": "solve_cubic returns, for every real cubic with |a| >= 1e-12 (others are rejected) whose discriminant is zero or outside of the numerical cut-off around zero, exactly the real roots of it with the documented count (one real root; three; three with a multiple one when the discriminant vanishes). Inside the cut-off (scaled discriminant below 1e-12 but not zero) the returned values need not be roots (counterexample x^3 + 1.6e-6).", "quantifier": "every real coefficient triple", "why_tests_cant": "identities of radicals and cosines over all real coefficients.", "anchors": ["russell_lab/src/algo/cubic.rs"]}
{"id": "C39", "title": "Linear fitting is least squares", "statement": "linear_fitting returns the slope and intercept minimising the sum of squared residuals over all lines (through the origin when requested).", "quantifier": "every data set with non-degenerate x", "why_tests_cant": "optimality over all lines", "anchors": ["russell_lab/src/algo/linear_fitting.rs"]}
{"id": "C40", "title": "read_table returns rectangular columns or an error", "statement": "read_table on any text returns Ok exactly when the rows of the text (words before a comment, blank rows removed) form a table: a header that is a prefix of the given labels, or has distinct labels when none are given, and data rows with as many parseable cells as the header. Every other text gives Err, never a panic. For distinct labels every label of the header has a column whose length is the number of data rows and whose i-th value is parsed from the i-th row; nothing else is in the table.", "quantifier": "every text, parser and labels", "why_tests_cant": "Tests read a handful of files.", "anchors": ["russell_lab/src/base/read_table.rs: read_table, read_data"]}
{"id": "C41", "title": "Histogram counts are exact", "statement": "After any sequence of count calls on increasing stations, counts[i] is the number of values x with stations[i] <= x < stations[i+1]; values outside are not counted; reset zeroes.", "quantifier": "every increasing stations array, every data, every call history", "why_tests_cant": "binary search for all inputs", "anchors": ["russell_stat/src/histogram.rs: Histogram::count, find_bin, reset"]}
{"id": "C42", "title": "Quantile interpolation", "statement": "quantile(sorted,q) lies between the minimum and the maximum, is monotone in q, gives the extreme values at q=0,1, and never indexes out of range; quartiles are ordered.", "quantifier": "every non-empty sorted array and q in [0,1] over an ordered field with floor", "why_tests_cant": "all n,q", "anchors": ["russell_stat/src/quantile.rs", "russell_stat/src/quartiles.rs", "russell_stat/src/inter_quartile_range.rs"]}
{"id": "C43", "title": "Outliers are exactly the points beyond 1.5 IQR", "statement": "outliers returns exactly the (index,value) pairs of the data lying below q1-1.5iqr or above q3+1.5iqr, sorted by value, independent of the data order.", "quantifier": "every non-empty data set", "why_tests_cant": "all data sets/permutations", "anchors": ["russell_stat/src/outliers.rs"]}
{"id": "C44", "title": "Statistics", "statement": "Statistics::new returns min, max, mean and the Bessel-corrected variance; the corrector term vanishes in exact arithmetic and the variance is non-negative.", "quantifier": "every data set", "why_tests_cant": "all data", "anchors": ["russell_stat/src/statistics.rs"]}
{"id": "C45", "title": "EquationHandler numbering is a bijection", "statement": "After any sequence of recompute calls, every equation is either unknown or prescribed according to the last list; iu (ip) are increasing bijections onto 0..nu (0..np), nu+np=neq, unknown()/prescribed() are the sorted inverses, and recompute does not depend on earlier lists.", "quantifier": "every neq, every sequence of prescribed lists (duplicates allowed)", "why_tests_cant": "histories", "anchors": ["russell_pde/src/equation_handler.rs"]}
{"id": "C46", "title": "Grid indexing and boundary nodes", "statement": "get_m and get_ij are mutually inverse on the grid; nodes_on_side are exactly the nodes for which is_xmin/... hold; on_boundary and is_corner agree with the sides; coord(get_m(i,j)) = (x_i,y_j).", "quantifier": "every grid size and node", "why_tests_cant": "all sizes", "anchors": ["russell_pde/src/grid_2d.rs", "russell_pde/src/grid_1d.rs"]}
{"id": "C47", "title": "Boundary-condition validation is exact", "statement": "After any sequence of set/set_periodic/set_homogeneous calls, validate returns Ok exactly when every side has exactly one of essential, natural or periodic conditions.", "quantifier": "every call history", "why_tests_cant": "history combinations", "anchors": ["russell_pde/src/essential_bcs_1d.rs", "russell_pde/src/essential_bcs_2d.rs", "russell_pde/src/natural_bcs_1d.rs", "russell_pde/src/natural_bcs_2d.rs"]}
{"id": "C48", "title": "FDM assembly gives the stencil matrix and never exceeds its capacity", "statement": "The finite-difference matrix assembled by Fdm1d/Fdm2d represents the stencil (with ghost-node elimination at natural and wrap-around at periodic boundaries), is symmetric, and the preallocated number of entries is never exceeded, for triangular and full storage alike.", "quantifier": "every grid size, every valid boundary-condition combination, every storage kind", "why_tests_cant": "all sizes and combinations", "anchors": ["russell_pde/src/fdm_1d.rs", "russell_pde/src/fdm_2d.rs"]}
{"id": "C49", "title": "SPS and LMM strategies solve the same problem", "statement": "A vector solves the partitioned system of the System Partitioning Strategy exactly when, with suitable multipliers, it solves the Lagrange-multiplier system.", "quantifier": "every matrix, prescribed set and right-hand side", "why_tests_cant": "all systems", "anchors": ["russell_pde/src/fdm_1d.rs: solve_sps, solve_lmm", "russell_pde/src/fdm_2d.rs"]}
{"id": "C50", "title": "ODE output stations", "statement": "set_dense_h_out/set_dense_x_out store strictly increasing stations inside [x0,x1] with both ends; during a solve every dense station is reported exactly once, in order, whatever the step sizes are.", "quantifier": "every interval, output step and step sequence", "why_tests_cant": "step sequences are unbounded", "anchors": ["russell_ode/src/output.rs"]}
{"id": "C51", "title": "Logistic and smooth ramp functions and their derivatives", "statement": "logistic takes values in (0,1) and logistic_deriv1 is its derivative; smooth_ramp lies between ramp and ramp + ln2/beta; smooth_ramp_deriv1 is the derivative of smooth_ramp at every point except the cut-off -beta*x=500 and smooth_ramp_deriv2 is the derivative of smooth_ramp_deriv1 wherever |beta*x|<500.", "quantifier": "every real x and beta (beta>0 for the bounds)", "why_tests_cant": "derivatives and bounds for all real arguments, both sides of the cut-offs", "anchors": ["russell_lab/src/math/functions.rs: logistic, logistic_deriv1, smooth_ramp, smooth_ramp_deriv1, smooth_ramp_deriv2"]}
{"id": "C52", "title": "Chebyshev-Gauss and Lobatto point sets", "statement": "chebyshev_gauss_points(N) returns N+1 strictly increasing, symmetric points which are exactly the real roots of T_{N+1}; chebyshev_lobatto_points(N), N>=1, returns N+1 strictly increasing points from -1 to 1 at which |T_N|=1, the interior ones being critical points of T_N.", "quantifier": "every N (N>=1 for Lobatto)", "why_tests_cant": "all N; tests compare a few tabulated N", "anchors": ["russell_lab/src/math/chebyshev.rs: chebyshev_gauss_points, chebyshev_lobatto_points"]}
{"id": "C53", "title": "Small fixed-size matrix arithmetic", "statement": "small_mat_add, small_mat_update and small_mat_mat_mul write alpha*a+beta*b, b+alpha*a and alpha*a*b+beta*c in the top-left n x n block, leave every other entry of the output unchanged, and panic exactly when n > N.", "quantifier": "every N, n, coefficients and arrays over a commutative ring", "why_tests_cant": "all sizes and entries", "anchors": ["russell_lab/src/small/small_mat_add.rs", "russell_lab/src/small/small_mat_update.rs", "russell_lab/src/small/small_mat_mat_mul.rs"]}
{"id": "C54", "title": "Densities and distribution functions agree", "statement": "For the uniform, Gumbel, Frechet, normal and lognormal distributions the density is non-negative and is the derivative of the distribution function (away from the documented cut-offs); the uniform, Gumbel and Frechet distribution functions are monotone with values in [0,1] and limits 0 and 1; the reported mean and variance of the uniform, normal and lognormal distributions are the moments of the density (law); constructing a Gumbel or lognormal distribution from a mean and a standard deviation reports that mean and variance.", "quantifier": "every real argument and all admissible parameters", "why_tests_cant": "continuum of parameters and arguments, limits and integrals", "anchors": ["russell_stat/src/distribution_uniform.rs", "russell_stat/src/distribution_gumbel.rs", "russell_stat/src/distribution_frechet.rs", "russell_stat/src/distribution_normal.rs", "russell_stat/src/distribution_lognormal.rs"]}
{"id": "C55", "title": "FDM reproduces quadratic solutions", "statement": "On a uniform grid that is not periodic, solve_sps and solve_lmm return exactly the nodal values of the solution of -kx u_xx - ky u_yy + alpha u = source whenever u is a polynomial of degree two, for every mixture of essential and natural sides, provided the linear solver returns solutions. (With a periodic direction this fails: the corner fluxes are halved, and the two ends of a periodic 1-D line are distinct unknowns.)", "quantifier": "every uniform grid, every assignment of essential/natural sides with at least one prescribed node or alpha > 0, all polynomial coefficients, positive kx, ky and alpha >= 0, all storage kinds", "why_tests_cant": "all grids, coefficients and boundary-condition mixtures", "anchors": ["russell_pde/src/fdm_1d.rs: solve_sps, solve_lmm, get_vectors_sps, get_vectors_lmm", "russell_pde/src/fdm_2d.rs: solve_sps, solve_lmm, get_vectors_sps, get_vectors_lmm"]}
{"id": "C56", "title": "Vector norms and scaled error measures", "statement": "vec_norm returns the root of the sum of squares, the sum of absolute values, or the largest absolute value of the whole vector, so it is zero exactly for the zero vector; vec_norm_chunk is the norm of exactly the selected range and panics for an empty or overlong range; vec_max_abs_diff returns the largest |u_i - v_i| and the first index where it is attained, and an error for unequal lengths; vec_max_scaled returns max |v_i|/(one+|v0_i|); vec_rms_scaled returns sqrt(mean((v_i/(a+r|v0_i|))^2)), which is at most one if every component is within its tolerance.", "quantifier": "all vectors of every length over an ordered field, all tolerances, all ranges", "why_tests_cant": "all lengths and all values, including maxima that are attained several times or at the last component", "anchors": ["russell_lab/src/vector/vec_norm.rs", "russell_lab/src/vector/vec_norm_chunk.rs", "russell_lab/src/vector/vec_max_abs_diff.rs", "russell_lab/src/vector/vec_max_scaled.rs", "russell_lab/src/vector/vec_rms_scaled.rs"]}
{"id": "C57", "title": "MatrixMarket write then read gives the matrix back (complex)", "statement": "Writing a complex CSC matrix in the MatrixMarket format and reading it back gives the matrix written, without the entries whose real and imaginary parts are both within the tolerance.", "quantifier": "every complex CSC matrix with at least one kept entry, every tolerance, every option", "why_tests_cant": "the loop that writes tests the values differently from the loop that counts (|im| < tol instead of |im| > tol), which shows only for values with a small real part", "anchors": ["russell_sparse/src/write_matrix_market.rs:174-295", "russell_sparse/src/read_matrix_market.rs: read_matrix_market"]}
{"id": "C58", "title": "ODE stepping: where the solution ends and how it is recorded", "statement": "When OdeSolver::solve returns Ok without being stopped by a callback: with equal steps it has made ceil((x1-x0)/h_equal) steps (10 without h_equal and without error estimator) of one size not larger than h_equal and ends exactly at x1 with no rejected step; with variable steps it ends in [x1 - 10 eps, x1], accepted plus rejected steps do not exceed the steps computed, and these do not exceed n_step_max. With step recording the output holds x0 and the strictly increasing stations of the accepted steps (n_accepted+1 entries), their stepsizes and the selected components, also when the output is used again for a second solution.", "quantifier": "every numerical method that advances x by h and leaves the step counters to solve, every interval, every stepsize control (any sequence of accepted, rejected and diverging steps), every callback", "why_tests_cant": "the sequence of accepted and rejected steps is unbounded; in exact arithmetic the claims hold always, while in f64 the number of equal steps may be one too many for particular step counts (1/49)", "anchors": ["russell_ode/src/ode_solver.rs:177-380", "russell_ode/src/output.rs:423-685", "russell_ode/src/workspace.rs", "russell_ode/src/euler_forward.rs"]}
{"id": "C59", "title": "Explicit Runge-Kutta methods: the solution is made of steps of the tableau", "statement": "When OdeSolver::solve with an explicit Runge-Kutta method returns Ok, the solution is obtained from y0 by successive steps y + h sum b_j k_j, k_j = f(x + c_j h, y + h sum a_ji k_i) with the coefficients of the Butcher tableau of the method, one for every accepted step, whatever steps were rejected in between (first-same-as-last stages are reused correctly also after rejections); with variable steps every accepted step has an error estimate below one and a size at most m_max times the previous one; with equal steps all sizes are equal. The solution is determined by the sizes of the accepted steps. solve does not panic for a valid configuration. DoPri5 dense output within a step is the interpolation polynomial with the documented weights.", "quantifier": "all right-hand sides, all 14 explicit methods, all intervals, all histories of accepted and rejected steps, all dimensions", "why_tests_cant": "a stale stage after a rejected step shows only for particular sequences of accepted and rejected steps, and then as a small error", "anchors": ["russell_ode/src/explicit_runge_kutta.rs", "russell_ode/src/ode_solver.rs:177-380", "russell_ode/src/erk_dense_out.rs"]}
{"id": "C60", "title": "Orders of the explicit Runge-Kutta methods", "statement": "The order given by Method::information is the order of the method with the tableau in the code: the Taylor expansion in the stepsize of a step agrees with the one of the solution exactly up to that power, for every system of differential equations with polynomial right-hand side, in every dimension and with explicit dependence on x; hence the local error is at most C |h|^(p+1). The tableau satisfies all order conditions (rooted trees) up to p and violates one of p+1. The dense output of DoPri5 has order 4 at every point of a step. DoPri8, whose coefficients are decimals, satisfies the conditions of order 8 within 3e-29.", "quantifier": "all methods, all polynomial systems of all dimensions, all initial values, all stepsizes, all points within a step", "why_tests_cant": "convergence tests sample a few equations; a wrong digit in a coefficient lowers the order but still converges", "anchors": ["russell_ode/src/constants.rs", "russell_ode/src/enums.rs:60-250", "russell_ode/src/explicit_runge_kutta.rs", "russell_ode/src/erk_dense_out.rs"]}
{"id": "C61", "title": "Stepsize control of explicit Runge-Kutta methods", "statement": "After an accepted step the proposed stepsize is between m_min h and m_max h; after a rejected step (error estimate at least one) it is between m_min h and h, and smaller than h by the safety factor. (For parameters changed by update_params this fails, because the bounds are computed by new only.)", "quantifier": "all error estimates, all previous errors, all valid parameters, all methods", "why_tests_cant": "extreme error estimates (zero, huge) and all parameter combinations; tests do not update parameters and then look at stepsizes", "anchors": ["russell_ode/src/explicit_runge_kutta.rs:130-150", "russell_ode/src/explicit_runge_kutta.rs:250-370"]}
{"id": "C62", "title": "Dense output of explicit Runge-Kutta methods joins smoothly", "statement": "The dense output of DoPri5 and DoPri8 gives the solution before the step at its left end and the solution after the step at its right end, and its derivative at the two ends is the right-hand side there, so that the interpolated solution is continuously differentiable.", "quantifier": "all right-hand sides, all steps, all dimensions", "why_tests_cant": "the value at the right end is right for any coefficients of the higher terms; the derivative is off by a small amount", "anchors": ["russell_ode/src/erk_dense_out.rs"]}
{"id": "C63", "title": "Order of the error estimators", "statement": "Method::information gives as order of the estimator the smaller one of the orders of the two methods of the embedded pair, and the vector from which the error is estimated vanishes up to that power of the stepsize, for every polynomial system.", "quantifier": "all embedded methods, all polynomial systems of all dimensions", "why_tests_cant": "the order of the estimator enters only the stepsize control, so that a wrong one gives correct but less efficient solutions", "anchors": ["russell_ode/src/enums.rs:1-30", "russell_ode/src/enums.rs:140-160", "russell_ode/src/constants.rs"]}
{"id": "C64", "title": "Stiffness detection", "statement": "Over any sequence of calls (those before enough accepted steps are skipped), the detection counts the values h*rho beyond the limit that were not followed by ignored_after_nstep consecutive values within the limit; the first station recorded is the smallest station of these; stiffness is reported (as flag or as the error, as configured) by exactly the call that brings this number to ratified_after_nstep. It never panics.", "quantifier": "all sequences of values, all parameters with ignored_after_nstep > 0", "why_tests_cant": "unbounded interleavings of high and low values with resets in between", "anchors": ["russell_ode/src/detect_stiffness.rs", "russell_ode/src/explicit_runge_kutta.rs:270-320"]}
{"id": "C65", "title": "Second order tensors represent 3x3 matrices", "statement": "For each of the three Kelvin-Mandel representations (General, Symmetric, Symmetric2D): set_std_matrix/from_std_matrix accept exactly the representable matrices and then get_std, as_std_matrix and as_general give the components of that matrix; the components of the vector are determined by the matrix; clear, identity, set_vector, set_tensor, update, sym_set_std and sym_add_std change the represented matrix as documented (in 2D: in-plane components; to_std_matrix: into a matrix without out-of-plane components).", "quantifier": "all matrices, tensors, representations, indices and factors", "why_tests_cant": "the map between nine scaled components and nine entries is tested on a few tensors; a wrong factor for a symmetric or antisymmetric part vanishes on special tensors", "anchors": ["russell_tensor/src/tensor2.rs:120-760", "russell_tensor/src/constants.rs", "russell_tensor/src/enums.rs"]}
{"id": "C66", "title": "Algebra of first and second order tensors", "statement": "determinant, trace, norm, transpose, inverse, squared, deviator (with its norm and determinant), decompose, axial_vector, t2_add, t2_ddot_t2, t2_dot_t2, t2_dot_t1, t1_dot_t2, t1_dyad_t1 and the products of vectors compute on Kelvin-Mandel components what their names say about the represented matrices, in every representation; tensors of different representations are refused; inverse gives None exactly if |det| <= tolerance.", "quantifier": "all tensors in all three representations", "why_tests_cant": "the formulas are hand-expanded polynomials of up to nine variables with roots of two, separately for each representation", "anchors": ["russell_tensor/src/tensor2.rs:760-1500", "russell_tensor/src/operations_t2.rs", "russell_tensor/src/operations_mix1.rs", "russell_tensor/src/operations_t1.rs"]}
{"id": "C67", "title": "Invariants of second order tensors", "statement": "The principal and deviatoric invariants are the coefficients of the characteristic polynomials of the matrix and of its deviator; the stress and strain invariants are the documented functions of trace and deviator; all are unchanged by rotations and reflections; for symmetric tensors J2 >= 0, sigma_t = sqrt(2 J2), the Lode invariant is within [-1, 1] and gives, with sigma_s and sigma_t, the eigenvalues; new_from_octahedral(_alpha) gives a tensor with the given invariants.", "quantifier": "all tensors, all orthogonal matrices", "why_tests_cant": "eigenvalues and rotations range over continua; tests compare a few tensors with tolerances", "anchors": ["russell_tensor/src/tensor2.rs:1500-2300"]}
{"id": "C68", "title": "First derivatives of the invariants", "statement": "For each deriv1_* function the result is the derivative of the invariant: along every differentiable curve of tensors through sigma, the derivative of the invariant equals the double contraction of the result with the velocity. Where the derivative does not exist (norm 0, J2 <= 1e-9) None is returned and the result is not touched; non-symmetric tensors and mismatching representations are refused.", "quantifier": "all tensors, all differentiable curves through them", "why_tests_cant": "tests compare with numerical differentiation on a few tensors with tolerances", "anchors": ["russell_tensor/src/derivatives_t2.rs"]}
{"id": "C69", "title": "Fourth order tensors represent 3x3x3x3 arrays", "statement": "For each Kelvin-Mandel representation: set_std_array/from_std_array and set_std_matrix accept exactly the representable arrays (minor-symmetric; in-plane for 2D) and then get_std, as_std_array and as_std_matrix give the components of that array; the coefficients are determined by the array; set_tensor, update and sym_set_std change the array as documented (in-plane components in 2D; to_std_array: into an array without out-of-plane components). The constant tensors act on every second order tensor as identity, transposition, trace times identity and the isotropic, symmetric, skew, deviatoric and symmetric-deviatoric projections. calc_inverse gives the inverse under double contraction whenever it succeeds, succeeds if the coefficients of the inverse have absolute row sums below 1e15, and fails on non-invertible tensors; operations on mismatching representations are refused.", "quantifier": "all arrays, tensors, representations, indices and factors", "why_tests_cant": "the 81 components are mapped by case analysis with factors of 1, sqrt 2 and 2 for each pair of minor symmetries; tests use a few sample arrays with tolerances", "anchors": ["russell_tensor/src/tensor4.rs", "russell_tensor/src/constants.rs"]}
{"id": "C70", "title": "Operations with fourth order tensors", "statement": "t4_add, t4_ddot_t4(_update), t4_ddot_t2(_update), t2_ddot_t4, t2_ddot_t4_ddot_t2, t2_dyad_t2(_update), t4_ddot_t2_dyad_t2_ddot_t4 and the products t2_odyad_t2, t2_udyad_t2, t2_ssd and t2_qsd_t2 compute on Kelvin-Mandel coefficients the index expressions documented for the represented arrays, in every representation of the arguments and with both settings of use_loops; mismatching representations are refused.", "quantifier": "all tensors in all representations, all factors", "why_tests_cant": "the mixed products are hand-expanded into up to 81 polynomials with roots of two for each representation; a wrong term vanishes on special tensors", "anchors": ["russell_tensor/src/operations_t4.rs", "russell_tensor/src/operations_mix1.rs", "russell_tensor/src/operations_mix2.rs"]}
{"id": "C71", "title": "Second derivatives of tensor invariants", "statement": "deriv_inverse_tensor(_sym) and deriv_squared_tensor(_sym) give the derivative of the inverse and of the square of a tensor; deriv2_invariant_jj2, jj3, sigma_t, q and lode give the Hessian of the invariant on symmetric tensors: the invariant has a gradient near the tensor and the result is its derivative along every curve. The last three return J2 if J2 > 1e-9 and otherwise None, with the output unchanged. The auxiliary structures may be reused between calls in any state left by a call. Wrong representations cause a panic.", "quantifier": "all tensors, all auxiliary structures satisfying the invariant of new, all curves", "why_tests_cant": "tests compare a few tensors with numerical differences to 1e-5 or so; wrong terms that vanish at those tensors, or wrong reuse of the buffers, are not seen", "anchors": ["russell_tensor/src/derivatives_t4.rs"]}
{"id": "C72", "title": "Linear elasticity", "statement": "For every LinElasticity object made by new and any sequence of setters: calc_stress is the law of Hooke lambda tr(eps) I + 2 G eps with the current Young's modulus and Poisson's coefficient (3D and plane strain); in plane stress the stress out of the plane is zero and the strain completed by out_of_plane_strain satisfies the 3D law; get_bulk_shear are the moduli of the volumetric and deviatoric parts and set_bulk_shear sets them; the energy is positive for E > 0 and -1 < nu < 1/2; calc_compliance, if it succeeds, maps stress to strain, and succeeds for -1 < nu < 1/2 and E > 3e-15 outside of plane stress. Wrong calls are refused.", "quantifier": "all parameters outside the poles, all call histories, all strains and stresses", "why_tests_cant": "tests use a few parameter pairs and strains; coefficients left over from earlier setters and the consistency between the three kinds of modulus are not tested in general", "anchors": ["russell_tensor/src/lin_elasticity.rs"]}
{"id": "C73", "title": "Third order tensors represent 3x3x3 arrays", "statement": "For each representation (general, symmetric, symmetric 2D) and each of the two cases (pair of indices first or last): set_std_array/from_std_array and set_std_matrix accept exactly the representable arrays and then get_std, as_std_array and as_std_matrix give the components of that array; the coefficients are determined by the array; set_tensor, update, t3_add and sym_set_std act on the array as documented; t3_dot_t1 and t3_ddot_t2 are the single and double contraction; the constant permutation tensor is the Levi-Civita symbol; mismatching representations are refused.", "quantifier": "all arrays, tensors, representations, cases, indices and factors", "why_tests_cant": "the 27 components are mapped through index tables with factors 1, sqrt 2 for two cases; tests use a few sample arrays", "anchors": ["russell_tensor/src/tensor3.rs", "russell_tensor/src/operations_t3.rs"]}
{"id": "C74", "title": "Jacobi eigenvalues of symmetric matrices", "statement": "If mat_eigen_sym_jacobi returns Ok(k): 1 <= k <= 20; V is orthogonal; the symmetric matrix A having the upper triangle of the given matrix satisfies ||A - V diag(l) V^T||_F <= ((k-1) n(n-1)/2 + 2) 1e-15 in exact arithmetic; the sum of l is the trace; A v_p - l_p v_p is within that bound; every eigenvalue of A is that near to some l_p and every l_p to an eigenvalue. Nearly diagonal matrices need one iteration and 2x2 matrices at most two. Wrong dimensions are refused with the documented errors and the only other error is non-convergence.", "quantifier": "all matrices of any size over the reals", "why_tests_cant": "tests use a few matrices; the in-place updates of three index ranges and the running sums b, z must be right for all sizes and pairs", "anchors": ["russell_lab/src/matrix/mat_eigen_sym_jacobi.rs"]}
{"id": "C75", "title": "Spectral representation of symmetric tensors", "statement": "Spectral2::decompose yields three eigenprojectors that are symmetric, have trace one, annihilate each other and sum to the identity, and with lambda recompose the tensor within the error of the Jacobi rotations (3e-15 in 2D, 59e-15 in 3D, Frobenius norm, exact arithmetic); lambda sums to the trace and every eigenvalue is near to one of lambda; an object may be used repeatedly. In 2D decompose always succeeds. compose gives the tensor with the given eigenvalues (products of such tensors are those of the eigenvalues). octahedral_basis is an orthonormal change of coordinates with the hydrostatic axis. Wrong representations or dimensions are refused.", "quantifier": "all symmetric tensors, objects made by new and any number of calls, all eigenvalues given to compose", "why_tests_cant": "tests use a few sample tensors", "anchors": ["russell_tensor/src/spectral2.rs"]}
{"id": "C76", "title": "Continuation driver of the nonlinear solver: accounting, output and endings", "statement": "For every stepping method that leaves the driver's counters alone (both methods of the crate do): a run of Solver::solve that returns went through n_accepted + 1 points (the given one and one per accepted step), ends at the last of them, recorded exactly these points in order (when an output object is given, until its callback asks to stop), made n_step = n_accepted + n_rejected (+ one failed last step) steps, at most n_step_max of them, with fewer than n_continued_failure_max rejections in a row, and ended in one of the listed ways: criterion met, callback asked to stop, step count exhausted, a graceful failure status, or too small stepsize. Rejection states are never returned. With constant or listed stepsizes no step is rejected. The stepsize after accepted and rejected steps stays within the stated factors. Counterexamples: Success is returned when n_step_max steps did not reach the criterion; Stop::Steps(n) counts attempted steps and may be missed; a failure status may be hidden by the precise stop; m_failure >= 1 is accepted.", "quantifier": "all methods, configurations that validate, initial states, stop criteria, stepsize options, output options, user functions (including failing ones)", "why_tests_cant": "tests run a few smooth problems; the accounting must hold for every sequence of accepted, rejected and failed steps", "anchors": ["russell_nonlin/src/solver.rs", "russell_nonlin/src/config.rs", "russell_nonlin/src/workspace.rs", "russell_nonlin/src/stats.rs", "russell_nonlin/src/output.rs", "russell_nonlin/src/enums.rs"]}
{"id": "C77", "title": "Natural parameter continuation", "statement": "In every run of solve with the natural method that returns, lambda moves strictly in the chosen direction from each accepted point to the next and never passes a prescribed lambda; each accepted point has a residual or a last correction within the configured tolerances (evaluated at the point where the iteration stopped), was reached from the previous one by the Euler predictor and Newton corrections with at most n_iteration_max iterations; meeting the criterion MaxLambda/MinLambda means lambda is within 1e-10 of the target and not past it. For G(u, l) = K u - l f - g with exact linear solver all accepted points solve the equations exactly and every step needs one residual evaluation. The trial point of every step comes from its starting point by Newton's iterations (solve with the Jacobian at the current point, subtract). rdiff is nonnegative, zero on straight paths, and from the second accepted step on it compares the last two increments of three consecutive accepted points. Listed increments are used in order: without a prescribed lambda, the final lambda is the initial one plus the sum of the first n_accepted entries. If the initial direction points away from the target, the criterion is never met (and Success may be returned nevertheless: counterexample). The option to write the matrix after nstep steps writes at the very first Jacobian for every positive nstep, and never for nstep = 0.", "quantifier": "all systems, linear solvers, configurations that validate, initial states, directions, stop criteria and stepsize options", "why_tests_cant": "tests follow a few known paths; direction, target and convergence must hold along every run", "anchors": ["russell_nonlin/src/solver_natural.rs", "russell_nonlin/src/iteration_error.rs", "russell_nonlin/src/system.rs"]}
{"id": "C78", "title": "Pseudo-arclength continuation", "statement": "The initial tangent vector (both ways of computing it) is a unit vector in the kernel of [Gu, Glambda] with d(lambda)/ds of the chosen sign, and the first step predicts the given initial change of lambda. Every correction of the bordering algorithm solves the augmented linear system (Gu du + Gl dl = -G, theta t.du + (2 - theta) t_lambda dl = -N) and the two algorithms agree; the bordering gives up only for a small denominator. In every run of solve that returns, each accepted point was reached from the previous one along a unit tangent vector of derivatives evaluated during the run, with positive step length, with residual and constraint within the tolerance (or last correction within its tolerances), and the tangent vector keeps its direction; when convergence by corrections is disabled and no lambda is prescribed, consecutive points are at least the step length minus the tolerance apart. Steps targeting a prescribed lambda end within tol / (2 |t_lambda|) of it. For linear problems all accepted points are exact, on one ray, without corrections. rdiff is nonnegative and zero for unchanged tangents. Deviations: after corrections the tangent vector is not that of the accepted point; the predictor of a step targeting lambda has lambda = l + 4 (l1 - l) t_lambda^2 instead of l1; theta = 0 remains for the rest of the run; rejection keeps the new tangent vector; the option to write the matrix panics without bordering.", "quantifier": "all systems, exact linear solvers, configurations that validate, initial states, directions, stop criteria and stepsize options", "why_tests_cant": "tests trace a few curves with fixed parameters; that corrections and tangents satisfy their equations along every run, for both linear algorithms, needs a proof", "anchors": ["russell_nonlin/src/solver_arclength.rs", "russell_nonlin/src/iteration_error.rs"]}
{"id": "C79", "title": "Backtracking line search", "statement": "LineSearcher::search accepts exactly the parameters 0<c1<1, 0<rho<1, 0<min_alpha<1, max_iterations>=1 and slope<0, and otherwise returns an error without calling the function. If it succeeds, the returned step is rho^(m-1) where m is the returned number of evaluations, it satisfies the Armijo condition f(x+alpha p) <= f(x) + c1 alpha slope (so f decreases), no earlier trial satisfied it, min_alpha <= alpha <= 1 and m <= max_iterations. If some admissible trial satisfies the condition and the function never fails, the search succeeds. For every differentiable function and true descent direction the search succeeds if enough iterations and a small enough min_alpha are allowed. With the default parameters the error 'step size too small' cannot occur. line_search and line_search_with_stats agree.", "quantifier": "all parameters, points, directions, slopes, functions (with errors and side effects on the extra arguments)", "why_tests_cant": "tests run a few functions; minimality of the number of backtracks and success for every differentiable function need a proof", "anchors": ["russell_lab/src/algo/line_search.rs"]}
{"id": "C80", "title": "Newton's method for nonlinear systems", "statement": "NewtonSolver::solve validates its parameters and the dimension before calling any function. On success every component of F at the returned x is below the tolerance in absolute value, and x was reached from the initial point by fewer than max_iterations steps, each along the solution p of J(x) p = -F(x): x + p without line search; with line search x + alpha p with the first alpha among alpha0, alpha0/2, ..., alpha0/2^19 with sufficient decrease of |F|^2/2, or the last one if there is none; the counters of Stats count these steps. 'solution diverged' is returned only when the residual exceeds divergent_tol times the initial one, 'failed to converge' only after exactly max_iterations steps; any other error message comes from a callback or from the linear solver; no panic. For affine functions with max_iterations >= 2 the solver succeeds with an exact solution after at most one step. Deviations: the residual after the last allowed step is not examined, so an exact solution may be reported as a failure; an exhausted line search is accepted silently although the merit function grew.", "quantifier": "all functions F and J given by callbacks that compute them or fail, all exact linear solvers that may fail, all parameters and initial points of dimension below 2^31", "why_tests_cant": "tests check convergence of a few systems; what every successful or failed run guarantees about the returned point needs an invariant of the iteration", "anchors": ["russell_lab/src/algo/newton_solver.rs", "russell_lab/src/algo/stats.rs"]}
{"id": "C81", "title": "Finite-difference derivatives", "statement": "deriv1_forward7 and deriv1_backward7 evaluate the function at x, x\u00b1h, ..., x\u00b16h only, on one side of x, and their error is at most 217392 M h^6 when the remainder of the expansion of degree 6 is bounded by M |u|^7; similarly deriv2_forward8 and deriv2_backward8 (order 6), deriv2_central9 (order 8) and deriv1_central5 (order 4, four or eight evaluations within h of x, whether or not the improved step is used). All are exact for polynomials up to degree 6, 7, 9 and 4. The checks deriv*_approx_eq pass exactly when the given derivative is within the tolerance of the numerical one and otherwise panic. num_jacobian returns alpha times the partial derivatives, row for the component of the function and column for the variable, with an error of order 4 (exact for functions of degree 4 in each variable), restoring y; an error of the function is returned (the documentation says panic). vec_deriv1_approx_eq and vec_deriv2_approx_eq accept a vector of derivatives when every component is closer to the true one than the tolerance less the error of the formula, and whenever they accept, every component is within the tolerance plus that error; an error of the function makes them panic.", "quantifier": "all functions, points, extra arguments, dimensions; exact arithmetic over any ordered field", "why_tests_cant": "tests compare with a few derivatives up to a tolerance; exactness for all polynomials and the error bounds for all functions need algebra", "anchors": ["russell_lab/src/check/deriv1_central.rs", "russell_lab/src/check/deriv1_forward.rs", "russell_lab/src/check/deriv1_backward.rs", "russell_lab/src/check/deriv2_central.rs", "russell_lab/src/check/deriv2_forward.rs", "russell_lab/src/check/deriv2_backward.rs", "russell_lab/src/algo/num_jacobian.rs", "russell_lab/src/vector/vec_deriv1_approx_eq.rs", "russell_lab/src/vector/vec_deriv2_approx_eq.rs"]}
{"id": "C82", "title": "Backward Euler method", "statement": "A successful step of BwEuler returns w with a scaled residual of w = y + h f(x+h, w) at or below the Newton tolerance; the iterates form a Newton sequence whose matrix is 1 - h J at the current point (or the kept matrix in the modified method), and the counters of functions, Jacobians, factorizations and iterations are what was done. For f affine in y the step always succeeds with two iterations and solves the implicit equation exactly. OdeSolver::solve with BwEuler makes ceil((x1-x0)/h) equal steps (ten by default), every one of which satisfies the implicit equation within the tolerance, and ends at x1. Deviations: with the modified Newton method a first step that needs no iteration leaves the matrix unfactorized and the next step fails; the result of the last allowed iteration is never examined.", "quantifier": "all systems, analytical or numerical Jacobian, dimensions, initial values, spans and stepsizes; exact real arithmetic, exact linear solver", "why_tests_cant": "tests integrate a few sample problems and compare with reference values up to a tolerance; that the implicit equation holds at every step for every system is a loop invariant", "anchors": ["russell_ode/src/euler_backward.rs", "russell_ode/src/ode_solver.rs", "russell_sparse/src/numerical_jacobian.rs"]}
{"id": "C83", "title": "Parameters of the ODE solvers and construction of a solver", "statement": "Params::validate accepts parameters if and only if they are in the documented ranges, whatever the method; the parameters made by Params::new are valid for every method. Tolerances are refused exactly if the absolute or relative one is not above 10 epsilon; accepted ones give positive tolerances, are used as given by all methods but Radau5, which keeps their quotient and uses rel' with (10 rel')^3 = rel^2 (smaller than the given one only above 1e-3). set_tolerances changes nothing else. OdeSolver::new succeeds if and only if the parameters are valid and the method is Radau5 in case of a mass matrix, selects the solver of the method and never panics; update_params succeeds if and only if the method is unchanged and the parameters are valid. Valid parameters satisfy the assumptions of the properties of the methods, so solve with an explicit method never panics. Counterexamples: a given Newton tolerance is not checked (negative ones pass); m_min = 0.5 is accepted though the message requires m_min < 0.5; m_max < 1 is accepted and then a rejected Radau5 step is repeated with a larger stepsize.", "quantifier": "all parameters (real numbers), methods, tolerances, systems with and without mass matrix", "why_tests_cant": "tests try a handful of invalid values, one field at a time; the equivalence with the ranges and the sufficiency for the solvers concern all combinations", "anchors": ["russell_ode/src/params.rs", "russell_ode/src/ode_solver.rs:132-156", "russell_ode/src/ode_solver.rs:383-391"]}
{"id": "C84", "title": "Radau IIA: coefficients and Newton iterations", "statement": "The constants of radau5.rs are those of the Radau IIA method of order 5: nodes, transformation T, TI, eigenvalues and error weights agree with the exact algebraic numbers (or with the exact tableau) to the stated digits. An iteration of the real and the complex linear system is one step of the simplified Newton method for the transformed collocation equations, with the factorized matrices; if its increments vanish the stages satisfy M z_i = h sum_j a_ij f(x + c_j h, y + z_j). For linear systems one iteration is exact up to the rounding of T and TI, for pure quadrature it is exact. The polynomial of the dense output and of the starting values is the cubic through the old solution and the stages.", "quantifier": "all systems with or without mass matrix, dimensions, points, stepsizes; exact real and complex arithmetic, exact linear solvers", "why_tests_cant": "tests compare final results up to a tolerance that would hide wrong digits of the constants, wrong starting values and a wrong transformation compensated by more iterations", "anchors": ["russell_ode/src/radau5.rs"]}
{"id": "C85", "title": "Radau5: steps, error estimate and stepsize control", "statement": "A step of Radau5 starts at zero or at the extrapolated polynomial, makes Newton iterations with matrices for the current point and stepsize (or for a previous one if the last accepted step allowed it), stops when the estimated remaining error is below the tolerance or flags divergence with a multiplier at most 4/5; without divergence the error is the scaled norm of the embedded estimator, computed a second time only after rejected or in first steps. OdeSolver::solve with Radau5 and variable steps accepts only steps with converged iterations and error below one; with equal steps it makes ceil((x1-x0)/h) of them. The new stepsize is the old one over a number between m_min and m_max given by the error (and the predictive controller). Dense output returns the old and new solutions at the ends and the stages in between. Using two threads changes no successful result. Deviations: equal steps accept iterations flagged as diverging; a second call of solve reuses the Jacobian matrix of the first problem; the shortened last step may reuse matrices of a different stepsize; m_max below one is allowed and enlarges the stepsize after a rejected step.", "quantifier": "all systems, dimensions, initial values, spans, parameters; exact real arithmetic, exact linear solvers", "why_tests_cant": "tests integrate a few stiff problems; that every accepted step of every problem has converged, with the stated matrices, is an invariant of the solver, and the deviations need particular histories", "anchors": ["russell_ode/src/radau5.rs", "russell_ode/src/ode_solver.rs", "russell_ode/src/workspace.rs"]}
{"id": "C86", "title": "Quadrature::integrate: Gauss estimates over a dyadic partition of the interval", "statement": "With valid parameters and different bounds, the adaptive quadrature calls the function only between the bounds, does not panic, and returns one of its messages, an error of the function, or an integral that is the sum of Gauss estimates over the halves of intervals covering [a, b] exactly once, each of them at least |b-a|/2^32 long and either each meeting the error criterion or with a total difference of the estimates within three times the tolerance; the counters are those of these intervals and the iterations do not exceed the maximum. The rules (6 to 14 points) have positive weights, inner abscissae, and integrate polynomials of degree up to 2n-1 exactly to the 16 digits of the tables, hence so does every successful call, over any interval and with any tolerance. Affine functions need one iteration. Equal bounds and invalid parameters are errors before the function is called. Deviation: bounds that agree to about 47 binary digits make an unsigned subtraction underflow instead of giving the documented error.", "quantifier": "all functions (also failing ones), bounds, parameters; exact real arithmetic", "why_tests_cant": "tests integrate a handful of functions; that the pieces visited by the in-place level bookkeeping always form a partition of the interval is an invariant over all refinement histories", "anchors": ["russell_lab/src/algo/quadrature.rs"]}
{"id": "C87", "title": "InterpChebyshev: the polynomial through the Chebyshev-Gauss-Lobatto nodes, fixed or adaptive degree", "statement": "After new, every access fails until data is set. After set_function(N), set_data or set_gen_data, eval and eval_using_trig return the value of the unique polynomial of degree at most N through the N+1 Chebyshev-Gauss-Lobatto values (arguments outside [xa, xb] are clamped), and get_xy_data returns these nodes and values; polynomials of degree at most N are reproduced. The function is called only inside the interval and its errors are returned. set_gen_data samples the polyline through the given points. adapt_function stops at the smallest N for which the trailing coefficients of the interpolants of degrees N+1 and N+2 are below the tolerance and returns the interpolant of degree N, and otherwise fails; for polynomials of degree d with d+2 <= nn_max and a positive tolerance it succeeds with N <= d; estimate_max_error returns the largest difference over the uniform stations. Deviations: get_xy_data after constant data, false convergence of the adaptive degree when two consecutive trailing coefficients vanish, a failed set_function or adapt_function leaves an object that is ready but returns mixtures of old and new data, and an error of the function in the last step of adapt_function panics.", "quantifier": "all functions (also failing ones), intervals, degrees, tolerances; exact real arithmetic", "why_tests_cant": "tests compare with a few smooth functions and tolerances; that the Clenshaw recurrence on the computed coefficients is the unique interpolant for every degree needs the discrete orthogonality of cosines", "anchors": ["russell_lab/src/algo/interp_chebyshev.rs"]}
{"id": "C88", "title": "RootFinder: all roots of the Chebyshev interpolant, and their Newton refinement", "statement": "chebyshev fails without data and when the trailing coefficient is below its tolerance; otherwise it returns, in ascending order, all roots of the interpolating polynomial in [xa, xb], each at least as often as its multiplicity, and at most as many numbers as the degree; any other number returned comes from a complex root whose imaginary part and distance to the interval are within the tolerances, moved to the nearest bound if the degree is at least two. If no complex root is within the tolerances besides the real roots in the interval, exactly the roots are returned. refine replaces each root by the first Newton iterate that meets a stopping criterion (|f|, |difference quotient| or |step| below its tolerance), fails if there is none within the maximum number of iterations or if the function fails, keeping the roots already refined; the difference quotient is a derivative within the stepsize, and affine functions need two iterations. Deviations: for degree one the root is not moved to the interval; a point with vanishing derivative is accepted as a root; the refined root may leave the interval.", "quantifier": "all interpolants, tolerances, and functions (also failing ones); eigenvalues by contract; exact arithmetic", "why_tests_cant": "tests check a few functions; that the eigenvalues of the companion matrix are the roots of the series with multiplicities for every degree is an algebraic identity", "anchors": ["russell_lab/src/algo/root_finder.rs"]}
{"id": "C89", "title": "mat_inverse: inverse and determinant", "statement": "If mat_inverse(ai, a) succeeds for a square matrix, the number returned is the determinant of a and ai is its two-sided inverse (for the empty matrix the number is zero and nothing is written). Non-square matrices and an ai of other dimensions are refused. Up to order three exactly the matrices whose determinant exceeds 1e-15 in absolute value are accepted; from order four on exactly the non-singular ones. Deviation: the tolerance is absolute, so the well-conditioned matrix 1e-8 times the identity of order two is refused, while that of order four is inverted.", "quantifier": "all matrices of all orders and dimensions; exact arithmetic over an ordered field; dgetrf/dgetri by contract", "why_tests_cant": "tests invert a few matrices; the sign of the determinant from the pivots must hold for all sequences of interchanges", "anchors": ["russell_lab/src/matrix/mat_inverse.rs"]}
{"id": "C90", "title": "Metrics: metric coefficients of a mapping, gradient and Laplacian in reference coordinates", "statement": "Given first derivatives of the right dimensions (and second derivatives unless the metrics is homogeneous), calculate_2d and calculate_3d return the squared Jacobian determinant and set the covariant vectors to the columns of the Jacobian matrix, the contravariant vectors to the rows of its inverse, the two metric matrices to J^T J and its inverse, and the Christoffel symbols such that each second derivative vector is the combination of the base vectors with the symbols as coefficients. They succeed exactly if the squared determinant exceeds 1e-15, and refuse wrong dimensions or missing second derivatives. For a twice differentiable mapping X and function phi, the gradient of phi is the sum of the derivatives of phi(X) times the contravariant vectors, and the Laplacian of phi is the contraction of the contravariant matrix with the second derivatives of phi(X) minus the coefficients ell_coefficient_for_laplacian times the first derivatives. Deviations: ell_coefficient_for_laplacian panics for homogeneous metrics (its documentation says the opposite), a square of side 2e-4 is refused, second derivatives of wrong dimensions are accepted.", "quantifier": "all mappings, points, functions; dimensions two and three; exact arithmetic", "why_tests_cant": "tests compare the coefficients of a few mappings at a few points with analytical values", "anchors": ["russell_pde/src/metrics.rs"]}
{"id": "C91", "title": "Transfinite2d: boundary interpolation, derivatives, and triangulation", "statement": "new accepts exactly lists of four functions. The mapping reproduces the four boundary curves if and only if their ends meet at the corners; mappings of the form A(r)+s B(r)+C(s)+r D(s), in particular bilinear ones, are reproduced. point_and_derivs returns the same point as point, and its partial derivatives and mixed second derivative are the derivatives of the mapping if the given functions are the derivatives of the boundary curves; the pure second derivatives are right if the second derivatives of the curves are given. Second derivatives are only written if all three are requested. triangulate panics with fewer than two points in a direction; otherwise it returns the images of an increasing grid from -1 to 1, and two triangles per cell, each once, with valid indices, counter-clockwise in the reference square, which they cover. Deviations: curves that do not meet are accepted; without second derivatives of the curves the pure second derivatives are reported as zero, also for curved boundaries.", "quantifier": "all boundary curves, points, and grids; exact real arithmetic", "why_tests_cant": "tests check a few mappings and grids", "anchors": ["russell_pde/src/transfinite_2d.rs"]}
{"id": "C92", "title": "Transfinite3d: boundary interpolation and derivatives in three dimensions", "statement": "new accepts exactly lists of six functions. The mapping takes the six faces of the reference cube to the given boundaries if and only if these meet at the twelve edges. Mappings that are sums of mappings linear in one of the coordinates are reproduced. point_and_derivs returns the same point as point, and the three partial derivatives of the mapping if the given functions are the derivatives of the boundaries. The six second derivatives (each mixed one in both orders) are right if the second derivatives of the boundaries are given, or if they are not given and vanish; they are written only if all six are requested. Deviations: boundaries that do not meet are accepted; without the second derivatives of the boundaries also the mixed second derivatives are wrong, already for a face that is twisted bilinearly.", "quantifier": "all boundary surfaces and points; exact real arithmetic", "why_tests_cant": "tests check a brick and a quarter of a ring at a few points", "anchors": ["russell_pde/src/transfinite_3d.rs"]}
{"id": "C93", "title": "Spc1d: Chebyshev-Gauss-Lobatto collocation in one dimension", "statement": "Spc1d::new accepts 2 to 2049 points and non-periodic boundary conditions, and nothing else. Whenever solve_sps or solve_lmm returns a vector, it holds the values, at the mapped Chebyshev-Gauss-Lobatto nodes, of a polynomial of degree less than the number of nodes which satisfies -k u'' + alpha u = source at the inner nodes, and the prescribed value or the prescribed outflow at each end; any linear solver that returns solutions only will do. Conversely the nodal values of such a polynomial solve both assembled systems, so that both strategies succeed with a solver that finds solutions when there are some. The Poisson problem with a value prescribed on at least one end has exactly one such polynomial for any source; both strategies return it, and if the exact solution is a polynomial of that degree, its nodal values are returned. With values prescribed on both ends, k > 0 and alpha >= 0 there is also exactly one such polynomial, returned by both strategies. calculate_flow_vectors returns -k times the derivative for such polynomials. Deviation: solve_sps panics, on problems that validate accepts, exactly when flows are prescribed on both ends, or when there are two nodes with prescribed values.", "quantifier": "all intervals, numbers of nodes, histories of boundary conditions, sources, reaction coefficients, and linear solvers; exact real arithmetic", "why_tests_cant": "tests compare a few solutions at a few numbers of nodes", "anchors": ["russell_pde/src/spc_1d.rs"]}
{"id": "C94", "title": "Spc2d: Chebyshev-Gauss-Lobatto collocation on a rectangle", "statement": "Spc2d::new accepts 2 to 2049 points per axis and non-periodic boundary conditions, and nothing else; the prescribed nodes are those on sides with an essential condition. Whenever solve_sps or solve_lmm returns a vector, it holds the nodal values of a polynomial (degree less than nx in x and less than ny in y) which satisfies -kx u_xx - ky u_yy + alpha u = source at the inner nodes; the value given by the last essential side a node is on (order Xmin, Xmax, Ymin, Ymax); and, at the other boundary nodes, the sum of the outflows (-kx u_x, -ky u_y along the outward normals) through the sides the node is on equal to the sum of the given flows. Conversely the nodal values of such a polynomial solve both assembled systems, so both strategies succeed with a solver that finds solutions when there are some. With values prescribed on all sides, kx, ky > 0 and alpha >= 0 there is exactly one such polynomial for any source, and both strategies return its nodal values. calculate_flow_vectors returns (-kx u_x, -ky u_y) for such polynomials and an error for a vector of the wrong length. solve_lmm never panics on accepted problems. Deviation: solve_sps panics, on problems that validate accepts, exactly when no side is essential or every node is on an essential side.", "quantifier": "all rectangles, numbers of nodes, histories of boundary conditions, sources, coefficients, and linear solvers; exact real arithmetic", "why_tests_cant": "tests compare a few solutions at a few numbers of nodes", "anchors": ["russell_pde/src/spc_2d.rs"]}
{"id": "C95", "title": "SpcMap2d: collocation on domains given by a transfinite mapping", "statement": "SpcMap2d::new accepts 2 to 2049 points per axis and non-periodic boundary conditions, and nothing else; the prescribed nodes are those on sides with an essential condition. Whenever solve_sps or solve_lmm returns a vector, the mapping is regular (squared Jacobian determinant above 1e-15) at the nodes where equations are used, and the vector holds the nodal values of a polynomial u on the reference square such that the function phi of the physical domain with phi(x(r,s)) = u(r,s) (which exists near those nodes) satisfies -k Laplace(phi) + alpha phi = source at the inner nodes, the value given by the last essential side a node is on, and, at the other boundary nodes, the sum over the sides of -k (directional derivative of phi along the tangent of the grid line crossing the side, divided by the inner product of that tangent with the outward unit normal) equal to the sum of the given flows. If the grid lines cross the side at a right angle this is the flow along the outward unit normal. Conversely such a polynomial solves both assembled systems and is found by a solver that finds solutions. calculate_flow_vectors returns -k grad(phi). With consistent conditions and a solver that does not panic, solve_lmm panics exactly when the mapping is singular at some node, solve_sps exactly when no side or every node is essential or the mapping is singular at an unknown node. Deviation: on a side that the grid lines do not cross at a right angle the prescribed flow is not the normal one, and results for exact data of an exactly representable solution are wrong.", "quantifier": "all transfinite mappings with twice continuously differentiable boundary curves, numbers of nodes, histories of boundary conditions, sources, coefficients, and linear solvers; exact real arithmetic", "why_tests_cant": "tests use a few domains (mostly orthogonal grid lines at natural sides) and solutions", "anchors": ["russell_pde/src/spc_map_2d.rs"]}
{"id": "C96", "title": "System and the sample problems: Jacobians, mass matrices, solutions and invariants", "statement": "System: however often and in whatever order set_jacobian and set_mass are called, the storages of the two matrices agree with the one announced; a call fails exactly if the other matrix is there with another storage, and then changes nothing; without a given number of non-zeros n(n+1)/2 is reserved for a triangle and n^2 otherwise. Samples: the functions are the documented right-hand sides; each Jacobian callback writes alpha times the derivative of the function (wherever that exists) into any matrix with the announced size, room and storage, never putting more entries than announced; where y_fn_x is given, it is a solution of M y' = f(x, y) with the given initial values, and the only one (simple equation, Kreyszig eq. 6 and ex. 4, Hairer-Wanner eq. 1, simple system with mass matrix for every storage). Robertson: the sum of the components is constant along solutions. Arenstorf: the Jacobi integral is constant along solutions. Amplifier: the mass matrix is singular and the initial values satisfy the algebraic constraints. brusselator_pde: for two points or more, reaction plus five-point Laplacian with mirrored or periodic boundary plus inhomogeneity, Jacobian the derivative, initial values at the nodes; it panics with less than two. Deviation: with second_book the documented equality of the values at opposite sides is lost at once (the sides are separate unknowns).", "quantifier": "all states, scaling factors, storages, histories of calls, numbers of points, diffusion coefficients, all solutions on all intervals; exact real arithmetic", "why_tests_cant": "tests compare the Jacobians with finite differences at one point and integrate from one initial state with a tolerance", "anchors": ["russell_ode/src/samples.rs", "russell_ode/src/system.rs"]}
{"id": "C97", "title": "TransfiniteSamples: closed forms, derivatives, bijectivity", "statement": "quadrilateral_2d is the bilinear interpolation of the corners and panics exactly if a corner has fewer than two coordinates. quarter_ring_2d and half_ring_2d are polar coordinates; for 0 < a < b they map the reference square one-to-one onto the quarter or half of the ring and the Jacobian is positive. quarter_perforated_lozenge_2d joins the arc to the straight side by segments; for a > 0 its Jacobian is positive on the whole square if and only if sqrt(2) a < b. brick_3d stretches the cube; quarter_ring_3d is cylindrical coordinates. For all of them point_and_derivs returns the partial derivatives of first and second order of that closed form. Deviation: a lozenge with a < b <= sqrt(2) a is accepted although the mapping is folded.", "quantifier": "all parameters, all reference coordinates; exact real arithmetic", "why_tests_cant": "tests look at the corners for one set of parameters; the derivative closures are not compared with the boundary closures for all parameters", "anchors": ["russell_pde/src/transfinite_samples.rs"]}
{"id": "C98", "title": "ProblemSamples: the analytical solution solves the problem, and only it", "statement": "For each of the sample problems of russell_pde (d1_problem_01 to 05, d2_problem_01 to 09) the returned boundary conditions are accepted by validate, and the returned analytical solution is a classical solution of the returned problem: the differential equation with the returned source (and Helmholtz coefficient), the prescribed values, the prescribed flows in the outward normal direction. Any other classical solution with the same data agrees with it on the whole domain. Problem 3 panics exactly if the keyword is not one of the five documented ones. For problem 4 the truncated series satisfies the equation and the values at x = -1 and 1 exactly; for ana_nsum >= 2 it differs from zero at y = -1 and 1, and from any solution, by at most 1/(pi^3 (ana_nsum/2)^2). The returned flow functions are the gradient times the conductivity. Deviation: the series of problem 4 has ana_nsum/2 terms, none at all for ana_nsum = 1, while the documentation calls ana_nsum the number of terms.", "quantifier": "all parameters (problem 3: all keywords, k, alpha, uniqueness for k != 0 and alpha/k >= 0; problem 4: all ana_nsum; 1D problem 5: beta != 0, L > 0, cos(beta L) != 0; 8: all positive radii, uniqueness for ra < rb or sqrt(2) ra < rb on the lozenge; 9: 0 < ra < rb), all points; exact real arithmetic", "why_tests_cant": "tests compare the discrete solution with the analytical one on one grid within a tolerance; a wrong boundary value or source would be masked or only appear for other parameters; uniqueness is not testable", "anchors": ["russell_pde/src/problem_samples.rs"]}
{"id": "C99", "title": "Bspline derivatives: calc_basis_and_derivs, calc_curve_derivs, get_elements", "statement": "For every parameter in the parametric range (right end included) and every order up to the degree, calc_basis_and_derivs succeeds and get_basis_deriv(i, k) is the k-th derivative at u of the polynomial with which the i-th B-spline agrees on the knot span of u: over the reals the derivative from the right, and the derivative at every u that is not a knot. Parameters outside the knots and orders above the degree give errors. calc_curve_derivs succeeds with both algorithms for every requested order (clipped to the degree), both give the same results, and get_curve_deriv returns the derivatives of the coordinates of the curve, zero above the degree. get_elements returns exactly the spans longer than the tolerance in order; for tolerance zero every parameter lies in exactly one element. Deviations: replacing the control points by points of a larger dimension makes calc_curve_derivs panic; get_curve_deriv above the order of the last calculation returns values of an earlier parameter; calc_curve_derivs overwrites the table of basis functions but not the span, so that get_basis mixes two parameters; get_basis_deriv does not panic for an index out of range as documented but returns zero.", "quantifier": "all degrees, all sorted knot vectors with nonempty first and last span, all parameters in range, all orders, all control points and dimensions, any earlier calls; exact arithmetic in an ordered field", "why_tests_cant": "tests compare with finite differences and with tabulated values for a few knot vectors; index errors in the triangular tables appear only for particular combinations of degree, order and function", "anchors": ["russell_lab/src/algo/bspline.rs"]}
{"id": "C100", "title": "Nonlinear System, check_ggu and the sample problems of russell_nonlin", "statement": "System::new succeeds exactly for ndim >= 1 and (if given) nnz >= 1; the default number of entries is that of the full matrix or triangle. For every sample problem the constructor succeeds, calc_gg computes the documented function, and calc_jac puts exactly the partial derivatives with respect to u into a matrix with the announced room and storage, and writes the derivative with respect to lambda (or leaves the vector alone if G does not depend on lambda). The reference solutions are the roots and the only ones (cubic_poly_1: within 1e-14 of the only root); Newton's method oscillates from u_oscillation; the matrix is singular at u_indeterminate, u_bad and the initial guess of two_eq_nr_prob_1; lambda_ana describes all solutions of the fold problem, with the fold exactly at u = 1, lambda = 1/e; the initial states lie on the solution curves; the solutions of bspline_problem_1 are the points of the B-spline curve, also after any number of calls. check_ggu passes if the entries of the matrix at l_at differ from the derivatives of G at lambda = 0 by at most tol minus the error of the numerical derivative, and panics if one differs by more than tol plus that error. Deviations: check_ggu evaluates the numerical derivative at lambda = 0 instead of l_at (rejects right matrices and accepts wrong ones), and panics instead of returning an error; outside of [0, 1] bspline_problem_1 returns a nonzero derivative with respect to lambda although G is constant there.", "quantifier": "all states u, all lambda (0 < lambda < 1 for the derivative of the B-spline problem, u > 0 for singular_initial_state), all radii, exponents, snap-back parameters, all kinds of storage for the linear problem, any earlier calls; real arithmetic", "why_tests_cant": "the tests check the matrices at one point and at lambda = 0 only, where the defect of check_ggu is invisible, and never the derivative with respect to lambda nor uniqueness of the solutions", "anchors": ["russell_nonlin/src/system.rs", "russell_nonlin/src/samples.rs", "russell_lab/src/matrix/mat_approx_eq.rs"]}
{"id": "C101", "title": "Dense products, norms and differences of russell_lab", "statement": "Provided the BLAS/LAPACK kernels meet their published contracts, mat_vec_mul(_update), vec_mat_mul, vec_outer(_update), mat_mat_mul, mat_t_mat_mul and the complex variants compute exactly the documented products for all non-empty dimensions, with every argument of the call legal and inside the arrays; mat_sym_rank_op and complex_mat_herm_rank_op update exactly the chosen triangle and leave the other entries alone; mat_sum_rows/cols are the sums; mat_add, mat_update, mat_scale, mat_copy, mat_op, vec_copy, vec_scale, vec_update, vec_copy_scaled and the small_vec functions are entrywise. Wrong dimensions give the documented error. mat_norm gives the largest absolute column sum (One), row sum (Inf), entry (Max) or the Frobenius norm (Fro, Euc), zero if empty. mat_max_abs_diff gives the largest difference and its first place, zero exactly for equal matrices. vec_norm_diff, vec_max_scaled_diff and vec_rms_scaled_diff are as documented; the complex zip and unzip functions are inverse to each other. Deviations: with an empty inner dimension the products give 0 instead of beta*c or beta*v; the rank operations and vec_outer pass a leading dimension of zero, forbidden by BLAS, if the matrix has no rows.", "quantifier": "all dimensions below 2^31, all matrices, vectors and scalars over a field (ordered for the norms); any contents of the output arguments", "why_tests_cant": "tests fix a few small matrices; column-major leading dimensions, transposition flags and triangles only show up for particular shapes, and the empty inner dimension with beta other than zero is not tested", "anchors": ["russell_lab/src/matvec", "russell_lab/src/matrix", "russell_lab/src/vector", "russell_lab/c_code/interface_blas.c"]}
{"id": "C102", "title": "LAPACK decompositions of russell_lab: SVD, pseudo-inverse, eigenvalues, Cholesky", "statement": "Provided LAPACK meets its manual, the wrappers pass only legal arguments and sufficiently large arrays for every non-empty matrix, and: mat_svd and complex_mat_svd return a singular value decomposition or report that the iteration failed. mat_eigen, mat_eigen_lr and mat_eigenvalues return every eigenvalue with its unit right and left eigenvectors; dgeev_data expands every pattern of conjugate pairs correctly. complex_mat_eigen(_lr), complex_mat_gen_eigen, mat_gen_eigen(_lr) return the eigenvalues and eigenvectors as LAPACK does. mat_eigen_sym and complex_mat_eigen_herm decompose the matrix given by the chosen triangle, h = v diag(l) v^H, l ascending. mat_cholesky and complex_mat_cholesky leave the factor in the chosen triangle with positive diagonal and do not touch the other triangle; the real one succeeds exactly for positive definite matrices. mat_pseudo_inverse returns the (unique) Moore-Penrose inverse of a matrix that differs from a in no entry by more than 1e-15 times the Frobenius norm, and of a itself if no singular value lies in (0, 1e-15 s_max]. Deviations: complex_mat_gen_eigen_lr never computes the left eigenvectors (u comes back unchanged); mat_gen_eigen(_lr) return the compact LAPACK form, so for a complex pair the columns are not the documented eigenvectors; mat_pseudo_inverse violates a ai a = a and does not give the inverse for diag(1,1e-16), and refuses 0 x n and m x 0 matrices; eigenvalue functions and mat_cholesky refuse the matrix of order zero with a LAPACK error.", "quantifier": "all orders below 2^31 and all matrices over a field (ordered where signs matter); every numerical routine that meets the manual of LAPACK; any contents of the output arguments", "why_tests_cant": "tests use a few small matrices; the left eigenvectors of complex_mat_gen_eigen_lr are only printed in its example, and the patterns of conjugate pairs and tolerances cannot be enumerated", "anchors": ["russell_lab/src/matrix", "russell_lab/src/internal/dgeev_data.rs", "russell_lab/c_code/interface_blas.c"]}
{"id": "C103", "title": "Bit-level floating point functions: split, decompose, compose, remainder, powers of i", "statement": "On the bit patterns of f64 (with the IEEE 754 operations rounding to nearest, ties to even): float_split returns for every finite number an integer and a fraction below one in absolute value, both with the sign of the number, whose sum is the number without rounding error. float_is_integer and float_is_neg_integer hold exactly for the (negative) integers. float_decompose returns m and e with x = m 2^e exactly and 1/2 <= |m| < 1 for all finite nonzero numbers including subnormal ones. float_compose returns m 2^e rounded once to the nearest number, ties to even, with gradual underflow, underflow to signed zero and overflow to signed infinity, whenever the exponent is not within about 1100 of the limits of i32; composing undoes decomposing. modulo terminates for all finite x and finite nonzero y and returns exactly the remainder of the truncated division, with the sign bit of x. The special values are as coded. i_pow_n and x_times_i_pow_n are the powers of i and of x i. Deviations: float_split of an infinity returns a zero fraction, documented is not-a-number; float_compose overflows i32 for exponents near its limits, where infinity or zero is documented; i_pow_n and x_times_i_pow_n overflow for the smallest i32.", "quantifier": "all 2^64 bit patterns and all pairs of them; all i32 exponents in the stated range", "why_tests_cant": "there are 2^64 numbers and 2^128 pairs; tests compare about twenty values with tolerances, while exactness, double rounding and termination concern every one", "anchors": ["russell_lab/src/math/composition.rs", "russell_lab/src/math/modulo.rs", "russell_lab/src/math/complex.rs"]}
{"id": "C104", "title": "Comparison functions used by the tests, on bit patterns", "statement": "On the bit patterns of f64, with the subtraction rounded to nearest: approx_eq accepts every pair of finite numbers whose exact difference is at most the tolerance (rounding raises no false alarm), and if it accepts, both numbers are finite, the tolerance is not negative and the exact difference is below the number following the tolerance; it is symmetric. array_approx_eq, complex_approx_eq, complex_array_approx_eq and the vector versions pass exactly if the lengths agree and every pair (real and imaginary parts) passes approx_eq. mat_approx_eq and complex_mat_approx_eq pass exactly if the dimensions agree, every pair of entries passes approx_eq and no difference overflows. assert_alike passes exactly for two NaN or for identical bit patterns. Rounding to nearest is monotone. Deviation: a NaN tolerance accepts every pair of finite numbers.", "quantifier": "all bit patterns, all tolerances, vectors of all lengths, matrices of all dimensions", "why_tests_cant": "these functions decide whether all other tests pass; a sampled test of them cannot exclude a false pass for some of the 2^128 pairs or a false alarm caused by rounding", "anchors": ["russell_lab/src/check/approx_eq.rs", "russell_lab/src/check/array_approx_eq.rs", "russell_lab/src/check/complex_approx_eq.rs", "russell_lab/src/check/complex_array_approx_eq.rs", "russell_lab/src/check/assert_alike.rs", "russell_lab/src/matrix/mat_approx_eq.rs", "russell_lab/src/matrix/complex_mat_approx_eq.rs", "russell_lab/src/vector/vec_approx_eq.rs", "russell_lab/src/vector/complex_vec_approx_eq.rs"]}
{"id": "C105", "title": "Text output and mesh grids of russell_lab", "statement": "format_nanoseconds: the printed text, read as a sum of numbers with units h, m, s, ms, \u00b5s, ns, denotes exactly the given number of nanoseconds, hence different durations are printed differently; it consists of hours, minutes below sixty and a remainder below one minute in the largest fitting unit, zero parts omitted. format_scientific writes mantissa, E, the sign and at least two digits of the exponent, right-aligned; if the field leaves five characters for the exponent all finite numbers occupy exactly the field. vec_fmt_scientific draws a box in which all lines have the same number of characters. mat_to_numpy, mat_to_mathematica, mat_to_static_array and vec_to_static_array write exactly the nested list or Rust constant with the entries in row order. mat_write_vismatrix writes the dimensions, the number of entries above the tolerance and one line per such entry in row-major order, and rejects a negative tolerance. generate2d and generate3d give equally spaced coordinates from the minimum to the maximum and the function values at the grid points. Deviations: vec_fmt_scientific panics on infinities and NaN; matrices without rows and empty vectors are written with unbalanced brackets or a lone comma.", "quantifier": "all durations, all exponents below 1000 in absolute value, all texts of mantissas, matrices and vectors of all dimensions (at least one row and column where stated), all grids", "why_tests_cant": "tests compare a handful of strings; that no duration loses a nanosecond or shares its text with another concerns all of them, and so does the alignment for three-digit exponents", "anchors": ["russell_lab/src/base/formatters.rs", "russell_lab/src/base/generators.rs", "russell_lab/src/matrix/mat_to_numpy.rs", "russell_lab/src/matrix/mat_to_mathematica.rs", "russell_lab/src/matrix/mat_to_static_array.rs", "russell_lab/src/matrix/mat_write_vismatrix.rs", "russell_lab/src/vector/vec_to_static_array.rs", "russell_lab/src/vector/vec_fmt_scientific.rs"]}
{"id": "C106", "title": "Options, error messages, statistics and real-to-complex matrices of the linear solvers", "statement": "Option names are recognised up to the case of letters, any other text selects the documented default. The option reported by update_stats is the one requested if the solver supports it, else the solver's default (UMFPACK: Colamd means Cholmod); cuDSS distinguishes all matchings and pivotings. The storage kind returned by Genie::get_sym is the only one the corresponding solver accepts for (un)symmetric matrices. Different known error codes have different messages, messages of the library codes begin with the code; is_memory_error holds for exactly MUMPS -19 and 200000, UMFPACK -1 and 200000, cuDSS 100, 702, 802, 902. After any history of solver runs and get_json calls, get_json does not panic and shows the times of all runs, their totals, the averages rounded down and their texts; it is idempotent, and the average total exceeds the sum of the averages by at most two nanoseconds. assign_real and add_real set or add (alpha + beta i) times the real matrix, succeed exactly when size, kind and capacity fit, and never panic. Deviations: the ordering BtfColamd cannot be selected by name; the workspace allocation failures -5, -7, -13, -78 of MUMPS are not recognised as memory errors.", "quantifier": "all texts, all options, all integer error codes, all histories of runs and get_json calls, all well-formed COO matrices and factors (exact arithmetic)", "why_tests_cant": "tests look at single names, codes and runs; that no text selects BtfColamd, that no other code counts as memory error and that no order of calls breaks the assertion on array lengths concerns all inputs", "anchors": ["russell_sparse/src/enums.rs", "russell_sparse/src/stats_lin_sol.rs", "russell_sparse/src/solver_mumps.rs", "russell_sparse/src/solver_umfpack.rs", "russell_sparse/src/solver_cudss.rs", "russell_sparse/src/complex_coo_matrix.rs"]}
{"id": "C107", "title": "Accuracy and convergence of the elliptic integrals of the first and the second kind", "statement": "In exact arithmetic the iterations behind elliptic_f and elliptic_e (Carlson's duplication followed by a truncated series) return the integral to a relative error of at most 2^-54: every value returned by rf and rd is R_F or R_D to that accuracy, the eleven iterations suffice whenever the square of the largest argument is at most 10^84 (rf) or 10^33-fold (rd) the sum of the pairwise products, so elliptic_f succeeds whenever m sin^2 phi <= 1 - 10 eps and elliptic_e whenever cos^2 phi + 1 - m sin^2 phi >= 1e-60, and the results are the defining integrals over theta from 0 to phi. Arguments outside the documented domain give Err; the documented special cases hold. Deviations: elliptic_f returns Inf although the integral converges, for m sin^2 phi = 1 with phi < pi/2 and for the complete integral with m = 1 - 2^-52.", "quantifier": "all real arguments in the stated domain; the integrals are Mathlib's Lebesgue integrals", "why_tests_cant": "tests compare some values with tables; they cannot show that the iteration always ends within eleven steps and that the truncated series is accurate for every argument", "anchors": ["russell_lab/src/math/elliptic.rs"]}
{"id": "C108", "title": "Accuracy and convergence of the elliptic integral of the third kind", "statement": "In exact arithmetic every value returned by rc (y > 0) and rj (p > 0) is Carlson's integral R_C or R_J to a relative error of at most 2^-54, although rj adds a call of rc per iteration. For n >= 0 with n sin^2 phi and m sin^2 phi at most 1 - 10 eps elliptic_pi succeeds and returns the defining integral to a relative error of 2^-54; for n < 0 any value returned has an error of at most 2^-54 (F + |Pi - F|). Arguments outside the documented domain give Err, the documented special cases hold. The loop of rj leaves R_F unchanged, which justifies that rf is called with the final variables for p <= 0. Deviation: elliptic_pi returns Inf although the integral converges, for m sin^2 phi = 1 with phi < pi/2.", "quantifier": "all real arguments in the stated domain; the integrals are Mathlib's Lebesgue integrals. The Cauchy principal values (n sin^2 phi > 1) are modelled, their accuracy is not claimed", "why_tests_cant": "tests compare some values with tables; convergence within eleven steps and the accumulation of the errors of rc concern all arguments", "anchors": ["russell_lab/src/math/elliptic.rs"]}
{"id": "C109", "title": "Accuracy of the modified Bessel functions of integer order", "statement": "In exact arithmetic bessel_in(n, x), which runs Miller's downward recurrence with rescaling, returns I_n(x) with a relative truncation error of at most 2^-81 beyond the relative error of bessel_i0, for all n >= 2 and |x| <= 1400 or |x| <= n + 1; for |x| > 1400 and n <= |x| the value of I_n exceeds f64::MAX. Tiny arguments, for which 0 is returned, have I_n below the rounding threshold, and I_n(-x) = (-1)^n I_n(x). bessel_kn(n, x) returns the integral of exp(-x cosh t) cosh(nt) exactly if bessel_k0 and bessel_k1 do, and inherits a common relative error bound of the two without amplification; special values are as documented. Deviation: negative orders (outside the documentation) give K_1.", "quantifier": "all orders and all real arguments in the stated domain; I_n is its power series, K_n its integral; the rational approximations of orders 0 and 1 enter as parameters with their errors", "why_tests_cant": "tests compare a few values with tables; that the starting index of the downward recurrence suffices for every n and x is an asymptotic statement", "anchors": ["russell_lab/src/math/bessel_mod.rs"]}
{"id": "C110", "title": "Accuracy of the Bessel functions of integer order", "statement": "In exact arithmetic, with exact bessel_j0 and bessel_j1, bessel_jn(n, x) is J_n(x) for |n| <= |x| < 2^302 and for |n| <= 1; for |x| < 2^-29 it is accurate to 2^-60 for |n| <= 33 and returns 0 for |n| > 33, where |J_n(x)| < 2^-1075; for 2^-29 <= |x| <= 2 < |n| + 1 the continued fraction with backward recurrence is accurate to 2^-54. For every order above the argument the value is t J_0(x) / u_0 with t the ratio J_n/J_(n-1) to a relative accuracy of 10^-18 per term of the continued fraction and u the solution of the recurrence from (1, t). Order and argument symmetries hold. For huge arguments the leading term of Hankel's expansion is returned. bessel_yn reproduces every solution of the recurrence starting with bessel_y0 and bessel_y1 and has the documented special values. Deviation: at a zero of J_0 bessel_jn returns 0 for all n > x although J_n(x) > 0.", "quantifier": "all integer orders and all real arguments in the stated domains; J_n is its power series", "why_tests_cant": "tests compare some values with tables; the stopping rule of the continued fraction and the rescaling concern all orders, and arguments at zeros of J_0 are not in the tables", "anchors": ["russell_lab/src/math/bessel_n.rs"]}
{"id": "C111", "title": "Accuracy of the gamma function", "statement": "In exact arithmetic gamma(x) is Euler's gamma function with a relative error of at most 2.1e-16 for every real |x| <= 200 that is no nonpositive integer: recurrences to [2, 3) with a rational approximation for |x| <= 33, Stirling's formula beyond, the reflection formula for x < -33, and the expansion 1/((1 + gx)x) below 1e-9. For n <= 32 gamma(n + 1) is n! exactly, and on [-33, 32] the results at x and x + 1 satisfy the functional equation exactly. For x > 200 the result is +Inf and the true value exceeds f64::MAX; for x < -200 the result is 0 and the true value (at a distance of at least 2^-53 from the integers) is below half the smallest subnormal number. NaN, infinities, both zeros and negative integers give the documented results.", "quantifier": "all real arguments in the stated domain; arithmetic, exp, pow and sin of the code are the real ones", "why_tests_cant": "tests compare some 80 arguments with tabulated values; the bound of the rational approximation and of the truncated Stirling series holds for every argument, including those near the poles", "anchors": ["russell_lab/src/math/gamma.rs"]}
{"id": "C112", "title": "Accuracy and sign of the logarithm of the gamma function", "statement": "In exact arithmetic ln_gamma(x) returns (r, s) with |r - ln|Gamma(x)|| <= 1.6e-16 and s the sign of Gamma(x) for every real -2^52 < x < 2^58 with |x| >= 2^-70 that is no nonpositive integer and whose absolute value is not in [0.1916, 0.2316) or [1.1916, 1.2316); there the error is at most 7.2e-15. Below 2^-70 the error is at most 2^-69, from 2^58 on the relative error is at most 2^-57. The auxiliary function for the negative axis is sin(-pi a) for every a >= 0. NaN, infinities, zeros, negative integers, 1 and 2 give the documented results. Deviation: the code switches polynomials at 0.19163/1.19163 instead of the documented 0.23164/1.23164; at x = 1.192 the error is above 4.8e-15, 70 times the one of the polynomial intended there.", "quantifier": "all real arguments in the stated domain; arithmetic, ln and sin of the code are the real ones", "why_tests_cant": "the tests use tolerances and arguments that miss the interval of the shifted threshold; the bounds of the five minimax approximations hold for every argument", "anchors": ["russell_lab/src/math/ln_gamma.rs"]}
{"id": "C113", "title": "The beta function and its logarithm", "statement": "In exact arithmetic (on top of the models of gamma and ln_gamma with their approximation errors) beta(a, b) is Gamma(a)Gamma(b)/Gamma(a+b) with a relative error of at most 6.4e-16 whenever the arguments and their sum are no poles and at most GAMMA_MAX in absolute value; beyond (up to 2^52) it has the right sign and its logarithm is accurate to 7.7e-15 + 2e-24 min(|a|, |b|), including the asymptotic branch, and infinities occur only above LN_MAX. It is symmetric unless both arguments are nonpositive integers, vanishes where only a + b is a nonpositive integer, is (-1)^m B(n+1-m, m) at (-n, m) with 1 <= m <= n, which is the limit of the quotient of gammas, +Inf at the other poles and NaN for NaN and infinite arguments; the recursion makes at most two nested calls. ln_beta has the corresponding accuracy. Deviations: beta(-1, -2) = +Inf but beta(-2, -1) = -Inf; ln_beta(2e6, -0.5) has the wrong sign because the logarithm is multiplied by the sign of Gamma(b); ln_beta returns -Inf for |B| < 10 eps, e.g. at (30, 30), where ln B is about -42.", "quantifier": "all real arguments in the stated domains", "why_tests_cant": "tests compare a few dozen pairs of arguments; the branches meet along curves in the plane, and the error of the asymptotic expansion must hold for all a > 1e6 max(|b|, 1)", "anchors": ["russell_lab/src/math/beta.rs"]}
{"id": "C114", "title": "Dense linear systems and the inverse of a complex matrix", "statement": "solve_lin_sys and complex_solve_lin_sys refuse a matrix that is not square and a right-hand side of another length, leave the empty system alone and otherwise, for every order that fits into i32 (they panic beyond), call gesv with legal arguments and arrays that are large enough: if det(A) != 0 the call succeeds, b holds the solution of A x = b, which is the only one, and a holds the factors of A = P L U; if det(A) = 0 the call reports a singular factor. complex_mat_inverse returns the determinant and the two-sided inverse, or reports an error; up to order three it succeeds exactly if |det| > 1e-15, from order four on exactly if det != 0; the determinant of the empty matrix is returned as zero. Deviation: a regular matrix of order at most three with a small determinant is refused.", "quantifier": "all orders, all matrices and right-hand sides over any field (systems), all complex matrices (inverse), all LAPACK implementations meeting the published contract", "why_tests_cant": "tests solve a few systems of small order; the leading dimensions, the pivots and the sign of the determinant must be right for all orders and all row interchanges", "anchors": ["russell_lab/src/matvec/solve_lin_sys.rs", "russell_lab/src/matvec/complex_solve_lin_sys.rs", "russell_lab/src/matrix/complex_mat_inverse.rs"]}
{"id": "C115", "title": "Accuracy of the error function and its complement", "statement": "In exact arithmetic erf(x) is (2/sqrt(pi)) int_0^x exp(-t^2) dt with a relative error of at most 5e-17 for every real x, including the three rational approximations, the linear and the constant branches; erfc(x) is its complement to one with a relative error of at most 5.3e-16 for every x < 28, also where it is of the order 1e-340; from 28 on erfc returns 0, where the true value is positive but below half of the smallest positive f64. The results do not depend on how the argument is truncated in the tails. erf is odd, its values lie in [-1, 1] with the sign of the argument; the values of erfc lie in [0, 2] and are positive exactly for x < 28; erfc(-x) = 2 - erfc(x) for |x| <= 6 and |x| >= 28; erf and erfc add up to one within 1.11e-15; NaN, infinities and zeros give the documented results.", "quantifier": "all real arguments, all truncations of the argument; arithmetic and exp of the code are the real ones", "why_tests_cant": "tests compare tabulated arguments with tolerances; the bounds of the rational approximations must hold at every argument and the branches must meet at 2^-28, 0.84375, 1.25, 1/0.35, 6 and 28", "anchors": ["russell_lab/src/math/erf.rs"]}
{"id": "C116", "title": "Inverse of the error function and of its complement", "statement": "In exact arithmetic, for every x with |x| <= 1 - 2^-53 (every f64 with |x| < 1), erf_inv(x) is finite and the error function of it is x with a relative error of at most 2.38e-13; for |x| > 0.85 the error is at most 4.7e-14 times 1 - |x|. erf_inv(erf(t)) is t with a relative error of at most 1.2e-12, and in the tails |y - t| (|y| + |t|) <= 4.8e-14. erf(erf_inv(x)) computed with the library is x within 2.39e-13. erf_inv is odd, has the sign of its argument and increases strictly on each of the three ranges of its approximations. NaN, +-1, arguments outside [-1, 1], zeros and infinities give the documented results; so does erfc_inv at 0, 1, 2 and outside [0, 2]. erfc_inv inverts the complementary error function in exact arithmetic; with the rounded subtraction it returns infinity for every positive argument up to 2^-54, although the inverse is finite there.", "quantifier": "all real arguments with |x| <= 1 - 2^-53, all special values; all positive f64 up to 2^-54 for the deviation; the arithmetic of the approximations, ln and sqrt are the real ones", "why_tests_cant": "tests compare tabulated arguments; the rational approximations must be right at every argument of their ranges and the loss of small arguments of erfc_inv concerns about half of all positive f64", "anchors": ["russell_lab/src/math/erf_inv.rs"]}
{"id": "C117", "title": "Bessel functions J0 and J1", "statement": "In exact arithmetic, bessel_j0 and bessel_j1 never panic and return a number for every real argument. For |x| < 2, bessel_j0(x) is J0(x) within 2e-17 and bessel_j1(x) is J1(x) within 5e-18 |x|. For every |x| >= 2, however large, both are within 2e-14 / sqrt(|x|) of J0(x) and J1(x), across the four ranges of the rational approximations, the cancellation-free forms of sin x + cos x and sin x - cos x, and the shortcut above 2^129. bessel_j0 is exactly even and bessel_j1 exactly odd. NaN, zeros and infinities give the documented results, and the value 0 at infinity is the limit of J0 and J1. At the zero of J0 between 2 and 3 the returned value is below 2e-14.", "quantifier": "all real arguments, all special values; arithmetic, sin, cos and sqrt are the real ones", "why_tests_cant": "tests compare a few dozen tabulated arguments; one wrong digit among the 96 coefficients of the four ranges shows up only inside its own range, and no test covers all arguments up to infinity", "anchors": ["russell_lab/src/math/bessel_0.rs", "russell_lab/src/math/bessel_1.rs"]}
{"id": "C118", "title": "Bessel functions Y0 and Y1, and integer orders by recurrence from the computed values", "statement": "In exact arithmetic, bessel_y0 and bessel_y1 never panic and return a number for every positive argument. For 0 < x < 2, bessel_y0(x) is Y0(x) within 3e-17 + 2e-17 |ln x|. For 2^-54 < x < 2, bessel_y1(x) is Y1(x) within (3e-17 + 1e-17 |ln x|) x; for smaller x within (1 + |ln x|) x. For every x >= 2, however large, both are within 2e-14 / sqrt(x). Y0 and Y1 are defined by their power series with logarithm and Euler's constant; they satisfy Y0' = -Y1, Y1' = Y0 - Y1/x and the Wronskian J1 Y0 - J0 Y1 = 2/(pi x). NaN, negative arguments, zeros and infinity give the documented results, and these are the limits of Y0 and Y1. bessel_yn(n, x), computed from bessel_y0 and bessel_y1, has for every order n and 2 <= x < 2^302 an error of at most 3e-13 (|Jn(x)| + |Yn(x)|); the same holds for bessel_jn with 2 <= |n| <= |x| < 2^302.", "quantifier": "all positive real arguments, all special values, all integer orders; arithmetic, sin, cos, ln and sqrt are the real ones", "why_tests_cant": "tests compare a few tabulated arguments; a wrong digit of one of the coefficients, a wrong branch limit or an unstable recurrence shows up only for some arguments and orders", "anchors": ["russell_lab/src/math/bessel_0.rs", "russell_lab/src/math/bessel_1.rs", "russell_lab/src/math/bessel_n.rs"]}
{"id": "C119", "title": "Modified Bessel functions I0, I1 and integer orders from the computed values", "statement": "In exact arithmetic, bessel_i0 and bessel_i1 never panic. For every |x| < 15 the result has a relative error of at most 1e-15; for every |x| >= 15, however large, bessel_i0 has a relative error of at most 2e-14 and bessel_i1 of at most 3e-14. I_n is the sum of its power series. bessel_i0 is even, bessel_i1 is odd, NaN and zeros of either sign give the documented results. bessel_in(n, x), which is scaled with the computed bessel_i0, has a relative error of at most 3e-14 for every order n and every x with |x| <= 1400 or |x| <= n + 1 and x^2 above 8 times the smallest positive normal number.", "quantifier": "all real arguments, all special values named, all orders; arithmetic, exp and sqrt are the real ones", "why_tests_cant": "tests compare tabulated arguments; a wrong digit in one of the 44 coefficients, or a wrong branch limit, shows up only for some arguments, and no finite table reaches all arguments above 15", "anchors": ["russell_lab/src/math/bessel_mod.rs"]}
{"id": "C120", "title": "Modified Bessel functions K0, K1 and integer orders from the computed values", "statement": "In exact arithmetic, bessel_k0 and bessel_k1 never panic for positive arguments. For every 0 < x <= 1, however small, bessel_k0 has a relative error of at most 1.6e-12 and bessel_k1 of at most 1.2e-12; for every x > 1, however large, 3e-13 and 6e-13. bessel_kn(n, x), whose recurrence starts from the computed bessel_k0 and bessel_k1, has a relative error of at most 1.6e-12 (6e-13 for x > 1) for every order n; K_n is the integral of exp(-x cosh t) cosh(n t) over t > 0. NaN and negative arguments (also -Inf) give NaN, zeros of either sign give +Inf, +Inf gives 0.", "quantifier": "all positive real arguments, all orders, all special values named; arithmetic, exp, ln and sqrt are the real ones", "why_tests_cant": "tests compare tabulated arguments; a wrong digit in one of the 48 coefficients shows up only for some arguments, and no finite table reaches all arguments and all orders", "anchors": ["russell_lab/src/math/bessel_mod.rs"]}
{"id": "C121", "title": "LinSolver::compute solves the system given, or reports an error", "statement": "If LinSolver::compute (or ComplexLinSolver::compute) succeeds with cuDSS, MUMPS or UMFPACK, the vector x satisfies A x = rhs, where A is the dense form of the COO matrix given (repeated positions added, one triangle of a symmetric matrix mirrored), provided that the library is sound: a solution it reports as successful after a successful initialization and factorization of the arrays handed over solves the system of these arrays. compute never panics. A solver that is not part of the build, a rectangular or empty matrix, a symmetric storage that the solver does not accept, and vectors x or rhs of wrong size give an error and leave x unchanged; in all other cases compute succeeds if the library and the check of the parameters do. Solvers that are not part of the build give the documented messages. The soundness conditions can be met: with libraries that solve every system that has a solution, compute solves every such system whose matrix is stored as the solver requires.", "quantifier": "all solvers and build features, all COO matrices with dimensions and counts below 2^31, all vectors, all parameters, all libraries satisfying the soundness condition (commutative semirings for the values, so real and complex)", "why_tests_cant": "tests solve a few small systems with the installed libraries; a wrong conversion, index base, symmetric flag or order of calls shows up only for matrices with duplicates, unusual storage or in builds with other features", "anchors": ["russell_sparse/src/lin_solver.rs", "russell_sparse/src/complex_lin_solver.rs", "russell_sparse/src/solver_umfpack.rs", "russell_sparse/src/solver_mumps.rs", "russell_sparse/src/solver_cudss.rs"]}
{"id": "C122", "title": "The stopwatch measures from the last start", "statement": "For every sequence of calls and a clock that does not go back, stop and stop_and_reset return exactly the time since the last call that started a measurement (new, reset or stop_and_reset), however often stop was called since: stop does not end a measurement. The displayed time is the one returned by the last call if this is stop, and 0ns after new, reset and stop_and_reset. The numbers returned by successive stop_and_reset calls and the times between the two clock readings of each of these calls add up to the time from the creation to the last reading.", "quantifier": "all sequences of calls, all monotonic readings of the clock", "why_tests_cant": "tests check that some elapsed time is positive; the readings of the clock cannot be controlled, and wrong start times after mixed sequences of calls are not noticed", "anchors": ["russell_lab/src/base/stopwatch.rs"]}
{"id": "C123", "title": "The log file of the nonlinear solver holds what would be printed", "statement": "For every configuration and every sequence of header, step, iteration and did_not_converge calls followed by footer: with a log file nothing is printed, the file is not touched before footer, and if footer succeeds the file holds exactly the text that is printed with the same configuration, verbose and without a log file, whatever the file held before and whether or not verbose is set. If several solutions are computed with the same solver, the file holds the texts of all of them after the last one. A logger that is neither verbose nor has a log file changes nothing and never fails. footer with a log file fails exactly if creating the directory or creating, writing or syncing the file fails, with the message of the first failure, and leaves the file unchanged if it could not be created. The icon shows convergence, else divergence, else (after iteration zero) that the iteration has not converged. The lines of the iterations and steps agree with the titles of the table: the number of the iteration (below 100000), the residual, the measures of the correction, the icons, λ and the step end at the columns at which their titles end, if the formatted numbers have the width asked for; with the natural parametrization the correction is replaced by dots once the residual has converged.", "quantifier": "all configurations, all sequences of calls with all arguments, all outcomes of the file operations, all formats of numbers", "why_tests_cant": "tests compare a few outputs of short sequences; the agreement of the printed and the written text for all combinations of options and sequences, and the failures of the disk, are not covered", "anchors": ["russell_nonlin/src/logger.rs"]}
