# Design: a Lean 4 model of avhz/RustQuant

## Method

* The model lives in `lean/Verif/<Area>/`. For each area: `Model.lean` (function-by-function model, each
  definition citing `/repo` file and lines), `Spec.lean` where a separate specification is needed, helper lemmas
  (`Lemmas*.lean`) and `Props.lean` (property theorems, named after the property they prove, each followed by an
  `example` meeting its hypotheses).
* A mutating method `f(&mut self, ..) -> R` becomes a function returning the new state and `R`.
  Every Rust panic (`unwrap`, `expect`, `panic!`, index out of bounds, `assert!`, `todo!`) is an explicit `none` /
  `Except` error of the model, never a default value.
* `u64`/`usize` are unbounded naturals; wherever the code subtracts, the model subtraction is guarded or a theorem
  shows that it does not underflow.
* `f64` is modelled by an exact ordered field: `ℚ`, `ℝ` or an arbitrary linearly ordered field `K`. Rounding,
  NaN, infinities and signed zero are **not** modelled, except where a definition says so (for instance an explicit
  "division by zero gives NaN" outcome). Two groups of modules are closer to the machine. `Autodiff/Compare` (C84) has
  `f64` as sign, exponent and fraction. `Float/*` (C86-C106, C108-C117) has finite `f64` as the rationals `m * 2^e`, `|m| < 2^53`,
  `e >= -1074`, below `2^1024` in size; `+ - * /` round the exact result to the nearest such number, ties to even, with
  gradual underflow; overflow and division by zero are an explicit "not finite" outcome after which nothing is claimed
  (only `Float/Extended`, for C96, C98, C100 and C102-C106, C108-C111, C113 and C114, carries infinities and NaN on); the two zeros are one. `Float/Binary32` has the same for `f32`, `|m| < 2^24`, `e >= -149`, below `2^128`.
* `time::Date` (external crate `time` 0.3) is modelled as a day number (`Int`) with proleptic Gregorian
  conversion, range limited to years -9999..9999 as in the crate without `large-dates`.
* `BTreeMap` is a key-sorted association list; `HashMap` is a function/association list up to lookup; iteration
  order of a `HashMap` is never used by a theorem except through order-independent results.
* Random numbers are an input of the model (the noise stream is a parameter).

## Per-property plan

| Id | Model | Proof |
|----|-------|-------|
| C01 | `Lob/Model`: Book, Limit, Order; panics as `none` | invariant by induction over the operation list; corollary: no `none` |
| C02-C04 | same | case analysis under the invariant |
| C05-C08 | same, `execute` loops as recursion on queues/levels | induction over levels/queues |
| C09 | `Lob/Spec`: list of orders in arrival order, share-by-share matching | refinement (simulation) by induction over histories |
| C10 | `Lob/OrderBook` | induction over the insert list |
| C11-C14 | `Time/Date`, `Time/Calendar`, generic in the holiday predicate, panics explicit | induction over day steps |
| C15-C18, C25 | `Time/DayCount` over ℚ | algebra, case analysis, induction over years |
| C19-C20 | `Time/Utilities` | arithmetic of day numbers |
| C21 | `Time/Easter`: the two rows of the table, computus as specification | `decide +kernel` over the complete table, lifted to every year |
| C22 | `Time/Countries`; `Time/CountrySpec` is a separate rule language for holidays | each calendar's predicate is proved equal to its list of rules |
| C23-C24 | `Time/Calendar`, `Time/Frequency` | induction, arithmetic |
| C26-C31 | `Autodiff/*`: tape, operators, accumulate over ℝ | reverse-mode invariant + Mathlib `HasDerivAt` |
| C32-C37 | `Cashflows`, `Data/Curve`, `Portfolios`, `Fx` | induction over lists / histories; complete-table check for currencies |
| C38 | `Math/Interp` over an ordered field | sortedness lemmas, case analysis of the bracketing pair |
| C39 | `Math/BSpline` over ℝ | induction on degree |
| C40, C52-C54 | `Math/Rootfind` over ℝ, function (and derivative) are parameters; every exit of the bracketing loop and of the three back ends is an outcome | loop invariants (bracket keeps a sign change); intermediate value theorem for the true root; success of Brent and Newton by counting: each pass halves the bracket, or the last steps |
| C41-C42 | `Math/Statistic` over ℝ | sums, Cauchy-Schwarz, AM-GM, sorting lemmas |
| C43 | `Math/Fft` over ℂ | induction on log2 of the length |
| C44 | `Math/Sequences` | induction |
| C45-C46 | `Options/Payoffs` | case analysis, list min/max lemmas |
| C56 | `Options/Payoffs` (lookback, Asian) | list min/max lemmas, AM-GM |
| C47 | `Options/Bsm` over ℝ: N is the modelled `Gaussian::default().cdf`; the inverter inside `implied_volatility` is a parameter | `HasDerivAt` calculus; Gaussian integrals for the pricing expectation; monotone limits and the intermediate value theorem for implied volatility |
| C57 | `Distributions/Gaussian` over ℝ, `erfc` defined by its integral | identified with Mathlib's `gaussianReal` and its cdf, mgf, charFun |
| C48 | `Options/FiniteDifference` over ℝ; exercise dates are day numbers | continuant recurrences for the theta/phi inverse; induction over time steps and grid points |
| C49 | `Stochastics/Simulation`: every generator is a parameter, the parallel run is an arbitrary interleaving of single pushes | induction over steps and schedules; Gaussian variances for the scaling claims; affine images of independent normals for the laws of linear processes; discrete Gronwall for the error without noise |
| C51 | `Math/Interp` (shared with C38) | logarithms |
| C50 | `Math/GradientDescent`, objective run through the autodiff model | induction over iterations; descent lemma for convergence |
| C55 | `Math/Quadrature` with the generated table of nodes and weights | linear algebra of weighted sums; the 41 moments checked by the kernel over the complete table |
| C58 | `Stochastics/NelsonSiegel`: rates, discount factor, fitting cost over ℝ | integrals and limits; the integral of the Svensson curve by the fundamental theorem |
| C59 | `Options/Bachelier`: prices, Greeks, implied volatility over ℝ | Gaussian integrals, derivatives, monotone limits |
| C60 | `Options/Sabr`: volatility formula and calibration cost over ℝ | comparison with a separate statement of Hagan's formula; limits, signs |
| C61 | `Options/Heston`: characteristic functions, quadrature price and Greeks over ℂ | Riccati equations, hence the PDE for the finite sum; branch cut by a winding argument |
| C62 | `Distributions/GammaFamily`: `Exponential` methods; `Distributions/Spec`: the law's mean, moments, cf, mgf, cdf, median, quantile as integrals | against Mathlib's `expMeasure`; density and cdf by definition, moments through the gamma integral |
| C63 | same file: `Gamma` methods, `gamma_li` as its integral | against `gammaMeasure`; cf by analytic continuation of the complex mgf |
| C64 | same file: `ChiSquared`, the `inv_cdf` loop with a turn bound | law of a sum of squared normals identified by its characteristic function; loop by invariant |
| C65 | `Distributions/Uniform`: both classes, rounding, division by zero as `none` | against normalised Lebesgue measure and equal point masses; power sums by induction, geometric sums |
| C66 | `Distributions/Poisson`: casts, 64-bit factorial overflow, the `inv_cdf` loop | against Mathlib's `poissonMeasure`; factorial moments; incomplete gamma at integers by its antiderivative; loop by induction |
| C67 | `Distributions/Trials`: `Bernoulli` with the `as i32` truncation | against two point masses, by cases |
| C68 | same file: `Binomial`, 32-bit factorials, `beta_reg` as a quotient of integrals | against the law of a sum of independent trials (identified by its characteristic function); incomplete beta by its antiderivative; loop by induction |
| C69 | `ML/Regression`: normal equations, QR and SVD fits over exact factorisations | against the residual sum of squares of an affine function; orthogonality and rank arguments for matrices of any size |
| C70 | same file: `fitRidge` | against the penalised sum of squares; positive definiteness and comparison of minimisers |
| C71 | `ML/Lasso`: coordinate descent with its residual vector and stopping rule | soft-thresholding as exact coordinate minimisation; monotone objective; convexity for fixed points |
| C72 | `ML/Logistic`: label check, first guess, reweighted least squares loop with fuel, predictions and scores | fixed points against the log-likelihood (concavity); failures by witnesses over whole families |
| C73 | `ML/Knn`: metrics, stable sort, running counts of `max_by_key` | stability and order of merge sort; invariant of the vote by induction on the list |
| C74 | `ML/Activations`: the three implementations | against named functions; derivatives through the tape theorems of C26 |
| C75 | `Options/LongstaffSchwartz`: chains, in-the-money filter, Laguerre matrix, exact normal equations, exercise loop with its running index; generators as parameters | refinement of `Options/LongstaffSchwartzSpec` (bridge path, best quartic fit) step by step; a Gram determinant argument on roots of polynomials; optional stopping form by induction; law of the path by weights on independent normals |
| C76 | `Options/MonteCarlo`: the generic estimator over the twelve instruments, with the special values of `powf`; paths from `Stochastics/Simulation` | equivalence with `Options/MonteCarloSpec` (`Pays`, `IsEstimate`) by induction over the paths; parities path by path; expectation and variance from the law of the last point; for a geometric Brownian motion the mean square distance from the exact path driven by the same normals is computed in closed form, and Chebyshev's inequality gives the confidence bounds |
| C77 | `Options/AnalyticPricer`: `AnalyticOptionPricer` with `today()` as a parameter, every method of the five generalised models, of Bachelier and of Heston; the price with the special values of a division by zero | expectation, parity and derivatives lifted from C47, C59, C61 to dates; expiry-day and after-expiry behaviour proved from the absolute value in `year_fraction`; setters by induction over the calls |
| C78 | `ImpliedVol/Model`: every function of `implied_volatility.rs` over ℝ, with division by zero in an iteration as an explicit outcome; `erfcx` is its mathematical definition | integrals `∫ u^k e^{zu-u²/2}` for the Taylor and asymptotic expansions with error bounds; `HasDerivAt` calculus for vega, maps and interpolation; Householder's method by `O((s-σ)^4)`; positivity of guesses by convexity below the critical point |
| C79 | `Iso/Model`, `Iso/CountryTable`, `Iso/MicTable` (generated from the source by `tools/gen_iso.py`), `Iso/Lookup`: `from_alpha_2` as its match arms; city and description of a market are left out | every string is one of the finitely many literals of the match or none of them; the tables are checked entry by entry by the kernel, pairs of entries through a search tree proved to hold exactly the table |
| C80 | `Autodiff/Graphviz`: nodes, arrows and text of `graphviz`, the two number formats being parameters | strong induction on the tape: the sum over paths satisfies the tangent equation |
| C81 | `Math/RiskReward`: all six methods over ℝ | algebra; induction over the list of portfolios |
| C82 | `Options/FiniteDifference` (as C48), compared with an arbitrary solution of the Black-Scholes equation given by its derivatives and their bounds | discrete maximum principle with an explicit dominating grid function; Taylor estimates by the mean value theorem; the boundary layer by an exponential supersolution; against the Black-Scholes-Merton formula by smoothing the payoff over a short time, closed bounds of the put's derivatives and a limit in both numbers of steps |
| C83 | `Distributions/Sampling`: what each `sample` asks the external sampler for and does with the numbers; capacity and random source are parameters; an ideal source is i.i.d. with the documented laws | strong law of large numbers; existence of an ideal source from the infinite product measure |
| C84 | `Autodiff/Compare`: `f64` as sign, exponent and fraction; predicates, equality, ordering, `round` bit by bit | case analysis on the fields; arithmetic of powers of two; order on the extended rationals |
| C85 | `Time/HebrewSpec`: the Hebrew calendar by its traditional rules (new moon, postponements, leap cycle), a specification against which the Israeli holiday test is compared; the crate `icu` is a parameter assumed to follow it | year lengths and weekdays of the 302 Hebrew years involved checked by the kernel, the rest by arithmetic |
| C86 | `Float/Binary64`, `Float/Ops`, `Float/Model`: binary64 values and correctly rounded operations; sums, means, variances, cumulative sums and present values as the rounded operations of the code, in order | error analysis: relative error of each operation, induction over the list |
| C87 | the same for sorting, median and quantile | interpolation between two values does not leave them (nearest-value argument); monotonicity of rounding |
| C88 | the same for `seq` (loop as an inductive relation, absent results mean non-termination) and `linspace` | progress of at least the least positive number per round, or none at all; error analysis |
| C89 | the same for payoffs, the formula of linear interpolation and the day counts with fixed year | Sterbenz's lemma, monotonicity of rounding, error analysis |
| C90 | `Float/Bisection`: the bisection solver on binary64, objectives from finite doubles to finite doubles | invariant of the rounded bracket with the error growing by one rounding per pass, induction over the passes; intermediate value theorem |
| C91 | `Float/Binary32`, `Float/Portfolio`: binary32 values and rounding; value, cost, profit and weights as the rounded operations of the code, the hash map as the list in its iteration order | relative error per operation, induction over the positions; monotone rounding for the range of the weights |
| C92 | `Float/Quadrature`: the tanh-sinh rule with its literals rounded to binary64 and every operation rounded | error of nodes, weighted values and the sum, composed with the exact theorems of C55; monotone rounding for the order properties |
| C93 | `Float/Money`: add, sub and convert of money with every operation rounded, panics and non-finite results as separate outcomes | relative errors of single operations, induction over chains of rates; concrete doubles for the negative results |
| C94 | `Float/Autodiff`: the tape, the arithmetic operators and `accumulate` with every operation rounded; the specification is the chain rule over the recorded partials | the rounded sweep, the exact sweep and the sweep over magnitudes in lockstep (induction over the tape); refinement of the exact run of C26 for integers; concrete doubles for the negative results |
| C95 | `Float/Fft`: complex numbers of rounded parts, the rounded angle, the recursion; the platform's cosine and sine are a parameter of given accuracy; the specification is the discrete Fourier transform | one butterfly with its error, induction over the levels against the exact recursion of C43; whole numbers stay exact in entries 0 and N/2 |
| C96 | `Float/Extended`: `f64` with infinities and NaN; `Float/FiniteDifference`: the pricer on these values, `exp`, `ln`, `sqrt` of the platform as parameters | interval estimates of the two coefficients from the inputs; the determinants grow by a factor per step until they are infinite and then NaN; the NaN runs through the matrix product and the time loop. For the explicit method the error of one weighted sum of three values, and induction over the time steps |
| C97 | `Float/Simulation`: times and one Euler-Maruyama path on `f64`, without jumps; the noise and the platform's square root are parameters | the times are those of `linspace` (C88); the error of one step from its nine roundings, induction over the steps with the sizes of all terms as weights; the errors of the step and of its square root are moved into drift and diffusion |
| C98 | `Float/BlackScholes`: `d1`, `d2`, the distribution function, price and delta on `f64`; `Float/BlackScholesExtended`: the same with infinities and NaN; `exp`, `ln`, `sqrt`, `erfc` of the platform are parameters of given accuracy | relative errors of products and quotients, the Lipschitz constant 2/5 of the normal distribution function, `\|e^x - 1\| ≤ 2 \|x\|`; on the expiration date by computation with infinities |
| C99 | `Float/Correlation`: `covariance`, `standard_deviation`, `correlation` on `f64`; the square root is a parameter, required to be correctly rounded (`Float/CorrelationSpec`) | data of ordinary size are multiples of powers of two large enough to exclude underflow; Cauchy-Schwarz for the rounded deviations, which covariance and variances share; change of the cosine of an angle between vectors; defects by evaluation in the kernel |
| C100 | `Float/Means`: geometric and harmonic mean and `AsianOption::payoff` on `f64` with infinities and NaN; the platform's `powf` is a parameter | logarithms of the rounded partial products by induction over the data, the exponent's rounding times the logarithm; overflow, underflow and the products stuck on subnormal numbers by induction as well |
| C101 | `Float/MonteCarlo`: `price_monte_carlo` on finite `f64` for European, barrier, binary and Asian options, and on the paths of `Float/Simulation`; `exp`, `sqrt` and the noise are parameters | error of discounting and of the running sum over payoffs of every number of paths; payoffs are Lipschitz in the last value, whose error is C97; the exact inequalities because rounding is monotone |
| C102 | `Float/NanPayoffs`, `Float/NanLookback`: payoffs, `price_monte_carlo` and Euler-Maruyama paths of a geometric Brownian motion on `f64` with infinities and NaN; `exp`, `ln`, `powf` of the platform are parameters that propagate NaN, the sign of NaN is a parameter for lookback options | NaN absorbs sums and products and is dropped by `max(0.0)` and by comparisons; inductions over paths and payoffs; refinement from the finite models of C97 and C101 |
| C103 | `Float/Sorting`: a sort is a decision tree of comparisons, correct for keys of every totally ordered type; order statistics, interpolators, nearest neighbours and spline knots built on it, with infinities and NaN | a run that never compares an item gives the same order if that item's key becomes the least or the greatest one, which cannot both be sorted; insertion sort as a tree shows that such sorts exist |
| C104 | `Float/Solvers`: the three root finders, with their common search for a bracket, and gradient descent on `f64` with infinities and NaN; objective, derivative and gradient are any functions | signs of the values at the ends of the bracket kept through every pass; a product that is at most zero and two values that are not nearly zero have opposite signs also after rounding and with infinities; rounding errors of the tolerance and of the half-width; NaN kept through every pass; runs by `decide +kernel` for the wrong answers |
| C105 | `Float/Greeks`: gamma, vega, theta, rho, phi, zeta, strike_delta and strike_gamma, and the normal density behind them, on rounded `f64` and on `f64` with infinities and NaN; exp, ln, sqrt and erfc as in C98 | error of the density from that of its argument (it is Lipschitz; below -500 the exponential only to an absolute error); relative errors carried through products and quotients; the exact values are the derivatives by C47; at zero time d1 and d2 are infinite or NaN |
| C106 | `Float/Laws`: continuous uniform, exponential, Bernoulli, Gaussian, gamma and chi-squared distributions on `f64` with infinities and NaN; exp, ln, sqrt, powf, erfc and the gamma functions of statrs are parameters | rounding and the operations respect the order, also beyond the finite range, so that order carries through; errors of the single roundings; Γ(172) = 171! exceeds 2^1024 and Γ increases; the step of the chi-squared loop halves each turn |
| C107 | `Distributions/Release`: mass, distribution and quantile functions of the Poisson and binomial distributions with wrapping products and differences of unsigned integers | wrapped product is the factorial modulo a power of two, by induction; 66! and 34! vanish modulo 2^64 and 2^32, and divide all larger ones; the loop by its least index; the masses grow up to the rate; the finitely many trial counts below 34 by evaluation in the kernel |
| C108 | `Float/Tape`: graph, operators, unary functions and reverse accumulation on `f64` with infinities and NaN | shape of vertices by induction over pushes; what is not finite stays so along the reverse sweep, by induction over it; vertices not computed from an input leave its derivatives alone |
| C109 | `Float/Activations`: activation functions of `f64` and (sigmoid, relu, softplus) of `Variable`, with infinities and NaN | order and range from monotone rounding; error bounds by composing the relative errors of each operation; saturation from the rounding of `1 + e` for `e <= 2^-53`; gradients from C108 |
| C110 | `Float/NelsonSiegel`: forward and spot rates, discount factors and the fitting cost of `f64` parameters, infinities and NaN included | each term within a multiple of the unit roundoff of its exact value, composed over sums, products and the exponential; the exact curve, its integral and the log-cosh loss are those of C58 |
| C111 | `Float/Spline`: construction, added points, the recursion of the basis functions, evaluation; the formula of the exponential interpolator | error of a basis function by induction over its degree, at most `d + 1` of them are not zero, error of the sum; the exact spline is that of C39, the exact value that of C51 |
| C112 | `Float/Moments`: `skewness`, `kurtosis` on `f64`, with the mean and standard deviation of `Float/Correlation` and its correctly rounded square root | relative and absolute errors of rounded products and quotients carried through the powers, sums and factors; the standardised deviations have `n - 1` as sum of squares, which bounds their cubes and fourth powers; change of a unit vector; constant data in closed form |
| C113 | `Float/RiskReward`: `PortfolioMeasures` and its six measures on `f64` with infinities and NaN | rounding of a difference of doubles has no underflow; monotonicity of rounding, extended to infinities; Sterbenz's lemma for exact alphas; error of a sum of squares from C86 |
| C114 | `Float/Bachelier`: `Bachelier::price`, the four sensitivities, `atm_price` and `atm_vol` on `f64`, with and without infinities and NaN; exp, sqrt and erfc as parameters | errors of the distribution function and the density from C98 and C105, carried through sums and products; special values of the library functions |
| C115 | `Float/Schemes`: one path of the Milstein and Strang-splitting schemes on `f64`, without jumps; the noise a parameter | one rounded step against the exact one; induction over the steps with a growing error factor; exact cancellation in the Milstein correction; for diffusions that depend on the value, one Milstein step at a time |
| C116 | `Float/Jumps`: one Euler-Maruyama path with jumps on `f64`; the noise, the Poisson sample and the jump sizes are parameters (sizes that do not depend on the value, as in Merton's process) | a step with a jump is a plain step plus one rounded addition; induction over the steps; equality of paths by induction |
| C117 | `Float/Paths`: one path of each scheme, with jumps, on all values of `f64` (`Float/Extended`); the noise, the Poisson sample, jump sizes and the platform's functions are parameters | every step is the old value plus something, and sums never leave NaN or an infinity; induction over the steps; refinement of the finite model |

## Trusted base

* Lean 4.33.0's kernel; the axioms `propext`, `Classical.choice`, `Quot.sound` (checked with `#print axioms`); Mathlib
  as a library of kernel-checked proofs. No `sorry`, no `native_decide`/`bv_decide`, no axiom of our own.
* That the model's definitions read the cited Rust correctly (the code is not run here).
* External crates are assumed to behave as documented where modelled (`time::Date` arithmetic, `std`
  collections, stable sort, `binary_search`, `partition_point`) and are parameters otherwise (random generators).
* The special functions of `statrs` (`gamma`, `gamma_li`, `gamma_ui`, `digamma`, `beta_reg`) are taken to be exact. Whether
  its `gamma_li` accepts the argument 0 depends on the release: the model takes that as a flag (`liZero`) and
  the theorems hold for both values or say which one they need.
* `nalgebra`'s `try_inverse`, QR and SVD are taken to be exact: the inverse exists exactly for non-zero determinant, and the
  factors multiply to the matrix with orthonormal columns. `DVector` lengths are types, so a response vector of
  another length than the sample matrix is represented only where the code checks it.
* The reweighted least squares loop of `logistic_regression` has no bound; the model follows it for any given number of rounds
  and the theorems hold for every such number.

## Defects

Properties one would expect but that are false of the code are proved false, or replaced by what the code does; `DEFECTS.md`
lists these theorems (generated from their comments by `tools/gen_defects.py`).

## Not modelled

* IEEE-754 rounding and overflow of `f64` outside `Float/*`, NaN propagation outside the modules that use `Float/Extended`, the sign of zero outside `Autodiff/Compare`;
  `u64`/`usize` overflow (wrapping only in `Distributions/Release`) beyond the theorems that
  exclude it; memory and performance. Threads appear only in
  `Stochastics/Simulation`, as an arbitrary interleaving of the workers' pushes into disjoint slots.
* Python bindings, serde, Display output (except enum names), polars/plotting I/O, argmin, nalgebra internals.
* Within compiled modules: `Calendar::day_count_factor`, `market` and `extra_holidays` (they only delegate or return a
  field), `fit_nss` of the curves (an `argmin` particle swarm), `report` of the vanilla options (prints),
  `close_enough` of the root finder (never called), the drift and diffusion of the Heston process and
  `Order::validate` (both `todo!()`).
* Files in the repository that no `mod` declaration compiles: `instruments/src/bonds/*`, `instruments/src/backends/*`,
  `RustQuant_models`, `data/src/surfaces.rs`, `stochastics/src/nelson_siegel.rs`, `options/forward_start.rs`, `options/gap.rs`,
  `options/option_exercise.rs`.
