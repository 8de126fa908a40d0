# Defects shown by the theorems

Where a property one would expect is false of the code, the theorem below proves what the code does instead, in
general or with a concrete witness. Generated by `tools/gen_defects.py` from the comments in the model.

* `C100_asian_infinite` (Float/AsianProps.lean): (defect): on a path of at least 155 prices of at least 100 (and whenever the prices are at least 1 and their product is `2^1025` or more) the geometric average is infinite: the fixed strike call and the floating strike put pay infinity, the other two nothing, whatever the strike.
* `C100_geometric_infinite` (Float/MeansProps.lean): (defect): the geometric mean of numbers from one on whose product is `2^1025` or more is infinite, however ordinary the mean itself.
* `C100_geometric_stuck` (Float/MeansProps.lean): (defect): for numbers between one half and one the product gets stuck on the least positive numbers and the computed geometric mean tends to one with their number, whatever the numbers are: of 131072 or more numbers in `(0.5, 0.9]` it is above 0.99.
* `C100_geometric_zero` (Float/MeansProps.lean): (defect): the geometric mean of positive numbers of at most `2^-a` each is zero as soon as there are `1075 / a` of them.
* `C102_exploded` (Float/NanPaths.lean): (defect): a geometric Brownian motion that overflows, and later meets one noise value that is not positive, ends in NaN; a call option on it, which should be worth more than any number, pays zero.
* `C102_lookback` (Float/NanLookback.lean): (defect): so of the lookback options on a path with a NaN inside, some pay zero and the others what the numbers of the path say, and which do which depends on the sign of the NaN. If it is clear, fixed-strike calls and floating-strike puts pay zero; if it is set, fixed-strike puts and floating-strike calls do.
* `C102_lookback_extremes` (Float/NanLookback.lean): (defect): the highest and lowest value of a path with NaN depend on the sign of the NaN. If it is clear, the highest value is NaN and the lowest one is that of the numbers; if it is set, it is the other way round.
* `C102_nan_asian` (Float/NanProps.lean): (defect): an Asian option with a NaN anywhere in its path pays exactly zero, whatever the rest of the path is.
* `C102_nan_barrier` (Float/NanProps.lean): (defect): a NaN inside a path is not seen by a barrier option: it neither knocks in nor knocks out, and the payoff is that of the path without it.
* `C102_nan_capped` (Float/NanProps.lean): (defect): so does a capped power option with a cap that is not negative, and so does a powered option where the power of zero is zero; a NaN strike has the same effect as a NaN underlying.
* `C102_nan_paths` (Float/NanProps.lean): (defect): paths that end in NaN are priced as worthless, and nothing tells the caller. A European option gets the price it would have if each of them ended at the strike instead.
* `C102_nan_pays_nothing` (Float/NanProps.lean): (defect): on an underlying that is NaN, options report a payoff of exactly zero, which looks like a worthless option: European, binary, supershare, log and power options, and every barrier option whose path ends in NaN.
* `C103_extremes` (Float/SortingProps.lean): (defect): the smallest and largest value pass over NaN, where the mean and the median of the same data do not: with at least one other datum they are those of the rest, and with none at all they are `+∞` and `-∞`, with a range of `-∞`.
* `C103_interp_add` (Float/SortingInterp.lean): (defect): adding a point whose abscissa is NaN puts it in front, without any error; from then on every interpolation panics.
* `C103_interp_single` (Float/SortingInterp.lean): (defect): the documentation says that a NaN abscissa panics; a single one is accepted, and then every interpolation panics.
* `C104_bisection_nan` (Float/SolversRun.lean): (defect): bisection takes a NaN for a positive value and returns the edge of the gap: in the case above 1.2998, although the accuracy is `2^-10` and the objective is not positive at any point below 1.4.
* `C104_brent_infinite` (Float/SolversRun.lean): (defect): Brent's method can return an infinity, where the objective is not near zero, when the interval is not enforced.
* `C104_brent_nan` (Float/SolversRun.lean): (defect): Brent's method can return a point where the objective is NaN. Looking for the zero of `x * x - 2` from 1, with no value between 1.3 and 1.6, it returns 1.334.
* `C104_descent_nan` (Float/SolversRun.lean): (defect): gradient descent does not notice a gradient that is NaN. If a partial derivative is NaN at the start, and wherever that coordinate is NaN, all iterations are spent and the minimizer returned has NaN in that coordinate.
* `C104_lost_root` (Float/SolversRun.lean): (defect): a root at an end of the bracket is passed over when the value at the other end is infinite, since zero times infinity is NaN: with guess 2 and step 1 the solvers evaluate the objective at its root 1, and return `0.0`.
* `C104_nan_guess` (Float/SolversNan.lean): (defect): a guess that is NaN, or a step that is NaN when the guess is not already a root, makes the three solvers return `0.0` if the objective passes NaN on.
* `C104_nan_objective` (Float/SolversNan.lean): (defect): when the objective is NaN everywhere, the three solvers return `0.0`, as they would for a root at zero.
* `C104_newton_infinite` (Float/SolversNan.lean): (defect): a derivative that is infinite in the middle of the bracket makes Newton-Raphson return that middle at once, whatever the accuracy and however far the objective is from zero there.
* `C104_newton_nan` (Float/SolversNan.lean): (defect): a derivative that is NaN in the middle of the bracket makes Newton-Raphson give up and return `0.0`, although the bracket holds a sign change that it could bisect.
* `C105_expiry_at_money` (Float/GreeksExpiry.lean): (defect): exactly at the money on the expiration date all sensitivities are NaN, also vega, rho and phi, whose limit is zero.
* `C105_expiry_nan` (Float/GreeksExpiry.lean): (defect): on the expiration date gamma, theta and `strike_gamma` of every option are NaN.
* `C106_chi_squared_entropy` (Float/LawsOverflow.lean): (defect): the entropy of a chi-squared distribution with 344 degrees of freedom or more is infinite.
* `C106_chi_squared_large` (Float/LawsOverflow.lean): (defect): a chi-squared distribution with 344 degrees of freedom or more has density and distribution function 0 or NaN at every argument, and the same quantile for every positive probability (or panics for all of them).
* `C106_chi_squared_panics` (Float/LawsOverflow.lean): (defect): if the incomplete gamma function is computed as a multiple of the gamma function, and so is infinite or NaN where that overflows (or panics), then the quantiles of a chi-squared distribution with 344 degrees of freedom or more panic, for every probability.
* `C106_exponential_small` (Float/LawsExpProps.lean): (defect): an exponential distribution gives probability exactly zero to `[0, x]` for every `x` with `rate * x ≤ 2^-54`, and its quantiles of all probabilities up to `2^-54` are zero; the correctly rounded values are not zero. (`exp` is taken to be right when the nearest number is one, and `ln 1 = 0`.)
* `C106_gamma_shape` (Float/LawsOverflow.lean): (defect): a gamma distribution with shape 172 or more has density and distribution function 0 or NaN at every argument.
* `C106_uniform_mean` (Float/LawsProps.lean): the mean of a uniform distribution is right to `2^-51` of itself (plus an underflow term), unless the sum of the ends overflows. Defect: then it is infinite.
* `C106_uniform_nan` (Float/LawsProps.lean): (defect): the distribution function of every uniform distribution is 1 at NaN, and the density 0.
* `C106_uniform_overflow` (Float/LawsProps.lean): (defect): if the width of a uniform distribution overflows, its density is 0 everywhere, its distribution function is NaN at its upper end and never positive, the quantile of probability zero is NaN and all others are infinite.
* `C106_uniform_quantile_beyond` (Float/LawsProps.lean): (defect): the quantile of probability one can lie beyond `b`, where the density is 0: for `a = -1` and `b = 3 * 2^-54` it is `2^-52`.
* `C107_binomial_cdf` (Distributions/ReleaseBinomial.lean): (defect): beyond the number of trials, where the distribution function is one, `Binomial::cdf` answers in a release build with the distribution function of `2^64 + n` trials, the difference having wrapped. Up to the number of trials it is the same as in a checked build.
* `C107_binomial_many` (Distributions/ReleaseBinomial.lean): (defect): with thirty-four trials or more `Binomial::pmf` gives no outcome a positive probability in a release build: it answers zero, or panics with a division by zero.
* `C107_binomial_panics` (Distributions/ReleaseBinomial.lean): (defect): from thirty-nine trials on, and up to the range of 32 bits, `Binomial::pmf` panics everywhere in a release build.
* `C107_binomial_some` (Distributions/ReleaseBinomial.lean): (defect): with thirteen to thirty-three trials `Binomial::pmf` answers in a release build, and the answers are no probabilities of one law: none exceeds the mass, and they add up to less than one.
* `C107_binomial_truncated` (Distributions/ReleaseBinomial.lean): (defect): in both builds the number of trials is cut to thirty-two bits: at a multiple of `2^32` trials, no success at all is certain.
* `C107_poisson_mass` (Distributions/ReleaseProps.lean): (defect): in a release build `Poisson::pmf` is the mass of the law at `0..20` only. At `21..65` it exceeds it, the factorial having wrapped, and from `66` on it is infinite.
* `C107_poisson_quantile_wrong` (Distributions/ReleaseProps.lean): (defect): when the rate is `133` or more, every quantile from the median up is wrong in a release build: the answer is at most `66`, and the law does not reach the level there.
* `C108_contaminates` (Float/TapeProps.lean): (defect): one partial derivative that is infinite or NaN, wherever it is recorded in the graph, makes the derivative of every output with respect to every input below it NaN. This includes outputs that do not depend on it, even those computed before.
* `C108_never_infinite` (Float/TapeProps.lean): (defect): the derivative with respect to an input is never infinite: where the true derivative is, NaN is returned.
* `C108_unused` (Float/TapeProps.lean): (defect): calling `sqrt`, `ln`, `recip` or `c / x` on an input `x` that is zero makes the derivative of every variable of the graph with respect to `x` NaN, even if the result is never used.
* `C109_gaussian` (Float/ActivationsProps.lean): (defect): `gaussian` is never below 1, and infinite from 27 on in size; the mathematical function is never above 1.
* `C109_gelu_infinite` (Float/ActivationsGelu.lean): (defect): `gelu` of minus infinity is NaN, although the mathematical function tends to zero there.
* `C109_relu_nan` (Float/ActivationsProps.lean): (defect): `relu` turns NaN into zero.
* `C109_relu_overflow` (Float/ActivationsVar.lean): (defect): on `Variable`, `relu` of numbers from `2^1023` on is infinite, and `relu` of minus infinity is NaN.
* `C109_sigmoid_gradient` (Float/ActivationsVar.lean): (defect): from -710 down, the derivative of the sigmoid of an input is NaN. The mathematical derivative is positive and below `exp (-710)`.
* `C109_sigmoid_one` (Float/ActivationsProps.lean): (defect): from 37 on the sigmoid is exactly 1, although that of the opposite number is not 0: the two probabilities do not add up to 1, and the logarithm of the complement is minus infinity. The mathematical sigmoid is below 1.
* `C109_softplus_gradient` (Float/ActivationsVar.lean): (defect): from 710 on, the value of the softplus of an input is infinite and its derivative NaN. The mathematical derivative is between 1/2 and 1.
* `C109_softplus_overflow` (Float/ActivationsProps.lean): (defect): from 710 on `softplus` is infinite, although the mathematical function is within 1 of its argument.
* `C109_softplus_zero` (Float/ActivationsProps.lean): (defect): from -37 down `softplus` is exactly zero, although the mathematical function is positive.
* `C110_cost_empty` (Float/NelsonSiegelCost.lean): (defect): the cost of a curve without nodes is NaN, not zero or an error.
* `C110_cost_flat` (Float/NelsonSiegelCost.lean): (defect): the cost does not see misfits up to `2^-27`: when every fitted value is this close to its node the cost is zero, so that such parameters cannot be told from a perfect fit (for discount factors, whose last digits matter, an error of `7e-9`).
* `C110_cost_overflow` (Float/NelsonSiegelCost.lean): (defect): one misfit of 711 or more makes the cost infinite, whatever the other nodes, although its exact value is near the misfit divided by the number of nodes: two such parameter sets cannot be compared.
* `C110_large_lambda` (Float/NelsonSiegelNan.lean): (defect): the spot rate loses the slope of the curve when the `λ`s are large. From `2^70` on, with `β₂ = β₃ = 0`, the average of the forward curve is `β₀ + β₁` for every date, up to `|β₁| / 2^54`; the forward rate is `β₀ + β₁`, rounded; but the spot rate is `β₀`.
* `C110_small_lambda` (Float/NelsonSiegelNan.lean): (defect): a `λ` that is zero, or positive but at most `2^-1040`, makes every forward rate NaN, whatever the `β`s, even when the `β` of the hump it shapes is zero.
* `C111_close_knots_defect` (Float/SplineEdges.lean): (defect): between knots that are far closer to each other than to the others the spline has no value: with the knots 0, `2^-1074`, 1, 2 and both control points 1, the value at 1/2 is NaN instead of 1.
* `C111_constant_defect` (Float/SplineEdges.lean): (defect): a spline whose control points are all 1 is not 1, and leaves the range of its control points on both sides: with the knots 0 to 8 and degree 3 it is `1 + 2^-52` at `3 + 2^-12` and `1 - 2^-53` at `3 + 3/4096`.
* `C111_inf_control_defect` (Float/SplineEdges.lean): (defect): a control point that is infinite makes the values of the spline NaN outside of the part of the curve it belongs to, where it has no influence in exact arithmetic: the basis function is zero there, and zero times infinity is NaN.
* `C111_infinite_knot_defect` (Float/SplineEdges.lean): (defect): with an infinite last knot, which `new` accepts, the spline has no value: with the knots 0, 1, 2, infinity and both control points 1, the value at 3/2 is NaN.
* `C111_nan_control_defect` (Float/SplineEdges.lean): (defect): one control point that is NaN makes every value of the spline NaN, also far away from the part of the curve it belongs to.
* `C111_nan_knot_defect` (Float/SplineEdges.lean): (defect): `add_point` takes a NaN, although `new` refuses it, and puts it in front of the other knots. From then on a spline of degree zero refuses every point, and one of higher degree has no value but NaN.
* `C112_constant` (Float/MomentsProps.lean): (defect): constant data have no skewness and no kurtosis, for their standard deviation is zero. If the computed mean of constant data is not exactly the constant, the skewness is instead a number next to `√(n (n - 1)) / (n - 2)`, negative if the mean was rounded up, and the kurtosis is next to `-2 (n - 1) / (n - 3)`.
* `C112_constant_tenths` (Float/MomentsProps.lean): (defect): three prices of 0.1 have a skewness of about -2.449, and six prices of 0.1 have an excess kurtosis of about -3.333.
* `C113_burke_underflow` (Float/RiskRewardProps.lean): (defect): the squares of drawdowns up to `2^-538` are lost to underflow, so the Burke ratio of a portfolio that had only such drawdowns is infinite or NaN. (Without drawdowns the zero is `-0.0`, which the model does not tell apart: see `C113_burke_none`.)
* `C113_market_alpha` (Float/RiskRewardProps.lean): (defect): otherwise the market can have an alpha against itself: with a riskless rate of 3 percent and a return of 29 percent it is `-2^-54`.
* `C113_no_risk` (Float/RiskRewardProps.lean): (defect): with a risk of zero the Sharpe, Sortino and Treynor ratios are reported without any error as an infinity, or as NaN if there is no excess return.
* `C114_flat_at_the_money` (Float/BachelierExpiry.lean): (defect): without time or volatility, price, delta, gamma, vega and theta of an option struck at the forward are NaN, for calls and puts. The price is zero by the formula's limit.
* `C114_flat_gamma` (Float/BachelierExpiry.lean): (defect): without time or volatility, gamma is NaN whatever the strike. Away from the money it is zero by the formula's limit.
* `C115_brownian_without_time` (Float/SchemesProps.lean): (defect): Brownian motion under either scheme does not depend on the period: whatever the start, the end and the time step, each value is the one before plus the noise, rounded once. The standard deviation of the last value is that of a sum of `n` normal variables, not the square root of the period.
* `C115_milstein_additive` (Float/SchemesProps.lean): (defect): if the diffusion does not depend on the value, a Milstein path is, bit for bit, the Euler-Maruyama path with noise that is not scaled by the square root of the time step; one panics exactly if the other does.
* `C115_milstein_gbm_step` (Float/SchemesProps.lean): (defect): one Milstein step of geometric Brownian motion comes out finite, and it is `x + mu x h + sigma x z + 10^-10 * sigma^2 x (z^2 - h) / 2` up to `2^-47` of the sizes of the terms: the correction of the Milstein scheme is too small by a factor of `10^10`.
* `C115_milstein_step` (Float/SchemesProps.lean): (defect): if the diffusion does not depend on the value, or the value is `2^38` or more in size, the Milstein correction is exactly zero: the step is, bit for bit, the Euler-Maruyama step with noise that is not scaled by the square root of the time step. For large values `x + 1e-5` and `x - 1e-5` both round to `x`, whatever the diffusion.
* `C116_number_of_jumps` (Float/JumpsProps.lean): (defect): how many jumps were sampled for a step is not used. Two samples that agree on which steps have a jump give the same path, bit for bit: a step with five jumps moves as much as a step with one.
* `C117_bdt_zero_volatility` (Float/PathsProps.lean): (defect): a Black-Derman-Toy path whose volatility is zero at a time is not finite from the next step on, in every scheme, without any error.
* `C117_bridge` (Float/PathsProps.lean): (defect): a geometric Brownian bridge that reaches zero or falls below it is NaN from then on, in every scheme; with a negative end value it is NaN from the first step on.
* `C117_cev_negative` (Float/PathsProps.lean): (defect): so is a path of constant elasticity of variance that falls below zero, if the elasticity is strictly between 0 and 1.
* `C117_cir_fails` (Float/PathsProps.lean): (defect): such a path exists. A Cox-Ingersoll-Ross process with mean 2, volatility 1 and speed 1, simulated from 1 in two steps of length 1 with noise -3, gives the values 1, -1 and NaN, whatever the noise of the second step.
* `C117_cir_negative` (Float/PathsProps.lean): (defect): a Cox-Ingersoll-Ross path that falls below zero is NaN from then on, without any error, in the Euler-Maruyama and the Milstein scheme.
* `C22_argentina_defect` (Time/CountryProps.lean): (defect): in Argentina 1 January is a holiday in no year, so it is a business day whenever it is a weekday.
* `C22_france_defect` (Time/CountryProps.lean): (defect): in France neither Ascension (39 days after Easter) nor Whit Monday (50 days after) is a holiday, unless it happens to fall on one of the fixed dates 1, 8, 10 or 21 May.
* `C22_singapore` (Time/CountryProps.lean): in Singapore, outside 2004 to 2024, the holidays are exactly the fixed and Easter ones and, by the defect above, the 25th of every month.
* `C22_singapore_defect` (Time/CountryProps.lean): (defect): in Singapore the 25th of every month of every year is a holiday.
* `C33_not_stored` (Cashflows/Props.lean): (defects): `set_value(None)` never clears a quote, and `set_value(Some(0))` on an empty quote leaves it empty; both return 0.
* `C34_empty_panics` (Data/CurveProps.lean): (defect): a curve created without nodes panics in `get_rate` at every date that is not a node, also after rates have been set: the interpolator never learns of them.
* `C34_set_rate_not_interpolated` (Data/CurveProps.lean): (defect): `set_rate` does not change interpolated rates: between two nodes whose rates were both raised by `set_rate`, `get_rate` still interpolates the old rates. Stated for any set of overwritten nodes.
* `C34_shift` (Data/CurveProps.lean): `shift` adds the shift to the rate of every node and to no other date: an interpolated rate stays as it was (defect: the shifted curve is not the curve shifted).
* `C36_eq_not_comparable` (Fx/Props.lean): (defect): two amounts can be equal (`==`) and yet not comparable by `partial_cmp` (which Rust requires to be `Some(Equal)` for equal values), when the currencies share their ISO code but differ in another field.
* `C38_integer_steps` (Math/InterpProps.lean): (defect): with an integer index and value type the quotient truncates, and every point strictly between two neighbours gets the left neighbour's value: the interpolation is a step function.
* `C39_clamped_end` (Math/BSplineProps.lean): (defect): when the right end knot is repeated to the end of the knot vector (a clamped spline), the value there is zero whatever the control points are.
* `C39_range_not_evaluable` (Math/BSplineProps.lean): (negation of "every point of the range can be evaluated"): below the knot with the index of the degree the evaluation fails.
* `C40_bisection` (Math/RootfindProps.lean): what `Bisection::solve` returns when its search succeeds: a point where `|f|` is below the closeness threshold, or a point within the effective accuracy of a sign change; inside the interval if it is enforced and contains the guess. The third case is the defect exhibited in `C40_premature_stop`; it needs a value of `f` strictly between 0 and the threshold.
* `C40_premature_stop` (Math/RootfindProps.lean): (defect): when the middle of the bracket has a tiny positive value the search stops, but returns the old end of the bracket instead of the middle. Here `f x = x + 1e-30` is bisected from -1 to 1: the middle 0 is within `1e-30` of the root, and bisection returns -1.
* `C42_iqr_not_quantile_difference` (Math/StatisticOrderProps.lean): (defect): the interquartile range is not the difference of the quantiles at 3/4 and 1/4: for `[1, 2, 3, 4]` it is 2, the difference of the quantiles is 3/2.
* `C43_length_check_too_lax` (Math/FftProps.lean): (defect): the length test has a tolerance, so `2 ^ 34 + 1` passes as a power of two.
* `C43_real_is_not_dft` (Math/FftProps.lean): (defect): the real transform is neither the discrete Fourier transform nor its magnitude. On the data of the unit test it gives `[4, -2, 0, -6]`; the second entry of the transform is `-4 - 2i`.
* `C44_seq_diverges` (Math/SequencesProps.lean): (negation): `seq` does not finish on every input. With a negative step and the start at most one step below the end, the loop runs (and pushes) for ever.
* `C46_rebate_ignored` (Options/PayoffProps.lean): (negation of the documented rebate): the rebate never affects the payoff, so a knocked-out option with a rebate pays nothing.
* `C47_implied_roundtrip` (Options/BsmProps.lean): With an exact inverter, `implied_volatility` of an option whose cost of carry is the interest rate returns the volatility that produced the price. Defect: it ignores the cost of carry; when `b ≠ r` it never returns the option's volatility for a price it can invert at all.
* `C47_rho_fixed_carry` (Options/BsmProps.lean): Defect: for a fixed cost of carry (in particular Black 1976, `b = 0`) the derivative in the interest rate is `-t * price`, so `rho` has the wrong sign for calls: it is positive while the price falls in `r`.
* `C47_ultima_wrong` (Options/BsmProps.lean): Defect: `ultima` is documented as the derivative of vomma in the volatility; it is off by `2 (vomma/v) d2/d1`, so it is wrong whenever `d1` and `d2` are not zero.
* `C48_american_dates` (Options/FiniteDifferenceProps.lean): Defect: the exercise style is honoured only for the one flag American `Date::MIN` - `Date::MAX`. Any other American flag, and every Bermudan flag, is priced as a European option.
* `C48_boundary_discounted` (Options/FiniteDifferenceProps.lean): Defect: the values on the grid are in money of time `t` (they are multiplied by `e^{-rT}` only at the end, and the exercise comparison scales the payoff by `e^{rτ}`), but the boundary values are discounted ones. The undiscounted value of a call deep in the money is at least `s e^{rτ} - K`; the code uses strictly less, for every `τ > 0` and boundary price above the discounted strike; for boundary prices above twice the strike it is even below the exercise value it is compared with.
* `C48_inverse_one` (Options/FiniteDifferenceProps.lean): Defect: for the smallest grid (two price steps, a single inner node) the routine returns `1 / (d² - a c)` as the inverse of the `1 × 1` matrix `d`; this is wrong unless `d² - a c = d`.
* `C48_negative_price` (Options/FiniteDifferenceProps.lean): Defect: with the strike above the grid the negative boundary value leaks into the price: a European call whose payoff vanishes on the whole grid gets a strictly negative explicit price, on every three-step grid with one time step and `x + y > 0`.
* `C49_bridge_misses_end` (Stochastics/SimulationProps.lean): (defect): the noiseless geometric Brownian bridge with no drift of its own does not reach its end value: from `x` one step before the end the last point is `x (1 + ln(end/x))`, which is below the end value unless the path is already there.
* `C49_cir_fails` (Stochastics/SimulationProps.lean): (defect): an Euler run of the Cox-Ingersoll-Ross process fails (NaN) as soon as a path goes negative, which one large enough negative normal achieves from any positive starting value.
* `C49_fft_not_reproducible` (Stochastics/SimulationProps.lean): (defect): the FFT generator ignores the seed. Whatever the seed, two runs that differ only in fresh entropy differ.
* `C49_fractional_double_scaling` (Stochastics/SimulationProps.lean): (defect): fractional Brownian motion by the Euler scheme: the fractional noise, already scaled to the step by its generator, is multiplied by `√dt` once more; Milstein and Strang add it as it is.
* `C49_fractional_paths_identical` (Stochastics/SimulationProps.lean): (defect): with a seed, all paths of a fractional process from the Cholesky generator are the same path.
* `C49_jump_times_shared` (Stochastics/SimulationProps.lean): (defect): the jump counts are drawn once and shared: in a step, either every path of a Merton run jumps or none does, and several arrivals in a step count once. The jump sizes come from the process's own generator.
* `C49_milstein_correction` (Stochastics/SimulationProps.lean): (defect): the Milstein correction of a geometric Brownian motion is `10⁻¹⁰` times the right one `σ²x(Z² - dt)/2`: the central difference is multiplied by the step where it should be divided.
* `C49_stochastic_volatility_ignored` (Stochastics/SimulationProps.lean): (defect): in the stochastic volatility simulation the second component has no influence: the returned asset paths do not depend on the volatility's starting value, drift or diffusion.
* `C49_unscaled_noise` (Stochastics/SimulationProps.lean): (defect): in Milstein and Strang runs of an arithmetic Brownian motion the normal is not scaled by `√dt`: each step adds `σ Z`, whatever its length.
* `C49_unscaled_variance` (Stochastics/SimulationProbProps.lean): (defect): under Milstein and Strang splitting the same terminal value has variance `nσ²`: it depends on the number of steps and not on the time simulated.
* `C50_minimum_not_attained` (Math/GradientDescentProps.lean): (negation): the reported `minimum` is not the objective's value at the reported minimiser, and can lie below every value the objective takes. For every objective, a start that is already stationary is returned with minimum `0`.
* `C53_exact_root_lost` (Math/RootfindProps.lean): (defect): when an iterate is an exact root with derivative zero, the search divides zero by zero and fails. For `f x = (x - 5)^3` started at 4 with step 2 the first iterate is the root 5, and the answer is `0.0`.
* `C54_failure_is_zero` (Math/RootfindProps.lean): (defect): a failed search is reported as the number 0. For every function that stays at or above the closeness threshold, so has no root at all, all three solvers return `0.0` from every guess.
* `C59_iv_disagree` (Options/BachelierProps.lean): **C59, defect.** A call and a put that satisfy (undiscounted) put-call parity have the same implied volatility, but `iv` answers a strictly smaller one for the call: the call's rational approximation uses the powers `0..8` of `eta` with the table `B`, the put's drops the first entry, while the published approximation pairs `B` with the powers `1..9`.
* `C59_iv_limit` (Options/BachelierProps.lean): **C59, defect.** As the strike approaches the forward, `iv` of a call tends to the exact volatility up to `1e-15` relative, but `iv` of a put tends to a value more than `0.1%` too large.
* `C60_at_the_money` (Options/SabrProps.lean): **C60, defect.** At the money the volatility is zero, or NaN if the correlation is zero; Hagan's value is positive at expiry.
* `C60_near_the_money` (Options/SabrProps.lean): **C60.** With zero correlation the volatility tends to Hagan's at-the-money value as the strike approaches the forward; with any other correlation it tends to zero (defect).
* `C60_negative` (Options/SabrProps.lean): **C60, defect.** With a non-zero correlation, at strikes close enough to the forward (below it for a positive correlation, above it for a negative one) the volatility at expiry is negative, and so it is for any later time for which Hagan's at-the-money volatility is positive.
* `C60_no_smile` (Options/SabrProps.lean): **C60, defect.** In general the formula replaces Hagan's `ζ = (ν/α) (fk)^{(1-β)/2} ln(f/k)` by the same without `ν/α` and divides outside the logarithm: at expiry the volatility does not depend on the volatility of volatility, whereas (with zero correlation) Hagan's strictly increases with it.
* `C60_pole` (Options/SabrProps.lean): **C60, defect.** The volatility is not a finite number exactly at the strikes whose moneyness is `ρ + ρ²/2`. For `β = 1` this is the strike `f e^{-(ρ + ρ²/2)}`.
* `C60_sign` (Options/SabrProps.lean): **C60, defect.** Whenever Hagan's time factor is positive, the volatility is negative exactly between the money and the pole, and positive elsewhere.
* `C61_branch` (Options/HestonBranchProps.lean): **C61** (defect). The integrand of the code is not continuous in the time to expiry: when `2κθ/σ²` is not an integer and the discriminant is not real, at every argument `φ` there are an expiry and a strike at which the integrand jumps, because the logarithm crosses its branch cut.
* `C63_sample_truncated` (Distributions/GammaProps.lean): Defect: `sample` cuts every draw down to its integer part, so that a sample of this continuous law consists of whole numbers and its expectation is too small: the mean of what a draw becomes is strictly below `mean()`.
* `C64_median_inexact` (Distributions/ChiSquaredProps.lean): Defect: `median` is an approximation; for two degrees of freedom it is not a median.
* `C64_quantile_capped` (Distributions/ChiSquaredProps.lean): Defect: no level leads `inv_cdf` beyond one and a half times the degrees of freedom. From the probability of that point on, up to and including `1`, it answers with a number just below it, whose distribution function is still under the level asked for.
* `C64_quantile_panics` (Distributions/ChiSquaredProps.lean): Defect: `inv_cdf` panics for level zero, and for every level up to the probability of half the degrees of freedom when `cdf` does not accept zero - always so for one degree of freedom.
* `C64_sample_truncated` (Distributions/ChiSquaredProps.lean): Defect: `sample` cuts every draw down to its integer part: the expectation of what a draw becomes is strictly below `mean()`.
* `C65_continuous_degenerate` (Distributions/UniformProps.lean): Defect: a continuous uniform law on a single point is accepted; then neither the density nor the distribution function at that point, the entropy, or `cf` and `mgf` anywhere are numbers, and sampling panics.
* `C65_discrete_off_integers` (Distributions/UniformProps.lean): Defect: between two integers of the interval, where the law has no mass, `pmf` reports the mass of an integer.
* `C65_discrete_variance_wrong` (Distributions/UniformProps.lean): Defect: in the discrete class `variance` exceeds the variance of the law by one twelfth.
* `C65_sample` (Distributions/UniformProps.lean): `sample` in the continuous class hands the draws on. Defect: in the discrete class it cuts draws from the half-open interval down to natural numbers, so that with a positive upper end it never yields that end, and with a non-positive one it yields nothing but zeros.
* `C66_cdf_wrong` (Distributions/PoissonProps.lean): Defect: `cdf` divides by the upper instead of the complete gamma function. With `F` the true distribution function, at every integer it answers `2 - 1 / F`: always too small, and negative whenever `F` is below one half. Up to `-1` it panics.
* `C66_median_wrong` (Distributions/PoissonProps.lean): Defect: for rates up to `1/20` `median` is negative, and not a median; zero is.
* `C66_pmf_off_support` (Distributions/PoissonProps.lean): Defect: off the non-negative integers, where the law has no mass, `pmf` is positive: between two integers it repeats the value at the lower one, and at a negative integer `-n` it is `λ⁻ⁿ exp (-λ)`.
* `C67_cdf` (Distributions/TrialsProps.lean): `cdf` is the distribution function outside the open interval from -1 to 0. Defect: inside it, where the distribution function is zero, `cdf` is already `1 - p`.
* `C67_quantile` (Distributions/TrialsProps.lean): `inv_cdf` answers exactly for levels in `[0,1]`, with the quantile at every positive level other than `1 - p`. Defect: at the level `1 - p`, when that is positive, the quantile is zero and the answer is one.
* `C68_cdf` (Distributions/TrialsProps.lean): `cdf` is the distribution function at the integers below the number of trials. Defect: at the number of trials itself, where the distribution function is one, and beyond, it panics; so it does at negative arguments from `-1` down, where it is zero.
* `C68_median_entropy_wrong` (Distributions/TrialsProps.lean): Defects: `median`, the integer part of the mean, need not be a median (one trial with probability 9/10), and `entropy` is not the entropy (one fair trial).
* `C68_mode` (Distributions/TrialsProps.lean): `mode` is a number of successes with the largest mass, unless success is certain. Defect: in that case it is `n + 1`, which is impossible.
* `C68_pmf` (Distributions/TrialsProps.lean): Up to twelve trials `pmf` is the mass of the law at `0..n`, and panics beyond. Defect: with thirteen trials or more (up to the range of 32 bits) it panics everywhere: `n!` is computed in 32 bits.
* `C68_quantile` (Distributions/TrialsProps.lean): `inv_cdf` is the quantile at every positive level that fewer than `n` successes reach (zero at level zero). Defect: at every level beyond the probability of fewer than `n` successes - level one when `p` is positive, and every level when `n` is zero - it panics instead of answering `n`.
* `C68_sample_wrong` (Distributions/TrialsProps.lean): Defect: `sample` passes the sample size to the generator as the number of trials. Its result does not depend on the number of trials of the distribution at all, although the mean does.
* `C76_power_negative` (Options/MonteCarloProps.lean): (defect): a power option whose underlying ends below zero and whose power is not a whole number is worth zero there, call and put alike, instead of failing.
* `C76_unscaled` (Options/MonteCarloLaw.lean): (defect): under Milstein and Strang splitting the expected price is the Bachelier price with volatility `σ√(n/T)`: it depends on the number of steps and grows without bound with it.
* `C77_expired_as_alive` (Options/AnalyticPricerProps.lean): **C77, defect.** The clock runs backwards after expiry: `n` days after it, every method of every model gives what it gave `n` days before it.
* `C77_expired_has_value` (Options/AnalyticPricerProps.lean): **C77, defect.** An option that has expired, even worthless, has a positive price on every later day.
* `C77_future_rho_wrong` (Options/AnalyticPricerGreeks.lean): **C77, defect.** For a call on a futures price rho is positive although the price falls when the interest rate rises, by `n / 365.25` times itself.
* `C77_ultima` (Options/AnalyticPricerGreeks.lean): **C77, defect.** Ultima is meant to be the derivative of vomma in the volatility, but differs from it by twice `vomma / volatility · d2 / d1`, `d1` being the standardised logarithm of the moneyness and `d2 = d1 - v √t`.
* `C78_middle_order_two` (ImpliedVol/Props.lean): DEFECT: the step of the middle segments divides `(x/s)²` by nothing where Householder's method divides it by `s` (implied_volatility.rs 1001), so that it is only of second order: the error is squared, with a constant that vanishes only at the money and at total volatility one.
* `C83_binomial_wrong` (Distributions/SamplingProps.lean): Defect: the expectation of the average of a sample of `n` numbers of a binomial distribution is `n` times the probability of success - the size of the sample in place of the number of trials.
* `C83_chi_squared_wrong` (Distributions/SamplingProps.lean): Defect: samples of a chi-squared distribution are biased in the same way.
* `C83_discrete_uniform_wrong` (Distributions/SamplingProps.lean): Defect: samples of a discrete uniform distribution on non-negative integers come out too small by one half on average - the upper end is never drawn, so that the proportion of numbers below it approaches one, not `cdf`.
* `C83_gamma_wrong` (Distributions/SamplingProps.lean): Defect: samples of a gamma distribution are biased. Their average approaches a number strictly below `mean()`, and the proportion of numbers up to `x` approaches `cdf` at the next integer, which is strictly above `cdf(x)`.
* `C84_order_defects` (Autodiff/CompareProps.lean): Defects of the ordering. `cmp` calls a NaN equal to everything, so that it is not transitive (numbers on both sides of a NaN compare as different) and `a <= b` holds when either is NaN; and variables that `cmp` calls equal need not be `==`: with the same value they are unless they are the same vertex.
* `C84_round_untaped` (Autodiff/CompareProps.lean): Defect: rounding leaves no trace on the tape. After `x.round()` the derivative of `op(x)` with respect to `x` comes out as `op'` at the rounded value, as if rounding were the identity.
* `C85_leap_year_defect` (Time/HebrewProps.lean): (defect): in a leap year 14 Adar I and the 15th, 20th and 21st of Adar, on which there is no holiday, are holidays of the market.
* `C86_mean_outside` (Float/SumProps.lean): (defect): the rounded mean can lie outside the range of the data: the mean of three times 0.1 is above 0.1. So the variance of equal data need not be zero, and `correlation`, which refuses data of zero deviation, does not notice it.
* `C86_sum_order` (Float/SumProps.lean): (defect): unlike the exact sum, and so unlike the exact mean, the rounded sum depends on the order of the data: the same three numbers give 0 or 1.
* `C87_median_overflow` (Float/OrderProps.lean): (defect): the median of two finite numbers can be infinite, because they are added before they are halved.
* `C88_linspace_last` (Float/SeqProps.lean): (defect): the last entry of `linspace` need not be the end. `linspace(0, 1, 50)` stops short of 1; `linspace(-0.1, 0.3, 2)`, which asks for the two ends, goes beyond 0.3.
* `C88_seq_drops_end` (Float/SeqProps.lean): (defect): `seq(0, 0.3, 0.1)` does not contain its end: it returns three entries, not four, because the rounded sum of three tenths exceeds 0.3.
* `C88_seq_hangs` (Float/SeqProps.lean): (defect): with a positive step of at most `2^-54` of a positive start, `seq` never returns a sequence: adding the step rounds back to the start, and the loop pushes the start forever. It panics first if the quotient is `2^60` or more.
* `C88_seq_hangs_example` (Float/SeqProps.lean): (defect): the call `seq(2^53, 2^53 + 2, 1)` asks for three whole numbers and never returns.
* `C88_seq_negative` (Float/SeqProps.lean): (defect): with a negative step and the start not above the end, the loop never ends either.
* `C89_day_count_not_additive` (Float/FormulaProps.lean): (defect): year fractions do not add up exactly: over 365 days, that of one day plus that of two is not that of three.
* `C89_interpolate_overshoot` (Float/FormulaProps.lean): (defect): next to the right node the interpolated value can leave the range of the two values: between the nodes (-1, -2^53) and (1, 3), at the last value below 1, the result is 4.
* `C90_leaves_interval` (Float/BisectionProps.lean): (defect): an enforced interval does not keep the search inside it. The width of the bracket is rounded up, and between -8 and `0.7 * 2^-49` the midpoints pass the upper bound: the point returned lies above it.
* `C91_order_matters` (Float/PortfolioProps.lean): (defect): they need not be equal: the value of a portfolio depends on the order in which its hash map is iterated, also for positive prices, and so does its profit.
* `C91_profit_ne` (Float/PortfolioProps.lean): (defect): profit is not value less cost, already for two positions.
* `C91_weights_range_of_single` (Float/PortfolioProps.lean): (defect): weights are computed in single precision, whose range is smaller: the weight of a position worth `2^128` or more is not a number, and so is every weight of a portfolio worth more than nothing but at most `2^-150`.
* `C92_outside` (Float/QuadratureProps.lean): (defect): the integrand is evaluated outside the interval: there are two integrands that agree on `[0.2, 1]` but whose computed integrals over `[0.2, 1]` differ.
* `C93_not_exact` (Float/MoneyProps.lean): (defect): converting there and back at the rounded reciprocal rate need not give the amount back; converting the parts and adding need not give what converting the sum gives; and three sums of money depend on the order in which they are added.
* `C94_not_exact` (Float/AutodiffProps.lean): (defect): beyond those bounds the gradient need not have one correct digit: `2^54 x + x - 2^54 x` at `x = 1` has the derivative 1, and the library reports 0.
* `C94_order_matters` (Float/AutodiffProps.lean): (defect): the order in which a program records its operations changes the gradient of the same function: `2^53 x + x + x` gets `2^53 + 2` or `2^53`.
* `C94_program_exact` (Float/AutodiffProps.lean): a program of sums, differences, products and negations with integer inputs and constants, none of whose values exceeds `2 ^ 53`, computes its values exactly; and where in addition the chain rule of the magnitudes stays within `2 ^ 53`, its gradient is the derivative of the function the program denotes, exactly.
* `C95_not_exact` (Float/FftProps.lean): (defect): the transform of `0, 1, 0, 0` is not exact although its entries are `1, -i, -1, i`: the root of unity `-i` is computed as `cos (-π/2) + i sin (-π/2)` with a rounded `π/2`, whose cosine is about `6e-17`. This happens with every cosine function that is not zero where the cosine is not zero.
* `C96_american_intrinsic` (Float/FdProps.lean): (defect): an American option on such a grid is priced as if it were exercised at once: the NaN of the matrix loses against the exercise value in `f64::max`, and the price is the payoff at the middle of the grid times `exp (-r T) * exp (r M dt)`. No later exercise is considered: neither volatility nor boundary values enter.
* `C96_crank_nicolson_nan` (Float/FdProps.lean): (defect): so does `crank_nicolson`, on grids a little finer.
* `C96_implicit_nan` (Float/FdProps.lean): (defect): `implicit` answers NaN for ordinary options as soon as the grid is fine: the determinants behind its matrix inverse grow by the factor `1 + N^2 / (201 M)` per price step and overflow to infinity, and infinity minus infinity is NaN.
* `C96_square_grids` (Float/FdProps.lean): (defect): with 800 price steps or more and no more time steps than price steps, both implicit methods answer NaN for every ordinary European option.
* `C97_times_last` (Float/SimulationProps.lean): (defect): the last time of a simulation need not be the final time asked for. With 49 steps from 0 to 1 it falls short of 1.
* `C98_expiry_nan` (Float/BlackScholesExpiry.lean): (defect): the price, and delta, of an option that is exactly at the money on its expiration date is NaN. Its value is zero.
* `C99_constant` (Float/CorrelationProps.lean): (defect): the correlation of constant lists should panic, for their standard deviations are zero. If the computed means of two constant lists are not exactly the constants, the correlation is instead a number next to 1, or next to -1 if one mean is rounded up and the other down.
* `C99_constant_minus_one` (Float/CorrelationProps.lean): (defect): the correlation of `[0.1, 0.1, 0.1]` and `[0.7, 0.7, 0.7]` is -1, up to rounding, instead of a panic.
* `C99_correlation_over_one` (Float/CorrelationProps.lean): (defect): a correlation can exceed 1: with any correctly rounded square root, the correlation of `[0, 0, 3]` with itself is `1 + 2^-52`.
