#!/usr/bin/env python3
"""Writes ../properties.jsonl. One entry per property; edit here, then re-run."""
import json, os
T = "crates/RustQuant_trading/src/"
D = "crates/RustQuant_time/src/"
A = "crates/RustQuant_autodiff/src/"
C = "crates/RustQuant_cashflows/src/"
I = "crates/RustQuant_instruments/src/"
M = "crates/RustQuant_math/src/"
S = "crates/RustQuant_stochastics/src/"
P = []
def p(title, statement, quantifier, why, anchors):
    P.append(dict(id="C%02d" % (len(P)+1), title=title, statement=statement, quantifier=quantifier,
                  why_tests_cant=why, anchors=anchors))

LOB = [T+"limit_order_book.rs: Book", T+"limit_order_book/limit.rs: Limit", T+"limit_order_book/order.rs: Order"]
p("Limit order book never corrupts itself or panics",
  "Starting from Book::new(), no sequence of add_order / cancel_order / execute_market_order calls panics, and after every call each live order id is queued exactly once, at its own limit price on its own side, no queue holds an id that is not live, and no empty price level is kept.",
  "every finite sequence of calls with arbitrary arguments", "the set of histories is infinite; the panic paths (`panic!(\"\")`, `expect`, `unwrap`) are only unreachable because of an invariant over all histories", LOB)
p("add_order rejects exactly the live ids and otherwise enqueues last",
  "add_order returns Err(ExistingIdError) iff an order with that id is live, and then the book is unchanged; otherwise it returns Ok, the new order becomes live with the given side/price/shares/timestamp, it is last in the queue of its price level, and every other order and every other queue is unchanged.",
  "every reachable book and every argument tuple", "quantifies over all book states and ids", LOB)
p("cancel_order removes exactly the named order",
  "cancel_order returns Err(NonExistingIdError) iff no order with that id is live, and then the book is unchanged; otherwise that order disappears and all remaining orders keep their shares and their relative queue position.",
  "every reachable book and every id", "quantifies over all book states", LOB)
p("add then cancel restores the book",
  "If add_order(id, ...) succeeds, then cancel_order(id) immediately afterwards succeeds and the resulting book is indistinguishable from the book before the add.",
  "every reachable book and every argument tuple", "an undo law over all states", LOB)
p("Market orders conserve shares",
  "execute_market_order(n, side) fills exactly min(n, V) shares where V is the total resting volume on the opposite side; the flag is true iff V >= n; the resting volume on the opposite side falls by exactly the filled amount; and no u64 subtraction in it can underflow.",
  "every reachable book, every n, both sides", "arithmetic over unboundedly many levels and orders", LOB)
p("Market orders respect price priority",
  "The fill prices are strictly monotone from best to worst (ascending for a buy, descending for a sell), every fill is at a price that had a resting level on the opposite side, and whenever any share trades at a price, all better-priced levels on that side have been emptied.",
  "every reachable book, every n, both sides", "all book shapes", LOB)
p("Market orders respect time priority inside a level",
  "At the levels touched, orders are consumed strictly from the front of the queue: the removed orders form a prefix of the queue in arrival order and at most one remaining order (the first remaining one) is partially filled.",
  "every reachable book, every n, both sides", "all queue contents", LOB)
p("Market orders leave the own side untouched",
  "execute_market_order never changes any order or level on the submitter's own side, and orders at untouched levels keep their shares and position.",
  "every reachable book, every n, both sides", "frame property over all states", LOB)
p("The order book refines price-time priority",
  "The responses of any sequence of add/cancel/market calls are exactly those of a simple specification that keeps one list of live orders in arrival order and fills a market order share-by-share against the best-priced, earliest-arrived opposite order.",
  "every finite sequence of calls", "observational equivalence over all histories", LOB)
p("OrderBook keeps per-side arrival order",
  "After any sequence of insert_order calls, bids/asks are exactly the inserted bid/ask orders in insertion order, len is the number of inserts and is_empty is true iff there were none; negating an OrderSide twice is the identity.",
  "every finite sequence of inserts", "all histories", [T+"order_book.rs: OrderBook", T+"order_side.rs: OrderSide"])

p("Business day = not weekend and not holiday",
  "For every calendar, is_business_day(d) is true iff d is neither a weekend day of the market (Fri/Sat for Israel, Sat/Sun otherwise) nor a holiday; adding a date with add_holiday makes precisely that date a holiday in addition, regardless of insertion order or repetition.",
  "every market, every history of add_holiday/add_holidays, every date at which it does not panic", "all dates and all extra-holiday histories", [D+"calendar.rs: Calendar", D+"utilities.rs"])
p("Following / Preceding roll to the nearest business day",
  "roll_date(d, Following) is the earliest business day >= d, roll_date(d, Preceding) is the latest business day <= d, roll_date(d, Actual) is d; a business day is never moved and rolling twice equals rolling once.",
  "every calendar and date for which rolling terminates without panic", "loops over unboundedly many days", [D+"date_rolling.rs: DateRollingConvention", D+"utilities.rs: next_business_day, previous_business_day"])
p("Modified conventions stay inside the month",
  "roll_date with ModifiedFollowing / ModifiedPreceding returns a business day in the same month as the input whenever that month (of that year) contains a business day, and it is the nearest one in the preferred direction if there is one in the month, otherwise the nearest in the other direction. (The code compares months without the year; if the search runs on for a year or more it accepts the same month of another year, which must be exhibited.)",
  "every calendar and date for which rolling does not panic", "all calendars, all dates", [D+"date_rolling.rs"])
p("business_day_count counts business days in the closed interval",
  "business_day_count(a, b) is the number of business days d with a <= d <= b (0 if b < a); it is additive: count(a,c) = count(a,b) + count(b+1,c); and count <= calendar_day_count + 1 for a <= b.",
  "every calendar, every pair of dates", "unbounded loop", [D+"calendar.rs: business_day_count, calendar_day_count"])
p("Actual/x day-count factors form a signed additive measure",
  "For Actual/360, /364, /365F, /365.25 and /366: factor(a,b) = (b-a in days)/denominator, factor(a,a)=0, factor(a,b) = -factor(b,a), factor(a,b)+factor(b,c) = factor(a,c), and the factor is strictly monotone in b.",
  "all dates a, b, c", "algebraic law over all dates", [D+"day_counting.rs: day_count_factor_actual_*"])
p("30/360 family conventions count 30-day months",
  "For each 30/360 variant the factor is (360*dy + 30*dm + dd)/360 (or /365) after the documented end-of-month adjustments; n whole years between dates of equal day and month (28 and 29 February aside where February ends are adjusted) count exactly n in the /360 variants and n*360/365 in 30E/365, except that 30E+ counts one 360th more from a 31st to a 31st; swapping or concatenating intervals is a signed additive measure for the 30E variants (whose adjustment looks at one date only) and is not for the variants whose end adjustment looks at the start date (to be exhibited); 30E+ counts an end day of 31 as the first of the next month, and panics only for the last representable date.",
  "all pairs of dates", "case analysis over all month ends", [D+"day_counting.rs: day_count_factor_thirty_*"])
p("Actual/Actual ISDA splits by calendar year",
  "For a <= b, the Act/Act ISDA factor equals the sum over calendar years of (days of [a,b) in that year)/(365 or 366); it is the difference of two year positions, hence additive over any three dates and antisymmetric; it panics exactly when the dates differ and the start lies in year 9999.",
  "all ordered triples of dates", "sum over an unbounded number of years", [D+"day_counting.rs: day_count_factor_actual_actual_isda"])
p("Leap-day sensitive conventions (NL/360, NL/365, 365 Leap, 365 Actual, Act/Act AFB)",
  "Exact behaviour of the conventions documented in terms of leap days: NL subtracts the number of leap years touched by the interval, and 365-Leap/365-Actual divide by 366 iff a leap year is touched. Both differ from the documented leap-day semantics on explicit intervals, and Act/Act AFB panics exactly when it has to move a 29 February end date into a non-leap year (or beyond year 9999) and otherwise is whole years plus the stub over 366 when the years of the stub include a leap year, and actual days over 365 when not.",
  "all pairs of dates", "edge cases around Feb 29 over all years", [D+"day_counting.rs", D+"utilities.rs: leap_year_count, contains_leap_year"])
p("First / last weekday-of-month helpers",
  "get_first_{mon..sun}day_of_month(d) is the unique date in d's month with that weekday and day number <= 7; get_last_{...} is the unique date in d's month with that weekday in the last seven days of the month; is_first/last_day_of_month and is_last_day_of_february agree with the civil calendar.",
  "every date", "all months of all years", [D+"utilities.rs: get_first_*, get_last_*, is_*_day_of_month"])
p("get_last_day_of_month returns the wrong weekday",
  "The documented behaviour (weekday of the last day of the month) holds for no date: the function returns the weekday of the first day of the next month, i.e. always one weekday later.",
  "every date (with a representable next month)", "refutation for every input, not one example", [D+"utilities.rs: get_last_day_of_month"])
p("Easter Monday table equals the computus",
  "For every year 1901..2199 easter_monday returns the day-of-year of the Monday after Easter Sunday as given by the Gregorian computus (western) and by the Julian computus converted to the Gregorian calendar (orthodox); the date is always a Monday, never before March 23; outside that year range the lookup panics.",
  "all years in the table and all years outside it", "598 table entries against an independent algorithm, and a lookup contract for all other years", [D+"constants.rs: EASTER_MONDAYS", D+"utilities.rs: easter_monday"])
p("Country calendars: fixed holidays and known defects",
  "For each modelled country the fixed-date and Easter-relative holidays it lists are non-business days in every year 1901..2199. For the markets without lunar holidays these are all the holidays; for Hong Kong, India, Indonesia, Singapore and China the lunar holidays vanish outside their tables (in China after 2023 all but 1 January). Defects must be exhibited for every year: Singapore treats the 25th of every month as a holiday; Argentina does not treat 1 January as a holiday; France replaces Ascension and Whit Monday by fixed dates. Every country calendar query on a weekday outside 1901..2199 panics unless the date is an added holiday.",
  "every year, every listed holiday, every country modelled", "all years at once", [D+"countries/*.rs", D+"calendar.rs: is_holiday"])
p("date_sequence and schedules",
  "date_sequence(a,b) lists every date from a to b inclusive in order, without gaps or repeats; generate_schedule_from_dates returns as many dates as it is given, each the rolled input date, and as many factors, factor i being between consecutive rolled dates (the first from today).",
  "all inputs for which it does not panic", "unbounded sequences", [D+"utilities.rs: date_sequence", D+"calendar.rs: generate_schedule_from_dates, *_counts, day_count_factors"])
p("Frequency inference",
  "infer_frequency returns a frequency exactly for day gaps 1, 7, 14, 15, 28-31, 45-46, 91-92, 121-122, 182-183, 365-366 and panics for every other gap; consecutive same-day monthly dates infer Monthly and same-day yearly dates infer Annually for every such pair; quarter gaps of 90 days and half-year gaps of 181 or 184 days panic.",
  "all pairs of dates", "all gaps", [D+"frequency.rs: infer_frequency", D+"constants.rs"])
p("days_between and leap-year helpers",
  "days_between is a metric on dates (symmetric, zero iff equal, triangle inequality); get_years_in_range, leap_year_count and contains_leap_year agree with the Gregorian rule; leap_year_count(a,b) > 0 iff contains_leap_year(a,b).",
  "all dates", "metric laws over all dates", [D+"utilities.rs: days_between, leap_year_count, contains_leap_year, get_years_in_range"])

AD = [A+"graph.rs: Graph", A+"vertex.rs: Vertex", A+"variable.rs: Variable", A+"overload.rs", A+"accumulate.rs: Accumulate", A+"gradient.rs: Gradient"]
p("Reverse-mode gradients are exact",
  "For every expression built on one Graph from variables with the supported correct operators (+, -, *, /, neg, recip, exp, ln, sin, cos, tan, sinh, cosh, tanh, sqrt, powi, asin, acos, atan, asinh, abs, ...; with variable or f64 operands and arbitrary sharing of subexpressions), accumulate() followed by wrt(x) returns the partial derivative of the expression with respect to x at the current point, whenever every intermediate value is in the operator's domain of differentiability.",
  "all expressions/tapes of any size and all points", "tests sample a few expressions; the chain-rule argument must hold for every DAG", AD)
p("Tape well-formedness and cost",
  "Every operation pushes exactly one vertex (the constant number stated per operator), earlier vertices are never changed, each vertex refers only to itself or earlier vertices, and accumulate() returns exactly len() adjoints.",
  "all operation sequences", "invariant over all histories", AD)
p("Adjoints of unrelated variables are zero",
  "accumulate() of a variable is 1 at itself, 0 at every vertex created later, 0 at each vertex the result does not depend on, and is unaffected by operations recorded later; zero() makes every accumulated derivative other than the seed 0.",
  "all tapes", "all DAG shapes", AD)
p("Wrong local derivatives are exhibited",
  "log2, log10, Variable.log(Variable), f64.min(Variable), f64.max(Variable), f64.powf(Variable), f64.powi(Variable) record a local derivative that is not the derivative of the value they compute; for each the exact recorded derivative is stated and shown to differ from the true one on all (or explicitly characterised) inputs.",
  "all inputs in the stated domain", "refutation for whole domains rather than a point", [A+"overload.rs"])
p("Graph::join does not re-base parents",
  "join(a, b) keeps a's vertices and appends b's, but the appended vertices' parent indices still refer to positions in b; so gradients through joined vertices are attributed to a's vertices whenever a is non-empty.",
  "all graph pairs", "structural claim over all graphs", [A+"graph.rs: join"])
p("wrt collects derivatives positionally; Sum/Product differentiate correctly",
  "wrt on a slice returns the i-th requested derivative at position i; d(sum)/dx_i = 1 for each summand and d(product)/dx_i = product of the other factors, for any non-empty list, and Sum/Product panic on an empty iterator.",
  "all lists of variables", "unbounded lists", AD)

p("Cashflow and Leg algebra",
  "npv is linear in amounts and discount; adding cashflows on different dates panics; a leg's npv is the sum of its cashflows' npv, is invariant under reordering and additive under concatenation; start/end date are the min/max and is_active(d) iff start <= d <= end.",
  "all legs and discount functions", "unbounded legs", [C+"cashflow.rs", C+"legs.rs"])
p("SimpleQuote set/reset semantics",
  "After set_value(Some(v)) with v != 0 the quote holds v and returns the change; set_value(None) never clears a valid quote (contrary to reset) and set_value(Some(0)) on an empty quote leaves it empty; is_valid iff a value is held; reset always empties it.",
  "all quote histories", "all histories of set/reset", [C+"quotes.rs: SimpleQuote"])
p("Curve node access",
  "After new/from_nodes/set_rate histories, get_rate at a node date returns the last rate set for that date, dates() is strictly increasing, first/last are min/max, get_brackets returns the tightest enclosing nodes (and panics exactly on an empty curve) and shift adds exactly the shift to every node. shift and set_rate do not affect interpolated (non-node) dates. get_rate_and_insert answers as get_rate and changes no later answer; the batch forms get_rates, set_rates and get_rates_and_insert are the same calls one by one.",
  "all curves and dates", "all node sets and histories", ["crates/RustQuant_data/src/curves.rs: Curve"])
p("Portfolio accounting",
  "profit = value - cost; updating one position's price/quantity changes only that position's contribution; position weights sum to one when the total value is nonzero; updating an unknown name panics and changes nothing.",
  "all portfolios", "unbounded maps", ["crates/RustQuant_portfolios/src/lib.rs"])
p("Money and Exchange",
  "Money arithmetic panics on different currencies and otherwise acts on amounts; converting through an exchange rate multiplies by the rate and changes the currency; after any sequence of add_rate the last rate for an ordered pair is the one used; converting with a missing rate panics; there is no automatic inverse or triangulation.",
  "all histories of add_rate, all conversions", "all histories", [I+"fx/money.rs", I+"fx/exchange.rs"])
p("ISO 4217 currency table integrity",
  "In the built-in currency table the constant's identifier equals its alphabetic code, alphabetic and numeric codes are pairwise distinct, and fractions = 10^minor for every entry (exceptions listed exactly).",
  "every entry and every pair of entries of the table", "158 entries, 12403 pairs", [I+"fx/currency.rs"])

p("Linear interpolation",
  "new() accepts exactly equal-length inputs; interpolating at a knot returns its value, between adjacent knots the affine interpolant (hence within the bracketing values), outside the range an error; add_point keeps knots sorted and preserves previous knots; input order does not matter for distinct knots; data on a straight line is reproduced exactly.",
  "all knot sets and query points", "all sizes and positions", [M+"interpolation/linear_interpolator.rs"])
p("B-spline basis",
  "Cox-de Boor basis functions are nonnegative and sum to one on [t_degree, t_n), so interpolate lies within the min/max of control points there and reproduces constant control points; local support; at the right end point of a clamped knot vector the result is 0 (defect).",
  "all degrees, sorted knot vectors and points", "induction on degree", [M+"interpolation/b_splines.rs"])
p("Bisection keeps a bracket",
  "When bisection reports a root it lies inside the enforced interval, and it is a point where f is (nearly) zero or is within the accuracy of a sign change of f; the one exception is a defect: if the middle of the bracket has a tiny positive value the search stops there but returns the other end of the bracket, however far away. When a continuous f changes sign between the guess and the point one step away, and no point met while halving that step down to the accuracy has such a tiny positive value, the search succeeds and its answer has a value below the closeness threshold or is within the accuracy of a true root. The search cannot fail when f changes sign between the guess and the point one step away and the step is below EPSILON * 2^999.",
  "all functions, brackets and accuracies", "all real functions", [M+"rootfinding/bisection.rs", M+"rootfinding/rootfinder.rs"])
p("Descriptive statistics",
  "mean lies between min and max; mean/variance/covariance obey translation and scaling laws; variance >= 0 and 0 iff all equal; covariance is symmetric, bilinear and cov(x,x)=variance; |correlation| <= 1; geometric <= arithmetic mean, harmonic <= geometric for positive data; all are permutation invariant.",
  "all non-empty samples", "inequalities over all samples", [M+"statistic.rs"])
p("Order statistics",
  "quantile(0)=min, quantile(1)=max, quantile at rank k/(n-1) is the k-th smallest entry and is linear in between; quantile is monotone in p and between min and max, median = quantile(0.5), percentile = quantile; all are permutation invariant. interquartile_range is not quantile(.75)-quantile(.25).",
  "all non-empty samples and all p in [0,1]", "all samples", [M+"statistic.rs: quantile, percentile, median, interquartile_range"])
p("Complex FFT equals the DFT",
  "For every power-of-two length input, the complex FFT equals the discrete Fourier transform sum; below 2^34 entries every other length panics, but the length test has a tolerance and accepts 2^34+1 (defect). The real FFT is neither the DFT nor its magnitude (defect): for every power-of-two length it is the Walsh-Hadamard transform with bit-reversed rows, of which only the entries 0 and N/2 agree with the DFT for all data.",
  "all inputs of all power-of-two lengths", "all sizes", [M+"fft.rs"])
p("Sequences",
  "cumsum has the input's length and its last element is the sum and its differences the input; linspace(a,b,n) for n >= 2 has n equally spaced points from a to b exactly; linspace panics exactly when b <= a or n = 0 and returns NaN for n = 1; seq(a,b,h) with h > 0 lists exactly a+k*h for all k with a+k*h <= b, panics for h = 0, is empty or panics when the interval runs against the step, and never returns when h < 0 and b - a < -h (defect); rep(x,n) is n copies of x.",
  "all inputs", "all lengths", [M+"sequences.rs"])
p("Payoff identities",
  "Call-put payoff parity, nonnegativity, monotonicity and convexity in the underlying for vanillas; asset-or-nothing minus cash-or-nothing call equals vanilla call; power and powered options of power 1 are vanillas and a capped power option is the smaller of the power payoff and the cap; log contracts pay log S - log K, floored at zero for the option; a supershare pays S over the lower bound inside its closed band and nothing outside, so adjacent bands overlap at their common bound; the expiry of an exercise style is its last exercise date.",
  "all prices, strikes, powers and caps", "real-valued inputs", [I+"options/vanilla.rs", I+"options/binary.rs", I+"options/power.rs", I+"options/log.rs", I+"options/supershare.rs"])
p("Barrier in-out parity",
  "For every path, knock-in payoff + knock-out payoff = vanilla payoff at the terminal price for up and down barriers and calls and puts; exactly one of them is alive; empty path panics.",
  "all paths, barriers, strikes", "all paths", [I+"options/barrier.rs"])
p("Black-Scholes-Merton parity and Greeks",
  "Put-call parity C-P = S e^{(b-r)T} - K e^{-rT}; delta, gamma, vega, theta, vanna, vomma, speed, zomma, colour are the stated partial derivatives of price; rho is the r-derivative only when b moves one-for-one with r (it is wrong for Black76), charm has the opposite sign convention to theta/colour, and ultima is not the volatility derivative of vomma (off by 2 (vomma/sigma) d2/d1). The prices are the discounted lognormal expectations of the payoffs, obey the no-arbitrage bounds, satisfy the Black-Scholes equation and increase strictly in the volatility, so that implied volatility is well defined exactly for prices between the bounds; the methods of the instrument agree with the functions.",
  "all S, K, T, sigma > 0, all r, b", "identities over a continuum", [I+"options/black_scholes_merton.rs", I+"options/option_models.rs"])
p("Finite-difference pricer: tridiagonal inverse, time steps and early exercise",
  "The theta/phi recurrence returns the exact inverse of the tridiagonal system matrix for every size >= 2 with nonzero determinant and off-diagonals as used; matrix-vector products agree with the definition; the explicit, implicit and Crank-Nicolson steps are the textbook linear systems; an American price is at least its intrinsic value (even grids) and, under the monotonicity condition of the method, at least the European price; prices are non-negative under that condition when the strike lies inside the grid; the routine inverts a single-node system wrongly (defect); early exercise is applied only for one special pair of exercise dates (defect); the boundary treatment can give negative prices (defect).",
  "all sizes and coefficients", "all sizes", [I+"options/finite_difference_pricer.rs"])
p("Path simulation shape and reproducibility",
  "simulate returns m_paths paths of n_steps+1 points each starting at x_0, times from t_0 to t_n equally spaced; with a seed the result is the same whether run in parallel or not; with zero diffusion and no jumps Euler-Maruyama is the explicit Euler ODE scheme, within M T e^(LT) dt of the solution of the equation (slope L-Lipschitz in the state and changing at rate at most M along the solution); with normals independent the Euler terminal value of an arithmetic Brownian motion has variance sigma^2 T, every point of a path with drift a(t)+b(t)x and diffusion sigma(t) is normal with the mean and variance of the scheme, and for an Ornstein-Uhlenbeck process these tend to those of the process; Milstein and Strang noise are not scaled by sqrt(dt) (defect: the variance is n sigma^2); seeded fractional paths are all identical and the FFT generator ignores the seed (defects); jump times are shared by all paths (defect).",
  "all processes and configurations", "all schedules of the parallel run, all processes", [S+"simulation.rs", S+"process.rs"])
p("Gradient descent result record",
  "The minimiser reported after k steps is the k-fold gradient step from the start, iterations <= max_iterations, and the loop stops at the first stationary point; the reported minimum is f at the previous iterate, not at the returned minimiser. When the gradient changes at most L times as fast as the point and L times the learning rate is below 2, the returned point is no worse than the start, and with enough iterations the gradient there is below the tolerance.",
  "all objectives, starts, rates and budgets", "all iteration histories", [M+"optimization/gradient_descent.rs"])

p("Exponential interpolation is log-linear",
  "ExponentialInterpolator returns a given value at a given index, an error outside the range, and between two neighbouring points with positive values a positive value between them whose logarithm is on the straight line through their logarithms; data A*exp(k*x) are reproduced exactly.",
  "all point sets reachable by new/add_point and all query points", "all sizes and real inputs", [M+"interpolation/exponential_interpolator.rs"])

p("Brent root finding",
  "A successful Brent search returns a point whose value is below the closeness threshold or a point within accuracy + 4 EPSILON |r| of a sign change (so, for continuous functions, of a true root), inside the enforced bounds. The search succeeds, with an answer between the guess and the first step, whenever the function changes sign between the two and they are at most 2^28 effective accuracies apart.",
  "all functions, configurations and guesses", "all real functions; the interpolation step depends on the whole iteration history", [M+"rootfinding/brent.rs", M+"rootfinding/rootfinder.rs"])
p("Newton-Raphson root finding",
  "A successful Newton search returns a point with value below the threshold, or the middle of a sign change within the accuracy, or the end of a Newton step shorter than the accuracy; every iterate stays in the bracket and the enforced bounds. An exact root with zero derivative is lost: 0/0 makes the search fail. The search succeeds whenever the function changes sign between the guess and the first step, the two are at most 2^42 effective accuracies apart and no root between them has derivative zero. If the derivative is right, bounded away from zero by m and K-Lipschitz, a true root lies within the effective accuracy a, K a^2 / m or threshold / m of the answer.",
  "all functions, derivatives, configurations and guesses", "all real functions and iteration histories", [M+"rootfinding/newton_raphson.rs", M+"rootfinding/rootfinder.rs"])
p("Root finders: bracketing and failure",
  "All three solvers panic exactly for non-positive accuracy; when the function has no root they return 0.0, which the caller cannot tell from a root at zero.",
  "all functions, configurations and guesses", "all real functions and iteration histories", [M+"rootfinding/bisection.rs", M+"rootfinding/brent.rs", M+"rootfinding/newton_raphson.rs"])

p("Tanh-sinh quadrature",
  "integrate(f,a,b) only looks at f on the closed interval (non-finite values count as zero), is linear and monotone in f, is bounded by max|f| times the length, and reproduces the integral of polynomials up to degree 11 (40) to 5e-16 (2e-10) relative to the size of the coefficients, hence of any integrand to its distance from such a polynomial.",
  "all integrands and intervals", "all functions and real intervals", [M+"integration.rs"])

p("Path-dependent payoffs: lookback and Asian",
  "A lookback payoff is non-negative, needs a non-empty path, and depends on the path only through its extremes and last point, dominating the vanilla payoff; an Asian payoff averages the path (arithmetic or geometric mean, geometric never above arithmetic), is zero-floored and satisfies call - put = average - strike (or price - average).",
  "all paths and strikes", "all path lengths and values", [I+"options/lookback.rs", I+"options/asian.rs"])

p("Gaussian distribution",
  "Gaussian::new accepts exactly the positive variances; pdf, cdf, cf and mgf are the density, distribution function, characteristic function and moment generating function of the normal law; inv_cdf inverts cdf; mean, variance, median, mode, skewness, kurtosis and entropy are those of the law.",
  "all means, variances and arguments", "real arguments; integrals", [M+"distributions/gaussian.rs"])

p("Nelson-Siegel-Svensson curve",
  "For a future date the spot rate is the average of the forward curve, the discount factor the exponential of minus its accumulation in percent, so forward discounting between two dates is consistent and non-negative forwards give non-increasing discount factors at most one; short and long ends are beta0+beta1 and beta0; parallel shifts act as expected. Today and past dates panic, a zero lambda makes the forward rate NaN; the fitting cost is zero exactly for a perfect fit, and the fitted parameter box cannot reach discount curves above 2.6 percent a year.",
  "all parameters, dates and node sets", "real parameters and dates; limits and integrals", [S+"nelson_siegel_svensson.rs", "crates/RustQuant_data/src/curves.rs: fit"])
p("Bachelier model",
  "Prices satisfy put-call parity and equal the discounted expectation of the payoff under a normal law; the Greeks are the derivatives of the undiscounted price (so with a non-zero rate they are not those of the reported price) and satisfy the heat equation and the usual bounds; a price is attained by exactly one volatility iff it exceeds the discounted intrinsic value; atm_vol inverts atm_price. The implied volatility is NaN at the money and below intrinsic, and the put branch disagrees with the call branch.",
  "all forwards, strikes, rates, volatilities and times", "real arguments; derivatives, expectations, limits", [I+"options/option_models.rs: Bachelier"])

p("SABR implied volatility",
  "With zero correlation and volatility of volatility equal to alpha the volatility is Hagan's formula and extends continuously to the money; otherwise it is not: at expiry it ignores the volatility of volatility, is zero (or NaN) at the money, infinite at one strike and negative between the two. The calibration cost is zero exactly for a perfect fit.",
  "all admissible parameters, strikes and times", "real arguments; limits and signs on intervals", [I+"options/option_models.rs: Sabr02"])
p("Heston model",
  "Prices satisfy put-call parity, are homogeneous in spot and strike, and, as long as the complex logarithm stays off its branch cut (always for short expiries), the computed price solves Heston's partial differential equation, delta, gamma and rho being its derivatives. With positive mean reversion no integrand is NaN; but for long expiries the logarithm crosses its cut and the integrand jumps.",
  "all regular parameters, strikes and times", "real arguments; derivatives and continuity", [I+"options/option_models.rs: Heston93"])

p("Exponential distribution",
  "Exponential::new accepts exactly the positive rates; pdf and cdf answer exactly for non-negative arguments with the density and the distribution function of the law; inv_cdf is the quantile function; cf, mgf (on its domain), mean, variance, skewness, kurtosis, median, mode and entropy are those of the law.",
  "all rates and arguments", "real arguments; integrals against a law", [M+"distributions/exponential.rs"])
p("Gamma distribution",
  "Gamma::new accepts exactly the positive parameters; pdf and cdf answer exactly for positive arguments with the density and the distribution function of the law; cf, mgf (on its domain), mean, variance, skewness, kurtosis and mode are those of the law. inv_cdf, median and entropy always panic, and sample cuts each draw down to an integer, so its expectation is below mean().",
  "all parameters and arguments", "real arguments; integrals against a law", [M+"distributions/gamma.rs"])
p("Chi-squared distribution",
  "pdf and cdf are the density and distribution function of the law of a sum of k squared independent standard normals; cf, mgf, mean, variance, skewness, kurtosis, mode and entropy are those of that law. inv_cdf approximates the quantile to 2e-10 only up to 1.5 k, never exceeds 1.5 k, and panics at level zero; median is not a median for k = 2; sample truncates each draw.",
  "all degrees of freedom, levels and arguments", "real arguments; integrals against a law; an iteration without a bound", [M+"distributions/chi_squared.rs"])

p("Uniform distribution",
  "Uniform::new accepts exactly ordered ends (rounding them to integers in the discrete class); continuous: pdf, cdf, inv_cdf, cf and mgf (away from 0, where they are NaN), moments, median, mode and entropy are those of normalised length, and on a single point nothing is a number; discrete: pmf at the integers, cdf everywhere, cf, mgf, mean, skewness, kurtosis, median and entropy are those of equal masses, but pmf is positive between integers, variance is too large by 1/12, inv_cdf and mode panic and sample never yields the upper end.",
  "all ends, classes and arguments", "real arguments; integrals against a law", [M+"distributions/uniform.rs"])
p("Poisson distribution",
  "Poisson::new accepts exactly positive rates; pmf is the law's mass at 0..20 and panics beyond; cf, mgf, mean, variance, skewness, kurtosis and mode are those of the law; inv_cdf is the quantile as far as the masses at 0..20 reach. cdf is wrong: at every integer it is 2 - 1/F with F the true distribution function, so too small and often negative; median is negative for small rates; pmf is positive off the integers.",
  "all rates, arguments and levels", "real arguments; infinite sums", [M+"distributions/poisson.rs"])
p("Bernoulli distribution",
  "Bernoulli::new accepts exactly probabilities; pmf answers exactly at 0 and 1 with the mass; cf, mgf, mean, variance, skewness, kurtosis, entropy, median and mode are those of the law (the three NaN when an outcome is certain); inv_cdf is the quantile except at level 1-p, and cdf the distribution function except between -1 and 0.",
  "all probabilities, arguments and levels", "real arguments", [M+"distributions/bernoulli.rs"])
p("Binomial distribution",
  "Against the law of a sum of n independent trials: pmf is its mass for up to twelve trials (and panics for more), cdf its distribution function at integers below n (and panics from n on), inv_cdf its quantile below the probability of n successes (and panics above); cf, mgf, mean, variance, skewness and kurtosis are those of the law; mode has the largest mass unless success is certain. median and entropy are not exact, and sample uses the sample size as the number of trials.",
  "all numbers of trials, probabilities, arguments and levels", "unbounded sizes; real arguments", [M+"distributions/binomial.rs"])

L = "crates/RustQuant_ml/src/"
p("Linear regression",
  "A fit fails exactly when the samples do not determine the coefficients (collinear columns or too few samples); otherwise the affine function it returns has the least residual sum of squares of all, uniquely; residuals sum to zero and are orthogonal to every feature; exact affine data are recovered; predict evaluates that function. The QR fit agrees with it, and panics with fewer samples than coefficients; the SVD fit agrees on determined data, is not finite on collinear data, and with fewer (independent) samples than coefficients interpolates them with the least sum of squared coefficients.",
  "all sample matrices, responses and inputs of every size", "matrices of every size over the reals", [L+"linear_regression.rs"])
p("Ridge regression",
  "For a positive penalty the fit always succeeds (given a sample) and its coefficients strictly minimise the penalised sum of squares, with the intercept left out of the penalty; penalty zero is least squares; a larger penalty never gives a larger coefficient norm or a smaller residual sum. A negative penalty is accepted, and for one below minus the sum of squares of a single feature the fit is the maximiser.",
  "all sample matrices, responses and penalties of every size", "matrices of every size over the reals", [L+"ridge_regression.rs"])
p("Lasso regression",
  "Coordinate descent never increases the penalised objective: more rounds are never worse, and any fit is at least as good as the constant one; with a positive tolerance it stops after finitely many rounds, at an objective within a stated multiple of the tolerance of any other; a round that changes nothing stops at a global minimiser; a penalty of at least the largest feature-response moment gives all coefficients zero. The intercept is the best one for its coefficients, or zero if none is fitted.",
  "all sample matrices, responses, penalties, tolerances and numbers of rounds", "matrices of every size; iterations without bound", [L+"lasso.rs"])
p("Logistic regression",
  "A fit that stops after at least one step either has every residual below the tolerance or a log-likelihood within a stated multiple of the tolerance of any other's; predictions are the logistic probability and its threshold at one half; misclassification is the fraction of wrong classes. Labels are never rejected, the MLE method panics; when every feature has equal masked means the result is NaN; with one class the coefficients are zero and class 0 is predicted; the separability test is one-sided, so separable data can be misclassified; the cross-entropy score is the average log-likelihood, negative instead of positive.",
  "all samples, labels and tolerances, however long the iteration runs", "matrices of every size; iterations without bound", [L+"logistic_regression.rs"])
p("Nearest neighbours",
  "The neighbours found are the k nearest samples in order of distance, equal distances in order of position; the prediction is the label of a neighbour whose class, the label truncated to an integer, is most frequent among them, ties going to the class of the farthest neighbour (with two neighbours of different classes the nearer one loses); it panics exactly for k = 0 or no samples. Manhattan, Euclidean and Minkowski distances agree at orders one and two and separate points.",
  "all samples, labels, queries, metrics and k", "samples of every size and dimension; real coordinates", [L+"k_nearest_neighbors.rs"])
p("Activation functions",
  "Each activation is the named mathematical function on f64, on vectors elementwise, and on autodiff variables with the derivative of that function as gradient (relu at zero excepted); sigmoid is increasing, symmetric and between 0 and 1. The f64 gaussian is not exp(-x^2).",
  "all real arguments and vectors", "real arguments; derivatives", [L+"activations.rs"])

p("Longstaff-Schwartz pricer",
  "new accepts exactly positive price, strike, rate, volatility, step and simulation counts with expiry ahead. Given independent normals the simulated log-returns have at every step, and over every pair of steps, the normal law of a Brownian motion with drift r - sigma^2/2. The price is the mean of the backward sweep: a path in the money is exercised exactly when its payoff exceeds the value there of the unique least-squares polynomial of degree at most four in the asset price through the discounted later values, and no path is exercised when fewer than five distinct prices are in the money. Every path pays once, at step 1 or later; the price is non-negative, a put is below its strike, the price scales with spot and strike, and depends only on the seed if one is given. Defects: payoffs are discounted to the first step only, so the price is too large by one step of discounting (with one step its expectation is the European price times e^{rT}); exercise today is not considered, so a put can be priced below its intrinsic value; neighbouring seeds share their normals.",
  "all pricers, seeds, draws, numbers of steps and simulations", "any number of paths and steps; laws of random variables; least squares over the reals", [I+"options/longstaff_schwartz.rs"])

p("Monte-Carlo pricer",
  "price_monte_carlo of each of the twelve instruments is the discount factor over the simulated time times the mean of what the instrument pays on the simulated paths (at the last point, or along the path for Asian and barrier options); it is a number exactly when there is a path and every payoff is a number. In every run put-call parity against the mean of the last points and knock-in plus knock-out equals European hold exactly, option prices are non-negative, calls are decreasing, convex and slowly varying in the strike, and a seed fixes the price under any parallel schedule. For an arithmetic Brownian motion simulated by Euler-Maruyama the price is unbiased for the Bachelier price, with variance that of one payoff over the number of paths, so that a deviation above eps has a probability of at most e^{-2rT} ((F-k)^2 + sigma^2 T) / (m eps^2). For a geometric Brownian motion simulated by Euler-Maruyama the expected price tends to the Black-Scholes price: in n steps it is off by at most e^{-rT} x0 T sqrt(2 e^{(2 mu + sigma^2) T} (mu^2 + (mu + sigma^2)^2) / n), and a deviation above this plus eps has a probability of at most e^{-2rT} E(X-k)^2 / (m eps^2). Defects: under the other two schemes the expectation is the Bachelier price at volatility sigma*sqrt(n/T); a geometric Brownian motion is priced with parity biased below x0 - k e^{-rT} at every number of steps; a power option on a negative underlying with a fractional power is worth zero.",
  "all instruments, processes, configurations, generators, schedules and rates", "any number of paths and steps; laws of random variables", [I+"monte_carlo_pricer.rs"])

p("Analytic option pricer",
  "With each of the five generalised Black-Scholes models the price of a vanilla option n days before expiry is the discounted expectation of its payoff under the dynamics that model stands for, n days being n/365.25 years; put-call parity holds; delta, gamma, vega, vanna, zomma, speed, vomma, lambda, theta, charm and color are the derivatives their names promise; on the expiry day (and for zero volatility) the price is the discounted payoff of the forward, except that it is NaN when forward and strike are equal; a call on an underlying growing at least at a non-negative rate loses value every day before expiry. Rho is the derivative in the interest rate for the models of stocks and currencies. The Bachelier greeks are the derivatives of the undiscounted price, and its implied volatility is NaN exactly below the undiscounted intrinsic value; the Heston gamma is the derivative of delta, and parity holds. Defects: rho of a futures option has the wrong sign, ultima is not the derivative of vomma. Setters leave a pricer equal to a new one with the last option and model. Defect: time to expiry is an absolute value, so n days after expiry every method returns what it returned n days before, an option that expired worthless has a positive price, and its price rises every day.",
  "all options, models, dates, numbers of days and sequences of setter calls", "derivatives and expectations over the reals; every date", [I+"analytic_option_pricer.rs", I+"options/vanilla.rs", I+"options/option_models.rs"])

p("Implied volatility",
  "implied_volatility of a price below the discounted intrinsic value is minus infinity, at or above the upper arbitrage bound plus infinity, exactly at the intrinsic value zero, and otherwise positive unless an iteration divides by zero. It does not depend on the unit of money, is the same for a call and a put related by parity, is unchanged when asset and discounted strike are exchanged, and scales with the square root of time. The price it inverts is the Black-Scholes price, computed from below within a relative 2e-14 by the two expansions and exactly elsewhere; its vega and the ratios of higher derivatives are the true ones; the rational interpolation meets its value, slope and second-derivative conditions and is monotone; the transformations of the ends are inverted exactly. A guess that reproduces the price is returned; the volatility of greatest vega is recovered exactly. The iterations of the two outer segments converge with order four. Defect: that of the middle segments only with order two, away from the money.",
  "all prices, spots, strikes, times, rates and option types", "real inputs; derivatives, limits and error bounds of infinite series", [I+"options/implied_volatility.rs"])

p("Country and market identifier codes",
  "from_alpha_2 returns a country for exactly the two-letter codes of the library's country constants, and then the constant with that code; every other string gives None. Each of the three codes of a country has its ISO shape and identifies it. A market identifier has four characters and names one entry; an entry is flagged operating exactly when its operating code is its own; the operating code of every entry is in the library, and for an entry that has not expired it is an operating market that has not expired; its country is one from_alpha_2 knows, except for code ZZ.",
  "all strings; all country and market constants", "from_alpha_2 accepts every string; the tables' entries refer to one another", ["crates/RustQuant_iso/src/iso_3166.rs", "crates/RustQuant_iso/src/iso_10383.rs"])

p("Drawing of a computation graph",
  "graphviz draws one node per vertex of the tape, marked as an input exactly when one of the given variables is there and then with its value, and one arrow per parent link between different vertices. In the drawing of any computation every arrow goes from an earlier to a later node, inputs have no incoming arrows, and the derivative returned by accumulate and wrt is the sum over all paths from the variable to the result of the products of the labels.",
  "all programs, inputs, variables and results", "graphs of every size; sums over all paths", [A+"graphviz.rs"])

p("Risk-reward measures",
  "The Treynor, Sharpe and Sortino ratios do not change when the portfolio is mixed with borrowing or lending at the riskless rate; Jensen's alpha scales with the fraction invested, is zero exactly on the security market line, and is linear over combinations of portfolios; the Treynor ratio is the market's excess return plus alpha per unit of beta. The Burke ratio ignores order, sign and zeros of the drawdowns but, dividing by the sum of squares and not its root, depends on leverage.",
  "all portfolios, leverages, drawdowns and combinations of any number of portfolios", "real parameters; lists of every length", [M+"risk_reward.rs"])

p("Finite-difference error bounds",
  "Each of the explicit, implicit and Crank-Nicolson methods advances the values by a one-step average, with weights 0, 1 and one half, of the central-difference Black-Scholes operator in the logarithm of the price on a grid five standard deviations to each side of the spot price. If price_steps is large enough against the drift, and (for the explicit and half as strongly for the Crank-Nicolson method) price_steps squared is at most 100 time_steps whatever the market data, the price of a European option differs from the discounted value of any solution of the Black-Scholes equation by at most the error in the payoff, plus a multiple of the time step (of its square for Crank-Nicolson), plus a multiple of the square of the price step, plus the errors made at the two ends; the last are damped by the distance of the ends from the spot price. In particular the price of a European call or put by each method differs from the Black-Scholes-Merton price by at most an explicit bound, and as the grid is refined (within the stability limit) the difference comes within any positive amount of the effect of the two ends, 2 (K e^(-rT) + S e^(5 sigma sqrt(T))) exp(-(5 - |r - sigma^2/2| sqrt(T) / sigma)^2 / 2).",
  "all option parameters, numbers of steps, solutions of the differential equation and bounds of their derivatives", "numbers of steps and real parameters are unbounded; the statement compares with solutions of a differential equation", [I+"options/finite_difference_pricer.rs"])

p("Random samples",
  "For every distribution object, sample(n) fails exactly for n = 0 (for a uniform one also when both ends coincide) and otherwise returns as many numbers as the vector's capacity, at least n. With an ideal random source, in samples of growing size from Gaussian, exponential, Bernoulli, Poisson and continuous uniform objects the average, the mean squared deviation and the proportion of numbers up to x approach, with probability one, mean(), variance() and the distribution function. Defects: gamma and chi-squared samples average strictly below mean() and their frequencies approach cdf at the next integer; discrete uniform samples are too small by one half; the expected average of n binomial draws is n times p, whatever the number of trials.",
  "all parameters, sample sizes, arguments and allocator capacities; almost all outcomes of an ideal random source", "limits of random samples of unbounded size", [M+"distributions/gaussian.rs: sample", M+"distributions/exponential.rs: sample", M+"distributions/bernoulli.rs: sample", M+"distributions/poisson.rs: sample", M+"distributions/gamma.rs: sample", M+"distributions/chi_squared.rs: sample", M+"distributions/uniform.rs: sample", M+"distributions/binomial.rs: sample"])

p("Predicates, equality and order of autodiff variables",
  "Every variable is exactly one of NaN, infinite, zero, normal and subnormal, and finite exactly in the last three cases; is_positive and is_negative follow the sign bit, also at zeros and NaN, as does signum. == holds exactly for the same vertex of the same graph with equal non-NaN values. Away from NaN, cmp, < and <= order variables by value, totally and transitively. round replaces a finite value by exactly the nearest integer, halves away from zero, and keeps graph and vertex. Defects: a NaN variable is not == to itself although the type is Eq; it compares Equal to everything, so cmp is not transitive and <= holds both ways; cmp returns Equal for variables that are not ==; rounding is not recorded on the tape, so later derivatives ignore it.",
  "all 64-bit values, graphs and positions", "2^64 values and all triples of variables", [A+"variable.rs: is_*, round, signum, PartialEq, Ord, PartialOrd"])

p("Israeli market and the Hebrew calendar",
  "If the calendar library converts dates to the Hebrew calendar correctly, then in 1901..2199 the Israeli market closes exactly on Fridays, Saturdays, the listed Jewish holidays and eves, the fast of Av (also its postponement to 10 Av), Independence Day (moved off Fridays, Saturdays and Mondays as the law prescribes) and the day before it, and in Hebrew leap years also, by mistake, on 14 Adar I and the 15th, 20th and 21st of the second Adar.",
  "all dates 1901..2199", "the Hebrew date, the leap years and the weekday of a holiday change from year to year", [D+"countries/israel.rs", D+"calendar.rs: is_weekend, is_business_day"])

p("Sums, means and present values in double precision",
  "In actual f64 arithmetic (each operation rounded to the nearest double, ties to even, with underflow and overflow): the sum of n numbers, n up to 2^52, is within (n - 1) 2^-52 of the exact sum relative to the sum of the sizes, finite when those sum to less than 2^1023, and exact for whole multiples of a power of two (such as whole amounts) up to 2^53 units; a mean is within 2^-52 of the exact mean relative to the sum of the sizes (plus an underflow term); a variance is never negative, and within (n + 4) 2^-52 (plus an underflow term) of the sum of squared deviations from the exact mean plus n times the square of the mean's error, divided by n - 1 or n; every entry of cumsum is the rounded sum so far; the present value of n cash flows is within n 2^-52 of the exact one relative to the sizes when no product underflows. Mean and variances panic exactly for no data. Defects: sums depend on the order of the data, the mean of equal numbers can exceed them and their variance be positive.",
  "all lists of doubles up to length 2^52", "all sequences of roundings over lists of unbounded length", [M+"statistic.rs: mean, variance, population_variance", M+"sequences.rs: cumsum", C+"cashflow.rs: npv", C+"legs.rs: npv"])

p("Medians and quantiles in double precision",
  "In actual f64 arithmetic: quantile and percentile panic exactly for no data or a level outside [0, 1], so that the rounded index never runs out of bounds; the result lies between the two neighbouring order statistics, hence between the least and the greatest of the data, exactly; it is the least and the greatest of the data at levels 0 and 1; it does not decrease with the level; it is finite for data up to 2^1022 in size; it is the exact interpolation at an index within the relative error 2^-53 of q (n - 1), up to 2^-50 of the larger neighbour (plus an underflow term). The median lies between the two middle order statistics and is their mean within the relative error 2^-53 (plus an underflow term), or the middle one; it panics exactly for no data. Defect: the median of two large finite numbers is infinite.",
  "all nonempty lists of doubles up to length 2^53 and all levels", "rounded indices and weights over lists of every length", [M+"statistic.rs: median, percentile, quantile"])

p("Sequences in double precision",
  "In actual f64 arithmetic: with a positive step of at least 2^-52 of both ends in size the loop of seq ends; whenever seq with a positive step returns, its entries begin with the start, strictly increase, do not exceed the end, one more rounded step would exceed it, and entry k is within the relative error k 2^-52 of start + k step. linspace panics exactly for no point or an end not above the start, gives NaN for one point, and otherwise (ends up to 2^1020) returns n finite entries beginning with the start, not decreasing, each within 2^-49 of the larger end (plus an underflow term) of the exact grid. Defects: seq never returns a sequence when the step is positive but at most 2^-54 of the start (seq(2^53, 2^53 + 2, 1) runs forever) or negative with the start not above the end; seq(0, 0.3, 0.1) misses its end; the last entry of linspace can fall short of the end or exceed it.",
  "all doubles as ends and steps, all numbers of points up to 2^53", "loops of unbounded length over rounded values; termination depends on rounding", [M+"sequences.rs: seq, linspace"])

p("Payoffs, interpolation and day counts in double precision",
  "In actual f64 arithmetic: a vanilla call (put) payoff is positive exactly when the underlying is above (below) the strike, within the relative error 2^-53 of the exact payoff, exact when underlying and strike are within a factor of two, monotone in the underlying, and finite for non-negative arguments; call minus put equals underlying minus strike, exactly as rounded. Linear interpolation between two nodes gives the left value at the left node, stays between the two values away from the right node (2^-50 of the distance), does not decrease between nondecreasing values, and is within 2^-49 of the larger value (plus an underflow term) of the exact one everywhere. Day counts with a fixed year length are finite, odd in the days, within the relative error 2^-53, positive exactly for positive days, and strictly increasing in the days, up to 2^50 of them. Defects: next to the right node the interpolated value can leave the range of the two values; year fractions do not add up exactly.",
  "all doubles; all whole numbers of days up to 2^50", "all combinations of rounded operations", [I+"options/vanilla.rs: payoff", M+"interpolation/linear_interpolator.rs: interpolate", D+"day_counting.rs"])

p("Bisection in double precision",
  "In actual f64 arithmetic, for any objective that maps finite doubles to finite doubles: if the objective changes sign between the guess and the first step and both are at most B <= 2^900 in size, the search succeeds. A successful search, there or inside an enforced interval within [-B, B], returns a point of the bracket or interval up to 2^-42 B, whose value is below the closeness threshold (42 * 2^-52)^2, or is not positive with a positive value within the accuracy (at least 2^-52) plus 2^-42 B, or is not positive and the search stopped on a point with a positive value below the threshold. If the objective is a continuous function computed with error at most e, and the last case is excluded, that function is at most e somewhere within this distance, or at most e plus the threshold at the point itself. Defect: the search can leave an enforced interval by rounding and return a point above its upper bound.",
  "all objectives on doubles, configurations and guesses", "all objectives and all sequences of rounded midpoints", [M+"rootfinding/bisection.rs: solve, solve_impl", M+"rootfinding/rootfinder.rs: close, enforce_bounds"])

p("Portfolio values and weights in double precision",
  "In actual f64 arithmetic, for prices that are zero or at least 2^-1022 in size: the value of n positions is within (n + 1) 2^-52 of the exact value relative to the sum of the sizes of the positions, so is the cost, and the profit is within (n + 2) 2^-52 of value less cost relative to both; two iterations of the same positions in different orders give values that differ by at most (n + 1) 2^-51 relative to the sizes. All are exact, and the profit exactly value less cost, for prices that are multiples of a power of two (at most 2^900) and quantities up to 2^53, when the sizes of all values and costs together make up to 2^53 units. With no negative price every position weight (computed in f32) that is a number lies between 0 and 1; for up to 2^28 positions worth between 2^-60 and 2^127 in total, every weight is a number, within 2^-22 of its share (relative, plus 2^-87), and the weights add up to one within 2^-21. Defects: value and profit depend on the iteration order of the hash map, profit can differ from value less cost, and weights are not numbers for positions worth 2^128 or more, or portfolios worth at most 2^-150.",
  "all portfolios of doubles of up to 2^52 positions, in every iteration order", "all sequences of roundings in two precisions and all iteration orders of a hash map", ["crates/RustQuant_portfolios/src/lib.rs: value, cost, profit, position_weights"])

p("Quadrature in double precision",
  "In actual f64 arithmetic, for a <= b at most B <= 2^100 in size and an integrand computed within e of a function at most M in size with Lipschitz constant L: integrate returns a finite number that differs from the same quadrature in exact arithmetic by at most (b - a) (1.01 (e + L d) + 2^-45 (M + e)) plus an underflow term, where d = 2^-49 B + 2^-1072 bounds the rounding of the nodes; hence its distance from the integral itself for integrands close to a polynomial of degree up to 40. With all roundings it is still monotone in the integrand, not negative for one that is not negative, and zero for one that is nowhere finite or an empty interval. Defect: the integrand is evaluated slightly outside the interval: integrands that agree on [0.2, 1] have different computed integrals over it.",
  "all integrands from doubles to doubles, all finite intervals", "all functions and intervals, and a sum of a hundred rounded products", [M+"integration.rs: integrate, tanhsinh"])

p("Money in double precision",
  "With every operation rounded to a double, adding and subtracting money panics exactly for different currencies and is otherwise within the relative error 2^-53; a difference is positive exactly when the first amount is larger. Converting panics exactly when the money is not in the rate's source currency, gives the target currency, is within 2^-53 of amount times rate away from underflow, and at a positive rate never makes a larger amount convert to less. A chain of n conversions is within n 2^-52 of the amount times all rates, and converting there and back at the rounded reciprocal rate within 2^-51. Converting a sum and summing the conversions differ by at most 2^-50 of the sizes plus 2^-1072. None of these is exact: there and back, parts and whole, and the order of three summands can all change the amount.",
  "all finite doubles, currencies, rates and chains of conversions of every length below 2^50", "rounding must be bounded for all of the 2^64 amounts and rates and for chains of every length", [I+"fx/money.rs: add, sub", I+"fx/exchange.rs: convert"])

p("Gradients in double precision",
  "In actual f64 arithmetic, on every tape (each operand recorded before its operation, with whatever partial derivatives): if no product of a recorded partial with a returned derivative underflows, accumulate returns derivatives that differ from the chain rule applied exactly to the recorded partials by at most ((1 + 2^-53)^(3 (out - i)) - 1) times the chain rule applied to their magnitudes, where out - i counts the operations recorded between; so the error is relative when no partial is negative, and the derivative is 1 for the variable itself and 0 for later ones. Programs of +, -, * and negation, of variables and constants, record such tapes. With whole-number inputs, constants and values up to 2^53, and magnitudes of the chain rule up to 2^53, such a program computes its values and its whole gradient exactly: the true derivatives. Defects: beyond these bounds the gradient of 2^54 x + x - 2^54 x is 0 instead of 1, and the order in which operations are recorded changes the gradient of the same function.",
  "all tapes of every length, all doubles; all straight-line programs of the arithmetic operators", "the rounding errors of a sweep over tapes of every length and shape", [A+"accumulate.rs: accumulate", A+"overload.rs: Add, Sub, Mul, Neg", A+"graph.rs: push", A+"gradient.rs: wrt"])

p("Fourier transform in double precision",
  "In actual f64 arithmetic, with cosines and sines from the platform that are off by at most d: the complex transform of 2^m numbers, m up to 53, whose sizes sum up to S <= 2^1000, is finite, has the same length, and each entry is within ((1 + 2 d + 2^-48)^m - 1) S + 3^m 2^-1073 of the discrete Fourier transform; with d = 2^-51 this is within m 2^-46 S + 2^-980. If cos 0 = 1 and sin 0 = 0, then for whole-number data with parts summing up to at most 2^53 entry 0 is exactly the sum and entry N/2 exactly the alternating sum, whenever the transform is finite. Defect: the transform of 0, 1, 0, 0 is not exactly 1, -i, -1, i, because the cosine of the rounded pi/2 is not zero.",
  "all data of length 2^m up to 2^53, all platform cosines and sines of the given accuracy", "all inputs, lengths and sequences of roundings of a recursive algorithm", [M+"fft.rs: fft_complex, fft_complex_inplace"])

p("Finite-difference prices in double precision",
  "In actual f64 arithmetic, with infinities and NaN: for ordinary options (volatility 0.1 % to 1600 %, 9 hours to 1000 years to expiry, drift resolved by the grid), European or American, on grids with N price steps and M time steps, N^2 <= 99 M, whose payoffs, boundary and exercise values are finite and at most B in size, explicit returns a finite number within (M + 1) 2^-49 B (times the discount factor) of the explicit scheme carried out exactly. Defect: implicit and crank_nicolson answer NaN for every ordinary European option once the grid is fine: as soon as (1 + N^2 / (201 M))^(N - 4), respectively (1 + N^2 / (402 M))^(N - 4), reaches 2^1024, in particular for all N >= 800 and M <= N. The determinants behind the inverse of the matrix overflow, whatever the platform's exp, and for every strike. An American option on such a grid with an even number of price steps is priced at its payoff at the middle of the grid, as if exercised at once, because f64::max drops the NaN.",
  "all ordinary options, all grids up to 2^20 price steps, all platform exponentials and logarithms, square roots right to 20 bits", "the failure depends on the grid; tests only use small grids", [I+"options/finite_difference_pricer.rs: explicit, implicit, crank_nicolson, invert_tridiagonal_matrix"])

p("Simulated paths in double precision",
  "In actual f64 arithmetic: whatever is simulated, the first time is the start exactly, the times do not decrease, and time k is within 2^-49 of the larger end (plus an underflow term) of t_0 + k (t_n - t_0) / n. For up to 2^40 Euler-Maruyama steps without jumps over a period of at least 2^-900 with ends up to 2^18, noise up to 2^20 in size and a platform square root right to 2^-52: if drift and diffusion have Lipschitz constants B and S and sizes at most B |x| + C and S |x| + T and are computed with relative error e <= 1/2000, the sizes of all terms of the recursion add up to at most 2^899, and (1 + e + 18 * 2^-53)^n <= 2 for the number n of steps, the path is finite, and its k-th value is within ((1 + e + 18 * 2^-53)^k - 1) times the sum of the sizes of all terms of the recursion in exact arithmetic, with the exact step, its exact square root and the same noise. So it is within k 2^-47 of these sizes for Brownian motion, arithmetic and geometric Brownian motion, Ho-Lee, Ornstein-Uhlenbeck, Hull-White and extended Vasicek under the same bound on the sizes, with coefficients bounded (by 2^19 where they multiply the state, by 2^800 otherwise), whatever functions of time these are. Defect: the last time can fall short of t_n.",
  "all drifts and diffusions, configurations, noise sequences and numbers of steps up to 2^40", "all sequences of roundings over paths of unbounded length", [S+"simulation.rs: simulate_stochatic_process", S+"process.rs: StochasticProcessConfig, Trajectories", S+"brownian_motion.rs", S+"arithmetic_brownian_motion.rs", S+"geometric_brownian_motion.rs", S+"ho_lee.rs", S+"ornstein_uhlenbeck.rs", S+"hull_white.rs", S+"extended_vasicek.rs"])

p("Black-Scholes-Merton prices in double precision",
  "In actual f64 arithmetic, with exp, ln, sqrt and erfc of the platform right up to d (2^-52 <= d <= 2^-20): for prices within 2^+-200, volatility and time within 2^+-100, (|b| + |r|) T up to 300 and d Q up to 2^-10, where Q = (1 + |ln(S/K)| + (|b| + v^2/2) T) / (v sqrt T), the price of a call or put is finite and within d (8 + 4 (|b| + |r|) T + 13 Q) (S e^((b-r)T) + K e^(-rT)) of the Black-Scholes-Merton formula, the computed call less the computed put is within twice that of S e^((b-r)T) - K e^(-rT), and delta is within d (7 + 4 (|b| + |r|) T + 13 Q) e^((b-r)T). On the expiration date the price of an option away from the money, by a factor between 1 + 2^-52 (1 - 2^-53 below) and 2^1000, is the rounded payoff. Defect: exactly at the money on the expiration date price and delta are NaN.",
  "all contracts in the stated ranges, all platform functions of the given accuracy", "all parameters and all sequences of roundings, for platform functions known only by their accuracy", [I+"options/black_scholes_merton.rs: price, d1_d2, delta", M+"distributions/gaussian.rs: cdf"])

p("Covariances, standard deviations and correlations in double precision",
  "In actual f64 arithmetic: covariance panics exactly for lists of different lengths or fewer than two entries, standard_deviation exactly for fewer than two entries. Covariance and correlation give the same double with their two lists exchanged, for all data, and the covariance of a list with itself is its variance. With a correctly rounded square root, for lists of equal length n, 2 <= n <= 2^40, whose entries are zero or between 2^-300 and 2^400 in size: correlation never gives an infinity or NaN, panics exactly when all entries of one list equal the computed mean of that list, and otherwise is at most 1 + (n + 4) 2^-50 in size, however much the data cancel; if K, the size of the data compared with their spread (sqrt n times the sum of the sizes, over the root of the sum of squared deviations), is at most 2^48 for both lists, the correlation is within 2^-49 (K(x) + K(y) + n + 4) of the correlation coefficient and the standard deviation has relative error at most 2^-49 (K + n + 4). Defects: the correlation of 0, 0, 3 with itself is greater than 1; the correlation of two constant lists whose computed means are off is a number next to 1 or -1, e.g. -1 for three times 0.1 and three times 0.7, although the standard deviations are zero and it should panic.",
  "all lists of doubles of the stated lengths and sizes, all correctly rounded square roots", "all data, all lengths and all sequences of roundings", [M+"statistic.rs: covariance, correlation, standard_deviation, sample_standard_deviation, variance, mean"])

p("Geometric and harmonic means and Asian options in double precision",
  "In actual f64 arithmetic with infinities and NaN, with a platform power right up to the relative error d <= 2^-10: geometric_mean and harmonic_mean panic exactly for no data, an Asian option exactly on an empty path, for continuous averaging or without a strike flag. As long as the product of the first k numbers lies between 2^-1021 and 2^1022 for every k, the geometric mean G of n <= 2^40 positive numbers has relative error at most d + 2^-52 (3 + |ln G|), whatever n is; the harmonic mean of n <= 2^40 numbers between 2^-900 and 2^900 has relative error at most (n + 1) 2^-51. A geometric Asian option on such a path pays within twice the error of G plus the relative error 2^-53 of what it should, an arithmetic one on n prices, none negative and with a sum below 2^1023, within n 2^-51 of the average (plus an underflow term) and the relative error 2^-53. Defects: the geometric mean of numbers from one on whose product is 2^1025 or more is infinite, so that on a path of at least 155 prices of at least 100 a geometric Asian call with fixed strike pays infinity and the put nothing, whatever the strike; the geometric mean of 1075 / a positive numbers of at most 2^-a is zero; of 131072 or more numbers between 0.5 and 0.9 it is above 0.99, because the product gets stuck on the least positive numbers.",
  "all lists of doubles of the stated lengths and sizes, all option flags and strikes, all platform powers of the given accuracy", "all data, all lengths and all sequences of roundings; tests only use short lists", [M+"statistic.rs: geometric_mean, harmonic_mean", I+"options/asian.rs: payoff"])

p("Monte-Carlo prices in double precision",
  "In actual f64 arithmetic, with an exp of the platform of relative error d <= 1/100 on [-500, 500]: for n paths, 1 <= n <= 2^40, times up to 2^1000 and |r| T up to 300, write t = 2 d + 2^-51 (n + 2 |r| T + 2) and D = e^(-rT). If every payoff comes out within E of what it should be, the price is finite and within D (mean E + t (mean |payoff| + mean E)) + 2^-1073 of the discounted mean of the exact payoffs. So, with strikes and prices differing by at most 2^400, European and barrier options have relative error 2 t (plus 2^-1073), binary options t, arithmetic Asian options 2 t plus 3 L 2^-52 D times the mean average for prices that are not negative and paths of at most L <= 2^40 points; put-call parity holds up to 2 t D mean |S - K|, and a knock-in and the knock-out together cost the European option up to 4 t times its price. For processes, configurations and noise as in the property on simulated paths, with sizes and strike up to 2^400, the price of a European option is within D (2 t mean payoff + steps 2^-46 mean size) + 2^-1073 of the discounted mean payoff of the exact Euler-Maruyama paths with the same noise. With an exp that is never negative these hold exactly, on the same paths: a payoff that is never larger never has a larger price, so a barrier option never costs more than the European one, calls do not increase and puts do not decrease with the strike; no such price is negative, and there is none without a path.",
  "all lists of paths, noise sequences, strikes, barriers and rates in the stated ranges, all platform exponentials of the given accuracy", "all samples, all numbers of paths and steps, and all sequences of roundings", [I+"monte_carlo_pricer.rs: price_monte_carlo", I+"options/vanilla.rs: payoff", I+"options/barrier.rs: payoff", I+"options/binary.rs: payoff", I+"options/asian.rs: payoff", S+"simulation.rs: simulate_stochatic_process"])

p("Options and Monte-Carlo prices when values are not finite",
  "With infinities and NaN carried on as IEEE 754 says, and an exp, ln and powf that return NaN on NaN (powf except with exponent zero): where all steps of a Monte-Carlo price or of a simulated geometric Brownian motion are finite, the result is the one of the finite model. European, barrier and Asian options never report a NaN or negative payoff, whatever the path, strike and barrier, so their Monte-Carlo price is never NaN or negative for at least one path and a positive finite discount factor; one infinite payoff makes it infinite, no path makes it NaN. Defects: an underlying that is NaN pays exactly zero for European, binary, supershare, log, power and capped power options, and so does a barrier option whose path ends in NaN, an Asian option with a NaN anywhere in its path and a NaN strike; so a Monte-Carlo price counts failed paths as worthless: it equals the price with each of them ending at the strike. Power contracts and log contracts do report NaN. A NaN inside a path is not seen by a barrier: the payoff is that of the path without it; knock-in and knock-out still add up to the vanilla option. A lookback option with a NaN inside its path pays either zero or what the other values say, depending on the sign bit of the NaN. Once a path of any process is NaN it stays NaN; an infinite value of a geometric Brownian motion is followed by the same infinity only if drift, volatility and noise are all positive, and otherwise by NaN, so a path that overflows and later meets one noise value that is not positive ends in NaN, and a call on it pays zero.",
  "all paths with any infinities and NaN, strikes, barriers, rates, parameters and noise sequences, all platform functions that propagate NaN", "all positions and combinations of NaN and infinities in paths of all lengths; the tests use finite numbers only", [I+"monte_carlo_pricer.rs: price_monte_carlo", I+"options/vanilla.rs: payoff", I+"options/barrier.rs: payoff", I+"options/binary.rs: payoff", I+"options/asian.rs: payoff", I+"options/lookback.rs: payoff", I+"options/power.rs: payoff", I+"options/log.rs: payoff", I+"options/supershare.rs: payoff", S+"simulation.rs: simulate_stochatic_process", S+"geometric_brownian_motion.rs: drift, diffusion"])

p("Data with NaN: sorting, statistics, interpolation, nearest neighbours",
  "The code sorts with a comparison that panics on NaN. Whichever procedure sorts by comparing two items at a time and is correct for all totally ordered keys: without NaN (infinities allowed) the sort gives a permutation in ascending order; with a NaN among at least two items it panics, since no such procedure can leave an item out; a single item is not compared. So the median, quantiles, percentiles and the interquartile range of two or more data panic if one is NaN, and are NaN for a single NaN; for finite data median and quantiles do not depend on the procedure. The mean and variance of data with a NaN are NaN. Defect: the minimum, maximum and range pass over NaN and are those of the other data; if all data are NaN they are +infinity, -infinity and -infinity. Building an interpolator from at least two points panics if an abscissa is NaN, and keeps every point otherwise, also with NaN ordinates, which then show at their point and all the way to both neighbours; interpolating at NaN panics. Defects: a single NaN abscissa is accepted although documented to panic, and adding a point with a NaN abscissa is accepted and puts it in front; from then on every interpolation panics. Nearest neighbours among two or more samples panic if a distance is NaN; otherwise the k nearest samples come out, nearest first; splines with a NaN among two or more knots panic.",
  "all data with any infinities and NaN, all comparison sorts that meet the contract of sort_by, all binary searches", "all positions of NaN in data of all lengths, and all sorting procedures the standard library may use", [M+"statistic.rs: median, percentile, quantile, interquartile_range, mean, sample_variance, min, max, range", M+"interpolation/linear_interpolator.rs: new, add_point, interpolate", M+"interpolation/exponential_interpolator.rs: new, add_point, interpolate", M+"interpolation/b_splines.rs: new", L+"k_nearest_neighbors.rs: find_neighbors"])

p("Root finders and gradient descent when values are not finite",
  "With infinities and NaN carried on as IEEE 754 says and every operation rounded: bisection, Brent and Newton-Raphson panic exactly when the accuracy is not positive, NaN included, whatever the objective does. Bisection is the one of the finite model as long as it meets finite numbers. A point it returns has a value below (42 epsilon)^2, or a value at most zero after the objective was positive elsewhere; the value is never NaN. A point Newton-Raphson returns has such a small value, or is the middle of a bracket with a sign change whose half is narrower than the accuracy, or was reached by a Newton step shorter than the accuracy. If the objective is NaN only at NaN, a point Brent's method returns has such a small value, or lies within (1 + 2^-49) (2^-50 |r| + accuracy) of a point where the objective has the other sign, or is infinite. Without any two values of nonpositive product the three return 0.0. Defects: so they do, as for a root at zero, when the objective is NaN everywhere, the guess is NaN, or the step is NaN; a NaN counts as a positive value in bisection, which returns the edge of a gap in the objective; Brent's method can return a point where the objective is NaN, and an infinity; a root met exactly is passed over if the value at the other end is infinite; a derivative that is NaN in the middle of the bracket makes Newton-Raphson return 0.0, and an infinite one makes it return that middle at once. Gradient descent panics exactly on a tolerance that is not positive, NaN included; if it stops before the last iteration the gradient there has no NaN and a norm below the tolerance. Defect: a NaN in the gradient makes it use up all iterations and return a point with NaN in that coordinate.",
  "all objectives, derivatives and gradients on f64 with any infinities and NaN, all settings, guesses and starting points", "all functions and all positions of NaN and infinities met during a search; the tests use smooth functions with finite values", [M+"rootfinding/bisection.rs: solve, solve_impl", M+"rootfinding/brent.rs: solve, solve_impl", M+"rootfinding/newton_raphson.rs: solve, solve_impl", M+"rootfinding/rootfinder.rs: close, enforce_bounds, nrsign", M+"optimization/gradient_descent.rs: optimize"])

p("Sensitivities of Black-Scholes-Merton prices in double precision",
  "In actual f64 arithmetic, with exp, ln, sqrt and erfc of the platform right up to d (2^-52 <= d <= 2^-20), and exp right up to d in absolute terms from -500 down: for contracts in the ranges of the property on Black-Scholes-Merton prices, with Q as there and E = (|b| + |r|) T, the sensitivities are finite and close to the true derivatives of the Black-Scholes-Merton price: vega within d (14 + 4 E + 5 Q) S e^((b-r)T) sqrt T, gamma within d (17 + 4 E + 6 Q) e^((b-r)T) / (S v sqrt T), strike_gamma within d (17 + 4 E + 6 Q) e^(-rT) / (K v sqrt T), rho (in the rate, with the yield r - b fixed) within d (9 + 4 E + 13 Q) K T e^(-rT), phi (in the yield) within d (9 + 4 E + 13 Q) S T e^((b-r)T), strike_delta within d (6 + 4 E + 13 Q) e^(-rT), theta (minus the derivative in the time to expiry, rates zero or at least 2^-100 in size) within d (20 + 4 E + 13 Q) times the sum of the sizes of its three parts; zeta is within d (2 + 13 Q) of the probability of ending in the money. On the expiration date, away from the money by a factor between 1 + 2^-52 (1 - 2^-53 below) and 2^1000, vega, rho and phi are zero, zeta is one or zero and strike_delta minus one, one or zero as it should. Defects: on the expiration date gamma, theta and strike_gamma of every option are NaN, and exactly at the money so are vega, rho, phi, zeta and strike_delta.",
  "all contracts in the stated ranges, all platform functions of the given accuracy", "all parameters and all sequences of roundings, for platform functions known only by their accuracy", [I+"options/black_scholes_merton.rs: gamma, vega, theta, rho, phi, zeta, strike_delta, strike_gamma", M+"distributions/gaussian.rs: pdf, cdf"])

p("Probability distributions in double precision",
  "In actual f64 arithmetic with infinities and NaN. The constructors accept exactly positive rates, shapes, variances and degrees of freedom (infinity included, NaN not), probabilities between 0 and 1, and ends of an interval in order. Continuous uniform distribution whose width b - a is finite and positive: at every argument but NaN the distribution function is between 0 and 1 and does not decrease, is 0 up to a and 1 from b on, and in between is within 2^-51 of (x - a) / (b - a); inv_cdf panics exactly for what is not a probability, and for p < 1 lies between a and b, does not decrease, is a at p = 0 and is within 2^-50 max(|a|, |b|) + 2^-1075 of a + p (b - a); the density is 0 outside [a, b] and at NaN, and inside has relative error 2^-51 (plus 2^-1075) for widths from 2^-1000 on; the mean has relative error 2^-51 (plus 2^-1075) unless a + b overflows. Exponential distribution with a finite positive rate, and an exp that on numbers up to 0 has values in [0, 1], does not decrease and has absolute error d: cdf panics exactly for negative numbers and NaN, and otherwise is between 0 and 1, does not decrease, is within d + 2^-51 of 1 - e^(-rate x) and is 1 at infinity. The two probabilities of a Bernoulli distribution add up to exactly one after rounding, for every p that new accepts. The distribution function of a Gaussian distribution with finite mean and positive finite variance is between 0 and 1 and does not decrease, at every argument but NaN, if erfc has values in [0, 2] and does not increase; with a square root of relative error and an erfc of absolute error at most d, 2^-52 <= d <= 2^-20, it is within 4 d of the true distribution function up to 2^200 standard deviations from the mean. inv_cdf of a chi-squared distribution ends after at most 97 turns of its loop. Defects: uniform cdf is 1 at NaN; uniform inv_cdf(1) can exceed b, where the density is 0; if b - a overflows the density is 0 everywhere, cdf(b) is NaN, inv_cdf is NaN or infinite, and if a + b overflows the mean is infinite; the exponential cdf is exactly 0 wherever rate x <= 2^-54 and inv_cdf exactly 0 for p <= 2^-54; the gamma function exceeds every f64 from 172 on, so pdf and cdf of gamma distributions with shape from 172 on, and of chi-squared distributions with 344 or more degrees of freedom, are 0 or NaN everywhere, the chi-squared entropy is infinite, and inv_cdf is the same for all positive p, or panics for all of them if the incomplete gamma function overflows likewise.",
  "all parameters, all arguments with infinities and NaN, all platform functions with the stated properties", "all f64 arguments and all sequences of roundings, for platform functions known only by their properties; tests use a few small arguments", [M+"distributions/uniform.rs: new, pdf, cdf, inv_cdf, mean", M+"distributions/exponential.rs: new, cdf, inv_cdf", M+"distributions/bernoulli.rs: new, pmf", M+"distributions/gaussian.rs: new, cdf", M+"distributions/gamma.rs: new, pdf, cdf", M+"distributions/chi_squared.rs: new, pdf, cdf, inv_cdf, entropy"])

p("Discrete distributions in release builds",
  "In a build without overflow checks (the default for release), where products and differences of unsigned integers "
  "wrap: Poisson::pmf is the mass at 0..20, exceeds it at 21..65 and is infinite from 66 on (defect); Poisson::inv_cdf "
  "always ends (at levels up to 1 - 2^-52), with an integer not above 66, never above the quantile and equal to it at the levels the masses at 0..20 "
  "reach; with a rate of 133 or more every quantile from the median up is wrong (defect). Binomial::pmf agrees with a "
  "checked build up to twelve trials; with 13 to 33 trials, and a probability of success other than 0 and 1, its values never exceed the masses and add up to less than one, "
  "with 34 or more (below 2^32) they are zero or a panic by division by zero, with 39 or more always that panic (defects); with a "
  "multiple of 2^32 trials zero successes have probability one in both builds (defect). Binomial::cdf beyond the number n "
  "of trials is that of 2^64 + n trials (defect); Binomial::inv_cdf is the same in both builds.",
  "Every rate, probability, number of trials, point and level.",
  "Unit tests run in a checked build with small arguments; the wrapped products depend on every factorial up to the point where they vanish.",
  [M + "distributions/poisson.rs", M + "distributions/binomial.rs", "Cargo.toml"])

p("Gradients when derivatives are not finite",
  "With infinities and NaN carried on as IEEE 754 says, for every graph the public operations can build, whatever values and "
  "partial derivatives are recorded in it: accumulate never panics on a variable of the graph and returns one derivative per "
  "vertex; where it meets finite numbers only it is the accumulation of the property on gradients in double precision. The "
  "derivative with respect to an input depends only on the vertices computed from that input, and is not changed by later "
  "operations on others. One infinite or NaN partial derivative anywhere in the graph makes the derivative of every variable, "
  "dependent on it or not, with respect to every input below it NaN (defect); so calling sqrt, ln, recip or c / x on an input "
  "that is zero spoils every derivative with respect to it even if the result is never used (defect). An infinite derivative "
  "with respect to an input is never returned, but NaN in its place (defect).",
  "Every graph built by pushes, output, input and recorded partial derivative (finite, infinite, NaN).",
  "Damage by a vertex that the output does not use shows only on graphs that mix unrelated computations; unbounded graphs and orders of operations.",
  [A + "accumulate.rs: accumulate", A + "graph.rs: push", A + "overload.rs", A + "gradient.rs: wrt"])

p("Activation functions in double precision",
  "In actual f64 arithmetic with infinities and NaN, with platform functions of error e <= 1/16 (exp in order, exact at 0 and the infinities, and "
  "overflowing from 710 on). sigmoid and logistic: at every value but NaN a number between 0 and 1, in order, 1/2 at 0 and "
  "right at the infinities; relative error 2 e + 2^-51 for arguments up to 680 in size; NaN gives NaN. relu is exact on all "
  "numbers and right at the infinities. softplus has an error of at most e softplus(x) + 4 (e + 2^-53) for arguments up to 680 in size, "
  "gelu of at most (2 e + 6 2^-53) |x| + 2^-1070 up to 2^1000. On Variable, sigmoid and softplus have the same value as on f64, "
  "relu up to 2^1023, and the derivative of relu is 1 above zero and 0 below. Defects: sigmoid is exactly 1 from 37 on although it is positive at the opposite number; relu of NaN is "
  "0; softplus is infinite from 710 on and exactly 0 from -37 down; gaussian is never below 1 and infinite from 27 on in size; "
  "gelu of minus infinity is NaN; on Variable, relu is infinite from 2^1023 on and NaN at minus infinity, and the derivatives of sigmoid "
  "from -710 down and of softplus from 710 on are NaN.",
  "All f64 arguments, infinities and NaN included, all graphs, and all platform functions with the stated properties.",
  "All doubles and all roundings; tests use a few small arguments.",
  [L + "activations.rs: sigmoid, logistic, relu, gelu, softplus, gaussian", A + "overload.rs: abs, exp, ln, recip"])

p("Nelson-Siegel-Svensson curves in double precision",
  "In actual f64 arithmetic with infinities and NaN, with platform functions exp, cosh and ln of error e, for dates after today "
  "(the functions panic at others), with both lambdas between 2^-500 and 2^500 and betas of total size B up to 2^450: the forward rate is the Svensson curve "
  "up to (2 e + 2^-49) B + 2^-1073; the spot rate is the average of the curve up to today's distance T, to (3 e + 2^-48) B (1 + (lambda1 + lambda2) / T) "
  "+ 2^-1073; the discount factor is exp(-integral / 100) with relative error 2 e + 2^-52 + (8 e + 2^-47) B (T + lambda1 + lambda2) / 100, "
  "while the last factor is at most 600. Whatever the parameters, the discount factor of a spot rate that is not negative is between 0 and 1. "
  "A NaN parameter makes all three NaN. The fitting cost of finite fitted values is not negative and not NaN; it is the mean "
  "log-cosh of the misfits up to (3 e + n 2^-50) (1 + M), for n nodes and misfits up to M <= 600; a NaN node or fitted value makes it NaN. "
  "Defects: a lambda that is zero or at most 2^-1040 makes every forward rate NaN, whatever the betas; with lambdas from 2^70 on "
  "the spot rate is beta0 although the average of the curve is beta0 + beta1, to 54 bits; the cost is exactly zero when every "
  "misfit is up to 2^-27; one misfit of 711 or more makes it infinite; with no nodes it is NaN.",
  "All dates, parameters, node lists and platform functions with the stated properties.",
  "All doubles and all roundings; cancellation shows only at particular ratios of lambda to time.",
  [S + "nelson_siegel_svensson.rs: forward_rate, spot_rate, discount_factor", "crates/RustQuant_data/src/curves.rs: cost",
   D + "day_counting.rs"])

p("Splines and exponential interpolation in double precision",
  "In actual f64 arithmetic with infinities and NaN. Evaluating a B-spline never panics; on finite data it refuses exactly the points the exact "
  "spline refuses, and infinite and NaN points. For degrees d up to 50, knots up to 2^500 in size that are equal or at least 2^-500 apart, "
  "and control points that matter at the point up to M <= 2^900, the value is that of the exact spline up to (5 d + 1) 2^-52 M + (1 + M) 2^-900. "
  "Constructing from finite knots sorts them; adding a finite point keeps them sorted and the counts right. The exponential interpolator, with a power function of error e, "
  "is positive and has relative error 3 e + 2^-50 (1 + |ln yl| + |ln yr|) between points with values from 2^-500 to 2^500. "
  "Defects: a NaN control point makes every value NaN, an infinite one makes the values NaN outside of its part of the curve; adding a point at NaN succeeds and leaves "
  "a spline without any value; knots that are too close, or infinite, give NaN; a spline with all control points 1 has values above and below 1.",
  "All finite data and points, all degrees up to 50, all platform power functions with the stated property.",
  "All doubles and all roundings through a recursion of unbounded shape; tests use a handful of small integers.",
  [M + "interpolation/b_splines.rs: new, cox_de_boor, add_point, interpolate", M + "interpolation/exponential_interpolator.rs: interpolate"])

p("Skewness and kurtosis in double precision",
  "In actual f64 arithmetic with a correctly rounded square root. skewness panics exactly for fewer than three entries, kurtosis exactly for fewer than four. "
  "For up to 2^40 entries that are zero or between 2^-300 and 2^400 in size, they are numbers unless every entry equals the computed mean (then NaN), and never more than "
  "twice n sqrt(n - 1) / (n - 2) and n (n + 1) (n - 1) / ((n - 2) (n - 3)). If the spread is not lost in rounding, they are the adjusted "
  "sample skewness and the sample excess kurtosis up to 2^-48 (K + n + 4) and 2^-47 (K + n + 4) times these factors, where K is the sum of the sizes of the "
  "entries times sqrt(n) over the length of the vector of deviations. "
  "Defect: constant data whose computed mean is not the constant, such as three or six times 0.1, have a skewness of about sqrt(n (n - 1)) / (n - 2) in size and a kurtosis of about "
  "-2 (n - 1) / (n - 3), although they have neither.",
  "All lists of finite doubles for the panics; all lists of the stated sizes for the rest; all correctly rounded square roots.",
  "All doubles and all roundings, for lists of every length; constant lists with inexact means are a matter of luck.",
  [M + "statistic.rs: skewness, kurtosis"])

p("Risk-reward measures in double precision",
  "In actual f64 arithmetic, with infinities and NaN. The Sharpe, Sortino and Treynor ratios of finite measures are within 3 * 2^-53 of the exact ratio of the excess return to the "
  "risk, and the return on value-at-risk within 2^-53, if the exact one is at most 2^1022 in size (and the excess at most 2^1023); the Burke ratio of n drawdowns (up to 2^40, with a sum of squares "
  "between 2^-900 and 2^1000) within 9/8 (n + 4) 2^-52; each up to an underflow of 2^-1074. With a positive risk the sign of the three ratios is never wrong, they are never NaN, and are exactly "
  "zero for a portfolio that returns the riskless rate. Rounding never reverses a ranking: of two portfolios, the one with at least the return and at most the risk, "
  "returning at least the riskless rate, never has the smaller ratio, also when they overflow; the Sortino ratio is on the right side of the Sharpe ratio. "
  "Jensen's alpha of measures up to 2^500 is within 5 * 2^-53 (|r_p| + |r| + |beta (r_m - r)|) + 2^-1074 of the exact one, never decreases with the return, and is exactly zero for an account at "
  "the riskless rate and for a market whose return is within a factor of two of the riskless rate or that has a riskless rate of zero. NaN in a measure shows in the result. "
  "Defects: a risk of zero (+0.0) gives, without any error, an infinity with the sign of the excess, or NaN; so do drawdowns that are all at most 2^-538, as their "
  "squares underflow; without drawdowns the Burke ratio is not finite; the market itself can have an alpha: it is -2^-54 for a return of 29 and a riskless rate of 3 percent.",
  "All finite doubles in the stated ranges; all doubles for sign, ranking and NaN; drawdown lists of every length.",
  "All doubles and all roundings; whether a ranking is kept is a statement about all pairs of portfolios.",
  [M + "risk_reward.rs: treynors_ratio, sharpe_ratio, sortino_ratio, burke_ratio, return_on_var, jensens_alpha"])

p("Bachelier prices in double precision",
  "In actual f64 arithmetic, if the platform's exp, sqrt and erfc are right up to an error delta between 2^-52 and 2^-20. For volatilities and times within 2^+-100, strikes equal to the forward or "
  "away from it by 2^+-200, exponents r t up to 300 and delta |d| at most 2^-10 (d: the distance of the forward from the strike in standard deviations), prices are finite and within "
  "delta (17 + 4 |r| t + 5 |d|) exp(-r t) (|f - k| + v sqrt t) of Bachelier's formula, and call minus put is within twice that of exp(-r t) (f - k). Delta is within delta (3 + 5 |d|), gamma within "
  "delta (12 + 2 |d|) / (v sqrt t), vega within delta (10 + 2 |d|) sqrt t, theta within delta (13 + 2 |d|) v / (2 sqrt t) of the closed formulas. A call and a put struck at the forward have the same price "
  "to the last bit, or both overflow. atm_price and atm_vol have a relative error of at most 7 delta, and atm_vol of atm_price returns the volatility up to 21 delta; atm_price is the formula at the money "
  "without its discount factor. With a time or a volatility of zero, away from the money (by at most 2^500) and with a finite discount factor, price and delta are the discounted payoff and 0, 1 or -1. "
  "Defects: with a time or a volatility of zero, everything is NaN for an option struck at the forward, and gamma is NaN for every strike.",
  "All finite doubles in the stated ranges; all platforms of the stated accuracy; all models, strikes and times for the equality at the money.",
  "All doubles, all roundings and all mathematical libraries of a given accuracy.",
  [I + "options/option_models.rs: Bachelier::price, delta, gamma, vega, theta, atm_price, atm_vol"])

p("Milstein and Strang-splitting paths in double precision",
  "In actual f64 arithmetic, without jumps: whatever is simulated with either scheme, the first time is the start exactly, the first value the initial value, the times do not decrease, and time k is within "
  "2^-49 of the larger end (plus an underflow term) of t_0 + k (t_n - t_0) / n. For up to 2^40 steps over a period of at least 2^-900 with ends up to 2^18 and noise up to 2^20 in size: if drift and "
  "diffusion have Lipschitz constants B and S and sizes at most B |x| + C and S |x| + T and are computed with relative error e <= 1/20000, the sizes of all terms add up to at most 2^898, and "
  "(1 + 3 e + 40 * 2^-53)^n <= 2, a Strang-splitting path is finite, and its k-th value is within ((1 + 3 e + 40 * 2^-53)^k - 1) times the sum of the sizes of all terms of the recursion "
  "x + b h + s(x + b h / 2) z in exact arithmetic, with the exact step h and diffusions taken at times within 2^-30 of the middle of the steps. So it is within k 2^-46 of these sizes for arithmetic "
  "and geometric Brownian motion, Ornstein-Uhlenbeck, Hull-White and extended Vasicek. A Milstein path of a process whose diffusion does not depend on the value is finite and within ((1 + e + 18 * 2^-53)^k - 1) times the sizes (k 2^-47 for arithmetic Brownian motion, Ornstein-Uhlenbeck, Hull-White and extended Vasicek) of the exact "
  "recursion x + b h + s z. Whatever the process, each Milstein value up to 2^200 in size is followed by the step as the code writes it in exact arithmetic, up to 7 e + 38 * 2^-53 of the sizes of what is added. Defects: for geometric Brownian motion the "
  "Milstein correction comes out as 10^-10 times sigma^2 x (z^2 - h) / 2; both schemes use the noise as it comes, without the square root of the step, so that simulated Brownian motion does not depend on the period at all, to the last bit; the "
  "Milstein correction is exactly zero if the diffusion does not depend on the value, and, whatever the diffusion, at every value of 2^38 or more in size, because the value plus and minus 1e-5 is then the value itself.",
  "all drifts and diffusions, configurations, noise sequences and numbers of steps up to 2^40 (below 2^53 for the times)",
  "all sequences of roundings over paths of unbounded length, for every process",
  [S + "simulation.rs: simulate_stochatic_process, StochasticScheme::Milstein, StochasticScheme::StrangSplitting"])

p("Paths with jumps in double precision",
  "In actual f64 arithmetic, for the Euler-Maruyama scheme with jumps: whatever is simulated, the first time is the start exactly, the first value the initial value, the times do not decrease, and time k is "
  "within 2^-49 of the larger end (plus an underflow term) of t_0 + k (t_n - t_0) / n. For up to 2^40 steps over a period of at least 2^-900 with ends up to 2^18 and noise up to 2^20 in size: if drift and "
  "diffusion have Lipschitz constants B and S and sizes at most B |x| + C and S |x| + T and are computed with relative error e <= 1/2000, the sizes of all terms, jumps included, add up to at most 2^899, "
  "and (1 + e + 20 * 2^-53)^n <= 2, a path is finite, and its k-th value is within ((1 + e + 20 * 2^-53)^k - 1) times the sum of the sizes of all terms of the recursion x + b h + s sqrt(h) z + J "
  "in exact arithmetic, where J is the size drawn for the step if the sampled number of jumps is positive and zero otherwise; for Merton's jump diffusion, within k 2^-47 of these sizes. "
  "If the process has no jumps, if nothing was sampled or if all sampled numbers are zero, the path is the one of the scheme without jumps, to the last bit. Defect: the number of jumps sampled for a step is not used; "
  "two samples that agree on which steps have a jump give the same path, to the last bit.",
  "all drifts and diffusions, configurations, noise sequences, samples, jump sizes that do not depend on the value, and numbers of steps up to 2^40 (below 2^53 for the times)",
  "all sequences of roundings over paths of unbounded length, for every process and every sample",
  [S + "simulation.rs: simulate_stochatic_process, calculate_jump", S + "merton_jump_diffusion.rs: MertonJumpDiffusion"])

p("Simulated paths beyond the finite numbers",
  "In actual f64 arithmetic, with infinities and NaN, for every process, all three schemes, with or without jumps: a value of a path that is not finite is never followed by a finite one; NaN is followed by NaN only, "
  "and an infinity by the same infinity or NaN. So a path is finite throughout exactly if its last value is. NaN noise or a NaN drift makes all later values NaN, and so does a NaN diffusion in the Euler-Maruyama and the Milstein "
  "scheme. Where a path is finite (for the Milstein and the Strang-splitting scheme: one without jumps), infinities and NaN make no difference. Defects, where the code neither stops nor keeps the value in the range of the process: a Cox-Ingersoll-Ross path that falls below zero "
  "is NaN from then on in these two schemes (from 1 with mean 2, volatility and speed 1 and steps of length 1, noise of -3 is enough); so is one of constant elasticity of variance, for an elasticity strictly between 0 and 1; a geometric Brownian bridge "
  "that reaches zero or falls below it is NaN from then on in every scheme, and from the first step on if the end value is negative; a Black-Derman-Toy path whose volatility is zero at a time is not finite from the next step on. With a constant volatility other than zero, the drift of that process is exactly theta(t), at time zero and at times within 2^-100 and 2^100, if the step of its numerical derivative is within these bounds.",
  "all drifts, diffusions, jump sizes, configurations, noise sequences, samples and numbers of steps, all platforms whose square root, logarithm and power are NaN where IEEE 754 says so",
  "all paths of unbounded length of every process, with every rounding",
  [S + "simulation.rs: simulate_stochatic_process, calculate_jump", S + "cox_ingersoll_ross.rs: CoxIngersollRoss", S + "constant_elasticity_of_variance.rs: ConstantElasticityOfVariance",
   S + "geometric_brownian_bridge.rs: GeometricBrownianBridge", S + "black_derman_toy.rs: BlackDermanToy, diff"])

if __name__ == "__main__":
    with open(os.path.join(os.path.dirname(__file__), "..", "properties.jsonl"), "w") as f:
        for q in P: f.write(json.dumps(q) + "\n")
    print(len(P))
