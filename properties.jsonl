{"id": "C01", "title": "GRACE month numbers and calendar months are inverse encodings", "statement": "grace_to_calendar(calendar_to_grace(y,m)) == (y,m) for every calendar year y and month 1..12; calendar_to_grace(*grace_to_calendar(g)) == g for every integer GRACE month; the month returned is always in 1..12; later calendar months get strictly larger GRACE months, consecutive ones consecutive numbers, and a decimal-year input is assigned the month floor(12*fraction)+1 of its own year. With np.round the month of a decimal year is the nearest one, ties to even.", "quantifier": "every integer year, month and GRACE month; every decimal year", "why_tests_cant": "tests sample a handful of months; negative and far-future months are unbounded", "anchors": ["gravity_toolkit/time.py:calendar_to_grace", "gravity_toolkit/time.py:grace_to_calendar"]}
{"id": "C02", "title": "calendar_days is total and agrees with the Gregorian calendar", "statement": "calendar_days(year) returns for every integer year one of the two 12-entry tables (its two conditions are exhaustive and exclusive, so None is never returned); the table is the leap one exactly for Gregorian leap years except multiples of 4000, the year length is 365 or 366, and the vectorised leap/standard split used by convert_calendar_decimal puts every year in exactly one class and the same class.", "quantifier": "every integer year", "why_tests_cant": "the divisibility conditions range over all integers; years 100k, 400k and 4000k are not sampled", "anchors": ["gravity_toolkit/time.py:calendar_days", "gravity_toolkit/time.py:convert_calendar_decimal"]}
{"id": "C03", "title": "convert_calendar_dates counts days", "statement": "convert_calendar_dates with the MJD epoch gives 0 for 1858-11-17 and exactly one more for each following Gregorian calendar day, plus the day fraction of h:m:s, for every date except the Januaries of the years 100k+1 and the months March to August of the years 100k, 4 not dividing k; for those (for example January 1901, 1900-03-01 to 1900-08-31) the result is one day too large, so for example 31 January and 1 February 1901 get the same day number. Changing the output epoch subtracts the number of days between the epochs.", "quantifier": "every year, month 1..12, valid day and time of day; every epoch", "why_tests_cant": "the day count must hold for every date; test dates are random draws in 1992-2020", "anchors": ["gravity_toolkit/time.py:convert_calendar_dates"]}
{"id": "C04", "title": "convert_julian inverts the day count and always returns a valid date", "statement": "For every Gregorian calendar date from 1582-10-15 on and every time of day, convert_julian applied to the Julian day of that instant returns exactly that year, month, day, hour, minute and second; for every Julian day the returned month is 1..12, day 1..31, hour 0..23, minute 0..59 and second in [0,60), and distinct Julian days give distinct dates in the Gregorian range.", "quantifier": "every Julian day / every Gregorian date and time of day (exact arithmetic)", "why_tests_cant": "floor expressions with constants like 36524.25 and 30.6001 must be right at every boundary of every 400-year cycle", "anchors": ["gravity_toolkit/time.py:convert_julian"]}
{"id": "C05", "title": "Decimal years lie in their year and preserve date order", "statement": "convert_calendar_decimal of a valid date (year, month, day, h, m, s) lies in [year, year+1), equals the value obtained by passing the same date as day-of-year, is strictly increasing in the date, and with no day given is the middle of the month (strictly between the decimal dates of the first day of the month and of the next).", "quantifier": "every year, valid month/day/time or day-of-year", "why_tests_cant": "order preservation is a statement about all pairs of dates", "anchors": ["gravity_toolkit/time.py:convert_calendar_decimal"]}
{"id": "C06", "title": "calendar_to_julian is one day early", "statement": "For every year y not following a 4000-multiple and every fraction f in [0,1), calendar_to_julian(y+f) equals the Julian day of 1 January of y at midnight plus f times the length of the year, minus exactly one day; so the conversion chain calendar_to_julian -> convert_julian used by the geocenter readers returns the previous calendar day.", "quantifier": "every year and every fraction of the year", "why_tests_cant": "an offset present for every input looks like a tolerance in sampled tests", "anchors": ["gravity_toolkit/time.py:calendar_to_julian", "gravity_toolkit/geocenter.py:from_UCI"]}
{"id": "C07", "title": "adjust_months leaves unique months alone and repairs a duplicated month", "statement": "adjust_months returns its input when no month repeats (hence it is idempotent on such input); in a list where exactly one month repeats, as an adjacent pair preceded by its predecessor month, the second copy becomes month+1 and nothing else changes; where the pair is preceded by month-2, the first copy becomes month-1 and the second is kept; months occurring three or more times become 0.", "quantifier": "every list of GRACE months, any length and position of the duplicate", "why_tests_cant": "the position of the special months within the list and the neighbours are unbounded; index j-1 wraps around at the start of the list", "anchors": ["gravity_toolkit/time.py:adjust_months"]}
{"id": "C08", "title": "reduce_by_date keeps exactly the newest file of each date", "statement": "reduce_by_date returns a sublist of the input names with strictly increasing dates, containing for every date present exactly one file of that date, whose version is the maximum over all files of that date, and independent of the order of input files up to ties in version.", "quantifier": "every list of granule names and every assignment of dates and versions", "why_tests_cant": "must hold for any number of files, duplicates and orders", "anchors": ["gravity_toolkit/time.py:reduce_by_date"]}
{"id": "C09", "title": "Delta-time conversion composes and inverts", "statement": "convert_delta_time from epoch1 to epoch2 followed by epoch2 to epoch3 is the conversion from epoch1 to epoch3; converting there and back is the identity; converting to the same epoch is multiplication by scale; parse_date_string rejects unit strings not in the table and returns factor 0 for exact dates.", "quantifier": "every time value, triple of epochs and scale", "why_tests_cant": "algebraic law over all inputs", "anchors": ["gravity_toolkit/time.py:convert_delta_time", "gravity_toolkit/time.py:parse_date_string"]}
{"id": "C10", "title": "Each GRACE file is dated at its mid-point and filed under the month containing it", "statement": "grace_date maps each file to the calendar month containing the mid-point of its first and last day (also for spans crossing a year end, after one January 1st); the reported decimal date is start year + mid-day/days-per-year; the total day count is the number of days since the start of 2002; the returned dictionary has exactly the adjusted months as keys and the last file listed under each. This decimal date is one day later than convert_calendar_decimal of the same day of the year.", "quantifier": "every start/end year and day-of-year, every list of files", "why_tests_cant": "spans crossing years and leap years range over all dates", "anchors": ["gravity_toolkit/grace_date.py:grace_date", "gravity_toolkit/read_GRACE_harmonics.py:read_GRACE_harmonics"]}
{"id": "C11", "title": "grace_find_months reports exactly the gaps", "statement": "start and end are the minimum and maximum available month; when no month before 4 is available, missing is strictly increasing and consists of exactly the months m with 4 <= m < end that are not available; available and missing are disjoint. If a month 1..3 is available, the same number of genuinely missing months is silently dropped.", "quantifier": "every non-empty list of available months", "why_tests_cant": "set equality over all possible lists", "anchors": ["gravity_toolkit/grace_find_months.py:grace_find_months"]}
{"id": "C12", "title": "Low-degree replacement touches only the requested coefficients and months", "statement": "In grace_input_months the months read are exactly start..end minus missing in increasing order; replacing C20 changes only (2,0), for every month; replacing C21/S21, C22/S22, C30, C40, C50 changes only that coefficient and only in months after 176; if a needed month is missing from the replacement series an error is raised and nothing is silently kept; with degree-1 modelling off every month gets the geocenter value of its own month.", "quantifier": "every list of months, every replacement series and every original field", "why_tests_cant": "the frame condition ranges over all coefficients and months", "anchors": ["gravity_toolkit/grace_input_months.py:grace_input_months"]}
{"id": "C13", "title": "Level-2 coefficient lines are placed by degree and order under truncation", "statement": "Reading a Level-2 file, entry (l,m) of the output is the value of the last data line for (l,m) with l<=LMAX and m<=MMAX, entries without a line are 0 (C00 is 1 without a line), lines beyond the truncation do not influence the result, and reading at a smaller truncation equals truncating the larger reading; the pole-tide correction changes only (2,1) and only for GSM fields.", "quantifier": "every sequence of file lines, LMAX, MMAX", "why_tests_cant": "arbitrary line order, repeated lines and truncation levels", "anchors": ["gravity_toolkit/read_GRACE_harmonics.py:read_GRACE_harmonics"]}
{"id": "C14", "title": "The ECMWF jump correction is selected by month and undone by the opposite sign", "statement": "read_ecmwf_corrections returns for each month the GAE field for 50..97, GAF for 98..161, GAG after 161 and zero before 50: the four ranges partition the integers; adding the correction for GAC/GAA and removing it for GSM leaves GSM+GAC unchanged; for MMAX different from LMAX (and nonzero) the call fails.", "quantifier": "every month list and correction field", "why_tests_cant": "partition of all integers; shape failure for all MMAX<LMAX", "anchors": ["gravity_toolkit/grace_input_months.py:read_ecmwf_corrections"]}
{"id": "C15", "title": "flatten and expand are inverse on the lower triangle", "statement": "harmonics.flatten produces exactly one row for each (l,m) with m<=l<=lmax, m<=mmax, in order-major order and as many rows as the closed formula n_harm; harmonics.expand of it restores every clm[l,m], slm[l,m] with m<=l, and zero above the diagonal; flatten of expand is the identity on flat lists in that layout. For mmax >= lmax+2 the row count no longer fits and flatten fails.", "quantifier": "every lmax, mmax<=lmax, number of dates and coefficient values", "why_tests_cant": "index arithmetic for every truncation", "anchors": ["gravity_toolkit/harmonics.py:harmonics.flatten", "gravity_toolkit/harmonics.py:harmonics.expand"]}
{"id": "C16", "title": "Adding then subtracting a field restores it", "statement": "harmonics.add, .subtract, .multiply and .divide act coefficient-wise on degrees up to the smaller lmax and orders up to the smaller mmax of the two operands, and leave every other coefficient unchanged; subtract undoes add exactly; divide undoes multiply on the lower triangle wherever the divisor coefficients are nonzero.", "quantifier": "all pairs of fields with any truncations and coefficients", "why_tests_cant": "over all truncations and values", "anchors": ["gravity_toolkit/harmonics.py:harmonics.add", "gravity_toolkit/harmonics.py:harmonics.subtract", "gravity_toolkit/harmonics.py:harmonics.multiply", "gravity_toolkit/harmonics.py:harmonics.divide"]}
{"id": "C17", "title": "truncate keeps exactly the requested degree and order window", "statement": "harmonics.truncate(lmax, lmin, mmax) yields arrays of shape (lmax+1, mmax+1) whose entries equal the originals for lmin<=l and both bounds and 0 elsewhere, extending with zeros when enlarging; truncating twice is truncating to the intersection; truncation commutes with add and scale; mmax=0 is treated as mmax=lmax.", "quantifier": "every field and every lmax, lmin, mmax", "why_tests_cant": "quantifies over all truncation levels", "anchors": ["gravity_toolkit/harmonics.py:harmonics.truncate"]}
{"id": "C18", "title": "subset selects exactly the requested months", "statement": "harmonics.subset and spatial.subset raise IOError naming a requested month that is not in the object and otherwise return, in the object order, the fields whose month was requested, each with its own time and month; requesting all months returns the object; the result does not depend on the order of the request; for an object with repeated months the call fails or all fields are kept together with their own dates.", "quantifier": "every object with distinct months and every request list", "why_tests_cant": "any list of months, orders and duplicates", "anchors": ["gravity_toolkit/harmonics.py:harmonics.subset", "gravity_toolkit/spatial.py:spatial.subset"]}
{"id": "C19", "title": "from_list aggregates by date without mixing fields", "statement": "harmonics.from_list / spatial.from_list return the fields sorted by time, each date/month/coefficients triple coming from one and the same input object, each input used exactly once, truncated to the smallest lmax and mmax of the inputs; splitting an aggregated object and rebuilding it returns it.", "quantifier": "every list of objects with any times and truncations", "why_tests_cant": "permutation property over all lists", "anchors": ["gravity_toolkit/harmonics.py:harmonics.from_list", "gravity_toolkit/spatial.py:spatial.from_list", "gravity_toolkit/harmonics.py:harmonics.to_list"]}
{"id": "C20", "title": "Iteration visits every date once and restarts", "statement": "Iterating over a harmonics, spatial or geocenter object yields index(0), index(1), ..., index(n-1) and then stops; a new loop starts over from 0 whatever the previous loop did; index(i) of an aggregated object is the i-th input. The iteration position is kept in the object, so a loop nested in another loop over the same object exhausts it and the outer loop stops after one pass.", "quantifier": "every object and every interleaving of partial iterations", "why_tests_cant": "histories of next/iter calls are unbounded", "anchors": ["gravity_toolkit/harmonics.py:harmonics.__next__", "gravity_toolkit/spatial.py:spatial.__next__", "gravity_toolkit/geocenter.py:geocenter.__next__"]}
{"id": "C21", "title": "Removing the mean makes the mean zero and is idempotent", "statement": "harmonics.mean(apply=True) returns the arithmetic mean of the selected dates and leaves a time series whose mean over the same dates is zero for every (l,m) with m<=l; calling it again returns zero and changes nothing; differences between dates are unchanged.", "quantifier": "every time series and every non-empty index selection", "why_tests_cant": "algebraic identity over all data", "anchors": ["gravity_toolkit/harmonics.py:harmonics.mean"]}
{"id": "C22", "title": "scale, drift and convolve are the documented linear maps", "statement": "harmonics.scale multiplies every coefficient by its factor (per date for a vector of factors on 2-D fields), scale(a) then scale(b) is scale(a*b); drift(t, epoch) equals (t-epoch) times the rate for each date; convolve multiplies every order of degree l by var[l]; scaling by a vector on a time series raises an error.", "quantifier": "every field, scale and date list", "why_tests_cant": "algebra over all inputs", "anchors": ["gravity_toolkit/harmonics.py:harmonics.scale", "gravity_toolkit/harmonics.py:harmonics.drift", "gravity_toolkit/harmonics.py:harmonics.convolve"]}
{"id": "C23", "title": "Cached complex form and amplitude", "statement": "The first read of harmonics.ilm / .amplitude returns clm - i*slm / the degree amplitude of the current coefficients; later reads return that same value even after the object has been modified in place by add, subtract, scale or convolve, so after a modification the cached value is stale unless never read before; copies start with an empty cache.", "quantifier": "every history of reads and in-place modifications", "why_tests_cant": "depends on histories, not on a single call", "anchors": ["gravity_toolkit/utilities.py:reify", "gravity_toolkit/harmonics.py:harmonics.ilm", "gravity_toolkit/harmonics.py:harmonics.amplitude"]}
{"id": "C24", "title": "The triangular masked-array layout loses nothing", "statement": "harmonics.to_masked_array places clm[l,m] at column lmax+m and slm[l,m] at column lmax-m of row l; distinct coefficients go to distinct cells, exactly the cells |column-lmax|<=min(l, mmax) are unmasked, and the coefficients can be read back.", "quantifier": "every lmax, mmax and coefficients", "why_tests_cant": "injectivity for every truncation", "anchors": ["gravity_toolkit/harmonics.py:harmonics.to_masked_array"]}
{"id": "C25", "title": "Degree amplitude is the root sum of squares over orders", "statement": "degree_amplitude(clm, slm, LMAX)[l] is sqrt of the sum over m<=min(l or MMAX) of clm^2+slm^2; it is nonnegative, zero iff the row is zero, homogeneous under scaling and satisfies the triangle inequality under addition.", "quantifier": "every coefficient arrays", "why_tests_cant": "real-analytic inequality over all inputs", "anchors": ["gravity_toolkit/degree_amplitude.py:degree_amplitude"]}
{"id": "C26", "title": "Masked grid cells hold the fill value and stay masked", "statement": "After spatial.update_mask (and every operation that ends with it) every masked cell holds the fill value and every cell holding the fill value or NaN is masked; the mask never shrinks; the operation is idempotent; offset and scale change valid cells only (a valid cell whose result is the fill value becomes masked); replace_masked and copy preserve the invariant; replace_invalid keeps it exactly when no valid cell holds the new fill value; power breaks it; with no fill value update_mask changes nothing.", "quantifier": "every grid, mask and fill value, every sequence of operations", "why_tests_cant": "an invariant over all operation histories", "anchors": ["gravity_toolkit/spatial.py:spatial.update_mask", "gravity_toolkit/spatial.py:spatial.replace_masked", "gravity_toolkit/spatial.py:spatial.replace_invalid", "gravity_toolkit/spatial.py:spatial.offset", "gravity_toolkit/spatial.py:spatial.scale"]}
{"id": "C27", "title": "flip and transpose are involutions", "statement": "spatial.flip along the latitude or longitude axis reverses data, mask and the matching coordinate together, so every cell keeps its coordinates, and applying it twice restores the object; transposing with the inverse axes restores the object; flipping along the time axis reverses the times but not the months, which separates months from their fields.", "quantifier": "every grid of any size", "why_tests_cant": "over all sizes and contents", "anchors": ["gravity_toolkit/spatial.py:spatial.flip", "gravity_toolkit/spatial.py:spatial.transpose"]}
{"id": "C28", "title": "Temporal statistics respect the mask", "statement": "spatial.mean/sum/max/min over time: a cell is masked in the result iff it is masked at some selected time or the statistic is the fill value; unmasked result cells are the arithmetic mean, sum, maximum or minimum of the selected times; removing the mean gives cells without NaN a zero mean over the same times, and in partly masked cells the fill value enters the removed mean.", "quantifier": "every spatial time series with any mask", "why_tests_cant": "over all masks and data", "anchors": ["gravity_toolkit/spatial.py:spatial.mean", "gravity_toolkit/spatial.py:spatial.sum", "gravity_toolkit/spatial.py:spatial.max", "gravity_toolkit/spatial.py:spatial.min"]}
{"id": "C29", "title": "Geocenter conversions are inverse to each other", "statement": "geocenter.from_cartesian undoes to_cartesian for every kl other than -1 and every nonzero radius, to_cmwe/to_mmwe agree up to the factor 10 and are undone by from_cmwe/from_mmwe; from_matrix undoes to_matrix; add/subtract are inverse; to_matrix places C10, C11, S11 at (1,0), (1,1) and zero elsewhere.", "quantifier": "every coefficients, kl, radius", "why_tests_cant": "algebraic inverse over all inputs", "anchors": ["gravity_toolkit/geocenter.py:geocenter.to_cartesian", "gravity_toolkit/geocenter.py:geocenter.from_cartesian", "gravity_toolkit/geocenter.py:geocenter.to_matrix", "gravity_toolkit/geocenter.py:geocenter.from_matrix"]}
{"id": "C30", "title": "plm_colombo computes the fully normalised associated Legendre functions", "statement": "For every LMAX>=1, MMAX and every x in (-1,1), plm_colombo(LMAX,x)[l,m] equals sqrt((2-delta_m0)(2l+1)(l-m)!/(l+m)!) (1-x^2)^(m/2) d^m/dx^m P_l(x) for m<=l<=LMAX, m<=MMAX (P_l by Rodrigues' formula), and 0 above the diagonal. At the poles order 0 is exact and order m carries eps^m in place of the true factor 0.", "quantifier": "every LMAX, MMAX, degree, order and every real x in [-1,1]", "why_tests_cant": "recursions of unbounded depth; tests compare a few degrees numerically", "anchors": ["gravity_toolkit/associated_legendre.py:plm_colombo"]}
{"id": "C31", "title": "The three Legendre algorithms agree", "statement": "plm_holmes and plm_mohlenkamp return the same functions and derivatives as plm_colombo for every LMAX>=2 and every x, poles included; in the open interval these are the specified fully normalised functions; the 1e-280 rescaling in plm_holmes cancels exactly. For LMAX<2 plm_holmes raises.", "quantifier": "every LMAX, degree, order and x", "why_tests_cant": "agreement for all degrees", "anchors": ["gravity_toolkit/associated_legendre.py:plm_holmes", "gravity_toolkit/associated_legendre.py:plm_mohlenkamp", "gravity_toolkit/associated_legendre.py:plm_colombo"]}
{"id": "C32", "title": "The returned derivatives are the derivatives", "statement": "The second output of the three routines is the derivative with respect to colatitude of the first (d plm / d theta with x = cos theta), for x in (-1,1).", "quantifier": "every degree, order and x in (-1,1)", "why_tests_cant": "analytic identity", "anchors": ["gravity_toolkit/associated_legendre.py:plm_colombo", "gravity_toolkit/associated_legendre.py:plm_holmes", "gravity_toolkit/associated_legendre.py:plm_mohlenkamp"]}
{"id": "C33", "title": "legendre_polynomials agree with the order-zero functions", "statement": "legendre_polynomials(lmax,x) returns sqrt(2l+1) P_l(x) with P_l from Rodrigues' formula for every x in [-1,1] (sqrt(2l+1) x^l at the poles), equal to order zero of plm_colombo in both outputs, and the second output is the derivative with respect to colatitude on (-1,1).", "quantifier": "every lmax and x", "why_tests_cant": "all degrees", "anchors": ["gravity_toolkit/legendre_polynomials.py:legendre_polynomials"]}
{"id": "C34", "title": "Clenshaw summation equals the direct sum", "statement": "For every LMAX>=1, all coefficients, degree factors and every latitude and longitude, clenshaw_summation returns the direct sum over l and m<=l of f_l * P_lm(cos theta) (clm cos m phi + slm sin m phi); the internal 1e-280 scaling cancels; sine coefficients of order 0 have no influence; between the poles it equals stokes_summation. With LMAX=0 (the default) the result is (1+sqrt(3) sin theta) f_0 C_00 instead of f_0 C_00.", "quantifier": "every LMAX, coefficients, points", "why_tests_cant": "backward recursion of unbounded depth", "anchors": ["gravity_toolkit/clenshaw_summation.py:clenshaw_summation", "gravity_toolkit/clenshaw_summation.py:clenshaw_s_m", "gravity_toolkit/sea_level_equation.py:clenshaw_s_m"]}
{"id": "C35", "title": "harmonic_summation is the truncated spherical harmonic sum and linear", "statement": "harmonic_summation(clm,slm,lon,lat) at each point equals the sum over LMIN<=l<=LMAX, m<=MMAX of plm[l,m](clm cos m phi + slm sin m phi); it is linear in the coefficients, coefficients outside the window have no influence, shifting longitude by 360 degrees changes nothing; stokes_summation is the same sum after scaling degree l by the unit factor and Gaussian weight.", "quantifier": "every coefficients, truncation window and points", "why_tests_cant": "linear identity over all inputs", "anchors": ["gravity_toolkit/harmonic_summation.py:harmonic_summation", "gravity_toolkit/harmonic_summation.py:stokes_summation"]}
{"id": "C36", "title": "Gaussian smoothing weights are the Legendre coefficients of the Gaussian", "statement": "For LMAX >= 1 and a radius hw >= CUTOFF that is not a multiple of the circumference, gauss_weights(hw, LMAX) returns 1/(2 pi) times the Legendre coefficients of exp(-b(1-cos a)) relative to degree 0, with b = ln 2/(1-cos(hw/6371)) so that hw is the half width; from degree 2 on each value is the larger of that coefficient and CUTOFF. Hence the weights are positive, strictly decreasing until they reach CUTOFF, at most 1/(2 pi), and obey the Jekeli recursion until they first fall below CUTOFF. hw < CUTOFF gives 1/(2 pi) for every degree; LMAX=0 with a positive radius raises.", "quantifier": "every radius, LMAX and cutoff", "why_tests_cant": "loop invariants over all LMAX", "anchors": ["gravity_toolkit/gauss_weights.py:gauss_weights", "gravity_toolkit/gen_averaging_kernel.py:gen_averaging_kernel"]}
{"id": "C37", "title": "Conversion from space to harmonics is linear in the data", "statement": "gen_stokes, gen_harmonics (integration) and gen_point_load return the cell-by-cell (point-by-point) sums of data times the fully normalised associated Legendre functions and cos/sin of longitude, truncated to LMIN..LMAX and m<=min(l,MMAX): they are linear in the data, zero for zero data, unaffected by adding multiples of 360 degrees to longitudes (if the first two longitudes get the same multiple; otherwise the grid step is misread and the result scaled), independent of the orientation of a non-square array, and consistent under truncation; groups of points add up, a single point raises, and a grid in gigatonnes gives the same harmonics as its cells as point masses.", "quantifier": "every grid, data set and truncation", "why_tests_cant": "linearity over all inputs", "anchors": ["gravity_toolkit/gen_stokes.py:gen_stokes", "gravity_toolkit/gen_harmonics.py:gen_harmonics", "gravity_toolkit/gen_point_load.py:gen_point_load"]}
{"id": "C38", "title": "Disc loads and spherical caps have the documented degree factors", "statement": "gen_disc_load/gen_spherical_cap return the harmonics of a uniform spherical cap: for degree l the factor is (2l+1)/2 times the integral of P_l from cos(alpha) to 1, times the associated Legendre function at the centre and cos/sin of m times the longitude, times the unit factors, and 0 above the truncation. A disc given in Gt conserves its mass exactly at every truncation; a cap given in Gt is spread over the flat area pi*(alpha R)^2 and so keeps only the fraction 2(1-cos alpha)/alpha^2 < 1. Moving the load by d degrees of longitude rotates (clm,slm) by m*d; the result is linear in the data; MMAX=0 without precomputed PLM raises.", "quantifier": "every alpha, position and truncation", "why_tests_cant": "all degrees and angles", "anchors": ["gravity_toolkit/gen_disc_load.py:gen_disc_load", "gravity_toolkit/gen_spherical_cap.py:gen_spherical_cap"]}
{"id": "C39", "title": "Destriping leaves low orders alone, is linear and removes smooth stripes", "statement": "destripe_harmonics leaves orders below 5, orders above MMAX and degrees outside m..LMAX unchanged; for every filtered order and degree parity with at least 2n+1 degrees (n = 15 exp(-m/10) rounded or truncated, between 2 and 15) each coefficient has the unique least-squares quadratic over its window of 2n+1 same-parity coefficients subtracted (windows at the ends stay inside and are evaluated off centre); with fewer degrees the coefficient becomes 0 by default and is left alone with NARROW (the opposite of the documented NARROW), so in the default call the last orders are always zero. It is linear, depends only on the same order and parity, removes every sequence quadratic in degree, and keeps shape and input.", "quantifier": "every coefficients, LMAX, LMIN and MMAX", "why_tests_cant": "linear filter over all windows", "anchors": ["gravity_toolkit/destripe_harmonics.py:destripe_harmonics"]}
{"id": "C40", "title": "Unit conversions are mutually consistent", "statement": "units.harmonic and units.spatial factors: mmwe = 10 cmwe, Pa = 100 mbar, cmVCU = 100 mVCU, mbar = g/1000 cmwe at every degree; harmonic and spatial factors of water equivalent and gravity are reciprocal up to 4 pi (for geoid height a factor of ten is left over); harmonic does not depend on earlier calls while spatial keeps the harmonic factors of units it does not define; bycode maps each code 0..6 to the documented unit, accepts -7..-1 as positions from the end and raises otherwise; unknown names raise; total Earth mass equals GM/G and the radius has the volume of the ellipsoid.", "quantifier": "every degree, set of love numbers and unit", "why_tests_cant": "for all degrees and love numbers", "anchors": ["gravity_toolkit/units.py:units.harmonic", "gravity_toolkit/units.py:units.spatial", "gravity_toolkit/units.py:units.bycode"]}
{"id": "C41", "title": "The sea level equation conserves mass, stops and scales with the load", "statement": "sea_level_equation makes at most ITERATIONS passes and returns a field exactly when ITERATIONS >= 1 (well-posed problem), converged or not and without saying which; in the returned field the water balances the load exactly (grid integral = -C00 * Earth mass), land cells hold FILL_VALUE, and over the ocean it is the sea-surface response (Love numbers, polar motion feedback on degree 2 order 1) to the load and to a mass-balancing ocean layer plus a uniform shift. A multiple of the load gives that multiple of the field, no load gives zero, once converged more iterations change nothing. Centre-of-mass Love numbers (k1=-1) give no finite field.", "quantifier": "every load, land function, grid, Love numbers and iteration count", "why_tests_cant": "loop invariant over all iterations", "anchors": ["gravity_toolkit/sea_level_equation.py:sea_level_equation"]}
{"id": "C42", "title": "Mascon averages and grids", "statement": "to_gsfc gives each mascon the cos(latitude)-weighted mean of exactly the grid cells inside its half-open latitude/longitude box (longitudes up to full turns, centres in either convention, polar mascons all longitudes) on a -180..180 grid: constants are preserved and the value lies between the extremes; a mascon without cells is NaN; on a 0..360 grid western mascons are always NaN. to_jpl divides the weighted mean once more by the number of latitude rows, so a constant is preserved only by mascons one row high. from_gsfc/from_jpl give every cell the value of the last mascon containing it, zero otherwise, and for disjoint mascons averaging the gridded values returns them (GSFC) or returns them divided by the number of rows (JPL).", "quantifier": "every grid and mascon set", "why_tests_cant": "over all geometries", "anchors": ["gravity_toolkit/mascons.py:to_gsfc", "gravity_toolkit/mascons.py:to_jpl", "gravity_toolkit/mascons.py:from_gsfc", "gravity_toolkit/mascons.py:from_jpl"]}
{"id": "C43", "title": "Longitude wrapping and grid shifting are rotations", "statement": "wrap_longitudes returns a longitude in (-180,180] congruent to the input modulo 360, unchanged if already there; shift_grid moves columns and longitudes together: every output column is an input column with its longitude, moved west by one period or not at all, starting from the nearest longitude to lon0 (first on a tie); without a repeated end column each row is a rearrangement of its input row; an increasing axis stays increasing; when the first longitude is the nearest one every call raises.", "quantifier": "every longitude / grid", "why_tests_cant": "modular arithmetic over all reals", "anchors": ["gravity_toolkit/tools.py:wrap_longitudes", "gravity_toolkit/tools.py:shift_grid"]}
{"id": "C44", "title": "Love number reference frame changes keep relative quantities and compose", "statement": "read_love_numbers: values of the file come back unchanged below its last degree (degree 1 apart), missing degrees are on the straight line between their neighbours, a missing degree 0 repeats the first line, and from the last degree of the file on the result is the straight line through the two degrees before it (so the last line itself is not used); truncation inside a gap repeats the last line instead of interpolating. A frame change touches degree 1 only, by the same amount for h, k and l; CF, CL and CH null h+2l, l and h, CM lowers k by one (1+k1=0 when k1=0), CE changes nothing, unknown frames raise; CF, CL, CH can be reached through any frame but CM and CE cannot; reading in a frame is reading in CE and transforming.", "quantifier": "every love number table, LMAX and reference", "why_tests_cant": "all tables and truncations", "anchors": ["gravity_toolkit/read_love_numbers.py:read_love_numbers", "gravity_toolkit/read_love_numbers.py:love_numbers"]}
{"id": "C45", "title": "url_split and joining are inverse", "statement": "url_split returns for every string that does not begin with two slashes and never for one that does; a url is split into scheme-plus-host and its path components, a relative path into its components, an absolute path likewise without its leading slash; joining the parts of a url or relative path gives it back; s3_bucket and s3_key return host and remaining path of an s3 url (only with a lower-case scheme), and a url without key raises.", "quantifier": "every URL string", "why_tests_cant": "termination and round trip over all strings", "anchors": ["gravity_toolkit/utilities.py:url_split", "gravity_toolkit/utilities.py:s3_bucket", "gravity_toolkit/utilities.py:s3_key"]}
{"id": "C46", "title": "create_unique_file never opens an existing file", "statement": "create_unique_file returns a handle to a path that did not exist, whose name is the requested one or the one with the smallest free counter suffix, leaves all existing files untouched, terminates when finitely many files exist (and never when every open fails, e.g. in a missing directory), and concurrent callers never receive the same path.", "quantifier": "every directory content and every interleaving of callers", "why_tests_cant": "schedules of concurrent processes", "anchors": ["gravity_toolkit/utilities.py:create_unique_file"]}
{"id": "C47", "title": "even and ceil rounding", "statement": "even(v) is the largest even integer not greater than v; ceil(v) is the smallest integer not less than v.", "quantifier": "every real v", "why_tests_cant": "all reals incl. negatives", "anchors": ["gravity_toolkit/utilities.py:even", "gravity_toolkit/utilities.py:ceil"]}
{"id": "C48", "title": "Downloads are idempotent and never leave a stale hash mismatch", "statement": "from_http/from_ftp/from_drive return a buffer holding the remote contents, write the local file only when its hash differs from the expected one and leave other files untouched; with the hash of the local file as expectation the local file ends up equal to the remote one and a second call does not write; interrupted at any point the local file holds a leading part of the remote one and the next call repairs it; copy puts the source contents at the destination and removes the source only for moves; listings keep names and modification times aligned, filtered and sorted.", "quantifier": "every file system, remote contents and hash", "why_tests_cant": "histories of downloads", "anchors": ["gravity_toolkit/utilities.py:from_http", "gravity_toolkit/utilities.py:from_ftp", "gravity_toolkit/utilities.py:http_list", "gravity_toolkit/utilities.py:cmr"]}
{"id": "C49", "title": "CMR pagination", "statement": "The CMR query returns the concatenation in order of all pages before the first one without links or without search-after header, whose own entries are dropped; a response without feed raises; it goes on as long as pages have links and header. Names and times of a page match; urls match them only if every entry has a link of the requested kind, otherwise later urls shift against their names.", "quantifier": "every sequence of response pages", "why_tests_cant": "unbounded sequence of pages", "anchors": ["gravity_toolkit/utilities.py:cmr", "gravity_toolkit/utilities.py:cmr_filter_json"]}
{"id": "C50", "title": "Least-squares regression decomposes the data", "statement": "tsregress.regress: the modelled series is the (weighted) least-squares projection of the data on the space spanned by polynomials up to ORDER, sines and cosines of CYCLES and TERMS, independent of the RELATIVE epoch; data = model + residual and model = simple + season; the residual is (weighted-)orthogonal to that space; data generated by coefficients return these coefficients; R2 <= 1, in [0,1] without weights and 1 only for a perfect fit; equal weights give the unweighted fit; errors are the propagated ones (square root of the covariance diagonal times the data error); LOGLIK is the maximal Gaussian log-likelihood; it raises exactly for rank-deficient designs or WEIGHT/DATA_ERR mismatch; WSSE squares the weights.", "quantifier": "every time series, polynomial order, cycles and weights", "why_tests_cant": "optimality over all alternatives", "anchors": ["gravity_toolkit/time_series/regress.py:regress"]}
{"id": "C51", "title": "Piecewise regression slopes add up", "statement": "piecewise: the simple model is two straight lines meeting at the break time whose trends are beta[1] and beta[2]; for a break index and increasing times the change column is max(0,t-t_break); for a break time the index is the first nearest sample and the column is max(0,t-t_break) except at that sample, where it is t-t_break even if negative; no break or an index out of range raises; the weighted error of the second trend leaves out twice the covariance; with one known error the reported errors are variances, not standard errors.", "quantifier": "every series and breakpoint", "why_tests_cant": "identity for all breakpoints", "anchors": ["gravity_toolkit/time_series/piecewise.py:piecewise"]}
{"id": "C52", "title": "smooth: lengths, exact decomposition and reproduction of its model", "statement": "smooth(MOVING=True) returns n-2H values at the inner times, each the mean of the two 2H-sample means, so it reproduces constants and straight lines at equally spaced times, removes signals of period 2H and stays within the bounds of the data. The Loess smoother returns n-2H values (the weighted one n): data + seasonal + noise is the input, seasonal = annual + semi-annual with the returned amplitude and phase, each window is fitted by least squares and data of the form constant + trend + annual + semi-annual are decomposed exactly; it raises exactly when a window does not determine the six coefficients (always for H<=2).", "quantifier": "every series and half-width", "why_tests_cant": "all lengths", "anchors": ["gravity_toolkit/time_series/smooth.py:smooth"]}
{"id": "C53", "title": "Savitzky-Golay filter is the derivative of the best-fitting polynomial", "statement": "savitzky_golay raises exactly for an even window, one shorter than ORDER+2, too few samples or DERIV > ORDER; it returns n-WINDOW+1 values at the inner times, each RATE**DERIV times the DERIV-th derivative at the central time of the least-squares polynomial of degree <= ORDER of the window (the padding has no effect), hence reproduces polynomials of degree <= ORDER exactly; the error is the propagated sample error.", "quantifier": "every window, order, series", "why_tests_cant": "all windows and polynomials", "anchors": ["gravity_toolkit/time_series/savitzky_golay.py:savitzky_golay"]}
{"id": "C54", "title": "amplitude converts to amplitude and phase of the same wave", "statement": "amplitude(bsin,bcos) returns (A,phi) with A>=0, A^2=bsin^2+bcos^2 and bsin sin t + bcos cos t = A sin(t + phi) for all t.", "quantifier": "every pair of reals", "why_tests_cant": "trigonometric identity over all reals", "anchors": ["gravity_toolkit/time_series/amplitude.py:amplitude"]}
{"id": "C55", "title": "Land and ocean functions complement each other", "statement": "land_stokes and ocean_stokes integrate over the grid the land function (1 for codes 1 to 3, 0 elsewhere) and one minus it: their harmonics add up to those of the constant 1, the degree 0 coefficients are non-negative. SIMPLIFY turns into water exactly the land cells with at most one of their four neighbours on land (longitudes cyclic; at the first and last latitude the adjacent row counts twice), once, and changes nothing else. A mask with as many longitudes as latitudes is transposed.", "quantifier": "every mask, grid shape, truncation and Love numbers", "why_tests_cant": "linearity over all masks", "anchors": ["gravity_toolkit/ocean_stokes.py:ocean_stokes", "gravity_toolkit/ocean_stokes.py:land_stokes"]}
{"id": "C56", "title": "Moving-average of weekly solutions", "statement": "convert_weekly returns for each date the mean of the values of the NEIGHBORS nearest daily samples: constants are preserved, the value lies between the smallest and the largest weekly value, and it does not depend on samples farther away than those used.", "quantifier": "every weekly series, date list and neighbour count", "why_tests_cant": "over all data", "anchors": ["gravity_toolkit/read_SLR_harmonics.py:convert_weekly"]}
{"id": "C57", "title": "ASCII output read back restores the coefficients", "statement": "harmonics.from_ascii of the lines written by harmonics.to_ascii (without dates) restores lmax, mmax and every coefficient clm[l,m], slm[l,m] with m<=l up to the rounding of the printed number, and zero above the diagonal.", "quantifier": "all objects, all degrees and orders, every printing precision", "why_tests_cant": "The claim ranges over all truncations and all coefficient values; tests use one sample file.", "anchors": ["gravity_toolkit/harmonics.py:to_ascii", "gravity_toolkit/harmonics.py:from_ascii"]}
{"id": "C58", "title": "Scaling factors are the least-squares gain and their error", "statement": "scaling_factors.kfactor returns in every cell valid in both series the factor sum(x y)/sum(x^2), which minimises sum (k x - y)^2; its error is the RMS of k x - y provided k x is neither zero nor equal to y at any date, and is reported as zero as soon as one date has k x = 0 or k x = y.", "quantifier": "every pair of grid series, every cell", "why_tests_cant": "the loss of the error needs an exact zero at one date; tests use random fields", "anchors": ["gravity_toolkit/spatial.py: scaling_factors.kfactor, spatial.sum, spatial.scale, spatial.offset"]}
{"id": "C59", "title": "copy isolates, flip does not", "statement": "No in-place operation on the result of spatial.copy changes the original; spatial.flip returns an object whose data and mask share memory with the original: writing a cell of the result changes the mirrored cell of the original, and flip itself masks and fills NaN cells of the original.", "quantifier": "every object, axis, and every sequence of in-place operations on the copy", "why_tests_cant": "aliasing shows only for particular later writes", "anchors": ["gravity_toolkit/spatial.py: spatial.copy, spatial.flip, spatial.update_mask"]}
{"id": "C60", "title": "Degree-one files give every month its own coefficients", "statement": "geocenter.from_tellus of a file with k pairs of lines (order 0 then order 1) returns k dates; date j holds C10 and its error from the first line of pair j, C11, S11 and their errors, time and month from the second; a file whose last month lacks its order-1 line is rejected with an IndexError, another order with a ValueError.", "quantifier": "every number of months, all coefficients", "why_tests_cant": "files of arbitrary length; truncated files", "anchors": ["gravity_toolkit/geocenter.py: geocenter.from_tellus"]}
{"id": "C61", "title": "The FFT summation equals the direct summation on an equispaced circle", "statement": "harmonic_transform on phimax longitudes equally spaced from 0 to 360 returns harmonic_summation at every longitude (first and last equal) whenever MMAX+1<=phimax-1; with fewer longitudes higher orders are silently dropped.", "quantifier": "all degrees, orders, coefficients, Legendre arrays and numbers of longitudes", "why_tests_cant": "tests compare one grid; the equality must hold for every grid size and coefficient set", "anchors": ["gravity_toolkit/harmonic_summation.py:harmonic_transform"]}
{"id": "C62", "title": "Geostrophic currents are the geostrophic balance of the pressure field", "statement": "Off the equator and the poles, without smoothing, the zonal component of geostrophic_currents is p_theta/(2 Omega cos(theta) rho R) and the meridional component is the southward current -p_phi/(2 Omega cos(theta) rho R sin(theta)), where p is g times the surface mass of the coefficients; the zonal statement needs coefficients up to two degrees below LMAX and no degree-1 zonal coefficient (with one, the component is off by a stated non-zero amount). Smoothing multiplies the harmonics of both components. The fields are linear in the coefficients; the LMIN argument has no effect.", "quantifier": "all degree bounds, coefficients, love numbers, points", "why_tests_cant": "the absence of any effect of LMIN is a statement over all inputs", "anchors": ["gravity_toolkit/harmonic_gradients.py:geostrophic_currents"]}
{"id": "C63", "title": "legendre returns the associated Legendre functions of one degree", "statement": "legendre(l, x) returns for every order 0..l the functions of Abramowitz and Stegun (with (-1)^m), legendre(l, x, NORMALIZE=True) the fully normalised functions without the phase, the same as plm_holmes/plm_colombo, for every x in [-1,1] at which the sectoral power does not underflow, including both poles.", "quantifier": "every degree l >= 0, order m <= l, every x in [-1,1] without underflow", "why_tests_cant": "downward recursion over unbounded degree and a continuum of x; tests sample a few", "anchors": ["gravity_toolkit/legendre.py:legendre"]}
{"id": "C64", "title": "Harmonic analysis conserves mass and separates orders", "statement": "The degree-0 coefficient of gen_stokes / gen_point_load times the mass of the Earth equals the integrated mass of the input for every grid, set of points and truncation; on a regular global longitude grid with more than 2*MMAX meridians, analysing a synthesised field never mixes orders or cosine with sine terms: each coefficient depends only on coefficients of the same order, through the Gram matrix of the latitude grid.", "quantifier": "every grid, truncation, load and coefficient set; every number of meridians > 2*MMAX", "why_tests_cant": "quantifies over all grids, fields and truncations", "anchors": ["gravity_toolkit/gen_stokes.py:gen_stokes", "gravity_toolkit/gen_point_load.py:gen_point_load", "gravity_toolkit/harmonic_summation.py:harmonic_summation"]}
{"id": "C65", "title": "Tidal aliasing terms split at 2018", "statement": "aliasing_terms returns sine and cosine columns of the given period in days, one pair zero from 2018 on, one pair zero before; the pairs are mutually orthogonal and add up to the plain sine and cosine at every time.", "quantifier": "every time series and period", "why_tests_cant": "all times", "anchors": ["gravity_toolkit/time_series/fit.py:aliasing_terms"]}
{"id": "C66", "title": "Lomb-Scargle periodogram ranges, peak and significance", "statement": "lomb_scargle searches N evenly spaced frequencies between the ends of the given range; peak is the period with the largest power and smallest false-alarm probability; probabilities lie in [0,1]; the contour of level p is the power whose probability is p; the centroid lies within the periods; the Nyquist frequency is half the mean sampling rate; the result does not change under shifts of dates and positive affine changes of the data. (The code divides FREQUENCY by 2 pi instead of multiplying, so a frequency range is searched at f/(4 pi^2).)", "quantifier": "every series, range, N and level", "why_tests_cant": "all ranges and series", "anchors": ["gravity_toolkit/time_series/lomb_scargle.py:lomb_scargle"]}
{"id": "C67", "title": "Nearest-neighbour interpolation and surface masks", "statement": "interp_grid with order 0 returns at every output point, inside or outside the grid, the value of a node nearest along both axes, and the data themselves at the nodes; mask_oceans flags exactly the points whose nearest cell is land, small island, lake (if asked) or ice shelf (if asked), never ocean cells (contrary to its docstring); masking data only adds flags, puts the fill value under each flag and leaves the other values.", "quantifier": "every regular grid, output point and mask", "why_tests_cant": "all real coordinates including ties and points outside", "anchors": ["gravity_toolkit/tools.py:interp_grid", "gravity_toolkit/tools.py:mask_oceans"]}
{"id": "C68", "title": "Colour tables and tick levels", "statement": "from_cpt turns a table of n segments into n+1 nodes whose positions run from 0 to 1 in the order of the table with the start colour of each segment and the end colour of the last; tables without a segment or with a malformed line raise; the end colours of inner segments are ignored; colour levels start at the lower limit, advance by the step and reach the upper limit by less than one step; the degree handler of the data widgets raises for every selection.", "quantifier": "every table, range and step", "why_tests_cant": "all tables", "anchors": ["gravity_toolkit/tools.py:from_cpt", "gravity_toolkit/tools.py:colormap.levels", "gravity_toolkit/tools.py:widgets.set_max_degree"]}
{"id": "C69", "title": "Argument files", "statement": "convert_arg_line_to_args yields the words of a line before the first #, each non-empty and without white space, so words written with spaces between them are read back and comments are ignored.", "quantifier": "every line", "why_tests_cant": "all strings", "anchors": ["gravity_toolkit/utilities.py:convert_arg_line_to_args"]}
{"id": "C70", "title": "The averaging kernel minimises leakage plus measurement error", "statement": "gen_averaging_kernel returns, for every exact kernel with non-zero degree-0 coefficient, every error model, non-zero signal amplitude, Gaussian radius, truncation and cutoff, coefficients each of which is the only minimiser of (signal variance)(w - g/area)^2 + e^2 w^2, where the signal variance of a degree is the Gaussian correlation coefficient of that degree scaled so that the normalised kernel has variance sigma^2, and where the correlation coefficients are the Legendre coefficients of the Gaussian (cut off from below from degree 2 on). Error-free coefficients are exact; no coefficient is enlarged, changes sign or is zeroed within the truncation; those beyond it are 0; larger errors or a smaller signal damp more; multiplying the exact kernel by a constant changes nothing; LMAX=0, UNITS=0 without love numbers and unknown unit codes raise, nothing else does.", "quantifier": "all real coefficient arrays, error arrays, sigma, radii, LMAX, MMAX, cutoffs, unit codes and love numbers", "why_tests_cant": "optimality is a statement about all competing coefficients, and it has to hold for every kernel and error model, not for sampled ones", "anchors": ["gravity_toolkit/gen_averaging_kernel.py: gen_averaging_kernel"]}
{"id": "C71", "title": "Fourier coefficients of Legendre functions", "statement": "For every even maximum degree from 4 (orders to the same bound) fourier_legendre returns, for every degree and order, coefficients whose cosine series (even orders) or sine series (odd orders) in the colatitude equals the fully normalised associated Legendre function at every colatitude; frequencies of the other parity are zero; odd or smaller maximum degrees raise.", "quantifier": "every even lmax >= 4, every degree, order and colatitude", "why_tests_cant": "the recursions run over the degree, order and frequency; equality holds at every real colatitude", "anchors": ["gravity_toolkit/fourier_legendre.py:fourier_legendre"]}
{"id": "C72", "title": "Gradients of spherical harmonic fields", "statement": "The meridional table of legendre_gradient is the Fourier series of minus the colatitude derivative of the Legendre functions over sqrt(l(l+1)); harmonic_gradients is linear; the documented claim that its outputs are the zonal and meridional gradients is refuted: the meridional output is the derivative of the field with coefficients (S,-C), zero for every zonal field, and sectoral terms of the zonal table from degree 2 are half of what they should be.", "quantifier": "every even LMAX >= 4, all coefficients, every longitude and colatitude", "why_tests_cant": "derivatives at every point for all coefficients", "anchors": ["gravity_toolkit/fourier_legendre.py:legendre_gradient", "gravity_toolkit/harmonic_gradients.py:harmonic_gradients"]}
{"id": "C73", "title": "Fourier analysis undoes synthesis", "statement": "gen_harmonics with METHOD='fourier' applied to the grid that harmonic_summation computes from coefficients returns exactly those coefficients, for every even LMAX from 4, every regular global longitude grid with more than 2 LMAX meridians and more than LMAX cell-centred latitudes in either direction; it is linear on every grid it accepts; grids reaching only one pole and odd MMAX raise; on grids with both poles the constant field is not recovered, for every resolution.", "quantifier": "all coefficients, all LMAX, LMIN, all grids of the stated kind", "why_tests_cant": "exactness for all band limited fields and grid sizes needs orthogonality, not samples", "anchors": ["gravity_toolkit/gen_harmonics.py:fourier", "gravity_toolkit/gen_harmonics.py:gen_harmonics", "gravity_toolkit/harmonic_summation.py:harmonic_summation", "gravity_toolkit/fourier_legendre.py:fourier_legendre"]}
{"id": "C74", "title": "Geocenter from gravity fields and the ocean", "statement": "calc_degree_one solves, for every month, the balance of Swenson et al. (2008): the ocean mass of the returned degree one and the observed higher degrees has the degree one moments of a uniform layer holding minus the mass on land (plus the ocean bottom pressure term). It succeeds exactly if the ocean does not lie in a plane through the centre; every series it returns has zero mean over the months; on a global grid each pass shrinks the error to the balanced geocenter by the same factor below one, whatever the starting series, so the iteration has one fixed series, which is the balanced geocenter (one exists for any observed coefficients) up to its mean; the solver options agree; an unknown or missing SOLVER is silently ignored and returns the corrections only.", "quantifier": "every land mask and grid, Love numbers, truncation, smoothing, number of months, observed coefficients, starting series and number of iterations", "why_tests_cant": "invertibility and contraction for every ocean geometry, and convergence for all data, are statements about all inputs", "anchors": ["scripts/calc_degree_one.py:calc_degree_one", "gravity_toolkit/gen_stokes.py:gen_stokes", "gravity_toolkit/gauss_weights.py:gauss_weights"]}
{"id": "C75", "title": "Mascon estimates are the best fit", "statement": "With FIT_METHOD=1 the mascon masses that calc_mascon writes are, for any data, those of the water layers with the smallest misfit in smoothed mass coefficients; if the corrected field is that of water layers on mascons the fit can tell apart, their exact masses are returned, by every solver; the masses are linear in the data and the corrections, depend only on degrees LMIN..LMAX and orders to MMAX, and the error is the root sum square of the responses to single coefficient errors. mascon_reconstruct undoes it: reconstructed fields reproduce such data, conserve mass if redistributed over the ocean, and a leakage run after removing them returns zero. The sensitivity kernels of calc_sensitivity_kernel measure exactly the estimated mass and are dual to the mascons. The counter arrays fit exactly if LMIN <= MMAX+1. FIT_METHOD=2 is refuted: it fits only the mean coefficient.", "quantifier": "every number and shape of mascons, every degree range, Love numbers, smoothing radius, data, corrections, least squares driver", "why_tests_cant": "least squares optimality and exact recovery range over all data and all mascon geometries", "anchors": ["scripts/calc_mascon.py:calc_mascon", "scripts/calc_sensitivity_kernel.py:calc_sensitivity_kernel", "scripts/mascon_reconstruct.py:mascon_reconstruct"]}
{"id": "C76", "title": "Satellite laser ranging files", "statement": "The readers gravity_toolkit.SLR.C20, C30, C40, C50 and CS2 choose the reader from the file name whatever the case, skip the header up to the product line (a file without one is refused), and return one entry for every line that has the coefficient, in the order of the file: the written numbers at the documented columns, times 1e-10 for errors, the date of the Modified Julian Day (to the full hour) or the written decimal year, and the nearest month to the start of the solution (day <= 14: the month itself, day >= 19: the next) adjusted for the special months, so that distinct months are unchanged. For PO.DAAC oblateness files the months are increasing and those of the file, with the starred line out of two. LARES anomalies are added to the mean, the de-aliasing means of CSR tables are removed when asked for. read_SLR_harmonics returns mean field plus scaled anomalies with errors in quadrature for every complete block of nineteen coefficients, and 7-day files give means over the 28 nearest days. Disagreements stated as theorems: a GSFC line with C30 but no C50 makes C50 fail, LARES tables of one row fail, PO.DAAC months with three lines give zeros, unknown CS2 names fail.", "quantifier": "every file name, header, number of lines, numbers as text with any sign, digits and exponent, flags, dates, scale", "why_tests_cant": "files are unbounded texts; tests read the few released products", "anchors": ["gravity_toolkit/SLR/C20.py:C20", "gravity_toolkit/SLR/C30.py:C30", "gravity_toolkit/SLR/C40.py:C40", "gravity_toolkit/SLR/C50.py:C50", "gravity_toolkit/SLR/CS2.py:CS2", "gravity_toolkit/read_SLR_harmonics.py:read_SLR_harmonics"]}
{"id": "C77", "title": "A glacial isostatic adjustment model is read at its degrees and orders", "statement": "read_GIA_model returns, for each of the known model types, every coefficient the file states up to the requested degree at exactly its degree and order, scaled to the geodesy normalization (1e-11 for IJ05-R2 and ICE6G, division by the Earth's radius in mm for Wu10), with zeros everywhere else; reading to a smaller degree gives the leading block of reading to a larger one; the sizes of the tables follow LMAX (or the documented default of the model) and MMAX; the title is composed of the model name and the parameters in the file name; a missing file, an unusable file name, missing headers or a table that is too short raise instead of returning partial coefficients; a type that is not known returns zeros.", "quantifier": "all files (as sequences of characters in the format of the type, numbers with or without decimal points, E or D exponents, header lines without digits), all degrees LMAX and orders MMAX, all file names of the documented patterns", "why_tests_cant": "the formats differ in ordering (pairs of orders per line, flat columns, signed orders, two header parts) so that an index error shows only at some degrees; tests read one sample file per type", "anchors": ["gravity_toolkit/read_GIA_model.py:read_GIA_model", "gravity_toolkit/read_GIA_model.py:gia.from_GIA"]}
{"id": "C78", "title": "A geocenter file is read date by date with the documented units and months", "statement": "For every file in the format of GFZ GravIS, of CSR satellite laser ranging, of Swenson, of GRACE Tellus (TN-13) or of this package (UCI), the reader returns one date per data line (two lines for Tellus), in file order, with C10, C11 and S11 (and their errors where there are any) equal to the numbers of the stated columns in the stated units: GravIS errors times 1e-10, cartesian displacements divided by the radius of the object and sqrt(3), Swenson values from millimetres of water equivalent; dealiasing, when removed, is the mean of the coefficients in the file of that month. Months follow from the dates and are adjusted for the special months; dates taken through Julian days get the month of the day before. What calc_degree_one writes is read back up to the rounding of its format. Files without the end of their header, with times outside of the month, or without a named column are refused. from_SLR cannot be called with its default release and never finds the dealiasing files that aod1b_geocenter writes.", "quantifier": "all files (as lists of lines of characters), all numbers of lines, column namings, radii, releases, years, months and header lengths", "why_tests_cant": "the files, their lengths and numbers are unbounded; the parsing of text into columns and dates has to be right for every line", "anchors": ["gravity_toolkit/geocenter.py: geocenter.from_gravis, from_SLR, from_AOD1B, from_UCI, from_swenson, from_tellus", "scripts/aod1b_geocenter.py: aod1b_geocenter", "scripts/calc_degree_one.py: print_variables, calc_degree_one"]}
{"id": "C79", "title": "Mirrored directories", "statement": "The programs that mirror remote directories write exactly the files they name (with --list they write nothing and name the same files), leave all other files alone, and find nothing to do in a second run. After any history of new listings and uninterrupted runs a run leaves a copy of every remote file, as long as replaced files are newer by two seconds and contents do not collide under the hash. An interruption at any point leaves complete copies before, untouched files after, and of the file being written a leading part with the time of the clock; runs with --checksum or --clobber repair any local state. False without those options: a truncated copy (interrupted, or a short read) is kept by all later runs until a newer version appears; interrupted copies of archive members (CNES) are kept, or make every later run raise; monthly archives never get files published later; the Swarm listing stops at the first page that is not full. Degree one and SLR files of podaac_cumulus are replaced in every run.", "quantifier": "every history of listings, runs and interruptions, every option, every division of the contents into pieces, every hash", "why_tests_cant": "histories and crash points", "anchors": ["scripts/gfz_isdc_grace_ftp.py: ftp_mirror_file", "scripts/gfz_icgem_costg_ftp.py: ftp_mirror_file", "scripts/gfz_isdc_dealiasing_ftp.py: gfz_isdc_dealiasing_ftp, ftp_mirror_file", "scripts/podaac_cumulus.py: http_pull_file, s3_pull_file", "scripts/itsg_graz_grace_sync.py: http_pull_file", "scripts/esa_costg_swarm_sync.py: esa_costg_swarm_sync, http_pull_file", "scripts/cnes_grace_sync.py: gzip_copy_file"]}
{"id": "C80", "title": "Names and index of GRACE files", "statement": "The expression made by compile_regex_pattern accepts exactly the documented names: for Release-06 fields the product, two dates, mission, center, solution, release and version that were asked for; for the releases 4 and 5, laser ranging, CNES and dealiasing products the corresponding forms, compressed or not; it raises exactly for an unknown mission, center or product or a laser-ranging release without number. parse_grace_file returns the dates of a name exactly if there are two seven-digit dates after -2_ and a center and a number behind, taking the first such place, and reduce_by_date reads the version behind the release. The index made from a directory is sorted, contains only files of the product, exactly one for each of the dates, always of the newest version, and does not depend on the order of the listing unless two files have the same dates and version. Violated: without mission (the default) Release-06 names are never accepted; with a mission dealiasing products of older releases are never accepted; the patterns of the releases 4 and 5 ignore the mission, so the two download programs list every file twice, and make_grace_index always raises for Release-05 fields of GFZ (005a); compressed and uncompressed copies make the index depend on the listing order.", "quantifier": "every file name, every directory listing in every order, every mission, center, release, solution and version", "why_tests_cant": "names and directories are unbounded; the patterns backtrack", "anchors": ["gravity_toolkit/utilities.py: compile_regex_pattern", "gravity_toolkit/time.py: parse_grace_file, reduce_by_date", "gravity_toolkit/read_GRACE_harmonics.py: parse_file", "scripts/make_grace_index.py: make_grace_index", "scripts/gfz_isdc_grace_ftp.py: gfz_isdc_grace_ftp", "scripts/podaac_cumulus.py: podaac_cumulus"]}
{"id": "C81", "title": "Grids in text files", "statement": "spatial.to_ascii writes one line for every valid cell, row by row, with longitude, latitude, value and, if present or wanted, error and date, rounded to four decimals. Reading the file of a global grid with from_ascii (spacing and numbers of rows and columns, or bounds and numbers; date=False; any header) puts every value, rounded to four decimals, into its cell and restores the coordinates of rows and columns with values (with bounds: all coordinates). Violated or limited: cells without a value come back as unmasked zeros; with date=True (the default) every non-empty file fails; bounds with spacing always fail; rows are counted from the north pole, so regional grids fail; columns just west and east of Greenwich collide and a value is lost; an unmasked NaN with an error column reads the error as value.", "quantifier": "every grid, every pattern of masks and fill values, every spacing, header and list of columns", "why_tests_cant": "the grid, its values and the text of the file are unbounded", "anchors": ["gravity_toolkit/spatial.py: spatial.to_ascii, spatial.from_ascii, spatial.update_mask"]}
{"id": "C82", "title": "Grids in netCDF4 and HDF5 files", "statement": "A grid or series written with spatial.to_netCDF4 or to_HDF5 and read back with the same variable names has the same coordinates, times, fill value, values and mask, provided it has more than one row and column and, if it has a single date, is not square; its global attributes survive, and title, source, reference, units and long name given to the writer are those read. Violated or limited: a square grid of one date comes back transposed; a single-row series comes back as dates by columns, a single-column one raises; the mask of an object without fill value is lost; a series merged with from_list cannot be written; attributes given for only some variables are replaced by the defaults; writing with dates changes the shape of the object written and keeps the title in its attributes; without clobber an existing HDF5 file (or netCDF4 file with the same names) is never overwritten.", "quantifier": "every grid or series, mask, fill value, choice of names, attributes and previous content of the file", "why_tests_cant": "shapes, values, attribute dictionaries and file contents are unbounded", "anchors": ["gravity_toolkit/spatial.py: spatial.to_netCDF4, spatial.to_HDF5, spatial.from_netCDF4, spatial.from_HDF5, spatial.expand_dims, spatial.update_mask"]}
{"id": "C83", "title": "Spherical harmonics in text files", "statement": "An object written with harmonics.to_ascii and read back with from_ascii has the same maximum degree and order; each coefficient is the nearest number of thirteen significant digits (exactly the same if it has no more), coefficients above the order or degree are zero, the date is rounded to four decimals, and writing it again gives the same file. A file whose lines hold degree, order, cosine, sine and date in any order of lines and number format is read to the same coefficients. Violated or limited: the month read is that of the rounded date and not the month of the object; a cosine coefficient that is NaN takes the sine coefficient of its line while the sine coefficient becomes the date; without dates a file with a NaN cannot be read.", "quantifier": "every maximum degree and order, every coefficient, date and month, every file of coefficient lines", "why_tests_cant": "degrees, coefficients and texts are unbounded", "anchors": ["gravity_toolkit/harmonics.py: harmonics.to_ascii, harmonics.from_ascii"]}
{"id": "C84", "title": "Spherical harmonics in netCDF4 and HDF5 files", "statement": "A field or series written with harmonics.to_netCDF4 or to_HDF5 with dates and read back has the same maximum degree and order, coefficients (zero where the order exceeds the degree) and times; distinct months are kept; a series of a single date comes back as a field. Global attributes, title, source, reference, units and descriptions given to the writer are those read. Without clobber a file written before is not overwritten. Violated or limited: months with three or more fields become zero; a zonal field (order zero only) written without dates loses the order axis; a file written with another name for any variable (months_name, field_mapping) can be written but not read; attributes given per field are looked up per variable name, so renamed variables cannot be written; writing leaves the title in the attributes of the object.", "quantifier": "every degree, order, number of dates, coefficients, dates, months, attributes and previous content of the file", "why_tests_cant": "sizes, values, attribute dictionaries and file contents are unbounded", "anchors": ["gravity_toolkit/harmonics.py: harmonics.to_netCDF4, harmonics.to_HDF5, harmonics.from_netCDF4, harmonics.from_HDF5, harmonics.flatten, harmonics.expand, harmonics.expand_dims, harmonics.squeeze"]}
{"id": "C85", "title": "Series of spherical harmonics in index files", "statement": "A series written with harmonics.to_index to files of any of the three formats and read with from_index is the series of those dates for which file names were given, sorted by time, with the coefficients, times and (distinct) months of each date together (rounded for text files, where order and months are those of the rounded times); files below the home directory are found through their abbreviated names; other files are not touched; empty lines and lines beginning with # or % do not matter. More file names than dates raise; fewer silently drop the last dates; an unknown format writes only the index and cannot be read.", "quantifier": "every series, list of file names, home directory, file system and order of equal times", "why_tests_cant": "numbers of dates, names and file contents are unbounded", "anchors": ["gravity_toolkit/harmonics.py: harmonics.to_index, harmonics.from_index, harmonics.from_list, harmonics.index, harmonics.compressuser"]}
{"id": "C86", "title": "Monthly means and series from AOD1B archives", "statement": "Running scripts/dealiasing_monthly_mean.py for a release and product over the months of a date file: a month is listed in the output date file exactly if the archives hold a file for every calendar day from its first to its last day of the year; its output file is written exactly if it is missing, older than one of the daily files, or overwriting is asked for; it holds, for each degree and order up to the requested degree, the arithmetic mean over all fields of the product of those days (zero above the degree of the release), the mean date, the month number and the first and last day; other files are unchanged, and a second run without newer inputs changes none. The geocenter program writes one line per field with date, hour, X, Y, Z. Violated or limited: a month crossing from one year into the next raises an exception and ends the program; in the years at the turn of a century without leap day (2099, 2100) all days are one too early; a daily file with too few fields makes the program loop forever; the oblateness program writes only the first four of the eight hours of release 6.", "quantifier": "every list of months, set of archives, content of the daily files, requested degree, previous output files and their modification times", "why_tests_cant": "archives, field values, dates and file histories are unbounded", "anchors": ["scripts/dealiasing_monthly_mean.py: dealiasing_monthly_mean, calc_julian_day", "scripts/aod1b_geocenter.py: aod1b_geocenter", "scripts/aod1b_oblateness.py: aod1b_oblateness"]}
{"id": "C87", "title": "Dates in the names of gfc files", "statement": "parse_gfc_file finds in the name of a monthly file from Graz (any prefix, product, truncation, in letters of any case) and of a Swarm dealiasing model the first and the last second of the month, and in the name of a Swarm gravity field the two dates as dateutil reads them; grace_date gives such a file the number of its calendar month and, as decimal date, the middle of its first and last instant; whenever read_gfc_harmonics finds dates, they are those of parse_gfc_file and the time is the one of grace_date, and its Julian dates are the calendar's. Violated or limited: month 00 is taken with the length of December; a span that ends in March or later of the next year, one of the years being a leap year, is dated half a day off; read_gfc_harmonics never reads a Swarm model and no name in a wrong case; from_gfc(date=True) always raises.", "quantifier": "every file name of the described forms (any numbers, any letter case), every name for the agreement of the two readers", "why_tests_cant": "names, years, months and time spans are unbounded", "anchors": ["gravity_toolkit/time.py: parse_gfc_file", "gravity_toolkit/read_gfc_harmonics.py: read_gfc_harmonics", "gravity_toolkit/grace_date.py: grace_date", "gravity_toolkit/harmonics.py: from_gfc"]}
{"id": "C88", "title": "Independence of harmonics objects", "statement": "Whatever sequence of harmonics methods (zeros, copy, index, subset, scale, power, drift, from_list, mean, add, subtract, multiply, divide, convolve, truncate, expand_dims, squeeze, to_dict, from_dict) and assignments of coefficients a program runs, its results, including the exception that ends it, are those of objects that own their coefficients: a method changes no object but the one it is called on, and a copy and its original never affect each other's coefficients or dates, also when an object is an operand of its own in-place operation. Limited: a dictionary from to_dict is no snapshot, it shows later in-place changes of the object until the object is truncated and then keeps the coefficients before truncation; copies share their file-level attributes for ever, so a title given when writing the copy changes the original.", "quantifier": "every program (sequence of calls of any length, on any objects with any sizes, dates and coefficients)", "why_tests_cant": "histories of calls and aliasing patterns are unbounded", "anchors": ["gravity_toolkit/harmonics.py: copy, zeros, index, subset, scale, power, drift, from_list, mean, add, subtract, multiply, divide, convolve, truncate, expand_dims, squeeze, to_dict, from_dict, to_netCDF4, to_HDF5"]}
{"id": "C89", "title": "Monthly maps of spherical harmonic fields", "statement": "grace_spatial_maps writes exactly one map per month of the data, to distinct files and with the date of the month; the value at every grid point is the spherical harmonic series (degrees LMIN..LMAX, orders up to MMAX) of the anomaly of that month (data minus mean file or minus temporal mean, filtered) minus the GIA rate times the time since 2003.3 minus the removed fields of the same month (with their mass compensated over the ocean if requested, filtered), each degree multiplied by smoothing weight and unit factor; hence a static field has no effect without mean file. A removed series lacking a month of the data ends the program. combine_harmonics gives the corresponding series for every date of its input. The global grids run from meridian to meridian and pole to pole, or through the cell centres. Limited: fields to be removed given as a single data file always end the program with an exception, redistribution over the ocean fails for a single month, combine_harmonics fails with a maximum order below the maximum degree and with a mean file for an index of inputs.", "quantifier": "all series of fields (any degrees, orders, dates, coefficients), mean files, GIA rates, lists of removed series, smoothing radii, unit factors and grid points", "why_tests_cant": "the composition of eight processing steps over unbounded inputs", "anchors": ["scripts/grace_spatial_maps.py: grace_spatial_maps", "scripts/combine_harmonics.py: combine_harmonics", "gravity_toolkit/harmonics.py: destripe, zeros_like, expand_dims"]}
{"id": "C90", "title": "Load Love number tables, output formats and the class", "statement": "From the text of a table of load Love numbers (any header lines, numbers with exponents in E, e or Fortran D, degree in the first column, increasing degrees) read_love_numbers returns each value of the table exactly at its degree (below the last degree), degree 1 changed by the frame, missing degrees interpolated; load_love_numbers reads a different table for each of the options 0..4 (other options raise) with its own order of columns, and the formats dict, tuple, zip and class hold the same three arrays of LMAX+1 degrees in the order hl, kl, ll; the class also names table, model, citation and frame, and converting an object to a dictionary and back keeps the numbers. Limited: objects, dictionaries and tuples share their arrays, so a change of frame through one changes all (to CM twice subtracts twice); a file ending with an empty line cannot be read; an unknown format returns None; with D exponents before the degree the maximum degree is misread.", "quantifier": "all table texts, column orders, maximum degrees, frames, formats, options and sequences of frame changes on shared arrays", "why_tests_cant": "texts, degrees and sharing patterns are unbounded", "anchors": ["gravity_toolkit/read_love_numbers.py: read_love_numbers, extract_love_numbers, love_number_formatter, load_love_numbers, love_numbers"]}
{"id": "C91", "title": "GRACE/GRACE-FO Level-2 files from name and text, and the dealiasing files the toolkit writes", "statement": "read_GRACE_harmonics of any file whose name has the Level-2 form takes product, center, release, mission and dates from the name (mascon and DDK files count as GSM), data lines from the marker (gfc for combined, DDK and .gfc files, otherwise GRCOF2) with degree, order, coefficients and errors by position whatever the spacing and number format, the last line of a degree and order counting, C00 being 1 if absent; the mid-date is the middle of the days and the Julian dates those of the first and last day; the header is YAML for GRACE from release 6 and for GRACE-FO, parameters for .gfc, lines otherwise. It succeeds exactly if the header can be parsed, drift rates occur only in RL04 GSM files, and the truncation reaches degree 2, order 1 when the pole tide is corrected. Names without dates, center or release and unknown products raise. dealiasing_monthly_mean's SHM files are read back under the name they are given: dates of the month, coefficients rounded to 13 significant digits, zero errors; to_SHM raises exactly for other products than GAA-GAD; the index lists sorted, each once, the names with the product and .gz. Limited: releases in the written names read as 100..600; the index regular expression also accepts names with .gz in the middle.", "quantifier": "all names, texts, header lines, number formats, truncations, months, coefficients", "why_tests_cant": "names and texts of files are unbounded", "anchors": ["gravity_toolkit/read_GRACE_harmonics.py: read_GRACE_harmonics, parse_file, extract_file", "scripts/dealiasing_monthly_mean.py: dealiasing.to_SHM, print_header, print_harmonic, print_global, print_variables, dealiasing_monthly_mean"]}
{"id": "C92", "title": "Error maps from the month to month noise of the coefficients", "statement": "grace_spatial_error, when there is no file with coefficient errors for the run, gives at every grid point the square root of the sum over the degrees LMIN..LMAX and orders up to MMAX of the squared unit factor, smoothing weight and Legendre function times the squared errors of the coefficients (cosine and sine parts), divided by the number of months used; the error of a coefficient is the root mean square, over the months with a half window (6, or 19 for CNES RL01/RL02) on both sides, of the difference to the least squares fit of constant, trend, annual and semi-annual cycle to its window of the filtered anomalies. It writes exactly one file with these errors and the number of months, and a later run with the same name uses them: netCDF4 and HDF5 give the same map for every smoothing radius, unit and grid. The result does not depend on the static field removed. Names of error files differ with degree, order, filter, correction, first or last month and format. Fewer than two half windows of months always raise. Deviations proved: a run with other degree-one, C20 or pole tide settings has the same name and uses the stale errors; with ascii files a repeated run divides by the month number of the mean date instead of the number of months.", "quantifier": "all data, dates, options, grids, units, radii, file systems", "why_tests_cant": "windows, degrees, grids and file systems are unbounded, histories of runs", "anchors": ["scripts/grace_spatial_error.py: grace_spatial_error"]}
{"id": "C93", "title": "Mean fields and the files in which they are kept", "statement": "grace_mean_harmonics gives the arithmetic mean of the coefficients of the months read, errors equal to the root of the mean of the squared errors (between the smallest and the largest of the months), and the mean date. The file in netCDF4 or HDF5 is always written, replacing an older one, and read as static field gives exactly the means; in ascii the means rounded to 13 significant digits. Maps of months made with the mean file of these months are the maps made without a mean file. A gfc file has a header and behind it one line for each degree and order with mean coefficients (13 digits) and errors (6 digits); its parameters are maximum degree, gravity constant, radius, errors and norm. Default names differ with degree, order, first and last month and format. Unknown formats raise. Deviation proved: the gfc file has no tide system, so harmonics.from_gfc, which the map programs use for gfc mean files, always raises.", "quantifier": "all months, coefficients, errors, truncations, old files, formats, names", "why_tests_cant": "coefficients, months and texts are unbounded; two programs must agree through a file", "anchors": ["scripts/grace_mean_harmonics.py: grace_mean_harmonics, mean.to_gfc, mean.print_header, mean.from_harmonics", "gravity_toolkit/harmonics.py: harmonics.mean, harmonics.from_gfc", "scripts/grace_spatial_maps.py: grace_spatial_maps"]}
{"id": "C94", "title": "Maps of trends and cycles", "statement": "regress_grace_maps reads the monthly maps under the names under which grace_spatial_maps writes them and gives for each cell the coefficients of the only least squares fit of powers of time (from the mean date) and of the given cycles and tidal aliases; with seasonal cycles first and then tides each file holds the coefficient of the function in its label, and exactly representable signals are recovered. The labels are right exactly for such an order of cycles. Errors are 95 percent confidence intervals; amplitude and phase maps show the wave of the sine and cosine maps; the last maps are the sum of squares, the information criteria and the adjusted coefficient of determination. Files do not overwrite each other unless a wave is given twice. The program succeeds exactly when the format is not text, all maps exist on one grid, the order is at most 2 and the functions are independent at the dates. piecewise_grace_maps does the same for two lines meeting at the date of the given month. Deviations proved: a tide before the annual cycle exchanges labels; without cycles the program always raises; the error of the second slope ignores the correlation.", "quantifier": "all maps, grids, months, orders, lists of cycles, break months", "why_tests_cant": "maps, months and cycles are unbounded; the least squares fit must be the best among all coefficients", "anchors": ["scripts/regress_grace_maps.py: regress_grace_maps", "scripts/piecewise_grace_maps.py: piecewise_grace_maps", "gravity_toolkit/time_series/regress.py: regress", "gravity_toolkit/time_series/piecewise.py: piecewise", "gravity_toolkit/time_series/amplitude.py: amplitude"]}
{"id": "C95", "title": "Scaled maps", "statement": "scale_grace_maps with a regular netCDF4 or HDF5 file of scaling factors writes three files under different names: at a cell with factor x each monthly map is x times the anomaly of the truncated series (in all degrees); the leakage error is the error of the factor times the ratio of the root of the sum of squares of the scaled maps and the magnitude in the file; the error is x times the map of grace_spatial_error, whose file of coefficient errors it shares. Cells without a valid factor hold -9999 in all three. For the maps from which best factor and magnitude were determined the leakage error is at most the error of the factor. Deviations proved: the minimum degree has no effect on the first two maps; with fields to be removed the program never succeeds; text files of factors cannot be used; on square grids the factors are transposed but their errors and magnitudes are not; files stored longitudes by latitudes cannot be read; zero magnitude gives 0 or -9999 times the error.", "quantifier": "all data, options, factor files, grids, states of the cached file", "why_tests_cant": "months, grids and fields are unbounded; the value must hold at every cell of every month", "anchors": ["scripts/scale_grace_maps.py: scale_grace_maps", "gravity_toolkit/spatial.py: scaling_factors.from_ascii, to_ascii, update_mask, spatial.from_netCDF4, from_HDF5, scale, replace_invalid, sum, power"]}
{"id": "C96", "title": "Maps converted to coefficients", "statement": "convert_harmonics with dates: the netCDF4 or HDF5 output, read back, holds one field per map in the order of the dates, each with the date of its map and the month of that date; its coefficients up to the maximum degree and order are the numerical integrals of the map against the true associated Legendre functions times the degree factors of the units, missing cells counting as zero; this holds in particular for maps written by the toolkit itself. Deviations proved: series on square grids give the coefficients of the transposed maps (single square maps are right because the reader transposes too); undated series of two or more maps raise IndexError; text files are never converted.", "quantifier": "all files of maps, grids, dates in any order, masks, units, maximum degrees and orders, existing output files", "why_tests_cant": "grids, series and degrees are unbounded; every coefficient of every map must be the integral", "anchors": ["scripts/convert_harmonics.py: convert_harmonics", "gravity_toolkit/spatial.py: from_netCDF4, from_HDF5, expand_dims, replace_invalid, __next__", "gravity_toolkit/gen_stokes.py: gen_stokes", "gravity_toolkit/harmonics.py: from_list, to_netCDF4, to_HDF5, to_ascii"]}
{"id": "C97", "title": "Maps of elastic uplift from AOD1B", "statement": "dealiasing_global_uplift, with netCDF4 or HDF5 output: for every archive of a wanted year whose map file is missing or older than the archive, the file made holds, for each field c of each daily file d, at position (d-1)*nt+c the map of the series with factors 10*rad_e*hl/(1+kl), dated in hours since the beginning of the month; all other files are unchanged and exactly the made files are returned. Deviations proved: days without a file silently become maps of zeros dated -24 h; text output always raises and leaves an empty file which later runs take as up to date; a daily file with too few fields makes the program loop forever; unknown releases and products raise before anything is read.", "quantifier": "all archives, daily files and their texts in any order of lines and products, years asked for, grids, Love numbers, existing output files and their times", "why_tests_cant": "number of archives, days and fields is unbounded; which files are touched must hold for every directory and history of runs", "anchors": ["scripts/dealiasing_global_uplift.py: dealiasing_global_uplift", "gravity_toolkit/units.py: harmonic", "gravity_toolkit/harmonics.py: expand, convolve", "gravity_toolkit/harmonic_summation.py: harmonic_summation", "gravity_toolkit/spatial.py: to_file, to_ascii"]}
{"id": "C98", "title": "Sea level fingerprints of a load file", "statement": "run_sea_level_equation: for a well-posed mask and Love numbers and at least one iteration, the output file holds one map per date of the load file with its date; each map is zero on land, lakes and islands (mask codes 1 to 3; ice shelves are ocean), holds exactly the water the load of its date has lost, and solves the sea level equation for that load up to degree LMAX. A map depends on nothing but the coefficients of its own date up to LMAX, and scales with the load. Text files list exactly the cells with a change and still hold all the water. Deviations proved: no series can be written as text, and none without dates to netCDF4 (the file is left unfinished); the offered frame CM gives no finite map.", "quantifier": "all masks, load files of any degree and number of dates, Love numbers, options and output formats", "why_tests_cant": "grid size, number of dates, degrees and iterations are unbounded; independence of dates ranges over all pairs of files", "anchors": ["scripts/run_sea_level_equation.py: run_sea_level_equation", "gravity_toolkit/sea_level_equation.py: sea_level_equation", "gravity_toolkit/harmonics.py: truncate, expand_dims, index", "gravity_toolkit/spatial.py: squeeze, update_mask, to_ascii, to_netCDF4, to_HDF5"]}
{"id": "C99", "title": "Extrapolation with a regression model", "statement": "regress_model: the values returned are those of one signal - a polynomial of degree at most ORDER plus waves of the given periods - that fits the data best; if the input dates determine such signals it is unique, so a signal of the model is continued exactly however far, the result is linear in the data, and neither the reference date (given or default) nor the origin of time has any effect. grace_input_months with MODEL_DEG1: months in the degree one file get its coefficients, all others exactly the modelled values at their own date, and nothing else changes. Deviations proved: the documented default CYCLES=None raises, and so does a single input date.", "quantifier": "all data, dates, output dates, orders, periods and reference dates; all degree one files and lists of months", "why_tests_cant": "a statement about all signals of an infinite family and all sets of dates; optimality quantifies over all competitors", "anchors": ["gravity_toolkit/grace_input_months.py: regress_model", "gravity_toolkit/grace_input_months.py: grace_input_months"]}
{"id": "C100", "title": "Index of GRACE months", "statement": "grace_months_index writes to GRACE_months.txt a header with the sorted names of all center/release datasets that have a date file and exactly one line for every month from April 2002 (004) to the last month of any dataset, labelled with month name and year; the column of a dataset shows first and last day of the file of that month exactly if its date file has the month, else '** missing **'. After run_grace_date the dates shown are those of the file that grace_date returns for the month. Deviations proved: a month twice in a date file, or a date file of a single line, ends the program with an exception - the months before are written, later ones lost; a date file without lines leaves the index empty.", "quantifier": "all sets of date files, releases, months and data files", "why_tests_cant": "the file covers all datasets and months at once, and the effects of one bad date file on the others appear only for particular combinations", "anchors": ["gravity_toolkit/grace_months_index.py: grace_months_index", "gravity_toolkit/grace_date.py: grace_date", "scripts/run_grace_date.py: run_grace_date"]}
{"id": "C101", "title": "Login to NASA Earthdata", "statement": "attempt_login: an opener that is returned carries credentials which the server accepted at the last check, after at most `retries` checks, all earlier ones rejected, and it is the opener of all later requests; a .netrc entry comes before the keywords and these before the environment, and only what is missing is asked for. get_token, list_tokens and revoke_token send their request only after an accepted login. Deviations proved: stored credentials that are rejected end in UnboundLocalError instead of a new question; the last pair typed is never checked; a failed login leaves the rejected opener installed; the token functions ignore the environment variables.", "quantifier": "all contents of .netrc, environment and keywords, all answers at the keyboard, all (also changing) behaviours of the server, all numbers of retries", "why_tests_cant": "the behaviour depends on the whole history of answers and rejections, and the failing paths need a server that rejects", "anchors": ["gravity_toolkit/utilities.py: attempt_login", "gravity_toolkit/utilities.py: build_opener", "gravity_toolkit/utilities.py: get_token", "gravity_toolkit/utilities.py: list_tokens", "gravity_toolkit/utilities.py: revoke_token"]}
{"id": "C102", "title": "Looping over the months of an object", "statement": "A for loop over a harmonics, spatial or geocenter series runs its body once for each month, in order, with the fields, date and number of that month, and a nested loop over a copy visits all pairs; len() is the number of months that a loop visits. Deviations proved: a nested loop over the same object visits only the pairs of the first month; looking at the first month (next(iter(obj))) inside a loop makes it endless; zip(obj, obj) pairs neighbouring months; a single field is skipped without notice; an undated series or a grid series without mask raises TypeError; fewer dates than fields is an IndexError for harmonics and spatial but a silent end for geocenter; len() of a single month is a TypeError and that of zeros_like is zero; str() of a series raises.", "quantifier": "all series lengths, all contents, all loop bodies that do not use the object, all fuel bounds on the number of rounds", "why_tests_cant": "the position of the loop is stored in the object, so the effect depends on everything that happens inside of the loop body", "anchors": ["gravity_toolkit/harmonics.py: __iter__, __next__, __len__, __str__, zeros_like", "gravity_toolkit/spatial.py: __iter__, __next__, __len__, __str__, zeros_like", "gravity_toolkit/geocenter.py: __iter__, __next__, __len__, __str__"]}
{"id": "C103", "title": "Monte Carlo uncertainties of the geocenter", "statement": "monte_carlo_degree_one: for every number of runs, months, data and random numbers the estimate is the mean and the error the root mean square spread of the runs, every run has mean zero over the months, the noise of each coefficient stays within the sum of the uncertainty fields, and the error is at most half the range of the runs; with a uniform ocean layer the errors depend only on grid, uncertainty fields and random numbers, not on the gravity data, GIA, atmosphere or seasonal start, and scale with the uncertainty fields. Deviation proved: without noise the estimate differs from that of calc_degree_one by (1 - 1/dfactor) times the degree one part of GIA and atmospheric correction, which is added back before the conversion from mass instead of after it.", "quantifier": "all grids, Love numbers, truncations, months, uncertainty fields, random numbers, numbers of runs", "why_tests_cant": "the result is random: properties must hold for every sequence of random numbers, and the missing restoration is hidden by the size of the factor", "anchors": ["scripts/monte_carlo_degree_one.py: monte_carlo_degree_one", "scripts/calc_degree_one.py: calc_degree_one"]}
{"id": "C104", "title": "Which collections and granules a CMR query asks for", "statement": "cmr_product_shortname has an answer exactly for the eleven available combinations of mission, level, center and release; GRACE Level-2 queries name one collection per product in order, without GAA and GAB of CSR. The granule pattern of cmr_readable_granules selects a Level-2 granule exactly if product and solution (BC01 for dealiasing products) agree and the version follows three characters after the solution, whatever dates, mission and center. Deviations proved: only the last digit of the version can be asked for; without product nothing is selected; a single product has a single collection, as the S3 test assumes, except GAA/GAB of CSR.", "quantifier": "all missions, centers, releases, levels, versions, products, solutions and granule names", "why_tests_cant": "the names are only compared on the server; tests would need every name in the archive", "anchors": ["gravity_toolkit/utilities.py: cmr_product_shortname, cmr_readable_granules, cmr", "scripts/podaac_cumulus.py"]}
{"id": "C105", "title": "Monthly fields on a projected grid", "statement": "grace_raster_grids: for every projection, grid, option and data the raster holds, for every cell and month, the spherical harmonic series (degrees LMIN..LMAX, unit factor and smoothing weight of each degree) of anomaly minus GIA minus removed fields of that month at the position of the cell, where the land function smoothed with twice the radius exceeds 0.025, and the fill value elsewhere; it agrees with the maps of grace_spatial_maps wherever a cell has the position of a grid point. Deviations proved: no raster with MMAX < LMAX; one column and one row outside the bounds; with different spacings the rows are displaced by (dx-dy)/2.", "quantifier": "all projections, bounds, spacings, options, months, fields and removed fields", "why_tests_cant": "the value of a cell is a sum of thousands of terms at an arbitrary point; only sample cells could be compared", "anchors": ["scripts/grace_raster_grids.py: grace_raster_grids", "gravity_toolkit/clenshaw_summation.py: clenshaw_summation"]}
{"id": "C106", "title": "The summary of a regression of a mascon series", "statement": "quick_mascon_regress: for every series, order, breakpoint and list of cycles the run opens the summary named after the input and the order (or breakpoint), and writes into it the coefficients, errors, confidence limits, amplitudes, phases and measures of the unique least squares fit under the labels of the fitted functions, provided the seasonal cycles are given before the tidal ones. Deviations proved: any other order of cycles puts a coefficient under the label of another function; a cycle that is neither half a year, a year nor an alias of a tide ends the run after the last label; a singular fit or a breakpoint that is not the month of exactly one line leaves an empty file; without order and breakpoint nothing is opened.", "quantifier": "all series, orders, breakpoints, lists of cycles, units and names", "why_tests_cant": "labels are paired with the fitted functions by two separate loops; any list of cycles is possible and only a few could be tested", "anchors": ["scripts/quick_mascon_regress.py: run_regress", "gravity_toolkit/time_series/regress.py: regress", "gravity_toolkit/time_series/piecewise.py: piecewise"]}
{"id": "C107", "title": "Plots of mascon series", "statement": "quick_mascon_plot: for every file the printed trend, acceleration (each with its confidence limit) and difference of AIC are those of the unique least squares fits with a line and with a parabola, half a year, a year and the S2 alias of either mission (difference of AIC = 2 + n log(S2/S1)); the monthly curve has a point for every line (date, value less the first value) and joins consecutive lines exactly when no month 187..197 lies between them; the gap is shaded from the date of month 186 to that of month 198. Deviations proved: a file without exactly one line for months 186 and 198 cannot be plotted monthly; a repeated month ends the run; with several individual figures and an output file only the first figure is saved, in the current directory, and the run fails.", "quantifier": "all files, numbers of files and options", "why_tests_cant": "lists of months of any length and any pattern of missing months; the fits have eleven coefficients", "anchors": ["scripts/quick_mascon_plot.py: run_plot, main", "gravity_toolkit/time_series/regress.py: regress", "gravity_toolkit/time_series/fit.py: aliasing_terms"]}
{"id": "C108", "title": "Time stamps and listings of ftp servers", "statement": "get_unix_time: the text of every date and time from the year 1 to 9999, with any white space after it, gives the seconds since 1970 by the Gregorian calendar, so that later texts give larger numbers; a text with fractions of seconds is left to dateutil. ftp_list: for a server that can be reached, the names (or base names) of the directory that match the pattern, sorted if asked for, each with the time of its own MDTM answer and None for directories; any other failure of the server is an exception and never a shorter list. check_ftp_connection: true exactly if connection, login and NOOP succeed, and otherwise the exception names the first thing that failed.", "quantifier": "all dates, names, patterns, servers", "why_tests_cant": "all dates of ten thousand years and listings of any length", "anchors": ["gravity_toolkit/utilities.py: get_unix_time, ftp_list, check_ftp_connection"]}
{"id": "C109", "title": "Downloads of auxiliary files", "statement": "from_csr, from_gfz, from_gsfc: when the servers have the files, a run leaves each file of the groups asked for equal to the remote one, at its place below the download directory, whatever was there before; files from ftp that were changed have the time of the server; no other file changes, whatever the servers answer and wherever the run breaks off; a second run changes nothing. The first file that cannot be downloaded ends the run with the files before it complete. Interferometer files of all years go to the directory of version and product, the last year wins for repeated names. The dated copy of the GSFC file has the same contents and time and the two months of the data span in its name. Deviations proved: the default variable=None is a TypeError, unknown names do nothing silently; an unreadable MDTM answer is a TypeError after the file has been written; a GSFC file without exactly one span line is a ValueError after the update.", "quantifier": "all disks, servers, groups, directories and points of interruption", "why_tests_cant": "all histories of the disk and all behaviours of the servers", "anchors": ["gravity_toolkit/utilities.py: from_csr, from_gfz, from_gsfc, from_http, from_ftp, http_list, get_hash"]}
{"id": "C110", "title": "Files found without regard to case; from_file and to_file", "statement": "A file that exists under the name given is always the file that is read. Otherwise the last entry of the directory that begins with text like the name (case ignored) is read, and FileNotFoundError is raised exactly if there is none; so a file whose name differs only in case is found whenever it is the only candidate. What to_file wrote is read back by from_file under the same name, whatever other files there are, and no other file changes. Deviations proved: the name is used as a regular expression without end, so that a missing file is replaced by any file with a longer name (a backup copy) or with another character at a full stop; with several candidates the order of the listing decides; format 'SHM' of harmonics.from_file always fails with TypeError; unknown formats return None, or write nothing, silently.", "quantifier": "all directories, names, formats and contents", "why_tests_cant": "directories with any entries in any order", "anchors": ["gravity_toolkit/harmonics.py: harmonics.case_insensitive_filename, from_file, to_file, from_SHM", "gravity_toolkit/spatial.py: spatial.case_insensitive_filename, from_file, to_file", "gravity_toolkit/geocenter.py: geocenter.case_insensitive_filename"]}
{"id": "C111", "title": "Figures of geocenter series", "statement": "The programs that plot geocenter series draw, for every month from start to end that is not missing (once, in order), the variation of x, y, z (from C11, S11, C10) in millimetres at the time of the record of that month, about the average of the months start..176, which is zero over these months and does not depend on the origin of the coefficients; months without record are breaks. A figure is drawn exactly if there is a center, every center has a colour, no month of the figure has two records and the last series has one record each of months 186 and 198; otherwise the run ends with an exception. At most five ocean models. Monte Carlo: the maximum of the label is the largest departure of a run from the mean of the runs, sigma is at most that, both are 0 for one run. Deviations proved: a series without data in the base period gives an empty figure without an error; a figure that starts in a November or December cuts off its first month.", "quantifier": "all series, months, missing months, lists of centers and models", "why_tests_cant": "series of any length with any gaps and repetitions", "anchors": ["scripts/geocenter_processing_centers.py: geocenter_processing_centers", "scripts/geocenter_ocean_models.py: geocenter_ocean_models", "scripts/geocenter_compare_tellus.py: geocenter_compare_tellus", "scripts/geocenter_monte_carlo.py: geocenter_monte_carlo"]}
{"id": "C112", "title": "Attributes of geocenter objects", "statement": "to_dict gives exactly the attributes of fourteen names that are set; from_dict sets each of these for which the dictionary has an array and leaves every other attribute alone, so that from_dict of to_dict restores all arrays in a new object; from_netCDF4 takes the variables of these names and ignores others. scale and power give a new object with coefficients multiplied or raised date by date, scaling twice is scaling by the product, scaling by non-zero factors can be undone, and the cartesian coordinates scale with the object. Deviations proved: an object that is filled again keeps attributes the new dictionary lacks (e.g. old errors); copy turns None into an array that holds None; scale and power drop errors, cartesian coordinates and a special radius, so that for such an object even scaling by one changes the coordinates.", "quantifier": "all objects, dictionaries, files, factors and powers", "why_tests_cant": "all combinations of set, missing and None attributes", "anchors": ["gravity_toolkit/geocenter.py: to_dict, from_dict, copy, get, from_netCDF4, scale, power"]}
{"id": "C113", "title": "Outcome, messages and job logs of the programs", "statement": "For the twelve programs with --log (and, without --log, the others of the same form): a run that succeeds ends with status 0, leaves the files of the analysis and, without -V, prints nothing; with --log a file is created under a name that was free and no other file changes; an interrupt is not caught and writes no log. Deviations proved: a run that fails ends with status 0 as well, and without -V the reason is not shown; the log of a success is always empty (basicConfig has no effect the second time); with --log a failure leaves an empty file and ends with a TypeError of the log itself, since the file is binary; if the output directory does not exist the run with --log never ends; a third -V is an IndexError.", "quantifier": "all analyses, files, options, existing logs", "why_tests_cant": "all outcomes of the analysis and states of the directory", "anchors": ["scripts/calc_mascon.py: main, output_log_file, output_error_log_file (and the same functions of eleven other programs)", "gravity_toolkit/utilities.py: create_unique_file"]}
{"id": "C114", "title": "Maps and movies of grids", "statement": "The maps show the grid: with nearest-neighbour interpolation every image point shows value and mask of a cell whose latitude is nearest and whose longitude is within half a step (going around the Earth), for grids around the Earth with an even number of columns (centred or with end points) and for grids that are not moved; with bilinear interpolation every pixel that is shown is a weighted mean of valid cells, equal to the cell at its centre and between the extremes. Valid cells are shown with value times scale factor, missing cells as missing, rows reversed with their latitudes for negative spacing. The average lies between the extremes, is exact for constants and does not depend on radius or spacing; levels start at the lower end, are one step apart and reach the upper end; contours draw zero in red once and every other level once. Panels show the files in order; the movie has a frame per month with its calendar month. Deviations proved: an odd number of columns shows a wrong column; decreasing latitudes are refused by bilinear interpolation; the land-sea file hides land instead of ocean and is ignored if its dimensions differ; no program passes its mask on; the default format of multi-panel figures always fails; only the first panel is masked; a field to remove always fails; an unknown format repeats the previous panel; movies of global grids with end points have no frame, with a mask one frame; the label may combine month and year of different years.", "quantifier": "all grids, masks, scale factors, image points, ranges, files, formats, numbers of months", "why_tests_cant": "every grid, point of the image and list of files", "anchors": ["scripts/plot_global_grid_maps.py: plot_grid, main", "scripts/plot_global_grid_3maps.py: plot_grid, main", "scripts/plot_global_grid_movie.py: animate_grid", "gravity_toolkit/tools.py: shift_grid, interp_grid, mask_oceans", "gravity_toolkit/spatial.py: default_field_mapping"]}
{"id": "C115", "title": "Colour maps", "statement": "The conversion between hue, saturation, value and red, green, blue is that of the colour wheel and its two directions are inverse. custom_colormap gives, for N >= 2 (Seroussi: N >= 5) slices and any case of the name, a map with nodes at equal distances from 0 to 1 and the colours of the named map: Joughin saturated hues 0.1 to 1; Rignot hues 0 to 1 with saturation min(0.1+hue, 1); Seroussi decreasing hues (N-2-k)/(N-1) with saturation min(0.1+hue, 1), floor(0.7 N)-1 colours; all components between 0 and 1; other names raise ValueError. from_cpt gives a node for the start of each line and the end of the last, at relative locations, converted by the table's last colour model, with the colours of the last B, F and N lines. The widget's ticks start at the lower limit and reach the upper one. Deviations proved: one slice (Seroussi three or four) is a ZeroDivisionError, fewer give an empty map; negative hues leave the range of colours; flags in small letters are taken and ignored; a colour model in small letters gives a map without locations; a colour jump within a table is lost; ranges below ten units start with step 0, which raises ValueError.", "quantifier": "all numbers of slices, names, colours, tables and ranges", "why_tests_cant": "every colour, number and table", "anchors": ["gravity_toolkit/tools.py: custom_colormap, from_cpt, colormap"]}
{"id": "C116", "title": "Series of grids in index files", "statement": "A series of grids written with spatial.to_index to distinct netCDF4 or HDF5 files and read with from_index is the series: at date t of the result are the values, the mask and the time of the date that the order of times names, on the same latitudes and longitudes with the same fill value; other files are not touched; also a series merged from a list, which to_netCDF4 refuses, can be written this way. More names than dates raise. Deviations proved: on a square grid every map comes back transposed; an object of one date without time dimension cannot be written, and index of it gives an object without data; an unknown format writes the names and no files; a series read from an index cannot be written to a single file.", "quantifier": "all series, grids with at least two rows and columns, lists of distinct paths, home and working directories, contents of the file system, orders of the dates", "why_tests_cant": "every grid, series and directory", "anchors": ["gravity_toolkit/spatial.py: to_index, from_index, from_list, index, compressuser"]}
{"id": "C117", "title": "Text, length and truth value of objects; objects made of dictionaries", "statement": "The text of harmonics, geocenter and spatial objects names degree and order, extent and shape, and the first and last month; len is the number of months, bool whether there are any; extent holds the smallest and largest coordinates, spacing the step of a regular grid without sign. spatial.from_dict takes the arrays of the dictionary, masks exactly the cells that are NaN or the fill value and fills them, in the errors as well. Deviations proved: str raises for every array of two or more months and for a single month without dimensions, which has no length or truth value either; zonal coefficients have the text of full ones; harmonics.squeeze(update_dimensions=False) always raises; a mask in the dictionary has no effect; what the dictionary lacks stays from earlier use, and errors of another grid then raise.", "quantifier": "all months, degrees, orders, axes, dictionaries and earlier states of the object", "why_tests_cant": "every object and dictionary", "anchors": ["gravity_toolkit/spatial.py: from_dict, extent, spacing, __str__, __len__", "gravity_toolkit/harmonics.py: squeeze, __str__, __len__", "gravity_toolkit/geocenter.py: __str__, __len__"]}
{"id": "C118", "title": "The Legendre dispatcher and the summation inside the sea level equation", "statement": "associated_legendre returns, for each of the names colombo, holmes and mohlenkamp in any capitals, every maximum degree from 2, maximum order and colatitude between the poles, the fully normalised associated Legendre functions and their derivatives with respect to colatitude, with LMAX+1 degrees and the orders to MMAX; every other name raises ValueError. The Clenshaw summation that sea_level_equation carries itself (clenshaw_s_m and the loop over orders) is the spherical harmonic sum of its coefficients at every point, the same as clenshaw_summation with degree factor one, whatever the scale. Deviations proved: the documented name 'columbo' is refused; the Mohlenkamp routine returns derivative arrays with all orders, zero beyond MMAX; the default method does not return for degrees 0 and 1.", "quantifier": "all names, degrees, orders, colatitudes, coefficients, points and scales", "why_tests_cant": "every real number and degree", "anchors": ["gravity_toolkit/associated_legendre.py: associated_legendre, plm_colombo, plm_holmes, plm_mohlenkamp", "gravity_toolkit/sea_level_equation.py: clenshaw_s_m, sea_level_equation"]}
{"id": "C119", "title": "The mirror of the files from Graz", "statement": "itsg_graz_grace_sync ends without error exactly when the release is one of the four, both remote directories can be listed and every dealiasing file that fits the pattern has one of the four products, spelled as on the server. Then every such file is in the folder of its product (atmosphere GAA, ocean GAB, dealiasing GAC, oceanBottomPressure GAD), every field in GSM, transferred if missing or older; no other file is touched or deleted; each existing folder of the version has an index whose lines are, in order of names, exactly its files whose names begin as the pattern says. With --list no file but the indices changes; a second run changes no file. Deviations proved: fields of different maximum degrees, and of Grace2018 and Grace_operational, share one folder and one index, which then names a month more than once; names with text after the suffix are listed too; one dealiasing file with another product or other capitals stops the run before any field is transferred or index written.", "quantifier": "all releases, maximum degrees, remote directories, local folders, options, transfers and sequences of runs", "why_tests_cant": "every server, local state and history of runs", "anchors": ["scripts/itsg_graz_grace_sync.py: itsg_graz_grace_sync, http_pull_file, main"]}
{"id": "C120", "title": "The header of the geocenter files", "statement": "The text files of calc_degree_one (YAML header and data) are read again by geocenter.from_UCI, header included: for every processing center, release, ocean model, citation, Love number, dates of the run and choice of low degree corrections, and every reference of a GIA model of the package but one, the names and columns of the variables come out of the header, and every date is read in order with its month exactly, its date to four decimals and its coefficients, under their names, to seven digits. Deviation proved: a reference with two colons that have a blank behind them makes the header invalid YAML, and the reference of the model ICE6G is of this kind, so that no file made with that model can be read.", "quantifier": "all texts without colon or hash, all Love numbers, months, dates and coefficients (zero or between 1e-99 and 1e99 in size)", "why_tests_cant": "every run and every file it writes", "anchors": ["scripts/calc_degree_one.py: print_header, print_harmonic, print_global, print_variables, calc_degree_one", "gravity_toolkit/geocenter.py: from_UCI", "gravity_toolkit/read_GIA_model.py: read_GIA_model"]}
{"id": "C121", "title": "Smallest resolved length and seasonal geocenter", "statement": "calc_harmonic_resolution reports for each degree either the half wavelength (that many of them make half a circumference; degree zero ends the run with an error) or the diameter of the cap whose area is the area of the sphere divided by the number of coefficients; both are positive, shrink with the degree and scale with the radius, and the cap is never smaller than 4/pi times the half wavelength of the next degree. The seasonal geocenter model of the degree one scripts gives for any dates an annual and semi-annual oscillation without its mean, divided by the radius and the square root of three, depends only on the time of year, and stays within twice the sum of its amplitudes.", "quantifier": "all degrees, radii and lists of degrees; all nonempty lists of dates", "why_tests_cant": "every run", "anchors": ["scripts/calc_harmonic_resolution.py: calc_harmonic_resolution, arguments, main", "scripts/calc_degree_one.py: model_seasonal_geocenter", "scripts/monte_carlo_degree_one.py: model_seasonal_geocenter"]}
{"id": "C122", "title": "Monte Carlo geocenter files are read again", "statement": "A text file written by monte_carlo_degree_one.py, with the complete header and one line per date, is read by geocenter.from_UCI: every date in order, the decimal date to four decimals, the coefficients and their uncertainties each under its own name to seven significant digits and the month exactly, provided the reference of the GIA model is one the reader can parse. The Fortran format announced in the header is that of calc_degree_one.py and is too short for these lines.", "quantifier": "all nonempty lists of dates with coefficients whose exponent has two digits, all processing centers, releases, ocean models and readable references", "why_tests_cant": "every file", "anchors": ["scripts/monte_carlo_degree_one.py: print_header, print_harmonic, print_global, print_variables, monte_carlo_degree_one", "gravity_toolkit/geocenter.py: geocenter.from_UCI"]}
{"id": "C123", "title": "PO.DAAC Drive and collection metadata", "statement": "Calls of drive_list and from_drive sign in with the user name and password given, or with those of .netrc if neither is given; the credentials are installed for the whole process before they are checked, so a later call without build uses the last ones installed, even if they were refused. A listing gives the pairs of name and time that fit the pattern, in order or sorted. A download returns the contents on the server, writes the local file exactly if the checksum differs, touches nothing else, leaves the disk alone when it fails, and repeated with the checksum of the file changes nothing. gsfc_list gives the links of the page below the root of the server. cmr_metadata_json gives exactly the addresses of all links of the endpoint, in order.", "quantifier": "all servers, credentials, .netrc files, pages, patterns and histories of calls", "why_tests_cant": "every history of calls", "anchors": ["gravity_toolkit/utilities.py: check_credentials, drive_list, from_drive, gsfc_list, cmr_metadata_json, cmr_metadata"]}
{"id": "C124", "title": "widgets of the notebooks", "statement": "After any history of choices the degree and the order lie between zero and the default degree and the order does not exceed the degree; a new degree sets the order to it, a new order leaves the degree. The list of files to be removed is always what the text names, and the text is the list joined by commas; files picked in the dialog are added in order unless a name has a comma. Every center and release offered together have the product GSM; after a new center or release the months are those of what is shown, after a new product they are still those of the product before. The boxes for pole tide and atmosphere and the bound of the degree do not follow the release, since the function meant for it compares a widget with a text and raises.", "quantifier": "all histories of choices, numbers, texts and files", "why_tests_cant": "every history of choices", "anchors": ["gravity_toolkit/tools.py: widgets (select_product, select_options, set_max_degree, set_max_order, set_pole_tide, set_atm_corr, set_removefile, set_removelabel, set_product, set_release, update_months)"]}
{"id": "C125", "title": "uploads to figshare and the table of static models", "statement": "to_figshare puts every given file below data/directory under its own name with its contents, the last one if two have the same name, and leaves everything else on the server; it ends at the first missing file with those before it sent and none behind it; nothing is ever removed; without a directory (the default) nothing is sent and TypeError is raised; only one level of directories is made; a directory that begins with a slash is not below data. icgem_list maps each name, in the order of the first link, to the parts of the address of the last link with that name, ignoring links to other files; a page that cannot be read is an exception.", "quantifier": "all servers, local files, directories, lists of files, and tables of links", "why_tests_cant": "every list of files and links", "anchors": ["gravity_toolkit/utilities.py: to_figshare, icgem_list"]}
