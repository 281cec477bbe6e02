# Formal model of gravity-toolkit in Lean 4 - design

## Trusted base
* Lean 4.33.0 kernel. Axioms used by every theorem are a subset of Lean's
  standard `propext`, `Classical.choice`, `Quot.sound` (Mathlib's own base).
  No axioms are added, no compiled-code proof tactics are used.
* The hand translation from Python to the Lean definitions. Each definition
  cites the file and lines it models and names its simplifications.
* IEEE double arithmetic is modelled by exact arithmetic (integers, rationals,
  reals or an arbitrary field). Rounding, overflow and underflow are therefore
  *outside* the model; NaN is modelled explicitly where the code tests for it.
* numpy arrays are modelled as a shape plus a total index function (or lists);
  out-of-range accesses are modelled as errors where the code can reach them.
* Text formats, name patterns and number formatting are modelled at the level of
  characters where a property depends on them (C80-C93); elsewhere parsed values
  are parameters. The regular expressions are run by an interpreter defined in
  the model (backtracking order as in Python's re for the operators used).
* netCDF4 and HDF5 files are modelled as named variables with attributes, not as
  bytes; a disk is a function from names to contents; a remote server is a
  listing plus contents. Network errors, permissions, clocks, logging and
  plotting are not modelled.
* External functions (numpy.linalg.lstsq/inv, scipy filters and special
  functions, erf, arctan2, read_ICGEM_harmonics of geoid_toolkit) are arguments
  of the model, with the properties assumed of them written as hypotheses of
  the theorems that need them.

## Plan per property
* **C01 GRACE month numbers and calendar months are inverse encodings** - Int model of calendar_to_grace / grace_to_calendar (Python floor // and %); omega. Decimal version over Rat with floor.
* **C02 calendar_days is total and agrees with the Gregorian calendar** - Int model with Python %; classification theorem against an independent Gregorian leap predicate.
* **C03 convert_calendar_dates counts days** - Rat model of the MJD expression with floor, refined to integer division; independent spec = successor of a calendar day; prove mjd(next d)=mjd(d)+1.
* **C04 convert_julian inverts the day count and always returns a valid date** - Rat model of convert_julian; refine each floor to integer division; prove inverse of the day count by 400-year-cycle arithmetic (omega).
* **C05 Decimal years lie in their year and preserve date order** - Rat model with the tri-matrix dot product; prove range, agreement and strict monotonicity.
* **C06 calendar_to_julian is one day early** - Rat model; closed form against the C03 day count.
* **C07 adjust_months leaves unique months alone and repairs a duplicated month** - List-indexed model with the sequential loop over case2 (m is read while being written); prove frame theorems.
* **C08 reduce_by_date keeps exactly the newest file of each date** - List model with parse functions as parameters (regex abstracted to date/version functions); prove sortedness, membership, maximality.
* **C09 Delta-time conversion composes and inverts** - Epochs as rational seconds (datetime64 difference); algebra.
* **C10 Each GRACE file is dated at its mid-point and filed under the month containing it** - Rat model of the per-file computation on top of C03/C04/C07.
* **C11 grace_find_months reports exactly the gaps** - List model of sorted(set - set)[3:].
* **C12 Low-degree replacement touches only the requested coefficients and months** - Model of the month loop and replacement loops with errors as Except; frame theorems by fold invariants.
* **C13 Level-2 coefficient lines are placed by degree and order under truncation** - Fold over parsed lines (text splitting abstracted); last-writer theorem.
* **C14 The ECMWF jump correction is selected by month and undone by the opposite sign** - Direct model of selection and broadcasting check.
* **C15 flatten and expand are inverse on the lower triangle** - Loop model of flatten/expand over arrays as functions with shapes; fold invariants.
* **C16 Adding then subtracting a field restores it** - Loop model of add/subtract/multiply/divide with self-truncation bounds.
* **C17 truncate keeps exactly the requested degree and order window** - Loop/slice model of truncate.
* **C18 subset selects exactly the requested months** - List model of subset for lists of (month,time,field).
* **C19 from_list aggregates by date without mixing fields** - argsort model of from_list; permutation proof.
* **C20 Iteration visits every date once and restarts** - State machine model of __iter__/__next__; induction on histories.
* **C21 Removing the mean makes the mean zero and is idempotent** - Loop model over a field; Finset sums.
* **C22 scale, drift and convolve are the documented linear maps** - Algebra on the loop model.
* **C23 Cached complex form and amplitude** - State machine with cache cell; traces.
* **C24 The triangular masked-array layout loses nothing** - Loop model of writes into an array; injectivity.
* **C25 Degree amplitude is the root sum of squares over orders** - Real model; Cauchy-Schwarz for the triangle inequality.
* **C26 Masked grid cells hold the fill value and stay masked** - Cell-wise state model with NaN flag; invariant over operation sequences.
* **C27 flip and transpose are involutions** - Grid as function with shape; involution.
* **C28 Temporal statistics respect the mask** - Grid time series model.
* **C29 Geocenter conversions are inverse to each other** - Field model; field_simp.
* **C30 plm_colombo computes the fully normalised associated Legendre functions** - Array-filling loops over reals; independent spec by iterated polynomial derivatives of Legendre polynomials.
* **C31 The three Legendre algorithms agree** - As C30, each algorithm against the same spec.
* **C32 The returned derivatives are the derivatives** - HasDerivAt of the spec composed with cos.
* **C33 legendre_polynomials agree with the order-zero functions** - Recursion over reals vs. polynomial spec.
* **C34 Clenshaw summation equals the direct sum** - Backward recursion loop; telescoping invariant.
* **C35 harmonic_summation is the truncated spherical harmonic sum and linear** - Finset sums over reals.
* **C36 Gaussian smoothing weights** - Loop with break flag; invariant; then equality with the Legendre coefficients of the Gaussian (integral definition) floored at the cutoff.
* **C37 Conversion from space to harmonics is linear in the data** - Finset sums; linearity.
* **C38 Disc loads and spherical caps have the documented degree factors** - Closed form and rotation identity.
* **C39 Destriping leaves low orders alone, is linear and removes smooth stripes** - Window regression operator as projection; linear algebra.
* **C40 Unit conversions are mutually consistent** - Field model.
* **C41 The sea level equation conserves mass and terminates** - Loop model with abstract linear transform; invariant.
* **C42 Mascon averages** - Finset weighted mean model.
* **C43 Longitude wrapping and grid shifting are rotations** - Real/Rat model with floor-mod; list rotation.
* **C44 Love number reference frame changes keep relative quantities and compose** - Field model; table loop.
* **C45 url_split and joining are inverse** - String/list-of-char model with posix path split.
* **C46 create_unique_file never opens an existing file** - File system state machine with O_EXCL creation; interleavings.
* **C47 even and ceil rounding** - Floor model.
* **C48 Downloads are idempotent and never leave a stale hash mismatch** - File system + remote model.
* **C49 CMR pagination** - Page-list model with fuel-free recursion.
* **C50 Least-squares regression decomposes the data** - Normal equations over real matrices with lstsq as a parameter satisfying its specification.
* **C51 Piecewise regression slopes add up** - Design matrix algebra.
* **C52 Moving-average smoothing preserves length, constants and straight lines** - Finset model.
* **C53 Savitzky-Golay filter reproduces polynomials** - Linear algebra with pinv as parameter.
* **C54 amplitude converts to amplitude and phase of the same wave** - Real model with arctan2 as Complex.arg.
* **C55 Land and ocean functions complement each other** - Linearity plus stencil model.
* **C56 Moving-average of weekly solutions** - Sorting model.
* **C57 ASCII output read back restores the coefficients** - Row-list model of the columns written and the reader's maxima scan and placement loop (number formatting abstracted to exact values).
* **C58 Scaling factors are the least-squares gain and their error** - Cell-wise model over ordered fields with validity mask; minimiser proved by completing the square.
* **C59 copy isolates, flip does not** - Heap model with array references; separation theorem over all later updates.
* **C60 Degree-one files give every month its own coefficients** - Row-list fold with the duplicate-month rule.
* **C61 The FFT summation equals the direct summation on an equispaced circle** - Real/complex sums; discrete Fourier transform as its defining sum.
* **C62 Geostrophic balance** - sums over reals; the balance is stated with HasDerivAt of the pressure field; proof from the degree-coupling recursions of the normalised Legendre functions and re-indexing of the sums.
* **C63 legendre returns the associated Legendre functions of one degree** - Backward recursion against the C30 polynomial specification.
* **C64 Harmonic analysis conserves mass and separates orders** - Finset sums; discrete orthogonality of trigonometric functions.
* **C65 Tidal aliasing terms split at 2018** - Real design-matrix columns; pointwise support.
* **C66 Lomb-Scargle periodogram ranges, peak and significance** - Real model; Cauchy-Schwarz and argmax.
* **C67 Nearest-neighbour interpolation and surface masks** - argmin over grid cells; minimality theorem.
* **C68 Colour tables and tick levels** - List model of rows and levels.
* **C69 Argument files** - Character-list model of line splitting.
* **C70 Averaging kernel** - function model sharing the Gaussian loop of C36; specification is the cost
  functional (leakage plus error) and the integral definition of the Legendre coefficients of the
  Gaussian. Proof: completing the square; integration by parts and Rodrigues' formula for the
  coefficients (recursion, positivity, decrease), loop invariant with the first degree below the cutoff.
* **C71 Fourier coefficients of Legendre functions** - the recursions over the Fourier index and the
  relations between orders as folds over an array of reals; spec is the Rodrigues-derivative
  definition of `Plm` already used for C01. Proof: explicit Fourier coefficients of `P_l(cos t)` from
  the generating recursion, derivative for order 1, orthogonality (integral) for the norm, order
  relation by induction over the loops.
* **C72 Gradients** - same arrays; the meridional statement is `HasDerivAt` at every colatitude; the
  zonal statement is false of the code, so the value actually returned and counterexamples are proved.
* **C73 Fourier analysis** - composition of the models of `harmonic_summation` and of the Fourier method;
  discrete orthogonality in longitude and on cell centres in colatitude, then the integral
  orthogonality of the Legendre functions. The pole branch of the code is refuted by its value on the
  constant field.
* **C74 Geocenter estimate** - `calc_degree_one` from prepared monthly fields to the returned series:
  I-parameter matrix, G parameters, eustatic part, solver, iteration with stopping rule. Spec: moments
  of ocean mass and a uniform layer conserving mass. Proof: the I-matrix is the Gram matrix of the degree one
  functions in the ocean inner product; the pass is an affine rank one map with factor `rate`, bounded below
  one by Cauchy-Schwarz (strictly, if the ocean is not on a circle); induction over the passes.
* **C75 Mascon estimates** - the counter loops of calc_mascon, calc_sensitivity_kernel and mascon_reconstruct as a
  list of positions, column arrays over `Fin n_harm`, the solver as an argument that solves the normal equations.
  Spec: misfit as an explicit sum over degrees and orders. Proof: superposition of the unit solutions, Pythagoras,
  length of the position list in closed form. FIT_METHOD=2 is refuted.
* **C76 SLR readers** - (`SLR/*`) the readers of `gravity_toolkit/SLR` and `read_SLR_harmonics.py` on characters: the regular
  expressions (`re.findall` of numbers, file names), `float`, `int`, `str.split`, header loops, loops over lines,
  blocks of nineteen coefficients. Specification: numbers as written (sign, digits, exponent), lines as sequences of
  such numbers and words, entries as relations between a line and an output record. Proof by induction over texts,
  lines and blocks; dates by C03/C07, 28-day means by C56.
* **C77 GIA models** - (`GIA/*`) `read_GIA_model` on characters: its number expression (with integers), the line formats of
  all model types, the file name patterns by a small backtracking matcher, truncation.  What a file states is specified by
  relations between characters and entries (`Table`, `StatesIce`, `StatesD`, `Holds`), and `gia_coefficients` is proved by loop
  invariants on the counters.  The reformatted types (ascii, netCDF4, HDF5) are the harmonics readers of C05 and `truncate`.
* **C78 geocenter files** - (`GeoRead/*`) the five readers of `geocenter.py` and `from_AOD1B` as functions of the characters
  of the files, with the `strptime` formats they use; lines are specified by the numbers they consist of (`LRow`, labels such
  as `GRCOF2` included), columns by name or position.  The round trip with the text written by `calc_degree_one.py` takes
  correct rounding of Python's `format` as the relation `Written`.  Negative results: default release of `from_SLR`, names of
  the dealiasing files, months of the day before.
* **C79 Mirrored directories** - Verif/Sync: disks as maps from paths to contents and times, transfers as lists of pieces with clock readings, interruption after any step; histories as lists of events (new listing, run, interrupted run), invariant by induction: local copies are earlier versions and not newer. Crash counterexamples are proved for all later runs. Gzip headers at byte level.
* **C80 Names and index of GRACE files** - Verif/Names: a backtracking matcher for regular expressions that lists all matches in Python's order (greedy, lazy, alternatives, groups, `$`), proved equal to the language of the expression; the first match is computed with rules for each construction. Patterns, dates and versions are characterised on the characters of the name; the index is a function of the directory listing.
* **C81 Grids in text files** - Verif/SpatialIO: the fixed-point format at the level of characters (rounding half to even, padding), the lines of the file, the number expression of the reader and its placement of values by truncated division. The round trip is an induction over the valid cells; the failures are theorems about every file of the kind. Arithmetic is exact: with floating point a step such as 0.1 can additionally shift a row by one in `//`.
* **C82 Grids in netCDF4 and HDF5 files** - Verif/SpatialIO/Dataset: arrays with shapes (squeeze, transpose, adding a dimension), files as dimensions, named variables with attributes and fill values, global attributes. The round trip follows from the content of the file (write_spec) and of the object read (read_spec); the exceptions are theorems about every object of the kind. The libraries netCDF4 and h5py are taken to store what they are given; dtype, compression and the software attributes are not modelled.
* **C83 Spherical harmonics in text files** - Verif/HarmIO/Format, Model, Lines, Ascii: exponent formatting `{:+21.12e}` over the rationals (rounding half to even of the decimal mantissa), the lines of the writer, the regular expression and conversions of the reader. The specification RoundedSig says what the nearest number of thirteen digits is; the round trip is proved by reading the text of every line back as its tokens. Binary doubles are taken as rationals.
* **C84 Spherical harmonics in netCDF4 and HDF5 files** - Verif/HarmIO/Dataset (model), DataProps (content of the file, object read), Data (theorems): files as dimensions, named variables with attributes, global attributes; built on flatten and expand of C15. The libraries are taken to store what they are given.
* **C85 Series in index files** - Verif/HarmIO/Index (model), IndexProps, IndexFiles: paths as component lists, the text of the index, a file system as a map; the theorem for any writer and reader pair (index_files) is instantiated with the three formats and combined with from_list (C19).
* **C86 Monthly means and series from AOD1B archives** - Verif/Dealias/Model (model), Days (calendar days of a month), Archive (names of archives and daily files, by the expressions of C80), Blocks (text of a daily file), Mean (arithmetic mean through expand, truncate and mean of C15-C19), Program and Main (the loop over the months, induction over the rows of the date file), Series (geocenter and oblateness). Archives are lists of named texts; log messages, directories, permissions and the text of the output files are not modelled.
* **C87 Dates in the names of gfc files** - Verif/Gfc/Model (model on the regular expressions of C80, with case folding for ASCII), Match (what the patterns find), Props (dates, month numbers, agreement of the readers). The reader of the coefficients in the external package geoid_toolkit and dateutil are parameters.
* **C88 Independence of harmonics objects** - Verif/Share/Model: memory of numpy arrays with addresses, objects and to_dict dictionaries hold addresses, in-place statements write the cosine array and then the sine array; Spec: the same programs on values that own their coefficients (functions of Verif/Harmonics/Model), dictionaries as windows; Lemmas: simulation (all address pairs disjoint); Props: refinement for all programs and frame corollaries; attributes in a second small memory.
* **C89 Monthly maps** - Verif/Maps/Model: the two programs as compositions of the models of the harmonics methods, destriping, smoothing weights and summation (inputs already read); Spec: closed formula of the coefficients (`signal`) and of the value at a point (`series`); Lemmas: each stage holds the specified values; Props: value theorem, invariance under static fields, failures, grids, file names.
* **C90 Love number tables** - Verif/LoveText/Model: the regular expression, splitlines, columns and loop at character level on top of the numerical core of C44; table of the five files; formats, class and shared arrays. Spec: `Line`/`Says`/`IsTable` (what a text says). Proved by reducing the text reader to the row reader of C44 (`readText_core`) and by a heap model for `transform`.
* **C91 Level-2 files as text** - Verif/GraceText: name pattern, headers and data lines at character level on top of the reader of C13 (which works on parsed lines); writer of the dealiasing files with its whole YAML header. The YAML parser is a parameter (any function). Spec: `L2Name`, `Says`, `headLines`, `Param`. Proved by reducing reading of the text to C13 (`file_read`) and by showing that every line written is a header line or says its coefficient (`written_read`).
* **C92 error maps** - Verif/SpatialError: the program as a function of the data, options and a file system (name to content). Spec: `IsFit`, `IsNoise` (any least squares fits of the windows), `variance`, `errorMap`. Proved from the smoothing theorem of C32, the readers and writers of C83/C84 and the synthesis of C07; runs are chained through the file system (`later_run`, `repeated_run`) and the two deviations are proved as theorems (`stale_errors`, `repeated_run_ascii`).
* **C93 mean fields** - Verif/MeanField: mean and RMS errors, the writers (netCDF4/HDF5 at variable level, ascii and gfc at character level), reading without dates, `from_gfc` with the external ICGEM reader as an arbitrary function. Proved by composing with C21 (mean), C83/C84 (files), C89 (maps: `own_mean`) and the line grammar of C91 (`gfc_file`, `gfc_parameters`).
* **C94 maps of trends** - Verif/RegMaps: `Model` (months, names, plan of labels, the fits of C65 on every cell, files), `Spec` (functions of time, labels, least squares), `Fit` (cells of the program are `Best`), `Props`/`Props2` (labels right iff cycles are `WellOrdered`, success iff, distinct names), `Waves`, `Break` (two slopes).
* **C95 scaled maps** - Verif/ScaleMaps: `Model` (factor files, the stages of C89 and C92, scaling, leakage errors, names), `Spec` (regular files, valid cells, anomaly), `Cells` (masks, fill values, powers), `Props` (run = composition of C89 and C92; values of all cells), `Props2` (departures, names, leakage error at most the error of the factor, concrete run).
* **C96 maps converted to coefficients** - Verif/Convert: `Model` (reading, iteration, `gen_stokes` per map, series, output), `Spec` (values of cells, integral, output), `Lemmas`, `Props` (prepared maps, series), `Props2` (square grids, files written by the toolkit), `Props3` (end to end, failures, examples).
* **C97 maps of elastic uplift** - Verif/Uplift: `Model` (archives, fields, maps, program), `Spec` (months, maps), `Names` (which archives, their dates), `Fields`, `Field2` (fields in the arrays, maps of the arrays), `Props` (one archive, failures), `Props2` (whole program), `Examples`.
* **C98 sea level fingerprints of a load file** - Verif/Fingerprint: `Model` (mask, loop over dates, output), `Spec` (load of a date, water, fingerprint), `Props` (maps, independence, scaling), `Files` (output files, example); the solver is that of C41.
* **C99 extrapolation with a regression model** - Verif/Extrap: `Model` (columns, least squares, degree one stage), `Spec` (signals of the model, best signal, dates that determine them), `Props` (optimality by the contract of lstsq, uniqueness by orthogonality), `Deg1` (modelled degree one, example).
* **C100 index of months** - Verif/MonthsIndex: `Model` (date file text, loadtxt, index, run_grace_date), `Spec` (what a date file says, columns, labels), `Text`/`Read`/`Lines` (lemmas), `Props` (written, stops, empty), `Run` (after run_grace_date), `Examples`.
* **C101 login** - Verif/Login: `Model` (sources of credentials, loop over the retries, token requests), `Props` (accepted openers, sources, deviations, examples); server and keyboard are arbitrary functions.
* **C102 loops over months** - Verif/Containers: `Model` (`__next__` of the three classes, for loops whose body may move the position stored in the object, length and text), `Props` (each month once, nested loops, deviations, examples).
* **C103 Monte Carlo geocenter** - Verif/MonteCarlo: `Model` (noise, runs, mean and spread, on top of Verif/DegreeOne; the random numbers are an arbitrary argument), `Props` (a run is a pass of calc_degree_one on noisy data; linear response to noise; deviation of the restored background).
* **C104 CMR names** - Verif/Cmr: `Model` (short names, granule pattern, wildcard matching as documented for CMR), `Props` (set of available collections; a pattern of fixed width fields compared field by field).
* **C105 Rasters** - Verif/Raster: `Model` (stages of Verif/Maps, Clenshaw summation of Verif/Synthesis, cells and mask; the projection is an arbitrary function), `Props` (value of every cell by C34 and the stages of C89; agreement with C89; cells).
* **C106 Summaries** - Verif/Summary: `Model` (the two label loops, call of the regression of Verif/TimeSeries, lines of the summary), `Spec` (functions of labels, measures of fit), `Lemmas`, `Props`, `Props2` (labels and fitted functions agree iff seasons precede tides), `Props3` (outcome of a run).
* **C107 Plots of series** - Verif/QuickPlot: `Model` (fits with the regression of Verif/TimeSeries, months of the curve, points, shaded gap, saved figures; the drawing itself is not modelled), `Spec` (segments, neighbours, gap), `Props` (curve by induction over the lines), `Props2` (printed numbers, curves, repeated months), `Props3` (gap, figures, an example with independent functions).
* **C108 Time stamps of ftp servers** - Verif/Fetch: `Model` (strptime with backtracking, timegm, listing), `Stamps` (calendar of Verif/Time as specification; listing as filter and stable sort of the pairs of names and times).
* **C109 Downloads of auxiliary files** - Verif/Fetch: `Model` (programs on a state of request number and disk; answers of the servers are functions of request number and address), `Spec` (tables of addresses and places), `Acts` (what a program writes when all requests succeed), `Props` (Center for Space Research), `Span` (name of the dated copy), `More` (GFZ, GSFC), `Lri` (interferometer).
* **C110 Files found without regard to case** - Verif/FileNames: `Model` (search, dispatchers, readers and writers as parameters), `Spec` (same letters, begins like), `Props`. Names with metacharacters and entries outside ASCII are left to a parameter.
* **C111 Figures of geocenter series** - Verif/GeoFigures: `Model` (the data drawn, tables of colours, axis limits, failures), `Spec` (variation about the base period, points of a month), `Props`.
* **C112 Attributes of geocenter objects** - Verif/Geocenter: `Attrs` (maps of attributes; scale and power on the objects of `Model`), `AttrsProps`.
* **C113 Outcome and job logs** - Verif/JobLog: `Model` (root logger, binary files, main), `Props`; names of logs as in C46.
* **C114 Maps and movies of grids** - Verif/PlotGrid: `Model` (levels, mask, scale, shift, interpolation, average, panels, frames), `Spec`, `Props`
  (nearest neighbour), `Bilinear`, `More` (values, land-sea file, average, levels), `Panels` (several files, movies). Cubic splines, matplotlib and cartopy are not modelled.
* **C115 Colour maps** - Verif/Colours: `Model` (colorsys, custom maps, tables after their regular expressions, widget), `Spec` (colour wheel), `Props`
  (conversion and its inverse), `Maps`, `Cpt`. matplotlib is not modelled.
* **C116 Series of grids in index files** - Verif/SpatialIndex: `Model` (index, to_index, from_list, from_index on the arrays and files of
  Verif/SpatialIO/Dataset), `Props` (one date, one file, the loops by induction), `Files` (theorems and examples).
* **C117 Text, length, dictionaries** - Verif/Describe: `Model` (Python's truth values, texts, extent, spacing, from_dict), `Props`.
  Text of numbers is a parameter.
* **C118 Legendre dispatcher, summation in the sea level equation** - Verif/Legendre/DispatchModel and Dispatch (from C30-C32);
  Verif/SeaLevel/ClenshawModel and Clenshaw (the module's own copy written out, proved equal to the sum used by the theorems on the sea level equation).
* **C119 The mirror of the files from Graz** - Verif/Graz: `Model` (folders, pattern of Verif/Gfc, transfers of Verif/Sync), `Lemmas`
  (the loops by induction), `Props` (effects), `Index` (index files, mixed runs, examples).
* **C120 The header of the geocenter files** - Verif/GeoFile: `Yaml` (block mappings and sequences of plain scalars on one line, as the scanner of
  PyYAML reads them), `Model` (the files), `Lemmas`, `Header`, `Doc`, `Items`, `Hash`, `Data` (line by line), `Props` (the round trip, through that of C78; the file with two colons).
* **C121 Smallest resolved length and seasonal geocenter** - Verif/Resolution: `Model` (the two formulas, the printing loop with its failure, the
  seasonal series through the geocenter of C29), `Props` (area of the cap by trigonometry, monotonicity of the arcsine, periodicity and bounds).
* **C122 Monte Carlo geocenter files are read again** - Verif/GeoFile/Monte*: `MonteModel` (header and data lines with uncertainties), `MonteDoc` (the YAML
  reader on any list of variables below the common sections), `MonteProps` (`mc_written_read`; `mc_format_string`: the announced format is too short).
* **C123 PO.DAAC Drive and collection metadata** - Verif/Drive: `Model` (the installed opener as state, signing in, listing, download, links of the GSFC
  page, metadata), `Props` (histories by induction; the listing through `listing_aligned` of C48, the addresses through the paths of C45).
* **C124 widgets of the notebooks** - Verif/Notebook: `Model` (bounded numbers, files and their text, menus, boxes, functions that observe them),
  `Props` (invariants over all histories by induction; the defect of `set_max_degree` proved as it is).
* **C125 uploads to figshare and the table of static models** - Verif/Upload: `Model` (an ftp server as directories and contents, the lazy expression for
  names of models, dictionaries), `Props` (induction over the files and the links; paths through the lemmas of C45).

## What is modelled and what is not

Generated from the citations in the model: a function is listed as modelled when some definition cites lines of its body (the comment at the definition says what of it is left out).
In scripts, the functions `info`, `arguments`, `main`, `output_log_file` and `output_error_log_file` (process information, command line
parsing, log files) are modelled nowhere and are not repeated below.  Nothing of `scripts/plot_*.py`, `scripts/quick_mascon_plot.py`,
notebooks, documentation, tests and `setup.py` is modelled: they draw figures through matplotlib and cartopy and leave no data.

* `gravity_toolkit/SLR/C20.py` - all
* `gravity_toolkit/SLR/C30.py` - all
* `gravity_toolkit/SLR/C40.py` - all
* `gravity_toolkit/SLR/C50.py` - all
* `gravity_toolkit/SLR/CS2.py` - all
* `gravity_toolkit/associated_legendre.py` - all
* `gravity_toolkit/clenshaw_summation.py` - all
* `gravity_toolkit/degree_amplitude.py` - all
* `gravity_toolkit/destripe_harmonics.py` - all
* `gravity_toolkit/fourier_legendre.py` - all
* `gravity_toolkit/gauss_weights.py` - all
* `gravity_toolkit/gen_averaging_kernel.py` - all
* `gravity_toolkit/gen_disc_load.py` - all
* `gravity_toolkit/gen_harmonics.py` - all
* `gravity_toolkit/gen_point_load.py` - all
* `gravity_toolkit/gen_spherical_cap.py` - all
* `gravity_toolkit/gen_stokes.py` - all
* `gravity_toolkit/geocenter.py` - modelled: geocenter.__init__, geocenter.case_insensitive_filename, geocenter.from_AOD1B, geocenter.from_gravis, geocenter.from_SLR, geocenter.from_UCI, geocenter.from_swenson, geocenter.from_tellus, geocenter.from_netCDF4, geocenter.copy, geocenter.from_dict, geocenter.from_harmonics, geocenter.from_matrix, geocenter.to_dict, geocenter.to_matrix, geocenter.to_cartesian, geocenter.to_cmwe, geocenter.to_mmwe, geocenter.from_cartesian, geocenter.from_cmwe, geocenter.from_mmwe, geocenter.mean, geocenter.add, geocenter.subtract, geocenter.multiply, geocenter.divide, geocenter.scale, geocenter.power, geocenter.get, geocenter.__str__, geocenter.__len__, geocenter.__iter__, geocenter.__next__; **not**: geocenter.fields, geocenter.__getitem__, geocenter.__setitem__
* `gravity_toolkit/grace_date.py` - all
* `gravity_toolkit/grace_find_months.py` - all
* `gravity_toolkit/grace_input_months.py` - all
* `gravity_toolkit/grace_months_index.py` - all
* `gravity_toolkit/harmonic_gradients.py` - all
* `gravity_toolkit/harmonic_summation.py` - all
* `gravity_toolkit/harmonics.py` - modelled: harmonics.__init__, harmonics.case_insensitive_filename, harmonics.compressuser, harmonics.from_ascii, harmonics.from_netCDF4, harmonics.from_HDF5, harmonics.from_gfc, harmonics.from_SHM, harmonics.from_index, harmonics.from_list, harmonics.from_file, harmonics.from_dict, harmonics.to_ascii, harmonics.to_netCDF4, harmonics.to_HDF5, harmonics.to_index, harmonics.to_file, harmonics.to_dict, harmonics.to_masked_array, harmonics.add, harmonics.subtract, harmonics.multiply, harmonics.divide, harmonics.copy, harmonics.zeros, harmonics.zeros_like, harmonics.expand_dims, harmonics.squeeze, harmonics.flatten, harmonics.expand, harmonics.index, harmonics.subset, harmonics.truncate, harmonics.mean, harmonics.scale, harmonics.power, harmonics.drift, harmonics.convolve, harmonics.destripe, harmonics.amplitude, harmonics.shape, harmonics.ndim, harmonics.ilm, harmonics.__str__, harmonics.__len__, harmonics.__iter__, harmonics.__next__; **not**: harmonics.to_coo_array, harmonics.update_dimensions, harmonics.dtype, harmonics.__getitem__, harmonics.__setitem__
* `gravity_toolkit/legendre.py` - all
* `gravity_toolkit/legendre_polynomials.py` - all
* `gravity_toolkit/mascons.py` - all
* `gravity_toolkit/ocean_stokes.py` - all
* `gravity_toolkit/read_GIA_model.py` - modelled: read_GIA_model, gia.from_GIA; **not**: gia.__init__
* `gravity_toolkit/read_GRACE_harmonics.py` - all
* `gravity_toolkit/read_SLR_harmonics.py` - all
* `gravity_toolkit/read_gfc_harmonics.py` - all
* `gravity_toolkit/read_love_numbers.py` - modelled: read_love_numbers, love_number_formatter, extract_love_numbers, load_love_numbers, love_numbers.__init__, love_numbers.from_dict, love_numbers.to_dict, love_numbers.to_tuple, love_numbers.transform, love_numbers.update_dimensions, love_numbers.__len__, love_numbers.__iter__; **not**: love_numbers.__str__, love_numbers.__getitem__, love_numbers.__setitem__
* `gravity_toolkit/sea_level_equation.py` - all
* `gravity_toolkit/spatial.py` - modelled: spatial.__init__, spatial.case_insensitive_filename, spatial.compressuser, spatial.from_ascii, spatial.from_netCDF4, spatial.from_HDF5, spatial.from_index, spatial.from_list, spatial.from_file, spatial.from_dict, spatial.to_ascii, spatial.to_netCDF4, spatial.to_HDF5, spatial.to_index, spatial.to_file, spatial.default_field_mapping, spatial.update_mask, spatial.copy, spatial.zeros_like, spatial.expand_dims, spatial.extend_matrix, spatial.squeeze, spatial.index, spatial.subset, spatial.offset, spatial.scale, spatial.mean, spatial.flip, spatial.transpose, spatial.sum, spatial.power, spatial.max, spatial.min, spatial.replace_invalid, spatial.replace_masked, spatial.spacing, spatial.extent, spatial.__str__, spatial.__len__, spatial.__iter__, spatial.__next__, scaling_factors.from_ascii, scaling_factors.to_ascii, scaling_factors.kfactor, scaling_factors.update_mask; **not**: spatial.to_masked_array, spatial.dtype, spatial.shape, spatial.ndim, scaling_factors.__init__, scaling_factors.__getitem__, scaling_factors.__setitem__
* `gravity_toolkit/time.py` - modelled: parse_date_string, split_date_string, parse_grace_file, parse_gfc_file, reduce_by_date, adjust_months, calendar_to_grace, grace_to_calendar, calendar_to_julian, calendar_days, convert_datetime, convert_delta_time, convert_calendar_dates, convert_calendar_decimal, convert_julian; **not**: parse, datetime_to_list
* `gravity_toolkit/time_series/amplitude.py` - all
* `gravity_toolkit/time_series/fit.py` - all
* `gravity_toolkit/time_series/lomb_scargle.py` - all
* `gravity_toolkit/time_series/piecewise.py` - all
* `gravity_toolkit/time_series/regress.py` - all
* `gravity_toolkit/time_series/savitzky_golay.py` - all
* `gravity_toolkit/time_series/smooth.py` - all
* `gravity_toolkit/tools.py` - modelled: widgets.select_product, widgets.set_release, widgets.set_product, widgets.update_months, widgets.select_options, widgets.set_max_degree, widgets.set_max_order, widgets.set_pole_tide, widgets.set_atm_corr, widgets.select_corrections, widgets.select_remove_file, widgets.set_removefile, widgets.set_removelabel, colormap.__init__, colormap._r, colormap.value, colormap.levels, from_cpt, custom_colormap, wrap_longitudes, shift_grid, interp_grid, mask_oceans; **not**: widgets.__init__, widgets.select_directory, widgets.set_directory, widgets.select_GIA_file, widgets.select_mask_file, widgets.select_output, widgets.base_directory, widgets.GIA_model, widgets.landmask, widgets.unit_index, widgets.format, colormap.norm, colormap.label
* `gravity_toolkit/units.py` - modelled: units.__init__, units.b_axis, units.rad_e, units.rho_e, units.mass, units.harmonic, units.spatial, units.get, units.bycode, units.get_attributes; **not**: units.__getitem__, units.__setitem__
* `gravity_toolkit/utilities.py` - modelled: reify.__init__, reify.__get__, get_hash, url_split, convert_arg_line_to_args, get_unix_time, even, ceil, copy, create_unique_file, check_ftp_connection, ftp_list, from_ftp, http_list, from_http, attempt_login, build_opener, get_token, list_tokens, revoke_token, s3_bucket, s3_key, check_credentials, drive_list, from_drive, cmr_product_shortname, cmr_readable_granules, cmr_filter_json, cmr_metadata_json, cmr, cmr_metadata, compile_regex_pattern, from_figshare, to_figshare, from_csr, from_gfz, gsfc_list, from_gsfc, icgem_list; **not**: get_data_path, import_dependency, get_git_revision_hash, get_git_status, isoformat, _create_default_ssl_context, _create_ssl_context_no_verify, _set_ssl_context_options, check_connection, from_json, s3_region, s3_client
* `scripts/aod1b_geocenter.py` - all
* `scripts/aod1b_oblateness.py` - all
* `scripts/calc_degree_one.py` - modelled: model_seasonal_geocenter, calc_degree_one, print_header, print_harmonic, print_global, print_variables; **not**: load_grace_GSM, load_AOD
* `scripts/calc_harmonic_resolution.py` - all
* `scripts/calc_mascon.py` - all
* `scripts/calc_sensitivity_kernel.py` - all
* `scripts/cnes_grace_sync.py` - all
* `scripts/combine_harmonics.py` - all
* `scripts/convert_harmonics.py` - all
* `scripts/dealiasing_global_uplift.py` - all
* `scripts/dealiasing_monthly_mean.py` - all
* `scripts/esa_costg_swarm_sync.py` - all
* `scripts/geocenter_compare_tellus.py` - all
* `scripts/geocenter_monte_carlo.py` - all
* `scripts/geocenter_ocean_models.py` - all
* `scripts/geocenter_processing_centers.py` - all
* `scripts/gfz_icgem_costg_ftp.py` - modelled: gfz_icgem_costg_ftp, ftp_mirror_file; **not**: compile_regex_pattern
* `scripts/gfz_isdc_dealiasing_ftp.py` - all
* `scripts/gfz_isdc_grace_ftp.py` - all
* `scripts/grace_mean_harmonics.py` - modelled: grace_mean_harmonics, mean.from_harmonics, mean.to_gfc, mean.print_header, output_log_file; **not**: mean.__init__
* `scripts/grace_raster_grids.py` - modelled: grace_raster_grids; **not**: get_projection
* `scripts/grace_spatial_error.py` - all
* `scripts/grace_spatial_maps.py` - all
* `scripts/itsg_graz_grace_sync.py` - all
* `scripts/make_grace_index.py` - all
* `scripts/mascon_reconstruct.py` - all
* `scripts/monte_carlo_degree_one.py` - all
* `scripts/piecewise_grace_maps.py` - modelled: piecewise_grace_maps; **not**: output_data
* `scripts/podaac_cumulus.py` - all
* `scripts/quick_mascon_regress.py` - all
* `scripts/regress_grace_maps.py` - modelled: regress_grace_maps; **not**: output_data
* `scripts/run_grace_date.py` - all
* `scripts/run_sea_level_equation.py` - all
* `scripts/scale_grace_maps.py` - all

## Where the code departs from the property a user would expect
Found while modelling. Most are theorems about the model (an explicit counterexample, or a theorem that the call always raises) in
the property named; the rest are remarks from reading the code that the model reproduces.

* **Dates (C04–C07, C10)** `calendar_to_julian` is one day early for every date (C06); `grace_date` decimal dates are one day
  late relative to `convert_calendar_decimal` (C10); `adjust_months` on three equal months does not make them unique (C07);
  weekly dates are centred half a day early and an integer date list truncates the times.
* **Names and index (C80)** mission `None` is formatted as text; dealiasing RL04/05 names never match with a mission; RL04/05
  GSM patterns ignore the mission, so the index lists each file twice; `make_grace_index` always raises for GFZ RL05; dates of
  any length match but then raise; copies `x` and `x.gz` make the index depend on listing order.
* **Synchronisation programs (C79)** interrupted transfers leave truncated files that are kept for ever without a checksum
  comparison; `cnes_grace_sync` without `--log` raises; monthly AOD1B archives are never updated; the Swarm listing stops at the
  first page that is not full.
* **Dealiasing (C86)** months that cross a year raise; the day number has a sign error at century turns; completeness counts
  files, not distinct days; a truncated daily file loops for ever; `aod1b_oblateness` writes four hours only.
* **Text readers (C81–C85, C87, C91)** ascii grids: `date=True` always fails, columns either side of Greenwich collide, missing
  cells come back as zeros; NaN cosine takes the sine; data files: three equal months come back as zero, renamed variables are
  unreadable, writing leaks the title into the object; gfc: `from_gfc(date=True)` always raises, Swarm models never match;
  level-2: names written by the dealiasing program carry the release times hundred, `GRDOTA` lines outside RL04 GSM raise.
* **Love numbers (C44, C90)** extrapolation overwrites the last degree of the file; a copy of tables shares the arrays, so a
  frame change through two holders is applied twice; an empty last line makes a table unreadable.
* **Grids (C26–C28, C82, C88)** square single-date grids are transposed on reading; copies share attributes; `flatten().copy()`
  loses the degrees and orders.
* **Analysis (C39, C63 and following)** the NARROW option of destriping is the opposite of its documentation; weighted regression
  statistics square the weights; `FREQUENCY` in the periodogram is divided by 2π; a Loess fit with half-width ≤ 2 raises.
* **Synthesis** `harmonic_gradients` is the derivative of another field in the meridional direction and zero for zonal fields;
  geostrophic currents ignore `LMIN`; the pole row of Fourier synthesis is wrong; `fourier_legendre` needs even `lmax ≥ 4`.
* **Loads and masks** square grids are always read as latitude by longitude; units `mmGH` off by ten; a single point load raises;
  `to_jpl` divides once too often; `ocean_stokes` simplification is not idempotent.
* **Programs (C89, C92, C93 and the mascon, degree-one and sea-level programs)** maps with removed data files always raise; the
  cached error file name omits several options, so stale errors are reused; mean files in gfc form cannot be read back;
  `FIT_METHOD` 2 overwrites the fitted mass; default solver leaves degree-one matrices zero; failure to converge is not reported.
* **Utilities (C45 and following)** `url_split` does not terminate on `//…`; `create_unique_file` loops on a missing directory;
  granules and links misalign when a link is missing.
* **Maps of trends (C94)** labels follow the order of the cycles but the fit puts tides last, so a tide before the annual cycle
  exchanges labels; cycles that are neither seasonal nor tidal get no file; no cycles (the default) or orders above 2 raise; text
  maps are unreadable; the error of the second slope ignores correlation; amplitude files of `piecewise_grace_maps` lack `_AMPL`.
* **Scaled maps (C95)** text files of factors are never readable (columns `kfactor` looked up as `data`, errors `None`); LMIN is
  ignored in the maps; removing fields always raises; square grids transpose only the factors; negative factors give negative
  errors; zero power with zero magnitude gives -9999 times the error.
* **Converted maps (C96)** `convert_harmonics` exchanges latitudes and longitudes of square series (single square maps are right by
  two cancelling transpositions), never converts text files, and raises IndexError on undated series.
* **Uplift maps (C97)** `dealiasing_global_uplift` writes zero maps dated 24 h before the month for days without a file, cannot write
  text (ValueError after opening the file, which later runs then take as up to date), and never ends on a short daily file.
* **Fingerprints (C98)** `run_sea_level_equation` cannot write a series as text (ValueError after opening the file), nor a series without
  dates to netCDF4, and offers the frame CM for which the solver divides by zero.
* **Regression model (C99)** `regress_model` raises TypeError with its default `CYCLES=None`, and LinAlgError for a single input date.
* **Index of months (C100)** `grace_months_index` opens (empties) GRACE_months.txt first; a dataset with a repeated month, a single month or
  no month ends it with an exception, losing the lines of all datasets from there on.
* **Login (C101)** `attempt_login` raises UnboundLocalError when stored credentials are rejected (`prompt` is only assigned if the password
  was typed), asks for one pair more than it checks, and leaves a rejected opener installed; `get_token` and its relatives pass
  `username=None` on, which disables the environment variables.
* **Loops (C102)** the objects are their own iterators: nested loops over one object stop after its first month, `next(iter(obj))` inside a
  loop makes it endless; `len` of `zeros_like` is zero; `str` raises for a series of two months or more and for a single month.
* **Monte Carlo geocenter (C103)** `monte_carlo_degree_one` adds the GIA and atmospheric degree one coefficients to the solution in units of
  mass, before dividing by the mass factor (`calc_degree_one` adds them after): the output lacks the geocenter of GIA and atmosphere.
* **CMR queries (C104)** the granule pattern `???{version}*` skips release and the first digit of the version: versions of two digits cannot
  be asked for, version 0 selects 10, 20, ... too; with the default `product=None` the pattern starts with `None-2_` and selects nothing.
* **Rasters (C105)** `grace_raster_grids` makes one column and one row of cells outside the bounds (`arange` ends at `xmax + dx`), starts the
  rows at `ymin + dx/2` instead of `ymin + dy/2`, and fails for `MMAX < LMAX` (`clenshaw_summation` reads all orders up to `LMAX`).
* **Summaries (C106)** `quick_mascon_regress` raises an IndexError after the last label (leaving a truncated file) when a cycle is neither
  half a year, a year nor the alias of a tide; labels are wrong when tides are given before seasonal cycles; a breakpoint that is not the
  month of exactly one line, or a singular fit, leaves an empty summary because the file is opened first; inputs that differ only in
  their suffix share the summary.
* **Plots of series (C107)** `quick_mascon_plot` fails (default options) for any series that does not have exactly one line for month 186
  and one for month 198, e.g. a series of one mission; with `--individual`, several files and an output file, `output` is a string without
  `chmod`: only the first figure is saved, and without the directory that was given; a repeated month ends the run.
* **Ftp stamps (C108)** `get_unix_time` accepts a stamp with a digit missing (13 digits read as another time) and takes stamps with
  fractions of seconds as local time; `ftp_list` of a host without a path raises TypeError.
* **Downloads (C109)** `from_csr` raises TypeError with its default `variable=None` and ignores unknown names; `from_ftp` writes the file and
  then raises TypeError if the answer to MDTM cannot be read; `from_gsfc(copy=True)` raises ValueError after the update unless exactly one line
  starts with `Data span:`.
* **File search (C110)** `case_insensitive_filename` gives the name to `re.match` as an expression without end: a missing `a.txt` is silently
  replaced by `a.txt.bak` or `A-TXT`, the last one of the listing; `harmonics.from_file(format='SHM')` always raises TypeError
  (`from_SHM` has no parameter for the degree); unknown formats return None from `from_file` and write nothing in `to_file`.
* **Geocenter figures (C111)** the left end of the time axis is `2002 + (START_MON + 1)//12`: figures that start in a November or December cut
  off their first month; all four programs need exactly one record of months 186 and 198 (ValueError otherwise, also for series that end
  earlier); the `GFZwPT` branches of `geocenter_compare_tellus` cannot be reached; an unknown center is a KeyError, a sixth ocean model an IndexError.
* **Geocenter attributes (C112)** `from_dict`/`from_netCDF4` on a used object keep stale attributes; `copy` replaces None by `array(None)`;
  `scale` and `power` reset the radius to the default and drop errors and cartesian coordinates.
* **Job logs (C113)** the programs with `--log` never write into their logs: `main` has configured logging before, so the second `basicConfig`
  does nothing, and `create_unique_file` opens a *binary* file, so `traceback.print_exc(file=fid)` raises TypeError; a failed analysis
  ends with status 0 and, without `-V`, without its reason; `--log` with a missing output directory loops forever; `-VVV` is an IndexError.
* **Maps of grids (C114)** no map program passes `MASK` or `REMOVE_FILE` on from the command line; the multi-panel default `--format` is the text
  `netCDF4` whose first letter is taken as format, so the programs always fail without `--format`; a field to remove fails (truth value of an
  array); the name `mask` is rebound in the loop, so only the first panel is masked and movies end after one frame (ValueError); the land-sea mask
  hides land instead of ocean and is ignored if its dimensions differ; movies of 0-360 grids with end points fail (`data.lat` of a masked array);
  interval 2 with an odd number of columns shows a wrong column at the western edge; negative spacing gives a negative number of rows.
* **Colour maps (C115)** `custom_colormap` divides by zero for one slice (`Seroussi`: three or four) and returns a map without colours for fewer;
  `from_cpt` finds the colour model and flags in either case but uses only capitals: `COLOR_MODEL = hsv` gives a map with locations None;
  the widget `colormap` starts with step 0 for ranges below ten units and then cannot give its ticks.
* **Index files of grids (C116)** `spatial.index` passes over every failure: for an object without time dimension it returns an object without data;
  maps of a square grid read from an index are transposed; a series read from an index cannot be written to a single file (its attributes are a list).
* **Text of objects (C117)** `str(harmonics)`, `str(spatial)` and `str(geocenter)` raise ValueError for every series (`if self.month:` of an array) and
  TypeError for a single date read from a file; `len` and `bool` of the latter raise; `harmonics.squeeze(update_dimensions=False)` assigns properties
  and always raises AttributeError; `spatial.from_dict` ignores a mask and keeps stale arrays of an object that was used before.
* **Legendre dispatcher (C118)** the docstring of `associated_legendre` names the method `'columbo'`; the code accepts only `'colombo'` and raises
  ValueError for the documented name.
* **Files from Graz (C119)** `itsg_graz_grace_sync` keeps the fields of all maximum degrees (60, 96, 120) and of Grace2018 and Grace_operational in one
  folder `GRAZ/2018/GSM` with one index: after runs with two choices the index names a month twice. A dealiasing file in other capitals passes the
  case-insensitive pattern and then raises KeyError, so that no field is transferred.
* **Geocenter files made with ICE-6G (C120)** `print_global` writes the reference of the GIA model as a plain scalar; the reference of `ICE6G` has ": "
  twice ("deglaciation: The global", "Research: Solid Earth"), so the header is not YAML and `geocenter.from_UCI` raises for every such file.
* The header of the Monte Carlo geocenter files announces the Fortran format `(f11.4,3e14.6,i4)`; the lines hold six coefficients (C122).
* **Refused credentials stay installed (C123)** `drive_list` and `from_drive` install the opener before the credentials are checked; after the
  `RuntimeError` every later call with `build=False` goes on with them. If only one of user name and password is given, `.netrc` is not read.
* **Links of the GSFC page (C123)** `gsfc_list` puts every link below the root of the server: a relative link loses the directory of the page, and a link
  with its own scheme and server becomes an address that does not exist.
* **Widgets of the notebooks (C124)** `set_max_degree` compares the widget `self.center`, not its value, with the names of the centers, so every change of
  release ends in `UnboundLocalError` before the boxes for pole tide and atmosphere are set, and the bound of the degree never changes.
* **Widgets of the notebooks (C124)** a change of the product does not update the months shown; `set_pole_tide` is not called for it either. A file name with a
  comma becomes two names.
* **Uploads (C125)** `to_figshare` raises TypeError with its default `directory=None` (after the failure to make the directory is passed over); a nested
  directory is not made; two local files with the same name overwrite each other without notice.
* **Static models (C125)** in `icgem_list` the dot of `(.*?).gfc` stands for any character and the last match is taken: every name with the suffix twice
  becomes the empty name, and a link to a file named `gfc` ends with IndexError.
