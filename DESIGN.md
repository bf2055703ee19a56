# Formal model of cloudnetpy in Lean 4: design

## What is here

* `properties.jsonl`: the properties a user relies on, in terms of API and observable effects.
* `lean/Verif/<Topic>/Model.lean`: the model. One definition per function of `/repo`, each with a
  comment citing file and lines and stating every simplification.
* `lean/Verif/<Topic>/Spec.lean`: small independent specifications (where the property theorem needs
  vocabulary of its own). A spec never calls the model.
* `lean/Verif/<Topic>/Lemmas.lean`: helper lemmas.
* `lean/Verif/<Topic>/Props.lean`: the property theorems (`C01_...`), each followed by an `example`
  showing that a concrete non-trivial case meets its hypotheses.
* `MANIFEST.json`: property -> status and theorem names.
* `seeded/LOG.jsonl`: the wrong programs tried against the theorems.

## Trusted base

* Lean's kernel (4.33.0). No compiled evaluation is trusted: no `native_decide`, no `bv_decide`.
* Axioms: only Lean's standard `propext`, `Classical.choice`, `Quot.sound`. No axiom is added, no
  `sorry`/`admit`. `lean/Verif/Axioms.lean` prints the axioms of every property theorem at build time.
* The reading of the code: the model is tied to `/repo` only by the line citations in the comments.
  The code is not run here.
* NumPy, SciPy, netCDF4, datetime and Python builtins are modelled by their documented behaviour
  (listed below); they are not verified.

## Modelling decisions

* **Masked arrays** are functions/lists of `Option α`, `none` = masked. Arithmetic on a masked value
  is masked; a comparison on a masked value is masked and does not select in an assignment.
* **Grids**: 2-D arrays are functions `ℕ → ℕ → α` (time, height) with the sizes passed explicitly;
  theorems speak about in-range indices (or all, where the code is pointwise). 1-D arrays are
  functions with a length, or `List`s where the code builds or consumes sequences.
* **Numbers**: times, heights, reflectivities are elements of an arbitrary linear ordered field (or
  ℚ/ℝ). Theorems about numbers are therefore about exact arithmetic: rounding, NaN, inf and overflow
  are outside the model, except in these places. Rounding to 32 and 64 bits when values are stored
  is modelled for C162. Time grids, times of day, bins, windows and dates are also modelled in double
  precision, operation by operation (C179–C183), which shows how far the exact models of C35, C36 and
  of rebinning are right; means of bins and heights of gates in single precision (C185, C186). Integers are unbounded except where stated.
* **In-place assignment** through a mask becomes functional update, in the order of the code.
* **Exceptions** are values (`Except`); a run that raises has no other result.
* **Loops** become folds or structural recursion.
* **External functions** (`atmoslib`, Gaussian filter, interpolation splines, file system, network)
  are parameters. What is assumed about a parameter is a hypothesis of the theorem and listed below.

## What is not modelled

Floating-point rounding other than for C162, C179–C183, C185 and C186; netCDF/HDF5 encoding and compression
(types and fill values are: C162); texts of log messages; what Matplotlib draws (which data, limits,
ticks and labels it is given is modelled); network access of the CLI and API client; binary decoding of vendor
files beyond the quoted functions; performance and memory use (sharing of arrays is: C177, C178);
concurrency (the code has none beyond the CLI's sequential calls); `atmoslib` formulas; Gaussian
smoothing; spline interpolation (external calls).
## Per property plan

| id | property | model and proof |
|---|---|---|
| C01 | category_bits round trip | `Bits`: `setbit`/`isbit` on unbounded naturals/integers through `Nat.testBit`; `_classes_to_bits` as the loop over dataclass fields. Round trip by `testBit` extensionality, induction over the flag list; lifted to all pixels pointwise. |
| C02 | quality_bits round trip | `Bits`: `setbit`/`isbit` on unbounded naturals/integers through `Nat.testBit`; `_classes_to_bits` as the loop over dataclass fields. Round trip by `testBit` extensionality, induction over the flag list; lifted to all pixels pointwise. |
| C03 | corrected attenuation flags are a subset of attenuated flags | `Classify`: pointwise model of `fetch_quality`; Boolean algebra. |
| C04 | bit setting and testing algebra | `Bits`: `setbit`/`isbit` on unbounded naturals/integers through `Nat.testBit`; `_classes_to_bits` as the loop over dataclass fields. Round trip by `testBit` extensionality, induction over the flag list; lifted to all pixels pointwise. |
| C05 | target classification is a total decision table | `Classification`: the sequence of mask assignments as a sequence of conditional updates; the specification is a priority table written separately. Complete finite Boolean tables by case split. |
| C06 | detection status is a total decision table | `Classification`: the sequence of mask assignments as a sequence of conditional updates; the specification is a priority table written separately. Complete finite Boolean tables by case split. |
| C07 | signal source status partitions pixels | `Classification`: the sequence of mask assignments as a sequence of conditional updates; the specification is a priority table written separately. Complete finite Boolean tables by case split. |
| C08 | cloud base and top heights | `Atmos`: argmax/argmin-style first/last search over columns; characterised by minimality/maximality. |
| C09 | cloud mask drops exactly the small objects | `Components`: computable flood fill for `scipy.ndimage.label`, proved equal to reachability (`ReflTransGen`) through adjacent set pixels; then filters characterised by component size. |
| C10 | radar attenuation status | `Classification`: ffill from `Utils`, pointwise updates; specification by existence of a severe pixel below. |
| C11 | cloud top height status | `Classification`: ffill from `Utils`, pointwise updates; specification by existence of a severe pixel below. |
| C12 | ice retrieval status agrees with ice data | `Ice`: pointwise model of IceClassification/IceSource; status table as specification. C14 over ℝ with `Real.rpow`. |
| C13 | rain flag is conservative | `Ice`: pointwise model of IceClassification/IceSource; status table as specification. C14 over ℝ with `Real.rpow`. |
| C14 | ice retrieval is monotone and positive | `Ice`: pointwise model of IceClassification/IceSource; status table as specification. C14 over ℝ with `Real.rpow`. |
| C15 | droplet effective radius retrieval status | `Drizzle`, `Der`: pointwise tables; index sets as predicates. |
| C16 | drizzle classification and retrieval status | `Drizzle`, `Der`: pointwise tables; index sets as predicates. |
| C17 | drizzle products never report rain or zero | `Drizzle`, `Der`: pointwise tables; index sets as predicates. |
| C18 | drizzle errors cover exactly the drizzle pixels | `Drizzle`, `Der`: pointwise tables; index sets as predicates. |
| C19 | LWC conserves liquid water path | `Lwc`: sums over `Finset.range`, reset sums through `cumsumr`; field arithmetic. |
| C20 | adiabatic LWC is non-negative, cloud-confined and restarts at each cloud base | `Lwc`: sums over `Finset.range`, reset sums through `cumsumr`; field arithmetic. |
| C21 | cloud bases and tops pair up | `Atmos`: bases/tops via diff; proof by induction over the scanned list of pixels. |
| C22 | LWC retrieval status | `Lwc`: sums over `Finset.range`, reset sums through `cumsumr`; field arithmetic. |
| C23 | liquid layer base and top search | `Droplet`: index searches; bounds by omega, characterisation by first-index lemmas. |
| C24 | liquid top correction only extends clouds upwards in a bounded way | `Droplet`: index searches; bounds by omega, characterisation by first-index lemmas. |
| C25 | forward fill | `Utils`: running maximum of indices; induction on index. |
| C26 | cumulative sum that resets at zeros | `Utils`: running maximum of indices; induction on index. |
| C27 | isolated pixel filter | `Components`: computable flood fill for `scipy.ndimage.label`, proved equal to reachability (`ReflTransGen`) through adjacent set pixels; then filters characterised by component size. |
| C28 | small object removal | `Components`: computable flood fill for `scipy.ndimage.label`, proved equal to reachability (`ReflTransGen`) through adjacent set pixels; then filters characterised by component size. |
| C29 | bin edges | `Rebin`, `Interp`: grids over a linear ordered field; digitize/searchsorted as counts of edges; bins proved to partition. |
| C30 | 2-D rebinning partitions samples | `Rebin`, `Interp`: grids over a linear ordered field; digitize/searchsorted as counts of edges; bins proved to partition. |
| C31 | 1-D rebinning | `Rebin`, `Interp`: grids over a linear ordered field; digitize/searchsorted as counts of edges; bins proved to partition. |
| C32 | nearest neighbour interpolation along height | `Rebin`, `Interp`: grids over a linear ordered field; digitize/searchsorted as counts of edges; bins proved to partition. |
| C33 | gap detection | `Rebin`, `Interp`: grids over a linear ordered field; digitize/searchsorted as counts of edges; bins proved to partition. |
| C34 | 1-D interpolation respects bounds and gaps | `Rebin`, `Interp`: grids over a linear ordered field; digitize/searchsorted as counts of edges; bins proved to partition. |
| C35 | time grid covers the day | `Rebin`, `Interp`: grids over a linear ordered field; digitize/searchsorted as counts of edges; bins proved to partition. |
| C36 | seconds to hours | `Rebin`, `Interp`: grids over a linear ordered field; digitize/searchsorted as counts of edges; bins proved to partition. |
| C37 | valid time indices | `Times`: lists of time stamps; np.unique as sorted deduplication with first indices; permutation/alignment theorems. |
| C38 | duplicate removal and sorting of timestamps | `Times`: lists of time stamps; np.unique as sorted deduplication with first indices; permutation/alignment theorems. |
| C39 | file concatenation | `Concat`: files as records of variables; fold over files; sequence-of-updates invariant by induction. |
| C40 | updating a daily file | `Concat`: files as records of variables; fold over files; sequence-of-updates invariant by induction. |
| C41 | history merging | `Output`: dictionaries as association lists/functions; histories as lists of lines. |
| C42 | source identifiers | `Output`: dictionaries as association lists/functions; histories as lists of lines. |
| C43 | attribute precedence | `Output`: dictionaries as association lists/functions; histories as lists of lines. |
| C44 | class flag consistency after classification | `Classify`: every pass characterised pixel by pixel, five rounds of the first two by induction, dilation as a Chebyshev neighbourhood; the composition `classify_measurements` from the theorems about its parts, and a theorem that it returns. |
| C45 | insects are screened | `Insects`, `Falling`: each estimate as a pointwise or column-wise update; the pairing of bases and tops from `Atmos`. |
| C46 | falling hydrometeors | `Insects`, `Falling`: each estimate as a pointwise or column-wise update; the pairing of bases and tops from `Atmos`. |
| C47 | two-way attenuation accumulates | `Attenuation`: masked arithmetic, finite sums, Boolean relations. |
| C48 | attenuation bookkeeping | `Attenuation`: masked arithmetic, finite sums, Boolean relations. |
| C49 | radar echo correction | `Attenuation`: masked arithmetic, finite sums, Boolean relations. |
| C50 | incomplete radar pixels are removed | `Radar`: masks and fold over stripes; order statistics of ten counts. |
| C51 | stable radar pointing selection | `NcRadar`: profile-wise conditions on optional angles, masks on dictionaries of fields, the cosine from Mathlib. |
| C52 | ceilometer screening above negative runs | `Ceilo`: the screening passes of a profile, composed as in `screen_data`; the theorem gives the set of removed gates. |
| C53 | cumulative rain amount | `Gauge`: loop state as a recursive function of the index; consecutive known readings; comparison with a list specification. |
| C54 | disdrometer rows stay aligned | `Disdro`: token parsers as functions on token lists; the column dictionaries as folds with lookup invariants. |
| C55 | RPG angle decoding | `Rpg`: integer decoding, list segments, flag bits and merging of records. |
| C56 | Nyquist velocity expansion | `Rpg`: integer decoding, list segments, flag bits and merging of records. |
| C57 | HATPRO record screening | `Rpg`: integer decoding, list segments, flag bits and merging of records. |
| C58 | disdrometer bin geometry | `Disdro`: token parsers as functions on token lists; the column dictionaries as folds with lookup invariants. |
| C59 | model grid windows partition observations | `ModelEval`: half-open windows, the loop over cells as a fold, averages over finite sets; distributions of ice water content are parameters. |
| C60 | observed cloud fraction | `ModelEval`: half-open windows, the loop over cells as a fold, averages over finite sets; distributions of ice water content are parameters. |
| C61 | cirrus filter | `ModelEval`: half-open windows, the loop over cells as a fold, averages over finite sets; distributions of ice water content are parameters. |
| C62 | advection window | `ModelEval`: half-open windows, the loop over cells as a fold, averages over finite sets; distributions of ice water content are parameters. |
| C63 | wavelength band | `Misc`: decision logic over ordered fields. |
| C64 | instrument preference selection | `Cli`: strings as character lists, the portal as functions, the set iteration order and the completion order of downloads as arbitrary permutations. |
| C65 | bad profiles are removed consistently in categorize | `Categorize`: profile screening over optional values with one record per profile, nearest-neighbour gridding against a closest-point specification, dictionaries as association lists. |
| C66 | output variable precedence | `Categorize`: profile screening over optional values with one record per profile, nearest-neighbour gridding against a closest-point specification, dictionaries as association lists. |
| C67 | rain detection and clutter | `Rain`, `Freezing`: decision logic on profiles with data under masks; interpolation of freezing altitudes between anchors; every profile and gate characterised. |
| C68 | freezing region | `Rain`, `Freezing`: decision logic on profiles with data under masks; interpolation of freezing altitudes between anchors; every profile and gate characterised. |
| C69 | combination of errors | `Numeric`: square roots from Mathlib. |
| C70 | rebinning Doppler velocity | `Radar`: `Complex.arg` of a sum of unit vectors, on top of the rebinning theorems of C30. |
| C71 | classification file end to end | `ClassFile`: composition of the bit decoding, the decision tables and the cloud layer model. |
| C72 | drizzle retrieval | `Drizzle`: the pixel loop as a fold over the row-major list of drizzle pixels with an invariant on the correction factor; the inner loop by induction on the iterations left; bisection by induction on the interval. Over ℝ with Gamma and exp from Mathlib. |
| C73 | drizzle derived products | `Drizzle`: the pixel loop as a fold over the row-major list of drizzle pixels with an invariant on the correction factor; the inner loop by induction on the iterations left; bisection by induction on the interval. Over ℝ with Gamma and exp from Mathlib. |
| C74 | table look-up by bisection | `Drizzle`: the pixel loop as a fold over the row-major list of drizzle pixels with an invariant on the correction factor; the inner loop by induction on the iterations left; bisection by induction on the interval. Over ℝ with Gamma and exp from Mathlib. |
| C75 | gate edges to mid points | `Rebin`, `Interp`: grids over a linear ordered field; digitize/searchsorted as counts of edges; bins proved to partition. |
| C76 | source attributes are merged without loss | `Output`: dictionaries as association lists/functions; histories as lists of lines. |
| C77 | copying variables and global attributes | `Output`: dictionaries as association lists/functions; histories as lists of lines. |
| C78 | LWC error | `Lwc`: sums over `Finset.range`, reset sums through `cumsumr`; field arithmetic. |
| C79 | number of grid elements in a distance | `Droplet`: index searches; bounds by omega, characterisation by first-index lemmas. |
| C80 | liquid layers from lidar | `Droplet`: index searches; bounds by omega, characterisation by first-index lemmas. |
| C81 | LWP interpolation | `Droplet`: index searches; bounds by omega, characterisation by first-index lemmas. |
| C82 | melting layer | `Melting`: window, peak foot and top, longest run of increasing velocity; Gaussian weights over the reals bounded by the exponential inequality. |
| C83 | radar artifact filters | `Radar`: masks and fold over stripes; order statistics of ten counts. |
| C84 | radar echo sensitivity and precision | `RadarError`: order statistics by sorting, real logarithms, index arithmetic of repeated segments. |
| C85 | position of a moving radar | `RadarError`: order statistics by sorting, real logarithms, index arithmetic of repeated segments. |
| C86 | folding velocity of chirp segments | `RadarError`: order statistics by sorting, real logarithms, index arithmetic of repeated segments. |
| C87 | lidar on the Cloudnet grid | `Categorize`: profile screening over optional values with one record per profile, nearest-neighbour gridding against a closest-point specification, dictionaries as association lists. |
| C88 | input files of categorize are independent of download order | `Cli`: strings as character lists, the portal as functions, the set iteration order and the completion order of downloads as arbitrary permutations. |
| C89 | rain amount from rain rate | `Gauge`: loop state as a recursive function of the index; consecutive known readings; comparison with a list specification. |
| C90 | wind direction wrapping | `Gauge`: loop state as a recursive function of the index; consecutive known readings; comparison with a list specification. |
| C91 | RPG radar zenith angle filter | `Rpg`: integer decoding, list segments, flag bits and merging of records. |
| C92 | RPG radar fill values and outliers | `Rpg`: integer decoding, list segments, flag bits and merging of records. |
| C93 | consistent masks of netCDF radars | `NcRadar`: profile-wise conditions on optional angles, masks on dictionaries of fields, the cosine from Mathlib. |
| C94 | height above sea level from range | `NcRadar`: profile-wise conditions on optional angles, masks on dictionaries of fields, the cosine from Mathlib. |
| C95 | ceilometer depolarisation, sunbeams and smoothing | `Ceilo`: the screening passes of a profile, composed as in `screen_data`; the theorem gives the set of removed gates. |
| C96 | day statistics of model evaluation | `ModelEval`: half-open windows, the loop over cells as a fold, averages over finite sets; distributions of ice water content are parameters. |
| C97 | model fields for evaluation | `ModelEval`: half-open windows, the loop over cells as a fold, averages over finite sets; distributions of ice water content are parameters. |
| C98 | coordinates of input files | `Source`: opening files as functions of optional variables with units; composed with the interpolation theorems; decibels over the reals. |
| C99 | liquid water path of categorize | `Source`: opening files as functions of optional variables with units; composed with the interpolation theorems; decibels over the reals. |
| C100 | disdrometer input of categorize | `Source`: opening files as functions of optional variables with units; composed with the interpolation theorems; decibels over the reals. |
| C101 | decibel conversion | `Source`: opening files as functions of optional variables with units; composed with the interpolation theorems; decibels over the reals. |
| C102 | weather radar files | `WRadar`: files as records of optional blocks; sorting with duplicates removed characterised by the first file of each time; means over finite sets of rays. |
| C103 | dissipation rate from a spectrum | `Epsilon`: the discrete Fourier transform over ℂ with orthogonality and Parseval's identity; cumulative sums and binary search reduced to filters; normal equations; the cubic spline and the wind are parameters of the windows. |
| C104 | times and gaps of the radar dissipation rate | `Epsilon`: the discrete Fourier transform over ℂ with orthogonality and Parseval's identity; cumulative sums and binary search reduced to filters; normal equations; the cubic spline and the wind are parameters of the windows. |
| C105 | wind speed for the dissipation rate | `Epsilon`: the discrete Fourier transform over ℂ with orthogonality and Parseval's identity; cumulative sums and binary search reduced to filters; normal equations; the cubic spline and the wind are parameters of the windows. |
| C106 | input files of a MIRA radar | `Mira`: file names as character lists with the pattern matcher characterised by the names it accepts; variables as a fold over the key map; profiles as a list passed through stages, each characterised, composed with C51. |
| C107 | variables and header of a MIRA file | `Mira`: file names as character lists with the pattern matcher characterised by the names it accepts; variables as a fold over the key map; profiles as a list passed through stages, each characterised, composed with C51. |
| C108 | profiles of a MIRA radar | `Mira`: file names as character lists with the pattern matcher characterised by the names it accepts; variables as a fold over the key map; profiles as a list passed through stages, each characterised, composed with C51. |
| C109 | pixels and gates of Copernicus, Galileo and BASTA | `Chilbolton`: range gates and pixels as functions, the stages composed with C93; selection of array records with the lemmas of C36. |
| C110 | ranges while times are selected | `Chilbolton`: range gates and pixels as functions, the stages composed with C93; selection of array records with the lemmas of C36. |
| C111 | data logger files (TOA5) | `Station`: lines as lists of fields; the header of a data logger as a position for each column; a general loop that appends fields to named columns, characterised once and instantiated for the readers; dates and floats are parameters. |
| C112 | columns of weather station files with titles | `Station`: lines as lists of fields; the header of a data logger as a position for each column; a general loop that appends fields to named columns, characterised once and instantiated for the readers; dates and floats are parameters. |
| C113 | lines of other weather station files | `Station`: lines as lists of fields; the header of a data logger as a position for each column; a general loop that appends fields to named columns, characterised once and instantiated for the readers; dates and floats are parameters. |
| C114 | variables of a weather station | `Station/Pipe`: columns as lists; selecting records as composition of index lists, on top of C53, C89 and C90. |
| C115 | rain gauge and present weather sensor | `Precip`: records as lists through the stages; argsort as any permutation that sorts; amounts by C53. |
| C116 | Parsivel files of data loggers | `Disdrom/Logger`: rows of fields with titles; a fold that skips bad rows, characterised by a filter. |
| C117 | output of Parsivel and Thies disdrometers | `Disdrom/Pipe`: tables of columns through date screening, sorting, removing duplicates and conversion; records by index lists. |
| C118 | reading Thies telegrams | `Disdrom/Thies`: parsing of lines as a partial function; `raw_data` as a fold of appends, characterised column by column. |
| C119 | RD-80 disdrometers | `Disdrom/Rd80`: rows as dictionaries of titles; `np.unique` by first indices; formulas over the reals. |
| C120 | reading Thies LPM telegrams | `Disdronator/Lpm`: columns as lists by number, a broken telegram leaves its first fields; every column is characterised by the lines it comes from. |
| C121 | reading Parsivel files with a telegram | `Disdronator/Parsivel`: rows split among the elements of the telegram; alignment from the fact that a row counts as a whole; dictionaries by the last entry. |
| C122 | reading Radiometrics files | Model the rows made by csv.reader, the records, superblocks, titles and processors as state of recursive functions; int, float and datetime are parameters, times integers. Proved by induction over records with the titles and counts so far as invariant; combination by permutation and sorting of the rows. |
| C123 | combining Radiometrics files | Model the rows made by csv.reader, the records, superblocks, titles and processors as state of recursive functions; int, float and datetime are parameters, times integers. Proved by induction over records with the titles and counts so far as invariant; combination by permutation and sorting of the rows. |
| C124 | reading text files of ceilometers | Model the messages of ceilopyter, the attributes of netCDF files and the PollyXT files as records; selections by index lists, masked values with the data below the mask where the mask is replaced, and the module-level instrument as state between calls. Proved by induction over messages, lines, files and calls. |
| C125 | choice of ceilometer reader and published lidar variables | Model the messages of ceilopyter, the attributes of netCDF files and the PollyXT files as records; selections by index lists, masked values with the data below the mask where the mask is replaced, and the module-level instrument as state between calls. Proved by induction over messages, lines, files and calls. |
| C126 | PollyXT files | Model the messages of ceilopyter, the attributes of netCDF files and the PollyXT files as records; selections by index lists, masked values with the data below the mask where the mask is replaced, and the module-level instrument as state between calls. Proved by induction over messages, lines, files and calls. |
| C127 | MRR-PRO files | Model an MRR-PRO file as stamps and rows of masked numbers that keep the number below the mask; an RPG file as range, chirps, header and data with 0, 1 or 2 dimensions, and the day as resampling, padding, expansion and stacking of the files. Proved by induction over the files, with the interpolation properties of C56. |
| C128 | a day of RPG cloud radar files | Model an MRR-PRO file as stamps and rows of masked numbers that keep the number below the mask; an RPG file as range, chirps, header and data with 0, 1 or 2 dimensions, and the day as resampling, padding, expansion and stacking of the files. Proved by induction over the files, with the interpolation properties of C56. |
| C129 | Level 1b files on disk | Model a netCDF file as dimensions, variables (type, dimensions, shape, fill value, content, attributes) and global attributes, and saving as a sequence of writes that stops at the first error and leaves what was written. `fits` stands for the broadcasting rule of netCDF4 when data are assigned to a variable. Proved by induction over arrays and copied variables, with C41, C42, C76 for the merged attributes. |
| C130 | product files on disk | Model a netCDF file as dimensions, variables (type, dimensions, shape, fill value, content, attributes) and global attributes, and saving as a sequence of writes that stops at the first error and leaves what was written. `fits` stands for the broadcasting rule of netCDF4 when data are assigned to a variable. Proved by induction over arrays and copied variables, with C41, C42, C76 for the merged attributes. |
| C131 | categorize files on disk | Model a netCDF file as dimensions, variables (type, dimensions, shape, fill value, content, attributes) and global attributes, and saving as a sequence of writes that stops at the first error and leaves what was written. `fits` stands for the broadcasting rule of netCDF4 when data are assigned to a variable. Proved by induction over arrays and copied variables, with C41, C42, C76 for the merged attributes. |
| C132 | Level 3 files on disk | Model a netCDF file as dimensions, variables (type, dimensions, shape, fill value, content, attributes) and global attributes, and saving as a sequence of writes that stops at the first error and leaves what was written. `fits` stands for the broadcasting rule of netCDF4 when data are assigned to a variable. Proved by induction over arrays and copied variables, with C41, C42, C76 for the merged attributes. |
| C133 | radiometer Level 1c and Level 2 files | Use the file model of C129 for `hatpro2l1c` and `mwr_tools.py`; the retrievals of mwrpy are arguments. Acceptance, file and attributes as equivalences and lookups of every key; text replacement by induction over the characters; the failing composition from C133_l1c_file and C133_harmonized_iff. |
| C134 | site coordinates of instrument files | Model `add_site_geolocation` with values as numbers or arrays of optional numbers; sources as an inductive specification (`Spec.Located`), proved equivalent to the search; cosine and text parsing are arguments. |
| C135 | epoch of time units | Model `get_epoch` on characters; the dates of the calendar are specified by month lengths. Cases of the date as separate implications, text of units by list lemmas. |
| C136 | interpolation on two-dimensional grids | Model `interpolate_2d` as iterated linear interpolation and `interpolate_2d_mask` with the triangulation of `griddata` as an argument, of which only the defining properties (`Spec.Delaunay`) are assumed; that such a triangulation exists is proved. Weighted sums by induction over the corners. |
| C137 | weather model of the categorize file | Model `categorize/model.py` on top of C136 with the functions of atmoslib as arguments; numbers under the mask are part of the model file. Exactness for linear fields is the composition of the one- and two-dimensional interpolation. |
| C138 | daily, shortened and joined files | Model the three functions on top of the concatenation of C39 and the epoch of C135; dates are numbered by `toordinal`, which is characterised by the next day of the calendar. |
| C139 | files with ice water content and effective radius of ice | Model `generate_iwc` and `generate_ier` as functions of the variables of the categorize file, down to the written variables and units; compare with the empirical laws written from the papers. |
| C140 | file with effective radius of droplets | Model `generate_der` as one function of the variables of the categorize file; compare with moments of a lognormal distribution (number, effective radius, reflectivity, liquid water). |
| C141 | what a run of the command line tool makes | Model `cli.run` as a writer monad: the list of downloads and product calls, and an exception or not; downloads and calls act on a disk. Characterise the list of calls of a successful run; failed runs by comparison with a world without failures. |
| C142 | file with liquid water content | Compose the models of C19, C20, C22 and C78 to `generate_lwc` as a function of the variables of the categorize file; state content, status and error of the file in terms of bits, heights and paths. |
| C143 | drizzle file | Compose the models of C16, C17, C18, C72 and C73 to `generate_drizzle` as a function of the variables of the categorize file; state where variables are known, the equations between the variables of the file, the status and the biases. |
| C144 | winds and attributes of the lidar dissipation rate | Model the wind function over an abstract Delaunay triangulation and nearest point (as for the model levels, C121), whose properties are hypotheses shown to be satisfiable; characterise success, values inside and outside of the hull; the accumulation time and attributes are plain functions. |
| C145 | gaps in figures | Model the insertions one by one as in the code, with indices into the growing arrays; show by induction that the result is the list with marks between neighbours, and characterise membership, order and the hatched pairs. |
| C146 | averages in time series | Model the splitting into blocks with np.diff and np.split and the convolution with padding; show that blocks are the longest runs, that values are means of padded samples, and for directions that arctan2 of the mean vector is its direction (over the reals). |
| C147 | images and axes | Model the removal of hidden classes, screening of gates, edges, limits of the axis, flags and names as functions; induct over labels, profiles and names. The reach of cells combines edges with the insertions of C145. |
| C148 | radar data on the grid | Compose the models of unit conversion, rebinning, velocity averaging and the filters of C27, C50 and C83 in the order of the code. Each output field is characterised by the values of the file; Jensen's inequality from exp x ≥ 1 + x. |
| C149 | a Level 3 file of a day | Compose the models of C59, C60, C61, C62, C63 and C97 to the function that writes the file; the windows and weights of a cell are given by explicit formulas. The gamma density is normalised, which cancels in the ratio. |
| C150 | A day of HATPRO files becomes one table with a row for each time | Compose the readers, the join and the stacking of C57 with the hours of C36 and the sorting of C38; a separate specification says what a file says about a time, and the rows are compared with it for every folder. |
| C151 | A day of a netCDF lidar: every row of every variable is one profile of the file | Compose readers, screening by time (C37), noise screening (C52, C125) and sunbeam screening (C95) into one function from file to written variables; a relation says which profile of the file each row is made of, and the laws of backscatter and depolarisation are shown on the written variables only. |
| C152 | BASTA and BOW-TIE radar files: which are converted, and every value of the new file | Model both conversions from the variables of the file to the written dictionary, with exceptions; an equivalence says which files are converted and to what, from which row-by-row and pixel-by-pixel statements on the written variables follow. |
| C153 | a day of Copernicus or Galileo | Model both conversions on lists of profiles, reusing the pixel rules of C109 and the pointing of C51; theorems describe all that is written, an equivalence says which files are made, and a witness shows a profile of the next day. |
| C154 | a day of an RPG cloud radar | Model rpg2nc after the files are combined on lists of profiles, reusing the masks and units of C128 and the pointing of C51; one theorem describes all that is written, an equivalence says when a file is made, and a witness shows files of two days. |
| C155 | dates and times written as text | Model int, date and time of Python and the parsers on lists of characters; equivalences describe all accepted texts with a small grammar, and a theorem reads written dates back. |
| C156 | figures of Level 3 files | Model the choice of names and the loop over panels with the model data masked in place; induction on the list of variables gives the exact pixels of every panel. |
| C157 | axes, units and scales of figures | Model heights, units, superscripts (an automaton for the regular expression), image values, brightness temperatures and ticks; equations and equivalences over all inputs, the regular expression by induction on the text. |
| C158 | interrupted updates of a file | Model the loop over variables of an update with a failure after any number of them; invariant of the loop by induction on the variables, then one theorem about a second run on what is left. |
| C159 | interrupted writing of files | Model each file as a list of operations on the disk, show that the list gives the file of C129 to C132, and show for every initial part of the list what is on disk, by induction on the list. |
| C160 | files do not depend on earlier calls in the process | Model the tables of attributes of modules as state that calls edit in place, and each kind of call as a list of edits that may stop at an error. Prove by an invariant over histories that two tables which differ only in fields the next call sets give the same file; for threads, characterise the units of time for every schedule. |
| C161 | raw files, checksums and plots of the command line over several runs | Model a folder as a function from names to contents, downloading and decompressing as updates of it, and a run as their composition. Prove the input of readers for every initial folder, and the content of the folder by induction over runs. Blocks of a file by strong induction on its length. |
| C162 | values in files: types, rounding, fill values and order | Model the choice of types, two's complement, rounding to a binary format with subnormal numbers, and fill values. Prove that rounding gives the nearest number of the format by cases on the exponent; monotonicity, stability and the bound for times follow from it. |
| C163 | files that calls leave open | Model calls as sequences of steps that open and close files, each of which may fail. Prove a law for each block (with, try/finally), combine them by cases, and use induction over the files that are concatenated. |
| C164 | figures as a whole: panels, marks, axes and effects | Model generate_figure as a plan of variables, a loop over panels that shares the times with gaps, and the effects at the end. Prove that a panel does not depend on the shared state, characterise success and panels by induction over the names, and compare with the figure of a single name. The greedy wrapping of words is proved by induction. |
| C165 | products agree with the measurements and with each other, from the grid to the product files | Model the second half of generate_categorize (classification, attenuations, corrected echo, quality bits) as one function and feed its bits, echo and rain flag to the models of the product files. Derive facts about the seven bits of a pixel from C44, then prove the claims by cases over the bits and with the theorems of each product. |
| C166 | The command line interface passes the calibration of the data portal on to the functions that read instruments | Model getting the calibration, downloading coefficients and the cases of the match statement as functions of the answer of the portal; prove by cases what each reader gets, compose with ncLidar2nc, miraSnrLimit, miraPowerOk and readCoefficients. |
| C167 | Products of a selection of profiles are the same selection of the products | State the selection of profiles as a transformation of the inputs of the product models and prove that the models commute with it: row by row for masks and retrievals, by induction over the iteration for drizzle, through the characterisation of adiabatic content and droplet layers for liquid water; for the error of liquid water with a shift of time. |
| C168 | What a wrong calibration does to the products | State the offset as a transformation of the input; for ice factor the power of ten out of the law, for droplets out of each formula and of the sum of roots over the layer; for liquid water use the characterisation of content and error (C142). |
| C169 | Products do not depend on where heights and times are counted from | Prove that bisection and linear interpolation are invariant under a common shift, so that the interpolated model fields, heights above ground and wind are the same grids; for the classification compare lowest and highest cloudy gates. |
| C170 | The meaning of status values and bits is in the file | Model `_format_definition` with the loop of `textwrap` over lists of characters. Prove by induction over the lines that no character but white space is lost, that lines fit and that only first lines start without a space; read the attribute back with a separate reader and look up a key. Copy the tables of the package and prove that every status of the models of the files is in its table. |
| C171 | Identifiers given by the user are kept | Model `uuid.UUID` on lists of characters. Prove that the removals leave plain texts alone, that the digits of a number read back give the number (induction over the digits) and that the canonical text has its hyphens at the right places. |
| C172 | Helpers for dates, tables and files | Model each helper as a recursion over its list. Prove by induction that the result is the filtered or concatenated list of an independent specification, and cases where an error is raised. |
| C173 | The Nyquist velocity reaches the pixels it belongs to | Model the selections as a sequence of index lists and masks. Prove by induction over the sequence that the array still belongs to the profiles that are left (also when a single profile is left and the array counts as a scalar), then the broadcasting; use C86 for chirps. |
| C174 | the order of raw files | Strictly sorted lists with the same members are equal; apply it to the models of C39, C102, C115 and C106 (file lists of MIRA), and show by witnesses where order matters. |
| C175 | How far a value of the categorize file reaches | Compare two runs of the models of C139, C148, C73, C60 and C03 on inputs that agree at (or up to) a pixel; for drizzle, by induction over the gates, gates above the pixel change nothing below. |
| C176 | Range of the values in product files | Derive bounds from the characterisations of the product files (C139, C142) and from the masking of values that are not positive in the droplet file. |
| C177 | Functions that change the arrays of the caller | Model the arrays of the caller as state, each call as a transition; prove that transitions only mask, that errors reach a fixed point (number of known elements decreases) and give witnesses where the order matters; `setbit` as an update of arrays in memory. |
| C178 | Variables and the arrays they share with the caller | Model memory (addresses of arrays) and the dictionary of variables; prove noninterference by induction over the history with a separation invariant, and that arrays of the caller are only masked. |
| C179 | The time grid with the arithmetic of the machine | Model double precision arithmetic by rounding of exact rationals; bound the relative error of each operation and derive the exact number of points; for divisors of 86400, enumerate prime powers exhaustively in the kernel. |
| C180 | Times of day with the arithmetic of the machine | Prove that remainders of doubles are doubles and that the largest double below 86400 does not round to 24; order from monotonicity of rounding. |
| C181 | Which profiles belong to a point of the time grid, with the arithmetic of the machine | Absolute error of every operation of binvec and linspace, from C179; then count the edges below a time. |
| C182 | Number of points in a time window, with the arithmetic of the machine | Bound the error of the median and of the two divisions; the result is nearer than one half to the exact quotient. |
| C183 | The date of a time stamp, with the arithmetic of the machine | Model timedelta(seconds=double) in microseconds and compare its day with the exact one; kernel computation for the last double before a midnight. |
| C184 | Plots of the command line interface | Model both plotting steps with the drawing function as a parameter; cases of its exception. |
| C185 | Rebinned means in single precision | Bound one rounding in both formats also near zero, then induction over the values of the bin; concrete bins in the kernel show that equal values can change. |
| C186 | Heights of gates in single precision | Three roundings, each bounded for numbers up to 32 km; order from monotonicity of rounding. |

## What is modelled, file by file

| file of `/repo/cloudnetpy` | modelled | not modelled |
|---|---|---|
| `utils.py` | bits, filters, rebinning, 1-D/2-D interpolation (griddata: any triangulation), gaps, site coordinates, epochs, norms, cumsumr, ffill, time conversion, screening by time, search helpers, range to height, identifiers, ranges of dates, definition attributes, small helpers | the Delaunay triangulation itself, hashing |
| `categorize/*` | classification, droplet, melting, freezing, insects, falling, attenuation, radar quality control and gridding, lidar gridding, MWR gridding, the weather model (`model.py`), containers, output collection | `atmoslib` formulas, file access |
| `products/*` | classification, ice (iwc, ier), liquid (lwc, der), drizzle retrieval and error, cloud layers, radar dissipation rate, radiometer Level 1c and 2 files (without the retrievals of mwrpy) | the turbulence of the lidar dissipation rate (doppy), cubic splines |
| `instruments/*` | pointing, masks, SNR screening, RPG angles/chirps/HATPRO, Parsivel readers, disdrometer bins, rain gauges, wind, time screening, ceilometer screening, weather radar, MIRA, Copernicus, Galileo, BASTA, TOA5 data loggers, all weather stations, rain[e]H3, FD12P, Parsivel logger files, Thies, RD-80, the readers of `disdronator/`, Radiometrics radiometers, Vaisala/Campbell/Lufft ceilometers, PollyXT, MRR-PRO, whole BASTA, BOW-TIE, Copernicus, Galileo and RPG radar conversions | binary vendor parsing, other text readers |
| `concat_lib.py` | concatenation of files, time order, gaps, daily bundles, shortening, joining of text files | netCDF encoding |
| `output.py`, `metadata.py` | attributes, history, file identifiers, merging, writing of Level 1b, product, categorize and Level 3 files, interrupted writing, tables of attributes over calls and threads, types and rounding of values | the static attribute tables, compression |
| `cli.py` | instrument selection, preferences, input collection, product sources, the whole run as a list of downloads and product calls, raw files over several runs, checksums, calls of plots | HTTP client, argument parser |
| `model_evaluation/*` | `tools`, `grid_methods`, `observation_products` (cloud mask, iwc status), `model_products` (levels, water content, resolution), the cirrus filter with its gamma distributions and wind shear, the day product end to end, errors and common area, histograms, profiles, the data of figures | drawing, file naming |
| `plotting/*` | `plotting.py`: gaps, averages, classes, gates, edges, limits, flags, names of variables, heights, units, scales, whole figures (panels, marks, order of effects), brightness temperatures, ticks | drawing, tables of plot options, titles, colour maps, legends |
| `api_client` (external) | nothing | all |

## Findings: where the code does not do what a reader would expect

Each of these is a theorem (a witness or a negation) unless marked *(reading)*.

* `C08`: a gate at altitude exactly 0 is invisible or raises. `C19`, `C16`, `C67`: files with a single profile raise.
* `C20`: a zero gradient keeps the gradient of the previous cloud. `C14_ier_warm_decreases`: effective radius decreases with
  temperature near the warm end.
* `C48_missing_rain_rate_flagged_corrected`: a missing rain rate is reported as corrected.
* `C18_tiny_diameter_error_overwritten`: the drizzle error of tiny diameters is overwritten.
* `C29_uneven_grid`, `C31_all_zero_fails`, `C35_last_point_after_midnight`, `C40_gap_inserted`: gridding corner cases.
* `C39_failed_file_leaves_records`: a file that fails while being concatenated leaves part of its records.
* `C44_*`: clear pixels can become falling, smoothing wraps around midnight, the last profiles are exempt.
* `C51_unknown_azimuth_kept`, `C51_second_profile_missing`: unknown angles count as steady.
* `C53_counted_again`: at a second reset of a rain gauge the rain of the first period is counted again.
* `C54_blank_line_accepted`: a blank line hides that no row of a Parsivel file is readable.
  `C54_files_misaligned`: columns of several files are misaligned if one file lacks a column.
* `C57_too_many`: three HATPRO files of one stem raise an error that is not caught for the stem alone.
* `C64_pid_preference_ignored`: preferring an instrument by its identifier does not narrow the raw files asked for.
* `C67_clutter_reported_in_rain`; `C76_extra_sources_repeated`; `C81_measured_values_replaced`; `C82_smoothing`.
* `C88`: a radiometer file made in the same run is replaced by the one of the portal.
* `C91_two_directions`: two equally frequent zenith angles reject all profiles.
* *(reading)* `add_site_geolocation`: `lon[lon > 180] - 360` has no effect; `_parse_global_attribute_numeral` drops a minus
  sign. `cumsumr` is wrong for negative input. `l2norm_weighted` broadcasts weights along the last axis.
* *(reading)* `self.data[x][:][...] = ma.masked` is lost if the array has no mask yet; the model assumes full masks.
* *(reading)* HATPRO files with a lower case suffix are read and then rejected.
* *(reading)* `_read_fmi` does not catch `StopIteration` of a truncated vector or invalid dates.
- Ceilometer sunbeam removal needs 20 gates above 10 km: with fewer the bins are empty and nothing is removed (`C95_sunbeam_few_gates`).
- Clouds of the smoothed ceilometer backscatter are also searched among data under the mask (`C52_smooth_clear`).
- `C60_cells`: a cloud fraction cell without observations has the value 0 instead of being missing. `C60_area_below_volume`.
- `C62_calm`: calm wind gives an empty advection window instead of the maximum of an hour. `C96_errors`: relative and absolute error have opposite signs.
- *(reading)* wind shear of the cirrus filter is computed along time; `mask_weird_indices` cannot apply to a cloud fraction already masked below 0.05 (`maskWeird_valid`).
- `C98_first_seconds`: seconds that end within 25 s of the epoch are read as hours. `C102_no_profiles`: no weather radar file of the expected date gives an empty output. `C102_other_days`: without an expected date profiles of other days are kept.
- *(reading)* the noise test of weather radars uses numbers under the mask; site attributes come from the last usable file.
- `C103_variance_even`: the highest wavenumber counts twice for an even number of profiles. `C104_fast_radar`: the time step is rounded to seconds, so fast radars give nothing. `C104_moving_gap`: positions of moving platforms are binned as if product times had no gaps. Time stamps are the start of the five minute windows (`C104_windows`).
- `C106_numbered_file_skipped`: `x.znc.1` is read from a list of files but skipped in a directory. `C108_two_days`: without an expected date profiles of different days are interleaved. `C108_midnight_last`: the last record of a file gets hour 24 at midnight.
- `C109_first_gates`: the first 150 m of Copernicus are looked for before the range offset, so with the default offset none is masked. `C109_clutter_ignores_reflectivity`: `np.where(a) and np.where(b)` is `np.where(b)` in Galileo's clutter test.
- `C110_square`, `C110_galileo_square`: in files with as many time stamps as gates, ranges are sorted and screened like times (BASTA, MIRA, Copernicus), and times like ranges (Galileo).
- *(reading)* MIRA files without LDR raise `KeyError` in the conversion to decibels before the check for a missing LDR.
- *(reading)* RD80 without times raises `IndexError`. CLI: `replace("categorize", product)` replaces all occurrences in a path.
- `C111_arrays_shared`: in TOA5 files all positions of an array variable are one list. `C112_short_line`: `zip(..., strict=False)` on a short line of a data logger makes the columns of different length, so later values belong to earlier times. `C113_limassol_misaligned`: the same with Limassol files that have different titles. `C113_cluj_last_value`: a missing last value or blank line rejects the whole Cluj file.
- *(reading)* the error message of `_parse_sirta` swaps found and expected column; a title used twice collects two values per line.
- `C114_two_days`: without an expected date records of several days are merged by time of day. `C114_same_second`: microseconds are ignored. `C115_unsorted`: rain[e]H3 amounts are made cumulative before sorting, so an unsorted file gives a decreasing amount. `C115_other_day`: `expected_date` of FD12P removes times only, so a line of another day raises `ValueError`.
- `C116_empty_last`: pyAtmosLogger lines lose empty fields at the end before the fields are counted. `C117_two_days`: without an expected date several days are written with times over 24 hours. `C117_scrambled_bins`: `screen_time_indices` permutes every array as long as the time, so a Parsivel file with exactly 32 unsorted records gets permuted velocity and diameter bins. `C118_one_bad_telegram`: one unreadable Thies telegram rejects the file, where other readers skip the line.
- `C119_no_date`: `rd802nc` without a date always raises `IndexError` (it looks at `self.time`, which is empty), although the date is documented as optional. `C119_other_day`: no error if no record is of the date. `C119_files`: a file without records among others raises `ValueError`.
- `C120_misaligned`: `_read_telegram` appends to the columns before the whole telegram has been parsed, so a broken telegram shifts the columns against the times. *(reading)* a stamped line without semicolon raises `ValueError` outside of the `try`.
- `C121_short_year`: formats like `%d.%m.%y %H:%M:%S` are taken for a time of day and the file is refused. `C121_unreadable`: `None` in a column of integers raises `TypeError` in `convert_to_numpy`. `C121_kinetic_energy`: `E_kin` has number 24 (absolute amount of rain) in `PARSIVEL2NC_KEYS` and `LEIPZIG_KEYS`, where it replaces `RR_Total`. `C121_sensor_heads`: `DISDRODL_KEYS` has left and right heads the other way round. `C121_blocks`: an empty block raises `IndexError`.
- `C122_empty_field`: `zip(..., strict=True)` on the row without its empty fields: one missing value raises `ValueError` for the whole file. `C122_unsigned`: `_parse_floats` takes only unsigned decimals, negative numbers and exponents become NaN. `C122_closest`: `_find_closest` has no limit on the distance. The comment of `_process_superblock` speaks of 401 records, the code uses those of type 402; a superblock with more 300 records than those raises `IndexError` (example).
- `C123_day_exists`: a variable that one file has and another one with data has not makes `radiometrics2nc` raise `IndexError`. `C123_wrong_date`: without a date, `screen_time` takes the date of the first value of the first file (`iterdir` has no order), `time_to_fractional_hours` the day of the earliest value.
- `C124_range_selected`: `_screen_time_indices` of `vaisala.py` indexes every array as long as the time, so the range of a file with as many messages as gates is permuted and cut. `C126_masked_profiles`: the same in PollyXT.
- `C125_unrecognised`: `_find_ceilo_model` never gives `da10` or `cs135`: a DA10 file without `model` is read as CHM15k. `C125_depol_unmasked`: `data["depolarisation"].mask = beta.mask` unmasks ratios that were masked because of a zero or masked `p_pol`; numpy keeps the dividend below the mask, so the cross-polarised signal is published as depolarisation. `C125_version_characters`: firmware is compared as text. *(reading)* a netCDF file without title raises `AttributeError`, not the documented `RuntimeError`.
- `C126_wavelength_history`: `self.instrument.wavelength = float(channel)` changes the module-level `instruments.POLLYXT`, so after one call with 532 or 355 nm all later calls in the process that use 1064 nm write that wavelength. `C126_epoch`: `fetch_data` returns the epoch of the last pair for the times of all files. `C126_zenith`: `fetch_zenith_angle` reads `self.metadata`, which is always empty, so the documented `zenith_angle` of `site_meta` has no effect.
- `C127_zenith`: `mrr2nc` reads the elevation of all records after the screening, so there are more zenith angles than times. `C127_date`: the date is that of the first record of the file, also if it was removed. `C127_single_record`: `isscalar`/`np.array` drop the mask of a file with one record.
- `C128_single_chirp`: with a single chirp in all files, `chirp_start_indices` has one dimension and `_expand_nyquist` raises `AttributeError`. `C128_example`: a variable that is only in some files is shorter than the time. `C128_files`: one stamp of another date removes the file.
- `C129_failure`, `C130_failure`: files are written in place, so an error while writing destroys the file of an earlier run and leaves an incomplete one. *(reading)* `fix_attribute_name` in `save_level1b` never changes anything: the names were changed before.
- `C131_file`: `get_references` knows `categorize` but not `categorize-voodoo`, so files with VoodooNet results lack the reference BAMS-88-6-883. An input file without `source` (`getattr(..., "")`) gives an empty first line.
- `C132_file`: `merge_history` of Level 3 files gets only the model file, of which it takes the last line; the history of the observations is lost.
- `C133_chain`: `hatpro2l1c` writes no `instrument_pid`, but `Mwr.harmonize` reads `nc_l1c.instrument_pid`, so `generate_mwr_single/multi/lhumpro` raise `AttributeError` on its output, after the file was rewritten (the processing chain adds the attribute in between). `C133_generated_iff`: if all data are flagged, `ValidTimeStampError` is raised but mwrpy's file stays. `C133_missing_flags`: masked flags only pass the check for 90 %. `C133_times`: a single record at midnight gets the hour 24. `C133_coefficients`: links with equal file names overwrite each other. `C133_l1c_iff`: a missing `coefficientLinks` raises `KeyError` after the file was saved.
- `C134_longitude`: `lon[lon > 180] - 360` in `add_site_geolocation` is computed and dropped, so longitudes above 180 stay. `C134_sign`: `_parse_global_attribute_numeral` drops the sign, so a southern or western position in an attribute becomes a northern or eastern one. `C134_alone`: a latitude without longitude (or the reverse) is kept as an array with the dimension time.
- `C135_units`: `get_epoch` ignores the time of day of the units. `C135_date`, `C135_incomplete`: years up to 1900 and in the future silently give 2001-01-01; 30 February or a date without day raise `ValueError`.
- `C136_hidden_fill`: `interpolate_model` passes masked arrays to `RectBivariateSpline`, which takes the fill value (about 1e37) under the mask. Next to a masked model profile, temperatures of the products (ice water content, effective radius, ...) are means with the fill value, although the categorize file keeps these profiles.
- `C137_hidden`: `interp1d` in `interpolate_to_common_height` ignores the mask, so masked values of partly masked profiles become valid numbers. `C137_attenuation_level`: `calc_attenuations` works on the levels of each profile but `interpolate_to_grid` places them at the mean heights; with heights that change with time attenuations are shifted vertically.
- `C138_single`: `bundle_netcdf_files` copies a single file without looking at its times. `C138_units`: times are taken as seconds since the epoch whatever the units are (with "hours since" nearly all files belong to the first day). `C138_returned_not_used`: files that concatenation leaves out (HDF errors) are still returned as used. `C138_truncate`: `truncate_netcdf_file` leaves variables of three dimensions without data and compares dimension names as substrings, so `time_2` makes it fail.
- `C139_uncorrected`: ice pixels with uncorrected attenuation have neither a value nor an error in the iwc file, although the error for them is computed from an assumed liquid water path. `C139_bias`: the bias of ice water content ignores the temperature term of the law.
- `C140_closure`: every droplet layer of a profile gets the whole liquid water path. `C140_number`: the retrieved number differs inside a layer if gates differ in depth (the first gate reaches to the ground). `C140_zero_path`: without positive liquid water path the scaled radius is 1 µm. `C140_errors`: `10^(ddBZ/10)` instead of the change of reflectivity, so that the error is never below a sixth of the radius.
- `C141_reader`: `_process_instrument_product` downloads the raw files of any instrument of the portal but has calls for a fixed list; for others `UnboundLocalError`. `C141_made`: if categorize cannot be made (no model, or an exception of the product) the categorize file of the portal is used for level 2 without notice; level 3 products are always made from files listed on the portal. `C141_level2_elsewhere`: `replace("categorize", product)` on the whole path changes folder names. `C141_force_replaces`: with --force-download the categorize file made in the run is replaced by the one of the portal when a level 3 product is requested. `C141_download_only`: --dl skips instrument products only, so that categorize gets `None` for them. Names of radiometer products have the date with hyphens, other names without.
- `C142_added_empty`, `C142_superadiabatic`: `CloudAdjustor` extends clouds in its array of adiabatic contents after the content of the file has been made from it. Pixels with status 3 have content 0 in the file, and the content of profiles with status 2 is greater than adiabatic, contrary to the comments of `lwc` and `lwc_retrieval_status`. The status values 5 and 6 of the definition never occur (rain is 4). A cloud to be extended whose base is the last gate raises `IndexError` for the whole file.
- `C143_status_without_retrieval`: in the drizzle file pixels with the bits of drizzle but a masked deviation of velocity have status 1 although nothing is retrieved (`np.copy` of a masked array drops the mask). `C143_no_wind`, `C143_unknown_width`: without wind the correction of the spectral width is 0/0, masked, and the first shape parameter of the table is used. `C143_number_bias`: the bias of the number of drops converts the relative bias of the diameter from dB again, so that it is too small. `C143_known`: `beta_corr` is written at all pixels without rain.
- `C144_all_known`: `epsilon_lidar.py:138` broadcasts times to the shape of the mask; if no wind is masked the mask of netCDF4 is the scalar `False` and the file is refused with `ValueError`. `C144_on_a_line`: the check for three times and three heights does not exclude winds on a line, for which Qhull raises. `C144_attributes`: `", ".join` of a set: the order of sources changes between runs.
- `C145_model_profiles`: `screen_completely_masked_profiles` appends the profile after the last good one with the index limited to the last, which shows the last profile twice. `C145_model_rounding`: `round(60 * np.min(np.diff(time)))` as the limit of gaps of models. `C146_across_gap`: `_plot_moving_average` splits curves at gaps after averaging. `C146_calm`: `arctan2(0, 0)` is drawn as north. `C147_all_above`: `np.argmax(...) or len(alt)` treats index 0 as not found. `C147_single_flag`: `_fill_flagged_data` skips runs of one profile. `C147_bad_channel`: `int(parts[1])` for every name that begins with `tb_` or `irt_`.
- `C148_rejected`: `Radar.rebin_to_grid` adds `nyquist_velocity` to the dictionary it iterates over; with `prf` in the file instead of `nyquist_velocity` this ends with "dictionary changed size during iteration".
- `C149_shear_fails`: `calculate_wind_shear` takes differences along the first index, the time: steady winds have no shear, however they change with height, and denominators are changes of height with time (zero for fixed levels: the masked division then leaves the numerator). `C149_sensitivity`, `C149_sensitivity_height_fails`: `fit_z_sensitivity` uses `rebin_1d`, whose bins have equal width, so that levels at uneven heights get the sensitivity of other heights. `C149_cirrus_values`: with a variance above one the density is infinite at zero and every ice pixel is masked. `C149_cirrus_present`: any `ValueError`, also of an X-band radar, leaves out the variable with a log message only. `mask_weird_indices` never changes anything because cloud fractions below 0.05 are masked before.
- `C150_empty_file`: `_read_from_file` raises `IndexError` for a file shorter than a header, which `_get_hatpro_objects` does not catch. `C150_lower_case`, `C150_lower_iwv_fails`: suffixes are compared in upper case when reading but as they are afterwards.
- `C151_square`: `screen_by_time` indexes every array as long as the time, so with as many profiles as gates `data["range"]` is reordered with the profiles (the same as `C124_range_selected`, here for netCDF lidars with an expected date). `C151_height`: `np.array` of the masked median of masked tilt angles is zero, so the default of three degrees is used only if the variable is absent. *(reading)* `PollyXt.fetch_zenith_angle` reads `self.metadata`, which nothing fills: the documented `zenith_angle` of the site is ignored and five degrees is always used.
- `C152_basta_single`: `init_data` makes a plain array of one-row arrays; `screen_data` then assigns `ma.masked` into it, which stores zero. `C152_basta_height`: `screen_time_indices` reorders range and height when there are as many times as gates. `C152_basta_date`: `validate_date` looks at the time units only while the date of the file is that of the global attributes; profiles of other days are not removed. `C152_basta_units`: `add_time_and_range` does not convert kilometres. `C152_bowtie_single`: `add_correction_bits` needs the mask which a one-row array has lost (`AttributeError`). *(reading)* the median Nyquist velocity ignores masks.
- `C153_next_day`: the argument `date` of `copernicus2nc` and `galileo2nc` is documented as the expected date of all profiles, but `check_date` compares the reference date of the units of time only; a profile of 25:00 becomes the profile of 01:00 of the expected day. *(reading)* the documented default of the calibration of Copernicus (`calibration_offset`, -146.8) is neither the name nor the value used (`Zh_offset`, -149.5).
- `C154_two_days`: without an expected date, `rpg2nc` keeps the times of day only, so profiles of a second day are interleaved with those of the first and those at the same time of day are dropped (the docstring warns of unexpected behaviour).
- `C155_damaged`: `radiometrics._parse_date` adds 2000 to every year below 100, so that `1/2/-5` is in 1995; `parsivel._parse_date` takes `1_23` for a year of four digits (123); `parsivel._parse_datetime` does not look at the length of the token. *(reading)* the error messages of `parsivel._parse_date` print the built-in function `input` instead of the token.
- `C156_not_drawn`: `parse_wanted_names` returns only the larger group of names if their numbers differ, so variables asked for are not drawn, and the group of advection is drawn although `include_advection` is false. `C156_order`: `get_statistic_plots` reads the model data once for each statistic and `combine_masked_indices` and `calc_common_area_sum` mask them in place, so the panel of a variable depends on the variables before it; `_check_data2` raises for a panel without data and so ends the loop over the others.
- `C157_rain_scale`: `ATTRIBUTES["rain-radar"]["rainfall_rate"]` has the scale 0 to 50/3600000 (m/s), but `_convert_units` has made the data mm/h before, so all rain has the colour of the upper end. `C157_tb_flags`: `plot_tb` indexes the empty array of a file without quality flags (`IndexError` instead of no marks). `C157_last_channel`: `tb_-1` is the last channel, with the title "channel 0". *(reading)* smoothing in time (`time_smoothing_duration`) averages numbers under the mask and assigns the result without a mask, so gates without a value are drawn in every profile with some value.
- `C158_retry_loses`: `update_nc` writes variable by variable in place, times among them; after an interruption behind the times, the check for later times finds nothing new, so a second run returns 0 and the variables that were not reached stay missing for good. `C158_return`: `except OSError: return 0` also covers the loop that writes, so that 0 ("nothing added") is returned for a file that was changed.
- `C159_level1b` and others: all files are written at their final name, so an old file is lost when the writing begins and an incomplete one can be told only by the missing last attribute. `C159_hatpro_l1c`: the second pass of `hatpro2l1c` changes the type of a finished file. `C159_level3_rerun`: the incomplete file blocks the next run without `overwrite` (`FileExistsError`).
- `C160_threads`, `C160_threads_mixed`: the tables `ATTRIBUTES` of the modules are edited in place (`add_time_attribute`, `add_source_attribute` and the comments of the products), so two threads that make files of one module for different dates can get the units of time of the other date. Calls one after the other do not disturb each other (`C160_instrument`, `C160_comments`, `C160_categorize`).
- `C161_folder_stale`: `_process_instrument_product` passes the folder of raw files to `rpg2nc`, `hatpro2nc` and `hatpro2l1c`, so files of earlier runs that the portal has withdrawn or renamed are processed again; `--force-download` does not remove them. `C161_same_name`: with `a.nc` and `a.nc.gz` at the portal the second is used twice. `C161_image_elsewhere`: `_plot` replaces every `.nc` of the path. `C161_unlisted`: `next(...)` without default raises `StopIteration` for a product that the portal does not list. *(reading)* `_plot` logs "Plotted" after a failed plot too.
- `C162_wraps`: integers of 64 bits are stored in variables of 32 bits without a check, so larger ones become other numbers. `C162_fill`: a known value equal to the fill value of the netCDF library becomes missing (also -2147483647 in masked integers). `C162_times_equal`: times are stored with 32 bits for MIRA, MRR-PRO, Copernicus, Galileo and ceilometers, so late in the day two profiles less than about 2 ms apart get the same time and the file no longer has strictly ascending times.
- `C163_categorize_early`, `C163_categorize`: in `generate_categorize` the dictionary `data` is bound after the constructors of radar, lidar and model and `_close_all` works on it, so files opened before a failing constructor stay open; constructors do not close their own file on failure, so a disdrometer file with a missing variable stays open even after a successful run. `C163_level3`: the `try` of `process_L3_day_product` begins after both constructors. `C163_concatenate`: `_Concat.__init__` opens files outside of the block that closes them. `C163_products`: `init_file` writes variables before `with` has the file. (Files that no variable refers to are closed by the garbage collector at some later time.)
- `C164_marks`, `C164_marks_elsewhere`: `Plot2D.plot` and `Plot1D._plot_flags` look at `figure_data.variables[0].name` instead of the variable of the panel, so the flags of cloud tops ("Suspicious", "Unreliable") are drawn on the cloud bases below them and are missing if the cloud tops are not the first panel; rain is marked in the same way.
- `C166_mira_model`: `_process_instrument_product` does not set `site_meta["model"]` for MIRA radars, so MIRA-10, MIRA-35S and MIRA-35C are processed (and named) as MIRA-35, with its SNR limit and power limit. `C166_lidar`, `C166_backscatter`: the calibration factor of a CL61 in the portal is not used. `C166_same_names`: of coefficient links with the same last part only the last survives. `C166_refused`: an error of the portal leaves the data uncalibrated without a warning.
- `C167_cloud_heights`: cloud base and top heights of a profile depend on other profiles, because `_find_cloud_mask` (`remove_small_objects` with `max_size=20`) counts the gates of a cloud over all profiles; a cloud at the start of a part of the day can lose its heights while its target classes stay. By C139 the sensitivity of ice water content is not per profile either (it uses the mean temperature of all profiles).
- C170: `iwc_retrieval_status` (and that of `ier`) never has the value 5, and `lwc_retrieval_status` never has 5 or 6, although both are explained in
  the `definition` attributes; profiles with rain get 4 ("no liquid water path"), not 6 ("rain present"). `drizzle_retrieval_status` has no
  `definition` attribute at all. `textwrap` itself is library code: its loop over chunks and the cutting of long words are modelled, its regular
  expression is a parameter (`Spec.SplitsText`).
- C172: `date_range` leaves out the end date (and a last day that is not whole). `del_dict_keys` looks keys up in the original and deletes them from the
  copy, so a key that is listed twice raises `KeyError`. `is_timestamp` matches a prefix and does not look at the values: a text with month 99 and
  anything after the seconds is a time stamp.
- C173: `broadcast_nyquist_velocity` uses `ma.getdata`, so a raw profile without a Nyquist velocity (a fill value or NaN) gets the number below the mask
  as if it were measured.
- C174: rain[e]H3 amounts are accumulated in the order of the lines before the lines are sorted by time (see also C115), so two orders of the same lines
  give different amounts. Of two weather radar files of the same time the first one in the list is used.
- C175: the attenuation by liquid at a pixel depends on clouds above it, which the lidar may or may not have seen: the liquid water path is normalised
  over the whole profile.
- C176: `_limit_error` in `lwc.py` limits relative errors from above only. A negative error of the liquid water path (which no check refuses) is squared
  without a limit.
- C177: `combine_masked_indices` and `calc_common_area_sum` mask elements of the caller's arrays. A second "error" for the same arrays can lose values of
  the first one, because the smallest observation was masked in the meantime; the common area after an error differs from the one before.
  `setbit` changes its argument although the documentation only speaks of a returned value.
- C178: `CloudnetArray` does not copy arrays: masking or filtering a variable masks the array of the caller, and any other variable made of the same
  array, until the variable is converted or rebinned. NumPy numbers of types such as 64-bit integers are refused, although Python integers are not.
- C179: the points of the standard grid of 30 seconds are not exactly the mid points in double precision, but no grid of whole seconds has a point too many or
  too few, although `numpy.arange` does not promise it.
- C180: a time less than about 7 picoseconds before a midnight before the epoch becomes 24 at any position; `seconds2hours` only intends it for the last one.
- C181: with exact numbers a profile at 24 hours, which `seconds2hours` makes of a last profile at midnight, belongs to no bin of the standard grid; with double precision
  the last edge is 24.000000000000004 and the profile is kept. On a grid of 10 seconds (and others, but not the standard one) the first edge is above zero and a
  profile at exactly 0 hours is lost without a message.
- C183: the last double precision number before a midnight (0.24 microseconds before it for times of our years) has the date of the next day but a time of day just before 24 hours: a
  profile with this time is kept for the next day and put at its end.
- C184: `_plot` reports "Plotted ..." also after "Failed to plot ..."; `_plot_l3` does not. A `ValueError` or `KeyError` while drawing ends the run (and the products after it are not
  made), except for model evaluation products.
- C185: rebinning a field that does not change in time can change its last digit, in both directions: means are not always between the smallest and the largest value of a bin.
- C150: two files of one name whose suffixes differ in case only (`a.LWP`, `a.lwp`) are both used, but give variables `lwp1` and `lwp2` and no `lwp`.
- C186: heights in files have an error of up to a few millimetres; this matters only for gates closer than 14 mm.
