{"id": "C01", "title": "category_bits round trip", "statement": "Writing a categorize file from any six class masks (droplet, falling, freezing, melting, aerosol, insect) and reading `category_bits` back through CategorizeBits yields exactly the same six masks at every pixel; two pixels with different class sets never share a value, every value is below 64.", "quantifier": "every pixel and every combination of the six class masks", "why_tests_cant": "The encoding is shared by every downstream product; a test fixes a handful of masks, the claim is injectivity of the encoding and agreement of writer and reader over all of them.", "anchors": ["cloudnetpy/categorize/categorize.py:_classes_to_bits", "cloudnetpy/products/product_tools.py:CategorizeBits._read_category_bits", "cloudnetpy/utils.py:isbit", "cloudnetpy/utils.py:setbit"]}
{"id": "C02", "title": "quality_bits round trip", "statement": "Writing any ten quality masks into `quality_bits` and reading them back through CategorizeBits yields exactly the same ten masks at every pixel, in the documented bit positions 0..9.", "quantifier": "every pixel and all combinations of the ten quality masks", "why_tests_cant": "A swapped field order between writer and reader only shows up for particular flag combinations.", "anchors": ["cloudnetpy/categorize/categorize.py:_classes_to_bits", "cloudnetpy/products/product_tools.py:CategorizeBits._read_quality_bits", "cloudnetpy/products/product_tools.py:QualityBits"]}
{"id": "C03", "title": "corrected attenuation flags are a subset of attenuated flags", "statement": "In the quality bits written for any measurement, a pixel flagged corrected for liquid, rain or melting attenuation is always flagged attenuated by the same cause; an attenuated pixel is flagged corrected exactly when the attenuation step did not report it as uncorrected; the radar/lidar bits are exactly the unmasked Z/beta pixels.", "quantifier": "every pixel of every set of attenuation results and radar/lidar masks", "why_tests_cant": "The relation must hold for all mask combinations, which arise only from long processing chains.", "anchors": ["cloudnetpy/categorize/classify.py:fetch_quality"]}
{"id": "C04", "title": "bit setting and testing algebra", "statement": "setbit(a, n) makes isbit(., n) true and leaves every other bit of a unchanged; it is idempotent and order independent; both raise ValueError for a negative bit number and change nothing otherwise.", "quantifier": "every integer array value and every bit number", "why_tests_cant": "Unbounded integers and bit numbers.", "anchors": ["cloudnetpy/utils.py:isbit", "cloudnetpy/utils.py:setbit"]}
{"id": "C05", "title": "target classification is a total decision table", "statement": "Each pixel of the target_classification product gets exactly one class 0..10 determined only by its own seven flags (the six class bits and clutter): clear/droplets/drizzle/ice/... by the documented priority insect over aerosol over melting over hydrometeor, with radar clutter cleared unless aerosol is present.", "quantifier": "every combination of category and clutter bits at every pixel", "why_tests_cant": "The result of eleven overlapping in-place mask assignments depends on their order; tests exercise few of the 128 combinations.", "anchors": ["cloudnetpy/products/classification.py:_get_target_classification", "cloudnetpy/products/classification.py:Target"]}
{"id": "C06", "title": "detection status is a total decision table", "statement": "Each pixel of detection_status gets exactly one status 0..9, determined only by radar, lidar, clutter, molecular bits and the attenuated/corrected state; molecular wins when there is no radar echo, clutter next, then attenuation states, then plain radar/lidar presence. A pixel counts as corrected only if every attenuation present has been corrected.", "quantifier": "every combination of the ten quality bits at every pixel", "why_tests_cant": "1024 flag combinations and order-dependent assignments.", "anchors": ["cloudnetpy/products/classification.py:_get_detection_status", "cloudnetpy/products/classification.py:_get_is_corrected_mask", "cloudnetpy/products/classification.py:_get_is_attenuated_mask"]}
{"id": "C07", "title": "signal source status partitions pixels", "statement": "signal_source_status is 0 for no signal, 1 for both, 2 for radar only, 3 for lidar only, and these four cases partition all pixels.", "quantifier": "every pixel", "why_tests_cant": "Order-dependent overlapping assignments.", "anchors": ["cloudnetpy/products/classification.py:_get_signal_source_status"]}
{"id": "C08", "title": "cloud base and top heights", "statement": "For every profile, the reported cloud base is the height of the lowest cloudy pixel and the cloud top the height of the highest; base <= top on an increasing height grid; both are masked exactly when the profile has no cloudy pixel.", "quantifier": "every cloud mask, every profile count and gate count", "why_tests_cant": "Unbounded grids; a test fixes a few cloud shapes.", "anchors": ["cloudnetpy/products/classification.py:_get_cloud_base_and_top_heights", "cloudnetpy/categorize/atmos_utils.py:find_lowest_cloud_bases", "cloudnetpy/categorize/atmos_utils.py:find_highest_cloud_tops"]}
{"id": "C09", "title": "cloud mask drops exactly the small objects", "statement": "The cloud mask used for base/top heights contains exactly the pixels whose target class is droplets, drizzle+droplets, ice or ice+supercooled and that belong to a face-connected group of more than 20 such pixels.", "quantifier": "every classification field of any size", "why_tests_cant": "Connected components are a global property of the grid.", "anchors": ["cloudnetpy/products/classification.py:_find_cloud_mask", "cloudnetpy/utils.py:remove_small_objects"]}
{"id": "C10", "title": "radar attenuation status", "statement": "radar_attenuation_status at a pixel is UNDETECTED iff it lies above a severely attenuated pixel of the same profile and is not itself severe; otherwise it is 0 without radar echo and, with radar echo, uncorrected if attenuated and not corrected, else the strongest of severe/moderate/small/negligible that applies. Frequencies below 90 GHz never become severe because of liquid water path or rain rate alone.", "quantifier": "every profile length, every attenuation amount and flag field", "why_tests_cant": "Includes a vertical propagation over arbitrarily tall profiles.", "anchors": ["cloudnetpy/products/classification.py:_get_radar_attenuation_status", "cloudnetpy/products/classification.py:_get_attenuation_classes", "cloudnetpy/utils.py:ffill"]}
{"id": "C11", "title": "cloud top height status", "statement": "The cloud top status of a profile is the most serious that applies: above range if the top reaches the last gate, else uncorrected, severe, moderate attenuation at the gate nearest to the top, else reliable.", "quantifier": "every profile, height grid and attenuation field", "why_tests_cant": "Order-dependent assignments with arg-min lookups over arbitrary grids.", "anchors": ["cloudnetpy/products/classification.py:_get_cloud_top_height_status"]}
{"id": "C12", "title": "ice retrieval status agrees with ice data", "statement": "In the iwc and ier products a pixel carries data iff its retrieval status is 1 (reliable) or 3 (corrected for attenuation), apart from pixels that are flagged clear above rain; status 2 marks exactly ice with uncorrected attenuation, 4 ice that could not be retrieved, 6 no ice above a rainy surface, 7 warm falling or melting, and 0 everything else.", "quantifier": "every combination of category bits, quality bits, rain flag and radar mask at every pixel", "why_tests_cant": "Eight overlapping assignments over 2^17 flag combinations.", "anchors": ["cloudnetpy/products/product_tools.py:IceSource.append_icy_data", "cloudnetpy/products/product_tools.py:IceSource.append_status", "cloudnetpy/products/product_tools.py:IceClassification"]}
{"id": "C13", "title": "rain flag is conservative", "statement": "get_is_rain uses the first of rain_detected, rainfall_rate, rain_rate that exists; a profile is rainy iff that value is nonzero or masked; when none exists a ValueError is raised.", "quantifier": "every file content and profile", "why_tests_cant": "Masked values and variable precedence.", "anchors": ["cloudnetpy/products/product_tools.py:get_is_rain"]}
{"id": "C14", "title": "ice retrieval is monotone and positive", "statement": "Retrieved ice water content and effective radius are strictly positive; IWC is strictly increasing in reflectivity wherever the coefficient combination is positive (in particular for all temperatures of the ice region at both supported bands), and unsupported bands raise ValueError.", "quantifier": "every reflectivity and temperature", "why_tests_cant": "Continuous domain.", "anchors": ["cloudnetpy/products/product_tools.py:z_to_iwc", "cloudnetpy/products/product_tools.py:get_ice_coefficients"]}
{"id": "C15", "title": "droplet effective radius retrieval status", "statement": "der_retrieval_status of a pixel is the last that applies in the order ice 4, retrieved 1, mixed-phase retrieved 2, rain-profile retrieved 3, else 0; a pixel has a der value iff the status is 1, 2 or 3.", "quantifier": "every pixel", "why_tests_cant": "Overlapping in-place assignments.", "anchors": ["cloudnetpy/products/der.py:DerSource.append_retrieval_status", "cloudnetpy/products/der.py:DropletClassification"]}
{"id": "C16", "title": "drizzle classification and retrieval status", "statement": "drizzle_retrieval_status equals the documented priority table: rain profile 5 over everything, then 4 (liquid, nothing found), 3 would-be drizzle, 2 drizzle below a melting layer, 1 drizzle, 0; drizzle is only reported where warm falling hydrometeors with both radar and lidar signal are found and liquid, melting, insects, clutter and uncorrected attenuation are absent.", "quantifier": "every pixel and flag combination", "why_tests_cant": "Overlapping assignments, profile-wide and pixel-wide flags mixed.", "anchors": ["cloudnetpy/products/drizzle.py:RetrievalStatus", "cloudnetpy/products/drizzle_tools.py:DrizzleClassification"]}
{"id": "C17", "title": "drizzle products never report rain or zero", "statement": "Every drizzle product value written to file is masked in rainy profiles and wherever the retrieval gave exactly zero; a value that is present is nonzero and from a non-rainy profile.", "quantifier": "every retrieval result, rain flag and pixel", "why_tests_cant": "Holds for all fields including masked ones.", "anchors": ["cloudnetpy/products/drizzle.py:_screen_rain", "cloudnetpy/products/drizzle.py:_append_data"]}
{"id": "C18", "title": "drizzle errors cover exactly the drizzle pixels", "statement": "Drizzle error assignment splits pixels by droplet diameter into three disjoint classes (tiny, small, normal), uses the error formula of the right class for diameter, liquid water content and flux, lidar ratio, number concentration and velocity, gives zero for non-drizzle pixels and masks drizzle pixels without a radar error.", "quantifier": "every diameter value", "why_tests_cant": "Boundary values and overlapping index sets.", "anchors": ["cloudnetpy/products/drizzle_error.py:_get_drizzle_indices", "cloudnetpy/products/drizzle_error.py:_stack_errors"]}
{"id": "C19", "title": "LWC conserves liquid water path", "statement": "In each profile with valid LWP and at least one liquid pixel, the retrieved liquid water content integrated over the path lengths equals the (non-negative clipped) measured liquid water path; profiles without LWP are masked.", "quantifier": "every temperature/pressure field, cloud mask, height grid and LWP value", "why_tests_cant": "Numerical identity over arbitrarily many gates.", "anchors": ["cloudnetpy/categorize/atmos_utils.py:normalize_lwc_by_lwp", "cloudnetpy/utils.py:path_lengths_from_ground", "cloudnetpy/products/lwc.py:Lwc"]}
{"id": "C20", "title": "adiabatic LWC is non-negative, cloud-confined and restarts at each cloud base", "statement": "Adiabatic LWC is zero outside liquid cloud; inside a cloud it equals the lapse rate at the cloud base times the height gained since the base gate's lower edge; it is non-negative and increasing with height in the cloud; scaling preserves zeros and signs.", "quantifier": "every cloud mask, gate count and non-negative rate", "why_tests_cant": "Accumulation with restart over unbounded profiles.", "anchors": ["cloudnetpy/categorize/atmos_utils.py:fill_clouds_with_lwc_dz", "cloudnetpy/categorize/atmos_utils.py:calc_adiabatic_lwc", "cloudnetpy/utils.py:cumsumr"]}
{"id": "C21", "title": "cloud bases and tops pair up", "statement": "For every boolean cloud field the k-th detected base and the k-th detected top (in scanning order) belong to the same profile, base <= top, every pixel between them is cloud, and the pixels just below and above are not; every cloud pixel belongs to exactly one such interval.", "quantifier": "every boolean field", "why_tests_cant": "The zip in the callers is correct only if this holds for all fields.", "anchors": ["cloudnetpy/categorize/atmos_utils.py:find_cloud_bases", "cloudnetpy/categorize/atmos_utils.py:find_cloud_tops", "cloudnetpy/categorize/falling.py:_fix_liquid_dominated_radar"]}
{"id": "C22", "title": "LWC retrieval status", "statement": "lwc_retrieval_status is 4 in every pixel of rainy profiles and of profiles without LWP. Elsewhere a liquid pixel is 2 if the topmost liquid layer of its profile is seen by lidar only and the measured LWP exceeds the adiabatic one, else 1; a non-liquid pixel is 3 exactly when that layer is extended over it, the extension being the shortest one whose adiabatic LWP exceeds the measured LWP (or reaching the last gate), else 0. If such a layer starts at the last gate, the retrieval fails.", "quantifier": "every profile history of adjustments", "why_tests_cant": "Iterative adjustment loop of unknown length.", "anchors": ["cloudnetpy/products/lwc.py:CloudAdjustor"]}
{"id": "C23", "title": "liquid layer base and top search", "statement": "The liquid layer base found around a lidar peak lies in the window of the given number of gates below the peak and is the first gate there after which the profile jumps by more than the given fraction of the largest (positive) jump; the top lies in the window above and follows the last such fall. If the profile does not rise below (fall above) the peak, the search raises IndexError, and this is the only failure for non-empty windows.", "quantifier": "every backscatter gradient profile, peak and distance", "why_tests_cant": "Arbitrary profiles.", "anchors": ["cloudnetpy/categorize/droplet.py:ind_base", "cloudnetpy/categorize/droplet.py:ind_top"]}
{"id": "C24", "title": "liquid top correction only extends clouds upwards in a bounded way", "statement": "Correcting liquid tops never removes liquid pixels; a pixel is added exactly when it is above a liquid top, the radar sees every gate from the top up to it, and a gate without radar echo exists within the search window, which ends a given number of gates above the first freezing gate at or above the top. The correction fails exactly if some liquid top has no freezing gate at or above it.", "quantifier": "every liquid/freezing/radar field", "why_tests_cant": "Arbitrary profiles.", "anchors": ["cloudnetpy/categorize/droplet.py:correct_liquid_top", "cloudnetpy/categorize/droplet.py:_find_ind_above_top"]}
{"id": "C25", "title": "forward fill", "statement": "ffill(array, value) replaces each element by the last element at or before it in the same row that differs from value, and keeps the row's first element if there is none; on boolean masks the result is true exactly at and after the first true.", "quantifier": "every array and fill value", "why_tests_cant": "Unbounded length; used to propagate flags above clouds.", "anchors": ["cloudnetpy/utils.py:ffill"]}
{"id": "C26", "title": "cumulative sum that resets at zeros", "statement": "For non-negative input cumsumr(array)[i] is the sum of the elements after the last zero at or before i (0 at zeros).", "quantifier": "every non-negative array", "why_tests_cant": "Unbounded length.", "anchors": ["cloudnetpy/utils.py:cumsumr"]}
{"id": "C27", "title": "isolated pixel filter", "statement": "filter_isolated_pixels removes exactly the set pixels that have no set neighbour among the eight surrounding pixels and keeps all others; filter_x_pixels does the same for neighbours in the same row (time direction) only as documented by its structuring element; both are idempotent.", "quantifier": "every boolean field", "why_tests_cant": "Global connected-component labelling.", "anchors": ["cloudnetpy/utils.py:filter_isolated_pixels", "cloudnetpy/utils.py:filter_x_pixels", "cloudnetpy/utils.py:_filter"]}
{"id": "C28", "title": "small object removal", "statement": "remove_small_objects(mask, max_size, connectivity) keeps exactly the pixels whose connected component has more than max_size pixels; the result is a subset of the input; applying it twice changes nothing.", "quantifier": "every boolean field, size and connectivity", "why_tests_cant": "Connected components.", "anchors": ["cloudnetpy/utils.py:remove_small_objects"]}
{"id": "C29", "title": "bin edges", "statement": "binvec returns one more edge than points, splitting the interval from half a step below the first to half a step above the last point into equal bins; on an evenly spaced grid each point is in the middle of its own bin. Vectors with fewer than two points raise. Limit: on an uneven grid a point need not be in its own bin.", "quantifier": "every evenly spaced vector", "why_tests_cant": "Arbitrary length and spacing.", "anchors": ["cloudnetpy/utils.py:binvec"]}
{"id": "C30", "title": "2-D rebinning partitions samples", "statement": "rebin_2d: every input profile inside the target grid contributes to exactly one output bin; an output bin is the mean (std, max) of the unmasked values of its profiles; a bin with fewer than n_min profiles or with only masked values is masked, and exactly the under-populated bins are reported.", "quantifier": "every time vector, data field and target grid", "why_tests_cant": "Sum over arbitrary partitions.", "anchors": ["cloudnetpy/utils.py:rebin_2d"]}
{"id": "C31", "title": "1-D rebinning", "statement": "rebin_1d on an evenly spaced grid returns for each target bin the mean (or standard deviation, or maximum) of the unmasked samples in that bin and masks bins without samples. Limit: if all unmasked samples are zero, every bin is an unmasked zero, also one without samples.", "quantifier": "every sample vector and target grid", "why_tests_cant": "Arbitrary sizes, mask and zero handling.", "anchors": ["cloudnetpy/utils.py:rebin_1d"]}
{"id": "C32", "title": "nearest neighbour interpolation along height", "statement": "interpolate_2D_along_y returns for every target height within the input range the value of the nearest input gate (lower one on ties), at every time; target heights outside the input range are masked.", "quantifier": "every sorted height grid, data field and target grid", "why_tests_cant": "Search over arbitrary grids.", "anchors": ["cloudnetpy/utils.py:interpolate_2D_along_y"]}
{"id": "C33", "title": "gap detection", "statement": "get_gap_ind reports exactly the target grid points whose nearest original grid point is farther away than the threshold, and all of them if the original grid is empty.", "quantifier": "every pair of grids", "why_tests_cant": "Arbitrary grids.", "anchors": ["cloudnetpy/utils.py:get_gap_ind"]}
{"id": "C34", "title": "1-D interpolation respects bounds and gaps", "statement": "interpolate_1d returns a value at a target time iff an unmasked sample lies within max_time; each value lies between the smallest and largest sample, equals the sample at sample times; times outside 0..24 raise ValueError; no valid samples gives an all-masked result.", "quantifier": "every sample set and target grid", "why_tests_cant": "Continuous domain, arbitrary sizes.", "anchors": ["cloudnetpy/utils.py:interpolate_1d"]}
{"id": "C35", "title": "time grid covers the day", "statement": "time_grid(step) is evenly spaced by the step, starts half a step after midnight, and is the shortest such grid whose step-wide bins cover the day; when the step divides the day every point lies inside the day; steps under one second raise ValueError.", "quantifier": "every step length", "why_tests_cant": "All steps, in particular those that do not divide the day.", "anchors": ["cloudnetpy/utils.py:time_grid"]}
{"id": "C36", "title": "seconds to hours", "statement": "seconds2hours returns values in [0, 24) for every time, except that a last time stamp at exactly midnight becomes 24; for increasing times within one day the result is increasing.", "quantifier": "every time vector", "why_tests_cant": "Arbitrary vectors, midnight edge.", "anchors": ["cloudnetpy/utils.py:seconds2hours"]}
{"id": "C37", "title": "valid time indices", "statement": "find_valid_time_indices keeps exactly one position for every distinct time stamp that belongs to the expected date, in increasing order of time; screening raises ValidTimeStampError when nothing is left; all time-dependent variables are screened consistently.", "quantifier": "every time vector and date", "why_tests_cant": "Arbitrary order and duplicates.", "anchors": ["cloudnetpy/utils.py:find_valid_time_indices", "cloudnetpy/utils.py:screen_by_time"]}
{"id": "C38", "title": "duplicate removal and sorting of timestamps", "statement": "After removing duplicates or sorting, every time-dependent variable of an instrument keeps the value that belongs to each remaining time stamp (records stay aligned), times are strictly increasing resp. non-decreasing, and no distinct time stamp is lost.", "quantifier": "every instrument record set", "why_tests_cant": "Alignment of all variables for every permutation.", "anchors": ["cloudnetpy/instruments/cloudnet_instrument.py:CloudnetInstrument.remove_duplicate_timestamps", "cloudnetpy/instruments/cloudnet_instrument.py:CloudnetInstrument.sort_timestamps", "cloudnetpy/instruments/cloudnet_instrument.py:CloudnetInstrument.screen_time_indices"]}
{"id": "C39", "title": "file concatenation", "statement": "concatenate_files writes the concatenation of the time records of all valid input files in file name order (time-dependent variables along the time axis, others from the first file), skips files without time stamps or with an excessive range dimension, and returns the used file names.", "quantifier": "every list of files and every record count", "why_tests_cant": "Arbitrary number of files.", "anchors": ["cloudnetpy/concat_lib.py:concatenate_files", "cloudnetpy/concat_lib.py:_Concat"]}
{"id": "C40", "title": "updating a daily file", "statement": "update_nc never changes existing records, over any sequence of updates. Record i of the new file is stored i places after the last old record if it is later than that one; so a file that is later as a whole is appended as it is, and a history of such files is their sequence. Known times stay increasing and repeating an update changes nothing. Limit: an earlier record before a later one leaves a record of missing values.", "quantifier": "every old and new file, every sequence of updates", "why_tests_cant": "History of updates.", "anchors": ["cloudnetpy/concat_lib.py:update_nc", "cloudnetpy/concat_lib.py:_find_valid_time_indices", "cloudnetpy/concat_lib.py:_update_fields"]}
{"id": "C41", "title": "history merging", "statement": "merge_history puts the new record first, then every history line of every source file exactly once (only the last line for model files), in reverse chronological order with undated lines last, losing no distinct line; lines without a date keep their order, and lines of ancestors are still present after several processing steps.", "quantifier": "every list of source histories", "why_tests_cant": "Arbitrary number of sources.", "anchors": ["cloudnetpy/output.py:merge_history"]}
{"id": "C42", "title": "source identifiers", "statement": "get_source_uuids returns each distinct file uuid of the sources exactly once, in alphabetical order independent of the order of the sources, ignoring sources without one.", "quantifier": "every list of sources", "why_tests_cant": "Arbitrary lists.", "anchors": ["cloudnetpy/output.py:get_source_uuids"]}
{"id": "C43", "title": "attribute precedence", "statement": "update_attributes gives each variable, attribute by attribute, the non-empty value of the product table, else that of the common table, else keeps the old value; dimensions are replaced by the table. The source attribute is filled from the instrument which measured the variable.", "quantifier": "every data dictionary and attribute table", "why_tests_cant": "Arbitrary dictionaries.", "anchors": ["cloudnetpy/output.py:update_attributes", "cloudnetpy/cloudnetarray.py:CloudnetArray.set_attributes"]}
{"id": "C44", "title": "class flag consistency after classification", "statement": "In every classification returned, super-cold liquid (wet bulb below -38 C) is never droplet; aerosol is reported only at lidar signals and every lidar signal is droplet, falling or aerosol; falling coincides with insect or aerosol only at clutter that was given up; every radar echo is droplet, falling, aerosol, insect or clutter, or lies in the freezing region without a lidar signal (removed speckle); clutter has near-zero velocity in the first ten gates and no droplet or other falling pixel beside it; falling pixels belong to an object of more than ten pixels or are given-up clutter; the freezing region is that of the temperature and the melting layer, and a melting pixel is added only at the bottom of the freezing region. Each refinement pass changes exactly the pixels it documents. A classification is returned for at least two profiles with increasing times and heights in reasonable steps, a radar echo with gates above it, a freezing gate in every profile, and a melting temperature window that does not reach the top gate when depolarisation is measured.", "quantifier": "every observation field", "why_tests_cant": "Composition of many passes.", "anchors": ["cloudnetpy/categorize/classify.py:classify_measurements"]}
{"id": "C45", "title": "insects are screened", "statement": "Without radar reflectivity, velocity variance and depolarisation no pixel is an insect, and every insect pixel has a known wet bulb temperature above 265 K. No pixel is initially classified as insect inside a liquid layer, at or above a melting layer, at or above liquid where the estimate without depolarisation is positive, or in a rainy profile; elsewhere a pixel is an insect exactly when the larger of the two estimates exceeds 0.8. Reported probabilities lie in (0,1] and are masked exactly where they are zero.", "quantifier": "every observation field", "why_tests_cant": "Vertical propagation on arbitrary profiles.", "anchors": ["cloudnetpy/categorize/insects.py:find_insects", "cloudnetpy/categorize/insects.py:_screen_insects"]}
{"id": "C46", "title": "falling hydrometeors", "statement": "Before refinement a pixel is falling exactly when it has a radar echo that is neither clutter nor insect and does not lie in a liquid layer with an upward increasing echo that is missing above its top, or is a lidar signal colder than -15 C outside liquid, at least 2 km above the site, and below 4 km with at most two lidar signals in the six gates ending there.", "quantifier": "every observation field", "why_tests_cant": "Arbitrary profiles, cloud by cloud correction.", "anchors": ["cloudnetpy/categorize/falling.py:find_falling_hydrometeors"]}
{"id": "C47", "title": "two-way attenuation accumulates", "statement": "Two-way attenuation is zero-free monotone: for non-negative specific attenuation it is non-decreasing with height, equals twice the path integral from ground, and its gas correction error is 10 percent.", "quantifier": "every profile", "why_tests_cant": "Arbitrary gates.", "anchors": ["cloudnetpy/categorize/attenuations/__init__.py:calc_two_way_attenuation"]}
{"id": "C48", "title": "attenuation bookkeeping", "statement": "Liquid attenuation never applies in rain-attenuated pixels; uncorrected is a subset of attenuated for liquid and melting; rain attenuation covers whole rainy profiles; without a disdrometer rain and melting attenuation are entirely uncorrected; every pixel above a liquid pixel in a rain-free profile is liquid attenuated.", "quantifier": "every classification and observation set", "why_tests_cant": "Field-wide relations.", "anchors": ["cloudnetpy/categorize/attenuation.py:get_attenuations", "cloudnetpy/categorize/attenuations/liquid_attenuation.py:LiquidAttenuation", "cloudnetpy/categorize/attenuations/rain_attenuation.py:calc_rain_attenuation", "cloudnetpy/categorize/attenuations/melting_attenuation.py:calc_melting_attenuation"]}
{"id": "C49", "title": "radar echo correction", "statement": "Attenuation correction never lowers the radar echo, adds exactly the available gas, liquid, rain and melting amounts and never changes which pixels have an echo; the echo error is masked wherever any attenuation is uncorrected.", "quantifier": "every echo and attenuation field", "why_tests_cant": "Masked arithmetic over all masks.", "anchors": ["cloudnetpy/categorize/radar.py:Radar.correct_atten", "cloudnetpy/categorize/radar.py:Radar.calc_errors"]}
{"id": "C50", "title": "incomplete radar pixels are removed", "statement": "After remove_incomplete_pixels a 2-D radar variable has exactly its former data at the pixels where Z, v and (when in the file) width all have data and no data elsewhere; scalars and vectors are unchanged, no variable appears or disappears; a file without Z or v raises.", "quantifier": "every radar field", "why_tests_cant": "All mask combinations.", "anchors": ["cloudnetpy/categorize/radar.py:Radar.remove_incomplete_pixels"]}
{"id": "C51", "title": "stable radar pointing selection", "statement": "Accepted radar profiles are exactly those that point steadily to zenith as far as known: if elevation and azimuth of the profile and its neighbour are known, the elevation is within tolerance of 90 degrees and of the neighbour's, and the azimuth is within tolerance on the circle. The zenith angle is 90 degrees minus the corrected elevation. Fewer than two accepted profiles raise. Limits: a profile with unknown azimuth is kept whatever its elevation; the first profile is compared with an unmeasured number if the second lacks angles. MIRA angles more than 5% out of range are masked.", "quantifier": "every angle record", "why_tests_cant": "Arbitrary sequences.", "anchors": ["cloudnetpy/instruments/nc_radar.py:NcRadar.add_zenith_and_azimuth_angles"]}
{"id": "C52", "title": "ceilometer screening above negative runs", "statement": "Ceilometer noise screening only removes values and never changes those it keeps. A value is removed exactly if its range is zero, or a run of more than the given number of negative values (within gates 5 to 99) ends at or below it and its range-uncorrected signal is below 8e-6, or the profile is fog and the value is at or above the peak and below 2e-6, or its signal-to-noise ratio is below the limit. Noise is the standard deviation of the top tenth of the gates, at least the instrument's minimum, and negligible in fog and profiles with negative runs. In smoothed backscatter cloud values are those of the unsmoothed backscatter.", "quantifier": "every backscatter profile", "why_tests_cant": "Arbitrary profiles.", "anchors": ["cloudnetpy/instruments/ceilometer.py:_mask_low_values_above_consequent_negatives", "cloudnetpy/instruments/ceilometer.py:Ceilometer.screen_depol"]}
{"id": "C53", "title": "cumulative rain amount", "statement": "normalize_cumulative_amount returns an amount that starts from zero, is missing exactly where the reading is missing (everywhere if the first reading is missing) and never decreases if no reading is negative. Between consecutive readings it grows by their difference; a drop is taken as a reset. If there is at most one reset up to a record, the amount there is exactly the rain collected. Limit: at later resets the rain collected before earlier resets is counted again.", "quantifier": "every rain gauge history with any number of resets", "why_tests_cant": "History of resets.", "anchors": ["cloudnetpy/instruments/cloudnet_instrument.py:CloudnetInstrument.normalize_cumulative_amount"]}
{"id": "C54", "title": "disdrometer rows stay aligned", "statement": "Reading rows of a Parsivel file keeps exactly the rows that are not blank and can be read, in order; each column has one value per kept row, the k-th from the k-th kept row. It raises exactly if every row is unreadable and none is blank (so a blank line hides an unreadable file). An accepted spectrum has 1024 counts and consumes exactly its tokens. For records of numbered lines the last line of a number wins; every column has one entry per readable record, missing if the record lacks it. Columns of several files are concatenated (so they are misaligned if a file lacks one of them).", "quantifier": "every text file", "why_tests_cant": "Arbitrary corrupted input.", "anchors": ["cloudnetpy/instruments/disdrometer/parsivel.py:_read_rows"]}
{"id": "C55", "title": "RPG angle decoding", "statement": "Decoding elevation and azimuth packed in one number inverts both documented encodings (elevations between -100 and 200 degrees and azimuths in tenths of degrees; or hundredths of degrees for both). Whatever is decoded by version 1 has a non-negative azimuth and an elevation between -100 and 200 degrees. Other versions raise.", "quantifier": "every angle pair", "why_tests_cant": "Continuous domain.", "anchors": ["cloudnetpy/instruments/rpg_reader.py:_decode_angles"]}
{"id": "C56", "title": "Nyquist velocity expansion", "statement": "If the chirps start from the first gate and are not in decreasing order, every range gate receives the Nyquist velocity of the chirp it lies in; chirps in decreasing order raise; padding with missing chirps changes nothing. Chirp starts moved to other gates start with the first gate, stay in order and are the nearest gates.", "quantifier": "every chirp configuration", "why_tests_cant": "Arbitrary chirp counts.", "anchors": ["cloudnetpy/instruments/rpg.py:_expand_nyquist"]}
{"id": "C57", "title": "HATPRO record screening", "statement": "A HATPRO value is masked exactly if its record has low quality (both quality bits set); if all records have, an error is raised; a file of zeros is completely masked. Duplicate times keep their first record. With an expected date only its records are kept, in order. Two files of a stem are joined by time without loss, in either order; disagreeing angles at a common time raise, as do more than two files. Columns stay aligned with times when objects are stacked and missing variables added.", "quantifier": "every record set", "why_tests_cant": "Arbitrary sets.", "anchors": ["cloudnetpy/instruments/rpg_reader.py:HatproBin.screen_bad_profiles", "cloudnetpy/instruments/rpg_reader.py:HatproBinCombined"]}
{"id": "C58", "title": "disdrometer bin geometry", "statement": "Size and velocity bin vectors built from spread/number tables are contiguous: each upper bound is the next lower bound, mid values are centred and the covered width is the sum of spreads times counts.", "quantifier": "every bin table", "why_tests_cant": "Arbitrary tables.", "anchors": ["cloudnetpy/instruments/disdrometer/common.py:Disdrometer.store_vectors"]}
{"id": "C59", "title": "model grid windows partition observations", "statement": "In model evaluation, with increasing model times and levels, each observation belongs to at most one model cell: windows are half open and consecutive ones share edges. Level edges are midpoints, with a full step beyond the first and last level; every height between the outer edges belongs to exactly one level and a level to its own window. Advection windows of model times an hour apart do not overlap.", "quantifier": "every model grid", "why_tests_cant": "Arbitrary grids.", "anchors": ["cloudnetpy/model_evaluation/products/tools.py:rebin_edges", "cloudnetpy/model_evaluation/products/tools.py:get_1d_indices"]}
{"id": "C60", "title": "observed cloud fraction", "statement": "A cell of the observed cloud fraction is the mean of the known observations in its window of time and height (by volume) and the fraction of profiles with cloud out of those with observations (by area); the same in the advection window. Without missing observations 0 <= volume <= area <= 1, the volume fraction is 0 exactly if all is clear and 1 exactly if all is cloudy. Cloud is droplets or falling ice without aerosols and insects. Other products are means of known observations, missing if there are none. Sorted observations never raise. Limits: a cloud fraction cell without observations is 0, not missing; with missing observations area can be below volume.", "quantifier": "every observation field", "why_tests_cant": "Arbitrary windows.", "anchors": ["cloudnetpy/model_evaluation/products/grid_methods.py:ProductGrid", "cloudnetpy/model_evaluation/products/observation_products.py:ObservationManager"]}
{"id": "C61", "title": "cirrus filter", "statement": "The cirrus filter never increases the model cloud fraction. Outside ice clouds values stay; in ice clouds the cloud fraction is multiplied by the part of the distribution of ice water content that is observable, and masked below 0.05 or if the distribution is unusable. It fails exactly if the model has no ice clouds.", "quantifier": "every model field", "why_tests_cant": "Continuous domain.", "anchors": ["cloudnetpy/model_evaluation/products/advance_methods.py:AdvanceProductMethods"]}
{"id": "C62", "title": "advection window", "statement": "The advection averaging time is between zero and an hour; for positive winds it is the time to cross the horizontal resolution, at most an hour, so it does not increase with wind. Limit: a calm or missing wind gives an empty window.", "quantifier": "every wind field", "why_tests_cant": "Continuous domain.", "anchors": ["cloudnetpy/model_evaluation/products/tools.py:calculate_advection_time"]}
{"id": "C63", "title": "wavelength band", "statement": "get_wl_band assigns each supported frequency to exactly one of X, Ka, W and raises otherwise.", "quantifier": "every frequency", "why_tests_cant": "Continuous domain with boundaries.", "anchors": ["cloudnetpy/utils.py:get_wl_band"]}
{"id": "C64", "title": "instrument preference selection", "statement": "For every order in which the portal lists files, the CLI selects, by the first preference that some instrument with files fits, the first fitting instrument by name; with no fitting preference a single instrument is selected and of several the one the user numbers, or nothing. A product is made from exactly the suitable raw files of the selected instrument. Preference arguments accumulate per product in order and are rejected exactly if a colon is missing or a value with a colon is not a persistent identifier. Limit: a preferred identifier is ignored if a preferred type excludes it.", "quantifier": "every candidate and preference list", "why_tests_cant": "Arbitrary lists.", "anchors": ["cloudnetpy/cli.py:_select_instrument"]}
{"id": "C65", "title": "bad profiles are removed consistently in categorize", "statement": "Categorize keeps exactly the profiles with a radar measurement in the time bin, a measured lidar profile within one minute and at least one model temperature. Kept profiles keep their order; time, every radar, lidar and microwave field with one record per profile and every dense model field lose exactly the other profiles, and nothing else changes. Fewer than two kept profiles raise ValidTimeStampError.", "quantifier": "every set of bad indices", "why_tests_cant": "Arbitrary sets.", "anchors": ["cloudnetpy/categorize/categorize.py:_screen_bad_time_indices"]}
{"id": "C66", "title": "output variable precedence", "statement": "No variable name occurs twice in a categorize file. A name provided by several sources takes its values from the later of: radar, derived results, lidar, model, sparse model fields, microwave radiometer, disdrometer. Radar rainfall rate is dropped when a disdrometer is present, disdrometer particle counts are never written, only five sparse model fields are taken and a file without a needed one raises.", "quantifier": "every variable set", "why_tests_cant": "Arbitrary dictionaries.", "anchors": ["cloudnetpy/categorize/categorize.py:_prepare_output"]}
{"id": "C67", "title": "rain detection and clutter", "statement": "A profile is rainy iff the disdrometer says liquid precipitation where it is available and has data, and else the radar echo of the lowest gates with data does; a pixel is clutter exactly when it lies in the first ten gates and has a velocity closer to zero than 0.05 m/s. (The code means to report clutter in rain-free profiles only, but the rain flag is an integer array whose bitwise inverse is never zero: a recorded disagreement.) A record with one profile raises.", "quantifier": "every observation field", "why_tests_cant": "Arbitrary profiles.", "anchors": ["cloudnetpy/categorize/containers.py:ClassData"]}
{"id": "C68", "title": "freezing region", "statement": "In each profile the freezing region is upward closed: exactly the gates above one freezing altitude, or all gates when the whole column is below zero and no melting layer was detected. The freezing altitude is the height of the interpolated zero crossing of the model temperature, or the median height of the melting layer where one was detected, interpolated between these; a profile that never falls below zero raises.", "quantifier": "every temperature field", "why_tests_cant": "Arbitrary profiles.", "anchors": ["cloudnetpy/categorize/freezing.py:find_freezing_region", "cloudnetpy/categorize/freezing.py:find_t0_alt"]}
{"id": "C69", "title": "combination of errors", "statement": "l2norm of independent errors is non-negative, at least each component, independent of the order of the components, and masked exactly where some component is masked; the weighted variant is the scale times the norm of the weighted components.", "quantifier": "every list of error terms", "why_tests_cant": "Continuous domain, arbitrary arity.", "anchors": ["cloudnetpy/utils.py:l2norm", "cloudnetpy/utils.py:l2norm_weighted"]}
{"id": "C70", "title": "rebinning Doppler velocity", "statement": "Doppler velocities that were not dealiased are averaged on the circle of the largest folding velocity V of a bin: the result is missing exactly if nothing was measured, lies in [-V, V], is the circular mean (direction of the sum of unit vectors), equals the common value of equal velocities in (-V, V], and does not change when velocities are folded by multiples of 2V. Dealiased data are averaged arithmetically; partly dealiased data raise.", "quantifier": "every velocity set", "why_tests_cant": "Continuous domain.", "anchors": ["cloudnetpy/categorize/radar.py:Radar._rebin_velocity"]}
{"id": "C71", "title": "classification file end to end", "statement": "For every pair of category and quality bit fields stored in a categorize file with at least two profiles, the classification product holds, in one file, the target classification of the decision table, the detection status, the radar attenuation status, cloud base and top heights (above sea level and ground) and the cloud top status that belong to the flags decoded from the two integers of each pixel.", "quantifier": "every pair of stored bit fields, height grid and altitude", "why_tests_cant": "Composition of several products over arbitrary fields.", "anchors": ["cloudnetpy/products/classification.py:generate_classification"]}
{"id": "C72", "title": "drizzle retrieval", "statement": "The drizzle retrieval leaves pixels without drizzle at zero; at each drizzle pixel it returns a diameter, shape parameter and lidar ratio belonging to one entry of the look-up table, obtained from a converged guess or after ten iterations; the lidar backscatter of a gate is corrected by exactly the two-way attenuation of the drizzle below it in the same profile, so the correction is at least one and never decreases with height.", "quantifier": "every reflectivity, backscatter and width field, table and drizzle mask", "why_tests_cant": "Iterative solver with data dependent stopping, state carried from gate to gate.", "anchors": ["cloudnetpy/products/drizzle_tools.py:DrizzleSolver"]}
{"id": "C73", "title": "drizzle derived products", "statement": "Drizzle number concentration, water content, water flux and fall velocity are those of the retrieved size distribution. Table look-ups never leave the table: they use the first entry that is not smaller than the retrieved diameter (shape parameter), or the last one. Drizzle fall velocity plus vertical air velocity equals the measured Doppler velocity, and all are zero where nothing was retrieved.", "quantifier": "every retrieval result", "why_tests_cant": "Continuous domain.", "anchors": ["cloudnetpy/products/drizzle.py:DrizzleProducts"]}
{"id": "C74", "title": "table look-up by bisection", "statement": "Looking up a value in a sorted table returns the number of entries below it and stays within the table.", "quantifier": "every sorted table and value", "why_tests_cant": "Arbitrary tables; loop of unknown length.", "anchors": ["cloudnetpy/products/drizzle_tools.py:DrizzleSolver", "cloudnetpy/products/drizzle.py:DrizzleProducts"]}
{"id": "C75", "title": "gate edges to mid points", "statement": "edges2mid moves gate positions given at the lower or upper edge to the middle between neighbouring edges, extrapolating the last (first) gate with the width of its neighbour; fewer than two gates raise.", "quantifier": "every vector of edges", "why_tests_cant": "Arbitrary grids.", "anchors": ["cloudnetpy/utils.py:edges2mid"]}
{"id": "C76", "title": "source attributes are merged without loss", "statement": "The source attribute of a categorize file lists every source line of every instrument exactly once, alphabetically, and every instrument PID once; adding auxiliary sources keeps every existing line and adds every line of the extras, without repetition if the extras are single lines.", "quantifier": "every list of sources and existing attribute text", "why_tests_cant": "Arbitrary texts and numbers of files.", "anchors": ["cloudnetpy/output.py:add_source_instruments", "cloudnetpy/output.py:_append_extra_sources"]}
{"id": "C77", "title": "copying variables and global attributes", "statement": "copy_variables adds to the target exactly the requested variables present in the source and touches no other; copy_global sets exactly the requested attributes which the source has and keeps all others.", "quantifier": "every source, target and key list", "why_tests_cant": "Arbitrary dictionaries.", "anchors": ["cloudnetpy/output.py:copy_variables", "cloudnetpy/output.py:copy_global"]}
{"id": "C78", "title": "LWC error", "statement": "The LWC error is given exactly in non-rainy pixels with known non-zero LWC and known LWP and LWP error; it is the norm of half the relative LWC gradient (at most 5) and of the relative LWP error (at most 10), so it lies between 0 and the square root of 125.", "quantifier": "every LWC field, LWP and error", "why_tests_cant": "Real arithmetic over arbitrary grids.", "anchors": ["cloudnetpy/products/lwc.py:LwcError"]}
{"id": "C79", "title": "number of grid elements in a distance", "statement": "On a uniform grid with step d>0, n_elements(x, dist) is the integer nearest to dist/d (ties to even), so that the returned number of elements spans dist to within half a step.", "quantifier": "every uniform grid and distance", "why_tests_cant": "Real arithmetic over arbitrary grids.", "anchors": ["cloudnetpy/utils.py:n_elements", "cloudnetpy/utils.py:mdiff"]}
{"id": "C80", "title": "liquid layers from lidar", "statement": "find_liquid marks a pixel exactly when it lies between the base and top of an accepted strong backscatter peak: a strict maximum among its four neighbours on both sides, above the amplitude threshold, at least three non-zero gates, thinner than 300 m, falling steeply enough above, more than 100 m above the first gate, with non-negative interpolated LWP. No marked layer is 300 m thick or contains fewer than three valid gates.", "quantifier": "every backscatter field and LWP series", "why_tests_cant": "Arbitrary fields.", "anchors": ["cloudnetpy/categorize/droplet.py:find_liquid", "cloudnetpy/categorize/droplet.py:_find_strong_peaks"]}
{"id": "C81", "title": "LWP interpolation", "statement": "If the measured LWP values do not sum to zero, interpolate_lwp keeps every measured non-zero value, is linear in time between consecutive ones and constant before the first and after the last; if everything is masked or the sum is zero, zeros are returned. (Measured zeros are also replaced by interpolation, contrary to the docstring.)", "quantifier": "every LWP series", "why_tests_cant": "Arbitrary gaps.", "anchors": ["cloudnetpy/categorize/droplet.py:interpolate_lwp"]}
{"id": "C82", "title": "melting layer", "statement": "Before smoothing, the melting pixels of a profile are consecutive gates between two gates with wet bulb temperature in -4..3 C (-8..6 C for the GDAS model). With depolarisation the layer starts half-way between the foot and the peak of the depolarisation and ends at the top of the peak, provided the peak is high enough and echo and velocity at its foot are those of falling particles; without, it is found from the longest run of upward increasing velocity. Smoothing in time keeps a pixel found in two neighbouring profiles, removes one found in a single profile, and adds pixels only within eight profiles of a melting pixel of the same gate. With depolarisation the search raises exactly if the temperature window of a profile reaches the highest gate.", "quantifier": "every observation field", "why_tests_cant": "Arbitrary profiles, real-valued weights.", "anchors": ["cloudnetpy/categorize/melting.py:find_melting_layer"]}
{"id": "C83", "title": "radar artifact filters", "statement": "The first-gate filter removes velocities above 4 m/s in the first gate and nothing else. The stripe filter does nothing below 300 profiles with data; otherwise a row or column (profile or gate) of a field is a stripe exactly if at least five rows lie on each side and its number of values exceeds 20 and the third quartile of the ten neighbouring counts by three times their interquartile range (at least 3), unless the neighbours agree on a positive count; in stripes exactly the pixels isolated from the nearest non-stripe neighbours lose their data, in the filtered field as well as the velocity, and the echo itself is never changed.", "quantifier": "every radar field and size", "why_tests_cant": "Rolling quartiles over arbitrary count vectors.", "anchors": ["cloudnetpy/categorize/radar.py:Radar.filter_stripes", "cloudnetpy/categorize/radar.py:Radar.filter_1st_gate_artifact"]}
{"id": "C84", "title": "radar echo sensitivity and precision", "statement": "The sensitivity of a gate with measured ground clutter is the median of the clutter echoes; any other gate gets the 0.1 percent quantile of all range-corrected echoes, moved to the range of the gate, plus the mean gas attenuation. The precision of an echo is given exactly where echo and a positive spectral width are known (a default width of 0.3 m/s if the file has none), follows the published formula and is positive.", "quantifier": "every echo field, clutter mask, attenuation and increasing time vector", "why_tests_cant": "Quantiles and medians over arbitrary fields.", "anchors": ["cloudnetpy/categorize/radar.py:Radar.calc_errors"]}
{"id": "C85", "title": "position of a moving radar", "statement": "Latitude, longitude and altitude at a requested time are those of the time stamp closest to it, the later one of two equally close ones; times outside the record use its ends.", "quantifier": "every increasing time vector and requested time", "why_tests_cant": "Arbitrary spacing of time stamps.", "anchors": ["cloudnetpy/categorize/radar.py:Radar.add_location"]}
{"id": "C86", "title": "folding velocity of chirp segments", "statement": "Chirp start indices that begin with 0 or 1, do not decrease and stay in the profile are accepted and each range gate gets the folding velocity of the chirp segment it lies in; starts with another first value, or decreasing ones, raise.", "quantifier": "every number of segments, gates and profiles", "why_tests_cant": "Arbitrary segmentations.", "anchors": ["cloudnetpy/categorize/radar.py:Radar._get_expanded_folding_velocity"]}
{"id": "C87", "title": "lidar on the Cloudnet grid", "statement": "Lidar backscatter on the Cloudnet grid is, at each pixel, the value of the closest measured profile and gate (the first of equally close ones), and missing if that profile is more than one minute away, the gate more than 100 m away, or the pixel is outside the measured range. Profiles without any value are ignored. The times reported as gaps are exactly those with no measured profile within one minute.", "quantifier": "every increasing lidar and target time and height grid and backscatter field", "why_tests_cant": "Arbitrary grids and gaps.", "anchors": ["cloudnetpy/categorize/lidar.py:Lidar.interpolate_to_grid"]}
{"id": "C88", "title": "input files of categorize are independent of download order", "statement": "The input files the CLI passes to categorize do not depend on the order in which parallel downloads finish. Local radar, lidar and disdrometer files win; otherwise the first file of the first preferred instrument with files (a preferred lidar may be a Doppler lidar), then of any instrument. The microwave radiometer file is the first found of four alternatives and replaces a local one. Without a model file categorize is skipped; several model files raise.", "quantifier": "every portal content, preference, set of local files and completion order", "why_tests_cant": "All schedules of parallel downloads.", "anchors": ["cloudnetpy/cli.py:_process_categorize", "cloudnetpy/cli.py:_fetch_product", "cloudnetpy/cli.py:_fetch_mwr"]}
{"id": "C89", "title": "rain amount from rain rate", "statement": "Where a weather station reports only rain rates, the rain amount is missing exactly where the rate is missing, is otherwise the sum of the known rates so far times the median time step in seconds, and never decreases for non-negative rates. A single record has the amount zero.", "quantifier": "every time series of rates with gaps", "why_tests_cant": "Arbitrary lengths and gaps.", "anchors": ["cloudnetpy/instruments/weather_station.py:WS.calculate_rainfall_amount"]}
{"id": "C90", "title": "wind direction wrapping", "statement": "Wind directions less than two degrees outside [0, 360) are moved into it by a full turn and all other values are kept; the result of every value in (-2, 362) lies in [0, 360).", "quantifier": "every wind direction", "why_tests_cant": "Continuous domain.", "anchors": ["cloudnetpy/instruments/weather_station.py:WS.wrap_wind_direction"]}
{"id": "C91", "title": "RPG radar zenith angle filter", "statement": "A profile of an RPG cloud radar is kept exactly if its zenith angle (90 degrees minus elevation) is known and within a tenth of a degree (plus 1e-5 relative) of the median of the known zenith angles between -5 and 15 degrees; if none is kept an error is raised. Limit: two equally frequent directions reject everything.", "quantifier": "every sequence of elevation angles with gaps", "why_tests_cant": "Arbitrary sequences and medians.", "anchors": ["cloudnetpy/instruments/rpg.py:Fmcw.add_zenith_angle", "cloudnetpy/instruments/rpg.py:_filter_zenith_angle"]}
{"id": "C92", "title": "RPG radar fill values and outliers", "statement": "A radar value is masked exactly if it is missing, within about 1e-8 of zero or within about 0.01 of the fill value -999. Depolarisation is masked exactly up to its threshold, and all moments where the spectral width is below 0.005 m/s.", "quantifier": "every value", "why_tests_cant": "Continuous domain.", "anchors": ["cloudnetpy/instruments/rpg.py:_mask_invalid_data", "cloudnetpy/instruments/rpg.py:Fmcw.mask_invalid_ldr", "cloudnetpy/instruments/rpg.py:Fmcw.mask_invalid_width"]}
{"id": "C93", "title": "consistent masks of netCDF radars", "statement": "After masks are made consistent every time-height variable has data only where reflectivity and velocity have data and keeps its values there. Screening by signal-to-noise ratio masks exactly the pixels below the limit in all time-height variables, screening by top gates exactly the reflectivity below the mean of the top 50 gates plus the limit; the first gates lose their velocity; MIRA profiles below the power threshold are rejected; MIRA depolarisation is deleted, masked or kept as a whole.", "quantifier": "every set of variables and masks", "why_tests_cant": "Arbitrary grids.", "anchors": ["cloudnetpy/instruments/nc_radar.py:NcRadar", "cloudnetpy/instruments/mira.py:Mira"]}
{"id": "C94", "title": "height above sea level from range", "statement": "Heights are the altitude plus range times the cosine of the median known zenith angle (0 if unknown). They strictly increase with range if the instrument points above the horizon and never exceed altitude plus range.", "quantifier": "every range vector and set of zenith angles", "why_tests_cant": "Continuous domain.", "anchors": ["cloudnetpy/instruments/cloudnet_instrument.py:CloudnetInstrument.add_height", "cloudnetpy/utils.py:range_to_height"]}
{"id": "C95", "title": "ceilometer depolarisation, sunbeams and smoothing", "statement": "Depolarisation is kept exactly if above zero and at most one. With the gates above 10 km divided in 20 equal bins (remainder ignored), a profile is removed as a sunbeam exactly if at least 15 bins have data; with fewer than 20 such gates never. The smoothing lengths times the median steps are one minute and 10 metres; no profiles or times after 24 h raise. Range correction is undone everywhere, except for uncorrected data of CT25k (nowhere) and CL31/CL51 (below 2400 m).", "quantifier": "every profile, grid and model name", "why_tests_cant": "Arbitrary profiles and vectors.", "anchors": ["cloudnetpy/instruments/ceilometer.py:Ceilometer.screen_depol", "cloudnetpy/instruments/ceilometer.py:Ceilometer.screen_sunbeam", "cloudnetpy/instruments/ceilometer.py:calc_sigma_units", "cloudnetpy/instruments/ceilometer.py:NoisyData._get_altitude_ind"]}
{"id": "C96", "title": "day statistics of model evaluation", "statement": "Relative and absolute errors are defined exactly where model and observation are known and the model is at least the smallest observation (and the observation is not zero, for the relative error); the relative error is model minus observation, the absolute error observation minus model. The common area is the percentage of cells where both are known out of those where one is: between 0 and 100, and 100 exactly if the cells coincide.", "quantifier": "every pair of fields", "why_tests_cant": "Arbitrary fields with gaps.", "anchors": ["cloudnetpy/model_evaluation/statistics/statistical_methods.py:relative_error", "cloudnetpy/model_evaluation/statistics/statistical_methods.py:absolute_error", "cloudnetpy/model_evaluation/statistics/statistical_methods.py:calc_common_area_sum"]}
{"id": "C97", "title": "model fields for evaluation", "statement": "Levels kept are exactly those below the altitude limit at some time if heights increase with level. Water content is the sum of mixing ratios times the density of dry air, missing exactly if an input is missing, the temperature zero or the result negative; weak values are masked, others unchanged. The horizontal resolution is accepted exactly if known, unique and positive. Observed ice water content is used exactly where the retrieval status is reliable or corrected.", "quantifier": "every model file", "why_tests_cant": "Arbitrary fields.", "anchors": ["cloudnetpy/model_evaluation/products/model_products.py:ModelManager", "cloudnetpy/model_evaluation/products/observation_products.py:ObservationManager"]}
{"id": "C98", "title": "coordinates of input files", "statement": "Opening an input file gives times in hours and heights in metres, whatever units the file uses: times above 25 are seconds since a midnight and become hours of the day, others stay; kilometres become metres and other units raise. Altitude is the mean of the known altitudes; heights are those of the file, or range plus altitude; height above ground plus altitude is height. getvar returns the first of the names that exists. Limit: seconds that end within 25 s of the epoch are taken as hours.", "quantifier": "every input file", "why_tests_cant": "Every combination of units, gaps and missing variables.", "anchors": ["cloudnetpy/datasource.py:DataSource"]}
{"id": "C99", "title": "liquid water path of categorize", "statement": "Categorize uses the liquid water path exactly where it is known and its quality flag, if there is one, is zero. Its error combines 20 g m-2 and 25 %, is known at the same times, at least each of the two and never decreases with the liquid water path. On the time grid both are given at exactly the times near a usable value.", "quantifier": "every radiometer file and time grid", "why_tests_cant": "Arbitrary flags, gaps and values.", "anchors": ["cloudnetpy/categorize/mwr.py:Mwr"]}
{"id": "C100", "title": "disdrometer input of categorize", "statement": "A disdrometer file is refused exactly if it lacks rain rate or number of particles. On the time grid values are given exactly within a minute of a known value, rain rates between known values, and present weather codes are codes of a nearest known value, never averages.", "quantifier": "every disdrometer file and time grid", "why_tests_cant": "Arbitrary files and grids.", "anchors": ["cloudnetpy/categorize/disdrometer.py:Disdrometer"]}
{"id": "C101", "title": "decibel conversion", "statement": "Converting a variable to or from decibels changes data and units together, does nothing if it is in the target units already, and going there and back recovers the data; numbers that are not positive have no decibels and become missing.", "quantifier": "every variable", "why_tests_cant": "All reals.", "anchors": ["cloudnetpy/cloudnetarray.py:CloudnetArray", "cloudnetpy/utils.py:db2lin", "cloudnetpy/utils.py:lin2db"]}
{"id": "C102", "title": "weather radar files", "statement": "Weather radar scans become one file: one profile for each time of the files with valid ranges (of the expected date, if given), in increasing order, from the first file with that time, on the gates of a file that reaches farthest, each quantity from the nearest gate of its file and missing beyond it. Gates average the rays with a value, powers in linear units. A value survives screening exactly if its gate is above all cluttered gates among the first ten and its signal to noise ratio is not negative. An output is made exactly if some file has valid ranges and all six quantities occur. Limits: no file of the expected date gives an empty output; without expected date other days are kept.", "quantifier": "every list of files in any order", "why_tests_cant": "Arbitrary orders, repetitions, gates and gaps.", "anchors": ["cloudnetpy/instruments/weather_radar.py:weather_radar2nc"]}
{"id": "C103", "title": "dissipation rate from a spectrum", "statement": "The dissipation rate of a spectrum is the mean over the bands in which the line of least squares through the logarithms of the points strictly inside has a slope between -2 and -1.33; its error is their sample standard deviation, undefined for one band. A spectrum 0.5 e^(2/3) k^(-5/3) gives back e exactly. The spectrum of a velocity series holds its variance (for an even number of profiles plus the power of the highest wavenumber). An offset of the velocities has no influence and a factor multiplies the result by its cube.", "quantifier": "every spectrum and every velocity series", "why_tests_cant": "Real valued series of any length.", "anchors": ["cloudnetpy/products/epsilon_radar.py:_epsilon_from_spectrum", "cloudnetpy/products/epsilon_radar.py:_periodogram"]}
{"id": "C104", "title": "times and gaps of the radar dissipation rate", "statement": "The product has exactly the half minutes of the day followed within five minutes by a profile; its values use exactly these profiles. A value is given exactly if a velocity is known among the first two and the last two profiles and at nine tenths of them, the wind is positive, and a band accepts the spectrum; values are positive and errors are given only with values. Limits: radars faster than half a second give no values; positions of moving platforms are misplaced after gaps.", "quantifier": "every radar file", "why_tests_cant": "Arbitrary times and gaps.", "anchors": ["cloudnetpy/products/epsilon_radar.py:EpsilonRadarSource"]}
{"id": "C105", "title": "wind speed for the dissipation rate", "statement": "The wind speed lies between the lowest and the highest speed of the model at any time and height, and is that of the model at its times and levels. Heights are taken above the surface of the model, else above the site.", "quantifier": "every model file, time and height", "why_tests_cant": "Continuous arguments.", "anchors": ["cloudnetpy/products/epsilon_radar.py:_get_wind_interpolator", "cloudnetpy/utils.py:get_model_surface_altitude"]}
{"id": "C106", "title": "input files of a MIRA radar", "statement": "The type of a file is its extension in any case, also if a counter follows. A list of files is accepted exactly if it is not empty and all files are of one known type; a directory gives its .znc files in order, or its .mmclx files if there are none. Limit: a numbered file of a directory is skipped.", "quantifier": "every file name, list of files and directory", "why_tests_cant": "File names are arbitrary strings.", "anchors": ["cloudnetpy/instruments/mira.py:_parse_input_files", "cloudnetpy/utils.py:get_sorted_filenames"]}
{"id": "C107", "title": "variables and header of a MIRA file", "statement": "Each variable written is the last one of the names given for it that exists in the file, and no other variable of the file is used. A header entry is what follows the colon in the last line that starts with its key.", "quantifier": "every file and every header text", "why_tests_cant": "Any combination of variables can be present.", "anchors": ["cloudnetpy/instruments/nc_radar.py:NcRadar.init_data", "cloudnetpy/instruments/mira.py:Mira._read_hrd"]}
{"id": "C108", "title": "profiles of a MIRA radar", "statement": "The output has, for each time of day, one profile of the expected date with sufficient power that points steadily to zenith, in strictly increasing order; pixels have data exactly where reflectivity and velocity are known and the signal reaches the limit of the instrument; values are converted and otherwise unchanged. Limits: without an expected date days are mixed; a last record at midnight is put at 24 hours.", "quantifier": "every sequence of profiles", "why_tests_cant": "Arbitrary order, duplicates, gaps and masks.", "anchors": ["cloudnetpy/instruments/mira.py:mira2nc", "cloudnetpy/instruments/mira.py:Mira"]}
{"id": "C109", "title": "pixels and gates of Copernicus, Galileo and BASTA", "statement": "Copernicus: the gates written are those at a non-negative corrected range; a pixel has data exactly if it has reflectivity and velocity, width at most 3 and velocity at most 9 in magnitude, a raw range of at least 150 m and a signal 2 dB above the mean of the top 50 gates; reflectivities are calibrated. Galileo: gates at positive range; data exactly where the SNR reaches the limit and the pixel is not clutter. BASTA: data exactly where the background mask is 1. Findings: the first 150 m of Copernicus are never masked with the default offset; the clutter test of Galileo ignores the reflectivity.", "quantifier": "every file", "why_tests_cant": "Any pattern of masks and any ranges.", "anchors": ["cloudnetpy/instruments/copernicus.py:Copernicus", "cloudnetpy/instruments/galileo.py:Galileo", "cloudnetpy/instruments/basta.py:Basta.screen_data"]}
{"id": "C110", "title": "ranges while times are selected", "statement": "Sorting time stamps, removing duplicates and removing profiles leave the ranges alone if there are not exactly as many gates as time stamps. If there are, increasing ranges survive only if nothing is moved or removed; in the same way Galileo loses time stamps with gates below the antenna.", "quantifier": "every file and selection", "why_tests_cant": "Any dimensions.", "anchors": ["cloudnetpy/instruments/cloudnet_instrument.py:CloudnetInstrument.screen_time_indices", "cloudnetpy/instruments/galileo.py:Galileo.screen_negative_altitudes"]}
{"id": "C111", "title": "data logger files (TOA5)", "statement": "A file is accepted exactly if its first line says TOA5, its header, units and process lines are consistent and all values below read as their units say; the units of each variable and one record per line of data are returned, in order, each value under the name in the header above it. Finding: within one line the elements of an array variable share one list.", "quantifier": "every text", "why_tests_cant": "Arbitrary header lines and values.", "anchors": ["cloudnetpy/instruments/toa5.py:read_toa5"]}
{"id": "C112", "title": "columns of weather station files with titles", "statement": "For Granada, Juelich, Falkenberg, Kenttarova, Galati and Lampedusa each variable read has one value for each line of data with a time, in order, namely the field below the title of that variable (or the first of its titles that exists); values that cannot be read are missing; of several files of Kenttarova the lines follow each other. Finding: in a data logger file, a line that ends early shifts all further values of the missing columns to earlier times.", "quantifier": "every file and any order of columns", "why_tests_cant": "Arbitrary titles, fields and numbers of files.", "anchors": ["cloudnetpy/instruments/weather_station.py:GranadaWS", "cloudnetpy/instruments/weather_station.py:KenttarovaWS", "cloudnetpy/instruments/weather_station.py:GalatiWS", "cloudnetpy/instruments/weather_station.py:LampedusaWS", "cloudnetpy/instruments/weather_station.py:JuelichWS", "cloudnetpy/instruments/weather_station.py:FalkenbergWS"]}
{"id": "C113", "title": "lines of other weather station files", "statement": "Palaiseau, Bucharest, Maido, Potenza: one record for each line with a time stamp and the right number of values, all of which must be numbers; the different column titles are the expected ones in order. Limassol: one value for each line of data below numbered titles. L'Aquila: of the lines with equal times the first one, in order of time. Cluj-Napoca and Hyytiala: one value per line, the field below the title. Findings: files of Limassol with different titles are misaligned; a missing last value or a blank line rejects a file of Cluj-Napoca.", "quantifier": "every sequence of lines", "why_tests_cant": "Arbitrary comments, short lines and values.", "anchors": ["cloudnetpy/instruments/weather_station.py:PalaiseauWS", "cloudnetpy/instruments/weather_station.py:MaidoWS", "cloudnetpy/instruments/weather_station.py:PotenzaWS", "cloudnetpy/instruments/weather_station.py:LimassolWS", "cloudnetpy/instruments/weather_station.py:_parse_sirta", "cloudnetpy/instruments/weather_station.py:LAquilaWS", "cloudnetpy/instruments/weather_station.py:ClujWS", "cloudnetpy/instruments/weather_station.py:HyytialaWS"]}
{"id": "C114", "title": "variables of a weather station", "statement": "For columns of equal length the output has one record per time of day, the first one read (of the expected date), in strictly increasing order; every column except the rain amount is there with exactly the values of these records in SI units, wind directions wrapped; the rain amount is the column made cumulative or else the integral of the rain rate. The file is processed exactly if there is a record of the date and the columns needed exist. Findings: without a date the days are mixed; of several records within a second one is kept.", "quantifier": "every site, every table of columns and every date", "why_tests_cant": "Arbitrary order, duplicates and missing values.", "anchors": ["cloudnetpy/instruments/weather_station.py:ws2nc", "cloudnetpy/instruments/weather_station.py:WS", "cloudnetpy/instruments/cloudnet_instrument.py:CSVFile"]}
{"id": "C115", "title": "rain gauge and present weather sensor", "statement": "rain[e]H3: rows of the protocol with a readable time of the expected date are read, all or none; the output has one record per time of day in order, with converted rates and cumulative amounts, which never decrease if the file is in order of time. FD12P: a line is read exactly if it has 13 columns that can be read, otherwise ignored; records without data are dropped; the output has one record per time of day in order with cumulative amounts. Findings: amounts of an unsorted rain gauge file can decrease; one line of another day makes FD12P fail.", "quantifier": "every file and any choice of argsort among equal times", "why_tests_cant": "Arbitrary rows and any order.", "anchors": ["cloudnetpy/instruments/rain_e_h3.py:RainEH3", "cloudnetpy/instruments/fd12p.py:FD12P"]}
{"id": "C116", "title": "Parsivel files of data loggers", "statement": "TOA5 and pyAtmosLogger files of Parsivel disdrometers: a row is used exactly if it has as many fields as there are titles and every known field can be read, otherwise it is skipped as a whole; a file without such a row is rejected; every column has one value per used row in file order, numbered columns are joined to vectors in the order of the file. Finding: pyAtmosLogger rows with an empty last text field are rejected.", "quantifier": "every title line and every list of rows", "why_tests_cant": "Arbitrary titles, rows and broken fields.", "anchors": ["cloudnetpy/instruments/disdrometer/parsivel.py:_read_toa5", "cloudnetpy/instruments/disdrometer/parsivel.py:_read_pyatmoslogger_file"]}
{"id": "C117", "title": "output of Parsivel and Thies disdrometers", "statement": "The output has one record per time of the expected date in increasing order with all values of one record of the file; a file is accepted exactly if it has a record of the date and a single sensor; values are converted to SI units, missing codes are masked; velocity and diameter bins have the number of classes of the instrument. Findings: without a date several days end up in one file; with exactly as many unsorted records as bins the bins themselves are permuted.", "quantifier": "every list of records in any order and any date", "why_tests_cant": "Arbitrary order, duplicates and lengths.", "anchors": ["cloudnetpy/instruments/disdrometer/common.py:Disdrometer", "cloudnetpy/instruments/disdrometer/parsivel.py:Parsivel", "cloudnetpy/instruments/disdrometer/thies.py:Thies", "cloudnetpy/instruments/cloudnet_instrument.py:CloudnetInstrument"]}
{"id": "C118", "title": "reading Thies telegrams", "statement": "A line counts exactly if it has the number of fields of telegram 4 or 5 (or of the truncated format); the file is accepted exactly if there is such a line and all of them can be read; each variable has the field at its position in the telegram, one value per such line in file order, the spectrum fields 79 to 518; the time is that of the data logger or else date and time of the telegram, two-digit years being of this century. Finding: one telegram that cannot be read rejects the whole file.", "quantifier": "every file, with time stamps of a data logger or without", "why_tests_cant": "Arbitrary lines and broken telegrams.", "anchors": ["cloudnetpy/instruments/disdrometer/thies.py:Thies._read_data", "cloudnetpy/instruments/disdrometer/thies.py:Thies._read_line"]}
{"id": "C119", "title": "RD-80 disdrometers", "statement": "The records are those of the lines with as many fields as the header, each field by its title; the output has the first record of each time of the expected date in order; counts are number concentration times class width times sampled volume, the reflectivity is the sixth moment of the number concentration in dBZ, missing exactly below -10 dBZ; the classes have no gaps. Findings: without a date it always fails; without a record of the date an empty file is written without error; a file without records makes all others fail.", "quantifier": "every list of files and every date", "why_tests_cant": "Arbitrary titles, order and duplicates.", "anchors": ["cloudnetpy/disdronator/rd80.py:read_rd80", "cloudnetpy/instruments/disdrometer/rd80.py:rd802nc", "cloudnetpy/instruments/disdrometer/rd80.py:Rd80"]}
{"id": "C120", "title": "reading Thies LPM telegrams", "statement": "For the LPM reader: times are those of the lines of which every field can be read and whose time is valid; the values of a number are those of the lines that can be read up to this number, in order; if every line either has a time or no field at all, times and values of a number belong together; fields are separated by semicolons, those at the end and surrounding spaces do not count; exactly the fill values of a number are missing. Finding: a telegram that breaks off in a bad field leaves the fields before it, so later values belong to earlier times.", "quantifier": "every list of lines, with time stamps of a data logger or without", "why_tests_cant": "Arbitrary broken telegrams between good ones.", "anchors": ["cloudnetpy/disdronator/lpm.py:read_lpm", "cloudnetpy/disdronator/lpm.py:_read_telegram", "cloudnetpy/disdronator/utils.py:convert_to_numpy"]}
{"id": "C121", "title": "reading Parsivel files with a telegram", "statement": "For the Parsivel reader: a line counts exactly if it has the number of fields of the telegram and every field can be read; times and values of all numbers of the telegram come from the same lines, for a date with time as well as for date and time of day; empty fields of spectra are zeros; records of Hyytiala files are the readable messages, every column has one place per record; a number of a netCDF file is that of the last variable with the number. Findings: a year of two digits makes the file unreadable; records with different integers cannot be read; kinetic energy and sensor heads get wrong numbers.", "quantifier": "every telegram, every list of lines, messages or variables", "why_tests_cant": "Arbitrary telegrams, broken lines and missing numbers.", "anchors": ["cloudnetpy/disdronator/parsivel.py:read_parsivel", "cloudnetpy/disdronator/parsivel.py:_read_lines", "cloudnetpy/disdronator/parsivel.py:_read_hyytiala", "cloudnetpy/disdronator/parsivel.py:_read_typ_op4a", "cloudnetpy/disdronator/parsivel.py:_expand_spectrum"]}
{"id": "C122", "title": "reading Radiometrics files", "statement": "For MP-3000A files: the records are the rows whose block has had a header, in order of row number and otherwise of the file; values belong to the columns of the last header; superblocks start at records of block 200; a liquid water and water vapour path is read once from each record of type 11 and from each record of block 300 whose processor (the one with the same number in the superblock) is one of zenith measurements; profiles are those with the title that are zenith measurements; other variables get at each time the value closest in time. For WVR-1100 files: exactly the complete lines within one degree of the zenith with positive brightness temperatures; a file without the headings of both paths, the elevation and both brightness temperatures cannot be read. Findings: an empty field makes the whole file unreadable; negative numbers and exponents are lost from profiles; the closest value may be arbitrarily far away.", "quantifier": "every list of rows and records, every number of superblocks and processors", "why_tests_cant": "Arbitrary interleavings of record types and superblocks.", "anchors": ["cloudnetpy/instruments/radiometrics.py:RadiometricsMP", "cloudnetpy/instruments/radiometrics.py:RadiometricsWVR", "cloudnetpy/instruments/radiometrics.py:_find_closest"]}
{"id": "C123", "title": "combining Radiometrics files", "statement": "With a date, the output of radiometrics2nc has exactly the values of this date of all files, sorted by time, hours from 0 to less than 24, all variables of a time together; there is an output exactly if the files have the same readable ranges, there is a value of the date, and no variable of a file is missing in another file with data. Ranges are converted to metres and heights are above sea level. Findings: a variable missing in one file makes all fail; without a date the hours may be counted from another day than the date of the output.", "quantifier": "every list of files, every date, every argsort", "why_tests_cant": "Arbitrary combinations of files and variables.", "anchors": ["cloudnetpy/instruments/radiometrics.py:RadiometricsCombined", "cloudnetpy/instruments/radiometrics.py:radiometrics2nc"]}
{"id": "C124", "title": "reading text files of ceilometers", "statement": "read from a CL31, CL51 or CS135 file: of the profiles of the expected date (without one, the date of the earliest profile) one for each time in order of time, the first in the file if times are equal; hours since midnight of the date, backscatter times the calibration factor (1 if none or zero), zenith angle the median tilt of all messages, heights the mid points of the gates. It is read exactly if there is a profile, all have the same number of gates and one is of the date. Finding: if a file has as many profiles as gates the heights are sorted and selected like the profiles.", "quantifier": "every list of messages in any order, every date and factor", "why_tests_cant": "Any number, order and duplication of messages.", "anchors": ["cloudnetpy/instruments/vaisala.py:VaisalaCeilo"]}
{"id": "C125", "title": "choice of ceilometer reader and published lidar variables", "statement": "ceilo2nc uses the given model if it is one of seven names, whatever the file is, and raises ValueError for others; otherwise the last header line among the first 100 lines, or the title and name of a netCDF file decide. For CL31, CL51, CL61, DA10, CHM15k the published backscatter is the raw value where the smoothed data passed the screening and the value is positive; depolarisation of a CL61 is the ratio where valid, in (0, 1] and the backscatter is valid. Raw values of CHM15k are multiplied by factor, and for old firmware by standard deviation, range squared and inverse normalisation. Findings: DA10 and CS135 are never recognised; masked ratios become valid with the value of the cross-polarised signal; firmware is compared as text.", "quantifier": "every file, model name and pixel", "why_tests_cant": "Arbitrary files, titles, mask combinations.", "anchors": ["cloudnetpy/instruments/ceilo.py:ceilo2nc", "cloudnetpy/instruments/ceilo.py:_initialize_ceilo", "cloudnetpy/instruments/ceilo.py:_find_ceilo_model", "cloudnetpy/instruments/ceilo.py:_get_n_negatives", "cloudnetpy/instruments/lufft.py:LufftCeilo", "cloudnetpy/instruments/cl61d.py:Cl61d"]}
{"id": "C126", "title": "PollyXT files", "statement": "pollyxt2nc reads, in order, the pairs of files (paired by place in the sorted lists) whose heights both have the most frequent sum, whose times agree to 0.015 and which have a signal-to-noise ratio of the channel used, the first of 1064, 532, 355 nm with a signal; each row has the values of one profile of both files. Backscatter is kept where valid, not negative, with valid ratio at or above the limit; depolarisation between 0 and 1; profiles without raw backscatter are dropped. Findings: the wavelength written depends on earlier calls in the process; the epoch of the last pair is used for all files; zenith_angle of site_meta is ignored.", "quantifier": "every list of files, every history of calls in a process", "why_tests_cant": "Depends on the history of calls; arbitrary sets of files.", "anchors": ["cloudnetpy/instruments/pollyxt.py:pollyxt2nc", "cloudnetpy/instruments/pollyxt.py:PollyXt", "cloudnetpy/instruments/pollyxt.py:_fetch_files_with_same_range"]}
{"id": "C127", "title": "MRR-PRO files", "statement": "mrr2nc writes the records of the file, with a date only those on that date, each once, in order of time: velocity with sign changed, rainfall rate and liquid water content in SI units, missing values missing, absent variables absent. It is read exactly if it has stamps, one of them on the date, ranges, velocities, rates and water contents. Of a directory the readable files ending with .nc in any case are used. Findings: zenith angles of all records stay when records of other dates are removed, so there are more angles than times; the date written is that of the first record of the file; a file with one record loses its mask.", "quantifier": "every file with any number of records in any order, every date", "why_tests_cant": "Arbitrary order of records, arbitrary dates and masks.", "anchors": ["cloudnetpy/instruments/mrr.py:mrr2nc", "cloudnetpy/instruments/mrr.py:MrrPro"]}
{"id": "C128", "title": "a day of RPG cloud radar files", "statement": "rpg2nc uses the files that can be read and in which all stamps are on the date, in the given order, and raises without any. The range is that of the first file with the highest top; each profile of each file occurs once, in order, on this range; single values of the header are repeated for each profile of their file; properties of the radar are the same in all files or an error is raised, and so are the numbers of values of profiles of files with the same ranges; first gates of chirps are moved to the nearest gate of the common range and padded with missing values. Radars of 35 and 94 GHz are known up to 0.1 GHz, others raise. Findings: if all files have a single chirp the expansion of the Nyquist velocity raises AttributeError; one stamp of another date removes the whole file; a variable which some files do not have has fewer values than there are times.", "quantifier": "every list of files with any ranges, chirps and numbers of profiles", "why_tests_cant": "Arbitrary lists of files with different ranges and chirp tables.", "anchors": ["cloudnetpy/instruments/rpg.py:rpg2nc", "cloudnetpy/instruments/rpg.py:create_one_day_data_record", "cloudnetpy/instruments/rpg.py:Fmcw", "cloudnetpy/instruments/rpg.py:_interpolate_to_common_height", "cloudnetpy/instruments/rpg.py:_pad_chirp_related_fields"]}
{"id": "C129", "title": "Level 1b files on disk", "statement": "A Level 1b file is written if and only if the sizes of its dimensions can be found, each array has a name of its own, known dimensions and a shape that fits them, and a site name is given. The file then has exactly the arrays with their values, types and attributes, fill value for data with missing values, the dimensions of the data, and exactly the listed global attributes: title, source and history from the instrument, site and date. Finding: if anything fails after the file was opened, an incomplete file is left and an older file of that name is lost.", "quantifier": "every instrument object with any arrays, shapes and dimensions", "why_tests_cant": "Arbitrary arrays with arbitrary names and dimensions; all points of failure.", "anchors": ["cloudnetpy/output.py:save_level1b", "cloudnetpy/output.py:init_file", "cloudnetpy/output.py:_write_vars2nc", "cloudnetpy/output.py:_get_netcdf_dimensions"]}
{"id": "C130", "title": "product files on disk", "statement": "A product file is written if and only if the product is known, the input file has a location, extra inputs have a source, the number of heights is known and all arrays and copied variables fit. It has the arrays of the product and, unless the product has an array of that name, position, times, heights and the variables asked for, copied unchanged from the input file; title, references, the identifiers of all inputs once each, the histories of all inputs, and the location, date, source and instrument identifiers of the input. An unknown product or number of heights leaves an older file as it is; finding: any other failure destroys it.", "quantifier": "every product object, input file, list of variables to copy and of extra inputs", "why_tests_cant": "Arbitrary files; all points of failure.", "anchors": ["cloudnetpy/output.py:save_product_file", "cloudnetpy/output.py:copy_variables", "cloudnetpy/output.py:_get_identifier", "cloudnetpy/output.py:get_references"]}
{"id": "C131", "title": "categorize files on disk", "statement": "A categorize file has all arrays with their values, the dimensions of radar and model, the date and location of the radar, the identifiers of all inputs once each, the sources and instrument identifiers of all inputs, each line once, in alphabetical order, and the history lines of all inputs, latest first. Findings: an input without source gives an empty first line of the source; with VoodooNet results the reference of the categorization is missing.", "quantifier": "every set of arrays and input files", "why_tests_cant": "Arbitrary arrays, sources and histories.", "anchors": ["cloudnetpy/categorize/categorize.py:_save_cat", "cloudnetpy/output.py:add_source_instruments"]}
{"id": "C132", "title": "Level 3 files on disk", "statement": "A Level 3 file is written if and only if a site name is given or the model file has a location and all arrays fit; without a site an older file stays. It has all arrays, the names of the input files without folders as source, identifiers of model and observations, and the date of the model file, or the date of the model object if the file has no day. Finding: the history continues only the last line of that of the model file; nothing of the history of the observations is kept.", "quantifier": "every model object, observation file, list of model files and names", "why_tests_cant": "Arbitrary arrays, paths and attributes.", "anchors": ["cloudnetpy/model_evaluation/file_handler.py:save_downsampled_file"]}
{"id": "C133", "title": "radiometer Level 1c and Level 2 files", "statement": "Level 1c data are accepted if and only if at most nine in ten quality flags are set and, if a date is given, there are times, they increase and all are of that date; times become hours of the day and elevations zenith angles. The file is written if and only if the data are accepted, the Level 1b file could be written, coefficient links are given and the lidar, if any, has source and history; it has the arrays, the links, and a title, history and source that name Level 1c and the lidar. The links are split again and each file is stored under its name. A Level 2 file is made if and only if mwrpy wrote one with some unflagged value and a time, and the Level 1c file has all attributes needed; it has the arrays of mwrpy with the standard attributes, and exactly the listed global attributes. Findings: a Level 1c file from cloudnetpy never has the instrument identifier that is needed, so Level 2 always fails on it; a failure leaves the file of mwrpy or half of the attributes; flags that are all missing are accepted; a single record at midnight gets the hour 24.", "quantifier": "every list of flags and times, Level 1b object, set of links and Level 1c/Level 2 file", "why_tests_cant": "Arbitrary flags, times, files and attributes; all points of failure; composition of the two programs.", "anchors": ["cloudnetpy/instruments/hatpro.py:hatpro2l1c", "cloudnetpy/products/mwr_tools.py:_generate_product", "cloudnetpy/products/mwr_tools.py:Mwr", "cloudnetpy/products/mwr_tools.py:_read_mwrpy_coeffs", "cloudnetpy/output.py:replace_attribute_with_standard_value", "cloudnetpy/output.py:fix_time_attributes"]}
{"id": "C134", "title": "site coordinates of instrument files", "statement": "Latitude and longitude are taken from the GPS of instruments that have one (values other than zero), else from the site given, else from the variables of the file, else from its attributes; the altitude in the same way but never from the GPS. If both coordinates are found and all known positions are within the limits of a stationary instrument, the mean is stored, otherwise the arrays as they are; the altitude is a mean if it varies by less than 100 m. An error is raised if and only if an attribute that is used holds no number. Findings: longitudes above 180 are not changed, the sign of coordinates in attributes is lost, and a coordinate found without the other one is kept as an array.", "quantifier": "every GPS record, site, file and set of attributes", "why_tests_cant": "Arbitrary arrays with missing values, all combinations of sources.", "anchors": ["cloudnetpy/utils.py:add_site_geolocation", "cloudnetpy/utils.py:_parse_global_attribute_numeral", "cloudnetpy/utils.py:_are_stationary", "cloudnetpy/instruments/cloudnet_instrument.py:add_site_geolocation"]}
{"id": "C135", "title": "epoch of time units", "statement": "From units like '<unit> since Y-M-D...' the epoch is the date of the third word, up to a T and without commas, if its year is after 1900 and not in the future and month and day are possible; otherwise it is 2001-01-01, except that dates that do not exist (30 February) or do not have three parts raise an error. Finding: a time of day in the units is ignored.", "quantifier": "every text of units", "why_tests_cant": "Arbitrary texts and calendar dates.", "anchors": ["cloudnetpy/utils.py:get_epoch"]}
{"id": "C136", "title": "interpolation on two-dimensional grids", "statement": "Interpolation without mask is bilinear in each cell, keeps the values at the grid points, stays in the range of the data and continues the edge outside. Interpolation with mask gives a value if and only if less than half of the data around the pixel are masked and the pixel is in the convex hull of the valid data or, with extrapolation, at least two pixels of its row are; in the hull the value is a weighted mean of valid data and within their range, at grid points nothing changes (masked points too), fields linear in both coordinates are reproduced exactly including extrapolated pixels, which are on the line through the two nearest pixels of the row; rows outside of the range of the first coordinate are masked. It fails if and only if all valid points are on a line. Finding: products interpolate masked model fields with the fill values stored under the mask.", "quantifier": "every pair of grids, every masked field and every triangulation", "why_tests_cant": "Real-valued fields, arbitrary masks and grid sizes.", "anchors": ["cloudnetpy/utils.py:interpolate_2d", "cloudnetpy/utils.py:interpolate_2d_mask", "cloudnetpy/products/product_tools.py:interpolate_model"]}
{"id": "C137", "title": "weather model of the categorize file", "statement": "The type is the first known model whose name occurs in the file name, otherwise an error is raised. Heights above sea level are those of the file in metres plus the altitude of the model surface; the common heights are their means. On these, a profile is masked if and only if it was masked completely, and profiles linear in height are reproduced. The target grid gets temperature, pressure and humidities at its heights and attenuations at the middle of the gates; fields that are linear in time and height are reproduced exactly. An error is raised if and only if a field is missing, known in less than two profiles or only on a line. The gaps returned are the profiles without temperature, among them all outside of the time range of the model. The offset of the wet-bulb temperature is added and noted. Findings: values under the mask of partly masked profiles become valid, and attenuations are used at the mean heights of the levels, whatever their height in the profile is.", "quantifier": "every model file, site and target grid", "why_tests_cant": "Arbitrary heights, masks and grids; composition of two interpolations.", "anchors": ["cloudnetpy/categorize/model.py:Model", "cloudnetpy/categorize/model.py:_find_model_type", "cloudnetpy/categorize/model.py:_calc_mean_height", "cloudnetpy/utils.py:get_model_surface_altitude"]}
{"id": "C138", "title": "daily, shortened and joined files", "statement": "Given two or more files and a date, the files that can be opened and have a time on the date are joined along the first of the dimensions that the first file has, without statistics variables, and returned in the order given. It fails if and only if the first file cannot be opened or has none of the dimensions, a file has no usable time, or no file of the date has records and less than 10000 gates. Shortening a file keeps the first records of variables with one or two dimensions. Text files are joined byte by byte. Findings: a single file is copied whatever its date, times are taken as seconds whatever the units, files left out of the output are returned, shortening loses variables with three dimensions and fails for other dimensions that contain the name.", "quantifier": "every list of files, every date and every set of times", "why_tests_cant": "Arbitrary files and calendar dates.", "anchors": ["cloudnetpy/concat_lib.py:bundle_netcdf_files", "cloudnetpy/concat_lib.py:truncate_netcdf_file", "cloudnetpy/concat_lib.py:concatenate_text_files"]}
{"id": "C139", "title": "files with ice water content and effective radius of ice", "statement": "Ice water content is known exactly at ice pixels with an echo and without uncorrected attenuation, with the value of the empirical law of the frequency; effective radius is known at the same pixels with its own law and a relative error of 0.4 times the square root of two. The error combines 1.7 dB with the change of the product for the error of the reflectivity. The sensitivity is the law at the mean temperature. The status agrees with the data. Files are written if and only if the frequency is supported, there are two profiles, the variables are present and rain is known. Findings: pixels with uncorrected attenuation have no error, although the comments say so; the bias of ice water content ignores the temperature term, so it is right at 0 degrees only.", "quantifier": "every categorize file", "why_tests_cant": "All reflectivities, temperatures and bits.", "anchors": ["cloudnetpy/products/iwc.py:generate_iwc", "cloudnetpy/products/ier.py:generate_ier", "cloudnetpy/products/product_tools.py:IceSource"]}
{"id": "C140", "title": "file with effective radius of droplets", "statement": "The radius is known exactly at droplet pixels with an echo and is the effective radius of lognormal droplets of the given number and width with the measured reflectivity. The scaled radius and number also need a liquid water path; together they describe lognormal droplets with the measured reflectivity, and in every layer the liquid water of these droplets adds up to the measured liquid water path. The errors combine the relative errors of the parameters. The status follows the table of C15. The file is written if and only if reflectivity, liquid water path and rain are present. Findings: with several layers each of them has the whole path; the number is the same in a layer only if the gates are equally deep; without liquid water path (zero or negative) the scaled radius is one micrometre; the error is a sixth of the radius even if all uncertainties are zero.", "quantifier": "every categorize file with increasing heights and every parameter set with positive number", "why_tests_cant": "All reflectivities, bits and paths.", "anchors": ["cloudnetpy/products/der.py:generate_der", "cloudnetpy/products/der.py:DropletSource"]}
{"id": "C141", "title": "what a run of the command line tool makes", "statement": "A successful run makes, in this order: one product per requested source instrument with raw files on the portal, using the reader of the first matching row of a table; the categorize file from the files of this run completed with files of the portal, if requested and a model is there; the level 2 products from it; the radiometer products; the dissipation rate; the model evaluation products from the portal. The output path of a level 2 product is the path of the categorize file with the word categorize replaced by the product. A run ending with an exception has done a prefix of what it would have done had the failing steps succeeded. Without --force-download an existing file is never replaced by a download. Findings: an instrument that can be listed but has no reader fails after the download; if categorize could not be made the file of the portal is used; a folder name with the word categorize changes the level 2 path; --force-download replaces a file made in the same run; --dl still makes geophysical products, with missing inputs.", "quantifier": "every content of the portal, every set of options, every outcome of the product functions", "why_tests_cant": "All products, instruments, files and failures.", "anchors": ["cloudnetpy/cli.py:run", "cloudnetpy/cli.py:_process_instrument_product", "cloudnetpy/cli.py:_process_categorize", "cloudnetpy/cli.py:_process_cat_product", "cloudnetpy/cli.py:_process_mwrpy_product", "cloudnetpy/cli.py:_process_l3_product"]}
{"id": "C142", "title": "file with liquid water content", "statement": "The file is written if and only if liquid water path, its error and rain are in the categorize file, there are at least two profiles and two gates, and no cloud to be extended starts at the last gate. In profiles without rain, with a liquid water path and with droplets the content is the adiabatic content times a factor of the profile, and adds up to the liquid water path (0 if negative); in other profiles it is unknown. The status is 4 in profiles with rain or without path; elsewhere 1 at droplets, 2 at droplets if a cloud of the profile is to be extended, 3 where the extension reaches, 0 at the rest. The error is known exactly where the content is known and not zero and the error of the path is known. Findings: pixels added at the top of a cloud (status 3) have the content zero and no error, and in these profiles the content at droplets exceeds the adiabatic one, although the comment of the variable says that the cloud top is extended to avoid this; the classes 5 and 6 of the status never occur.", "quantifier": "every categorize file with increasing heights above ground and a positive adiabatic gradient", "why_tests_cant": "All bits, paths, heights and model fields.", "anchors": ["cloudnetpy/products/lwc.py:generate_lwc", "cloudnetpy/products/lwc.py:LwcSource", "cloudnetpy/products/lwc.py:CloudAdjustor"]}
{"id": "C143", "title": "drizzle file", "statement": "The drizzle file is written if and only if the radar frequency is in the Ka or W band, reflectivity, backscatter, velocity, its deviation, the errors and biases of reflectivity and backscatter and a variable with rain are in the categorize file, and there are two profiles. Diameter, lidar ratio, number, water content and water flux are known and positive, and the fall velocity is known, exactly at pixels with the bits of drizzle (warm falling particles without droplets and insects, seen by radar and lidar, without attenuation) and a known deviation of velocity in profiles without rain; errors, shape parameter and air velocity are known nowhere else. At such pixels the variables fit together: for the entry of the table of the band with this shape and lidar ratio, reflectivity is that of the distribution of this diameter and of the corrected backscatter; the correction is the attenuation by the drizzle of the file below; number and content follow from diameter, shape and lidar ratio. The status is 5 with rain, 3 for drizzle hidden in droplets, 1 or 2 (below melting layers) for drizzle, 4 for warm liquid, 0 elsewhere. Biases follow the formulas. Findings: the correction of backscatter is written for all pixels without rain; pixels with the bits of drizzle but an unknown deviation of velocity have status 1 (even below a melting layer) although nothing is retrieved; without wind the correction of the spectral width is unknown and the first shape parameter of the table is taken whatever the width; the relative bias of the diameter is converted from dB once more for the bias of the number, which is therefore too small.", "quantifier": "every categorize file with increasing heights above ground and positive backscatter, every table with positive entries", "why_tests_cant": "All bits, reflectivities, winds and tables.", "anchors": ["cloudnetpy/products/drizzle.py:generate_drizzle", "cloudnetpy/products/drizzle.py:RetrievalStatus", "cloudnetpy/products/drizzle_tools.py:DrizzleSource", "cloudnetpy/products/drizzle_tools.py:SpectralWidth", "cloudnetpy/products/drizzle_error.py:get_drizzle_error"]}
{"id": "C144", "title": "winds and attributes of the lidar dissipation rate", "statement": "The horizontal wind speed used for the dissipation rate of a Doppler lidar is found if and only if some wind of the file is masked, winds are known at three times and at three heights, and the known pixels are not all on a line of the plane of time and height. Where both components are known it is the measured speed; inside the hull of the known pixels it is a weighted mean of measured speeds at points whose weighted mean is the pixel; outside of the hull it is the speed of a known pixel as near as any; nowhere is it outside of the range of the measured speeds. As times are in microseconds and heights in metres, the nearest pixel is in the same profile whenever this has a known wind. Without accumulation time in the file it is the number of pulses over 15 kHz for ranges spanning less than 9993 m, over 10 kHz up to 14990 m, and the file is refused beyond. The file has date, location and conventions of the file with vertical winds, both identifiers, each source once, and as history the new line, the lines of the vertical and those of the horizontal winds, without blank lines. Findings: a wind file without any masked wind is refused with ValueError; winds on a diagonal raise QhullError instead of ValidTimeStampError; the order of two sources is not defined.", "quantifier": "every wind file, every Delaunay triangulation of every set of known pixels, every choice of nearest points, all ranges and attributes", "why_tests_cant": "Masks, triangulations and ties in distance are arbitrary.", "anchors": ["cloudnetpy/products/epsilon_lidar.py:generate_epsilon_from_lidar", "cloudnetpy/products/epsilon_lidar.py:_horizontal_wind_from_doppler_lidar_file", "cloudnetpy/products/epsilon_lidar.py:_get_options", "cloudnetpy/products/epsilon_lidar.py:_infer_pulse_repetition_frequency"]}
{"id": "C145", "title": "gaps in figures", "statement": "A figure of a file has all profiles of the file in order, and in addition masked profiles 0.001 hours inside of both ends of each gap: of two neighbouring profiles, of the start of the axis and the first profile, or of the last profile and the end of the axis, farther apart than a limit that depends on the type of file. Times of the figure increase if those of the file do. The figure is made if and only if there is a profile and none is outside of the axis. The hatched ranges are exactly the gaps, less 0.001 hours at both ends. Of model files profiles without any value are not shown. Findings: of a model file with masked values the profile after the last one with values is shown too, and if the last profile has values it is there twice; the step of a model is rounded to minutes, so that with profiles every 10.4 minutes each interval is a gap.", "quantifier": "every list of times and profiles, every limit of at least 0.002 hours, every type of file", "why_tests_cant": "Any number of gaps at any place shifts the indices of insertions into time and data.", "anchors": ["cloudnetpy/plotting/plotting.py:Plot._mark_gaps", "cloudnetpy/plotting/plotting.py:Plot._get_data_and_time_with_gaps", "cloudnetpy/plotting/plotting.py:_get_max_gap_in_minutes", "cloudnetpy/plotting/plotting.py:screen_completely_masked_profiles"]}
{"id": "C146", "title": "averages in time series", "statement": "The curve over a time series is the moving average over each longest run of valid samples: over an odd number of samples covering the window to within one step, with the first and the last sample of the run continued beyond its ends, always within the range of the samples. Each valid sample is on the curves once, in order and at its time, and no curve joins samples from different runs or with more than the allowed gap between them. The curve of wind direction is the direction of the mean wind vector, not drawn where it turns by more than 300 degrees; for winds from one direction it is this direction. Findings: the average goes on across gaps at which the curve is broken; without wind the direction is drawn as north; equal times raise OverflowError.", "quantifier": "every series of samples, times, masks and windows", "why_tests_cant": "Runs and gaps are arbitrary, as is the number of samples of a window.", "anchors": ["cloudnetpy/plotting/plotting.py:Plot1D._plot_moving_average", "cloudnetpy/plotting/plotting.py:Plot1D._calculate_moving_average", "cloudnetpy/plotting/plotting.py:Plot1D._calculate_average_wind_direction", "cloudnetpy/plotting/plotting.py:Plot1D._get_unmasked_values"]}
{"id": "C147", "title": "images and axes", "statement": "In images of classes those with a label that begins with an underscore are neither in the image nor in the legend, and every other pixel has the number of its own label and colour. Gates are shown up to the first one above the limit of the axis. Cells of the image meet midway between centres, each holds its own centre, and no profile is drawn farther from its time than half of a gap. All values of a time series are strictly inside of the limits of its axis, with margins of five percent. Shaded are the times from the first to the last profile of each longest run of at least two flagged profiles. The variables shown are those wanted which the file has, in the same order, with the index of the channel in names like tb_3; there is an error if it has none. Findings: if all gates are above the limit all are shown; a single flagged profile is not shaded; one name that begins with tb_ or irt_ without number after it raises ValueError.", "quantifier": "all label lists, images, increasing heights and times, limits, flags and names", "why_tests_cant": "Any subset of classes can be hidden, and indices shift with each one removed; runs, gaps and values are arbitrary.", "anchors": ["cloudnetpy/plotting/plotting.py:Plot2D._plot_segment_data", "cloudnetpy/plotting/plotting.py:Plot2D._screen_data_by_max_y", "cloudnetpy/plotting/plotting.py:_make_edges", "cloudnetpy/plotting/plotting.py:Plot1D._get_y_limits", "cloudnetpy/plotting/plotting.py:find_batches_of_ones", "cloudnetpy/plotting/plotting.py:FigureData._get_valid_variables_and_indices"]}
{"id": "C148", "title": "radar data on the grid", "statement": "On the time grid of the categorize file reflectivity and depolarisation ratios are the decibels of the mean in linear units over the profiles of each time with a value, whatever the units in the file: between the smallest and the largest value, at least their mean in decibels, and missing only if no profile has a value. The velocity is the mean on the circle of the largest folding velocity (the plain mean if all data are dealiased), its variability the standard deviation, missing if at most one velocity is there or all are equal. The times reported as gaps are those without a profile. The data used by the classification are these values at the times without gaps of radar, lidar and model, without speckle and the artefact of the first gate for RPG and BASTA radars, without stripes, and only at pixels where reflectivity, velocity and (if in the file) width are known; no filter changes a value. Finding: a file with prf but no nyquist_velocity always fails (dictionary changed size during iteration).", "quantifier": "all radar files (any variables, units, gaps and masks), evenly spaced time grids, gaps of lidar and model, and source names", "why_tests_cant": "The number of profiles per time, masks and optional variables are arbitrary and the filters depend on each other's results.", "anchors": ["cloudnetpy/categorize/radar.py:Radar.rebin_to_grid", "cloudnetpy/categorize/radar.py:Radar.filter_speckle_noise", "cloudnetpy/categorize/categorize.py:generate_categorize", "cloudnetpy/cloudnetarray.py:CloudnetArray.rebin_data"]}
{"id": "C149", "title": "a Level 3 file of a day", "statement": "For a model with one positive resolution, at least two evenly spaced times and at least two levels below 22 km, and observations sorted in time and height, the Level 3 file of a day is written. For cloud fraction it has the fraction of the model from 0.05; the observed fraction by volume of a cell is the number of cloudy pixels divided by the number of pixels half way around the model time and level, the fraction by area that of profiles with any cloud, zero if there are none; the advection versions are the same in the time the wind takes to pass the box, at most an hour. For ice and liquid water content it has the model values (sum of the mixing ratios times density) from 1e-7 and 1e-5, and means of the good observed values. The cirrus-filtered fraction is in the file exactly if the radar frequency is in the Ka or W band, its sensitivity is known and the model has an ice cloud; outside ice clouds it is the model fraction, and in ice clouds the model fraction times the part of a gamma distribution of ice water content above the smallest value the radar sees. Findings: the shear in the variance is a change with time and not with height; levels get the sensitivity of bins of equal width instead of that at their height; with a variance above one every ice cloud is masked.", "quantifier": "all model files (any winds, clouds, heights, missing values), all observations of the three products, all radars", "why_tests_cant": "Model and observation grids are arbitrary and cells depend on winds, heights and masks at once.", "anchors": ["cloudnetpy/model_evaluation/products/product_resampling.py:process_L3_day_product", "cloudnetpy/model_evaluation/products/advance_methods.py:AdvanceProductMethods", "cloudnetpy/model_evaluation/products/grid_methods.py:ProductGrid", "cloudnetpy/model_evaluation/products/model_products.py:ModelManager", "cloudnetpy/model_evaluation/products/observation_products.py:ObservationManager"]}
{"id": "C150", "title": "A day of HATPRO files becomes one table with a row for each time", "statement": "The HATPRO conversion of a folder uses exactly the LWP and IWV files of a known format that are not all of low quality, have records of the expected day in UTC (if a day is given) and agree with the other file of their name about the zenith angle; the rest is ignored. The result has one row for each time of these files, in order of the time of day: liquid water path in kg m-2, water vapour, masked where the quality is low or no file has a value, and the zenith angle 90 degrees minus elevation. With an expected day, that is the date of the file. The conversion fails exactly if a file is too short to have a header, no file ending in .LWP can be used, or there are no records. Findings: one empty file stops the whole day; files ending in .lwp are read but not accepted; with files ending in .iwv the column of water vapour is shorter than the time; two files whose names differ only in the case of the suffix give variables lwp1 and lwp2 but no lwp.", "quantifier": "all folders with at most one LWP and one IWV file of each name, any records, flags, angles, versions and dates", "why_tests_cant": "Files, times, duplicates and flags combine freely, and the unstable order of sorting is not fixed by tests.", "anchors": ["cloudnetpy/instruments/hatpro.py:hatpro2nc", "cloudnetpy/instruments/hatpro.py:_get_hatpro_objects", "cloudnetpy/instruments/rpg_reader.py:HatproBin", "cloudnetpy/instruments/rpg_reader.py:HatproBinLwp", "cloudnetpy/instruments/rpg_reader.py:HatproBinIwv", "cloudnetpy/instruments/rpg.py:Rpg"]}
{"id": "C151", "title": "A day of a netCDF lidar: every row of every variable is one profile of the file", "statement": "Converting a file of a CL61, DA10 or CHM 15k: row k of time, raw, screened and smooth backscatter and both depolarisations is made of one and the same profile of the file: its time of day in hours, its backscatter times the calibration factor (for old CHM 15k data also range squared and the detector normalisation), the ratio of its two polarisations. With an expected date only profiles of that day are used, one for each time, in ascending order, and the file has this date. The published backscatter is the raw one exactly where that is above zero and the smooth one is valid; depolarisation is between zero and one and valid only where backscatter is. A time of the day is missing only if a profile has data in at least 15 of the 20 bins above 10 km (sunbeam). Range is at mid gate, height is the site altitude plus range times the cosine of the median angle. A file is made exactly if there are two gates and two different times of the day, backscatter is not all masked, the firmware can be read and the altitude is known. Findings: with as many times as gates the range is put in the order of the times; angles that are all masked count as zero, not as the default of three degrees.", "quantifier": "all files of the three instruments with any numbers of times and gates, any order of times, any dates, factors and firmware, and any Gaussian filter", "why_tests_cant": "Screening by date, sorting, duplicates and sunbeam removal each select rows of several arrays; a test fixes one file.", "anchors": ["cloudnetpy/instruments/ceilo.py:ceilo2nc", "cloudnetpy/instruments/nc_lidar.py:NcLidar", "cloudnetpy/instruments/cl61d.py:Cl61d.read_ceilometer_file", "cloudnetpy/instruments/da10.py:Da10.read_ceilometer_file", "cloudnetpy/instruments/lufft.py:LufftCeilo.read_ceilometer_file", "cloudnetpy/instruments/ceilometer.py:Ceilometer.prepare_data", "cloudnetpy/instruments/ceilometer.py:Ceilometer.get_date_and_time", "cloudnetpy/instruments/ceilometer.py:Ceilometer.check_beta_raw_shape", "cloudnetpy/instruments/ceilometer.py:Ceilometer.screen_sunbeam"]}
{"id": "C152", "title": "BASTA and BOW-TIE radar files: which are converted, and every value of the new file", "statement": "Converting a BASTA file with two or more times: there is one profile for each time, in ascending order; row k of time, reflectivity, velocity, pointing angles and zenith angle is of one and the same profile of the file. A pixel has a value exactly if the file has one and the background mask is known to be one, and then it is the value of the file. Range is that of the file times the correction factor; height is altitude plus range times the cosine of the median zenith angle (90 minus elevation). A file is made exactly if the date attributes are a date, the time units have the expected date, there are elevations and an altitude that fits the heights, and some velocity is known where the background mask is one. Converting a BOW-TIE file: profiles in the order of the file, every pixel that of the file, liquid water path in kg m-2, rain in m s-1, humidity as a fraction, the correction bit one exactly where velocity is known, chirp offsets without fractions, height altitude plus range. It is made exactly if the date is the expected one, all auxiliary variables are there, an altitude fits, and some velocity is known. Times above 25 are seconds and become hours of the day. Findings: a BASTA file with one time loses its masks (background becomes zero); with as many times as gates the ranges are put in the order of times; the expected date is compared with the time units, not with the date of the new file; a range in kilometres is taken for metres; a BOW-TIE file with a single profile is never converted.", "quantifier": "all files with any numbers of times and gates, masks, any order of times, any site and expected date, and any sorting", "why_tests_cant": "Masks, sorting and duplicate removal act on all arrays of a file together; a test fixes one file.", "anchors": ["cloudnetpy/instruments/basta.py:basta2nc", "cloudnetpy/instruments/basta.py:Basta", "cloudnetpy/instruments/bowtie.py:bowtie2nc", "cloudnetpy/instruments/bowtie.py:Bowtie", "cloudnetpy/instruments/nc_radar.py:NcRadar.init_data", "cloudnetpy/instruments/nc_radar.py:NcRadar.add_time_and_range", "cloudnetpy/instruments/nc_radar.py:NcRadar.add_radar_specific_variables", "cloudnetpy/instruments/nc_radar.py:NcRadar.test_if_all_masked", "cloudnetpy/instruments/cloudnet_instrument.py:CloudnetInstrument.add_height", "cloudnetpy/datasource.py:DataSource.get_date"]}
{"id": "C153", "title": "a day of Copernicus or Galileo", "statement": "copernicus2nc and galileo2nc write the profiles of the file one for each time of day, in order, that point steadily to zenith, and only those. Copernicus has the gates at a range that is not negative after the range offset of the file is replaced by that of the site; pixels with reflectivity, velocity of at most 9 m/s, width of at most 3 m/s, raw range of at least 150 m and an SNR 2 dB above the mean of the top 50 gates have the data of the file, with the calibration of the file replaced by that of the site; Galileo has the gates at a positive range and the pixels with enough SNR that are not clutter. Everything else is masked in all variables. Heights are above sea level. A file is made exactly if the date of the units is the expected one, folding velocity and altitude are known, at least two profiles are steady and one of them has an echo that counts. The date of the profiles themselves is not checked.", "quantifier": "all files with known elevations and SNR, all sites and expected dates", "why_tests_cant": "the order of sorting, screening, masks and calibration matters and depends on every profile of the file; tests use a few days", "anchors": ["cloudnetpy/instruments/copernicus.py:copernicus2nc", "cloudnetpy/instruments/galileo.py:galileo2nc", "cloudnetpy/instruments/nc_radar.py:ChilboltonRadar"]}
{"id": "C154", "title": "a day of an RPG cloud radar", "statement": "rpg2nc, on the combined data of the files, writes the profiles one for each time of day, in order, whose zenith angle is known and within a tenth of a degree (plus 1e-5 of it) of the median of the zenith angles between -5 and 15 degrees, and only those. A pixel has data if its width is at least 0.005 m/s, LDR and SLDR only above -35 and -40 dB; rain is in m/s, LWP in kg/m2, humidity a fraction, pressure in Pa and wind in m/s. Heights are range times the cosine of the median zenith angle plus altitude. The instrument follows from the frequency and the date is that of the first time of the files. A file is made exactly if there is a profile, frequency and altitude are known, and some profile points to that median. Without an expected date, files of two days are merged into one day.", "quantifier": "all combined RPG data, all argsorts", "why_tests_cant": "sorting, duplicate removal and selection by a median depend on all the profiles of a day; tests use a few files", "anchors": ["cloudnetpy/instruments/rpg.py:rpg2nc", "cloudnetpy/instruments/rpg.py:Fmcw", "cloudnetpy/instruments/rpg.py:Rpg", "cloudnetpy/instruments/cloudnet_instrument.py:CloudnetInstrument"]}
{"id": "C155", "title": "dates and times written as text", "statement": "FD12P dates are read exactly from dd.mm.yyyy and times from hh:mm or hh:mm:ss, so that each date has one text. Parsivel dates are read exactly from year/month/day or day.month.year with four characters for the year, times from hour:minute:second, and time stamps from four characters for the year and two for each of the others. Radiometrics dates are read exactly from month/day/year, where 2000 is added to a year below 100. Numbers are what Python's int accepts. A date written with all its digits is read back, and everything that is not a date of the calendar or a time of day is a ValueError. Texts such as a negative year or a truncated time stamp give a wrong date instead of an error.", "quantifier": "all strings and all dates and times", "why_tests_cant": "the functions are total on an infinite set of strings; tests use a few well-formed ones", "anchors": ["cloudnetpy/instruments/fd12p.py:_parse_date", "cloudnetpy/instruments/fd12p.py:_parse_time", "cloudnetpy/instruments/disdrometer/parsivel.py:_parse_date", "cloudnetpy/instruments/disdrometer/parsivel.py:_parse_time", "cloudnetpy/instruments/disdrometer/parsivel.py:_parse_datetime", "cloudnetpy/instruments/radiometrics.py:_parse_date", "cloudnetpy/instruments/radiometrics.py:_parse_time"]}
{"id": "C156", "title": "figures of Level 3 files", "statement": "The figures of a Level 3 file have the standard variables and those of the time grid of advection, each with the model first; if the two groups differ in number only the larger one is drawn. Values that are not positive or below the limits of water contents are not shown; images show values from the lower end of the scale; heights are the mean heights or those of the first profile with a height. The panel of errors of a variable shows the error at exactly the pixels where the model and this variable and all variables before it have values and the model is not below the lowest value of any of them, and panels end at the first without values; common areas likewise use the model above the lowest values of all variables so far. Histograms count model values above the range of the observations at its end. Profiles are running means of means over time.", "quantifier": "all variable names, all grids of masked values, any number of variables", "why_tests_cant": "the model data are changed in place from panel to panel, so the result depends on the whole list of variables; figures are not compared in tests", "anchors": ["cloudnetpy/model_evaluation/plotting/plotting.py:generate_L3_day_plots", "cloudnetpy/model_evaluation/plotting/plotting.py:get_statistic_plots", "cloudnetpy/model_evaluation/plotting/plot_tools.py:parse_wanted_names", "cloudnetpy/model_evaluation/plotting/plot_tools.py:mask_small_values", "cloudnetpy/model_evaluation/plotting/plot_tools.py:calculate_segment_data", "cloudnetpy/model_evaluation/plotting/plot_tools.py:rolling_mean", "cloudnetpy/model_evaluation/statistics/statistical_methods.py:histogram"]}
{"id": "C157", "title": "axes, units and scales of figures", "statement": "The vertical axis of a figure is the height above the median altitude of the instrument or above sea level as asked for, for models the mean height of each level plus the altitude of the ground, else the range or the diameter. Quantities are shown in the units of their labels: rates in mm/h, amounts in mm, fractions in percent, temperatures in degrees Celsius, pressure in hPa. Powers in other units become superscripts and nothing else changes. Image values below the lower end of a logarithmic scale are shown at that end. Figures of a channel show the profiles that point up and mark flagged ones. Tick labels are the multiples of the resolution up to 24 h. The colour scale of rainfall rates of rain radars is not converted with the data, so every rate has the same colour.", "quantifier": "all files, heights, altitudes, values, unit strings, channels and resolutions", "why_tests_cant": "unit strings and values are unbounded; figures are not compared in tests", "anchors": ["cloudnetpy/plotting/plotting.py:FigureData._get_height", "cloudnetpy/plotting/plotting.py:FigureData._calc_ground_altitude", "cloudnetpy/plotting/plotting.py:Plot._convert_units", "cloudnetpy/plotting/plotting.py:_reformat_units", "cloudnetpy/plotting/plotting.py:Plot2D._plot_mesh_data", "cloudnetpy/plotting/plotting.py:Plot1D.plot_tb", "cloudnetpy/plotting/plotting.py:get_time_tick_labels", "cloudnetpy/plotting/plot_meta.py:ATTRIBUTES"]}
{"id": "C158", "title": "interrupted updates of a file", "statement": "If adding records to an existing file is interrupted at any variable, all records the file had before stay as they were and its variables are the same; variables that were reached have the new records, the others have missing values in their place; if none was reached the file is unchanged. The result is 1 exactly if everything was written; an I/O error on the way gives 0 although the file may have been changed. An update interrupted before the first variable can be repeated. Once the times are written it cannot: repeating the update gives 0 and the variables that were not reached keep missing values.", "quantifier": "all files, new files, points of interruption and kinds of failure", "why_tests_cant": "points of interruption and histories of retries; tests update whole files only", "anchors": ["cloudnetpy/concat_lib.py:update_nc", "cloudnetpy/concat_lib.py:_update_fields"]}
{"id": "C159", "title": "interrupted writing of files", "statement": "If writing a Level 1b, product, categorize or Level 3 file stops at any point, the file at the final name has the first variables of the complete file, each complete, perhaps followed by one variable without content, and none of an older file. The file is complete exactly if it has the global attribute that is written last: references for Level 1b and product files, history for categorize and Level 3 files. A Level 3 run that was stopped makes the next one fail unless overwriting is allowed; with it the result is the same as without the interruption. Radiometer Level 1c files are written in two passes, and between them a complete Level 1b file is at the final name.", "quantifier": "all objects, files and points of interruption", "why_tests_cant": "every point of interruption is a different file; tests do not interrupt the writing", "anchors": ["cloudnetpy/output.py:init_file", "cloudnetpy/output.py:save_level1b", "cloudnetpy/output.py:save_product_file", "cloudnetpy/output.py:copy_variables", "cloudnetpy/categorize/categorize.py:_save_cat", "cloudnetpy/model_evaluation/file_handler.py:save_downsampled_file", "cloudnetpy/model_evaluation/products/product_resampling.py:process_L3_day_product", "cloudnetpy/instruments/hatpro.py:hatpro2l1c"]}
{"id": "C160", "title": "files do not depend on earlier calls in the process", "statement": "The attributes of the variables of an instrument, product or categorize file are those that the first call of a process would give, whatever files of the same kind were made before in the process, for whatever dates and instruments and whether or not the calls failed; the units of time name the date of the call. Level 3 files take the attributes of a variable from the tables in a fixed order and the units of time from their own date. With several threads this fails: the units of time of a file are those of the date that any thread set last before the attributes were read.", "quantifier": "all histories of calls, all tables of attributes, all schedules of threads", "why_tests_cant": "histories of a process and schedules of threads; tests make one file in a process state they do not control", "anchors": ["cloudnetpy/output.py:add_time_attribute", "cloudnetpy/output.py:add_source_attribute", "cloudnetpy/output.py:update_attributes", "cloudnetpy/products/iwc.py:_add_iwc_comment", "cloudnetpy/products/iwc.py:_add_iwc_error_comment", "cloudnetpy/products/ier.py:_add_ier_comment", "cloudnetpy/products/der.py:_add_der_error_comments", "cloudnetpy/categorize/categorize.py:generate_categorize", "cloudnetpy/model_evaluation/file_handler.py:update_attributes", "cloudnetpy/model_evaluation/file_handler.py:add_time_attribute"]}
{"id": "C161", "title": "raw files, checksums and plots of the command line over several runs", "statement": "Whatever is in the folder of raw files, from whatever earlier runs and whether or not they were interrupted, the files given to a reader as a list or joined to one file are exactly those of the portal, decompressed and in the same order; nothing else in the folder changes; an incomplete compressed file stops the run. Readers that are given the folder (RPG radars and radiometers) read the files of all runs, also those the portal has withdrawn or renamed. Several files are joined as netCDF files, or as text if that gives an I/O error. The checksum of a file is that of all its bytes. Figures are made only on request and of products that were made, with the variables of the command line or else of the portal, and the image is next to the file.", "quantifier": "all folders, histories of runs, files, names and arguments", "why_tests_cant": "histories of runs and states of folders; tests start with an empty folder", "anchors": ["cloudnetpy/cli.py:_fetch_raw", "cloudnetpy/cli.py:_unzip_gz_file", "cloudnetpy/cli.py:_process_instrument_product", "cloudnetpy/cli.py:_concatenate_", "cloudnetpy/cli.py:md5sum", "cloudnetpy/cli.py:_calc_hash_sum", "cloudnetpy/cli.py:_plot"]}
{"id": "C162", "title": "values in files: types, rounding, fill values and order", "statement": "Integers of a product are read from its file as they were computed exactly if they fit into 32 bits and, in a masked array, are not the number that marks missing values; of the integer types only unsigned 32-bit and 64-bit ones have values that do not fit. Every real number up to 5.3e36 is read as a known number: the one of the type of the variable that is nearest, within the relative precision of the type; numbers that the type has are unchanged, so values do not drift over generations of files. Missing values stay missing. Numbers keep their order, and two times of a day that differ by 14 ms or more stay different in 32 bits.", "quantifier": "all integers of all types, all numbers and pairs of numbers, masked or not, stored with 32 or 64 bits, over any number of files", "why_tests_cant": "all numbers at the edge of rounding and of the range of types; tests compare a few values with a tolerance", "anchors": ["cloudnetpy/cloudnetarray.py:_init_data_type", "cloudnetpy/output.py:_write_vars2nc", "cloudnetpy/cloudnetarray.py:CloudnetArray"]}
{"id": "C163", "title": "files that calls leave open", "statement": "A product, and the turbulence product of a radar, that ends successfully has closed all its files. If it fails, a file stays open exactly if it could be opened but its constructor (or, for the output, the writing of variables) raised. Categorize closes the radar, lidar and model files however it ends once these three have been read; before that nothing is closed. After a successful run only a disdrometer file without the needed variables can be open. Downsampling leaves the observations open if the model file cannot be used. Concatenating any number of files leaves nothing open after success or a failure while data are copied, and the first file if the output cannot be started; it succeeds exactly if all files can be checked, the first one and the output can be used and nothing but an HDF error of the netCDF library happens with later files, which are then left out.", "quantifier": "every combination of steps that fail or succeed, optional files given or not, lists of files of any length", "why_tests_cant": "all ways in which each of the steps can fail; tests look at the returned values and files of successful runs, not at open files", "anchors": ["cloudnetpy/datasource.py:DataSource", "cloudnetpy/categorize/categorize.py:generate_categorize", "cloudnetpy/products/product_tools.py:CategorizeBits", "cloudnetpy/model_evaluation/products/product_resampling.py:process_L3_day_product", "cloudnetpy/concat_lib.py:concatenate_files", "cloudnetpy/output.py:init_file"]}
{"id": "C164", "title": "figures as a whole: panels, marks, axes and effects", "statement": "A figure has one panel for each name that was asked for and is in the file, in that order, each drawn by the kind of its variable with its own title, colours and sources. It can be made exactly if every panel can be drawn by itself; the image is saved exactly if all panels were drawn, and the figure is closed however the call ends. A panel is the same as in a figure of its own apart from the marks of rain and of suspicious cloud tops, which are drawn on all panels of the kind if the first one is signal_source_status or cloud_top_height_agl (and on none otherwise). The footer has all words in order on lines of at most 50 characters, and the same lines in further calls with the same options.", "quantifier": "all files, lists of names (with repetitions), options, and failures of any panel; footers of any length with words of at most 50 characters", "why_tests_cant": "all combinations and orders of variables in one figure; tests draw single variables", "anchors": ["cloudnetpy/plotting/plotting.py:generate_figure", "cloudnetpy/plotting/plotting.py:FigureData", "cloudnetpy/plotting/plotting.py:SubPlot", "cloudnetpy/plotting/plotting.py:Plot2D", "cloudnetpy/plotting/plotting.py:Plot1D"]}
{"id": "C165", "title": "products agree with the measurements and with each other, from the grid to the product files", "statement": "For gridded measurements that give a categorize file, the files made from it say about every pixel: where the lidar has a signal the class is not clear; an echo is called clear only if its velocity is below 5 cm/s in the ten lowest gates or if it lies in the freezing region without a lidar signal; classes with droplets are not colder than -38 C; classes with aerosol are seen by the lidar; ice is in the freezing region and drizzle is not; melting is in the melting layer or at the bottom of the freezing region; the signal source is that of the measurements. The echo in the file is the measured one plus the attenuations, which are those of the droplets, the freezing and melting regions and the rain of the same file at heights above ground (for gas, twice the specific attenuation summed over the gates up to the pixel, that of saturated air at droplets); the bits for attenuation and correction agree with them. Ice water content is given only for measured echoes in the freezing region classified as ice (or as aerosol in low clutter that was given up), is the law of the corrected echo, and is given for every echo classified as ice unless an attenuation was not corrected, which happens exactly for droplets at or below without a measured liquid water path, for rain without a disdrometer, and for rain of unknown rate in the freezing region. Droplet radius and liquid water content above zero are given only for droplets, drizzle only where radar and lidar see a warm pixel without rain; no pixel has both ice water content and drizzle.", "quantifier": "all gridded measurements, instruments present or absent, profiles, gates, and product files made from the resulting categorize file", "why_tests_cant": "the claim spans classification, attenuation, coding of bits and four products; tests check each step on small arrays of its own", "anchors": ["cloudnetpy/categorize/categorize.py:generate_categorize", "cloudnetpy/categorize/classify.py:classify_measurements", "cloudnetpy/categorize/classify.py:fetch_quality", "cloudnetpy/categorize/attenuation.py:get_attenuations", "cloudnetpy/categorize/radar.py:Radar.correct_atten", "cloudnetpy/products/classification.py:generate_classification", "cloudnetpy/products/iwc.py:generate_iwc", "cloudnetpy/products/lwc.py:generate_lwc", "cloudnetpy/products/der.py:generate_der", "cloudnetpy/products/drizzle.py:generate_drizzle"]}
{"id": "C166", "title": "The command line interface passes the calibration of the data portal on to the functions that read instruments", "statement": "For each instrument product that the command line interface makes, the settings given to the reading function are the name and coordinates of the site and, from the calibration that the portal knows for the instrument: the range factor for MIRA radars, the SNR limit for PollyXT (25 if there is none), the calibration factor for other lidars, and everything plus the downloaded coefficient files and their links for Level 1c of microwave radiometers; for all other instruments nothing. An error answer of the portal counts as no calibration, other exceptions end the run. The backscatter of a CHM 15k in the product is the number of the raw file times the factor of the portal, or 3e-12 without one. Coefficient links are downloaded in order, each to a file with the name of the link, and the Level 2 product, which reads the links from the Level 1c file, uses files with the same content. Findings: the factor of a CL61 is never used; the model of a MIRA radar is never passed on, so that every one is processed with the SNR limit and power limit of a MIRA-35; of links with equal names only the last is kept; only the first entry of coefficients is used; entries of the calibration replace coordinates of the site of the same name for Level 1c.", "quantifier": "every answer of the portal, every product and instrument name, every list of links and their contents, every raw file", "why_tests_cant": "needs a portal with all kinds of answers and instruments; the effect shows only in the scale of the data or in the limits that were applied", "anchors": ["cloudnetpy/cli.py:_process_instrument_product,_get_calibration,_fetch_coefficient_files", "cloudnetpy/instruments/mira.py:Mira.__init__,mira2nc", "cloudnetpy/instruments/ceilo.py:ceilo2nc", "cloudnetpy/products/mwr_tools.py:_read_mwrpy_coeffs"]}
{"id": "C167", "title": "Products of a selection of profiles are the same selection of the products", "statement": "If a categorize file consists of some profiles of another one (a part of the day, or any list of them in any order, with repetitions; at least two where the code needs two), then the ice water content and effective radius of ice with their errors and status, the droplet effective radius with all of its fields, the liquid water content with its status, all fields and the status of the drizzle product, and the target classification, detection status, signal source and attenuation classes have in each profile exactly the values of that profile in the product of the other file: no profile influences another one. The error of liquid water content also depends on the two neighbouring profiles, so for a part of the day it agrees except at the first and last profile. Finding: cloud base and top heights of the classification do depend on other profiles, because a cloud needs more than 20 gates in all profiles together.", "quantifier": "every categorize file and every list of its profiles, all numbers of profiles and gates, all values and bits", "why_tests_cant": "needs pairs of files for all selections; a leak between profiles (a shared index, an iteration that stops for all profiles, a mask of the wrong axis) shows only for special neighbours", "anchors": ["cloudnetpy/products/iwc.py:generate_iwc", "cloudnetpy/products/ier.py:generate_ier", "cloudnetpy/products/der.py:generate_der,DropletClassification", "cloudnetpy/products/lwc.py:generate_lwc,Lwc,CloudAdjustor,LwcError", "cloudnetpy/products/drizzle.py:generate_drizzle", "cloudnetpy/products/drizzle_tools.py:DrizzleSolver,DrizzleClassification", "cloudnetpy/products/classification.py:generate_classification"]}
{"id": "C168", "title": "What a wrong calibration does to the products", "statement": "A radar that is c dB too high everywhere gives the same ice pixels with the same status, errors, bias and sensitivity, and every ice water content and effective radius of ice multiplied by 10 to the power c(aT+b), with the coefficients of the law for the band; the same droplet pixels and status, the droplet effective radius and its error multiplied by 10^(c/60), the radius that uses the liquid water path and its error by 10^(c/30) and the number of droplets by 10^(-c/10) (where the path is not positive: the same radius and 10^(c/10)). A liquid water path (with its error) that is too high by a factor gives a liquid water content that is too high by this factor, at the same gates and with the same relative error, whenever both files are written.", "quantifier": "every categorize file, every offset in dB and every positive factor, all pixels", "why_tests_cant": "a relation between two runs for all inputs and all offsets; a wrong exponent, a mask that depends on the value or a threshold in between would break it for some values only", "anchors": ["cloudnetpy/products/iwc.py:generate_iwc", "cloudnetpy/products/ier.py:generate_ier", "cloudnetpy/products/product_tools.py:IceSource,_convert_z", "cloudnetpy/products/der.py:generate_der,DerSource.append_der", "cloudnetpy/products/lwc.py:generate_lwc,Lwc,LwcError"]}
{"id": "C169", "title": "Products do not depend on where heights and times are counted from", "statement": "If a constant is added to all heights of a categorize file (gates, model levels, altitude of the site) and a constant to all times (profiles, model steps), the products of ice water content, ice effective radius, liquid water content and drizzle are exactly the same, and the target classification differs only in the cloud heights above mean sea level, which are higher by the constant; heights above ground and all status variables are the same. For the classification no gate may be at height 0, which marks profiles without clouds.", "quantifier": "every categorize file, every pair of constants, all numbers of profiles, gates and model steps", "why_tests_cant": "a mixture of heights above sea level and above ground, or of times of the model and of the profiles, is invisible at sites near sea level and needs pairs of files for all offsets", "anchors": ["cloudnetpy/products/product_tools.py:interpolate_model,_get_temperature", "cloudnetpy/products/iwc.py:generate_iwc", "cloudnetpy/products/ier.py:generate_ier", "cloudnetpy/products/lwc.py:generate_lwc", "cloudnetpy/products/drizzle_tools.py:SpectralWidth,DrizzleSolver", "cloudnetpy/products/classification.py:generate_classification,_get_cloud_base_and_top_heights", "cloudnetpy/utils.py:interpolate_2d,path_lengths_from_ground"]}
{"id": "C170", "title": "The meaning of status values and bits is in the file", "statement": "The definition attribute of a status or bit variable can be read back: lines that do not start with a space begin a definition, and the definitions found in this way are those of the table of the variable, in the same order, each with its value or bit number and with all of its text apart from white space; for each value there is exactly one. No line is longer than 70 characters and continuation lines are indented to the text. Every value that the products write to their status variables, and every bit set in a categorize file, has a definition. Of the defined values, 5 of the ice products and 5 and 6 of the liquid water content are never written; profiles with rain get 4 (no liquid water path) and not 6 (rain present).", "quantifier": "all tables of definitions (any texts, with any white space, words longer than a line, hyphens), all ways of splitting a text into chunks; all input files of the products", "why_tests_cant": "The attribute is wrapped by a loop over chunks of text, so that a lost word or a definition joined to the previous one depends on lengths and white space of the texts; which values a product can write ranges over all inputs.", "anchors": ["cloudnetpy/utils.py:_format_definition", "cloudnetpy/utils.py:status_field_definition", "cloudnetpy/utils.py:bit_field_definition", "cloudnetpy/products/classification.py:DEFINITIONS", "cloudnetpy/products/iwc.py:DEFINITIONS", "cloudnetpy/products/lwc.py:DEFINITIONS", "cloudnetpy/products/der.py:DEFINITIONS", "cloudnetpy/categorize/categorize.py:DEFINITIONS", "cloudnetpy/instruments/rpg.py:DEFINITIONS"]}
{"id": "C171", "title": "Identifiers given by the user are kept", "statement": "An identifier (file_uuid) is accepted in every usual form: with or without hyphens, in upper or lower case, in braces or with the prefix urn:uuid:; all forms with the same 32 hexadecimal digits give the same identifier. The text that is written to the file is canonical (36 characters, lower-case digits, hyphens after 8, 12, 16 and 20 digits), gives the same identifier when it is used again, and is different for different identifiers. A text of hexadecimal digits and hyphens without exactly 32 digits is refused; an identifier object is used as it is and a random one is made only if none is given.", "quantifier": "all identifiers of 128 bits and all texts of hexadecimal digits and hyphens", "why_tests_cant": "There are 2 to the power of 128 identifiers and many ways to write each of them.", "anchors": ["cloudnetpy/utils.py:get_uuid"]}
{"id": "C172", "title": "Helpers for dates, tables and files", "statement": "A range of dates has exactly the start and the following days with a whole day left before the end, in order; the end is not in it. Deleting keys keeps the other entries in order and ignores unknown keys, but a key of the table listed twice is an error. Appending arrays, any number of times, gives each field its old values followed by the arrays given under its name. The files that have all needed variables are found in the given order and the first unreadable file raises its error. A text is a time stamp exactly if it begins with a hyphen, a date and a time with the right number of digits. A text is read as an integer if it is one, otherwise as a decimal number, and refused if it is neither.", "quantifier": "all dates, tables, keys, sequences of arrays, files and texts", "why_tests_cant": "The results depend on lengths and orders of lists and on all texts.", "anchors": ["cloudnetpy/utils.py:date_range", "cloudnetpy/utils.py:del_dict_keys", "cloudnetpy/utils.py:append_data", "cloudnetpy/utils.py:get_files_with_variables", "cloudnetpy/utils.py:is_timestamp", "cloudnetpy/utils.py:str_to_numeric"]}
{"id": "C173", "title": "The Nyquist velocity reaches the pixels it belongs to", "statement": "For several MIRA files every profile of the Level 1b file has, at all gates, the Nyquist velocity of the raw profile it comes from, whatever was removed or reordered by date, time, transmit power or pointing; for one file it is the number of this file at all pixels. For a missing Nyquist velocity of a raw profile the number below the mask is written as if it were measured. In the categorize processing a Nyquist velocity with the dimensions of time and range is used at its own pixels, a single number at all pixels, one number for each chirp at the gates of the chirp, and without it a single pulse repetition frequency gives c PRF / (4 f); otherwise there is an error.", "quantifier": "all numbers of profiles and gates, all sequences of selections of profiles, all forms of the variable, all chirps", "why_tests_cant": "The result depends on which profiles are removed and in which order, on lengths that coincide (one profile, one gate) and on the form of the variable in the file.", "anchors": ["cloudnetpy/instruments/mira.py:Mira.broadcast_nyquist_velocity", "cloudnetpy/instruments/cloudnet_instrument.py:CloudnetInstrument.screen_time_indices", "cloudnetpy/categorize/radar.py:Radar._get_expanded_folding_velocity", "cloudnetpy/categorize/radar.py:_prf_to_folding_velocity", "cloudnetpy/output.py:_write_vars2nc"]}
{"id": "C174", "title": "the order of raw files", "statement": "The order in which raw files are given does not matter as long as their profiles can be told apart: concatenating files with distinct names gives the same file and the same list of names for every order in which they are listed; MIRA reads a list of files in the same order however it is given; merging the files of a weather radar of a given date with distinct times (and with one set of ranges for each reach) gives the same result or the same error; the lines of an FD12P file with distinct times may come in any order. Without these conditions order matters: of two files of the same time the first one is used, and the amounts of a rain[e]H3 file are accumulated in the order of its lines although the lines are sorted afterwards.", "quantifier": "every list of files and every rearrangement of it, every way of ordering equal times", "why_tests_cant": "Number of orders grows factorially; depends on ties, dates and ranges of the files.", "anchors": ["cloudnetpy/concat_lib.py:concatenate_files", "cloudnetpy/instruments/mira.py:_parse_input_files", "cloudnetpy/instruments/weather_radar.py:wr2nc", "cloudnetpy/instruments/fd12p.py:fd12p2nc", "cloudnetpy/instruments/rain_e_h3.py:rain_e_h32nc"]}
{"id": "C175", "title": "How far a value of the categorize file reaches", "statement": "Ice water content, effective radius of ice, their errors and status, the target class, the detection status and the signal source of a pixel are determined by the values of that pixel, constants of the file, the model and the rain flag of the profile. All variables of the drizzle file at a pixel, the radar attenuation status and the attenuations by gases, rain and melting layers are determined by the profile from the ground up to the pixel: what is above does not matter, nor do other profiles. Exception: a liquid cloud above a pixel changes the attenuation by liquid (and its products) at the pixel, because the liquid water path is shared among all clouds of the profile.", "quantifier": "every pair of categorize files that agree at the pixel (below the pixel), every pixel", "why_tests_cant": "Two runs must be compared for all changes elsewhere.", "anchors": ["cloudnetpy/products/iwc.py:generate_iwc", "cloudnetpy/products/ier.py:generate_ier", "cloudnetpy/products/drizzle.py:generate_drizzle", "cloudnetpy/products/drizzle_tools.py:DrizzleSolver", "cloudnetpy/products/classification.py:generate_classification", "cloudnetpy/categorize/attenuations/gas_attenuation.py:calc_gas_attenuation", "cloudnetpy/categorize/attenuations/rain_attenuation.py:calc_rain_attenuation", "cloudnetpy/categorize/attenuations/melting_attenuation.py:calc_melting_attenuation", "cloudnetpy/categorize/attenuations/liquid_attenuation.py:LiquidAttenuation"]}
{"id": "C176", "title": "Range of the values in product files", "statement": "In product files, ice water content and its sensitivity are positive and the error of ice water content is at least 1.7 dB; effective radius of ice is positive with an error between 56 and 57 % of the value; effective radii of droplets, their errors and the droplet number are positive for all parameters; liquid water content is not negative, also if the measured path is, and its relative error is between 0 and the square root of 125 if errors of the path are not negative. Exception: errors of the path are limited from above only, so a negative one gives a relative error of any size.", "quantifier": "every input file, every pixel", "why_tests_cant": "The range must hold for all measurements, including wrong ones.", "anchors": ["cloudnetpy/products/iwc.py:generate_iwc", "cloudnetpy/products/ier.py:generate_ier", "cloudnetpy/products/der.py:generate_der", "cloudnetpy/products/lwc.py:generate_lwc", "cloudnetpy/products/lwc.py:LwcError"]}
{"id": "C177", "title": "Functions that change the arrays of the caller", "statement": "Computing statistics of a day changes the arrays that were given: whatever statistics are computed, in whatever order and number, no value changes and elements are masked only. An error computed later is the error that would have been computed first, or it is missing. Histograms and vertical profiles change nothing; common areas without errors in between are the same each time. Repeated errors stop masking after one more computation than there are elements. Exceptions: the second computation of the same error can have fewer values than the first, and the common area is another one after an error. setbit changes the given array: after any calls an array has its old bits and all bits set for it, other arrays are unchanged, and results of earlier calls have the bits of later ones.", "quantifier": "every pair of arrays, every sequence of calls", "why_tests_cant": "Effects on the caller's arrays accumulate over arbitrary histories of calls.", "anchors": ["cloudnetpy/model_evaluation/statistics/statistical_methods.py:DayStatistics", "cloudnetpy/model_evaluation/statistics/statistical_methods.py:combine_masked_indices", "cloudnetpy/model_evaluation/statistics/statistical_methods.py:calc_common_area_sum", "cloudnetpy/utils.py:setbit"]}
{"id": "C178", "title": "Variables and the arrays they share with the caller", "statement": "A variable made of a netCDF variable, a number or numeric text has data of its own; one made of an array uses the array of the caller; anything else is an error. In any history of variables being made, converted, masked, filtered and rebinned, if no array is given to two variables, each variable holds what follows from its own history alone. Arrays of the caller are never changed other than by masking, and arrays not given to a variable do not change at all. Exception: masking a variable also masks the array it was made of and other variables made of it, until it is converted or rebinned.", "quantifier": "every memory, every history of events on any number of variables", "why_tests_cant": "Interference between variables depends on all interleavings of calls.", "anchors": ["cloudnetpy/cloudnetarray.py:CloudnetArray", "cloudnetpy/datasource.py:append_data"]}
{"id": "C179", "title": "The time grid with the arithmetic of the machine", "statement": "For every whole number of seconds from 1 to 86400, the time grid computed in double precision has exactly as many points as steps are needed to cover the day. Every point is the mid point of its step up to 1e-13 hours, points increase strictly, and if the step divides the day all of them are between 0 and 24. The same holds with 3e-6 hours for the grid read back from a file with 32-bit times. Steps below a second are refused.", "quantifier": "every whole number of seconds from 1 to 86400, every point of the grid", "why_tests_cant": "Rounding can add or drop the last point for single steps; a test tries a few steps.", "anchors": ["cloudnetpy/utils.py:time_grid"]}
{"id": "C180", "title": "Times of day with the arithmetic of the machine", "statement": "Seconds since an epoch, in double precision and not negative, become hours that are the exact time of day up to 3e-15 hours, at least 0 and less than 24, except that a last time at midnight becomes 24. Later times of the day are never before earlier ones. Whole seconds can be recovered exactly, and different seconds of the day give different hours. A time just before the epoch can become 24 anywhere. Clock times become hours that are exact up to 1e-13, less than 24 and in the order of the whole seconds of the clock.", "quantifier": "every number of time stamps, every double precision number that is not negative", "why_tests_cant": "Rounding to 24 or to an earlier time would happen for single numbers out of 2^63.", "anchors": ["cloudnetpy/utils.py:seconds2hours"]}
{"id": "C181", "title": "Which profiles belong to a point of the time grid, with the arithmetic of the machine", "statement": "For every time grid of whole seconds below a day computed in double precision, the edges of the bins are the boundaries of the steps up to 1e-12 hours. A profile whose time is 1e-12 hours or more away from the boundaries is rebinned to the grid point of the step that contains it; one before midnight or after the last step to none. On the standard grid of 30 seconds profiles at exactly 0 and 24 hours belong to the first and the last point; on a grid of 10 seconds a profile at exactly 0 hours is lost. From time stamps (seconds since an epoch, double precision) on, a profile 1e-8 seconds or more away from the boundaries of a step is rebinned to its point, and 10 milliseconds or more away also if its hours went through a file in 32 bits.", "quantifier": "every whole number of seconds from 1 to 86399, every time", "why_tests_cant": "Rounding of edges differs for every step and edge; exact arithmetic, which tests of round numbers suggest, puts a profile at 24 hours in no bin.", "anchors": ["cloudnetpy/utils.py:binvec", "cloudnetpy/utils.py:rebin_2d", "cloudnetpy/utils.py:time_grid"]}
{"id": "C182", "title": "Number of points in a time window, with the arithmetic of the machine", "statement": "On every time grid of whole seconds below a day computed in double precision, a window of a whole number of minutes up to a day that is k steps long is counted as exactly k elements; so the four hours of the freezing level are 480 profiles of the standard grid.", "quantifier": "every step in whole seconds, every window in whole minutes that is a multiple of the step", "why_tests_cant": "The number is a rounded quotient of rounded numbers; tests use a few windows.", "anchors": ["cloudnetpy/utils.py:n_elements", "cloudnetpy/utils.py:mdiff", "cloudnetpy/categorize/freezing.py:find_freezing_region"]}
{"id": "C183", "title": "The date of a time stamp, with the arithmetic of the machine", "statement": "For every epoch and every number of seconds, the computed time is exact up to half a microsecond, and exact for whole seconds. The date is that of the exact time, except that time stamps in the last half microsecond of a day belong to the next day (up to 0.4 microseconds before midnight always, from 0.6 on never). Such a time stamp still has a time of day just before 24 hours, so date and time of day disagree.", "quantifier": "every epoch in whole seconds, every number", "why_tests_cant": "The exception concerns one or two double precision numbers per day.", "anchors": ["cloudnetpy/utils.py:seconds2date", "cloudnetpy/utils.py:seconds2hours", "cloudnetpy/utils.py:find_valid_time_indices"]}
{"id": "C184", "title": "Plots of the command line interface", "statement": "Without an output file, or if neither saving nor showing is asked for, nothing is drawn. A plotting error never ends the run; for model evaluation products neither do value and key errors; any other error does, as does a product without variables in the portal. Model evaluation plots are drawn for the product without l3-, the variables asked for, and saved in the folder of the file. A failed plot of another product that should have been saved is reported as failed and then also as plotted.", "quantifier": "every file name, product, set of arguments and behaviour of the drawing functions", "why_tests_cant": "Which errors of a plot end a run of many products depends on all errors drawing can raise.", "anchors": ["cloudnetpy/cli.py:_plot", "cloudnetpy/cli.py:_plot_l3"]}
{"id": "C185", "title": "Rebinned means in single precision", "statement": "The mean of the profiles of a time bin, computed in single precision, differs from the exact mean of the n values that are not masked by at most (2n+4)/2^24 of the mean of their absolute values (up to eight million values). It keeps the order: larger values never have a smaller mean, the mean of values that are not negative is not negative, and the mean of values between two bounds is between them up to (2n+4)/2^24 of the bounds. One value alone is not changed. Equal values can be: the mean of seven values 0.1 is larger than each of them, the mean of three values 0.9 is smaller.", "quantifier": "every list of values of a bin of any length up to 2^23", "why_tests_cant": "Rounding errors of sums depend on all values and on their number; tests compare a few means with a tolerance.", "anchors": ["cloudnetpy/utils.py:rebin_2d", "cloudnetpy/cloudnetarray.py:CloudnetArray.rebin_data"]}
{"id": "C186", "title": "Heights of gates in single precision", "statement": "Up to 32 km the height of a gate in a file differs by less than 7 mm from range times cosine plus altitude, whether the computation is in single or in double precision. Higher gates never have smaller heights, and gates at least 14 mm apart in height have strictly increasing ones. No gate is below the altitude of the instrument. Above 16 km gates half a millimetre apart can have the same height.", "quantifier": "every altitude, cosine and range up to 32 km, both precisions", "why_tests_cant": "Strict increase must hold for every spacing of gates, tilt and altitude of a site.", "anchors": ["cloudnetpy/instruments/cloudnet_instrument.py:add_height", "cloudnetpy/instruments/ceilometer.py:prepare_data", "cloudnetpy/utils.py:range_to_height"]}
