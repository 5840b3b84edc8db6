{"id": "C01", "title": "Raw parser keeps exactly the data lines, in order", "statement": "Parsing a raw file yields exactly one row for each line whose first byte is 'D', 'G', 'M' or a lower-case letter, in file order, typed D, G or M (lower-case lines become D), and nothing for any other line.", "quantifier": "every byte string as file content (lines of any length, including chunks split at 255 bytes), every prior buffer content", "why_tests_cant": "the file content is unbounded and adversarial; tests use a handful of recorded files", "anchors": ["gemlog/parsers.pyx:parse_gemfile"]}
{"id": "C02", "title": "Compact sample lines decode relative to the previous sample", "statement": "A compact line 'xy' of two lower-case letters decodes to pressure step y-'m' and to a millisecond count 10 + (x-'m') after the previous sample modulo 8192; a one-letter line 'y' decodes to pressure step y-'m' and 10 ms after the previous sample modulo 8192; the decoded count always lies in [0, 8192).", "quantifier": "every pair of letters, every following byte, every earlier file content", "why_tests_cant": "the decode depends on the whole preceding history through the previous sample time", "anchors": ["gemlog/parsers.pyx:parse_gemfile"]}
{"id": "C03", "title": "Well-formed lines are read back exactly, whatever came before", "statement": "Any D, G or M line printed in the documented comma-separated format with integer or decimal fields (fitting in a line) is parsed to a row holding exactly those numbers, no matter what lines precede it. This holds for every way of writing the numbers: with blanks in front, with or without sign, leading zeros, decimal point or power of ten.", "quantifier": "every field value, every earlier file content", "why_tests_cant": "round trip over all numbers and all histories", "anchors": ["gemlog/parsers.pyx:parse_gemfile"]}
{"id": "C04", "title": "A damaged line never inherits values from another line", "statement": "The row produced for a D, G or M line depends on that line only (and, for samples without an explicit time, on the previous sample time): a truncated or garbled line never reuses field values from an earlier line.", "quantifier": "every pair of file contents that end in the same line", "why_tests_cant": "needs every possible damage and every history; existing tests do not exercise truncated lines", "anchors": ["gemlog/parsers.pyx:parse_gemfile"]}
{"id": "C05", "title": "Transcoding a 0.91 raw file to the compact 1.10 format loses nothing", "statement": "Converting a raw file with explicit sample times to the compact format and parsing the result gives the same samples, times, GPS rows and metadata rows as parsing the original.", "quantifier": "every sequence of lines with sample times in [0, 8192)", "why_tests_cant": "unbounded sequences of samples; the encoding is history dependent", "anchors": ["gemlog/gemlog_aux.py:_convert_raw_091_110", "gemlog/parsers.pyx:parse_gemfile"]}
{"id": "C06", "title": "Reading does not depend on the parser buffer size", "statement": "When a raw file has more rows than the first buffer, the retry with the larger buffer returns the same rows as an unlimited parser; an error is reported only if the file also exceeds the larger buffer; no truncated result is ever returned.", "quantifier": "every file content", "why_tests_cant": "files larger than 1.56 million rows are never used in tests", "anchors": ["gemlog/core.py:_read_with_cython", "gemlog/parsers.pyx:parse_gemfile"]}
{"id": "C07", "title": "Unwrapping one millisecond counter value", "statement": "Unwrapping a wrapped counter value against a reference returns the unique value congruent to the new reading modulo the rollover that lies within [reference - maxNegative, reference - maxNegative + rollover).", "quantifier": "all integers new, old, all positive rollovers", "why_tests_cant": "universally quantified arithmetic with wrap-around", "anchors": ["gemlog/core.py:_unwrap_millis"]}
{"id": "C08", "title": "The true logger clock is recovered from the wrapped counter", "statement": "If the true millisecond clock changes by less than half a rollover between consecutive lines and its first value is within half a rollover of the offset passed in, the corrected times of all rows equal the true clock exactly, although the file only stores the clock modulo the rollover.", "quantifier": "every true clock history of every length, every offset", "why_tests_cant": "histories are unbounded and each unwrapping decision depends on all earlier ones", "anchors": ["gemlog/core.py:_process_gemlog_data"]}
{"id": "C09", "title": "The production reader agrees with the reference reader on times", "statement": "For every sequence of wrapped counts in [0, 8192) in which no two consecutive counts differ by exactly +4096, the vectorised unwrapping and the line-by-line reference unwrapping give the same corrected times up to one common multiple of 8192.", "quantifier": "every sequence of wrapped counts, every offset", "why_tests_cant": "equivalence of two programs over unbounded inputs", "anchors": ["gemlog/core.py:_process_gemlog_data", "gemlog/core.py:_slow__read_single_v0_9"]}
{"id": "C10", "title": "Pressure samples are the running sum of the stored differences", "statement": "For the differenced formats the i-th pressure value equals the sum of the first i stored steps (so differencing the output returns the stored steps); for 0.8 and 0.85 the stored values are returned unchanged.", "quantifier": "every sequence of stored values, every supported version", "why_tests_cant": "unbounded sequences", "anchors": ["gemlog/core.py:_process_gemlog_data"]}
{"id": "C11", "title": "GPS fixes are kept if and only if they are plausible", "statement": "A GPS row is kept exactly when latitude is non-zero within +-90, longitude non-zero within +-180, lag within 0..1000 ms, year within 2014..2040, all calendar fields within range, seconds whole, and the fields form a valid UTC time; kept rows preserve file order; the fast and the reference readers apply the same test.", "quantifier": "every list of GPS rows", "why_tests_cant": "the decision must be right for every combination of ten numeric fields", "anchors": ["gemlog/core.py:_gps_in_bounds", "gemlog/core.py:_make_gps_time", "gemlog/core.py:_slow__read_single_v0_9"]}
{"id": "C12", "title": "GPS calendar fields map to the right instant", "statement": "The time attached to a kept fix is the number of seconds from 1970-01-01 to that UTC calendar instant: it is injective, strictly increasing in calendar order, one day is 86400 s, and it inverts the calendar split used in output file names.", "quantifier": "every valid calendar instant", "why_tests_cant": "all calendar dates including leap years and month ends", "anchors": ["gemlog/core.py:_make_gps_time", "gemlog/core.py:_make_filename_converted"]}
{"id": "C13", "title": "Every supported raw format can be read through every entry point", "statement": "Each documented raw format version (0.8, 0.85, 0.85C, 0.9, 0.91, 1.10) is accepted by the single-file reader with the roll-over and integration rule of that format.", "quantifier": "every version string", "why_tests_cant": "a dispatch table over an open set of strings used from several callers", "anchors": ["gemlog/core.py:_read_single", "gemlog/core.py:_process_gemlog_data", "gemlog/core.py:read_gem", "gemlog/core.py:_read_several", "gemlog/gem_cat.py:AppendFile"]}
{"id": "C14", "title": "Fallback between file readers is sound", "statement": "A file is reported unreadable as CorruptRawFile only after every reader for its version failed; an empty, missing or GPS-less file is reported at once with its own exception; otherwise the output is that of the first reader that succeeds, with sample times shifted by exactly 8.93 ms and GPS and metadata times unshifted.", "quantifier": "every combination of reader outcomes", "why_tests_cant": "all exception interleavings of the readers", "anchors": ["gemlog/core.py:_read_single"]}
{"id": "C15", "title": "Each input file is either used completely or reported exactly once", "statement": "Reading several files returns one problem message per rejected file in order, and the samples, GPS rows and metadata rows of exactly the accepted files, concatenated in file order.", "quantifier": "every list of files and every outcome of reading each", "why_tests_cant": "arbitrary interleavings of good and bad files", "anchors": ["gemlog/core.py:_read_several"]}
{"id": "C16", "title": "A bad file does not influence how other files are read", "statement": "Removing the rejected files from the input list leaves the returned samples, GPS rows and metadata unchanged.", "quantifier": "every list of files", "why_tests_cant": "a hyperproperty over pairs of runs", "anchors": ["gemlog/core.py:_read_several"]}
{"id": "C17", "title": "Accepted files have plausible sample clocks", "statement": "In every accepted file consecutive sample times never decrease and never jump by more than 1000 ms.", "quantifier": "every list of files", "why_tests_cant": "must hold for all file contents", "anchors": ["gemlog/core.py:_read_several"]}
{"id": "C18", "title": "Sample clocks increase across files", "statement": "The sample times of the concatenated record never decrease from one accepted file to the next, for each supported format.", "quantifier": "every list of files, every supported format", "why_tests_cant": "depends on the accumulated clock of all earlier files", "anchors": ["gemlog/core.py:_read_several", "gemlog/core.py:_process_gemlog_data"]}
{"id": "C19", "title": "Files accepted with required GPS meet the timing quality bar", "statement": "When GPS is required, a file is accepted only if it has GPS fixes, the fixes span more than half of the data, no timing step above 0.25 s is found, and the regression keeps at least 10 fixes all within 10 ms; every other file is rejected with the documented exception class.", "quantifier": "every GPS series, every data span, every polynomial fitter", "why_tests_cant": "decision logic over arbitrary numeric inputs", "anchors": ["gemlog/core.py:_calculate_drift", "gemlog/core.py:_detect_step"]}
{"id": "C20", "title": "Fixes that survive outlier removal still span at least half of the file", "statement": "A file is accepted with a fitted clock only if the GPS fixes used in the final fit span at least half of its duration.", "quantifier": "every GPS series", "why_tests_cant": "needs all outlier patterns", "anchors": ["gemlog/core.py:_calculate_drift"]}
{"id": "C21", "title": "Outlier-robust regression terminates and ends clean", "statement": "For every polynomial fitter the regression terminates after finitely many removals, uses a subsequence of the input fixes, and on return no remaining residual exceeds four standard deviations nor the absolute limit; the reported count and maximum are those of the remaining fixes.", "quantifier": "every fitter, every list of points", "why_tests_cant": "termination and postcondition over all inputs", "anchors": ["gemlog/core.py:_robust_regress"]}
{"id": "C22", "title": "Perfect GPS gives perfect timing", "statement": "If all GPS fixes lie exactly on a polynomial clock of degree at most three and the fitter reproduces such polynomials, no fix is discarded and every sample of the file is assigned exactly the clock value.", "quantifier": "every cubic clock, every set of fixes and samples", "why_tests_cant": "universally quantified functional correctness", "anchors": ["gemlog/core.py:_robust_regress", "gemlog/core.py:_calculate_drift", "gemlog/core.py:_apply_fit"]}
{"id": "C23", "title": "Forced conversion assumes the nominal clock rate", "statement": "When GPS is not required and no regression is possible, sample times advance exactly 1.024 ms per logger millisecond; with GPS fixes the mean timing residual at the fixes is zero (a single fix is matched exactly), without fixes the record starts from the epoch.", "quantifier": "every GPS series and data series", "why_tests_cant": "numerical law for all inputs", "anchors": ["gemlog/core.py:_calculate_drift"]}
{"id": "C24", "title": "Each sample is timed by the clock of its own file", "statement": "Every sample of an accepted file gets a time from the clock fitted to the last file whose millisecond range contains it, and no time if no file contains it; when file ranges are disjoint this is its own file.", "quantifier": "every list of file ranges and samples", "why_tests_cant": "all overlaps of ranges", "anchors": ["gemlog/core.py:_apply_segments", "gemlog/core.py:_apply_fit"]}
{"id": "C25", "title": "Rejected files do not assign times", "statement": "A file that was rejected never determines the time of a sample or metadata row.", "quantifier": "every list of files with any rejected", "why_tests_cant": "depends on placeholder values in the header table", "anchors": ["gemlog/core.py:_read_several", "gemlog/core.py:_make_empty_header", "gemlog/core.py:_apply_segments"]}
{"id": "C26", "title": "No data are invented across gaps", "statement": "Resampling never produces samples inside a gap of more than 25 ms in the sample times.", "quantifier": "every increasing sequence of sample times", "why_tests_cant": "all gap positions including the first and last interval", "anchors": ["gemlog/core.py:_interp_time"]}
{"id": "C27", "title": "Resampled traces lie on the 10 ms grid inside the recorded span", "statement": "Every resampled trace starts on a multiple of 10 ms, is evenly spaced, lies within 5 ms of the recorded interval it comes from, and traces of an increasing record do not overlap and are in order.", "quantifier": "every increasing sequence of sample times", "why_tests_cant": "real-number reasoning over all inputs", "anchors": ["gemlog/core.py:_interp_time"]}
{"id": "C28", "title": "Resampling succeeds on every non-empty record", "statement": "Resampling a non-empty timed record returns a (possibly empty) stream and does not raise.", "quantifier": "every sequence of sample times", "why_tests_cant": "rare short fragments are not in test data", "anchors": ["gemlog/core.py:_interp_time"]}
{"id": "C29", "title": "Splitting into output files loses and duplicates nothing", "statement": "When the output file length is a whole number of 10 ms samples, every sample of the merged record from the starting time on is written to exactly one output file segment, and nothing else is written.", "quantifier": "every stream of traces, every start time, every file length on the sample grid", "why_tests_cant": "unbounded data and all alignments of boundaries and gaps", "anchors": ["gemlog/core.py:convert", "gemlog/core.py:_write_hourlong_mseed"]}
{"id": "C30", "title": "Each output file stays inside one file-length window", "statement": "All samples of one output file lie in a single window [k*L, (k+1)*L) of UTC time, where L is the requested file length.", "quantifier": "every stream, start time and file length", "why_tests_cant": "all alignments", "anchors": ["gemlog/core.py:_write_hourlong_mseed", "gemlog/core.py:_trunc_UTCDateTime"]}
{"id": "C31", "title": "Conversion terminates", "statement": "The loop writing the output files ends for every record and every positive file length.", "quantifier": "every stream, every positive file length", "why_tests_cant": "termination", "anchors": ["gemlog/core.py:convert"]}
{"id": "C32", "title": "Requested time limits are respected", "statement": "No output sample is earlier than t1 or later than t2.", "quantifier": "every stream, every t1, t2", "why_tests_cant": "all relative positions of limits, data and file boundaries", "anchors": ["gemlog/core.py:convert"]}
{"id": "C33", "title": "A conversion that has nothing (left) to write ends normally", "statement": "Conversion finishes without an internal error when the requested interval contains no data.", "quantifier": "every stream, every t1, t2", "why_tests_cant": "boundary histories", "anchors": ["gemlog/core.py:convert"]}
{"id": "C34", "title": "Every selected raw file is read exactly once", "statement": "The blocks of file numbers passed to the reader are disjoint, increasing and cover exactly the selected files, for every block length, so long gaps in the file numbers neither skip nor repeat files and the search ends.", "quantifier": "every set of file numbers, every block length", "why_tests_cant": "unbounded sets and termination", "anchors": ["gemlog/core.py:convert"]}
{"id": "C35", "title": "State-of-health and GPS files are never overwritten", "statement": "The file chosen for metadata or GPS output does not exist beforehand and is the one with the smallest unused index.", "quantifier": "every directory state", "why_tests_cant": "arbitrary existing directory contents", "anchors": ["gemlog/core.py:_make_filename"]}
{"id": "C36", "title": "Output segments never overwrite each other", "statement": "Two different segments written in one conversion have different file names.", "quantifier": "every pair of segments", "why_tests_cant": "needs every pair of start times", "anchors": ["gemlog/core.py:_make_filename_converted", "gemlog/core.py:_write_hourlong_mseed"]}
{"id": "C37", "title": "An interrupted conversion can simply be repeated", "statement": "Running a conversion again after it was interrupted at any point leaves the same converted files as one uninterrupted run. The same holds for the command with several conversions side by side: all may be killed at any moment, with any content in the files being written. After the second run each instrument also has complete metadata and GPS tables, under the next unused number, and the tables of earlier runs are untouched.", "quantifier": "every write sequence, every crash point, every number of conversions and interleaving of both runs, every earlier disk", "why_tests_cant": "crash points", "anchors": ["gemlog/core.py:convert", "gemlog/core.py:_write_hourlong_mseed"]}
{"id": "C38", "title": "Small gaps are bridged, large gaps are kept", "statement": "Merging keeps every original sample at its time, inserts at most two samples between neighbours separated by at most 31 ms, never bridges a larger gap, and leaves no two neighbouring traces that could still be merged.", "quantifier": "every ordered list of non-overlapping traces", "why_tests_cant": "all gap patterns", "anchors": ["gemlog/core.py:_merge_gaps"]}
{"id": "C39", "title": "Input validation reports the documented exceptions", "statement": "convert raises MissingRawFiles for a missing directory, a directory without raw files or without files of the instrument, an invalid serial number error for a serial number that is not three number-like characters, and CorruptRawFile when unreadable candidates were the only ones; read_gem raises MissingRawFiles exactly when no file is selected and CorruptRawFile when all are unreadable.", "quantifier": "every directory state and argument", "why_tests_cant": "all combinations of conditions and their precedence", "anchors": ["gemlog/core.py:convert", "gemlog/core.py:read_gem"]}
{"id": "C40", "title": "File selection is exact", "statement": "The files read for a serial number are exactly the non-empty raw files whose number is requested and whose extension, or internal serial number for .TXT files, equals that serial number, in increasing order without repetition.", "quantifier": "every directory content", "why_tests_cant": "arbitrary directories", "anchors": ["gemlog/core.py:_find_nonmissing_files"]}
{"id": "C41", "title": "Instrument specifications are total and unambiguous", "statement": "Every serial number from 3 up belongs to exactly one hardware version, versions never decrease with serial number, smaller numbers are rejected, and the pressure bitweight equals the voltage bitweight divided by the sensor sensitivity.", "quantifier": "every integer serial number", "why_tests_cant": "infinite domain of serial numbers", "anchors": ["gemlog/core.py:get_gem_specs"]}
{"id": "C42", "title": "Gain and unit settings scale the bitweight correctly", "statement": "Low gain doubles both bitweights exactly, the unit name selects Pa, V or counts regardless of letter case, and any other gain code or unit raises.", "quantifier": "every serial number, configuration and unit string", "why_tests_cant": "all strings and codes", "anchors": ["gemlog/core.py:get_bitweight_info"]}
{"id": "C43", "title": "Merging raw files groups them into runs with GPS", "statement": "Merging raw files drops exactly the files before the first one with GPS and distributes the others, in order and each exactly once, over consecutively numbered outputs that each start with a GPS file and contain a GPS-less file only behind it.", "quantifier": "every sequence of files with or without GPS", "why_tests_cant": "all patterns", "anchors": ["gemlog/gem_cat.py:gem_cat"]}
{"id": "C44", "title": "Merged raw files keep the absolute pressure", "statement": "Reading a merged file gives the concatenation of the absolute pressures of the files it was made from.", "quantifier": "every sequence of differenced files", "why_tests_cant": "unbounded data, boundary arithmetic", "anchors": ["gemlog/gem_cat.py:AppendFile", "gemlog/gem_cat.py:gem_cat"]}
{"id": "C45", "title": "Raw-file merging works for every differenced format", "statement": "gem_cat can append files of every differenced raw format.", "quantifier": "every format version", "why_tests_cant": "cross-module dispatch", "anchors": ["gemlog/gem_cat.py:AppendFile", "gemlog/core.py:_read_single", "gemlog/core.py:_process_gemlog_data"]}
{"id": "C46", "title": "Batch conversion treats serial numbers independently", "statement": "Failures of one serial number do not prevent the conversion of the others, and the final output does not depend on the number of processes or on how their writes interleave.", "quantifier": "every list of serial numbers, every outcome, every interleaving", "why_tests_cant": "schedules", "anchors": ["gemlog/gemconvert.py:convert_single_SN", "gemlog/gemconvert.py:main"]}
{"id": "C47", "title": "Station codes are matched to the right instrument", "statement": "With a codes file each converted serial number gets network, station and location of the first row with that number; serial numbers without a row are skipped; order is kept.", "quantifier": "every serial number list and table", "why_tests_cant": "all tables including duplicates", "anchors": ["gemlog/gemconvert.py:main"]}
{"id": "C48", "title": "Position outlier removal is safe", "statement": "Removing position outliers terminates, keeps order, never removes more than one eighth of the points in a pass, never empties a non-empty list, and ends with all points within five tolerances of the medians.", "quantifier": "every list of coordinates", "why_tests_cant": "statistical inequality for all samples", "anchors": ["gemlog/gem_network.py:_remove_outliers"]}
{"id": "C49", "title": "The newest GPS summary is used", "statement": "Reading the GPS log of an instrument uses the file with the highest index.", "quantifier": "every number of existing files", "why_tests_cant": "lexicographic versus numeric order differ only for large counts", "anchors": ["gemlog/gem_network.py:read_gps", "gemlog/core.py:_make_filename"]}
{"id": "C50", "title": "Sliding windows cover the data evenly", "statement": "The analysis windows start at the first sample, end at the last, are equally spaced, at most window*(1-overlap) apart, and are the fewest that satisfy this.", "quantifier": "every data length, window length and overlap", "why_tests_cant": "real arithmetic for all inputs", "anchors": ["gemlog/xcorr.py:apply_function_windows"]}
{"id": "C51", "title": "Window results stay aligned", "statement": "In the result of a sliding-window analysis every column has exactly one entry per window, missing values being NaN, whatever keys each window returns.", "quantifier": "every sequence of per-window results", "why_tests_cant": "all key patterns", "anchors": ["gemlog/xcorr.py:apply_function_windows"]}
{"id": "C52", "title": "Plane waves are recovered exactly", "statement": "For inter-sensor delays produced by a plane wave over any non-collinear array, slowness inversion returns exactly that wave, whatever the station order.", "quantifier": "every array geometry, every slowness vector", "why_tests_cant": "linear algebra over all geometries", "anchors": ["gemlog/xcorr.py:invert_for_slowness"]}
{"id": "C53", "title": "Everything between the requested limits is converted", "statement": "Every sample of the selected raw files with a time between t1 and t2 is written, whatever the gaps between the blocks of files.", "quantifier": "every set of blocks, every t1 and t2", "why_tests_cant": "depends on the position of the limits relative to the whole record and its gaps", "anchors": ["gemlog/core.py:convert"]}
{"id": "C54", "title": "Overlapping traces cost no other data", "statement": "If two consecutive traces overlap in time, every sample outside the overlap is kept by the merging of traces.", "quantifier": "every list of traces", "why_tests_cant": "unbounded lists of traces and all relative positions", "anchors": ["gemlog/core.py:_merge_gaps"]}
{"id": "C55", "title": "Gaps never make a block unreadable", "statement": "Reading a block of files never fails because of where gaps between successive samples fall.", "quantifier": "every sequence of sample times and GPS fixes", "why_tests_cant": "unbounded sequences, every position and number of gaps", "anchors": ["gemlog/core.py:_find_breaks", "gemlog/core.py:_assign_times", "gemlog/core.py:read_gem"]}
{"id": "C56", "title": "Every file is read by its own format version", "statement": "When a folder holds files of several raw format versions, read_gem decodes each file according to the version in its own first line.", "quantifier": "every folder of raw files", "why_tests_cant": "all combinations of versions, file numbers and unreadable files", "anchors": ["gemlog/core.py:read_gem", "gemlog/core.py:_read_several", "gemlog/core.py:_read_format_version"]}
{"id": "C57", "title": "Raw-file merging keeps instruments apart", "statement": "Merging a folder of raw files never puts the data of two instruments into one output file, and selects and orders the files of an instrument by their names only, whatever the order in which the folder lists them.", "quantifier": "every folder of raw files, every extension", "why_tests_cant": "all combinations of names and serial numbers, all listing orders", "anchors": ["gemlog/gem_cat.py:gem_cat"]}
{"id": "C58", "title": "Merging loses no line of a raw file", "statement": "Every sample, metadata and GPS line of the merged raw files, from the first file with GPS on, is in one of the outputs.", "quantifier": "every sequence of raw files with any lines in any order", "why_tests_cant": "all positions of all kinds of lines", "anchors": ["gemlog/gem_cat.py:gem_cat", "gemlog/gem_cat.py:AppendFile"]}
{"id": "C59", "title": "gemconvert honours its documented options", "statement": "Every documented command line option of gemconvert has its documented effect: in its short form and its long form, in any order and combination, the last value given counting; the serial numbers converted are those selected (default: all those present in the input folder), each once, without the excluded ones; -t converts nothing.", "quantifier": "every argument vector, every folder listing", "why_tests_cant": "arbitrary combinations of options and arguments", "anchors": ["gemlog/gemconvert.py:main", "gemlog/gemconvert.py:print_call", "gemlog/gemconvert.py:find_SN", "gemlog/gemconvert.py:unique"]}
{"id": "C60", "title": "Every time is analysed exactly once", "statement": "A day-by-day cross-correlation run from t1 to t2 hands every instant of the interval to exactly one daily analysis, and none outside it.", "quantifier": "every t1 and t2", "why_tests_cant": "all combinations of start and end times of day", "anchors": ["gemlog/xcorr.py:loop_through_days"]}
{"id": "C61", "title": "The network GPS summary describes the deployment", "statement": "Summarising GPS logs gives exactly one row per wanted instrument that has fixes in the requested period, in order of serial number, with the mean position, standard errors, first and last time and number of those fixes (outliers removed), and the codes of its first row in the station table; data outside the period is ignored.", "quantifier": "every collection of GPS folders and files, every period, every list of serial numbers to include or exclude", "why_tests_cant": "all folder contents and orders of files, all periods", "anchors": ["gemlog/gem_network.py:summarize_gps", "gemlog/gem_network.py:read_gps", "gemlog/gem_network.py:summarize_gps_terminal"]}
{"id": "C62", "title": "The station inventory lists every located channel once", "statement": "The inventory made from a station table and coordinates has exactly one channel for each network, station and location code that has coordinates, at those coordinates and covering their times with an hour to spare; stations lie at the mean of their channels and networks span their stations; rows without coordinates are left out without affecting others.", "quantifier": "every station table, every table of coordinates", "why_tests_cant": "all combinations of codes, repetitions and missing coordinates", "anchors": ["gemlog/gem_network.py:make_gem_inventory"]}
{"id": "C63", "title": "Documented station tables are accepted", "statement": "A station table is read with columns in any order and capitalisation; network, location and elevation columns are optional, and a table of four or five columns needs no header line.", "quantifier": "every table", "why_tests_cant": "all headers and contents", "anchors": ["gemlog/gem_network.py:_get_station_info", "gemlog/gem_network.py:_fix_station_info_keys", "gemlog/gemconvert.py:main"]}
{"id": "C64", "title": "The header of a file describes its fixes and samples", "statement": "The header row that read_gem returns for an accepted file holds the median latitude and longitude of that file's GPS fixes (NaN without fixes), its first and last millisecond count, its numbers of fixes and samples and its serial number.", "quantifier": "every accepted file content, every polynomial fitter, GPS required or not, every list of other files read before", "why_tests_cant": "A test compares the headers of one or two sample files; the medians, the alignment of rows with files after rejected files, and the NaN case must be right for every number and order of fixes and rejections.", "anchors": ["gemlog/core.py:_calculate_drift", "gemlog/core.py:_read_several", "gemlog/core.py:_make_empty_header"]}
{"id": "C65", "title": "A recording without defects is read back as it was recorded", "statement": "If the raw files of an instrument contain a recording without defects (lines that fit the format, event times printed modulo the rollover, a clock that runs linearly within 100 ppm of its nominal rate, at least ten correct GPS fixes per file covering most of it, no sample gap of a second inside a file), then reading them reports no problem file and returns every status line and every fix with its contents, and the traces are made from exactly the recorded samples: each sample of each file, once, in order, with its recorded pressure (the running sum of the changes in its file) at its true UTC time. If no two samples are more than 25 ms apart the result is one continuous trace.", "quantifier": "all recordings (any number of files, samples, fixes and status lines, any clock offset and any rate within 100 ppm, any interleaving of lines, either way of writing samples), all directories, all uninitialised buffers, all splines", "why_tests_cant": "It composes the parser, the rollover correction, the GPS filter, the drift regression, the assignment of times and the resampling; tests run them on a few recorded files whose true content is not known independently, and compare with earlier output of the same code.", "anchors": ["gemlog/core.py:read_gem", "gemlog/core.py:_read_several", "gemlog/core.py:_read_single", "gemlog/core.py:_process_gemlog_data", "gemlog/core.py:_calculate_drift", "gemlog/core.py:_assign_times", "gemlog/core.py:_interp_time", "gemlog/parsers.pyx:parse_gemfile"]}
{"id": "C66", "title": "A directory of recordings without defects is converted completely and without gaps", "statement": "If each block of the selected raw files holds a recording without defects and without gaps, and the blocks follow each other in time, then convert with default times ends normally, reads every block once, and writes exactly the samples of the record (one per 10 ms, at multiples of 10 ms, with the values of the spline through the recorded points) from the first whole second on, in order and without repetition; if each block starts at most 10 ms after the end of the one before, the written samples have no gap from the first whole second to within 25 ms of the last recorded sample, although each block is resampled separately.", "quantifier": "all directories, all recordings (any number of blocks, files and samples, each block with its own clock offset and rate), all block lengths and file lengths that are whole numbers of samples, all splines", "why_tests_cant": "It composes file selection, parsing, time correction, resampling, merging and cutting; tests run whole conversions on a few small directories and never check the joints between blocks sample by sample.", "anchors": ["gemlog/core.py:convert", "gemlog/core.py:read_gem", "gemlog/core.py:_merge_gaps", "gemlog/core.py:_interp_time", "gemlog/core.py:_write_hourlong_mseed"]}
{"id": "C67", "title": "The metadata and GPS files of a conversion hold the rows of every block with data, once and in order", "statement": "When convert ends, the metadata file holds exactly the status rows of the blocks with data that were read, in order and once, the returned problems are exactly the problems of these blocks, and the GPS file holds their fixes later than one second before the start; collecting the tables never changes which data are converted. For recordings without defects the metadata file holds exactly the status lines logged in all files and the GPS file the logged fixes at their true times.", "quantifier": "all directories and contents of files, all failures of blocks, all start and end times, all block lengths", "why_tests_cant": "The rows are appended block by block inside two nested loops that skip, fail and stop depending on the data; tests convert one or two blocks and compare only the waveform files.", "anchors": ["gemlog/core.py:convert", "gemlog/core.py:read_gem"]}
{"id": "C68", "title": "Renaming converted files keeps every record and gives it the codes of its instrument", "statement": "rename_files writes every input file whose serial number is in the station table exactly once, with unchanged samples, with the codes of the first row for this serial number, under the name that the pattern gives (numbers with leading zeros), and skips files of other instruments; if the table gives different codes to different instruments and the default pattern is used on files named by convert, no output file replaces another.", "quantifier": "all station tables, all patterns made of characters and fields, all sets of input files, all earlier contents of the output directory", "why_tests_cant": "Overwriting depends on combinations of start times, codes and patterns across all files; the tests rename one small directory once.", "anchors": ["gemlog/gem_network.py:rename_files", "gemlog/gem_network.py:_fix_file_name_digits", "gemlog/gem_network.py:_get_station_info"]}
{"id": "C69", "title": "Merging by day writes one file for each day and channel and leaves no file out", "statement": "merge_files_day, on a directory of files named day, time and codes: it comes to its end, writes exactly one file for each day and channel among the files that match the pattern, named after this day and channel, never writes a file twice, and each written file holds the merged traces of all files of that day and channel in the directory and of no others.", "quantifier": "all directories of files with ten-character days and codes with four dots, none of which is an ending of another, all contents of the files, all selections by a pattern", "why_tests_cant": "Grouping works on pieces of file names and reads files by wildcard, so a mistake shows only for certain combinations of codes and days in one directory; the tests merge one directory of one network.", "anchors": ["gemlog/gem_network.py:merge_files_day", "gemlog/gem_network.py:_unique"]}
{"id": "C70", "title": "A merged day holds every recorded sample at its time and repeats the last sample during gaps", "statement": "For traces of one channel that do not overlap, in whatever order their files are read, merge_files_day yields one trace that starts with the first and ends with the last sample, holds each recorded sample at its time, and holds at all other times the last sample recorded before; traces of different channels are never mixed.", "quantifier": "all sets of traces in any order, all gap lengths, any number of channels", "why_tests_cant": "The number, order and spacing of traces are unbounded; tests merge a few hour files without gaps.", "anchors": ["gemlog/gem_network.py:merge_files_day"]}
{"id": "C71", "title": "The channels analysed are exactly those asked for and not excluded", "statement": "xcorr_all processes each channel once, exactly those that are in the data (or given completely) and match an entry of the list of IDs, or all if there is no list, and that match no entry of the list of excluded IDs; no sample of another channel reaches the analysis of any day. Asking for a station by its code yields that station only.", "quantifier": "all lists of IDs and excluded IDs, all sets of files, all behaviours of the regular expression engine", "why_tests_cant": "The result depends on how arbitrary user strings match arbitrary identifiers; tests use three-digit codes of which none is part of another.", "anchors": ["gemlog/xcorr.py:_check_input_IDs", "gemlog/xcorr.py:loop_through_days"]}
{"id": "C72", "title": "A wave crossing the array yields its exact lags, slowness and direction", "statement": "The lag reported for two traces is the shift of largest correlation within one second. If two traces show the same pulse, whatever its form, the lag is exactly the difference of the arrival times. For an array not on a line whose windows each show a plane wave, cross-correlation followed by calculate_direction returns the slowness vector of each wave exactly. The consistency flag tells whether the lags around the array add up to at most one sample per correlation; traces without signal do not yield a lag.", "quantifier": "all pulses, arrival times, numbers of sensors, positions, windows and waves", "why_tests_cant": "Tests correlate one synthetic signal with noise for one array and accept errors of 10 ms; that the maximum is unique for every pulse is a theorem about all signals (Cauchy-Schwarz).", "anchors": ["gemlog/xcorr.py:xcorr_function", "gemlog/xcorr.py:apply_function_windows", "gemlog/xcorr.py:invert_for_slowness"]}
{"id": "C73", "title": "Upsampling keeps the samples and their times", "statement": "upsample_stream by a whole number n yields a trace with the same start, n times as dense; every n-th sample is the original sample at its original time, except that the last sample of the trace is dropped, and no value is extrapolated.", "quantifier": "all traces, all whole ratios, all interpolating splines", "why_tests_cant": "Off-by-one errors at the end and shifts in time depend on lengths and ratios; tests upsample one length by 4.", "anchors": ["gemlog/xcorr.py:upsample_stream"]}
{"id": "C74", "title": "Options of the cross-correlation are accepted exactly if they make sense, and defaults hold when they are omitted", "statement": "The options are accepted exactly if 0 <= fl < fh, the window length is positive, 0 <= overlap < 1 and the upsampling ratio is at least 1; everything else, including what is not a number, is rejected before data are processed; accepted options never cause a division by zero in the number of windows; an option that is omitted has its default.", "quantifier": "all numbers, NaN and other values, all combinations of given and omitted options", "why_tests_cant": "The conditions range over all numbers and all combinations of missing options; tests call the functions with valid options only.", "anchors": ["gemlog/xcorr.py:_validate_inputs", "gemlog/xcorr.py:xcorr_one_day", "gemlog/xcorr.py:xcorr_all"]}
{"id": "C75", "title": "A sound file holds the recorded wave form", "statement": "Every non-empty trace at a whole sampling rate is written as a sound file of that rate with as many samples, which are the recorded ones scaled by one positive factor and shifted, with mean zero, none outside of -1 to 1, and at least one at -1 or 1 unless the trace is constant. Amplitudes stay comparable between files, and writing does not change the trace.", "quantifier": "all traces, sampling rates and sets of segments", "why_tests_cant": "The bounds and the shape must hold for every signal; tests write one short trace and look for the file.", "anchors": ["gemlog/core.py:write_wav", "gemlog/core.py:_write_hourlong_mseed"]}
{"id": "C76", "title": "Serial number and configuration are those printed in the file", "statement": "A raw file whose header gives the serial number and the configuration is read with exactly these, whatever follows and whichever line ends are used; a configuration other than the default is always one printed in the file; a recording is scaled by the gain printed in its first file.", "quantifier": "all headers, configurations, serial numbers and contents", "why_tests_cant": "Tests read a few files with the same header and default configuration; where the lines stand, damage and unusual values vary without bound.", "anchors": ["gemlog/core.py:_read_SN", "gemlog/core.py:_read_config"]}
{"id": "C77", "title": "The huddle test reports exactly the readings out of range", "statement": "A huddle test that completes gives for each logger, in order, one result for each of thirteen tests. A result is an error or a warning exactly if some battery or temperature reading is beyond the limit or within the margin of it, if A2 or A3 keep their value in more than 99 or 95 percent of the steps or leave the range of 0 to 3.1 V, if overruns, little unused stack or long GPS runs occur; it is a note exactly if the buffer is used beyond its limits. The lists of errors, warnings and notes hold one message for each such result and no others. Excluded serial numbers are never tested.", "quantifier": "all sets of loggers and all metadata tables of any length", "why_tests_cant": "The only test runs one clean data set; limits must hold for every reading at every place of the table, with missing values anywhere.", "anchors": ["gemlog/huddle_test.py:verify_huddle_test", "gemlog/huddle_test.py:_metadata_status"]}
{"id": "C78", "title": "The huddle test finds loggers that start late or stop early", "statement": "A huddle test that completes names exactly those loggers that started more than 20 minutes after another one, and exactly those that stopped more than 20 minutes before another one; it says that the times agree exactly if the first times of any two loggers, and their last times, differ by at most 20 minutes. Loggers are not compared if only individual tests are wanted.", "quantifier": "all sets of loggers and all metadata tables of any length", "why_tests_cant": "It depends on all pairs of loggers and on where times are missing; tests use one data set.", "anchors": ["gemlog/huddle_test.py:verify_huddle_test"]}
{"id": "C79", "title": "The huddle test compares temperatures every minute", "statement": "Temperatures of all loggers are compared every minute up to ten minutes before the end, and exactly the loggers more than 1.5 degrees from the median are named, with the time; the comparison succeeds for all sets of loggers.", "quantifier": "all sets of loggers, rates of metadata, start times and temperatures", "why_tests_cant": "It depends on the rate of metadata, clock drift, start times and the number of loggers; tests use one data set.", "anchors": ["gemlog/huddle_test.py:verify_huddle_test"]}
{"id": "C80", "title": "A transcoded raw file can be read and converted like the original", "statement": "Reading or converting raw files that were transcoded to the compact format gives the same data as reading or converting the originals: single files with the reader of single files, and directories with read_gem and convert.", "quantifier": "every valid raw file with any number of lines; every directory of transcoded files, selection of numbers and options of the conversion", "why_tests_cant": "The encoding depends on the history of samples, and the check of formats is made for the first file of every block; no test reads a transcoded file through read_gem.", "anchors": ["gemlog/gemlog_aux.py:_convert_raw_091_110", "gemlog/core.py:read_gem", "gemlog/core.py:_read_single", "gemlog/core.py:_read_format_version", "gemlog/core.py:convert"]}
{"id": "C81", "title": "Transcoding to the format 0.95 loses nothing", "statement": "Transcoding a raw file to the format 0.95 gives one line for each line of the original, in order; lines of samples of at most 12 counts state their counts and their time, other lines are unchanged; the result can be read with read_gem and tells the same sample times as the original.", "quantifier": "every valid raw file with any number of lines", "why_tests_cant": "Unbounded sequences of lines; whether times can be told apart is a statement about pairs of files.", "anchors": ["gemlog/gemlog_aux.py:_convert_raw_091_095", "gemlog/core.py:read_gem"]}
{"id": "C82", "title": "Converting one raw file gives the traces that read_gem reads from it", "statement": "gemconvert_single converts a raw file of a known format to the same traces, with the same times and samples, as read_gem returns for that file alone; it fails if the file cannot be read, and says why.", "quantifier": "every raw file in every directory, with and without GPS data being required; every behaviour of the fitter, the spline and the other readers", "why_tests_cant": "The single-file path repeats the time assignment with different code (one polynomial for all samples instead of segments); agreement must hold for every content of the file and every clock.", "anchors": ["gemlog/core.py:_convert_one_file", "gemlog/core.py:read_gem", "gemlog/core.py:_assign_times", "gemlog/core.py:_read_several"]}
{"id": "C83", "title": "The command line of gemconvert_single", "statement": "gemconvert_single understands its documented options in every order and number, the last value counting; it converts the file after -i, requires GPS data unless -f is given, writes to the file after -o or else to <name>.mseed in the current directory, writes nothing if the conversion fails, and tells success from failure by its exit status.", "quantifier": "every list of command line words and every environment", "why_tests_cant": "Unbounded command lines; no test covers the options.", "anchors": ["gemlog/gemconvert_single.py:main", "gemlog/gemconvert_single.py:print_call", "gemlog/core.py:_convert_one_file"]}
{"id": "C84", "title": "make_db lists every readable converted file with what it contains", "statement": "make_db returns one row for every matching file that can be read, each once and in the order of the names, with the station and location codes, the first and last time, the greatest and least sample and the amplitude of the data in the file; files that cannot be read are left out.", "quantifier": "every set of files and every content of them, readable or not", "why_tests_cant": "Unbounded sets of files with any mixture of unreadable ones, any number of traces per file.", "anchors": ["gemlog/gemlog_aux.py:make_db"]}
{"id": "C85", "title": "calc_channel_stats gives uptime and amplitudes for every station of a database", "statement": "For every database made by make_db and every interval, calc_channel_stats returns a table with a row for each station that has data in the interval.", "quantifier": "every database and every interval", "why_tests_cant": "There is no test of it; that it fails for every input, not just for some, needs an argument about all of them.", "anchors": ["gemlog/gemlog_aux.py:calc_channel_stats"]}
{"id": "C86", "title": "check_lags compares each station with the next in every window, and the huddle test reports nonzero lags", "statement": "check_lags ends, and returns for every window of the given length in the recorded time, in order, the lag between each station and the next in the filtered data, and the sum of the lags; windows without data of all stations are left out. The huddle test reports an error exactly if coherent windows exist and in less than four fifths of them all lags are zero.", "quantifier": "every database, window length and content of the files; every behaviour of the cross-correlation", "why_tests_cant": "Unbounded numbers of windows, stations and gaps.", "anchors": ["gemlog/gemlog_aux.py:check_lags", "gemlog/huddle_test.py:huddle_test"]}
{"id": "C87", "title": "check_discontinuity reports exactly the gaps in a set of files", "statement": "check_discontinuity prints nothing if no sample is missing between the first and the last sample of the files, and otherwise prints, in order, the first and last time of every run of consecutive samples; the runs hold exactly the recorded samples.", "quantifier": "every list of readable files, in every order, with overlaps that agree", "why_tests_cant": "Unbounded numbers of files and gaps, any order and any overlap.", "anchors": ["gemlog/gemlog_aux.py:check_discontinuity"]}
{"id": "C88", "title": "The huddle test fills short gaps only, and changes no recorded sample", "statement": "Interpolating a stream keeps every recorded sample, fills every gap shorter than the limit completely, with the values of the spline through the samples around it, leaves all longer gaps, and returns runs without masked samples; it never fails.", "quantifier": "every stream of one channel with any number of gaps of any length, every limit and every spline", "why_tests_cant": "Later passes of the loop see the results of earlier ones; any number and spacing of gaps is possible.", "anchors": ["gemlog/gemlog_aux.py:_interpolate_stream", "gemlog/huddle_test.py"]}
{"id": "C89", "title": "The production reader and the reference reader return the same file contents", "statement": "For every raw file whose lines are printed in full (samples D<millis>,<step>, GPS and status lines, any other ASCII lines), with counts in [0,8192) that never rise by exactly 4096 from one line to the next, with at most 750000 samples and 15000 GPS and status lines each, at least one sample and one status line and, if GPS is required, one sensible fix: the production reader and the line-by-line reference reader both succeed for every offset, and return the same samples, status lines and fixes. Production adds the multiple of 8192 contained in the offset to all times, and 8.93 ms to the times of samples. A missing file, a file without data lines and a file without fixes (when GPS is required) are refused by both with the same exception. Without the conditions they differ: a fix on 30 February is returned by the reference reader and makes production refuse the file; a file without status lines is read by the reference reader and refused by production.", "quantifier": "all lists of lines in the format, all offsets, with and without required GPS, all contents of uninitialised buffers", "why_tests_cant": "The unit test compares the two readers on one file; the claim is about all files and offsets, including roll-overs at any place.", "anchors": ["gemlog/core.py:_slow__read_single_v0_9", "gemlog/core.py:_read_single", "gemlog/core.py:_process_gemlog_data", "gemlog/core.py:_read_with_cython", "gemlog/core.py:_unwrap_millis"]}
{"id": "C90", "title": "Raw files of formats 0.8 and 0.85 are read exactly, to the whole millisecond", "statement": "For every raw file of format 0.8 or 0.85 with six lines of header, data lines printed in full, counts that are the true times modulo 65536 with consecutive lines less than half a rollover apart, at least one sample and one status line and, if GPS is required, one sensible fix: reading it succeeds and returns every sample with its pressure and the whole milliseconds of its true time plus 8.93 ms, every status line with its values, and exactly the fixes with sensible contents, in order. A missing file and a file with a data line whose count is text are corrupt, a file with nothing after the header is empty, a file without fixes is refused if GPS is required. Six lines are skipped whatever they contain, so a shorter header silently costs data lines; fractions of milliseconds in counts are cut off.", "quantifier": "all lists of lines in the format, all true times, all previous end times, with and without required GPS", "why_tests_cant": "A test reads one file of the old format; the claim is about all files, including every placement of rollovers, stray lines and damaged counts.", "anchors": ["gemlog/core.py:_read_0_8_pd", "gemlog/core.py:_read_single", "gemlog/core.py:_process_gemlog_data"]}
{"id": "C91", "title": "The fallback reader finds what the compiled reader finds", "statement": "If the compiled reader fails on a file of format 0.85C, 0.9 or 0.91 with an error that does not settle the matter (not: empty file, missing file, no GPS, interrupt), the pandas reader takes over. On every file with six lines of header, lines printed in full, whole counts of samples, counts that are the true times modulo 8192 with consecutive lines less than half a rollover apart, and a sensible fix if GPS is required, it returns the same samples at the same times, the same status lines and the same fixes as the compiled reader, the last two with times cut to whole milliseconds. So it moves every fix that is printed with a fraction. In format 1.10 it leaves out all samples written as two letters without any error.", "quantifier": "all lists of lines in the format, all true times, all previous end times, with and without required GPS, all errors of the compiled reader", "why_tests_cant": "No test makes the compiled reader fail; and agreement of two readers on one file says nothing about all files.", "anchors": ["gemlog/core.py:_read_single", "gemlog/core.py:_read_with_pandas", "gemlog/core.py:_read_with_cython", "gemlog/core.py:_process_gemlog_data"]}
{"id": "C92", "title": "Removing the instrument response gives back the pressure", "statement": "The response of a Gem is the first stage of the sensor's response followed by all stages of the logger's but its first; its input units are the sensor's and its sensitivity is the product of the gains of sensor, digitiser and filter. Deconvolving the data of a logger set to high gain, or of any logger whose response file is named, gives back the pressure at every frequency at which no stage is deaf, for every trace of a stream in order. With the gain 'low' the data of a logger set to half gain should likewise give back the pressure. A gain other than high and low (in any capitalisation) is refused unless a file is named, and data that are neither a trace nor a stream are refused.", "quantifier": "all contents of the response files with enough stages, all pressures and frequencies, all streams, all texts given as the gain", "why_tests_cant": "Tests deconvolve one trace and compare nothing with the pressure; the claim is about every recording, gain and response file.", "anchors": ["gemlog/gem_network.py:get_gem_response", "gemlog/gem_network.py:deconvolve_gem_response", "gemlog/data/response"]}
{"id": "C93", "title": "Noise models agree with their tables in power, amplitude and decibels, and give the noise of a band", "statement": "gem_noise and ims_noise return, at the frequencies of their tables, exactly the tabulated noise; at every other frequency within the table a value, outside the table none. The three kinds of spectrum agree: the square of the amplitude is the power, ten to the power of a tenth of the decibels is the power; likewise for the noise level, which is the integral of the power over the band. The IMS models low, medium and high are in this order. The noise level is given for the default band and for the documented example, and the documented model names are accepted. Other kinds, models and versions before 0.97 are refused.", "quantifier": "all tables, all curves through their points, all lists of frequencies, all bands, all capitalisations of the options", "why_tests_cant": "Tests evaluate a few frequencies and bands; agreement of the kinds and the range of the tables concern all of them.", "anchors": ["gemlog/gemlog_aux.py:gem_noise", "gemlog/gemlog_aux.py:ims_noise", "gemlog/gemlog_aux.py:_noise_spectrum_helper", "gemlog/data/noise"]}
{"id": "C94", "title": "The command lines of the cross-correlation write their result or leave all files alone", "statement": "waveform_calc_lags runs xcorr_all with exactly the files, times, stations (separated by commas) and settings given, writes the resulting table to the output file and changes no other file; if anything is missing, not understood or fails, no file changes. Given only files it does what xcorr_all does given only files. waveform_calc_directions writes the table of lags with slowness and direction added to the output and changes no other file; if an option is missing, an input cannot be read, the output cannot be written or the inversion fails, no file changes.", "quantifier": "all command lines after parsing, all contents of all files, all outcomes of the analysis", "why_tests_cant": "What happens to existing files when a run fails has to hold for every cause of failure and every choice of files, also if output and input are the same.", "anchors": ["gemlog/xcorr.py:xcorr_all_terminal", "gemlog/xcorr.py:calculate_direction_terminal", "gemlog/xcorr.py:xcorr_all", "gemlog/xcorr.py:invert_for_slowness"]}
{"id": "C95", "title": "gem_make_inventory lists every instrument found with its position", "statement": "The command gem_make_inventory makes an inventory with one channel for every instrument that has GPS fixes in the period and passes the lists of serial numbers: with the codes and elevation of the station table (in which network, location and elevation may be left blank), the mean position, and the times of its fixes with an hour to spare; without a station table each instrument is a station named by its serial number. There are no other channels. Lists of serial numbers separated by commas select exactly the listed instruments.", "quantifier": "all collections of GPS logs, all station tables, all periods and lists of serial numbers", "why_tests_cant": "Tests run the command on one complete data set; what happens to instruments missing in the table, blank cells and repeated codes concerns all data sets.", "anchors": ["gemlog/gem_network.py:summarize_gps_terminal", "gemlog/gem_network.py:summarize_gps", "gemlog/gem_network.py:make_gem_inventory"]}
{"id": "C96", "title": "The command line of verify_huddle_test", "statement": "verify_huddle_test tests the instruments the command line asks for: the folder is the last one named with -i or --inputdir (default ./raw/), -s or --serialnumbers gives the serial numbers separated by commas (default: all that have a GPS log), -x or --exclude_serialnumbers those left out, options may come in any order, the last of several wins, and -h or --help prints the help text without testing anything.", "quantifier": "all command lines, all folders with GPS logs", "why_tests_cant": "Tests call the function, not the command; command lines form an infinite set of orders, repetitions and spellings of options.", "anchors": ["gemlog/huddle_test.py:main", "gemlog/huddle_test.py:print_call", "gemlog/huddle_test.py:verify_huddle_test"]}
{"id": "C97", "title": "From the gemconvert command line to complete files", "statement": "Called with documented short options and a file length that is a whole number of seconds, on a folder of raw files, gemconvert starts a conversion per wanted instrument; for every instrument whose daily recordings have no defects and follow each other without gap, the output folder afterwards holds files which together have exactly one sample for each 10 ms from the first whole second to the end of the record, under names made of the start time, the serial number and the format, and no other file with its identifier has changed, whatever the order in which the processes work, whatever becomes of the other instruments and whatever was on the disk before.", "quantifier": "all command lines of documented short options (without -h, -t, -c), all folders and raw-file contents, all clean recordings of any length and number of days, all interleavings, all earlier contents of the disk with existing output folders", "why_tests_cant": "ranges over all command lines, recordings, schedules and disk states; it is the composition of parsing, reading, timing, interpolation, windowing, naming and parallel writing", "anchors": ["gemlog/gemconvert.py:main", "gemlog/gemconvert.py:convert_single_SN", "gemlog/core.py:convert", "gemlog/core.py:_write_hourlong_mseed", "gemlog/core.py:_make_filename_converted"]}
{"id": "C98", "title": "A merge of raw files can be interrupted, repeated, and touches only its output folder", "statement": "Merging raw files (gem_cat) into another folder may be interrupted at any byte it writes, by a crash, a full disk or the user. Running it again on whatever is then on the disk ends in the same way and leaves every file exactly as a run without interruption would have; running it again after success changes nothing. No run, finished or not, changes a file outside the output folder. It succeeds exactly if the raw files can be merged, and then the output folder holds exactly the merged files and otherwise what it held before.", "quantifier": "every set of raw files and folder contents, every pair of different folders, every interruption point (any action, any number of bytes of it)", "why_tests_cant": "there is an interruption point for every byte written, and each leaves a different folder for the next run to start from", "anchors": ["gemlog/gem_cat.py:gem_cat", "gemlog/gem_cat.py:AppendFile"]}
{"id": "C99", "title": "The gem_cat command does what its options say, and says what it did", "statement": "Whatever options are given to the gem_cat command, in any order, repeated, or joined to their values, it merges the files of the folder named last after -i (or raw) with the extension named last after -e into the folder named last after -o (or raw_merged). It reports success exactly if the merge succeeded, changes nothing for -h, wrong options, missing or empty folders, and its exit status tells a script whether the merge succeeded.", "quantifier": "every list of words typed, every disk content", "why_tests_cant": "option lists are unbounded and every combination of order, repetition and spelling counts", "anchors": ["gemlog/gem_cat.py:main", "gemlog/gem_cat.py:print_call"]}
{"id": "C100", "title": "A logger can be switched off and on again", "statement": "A logger that is switched off and on again starts counting anew, so every raw file may have its own clock and its own count. For such files without defects, reading reports no problem and returns every fix, every status line and every sample at the UTC time given by the clock of its own file; there is one trace per session of uninterrupted recording, made from the points of this session alone. Conversion, also by the gemconvert command, writes exactly the samples of these traces from the first whole second on, whatever the lengths of the pauses and even if days without files lie between. Its metadata file has every status line with its time, and its GPS file every fix, but those of the first block more than a second before the first whole second.", "quantifier": "every sequence of sessions and files, every clock offset, rate and origin of the count of each file, every division into blocks including empty ones, every interleaving of the conversions", "why_tests_cant": "the count of a restarted logger can stand in any relation to the last count of the file before, and only one of 8192 relations goes wrong", "anchors": ["gemlog/core.py:_read_several", "gemlog/core.py:_apply_segments", "gemlog/core.py:_find_breaks", "gemlog/core.py:_interp_time", "gemlog/core.py:convert"]}
{"id": "C101", "title": "A damaged file costs only its own data", "statement": "If some of the raw files of a folder are damaged (cut off before the first fix, empty, out of order, without a usable clock, or unreadable for any other reason), reading the folder gives the same stream, fixes, metadata and problems as reading it without them, and reports each damaged file; blocks of damaged files only are skipped. Conversion, also by the gemconvert command, writes exactly the samples of the sessions held by the other files. Its metadata and GPS files hold the status lines and fixes of the other files, as if the damaged files were not there.", "quantifier": "every folder, every set of damaged files at any position, every kind of damage that makes the reader refuse a file, every division into blocks, every interleaving of the conversions", "why_tests_cant": "damage can hit any file at any byte, and its effect on later files, on the table of clocks and on the choice of format and gain depends on its position", "anchors": ["gemlog/core.py:read_gem", "gemlog/core.py:_read_several", "gemlog/core.py:_apply_segments", "gemlog/core.py:_read_format_version", "gemlog/core.py:_read_config", "gemlog/core.py:convert"]}
{"id": "C102", "title": "Sensor positions are the same from an inventory, a stream or arrays", "statement": "get_coordinates returns one row for each sensor it is given, with its codes, its elevation and its position in km around the mean longitude and latitude, whether it is given a station inventory or a stream with coordinates; positions already in km are passed on unchanged; and waveform_calc_directions recovers plane waves crossing the positions of the inventory.", "quantifier": "all inventories (any number of networks, stations, locations, channels and epochs), all streams with longitude/latitude or x/y coordinates, all arrays, every projection, all tables of lags", "why_tests_cant": "A test fixes one array; the correspondence between sensors, rows and columns must hold for every order, number and naming of channels.", "anchors": ["gemlog/xcorr.py:get_coordinates", "gemlog/xcorr.py:invert_for_slowness", "gemlog/xcorr.py:calculate_direction_terminal"]}
{"id": "C103", "title": "Lost lines cost only their own samples", "statement": "If some lines of raw files are missing or replaced by text that is not data, read_gem and gemconvert still read everything else without reporting a problem: all remaining fixes, status lines and samples, each full line at its true time; abbreviated lines after a loss are early by the time lost until the next full line, and pressures miss only the changes on the lost lines; and if the remaining samples are nowhere more than 25 ms apart, gemconvert writes the whole record without gaps.", "quantifier": "all recordings of any length in any number of files, all choices of lost or replaced lines with brief losses (at most 800 ms between full lines), all folders, all schedules of conversions", "why_tests_cant": "The lines lost can be any; a test damages one file in one place, while the effect of a loss on all later times and pressures must be bounded for every place.", "anchors": ["gemlog/core.py:_slow__read_gem_one", "gemlog/core.py:_process_gemlog_data", "gemlog/core.py:read_gem", "gemlog/core.py:convert", "gemlog/gemconvert.py:main"]}
{"id": "C104", "title": "The huddle test's table of statistics describes the readings", "statement": "A huddle test that completes prints a table of statistics with one row for each logger, in order: the smallest and greatest battery voltage and temperature, the mean temperature, the parts of steps in which A2 and A3 keep their value, the part of rows in which the buffer is used beyond its soft limit, the greatest number of overruns, the mean GPS run time and the part of time the GPS was on; missing readings are left out.", "quantifier": "all sets of loggers and all metadata tables of any length", "why_tests_cant": "The only test runs one clean data set and does not look at the table; it must be right for readings and missing values at every place of tables of any length.", "anchors": ["gemlog/huddle_test.py:verify_huddle_test"]}
{"id": "C105", "title": "The huddle test completes, and shows the waveforms of all loggers for the same time", "statement": "The huddle test completes for all sets of loggers whose metadata, GPS and waveform files can be read and whose metadata can be tested. The figure of waveforms shows for every logger exactly the samples recorded in the time between ten minutes after the start and ten minutes before the end of the first logger.", "quantifier": "all sets of loggers, serial numbers, metadata and recordings of any length with any gaps; every spline used to fill gaps; every behaviour of the libraries for empty waveforms", "why_tests_cant": "Failure depends on the length and the gaps of the first recording, on serial numbers and on the overlap of recordings; tests use one data set.", "anchors": ["gemlog/huddle_test.py:verify_huddle_test", "gemlog/gemlog_aux.py:_interpolate_stream"]}
{"id": "C106", "title": "Recordings merged with gem_cat are read back completely", "statement": "Files without GPS fixes can be saved by merging them with gem_cat: if each group of files that gem_cat joins is, taken as a whole, a recording without defects, then merging succeeds, and read_gem on the folder written reports no problem and returns every sample of every original file, in order, at its true UTC time and with its recorded pressure, and the fixes and status rows from the first samples on. Likewise convert, and gemconvert in whatever order its processes work, on the folder written leave one sample for each 10 ms of the record.", "quantifier": "all sequences of raw files of any number and length, all distributions of fixes over the files, all clocks within 100 ppm, all listings of the folder written", "why_tests_cant": "The times of a file without fixes depend on the files it is merged with, and the pressures on the last pressure of the one before; tests merge two fixed files and do not read the result back.", "anchors": ["gemlog/gem_cat.py:gem_cat", "gemlog/gem_cat.py:AppendFile", "gemlog/core.py:read_gem", "gemlog/core.py:convert", "gemlog/gemconvert.py:main"]}
{"id": "C107", "title": "From the conversion to complete day files", "statement": "The data of several instruments are converted into files whose length divides a day, the files are given their codes with rename_files and joined with merge_files_day. Then both functions come to their end, no file is overwritten, and for every instrument of the station table and every day with a sample of it there is one file of this day and channel. It holds exactly the samples of that day which the conversion wrote, at their times, and the last sample before where samples are missing. No other files are written.", "quantifier": "all numbers of instruments, all conversions from the beginning with gaps of at least a second, all file lengths that divide a day, all station tables with different codes, all orders in which the folders are listed", "why_tests_cant": "Nothing is lost only if no name occurs twice in three steps, if no pattern of one channel matches the files of another, and if no file crosses midnight; tests run single steps on a few files of one day.", "anchors": ["gemlog/core.py:convert", "gemlog/gem_network.py:rename_files", "gemlog/gem_network.py:merge_files_day"]}
{"id": "C108", "title": "Limits given as seconds, and the time adjustment, take effect", "statement": "The parameters t1 and t2 of convert may be given as instants or as numbers of seconds since 1970, as documented, and both ways write the same samples. A time adjustment of a seconds moves the times of all the samples written by a seconds.", "quantifier": "all limits in either form, all adjustments, all recordings, block sizes and file lengths", "why_tests_cant": "The tests give the limits as instants or not at all and never an adjustment. What a number does depends on where it falls within the data and its windows, for every window of the loop.", "anchors": ["gemlog/core.py:convert", "gemlog/core.py:_write_hourlong_mseed"]}
{"id": "C109", "title": "A gap in one channel costs only the windows it lies in", "statement": "xcorr_all (and the command waveform_calc_lags) analyses all windows of all days of the data chosen by t1, t2 and IDs: the table returned holds, day after day and window after window, exactly the results of the analysis of the samples that the files have in that window. A sample missing from one channel costs at most the windows it lies in; a message about a skipped day names that day.", "quantifier": "every set of converted files, every choice of channels and times, every window length, overlap, preprocessing and analysis, every position of a missing sample", "why_tests_cant": "The tests run xcorr_all on one complete data set. Whether a missing sample costs one window, a day, or everything depends on where it lies among arbitrary files and days.", "anchors": ["gemlog/xcorr.py:xcorr_all", "gemlog/xcorr.py:loop_through_days", "gemlog/xcorr.py:xcorr_one_day", "gemlog/xcorr.py:xcorr_all_terminal"]}
{"id": "C110", "title": "The huddle test checks the GPS and the waveforms", "statement": "verify_huddle_test reports a logger whose GPS data are not collected frequently or do not show a consistent location, loggers whose GPS data show different places, a GPS that runs for too long, and waveforms that are clipped or otherwise problematic, as its documentation says.", "quantifier": "every set of loggers, all metadata, GPS and waveform files", "why_tests_cant": "The test runs the huddle test on one good data set and checks only that it ends. That a fault is reported must hold for every position, every number of fixes and every course of the GPS flag.", "anchors": ["gemlog/huddle_test.py:verify_huddle_test"]}
{"id": "C111", "title": "Year and day of year in the GPS table denote the time of the fix", "statement": "In the table of GPS fixes that read_gem returns and that conversion writes, every fix of the files read is listed once, in order, with its time and position unchanged; the year is that of the fix, the date is the number of its day in the year plus the part of the day that has passed, the time is recovered from year and date, and ordering rows by year and date is ordering them by time.", "quantifier": "every raw file, format and reader, every list of fixes, all calendar fields including leap days and year ends", "why_tests_cant": "Tests check times of one demo recording from one month. Day numbers depend on the month and on leap years and must be right for every instant.", "anchors": ["gemlog/core.py:_reformat_GPS", "gemlog/core.py:_make_gps_time", "gemlog/gem_network.py:read_gps"]}
{"id": "C112", "title": "The report of the huddle test holds its results", "statement": "A huddle test that completes writes a report whose table of results and table of statistics have one line for each logger, beginning with its serial number; each result and each statistic (with three decimals) is in the line of its logger and under the name of its column; and every error, warning and note, of single loggers and of their comparison, is listed once, and nothing else.", "quantifier": "every set of loggers and all their metadata, GPS and waveform files", "why_tests_cant": "The test only checks that the function ends; no test looks into the report. That no result is printed in the wrong line or column must hold for every number of loggers and every outcome.", "anchors": ["gemlog/huddle_test.py:verify_huddle_test", "gemlog/huddle_test.py:PDF"]}
{"id": "C113", "title": "The figures of the huddle test show the readings", "statement": "The curves of battery voltage, temperature, A2 and A3 drawn by verify_huddle_test, to which its messages refer for details, show the readings of each logger at their times, and the histogram of GPS run times counts every run of the GPS, long ones above the label '>180'.", "quantifier": "every metadata table of a logger, with any missing values and any pattern of GPS flags", "why_tests_cant": "A figure is looked at for one huddle test at a time; which readings cannot appear in it, whatever they are, is a statement about all tables.", "anchors": ["gemlog/huddle_test.py:verify_huddle_test"]}
{"id": "C114", "title": "The log file of gemconvert tells what became of each conversion", "statement": "gemconvert_logfile.txt tells, for each serial number given to gemconvert, whether its conversion failed, was interrupted or had non-fatal problems and which, with an explanation of memory errors; 'Completed' is logged for conversions that were carried out. The terminal says '<SN> done' exactly for the conversions that ended.", "quantifier": "every list of serial numbers, every outcome of each conversion, every number of processes and order of their log entries, every error message", "why_tests_cant": "Which entries can be attributed depends on how the processes interleave; the order of entries of parallel processes is not the same in two runs.", "anchors": ["gemlog/gemconvert.py:convert_single_SN", "gemlog/gemconvert.py:parse_error"]}
{"id": "C115", "title": "Diagnostic figures show the data of the stations they name", "statement": "plot_amp shows the amplitudes of every station of a database, labelled with that station, and prints its quartile; plot_lags shows the lags and correlation coefficients of all stations in the windows whose lags are consistent.", "quantifier": "every database, order of rows and stations; all results of check_lags, of any numbers of stations and windows", "why_tests_cant": "Figures are not tested; whether a label belongs to its line depends on the order in which stations occur in the database.", "anchors": ["gemlog/gemlog_aux.py:plot_amp", "gemlog/gemlog_aux.py:plot_lags"]}
{"id": "C116", "title": "Converted files carry the factor from counts to the unit asked for", "statement": "convert stores with every segment the factor from counts to the unit asked for: the one given by the user, or the one for the instrument, the gain it was recorded with and the unit; a program that reads the converted files gets this factor.", "quantifier": "every folder of raw files, serial number, choice of files, times and block length, every unit and factor given, every history of gain settings", "why_tests_cant": "The factor is chosen once, from the first file of the first block that has data; whether it is right depends on the gain of all later files and blocks.", "anchors": ["gemlog/core.py:convert", "gemlog/core.py:_write_hourlong_mseed", "gemlog/core.py:get_bitweight_info"]}
{"id": "C117", "title": "The plot of clock drift shows the clocks used for the conversion", "statement": "The plot of the clock drift of several raw files has a point for every sample of the files that can be read and one for every fix: at the difference between its time, according to the clock with which it is converted, and the nominal time since the first fix. The lower half shows the same without the straight line from the first to the last fix; for a clock with a constant rate it is level.", "quantifier": "every list of raw files, readable or not, and every series of samples and fixes in them", "why_tests_cant": "No test calls the function. Whether points are missing depends on where the first and the last fix of all files lie between the samples.", "anchors": ["gemlog/core.py:_plot_drift_several", "gemlog/core.py:_apply_segments", "gemlog/core.py:_no_drift"]}
{"id": "C118", "title": "The slowness is the best fit to the lags", "statement": "For an array whose sensors are not on one line, the slowness vector found for a window is the one for which the lags of a plane wave differ least, in the sense of the sum of squares, from the measured lags of neighbouring sensors; no other vector is as good; in a window with a missing lag it is missing. It depends on the distances between the sensors, not on the place of the array, and not on which sensor comes first.", "quantifier": "all numbers and positions of sensors that are not on one line, all numbers of windows, all lags, missing ones included", "why_tests_cant": "A test compares the result for one array and one set of lags with a known wave; that no other vector fits better is a statement about all vectors, and lags that are not those of a plane wave have no known answer.", "anchors": ["gemlog/xcorr.py:invert_for_slowness"]}
{"id": "C119", "title": "The lags depend on the wave forms only", "statement": "The lag reported between two channels is the same whatever the gains (positive factors) and offsets of the channels are; when the two channels are exchanged it changes its sign; and a channel with its polarity reversed gives the same lag.", "quantifier": "all pairs of traces of one length, all positive factors and offsets, all largest shifts", "why_tests_cant": "The place of the maximum is determined by all samples of both traces; tests try a few wave forms.", "anchors": ["gemlog/xcorr.py:xcorr_function"]}
{"id": "C120", "title": "From the raw files to the position in the inventory", "statement": "If the fixes in the raw files of an instrument lie in a rectangle, then after the conversion the summary of the GPS folder and the inventory made from it have the instrument (under its codes if a station table is given), at a position inside the rectangle, at the times of its fixes; if the rectangle is smaller than the tolerance for outliers (5e-5 degrees) all fixes count. Conversions of other instruments, and earlier conversions of the same one, into the same folder make no difference.", "quantifier": "all recordings without defects (any number of files, samples, fixes, positions), all rectangles, all histories of conversions into the same GPS folder", "why_tests_cant": "The position passes through the parser, the clock regression, the conversion loop, the choice of the newest log, outlier removal and averaging; tests follow it for one recording.", "anchors": ["gemlog/core.py:convert", "gemlog/gem_network.py:summarize_gps", "gemlog/gem_network.py:read_gps", "gemlog/gem_network.py:make_gem_inventory"]}
{"id": "C121", "title": "From the converted files to the directions of the waves", "statement": "If the converted files of an array whose sensors are not on one line show a plane wave in each window, over any number of days, the table of the cross-correlation has a row for each window of each day, with its middle, and the inversion of the table gives in each row the slowness vector of the wave of that window. A sensor that has no data at first costs only the windows in which it is missing.", "quantifier": "all sets of converted files (any number of files, traces, sensors, days), all window lengths and overlaps, all waves with arrivals on samples and within a second of each other, all sensor positions not on one line", "why_tests_cant": "The columns of the table are put together from the windows, then from the days, and found again by their names and order; tests use one stream with all sensors.", "anchors": ["gemlog/xcorr.py:xcorr_all", "gemlog/xcorr.py:loop_through_days", "gemlog/xcorr.py:xcorr_one_day", "gemlog/xcorr.py:xcorr_function", "gemlog/xcorr.py:apply_function_windows", "gemlog/xcorr.py:invert_for_slowness"]}
{"id": "C122", "title": "From the status lines of the raw files to the results of the huddle test", "statement": "Convert the raw files of a logger, recorded without defects, and test the converted metadata with those of any other loggers. Each result of the huddle test for the logger says error, warning or note exactly if the status lines of the raw files, all of them, in order and at their true times, call for it. A line written before the first sample of its file or after the last has no time.", "quantifier": "all recordings without defects (any number of files, blocks, status lines, any clock within its tolerance), all other loggers, both modes of the test", "why_tests_cant": "A reading passes through the reader, the drift correction, the loop over blocks, a CSV file and its columns before it is tested; tests check each step on one file, not that no line is lost, moved to another column or given a wrong time in any recording.", "anchors": ["gemlog/core.py:convert", "gemlog/core.py:_process_gemlog_data", "gemlog/core.py:_assign_times", "gemlog/core.py:_apply_segments", "gemlog/huddle_test.py:verify_huddle_test"]}
{"id": "C123", "title": "Converting the files of two visits separately", "statement": "Convert the raw files of two visits in one call, or those of each visit in a call of its own: the same samples are written. In fact everything that the two calls write is written by the one call, in the same order, but all samples of the second visit before its first whole second are written by the one call only.", "quantifier": "all conversions in which unreadable blocks are skipped and the samples are in order, all divisions of the record into two parts that each reach a whole second, all file lengths and block sizes", "why_tests_cant": "The loss depends on where the second visit begins within a second and on how the blocks are joined; a test would compare one division of one record.", "anchors": ["gemlog/core.py:convert", "gemlog/core.py:_convert_one_file", "gemlog/core.py:_merge_gaps"]}
{"id": "C124", "title": "The length of the output files decides only how the samples are divided", "statement": "Convert the same raw files with two different lengths of the output files: the same samples are written, in the same order. This holds without given limits. With a given start the recorded samples are the same, but samples that are filled into short gaps may differ, and with a given end one conversion may succeed and the other fail.", "quantifier": "all conversions in which unreadable blocks are skipped and the samples are in order, all pairs of file lengths that are multiples of 10 ms, all starts", "why_tests_cant": "The loop alternates reading, filling gaps and writing, and the file length decides what is left over for the next round; a test compares two lengths on one record.", "anchors": ["gemlog/core.py:convert", "gemlog/core.py:_write_hourlong_mseed", "gemlog/core.py:_merge_gaps"]}
{"id": "C125", "title": "What else is in the raw folder, and when, has no effect", "statement": "The conversion of an instrument depends only on the raw files of that instrument: other files in the folder, the order in which the operating system lists it, files of other instruments that come or go during the conversion, and files of the instrument with new numbers that arrive after the conversion has started have no effect on what is read and written. If the folder has no file to convert, the conversion fails before anything is written, whatever else is there.", "quantifier": "all folders, all pairs of folder contents with the same files of the instrument, all changes of the folder during the conversion that leave the files looked for alone", "why_tests_cant": "The folder is listed again for every block of files, so the number of moments at which it can change grows with the record; tests use one fixed folder.", "anchors": ["gemlog/core.py:convert", "gemlog/core.py:_find_nonmissing_files", "gemlog/core.py:read_gem"]}
{"id": "C126", "title": "Converting again when more files have been recorded", "statement": "Convert the raw files recorded so far, and later, when the logger has recorded more, convert all of them into the same folder with the same file length. Then every converted file of the first conversion but the last is written again with the same samples, the last one is written again with the same samples and possibly more after them, no file of the first conversion is left over, and the folder is the same as if only the second conversion had taken place.", "quantifier": "all records in order, all longer records that begin with them, all file lengths on the sample grid, all block sizes, all contents of the output folder", "why_tests_cant": "It relates two conversions for every record, every way of going on with it and every place where a file ends; that no file of the first conversion survives under a name that the second one does not write depends on where the segments are cut.", "anchors": ["gemlog/core.py:convert", "gemlog/core.py:_write_hourlong_mseed", "gemlog/core.py:_make_filename_converted", "gemlog/core.py:_merge_gaps"]}
{"id": "C127", "title": "The size of the blocks and the length of the output files have no effect on the record", "statement": "Convert one folder twice with different block sizes (blockdays), different lengths of the output files and different ends after all data. If every block holds whole sessions both times, the two conversions write the same samples with the same values. If the blocks part a recording without gaps, the two conversions write samples at the same times, except that one of them may have one more sample at the end.", "quantifier": "all folders of sound sessions, all recordings without defects, all block sizes, all file lengths that are whole numbers of samples, all places where the blocks part a recording, all splines", "why_tests_cant": "It relates two conversions of every folder for every pair of block sizes; where the blocks part the recording decides which fixes set the clock, where the resampling starts and which samples are filled in.", "anchors": ["gemlog/core.py:convert", "gemlog/core.py:read_gem", "gemlog/core.py:_interp_time", "gemlog/core.py:_merge_gaps"]}
{"id": "C128", "title": "From the raw files to the report of gaps", "statement": "A logger records, and is switched off and on any number of times. Its raw files are converted with a file length of whole seconds, and check_discontinuity is called on the converted files. If each pause was at most 10 ms or at least a second, check_discontinuity prints nothing when there was no pause of a second or more, and otherwise exactly one line per uninterrupted part of the recording, in order of time: the first line starts at the first whole second of the recording, each other line within 5 ms of the start of its part, and each line ends 5 to 25 ms before its part does. The boundaries between converted files and between raw files are not reported. The same holds for the files written by the gemconvert command, however its conversions interleave, and if some raw files are damaged: then the report shows the sessions of the others.", "quantifier": "all sets of raw files with any number of sessions and any grouping by pauses, all block sizes, all file lengths in whole seconds, all earlier contents of the output folder, all orders and repetitions of the listed files", "why_tests_cant": "whether the boundary between two converted files shows up as a gap depends on where block ends, file ends and restarts fall relative to each other; a test fixes one such arrangement", "anchors": ["gemlog/gemlog_aux.py:check_discontinuity", "gemlog/core.py:convert", "gemlog/core.py:read_gem", "gemlog/core.py:_merge_gaps", "gemlog/core.py:_write_hourlong_mseed"]}
{"id": "C129", "title": "A later start only leaves out what is before it", "statement": "Convert the same raw files twice, with two starts: the conversion with the later start writes exactly those samples of the other one that are not before the later start, in the same order. A conversion without a given start is the same as one that starts at the first whole second of the record. Both hold for recorded samples; samples that are filled into short gaps may differ.", "quantifier": "all conversions in which unreadable blocks are skipped and the samples are in order, all pairs of starts that are reached by the record, all block sizes, all file lengths that are multiples of 10 ms", "why_tests_cant": "The start decides in which round of the loop each block is read, merged and written; a test compares two starts on one record, and the violation needs a short gap at the right place.", "anchors": ["gemlog/core.py:convert", "gemlog/core.py:_write_hourlong_mseed", "gemlog/core.py:_merge_gaps"]}
