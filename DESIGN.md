# Formal model of gemlog in Lean 4

## 1. Trusted base

* Lean 4.33.0's kernel. Every theorem is checked by it; no `sorry`, `admit`, `native_decide`, `bv_decide`, or axioms of our own. The
  theorems depend on at most `propext`, `Classical.choice` and `Quot.sound` (section 6).
* The transcription of the Python/Cython text into the model (`lean/Verif/Model/*.lean`, `lean/Verif/Py/*.lean`). Each definition cites
  file and lines in `/repo`, and says where it simplifies.
* The reading of the libraries gemlog calls (obspy, numpy, pandas, scipy, libc, the file system). What is assumed about them is listed in
  section 3.

## 2. Layout

| directory | content |
|---|---|
| `lean/Verif/Py/` | Python/C primitives used by several models (modulo, string formatting, number scanning, calendar) |
| `lean/Verif/Model/` | the model, one file per group of functions of `/repo` |
| `lean/Verif/Spec/` | small specifications, written without reference to the model |
| `lean/Verif/Lemmas/` | auxiliary lemmas |
| `lean/Verif/Props/` | the property theorems, each with a concrete instance beside it |
| `seeded/LOG.jsonl` | wrong programs tried, and which theorems noticed |
| `tools/` | scripts: manifest, name clashes, mutation runs |

Theorem names start with the property id (`C07_...`). A theorem proving only part of a property ends in `_partial`; a theorem showing that
the code violates a property contains `_violated`. A property with either kind is listed as `partial` in the manifest: for most of these the
full statement is false of the code, the `_violated` theorem shows how, and the `_partial` theorem is what remains true (where possible as an
exact condition).

## 3. Abstractions

* **Numbers.** C `double` / numpy `float64` are modelled as exact rationals (`Rat`), C `int` and Python `int` as `Int`. Rounding errors and
  overflow of floating point are not modelled. NaN is modelled (as `none`) where the code tests for it. Only the direction of arrival (C52)
  and the noise spectra (C93) use real numbers.
* **Text** is a list of character codes (`List Nat`); `bytes "..."` gives that of a literal.
* **Time.** `obspy.UTCDateTime` is an integer number of microseconds since 1970 in the writing part of `convert` and in the day loop; in
  `_interp_time` times are rationals. `blockdays` may be any positive rational; the length of a block in time is rounded up to a microsecond.
* **Streams.** An `obspy.Trace` is a start time and a list of samples at 100 Hz; `Stream.slice/trim/split/merge` are modelled after the obspy
  source (nearest-sample rules included), see `Model/Stream.lean`.
* **Files.** A directory is a list of named contents; `glob` returns the matching names; writing replaces the content of a name.
* **Exceptions** are values (`Except`), with one constructor per exception class that the code distinguishes.
* **Least squares.** `polyfit` is a parameter: the theorems hold for every fitter (or every fitter that reproduces polynomials, where stated).
* **Splines.** scipy's spline is a parameter: the theorems hold for every one.
* **Responses and noise.** obspy's `remove_response` divides each frequency by the product of the stages (phase, taper and water level are left out). A
  `CubicSpline` with `extrapolate=False` is NaN exactly outside its points; `quad` is NaN if the function is NaN at an outermost place of its first rule.
* **pandas.** `read_csv` as used by the fallback readers and the readers of formats 0.8 and 0.85 is modelled for ASCII text without quotes (`Model/OldReader`: skipped lines, blank lines, lines with too many fields, missing values, numbers, columns with text); in theorems about other functions the outcome of these readers is a parameter.
* **Concurrency.** The process pool of `gemconvert` is modelled as an arbitrary interleaving of the disk actions of the conversions.
* **Printing, plotting, logging** have no effect on the model.

### Modelled

| /repo | model |
|---|---|
| `parsers.pyx` (all) | `Model/Parser`, `Py/Scan` |
| `core.py` `convert`, `_write_hourlong_mseed` (main path: mseed) | `Model/Convert`, `Model/Stream` |
| `core.py` `convert`: rows of the metadata and GPS files, returned problems | `Model/Tables` |
| `gem_network.py` `rename_files`, `_fix_file_name_digits` | `Model/Rename` |
| `gem_network.py` `merge_files_day` (obspy reading and merging as assumptions) | `Model/MergeDays` |
| `core.py` `_make_filename`, `_make_filename_converted` | `Model/Names` |
| `core.py` `read_gem`, `_merge_gaps`, `_find_nonmissing_files`, `_read_format_version` | `Model/ReadGem`, `Model/Stream`, `Model/Select`, `Model/GemCat` |
| `core.py` readers, `_process_gemlog_data`, `_gps_in_bounds`, `_make_gps_time`, `_unwrap_millis` | `Model/Readers`, `Model/Process`, `Model/Millis` |
| `core.py` `_read_single`, `_read_several` | `Model/ReadSingle` |
| `core.py` `_calculate_drift`, `_detect_step`, `_robust_regress` | `Model/Drift` |
| `core.py` `_apply_segments`, `_assign_times`, `_interp_time`, `_find_breaks` | `Model/Segments`, `Model/Interp`, `Model/Breaks` |
| `core.py` specifications | `Model/Specs` |
| `gemlog_aux.py` transcoding 0.91 to 1.10 | `Model/Transcode` |
| `gem_cat.py` (16-162: what the merged files contain) | `Model/GemCat` |
| `gemconvert.py` (all) | `Model/Cli`, `Model/Batch` |
| `gem_network.py` `summarize_gps`, `read_gps`, `_remove_outliers`, station tables, `make_gem_inventory` | `Model/Network`, `Model/Outliers`, `Model/Inventory` |
| `xcorr.py` `apply_function_windows`, `loop_through_days`, `invert_for_slowness` | `Model/Windows`, `Model/Days`, `Model/Slowness` |
| `xcorr.py` `xcorr_function`, `_check_input_IDs`, `_validate_inputs`, `upsample_stream`, options of `xcorr_one_day` | `Model/Xcorr` |
| reading a directory from its contents, put together | `Model/Whole` |
| `core.py` `write_wav` | `Model/Wav` |
| `core.py` `_read_SN`, `_read_config` | `Model/Header` |
| `huddle_test.py` `verify_huddle_test`, `unique`, `_metadata_status` (not figures, waveforms, cross-correlation, PDF) | `Model/Huddle` |
| `gemlog_aux.py` `_convert_raw_091_095` | `Model/Transcode95` |
| `core._convert_one_file`, `gemconvert_single.main` | `Model/Single.lean` |
| `gemlog_aux.make_db`, `calc_channel_stats`, `check_lags`; judgement of lags in `huddle_test` | `Model/Database.lean` |
| core.py `_read_0_8_pd`, `_read_with_pandas` | `Model/OldReader` |
| gem_network.py `deconvolve_gem_response`, `get_gem_response` | `Model/Response.lean` |
| gemlog_aux.py `gem_noise`, `ims_noise`, `_noise_spectrum_helper` | `Model/Noise.lean` |
| xcorr.py `xcorr_all_terminal`, `calculate_direction_terminal` | `Model/Terminals.lean` |
| gem_network.py `summarize_gps_terminal` | `Model/MakeInventory.lean` |
| huddle_test.py `main` | `Model/HuddleCli.lean` |
| gemlog/huddle_test.py `verify_huddle_test` 286-561: statistics, waveforms, files | `Model/HuddleFull` |
| `convert` with limits given as numbers | `Model/Moments.lean` |
| `xcorr_all` from files to table | `Model/XcorrAll.lean` |
| GPS file of a conversion read back as GPS log | `Model/GpsLog.lean` |
| huddle_test.py:288: the metadata file of a conversion read back | Model/MetaLog.lean |
| core.py 1210-1231: `_no_drift`, `_plot_drift_several` (the points drawn) | Model/DriftPlot |
| core.py 205-212, 346, 353: the factor `calib` of each segment, and what the formats keep of it (assumed of obspy: miniSEED keeps no factor, SAC does) | Model/Calib |
| gemconvert.py convert_single_SN log entries, parse_error (24-48, 64-71) | Model/GemconvertLog |
| gemlog_aux.py plot_amp, plot_lags data (8-17, 71-100) | Model/Plots |
| huddle_test.py figures: data of the curves and of the GPS histogram (356-381, 436-449, 497-511) | Model/HuddleFigures |
| huddle_test.py:PDF 78-144 and verify_huddle_test 773-852 (text only) | Model/HuddleReport |
| core.py:_reformat_GPS 1410-1418 | Model/GpsRows |
| xcorr.py `get_coordinates` | Model/Coordinates |
| gem_cat.py:16-162 acting on files (16-105 loop, 112-162 AppendFile), gem_cat.py:170-212 (command line) | Model/GemCatRun.lean |
| gemconvert.py:24-48 convert_single_SN, core.py:127, 221-222, 492-493 | Model/Command.lean |
| core.py:961-1030 `_slow__read_single_v0_9` | Model/Reference |
| check_discontinuity and _interpolate_stream (gemlog_aux.py) | Model/Gaps |

### Not modelled

Drawing (of figures only the data drawn are modelled), filters, the interior of obspy, pandas, numpy and scipy, encodings of the output formats
(mseed, sac, wav headers), phases of instrument responses, the deprecated R code.

## 4. Plan per property

| id | what is modelled | how it is proved |
|---|---|---|
| C01-C04 | `parse_gemfile` at byte level: `fgets` chunks, persistent line buffer, `sscanf` number scanner, persistent placeholders | induction over chunks; spec is a filter on lines; the stale-placeholder behaviour is exhibited for C04 |
| C05 | `_convert_raw_091_110` and the parser | simulation induction over lines |
| C06 | `_read_with_cython` retry | case split on row count, parser with a bound = unbounded parser when it fits |
| C07-C09 | `_unwrap_millis`, unwrapping in `_process_gemlog_data` and in the reference reader | modular arithmetic, induction over rows |
| C10-C12 | `_process_gemlog_data`, `_gps_in_bounds`, `_make_gps_time`, calendar | induction; calendar by days-from-civil and its inverse |
| C13-C14 | version dispatch, `_read_single` | case analysis; violated for `0.91` |
| C15-C18 | `_read_several` as a fold with exceptions as values | induction over the file list |
| C19-C23 | `_calculate_drift`, `_detect_step`, `_robust_regress` | well-founded recursion, case analysis |
| C24-C25 | `_apply_segments`, header table | induction over segments |
| C26-C28 | `_interp_time` | list reasoning over rationals |
| C29-C33, C53 | writing loops of `convert`, `_write_hourlong_mseed`, obspy slicing/trimming | invariants, well-founded recursion |
| C34 | block loop of `convert` | induction |
| C35-C37 | file names, write sequences; for C37 also whole batches killed at any moment | calendar and decimal-printing injectivity; fold lemmas; two disks that agree except on what will be written again |
| C38, C54 | `_merge_gaps` | induction |
| C39-C40 | validation and selection in `convert`, `read_gem`, `_find_nonmissing_files` | case analysis, list reasoning |
| C41-C42 | `get_gem_specs`, `get_bitweight_info` | arithmetic, table reasoning over all integers |
| C43-C45, C57-C58 | `gem_cat`, `AppendFile` | induction over the file list, with the parser of C01 |
| C46 | `gemconvert`'s process pool | interleaving semantics, invariant over schedules |
| C47, C59 | `gemconvert` command line, `getopt`, codes | induction over the argument list |
| C48-C49, C61 | `_remove_outliers`, `read_gps`, `summarize_gps` | Chebyshev inequality, string order, induction over histories |
| C50-C51 | `apply_function_windows` | rational arithmetic, induction over windows |
| C52 | `invert_for_slowness` | 2x2 linear algebra over the rationals, `Complex.arg` |
| C55-C56 | `_find_breaks`, `read_gem` | exact characterisation of the failing case |
| C60 | `loop_through_days` | invariant over days |
| C62-C63 | `make_gem_inventory`, `_get_station_info` | induction over the tables |
| C64 | header rows of `_calculate_drift`, `_read_several` | case analysis |
| C65 | all readers, drift, times and resampling together, from the contents of the files | simulation: each line of the recording gives its row; composition of C03, C08, C10, C11, C22, C24, C27 |
| C66 | `convert` from the contents of the files to the written samples | composition of C65 and C29; induction over the blocks for the order and the joints |
| C67 | `convert` with its metadata file, GPS file and list of problems | the loops with tables are a refinement of the loops without: induction over the fuel; composition with C29, C65, C66 |
| C68 | `rename_files`, `_fix_file_name_digits`, `str.replace`, `str.format` | induction over the pieces of the pattern and over the files; injectivity of names from fixed widths and separators |
| C69 | `merge_files_day`, `str.split`, `str.join`, wildcards | induction over the days and codes; a wildcard matches a name exactly if day and codes agree (counting dots) |
| C70 | `Stream.sort`, `Stream.merge(method=1, fill_value='latest')` | induction over the traces in the order of time, with the record in which every sample is repeated until the next as specification |
| C71 | `_check_input_IDs`, `loop_through_days`; `re.search` is a parameter | case analysis over the lists; samples by the counting theorem of C60 |
| C72 | `xcorr_function`, obspy's `correlate` and `xcorr_max`; detrending and tapering are parameters | strict Cauchy-Schwarz for records of finite length (energy of a shifted record, and a record that equals its shift is zero); composed with C51 and C52 |
| C73 | `upsample_stream`; the spline is a parameter | arithmetic of `np.arange` |
| C74 | `_validate_inputs`, `xcorr_one_day` (options), with NaN and values that cannot be compared | case analysis |
| C75 | `write_wav`, and its use for the segments of a conversion; the bytes of the file are scipy's | algebra of mean and maximum over lists of any length |
| C76 | `_read_SN`, `_read_config` on contents; pandas' table reader for one or two columns | induction over the lines of the header; combined with C65 for whole recordings |
| C77 | `verify_huddle_test`, the tests of single loggers, on metadata tables; figures and the PDF report are not modelled | minimum and maximum over columns of any length; induction over loggers |
| C78 | `verify_huddle_test`, start and stop times | minimum and maximum over all loggers; NaN propagation |
| C79 | `verify_huddle_test`, temperatures: exact for loggers with a row every `d` seconds for any `d` dividing 60, which may differ between loggers; the failures for intervals that do not divide 60, late starts and fast clocks, and the wrong times for slower rates, are proved | nearest rows, medians and rounding over tables of any size |
| C80 | `_convert_raw_091_110` followed by `_read_single`, `read_gem` and `convert`; the equality for single files, the refusal of the format `1.1` by `read_gem` and `convert`, and the equality for transcoded files behind an original (also for `convert`) are proved | equality of parsed rows (C05) carried through the readers; induction over blocks |
| C81 | `_convert_raw_091_095` on whole files; the loss of times modulo 4096 ms and the refusal by `read_gem` are proved | induction over lines; hexadecimal digits by induction on the value |
| C82 | `_convert_one_file` on top of the models of the readers, the clock and the interpolation | one header row covers all samples of a file, so segments and polynomial agree; composition with C80 for transcoded files; the reason given and the old formats: violated |
| C83 | `main` of gemconvert_single.py on top of the model of getopt | induction on the words typed; the documented long options, `-g`, the output directory and the exit status: violated |
| C84 | `make_db`; reading, filtering are parameters | induction on the sorted names; that only the first trace of a file counts, and that no readable file gives an exception: violated |
| C85 | `calc_channel_stats` with the behaviour of `pd.concat` | induction on the stations: always an exception (violated) |
| C86 | `check_lags`, the slices of obspy and the judgement in huddle_test.py; the correlation is a parameter | well-founded induction on the time left; pairing by place in the list, the filter without effect, the first window and windows without coherence: violated |
| C87 | check_discontinuity over the model of obspy's merge and split, per identifier | the merge of traces that agree is the union of their samples; splitting gives the maximal runs; a list of runs is determined by its samples. Violated: with two or more channels it always prints |
| C88 | _interpolate_stream with slices, merges and the loop over the gaps; the spline is a parameter | loop invariant: the stream is the runs followed by traces that hold recorded samples and the fillings of the gaps passed. Violated: two short gaps close together make it fail |
| C89 | the reference reader byte by byte: csv rows and fields, float texts, unwrapping line by line, tests, array capacities, final errors (Model/Reference) | an induction over the lines gives the state of the reference reader; the rows of the compiled parser for the same lines (C03) with the same times (C09) go through processing; both are compared entry by entry |
| C90 | `_read_0_8_pd` byte by byte: lines, fields, missing values, numbers, text columns, tests (Model/OldReader) | rows of the text line by line; the table goes through the shared last step of reading; the true clock is recovered by C08 |
| C91 | `_read_with_pandas` byte by byte (Model/OldReader), `_read_single` with its order of readers | both readers are run on the text; the parsed rows of the first come from C02/C03, those of the second from a line-by-line induction; both tables go through the shared last step |
| C92 | `get_gem_response`, `deconvolve_gem_response`; a stage is its gain and its magnitude at each frequency; removal divides by the product of the stages (Model/Response) | product over the stages; the counts of a logger are specified separately from the response (Spec/Response) |
| C93 | `gem_noise`, `ims_noise`, `_noise_spectrum_helper` over real numbers; the curve and the integral are parameters, their NaN are modelled (Model/Noise) | values at the points of the table; the three kinds by real analysis; the last frequency of the IMS table is compared with the outermost place of the integration rule |
| C94 | `xcorr_all_terminal`, `calculate_direction_terminal` after argparse, on a function from paths to contents (Model/Terminals) | cases of the run; texts joined by commas are split again by induction |
| C95 | `summarize_gps_terminal` after argparse, put together from `summarize_gps`, the station tables and `make_gem_inventory` (Model/MakeInventory) | the table is both station table and coordinates, so the first row with a combination of codes serves as both (by C62) |
| C96 | `main` of huddle_test.py with the model of `getopt` (Model/HuddleCli) | induction on the options typed; the documented long forms are shown to be refused, `--serialnumber` to be ignored |
| C97 | gemconvert's command line, convert_single_SN as a relation between arguments and actions on the disk (Model/Command.lean), the conversion and its naming | compose C59 (command line), C66 (record of a clean folder), C36 (different names) and C46 (any schedule) |
| C98 | the loop of gem_cat as a sequence of copies and appends on folders, each reading the disk at that time; an interruption keeps a prefix of the actions and of the bytes of the last | each output file is first written by a copy that replaces it, so what was there before does not matter (C98_interrupted, C98_again); refinement to the function that computes the merged files (C98_result); if the output folder is the input folder, raw files are lost (C98_violated_same_folder) |
| C99 | main of gem_cat.py with Python's getopt | induction over the words typed (C99_merges, C99_fails, C99_nothing, C99_usage); failures have exit status 0 (C99_violated_status), long options are never accepted (C99_violated_long) |
| C100 | the reader, alignment of a file to the end of the one before, piecewise clock model, resampling and conversion as before; the files of a recording now have independent clocks (Spec/Restarts.lean) | the reader returns the same file counted from another origin; the piecewise clock model then assigns each sample the time of its own file (C100_read_back), runs are the sessions (C100_sessions), and the conversion of blocks with any number of traces or none follows (C100_convert, C100_command); if a session begins at the very count at which the one before ended, the last sample before takes the time of the first sample after it, and the second session is dropped without a word (C100_violated_collision) |
| C101 | read_gem, _read_several and convert as before; damage is anything that makes the reader, the check of the sample times or the clock regression refuse the file (Spec/Damaged.lean) | the loop over all files and the loop over the sound files keep the same tables but for rows of zeros (C101_read_gem), which claim no count but zero; all-damaged blocks are skipped (C101_all_damaged); files cut off before the first fix are damaged (C101_no_fix, C101_cut_off); conversion then follows from C100 (C101_convert, C101_command). Exceptions: a status row at count zero gets the time 1970-01-01 (C101_violated_metadata), the gain is that of the first file even if refused (C101_violated_gain), and a first line with other text ends the whole conversion (C101_violated_version) |
| C102 | `getCoordinates` for streams, inventories and arrays, with the projection as a parameter; lookup of channels by identifier as in obspy. | Permutations: the sorted identifiers are lifted to a permutation of the channels. Combined with C52 and C94 for the command line. Violations: moved sensors, mixed coordinates, arrays without names. |
| C103 | `damagedText` (Spec/LostLines): the text of a recording of which lines are lost or replaced. `survivors`: what the remaining lines say. | A damaged recording has the same text as another clean recording (`spoil`), in which the samples come earlier by the time lost since the last full line; it is shown to satisfy the clean recording conditions, so C65, C66 and C97 apply. Violation: one lost line shifts the times and all later pressures. |
| C104 | `statsOf` (Model/HuddleFull): the row of the table for one logger. | Each entry against its definition in terms of the readings present (`StatsSay`), by lemmas on folds; `huddleRun` ties rows to loggers. Violations: a missing first reading, the capped "ratio". |
| C105 | `huddleRun` (Model/HuddleFull): the files of each logger, the loop with everything in it that can fail, the waveforms drawn. | Induction over the loggers: the loop completes exactly if every logger meets `LoggerFit`; interpolation by C88. Violations: short first recordings, serial numbers with letters. |
| C106 | `gemCatFiles` (Model/GemCat) followed by `readGem` (Model/ReadGem) from the contents (Model/Whole). | Induction over the appended files: the merged text is the text of the joined events with one step changed (`built_events`); cleanness and the true record do not change; then C65. `C106_convert` and `C106_command`: the folder's numbers are 0, 1, …, the blocks are consecutive pieces of the groups; then C66 and C97. |
| C107 | `convertLoops` (Model/Convert), `renameFiles` (Model/Rename), `mergeFilesDay` (Model/MergeDays), one after the other; the files of one are read by the next. | Names of the files determine second, day and codes; C30 (no file crosses a window), C36 (names differ), C68 (renaming), C69 (which files are joined) and C70 (what joining yields) are put together; any order of the folders by permutation. |
| C108 | `convertAt` (Model/Moments): the loops of Model/Convert again with times that are instants or plain numbers, for which slicing and trimming differ, and with the adjustment as a parameter. | With instants the loops are those of Model/Convert (`C108_instants`, by induction on the loops); a number before the data does no harm (`_partial`); a number within the data loses the rest of its window, by an invariant of the loop, and exactly this, by a relation between the runs with the number and with the instant (`C108_violated_start_exact`), and everything if the data end less than a file length later (`C108_violated_start_short`); with a number as end at most one window of the file length is written, and then there is an exception (`C108_violated_end`, `C108_violated_end_window`); the adjustment has no effect. |
| C109 | `Model/XcorrAll.lean`: `Stream.merge` with masked samples, the loop over the days with what is kept between days, `xcorr_one_day`, the list of results, `pd.concat`, and the text written. | Masked samples are exactly the missing ones, by induction over the days; then the table is the concatenation of the days' window tables (`C109_complete`). The property fails for gaps: one missing sample skips the day (`C109_violated_day`), or leaves no result at all and makes the command fail (`C109_violated_none`), and the messages name the first day (`C109_violated_message`). |
| C110 | `huddleRun` (Model/HuddleFull) with the rows of the GPS files. | A long run of the GPS between two rows with the GPS off is reported (`C110_long_run_partial`, from C77). The rest is violated: the result is the same for any two GPS files (`C110_violated_positions`, by induction over the loggers) and any two waveforms (`C110_violated_waveforms`), and a GPS that is always or never on passes (`C110_violated_always`). |
| C111 | `reformatGps` (Model/GpsRows) on the fixes of `processData`. | Dates are compared with an almanac (`C111_rows`), from C12's inversion of the calendar split; the time is recovered (`C111_time`), dates are in range (`C111_range`), and the orders agree (`C111_order`), by monotony of the days before a year. `C111_file` states this for every file that is read. |
| C112 | `huddleReport` (Model/HuddleReport): the text of the report for the outcome of `huddleRun`. | The lines of the tables (`C112_results`, with the cases of C77; `C112_statistics`, with the error of rounding) and the lists of messages (`C112_messages`), for all runs that complete. The headings are compared with the names of the tests, word by word from above. |
| C113 | Model/HuddleFigures: the points given to plot (every tenth of the rows with a time) and the counts of hist with the bins 10, 15, ..., 175 | Each point is the reading of row 10 i and within half a second of its time; each bar counts the runs in its range. Violated: rows that are not a multiple of ten do not influence the curve, and runs of more than 175 seconds are in no bar (the bars together count exactly the runs from 10 to 175 s). |
| C114 | Model/GemconvertLog: the log entries of one conversion as a function of its outcome, the explanation of errors with `str.find` | Entries of all processes in any interleaving (inductive relation): which serial numbers failed is determined; with one process the log is a prefix code, so everything is. Violated: with two processes problems cannot be attributed, failed conversions are also logged as completed, and no message that begins with 'Unable to allocate' is explained |
| C115 | Model/Plots: data, labels and printed values of both functions | The labels are the sorted stations, the lines are in order of appearance: they agree exactly if stations begin in alphabetical order (induction over the rows). Violated otherwise; and lags are shown for exactly three stations |
| C116 | Model/Calib: the conversion with the factor of each segment, and what is read back from each format | The header used is that of the first readable file of the first block with data, so the factor is right if all files have one gain. Violated: a later block with another gain gets the factor of the first (by C66); miniSEED does not keep the factor |
| C117 | Model/DriftPlot: the points of the four curves, on top of the model of `_read_several` and `_apply_segments` | Clock of a count from C24, samples and fixes from C15; algebra for the straight line. Violated: if the first or last fix is outside the samples of its file, or there is only one, the lower half is empty |
| C118 | `lagMisfit`: the sum of the squared differences between the lags and those of a plane wave (specification); `invertForSlowness` as in C52 | normal equations of the least-squares problem from the explicit inverse; positive definite because the sensors are not on one line; with three sensors the third lag is not used, so that the result depends on the order (`C118_violated_order`) |
| C119 | `correlate`, `maxShift` as in C72 | the maximum determines the shift; demeaning removes the offset, a positive factor does not move the maximum; the correlation of the exchanged traces is the reflected one; false for several equal maxima (`C119_violated_ties`) and for reversed polarity (`C119_violated_polarity`) |
| C120 | conversion with tables (C67), GPS folder after any history of conversions (C49), `summarizeGps` (C61), `inventoryTerminal` (C95); `gpsLogOf` reads the GPS file back | composition of `C67_clean`, `C49_history_partial`, `C48_safe`, `C61_summary_partial` and `C95_no_table`/`C95_every`; means and medians lie between the extremes |
| C121 | `loopResults` (C109) with `xcorrFunction` (C72), `invertForSlowness` (C52) on the joined table | composition of `loopResults_slices`, `applyWindows_rows`, `C72_pulse`, `joinTables_holds` and `C52_plane_wave`; the order of the joined columns by induction on `_unique`; violated if a sensor of three starts on the second day |
| C122 | `convertT` (C67), `metaLogOf` (the metadata file as read back), `verifyHuddle` (C77) | `C65_status_times`, `C67_status_times` (induction on the header rows and on the blocks), then the cases of `C77_results` rewritten in terms of the lines; an example with two files thirteen minutes apart |
| C123 | `convertLoops` (C29) for the three conversions | `C29_nothing_lost` three times, with `fillIn` of a concatenation; the samples before the first whole second give the violation |
| C124 | `convertLoops` (C29) for two file lengths | `C29_nothing_lost` and `C29_given_start` for both lengths; `C53_read_blocks_partial` and `C53_violated_window` for the violation at the end; a computed example for the filling |
| C125 | `convertDuring`: `convert` with the content of the folder at each listing given from outside; `findFiles`, `convertNums` | the files selected are those of C40, sorted by name without repetition, so equal sets give equal lists |
| C126 | two runs of `convertLoops` (Model/Convert.lean) and the writes of both into one folder (Model/Names.lean) | the segments written are determined by their samples and the file length (`segments_prefix`: neighbours are parted by a missing sample or the end of a window, and each lies in one window), and the samples of the first run are the first samples of the second (C29); a conversion reads nothing but its blocks (`convertLoops_onlyBlocks`) |
| C127 | two runs of `convertDir` (Model/ReadGem.lean) on one `RawDisk` | C100_convert and C66_convert for both runs: a session that does not start half way between two output samples determines its trace (`session_trace_unique`), the first written time is the first whole second of the first trace, and the last lies in an interval of 20 ms |
| C128 | The conversion of restarted loggers (C100), the names of the converted files (C36) and check_discontinuity (C87) | Within a group of sessions without pauses the filled record is consecutive, between groups it is not; the separate runs of a set of samples are unique, so they are those the report lists |
| C129 | `convertLoops` (C29) for two starts | `C29_given_start` for both starts; if nothing is to be filled in, its lower and upper bound coincide; computed examples for the samples filled in |

## 5. Findings (disagreements between code and property)

Each is a theorem about the model of the code as it is.

<!-- findings -->
* **C04** A damaged line never inherits values from another line.
  * `C04_violated_letter`: C04 is violated by every file cut off right after the letter of a GPS or status line: the letter is read as if it were a complete line with everything that stands in the line before behind its first two characters.
  * `C04_violated`: C04 is violated. A GPS line cut off after two fields takes date and position from the previous GPS line, so the same line yields different rows after different lines; likewise an unreadable D line repeats the previous sample.
  * `C04_violated_cut`: C04 is violated by every GPS line cut off after some of its fields: the fields that are missing are taken over from the GPS line before it (with any other lines between the two), so that the row mixes the new count with the old time and position.
  * `C04_violated_memory`: C04 is violated at the end of a file cut off right after the letter of a GPS line: the fields are taken from whatever the line buffer held, here the end of the previous line.
* **C11** GPS fixes are kept if and only if they are plausible.
  * `C11_violated_missing_position`: C11 is violated for every GPS row that lost its latitude, its longitude or both (possible when the text-table reader meets a line cut off after the time): comparisons with NaN are false, so if the rest of the row is plausible it counts as a valid fix.
  * `C11_violated_text`: C11 is violated: one GPS line with text in it costs all fixes of the file. If a GPS line of the table has text where a number should be, none of the fixes of the file is kept, no matter how many plausible ones there are: if GPS is required the file is given up as one without GPS, and otherwise it is read without fixes.
* **C13** Every supported raw format can be read through every entry point.
  * `C13_violated`: C13 is violated for the documented format 0.91: whatever the file, the single-file reader rejects it.
* **C18** Sample clocks increase across files.
  * `C18_violated`: C18 is violated for the formats with a 65536 ms counter: the correction by one roll-over adds 8192 ms whatever the format, so the second of these two files ends up before the end of the first.
  * `C18_violated_early`: C18 is violated if lines before the first sample go back by more than half a roll-over in all (as damaged lines may): the second of these two files ends up before the end of the first. (`C18_exact_partial` says how far they must go back.)
  * `C18_violated_counter`: C18 is violated by every file of the formats 0.8 and 0.85 whose counter starts at the wrong place. Let a record that ends at `e1` be continued with a file that is accepted, and whose first line is a sample with a count `d` ms behind `e1` (up to whole turns of the counter), where `d` is between 8200.93 and 32768. Then the file is moved on by 8192 ms only, as if its counter had 8192 ms per turn, its first sample is put `d - 8200.93` ms before the end of the record, and the sample times decrease.
* **C19** Files accepted with required GPS meet the timing quality bar.
  * `C19_violated`: C19 is violated when GPS time runs backwards over the file: eleven seconds of fixes, in reverse, are accepted for a file of 7168 s, because the ratio of the spans is negative. The fit is exact (a line through all fixes).
  * `C19_violated_backwards`: C19 is violated by every clock that runs backwards. If the fixes are on a line, at least ten of them at four different counts, and the last is earlier than the first (by more than a nanosecond), the file is accepted, although its fixes cover none of it, provided their counts span 0.000512 of the data (3.7 s of a file of two hours).
* **C20** Fixes that survive outlier removal still span at least half of the file.
  * `C20_violated`: C20 is violated: the nominal clock is the exact least-squares fit (the residuals are orthogonal to all cubics, before and after trimming), the five late fixes are dropped, and the file of 7168 s is accepted with fixes that span about nine seconds.
  * `C20_violated_fast`: C20 is violated by every clock that is a thousand times too fast. If the fixes are on a line with a slope of at least a second per count (it should be a millisecond), any file whose fixes span 0.000512 of its counts is accepted, and all its times are taken from that line.
* **C25** Rejected files do not assign times.
  * `C25_violated_zero`: C25 is violated at count zero. Whenever a file is rejected, a metadata row at count 0 gets the time 0 (1970) from the row of zeros, although no file contains this count.
  * `C25_violated_no_serial`: C25 is violated by every file that is rejected for lack of a serial number: no sample of it is used, but its clock stays in the header and times the counts in its range.
* **C26** No data are invented across gaps.
  * `C26_violated_ends`: C26 is violated by every gap in the first or in the last step of a record: whatever the length of the gap, if the spline can be constructed, samples are produced for every 10 ms of it (up to 15 ms before its end).
  * `C26_violated`: C26 is violated for a gap in the first step: whatever the spline, if it can be constructed from the record, a second without data is filled with samples.
* **C28** Resampling succeeds on every non-empty record.
  * `C28_violated`: C28 is violated: two samples 5 ms apart between two gaps end the resampling of the whole record with an internal error.
* **C31** Conversion terminates.
  * `C31_violated`: C31, violated. For every file length that is more than zero but less than half a sample longer than a multiple of 10 ms (for example one seventh of an hour, `10000 * 51428 + 5714` rounded down: any length `10000 c + r`, `0 < r < 5000`) there is a record of a single sample for which the conversion never ends: the last sample of the window is written again and again, because trimming moves the start of the next window back onto it.
* **C32** Requested time limits are respected.
  * `C32_violated_end`: C32, violated (end). A record of three hours, one sample each; hourly files; `t2` is in the first hour. The second sample of the first hour is written although it is after `t2` (and the conversion then raises).
  * `C32_violated_late`: C32 is violated by every record of one block that has a sample after the requested end `t2`, in the same window of the file length as `t2` and the requested start `t1`: that sample is written, and then the conversion fails.
* **C33** A conversion that has nothing (left) to write ends normally.
  * `C33_violated_start`: C33, violated (start), for every such record. If the requested start is more than 5 ms after the end of all the data (and not after `t2`) and there are blocks of files after the first one with data, the conversion does not end normally: it fails with an IndexError.
  * `C33_violated_end`: C33, violated (end), for every such record. If `t2` (on the sample grid) is not at the end of a file-length window, and there is a sample to be converted in the same window, not after `t2`, then the conversion does not end normally: it raises a ValueError.
  * `C33_violated_end_blocks`: C33, violated (end), for any number of blocks. `C33_violated_end` is about one block. Let `b` be the first block with data, whatever blocks follow, and let `t2` (on the sample grid) not be at the end of a file-length window. If `b` has a sample to be converted in the same window, not after `t2`, then the conversion fails with an exception.
* **C36** Output segments never overwrite each other.
  * `C36_violated`: C36, violated. A gap of 0.2 s within one second: the two segments of one conversion have the same name, and after the conversion the first segment's samples are in no file.
  * `C36_violated_length`: C36 violated: file lengths. The file length is not a whole number of seconds, and window `K` begins within a second. If the samples of that second begin before the window (a gap or the beginning of the conversion is in the same second, or another window begins in it), the sample with which they begin is in no file after the conversion: the part of the record before the window's beginning is replaced by the part after it.
  * `C36_violated_second`: C36 is violated by every two segments that start in the same second. Whatever else a conversion writes, in whatever folder, the segment written first is in no file at the end.
* **C40** File selection is exact.
  * `C40_violated`: C40, violated. A `.TXT` file with the serial number `0123` inside is read as data of instrument `012`. This holds for every longer number that starts with those of the instrument.
  * `C40_violated_long`: C40 is violated for longer serial numbers. For a serial number of more than three characters no file is ever read, whatever is in the directory.
* **C42** Gain and unit settings scale the bitweight correctly.
  * `C42_violated_convert`: C42, violated by `convert`. `get_bitweight_info` accepts `pa` as pascals and rejects an unknown unit, but `convert` knows only the spellings `Pa`, `V`, `Counts` and `counts`: for any other text, however wrong, it raises nothing and writes NaN as bitweight.
* **C44** Merged raw files keep the absolute pressure.
  * `C44_violated_cut_off`: C44 is violated for every file `f` whose last line is a status line, a fix or another line that is not a sample, and has lost its newline, as by a power failure: although all of `f`'s pressures are read from what is left, in the file merged with the next one, `g`, the first sample of `g` is lost, because its line is glued to `f`'s last one, and all the others are off by the difference between the last pressure of `f` and the first one of `g`.
  * `C44_violated_truncated`: C44 is violated by a file cut off at the end of its last line, as by a power failure: both files can be read, but the last sample of the first and the first one of the second are glued together in the merged file, one sample is missing, and the others have wrong pressures.
* **C45** Raw-file merging works for every differenced format.
  * `C45_violated_cat_all`: C45 is violated for the documented differenced format 0.91: whenever a file of this format has to be appended, merging fails. With `cat_all` that is every such file but the first one.
  * `C45_violated`: C45 is violated, default mode: a file of format 0.91 without a fix, behind a file with one, makes merging fail.
* **C46** Batch conversion treats serial numbers independently.
  * `C46_violated_folders`: C46 is violated on a first run. Two processes start when the output folders do not exist. Both find `gps` missing; the second `makedirs` fails, which ends that conversion. Its files are never written, although on its own it would be complete, and in another interleaving it is.
  * `C46_violated_same_codes`: C46 needs different identifiers. A codes file may give two serial numbers the same network, station and location; then the last to write wins, and the result depends on the schedule.
  * `C46_violated_first_run`: C46 is violated by every batch that starts without a GPS folder. For any two of its conversions that get past the raw files, the actions can interleave such that the second leaves nothing when all have ended, although it leaves some file if it is alone: both find the folder missing, the first one makes it, and the second one gives up because it cannot make it.
  * `C46_violated_codes`: C46 is violated by every codes file that gives two serial numbers the same codes, if both conversions write a segment that starts in the same second. The file is that of whichever comes last: with one schedule it is what the first conversion writes on its own, with another what the second one writes.
* **C47** Station codes are matched to the right instrument.
  * `C47_violated_stray`: C47 is violated by stray files. If the input folder contains any file whose characters 9 to 12 are not a number (such as `FILE0003.TXT`, `notes` or `.DS_Store`), then with a codes file the program ends by an uncaught exception and nothing at all is converted, whatever the other files and the table are.
* **C49** The newest GPS summary is used.
  * `C49_violated_thousand`: C49 is false from the 1001st conversion on. Convert instruments in any order into the same GPS folder; after 1001 to 9990 conversions of an instrument the fixes of its 1000th are read: `SNgps_1000.txt` comes before `SNgps_999.txt`.
  * `C49_violated_stray`: C49 is false with other files in the folder. Any file whose name begins with the serial number is taken for a log. A file of any kind whose name comes after those of the logs, such as a note, hides all of them.
  * `C49_violated_files`: C49 is false for a list of files, such as `gps/*` on the command line of `gem_make_inventory`: all logs of the instrument are read, so that fixes of repeated conversions count several times.
  * `C49_violated_removed`: C49 is false for a folder from which logs have been removed. If any number below the highest one is unused, the next conversion takes such a number for its log, and what is read after it is the old log with the highest number, not the log just written.
* **C50** Sliding windows cover the data evenly.
  * `C50_violated_last`: C50 is violated: whatever the parameters, no sample at the end of the data, or later, is in any window.
  * `C50_violated_one`: C50 is violated: data exactly one window long are not analysed, but raise ZeroDivisionError. So are data a little longer (less than a millionth of the step), or shorter by less than a step.
  * `C50_violated_short`: C50 is violated: still shorter data are not analysed at all; the result is empty, without an error.
* **C51** Window results stay aligned.
  * `C51_violated_t_mid`: C51 is violated: if an analysis returns a value named `t_mid`, that column gets two entries per window.
* **C52** Plane waves are recovered exactly.
  * `C52_violated_gap`: C52 is violated: if the sensor `b` of three is missing in the first window, and all sensors are there in the later ones (at least one), the inversion raises an exception, whatever the lags and positions: it orders the sensors by their first appearance, `a`, `c`, `b`, and looks for a lag between `c` and `b`, where the table has one between `b` and `c`.
* **C53** Everything between the requested limits is converted.
  * `C53_violated`: C53 is violated by a `t2` inside the record: the conversion ends normally, but a block whose data lie before `t2` is never read.
  * `C53_violated_window`: C53, violated: the last window. The samples in the last window before the limit are never delivered. Whatever the reader, the files and their blocks, `t1` and `t2` (on the sample grid) are: if a conversion with file length `L` ends normally and `t2` lies in the window that begins at `k` file lengths, then no sample of this window is written, not even those before `t2`. (With samples there, the conversion fails or leaves them out.)
  * `C53_violated_window_read`: C53, violated: nothing read in the last window. Any number of blocks; `t2` (on the sample grid) lies in the window that begins at `k` file lengths. A conversion that ends normally has read no sample at all between the beginning of that window (or `t1`) and `t2`: whatever data there are, they are in blocks it has not read.
  * `C53_violated_unread`: C53, violated: blocks that are never read. If the first block that has data reaches into the block length (usually the day) after the one of `t1`, and `t2` is there, then a conversion that ends normally has read no other block, and whatever data the other blocks have before `t2` are not converted. (`C53_violated` is such a conversion.)
* **C54** Overlapping traces cost no other data.
  * `C54_violated`: C54 is violated. Two traces that overlap by one sample: the whole earlier trace disappears, not only the contradictory sample. If a short trace lies inside a longer one, the whole longer one disappears.
* **C55** Gaps never make a block unreadable.
  * `C55_violated`: C55, violated. Whatever the fixes: if the first two steps between samples are gaps (a gap is more than 25 counts, and up to 1000 are accepted within a file) and there are at least five samples in the whole block, times are assigned to no sample of the block; `read_gem` fails with CorruptRawFile, and `convert` skips all its files.
  * `C55_violated_first_fixes`: C55, violated by fixes. If the clock jumps between the first two of three or more fixes (a leap second taking effect, say) and the samples have a gap between these two fixes, no sample of the whole block gets a time.
* **C56** Every file is read by its own format version.
  * `C56_violated`: C56, violated. The format version of a file counts only if it is the first readable one of its block: whatever the versions of the other files, they are read with the reader of the first.
* **C57** Raw-file merging keeps instruments apart.
  * `C57_violated`: C57 is violated when no extension is given: the file of instrument 002 is appended to that of instrument 001, and nothing is written for 002.
  * `C57_violated_prefix`: C57 is violated even with one: extension `001` also selects the files of instrument 0012.
  * `C57_violated_one_file`: C57 is violated by any two files of different instruments in a folder, if all files are merged into one and no extension is given: whatever well-formed content they have, the single output, named after the first instrument, is read as the pressures of the first instrument followed by those of the second, whatever the serial number of the second.
  * `C57_violated_mixed`: C57 is violated in every folder with files of two instruments that the extension (or its absence) selects: there is one instrument, and nothing is written under the number of another, whatever the folder has of it.
* **C58** Merging loses no line of a raw file.
  * `C58_violated`: C58 is violated by a file with a GPS line before its first sample: the line is in no output, and the fix is lost.
  * `C58_violated_header`: C58 is violated by what stands before the first sample of a file that is appended, GPS lines among it: with `cat_all`, the output is the same whatever the last file's lines between its first line and its first sample are.
  * `C58_violated_header_default`: The same by default, where the file before the last one has no fix, and an earlier one has: the output is the same whether the last file has fixes in front of its first sample or none.
* **C59** gemconvert honours its documented options.
  * `C59_violated_long_forms`: C59 is violated by the long forms. Of the documented long options (`--serialnumbers`, `--exclude_serialnumbers`, `--outputdir`, `--format`, `--length`, `--test`, `--parallel`, `--help`) none is accepted: the program prints the call and ends, whatever the value and the surroundings.
  * `C59_violated_serialnumber`: C59 is violated by `--serialnumber`. It is accepted, and its value ignored: all instruments present are converted.
  * `C59_violated_processes`: C59 is violated by `-p 0`: an uncaught exception, nothing is converted.
  * `C59_violated_txt`: C59 is violated by raw files named `.TXT`. Instrument software may name raw files `FILEnnnn.TXT` (accepted elsewhere: core.py:152-153); the serial number is then in the file. By default `gemconvert` takes `TXT` for the serial number and does not look for the instrument.
  * `C59_violated_few_processes`: C59 is violated by every number of processes below one: an uncaught exception, nothing is converted.
* **C60** Every time is analysed exactly once.
  * `C60_violated_midnight`: C60 is violated: a sample at the midnight between the first and the second day is handed to both.
  * `C60_violated_part_day`: C60 is violated: if the run starts at another time of day (after the first second, and before the last two), everything from the next midnight to 24 hours after the start is handed to the first two days both.
  * `C60_violated_last_seconds`: C60 is violated at the end of a day. If the run starts in the last two seconds of a day, the samples more than 24 hours after the start and before the second next midnight are handed to no daily analysis.
* **C61** The network GPS summary describes the deployment.
  * `C61_violated_period`: C61 is false when most fixes were taken elsewhere. Outliers are removed before the period is applied. Here 29 fixes at home precede the period and one fix lies in it; asked for the period, the summary leaves the instrument out, although without the earlier fixes it would be listed.
  * `C61_violated_pattern`: C61 is false for a pattern that matches files: `summarize_gps('gps/*')` finds no instruments.
  * `C61_violated_substring`: C61 is false for text in general. Excluding `1077` on the command line excludes `077`.
  * `C61_violated_part`: C61 is violated by every number inside another. On the command line, naming an instrument also names every instrument whose number is part of that number; as a list it does not.
  * `C61_violated_home`: C61 is violated by every instrument that was tested long enough at home. If the fixes of the period asked for were taken at one latitude, all others at another one (0.0001 degrees or more from it, that is 11 m), and there are a hundred times as many of those, the instrument is left out of the summary, however many fixes the period has.
* **C62** The station inventory lists every located channel once.
  * `C62_violated_network`: C62 is false if a network has no coordinates at all. Then no inventory is made, not even for the other networks.
* **C63** Documented station tables are accepted.
  * `C63_violated_optional`: C63 is false without a location or network column, although the documentation of `gem_make_inventory` calls them optional: such a table is not read, whatever its rows.
  * `C63_violated_no_header`: C63 is false without a header line, although the code means to accept such tables: the first line contains the serial number, which pandas reads as a number (or blank codes, which it reads as missing).
  * `C63_violated_gemconvert`: C63, effect on `gemconvert`. With a codes file that cannot be read, `gemconvert -c` converts nothing.
* **C67** The metadata and GPS files of a conversion hold the rows of every block with data, once and in order.
  * `C67_violated_fixes`: C67 is violated by every conversion with a given start `t1` (microseconds) that reads a fix of an earlier time in any but the first block with data. When the conversion has ended, the GPS file holds the fix `f` although it is earlier than a second before `t1`; such a fix of the first block with data is left out.
  * `C67_violated_early_fixes`: C67, violated. With a given start the GPS file should hold no fix earlier than a second before it, as for the first block. It can hold earlier ones: here the start is 93605 s, and the fix of the second block at 93600 s is written although no data before 93605 s are.
* **C68** Renaming converted files keeps every record and gives it the codes of its instrument.
  * `C68_violated_shared_codes`: C68, violated for tables that give two instruments the same codes. Then a file of the second instrument silently replaces the file of the first that starts in the same second: after renaming both into an empty directory, all there is are the samples of the second.
  * `C68_violated_daily_pattern`: C68, violated for patterns without the time of the day. Of all files of one instrument that start on the same day only the last remains.
* **C69** Merging by day writes one file for each day and channel and leaves no file out.
  * `C69_violated_mixed`: C69 is violated when the codes of a channel are an ending of those of another, as for the networks `A` and `XA`, or no network and any other: the file of the first channel also gets the traces of the second.
* **C70** A merged day holds every recorded sample at its time and repeats the last sample during gaps.
  * `C70_violated_contained`: C70, contained traces. The samples of a trace are dropped if an earlier trace covers it, also if they differ.
  * `C70_violated_gaps`: C70, gaps. A gap of any length between two files leaves no sign in the merged file: it is filled with a constant, and the result is the same as that of a recording without gap in which the constant was recorded.
* **C71** The channels analysed are exactly those asked for and not excluded.
  * `C71_violated_parts`: C71, parts of identifiers. Asking for a station by its code also yields every other channel whose identifier contains the code: asking for station `12` yields stations `112` and `120`, too. Excluding works the same way.
  * `C71_violated_patterns`: C71, patterns. A regular expression that begins like a complete identifier is taken for one, and finds nothing, although the comment in the code invites regular expressions: here a choice between two stations that are both in the data.
* **C72** A wave crossing the array yields its exact lags, slowness and direction.
  * `C72_violated_dead`: C72, dead sensors. For a trace of constant value, the shift reported is the largest possible in the negative direction, one second.
  * `C72_violated_consistency`: C72, consistency. The comment in the code says that it should allow up to one sample error for each of the `n` correlations; but with two or more sensors, shifts that add up to more than `n` samples still count as consistent.
* **C74** Options of the cross-correlation are accepted exactly if they make sense, and defaults hold when they are omitted.
  * `C74_violated_nan`: C74, NaN. A window length that is not a number (NaN) is accepted, although the message demands a positive number.
  * `C74_violated_defaults`: C74, defaults. If an upsampling ratio is given but no overlap, there is no upsampling; if an overlap is given but no upsampling ratio, the analysis always fails, instead of using the default ratio 1.
* **C75** A sound file holds the recorded wave form.
  * `C75_violated_amplitude`: C75, amplitudes. The amplitude of a recording is lost: whatever the trace, a trace that is louder or quieter by any factor, or that is shifted, gives the same file. Since every file of a conversion is scaled on its own, amplitudes cannot be compared between the files of one recording, nor between instruments.
  * `C75_violated_trace`: C75, the caller's trace. Writing a trace changes it: afterwards it holds what was written to the file, in units of the largest amplitude, instead of the recorded samples; also if the rate is refused and nothing is written.
* **C76** Serial number and configuration are those printed in the file.
  * `C76_violated_damaged`: C76, default. If no line of the file starts with `C,` and has exactly six commas, for example since the line is damaged, the default configuration (high gain) is used; no problem is reported.
  * `C76_violated_late`: C76, late line. A configuration line is ignored if eleven or more comment lines come before it: the default configuration (high gain) is used, whatever the line says.
  * `C76_violated_order`: C76, order. If any other line of one or two fields, such as a sample, comes before the line with the serial number, the serial number is not found, although it is in the file.
* **C77** The huddle test reports exactly the readings out of range.
  * `C77_violated_missing`: C77 violated: missing readings. If the first battery reading of a logger is missing, both battery tests say OKAY, whatever the other readings are; likewise for temperatures.
  * `C77_violated_return`: C77 violated: the report. The documentation promises a dictionary of the errors, warnings and results; nothing is returned.
  * `C77_violated_stack`: C77 violated: the unused stack. The warning about the unused stack does not say which logger it is about.
  * `C77_violated_short`: C77 violated: one bad logger. If one logger has fewer than two rows of metadata, or less than a day of them and no time in the second row, the test raises an exception, and there are no results for any logger.
* **C78** The huddle test finds loggers that start late or stop early.
  * `C78_violated_missing`: C78 violated: missing times. If the first time of a logger is missing, it is said to start too late and to stop too early, whatever its other times are.
  * `C78_violated_individual_only`: C78 violated: single tests only. With `individual_only` the loggers are compared all the same: the same exceptions and the same errors result as without; there is only a warning, which says that there is one logger.
* **C79** The huddle test compares temperatures every minute.
  * `C79_violated_no_interval`: C79 violated: missing times. If no two consecutive rows of one of the loggers have times, the test of all loggers ends with an exception, whatever the rows of the others hold.
  * `C79_violated_two`: C79 violated: two loggers. The code asks for temperatures within 2 degrees of each other; but two loggers pass if they differ by up to 2.99 degrees all the time.
  * `C79_violated_interval`: C79 violated: fast clocks. If the rows of one logger are less than a second apart on average (its clock runs slightly fast, or it has one row more than it should), the test of all loggers ends with a division by zero.
  * `C79_violated_brief`: C79 violated: brief tests. If all loggers together span less than ten minutes, the test ends with an exception, whatever their rows hold.
  * `C79_violated_times`: C79 violated: times. If the last logger has a row every `d` seconds, two or more, the time in a message is too early, by at least half a minute for each minute since the start: a logger named in it had the temperature in question in its own minute `c`, but the time given is at least `(60 - w) c` seconds before, where the last logger has `w` rows a minute.
  * `C79_violated_uneven`: C79 violated: other intervals. If one of the loggers has a row about every `d` seconds, where `d` does not divide 60, and it recorded for more than a minute before the last eleven minutes of the test, the test of all loggers ends with an exception, whatever the rows hold. The other loggers may have any intervals of a second or more.
  * `C79_violated_shift`: C79 violated: late starts. Two loggers in the same place with the same temperature at any time, one of which starts ten minutes later (which is allowed): the temperatures are said to disagree, since rows are counted from the first row of each logger.
  * `C79_violated_label`: C79 violated: times. For loggers with a row every ten seconds, the time in a message is wrong: here the temperatures disagree only five minutes after the start, and the message says half a minute.
* **C80** A transcoded raw file can be read and converted like the original.
  * `C80_violated_read_gem`: C80, violated. The transcoder writes `1.1` as the format, which `read_gem` does not know: for every raw directory whose selected files are transcoded, `read_gem` raises, whatever the readers would return.
  * `C80_violated_convert`: C80, violated. Converting a raw directory whose files are all transcoded ends with an exception, and no data are written: for all large enough bounds on the number of loop iterations.
  * `C80_violated_first`: C80, violated: the first file. One transcoded file is enough: if the first of the selected files is transcoded, `read_gem` raises, whatever the others are.
* **C81** Transcoding to the format 0.95 loses nothing.
  * `C81_violated_times`: C81, violated. The format 0.95 loses half of the information on time: moving all samples by 4096 ms relative to the GPS lines changes the original, but not the transcoded file, for every recording of samples of at most 12 counts.
  * `C81_violated_read_gem`: C81, violated. `read_gem` does not know the format 0.95 either: it raises for every selection of such files.
* **C82** Converting one raw file gives the traces that read_gem reads from it.
  * `C82_violated_old_format`: C82, violated: old formats. The format of the file is not looked at. For files of the formats 0.8 and 0.85 `read_gem` uses a reader of their own, and what that reader returns makes no difference here.
  * `C82_violated_reason`: C82, violated: the reason given. Whatever keeps the file from being read, be it damaged, empty or its clock inadequate, the exception raised says that there are no GPS data, even if GPS data are not required.
* **C83** The command line of gemconvert_single.
  * `C83_violated_long`: C83, violated: long options. The documented options `--input_file`, `--output_file`, `--force-conversion` and `--help`, and every other long option, end the program with exit status 2, whatever options precede.
  * `C83_violated_gps_option`: C83, violated: the option of the usage line. The usage line shows `-g <gps_required>`; the option is refused.
  * `C83_violated_output`: C83, violated: output names. The usage line asks for `-o <outputdir>`, but the name of a directory, or any name without extension, is not accepted: although the file has been read, nothing is written.
  * `C83_violated_status`: C83, violated: exit status. If the conversion fails with an exception, because the file does not exist, say, the exit status is 0, as if it had succeeded.
* **C84** make_db lists every readable converted file with what it contains.
  * `C84_violated_gaps`: Violated: of a file with several traces (a gap within the hour, or several stations) only the first is counted; the times, extremes and amplitude of the row say nothing of the others.
  * `C84_violated_empty`: Violated: if no file can be read, there is an exception, not an empty database.
* **C85** calc_channel_stats gives uptime and amplitudes for every station of a database.
  * `C85_violated_always`: Violated: `calc_channel_stats` never returns a table. For every database and every interval it ends with an exception, because the empty list it starts with is handed to `pd.concat`.
* **C86** check_lags compares each station with the next in every window, and the huddle test reports nonzero lags.
  * `C86_violated_pairs`: Violated: traces are paired by their place in the list. If a station has more than one trace in a window (a gap), the traces behind the first ones do not matter at all: with two stations, the two pieces of the first are compared with each other.
  * `C86_violated_filter`: Violated: the band does not matter. The filter is applied before there are data.
  * `C86_violated_first`: Violated: the first window is left out; nothing is returned for data that end before a window length has passed since the beginning of the hour.
  * `C86_violated_incoherent`: Violated: if no window is coherent, the huddle test notes that the lags in coherent windows are mostly zero.
* **C87** check_discontinuity reports exactly the gaps in a set of files.
  * `C87_violated_channels`: Violated: files of two or more channels always give output that looks like discontinuities, even if every channel is complete.
* **C88** The huddle test fills short gaps only, and changes no recorded sample.
  * `C88_violated_close`: Violated: two short gaps with at most `g` hundredths between their ends make the interpolation fail. The first pass fills both gaps, and then the second finds no gap to fill.
  * `C88_violated_limit`: C88, violated (a gap that is not short is filled). If a run is a single sample, the gap before it is shorter than the limit `g` and the gap after it is exactly `g` long, the longer gap is filled as well, although gaps of `g` are to be left: the two gaps are filled together.
* **C90** Raw files of formats 0.8 and 0.85 are read exactly, to the whole millisecond.
  * `C90_violated_short_header`: C90, violated. The reader skips six lines whatever they hold: in a file whose header has five lines, the first line of data is lost, and the file is read without any error as if that line were not there.
  * `C90_violated_fraction`: C90, violated. Counts are cut to whole milliseconds: a fix printed with a fraction is placed before its true time.
* **C91** The fallback reader finds what the compiled reader finds.
  * `C91_violated_fraction`: C91, violated. The second reader cuts the counts of fixes to whole milliseconds: a fix printed with a fraction (as loggers do) is placed before the time at which the compiled reader places it.
  * `C91_violated_letters`: C91, violated. In format 1.10 most samples are written as two letters. The second reader leaves all of them out without any error: it reads such a file exactly as it reads the file without those lines, so the samples are lost and the pressures after them are wrong.
* **C92** Removing the instrument response gives back the pressure.
  * `C92_violated_low`: C92, violated. With the gain `low` the same file is used as for `high`: the data of a logger set to low gain, which are half as large, come out as half the true pressure at every frequency, and deconvolving with `low` is the same as with `high`, whatever the data.
* **C93** Noise models agree with their tables in power, amplitude and decibels, and give the noise of a band.
  * `C93_violated_medium`: C93, violated: the model `medium`. The name that the documentation gives for the middle model is refused.
  * `C93_violated_no_band`: C93, violated: no band. Unless the lower bound is given, no noise level is computed; by default only the upper bound is.
  * `C93_violated_band`: C93, violated: the band of the IMS models. The table of the IMS models ends below 10 Hz. For every band that starts at or above zero and ends at 11 Hz or more (the default is 50, the example in the documentation 0.1 to 20), and every model and kind of spectrum, there is no noise level.
  * `C93_violated_low_band`: C93, violated: bands that begin below the table. Likewise for a band that begins below the first frequency `f0` of the table, by more than about a fifth of a percent of its width: there is no noise level, for any model and kind of spectrum.
* **C94** The command lines of the cross-correlation write their result or leave all files alone.
  * `C94_violated_defaults`: C94, violated: defaults. Given only files, the command line does not do what `xcorr_all` does when given only files: the upper corner is 40 Hz, not 20 Hz. It does what `xcorr_all` does with 40 Hz.
  * `C94_violated_emptied`: C94, violated: a failing inversion empties the output. If the inversion fails, for example since a station has no location or since all are on one line, the output file is empty afterwards, whatever it held before: also if it is the table of lags itself, which is then lost.
* **C95** gem_make_inventory lists every instrument found with its position.
  * `C95_violated_unlisted`: C95, violated: instruments that are not in the station table. They all get blank codes; the first of them, in the order of serial numbers, becomes a station without name, and for all the others there is no channel in the inventory, and no error.
  * `C95_violated_elevation`: C95, violated: a blank elevation. If the table has no number as the elevation of an instrument found, for example a blank, there is no inventory at all. (The first instrument with its codes: the others do not count.)
* **C96** The command line of verify_huddle_test.
  * `C96_violated_long_forms`: C96, violated: documented long options. `--serialnumbers`, `--exclude_serialnumbers` and `--help` are in the help text, but give only the usage message.
  * `C96_violated_serialnumber`: C96, violated: the long option that is accepted. `--serialnumber` with a value is accepted, and all instruments are tested.
  * `C96_violated_default`: C96, violated: the default folder. Without options the current folder is tested; the help text names ./raw/.
* **C98** A merge of raw files can be interrupted, repeated, and touches only its output folder.
  * `C98_violated_same_folder`: C98, violated (same folder). If the output folder is the input folder, the merge reports success, but a raw file has been replaced by another one; and it cannot be repeated: a second run fails.
* **C99** The gem_cat command does what its options say, and says what it did.
  * `C99_violated_long`: C99, violated (long options). The program has code for `--inputdir`, `--outputdir`, `--ext` and `--help`, but every call with such a word is refused, and nothing is merged.
  * `C99_violated_status`: C99, violated (status). A script that merges cannot see that it failed: a missing input folder, an empty input folder and a failed merge end with status 0, as success does.
* **C100** A logger can be switched off and on again.
  * `C100_violated_collision`: What goes wrong without `NoCollision`: two sessions of one file each, the second starting more than 25 ms after the end of the first, by its first line, at the count of the last sample of the first. If the spline cannot be constructed from points at equal times, as that of scipy, then `read_gem` reports no problem, but the second session is missing from its result, and so is the last sample of the first.
* **C101** A damaged file costs only its own data.
  * `C101_violated_metadata`: C101 violated. If the last file is refused, metadata at count zero get the time 0 (1970-01-01), whatever the clock of the file they are from (and where they would have none otherwise, because no sample comes before them): the row of zeros that stands for the refused file in the table of clocks claims them.
  * `C101_violated_gain`: C101 violated. The bitweight is that of the gain setting of the first file with a legible version, even if the file is refused: if its setting is lost (and therefore taken to be high gain), while all other files were recorded with low gain, the returned bitweight is half of what it is without the damaged file.
  * `C101_violated_version`: C101 violated. If the first line of the first file of the first block is damaged such that it has some text, but not that of a known version, the whole conversion is given up without any output, whatever the other files hold.
* **C102** Sensor positions are the same from an inventory, a stream or arrays.
  * `C102_violated_moved`: C102, violated: a sensor that was moved. If an instrument has two epochs at different places, both rows are at the place of the first, so that the lags recorded after the move are inverted with the wrong position.
  * `C102_violated_mixed`: C102, violated: mixed coordinates. If one trace has x and y, and another longitude and latitude, there is no table at all.
  * `C102_violated_arrays`: C102, violated: arrays have no names. Positions given as arrays cannot be used for the inversion: every sensor is called `None.None.None`, so that the sensors of a table of lags are not found, unless one is called that.
* **C103** Lost lines cost only their own samples.
  * `C103_violated_one_line`: C103, violated: one lost line. The line of one sample is lost. The samples before it are read as they were recorded. But all samples after it lack the change of pressure of the lost line, until the end of the file, and those written as letters seem too early by the time from the sample before the lost one to the lost one, until the next full line.
* **C104** The huddle test's table of statistics describes the readings.
  * `C104_violated_missing`: C104 violated: missing readings. If the first reading of the battery or the temperature is missing, the smallest and the greatest are missing in the table, whatever the other readings are.
  * `C104_violated_ratio`: C104 violated: the ratio. The "GPS on-time ratio" is no ratio: every logger with its GPS on for a fifth of the time or more has 180 there.
* **C105** The huddle test completes, and shows the waveforms of all loggers for the same time.
  * `C105_violated_letters`: C105 violated: serial numbers with letters. A logger whose serial number is not a number ends the test for all loggers.
  * `C105_violated_twice`: C105 violated: serial numbers given twice. If a serial number is given twice, the test ends with an exception.
  * `C105_violated_gap`: C105 violated: after a gap. Nothing that a logger recorded after its first gap of a tenth of a second or more is shown, whether or not it lies in the time shown.
  * `C105_violated_short`: C105 violated: short tests. If the recording of the first logger is shorter than twenty minutes, or has a gap of a tenth of a second or more in its first twenty minutes, the test ends with an exception, however good the data of all loggers are otherwise.
  * `C105_violated_close`: C105 violated: close gaps. If the recording of any logger has two gaps shorter than a tenth of a second, with at most a tenth of a second between their ends, the test ends with an exception.
* **C108** Limits given as seconds, and the time adjustment, take effect.
  * `C108_violated_start`: C108 is violated for `t1`. If `t1` is given as a number of seconds and lies at or after the first sample, then whatever happens no sample is written from the window of the file length that contains `t1`: the samples from `t1` to the end of this window are lost. (Data from 1970 on; the file length is on the sample grid. Given as an instant, `t1` is respected: `C29_given_start`.)
  * `C108_violated_end`: C108 is violated for `t2`. If `t2` is given as a number of seconds, no conversion that ends normally writes anything.
  * `C108_violated_adjustment`: C108 is violated for `time_adjustment`. A conversion that writes something does not shift it by the adjustment asked for.
  * `C108_violated_start_exact`: C108, exactly what is lost. If `t1` is given as a number of seconds at or after the first sample, and the conversion ends normally: given as an instant it ends normally too, and has written the same, and before it exactly the samples from `t1` to the end of the window of the file length that contains `t1`.
  * `C108_violated_end_window`: C108 is violated for `t2`: what is written. If `t2` is given as a number of seconds, a conversion from a given instant writes the samples of at most one window of the file length, whatever `t2` is; and if it writes something, it ends with an exception.
  * `C108_violated_start_short`: C108 is violated for `t1`: near the end of the data. Let `t1` be given as a number of seconds at or after the first sample, and let all data end less than a file length after it. If there is more than one block of files, the conversion fails, and nothing at all is written. (Given as an instant, all samples from `t1` on are written: `C29_given_start`.)
* **C109** A gap in one channel costs only the windows it lies in.
  * `C109_violated_day`: C109 is violated. A single sample of a single chosen channel missing on a day, between two samples of that day: the day is skipped, with all its windows and all channels, whatever the analysis.
  * `C109_violated_none`: C109 is violated. If the data asked for lie within a day, such a sample makes the whole analysis fail: nothing is returned, and the command `waveform_calc_lags` ends with an exception and writes no file.
  * `C109_violated_message`: C109 is violated for the messages. Every message about a skipped day names the beginning of the run, which is in no later day.
* **C110** The huddle test checks the GPS and the waveforms.
  * `C110_violated_positions`: C110 is violated for GPS data. The result does not depend on what the GPS files say, as long as no time is missing: neither on the positions, which may be anywhere on the globe, nor on the number of fixes, which may be zero.
  * `C110_violated_waveforms`: C110 is violated for waveforms. Of two tests that complete with the same metadata, one may have flat or clipped waveforms, or those of another place: the messages, results and statistics are the same.
  * `C110_violated_always`: C110 is violated for the GPS run time. A logger whose GPS never stopped running, in every row on, passes the test of the GPS run time. So does one whose GPS never ran: off in every row, with at most 180 seconds from row to row.
* **C113** The figures of the huddle test show the readings.
  * `C113_violated_readings`: C113 violated: readings. Nine of ten rows make no difference to a curve, whatever their readings: if two recordings have the same times, and the same readings in every tenth row, the curves are the same. So a reading out of range that is reported need not be in the figure to which the report refers.
  * `C113_violated_long`: C113 violated: long runs. All the bars together count the runs which, less the interval between rows, last from 10 to 175 seconds. So no bar counts a longer run, although the code sets runs of more than 180 seconds to 180 and the axis has the label ">180" for them.
* **C114** The log file of gemconvert tells what became of each conversion.
  * `C114_violated_parallel`: C114 violated: problems. With two processes the log does not tell which serial number had problems: the same log is left if they belong to the other.
  * `C114_violated_memory`: C114 violated: memory errors. No message that begins with "Unable to allocate", as those of numpy do, is explained as a time gap.
* **C115** Diagnostic figures show the data of the stations they name.
  * `C115_violated_labels`: C115 violated: labels. If the stations do not begin in alphabetical order, the amplitudes of some station are shown with the name of another one.
  * `C115_violated_three`: C115 violated: other numbers of stations. The lags of two stations cannot be shown. Of more than three, the fourth and later ones have no influence on the figure.
* **C116** Converted files carry the factor from counts to the unit asked for.
  * `C116_violated_gain`: C116, violated by a change of gain. Let the blocks be as in C66, and let the files of a later block have another gain than the first file. Then the conversion ends normally, and a segment with a sample recorded in that block carries the factor for the gain of the first file, which is wrong for the block by the factor 2 or 1/2.
  * `C116_violated_mseed`: C116, violated for miniSEED. The unit and the factor have no effect on what is read back from a miniSEED file: the factor read is 1 whatever was asked for, which is not the factor to pascals or volts of any instrument at any gain.
* **C117** The plot of clock drift shows the clocks used for the conversion.
  * `C117_violated_outside`: C117 is violated by a fix after the last sample or before the first one: if the first or the last fix of all is in no file's range, or if there is only one, nothing at all is drawn in the lower half.
* **C118** The slowness is the best fit to the lags.
  * `C118_violated_order`: Where the property fails: the lag between the last sensor and the first is not used. Take any three sensors that are not on one line, and the same three lags in two tables that differ only in the sensor they begin with. If the lags do not sum to zero, as those of a plane wave do, the two results differ.
* **C119** The lags depend on the wave forms only.
  * `C119_violated_ties`: Where the property fails: if there are several maxima, the two shifts are those of the first in one order and of the last in the other.
  * `C119_violated_polarity`: Where the property fails: a channel of opposite polarity. The shift reported for a pulse and the same pulse with the opposite sign is never the difference of the arrival times.
* **C121** From the converted files to the directions of the waves.
  * `C121_violated_late`: C121 is violated. If one sensor of three has no data on the first day, and every window of the later days has all three, no direction at all is found, of any window of any day, whatever the data and positions: the inversion of the table raises an exception.
* **C123** Converting the files of two visits separately.
  * `C123_violated_joint`: C123 is violated. Whatever the data: the samples of the second visit before its first whole second are written when all files are converted together, and by neither conversion when the visits are converted separately.
  * `C123_violated_raw`: C123 is violated, from the raw files. If the second visit begins more than 5 ms from a whole second, then its first sample, within 5 ms of its beginning, is written when all files are converted together, and by neither conversion of one visit.
* **C124** The length of the output files decides only how the samples are divided.
  * `C124_violated_filling`: C124 is violated with a given start: with files of a tenth of a second the missing sample is left out, with files of a second it is filled in.
  * `C124_violated_end`: C124 is violated with a given end. Whatever the data and the reader: let `t2` lie in the window of the file length `L` that begins at `k * L`. A conversion that has read a sample which is in this window, not before `t1` and not after `t2`, does not end normally. So whether the data before `t2` are converted depends on the length of the files: see the example.
* **C129** A later start only leaves out what is before it.
  * `C129_violated_filling`: C129 is violated by samples that are filled in. A later start can add a sample: with files of a tenth of a second, the conversion that starts a day later fills in the missing sample at 00:00:00.11 of that day, and the other one leaves it out.
  * `C129_violated_no_start`: C129 is violated if no start is given. Then a short gap of the first block is filled in; with the same start given, it is not.
<!-- end findings -->

## 6. Axioms

`tools/axioms.sh` prints the axioms of every theorem in the manifest. At the last run all of them depended on a subset of `propext`,
`Classical.choice`, `Quot.sound` and on nothing else.
