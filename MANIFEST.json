{
 "claims": [
  {
   "property": "C01",
   "status": "proved",
   "theorems": [
    "Gemlog.C01_rows_are_data_lines",
    "Gemlog.C01_cut_unique",
    "Gemlog.C01_row_width"
   ],
   "note": ""
  },
  {
   "property": "C02",
   "status": "proved",
   "theorems": [
    "Gemlog.C02_two_letter_line",
    "Gemlog.C02_one_letter_line"
   ],
   "note": ""
  },
  {
   "property": "C03",
   "status": "proved",
   "theorems": [
    "Gemlog.C03_numbers_D",
    "Gemlog.C03_numbers_G",
    "Gemlog.C03_numbers_M",
    "Gemlog.C03_line_D",
    "Gemlog.C03_line_G",
    "Gemlog.C03_line_M"
   ],
   "note": ""
  },
  {
   "property": "C04",
   "status": "partial",
   "theorems": [
    "Gemlog.C04_memory",
    "Gemlog.C04_violated_letter",
    "Gemlog.C04_complete_line_partial",
    "Gemlog.C04_violated",
    "Gemlog.C04_violated_cut",
    "Gemlog.C04_no_uninitialised_memory_partial",
    "Gemlog.C04_violated_memory"
   ],
   "note": "Violated: sscanf leaves placeholders of missing fields at the values of an earlier line (C04_violated). Proved for lines in which all fields can be scanned. [C04_violated_letter] C04 is violated by every file cut off right after the letter of a GPS or status line: the letter is read as if it were a complete line with everything that stands in the line before behind its first two characters. [C04_complete_line_partial] C04, partial. The row of a complete line is the same whatever precedes it. Missing: lines with fewer fields (see `C04_violated`). [C04_violated] C04 is violated. A GPS line cut off after two fields takes date and position from the previous GPS line, so the same line yields different rows after different lines; likewise an unreadable D line repeats the previous sample. [C04_violated_cut] C04 is violated by every GPS line cut off after some of its fields: the fields that are missing are taken over from the GPS line before it (with any other lines between the two), so that the row mixes the new count with the old time and position. [C04_no_uninitialised_memory_partial] C04, partial. If the file ends with a newline, the rows do not depend on uninitialised memory (the initial content of the line buffer). Missing: a file whose last line is a lone `G` or `M`, see `C04_violated_memory`. [C04_violated_memory] C04 is violated at the end of a file cut off right after the letter of a GPS line: the fields are taken from whatever the line buffer held, here the end of the previous line."
  },
  {
   "property": "C05",
   "status": "proved",
   "theorems": [
    "Gemlog.C05_transcoded_file_same_rows",
    "Gemlog.C05_compact_size"
   ],
   "note": ""
  },
  {
   "property": "C06",
   "status": "proved",
   "theorems": [
    "Gemlog.C06_complete_or_error"
   ],
   "note": ""
  },
  {
   "property": "C07",
   "status": "proved",
   "theorems": [
    "Gemlog.C07_unwrap_spec",
    "Gemlog.C07_unwrap_unique"
   ],
   "note": ""
  },
  {
   "property": "C08",
   "status": "proved",
   "theorems": [
    "Gemlog.C08_true_clock_recovered",
    "Gemlog.C08_corrected_congruent",
    "Gemlog.C08_reader_times"
   ],
   "note": ""
  },
  {
   "property": "C09",
   "status": "proved",
   "theorems": [
    "Gemlog.C09_fast_eq_slow",
    "Gemlog.C09_half_rollover_differs"
   ],
   "note": ""
  },
  {
   "property": "C10",
   "status": "proved",
   "theorems": [
    "Gemlog.C10_running_sum",
    "Gemlog.C10_running_sum_file"
   ],
   "note": ""
  },
  {
   "property": "C11",
   "status": "partial",
   "theorems": [
    "Gemlog.C11_exact",
    "Gemlog.C11_kept_iff_plausible",
    "Gemlog.C11_fixes_are_plausible_rows",
    "Gemlog.C11_file",
    "Gemlog.C11_violated_missing_position",
    "Gemlog.C11_reference_same_test",
    "Gemlog.C11_violated_text"
   ],
   "note": "[C11_violated_missing_position] C11 is violated for every GPS row that lost its latitude, its longitude or both (possible when the text-table reader meets a line cut off after the time): comparisons with NaN are false, so if the rest of the row is plausible it counts as a valid fix. [C11_violated_text] C11 is violated: one GPS line with text in it costs all fixes of the file. If a GPS line of the table has text where a number should be, none of the fixes of the file is kept, no matter how many plausible ones there are: if GPS is required the file is given up as one without GPS, and otherwise it is read without fixes."
  },
  {
   "property": "C12",
   "status": "proved",
   "theorems": [
    "Gemlog.C12_time_iff_real",
    "Gemlog.C12_epoch",
    "Gemlog.C12_tick",
    "Gemlog.C12_strictly_increasing",
    "Gemlog.C12_split_inverts"
   ],
   "note": ""
  },
  {
   "property": "C13",
   "status": "partial",
   "theorems": [
    "Gemlog.C13_formats_accepted_partial",
    "Gemlog.C13_unknown_version_rejected",
    "Gemlog.C13_violated",
    "Gemlog.C13_exact"
   ],
   "note": "[C13_formats_accepted_partial] C13 (all formats except 0.91). A file whose reader yields a table of numbers with samples and metadata (and, if GPS is required, at least one plausible fix) is accepted in every one of the five formats. (Which roll-over and integration rule applies is C08_reader_times and C10_running_sum.) Missing: format 0.91, see `C13_violated`. [C13_violated] C13 is violated for the documented format 0.91: whatever the file, the single-file reader rejects it."
  },
  {
   "property": "C14",
   "status": "proved",
   "theorems": [
    "Gemlog.C14_first_decisive_reader",
    "Gemlog.C14_corrupt_only_if",
    "Gemlog.C14_success_has_fix",
    "Gemlog.C14_not_numbers"
   ],
   "note": ""
  },
  {
   "property": "C15",
   "status": "proved",
   "theorems": [
    "Gemlog.C15_read_gem",
    "Gemlog.C15_used_or_reported",
    "Gemlog.C15_only_interrupts_escape"
   ],
   "note": ""
  },
  {
   "property": "C16",
   "status": "proved",
   "theorems": [
    "Gemlog.C16_rejected_files_irrelevant"
   ],
   "note": ""
  },
  {
   "property": "C17",
   "status": "proved",
   "theorems": [
    "Gemlog.C17_accepted_files_steady"
   ],
   "note": ""
  },
  {
   "property": "C18",
   "status": "partial",
   "theorems": [
    "Gemlog.C18_increasing_partial",
    "Gemlog.C18_increasing_if_not_early_partial",
    "Gemlog.C18_violated",
    "Gemlog.C18_violated_early",
    "Gemlog.C18_violated_counter",
    "Gemlog.C18_exact_partial"
   ],
   "note": "[C18_increasing_partial] C18 (formats with an 8192 ms counter). Reading files whose first sample is not more than 4096 ms earlier than their first line, one after another, gives a record whose sample times never decrease, within and across files. By `sampleSoon_second` this includes all files with a sample among the first two lines. Missing: the formats 0.8 and 0.85, see `C18_violated`, and files whose lines before the first sample go back further, see `C18_violated_early`. [C18_increasing_if_not_early_partial] C18. The same for any readers that never place the first sample more than 8192 ms before the end of the previous file. Missing: readers that do (`C18_violated_counter`, `C18_violated_early`). [C18_violated] C18 is violated for the formats with a 65536 ms counter: the correction by one roll-over adds 8192 ms whatever the format, so the second of these two files ends up before the end of the first. [C18_violated_early] C18 is violated if lines before the first sample go back by more than half a roll-over in all (as damaged lines may): the second of these two files ends up before the end of the first. (`C18_exact_partial` says how far they must go back.) [C18_violated_counter] C18 is violated by every file of the formats 0.8 and 0.85 whose counter starts at the wrong place. Let a record that ends at `e1` be continued with a file that is accepted, and whose first line is a sample with a count `d` ms behind `e1` (up to whole turns of the counter), where `d` is between 8200.93 and 32768. Then the file is moved on by 8192 ms only, as if its counter had 8192 ms per turn, its first sample is put `d - 8200.93` ms before the end of the record, and the sample times decrease. [C18_exact_partial] C18, exactly, for one more file of any format. Let a record that ends at `e1` be continued with a file that is accepted. `R` is one turn of the counter in the file's format, and every reader that can read the file finds the same lines. The count of the first line is that of `e1`, moved by `x`, less than half a turn, and between the first line and the first sample the counter moves by `moveToSample`. Then the first sample is put `y = x + moveToSample + 8.93` ms after `e1` if that is not negative, and 8192 ms later than that if it is. So the sample times of the longer record never decrease if and only if those of the shorter one do not and `y` is at least -8192. Missing: that they never decrease, which is false: `y` may be less, by the old formats' longer turn (`C18_violated_counter`) or by lines that go back (`C18_violated_early`)."
  },
  {
   "property": "C19",
   "status": "partial",
   "theorems": [
    "Gemlog.C19_accepted_files_partial",
    "Gemlog.C19_rejections",
    "Gemlog.C19_violated",
    "Gemlog.C19_exact_partial",
    "Gemlog.C19_covers_half",
    "Gemlog.C19_conversion_requires_gps",
    "Gemlog.C19_violated_backwards"
   ],
   "note": "[C19_accepted_files_partial] C19 (fix times not going backwards overall). A file accepted with required GPS has fixes that span more than half of the data, no step, and a regression keeping at least 10 fixes, all within 10 ms. Missing: fix series whose last time is before the first, see `C19_violated`. [C19_violated] C19 is violated when GPS time runs backwards over the file: eleven seconds of fixes, in reverse, are accepted for a file of 7168 s, because the ratio of the spans is negative. The fit is exact (a line through all fixes). [C19_exact_partial] C19, exactly. With required GPS a file is accepted exactly when it has fixes, they pass the first test of the spans, the straight-line regression comes to rest without a step above a quarter of a second, and the third-degree regression comes to rest at ten fixes or more that pass the second test of the spans. The first test is the one of C19 when the fixes do not go back overall (`C19_covers_half`); the missing part is `C19_violated`. [C19_violated_backwards] C19 is violated by every clock that runs backwards. If the fixes are on a line, at least ten of them at four different counts, and the last is earlier than the first (by more than a nanosecond), the file is accepted, although its fixes cover none of it, provided their counts span 0.000512 of the data (3.7 s of a file of two hours)."
  },
  {
   "property": "C20",
   "status": "partial",
   "theorems": [
    "Gemlog.C20_remaining_span_partial",
    "Gemlog.C20_violated",
    "Gemlog.C20_violated_fast"
   ],
   "note": "[C20_remaining_span_partial] C20 (what the code guarantees). In an accepted file the millisecond counts of the remaining fixes span at least 0.000512 of the data's span (when the last is after the first): the comparison mixes seconds with milliseconds, so it is a thousand times weaker than intended. Missing: half of the file's duration, see `C20_violated`. [C20_violated] C20 is violated: the nominal clock is the exact least-squares fit (the residuals are orthogonal to all cubics, before and after trimming), the five late fixes are dropped, and the file of 7168 s is accepted with fixes that span about nine seconds. [C20_violated_fast] C20 is violated by every clock that is a thousand times too fast. If the fixes are on a line with a slope of at least a second per count (it should be a millisecond), any file whose fixes span 0.000512 of its counts is accepted, and all its times are taken from that line."
  },
  {
   "property": "C21",
   "status": "proved",
   "theorems": [
    "Gemlog.C21_exact",
    "Gemlog.C21_unique",
    "Gemlog.C21_terminates",
    "Gemlog.C21_trims_and_ends_clean",
    "Gemlog.C21_subsequence"
   ],
   "note": ""
  },
  {
   "property": "C22",
   "status": "proved",
   "theorems": [
    "Gemlog.C22_perfect_timing",
    "Gemlog.C22_linear_clock_accepted"
   ],
   "note": ""
  },
  {
   "property": "C23",
   "status": "proved",
   "theorems": [
    "Gemlog.C23_never_rejected",
    "Gemlog.C23_nominal_clock",
    "Gemlog.C23_same_if_accepted",
    "Gemlog.C23_which_clock"
   ],
   "note": ""
  },
  {
   "property": "C24",
   "status": "proved",
   "theorems": [
    "Gemlog.C24_in_order",
    "Gemlog.C24_files_in_order",
    "Gemlog.C24_last_containing",
    "Gemlog.C24_columns",
    "Gemlog.C24_own_file",
    "Gemlog.C24_regression_qualifies"
   ],
   "note": ""
  },
  {
   "property": "C25",
   "status": "partial",
   "theorems": [
    "Gemlog.C25_only_accepted_clocks_partial",
    "Gemlog.C25_violated_zero",
    "Gemlog.C25_violated_no_serial"
   ],
   "note": "[C25_only_accepted_clocks_partial] C25 (counts other than zero, no file without serial number). If every rejected file was rejected before its clock was recorded, a count different from zero is only ever timed by the clock of an accepted file. Missing: count zero and files rejected for lack of a serial number, see `C25_violated_zero`, `C25_violated_no_serial`. [C25_violated_zero] C25 is violated at count zero. Whenever a file is rejected, a metadata row at count 0 gets the time 0 (1970) from the row of zeros, although no file contains this count. [C25_violated_no_serial] C25 is violated by every file that is rejected for lack of a serial number: no sample of it is used, but its clock stays in the header and times the counts in its range."
  },
  {
   "property": "C26",
   "status": "partial",
   "theorems": [
    "Gemlog.C26_violated_ends",
    "Gemlog.C26_gaps_stay_empty_partial",
    "Gemlog.C26_violated"
   ],
   "note": "[C26_violated_ends] C26 is violated by every gap in the first or in the last step of a record: whatever the length of the gap, if the spline can be constructed, samples are produced for every 10 ms of it (up to 15 ms before its end). [C26_gaps_stay_empty_partial] C26 (gaps inside the record). Between two successive samples more than 25 ms apart, the first of which is later than the record's first time and the second earlier than its last, no sample is produced (up to rounding to the nearest 10 ms, so not after 5 ms before the first and before 5 ms before the second). Missing: the first and the last step of the record, see `C26_violated_ends`. [C26_violated] C26 is violated for a gap in the first step: whatever the spline, if it can be constructed from the record, a second without data is filled with samples."
  },
  {
   "property": "C27",
   "status": "proved",
   "theorems": [
    "Gemlog.C27_one_trace_per_run",
    "Gemlog.C27_on_grid_inside",
    "Gemlog.C27_ordered",
    "Gemlog.C27_complete"
   ],
   "note": ""
  },
  {
   "property": "C28",
   "status": "partial",
   "theorems": [
    "Gemlog.C28_succeeds_iff_partial",
    "Gemlog.C28_violated"
   ],
   "note": "[C28_succeeds_iff_partial] C28 (exact condition). Resampling a record with at least one timed sample succeeds exactly if every run that has a duration and admits a spline lasts at least 10 ms. Missing: shorter runs, see `C28_violated`. [C28_violated] C28 is violated: two samples 5 ms apart between two gaps end the resampling of the whole record with an internal error."
  },
  {
   "property": "C29",
   "status": "proved",
   "theorems": [
    "Gemlog.C29_nothing_lost",
    "Gemlog.C29_given_start",
    "Gemlog.C29_length_irrelevant",
    "Gemlog.C29_given_start_exact"
   ],
   "note": "Proved for a far t2 (the default) and an order-preserving reader: the output is exactly the merged record from the starting time on. Without t1 the program starts at the first whole second, so up to a second of data is left out by design."
  },
  {
   "property": "C30",
   "status": "proved",
   "theorems": [
    "Gemlog.C30_blocks",
    "Gemlog.C30_one_window"
   ],
   "note": ""
  },
  {
   "property": "C31",
   "status": "partial",
   "theorems": [
    "Gemlog.C31_terminates_partial",
    "Gemlog.C31_violated",
    "Gemlog.C31_exact"
   ],
   "note": "Found exactly (C31_exact): all conversions with a given file length end if and only if the length is a multiple of 5 ms, half the sample interval; for the other lengths the loop can repeat forever. [C31_terminates_partial] C31, file lengths on the sample grid. For every reader, every set of files, every `t1` and `t2`, the conversion ends (normally or with an exception) if the file length is a positive multiple of 10 ms. Missing: other lengths, for which it is false (`C31_violated`). [C31_violated] C31, violated. For every file length that is more than zero but less than half a sample longer than a multiple of 10 ms (for example one seventh of an hour, `10000 * 51428 + 5714` rounded down: any length `10000 c + r`, `0 < r < 5000`) there is a record of a single sample for which the conversion never ends: the last sample of the window is written again and again, because trimming moves the start of the next window back onto it."
  },
  {
   "property": "C32",
   "status": "partial",
   "theorems": [
    "Gemlog.C32_not_before_start_partial",
    "Gemlog.C32_violated_end",
    "Gemlog.C32_not_after_end_partial",
    "Gemlog.C32_any_length_partial",
    "Gemlog.C32_violated_late"
   ],
   "note": "Violated for t2, but only by conversions that then fail: a whole file-length window is written before the data are cut at t2. Every conversion that ends normally keeps to t2 (exactly when t2 is on the sample grid, else within half a sample interval). Proved for t1 in every run and every file length on the grid; within half a sample interval for the others. [C32_not_before_start_partial] C32, the start. In every run with a file length on the sample grid, no written sample is before the requested `t1`. Missing: file lengths off the grid (`C32_any_length_partial`) and the end (`C32_violated_end`). [C32_violated_end] C32, violated (end). A record of three hours, one sample each; hourly files; `t2` is in the first hour. The second sample of the first hour is written although it is after `t2` (and the conversion then raises). [C32_not_after_end_partial] C32, the end. In every conversion that ends normally, whatever the reader, the files, `t1`, the file length and the size of the blocks are, no written sample is after the requested `t2`, up to half a sample interval; and if `t2` is a multiple of the sample interval, no written sample is after `t2` at all. Missing: conversions that fail (`C32_violated_end`). [C32_any_length_partial] C32, the start, for any file length of at least 5 ms. No written sample is 5 ms or more before the requested `t1`. (With a file length on the sample grid none is before `t1`: `C32_not_before_start_partial`.) Missing: shorter files. [C32_violated_late] C32 is violated by every record of one block that has a sample after the requested end `t2`, in the same window of the file length as `t2` and the requested start `t1`: that sample is written, and then the conversion fails."
  },
  {
   "property": "C33",
   "status": "partial",
   "theorems": [
    "Gemlog.C33_violated_start",
    "Gemlog.C33_one_block_partial",
    "Gemlog.C33_violated_end",
    "Gemlog.C33_blocks_exact_partial",
    "Gemlog.C33_one_block_exact_partial",
    "Gemlog.C33_violated_end_blocks"
   ],
   "note": "Violated in two general situations: t1 after all data of a record of several blocks (IndexError), t2 inside a file window that has data (ValueError). For a record in one block it is settled exactly which t1 and t2 make the conversion end normally, and what is then written (C33_one_block_exact_partial). [C33_violated_start] C33, violated (start), for every such record. If the requested start is more than 5 ms after the end of all the data (and not after `t2`) and there are blocks of files after the first one with data, the conversion does not end normally: it fails with an IndexError. [C33_one_block_partial] C33, one block. If all files are in one block, `t2` is far, and the file length is on the grid, the conversion ends normally for every `t1`, whether or not there is anything to write, and writes exactly the samples from `t1` on. Missing: several blocks (see `C33_violated_start`; with data after `t1`: `C29_given_start`), and `t2` inside the data (`C33_violated_end`, `C33_violated_end_blocks`). [C33_violated_end] C33, violated (end), for every such record. If `t2` (on the sample grid) is not at the end of a file-length window, and there is a sample to be converted in the same window, not after `t2`, then the conversion does not end normally: it raises a ValueError. [C33_blocks_exact_partial] C33, exactly, for several blocks and a far end. Let the requested start `t1` be a multiple of the sample interval, the requested end `t2` be far after `t1` and the data, the file length be on the sample grid, and `b` the first block with data. The conversion ends normally if and only if some sample of the record is not before `t1`, or `b` is the last block. Missing: `t2` inside the data, see `C33_one_block_exact_partial` for one block. [C33_one_block_exact_partial] C33, exactly, for one block. All files are in one block, the file length and `t2` are on the sample grid, and `t2` lies in the window of files that begins at `k` file lengths. The conversion ends normally if there is nothing to convert from `t1` on, or if the conversion begins before that window and the window holds no sample up to `t2`; it then writes exactly the samples from `t1` to `t2`. In all other cases it fails. Missing: several blocks, `t2` off the sample grid. [C33_violated_end_blocks] C33, violated (end), for any number of blocks. `C33_violated_end` is about one block. Let `b` be the first block with data, whatever blocks follow, and let `t2` (on the sample grid) not be at the end of a file-length window. If `b` has a sample to be converted in the same window, not after `t2`, then the conversion fails with an exception."
  },
  {
   "property": "C34",
   "status": "proved",
   "theorems": [
    "Gemlog.C34_blocks_cover",
    "Gemlog.C34_blocks_in_order"
   ],
   "note": ""
  },
  {
   "property": "C35",
   "status": "proved",
   "theorems": [
    "Gemlog.C35_fresh_smallest",
    "Gemlog.C35_index_digits"
   ],
   "note": ""
  },
  {
   "property": "C36",
   "status": "partial",
   "theorems": [
    "Gemlog.C36_same_name_iff_partial",
    "Gemlog.C36_violated",
    "Gemlog.C36_cut_partial",
    "Gemlog.C36_distinct_partial",
    "Gemlog.C36_violated_length",
    "Gemlog.C36_lengths",
    "Gemlog.C36_exact_partial",
    "Gemlog.C36_violated_second"
   ],
   "note": "[C36_same_name_iff_partial] C36, names. With the same identifier and format, two segments get the same file name exactly if they start in the same second of UTC time. Missing: different names for every two segments, which is false (`C36_violated`). [C36_violated] C36, violated. A gap of 0.2 s within one second: the two segments of one conversion have the same name, and after the conversion the first segment's samples are in no file. [C36_cut_partial] C36, where segments are cut. For every conversion (without a starting time, or if the reader returns traces that are apart), with every file length on the sample grid, whatever is read: no output segment is empty, and between any two there is either a missing sample or the end of a window. Missing: different names, see below. [C36_distinct_partial] C36, when it holds. For every conversion from the beginning (no starting time) whose file length is a whole number of seconds, whatever is read: if no gap in the written samples is shorter than a second, all segments have different names, and after the conversion, whatever was in the output folder before, each segment is in the file with its name. Missing: shorter gaps (`C36_violated`), other file lengths (`C36_violated_length`). [C36_violated_length] C36 violated: file lengths. The file length is not a whole number of seconds, and window `K` begins within a second. If the samples of that second begin before the window (a gap or the beginning of the conversion is in the same second, or another window begins in it), the sample with which they begin is in no file after the conversion: the part of the record before the window's beginning is replaced by the part after it. [C36_exact_partial] C36, exactly. For every conversion, with every file length on the sample grid, whatever is read and whatever was in the output folder before: all output segments have different names, and are all there at the end, exactly if in no second two files begin. A file begins at a sample after a missing one, and at the first sample of a window. Missing: recordings in which two files begin in one second (`C36_violated`). [C36_violated_second] C36 is violated by every two segments that start in the same second. Whatever else a conversion writes, in whatever folder, the segment written first is in no file at the end."
  },
  {
   "property": "C37",
   "status": "proved",
   "theorems": [
    "Gemlog.C37_repeatable",
    "Gemlog.C37_command",
    "Gemlog.C37_alone"
   ],
   "note": ""
  },
  {
   "property": "C38",
   "status": "proved",
   "theorems": [
    "Gemlog.C38_fills_small_gaps",
    "Gemlog.C38_keeps_and_inserts",
    "Gemlog.C38_nothing_left"
   ],
   "note": ""
  },
  {
   "property": "C39",
   "status": "proved",
   "theorems": [
    "Gemlog.C39_read_gem",
    "Gemlog.C39_read_gem_exceptions",
    "Gemlog.C39_convert_validation",
    "Gemlog.C39_serial_numbers"
   ],
   "note": ""
  },
  {
   "property": "C40",
   "status": "partial",
   "theorems": [
    "Gemlog.C40_selection_exact_partial",
    "Gemlog.C40_ordered",
    "Gemlog.C40_violated",
    "Gemlog.C40_selection",
    "Gemlog.C40_violated_long"
   ],
   "note": "[C40_selection_exact_partial] C40. Exactly the right files are read: those of the directory that are called `FILEdddd.xxx` with a requested number, are larger than 10 bytes, and whose extension is the serial number, or that are called `FILEdddd.TXT` and have the serial number inside. Missing: serial numbers of more than three characters in `.TXT` files, which are cut off (`C40_violated`), and the serial numbers `TXT` and `nan`. [C40_violated] C40, violated. A `.TXT` file with the serial number `0123` inside is read as data of instrument `012`. This holds for every longer number that starts with those of the instrument. [C40_violated_long] C40 is violated for longer serial numbers. For a serial number of more than three characters no file is ever read, whatever is in the directory."
  },
  {
   "property": "C41",
   "status": "proved",
   "theorems": [
    "Gemlog.C41_one_version",
    "Gemlog.C41_versions_never_decrease",
    "Gemlog.C41_bitweights"
   ],
   "note": ""
  },
  {
   "property": "C42",
   "status": "partial",
   "theorems": [
    "Gemlog.C42_gain_and_units",
    "Gemlog.C42_invalid_serial",
    "Gemlog.C42_violated_convert",
    "Gemlog.C42_convert_units",
    "Gemlog.C42_convert_exact"
   ],
   "note": "[C42_violated_convert] C42, violated by `convert`. `get_bitweight_info` accepts `pa` as pascals and rejects an unknown unit, but `convert` knows only the spellings `Pa`, `V`, `Counts` and `counts`: for any other text, however wrong, it raises nothing and writes NaN as bitweight."
  },
  {
   "property": "C43",
   "status": "proved",
   "theorems": [
    "Gemlog.C43_groups",
    "Gemlog.C43_unique"
   ],
   "note": ""
  },
  {
   "property": "C44",
   "status": "partial",
   "theorems": [
    "Gemlog.C44_merged_pressures_partial",
    "Gemlog.C44_cat_all_partial",
    "Gemlog.C44_violated_cut_off",
    "Gemlog.C44_violated_truncated"
   ],
   "note": "[C44_merged_pressures_partial] C44 (missing: files cut off in a line, see `C44_violated_truncated`; format 0.91, see C45). Merging well-formed raw files of formats 0.85C, 0.9 and 1.10, of any mixture and number, succeeds, and reading each output gives the absolute pressures of the files of its group, one after the other. [C44_cat_all_partial] C44 (missing: as above). With `cat_all`, a single file `FILE9999.<serial number>` is written, and reading it gives the absolute pressures of all files. [C44_violated_cut_off] C44 is violated for every file `f` whose last line is a status line, a fix or another line that is not a sample, and has lost its newline, as by a power failure: although all of `f`'s pressures are read from what is left, in the file merged with the next one, `g`, the first sample of `g` is lost, because its line is glued to `f`'s last one, and all the others are off by the difference between the last pressure of `f` and the first one of `g`. [C44_violated_truncated] C44 is violated by a file cut off at the end of its last line, as by a power failure: both files can be read, but the last sample of the first and the first one of the second are glued together in the merged file, one sample is missing, and the others have wrong pressures."
  },
  {
   "property": "C45",
   "status": "partial",
   "theorems": [
    "Gemlog.C45_violated_cat_all",
    "Gemlog.C45_violated",
    "Gemlog.C45_exact"
   ],
   "note": "[C45_violated_cat_all] C45 is violated for the documented differenced format 0.91: whenever a file of this format has to be appended, merging fails. With `cat_all` that is every such file but the first one. [C45_violated] C45 is violated, default mode: a file of format 0.91 without a fix, behind a file with one, makes merging fail."
  },
  {
   "property": "C46",
   "status": "partial",
   "theorems": [
    "Gemlog.C46_alone_ends",
    "Gemlog.C46_any_schedule_partial",
    "Gemlog.C46_all_or_nothing",
    "Gemlog.C46_others_untouched",
    "Gemlog.C46_schedule_irrelevant_partial",
    "Gemlog.C46_one_process",
    "Gemlog.C46_violated_folders",
    "Gemlog.C46_violated_same_codes",
    "Gemlog.C46_summaries",
    "Gemlog.C46_violated_first_run",
    "Gemlog.C46_violated_codes"
   ],
   "note": "[C46_any_schedule_partial] C46, any schedule. If the output folders exist, then however the actions of the conversions interleave, once all have ended the files of each serial number (its GPS and metadata summaries, and the converted files with its identifier) are those its conversion on its own would have left, whatever became of the other serial numbers. Missing: the case that the folders do not exist at the beginning, where it is false (`C46_violated_folders`). [C46_schedule_irrelevant_partial] C46, order. With existing folders the final files do not depend on the schedule: two schedules that end leave the same content under every name. Missing: as above. [C46_violated_folders] C46 is violated on a first run. Two processes start when the output folders do not exist. Both find `gps` missing; the second `makedirs` fails, which ends that conversion. Its files are never written, although on its own it would be complete, and in another interleaving it is. [C46_violated_same_codes] C46 needs different identifiers. A codes file may give two serial numbers the same network, station and location; then the last to write wins, and the result depends on the schedule. [C46_violated_first_run] C46 is violated by every batch that starts without a GPS folder. For any two of its conversions that get past the raw files, the actions can interleave such that the second leaves nothing when all have ended, although it leaves some file if it is alone: both find the folder missing, the first one makes it, and the second one gives up because it cannot make it. [C46_violated_codes] C46 is violated by every codes file that gives two serial numbers the same codes, if both conversions write a segment that starts in the same second. The file is that of whichever comes last: with one schedule it is what the first conversion writes on its own, with another what the second one writes."
  },
  {
   "property": "C47",
   "status": "partial",
   "theorems": [
    "Gemlog.C47_codes_partial",
    "Gemlog.C47_violated_stray",
    "Gemlog.C47_exact",
    "Gemlog.C47_codes_file_partial"
   ],
   "note": "[C47_codes_partial] C47. With a codes file whose serial numbers are numbers, and if all serial numbers wanted are numbers: the conversions are those of the wanted serial numbers that have a row in the table (the same number, leading zeros not mattering), in increasing order, the others being skipped; and each gets network, station and location from the first row with its number. Missing: raw folders with other files in them (`C47_violated_stray`). [C47_violated_stray] C47 is violated by stray files. If the input folder contains any file whose characters 9 to 12 are not a number (such as `FILE0003.TXT`, `notes` or `.DS_Store`), then with a codes file the program ends by an uncaught exception and nothing at all is converted, whatever the other files and the table are. [C47_codes_file_partial] C47. The codes file is a table whose header line names the columns, in any order and in capitals or not. Then a serial number that is wanted is converted exactly if some line has it, and it gets the cells `network`, `station` and `location` of the first such line. Missing: raw folders with other files in them (`C47_violated_stray`)."
  },
  {
   "property": "C48",
   "status": "proved",
   "theorems": [
    "Gemlog.C48_pass",
    "Gemlog.C48_safe",
    "Gemlog.C48_close_together"
   ],
   "note": ""
  },
  {
   "property": "C49",
   "status": "partial",
   "theorems": [
    "Gemlog.C49_newest_partial",
    "Gemlog.C49_history_partial",
    "Gemlog.C49_violated_thousand",
    "Gemlog.C49_violated_stray",
    "Gemlog.C49_violated_files",
    "Gemlog.C49_no_hole_partial",
    "Gemlog.C49_violated_removed",
    "Gemlog.C49_exact_partial"
   ],
   "note": "[C49_newest_partial] C49 (missing: index 1000 and up, other files that begin with the serial number, single files as input; see the `C49_violated` theorems). For folders (in any number and listing order) that hold logs numbered up to 999 and nothing else that begins with the serial number, exactly the rows of the log with the highest number in each folder are read. [C49_history_partial] C49, histories (missing: more than 1000 conversions of an instrument). Convert instruments in any order, any number of times, always into the same GPS folder, which was empty at first. Reading the log of an instrument that was converted at most 1000 times gives the fixes of its latest conversion. [C49_violated_thousand] C49 is false from the 1001st conversion on. Convert instruments in any order into the same GPS folder; after 1001 to 9990 conversions of an instrument the fixes of its 1000th are read: `SNgps_1000.txt` comes before `SNgps_999.txt`. [C49_violated_stray] C49 is false with other files in the folder. Any file whose name begins with the serial number is taken for a log. A file of any kind whose name comes after those of the logs, such as a note, hides all of them. [C49_violated_files] C49 is false for a list of files, such as `gps/*` on the command line of `gem_make_inventory`: all logs of the instrument are read, so that fixes of repeated conversions count several times. [C49_no_hole_partial] C49, the log just written, exact condition (together with `C49_violated_removed`). Take any GPS folder in which everything that begins with the serial number is a log with a number up to 998, for instance one from which logs have been removed. If there is no hole in the numbers, what is read after one more conversion are the fixes of that conversion. Missing: holes in the numbers (`C49_violated_removed`), and numbers from 1000 on (`C49_violated_thousand`). [C49_violated_removed] C49 is false for a folder from which logs have been removed. If any number below the highest one is unused, the next conversion takes such a number for its log, and what is read after it is the old log with the highest number, not the log just written. [C49_exact_partial] C49, the log just written, exactly. Take any GPS folder in which everything that begins with the serial number is a log with a number up to 998, for instance one from which logs have been removed. The fixes read after one more conversion are those of that conversion, whatever they are, if and only if there is no hole in the numbers. Missing: other files, and higher numbers (`C49_violated_stray`, `C49_violated_thousand`)."
  },
  {
   "property": "C50",
   "status": "partial",
   "theorems": [
    "Gemlog.C50_windows_partial",
    "Gemlog.C50_covered",
    "Gemlog.C50_violated_last",
    "Gemlog.C50_violated_one",
    "Gemlog.C50_violated_short",
    "Gemlog.C50_exact"
   ],
   "note": "[C50_windows_partial] C50. If the data are longer than a window, the windows start at the first sample, the last of them starts one window length before the end, they are equally spaced, at most `win * (1 - overlap)` apart (up to a part in a million), and any smaller number of windows (two or more) would be further apart than that. Partial: the data must be longer than a window (see `C50_violated_one` and `C50_violated_short`), and though the last window ends at the last sample, it does not contain it (see `C50_violated_last`). [C50_violated_last] C50 is violated: whatever the parameters, no sample at the end of the data, or later, is in any window. [C50_violated_one] C50 is violated: data exactly one window long are not analysed, but raise ZeroDivisionError. So are data a little longer (less than a millionth of the step), or shorter by less than a step. [C50_violated_short] C50 is violated: still shorter data are not analysed at all; the result is empty, without an error."
  },
  {
   "property": "C51",
   "status": "partial",
   "theorems": [
    "Gemlog.C51_exact",
    "Gemlog.C51_aligned_partial",
    "Gemlog.C51_violated_t_mid"
   ],
   "note": "[C51_aligned_partial] C51. Whatever results the analysis of each window has, every column of the result has one entry per window, in order: the window's own value if it has one of that name, NaN if not; a column is there if and only if some window has a value for it; and the column `t_mid` has the middles of the windows. Partial: the analysis must not itself use the name `t_mid` (see `C51_violated_t_mid`). [C51_violated_t_mid] C51 is violated: if an analysis returns a value named `t_mid`, that column gets two entries per window."
  },
  {
   "property": "C52",
   "status": "partial",
   "theorems": [
    "Gemlog.C52_plane_wave",
    "Gemlog.C52_collinear",
    "Gemlog.C52_direction",
    "Gemlog.C52_windows",
    "Gemlog.C52_violated_gap"
   ],
   "note": "[C52_violated_gap] C52 is violated: if the sensor `b` of three is missing in the first window, and all sensors are there in the later ones (at least one), the inversion raises an exception, whatever the lags and positions: it orders the sensors by their first appearance, `a`, `c`, `b`, and looks for a lag between `c` and `b`, where the table has one between `b` and `c`."
  },
  {
   "property": "C53",
   "status": "partial",
   "theorems": [
    "Gemlog.C53_violated",
    "Gemlog.C53_no_upper_limit_partial",
    "Gemlog.C53_violated_window",
    "Gemlog.C53_violated_window_read",
    "Gemlog.C53_read_blocks_partial",
    "Gemlog.C53_violated_unread"
   ],
   "note": "Violated in two ways. With t2 inside the record the main loop advances by two days and can stop before reading a block whose data are before t2. And no conversion that ends normally writes a sample of the file-length window containing t2 (C53_violated_window), for any number of blocks. Proved for a far t2. [C53_violated] C53 is violated by a `t2` inside the record: the conversion ends normally, but a block whose data lie before `t2` is never read. [C53_no_upper_limit_partial] C53, without an upper limit. If `t2` is far behind the data, everything from `t1` on is converted. Missing: limits `t2` within the data, for which it is false. [C53_violated_window] C53, violated: the last window. The samples in the last window before the limit are never delivered. Whatever the reader, the files and their blocks, `t1` and `t2` (on the sample grid) are: if a conversion with file length `L` ends normally and `t2` lies in the window that begins at `k` file lengths, then no sample of this window is written, not even those before `t2`. (With samples there, the conversion fails or leaves them out.) [C53_violated_window_read] C53, violated: nothing read in the last window. Any number of blocks; `t2` (on the sample grid) lies in the window that begins at `k` file lengths. A conversion that ends normally has read no sample at all between the beginning of that window (or `t1`) and `t2`: whatever data there are, they are in blocks it has not read. [C53_read_blocks_partial] C53, any number of blocks. In every conversion that ends normally, for any reader, files, block size, `t1` and `t2`: the blocks read are the first ones of the selected files. Every sample read that is between the limits is written. What is written is in order, without duplicates, and consists (up to `t2`) of samples that were read and of the filling of small gaps between them. And no sample of the selected files, read or not, from the start to `t2` less one block and a second is missing. Missing: the last block before `t2` (`C53_violated`), and conversions that fail (`C33_violated_start`, `C33_violated_end`). [C53_violated_unread] C53, violated: blocks that are never read. If the first block that has data reaches into the block length (usually the day) after the one of `t1`, and `t2` is there, then a conversion that ends normally has read no other block, and whatever data the other blocks have before `t2` are not converted. (`C53_violated` is such a conversion.)"
  },
  {
   "property": "C54",
   "status": "partial",
   "theorems": [
    "Gemlog.C54_no_loss_without_overlap_partial",
    "Gemlog.C54_violated",
    "Gemlog.C54_exact_partial",
    "Gemlog.C54_earlier_partial",
    "Gemlog.C54_later_partial",
    "Gemlog.C54_rejoined_partial"
   ],
   "note": "Violated: an overlap by a single differing sample masks the whole earlier trace (C54_violated). Proved: without overlap nothing is lost; for traces in the order of their starts, the exact effect of an overlap, that it reaches neither back nor forward over a gap, and that nothing is lost if more data follow. [C54_no_loss_without_overlap_partial] C54. Merging a record that contains no overlap never loses a sample (`C38_keeps_and_inserts`); in particular nothing is lost outside overlaps. Missing: records with overlaps (`C54_violated`, `C54_exact_partial`). [C54_violated] C54 is violated. Two traces that overlap by one sample: the whole earlier trace disappears, not only the contradictory sample. If a short trace lies inside a longer one, the whole longer one disappears. [C54_exact_partial] C54, the exact effect of an overlap. Two traces that overlap: what comes after the end of the first one is always kept. What the first one holds is kept if the two agree (or if, by coincidence, the first one follows the straight line put in place of contradictory samples); otherwise *all* of it is lost, not only the contradictory samples. Missing: that it is always kept, which is false. [C54_earlier_partial] C54, earlier data. A record in order followed by further traces, which may overlap it: all that was recorded before the last run of the record (the part with no gap above 30 ms) is not affected by what follows. Missing: the last run itself (`C54_exact_partial`). [C54_later_partial] C54, later data. What is recorded after a gap of more than 30 ms is not affected by overlaps before the gap, and does not affect what is before it. Missing: what is recorded up to the gap (`C54_exact_partial`). [C54_rejoined_partial] C54, overlaps followed by more data. If an unbroken stretch of traces, with any overlaps in it, is followed within 30 ms by another trace that overlaps none of them, then nothing is lost: the result is one trace from the beginning to the end, and it has every sample that lies outside the overlaps. Missing: overlaps not followed by more data (`C54_exact_partial`)."
  },
  {
   "property": "C55",
   "status": "partial",
   "theorems": [
    "Gemlog.C55_exact_partial",
    "Gemlog.C55_any_order_partial",
    "Gemlog.C55_survives_gaps_partial",
    "Gemlog.C55_violated",
    "Gemlog.C55_fixes_partial",
    "Gemlog.C55_violated_first_fixes",
    "Gemlog.C55_suspect",
    "Gemlog.C55_wrong_date"
   ],
   "note": "[C55_exact_partial] C55, exact. The fixes that are not suspect being in increasing order of time, the assignment of times to a block fails in exactly two cases. One: the first two steps between samples are gaps, and there are at least five samples (or four without a gap at the last step). Two: the clock jumps between the first two of three or more fixes, and the samples next to a gap lie at these two fixes; if the first or the last step is a gap, it does not count, and the sample before or behind it is left out. Missing: fixes not in increasing order, see `C55_any_order_partial`. [C55_any_order_partial] C55, exact, fixes in any order. The two cases of `C55_exact_partial` are the only ones in which a block is unreadable even if the fixes are in disorder, as long as for each jump of the clock between two successive fixes, except for the last jump: if there is a fix later than the first of the two, there is one earlier than the second, and conversely. (In increasing order there are always both; and neither, if the first fix is later than all others and the second earlier.) Missing: jumps for which there is only one of the two. [C55_survives_gaps_partial] C55. With steady fixes, the search for breaks, and with it the assignment of times, survives any gaps between samples except these: both of the first two steps are gaps and there are at least five samples (or four without a gap at the last step). Missing: that case (`C55_violated`) and unsteady fixes. [C55_violated] C55, violated. Whatever the fixes: if the first two steps between samples are gaps (a gap is more than 25 counts, and up to 1000 are accepted within a file) and there are at least five samples in the whole block, times are assigned to no sample of the block; `read_gem` fails with CorruptRawFile, and `convert` skips all its files. [C55_fixes_partial] C55, fixes. The fixes that are not suspect being in increasing order of time, and the clock rate good between the first two of them (or there being at most two), breaks elsewhere between the fixes never make a block unreadable: the assignment of times fails in exactly the case of `C55_survives_gaps_partial`. Missing: a break between the first two fixes (`C55_violated_first_fixes`), and fixes not in increasing order. [C55_violated_first_fixes] C55, violated by fixes. If the clock jumps between the first two of three or more fixes (a leap second taking effect, say) and the samples have a gap between these two fixes, no sample of the whole block gets a time."
  },
  {
   "property": "C56",
   "status": "partial",
   "theorems": [
    "Gemlog.C56_one_kind_partial",
    "Gemlog.C56_convert_partial",
    "Gemlog.C56_violated",
    "Gemlog.C56_formats"
   ],
   "note": "[C56_one_kind_partial] C56 for files of one kind (missing: blocks with files of several kinds, see `C56_violated`). If the files selected are all of the newer formats (in any mixture of 0.85C, 0.9, 0.91 and 1.10), or all of one old format, `read_gem` returns or raises the same as if each file were given to the reader of the version in its own first line. [C56_convert_partial] C56 for `convert`. The same holds for a conversion of a directory if it holds for every block, in particular if all its files are of one kind. [C56_violated] C56, violated. The format version of a file counts only if it is the first readable one of its block: whatever the versions of the other files, they are read with the reader of the first."
  },
  {
   "property": "C57",
   "status": "partial",
   "theorems": [
    "Gemlog.C57_selected_partial",
    "Gemlog.C57_listing_order",
    "Gemlog.C57_one_serial_number",
    "Gemlog.C57_violated",
    "Gemlog.C57_violated_prefix",
    "Gemlog.C57_violated_one_file",
    "Gemlog.C57_violated_mixed"
   ],
   "note": "[C57_selected_partial] C57 (missing: the extension must be given, and is only compared as far as it goes, see `C57_violated` and `C57_violated_prefix`). Merging uses exactly the files of the folder called `FILEdddd.<ext>...`, each once, in order of their numbers, in whatever order the folder lists them. [C57_violated] C57 is violated when no extension is given: the file of instrument 002 is appended to that of instrument 001, and nothing is written for 002. [C57_violated_prefix] C57 is violated even with one: extension `001` also selects the files of instrument 0012. [C57_violated_one_file] C57 is violated by any two files of different instruments in a folder, if all files are merged into one and no extension is given: whatever well-formed content they have, the single output, named after the first instrument, is read as the pressures of the first instrument followed by those of the second, whatever the serial number of the second. [C57_violated_mixed] C57 is violated in every folder with files of two instruments that the extension (or its absence) selects: there is one instrument, and nothing is written under the number of another, whatever the folder has of it."
  },
  {
   "property": "C58",
   "status": "partial",
   "theorems": [
    "Gemlog.C58_rest_kept_partial",
    "Gemlog.C58_violated",
    "Gemlog.C58_violated_header",
    "Gemlog.C58_violated_header_default"
   ],
   "note": "[C58_rest_kept_partial] C58 (missing: the lines before the first sample of an appended file, see `C58_violated`). From the first file with a fix on, every file is in one of the outputs, completely, or from the line behind its first sample on. [C58_violated] C58 is violated by a file with a GPS line before its first sample: the line is in no output, and the fix is lost. [C58_violated_header] C58 is violated by what stands before the first sample of a file that is appended, GPS lines among it: with `cat_all`, the output is the same whatever the last file's lines between its first line and its first sample are. [C58_violated_header_default] The same by default, where the file before the last one has no fix, and an earlier one has: the output is the same whether the last file has fixes in front of its first sample or none."
  },
  {
   "property": "C59",
   "status": "partial",
   "theorems": [
    "Gemlog.C59_short_forms",
    "Gemlog.C59_rest_ignored",
    "Gemlog.C59_settings",
    "Gemlog.C59_help",
    "Gemlog.C59_comma_lists",
    "Gemlog.C59_command_line_partial",
    "Gemlog.C59_default_all",
    "Gemlog.C59_inputdir_long",
    "Gemlog.C59_violated_long_forms",
    "Gemlog.C59_violated_serialnumber",
    "Gemlog.C59_violated_processes",
    "Gemlog.C59_violated_txt",
    "Gemlog.C59_violated_few_processes"
   ],
   "note": "[C59_command_line_partial] C59. With documented short options in any order and number (without `-h` and `-c`), and an input folder that can be listed: the serial numbers wanted are treated in increasing order, each once. With `-t` they are only listed. Otherwise each is converted with the last input folder, output folder, format and length given, or the defaults, on the number of processes given. Missing: the long forms of the options, which do not work (`C59_violated_long_forms`), and a number of processes below one (`C59_violated_processes`). [C59_violated_long_forms] C59 is violated by the long forms. Of the documented long options (`--serialnumbers`, `--exclude_serialnumbers`, `--outputdir`, `--format`, `--length`, `--test`, `--parallel`, `--help`) none is accepted: the program prints the call and ends, whatever the value and the surroundings. [C59_violated_serialnumber] C59 is violated by `--serialnumber`. It is accepted, and its value ignored: all instruments present are converted. [C59_violated_processes] C59 is violated by `-p 0`: an uncaught exception, nothing is converted. [C59_violated_txt] C59 is violated by raw files named `.TXT`. Instrument software may name raw files `FILEnnnn.TXT` (accepted elsewhere: core.py:152-153); the serial number is then in the file. By default `gemconvert` takes `TXT` for the serial number and does not look for the instrument. [C59_violated_few_processes] C59 is violated by every number of processes below one: an uncaught exception, nothing is converted."
  },
  {
   "property": "C60",
   "status": "partial",
   "theorems": [
    "Gemlog.C60_once_partial",
    "Gemlog.C60_violated_midnight",
    "Gemlog.C60_violated_part_day",
    "Gemlog.C60_days",
    "Gemlog.C60_violated_last_seconds"
   ],
   "note": "[C60_once_partial] C60. If the run starts in the first second of a UTC day, every sample of a wanted channel between `t1` and `t2` is handed to exactly one daily analysis, and there as often as it is in the files; other samples are handed to none. Partial: samples at the boundaries between the days are excepted (see `C60_violated_midnight`), and so are runs that start at another time of day (see `C60_violated_part_day`). The run starts at `t1`, or at the first sample if that is later. [C60_violated_midnight] C60 is violated: a sample at the midnight between the first and the second day is handed to both. [C60_violated_part_day] C60 is violated: if the run starts at another time of day (after the first second, and before the last two), everything from the next midnight to 24 hours after the start is handed to the first two days both. [C60_violated_last_seconds] C60 is violated at the end of a day. If the run starts in the last two seconds of a day, the samples more than 24 hours after the start and before the second next midnight are handed to no daily analysis."
  },
  {
   "property": "C61",
   "status": "partial",
   "theorems": [
    "Gemlog.C61_command_line_exact",
    "Gemlog.C61_summary_partial",
    "Gemlog.C61_period_partial",
    "Gemlog.C61_violated_period",
    "Gemlog.C61_violated_pattern",
    "Gemlog.C61_command_line_partial",
    "Gemlog.C61_violated_substring",
    "Gemlog.C61_codes",
    "Gemlog.C61_violated_part",
    "Gemlog.C61_violated_home"
   ],
   "note": "[C61_summary_partial] C61 (missing: fixes outside the period do influence which ones are taken for outliers, see `C61_violated_period`). For every input, period and lists: the summary has its serial numbers in strictly increasing order, and has a row for `sn` exactly if some log found is named after `sn`, `sn` passes the lists, and after removing outliers (`C48`) from the rows of its newest logs (`C49`) some fix lies in the period (limits included). That row holds the means, standard errors, first and last time and number of those fixes. [C61_period_partial] C61, period (missing: as above). If no fix of an instrument is an outlier among all its fixes, only the fixes in the period count. [C61_violated_period] C61 is false when most fixes were taken elsewhere. Outliers are removed before the period is applied. Here 29 fixes at home precede the period and one fix lies in it; asked for the period, the summary leaves the instrument out, although without the earlier fixes it would be listed. [C61_violated_pattern] C61 is false for a pattern that matches files: `summarize_gps('gps/*')` finds no instruments. [C61_command_line_partial] C61, command line (missing: other lengths, see `C61_violated_substring`). The lists of serial numbers on the command line are passed on as text and searched for each serial number. For serial numbers of three characters separated by commas this finds exactly the listed ones. [C61_violated_substring] C61 is false for text in general. Excluding `1077` on the command line excludes `077`. [C61_violated_part] C61 is violated by every number inside another. On the command line, naming an instrument also names every instrument whose number is part of that number; as a list it does not. [C61_violated_home] C61 is violated by every instrument that was tested long enough at home. If the fixes of the period asked for were taken at one latitude, all others at another one (0.0001 degrees or more from it, that is 11 m), and there are a hundred times as many of those, the instrument is left out of the summary, however many fixes the period has."
  },
  {
   "property": "C62",
   "status": "partial",
   "theorems": [
    "Gemlog.C62_channels",
    "Gemlog.C62_stations",
    "Gemlog.C62_made",
    "Gemlog.C62_violated_network"
   ],
   "note": "[C62_violated_network] C62 is false if a network has no coordinates at all. Then no inventory is made, not even for the other networks."
  },
  {
   "property": "C63",
   "status": "partial",
   "theorems": [
    "Gemlog.C63_header_partial",
    "Gemlog.C63_violated_optional",
    "Gemlog.C63_violated_no_header",
    "Gemlog.C63_no_header",
    "Gemlog.C63_violated_gemconvert",
    "Gemlog.C63_exact"
   ],
   "note": "[C63_header_partial] C63 (missing: tables without location or network column, or without header line, see below). A station table whose header names the columns SN, network, station, location and perhaps elevation, in any order and capitalisation, is read completely: one row per line, each field from its column as text, the elevation -9999 if there is none. [C63_violated_optional] C63 is false without a location or network column, although the documentation of `gem_make_inventory` calls them optional: such a table is not read, whatever its rows. [C63_violated_no_header] C63 is false without a header line, although the code means to accept such tables: the first line contains the serial number, which pandas reads as a number (or blank codes, which it reads as missing). [C63_violated_gemconvert] C63, effect on `gemconvert`. With a codes file that cannot be read, `gemconvert -c` converts nothing."
  },
  {
   "property": "C64",
   "status": "proved",
   "theorems": [
    "Gemlog.C64_read_gem",
    "Gemlog.C64_header"
   ],
   "note": ""
  },
  {
   "property": "C65",
   "status": "proved",
   "theorems": [
    "Gemlog.C65_status_times",
    "Gemlog.C65_read_back",
    "Gemlog.C65_gapless"
   ],
   "note": ""
  },
  {
   "property": "C66",
   "status": "proved",
   "theorems": [
    "Gemlog.C66_convert"
   ],
   "note": ""
  },
  {
   "property": "C67",
   "status": "partial",
   "theorems": [
    "Gemlog.C67_violated_fixes",
    "Gemlog.C67_status_times",
    "Gemlog.C67_tables",
    "Gemlog.C67_all_blocks",
    "Gemlog.C67_clean",
    "Gemlog.C67_violated_early_fixes"
   ],
   "note": "[C67_violated_fixes] C67 is violated by every conversion with a given start `t1` (microseconds) that reads a fix of an earlier time in any but the first block with data. When the conversion has ended, the GPS file holds the fix `f` although it is earlier than a second before `t1`; such a fix of the first block with data is left out. [C67_violated_early_fixes] C67, violated. With a given start the GPS file should hold no fix earlier than a second before it, as for the first block. It can hold earlier ones: here the start is 93605 s, and the fix of the second block at 93600 s is written although no data before 93605 s are."
  },
  {
   "property": "C68",
   "status": "proved",
   "theorems": [
    "Gemlog.C68_name",
    "Gemlog.C68_renamed",
    "Gemlog.C68_nothing_lost",
    "Gemlog.C68_violated_shared_codes",
    "Gemlog.C68_violated_daily_pattern"
   ],
   "note": "Everything in the statement is proved; the theorems named _violated show what happens when its conditions (different codes, default pattern) are not met. [C68_violated_shared_codes] C68, violated for tables that give two instruments the same codes. Then a file of the second instrument silently replaces the file of the first that starts in the same second: after renaming both into an empty directory, all there is are the samples of the second. [C68_violated_daily_pattern] C68, violated for patterns without the time of the day. Of all files of one instrument that start on the same day only the last remains."
  },
  {
   "property": "C69",
   "status": "proved",
   "theorems": [
    "Gemlog.C69_exact",
    "Gemlog.C69_days",
    "Gemlog.C69_violated_mixed"
   ],
   "note": "Everything in the statement is proved for the directories it names (no channel code an ending of another); the theorem named _violated shows what happens otherwise. [C69_violated_mixed] C69 is violated when the codes of a channel are an ending of those of another, as for the networks `A` and `XA`, or no network and any other: the file of the first channel also gets the traces of the second."
  },
  {
   "property": "C70",
   "status": "proved",
   "theorems": [
    "Gemlog.C70_hold",
    "Gemlog.C70_overlaps",
    "Gemlog.C70_violated_contained",
    "Gemlog.C70_channels",
    "Gemlog.C70_violated_gaps"
   ],
   "note": "Everything in the statement is proved; the theorems named _violated show what happens to overlapping traces, and that gaps leave no sign. [C70_violated_contained] C70, contained traces. The samples of a trace are dropped if an earlier trace covers it, also if they differ. [C70_violated_gaps] C70, gaps. A gap of any length between two files leaves no sign in the merged file: it is filled with a constant, and the result is the same as that of a recording without gap in which the constant was recorded."
  },
  {
   "property": "C71",
   "status": "partial",
   "theorems": [
    "Gemlog.C71_codes_exact",
    "Gemlog.C71_station_exact",
    "Gemlog.C71_channels",
    "Gemlog.C71_samples",
    "Gemlog.C71_violated_parts",
    "Gemlog.C71_violated_patterns"
   ],
   "note": "[C71_violated_parts] C71, parts of identifiers. Asking for a station by its code also yields every other channel whose identifier contains the code: asking for station `12` yields stations `112` and `120`, too. Excluding works the same way. [C71_violated_patterns] C71, patterns. A regular expression that begins like a complete identifier is taken for one, and finds nothing, although the comment in the code invites regular expressions: here a choice between two stations that are both in the data."
  },
  {
   "property": "C72",
   "status": "partial",
   "theorems": [
    "Gemlog.C72_maximum",
    "Gemlog.C72_pulse",
    "Gemlog.C72_violated_dead",
    "Gemlog.C72_consistency",
    "Gemlog.C72_violated_consistency",
    "Gemlog.C72_largest_lag",
    "Gemlog.C72_array"
   ],
   "note": "[C72_violated_dead] C72, dead sensors. For a trace of constant value, the shift reported is the largest possible in the negative direction, one second. [C72_violated_consistency] C72, consistency. The comment in the code says that it should allow up to one sample error for each of the `n` correlations; but with two or more sensors, shifts that add up to more than `n` samples still count as consistent."
  },
  {
   "property": "C73",
   "status": "proved",
   "theorems": [
    "Gemlog.C73_upsample"
   ],
   "note": ""
  },
  {
   "property": "C74",
   "status": "partial",
   "theorems": [
    "Gemlog.C74_exact",
    "Gemlog.C74_defaults_exact",
    "Gemlog.C74_numbers",
    "Gemlog.C74_other",
    "Gemlog.C74_windows",
    "Gemlog.C74_violated_nan",
    "Gemlog.C74_defaults_partial",
    "Gemlog.C74_no_options",
    "Gemlog.C74_violated_defaults"
   ],
   "note": "[C74_violated_nan] C74, NaN. A window length that is not a number (NaN) is accepted, although the message demands a positive number. [C74_defaults_partial] C74, defaults. Any of the options may be given or omitted, but the overlap and the upsampling ratio both or neither. Then the analysis of a day uses each option given and the default of each omitted, of 5 to 40 Hz, windows of 5 s without overlap and no upsampling; it fails exactly if these values are not accepted. Missing: the other combinations (`C74_violated_defaults`). [C74_violated_defaults] C74, defaults. If an upsampling ratio is given but no overlap, there is no upsampling; if an overlap is given but no upsampling ratio, the analysis always fails, instead of using the default ratio 1."
  },
  {
   "property": "C75",
   "status": "partial",
   "theorems": [
    "Gemlog.C75_wave",
    "Gemlog.C75_rate",
    "Gemlog.C75_violated_amplitude",
    "Gemlog.C75_violated_trace",
    "Gemlog.C75_files"
   ],
   "note": "[C75_violated_amplitude] C75, amplitudes. The amplitude of a recording is lost: whatever the trace, a trace that is louder or quieter by any factor, or that is shifted, gives the same file. Since every file of a conversion is scaled on its own, amplitudes cannot be compared between the files of one recording, nor between instruments. [C75_violated_trace] C75, the caller's trace. Writing a trace changes it: afterwards it holds what was written to the file, in units of the largest amplitude, instead of the recorded samples; also if the rate is refused and nothing is written."
  },
  {
   "property": "C76",
   "status": "partial",
   "theorems": [
    "Gemlog.C76_header",
    "Gemlog.C76_printed",
    "Gemlog.C76_violated_damaged",
    "Gemlog.C76_violated_late",
    "Gemlog.C76_violated_order",
    "Gemlog.C76_blank_lines",
    "Gemlog.C76_recording",
    "Gemlog.C76_no_serial"
   ],
   "note": "[C76_violated_damaged] C76, default. If no line of the file starts with `C,` and has exactly six commas, for example since the line is damaged, the default configuration (high gain) is used; no problem is reported. [C76_violated_late] C76, late line. A configuration line is ignored if eleven or more comment lines come before it: the default configuration (high gain) is used, whatever the line says. [C76_violated_order] C76, order. If any other line of one or two fields, such as a sample, comes before the line with the serial number, the serial number is not found, although it is in the file."
  },
  {
   "property": "C77",
   "status": "partial",
   "theorems": [
    "Gemlog.C77_results",
    "Gemlog.C77_messages",
    "Gemlog.C77_clean",
    "Gemlog.C77_violated_missing",
    "Gemlog.C77_violated_return",
    "Gemlog.C77_violated_stack",
    "Gemlog.C77_violated_short",
    "Gemlog.C77_selection"
   ],
   "note": "[C77_violated_missing] C77 violated: missing readings. If the first battery reading of a logger is missing, both battery tests say OKAY, whatever the other readings are; likewise for temperatures. [C77_violated_return] C77 violated: the report. The documentation promises a dictionary of the errors, warnings and results; nothing is returned. [C77_violated_stack] C77 violated: the unused stack. The warning about the unused stack does not say which logger it is about. [C77_violated_short] C77 violated: one bad logger. If one logger has fewer than two rows of metadata, or less than a day of them and no time in the second row, the test raises an exception, and there are no results for any logger."
  },
  {
   "property": "C78",
   "status": "partial",
   "theorems": [
    "Gemlog.C78_times",
    "Gemlog.C78_agree",
    "Gemlog.C78_violated_missing",
    "Gemlog.C78_violated_individual_only"
   ],
   "note": "[C78_violated_missing] C78 violated: missing times. If the first time of a logger is missing, it is said to start too late and to stop too early, whatever its other times are. [C78_violated_individual_only] C78 violated: single tests only. With `individual_only` the loggers are compared all the same: the same exceptions and the same errors result as without; there is only a warning, which says that there is one logger."
  },
  {
   "property": "C79",
   "status": "partial",
   "theorems": [
    "Gemlog.C79_violated_no_interval",
    "Gemlog.C79_mixed_partial",
    "Gemlog.C79_temperatures_partial",
    "Gemlog.C79_sound",
    "Gemlog.C79_violated_two",
    "Gemlog.C79_violated_interval",
    "Gemlog.C79_violated_brief",
    "Gemlog.C79_violated_times",
    "Gemlog.C79_violated_uneven",
    "Gemlog.C79_violated_shift",
    "Gemlog.C79_violated_label"
   ],
   "note": "[C79_violated_no_interval] C79 violated: missing times. If no two consecutive rows of one of the loggers have times, the test of all loggers ends with an exception, whatever the rows of the others hold. [C79_mixed_partial] C79, loggers with different intervals. Loggers with about one row every `d` seconds, where `d` may be different for each logger but divides 60 and there are `w` rows a minute, which together span at least twelve minutes, are compared without an exception. Messages about temperatures are exactly these: for a minute `c`, the loggers whose temperature in row `w c` is more than 1.5 degrees from the median of all loggers (to two decimals), if there are any. Each logger takes part up to the row nearest to ten minutes before the end. The time given counts, for each minute, as many seconds as the last logger has rows a minute. Missing: intervals that do not divide 60 (see `C79_violated_uneven`), and rows that are closer than the interval. [C79_temperatures_partial] C79. Loggers with about one row every `d` seconds, where `d` divides 60 and there are `w` rows a minute, which together span at least twelve minutes, are compared without an exception. Messages about temperatures are exactly these: for a minute `c`, the loggers whose temperature in row `w c` is more than 1.5 degrees from the median of all loggers (to two decimals), if there are any. Each logger takes part up to the row nearest to ten minutes before the end. Missing: intervals that do not divide 60 (see `C79_violated_uneven`), and rows that are closer than the interval; for loggers with different intervals, see `C79_mixed_partial`. [C79_violated_two] C79 violated: two loggers. The code asks for temperatures within 2 degrees of each other; but two loggers pass if they differ by up to 2.99 degrees all the time. [C79_violated_interval] C79 violated: fast clocks. If the rows of one logger are less than a second apart on average (its clock runs slightly fast, or it has one row more than it should), the test of all loggers ends with a division by zero. [C79_violated_brief] C79 violated: brief tests. If all loggers together span less than ten minutes, the test ends with an exception, whatever their rows hold. [C79_violated_times] C79 violated: times. If the last logger has a row every `d` seconds, two or more, the time in a message is too early, by at least half a minute for each minute since the start: a logger named in it had the temperature in question in its own minute `c`, but the time given is at least `(60 - w) c` seconds before, where the last logger has `w` rows a minute. [C79_violated_uneven] C79 violated: other intervals. If one of the loggers has a row about every `d` seconds, where `d` does not divide 60, and it recorded for more than a minute before the last eleven minutes of the test, the test of all loggers ends with an exception, whatever the rows hold. The other loggers may have any intervals of a second or more. [C79_violated_shift] C79 violated: late starts. Two loggers in the same place with the same temperature at any time, one of which starts ten minutes later (which is allowed): the temperatures are said to disagree, since rows are counted from the first row of each logger. [C79_violated_label] C79 violated: times. For loggers with a row every ten seconds, the time in a message is wrong: here the temperatures disagree only five minutes after the start, and the message says half a minute."
  },
  {
   "property": "C80",
   "status": "partial",
   "theorems": [
    "Gemlog.C80_read_single",
    "Gemlog.C80_violated_read_gem",
    "Gemlog.C80_violated_convert",
    "Gemlog.C80_convert_behind_original",
    "Gemlog.C80_violated_first",
    "Gemlog.C80_behind_original"
   ],
   "note": "[C80_violated_read_gem] C80, violated. The transcoder writes `1.1` as the format, which `read_gem` does not know: for every raw directory whose selected files are transcoded, `read_gem` raises, whatever the readers would return. [C80_violated_convert] C80, violated. Converting a raw directory whose files are all transcoded ends with an exception, and no data are written: for all large enough bounds on the number of loop iterations. [C80_violated_first] C80, violated: the first file. One transcoded file is enough: if the first of the selected files is transcoded, `read_gem` raises, whatever the others are."
  },
  {
   "property": "C81",
   "status": "partial",
   "theorems": [
    "Gemlog.C81_lines",
    "Gemlog.C81_refused",
    "Gemlog.C81_violated_times",
    "Gemlog.C81_violated_read_gem"
   ],
   "note": "[C81_violated_times] C81, violated. The format 0.95 loses half of the information on time: moving all samples by 4096 ms relative to the GPS lines changes the original, but not the transcoded file, for every recording of samples of at most 12 counts. [C81_violated_read_gem] C81, violated. `read_gem` does not know the format 0.95 either: it raises for every selection of such files."
  },
  {
   "property": "C82",
   "status": "partial",
   "theorems": [
    "Gemlog.C82_same_as_read_gem",
    "Gemlog.C82_read_gem_too",
    "Gemlog.C82_transcoded",
    "Gemlog.C82_violated_old_format",
    "Gemlog.C82_violated_reason"
   ],
   "note": "[C82_violated_old_format] C82, violated: old formats. The format of the file is not looked at. For files of the formats 0.8 and 0.85 `read_gem` uses a reader of their own, and what that reader returns makes no difference here. [C82_violated_reason] C82, violated: the reason given. Whatever keeps the file from being read, be it damaged, empty or its clock inadequate, the exception raised says that there are no GPS data, even if GPS data are not required."
  },
  {
   "property": "C83",
   "status": "partial",
   "theorems": [
    "Gemlog.C83_options",
    "Gemlog.C83_default_output",
    "Gemlog.C83_given_output",
    "Gemlog.C83_written_iff",
    "Gemlog.C83_violated_long",
    "Gemlog.C83_violated_gps_option",
    "Gemlog.C83_violated_output",
    "Gemlog.C83_violated_status"
   ],
   "note": "[C83_violated_long] C83, violated: long options. The documented options `--input_file`, `--output_file`, `--force-conversion` and `--help`, and every other long option, end the program with exit status 2, whatever options precede. [C83_violated_gps_option] C83, violated: the option of the usage line. The usage line shows `-g <gps_required>`; the option is refused. [C83_violated_output] C83, violated: output names. The usage line asks for `-o <outputdir>`, but the name of a directory, or any name without extension, is not accepted: although the file has been read, nothing is written. [C83_violated_status] C83, violated: exit status. If the conversion fails with an exception, because the file does not exist, say, the exit status is 0, as if it had succeeded."
  },
  {
   "property": "C84",
   "status": "partial",
   "theorems": [
    "Gemlog.C84_rows_partial",
    "Gemlog.C84_complete",
    "Gemlog.C84_violated_gaps",
    "Gemlog.C84_violated_empty"
   ],
   "note": "[C84_rows_partial] `make_db` lists exactly the matching files that can be read, each once, in the order of their names, and each row describes the first trace of its file (no trace in a file is empty). Missing: the other traces of a file (`C84_violated_gaps`), and that no file can be read (`C84_violated_empty`). [C84_violated_gaps] Violated: of a file with several traces (a gap within the hour, or several stations) only the first is counted; the times, extremes and amplitude of the row say nothing of the others. [C84_violated_empty] Violated: if no file can be read, there is an exception, not an empty database."
  },
  {
   "property": "C85",
   "status": "partial",
   "theorems": [
    "Gemlog.C85_violated_always"
   ],
   "note": "[C85_violated_always] Violated: `calc_channel_stats` never returns a table. For every database and every interval it ends with an exception, because the empty list it starts with is handed to `pd.concat`."
  },
  {
   "property": "C86",
   "status": "partial",
   "theorems": [
    "Gemlog.C86_windows",
    "Gemlog.C86_cut",
    "Gemlog.C86_stations_partial",
    "Gemlog.C86_violated_pairs",
    "Gemlog.C86_violated_filter",
    "Gemlog.C86_violated_first",
    "Gemlog.C86_report",
    "Gemlog.C86_violated_incoherent"
   ],
   "note": "[C86_stations_partial] If the first traces in a window belong to the stations, one to each and in their order, each station is compared with the next one. Missing: nothing in the code ensures this; see `C86_violated_pairs`. [C86_violated_pairs] Violated: traces are paired by their place in the list. If a station has more than one trace in a window (a gap), the traces behind the first ones do not matter at all: with two stations, the two pieces of the first are compared with each other. [C86_violated_filter] Violated: the band does not matter. The filter is applied before there are data. [C86_violated_first] Violated: the first window is left out; nothing is returned for data that end before a window length has passed since the beginning of the hour. [C86_violated_incoherent] Violated: if no window is coherent, the huddle test notes that the lags in coherent windows are mostly zero."
  },
  {
   "property": "C87",
   "status": "partial",
   "theorems": [
    "Gemlog.C87_lines",
    "Gemlog.C87_single",
    "Gemlog.C87_violated_channels",
    "Gemlog.C87_exact",
    "Gemlog.C87_unreadable"
   ],
   "note": "[C87_violated_channels] Violated: files of two or more channels always give output that looks like discontinuities, even if every channel is complete."
  },
  {
   "property": "C88",
   "status": "partial",
   "theorems": [
    "Gemlog.C88_filled_partial",
    "Gemlog.C88_violated_close",
    "Gemlog.C88_exact_partial",
    "Gemlog.C88_violated_limit"
   ],
   "note": "[C88_filled_partial] Short gaps are filled and nothing else changes: let `segs` be the runs of the record. If every run that lies between two gaps, one of them shorter than `g` hundredths of a second, has more than `g` samples, the result is again a list of runs; they hold all recorded samples, unchanged, and for each gap shorter than `g` (from the last sample before to the first sample after) the values of the spline through the samples within `g` of the gap. Missing: short runs between two gaps; `C88_exact_partial` shows when they make the interpolation fail. [C88_violated_close] Violated: two short gaps with at most `g` hundredths between their ends make the interpolation fail. The first pass fills both gaps, and then the second finds no gap to fill. [C88_exact_partial] C88, exactly when it fails, and what it fills. Let `segs` be the runs of the record, and let no gap be exactly `g` hundredths of a second long. The interpolation fails if and only if somewhere two neighbouring gaps shorter than `g` are so close that the second one ends at most `g` after the first one. Otherwise it keeps all recorded samples, fills all gaps shorter than `g` completely, and adds nothing else. Missing: gaps of exactly `g` (`C88_violated_limit`: they can be filled). The values in the gaps are in `C88_filled_partial`. [C88_violated_limit] C88, violated (a gap that is not short is filled). If a run is a single sample, the gap before it is shorter than the limit `g` and the gap after it is exactly `g` long, the longer gap is filled as well, although gaps of `g` are to be left: the two gaps are filled together."
  },
  {
   "property": "C89",
   "status": "proved",
   "theorems": [
    "Gemlog.C89_same_result",
    "Gemlog.C89_same_failure",
    "Gemlog.C89_differ",
    "Gemlog.C89_cut_line"
   ],
   "note": ""
  },
  {
   "property": "C90",
   "status": "proved",
   "theorems": [
    "Gemlog.C90_old_file",
    "Gemlog.C90_violated_short_header",
    "Gemlog.C90_failures",
    "Gemlog.C90_uncounted",
    "Gemlog.C90_line_ends",
    "Gemlog.C90_violated_fraction"
   ],
   "note": "Everything in the statement is proved, including the two losses it names (theorems named _violated). [C90_violated_short_header] C90, violated. The reader skips six lines whatever they hold: in a file whose header has five lines, the first line of data is lost, and the file is read without any error as if that line were not there. [C90_violated_fraction] C90, violated. Counts are cut to whole milliseconds: a fix printed with a fraction is placed before its true time."
  },
  {
   "property": "C91",
   "status": "proved",
   "theorems": [
    "Gemlog.C91_fallback",
    "Gemlog.C91_missing",
    "Gemlog.C91_violated_fraction",
    "Gemlog.C91_violated_letters"
   ],
   "note": "Everything in the statement is proved, including the two losses it names (theorems named _violated). [C91_violated_fraction] C91, violated. The second reader cuts the counts of fixes to whole milliseconds: a fix printed with a fraction (as loggers do) is placed before the time at which the compiled reader places it. [C91_violated_letters] C91, violated. In format 1.10 most samples are written as two letters. The second reader leaves all of them out without any error: it reads such a file exactly as it reads the file without those lines, so the samples are lost and the pressures after them are wrong."
  },
  {
   "property": "C92",
   "status": "partial",
   "theorems": [
    "Gemlog.C92_response",
    "Gemlog.C92_pressure",
    "Gemlog.C92_refused",
    "Gemlog.C92_violated_low"
   ],
   "note": "[C92_violated_low] C92, violated. With the gain `low` the same file is used as for `high`: the data of a logger set to low gain, which are half as large, come out as half the true pressure at every frequency, and deconvolving with `low` is the same as with `high`, whatever the data."
  },
  {
   "property": "C93",
   "status": "partial",
   "theorems": [
    "Gemlog.C93_gem_table",
    "Gemlog.C93_ims_models",
    "Gemlog.C93_ims_order",
    "Gemlog.C93_kinds",
    "Gemlog.C93_noise",
    "Gemlog.C93_refused",
    "Gemlog.C93_violated_medium",
    "Gemlog.C93_violated_no_band",
    "Gemlog.C93_violated_band",
    "Gemlog.C93_violated_low_band",
    "Gemlog.C93_noise_levels"
   ],
   "note": "[C93_violated_medium] C93, violated: the model `medium`. The name that the documentation gives for the middle model is refused. [C93_violated_no_band] C93, violated: no band. Unless the lower bound is given, no noise level is computed; by default only the upper bound is. [C93_violated_band] C93, violated: the band of the IMS models. The table of the IMS models ends below 10 Hz. For every band that starts at or above zero and ends at 11 Hz or more (the default is 50, the example in the documentation 0.1 to 20), and every model and kind of spectrum, there is no noise level. [C93_violated_low_band] C93, violated: bands that begin below the table. Likewise for a band that begins below the first frequency `f0` of the table, by more than about a fifth of a percent of its width: there is no noise level, for any model and kind of spectrum."
  },
  {
   "property": "C94",
   "status": "partial",
   "theorems": [
    "Gemlog.C94_lags",
    "Gemlog.C94_no_output",
    "Gemlog.C94_violated_defaults",
    "Gemlog.C94_direction",
    "Gemlog.C94_violated_emptied"
   ],
   "note": "[C94_violated_defaults] C94, violated: defaults. Given only files, the command line does not do what `xcorr_all` does when given only files: the upper corner is 40 Hz, not 20 Hz. It does what `xcorr_all` does with 40 Hz. [C94_violated_emptied] C94, violated: a failing inversion empties the output. If the inversion fails, for example since a station has no location or since all are on one line, the output file is empty afterwards, whatever it held before: also if it is the table of lags itself, which is then lost."
  },
  {
   "property": "C95",
   "status": "partial",
   "theorems": [
    "Gemlog.C95_inventory",
    "Gemlog.C95_no_table",
    "Gemlog.C95_every",
    "Gemlog.C95_violated_unlisted",
    "Gemlog.C95_violated_elevation",
    "Gemlog.C95_lists"
   ],
   "note": "[C95_violated_unlisted] C95, violated: instruments that are not in the station table. They all get blank codes; the first of them, in the order of serial numbers, becomes a station without name, and for all the others there is no channel in the inventory, and no error. [C95_violated_elevation] C95, violated: a blank elevation. If the table has no number as the elevation of an instrument found, for example a blank, there is no inventory at all. (The first instrument with its codes: the others do not count.)"
  },
  {
   "property": "C96",
   "status": "partial",
   "theorems": [
    "Gemlog.C96_settings",
    "Gemlog.C96_tested",
    "Gemlog.C96_help",
    "Gemlog.C96_violated_long_forms",
    "Gemlog.C96_violated_serialnumber",
    "Gemlog.C96_violated_default"
   ],
   "note": "[C96_violated_long_forms] C96, violated: documented long options. `--serialnumbers`, `--exclude_serialnumbers` and `--help` are in the help text, but give only the usage message. [C96_violated_serialnumber] C96, violated: the long option that is accepted. `--serialnumber` with a value is accepted, and all instruments are tested. [C96_violated_default] C96, violated: the default folder. Without options the current folder is tested; the help text names ./raw/."
  },
  {
   "property": "C97",
   "status": "proved",
   "theorems": [
    "Gemlog.C97_command",
    "Gemlog.C97_codes"
   ],
   "note": ""
  },
  {
   "property": "C98",
   "status": "proved",
   "theorems": [
    "Gemlog.C98_result",
    "Gemlog.C98_violated_same_folder",
    "Gemlog.C98_result_all",
    "Gemlog.C98_interrupted",
    "Gemlog.C98_again",
    "Gemlog.C98_elsewhere"
   ],
   "note": "Everything in the statement is proved for different folders, as stated; the theorem named _violated shows what happens if they are the same. [C98_violated_same_folder] C98, violated (same folder). If the output folder is the input folder, the merge reports success, but a raw file has been replaced by another one; and it cannot be repeated: a second run fails."
  },
  {
   "property": "C99",
   "status": "partial",
   "theorems": [
    "Gemlog.C99_merges",
    "Gemlog.C99_fails",
    "Gemlog.C99_nothing",
    "Gemlog.C99_usage",
    "Gemlog.C99_status",
    "Gemlog.C99_violated_long",
    "Gemlog.C99_violated_status"
   ],
   "note": "[C99_violated_long] C99, violated (long options). The program has code for `--inputdir`, `--outputdir`, `--ext` and `--help`, but every call with such a word is refused, and nothing is merged. [C99_violated_status] C99, violated (status). A script that merges cannot see that it failed: a missing input folder, an empty input folder and a failed merge end with status 0, as success does."
  },
  {
   "property": "C100",
   "status": "partial",
   "theorems": [
    "Gemlog.C100_read_back",
    "Gemlog.C100_sessions",
    "Gemlog.C100_violated_collision",
    "Gemlog.C100_convert",
    "Gemlog.C100_command",
    "Gemlog.C100_status_times",
    "Gemlog.C100_tables"
   ],
   "note": "[C100_violated_collision] What goes wrong without `NoCollision`: two sessions of one file each, the second starting more than 25 ms after the end of the first, by its first line, at the count of the last sample of the first. If the spline cannot be constructed from points at equal times, as that of scipy, then `read_gem` reports no problem, but the second session is missing from its result, and so is the last sample of the first."
  },
  {
   "property": "C101",
   "status": "partial",
   "theorems": [
    "Gemlog.C101_read_gem",
    "Gemlog.C101_violated_metadata",
    "Gemlog.C101_all_damaged",
    "Gemlog.C101_violated_gain",
    "Gemlog.C101_no_fix",
    "Gemlog.C101_cut_off",
    "Gemlog.C101_convert",
    "Gemlog.C101_command",
    "Gemlog.C101_violated_version",
    "Gemlog.C101_tables"
   ],
   "note": "[C101_violated_metadata] C101 violated. If the last file is refused, metadata at count zero get the time 0 (1970-01-01), whatever the clock of the file they are from (and where they would have none otherwise, because no sample comes before them): the row of zeros that stands for the refused file in the table of clocks claims them. [C101_violated_gain] C101 violated. The bitweight is that of the gain setting of the first file with a legible version, even if the file is refused: if its setting is lost (and therefore taken to be high gain), while all other files were recorded with low gain, the returned bitweight is half of what it is without the damaged file. [C101_violated_version] C101 violated. If the first line of the first file of the first block is damaged such that it has some text, but not that of a known version, the whole conversion is given up without any output, whatever the other files hold."
  },
  {
   "property": "C102",
   "status": "partial",
   "theorems": [
    "Gemlog.C102_inventory",
    "Gemlog.C102_violated_moved",
    "Gemlog.C102_stream",
    "Gemlog.C102_stream_xy",
    "Gemlog.C102_violated_mixed",
    "Gemlog.C102_same",
    "Gemlog.C102_arrays",
    "Gemlog.C102_violated_arrays",
    "Gemlog.C102_directions"
   ],
   "note": "[C102_violated_moved] C102, violated: a sensor that was moved. If an instrument has two epochs at different places, both rows are at the place of the first, so that the lags recorded after the move are inverted with the wrong position. [C102_violated_mixed] C102, violated: mixed coordinates. If one trace has x and y, and another longitude and latitude, there is no table at all. [C102_violated_arrays] C102, violated: arrays have no names. Positions given as arrays cannot be used for the inversion: every sensor is called `None.None.None`, so that the sensors of a table of lags are not found, unless one is called that."
  },
  {
   "property": "C103",
   "status": "proved",
   "theorems": [
    "Gemlog.C103_each_sample",
    "Gemlog.C103_read_gem",
    "Gemlog.C103_kept",
    "Gemlog.C103_full_lines",
    "Gemlog.C103_violated_one_line",
    "Gemlog.C103_convert",
    "Gemlog.C103_command"
   ],
   "note": "Everything in the statement is proved, including the losses it names: C103_violated_one_line shows that they do occur. [C103_violated_one_line] C103, violated: one lost line. The line of one sample is lost. The samples before it are read as they were recorded. But all samples after it lack the change of pressure of the lost line, until the end of the file, and those written as letters seem too early by the time from the sample before the lost one to the lost one, until the next full line."
  },
  {
   "property": "C104",
   "status": "partial",
   "theorems": [
    "Gemlog.C104_statistics",
    "Gemlog.C104_violated_missing",
    "Gemlog.C104_violated_ratio"
   ],
   "note": "[C104_violated_missing] C104 violated: missing readings. If the first reading of the battery or the temperature is missing, the smallest and the greatest are missing in the table, whatever the other readings are. [C104_violated_ratio] C104 violated: the ratio. The \"GPS on-time ratio\" is no ratio: every logger with its GPS on for a fifth of the time or more has 180 there."
  },
  {
   "property": "C105",
   "status": "partial",
   "theorems": [
    "Gemlog.C105_missing_file",
    "Gemlog.C105_which_exception",
    "Gemlog.C105_completes_partial",
    "Gemlog.C105_violated_letters",
    "Gemlog.C105_violated_twice",
    "Gemlog.C105_violated_gap",
    "Gemlog.C105_violated_short",
    "Gemlog.C105_violated_close"
   ],
   "note": "[C105_completes_partial] C105. Loggers whose files are there, and whose waveforms have more than ten samples between gaps of which one is shorter than a tenth of a second: the huddle test completes exactly if the first logger recorded at least twenty minutes up to its first gap of a tenth of a second, no serial number is given twice, all are numbers, no GPS time is missing, the tests of the metadata complete, and every logger has samples in the time shown (or the libraries can draw an empty waveform). The messages, results and statistics are then those of the metadata; the figure shows, for each logger, exactly the samples of its first run in the time shown. [C105_violated_letters] C105 violated: serial numbers with letters. A logger whose serial number is not a number ends the test for all loggers. [C105_violated_twice] C105 violated: serial numbers given twice. If a serial number is given twice, the test ends with an exception. [C105_violated_gap] C105 violated: after a gap. Nothing that a logger recorded after its first gap of a tenth of a second or more is shown, whether or not it lies in the time shown. [C105_violated_short] C105 violated: short tests. If the recording of the first logger is shorter than twenty minutes, or has a gap of a tenth of a second or more in its first twenty minutes, the test ends with an exception, however good the data of all loggers are otherwise. [C105_violated_close] C105 violated: close gaps. If the recording of any logger has two gaps shorter than a tenth of a second, with at most a tenth of a second between their ends, the test ends with an exception."
  },
  {
   "property": "C106",
   "status": "proved",
   "theorems": [
    "Gemlog.C106_read_back",
    "Gemlog.C106_gapless",
    "Gemlog.C106_convert",
    "Gemlog.C106_command"
   ],
   "note": ""
  },
  {
   "property": "C107",
   "status": "proved",
   "theorems": [
    "Gemlog.C107_day_files",
    "Gemlog.C107_every_sample",
    "Gemlog.C107_days_of_conversion",
    "Gemlog.C107_raw"
   ],
   "note": ""
  },
  {
   "property": "C108",
   "status": "partial",
   "theorems": [
    "Gemlog.C108_instants",
    "Gemlog.C108_number_before_partial",
    "Gemlog.C108_violated_start",
    "Gemlog.C108_violated_end",
    "Gemlog.C108_violated_adjustment",
    "Gemlog.C108_violated_start_exact",
    "Gemlog.C108_violated_end_window",
    "Gemlog.C108_violated_start_short"
   ],
   "note": "[C108_number_before_partial] C108, numbers before the data. A number of seconds before the first sample has the same effect as the instant it stands for. Missing: other numbers, see `C108_violated_start` and `C108_violated_end`. [C108_violated_start] C108 is violated for `t1`. If `t1` is given as a number of seconds and lies at or after the first sample, then whatever happens no sample is written from the window of the file length that contains `t1`: the samples from `t1` to the end of this window are lost. (Data from 1970 on; the file length is on the sample grid. Given as an instant, `t1` is respected: `C29_given_start`.) [C108_violated_end] C108 is violated for `t2`. If `t2` is given as a number of seconds, no conversion that ends normally writes anything. [C108_violated_adjustment] C108 is violated for `time_adjustment`. A conversion that writes something does not shift it by the adjustment asked for. [C108_violated_start_exact] C108, exactly what is lost. If `t1` is given as a number of seconds at or after the first sample, and the conversion ends normally: given as an instant it ends normally too, and has written the same, and before it exactly the samples from `t1` to the end of the window of the file length that contains `t1`. [C108_violated_end_window] C108 is violated for `t2`: what is written. If `t2` is given as a number of seconds, a conversion from a given instant writes the samples of at most one window of the file length, whatever `t2` is; and if it writes something, it ends with an exception. [C108_violated_start_short] C108 is violated for `t1`: near the end of the data. Let `t1` be given as a number of seconds at or after the first sample, and let all data end less than a file length after it. If there is more than one block of files, the conversion fails, and nothing at all is written. (Given as an instant, all samples from `t1` on are written: `C29_given_start`.)"
  },
  {
   "property": "C109",
   "status": "partial",
   "theorems": [
    "Gemlog.C109_complete",
    "Gemlog.C109_violated_day",
    "Gemlog.C109_violated_none",
    "Gemlog.C109_violated_message",
    "Gemlog.C109_other_days"
   ],
   "note": "[C109_violated_day] C109 is violated. A single sample of a single chosen channel missing on a day, between two samples of that day: the day is skipped, with all its windows and all channels, whatever the analysis. [C109_violated_none] C109 is violated. If the data asked for lie within a day, such a sample makes the whole analysis fail: nothing is returned, and the command `waveform_calc_lags` ends with an exception and writes no file. [C109_violated_message] C109 is violated for the messages. Every message about a skipped day names the beginning of the run, which is in no later day."
  },
  {
   "property": "C110",
   "status": "partial",
   "theorems": [
    "Gemlog.C110_long_run_partial",
    "Gemlog.C110_violated_positions",
    "Gemlog.C110_violated_waveforms",
    "Gemlog.C110_violated_always"
   ],
   "note": "[C110_long_run_partial] C110, long GPS runs. If a logger has at least ten rows with the GPS off, then a row with the GPS off, and the next row with the GPS off is more than 180 seconds later, there is a warning about its GPS. Missing: everything else that the documentation says about GPS data and waveforms. [C110_violated_positions] C110 is violated for GPS data. The result does not depend on what the GPS files say, as long as no time is missing: neither on the positions, which may be anywhere on the globe, nor on the number of fixes, which may be zero. [C110_violated_waveforms] C110 is violated for waveforms. Of two tests that complete with the same metadata, one may have flat or clipped waveforms, or those of another place: the messages, results and statistics are the same. [C110_violated_always] C110 is violated for the GPS run time. A logger whose GPS never stopped running, in every row on, passes the test of the GPS run time. So does one whose GPS never ran: off in every row, with at most 180 seconds from row to row."
  },
  {
   "property": "C111",
   "status": "proved",
   "theorems": [
    "Gemlog.C111_rows",
    "Gemlog.C111_time",
    "Gemlog.C111_range",
    "Gemlog.C111_order",
    "Gemlog.C111_file"
   ],
   "note": ""
  },
  {
   "property": "C112",
   "status": "proved",
   "theorems": [
    "Gemlog.C112_results",
    "Gemlog.C112_statistics",
    "Gemlog.C112_headings",
    "Gemlog.C112_messages"
   ],
   "note": ""
  },
  {
   "property": "C113",
   "status": "partial",
   "theorems": [
    "Gemlog.C113_curve",
    "Gemlog.C113_violated_readings",
    "Gemlog.C113_histogram",
    "Gemlog.C113_violated_long"
   ],
   "note": "[C113_violated_readings] C113 violated: readings. Nine of ten rows make no difference to a curve, whatever their readings: if two recordings have the same times, and the same readings in every tenth row, the curves are the same. So a reading out of range that is reported need not be in the figure to which the report refers. [C113_violated_long] C113 violated: long runs. All the bars together count the runs which, less the interval between rows, last from 10 to 175 seconds. So no bar counts a longer run, although the code sets runs of more than 180 seconds to 180 and the axis has the label \">180\" for them."
  },
  {
   "property": "C114",
   "status": "partial",
   "theorems": [
    "Gemlog.C114_fatal",
    "Gemlog.C114_one_process",
    "Gemlog.C114_violated_parallel",
    "Gemlog.C114_explained",
    "Gemlog.C114_violated_memory",
    "Gemlog.C114_printed"
   ],
   "note": "[C114_violated_parallel] C114 violated: problems. With two processes the log does not tell which serial number had problems: the same log is left if they belong to the other. [C114_violated_memory] C114 violated: memory errors. No message that begins with \"Unable to allocate\", as those of numpy do, is explained as a time gap."
  },
  {
   "property": "C115",
   "status": "partial",
   "theorems": [
    "Gemlog.C115_amplitudes",
    "Gemlog.C115_violated_labels",
    "Gemlog.C115_lags",
    "Gemlog.C115_violated_three"
   ],
   "note": "[C115_violated_labels] C115 violated: labels. If the stations do not begin in alphabetical order, the amplitudes of some station are shown with the name of another one. [C115_violated_three] C115 violated: other numbers of stations. The lags of two stations cannot be shown. Of more than three, the fourth and later ones have no influence on the figure."
  },
  {
   "property": "C116",
   "status": "partial",
   "theorems": [
    "Gemlog.C116_scale",
    "Gemlog.C116_violated_gain",
    "Gemlog.C116_violated_mseed"
   ],
   "note": "[C116_violated_gain] C116, violated by a change of gain. Let the blocks be as in C66, and let the files of a later block have another gain than the first file. Then the conversion ends normally, and a segment with a sample recorded in that block carries the factor for the gain of the first file, which is wrong for the block by the factor 2 or 1/2. [C116_violated_mseed] C116, violated for miniSEED. The unit and the factor have no effect on what is read back from a miniSEED file: the factor read is 1 whatever was asked for, which is not the factor to pascals or volts of any instrument at any gain."
  },
  {
   "property": "C117",
   "status": "partial",
   "theorems": [
    "Gemlog.C117_upper",
    "Gemlog.C117_lower",
    "Gemlog.C117_level",
    "Gemlog.C117_violated_outside",
    "Gemlog.C117_made"
   ],
   "note": "[C117_violated_outside] C117 is violated by a fix after the last sample or before the first one: if the first or the last fix of all is in no file's range, or if there is only one, nothing at all is drawn in the lower half."
  },
  {
   "property": "C118",
   "status": "partial",
   "theorems": [
    "Gemlog.C118_least_squares",
    "Gemlog.C118_moved",
    "Gemlog.C118_violated_order"
   ],
   "note": "[C118_violated_order] Where the property fails: the lag between the last sensor and the first is not used. Take any three sensors that are not on one line, and the same three lags in two tables that differ only in the sensor they begin with. If the lags do not sum to zero, as those of a plane wave do, the two results differ."
  },
  {
   "property": "C119",
   "status": "partial",
   "theorems": [
    "Gemlog.C119_exchange_exact",
    "Gemlog.C119_gain_offset",
    "Gemlog.C119_exchange_partial",
    "Gemlog.C119_violated_ties",
    "Gemlog.C119_violated_polarity"
   ],
   "note": "[C119_exchange_partial] C119, exchange. If the correlation has one maximum only, exchanging the channels changes the sign of the shift. Missing: several equal maxima, see `C119_violated_ties`. [C119_violated_ties] Where the property fails: if there are several maxima, the two shifts are those of the first in one order and of the last in the other. [C119_violated_polarity] Where the property fails: a channel of opposite polarity. The shift reported for a pulse and the same pulse with the opposite sign is never the difference of the arrival times."
  },
  {
   "property": "C120",
   "status": "proved",
   "theorems": [
    "Gemlog.C120_position",
    "Gemlog.C120_codes"
   ],
   "note": ""
  },
  {
   "property": "C121",
   "status": "partial",
   "theorems": [
    "Gemlog.C121_waves",
    "Gemlog.C121_violated_late"
   ],
   "note": "[C121_violated_late] C121 is violated. If one sensor of three has no data on the first day, and every window of the later days has all three, no direction at all is found, of any window of any day, whatever the data and positions: the inversion of the table raises an exception."
  },
  {
   "property": "C122",
   "status": "proved",
   "theorems": [
    "Gemlog.C122_huddle"
   ],
   "note": ""
  },
  {
   "property": "C123",
   "status": "partial",
   "theorems": [
    "Gemlog.C123_two_visits_partial",
    "Gemlog.C123_violated_joint",
    "Gemlog.C123_raw_partial",
    "Gemlog.C123_violated_raw",
    "Gemlog.C123_given_start"
   ],
   "note": "[C123_two_visits_partial] C123. Convert the files of two visits one after the other, in one call and in two. Everything that the two conversions write is written by the one, in the same order. All that is missing from the two are samples between the last sample of the first visit and the first whole second of the second visit: less than a second after the first sample of the second visit. Missing: those samples. [C123_violated_joint] C123 is violated. Whatever the data: the samples of the second visit before its first whole second are written when all files are converted together, and by neither conversion when the visits are converted separately. [C123_raw_partial] C123, from the raw files. Convert the files of two visits together, and those of each visit. All three conversions end normally. What the two write is written by the one, in the same order, and besides it writes only samples after all of the first visit, before all of the second, and less than 1.005 seconds after the start of the second visit. Missing: these samples. [C123_violated_raw] C123 is violated, from the raw files. If the second visit begins more than 5 ms from a whole second, then its first sample, within 5 ms of its beginning, is written when all files are converted together, and by neither conversion of one visit."
  },
  {
   "property": "C124",
   "status": "partial",
   "theorems": [
    "Gemlog.C124_file_length",
    "Gemlog.C124_raw",
    "Gemlog.C124_given_start_partial",
    "Gemlog.C124_violated_filling",
    "Gemlog.C124_violated_end",
    "Gemlog.C124_given_start_same"
   ],
   "note": "[C124_given_start_partial] C124, with a given start. Then the two write the same samples of the record: all those from the start on. Missing: what is filled in where a few samples are missing (`C124_violated_filling`). [C124_violated_filling] C124 is violated with a given start: with files of a tenth of a second the missing sample is left out, with files of a second it is filled in. [C124_violated_end] C124 is violated with a given end. Whatever the data and the reader: let `t2` lie in the window of the file length `L` that begins at `k * L`. A conversion that has read a sample which is in this window, not before `t1` and not after `t2`, does not end normally. So whether the data before `t2` are converted depends on the length of the files: see the example."
  },
  {
   "property": "C125",
   "status": "proved",
   "theorems": [
    "Gemlog.C125_read_gem",
    "Gemlog.C125_other_files"
   ],
   "note": ""
  },
  {
   "property": "C126",
   "status": "proved",
   "theorems": [
    "Gemlog.C126_convert_again",
    "Gemlog.C126_raw"
   ],
   "note": ""
  },
  {
   "property": "C127",
   "status": "proved",
   "theorems": [
    "Gemlog.C127_samples",
    "Gemlog.C127_times"
   ],
   "note": ""
  },
  {
   "property": "C128",
   "status": "proved",
   "theorems": [
    "Gemlog.C128_report",
    "Gemlog.C128_damaged",
    "Gemlog.C128_command"
   ],
   "note": ""
  },
  {
   "property": "C129",
   "status": "partial",
   "theorems": [
    "Gemlog.C129_later_start",
    "Gemlog.C129_no_start",
    "Gemlog.C129_recorded_partial",
    "Gemlog.C129_violated_filling",
    "Gemlog.C129_violated_no_start"
   ],
   "note": "[C129_recorded_partial] C129, recorded samples (missing: the samples filled into short gaps, see `C129_violated_filling`). Whatever is filled in, a recorded sample that is not before the later start is written by both conversions. [C129_violated_filling] C129 is violated by samples that are filled in. A later start can add a sample: with files of a tenth of a second, the conversion that starts a day later fills in the missing sample at 00:00:00.11 of that day, and the other one leaves it out. [C129_violated_no_start] C129 is violated if no start is given. Then a short gap of the first block is filled in; with the same start given, it is not."
  }
 ]
}