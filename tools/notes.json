{
 "C04": {
  "note": "Violated: sscanf leaves placeholders of missing fields at the values of an earlier line (C04_violated). Proved for lines in which all fields can be scanned."
 },
 "C29": {
  "note": "Proved for a far t2 (the default) and an order-preserving reader: the output is exactly the merged record from the starting time on. Without t1 the program starts at the first whole second, so up to a second of data is left out by design."
 },
 "C54": {
  "note": "Violated: an overlap by a single differing sample masks the whole earlier trace (C54_violated). Proved: without overlap nothing is lost; for traces in the order of their starts, the exact effect of an overlap, that it reaches neither back nor forward over a gap, and that nothing is lost if more data follow."
 },
 "C31": {
  "note": "Found exactly (C31_exact): all conversions with a given file length end if and only if the length is a multiple of 5 ms, half the sample interval; for the other lengths the loop can repeat forever."
 },
 "C32": {
  "note": "Violated for t2, but only by conversions that then fail: a whole file-length window is written before the data are cut at t2. Every conversion that ends normally keeps to t2 (exactly when t2 is on the sample grid, else within half a sample interval). Proved for t1 in every run and every file length on the grid; within half a sample interval for the others."
 },
 "C33": {
  "note": "Violated in two general situations: t1 after all data of a record of several blocks (IndexError), t2 inside a file window that has data (ValueError). For a record in one block it is settled exactly which t1 and t2 make the conversion end normally, and what is then written (C33_one_block_exact_partial)."
 },
 "C53": {
  "note": "Violated in two ways. With t2 inside the record the main loop advances by two days and can stop before reading a block whose data are before t2. And no conversion that ends normally writes a sample of the file-length window containing t2 (C53_violated_window), for any number of blocks. Proved for a far t2."
 },
 "C68": {
  "status": "proved",
  "note": "Everything in the statement is proved; the theorems named _violated show what happens when its conditions (different codes, default pattern) are not met."
 },
 "C70": {
  "status": "proved",
  "note": "Everything in the statement is proved; the theorems named _violated show what happens to overlapping traces, and that gaps leave no sign."
 },
 "C90": {
  "status": "proved",
  "note": "Everything in the statement is proved, including the two losses it names (theorems named _violated)."
 },
 "C91": {
  "status": "proved",
  "note": "Everything in the statement is proved, including the two losses it names (theorems named _violated)."
 },
 "C69": {
  "status": "proved",
  "note": "Everything in the statement is proved for the directories it names (no channel code an ending of another); the theorem named _violated shows what happens otherwise."
 },
 "C98": {
  "status": "proved",
  "note": "Everything in the statement is proved for different folders, as stated; the theorem named _violated shows what happens if they are the same."
 },
 "C103": {
  "status": "proved",
  "note": "Everything in the statement is proved, including the losses it names: C103_violated_one_line shows that they do occur."
 }
}