{
 "C02": {
  "note": "The expectation of a user is stated and refuted; the theorems characterise the real outcome of every call."
 },
 "C06": {
  "note": "Includes the exact consequences of the off-by-one upper check."
 },
 "C11": {
  "note": "Exact characterisation: round trip iff the cell count is a multiple of 8, otherwise undefined behaviour."
 },
 "C16": {
  "note": "For every allocation policy."
 },
 "C27": {
  "note": "For every allocation policy where stated."
 },
 "C30": {
  "note": "Platform parameters: char signedness, over-wide shifts masked or undefined; each theorem names the case."
 },
 "C32": {
  "note": "Torn writes and crash points are modelled by the number of bytes that reached the file."
 },
 "C35": {
  "note": "The code's defect (every path becomes origin rectangles) is what is proved."
 },
 "C36": {
  "note": "References may form cycles: termination iff acyclic is part of the claim."
 },
 "C37": {
  "note": "For every rounding function whatsoever, including infinities and NaN."
 },
 "C39": {
  "note": "exact_cells is for exact arithmetic; centres_covered, cover_all, nothing_far for every Rounding."
 },
 "C41": {
  "note": "For every Rounding and every history of calls."
 },
 "C42": {
  "note": "Grammar of lines in Spec/Msk.lean, independent of the sscanf model."
 },
 "C43": {
  "note": "C43_exact: success iff the file is in the grammar."
 },
 "C46": {
  "note": "Invariant over all call histories of the public API."
 },
 "C53": {
  "note": "Encoder of well-formed files in Spec/GdsiiFile.lean; the parser is run from a state in which p_data is set (see C46)."
 },
 "C57": {
  "note": "p_data set (see C46); the layout read into may hold earlier libraries whose layers are not enumerated yet."
 },
 "C62": {
  "note": "Composition of reader, generator, rasteriser and file format."
 }
}