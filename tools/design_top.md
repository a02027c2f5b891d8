# Formal model of CCGL in Lean 4 — design

The pinned source is `/repo` (C++). It is read as text; nothing of it is built or run. `lean/Verif/Model` holds the model (each
definition cites the file and lines it models and says where it simplifies), `lean/Verif/Spec` small specifications that do not use the
model's helpers, `lean/Verif/Props` the property theorems with concrete examples that meet their hypotheses, `lean/Verif/Lemmas`
helper lemmas. `tools/` holds the generators of MANIFEST.json, AXIOMS.md and this file and the list of seeded wrong programs;
`seeded/LOG.jsonl` is the log of running these against the theorems.

## Trusted base

* Lean 4.33.0's kernel (and the elaborator only in so far as it produces the terms the kernel checks). No `native_decide`, no
  `bv_decide`, no compiled evaluation. `decide +kernel` evaluates closed terms in the kernel; it is used for examples, counterexamples
  and finite tables only, never to stand for a quantified claim.
* Axioms: only `propext`, `Classical.choice` and `Quot.sound` (Lean's standard three). AXIOMS.md lists the axioms of every theorem named
  in MANIFEST.json, from `#print axioms`. No axiom is added by this project.
* Mathlib (one module at a time) for arithmetic tactics, real analysis (C62–C64) and list lemmas; all of it is checked by the same kernel.
* That the model says what the C++ says. This is the part no proof covers; it rests on reading. It is supported by the citations, by the
  examples beside the theorems and by the seeded wrong programs (every realistic edit of a model definition must break a theorem, or the
  log says why it is not wrong).

## What is modelled

* `utils_string`: case, trimming, splitting, integer and decimal conversions, option maps. `utils_array`: all allocation, copy and release
  helpers, `Array2D`, the vector helpers, the text output and input of arrays. `utils_math`: `FloatEqual`, statistics, sums, extrema, `Expo`,
  `Power`, the fast exponential, logarithm, square root and power functions. `utils_time`: all date functions and the class `DateTime`.
  `utils_filesystem`: names, directories, searching, deleting, plain text files. `basic`: `IsIpAddress`.
* `data_raster`: types and headers; constructors from memory, files and GridFS; the position calculation with and without mask; all cell,
  position, coordinate and statistics accessors; setters; `ReplaceNoData`, `Reclassify`, `Copy`; subsets (building, data, reading,
  output, combination); ASCII, GeoTIFF and GridFS input and output, whole rasters and subsets.
* `db_mongoc`: GridFS files with retries, metadata, the BSON codec, collection names; the lifetimes of
  clients, databases, collections, GridFS, cursors, files, documents and buffers under all answers of the driver.
* `apps/mask_rasterio`: argument and configuration parsing, the list of jobs, and the jobs on files and on GridFS in all modes.

## What is not modelled

* The MSVC/Windows branches, logging and status messages, thread settings, `GetAppPath`, time measurement,
  connection pools, documents of ordinary collections, `ModelException`.
* Floating point: cells are exact rationals (every finite value of a cell type is one); sums and statistics are also modelled with
  operations rounded to nearest double (C83), coordinates too (C84; overflow is not modelled). NaN and infinite cells are modelled for NoData and statistics (C89). Elsewhere rounding, NaN and infinities are not modelled except
  where the code handles them as such (statistics of no values, default values of the application); `float` conversions on output use a
  rounding parameter. The fast math functions are proved with exact real arithmetic on exact bit patterns.
* `int` overflow, except where the model says otherwise (cells, positions, subsets and output arrays of rasters, C93; products of sizes in the ASCII
  reader and `Array2D`, conversions of GeoTIFF/GridFS cells, BSON integers).
* OpenMP: every loop is proved free of data races, with the result of the sequential loop, under any schedule and interleaving (C85, C21);
  the other models use the sequential order.
* GDAL, the Mongo server and driver, libc and the operating system are parameters or small abstract machines, with arbitrary failures where
  the property speaks of failures; the assumed behaviour is written next to each definition.

## General modelling decisions

* Platform: 64-bit Linux/GCC build (`CPP_64`, `vint = int64_t`, `SEP = '/'`).
* Strings are `List Char`; characters with the C locale's ASCII classification.
* Undefined behaviour (out-of-bounds access, null dereference, use after free, double free, division by zero, out-of-range conversions) is a
  distinct outcome (`Out.ub`) and never totalised away; so are escaping exceptions (`Out.exn`). A theorem that a call "ends normally"
  says that the outcome is `Out.ok`.
* Rasters in theorems are those a program can get (`Spec.Built`: constructors from memory, files, GridFS, masking, then any history of
  mutators), not arbitrary records.
* A property that is false of the code is stated as far as it is true in a theorem with the suffix `_partial`, and the failure is proved
  with a concrete counterexample (`_false_…`).
