## Findings

Behaviour of the code found while proving that contradicts what its interface promises (most with a proved counterexample `…_false_…`).

*Cells, positions, coordinates.* `GetPosition` on a raster without valid cells returns −2 (one layer) or the raw index (several). `SetValue`
and a repeated position getter on a compacted multi-layer raster without valid cells are undefined. Constructing from a mask keeps compact
data with positions switched off, so `GetValue` reads out of bounds. `GetPositionByCoordinate` rejects points in the lower and left
half of the border cells, and the right border gives a column that does not exist. `Reclassify` tests `count < 0`, which is never true, and throws
for values without entry. `FloatEqual` has an absolute threshold 1e-32: different small values are equal, and equality is not transitive.

*Statistics.* Maximum/minimum are wrong for doubles beyond `FLT_MAX`; the mean of no values is NaN; the array getters return null for every raster
with data (inverted test).

*Copy.* Copying a compacted raster without valid cells is undefined; copying a one-layer raster into a multi-layer object keeps the
wrong kind; self-copy and copying into an object with layer statistics are undefined/throw; `operator=` is private and empty.

*Masking.* The default value is written to the wrong layer of the original; `release_origin = false` keeps unmasked cells; recalculated positions with
`use_mask_ext` are shifted without the header; nothing matched gives negative header sizes; `SetUseMaskExt` frees arrays that belong to the
mask; deleting the mask first leaves dangling pointers. Subsets of the mask are not recomputed when positions are recalculated
without cropping, nor when all mask cells match but the extent is cropped.

*Subsets.* Combining with `out_origin` and no table always fails; reclassifying one fresh subset always fails; unusable subsets are
reclassified when the default value is not NoData; more table layers than raster layers with `out_origin` reads past rows; two-dimensional
rasters with one layer cannot be decomposed; a subset whose data contains NoData is dropped silently when reading; after one failed write the
remaining subsets are not written, and the GridFS variant still returns true.

*ASCII files.* Six significant digits only; character types are printed as characters; a truncated file is accepted; sizes missing, repeated or too
large are undefined behaviour; layered output fills with −9999 whatever NoData is; a failing delete is ignored and the new grid is
appended to the old one; write errors after opening are not noticed (the result only says whether the file could be opened twice).
Layered names count from 0 for ASCII and from 1 for GeoTIFF.

*GeoTIFF.* A valid cell can equal the replacement NoData; a `float` NoData that `Float32` cannot hold makes NoData cells valid; unsigned 32/64-bit
cells are never accepted for signed types; an out-of-range floating cell is cast before it is refused (undefined).

*GridFS.* A failed overwrite loses the old file; a write error after which saving succeeds leaves a truncated duplicate that is read first; ignored
removal failures; narrowing wraps silently; several unreadable or undefined combinations of options (C28, C71); names with dots are mangled (C68).

*Sizes.* A raster of 2^30 or more valid cells can be constructed and read, but compacting it overflows an `int` (`n_cells_ * 2` in `Initialize2DArray`);
storing a compacted raster of several layers with its NoData cells overflows if layers times rows times columns exceeds 2^31-1, however few cells are
valid; values of 2^31 and more make `BuildSubSet` undefined (C93).

*Subset objects.* The default copy of a `SubsetPositions` is shallow, shares the data and releases them twice (`C94_false_shared`, `C94_false_double_free`), dangles
after its source (`C94_false_dangling`); `Set2DData` with one layer is accepted but not output (`C94_false_one_layer`, `C94_false_stale`); more
layers than the first time overrun the array (`C94_false_grow`), for a deep copy even as many as its source had (`C94_false_copy_shrinks`);
deep-copying a subset without cells dereferences null (`C94_false_empty`).

*Texts.* `SplitString` on blanks repeats the last word before trailing blanks; a trailing empty field is lost; `IsNumber("")`; "a1" counts as 0;
`IsIpAddress` accepts trailing parts; numeric booleans are inverted and BSON booleans always false.

*Time.* `Forward`/`Backward` ignore their parameter; converting to UTC shifts the instant; years beyond 9999 overflow a buffer; texts that do not
match the format leave variables uninitialised.

*Files and directories.* `DeleteDirectory` always returns true; `GetSuffix` looks at the directory; `FindFiles` returns directories and
entries whose suffix merely occurs in the expression; `CleanDirectory` leaves hidden entries.

*Arrays.* A two-dimensional array with no rows cannot be released; failed allocation of the data block leaves an array that cannot be released;
`BatchRelease2DArray` does not compile when used; copies from moved-from `Array2D` objects are undefined; sizes wrap in 32 bits.

*Ownership (C80).* `SetCalcPositions` on a raster constructed from a mask and values, `SetUseMaskExt`, `Copy` and `SetPositions` on a raster that shares the positions
of its mask release the arrays of the mask; `SetPositions` of one array loses the other; reading a second file with GDAL loses the first array;
`ReadFromMongoDB` loses the data read at its early returns (3556, 3581); recalculated subsets lose their data; `Copy` of a raster constructed from a mask
loses the positions; `Copy` of a raster with one layer into one with several leaves `is_2draster` set; `Copy` from 2D statistics into a raster with
calculated statistics throws; positions of a raster without valid cells give arrays that cannot be released; the constructor with a vector of file names
does not initialise the members; a mask without data makes a vector of negative size.

*Floating point (C83).* The parallel reductions of `Sum` and of the standard deviation give results that depend on the number of threads (2^54 or
2^54 + 4 for the same four numbers); mean, extrema, count and range do not.

*Mongo objects (C82).* `GetCollection` of a missing collection forgets the database object; `QueryRecordsCount` never releases its document and
`GetFileNames` makes it unreleasable with `bson_init`; `GetFileNames` goes on with a null GridFS; a file without metadata is copied from null;
`~MongoClient` does not close the connection, `Destroy` ends the driver for all clients and leaves a dangling pointer; `MongoCollection` and
`MongoGridFs` can be copied and then release twice.

*Arrays in text files (C81).* The reading templates expect a title and a count that the output functions do not write; they are defined in the `.cpp` and
never instantiated, so programs cannot link them; a missing file, a short file and negative counts are not noticed.

*Cells of 8-bit types in ASCII grids (C08).* `WriteSingleAsc` writes `unsigned char` and `signed char` cells with `operator<<`, as characters: the cell
50 is read back as 2, the cell 65 makes the file unreadable.

*Interrupted output (C86).* `ReadAscFile` accepts files with too few values: an ASCII grid whose writing was interrupted reads as a complete grid with
NoData in the missing cells, and the last number may have lost digits.

*Coordinates (C84).* `GetPositionByCoordinate` compares with the centre of the lower left cell, not with the border: a mask with cells of 0.1
from -0.4 loses its cell 5, the first column of an exactly aligned raster from 0.1, because `-0.4 + 5 * 0.1` is less than `0.1` in doubles.

*mask_rasterio and GridFS (C87).* A job finds its input in GridFS only if it is stored with the output type and the `INCLUDE_NODATA` flag of the job:
changing the type is impossible, and the job is skipped with exit code 0. If the output cannot be stored, the old output is gone and the exit code is 0.

*mask_rasterio COM and GridFS (C88).* If no piece contributes and the output goes to GridFS, `OutputSubsetToMongoDB` divides by the uninitialised `sublyrs`
(`OutputSubsetToFile` checks the return value first).

*mask_rasterio groups and GridFS (C90).* In the mode MASKDEC the file of the group with number 0 is replaced by that of the whole grid. If the raster has no valid
cell and there is no mask nothing is stored; if one group cannot be stored the remaining ones are not tried; the exit code is 0 in both cases.

*Several input files (C92).* The default value fills the first layer only. Without a mask further layers have values only where the first file has one; with a mask
wherever the mask has one. ASCII layers are numbered from 0, GeoTIFF layers from 1.

*Setters (C95).* `SetHeader` and `SetPositions` check nothing but the length of a replaced position array: a larger header, other columns on a raster with
positions, or positions for a raster without them lead to accesses outside the arrays or to values of other cells.

*Strings (C96, C97).* `ftoa` shows `-0` for small negative numbers and 0 for everything below 5e-7. `atow`/`wtoa` of a string the locale cannot convert
allocate nothing and then convert without limit (`mbstowcs` returns `(size_t)-1`, plus 1 is 0).

*NoData NaN (C89).* If the NoData value is NaN (or infinite) no cell equals it (`FloatEqual`, utils_math.h:141, subtracts): all cells become valid cells,
`ReplaceNoData` changes the header value only, and mean and standard deviation are NaN.

*mask_rasterio.* A single configuration file argument (documented) does nothing; `-configfile` as last argument dereferences null; options given with
both names misalign the jobs; command line defaults do not reach configuration items; a raster the mask does not touch is undefined behaviour
(null check after use); mode DEC without table writes nothing; subset 0 is overwritten by the combined output; COM compares only the number
of cells, writes `0_<out>`, and needs a mask; a job with several input files and a table with more columns than files reads beyond the
numbers of the cells (C98).

*Local time (C99).* Under daylight saving the code moves the clock back one hour by hand. In the first hour of a month it indexes the
table of month lengths one entry too low, takes `tm_year` (since 1900) for the year of the leap-year test and adds the leap day to every
month: January reads before the array, February prints month 13, and only September (or June, August, November in years whose count since
1900 is a leap year) come out right. `ConvertToString` and `ConvertToString2` disagree about the date in the hour after midnight, and a
saving of half an hour is taken for a whole one.
