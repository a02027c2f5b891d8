{"id": "C01", "title": "Compacting a grid loses no cell value", "statement": "When a raster is loaded with position calculation switched on, only cells that differ from NoData are stored, yet GetValue(row, col) still returns, for every cell inside the extent, exactly the value the full grid held there if the cell is valid and NoData otherwise; GetCellNumber() is the number of valid cells.", "quantifier": "every grid size, every layer count and every pattern of NoData cells", "why_tests_cant": "the number of NoData patterns is exponential in the grid size; tests load a few fixed grids", "anchors": ["src/data_raster.hpp: clsRasterData::CalculateValidPositionsFromGridData", "src/data_raster.hpp: clsRasterData::GetValue", "src/data_raster.hpp: clsRasterData::GetPosition"]}
{"id": "C02", "title": "Position data is the sorted list of valid cells", "statement": "The positions returned by GetRasterPositionData after position calculation are strictly increasing, each lies in [0, rows*cols), and a cell index occurs in them if and only if the cell of the first layer is valid.", "quantifier": "every grid size and NoData pattern", "why_tests_cant": "an ordering/completeness fact over all grids; a test checks particular ones", "anchors": ["src/data_raster.hpp: clsRasterData::CalculateValidPositionsFromGridData", "src/data_raster.hpp: clsRasterData::GetRasterPositionData"]}
{"id": "C03", "title": "GetPosition is an exact search", "statement": "GetPosition(row, col) returns the storage index of the cell when it is stored, -1 when the cell is inside the extent but excluded as NoData, -2 when row or col is outside the extent; the search terminates and never reads outside the position array.", "quantifier": "every sorted position array, every row and col (including negative ones)", "why_tests_cant": "off-by-one errors in binary search show up only for particular lengths and targets", "anchors": ["src/data_raster.hpp: clsRasterData::GetPosition(int row, int col)"]}
{"id": "C04", "title": "Reads return the last write", "statement": "Over any sequence of SetValue calls, GetValue(row, col, layer) returns the value of the last SetValue addressed to that cell and layer, or the loaded value if there was none; SetValue to an excluded cell, to a cell outside the extent or to a missing layer changes nothing.", "quantifier": "every raster built by the library, every finite history of SetValue calls and every queried cell", "why_tests_cant": "histories are unbounded; interference between distinct cells cannot be sampled exhaustively", "anchors": ["src/data_raster.hpp: clsRasterData::SetValue", "src/data_raster.hpp: clsRasterData::GetValue"]}
{"id": "C05", "title": "No out-of-bounds access through the cell accessors", "statement": "GetValue, GetValueByIndex, SetValue and IsNoData never touch memory outside the stored cell array, whatever arguments they are given and however the raster was constructed.", "quantifier": "every constructor, every history, every argument", "why_tests_cant": "memory safety over all inputs; an out-of-bounds read usually goes unnoticed in a test run", "anchors": ["src/data_raster.hpp: clsRasterData::GetValue", "src/data_raster.hpp: clsRasterData::GetValueByIndex", "src/data_raster.hpp: clsRasterData::SetValue", "src/data_raster.hpp: clsRasterData(clsRasterData* mask, T* values)"]}
{"id": "C06", "title": "Cell centre coordinates round-trip", "statement": "For every cell (row, col) inside the extent, looking up the coordinate returned by GetCoordinateByRowCol(row, col) with GetPositionByCoordinate gives back (row, col).", "quantifier": "every header (rows, cols, positive cell size, any lower-left corner) and every cell", "why_tests_cant": "all georeferences and grid sizes; exactness of a rounding computation", "anchors": ["src/data_raster.hpp: clsRasterData::GetCoordinateByRowCol", "src/data_raster.hpp: clsRasterData::GetPositionByCoordinate"]}
{"id": "C07", "title": "A coordinate inside the extent is mapped to the cell that contains it", "statement": "GetPositionByCoordinate(x, y) returns the row and column of the cell whose square contains the point for every point of the raster's extent, and reports -1 exactly for the points outside of it.", "quantifier": "every header and every coordinate pair", "why_tests_cant": "boundary cases (edges, half-cells) form a measure-zero or thin set that sampled coordinates miss", "anchors": ["src/data_raster.hpp: clsRasterData::GetPositionByCoordinate"]}
{"id": "C08", "title": "ASCII grid write/read round-trip", "statement": "Writing a full grid to an ASC file and reading the file back gives the same rows, columns, cell size, lower-left cell centre, NoData value and cell values (numbers being written exactly).", "quantifier": "every grid size and content", "why_tests_cant": "a round-trip law over all grids", "anchors": ["src/data_raster.hpp: WriteSingleAsc", "src/data_raster.hpp: ReadAscFile", "src/data_raster.cpp: WriteAscHeaders"]}
{"id": "C09", "title": "ASCII grid reader never overruns", "statement": "ReadAscFile never stores more than rows*cols values whatever the file contains: a file with more values is rejected, a file with fewer is accepted with the missing cells NoData, and a missing or incomplete header is rejected.", "quantifier": "every text file", "why_tests_cant": "arbitrary malformed files", "anchors": ["src/data_raster.hpp: ReadAscFile"]}
{"id": "C10", "title": "Full-size output reproduces the grid", "statement": "Writing a raster with stored positions to a raster file scatters each stored value to its own cell and fills all other cells with NoData, so the written full grid is the grid the raster was compacted from.", "quantifier": "every grid and NoData pattern, one or several layers, ASC, GDAL and GridFS output", "why_tests_cant": "inverse law of two index transformations over all grids", "anchors": ["src/data_raster.hpp: clsRasterData::OutputFileByGdal", "src/data_raster.hpp: clsRasterData::OutputAscFile", "src/data_raster.hpp: clsRasterData::OutputToMongoDB"]}
{"id": "C11", "title": "ReplaceNoData changes exactly the NoData cells", "statement": "After ReplaceNoData(v) every cell that was NoData is v, every other cell is unchanged, the raster's NoData value is v, and a second ReplaceNoData(v) changes nothing.", "quantifier": "every raster, every replacement value", "why_tests_cant": "all values including those equal to v already", "anchors": ["src/data_raster.hpp: clsRasterData::ReplaceNoData"]}
{"id": "C12", "title": "Reclassify maps every cell by the table", "statement": "After Reclassify(m) every valid cell whose integer value is a key of m holds m's value, valid cells whose value is not in m hold NoData, and NoData cells stay NoData.", "quantifier": "every raster and every reclassification table", "why_tests_cant": "tables that miss a value are the interesting case and depend on the data", "anchors": ["src/data_raster.hpp: clsRasterData::Reclassify"]}
{"id": "C13", "title": "Subsets partition the valid cells", "statement": "BuildSubSet assigns every valid cell to exactly one subset: the subset whose id is the cell's integer value (or the group the table maps this value to); the subsets' cell counts add up to the number of assigned cells and no cell is in two subsets.", "quantifier": "every mask raster and every group table", "why_tests_cant": "partition law over all rasters", "anchors": ["src/data_raster.hpp: clsRasterData::BuildSubSet"]}
{"id": "C14", "title": "Subset bounding boxes are tight and local indexes valid", "statement": "For each subset the row and column range is the smallest rectangle containing its cells, and the local index of each cell lies in [0, local rows*local cols), is distinct for distinct cells and addresses the same (row, col) relative to the rectangle's corner; the header of the subset's file places each of its cells where the raster has it.", "quantifier": "every mask raster, every group table, every subset and cell", "why_tests_cant": "geometric law over all shapes", "anchors": ["src/data_raster.hpp: clsRasterData::BuildSubSet", "src/data_raster.cpp: SubsetPositions::SubsetPositions"]}
{"id": "C15", "title": "Combining decomposed subsets restores the raster", "statement": "Decomposing a raster's values into its subsets and recombining the subsets' data gives the original full-size data with NoData outside of the valid cells, for any decomposition produced by BuildSubSet; subsets flagged unusable leave their cells NoData.", "quantifier": "every raster, subset structure and layer count", "why_tests_cant": "inverse law over all decompositions", "anchors": ["src/data_raster.hpp: clsRasterData::PrepareSubsetData", "src/data_raster.hpp: clsRasterData::PrepareCombSubsetData", "src/data_raster.hpp: clsRasterData::OutputSubsetToFile"]}
{"id": "C16", "title": "Re-building subsets is idempotent", "statement": "BuildSubSet on a raster with existing subsets changes nothing; RebuildSubSet gives the same subsets as BuildSubSet on a raster without subsets.", "quantifier": "every raster and history of build, rebuild and release calls", "why_tests_cant": "histories", "anchors": ["src/data_raster.hpp: clsRasterData::BuildSubSet", "src/data_raster.hpp: clsRasterData::RebuildSubSet", "src/data_raster.hpp: clsRasterData::ReleaseSubset"]}
{"id": "C17", "title": "Masking keeps exactly the values under the mask", "statement": "After masking, a cell of the raster is valid only if it coincides with a valid cell of the mask; its value is the raster's own value at that location (the default value, if given, where the raster has NoData), and no value is invented elsewhere.", "quantifier": "every raster and mask geometry on a common cell grid, every NoData pattern", "why_tests_cant": "all relative placements of raster and mask", "anchors": ["src/data_raster.hpp: clsRasterData::MaskAndCalculateValidPosition"]}
{"id": "C18", "title": "Masked positions agree with the header", "statement": "After masking, the positions, the number of rows/cols in the header and the header's lower-left corner describe the same locations: the cell stored at index i is the one GetPosition finds for its geographic location.", "quantifier": "every raster/mask pair and every combination of use_mask_ext and calc_pos", "why_tests_cant": "coordinates shift only for some relative placements and option combinations", "anchors": ["src/data_raster.hpp: clsRasterData::MaskAndCalculateValidPosition", "src/data_raster.hpp: clsRasterData::SetUseMaskExt"]}
{"id": "C19", "title": "Basic statistics are those of the valid values", "statement": "BasicStatistics returns the number of values different from the excluded value, their minimum, maximum, mean, population standard deviation (square root of the mean squared deviation) and range; the excluded values do not influence any result.", "quantifier": "every array and every excluded value", "why_tests_cant": "all arrays; needs a mathematical specification of the result", "anchors": ["src/utils_math.h: BasicStatistics(const T*, ...)"]}
{"id": "C20", "title": "Multi-layer statistics are the per-layer statistics", "statement": "BasicStatistics of a two-dimensional array returns in each layer's slot the one-dimensional statistics of that layer, independent of the other layers.", "quantifier": "every number of cells and layers", "why_tests_cant": "interference between layers over all arrays", "anchors": ["src/utils_math.h: BasicStatistics(const T*const*, ...)"]}
{"id": "C21", "title": "Parallel loops do not depend on how they are split among threads", "statement": "Sums and statistics computed by the parallel reductions equal the sequential results for every way of distributing the cells over threads and every order of combining the partial results (exact arithmetic); the parallel loops that write cells leave the same array under every interleaving of their steps.", "quantifier": "every array, every partition into chunks and every combination order", "why_tests_cant": "thread schedules cannot be enumerated by running", "anchors": ["src/utils_math.h: MaxInArray", "src/utils_math.h: MinInArray", "src/utils_math.h: Sum", "src/utils_math.h: BasicStatistics"]}
{"id": "C22", "title": "Statistics are cached until updated", "statement": "The statistics getters return the statistics of the raster at the time of the first request or of the last UpdateStatistics (ForceUpdate) call; in particular after UpdateStatistics they are those of the current values.", "quantifier": "every history of writes, statistics queries and updates", "why_tests_cant": "unbounded interleavings of writes and queries", "anchors": ["src/data_raster.hpp: clsRasterData::CalculateStatistics", "src/data_raster.hpp: clsRasterData::UpdateStatistics", "src/data_raster.hpp: clsRasterData::GetStatistics"]}
{"id": "C23", "title": "Copies are equal and independent", "statement": "A raster obtained by copy construction has the same observable values, positions and header as its source, and later writes to one never change the other.", "quantifier": "every raster built in memory and changed by any history of calls that still stores at least one cell, and every later interleaved history on either object (for a raster without stored cells the statement is false: C23_false_no_valid_cell)", "why_tests_cant": "aliasing shows only under particular later histories", "anchors": ["src/data_raster.hpp: clsRasterData::Copy", "src/data_raster.hpp: clsRasterData::operator="]}
{"id": "C24", "title": "Narrowing on GeoTIFF output is safe", "statement": "Writing to an integer raster type either fails or writes for every cell a value of the target type's range: valid cells keep their (truncated) value, NoData cells become the file's NoData value, and no valid cell is turned into NoData.", "quantifier": "every grid, source NoData and target type", "why_tests_cant": "depends on the value range of data and NoData", "anchors": ["src/data_raster.hpp: WriteSingleGeotiff"]}
{"id": "C25", "title": "Raster type names round-trip", "statement": "StringToRasterDataType(RasterDataTypeToString(t)) = t for each data type, any letter case of the name is accepted, unknown names give Unknown, and the default NoData of each type is representable in this type.", "quantifier": "every data type, every string", "why_tests_cant": "arbitrary strings and all letter cases", "anchors": ["src/data_raster.cpp: RasterDataTypeToString", "src/data_raster.cpp: StringToRasterDataType", "src/data_raster.cpp: DefaultNoDataByType"]}
{"id": "C26", "title": "GridFS file store behaves like a map", "statement": "Any sequence of file writes, overwrites, removals and reads on the store returns for a read the bytes of the last successful write of that name and options that was not removed, and removal affects no other file.", "quantifier": "every history of store operations, including transient failures", "why_tests_cant": "histories and failure points", "anchors": ["src/db_mongoc.cpp: MongoGridFs::WriteStreamData", "src/db_mongoc.cpp: MongoGridFs::RemoveFile", "src/db_mongoc.cpp: MongoGridFs::GetStreamData", "src/db_mongoc.cpp: MongoGridFs::GetFile", "src/data_raster.hpp: WriteStreamDataAsGridfs"]}
{"id": "C27", "title": "Retries are bounded and do not duplicate files", "statement": "Storing a raster makes at most a fixed number of attempts, reports success if and only if one of them succeeded, and leaves at most one file with the given name and options.", "quantifier": "every pattern of failing and succeeding attempts", "why_tests_cant": "fault schedules", "anchors": ["src/data_raster.hpp: WriteStreamDataAsGridfs", "src/db_mongoc.cpp: MongoGridFs::GetFile"]}
{"id": "C28", "title": "GridFS raster round-trip", "statement": "Reading a raster back from GridFS gives the header numbers and the cell values that were written, for one or several layers.", "quantifier": "every grid, layer count and data type", "why_tests_cant": "round-trip law over all contents and layer layouts", "anchors": ["src/data_raster.hpp: ReadGridFsFile", "src/data_raster.hpp: clsRasterData::OutputToMongoDB", "src/data_raster.hpp: clsRasterData::ReadFromMongoDB"]}
{"id": "C29", "title": "Options survive the BSON metadata encoding", "statement": "An option written into BSON metadata is decoded to the same string or to the number it denotes: integers, decimals and other strings keep their meaning.", "quantifier": "every option string", "why_tests_cant": "arbitrary strings; the type is chosen by the text", "anchors": ["src/db_mongoc.cpp: AppendStringOptionsToBson", "src/db_mongoc.cpp: GetStringFromBsonIterator", "src/db_mongoc.cpp: GetNumericFromBsonIterator"]}
{"id": "C30", "title": "Boolean metadata decodes to its truth value", "statement": "GetBoolFromBsonIterator returns true for true, for non-zero numbers and for the text TRUE in any letter case, and false for false, zero and other text.", "quantifier": "every BSON value", "why_tests_cant": "arbitrary values", "anchors": ["src/db_mongoc.cpp: GetBoolFromBsonIterator"]}
{"id": "C31", "title": "Trim removes exactly the surrounding white space", "statement": "Trim and TrimSpaces return the string without its maximal prefix and suffix of blanks, tabs, CR and LF; inner characters are kept; both functions agree and are idempotent.", "quantifier": "every string", "why_tests_cant": "arbitrary strings", "anchors": ["src/utils_string.cpp: Trim", "src/utils_string.cpp: TrimSpaces"]}
{"id": "C32", "title": "Splitting by a delimiter inverts joining", "statement": "SplitString(join(fields, d), d) gives the fields back for any fields that do not contain d and do not end with an empty field, and joining the result gives the text back unless it ends with the delimiter; no field contains the delimiter.", "quantifier": "every list of fields, every text and delimiter", "why_tests_cant": "arbitrary lists, including empty fields", "anchors": ["src/utils_string.cpp: SplitString(const string&, char)"]}
{"id": "C33", "title": "Splitting by white space gives the words", "statement": "SplitString(text) returns the maximal runs of non-blank characters in order.", "quantifier": "every text", "why_tests_cant": "leading, trailing and repeated blanks", "anchors": ["src/utils_string.cpp: SplitString(const string&)"]}
{"id": "C34", "title": "String matching ignores case and nothing else", "statement": "StringMatch is an equivalence relation that holds exactly for strings of equal length equal up to ASCII letter case; GetUpper is idempotent and length preserving; the C-string overload agrees with it on strings without NUL.", "quantifier": "every pair and triple of strings", "why_tests_cant": "arbitrary strings", "anchors": ["src/utils_string.cpp: StringMatch", "src/utils_string.cpp: GetUpper"]}
{"id": "C35", "title": "Integer recognition is exact", "statement": "IsInt, IsInt64 and IsUInt64 report success exactly for the canonical decimal notation of a number of the respective range and then return this number; in particular overflowing or non-canonical text is rejected.", "quantifier": "every string", "why_tests_cant": "overflow wrap-around and saturation boundaries, arbitrary garbage", "anchors": ["src/utils_string.cpp: IsInt", "src/utils_string.cpp: IsInt64", "src/utils_string.cpp: IsUInt", "src/utils_string.cpp: IsUInt64"]}
{"id": "C36", "title": "Integers round-trip through text", "statement": "Parsing the result of itoa/i64toa/u64toa with the corresponding recogniser succeeds and returns the number; distinct numbers have distinct texts.", "quantifier": "every number of the range", "why_tests_cant": "2^64 inputs", "anchors": ["src/utils_string.cpp: itoa", "src/utils_string.cpp: i64toa", "src/utils_string.cpp: u64toa"]}
{"id": "C37", "title": "IsNumber accepts numbers only", "statement": "IsNumber(s) is true only if s, after leading white space, is a non-empty number text.", "quantifier": "every string", "why_tests_cant": "arbitrary strings including the empty one", "anchors": ["src/utils_string.h: IsNumber", "src/utils_string.cpp: IsDouble"]}
{"id": "C38", "title": "Option maps: copy and update semantics", "statement": "After CopyStringMap(in, out) each key of in has in's value in out and every other key of out is unchanged; after UpdateStringMap(m, k, v) key k has value v and nothing else changed.", "quantifier": "every pair of maps, every sequence of updates", "why_tests_cant": "arbitrary maps and histories", "anchors": ["src/utils_string.cpp: CopyStringMap", "src/utils_string.cpp: UpdateStringMap"]}
{"id": "C39", "title": "SplitStringForValues reports success only when every field was converted", "statement": "SplitStringForValues returns true exactly when there is at least one field and every field was converted, and then the i-th value is the conversion of the i-th field; otherwise the values are the conversions of the convertible fields in order.", "quantifier": "every text and delimiter", "why_tests_cant": "arbitrary text", "anchors": ["src/utils_string.h: SplitStringForValues"]}
{"id": "C40", "title": "Array helpers neither leak nor free twice", "statement": "Along any sequence of Initialize1DArray/Release1DArray/Initialize2DArray/Release2DArray calls on pointers that start as null, no block is freed twice, no block becomes unreachable without having been freed, and after releasing every pointer no block is left.", "quantifier": "every history of calls and every requested size, including non-positive ones", "why_tests_cant": "unbounded histories", "anchors": ["src/utils_array.h: Initialize1DArray", "src/utils_array.h: Release1DArray", "src/utils_array.h: Initialize2DArray", "src/utils_array.h: Release2DArray"]}
{"id": "C41", "title": "Arrays hold what they were given, 2D arrays are one contiguous block in row-major order", "statement": "Initialize2DArray gives rows at distance cols in a single block of rows*cols elements, all holding the initial value; distinct (row, col) address distinct elements, and copies reproduce the source cell by cell. Initialize1DArray gives exactly the requested number of elements, with the initial value or those of the source; an element written is read back and the others stay. The functions return true exactly if the pointer was null and the array has been built; otherwise the pointer is as before and nothing is allocated.", "quantifier": "every number of rows and columns", "why_tests_cant": "all sizes", "anchors": ["src/utils_array.h: Initialize2DArray"]}
{"id": "C42", "title": "Irregular 2D arrays keep their row lengths and contents", "statement": "Copying an irregular two-dimensional array (row length in the first element) gives rows of the same lengths and contents in one block, without overlap.", "quantifier": "every list of rows", "why_tests_cant": "all shapes", "anchors": ["src/utils_array.h: Initialize2DArray4IrregularArray", "src/utils_array.cpp: Read2DArrayFromString"]}
{"id": "C43", "title": "Value lookup and removal in vectors", "statement": "ValueInVector is membership; RemoveValueInVector removes the values equal to the argument as documented and keeps the order of the others.", "quantifier": "every vector and value", "why_tests_cant": "vectors with repeated values", "anchors": ["src/utils_array.h: ValueInVector", "src/utils_array.h: RemoveValueInVector"]}
{"id": "C44", "title": "Julian day numbers count days", "statement": "JulianDay(y, m, d) increases by exactly one from each calendar day to the next across month ends, leap days and year ends, so it is strictly monotone in the date and differences count days.", "quantifier": "every date from the year -4799 on", "why_tests_cant": "an unbounded range of dates with century rules", "anchors": ["src/utils_time.cpp: JulianDay(int, int, int)", "src/utils_time.h: IsLeapYear"]}
{"id": "C45", "title": "Dates round-trip through time_t", "statement": "For every valid date the year, month and day extracted from the time produced by ConvertYMDToTime are those given, and later dates give later times.", "quantifier": "every valid date", "why_tests_cant": "unbounded range of dates", "anchors": ["src/utils_time.cpp: ConvertYMDToTime", "src/utils_time.cpp: GetDateInfoFromTimet", "src/utils_time.cpp: GetYear"]}
{"id": "C46", "title": "Day of year is the ordinal date", "statement": "DayOfYear is 1 on 1 January, grows by one per day, equals 365 or 366 on 31 December according to IsLeapYear, and DayOfYear equals the difference of Julian days from the last day of the previous year.", "quantifier": "every valid date", "why_tests_cant": "all years and leap rules", "anchors": ["src/utils_time.cpp: DayOfYear", "src/utils_time.h: IsLeapYear"]}
{"id": "C47", "title": "Date texts round-trip and sort", "statement": "ConvertToTime(ConvertToString(t)) is the start of t's day, ConvertToString2 and ConvertToString3 read back give the same second, GetDateInfoFromTimet gives the date, and for four-digit years the date texts compare like the dates (UTC).", "quantifier": "every time in the years 1000-9999", "why_tests_cant": "all dates", "anchors": ["src/utils_time.cpp: ConvertToString", "src/utils_time.cpp: ConvertToTime"]}
{"id": "C48", "title": "Moving a DateTime forward and backward", "statement": "Forward(ms) gives the DateTime ms milliseconds later and Backward(ms) undoes it.", "quantifier": "every DateTime and every number of milliseconds", "why_tests_cant": "all amounts", "anchors": ["src/utils_time.cpp: DateTime::Forward", "src/utils_time.cpp: DateTime::Backward"]}
{"id": "C49", "title": "DateTime keeps its instant", "statement": "FromFileTime(f) denotes the instant f to the millisecond (its file time and total milliseconds are f) and the comparison operators order DateTimes by instant as a total order.", "quantifier": "every instant below 2^63 milliseconds, every pair or triple, every time zone", "why_tests_cant": "all instants; negative remainders", "anchors": ["src/utils_time.cpp: DateTime::FromFileTime", "src/utils_time.cpp: ConvertTMToDateTime", "src/utils_time.h: DateTime::operator<"]}
{"id": "C50", "title": "Expo clamps, Power keeps the sign", "statement": "Expo replaces an argument outside the bounds by the nearer bound and leaves one inside alone, so its result is monotone in the argument and lies between the exponentials of the bounds; Power raises the magnitude of the base and keeps its sign, so it is odd and, for positive exponents, strictly increasing in the base.", "quantifier": "every argument, ordered bounds and exponent (real arithmetic)", "why_tests_cant": "real-valued arguments", "anchors": ["src/utils_math.cpp: Expo", "src/utils_math.cpp: Power"]}
{"id": "C51", "title": "Table lookups in the fast power function are in bounds", "statement": "For every 32-bit pattern the fast power function's table index lies inside its table; and for every exponent and log-base whose exact power is a normal float the conversion is defined and the result is a positive normal float within relative error 1/4000 of the exact power (conversion argument computed exactly).", "quantifier": "all 2^32 bit patterns", "why_tests_cant": "exhaustive domain", "anchors": ["src/utils_math.cpp: pow_lookup", "src/utils_math.cpp: ApproxPow/powFast tables"]}
{"id": "C52", "title": "Paths decompose and recompose", "statement": "For every full name made of a directory, a core name and a suffix, GetPathFromFullName, GetCoreFileName and GetSuffix return those parts, and concatenating them gives the name back.", "quantifier": "every directory, core name and suffix", "why_tests_cant": "arbitrary names, dots and separators", "anchors": ["src/utils_filesystem.cpp: GetPathFromFullName", "src/utils_filesystem.cpp: GetCoreFileName", "src/utils_filesystem.cpp: GetSuffix", "src/utils_filesystem.cpp: ConcatFullName"]}
{"id": "C53", "title": "Renaming helpers change only their part", "statement": "ReplaceSuffix changes the suffix only, AppendCoreFileName and PrefixCoreFileName change the core name only; directory and other parts stay.", "quantifier": "every full name and inserted text", "why_tests_cant": "arbitrary names", "anchors": ["src/utils_filesystem.cpp: ReplaceSuffix", "src/utils_filesystem.cpp: AppendCoreFileName", "src/utils_filesystem.cpp: PrefixCoreFileName"]}
{"id": "C54", "title": "Plain text loading keeps exactly the content lines", "statement": "LoadPlainTextFile returns, in order, the trimmed lines that are not empty and do not start with #, and nothing else.", "quantifier": "every file content", "why_tests_cant": "arbitrary text", "anchors": ["src/utils_filesystem.cpp: LoadPlainTextFile"]}
{"id": "C55", "title": "Directory deletion and cleaning touch only the directory", "statement": "DeleteDirectory and CleanDirectory remove only entries of the given directory and everything outside is unchanged: recursive deletion removes the directory with everything below it (hidden entries too) when nothing refuses removal, non-recursive deletion removes only its files, and CleanDirectory removes the visible files and empty visible subdirectories, keeping hidden ones; a missing directory is created by CleanDirectory and left alone by DeleteDirectory.", "quantifier": "every file tree", "why_tests_cant": "arbitrary trees, nested and hidden entries", "anchors": ["src/utils_filesystem.cpp: DeleteDirectory", "src/utils_filesystem.cpp: CleanDirectory"]}
{"id": "C56", "title": "FindFiles returns exactly the matching files", "statement": "FindFiles returns the non-hidden files of the directory whose suffix equals the requested one ignoring case, or all of them for the wildcard, and nothing else.", "quantifier": "every directory content and expression", "why_tests_cant": "arbitrary names and expressions", "anchors": ["src/utils_filesystem.cpp: FindFiles"]}
{"id": "C57", "title": "Key:value option parsing", "statement": "In the command line application an option text 'key:value[|value...],...' is parsed entry by entry: every well-formed entry (an integer key and numeric values) is available under its key, entries of any other shape are skipped, for a repeated key the first entry wins (keys already present keep their values), and the parse reports failure exactly if the text is empty or some entry contains a malformed number.", "quantifier": "every option text", "why_tests_cant": "arbitrary text", "anchors": ["apps/mask_rasterio.cpp: parse_key_values"]}
{"id": "C58", "title": "Mode and format names", "statement": "StringToIOMode and StringToDataFormat recognise exactly their documented names, ignoring letter case.", "quantifier": "every string", "why_tests_cant": "arbitrary strings", "anchors": ["apps/mask_rasterio.cpp: StringToIOMode", "apps/mask_rasterio.cpp: StringToDataFormat"]}
{"id": "C59", "title": "IP address check accepts addresses only", "statement": "IsIpAddress returns true exactly for four dot-separated decimal numbers from 0 to 255.", "quantifier": "every string", "why_tests_cant": "arbitrary strings, overflow", "anchors": ["src/basic.cpp: IsIpAddress"]}
{"id": "C60", "title": "All layers of a multi-layer raster are aligned", "statement": "When layers are added to a raster, each layer is sampled at the same locations: the value of layer k at a stored cell is the k-th raster's value at the coordinates of that cell, or NoData where the k-th raster has none.", "quantifier": "every first layer, every other layers with their own extents", "why_tests_cant": "all relative placements", "anchors": ["src/data_raster.hpp: clsRasterData::AddOtherLayerRasterData", "src/data_raster.hpp: clsRasterData::ReadFromFiles"]}
{"id": "C61", "title": "Times in metadata decode to the stored time", "statement": "GetDatetimeFromBson returns the whole seconds of a BSON date, and for a date or date-time stored as text in the library's own format the same second (or start of the day); a missing key gives -1.", "quantifier": "every time and document", "why_tests_cant": "all times, including before 1970, near 1970 and after 2038", "anchors": ["src/db_mongoc.cpp: GetDatetimeFromBsonIterator", "src/db_mongoc.cpp: GetDatetimeFromBson"]}
{"id": "C62", "title": "Fast exponential is accurate on its range", "statement": "For every argument x with |x| < 63 ln 2 the fast exponential ApprExp is defined and within relative error 1e-5 of exp x (in exact arithmetic); from |x| >= 64 ln 2 on it shifts out of range.", "quantifier": "every real argument", "why_tests_cant": "continuum of arguments", "anchors": ["src/utils_math.h: ApprExp, __p_exp_pos, __p_exp_ln2"]}
{"id": "C63", "title": "Fast logarithm and power are accurate for every normal float", "statement": "For every positive normal float or double z, ApprLn(z) is within 4.6e-4 of ln z; for every positive normal base and exponent whose power is safely inside the normal floats ApprPow is defined and its logarithm is within 0.00046|b|+0.00026 of b ln a (bit manipulation exact, arithmetic exact).", "quantifier": "all positive normal bit patterns, all exponents", "why_tests_cant": "2^31 / 2^63 bit patterns times a continuum of exponents", "anchors": ["src/utils_math.cpp: ApprLn, pow_lookup", "src/utils_math.h: ApprPow"]}
{"id": "C64", "title": "Fast square root is accurate for every normal float", "statement": "For every positive normal float or double z, ApprSqrt(z) computed with exact arithmetic is within relative error 1e-10 of the square root of z.", "quantifier": "all positive normal bit patterns", "why_tests_cant": "2^63 bit patterns", "anchors": ["src/utils_math.cpp: ApprSqrt"]}
{"id": "C65", "title": "Creating, testing and deleting single entries", "statement": "FileExists, PathExists and DirectoryExists say exactly whether the named entry exists (and is a directory), FilesExist whether the list is non-empty and all its members exist; MakeDirectory adds exactly the named directory, succeeds without change when it exists, and changes nothing when it fails; DeleteExistedFile returns 0 iff the named entry could be removed, and then removes exactly it.", "quantifier": "every file tree and path", "why_tests_cant": "arbitrary trees, denied operations", "anchors": ["src/utils_filesystem.cpp: FileExists", "src/utils_filesystem.cpp: PathExists", "src/utils_filesystem.cpp: DirectoryExists", "src/utils_filesystem.cpp: FilesExist", "src/utils_filesystem.cpp: MakeDirectory", "src/utils_filesystem.cpp: DeleteExistedFile"]}
{"id": "C66", "title": "GeoTIFF round trip keeps grid and cells", "statement": "A grid written to a GeoTIFF file and read back has the same dimensions, cell size and corner coordinates, the file's NoData value, and the cells that were written (converted to the requested type); an unsigned byte file is not misread as signed bytes.", "quantifier": "every grid, georeference, NoData value, source and target type for which the file was written (byte files: NoData not negative)", "why_tests_cant": "round-trip law over all contents, georeferences and NoData values", "anchors": ["src/data_raster.hpp: WriteSingleGeotiff", "src/data_raster.hpp: ReadRasterFileByGdal"]}
{"id": "C67", "title": "Format and path arguments of the command line", "statement": "parse_fmt_paths accepts exactly the documented forms: existing (non-output) files are files whatever the format word says; otherwise the format is the named one; a single text naming no format is a file path if it contains a slash and otherwise a GridFS name; everything else is refused with nothing changed. The paths added are the comma-separated pieces of the path text, in order.", "quantifier": "every list of argument texts, tag and set of existing files", "why_tests_cant": "all argument texts, case variants and file systems", "anchors": ["apps/mask_rasterio.cpp: parse_fmt_paths"]}
{"id": "C68", "title": "Collection and bucket names", "statement": "GetCollectionNames delivers every collection of the database once, in the driver's order, followed by the name of every GridFS bucket (both its .files and .chunks collections exist) once; when the driver fails the vector is unchanged.", "quantifier": "every list of collection names the server reports", "why_tests_cant": "arbitrary sets of names, needs a server", "anchors": ["src/db_mongoc.cpp: MongoDatabase::GetCollectionNames"]}
{"id": "C69", "title": "Array2D objects are values and release their memory", "statement": "Every history of default construction, construction, copy and move construction, copy and move assignment, create, element access and destruction of Array2D objects behaves like a value type: copies are independent, moves transfer, writes affect only the written element of the written object, a size of zero throws and changes nothing; no block is freed twice or used after release, and when all objects are destroyed no memory is left.", "quantifier": "every history of operations on any number of objects, sizes with fewer than 2^32 cells, no copy of an object that holds nothing, allocations succeed", "why_tests_cant": "unbounded histories of copies, moves and assignments including aliasing", "anchors": ["src/utils_array.h: Array2D"]}
{"id": "C70", "title": "Subsets stored in MongoDB are read back and combined into the original raster", "statement": "After OutputSubsetToMongoDB(out_origin, not combined) has returned true, SubsetPositions::ReadFromMongoDB of file <id>_<name> restores for every subset exactly its cells with the raster's values in all layers, files of other names are untouched, and combining the subsets (OutputSubsetToMongoDB combined) and reading the combined file gives the original values at every valid cell and NoData elsewhere.", "quantifier": "all rasters (any size, layers, storage), group tables, cell/stored/read types whose numbers hold the values, names, options, previous bucket contents, and all patterns of failing attempts and queries", "why_tests_cant": "Needs every partition of every grid, every type combination and every pattern of failing driver calls; a live database and fault injection would be needed even for one.", "anchors": ["src/data_raster.hpp:3348-3413 OutputSubsetToMongoDB", "src/data_raster.hpp:2923-3111 PrepareCombSubsetData, PrepareSubsetData", "src/data_raster.cpp:288-347 SubsetPositions::ReadFromMongoDB, GetHeader"]}
{"id": "C71", "title": "A raster stored in MongoDB and read with a mask is the masked raster", "statement": "After OutputToMongoDB has returned true, ReadFromMongoDB with a mask either returns false because no valid cell of the mask lies on the raster, or gives an object that shows the stored values at the valid cells of the mask (the default value or NoData where the raster has none) and nothing else, whose position lookups agree, and that has the mask's extent if use_mask_ext is set; this holds for files with and without NoData cells.", "quantifier": "all rasters, masks (any extent, overlap, valid cells), option combinations calc_pos/use_mask_ext, cell, stored and read types that hold the values, bucket contents and patterns of failing attempts and queries", "why_tests_cant": "Every pair of grids and masks with every driver failure pattern; the paths taken depend on the number of valid cells of the mask.", "anchors": ["src/data_raster.hpp:3513-3619 ReadFromMongoDB", "src/data_raster.hpp:3268-3346 OutputToMongoDB", "src/data_raster.hpp:3871-4260 MaskAndCalculateValidPosition"]}
{"id": "C72", "title": "FloatEqual tells different values apart", "statement": "FloatEqual of two cell values is true exactly if they are the same number, in particular a cell counts as NoData only if it holds exactly the NoData value; it is reflexive and symmetric.", "quantifier": "all pairs of integers and of doubles", "why_tests_cant": "2^128 pairs of doubles; the threshold is absolute, so the outcome depends on the magnitude of the values.", "anchors": ["src/utils_math.h:140-143 FloatEqual"]}
{"id": "C73", "title": "Reclassified output of subsets", "statement": "When subsets are output with a reclassification table, every cell of a subset gets the value the table lists for its key in each layer (the subset id, or with out_origin the raster's own integer value there), the default value if the table lists none, NoData outside of the subsets; a table whose entries differ in length is refused.", "quantifier": "every raster, subset structure, table, default value, with and without NoData cells, one subset or all combined", "why_tests_cant": "law over all rasters, groupings and tables", "anchors": ["src/data_raster.hpp: clsRasterData::PrepareSubsetData", "src/data_raster.hpp: clsRasterData::PrepareCombSubsetData"]}
{"id": "C74", "title": "Subsets of the mask after masking", "statement": "If the mask has subsets, a raster read with this mask has exactly those of them that contain a valid cell of the masked raster, under the same number. Each consists of the right cells: the geographic points of the mask's subset (its valid points if the raster was cropped to a part of the mask), with number of cells, rectangle, local rows, columns and indexes and storage indexes that are right for the masked raster.", "quantifier": "all rasters and masks on a common grid, all subset maps made by BuildSubSet, all options use_mask_ext and calc_pos, all placements", "why_tests_cant": "the index arithmetic depends on which of eight combinations of flags is taken and on which mask cells coincide with valid raster cells; some combinations give stale indexes", "anchors": ["src/data_raster.hpp: MaskAndCalculateValidPosition", "src/data_raster.hpp: BuildSubSet", "src/data_raster.hpp: GetPosition", "src/data_raster.hpp: GetSubset"]}
{"id": "C75", "title": "Rasters and subsets in files", "statement": "Writing a raster (OutputToFile) or its subsets (OutputSubsetToFile) to ASCII or GeoTIFF files returns true exactly when everything was written: each layer (of each subset) is then in a file of its own, <name>, <name>_<layer>, <subset>_<name> or 0_<name> for the combination, and reading that file gives a raster on the same grid (for a subset: its rectangle at its place in the grid), with the NoData value and the cell values of that layer (for a reclassification: the value the table has for the subset of the cell); NoData outside. No other file changes.", "quantifier": "all rasters made by any history of supported operations, all subset maps, all tables, all directory trees and file names, all contents of existing files, all failures of the operating system", "why_tests_cant": "the file names, the grids, the number of layers and of subsets, the state of the disk and the point of failure are unbounded", "anchors": ["src/data_raster.hpp: OutputToFile, OutputSubsetToFile, OutputFullsizeToFiles, OutputAscFile, OutputFileByGdal, WriteRasterToFile, WriteSingleAsc, WriteSingleGeotiff, ReadFromFile, ReadAscFile, ReadRasterFileByGdal", "src/data_raster.cpp: WriteAscHeaders"]}
{"id": "C76", "title": "Command line and configuration file of mask_rasterio", "statement": "For every command line and configuration file, mask_rasterio either ends with a documented code (no arguments, configuration file missing or unreadable, an unknown mode, inputs or mask that do not exist, an incomplete database description) or goes on with exactly the described jobs in order: an option given on the command line wins over the same option in the file, the first occurrence counts, negative numbers are values and not options, names are case-insensitive; the input of the command line becomes the first job (its output path is derived from the input if none is given), then each data item of the file becomes a job with its own inputs, output, default value, NoData value, output type and reclassification table; all settings of a job are those given for this job and none is read past the end of a list.", "quantifier": "all argument lists, all configuration file texts, all directory trees, all outcomes of the database connection", "why_tests_cant": "the number and order of options and data items, their texts and the files present are unbounded; ten parallel vectors have to stay aligned for every combination", "anchors": ["apps/mask_rasterio.cpp: main (165-476), parse_fmt_paths, parse_key_values", "src/utils_filesystem.cpp: LoadPlainTextFile, FilesExist, AppendCoreFileName", "src/utils_string.cpp: SplitString, GetUpper, TrimSpaces"]}
{"id": "C77", "title": "A run of mask_rasterio in the mode MASK delivers the masked rasters", "statement": "For every run of mask_rasterio in the mode MASK whose jobs each have one input raster file (no reclassification) and whose output files can be written, do not coincide with files of later jobs and can carry the numbers: the program ends with code 0; each output file, read back, is a raster on the grid of the mask whose cell shows the number of the input cell with the same centre where the mask has a value (the default value, if one is given, where the input has NoData), and NoData elsewhere, NoData renamed if asked for; without a mask each output file reads back as its input; no other file on the disk changes. Each input must lie on the grid of the mask and have a cell under a cell of the mask with a value (if it has none, the program dereferences a null pointer).", "quantifier": "all command lines, configuration files, disks, mask and input rasters of any size and position, all numbers of jobs", "why_tests_cant": "the sizes and relative positions of the rasters, the values, the number and order of the jobs and the state of the disk are unbounded; the mask object is changed by the first job that uses it and shared by all later ones", "anchors": ["apps/mask_rasterio.cpp: main (484-598)", "data_raster.hpp: Init, ConstructFromSingleFile, MaskAndCalculateValidPosition, ReplaceNoData, OutputToFile"]}
{"id": "C78", "title": "Reclassification runs of mask_rasterio in the modes MASK, DEC and MASKDEC", "statement": "For every run of mask_rasterio in the modes MASK, DEC or MASKDEC, with or without a mask file, whose jobs each have one input raster file and whose output files can be written, do not coincide with files of later jobs and can carry the numbers: the program ends with code 0 and changes no file except the announced outputs. For a job with a reclassification table of m layers, the modes MASK and MASKDEC write the files 0_name (numbered by layer if m > 1) on the whole grid, in which every cell of a group shows the table's value for its (masked, NoData renamed) number, or the default value if the table does not list it, and every other cell NoData; the modes DEC and MASKDEC write for each group k the files k_name on the smallest rectangle around the group at its true place, with the same values. Groups are the cells with a value, by their value; in DEC and MASKDEC with a mask they are the cells of the mask by the mask's value, and only groups on which the masked raster has a value somewhere. Jobs without reclassification write the (masked) raster itself in MASK and MASKDEC, and nothing in DEC. Exception: in MASKDEC the files of a group with number 0 are overwritten by the combined ones.", "quantifier": "all command lines, configuration files, disks, rasters of any size and position, tables, all numbers and kinds of jobs", "why_tests_cant": "sizes, positions, values, tables, groups and the number and order of the jobs are unbounded; the mask object with its subsets is shared by all jobs of the run", "anchors": ["apps/mask_rasterio.cpp: main (484-598)", "data_raster.hpp: BuildSubSet, MaskAndCalculateValidPosition, ReplaceNoData, OutputSubsetToFile, PrepareCombSubsetData, PrepareSubsetData, OutputFullsizeToFiles"]}
{"id": "C79", "title": "The mode COM of mask_rasterio puts the pieces of a decomposition together", "statement": "For every run of mask_rasterio in the mode COM with a mask file, any number of jobs and any number of input files per job: the program ends with code 0; each job of which at least one input fits writes exactly one file, 0_<output>, which read back is a raster on the grid of the mask: at each cell where the mask has a value, the value which the last fitting file numbered like the mask's value has for this cell (the n-th value of the file, row by row, for the n-th cell of the group, row by row), the default value if no file fits this group, and NoData where the mask has none. A file fits if the number before the first underscore of its name is a value of the mask, it can be read, and it has as many cells with values as the group has cells; other inputs are ignored. Nothing else on the disk changes, and a job without fitting input writes nothing. The files that the modes DEC and MASKDEC write for a group fit it. Without a mask the program does nothing and returns 1.", "quantifier": "all masks, all numbers of jobs and inputs, all file names, all contents of the pieces (fitting, unreadable, missing, too small or too large, repeated), all default values", "why_tests_cant": "the result depends on the order in which valid cells of a piece and cells of a group are enumerated, on state that stays in the subsets between jobs, and on which of six reasons makes an input useless", "anchors": ["apps/mask_rasterio.cpp: main (599-650)", "src/data_raster.hpp: SetData, PrepareCombSubsetData, OutputSubsetToFile"]}
{"id": "C80", "title": "Rasters, masks and subsets release every array exactly once", "statement": "For every sequence of calls of constructors, Init, ReadFromFile(s), ReadFromMongoDB, Copy, BuildSubSet, RebuildSubSet, ReleaseSubset, SetData of subsets, statistics, SetCalcPositions, SetUseMaskExt, position getters, accessors and destructors on any number of rasters, whatever the data decide, that keeps to the contract: a raster is deleted or overwritten only while it is the mask of no other raster; files are read into rasters without data; a mask has data, has its positions or no mask of its own, and no data in its subsets; positions shared with the mask are not recalculated or overwritten; there are valid cells; Copy has a source with data (with positions if they are said to be calculated), into a raster of at most as many dimensions and without calculated statistics if the source has 2D statistics; a GridFS file fits the header; SetPositions is not called. Then no array is used after its release, released twice or released in the wrong way, no exception leaves a call, each array always belongs to exactly one raster, each pointer of a raster points to a live array, and when all rasters are deleted all arrays are released. A call changes no other raster, except that the mask it consults may get positions and statistics.", "quantifier": "all histories of calls on any number of rasters, any sharing of masks, any outcome of the data-dependent decisions (numbers of valid cells, overlap, extents, file read or not)", "why_tests_cant": "ownership of the position arrays depends on the history (who calculated them, whether extents matched); leaks and double frees show up only for particular orders of calls and destructions", "anchors": ["src/data_raster.hpp: clsRasterData::~clsRasterData, Copy, MaskAndCalculateValidPosition, CalculateValidPositionsFromGridData, SetCalcPositions, SetUseMaskExt, SetPositions, BuildSubSet, ReleaseSubset, CalculateStatistics, ReadFromFiles, ReadFromMongoDB", "src/data_raster.cpp: SubsetPositions::SubsetPositions, SubsetPositions::~SubsetPositions", "src/utils_array.h: Initialize1DArray, Initialize2DArray, Release1DArray, Release2DArray"]}
{"id": "C81", "title": "Arrays written to and read from text files", "statement": "For every array and every number n of values not beyond its end, Output1DArrayToTxtFile writes n lines, the i-th of which is the i-th value up to six significant digits (exactly, if it has no more), and LoadPlainTextFile gives these lines back; Output2DArrayToTxtFile writes one line per row with one value per column, each followed by one tabulator. For every text made of a title word, a decimal number n and n words that the stream operator reads as values, followed by anything and separated by any white space, Read1DArrayFromTxtFile returns n and these values; Read2DArrayFromTxtFile and Read2DArrayFromString return, for a title, the number of rows and per row a number and that many values, rows that start with their number of values and continue with the values. A text that ends early leaves the rest of the array unassigned.", "quantifier": "all arrays, row and column counts, finite values, texts, white space, element types with an extraction operator", "why_tests_cant": "unbounded arrays and texts; tests try a few files", "anchors": ["src/utils_array.cpp: Output1DArrayToTxtFile, Output2DArrayToTxtFile, Read1DArrayFromTxtFile, Read2DArrayFromTxtFile, Read2DArrayFromString"]}
{"id": "C82", "title": "Every driver object of the Mongo client is released exactly once", "statement": "For every sequence of calls of MongoClient (Init, constructor, Destroy, destructor, GetDatabaseNames, GetCollectionNames, GetDatabase, GetCollection, GetGridFs, GridFs, GetGridFsFileNames), MongoDatabase, MongoCollection and MongoGridFs (constructors, destructors, queries, GetFile, RemoveFile, GetFileNames, GetFileMetadata, GetStreamData, WriteStreamData) and releases by the program, whatever the driver answers (refused connections, missing databases, collections or files, failed attempts, any number of files), that keeps to the contract (wrappers are not used after their destructor nor copied, an object is given to one wrapper only, arguments exist, objects are released after what is held and depends on them, Destroy comes once and last, files have metadata): no object is used or released that does not exist; each call releases all its temporary objects and changes nothing else than what it returns or is documented to release, except GetCollection of a missing collection, QueryRecordsCount and GetFileNames, which forget exactly one object; hence after a history without these calls exactly the objects exist that the program has not given back.", "quantifier": "all histories of calls, all answers of the driver, any number of clients, wrappers and objects", "why_tests_cant": "histories and driver failures are unbounded, and leaks or double releases are not visible in results", "anchors": ["src/db_mongoc.cpp: MongoClient, MongoDatabase, MongoCollection, MongoGridFs", "src/db_mongoc.h"]}
{"id": "C83", "title": "Statistics in floating-point arithmetic", "statement": "With every operation rounded to the nearest double (whatever the rule for ties), for every array of doubles and every NoData value that is not tiny together with a value: BasicStatistics (of one or several layers) counts the valid values exactly, returns exactly their maximum and minimum (values in the range of float), the range rounded once, a mean whose error is at most ((1+2^-53)^(n+1)-1) times the mean of the absolute values (plus 2^-1075), and a standard deviation s with (1-2^-53)^(k+5) sigma - 2^-537 <= s <= (1+2^-53)^(k+5) (sigma + error of the mean + 2^-537), k being the longest chain of additions in the parallel loop; Sum has a relative error of at most (1+2^-53)^k-1 with respect to the sum of absolute values. Of the six results only the deviation depends on how the loop is split. For integers with absolute values adding up to at most 2^53 Sum is exact under every split and the mean is correctly rounded; a constant layer has exactly its value as mean, deviation 0 and range 0.", "quantifier": "all arrays, NoData values, numbers of layers, roundings to nearest, distributions of iterations over threads and orders of combining partial results", "why_tests_cant": "rounding errors grow with the data and depend on values, order and number of threads; no sample bounds them", "anchors": ["src/utils_math.h: BasicStatistics, Sum, FloatEqual"]}
{"id": "C84", "title": "Coordinates in floating-point arithmetic", "statement": "With every operation rounded to the nearest double (whatever the rule for ties), for every header of doubles with a positive cell size: a point at least 16*2^-53 times the largest coordinate away from the borders of a cell is found in this cell by both lookups (GetPositionByCoordinate: if it is not left of or below the lower left centre); a point farther than that from the grid is outside for both; the centre of a cell is computed with an error of at most 3*2^-53 times the largest coordinate; if at most 2^47 cells fit between the origin and the farthest corner, the centre of every cell is found in this cell, and a cell of an exactly aligned second grid of the same cell size is found by GetPosition(x, y).", "quantifier": "all headers, cells, points, pairs of aligned grids and roundings to nearest", "why_tests_cant": "whether a computed coordinate falls on the wrong side of a border depends on the rounding of each header, row and column; samples miss the rare ones (0.1-degree cells, column 5)", "anchors": ["src/data_raster.hpp: GetCoordinateByRowCol, GetPositionByCoordinate, GetPosition(double, double)"]}
{"id": "C85", "title": "No data races in the parallel loops", "statement": "For every OpenMP loop of the library (filling and copying arrays, Sum, the deviations of BasicStatistics, ReplaceNoData, storing the valid cells, reading further layers, reading from GridFS, converting cells for GeoTIFF), every distribution of the iterations over any number of threads and every interleaving of the single memory accesses: no element is accessed by two threads if one of them writes it; the loop ends and can always go on until it has ended; and afterwards the arrays have exactly the contents the sequential loop gives. The private copies of reduction variables add up to the sum over all elements (Sum, deviations), or to the number of cells that do not fit the output type, so that the decision to refuse a GeoTIFF does not depend on the threads.", "quantifier": "all loops, sizes, array contents, numbers of threads, distributions of iterations and interleavings of accesses", "why_tests_cant": "a race shows under rare interleavings only; the number of schedules is beyond any test", "anchors": ["src/utils_array.h: Initialize1DArray, Initialize2DArray", "src/utils_math.h: Sum, BasicStatistics", "src/data_raster.hpp: WriteRasterToGeotiff, ReadFromFiles, AddOtherLayerRasterData, ReadFromMongoDB, ReplaceNoData, CalculateValidPositionsFromGridData"]}
{"id": "C86", "title": "Crash while writing an ASCII grid", "statement": "Wherever a run that writes an ASCII grid is stopped (by a crash, a full disk, a kill), the file afterwards is the old one, absent, or a beginning of the complete text. Reading it is never undefined: an absent file and a file cut within or right after the header are rejected and change nothing; so is one cut within a number such that no number is left. Every other beginning is accepted, with the right header: the cells written completely have their values, the cells not written are NoData, and a cell whose number was cut has the value of the remaining digits. A user would rely on incomplete files being refused; the code accepts them, for every grid of at least two cells.", "quantifier": "all grids with at least one row and column, cell types whose output denotes the value, previous files and points (down to single characters) at which the run stops", "why_tests_cant": "every character of every possible output is a crash point; tests write complete files", "anchors": ["src/data_raster.cpp: WriteAscHeaders", "src/data_raster.hpp: WriteSingleAsc, ReadAscFile"]}
{"id": "C87", "title": "mask_rasterio with files in GridFS", "statement": "With the mode MASK, `mask_rasterio` does for files in GridFS what it does for files on disk. A job whose input is a raster file or a grid in the bucket and whose output goes to the bucket stores under `0_<output>` a grid that reads back, with the options of the job, as the grid of the mask with the input's values (default values, renamed NoData) where mask and input have a cell, NoData elsewhere; without a mask it is the input itself. With INCLUDE_NODATA FALSE the values of the cells of the mask, row by row, are stored instead (without a mask: the cells that are not NoData), and such a file, read with the same mask, has these values at the cells of the mask and NoData elsewhere. If the output is a file on disk it is the same file as for an input on disk, and the bucket stays as it is. Files under other names stay. If all four attempts to store the output fail, no file with the name and the options is left, even if there was one. In a batch of jobs that do not overwrite each other's files all outputs are delivered, and the exit code is 0. A user would also expect an input to be found whatever type it is stored in: the code looks only for inputs stored in the job's own output type, and skips the others silently, with exit code 0.", "quantifier": "all masks, rasters, values, buckets, jobs and batches of jobs, options of the objects and outcomes of the driver (queries, removals that succeed, attempts to write)", "why_tests_cant": "the number of rasters, buckets, jobs and failures is unbounded, and tests need a server", "anchors": ["apps/mask_rasterio.cpp: main", "src/data_raster.hpp: Init, ReadFromMongoDB, OutputToMongoDB", "src/db_mongoc.cpp: MongoGridFs"]}
{"id": "C88", "title": "Pieces from GridFS put together by mask_rasterio (mode COM)", "statement": "With the mode COM, pieces stored in GridFS are put together as pieces in files are (C79). A file in the bucket, found with the options of the job, whose name begins with the number of a group of the mask contributes its values to the cells of this group, in their order row by row, if it holds as many values as the group has cells; if it holds as many as the smallest rectangle around the group, the values at the places of the cells are taken. Files without number, without group, missing, unreadable or of another size contribute nothing, and do not disturb the others. The result, on the grid of the mask, has for each cell the value of the last piece for its group, the default value for groups without a piece, NoData outside the mask; it goes to a file on disk or is stored in the bucket, from which it reads back. In a batch of jobs that do not overwrite each other's files all outputs are delivered, other files stay. If nothing contributes, nothing is written: true for output to files, while for output to the bucket the code divides by an uninitialised number.", "quantifier": "all masks, groups, buckets, pieces, jobs and batches of jobs, and outcomes of the driver (queries, reads, attempts to write)", "why_tests_cant": "the number of masks, pieces, buckets and failures is unbounded, and tests need a server", "anchors": ["apps/mask_rasterio.cpp: main", "src/data_raster.cpp: SubsetPositions::ReadFromMongoDB", "src/data_raster.hpp: OutputSubsetToMongoDB, PrepareCombSubsetData", "src/utils_filesystem.cpp: GetCoreFileName"]}
{"id": "C89", "title": "NoData and statistics with NaN and infinite cells", "statement": "Cells that are NaN or infinite. With a finite NoData value, the cells left out when a raster is built are exactly those equal to NoData (closer than 1e-32); NaN and infinite cells are valid cells with their values. Statistics count every cell not equal to NoData; if one of them is NaN, mean and standard deviation are NaN, while maximum and minimum are those of the other cells. A user expects a cell to be recognised as NoData whatever the NoData value is, NaN included (usual in GeoTIFF files): the code recognises none if NoData is NaN or infinite, takes all cells as valid, and renaming NoData changes only the header value, not the cells.", "quantifier": "all grids, cells (finite, infinite, NaN) and NoData values", "why_tests_cant": "the numbers of cells and of values, and the places of NaN among them, are unbounded", "anchors": ["src/utils_math.h: FloatEqual, BasicStatistics", "src/data_raster.hpp: CalculateValidPositionsFromGridData, IsNoData, ReplaceNoData"]}
{"id": "C90", "title": "mask_rasterio stores groups of cells and reclassified grids in GridFS", "statement": "Jobs of mask_rasterio in the modes MASK, DEC and MASKDEC, with inputs from files or from GridFS and output to GridFS. For each group of valid cells (those of one value of the mask or, without mask, of one value of the raster) a mode that asks for single groups stores one file, named by the number of the group and the output name, that holds the smallest rectangle around the cells of the group: the value of the raster or, with reclassification, the entries of the table for it in all layers of the table (the default value if the value is not in the table), NoData at the other cells of the rectangle. A mode that asks for the whole grid stores one file of the whole grid, with the same values at the cells of groups and NoData elsewhere. These files are found with the options of the job and read back with header, number of layers and all values; other files of the bucket stay. In a batch of jobs that do not overwrite each other's files all outputs are delivered. A user expects a file for each group: if single groups and the whole grid are asked for, the file of a group with number 0 has the name of the whole grid, which replaces it.", "quantifier": "all masks, rasters, groups, tables, buckets, jobs and batches of jobs, and outcomes of the driver (queries, reads, attempts to write)", "why_tests_cant": "the number of groups, tables, buckets and failures is unbounded, and tests need a server", "anchors": ["apps/mask_rasterio.cpp: main", "src/data_raster.hpp: BuildSubSet, Reclassify, OutputSubsetToMongoDB, OutputToMongoDB, PrepareCombSubsetData"]}
{"id": "C91", "title": "Whole runs of mask_rasterio with a database", "statement": "A run of mask_rasterio with -mongo, from the command line and the configuration file to the exit code. The mask is a raster file or a grid in GridFS; inputs are files or files in GridFS; all outputs of the jobs go to GridFS. With jobs that do not overwrite each other's files the run ends with exit code 0, changes no file on disk and no stored file except those named by the jobs, and stores for every job what C87, C88 and C90 say, in the mode given, with the cells of the mask wherever it comes from. A mask that is not in the bucket ends the run with exit code 3 and nothing changed. If the database was not given or did not answer, the bucket is not touched and the run is the one on files (C78). A raster stored with all its cells by the library can be used as the mask of a later run.", "quantifier": "all command lines, configuration files, disks, buckets, masks, rasters, jobs and outcomes of the driver", "why_tests_cant": "the number of configurations, grids, buckets and failures is unbounded, and tests need a server", "anchors": ["apps/mask_rasterio.cpp: main", "src/data_raster.hpp: clsRasterData::Initialize (GridFS), ReadFromMongoDB, OutputToMongoDB, OutputSubsetToMongoDB"]}
{"id": "C92", "title": "mask_rasterio jobs with several input files", "statement": "A job of mask_rasterio in the mode MASK whose input is a list of files gives one output file per input file, numbered in the order of the list (GeoTIFF from 1, ASCII grids from 0), all on the grid of the mask (without a mask: of the first file) with the NoData value of the first file or the one asked for. The first layer is the first file masked as in a job of one file. In a further layer a cell has the number of its file where the mask (without a mask: the first file) has a value and the file has a cell there which is not NoData, and NoData elsewhere; the default value does not fill further layers. Nothing else on the disk changes. A run with any list of jobs of one or several files, in which no job writes to a file of a later job, does all of them and ends with exit code 0. With output to GridFS the result is one stored file with all these layers, with the same numbers cell by cell, and no file on the disk and no other stored file changes. If the NoData cells are left out (INCLUDE_NODATA FALSE), the stored file has the numbers of all layers of the cells of the mask (without a mask: of the cells where the first file has a value), cell by cell, row by row, and nothing else.", "quantifier": "all numbers of input files, grids of the files and the mask with the same cell size on a common lattice, values, default and NoData values, lists of jobs, disks", "why_tests_cant": "the number of files, grids and jobs is unbounded, and where the grids overlap decides cell by cell which file or value counts", "anchors": ["apps/mask_rasterio.cpp: main", "src/data_raster.hpp: clsRasterData::Initialize (several files), ReadFromFiles, AddOtherLayerRasterData, OutputAscFile, OutputFileByGdal"]}
{"id": "C93", "title": "32-bit arithmetic of rasters", "statement": "On every raster a program gets whose cells (rows times columns) an int can count, finding, reading and writing a cell computes no int out of range, whatever row, column and layer are passed. If moreover twice the number of cells, and the number of cells times the number of layers, fit into an int, then no call of any history of modelled calls (including compaction and, for values that fit into an int, Reclassify), building subsets of values that fit into an int, the arrays of subsets with as many layers as fit, and OutputToMongoDB overflows, and all of them do exactly what they do with unbounded integers. Beyond these limits they do not: a raster of 2^30 or more cells without NoData can be constructed and read, but compacting it overflows; a compacted raster of several layers with few valid cells cannot be stored with NoData cells if layers times rows times columns exceeds 2^31-1.", "quantifier": "all rasters reached by any history, all arguments, all histories of calls, all tables, all subsets", "why_tests_cant": "the overflows need grids of more than 2^30 cells, and their absence is a statement about every argument and history", "anchors": ["src/data_raster.hpp: clsRasterData::GetPosition, GetValue, SetValue, SetCalcPositions, GetRasterPositionData, CalculateValidPositionsFromGridData, BuildSubSet, PrepareSubsetData, PrepareCombSubsetData, OutputToMongoDB, Reclassify, GetDataLength", "src/utils_array.h: Initialize2DArray"]}
{"id": "C94", "title": "Subset objects own what they show", "statement": "In every history of calls on SubsetPositions objects - subsets built from a raster, deep copies, shallow copies of subsets without data that do not outlive their source, SetData, Set2DData with two or more layers (never more than the first time), ReadFromMongoDB of files of the cells or of the whole box, Output, destruction - nothing is read or released after its release, no array is overrun, each object shows exactly the layers given to it last (Output: one array of the box per layer, the cells' values at their places and the given NoData elsewhere), wrong sizes and null pointers are refused without effect, calls on one object never show in another, and after the last destruction nothing is left allocated. Outside of this the class fails: the default (shallow) copy of a subset with data shares the data and releases them twice, a shallow copy dangles once its source is gone, one layer given by Set2DData is accepted but not output (or older values are output), more layers than before overrun the array, a deep copy has less room than its source, and a deep copy of a subset without cells dereferences null.", "quantifier": "all histories of calls, all objects, all boxes, cells, values and layer numbers", "why_tests_cant": "aliasing, double release and stale data depend on the whole history of copies and calls", "anchors": ["src/data_raster.cpp: SubsetPositions::SubsetPositions, ~SubsetPositions, ReadFromMongoDB", "src/data_raster.hpp: SubsetPositions::SetData, Set2DData, Output, clsRasterData::BuildSubSet"]}
{"id": "C95", "title": "Headers and positions set from outside", "statement": "SetHeader replaces exactly the entries given (counts by their integer part), takes the numbers of cells and layers and NoData from the header and touches neither cells nor positions; a raster handed entries of its own header is unchanged; entries for the place of the grid (cell size, corner) move the grid and change no answer about cells; a new NoData value changes no stored cell and becomes the answer for all others. On a raster without positions every header asking for no more cells and layers than there are reshapes the array (cell (row, col) is number row * cols + col) and every access ends normally. SetPositions with another number of positions than the raster has is refused without effect; on a raster with positions an ascending list of cell numbers is obeyed by every later lookup; a list of rows and columns given to a raster without positions changes no answer. Outside of this the setters are not safe: a larger header makes accesses undefined, more layers than there are show the first layer, other columns move the values of a raster with positions to other cells, a raster without positions accepts any number of them and reads past their end, and replacing the positions of a raster without valid cells dereferences null.", "quantifier": "all rasters reachable by construction and calls, all headers, all position lists, all cells and layers", "why_tests_cant": "the setters do not check anything: whether later accesses stay inside the arrays depends on header, positions and the raster's history together", "anchors": ["src/data_raster.hpp: clsRasterData::SetHeader, SetPositions, GetPosition, GetValue, GetValueByIndex", "src/data_raster.cpp: CopyHeader"]}
{"id": "C96", "title": "Floating numbers as text", "statement": "For every finite double ftoa ends normally (the buffer always suffices) and returns the shortest plain decimal text (no superfluous zeros, no trailing point, no exponent) of the number with six decimals nearest to the argument, ties to even; IsNumber accepts the text and ToDouble reads that number. A double nearest to a decimal number with six decimals below 2^33 is shown exactly as that decimal number, so writing and reading gives the same double. Infinities and NaN are shown by names that read as such. Smaller differences are lost: 2^-24 is shown like 0, -2^-24 as -0.", "quantifier": "all doubles (sign, magnitude, negative zero, infinities, NaN)", "why_tests_cant": "2^64 arguments; rounding, the stripping loop and the buffer size interact", "anchors": ["src/utils_string.cpp: ftoa, _gcvt_s", "src/utils_string.h: ToDouble, IsNumber"]}
{"id": "C97", "title": "Wide and narrow strings", "statement": "atow converts every string the current locale can convert, wtoa converts it back unchanged; with the default locale ASCII strings are the same in both kinds, a NUL ends the text, and ftow gives the characters of ftoa. A string the locale cannot convert is not reported as an error: the length becomes 0 and the conversion is undefined behaviour.", "quantifier": "all strings, all locales (any pair of conversion functions), all doubles for ftow", "why_tests_cant": "depends on the locale of the process and on arbitrary bytes", "anchors": ["src/utils_string.cpp: atow, wtoa, _atow, _wtoa, ftow"]}
{"id": "C98", "title": "mask_rasterio jobs with several input files, with or without a table, in all modes", "statement": "For every run of mask_rasterio in the modes MASK, DEC or MASKDEC, with or without a mask file, whose jobs each have one or several input raster files, with or without a reclassification table, and whose output files can be written, do not coincide with files of later jobs and can carry the numbers: the program ends with code 0 and changes no file except the announced outputs. For a job with several files and a table, the groups of cells are those of the first file (with a mask in DEC and MASKDEC: those of the mask which the masked first file touches); the file of column l of the table has in every cell of a group the table's value in column l for the number of file l there (NoData renamed if asked for), the default value if the table does not list that number, and NoData in the other cells. Without a table, MASK and MASKDEC write one file per input file as in C92 and DEC writes no files. With output to a GridFS bucket, the same numbers (without a table: all input files as layers, also in DEC) are stored, layer by layer, in one file per group (DEC, MASKDEC) and one file for the whole grid (MASK, MASKDEC), and the other files of the bucket stay. A table has at most as many columns as there are input files; a wider one reads beyond the cells (undefined behaviour).", "quantifier": "all command lines and configuration files, all lists of jobs, all numbers of input files, grids, values, tables, masks and disks", "why_tests_cant": "the combinations of files, tables, modes and masks are unbounded, and the earlier jobs' outputs must survive the later jobs", "anchors": ["apps/mask_rasterio.cpp: main", "src/data_raster.hpp: ReadFromFiles, AddOtherLayerRasterData, OutputSubsetToFile, PrepareCombSubsetData, PrepareSubsetData, OutputFullsizeToFiles"]}
{"id": "C99", "title": "Dates, times and their texts in local time (utc_time = false)", "statement": "In every time zone with daylight saving: GetYear, GetMonth, GetDay, DayOfYear, JulianDay and GetDateInfoFromTimet with utc_time = false give the date on the wall clock; ConvertYMDToTime with utc_time = false gives a time whose local date is the given one, later for later dates; ConvertToString gives the wall-clock date and reads back as the start of that day; ConvertToString2 and ConvertToString3 give the standard time of the zone and ConvertToTime reads the very same second back. (The last two claims are false in the hour after midnight, resp. the first hour of a month, under daylight saving.)", "quantifier": "all instants with four-digit years, all zones with a standard offset and a saving of one hour (dates: any saving below a day) in force on an arbitrary set of instants", "why_tests_cant": "tests run in one time zone and at a handful of instants; the failures are in single hours of single months", "anchors": ["src/utils_time.cpp: ConvertToString, ConvertToString2, ConvertToString3, ConvertToTime, ConvertYMDToTime, GetDateInfoFromTimet, GetDateTime, GetYear, GetMonth, GetDay, DayOfYear, JulianDay"]}
{"id": "C100", "title": "mask_rasterio reads stored grids and writes raster files, in all modes", "statement": "A job of mask_rasterio in the modes MASK, DEC and MASKDEC, with or without a mask, with or without reclassification, whose input is a grid in GridFS and whose output goes to files, writes the same files, with the same header and the same value in each cell, as a job whose input is a raster file with the same header and values: the whole grid, or one file per group and layer of the table and the combined files, if the mode asks for them. The bucket does not change, nor does any file the job does not write. If the values were stored without NoData cells (INCLUDE_NODATA FALSE) and the mask has a NoData cell, the stored values count as those of the cells of the mask, row by row, and the groups are those of the mask. A job with input and output in files does the same whether the bucket is used or not. In a run with jobs that do not disturb each other, some of which write files and some of which store in the bucket, every job leaves what it would leave alone.", "quantifier": "all stored grids, masks, tables, file systems, buckets and (for the runs) lists of jobs", "why_tests_cant": "grids, masks, tables and file systems are unbounded, and tests need a server", "anchors": ["apps/mask_rasterio.cpp: main", "src/data_raster.hpp: ReadFromMongoDB, BuildSubSet, Reclassify, OutputToFile, OutputSubsetToFile"]}
{"id": "C101", "title": "A run of mask_rasterio that is stopped can be started again", "statement": "A run of mask_rasterio in the modes MASK, DEC, MASKDEC and COM is stopped at some point, with some of its jobs done and one possibly at work, whatever that job has done so far to its own output files: removed, created, written in part. Then every file that is not an output of the run is as before, no directory has changed, and the outputs of the jobs that are done are complete and hold what C78 (COM: C79) says. If the same command is then run again on the disk that was left, it ends with code 0 and leaves for every job what an undisturbed run would have left, including files that had been left torn. The same holds for runs whose outputs go to GridFS, with the files of the bucket in place of the files on disk, whatever the driver does in the second run as long as it stores what it reports.", "quantifier": "all command lines and configuration files, lists of jobs with their rasters and masks, disks, stop points, and contents of the output files of the job that was at work; no job reads an output of the run, no two jobs write the same file, the mask is not an output", "why_tests_cant": "a test stops the program at some points; a kill or a power loss can come between any two writes and leave any prefix of a file", "anchors": ["apps/mask_rasterio.cpp: main", "src/data_raster.hpp: ReadFromMongoDB, BuildSubSet, Reclassify, OutputToFile, OutputSubsetToFile"]}
