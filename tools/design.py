"""Writes DESIGN.md from the text below, properties.jsonl and MANIFEST.json."""
import json
P = [json.loads(l) for l in open('/verif/properties.jsonl')]
M = {c['property']: c for c in json.load(open('/verif/MANIFEST.json'))['claims']}
# id -> (model modules, how it is proved)
H = {}
def h(ids, model, how):
    for i in ids.split():
        H[i] = (model, how)
h('C01 C02', 'Raster (`CalculateValidPositionsFromGridData`, `GetValue`, `GetPosition`)', 'invariant of compaction (positions = filtered indexes in order) and correctness of the binary search; refinement of the raster to the function (row, column, layer) → value')
h('C03', 'Raster (`GetPosition` with its loop)', 'loop invariant of the binary search over sorted positions')
h('C04', 'Raster (`SetValue`, `GetValue`, …) as a state machine', 'refinement to function update, induction over histories of all mutators')
h('C05', 'all accessors with an explicit `ub` outcome', 'invariant "storage length = cells × layers" over all ways to build and change rasters')
h('C06 C07', 'Coord', 'floor arithmetic over ℚ')
h('C08 C09 C54', 'Asc, Dec (file = list of characters, `strtod`, `operator<<`)', 'induction over lines/tokens; printing/reading of decimals; invariant of the reader loop')
h('C10', 'Output (`OutputFileByGdal`, `OutputAscFile`, `OutputToMongoDB`)', 'scatter/gather fold invariants')
h('C11 C12', 'Raster (`ReplaceNoData`, `Reclassify`)', 'pointwise')
h('C13 C14 C15 C16 C73', 'Subset (`BuildSubSet`, `PrepareSubsetData`, `PrepareCombSubsetData`, …)', 'fold invariants over the cells, gather/scatter inverse')
h('C17 C18', 'Mask (`MaskAndCalculateValidPosition`)', 'exact grid geometry over ℚ, loop invariants over rows/columns of the mask')
h('C19 C20 C22', 'Stats', 'folds vs. a mathematical specification; state machine of the cache, induction over histories')
h('C21', 'Stats (reductions under any schedule), Par (interleavings)', 'commutation/permutation lemmas; any interleaving of owner-computes loops equals the sequential loop')
h('C23', 'Copy (explicit heap with addresses)', 'separation invariant, induction over histories after the copy')
h('C24 C66', 'Geotiff, Types', 'case analysis over types with exact C++ conversion rules')
h('C25', 'Types', 'tables + string matching')
h('C26 C27 C28', 'Gfs, Bytes, Bson (bucket = list of files, failing driver calls)', 'refinement to a map over all histories; induction over attempts; byte-level round trip')
h('C29 C30 C61', 'Bson', 'case analysis, number/text lemmas')
h('C31 C32 C33 C34 C38', 'Str', 'list induction against independent specifications')
h('C35 C36 C37 C39 C72', 'Num, Dec, Raster (`FloatEqual`)', 'digit induction; order arguments on ℚ')
h('C40 C41 C42 C43', 'Array (explicit heap, failing `new`)', 'ownership invariant over all histories')
h('C44 C45 C46 C47 C48 C49', 'Time', 'integer arithmetic; day counts')
h('C50 C51 C62 C63 C64', 'MathFn, PowTable', 'real analysis (error bounds), exact bit arithmetic')
h('C52 C53 C55 C56 C65', 'Fs (tree of files and directories)', 'list lemmas, tree invariants')
h('C57 C58 C59 C67', 'App', 'parser = independent specification, induction over the text')
h('C60', 'Coord, Read (`AddOtherLayerRasterData`)', 'pointwise')
h('C68', 'MongoDb', 'list induction')
h('C69', 'Array2D (explicit heap)', 'refinement to values over all histories, leak freedom')
h('C70', 'GfsSubset, Gfs, Subset', 'composition of C13–C15 with C26–C28')
h('C71', 'GfsMask, Gfs, Mask', 'composition of C28 with C17')
h('C74', 'MaskSubset, Mask, Subset', 'fold invariants, relation of positions before/after cropping')
h('C75', 'FileOut (disk = tree + contents, hostile OS as parameter), Asc, Geotiff, Output, Subset', 'composition of C10/C13–C15/C66/C08/C53; frame property of the disk')
h('C76', 'AppMain (`main` up to the list of jobs)', 'independent specification of settings and jobs, induction over lines and arguments')
h('C77 C78 C79', 'AppRun (`main`, the jobs on files), FileOut, Mask, MaskSubset, Subset', 'composition of all file level results, induction over the list of jobs with a frame property')
h('C80', 'RasterLife (ownership of the arrays of rasters, masks and subsets)', 'ownership invariant over all histories')
h('C81', 'ArrayText (text output and reading templates of utils_array)', 'induction on the words of the text; printing lemma of six significant digits')
h('C82', 'MongoLife (heap of driver objects, wrapper objects, answers of the driver in the calls)', 'invariant over all histories; the heap after each call computed symbolically')
h('C83', 'Float (doubles, any rounding to nearest), FloatStats (the functions of Stats with rounded operations, plans of parallel loops)', 'standard error analysis by induction over loops and plans; doubles as multiples of powers of two')
h('C84', 'FloatCoord (the functions of Coord with rounded operations)', 'error bounds along one axis, truncation between two integers, multiples of powers of two for the counterexamples')
h('C85', 'ParMem (threads as programs of reads and writes, small-step interleaving, all 21 loop bodies)', 'invariant over executions of threads confined to own and read-only data; frame and congruence of programs; permutation of iterations for sums')
h('C86', 'AscCrash (WriteSingleAsc as a sequence of file operations), Asc', 'induction over the operations; prefixes of texts made of pieces with separators; words of a cut text; C09')
h('C87', 'AppGfs (jobs with one bucket), AppRun, Gfs, GfsMask, GfsSubset', 'the predicate HoldsGrid is what a job stores and what a job reads; masking and storing by C77, C28; HoldsCells is the same for files without NoData cells (read by C71); induction over the jobs')

h('C88', 'AppGfs.comOneDb, comJobDb, runJobsDb; Subset.readDb', 'each input keeps the invariant ComSubs of C79 (the loaded subsets hold the last pieces); the combined grid is that of C79, stored as in C87; induction over inputs and jobs')
h('C89', 'NanCells: floatEqual, calcValid, replaceNoData, basicStats over numbers, infinities and NaN', 'case analysis of the comparison; induction over rows and columns; invariant of the accumulators')
h('C90', 'AppGfs.writeJobDb, layerJobDb, runJobsDb; Gfs.outputSubsetToMongo', 'the groups of the raster a job builds (Ready, Cut of C78) are stored one by one (C70); invariant over the stored files, induction over jobs')
h('C100', 'AppGfs.layerJobDb, finishJobDb, readFromMongo…, writeJob', 'the object read from the bucket shows the same grid as the one read from a file (input_plain, input_masked, input_groups), and what is written depends on nothing else (finish_whole, finish_recls)')
h('C101', 'AppRun.run, layerJob', 'the finished jobs give their outputs (batch_all) and change only these; inputs, mask and directories are as before, so all hypotheses of the run theorems C78 hold for the disk that was left (jobOk_only, rasterFile_only)')
h('C91', 'AppGfsRun.runDb, loadMaskDb (apps/mask_rasterio.cpp main), App.configure, App.jobs', 'configure and jobs of C77 give the jobs; the mask is read from its file or by readFromMongo as the grid it is; then the batch theorems C90, C88')
h('C92', 'AppRun.initFiles, readLayer, Raster.addLayers (data_raster.hpp ReadFromFiles 3430-3509, AddOtherLayerRasterData), AppRun.layerJob', 'C77 for the first file, with the stored cells; addLayers by induction over the files (C60 extended to values at cell centres); C75 for the files of the layers; induction over the jobs')
h('C93', 'Model/Int32.lean: the functions of Model/Raster, Model/Subset and Model/Output written again with every int sum, product, difference and conversion checked', 'pointwise equality with the unbounded models from the size invariant of Built rasters (rows*cols bounds cells, indexes and boxes); induction over histories; explicit rasters for the overflows')
h('C94', 'Model/SubObj.lean: SubsetPositions objects on a heap of blocks (pointers, alloc_, copy constructor, destructor, SetData, Set2DData, ReadFromMongoDB, Output)', 'simulation of a heap-free reference (Spec/SubObj.lean: shape, last layers, room, lender) under an ownership invariant (every block has one owning member, every pointer points to an owned block); induction over histories; link to the subsets of BuildSubSet')
h('C95', 'Model/SetHdr.lean: SetHeader (CopyHeader over optional entries) and the two SetPositions on the raster of Model/Raster.lean', 'header entries against Spec/SetHdr.lean; the raster invariant (full / compact) is kept or replaced by the array and the new position list; binary search theorem of C03; counterexamples evaluated')
h('C96', 'Model/Ftoa.lean: _gcvt_s on its buffer (snprintf %f, backward stripping loop with undefined reads before the buffer), ftoa', 'the stripping loop equals removal of trailing zeros; decimal texts of Lemmas/DecFmt; length bound 10^309; nearest double (Model/Float.lean) for the round trip')
h('C97', 'Model/Ftoa.lean: atow, wtoa, ftow over a locale parameter', 'direct; C96 for ftow')
h('C98', 'AppRun.initFiles, layerJob, writeJob, run; Subset.prepareComb, prepareSubsetData on rasters with several layers', 'the raster of the layers (C92) is ready for the table (ReadyL, the analogue of Ready of C78 with a number per layer); per-job theorems in three settings; induction over the jobs with a frame property (batch_gen)')
h('C99', 'TimeLocal: the functions of utils_time.cpp with utc_time = false over a zone (standard offset, saving, set of instants with daylight saving)', 'the date one hour earlier from the injectivity of the day count (C45); the correction code by cases on hour, day and month, the table of month lengths evaluated for each month; texts by the injectivity of two-digit numbers and the scanner lemmas of C47')
TOP = open('/verif/tools/design_top.md').read()
BOT = open('/verif/tools/design_bottom.md').read()
out = [TOP, '\n## Properties, models and theorems\n\n| id | property | status | model (lean/Verif/Model) | proof | theorems (namespace CCGL) |\n|----|----|----|----|----|----|\n']
for p in P:
    c = M[p['id']]
    mo, how = H[p['id']]
    th = ', '.join('`' + t.replace('CCGL.', '', 1) + '`' for t in c['theorems'])
    out.append(f"| {p['id']} | {p['title']} | {c['status']} | {mo} | {how} | {th} |\n")
out.append('\n' + BOT)
open('/verif/DESIGN.md', 'w').write(''.join(out))
