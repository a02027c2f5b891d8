MUTS = []
def m(f, old, new, claim): MUTS.append((f, old, new, claim))

# ---- Str
m('Str', "c = ' ' || c = '\\n' || c = '\\r' || c = '\\t'\n\n/-- `isspace`", "c = ' ' || c = '\\n' || c = '\\r'\n\n/-- `isspace`", 'C31: a trailing tab stays after Trim')
m('Str', "substr s b (e - b + 1)", "substr s b (e - b)", 'C31: TrimSpaces loses the last character')
m('Str', "| some e => s1.take (e + 1)", "| some e => s1.take e", 'C31: Trim loses the last character')
m('Str', "| some b => s.drop b\n", "| some b => s.drop (b + 1)\n", 'C31: Trim loses the first character')
m('Str', "    | none => [(getlineOne d (c :: t)).1]\n", "    | none => []\n", 'C32: SplitString drops the last field')
m('Str', "else (s1.takeWhile (fun c => !isSpaceC c), s1.dropWhile", "else (s.takeWhile (fun c => !isSpaceC c), s1.dropWhile", 'C33: words of SplitString(spaces) wrong after leading blanks')
m('Str', "if st.2.2 then [st.1] else st.1 ::", "if st.2.2 then [] else st.1 ::", 'C33: the last word is dropped')
m('Str', "c.toNat ≤ 'z'.toNat then Char.ofNat (c.toNat - 32)", "c.toNat < 'z'.toNat then Char.ofNat (c.toNat - 32)", 'C34: "z" and "Z" do not match')
m('Str', "getUpper a == getUpper b", "getUpper a == b", 'C34: match not symmetric')
m('Str', "(cstr a).map toLowerC == (cstr b).map toLowerC", "a.map toLowerC == (cstr b).map toLowerC", 'C34: C string match ignores NUL')
m('Str', "if (m.get k).isSome then m.assign k v else m.emplace k v", "if (m.get k).isSome then m else m.emplace k v", 'C38: UpdateStringMap keeps the old value')
m('Str', "if (o.get e.1).isSome then o.assign e.1 e.2 else", "if (o.get e.1).isSome then o else", 'C38: CopyStringMap keeps the old value')
m('Str', "if e.1 = k then (e.1, v) :: m else e :: StrMap.assign m k v", "if e.1 = k then (e.1, v) :: m else StrMap.assign m k v", 'C38: assigning drops earlier entries')
# ---- Num
m('Num', "| .negSucc n => '-' :: natToDec (n + 1)", "| .negSucc n => '-' :: natToDec n", 'C36: negative numbers printed off by one')
m('Num', "if c = '-' then (true, 1, t) else if c = '+'", "if c = '-' then (false, 1, t) else if c = '+'", 'C36: sign ignored')
m('Num', "if v < longMin then longMin else if longMax < v then longMax else v", "if v < longMin then longMin else v", 'C35/C36: no saturation')
m('Num', "(i + 2 ^ 31) % 2 ^ 32 - 2 ^ 31", "i", 'C35: IsInt accepts numbers beyond 32 bits')
m('Num', "(result, decide (r.2 = s.length) && decide (intToDec result = s))", "(result, decide (r.2 = s.length))", 'C35: IsInt accepts " 7" and "+7"')
m('Num', "(r.1, decide (r.2 = s.length) && decide (natToDec r.1 = s))", "(r.1, decide (r.2 = s.length))", 'C35: IsUInt accepts negative numbers')
m('Num', "(r.1, decide (r.2 = s.length) && decide (intToDec r.1 = s))", "(r.1, decide (intToDec r.1 = s))", 'C35: (equivalent: text comparison alone)')
m('Num', "then ulongMax\n   else if r.neg", "then 0\n   else if r.neg", 'C35: strtoul overflow gives 0')
# ---- Raster
m('Raster', "decide (row ≥ r.hdr.rows)", "decide (row > r.hdr.rows)", 'C05: the row below the grid is accepted')
m('Raster', "!(decide (lyr ≤ 0) ||", "!(decide (lyr < 0) ||", 'C05: layer 0 accepted')
m('Raster', "decide (idx ≥ r.nCells))", "decide (idx > r.nCells))", 'C05: index n accepted')
m('Raster', "bsearchLoop p target left (middle - 1)", "bsearchLoop p target left (middle - 2)", 'C03: binary search skips cells')
m('Raster', "bsearchLoop r.posIdx idx 0 (r.nCells - 1)", "bsearchLoop r.posIdx idx 0 (r.nCells - 2)", 'C03: last valid cell not found')
m('Raster', "bsearchLoop r.posIdx idx 0 (r.nCells - 1)", "bsearchLoop r.posIdx idx 1 (r.nCells - 1)", 'C03: first valid cell not found')
m('Raster', "let idx := r.hdr.cols * row + col", "let idx := r.hdr.rows * row + col", 'C03: index computed with the number of rows')
m('Raster', "if i < 0 then .ok r.noData else r.getValueByIndex i lyr", "if i ≤ 0 then .ok r.noData else r.getValueByIndex i lyr", 'C01: value of the first valid cell lost')
m('Raster', "    let row ← readAt r.raster2 idx\n    readAt (some row) (lyr - 1)\n", "    let row ← readAt r.raster2 idx\n    readAt (some row) lyr\n", 'C01: layers counted from 0')
m('Raster', "let row' ← writeAt (some row) (lyr - 1) v", "let row' ← writeAt (some row) 0 v", 'C04: SetValue writes to the first layer')
m('Raster', "if i = -1 then .ok r else r.writeCell i lyr v", "if i < 0 then .ok r else r.writeCell (i + 1) lyr v", 'C04: SetValue writes to the next cell')
m('Raster', "if floatEqual (vs.headD 0) r.noData then return rest else return (rc, vs) :: rest", "if floatEqual (vs.getLastD 0) r.noData then return rest else return (rc, vs) :: rest", 'C01/C02: validity decided by the last layer')
m('Raster', "nCells := n, hdr := { r.hdr with cellsnum := n },\n      raster1", "nCells := r.nCells, hdr := { r.hdr with cellsnum := n },\n      raster1", 'C01: cell number not updated by compaction')
m('Raster', "nCells := n, hdr := { r.hdr with cellsnum := n },\n      raster1", "nCells := n,\n      raster1", 'C18/C28: CELLSNUM not updated by compaction')
m('Raster', "(fun x => x.1.1 * r.hdr.cols + x.1.2)", "(fun x => x.1.1 * r.hdr.rows + x.1.2)", 'C02: position indexes computed with rows')
m('Raster', "return { r' with noData := v, dflt := v, hdr := { r'.hdr with noData := v } }", "return { r' with noData := v, dflt := v }", 'C11: header keeps the old NoData')
m('Raster', "return { r' with noData := v, dflt := v, hdr := { r'.hdr with noData := v } }", "return { r' with dflt := v, hdr := { r'.hdr with noData := v } }", 'C11: NoData member not updated')
m('Raster', ".ok (if floatEqual x r.noData then some v else none)", ".ok (if floatEqual x r.noData then none else some v)", 'C11: replaces the valid cells')
m('Raster', "lookupI m (truncQ x) with", "lookupI m (truncQ x + 1) with", 'C12: reclassification by the wrong key')
m('Raster', "    | none => .exn) r r.cellLayers", "    | none => .ok none) r r.cellLayers", 'C12: unmapped value kept (documents the finding)')
m('Raster', "def cellLayers (r : Raster) : List (Int × Int) := gridCells r.nCells r.nLyrs", "def cellLayers (r : Raster) : List (Int × Int) := gridCells r.nCells 1", 'C11/C12: only the first layer is treated')
m('Raster', "storePos := true, calcPos := true }\n\n/-- data_raster.hpp:3872", "storePos := true }\n\n/-- data_raster.hpp:3872", 'C01: calc_pos_ not set after lazy compaction')
m('Raster', "raster1 := some values, dflt := m2.dflt, hdr := m2.hdr, noData := m2.noData })", "raster1 := some values, dflt := m2.dflt, hdr := m2.hdr })", 'C04/C05: NoData of the mask not taken over')
m('Raster', "nCells := cols * rows, nLyrs := 1,\n    hdr", "nCells := cols, nLyrs := 1,\n    hdr", 'C01: number of cells wrong after construction')
# ---- Coord
m('Coord', "((h.rows - row - 1 : Int) : ℚ)", "((h.rows - row : Int) : ℚ)", 'C06: y coordinate one cell too high')
m('Coord', "then (-1, -1)\n  else (truncQ ((yMax - y) / dy), truncQ ((x - xMin) / dx))", "then (-1, -1)\n  else (truncQ ((y - yMin) / dy), truncQ ((x - xMin) / dx))", 'C06: rows counted from below')
m('Coord', "let yMin := h.yll - dy / 2\n  let yMax := yMin + dy * h.rows", "let yMin := h.yll - dy / 2\n  let yMax := yMin + dy * h.cols", 'C06/C07: extent with columns')
m('Coord', "if y > yMax ∨ y < yMin then .ok (-2)", "if y > yMax then .ok (-2)", 'C07: point below the grid accepted')
m('Coord', "return if floatEqual v lh.noData then noData else v", "return v", 'C60: NoData of other layers not converted')
m('Coord', "readAt ld (p.1 * lh.cols + p.2)", "readAt ld (p.2 * lh.cols + p.1)", 'C60: row and column swapped in other layers')
m('Coord', "hdr := { r.hdr with layers := n } }", "hdr := r.hdr }", 'C60: LAYERS not updated')
m('Coord', "let v ← if skipNoData && floatEqual noData first then .ok noData", "let v ← if skipNoData && floatEqual noData first then .ok first", 'C60: (nearly equivalent)')
# ---- Types
m('Types', 'else if type = RDT.int16.code then "INT16".toList', 'else if type = RDT.int16.code then "UINT16".toList', 'C25: INT16 named UINT16')
m('Types', 'stringMatch s "GDT_Float32".toList then .float', 'stringMatch s "GDT_Float64".toList then .float', 'C25: GDAL double named float')
m('Types', "| .int8 => -(dblOfNat (2 ^ 7) : ℚ)", "| .int8 => -(dblOfNat (2 ^ 7 - 1) : ℚ)", 'C25: default NoData of INT8 wrong')
m('Types', "  | .ulong => .uint64\n", "  | .ulong => .uint32\n", 'C25: cell type of unsigned long wrong')

# ---- Time
m('Time', "decide (Int.tmod y 400 ≠ 0))", "decide (Int.tmod y 200 ≠ 0))", 'C44-C46: leap year rule wrong')
m('Time', "let a := Int.tdiv (14 - month) 12", "let a := Int.tdiv (13 - month) 12", 'C44: Julian day wrong for February')
m('Time', "Int.tdiv y 400 - 32045", "Int.tdiv y 400 - 32044", 'C44: Julian day off by one')
m('Time', "julianDay year month day - julianDay year 1 1 + 1", "julianDay year month day - julianDay year 1 1", 'C46: day of year from 0')
m('Time', "mon := month - 1, mday := day, hour := 0", "mon := month, mday := day, hour := 0", 'C45: month off by one')
m('Time', "def getMonth (t : Int) : Int := (gmtime t).mon + 1", "def getMonth (t : Int) : Int := (gmtime t).mon", 'C45: month from 0')
m('Time', "def dayOfYearT (t : Int) : Int := (gmtime t).yday + 1", "def dayOfYearT (t : Int) : Int := (gmtime t).yday", 'C46: day of year of a time from 0')
m('Time', "((gmtime t).mon + 1) (gmtime t).mday", "((gmtime t).mon + 1) (gmtime t).yday", 'C44: Julian day of a time uses the day of the year')
m('Time', "strftime 11 [.Y, .lit '-', .m, .lit '-', .d] (gmtime t)", "strftime 11 [.Y, .lit '-', .d, .lit '-', .m] (gmtime t)", 'C47: day and month swapped')
m('Time', "strftime 30 [.Y, .lit '_', .m, .lit '_', .d, .lit '_', .H, .M, .S]", "strftime 30 [.Y, .lit '_', .m, .lit '_', .d, .lit '_', .H, .S, .M]", 'C47: minutes and seconds swapped')
m('Time', "let hr := if includeHour then rest.getD 0 0 else 0", "let hr := 0", 'C47: hour lost')
m('Time', ".int 2, .ws, .int 2, .lit ':', .int 2, .lit ':', .int 2] s with\n  | y :: m :: d", ".int 2, .ws, .int 2, .lit ':', .int 2, .lit ':', .int 2] s with\n  | y :: d :: m", 'C45: GetDateInfoFromTimet swaps month and day')
m('Time', "let total := z.mktime tm0 * 1000 + ms", "let total := z.mktime tm0 * 1000", 'C49: milliseconds lost')
m('Time', "ofTM z (z.localtime ((f / 1000 : Nat) : Int)) ((f % 1000 : Nat) : Int)", "ofTM z (z.localtime ((f / 1000 : Nat) : Int)) 0", 'C49: milliseconds lost')
m('Time', "mon := m - 1, mday := d, hour := h, min := mi, sec := s, yday := 0, isdst := -1 } ms", "mon := m - 1, mday := d, hour := h, min := s, sec := mi, yday := 0, isdst := -1 } ms", 'C49: minute and second swapped')
m('Time', "fromFileTime z (((d.filetime : Int) + d.milliseconds) % 2 ^ 64).toNat", "fromFileTime z (((d.filetime : Int) + 2 * d.milliseconds) % 2 ^ 64).toNat", 'C48: forward moves twice as far')
m('Time', "fromFileTime z (((d.filetime : Int) - d.milliseconds) % 2 ^ 64).toNat", "fromFileTime z (((d.filetime : Int) + d.milliseconds) % 2 ^ 64).toNat", 'C48: backward moves forward')
m('Time', "hour := s / 3600, min := s % 3600 / 60", "hour := s / 3600, min := s / 60", 'C47: minutes not reduced')
# ---- Stats
m('Stats', "if v > m then v else m)\n\ndef maxInArray", "if v < m then v else m)\n\ndef maxInArray", 'C19: MaxInArray returns the minimum')
m('Stats', "minLoop a (List.range' 1 (n - 1).toNat) m", "minLoop a (List.range' 1 (n - 2).toNat) m", 'C19: MinInArray ignores the last value')
m('Stats', "if floatEqual v ex then a\n", "if floatEqual v ex then { a with num := a.num + 1 }\n", 'C19: excluded values counted')
m('Stats', "if a.mx < v then v else a.mx, if a.mn > v then v else a.mn, a.num + 1, a.sum + v", "if a.mx < v then v else a.mx, if a.mn < v then v else a.mn, a.num + 1, a.sum + v", 'C19: minimum wrong')
m('Stats', "std := sqrtD (divD sq a.num)", "std := sqrtD (divD sq (a.num - 1 : ℚ))", 'C19: sample instead of population deviation')
m('Stats', "range := some ((a.mx - a.mn : ℚ) : ℝ) }", "range := some ((a.mx : ℚ) : ℝ) }", 'C19: range is the maximum')
m('Stats', "let p ← threadSum f t 0\n    ompSum f ts (acc + p)", "let p ← threadSum f t acc\n    ompSum f ts (acc + p)", 'C21: the shared value is counted by every thread')
m('Stats', "let sq ← ompSum (fun i => do let v ← readAt vals i; return sqDev ex mean v) s 0", "let sq ← ompSum (fun i => do let v ← readAt vals i; return sqDev ex (some 0) v) s 0", 'C19: deviations from 0')
m('Stats', "let v ← read2 vals i j\n    let a ← readAt accs j", "let v ← read2 vals i 0\n    let a ← readAt accs j", 'C20: all layers get the statistics of the first')
m('Stats', "return sqDev ex mean v) (s.plan j n) 0", "return sqDev ex mean v) (s.plan j (n - 1)) 0", 'C20: last cell missing in the deviation')
m('Stats', "return { o with st1 := st, st2 := st2, done := true }", "return { o with st1 := st, st2 := st2 }", 'C22: results not cached')
m('Stats', "calculate s { o1 with done := false }", "calculate s o1", 'C22: UpdateStatistics keeps the old values')
m('Stats', "if isNodataD d ∨ o.done = false then calculate s o else .ok o", "calculate s { o with done := false }", 'C22: recalculated by every query')
m('Stats', "let st ← readAt p (lyr - 1)", "let st ← readAt p (lyr - 2)", 'C20: statistics of another layer')
m('Stats', 'else if name = "MIN".toList then some st.mn', 'else if name = "MIN".toList then some st.mx', 'C19: MIN returns MAX')
m('Stats', "let j ← readAt idx i; readAt data j", "let j ← readAt idx i; readAt data i", 'C21: Sum ignores the index array')
# ---- Subset
m('Subset', "  | some g => g\n  | none => truncQ v", "  | some g => g\n  | none => 0", 'C13: values without a group all fall in one subset')
m('Subset', "ecol := if col > s.ecol then col else s.ecol", "ecol := s.ecol", 'C14: box too narrow')
m('Subset', "srow := if row < s.srow then row else s.srow", "srow := 0", 'C14: box not tight')
m('Subset', "nCells := s.nCells + 1 }, e.2 ++ [vi])", "nCells := s.nCells + 1 }, e.2)", 'C13: cells missing in the subset')
m('Subset', "if floatEqual v r.noData then buildLoop r groups rest m\n", "if floatEqual v 0 then buildLoop r groups rest m\n", 'C13: cells of value 0 missing')
m('Subset', "Int.tdiv p r.hdr.cols - s.srow, Int.tmod p r.hdr.cols - s.scol) : Out", "Int.tdiv p r.hdr.cols, Int.tmod p r.hdr.cols - s.scol) : Out", 'C14: local rows not relative')
m('Subset', "lp.map (fun rc => rc.1 * ncols + rc.2)", "lp.map (fun rc => rc.2 * ncols + rc.1)", 'C14: local index transposed')
m('Subset', "else if rs.subs ≠ [] then .ok ({ rs with ras := r }, true)\n", "else if false then .ok ({ rs with ras := r }, true)\n", 'C16: BuildSubSet builds again although subsets exist')
m('Subset', "buildSubSet (releaseSubset rs) groups", "buildSubSet rs groups", 'C16: RebuildSubSet keeps the old subsets')
m('Subset', "let j' := if includeNoData then j else x.1\n", "let j' := j\n", 'C15: compact subset data scattered by local index')
m('Subset', "let j := if includeNoData then p else gidx", "let j := p", 'C15: compact combination scattered by grid index')
m('Subset', "else if floatEqual noData dflt then []\n    else", "else if false then []\n    else", 'C15: unusable subsets written (equivalent: default equals NoData)')
m('Subset', "if e.2.usable then (Raster.gridCells", "if true then (Raster.gridCells", 'C15: unusable subsets are read')
m('Subset', "yll := (gnrows - s.erow - 1 : Int) * cellsize + gyll", "yll := (gnrows - s.srow - 1 : Int) * cellsize + gyll", 'C14: lower edge of the subset wrong')
m('Subset', "{ s with nLyrs := 1, usable := true, data := d }, true)\n        | none", "{ s with nLyrs := 1, data := d }, true)\n        | none", 'C15: SetData leaves the subset unusable')
m('Subset', "if s.nCells = dbn then s1.setData dbn db", "if true then s1.setData dbn db", 'C15: full-size subset file refused')
m('Subset', "readAt db (j * dbl + l)", "readAt db (j + l)", 'C15: layers of the subset file mixed up')
m('Subset', "files.foldlM comFile (subs.map (fun e => (e.1, { e.2 with usable := false })))", "files.foldlM comFile subs", 'C15: stale subsets stay usable in combine mode')
m('Subset', "if (l.length : Int) > ilyr then readAt (some l) ilyr else .ok dflt", "if (l.length : Int) ≥ ilyr then readAt (some l) ilyr else .ok dflt", 'C15: reclassification vector overrun')
m('Subset', "def defaultOf (r : Raster) (dv : ℚ) : ℚ := if floatEqual dv NODATA then r.dflt else dv", "def defaultOf (r : Raster) (dv : ℚ) : ℚ := r.dflt", 'C15: given default ignored')
# ---- Mask
m('Mask', "let r' ← r.setValue p.1 p.2 r.dflt (lyr - 1)\n        return (r', r.dflt)", "let r' ← r.setValue p.1 p.2 r.dflt (lyr - 1)\n        return (r', v)", 'C17: default value not used in other layers')
m('Mask', "let v ← r.getValue p.1 p.2 (lyr + 1)", "let v ← r.getValue p.1 p.2 lyr", 'C17: layers shifted by one')
m('Mask', "maxRow := if a.maxRow < rc.1 then rc.1 else a.maxRow", "maxRow := if a.maxRow < p.1 then p.1 else a.maxRow", 'C18: box in rows of the raster instead of the mask')
m('Mask', "minCol := if a.minCol > rc.2 then rc.2 else a.minCol }", "minCol := 0 }", 'C18: box not tight')
m('Mask', "masked := a.masked + 1, matched := a.matched + 1", "masked := a.masked + 1", 'C17: matched cells not counted')
m('Mask', "xll := hdr0.xll + a.minCol * mask.hdr.cellsize", "xll := hdr0.xll", 'C18: left edge not shifted')
m('Mask', "yll := hdr0.yll + ((mask.hdr.rows - a.maxRow - 1 : Int) : ℚ)", "yll := hdr0.yll + ((a.maxRow : Int) : ℚ)", 'C18: lower edge wrong')
m('Mask', "inBox c.1 && !floatEqual (c.2.headD 0) r.noData", "inBox c.1", 'C17/C18: NoData cells stored as valid')
m('Mask', "((c.1.1 - a.minRow, c.1.2 - a.minCol), c.2)", "((c.1.1, c.1.2), c.2)", 'C18: positions not shifted')
m('Mask', "let w := if fl.updRowCol then newCols else mask.hdr.cols", "let w := mask.hdr.cols", 'C18: position index with the width of the mask')
m('Mask', "let hdr0 : Header := { mask.hdr with noData := r.noData, layers := r.nLyrs }", "let hdr0 : Header := { mask.hdr with layers := r.nLyrs }", 'C17: NoData of the mask taken over')
m('Mask', "nCells := mask.nCells, storePos := false, posData := mask.posData", "nCells := r.nCells, storePos := false, posData := mask.posData", 'C17: cell number not that of the mask')
m('Read', "if floatEqual dflt NODATA && !floatEqual noData NODATA then noData else dflt", "dflt", 'C17: default not replaced by the NoData value of the file')
m('Mask', "let p := posOfCoord a.ras.hdr xy.1 xy.2", "let p := posOfCoord a.ras.hdr xy.2 xy.1", 'C17: x and y swapped')
# ---- Output
m('Output', "let (vs, e) ← ascScan pos read fill n (index + 1) cells\n        return (v :: vs, e)", "let (vs, e) ← ascScan pos read fill n index cells\n        return (v :: vs, e)", 'C10: all but the first valid cell lost')
m('Output', "let rest ← ascScanRows pos read fill n e rows", "let rest ← ascScanRows pos read fill n 0 rows", 'C10: rows after the first lost')
m('Output', "let rows ← r.ascLayerRows direct pos NODATA l", "let rows ← r.ascLayerRows direct pos NODATA 0", 'C10: every file holds the first layer')
m('Output', "let rows ← r.ascLayerRows direct pos r.noData 0", "let rows ← r.ascLayerRows direct pos NODATA 0", 'C10: wrong fill value in 1D output')
m('Output', "      let p ← readAt r.posIdx vi\n      let v ← r.readCell vi (lyr + 1)", "      let p ← readAt r.posIdx vi\n      let v ← r.readCell p (lyr + 1)", 'C10: compact data read by grid index')
m('Output', "return (lyrs * (p.1 * r.hdr.cols + p.2) + il.2, v)", "return (p.1 * r.hdr.cols + p.2 + il.2, v)", 'C10/C28: layers interleaved wrongly')
m('Output', "let hdr := if incNodata then { r.hdr with cellsnum := nfull } else r.hdr", "let hdr := r.hdr", 'C10/C28: CELLSNUM of the full grid not stored')
m('Output', "let v ← readAt full (gi * lyrs + l)", "let v ← readAt full (l * fsize + gi)", 'C15: layers not de-interleaved')
m('Output', "let done := bufs.takeWhile (fun x => wr x.1)", "let done := bufs.filter (fun x => wr x.1)", 'C10/C15: writing goes on after a failure')
m('Output', "      return (ok, (some ((l : Int) + 1), d) :: files)", "      return (true, (some ((l : Int) + 1), d) :: files)", 'C10: failure of a later layer not reported')
# ---- Asc
m('Asc', "if !t.isEmpty && t.head? ≠ some '#' then some t else none", "if !t.isEmpty then some t else none", 'C54: comment lines kept')
m('Asc', "if !t.isEmpty && t.head? ≠ some '#' then some t else none", "if t.head? ≠ some '#' then some t else none", 'C54: blank lines kept')
m('Asc', "(true, old ++ (fileLines s)", "(true, (fileLines s)", 'C54: earlier contents of the vector lost')
m('Asc', "if (s.vidx : Int) = n then .ok (.fail none)\n", "if (s.vidx : Int) > n then .ok (.fail none)\n", 'C09: one value too many overruns the array')
m('Asc', "| none => .ok (.fail s.vals)\n    else if stringMatch k kNrows", "| none => .ok (.go s)\n    else if stringMatch k kNrows", 'C09: unreadable NCOLS ignored')
m('Asc', "xll := if s.xcor then s.xll.add s.cellsize.half else s.xll", "xll := if s.xcor then s.xll.add s.cellsize else s.xll", 'C08: corner shifted by a whole cell')
m('Asc', "xll := v, xcor := s.xcor || stringMatch k kXllCor", "xll := v, xcor := s.xcor || stringMatch k kXll", 'C08: centre taken as corner')
m('Asc', "else if c.2.length < 7 then .ok (false, hdr, vals)", "else if c.2.length < 8 then .ok (false, hdr, vals)", 'C08: a grid of one row is refused')
m('Asc', "kNrows ++ [' '] ++ intToDec h.rows", "kNrows ++ [' '] ++ intToDec h.cols", 'C08: NROWS written wrongly')
m('Asc', "readAt vals (i * cols + j))", "readAt vals (j * cols + i))", 'C08: transposed')
m('Asc', "cellsize := s.cellsize, noData := s.noData, layers := 1, cellsnum := n }", "cellsize := s.cellsize, noData := s.noData, layers := 1, cellsnum := s.vidx }", 'C08/C09: CELLSNUM is the number of values read')
m('Asc', "| .fin a, .fin b => .fin (a + b)", "| .fin a, .fin b => .fin (a - b)", 'C08: corner shifted to the other side')
m('Asc', "if s.rows < 0 ∨ s.cols < 0 ∨ s.cellsize.isNeg = true ∨", "if s.rows < 0 ∨ s.cols < 0 ∨", 'C09: missing CELLSIZE accepted')
# ---- Bson
m('Bson', "if stringMatch [] v || !d.2 then", "if !d.2 then", 'C29: the empty option is stored as number 0')
m('Bson', ".ok (.int32 q.num) else .ub)", ".ok (.int32 (q.num + 1)) else .ub)", 'C29: integers off by one')
m('Bson', "appendOptions (d ++ [(cstr (prefix_ ++ k), b)]) rest prefix_", "appendOptions (d ++ [(cstr k, b)]) rest prefix_", 'C29/C26: prefix lost')
m('Bson', "| .utf8 s => stringMatch s \"TRUE\".toList", "| .utf8 s => stringMatch s \"FALSE\".toList", 'C30: truth value inverted')
m('Bson', "| .int32 i => dvalIsZero (.fin i)", "| .int32 i => !dvalIsZero (.fin i)", 'C30: (fixes the inverted test: the finding must fail)')
m('Bson', "else t.take (t.length - 3))", "else t.take (t.length - 2))", 'C61: seconds ten times too large')
m('Bson', "if s.length > 12 then convertToTime s dateTimeFmt true", "if s.length > 20 then convertToTime s dateTimeFmt true", 'C61: time of day lost')
m('Bson', "| .utf8 s => if s.any isDigitC then some (strtod s).1 else none", "| .utf8 s => none", 'C29: numeric text not decoded')
m('Bson', "  | .double d => dvalText d\n  | _ => []", "  | _ => []", 'C29: fractions decode to nothing')
# ---- App
m('App', "if a > 255 ∨ b > 255 ∨ c > 255 ∨ d > 255", "if a > 256 ∨ b > 255 ∨ c > 255 ∨ d > 255", 'C59: 256.0.0.1 accepted')
m('App', 'm = "MASK&DEC".toList ∨ m = "MASKDEC".toList then .maskdec', 'm = "MASK&DEC".toList then .maskdec', 'C58: MASKDEC unknown')
m('App', 'm = "GFS".toList ∨ m = "GRIDFS".toList then .gfs', 'm = "GFS".toList ∨ m = "GRIDFS".toList then .sfile', 'C58: GFS taken as files')
m('App', "if vts.length = v.length then (st.1, st.2.emplace", "if true then (st.1, st.2.emplace", 'C57: entries with unreadable values accepted')
m('App', "(st.1, st.2.emplace (isInt kt).1 v)", "(true, st.2.emplace (isInt kt).1 v)", 'C57: a later entry hides a failure')
m('App', "if (m.get k).isSome then m else m ++ [(k, v)]", "m ++ [(k, v)]", 'C57: (equivalent: first entry is found first)')
m('App', "let m := getUpper s\n  if m = \"SFILE\"", "let m := s\n  if m = \"SFILE\"", 'C58: lower-case format names unknown')
# ---- Dec
m('Dec', "then -(digitsVal 0 ds : Int) else digitsVal 0 ds, 1 + sg.2.1", "then (digitsVal 0 ds : Int) else digitsVal 0 ds, 1 + sg.2.1", 'C37: sign of the exponent ignored')
m('Dec', "/ 10 ^ fp.1.length * (10 : ℚ) ^ ex.1", "/ 10 ^ (fp.1.length + 1) * (10 : ℚ) ^ ex.1", 'C37: decimal point shifted')
m('Dec', "(r.1, decide (r.2 = s.length))", "(r.1, decide (r.2 ≤ s.length))", 'C37: trailing text accepted')
m('Dec', "if sg.1 then r.1.negate else r.1", "r.1", 'C37: sign ignored')
m('Dec', "(decide (strs.length = vals.length), vals)", "(true, vals)", 'C39: success although a field was skipped')
m('Dec', "if strs = [] then (false, old)", "if strs = [] then (true, old)", 'C39: success for an empty text')
m('Dec', "if m = 10 ^ 6 then (10 ^ 5, e + 1) else (m, e)", "if m = 10 ^ 6 then (10 ^ 5, e) else (m, e)", 'C08: 999999.9 printed as 100000')
m('Dec', "else if f % 2 = 0 then f else f + 1", "else f + 1", 'C08: (rounding of ties; not observable for six-digit values)')
m('Dec', "(if e < 0 then '-' else '+')", "(if e < 0 then '+' else '-')", 'C08/C29: sign of the printed exponent')
# ---- Fs
m('Fs', "if l.isEmpty then false else l.all (fileExists fs)", "l.all (fileExists fs)", 'C65: no files exist is true')
m('Fs', "if l.isEmpty then false else l.all (fileExists fs)", "if l.isEmpty then false else l.any (fileExists fs)", 'C65: one existing file is enough')
m('Fs', "| some p => decide (fs.kindOf p = some .dir)\n  | none => false", "| some p => true\n  | none => false", 'C65: a file is taken as a directory')
m('Fs', "if directoryExists fs abs then (true, fs) else fs.mkdir abs", "fs.mkdir abs", 'C65: creating an existing directory fails')
m('Fs', "  | some i => substr abs 0 (i + 1)", "  | some i => substr abs 0 i", 'C52: directory without its slash')
m('Fs', "if i + 1 ≠ p.length then p ++ ['/'] else p", "p ++ ['/']", 'C52: double slash')
m('Fs', "if suffix ≠ [] then p ++ '.' :: suffix else p", "p ++ '.' :: suffix", 'C52: trailing dot')
m('Fs', "filedir ++ core ++ '.' :: new", "filedir ++ core ++ new", 'C53: dot lost')
m('Fs', "(getCoreFileName fs s ++ deli :: endstr) (getSuffix fs s)", "(getCoreFileName fs s ++ deli :: endstr) []", 'C53: suffix lost')
m('Fs', "decide (n.head? ≠ some '.') && findMatches fs expr n", "findMatches fs expr n", 'C56: hidden entries returned')
m('Fs', "(fun n => abs ++ '/' :: n)", "(fun n => n)", 'C56: names without directory')
m('Fs', "let path := abs ++ '/' :: name\n        let f := if", "let path := '/' :: name\n        let f := if", 'C55: entries of the root deleted')
m('Fs', "= some .dir ∧ sub = true then deleteDirLoop", "= some .dir ∧ sub = false then deleteDirLoop", 'C55: subdirectories deleted exactly when not asked')
m('Fs', "(decide (r.1 = 0), r.2)", "(true, r.2)", 'C55: CleanDirectory reports success on failure')
m('Fs', "if tokens.length ≥ 2 then tokens.getLast?.getD [] else []", "tokens.getLast?.getD []", 'C52: suffix of a name without dot')
m('Fs', "(if r.1 then 0 else -1, r.2)\n  else (-1, fs)", "(0, r.2)\n  else (-1, fs)", 'C65: failed deletion reported as success')
# ---- Copy
m('Copy', "if n ≤ (s.length : Int) then .ok (some (s.take n.toNat)) else .ub", "if n ≤ (s.length : Int) then .ok (some s) else .ub", 'C23: (array longer than needed)')
m('Copy', "      let l ← copy1 s.nCells s.raster1\n      return place h1.d1 h.next a1 l", "      return (h1.d1, src.a1)", 'C23: data array shared')
m('Copy', "      let l ← copyPos s.nCells s.posData\n      return place h1.pd h.next none l", "      return (h1.pd, src.ap)", 'C23: positions shared')
m('Copy', "noData := s.noData, is2d", "is2d", 'C23: NoData not copied')
m('Copy', "nLyrs := s.nLyrs,\n", "\n", 'C23: layers not copied')
m('Copy', "calcPos := s.calcPos, useMaskExt", "useMaskExt", 'C23: calc_pos not copied')
m('Copy', "is2d := dst.base.is2d || s.is2d, hdr := s.hdr,", "is2d := dst.base.is2d || s.is2d,", 'C23: header not copied')
m('Copy', ".ok (some (((x :: s).take n.toNat).map (fun c => c.take m.toNat)))", ".ok (some (((x :: s).take n.toNat).map (fun c => (c.take m.toNat).reverse)))", 'C23: layers reversed')
m('Copy', "dflt := s.dflt, nCells", "nCells", 'C23: default value not copied')
# ---- Geotiff
m('Geotiff', "| .uint8 => 2 ^ 8 - 1 | .int8 => 2 ^ 7 - 1", "| .uint8 => 2 ^ 8 | .int8 => 2 ^ 7 - 1", 'C24: 256 accepted as UINT8')
m('Geotiff', "decide (v < loEff src out) || decide (hiEff src out < v)", "decide (hiEff src out < v)", 'C24: values below the range accepted')
m('Geotiff', "if bad > 0 then return none else", "if bad > 1 then return none else", 'C24: one illegal cell tolerated')
m('Geotiff', "if floatEqual (asDbl src v) old && changes out old then .ok (fallback out, false)", "if floatEqual (asDbl src v) old then .ok (fallback out, false)", 'C24: NoData cells replaced although NoData fits')
m('Geotiff', "if changes out old then dblOfInt (fallback out) else old)", "old)", 'C24: NoData of the file not changed')
m('Geotiff', "def fallback (out : RDT) : Int := if lo out < 0 then lo out else hi out", "def fallback (out : RDT) : Int := lo out", 'C24: replacement NoData 0 for unsigned types')
m('Geotiff', "left := hdr.xll - 1 / 2 * hdr.cellsize", "left := hdr.xll", 'C66: grid shifted by half a cell')
m('Geotiff', "yll := f.top + (f.rows - 1 / 2) * f.dy", "yll := f.top + f.rows * f.dy", 'C66: grid shifted by half a cell on reading')
m('Geotiff', "top := hdr.yll + (hdr.rows - 1 / 2) * hdr.cellsize", "top := hdr.yll + (hdr.cols - 1 / 2) * hdr.cellsize", 'C66: top edge with columns')
m('Geotiff', "if hdr.rows ≤ 0 ∨ hdr.cols ≤ 0 ∨ !io then return none", "if hdr.rows ≤ 0 ∨ hdr.cols ≤ 0 then return none", 'C66: failed write reported as a file')
m('Geotiff', "return some (optType, cells.map rnd, old)", "return some (optType, cells, old)", 'C66: (float conversion without rounding)')
m('Geotiff', "if v > 127 then v - 256 else v", "if v > 127 then v else v", 'C66: (signed bytes not wrapped)')
# ---- MathFn
m('MathFn', "let xx := if xx < lower then lower else xx\n", "let xx := xx\n", 'C50: lower bound ignored')
m('MathFn', "else -((-a) ^ n)", "else (-a) ^ n", 'C50: sign lost')
m('MathFn', "(i &&& 0x7FFFFF) >>> (23 - 11)", "(i &&& 0x7FFFFF) >>> (23 - 12)", 'C51: table index out of range')
m('MathFn', "((i >>> 23 &&& 0xff : Nat) : Int) - 0x80", "((i >>> 23 &&& 0xff : Nat) : Int) - 0x7f", 'C63: logarithm off by ln 2')
m('MathFn', "(0x5f375a86 + 2", "(0x5f475a86 + 2", 'C64: wrong magic number')
m('MathFn', "x * (1.5 - xhalf * x * x)", "x * (1.5 - xhalf * x)", 'C64: wrong Newton step')
m('MathFn', "0.4982926 * x * x +", "0.4982926 * x +", 'C62: wrong polynomial')
m('MathFn', "    .ok (1 / v)", "    .ok v", 'C62: negative arguments')
m('MathFn', "def expoDefault (xx : ℝ) : ℝ := expo xx 20 (-20)", "def expoDefault (xx : ℝ) : ℝ := expo xx 10 (-20)", 'C50: default bound')
m('MathFn', "if k < 0 ∨ 64 ≤ k then .ub else", "if k < 0 ∨ 65 ≤ k then .ub else", 'C62: shift by 64 taken as defined')
# ---- Gfs
m('Gfs', "return findLoop ok st flt 0 5", "return findLoop ok st flt 0 1", 'C26: no retries of the query')
m('Gfs', "if rm i then removeLoop rm flt (i + 1) st else f ::", "if rm i then st else f ::", 'C26: only the first duplicate removed')
m('Gfs', "flt.all (fun e =>", "flt.any (fun e =>", 'C26: a file matching one condition is enough')
m('Gfs', "return writeLoop att name bytes info 0 4 st1", "return writeLoop att name bytes info 0 3 st1", 'C27: three attempts only')
m('Gfs', "return writeLoop att name bytes info 0 4 st1", "return writeLoop att name bytes info 0 4 st", 'C26: the previous file is kept')
m('Gfs', "if r.2 then (r.1, true, t + 1) else writeLoop", "if r.2 then writeLoop att name data info (t + 1) n r.1 else writeLoop", 'C27: written again after success')
m('Gfs', "| .whole => (st ++ [{ name := cstr name, info := info, data := data }], a.reported)", "| .whole => (st ++ [{ name := cstr name, info := [], data := data }], a.reported)", 'C26: metadata lost')
m('Gfs', "if stringMatch kNoData k then .ok (.double x)", "if stringMatch kNoData k then .ok (.int32 0)", 'C28: NoData stored as 0')
m('Gfs', "(fun (j : Nat) => readAt (some cells) (i * lyrs + j))", "(fun (j : Nat) => readAt (some cells) (j * n + i))", 'C28: layers read in the wrong order')
m('Gfs', "nCells := hdr.cellsnum, calcPos := calcPos,\n        dflt", "nCells := hdr.cellsnum,\n        dflt", 'C28: calc_pos ignored')
m('Gfs', "let count ← mulInt cells lyrs", "let count ← mulInt cells 1", 'C28: layers not counted')
m('Gfs', "hdr := hdr, noData := nd, nLyrs", "hdr := hdr, nLyrs", 'C28: NoData not read')
m('Gfs', "if (opts.get kTypeOut).isNone then opts ++ [(kTypeOut, rdtToString T.code)] else opts", "opts", 'C26/C28: type not recorded')
m('Gfs', "    | some x => (upd hs.1 e.1 x, hs.2)\n    | none => hs", "    | some x => hs\n    | none => hs", 'C28: header numbers not read')
m('Bytes', "b.val + 256 * leNat bs", "b.val + 255 * leNat bs", 'C28: bytes decoded wrongly')
m('Bytes', "if 2 * n < 2 ^ (8 * size t) then (n : ℚ) else", "if True then (n : ℚ) else", 'C28: negative cells read as positive')
# ---- Array
m('Array', "if row ≤ 0 then (false, { m with p1 := upd m.p1 v none })", "if row < 0 then (false, { m with p1 := upd m.p1 v none })", 'C40: zero-length array')
m('Array', "  | some _ => (false, m)\n  | none =>\n    if row ≤ 0", "  | some _ => (true, { m with p1 := upd m.p1 v none })\n  | none =>\n    if row ≤ 0", 'C40: re-initialising leaks')
m('Array', "some (pool, off) :: rowPtrs pool col (off + col) n", "some (pool, off) :: rowPtrs pool col (off + col + 1) n", 'C41: rows not contiguous')
m('Array', "        let m ← m.free q\n        let m ← m.free b\n", "        let m ← m.free b\n", 'C40: pool leaks')
m('Array', "    .ok { m with p1 := upd m.p1 v none }\n\n/-- utils_array.h:467", "    .ok m\n\n/-- utils_array.h:467", 'C40: released twice')
m('Array', "irrPtrs pool len (pos + (c + 1)) cs", "irrPtrs pool len (pos + c) cs", 'C42: rows overlap')
m('Array', "if y = x then removeLoop x before rest else", "if y = x then before ++ rest else", 'C43: only the first occurrence removed')
m('Array', "set2 m v i n (cast y)", "set2 m v n i (cast y)", 'C41: transposed copy')
m('Array', "(if c > mx then c else mx)", "c", 'C42: longest row wrong')
m('Array', "let row := n :: ts.take n.toNat", "let row := ts.take n.toNat", 'C42: row length not stored')
# ---- AppMain
m('AppMain', "configPath rest (if b.head? = some '-' then p else b)", "configPath rest b", 'C76: an option taken as the configuration file')
m('AppMain', "if k = e.1 then e :: m else if strLt k e.1", "if k = e.1 then (k, v) :: m else if strLt k e.1", 'C76: the file wins over the command line')
m('AppMain', "if c.length < 2 then st", "if c.length < 1 then st", 'C76: option lines without a value count')
m('AppMain', "decide (a.head? = some '-') && !(isDouble a).2", "decide (a.head? = some '-')", 'C76: negative numbers taken as options')
m('AppMain', "else if stringMatch g.1 \"-configfile\".toList then m\n  else m.insert", "else m.insert", 'C76: none (the name of the file is an unknown setting): equivalent for the jobs')
m('AppMain', "(getUpper (g.1.drop 1)) g.2", "(g.1.drop 1) g.2", 'C76: option names case-sensitive')
m('AppMain', "let c := splitDelim ';' t", "let c := splitDelim ',' t", 'C76: items split at commas')
m('AppMain', "if !r.1 then return .exit 2\n  else if r.2.2 ≠ []", "if !r.1 then return .go c\n  else if r.2.2 ≠ []", 'C76: a refused input is ignored')
m('AppMain', "if v.length < 4 then .ok (.exit 1)", "if v.length < 3 then .ok (.exit 1)", 'C76: three texts accepted for the database')
m('AppMain', "let c' : Cfg := { c with nodata := numOr s, updNodata := true }", "let c' : Cfg := { c with nodata := numOr s }", 'C76: -nodata does not replace the NoData value')
m('AppMain', "Fs.getPathFromFullName w.fs p ++ substr core 0 n ++", "substr core 0 n ++", 'C76: the derived output goes to the working directory')
m('AppMain', "let f1 := if !c.useMongo && decide (c.outFmt = .gfs) then .sfile else c.outFmt", "let f1 := c.outFmt", 'C76: database output without a database')
m('AppMain', "if c.outFmts = [] then [f2] else c.outFmts.set 0 f2", "if c.outFmts = [] then [f2] else c.outFmts", 'C76: stale output format')
m('AppMain', "if g1 = .unknown then .sfile else g1\n", "g1\n", 'C76: items without an output format')
m('AppMain', "if s = [] then (false, .fin (-9999)) else ((isDouble s).2, numOr s)", "if s = [] then (false, .fin (-9999)) else (true, numOr s)", 'C76: a text that is no number replaces the NoData value by -9999')
m('AppMain', "if stringToRdt s = .unknown then c.outType else stringToRdt s", "stringToRdt s", 'C76: the global output type ignored')
m('AppMain', "match fieldOf item 2 with", "match fieldOf item 3 with", 'C76: default value from the wrong field')
m('AppMain', "(decide (f.1 = .sfile) && Fs.filesExist w.fs ins) ||", "decide (f.1 = .sfile) ||", 'C76: missing files become jobs')
m('AppMain', "outTypes := c.outTypes ++ [itemType c item],\n", "", 'C76: an item without a type')
m('AppMain', "let d ← vecAt c.defaults i", "let d ← vecAt c.nodatas i", 'C76: the NoData value used as default')
m('AppMain', "if ty = .unknown then .double else ty", "ty", 'C76: unknown output type')
m('AppMain', "if !r.1 then return .exit 3", "if !r.1 then return .go (m, [])", 'C76: unreadable configuration file ignored')
# ---- AppRun
m('AppRun', "return (if 0 ≤ z.1.code then some ⟨z.1.ras, z.2⟩ else none,", "return (some ⟨z.1.ras, z.2⟩,", 'C77: a raster outside the mask is used')
m('AppRun', "return (if 0 ≤ z.1.code then some ⟨z.1.ras, z.2⟩ else none,", "return (if 0 ≤ z.1.code then some ⟨z.1.ras, []⟩ else none,", 'C78: the groups of the mask are lost')
m('AppRun', "some { m with ras := z.1.mask })", "some m)", 'C77: positions of the mask not kept (recomputed for each job: equivalent outputs)')
m('AppRun', "foldl (fun m e => IMap.set m e.1 (e.2.map DVal.toQ)) []", "foldl (fun m e => IMap.set m (-e.1) (e.2.map DVal.toQ)) []", 'C78: wrong keys')
m('AppRun', "def outSubset (mode : IOMode) : Bool := mode = .dec ∨ mode = .maskdec", "def outSubset (mode : IOMode) : Bool := mode = .dec", 'C78: MASKDEC writes no subset files')
m('AppRun', "def outAll (mode : IOMode) : Bool := mode = .mask ∨ mode = .maskdec", "def outAll (mode : IOMode) : Bool := mode = .mask", 'C77: MASKDEC writes no combined file')
m('AppRun', "rs true false j.out (tableOf j.table) j.default.toQ", "rs true true j.out (tableOf j.table) j.default.toQ", 'C78: DEC writes the combined raster')
m('AppRun', "d1 rs true true j.out (tableOf j.table) j.default.toQ", "d1 rs true true j.out (tableOf j.table) j.nodata.toQ", 'C78: unlisted groups get the NoData value')
m('AppRun', "d1 rs true true j.out (tableOf j.table) j.default.toQ", "d rs true true j.out (tableOf j.table) j.default.toQ", 'C78: the subset files are lost')
m('AppRun', "x.2 x.1 j.out true", "x.2 x.1 j.out false", 'C77: the masked raster is not written')
m('AppRun', "(sys.fmt j.type) x.2 x.1", "(sys.fmt .double) x.2 x.1", 'C77: output type of the job ignored')
m('AppRun', "initFiles st.1 j.inputs false st.2 true j.default.toQ", "initFiles st.1 j.inputs false st.2 false j.default.toQ", 'C77: extent of the mask not used')
m('AppRun', "initFiles st.1 j.inputs false st.2 true j.default.toQ", "initFiles st.1 j.inputs false st.2 true j.nodata.toQ", 'C77: default value of the job not used')
m('AppRun', "initFiles st.1 j.inputs false st.2 true j.default.toQ", "initFiles st.1 j.inputs false none true j.default.toQ", 'C77: mask ignored')
m('AppRun', "if j.update then rs.ras.replaceNoData j.nodata.toQ else", "if false then rs.ras.replaceNoData j.nodata.toQ else", 'C77: NoData value not replaced')
m('AppRun', "if j.update then rs.ras.replaceNoData j.nodata.toQ else", "if j.update then rs.ras.replaceNoData j.default.toQ else", 'C77: NoData replaced by the default value')
m('AppRun', "let y ← buildSubSet ⟨r1, rs.subs⟩ []\n", "let y ← buildSubSet ⟨rs.ras, rs.subs⟩ []\n", 'C78: replacement of NoData lost when reclassifying')
m('AppRun', "let d' ← writeJob sys mode j rs2 st.1\n      return (d', x.2)", "let d' ← writeJob sys mode j rs2 st.1\n      return (d', none)", 'C77: only the first job is masked')
m('AppRun', "return (d', x.2)\n  else .ok st", "return (d', x.2)\n  else .ub", 'C77: a job with missing inputs is not skipped')
m('AppRun', "let id := Int.bmod (isInt c).1 (2 ^ 32)", "let id := (isInt c).1 + 1", 'C79: COM files assigned to the wrong subset')
m('AppRun', "(r.nCells, r.raster1) else (-1, none))", "(r.nCells + 1, r.raster1) else (-1, none))", 'C79: COM counts cells wrongly')
m('AppRun', "{ st.2.ras with dflt := j.default.toQ }", "st.2.ras", 'C79: COM ignores the default value')
m('AppRun', "j.inputs.foldlM (comOne st.1) (m.subs.map (fun e => (e.1, { e.2 with usable := false })))", "j.inputs.foldlM (comOne st.1) m.subs", 'C79: COM keeps the subsets of the mask')
m('AppRun', "st.1 m2 j.out false\n", "st.1 m2 j.out true\n", 'C79: COM writes the mask')
m('AppRun', "initFile d c.maskPath false none true NODATA", "initFile d c.maskPath true none true NODATA", 'C77: the mask is compacted when loaded (equivalent outputs)')
m('AppRun', "| none => return .exit 3", "| none => return .go none", 'C77: unreadable mask ignored')
m('AppRun', "if mode = .mask then .ok (some m)", "if mode = .maskdec then .ok (some m)", 'C78: the groups of the mask not built')
m('AppRun', "      return some x.1\n", "      return some m\n", 'C78: the groups of the mask dropped')
m('AppRun', "let st ← js.foldlM (layerJob sys mode) (d, mask)", "let st ← js.tail.foldlM (layerJob sys mode) (d, mask)", 'C77: the first job is dropped')
m('AppRun', "let st ← js.foldlM (layerJob sys mode) (d, mask)\n    return (0, st.1)", "let st ← js.foldlM (layerJob sys mode) (d, mask)\n    return (1, st.1)", 'C77: exit code')
m('AppRun', "    | .exit n => return (n, d)\n    | .go mask =>", "    | .exit _ => return (0, d)\n    | .go mask =>", 'C77: exit code for an unreadable mask')
m('AppRun', "  match r with\n  | .exit n => return (n, d)\n  | .go c =>", "  match r with\n  | .exit _ => return (0, d)\n  | .go c =>", 'C77: exit code of the configuration')
# ---- FileOut
m('FileOut', "if n = [] ∨ n = ['.'] ∨ n = ['.', '.'] then none else\n", "", 'C75: names of directories accepted')
m('FileOut', "if fs.kindOf q = some .dir ∧ fs.kindOf (q ++ [n]) ≠ some .dir then some (q ++ [n]) else none", "some (q ++ [n])", 'C75: files in missing directories')
m('FileOut', "| some (.asc s) => some (.asc (s ++ t))", "| some (.asc _) => some (.asc t)", 'C75: the header is overwritten by the cells')
m('FileOut', "else (true, { fs := addFile d.fs p, data :=", "else (true, { fs := d.fs, data :=", 'C75: the new file has no directory entry')
m('FileOut', "{ d with fs := (deleteExistedFile d.fs s).2 }", "d", 'C75: rewriting a file appends to it')
m('FileOut', "return rows.flatten ++ nl", "return rows.flatten", 'C75: final line end missing (harmless: reads the same)')
m('FileOut', "if !pathExists d.fs dir then { d with fs := (makeDirectory d.fs dir).2 } else d", "d", 'C75: missing directories not created (not claimed: directories exist)')
m('FileOut', "if !w.1 then .ok (false, w.2)\n  else do\n    let body", "if !w.1 then .ok (true, w.2)\n  else do\n    let body", 'C75: failure to open reported as success')
m('FileOut', "return appendText env w.2 abs 1 body", "return (true, (appendText env w.2 abs 1 body).2)", 'C75: failing second open reported as success')
m('FileOut', "  | none => return (false, d)\n  | some f =>", "  | none => return (true, d)\n  | some f =>", 'C75: a refused conversion reported as success')
m('FileOut', "data := upd d1.data p (some (.tif f)) })\n", "data := d1.data })\n", 'C75: GeoTIFF not written')
m('FileOut', "else return (false, { d1 with data := upd d1.data p (env.junk p) })", "else return (true, { d1 with data := upd d1.data p (env.junk p) })", 'C75: GDAL failure reported as success')
m('FileOut', "if stringMatch ty extAsc then writeSingleAsc env fmt d abs h vals\n    else if stringMatch ty extTif then writeSingleGeotiff env fmt d abs h vals", "if stringMatch ty extTif then writeSingleGeotiff env fmt d abs h vals", 'C75: ASCII output becomes a GeoTIFF')
m('FileOut', "name ((l : Int) + 1) '_') h buf", "name (l : Int) '_') h buf", 'C75: layers numbered from 0')
m('FileOut', "fullsizeLoop env fmt full fsize lyrs name h w.1 ls w.2", "fullsizeLoop env fmt full fsize lyrs name h true ls w.2", 'C75: failure of one layer forgotten')
m('FileOut', "else if lyrs = 1 then writeRaster env fmt d name h full", "else if lyrs ≤ 2 then writeRaster env fmt d name h full", 'C75: two layers written as one')
m('FileOut', "if !s.usable then .ok none\n  else do", "do", 'C75: unusable subsets written')
m('FileOut', "layers := y.2.2, cellsnum := Int.tdiv y.2.1 y.2.2 }, y.1, Int.tdiv y.2.1 y.2.2, y.2.2)", "layers := y.2.2, cellsnum := Int.tdiv y.2.1 y.2.2 }, y.1, y.2.1, y.2.2)", 'C75: size of a layer wrong')
m('FileOut', "s.getHeader r.hdr.xll r.hdr.yll r.hdr.rows", "s.getHeader r.hdr.xll r.hdr.yll r.hdr.cols", 'C75: subset files at the wrong place')
m('FileOut', "subLoop env fmt r name outOrigin recls dv w.1 l w.2", "subLoop env fmt r name outOrigin recls dv true l w.2", 'C75: failure of one subset forgotten')
m('FileOut', "(prefixCoreFileNameInt d.fs name e.1 '_') y.1", "(prefixCoreFileNameInt d.fs name 0 '_') y.1", 'C75: subset files overwrite each other')
m('FileOut', "(prefixCoreFileNameInt d.fs name 0 '_') h", "(prefixCoreFileNameInt d.fs name 1 '_') h", 'C75: the combined file has the name of a subset')
m('FileOut', "else if rs.subs = [] then .ok (false, d)", "else if rs.subs = [] then .ok (true, d)", 'C75: no subsets reported as success')
m('FileOut', "(rows.flatMap (ascRowText pr))\n      if !v.1 then (false, v.2) else ascFiles env pr h l v.2", "(rows.flatMap (ascRowText pr))\n      ascFiles env pr h l v.2", 'C75: failing rows reported as success')
m('FileOut', "return (appendCoreFileNameInt d.fs abs (l : Int) '_', rows))", "return (appendCoreFileNameInt d.fs abs ((l : Int) + 1) '_', rows))", 'C75: ASCII layers numbered from 1')
m('FileOut', "let rows ← r.ascLayerRows direct pos r.noData 0", "let rows ← r.ascLayerRows direct pos NODATA 0", 'C75: NoData cells of a 1D raster written as -9999')
m('FileOut', "if w.1 then gdalFiles env fmt r abs b ls w.2 else return (false, w.2)", "gdalFiles env fmt r abs b ls w.2", 'C75: a failing layer reported as success')
m('FileOut', "abs ((l : Int) + 1) '_') r.hdr b", "abs ((l : Int) + 2) '_') r.hdr b", 'C75: layers numbered from 2')
m('FileOut', "rs false true name [] NODATA", "rs false false name [] NODATA", 'C75: subset values written as separate files')
m('FileOut', "noData := h.noData.toQ,", "noData := NODATA,", 'C75: NoData value of the file ignored')
m('FileOut', "return if x.1 then some (hdrOfAsc x.2.1, x.2.2) else none", "return some (hdrOfAsc x.2.1, x.2.2)", 'C75: unreadable file accepted')
m('FileOut', "if !fileExists d.fs s then .ok none\n  else do\n    let x ← decode d s", "do\n    let x ← decode d s", 'C75: missing file (equivalent: decoding a missing file fails)')
m('FileOut', "return if 0 ≤ z.2 then some z.1 else none", "return some z.1", 'C75: equivalent without a mask?')
# ---- MaskSubset
m('MaskSubset', "if g < 0 then maskSubLoop r mh vp s rest\n", "if g ≤ 0 then maskSubLoop r mh vp s rest\n", 'C74: the first stored cell is dropped')
m('MaskSubset', "      if nd then maskSubLoop r mh vp s rest\n      else do\n", "      do\n", 'C74: NoData cells kept in subsets')
m('MaskSubset', "return (p, gp) :: l", "return (p, g) :: l", 'C74: index from the coordinate lookup (C57: may differ)')
m('MaskSubset', "Int.tmod gp r.hdr.cols - scol)", "Int.tmod gp r.hdr.cols)", 'C74: local columns not shifted')
m('MaskSubset', "if l = [] then return none", "if l.length ≤ 1 then return none", 'C74: subsets of one cell dropped')
m('MaskSubset', "(fun (a : Int) x => if x.1.1 > a then x.1.1 else a) (-1)", "(fun (a : Int) x => if x.1.1 > a then x.1.1 else a) 0", 'C74: equivalent (rows are not negative)')
m('MaskSubset', "(fun (a : Int) x => if x.1.2 < a then x.1.2 else a) r.hdr.cols", "(fun (a : Int) x => if x.1.2 < a then x.1.2 else a) 0", 'C74: boxes start at column 0')
m('MaskSubset', "let w := ecol - scol + 1", "let w := ecol - scol", 'C74: local indexes wrong')
m('MaskSubset', "nCells := l.length, nLyrs := r.nLyrs", "nCells := s.nCells, nLyrs := r.nLyrs", 'C74: number of cells not updated')
m('MaskSubset', "      | none => l\n", "      | none => (e.1, e.2) :: l\n", 'C74: empty subsets kept')
m('MaskSubset', "(!res.matchExactly && res.updRowCol) mask.subs", "false mask.subs", 'C74: subsets never recomputed')
m('MaskSubset', "if res.code < 0 ∨ mask.subs = [] then return (res, own)", "if res.code < 0 then return (res, own)", 'C74: own subsets lost')
# ---- GfsMask
m('GfsMask', "if !m.validData || !m.validLayer 1 then truncQ m.dflt\n  else", "", 'C71: validNumber without data (equivalent on rasters with data)')
m('GfsMask', "let j ← readAt pi i\n        readAt (some cells) j)", "readAt (some cells) i)", 'C71: NoData cells taken as values')
m('GfsMask', "readAt (some cells) (j * lyrs + k)", "readAt (some cells) (k * n + j)", 'C71: layers not interleaved')
m('GfsMask', "if inc && decide (hdr.cellsnum ≠ full) then return (none, mask)", "if false then return (none, mask)", 'C71: truncated file accepted')
m('GfsMask', "let cp := calcPos || decide (hdr.cellsnum ≠ full)", "let cp := calcPos", 'C71: compact file read as a full grid')
m('GfsMask', "decide (hdr.cellsnum = validNumber mask) then do", "true then do", 'C71: compact file of another mask accepted')
m('GfsMask', "else if !inc then return (none, mask)", "else if false then return (none, mask)", 'C71: a compact file is masked as a full grid')
m('GfsMask', "return (if res.code ≥ 0 then some res.ras else none, res.mask)", "return (some res.ras, res.mask)", 'C71: raster outside the mask accepted')
m('GfsMask', "some { base with nCells := n, storePos := false, posData := pd, posIdx := pi,", "some { base with nCells := n, storePos := false, posData := pd, posIdx := none,", 'C71: positions lost')
# ---- GfsSubset
m('GfsSubset', "def subFile (k : Int) (name : Str) : Str := intToDec k ++ '_' :: name", "def subFile (k : Int) (name : Str) : Str := intToDec k ++ name", 'C27: names of subset files')
m('GfsSubset', "(if inc then \"TRUE\".toList else \"FALSE\".toList)", "(if inc then \"FALSE\".toList else \"TRUE\".toList)", 'C27: NoData flag inverted')
m('GfsSubset', "| none => Opts.set o1 kTypeOut (rdtToString T.code)", "| none => o1", 'C27: output type not set')
m('GfsSubset', "layers := y.2.2, cellsnum := Int.tdiv y.2.1 y.2.2 }, y.1, y.2.1)", "layers := y.2.2, cellsnum := y.2.1 }, y.1, y.2.1)", 'C27: number of cells wrong for several layers')
m('GfsSubset', "if !e.2.usable then outSubLoop rnd T rms atts r name o outOrigin inc recls dv (i + 1) flag l st\n    else do", "do", 'C27: unusable subsets stored')
m('GfsSubset', "st (subFile e.1 name) (headerMap y.1)", "st (subFile (i : Int) name) (headerMap y.1)", 'C27: files named by position instead of subset')
m('GfsSubset', "else if rs.subs = [] then .ok (own, st, false)", "else if rs.subs = [] then .ok (own, st, true)", 'C27: no subsets reported as success')
m('GfsSubset', "let act := if name = [] then core else name", "let act := name", 'C27: default name not used')
m('GfsSubset', "st (\"0_\".toList ++ act)", "st act", 'C27: the combined file overwrites the raster')
m('GfsSubset', "| none => return (s, false)\n  | some y => do", "| none => return (s, true)\n  | some y => do", 'C28: missing file reported as read')
m('GfsSubset', "    s.readDb n l (some y.1)", "    s.readDb l n (some y.1)", 'C28: cells and layers swapped')
# ---- MongoDb
m('MongoDb', "if x ∈ v then v else v ++ [x]", "v ++ [x]", 'C69: repeated collection names')
m('MongoDb', "if last = \"files\".toList ∨ last = \"chunks\".toList then", "if last = \"files\".toList then", 'C69: a bucket listed from its chunks first (equivalent set?)')
m('MongoDb', "if other ∉ coll then .ok real else .ok (addNew real r)", "if other ∉ coll then .ok (addNew real r) else .ok real", 'C69: buckets inverted')
m('MongoDb', "if other ∉ coll then .ok real else .ok (addNew real r)", ".ok (addNew real r)", 'C69: half buckets listed')
m('MongoDb', "| none => .ok old", "| none => .ok []", 'C69: driver failure clears the list')
m('MongoDb', "return coll ++ real", "return real", 'C69: collections lost')
# ---- Par
m('Par', "if c.hit then { c with row := c.row.set l v } else c", "{ c with row := c.row.set l v }", 'C29: every cell replaced')
m('Par', "(List.range lyrs).flatMap (fun l => [replTest nd l, replStore v l])", "(List.range (lyrs - 1)).flatMap (fun l => [replTest nd l, replStore v l])", 'C29: last layer not replaced')
m('Par', "hit := floatEqual (c.row.getD l 0) nd", "hit := floatEqual (c.row.getD 0 0) nd", 'C29: wrong layer tested')
# ---- Array2D
m('Array2D', "let n := (r * c) % 2 ^ 32", "let n := r * c + 1", 'C70: pool too large (harmless: equivalent observations)')
m('Array2D', "let ps ← linkRows pool col len (off + col) n", "let ps ← linkRows pool col len off n", 'C70: rows overlap')
m('Array2D', "let b ← addr m o.data (o.rows - 1) o.cols", "let b ← addr m o.data (o.rows - 1) 0", 'C70: last row not copied')
m('Array2D', "    let m ← copyElems a d (b.2 - a.2) m\n    .ok (⟨some p, o.rows, o.cols⟩, m)", "    .ok (⟨o.data, o.rows, o.cols⟩, m)", 'C70: shallow copy')
m('Array2D', "      let m ← m.free a.1\n      m.free b", "      m.free b", 'C70: the pool leaks')
m('Array2D', "(some { o with data := none })) i (some o) }", "(some o)) i (some o) }", 'C70: moved-from object still owns the data')
m('Array2D', "        let (temp, m) ← copyCtor s.mem o' dv ok\n        let m ← destroy m o\n", "        let (temp, m) ← copyCtor s.mem o' dv ok\n", 'C70: assignment leaks')
m('Array2D', "if i = j then .ok (s, .done)\n      else do\n        let (temp", "do\n        let (temp", 'C70: self-assignment copies (equivalent observations)')
m('Array2D', "putObj (putObj s.obj j (some o)) i (some o')", "putObj s.obj i (some o')", 'C70: both objects own the data')
m('Array2D', "      if r ≤ 0 then .ok (s, .threw)\n      else if c ≤ 0 then .ok (s, .threw)\n      else do\n        let (p, m) ← create2D s.mem r c x ok\n        .ok (⟨m, putObj", "      if r ≤ 0 then .ok (s, .threw)\n      else do\n        let (p, m) ← create2D s.mem r c x ok\n        .ok (⟨m, putObj", 'C70: zero columns accepted')
m('Array2D', "| some o => .ok (s, .num o.rows)", "| some o => .ok (s, .num o.cols)", 'C70: rows and columns swapped')
m('Array2D', "let a ← addr s.mem o.data r c\n      let x", "let a ← addr s.mem o.data c r\n      let x", 'C70: transposed access')
# ---- PowTable
m('PowTable', "0x58c, 0x10a4,", "0x58c, 0x20a4,", 'C46: wrong table entry')
m('PowTable', "0x7fdebd, 0x7ff4e9]", "0x7fdebd, 0x7fe4e9]", 'C46: wrong last table entry')
# ---- App
m('App', "else s.all (fun c => c = '.' ||", "else s.any (fun c => c = '.' ||", 'C48: characters other than digits accepted')
m('App', "else if m = \"MASK&DEC\".toList ∨ m = \"MASKDEC\".toList then .maskdec", "else if m = \"MASKDEC\".toList then .maskdec", 'C58: MASK&DEC not recognised')
m('App', "if (m.get k).isSome then m else m ++ [(k, v)]", "m ++ [(k, v)]", 'C58: duplicate keys')
m('App', "if vts.length = v.length then (st.1, st.2.emplace (isInt kt).1 v) else (false, st.2)", "(st.1, st.2.emplace (isInt kt).1 v)", 'C58: values that are no numbers accepted')
m('App', "if !stringMatch tag \"OUT\".toList && exist fps then", "if exist fps then", 'C67: existing output treated as an input')
m('App', "| p :: _ => if '/' ∈ p then", "| p :: _ => if '/' ∈ src then", 'C67: format decided by the wrong path')
# 394: RasterLife (C80)
m('RasterLife', "  let w ← bif o.store then free w i .pos else .ok w\n  let w ← bif o.store then free w i .idx else .ok w", "  let w ← free w i .pos\n  let w ← free w i .idx", 'C80: destructor releases shared positions')
m('RasterLife', "  let w ← bif o.store then free w i .idx else .ok w\n  let w ← bif o.is2d", "  let w ← bif o.is2d", 'C80: destructor forgets the index array')
m('RasterLife', "  let w ← bif o.is2d && o.stats then releaseStats w i else .ok w\n  let w ← releaseSubset w i\n  return { w with", "  let w ← releaseSubset w i\n  return { w with", 'C80: destructor forgets the 2D statistics')
m('RasterLife', "  let w ← bif o.is2d && o.stats then releaseStats w i else .ok w\n  let w ← releaseSubset w i\n  return { w with", "  let w ← bif o.is2d && o.stats then releaseStats w i else .ok w\n  return { w with", 'C80: destructor forgets the subsets')
m('RasterLife', "    let w ← bif full then .ok w else share w m i s.maskValid\n    modify w i (fun o => { o with store := false })", "    bif full then .ok w else share w m i s.maskValid", 'C80: shared positions stay marked as own')
m('RasterLife', "    let w ← modify w i (fun o => { o with store := true, cells := s.kept })\n    let w ← free w i .pos\n    let w ← free w i .idx\n    let w ← alloc2", "    let w ← modify w i (fun o => { o with store := true, cells := s.kept })\n    let w ← alloc2", 'C80: recalculated positions reuse the old arrays')
m('RasterLife', "    let w ← modify w i (fun o => { o with store := true, cells := s.kept })", "    let w ← modify w i (fun o => { o with cells := s.kept })", 'C80: recalculated positions are not released')
m('RasterLife', "  bif full || recalc then modify w i (fun o => { o with mask := none }) else .ok w", "  .ok w", 'C80: mask pointer kept although it is not needed (harmless)')
m('RasterLife', "  bif full || recalc then modify w i (fun o => { o with mask := none }) else .ok w", "  modify w i (fun o => { o with mask := none })", 'C80: mask pointer dropped although its positions are shared')
m('RasterLife', "    let w ← releaseSubset w i\n    copySubs w m i om.subs", "    copySubs w m i om.subs", 'C80: subsets of the mask added to old ones')
m('RasterLife', "        let w ← freeSub w i e.1 e.2\n        trimSubs w i vp left re l", "        trimSubs w i vp left re l", 'C80: deleted subset not released')
m('RasterLife', "            modify w i (fun o => (o.setPtr (.sub e.1 .data) none).setPtr (.sub e.1 .data2) none)", "            .ok w", 'C80: data of recalculated subsets kept')
m('RasterLife', "    let w ← releaseStats w i\n      modify w i (fun o => { o with stats := false })", "    modify w i (fun o => { o with stats := false })", 'C80: Copy forgets the statistics arrays')
m('RasterLife', "  let w ← free w i .pos\n  let w ← free w i .idx\n  let w ← bif o.stats then do", "  let w ← free w i .idx\n  let w ← bif o.stats then do", 'C80: Copy keeps the old position array')
m('RasterLife', "    let w ← modify w i (fun o => { o with store := true })\n    touch w j .pos", "    touch w j .pos", 'C80: Copy does not own its positions')
m('RasterLife', "  let w ← bif o.is2d && o.stats then releaseStats w i else .ok w\n  let w ← modify w i (fun o => { o with stats := false })\n  calcStats w i", "  let w ← modify w i (fun o => { o with stats := false })\n  calcStats w i", 'C80: UpdateStatistics loses the old arrays')
m('RasterLife', "    touchCells w i\n    let w ← free w i .ras\n    let w ← modify w i (fun o => { o with is2d := true })\n    return (w, true)", "    touchCells w i\n    let w ← modify w i (fun o => { o with is2d := true })\n    return (w, true)", 'C80: ReadFromFiles keeps the single layer (harmless: the destructor releases it)')
m('RasterLife', "    let w ← modify w i (fun o => { o with is2d := true })\n    bif g.all && direct", "    bif g.all && direct", 'C80: GridFS raster with layers not marked 2D: leak')
m('RasterLife', "  let w ← modify w i (fun o => { o with mask := some m, ext := true })\n", "  let w ← modify w i (fun o => { o with mask := some m, ext := true, store := true })\n", 'C80: mask constructor owns the positions of the mask')
m('RasterLife', "      let w ← free w i (.sub k .lpos)\n      let w ← free w i (.sub k .lidx)\n      free w i (.sub k .glob)", "      let w ← free w i (.sub k .lpos)\n      free w i (.sub k .glob)", 'C80: subset destructor forgets the local index')
m('RasterLife', "    if x.2 then return x.1 else destroy x.1 i", "    if x.2 then return x.1 else return { x.1 with objs := upd x.1.objs i none }", 'C80: failed Init does not delete the raster')
m('RasterLife', "        let w ← modify w i (fun o => { o with store := false })\n        let w ← share w m i s.maskValid", "        let w ← modify w i (fun o => { o with store := true })\n        let w ← share w m i s.maskValid", 'C80: GridFS raster owns the positions of the mask')
m('RasterLife', "  modify w i (fun o => { o with store := true, calcPos := true })\n\n", "  modify w i (fun o => { o with calcPos := true })\n\n", 'C80: calculated positions never released')
m('RasterLife', "      let w ← free w i .ras2\n      alloc2 w i .ras2 n\n    else do", "      put w i .ras2 (.two n)\n    else do", 'C80: position calculation loses the old 2D data')
m('RasterLife', "      if !o.subs.isEmpty then return (x.1, true)\n      else do\n", "      do\n", 'C80: BuildSubSet twice adds subsets')
m('ArrayText', "return vs.flatMap (fun v => pr v ++ ['\\n'])", "return vs.flatMap (fun v => ['\\n'] ++ pr v)", 'C81: line feed before instead of behind the value')
m('ArrayText', "vs.flatMap (fun v => pr v ++ ['\\t']) ++ ['\\n']", "vs.flatMap (fun v => pr v ++ ['\\t', '\\n'])", 'C81: line feed inside the column loop')
m('ArrayText', "return vs.flatMap (fun v => pr v ++ ['\\t']) ++ ['\\n'])", "return vs.flatMap (fun v => pr v) ++ ['\\n'])", 'C81: separator of columns dropped')
m('ArrayText', 'def cells (data : Ptr τ) (n : Int) : Out (List τ) := (List.range n.toNat)', 'def cells (data : Ptr τ) (n : Int) : Out (List τ) := (List.range (n.toNat + 1))', 'C81: i <= n')
m('ArrayText', '    let vs ← cells row cols', '    let vs ← cells row rows', 'C81: columns and rows swapped in Output2D')
m('ArrayText', 'if rows < 0 then .exn else .ok (some rows, (readMany get rows.toNat r.2).1)', 'if rows < 0 then .exn else .ok (some rows, (readMany get (rows.toNat - 1) r.2).1)', 'C81: one value fewer read')
m('ArrayText', 'return (some (ofInt n) :: y.1) :: l', 'return y.1 :: l', 'C81: number of values not stored first')
m('ArrayText', 'let l ← readRows get ofInt k y.2 (some n)', 'let l ← readRows get ofInt k x.2 (some n)', 'C81: next row starts before the values')
m('ArrayText', '        if v < -(2 ^ 31) then (some (-(2 ^ 31)), ⟨rest, true⟩)', '        if v < 0 then (some (-(2 ^ 31)), ⟨rest, true⟩)', 'C81: negative values out of range')
m('ArrayText', '        let v : Int := if sg.1 then', '        let v : Int := if !sg.1 then', 'C81: sign swapped')
m('ArrayText', '      let l ← readRows get ofInt rows.toNat r.2 none', '      let l ← readRows get ofInt rows.toNat w.2 none', 'C81: rows read before the number of rows')
m('MongoLife', '  let w2 ← destroy .client x.1 w1\n', '  let w2 ← Out.ok w1\n', 'C82: Init keeps its test connection')
m('MongoLife', '  let w ← destroy .client h w\n  if', '  let w ← Out.ok w\n  if', 'C82: Destroy does not close the connection')
m('MongoLife', '    let s := new .buffer none w\n    destroy .buffer (some s.1) s.2\n  else return w\n\n/-- db_mongoc.cpp:146-151', '    let s := new .buffer none w\n    Out.ok s.2\n  else return w\n\n/-- db_mongoc.cpp:146-151', 'C82: names of databases not freed')
m('MongoLife', '    let w ← destroy .database (some d.1) d.2\n    let i ← use', '    let w ← Out.ok d.2\n    let i ← use', 'C82: GetCollection keeps the database object')
m('MongoLife', '    let w ← destroy .database (some d.1) x.2\n    return (w, x.1)', '    return (x.2, x.1)', 'C82: GetGridFs keeps the database object of the second attempt')
m('MongoLife', '    let w ← destroy .database (some d.1) x.2\n    return (w, x.1)', '    let w ← destroy .database (some d.1) x.2\n    let w ← destroy .database (some d.1) w\n    return (w, x.1)', 'C82: database object released twice')
m('MongoLife', '  let h ← getWrap .database b w\n  let w ← destroy .database h w\n  return endWrap b w', '  let _ ← getWrap .database b w\n  return endWrap b w', 'C82: ~MongoDatabase releases nothing')
m('MongoLife', '  databaseDtor b.2 w\n', '  Out.ok w\n', 'C82: temporary MongoDatabase not destroyed')
m('MongoLife', '  let h ← getWrap .collection b w\n  let w ← destroy .collection h w', '  let _ ← getWrap .collection b w\n  let w ← Out.ok w', 'C82: ~MongoCollection releases nothing')
m('MongoLife', '  let w ← destroy .bson (some f.1) x.2\n  return (w, x.1)', '  return (x.2, x.1)', 'C82: filter of GetFile not destroyed')
m('MongoLife', 'if n < 5 then', 'if n < 6 then', 'C82: six attempts (the returned object exists either way)')
m('MongoLife', '    let w ← destroy .file (some f.1) f.2\n    eachFile l k w', '    eachFile l k f.2', 'C82: files of a list not destroyed')
m('MongoLife', '    let w ← destroy .fileList (some l.1) w\n    destroy .bson (some f.1) w', '    destroy .bson (some f.1) w', 'C82: RemoveFile keeps the list')
m('MongoLife', '    let w ← destroy .fileList (some l.1) w\n    destroy .bson (some f.1) w', '    destroy .fileList (some l.1) w', 'C82: RemoveFile keeps the filter')
m('MongoLife', '  let w ← fileNames t.2 none k t.1\n  gridFsDtor t.2 w', '  fileNames t.2 none k t.1', 'C82: temporary MongoGridFs not destroyed')
m('MongoLife', '        let w ← destroy .file (some j) m.2\n        return (w, some m.1)', '        return (m.2, some m.1)', 'C82: GetFileMetadata keeps the file')
m('MongoLife', '        let m := new .bson none f.1\n        let w ← destroy .file (some j) m.2\n        return (w, some m.1)', '        let w ← destroy .file (some j) f.1\n        let _ ← use .file (some j) w\n        let m := new .bson none w\n        return (m.2, some m.1)', 'C82: metadata copied after the file was destroyed')
m('MongoLife', '      let w ← destroy .stream (some s.1) s.2\n      let w ← destroy .file (some j) w', '      let w ← destroy .file (some j) s.2\n      let w ← destroy .stream (some s.1) w', 'C82: file destroyed before its stream')
m('MongoLife', '      let w ← destroy .stream (some s.1) s.2\n      let w ← destroy .file (some j) w', '      let w ← destroy .file (some j) s.2', 'C82: stream not destroyed')
m('MongoLife', '    let _ ← use .file (some f.1) f.2\n    destroy .file (some f.1) f.2\n', '    let _ ← use .file (some f.1) f.2\n    Out.ok f.2\n', 'C82: written file not destroyed')
m('MongoLife', '  match own with\n  | some i => some i\n  | none => g', '  match g with\n  | some i => some i\n  | none => own', 'C82: argument preferred to the own GridFS')
m('MongoLife', '  let own ← getWrap .gridfs b w\n  let f := new .bson none w', '  let own ← getWrap .gridfs b w\n  let f := (w.heap.length, w)', 'C82: GetFileNames without a document (changes what is forgotten)')

# 452.. FloatStats
m('FloatStats', 'decide (|R.sub v1 v2| < R.fl (1 / 10 ^ 32))', 'decide (|R.sub v1 v2| < R.fl (1 / 10 ^ 2))', 'C83: FloatEqual with a coarse tolerance')
m('FloatStats', 'decide (|R.sub v1 v2| < R.fl (1 / 10 ^ 32))', 'decide (R.sub v1 v2 < R.fl (1 / 10 ^ 32))', 'C83: FloatEqual without absolute value')
m('FloatStats', '| some x => threadSumF R f is (R.add acc x)', '| some x => threadSumF R f is (R.add x x)', 'C83: accumulator overwritten')
m('FloatStats', '''    let y ← ompSumF R f b
    return R.add x y''', '''    let y ← ompSumF R f b
    return R.sub x y''', 'C83: partial results combined wrongly')
m('FloatStats', 'def FAcc.start : FAcc := ⟨-(fltMax : ℝ), (fltMax : ℝ), 0, 0⟩', 'def FAcc.start : FAcc := ⟨0, (fltMax : ℝ), 0, 0⟩', 'C83: maximum starts at 0')
m('FloatStats', 'if a.mn > v then v else a.mn, inc a.num', 'if a.mn < v then v else a.mn, inc a.num', 'C83: minimum with the wrong comparison')
m('FloatStats', 'inc a.num, R.add a.sum v⟩', 'a.num, R.add a.sum v⟩', 'C83: values not counted')
m('FloatStats', 'inc a.num, R.add a.sum v⟩', 'inc a.num, R.add a.sum ex⟩', 'C83: the excluded value is summed')
m('FloatStats', '''  if floatEqualF R v ex then a
  else''', '''  if !floatEqualF R v ex then a
  else''', 'C83: only NoData is used')
m('FloatStats', 'else some (R.div a b)', 'else some (R.div b a)', 'C83: quotient swapped')
m('FloatStats', 'some (R.mul (R.sub v m) (R.sub v m))', 'some (R.mul v v)', 'C83: squares without the mean')
m('FloatStats', '''  if floatEqualF R v ex then none
  else match mean with''', '''  if false then none
  else match mean with''', 'C83: NoData cells enter the deviation')
m('FloatStats', 'std := (divF R sq a.num).map R.sqrt', 'std := divF R sq a.num', 'C83: variance instead of deviation')
m('FloatStats', 'range := some (R.sub a.mx a.mn)', 'range := some (R.sub a.mn a.mx)', 'C83: range negative')
m('FloatStats', 'statLoopF R (· + 1) vals ex (List.range n.toNat) FAcc.start', 'statLoopF R (· + 1) vals ex (List.range (n.toNat - 1)) FAcc.start', 'C83: last value forgotten')
m('FloatStats', 'let accs\' ← writeAt accs j (a.push R (fun x => R.add x 1) ex v)', 'let accs\' ← writeAt accs i (a.push R (fun x => R.add x 1) ex v)', 'C83: layer slots mixed up')
m('FloatStats', 'let accs\' ← writeAt accs j (a.push R (fun x => R.add x 1) ex v)', 'let accs\' ← writeAt accs j (a.push R (fun x => R.add x 2) ex v)', 'C83: double counter')
m('FloatStats', 'let v ← read2F vals i j; return sqDevF', 'let v ← read2F vals i 0; return sqDevF', 'C83: deviation of the first layer for all')

m('FloatCoord', 'if 0 ≤ x then ⌊x⌋ else ⌈x⌉', 'if 0 ≤ x then ⌈x⌉ else ⌊x⌋', 'C84: rounded up')
m('FloatCoord', 'R.mul ((g.rows - row - 1 : Int) : ℝ) g.dx', 'R.mul ((g.rows - row : Int) : ℝ) g.dx', 'C84: centres one row too high')
m('FloatCoord', 'R.add g.xll (R.mul col g.dx)', 'R.add g.xll (R.mul row g.dx)', 'C84: row used for column')
m('FloatCoord', 'R.sub ll (R.div dx 2)', 'R.add ll (R.div dx 2)', 'C84: border on the wrong side')
m('FloatCoord', 'R.sub ll (R.div dx 2)', 'R.sub ll dx', 'C84: border half a cell too far')
m('FloatCoord', 'R.add (lowF R ll dx) (R.mul dx n)', 'R.add ll (R.mul dx n)', 'C84: upper border half a cell too far')
m('FloatCoord', '∨ (y > highF R g.yll g.dx g.rows ∨ y < g.yll) then', '∨ (y > highF R g.yll g.dx g.cols ∨ y < g.yll) then', 'C84: columns for rows')
m('FloatCoord', 'then (-1, -1)', 'then (0, 0)', 'C84: outside points reported in the first cell')
m('FloatCoord', 'if (x > highF R g.xll g.dx g.cols ∨ x < g.xll) ∨', 'if (x > highF R g.xll g.dx g.cols ∨ x < lowF R g.xll g.dx) ∨', 'C84 finding: border instead of centre (repaired program)')
m('FloatCoord', 'if x > highF R g.xll g.dx g.cols ∨ x < lowF R g.xll g.dx then none', 'if x > highF R g.xll g.dx g.cols ∨ x < g.xll then none', 'C84: first half column lost')
m('FloatCoord', '  else if y > highF R g.yll g.dx g.rows ∨ y < lowF R g.yll g.dx then none\n', '', 'C84: y not checked')
m('FloatCoord', 'else some (truncR (R.div (R.sub (highF R g.yll g.dx g.rows) y) g.dx)', 'else some (truncR (R.div (R.sub y (lowF R g.yll g.dx)) g.dx)', 'C84: rows counted from below')

m('ParMem', '.write ⟨.data, i, 0⟩ init .done', '.write ⟨.data, 0, 0⟩ init .done', 'C85: all iterations write the first element')
m('ParMem', '  .read ⟨.src, i, 0⟩ fun v => .read (privAt t) fun s => .write (privAt t) (s + v) .done', '  .read ⟨.src, i, 0⟩ fun v => .read (privAt 0) fun s => .write (privAt 0) (s + v) .done', 'C85: reduction clause missing (shared sum)')
m('ParMem', '.write (privAt t) (c + 1) <|', '.write (privAt 0) (c + 1) <|', 'C85: shared counter in the conversion')
m('ParMem', 'if v1 < lo ∨ v1 > hi then', 'if v1 < lo then', 'C85: values too large not counted')
m('ParMem', 'if floatEqual v nd && chg then .write ⟨.conv, i, 0⟩ sent .done', 'if floatEqual v nd && chg then .done', 'C85: NoData cells not written')
m('ParMem', 'forEach (List.range cols) fun j => .read ⟨.src, i, j⟩', 'forEach (List.range (cols - 1)) fun j => .read ⟨.src, i, j⟩', 'C85: last column not copied')
m('ParMem', 'fun v => .write ⟨.raster2, i, 0⟩ v .done', 'fun v => .write ⟨.raster2, 0, i⟩ v .done', 'C85: row and column exchanged')
m('ParMem', 'addOther look nd lnd lyr (k1.floor / cols) (k2.floor % cols) i', 'addOther look nd lnd lyr (k1.floor / cols) (k2.floor % cols) k1.floor', 'C85: cell index of the grid used for compact data')
m('ParMem', 'else addOther look nd lnd lyr i j ((i * cols + j : Nat) : Int)', 'else addOther look nd lnd lyr i j ((i + j : Nat) : Int)', 'C85: cells of different rows coincide')
m('ParMem', 'if floatEqual v lnd then nd else v) .done', 'v) .done', 'C85: NoData of the layer not translated')
m('ParMem', '.read ⟨.layer, k * lyrs + j, 0⟩', '.read ⟨.layer, k + j, 0⟩', 'C85: layers overlap in the GridFS buffer')
m('ParMem', 'if floatEqual v nd then .write ⟨.raster2, i, l⟩ rv .done else .done', 'if floatEqual v nd then .write ⟨.raster2, l, i⟩ rv .done else .done', 'C85: transposed')
m('ParMem', '.write ⟨.posIdx, i, 0⟩ (r * ncols + c) .done', '.write ⟨.posIdx, i, 0⟩ (c * ncols + r) .done', 'C85: index transposed')
m('ParMem', '.write ⟨.raster2, i, ((l + 1 : Nat) : Int)⟩ v .done).seq', '.write ⟨.raster2, i, ((l : Nat) : Int)⟩ v .done).seq', 'C85: first layer overwritten')
m('ParMem', '(forEach (List.range (lyrs - 1)) fun l =>', '(forEach (List.range lyrs) fun l =>', 'C85: one layer too many')
m('ParMem', '.read ⟨.idx, i, 0⟩ fun j => .read ⟨.src, j.floor, 0⟩', '.read ⟨.idx, i, 0⟩ fun j => .read ⟨.src, i, 0⟩', 'C85: index ignored')
m('ParMem', '.write (privAt t) (s + (v1 - mean) * (v2 - mean)) .done', '.write (privAt t) ((v1 - mean) * (v2 - mean)) .done', 'C85: deviations not added up')
m('ParMem', 'if t < s.threads then .write (privAt t) 0 (forEach (s.order t) (body t)) else .done', 'if t < s.threads then forEach (s.order t) (body t) else .done', 'C85: private copies not initialised')
m('ParMem', '.read ⟨.src, i, j⟩ fun v2 => .read ⟨.stats, 1, j⟩ fun m2 =>', '.read ⟨.src, i, j⟩ fun v2 => .read ⟨.stats, 0, j⟩ fun m2 =>', 'C85: count instead of mean')
m('AscCrash', '  [.delete, .open,', '  [.open,', 'C86: the old file is not deleted, output is appended to it')
m('AscCrash', 'ascHeaderOps h ++ .open :: rows.flatten', 'ascHeaderOps h ++ .delete :: .open :: rows.flatten', 'C86: the second stream truncates the header')
m('AscCrash', '  | some t, .open => some t', '  | some _, .open => some []', 'C86: streams opened without append')
m('AscCrash', 'vs.flatMap (fun v => [.put (pr v), .put [\' \']]) ++ [.put nl]', 'vs.flatMap (fun v => [.put (pr v), .put [\' \']])', 'C86: no line end after a row')
m('AscCrash', '.put kNrows, .put [\' \'], .put (intToDec h.rows), .put nl,', '.put kNrows, .put [\' \'], .put (intToDec h.cols), .put nl,', 'C86: rows and columns exchanged in the header')
m('AscCrash', '  return ascHeaderOps h ++ .open :: rows.flatten ++ [.put nl]', '  return .open :: rows.flatten ++ [.put nl] ++ ascHeaderOps h', 'C86: header written after the data, deleting it')
m('Asc', '    return { s with vals := alloc1 n (cast s.noData) }', '    return { s with vals := alloc1 n (cast (.fin 0)) }', 'C86/C09: missing cells are zero')
m('Asc', '  else if c.2.length < 7 then .ok (false, hdr, vals)', '  else if c.2.length < 6 then .ok (false, hdr, vals)', 'C86/C09: a header without data is accepted')
m('AppGfs', '(kIncNodata, if inc then "TRUE".toList else "FALSE".toList)]', '(kIncNodata, if inc then "FALSE".toList else "TRUE".toList)]', 'C87: INCLUDE_NODATA inverted')
m('AppGfs', '[(kTypeOut, rdtToString ty.code),', '[(kTypeOut, rdtToString RDT.double.code),', 'C87: data type of the request ignored')
m('AppGfs', 'x.1.ras jd.own jd.core ("0_".toList ++ j.out) opts inc', 'x.1.ras jd.own jd.core j.out opts inc', 'C87: whole raster stored under the plain name')
m('AppGfs', '    let r1 ← (if jj.1.update then rs.ras.replaceNoData jj.1.nodata.toQ else .ok rs.ras : Out Raster)', '    let r1 ← (.ok rs.ras : Out Raster)', 'C87: NoData not replaced')
m('AppGfs', '    let x ← readFromMongoMaskS rnd .double jd.ok1 jd.rd jd.ok2 st name false m true dflt opts', '    let x ← readFromMongoMaskS rnd .double jd.ok1 jd.rd jd.ok2 st name false m false dflt opts', 'C87: mask extent not used')
m('AppGfs', '| none => if jj.1.inFmt = .sfile then .ub else .ok (x.1, x.2.1, y.2)', '| none => .ub', 'C87: null dereferenced when nothing is found')
m('AppGfs', '      return (x.1, st\', y.2)\n    else return', '      return (x.1, x.2.1, y.2)\n    else return', 'C87: stored raster dropped')
m('AppGfs', '      return (d\', x.2.1, y.2)', '      return (x.1, x.2.1, y.2)', 'C87: written file dropped')
m('AppGfs', '    let name ← vecAt jj.1.inputs 0', '    let name ← vecAt jj.1.inputs 1', 'C87: second input name instead of the first')
m('AppGfs', '        let z ← Raster.maskRasterS r [] mask\n', '        let z ← Raster.maskRasterS r [] ⟨{ r with useMaskExt := true }, []⟩\n', 'C87: raster masked with itself')
m('AppGfs', '      let x ← js.foldlM (layerJobDb sys inc mode) (d, st, mask)'.replace('      let','    let'), '    let x ← (js.take 1).foldlM (layerJobDb sys inc mode) (d, st, mask)', 'C87: only the first job is run')
m('AppGfs', '        return (acc.1 + 1, IMap.set acc.2 id z.1)', '        return (acc.1 + 1, IMap.set acc.2 (id + 1) z.1)', 'C88: piece stored under the next group')
m('AppGfs', '        return (acc.1 + 1, IMap.set acc.2 id z.1)', '        return (acc.1 + 1, acc.2)', 'C88: piece read but dropped')
m('AppGfs', '    if !(isInt c).2 then .ok (acc.1 + 1, acc.2)\n    else match acc.2.get id with\n      | none => .ok (acc.1 + 1, acc.2)\n', '    if false then .ok (acc.1 + 1, acc.2)\n    else match acc.2.get id with\n      | none => .ok (acc.1 + 1, acc.2)\n', 'C88: name without number taken for group 0')
m('AppGfs', '      | none => .ok (acc.1 + 1, acc.2)\n      | some sub', '      | none => .exn\n      | some sub', 'C88: unknown group ends the program')
m('AppGfs', '  let m : RasterS := { x.2.2 with ras := { x.2.2.ras with dflt := j.default.toQ } }', '  let m : RasterS := x.2.2', 'C88: default value of the job not set')
m('AppGfs', '  let subs0 := m.subs.map (fun e => (e.1, { e.2 with usable := false }))', '  let subs0 := m.subs', 'C88: pieces of the previous job stay')
m('AppGfs', '      let z ← j.inputs.foldlM (comOneDb sys.rnd jd x.1 x.2.1 opts) (0, subs0)', '      let z ← j.inputs.foldlM (comOneDb sys.rnd jd x.1 x.2.1 []) (0, subs0)', 'C88: pieces searched without the options of the job')
m('AppGfs', '    return (x.1, w.2.1, m2)\n  else return', '    return (x.1, x.2.1, m2)\n  else return', 'C88: result not kept in the bucket')
m('AppGfs', "m2 jd.own jd.core j.out opts inc false true [] NODATA", "m2 jd.own jd.core j.out opts inc false false [] NODATA", 'C88: pieces not combined')
m('AppGfs', "m2 jd.own jd.core j.out opts inc false true [] NODATA", "m2 jd.own jd.core j.out opts false false true [] NODATA", 'C88: NoData cells left out of the stored grid')
m('AppGfs', "      let x ← js.foldlM (comJobDb sys inc) (d, st, m)", "      let x ← (js.take 1).foldlM (comJobDb sys inc) (d, st, m)", 'C88: only the first job')
m('Subset', '      if s.nCells = dbn then s1.setData dbn db\n', '      if nfull = dbn then s1.setData dbn db\n', 'C88/C70: full box taken for the cells')
m('Subset', "          let j ← readAt s.localIdx i\n          readAt db j)\n", "          readAt db i)\n", 'C88/C70: box values taken in order')
m('Subset', '  if (nfull ≠ dbn ∧ s.nCells ≠ dbn) ∨ dbl < 0 then .ok (s, false)', '  if (nfull ≠ dbn ∨ s.nCells ≠ dbn) ∨ dbl < 0 then .ok (s, false)', 'C88/C70: only groups that fill their box accepted')
m('Subset', '  if (nfull ≠ dbn ∧ s.nCells ≠ dbn) ∨ dbl < 0 then .ok (s, false)', '  if dbl < 0 then .ok (s, false)', 'C88/C70: wrong number of values accepted')
# --- NaN cells, runs with a database, one-dimensional arrays
m('NanCells', "return if floatEqual v nd then rest else (v, (i : Int), (j : Int)) :: rest", "return if !floatEqual v nd then rest else (v, (i : Int), (j : Int)) :: rest", 'C89: the NoData cells are kept')
m('NanCells', "let row ← validRow ncols nd cells i (List.range ncols.toNat)", "let row ← validRow ncols nd cells i (List.range (ncols - 1).toNat)", 'C89: last column dropped')
m('NanCells', "l.map (fun x => x.2.1 * ncols + x.2.2))", "l.map (fun x => x.2.2 * ncols + x.2.1))", 'C89: row and column swapped in the indices')
m('NanCells', "(cells.map (fun v => if floatEqual v nd then new else v), new)", "(cells.map (fun v => if floatEqual v new then nd else v), new)", 'C89: NoData replaced the wrong way round')
m('NanCells', "(cells.map (fun v => if floatEqual v nd then new else v), new)", "(cells.map (fun v => if floatEqual v nd then new else v), nd)", 'C89: NoData value not renamed')
m('NanCells', "def isNoData (nd v : DVal) : Bool := floatEqual v nd", "def isNoData (nd v : DVal) : Bool := decide (v = nd)", 'C89: NaN cells of a NaN raster are NoData')
m('NanCells', "if floatEqual v ex then a\n", "if floatEqual v ex || decide (v = .nan) then a\n", 'C89: NaN left out of the statistics')
m('NanCells', "if lt a.mx v then v else a.mx", "if lt v a.mx then a.mx else v", 'C89: NaN becomes the maximum')
m('NanCells', "| .nan, _ => false\n  | _, .nan => false", "| .nan, _ => true\n  | _, .nan => true", 'C89: comparison with NaN true')
m('AppGfs', "j.out opts inc true false (tableOf j.table) j.default.toQ", "j.out opts inc true false [] j.default.toQ", 'C90: table dropped for single groups')
m('AppGfs', "s1 rs jd.own jd.core j.out opts inc true true (tableOf j.table) j.default.toQ", "st rs jd.own jd.core j.out opts inc true true (tableOf j.table) j.default.toQ", 'C90: single groups lost when the whole grid is stored')
m('AppGfs', "j.out opts inc true true (tableOf j.table) j.default.toQ", "j.out opts inc true true (tableOf j.table) NODATA", 'C90: default value not used in the whole grid')
m('AppGfs', "        let y ← (if noMask then do\n            let b ← buildSubSet rs []", "        let y ← (if !noMask then do\n            let b ← buildSubSet rs []", 'C90: own groups instead of those of the mask')
m('AppGfs', 'let w ← outputToMongo rnd .double jd.rm jd.att x.2 x.1.ras jd.own jd.core ("0_".toList ++ j.out) opts inc', 'let w ← outputToMongo rnd .double jd.rm jd.att x.2 x.1.ras jd.own jd.core j.out opts inc', 'C90: whole grid stored without the prefix')
m('AppGfs', 'let w ← outputToMongo rnd .double jd.rm jd.att x.2 x.1.ras jd.own jd.core ("0_".toList ++ j.out) opts inc', 'let w ← outputToMongo rnd .double jd.rm jd.att st x.1.ras jd.own jd.core ("0_".toList ++ j.out) opts inc', 'C90: groups lost when the whole grid is stored')
m('AppGfsRun', "if c.maskFmt = .sfile ∧ fileExists d.fs c.maskPath = true then do", "if c.maskFmt ≠ .sfile ∧ fileExists d.fs c.maskPath = true then do", 'C91: mask file not read')
m('AppGfsRun', "| none => return .exit 3\n    | some r => return .go (some ⟨r, []⟩)", "| none => return .go none\n    | some r => return .go (some ⟨r, []⟩)", 'C91: missing mask ignored')
m('AppGfsRun', "else if c.maskFmt = .gfs ∧ c.useMongo = true then do", "else if c.maskFmt = .gfs then do", 'C91: bucket looked at without a connection')
m('AppGfsRun', "st c.maskPath false NODATA []", "st c.maskPath true NODATA []", 'C91: mask compacted when read from the bucket (values the same)')
m('AppGfsRun', "let mask' ← prepareMask c.mode mask", "let mask' ← prepareMask .mask mask", 'C91: groups of the mask not built')
m('AppGfsRun', "js.mapIdx (fun i j => (j, dbs i))", "(js.take 1).mapIdx (fun i j => (j, dbs i))", 'C91: only the first job')
m('AppGfsRun', "if c.useMongo then runJobsDb", "if !c.useMongo then runJobsDb", 'C91: database used although not connected')
m('AppGfsRun', "      return (x.1, x.2, st)", "      return (x.1, d, st)", 'C91: files of the offline run lost')
m('AppGfsRun', "runJobsDb sys c.incNodata c.mode", "runJobsDb sys false c.mode", 'C91: NoData cells not stored')

# C93: 32-bit arithmetic
m('Int32', "      let w ← sub right left\n      let middle ← add left (Int.tdiv w 2)\n", "      let w ← add left right\n      let middle ← add 0 (Int.tdiv w 2)\n", 'C93: the binary search computes (left + right) / 2, which overflows for large rasters')
m('Int32', "    let idx ← index r.hdr.cols row col\n", "    let idx ← index row col r.hdr.cols\n", 'GetPosition multiplies row and column')
m('Int32', "      let right ← sub r.nCells 1\n", "      let right ← sub r.nCells 0\n", 'the binary search starts one past the last cell')
m('Int32', "  else do\n    let i ← index row r.hdr.cols col\n    r.readCell i lyr", "  else do\n    let i ← index col r.hdr.rows row\n    r.readCell i lyr", 'GetValue uses column-major order')
m('Int32', "  let _ ← (if r.posData.isNone then mul n 2 else .ok 0 : Out Int)", "  let _ ← (if r.posData.isNone then mul n 4 else .ok 0 : Out Int)", 'four ints per position: compaction overflows within the stated limit')
m('Int32', "  let _ ← (if r.posData.isNone then mul n 2 else .ok 0 : Out Int)", "  let _ ← (if r.posData.isNone then .ok 0 else mul n 2 : Out Int)", 'the product of the position array is not an int: the finding about 2^30 cells would be wrong')
m('Int32', "  let _ ← (if r.is2d then mul n r.nLyrs else .ok 0 : Out Int)", "  let _ ← (if r.is2d then mul (n * 2) r.nLyrs else .ok 0 : Out Int)", 'twice the cells times layers must fit')
m('Int32', "    let j ← mul lyrs i\n    let k ← add j il.2\n", "    let j ← mul (lyrs + 1) i\n    let k ← add j il.2\n", 'OutputToMongoDB addresses cells with a wrong number of layers')
m('Int32', "    let len ← mul lyrs nfull\n", "    let len ← mul 1 nfull\n", 'OutputToMongoDB allocates one layer only')
m('Int32', "  let ncols ← add b 1\n  let lp ←", "  let ncols ← add b 0\n  let lp ←", 'the local number of a cell of a subset uses one column less')
m('Int32', "      let lr ← sub (Int.tdiv p r.hdr.cols) s.srow\n", "      let lr ← add (Int.tdiv p r.hdr.cols) s.srow\n", 'the local row of a subset cell adds the first row')
m('Int32', "  let k ← chk (truncQ v)\n  return match groups.get k with", "  let k ← chk (truncQ v * 2)\n  return match groups.get k with", 'group number of a value doubled')
m('Int32', "  let k ← chk (truncQ v)\n  return match groups.get k with", "  let k ← Out.ok (truncQ v)\n  return match groups.get k with", 'a value beyond int is converted without undefined behaviour: the finding would be wrong')
m('Int32', "    let k ← chk (truncQ x)\n    match lookupI m k with\n    | some v => .ok (some v)", "    let k ← chk (truncQ x + 1)\n    match lookupI m k with\n    | some v => .ok (some v)", 'Reclassify looks up the next class')
m('Int32', "        let c ← mul j' lyrs\n", "        let c ← mul j' (lyrs + lyrs)\n", 'the array of a subset is addressed with twice the layers')
m('Int32', "            let a ← mul j lyrs\n            let k ← add a x.2.2\n", "            let a ← mul j lyrs\n            let k ← sub a x.2.2\n", 'the combined array is addressed backwards')
m('Int32', "def getDataLength (r : Raster) : Out Int :=\n  if r.nCells < 0 ∨ r.nLyrs < 0 then .ok (-1) else mul r.nCells r.nLyrs", "def getDataLength (r : Raster) : Out Int :=\n  if r.nCells < 0 ∨ r.nLyrs < 0 then .ok (-1) else mul r.nCells r.nCells", 'GetDataLength squares the number of cells')
m('Int32', "def chk (x : Int) : Out Int := if -2147483648 ≤ x ∧ x ≤ intMax then .ok x else .ub", "def chk (x : Int) : Out Int := if -2147483648 ≤ x then .ok x else .ub", 'no overflow above')

# ---- C94: SubsetPositions objects
m('SubObj', "let d ← copy1 s.nCells d\n        w.place i .data (.dbls d) : Out World)", "let _ ← copy1 s.nCells d\n        .ok (w.set i { s with alloc := true, ptr := upd (fun _ => none) .data (some a) }) : Out World)",
  'C94: a deep copy has its own data')
m('SubObj', "{ s with alloc := true, ptr := fun _ => none }", "{ s with alloc := false, ptr := fun _ => none }",
  'C94: a deep copy releases its positions (no leak)')
m('SubObj', "else .ok (create w { s with alloc := false })", "else .ok (create w s)",
  'C94: a shallow copy does not own the positions')
m('SubObj', "let w ← w.release i .data\n  let w ← w.release i .data2", "let w ← w.release i .data",
  'C94: destruction releases the layered data')
m('SubObj', "let w ← (if o.alloc then w.release i .lidx else .ok w : Out World)", "let w ← (.ok w : Out World)",
  'C94: destruction releases the local indices')
m('SubObj', "let w ← (if o.alloc then w.release i .glob else .ok w : Out World)", "let w ← w.release i .glob",
  'C94: destruction of a shallow copy keeps shared positions')
m('SubObj', "{ o with nLyrs := 1, usable := true }", "{ o with usable := true }", 'C94: SetData makes the subset one-layered')
m('SubObj', "{ o with nLyrs := 1, usable := true }", "{ o with nLyrs := 1 }", 'C94: SetData makes the subset usable')
m('SubObj', "{ o with nLyrs := lyr, usable := true }", "{ o with nLyrs := n, usable := true }", 'C94: Set2DData sets the layer count')
m('SubObj', "    let j ← readAt (some lidx) i\n    readAt (some db) j)", "    let _ ← readAt (some lidx) i\n    readAt (some db) i)",
  'C94: a full-size stored file is read through the local index')
m('SubObj', "readAt (some db) (j * m + l)", "readAt (some db) (j + m * l)", 'C94: stored full-size layers are cell-major')
m('SubObj', "else readAt (some db) (i * m + l)", "else readAt (some db) (l * n + i)", 'C94: stored layers are cell-major')
m('SubObj', "if o.nCells = dbn then setData w i dbn (some db)", "if nfull = dbn then setData w i dbn (some db)",
  'C94: a full-size one-layer file is picked by index')
m('SubObj', "if (nfull ≠ dbn ∧ o.nCells ≠ dbn) ∨ dbl < 0 then", "if (nfull ≠ dbn ∨ o.nCells ≠ dbn) ∨ dbl < 0 then",
  'C94: files of full size and of cell size are both accepted')
m('SubObj', "if o.nLyrs > 1 ∧ o.ptr .data2 ≠ none then do", "if o.nLyrs ≥ 1 ∧ o.ptr .data2 ≠ none then do",
  'C94: one-layer data is output from the one-layer array')
m('SubObj', "let v ← readAt (some r) ilyr", "let v ← readAt (some r) (ilyr - 1 : Nat)", 'C94: layer l of the output holds layer l')
m('SubObj', "if o.ptr .data = none ∧ o.ptr .data2 = none then .ok []", "if o.ptr .data = none then .ok []",
  'C94: layered data is output')
m('SubObj', "c.2.1 * (ecol - scol + 1) + c.2.2", "c.2.1 * (ecol - scol) + c.2.2", 'C94: local index = row * width + column')
m('SubObj', "with nCells := cells.length, alloc := true }", "with nCells := cells.length }", 'C94: a built subset owns its positions')
m('SubObj', "let w := w.set i { o with nLyrs := dbl }", "let w := w", 'C94: reading sets the layer count')
m('SubObj', "(w.store a (.rows d)).set i { o1 with usable := true }", "(w.store a (.rows d))", 'C94: reading makes the subset usable')
m('SubObj', "let d ← copyRows s.nCells s.nLyrs d\n      w.place i .data2 (.rows d)", "let _ ← copyRows s.nCells s.nLyrs d\n      .ok w",
  'C94: a deep copy has the layered data')
m('SubObj', "let t ← scatter (alloc1 fullsize nodata) items.flatten", "let t ← scatter (alloc1 fullsize NODATA) items.flatten",
  'C94: cells outside the subset get the given NODATA')
m('SubObj', "(o.erow - o.srow + 1) * (o.ecol - o.scol + 1)\n  let items", "(o.erow - o.srow) * (o.ecol - o.scol + 1)\n  let items",
  'C94: the output array has the size of the box')
# SetHdr (C95)
m('SetHdr', "rows := (p.rows.map truncQ).getD h.rows,", "rows := h.rows,", "SetHeader ignores the number of rows")
m('SetHdr', "cols := (p.cols.map truncQ).getD h.cols,", "cols := (p.rows.map truncQ).getD h.cols,", "SetHeader takes the columns from the rows entry")
m('SetHdr', "xll := p.xll.getD h.xll,", "xll := p.yll.getD h.xll,", "SetHeader swaps the corner coordinates")
m('SetHdr', "noData := p.noData.getD h.noData,", "noData := p.noData.getD NODATA,", "SetHeader resets NoData when there is no entry")
m('SetHdr', "layers := (p.layers.map truncQ).getD h.layers,", "layers := (p.layers.map truncQ).getD 1,", "SetHeader resets the number of layers when there is no entry")
m('SetHdr', "{ r with hdr := h, nCells := h.cellsnum, nLyrs := h.layers, noData := h.noData }", "{ r with hdr := h, nLyrs := h.layers, noData := h.noData }", "SetHeader forgets the number of cells")
m('SetHdr', "{ r with hdr := h, nCells := h.cellsnum, nLyrs := h.layers, noData := h.noData }", "{ r with hdr := h, nCells := h.cellsnum, nLyrs := h.layers }", "SetHeader forgets the NoData member")
m('SetHdr', "{ r with hdr := h, nCells := h.cellsnum, nLyrs := h.layers, noData := h.noData }", "{ r with hdr := h, nCells := h.rows * h.cols, nLyrs := h.layers, noData := h.noData }", "SetHeader takes the number of cells from rows and columns although positions are stored")
m('SetHdr', "{ r with hdr := h, nCells := h.cellsnum, nLyrs := h.layers, noData := h.noData }", "{ r with hdr := h, nCells := h.cellsnum, nLyrs := h.layers, noData := h.noData, posData := none, posIdx := none }", "SetHeader drops the positions")
m('SetHdr', "    if len ≠ r.nCells then .ok (r, false)\n    else .ok ({ r with posIdx", "    .ok ({ r with posIdx", "SetPositions accepts another number of positions")
m('SetHdr', "    if len ≠ r.nCells then .ok (r, false)\n    else .ok ({ r with posIdx", "    if len > r.nCells then .ok (r, false)\n    else .ok ({ r with posIdx", "SetPositions accepts fewer positions")
m('SetHdr', "    else .ok ({ r with posIdx := pdata, calcPos := true, storePos := false }, true)", "    else .ok ({ r with calcPos := true, storePos := false }, true)", "SetPositions keeps the old positions")
m('SetHdr', "    else .ok ({ r with posData := pdata, calcPos := true, storePos := false }, true)\n  | none => .ok ({ r with posData := pdata, calcPos := true, storePos := false }, true)", "    else .ok ({ r with posData := pdata, calcPos := true, storePos := false }, true)\n  | none => .ok (r, false)", "SetPositions refuses rows and columns on a raster without positions")
# Ftoa (C96, C97)
m('Ftoa', "let b ← gcvtS 320 x", "let b ← gcvtS 317 x", "ftoa's buffer is too small for the largest doubles")
m('Ftoa', "if s[k]? = some '0' then trimZ s k else .ok (k + 1)", "if s[k]? = some '0' then .ok k else .ok (k + 1)", "only one trailing zero is removed")
m('Ftoa', "  if '.' ∈ b then do", "  if b ≠ [] then do", "zeros are removed without looking for a point")
m('Ftoa', "    .ok (if b1.getLast? = some '.' then b1.dropLast else b1)\n  else", "    .ok b1\n  else", "the point stays in _gcvt_s (removed by ftoa: same text)")
m('Ftoa', "def micro (a : ℚ) : Nat := (roundEven (a * 10 ^ 6)).toNat", "def micro (a : ℚ) : Nat := (⌊a * 10 ^ 6⌋).toNat", "%f truncates")
m('Ftoa', "def signText (neg : Bool) : Str := if neg then ['-'] else []", "def signText (_neg : Bool) : Str := []", "the sign is lost")
m('Ftoa', "padDec 6 (micro a % 10 ^ 6)", "padDec 5 (micro a % 10 ^ 6)", "a leading zero of the decimals is lost")
m('Ftoa', "  | some w => .ok (cstr w)\n  | none => .ub", "  | some w => .ok (cstr w.dropLast)\n  | none => .ub", "the last character is lost")
m('Ftoa', "  | some w => .ok (cstr w)\n  | none => .ub", "  | some w => .ok (cstr w)\n  | none => .ok []", "invalid sequences give an empty string")
m('Ftoa', "convert (L.toNarrow (cstr s))", "convert (L.toWide (cstr s))", "wtoa uses mbstowcs")
m('Ftoa', "else .ok (if b.getLast? = some '.' then b.dropLast else b)", "else .ok b.dropLast", "ftoa cuts the last digit")
m('AppRun', "        let layers ← rest.mapM (readLayer d)\n", "        let layers ← (rest.dropLast).mapM (readLayer d)\n", 'C92/C98: last file not read')
m('AppRun', "        let layers ← rest.mapM (readLayer d)\n", "        let layers ← (s :: rest.drop 1).mapM (readLayer d)\n", 'C92/C98: first file read twice')
m('AppRun', "        let layers ← rest.mapM (readLayer d)\n", "        let layers ← rest.reverse.mapM (readLayer d)\n", 'C92/C98: layers in reverse order')
m('AppRun', "{ e.2 with nLyrs := (rest.length : Int) + 1 }", "{ e.2 with nLyrs := (rest.length : Int) + 1, usable := false }", 'C98: subsets of a raster with several layers unusable')
m('Subset', "        let v ← readAt (some c) ilyr\n        return truncQ v\n", "        let v ← readAt (some c) 0\n        return truncQ v\n", 'C98: every column looked up with the number of the first file')
m('Subset', "        let v ← readAt (some c) ilyr\n        return truncQ v\n", "        let v ← readAt (some c) ilyr\n        return truncQ v + 1\n", 'C98: key off by one')
m('Subset', "      let lyrs := if outOrigin then (if lr > 0 then lr else rs.ras.nLyrs)\n", "      let lyrs := if outOrigin then rs.ras.nLyrs\n", 'C98/C78: combined output has as many layers as the raster, not as the table')
m('AppRun', "    let x ← (if outSubset mode then do\n        let w ← outputToFile sys.env (sys.fmt j.type) d rs j.out false", "    let x ← (if outSubset mode then do\n        let w ← outputToFile sys.env (sys.fmt j.type) d rs j.out true", 'C98: DEC without table writes the layers')
m('AppRun', "          let y ← buildSubSet ⟨r1, rs.subs⟩ []\n", "          let y ← buildSubSet ⟨r1, []⟩ []\n", 'C98/C78: groups of the mask lost')
m('AppRun', "  else match ss with\n    | [] => .ok (none, mask)\n    | [s] => initFile d s calcPos mask useExt dflt", "  else match ss with\n    | [] => .ok (none, mask)\n    | [s] => initFile d s calcPos none useExt dflt", 'C77/C78: single file not masked')
m('AppRun', "      let x ← initFile d s calcPos mask useExt dflt\n      match x.1 with", "      let x ← initFile d s calcPos none useExt dflt\n      match x.1 with", 'C92/C98: several files not masked')
m('MongoLife', "    let i ← use .client h w\n    let k := new .collection (some i) w\n    return (k.2, some k.1)\n  else return (d.2, none)", "    let i ← use .client h w\n    let k := new .collection (some i) w\n    return (k.2, some k.1)\n  else do\n    let w ← destroy .database (some d.1) d.2\n    return (w, none)", 'MongoLife: the leak of GetCollection repaired (the theorem saying it leaks must fail)')
m('MongoLife', "  let i ← use .collection h w\n  let c := new .cursor (some i) w\n", "  let i ← use .collection h w\n  let c := new .cursor none w\n", 'MongoLife: cursor usable after its collection is gone')
m('MongoLife', "  let _ ← use .database h w\n  bif ok then do\n    let s := new .buffer none w\n    destroy .buffer (some s.1) s.2\n", "  let _ ← use .database h w\n  bif ok then do\n    let s := new .buffer none w\n    return s.2\n", 'MongoLife: list of collection names leaked')
m('MongoLife', "  let h ← getWrap .gridfs b w\n  let w ← destroy .gridfs h w\n  return endWrap b w", "  let h ← getWrap .gridfs b w\n  let _ ← destroy .gridfs h w\n  return endWrap b w", 'MongoLife: ~MongoGridFs does not release the handle')
m('MongoLife', "      let w2 ← destroy .buffer (some u.1) x.2\n      let y := wrap .client x.1 w2\n", "      let y := wrap .client x.1 x.2\n", 'MongoLife: the URI of the constructor is leaked')
m('MongoLife', "  match pick own g with\n  | none => return (w, none)\n  | some i => getFileIn i n w", "  match pick g own with\n  | none => return (w, none)\n  | some i => getFileIn i n w", 'MongoLife: GetFile prefers the given GridFS')
m('MongoLife', "  let q := new .bson none w\n  let _ ← use .collection h q.2\n  return q.2", "  let q := new .bson none w\n  let _ ← use .collection h q.2\n  destroy .bson (some q.1) q.2", 'MongoLife: QueryRecordsCount releases its document (the theorem saying it leaks must fail)')
m('SubObj', "    if b.two && b.size == 0 then .ub\n", "    if false then .ub\n", 'SubObj: releasing an empty two-dimensional array reads its first row')
m('SubObj', "  { usable := true, nCells := 0, nLyrs := -1, srow := srow", "  { usable := false, nCells := 0, nLyrs := -1, srow := srow", 'SubObj: new subsets unusable')
m('SubObj', "  if n < 0 then .exn else if n ≤ (l.length : Int) then .ok (l.take n.toNat) else .ub", "  if n < 0 then .exn else .ok (l.take n.toNat)", 'SubObj: copying more elements than there are accepted')
m('SubObj', "  let _ ← readAt (some r0) 0\n  let rs ← copy1 n l\n", "  let rs ← copy1 n l\n", 'SubObj: first element of the source not read')
m('SubObj', "then .ok (src.take n.toNat ++ dst.drop n.toNat) else .ub", "then .ok (src.take n.toNat ++ dst.take n.toNat) else .ub", 'SubObj: rest of the array overwritten')
m('SubObj', "then .ok (src.take n.toNat ++ dst.drop n.toNat) else .ub", "then .ok dst else .ub", 'SubObj: SetData keeps the old values')
m('SubObj', "      readAt (some db) (j * m + l)\n", "      readAt (some db) (j + l * m)\n", 'SubObj: layers of a full file read column by column')
m('TimeLocal', 'def TZ.offset (z : TZ) (t : Int) : Int := z.std + (if z.dst t then z.save else 0)', 'def TZ.offset (z : TZ) (t : Int) : Int := z.std', 'C99: wall clock without the saving')
m('TimeLocal', 'def TZ.mktimeStd (z : TZ) (tm : TM) : Int := timegm tm - z.std', 'def TZ.mktimeStd (z : TZ) (tm : TM) : Int := timegm tm + z.std', 'C99: mktime adds the offset')
m('TimeLocal', 'if utc then gmtime t else z.localtime t', 'if utc then z.localtime t else gmtime t', 'C99: GetDateTime swaps local and UTC')
m('TimeLocal', '(getDateTime z utc t).yday + 1', '(getDateTime z utc t).yday', 'C99: day of the year from 0')
m('TimeLocal', '                   isdst := 0 }\n  if utc then timegm tm else z.mktimeStd tm', '                   isdst := 0 }\n  if utc then timegm tm else timegm tm', 'C99: ConvertYMDToTime ignores utc_time')
m('TimeLocal', '      .ok (if utc then timegm tm else z.mktimeStd tm)', '      .ok (timegm tm)', 'C99: ConvertToTime ignores utc_time')
m('TimeLocal', '[0, 31, 28, 31, 30, 31, 30, 31, 31, 30, 31, 30, 31]', '[31, 28, 31, 30, 31, 30, 31, 31, 30, 31, 30, 31, 0]', 'C99: table indexed from 0 (the exact characterisation must fail)')
m('TimeLocal', '    if t.hour ≠ 0 then .ok { t with hour := t.hour - 1 }\n', '    if t.hour ≠ 0 then .ok t\n', 'C99: hour not moved back')
m('TimeLocal', '      else .ok { t with hour := 23, mday := mday }', '      else .ok { t with hour := 23 }', 'C99: day not moved back')
m('TimeLocal', '        if mon = 0 then .ok { t with hour := 23, year := t.year - 1, mon := 12, mday := 31 }', '        if mon = -1 then .ok { t with hour := 23, year := t.year - 1, mon := 11, mday := 31 }', 'C99: January handled correctly (the theorem saying it is undefined must fail)')
m('TimeLocal', 'if isLeapYear t.year then n + 1 else n', 'if isLeapYear (t.year + 1900) then n + 1 else n', 'C99: leap year of the calendar year (characterisation must fail)')
m('TimeLocal', "  strftime 11 [.Y, .lit '-', .m, .lit '-', .d] tm1", "  strftime 11 [.Y, .lit '-', .d, .lit '-', .m] tm1", 'C99: ConvertToString swaps day and month')
m('TimeLocal', '  if 0 < t.isdst then\n    if t.hour', '  if 0 ≤ t.isdst then\n    if t.hour', 'C99: correction without daylight saving')
m('TimeLocal', "tm1 with\n  | .ok s =>\n    match sscanf [.int 4, .lit '-', .int 2,", "tm1 with\n  | .ok s =>\n    match sscanf [.int 2, .lit '-', .int 2,", 'C99: GetDateInfo reads two digits of the year')

# --- definitions not mutated before ---
m('Gfs', "(o.find? (fun e => e.1 = k)).map (·.2)", "(o.find? (fun e => e.2 = k)).map (·.2)", "an option is looked up by its key")
m('Gfs', "o.map (fun e => if e.1 = k then (k, v) else e) else o ++ [(k, v)]", "o else o ++ [(k, v)]", "setting an option replaces its old value")
m('Gfs', "    if k.contains '.' then none else f.info.find k", "    none", "files are found by their metadata")
m('Gfs', "  | some x, some y => decide (x = y)", "  | some _, some _ => true", "numeric options are compared by value")
m('Gfs', "  appendOptions [(\"filename\".toList, .utf8 (cstr name))] opts metaPrefix", "  appendOptions [] opts metaPrefix", "files are found by name")
m('Gfs', "  | some f => return if rd then some f.data else none", "  | some f => return some f.data", "a failing read of the stream is reported")
m('Gfs', "  return (removeLoop rm flt 0 st, true)", "  return (st, true)", "the old file is removed before writing")
m('Gfs', "    return (cstr k, b) :: d", "    return d", "the header is stored with the file")
m('Gfs', "  else if dst = .float then .ok (rnd v)", "  else if dst = .float then .ok v", "conversion to float rounds")
m('Gfs', "    return cs.flatMap (encode opt)", "    return cs.flatMap (encode T)", "the stored cells have the type asked for")
m('Gfs', "  else if count > 0 ∧ (bytes.length : Int) / count = size ty then do", "  else if count > 0 then do", "a file of another size than the header says is not read")
m('Gfs', "    let cs ← (decodeAll ty count.toNat bytes).mapM (conv rnd ty T)", "    let cs ← (decodeAll T count.toNat bytes).mapM (conv rnd T T)", "the cells are decoded in the stored type")
m('Gfs', "(kNoData, .fin h.noData), (kRows, .fin h.rows), (kXll, .fin h.xll), (kYll, .fin h.yll) ]", "(kNoData, .fin h.noData), (kRows, .fin h.rows), (kXll, .fin h.yll), (kYll, .fin h.xll) ]", "the corner of the grid is stored")
m('Gfs', "  Opts.set o2 kIncNodata (if inc then \"TRUE\".toList else \"FALSE\".toList)", "  Opts.set o2 kIncNodata \"TRUE\".toList", "files without NoData cells are marked")
m('Gfs', "    | some s => if stringMatch \"Unknown\".toList s then Opts.set o1 kTypeOut (rdtToString T.code) else o1", "    | some _ => o1", "an unknown output type is replaced by the type of the raster")
m('Gfs', "(if name = [] then core else name) (headerMap s.hdr) s.data s.len o", "core (headerMap s.hdr) s.data s.len o", "the raster is stored under the name given")
m('Gfs', "(headerMap s.hdr) s.data s.len o", "(headerMap r.hdr) s.data s.len o", "the stored number of cells is that of the data")
m('Gfs', "if (Opts.get opts kIncNodata).isNone then opts ++ [(kIncNodata, \"TRUE\".toList)] else opts", "opts", "by default files with all cells are looked for")
m('Mask', "      if calcPos then ⟨false, !matchExactly, !matchExactly, false, true⟩ else ⟨false, false, true, false, true⟩", "      if calcPos then ⟨false, !matchExactly, !matchExactly, false, true⟩ else ⟨true, false, true, false, true⟩", "flags within the extent of the mask")
m('Mask', "      if calcPos then ⟨true, true, true, false, true⟩ else ⟨true, false, true, true, false⟩", "      if calcPos then ⟨true, true, true, false, true⟩ else ⟨true, false, true, true, true⟩", "without positions the raster does not calculate them later")
m('Mask', "  else { r with raster1 := if cells = [] then none else some (cells.map (fun c => c.headD 0)) }", "  else { r with raster1 := r.raster1 }", "the masked cells become the data")
m('Mask', "      if r.useMaskExt then .ok none", "      if !r.useMaskExt then .ok none", "SetUseMaskExt acts once")
m('Mask', "        let x ← maskRaster { r with useMaskExt := true } m", "        let x ← maskRaster r m", "SetUseMaskExt uses the extent of the mask")
m('Raster', "  if !r.validData || !r.validIndex idx || !r.validLayer lyr then .ok r.noData\n  else r.readCell idx lyr", "  if !r.validData || !r.validIndex idx then .ok r.noData\n  else r.readCell idx lyr", "an invalid layer gives NoData")
m('Raster', "  return floatEqual v r.noData", "  return !floatEqual v r.noData", "IsNoData")
m('Raster', "    raster2 := data, noData := nodata, nCells := cols * rows, nLyrs := nlayers,", "    raster2 := data, noData := nodata, nCells := cols * rows, nLyrs := 1,", "the number of layers given")
m('Raster', "  | some l => if vals.length ≤ l.length then .ok (some (vals ++ l.drop vals.length)) else .ub", "  | some l => if vals.length ≤ l.length then .ok (some l) else .ub", "positions are stored in an array set before")
m('Raster', "    .ok ({ r with nCells := n, hdr := { r.hdr with cellsnum := n } }, 0)", "    .ok ({ r with hdr := { r.hdr with cellsnum := n } }, 0)", "the number of cells of a raster without positions")
m('Raster', "  else if r.calcPos && (r.posData.isSome || r.posIdx.isSome) then .ok (r, false)", "  else if r.calcPos then .ok (r, false)", "positions asked for late are calculated")
m('Raster', "    let (r', code) ← ({ r with calcPos := true } : Raster).calcNoMask", "    let (r', code) ← (r : Raster).calcNoMask", "SetCalcPositions switches the positions on")
m('Raster', "    raster2 := some values, hdr := { m2.hdr with layers := lyrs }, noData := m2.noData })", "    raster2 := some values, hdr := m2.hdr, noData := m2.noData })", "the header has the number of layers")
m('Read', "    hdr := h, raster1 := some data, noData := h.noData, nLyrs := 1, calcPos := calcPos,", "    hdr := h, raster1 := some data, noData := NODATA, nLyrs := 1, calcPos := calcPos,", "the NoData value of the file")
m('Read', "    hdr := h, raster2 := some data, noData := h.noData, nLyrs := h.layers, nCells := h.rows * h.cols, calcPos := calcPos,", "    hdr := h, raster2 := some data, noData := h.noData, nLyrs := 1, nCells := h.rows * h.cols, calcPos := calcPos,", "all layers of the stored file")
m('Read', "    posIdx := some (ps.map (fun rc => rc.1 * h.cols + rc.2)),", "    posIdx := some (ps.map (fun rc => rc.1 * h.rows + rc.2)),", "indexes of the positions of a file without NoData cells")
m('GfsMask', "if !inc && (pd.isNone || pi.isNone) then return (none, m2)", "if false then return (none, m2)", "a file without NoData cells needs positions")
m('GfsMask', "      else if !inc then return (none, mask)", "      else if false then return (none, mask)", "a file without NoData cells that does not fit the mask is not read")
m('GfsMask', "      let cp := calcPos || decide (hdr.cellsnum ≠ full)", "      let cp := calcPos", "a file without NoData cells has positions")
m('GfsMask', "    if inc && decide (hdr.cellsnum ≠ full) then return (none, mask)", "    if false then return (none, mask)", "a file that should have all cells and has not is refused")
m('Subset', "  { usable := true, nCells := 0, nLyrs := -1, srow := srow, erow := erow, scol := scol, ecol := ecol,", "  { usable := true, nCells := 0, nLyrs := -1, srow := srow, erow := erow, scol := ecol, ecol := scol,", "rectangle of a subset")
m('Subset', "  else if outOrigin && decide (lyrs = 1) && r.raster1.isSome then do\n    let v ← readAt r.raster1 gidx", "  else if outOrigin && decide (lyrs = 1) && r.raster1.isSome then do\n    let v ← readAt r.raster1 vi", "values of a subset come from its own cells")
m('Subset', "    if !e.2.usable then some n\n    else if !(e.2.data.isSome", "    if false then some n\n    else if !(e.2.data.isSome", "subsets not in use are skipped when combining")
m('Subset', "    else if e.2.nLyrs ≠ n then none else some n", "    else some n", "subsets with different numbers of layers are refused")
m('Subset', "  else if useDefault then return some dflt", "  else if false then return some dflt", "the default value for subsets without data")
m('Subset', "    return subs.set f.1 x.1", "    return subs", "a file of a subset is loaded into it")
m('Stats', "    minLoop a is (if v < m then v else m)", "    minLoop a is (if v > m then v else m)", "the minimum")
m('Stats', "  maxLoop a (List.range' 1 (n - 1).toNat) m", "  maxLoop a (List.range' 1 (n - 2).toNat) m", "the maximum of all")
m('Stats', "    | some m => (v - m) * (v - m)", "    | some m => (v - m)", "squared deviation")
m('Stats', "  if floatEqual v ex then 0 else\n    match mean with", "  if false then 0 else\n    match mean with", "NoData does not count in the deviation")
m('Time', "  let n100 := min (r / 36524) 3", "  let n100 := r / 36524", "last day of 400 years")
m('Time', "  let n1 := min (r2 / 365) 3", "  let n1 := r2 / 365", "last day of a leap year")
m('Time', "  | .m => twoDigits (t.mon + 1)", "  | .m => twoDigits t.mon", "month in texts")
m('Time', "  let lim := if w = 0 then sg.2.2.length else w - sg.2.1", "  let lim := if w = 0 then sg.2.2.length else w", "a sign counts for the width")
m('Time', "    | d :: rest => if c = d then sscanf fs rest else []", "    | _ :: rest => sscanf fs rest", "literal characters have to match")
m('RasterLife', "  let w ← freeSubs w i o.subs\n  modify w i (fun o => { o with subs := [] })", "  modify w i (fun o => { o with subs := [] })", "subsets are released")
m('RasterLife', "    let w ← free w i .ras2\n    alloc2 w i .ras2 o.cells", "    alloc2 w i .ras2 o.cells", "old data are freed")
m('RasterLife', "    let w ← modify w i (fun o => { o with calcPos := true, store := false })\n    return (w, true)", "    let w ← modify w i (fun o => { o with calcPos := true })\n    return (w, true)", "positions set by the user are not owned")
m('RasterLife', "    let w ← alloc1 w i (.sub e.1 .lidx) e.2\n", "", "subsets have their indexes")
m('RasterLife', "    let w ← put w i (.stat n) .one\n    putStats w i l", "    putStats w i l", "statistics are stored")
m('RasterLife', "  let w ← copyClear w i\n  let oj ← w.get j", "  let oj ← w.get j", "assignment frees the old members")
# --- batch 26: definitions not edited before
m('AppMain', "let c' : Cfg := { c with maskFmt := r.2.1, maskPath := p }", "let c' : Cfg := { c with maskPath := p }", "the mask's format is remembered")
m('AppMain', "let c2 : Cfg := { c1 with outPaths := c.outPaths ++ [p], outFmts := c.outFmts ++ [r.2.1] }", "let c2 : Cfg := { c1 with outPaths := [p] ++ c.outPaths, outFmts := c.outFmts ++ [r.2.1] }", "outputs keep their order")
m('AppMain', "  match fieldOf item 5 with\n  | none => (false, [])", "  match fieldOf item 4 with\n  | none => (false, [])", "the table is the sixth field")
m('AppMain', "def numOr (s : Str) : DVal := if (isDouble s).2 then (isDouble s).1 else .fin (-9999)", "def numOr (s : Str) : DVal := if (isDouble s).2 then (isDouble s).1 else .fin 0", "an unreadable default is -9999")
m('AppMain', "      | .go c' => return .go (x.2.foldl (putItem w) c')", "      | .go c' => return .go (x.2.reverse.foldl (putItem w) c')", "items are taken in order")
m('App', "  | t :: ts => if (isDouble t).2 then (isDouble t).1 :: kvValues ts else []", "  | t :: ts => if (isDouble t).2 then (isDouble t).1 :: kvValues ts else kvValues ts", "values stop at the first non-number")
m('App', "    if es = [] then (false, kv) else es.foldl kvEntry (true, kv)", "    if es = [] then (false, kv) else es.foldl kvEntry (true, [])", "the table is added to")
m('FileOut', "    if stringMatch (getPathFromFullName d.fs abs) [] then .ok (false, d)\n    else gdalFiles env fmt r abs none (List.range r.nLyrs.toNat) d", "    gdalFiles env fmt r abs none (List.range r.nLyrs.toNat) d", "no directory, no files")
m('FileOut', "else gdalFiles env fmt r abs none (List.range r.nLyrs.toNat) d", "else gdalFiles env fmt r abs none (List.range (r.nLyrs.toNat - 1)) d", "every layer gets a file")
m('FileOut', "def ascInit : AscHeader := ⟨-1, -1, .fin NODATA, .fin NODATA, .fin NODATA, .fin NODATA, -1, -1⟩", "def ascInit : AscHeader := ⟨-1, -1, .fin NODATA, .fin NODATA, .fin 1, .fin NODATA, -1, -1⟩", "a header without cellsize is refused")
m('Output', "  | none => alloc1 n v\n", "  | none => alloc1 n 0\n", "fill is the NoData value")
m('Output', "  else ascScanRows pos (fun i => r.readCell i (lyr + 1)) fill r.nCells 0 (rowCells r.hdr.rows r.hdr.cols)", "  else ascScanRows pos (fun i => r.readCell i 1) fill r.nCells 0 (rowCells r.hdr.rows r.hdr.cols)", "each layer's file holds that layer")
m('Output', "      row.mapM (fun rc => r.readCell (rc.1 * r.hdr.cols + rc.2) (lyr + 1)))", "      row.mapM (fun rc => r.readCell (rc.2 * r.hdr.cols + rc.1) (lyr + 1)))", "row major order")
m('Subset', "  if n ≠ s.nCells then .ok (s, false)\n  else match data with\n    | none => .ok (s, false)\n    | some l =>\n      if (l.length : Int) ≠ s.nCells ∨ l.any", "  match data with\n    | none => .ok (s, false)\n    | some l =>\n      if (l.length : Int) ≠ s.nCells ∨ l.any", "a wrong count is refused")
m('Subset', "        | none => if s.nCells ≤ 0 ∨ lyr ≤ 0 then .ub\n            else .ok ({ s with nLyrs := lyr, usable := true, data2d := some l }, true)", "        | none => if s.nCells ≤ 0 ∨ lyr ≤ 0 then .ub\n            else .ok ({ s with usable := true, data2d := some l }, true)", "the layer count is stored")
m('Subset', "| some n => if n < 0 then some (e.2.length : Int) else if n ≠ (e.2.length : Int) then none else some n) (some (-1))", "| some n => if n < 0 then some (e.2.length : Int) else some n) (some (-1))", "entries with differing counts are refused")
m('Subset', "    | none => .ok none\n    | some it => do\n      let rest ← collectItems f bs\n      return rest.map (it :: ·)", "    | none => collectItems f bs\n    | some it => do\n      let rest ← collectItems f bs\n      return rest.map (it :: ·)", "a refusal stops the preparation")
m('Raster', "  if r.posIdx.isSome then .ok (r, r.nCells, r.posIdx)\n  else if !r.validData then .ok (r, -1, none)", "  if !r.validData then .ok (r, -1, none)", "stored positions are returned")
m('Raster', "    return (r', r'.nCells, r'.posData)", "    return (r', r.nCells, r'.posData)", "count of fresh positions")
m('Raster', "    let x ← r.readCell il.1 (il.2 + 1)\n    let y ← f x", "    let x ← r.readCell il.1 1\n    let y ← f x", "each layer replaced by itself")
m('Mask', "if !mask.calcPos then do let x ← mask.setCalcPositions; return x.1 else .ok mask", "if mask.calcPos then do let x ← mask.setCalcPositions; return x.1 else .ok mask", "mask positions computed")
m('Mask', "    let a ← maskLoop m.hdr ps ⟨r, [], -1, m.hdr.rows, -1, m.hdr.cols, 0, 0⟩", "    let a ← maskLoop m.hdr ps ⟨r, [], -1, m.hdr.rows, -1, m.hdr.rows, 0, 0⟩", "minimum column starts high")
m('Mask', "    if a.masked = 0 then .ok ⟨a.ras, m, -1, true, ps, false, false⟩", "    if a.masked = 0 then .ok ⟨a.ras, m, 0, true, ps, false, false⟩", "no overlap is an error")
m('Gfs', "    | none => findLoop ok st flt (count + 1) n", "    | none => findLoop ok st flt count n", "each attempt is a new one")
m('Gfs', "layers := lyrs, cellsnum := n }", "layers := n, cellsnum := n }", "header fields read from metadata")
m('Read', "  { ofFile h data calcPos useMaskExt dflt with nCells := h.rows * h.cols }", "  { ofFile h data calcPos useMaskExt dflt with nCells := h.cellsnum }", "a one-layer store is a full grid")
m('Geotiff', "  if src = .uint32 ∧ (out = .int8 ∨ out = .int16 ∨ out = .int32) then (lo out + 2 ^ 32 : Int)", "  if src = .uint32 ∧ (out = .int8 ∨ out = .int16) then (lo out + 2 ^ 32 : Int)", "unsigned comparisons")
m('Geotiff', "decide (old < dblOfInt (lo out)) || decide (dblOfInt (hi out) < old)", "decide (old < dblOfInt (lo out)) || decide (dblOfInt (hi out) ≤ old)", "NoData at the limit is kept")
m('Geotiff', "  | v :: vs => (vs.foldl min v, vs.foldl max v)", "  | v :: vs => (vs.foldl min v, vs.foldl max 0)", "GDAL's maximum")
m('Fs', "    else if c = ['.', '.'] then fs.walk cur.dropLast cs", "    else if c = ['.', '.'] then fs.walk cur cs", "dot-dot goes up")
m('Fs', "if p = [] ∨ fs.deny p = true ∨ (fs.kindOf p = some .dir ∧ fs.names p ≠ []) then (false, fs)", "if p = [] ∨ fs.deny p = true then (false, fs)", "non-empty directories stay")
m('Fs', "(fs.kindOf (q ++ [n])).isSome ∨ fs.deny (q ++ [n]) = true then (false, fs)", "fs.deny (q ++ [n]) = true then (false, fs)", "an existing name is refused")
m('Fs', "    | some i => i\n  substr abs start (if en ≥ start then en - start else abs.length)", "    | some i => i + 1\n  substr abs start (if en ≥ start then en - start else abs.length)", "core name has no dot")
m('Time', "  else if yd < 151 + l then 5 else if yd < 181 + l then 6", "  else if yd < 151 + l then 5 else if yd < 182 + l then 6", "June has 30 days")
m('Str', "    | none => if p c then none else some 0", "    | none => some 0", "trailing blanks trimmed")

# run 27: skip of existing outputs (C101), and definitions not yet edited
m('AppRun', "      let d' ← writeJob sys mode j rs2 st.1\n      return (d', x.2)", "      let d' ← (if fileExists st.1.fs j.out then .ok st.1 else writeJob sys mode j rs2 st.1 : Out Disk)\n      return (d', x.2)", 'C101: a job whose output exists is skipped, also if it was left torn')
m('AppRun', "  if j.outFmt = .sfile then do\n    let w ← outputToFile sys.env (sys.fmt j.type) st.1 m2 j.out false", "  if j.outFmt = .sfile ∧ fileExists st.1.fs j.out = false then do\n    let w ← outputToFile sys.env (sys.fmt j.type) st.1 m2 j.out false", 'C101, C79: the mode COM skips a job if a file with the name of its output exists')
m('AppMain', "  | a :: rest => if isOpt a then (a, rest.takeWhile (fun x => !isOpt x)) :: groups rest else groups rest", "  | a :: rest => if isOpt a then (a, (rest.takeWhile (fun x => !isOpt x)).take 1) :: groups rest else groups rest", 'C67, C76: only the first word after an option is kept')
m('AppMain', "if a.toNat < b.toNat then true else if b.toNat < a.toNat then false else strLt s t", "if a.toNat < b.toNat then true else strLt s t", 'C76: the order of the settings is not that of std::map')
m('AppMain', "    | .ok (.exit n) => .ok (.exit n)\n    | .ub => .ub\n    | .exn => .exn", "    | .ok (.exit _) => tags w c m\n    | .ub => .ub\n    | .exn => .exn", 'C76: a bad setting does not end the program')
m('AppMain', "def orOne {α : Type} (l : List α) (x : α) : List α := if l = [] then [x] else l", "def orOne {α : Type} (l : List α) (x : α) : List α := l ++ [x]", 'C76: a default value is appended to the values given')
m('AppMain', "def fieldOf (item : List Str) (i : Nat) : Option Str := item[i]?", "def fieldOf (item : List Str) (i : Nat) : Option Str := item[i + 1]?", 'C76: the fields of a data item are shifted')
m('Fs', "  | x :: s => match findLastOf c s with\n    | some i => some (i + 1)\n    | none => if x = c then some 0 else none", "  | x :: s => if x = c then some 0 else (findLastOf c s).map (· + 1)", 'C52: the first separator is found, not the last')
m('Fs', "concatFullName fs (getPathFromFullName fs s) (prestr ++ deli :: getCoreFileName fs s) (getSuffix fs s)", "concatFullName fs (getPathFromFullName fs s) (getCoreFileName fs s ++ deli :: prestr) (getSuffix fs s)", 'C53: the prefix is put behind the name')
m('Fs', "fs.entries.filterMap (fun e => if e.1.dropLast = p then e.1.getLast? else none)", "fs.entries.filterMap (fun e => if p.isPrefixOf e.1 then e.1.getLast? else none)", 'C56: readdir returns the names of all descendants')
m('Bson', "def atoi (s : Str) : Int := wrapInt32 (strtol s).1", "def atoi (s : Str) : Int := (strtol s).1", 'C30: numbers beyond 32 bits do not wrap')
m('Bson', "def dvalIsZero : DVal → Bool\n  | .fin q => floatEqual q 0\n  | _ => false", "def dvalIsZero : DVal → Bool\n  | .fin q => floatEqual q 0\n  | _ => true", 'C30: NaN and infinities count as zero')
m('Asc', "  | _ :: t :: _ => if (isDouble t).2 then some (isDouble t).1 else none\n  | _ => none", "  | _ :: t :: _ => some (isDouble t).1\n  | _ => none", 'C09: a header value that is no number is accepted')
m('Asc', "  | _ :: t :: _ => if (isInt t).2 then some (isInt t).1 else none\n  | _ => none", "  | _ :: t :: _ => some (isInt t).1\n  | _ => none", 'C09: a number of rows that is no number is accepted')
m('Asc', "  | .fin a => floatEqual a (-fltMax)\n  | _ => false", "  | .fin a => floatEqual a (-9999)\n  | _ => false", 'C09: -9999 as coordinate counts as missing')
m('Subset', "  | it :: items => do\n    let p' ← writeAt p it.1 it.2\n    scatter p' items", "  | it :: items => do\n    let p' ← scatter p items\n    writeAt p' it.1 it.2", 'C15: pieces written in reverse order')
m('Gfs', "if -(2 ^ 31) ≤ truncQ q ∧ truncQ q < 2 ^ 31 then .ok (truncQ q) else .ub", ".ok (truncQ q)", 'C28: a number of rows beyond int is read as it is')
m('Gfs', "def Opts.copyInto (src dst : Opts) : Opts := src.foldl (fun d kv => Opts.set d kv.1 kv.2) dst", "def Opts.copyInto (src dst : Opts) : Opts := dst ++ src", 'C28: given options do not replace those of the object')
m('Gfs', "  | .int32 i => some (.fin i)\n  | .int64 i => some (.fin i)\n  | .double d => some d\n  | _ => none", "  | .int32 i => some (.fin i)\n  | .double d => some d\n  | _ => none", 'C28: 64 bit integers in the metadata are not numbers')
m('Gfs', "def initialHeader : HMap := fun k => if k ∈ headerKeys then some (.fin NODATA) else none", "def initialHeader : HMap := fun k => if k ∈ headerKeys then some (.fin 0) else none", 'C28: keys missing in the metadata count as 0 instead of NoData')
m('Time', "def getYear (t : Int) : Int := (gmtime t).year + 1900", "def getYear (t : Int) : Int := (gmtime t).year", 'C47: the year counts from 1900')
m('Time', "def getDay (t : Int) : Int := (gmtime t).mday", "def getDay (t : Int) : Int := (gmtime t).mday - 1", 'C47: the day of the month counts from 0')
m('Time', "  julianDay ((gmtime t).year + 1900) ((gmtime t).mon + 1) (gmtime t).mday", "  julianDay ((gmtime t).year + 1900) (gmtime t).mon (gmtime t).mday", 'C47: month of the Julian day counts from 0')
m('TimeLocal', "  julianDay ((getDateTime z utc t).year + 1900) ((getDateTime z utc t).mon + 1) (getDateTime z utc t).mday", "  julianDay ((getDateTime z true t).year + 1900) ((getDateTime z true t).mon + 1) (getDateTime z true t).mday", 'C99: the Julian day ignores the time zone')
m('Copy', "    if n < 0 then .ok none else if n ≤ ((x :: s).length : Int) then .ok (some ((x :: s).take n.toNat)) else .ub", "    if n < 0 then .ok none else .ok (some ((x :: s).take n.toNat))", 'C34: positions read beyond the array are not undefined')
m('RasterLife', "  let w ← bif full then modify w i (fun o => { o with cells := s.full }) else .ok w\n  bif full && s.same then .ok w else renewData w i", "  let w ← bif full then modify w i (fun o => { o with cells := s.full }) else .ok w\n  bif full then .ok w else renewData w i", 'C80: the data arrays keep their old size after masking with all cells')
m('MongoLife', "  | some o => if o.kind = k && o.alive then .ok o.h else .ub\n  | none => .ub", "  | some o => if o.kind = k then .ok o.h else .ub\n  | none => .ub", 'C82: a wrapper used after its end is not undefined')
m('MongoLife', "  | some o => { w with wraps := w.wraps.set i { o with alive := false } }\n  | none => w", "  | some o => w\n  | none => w", 'C82: the destructor does not end the wrapper')
m('NanCells', "  | .inf s, .inf t => if s = t then .nan else .inf s", "  | .inf s, .inf t => if s = t then .fin 0 else .inf s", 'C89: inf - inf is 0')
m('NanCells', "⟨a.num, mean, a.mx, a.mn, sqrt (divN sq a.num), sub a.mx a.mn⟩", "⟨a.num, mean, a.mx, a.mn, sqrt (divN sq a.num), sub a.mn a.mx⟩", 'C89: the range has the wrong sign')
m('Stats', "    threadSum f is (acc + v)", "    threadSum f is v", 'C19: a thread keeps only its last summand')
m('Int32', "    if floatEqual (vs.headD 0) r.noData then return rest else return (rc, vs) :: rest", "    if floatEqual (vs.getLastD 0) r.noData then return rest else return (rc, vs) :: rest", 'C93: the last layer decides which cells are valid')
m('Int32', "    if r.posData.isNone || r.posIdx.isNone then do", "    if r.posData.isNone && r.posIdx.isNone then do", 'C93: half-computed positions are kept')
m('Geotiff', "  if isIntT src then .ok (lo out + (⌊v⌋ - lo out) % (hi out - lo out + 1))", "  if isIntT src then .ok (max (lo out) (min (hi out) ⌊v⌋))", 'C24: integers out of range are clamped instead of wrapped')
m('Output', "  ascHeaderText h ++ rows.flatMap (ascRowText pr)", "  ascHeaderText h ++ rows.reverse.flatMap (ascRowText pr)", 'C08: the rows are written from below')
