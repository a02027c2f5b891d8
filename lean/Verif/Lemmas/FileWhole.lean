import Verif.Lemmas.FileOut
import Verif.Props.Output
import Verif.Lemmas.RasterHist
/-!
# Lemmas: writing a whole raster to files
-/
namespace CCGL
namespace Disk
open Fs Fs.Spec Disk.Spec CCGL.Spec

theorem join_snoc (c : Char) : ∀ (ls : List Str), ls ≠ [] → join c ls ++ [c] = join c (ls ++ [[]])
  | [], h => absurd rfl h
  | [a], _ => by simp [join]
  | a :: b :: ls, _ => by
    have := join_snoc c (b :: ls) (by simp)
    have e1 : join c (a :: b :: ls) = a ++ c :: join c (b :: ls) := rfl
    have e2 : join c ((a :: b :: ls) ++ [[]]) = a ++ c :: join c ((b :: ls) ++ [[]]) := rfl
    rw [e1, e2, ← this]
    simp

/-- A blank line at the end of a text is not read. -/
theorem load_nl (s : Str) : loadPlainTextFile (some (s ++ nl)) [] = loadPlainTextFile (some s) [] := by
  obtain ⟨ls, hne, hd, rfl⟩ := fileLines_total s
  unfold nl
  rw [join_snoc _ _ hne]
  unfold loadPlainTextFile
  dsimp only
  rw [fileLines_join ls hne hd, fileLines_join (ls ++ [[]]) (by simp) (by
    intro l hl
    rcases List.mem_append.1 hl with h | h
    · exact hd l h
    · rw [List.mem_singleton.1 h]; simp), List.filterMap_append]
  have : (List.filterMap (fun l =>
      let t := trim l
      if !t.isEmpty && t.head? ≠ some '#' then some t else none) [[]] : List Str) = [] := by decide
  rw [this, List.append_nil]

theorem readAsc_nl {τ : Type} (cast : DVal → τ) (s : Str) (hdr : AscHeader) (v : Ptr τ) :
    readAsc cast (some (s ++ nl)) hdr v = readAsc cast (some s) hdr v := by
  unfold readAsc
  rw [load_nl]

/-- The grid as a list. -/
def listOf (h : Header) (g : Int → Int → ℚ) : List ℚ :=
  (List.range (h.rows * h.cols).toNat).map (fun (k : Nat) => g ((k : Int) / h.cols) ((k : Int) % h.cols))

theorem listOf_array {h : Header} (hr : 0 ≤ h.rows) (hc : 0 ≤ h.cols) (g) : IsFullArray h (some (listOf h g)) g := by
  refine ⟨_, rfl, ?_, ?_⟩
  · unfold listOf
    rw [List.length_map, List.length_range, Int.toNat_of_nonneg (mul_nonneg hr hc)]
  · intro row col h1 h2 h3 h4
    have hi := idx_range h1 h2 h3 h4
    unfold listOf
    rw [List.getElem?_map, List.getElem?_range (by omega), Option.map_some, Int.toNat_of_nonneg hi.1]
    have hc0 : h.cols ≠ 0 := by omega
    rw [add_comm (row * h.cols) col, Int.add_mul_ediv_right _ _ hc0, Int.add_mul_emod_self_right, Int.ediv_eq_zero_of_lt h3 h4, Int.emod_eq_of_lt h3 h4]
    simp

/-- The text of a grid, and that of `WriteSingleAsc` for the same values. -/
theorem writeAsc_grid (pr : ℚ → Str) {h : Header} {l : List ℚ} {g} (ha : IsFullArray h (some l) g) :
    writeAsc pr h (some l) = .ok (gridFile pr h g ++ nl) := by
  obtain ⟨l', e, hl, hg⟩ := ha
  injection e with e
  subst e
  unfold writeAsc
  rw [Raster.mapM_ok (g := fun (i : Nat) => ascRowText pr ((List.range h.cols.toNat).map (fun (j : Nat) => g i j)))]
  · simp only [Out.ok_bind, Out.pure_eq]
    unfold gridFile
    rw [← List.flatMap_def]
    congr 4
    funext i
    unfold ascRowText nl
    rw [List.flatMap_map]
  · intro i hi
    have hi := List.mem_range.1 hi
    have : ascRow (some l) h.cols i = .ok ((List.range h.cols.toNat).map (fun (j : Nat) => g i j)) := by
      unfold ascRow
      apply Raster.mapM_ok
      intro j hj
      have hj := List.mem_range.1 hj
      have h1 : (i : Int) < h.rows := by omega
      have h2 : (j : Int) < h.cols := by omega
      have hix := idx_range (by omega : (0:Int) ≤ i) h1 (by omega : (0:Int) ≤ j) h2
      have hgv := hg i j (by omega) h1 (by omega) h2
      obtain ⟨k, ek⟩ := Int.eq_ofNat_of_zero_le hix.1
      rw [ek] at hgv ⊢
      rw [Int.toNat_natCast] at hgv
      obtain ⟨hk, hv⟩ := List.getElem?_eq_some_iff.1 hgv
      rw [readAt_some_nat _ _ hk, hv]
    rw [this]; rfl

theorem array_values {h : Header} (hc : 0 < h.cols) {l : List ℚ} {g} (ha : IsFullArray h (some l) g) {v : ℚ} (hv : v ∈ l) :
    ∃ row col, 0 ≤ row ∧ row < h.rows ∧ 0 ≤ col ∧ col < h.cols ∧ v = g row col := by
  obtain ⟨l', e, hl, hg⟩ := ha
  injection e with e
  subst e
  obtain ⟨i, hi, rfl⟩ := List.getElem_of_mem hv
  have hp : 0 < h.rows * h.cols := by omega
  · have hiN : (i : Int) < h.rows * h.cols := by omega
    have a1 : (i : Int) / h.cols < h.rows := Int.ediv_lt_of_lt_mul hc hiN
    have a0 : 0 ≤ (i : Int) / h.cols := Int.ediv_nonneg (by omega) hc.le
    have b0 := Int.emod_nonneg (i : Int) (by omega : h.cols ≠ 0)
    have b1 := Int.emod_lt_of_pos (i : Int) hc
    refine ⟨(i : Int) / h.cols, (i : Int) % h.cols, a0, a1, b0, b1, ?_⟩
    have := hg _ _ a0 a1 b0 b1
    rw [Int.ediv_mul_add_emod, Int.toNat_natCast, List.getElem?_eq_getElem hi] at this
    injection this

theorem readsAs_congr {d : Disk} {s : Str} {h h' : Header} {v w : Int → Int → ℚ} (hr : ReadsAs d s h v) (e1 : h'.rows = h.rows) (e2 : h'.cols = h.cols)
    (e3 : h'.cellsize = h.cellsize) (e4 : h'.xll = h.xll) (e5 : h'.yll = h.yll) (e6 : h'.noData = h.noData)
    (hv : ∀ row col, 0 ≤ row → row < h.rows → 0 ≤ col → col < h.cols → w row col = v row col) : ReadsAs d s h' w := by
  intro cp df hc
  obtain ⟨r', a0, a1, a2, a3, a4, a5, a6, a7, a9, a8⟩ := hr cp df (by
    intro hcp
    obtain ⟨row, col, b1, b2, b3, b4, b5⟩ := hc hcp
    rw [e1] at b2; rw [e2] at b4
    exact ⟨row, col, b1, b2, b3, b4, by rw [← hv row col b1 b2 b3 b4, ← e6]; exact b5⟩)
  refine ⟨r', a0, by rw [a1, e1], by rw [a2, e2], by rw [a3, e3], by rw [a4, e4], by rw [a5, e5], by rw [a6, e6], a7, by rw [e1, e2]; exact a9, ?_⟩
  intro row col b1 b2 b3 b4
  rw [e1] at b2; rw [e2] at b4
  rw [a8 row col b1 b2 b3 b4, hv row col b1 b2 b3 b4, e6]

theorem array_getD {h : Header} {l : List ℚ} {g} (ha : IsFullArray h (some l) g) (row col : Int) (h1 : 0 ≤ row) (h2 : row < h.rows) (h3 : 0 ≤ col)
    (h4 : col < h.cols) : g row col = l.getD (row * h.cols + col).toNat 0 := by
  obtain ⟨l', e, hl, hg⟩ := ha
  injection e with e
  subst e
  rw [List.getD_eq_getElem?_getD, hg row col h1 h2 h3 h4]
  rfl

/-- Reading a file with the text of `OutputAscFile`. -/
theorem reads_asc {fmt : Fmt} {d : Disk} {p : Path} {dt core suf : Str} (hn : NameIn d.fs p dt core suf) (hsuf : IsAscSuffix suf)
    {h : Header} {g : Int → Int → ℚ} (hch : CarriesHeader suf h)
    (hcv : ∀ row col, 0 ≤ row → row < h.rows → 0 ≤ col → col < h.cols → CarriesValue fmt suf (g row col)) (hcn : CarriesValue fmt suf h.noData)
    (hty : IsTifSuffix suf → SameType fmt) (hf : d.fs.kindOf (p ++ [core ++ '.' :: suf]) = some .file)
    (hd : d.data (p ++ [core ++ '.' :: suf]) = some (.asc (gridFile fmt.pr h g))) : ReadsAs d (dt ++ core ++ '.' :: suf) h g := by
  have ha := listOf_array hch.1.le hch.2.1.le g
  have hlen : ((listOf h g).length : Int) = h.rows * h.cols := by
    obtain ⟨l', e, hl, -⟩ := ha
    injection e with e
    rw [e]; exact hl
  have hm : stringMatch (getUpper suf) extAsc = true := by
    rw [match_upper]; exact (stringMatch_iff _ _).2 hsuf
  let d0 : Disk := { d with data := upd d.data (p ++ [core ++ '.' :: suf]) (some (.asc (gridFile fmt.pr h g ++ nl))) }
  obtain ⟨c, hc, hread⟩ := reads_content (fmt := fmt) (d := d0) hn (.inl hsuf) hlen hch (by
    intro v hv
    obtain ⟨row, col, a1, a2, a3, a4, rfl⟩ := array_values hch.2.1 ha hv
    exact hcv row col a1 a2 a3 a4) hcn hty
  have hcc : c = .asc (gridFile fmt.pr h g ++ nl) := by
    unfold content at hc
    rw [if_pos hm, writeAsc_grid fmt.pr ha] at hc
    simp only [Out.ok_bind, Out.pure_eq, Out.ok.injEq, Option.some.injEq] at hc
    exact hc.symm
  subst hcc
  have hR := hread hf (upd_self _ _ _)
  have hg := base_good core suf hn.core hn.suf.1 hn.suf.2.1 hn.suf.2.2
  have hsx := getSuffix_full hn.wf p dt core suf hn.dir hn.core hn.suf.1 hn.suf.2.1 hn.suf.2.2
  have hres : d.fs.resolve (dt ++ core ++ '.' :: suf) = some (p ++ [core ++ '.' :: suf]) := by
    rw [List.append_assoc, resolve_full hn.wf p dt _ hn.dir hg, if_pos (by rw [hf]; rfl)]
  have habs : getAbsolutePath d.fs (dt ++ core ++ '.' :: suf) = dt ++ core ++ '.' :: suf := by
    rw [List.append_assoc, abs_full hn.wf p dt _ hn.dir hg]
  have heq : ∀ cp df, readFromFile d (dt ++ core ++ '.' :: suf) cp df = readFromFile d0 (dt ++ core ++ '.' :: suf) cp df := by
    intro cp df
    have hdec : decode d (dt ++ core ++ '.' :: suf) = decode d0 (dt ++ core ++ '.' :: suf) := by
     unfold decode
     rw [show d0.fs = d.fs from rfl, habs, hres, hsx, hm]
     simp only [Option.bind_some, hd, if_true]
     rw [show d0.data (p ++ [core ++ '.' :: suf]) = some (.asc (gridFile fmt.pr h g ++ nl)) from upd_self _ _ _]
     dsimp only
     rw [readAsc_nl]
    unfold readFromFile
    rw [hdec]
  have hR2 : ReadsAs d (dt ++ core ++ '.' :: suf) h (fun row col => (listOf h g).getD (row * h.cols + col).toNat 0) := by
    intro cp df hx
    rw [heq]
    exact hR cp df hx
  exact readsAs_congr hR2 rfl rfl rfl rfl rfl rfl (fun row col h1 h2 h3 h4 => array_getD ha row col h1 h2 h3 h4)

/-! ### The files of a raster -/

/-- Layers written one after another as ASCII files. -/
theorem asc_files {env : Env} {pr : ℚ → Str} {h : Header} {p : Path} {dt suf : Str} (cores : Nat → Str) (rows : Nat → List (List ℚ)) :
    ∀ (ls : List Nat) (d : Disk), ls.Nodup → (∀ l ∈ ls, NameIn d.fs p dt (cores l) suf ∧ Writable env d.fs (p ++ [cores l ++ '.' :: suf])) →
      WF d.fs → (∀ l ∈ ls, ∀ m ∈ ls, cores l = cores m → l = m) →
      ∃ d', ascFiles env pr h (ls.map (fun l => (dt ++ cores l ++ '.' :: suf, rows l))) d = (true, d') ∧
        Wrote d d' (ls.map (fun l => (p ++ [cores l ++ '.' :: suf], .asc (Raster.ascFile pr h (rows l)))))
  | [], d, _, _, hwf, _ => ⟨d, rfl, Wrote.nil hwf⟩
  | l :: ls, d, hdup, ha, hwf, hinj => by
    obtain ⟨hn, hw⟩ := ha l (by simp)
    have hg := base_good (cores l) suf hn.core hn.suf.1 hn.suf.2.1 hn.suf.2.2
    obtain ⟨d1, e1, hW⟩ := headers_ok hwf hn.dir hg hn.exist hw h
    have hpn : p ≠ p ++ [cores l ++ '.' :: suf] := by intro e; have := congrArg List.length e; simp at this
    obtain ⟨d2, e2, hW2⟩ := append_old (env := env) hW.wf hn.dir hg (by rw [hW.kind, if_neg hpn, hn.exist]) (by rw [hW.kind, if_pos rfl]) hw.rw
      (hw.cut 1) (t0 := ascHeaderText h) (by rw [hW.data, upd_self]) ((rows l).flatMap (ascRowText pr))
    have w3 := (hW.trans hW2).wrote
    have hnd1 : ∀ x ∈ [(p ++ [cores l ++ '.' :: suf], Content.asc (ascHeaderText h ++ (rows l).flatMap (ascRowText pr)))], d.fs.kindOf x.1 ≠ some .dir := by
      intro x hx
      rw [List.mem_singleton.1 hx]
      exact hw.nodir
    obtain ⟨d', e, w4⟩ := asc_files (env := env) (pr := pr) (h := h) cores rows ls d2 (List.nodup_cons.1 hdup).2 (fun m hm =>
      ⟨w3.nameIn hnd1 (ha m (by simp [hm])).1, w3.writable (ha m (by simp [hm])).2⟩) w3.wf
      (fun a ha b hb => hinj a (by simp [ha]) b (by simp [hb]))
    refine ⟨d', ?_, ?_⟩
    · rw [List.map_cons, ascFiles]
      dsimp only
      rw [List.append_assoc, e1]
      simp only [Bool.not_true, Bool.false_eq_true, if_false]
      rw [e2]
      simp only [Bool.not_true, Bool.false_eq_true, if_false]
      simpa using e
    · have := w3.append w4 (by
        intro x hx
        rw [List.mem_singleton.1 hx]
        rw [List.map_map, List.mem_map]
        rintro ⟨m, hm, e⟩
        have e' := hinj m (by simp [hm]) l (by simp) (name_cancel e)
        subst e'
        exact (List.nodup_cons.1 hdup).1 hm)
      exact this

theorem array_unique {h : Header} (hr : 0 ≤ h.rows) (hc : 0 < h.cols) {b : Ptr ℚ} {g} (ha : IsFullArray h b g) : b = some (listOf h g) := by
  obtain ⟨l, e, hl, hg⟩ := ha
  subst e
  obtain ⟨l2, e2, hl2, hg2⟩ := listOf_array hr hc.le g
  injection e2 with e2
  rw [e2]
  congr 1
  apply List.ext_getElem?
  intro i
  by_cases hi : (i : Int) < h.rows * h.cols
  · have a1 : (i : Int) / h.cols < h.rows := Int.ediv_lt_of_lt_mul hc hi
    have a0 : 0 ≤ (i : Int) / h.cols := Int.ediv_nonneg (by omega) hc.le
    have b0 := Int.emod_nonneg (i : Int) (by omega : h.cols ≠ 0)
    have b1 := Int.emod_lt_of_pos (i : Int) hc
    have t1 := hg _ _ a0 a1 b0 b1
    have t2 := hg2 _ _ a0 a1 b0 b1
    rw [Int.ediv_mul_add_emod, Int.toNat_natCast] at t1 t2
    rw [t1, t2]
  · rw [List.getElem?_eq_none (by omega), List.getElem?_eq_none (by omega)]

/-- Layers written one after another as GeoTIFF files. -/
theorem gdal_files {env : Env} {fmt : Fmt} {r : Raster} {loc : Int → Int → Option Nat} {lsv : List (List ℚ)} {p : Path} {dt core suf : Str}
    (hr : 0 ≤ r.hdr.rows) (hc : 0 < r.hdr.cols)
    (hstep : ∀ (b : Ptr ℚ) (l : Nat), GoodBuf r loc b → (l : Int) < r.nLyrs →
      ∃ d, r.gdalLayer b l = .ok d ∧ IsFullArray r.hdr d (fillGrid lsv loc r.noData l)) (fs : Nat → Gtiff.GFile)
    (hcont : ∀ l : Nat, (l : Int) < r.nLyrs →
      Gtiff.writeGeotiff fmt.gdal64 true fmt.rnd fmt.src fmt.opt r.hdr (some (listOf r.hdr (fillGrid lsv loc r.noData l))) = .ok (some (fs l))) :
    ∀ (ls : List Nat) (b : Ptr ℚ) (d : Disk), GoodBuf r loc b → ls.Nodup → NameIn d.fs p dt core suf →
      d.fs.kindOf (p ++ [core ++ '.' :: suf]) ≠ some .dir →
      (∀ l ∈ ls, (l : Int) < r.nLyrs ∧ Writable env d.fs (p ++ [(core ++ '_' :: intToDec ((l : Int) + 1)) ++ '.' :: suf])) →
      ∃ d', gdalFiles env fmt r (dt ++ core ++ '.' :: suf) b ls d = .ok (true, d') ∧
        Wrote d d' (ls.map (fun (l : Nat) => (p ++ [(core ++ '_' :: intToDec ((l : Int) + 1)) ++ '.' :: suf], .tif (fs l))))
  | [], b, d, _, _, hn, _, _ => ⟨d, rfl, Wrote.nil hn.wf⟩
  | l :: ls, b, d, hb, hdup, hn, hnd, ha => by
    obtain ⟨hl, hw⟩ := ha l (by simp)
    obtain ⟨b1, e1, hfa⟩ := hstep b l hb hl
    have hb1 := array_unique hr hc hfa
    have hslash : '/' ∉ core ++ '_' :: intToDec ((l : Int) + 1) := by
      simp only [List.mem_append, List.mem_cons, not_or]
      exact ⟨hn.core, by decide, dec_no (by decide) (by decide)⟩
    have hg := base_good (core ++ '_' :: intToDec ((l : Int) + 1)) suf hslash hn.suf.1 hn.suf.2.1 hn.suf.2.2
    have hname := (C53_rename_int d.fs hn.wf p dt core suf hn.dir hn.core hn.suf.1 hn.suf.2.1 hn.suf.2.2 hnd ((l : Int) + 1) '_').1
    obtain ⟨d1, w1, w2⟩ := tif_ok (env := env) (fmt := fmt) hn.wf hn.dir hg hn.exist hw (hdr := r.hdr) (hcont l hl)
    have w3 := w2.wrote
    have hnd1 : ∀ x ∈ [(p ++ [(core ++ '_' :: intToDec ((l : Int) + 1)) ++ '.' :: suf], Content.tif (fs l))], d.fs.kindOf x.1 ≠ some .dir := by
      intro x hx
      rw [List.mem_singleton.1 hx]
      exact hw.nodir
    obtain ⟨d', e, w4⟩ := gdal_files hr hc hstep fs hcont ls b1 d1 (IsFullArray.good hfa) (List.nodup_cons.1 hdup).2 (w3.nameIn hnd1 hn)
      (fun hh => hnd ((w3.dir hnd1 _).1 hh)) (fun m hm => ⟨(ha m (by simp [hm])).1, w3.writable (ha m (by simp [hm])).2⟩)
    refine ⟨d', ?_, ?_⟩
    · rw [gdalFiles, e1, Out.ok_bind]
      rw [hname, List.append_assoc dt, hb1, w1, Out.ok_bind]
      simp only [if_true]
      rw [hb1] at e
      exact e
    · have := w3.append w4 (by
        intro x hx
        rw [List.mem_singleton.1 hx]
        rw [List.map_map, List.mem_map]
        rintro ⟨m, hm, e⟩
        have e' := name_cancel e
        have e' := List.append_cancel_left e'
        have e' := intToDec_inj (List.tail_eq_of_cons_eq e')
        have e' : m = l := by omega
        subst e'
        exact (List.nodup_cons.1 hdup).1 hm)
      simpa using this

/-- The stored cells of a raster, and the two ways files are made of them. -/
theorem whole_cases {r : Raster} (hb : Built r) (hv : r.validData = true) (hn : r.is2d = true → 0 < r.nCells) (hp : 0 < r.hdr.rows * r.hdr.cols) :
    ∃ ls loc, (∀ row col, CCGL.Spec.Stored r row col ↔ ∃ m, loc row col = some m) ∧
      (∀ l : Nat, (l : Int) < r.nLyrs → GridOf r ((l : Int) + 1) (fillGrid ls loc r.noData l)) ∧ 1 ≤ r.nLyrs ∧
      (r.is2d = false → r.nLyrs = 1) ∧
      (∀ (b : Ptr ℚ) (l : Nat), GoodBuf r loc b → (l : Int) < r.nLyrs →
        ∃ d, r.gdalLayer b l = .ok d ∧ IsFullArray r.hdr d (fillGrid ls loc r.noData l)) ∧
      ∀ (env : Env) (fmt : Fmt) (d : Disk) (name : Str), outputAscFile env fmt d r name =
        (let abs := getAbsolutePath d.fs name
         if r.is2d then
           if stringMatch (getPathFromFullName d.fs abs) [] then .ok (r, false, d)
           else .ok (r, ascFiles env fmt.pr r.hdr ((List.range r.nLyrs.toNat).map (fun (l : Nat) =>
             (appendCoreFileNameInt d.fs abs (l : Int) '_', (Raster.rowCells r.hdr.rows r.hdr.cols).map (fun row => row.map (fun rc => fillGrid ls loc NODATA l rc.1 rc.2))))) d)
         else .ok (r, ascFiles env fmt.pr r.hdr
           [(abs, (Raster.rowCells r.hdr.rows r.hdr.cols).map (fun row => row.map (fun rc => fillGrid ls loc r.noData 0 rc.1 rc.2)))] d)) := by
  rcases built_cases hb hv hn with ⟨ls, h⟩ | ⟨ls, ps, h⟩
  · have h1 := h.holds.1
    refine ⟨ls, Raster.fullLoc r.hdr, (Raster.Inv.full h).stored, fun l hl => (Raster.Inv.full h).gridOf l hl, by omega, ?_, fun b l hg hl => h.gdalLayer b hg hp l hl, ?_⟩
    · intro h2
      have h3 := h.holds.2.2
      rw [if_neg (by simp [h2])] at h3
      exact h3.1
    · intro env fmt d name
      unfold outputAscFile
      simp only [h.pd, h.pi, Option.isSome_none, Bool.or_false, Bool.false_eq_true, if_false, Out.pure_eq, Out.ok_bind]
      cases hd : r.is2d with
      | true =>
        simp only [if_true]
        split
        · rfl
        · rw [Raster.mapM_ok (g := fun (l : Nat) => (appendCoreFileNameInt d.fs (getAbsolutePath d.fs name) (l : Int) '_',
            (Raster.rowCells r.hdr.rows r.hdr.cols).map (fun row => row.map (fun rc => fillGrid ls (Raster.fullLoc r.hdr) NODATA l rc.1 rc.2))))]
          · rfl
          · intro l hl
            have hl' : l < r.nLyrs.toNat := List.mem_range.1 hl
            rw [h.ascRows none NODATA l (by omega)]
            rfl
      | false =>
        simp only [Bool.false_eq_true, if_false]
        have := h.ascRows none r.noData 0 (by simpa using (show (0 : Int) < r.nLyrs by omega))
        simp only [Int.natCast_zero] at this
        rw [this]
        rfl
  · have h1 := h.holds.1
    refine ⟨ls, Raster.compLoc ps, (Raster.Inv.comp h).stored, fun l hl => (Raster.Inv.comp h).gridOf l hl, by omega, ?_, fun b l hg hl => h.gdalLayer b hg l hl, ?_⟩
    · intro h2
      have h3 := h.holds.2.2
      rw [if_neg (by simp [h2])] at h3
      exact h3.1
    · intro env fmt d name
      unfold outputAscFile Raster.getPositionData Raster.getPositionIdx
      simp only [h.pd, h.pi, Option.isSome_some, Option.isNone_some, Bool.or_true, if_true, Out.pure_eq, Out.ok_bind,
        Bool.or_false, Bool.false_eq_true, if_false]
      cases hd : r.is2d with
      | true =>
        simp only [if_true]
        split
        · rfl
        · rw [Raster.mapM_ok (g := fun (l : Nat) => (appendCoreFileNameInt d.fs (getAbsolutePath d.fs name) (l : Int) '_',
            (Raster.rowCells r.hdr.rows r.hdr.cols).map (fun row => row.map (fun rc => fillGrid ls (Raster.compLoc ps) NODATA l rc.1 rc.2))))]
          · rfl
          · intro l hl
            have hl' : l < r.nLyrs.toNat := List.mem_range.1 hl
            rw [h.ascRows NODATA l (by omega)]
            rfl
      | false =>
        simp only [Bool.false_eq_true, if_false]
        have := h.ascRows r.noData 0 (by simpa using (show (0 : Int) < r.nLyrs by omega))
        simp only [Int.natCast_zero] at this
        rw [this]
        rfl

end Disk
end CCGL
