import Verif.Props.FileOut
/-!
# C75: a whole raster in files
-/
namespace CCGL
namespace Disk
open Fs Fs.Spec Disk.Spec CCGL.Spec

theorem wholeCore_slash {core : Str} (h : '/' ∉ core) (b : Bool) (f : Int) (l : Nat) : '/' ∉ wholeCore core b f l := by
  unfold wholeCore
  split
  · simp only [List.mem_append, List.mem_cons, not_or]
    exact ⟨h, by decide, dec_no (by decide) (by decide)⟩
  · exact h

theorem wholeCore_inj {core : Str} {f : Int} {l m : Nat} (h : wholeCore core true f l = wholeCore core true f m) : l = m := by
  unfold wholeCore at h
  simp only [if_true] at h
  have e' := intToDec_inj (List.tail_eq_of_cons_eq (List.append_cancel_left h))
  omega

theorem asc_not_tif {suf : Str} (h1 : IsAscSuffix suf) (h2 : IsTifSuffix suf) : False := by
  have e1 := (stringMatch_iff _ _).2 h1
  have e2 := (stringMatch_iff _ _).2 h2
  unfold stringMatch at e1 e2
  simp only [beq_iff_eq, decide_eq_true_eq] at e1 e2
  rw [e1] at e2
  revert e2
  decide

/-- What is left after writing files, put together. -/
theorem whole_finish {d d' : Disk} {r : Raster} {p : Path} {dt suf : Str} {cores : Nat → Str} {cs : Nat → Content}
    (hL : 1 ≤ r.nLyrs) (o2 : Wrote d d' ((List.range r.nLyrs.toNat).map (fun l => (p ++ [cores l ++ '.' :: suf], cs l))))
    (hn : ∀ l, NameIn d.fs p dt (cores l) suf) (hw : ∀ l : Nat, (l : Int) < r.nLyrs → d.fs.kindOf (p ++ [cores l ++ '.' :: suf]) ≠ some .dir) :
    Rewritten d d' (fun q => ∃ l : Nat, (l : Int) < r.nLyrs ∧ q = p ++ [cores l ++ '.' :: suf]) ∧
    ∀ l : Nat, (l : Int) < r.nLyrs → NameIn d'.fs p dt (cores l) suf ∧ d'.fs.kindOf (p ++ [cores l ++ '.' :: suf]) = some .file ∧
      d'.data (p ++ [cores l ++ '.' :: suf]) = some (cs l) := by
  have hpaths : ∀ q, q ∈ ((List.range r.nLyrs.toNat).map (fun l => (p ++ [cores l ++ '.' :: suf], cs l))).map (·.1) →
      ∃ l : Nat, (l : Int) < r.nLyrs ∧ q = p ++ [cores l ++ '.' :: suf] := by
    intro q hq
    obtain ⟨x, hx, rfl⟩ := List.mem_map.1 hq
    obtain ⟨l, hl, rfl⟩ := List.mem_map.1 hx
    have := List.mem_range.1 hl
    exact ⟨l, by omega, rfl⟩
  have hdirs : ∀ x ∈ (List.range r.nLyrs.toNat).map (fun l => (p ++ [cores l ++ '.' :: suf], cs l)), d.fs.kindOf x.1 ≠ some .dir := by
    intro x hx
    obtain ⟨l2, b2, b3⟩ := hpaths x.1 (List.mem_map.2 ⟨x, hx, rfl⟩)
    rw [b3]
    exact hw l2 b2
  constructor
  · refine ⟨o2.wf, o2.deny, o2.cwd, ?_, ?_⟩
    · rintro q ⟨l, hl, rfl⟩
      have hin : (p ++ [cores l ++ '.' :: suf], cs l) ∈ (List.range r.nLyrs.toNat).map (fun l => (p ++ [cores l ++ '.' :: suf], cs l)) :=
        List.mem_map.2 ⟨l, List.mem_range.2 (by omega), rfl⟩
      rw [o2.kind, if_pos (List.mem_map.2 ⟨_, hin, rfl⟩)]
    intro q hq
    have hnot : q ∉ ((List.range r.nLyrs.toNat).map (fun l => (p ++ [cores l ++ '.' :: suf], cs l))).map (·.1) := by
      intro hm
      obtain ⟨l, a, b⟩ := hpaths q hm
      exact hq ⟨l, a, b⟩
    exact ⟨by rw [o2.kind q, if_neg hnot], o2.old q hnot⟩
  · intro l hl
    have hin : (p ++ [cores l ++ '.' :: suf], cs l) ∈ (List.range r.nLyrs.toNat).map (fun l => (p ++ [cores l ++ '.' :: suf], cs l)) :=
      List.mem_map.2 ⟨l, List.mem_range.2 (by omega), rfl⟩
    exact ⟨o2.nameIn hdirs (hn l), by rw [o2.kind, if_pos (List.mem_map.2 ⟨_, hin, rfl⟩)], o2.new _ hin⟩

/-- C75: writing a whole raster to ASCII files, any NoData value. In a writable directory and with values and a header the format can carry, the call returns true
and does not change the raster; each layer is in a file that reads back as the grid of the raster with the values of that layer in the cells that the raster
stores. The other cells, which have the NoData value in the raster, have it in the file too if the raster does not have the layered form; in the files of a layered
raster they have the number -9999. Nothing else on the disk changes. The files of a layered raster are numbered from 0. -/
theorem C75_whole_asc_gaps {env : Env} {fmt : Fmt} {d : Disk} {r : Raster} (hb : Built r) (hv : r.validData = true) (hn2 : r.is2d = true → 0 < r.nCells)
    (subs : IMap Subset) {p : Path} {dt core suf : Str} (hn : NameIn d.fs p dt core suf) (hsuf : IsAscSuffix suf)
    (hnd : d.fs.kindOf (p ++ [core ++ '.' :: suf]) ≠ some .dir)
    (hw : ∀ l : Nat, (l : Int) < r.nLyrs → Writable env d.fs (p ++ [wholeCore core r.is2d 0 l ++ '.' :: suf]))
    (hh : CarriesHeader suf r.hdr) (hgv : r.is2d = true → ∀ row col, 0 ≤ row → row < r.hdr.rows → 0 ≤ col → col < r.hdr.cols → ¬ Stored r row col → CarriesValue fmt suf (-9999))
    (hcv : ∀ row col lyr v, 0 ≤ row → row < r.hdr.rows → 0 ≤ col → col < r.hdr.cols → 1 ≤ lyr → lyr ≤ r.nLyrs →
      r.getValue row col lyr = .ok v → CarriesValue fmt suf v) (hnv : CarriesValue fmt suf r.noData) :
    ∃ d', outputToFile env fmt d ⟨r, subs⟩ (dt ++ core ++ '.' :: suf) true = .ok (⟨r, subs⟩, true, d') ∧
      Rewritten d d' (fun q => ∃ l : Nat, (l : Int) < r.nLyrs ∧ q = p ++ [wholeCore core r.is2d 0 l ++ '.' :: suf]) ∧
      ∀ l : Nat, (l : Int) < r.nLyrs → ∃ v, ReadsAs d' (dt ++ wholeCore core r.is2d 0 l ++ '.' :: suf) r.hdr v ∧
        ∀ row col, 0 ≤ row → row < r.hdr.rows → 0 ≤ col → col < r.hdr.cols →
          (Stored r row col → r.getValue row col ((l : Int) + 1) = .ok (v row col)) ∧
          (¬ Stored r row col → r.getValue row col ((l : Int) + 1) = .ok r.noData ∧ v row col = if r.is2d then -9999 else r.noData) := by
  obtain ⟨ls, loc, hsto, hgrid, hL, hone, -, hasc⟩ := whole_cases hb hv hn2 (mul_pos hh.1 hh.2.1)
  have hg := base_good core suf hn.core hn.suf.1 hn.suf.2.1 hn.suf.2.2
  have hsx := getSuffix_full hn.wf p dt core suf hn.dir hn.core hn.suf.1 hn.suf.2.1 hn.suf.2.2
  have hpath : getPathFromFullName d.fs (dt ++ core ++ '.' :: suf) = dt := by
    rw [List.append_assoc]; exact getPath_full hn.wf p dt _ hn.dir hg hnd
  have habs : getAbsolutePath d.fs (dt ++ core ++ '.' :: suf) = dt ++ core ++ '.' :: suf := by
    rw [List.append_assoc]; exact abs_full hn.wf p dt _ hn.dir hg
  have hdt : dt ≠ [] := by rw [hn.dir.2]; simp
  have hm : stringMatch (getUpper suf) extAsc = true := by
    rw [match_upper]; exact (stringMatch_iff _ _).2 hsuf
  have hdtm : stringMatch dt [] = false := by
    cases hx : stringMatch dt []
    · rfl
    · have := (stringMatch_iff _ _).1 hx
      exact absurd (by simpa [SameText] using this) hdt
  have hgap : ∀ l row col, (Stored r row col → fillGrid ls loc (if r.is2d then NODATA else r.noData) l row col = fillGrid ls loc r.noData l row col) ∧
      (¬ Stored r row col → fillGrid ls loc r.noData l row col = r.noData ∧
        fillGrid ls loc (if r.is2d then NODATA else r.noData) l row col = if r.is2d then -9999 else r.noData) := by
    intro l row col
    rw [hsto]
    unfold fillGrid
    cases hl : loc row col with
    | some m => exact ⟨fun _ => rfl, fun h => absurd ⟨m, rfl⟩ h⟩
    | none =>
      refine ⟨fun ⟨m, h⟩ => (by cases h), fun _ => ⟨rfl, ?_⟩⟩
      rfl
  obtain ⟨d', e1, hW⟩ := asc_files (env := env) (pr := fmt.pr) (h := r.hdr) (p := p) (dt := dt) (suf := suf) (wholeCore core r.is2d 0)
    (fun l => (Raster.rowCells r.hdr.rows r.hdr.cols).map (fun row => row.map (fun rc => fillGrid ls loc (if r.is2d then NODATA else r.noData) l rc.1 rc.2)))
    (List.range r.nLyrs.toNat) d List.nodup_range (fun l hl => by
      have := List.mem_range.1 hl
      exact ⟨nameIn_core hn (wholeCore_slash hn.core _ _ _), hw l (by omega)⟩) hn.wf (by
      intro l hl m hm2 he
      cases h2 : r.is2d
      · have := hone h2
        have := List.mem_range.1 hl
        have := List.mem_range.1 hm2
        omega
      · rw [h2] at he
        exact wholeCore_inj he)
  have hrows : ∀ l, Raster.ascFile fmt.pr r.hdr ((Raster.rowCells r.hdr.rows r.hdr.cols).map (fun row => row.map (fun rc => fillGrid ls loc (if r.is2d then NODATA else r.noData) l rc.1 rc.2)))
      = gridFile fmt.pr r.hdr (fillGrid ls loc (if r.is2d then NODATA else r.noData) l) := fun l => ascFile_grid _ _ _
  simp only [hrows] at hW
  obtain ⟨f1, f2⟩ := whole_finish hL hW (fun l => nameIn_core hn (wholeCore_slash hn.core _ _ _)) (fun l hl => (hw l hl).nodir)
  refine ⟨d', ?_, f1, ?_⟩
  · unfold outputToFile
    rw [hpath, if_neg hdt, habs]
    dsimp only
    rw [hsx, hv]
    simp only [Bool.not_true, Bool.false_eq_true, if_false]
    rw [if_pos hm, hasc, habs]
    dsimp only
    rw [hpath, hdtm]
    simp only [Bool.false_eq_true, if_false]
    cases h2 : r.is2d
    · have hone := hone h2
      rw [h2, hone] at e1
      simp only [Bool.false_eq_true, if_false] at e1
      simp only [Bool.false_eq_true, if_false, Out.ok_bind, Out.pure_eq]
      have e1 : ascFiles env fmt.pr r.hdr [(dt ++ core ++ '.' :: suf, (Raster.rowCells r.hdr.rows r.hdr.cols).map (fun row => row.map
        (fun rc => fillGrid ls loc r.noData 0 rc.1 rc.2)))] d = (true, d') := e1
      rw [e1]
    · rw [h2] at e1
      simp only [if_true] at e1
      simp only [if_true, Out.ok_bind, Out.pure_eq]
      have hnames : ∀ l : Nat, appendCoreFileNameInt d.fs (dt ++ core ++ '.' :: suf) (l : Int) '_' = dt ++ wholeCore core true 0 l ++ '.' :: suf := by
        intro l
        rw [(C53_rename_int d.fs hn.wf p dt core suf hn.dir hn.core hn.suf.1 hn.suf.2.1 hn.suf.2.2 hnd _ '_').1]
        unfold wholeCore
        rw [if_pos rfl, add_zero]
      simp only [hnames]
      rw [e1]
  · intro l hl
    obtain ⟨n1, n2, n3⟩ := f2 l hl
    refine ⟨_, reads_asc (fmt := fmt) n1 hsuf hh ?_ (by rw [hb.hdrOk.nd]; exact hnv) ?_ n2 n3, ?_⟩
    · intro row col a1 a2 a3 a4
      by_cases hs : Stored r row col
      · rw [(hgap l row col).1 hs]
        exact hcv row col _ _ a1 a2 a3 a4 (by omega) (by omega) (hgrid l hl row col a1 a2 a3 a4)
      · rw [((hgap l row col).2 hs).2]
        by_cases h2 : r.is2d = true
        · rw [if_pos h2]
          exact hgv h2 row col a1 a2 a3 a4 hs
        · rw [if_neg h2]
          exact hnv
    · intro ht
      exact (asc_not_tif hsuf ht).elim
    · intro row col a1 a2 a3 a4
      have hg1 := hgrid l hl row col a1 a2 a3 a4
      refine ⟨fun hs => ?_, fun hs => ?_⟩
      · rw [(hgap l row col).1 hs]
        exact hg1
      · rw [((hgap l row col).2 hs).1] at hg1
        exact ⟨hg1, ((hgap l row col).2 hs).2⟩

/-- C75: writing a whole raster to ASCII files. In a writable directory and with values and a header the format can carry (for a
layered raster: the NoData value is -9999 or the raster stores all cells), the call returns true and does not change the raster; each layer is in a file
that reads back as the grid of the raster with the values of that layer; nothing else on the disk changes. The
files of a layered raster are numbered from 0. -/
theorem C75_whole_asc_partial {env : Env} {fmt : Fmt} {d : Disk} {r : Raster} (hb : Built r) (hv : r.validData = true) (hn2 : r.is2d = true → 0 < r.nCells)
    (subs : IMap Subset) {p : Path} {dt core suf : Str} (hn : NameIn d.fs p dt core suf) (hsuf : IsAscSuffix suf)
    (hnd : d.fs.kindOf (p ++ [core ++ '.' :: suf]) ≠ some .dir)
    (hw : ∀ l : Nat, (l : Int) < r.nLyrs → Writable env d.fs (p ++ [wholeCore core r.is2d 0 l ++ '.' :: suf]))
    (hh : CarriesHeader suf r.hdr) (hfill : r.is2d = true → r.noData = NODATA ∨ ∀ row col, 0 ≤ row → row < r.hdr.rows → 0 ≤ col → col < r.hdr.cols → Stored r row col)
    (hcv : ∀ row col lyr v, 0 ≤ row → row < r.hdr.rows → 0 ≤ col → col < r.hdr.cols → 1 ≤ lyr → lyr ≤ r.nLyrs →
      r.getValue row col lyr = .ok v → CarriesValue fmt suf v) (hnv : CarriesValue fmt suf r.noData) :
    ∃ d', outputToFile env fmt d ⟨r, subs⟩ (dt ++ core ++ '.' :: suf) true = .ok (⟨r, subs⟩, true, d') ∧
      Rewritten d d' (fun q => ∃ l : Nat, (l : Int) < r.nLyrs ∧ q = p ++ [wholeCore core r.is2d 0 l ++ '.' :: suf]) ∧
      ∀ l : Nat, (l : Int) < r.nLyrs → ∃ v, ReadsAs d' (dt ++ wholeCore core r.is2d 0 l ++ '.' :: suf) r.hdr v ∧
        ∀ row col, 0 ≤ row → row < r.hdr.rows → 0 ≤ col → col < r.hdr.cols → r.getValue row col ((l : Int) + 1) = .ok (v row col) := by
  have hgv : ∀ row col, 0 ≤ row → row < r.hdr.rows → 0 ≤ col → col < r.hdr.cols → ¬ Stored r row col → r.is2d = true → r.noData = NODATA := by
    intro row col a1 a2 a3 a4 hs h2
    rcases hfill h2 with h | h
    · exact h
    · exact absurd (h row col a1 a2 a3 a4) hs
  obtain ⟨d', e, hw', hr⟩ := C75_whole_asc_gaps hb hv hn2 subs hn hsuf hnd hw hh (fun h2 row col a1 a2 a3 a4 hs => by
    have hx := hnv
    rw [hgv row col a1 a2 a3 a4 hs h2] at hx
    exact hx) hcv hnv
  refine ⟨d', e, hw', fun l hl => ?_⟩
  obtain ⟨v, v1, v2⟩ := hr l hl
  refine ⟨v, v1, fun row col a1 a2 a3 a4 => ?_⟩
  obtain ⟨w1, w2⟩ := v2 row col a1 a2 a3 a4
  by_cases hs : Stored r row col
  · exact w1 hs
  · obtain ⟨w3, w4⟩ := w2 hs
    rw [w3, w4]
    by_cases h2 : r.is2d = true
    · rw [if_pos h2, hgv row col a1 a2 a3 a4 hs h2]; rfl
    · rw [if_neg h2]

/-- C75: writing a whole raster to GeoTIFF files, likewise (any NoData value); the files of a layered raster are numbered from 1. -/
theorem C75_whole_tif_partial {env : Env} {fmt : Fmt} {d : Disk} {r : Raster} (hb : Built r) (hv : r.validData = true) (hn2 : r.is2d = true → 0 < r.nCells)
    (subs : IMap Subset) {p : Path} {dt core suf : Str} (hn : NameIn d.fs p dt core suf) (hsuf : IsTifSuffix suf) (hty : SameType fmt)
    (hnd : d.fs.kindOf (p ++ [core ++ '.' :: suf]) ≠ some .dir)
    (hw : ∀ l : Nat, (l : Int) < r.nLyrs → Writable env d.fs (p ++ [wholeCore core r.is2d 1 l ++ '.' :: suf]))
    (hh : CarriesHeader suf r.hdr)
    (hcv : ∀ row col lyr v, 0 ≤ row → row < r.hdr.rows → 0 ≤ col → col < r.hdr.cols → 1 ≤ lyr → lyr ≤ r.nLyrs →
      r.getValue row col lyr = .ok v → CarriesValue fmt suf v) (hnv : CarriesValue fmt suf r.noData) :
    ∃ d', outputToFile env fmt d ⟨r, subs⟩ (dt ++ core ++ '.' :: suf) true = .ok (⟨r, subs⟩, true, d') ∧
      Rewritten d d' (fun q => ∃ l : Nat, (l : Int) < r.nLyrs ∧ q = p ++ [wholeCore core r.is2d 1 l ++ '.' :: suf]) ∧
      ∀ l : Nat, (l : Int) < r.nLyrs → ∃ v, ReadsAs d' (dt ++ wholeCore core r.is2d 1 l ++ '.' :: suf) r.hdr v ∧
        ∀ row col, 0 ≤ row → row < r.hdr.rows → 0 ≤ col → col < r.hdr.cols → r.getValue row col ((l : Int) + 1) = .ok (v row col) := by
  obtain ⟨ls, loc, hsto, hgrid, hL, hone, hstep, -⟩ := whole_cases hb hv hn2 (mul_pos hh.1 hh.2.1)
  have hg := base_good core suf hn.core hn.suf.1 hn.suf.2.1 hn.suf.2.2
  have hsx := getSuffix_full hn.wf p dt core suf hn.dir hn.core hn.suf.1 hn.suf.2.1 hn.suf.2.2
  have hpath : getPathFromFullName d.fs (dt ++ core ++ '.' :: suf) = dt := by
    rw [List.append_assoc]; exact getPath_full hn.wf p dt _ hn.dir hg hnd
  have habs : getAbsolutePath d.fs (dt ++ core ++ '.' :: suf) = dt ++ core ++ '.' :: suf := by
    rw [List.append_assoc]; exact abs_full hn.wf p dt _ hn.dir hg
  have hdt : dt ≠ [] := by rw [hn.dir.2]; simp
  have hm : ¬ stringMatch (getUpper suf) extAsc = true := by
    rw [match_upper]; exact fun hx => asc_not_tif ((stringMatch_iff _ _).1 hx) hsuf
  have hmt : stringMatch (getUpper suf) extTif = true := by
    rw [match_upper]; exact (stringMatch_iff _ _).2 hsuf
  have hdtm : stringMatch dt [] = false := by
    cases hx : stringMatch dt []
    · rfl
    · have := (stringMatch_iff _ _).1 hx
      exact absurd (by simpa [SameText] using this) hdt
  -- what is written for each layer
  have hcont : ∀ l : Nat, ∃ f, (l : Int) < r.nLyrs →
      Gtiff.writeGeotiff fmt.gdal64 true fmt.rnd fmt.src fmt.opt r.hdr (some (listOf r.hdr (fillGrid ls loc r.noData l))) = .ok (some f) ∧
      ∀ (d2 : Disk) (core2 : Str), NameIn d2.fs p dt core2 suf → d2.fs.kindOf (p ++ [core2 ++ '.' :: suf]) = some .file →
        d2.data (p ++ [core2 ++ '.' :: suf]) = some (.tif f) →
        ReadsAs d2 (dt ++ core2 ++ '.' :: suf) r.hdr (fillGrid ls loc r.noData l) := by
    intro l
    by_cases hl : (l : Int) < r.nLyrs
    · have ha := listOf_array hh.1.le hh.2.1.le (fillGrid ls loc r.noData l)
      have hlen : ((listOf r.hdr (fillGrid ls loc r.noData l)).length : Int) = r.hdr.rows * r.hdr.cols := by
        obtain ⟨l', e, hl, -⟩ := ha
        injection e with e
        rw [e]; exact hl
      have hvals : ∀ v ∈ listOf r.hdr (fillGrid ls loc r.noData l), CarriesValue fmt suf v := by
        intro v hv
        obtain ⟨row, col, a1, a2, a3, a4, rfl⟩ := array_values hh.2.1 ha hv
        exact hcv row col _ _ a1 a2 a3 a4 (by omega) (by omega) (hgrid l hl row col a1 a2 a3 a4)
      have hndc : CarriesValue fmt suf r.hdr.noData := by rw [hb.hdrOk.nd]; exact hnv
      obtain ⟨c, hc, -⟩ := reads_content (fmt := fmt) hn (.inr hsuf) hlen hh hvals hndc (fun _ => hty)
      have hc2 := hc
      unfold content at hc
      rw [if_neg hm] at hc
      obtain ⟨x, e1, e2⟩ := Out.bind_ok hc
      cases x with
      | none => cases e2
      | some f =>
        simp only [Out.pure_eq, Option.map_some, Out.ok.injEq, Option.some.injEq] at e2
        subst e2
        refine ⟨f, fun _ => ⟨e1, ?_⟩⟩
        intro d2 core2 n1 n2 n3
        obtain ⟨c, hc3, hread⟩ := reads_content (fmt := fmt) n1 (.inr hsuf) hlen hh hvals hndc (fun _ => hty)
        rw [hc2] at hc3
        simp only [Out.ok.injEq, Option.some.injEq] at hc3
        subst hc3
        exact readsAs_congr (hread n2 n3) rfl rfl rfl rfl rfl rfl (fun row col h1 h2 h3 h4 => array_getD ha row col h1 h2 h3 h4)
    · exact ⟨⟨0, 0, .unknown, [], 0, 0, 0, 0, 0⟩, fun h => absurd h hl⟩
  choose fs hfs using hcont
  obtain ⟨d', e1, hW⟩ : ∃ d', outputGdalFile env fmt d r (dt ++ core ++ '.' :: suf) = .ok (true, d') ∧
      Wrote d d' ((List.range r.nLyrs.toNat).map (fun l => (p ++ [wholeCore core r.is2d 1 l ++ '.' :: suf], .tif (fs l)))) := by
    unfold outputGdalFile
    rw [habs]
    dsimp only
    rw [hpath, hdtm]
    cases h2 : r.is2d
    · have ho := hone h2
      obtain ⟨b, e2, hb2⟩ := hstep none 0 (.inl rfl) (by omega)
      have hb3 := array_unique hh.1.le hh.2.1 hb2
      subst hb3
      have hw0 := hw 0 (by omega)
      rw [h2] at hw0
      obtain ⟨d1, w1, w2⟩ := tif_ok (env := env) (fmt := fmt) hn.wf hn.dir hg hn.exist hw0 (hdr := r.hdr) (hfs 0 (by omega)).1
      refine ⟨d1, ?_, ?_⟩
      · simp only [Bool.false_eq_true, if_false]
        have e2 : r.gdalLayer none 0 = _ := e2
        rw [e2, Out.ok_bind, List.append_assoc, w1]
      · rw [ho]
        exact w2.wrote
    · simp only [if_true, Bool.false_eq_true, if_false]
      obtain ⟨d1, w1, w2⟩ := gdal_files (env := env) (fmt := fmt) hh.1.le hh.2.1 hstep fs (fun l hl => (hfs l hl).1) (List.range r.nLyrs.toNat) none d
        (.inl rfl) List.nodup_range hn hnd (fun l hl => by
          have := List.mem_range.1 hl
          have hwl := hw l (by omega)
          rw [h2] at hwl
          exact ⟨by omega, hwl⟩)
      exact ⟨d1, w1, w2⟩
  obtain ⟨f1, f2⟩ := whole_finish hL hW (fun l => nameIn_core hn (wholeCore_slash hn.core _ _ _)) (fun l hl => (hw l hl).nodir)
  refine ⟨d', ?_, f1, ?_⟩
  · unfold outputToFile
    rw [hpath, if_neg hdt, habs]
    dsimp only
    rw [hsx, hv]
    simp only [Bool.not_true, Bool.false_eq_true, if_false]
    rw [if_neg hm, if_pos hmt, e1]
    rfl
  · intro l hl
    obtain ⟨n1, n2, n3⟩ := f2 l hl
    exact ⟨_, (hfs l hl).2 d' _ n1 n2 n3, fun row col a1 a2 a3 a4 => hgrid l hl row col a1 a2 a3 a4⟩

end Disk
end CCGL
