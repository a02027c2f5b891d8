import Verif.Lemmas.AppCom
/-!
# The mode COM of `mask_rasterio` (C79)
-/
namespace CCGL
namespace App
open Fs Disk Main Raster Disk.Spec App.Spec

theorem lastPiece_mem {ps : List (Option (Int × (Int → Int → ℚ)))} {k : Int} : (∃ w, some (k, w) ∈ ps) ↔ lastPiece ps k ≠ none := by
  induction ps using List.reverseRecOn with
  | nil => simp [lastPiece]
  | append_singleton ps x ih =>
    rw [lastPiece_snoc]
    cases x with
    | none =>
      dsimp only
      rw [← ih]
      simp
    | some y =>
      dsimp only
      by_cases e : y.1 = k
      · rw [if_pos e]
        simp only [ne_eq, reduceCtorEq, not_false_eq_true, iff_true]
        exact ⟨y.2, by rw [← e]; simp⟩
      · rw [if_neg e, ← ih]
        constructor
        · rintro ⟨w, hw⟩
          rcases List.mem_append.1 hw with h | h
          · exact ⟨w, h⟩
          · simp only [List.mem_singleton, Option.some.injEq] at h
            rw [← h] at e
            exact absurd rfl e
        · rintro ⟨w, hw⟩
          exact ⟨w, List.mem_append_left _ hw⟩

theorem comMask_start {ps : List (Int × Int)} {G : Int → List Nat} {subs : IMap Subset} (hP : PartsOf ps G subs)
    (hold : ∀ k s, subs.get k = some s → ∀ l, s.data = some l → (l.length : Int) = s.nCells) :
    ComSubs ps G [] (subs.map (fun e => (e.1, { e.2 with usable := false }))) := by
  have hget : ∀ k, IMap.get (subs.map (fun e => (e.1, ({ e.2 with usable := false } : Subset)))) k =
      (subs.get k).map (fun s => ({ s with usable := false } : Subset)) := fun k =>
    IMap.get_mapVal subs (fun _ (s : Subset) => ({ s with usable := false } : Subset)) k
  have hsome : ∀ k s, IMap.get (subs.map (fun e => (e.1, ({ e.2 with usable := false } : Subset)))) k = some s →
      ∃ s0, subs.get k = some s0 ∧ s = { s0 with usable := false } := by
    intro k s h
    rw [hget] at h
    obtain ⟨s0, a, b⟩ := Option.map_eq_some_iff.1 h
    exact ⟨s0, a, b.symm⟩
  refine ⟨⟨by rw [List.map_map]; exact hP.sorted, ?_, ?_, hP.lt, hP.nodup, hP.disj⟩, ?_, ?_⟩
  · intro k s h
    obtain ⟨s0, a, rfl⟩ := hsome k s h
    exact (hP.some k s0 a).same ⟨rfl, rfl, rfl, rfl, rfl, rfl, rfl, rfl⟩
  · intro k h
    rw [hget] at h
    exact hP.none k (Option.map_eq_none_iff.1 h)
  · intro k s h l hl
    obtain ⟨s0, a, rfl⟩ := hsome k s h
    exact hold k s0 a l hl
  · intro k s h
    obtain ⟨s0, a, rfl⟩ := hsome k s h
    rfl

/-- The combination of the pieces, if there is one. -/
theorem com_prepare {r : Raster} {hM : Header} {vM : Int → Int → ℚ} {ls ps G} {pieces : List (Option (Int × (Int → Int → ℚ)))} {subs : IMap Subset}
    (hCr : r.Compact ls ps) (hs : ComSubs ps G pieces subs) (hgrid : r.hdr.grid = hM.grid) (hnd : r.noData = hM.noData)
    (hgrp : ∀ k row col, byValue hM vM k row col ↔ ∃ i ∈ G k, posAt ps i = (row, col))
    (hany : ∃ k, lastPiece pieces k ≠ none ∧ Present (byValue hM vM) k) :
    ∃ F, prepareComb ⟨r, subs⟩ false true [] NODATA = .ok (some (some F, r.hdr.rows * r.hdr.cols, 1)) ∧ (F.length : Int) = r.hdr.rows * r.hdr.cols ∧
      subs ≠ [] ∧ ∀ row col, 0 ≤ row → row < r.hdr.rows → 0 ≤ col → col < r.hdr.cols →
        readAt (some F) (row * r.hdr.cols + col) = .ok (comVal hM vM pieces r.dflt row col) := by
  have hdf : defaultOf r NODATA = r.dflt := by
    unfold defaultOf
    rw [floatEqual_self]
    rfl
  have hgr := hgrid
  unfold Header.grid at hgr
  injection hgr with g1 g2 g3 g4 g5
  obtain ⟨k0, hlast0, hpres⟩ := hany
  have hget0 : ∃ s0, subs.get k0 = some s0 := by
    obtain ⟨row, col, hc⟩ := hpres
    obtain ⟨i, hi, -⟩ := (hgrp k0 row col).1 hc
    cases hk : subs.get k0 with
    | some sb => exact ⟨sb, rfl⟩
    | none =>
      rw [hs.part.none k0 hk] at hi
      cases hi
  obtain ⟨s0, hs0⟩ := hget0
  have huse : ∀ k s, subs.get k = some s → (s.usable = true ↔ lastPiece pieces k ≠ none) := by
    intro k s hk
    have := hs.last k s hk
    cases hl : lastPiece pieces k with
    | some w =>
      rw [hl] at this
      simp [this.1]
    | none =>
      rw [hl] at this
      have this : s.usable = false := this
      simp [this]
  let D : Int → Int → Int → ℚ := fun k i _ => match lastPiece pieces k with
    | some w => w (posAt ps ((G k).getD i.toNat 0)).1 (posAt ps ((G k).getD i.toNat 0)).2
    | none => 0
  obtain ⟨F, f1, f2, f3, f4⟩ := comb_parts hCr hs.part 1 le_rfl D (by
    intro k s hk hu
    obtain ⟨w, hw⟩ := Option.ne_none_iff_exists'.1 ((huse k s hk).1 hu)
    have := hs.last k s hk
    rw [hw] at this
    refine ⟨this.2.1, fun i l h0 h1 _ _ => ?_⟩
    rw [(hs.part.some k s hk).n] at h1
    unfold CCGL.Spec.subsetCell
    rw [if_pos rfl, this.2.2, readAt_some_int _ _ h0 (by rw [List.length_map]; exact h1)]
    simp only [D, hw, List.getElem_map]
    rw [List.getD_eq_getElem _ _ (by omega)]) ⟨k0, s0, hs0, (huse k0 s0 hs0).2 hlast0⟩ true NODATA
  simp only [if_true, mul_one, hdf] at f1 f2 f3 f4
  refine ⟨F, f1, f2, by intro h; rw [h] at hs0; simp [IMap.get_nil] at hs0, ?_⟩
  intro row col a1 a2 a3 a4
  by_cases hv : HasValue hM vM row col
  · obtain ⟨i, hi, hp⟩ := (hgrp (truncQ (vM row col)) row col).1 ⟨hv, rfl⟩
    generalize hk : truncQ (vM row col) = k at hi
    obtain ⟨n, hn, hin⟩ := List.getElem_of_mem hi
    have hsb : ∃ sb, subs.get k = some sb := by
      cases hk : subs.get k with
      | some sb => exact ⟨sb, rfl⟩
      | none =>
        rw [hs.part.none k hk] at hi
        cases hi
    obtain ⟨sb, hsb⟩ := hsb
    have := f3 k sb n 0 hsb hn le_rfl (by omega)
    rw [hin] at this
    have ho : outIdx r ps true i = row * r.hdr.cols + col := by
      unfold outIdx
      rw [if_pos rfl, hp]
    rw [ho, add_zero] at this
    rw [this]
    congr 1
    unfold comVal
    rw [if_pos hv, hk]
    cases hl : lastPiece pieces k with
    | some w =>
      rw [(huse k sb hsb).2 (by rw [hl]; simp)]
      simp only [if_true, D, hl]
      rw [Int.toNat_natCast, List.getD_eq_getElem _ _ hn, hin, hp]
    | none =>
      have hu : sb.usable = false := by
        by_contra hb
        exact (huse k sb hsb).1 (by simpa using hb) hl
      rw [hu, hnd]
      simp only [Bool.false_eq_true, if_false]
  · have hidx := idx_range a1 a2 a3 a4
    have := f4 (row * r.hdr.cols + col) 0 hidx.1 hidx.2 le_rfl (by omega) (by
      intro k i hi ho
      apply hv
      have hlt := hs.part.lt hi
      obtain ⟨-, b1, b2, b3, b4, -⟩ := compact_pos hCr i hlt
      unfold outIdx at ho
      rw [if_pos rfl] at ho
      obtain ⟨c1, c2⟩ := idx_inj b3 b4 a3 a4 ho
      exact ((hgrp k row col).2 ⟨i, hi, by rw [← c1, ← c2]⟩).1)
    rw [add_zero] at this
    rw [this]
    unfold comVal
    rw [if_neg hv]
    congr 1

/-- Nothing to combine. -/
theorem com_nothing {r : Raster} {ps G} {pieces : List (Option (Int × (Int → Int → ℚ)))} {subs : IMap Subset} (hs : ComSubs ps G pieces subs)
    (hnone : ∀ k, lastPiece pieces k = none) (inc : Bool) : prepareComb ⟨r, subs⟩ false inc [] NODATA = .ok none := by
  have hun : ∀ e ∈ subs, e.2.usable = false := by
    intro e he
    have := hs.last e.1 e.2 ((IMap.mem_iff_get _ hs.part.sorted _ _).1 he)
    rw [hnone] at this
    exact this
  have hsl : subsetLyrs subs true = some (-1) := by
    unfold subsetLyrs
    rw [subsetLyrs_spec 1 le_rfl subs (-1) (fun e he hu => by rw [hun e he] at hu; cases hu) (.inl rfl), if_neg]
    rintro (h | ⟨e, he, hu⟩)
    · cases h
    · rw [hun e he] at hu; cases hu
  unfold prepareComb
  split
  · rfl
  · rw [show reclsLyrs ([] : IMap (List ℚ)) = some (-1) from rfl, show decide (([] : IMap (List ℚ)) = []) = true from rfl]
    dsimp only
    rw [hsl]
    dsimp only
    rfl

/-- The combined raster is written to a file. -/
theorem com_file (sys : Sys) {d : Disk} {m : RasterS} {hM : Header} {vM : Int → Int → ℚ} (hm : ComMask m hM vM) {j : Job} {pl : ComPlan}
    (H : ComOut sys d hM vM j pl) {ls ps G} (hC : m.ras.Compact ls ps) (hgrp : ∀ k row col, byValue hM vM k row col ↔ ∃ i ∈ G k, posAt ps i = (row, col))
    (hpres : ∀ k w, some (k, w) ∈ pl.pieces → Present (byValue hM vM) k) {subs : IMap Subset} (hs : ComSubs ps G pl.pieces subs) :
    ∃ b d', outputToFile sys.env (sys.fmt j.type) d ⟨{ m.ras with dflt := j.default.toQ }, subs⟩ j.out false =
        .ok (⟨{ m.ras with dflt := j.default.toQ }, subs⟩, b, d') ∧ Rewritten d d' (ComTarget pl) ∧ ComDone d' hM vM j pl := by
  -- the raster with the new default value
  let r : Raster := { m.ras with dflt := j.default.toQ }
  have hCr : r.Compact ls ps := ⟨hC.holds, hC.rows_nn, hC.cols_nn, hC.len, hC.ncells, hC.ne, hC.calcOn, hC.pd, hC.pi, hC.inside, hC.sorted⟩
  have hgr := hm.grid
  unfold Header.grid at hgr
  injection hgr with g1 g2 g3 g4 g5
  have hjob : ∀ b d', outputSubsetToFile sys.env (sys.fmt j.type) d ⟨r, subs⟩ false true j.out [] NODATA = .ok (b, d') →
      outputToFile sys.env (sys.fmt j.type) d ⟨r, subs⟩ j.out false = .ok (⟨r, subs⟩, b, d') := by
    intro b d' e
    have hg := base_good pl.core pl.suf H.name.core H.name.suf.1 H.name.suf.2.1 H.name.suf.2.2
    have hpath : getPathFromFullName d.fs j.out = pl.dt := by
      rw [H.out, List.append_assoc]
      exact getPath_full H.name.wf pl.dir pl.dt _ H.name.dir hg H.nodir
    have hdt : pl.dt ≠ [] := by rw [H.name.dir.2]; simp
    unfold outputToFile
    rw [hpath, if_neg hdt]
    dsimp only
    rw [if_neg (by rw [show r.validData = true from Raster.Holds.valid hCr.holds]; simp)]
    rw [if_pos (by rfl), e]
    rfl
  by_cases hany : pl.Any
  · obtain ⟨x, hx, hxn⟩ := hany
    obtain ⟨⟨k0, w0⟩, hx2⟩ := Option.ne_none_iff_exists'.1 hxn
    have hmem0 : some (k0, w0) ∈ pl.pieces := List.mem_map.2 ⟨x, hx, hx2⟩
    obtain ⟨F, f1, f2, f3, f4⟩ := com_prepare (r := r) hCr hs hm.grid hm.nd hgrp ⟨k0, lastPiece_mem.1 ⟨w0, hmem0⟩, hpres k0 w0 hmem0⟩
    have hcell : ∀ row col l, 0 ≤ row → row < r.hdr.rows → 0 ≤ col → col < r.hdr.cols → 0 ≤ l → l < 1 →
        readAt (some F) ((row * r.hdr.cols + col) * 1 + l) = .ok (comVal hM vM pl.pieces j.default.toQ row col) := by
      intro row col l a1 a2 a3 a4 a5 a6
      have hl0 : l = 0 := by omega
      subst hl0
      rw [mul_one, add_zero]
      exact f4 row col a1 a2 a3 a4
    have hinside : ∀ row col, 0 ≤ row → row < r.hdr.rows → 0 ≤ col → col < r.hdr.cols → hM.grid.CellInside row col := fun row col a1 a2 a3 a4 =>
      ⟨a1, by show row < hM.rows; rw [← g1]; exact a2, a3, by show col < hM.cols; rw [← g2]; exact a4⟩
    have hch : CarriesHeader pl.suf r.hdr := by
      have := H.hdr
      unfold CarriesHeader at this ⊢
      rw [show r.hdr.rows = hM.rows from g1, show r.hdr.cols = hM.cols from g2, show r.hdr.cellsize = hM.cellsize from g3,
        show r.hdr.xll = hM.xll from g4, show r.hdr.yll = hM.yll from g5, show r.hdr.noData = hM.noData from hm.hnd]
      exact this
    have hL : ∀ l, layerCore (subsetCore 0 pl.core) 1 l = subsetCore 0 pl.core := fun l => rfl
    obtain ⟨d', o1, o2, o3⟩ := comb_cells (env := sys.env) (fmt := sys.fmt j.type) (d := d) (rs := ⟨r, subs⟩) (oo := false) (recls := []) (dv := NODATA)
      (F := F) (L := 1) (gv := fun row col _ => comVal hM vM pl.pieces j.default.toQ row col) (Raster.Holds.valid hCr.holds)
      f3 (by rw [mul_one]; exact f1) le_rfl (by rw [mul_one]; exact f2) hcell H.name
      (H.kind.imp id (fun h => h.1)) (fun ht => by
        rcases H.kind with h | h
        · exact (asc_not_tif h ht).elim
        · exact h.2) H.nodir H.write.nodir (fun l _ => by rw [hL]; exact H.write) hch
      (fun row col l a1 a2 a3 a4 _ _ => H.vals row col (hinside row col a1 a2 a3 a4)) (by
        show CarriesValue (sys.fmt j.type) pl.suf r.hdr.noData
        rw [show r.hdr.noData = hM.noData from hm.hnd]; exact H.nodata)
    rw [← H.out] at o1
    refine ⟨_, d', hjob _ _ o1, ?_, fun _ => ?_⟩
    · have : ComTarget pl = (fun q => ∃ l : Nat, (l : Int) < 1 ∧ q = pl.dir ++ [layerCore (subsetCore 0 pl.core) 1 l ++ '.' :: pl.suf]) := by
        funext q
        apply propext
        constructor
        · rintro ⟨-, h⟩
          exact ⟨0, by omega, h⟩
        · rintro ⟨l, -, h⟩
          exact ⟨⟨x, hx, hxn⟩, h⟩
      rw [this]
      exact o2
    · have := o3 0 (by omega)
      rw [hL] at this
      exact ReadsAs.change this hm.grid.symm hm.hnd.symm (fun _ _ _ => rfl)
  · -- nothing fits
    have hnone : ∀ k, lastPiece pl.pieces k = none := by
      intro k
      by_contra h
      obtain ⟨w, hw⟩ := lastPiece_mem.2 h
      obtain ⟨x, hx, he⟩ := List.mem_map.1 hw
      exact hany ⟨x, hx, by rw [he]; simp⟩
    have ho : outputSubsetToFile sys.env (sys.fmt j.type) d ⟨r, subs⟩ false true j.out [] NODATA = .ok (false, d) := by
      unfold outputSubsetToFile
      split
      · rfl
      · split
        · rfl
        · rw [if_pos rfl, com_nothing hs hnone]
          rfl
    exact ⟨false, d, hjob _ _ ho, rewritten_refl H.name.wf (fun q h => hany h.1), fun h => absurd h hany⟩

/-- C79: one job of the mode COM. -/
theorem C79_job (sys : Sys) {d : Disk} {m : RasterS} {hM : Header} {vM : Int → Int → ℚ} (hm : ComMask m hM vM) {j : Job} {pl : ComPlan}
    (H : ComOk sys d hM vM j pl) :
    ∃ d' m', comJob sys (d, m) j = .ok (d', m') ∧ ComMask m' hM vM ∧ Rewritten d d' (ComTarget pl) ∧ ComDone d' hM vM j pl := by
  obtain ⟨ls, ps, G, hC, hP, hasc, hgrp⟩ := hm.cut
  have hsort : ∀ k, ((G k).map (posAt ps)).Pairwise Before := fun k =>
    group_sorted (C := m.ras.hdr.cols) (fun a ha => (hC.inside a ha).2.2) hC.sorted (fun i hi => hP.lt hi) (hasc k)
  obtain ⟨subs, es, hs⟩ := comOne_all (d := d) hsort hgrp pl.ins [] _ H.gives (comMask_start hP hm.old)
  rw [List.nil_append] at hs
  have hpres : ∀ k w, some (k, w) ∈ pl.pieces → Present (byValue hM vM) k := by
    intro k w hk
    obtain ⟨x, hx, he⟩ := List.mem_map.1 hk
    have hg := H.gives x hx
    rw [he] at hg
    cases hg with
    | piece _ _ h _ _ _ => exact h
  obtain ⟨b, d', e1, e2, e3⟩ := com_file sys hm H.toComOut hC hgrp hpres hs
  refine ⟨d', ⟨{ m.ras with dflt := j.default.toQ }, subs⟩, ?_, ⟨hm.grid, hm.nd, hm.hnd, ⟨ls, ps, G, ?_, hs.part, hasc, hgrp⟩, hs.old⟩, e2, e3⟩
  · unfold comJob
    dsimp only
    rw [if_pos H.fmts.1, H.ins, es]
    simp only [Out.ok_bind]
    rw [if_pos H.fmts.2]
    rw [e1]
    rfl
  · exact ⟨hC.holds, hC.rows_nn, hC.cols_nn, hC.len, hC.ncells, hC.ne, hC.calcOn, hC.pd, hC.pi, hC.inside, hC.sorted⟩

/-! ### all jobs -/

theorem gives_same {d d' : Disk} {new : Path → Prop} (hw : Fs.Spec.WF d.fs) (hr : Rewritten d d' new) (hd : ∀ q, new q → d.fs.kindOf q ≠ some .dir)
    {g : Groups} {s : Str} {q : Path} {x} (hq : ¬ new q) (h : Gives d g s q x) : Gives d' g s q x := by
  have hN : ∀ {core}, Names d.fs s q core → Names d'.fs s q core := by
    rintro core ⟨p, dt, suf, hn, e1, e2⟩
    exact ⟨p, dt, suf, nameIn_same hr hd hn, e1, e2⟩
  cases h with
  | piece h1 h2 h3 h4 h5 h6 => exact .piece (hN h1) h2 h3 (resolve_same hr hd h4 hq) (rasterFile_same hw hr hd h4 hq h5) h6
  | unnumbered h1 h2 => exact .unnumbered (hN h1) h2
  | nogroup h1 h2 h3 => exact .nogroup (hN h1) h2 h3
  | missing h1 h2 => exact .missing (hN h1) (by rw [(hr.same q hq).1]; exact h2)
  | refused h1 h2 h3 => exact .refused (hN h1) (resolve_same hr hd h2 hq) (fun b x => by rw [readFromFile_same hw hr hd h2 hq]; exact h3 b x)
  | unfit h1 h2 h4 h5 h6 => exact .unfit (hN h1) h2 (resolve_same hr hd h4 hq) (rasterFile_same hw hr hd h4 hq h5) h6

theorem comOk_same {sys : Sys} {d d' : Disk} {hM : Header} {vM : Int → Int → ℚ} {j : Job} {pl : ComPlan} {new : Path → Prop} (hw : Fs.Spec.WF d.fs)
    (hr : Rewritten d d' new) (hd : ∀ q, new q → d.fs.kindOf q ≠ some .dir) (hi : ∀ x ∈ pl.ins, ¬ new x.2.1) (H : ComOk sys d hM vM j pl) :
    ComOk sys d' hM vM j pl :=
  ⟨⟨H.out, nameIn_same hr hd H.name, H.kind, nodir_same hr H.nodir, writable_same hr H.write, H.hdr, H.vals, H.nodata⟩, H.fmts, H.ins,
    fun x hx => gives_same hw hr hd (hi x hx) (H.gives x hx)⟩

theorem comTarget_nodir {sys : Sys} {d : Disk} {hM : Header} {vM : Int → Int → ℚ} {j : Job} {pl : ComPlan} (H : ComOk sys d hM vM j pl) {q : Path}
    (hq : ComTarget pl q) : d.fs.kindOf q ≠ some .dir := by
  rw [hq.2]
  exact H.write.nodir

/-- C79: all jobs of the mode COM, in their order. -/
theorem C79_batch (sys : Sys) {hM : Header} {vM : Int → Int → ℚ} : ∀ (xs : List (Job × ComPlan)) (d : Disk) (m : RasterS), Fs.Spec.WF d.fs →
    ComMask m hM vM → (∀ x ∈ xs, ComOk sys d hM vM x.1 x.2) → ApartCom xs →
    ∃ d' m', (xs.map (·.1)).foldlM (comJob sys) (d, m) = .ok (d', m') ∧ ComMask m' hM vM ∧
      Rewritten d d' (fun q => ∃ x ∈ xs, ComTarget x.2 q) ∧ ∀ x ∈ xs, ComDone d' hM vM x.1 x.2 := by
  intro xs
  induction xs with
  | nil =>
    intro d m hw hI _ _
    exact ⟨d, m, rfl, hI, rewritten_refl hw (by rintro q ⟨x, h, -⟩; cases h), by intro x h; cases h⟩
  | cons x xs ih =>
    intro d m hw hI hx hA
    obtain ⟨hA1, hA2⟩ := List.pairwise_cons.1 hA
    have H := hx x List.mem_cons_self
    obtain ⟨d1, m1, e1, hI1, hr1, hd1⟩ := C79_job sys hI H
    have hd0 : ∀ q, ComTarget x.2 q → d.fs.kindOf q ≠ some .dir := fun q hq => comTarget_nodir H hq
    have hx1 : ∀ y ∈ xs, ComOk sys d1 hM vM y.1 y.2 := fun y hy =>
      comOk_same hw hr1 hd0 (fun z hz h => (hA1 y hy _ h).1 z hz rfl) (hx y (List.mem_cons_of_mem _ hy))
    obtain ⟨d2, m2, e2, hI2, hr2, hd2⟩ := ih d1 m1 hr1.wf hI1 hx1 hA2
    have hnew : ∀ q, (∃ y ∈ xs, ComTarget y.2 q) → d1.fs.kindOf q ≠ some .dir := by
      rintro q ⟨y, hy, hq⟩
      exact comTarget_nodir (hx1 y hy) hq
    refine ⟨d2, m2, ?_, hI2, rewritten_trans hr1 hr2 ?_, ?_⟩
    · rw [List.map_cons, List.foldlM_cons, e1]
      exact e2
    · intro q
      simp only [List.mem_cons, exists_eq_or_imp]
    · intro y hy
      rcases List.mem_cons.1 hy with rfl | hy
      · intro hany
        have ht : ComTarget y.2 (y.2.dir ++ [subsetCore 0 y.2.core ++ '.' :: y.2.suf]) := ⟨hany, rfl⟩
        have hN := nameIn_core (nameIn_same hr1 hd0 H.name) (subsetCore_slash H.name.core 0)
        refine reads_same hN.wf hr2 hnew (resolve_out hN (hr1.file _ ht)) ?_ (hd1 hany)
        rintro ⟨z, hz, hq'⟩
        exact (hA1 z hz _ ht).2 hq'
      · exact hd2 y hy

/-- C79: a run in the mode COM with a mask file. -/
theorem C79_run (sys : Sys) {w : World} {d : Disk} {args : List Str} {c : Cfg} {xs : List (Job × ComPlan)} (hw : Fs.Spec.WF d.fs)
    (hc : configure w args = .ok (.go c)) (hjs : jobs c = .ok (xs.map (·.1))) (hmode : c.mode = .com)
    {hM : Header} {vM : Int → Int → ℚ} (hf : c.maskFmt = .sfile) (hmask : RasterFile d c.maskPath hM vM) (hv : ∃ row col, HasValue hM vM row col)
    (hA : ApartCom xs) (hj : ∀ x ∈ xs, ComOk sys d hM vM x.1 x.2) :
    ∃ d', run sys w d args = .ok (0, d') ∧ Rewritten d d' (fun q => ∃ x ∈ xs, ComTarget x.2 q) ∧ ∀ x ∈ xs, ComDone d' hM vM x.1 x.2 := by
  obtain ⟨M, eM, hb, hcl, hg, hn, hval, h2, hl, hnc⟩ := mask_file hmask NODATA
  obtain ⟨m, b, eb, hm⟩ := cutMask_of hb hcl hg hn hval h2 hv
  obtain ⟨d', m', e, -, h1, h2⟩ := C79_batch sys xs d m hw hm.comMask hj hA
  refine ⟨d', ?_, h1, h2⟩
  unfold run
  rw [hc]
  simp only [Out.ok_bind]
  rw [hjs]
  simp only [Out.ok_bind]
  rw [loadMask_file hf hmask eM]
  simp only [Out.ok_bind]
  have hp : prepareMask c.mode (some ⟨M, []⟩) = .ok (some m) := by
    unfold prepareMask
    dsimp only
    rw [if_neg (by rw [hmode]; simp), eb]
    rfl
  rw [hp]
  simp only [Out.ok_bind]
  unfold runJobs
  rw [if_pos hmode]
  dsimp only
  rw [e]
  rfl

/-- C79: without a mask the mode COM does nothing and reports an error (unless there is nothing to do). -/
theorem C79_no_mask (sys : Sys) {w : World} {d : Disk} {args : List Str} {c : Cfg} {js : List Job} (hc : configure w args = .ok (.go c))
    (hjs : jobs c = .ok js) (hmode : c.mode = .com) (hm : c.maskPath = [] ∨ c.maskFmt ≠ .sfile ∨ fileExists d.fs c.maskPath = false) :
    run sys w d args = .ok (if js = [] then 0 else 1, d) := by
  have hl : loadMask d c = .ok (.go none) := by
    unfold loadMask
    by_cases h : c.maskPath = []
    · rw [if_pos h]
    · rw [if_neg h, if_neg]
      rintro ⟨h1, h2⟩
      rcases hm with h3 | h3 | h3
      · exact h h3
      · exact h3 h1
      · rw [h3] at h2; cases h2
  unfold run
  rw [hc]
  simp only [Out.ok_bind]
  rw [hjs]
  simp only [Out.ok_bind]
  rw [hl]
  simp only [Out.ok_bind]
  rw [show prepareMask c.mode none = .ok none from rfl]
  simp only [Out.ok_bind]
  unfold runJobs
  rw [if_pos hmode]

/-! ### the files of the modes DEC and MASKDEC are pieces for the mode COM -/

theorem intToDec_no_under (k : Int) : '_' ∉ intToDec k := by
  have key : ∀ n, '_' ∉ natToDec n := by
    intro n h
    have := natToDec_digits n _ h
    revert this
    decide
  cases k with
  | ofNat n => exact key n
  | negSucc n =>
    intro h
    have h : '_' ∈ '-' :: natToDec (n + 1) := h
    rcases List.mem_cons.1 h with h | h
    · cases h
    · exact key _ h

theorem numberOf_subset {k : Int} (h1 : -(2 ^ 31) ≤ k) (h2 : k < 2 ^ 31) (core : Str) : NumberOf (subsetCore k core) k := by
  rw [numberOf_iff]
  have hsp : splitDelim '_' (subsetCore k core) = intToDec k :: splitDelim '_' core := by
    apply splitDelim_cons_some
    have : ∀ (a : Str), '_' ∉ a → getlineOne '_' (a ++ '_' :: core) = (a, some core) := by
      intro a
      induction a with
      | nil => intro _; rfl
      | cons c a ih =>
        intro hc
        have hc1 : c ≠ '_' := fun h => hc (by rw [h]; exact List.mem_cons_self)
        have := ih (fun h => hc (List.mem_cons_of_mem _ h))
        rw [List.cons_append, getlineOne, this]
        simp [hc1]
    exact this _ (intToDec_no_under k)
  exact ⟨_, _, hsp, (C35_isInt _ _).2 ⟨(isDecInt_iff _ _).2 rfl, h1, h2⟩⟩

/-- The file of a group as the modes DEC and MASKDEC write it (for a table with one layer) is a piece for the cells of the group, if the table
gives none of them the NoData value. -/
theorem C79_piece {d : Disk} {name : Nat → Str} {h : Header} {v : Int → Int → ℚ} {c : Int → Int → Prop} {T : List (Int × List ℚ)} {fill : ℚ}
    (H : Single d name 1 h v c T fill) (hno : ∀ row col, c row col → floatEqual (CCGL.Spec.tableValue T (truncQ (v row col)) 0 fill) h.noData = false) :
    ∃ hp vp, RasterFile d (name 0) hp vp ∧ Fills hp vp c (fun row col => CCGL.Spec.tableValue T (truncQ (v row col)) 0 fill) := by
  obtain ⟨r0, r1, c0, c1, hb, H⟩ := H
  obtain ⟨w, hr, hw⟩ := H 0 (by omega)
  obtain ⟨col, hc⟩ := hb.top
  obtain ⟨row, hc'⟩ := hb.left
  have b1 := hb.inside _ _ hc
  have b2 := hb.inside _ _ hc'
  refine ⟨boxHeader h r0 r1 c0 c1, w, ⟨hr, by show 0 < r1 - r0 + 1; omega, by show 0 < c1 - c0 + 1; omega⟩, fun a => (a.1 - r0, a.2 - c0), ?_, ?_, ?_⟩
  · intro a ha
    have hin := hb.inside _ _ ha
    have := (hw a.1 a.2 hin.1 hin.2.1 hin.2.2.1 hin.2.2.2).1 ha
    refine ⟨⟨⟨by show 0 ≤ a.1 - r0; omega, by show a.1 - r0 < r1 - r0 + 1; omega, by show 0 ≤ a.2 - c0; omega,
      by show a.2 - c0 < c1 - c0 + 1; omega⟩, ?_⟩, this.symm⟩
    show floatEqual (w (a.1 - r0) (a.2 - c0)) h.noData = false
    rw [this]
    exact hno _ _ ha
  · rintro b ⟨⟨q1, q2, q3, q4⟩, hv⟩
    have q2 : b.1 < r1 - r0 + 1 := q2
    have q4 : b.2 < c1 - c0 + 1 := q4
    refine ⟨(b.1 + r0, b.2 + c0), ?_, by ext <;> simp⟩
    by_contra hn
    have := (hw (b.1 + r0) (b.2 + c0) (by omega) (by omega) (by omega) (by omega)).2 hn
    simp only [add_sub_cancel_right] at this
    have hv : floatEqual (w b.1 b.2) h.noData = false := hv
    rw [this, floatEqual_self] at hv
    cases hv
  · intro a b _ _ hab
    unfold Before at hab ⊢
    dsimp only
    omega

/-- C79: so the mode COM takes over such a file: what the mode DEC wrote for group `k` comes back at the cells of the group. -/
theorem C79_roundtrip {d : Disk} {hM : Header} {vM : Int → Int → ℚ} {p : Path} {dt core suf : Str} (hn : NameIn d.fs p dt core suf) {k : Int}
    (h1 : -(2 ^ 31) ≤ k) (h2 : k < 2 ^ 31) (hk : Present (byValue hM vM) k) {h : Header} {v : Int → Int → ℚ} {T : List (Int × List ℚ)} {fill : ℚ}
    (hf : d.fs.kindOf (outPath p core suf 1 k 0) = some .file)
    (H : Single d (outFile dt core suf 1 k) 1 h v (byValue hM vM k) T fill)
    (hno : ∀ row col, byValue hM vM k row col → floatEqual (CCGL.Spec.tableValue T (truncQ (v row col)) 0 fill) h.noData = false) :
    Gives d (byValue hM vM) (outFile dt core suf 1 k 0) (outPath p core suf 1 k 0)
      (some (k, fun row col => CCGL.Spec.tableValue T (truncQ (v row col)) 0 fill)) := by
  obtain ⟨hp, vp, a, b⟩ := C79_piece H hno
  have hn' := nameIn_core hn (subsetCore_slash hn.core k)
  exact .piece (core := subsetCore k core) ⟨p, dt, suf, hn', rfl, rfl⟩ (numberOf_subset h1 h2 core) hk (resolve_out hn' hf) a b

/-! ### an example -/

/-- A mask with the groups 1, 2 and 3, a piece for group 1, a piece for group 2 (on a grid of its own), a file with the number 1 that does not fit. -/
def exComWorld (text : String) : World where
  fs := { entries := [(["m.tif".toList], .file), (["1_x.tif".toList], .file), (["2_x.tif".toList], .file), (["1_y.tif".toList], .file), (["c.txt".toList], .file)]
          cwd := [], deny := fun _ => false }
  text := fun p => if p = "/c.txt".toList then some text.toList else none
  mongo := fun _ => none

def exComDisk : Disk where
  fs := (exComWorld "").fs
  data := fun p =>
    if p = ["m.tif".toList] then some (.tif (exGrid 2 3 [1, 3, 1, 2, 2, -9999]))
    else if p = ["1_x.tif".toList] then some (.tif (exGrid 1 2 [5, 6]))
    else if p = ["2_x.tif".toList] then some (.tif (exGrid 1 3 [7, -9999, 8]))
    else if p = ["1_y.tif".toList] then some (.tif (exGrid 1 1 [9]))
    else none

def exComH (rows cols : Int) : Header :=
  { rows := rows, cols := cols, cellsize := 1, xll := 1 / 2, yll := 1 / 2, noData := -9999, layers := 1, cellsnum := rows * cols }

def exComM : Int → Int → ℚ := fun row col => [1, 3, 1, 2, 2, -9999].getD (row * 3 + col).toNat 0

theorem exCom_wf : Fs.Spec.WF exComDisk.fs := ⟨by decide +kernel, by decide +kernel, by unfold Fs.Spec.GoodName; decide +kernel, by decide +kernel⟩

theorem exCom_m : RasterFile exComDisk "/m.tif".toList (exComH 2 3) exComM :=
  rasterFile_of (h := exComH 2 3) (by decide +kernel) (by decide +kernel) (by decide) (by decide) (by decide)

def exW1 : Int → Int → ℚ := fun _ col => if col = 0 then 5 else 6
def exW2 : Int → Int → ℚ := fun _ col => if col = 0 then 7 else 8

theorem exCom_cells {k row col : Int} (h : byValue (exComH 2 3) exComM k row col) :
    (row = 0 ∧ col = 0 ∧ k = 1) ∨ (row = 0 ∧ col = 1 ∧ k = 3) ∨ (row = 0 ∧ col = 2 ∧ k = 1) ∨ (row = 1 ∧ col = 0 ∧ k = 2) ∨ (row = 1 ∧ col = 1 ∧ k = 2) := by
  obtain ⟨⟨⟨a, b, c, d⟩, hv⟩, hk⟩ := h
  have b : row < 2 := b
  have d : col < 3 := d
  have hr : row = 0 ∨ row = 1 := by omega
  have hc : col = 0 ∨ col = 1 ∨ col = 2 := by omega
  rcases hr with rfl | rfl <;> rcases hc with rfl | rfl | rfl
  · exact .inl ⟨rfl, rfl, by rw [← hk]; decide +kernel⟩
  · exact .inr (.inl ⟨rfl, rfl, by rw [← hk]; decide +kernel⟩)
  · exact .inr (.inr (.inl ⟨rfl, rfl, by rw [← hk]; decide +kernel⟩))
  · exact .inr (.inr (.inr (.inl ⟨rfl, rfl, by rw [← hk]; decide +kernel⟩)))
  · exact .inr (.inr (.inr (.inr ⟨rfl, rfl, by rw [← hk]; decide +kernel⟩)))
  · exact absurd hv (by decide +kernel)

theorem exCom_has (row col k : Int) (h1 : 0 ≤ row) (h2 : row < 2) (h3 : 0 ≤ col) (h4 : col < 3) (hv : floatEqual (exComM row col) (-9999) = false)
    (hk : truncQ (exComM row col) = k) : byValue (exComH 2 3) exComM k row col := ⟨⟨⟨h1, h2, h3, h4⟩, hv⟩, hk⟩

theorem exCom_00 : byValue (exComH 2 3) exComM 1 0 0 := exCom_has 0 0 1 (by decide) (by decide) (by decide) (by decide) (by decide +kernel) (by decide +kernel)
theorem exCom_01 : byValue (exComH 2 3) exComM 3 0 1 := exCom_has 0 1 3 (by decide) (by decide) (by decide) (by decide) (by decide +kernel) (by decide +kernel)
theorem exCom_02 : byValue (exComH 2 3) exComM 1 0 2 := exCom_has 0 2 1 (by decide) (by decide) (by decide) (by decide) (by decide +kernel) (by decide +kernel)
theorem exCom_10 : byValue (exComH 2 3) exComM 2 1 0 := exCom_has 1 0 2 (by decide) (by decide) (by decide) (by decide) (by decide +kernel) (by decide +kernel)
theorem exCom_11 : byValue (exComH 2 3) exComM 2 1 1 := exCom_has 1 1 2 (by decide) (by decide) (by decide) (by decide) (by decide +kernel) (by decide +kernel)

/-- The values 5 and 6 are for the cells (0, 0) and (0, 2). -/
theorem exCom_fill1 : Fills (exComH 1 2) (fun row col => [5, 6].getD (row * 2 + col).toNat 0) (byValue (exComH 2 3) exComM 1) exW1 := by
  refine ⟨fun a => if a.2 = 0 then (0, 0) else (0, 1), ?_, ?_, ?_⟩
  · rintro ⟨row, col⟩ h
    rcases exCom_cells h with h | h | h | h | h <;> obtain ⟨rfl, rfl, h⟩ := h <;> first
      | exact ⟨⟨⟨by decide, by decide, by decide, by decide⟩, by decide +kernel⟩, by decide +kernel⟩
      | exact absurd h (by decide)
  · rintro ⟨row, col⟩ ⟨⟨a, b, c, d⟩, -⟩
    have b : row < 1 := b
    have d : col < 2 := d
    have hr : row = 0 := by dsimp only at a; omega
    have hc : col = 0 ∨ col = 1 := by dsimp only at c; omega
    rcases hc with rfl | rfl
    · exact ⟨(0, 0), exCom_00, by rw [hr]; rfl⟩
    · exact ⟨(0, 2), exCom_02, by rw [hr]; rfl⟩
  · rintro ⟨row, col⟩ ⟨row', col'⟩ h h' hb
    rcases exCom_cells h with g | g | g | g | g <;> obtain ⟨g1, g2, g3⟩ := g <;> rcases exCom_cells h' with g' | g' | g' | g' | g' <;>
      obtain ⟨g4, g5, g6⟩ := g' <;> first
      | omega
      | (subst g1 g2 g4 g5; unfold Before at hb ⊢; revert hb; decide)

/-- The values 7 and 8, with a cell without value in between, are for the cells (1, 0) and (1, 1). -/
theorem exCom_fill2 : Fills (exComH 1 3) (fun row col => [7, -9999, 8].getD (row * 3 + col).toNat 0) (byValue (exComH 2 3) exComM 2) exW2 := by
  refine ⟨fun a => if a.2 = 0 then (0, 0) else (0, 2), ?_, ?_, ?_⟩
  · rintro ⟨row, col⟩ h
    rcases exCom_cells h with h | h | h | h | h <;> obtain ⟨rfl, rfl, h⟩ := h <;> first
      | exact ⟨⟨⟨by decide, by decide, by decide, by decide⟩, by decide +kernel⟩, by decide +kernel⟩
      | exact absurd h (by decide)
  · rintro ⟨row, col⟩ ⟨⟨a, b, c, d⟩, hv⟩
    have b : row < 1 := b
    have d : col < 3 := d
    have hr : row = 0 := by dsimp only at a; omega
    have hc : col = 0 ∨ col = 1 ∨ col = 2 := by dsimp only at c; omega
    subst hr
    rcases hc with rfl | rfl | rfl
    · exact ⟨(1, 0), exCom_10, rfl⟩
    · exact absurd hv (by decide +kernel)
    · exact ⟨(1, 1), exCom_11, rfl⟩
  · rintro ⟨row, col⟩ ⟨row', col'⟩ h h' hb
    rcases exCom_cells h with g | g | g | g | g <;> obtain ⟨g1, g2, g3⟩ := g <;> rcases exCom_cells h' with g' | g' | g' | g' | g' <;>
      obtain ⟨g4, g5, g6⟩ := g' <;> first
      | omega
      | (subst g1 g2 g4 g5; unfold Before at hb ⊢; revert hb; decide)

/-- One value does not fit two cells. -/
theorem exCom_unfit (w) : ¬ Fills (exComH 1 1) (fun row col => [9].getD (row * 1 + col).toNat 0) (byValue (exComH 2 3) exComM 1) w := by
  rintro ⟨f, h1, -, h3⟩
  have a := (h1 (0, 0) exCom_00).1.1
  have b := (h1 (0, 2) exCom_02).1.1
  have c := h3 (0, 0) (0, 2) exCom_00 exCom_02 (.inr ⟨rfl, by decide⟩)
  obtain ⟨a1, a2, a3, a4⟩ := a
  obtain ⟨b1, b2, b3, b4⟩ := b
  have a2 : (f (0, 0)).1 < 1 := a2
  have a4 : (f (0, 0)).2 < 1 := a4
  have b2 : (f (0, 2)).1 < 1 := b2
  have b4 : (f (0, 2)).2 < 1 := b4
  unfold Before at c
  omega

theorem exCom_name (core : Str) (hc : '/' ∉ core) : NameIn exComDisk.fs [] "/".toList core "tif".toList := ⟨exCom_wf, ⟨by simp, rfl⟩, hc, by decide, rfl⟩

def exComPlan : ComPlan where
  ins := [("/1_x.tif".toList, ["1_x.tif".toList], some (1, exW1)), ("/2_x.tif".toList, ["2_x.tif".toList], some (2, exW2)),
    ("/1_y.tif".toList, ["1_y.tif".toList], none)]
  dir := []
  dt := "/".toList
  core := "o".toList
  suf := "tif".toList

def exComJob : Job where
  inputs := ["/1_x.tif".toList, "/2_x.tif".toList, "/1_y.tif".toList]
  inFmt := .sfile
  out := "/o.tif".toList
  outFmt := .sfile
  default := .fin 4
  update := false
  nodata := .fin (-9999)
  type := .double
  recls := false
  table := []

theorem exCom_number (k : Int) (h1 : -(2 ^ 31) ≤ k) (h2 : k < 2 ^ 31) (c : String) (core : Str) (h : core = subsetCore k c.toList) : NumberOf core k := by
  rw [h]
  exact numberOf_subset h1 h2 _

theorem exCom_ok : ComOk exSys exComDisk (exComH 2 3) exComM exComJob exComPlan where
  fmts := ⟨rfl, rfl⟩
  ins := rfl
  gives := by
    intro x hx
    simp only [exComPlan, List.mem_cons, List.not_mem_nil, or_false] at hx
    rcases hx with rfl | rfl | rfl
    · exact .piece (core := "1_x".toList) ⟨[], "/".toList, "tif".toList, exCom_name _ (by decide), by decide, by decide⟩
        (exCom_number 1 (by decide) (by decide) "x" _ (by decide +kernel)) ⟨0, 0, exCom_00⟩ (by decide +kernel)
        (rasterFile_of (h := exComH 1 2) (by decide +kernel) (by decide +kernel) (by decide) (by decide) (by decide)) exCom_fill1
    · exact .piece (core := "2_x".toList) ⟨[], "/".toList, "tif".toList, exCom_name _ (by decide), by decide, by decide⟩
        (exCom_number 2 (by decide) (by decide) "x" _ (by decide +kernel)) ⟨1, 0, exCom_10⟩ (by decide +kernel)
        (rasterFile_of (h := exComH 1 3) (by decide +kernel) (by decide +kernel) (by decide) (by decide) (by decide)) exCom_fill2
    · exact .unfit (core := "1_y".toList) ⟨[], "/".toList, "tif".toList, exCom_name _ (by decide), by decide, by decide⟩
        (exCom_number 1 (by decide) (by decide) "y" _ (by decide +kernel)) (by decide +kernel)
        (rasterFile_of (h := exComH 1 1) (by decide +kernel) (by decide +kernel) (by decide) (by decide) (by decide)) exCom_unfit
  out := by decide
  name := exCom_name _ (by decide)
  kind := .inr ⟨exTif, by decide, .inr ⟨rfl, by decide⟩⟩
  nodir := by decide +kernel
  write := ⟨by decide +kernel, rfl, rfl, fun _ => rfl, rfl⟩
  hdr := ⟨by decide, by decide, fun ha => (asc_not_tif ha exTif).elim⟩
  vals := fun _ _ _ => ⟨fun ha => (asc_not_tif ha exTif).elim, fun _ h => by cases h⟩
  nodata := ⟨fun ha => (asc_not_tif ha exTif).elim, fun _ h => by cases h⟩

def exComText : String := "/1_x.tif,/2_x.tif,/1_y.tif;/o.tif;4\n"
def exComArgs : List Str := ["-mode".toList, "com".toList, "-mask".toList, "/m.tif".toList, "-configfile".toList, "/c.txt".toList]

theorem exCom_jobs : jobsOf (exComWorld exComText) exComArgs = .ok (some [exComJob]) := by decide +kernel

/-- A whole run: the pieces end up at the cells of their groups, the group without piece gets the default value, the cell outside the mask NoData. -/
example : ∃ d', run exSys (exComWorld exComText) exComDisk exComArgs = .ok (0, d') ∧ ∃ v, ReadsAs d' "/0_o.tif".toList (exComH 2 3) v ∧
    v 0 0 = 5 ∧ v 0 1 = 4 ∧ v 0 2 = 6 ∧ v 1 0 = 7 ∧ v 1 1 = 8 ∧ v 1 2 = -9999 := by
  have hcfg : (configure (exComWorld exComText) exComArgs).bind (fun | .exit _ => .ub | .go c => .ok (c.mode, c.maskFmt, c.maskPath)) =
      .ok (.com, .sfile, "/m.tif".toList) := by decide +kernel
  obtain ⟨c, h1, h2⟩ := jobsOf_go exCom_jobs
  rw [h1] at hcfg
  have hcfg' : (c.mode, c.maskFmt, c.maskPath) = (IOMode.com, DataFmt.sfile, "/m.tif".toList) := Out.ok.inj hcfg
  injection hcfg' with q1 q2
  injection q2 with q2 q3
  obtain ⟨d', e, -, hd⟩ := C79_run exSys (xs := [(exComJob, exComPlan)]) exCom_wf h1 h2 q1 q2 (by rw [q3]; exact exCom_m) ⟨0, 0, exCom_00.1⟩
    (List.pairwise_singleton _ _) (by
      intro x hx
      rw [List.mem_singleton.1 hx]
      exact exCom_ok)
  have h := hd _ (List.mem_singleton.2 rfl) ⟨("/1_x.tif".toList, ["1_x.tif".toList], some (1, exW1)),
    by unfold exComPlan; simp only [List.mem_cons, true_or], by simp⟩
  have hname : exComPlan.dt ++ subsetCore 0 exComPlan.core ++ '.' :: exComPlan.suf = "/0_o.tif".toList := by decide +kernel
  dsimp only at h
  rw [hname] at h
  have hval : ∀ k row col, byValue (exComH 2 3) exComM k row col → comVal (exComH 2 3) exComM exComPlan.pieces exComJob.default.toQ row col =
      match lastPiece exComPlan.pieces k with
      | some w => w row col
      | none => if floatEqual (exComH 2 3).noData 4 = true then (exComH 2 3).noData else 4 := by
    intro k row col hk
    unfold comVal
    rw [if_pos hk.1, hk.2]
    rfl
  refine ⟨d', e, _, h, ?_, ?_, ?_, ?_, ?_, ?_⟩
  · exact (hval _ _ _ exCom_00).trans rfl
  · exact (hval _ _ _ exCom_01).trans (by decide +kernel)
  · exact (hval _ _ _ exCom_02).trans rfl
  · exact (hval _ _ _ exCom_10).trans rfl
  · exact (hval _ _ _ exCom_11).trans rfl
  · show comVal _ _ _ _ 1 2 = _
    unfold comVal
    rw [if_neg (by rintro ⟨-, hv⟩; revert hv; decide +kernel)]
    rfl

end App
end CCGL
