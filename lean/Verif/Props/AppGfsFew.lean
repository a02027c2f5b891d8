import Verif.Spec.AppGfsFew
import Verif.Props.AppGfs
import Verif.Props.AppRecls
/-!
# The jobs of `mask_rasterio` that store files without NoData cells in GridFS (C87)
-/
namespace CCGL
namespace App
open Fs Disk Main Raster Gfs Disk.Spec App.Spec

/-- The numbers that are written: the values of the cells `S` in order. -/
structure FewStream (r : Raster) (h : Header) (v : Int → Int → ℚ) (S : Int → Int → Prop) (r1 : Raster) (ps : List (Int × Int)) : Prop where
  out : r.outputStream false = .ok (StreamOut.mk r1 { r.hdr with cellsnum := ps.length } (some (ps.map (fun rc => v rc.1 rc.2))) ps.length)
  order : InOrder h S ps
  ne : ps ≠ []

theorem list_of_get {cells : List ℚ} {ps : List (Int × Int)} {v : Int → Int → ℚ} (hl : cells.length = ps.length)
    (h : ∀ (i : Nat) (hi : i < ps.length), cells[i]? = some (v ps[i].1 ps[i].2)) : cells = ps.map (fun rc => v rc.1 rc.2) := by
  apply List.ext_getElem?
  intro i
  by_cases hi : i < ps.length
  · rw [h i hi, List.getElem?_map, List.getElem?_eq_getElem hi]; rfl
  · rw [List.getElem?_eq_none (by omega), List.getElem?_eq_none (by rw [List.length_map]; omega)]

theorem compact_stream {r1 : Raster} {ls ps} (hc : r1.Compact ls ps) (hl : r1.nLyrs = 1) {v : Int → Int → ℚ}
    (hv : ∀ rc ∈ ps, r1.getValue rc.1 rc.2 1 = .ok (v rc.1 rc.2)) :
    r1.outputStream false = .ok (StreamOut.mk r1 r1.hdr (some (ps.map (fun rc => v rc.1 rc.2))) ps.length) := by
  obtain ⟨cells, e1, hlen, hcell⟩ := hc.stream_valid
  rw [hl, one_mul, hc.ncells] at hlen
  rw [hl, one_mul, hc.ncells] at e1
  have hlen' : cells.length = ps.length := by exact_mod_cast hlen
  have : cells = ps.map (fun rc => v rc.1 rc.2) := by
    refine list_of_get hlen' ?_
    intro i hi
    have h1 := hcell i 0 (by rw [hc.ncells]; exact_mod_cast hi) (by rw [hl]; decide)
    rw [hl] at h1
    have e0 : i * (1 : Int).toNat + 0 = i := by simp
    rw [e0] at h1
    obtain ⟨-, h2⟩ := hc.getValue_hit ps[i].1 ps[i].2 1 i hi rfl ⟨le_rfl, by rw [hl]⟩
    rw [hv _ (List.getElem_mem hi)] at h2
    injection h2 with h2
    rw [h1, h2]
    unfold cellAt
    rw [List.getD_eq_getElem ls _ (by rw [hc.len]; exact hi)]
    rfl
  rw [this] at e1
  exact e1

/-- A raster with the positions of a mask: the cells it stores are written. -/
theorem few_stored {r : Raster} {h : Header} {v : Int → Int → ℚ} {S : Int → Int → Prop} (hr : Shows r h v) (hp : r.posData.isNone = false)
    (hS : ∀ row col, h.grid.CellInside row col → (CCGL.Spec.Stored r row col ↔ S row col)) : ∃ ps, FewStream r h v S r ps := by
  have hgr := hr.grid
  unfold Header.grid at hgr
  injection hgr with g1 g2 g3 g4 g5
  rcases built_cases hr.built (built_valid hr.built hr.cells) (fun _ => hr.cells) with ⟨ls, hf⟩ | ⟨ls, ps, hc⟩
  · rw [hf.pd] at hp; cases hp
  · have hmem : ∀ row col, (row, col) ∈ ps ↔ h.grid.CellInside row col ∧ S row col := by
      intro row col
      constructor
      · intro hm
        have hin := hc.inside _ hm
        have hin' : h.grid.CellInside row col := by
          dsimp only at hin
          rw [g1, g2] at hin
          exact hin
        refine ⟨hin', (hS row col hin').1 ?_⟩
        obtain ⟨i, hi, e⟩ := List.getElem_of_mem hm
        exact ⟨i, (hc.getValue_hit row col 1 i hi e ⟨le_rfl, by rw [hr.lyrs]⟩).1⟩
      · rintro ⟨hin, hs⟩
        obtain ⟨i, hi⟩ := (hS row col hin).2 hs
        have hin' : 0 ≤ row ∧ row < r.hdr.rows ∧ 0 ≤ col ∧ col < r.hdr.cols := by rw [g1, g2]; exact hin
        rcases hc.getPosition row col hin' with ⟨m, hm, q1, q2⟩ | ⟨q1, -⟩
        · rw [← q2]; exact List.getElem_mem hm
        · rw [q1] at hi
          injection hi with hi
          omega
    refine ⟨ps, ?_, ⟨by have := hc.sorted; rwa [g2] at this, hmem⟩, hc.ne⟩
    have e := compact_stream hc hr.lyrs (v := v) (by
      rintro ⟨row, col⟩ hm
      exact hr.val row col ((hmem row col).1 hm).1)
    rw [e]
    have : r.hdr.cellsnum = ps.length := by rw [hr.built.hdrOk.num, hc.ncells]
    rw [← this]

/-- A raster without positions: the cells that are not NoData are written. -/
theorem few_valid {r : Raster} {h : Header} {v : Int → Int → ℚ} (hr : Shows r h v) (hp : r.posData = none)
    (hval : ∃ row col, h.grid.CellInside row col ∧ NotNoData h v row col) : ∃ r1 ps, FewStream r h v (NotNoData h v) r1 ps := by
  have hgr := hr.grid
  unfold Header.grid at hgr
  injection hgr with g1 g2 g3 g4 g5
  have hfv : ∀ row col, h.grid.CellInside row col → (FirstValid r row col ↔ NotNoData h v row col) := by
    intro row col hin
    unfold FirstValid NotNoData
    rw [hr.val row col hin, hr.nodata]
    constructor
    · rintro ⟨x, e, hx⟩
      injection e with e
      rw [e]; exact hx
    · intro hx; exact ⟨_, rfl, hx⟩
  obtain ⟨r1, ls, ps, c1, c2, c3, c4, c5, c6, c7, c8, c9⟩ := clean_positions hr.built (.inl hp) (by
    obtain ⟨row, col, h1, h2⟩ := hval
    exact ⟨row, col, by rw [hr.grid]; exact h1, (hfv row col h1).2 h2⟩)
  have hmem : ∀ row col, (row, col) ∈ ps ↔ h.grid.CellInside row col ∧ NotNoData h v row col := by
    intro row col
    rw [c8, hr.grid]
    constructor
    · rintro ⟨a, b⟩; exact ⟨a, (hfv row col a).1 b⟩
    · rintro ⟨a, b⟩; exact ⟨a, (hfv row col a).2 b⟩
  have hl : r1.nLyrs = 1 := by rw [c6, hr.lyrs]
  refine ⟨r1, ps, ?_, ⟨?_, hmem⟩, c1.ne⟩
  · have e1 := compact_stream c1 hl (v := v) (by
      rintro ⟨row, col⟩ hm
      dsimp only
      rw [c9 row col 1 hm le_rfl (by rw [hr.lyrs])]
      exact hr.val row col ((hmem row col).1 hm).1)
    rw [c4] at e1
    rw [← e1]
    rcases c3 with ⟨b1, ⟨c, b2⟩, b3, b4⟩ | b1
    · unfold Raster.outputStream
      simp only [b1, b3, Option.isSome_none, Bool.or_false, Bool.and_false, Bool.false_eq_true, if_false,
        Out.pure_eq, Out.ok_bind, Option.isNone_none, Bool.or_true, Bool.not_false, Bool.and_true, if_true, b2,
        Raster.getPositionData, c1.pd, c1.pi, Option.isSome_some, Option.isNone_some, Bool.false_and]
    · rw [b1]
  · have := c1.sorted
    rw [c4] at this
    rwa [g2] at this

theorem few_type_stored (own : Opts) {ty : RDT} (h : ty ≠ .unknown) :
    Opts.get (outOpts .double own (fewOpts ty) false) kTypeOut = some (rdtToString ty.code) := by
  have hk : kTypeOut ≠ kIncNodata := by decide
  have h1 : Opts.get (Opts.copyInto (fewOpts ty) own) kTypeOut = some (rdtToString ty.code) := by
    have : Opts.copyInto (fewOpts ty) own = Opts.set (Opts.set own kTypeOut (rdtToString ty.code)) kIncNodata "FALSE".toList := rfl
    rw [this, Opts.get_set, if_neg hk, Opts.get_set, if_pos rfl]
  have h2 : stringMatch "Unknown".toList (rdtToString ty.code) = false := by
    cases ty
    · exact absurd rfl h
    all_goals decide +kernel
  unfold outOpts
  dsimp only
  rw [h1]
  dsimp only
  rw [h2, if_neg (by decide), Opts.get_set, if_neg hk, h1]

theorem few_type_mem (own : Opts) {ty : RDT} (h : ty ≠ .unknown) :
    ("DATATYPE_OUT".toList, rdtToString ty.code) ∈ outOpts .double own (fewOpts ty) false := get_mem (few_type_stored own h)

theorem few_sub (own : Opts) {ty : RDT} (h : ty ≠ .unknown) : ∀ k v, (k, v) ∈ fewOpts ty → (k, v) ∈ outOpts .double own (fewOpts ty) false := by
  intro k v hkv
  unfold fewOpts at hkv
  simp only [List.mem_cons, List.not_mem_nil, or_false, Prod.mk.injEq] at hkv
  rcases hkv with ⟨rfl, rfl⟩ | ⟨rfl, rfl⟩
  · exact few_type_mem own h
  · unfold outOpts
    exact Gfs.set_mem _ _ _

theorem inOpts_few (ty : RDT) : inOpts (fewOpts ty) = fewOpts ty := by
  cases ty <;> decide +kernel

theorem jobOpts_false (ty : RDT) : jobOpts false ty = fewOpts ty := rfl

theorem inOrder_le {h : Header} {S : Int → Int → Prop} {ps : List (Int × Int)} (hp : InOrder h S ps) (h0 : 0 ≤ h.rows) (h1 : 0 ≤ h.cols) :
    (ps.length : Int) ≤ h.rows * h.cols := by
  have hnd1 : ps.Nodup := by
    have := hp.1
    rw [List.pairwise_map] at this
    exact this.imp (by rintro x y hxy rfl; omega)
  have hsub : ps ⊆ gridCells h.rows h.cols := by
    rintro ⟨row, col⟩ hrc
    exact (mem_gridCells _ _ (row, col)).2 ((hp.2 row col).1 hrc).1
  have hl := (List.subperm_of_subset hnd1 hsub).length_le
  obtain ⟨R, hR⟩ := Int.eq_ofNat_of_zero_le h0
  obtain ⟨C, hC⟩ := Int.eq_ofNat_of_zero_le h1
  have e := congrArg List.length (gridCells_idx R C)
  rw [List.length_map, List.length_map, List.length_range] at e
  rw [hR, hC] at hl ⊢
  rw [e] at hl
  exact_mod_cast hl

/-- Storing the cells `S` of a raster with one layer. -/
theorem store_few {rnd : ℚ → ℚ} (hrnd : ∀ v, CCGL.Spec.Representable .float v → rnd v = v) {st : Store} {j : Job} {jd : JobDb} {r r1 : Raster} {h : Header}
    {v : Int → Int → ℚ} {S : Int → Int → Prop} {ps : List (Int × Int)} (hr : Shows r h v) (hh : r.hdr.noData = h.noData) (hs : FewStream r h v S r1 ps)
    (ho : BucketFew st j jd h) (hv : ∀ row col, h.grid.CellInside row col → Fits j.type (v row col)) :
    ∃ st' ok, outputToMongo rnd .double jd.rm jd.att st r jd.own jd.core (storedName j.out) (jobOpts false j.type) false =
        .ok (r1, outOpts .double jd.own (fewOpts j.type) false, st', ok) ∧
      (ok = true ↔ ∃ i, i < 4 ∧ (jd.att i).reported = true) ∧
      (∀ R : CCGL.Spec.Key, R.name ≠ storedName j.out → CCGL.Spec.filesOf st' R = CCGL.Spec.filesOf st R) ∧
      (ok = true → HoldsCells rnd st' (storedName j.out) (fewOpts j.type) h v S) ∧
      (ok = false → CCGL.Spec.filesOf st' ⟨storedName j.out, fewOpts j.type⟩ = []) := by
  have hgr := hr.grid
  unfold Header.grid at hgr
  injection hgr with g1 g2 g3 g4 g5
  have hly : r.hdr.layers = 1 := by rw [hr.built.hdrOk.lyrs, hr.lyrs]
  have hH : ({ r.hdr with cellsnum := ps.length } : Header) = { h with layers := 1, cellsnum := ps.length } := by
    dsimp only
    rw [g1, g2, g3, g4, g5, hh, hly]
  have e1 := hs.out
  rw [hH] at e1
  have hpos : 0 < ps.length := List.length_pos_of_ne_nil hs.ne
  have hle := inOrder_le hs.order ho.header.rows.1 ho.header.cols.1
  have hsH : CCGL.Spec.StorableHeader { h with layers := 1, cellsnum := ps.length } := by
    refine ⟨ho.header.rows, ho.header.cols, ho.header.layers, ⟨by (show 0 < (ps.length : Int); omega), lt_of_le_of_lt hle ho.header.cellsnum.2⟩, ?_,
      ho.header.cellsize, ho.header.xll, ho.header.yll⟩
    have := ho.header.count
    dsimp only at this ⊢
    omega
  have hcells : ∀ x ∈ ps.map (fun rc => v rc.1 rc.2), CCGL.Spec.Representable .double x ∧ CCGL.Spec.Representable j.type x := by
    intro x hx
    obtain ⟨⟨row, col⟩, hrc, rfl⟩ := List.mem_map.1 hx
    exact hv row col ((hs.order.2 row col).1 hrc).1
  have hwt : CCGL.Spec.withType .double (outOpts .double jd.own (fewOpts j.type) false) = outOpts .double jd.own (fewOpts j.type) false := by
    unfold CCGL.Spec.withType; rw [if_pos ⟨_, few_type_mem jd.own ho.type.1⟩]
  have hTO : CCGL.Spec.StorableAs .double j.type := .inr ho.type
  have hO : stringToRdt (rdtToString j.type.code) = j.type := C25_roundtrip j.type
  have hlen : ((ps.map (fun rc => v rc.1 rc.2)).length : Int) = (ps.length : Int) * 1 := by rw [List.length_map, mul_one]
  have hgw : CCGL.Spec.GoodKey ⟨storedName j.out, fewOpts j.type⟩ := by
    refine ⟨ho.key.name, ?_, fun k x hk => ho.key.key k x (few_sub jd.own ho.type.1 k x hk), fun k x hk => ho.key.val k x (few_sub jd.own ho.type.1 k x hk)⟩
    show [("DATATYPE_OUT".toList), ("INCLUDE_NODATA".toList)].Nodup
    decide
  obtain ⟨st1, okb, n, info, w1, w2, -, -, w5, w6⟩ := write_step (rnd := rnd) hrnd (T := .double) (O := j.type) (rm := jd.rm) (att := jd.att) st
    (name := storedName j.out) (h := { h with layers := 1, cellsnum := ps.length }) (cells := ps.map (fun rc => v rc.1 rc.2))
    (opts := outOpts .double jd.own (fewOpts j.type) false) (ty := rdtToString j.type.code) (by rw [hwt]; exact ho.key) hsH
    (by rw [hwt]; exact few_type_mem jd.own ho.type.1) hO hTO hcells ho.rm ho.att
  obtain ⟨st2, okb2, z1, z2, z3⟩ := store_read (rnd := rnd) hrnd (T := .double) (O := j.type) (T' := .double) (rm := jd.rm) (att := jd.att) (st := st)
    (own := jd.own) (opts := fewOpts j.type) (core := jd.core) (name := storedName j.out) (file := storedName j.out)
    (ty := rdtToString j.type.code) e1 (by rw [List.length_map]) (by rw [if_neg (by unfold storedName; simp)]) hsH ho.key
    (few_type_mem jd.own ho.type.1) hO hTO (fun x hx => ⟨(hcells x hx).1, (hcells x hx).2, (hcells x hx).1⟩) hlen ho.rm ho.att
  have z1' := z1
  unfold outputToMongo at z1'
  rw [e1, Out.ok_bind] at z1'
  dsimp only at z1'
  rw [List.length_map] at w1
  rw [if_neg (by unfold storedName; simp), w1, Out.ok_bind] at z1'
  simp only [Out.pure_eq, Out.ok.injEq, Prod.mk.injEq, true_and] at z1'
  obtain ⟨y1, y2⟩ := z1'
  subst y1 y2
  refine ⟨st1, okb, z1, z2, w5, ?_, ?_⟩
  · intro hok
    refine ⟨ho.header, ?_, ?_⟩
    · obtain ⟨⟨row, col⟩, hrc⟩ := List.exists_mem_of_ne_nil _ hs.ne
      exact ⟨row, col, (hs.order.2 row col).1 hrc⟩
    · intro ok1 ok2 h1 h2
      obtain ⟨hm, sm, q1, q2, q3⟩ := z3 hok (fewOpts j.type) (by rw [inOpts_few]; exact hgw) (by rw [inOpts_few]; exact few_sub jd.own ho.type.1)
        (by rw [inOpts_few]; exact ho.old) ok1 ok2 h1 h2
      rw [inOpts_few] at q1
      exact ⟨ps, hm, sm, q1, q2, q3, hs.order⟩
  · intro hok
    have := w6 ⟨storedName j.out, fewOpts j.type⟩ rfl (by rw [hwt]; exact few_sub jd.own ho.type.1) (by rw [hwt]; exact ho.old)
    rw [hok] at this
    exact this

theorem stored_iff {r : Raster} {h : Header} {v : Int → Int → ℚ} (hr : Shows r h v) {ps : List (Int × Int)} (hp : r.posData = some ps)
    {row col : Int} (hin : h.grid.CellInside row col) : CCGL.Spec.Stored r row col ↔ (row, col) ∈ ps := by
  have hgr := hr.grid
  unfold Header.grid at hgr
  injection hgr with g1 g2 g3 g4 g5
  rcases built_cases hr.built (built_valid hr.built hr.cells) (fun _ => hr.cells) with ⟨ls, hf⟩ | ⟨ls, ps', hc⟩
  · rw [hf.pd] at hp; cases hp
  · have hps : ps' = ps := by
      have := hc.pd
      rw [hp] at this
      injection this with this
      exact this.symm
    subst hps
    constructor
    · rintro ⟨i, hi⟩
      have hin' : 0 ≤ row ∧ row < r.hdr.rows ∧ 0 ≤ col ∧ col < r.hdr.cols := by rw [g1, g2]; exact hin
      rcases hc.getPosition row col hin' with ⟨m, hm, q1, q2⟩ | ⟨q1, -⟩
      · rw [← q2]; exact List.getElem_mem hm
      · rw [q1] at hi
        injection hi with hi
        omega
    · intro hm
      obtain ⟨i, hi, e⟩ := List.getElem_of_mem hm
      exact ⟨i, (hc.getValue_hit row col 1 i hi e ⟨le_rfl, by rw [hr.lyrs]⟩).1⟩

/-- The end of a job of the mode MASK whose result is stored without NoData cells. -/
theorem finish_few {sys : Sys} (hrnd : ∀ v, CCGL.Spec.Representable .float v → sys.rnd v = v) {d : Disk} {st : Store} {mask mask' : Option RasterS}
    {j : Job} {jd : JobDb} {r : Raster} {h : Header} {v : Int → Int → ℚ} {S : Int → Int → Prop} (hr : Shows r h v) (hout : j.outFmt = .gfs) (hre : j.recls = false)
    (hfew : ∀ r' : Raster, r'.posData = r.posData →
      Shows r' { h with noData := renamedNd j.update h.noData j.nodata.toQ } (fun row col => renamed j.update h.noData j.nodata.toQ (v row col)) →
      ∃ r1 ps, FewStream r' { h with noData := renamedNd j.update h.noData j.nodata.toQ } (fun row col => renamed j.update h.noData j.nodata.toQ (v row col)) S r1 ps)
    (ho : BucketFew st j jd { h with noData := renamedNd j.update h.noData j.nodata.toQ })
    (hv : ∀ row col, h.grid.CellInside row col → Fits j.type (renamed j.update h.noData j.nodata.toQ (v row col))) :
    ∃ st' ok, finishJobDb sys false .mask (d, st, mask) (j, jd) (some ⟨r, []⟩, mask') = .ok (d, st', mask') ∧
      (ok = true ↔ ∃ i, i < 4 ∧ (jd.att i).reported = true) ∧
      (∀ R : CCGL.Spec.Key, R.name ≠ storedName j.out → CCGL.Spec.filesOf st' R = CCGL.Spec.filesOf st R) ∧
      (ok = true → HoldsCells sys.rnd st' (storedName j.out) (fewOpts j.type) { h with noData := renamedNd j.update h.noData j.nodata.toQ }
        (fun row col => renamed j.update h.noData j.nodata.toQ (v row col)) S) ∧
      (ok = false → CCGL.Spec.filesOf st' ⟨storedName j.out, fewOpts j.type⟩ = []) := by
  obtain ⟨r', e, hn, hs⟩ := shows_rename hr j.update j.nodata.toQ
  obtain ⟨p1, -⟩ := rename_pos e
  obtain ⟨r1, ps, hfs⟩ := hfew r' p1 hs
  obtain ⟨st', ok, e1, e2, e3, e4, e5⟩ := store_few hrnd hs hn hfs ho hv
  refine ⟨st', ok, ?_, e2, e3, e4, e5⟩
  unfold finishJobDb
  dsimp only
  rw [e]
  simp only [Out.ok_bind, hre, Bool.false_eq_true, if_false, Out.pure_eq]
  rw [if_neg (by rw [hout]; simp), if_pos hout]
  unfold writeJobDb
  rw [hre]
  have q1 : outSubset .mask = false := by decide
  have q2 : outAll .mask = true := by decide
  rw [q1, q2]
  simp only [Bool.false_eq_true, if_false, if_true, Out.pure_eq, Out.ok_bind]
  unfold storedName at e1
  rw [e1]
  rfl

/-- The input is a file; with a mask (whatever `INCLUDE_NODATA` is). The object stores the cells of the mask. -/
theorem file_input_masked {sys : Sys} {d : Disk} {st : Store} {j : Job} {jd : JobDb} {s : Str} {hM hR : Header} {vM vR : Int → Int → ℚ} {m : Raster} {inc : Bool}
    (hm : IsMask m hM vM) (h1 : j.inFmt = .sfile) (h2 : j.inputs = [s]) (h3 : RasterFile d s hR vR)
    (hg : CCGL.Spec.CommonGrid hR hM) (hov : Overlaps hM vM hR) (mode : IOMode) :
    ∃ r m' w, layerJobDb sys inc mode (d, st, some ⟨m, []⟩) (j, jd) =
        finishJobDb sys inc mode (d, st, some ⟨m, []⟩) (j, jd) (some ⟨r, []⟩, some ⟨m', []⟩) ∧
      IsMask m' hM vM ∧ Shows r { hM with noData := hR.noData } w ∧ r.posData.isNone = false ∧
      (∀ row col, hM.grid.CellInside row col → (CCGL.Spec.Stored r row col ↔ HasValue hM vM row col)) ∧
      (∀ row col, hM.grid.CellInside row col → MaskedCell hM vM hR vR j.default.toQ row col (w row col)) ∧
      r.dflt = checkDefault j.default.toQ hR.noData := by
  obtain ⟨x, res, hex, e1, e2, hcode, hm', hb, hnc, h2d, hly, hgr, hnd, hpd, hst, hval⟩ := file_masked_stored hm h3 hg hov j.default.toQ
  have hdf : res.ras.dflt = checkDefault j.default.toQ hR.noData := by
    obtain ⟨-, h', cells, e, -, hn', -⟩ := file_decode h3
    have e1' := e1
    rw [e] at e1'
    injection e1' with e1'
    injection e1' with e1'
    rw [maskRaster_dflt e2, ← e1', ← hn']
    rfl
  have key2 : ∀ rc : Int × Int, ∃ w, hM.grid.CellInside rc.1 rc.2 → res.ras.getValue rc.1 rc.2 1 = .ok w ∧
      MaskedCell hM vM hR vR j.default.toQ rc.1 rc.2 w := by
    intro rc
    by_cases hin : hM.grid.CellInside rc.1 rc.2
    · obtain ⟨w, hw⟩ := hval rc.1 rc.2 hin
      exact ⟨w, fun _ => hw⟩
    · exact ⟨0, fun h => absurd h hin⟩
  choose w hw using key2
  refine ⟨res.ras, res.mask, fun row col => w (row, col), ?_, hm',
    ⟨hb, hnc, h2d, hly, hgr, hnd, fun row col hin => (hw (row, col) hin).1⟩, hpd, hst, fun row col hin => (hw (row, col) hin).2, hdf⟩
  unfold layerJobDb
  have hfe : filesExist d.fs j.inputs = true := by rw [h2]; unfold filesExist; simp [hex]
  dsimp only
  rw [if_pos ⟨h1, hfe⟩]
  have hi : initFiles d j.inputs false (some ⟨m, []⟩) true j.default.toQ = .ok (some ⟨res.ras, []⟩, some ⟨res.mask, []⟩) := by
    unfold initFiles
    rw [hfe, h2]
    simp only [Bool.not_true, Bool.false_eq_true, if_false]
    unfold initFile
    rw [hex]
    simp only [Bool.not_true, Bool.false_eq_true, if_false]
    rw [e1]
    simp only [Out.ok_bind]
    unfold maskRasterS
    rw [e2]
    simp only [Out.ok_bind, or_true, if_true, Out.pure_eq, hcode]
    rfl
  rw [hi, Out.ok_bind]

/-- The same without a mask: the object stores all cells. -/
theorem file_input_plain {sys : Sys} {d : Disk} {st : Store} {j : Job} {jd : JobDb} {s : Str} {h : Header} {v : Int → Int → ℚ} {inc : Bool}
    (h1 : j.inFmt = .sfile) (h2 : j.inputs = [s]) (h3 : RasterFile d s h v) (mode : IOMode) :
    ∃ r, layerJobDb sys inc mode (d, st, none) (j, jd) = finishJobDb sys inc mode (d, st, none) (j, jd) (some ⟨r, []⟩, none) ∧
      Shows r h v ∧ r.posData = none ∧ r.dflt = checkDefault j.default.toQ h.noData := by
  obtain ⟨M, eM, k1, -, k3, k4, k5, k6, k7, k8⟩ := mask_file h3 j.default.toQ
  obtain ⟨hex, h', cells, e, -, hn', -⟩ := file_decode h3
  have hpd : M.posData = none := by
    have e1 := readFromFile_none d s _ hex e j.default.toQ
    rw [eM] at e1
    injection e1 with e1
    injection e1 with e1
    rw [e1]
    rfl
  have hdf : M.dflt = checkDefault j.default.toQ h.noData := by
    have e1 := readFromFile_none d s _ hex e j.default.toQ
    rw [eM] at e1
    injection e1 with e1
    injection e1 with e1
    rw [e1, ← hn']
    rfl
  refine ⟨M, ?_, ⟨k1, k8, k6, k7, k3, k4, k5⟩, hpd, hdf⟩
  unfold layerJobDb
  have hfe : filesExist d.fs j.inputs = true := by rw [h2]; unfold filesExist; simp [hex]
  dsimp only
  rw [if_pos ⟨h1, hfe⟩]
  have hi : initFiles d j.inputs false none true j.default.toQ = .ok (some ⟨M, []⟩, none) := by
    unfold initFiles
    rw [hfe, h2]
    simp only [Bool.not_true, Bool.false_eq_true, if_false]
    unfold initFile
    dsimp only
    rw [eM]
    rfl
  rw [hi, Out.ok_bind]

/-- What a job of the mode MASK without NoData cells leaves in the bucket. -/
def Spec.StoredFew (sys : Sys) (st st' : Store) (j : Job) (jd : JobDb) (h : Header) (v : Int → Int → ℚ) (S : Int → Int → Prop) : Prop :=
  (∀ R : CCGL.Spec.Key, R.name ≠ storedName j.out → CCGL.Spec.filesOf st' R = CCGL.Spec.filesOf st R) ∧
  ((∃ i, i < 4 ∧ (jd.att i).reported = true) → HoldsCells sys.rnd st' (storedName j.out) (fewOpts j.type) h v S) ∧
  ((∀ i, i < 4 → (jd.att i).reported = false) → CCGL.Spec.filesOf st' ⟨storedName j.out, fewOpts j.type⟩ = [])

/-- C87, INCLUDE_NODATA FALSE: a job of the mode MASK with a mask, whose input is a file, stores the values demanded by `MaskedCell` (NoData renamed
if asked for) of the cells of the mask, row by row, and nothing else. The disk does not change. -/
theorem C87_mask_few (sys : Sys) (hrnd : ∀ v, CCGL.Spec.Representable .float v → sys.rnd v = v) {d : Disk} {st : Store} {m : Raster}
    {hM hR : Header} {vM vR : Int → Int → ℚ} (hm : IsMask m hM vM) {j : Job} {jd : JobDb} {s : Str} (h1 : j.inFmt = .sfile) (h2 : j.inputs = [s])
    (h3 : RasterFile d s hR vR) (hg : CCGL.Spec.CommonGrid hR hM) (hov : Overlaps hM vM hR) (hout : j.outFmt = .gfs) (hre : j.recls = false)
    (ho : BucketFew st j jd { hM with noData := renamedNd j.update hR.noData j.nodata.toQ })
    (hf : FitsAll j.type hR vR j.default.toQ j.update j.nodata.toQ) :
    ∃ (st' : Store) (m' : Raster) (w : Int → Int → ℚ), layerJobDb sys false .mask (d, st, some ⟨m, []⟩) (j, jd) = .ok (d, st', some ⟨m', []⟩) ∧ IsMask m' hM vM ∧
      (∀ row col, hM.grid.CellInside row col → MaskedCell hM vM hR vR j.default.toQ row col (w row col)) ∧
      StoredFew sys st st' j jd { hM with noData := renamedNd j.update hR.noData j.nodata.toQ }
        (fun row col => renamed j.update hR.noData j.nodata.toQ (w row col)) (HasValue hM vM) := by
  obtain ⟨r, m', w, e, k1, k2, k3, k4, k5, -⟩ := file_input_masked (sys := sys) (st := st) (jd := jd) (inc := false) hm h1 h2 h3 hg hov .mask
  obtain ⟨ps, hps⟩ : ∃ ps, r.posData = some ps := by
    cases hp : r.posData with
    | none => rw [hp] at k3; cases k3
    | some ps => exact ⟨ps, rfl⟩
  obtain ⟨st', ok, e1, e2, e3, e4, e5⟩ := finish_few (sys := sys) hrnd (d := d) (st := st) (mask := some ⟨m, []⟩) (mask' := some ⟨m', []⟩)
    (j := j) (jd := jd) (S := HasValue hM vM) k2 hout hre (fun r' p1 hs' => by
      obtain ⟨ps', hfs⟩ := few_stored (S := HasValue hM vM) hs' (by rw [p1, hps]; rfl) (fun row col hin => by
        have q1 := stored_iff hs' (by rw [p1, hps]) hin
        have q2 := stored_iff k2 hps (row := row) (col := col) hin
        rw [q1, ← q2]
        exact k4 row col hin)
      exact ⟨r', ps', hfs⟩) ho (fun row col hin => by
      have := fits_masked hf (k5 row col hin)
      exact this)
  refine ⟨st', m', w, by rw [e, e1], k1, k5, e3, fun h => e4 (e2.2 h), fun h => e5 ?_⟩
  cases ok
  · rfl
  · obtain ⟨i, hi, a⟩ := e2.1 rfl
    rw [h i hi] at a; cases a

/-- C87, INCLUDE_NODATA FALSE, without a mask: the cells that are not NoData (after the renaming) are stored, row by row. -/
theorem C87_plain_few (sys : Sys) (hrnd : ∀ v, CCGL.Spec.Representable .float v → sys.rnd v = v) {d : Disk} {st : Store}
    {hR : Header} {vR : Int → Int → ℚ} {j : Job} {jd : JobDb} {s : Str} (h1 : j.inFmt = .sfile) (h2 : j.inputs = [s])
    (h3 : RasterFile d s hR vR) (hout : j.outFmt = .gfs) (hre : j.recls = false)
    (hval : ∃ row col, hR.grid.CellInside row col ∧ NotNoData { hR with noData := renamedNd j.update hR.noData j.nodata.toQ }
      (fun row col => renamed j.update hR.noData j.nodata.toQ (vR row col)) row col)
    (ho : BucketFew st j jd { hR with noData := renamedNd j.update hR.noData j.nodata.toQ })
    (hf : FitsAll j.type hR vR j.default.toQ j.update j.nodata.toQ) :
    ∃ st', layerJobDb sys false .mask (d, st, none) (j, jd) = .ok (d, st', none) ∧
      StoredFew sys st st' j jd { hR with noData := renamedNd j.update hR.noData j.nodata.toQ }
        (fun row col => renamed j.update hR.noData j.nodata.toQ (vR row col))
        (NotNoData { hR with noData := renamedNd j.update hR.noData j.nodata.toQ } (fun row col => renamed j.update hR.noData j.nodata.toQ (vR row col))) := by
  obtain ⟨r, e, k1, k2, -⟩ := file_input_plain (sys := sys) (st := st) (jd := jd) (inc := false) h1 h2 h3 .mask
  obtain ⟨st', ok, e1, e2, e3, e4, e5⟩ := finish_few (sys := sys) hrnd (d := d) (st := st) (mask := none) (mask' := none)
    (j := j) (jd := jd) (S := NotNoData { hR with noData := renamedNd j.update hR.noData j.nodata.toQ }
      (fun row col => renamed j.update hR.noData j.nodata.toQ (vR row col))) k1 hout hre
    (fun r' p1 hs' => few_valid hs' (by rw [p1, k2]) hval) ho (fun row col hin => by
      unfold renamed
      split
      · next hu => exact hf.new hu.1
      · exact hf.cells row col hin)
  refine ⟨st', by rw [e, e1], e3, fun h => e4 (e2.2 h), fun h => e5 ?_⟩
  cases ok
  · rfl
  · obtain ⟨i, hi, a⟩ := e2.1 rfl
    rw [h i hi] at a; cases a

end App
end CCGL
