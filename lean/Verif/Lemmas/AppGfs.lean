import Verif.Spec.AppGfs
import Verif.Props.AppRun
import Verif.Props.GfsMask
import Verif.Lemmas.AppRecls
/-!
# Lemmas about jobs with files in GridFS
-/
namespace CCGL
namespace App
open Fs Disk Main Raster Gfs Disk.Spec App.Spec

/-- The object shows the grid. -/
structure Shows (r : Raster) (h : Header) (v : Int → Int → ℚ) : Prop where
  built : CCGL.Spec.Built r
  cells : 0 < r.nCells
  one : r.is2d = false
  lyrs : r.nLyrs = 1
  grid : r.hdr.grid = h.grid
  nodata : r.noData = h.noData
  val : ∀ row col, h.grid.CellInside row col → r.getValue row col 1 = .ok (v row col)

theorem grid_masked {hM hR : Header} {vM vR : Int → Int → ℚ} {m r : Raster} {dv : ℚ} (hm : IsMask m hM vM) (hrd : CCGL.Spec.ReadGrid r)
    (hu : r.useMaskExt = true) (hc : r.calcPos = false) (h2 : r.is2d = false) (hl : r.nLyrs = 1) (hgrid : r.hdr.grid = hR.grid)
    (hn : r.noData = hR.noData) (hd : r.dflt = checkDefault dv hR.noData)
    (hval : ∀ i j, hR.grid.CellInside i j → r.getValue i j 1 = .ok (vR i j)) (hg : CCGL.Spec.CommonGrid hR hM) (hov : Overlaps hM vM hR) :
    ∃ res w, maskRaster r m = .ok res ∧ res.code = 2 ∧ IsMask res.mask hM vM ∧ Shows res.ras { hM with noData := hR.noData } w ∧
      ∀ row col, hM.grid.CellInside row col → MaskedCell hM vM hR vR dv row col (w row col) := by
  obtain ⟨M, hb, hcl, hMg, hMn, hMv, hpos⟩ := hm.ex
  have hMg' := hMg
  unfold Header.grid at hMg'
  injection hMg' with m1 m2 m3 m4 m5
  have hgr' := hgrid
  unfold Header.grid at hgr'
  injection hgr' with g1 g2 g3 g4 g5
  have hcg : CCGL.Spec.CommonGrid r.hdr M.hdr := by
    obtain ⟨a1, a2, a, b, a3, a4⟩ := hg
    refine ⟨?_, ?_, a, b, ?_, ?_⟩
    · rw [g3]; exact a1
    · rw [g3, m3]; exact a2
    · rw [g3, g4, m4]; exact a3
    · rw [g3, g5, m5]; exact a4
  obtain ⟨res, ps, lsM, e1, e2, e3, e4, e5, e6, e7, e8, e9, e10, e11⟩ := mask_values hrd hb hcl hcg hu hc (by
    obtain ⟨row, col, i, j, ⟨q1, q2⟩, q3, q4⟩ := hov
    obtain ⟨y, y1, y2⟩ := hMv row col q1
    refine ⟨(hM.grid.center row col).1, (hM.grid.center row col).2, ⟨y, row, col, by rw [hMg]; exact q1, by rw [hMg],
      y1, by rw [y2]; exact q2⟩, i, j, by rw [hgrid]; exact q3, ?_⟩
    rw [hgrid, q4])
  have key : ∀ row col, hM.grid.CellInside row col → ∃ w, res.ras.getValue row col 1 = .ok w ∧ MaskedCell hM vM hR vR dv row col w := by
    intro row col hin
    obtain ⟨w, w1, w2, w3⟩ := e11 row col 1 (by rw [hMg]; exact hin) le_rfl (by rw [hl])
    have hiff : (∃ v, M.getValue row col 1 = .ok v ∧ floatEqual v M.noData = false) ↔ HasValue hM vM row col := by
      constructor
      · rintro ⟨v, q1, q2⟩
        obtain ⟨y, y1, y2⟩ := hMv row col hin
        rw [y1] at q1
        injection q1 with q1
        rw [← q1, y2] at q2
        exact ⟨hin, q2⟩
      · rintro ⟨-, q2⟩
        obtain ⟨y, y1, y2⟩ := hMv row col hin
        exact ⟨_, y1, by rw [y2]; exact q2⟩
    rw [hiff, hgrid, hMg] at w2 w3
    refine ⟨w, w1, ⟨?_, ?_⟩⟩
    · intro hh i j hij
      obtain ⟨x, x1, x2⟩ := w2 hh i j hij.1 hij.2
      rw [hval i j hij.1] at x1
      injection x1 with x1
      rw [x2, ← x1, hn, hd, fill_eq]
    · intro hh
      rw [w3 (by
        rcases hh with hh | hh
        · exact .inl hh
        · exact .inr (fun ⟨i, j, a, b⟩ => hh ⟨i, j, a, b⟩)), hn]
  have key2 : ∀ rc : Int × Int, ∃ w, hM.grid.CellInside rc.1 rc.2 → res.ras.getValue rc.1 rc.2 1 = .ok w ∧ MaskedCell hM vM hR vR dv rc.1 rc.2 w := by
    intro rc
    by_cases hin : hM.grid.CellInside rc.1 rc.2
    · obtain ⟨w, hw⟩ := key rc.1 rc.2 hin
      exact ⟨w, fun _ => hw⟩
    · exact ⟨0, fun h => absurd h hin⟩
  choose w hw using key2
  refine ⟨res, fun row col => w (row, col), ?_, e2, ⟨⟨M, hb, hcl, hMg, hMn, hMv, ?_⟩⟩,
    ⟨e5, e6, by rw [e7, h2], by rw [e8, hl], by rw [e9, hMg]; rfl, by rw [e10]; exact hn, fun row col hin => (hw (row, col) hin).1⟩,
    fun row col hin => (hw (row, col) hin).2⟩
  · rw [maskRaster_congr hpos, e1]
  · rw [e3, e4.positions]

/-- The object made of the cells of a stored grid. -/
theorem stored_grid {h : Header} {v : Int → Int → ℚ} {cells : List ℚ} (hs : CCGL.Spec.StorableHeader { h with layers := 1, cellsnum := h.rows * h.cols })
    (hc : RowByRow h v cells) (ume : Bool) (dv : ℚ) :
    0 < h.rows ∧ 0 < h.cols ∧ CCGL.Spec.ReadGrid (ofStore1 { h with layers := 1, cellsnum := h.rows * h.cols } cells false ume dv) ∧
    ∀ row col, h.grid.CellInside row col →
      (ofStore1 { h with layers := 1, cellsnum := h.rows * h.cols } cells false ume dv).getValue row col 1 = .ok (v row col) := by
  have hR := hs.rows
  have hC := hs.cols
  have hN := hs.cellsnum
  dsimp only at hR hC hN
  have hR' : 0 < h.rows := by
    rcases lt_or_eq_of_le hR.1 with q | q
    · exact q
    · rw [← q] at hN; simp at hN
  have hC' : 0 < h.cols := by
    rcases lt_or_eq_of_le hC.1 with q | q
    · exact q
    · rw [← q] at hN; simp at hN
  refine ⟨hR', hC', .store1 _ _ _ _ _ hR' hC' hc.1, ?_⟩
  intro i j hij
  set h' : Header := { h with layers := 1, cellsnum := h.rows * h.cols } with hh'
  obtain ⟨hi, ev⟩ := (Raster.ofFile_full h' cells false ume dv hR'.le hC'.le hc.1).getValue i j 1 hij ⟨le_rfl, le_rfl⟩
  refine (show (ofStore1 h' cells false ume dv).getValue i j 1 = _ from ev).trans ?_
  have hi' : (i * h'.cols + j).toNat < cells.length := by
    rw [List.length_map] at hi; exact hi
  have hcv := hc.2 i j hij
  have hcc : h'.cols = h.cols := rfl
  rw [hcc] at hi'
  rw [List.getElem?_eq_getElem hi'] at hcv
  injection hcv with hcv
  simp only [List.getElem_map]
  rw [← hcv]
  rfl

theorem inOpts_job (ty : RDT) : inOpts (jobOpts true ty) = wholeOpts ty := by
  cases ty <;> decide +kernel

theorem jobOpts_true (ty : RDT) : jobOpts true ty = wholeOpts ty := rfl

theorem headerOf_one {hm : HMap} {h : Header} (hh : CCGL.Spec.HeaderIs hm { h with layers := 1, cellsnum := h.rows * h.cols })
    (hs : CCGL.Spec.StorableHeader { h with layers := 1, cellsnum := h.rows * h.cols }) :
    headerOf hm = .ok { h with layers := 1, cellsnum := h.rows * h.cols } := headerOf_eq hh hs

theorem mul_one_grid {h : Header} (hs : CCGL.Spec.StorableHeader { h with layers := 1, cellsnum := h.rows * h.cols }) :
    mulInt h.rows h.cols = .ok (h.rows * h.cols) := by
  have := hs.cellsnum
  dsimp only at this
  unfold mulInt
  rw [if_pos ⟨by omega, by omega⟩]

/-- Reading a stored grid without a mask. -/
theorem gfs_plain {rnd : ℚ → ℚ} {st : Store} {name : Str} {ty : RDT} {h : Header} {v : Int → Int → ℚ} (H : HoldsGrid rnd st name (wholeOpts ty) h v)
    {ok1 ok2 : Nat → Bool} (h1 : Answered ok1) (h2 : Answered ok2) (dv : ℚ) :
    ∃ r, Gfs.readFromMongo rnd .double ok1 true ok2 st name false dv (jobOpts true ty) = .ok (some r) ∧ Shows r h v ∧
      r.dflt = checkDefault dv h.noData := by
  obtain ⟨cells, hm, sm, q1, q2, q3, q4⟩ := H.reads ok1 ok2 h1 h2
  obtain ⟨hR, hC, -, hv⟩ := stored_grid H.header q4 false dv
  have d1 : (!stringMatch ((some "TRUE".toList).getD []) "FALSE".toList) = true := by decide
  refine ⟨ofStore1 { h with layers := 1, cellsnum := h.rows * h.cols } cells false false dv, ?_, ⟨?_, ?_, rfl, rfl, rfl, rfl, hv⟩, rfl⟩
  · unfold Gfs.readFromMongo
    rw [inOpts_job, q1, Out.ok_bind]
    dsimp only
    rw [headerOf_one q2 H.header, Out.ok_bind]
    dsimp only
    rw [mul_one_grid H.header, Out.ok_bind]
    have hnd : conv rnd .double .double h.noData = .ok h.noData := by unfold conv; rw [if_pos rfl]
    rw [hnd, Out.ok_bind]
    have hk : sm kIncNodata = some "TRUE".toList := q3
    rw [hk, d1]
    simp only [Bool.true_and, ne_eq, not_true_eq_false, decide_false, Bool.false_eq_true, if_false, Bool.not_true, if_true, Out.ok_bind]
    rfl
  · exact .file (code := 0) { h with layers := 1, cellsnum := h.rows * h.cols } cells false false dv hR.le hC.le rfl q4.1 rfl
  · show 0 < h.rows * h.cols
    exact Int.mul_pos hR hC

/-- Reading a stored grid with a mask without subsets. -/
theorem gfs_masked {rnd : ℚ → ℚ} {st : Store} {name : Str} {ty : RDT} {hM hR : Header} {vM vR : Int → Int → ℚ} {m : Raster} (hm : IsMask m hM vM)
    (H : HoldsGrid rnd st name (wholeOpts ty) hR vR) {ok1 ok2 : Nat → Bool} (h1 : Answered ok1) (h2 : Answered ok2)
    (hg : CCGL.Spec.CommonGrid hR hM) (hov : Overlaps hM vM hR) (dv : ℚ) :
    ∃ r m' w, readFromMongoMaskS rnd .double ok1 true ok2 st name false ⟨m, []⟩ true dv (jobOpts true ty) = .ok (some ⟨r, []⟩, ⟨m', []⟩) ∧
      IsMask m' hM vM ∧ Shows r { hM with noData := hR.noData } w ∧
      (∀ row col, hM.grid.CellInside row col → MaskedCell hM vM hR vR dv row col (w row col)) ∧ r.dflt = checkDefault dv hR.noData := by
  obtain ⟨cells, hmm, sm, q1, q2, q3, q4⟩ := H.reads ok1 ok2 h1 h2
  obtain ⟨hRr, hRc, hrd, hv⟩ := stored_grid H.header q4 true dv
  obtain ⟨res, w, e1, e2, e3, e4, e5⟩ := grid_masked (dv := dv) (hR := hR) hm hrd rfl rfl rfl rfl rfl rfl rfl hv hg hov
  refine ⟨res.ras, res.mask, w, ?_, e3, e4, e5, by rw [maskRaster_dflt e1]; rfl⟩
  have d1 : (!stringMatch ((some "TRUE".toList).getD []) "FALSE".toList) = true := by decide
  unfold readFromMongoMaskS
  rw [inOpts_job, q1, Out.ok_bind]
  dsimp only
  rw [headerOf_one q2 H.header, Out.ok_bind]
  dsimp only
  rw [mul_one_grid H.header, Out.ok_bind]
  have hnd : conv rnd .double .double hR.noData = .ok hR.noData := by unfold conv; rw [if_pos rfl]
  rw [hnd, Out.ok_bind]
  have hk : sm kIncNodata = some "TRUE".toList := q3
  rw [hk, d1]
  simp only [Bool.true_and, ne_eq, not_true_eq_false, decide_false, Bool.false_eq_true, if_false, Bool.not_true, if_true, Out.ok_bind, Bool.or_false,
    Bool.false_and]
  have hms : maskRasterS (ofStore1 { hR with layers := 1, cellsnum := hR.rows * hR.cols } cells false true dv) [] ⟨m, []⟩ = .ok (res, []) := by
    unfold maskRasterS
    dsimp only
    rw [e1, Out.ok_bind, if_pos (.inr rfl)]
    rfl
  have hr : ({ Raster.init false with
        hdr := { hR with layers := 1, cellsnum := hR.rows * hR.cols }, noData := hR.noData, nLyrs := 1, nCells := hR.rows * hR.cols, calcPos := false,
        useMaskExt := true, dflt := Raster.checkDefault dv hR.noData, raster1 := some cells } : Raster) =
      ofStore1 { hR with layers := 1, cellsnum := hR.rows * hR.cols } cells false true dv := rfl
  rw [← hr] at hms
  rw [hms, Out.ok_bind]
  dsimp only
  rw [if_pos (by rw [e2]; decide)]
  rfl

end App
end CCGL
