import Verif.Spec.SetHdr
import Verif.Lemmas.HdrOk
import Verif.Props.Geotiff
import Verif.Props.Raster
/-!
# C95: headers and positions set from outside
-/
namespace CCGL
open Raster

theorem newCount (e : Option ℚ) (old : Int) : CCGL.Spec.NewCount e old ((e.map truncQ).getD old) := by
  cases e with
  | none => exact ⟨fun _ => rfl, fun x h => by cases h⟩
  | some a => exact ⟨(fun h => by cases h), (fun x h => by (cases h; exact Gtiff.truncQ_spec a))⟩

theorem newNum (e : Option ℚ) (old : ℚ) : CCGL.Spec.NewNum e old (e.getD old) := by
  cases e with
  | none => exact ⟨fun _ => rfl, fun x h => by cases h⟩
  | some a => exact ⟨(fun h => by cases h), (fun x h => by (cases h; rfl))⟩

/-- C95: `SetHeader` replaces exactly the entries it is given, takes the numbers of cells and layers and NoData from the header, and leaves the cells,
the positions and everything else alone. -/
theorem C95_entries (r : Raster) (p : HdrPatch) :
    CCGL.Spec.Patched p r.hdr (r.setHeader p).hdr ∧
    (r.setHeader p).nCells = (r.setHeader p).hdr.cellsnum ∧ (r.setHeader p).nLyrs = (r.setHeader p).hdr.layers ∧
    (r.setHeader p).noData = (r.setHeader p).hdr.noData ∧
    (r.setHeader p).raster1 = r.raster1 ∧ (r.setHeader p).raster2 = r.raster2 ∧ (r.setHeader p).posData = r.posData ∧
    (r.setHeader p).posIdx = r.posIdx ∧ (r.setHeader p).is2d = r.is2d ∧ (r.setHeader p).dflt = r.dflt ∧ (r.setHeader p).calcPos = r.calcPos :=
  ⟨⟨newCount _ _, newCount _ _, newNum _ _, newNum _ _, newNum _ _, newNum _ _, newCount _ _, newCount _ _⟩,
    rfl, rfl, rfl, rfl, rfl, rfl, rfl, rfl, rfl, rfl⟩

theorem own_count {e : Option ℚ} {k : Int} (h : ∀ x, e = some x → x = k) : (e.map truncQ).getD k = k := by
  cases e with
  | none => rfl
  | some a => have := h a rfl; subst this; exact Gtiff.truncQ_int k

theorem own_num {e : Option ℚ} {k : ℚ} (h : ∀ x, e = some x → x = k) : e.getD k = k := by
  cases e with
  | none => rfl
  | some a => exact h a rfl

/-- C95: handing a raster (any or all of) the entries of its own header changes nothing. -/
theorem C95_own {r : Raster} (hb : CCGL.Spec.Built r) {p : HdrPatch} (hp : CCGL.Spec.OwnEntries p r.hdr) : r.setHeader p = r := by
  have hk := hb.hdrOk
  have hh : copyHeader p r.hdr = r.hdr := by
    unfold copyHeader
    rw [own_count hp.rows, own_count hp.cols, own_num hp.cellsize, own_num hp.xll, own_num hp.yll, own_num hp.noData, own_count hp.layers,
      own_count hp.cellsnum]
  have a1 := hk.lyrs
  have a2 := hk.nd
  have a3 := hk.num
  unfold setHeader
  rw [hh]
  dsimp only
  rw [a1, a2, a3]

/-- C95: entries for the place of the grid only (cell size and corner) move the grid and leave every answer about cells as it was. -/
theorem C95_place {r : Raster} (hb : CCGL.Spec.Built r) {p : HdrPatch} (h1 : p.rows = none) (h2 : p.cols = none) (h3 : p.noData = none)
    (h4 : p.layers = none) (h5 : p.cellsnum = none) :
    CCGL.Spec.SameCellAnswers r (r.setHeader p) ∧ (r.setHeader p).hdr.grid.rows = r.hdr.grid.rows ∧ (r.setHeader p).hdr.grid.cols = r.hdr.grid.cols ∧
    CCGL.Spec.NewNum p.cellsize r.hdr.grid.dx (r.setHeader p).hdr.grid.dx ∧ CCGL.Spec.NewNum p.xll r.hdr.grid.xll (r.setHeader p).hdr.grid.xll ∧
    CCGL.Spec.NewNum p.yll r.hdr.grid.yll (r.setHeader p).hdr.grid.yll := by
  have hk := hb.hdrOk
  have e : r.setHeader p = { r with hdr := { r.hdr with cellsize := p.cellsize.getD r.hdr.cellsize, xll := p.xll.getD r.hdr.xll, yll := p.yll.getD r.hdr.yll } } := by
    unfold setHeader copyHeader
    rw [h1, h2, h3, h4, h5]
    simp only [Option.map_none, Option.getD_none]
    rw [hk.lyrs, hk.nd, hk.num]
  have hr : (r.setHeader p).hdr.rows = r.hdr.rows := by rw [e]
  have hc : (r.setHeader p).hdr.cols = r.hdr.cols := by rw [e]
  refine ⟨⟨?_, ?_, ?_, ?_⟩, hr, hc, newNum _ _, newNum _ _, newNum _ _⟩ <;> intros <;> rw [e] <;> rfl

theorem Raster.Inv.setNd {r ls loc} (h : Inv r ls loc) (v : ℚ) : Inv { r with noData := v, hdr := { r.hdr with noData := v } } ls loc := by
  cases h with
  | full h =>
    have h' : Full { r with noData := v, hdr := { r.hdr with noData := v } } ls :=
      ⟨h.holds, h.rows_nn, h.cols_nn, h.len, h.ncells, h.pd, h.pi⟩
    exact Inv.full h'
  | comp h => exact .comp ⟨h.holds, h.rows_nn, h.cols_nn, h.len, h.ncells, h.ne, h.calcOn, h.pd, h.pi,
      h.inside, h.sorted⟩
  | empty h h1 =>
    have h' : Empty { r with noData := v, hdr := { r.hdr with noData := v } } :=
      ⟨h.ncells, h.lyrs, h.lyrs1, h.rows_nn, h.cols_nn, h.calcOn, h.pd, h.pi, h.data1, h.data2⟩
    exact .empty h' h1

/-- The map with an entry for NoData only. -/
def ndEntry (v : ℚ) : HdrPatch := ⟨none, none, none, none, none, some v, none, none⟩

/-- C95: an entry for NoData alone changes no stored cell: every cell that was stored shows its old number, all others show the new NoData value, and
"is NoData" now means equal to the new value: cells with the old NoData value have become cells with a value. -/
theorem C95_nodata {r : Raster} (hb : CCGL.Spec.Built r) (hne : ¬ (r.is2d = true ∧ r.nCells = 0)) (v : ℚ) (row col lyr : Int) :
    (r.setHeader (ndEntry v)).getPosition row col = r.getPosition row col ∧
    (CCGL.Spec.Stored r row col → 1 ≤ lyr → lyr ≤ r.nLyrs → (r.setHeader (ndEntry v)).getValue row col lyr = r.getValue row col lyr) ∧
    (¬ (CCGL.Spec.Stored r row col ∧ 1 ≤ lyr ∧ lyr ≤ r.nLyrs) → (r.setHeader (ndEntry v)).getValue row col lyr = .ok v) ∧
    ∃ x b, (r.setHeader (ndEntry v)).getValue row col lyr = .ok x ∧ (r.setHeader (ndEntry v)).isNoData row col lyr = .ok b ∧
      (b = true ↔ CCGL.Spec.IsNoData v x) := by
  have hk := hb.hdrOk
  have e : r.setHeader (ndEntry v) = { r with noData := v, hdr := { r.hdr with noData := v } } := by
    unfold setHeader copyHeader ndEntry
    simp only [Option.map_none, Option.getD_none, Option.getD_some]
    rw [hk.lyrs, hk.num]
  rw [e]
  rcases hb.inv with ⟨ls, loc, hi⟩ | ⟨hd, hE⟩
  swap
  · exact absurd ⟨hd, hE.ncells⟩ hne
  have hi' := hi.setNd v
  refine ⟨rfl, ?_, ?_, ?_⟩
  · intro hs h1 h2
    rw [hi.val row col lyr ⟨h1, h2⟩, hi'.val row col lyr ⟨h1, h2⟩]
    obtain ⟨m, hm⟩ := (hi.stored row col).1 hs
    rw [hm]
  · intro hn
    by_cases hl : 1 ≤ lyr ∧ lyr ≤ r.nLyrs
    · rw [hi'.val row col lyr hl]
      have : loc row col = none := by
        cases hm : loc row col with
        | none => rfl
        | some m => exact absurd ⟨(hi.stored row col).2 ⟨m, hm⟩, hl⟩ hn
      rw [this]
    · exact Raster.getValue_outside _ row col lyr (.inr hl)
  · obtain ⟨x, hx⟩ := hi'.getValue_ok row col lyr
    refine ⟨x, floatEqual x v, hx, ?_, Gtiff.floatEqual_iff x v⟩
    unfold isNoData
    rw [hx, Out.ok_bind]
    rfl

/-- C95: a raster without positions is an array: after any `SetHeader` that asks for no more cells and no more layers than there are, the cell in row `row` and
column `col` is the one with number `row * columns + column` of the array, numbers from the new number of cells on give NoData, and every access ends normally. -/
theorem C95_reshape {r : Raster} (hb : CCGL.Spec.Built r) (hp : r.posData = none) (hq : r.posIdx = none) (p : HdrPatch)
    (h1 : (r.setHeader p).hdr.rows * (r.setHeader p).hdr.cols ≤ r.nCells) (h2 : (r.setHeader p).hdr.cellsnum ≤ r.nCells)
    (h3 : (r.setHeader p).hdr.layers ≤ r.nLyrs) :
    (∀ row col lyr, (r.setHeader p).hdr.grid.CellInside row col → 1 ≤ lyr → lyr ≤ (r.setHeader p).hdr.layers →
      (r.setHeader p).getPosition row col = .ok (row * (r.setHeader p).hdr.cols + col) ∧
      ∃ x, r.getValueByIndex (row * (r.setHeader p).hdr.cols + col) lyr = .ok x ∧ (r.setHeader p).getValue row col lyr = .ok x) ∧
    (∀ row col lyr, ¬ ((r.setHeader p).hdr.grid.CellInside row col ∧ 1 ≤ lyr ∧ lyr ≤ (r.setHeader p).hdr.layers) →
      (r.setHeader p).getValue row col lyr = .ok (r.setHeader p).hdr.noData) ∧
    (∀ i lyr, 0 ≤ i → i < (r.setHeader p).hdr.cellsnum → 1 ≤ lyr → lyr ≤ (r.setHeader p).hdr.layers →
      ∃ x, r.getValueByIndex i lyr = .ok x ∧ (r.setHeader p).getValueByIndex i lyr = .ok x) ∧
    (∀ i lyr, ¬ (0 ≤ i ∧ i < (r.setHeader p).hdr.cellsnum ∧ 1 ≤ lyr ∧ lyr ≤ (r.setHeader p).hdr.layers) →
      (r.setHeader p).getValueByIndex i lyr = .ok (r.setHeader p).hdr.noData) := by
  have hF : ∃ ls, r.Full ls := by
    rcases hb.inv with ⟨ls, loc, hi⟩ | ⟨hd, hE⟩
    · cases hi with
      | full h => exact ⟨ls, h⟩
      | comp h => rw [h.pd] at hp; cases hp
      | empty h _ => rw [h.pd] at hp; cases hp
    · rw [hE.pd] at hp; cases hp
  obtain ⟨ls, hF⟩ := hF
  have hlen : (ls.length : Int) = r.nCells := by rw [hF.len, hF.ncells]
  have hv : r.validData = true := hF.holds.valid
  have hv' : (r.setHeader p).validData = true := hv
  have hpd : (r.setHeader p).posData = none := hp
  have hpi : (r.setHeader p).posIdx = none := hq
  have hn : (r.setHeader p).nCells = (r.setHeader p).hdr.cellsnum := rfl
  have hl : (r.setHeader p).nLyrs = (r.setHeader p).hdr.layers := rfl
  have hrd : ∀ i lyr, (r.setHeader p).readCell i lyr = r.readCell i lyr := fun _ _ => rfl
  have hcell : ∀ i lyr, 0 ≤ i → i < r.nCells → 1 ≤ lyr → lyr ≤ r.nLyrs → ∃ x, r.getValueByIndex i lyr = .ok x ∧ r.readCell i lyr = .ok x := by
    intro i lyr a b c d
    obtain ⟨k, rfl⟩ := Int.eq_ofNat_of_zero_le a
    have hk : k < ls.length := by omega
    refine ⟨_, ?_, hF.holds.readCell k hk lyr c d⟩
    unfold Raster.getValueByIndex
    rw [hv, (r.validIndex_iff _).2 ⟨a, b⟩, (r.validLayer_iff _).2 ⟨c, d⟩]
    exact hF.holds.readCell k hk lyr c d
  refine ⟨?_, ?_, ?_, ?_⟩
  · rintro row col lyr hin c d
    have hin' : 0 ≤ row ∧ row < (r.setHeader p).hdr.rows ∧ 0 ≤ col ∧ col < (r.setHeader p).hdr.cols := hin
    have hvr := ((r.setHeader p).validRowCol_iff row col).2 hin'
    have hr := idx_range hin'.1 hin'.2.1 hin'.2.2.1 hin'.2.2.2
    obtain ⟨x, e1, e2⟩ := hcell _ lyr hr.1 (by omega) c (by omega)
    refine ⟨?_, x, e1, ?_⟩
    · unfold Raster.getPosition
      rw [hv', hvr, hpd]
      simp [Int.mul_comm]
    · unfold Raster.getValue
      rw [hv', hvr, ((r.setHeader p).validLayer_iff lyr).2 ⟨c, by rw [hl]; exact d⟩, hpd, hpi]
      simp only [Bool.not_true, Bool.or_self, Bool.false_eq_true, if_false, Option.isSome_none, Bool.and_false]
      rw [hrd, e2]
  · intro row col lyr hn'
    have := (r.setHeader p).getValue_outside row col lyr (by
      by_cases hin : 0 ≤ row ∧ row < (r.setHeader p).hdr.rows ∧ 0 ≤ col ∧ col < (r.setHeader p).hdr.cols
      · right
        rw [hl]
        exact fun h => hn' ⟨hin, h⟩
      · exact .inl hin)
    exact this
  · intro i lyr a b c d
    obtain ⟨x, e1, e2⟩ := hcell i lyr a (by omega) c (by omega)
    refine ⟨x, e1, ?_⟩
    unfold Raster.getValueByIndex
    rw [hv', ((r.setHeader p).validIndex_iff i).2 ⟨a, by rw [hn]; exact b⟩, ((r.setHeader p).validLayer_iff lyr).2 ⟨c, by rw [hl]; exact d⟩]
    simp only [Bool.not_true, Bool.or_self, Bool.false_eq_true, if_false]
    rw [hrd, e2]
  · intro i lyr hn'
    unfold Raster.getValueByIndex
    by_cases a : 0 ≤ i ∧ i < (r.setHeader p).hdr.cellsnum
    · have : (r.setHeader p).validLayer lyr = false := by
        rw [Bool.eq_false_iff]
        intro h
        rw [Raster.validLayer_iff, hl] at h
        exact hn' ⟨a.1, a.2, h⟩
      rw [this]
      simp only [Bool.not_false, Bool.or_true, if_true]
      rfl
    · have : (r.setHeader p).validIndex i = false := by
        rw [Bool.eq_false_iff]
        intro h
        rw [Raster.validIndex_iff, hn] at h
        exact a h
      rw [this]
      simp only [Bool.not_false, Bool.or_true, Bool.true_or, if_true]
      rfl

/-- C95: on a raster with positions, `SetPositions` with the right number of ascending cell numbers is obeyed: lookups are an exact search in the new list, and
a cell of the list shows the stored cell with its place in the list. -/
theorem C95_positions {r : Raster} (hb : CCGL.Spec.Built r) {old : List Int} (hp : r.posIdx = some old) (q : List Int)
    (hlen : (q.length : Int) = r.nCells) (hs : q.Pairwise (· < ·)) :
    ∃ r', r.setPositionIdx q.length (some q) = .ok (r', true) ∧ r'.hdr = r.hdr ∧ r'.nCells = r.nCells ∧
      (∀ i lyr, r'.getValueByIndex i lyr = r.getValueByIndex i lyr) ∧
      ∀ row col, r.hdr.grid.CellInside row col →
        (∃ i : Nat, q[i]? = some (row * r.hdr.cols + col) ∧ r'.getPosition row col = .ok (i : Int) ∧
          ∀ lyr, r'.getValue row col lyr = r.getValueByIndex i lyr) ∨
        (row * r.hdr.cols + col ∉ q ∧ r'.getPosition row col = .ok (-1) ∧ ∀ lyr, r'.getValue row col lyr = .ok r.noData) := by
  have hC : ∃ ls ps, r.Compact ls ps := by
    rcases hb.inv with ⟨ls, loc, hi⟩ | ⟨hd, hE⟩
    · cases hi with
      | full h => rw [h.pi] at hp; cases hp
      | comp h => exact ⟨ls, _, h⟩
      | empty h _ => rw [h.pi] at hp; cases hp
    · rw [hE.pi] at hp; cases hp
  obtain ⟨ls, ps, hC⟩ := hC
  have hv : r.validData = true := hC.holds.valid
  refine ⟨{ r with posIdx := some q, calcPos := true, storePos := false }, ?_, rfl, rfl, fun _ _ => rfl, ?_⟩
  · unfold setPositionIdx
    rw [hp]
    dsimp only
    rw [if_neg (by rw [hlen]; simp)]
  · intro row col hin
    generalize hr' : ({ r with posIdx := some q, calcPos := true, storePos := false } : Raster) = r'
    have h1 : r'.posIdx = some q := by rw [← hr']
    have h2 : r'.posData = some ps := by rw [← hr']; exact hC.pd
    have h3 : r'.calcPos = true := by rw [← hr']
    have h4 : r'.validData = true := by rw [← hr']; exact hv
    have h5 : r'.hdr = r.hdr := by rw [← hr']
    have h6 : r'.nCells = r.nCells := by rw [← hr']
    have h7 : ∀ i lyr, r'.getValueByIndex i lyr = r.getValueByIndex i lyr := by rw [← hr']; intros; rfl
    have h8 : r'.noData = r.noData := by rw [← hr']
    have h9 : r'.nLyrs = r.nLyrs := by rw [← hr']
    have hin' : 0 ≤ row ∧ row < r'.hdr.rows ∧ 0 ≤ col ∧ col < r'.hdr.cols := by rw [h5]; exact hin
    have hvr := (r'.validRowCol_iff row col).2 hin'
    have hgv : ∀ lyr i, r'.getPosition row col = .ok i → r'.getValue row col lyr =
        if r'.validLayer lyr = false ∨ i < 0 then .ok r.noData else r.getValueByIndex i lyr := by
      intro lyr i e
      unfold Raster.getValue
      rw [h4, hvr, h3, h1, h2, e]
      cases hl : r'.validLayer lyr with
      | false => simp [h8]
      | true =>
        simp only [Bool.not_true, Bool.or_self, Bool.false_eq_true, if_false, Option.isSome_some, Bool.and_self, if_true, Out.ok_bind, Bool.true_eq_false, false_or]
        rw [h8, h7]
    rcases (C03_getPosition_partial r' q h1 (by rw [h2]; rfl) h3 h4 (by rw [h6, hlen]) hs row col).2 hin' with ⟨i, e1, e2⟩ | ⟨e1, e2⟩
    · left
      rw [h5] at e2
      refine ⟨i, e2, e1, fun lyr => ?_⟩
      rw [hgv lyr _ e1]
      by_cases hl : r'.validLayer lyr = false
      · rw [if_pos (.inl hl)]
        have : r.validLayer lyr = false := by rw [← hl, ← hr']; rfl
        unfold Raster.getValueByIndex
        rw [this]
        simp
      · rw [if_neg (by rintro (h | h); exact hl h; omega)]
    · right
      rw [h5] at e2
      refine ⟨e2, e1, fun lyr => ?_⟩
      rw [hgv lyr _ e1, if_pos (.inr (by omega))]

/-- C95: another number of positions than the raster has is refused, and nothing changes. -/
theorem C95_positions_refused (r : Raster) (len : Int) (hl : len ≠ r.nCells) :
    (∀ q, r.posIdx ≠ none → r.setPositionIdx len q = .ok (r, false)) ∧ (∀ q, r.posData ≠ none → r.setPositionData len q = .ok (r, false)) := by
  constructor
  · intro q hq
    unfold setPositionIdx
    cases h : r.posIdx with
    | none => exact absurd h hq
    | some old => dsimp only; rw [if_pos hl]
  · intro q hq
    unfold setPositionData
    cases h : r.posData with
    | none => exact absurd h hq
    | some old => dsimp only; rw [if_pos hl]

/-- C95: a list of rows and columns given to a raster without positions has no effect on any access, whatever it contains. -/
theorem C95_positions_lone {r : Raster} (hb : CCGL.Spec.Built r) (hp : r.posData = none) (hq : r.posIdx = none) (len : Int) (q : List (Int × Int)) :
    ∃ r', r.setPositionData len (some q) = .ok (r', true) ∧ CCGL.Spec.SameCellAnswers r r' := by
  have hF : ∃ ls, r.Full ls := by
    rcases hb.inv with ⟨ls, loc, hi⟩ | ⟨hd, hE⟩
    · cases hi with
      | full h => exact ⟨ls, h⟩
      | comp h => rw [h.pd] at hp; cases hp
      | empty h _ => rw [h.pd] at hp; cases hp
    · rw [hE.pd] at hp; cases hp
  obtain ⟨ls, hF⟩ := hF
  refine ⟨{ r with posData := some q, calcPos := true, storePos := false }, by unfold setPositionData; rw [hp], ?_⟩
  generalize hr' : ({ r with posData := some q, calcPos := true, storePos := false } : Raster) = r'
  have hpos : ∀ row col, r'.getPosition row col = r.getPosition row col := by
    intro row col
    have : r'.validData = r.validData := by rw [← hr']; rfl
    have h2 : r'.validRowCol row col = r.validRowCol row col := by rw [← hr']; rfl
    have h3 : r'.posIdx = none := by rw [← hr']; exact hq
    have h4 : r'.hdr = r.hdr := by rw [← hr']
    unfold Raster.getPosition
    rw [this, h2, h3, h4, hq]
    simp
  have hidx : ∀ i lyr, r'.getValueByIndex i lyr = r.getValueByIndex i lyr := by rw [← hr']; intros; rfl
  have hval : ∀ row col lyr, r'.getValue row col lyr = r.getValue row col lyr := by
    intro row col lyr
    have hnd : r'.noData = r.noData := by rw [← hr']
    by_cases hin : (0 ≤ row ∧ row < r.hdr.rows ∧ 0 ≤ col ∧ col < r.hdr.cols) ∧ (1 ≤ lyr ∧ lyr ≤ r.nLyrs)
    · have hvr := (r.validRowCol_iff row col).2 hin.1
      have hvl := (r.validLayer_iff lyr).2 hin.2
      have hr := idx_range hin.1.1 hin.1.2.1 hin.1.2.2.1 hin.1.2.2.2
      have e1 : r'.getValue row col lyr = (do
          let i ← r'.getPosition row col
          if i < 0 then .ok r'.noData else r'.getValueByIndex i lyr) := by
        unfold Raster.getValue
        have a1 : r'.validData = true := by rw [← hr']; exact hF.holds.valid
        have a2 : r'.validRowCol row col = true := by rw [← hr']; exact hvr
        have a3 : r'.validLayer lyr = true := by rw [← hr']; exact hvl
        have a4 : r'.calcPos = true := by rw [← hr']
        have a5 : r'.posData = some q := by rw [← hr']
        rw [a1, a2, a3, a4, a5]
        simp
      have e2 : r.getValue row col lyr = r.readCell (row * r.hdr.cols + col) lyr := by
        unfold Raster.getValue
        rw [hF.holds.valid, hvr, hvl, hp, hq]
        simp
      have e3 : r.getValueByIndex (row * r.hdr.cols + col) lyr = r.readCell (row * r.hdr.cols + col) lyr := by
        unfold Raster.getValueByIndex
        rw [hF.holds.valid, hvl, (r.validIndex_iff _).2 ⟨hr.1, by rw [hF.ncells]; exact hr.2⟩]
        simp
      rw [e1, hpos, hF.getPosition row col hin.1, Out.ok_bind, if_neg (by omega), hidx, e2, e3]
    · have h1 : ¬ (0 ≤ row ∧ row < r.hdr.rows ∧ 0 ≤ col ∧ col < r.hdr.cols) ∨ ¬ (1 ≤ lyr ∧ lyr ≤ r.nLyrs) := by
        by_cases h : 0 ≤ row ∧ row < r.hdr.rows ∧ 0 ≤ col ∧ col < r.hdr.cols
        · exact .inr (fun h' => hin ⟨h, h'⟩)
        · exact .inl h
      rw [r.getValue_outside row col lyr h1, r'.getValue_outside row col lyr (by rw [← hr']; exact h1), hnd]
  refine ⟨hval, hidx, hpos, ?_⟩
  intro row col lyr
  have hnd : r'.noData = r.noData := by rw [← hr']
  unfold isNoData
  rw [hval, hnd]

/-! ### Examples and what goes wrong -/

/-- A raster of 2 by 2 cells, one of them NoData. -/
def exSet : Raster := ofArray1 (some [1, -9999, 3, 4]) 2 2 (-9999) 10 5 5

theorem exSet_built : CCGL.Spec.Built exSet := .grid1 [1, -9999, 3, 4] 2 2 (-9999) 10 5 5 rfl

/-- The raster after `SetCalcPositions`. -/
def exSetPos : Raster := { exSet with
    nCells := 3, hdr := { exSet.hdr with cellsnum := 3 }, raster1 := some [1, 3, 4], posData := some [(0, 0), (1, 0), (1, 1)]
    posIdx := some [0, 2, 3], calcPos := true, storePos := true }

theorem exSetPos_built : CCGL.Spec.Built exSetPos :=
  .step (r := exSet) .setCalcPositions exSet_built (by decide +kernel)

/-- One row of four cells: same cells, other rows. -/
example : ∃ x, exSet.getValueByIndex 3 1 = .ok x ∧ (exSet.setHeader ⟨some 1, some 4, none, none, none, none, none, none⟩).getValue 0 3 1 = .ok x :=
  ((C95_reshape exSet_built rfl rfl ⟨some 1, some 4, none, none, none, none, none, none⟩ (by decide +kernel) (by decide +kernel) (by decide +kernel)).1 0 3 1
    (by unfold Header.grid Spec.Grid.CellInside; decide +kernel) (by decide) (by decide +kernel)).2

example : exSetPos.setHeader ⟨some 2, none, some 10, none, none, some (-9999), none, some 3⟩ = exSetPos :=
  C95_own exSetPos_built ⟨by (rintro x h; cases h; decide +kernel), by (rintro x h; cases h), by (rintro x h; cases h; decide +kernel), by (rintro x h; cases h),
    by (rintro x h; cases h), by (rintro x h; cases h; decide +kernel), by (rintro x h; cases h), by (rintro x h; cases h; decide +kernel)⟩

/-- The three stored cells moved to the cells number 0, 1 and 3. -/
example : ∃ r', exSetPos.setPositionIdx 3 (some [0, 1, 3]) = .ok (r', true) ∧ r'.getValue 0 1 1 = exSetPos.getValueByIndex 1 1 := by
  obtain ⟨r', e, -, -, -, h⟩ := C95_positions exSetPos_built (old := [0, 2, 3]) rfl [0, 1, 3] (by decide +kernel) (by decide)
  refine ⟨r', e, ?_⟩
  rcases h 0 1 (by unfold Header.grid Spec.Grid.CellInside; decide +kernel) with ⟨i, h1, -, h3⟩ | ⟨h1, -⟩
  · have : i = 1 := by
      have e1 : (0 : Int) * exSetPos.hdr.cols + 1 = 1 := by decide +kernel
      rw [e1] at h1
      match i, h1 with
      | 0, h1 => simp at h1
      | 1, _ => rfl
      | 2, h1 => simp at h1
      | n + 3, h1 => simp at h1
    subst this
    exact h3 1
  · exact absurd (by decide +kernel) h1

/-- False: with a header of a larger grid every access beyond the array is undefined behaviour. -/
theorem C95_false_large : CCGL.Spec.Built exSet ∧
    (exSet.setHeader ⟨some 3, some 3, none, none, none, none, none, some 9⟩).getValue 2 2 1 = .ub := ⟨exSet_built, by decide +kernel⟩

/-- False: with a larger number of layers the second layer of a raster of one layer shows the first. -/
theorem C95_false_layers : CCGL.Spec.Built exSet ∧
    (exSet.setHeader ⟨none, none, none, none, none, none, some 2, none⟩).getValue 1 1 2 = .ok 4 := ⟨exSet_built, by decide +kernel⟩

/-- False: if a raster with positions gets another number of columns, its cells show values of other cells: the value of cell (1, 0) is found in (0, 2) and
(1, 0) shows that of (1, 1). -/
theorem C95_false_columns : CCGL.Spec.Built exSetPos ∧ exSetPos.getValue 1 0 1 = .ok 3 ∧
    (exSetPos.setHeader ⟨none, some 3, none, none, none, none, none, none⟩).getValue 0 2 1 = .ok 3 ∧
    (exSetPos.setHeader ⟨none, some 3, none, none, none, none, none, none⟩).getValue 1 0 1 = .ok 4 :=
  ⟨exSetPos_built, by decide +kernel, by decide +kernel, by decide +kernel⟩

/-- False: a raster without positions accepts any number of them and searches as many as it has cells: undefined behaviour. -/
theorem C95_false_positions : CCGL.Spec.Built exSet ∧ (do
    let a ← exSet.setPositionData 1 (some [(0, 0)])
    let b ← a.1.setPositionIdx 1 (some [0])
    b.1.getValue 1 1 1) = .ub := ⟨exSet_built, by decide +kernel⟩

/-- The raster without valid cells after `SetCalcPositions`. -/
def exSetNone : Raster := ofArray1 (some [-9999]) 1 1 (-9999) 10 5 5

/-- False: replacing the positions of a raster without valid cells is undefined behaviour. -/
theorem C95_false_empty : CCGL.Spec.Built exSetNone ∧ (do
    let a ← exSetNone.setCalcPositions
    a.1.setPositionData a.1.nCells (some [])) = .ub := ⟨.grid1 [-9999] 1 1 (-9999) 10 5 5 rfl, by decide +kernel⟩

end CCGL
