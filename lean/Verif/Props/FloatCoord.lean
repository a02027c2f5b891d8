import Verif.Lemmas.FloatCoord2
/-!
# C84: coordinates in double arithmetic

`C07` is about the exact geometry. Here every operation of the coordinate functions is rounded to `double`, by an arbitrary
round-to-nearest. A point that is at least `16·2⁻⁵³·extent` away from the borders of a cell is found in this cell; centres of cells are
computed with an error of at most `3·2⁻⁵³·extent` and are found again.
-/
namespace CCGL.Flt
open CCGL.Flt.Spec

variable (R : Rounding)

/-- The margin: sixteen units of rounding at the largest coordinate. -/
noncomputable def margin (g : Geo) : ℝ := 16 * (2 : ℝ) ^ (-53 : ℤ) * extent g

theorem margin_eq (g : Geo) : margin g = 16 * u * extent g := rfl

theorem axisX {g : Geo} (h : Proper g) : Axis g.xll g.dx g.cols (extent g) :=
  ⟨h.xll, h.dx, h.pos, h.cols, le_max_left _ _⟩
theorem axisY {g : Geo} (h : Proper g) : Axis g.yll g.dx g.rows (extent g) :=
  ⟨h.yll, h.dx, h.pos, h.rows, le_max_right _ _⟩

/-- **C84 (locating a point).** -/
theorem C84_locate {g : Geo} (hg : Proper g) {row col : Int} (hi : Inside g row col) {x y : ℝ} (hx : IsDouble x) (hy : IsDouble y)
    (hw : WellInside g (margin g) row col x y) :
    cellOfXYF R g x y = some (row, col) ∧ (g.xll ≤ x → g.yll ≤ y → posOfCoordF R g x y = (row, col)) := by
  obtain ⟨h1, h2, h3, h4⟩ := hw
  obtain ⟨i1, i2, i3, i4⟩ := hi
  rw [margin_eq] at h1 h2 h3 h4
  obtain ⟨a1, a2, a3⟩ := col_axis R (axisX hg) hx i3 i4 h1 h2
  obtain ⟨b1, b2, b3⟩ := row_axis R (axisY hg) hy i1 i2 h3 h4
  refine ⟨?_, fun c1 c2 => ?_⟩
  · unfold cellOfXYF
    rw [if_neg (by push Not; exact ⟨a2, a1⟩), if_neg (by push Not; exact ⟨b2, b1⟩), a3, b3]
  · unfold posOfCoordF
    rw [if_neg (by push Not; exact ⟨⟨a2, c1⟩, b2, c2⟩), a3, b3]

/-- **C84 (points outside).** A point farther than the margin from the grid is outside. -/
theorem C84_outside {g : Geo} (hg : Proper g) (hr : 1 ≤ g.rows) (hc : 1 ≤ g.cols) {x y : ℝ}
    (h : x < left g - margin g ∨ right g + margin g < x ∨ y < bottom g - margin g ∨ top g + margin g < y) :
    cellOfXYF R g x y = none ∧ posOfCoordF R g x y = (-1, -1) := by
  have hw := (axisX hg).wpos
  have hm : 0 ≤ margin g := by
    rw [margin_eq]
    refine mul_nonneg (by have := u_pos; positivity) (le_trans ?_ (le_max_left _ _))
    have : (1 : ℝ) ≤ g.cols := by exact_mod_cast hc
    have := abs_nonneg g.xll
    positivity
  unfold cellOfXYF posOfCoordF
  rcases h with h | h | h | h
  · have q := below_axis R (axisX hg) hc h
    have q' : x < g.xll := by unfold left at h; linarith
    rw [if_pos (Or.inr q), if_pos (Or.inl (Or.inr q'))]
    exact ⟨rfl, rfl⟩
  · have q := above_axis R (axisX hg) hc h
    rw [if_pos (Or.inl q), if_pos (Or.inl (Or.inl q))]
    exact ⟨rfl, rfl⟩
  · have q := below_axis R (axisY hg) hr h
    have q' : y < g.yll := by unfold bottom at h; linarith
    rw [if_pos (c := y > _ ∨ _) (Or.inr q), if_pos (Or.inr (Or.inr q')), ite_self]
    exact ⟨rfl, rfl⟩
  · have q := above_axis R (axisY hg) hr h
    rw [if_pos (c := y > _ ∨ _) (Or.inl q), if_pos (Or.inr (Or.inl q)), ite_self]
    exact ⟨rfl, rfl⟩

/-- **C84 (centres).** The centre of a cell is computed with an error of at most `3·2⁻⁵³·extent` on each axis. -/
theorem C84_centre {g : Geo} (hg : Proper g) {row col : Int} (hi : Inside g row col) :
    |(coordF R g row col).1 - (centre g row col).1| ≤ 3 * (2 : ℝ) ^ (-53 : ℤ) * extent g ∧
    |(coordF R g row col).2 - (centre g row col).2| ≤ 3 * (2 : ℝ) ^ (-53 : ℤ) * extent g := by
  obtain ⟨i1, i2, i3, i4⟩ := hi
  have a := (centre_near R (axisX hg) i3 i4).2.2
  have b := (centre_near R (axisY hg) (c := g.rows - row - 1) (by omega) (by omega)).2.2
  have e1 : (centre g row col).1 = g.xll + col * g.dx := by simp only [centre, left]; ring
  have e2 : (centre g row col).2 = g.yll + ((g.rows - row - 1 : Int) : ℝ) * g.dx := by
    simp only [centre, top, bottom]; push_cast; ring
  rw [e1, e2]
  exact ⟨a, b⟩

/-- **C84 (round trip).** In a grid whose cells are large enough compared with its coordinates, the centre of a cell is found in this
cell, by both lookups. -/
theorem C84_roundtrip {g : Geo} (hg : Proper g) (hf : FineEnough g) {row col : Int} (hi : Inside g row col) :
    posOfCoordF R g (coordF R g row col).1 (coordF R g row col).2 = (row, col) ∧
    cellOfXYF R g (coordF R g row col).1 (coordF R g row col).2 = some (row, col) := by
  obtain ⟨c1, c2⟩ := C84_centre R hg hi
  obtain ⟨i1, i2, i3, i4⟩ := id hi
  have a := centre_near R (axisX hg) i3 i4
  have b := centre_near R (axisY hg) (c := g.rows - row - 1) (by omega) (by omega)
  have hq : u * extent g ≤ g.dx / 64 := by
    have := mul_le_mul_of_nonneg_left hf u_pos.le
    refine le_trans this (le_of_eq ?_)
    unfold u
    rw [show (2 : ℝ) ^ (-53 : ℤ) = 1 / 2 ^ 53 by norm_num]; ring
  have hw := (axisX hg).wpos
  have c1 := abs_le.1 c1
  have c2 := abs_le.1 c2
  change _ ≤ _ ∧ _ ≤ 3 * u * extent g at c1
  change _ ≤ _ ∧ _ ≤ 3 * u * extent g at c2
  have c1l : -(3 * u * extent g) ≤ (coordF R g row col).1 - (centre g row col).1 := c1.1
  have c2l : -(3 * u * extent g) ≤ (coordF R g row col).2 - (centre g row col).2 := c2.1
  have c1r := c1.2
  have c2r := c2.2
  have w : WellInside g (margin g) row col (coordF R g row col).1 (coordF R g row col).2 := by
    rw [margin_eq]
    unfold centre at c1l c2l c1r c2r
    dsimp only at c1l c2l c1r c2r
    refine ⟨?_, ?_, ?_, ?_⟩ <;> nlinarith
  obtain ⟨l1, l2⟩ := C84_locate R hg hi (R.mem _) (R.mem _) w
  exact ⟨l2 a.2.1 b.2.1, l1⟩

/-- **C84 (aligned layers).** Two grids of the same cell size, the centre of cell `(row, col)` of the first being exactly the centre of
cell `(row', col')` of the second: the coordinates computed by the first are found by the second in this cell. `GetPositionByCoordinate`,
the lookup used for masks and for further layers, needs in addition that the cell is not in the first column or the last row. -/
theorem C84_aligned {g g' : Geo} (hg : Proper g) (hg' : Proper g') (hdx : g.dx = g'.dx) (hf : FineEnough g) (hf' : FineEnough g')
    {row col row' col' : Int} (hi : Inside g row col) (hi' : Inside g' row' col') (hal : centre g row col = centre g' row' col') :
    cellOfXYF R g' (coordF R g row col).1 (coordF R g row col).2 = some (row', col') ∧
    (0 < col' → row' < g'.rows - 1 → posOfCoordF R g' (coordF R g row col).1 (coordF R g row col).2 = (row', col')) := by
  obtain ⟨c1, c2⟩ := C84_centre R hg hi
  rw [hal] at c1 c2
  have hq : u * extent g ≤ g'.dx / 64 := by
    have := mul_le_mul_of_nonneg_left hf u_pos.le
    refine le_trans this (le_of_eq ?_)
    unfold u
    rw [hdx, show (2 : ℝ) ^ (-53 : ℤ) = 1 / 2 ^ 53 by norm_num]; ring
  have hq' : u * extent g' ≤ g'.dx / 64 := by
    have := mul_le_mul_of_nonneg_left hf' u_pos.le
    refine le_trans this (le_of_eq ?_)
    unfold u
    rw [show (2 : ℝ) ^ (-53 : ℤ) = 1 / 2 ^ 53 by norm_num]; ring
  have hw := (axisX hg').wpos
  have c1 := abs_le.1 c1
  have c2 := abs_le.1 c2
  have c1l : -(3 * u * extent g) ≤ (coordF R g row col).1 - (centre g' row' col').1 := c1.1
  have c2l : -(3 * u * extent g) ≤ (coordF R g row col).2 - (centre g' row' col').2 := c2.1
  have c1r : (coordF R g row col).1 - (centre g' row' col').1 ≤ 3 * u * extent g := c1.2
  have c2r : (coordF R g row col).2 - (centre g' row' col').2 ≤ 3 * u * extent g := c2.2
  unfold centre at c1l c2l c1r c2r
  dsimp only at c1l c2l c1r c2r
  have w : WellInside g' (margin g') row' col' (coordF R g row col).1 (coordF R g row col).2 := by
    rw [margin_eq]
    refine ⟨?_, ?_, ?_, ?_⟩ <;> nlinarith
  obtain ⟨l1, l2⟩ := C84_locate R hg' hi' (R.mem _) (R.mem _) w
  refine ⟨l1, fun p1 p2 => l2 ?_ ?_⟩
  · have : (1 : ℝ) ≤ col' := by exact_mod_cast p1
    have k : g'.dx ≤ col' * g'.dx := by nlinarith
    unfold left at c1l
    show g'.xll ≤ (coordF R g row col).1
    linarith
  · have : (row' : ℝ) ≤ g'.rows - 2 := by
      have : row' ≤ g'.rows - 2 := by omega
      exact_mod_cast this
    have k : row' * g'.dx ≤ (g'.rows - 2) * g'.dx := mul_le_mul_of_nonneg_right this hw.le
    unfold top bottom at c2l
    show g'.yll ≤ (coordF R g row col).2
    linarith

/-- A grid of 100 × 200 cells of 30 m in projected coordinates. -/
noncomputable def gridEx : Geo := ⟨100, 200, 30, 500015, 4000015⟩

theorem gridEx_proper : Proper gridEx := by
  refine ⟨?_, ?_, ?_, ?_, by norm_num [gridEx], by norm_num [gridEx]⟩
  · have := dbl_int 30 (by norm_num); norm_num at this; exact this
  · have := dbl_int 500015 (by norm_num); norm_num at this; exact this
  · have := dbl_int 4000015 (by norm_num); norm_num at this; exact this
  · refine le_trans (?_ : (2 : ℝ) ^ (-1000 : ℤ) ≤ (2 : ℝ) ^ (0 : ℤ)) ?_
    · exact zpow_le_zpow_right₀ (by norm_num) (by norm_num)
    · norm_num [gridEx]

theorem gridEx_fine : FineEnough gridEx := by
  unfold FineEnough extent gridEx
  refine max_le ?_ ?_
  · rw [abs_of_pos (by norm_num)]; norm_num
  · rw [abs_of_pos (by norm_num)]; norm_num

example : posOfCoordF R gridEx (coordF R gridEx 99 0).1 (coordF R gridEx 99 0).2 = (99, 0) :=
  (C84_roundtrip R gridEx_proper gridEx_fine ⟨by norm_num, by norm_num [gridEx], by norm_num, by norm_num [gridEx]⟩).1

/-- A point a centimetre from the left and upper borders of cell (0, 0) is well inside. -/
example : cellOfXYF R gridEx 500001 4002999 = some (0, 0) := by
  refine (C84_locate R gridEx_proper ⟨by norm_num, by norm_num [gridEx], by norm_num, by norm_num [gridEx]⟩ ?_ ?_ ?_).1
  · have := dbl_int 500001 (by norm_num); norm_num at this; exact this
  · have := dbl_int 4002999 (by norm_num); norm_num at this; exact this
  · have hm : margin gridEx ≤ 1 := by
      have he : extent gridEx ≤ 2 ^ 23 := by
        unfold extent gridEx
        refine max_le ?_ ?_
        · rw [abs_of_pos (by norm_num)]; norm_num
        · rw [abs_of_pos (by norm_num)]; norm_num
      have := mul_le_mul_of_nonneg_left he (show (0 : ℝ) ≤ 16 * u by have := u_pos; positivity)
      rw [margin_eq]
      refine le_trans this ?_
      have : u = 1 / 2 ^ 53 := by unfold u; norm_num
      rw [this]; norm_num
    have hm2 : gridEx = ⟨100, 200, 30, 500015, 4000015⟩ := rfl
    unfold WellInside left top bottom
    rw [hm2] at hm ⊢
    dsimp only
    refine ⟨?_, ?_, ?_, ?_⟩ <;> push_cast <;> linarith

/-- A second grid, two columns to the right and one row up: centres agree. -/
example : Inside gridEx 3 7 ∧ Inside { gridEx with xll := 500075, yll := 4000045 } 4 5 ∧
    centre gridEx 3 7 = centre { gridEx with xll := 500075, yll := 4000045 } 4 5 := by
  refine ⟨⟨by norm_num, by norm_num [gridEx], by norm_num, by norm_num [gridEx]⟩,
    ⟨by norm_num, by norm_num [gridEx], by norm_num, by norm_num [gridEx]⟩, ?_⟩
  unfold centre left top bottom gridEx
  ext <;> norm_num

/-- **C84 is false when the cells are too small for the coordinates** (`FineEnough` is needed): with cells of 0.5 at 2⁵³ the centre of
column 1 is found in column 0, whatever the rounding of ties. -/
theorem C84_false_far : ∃ g : Geo, Proper g ∧ Inside g 0 1 ∧ ∀ R : Rounding,
    posOfCoordF R g (coordF R g 0 1).1 (coordF R g 0 1).2 = (0, 0) ∧
    cellOfXYF R g (coordF R g 0 1).1 (coordF R g 0 1).2 = some (0, 0) := by
  have d2 : IsDouble ((1 : ℝ) / 2) := by
    have := dbl_mul_pow 1 (-1) (by norm_num) (by norm_num); norm_num at this ⊢; exact this
  have d4 : IsDouble ((1 : ℝ) / 4) := by
    have := dbl_mul_pow 1 (-2) (by norm_num) (by norm_num); norm_num at this ⊢; exact this
  have dm4 : IsDouble (-((1 : ℝ) / 4)) := by
    have := dbl_mul_pow (-1) (-2) (by norm_num) (by norm_num); norm_num at this ⊢; exact this
  have dB : IsDouble ((2 : ℝ) ^ 53) := by
    have := dbl_mul_pow 1 53 (by norm_num) (by norm_num); norm_num at this ⊢; exact this
  have dB2 : IsDouble ((2 : ℝ) ^ 53 + 2) := by
    have := dbl_mul_pow (2 ^ 52 + 1) 1 (by norm_num) (by norm_num); norm_num at this ⊢; exact this
  have dn : ∀ n : ℕ, n < 10 → IsDouble (n : ℝ) := fun n h => dbl_nat n (by omega)
  refine ⟨⟨1, 4, 1 / 2, 2 ^ 53, 0⟩, ⟨d2, dB, dbl_zero, ?_, by norm_num, by norm_num⟩, ⟨by norm_num, by norm_num, by norm_num, by norm_num⟩,
    fun R => ?_⟩
  · refine le_trans (?_ : (2 : ℝ) ^ (-1000 : ℤ) ≤ (2 : ℝ) ^ (-1 : ℤ)) ?_
    · exact zpow_le_zpow_right₀ (by norm_num) (by norm_num)
    · norm_num
  have e1 : coordF R ⟨1, 4, 1 / 2, 2 ^ 53, 0⟩ 0 1 = (2 ^ 53, 0) := by
    unfold coordF Rounding.add Rounding.mul
    dsimp only
    rw [show ((1 : ℤ) : ℝ) * (1 / 2) = 1 / 2 by norm_num, fl_exact R d2, fl_big R (by norm_num) (by norm_num),
      show ((((1 : ℤ) - 0 - 1 : ℤ)) : ℝ) * (1 / 2) = 0 by norm_num, fl_exact R dbl_zero, add_zero, fl_exact R dbl_zero]
  have l1 : lowF R (2 ^ 53) (1 / 2) = 2 ^ 53 := by
    unfold lowF Rounding.sub Rounding.div
    rw [show (1 : ℝ) / 2 / 2 = 1 / 4 by norm_num, fl_exact R d4, fl_big R (by norm_num) (by norm_num)]
  have l2 : lowF R 0 (1 / 2) = -(1 / 4) := by
    unfold lowF Rounding.sub Rounding.div
    rw [show (1 : ℝ) / 2 / 2 = 1 / 4 by norm_num, fl_exact R d4, zero_sub, fl_exact R dm4]
  have h1 : highF R (2 ^ 53) (1 / 2) 4 = 2 ^ 53 + 2 := by
    have := dn 2 (by norm_num)
    unfold highF Rounding.add Rounding.mul
    rw [l1, show (1 : ℝ) / 2 * ((4 : ℤ) : ℝ) = (2 : ℕ) by norm_num, fl_exact R this,
      show ((2 : ℕ) : ℝ) = 2 by norm_num, fl_exact R dB2]
  have h2 : highF R 0 (1 / 2) 1 = 1 / 4 := by
    unfold highF Rounding.add Rounding.mul
    rw [l2, show (1 : ℝ) / 2 * ((1 : ℤ) : ℝ) = 1 / 2 by norm_num, fl_exact R d2, show -((1 : ℝ) / 4) + 1 / 2 = 1 / 4 by norm_num, fl_exact R d4]
  have t1 : truncR (R.div (R.sub (1 / 4) 0) (1 / 2)) = 0 := by
    unfold Rounding.div Rounding.sub truncR
    rw [sub_zero, fl_exact R d4, show (1 : ℝ) / 4 / (1 / 2) = 1 / 2 by norm_num, fl_exact R d2, if_pos (by norm_num), Int.floor_eq_iff]
    norm_num
  have t2 : truncR (R.div (R.sub (2 ^ 53) (2 ^ 53)) (1 / 2)) = 0 := by
    unfold Rounding.div Rounding.sub truncR
    rw [sub_self, fl_exact R dbl_zero, zero_div, fl_exact R dbl_zero, if_pos (le_refl _), Int.floor_zero]
  rw [e1]
  unfold posOfCoordF cellOfXYF
  dsimp only
  rw [h1, h2, l1, l2, t1, t2]
  refine ⟨if_neg (by push Not; norm_num), ?_⟩
  rw [if_neg (by push Not; norm_num), if_neg (by push Not; norm_num)]

/-- **C84 is false at the first column of an aligned layer**, for the lookup by `GetPositionByCoordinate`: a mask with cells of 0.1
starting at -0.4 and a raster with the same cells starting at 0.1 (all numbers are the doubles nearest to these decimals, and the grids
are exactly aligned: cell 5 of the mask is column 0 of the raster). The coordinate computed for cell 5 is 0.09999999999999998, which is
less than the origin of the raster: the cell is taken to be outside. The lookup by `GetPosition(x, y)` finds it. -/
theorem C84_false_first_column : ∃ g g' : Geo, Proper g ∧ Proper g' ∧ g.dx = g'.dx ∧ FineEnough g ∧ FineEnough g' ∧
    Inside g 0 5 ∧ Inside g' 0 0 ∧ centre g 0 5 = centre g' 0 0 ∧ ∀ R : Rounding,
    posOfCoordF R g' (coordF R g 0 5).1 (coordF R g 0 5).2 = (-1, -1) ∧
    cellOfXYF R g' (coordF R g 0 5).1 (coordF R g 0 5).2 = some (0, 0) := by
  have hd : IsDouble ((3602879701896397 : ℝ) / 2 ^ 55) := by
    have := dbl_mul_pow 3602879701896397 (-55) (by norm_num) (by norm_num); norm_num at this ⊢; exact this
  have hd4 : IsDouble (-(3602879701896397 : ℝ) / 2 ^ 53) := by
    have := dbl_mul_pow (-3602879701896397) (-53) (by norm_num) (by norm_num); norm_num at this ⊢; exact this
  have hp : (2 : ℝ) ^ (-1000 : ℤ) ≤ (3602879701896397 : ℝ) / 2 ^ 55 := by
    refine le_trans (?_ : (2 : ℝ) ^ (-1000 : ℤ) ≤ (2 : ℝ) ^ (-10 : ℤ)) ?_
    · exact zpow_le_zpow_right₀ (by norm_num) (by norm_num)
    · norm_num
  have p1 : Proper ⟨1, 10, 3602879701896397 / 2 ^ 55, -3602879701896397 / 2 ^ 53, 0⟩ :=
    ⟨hd, hd4, dbl_zero, hp, by norm_num, by norm_num⟩
  have p2 : Proper ⟨1, 10, 3602879701896397 / 2 ^ 55, 3602879701896397 / 2 ^ 55, 0⟩ :=
    ⟨hd, hd, dbl_zero, hp, by norm_num, by norm_num⟩
  have f1 : FineEnough ⟨1, 10, 3602879701896397 / 2 ^ 55, -3602879701896397 / 2 ^ 53, 0⟩ := by
    unfold FineEnough extent
    refine max_le ?_ ?_
    · rw [abs_of_neg (by norm_num)]; norm_num
    · norm_num
  have f2 : FineEnough ⟨1, 10, 3602879701896397 / 2 ^ 55, 3602879701896397 / 2 ^ 55, 0⟩ := by
    unfold FineEnough extent
    refine max_le ?_ ?_
    · rw [abs_of_pos (by norm_num)]; norm_num
    · norm_num
  have i1 : Inside ⟨1, 10, 3602879701896397 / 2 ^ 55, -3602879701896397 / 2 ^ 53, 0⟩ 0 5 :=
    ⟨by norm_num, by norm_num, by norm_num, by norm_num⟩
  have i2 : Inside ⟨1, 10, 3602879701896397 / 2 ^ 55, 3602879701896397 / 2 ^ 55, 0⟩ 0 0 :=
    ⟨by norm_num, by norm_num, by norm_num, by norm_num⟩
  have al : centre ⟨1, 10, 3602879701896397 / 2 ^ 55, -3602879701896397 / 2 ^ 53, 0⟩ 0 5 =
      centre ⟨1, 10, 3602879701896397 / 2 ^ 55, 3602879701896397 / 2 ^ 55, 0⟩ 0 0 := by
    unfold centre left top bottom
    ext <;> norm_num
  refine ⟨_, _, p1, p2, rfl, f1, f2, i1, i2, al, fun R => ⟨?_, (C84_aligned R p1 p2 rfl f1 f2 i1 i2 al).1⟩⟩
  have e1 : (coordF R ⟨1, 10, 3602879701896397 / 2 ^ 55, -3602879701896397 / 2 ^ 53, 0⟩ 0 5).1 = 3602879701896396 / 2 ^ 55 := by
    unfold coordF Rounding.add Rounding.mul
    dsimp only
    have hd3 : IsDouble ((3602879701896396 : ℝ) / 2 ^ 55) := by
      have := dbl_mul_pow 3602879701896396 (-55) (by norm_num) (by norm_num); norm_num at this ⊢; exact this
    have q : R.fl (((5 : ℤ) : ℝ) * (3602879701896397 / 2 ^ 55)) = 1 / 2 := fl_half R (by norm_num) (by norm_num)
    rw [q, show (-3602879701896397 : ℝ) / 2 ^ 53 + 1 / 2 = 3602879701896396 / 2 ^ 55 by norm_num,
      fl_exact R hd3]
  unfold posOfCoordF
  rw [e1]
  refine if_pos (Or.inl (Or.inr ?_))
  norm_num

end CCGL.Flt
