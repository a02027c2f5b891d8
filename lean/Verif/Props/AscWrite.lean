import Verif.Lemmas.AscWrite
import Verif.Props.Asc
/-!
# ASCII grid round trip (C08)
-/
namespace CCGL
open Spec
variable {τ : Type}

/-- The header `ReadAscFile` is expected to report for a written header whose numbers became `f x`. -/
def Spec.readHeader (h : Header) (f : ℚ → ℚ) : AscHeader :=
  { rows := h.rows, cols := h.cols, xll := .fin (f h.xll), yll := .fin (f h.yll), cellsize := .fin (f h.cellsize),
    noData := .fin (f h.noData), layers := 1, cellsnum := h.rows * h.cols }

theorem headWords_head (h : Header) (hr : Int32 h.rows) (hc : Int32 h.cols) :
    HeadOf (headWords h)
      { cols := some h.cols, rows := some h.rows, xll := some (.fin (gRound h.xll)), yll := some (.fin (gRound h.yll)),
        cellsize := some (.fin (gRound h.cellsize)), noData := some (.fin (gRound h.noData)) } := by
  have hs : ∀ k : Str, SameText k k := fun k => (stringMatch_iff k k).1 (by simp [stringMatch])
  have h1 := HeadOf.cols [] {} kNcols (intToDec h.cols) [] h.cols .nil (hs _) ((isDecInt_iff _ _).2 rfl) hc
  have h2 := HeadOf.rows _ _ kNrows (intToDec h.rows) [] h.rows h1 (hs _) ((isDecInt_iff _ _).2 rfl) hr
  have h3 := HeadOf.xll _ _ kXll (fmtG h.xll) [] _ h2 (hs _) (fmtG_text h.xll)
  have h4 := HeadOf.yll _ _ kYll (fmtG h.yll) [] _ h3 (hs _) (fmtG_text h.yll)
  have h5 := HeadOf.cellsize _ _ kCellsize (fmtG h.cellsize) [] _ h4 (hs _) (fmtG_text h.cellsize)
  have h6 := HeadOf.noData _ _ kNodata (fmtG h.noData) [] _ h5 (hs _) (fmtG_text h.noData)
  exact h6

theorem headWords_good (h : Header) : ∀ ws ∈ headWords h, GoodWords ws := by
  have key : ∀ (k w : Str), (∀ c ∈ k, 43 ≤ c.toNat) → k ≠ [] → w ≠ [] → (∀ c ∈ w, 43 ≤ c.toNat) → GoodWords [k, w] := by
    intro k w h1 h2 h3 h4
    refine ⟨by simp, ?_, ?_⟩
    · intro u hu
      rcases List.mem_cons.1 hu with rfl | hu
      · exact ⟨h2, fun c hc => by have := h1 c hc; omega⟩
      · simp at hu; subst hu; exact ⟨h3, fun c hc => by have := h4 c hc; omega⟩
    · intro u hu hc
      simp at hu; subst hu
      have := h1 '#' (List.mem_of_mem_head? hc)
      revert this; decide
  intro ws hws
  simp only [headWords, List.mem_cons, List.not_mem_nil, or_false] at hws
  rcases hws with rfl | rfl | rfl | rfl | rfl | rfl
  · exact key _ _ (by decide) (by decide) (intToDec_prints _).ne (intToDec_prints _).chars
  · exact key _ _ (by decide) (by decide) (intToDec_prints _).ne (intToDec_prints _).chars
  · exact key _ _ (by decide) (by decide) (fmtG_prints _).ne (fmtG_prints _).chars
  · exact key _ _ (by decide) (by decide) (fmtG_prints _).ne (fmtG_prints _).chars
  · exact key _ _ (by decide) (by decide) (fmtG_prints _).ne (fmtG_prints _).chars
  · exact key _ _ (by decide) (by decide) (fmtG_prints _).ne (fmtG_prints _).chars

theorem fltMax_big : (3 : ℚ) * 10 ^ 38 < fltMax := by unfold fltMax; norm_num

theorem gRound_not_missing (x : ℚ) (h : |x| < 10 ^ 38) : ¬ LooksMissing (.fin (gRound x)) := by
  rintro ⟨q, hq, hlt⟩
  injection hq with hq
  subst hq
  have h1 := gRound_near x
  have h2 := fltMax_big
  have h3 := abs_lt.1 h
  have h4 : |gRound x| ≤ 2 * 10 ^ 38 := by
    have : |gRound x| ≤ |gRound x - x| + |x| := by
      have := abs_add_le (gRound x - x) x
      simpa using this
    linarith
  have h5 := abs_le.1 h4
  rw [abs_lt] at hlt
  have h6 : (1 : ℚ) / 10 ^ 32 < 1 := by norm_num
  have h7 : (0 : ℚ) < 10 ^ 38 := by norm_num
  linarith [hlt.1, hlt.2, h5.1, h5.2]

theorem gRound_nonneg (x : ℚ) (h : 0 ≤ x) : 0 ≤ gRound x := by
  have h1 := gRound_near x
  rw [abs_of_nonneg h, abs_le] at h1
  linarith [h1.1]

/-- C08, general form: for every grid with at least one row and column (sizes within `int`), non-negative cell
size and coordinates below 1e38, the written file is accepted and gives back rows, columns and, for every
number, the number its printed text denotes. `cast` is the conversion from `double` to the cell type, `pr` its
stream output, denoting `den`. -/
theorem C08_roundtrip_general (pr : τ → Str) (den : τ → ℚ) (cast : DVal → τ) (h : Header) (vals : List τ)
    (hdr : AscHeader) (hr : 0 < h.rows) (hc : 0 < h.cols) (hn : h.rows * h.cols < 2 ^ 31)
    (hl : (vals.length : Int) = h.rows * h.cols) (hcs : 0 ≤ h.cellsize) (hx : |h.xll| < 10 ^ 38) (hy : |h.yll| < 10 ^ 38)
    (hp : ∀ v ∈ vals, Prints pr den v) :
    ∃ text, writeAsc pr h (some vals) = .ok text ∧
      readAsc cast (some text) hdr none =
        .ok (true, readHeader h gRound, some (vals.map (fun v => cast (.fin (den v))))) := by
  obtain ⟨rows, er⟩ := Int.eq_ofNat_of_zero_le hr.le
  obtain ⟨c, ec⟩ := Int.eq_ofNat_of_zero_le hc.le
  have hr1 : 0 < rows := by omega
  have hc1 : 0 < c := by omega
  have hlen : vals.length = rows * c := by rw [er, ec] at hl; exact_mod_cast hl
  refine ⟨_, writeAsc_text pr h rows c er ec hc1 vals hlen, ?_⟩
  generalize hds : (gridRows rows c vals).map (fun vs => vs.map pr) = ds
  have hflat : (gridRows rows c vals).flatten = vals := gridRows_flatten rows c vals hlen
  have hrows : ∀ vs ∈ gridRows rows c vals, vs ≠ [] ∧ ∀ v ∈ vs, Prints pr den v := by
    intro vs hvs
    refine ⟨?_, fun v hv => hp v (by rw [← hflat]; exact List.mem_flatten.2 ⟨vs, hvs, hv⟩)⟩
    unfold gridRows at hvs
    obtain ⟨i, hi, rfl⟩ := List.mem_map.1 hvs
    have hi := List.mem_range.1 hi
    have hle : i * c + c ≤ vals.length := by
      rw [hlen]; have : (i + 1) * c ≤ rows * c := Nat.mul_le_mul_right _ hi
      rw [Nat.add_mul, Nat.one_mul] at this; exact this
    intro h0
    have := congrArg List.length h0
    simp at this; omega
  have hgood : ∀ ws ∈ ds, GoodWords ws ∧ DataLine ws := by
    intro ws hws
    rw [← hds] at hws
    obtain ⟨vs, hvs, rfl⟩ := List.mem_map.1 hws
    have := prints_goodWords vs (hrows vs hvs).1 (hrows vs hvs).2
    exact ⟨this.1, this.2.1⟩
  have hdlen : ds.length = rows := by rw [← hds]; simp [gridRows]
  have hdf : ds.flatten = vals.map pr := by rw [← hds, ← List.map_flatten, hflat]
  obtain ⟨hw, hv⟩ := gridText_words (headWords h) ds (headWords_good h) (fun ws hws => (hgood ws hws).1)
  have hne : vals ≠ [] := by
    intro h0; rw [h0] at hlen; simp at hlen; rcases hlen.symm with h | h <;> omega
  have hnum : List.Forall₂ NumText ds.flatten (vals.map (fun v => DVal.fin (den v))) := by
    rw [hdf]; exact (prints_goodWords vals hne hp).2.2
  have hrc : h.rows ≤ h.rows * h.cols ∧ h.cols ≤ h.rows * h.cols := by
    constructor <;> nlinarith
  have hi1 : Int32 h.rows := ⟨by omega, by omega⟩
  have hi2 : Int32 h.cols := ⟨by omega, by omega⟩
  have := C09_accept cast _ (headWords h) ds _ h.rows h.cols _ _ _ _ hdr hw hv (by
      have : (headWords h).length = 6 := rfl
      rw [List.length_append, this, hdlen]; omega)
    (headWords_head h hi1 hi2) (fun ws hws => (hgood ws hws).2) (by
      intro h0; rw [h0] at hdlen; simp at hdlen; omega)
    rfl rfl hr.le hc.le hn rfl rfl rfl (gRound_not_missing _ hx) (gRound_not_missing _ hy) (by
      simp only [DVal.isNeg, decide_eq_false_iff_not, not_lt]; exact gRound_nonneg _ hcs) hnum (by
      rw [List.length_map]; omega)
  rw [this]
  congr 3
  have e : (h.rows * h.cols).toNat - (vals.map (fun v => DVal.fin (den v))).length = 0 := by
    rw [List.length_map]; omega
  rw [e, List.map_map]
  simp [Function.comp_def]

/-- C08: numbers with at most six significant digits survive the round trip exactly (floating point cell types). -/
theorem C08_roundtrip_partial (h : Header) (vals : List ℚ) (hdr : AscHeader)
    (hr : 0 < h.rows) (hc : 0 < h.cols) (hn : h.rows * h.cols < 2 ^ 31)
    (hl : (vals.length : Int) = h.rows * h.cols) (hcs : 0 ≤ h.cellsize) (hx : |h.xll| < 10 ^ 38) (hy : |h.yll| < 10 ^ 38)
    (sx : SixSig h.xll) (sy : SixSig h.yll) (sc : SixSig h.cellsize) (sn : SixSig h.noData)
    (sv : ∀ v ∈ vals, SixSig v) :
    ∃ text, writeAsc fmtG h (some vals) = .ok text ∧
      readAsc DVal.toQ (some text) hdr none = .ok (true, readHeader h id, some vals) := by
  obtain ⟨text, h1, h2⟩ := C08_roundtrip_general fmtG gRound DVal.toQ h vals hdr hr hc hn hl hcs hx hy
    (fun v _ => fmtG_prints v)
  refine ⟨text, h1, ?_⟩
  rw [h2]
  congr 3
  · simp only [readHeader, gRound_exact sx, gRound_exact sy, gRound_exact sc, gRound_exact sn, id]
  · congr 1
    conv_rhs => rw [← List.map_id vals]
    apply List.map_congr_left
    intro v hv
    simp only [DVal.toQ, gRound_exact (sv v hv), id]

/-- C08, any numbers: every number read back differs from the written one by at most 5 units of the seventh
significant digit (relative error 1/200000), and the sizes are exact. -/
theorem C08_roundtrip_near (h : Header) (vals : List ℚ) (hdr : AscHeader)
    (hr : 0 < h.rows) (hc : 0 < h.cols) (hn : h.rows * h.cols < 2 ^ 31)
    (hl : (vals.length : Int) = h.rows * h.cols) (hcs : 0 ≤ h.cellsize) (hx : |h.xll| < 10 ^ 38) (hy : |h.yll| < 10 ^ 38) :
    ∃ text f, writeAsc fmtG h (some vals) = .ok text ∧ (∀ x : ℚ, |f x - x| ≤ |x| / 200000) ∧
      readAsc DVal.toQ (some text) hdr none = .ok (true, readHeader h f, some (vals.map f)) := by
  obtain ⟨text, h1, h2⟩ := C08_roundtrip_general fmtG gRound DVal.toQ h vals hdr hr hc hn hl hcs hx hy
    (fun v _ => fmtG_prints v)
  exact ⟨text, gRound, h1, gRound_near, h2⟩

/-- C08 for integer cell types (values print all their digits): the values survive exactly. -/
theorem C08_roundtrip_int (h : Header) (vals : List Int) (hdr : AscHeader)
    (hr : 0 < h.rows) (hc : 0 < h.cols) (hn : h.rows * h.cols < 2 ^ 31)
    (hl : (vals.length : Int) = h.rows * h.cols) (hcs : 0 ≤ h.cellsize) (hx : |h.xll| < 10 ^ 38) (hy : |h.yll| < 10 ^ 38)
    (sx : SixSig h.xll) (sy : SixSig h.yll) (sc : SixSig h.cellsize) (sn : SixSig h.noData) :
    ∃ text, writeAsc intToDec h (some vals) = .ok text ∧
      readAsc (fun d => ⌊d.toQ⌋) (some text) hdr none = .ok (true, readHeader h id, some vals) := by
  obtain ⟨text, h1, h2⟩ := C08_roundtrip_general intToDec (fun z : Int => (z : ℚ)) (fun d => ⌊d.toQ⌋) h vals hdr hr hc hn hl
    hcs hx hy (fun v _ => intToDec_prints v)
  refine ⟨text, h1, ?_⟩
  rw [h2]
  congr 3
  · simp only [readHeader, gRound_exact sx, gRound_exact sy, gRound_exact sc, gRound_exact sn, id]
  · simp [DVal.toQ]

/-- C08 is false of the code for numbers with more than six significant digits: 1234567 comes back as 1234570. -/
theorem C08_false_precision : ∃ text,
    writeAsc fmtG ⟨1, 1, 1, 0, 0, -9999, 1, 1⟩ (some [1234567]) = .ok text ∧
      readAsc DVal.toQ (some text) hdr0 none =
        .ok (true, readHeader ⟨1, 1, 1, 0, 0, -9999, 1, 1⟩ id, some [1234570]) := by
  refine ⟨_, rfl, ?_⟩
  decide +kernel

/-- C08 is false of the code for a grid without cells: the file has six lines and is refused. -/
theorem C08_false_empty : ∃ text, writeAsc fmtG ⟨0, 3, 1, 0, 0, -9999, 1, 0⟩ (some []) = .ok text ∧
    readAsc DVal.toQ (some text) hdr0 none = .ok (false, hdr0, none) := by
  refine ⟨_, rfl, ?_⟩
  decide +kernel

/-- A grid meeting the hypotheses of `C08_roundtrip_partial`. -/
def exHeader : Header := ⟨2, 2, 30, -1 / 2, 1234.5, -9999, 1, 4⟩

example : ∃ text, writeAsc fmtG exHeader (some [1, -9999, 1 / 4, 1000000000]) = .ok text ∧
    readAsc DVal.toQ (some text) hdr0 none = .ok (true, readHeader exHeader id, some [1, -9999, 1 / 4, 1000000000]) := by
  apply C08_roundtrip_partial
  · decide
  · decide
  · decide
  · decide
  · unfold exHeader; norm_num
  · unfold exHeader; norm_num [abs_lt]
  · unfold exHeader; norm_num [abs_lt]
  · exact ⟨-5, -1, by decide, by unfold exHeader; norm_num⟩
  · exact ⟨12345, -1, by decide, by unfold exHeader; norm_num⟩
  · exact ⟨30, 0, by decide, by unfold exHeader; norm_num⟩
  · exact ⟨-9999, 0, by decide, by unfold exHeader; norm_num⟩
  · intro v hv
    simp only [List.mem_cons, List.not_mem_nil, or_false] at hv
    rcases hv with rfl | rfl | rfl | rfl
    · exact ⟨1, 0, by decide, by norm_num⟩
    · exact ⟨-9999, 0, by decide, by norm_num⟩
    · exact ⟨25, -2, by decide, by norm_num⟩
    · exact ⟨1, 9, by decide, by norm_num⟩

/-! ### The hypotheses of the reader theorems are met by concrete files -/

/-- Header lines of an example file with two rows and two columns. -/
def exHs : List (List Str) := headWords exHeader
def exMeta : AscMeta :=
  { cols := some 2, rows := some 2, xll := some (.fin (gRound (-1 / 2))), yll := some (.fin (gRound 1234.5)),
    cellsize := some (.fin (gRound 30)), noData := some (.fin (gRound (-9999))) }

theorem exHs_head : HeadOf exHs exMeta := headWords_head exHeader (by unfold Spec.Int32; decide) (by unfold Spec.Int32; decide)

theorem ex_words (ds : List (List Str)) (hd : ∀ ws ∈ ds, GoodWords ws) :
    TextWords (gridText exHs ds) (exHs ++ ds) ∧ NoVtFf (gridText exHs ds) :=
  gridText_words exHs ds (headWords_good exHeader) hd

theorem ex_data (w : Str) (c : Char) (hw : w.head? = some c) (hc : 43 ≤ c.toNat ∧ c.toNat ≤ 57)
    (ha : ∀ c ∈ w, 33 ≤ c.toNat) : GoodWords [w] ∧ DataLine [w] := by
  refine ⟨⟨by simp, ?_, ?_⟩, w, [], rfl, not_key_of_head hw hc.2⟩
  · intro u hu; simp at hu; subst hu
    refine ⟨by rintro rfl; simp at hw, ha⟩
  · intro u hu; simp at hu; subst hu
    rw [hw]; intro h; injection h with h; subst h; revert hc; decide

/-- `C09_reject` applies to a file with the word `1x`. -/
example (hdr : AscHeader) : readAsc id (some (gridText exHs [["1x".toList]])) hdr none = .ok (false, hdr, none) := by
  have h1 := ex_data "1x".toList '1' rfl (by decide) (by decide)
  have h2 := ex_words [["1x".toList]] (by simpa using h1.1)
  refine C09_reject id _ exHs [["1x".toList]] exMeta 2 2 hdr h2.1 h2.2 (by decide) exHs_head (by simpa using h1.2)
    rfl rfl (by decide) (by decide) (Or.inl ⟨"1x".toList, by simp, ?_⟩)
  rw [← C37_isNumber_partial _ (by decide)]
  decide +kernel

/-- `C09_no_overrun_partial` applies to a file with one value for four cells. -/
example (hdr : AscHeader) : ∃ b hd v, readAsc id (some (gridText exHs [["7".toList]])) hdr none = .ok (b, hd, v) ∧
    (b = true → ∀ l, v = some l → (l.length : Int) = 2 * 2) ∧ (b = false → hd = hdr) := by
  have h1 := ex_data "7".toList '7' rfl (by decide) (by decide)
  have h2 := ex_words [["7".toList]] (by simpa using h1.1)
  refine C09_no_overrun_partial id _ exHs [["7".toList]] exMeta 2 2 hdr h2.1 h2.2 (by decide) exHs_head ?_ rfl rfl
    (by decide) (by decide)
  intro ws hws
  simp at hws; subst hws
  rintro ⟨k, rest, hk, hs⟩
  injection hk with hk _
  subst hk
  have := not_key_of_head (k := "7".toList) (c := '7') rfl (by decide)
  rcases hs with hs | hs
  · exact this _ (by decide) hs
  · exact this _ (by decide) hs

/-- C08: the printed number has six significant digits and is the nearest such number, and of two equally near ones the one
with the even last digit (rounding to nearest even, the default rounding mode). -/
theorem C08_nearest (x : ℚ) (hx : 0 < x) : ∃ (z e : Int), (10 : ℚ) ^ e ≤ x ∧ x < (10 : ℚ) ^ (e + 1) ∧
    NumText (fmtG x) (.fin ((z : ℚ) * (10 : ℚ) ^ (e - 5))) ∧
    |(z : ℚ) - x * (10 : ℚ) ^ (5 - e)| ≤ 1 / 2 ∧ (|(z : ℚ) - x * (10 : ℚ) ^ (5 - e)| = 1 / 2 → z % 2 = 0) := by
  refine ⟨roundEven (x * (10 : ℚ) ^ (5 - Int.log 10 x)), Int.log 10 x, ?_, ?_, ?_, roundEven_near _, ?_⟩
  · have := Int.zpow_log_le_self (b := 10) (by norm_num) hx
    exact_mod_cast this
  · have := Int.lt_zpow_succ_log_self (b := 10) (by norm_num) x
    exact_mod_cast this
  · have := fmtG_text x
    unfold gRound at this
    rw [if_neg hx.ne', if_neg (not_lt.2 hx.le)] at this
    exact this
  · generalize x * (10 : ℚ) ^ (5 - Int.log 10 x) = q
    unfold roundEven
    have h1 := Int.floor_le q
    have h2 := Int.lt_floor_add_one q
    dsimp only
    split_ifs with c1 c2 c3
    · intro h
      rw [abs_of_nonpos (by linarith)] at h
      linarith
    · intro h
      push_cast at h
      rw [abs_of_nonneg (by linarith)] at h
      linarith
    · intro _; exact c3
    · intro _; omega

example : fmtG (2000005 / 2) = "1e+06".toList ∧ fmtG (2469135 / 20) = "123457".toList ∧ fmtG (200001 / 2) = "100000".toList := by
  decide +kernel

end CCGL
