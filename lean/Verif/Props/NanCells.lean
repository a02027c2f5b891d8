import Verif.Model.NanCells
import Verif.Spec.NanCells
import Verif.Props.AscWrite
import Verif.Lemmas.Stats
/-!
# Rasters with NaN and infinite cells (C89)
-/
namespace CCGL
namespace Nan
open Nan.Spec

/-- On finite numbers the comparison is that of the other models. -/
theorem floatEqual_fin (a b : ℚ) : floatEqual (.fin a) (.fin b) = CCGL.floatEqual a b := rfl

/-- C89: `FloatEqual` tells apart everything that is not a pair of finite numbers: NaN equals nothing, an infinity not even itself. -/
theorem C89_equal (a b : DVal) : floatEqual a b = true ↔ SameNumber a b := by
  unfold SameNumber
  constructor
  · intro h
    cases a with
    | fin x =>
      cases b with
      | fin y => exact ⟨x, y, rfl, rfl, by simpa [floatEqual, lt, abs, sub] using h⟩
      | inf t => simp [floatEqual, lt, abs, sub] at h
      | nan => simp [floatEqual, lt, abs, sub] at h
    | inf s =>
      cases b with
      | fin y => simp [floatEqual, lt, abs, sub] at h
      | inf t => cases s <;> cases t <;> simp [floatEqual, lt, abs, sub] at h
      | nan => simp [floatEqual, lt, abs, sub] at h
    | nan => simp [floatEqual, lt, abs, sub] at h
  · rintro ⟨x, y, rfl, rfl, h⟩
    simpa [floatEqual, lt, abs, sub] using h

theorem validRow_spec (ncols : Int) (nd : DVal) (cells : List DVal) (i : Nat) : ∀ js : List Nat,
    (∀ j ∈ js, ((i : Int) * ncols + j).toNat < cells.length ∧ 0 ≤ (i : Int) * ncols + j) →
    validRow ncols nd (some cells) i js = .ok ((js.map (fun j : Nat => (cells.getD ((i : Int) * ncols + j).toNat .nan, (i : Int), (j : Int)))).filter
      (fun x => !floatEqual x.1 nd)) := by
  intro js
  induction js with
  | nil => intro _; rfl
  | cons j js ih =>
    intro h
    obtain ⟨h1, h2⟩ := h j List.mem_cons_self
    obtain ⟨N, hN⟩ := Int.eq_ofNat_of_zero_le h2
    rw [validRow, hN]
    rw [hN] at h1
    rw [Int.toNat_natCast] at h1
    rw [readAt_some_nat _ N h1, Out.ok_bind, ih (fun k hk => h k (List.mem_cons_of_mem _ hk)), Out.ok_bind, Out.pure_eq]
    rw [List.map_cons, List.filter_cons, hN, Int.toNat_natCast]
    have : cells.getD N .nan = cells[N] := by rw [List.getD_eq_getElem?_getD, List.getElem?_eq_getElem h1]; rfl
    rw [this]
    cases hb : floatEqual cells[N] nd
    · simp [hb]
    · simp [hb]

theorem validRows_spec (nrows ncols : Nat) (nd : DVal) (cells : List DVal) (hl : cells.length = nrows * ncols) : ∀ is : List Nat, (∀ i ∈ is, i < nrows) →
    validRows ncols nd (some cells) is = .ok ((is.flatMap (fun i : Nat => (List.range ncols).map (fun j : Nat =>
      (cells.getD ((i : Int) * ncols + j).toNat .nan, (i : Int), (j : Int))))).filter (fun x => !floatEqual x.1 nd)) := by
  intro is
  induction is with
  | nil => intro _; rfl
  | cons i is ih =>
    intro h
    have hi := h i List.mem_cons_self
    rw [validRows, Int.toNat_natCast, validRow_spec, Out.ok_bind, ih (fun k hk => h k (List.mem_cons_of_mem _ hk)), Out.ok_bind, Out.pure_eq,
      List.flatMap_cons, List.filter_append]
    intro j hj
    have hj := List.mem_range.1 hj
    have e : (i : Int) * ncols + j = ((i * ncols + j : Nat) : Int) := by push_cast; ring
    rw [e, Int.toNat_natCast, hl]
    refine ⟨?_, by positivity⟩
    calc i * ncols + j < i * ncols + ncols := by omega
      _ = (i + 1) * ncols := by ring
      _ ≤ nrows * ncols := Nat.mul_le_mul_right _ hi

/-- C89: which cells of a grid become the valid cells of the raster, for all cells, NaN and infinite ones included: exactly those that are not the same number as NoData,
row by row, with their values, positions and indices. -/
theorem C89_positions (nrows ncols : Nat) (nd : DVal) (cells : List DVal) (hl : cells.length = nrows * ncols) :
    ∃ (vals : List DVal) (pos : List (Int × Int)), calcValid nrows ncols nd (some cells) = .ok (vals, pos, pos.map (fun p => p.1 * ncols + p.2)) ∧ vals.length = pos.length ∧
      pos.Pairwise (fun p q => p.1 < q.1 ∨ (p.1 = q.1 ∧ p.2 < q.2)) ∧
      (∀ (row col : Int) (v : DVal), (∃ n : Nat, pos[n]? = some (row, col) ∧ vals[n]? = some v) ↔
        (0 ≤ row ∧ row < nrows ∧ 0 ≤ col ∧ col < ncols) ∧ cell ncols cells row col = some v ∧ ¬ SameNumber v nd) := by
  let L : List (DVal × Int × Int) := (List.range nrows).flatMap (fun i : Nat => (List.range ncols).map (fun j : Nat =>
      (cells.getD ((i : Int) * ncols + j).toNat .nan, (i : Int), (j : Int))))
  let F := L.filter (fun x => !floatEqual x.1 nd)
  refine ⟨F.map (·.1), F.map (·.2), ?_, by simp, ?_, ?_⟩
  · unfold calcValid
    rw [Int.toNat_natCast, validRows_spec nrows ncols nd cells hl _ (fun i hi => List.mem_range.1 hi), Out.ok_bind, Out.pure_eq, List.map_map]
    rfl
  · rw [List.pairwise_map]
    refine List.Pairwise.filter _ ?_
    show L.Pairwise _
    rw [List.pairwise_flatMap]
    constructor
    · intro i _
      rw [List.pairwise_map]
      exact List.pairwise_lt_range.imp (fun h => .inr ⟨rfl, Int.ofNat_lt.2 h⟩)
    · refine List.pairwise_lt_range.imp ?_
      intro a b hab x hx y hy
      obtain ⟨j, -, rfl⟩ := List.mem_map.1 hx
      obtain ⟨k, -, rfl⟩ := List.mem_map.1 hy
      exact .inl (Int.ofNat_lt.2 hab)
  · intro row col v
    have h1 : (∃ n : Nat, (F.map (·.2))[n]? = some (row, col) ∧ (F.map (·.1))[n]? = some v) ↔ (v, row, col) ∈ F := by
      constructor
      · rintro ⟨n, a, b⟩
        rw [List.getElem?_map] at a b
        obtain ⟨x, hx, ha⟩ := Option.map_eq_some_iff.1 a
        rw [hx] at b
        have hb : x.1 = v := by simpa using b
        rw [show (v, row, col) = x from by rw [← hb, ← ha]]
        exact List.mem_of_getElem? hx
      · intro h
        obtain ⟨n, hn, e⟩ := List.getElem_of_mem h
        refine ⟨n, ?_, ?_⟩
        · rw [List.getElem?_map, List.getElem?_eq_getElem hn, e]; rfl
        · rw [List.getElem?_map, List.getElem?_eq_getElem hn, e]; rfl
    rw [h1, List.mem_filter]
    have h2 : (!floatEqual v nd) = true ↔ ¬ SameNumber v nd := by
      rw [← C89_equal]; cases floatEqual v nd <;> simp
    rw [h2, ← and_assoc]
    refine and_congr ?_ Iff.rfl
    have hget : ∀ i j : Nat, i < nrows → j < ncols → cell ncols cells i j = some (cells.getD ((i : Int) * ncols + j).toNat .nan) := by
      intro i j hi hj
      unfold cell
      have e : (i : Int) * ncols + j = ((i * ncols + j : Nat) : Int) := by push_cast; ring
      have hlt : i * ncols + j < cells.length := by
        rw [hl]
        calc i * ncols + j < i * ncols + ncols := by omega
          _ = (i + 1) * ncols := by ring
          _ ≤ nrows * ncols := Nat.mul_le_mul_right _ hi
      rw [e, Int.toNat_natCast, List.getD_eq_getElem?_getD, List.getElem?_eq_getElem hlt]
      rfl
    constructor
    · intro h
      obtain ⟨i, hi, h⟩ := List.mem_flatMap.1 h
      obtain ⟨j, hj, h⟩ := List.mem_map.1 h
      have hi := List.mem_range.1 hi
      have hj := List.mem_range.1 hj
      injection h with e1 e2
      injection e2 with e2 e3
      subst e2 e3
      refine ⟨⟨by omega, by exact_mod_cast hi, by omega, by exact_mod_cast hj⟩, ?_⟩
      rw [hget i j hi hj, e1]
    · rintro ⟨⟨a1, a2, a3, a4⟩, h⟩
      obtain ⟨i, rfl⟩ := Int.eq_ofNat_of_zero_le a1
      obtain ⟨j, rfl⟩ := Int.eq_ofNat_of_zero_le a3
      have hi : i < nrows := by exact_mod_cast a2
      have hj : j < ncols := by exact_mod_cast a4
      rw [hget i j hi hj] at h
      injection h with h
      refine List.mem_flatMap.2 ⟨i, List.mem_range.2 hi, List.mem_map.2 ⟨j, List.mem_range.2 hj, ?_⟩⟩
      rw [h]

/-- C89: with a finite NoData value exactly the cells a user calls NoData are left out; NaN and infinite cells count as values. -/
theorem C89_finite_partial (x : ℚ) (v : DVal) : isNoData (.fin x) v = true ↔ IsMissing (.fin x) v := by
  unfold isNoData IsMissing
  rw [C89_equal]
  constructor
  · exact .inl
  · rintro (h | ⟨h, -⟩)
    · exact h
    · exact absurd rfl (h x)

/-- C89 is false if NoData is NaN or an infinity (GeoTIFF files often have NaN): no cell is recognised, whatever it is; all cells become valid cells; renaming NoData
changes the NoData value and leaves all cells as they are. -/
theorem C89_false_nan (nd : DVal) (hnd : ∀ x, nd ≠ .fin x) :
    (∀ v, isNoData nd v = false) ∧ IsMissing nd nd ∧
    (∀ (nrows ncols : Nat) (cells : List DVal), cells.length = nrows * ncols →
      ∃ pos, calcValid nrows ncols nd (some cells) = .ok (cells, pos, (List.range (nrows * ncols)).map (fun n : Nat => (n : Int))) ∧ pos.length = nrows * ncols) ∧
    ∀ new cells, replaceNoData nd new cells = (cells, new) := by
  have hf : ∀ v, floatEqual v nd = false := by
    intro v
    cases h : floatEqual v nd
    · rfl
    · obtain ⟨x, y, -, e, -⟩ := (C89_equal _ _).1 h
      exact absurd e (hnd y)
  refine ⟨hf, .inr ⟨hnd, rfl⟩, ?_, ?_⟩
  · intro nrows ncols cells hl
    unfold calcValid
    rw [Int.toNat_natCast, validRows_spec nrows ncols nd cells hl _ (fun i hi => List.mem_range.1 hi), Out.ok_bind, Out.pure_eq]
    have hF : ∀ L : List (DVal × Int × Int), L.filter (fun x => !floatEqual x.1 nd) = L := by
      intro L
      rw [List.filter_eq_self]
      intro x _
      rw [hf]; rfl
    rw [hF]
    have hidx : ((List.range nrows).flatMap (fun i : Nat => (List.range ncols).map (fun j : Nat => i * ncols + j))) = List.range (nrows * ncols) := by
      clear hl hF
      induction nrows with
      | zero => simp
      | succ n ih =>
        rw [List.range_succ, List.flatMap_append, ih, List.flatMap_singleton, Nat.succ_mul, List.range_add]
    have hval : ∀ i j : Nat, ((i : Int) * ncols + j).toNat = i * ncols + j := by
      intro i j
      have e : (i : Int) * ncols + j = ((i * ncols + j : Nat) : Int) := by push_cast; ring
      rw [e, Int.toNat_natCast]
    have h1 : ((List.range nrows).flatMap (fun i : Nat => (List.range ncols).map (fun j : Nat =>
        (cells.getD ((i : Int) * ncols + j).toNat DVal.nan, (i : Int), (j : Int))))).map (·.1) = cells := by
      have h3 : ((List.range nrows).flatMap (fun i : Nat => (List.range ncols).map (fun j : Nat => i * ncols + j))).map (fun n => cells.getD n .nan) = cells := by
        rw [hidx, ← hl]; exact map_range_getD cells .nan
      rw [List.map_flatMap] at h3 ⊢
      simpa only [List.map_map, Function.comp_def, hval] using h3
    have h2 : ((List.range nrows).flatMap (fun i : Nat => (List.range ncols).map (fun j : Nat =>
        (cells.getD ((i : Int) * ncols + j).toNat DVal.nan, (i : Int), (j : Int))))).map (fun x => x.2.1 * (ncols : Int) + x.2.2) =
        (List.range (nrows * ncols)).map (fun n : Nat => (n : Int)) := by
      rw [← hidx, List.map_flatMap, List.map_flatMap]
      simp only [List.map_map, Function.comp_def, Nat.cast_add, Nat.cast_mul]
    refine ⟨((List.range nrows).flatMap (fun i : Nat => (List.range ncols).map (fun j : Nat =>
        (cells.getD ((i : Int) * ncols + j).toNat DVal.nan, (i : Int), (j : Int))))).map (·.2), ?_, ?_⟩
    · rw [h1, h2]
    · have := congrArg List.length h2
      rw [List.length_map, List.length_map, List.length_range] at this
      rw [List.length_map]; exact this
  · intro new cells
    unfold replaceNoData
    congr 1
    conv_rhs => rw [← List.map_id cells]
    apply List.map_congr_left
    intro v _
    rw [hf]; rfl

/-! ### statistics -/

theorem atMost_refl {a : DVal} (h : a ≠ .nan) : AtMost a a := by
  cases a with
  | fin x => exact le_refl x
  | inf s => cases s <;> trivial
  | nan => exact absurd rfl h

theorem atMost_trans {a b c : DVal} (h1 : AtMost a b) (h2 : AtMost b c) : AtMost a c := by
  cases a with
  | fin x =>
    cases b with
    | fin y =>
      cases c with
      | fin z => exact le_trans (show x ≤ y from h1) h2
      | inf t => cases t <;> first | trivial | cases h2
      | nan => cases h2
    | inf s => cases s <;> cases c with
      | fin z => first | exact h1.elim | exact h2.elim
      | inf t => cases t <;> first | trivial | exact h1.elim | exact h2.elim
      | nan => first | exact h1.elim | exact h2.elim
    | nan => cases h1
  | inf s =>
    cases s with
    | true =>
      cases c with
      | fin z => trivial
      | inf t => trivial
      | nan => cases b with
        | fin y => cases h2
        | inf t => cases t <;> cases h2
        | nan => cases h2
    | false =>
      cases b with
      | fin y => cases h1
      | inf t => cases t with
        | true => cases h1
        | false => exact h2
      | nan => cases h1
  | nan => cases b <;> cases h1

theorem lt_atMost {a b : DVal} (h : lt a b = true) : AtMost a b ∧ b ≠ .nan := by
  cases a with
  | fin x =>
    cases b with
    | fin y => exact ⟨(show x ≤ y from (by simpa [lt] using h : x < y).le), by simp⟩
    | inf t => cases t <;> first | exact ⟨trivial, by simp⟩ | (simp [lt] at h)
    | nan => simp [lt] at h
  | inf s =>
    cases b with
    | fin y => cases s <;> first | exact ⟨trivial, by simp⟩ | (simp [lt] at h)
    | inf t => cases s <;> cases t <;> first | exact ⟨trivial, by simp⟩ | (simp [lt] at h)
    | nan => simp [lt] at h
  | nan => simp [lt] at h

theorem not_lt_atMost {a b : DVal} (h : lt a b = false) (ha : a ≠ .nan) (hb : b ≠ .nan) : AtMost b a := by
  cases a with
  | fin x =>
    cases b with
    | fin y => exact (show y ≤ x from by simpa [lt] using h)
    | inf t => cases t <;> first | trivial | (simp [lt] at h)
    | nan => exact absurd rfl hb
  | inf s =>
    cases b with
    | fin y => cases s <;> first | trivial | (simp [lt] at h)
    | inf t => cases s <;> cases t <;> first | trivial | (simp [lt] at h)
    | nan => exact absurd rfl hb
  | nan => exact absurd rfl ha

theorem add_nan (a : DVal) : add a .nan = .nan := by cases a <;> rfl
theorem nan_add (a : DVal) : add .nan a = .nan := by cases a <;> rfl
theorem nan_not (v : DVal) : floatEqual .nan v = false := by cases v <;> rfl
theorem sub_nan (a : DVal) : sub a .nan = .nan := by cases a <;> rfl

/-- What the accumulators hold after the cells `vals`. -/
structure Seen (ex : DVal) (vals : List DVal) (a : Acc) : Prop where
  num : a.num = (vals.filter (fun v => !floatEqual v ex)).length
  nan : .nan ∈ vals → a.sum = .nan
  mx : a.mx = .fin (-fltMax) ∨ (a.mx ∈ vals ∧ floatEqual a.mx ex = false)
  mn : a.mn = .fin fltMax ∨ (a.mn ∈ vals ∧ floatEqual a.mn ex = false)
  mxn : a.mx ≠ .nan
  mnn : a.mn ≠ .nan
  mx0 : AtMost (.fin (-fltMax)) a.mx
  mn0 : AtMost a.mn (.fin fltMax)
  le : ∀ v ∈ vals, floatEqual v ex = false → v ≠ .nan → AtMost v a.mx ∧ AtMost a.mn v

theorem push_seen {ex : DVal} {vals : List DVal} {a : Acc} (H : Seen ex vals a) (v : DVal) : Seen ex (vals ++ [v]) (a.push ex v) := by
  unfold Acc.push
  by_cases h : floatEqual v ex = true
  · rw [if_pos h]
    refine ⟨?_, ?_, ?_, ?_, H.mxn, H.mnn, H.mx0, H.mn0, ?_⟩
    · rw [List.filter_append, H.num]; simp [h]
    · intro hn
      rcases List.mem_append.1 hn with hn | hn
      · exact H.nan hn
      · rw [← List.mem_singleton.1 hn, nan_not] at h; cases h
    · exact H.mx.imp_right (fun q => ⟨List.mem_append_left _ q.1, q.2⟩)
    · exact H.mn.imp_right (fun q => ⟨List.mem_append_left _ q.1, q.2⟩)
    · intro w hw hw1 hw2
      rcases List.mem_append.1 hw with hw | hw
      · exact H.le w hw hw1 hw2
      · rw [List.mem_singleton.1 hw, h] at hw1; cases hw1
  · rw [if_neg h]
    have h' : floatEqual v ex = false := by cases hq : floatEqual v ex <;> simp_all
    have hmem : v ∈ vals ++ [v] := by simp
    have hmx : AtMost a.mx (if lt a.mx v then v else a.mx) := by
      by_cases q : lt a.mx v = true
      · rw [if_pos q]; exact (lt_atMost q).1
      · rw [if_neg q]; exact atMost_refl H.mxn
    have hmn : AtMost (if lt v a.mn then v else a.mn) a.mn := by
      by_cases q : lt v a.mn = true
      · rw [if_pos q]; exact (lt_atMost q).1
      · rw [if_neg q]; exact atMost_refl H.mnn
    refine ⟨?_, ?_, ?_, ?_, ?_, ?_, atMost_trans H.mx0 hmx, atMost_trans hmn H.mn0, ?_⟩
    · rw [List.filter_append]; simp [h', H.num]
    · intro hn
      show add a.sum v = .nan
      rcases List.mem_append.1 hn with hn | hn
      · rw [H.nan hn, nan_add]
      · rw [← List.mem_singleton.1 hn, add_nan]
    · show (if lt a.mx v then v else a.mx) = _ ∨ _
      by_cases q : lt a.mx v = true
      · right; dsimp only; rw [if_pos q]; exact ⟨hmem, h'⟩
      · dsimp only; rw [if_neg q]; exact H.mx.imp_right (fun q => ⟨List.mem_append_left _ q.1, q.2⟩)
    · show (if lt v a.mn then v else a.mn) = _ ∨ _
      by_cases q : lt v a.mn = true
      · right; dsimp only; rw [if_pos q]; exact ⟨hmem, h'⟩
      · dsimp only; rw [if_neg q]; exact H.mn.imp_right (fun q => ⟨List.mem_append_left _ q.1, q.2⟩)
    · show (if lt a.mx v then v else a.mx) ≠ .nan
      by_cases q : lt a.mx v = true
      · rw [if_pos q]; exact (lt_atMost q).2
      · rw [if_neg q]; exact H.mxn
    · show (if lt v a.mn then v else a.mn) ≠ .nan
      by_cases q : lt v a.mn = true
      · rw [if_pos q]; intro e; rw [e] at q; simp [lt] at q
      · rw [if_neg q]; exact H.mnn
    · intro w hw hw1 hw2
      rcases List.mem_append.1 hw with hw | hw
      · obtain ⟨q1, q2⟩ := H.le w hw hw1 hw2
        exact ⟨atMost_trans q1 hmx, atMost_trans hmn q2⟩
      · rw [List.mem_singleton.1 hw] at hw2 ⊢
        constructor
        · show AtMost v (if lt a.mx v then v else a.mx)
          by_cases q : lt a.mx v = true
          · rw [if_pos q]; exact atMost_refl hw2
          · rw [if_neg q]; exact not_lt_atMost (by simpa using q) H.mxn hw2
        · show AtMost (if lt v a.mn then v else a.mn) v
          by_cases q : lt v a.mn = true
          · rw [if_pos q]; exact atMost_refl hw2
          · rw [if_neg q]; exact not_lt_atMost (by simpa using q) hw2 H.mnn

theorem seen_all (ex : DVal) : ∀ (vals done : List DVal) (a : Acc), Seen ex done a → Seen ex (done ++ vals) (vals.foldl (Acc.push ex) a) := by
  intro vals
  induction vals with
  | nil => intro done a H; simpa using H
  | cons v vals ih =>
    intro done a H
    have := ih (done ++ [v]) _ (push_seen H v)
    simpa using this

theorem sq_nan (ex mean : DVal) (hm : mean = .nan) : ∀ (vals : List DVal) (s : DVal), (s = .nan ∨ ∃ v ∈ vals, floatEqual v ex = false) →
    vals.foldl (fun s v => if floatEqual v ex then s else add s (square (sub v mean))) s = .nan := by
  intro vals
  induction vals with
  | nil =>
    intro s h
    rcases h with h | ⟨v, hv, -⟩
    · exact h
    · cases hv
  | cons v vals ih =>
    intro s h
    rw [List.foldl_cons]
    apply ih
    by_cases q : floatEqual v ex = true
    · rw [if_pos q]
      rcases h with h | ⟨w, hw, hw2⟩
      · exact .inl h
      · rcases List.mem_cons.1 hw with rfl | hw
        · rw [q] at hw2; cases hw2
        · exact .inr ⟨w, hw, hw2⟩
    · rw [if_neg q, hm, sub_nan]
      exact .inl (add_nan s)

/-- C89: the statistics of an array with any cells. NaN cells are counted, and then mean and standard deviation are NaN, while maximum and minimum are those of the other
cells that are not the excluded value (within the bounds the code starts from). -/
theorem C89_stats (sqrt : DVal → DVal) (hs : sqrt .nan = .nan) (vals : List DVal) (ex : DVal) :
    let r := basicStats sqrt vals ex
    let valid := fun v => v ∈ vals ∧ ¬ SameNumber v ex
    r.num = (vals.filter (fun v => !floatEqual v ex)).length ∧ (.nan ∈ vals → r.mean = .nan ∧ r.std = .nan) ∧
    (r.mx = .fin (-fltMax) ∨ valid r.mx) ∧ (r.mn = .fin fltMax ∨ valid r.mn) ∧ r.mx ≠ .nan ∧ r.mn ≠ .nan ∧
    (∀ v, valid v → v ≠ .nan → AtMost v r.mx ∧ AtMost r.mn v) ∧ AtMost (.fin (-fltMax)) r.mx ∧ AtMost r.mn (.fin fltMax) := by
  intro r valid
  have h0 : Seen ex [] Acc.start := ⟨rfl, by simp, .inl rfl, .inl rfl, by simp [Acc.start], by simp [Acc.start], le_refl _, le_refl _, by simp⟩
  have H := seen_all ex vals [] _ h0
  rw [List.nil_append] at H
  have hv : ∀ v, floatEqual v ex = false ↔ ¬ SameNumber v ex := by
    intro v; rw [← C89_equal]; cases floatEqual v ex <;> simp
  refine ⟨H.num, ?_, ?_, ?_, H.mxn, H.mnn, ?_, H.mx0, H.mn0⟩
  · intro hn
    have hsum := H.nan hn
    have hm : r.mean = .nan := by
      show divN _ _ = .nan
      rw [hsum]; rfl
    refine ⟨hm, ?_⟩
    have := sq_nan ex r.mean hm vals (.fin 0) (.inr ⟨.nan, hn, nan_not ex⟩)
    show sqrt (divN (vals.foldl (fun s v => if floatEqual v ex then s else add s (square (sub v r.mean))) (.fin 0)) _) = .nan
    rw [this]
    exact hs
  · exact H.mx.imp_right (fun q => ⟨q.1, (hv _).1 q.2⟩)
  · exact H.mn.imp_right (fun q => ⟨q.1, (hv _).1 q.2⟩)
  · intro v hvv hn
    exact H.le v hvv.1 ((hv v).2 hvv.2) hn

/-- On finite cells the accumulators are those of C19. -/
theorem C89_push_fin (ex v : ℚ) (a : CCGL.Acc) : (Acc.push (.fin ex) ⟨.fin a.mx, .fin a.mn, a.num, .fin a.sum⟩ (.fin v)) =
    (let b := CCGL.Acc.push ex a v; ⟨.fin b.mx, .fin b.mn, b.num, .fin b.sum⟩) := by
  unfold Acc.push CCGL.Acc.push
  rw [floatEqual_fin]
  cases CCGL.floatEqual v ex
  · simp only [lt, add]
    by_cases h1 : a.mx < v <;> by_cases h2 : v < a.mn <;> simp [h1, h2]
  · simp

/-! ### examples -/

/-- An ASCII grid whose NoData value and one of whose two cells are NaN is read as such; both cells are valid cells then. -/
theorem exNan_text : ∃ hdr, readAsc id (some "NCOLS 2\nNROWS 1\nXLLCENTER 0\nYLLCENTER 0\nCELLSIZE 1\nNODATA_VALUE nan\nnan 5\n".toList) hdr0 none =
    .ok (true, hdr, some [.nan, .fin 5]) ∧ hdr.noData = .nan := ⟨⟨1, 2, .fin 0, .fin 0, .fin 1, .nan, 1, 2⟩, by decide +kernel, rfl⟩

example : ∃ pos, calcValid 1 2 .nan (some [.nan, .fin 5]) = .ok ([.nan, .fin 5], pos, [0, 1]) := by
  obtain ⟨-, -, h, -⟩ := C89_false_nan .nan (by simp)
  obtain ⟨pos, e, -⟩ := h 1 2 [.nan, .fin 5] rfl
  exact ⟨pos, e⟩

/-- With NoData -9999 the NaN cell counts: two cells, mean NaN, maximum 5. -/
example : (basicStats id [.nan, .fin (-9999), .fin 5] (.fin (-9999))).num = 2 ∧ (basicStats id [.nan, .fin (-9999), .fin 5] (.fin (-9999))).mean = .nan := by
  have h := C89_stats id rfl [.nan, .fin (-9999), .fin 5] (.fin (-9999))
  exact ⟨by rw [h.1]; decide +kernel, (h.2.1 (by simp)).1⟩

end Nan
end CCGL
