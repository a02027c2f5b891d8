import Verif.Spec.Geotiff
import Verif.Lemmas.MaskGeo
/-!
# GeoTIFF output (C24) and its round trip (C66)
-/
namespace CCGL
namespace Gtiff
open Spec

theorem truncQ_spec (v : ℚ) : IsTrunc v (truncQ v) := by
  unfold truncQ IsTrunc
  by_cases h : 0 ≤ v
  · rw [if_pos h]
    exact .inl ⟨h, Int.floor_le v, Int.lt_floor_add_one v⟩
  · rw [if_neg h]
    exact .inr ⟨not_le.1 h, Int.le_ceil v, Int.ceil_lt_add_one v⟩

theorem truncQ_int (n : Int) : truncQ (n : ℚ) = n := by
  unfold truncQ
  split <;> simp

theorem isIntT_iff (t : RDT) : isIntT t = true ↔ IsIntType t := by
  cases t <;> simp [isIntT, IsIntType]

theorem lo_eq (t : RDT) : ((lo t : Int) : ℚ) = typeMin t := by
  cases t <;> norm_num [lo, typeMin]

theorem hi_eq (t : RDT) : ((hi t : Int) : ℚ) = typeMax t := by
  cases t <;> norm_num [hi, typeMax]

theorem dblOfNat_small {n : Nat} (h : n < 2 ^ 53) : dblOfNat n = n := by
  unfold dblOfNat; rw [if_pos h]

theorem dblOfInt_small {n : Int} (h : |n| < 2 ^ 53) : dblOfInt n = n := by
  rw [abs_lt] at h
  unfold dblOfInt
  by_cases h0 : 0 ≤ n
  · rw [if_pos h0, dblOfNat_small (by omega)]
    have : ((n.toNat : Int) : ℚ) = n := by rw [Int.toNat_of_nonneg h0]
    exact_mod_cast this
  · rw [if_neg h0, dblOfNat_small (by omega)]
    have : (((-n).toNat : Int) : ℚ) = -n := by rw [Int.toNat_of_nonneg (by omega)]; push_cast; ring
    have h2 : (((-n).toNat : Nat) : ℚ) = -n := by exact_mod_cast this
    rw [h2]; ring

/-- The range of an integer type as integers. -/
theorem rep_int {t : RDT} (ht : IsIntType t) {v : ℚ} : Representable t v ↔ ∃ n : Int, v = n ∧ lo t ≤ n ∧ n ≤ hi t := by
  obtain ⟨h1, h2, h3⟩ := ht
  cases t <;> first | exact absurd rfl h1 | exact absurd rfl h2 | exact absurd rfl h3 | (simp [Representable, IntIn, lo, hi])

theorem asDbl_eq {src : RDT} {v : ℚ} (h : SourceCell src v) : asDbl src v = v := by
  unfold asDbl
  by_cases hi' : isIntT src = true
  · rw [if_pos hi']
    obtain ⟨hr, h64⟩ := h
    obtain ⟨n, rfl, hl, hh⟩ := (rep_int ((isIntT_iff src).1 hi')).1 hr
    rw [Int.floor_intCast]
    apply dblOfInt_small
    by_cases hb : src = .uint64 ∨ src = .int64
    · have := h64 hb
      exact_mod_cast this
    · rw [not_or] at hb
      rw [abs_lt]
      cases src <;> simp [lo, hi] at hl hh <;> simp [isIntT] at hi' hb <;> constructor <;> omega
  · rw [if_neg hi']

theorem mapM_inv {α β : Type} (f : α → Out β) : ∀ (l : List α) (rs : List β), l.mapM f = .ok rs →
    rs.length = l.length ∧ ∀ (i : Nat) (a : α) (b : β), l[i]? = some a → rs[i]? = some b → f a = .ok b := by
  intro l
  induction l with
  | nil =>
    intro rs h
    simp at h
    subst h
    exact ⟨rfl, by simp⟩
  | cons x l ih =>
    intro rs h
    rw [List.mapM_cons] at h
    obtain ⟨y, h1, h⟩ := Out.bind_ok h
    obtain ⟨ys, h2, h⟩ := Out.bind_ok h
    simp only [Out.pure_eq, Out.ok.injEq] at h
    subst h
    obtain ⟨e1, e2⟩ := ih ys h2
    refine ⟨by simp [e1], ?_⟩
    intro i a b ha hb
    cases i with
    | zero => simp at ha hb; subst ha; subst hb; exact h1
    | succ i => exact e2 i a b (by simpa using ha) (by simpa using hb)

theorem readCells_all {cells : List ℚ} {n : Int} (h : n = cells.length) : readCells (some cells) n = .ok cells := by
  subst h
  unfold readCells
  rw [Raster.mapM_ok _ (fun (i : Nat) => cells.getD i 0)]
  · congr 1
    apply List.ext_getElem
    · simp
    · intro i h1 h2
      simp [List.getElem?_eq_getElem h2]
  · intro i hi'
    rw [List.mem_range] at hi'
    rw [readAt_some_nat _ i (by simpa using hi')]
    congr 1
    simp at hi'
    simp [List.getElem?_eq_getElem hi']

theorem floatEqual_iff (a b : ℚ) : floatEqual a b = true ↔ IsNoData b a := by
  unfold floatEqual IsNoData
  simp

/-- The old NoData value fits. -/
theorem changes_iff {out : RDT} {nd : ℚ} (hu : out ≠ .uint64) (h64 : out = .int64 → nd ≤ typeMax .int64 ∨ 2 ^ 63 < nd) :
    changes out nd = true ↔ ¬ InRange out nd := by
  unfold changes InRange
  rw [← lo_eq, ← hi_eq]
  by_cases h : out = .int64
  · subst h
    have e1 : dblOfInt (lo .int64) = -2 ^ 63 := by decide +kernel
    have e2 : dblOfInt (hi .int64) = 2 ^ 63 := by decide +kernel
    rw [e1, e2]
    have h' := h64 rfl
    norm_num [typeMax] at h'
    simp only [Bool.or_eq_true, decide_eq_true_eq, not_and_or, not_le]
    norm_num [lo, hi]
    constructor
    · rintro (h | h)
      · left; linarith
      · right; linarith
    · rintro (h | h)
      · left; linarith
      · rcases h' with h' | h'
        · linarith
        · right; linarith
  · have e1 : dblOfInt (lo out) = lo out := by
      apply dblOfInt_small
      cases out <;> simp [lo] at *
    have e2 : dblOfInt (hi out) = hi out := by
      apply dblOfInt_small
      cases out <;> simp [hi] at *
    rw [e1, e2]
    simp only [Bool.or_eq_true, decide_eq_true_eq, not_and_or, not_le]

/-- A converted cell that passed the range check. -/
theorem convCell_legal {src out : RDT} {nd v : ℚ} {c : Int} (hout : IsIntType out) (hv : SourceCell src v)
    (h : convCell src out nd v = .ok (c, false)) :
    (IsNoData nd v ∧ changes out nd = true → c = fallback out) ∧
    (¬ (IsNoData nd v ∧ changes out nd = true) → c = truncQ v ∧ lo out ≤ c ∧ c ≤ hi out) := by
  unfold convCell at h
  rw [asDbl_eq hv] at h
  by_cases hn : floatEqual v nd = true ∧ changes out nd = true
  · rw [if_pos (by simp [hn])] at h
    simp at h
    refine ⟨fun _ => h.symm, fun h' => absurd ⟨(floatEqual_iff _ _).1 hn.1, hn.2⟩ h'⟩
  · have hn' : ¬ (IsNoData nd v ∧ changes out nd = true) := by rw [← floatEqual_iff]; exact hn
    rw [if_neg (by simpa using hn)] at h
    refine ⟨fun h' => absurd h' hn', fun _ => ?_⟩
    obtain ⟨c', hc, h⟩ := Out.bind_ok h
    simp only [Out.pure_eq, Out.ok.injEq, Prod.mk.injEq] at h
    obtain ⟨rfl, hleg⟩ := h
    unfold castTo at hc
    by_cases hs : isIntT src = true
    · rw [if_pos hs] at hc
      obtain ⟨n, rfl, hl, hh⟩ := (rep_int ((isIntT_iff src).1 hs)).1 hv.1
      rw [truncQ_int]
      simp only [Int.floor_intCast, Out.ok.injEq] at hc
      have hsf : src ≠ .float ∧ src ≠ .double := by constructor <;> (rintro rfl; simp [isIntT] at hs)
      unfold illegal at hleg
      simp only [Bool.or_eq_false_iff, decide_eq_false_iff_not, not_lt] at hleg
      obtain ⟨g1, g2⟩ := hleg
      unfold hiEff at g2
      rw [if_neg hsf.1, if_neg hsf.2] at g2
      have g2' : n ≤ hi out := by exact_mod_cast g2
      have g1' : lo out ≤ n := by
        unfold loEff at g1
        split at g1
        · next hc' =>
          have : lo out + 2 ^ 32 ≤ n := by exact_mod_cast g1
          omega
        · split at g1
          · have : lo out + 2 ^ 64 ≤ n := by exact_mod_cast g1
            omega
          · exact_mod_cast g1
      have : (n - lo out) % (hi out - lo out + 1) = n - lo out := Int.emod_eq_of_lt (by omega) (by omega)
      rw [this] at hc
      exact ⟨by omega, by omega, by omega⟩
    · rw [if_neg hs] at hc
      split at hc
      · next hr => simp at hc; subst hc; exact ⟨rfl, hr.1, hr.2⟩
      · cases hc

theorem convert_int {g : Bool} {rnd : ℚ → ℚ} {src out : RDT} {nd : ℚ} {cells : List ℚ} {n : Int} (hn : n = cells.length)
    (hout : IsIntType out) (hne : out ≠ src ∨ out = .int8) {ty : RDT} {data : List ℚ} {nd' : ℚ}
    (h : convert g rnd src out nd n (some cells) = .ok (some (ty, data, nd'))) :
    ty = out ∧ ∃ rs : List (Int × Bool), cells.mapM (convCell src out nd) = .ok rs ∧ (∀ r ∈ rs, r.2 = false) ∧
      data = rs.map (fun r => (r.1 : ℚ)) ∧ nd' = if changes out nd then dblOfInt (fallback out) else nd := by
  unfold convert at h
  rw [if_neg hout.1, if_neg (by rintro ⟨h1, h2⟩; rcases hne with h3 | h3; exacts [h3 h1, h2 h3])] at h
  split at h
  · cases h
  · split at h
    · cases h
    · rw [readCells_all hn, Out.ok_bind, if_pos ((isIntT_iff out).2 hout)] at h
      obtain ⟨⟨cs, bad, nd1⟩, h1, h⟩ := Out.bind_ok h
      dsimp only at h
      unfold convInt at h1
      obtain ⟨rs, h2, h1⟩ := Out.bind_ok h1
      simp only [Out.pure_eq, Out.ok.injEq, Prod.mk.injEq] at h1
      obtain ⟨rfl, rfl, rfl⟩ := h1
      split at h
      · cases h
      · next hb =>
        simp only [Out.pure_eq, Out.ok.injEq, Option.some.injEq, Prod.mk.injEq] at h
        obtain ⟨rfl, rfl, rfl⟩ := h
        refine ⟨rfl, rs, h2, ?_, by simp [Function.comp_def], rfl⟩
        intro r hr
        by_contra hc
        apply hb
        apply List.length_pos_of_mem (a := r)
        rw [List.mem_filter]
        exact ⟨hr, by simpa using hc⟩

theorem dblOfInt_fallback {out : RDT} (hu : out ≠ .uint64) : dblOfInt (fallback out) = fallback out := by
  by_cases h : out = .int64
  · subst h; decide +kernel
  · apply dblOfInt_small
    cases out <;> simp [fallback, lo, hi] at *

theorem fallback_range {out : RDT} (hout : IsIntType out) : lo out ≤ fallback out ∧ fallback out ≤ hi out := by
  obtain ⟨h1, h2, h3⟩ := hout
  cases out <;> simp [fallback, lo, hi] at *

/-- C24: a grid that was written to an integer type (other than its own type, or Int8): every cell of the file is a number
of that type. If the NoData value does not fit the type, NoData cells and the file's NoData value become the extreme value
of the type; every other cell keeps its value without the fraction. If the NoData value fits, it stays the file's NoData
value and every cell (NoData cells included) keeps its value without the fraction. -/
theorem C24_written {g io : Bool} {rnd : ℚ → ℚ} {src out : RDT} {hdr : Header} {cells : List ℚ} {f : GFile}
    (hlen : (cells.length : Int) = hdr.cols * hdr.rows) (hcells : ∀ v ∈ cells, SourceCell src v)
    (hout : IsIntType out) (hne : out ≠ src ∨ out = .int8) (hu : out ≠ .uint64)
    (h64 : out = .int64 → hdr.noData ≤ typeMax .int64 ∨ 2 ^ 63 < hdr.noData)
    (h : writeGeotiff g io rnd src out hdr (some cells) = .ok (some f)) :
    f.type = out ∧ f.data.length = cells.length ∧
    (InRange out hdr.noData → f.noData = hdr.noData) ∧
    (¬ InRange out hdr.noData → f.noData = if typeMin out < 0 then typeMin out else typeMax out) ∧
    ∀ (i : Nat) (v w : ℚ), cells[i]? = some v → f.data[i]? = some w →
      Representable out w ∧
      (IsNoData hdr.noData v ∧ ¬ InRange out hdr.noData → w = f.noData) ∧
      (¬ (IsNoData hdr.noData v ∧ ¬ InRange out hdr.noData) → ∃ n : Int, IsTrunc v n ∧ w = n) := by
  unfold writeGeotiff at h
  obtain ⟨x, hx, h⟩ := Out.bind_ok h
  cases x with
  | none => cases h
  | some x =>
    obtain ⟨ty, data, nd⟩ := x
    dsimp only at h
    split at h
    · cases h
    · simp only [Out.pure_eq, Out.ok.injEq, Option.some.injEq] at h
      subst h
      obtain ⟨rfl, rs, hm, hleg, rfl, rfl⟩ := convert_int hlen.symm hout hne hx
      obtain ⟨hl, hget⟩ := mapM_inv _ _ _ hm
      have hch := changes_iff hu h64
      have hfb : (fallback ty : ℚ) = if typeMin ty < 0 then typeMin ty else typeMax ty := by
        rw [← lo_eq, ← hi_eq]
        unfold fallback
        by_cases hl0 : lo ty < 0
        · rw [if_pos hl0, if_pos (by exact_mod_cast hl0)]
        · rw [if_neg hl0, if_neg (by exact_mod_cast hl0)]
      refine ⟨rfl, by simp [hl], ?_, ?_, ?_⟩
      · intro hr
        show (if changes ty hdr.noData = true then dblOfInt (fallback ty) else hdr.noData) = _
        rw [if_neg (by rw [hch]; simpa using hr)]
      · intro hr
        show (if changes ty hdr.noData = true then dblOfInt (fallback ty) else hdr.noData) = _
        rw [if_pos (by rw [hch]; exact hr), dblOfInt_fallback hu, hfb]
      · intro i v w hv hw
        simp only [List.getElem?_map, Option.map_eq_some_iff] at hw
        obtain ⟨⟨c, b⟩, hr, rfl⟩ := hw
        have hb : b = false := hleg _ (List.mem_of_getElem? hr)
        subst hb
        obtain ⟨q1, q2⟩ := convCell_legal hout (hcells v (List.mem_of_getElem? hv)) (hget i v _ hv hr)
        rw [hch] at q1 q2
        refine ⟨?_, ?_, ?_⟩
        · rw [rep_int hout]
          refine ⟨c, rfl, ?_⟩
          by_cases hc : IsNoData hdr.noData v ∧ ¬ InRange ty hdr.noData
          · rw [q1 hc]; exact fallback_range hout
          · exact (q2 hc).2
        · intro hc
          rw [q1 hc]
          show _ = (if changes ty hdr.noData = true then dblOfInt (fallback ty) else hdr.noData)
          rw [if_pos (by rw [hch]; exact hc.2), dblOfInt_fallback hu]
        · intro hc
          exact ⟨c, by rw [(q2 hc).1]; exact truncQ_spec v, rfl⟩

/-- C24: with the grid's own type (or no type named) the cells and the NoData value are written unchanged. -/
theorem C24_same_type {g io : Bool} {rnd : ℚ → ℚ} {src out : RDT} {hdr : Header} {cells : List ℚ}
    (hlen : (cells.length : Int) = hdr.cols * hdr.rows) (hsrc : src ≠ .unknown) (hio : io = true) (hr : 0 < hdr.rows)
    (hc : 0 < hdr.cols) (hout : out = .unknown ∨ (out = src ∧ out ≠ .int8)) :
    ∃ f, writeGeotiff g io rnd src out hdr (some cells) = .ok (some f) ∧ f.type = src ∧ f.data = cells ∧
      f.noData = hdr.noData := by
  have hcv : convert g rnd src out hdr.noData (hdr.cols * hdr.rows) (some cells) = .ok (some (src, cells, hdr.noData)) := by
    unfold convert
    rcases hout with rfl | ⟨rfl, h8⟩
    · rw [if_pos rfl, if_neg hsrc, readCells_all hlen.symm]; rfl
    · rw [if_neg hsrc, if_pos ⟨rfl, h8⟩, readCells_all hlen.symm]; rfl
  unfold writeGeotiff
  rw [hcv, Out.ok_bind]
  dsimp only
  rw [if_neg (by simp [hio]; omega)]
  exact ⟨_, rfl, rfl, rfl, rfl⟩

theorem isTrunc_unique {v : ℚ} {n m : Int} (h1 : IsTrunc v n) (h2 : IsTrunc v m) : n = m := by
  unfold IsTrunc at h1 h2
  rcases h1 with ⟨a, b, c⟩ | ⟨a, b, c⟩ <;> rcases h2 with ⟨a', b', c'⟩ | ⟨a', b', c'⟩
  · have h1 : (n : ℚ) < m + 1 := by linarith
    have h2 : (m : ℚ) < n + 1 := by linarith
    have h1' : n < m + 1 := by exact_mod_cast h1
    have h2' : m < n + 1 := by exact_mod_cast h2
    omega
  · linarith
  · linarith
  · have h1 : (n : ℚ) < m + 1 := by linarith
    have h2 : (m : ℚ) < n + 1 := by linarith
    have h1' : n < m + 1 := by exact_mod_cast h1
    have h2' : m < n + 1 := by exact_mod_cast h2
    omega

theorem int_near {a b : Int} (h : |(a : ℚ) - b| < 1 / 10 ^ 32) : a = b := by
  have h1 : |(a : ℚ) - b| < 1 := lt_trans h (by norm_num)
  rw [abs_lt] at h1
  have h2 : (a : ℚ) < b + 1 := by linarith [h1.2]
  have h3 : (b : ℚ) < a + 1 := by linarith [h1.1]
  have h2' : a < b + 1 := by exact_mod_cast h2
  have h3' : b < a + 1 := by exact_mod_cast h3
  omega

theorem truncQ_zero {v : ℚ} (h : |v| < 1) : truncQ v = 0 := by
  rw [abs_lt] at h
  have h0 : IsTrunc v 0 := by
    by_cases hv : 0 ≤ v
    · exact .inl ⟨hv, by simpa using hv, by push_cast; linarith [h.2]⟩
    · have hv' := not_le.1 hv
      exact .inr ⟨hv', by push_cast; linarith, by push_cast; linarith [h.1]⟩
  exact isTrunc_unique (truncQ_spec v) h0

/-- A floating point number near an integer that is not 0 is that integer. -/
theorem binary_near {p : Nat} {emin emax : Int} (hp : p ≤ 53) {v : ℚ} (hv : IsBinary p emin emax v) {k : Int}
    (h : |v - k| < 1 / 10 ^ 32) : truncQ v = k := by
  by_cases hk : k = 0
  · subst hk
    apply truncQ_zero
    refine lt_trans ?_ (show (1 : ℚ) / 10 ^ 32 < 1 by norm_num)
    simpa using h
  · obtain ⟨m, e, hm, _, _, rfl⟩ := hv
    have hm' : |(m : ℚ)| < 2 ^ 53 := by
      have h1 : (m.natAbs : ℚ) < 2 ^ 53 := by
        have : m.natAbs < 2 ^ 53 := lt_of_lt_of_le hm (Nat.pow_le_pow_right (by norm_num) hp)
        exact_mod_cast this
      have h2 : |(m : ℚ)| = (m.natAbs : ℚ) := by
        have := Int.natCast_natAbs m
        rw [← Int.cast_abs, ← this, Int.cast_natCast]
      rw [h2]; exact h1
    have hk1 : (1 : ℚ) ≤ |(k : ℚ)| := by
      have : 1 ≤ |k| := Int.one_le_abs hk
      exact_mod_cast this
    have hv2 : (1 : ℚ) / 2 ≤ |(m : ℚ) * 2 ^ e| := by
      have h1 : |(k : ℚ)| ≤ |(m : ℚ) * 2 ^ e| + |(m : ℚ) * 2 ^ e - k| := by
        have := abs_sub_abs_le_abs_sub (k : ℚ) ((m : ℚ) * 2 ^ e)
        rw [abs_sub_comm (k : ℚ)] at this
        linarith
      have h2 : (1 : ℚ) / 10 ^ 32 < 1 / 2 := by norm_num
      linarith
    have he : -53 ≤ e := by
      by_contra hc
      have hc' : e ≤ -54 := by omega
      have h1 : (2 : ℚ) ^ e ≤ 2 ^ (-54 : Int) := zpow_le_zpow_right₀ (by norm_num) hc'
      have h0 : (0 : ℚ) < 2 ^ e := zpow_pos (by norm_num) e
      rw [abs_mul, abs_of_pos h0] at hv2
      have h3 : |(m : ℚ)| * 2 ^ e < 2 ^ 53 * 2 ^ (-54 : Int) := by
        calc |(m : ℚ)| * 2 ^ e < 2 ^ 53 * 2 ^ e := by exact mul_lt_mul_of_pos_right hm' h0
          _ ≤ _ := by exact mul_le_mul_of_nonneg_left h1 (by norm_num)
      have h4 : (2 : ℚ) ^ 53 * 2 ^ (-54 : Int) = 1 / 2 := by norm_num
      rw [h4] at h3
      exact absurd hv2 (not_le.2 h3)
    obtain ⟨j, hj⟩ : ∃ j : Nat, e + 53 = j := ⟨(e + 53).toNat, by omega⟩
    have hM : (m : ℚ) * 2 ^ e * 2 ^ 53 = ((m * 2 ^ j : Int) : ℚ) := by
      have : (2 : ℚ) ^ e * 2 ^ 53 = 2 ^ j := by
        have h1 : (2 : ℚ) ^ (e + 53) = 2 ^ e * 2 ^ (53 : Int) := zpow_add₀ (by norm_num) e 53
        rw [hj] at h1
        rw [zpow_natCast] at h1
        rw [h1]; norm_cast
      rw [mul_assoc, this]; push_cast; ring
    have hd : |((m * 2 ^ j : Int) : ℚ) - ((k * 2 ^ 53 : Int) : ℚ)| < 1 := by
      have : ((m * 2 ^ j : Int) : ℚ) - ((k * 2 ^ 53 : Int) : ℚ) = ((m : ℚ) * 2 ^ e - k) * 2 ^ 53 := by
        rw [← hM]; push_cast; ring
      rw [this, abs_mul, abs_of_pos (show (0 : ℚ) < 2 ^ 53 by norm_num)]
      calc _ < 1 / 10 ^ 32 * 2 ^ 53 := mul_lt_mul_of_pos_right h (by norm_num)
        _ < 1 := by norm_num
    have hd' : |(m * 2 ^ j : Int) - k * 2 ^ 53| < 1 := by exact_mod_cast hd
    have hz : (m * 2 ^ j : Int) = k * 2 ^ 53 := by rw [abs_lt] at hd'; omega
    have : (m : ℚ) * 2 ^ e = k := by
      rw [hz] at hM
      push_cast at hM
      have h53 : (2 : ℚ) ^ 53 ≠ 0 := by norm_num
      exact mul_right_cancel₀ h53 hM
    rw [this, truncQ_int]

theorem source_near {src : RDT} {v : ℚ} (hv : SourceCell src v) {k : Int} (h : IsNoData k v) : truncQ v = k := by
  by_cases hs : IsIntType src
  · obtain ⟨n, rfl, _⟩ := (rep_int hs).1 hv.1
    rw [truncQ_int]
    exact int_near h
  · unfold IsIntType at hs
    have hr := hv.1
    cases src <;> simp only [Representable] at hr <;> first
      | exact binary_near (by norm_num) hr h
      | exact absurd hs (by decide)

/-- C24: a cell of the file is NoData exactly when the cell of the grid is, provided the NoData value is an integer or does
not fit the type, and no valid cell has the file's NoData value as its integer part. -/
theorem C24_mask_partial {g io : Bool} {rnd : ℚ → ℚ} {src out : RDT} {hdr : Header} {cells : List ℚ} {f : GFile}
    (hlen : (cells.length : Int) = hdr.cols * hdr.rows) (hcells : ∀ v ∈ cells, SourceCell src v)
    (hout : IsIntType out) (hne : out ≠ src ∨ out = .int8) (hu : out ≠ .uint64)
    (h64 : out = .int64 → hdr.noData ≤ typeMax .int64 ∨ 2 ^ 63 < hdr.noData)
    (h : writeGeotiff g io rnd src out hdr (some cells) = .ok (some f))
    (hnd : (∃ k : Int, hdr.noData = k) ∨ ¬ InRange out hdr.noData)
    (hcoll : ∀ v ∈ cells, ¬ IsNoData hdr.noData v → ∀ n : Int, IsTrunc v n → (n : ℚ) ≠ f.noData)
    (i : Nat) (v w : ℚ) (hv : cells[i]? = some v) (hw : f.data[i]? = some w) :
    IsNoData f.noData w ↔ IsNoData hdr.noData v := by
  obtain ⟨_, _, h1, h2, h3⟩ := C24_written hlen hcells hout hne hu h64 h
  obtain ⟨_, q1, q2⟩ := h3 i v w hv hw
  have hv' := List.mem_of_getElem? hv
  have hself : ∀ x : ℚ, IsNoData x x := fun x => by unfold IsNoData; norm_num
  have hfint : ∃ k : Int, f.noData = k := by
    by_cases hr : InRange out hdr.noData
    · rcases hnd with ⟨k, hk⟩ | hnd
      · exact ⟨k, by rw [h1 hr, hk]⟩
      · exact absurd hr hnd
    · refine ⟨fallback out, ?_⟩
      rw [h2 hr, ← lo_eq, ← hi_eq]
      unfold fallback
      by_cases hl0 : lo out < 0
      · rw [if_pos hl0, if_pos (by exact_mod_cast hl0)]
      · rw [if_neg hl0, if_neg (by exact_mod_cast hl0)]
  obtain ⟨kf, hkf⟩ := hfint
  by_cases hn : IsNoData hdr.noData v
  · refine ⟨fun _ => hn, fun _ => ?_⟩
    by_cases hr : InRange out hdr.noData
    · obtain ⟨n, hn1, rfl⟩ := q2 (fun hc => hc.2 hr)
      rcases hnd with ⟨k, hk⟩ | hnd
      · rw [h1 hr, hk]
        rw [hk] at hn
        rw [isTrunc_unique hn1 (truncQ_spec v), source_near (hcells v hv') hn]
        exact hself _
      · exact absurd hr hnd
    · rw [q1 ⟨hn, hr⟩]; exact hself _
  · refine ⟨fun hw' => ?_, fun hc => absurd hc hn⟩
    obtain ⟨n, hn1, rfl⟩ := q2 (fun hc => hn hc.1)
    have := hcoll v hv' hn n hn1
    rw [hkf] at hw' this
    exact absurd (by rw [int_near hw']) this

/-- The source type is unsigned with 32 or 64 bits and the target is signed and not wider: the negative lower limit is
converted to a huge unsigned number. -/
def _root_.CCGL.Spec.UnsignedToSigned (src out : RDT) : Prop :=
  (src = .uint32 ∧ (out = .int8 ∨ out = .int16 ∨ out = .int32)) ∨
  (src = .uint64 ∧ (out = .int8 ∨ out = .int16 ∨ out = .int32 ∨ out = .int64))

theorem mapM_some {α β : Type} (f : α → Out β) (l : List α) (h : ∀ a ∈ l, ∃ b, f a = .ok b) : ∃ rs, l.mapM f = .ok rs := by
  induction l with
  | nil => exact ⟨[], rfl⟩
  | cons x l ih =>
    obtain ⟨y, hy⟩ := h x (by simp)
    obtain ⟨ys, hys⟩ := ih (fun a ha => h a (by simp [ha]))
    exact ⟨y :: ys, by rw [List.mapM_cons, hy, Out.ok_bind, hys]; rfl⟩

theorem mapM_ub {α β : Type} (f : α → Out β) (l : List α) (he : ∀ a ∈ l, f a ≠ .exn) (h : ∃ a ∈ l, f a = .ub) :
    l.mapM f = .ub := by
  induction l with
  | nil => simp at h
  | cons x l ih =>
    rw [List.mapM_cons]
    cases hx : f x with
    | exn => exact absurd hx (he x (by simp))
    | ub => rfl
    | ok y =>
      rw [Out.ok_bind, ih (fun a ha => he a (by simp [ha]))]
      · rfl
      · obtain ⟨a, ha, hu⟩ := h
        rcases List.mem_cons.1 ha with rfl | ha
        · rw [hx] at hu; cases hu
        · exact ⟨a, ha, hu⟩

/-- The result of `writeGeotiff` for an integer target once all cells could be converted. -/
theorem write_of_cells {io : Bool} {rnd : ℚ → ℚ} {src out : RDT} {hdr : Header} {cells : List ℚ}
    (hlen : (cells.length : Int) = hdr.cols * hdr.rows) (hr : 0 < hdr.rows) (hc : 0 < hdr.cols) (hio : io = true)
    (hout : IsIntType out) (hne : out ≠ src ∨ out = .int8)
    (hconv : ∀ v ∈ cells, ∃ b, convCell src out hdr.noData v = .ok b) :
    ∃ res, writeGeotiff true io rnd src out hdr (some cells) = .ok res ∧
      (res = none ↔ ∃ v ∈ cells, ∃ c, convCell src out hdr.noData v = .ok (c, true)) := by
  obtain ⟨rs, hrs⟩ := mapM_some _ _ hconv
  obtain ⟨hl, hget⟩ := mapM_inv _ _ _ hrs
  have hbad : (0 < (rs.filter (·.2)).length) ↔ ∃ v ∈ cells, ∃ c, convCell src out hdr.noData v = .ok (c, true) := by
    constructor
    · intro h
      obtain ⟨⟨c, b⟩, hm⟩ := List.exists_mem_of_length_pos h
      rw [List.mem_filter] at hm
      obtain ⟨hm, hb⟩ := hm
      simp only at hb
      subst hb
      obtain ⟨i, hi', hri⟩ := List.getElem_of_mem hm
      have hic : i < cells.length := by omega
      refine ⟨cells[i], List.getElem_mem hic, c, ?_⟩
      exact hget i _ _ (List.getElem?_eq_getElem hic) (by rw [List.getElem?_eq_getElem hi', hri])
    · rintro ⟨v, hv, c, hcv⟩
      obtain ⟨i, hi', rfl⟩ := List.getElem_of_mem hv
      have hir : i < rs.length := by omega
      have := hget i _ _ (List.getElem?_eq_getElem hi') (List.getElem?_eq_getElem hir)
      rw [hcv] at this
      simp only [Out.ok.injEq] at this
      apply List.length_pos_of_mem (a := rs[i])
      rw [List.mem_filter]
      exact ⟨List.getElem_mem hir, by rw [← this]⟩
  have hpos : 0 < hdr.cols * hdr.rows := Int.mul_pos hc hr
  have e : convert true rnd src out hdr.noData (hdr.cols * hdr.rows) (some cells) =
      .ok (if 0 < (rs.filter (·.2)).length then none else
        some (out, rs.map (fun r => (r.1 : ℚ)), if changes out hdr.noData then dblOfInt (fallback out) else hdr.noData)) := by
    unfold convert
    rw [if_neg hout.1, if_neg (by rintro ⟨h1, h2⟩; rcases hne with h3 | h3; exacts [h3 h1, h2 h3]), if_neg (by omega),
      if_neg (by simp), readCells_all hlen.symm, Out.ok_bind, if_pos ((isIntT_iff out).2 hout)]
    unfold convInt
    rw [hrs]
    simp only [Out.ok_bind, Out.pure_eq]
    by_cases hb : 0 < (rs.filter (·.2)).length
    · rw [if_pos hb, if_pos hb]
    · rw [if_neg hb, if_neg hb]
      simp [Function.comp_def]
  unfold writeGeotiff
  rw [e, Out.ok_bind]
  by_cases hb : 0 < (rs.filter (·.2)).length
  · rw [if_pos hb]
    exact ⟨none, rfl, by simp [hbad.1 hb]⟩
  · rw [if_neg hb]
    dsimp only
    rw [if_neg (by simp [hio]; omega)]
    refine ⟨_, rfl, ?_⟩
    rw [← hbad]
    simp [hb]

/-- C24: for an integer source type the call always returns; it is refused exactly if some cell that is not replaced by the
new NoData value lies outside of the target type (or, by a signed/unsigned comparison, always when such a cell exists and an
unsigned 32/64 bit grid is written to a signed type). -/
theorem C24_refused_int {io : Bool} {rnd : ℚ → ℚ} {src out : RDT} {hdr : Header} {cells : List ℚ}
    (hlen : (cells.length : Int) = hdr.cols * hdr.rows) (hr : 0 < hdr.rows) (hc : 0 < hdr.cols) (hio : io = true)
    (hsrc : IsIntType src) (hcells : ∀ v ∈ cells, SourceCell src v)
    (hout : IsIntType out) (hne : out ≠ src ∨ out = .int8) (hu : out ≠ .uint64)
    (h64 : out = .int64 → hdr.noData ≤ typeMax .int64 ∨ 2 ^ 63 < hdr.noData) :
    ∃ res, writeGeotiff true io rnd src out hdr (some cells) = .ok res ∧
      (res = none ↔ ∃ v ∈ cells, ¬ (IsNoData hdr.noData v ∧ ¬ InRange out hdr.noData) ∧
        (¬ InRange out v ∨ UnsignedToSigned src out)) := by
  have hch := changes_iff hu h64
  have hs := (isIntT_iff src).2 hsrc
  have hsf : src ≠ .float ∧ src ≠ .double := ⟨hsrc.2.1, hsrc.2.2⟩
  have key : ∀ v ∈ cells, ∃ c b, convCell src out hdr.noData v = .ok (c, b) ∧
      (b = true ↔ ¬ (IsNoData hdr.noData v ∧ ¬ InRange out hdr.noData) ∧ (¬ InRange out v ∨ UnsignedToSigned src out)) := by
    intro v hv
    unfold convCell
    rw [asDbl_eq (hcells v hv)]
    by_cases hn : IsNoData hdr.noData v ∧ ¬ InRange out hdr.noData
    · rw [if_pos (by simp [floatEqual_iff, hch, hn])]
      exact ⟨_, _, rfl, by simp [hn]⟩
    · rw [if_neg (by simpa [floatEqual_iff, hch] using hn)]
      unfold castTo
      rw [if_pos hs, Out.ok_bind]
      refine ⟨_, _, rfl, ?_⟩
      obtain ⟨n, rfl, hl, hh⟩ := (rep_int hsrc).1 (hcells v hv).1
      have hhi : hiEff src out = hi out := by unfold hiEff; rw [if_neg hsf.1, if_neg hsf.2]
      have hrng : InRange out n ↔ lo out ≤ n ∧ n ≤ hi out := by
        unfold InRange; rw [← lo_eq, ← hi_eq]; norm_cast
      simp only [hn, not_false_eq_true, true_and]
      unfold illegal
      rw [hhi, hrng]
      unfold loEff UnsignedToSigned
      by_cases c1 : src = .uint32 ∧ (out = .int8 ∨ out = .int16 ∨ out = .int32)
      · rw [if_pos c1]
        simp only [c1, and_self, true_or, or_true, iff_true, Bool.or_eq_true, decide_eq_true_eq]
        by_cases h1 : hi out < n
        · right; exact_mod_cast h1
        · left
          have h2 : n < lo out + 2 ^ 32 := by
            have : hi out < lo out + 2 ^ 32 := by rcases c1.2 with rfl | rfl | rfl <;> decide
            omega
          exact_mod_cast h2
      · rw [if_neg c1]
        by_cases c2 : src = .uint64 ∧ lo out < 0
        · rw [if_pos c2]
          have c3 : out = .int8 ∨ out = .int16 ∨ out = .int32 ∨ out = .int64 := by
            have := c2.2
            cases out <;> simp [lo] at this ⊢
          simp only [c2.1, c3, and_self, or_true, iff_true, Bool.or_eq_true, decide_eq_true_eq]
          by_cases h1 : hi out < n
          · right; exact_mod_cast h1
          · left
            have h2 : n < lo out + 2 ^ 64 := by
              have : hi out < lo out + 2 ^ 64 := by rcases c3 with rfl | rfl | rfl | rfl <;> decide
              omega
            exact_mod_cast h2
        · rw [if_neg c2]
          have c4 : ¬ (src = .uint64 ∧ (out = .int8 ∨ out = .int16 ∨ out = .int32 ∨ out = .int64)) := by
            rintro ⟨h1, h2⟩
            exact c2 ⟨h1, by rcases h2 with rfl | rfl | rfl | rfl <;> decide⟩
          simp only [c1, c4, or_self, or_false, Bool.or_eq_true, decide_eq_true_eq]
          norm_cast
          omega
  obtain ⟨res, e, h⟩ := write_of_cells (rnd := rnd) hlen hr hc hio hout hne (fun v hv => by
    obtain ⟨c, b, h, _⟩ := key v hv; exact ⟨_, h⟩)
  refine ⟨res, e, h.trans ⟨?_, ?_⟩⟩
  · rintro ⟨v, hv, c, hcv⟩
    obtain ⟨c', b, h1, h2⟩ := key v hv
    rw [hcv] at h1
    simp only [Out.ok.injEq, Prod.mk.injEq] at h1
    exact ⟨v, hv, h2.1 h1.2.symm⟩
  · rintro ⟨v, hv, h3⟩
    obtain ⟨c', b, h1, h2⟩ := key v hv
    rw [h2.2 h3] at h1
    exact ⟨v, hv, c', h1⟩

/-- C24: for `double` cells and a type of at most 32 bits: if every cell that is not replaced has its integer part in the
range, the call returns, and it is refused exactly if some such cell is outside of the range (by a fraction). If some such
cell has its integer part outside, the conversion is executed all the same and is undefined behaviour. -/
theorem C24_refused_double {io : Bool} {rnd : ℚ → ℚ} {out : RDT} {hdr : Header} {cells : List ℚ}
    (hlen : (cells.length : Int) = hdr.cols * hdr.rows) (hr : 0 < hdr.rows) (hc : 0 < hdr.cols) (hio : io = true)
    (hout : IsIntType out) (hu : out ≠ .uint64) (hi64 : out ≠ .int64) :
    ((∀ v ∈ cells, (IsNoData hdr.noData v ∧ ¬ InRange out hdr.noData) ∨ ∃ n : Int, IsTrunc v n ∧ InRange out n) →
      ∃ res, writeGeotiff true io rnd .double out hdr (some cells) = .ok res ∧
        (res = none ↔ ∃ v ∈ cells, ¬ (IsNoData hdr.noData v ∧ ¬ InRange out hdr.noData) ∧ ¬ InRange out v)) ∧
    ((∃ v ∈ cells, ¬ (IsNoData hdr.noData v ∧ ¬ InRange out hdr.noData) ∧ ∀ n : Int, IsTrunc v n → ¬ InRange out n) →
      writeGeotiff true io rnd .double out hdr (some cells) = .ub) := by
  have hch := changes_iff (nd := hdr.noData) hu (fun h => absurd h hi64)
  have hne : out ≠ .double ∨ out = .int8 := .inl hout.2.2
  have hrng : ∀ n : Int, InRange out n ↔ lo out ≤ n ∧ n ≤ hi out := by
    intro n; unfold InRange; rw [← lo_eq, ← hi_eq]; norm_cast
  have hcast : ∀ v, castTo .double out v = if lo out ≤ truncQ v ∧ truncQ v ≤ hi out then .ok (truncQ v) else .ub := fun v => rfl
  have hlo : loEff .double out = typeMin out := by rw [← lo_eq]; rfl
  have hhi : hiEff .double out = typeMax out := by
    rw [← hi_eq]
    show ((dblOfNat (hi out).toNat : Nat) : ℚ) = _
    rw [dblOfNat_small (by cases out <;> simp [hi] at *)]
    have h0 : 0 ≤ hi out := by cases out <;> simp [hi]
    have : (((hi out).toNat : Int) : ℚ) = hi out := by rw [Int.toNat_of_nonneg h0]
    exact_mod_cast this
  have hill : ∀ v, illegal .double out v = true ↔ ¬ InRange out v := by
    intro v
    unfold illegal InRange
    rw [hlo, hhi]
    simp only [Bool.or_eq_true, decide_eq_true_eq, not_and_or, not_le]
  constructor
  · intro hall
    have key : ∀ v ∈ cells, ∃ c b, convCell .double out hdr.noData v = .ok (c, b) ∧
        (b = true ↔ ¬ (IsNoData hdr.noData v ∧ ¬ InRange out hdr.noData) ∧ ¬ InRange out v) := by
      intro v hv
      unfold convCell
      have : asDbl .double v = v := rfl
      rw [this]
      by_cases hn : IsNoData hdr.noData v ∧ ¬ InRange out hdr.noData
      · rw [if_pos (by simp [floatEqual_iff, hch, hn])]
        exact ⟨_, _, rfl, by simp [hn]⟩
      · rw [if_neg (by simpa [floatEqual_iff, hch] using hn)]
        rcases hall v hv with h | ⟨n, hn1, hn2⟩
        · exact absurd h hn
        · have : n = truncQ v := isTrunc_unique hn1 (truncQ_spec v)
          subst this
          rw [hcast, if_pos ((hrng _).1 hn2), Out.ok_bind]
          exact ⟨_, _, rfl, by rw [hill]; simp [hn]⟩
    obtain ⟨res, e, h⟩ := write_of_cells (rnd := rnd) hlen hr hc hio hout hne (fun v hv => by
      obtain ⟨c, b, h, _⟩ := key v hv; exact ⟨_, h⟩)
    refine ⟨res, e, h.trans ⟨?_, ?_⟩⟩
    · rintro ⟨v, hv, c, hcv⟩
      obtain ⟨c', b, h1, h2⟩ := key v hv
      rw [hcv] at h1
      simp only [Out.ok.injEq, Prod.mk.injEq] at h1
      exact ⟨v, hv, h2.1 h1.2.symm⟩
    · rintro ⟨v, hv, h3⟩
      obtain ⟨c', b, h1, h2⟩ := key v hv
      rw [h2.2 h3] at h1
      exact ⟨v, hv, c', h1⟩
  · rintro ⟨v, hv, hn, hbad⟩
    have hub : cells.mapM (convCell .double out hdr.noData) = .ub := by
      apply mapM_ub
      · intro a _
        unfold convCell
        rw [hcast]
        split
        · simp
        · split <;> simp
      · refine ⟨v, hv, ?_⟩
        unfold convCell
        have : asDbl .double v = v := rfl
        rw [this, if_neg (by simpa [floatEqual_iff, hch] using hn), hcast,
          if_neg (by rw [← hrng]; exact hbad _ (truncQ_spec v))]
        rfl
    have hpos : 0 < hdr.cols * hdr.rows := Int.mul_pos hc hr
    unfold writeGeotiff convert
    rw [if_neg hout.1, if_neg (by rintro ⟨h1, h2⟩; exact hout.2.2 h1), if_neg (by omega),
      if_neg (by simp), readCells_all hlen.symm, Out.ok_bind, if_pos ((isIntT_iff out).2 hout)]
    unfold convInt
    rw [hub]
    rfl

/-- The old NoData value fits, all types. -/
theorem changes_iff_all {out : RDT} {nd : ℚ}
    (h64 : out = .int64 ∨ out = .uint64 → nd ≤ typeMax out ∨ typeMax out + 1 < nd) :
    changes out nd = true ↔ ¬ InRange out nd := by
  by_cases hu : out = .uint64
  · subst hu
    have h' := h64 (.inr rfl)
    unfold changes InRange
    have e1 : dblOfInt (lo .uint64) = 0 := by decide +kernel
    have e2 : dblOfInt (hi .uint64) = 2 ^ 64 := by decide +kernel
    rw [e1, e2]
    simp only [Bool.or_eq_true, decide_eq_true_eq, not_and_or, not_le]
    norm_num [typeMin, typeMax] at h' ⊢
    constructor
    · rintro (h | h)
      · left; linarith
      · right; linarith
    · rintro (h | h)
      · left; linarith
      · rcases h' with h' | h'
        · linarith
        · right; linarith
  · refine changes_iff hu (fun h => ?_)
    subst h
    rcases h64 (.inl rfl) with h | h
    · exact .inl h
    · refine .inr ?_
      norm_num [typeMax] at h ⊢
      exact h

/-- Between `N - 1` and `N` there is no number of `p` significant bits if `N - 1` has at least that many. -/
theorem binary_gap {p : Nat} {emin emax : Int} {v : ℚ} (hv : IsBinary p emin emax v) {N : Int} (hN : (2 : ℚ) ^ p ≤ 2 * (N - 1))
    (h : v < N) : v ≤ N - 1 := by
  by_contra hc
  rw [not_le] at hc
  obtain ⟨m, e, hm, _, _, rfl⟩ := hv
  by_cases he : 0 ≤ e
  · obtain ⟨j, rfl⟩ : ∃ j : Nat, e = j := ⟨e.toNat, by omega⟩
    rw [zpow_natCast] at h hc
    have h1 : m * 2 ^ j < N := by exact_mod_cast h
    have h2 : N - 1 < m * 2 ^ j := by exact_mod_cast hc
    omega
  · have he' : e ≤ -1 := by omega
    have h0 : (0 : ℚ) < 2 ^ e := zpow_pos (by norm_num) e
    have h1 : (2 : ℚ) ^ e ≤ 2 ^ (-1 : Int) := zpow_le_zpow_right₀ (by norm_num) he'
    have hm' : (m : ℚ) < 2 ^ p := by
      have : (m : ℚ) ≤ (m.natAbs : ℚ) := by
        have h9 : m ≤ (m.natAbs : Int) := Int.le_natAbs
        calc (m : ℚ) ≤ ((m.natAbs : Int) : ℚ) := Int.cast_le.2 h9
          _ = _ := Int.cast_natCast _
      have h2 : (m.natAbs : ℚ) < 2 ^ p := by exact_mod_cast hm
      linarith
    have h3 : (m : ℚ) * 2 ^ e < 2 ^ p * 2 ^ (-1 : Int) := by
      calc (m : ℚ) * 2 ^ e < 2 ^ p * 2 ^ e := mul_lt_mul_of_pos_right hm' h0
        _ ≤ _ := mul_le_mul_of_nonneg_left h1 (by positivity)
    have h4 : (2 : ℚ) ^ (-1 : Int) = 1 / 2 := by norm_num
    rw [h4] at h3
    linarith

/-- The upper limit as a floating number: exact, or the next number above the type, which no cell can reach. -/
theorem hiEff_floating {src out : RDT} (hs : src = .float ∨ src = .double) (hout : IsIntType out) :
    hiEff src out = typeMax out ∨
      (hiEff src out = typeMax out + 1 ∧ ∀ v, Representable src v → v < typeMax out + 1 → v ≤ typeMax out) := by
  have gap : ∀ {v : ℚ} (N : Int) (q : ℚ), Representable src v → (N : ℚ) = q + 1 → (2 : ℚ) ^ (if src = .float then 24 else 53) ≤ 2 * q →
      v < q + 1 → v ≤ q := by
    intro v N q hr hN hq h
    have hb : ∃ emin emax, IsBinary (if src = .float then 24 else 53) emin emax v := by
      rcases hs with rfl | rfl
      · exact ⟨_, _, hr⟩
      · exact ⟨_, _, hr⟩
    obtain ⟨_, _, hb⟩ := hb
    have := binary_gap hb (N := N) (by rw [hN]; simpa using hq) (by rw [hN]; exact h)
    rw [hN] at this
    linarith
  rcases hs with rfl | rfl
  · cases out
    case unknown => exact absurd rfl hout.1
    case float => exact absurd rfl hout.2.1
    case double => exact absurd rfl hout.2.2
    case uint8 => left; decide +kernel
    case int8 => left; decide +kernel
    case uint16 => left; decide +kernel
    case int16 => left; decide +kernel
    case uint32 => exact .inr ⟨by decide +kernel, fun v hr => gap 4294967296 _ hr (by norm_num [typeMax]) (by norm_num [typeMax])⟩
    case int32 => exact .inr ⟨by decide +kernel, fun v hr => gap 2147483648 _ hr (by norm_num [typeMax]) (by norm_num [typeMax])⟩
    case uint64 => exact .inr ⟨by decide +kernel, fun v hr => gap 18446744073709551616 _ hr (by norm_num [typeMax]) (by norm_num [typeMax])⟩
    case int64 => exact .inr ⟨by decide +kernel, fun v hr => gap 9223372036854775808 _ hr (by norm_num [typeMax]) (by norm_num [typeMax])⟩
  · cases out
    case unknown => exact absurd rfl hout.1
    case float => exact absurd rfl hout.2.1
    case double => exact absurd rfl hout.2.2
    case uint8 => left; decide +kernel
    case int8 => left; decide +kernel
    case uint16 => left; decide +kernel
    case int16 => left; decide +kernel
    case uint32 => left; decide +kernel
    case int32 => left; decide +kernel
    case uint64 => exact .inr ⟨by decide +kernel, fun v hr => gap 18446744073709551616 _ hr (by norm_num [typeMax]) (by rw [if_neg (by decide)]; norm_num [typeMax])⟩
    case int64 => exact .inr ⟨by decide +kernel, fun v hr => gap 9223372036854775808 _ hr (by norm_num [typeMax]) (by rw [if_neg (by decide)]; norm_num [typeMax])⟩

/-- C24: for `float` and `double` cells and any integer type: if every cell that is not replaced has its integer part in the
range, the call returns, and it is refused exactly if some such cell is outside of the range (by a fraction). If some such
cell has its integer part outside, the conversion is executed all the same and is undefined behaviour. -/
theorem C24_refused_floating {io : Bool} {rnd : ℚ → ℚ} {src out : RDT} {hdr : Header} {cells : List ℚ}
    (hs : src = .float ∨ src = .double) (hcells : ∀ v ∈ cells, Representable src v)
    (hlen : (cells.length : Int) = hdr.cols * hdr.rows) (hr : 0 < hdr.rows) (hc : 0 < hdr.cols) (hio : io = true)
    (hout : IsIntType out) (h64 : out = .int64 ∨ out = .uint64 → hdr.noData ≤ typeMax out ∨ typeMax out + 1 < hdr.noData) :
    ((∀ v ∈ cells, (IsNoData hdr.noData v ∧ ¬ InRange out hdr.noData) ∨ ∃ n : Int, IsTrunc v n ∧ InRange out n) →
      ∃ res, writeGeotiff true io rnd src out hdr (some cells) = .ok res ∧
        (res = none ↔ ∃ v ∈ cells, ¬ (IsNoData hdr.noData v ∧ ¬ InRange out hdr.noData) ∧ ¬ InRange out v)) ∧
    ((∃ v ∈ cells, ¬ (IsNoData hdr.noData v ∧ ¬ InRange out hdr.noData) ∧ ∀ n : Int, IsTrunc v n → ¬ InRange out n) →
      writeGeotiff true io rnd src out hdr (some cells) = .ub) := by
  have hch := changes_iff_all h64
  have hsi : isIntT src = false := by rcases hs with rfl | rfl <;> rfl
  have hne : out ≠ src ∨ out = .int8 := by
    left; rintro rfl
    rcases hs with h | h
    · exact hout.2.1 h
    · exact hout.2.2 h
  have hrng : ∀ n : Int, InRange out n ↔ lo out ≤ n ∧ n ≤ hi out := by
    intro n; unfold InRange; rw [← lo_eq, ← hi_eq]; norm_cast
  have hcast : ∀ v, castTo src out v = if lo out ≤ truncQ v ∧ truncQ v ≤ hi out then .ok (truncQ v) else .ub := fun v => by
    unfold castTo; rw [hsi]; rfl
  have hasd : ∀ v, asDbl src v = v := fun v => by unfold asDbl; rw [hsi]; rfl
  have hlo : loEff src out = typeMin out := by
    rw [← lo_eq]
    unfold loEff
    rw [if_neg (by rintro ⟨h, -⟩; rw [h] at hs; simp at hs), if_neg (by rintro ⟨h, -⟩; rw [h] at hs; simp at hs)]
  have hill : ∀ v ∈ cells, (∃ n : Int, IsTrunc v n ∧ InRange out n) → (illegal src out v = true ↔ ¬ InRange out v) := by
    intro v hv ⟨n, hn1, hn2⟩
    unfold illegal InRange
    rw [hlo]
    simp only [Bool.or_eq_true, decide_eq_true_eq, not_and_or, not_le]
    rcases hiEff_floating hs hout with h | ⟨h, hgap⟩
    · rw [h]
    · rw [h]
      have hlt : v < typeMax out + 1 := by
        have := hn2.2
        rcases hn1 with ⟨_, _, h2⟩ | ⟨_, h2, _⟩ <;> linarith
      have := hgap v (hcells v hv) hlt
      constructor
      · rintro (h1 | h1)
        · exact .inl h1
        · exact absurd hlt (not_lt.2 h1.le)
      · rintro (h1 | h1)
        · exact .inl h1
        · exact absurd this (not_le.2 h1)
  constructor
  · intro hall
    have key : ∀ v ∈ cells, ∃ c b, convCell src out hdr.noData v = .ok (c, b) ∧
        (b = true ↔ ¬ (IsNoData hdr.noData v ∧ ¬ InRange out hdr.noData) ∧ ¬ InRange out v) := by
      intro v hv
      unfold convCell
      rw [hasd]
      by_cases hn : IsNoData hdr.noData v ∧ ¬ InRange out hdr.noData
      · rw [if_pos (by simp [floatEqual_iff, hch, hn])]
        exact ⟨_, _, rfl, by simp [hn]⟩
      · rw [if_neg (by simpa [floatEqual_iff, hch] using hn)]
        rcases hall v hv with h | ⟨n, hn1, hn2⟩
        · exact absurd h hn
        · have hi' := hill v hv ⟨n, hn1, hn2⟩
          have : n = truncQ v := isTrunc_unique hn1 (truncQ_spec v)
          subst this
          rw [hcast, if_pos ((hrng _).1 hn2), Out.ok_bind]
          exact ⟨_, _, rfl, by rw [hi']; simp [hn]⟩
    obtain ⟨res, e, h⟩ := write_of_cells (rnd := rnd) hlen hr hc hio hout hne (fun v hv => by
      obtain ⟨c, b, h, _⟩ := key v hv; exact ⟨_, h⟩)
    refine ⟨res, e, h.trans ⟨?_, ?_⟩⟩
    · rintro ⟨v, hv, c, hcv⟩
      obtain ⟨c', b, h1, h2⟩ := key v hv
      rw [hcv] at h1
      simp only [Out.ok.injEq, Prod.mk.injEq] at h1
      exact ⟨v, hv, h2.1 h1.2.symm⟩
    · rintro ⟨v, hv, h3⟩
      obtain ⟨c', b, h1, h2⟩ := key v hv
      rw [h2.2 h3] at h1
      exact ⟨v, hv, c', h1⟩
  · rintro ⟨v, hv, hn, hbad⟩
    have hub : cells.mapM (convCell src out hdr.noData) = .ub := by
      apply mapM_ub
      · intro a _
        unfold convCell
        rw [hcast]
        split
        · simp
        · split <;> simp
      · refine ⟨v, hv, ?_⟩
        unfold convCell
        rw [hasd, if_neg (by simpa [floatEqual_iff, hch] using hn), hcast,
          if_neg (by rw [← hrng]; exact hbad _ (truncQ_spec v))]
        rfl
    have hpos : 0 < hdr.cols * hdr.rows := Int.mul_pos hc hr
    unfold writeGeotiff convert
    rw [if_neg hout.1, if_neg (by rintro ⟨h1, h2⟩; exact hne.elim (fun h => h h1) h2), if_neg (by omega),
      if_neg (by simp), readCells_all hlen.symm, Out.ok_bind, if_pos ((isIntT_iff out).2 hout)]
    unfold convInt
    rw [hub]
    rfl

/-- A `float` grid meets the hypotheses: 2^31 as `int32` passes the range check (the limit is rounded to 2^31 as a `float`)
and the conversion is undefined. -/
example : writeGeotiff true true id .float .int32 ⟨1, 1, 10, 5, 5, -9999, 1, 1⟩ (some [2147483648]) = .ub :=
  (C24_refused_floating (.inl rfl) (by
      intro v hv
      simp only [List.mem_singleton] at hv
      subst hv
      exact ⟨1, 31, by norm_num, by norm_num, by norm_num, by norm_num⟩) rfl (by decide) (by decide) rfl
    ⟨by decide, by decide, by decide⟩ (by rintro (h | h) <;> cases h)).2
    ⟨2147483648, by simp, by rintro ⟨h, -⟩; unfold IsNoData at h; norm_num [abs_lt] at h,
      fun n hn h => by
        have h2 := h.2
        norm_num [typeMax] at h2
        have h3 : n ≤ 2147483647 := by exact_mod_cast h2
        rcases hn with ⟨_, _, h5⟩ | ⟨h4, _, _⟩
        · have : (2147483648 : ℚ) < ((n + 1 : Int) : ℚ) := by push_cast; exact h5
          have : (2147483648 : Int) < n + 1 := by exact_mod_cast this
          omega
        · norm_num at h4⟩

/-! ### Counterexamples to the unrestricted statement -/

def exHdr (nd : ℚ) (n : Int) : Header := ⟨1, n, 10, 5, 5, nd, 1, n⟩

/-- A valid cell with the extreme value becomes NoData. -/
theorem C24_false_collision : ∃ f, writeGeotiff true true id .int32 .uint8 (exHdr (-9999) 2) (some [255, -9999]) = .ok (some f) ∧
    f.data = [255, 255] ∧ f.noData = 255 := by
  have key : ((writeGeotiff true true id .int32 .uint8 (exHdr (-9999) 2) (some [255, -9999])).bind fun x =>
    match x with | none => .ub | some f => .ok (decide (f.data = [255, 255] ∧ f.noData = 255))) = .ok true := by decide +kernel
  obtain ⟨x, e, key⟩ := Out.bind_ok key
  cases x with
  | none => cases key
  | some f => exact ⟨f, e, by simpa using key⟩

/-- A valid cell with a fraction becomes NoData by truncation. -/
theorem C24_false_fraction : ∃ f, writeGeotiff true true id .double .int16 (exHdr 0 1) (some [1 / 2]) = .ok (some f) ∧
    f.data = [0] ∧ f.noData = 0 := by
  have key : ((writeGeotiff true true id .double .int16 (exHdr 0 1) (some [1 / 2])).bind fun x =>
    match x with | none => .ub | some f => .ok (decide (f.data = [0] ∧ f.noData = 0))) = .ok true := by decide +kernel
  obtain ⟨x, e, key⟩ := Out.bind_ok key
  cases x with
  | none => cases key
  | some f => exact ⟨f, e, by simpa using key⟩

/-- A NoData value with a fraction that fits the type is kept, but its cells are truncated and become valid. -/
theorem C24_false_nodata_fraction : ∃ f, writeGeotiff true true id .double .int16 (exHdr (-19 / 2) 1) (some [-19 / 2]) = .ok (some f) ∧
    f.data = [-9] ∧ f.noData = -19 / 2 := by
  have key : ((writeGeotiff true true id .double .int16 (exHdr (-19 / 2) 1) (some [-19 / 2])).bind fun x =>
    match x with | none => .ub | some f => .ok (decide (f.data = [-9] ∧ f.noData = -19 / 2))) = .ok true := by decide +kernel
  obtain ⟨x, e, key⟩ := Out.bind_ok key
  cases x with
  | none => cases key
  | some f => exact ⟨f, e, by simpa using key⟩

/-- UInt64: the file's NoData value is 2^64 (the maximum rounded to `double`), the NoData cells hold 2^64 - 1. -/
theorem C24_false_uint64 : ∃ f, writeGeotiff true true id .int32 .uint64 (exHdr (-9999) 1) (some [-9999]) = .ok (some f) ∧
    f.data = [2 ^ 64 - 1] ∧ f.noData = 2 ^ 64 := by
  have key : ((writeGeotiff true true id .int32 .uint64 (exHdr (-9999) 1) (some [-9999])).bind fun x =>
    match x with | none => .ub | some f => .ok (decide (f.data = [2 ^ 64 - 1] ∧ f.noData = 2 ^ 64))) = .ok true := by decide +kernel
  obtain ⟨x, e, key⟩ := Out.bind_ok key
  cases x with
  | none => cases key
  | some f => exact ⟨f, e, by simpa using key⟩

/-- An unsigned 32 bit grid whose cells fit is refused for Int16. -/
theorem C24_false_unsigned : writeGeotiff true true id .uint32 .int16 (exHdr 5 1) (some [7]) = .ok none := by decide +kernel

/-- A `double` cell out of the range of the type: the conversion is undefined although the range was checked. -/
theorem C24_false_float_range : writeGeotiff true true id .double .uint8 (exHdr (-9999) 1) (some [300]) = .ub := by decide +kernel

/-- C24: UInt64, the remaining integer type. The file's NoData value is kept if it lies in [0, 2^64] and is 2^64 (the
maximum rounded to `double`) otherwise, in which case the NoData cells hold 2^64 - 1; every other cell keeps its value
without the fraction. -/
theorem C24_written_uint64 {g io : Bool} {rnd : ℚ → ℚ} {src : RDT} {hdr : Header} {cells : List ℚ} {f : GFile}
    (hlen : (cells.length : Int) = hdr.cols * hdr.rows) (hcells : ∀ v ∈ cells, SourceCell src v) (hne : src ≠ .uint64)
    (h : writeGeotiff g io rnd src .uint64 hdr (some cells) = .ok (some f)) :
    f.type = .uint64 ∧ f.data.length = cells.length ∧
    (0 ≤ hdr.noData ∧ hdr.noData ≤ 2 ^ 64 → f.noData = hdr.noData) ∧
    (¬ (0 ≤ hdr.noData ∧ hdr.noData ≤ 2 ^ 64) → f.noData = 2 ^ 64) ∧
    ∀ (i : Nat) (v w : ℚ), cells[i]? = some v → f.data[i]? = some w →
      Representable .uint64 w ∧
      (IsNoData hdr.noData v ∧ ¬ (0 ≤ hdr.noData ∧ hdr.noData ≤ 2 ^ 64) → w = 2 ^ 64 - 1) ∧
      (¬ (IsNoData hdr.noData v ∧ ¬ (0 ≤ hdr.noData ∧ hdr.noData ≤ 2 ^ 64)) → ∃ n : Int, IsTrunc v n ∧ w = n) := by
  have hout : IsIntType .uint64 := by unfold IsIntType; decide
  have e1 : dblOfInt (lo .uint64) = 0 := by decide +kernel
  have e2 : dblOfInt (hi .uint64) = 2 ^ 64 := by decide +kernel
  have e3 : dblOfInt (fallback .uint64) = 2 ^ 64 := by decide +kernel
  have e4 : ((fallback .uint64 : Int) : ℚ) = 2 ^ 64 - 1 := by norm_num [fallback, lo, hi]
  have hch : changes .uint64 hdr.noData = true ↔ ¬ (0 ≤ hdr.noData ∧ hdr.noData ≤ 2 ^ 64) := by
    unfold changes
    rw [e1, e2]
    simp only [Bool.or_eq_true, decide_eq_true_eq, not_and_or, not_le]
  unfold writeGeotiff at h
  obtain ⟨x, hx, h⟩ := Out.bind_ok h
  cases x with
  | none => cases h
  | some x =>
    obtain ⟨ty, data, nd⟩ := x
    dsimp only at h
    split at h
    · cases h
    · simp only [Out.pure_eq, Out.ok.injEq, Option.some.injEq] at h
      subst h
      obtain ⟨rfl, rs, hm, hleg, rfl, rfl⟩ := convert_int hlen.symm hout (.inl hne.symm) hx
      obtain ⟨hl, hget⟩ := mapM_inv _ _ _ hm
      refine ⟨rfl, by simp [hl], ?_, ?_, ?_⟩
      · intro hr
        show (if changes .uint64 hdr.noData = true then dblOfInt (fallback .uint64) else hdr.noData) = _
        rw [if_neg (by rw [hch]; exact not_not.2 hr)]
      · intro hr
        show (if changes .uint64 hdr.noData = true then dblOfInt (fallback .uint64) else hdr.noData) = _
        rw [if_pos (by rw [hch]; exact hr), e3]
      · intro i v w hv hw
        simp only [List.getElem?_map, Option.map_eq_some_iff] at hw
        obtain ⟨⟨c, b⟩, hr, rfl⟩ := hw
        have hb : b = false := hleg _ (List.mem_of_getElem? hr)
        subst hb
        obtain ⟨q1, q2⟩ := convCell_legal hout (hcells v (List.mem_of_getElem? hv)) (hget i v _ hv hr)
        rw [hch] at q1 q2
        refine ⟨?_, ?_, ?_⟩
        · rw [rep_int hout]
          refine ⟨c, rfl, ?_⟩
          by_cases hc : IsNoData hdr.noData v ∧ ¬ (0 ≤ hdr.noData ∧ hdr.noData ≤ 2 ^ 64)
          · rw [q1 hc]; exact fallback_range hout
          · exact (q2 hc).2
        · intro hc
          rw [q1 hc, e4]
        · intro hc
          exact ⟨c, by rw [(q2 hc).1]; exact truncQ_spec v, rfl⟩

/-- C24: a grid of another type written as Float32 holds every cell rounded to that type, as Float64 every cell unchanged;
the NoData value is unchanged. -/
theorem C24_written_float {g io : Bool} {rnd : ℚ → ℚ} {src out : RDT} {hdr : Header} {cells : List ℚ} {f : GFile}
    (hlen : (cells.length : Int) = hdr.cols * hdr.rows) (hout : out = .float ∨ out = .double) (hne : out ≠ src)
    (h : writeGeotiff g io rnd src out hdr (some cells) = .ok (some f)) :
    f.type = out ∧ f.noData = hdr.noData ∧ f.data = if out = .float then cells.map rnd else cells := by
  unfold writeGeotiff at h
  obtain ⟨x, hx, h⟩ := Out.bind_ok h
  cases x with
  | none => cases h
  | some x =>
    obtain ⟨ty, data, nd⟩ := x
    dsimp only at h
    split at h
    · cases h
    · simp only [Out.pure_eq, Out.ok.injEq, Option.some.injEq] at h
      subst h
      have hi' : isIntT out = false := by rcases hout with rfl | rfl <;> rfl
      unfold convert at hx
      rw [if_neg (by rcases hout with rfl | rfl <;> decide), if_neg (by rintro ⟨h1, _⟩; exact hne h1)] at hx
      split at hx
      · cases hx
      · rw [if_neg (by rcases hout with rfl | rfl <;> simp), readCells_all hlen.symm, Out.ok_bind, hi'] at hx
        rw [if_neg (by simp)] at hx
        by_cases hf : out = .float
        · rw [if_pos hf] at hx
          simp only [Out.pure_eq, Out.ok.injEq, Option.some.injEq, Prod.mk.injEq] at hx
          obtain ⟨rfl, rfl, rfl⟩ := hx
          exact ⟨rfl, rfl, by rw [if_pos hf]⟩
        · rw [if_neg hf] at hx
          simp only [Out.pure_eq, Out.ok.injEq, Option.some.injEq, Prod.mk.injEq] at hx
          obtain ⟨rfl, rfl, rfl⟩ := hx
          exact ⟨rfl, rfl, by rw [if_neg hf]⟩

/-- C24: as Float64, or as Float32 when rounding keeps every cell (as it does for a cell that is a Float32 number), a cell
of the file is NoData exactly when the cell of the grid is. -/
theorem C24_mask_float {g io : Bool} {rnd : ℚ → ℚ} {src out : RDT} {hdr : Header} {cells : List ℚ} {f : GFile}
    (hlen : (cells.length : Int) = hdr.cols * hdr.rows) (hout : out = .float ∨ out = .double) (hne : out ≠ src)
    (h : writeGeotiff g io rnd src out hdr (some cells) = .ok (some f))
    (hrnd : out = .float → ∀ v ∈ cells, rnd v = v) (i : Nat) (v w : ℚ) (hv : cells[i]? = some v) (hw : f.data[i]? = some w) :
    IsNoData f.noData w ↔ IsNoData hdr.noData v := by
  obtain ⟨_, h2, h3⟩ := C24_written_float hlen hout hne h
  have hvw : w = v := by
    rw [h3] at hw
    by_cases hf : out = .float
    · rw [if_pos hf, List.getElem?_map, hv] at hw
      simp only [Option.map_some, Option.some.injEq] at hw
      rw [← hw, hrnd hf v (List.mem_of_getElem? hv)]
    · rw [if_neg hf, hv] at hw
      simpa using hw.symm
  rw [h2, hvw]

/-- Written as Float32, a NoData value that is not a Float32 number is kept for the file but its cells are rounded: they
become valid. (Here 1/10, with the correctly rounded Float32 neighbour.) -/
theorem C24_false_float_nodata : ∃ f, writeGeotiff true true (fun v => if v = 1 / 10 then 13421773 / 134217728 else v) .double
    .float (exHdr (1 / 10) 1) (some [1 / 10]) = .ok (some f) ∧ f.noData = 1 / 10 ∧ f.data = [13421773 / 134217728] ∧
    ¬ IsNoData f.noData (13421773 / 134217728) := by
  have key : ((writeGeotiff true true (fun v => if v = 1 / 10 then 13421773 / 134217728 else v) .double
      .float (exHdr (1 / 10) 1) (some [1 / 10])).bind fun x =>
    match x with | none => .ub | some f => .ok (decide (f.noData = 1 / 10 ∧ f.data = [13421773 / 134217728]))) = .ok true := by
    decide +kernel
  obtain ⟨x, e, key⟩ := Out.bind_ok key
  cases x with
  | none => cases key
  | some f =>
    have key' : f.noData = 1 / 10 ∧ f.data = [13421773 / 134217728] := by simpa using key
    refine ⟨f, e, key'.1, key'.2, ?_⟩
    rw [key'.1]
    unfold IsNoData
    rw [not_lt, le_abs]
    left
    norm_num

/-- C24: a failed driver, file creation or write never yields a file: the call reports failure (unless the conversion of
the cells already was undefined). -/
theorem C24_io_failure {g : Bool} {rnd : ℚ → ℚ} {src out : RDT} {hdr : Header} {values : Ptr ℚ} {x : Option GFile}
    (h : writeGeotiff g false rnd src out hdr values = .ok x) : x = none := by
  unfold writeGeotiff at h
  obtain ⟨y, hy, h⟩ := Out.bind_ok h
  cases y with
  | none => cases h; rfl
  | some y =>
    obtain ⟨ty, data, nd⟩ := y
    dsimp only at h
    rw [if_pos (by simp)] at h
    cases h
    rfl

/-- Non-vacuity: a grid that is written with its NoData value replaced. -/
example : ((writeGeotiff true true id .double .uint8 (exHdr (-9999) 3) (some [7 / 2, -9999, 200])).bind fun x =>
    match x with | none => .ub | some f => .ok (f.data, f.noData)) = .ok ([3, 255, 200], 255) := by decide +kernel
example : ∀ v ∈ [(7 : ℚ) / 2, -9999, 200], SourceCell .double v := by
  intro v hv
  refine ⟨?_, by rintro (h | h) <;> cases h⟩
  simp only [List.mem_cons, List.not_mem_nil, or_false] at hv
  rcases hv with rfl | rfl | rfl
  · exact ⟨7, -1, by norm_num, by norm_num, by norm_num, by norm_num⟩
  · exact ⟨-9999, 0, by norm_num, by norm_num, by norm_num, by norm_num⟩
  · exact ⟨200, 0, by norm_num, by norm_num, by norm_num, by norm_num⟩

/-! ## C66 the round trip -/

theorem foldl_min_ge {l : List ℚ} {a b : ℚ} (ha : b ≤ a) (h : ∀ x ∈ l, b ≤ x) : b ≤ l.foldl min a := by
  induction l generalizing a with
  | nil => exact ha
  | cons x l ih => exact ih (le_min ha (h x (by simp))) (fun y hy => h y (by simp [hy]))

/-- C66: reading back a written file gives the same grid geometry, the file's NoData value and exactly the cells of the
file with the type of the file, provided a byte file holds unsigned bytes and a NoData value that is not negative. -/
theorem C66_roundtrip {g io : Bool} {rnd : ℚ → ℚ} {src out : RDT} {hdr : Header} {values : Ptr ℚ} {f : GFile}
    (h : writeGeotiff g io rnd src out hdr values = .ok (some f))
    (hb : f.type = .uint8 → 0 ≤ f.noData ∧ ∀ w ∈ f.data, 0 ≤ w) :
    (readGeotiff f).1 = { hdr with noData := f.noData, layers := 1, cellsnum := hdr.cols * hdr.rows } ∧
    (readGeotiff f).2.1 = f.data ∧ (readGeotiff f).2.2 = f.type := by
  have hs : ¬ (f.type = .uint8 ∧ (((minMax f).2 ≤ 127 ∧ (minMax f).1 < 0) ∨
      ((minMax f).2 ≤ 127 ∧ 0 ≤ (minMax f).1 ∧ f.noData < 0))) := by
    rintro ⟨ht, hc⟩
    obtain ⟨h1, h2⟩ := hb ht
    rcases hc with ⟨_, hc⟩ | ⟨_, _, hc⟩
    · have : 0 ≤ (minMax f).1 := by
        unfold minMax
        dsimp only
        split
        · exact le_refl _
        · next v vs e =>
          have hm : ∀ x ∈ v :: vs, 0 ≤ x := by
            intro x hx
            rw [← e, List.mem_filter] at hx
            exact h2 x hx.1
          exact foldl_min_ge (hm v (by simp)) (fun x hx => hm x (by simp [hx]))
      linarith
    · linarith
  refine ⟨?_, ?_, ?_⟩
  · unfold writeGeotiff at h
    obtain ⟨x, hx, h⟩ := Out.bind_ok h
    cases x with
    | none => cases h
    | some x =>
      obtain ⟨ty, data, nd⟩ := x
      dsimp only at h
      split at h
      · cases h
      · simp only [Out.pure_eq, Out.ok.injEq, Option.some.injEq] at h
        subst h
        unfold readGeotiff
        dsimp only
        congr 1 <;> ring
  · unfold readGeotiff; dsimp only; rw [if_neg hs]
  · unfold readGeotiff; dsimp only; rw [if_neg hs]

/-- C66: in particular for every grid written to an integer type of at most 32 bits (or Int64): what is read back are the
same dimensions and coordinates, and every cell is the source cell without its fraction, or the read NoData value for a
replaced NoData cell. -/
theorem C66_roundtrip_int {g io : Bool} {rnd : ℚ → ℚ} {src out : RDT} {hdr : Header} {cells : List ℚ} {f : GFile}
    (hlen : (cells.length : Int) = hdr.cols * hdr.rows) (hcells : ∀ v ∈ cells, SourceCell src v)
    (hout : IsIntType out) (hne : out ≠ src ∨ out = .int8) (hu : out ≠ .uint64)
    (h64 : out = .int64 → hdr.noData ≤ typeMax .int64 ∨ 2 ^ 63 < hdr.noData)
    (h : writeGeotiff g io rnd src out hdr (some cells) = .ok (some f)) :
    (readGeotiff f).1.rows = hdr.rows ∧ (readGeotiff f).1.cols = hdr.cols ∧ (readGeotiff f).1.cellsize = hdr.cellsize ∧
    (readGeotiff f).1.xll = hdr.xll ∧ (readGeotiff f).1.yll = hdr.yll ∧ (readGeotiff f).2.2 = out ∧
    (readGeotiff f).2.1.length = cells.length ∧
    ∀ (i : Nat) (v w : ℚ), cells[i]? = some v → (readGeotiff f).2.1[i]? = some w →
      (IsNoData hdr.noData v ∧ ¬ InRange out hdr.noData → w = (readGeotiff f).1.noData) ∧
      (¬ (IsNoData hdr.noData v ∧ ¬ InRange out hdr.noData) → ∃ n : Int, IsTrunc v n ∧ w = n) := by
  obtain ⟨w1, w2, w3, w4, w5⟩ := C24_written hlen hcells hout hne hu h64 h
  obtain ⟨r1, r2, r3⟩ := C66_roundtrip h (by
    intro ht
    rw [w1] at ht
    subst ht
    constructor
    · by_cases hr : InRange .uint8 hdr.noData
      · rw [w3 hr]; exact hr.1
      · rw [w4 hr]; norm_num [typeMin, typeMax]
    · intro w hw
      obtain ⟨i, hi', rfl⟩ := List.getElem_of_mem hw
      have hic : i < cells.length := by omega
      obtain ⟨hrep, _⟩ := w5 i _ _ (List.getElem?_eq_getElem hic) (List.getElem?_eq_getElem hi')
      obtain ⟨n, hn, h0, _⟩ := hrep
      rw [hn]; exact_mod_cast h0)
  rw [r1, r2, r3]
  refine ⟨rfl, rfl, rfl, rfl, rfl, w1, w2, ?_⟩
  intro i v w hv hw
  exact ⟨(w5 i v w hv hw).2.1, (w5 i v w hv hw).2.2⟩

theorem le_foldl_max {l : List ℚ} {a x : ℚ} (h : x ≤ a ∨ x ∈ l) : x ≤ l.foldl max a := by
  induction l generalizing a with
  | nil =>
    rcases h with h | h
    · exact h
    · cases h
  | cons b l ih =>
    rw [List.foldl_cons]
    rcases h with h | h
    · exact ih (.inl (le_trans h (le_max_left _ _)))
    · rcases List.mem_cons.1 h with rfl | h
      · exact ih (.inl (le_max_right _ _))
      · exact ih (.inr h)

/-- C66: whatever the NoData value of a file of unsigned bytes, the values read are the values of the file (also when the
reader announces the type as signed bytes). -/
theorem C66_byte_values {f : GFile} (hb : ∀ w ∈ f.data, 0 ≤ w ∧ w ≤ 255) :
    (readGeotiff f).2.1 = f.data := by
  unfold readGeotiff
  dsimp only
  by_cases hs : f.type = .uint8 ∧ (((minMax f).2 ≤ 127 ∧ (minMax f).1 < 0) ∨
      ((minMax f).2 ≤ 127 ∧ 0 ≤ (minMax f).1 ∧ f.noData < 0))
  · rw [if_pos hs]
    have hmin : 0 ≤ (minMax f).1 := by
      unfold minMax
      dsimp only
      split
      · exact le_refl _
      · next v vs e =>
        have hm : ∀ x ∈ v :: vs, 0 ≤ x := by
          intro x hx
          rw [← e, List.mem_filter] at hx
          exact (hb x hx.1).1
        exact foldl_min_ge (hm v (by simp)) (fun x hx => hm x (by simp [hx]))
    rcases hs.2 with ⟨_, h⟩ | ⟨hmax, _, hnd⟩
    · linarith
    · conv_rhs => rw [← List.map_id f.data]
      apply List.map_congr_left
      intro w hw
      have hwv : w ≤ (minMax f).2 := by
        have hmem : w ∈ f.data.filter (fun v => v ≠ f.noData) := by
          rw [List.mem_filter]
          refine ⟨hw, ?_⟩
          have := (hb w hw).1
          simp only [ne_eq, decide_not, Bool.not_eq_eq_eq_not, Bool.not_true, decide_eq_false_iff_not]
          intro h
          rw [h] at this
          linarith
        unfold minMax
        dsimp only
        split
        · next e => rw [e] at hmem; cases hmem
        · next v vs e =>
          rw [e] at hmem
          exact le_foldl_max ((List.mem_cons.1 hmem).imp_left le_of_eq)
      rw [if_neg (by linarith)]
      rfl
  · rw [if_neg hs]

/-- The hypotheses are met by a file read as signed bytes. -/
example : ∃ f : GFile, f.type = .uint8 ∧ (∀ w ∈ f.data, 0 ≤ w ∧ w ≤ 255) ∧ (readGeotiff f).2.2 = .int8 ∧ f.data = [7, 127] :=
  ⟨{ type := .uint8, rows := 1, cols := 2, data := [7, 127], noData := -9999, left := 0, dx := 1, top := 0, dy := -1 },
    rfl, by norm_num, by decide +kernel, rfl⟩

/-- A byte grid written with its own type and a negative NoData value and cells of at most 127 is
read back as signed bytes: the values are the same, the type is not. -/
theorem C66_false_byte_type : ∃ f, writeGeotiff true true id .uint8 .unknown (exHdr (-9999) 1) (some [7]) = .ok (some f) ∧
    (readGeotiff f).2.2 = .int8 := by
  have key : ((writeGeotiff true true id .uint8 .unknown (exHdr (-9999) 1) (some [7])).bind fun x =>
    match x with | none => .ub | some f => .ok (decide ((readGeotiff f).2.2 = .int8))) = .ok true := by decide +kernel
  obtain ⟨x, e, key⟩ := Out.bind_ok key
  cases x with
  | none => cases key
  | some f => exact ⟨f, e, by simpa using key⟩

end Gtiff
end CCGL
