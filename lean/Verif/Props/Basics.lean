import Verif.Model.GfsSubset
import Verif.Model.Mask
import Verif.Lemmas.Gfs
import Verif.Spec.Types
import Mathlib.Tactic.Linarith
import Mathlib.Tactic.Positivity
import Mathlib.Tactic.NormNum
import Mathlib.Algebra.Order.Floor.Ring
/-!
# C72: comparison of values, and the small functions the other statements mention

`FloatEqual`, the conversion to `int`, the default value, the options of stored files: what they are, independent of their definitions
in the model.
-/
namespace CCGL
open Spec

/-- C72: every value equals itself. -/
theorem C72_refl (a : ℚ) : floatEqual a a = true := by
  unfold floatEqual
  rw [sub_self, abs_zero]
  simp

/-- C72: the order of the arguments does not matter. -/
theorem C72_symm (a b : ℚ) : floatEqual a b = floatEqual b a := by
  unfold floatEqual
  rw [abs_sub_comm]

/-- C72: values that compare equal differ by less than 1e-32. -/
theorem C72_near (a b : ℚ) : floatEqual a b = true ↔ |a - b| < 1 / 10 ^ 32 := by
  unfold floatEqual
  rw [decide_eq_true_iff]

/-- C72: integral values (cells of the integer types, the NoData values in use) compare equal only if they are the same. -/
theorem C72_int (m n : Int) : floatEqual m n = true ↔ m = n := by
  rw [C72_near]
  constructor
  · intro h
    by_contra hne
    have h1 : (1 : Int) ≤ |m - n| := Int.one_le_abs (sub_ne_zero.2 hne)
    have h2 : (1 : ℚ) ≤ |(m : ℚ) - n| := by exact_mod_cast h1
    have : (1 : ℚ) / 10 ^ 32 < 1 := by norm_num
    linarith
  · rintro rfl
    rw [sub_self, abs_zero]
    norm_num

/-- C72: two doubles, one of them not within 2^-53 (1.1e-16) of zero, compare equal only if they are the same; so a cell
is NoData only if it is exactly the NoData value. -/
theorem C72_double_partial (a b : ℚ) (ha : Representable .double a) (hb : Representable .double b) (hbig : (2 : ℚ) ^ (-53 : Int) ≤ |a|) :
    floatEqual a b = true ↔ a = b := by
  constructor
  · intro h
    rw [C72_near] at h
    by_contra hne
    obtain ⟨m1, e1, hm1, -, -, rfl⟩ := ha
    obtain ⟨m2, e2, hm2, -, -, rfl⟩ := hb
    have h53 : ∀ (m e : Int), m.natAbs < 2 ^ 53 → e < -106 → |(m : ℚ) * 2 ^ e| ≤ (2 : ℚ) ^ (-54 : Int) := by
      intro m e hm he
      have hq : |(m : ℚ)| ≤ 2 ^ (53 : Int) := by
        have h1 : (m.natAbs : ℚ) < 2 ^ 53 := by exact_mod_cast hm
        rw [Nat.cast_natAbs, Int.cast_abs] at h1
        exact h1.le
      rw [abs_mul, abs_of_pos (zpow_pos (by norm_num : (0 : ℚ) < 2) e)]
      calc |(m : ℚ)| * 2 ^ e ≤ 2 ^ (53 : Int) * 2 ^ (-107 : Int) := by
            refine mul_le_mul hq (zpow_le_zpow_right₀ (by norm_num) (by omega)) (zpow_pos (by norm_num) e).le (zpow_pos (by norm_num) _).le
        _ = (2 : ℚ) ^ (-54 : Int) := by rw [← zpow_add₀ (by norm_num : (2 : ℚ) ≠ 0)]; norm_num
    have hc : (1 : ℚ) / 10 ^ 32 < (2 : ℚ) ^ (-106 : Int) := by norm_num
    have hd : (2 : ℚ) ^ (-106 : Int) ≤ (2 : ℚ) ^ (-54 : Int) := zpow_le_zpow_right₀ (by norm_num) (by norm_num)
    have hp : (2 : ℚ) ^ (-53 : Int) = 2 * (2 : ℚ) ^ (-54 : Int) := by norm_num
    have hpos : (0 : ℚ) < (2 : ℚ) ^ (-54 : Int) := zpow_pos (by norm_num) _
    have he1 : -106 ≤ e1 := by
      by_contra hlt
      have := h53 m1 e1 hm1 (by omega)
      linarith
    by_cases he2 : e2 < -106
    · have h1 := h53 m2 e2 hm2 he2
      have h2 := abs_sub_abs_le_abs_sub ((m1 : ℚ) * 2 ^ e1) ((m2 : ℚ) * 2 ^ e2)
      rw [hp] at hbig
      have h4 := lt_of_lt_of_le hc hd
      generalize |(m1 : ℚ) * 2 ^ e1 - (m2 : ℚ) * 2 ^ e2| = A at h h2
      generalize |(m1 : ℚ) * 2 ^ e1| = B at hbig h2
      generalize |(m2 : ℚ) * 2 ^ e2| = C at h1 h2
      generalize (2 : ℚ) ^ (-54 : Int) = D at h1 hbig h4
      linarith
    · have hz : ∀ (m e : Int), -106 ≤ e → ∃ z : Int, (m : ℚ) * 2 ^ e = (z : ℚ) * 2 ^ (-106 : Int) := by
        intro m e he
        refine ⟨m * 2 ^ (e + 106).toNat, ?_⟩
        push_cast
        rw [mul_assoc, ← zpow_natCast, ← zpow_add₀ (by norm_num : (2 : ℚ) ≠ 0)]
        congr 2
        omega
      obtain ⟨z1, hz1⟩ := hz m1 e1 he1
      obtain ⟨z2, hz2⟩ := hz m2 e2 (by omega)
      rw [hz1, hz2] at h hne
      have hzz : z1 ≠ z2 := fun h => hne (by rw [h])
      have h1 : (1 : Int) ≤ |z1 - z2| := Int.one_le_abs (sub_ne_zero.2 hzz)
      have h2 : (1 : ℚ) ≤ |(z1 : ℚ) - z2| := by exact_mod_cast h1
      rw [← sub_mul, abs_mul, abs_of_pos (zpow_pos (by norm_num : (0 : ℚ) < 2) (-106))] at h
      have h3 : (2 : ℚ) ^ (-106 : Int) ≤ |(z1 : ℚ) - z2| * 2 ^ (-106 : Int) := le_mul_of_one_le_left (zpow_pos (by norm_num) _).le h2
      linarith
  · rintro rfl
    exact C72_refl a

/-- Non-vacuity: -9999 and a neighbour of it. -/
example : Representable .double (-9999) ∧ Representable .double (-9998.5) ∧ (2 : ℚ) ^ (-53 : Int) ≤ |(-9999 : ℚ)| ∧
    floatEqual (-9999) (-9998.5) = false := by
  refine ⟨⟨-9999, 0, by norm_num, by norm_num, by norm_num, by norm_num⟩, ⟨-19997, -1, by norm_num, by norm_num, by norm_num, by norm_num⟩, ?_, by decide +kernel⟩
  rw [abs_of_neg (by norm_num)]
  norm_num

/-- C72 is false near zero: the double 2^-107 compares equal to 0; and the comparison is not transitive. -/
theorem C72_false_tiny : Representable .double ((2 : ℚ) ^ (-107 : Int)) ∧ floatEqual ((2 : ℚ) ^ (-107 : Int)) 0 = true ∧
    (∃ a b c : ℚ, Representable .double a ∧ Representable .double b ∧ Representable .double c ∧
      floatEqual a b = true ∧ floatEqual b c = true ∧ floatEqual a c = false) := by
  refine ⟨⟨1, -107, by norm_num, by norm_num, by norm_num, by norm_num⟩, by decide +kernel,
    0, (2 : ℚ) ^ (-107 : Int), (2 : ℚ) ^ (-106 : Int), ⟨0, 0, by norm_num, by norm_num, by norm_num, by norm_num⟩,
    ⟨1, -107, by norm_num, by norm_num, by norm_num, by norm_num⟩, ⟨1, -106, by norm_num, by norm_num, by norm_num, by norm_num⟩,
    by decide +kernel, by decide +kernel, by decide +kernel⟩

/-- The conversion to `int` cuts off the fraction. -/
theorem truncQ_spec (q : ℚ) : |(truncQ q : ℚ)| ≤ |q| ∧ |q - truncQ q| < 1 ∧ 0 ≤ (truncQ q : ℚ) * q := by
  unfold truncQ
  split
  · next h =>
    have h1 := Int.floor_le q
    have h2 := Int.lt_floor_add_one q
    have h3 : (0 : ℚ) ≤ (⌊q⌋ : ℚ) := by exact_mod_cast Int.floor_nonneg.2 h
    rw [abs_of_nonneg h3, abs_of_nonneg h, abs_of_nonneg (by linarith)]
    exact ⟨h1, by linarith, mul_nonneg h3 h⟩
  · next h =>
    push Not at h
    have h1 := Int.le_ceil q
    have h2 := Int.ceil_lt_add_one q
    have h3 : (⌈q⌉ : ℚ) ≤ 0 := by exact_mod_cast Int.ceil_nonpos.2 h.le
    rw [abs_of_nonpos h3, abs_of_neg h, abs_of_nonpos (by linarith)]
    exact ⟨by linarith, by linarith, mul_nonneg_of_nonpos_of_nonpos h3 h.le⟩

/-- The default value given by the user is used unless it is `NODATA_VALUE` (-9999); then it is the raster's NoData value. -/
theorem checkDefault_spec (dflt nd : ℚ) : (¬ |dflt - -9999| < 1 / 10 ^ 32 → Raster.checkDefault dflt nd = dflt) ∧
    (dflt = -9999 → |Raster.checkDefault dflt nd - nd| < 1 / 10 ^ 32) := by
  unfold Raster.checkDefault
  constructor
  · intro h
    rw [if_neg]
    intro h2
    rw [Bool.and_eq_true, C72_near] at h2
    exact h h2.1
  · rintro rfl
    split
    · rw [sub_self, abs_zero]; norm_num
    · next h =>
      have h1 : floatEqual (-9999) NODATA = true := C72_refl _
      rw [h1, Bool.true_and, Bool.not_eq_true, Bool.not_eq_false', C72_near] at h
      rw [abs_sub_comm]
      exact h

namespace Gfs

theorem Opts.get_set (o : Opts) (k v k' : Str) : Opts.get (Opts.set o k v) k' = if k' = k then some v else Opts.get o k' := by
  unfold Opts.set
  split
  · next hs =>
    have key : ∀ (l : Opts), Opts.get (l.map (fun e => if e.1 = k then (k, v) else e)) k' =
        if k' = k then (if (Opts.get l k).isSome then some v else none) else Opts.get l k' := by
      intro l
      induction l with
      | nil => by_cases h : k' = k <;> simp [Opts.get, h]
      | cons e l ih =>
        have e1 : ∀ (a : Str × Str) (l : Opts) (x : Str), Opts.get (a :: l) x = if a.1 = x then some a.2 else Opts.get l x := by
          intro a l x
          unfold Opts.get
          rw [List.find?_cons]
          by_cases h : a.1 = x <;> simp [h]
        rw [List.map_cons, e1, ih, e1, e1]
        by_cases h1 : e.1 = k
        · by_cases h2 : k' = k
          · simp [h1, h2]
          · simp [h1, h2, Ne.symm h2]
        · by_cases h2 : k' = k
          · simp [h1, h2]
          · simp [h1, h2]
    rw [key, if_pos hs]
  · next hs =>
    rw [Bool.not_eq_true, Option.isSome_eq_false_iff, Option.isNone_iff_eq_none] at hs
    unfold Opts.get at hs ⊢
    rw [List.find?_append]
    by_cases h : k' = k
    · subst h
      rw [Option.map_eq_none_iff] at hs
      simp [hs]
    · rw [if_neg h]
      have : List.find? (fun e : Str × Str => decide (e.1 = k')) [(k, v)] = none := by simp [Ne.symm h]
      rw [this, Option.or_none]

theorem Opts.get_copyInto (src : Opts) : ∀ (dst : Opts) (k : Str), (src.map (·.1)).Nodup →
    Opts.get (Opts.copyInto src dst) k = (Opts.get src k).or (Opts.get dst k) := by
  unfold Opts.copyInto
  induction src with
  | nil => intro dst k _; rfl
  | cons e l ih =>
    intro dst k hn
    rw [List.map_cons, List.nodup_cons] at hn
    rw [List.foldl_cons, ih _ k hn.2, Opts.get_set]
    by_cases h : k = e.1
    · subst h
      have h1 : Opts.get l e.1 = none := by
        unfold Opts.get
        rw [Option.map_eq_none_iff, List.find?_eq_none]
        intro x hx hxe
        exact hn.1 (List.mem_map.2 ⟨x, hx, by simpa using hxe⟩)
      rw [h1, if_pos rfl]
      unfold Opts.get
      rw [List.find?_cons]
      simp
    · rw [if_neg h]
      congr 1
      unfold Opts.get
      rw [List.find?_cons]
      simp [Ne.symm h]

/-- The options a raster is stored under: those of the call before those of the object; `INCLUDE_NODATA` says whether NoData cells are
included; `DATATYPE_OUT` is the type of the cells if none (or `Unknown`) is given. -/
theorem outOpts_spec (T : RDT) (own opts : Opts) (inc : Bool) (hn : (opts.map (·.1)).Nodup) :
    Opts.get (outOpts T own opts inc) "INCLUDE_NODATA".toList = some (if inc then "TRUE".toList else "FALSE".toList) ∧
    (∀ k, k ≠ "INCLUDE_NODATA".toList → k ≠ "DATATYPE_OUT".toList →
      Opts.get (outOpts T own opts inc) k = (Opts.get opts k).or (Opts.get own k)) ∧
    (∀ t, (Opts.get opts "DATATYPE_OUT".toList).or (Opts.get own "DATATYPE_OUT".toList) = t →
      Opts.get (outOpts T own opts inc) "DATATYPE_OUT".toList =
        some (match t with
          | none => rdtToString T.code
          | some s => if stringMatch "Unknown".toList s then rdtToString T.code else s)) := by
  have hkk : ("DATATYPE_OUT".toList : Str) ≠ "INCLUDE_NODATA".toList := by decide
  have hg := fun k => Opts.get_copyInto opts own k hn
  refine ⟨?_, ?_, ?_⟩
  · show Opts.get (Opts.set _ "INCLUDE_NODATA".toList _) _ = _
    rw [Opts.get_set, if_pos rfl]
  · intro k h1 h2
    show Opts.get (Opts.set _ "INCLUDE_NODATA".toList _) _ = _
    rw [Opts.get_set, if_neg h1, ← hg k]
    have h2' : k ≠ kTypeOut := h2
    split
    · rw [Opts.get_set, if_neg h2']
    · split
      · rw [Opts.get_set, if_neg h2']
      · rfl
  · rintro t rfl
    show Opts.get (Opts.set _ "INCLUDE_NODATA".toList _) _ = _
    rw [Opts.get_set, if_neg hkk]
    have e := hg "DATATYPE_OUT".toList
    have hk : kTypeOut = "DATATYPE_OUT".toList := rfl
    rw [hk, e]
    generalize hx : (Opts.get opts "DATATYPE_OUT".toList).or (Opts.get own "DATATYPE_OUT".toList) = x
    cases x with
    | none => dsimp only; rw [Opts.get_set, if_pos rfl]
    | some s =>
      dsimp only
      split
      · rw [Opts.get_set, if_pos rfl]
      · rw [e, hx]

/-- The same for the options subsets are stored under. -/
theorem subOpts_spec (T : RDT) (own opts : Opts) (inc : Bool) (hn : (opts.map (·.1)).Nodup) (k : Str) :
    Opts.get (subOpts T own opts inc) k = Opts.get (outOpts T own opts inc) k := by
  obtain ⟨h1, h2, h3⟩ := outOpts_spec T own opts inc hn
  have hkk : ("DATATYPE_OUT".toList : Str) ≠ "INCLUDE_NODATA".toList := by decide
  have hg := fun k => Opts.get_copyInto opts own k hn
  have hk : kTypeOut = "DATATYPE_OUT".toList := rfl
  have hi : kIncNodata = "INCLUDE_NODATA".toList := rfl
  have e : Opts.get (Opts.set (Opts.copyInto opts own) kIncNodata (if inc then "TRUE".toList else "FALSE".toList)) kTypeOut =
      (Opts.get opts "DATATYPE_OUT".toList).or (Opts.get own "DATATYPE_OUT".toList) := by
    rw [Opts.get_set, if_neg (by rw [hk, hi]; exact hkk), hk, hg]
  have h4 := h3 _ rfl
  rw [← e] at h4
  unfold subOpts
  dsimp only
  generalize hx : Opts.get (Opts.set (Opts.copyInto opts own) kIncNodata (if inc then "TRUE".toList else "FALSE".toList)) kTypeOut = x at h4
  by_cases hkt : k = "DATATYPE_OUT".toList
  · subst hkt
    rw [h4]
    cases x with
    | none => dsimp only; rw [Opts.get_set, hk, if_pos rfl]
    | some s =>
      dsimp only
      split
      · rw [Opts.get_set, hk, if_pos rfl]
      · rw [← hk, hx]
  · have h5 : ∀ o : Opts, Opts.get o k = Opts.get (outOpts T own opts inc) k → ∀ v, Opts.get (Opts.set o kTypeOut v) k = Opts.get (outOpts T own opts inc) k := by
      intro o ho v
      rw [Opts.get_set, hk, if_neg hkt, ho]
    have h6 : Opts.get (Opts.set (Opts.copyInto opts own) kIncNodata (if inc then "TRUE".toList else "FALSE".toList)) k =
        Opts.get (outOpts T own opts inc) k := by
      rw [Opts.get_set, hi]
      by_cases hki : k = "INCLUDE_NODATA".toList
      · rw [if_pos hki, hki, h1]
      · rw [if_neg hki, hg, h2 k hki hkt]
    cases x with
    | none => exact h5 _ h6 _
    | some s =>
      dsimp only
      split
      · exact h5 _ h6 _
      · exact h6

/-- The options a stored raster is looked up with: those of the call, and `INCLUDE_NODATA` is `TRUE` unless given. -/
theorem inOpts_spec (opts : Opts) : ∀ k, Opts.get (inOpts opts) k =
    (Opts.get opts k).or (if k = "INCLUDE_NODATA".toList then some "TRUE".toList else none) := by
  intro k
  have hi : kIncNodata = "INCLUDE_NODATA".toList := rfl
  unfold inOpts
  split
  · next h =>
    rw [Option.isNone_iff_eq_none] at h
    unfold Opts.get
    rw [List.find?_append, Option.map_or]
    congr 1
    by_cases h2 : k = "INCLUDE_NODATA".toList
    · simp [hi, h2]
    · have : ("INCLUDE_NODATA".toList : Str) ≠ k := fun h => h2 h.symm
      rw [if_neg h2, hi]
      simp only [List.find?_cons, this, decide_false, List.find?_nil, Option.map_none]
  · next h =>
    by_cases h2 : k = "INCLUDE_NODATA".toList
    · subst h2
      rw [hi] at h
      cases hx : Opts.get opts "INCLUDE_NODATA".toList with
      | none => rw [hx] at h; exact absurd rfl h
      | some v => rfl
    · rw [if_neg h2, Option.or_none]

end Gfs

end CCGL
