import Verif.Spec.AppGfsFewDec
import Verif.Lemmas.AppGfsDec
import Verif.Props.AppGfsFew
/-!
# Lemmas about files without NoData cells, in one or several layers
-/
namespace CCGL
namespace App
open Fs Disk Main Raster Gfs Disk.Spec App.Spec

theorem cellByCell_length (ps : List (Int × Int)) {m : Int} (hm : 0 ≤ m) (w : Nat → Int → Int → ℚ) :
    ((cellByCell ps m w).length : Int) = ps.length * m := by
  obtain ⟨n, rfl⟩ := Int.eq_ofNat_of_zero_le hm
  unfold cellByCell
  induction ps with
  | nil => simp
  | cons a ps ih =>
    rw [List.flatMap_cons, List.length_append]
    push_cast
    rw [ih]
    simp
    ring

theorem cellByCell_one (ps : List (Int × Int)) (w : Nat → Int → Int → ℚ) : cellByCell ps 1 w = ps.map (fun rc => w 0 rc.1 rc.2) := by
  unfold cellByCell
  induction ps with
  | nil => rfl
  | cons a ps ih =>
    rw [List.flatMap_cons, ih]
    rfl

theorem mem_cellByCell {ps : List (Int × Int)} {m : Int} {w : Nat → Int → Int → ℚ} {x : ℚ} (h : x ∈ cellByCell ps m w) :
    ∃ rc ∈ ps, ∃ l : Nat, (l : Int) < m ∧ x = w l rc.1 rc.2 := by
  unfold cellByCell at h
  obtain ⟨rc, h1, h2⟩ := List.mem_flatMap.1 h
  obtain ⟨l, h3, rfl⟩ := List.mem_map.1 h2
  exact ⟨rc, h1, l, by have := List.mem_range.1 h3; omega, rfl⟩

/-- A list with the numbers at the right places is this list. -/
theorem eq_cellByCell {ps : List (Int × Int)} {m : Int} (hm : 1 ≤ m) {w : Nat → Int → Int → ℚ} {F : List ℚ}
    (hl : (F.length : Int) = ps.length * m)
    (hv : ∀ (i l : Nat) (hi : i < ps.length), (l : Int) < m → readAt (some F) ((i : Int) * m + l) = .ok (w l ps[i].1 ps[i].2)) :
    F = cellByCell ps m w := by
  obtain ⟨n, rfl⟩ := Int.eq_ofNat_of_zero_le (by omega : 0 ≤ m)
  have hn : 1 ≤ n := by omega
  induction ps generalizing F with
  | nil =>
    have : F.length = 0 := by simpa using hl
    rw [List.length_eq_zero_iff.1 this]
    rfl
  | cons a ps ih =>
    have hlen : F.length = (ps.length + 1) * n := by
      rw [List.length_cons] at hl
      exact_mod_cast hl
    have h1 : F.take n = (List.range n).map (fun l => w l a.1 a.2) := by
      apply List.ext_getElem?
      intro l
      by_cases q : l < n
      · rw [List.getElem?_take_of_lt q, List.getElem?_map, List.getElem?_range q]
        have := hv 0 l (by simp) (by omega)
        have e : ((0 : Nat) : Int) * (n : Int) + l = ((l : Nat) : Int) := by simp
        rw [e] at this
        have := get_of_read (by omega) this
        rw [Int.toNat_natCast] at this
        rw [this]
        rfl
      · rw [List.getElem?_eq_none (by rw [List.length_take]; omega), List.getElem?_eq_none (by rw [List.length_map, List.length_range]; omega)]
    have h2 : F.drop n = cellByCell ps n w := by
      apply ih
      · rw [List.length_drop, hlen]
        have : (ps.length + 1) * n - n = ps.length * n := by rw [Nat.add_mul, one_mul]; omega
        rw [this]
        push_cast
        rfl
      · intro i l hi hlm
        have := hv (i + 1) l (by simp; omega) hlm
        have e : ((i + 1 : Nat) : Int) * (n : Int) + l = (((i + 1) * n + l : Nat) : Int) := by push_cast; rfl
        rw [e] at this
        have := get_of_read (by omega) this
        rw [Int.toNat_natCast] at this
        have e2 : (i : Int) * (n : Int) + l = ((i * n + l : Nat) : Int) := by push_cast; rfl
        have hlt : i * n + l < (F.drop n).length := by
          rw [List.length_drop, hlen]
          have e3 : (ps.length + 1) * n - n = ps.length * n := by rw [Nat.add_mul, one_mul]; omega
          rw [e3]
          have hlm' : l < n := by omega
          calc i * n + l < i * n + n := by omega
            _ = (i + 1) * n := by ring
            _ ≤ ps.length * n := Nat.mul_le_mul_right _ hi
        rw [e2, readAt_some_nat _ _ hlt]
        have hd : (F.drop n)[i * n + l]? = some (w l ps[i].1 ps[i].2) := by
          rw [List.getElem?_drop]
          have e4 : n + (i * n + l) = (i + 1) * n + l := by ring
          rw [e4, this]
          rfl
        rw [List.getElem?_eq_getElem hlt] at hd
        exact congrArg _ (Option.some.inj hd)
    rw [← List.take_append_drop n F, h1, h2]
    rfl

theorem some_key {name : Str} {ty : RDT} {own : Opts} (ht : ty ≠ .unknown) (hk : CCGL.Spec.GoodKey ⟨name, outOpts .double own (fewOpts ty) false⟩) :
    CCGL.Spec.GoodKey ⟨name, fewOpts ty⟩ := by
  refine ⟨hk.name, ?_, fun k x h => hk.key k x (few_sub own ht k x h), fun k x h => hk.val k x (few_sub own ht k x h)⟩
  show [("DATATYPE_OUT".toList), ("INCLUDE_NODATA".toList)].Nodup
  decide

theorem few_kept (own : Opts) {ty : RDT} (h : ty ≠ .unknown) : CCGL.Spec.withType .double (outOpts .double own (fewOpts ty) false) = outOpts .double own (fewOpts ty) false := by
  unfold CCGL.Spec.withType; rw [if_pos ⟨_, few_type_mem own h⟩]

theorem few_inc_mem (own : Opts) (ty : RDT) : (kIncNodata, "FALSE".toList) ∈ outOpts .double own (fewOpts ty) false := by
  unfold outOpts
  exact Gfs.set_mem _ _ _

theorem subOpts_few (own : Opts) {ty : RDT} (h : ty ≠ .unknown) : subOpts .double own (fewOpts ty) false = outOpts .double own (fewOpts ty) false := by
  have hk : kTypeOut ≠ kIncNodata := by decide
  have h1 : Opts.get (Opts.copyInto (fewOpts ty) own) kTypeOut = some (rdtToString ty.code) := by
    have : Opts.copyInto (fewOpts ty) own = Opts.set (Opts.set own kTypeOut (rdtToString ty.code)) kIncNodata "FALSE".toList := rfl
    rw [this, Opts.get_set, if_neg hk, Opts.get_set, if_pos rfl]
  have h2 : stringMatch "Unknown".toList (rdtToString ty.code) = false := by
    cases ty
    · exact absurd rfl h
    all_goals decide +kernel
  have h3 : Opts.get (Opts.set (Opts.copyInto (fewOpts ty) own) kIncNodata "FALSE".toList) kTypeOut = some (rdtToString ty.code) := by
    rw [Opts.get_set, if_neg hk, h1]
  unfold subOpts outOpts
  dsimp only
  rw [if_neg (by decide), h3, h1]
  dsimp only
  rw [h2, if_neg (by decide), if_neg (by decide)]

/-- The cells `S` of a grid are stored. -/
theorem store_some {rnd : ℚ → ℚ} (hrnd : ∀ v, CCGL.Spec.Representable .float v → rnd v = v) {st : Store} {name : Str} {ty : RDT} {own : Opts} {h : Header}
    {m : Int} {w : Nat → Int → Int → ℚ} {S : Int → Int → Prop} {ps : List (Int × Int)} (hord : InOrder h S ps) (hne : ps ≠ [])
    (ht : ty ≠ .unknown ∧ ty ≠ .uint64 ∧ ty ≠ .int64) (hk : CCGL.Spec.GoodKey ⟨name, outOpts .double own (fewOpts ty) false⟩)
    (hh : CCGL.Spec.StorableHeader { h with layers := m, cellsnum := h.rows * h.cols })
    (hf : ∀ row col (l : Nat), h.grid.CellInside row col → S row col → (l : Int) < m → Fits ty (w l row col))
    {rm : Nat → Bool} {att : Nat → Attempt} (hrm : ∀ i, rm i = true) (hatt : ∀ i, CCGL.Spec.CleanAttempt (att i))
    (hold : ∀ f ∈ st, CCGL.Spec.Has f ⟨name, fewOpts ty⟩ → CCGL.Spec.Has f ⟨name, outOpts .double own (fewOpts ty) false⟩) :
    ∃ st' ok n, writeGridfs rnd .double rm att st name (headerMap { h with layers := m, cellsnum := ps.length }) (some (cellByCell ps m w))
        (ps.length * m) (outOpts .double own (fewOpts ty) false) = .ok (st', ok, n) ∧
      (ok = true ↔ ∃ i, i < 4 ∧ (att i).reported = true) ∧
      (∀ R : CCGL.Spec.Key, R.name ≠ name → CCGL.Spec.filesOf st' R = CCGL.Spec.filesOf st R) ∧
      (ok = true → HoldsSome rnd st' name (fewOpts ty) h m w S) ∧
      (ok = false → CCGL.Spec.filesOf st' ⟨name, fewOpts ty⟩ = []) ∧
      (ok = true → ∃ f, CCGL.Spec.filesOf st' ⟨name, fewOpts ty⟩ = [f]) := by
  have hwt := few_kept own ht.1
  have hm : 1 ≤ m := by
    have := hh.layers.1
    dsimp only at this
    omega
  have hpos : 0 < ps.length := List.length_pos_of_ne_nil hne
  have hle := inOrder_le hord hh.rows.1 hh.cols.1
  have hsH : CCGL.Spec.StorableHeader { h with layers := m, cellsnum := ps.length } := by
    refine ⟨hh.rows, hh.cols, hh.layers, ⟨by (show 0 < (ps.length : Int); omega), lt_of_le_of_lt hle hh.cellsnum.2⟩, ?_,
      hh.cellsize, hh.xll, hh.yll⟩
    have := hh.count
    dsimp only at this ⊢
    have := Int.mul_le_mul_of_nonneg_right hle (by omega : 0 ≤ m)
    omega
  have hcells : ∀ x ∈ cellByCell ps m w, CCGL.Spec.Representable .double x ∧ CCGL.Spec.Representable ty x := by
    intro x hx
    obtain ⟨⟨row, col⟩, hrc, l, hl, rfl⟩ := mem_cellByCell hx
    have := (hord.2 row col).1 hrc
    exact hf row col l this.1 this.2 hl
  have hO : stringToRdt (rdtToString ty.code) = ty := C25_roundtrip ty
  have hlen := cellByCell_length ps (by omega : 0 ≤ m) w
  obtain ⟨st1, okb, n, info, w1, w2, -, -, w5, w6⟩ := write_step (rnd := rnd) hrnd (T := .double) (O := ty) (rm := rm) (att := att) st
    (name := name) (h := { h with layers := m, cellsnum := ps.length }) (cells := cellByCell ps m w)
    (opts := outOpts .double own (fewOpts ty) false) (ty := rdtToString ty.code) (by rw [hwt]; exact hk) hsH
    (by rw [hwt]; exact few_type_mem own ht.1) hO (.inr ht) hcells hrm hatt
  obtain ⟨st2, okb2, n2, z1, z2, z3⟩ := C28_file (rnd := rnd) hrnd (T := .double) (O := ty) (T' := .double) (rm := rm) (att := att) (st := st)
    (name := name) (h := { h with layers := m, cellsnum := ps.length }) (cells := cellByCell ps m w)
    (opts := outOpts .double own (fewOpts ty) false) (ty := rdtToString ty.code) (by rw [hwt]; exact hk) hsH
    (by rw [hwt]; exact few_type_mem own ht.1) hO (.inr ht) (fun x hx => ⟨(hcells x hx).1, (hcells x hx).2, (hcells x hx).1⟩) hlen hrm hatt
  rw [w1] at z1
  simp only [Out.ok.injEq, Prod.mk.injEq] at z1
  obtain ⟨y1, y2, y3⟩ := z1
  subst y1 y2 y3
  have w7 := w6 ⟨name, fewOpts ty⟩ rfl (by rw [hwt]; exact few_sub own ht.1) (by rw [hwt]; exact hold)
  refine ⟨st1, okb, n, by rw [← hlen]; exact w1, z2, w5, ?_, ?_, ?_⟩
  · intro hok
    refine ⟨hh, ?_, ?_⟩
    · obtain ⟨⟨row, col⟩, hrc⟩ := List.exists_mem_of_ne_nil _ hne
      exact ⟨row, col, (hord.2 row col).1 hrc⟩
    · intro ok1 ok2 h1 h2
      obtain ⟨hm', sm, q1, q2, q3⟩ := z3 hok ⟨name, fewOpts ty⟩ (some_key ht.1 hk) rfl (by rw [hwt]; exact few_sub own ht.1)
        (by rw [hwt]; exact hold) ok1 ok2 h1 h2
      obtain ⟨out, o1, -, o3⟩ := q3 kIncNodata "FALSE".toList (by rw [hwt]; exact few_inc_mem own ty)
      have o3 := o3 not_number_FALSE
      subst o3
      exact ⟨ps, hm', sm, q1, q2, o1, hord⟩
  · intro hok
    rw [hok] at w7
    exact w7
  · intro hok
    rw [hok] at w7
    exact ⟨_, w7⟩

/-- One layer. -/
theorem Spec.HoldsSome.cells {rnd : ℚ → ℚ} {st : Store} {name : Str} {opts : Opts} {h : Header} {w : Nat → Int → Int → ℚ} {S : Int → Int → Prop}
    (H : HoldsSome rnd st name opts h 1 w S) : HoldsCells rnd st name opts h (w 0) S := by
  refine ⟨H.header, H.nonempty, ?_⟩
  intro ok1 ok2 h1 h2
  obtain ⟨ps, hm, sm, q1, q2, q3, q4⟩ := H.reads ok1 ok2 h1 h2
  rw [cellByCell_one] at q1
  exact ⟨ps, hm, sm, q1, q2, q3, q4⟩

end App
end CCGL
