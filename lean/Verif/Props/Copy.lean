import Verif.Model.Copy
import Verif.Lemmas.MaskShape
/-!
# Copies of rasters are equal and independent (C23)
-/
namespace CCGL
namespace Copy
open Raster

/-! ### Separation -/

/-- Two pointers do not point to the same block. -/
def Apart (x y : Option Nat) : Prop := ∀ a, x = some a → y ≠ some a
/-- The pointer points into the used part of the heap. -/
def Below (x : Option Nat) (n : Nat) : Prop := ∀ a, x = some a → a < n

structure Owned (h : Heap) (o : Obj) : Prop where
  b1 : Below o.a1 h.next
  b2 : Below o.a2 h.next
  bp : Below o.ap h.next
  bi : Below o.ai h.next

structure Sep (s c : Obj) : Prop where
  s1 : Apart s.a1 c.a1
  s2 : Apart s.a2 c.a2
  sp : Apart s.ap c.ap
  si : Apart s.ai c.ai

theorem Apart.symm {x y} (h : Apart x y) : Apart y x := fun a hy hx => h a hx hy
theorem Sep.symm {s c : Obj} (h : Sep s c) : Sep c s := ⟨h.s1.symm, h.s2.symm, h.sp.symm, h.si.symm⟩

section
variable {α : Type} (m : Nat → Option (List α)) (next : Nat) (a : Option Nat) (new : Ptr α) (re : Bool)

theorem put_self : deref (put m next a new re).1 (put m next a new re).2 = .ok new := by
  unfold put
  cases a <;> cases new <;> cases re <;> simp [deref, upd]

theorem put_other {b : Option Nat} (hb : Below b next) (hab : Apart a b) :
    deref (put m next a new re).1 b = deref m b := by
  cases b with
  | none => rfl
  | some k =>
    have h1 : k ≠ next := by have := hb k rfl; omega
    have h2 : ∀ x, a = some x → k ≠ x := by
      intro x hx hk
      exact hab x hx (by rw [hk])
    unfold put
    cases a with
    | none => cases new <;> simp [deref, upd, h1]
    | some x =>
      have h3 := h2 x rfl
      cases new <;> cases re <;> simp [deref, upd, h1, h3]

theorem put_apart {b : Option Nat} (hb : Below b next) (hab : Apart a b) : Apart (put m next a new re).2 b := by
  intro y hy he
  subst he
  have h1 := hb y rfl
  unfold put at hy
  cases a with
  | none => 
    cases new with
    | none => simp at hy
    | some l => simp at hy; omega
  | some x =>
    cases new with
    | none => simp at hy
    | some l =>
      cases re
      · simp at hy; subst hy; exact hab x rfl rfl
      · simp at hy; omega

theorem put_below (ha : Below a next) : Below (put m next a new re).2 (next + 1) := by
  intro y hy
  unfold put at hy
  cases a with
  | none => 
    cases new with
    | none => simp at hy
    | some l => simp at hy; omega
  | some x =>
    have := ha x rfl
    cases new with
    | none => simp at hy
    | some l => cases re <;> simp at hy <;> omega
end

theorem view_congr {h h' : Heap} {o : Obj} (e1 : deref h'.d1 o.a1 = deref h.d1 o.a1)
    (e2 : deref h'.d2 o.a2 = deref h.d2 o.a2) (e3 : deref h'.pd o.ap = deref h.pd o.ap)
    (e4 : deref h'.pi o.ai = deref h.pi o.ai) : view h' o = view h o := by
  unfold view
  rw [e1, e2, e3, e4]

/-- One call on `o`: its view changes as the raster does, the view of every separate object does not change. -/
theorem exec_spec {h : Heap} {o c : Obj} {r : Raster} (op : Op) (hv : view h o = .ok r) (ho : Owned h o)
    (hc : Owned h c) (hs : Sep o c) :
    (∀ r', r.step op = .ok r' → ∃ h' o', exec h o op = .ok (h', o') ∧ view h' o' = .ok r' ∧ view h' c = view h c ∧
      Owned h' o' ∧ Owned h' c ∧ Sep o' c) ∧
    (∀ x, exec h o op = .ok x → ∃ r', r.step op = .ok r') := by
  constructor
  · intro r' hr
    refine ⟨_, _, by simp only [exec, hv, hr, Out.ok_bind, Out.pure_eq]; rfl, ?_, ?_, ?_, ?_, ?_⟩
    · unfold view
      simp only [put_self, Out.ok_bind, Out.pure_eq]
    · exact view_congr (put_other _ _ _ _ _ hc.b1 hs.s1) (put_other _ _ _ _ _ hc.b2 hs.s2)
        (put_other _ _ _ _ _ hc.bp hs.sp) (put_other _ _ _ _ _ hc.bi hs.si)
    · exact ⟨put_below _ _ _ _ _ ho.b1, put_below _ _ _ _ _ ho.b2, put_below _ _ _ _ _ ho.bp, put_below _ _ _ _ _ ho.bi⟩
    · have up : ∀ x, Below x h.next → Below x (h.next + 1) := fun x hx a e => Nat.lt_succ_of_lt (hx a e)
      exact ⟨up _ hc.b1, up _ hc.b2, up _ hc.bp, up _ hc.bi⟩
    · exact ⟨put_apart _ _ _ _ _ hc.b1 hs.s1, put_apart _ _ _ _ _ hc.b2 hs.s2, put_apart _ _ _ _ _ hc.bp hs.sp,
        put_apart _ _ _ _ _ hc.bi hs.si⟩
  · intro x e
    unfold exec at e
    rw [hv, Out.ok_bind] at e
    obtain ⟨r', h1, _⟩ := Out.bind_ok e
    exact ⟨r', h1⟩

end Copy

/-- The calls of a history on one of the two objects. -/
def Spec.callsOf (b : Bool) (ops : List (Bool × Raster.Op)) : List Raster.Op := (ops.filter (fun x => x.1 = b)).map (·.2)

namespace Copy
open Raster

/-- C23 (independence): if the arrays of two objects are separate, an arbitrary interleaved history on both leaves each of
them exactly as its own calls alone would. -/
theorem runPair_spec (ops : List (Bool × Op)) : ∀ {h : Heap} {s c : Obj} {rs rc : Raster}, view h s = .ok rs →
    view h c = .ok rc → Owned h s → Owned h c → Sep s c →
    (∀ rs' rc', rs.run (Spec.callsOf false ops) = .ok rs' → rc.run (Spec.callsOf true ops) = .ok rc' →
      ∃ h' s' c', runPair h s c ops = .ok (h', s', c') ∧ view h' s' = .ok rs' ∧ view h' c' = .ok rc') ∧
    (∀ x, runPair h s c ops = .ok x → (∃ rs', rs.run (Spec.callsOf false ops) = .ok rs') ∧
      ∃ rc', rc.run (Spec.callsOf true ops) = .ok rc') := by
  induction ops with
  | nil =>
    intro h s c rs rc hs hc _ _ _
    constructor
    · intro rs' rc' h1 h2
      simp [Spec.callsOf, run] at h1 h2
      exact ⟨h, s, c, rfl, by rw [hs, h1], by rw [hc, h2]⟩
    · intro x _
      exact ⟨⟨rs, rfl⟩, ⟨rc, rfl⟩⟩
  | cons x ops ih =>
    intro h s c rs rc hs hc ho1 ho2 hsep
    obtain ⟨b, op⟩ := x
    cases b
    · have hcf : Spec.callsOf false ((false, op) :: ops) = op :: Spec.callsOf false ops := by simp [Spec.callsOf]
      have hct : Spec.callsOf true ((false, op) :: ops) = Spec.callsOf true ops := by simp [Spec.callsOf]
      rw [hcf, hct]
      obtain ⟨e1, e2⟩ := exec_spec op hs ho1 ho2 hsep
      constructor
      · intro rs' rc' h1 h2
        obtain ⟨r1, h3, h4⟩ := Out.bind_ok h1
        obtain ⟨h', s', e, v1, v2, o1, o2, sp⟩ := e1 r1 h3
        obtain ⟨ih1, _⟩ := ih v1 (v2.trans hc) o1 o2 sp
        obtain ⟨h'', s'', c'', q1, q2, q3⟩ := ih1 rs' rc' h4 h2
        refine ⟨h'', s'', c'', ?_, q2, q3⟩
        simp only [runPair, e, Out.ok_bind]
        exact q1
      · intro x hx
        unfold runPair at hx
        obtain ⟨⟨h', s'⟩, e, hx⟩ := Out.bind_ok hx
        obtain ⟨r1, h3⟩ := e2 _ e
        obtain ⟨h1', s1', e', v1, v2, o1, o2, sp⟩ := e1 r1 h3
        rw [e] at e'
        simp only [Out.ok.injEq, Prod.mk.injEq] at e'
        obtain ⟨rfl, rfl⟩ := e'
        obtain ⟨⟨rs', q1⟩, q2⟩ := (ih v1 (v2.trans hc) o1 o2 sp).2 x hx
        refine ⟨⟨rs', ?_⟩, q2⟩
        simp only [run, h3, Out.ok_bind]
        exact q1
    · have hcf : Spec.callsOf false ((true, op) :: ops) = Spec.callsOf false ops := by simp [Spec.callsOf]
      have hct : Spec.callsOf true ((true, op) :: ops) = op :: Spec.callsOf true ops := by simp [Spec.callsOf]
      rw [hcf, hct]
      obtain ⟨e1, e2⟩ := exec_spec op hc ho2 ho1 hsep.symm
      constructor
      · intro rs' rc' h1 h2
        obtain ⟨r1, h3, h4⟩ := Out.bind_ok h2
        obtain ⟨h', s', e, v1, v2, o1, o2, sp⟩ := e1 r1 h3
        obtain ⟨ih1, _⟩ := ih (v2.trans hs) v1 o2 o1 sp.symm
        obtain ⟨h'', s'', c'', q1, q2, q3⟩ := ih1 rs' rc' h1 h4
        refine ⟨h'', s'', c'', ?_, q2, q3⟩
        simp only [runPair, e, Out.ok_bind]
        exact q1
      · intro x hx
        unfold runPair at hx
        obtain ⟨⟨h', s'⟩, e, hx⟩ := Out.bind_ok hx
        obtain ⟨r1, h3⟩ := e2 _ e
        obtain ⟨h1', s1', e', v1, v2, o1, o2, sp⟩ := e1 r1 h3
        rw [e] at e'
        simp only [Out.ok.injEq, Prod.mk.injEq] at e'
        obtain ⟨rfl, rfl⟩ := e'
        obtain ⟨q1, ⟨rc', q2⟩⟩ := (ih (v2.trans hs) v1 o2 o1 sp.symm).2 x hx
        refine ⟨q1, ⟨rc', ?_⟩⟩
        simp only [run, h3, Out.ok_bind]
        exact q2

end Copy
end CCGL

/-! ### Copy construction -/

namespace CCGL
namespace Raster

/-- Unused arrays are null and the flag of the positions agrees with the position arrays. -/
structure Tidy (r : Raster) : Prop where
  n1 : r.is2d = true → r.raster1 = none
  n2 : r.is2d = false → r.raster2 = none
  np : r.posData = none ↔ r.calcPos = false

theorem Tidy.writeCell {r r' : Raster} (h : r.Tidy) {i l v} (e : r.writeCell i l v = .ok r') : r'.Tidy := by
  unfold Raster.writeCell at e
  split at e
  · next h2 =>
    obtain ⟨row, _, e⟩ := Out.bind_ok e
    obtain ⟨row', _, e⟩ := Out.bind_ok e
    split at e
    · obtain ⟨d, _, e⟩ := Out.bind_ok e
      simp only [Out.pure_eq, Out.ok.injEq] at e
      subst e
      exact ⟨h.n1, fun h' => absurd h2 (by simp at h'; simp [h']), h.np⟩
    · cases e
  · next h2 =>
    obtain ⟨d, _, e⟩ := Out.bind_ok e
    simp only [Out.pure_eq, Out.ok.injEq] at e
    subst e
    exact ⟨fun h' => absurd h' h2, h.n2, h.np⟩

theorem Tidy.passCells {f : ℚ → Out (Option ℚ)} (il : List (Int × Int)) : ∀ {r r' : Raster}, r.Tidy →
    Raster.passCells f r il = .ok r' → r'.Tidy := by
  induction il with
  | nil => intro r r' h e; simp [Raster.passCells] at e; subst e; exact h
  | cons q il ih =>
    intro r r' h e
    unfold Raster.passCells at e
    obtain ⟨x, _, e⟩ := Out.bind_ok e
    obtain ⟨y, _, e⟩ := Out.bind_ok e
    obtain ⟨r1, e1, e⟩ := Out.bind_ok e
    refine ih ?_ e
    cases y with
    | none => simp at e1; subst e1; exact h
    | some v => exact h.writeCell e1

theorem Tidy.calcValid {r r' : Raster} (h1 : r.is2d = true → r.raster1 = none) (h2 : r.is2d = false → r.raster2 = none)
    (e : r.calcValidPositions = .ok r') : r'.Tidy := by
  unfold calcValidPositions at e
  obtain ⟨vs, _, e⟩ := Out.bind_ok e
  dsimp only at e
  split at e
  · cases e
  · obtain ⟨pd, epd, e⟩ := Out.bind_ok e
    obtain ⟨pi, _, e⟩ := Out.bind_ok e
    simp only [Out.pure_eq, Out.ok.injEq] at e
    subst e
    refine ⟨fun h => ?_, fun h => ?_, ⟨fun h => ?_, fun h => by simp at h⟩⟩
    · simp only at h ⊢; rw [h, if_pos rfl]; exact h1 h
    · simp only at h ⊢; rw [h]; simpa using h2 h
    · simp only at h
      subst h
      unfold storeInto at epd
      split at epd
      · split at epd <;> cases epd
      · split at epd
        · cases epd
        · next hn => simp [alloc2] at hn

theorem Tidy.step {r r' : Raster} (h : r.Tidy) (op : Op) (e : r.step op = .ok r') : r'.Tidy := by
  cases op with
  | setValue row col v lyr =>
    simp only [Raster.step, Raster.setValue] at e
    split at e
    · cases e; exact h
    · obtain ⟨i, _, e⟩ := Out.bind_ok e
      split at e
      · cases e; exact h
      · exact h.writeCell e
  | setCalcPositions =>
    simp only [Raster.step] at e
    obtain ⟨x, e1, e⟩ := Out.bind_ok e
    cases e
    unfold Raster.setCalcPositions at e1
    split at e1
    · cases e1; exact h
    · split at e1
      · cases e1; exact h
      · next hc =>
        obtain ⟨⟨r1, code⟩, e2, e3⟩ := Out.bind_ok e1
        simp only [Out.pure_eq, Out.ok.injEq] at e3
        subst e3
        unfold calcNoMask at e2
        simp only [if_true] at e2
        split at e2
        · obtain ⟨r2, e4, e5⟩ := Out.bind_ok e2
          simp only [Out.pure_eq, Out.ok.injEq, Prod.mk.injEq] at e5
          obtain ⟨rfl, _⟩ := e5
          exact Tidy.calcValid (r := { r with calcPos := true }) h.n1 h.n2 e4
        · next hp =>
          simp only [Out.ok.injEq, Prod.mk.injEq] at e2
          obtain ⟨rfl, _⟩ := e2
          simp only [Bool.or_eq_true, not_or, Option.isNone_iff_eq_none, Bool.and_eq_true, not_and,
            Option.isSome_iff_ne_none, ne_eq] at hp hc
          cases hcp : r.calcPos
          · exact absurd (h.np.2 hcp) hp.1
          · exact absurd hp.1 (hc hcp).1
  | getPositionIdx =>
    simp only [Raster.step] at e
    obtain ⟨x, e1, e⟩ := Out.bind_ok e
    cases e
    unfold Raster.getPositionIdx at e1
    split at e1
    · cases e1; exact h
    · split at e1
      · cases e1; exact h
      · obtain ⟨r1, e2, e3⟩ := Out.bind_ok e1
        cases e3
        exact Tidy.calcValid h.n1 h.n2 e2
  | getPositionData =>
    simp only [Raster.step] at e
    obtain ⟨x, e1, e⟩ := Out.bind_ok e
    cases e
    unfold Raster.getPositionData at e1
    split at e1
    · cases e1; exact h
    · split at e1
      · cases e1; exact h
      · obtain ⟨r1, e2, e3⟩ := Out.bind_ok e1
        cases e3
        exact Tidy.calcValid h.n1 h.n2 e2
  | replaceNoData v =>
    simp only [Raster.step, Raster.replaceNoData] at e
    obtain ⟨r1, e1, e⟩ := Out.bind_ok e
    simp only [Out.pure_eq, Out.ok.injEq] at e
    subst e
    have := h.passCells _ e1
    exact ⟨this.n1, this.n2, this.np⟩
  | reclassify m => exact h.passCells _ e
  | getValue row col lyr => simp only [Raster.step] at e; obtain ⟨x, _, e⟩ := Out.bind_ok e; cases e; exact h
  | getValueByIndex i lyr => simp only [Raster.step] at e; obtain ⟨x, _, e⟩ := Out.bind_ok e; cases e; exact h
  | getPosition row col => simp only [Raster.step] at e; obtain ⟨x, _, e⟩ := Out.bind_ok e; cases e; exact h
  | isNoData row col lyr => simp only [Raster.step] at e; obtain ⟨x, _, e⟩ := Out.bind_ok e; cases e; exact h

end Raster
open Raster

theorem Spec.Built.tidy {r : Raster} (h : Spec.Built r) : r.Tidy := by
  induction h with
  | grid1 => exact ⟨by simp [ofArray1, init], by simp [ofArray1, init], by simp [ofArray1, init]⟩
  | grid2 => exact ⟨by simp [ofArray2, init], by simp [ofArray2, init], by simp [ofArray2, init]⟩
  | file h data calcPos ume dflt hr hc hl hlen e =>
    unfold Raster.calcNoMask at e
    split at e
    · next hcp =>
      split at e
      · obtain ⟨r1, e1, e⟩ := Out.bind_ok e
        simp only [Out.pure_eq, Out.ok.injEq, Prod.mk.injEq] at e
        obtain ⟨rfl, _⟩ := e
        exact Tidy.calcValid (by simp [ofFile, init]) (by simp [ofFile, init]) e1
      · next hp => simp [ofFile, init] at hp
    · next hcp =>
      simp only [Out.ok.injEq, Prod.mk.injEq] at e
      obtain ⟨rfl, _⟩ := e
      refine ⟨by simp [ofFile, init], by simp [ofFile, init], ?_⟩
      simpa [ofFile, init] using hcp
  | store h data calcPos ume dflt hr hc hl hlen hrow e =>
    unfold Raster.calcNoMask at e
    split at e
    · next hcp =>
      split at e
      · obtain ⟨r1, e1, e⟩ := Out.bind_ok e
        simp only [Out.pure_eq, Out.ok.injEq, Prod.mk.injEq] at e
        obtain ⟨rfl, _⟩ := e
        exact Tidy.calcValid (by simp [ofStore, init]) (by simp [ofStore, init]) e1
      · next hp => simp [ofStore, init] at hp
    · next hcp =>
      simp only [Out.ok.injEq, Prod.mk.injEq] at e
      obtain ⟨rfl, _⟩ := e
      refine ⟨by simp [ofStore, init], by simp [ofStore, init], ?_⟩
      simpa [ofStore, init] using hcp
  | files layers _ h1 hn e ih =>
    unfold Raster.addLayers at e
    obtain ⟨cells, e1, e⟩ := Out.bind_ok e
    simp only [Out.pure_eq, Out.ok.injEq] at e
    subst e
    exact ⟨by simp, by simp, ih.np⟩
  | masked hr hm hcl hg hp e hc _ =>
    obtain ⟨m, n, pd, -, hs⟩ := masked_shape hr hm.inv hcl hg hp e hc
    exact ⟨hs.n1, hs.n2, hs.np⟩
  | direct h data dflt hm e h0 h1 h2 hn hl hlen hrow ih =>
    refine ⟨fun q => ?_, fun q => ?_, ⟨fun q => by (cases q), fun q => by (cases q)⟩⟩
    · have : h.layers ≠ 1 := of_decide_eq_true q
      show (if h.layers = 1 then _ else none) = none
      rw [if_neg this]
    · have : ¬ h.layers ≠ 1 := of_decide_eq_false q
      show (if h.layers = 1 then none else _) = none
      rw [if_pos (by omega)]
  | step op _ e ih => exact ih.step op e
end CCGL

namespace CCGL
namespace Copy
open Raster

theorem copy1_all {α : Type} {n : Int} {l : List α} (h : n = l.length) : copy1 n (some l) = .ok (some l) := by
  subst h
  unfold copy1
  rw [if_neg (by omega)]
  simp

theorem copyPos_all {n : Int} {l : List (Int × Int)} (h : n = l.length) (hn : l ≠ []) : copyPos n (some l) = .ok (some l) := by
  subst h
  cases l with
  | nil => exact absurd rfl hn
  | cons x s => unfold copyPos; simp only; rw [if_neg (by omega), if_pos (by omega)]; simp

theorem copy2_all {n m : Int} {l : List (List ℚ)} (h : n = l.length) (hn : l ≠ []) (hm : 1 ≤ m)
    (hl : ∀ c ∈ l, (c.length : Int) = m) : copy2 n m (some l) = .ok (some l) := by
  subst h
  cases l with
  | nil => exact absurd rfl hn
  | cons x s =>
    unfold copy2
    have hx := hl x (by simp)
    simp only
    rw [if_neg (by rintro rfl; simp at hx; omega), if_neg (by omega), if_pos]
    · simp only [Int.toNat_natCast, List.take_length]
      congr 2
      conv_rhs => rw [← List.map_id (x :: s)]
      apply List.map_congr_left
      intro c hc
      have := hl c hc
      simp; omega
    · refine ⟨le_refl _, ?_⟩
      simp only [Int.toNat_natCast, List.take_length]
      intro c hc
      rw [hl c hc]

/-- Placing a new array in a null member: the member shows it and the other arrays stay. -/
theorem place_self {α : Type} (m : Nat → Option (List α)) (next : Nat) (new : Ptr α) :
    deref (place m next none new).1 (place m next none new).2 = .ok new := by
  cases new <;> simp [place, deref, upd]

theorem place_other {α : Type} (m : Nat → Option (List α)) (next : Nat) (new : Ptr α) {b : Option Nat} (hb : Below b next) :
    deref (place m next none new).1 b = deref m b := by
  cases b with
  | none => rfl
  | some k =>
    have h1 : k ≠ next := by have := hb k rfl; omega
    cases new <;> simp [place, deref, upd, h1]

theorem place_below {α : Type} (m : Nat → Option (List α)) (next : Nat) (new : Ptr α) :
    Below (place m next none new).2 (next + 1) := by
  intro a ha
  cases new <;> simp [place] at ha; omega

theorem place_apart {α : Type} (m : Nat → Option (List α)) (next : Nat) (new : Ptr α) {b : Option Nat} (hb : Below b next) :
    Apart b (place m next none new).2 := by
  intro a hb' ha
  have := hb a hb'
  cases new <;> simp [place] at ha; omega

end Copy
end CCGL

namespace CCGL
namespace Copy
open Raster

/-- The raster with position arrays of its own: the flag `store_pos_` (whether the destructor releases the position arrays)
is set exactly if there are positions. -/
def ownPositions (r : Raster) : Raster := { r with storePos := r.calcPos }

/-- The plain members of the copy. -/
def cbase (r : Raster) (st : Bool) : Raster :=
  ⟨r.hdr, r.nCells, r.nLyrs, r.noData, r.dflt, r.is2d, none, none, none, none, r.calcPos, st, r.useMaskExt⟩

/-- The copying part for any source whose arrays can be copied completely. -/
theorem copyCtor_of {h : Heap} {src : Obj} {r : Raster} (hv : view h src = .ok r) (ho : Owned h src) (ht : r.Tidy)
    (h2 : r.is2d = true → copy2 r.nCells r.nLyrs r.raster2 = .ok r.raster2)
    (h1 : r.is2d = false → copy1 r.nCells r.raster1 = .ok r.raster1)
    (hp : r.calcPos = true → copyPos r.nCells r.posData = .ok r.posData)
    (hi : r.calcPos = true → copy1 r.nCells r.posIdx = .ok r.posIdx)
    (hi' : r.calcPos = false → r.posIdx = none) :
    ∃ h' c, copyCtor h src = .ok (h', c) ∧ view h' src = .ok r ∧ view h' c = .ok (ownPositions r) ∧
      Owned h' src ∧ Owned h' c ∧ Sep src c := by
  have up : ∀ x, Below x h.next → Below x (h.next + 1) := fun x hx a e => Nat.lt_succ_of_lt (hx a e)
  have bn : ∀ n, Below none n := fun n a e => by cases e
  have an : ∀ x, Apart x none := fun x a _ e => by cases e
  have hos : ∀ x1 x2 xp xi, Owned ⟨h.next + 1, x1, x2, xp, xi⟩ src := fun _ _ _ _ =>
    ⟨up _ ho.b1, up _ ho.b2, up _ ho.bp, up _ ho.bi⟩
  have hv1 : view ⟨h.next, h.d1, h.d2, h.pd, h.pi⟩ src = .ok r := hv
  obtain ⟨tn1, tn2, tnp⟩ := ht
  have key : ∀ (x1 : (Nat → Option (List ℚ)) × Option Nat) (x2 : (Nat → Option (List (List ℚ))) × Option Nat)
      (xp : (Nat → Option (List (Int × Int))) × Option Nat) (xi : (Nat → Option (List Int)) × Option Nat),
      (x1 = (h.d1, none) ∧ r.raster1 = none ∨ x1 = place h.d1 h.next none r.raster1) →
      (x2 = (h.d2, none) ∧ r.raster2 = none ∨ x2 = place h.d2 h.next none r.raster2) →
      (xp = (h.pd, none) ∧ r.posData = none ∨ xp = place h.pd h.next none r.posData) →
      (xi = (h.pi, none) ∧ r.posIdx = none ∨ xi = place h.pi h.next none r.posIdx) →
      ∀ c : Obj, c = ⟨cbase r r.calcPos, x1.2, x2.2, xp.2, xi.2⟩ →
      view ⟨h.next + 1, x1.1, x2.1, xp.1, xi.1⟩ src = .ok r ∧ view ⟨h.next + 1, x1.1, x2.1, xp.1, xi.1⟩ c = .ok (ownPositions r) ∧
      Owned ⟨h.next + 1, x1.1, x2.1, xp.1, xi.1⟩ src ∧ Owned ⟨h.next + 1, x1.1, x2.1, xp.1, xi.1⟩ c ∧ Sep src c := by
    intro x1 x2 xp xi e1 e2 ep ei c hc
    subst hc
    have gen : ∀ {α : Type} (m : Nat → Option (List α)) (v : Ptr α) (x : (Nat → Option (List α)) × Option Nat) (b : Option Nat),
        (x = (m, none) ∧ v = none ∨ x = place m h.next none v) → Below b h.next →
        deref x.1 x.2 = .ok v ∧ deref x.1 b = deref m b ∧ Below x.2 (h.next + 1) ∧ Apart b x.2 := by
      intro α m v x b hx hb
      rcases hx with ⟨rfl, rfl⟩ | rfl
      · exact ⟨rfl, rfl, bn _, an _⟩
      · exact ⟨place_self _ _ _, place_other _ _ _ hb, place_below _ _ _, place_apart _ _ _ hb⟩
    obtain ⟨a1, a2, a3, a4⟩ := gen _ _ _ _ e1 ho.b1
    obtain ⟨b1, b2, b3, b4⟩ := gen _ _ _ _ e2 ho.b2
    obtain ⟨p1, p2, p3, p4⟩ := gen _ _ _ _ ep ho.bp
    obtain ⟨i1, i2, i3, i4⟩ := gen _ _ _ _ ei ho.bi
    refine ⟨(view_congr (h := h) a2 b2 p2 i2).trans hv, ?_, hos _ _ _ _, ⟨a3, b3, p3, i3⟩, ⟨a4, b4, p4, i4⟩⟩
    unfold view
    simp only [a1, b1, p1, i1, Out.ok_bind, Out.pure_eq]
    rfl
  have e0 : copyCtor h src = (do
      let x2 ← (if r.is2d then do
          let l ← copy2 r.nCells r.nLyrs r.raster2
          return place h.d2 h.next none l
        else return (h.d2, none) : Out ((Nat → Option (List (List ℚ))) × Option Nat))
      let x1 ← (if r.is2d then return (h.d1, none) else do
          let l ← copy1 r.nCells r.raster1
          return place h.d1 h.next none l : Out ((Nat → Option (List ℚ)) × Option Nat))
      let xp ← (if r.calcPos then do
          let l ← copyPos r.nCells r.posData
          return place h.pd h.next none l
        else return (h.pd, none) : Out ((Nat → Option (List (Int × Int))) × Option Nat))
      let xi ← (if r.calcPos then do
          let l ← copy1 r.nCells r.posIdx
          return place h.pi h.next none l
        else return (h.pi, none) : Out ((Nat → Option (List Int)) × Option Nat))
      return (⟨h.next + 1, x1.1, x2.1, xp.1, xi.1⟩, ⟨cbase r (if r.calcPos then true else false), x1.2, x2.2, xp.2, xi.2⟩)) := by
    show ((view ⟨h.next, h.d1, h.d2, h.pd, h.pi⟩ src).bind _) = _
    rw [hv1]
    rfl
  have hst : (if r.calcPos then true else false) = r.calcPos := by cases r.calcPos <;> rfl
  rw [e0, hst]
  have E2 : ∃ x2, (if r.is2d then do
          let l ← copy2 r.nCells r.nLyrs r.raster2
          return place h.d2 h.next none l
        else return (h.d2, none) : Out ((Nat → Option (List (List ℚ))) × Option Nat)) = .ok x2 ∧ 
        (x2 = (h.d2, none) ∧ r.raster2 = none ∨ x2 = place h.d2 h.next none r.raster2) := by
    cases hd : r.is2d
    · exact ⟨_, rfl, .inl ⟨rfl, tn2 hd⟩⟩
    · refine ⟨_, ?_, .inr rfl⟩
      simp only [if_true, h2 hd, Out.ok_bind, Out.pure_eq]
  have E1 : ∃ x1, (if r.is2d then return (h.d1, none) else do
          let l ← copy1 r.nCells r.raster1
          return place h.d1 h.next none l : Out ((Nat → Option (List ℚ)) × Option Nat)) = .ok x1 ∧ 
        (x1 = (h.d1, none) ∧ r.raster1 = none ∨ x1 = place h.d1 h.next none r.raster1) := by
    cases hd : r.is2d
    · refine ⟨_, ?_, .inr rfl⟩
      simp only [Bool.false_eq_true, if_false, h1 hd, Out.ok_bind, Out.pure_eq]
    · exact ⟨_, rfl, .inl ⟨rfl, tn1 hd⟩⟩
  have EP : ∃ xp, (if r.calcPos then do
          let l ← copyPos r.nCells r.posData
          return place h.pd h.next none l
        else return (h.pd, none) : Out ((Nat → Option (List (Int × Int))) × Option Nat)) = .ok xp ∧ 
        (xp = (h.pd, none) ∧ r.posData = none ∨ xp = place h.pd h.next none r.posData) := by
    cases hd : r.calcPos
    · exact ⟨_, rfl, .inl ⟨rfl, tnp.2 hd⟩⟩
    · refine ⟨_, ?_, .inr rfl⟩
      simp only [if_true, hp hd, Out.ok_bind, Out.pure_eq]
  have EI : ∃ xi, (if r.calcPos then do
          let l ← copy1 r.nCells r.posIdx
          return place h.pi h.next none l
        else return (h.pi, none) : Out ((Nat → Option (List Int)) × Option Nat)) = .ok xi ∧ 
        (xi = (h.pi, none) ∧ r.posIdx = none ∨ xi = place h.pi h.next none r.posIdx) := by
    cases hd : r.calcPos
    · exact ⟨_, rfl, .inl ⟨rfl, hi' hd⟩⟩
    · refine ⟨_, ?_, .inr rfl⟩
      simp only [if_true, hi hd, Out.ok_bind, Out.pure_eq]
  obtain ⟨x2, f2, g2⟩ := E2
  obtain ⟨x1, f1, g1⟩ := E1
  obtain ⟨xp, fp, gp⟩ := EP
  obtain ⟨xi, fi, gi⟩ := EI
  rw [f2, f1, fp, fi]
  exact ⟨_, _, rfl, key x1 x2 xp xi g1 g2 gp gi _ rfl⟩

theorem copyCtor_inv {h : Heap} {src : Obj} {r : Raster} (hv : view h src = .ok r) (ho : Owned h src) (ht : r.Tidy)
    (hr : r.RInv) (hn : r.nCells ≠ 0) :
    ∃ h' c, copyCtor h src = .ok (h', c) ∧ view h' src = .ok r ∧ view h' c = .ok (ownPositions r) ∧
      Owned h' src ∧ Owned h' c ∧ Sep src c := by
  rcases hr with ⟨ls, loc, hI⟩ | ⟨_, hE⟩
  · have hl := hI.ncells
    have hne : ls ≠ [] := by rintro rfl; simp at hl; exact hn hl
    have hh := hI.holds hne
    obtain ⟨q1, q2, q3⟩ := hh
    refine copyCtor_of hv ho ht ?_ ?_ ?_ ?_ ?_
    · intro hd
      simp only [hd, if_true] at q3
      rw [q3]
      exact copy2_all hl hne q1 q2
    · intro hd
      simp only [hd, Bool.false_eq_true, if_false] at q3
      rw [q3.2]
      exact copy1_all (by rw [List.length_map]; exact hl)
    · intro hc
      cases hI with
      | full hf => exact absurd (ht.np.1 hf.pd) (by simp [hc])
      | comp hcp => rw [hcp.pd]; exact copyPos_all hcp.ncells hcp.ne
      | empty he _ => exact absurd he.ncells hn
    · intro hc
      cases hI with
      | full hf => exact absurd (ht.np.1 hf.pd) (by simp [hc])
      | comp hcp => rw [hcp.pi]; exact copy1_all (by rw [List.length_map]; exact hcp.ncells)
      | empty he _ => exact absurd he.ncells hn
    · intro hc
      cases hI with
      | full hf => exact hf.pi
      | comp hcp => exact absurd hcp.calcOn (by simp [hc])
      | empty he _ => exact absurd he.ncells hn
  · exact absurd hE.ncells hn

end Copy
end CCGL

namespace CCGL
namespace Copy
open Raster

/-- C23: copy construction from any raster that stores at least one cell succeeds, leaves the source as it is, gives an
object with exactly the same contents (header, NoData, cells, layers, positions, settings) that owns its position arrays
(a masked raster may share those of its mask, the copy never does), and after that any interleaved
history of calls on the two objects gives each of them exactly what its own calls alone would give — if one of the two
runs is undefined or throws, so does the interleaved one, and conversely. -/
theorem C23_copy {h : Heap} {src : Obj} {r : Raster} (hb : Spec.Built r) (hv : view h src = .ok r) (ho : Owned h src)
    (hn : r.nCells ≠ 0) :
    ∃ h' c, copyCtor h src = .ok (h', c) ∧ view h' src = .ok r ∧ view h' c = .ok (ownPositions r) ∧
      ∀ ops : List (Bool × Op),
        (∀ rs rc, r.run (Spec.callsOf false ops) = .ok rs → (ownPositions r).run (Spec.callsOf true ops) = .ok rc →
          ∃ h2 s2 c2, runPair h' src c ops = .ok (h2, s2, c2) ∧ view h2 s2 = .ok rs ∧ view h2 c2 = .ok rc) ∧
        (∀ x, runPair h' src c ops = .ok x →
          (∃ rs, r.run (Spec.callsOf false ops) = .ok rs) ∧ ∃ rc, (ownPositions r).run (Spec.callsOf true ops) = .ok rc) := by
  obtain ⟨h', c, e, v1, v2, o1, o2, sp⟩ := copyCtor_inv hv ho hb.tidy hb.inv hn
  exact ⟨h', c, e, v1, v2, fun ops => runPair_spec ops v1 v2 o1 o2 sp⟩

/-- C23: in particular a write to the copy never changes a value of the source, nor the other way round. -/
theorem C23_writes {h : Heap} {src : Obj} {r : Raster} (hb : Spec.Built r) (hv : view h src = .ok r) (ho : Owned h src)
    (hn : r.nCells ≠ 0) {h' : Heap} {c : Obj} (hc : copyCtor h src = .ok (h', c)) (row col lyr : Int) (v : ℚ) :
    (∀ h2 s2 c2, runPair h' src c [(true, .setValue row col v lyr)] = .ok (h2, s2, c2) → view h2 s2 = .ok r) ∧
    (∀ h2 s2 c2, runPair h' src c [(false, .setValue row col v lyr)] = .ok (h2, s2, c2) → view h2 c2 = .ok (ownPositions r)) := by
  obtain ⟨h1, c1, e, v1, v2, key⟩ := C23_copy hb hv ho hn
  rw [hc] at e
  simp only [Out.ok.injEq, Prod.mk.injEq] at e
  obtain ⟨rfl, rfl⟩ := e
  constructor
  · intro h2 s2 c2 e2
    obtain ⟨k1, k2⟩ := key [(true, .setValue row col v lyr)]
    obtain ⟨⟨rs, q1⟩, ⟨rc, q2⟩⟩ := k2 _ e2
    obtain ⟨h3, s3, c3, e3, w1, _⟩ := k1 rs rc q1 q2
    rw [e2] at e3
    simp only [Out.ok.injEq, Prod.mk.injEq] at e3
    obtain ⟨rfl, rfl, rfl⟩ := e3
    simp [Spec.callsOf, run] at q1
    rw [w1, q1]
  · intro h2 s2 c2 e2
    obtain ⟨k1, k2⟩ := key [(false, .setValue row col v lyr)]
    obtain ⟨⟨rs, q1⟩, ⟨rc, q2⟩⟩ := k2 _ e2
    obtain ⟨h3, s3, c3, e3, _, w2⟩ := k1 rs rc q1 q2
    rw [e2] at e3
    simp only [Out.ok.injEq, Prod.mk.injEq] at e3
    obtain ⟨rfl, rfl, rfl⟩ := e3
    simp [Spec.callsOf, run] at q2
    rw [w2, q2]

/-! ### A concrete case and the cases in which copying fails -/

/-- A heap with one 1D raster of 2x1 cells at address 0, positions calculated (cell (1,0) valid). -/
def exHeap : Heap :=
  ⟨1, upd (fun _ => none) 0 (some [7]), fun _ => none, upd (fun _ => none) 0 (some [(1, 0)]), upd (fun _ => none) 0 (some [1])⟩
def exObj : Obj :=
  ⟨{ ofArray1 none 1 2 (-9999) 1 0 0 with
      nCells := 1
      calcPos := true
      storePos := true
      hdr := { (ofArray1 none 1 2 (-9999) 1 0 0).hdr with cellsnum := 1 } }, some 0, none, some 0, some 0⟩
def exFull : Raster := ofArray1 (some [-9999, 7]) 1 2 (-9999) 1 0 0

example : ∃ r, Spec.Built r ∧ view exHeap exObj = .ok r ∧ Owned exHeap exObj ∧ r.nCells ≠ 0 := by
  have h1 : exFull.step .setCalcPositions = view exHeap exObj := by decide +kernel
  have hb : Spec.Built exFull := Spec.Built.grid1 [-9999, 7] 2 1 (-9999) 1 0 0 rfl
  cases e : view exHeap exObj with
  | ub => exact absurd e (by decide +kernel)
  | exn => exact absurd e (by decide +kernel)
  | ok r =>
    refine ⟨r, .step _ hb (h1.trans e), rfl, ⟨?_, ?_, ?_, ?_⟩, ?_⟩
    · intro a ha; cases ha; decide
    · intro a ha; cases ha
    · intro a ha; cases ha; decide
    · intro a ha; cases ha; decide
    · have : ((view exHeap exObj).bind fun r => .ok (decide (r.nCells ≠ 0))) = .ok true := by decide +kernel
      rw [e] at this
      have h2 : decide (r.nCells ≠ 0) = true := by injection this
      exact of_decide_eq_true h2

/-- Copying a raster whose positions were calculated and that has no valid cell is undefined: `Initialize2DArray` reads the
first row of the (empty) position array of the source. -/
theorem C23_false_no_valid_cell : ∃ (r : Raster) (h : Heap) (o : Obj), Spec.Built r ∧ view h o = .ok r ∧ Owned h o ∧
    copyCtor h o = .ub := by
  have hb : Spec.Built (ofArray1 (some [-9999]) 1 1 (-9999) 1 0 0) := Spec.Built.grid1 [-9999] 1 1 (-9999) 1 0 0 rfl
  let o : Obj := ⟨{ ofArray1 none 1 1 (-9999) 1 0 0 with
      nCells := 0
      calcPos := true
      storePos := true
      hdr := { (ofArray1 none 1 1 (-9999) 1 0 0).hdr with cellsnum := 0 } }, none, none, some 0, none⟩
  let h : Heap := ⟨1, fun _ => none, fun _ => none, upd (fun _ => none) 0 (some []), fun _ => none⟩
  have h1 : (ofArray1 (some [-9999]) 1 1 (-9999) 1 0 0).step .setCalcPositions = view h o := by decide +kernel
  cases e : view h o with
  | ub => exact absurd e (by decide +kernel)
  | exn => exact absurd e (by decide +kernel)
  | ok r =>
    refine ⟨r, h, o, .step _ hb (h1.trans e), e, ⟨?_, ?_, ?_, ?_⟩, rfl⟩
    · intro a ha; cases ha
    · intro a ha; cases ha
    · intro a ha; cases ha; decide
    · intro a ha; cases ha

/-- `Copy` into an object that held a multi-layer raster: a one-layer source leaves `is_2draster` set, so the copy shows
NoData where the source has a value. -/
theorem C23_false_into_2d : ∃ (h h' : Heap) (dst src c : Obj), copyInto h dst src = .ok (h', c) ∧
    (∃ r, view h' src = .ok r ∧ r.getValue 0 0 1 = .ok 7) ∧ (∃ r, view h' c = .ok r ∧ r.getValue 0 0 1 = .ok (-9999)) := by
  let src : Obj := ⟨ofArray1 none 1 1 (-9999) 1 0 0, some 0, none, none, none⟩
  let dst : Obj := ⟨ofArray2 none 1 1 2 (-9999) 1 0 0, none, some 0, none, none⟩
  let h : Heap := ⟨1, upd (fun _ => none) 0 (some [7]), upd (fun _ => none) 0 (some [[1, 2]]), fun _ => none, fun _ => none⟩
  have key : ((copyInto h dst src).bind fun x => (view x.1 src).bind fun r => (view x.1 x.2).bind fun r' =>
      .ok (decide (r.getValue 0 0 1 = .ok 7 ∧ r'.getValue 0 0 1 = .ok (-9999)))) = .ok true := by decide +kernel
  obtain ⟨⟨h', c⟩, e1, key⟩ := Out.bind_ok key
  obtain ⟨r, e2, key⟩ := Out.bind_ok key
  obtain ⟨r', e3, key⟩ := Out.bind_ok key
  simp only [Out.ok.injEq, decide_eq_true_eq] at key
  exact ⟨h, h', dst, src, c, e1, ⟨r, e2, key.1⟩, ⟨r', e3, key.2⟩⟩

/-- `Copy` of an object into itself is undefined: the data are released before they are copied. -/
theorem C23_false_self : ∃ (h : Heap) (o : Obj) (r : Raster), view h o = .ok r ∧ r.getValue 1 0 1 = .ok 7 ∧ copyInto h o o = .ub := by
  have key : ((view exHeap exObj).bind fun r => .ok (decide (r.getValue 1 0 1 = .ok 7))) = .ok true := by decide +kernel
  obtain ⟨r, e2, key⟩ := Out.bind_ok key
  simp only [Out.ok.injEq, decide_eq_true_eq] at key
  exact ⟨exHeap, exObj, r, e2, key, rfl⟩

/-- `Copy` into a raster that was constructed from a mask (and shares its position arrays, data_raster.hpp:2218-2219)
releases the positions of the mask: the next use of the mask is undefined. -/
theorem C23_false_shared_positions : ∃ (h h' : Heap) (mask dst src c : Obj), (∃ r, view h mask = .ok r) ∧
    copyInto h dst src = .ok (h', c) ∧ view h' mask = .ub := by
  let src : Obj := ⟨ofArray1 none 1 1 (-9999) 1 0 0, some 1, none, none, none⟩
  let dst : Obj := ⟨{ init false with
    useMaskExt := true
    nCells := 1
    nLyrs := 1 }, some 2, none, some 0, some 0⟩
  let h : Heap := ⟨3, upd (upd exHeap.d1 1 (some [7])) 2 (some [5]), exHeap.d2, exHeap.pd, exHeap.pi⟩
  have key : ((view h exObj).bind fun _ => (copyInto h dst src).bind fun x => .ok (decide (view x.1 exObj = .ub))) = .ok true := by
    decide +kernel
  obtain ⟨r, e2, key⟩ := Out.bind_ok key
  obtain ⟨⟨h', c⟩, e1, key⟩ := Out.bind_ok key
  simp only [Out.ok.injEq, decide_eq_true_eq] at key
  exact ⟨h, h', exObj, dst, src, c, ⟨r, e2⟩, e1, key⟩

end Copy
end CCGL
