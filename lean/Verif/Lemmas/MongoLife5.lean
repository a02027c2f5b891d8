import Verif.Lemmas.MongoLife4
/-! Every allowed call ends normally, and what exists afterwards. -/
namespace CCGL
namespace MLife

/-- Among the objects `e`, numbered from `n`, the `i`-th exists. -/
def NewEx : Nat → List Obj → Nat → Prop
  | _, [], _ => False
  | n, o :: e, i => (i = n ∧ o.alive = true) ∨ NewEx (n + 1) e i

theorem newEx_iff (n : Nat) (e : List Obj) (i : Nat) : NewEx n e i ↔ ∃ m o, i = n + m ∧ e[m]? = some o ∧ o.alive = true := by
  induction e generalizing n with
  | nil => simp [NewEx]
  | cons o e ih =>
    simp only [NewEx, ih]
    constructor
    · rintro (⟨rfl, h⟩ | ⟨m, p, rfl, h1, h2⟩)
      · exact ⟨0, o, rfl, rfl, h⟩
      · exact ⟨m + 1, p, by omega, h1, h2⟩
    · rintro ⟨m, p, rfl, h1, h2⟩
      cases m with
      | zero => simp at h1; subst h1; exact Or.inl ⟨rfl, h2⟩
      | succ m => exact Or.inr ⟨m, p, by omega, h1, h2⟩

theorem newEx_append (n : Nat) (e f : List Obj) (i : Nat) : NewEx n (e ++ f) i ↔ NewEx n e i ∨ NewEx (n + e.length) f i := by
  induction e generalizing n with
  | nil => simp [NewEx]
  | cons o e ih =>
    simp only [List.cons_append, NewEx, ih, List.length_cons, or_assoc]
    rw [show n + 1 + e.length = n + (e.length + 1) by omega]

theorem newEx_dead (n k : Nat) (a : List Nat) (kd : Kind) (i : Nat) : ¬ NewEx n (List.replicate k ⟨kd, false, a⟩) i := by
  induction k generalizing n with
  | zero => simp [NewEx]
  | succ k ih => simp [List.replicate_succ, NewEx, ih]

theorem newEx_list (n : Nat) (w : World) (g : Nat) (q : Bool) (k i : Nat) : NewEx n (listObjs w g q k) i ↔ i = n ∧ q = true := by
  unfold listObjs
  rw [newEx_append]
  simp [NewEx, newEx_dead]

theorem ex_heap {w v : World} {e : List Obj} (h : v.heap = w.heap ++ e) (i : Nat) : Existing v i ↔ Existing w i ∨ NewEx w.heap.length e i := by
  have h1 : Existing v i ↔ Existing (w.add e) i := ex_congr h
  rw [h1, ex_add, newEx_iff]

def GoodObj (w : World) (n : Nat) (o : Obj) : Prop :=
  (∀ a ∈ o.above, a < n) ∧ (o.kind = .client → o.above = []) ∧
    ((o.kind = .database ∨ o.kind = .collection ∨ o.kind = .gridfs) → ∀ a ∈ o.above, ∃ p, w.heap[a]? = some p ∧ p.kind = .client)

def GoodL (w : World) : Nat → List Obj → Prop
  | _, [] => True
  | n, o :: e => GoodObj w n o ∧ GoodL w (n + 1) e

theorem GoodL.obj {w : World} {n : Nat} {e : List Obj} (h : GoodL w n e) (m : Nat) (o : Obj) (hm : e[m]? = some o) : GoodObj w (n + m) o := by
  induction e generalizing n m with
  | nil => simp at hm
  | cons p e ih =>
    cases m with
    | zero => simp at hm; subst hm; exact h.1
    | succ m =>
      have := ih h.2 m hm
      rw [show n + (m + 1) = n + 1 + m by omega]; exact this

theorem GoodL.append {w : World} {n : Nat} {e f : List Obj} (h : GoodL w n e) (g : GoodL w (n + e.length) f) : GoodL w n (e ++ f) := by
  induction e generalizing n with
  | nil => simpa using g
  | cons o e ih =>
    refine ⟨h.1, ih h.2 ?_⟩
    rw [show n + 1 + e.length = n + (e.length + 1) by omega]; exact g

theorem GoodL.ext {w : World} {e : List Obj} (h : GoodL w w.heap.length e) : GoodExt w e where
  up m o hm := (h.obj m o hm).1
  cl m o hm := (h.obj m o hm).2.1
  ab m o hm := (h.obj m o hm).2.2

theorem goodObj_nil (w : World) (n : Nat) (k : Kind) (al : Bool) : GoodObj w n ⟨k, al, []⟩ := ⟨by simp, by simp, by simp⟩

theorem above_lt {w : World} (h : Inv w) {i : Nat} (hi : i < w.heap.length) : ∀ a ∈ aboveOf w (some i), a < w.heap.length := by
  intro a ha
  have ho : w.heap[i]? = some w.heap[i] := List.getElem?_eq_getElem hi
  simp only [aboveOf, ho, List.mem_cons] at ha
  rcases ha with rfl | ha
  · exact hi
  · have := h.up i _ ho a ha; omega

theorem above_client {w : World} (h : Inv w) {i : Nat} (hs : Sound w .client i) : aboveOf w (some i) = [i] := by
  obtain ⟨o, ho, hk, _⟩ := hs
  simp only [aboveOf, ho, h.cl i o ho hk]

/-- An object that depends on a connection. -/
theorem goodObj_conn {w : World} (h : Inv w) {i n : Nat} (hs : Sound w .client i) (hn : w.heap.length ≤ n) (k : Kind) (hk : k ≠ .client) (al : Bool) :
    GoodObj w n ⟨k, al, aboveOf w (some i)⟩ := by
  have hl := hs.lt
  rw [above_client h hs]
  refine ⟨by intro a ha; simp at ha; omega, fun q => absurd q hk, ?_⟩
  intro _ a ha
  simp at ha; subst ha
  obtain ⟨o, ho, hk, _⟩ := hs
  exact ⟨o, ho, hk⟩

/-- Cursors, files, lists and streams. -/
theorem goodObj_leaf {w : World} {n : Nat} {k : Kind} {ab : List Nat} {al : Bool} (hk : k = .cursor ∨ k = .file ∨ k = .fileList ∨ k = .stream)
    (hl : ∀ a ∈ ab, a < n) : GoodObj w n ⟨k, al, ab⟩ := by
  refine ⟨hl, ?_, ?_⟩
  · intro q; have q : k = .client := q; subst q; simp at hk
  · intro q; have q : k = .database ∨ k = .collection ∨ k = .gridfs := q
    rcases q with rfl | rfl | rfl <;> simp at hk

theorem goodL_dead {w : World} {n : Nat} {ab : List Nat} (k : Nat) (hl : ∀ a ∈ ab, a < n) : GoodL w n (List.replicate k ⟨.file, false, ab⟩) := by
  induction k generalizing n with
  | zero => trivial
  | succ k ih => exact ⟨goodObj_leaf (by simp) hl, ih (fun a ha => by have := hl a ha; omega)⟩

theorem goodL_list {w v : World} {g : Nat} (ha : ∀ a ∈ aboveOf v (some g), a < v.heap.length) (q : Bool) (k : Nat) :
    GoodL w v.heap.length (listObjs v g q k) := by
  refine GoodL.append ⟨goodObj_nil _ _ _ _, goodObj_leaf (by simp) (fun a h => by have := ha a h; omega), trivial⟩ ?_
  refine goodL_dead k ?_
  intro a h
  simp only [List.length_cons, List.length_nil]
  rcases List.mem_cons.1 h with rfl | h
  · omega
  · have := ha a h; omega

/-- What exists after a call. -/
def Live (w : World) (c : Call) (w' : World) (r : Res) : Prop :=
  (Leaks c r = none → ∀ i, Existing w' i ↔ (Existing w i ∧ ¬ Released w i c) ∨ Gained w' i r) ∧
    ∀ k, Leaks c r = some k → ∃ j, w.heap.length ≤ j ∧ (∃ o, w'.heap[j]? = some o ∧ o.kind = k) ∧
      ∀ i, Existing w' i ↔ (Existing w i ∧ ¬ Released w i c) ∨ Gained w' i r ∨ i = j

theorem live_add {w v : World} {e : List Obj} {c : Call} {r : Res} (hh : v.heap = w.heap ++ e) (hl : Leaks c r = none) (hr : ∀ i, ¬ Released w i c)
    (hg : ∀ i, Existing w i ∨ NewEx w.heap.length e i ↔ Existing w i ∨ Gained v i r) : Live w c v r := by
  refine ⟨fun _ i => ?_, fun k hk => by rw [hl] at hk; cases hk⟩
  rw [ex_heap hh, hg i]
  simp [hr i]

theorem live_leak {w v : World} {e : List Obj} {c : Call} {r : Res} {k : Kind} (hh : v.heap = w.heap ++ e) (hl : Leaks c r = some k) (hr : ∀ i, ¬ Released w i c)
    (hn : ∀ i, ¬ Gained v i r) (m : Nat) (o : Obj) (hm : e[m]? = some o) (hk : o.kind = k) (hg : ∀ i, NewEx w.heap.length e i ↔ i = w.heap.length + m) : Live w c v r := by
  refine ⟨fun q => (by rw [hl] at q; cases q), fun k' hk' => ?_⟩
  rw [hl] at hk'; cases hk'
  refine ⟨w.heap.length + m, by omega, ⟨o, ?_, hk⟩, fun i => ?_⟩
  · have := get_right w e m
    have e1 : v.heap = (w.add e).heap := hh
    rw [e1, this, hm]
  · rw [ex_heap hh, hg i]
    simp [hr i, hn i]

/-- Releasing an object that a program or a wrapper object had. -/
theorem live_kill {w v : World} {i : Nat} {c : Call} (hh : v.heap = (kill w i).heap) (hi : Existing w i) (hl : Leaks c .unit = none)
    (hr : ∀ j, Released w j c ↔ j = i) : Live w c v .unit := by
  refine ⟨fun _ j => ?_, fun k hk => by rw [hl] at hk; cases hk⟩
  rw [ex_congr hh, ex_kill hi, hr]
  simp [Gained]

theorem live_same {w v : World} {c : Call} {r : Res} (hh : v.heap = w.heap) (hl : Leaks c r = none) (hr : ∀ i, ¬ Released w i c)
    (hg : ∀ i, Gained v i r → Existing w i) : Live w c v r := by
  refine live_add (e := []) (by simpa using hh) hl hr (fun i => ?_)
  simp only [NewEx, or_false]
  exact ⟨Or.inl, fun q => q.elim id (hg i)⟩

end MLife
end CCGL
