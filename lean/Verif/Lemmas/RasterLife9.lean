import Verif.Lemmas.RasterLife8
/-!
# A decision procedure for the contract, for the concrete histories in `Props/RasterLife.lean`

`discB n` accepts histories on the rasters `0 … n-1` that keep to the contract (`discB_sound`).
-/
namespace CCGL
namespace Life
open Spec

def noneAt (w : World) (i : Id) : Bool := (w.objs i).isNone

def objIs (w : World) (i : Id) (p : Obj → Bool) : Bool :=
  match w.objs i with
  | some o => p o
  | none => false

def noMaskB (n : Nat) (w : World) (i : Id) : Bool :=
  (List.range n).all (fun j => match w.objs j with | some o => o.mask != some i | none => true)

def noDataB (o : Obj) : Bool := o.subs.all (fun e => (o.ptr (.sub e.1 .data)).isNone && (o.ptr (.sub e.1 .data2)).isNone)

def maskB (w : World) (i : Id) : Option Id → Bool
  | none => true
  | some m => m != i && objIs w m (fun o => o.valid && (o.mask.isNone || (o.calcPos && (o.ptr .pos).isSome)) && noDataB o)

def emptyB (o : Obj) : Bool :=
  (o.ptr .ras).isNone && (o.ptr .ras2).isNone && (o.ptr .pos).isNone && (o.ptr .idx).isNone && six.all (fun n => (o.ptr (.stat n)).isNone) &&
    o.subs.isEmpty && !o.store

def soundB (s : Sees) : Bool :=
  decide (1 ≤ s.valid) && decide (1 ≤ s.maskValid) && decide (1 ≤ s.kept) && decide (1 ≤ s.full) && decide ((s.groups.map Prod.fst).Nodup) &&
    s.groups.all (fun e => decide (1 ≤ e.2))

def ownPosB (o : Obj) : Bool := o.store || (o.ptr .pos).isNone

def remaskB (n : Nat) (w : World) (i : Id) (o : Obj) : Bool := o.mask.isNone || (maskB w i o.mask && noMaskB n w i && ownPosB o)

def copyB (o oj : Obj) : Bool :=
  oj.valid && decide (1 ≤ oj.cells) && (!oj.calcPos || (oj.ptr .pos).isSome) && (!o.is2d || oj.is2d) &&
    (!oj.stats || !oj.is2d || (o.statMap && !o.stats))

def gfsB (mask : Option Id) (c e : Bool) (g : Stored) : Bool :=
  !g.good || (!(g.all && g.compact) && (g.all || (mask.isSome && (c || g.compact) && e && g.fits)))

def allowedB (n : Nat) (w : World) : Op → Bool
  | .newEmpty i _ => noneAt w i
  | .newArray i _ k => noneAt w i && decide (1 ≤ k)
  | .newMask i m _ _ s => noneAt w i && soundB s && objIs w m (fun o => o.valid)
  | .read i a => objIs w i emptyB && noMaskB n w i && maskB w i a.mask && soundB a.sees
  | .readFiles i a => objIs w i emptyB && noMaskB n w i && maskB w i a.mask && soundB a.sees
  | .readGfs i mask c e g s => objIs w i emptyB && noMaskB n w i && maskB w i mask && soundB s && gfsB mask c e g
  | .init i _ a => noneAt w i && maskB w i a.mask && soundB a.sees
  | .newCopy i j => noneAt w i && objIs w j (fun oj => copyB (emptyObj false) oj)
  | .build i s => soundB s && objIs w i (fun o => !o.valid || (o.ptr .pos).isSome || remaskB n w i o)
  | .rebuild i s => soundB s && objIs w i (fun o => !o.valid || (o.ptr .pos).isSome || remaskB n w i o)
  | .releaseSubset i => objIs w i (fun _ => true)
  | .setData i _ _ => objIs w i (fun _ => true)
  | .calcStats i => objIs w i (fun o => o.valid)
  | .updateStats i => objIs w i (fun o => o.valid)
  | .getStat i _ => objIs w i (fun _ => true)
  | .setCalc i s => soundB s && objIs w i (fun o => !o.valid || (o.calcPos && (o.ptr .pos).isSome) || remaskB n w i o)
  | .setExt i s => soundB s && objIs w i (fun o => !o.valid || o.ext || remaskB n w i o)
  | .setPositions _ _ _ => false
  | .getPositions i s => soundB s && objIs w i (fun _ => true)
  | .copy i j => i != j && noMaskB n w i && objIs w i (fun o => ownPosB o && objIs w j (fun oj => copyB o oj))
  | .use i => objIs w i (fun _ => true)
  | .delete i => objIs w i (fun _ => true) && noMaskB n w i

def discB (d n : Nat) : World → List Op → Bool
  | _, [] => true
  | w, op :: l => decide (op.target < n) && allowedB n w op &&
    (match step d w op with
    | .ok w' => discB d n w' l
    | _ => false)

theorem noneAt_iff {w : World} {i : Id} (h : noneAt w i = true) : w.objs i = none := Option.isNone_iff_eq_none.1 h

theorem objIs_ex {w : World} {i : Id} {p : Obj → Bool} (h : objIs w i p = true) : ∃ o, w.objs i = some o ∧ p o = true := by
  unfold objIs at h
  cases ho : w.objs i with
  | none => rw [ho] at h; cases h
  | some o => rw [ho] at h; exact ⟨o, rfl, h⟩

theorem objIs_ne {w : World} {i : Id} {p : Obj → Bool} (h : objIs w i p = true) : w.objs i ≠ none := by
  obtain ⟨o, ho, _⟩ := objIs_ex h
  rw [ho]; simp

theorem noMaskB_sound {n : Nat} {w : World} (hb : ∀ j, n ≤ j → w.objs j = none) {i : Id} (h : noMaskB n w i = true) : NoMaskOf w i := by
  intro j o hj
  have hlt : j < n := by
    rcases Nat.lt_or_ge j n with h' | h'
    · exact h'
    · rw [hb j h'] at hj; cases hj
  have := List.all_eq_true.1 h j (List.mem_range.2 hlt)
  rw [hj] at this
  simpa using this

theorem noDataB_sound {o : Obj} (hi : OInv o) (h : noDataB o = true) : NoSubsetData o := by
  intro k
  by_cases hk : k ∈ o.subs.map Prod.fst
  · obtain ⟨e, he, rfl⟩ := List.mem_map.1 hk
    have := List.all_eq_true.1 h e he
    simpa using this
  · constructor
    · by_contra hn; exact hk (hi.subs.only k _ hn)
    · by_contra hn; exact hk (hi.subs.only k _ hn)

theorem maskB_sound {w : World} (hw : WInv w) {i : Id} {mask : Option Id} (h : maskB w i mask = true) : MaskOk w i mask := by
  intro m hm
  subst hm
  simp only [maskB, Bool.and_eq_true, bne_iff_ne] at h
  obtain ⟨h1, h2⟩ := h
  obtain ⟨o, ho, h3⟩ := objIs_ex h2
  simp only [Bool.and_eq_true, Bool.or_eq_true, Option.isNone_iff_eq_none] at h3
  exact ⟨h1, o, ho, h3.1.1, h3.1.2, noDataB_sound (hw.o m o ho) h3.2⟩

theorem emptyB_sound {o : Obj} (hi : OInv o) (h : emptyB o = true) : Spec.Empty o := by
  simp only [emptyB, Bool.and_eq_true, Option.isNone_iff_eq_none, List.all_eq_true, List.isEmpty_iff, Bool.not_eq_true'] at h
  obtain ⟨⟨⟨⟨⟨⟨h1, h2⟩, h3⟩, h4⟩, h5⟩, h6⟩, h7⟩ := h
  refine ⟨?_, h7, h6⟩
  intro f
  cases f with
  | ras => exact h1
  | ras2 => exact h2
  | pos => exact h3
  | idx => exact h4
  | stat n => exact h5 n (all_six n)
  | sub k g =>
    by_contra hn
    have := hi.subs.only k g hn
    rw [h6] at this
    simp at this

theorem soundB_sound {s : Sees} (h : soundB s = true) : Sound s := by
  simp only [soundB, Bool.and_eq_true, decide_eq_true_eq, List.all_eq_true] at h
  obtain ⟨⟨⟨⟨⟨h1, h2⟩, h3⟩, h4⟩, h5⟩, h6⟩ := h
  exact ⟨h1, h2, h3, h4, h5, h6⟩

theorem ownPosB_sound {o : Obj} (h : ownPosB o = true) : OwnPos o := by
  simpa [ownPosB, OwnPos] using h

theorem remaskB_sound {n : Nat} {w : World} (hw : WInv w) (hb : ∀ j, n ≤ j → w.objs j = none) {i : Id} {o : Obj} (h : remaskB n w i o = true) :
    Remask w i o := by
  intro hm
  simp only [remaskB, Bool.or_eq_true, Bool.and_eq_true, Option.isNone_iff_eq_none] at h
  rcases h with h | ⟨⟨h1, h2⟩, h3⟩
  · exact absurd h hm
  · exact ⟨maskB_sound hw h1, noMaskB_sound hb h2, ownPosB_sound h3⟩

theorem copyB_sound {o oj : Obj} (h : copyB o oj = true) : CopyOk o oj := by
  simp only [copyB, Bool.and_eq_true, Bool.or_eq_true, Bool.not_eq_true', decide_eq_true_eq] at h
  obtain ⟨⟨⟨⟨h1, h2⟩, h3⟩, h4⟩, h5⟩ := h
  refine ⟨h1, h2, fun hc => ?_, fun hc => ?_, fun ha hc => ?_⟩
  · rcases h3 with h | h
    · rw [hc] at h; cases h
    · exact h
  · rcases h4 with h | h
    · rw [hc] at h; cases h
    · exact h
  · rcases h5 with (h | h) | h
    · rw [ha] at h; cases h
    · rw [hc] at h; cases h
    · exact h

theorem gfsB_sound {mask : Option Id} {c e : Bool} {g : Stored} (h : gfsB mask c e g = true) (hg : g.good = true) :
    ¬ (g.all = true ∧ g.compact = true) ∧ (g.all = true ∨ (mask ≠ none ∧ (c = true ∨ g.compact = true) ∧ e = true ∧ g.fits = true)) := by
  unfold gfsB at h
  rw [hg, Bool.not_true, Bool.false_or, Bool.and_eq_true] at h
  obtain ⟨h1, h2⟩ := h
  refine ⟨(by rintro ⟨a, c⟩; rw [a, c] at h1; cases h1), ?_⟩
  simp only [Bool.or_eq_true, Bool.and_eq_true] at h2
  rcases h2 with h | ⟨⟨⟨a1, a2⟩, a3⟩, a4⟩
  · exact Or.inl h
  · exact Or.inr ⟨Option.isSome_iff_ne_none.1 a1, a2, a3, a4⟩

theorem allowedB_sound {n : Nat} {w : World} (hw : WInv w) (hb : ∀ j, n ≤ j → w.objs j = none) {op : Op} (h : allowedB n w op = true) : Allowed w op := by
  cases op with
  | newEmpty i _ => exact noneAt_iff h
  | newArray i _ k =>
    simp only [allowedB, Bool.and_eq_true, decide_eq_true_eq] at h
    exact ⟨noneAt_iff h.1, h.2⟩
  | newMask i m _ _ s =>
    simp only [allowedB, Bool.and_eq_true] at h
    exact ⟨noneAt_iff h.1.1, soundB_sound h.1.2, objIs_ex h.2⟩
  | read i a =>
    simp only [allowedB, Bool.and_eq_true] at h
    obtain ⟨o, ho, he⟩ := objIs_ex h.1.1.1
    exact ⟨⟨o, ho, emptyB_sound (hw.o i o ho) he⟩, noMaskB_sound hb h.1.1.2, maskB_sound hw h.1.2, soundB_sound h.2⟩
  | readFiles i a =>
    simp only [allowedB, Bool.and_eq_true] at h
    obtain ⟨o, ho, he⟩ := objIs_ex h.1.1.1
    exact ⟨⟨o, ho, emptyB_sound (hw.o i o ho) he⟩, noMaskB_sound hb h.1.1.2, maskB_sound hw h.1.2, soundB_sound h.2⟩
  | readGfs i mask c e g s =>
    simp only [allowedB, Bool.and_eq_true] at h
    obtain ⟨o, ho, he⟩ := objIs_ex h.1.1.1.1
    exact ⟨⟨o, ho, emptyB_sound (hw.o i o ho) he⟩, noMaskB_sound hb h.1.1.1.2, maskB_sound hw h.1.1.2, soundB_sound h.1.2, gfsB_sound h.2⟩
  | init i _ a =>
    simp only [allowedB, Bool.and_eq_true] at h
    exact ⟨noneAt_iff h.1.1, maskB_sound hw h.1.2, soundB_sound h.2⟩
  | newCopy i j =>
    simp only [allowedB, Bool.and_eq_true] at h
    obtain ⟨o, ho, he⟩ := objIs_ex h.2
    exact ⟨noneAt_iff h.1, o, ho, copyB_sound he⟩
  | build i s =>
    simp only [allowedB, Bool.and_eq_true] at h
    obtain ⟨o, ho, he⟩ := objIs_ex h.2
    refine ⟨soundB_sound h.1, o, ho, fun hv hp => ?_⟩
    rw [hv, hp] at he
    exact remaskB_sound hw hb (by simpa using he)
  | rebuild i s =>
    simp only [allowedB, Bool.and_eq_true] at h
    obtain ⟨o, ho, he⟩ := objIs_ex h.2
    refine ⟨soundB_sound h.1, o, ho, fun hv hp => ?_⟩
    rw [hv, hp] at he
    exact remaskB_sound hw hb (by simpa using he)
  | releaseSubset i => exact objIs_ne h
  | setData i _ _ => exact objIs_ne h
  | calcStats i => exact objIs_ex h
  | updateStats i => exact objIs_ex h
  | getStat i _ => exact objIs_ne h
  | setCalc i s =>
    simp only [allowedB, Bool.and_eq_true] at h
    obtain ⟨o, ho, he⟩ := objIs_ex h.2
    refine ⟨soundB_sound h.1, o, ho, fun hv hp => ?_⟩
    rw [hv] at he
    simp only [Bool.not_true, Bool.false_or, Bool.or_eq_true, Bool.and_eq_true] at he
    rcases he with he | he
    · exact absurd he hp
    · exact remaskB_sound hw hb he
  | setExt i s =>
    simp only [allowedB, Bool.and_eq_true] at h
    obtain ⟨o, ho, he⟩ := objIs_ex h.2
    refine ⟨soundB_sound h.1, o, ho, fun hv hp => ?_⟩
    rw [hv, hp] at he
    exact remaskB_sound hw hb (by simpa using he)
  | setPositions _ _ _ => cases h
  | getPositions i s =>
    simp only [allowedB, Bool.and_eq_true] at h
    exact ⟨soundB_sound h.1, objIs_ne h.2⟩
  | copy i j =>
    simp only [allowedB, Bool.and_eq_true, bne_iff_ne] at h
    obtain ⟨o, ho, he⟩ := objIs_ex h.2
    rw [Bool.and_eq_true] at he
    obtain ⟨oj, hoj, hc⟩ := objIs_ex he.2
    exact ⟨h.1.1, noMaskB_sound hb h.1.2, o, oj, ho, hoj, ownPosB_sound he.1, copyB_sound hc⟩
  | use i => exact objIs_ne h
  | delete i =>
    simp only [allowedB, Bool.and_eq_true] at h
    exact ⟨objIs_ne h.1, noMaskB_sound hb h.2⟩

theorem discB_sound {d n : Nat} (ops : List Op) : ∀ {w : World}, WInv w → (∀ j, n ≤ j → w.objs j = none) → discB (d + 2) n w ops = true →
    Disciplined (d + 2) w ops := by
  induction ops with
  | nil => intro w _ _ _; trivial
  | cons op l ih =>
    intro w hw hb h
    simp only [discB, Bool.and_eq_true, decide_eq_true_eq] at h
    obtain ⟨⟨h1, h2⟩, h3⟩ := h
    have ha := allowedB_sound hw hb h2
    obtain ⟨w1, e1, hw1, fr⟩ := step_ok hw ha d
    refine ⟨ha, fun w' e' => ?_⟩
    rw [e1] at e'; cases e'
    rw [e1] at h3
    refine ih hw1 (fun j hj => ?_) h3
    have hne : j ≠ op.target := fun he => by rw [he] at hj; exact absurd h1 (Nat.not_lt.2 hj)
    rcases fr j hne with a | ⟨_, o, o', b, _⟩
    · rw [a]; exact hb j hj
    · rw [hb j hj] at b; cases b

end Life
end CCGL
