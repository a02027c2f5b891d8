import Verif.Props.ParMem
/-!
# C85: reduction loops
-/
namespace CCGL.Par
open CCGL.Par.Spec

variable {n : Nat} (s : Sched n) (mem : Mem)

/-- **C85, `Sum`.** The private copies add up to the sum of the array; no array changes. -/
theorem C85_sum : ∃ result : Mem, Deterministic (parReduce s sumBody) mem result ∧
    total s.threads result = ((List.range n).map fun i : Nat => mem ⟨.src, i, 0⟩).sum ∧ ∀ a, a.obj ≠ .priv → result a = mem a := by
  obtain ⟨r, h1, _, _, h4, h5⟩ := det_reduce s (own := fun _ _ => False) (ro := fun a => a.obj = .src) (body := sumBody) (mem := mem)
    (f := fun i => mem ⟨.src, i, 0⟩) (g := fun _ => 0)
    (fun t i => ⟨Or.inr rfl, fun _ => ⟨Or.inl (Or.inl rfl), fun _ => ⟨Or.inl rfl, trivial⟩⟩⟩) (fun _ _ _ h => h.elim) (fun _ _ h => h.elim)
    (fun _ _ h => h.elim) (fun a h => by rw [h]; decide)
    (fun t i m hm => by
      have e : (sumBody t i).run m (privAt t) = m (privAt t) + m ⟨.src, i, 0⟩ := if_pos rfl
      rw [e, hm ⟨.src, i, 0⟩ rfl])
    (fun _ _ _ _ _ h => h.elim)
  exact ⟨r, h1, h5, fun a ha => h4 a ha fun _ _ h => h⟩

/-- **C85, `Sum` over selected indices.** -/
theorem C85_sum_idx : ∃ result : Mem, Deterministic (parReduce s sumIdxBody) mem result ∧
    total s.threads result = ((List.range n).map fun i : Nat => mem ⟨.src, (mem ⟨.idx, i, 0⟩).floor, 0⟩).sum ∧ ∀ a, a.obj ≠ .priv → result a = mem a := by
  obtain ⟨r, h1, _, _, h4, h5⟩ := det_reduce s (own := fun _ _ => False) (ro := fun a => a.obj = .src ∨ a.obj = .idx) (body := sumIdxBody) (mem := mem)
    (f := fun i => mem ⟨.src, (mem ⟨.idx, i, 0⟩).floor, 0⟩) (g := fun _ => 0)
    (fun t i => ⟨Or.inr (Or.inr rfl), fun _ => ⟨Or.inr (Or.inl rfl), fun _ => ⟨Or.inl (Or.inl rfl), fun _ => ⟨Or.inl rfl, trivial⟩⟩⟩⟩)
    (fun _ _ _ h => h.elim) (fun _ _ h => h.elim)
    (fun _ _ h => h.elim) (fun a h => by rcases h with h | h <;> rw [h] <;> decide)
    (fun t i m hm => by
      have e : (sumIdxBody t i).run m (privAt t) = m (privAt t) + m ⟨.src, (m ⟨.idx, i, 0⟩).floor, 0⟩ := if_pos rfl
      rw [e, hm ⟨.idx, i, 0⟩ (Or.inr rfl), hm ⟨.src, (mem ⟨.idx, i, 0⟩).floor, 0⟩ (Or.inl rfl)])
    (fun _ _ _ _ _ h => h.elim)
  exact ⟨r, h1, h5, fun a ha => h4 a ha fun _ _ h => h⟩

/-- **C85, the deviations of one layer.** -/
theorem C85_deviation (ex mean : ℚ) : ∃ result : Mem, Deterministic (parReduce s (devBody ex mean)) mem result ∧
    total s.threads result = ((List.range n).map fun i : Nat => if floatEqual (mem ⟨.src, i, 0⟩) ex then 0 else (mem ⟨.src, i, 0⟩ - mean) ^ 2).sum ∧
    ∀ a, a.obj ≠ .priv → result a = mem a := by
  obtain ⟨r, h1, _, _, h4, h5⟩ := det_reduce s (own := fun _ _ => False) (ro := fun a => a.obj = .src) (body := devBody ex mean) (mem := mem)
    (f := fun i => if floatEqual (mem ⟨.src, i, 0⟩) ex then 0 else (mem ⟨.src, i, 0⟩ - mean) ^ 2) (g := fun _ => 0)
    (fun t i => ⟨Or.inr rfl, fun v => by
      dsimp only
      by_cases h : floatEqual v ex
      · rw [if_pos h]; trivial
      · rw [if_neg h]; exact ⟨Or.inr rfl, fun _ => ⟨Or.inr rfl, fun _ => ⟨Or.inl (Or.inl rfl), fun _ => ⟨Or.inl rfl, trivial⟩⟩⟩⟩⟩)
    (fun _ _ _ h => h.elim) (fun _ _ h => h.elim) (fun _ _ h => h.elim) (fun a h => by rw [h]; decide)
    (fun t i m hm => by
      have e : (devBody ex mean t i).run m = (if floatEqual (m ⟨.src, i, 0⟩) ex then Prog.done
        else .read ⟨.src, i, 0⟩ fun v1 => .read ⟨.src, i, 0⟩ fun v2 => .read (privAt t) fun s =>
          .write (privAt t) (s + (v1 - mean) * (v2 - mean)) .done).run m := rfl
      rw [e, hm ⟨.src, i, 0⟩ rfl]
      by_cases h : floatEqual (mem ⟨.src, i, 0⟩) ex
      · rw [if_pos h, if_pos h, add_zero]; rfl
      · rw [if_neg h, if_neg h]
        have e : (Prog.read ⟨.src, i, 0⟩ fun v1 => .read ⟨.src, i, 0⟩ fun v2 => .read (privAt t) fun s =>
          .write (privAt t) (s + (v1 - mean) * (v2 - mean)) .done).run m (privAt t) =
          m (privAt t) + (m ⟨.src, i, 0⟩ - mean) * (m ⟨.src, i, 0⟩ - mean) := if_pos rfl
        rw [e, hm ⟨.src, i, 0⟩ rfl, sq])
    (fun _ _ _ _ _ h => h.elim)
  exact ⟨r, h1, h5, fun a ha => h4 a ha fun _ _ h => h⟩

/-- **C85, the deviations of layer `j` of several.** -/
theorem C85_deviation_layer (ex : ℚ) (j : Nat) : ∃ result : Mem, Deterministic (parReduce s (dev2Body ex j)) mem result ∧
    total s.threads result = ((List.range n).map fun i : Nat =>
      if floatEqual (mem ⟨.src, i, j⟩) ex then 0 else (mem ⟨.src, i, j⟩ - mem ⟨.stats, 1, j⟩) ^ 2).sum ∧
    ∀ a, a.obj ≠ .priv → result a = mem a := by
  obtain ⟨r, h1, _, _, h4, h5⟩ := det_reduce s (own := fun _ _ => False) (ro := fun a => a.obj = .src ∨ a.obj = .stats) (body := dev2Body ex j)
    (mem := mem) (f := fun i => if floatEqual (mem ⟨.src, i, j⟩) ex then 0 else (mem ⟨.src, i, j⟩ - mem ⟨.stats, 1, j⟩) ^ 2) (g := fun _ => 0)
    (fun t i => ⟨Or.inr (Or.inl rfl), fun v => by
      dsimp only
      by_cases h : floatEqual v ex
      · rw [if_pos h]; trivial
      · rw [if_neg h]
        exact ⟨Or.inr (Or.inl rfl), fun _ => ⟨Or.inr (Or.inr rfl), fun _ => ⟨Or.inr (Or.inl rfl), fun _ => ⟨Or.inr (Or.inr rfl), fun _ =>
          ⟨Or.inl (Or.inl rfl), fun _ => ⟨Or.inl rfl, trivial⟩⟩⟩⟩⟩⟩⟩)
    (fun _ _ _ h => h.elim) (fun _ _ h => h.elim) (fun _ _ h => h.elim) (fun a h => by rcases h with h | h <;> rw [h] <;> decide)
    (fun t i m hm => by
      have e : (dev2Body ex j t i).run m = (if floatEqual (m ⟨.src, i, j⟩) ex then Prog.done
        else .read ⟨.src, i, j⟩ fun v1 => .read ⟨.stats, 1, j⟩ fun m1 => .read ⟨.src, i, j⟩ fun v2 => .read ⟨.stats, 1, j⟩ fun m2 =>
          .read (privAt t) fun s => .write (privAt t) (s + (v1 - m1) * (v2 - m2)) .done).run m := rfl
      rw [e, hm ⟨.src, i, j⟩ (Or.inl rfl)]
      by_cases h : floatEqual (mem ⟨.src, i, j⟩) ex
      · rw [if_pos h, if_pos h, add_zero]; rfl
      · rw [if_neg h, if_neg h]
        have e : (Prog.read ⟨.src, i, j⟩ fun v1 => .read ⟨.stats, 1, j⟩ fun m1 => .read ⟨.src, i, j⟩ fun v2 => .read ⟨.stats, 1, j⟩ fun m2 =>
          .read (privAt t) fun s => .write (privAt t) (s + (v1 - m1) * (v2 - m2)) .done).run m (privAt t) =
          m (privAt t) + (m ⟨.src, i, j⟩ - m ⟨.stats, 1, j⟩) * (m ⟨.src, i, j⟩ - m ⟨.stats, 1, j⟩) := if_pos rfl
        rw [e, hm ⟨.src, i, j⟩ (Or.inl rfl), hm ⟨.stats, 1, j⟩ (Or.inr rfl), sq])
    (fun _ _ _ _ _ h => h.elim)
  exact ⟨r, h1, h5, fun a ha => h4 a ha fun _ _ h => h⟩

/-- **C85, cells for an integer GeoTIFF.** All cells are converted, and the private counters add up to the number of cells that do not
fit: whether the output is refused does not depend on the execution. -/
theorem C85_convert (lo hi sent nd : ℚ) (chg : Bool) (cast : ℚ → ℚ) :
    ∃ result : Mem, Deterministic (parReduce s (convBody lo hi sent nd chg cast)) mem result ∧
      (∀ i : Nat, i < n → result ⟨.conv, i, 0⟩ = if floatEqual (mem ⟨.src, i, 0⟩) nd && chg then sent else cast (mem ⟨.src, i, 0⟩)) ∧
      (∀ a, a.obj ≠ .priv → ¬ (a.obj = .conv ∧ a.col = 0 ∧ 0 ≤ a.row ∧ a.row < (n : Int)) → result a = mem a) ∧
      total s.threads result = (((List.range n).filter fun i : Nat => misfit lo hi nd chg (mem ⟨.src, i, 0⟩)).length : ℚ) := by
  have hrun : ∀ (t i : Nat) (m : Mem), (convBody lo hi sent nd chg cast t i).run m =
      if floatEqual (m ⟨.src, i, 0⟩) nd && chg then m.set ⟨.conv, i, 0⟩ sent
      else if m ⟨.src, i, 0⟩ < lo ∨ m ⟨.src, i, 0⟩ > hi then
        (m.set (privAt t) (m (privAt t) + 1)).set ⟨.conv, i, 0⟩ (cast (m ⟨.src, i, 0⟩))
      else m.set ⟨.conv, i, 0⟩ (cast (m ⟨.src, i, 0⟩)) := by
    intro t i m
    have e : (convBody lo hi sent nd chg cast t i).run m = (if floatEqual (m ⟨.src, i, 0⟩) nd && chg then Prog.write ⟨.conv, i, 0⟩ sent .done
        else .read ⟨.src, i, 0⟩ fun v1 =>
          if v1 < lo ∨ v1 > hi then
            .read (privAt t) fun c => .write (privAt t) (c + 1) <| .read ⟨.src, i, 0⟩ fun v2 => .write ⟨.conv, i, 0⟩ (cast v2) .done
          else .read ⟨.src, i, 0⟩ fun v2 => .write ⟨.conv, i, 0⟩ (cast v2) .done).run m := rfl
    rw [e]
    by_cases h : floatEqual (m ⟨.src, i, 0⟩) nd && chg
    · rw [if_pos h, if_pos h]; rfl
    · rw [if_neg h, if_neg h]
      have e : (Prog.read ⟨.src, i, 0⟩ fun v1 =>
          if v1 < lo ∨ v1 > hi then
            .read (privAt t) fun c => .write (privAt t) (c + 1) <| .read ⟨.src, i, 0⟩ fun v2 => .write ⟨.conv, i, 0⟩ (cast v2) .done
          else .read ⟨.src, i, 0⟩ fun v2 => .write ⟨.conv, i, 0⟩ (cast v2) .done).run m =
        (if m ⟨.src, i, 0⟩ < lo ∨ m ⟨.src, i, 0⟩ > hi then
            Prog.read (privAt t) fun c => .write (privAt t) (c + 1) <| .read ⟨.src, i, 0⟩ fun v2 => .write ⟨.conv, i, 0⟩ (cast v2) .done
          else .read ⟨.src, i, 0⟩ fun v2 => .write ⟨.conv, i, 0⟩ (cast v2) .done).run m := rfl
      rw [e]
      by_cases h : m ⟨.src, i, 0⟩ < lo ∨ m ⟨.src, i, 0⟩ > hi
      · rw [if_pos h, if_pos h]
        have e : (Prog.read (privAt t) fun c => .write (privAt t) (c + 1) <| .read ⟨.src, i, 0⟩ fun v2 => .write ⟨.conv, i, 0⟩ (cast v2) .done).run m =
          (m.set (privAt t) (m (privAt t) + 1)).set ⟨.conv, i, 0⟩ (cast ((m.set (privAt t) (m (privAt t) + 1)) ⟨.src, i, 0⟩)) := rfl
        rw [e, set_ne m _ (by unfold privAt; simp)]
      · rw [if_neg h, if_neg h]; rfl
  obtain ⟨r, h1, _, h3, h4, h5⟩ := det_reduce s (own := fun i a => a = ⟨.conv, i, 0⟩) (ro := fun a => a.obj = .src)
    (body := convBody lo hi sent nd chg cast) (mem := mem)
    (f := fun i => if misfit lo hi nd chg (mem ⟨.src, i, 0⟩) then 1 else 0)
    (g := fun a => if floatEqual (mem ⟨.src, a.row, 0⟩) nd && chg then sent else cast (mem ⟨.src, a.row, 0⟩))
    (fun t i => ⟨Or.inr rfl, fun v => by
      dsimp only
      by_cases h : floatEqual v nd && chg
      · rw [if_pos h]; exact ⟨Or.inr rfl, trivial⟩
      · rw [if_neg h]
        refine ⟨Or.inr rfl, fun v1 => ?_⟩
        dsimp only
        by_cases h : v1 < lo ∨ v1 > hi
        · rw [if_pos h]; exact ⟨Or.inl (Or.inl rfl), fun _ => ⟨Or.inl rfl, Or.inr rfl, fun _ => ⟨Or.inr rfl, trivial⟩⟩⟩
        · rw [if_neg h]; exact ⟨Or.inr rfl, fun _ => ⟨Or.inr rfl, trivial⟩⟩⟩)
    (by
      intro i j a h h'
      rw [h] at h'; injection h' with _ h' _; omega)
    (by intro i a h h'; rw [h] at h'; cases h') (by intro i a h; rw [h]; simp) (fun a h => by rw [h]; decide)
    (by
      intro t i m hm
      rw [hrun, hm ⟨.src, i, 0⟩ rfl]
      have hne : privAt t ≠ ⟨.conv, i, 0⟩ := by unfold privAt; simp
      unfold misfit
      by_cases h : floatEqual (mem ⟨.src, i, 0⟩) nd && chg
      · rw [if_pos h, set_ne _ _ hne, h]; simp
      · rw [if_neg h]
        by_cases h' : mem ⟨.src, i, 0⟩ < lo ∨ mem ⟨.src, i, 0⟩ > hi
        · rw [if_pos h', set_ne _ _ hne, if_pos (by simp only [h, h']; decide)]
          exact if_pos rfl
        · rw [if_neg h', set_ne _ _ hne, if_neg (by simp only [h', decide_false, Bool.and_false]; decide), add_zero])
    (by
      intro t i m a hm ha
      subst ha
      rw [hrun, hm ⟨.src, i, 0⟩ rfl]
      dsimp only
      by_cases h : floatEqual (mem ⟨.src, i, 0⟩) nd && chg
      · rw [if_pos h, if_pos h]; exact if_pos rfl
      · rw [if_neg h, if_neg h]
        by_cases h' : mem ⟨.src, i, 0⟩ < lo ∨ mem ⟨.src, i, 0⟩ > hi
        · rw [if_pos h']; exact if_pos rfl
        · rw [if_neg h']; exact if_pos rfl)
  refine ⟨r, h1, fun i hi => h3 i _ hi rfl, fun a ha hn => h4 a ha ?_, ?_⟩
  · intro i hi e
    subst e
    exact hn ⟨rfl, rfl, Int.natCast_nonneg i, Int.ofNat_lt.2 hi⟩
  · rw [h5]
    generalize List.range n = l
    induction l with
    | nil => rfl
    | cons i l ih =>
      rw [List.map_cons, List.sum_cons, ih]
      by_cases h : misfit lo hi nd chg (mem ⟨.src, i, 0⟩)
      · rw [if_pos h, List.filter_cons_of_pos (by exact h), List.length_cons]; push_cast; ring
      · rw [if_neg h, List.filter_cons_of_neg (by exact h), zero_add]

/-! ## The hypotheses are met, and the wrong loops are told apart -/

/-- Three threads, iterations dealt out in turn, one of them backwards. -/
def dealt : Sched 5 where
  threads := 3
  order := fun t => match t with
    | 0 => [3, 0]
    | 1 => [1, 4]
    | 2 => [2]
    | _ => []
  idle := by intro t h; match t, h with | t + 3, _ => rfl
  nodup := by intro t; match t with | 0 => decide | 1 => decide | 2 => decide | t + 3 => exact List.nodup_nil
  lt := by
    intro t i h
    match t, h with
    | 0, h => simp at h; omega
    | 1, h => simp at h; omega
    | 2, h => simp at h; omega
  cover := by
    intro i h
    match i, h with
    | 0, _ => exact ⟨0, by simp⟩
    | 1, _ => exact ⟨1, by simp⟩
    | 2, _ => exact ⟨2, by simp⟩
    | 3, _ => exact ⟨0, by simp⟩
    | 4, _ => exact ⟨1, by simp⟩
  uniq := by
    intro i t t' h h'
    match t, t', h, h' with
    | 0, 0, _, _ => rfl
    | 0, 1, h, h' => simp at h h'; omega
    | 0, 2, h, h' => simp at h h'; omega
    | 1, 0, h, h' => simp at h h'; omega
    | 1, 1, _, _ => rfl
    | 1, 2, h, h' => simp at h h'; omega
    | 2, 0, h, h' => simp at h h'; omega
    | 2, 1, h, h' => simp at h h'; omega
    | 2, 2, _, _ => rfl

example : Deterministic (parFor dealt (fillBody 7)) (fun _ => 0) (put .data 5 (fun _ => 7) fun _ => 0) := C85_fill dealt _ 7

/-- A loop whose iterations all write the same element does have a race: the specification is not empty. -/
example : ¬ ∃ result, Deterministic (parFor dealt fun _ => .write ⟨.data, 0, 0⟩ 1 .done) (fun _ => 0) result := by
  rintro ⟨r, h⟩
  let p : Nat → Prog := parFor dealt fun _ => .write ⟨.data, 0, 0⟩ 1 .done
  let c1 : Conf := ⟨Function.update p 2 .done, Mem.set (fun _ => 0) ⟨.data, 0, 0⟩ 1⟩
  have s1 : Step ⟨p, fun _ => 0⟩ ⟨2, true, ⟨.data, 0, 0⟩⟩ c1 := .write ⟨p, fun _ => 0⟩ 2 ⟨.data, 0, 0⟩ 1 .done rfl
  have hp : c1.prog 1 = .write ⟨.data, 0, 0⟩ 1 (.write ⟨.data, 0, 0⟩ 1 .done) := by
    show Function.update p 2 .done 1 = _
    rw [Function.update_of_ne (by decide)]; rfl
  have s2 := Step.write c1 1 ⟨.data, 0, 0⟩ 1 (.write ⟨.data, 0, 0⟩ 1 .done) hp
  refine h.norace _ _ (.cons s1 (.cons s2 (.nil _))) ?_
  exact ⟨⟨2, true, ⟨.data, 0, 0⟩⟩, List.mem_cons_self, ⟨1, true, ⟨.data, 0, 0⟩⟩, List.mem_cons_of_mem _ List.mem_cons_self, by decide, rfl, Or.inl rfl⟩

end CCGL.Par
