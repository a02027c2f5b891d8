import Verif.Lemmas.ParMem
/-! # Loops that write one element, one row, or add to a private copy -/
namespace CCGL.Par
open CCGL.Par.Spec

theorem row_toNat {r : Int} {i : Nat} (h : r = i) : r.toNat = i := by omega

/-- Each iteration writes within its row of one array. -/
theorem det_rows {n : Nat} (s : Sched n) {ro : Addr → Prop} {body : Nat → Prog} {mem result : Mem} (o : Obj)
    (hc : ∀ i : Nat, Confined (fun a => a.obj = o ∧ a.row = (i : Int)) ro (body i)) (hr : ∀ a, ro a → a.obj ≠ o)
    (h1 : ∀ (i : Nat) a, i < n → a.obj = o → a.row = (i : Int) → result a = (body i).run mem a)
    (h2 : ∀ a, ¬ (a.obj = o ∧ 0 ≤ a.row ∧ a.row < (n : Int)) → result a = mem a) :
    Deterministic (parFor s body) mem result := by
  refine det_parFor s (own := fun i a => a.obj = o ∧ a.row = (i : Int)) (ro := ro) hc ?_ ?_ ?_ ?_
  · rintro i j a ⟨_, h⟩ ⟨_, h'⟩; omega
  · rintro i a ⟨h, _⟩ h'; exact hr a h' h
  · rintro i a hi ⟨h, h'⟩; exact h1 i a hi h h'
  · intro a ha
    refine h2 a ?_
    rintro ⟨h, h', h''⟩
    exact ha a.row.toNat (by omega) ⟨h, by omega⟩

/-- Each iteration writes one element of a one-dimensional array. -/
theorem det_single {n : Nat} (s : Sched n) {ro : Addr → Prop} {body : Nat → Prog} {mem : Mem} (o : Obj) (f : Nat → ℚ)
    (hc : ∀ i : Nat, Confined (fun a => a.obj = o ∧ a.row = (i : Int)) ro (body i)) (hr : ∀ a, ro a → a.obj ≠ o)
    (h1 : ∀ i : Nat, (body i).run mem = mem.set ⟨o, i, 0⟩ (f i)) :
    Deterministic (parFor s body) mem (put o n f mem) := by
  refine det_rows s o hc hr ?_ ?_
  · intro i a hi h h'
    rw [h1 i]
    unfold put put2 Mem.set
    obtain ⟨ao, ar, ac⟩ := a
    dsimp only at h h' ⊢
    subst h; subst h'
    by_cases q : ac = 0
    · subst q
      rw [if_pos ⟨rfl, ⟨by omega, by omega⟩, by omega, by omega⟩, if_pos rfl]; rfl
    · rw [if_neg (by rintro ⟨_, _, x, y⟩; exact q (by omega)), if_neg]
      intro e; injection e with _ _ e; exact q e
  · intro a ha
    unfold put put2
    rw [if_neg]
    rintro ⟨x, y, _⟩; exact ha ⟨x, y⟩

/-- A loop over columns inside an iteration: each step writes one element. -/
theorem run_cols {ro : Addr → Prop} (o : Obj) (i : Int) (c : Nat → Int) (hcinj : ∀ j k, c j = c k → j = k) {body : Nat → Prog} {m : Mem} (k : Nat) (f : Nat → ℚ)
    (hc : ∀ j, Confined (fun a => a = ⟨o, i, c j⟩) ro (body j)) (hr : ∀ a, ro a → a.obj ≠ o)
    (h1 : ∀ j, (body j).run m ⟨o, i, c j⟩ = f j) :
    (∀ j, j < k → (forEach (List.range k) body).run m ⟨o, i, c j⟩ = f j) ∧
    (∀ a, (∀ j, j < k → a ≠ ⟨o, i, c j⟩) → (forEach (List.range k) body).run m a = m a) := by
  refine ⟨fun j hj => ?_, fun a ha => ?_⟩
  · have := run_iterations (own := fun j a => a = ⟨o, i, c j⟩) (ro := ro) (body := body) (l := List.range k) (m := m)
      (by
        intro j k a h h'
        rw [h] at h'
        injection h' with _ _ h'
        exact hcinj _ _ h')
      (by intro j a h h'; subst h; exact hr _ h' rfl) (fun j _ => hc j) List.nodup_range j (List.mem_range.2 hj) _ rfl
    rw [this, h1]
  · have hconf : Confined (fun a => ∃ j, j < k ∧ a = ⟨o, i, c j⟩) ro (forEach (List.range k) body) :=
      Confined.forEach fun j hj => (hc j).mono fun b hb => ⟨j, List.mem_range.1 hj, hb⟩
    refine run_frame hconf a ?_
    rintro ⟨j, hj, h⟩
    exact ha j hj h

theorem sum_parts {n : Nat} (s : Sched n) (f : Nat → ℚ) :
    ((List.range s.threads).map fun t => ((s.order t).map f).sum).sum = ((List.range n).map f).sum := by
  have hperm : ((List.range s.threads).flatMap s.order).Perm (List.range n) := by
    refine (List.perm_ext_iff_of_nodup ?_ List.nodup_range).2 ?_
    · refine List.nodup_flatMap.2 ⟨fun t _ => s.nodup t, ?_⟩
      refine List.Pairwise.imp_of_mem ?_ (List.nodup_range (n := s.threads))
      intro t t' _ _ h
      intro i hi hi'
      exact h (s.uniq _ _ _ hi hi')
    · intro i
      rw [List.mem_flatMap, List.mem_range]
      constructor
      · rintro ⟨t, _, hi⟩; exact s.lt t i hi
      · intro hi
        obtain ⟨t, ht⟩ := s.cover i hi
        refine ⟨t, List.mem_range.2 ?_, ht⟩
        by_contra hn
        rw [s.idle t (not_lt.1 hn)] at ht
        simp at ht
  have := (hperm.map f).sum_eq
  rw [← this, List.map_flatMap]
  generalize List.range s.threads = l
  induction l with
  | nil => rfl
  | cons t l ih => rw [List.map_cons, List.sum_cons, List.flatMap_cons, List.sum_append, ih]

/-- The iterations of one thread of a reduction. -/
theorem run_reduce {own : Nat → Addr → Prop} {ro : Addr → Prop} {mem : Mem} {f : Nat → ℚ} {g : Addr → ℚ} {body : Nat → Prog} (p : Addr)
    (hc : ∀ i, Confined (fun a => a = p ∨ own i a) ro (body i)) (hd : ∀ i j a, own i a → own j a → i = j)
    (hr : ∀ i a, own i a → ¬ ro a) (hp : ∀ i, ¬ own i p) (hpr : ¬ ro p)
    (hb1 : ∀ i m, (∀ a, ro a → m a = mem a) → (body i).run m p = m p + f i)
    (hb2 : ∀ i m a, (∀ a, ro a → m a = mem a) → own i a → (body i).run m a = g a) :
    ∀ (l : List Nat) (m : Mem), (∀ a, ro a → m a = mem a) → l.Nodup →
      (forEach l body).run m p = m p + (l.map f).sum ∧ ∀ i ∈ l, ∀ a, own i a → (forEach l body).run m a = g a
  | [], m, _, _ => ⟨by simp [forEach, Prog.run], fun i hi => by simp at hi⟩
  | j :: l, m, hm, hn => by
    have hm' : ∀ a, ro a → (body j).run m a = mem a := by
      intro a ha
      rw [run_frame (hc j) a, hm a ha]
      rintro (h | h)
      · exact hpr (h ▸ ha)
      · exact hr _ _ h ha
    obtain ⟨i1, i2⟩ := run_reduce p hc hd hr hp hpr hb1 hb2 l _ hm' (List.nodup_cons.1 hn).2
    rw [run_forEach_cons]
    refine ⟨?_, fun i hi a ha => ?_⟩
    · rw [i1, hb1 j m hm, List.map_cons, List.sum_cons]; ring
    · rcases List.mem_cons.1 hi with h | h
      · subst h
        have hconf : Confined (fun b => b = p ∨ ∃ k ∈ l, own k b) ro (forEach l body) :=
          Confined.forEach fun k hk => (hc k).mono fun b hb => hb.imp id fun hb => ⟨k, hk, hb⟩
        rw [run_frame hconf a, hb2 i m a hm ha]
        rintro (h | ⟨k, hk, hb⟩)
        · exact hp i (h ▸ ha)
        · have := hd _ _ _ ha hb
          subst this
          exact (List.nodup_cons.1 hn).1 hk
      · exact i2 i h a ha

/-- Reduction loops. -/
theorem det_reduce {n : Nat} (s : Sched n) {own : Nat → Addr → Prop} {ro : Addr → Prop} {body : Nat → Nat → Prog} {mem : Mem}
    {f : Nat → ℚ} {g : Addr → ℚ}
    (hc : ∀ t i, Confined (fun a => a = privAt t ∨ own i a) ro (body t i)) (hd : ∀ i j a, own i a → own j a → i = j)
    (hr : ∀ i a, own i a → ¬ ro a) (hp : ∀ i a, own i a → a.obj ≠ .priv) (hpr : ∀ a, ro a → a.obj ≠ .priv)
    (hb1 : ∀ t i m, (∀ a, ro a → m a = mem a) → (body t i).run m (privAt t) = m (privAt t) + f i)
    (hb2 : ∀ t i m a, (∀ a, ro a → m a = mem a) → own i a → (body t i).run m a = g a) :
    ∃ result : Mem, Deterministic (parReduce s body) mem result ∧
      (∀ t, t < s.threads → result (privAt t) = ((s.order t).map f).sum) ∧
      (∀ i a, i < n → own i a → result a = g a) ∧
      (∀ a, a.obj ≠ .priv → (∀ i, i < n → ¬ own i a) → result a = mem a) ∧
      total s.threads result = ((List.range n).map f).sum := by
  classical
  have hrun : ∀ t, t < s.threads → (parReduce s body t).run mem (privAt t) = ((s.order t).map f).sum ∧
      ∀ i ∈ s.order t, ∀ a, own i a → (parReduce s body t).run mem a = g a := by
    intro t ht
    have := run_reduce (p := privAt t) (own := own) (ro := ro) (mem := mem) (f := f) (g := g) (body := body t) (hc t) hd hr
      (fun i h => hp i _ h rfl) (fun h => hpr _ h rfl) (hb1 t) (hb2 t) (s.order t) (mem.set (privAt t) 0)
      (fun a ha => by unfold Mem.set; rw [if_neg (fun e : a = privAt t => hpr a ha (by rw [e]; rfl))]) (s.nodup t)
    have e : (parReduce s body t).run mem = (forEach (s.order t) (body t)).run (mem.set (privAt t) 0) := by
      unfold parReduce; rw [if_pos ht]; rfl
    rw [e]
    refine ⟨?_, this.2⟩
    rw [this.1]
    unfold Mem.set
    rw [if_pos rfl, zero_add]
  have hcases : ∀ t i, i ∈ s.order t → t < s.threads := by
    intro t i hi
    by_contra hn
    rw [s.idle t (not_lt.1 hn)] at hi
    simp at hi
  have hpinj : ∀ t t', privAt t = privAt t' → t = t' := by
    intro t t' h
    unfold privAt at h
    injection h with _ h _
    omega
  let result : Mem := fun a =>
    if h : ∃ t, t < s.threads ∧ (a = privAt t ∨ ∃ i ∈ s.order t, own i a) then (parReduce s body h.choose).run mem a else mem a
  have hdis : ∀ t t' a, t < s.threads ∧ (a = privAt t ∨ ∃ i ∈ s.order t, own i a) →
      t' < s.threads ∧ (a = privAt t' ∨ ∃ i ∈ s.order t', own i a) → t = t' := by
    rintro t t' a ⟨_, h | ⟨i, hi, h⟩⟩ ⟨_, h' | ⟨j, hj, h'⟩⟩
    · exact hpinj _ _ (h.symm.trans h')
    · exact absurd (by rw [h]; rfl) (hp j a h')
    · exact absurd (by rw [h']; rfl) (hp i a h)
    · have := hd _ _ _ h h'
      subst this
      exact s.uniq _ _ _ hi hj
  have hres : ∀ t a, t < s.threads ∧ (a = privAt t ∨ ∃ i ∈ s.order t, own i a) → result a = (parReduce s body t).run mem a := by
    intro t a h
    have hex : ∃ t, t < s.threads ∧ (a = privAt t ∨ ∃ i ∈ s.order t, own i a) := ⟨t, h⟩
    have : result a = (parReduce s body hex.choose).run mem a := dif_pos hex
    rw [this, hdis _ _ _ hex.choose_spec h]
  have hpriv : ∀ t, t < s.threads → result (privAt t) = ((s.order t).map f).sum := by
    intro t ht
    rw [hres t _ ⟨ht, Or.inl rfl⟩, (hrun t ht).1]
  refine ⟨result, ?_, hpriv, ?_, ?_, ?_⟩
  · refine det_of_confined (own := fun t a => t < s.threads ∧ (a = privAt t ∨ ∃ i ∈ s.order t, own i a)) (ro := ro) s.threads ?_ ?_ hdis ?_
      hres ?_
    · intro t ht
      unfold parReduce; rw [if_neg (by omega)]
    · intro t
      by_cases ht : t < s.threads
      · unfold parReduce; rw [if_pos ht]
        refine ⟨⟨ht, Or.inl rfl⟩, Confined.forEach fun i hi => (hc t i).mono fun a ha => ⟨ht, ha.imp id fun ha => ⟨i, hi, ha⟩⟩⟩
      · unfold parReduce; rw [if_neg ht]; trivial
    · rintro t a ⟨_, h | ⟨i, _, h⟩⟩ h'
      · exact hpr a h' (by rw [h]; rfl)
      · exact hr i a h h'
    · intro a ha
      exact dif_neg (by rintro ⟨t, h⟩; exact ha t h)
  · intro i a hi ha
    obtain ⟨t, ht⟩ := s.cover i hi
    rw [hres t a ⟨hcases t i ht, Or.inr ⟨i, ht, ha⟩⟩, (hrun t (hcases t i ht)).2 i ht a ha]
  · intro a ha hown
    refine dif_neg ?_
    rintro ⟨t, _, h | ⟨i, hi, h⟩⟩
    · exact ha (by rw [h]; rfl)
    · exact hown i (s.lt t i hi) h
  · unfold total
    rw [← sum_parts s f]
    congr 1
    refine List.map_congr_left fun t ht => hpriv t (List.mem_range.1 ht)

end CCGL.Par
