import Verif.Spec.ParMem
import Mathlib.Algebra.BigOperators.Group.Finset.Basic
import Mathlib.Algebra.Order.BigOperators.Group.Finset
import Mathlib.Algebra.BigOperators.Group.Finset.Piecewise
import Mathlib.Tactic.Linarith
/-! # Threads that stay on their own data -/
namespace CCGL.Par
open CCGL.Par.Spec

/-- The program reads only `own` and `ro`, and writes only `own`. -/
def Confined (own ro : Addr → Prop) : Prog → Prop
  | .done => True
  | .read a k => (own a ∨ ro a) ∧ ∀ v, Confined own ro (k v)
  | .write a _ k => own a ∧ Confined own ro k

/-- The number of accesses of a program running alone. -/
def Prog.len : Prog → Mem → Nat
  | .done, _ => 0
  | .read a k, m => (k (m a)).len m + 1
  | .write a v k, m => k.len (m.set a v) + 1

theorem Confined.mono {own own' ro : Addr → Prop} (h : ∀ a, own a → own' a) : ∀ {p : Prog}, Confined own ro p → Confined own' ro p
  | .done, _ => trivial
  | .read _ _, hp => ⟨hp.1.imp (h _) id, fun v => Confined.mono h (hp.2 v)⟩
  | .write _ _ _, hp => ⟨h _ hp.1, Confined.mono h hp.2⟩

theorem Confined.seq {own ro : Addr → Prop} {q : Prog} (hq : Confined own ro q) : ∀ {p : Prog}, Confined own ro p → Confined own ro (p.seq q)
  | .done, _ => hq
  | .read _ _, hp => ⟨hp.1, fun v => Confined.seq hq (hp.2 v)⟩
  | .write _ _ _, hp => ⟨hp.1, Confined.seq hq hp.2⟩

theorem Confined.forEach {own ro : Addr → Prop} {body : Nat → Prog} : ∀ {l : List Nat}, (∀ i ∈ l, Confined own ro (body i)) →
    Confined own ro (forEach l body)
  | [], _ => trivial
  | i :: l, h => Confined.seq (Confined.forEach (fun j hj => h j (List.mem_cons_of_mem _ hj))) (h i List.mem_cons_self)

theorem run_seq : ∀ (p q : Prog) (m : Mem), (p.seq q).run m = q.run (p.run m)
  | .done, _, _ => rfl
  | .read a k, q, m => run_seq (k (m a)) q m
  | .write a v k, q, m => run_seq k q (m.set a v)

theorem run_forEach_nil (body : Nat → Prog) (m : Mem) : (forEach [] body).run m = m := rfl
theorem run_forEach_cons (i : Nat) (l : List Nat) (body : Nat → Prog) (m : Mem) :
    (forEach (i :: l) body).run m = (forEach l body).run ((body i).run m) := run_seq _ _ _

theorem run_frame {own ro : Addr → Prop} : ∀ {p : Prog} {m : Mem}, Confined own ro p → ∀ a, ¬ own a → p.run m a = m a
  | .done, _, _, _, _ => rfl
  | .read b k, m, h, a, ha => run_frame (p := k (m b)) (h.2 _) a ha
  | .write b v k, m, h, a, ha => by
    have := run_frame (p := k) (m := m.set b v) h.2 a ha
    have e : (Prog.write b v k).run m = k.run (m.set b v) := rfl
    rw [e, this]
    unfold Mem.set
    rw [if_neg (fun e : a = b => ha (e ▸ h.1))]

theorem run_congr {own ro : Addr → Prop} : ∀ {p : Prog} {m m' : Mem}, Confined own ro p → (∀ a, own a ∨ ro a → m a = m' a) →
    (∀ a, own a ∨ ro a → p.run m a = p.run m' a) ∧ p.len m = p.len m'
  | .done, _, _, _, h => ⟨h, rfl⟩
  | .read b k, m, m', hp, h => by
    have e := h b hp.1
    have r : (Prog.read b k).run m = (k (m b)).run m := rfl
    have r' : (Prog.read b k).run m' = (k (m' b)).run m' := rfl
    have l : (Prog.read b k).len m = (k (m b)).len m + 1 := rfl
    have l' : (Prog.read b k).len m' = (k (m' b)).len m' + 1 := rfl
    rw [r, r', l, l', ← e]
    have := run_congr (hp.2 (m b)) h
    exact ⟨this.1, by rw [this.2]⟩
  | .write b v k, m, m', hp, h => by
    have := run_congr (m := m.set b v) (m' := m'.set b v) hp.2 (fun a ha => by
      unfold Mem.set
      by_cases q : a = b
      · rw [if_pos q, if_pos q]
      · rw [if_neg q, if_neg q]; exact h a ha)
    refine ⟨this.1, ?_⟩
    show k.len _ + 1 = k.len _ + 1
    rw [this.2]

/-- What is true of every state of an execution of threads that stay on their own data. -/
structure Inv (own : Nat → Addr → Prop) (ro : Addr → Prop) (progs : Nat → Prog) (mem : Mem) (tr : List Event) (c : Conf) : Prop where
  conf : ∀ t, Confined (own t) ro (c.prog t)
  final : ∀ t a, own t a → (c.prog t).run c.mem a = (progs t).run mem a
  rest : ∀ a, (∀ t, ¬ own t a) → c.mem a = mem a
  count : ∀ t, (tr.filter (fun e => e.thread = t)).length + (c.prog t).len c.mem = (progs t).len mem
  access : ∀ e ∈ tr, if e.isWrite then own e.thread e.addr else own e.thread e.addr ∨ ro e.addr

theorem Steps.snoc {c c1 c2 : Conf} {tr : List Event} {e : Event} (h : Steps c tr c1) (s : Step c1 e c2) : Steps c (tr ++ [e]) c2 := by
  induction h with
  | nil c => exact .cons s (.nil _)
  | cons s1 _ ih => exact .cons s1 (ih s)

theorem Steps.rev {c c' : Conf} {tr : List Event} (h : Steps c tr c') (P : List Event → Conf → Prop) (h0 : P [] c)
    (hs : ∀ tr c1 e c2, P tr c1 → Step c1 e c2 → P (tr ++ [e]) c2) : P tr c' := by
  have key : ∀ {c c' : Conf} {tr : List Event}, Steps c tr c' → ∀ pre, P pre c → P (pre ++ tr) c' := by
    intro c c' tr h
    induction h with
    | nil c => intro pre hp; rwa [List.append_nil]
    | cons s _ ih =>
      intro pre hp
      have := ih _ (hs _ _ _ _ hp s)
      rwa [List.append_assoc] at this
  exact key h [] h0

theorem inv_steps {own : Nat → Addr → Prop} {ro : Addr → Prop} {progs : Nat → Prog} {mem : Mem}
    (hc : ∀ t, Confined (own t) ro (progs t)) (hd : ∀ t t' a, own t a → own t' a → t = t') (hr : ∀ t a, own t a → ¬ ro a)
    {tr : List Event} {c : Conf} (h : Steps ⟨progs, mem⟩ tr c) : Inv own ro progs mem tr c := by
  refine h.rev (fun tr c => Inv own ro progs mem tr c) ⟨hc, fun _ _ _ => rfl, fun _ _ => rfl, fun t => by simp, fun e he => by simp at he⟩ ?_
  intro tr c1 e c2 hi s
  cases s with
  | read t a k hk =>
    have hct := hi.conf t
    rw [hk] at hct
    refine ⟨fun t' => ?_, fun t' b hb => ?_, hi.rest, fun t' => ?_, fun e he => ?_⟩
    · by_cases q : t' = t
      · subst q; dsimp only; rw [Function.update_self]; exact hct.2 _
      · dsimp only; rw [Function.update_of_ne q]; exact hi.conf t'
    · by_cases q : t' = t
      · subst q
        have := hi.final t' b hb
        rw [hk] at this
        dsimp only; rw [Function.update_self]; exact this
      · dsimp only; rw [Function.update_of_ne q]; exact hi.final t' b hb
    · have hcnt := hi.count t'
      rw [List.filter_append, List.length_append]
      by_cases q : t' = t
      · subst q
        rw [hk] at hcnt
        have l : (Prog.read a k).len c1.mem = (k (c1.mem a)).len c1.mem + 1 := rfl
        dsimp only
        rw [Function.update_self, List.filter_cons_of_pos (by simp)]
        simp only [List.filter_nil, List.length_cons, List.length_nil]
        omega
      · dsimp only
        rw [Function.update_of_ne q, List.filter_cons_of_neg (by simp [Ne.symm q])]
        simp only [List.filter_nil, List.length_nil]
        omega
    · rcases List.mem_append.1 he with h | h
      · exact hi.access e h
      · rw [List.mem_singleton] at h
        subst h
        exact hct.1
  | write t a v k hk =>
    have hct := hi.conf t
    rw [hk] at hct
    have hset : ∀ t', t' ≠ t → ∀ b, own t' b ∨ ro b → c1.mem b = c1.mem.set a v b := by
      intro t' q b hb
      unfold Mem.set
      rw [if_neg]
      intro e
      subst e
      rcases hb with hb | hb
      · exact q (hd _ _ _ hb hct.1)
      · exact hr _ _ hct.1 hb
    refine ⟨fun t' => ?_, fun t' b hb => ?_, fun b hb => ?_, fun t' => ?_, fun e he => ?_⟩
    · by_cases q : t' = t
      · subst q; dsimp only; rw [Function.update_self]; exact hct.2
      · dsimp only; rw [Function.update_of_ne q]; exact hi.conf t'
    · by_cases q : t' = t
      · subst q
        have := hi.final t' b hb
        rw [hk] at this
        dsimp only; rw [Function.update_self]; exact this
      · dsimp only; rw [Function.update_of_ne q, ← hi.final t' b hb]
        exact ((run_congr (hi.conf t') (hset t' q)).1 b (Or.inl hb)).symm
    · have := hi.rest b hb
      dsimp only
      unfold Mem.set
      rw [if_neg (fun e : b = a => hb t (e ▸ hct.1)), this]
    · have hcnt := hi.count t'
      rw [List.filter_append, List.length_append]
      by_cases q : t' = t
      · subst q
        rw [hk] at hcnt
        have l : (Prog.write a v k).len c1.mem = k.len (c1.mem.set a v) + 1 := rfl
        dsimp only
        rw [Function.update_self, List.filter_cons_of_pos (by simp)]
        simp only [List.filter_nil, List.length_cons, List.length_nil]
        omega
      · dsimp only
        rw [Function.update_of_ne q, List.filter_cons_of_neg (by simp [Ne.symm q]), ← (run_congr (hi.conf t') (hset t' q)).2]
        simp only [List.filter_nil, List.length_nil]
        omega
    · rcases List.mem_append.1 he with h | h
      · exact hi.access e h
      · rw [List.mem_singleton] at h
        subst h
        exact hct.1

theorem length_le_filters (T : Nat) : ∀ tr : List Event, (∀ e ∈ tr, e.thread < T) →
    tr.length = ∑ t ∈ Finset.range T, (tr.filter (fun e => e.thread = t)).length
  | [], _ => by simp
  | e :: tr, h => by
    have ih := length_le_filters T tr (fun e he => h e (List.mem_cons_of_mem _ he))
    have h1 : ∀ t, ((e :: tr).filter (fun e => e.thread = t)).length = (if e.thread = t then 1 else 0) + (tr.filter (fun e => e.thread = t)).length := by
      intro t
      by_cases q : e.thread = t
      · rw [List.filter_cons_of_pos (by simpa using q), if_pos q, List.length_cons]; omega
      · rw [List.filter_cons_of_neg (by simpa using q), if_neg q]; omega
    rw [Finset.sum_congr rfl (fun t _ => h1 t), Finset.sum_add_distrib, ← ih, Finset.sum_ite_eq,
      if_pos (Finset.mem_range.2 (h e List.mem_cons_self)), List.length_cons]
    omega

/-- Threads that stay on their own data: the result does not depend on the execution. -/
theorem det_of_confined {own : Nat → Addr → Prop} {ro : Addr → Prop} {progs : Nat → Prog} {mem result : Mem} (T : Nat)
    (hT : ∀ t, T ≤ t → progs t = .done)
    (hc : ∀ t, Confined (own t) ro (progs t)) (hd : ∀ t t' a, own t a → own t' a → t = t') (hr : ∀ t a, own t a → ¬ ro a)
    (h1 : ∀ t a, own t a → result a = (progs t).run mem a) (h2 : ∀ a, (∀ t, ¬ own t a) → result a = mem a) :
    Deterministic progs mem result := by
  have hev : ∀ tr c, Steps ⟨progs, mem⟩ tr c → ∀ e ∈ tr, e.thread < T := by
    intro tr c h e he
    by_contra hn
    have hcnt := (inv_steps hc hd hr h).count e.thread
    rw [hT e.thread (not_lt.1 hn)] at hcnt
    have hm : e ∈ tr.filter (fun e' => e'.thread = e.thread) := List.mem_filter.2 ⟨he, by simp⟩
    have hl := List.length_pos_of_mem hm
    have : Prog.done.len mem = 0 := rfl
    omega
  refine ⟨fun tr c h => ?_, ⟨∑ t ∈ Finset.range T, (progs t).len mem, fun tr c h => ?_⟩, fun tr c h hf => ?_, fun tr c h hf => ?_⟩
  · rintro ⟨e1, m1, e2, m2, ne, ea, hw⟩
    have hi := inv_steps hc hd hr h
    have a1 := hi.access e1 m1
    have a2 := hi.access e2 m2
    rw [← ea] at a2
    rcases hw with hw | hw
    · rw [hw, if_pos rfl] at a1
      split_ifs at a2
      · exact ne (hd _ _ _ a1 a2)
      · rcases a2 with a2 | a2
        · exact ne (hd _ _ _ a1 a2)
        · exact hr _ _ a1 a2
    · rw [hw, if_pos rfl] at a2
      split_ifs at a1
      · exact ne (hd _ _ _ a1 a2)
      · rcases a1 with a1 | a1
        · exact ne (hd _ _ _ a1 a2)
        · exact hr _ _ a2 a1
  · rw [length_le_filters T tr (hev tr c h)]
    refine Finset.sum_le_sum fun t _ => ?_
    have := (inv_steps hc hd hr h).count t
    omega
  · unfold Finished at hf
    push Not at hf
    obtain ⟨t, ht⟩ := hf
    cases hp : c.prog t with
    | done => exact absurd hp ht
    | read a k => exact ⟨_, _, .read c t a k hp⟩
    | write a v k => exact ⟨_, _, .write c t a v k hp⟩
  · have hi := inv_steps hc hd hr h
    funext a
    by_cases q : ∃ t, own t a
    · obtain ⟨t, ht⟩ := q
      have := hi.final t a ht
      rw [hf t] at this
      rw [h1 t a ht, ← this]; rfl
    · push Not at q
      rw [h2 a q, hi.rest a q]

/-- A list of iterations that stay on their own data. -/
theorem run_iterations {own : Nat → Addr → Prop} {ro : Addr → Prop} {body : Nat → Prog}
    (hd : ∀ i j a, own i a → own j a → i = j) (hr : ∀ i a, own i a → ¬ ro a) :
    ∀ {l : List Nat} {m : Mem}, (∀ i ∈ l, Confined (own i) ro (body i)) → l.Nodup → ∀ i ∈ l, ∀ a, own i a →
      (forEach l body).run m a = (body i).run m a
  | [], _, _, _, _, hi, _, _ => by simp at hi
  | j :: l, m, hc, hn, i, hi, a, ha => by
    rw [run_forEach_cons]
    have hcl : ∀ i ∈ l, Confined (own i) ro (body i) := fun i hi => hc i (List.mem_cons_of_mem _ hi)
    rcases List.mem_cons.1 hi with h | h
    · subst h
      have hconf : Confined (fun b => ∃ k ∈ l, own k b) ro (forEach l body) :=
        Confined.forEach fun k hk => (hcl k hk).mono fun b hb => ⟨k, hk, hb⟩
      rw [run_frame hconf a]
      rintro ⟨k, hk, hb⟩
      have := hd _ _ _ ha hb
      subst this
      exact (List.nodup_cons.1 hn).1 hk
    · rw [run_iterations hd hr hcl (List.nodup_cons.1 hn).2 i h a ha]
      have hij : i ≠ j := fun e => (List.nodup_cons.1 hn).1 (e ▸ h)
      refine (run_congr (hcl i h) (fun b hb => ?_)).1 a (Or.inl ha)
      refine run_frame (hc j List.mem_cons_self) b (fun hjb => ?_)
      rcases hb with hb | hb
      · exact hij (hd _ _ _ hb hjb)
      · exact hr _ _ hjb hb

/-- Loops whose iterations stay on their own data. -/
theorem det_parFor {n : Nat} (s : Sched n) {own : Nat → Addr → Prop} {ro : Addr → Prop} {body : Nat → Prog} {mem result : Mem}
    (hc : ∀ i, Confined (own i) ro (body i)) (hd : ∀ i j a, own i a → own j a → i = j) (hr : ∀ i a, own i a → ¬ ro a)
    (h1 : ∀ i a, i < n → own i a → result a = (body i).run mem a) (h2 : ∀ a, (∀ i, i < n → ¬ own i a) → result a = mem a) :
    Deterministic (parFor s body) mem result := by
  refine det_of_confined (own := fun t a => ∃ i ∈ s.order t, own i a) (ro := ro) s.threads ?_ ?_ ?_ ?_ ?_ ?_
  · intro t ht
    unfold parFor; rw [s.idle t ht]; rfl
  · intro t
    exact Confined.forEach fun i hi => (hc i).mono fun a ha => ⟨i, hi, ha⟩
  · rintro t t' a ⟨i, hi, ha⟩ ⟨j, hj, hb⟩
    have := hd _ _ _ ha hb
    subst this
    exact s.uniq _ _ _ hi hj
  · rintro t a ⟨i, _, ha⟩
    exact hr i a ha
  · rintro t a ⟨i, hi, ha⟩
    rw [h1 i a (s.lt t i hi) ha]
    exact (run_iterations hd hr (fun i _ => hc i) (s.nodup t) i hi a ha).symm
  · intro a ha
    refine h2 a fun i hi hb => ?_
    obtain ⟨t, ht⟩ := s.cover i hi
    exact ha t ⟨i, ht, hb⟩

end CCGL.Par
