import Verif.Lemmas.SubObjArr
/-! The relation between the objects on the heap and the reference, and its preservation by the calls. -/
namespace CCGL
namespace SubObj
open Spec

/-- The plain members. -/
structure Mems (o : Obj) (x : Ref) : Prop where
  usable : o.usable = true
  n : o.nCells = x.shape.count
  lyrs : o.nLyrs = (match x.layers with | none => -1 | some ls => (ls.length : Int))
  srow : o.srow = x.shape.srow
  erow : o.erow = x.shape.erow
  scol : o.scol = x.shape.scol
  ecol : o.ecol = x.shape.ecol
  alloc : o.alloc = x.lender.isNone

/-- The buffer for several layers. -/
def Buf2 (c : Option Block) (n : Nat) : Option Nat → Prop
  | none => c = none
  | some m => 1 ≤ m ∧ ∃ l, c = some (.rows l) ∧ l.length = n ∧ ∀ r ∈ l, r.length = m

/-- The arrays. -/
structure Conts (c : Field → Option Block) (x : Ref) : Prop where
  ok : x.shape.Ok
  glob : c .glob = some (.ints (x.shape.cells.map (·.1)))
  lpos : c .lpos = some (.pairs (x.shape.cells.map (·.2)))
  lidx : c .lidx = some (.ints (x.shape.cells.map x.shape.index))
  data : ∀ b, c .data = some b → ∃ l, b = .dbls l ∧ l.length = x.shape.count
  data2 : Buf2 (c .data2) x.shape.count x.room
  unset : x.layers = none → c .data = none ∧ x.room = none
  ne : x.layers ≠ some []
  wid : ∀ ls, x.layers = some ls → ∀ v ∈ ls, v.length = x.shape.count
  one : ∀ v, x.layers = some [v] → c .data = some (.dbls v)
  many : ∀ ls, x.layers = some ls → 2 ≤ ls.length → ∃ l m, x.room = some m ∧ ls.length ≤ m ∧ c .data2 = some (.rows l) ∧
    ls = ofRows x.shape.count ls.length l

/-- The lender of the position arrays. -/
def Lent (w : World) (o : Obj) (x : Ref) : Prop :=
  ∀ j, x.lender = some j → ∃ oj, w.objs j = some oj ∧ oj.alloc = true ∧ ∀ f, f.IsPos → oj.ptr f = o.ptr f

structure Rel (w : World) (R : Refs) : Prop where
  mem : Mem w
  cnt : w.cnt = R.cnt
  dom : ∀ i, w.objs i = none ↔ R.objs i = none
  mems : ∀ i o x, w.objs i = some o → R.objs i = some x → Mems o x
  conts : ∀ i x, R.objs i = some x → Conts (cont w i) x
  lent : ∀ i o x, w.objs i = some o → R.objs i = some x → Lent w o x

theorem Rel.start : Rel World.start Refs.start := by
  refine ⟨Mem.start, rfl, fun _ => ⟨fun _ => rfl, fun _ => rfl⟩, ?_, ?_, ?_⟩
  · intro i o x h; cases h
  · intro i x h; cases h
  · intro i o x h; cases h

theorem Rel.obj {w R} (h : Rel w R) {i x} (hx : R.objs i = some x) : ∃ o, w.objs i = some o := by
  cases e : w.objs i with
  | none => rw [(h.dom i).1 e] at hx; cases hx
  | some o => exact ⟨o, rfl⟩

theorem Rel.ref {w R} (h : Rel w R) {i o} (ho : w.objs i = some o) : ∃ x, R.objs i = some x := by
  cases e : R.objs i with
  | none => rw [(h.dom i).2 e] at ho; cases ho
  | some x => exact ⟨x, rfl⟩

/-- A call that changes one object. -/
theorem Rel.update {w w' R} (h : Rel w R) {i : Nat} {o o' : Obj} {x x' : Ref} (ho : w.objs i = some o) (hx : R.objs i = some x)
    (hm : Mem w') (ho' : w'.objs i = some o') (hoth : ∀ k, k ≠ i → w'.objs k = w.objs k) (hc : w'.cnt = w.cnt)
    (hcont : ∀ k g, k ≠ i → (w.objs k).isSome = true → cont w' k g = cont w k g)
    (hp : ∀ f, f.IsPos → o'.ptr f = o.ptr f) (hl : x'.lender = x.lender)
    (h1 : Mems o' x') (h2 : Conts (cont w' i) x') : Rel w' (R.put i (some x')) := by
  have hal : o'.alloc = o.alloc := by rw [h1.alloc, (h.mems i o x ho hx).alloc, hl]
  have hlend : ∀ k ok xk, w.objs k = some ok → R.objs k = some xk → ∀ ok' : Obj, (∀ f, f.IsPos → ok'.ptr f = ok.ptr f) → Lent w' ok' xk := by
    intro k ok xk hok hxk ok' hpk j hj
    obtain ⟨oj, q1, q2, q3⟩ := h.lent k ok xk hok hxk j hj
    by_cases hji : j = i
    · subst hji
      rw [ho] at q1; cases q1
      exact ⟨o', ho', by rw [hal]; exact q2, fun f hf => by rw [hp f hf, q3 f hf, hpk f hf]⟩
    · exact ⟨oj, by rw [hoth j hji]; exact q1, q2, fun f hf => by rw [q3 f hf, hpk f hf]⟩
  have hRi : (R.put i (some x')).objs i = some x' := by simp [Refs.put]
  have hRk : ∀ k, k ≠ i → (R.put i (some x')).objs k = R.objs k := fun k hk => by simp [Refs.put, hk]
  refine ⟨hm, by rw [hc, h.cnt]; rfl, ?_, ?_, ?_, ?_⟩
  · intro k
    by_cases hk : k = i
    · subst hk; rw [ho', hRi]; simp
    · rw [hoth k hk, hRk k hk]; exact h.dom k
  · intro k ok xk h3 h4
    by_cases hk : k = i
    · subst hk; rw [ho'] at h3; rw [hRi] at h4; cases h3; cases h4; exact h1
    · rw [hoth k hk] at h3; rw [hRk k hk] at h4; exact h.mems k ok xk h3 h4
  · intro k xk h4
    by_cases hk : k = i
    · subst hk; rw [hRi] at h4; cases h4; exact h2
    · rw [hRk k hk] at h4
      have : cont w' k = cont w k := by
        funext g
        obtain ⟨ok, hok⟩ := h.obj h4
        exact hcont k g hk (by rw [hok]; rfl)
      rw [this]; exact h.conts k xk h4
  · intro k ok xk h3 h4
    by_cases hk : k = i
    · subst hk; rw [ho'] at h3; rw [hRi] at h4; cases h3; cases h4
      intro j hj
      exact hlend k o x ho hx o' hp j (by rw [← hl]; exact hj)
    · rw [hoth k hk] at h3; rw [hRk k hk] at h4
      exact hlend k ok xk h3 h4 ok (fun _ _ => rfl)

/-- A call that makes a new object. -/
theorem Rel.push {w w' R} (h : Rel w R) {o' : Obj} {x' : Ref} (hm : Mem w') (ho' : w'.objs w.cnt = some o')
    (hoth : ∀ k, k ≠ w.cnt → w'.objs k = w.objs k) (hc : w'.cnt = w.cnt + 1)
    (hcont : ∀ k g, k ≠ w.cnt → (w.objs k).isSome = true → cont w' k g = cont w k g)
    (h1 : Mems o' x') (h2 : Conts (cont w' w.cnt) x') (h3 : Lent w o' x') : Rel w' (R.push x') := by
  have hRi : (R.push x').objs w.cnt = some x' := by simp [Refs.push, h.cnt]
  have hRk : ∀ k, k ≠ w.cnt → (R.push x').objs k = R.objs k := fun k hk => by rw [h.cnt] at hk; simp [Refs.push, hk]
  have hlt : ∀ j oj, w.objs j = some oj → w'.objs j = some oj := by
    intro j oj hj
    rw [hoth j (Nat.ne_of_lt (h.mem.cnt j oj hj))]; exact hj
  refine ⟨hm, by rw [hc, h.cnt]; rfl, ?_, ?_, ?_, ?_⟩
  · intro k
    by_cases hk : k = w.cnt
    · rw [hk, ho', hRi]; simp
    · rw [hoth k hk, hRk k hk]; exact h.dom k
  · intro k ok xk h4 h5
    by_cases hk : k = w.cnt
    · rw [hk, ho'] at h4; rw [hk, hRi] at h5; cases h4; cases h5; exact h1
    · rw [hoth k hk] at h4; rw [hRk k hk] at h5; exact h.mems k ok xk h4 h5
  · intro k xk h5
    by_cases hk : k = w.cnt
    · rw [hk, hRi] at h5; cases h5; rw [hk]; exact h2
    · rw [hRk k hk] at h5
      have : cont w' k = cont w k := by
        funext g
        obtain ⟨ok, hok⟩ := h.obj h5
        exact hcont k g hk (by rw [hok]; rfl)
      rw [this]; exact h.conts k xk h5
  · intro k ok xk h4 h5 j hj
    by_cases hk : k = w.cnt
    · rw [hk, ho'] at h4; rw [hk, hRi] at h5; cases h4; cases h5
      obtain ⟨oj, q1, q2, q3⟩ := h3 j hj
      exact ⟨oj, hlt j oj q1, q2, q3⟩
    · rw [hoth k hk] at h4; rw [hRk k hk] at h5
      obtain ⟨oj, q1, q2, q3⟩ := h.lent k ok xk h4 h5 j hj
      exact ⟨oj, hlt j oj q1, q2, q3⟩

/-! #### data of one layer -/

theorem set_set (w : World) (i : Nat) (o o' : Obj) : (w.set i o).set i o' = w.set i o' := by
  unfold World.set
  congr 1
  funext k
  by_cases hk : k = i
  · rw [hk, upd_same, upd_same]
  · rw [upd_ne _ _ hk, upd_ne _ _ hk]; exact upd_ne _ _ hk

theorem not_pos_data : ¬ Field.IsPos .data := fun h => h
theorem not_pos_data2 : ¬ Field.IsPos .data2 := fun h => h

/-- One layer has been put into `data_` of object `i` whose members are now `o'`. -/
theorem Rel.one {w w' R} (h : Rel w R) {i : Nat} {o o' : Obj} {x : Ref} (ho : w.objs i = some o) (hx : R.objs i = some x)
    {v : List ℚ} (hv : v.length = x.shape.count)
    (hm : Mem w') (ho' : w'.objs i = some o') (hoth : ∀ k, k ≠ i → w'.objs k = w.objs k) (hc : w'.cnt = w.cnt)
    (hnew : cont w' i .data = some (.dbls v))
    (hcont : ∀ k g, (k, g) ≠ (i, Field.data) → (w.objs k).isSome = true → cont w' k g = cont w k g)
    (hp : ∀ f, f.IsPos → o'.ptr f = o.ptr f)
    (hu : o'.usable = true) (hl : o'.nLyrs = 1) (hr : o'.nCells = o.nCells ∧ o'.srow = o.srow ∧ o'.erow = o.erow ∧
      o'.scol = o.scol ∧ o'.ecol = o.ecol ∧ o'.alloc = o.alloc) : Rel w' (R.put i (some (x.give [v]))) := by
  have hM := h.mems i o x ho hx
  have hC := h.conts i x hx
  have hs : (w.objs i).isSome = true := by rw [ho]; rfl
  have he : ∀ g, g ≠ Field.data → cont w' i g = cont w i g := fun g hg => hcont i g (by simp [hg]) hs
  have hroom : (x.give [v]).room = x.room := by simp [Ref.give]
  refine h.update ho hx hm ho' hoth hc (fun k g hk => hcont k g (by simp [hk])) hp rfl ?_ ?_
  · refine ⟨hu, by rw [hr.1, hM.n]; rfl, ?_, by rw [hr.2.1, hM.srow]; rfl, by rw [hr.2.2.1, hM.erow]; rfl,
      by rw [hr.2.2.2.1, hM.scol]; rfl, by rw [hr.2.2.2.2.1, hM.ecol]; rfl, by rw [hr.2.2.2.2.2, hM.alloc]; rfl⟩
    rw [hl]; rfl
  · refine ⟨hC.ok, ?_, ?_, ?_, ?_, ?_, ?_, ?_, ?_, ?_, ?_⟩
    · rw [he _ (by simp)]; exact hC.glob
    · rw [he _ (by simp)]; exact hC.lpos
    · rw [he _ (by simp)]; exact hC.lidx
    · intro b hb
      rw [hnew] at hb; cases hb
      exact ⟨v, rfl, hv⟩
    · rw [hroom, he _ (by simp)]; exact hC.data2
    · intro e; cases e
    · intro e; cases e
    · intro ls e v' hv'
      cases e
      simp only [List.mem_singleton] at hv'
      rw [hv']; exact hv
    · intro v' e; cases e; exact hnew
    · intro ls e h2; cases e; simp at h2

theorem setData_sim {w R} (h : Rel w R) {i : Nat} {x : Ref} (hx : R.objs i = some x) {o : Obj} (ho : w.objs i = some o) (k : Int)
    (l : List ℚ) (hl : x.shape.count ≤ l.length) :
    ∃ w', setData (w.set i { o with nLyrs := k }) i x.shape.count (some l) = .ok (w', true) ∧
      Rel w' (R.put i (some (x.give [l.take x.shape.count]))) := by
  have hM := h.mems i o x ho hx
  have hC := h.conts i x hx
  have hget : (w.set i { o with nLyrs := k }).get i = .ok { o with nLyrs := k } := get_ok (upd_same _ _ _)
  obtain ⟨hm1, hc1⟩ := h.mem.set ho (o' := { o with nLyrs := 1, usable := true }) rfl rfl
  have ho1 : (w.set i { o with nLyrs := 1, usable := true }).objs i = some { o with nLyrs := 1, usable := true } := upd_same _ _ _
  have hoth1 : ∀ j, j ≠ i → (w.set i { o with nLyrs := 1, usable := true }).objs j = w.objs j := fun j hj => upd_ne _ _ hj
  have hs1 : ∀ j, (w.objs j).isSome = true → ((w.set i { o with nLyrs := 1, usable := true }).objs j).isSome = true := by
    intro j hj
    by_cases hji : j = i
    · rw [hji, ho1]; rfl
    · rw [hoth1 j hji]; exact hj
  have hlen : (l.take x.shape.count).length = x.shape.count := by simp; omega
  unfold setData
  rw [hget, Out.ok_bind]
  simp only
  rw [if_neg (by rw [hM.n]; simp), set_set]
  cases e : o.ptr .data with
  | none =>
    simp only
    have hcp : copy1 o.nCells l = .ok (l.take x.shape.count) := by rw [hM.n]; exact copy1_take _ l hl
    rw [hcp, Out.ok_bind]
    obtain ⟨w', a, hw', hP⟩ := hm1.place ho1 (f := .data) (.dbls (l.take x.shape.count)) e (fun h' => absurd h' not_pos_data)
    rw [hw', Out.ok_bind]
    refine ⟨w', rfl, ?_⟩
    refine h.one ho hx hlen hP.mem hP.obj (fun j hj => by rw [hP.others j hj, hoth1 j hj]) hP.cnt hP.new
      (fun j g hne hj => by rw [hP.same j g hne (hs1 j hj), hc1]) ?_ rfl rfl ⟨rfl, rfl, rfl, rfl, rfl, rfl⟩
    intro f hf
    exact upd_ne _ _ (by intro e'; rw [e'] at hf; exact hf)
  | some a =>
    simp only
    obtain ⟨b, hb⟩ := h.mem.live i o .data a ho e
    obtain ⟨old, rfl, hold⟩ := hC.data b (by rw [cont_some ho e, hb])
    have hd : (w.set i { o with nLyrs := 1, usable := true }).dbls (some a) = .ok old := by
      have := dbls_of_cont (f := .data) ho1 (l := old) (by rw [hc1, cont_some ho e, hb])
      rw [show ({ o with nLyrs := 1, usable := true } : Obj).ptr .data = some a from e] at this
      exact this
    have how : overwrite o.nCells old l = .ok (l.take x.shape.count) := by rw [hM.n]; exact overwrite_all _ old l hold hl
    rw [hd, Out.ok_bind, how, Out.ok_bind]
    have hP := hm1.store (.dbls (l.take x.shape.count)) ho1 (f := .data) (a := a) e not_pos_data
    refine ⟨_, rfl, ?_⟩
    exact h.one ho hx hlen hP.mem hP.obj (fun j hj => by rw [hP.others j hj, hoth1 j hj]) hP.cnt hP.new
      (fun j g hne hj => by rw [hP.same j g hne (hs1 j hj), hc1]) (fun _ _ => rfl) rfl rfl ⟨rfl, rfl, rfl, rfl, rfl, rfl⟩

end SubObj
end CCGL
