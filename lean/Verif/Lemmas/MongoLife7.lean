import Verif.Lemmas.MongoLife6
/-! Every allowed call ends normally, and what exists afterwards: the remaining cases. -/
namespace CCGL
namespace MLife

theorem good_wrap {w v : World} {c : Call} {b : Nat} (hs : step w c = .ok (v, .wrapper b)) (hi : Inv v) (hl : Live w c v (.wrapper b)) : Good w c :=
  ⟨v, .wrapper b, hs, hi, hl⟩

theorem inv_rdy {w : World} (h : Inv w) : Inv w.rdy := by
  refine ⟨h.up, h.cl, h.ab, h.kd, ?_, h.one⟩
  intro b k i hb hk
  obtain ⟨o, h0, h1, h2, h3⟩ := h.snd b k i hb hk
  refine ⟨o, h0, h1, h2, ?_⟩
  rcases h3 with h3 | h3 | ⟨_, h4, h5⟩
  · exact Or.inl h3
  · exact Or.inr (Or.inl h3)
  · exact Or.inr (Or.inr ⟨rfl, h4, h5⟩)

theorem good_init {w : World} (h : Inv w) (he : w.ended = false) (c1 c2 : Bool) : Good w (.init c1 c2) := by
  have hi := init_ok he c1 c2
  cases c1
  · refine ⟨w.rdy.add [⟨.buffer, false, []⟩], .unit, ?_, (inv_rdy h).add (GoodL.ext ⟨goodObj_nil _ _ _ _, trivial⟩),
      live_add (e := [⟨.buffer, false, []⟩]) rfl rfl (fun _ q => q) ?_⟩
    · show (init false c2 w >>= _) = _
      rw [hi]; rfl
    · intro j; simp [NewEx, Gained]
  · have hst : step w (.init true c2) = .ok ((w.rdy.add (⟨.buffer, false, []⟩ :: ⟨.client, false, []⟩ :: ⟨.buffer, false, []⟩ :: (if c2 then [⟨.client, true, []⟩] else []))).wr
          [⟨.client, if c2 then some (w.heap.length + 3) else none, true⟩], .wrapper w.wraps.length) := by
      show (init true c2 w >>= _) = _
      rw [hi]; rfl
    refine good_wrap hst ?_ (live_add (e := ⟨.buffer, false, []⟩ :: ⟨.client, false, []⟩ :: ⟨.buffer, false, []⟩ :: (if c2 then [⟨.client, true, []⟩] else [])) rfl rfl (fun _ q => q) ?_)
    · refine inv_wr ?_ .client _ true (by simp) (fun _ q => absurd rfl q)
      refine (inv_rdy h).add (GoodL.ext ⟨goodObj_nil _ _ _ _, goodObj_nil _ _ _ _, goodObj_nil _ _ _ _, ?_⟩)
      cases c2
      · trivial
      · exact ⟨goodObj_nil _ _ _ _, trivial⟩
    · intro j
      have := gained_wr (w.rdy.add (⟨.buffer, false, []⟩ :: ⟨.client, false, []⟩ :: ⟨.buffer, false, []⟩ :: (if c2 then [⟨.client, true, []⟩] else []))) .client
        (if c2 then some (w.heap.length + 3) else none) j
      have e1 : (w.rdy.add (⟨.buffer, false, []⟩ :: ⟨.client, false, []⟩ :: ⟨.buffer, false, []⟩ :: (if c2 then [⟨.client, true, []⟩] else []))).wraps.length = w.wraps.length := rfl
      rw [e1] at this
      rw [this]
      cases c2 <;> simp [NewEx, eq_comm]

/-- A wrapper object around an object that the program has. -/
theorem good_wrapOld {w : World} (h : Inv w) {c : Call} (k : Kind) (g : H) (hs : step w c = .ok (w.wr [⟨k, g, true⟩], .wrapper w.wraps.length))
    (hk : k = .client ∨ k = .database ∨ k = .collection ∨ k = .gridfs)
    (hg : ∀ i, g = some i → Sound w k i ∧ (k ≠ .client → Unheld w i)) (hl : Leaks c (.wrapper w.wraps.length) = none) (hr : ∀ i, ¬ Released w i c) : Good w c := by
  refine good_wrap hs (inv_wr h k g true hk (fun _ q i hi => ⟨(hg i hi).1, unheld_wr ((hg i hi).2 q)⟩)) (live_same rfl hl hr ?_)
  intro i q
  rw [gained_wr] at q
  exact (hg i q).1.ex

theorem good_deleteClient {w : World} (h : Inv w) {c : Nat} {g : H} (hc : Holds w c .client g) : Good w (.deleteClient c) := by
  refine ⟨endWrap c w, .unit, by simp only [step, getWrap_ok hc, Out.ok_bind, Out.pure_eq], inv_endWrap h c, live_same (endWrap_heap w c).1 rfl (fun _ q => q) (fun _ q => False.elim q)⟩

theorem good_destroyClient {w : World} (h : Inv w) {c : Nat} (hr : w.ready = true) (he : w.ended = false) {g : H} (hc : Holds w c .client g)
    (hg : g = none ∨ ∃ i, g = some i ∧ Sound w .client i) (hno : ∀ b k j, Holds w b k (some j) → k = .client) : Good w (.destroyClient c) := by
  have inv_end : ∀ v : World, Inv v → (∀ b k j, Holds v b k (some j) → k = .client) → Inv { v with ended := true } := by
    intro v hv hn
    exact ⟨hv.up, hv.cl, hv.ab, hv.kd, fun b k i hb hk => absurd (hn b k i hb) hk, hv.one⟩
  rcases hg with rfl | ⟨i, rfl, hs⟩
  · refine ⟨{ w with ended := true }, .unit, ?_, inv_end w h hno, live_same rfl rfl ?_ (fun _ q => False.elim q)⟩
    · simp only [step, destroyClient, getWrap_ok hc, Out.ok_bind, destroy, hr, he, Bool.not_true, Bool.or_self, Bool.false_eq_true, if_false, Out.pure_eq]
    · intro j q
      have := (holds_unique hc q).2
      cases this
  · obtain ⟨k1, k2, k3⟩ := kill_rest w i
    refine ⟨{ kill w i with ended := true }, .unit, ?_, ?_, live_kill rfl hs.ex rfl ?_⟩
    · simp only [step, destroyClient, getWrap_ok hc, Out.ok_bind, destroy_ok hs, k2, k3, hr, he, Bool.not_true, Bool.or_self, Bool.false_eq_true, if_false, Out.pure_eq]
    · refine inv_end _ (inv_kill_shape h hs.ex (fun b k j hb hk => absurd (hno b k j hb) hk)) ?_
      exact fun b k j hb => hno b k j (holds_kill.1 hb)
    · intro j
      constructor
      · intro q
        have := (holds_unique hc q).2
        injection this with this
        exact this.symm
      · rintro rfl; exact hc

/-- The destructors of the wrapper objects. -/
theorem good_drop {w : World} (h : Inv w) {c : Call} {b : Nat} {k : Kind} {g : H} (hb : Holds w b k g) (hk : k ≠ .client)
    (hs : step w c = ((do
      let x ← getWrap k b w
      let v ← destroy k x w
      return endWrap b v : Out World) >>= fun w => pure (w, .unit))) (hl : Leaks c .unit = none)
    (hr : ∀ i, Released w i c ↔ Holds w b k (some i)) : Good w c := by
  cases g with
  | none =>
    have hd : destroy k none w = .ok w := rfl
    refine ⟨endWrap b w, .unit, by rw [hs]; simp only [getWrap_ok hb, Out.ok_bind, hd, Out.pure_eq], inv_endWrap h b,
      live_same (endWrap_heap w b).1 hl ?_ (fun _ q => False.elim q)⟩
    intro i q
    have := (holds_unique hb ((hr i).1 q)).2
    cases this
  | some i =>
    have hsd := h.snd b k i hb hk
    refine ⟨endWrap b (kill w i), .unit, by rw [hs]; simp only [getWrap_ok hb, Out.ok_bind, destroy_ok hsd, Out.pure_eq], inv_drop h hb hk,
      live_kill (endWrap_heap (kill w i) b).1 hsd.ex hl ?_⟩
    intro j
    rw [hr]
    constructor
    · intro q
      have := (holds_unique hb q).2
      injection this with this
      exact this.symm
    · rintro rfl; exact hb

theorem good_release {w : World} (h : Inv w) {k : Kind} {g : H} (hg : g = none ∨ ∃ i, g = some i ∧ Sound w k i ∧ Unheld w i) : Good w (.release k g) := by
  rcases hg with rfl | ⟨i, rfl, hs, hu⟩
  · exact ⟨w, .unit, rfl, h, live_same rfl rfl (fun i q => by cases q) (fun _ q => False.elim q)⟩
  · refine good_unit (destroy_ok hs) rfl (inv_kill h hs.ex hu) (live_kill rfl hs.ex rfl ?_)
    intro j
    show some i = some j ↔ j = i
    rw [Option.some.injEq, eq_comm]

theorem good_newDatabase2 {w : World} (h : Inv w) {i : Nat} (hs : Sound w .client i) : Good w (.newDatabase2 (some i)) := by
  have hst : step w (.newDatabase2 (some i)) = .ok ((w.add [⟨.database, true, aboveOf w (some i)⟩]).wr [⟨.database, some w.heap.length, true⟩], .wrapper w.wraps.length) := by
    simp only [step, databaseCtor2, use_ok hs, Out.ok_bind, new_eq, wrap_eq, Out.pure_eq]
    rfl
  obtain ⟨h1, h2, h3⟩ := hs.aboves (by decide) (by decide)
  have hi : Inv (w.add [⟨.database, true, aboveOf w (some i)⟩]) := h.add (GoodL.ext ⟨goodObj_conn h hs (Nat.le_refl _) _ (by decide) _, trivial⟩)
  refine good_wrap hst (inv_wr hi .database _ true (by simp) ?_)
    (live_add (e := [⟨.database, true, aboveOf w (some i)⟩]) rfl rfl (fun _ q => q) ?_)
  · intro _ _ j hj
    injection hj with hj; subst hj
    refine ⟨sound_new (w := w) (m := 0) (o := ⟨.database, true, aboveOf w (some i)⟩) rfl rfl (Or.inr (Or.inr ⟨h1, h2, fun a ha => (h3 a ha).add _⟩)), ?_⟩
    intro b' k' q
    by_contra hk
    have h1 := (h.snd b' k' _ q hk).lt
    omega
  · intro j
    have := gained_wr (w.add [⟨.database, true, aboveOf w (some i)⟩]) .database (some w.heap.length) j
    have e1 : (w.add [⟨.database, true, aboveOf w (some i)⟩]).wraps.length = w.wraps.length := rfl
    rw [e1] at this
    rw [this]
    simp [NewEx, eq_comm]

theorem good_collectionNames {w : World} (h : Inv w) {b : Nat} {g : H} (hb : Holds w b .database g) (hg : ∃ i, g = some i) (ok : Bool) : Good w (.collectionNames b ok) := by
  obtain ⟨i, rfl⟩ := hg
  have hs := h.snd b _ i hb (by decide)
  have hn : collectionNames b ok w = .ok (w.add (if ok then [⟨.buffer, false, []⟩] else [])) := by
    cases ok
    · simp only [collectionNames, getWrap_ok hb, Out.ok_bind, use_ok hs, cond_false, Out.pure_eq, Bool.false_eq_true, if_false, add_nil]
    · simp only [collectionNames, getWrap_ok hb, Out.ok_bind, use_ok hs, cond_true, if_true]
      exact tmp_buffer w
  refine good_unit hn rfl (h.add (GoodL.ext ?_)) (live_add (e := if ok then [⟨.buffer, false, []⟩] else []) rfl rfl (fun _ q => q) ?_)
  · cases ok
    · trivial
    · exact ⟨goodObj_nil _ _ _ _, trivial⟩
  · intro j; cases ok <;> simp [NewEx, Gained]

theorem good_executeQuery {w : World} (h : Inv w) {b i : Nat} (hb : Holds w b .collection (some i)) : Good w (.executeQuery b) := by
  have hs := h.snd b _ i hb (by decide)
  have hn : executeQuery b w = .ok (w.add [⟨.cursor, true, aboveOf w (some i)⟩], some w.heap.length) := by
    simp only [executeQuery, getWrap_ok hb, Out.ok_bind, use_ok hs, new_eq, Out.pure_eq]
  refine good_obj hn rfl (h.add (GoodL.ext ⟨goodObj_leaf (by simp) (above_lt h hs.lt), trivial⟩)) (live_add (e := [⟨.cursor, true, aboveOf w (some i)⟩]) rfl rfl (fun _ q => q) ?_)
  intro j; simp [NewEx, Gained, eq_comm]

theorem good_queryCount {w : World} (h : Inv w) {b i : Nat} (hb : Holds w b .collection (some i)) : Good w (.queryCount b) := by
  have hs := h.snd b _ i hb (by decide)
  have hn : queryCount b w = .ok (w.add [⟨.bson, true, []⟩]) := by
    have e0 : aboveOf w none = [] := rfl
    simp only [queryCount, getWrap_ok hb, Out.ok_bind, new_eq, e0, use_ok (hs.add _), Out.pure_eq]
  refine good_unit hn rfl (h.add (GoodL.ext ⟨goodObj_nil _ _ _ _, trivial⟩)) (live_leak (e := [⟨.bson, true, []⟩]) (k := .bson) rfl rfl (fun _ q => q) (fun _ q => q) 0 _ rfl rfl ?_)
  intro j; simp [NewEx]

section grid
variable {w : World} (h : Inv w) {b : Nat} {own g : H} (hb : Holds w b .gridfs own)
include h hb

theorem grid_cases (hg : own = none → g = none ∨ ∃ i, g = some i ∧ Sound w .gridfs i) : pick own g = none ∨ ∃ i, pick own g = some i ∧ Sound w .gridfs i := by
  cases own with
  | none =>
    rcases hg rfl with rfl | ⟨i, rfl, hs⟩
    · exact Or.inl rfl
    · exact Or.inr ⟨i, rfl, hs⟩
  | some i => exact Or.inr ⟨i, rfl, h.snd b _ i hb (by decide)⟩

theorem good_getFile (hg : own = none → g = none ∨ ∃ i, g = some i ∧ Sound w .gridfs i) (n : Nat) : Good w (.getFile b g n) := by
  rcases grid_cases h hb hg with hp | ⟨i, hp, hs⟩
  · refine good_obj (v := w) (g := none) (by simp only [getFile, getWrap_ok hb, Out.ok_bind, hp, Out.pure_eq]) rfl h (live_same rfl rfl (fun _ q => q) (fun i q => by cases q))
  · have hf : getFile b g n w = getFileIn i n w := by simp only [getFile, getWrap_ok hb, Out.ok_bind, hp]
    rw [getFileIn_ok hs] at hf
    by_cases hn : n < 5
    · rw [if_pos hn] at hf
      refine good_obj hf rfl (h.add (GoodL.ext ⟨goodObj_nil _ _ _ _, goodObj_leaf (by simp) (fun a ha => by have := above_lt h hs.lt a ha; omega), trivial⟩))
        (live_add (e := [⟨.bson, false, []⟩, ⟨.file, true, aboveOf w (some i)⟩]) rfl rfl (fun _ q => q) ?_)
      intro j; simp [NewEx, Gained, eq_comm]
    · rw [if_neg hn] at hf
      refine good_obj hf rfl (h.add (GoodL.ext ⟨goodObj_nil _ _ _ _, trivial⟩)) (live_add (e := [⟨.bson, false, []⟩]) rfl rfl (fun _ q => q) ?_)
      intro j; simp [NewEx, Gained]

theorem good_removeFile (hg : own = none → g = none ∨ ∃ i, g = some i ∧ Sound w .gridfs i) (k : Nat) : Good w (.removeFile b g k) := by
  rcases grid_cases h hb hg with hp | ⟨i, hp, hs⟩
  · refine good_unit (v := w) (by simp only [removeFile, getWrap_ok hb, Out.ok_bind, hp, Out.pure_eq]) rfl h (live_same rfl rfl (fun _ q => q) (fun i q => by cases q))
  · refine good_unit (removeFile_ok hb hp hs k) rfl (h.add (GoodL.ext (goodL_list (above_lt h hs.lt) false k))) (live_add (e := listObjs w i false k) rfl rfl (fun _ q => q) ?_)
    intro j; simp [newEx_list, Gained]

theorem good_fileNames (hg : own = none → ∃ i, g = some i ∧ Sound w .gridfs i) (k : Nat) : Good w (.fileNames b g k) := by
  obtain ⟨i, hp, hs⟩ : ∃ i, pick own g = some i ∧ Sound w .gridfs i := by
    cases own with
    | none => obtain ⟨i, rfl, hs⟩ := hg rfl; exact ⟨i, rfl, hs⟩
    | some i => exact ⟨i, rfl, h.snd b _ i hb (by decide)⟩
  refine good_unit (fileNames_ok hb hp hs k) rfl (h.add (GoodL.ext (goodL_list (above_lt h hs.lt) true k)))
    (live_leak (e := listObjs w i true k) (k := .bson) rfl rfl (fun _ q => q) (fun _ q => q) 0 ⟨.bson, true, []⟩ rfl rfl ?_)
  intro j; simp [newEx_list]

theorem good_metadata (hg : own = none → g = none ∨ ∃ i, g = some i ∧ Sound w .gridfs i) (n : Nat) : Good w (.metadata b g n true) := by
  rcases grid_cases h hb hg with hp | ⟨i, hp, hs⟩
  · refine good_obj (v := w) (g := none) (by simp only [metadata, getWrap_ok hb, Out.ok_bind, hp, Out.pure_eq]) rfl h (live_same rfl rfl (fun _ q => q) (fun i q => by cases q))
  · have hf := metadata_ok hb hp hs n
    by_cases hn : n < 5
    · rw [if_pos hn] at hf
      refine good_obj hf rfl (h.add (GoodL.ext ⟨goodObj_nil _ _ _ _, goodObj_leaf (by simp) (fun a ha => by have := above_lt h hs.lt a ha; omega), goodObj_nil _ _ _ _, trivial⟩))
        (live_add (e := [⟨.bson, false, []⟩, ⟨.file, false, aboveOf w (some i)⟩, ⟨.bson, true, []⟩]) rfl rfl (fun _ q => q) ?_)
      intro j; simp [NewEx, Gained, eq_comm]
    · rw [if_neg hn] at hf
      refine good_obj hf rfl (h.add (GoodL.ext ⟨goodObj_nil _ _ _ _, trivial⟩)) (live_add (e := [⟨.bson, false, []⟩]) rfl rfl (fun _ q => q) ?_)
      intro j; simp [NewEx, Gained]

theorem good_streamData (hg : own = none → g = none ∨ ∃ i, g = some i ∧ Sound w .gridfs i) (n : Nat) : Good w (.streamData b g n) := by
  rcases grid_cases h hb hg with hp | ⟨i, hp, hs⟩
  · refine good_obj (v := w) (g := none) (by simp only [streamData, getWrap_ok hb, Out.ok_bind, hp, Out.pure_eq]) rfl h (live_same rfl rfl (fun _ q => q) (fun i q => by cases q))
  · have hf := streamData_ok hb hp hs n
    have hlt := above_lt h hs.lt
    by_cases hn : n < 5
    · rw [if_pos hn] at hf
      refine good_obj hf rfl (h.add (GoodL.ext ⟨goodObj_nil _ _ _ _, goodObj_leaf (by simp) (fun a ha => by have := hlt a ha; omega), goodObj_nil _ _ _ _,
          goodObj_leaf (by simp) (fun a ha => by
            rcases List.mem_cons.1 ha with rfl | ha
            · omega
            · have := hlt a ha; omega), trivial⟩))
        (live_add (e := [⟨.bson, false, []⟩, ⟨.file, false, aboveOf w (some i)⟩, ⟨.buffer, true, []⟩, ⟨.stream, false, (w.heap.length + 1) :: aboveOf w (some i)⟩]) rfl rfl (fun _ q => q) ?_)
      intro j; simp [NewEx, Gained, eq_comm]
    · rw [if_neg hn] at hf
      refine good_obj hf rfl (h.add (GoodL.ext ⟨goodObj_nil _ _ _ _, trivial⟩)) (live_add (e := [⟨.bson, false, []⟩]) rfl rfl (fun _ q => q) ?_)
      intro j; simp [NewEx, Gained]

theorem good_writeStream (hg : own = none → g = none ∨ ∃ i, g = some i ∧ Sound w .gridfs i) : Good w (.writeStream b g) := by
  rcases grid_cases h hb hg with hp | ⟨i, hp, hs⟩
  · refine good_unit (v := w) (by simp only [writeStream, getWrap_ok hb, Out.ok_bind, hp, Out.pure_eq]) rfl h (live_same rfl rfl (fun _ q => q) (fun i q => by cases q))
  · refine good_unit (writeStream_ok hb hp hs) rfl (h.add (GoodL.ext ⟨goodObj_leaf (by simp) (above_lt h hs.lt), trivial⟩))
      (live_add (e := [⟨.file, false, aboveOf w (some i)⟩]) rfl rfl (fun _ q => q) ?_)
    intro j; simp [NewEx, Gained]

end grid

end MLife
end CCGL
