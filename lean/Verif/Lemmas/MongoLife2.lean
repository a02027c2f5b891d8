import Verif.Lemmas.MongoLife
/-! The results of the calls that only add objects. -/
namespace CCGL
namespace MLife

theorem new_add (k : Kind) (p : Option Nat) (w : World) (e : List Obj) :
    new k p (w.add e) = (w.heap.length + e.length, w.add (e ++ [⟨k, true, aboveOf (w.add e) p⟩])) := by
  rw [new_eq, add_add]
  simp [World.add]

theorem aboveOf_left {w : World} {i : Nat} (h : i < w.heap.length) (e : List Obj) : aboveOf (w.add e) (some i) = aboveOf w (some i) := by
  simp only [aboveOf, get_left h]

theorem aboveOf_right (w : World) (e : List Obj) (m : Nat) (o : Obj) (h : e[m]? = some o) :
    aboveOf (w.add e) (some (w.heap.length + m)) = (w.heap.length + m) :: o.above := by
  simp only [aboveOf, get_right, h]

/-- A temporary buffer. -/
theorem tmp_buffer (w : World) : destroy .buffer (some (new .buffer none w).1) (new .buffer none w).2 = .ok (w.add [⟨.buffer, false, []⟩]) := by
  rw [new_eq]
  exact destroy_add (w := w) (e := [⟨.buffer, true, []⟩]) (m := 0) (o := ⟨.buffer, true, []⟩) rfl rfl (Or.inr (Or.inl rfl))

theorem databaseNames_ok {w : World} {c i : Nat} (h : Holds w c .client (some i)) (hs : Sound w .client i) (ok : Bool) :
    databaseNames c ok w = .ok (w.add (if ok then [⟨.buffer, false, []⟩] else [])) := by
  cases ok
  · simp only [databaseNames, getWrap_ok h, Out.ok_bind, use_ok hs, cond_false, Out.pure_eq, Bool.false_eq_true, if_false, add_nil]
  · simp only [databaseNames, getWrap_ok h, Out.ok_bind, use_ok hs, cond_true, if_true]
    exact tmp_buffer w

theorem getDatabase_ok {w : World} {c i : Nat} (h : Holds w c .client (some i)) (hs : Sound w .client i) :
    getDatabase c w = .ok (w.add [⟨.database, true, aboveOf w (some i)⟩], some w.heap.length) := by
  simp only [getDatabase, getWrap_ok h, Out.ok_bind, use_ok hs, new_eq, Out.pure_eq]

/-- A fresh object that depends on a usable one can be used and released. -/
theorem fresh_cond {w : World} {k : Kind} {i : Nat} (hs : Sound w k i) (hk : k ≠ .bson) (hb : k ≠ .buffer) (e : List Obj) (k' : Kind) :
    k' = .bson ∨ k' = .buffer ∨ (w.ready = true ∧ w.ended = false ∧ ∀ a ∈ aboveOf w (some i), Existing (w.add e) a) := by
  obtain ⟨h1, h2, h3⟩ := hs.aboves hk hb
  exact Or.inr (Or.inr ⟨h1, h2, fun a ha => (h3 a ha).add e⟩)

theorem getCollection_ok {w : World} {c i : Nat} (h : Holds w c .client (some i)) (hs : Sound w .client i) (has : Bool) :
    getCollection c has w = .ok (if has then (w.add [⟨.database, false, aboveOf w (some i)⟩, ⟨.collection, true, aboveOf w (some i)⟩], some (w.heap.length + 1))
      else (w.add [⟨.database, true, aboveOf w (some i)⟩], none)) := by
  have hf := fresh_cond hs (by decide) (by decide) [⟨.database, true, aboveOf w (some i)⟩] .database
  have h1 := sound_new (w := w) (e := [⟨.database, true, aboveOf w (some i)⟩]) (m := 0) rfl rfl hf
  have h1' : Sound (w.add [⟨.database, true, aboveOf w (some i)⟩]) .database w.heap.length := h1
  simp only [getCollection, getWrap_ok h, Out.ok_bind, use_ok hs, new_eq, use_ok h1']
  cases has
  · simp only [cond_false, Out.pure_eq, Bool.false_eq_true, if_false]
  · have h2 := destroy_add (w := w) (e := [⟨.database, true, aboveOf w (some i)⟩]) (m := 0) rfl rfl hf
    have h2' : destroy .database (some w.heap.length) (w.add [⟨.database, true, aboveOf w (some i)⟩]) =
      .ok (w.add [⟨.database, false, aboveOf w (some i)⟩]) := h2
    simp only [cond_true, h2', Out.ok_bind, use_ok (hs.add _), if_true, Out.pure_eq, aboveOf_left hs.lt, add_add]
    simp [World.add]

theorem getGridFs_ok {w : World} {c i : Nat} (h : Holds w c .client (some i)) (hs : Sound w .client i) (a b : Bool) :
    getGridFs c a b w = .ok (if a then (w.add [⟨.gridfs, true, aboveOf w (some i)⟩], some w.heap.length)
      else if b then (w.add [⟨.database, false, aboveOf w (some i)⟩, ⟨.gridfs, true, aboveOf w (some i)⟩], some (w.heap.length + 1))
      else (w.add [⟨.database, false, aboveOf w (some i)⟩], none)) := by
  simp only [getGridFs, getWrap_ok h, Out.ok_bind, use_ok hs, new_eq]
  cases a
  · cases b
    · have hf := fresh_cond hs (by decide) (by decide) [⟨.database, true, aboveOf w (some i)⟩] .database
      have h2 := destroy_add (w := w) (e := [⟨.database, true, aboveOf w (some i)⟩]) (m := 0) rfl rfl hf
      have h2' : destroy .database (some w.heap.length) (w.add [⟨.database, true, aboveOf w (some i)⟩]) =
        .ok (w.add [⟨.database, false, aboveOf w (some i)⟩]) := h2
      simp only [cond_false, Bool.false_eq_true, if_false, h2', Out.ok_bind, Out.pure_eq]
    · have hf := fresh_cond hs (by decide) (by decide) [⟨.database, true, aboveOf w (some i)⟩, ⟨.gridfs, true, aboveOf w (some i)⟩] .database
      have h2 := destroy_add (w := w) (e := [⟨.database, true, aboveOf w (some i)⟩, ⟨.gridfs, true, aboveOf w (some i)⟩]) (m := 0) rfl rfl hf
      have h2' : destroy .database (some w.heap.length) (w.add [⟨.database, true, aboveOf w (some i)⟩, ⟨.gridfs, true, aboveOf w (some i)⟩]) =
        .ok (w.add [⟨.database, false, aboveOf w (some i)⟩, ⟨.gridfs, true, aboveOf w (some i)⟩]) := h2
      simp only [cond_false, Bool.false_eq_true, if_false, if_true, aboveOf_left hs.lt, add_add, List.cons_append, List.nil_append, h2', Out.ok_bind, Out.pure_eq]
      simp [World.add]
  · simp only [cond_true, if_true, Out.pure_eq]

theorem getFileIn_ok {w : World} {g : Nat} (hs : Sound w .gridfs g) (n : Nat) :
    getFileIn g n w = .ok (if n < 5 then (w.add [⟨.bson, false, []⟩, ⟨.file, true, aboveOf w (some g)⟩], some (w.heap.length + 1))
      else (w.add [⟨.bson, false, []⟩], none)) := by
  have e0 : aboveOf w none = [] := rfl
  simp only [getFileIn, new_eq, e0, use_ok (hs.add _), Out.ok_bind]
  by_cases hn : n < 5
  · have h2 := destroy_add (w := w) (e := [⟨.bson, true, []⟩, ⟨.file, true, aboveOf w (some g)⟩]) (m := 0) (o := ⟨.bson, true, []⟩) rfl rfl (Or.inl rfl)
    have h2' : destroy .bson (some w.heap.length) (w.add [⟨.bson, true, []⟩, ⟨.file, true, aboveOf w (some g)⟩]) =
      .ok (w.add [⟨.bson, false, []⟩, ⟨.file, true, aboveOf w (some g)⟩]) := h2
    simp only [hn, if_true, aboveOf_left hs.lt, add_add, List.cons_append, List.nil_append, h2', Out.ok_bind, Out.pure_eq]
    simp [World.add]
  · have h2 := destroy_add (w := w) (e := [⟨.bson, true, []⟩]) (m := 0) (o := ⟨.bson, true, []⟩) rfl rfl (Or.inl rfl)
    have h2' : destroy .bson (some w.heap.length) (w.add [⟨.bson, true, []⟩]) = .ok (w.add [⟨.bson, false, []⟩]) := h2
    simp only [hn, if_false, h2', Out.ok_bind, Out.pure_eq]

/-- Going through a list of files releases each of them. -/
theorem eachFile_ok {w : World} {e : List Obj} {m : Nat} {o : Obj} (hm : e[m]? = some o) (hk : o.kind = .fileList) (ha : o.alive = true)
    (hp : w.ready = true ∧ w.ended = false ∧ ∀ a ∈ o.above, Existing (w.add e) a) (k : Nat) :
    eachFile (w.heap.length + m) k (w.add e) = .ok (w.add (e ++ List.replicate k ⟨.file, false, (w.heap.length + m) :: o.above⟩)) := by
  induction k generalizing e with
  | zero =>
    have hs := sound_new hm ha (Or.inr (Or.inr hp))
    rw [hk] at hs
    simp only [eachFile, use_ok hs, Out.ok_bind, Out.pure_eq, List.replicate_zero, List.append_nil]
  | succ k ih =>
    have hs := sound_new hm ha (Or.inr (Or.inr hp))
    rw [hk] at hs
    set F : Obj := ⟨.file, true, (w.heap.length + m) :: o.above⟩ with hF
    have hcond : F.kind = .bson ∨ F.kind = .buffer ∨ (w.ready = true ∧ w.ended = false ∧ ∀ a ∈ F.above, Existing (w.add (e ++ [F])) a) := by
      refine Or.inr (Or.inr ⟨hp.1, hp.2.1, ?_⟩)
      intro a h
      rw [← add_add]
      rcases List.mem_cons.1 h with rfl | h
      · exact (ex_right hm ha).add _
      · exact (hp.2.2 a h).add _
    have hg : (e ++ [F])[e.length]? = some F := by simp
    have h1 := sound_new hg rfl hcond
    have h2 := destroy_add hg rfl hcond
    have hset : (e ++ [F]).set e.length { F with alive := false } = e ++ [⟨.file, false, (w.heap.length + m) :: o.above⟩] := by
      rw [List.set_append_right _ _ (by omega)]; simp [hF]
    rw [hset] at h2
    have hm' : (e ++ [⟨.file, false, (w.heap.length + m) :: o.above⟩])[m]? = some o := by
      rw [List.getElem?_append_left (List.getElem?_eq_some_iff.1 hm).1, hm]
    have h3 := ih hm' ⟨hp.1, hp.2.1, fun a h => by rw [← add_add]; exact (hp.2.2 a h).add _⟩
    have h1' : Sound (w.add (e ++ [F])) .file (w.heap.length + e.length) := h1
    have h2' : destroy .file (some (w.heap.length + e.length)) (w.add (e ++ [F])) = _ := h2
    simp only [eachFile, use_ok hs, Out.ok_bind, new_add, aboveOf_right w e m o hm]
    rw [← hF]
    simp only [use_ok h1', h2', Out.ok_bind, h3, List.append_assoc, List.replicate_succ]
    rfl

end MLife
end CCGL
