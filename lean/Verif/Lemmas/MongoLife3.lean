import Verif.Lemmas.MongoLife2
/-! The results of the remaining calls; releasing objects and wrapper objects. -/
namespace CCGL
namespace MLife

/-- The objects a listing of files adds. -/
def listObjs (w : World) (g : Nat) (q : Bool) (k : Nat) : List Obj :=
  [⟨.bson, q, []⟩, ⟨.fileList, false, aboveOf w (some g)⟩] ++ List.replicate k ⟨.file, false, (w.heap.length + 1) :: aboveOf w (some g)⟩

theorem list_ok {w : World} {g : Nat} (hs : Sound w .gridfs g) (k : Nat) :
    ∃ v, eachFile (w.heap.length + 1) k (w.add [⟨.bson, true, []⟩, ⟨.fileList, true, aboveOf w (some g)⟩]) = .ok v ∧
      destroy .fileList (some (w.heap.length + 1)) v = .ok (w.add (listObjs w g true k)) := by
  obtain ⟨h1, h2, h3⟩ := hs.aboves (by decide) (by decide)
  refine ⟨_, eachFile_ok (w := w) (e := [⟨.bson, true, []⟩, ⟨.fileList, true, aboveOf w (some g)⟩]) (m := 1) (o := ⟨.fileList, true, aboveOf w (some g)⟩) rfl rfl rfl
    ⟨h1, h2, fun a ha => (h3 a ha).add _⟩ k, ?_⟩
  have hm : ([⟨.bson, true, []⟩, ⟨.fileList, true, aboveOf w (some g)⟩] ++
      List.replicate k (⟨.file, false, (w.heap.length + 1) :: aboveOf w (some g)⟩ : Obj))[1]? = some ⟨.fileList, true, aboveOf w (some g)⟩ := rfl
  exact destroy_add hm rfl (Or.inr (Or.inr ⟨h1, h2, fun a ha => (h3 a ha).add _⟩))

theorem removeFile_ok {w : World} {b : Nat} {own g : H} {i : Nat} (h : Holds w b .gridfs own) (hp : pick own g = some i) (hs : Sound w .gridfs i) (k : Nat) :
    removeFile b g k w = .ok (w.add (listObjs w i false k)) := by
  obtain ⟨v, h1, h2⟩ := list_ok hs k
  have h3 : destroy .bson (some w.heap.length) (w.add (listObjs w i true k)) = .ok (w.add (listObjs w i false k)) :=
    destroy_add (w := w) (e := listObjs w i true k) (m := 0) (o := ⟨.bson, true, []⟩) rfl rfl (Or.inl rfl)
  have e0 : aboveOf w none = [] := rfl
  have e1 : (w.add [⟨.bson, true, []⟩]).heap.length = w.heap.length + 1 := by simp [World.add]
  simp only [removeFile, getWrap_ok h, Out.ok_bind, hp, new_eq, e0, use_ok (hs.add _), aboveOf_left hs.lt, add_add, List.cons_append, List.nil_append, e1, h1, h2, h3]

theorem fileNames_ok {w : World} {b : Nat} {own g : H} {i : Nat} (h : Holds w b .gridfs own) (hp : pick own g = some i) (hs : Sound w .gridfs i) (k : Nat) :
    fileNames b g k w = .ok (w.add (listObjs w i true k)) := by
  obtain ⟨v, h1, h2⟩ := list_ok hs k
  have e0 : aboveOf w none = [] := rfl
  have e1 : (w.add [⟨.bson, true, []⟩]).heap.length = w.heap.length + 1 := by simp [World.add]
  simp only [fileNames, getWrap_ok h, Out.ok_bind, hp, new_eq, e0, use_ok (hs.add _), aboveOf_left hs.lt, add_add, List.cons_append, List.nil_append, e1, h1, h2]

theorem metadata_ok {w : World} {b : Nat} {own g : H} {i : Nat} (h : Holds w b .gridfs own) (hp : pick own g = some i) (hs : Sound w .gridfs i) (n : Nat) :
    metadata b g n true w = .ok (if n < 5 then
        (w.add [⟨.bson, false, []⟩, ⟨.file, false, aboveOf w (some i)⟩, ⟨.bson, true, []⟩], some (w.heap.length + 2))
      else (w.add [⟨.bson, false, []⟩], none)) := by
  obtain ⟨h1, h2, h3⟩ := hs.aboves (by decide) (by decide)
  simp only [metadata, getWrap_ok h, Out.ok_bind, hp, getFileIn_ok hs]
  by_cases hn : n < 5
  · have hsf : Sound (w.add [⟨.bson, false, []⟩, ⟨.file, true, aboveOf w (some i)⟩]) .file (w.heap.length + 1) :=
      sound_new (w := w) (m := 1) (o := ⟨.file, true, aboveOf w (some i)⟩) rfl rfl (Or.inr (Or.inr ⟨h1, h2, fun a ha => (h3 a ha).add _⟩))
    have hd : destroy .file (some (w.heap.length + 1)) (w.add [⟨.bson, false, []⟩, ⟨.file, true, aboveOf w (some i)⟩, ⟨.bson, true, []⟩]) =
        .ok (w.add [⟨.bson, false, []⟩, ⟨.file, false, aboveOf w (some i)⟩, ⟨.bson, true, []⟩]) :=
      destroy_add (w := w) (m := 1) (o := ⟨.file, true, aboveOf w (some i)⟩) rfl rfl (Or.inr (Or.inr ⟨h1, h2, fun a ha => (h3 a ha).add _⟩))
    have e0 : ∀ v, aboveOf v none = [] := fun _ => rfl
    simp only [hn, if_true, use_ok hsf, Out.ok_bind, cond_true, new_add, e0, List.cons_append, List.nil_append, hd, Out.pure_eq]
    simp
  · simp only [hn, if_false, Out.pure_eq]

theorem streamData_ok {w : World} {b : Nat} {own g : H} {i : Nat} (h : Holds w b .gridfs own) (hp : pick own g = some i) (hs : Sound w .gridfs i) (n : Nat) :
    streamData b g n w = .ok (if n < 5 then
        (w.add [⟨.bson, false, []⟩, ⟨.file, false, aboveOf w (some i)⟩, ⟨.buffer, true, []⟩, ⟨.stream, false, (w.heap.length + 1) :: aboveOf w (some i)⟩],
          some (w.heap.length + 2))
      else (w.add [⟨.bson, false, []⟩], none)) := by
  obtain ⟨h1, h2, h3⟩ := hs.aboves (by decide) (by decide)
  simp only [streamData, getWrap_ok h, Out.ok_bind, hp, getFileIn_ok hs]
  by_cases hn : n < 5
  · have hsf : Sound (w.add [⟨.bson, false, []⟩, ⟨.file, true, aboveOf w (some i)⟩]) .file (w.heap.length + 1) :=
      sound_new (w := w) (m := 1) (o := ⟨.file, true, aboveOf w (some i)⟩) rfl rfl (Or.inr (Or.inr ⟨h1, h2, fun a ha => (h3 a ha).add _⟩))
    have hsf2 : Sound (w.add [⟨.bson, false, []⟩, ⟨.file, true, aboveOf w (some i)⟩, ⟨.buffer, true, []⟩]) .file (w.heap.length + 1) :=
      sound_new (w := w) (m := 1) (o := ⟨.file, true, aboveOf w (some i)⟩) rfl rfl (Or.inr (Or.inr ⟨h1, h2, fun a ha => (h3 a ha).add _⟩))
    set S : Obj := ⟨.stream, true, (w.heap.length + 1) :: aboveOf w (some i)⟩ with hS
    have hex : ∀ a ∈ S.above, Existing (w.add [⟨.bson, false, []⟩, ⟨.file, true, aboveOf w (some i)⟩, ⟨.buffer, true, []⟩, S]) a := by
      intro a ha
      rcases List.mem_cons.1 ha with rfl | ha
      · exact ex_right (m := 1) (o := ⟨.file, true, aboveOf w (some i)⟩) rfl rfl
      · exact (h3 a ha).add _
    have hst : Sound (w.add [⟨.bson, false, []⟩, ⟨.file, true, aboveOf w (some i)⟩, ⟨.buffer, true, []⟩, S]) .stream (w.heap.length + 3) :=
      sound_new (w := w) (m := 3) (o := S) rfl rfl (Or.inr (Or.inr ⟨h1, h2, hex⟩))
    have hd : destroy .stream (some (w.heap.length + 3)) (w.add [⟨.bson, false, []⟩, ⟨.file, true, aboveOf w (some i)⟩, ⟨.buffer, true, []⟩, S]) =
        .ok (w.add [⟨.bson, false, []⟩, ⟨.file, true, aboveOf w (some i)⟩, ⟨.buffer, true, []⟩, { S with alive := false }]) :=
      destroy_add (w := w) (m := 3) (o := S) rfl rfl (Or.inr (Or.inr ⟨h1, h2, hex⟩))
    have hd2 : destroy .file (some (w.heap.length + 1)) (w.add [⟨.bson, false, []⟩, ⟨.file, true, aboveOf w (some i)⟩, ⟨.buffer, true, []⟩, { S with alive := false }]) =
        .ok (w.add [⟨.bson, false, []⟩, ⟨.file, false, aboveOf w (some i)⟩, ⟨.buffer, true, []⟩, { S with alive := false }]) :=
      destroy_add (w := w) (m := 1) (o := ⟨.file, true, aboveOf w (some i)⟩) rfl rfl (Or.inr (Or.inr ⟨h1, h2, fun a ha => (h3 a ha).add _⟩))
    have e0 : ∀ v, aboveOf v none = [] := fun _ => rfl
    have e1 := aboveOf_right w [⟨.bson, false, []⟩, ⟨.file, true, aboveOf w (some i)⟩, ⟨.buffer, true, []⟩] 1 ⟨.file, true, aboveOf w (some i)⟩ rfl
    simp only [hn, if_true, use_ok hsf, Out.ok_bind, new_add, e0, List.cons_append, List.nil_append, use_ok hsf2, e1, List.length_cons, List.length_nil, Nat.zero_add,
      Nat.reduceAdd]
    rw [← hS]
    simp only [use_ok hst, hd, hd2, Out.ok_bind, Out.pure_eq]
    rfl
  · simp only [hn, if_false, Out.pure_eq]

theorem writeStream_ok {w : World} {b : Nat} {own g : H} {i : Nat} (h : Holds w b .gridfs own) (hp : pick own g = some i) (hs : Sound w .gridfs i) :
    writeStream b g w = .ok (w.add [⟨.file, false, aboveOf w (some i)⟩]) := by
  obtain ⟨h1, h2, h3⟩ := hs.aboves (by decide) (by decide)
  have hsf : Sound (w.add [⟨.file, true, aboveOf w (some i)⟩]) .file w.heap.length :=
    sound_new (w := w) (m := 0) (o := ⟨.file, true, aboveOf w (some i)⟩) rfl rfl (Or.inr (Or.inr ⟨h1, h2, fun a ha => (h3 a ha).add _⟩))
  have hd : destroy .file (some w.heap.length) (w.add [⟨.file, true, aboveOf w (some i)⟩]) = .ok (w.add [⟨.file, false, aboveOf w (some i)⟩]) :=
    destroy_add (w := w) (m := 0) (o := ⟨.file, true, aboveOf w (some i)⟩) rfl rfl (Or.inr (Or.inr ⟨h1, h2, fun a ha => (h3 a ha).add _⟩))
  simp only [writeStream, getWrap_ok h, Out.ok_bind, hp, use_ok hs, new_eq, use_ok hsf, hd]

/-! ## More wrapper objects -/

def World.wr (w : World) (l : List Wrap) : World := { w with wraps := w.wraps ++ l }

theorem wrap_eq (k : Kind) (h : H) (w : World) : wrap k h w = (w.wraps.length, w.wr [⟨k, h, true⟩]) := rfl

theorem wr_add (w : World) (l : List Wrap) (e : List Obj) : (w.wr l).add e = (w.add e).wr l := rfl

theorem holds_last (w : World) (k : Kind) (h : H) : Holds (w.wr [⟨k, h, true⟩]) w.wraps.length k h := by
  simp [Holds, World.wr]

theorem endWrap_last (w : World) (k : Kind) (h : H) : endWrap w.wraps.length (w.wr [⟨k, h, true⟩]) = w.wr [⟨k, h, false⟩] := by
  simp [endWrap, World.wr]

theorem clientCollectionNames_ok {w : World} {c i : Nat} (h : Holds w c .client (some i)) (hs : Sound w .client i) (ok : Bool) :
    clientCollectionNames c ok w =
      .ok ((w.add (⟨.database, false, aboveOf w (some i)⟩ :: (if ok then [⟨.buffer, false, []⟩] else []))).wr [⟨.database, some w.heap.length, false⟩]) := by
  obtain ⟨h1, h2, h3⟩ := hs.aboves (by decide) (by decide)
  have hsd : ∀ e, Sound (w.add (⟨.database, true, aboveOf w (some i)⟩ :: e)) .database w.heap.length := fun e =>
    sound_new (w := w) (m := 0) (o := ⟨.database, true, aboveOf w (some i)⟩) rfl rfl (Or.inr (Or.inr ⟨h1, h2, fun a ha => (h3 a ha).add _⟩))
  set D : Obj := ⟨.database, true, aboveOf w (some i)⟩ with hD
  set v := (w.add [D]).wr [⟨.database, some w.heap.length, true⟩] with hv
  have hb : databaseCtor (some w.heap.length) (w.add [D]) = .ok (v, w.wraps.length) := by
    simp only [databaseCtor, use_ok (hsd []), Out.ok_bind, wrap_eq, Out.pure_eq]
    rfl
  have hh : Holds v w.wraps.length .database (some w.heap.length) := holds_last (w.add [D]) _ _
  have hsv : Sound v .database w.heap.length := hsd []
  have hn : collectionNames w.wraps.length ok v = .ok (v.add (if ok then [⟨.buffer, false, []⟩] else [])) := by
    cases ok
    · simp only [collectionNames, getWrap_ok hh, Out.ok_bind, use_ok hsv, cond_false, Out.pure_eq, Bool.false_eq_true, if_false, add_nil]
    · simp only [collectionNames, getWrap_ok hh, Out.ok_bind, use_ok hsv, cond_true, if_true]
      exact tmp_buffer v
  have hd : databaseDtor w.wraps.length (v.add (if ok then [⟨.buffer, false, []⟩] else [])) =
      .ok ((w.add (⟨.database, false, aboveOf w (some i)⟩ :: (if ok then [⟨.buffer, false, []⟩] else []))).wr [⟨.database, some w.heap.length, false⟩]) := by
    generalize (if ok then [⟨.buffer, false, []⟩] else [] : List Obj) = e
    have hh' : Holds (v.add e) w.wraps.length .database (some w.heap.length) := hh
    have e1 : v.add e = (w.add (D :: e)).wr [⟨.database, some w.heap.length, true⟩] := by rw [hv, wr_add, add_add]; rfl
    have hds : destroy .database (some w.heap.length) (w.add (D :: e)) = .ok (w.add (⟨.database, false, aboveOf w (some i)⟩ :: e)) :=
      destroy_add (w := w) (e := D :: e) (m := 0) (o := D) rfl rfl (Or.inr (Or.inr ⟨h1, h2, fun a ha => (h3 a ha).add _⟩))
    have hds' : destroy .database (some w.heap.length) ((w.wr [⟨.database, some w.heap.length, true⟩]).add (D :: e)) =
        .ok ((w.wr [⟨.database, some w.heap.length, true⟩]).add (⟨.database, false, aboveOf w (some i)⟩ :: e)) :=
      destroy_add (w := w.wr [⟨.database, some w.heap.length, true⟩]) (e := D :: e) (m := 0) (o := D) rfl rfl (Or.inr (Or.inr ⟨h1, h2, fun a ha => (h3 a ha).add _⟩))
    simp only [databaseDtor, getWrap_ok hh', Out.ok_bind]
    rw [e1, ← wr_add, hds', Out.ok_bind, Out.pure_eq, wr_add]
    congr 1
    exact endWrap_last (w.add (⟨.database, false, aboveOf w (some i)⟩ :: e)) .database (some w.heap.length)
  simp only [clientCollectionNames, getDatabase_ok h hs, Out.ok_bind]
  rw [hb, Out.ok_bind]
  simp only [hn, Out.ok_bind, hd]

end MLife
end CCGL
