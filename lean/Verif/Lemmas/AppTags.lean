import Verif.Lemmas.AppMain
/-!
# What the settings of `mask_rasterio` do
-/
namespace CCGL
open Spec
namespace Main

/-- A setting that is changed by the first value. -/
def setBy {α : Type} (o : Option (List Str)) (f : Str → α) (x : α) : α :=
  match firstOf o with
  | none => x
  | some s => f s

theorem tag_mode (w c v) : tag w c "MODE".toList v = (do
    let s ← at0 v
    if stringToIOMode s = .unknown then return .exit 1
    else
      let c' : Cfg := { c with mode := stringToIOMode s }
      return .go c') := by
  unfold tag
  rw [if_pos rfl]

theorem tag_in (w c v) : tag w c "IN".toList v = tagIn w c v := by
  unfold tag
  rw [if_neg (by decide), if_pos (Or.inl rfl)]

theorem tag_input (w c v) : tag w c "INPUT".toList v = tagIn w c v := by
  unfold tag
  rw [if_neg (by decide), if_pos (Or.inr rfl)]

theorem tag_mask (w c v) : tag w c "MASK".toList v = tagMask w c v := by
  unfold tag
  rw [if_neg (by decide), if_neg (by decide), if_pos rfl]

theorem tag_out (w c v) : tag w c "OUT".toList v = tagOut w c v := by
  unfold tag
  rw [if_neg (by decide), if_neg (by decide), if_neg (by decide), if_pos (Or.inl rfl)]

theorem tag_output (w c v) : tag w c "OUTPUT".toList v = tagOut w c v := by
  unfold tag
  rw [if_neg (by decide), if_neg (by decide), if_neg (by decide), if_pos (Or.inr rfl)]

theorem tag_type (w c v) : tag w c "OUTDATATYPE".toList v = (do
    let s ← at0 v
    let c' : Cfg := { c with outType := stringToRdt s }
    return .go c') := by
  unfold tag
  rw [if_neg (by decide), if_neg (by decide), if_neg (by decide), if_neg (by decide), if_pos rfl]

theorem tag_default (w c v k) (hk : k = "DEFAULT".toList ∨ k = "DEFAULTVALUE".toList) : tag w c k v = (do
    let s ← at0 v
    let c' : Cfg := { c with defv := numOr s }
    return .go c') := by
  rcases hk with rfl | rfl <;> unfold tag
  · rw [if_neg (by decide), if_neg (by decide), if_neg (by decide), if_neg (by decide), if_neg (by decide), if_pos (Or.inl rfl)]
  · rw [if_neg (by decide), if_neg (by decide), if_neg (by decide), if_neg (by decide), if_neg (by decide), if_pos (Or.inr rfl)]

theorem tag_nodata (w c v k) (hk : k = "NODATA".toList ∨ k = "NODATAVALUE".toList) : tag w c k v = (do
    let s ← at0 v
    let c' : Cfg := { c with nodata := numOr s, updNodata := true }
    return .go c') := by
  rcases hk with rfl | rfl <;> unfold tag
  · rw [if_neg (by decide), if_neg (by decide), if_neg (by decide), if_neg (by decide), if_neg (by decide), if_neg (by decide),
      if_pos (Or.inl rfl)]
  · rw [if_neg (by decide), if_neg (by decide), if_neg (by decide), if_neg (by decide), if_neg (by decide), if_neg (by decide),
      if_pos (Or.inr rfl)]

theorem tag_reclass (w c v) : tag w c "RECLASS".toList v = (do
    let s ← at0 v
    let r := parseKeyValues s []
    let c' : Cfg := { c with recls := r.1, tables := c.tables ++ [r.2] }
    return .go c') := by
  unfold tag
  rw [if_neg (by decide), if_neg (by decide), if_neg (by decide), if_neg (by decide), if_neg (by decide), if_neg (by decide),
    if_neg (by decide), if_pos rfl]

theorem tag_mongo (w c v k) (hk : k = "MONGO".toList ∨ k = "MONGODB".toList) : tag w c k v = tagMongo w c v := by
  rcases hk with rfl | rfl <;> unfold tag
  · rw [if_neg (by decide), if_neg (by decide), if_neg (by decide), if_neg (by decide), if_neg (by decide), if_neg (by decide),
      if_neg (by decide), if_neg (by decide), if_pos (Or.inl rfl)]
  · rw [if_neg (by decide), if_neg (by decide), if_neg (by decide), if_neg (by decide), if_neg (by decide), if_neg (by decide),
      if_neg (by decide), if_neg (by decide), if_pos (Or.inr rfl)]

theorem tag_thread (w c v) : tag w c "THREAD".toList v = (do
    let s ← at0 v
    let c' : Cfg := { c with thread := if (isInt s).2 then (isInt s).1 else 1 }
    return .go c') := by
  unfold tag
  rw [if_neg (by decide), if_neg (by decide), if_neg (by decide), if_neg (by decide), if_neg (by decide), if_neg (by decide),
    if_neg (by decide), if_neg (by decide), if_neg (by decide), if_pos rfl]

theorem tag_nodataflag (w c v) : tag w c "INCLUDE_NODATA".toList v = (do
    let s ← at0 v
    let c' : Cfg := { c with incNodata := if (isInt s).2 then decide ((isInt s).1 > 0) else true }
    return .go c') := by
  unfold tag
  rw [if_neg (by decide), if_neg (by decide), if_neg (by decide), if_neg (by decide), if_neg (by decide), if_neg (by decide),
    if_neg (by decide), if_neg (by decide), if_neg (by decide), if_neg (by decide), if_pos rfl]

theorem at0_ok {α : Type} {l : List α} {a : α} (h : at0 l = .ok a) : ∃ t, l = a :: t := by
  cases l with
  | nil => cases h
  | cons b t => cases h; exact ⟨t, rfl⟩

/-- Settings that take the first value. -/
theorem opt_first {w : World} {k : Str} {f : Cfg → Str → Cfg} {o : Option (List Str)} {c c1 : Cfg}
    (ht : ∀ v, tag w c k v = (do let s ← at0 v; return .go (f c s))) (h : optTag w k o c = .ok (.go c1)) :
    c1 = setBy o (f c) c := by
  unfold optTag at h
  cases o with
  | none => cases h; rfl
  | some v =>
    dsimp only at h
    rw [ht] at h
    obtain ⟨s, h1, h2⟩ := Out.bind_ok h
    obtain ⟨t, rfl⟩ := at0_ok h1
    cases h2
    rfl

theorem opt_mode {w : World} {o : Option (List Str)} {c c1 : Cfg} (h : optTag w "MODE".toList o c = .ok (.go c1)) :
    c1 = { c with mode := setBy o stringToIOMode c.mode } ∧ ∀ s, firstOf o = some s → stringToIOMode s ≠ .unknown := by
  unfold optTag at h
  cases o with
  | none => cases h; exact ⟨rfl, fun s hs => by cases hs⟩
  | some v =>
    dsimp only at h
    rw [tag_mode] at h
    obtain ⟨s, h1, h2⟩ := Out.bind_ok h
    obtain ⟨t, rfl⟩ := at0_ok h1
    dsimp only at h2
    by_cases hu : stringToIOMode s = .unknown
    · rw [if_pos hu] at h2; cases h2
    · rw [if_neg hu] at h2
      cases h2
      refine ⟨rfl, fun s' hs => ?_⟩
      cases hs
      exact hu

theorem ne_single_empty {w : World} {t : Str} {v : List Str} {f : DataFmt} {r : Bool × DataFmt × List Str}
    (h : parseFmtPaths (Fs.filesExist w.fs) t v f [] = .ok r) : v ≠ [[]] := by
  rintro rfl
  have : parseFmtPaths (Fs.filesExist w.fs) t [[]] f [] = .exn := by
    unfold parseFmtPaths
    dsimp only
    rw [splitDelim_nil]
    rw [if_neg (by simp [Fs.filesExist]), if_pos rfl, if_neg (by decide)]
  rw [this] at h
  cases h

theorem parse_spec {w : World} {t : Str} {v : List Str} {f : DataFmt} {r : Bool × DataFmt × List Str}
    (h : parseFmtPaths (Fs.filesExist w.fs) t v f [] = .ok r) :
    ∃ o, FmtPaths (fun s => Fs.fileExists w.fs s = true) t v o ∧ r = fmtOutcome f [] o := by
  obtain ⟨o, h1, h2⟩ := C67_parse_total w.fs t v f [] (ne_single_empty h)
  rw [h2] at h
  cases h
  exact ⟨o, h1, rfl⟩

/-- The list of the paths of the input. -/
def inPathsOf (inp : Option (DataFmt × List Str)) : List (List Str) :=
  match inp with | none => [] | some x => if x.2 = [] then [] else [x.2]
def inFmtsOf (inp : Option (DataFmt × List Str)) : List DataFmt :=
  match inp with | none => [] | some x => if x.2 = [] then [] else [x.1]
def inFmtOf (inp : Option (DataFmt × List Str)) : DataFmt :=
  match inp with | none => .unknown | some x => x.1
def inFmtOr (inp : Option (DataFmt × List Str)) (d : DataFmt) : DataFmt :=
  match inp with | none => d | some x => x.1

theorem opt_in {w : World} {o : Option (List Str)} {c c1 : Cfg} {k : Str} (hk : ∀ v, tag w c k v = tagIn w c v)
    (h : optTag w k o c = .ok (.go c1)) : ∃ inp, InputOf w o inp ∧
      c1 = { c with
        inFmt := inFmtOr inp c.inFmt
        inPaths := c.inPaths ++ inPathsOf inp
        inFmts := c.inFmts ++ inFmtsOf inp } := by
  unfold optTag at h
  cases o with
  | none =>
    cases h
    refine ⟨none, rfl, ?_⟩
    simp [inFmtOr, inPathsOf, inFmtsOf]
  | some v =>
    dsimp only at h
    rw [hk] at h
    unfold tagIn at h
    obtain ⟨r, h1, h2⟩ := Out.bind_ok h
    obtain ⟨p, hp, rfl⟩ := parse_spec h1
    cases p with
    | none => cases h2
    | some x =>
      refine ⟨some x, ⟨x, hp, rfl⟩, ?_⟩
      obtain ⟨f, l⟩ := x
      cases l with
      | nil =>
        cases h2
        simp [fmtOutcome, inFmtOr, inPathsOf, inFmtsOf]
      | cons p ps =>
        cases h2
        simp [fmtOutcome, inFmtOr, inPathsOf, inFmtsOf]

theorem opt_mask {w : World} {o : Option (List Str)} {c c1 : Cfg} (hc : c.maskFmt = .unknown) (hp : c.maskPath = [])
    (h : optTag w "MASK".toList o c = .ok (.go c1)) : ∃ f p, MaskOf w o f p ∧ c1 = { c with maskFmt := f, maskPath := p } := by
  unfold optTag at h
  cases o with
  | none =>
    cases h
    refine ⟨.unknown, [], ⟨rfl, rfl⟩, ?_⟩
    rw [← hc, ← hp]
  | some v =>
    dsimp only at h
    rw [tag_mask] at h
    unfold tagMask at h
    obtain ⟨r, h1, h2⟩ := Out.bind_ok h
    obtain ⟨p, hp, rfl⟩ := parse_spec h1
    cases p with
    | none => cases h2
    | some x =>
      obtain ⟨f, l⟩ := x
      cases l with
      | nil => cases h2
      | cons p ps =>
        cases h2
        exact ⟨f, p, ⟨ps, hp⟩, rfl⟩

theorem opt_out {w : World} {o : Option (List Str)} {c c1 : Cfg} {k : Str} (hk : ∀ v, tag w c k v = tagOut w c v)
    (h : optTag w k o c = .ok (.go c1)) : ∃ f p, OutputOf w o f p ∧
      c1 = { c with
        outFmt := if f = .unknown then c.outFmt else f
        outPaths := c.outPaths ++ p.toList
        outFmts := c.outFmts ++ (p.map (fun _ => f)).toList } := by
  unfold optTag at h
  cases o with
  | none =>
    cases h
    refine ⟨.unknown, none, ⟨rfl, rfl⟩, ?_⟩
    simp
  | some v =>
    dsimp only at h
    rw [hk] at h
    unfold tagOut at h
    obtain ⟨r, h1, h2⟩ := Out.bind_ok h
    obtain ⟨p, hp, rfl⟩ := parse_spec h1
    cases p with
    | none =>
      cases h2
      refine ⟨.unknown, none, ⟨none, hp, Or.inl ⟨rfl, rfl, rfl⟩⟩, ?_⟩
      simp [fmtOutcome]
    | some x =>
      obtain ⟨f, l⟩ := x
      have hf : f ≠ .unknown := by
        cases hp with
        | existing => simp
        | named s rest fs fmt n h1 h2 h3 => rintro rfl; simp [fmtNames] at h3
        | slash => simp
        | name => simp
      cases l with
      | nil =>
        cases h2
        refine ⟨f, none, ⟨_, hp, Or.inr ⟨_, rfl, rfl, rfl⟩⟩, ?_⟩
        simp [fmtOutcome, hf]
      | cons p ps =>
        cases h2
        refine ⟨f, some p, ⟨_, hp, Or.inr ⟨_, rfl, rfl, rfl⟩⟩, ?_⟩
        simp [fmtOutcome, hf]

theorem opt_mongo {w : World} {o : Option (List Str)} {c c1 : Cfg} {k : Str} (hk : k = "MONGO".toList ∨ k = "MONGODB".toList)
    (h : optTag w k o c = .ok (.go c1)) :
    ∃ b, c1 = { c with useMongo := b } ∧ (o = none → b = c.useMongo) ∧ ∀ v, o = some v → 4 ≤ v.length ∧ b = (w.mongo (v.take 4)).getD c.useMongo := by
  unfold optTag at h
  cases o with
  | none => cases h; exact ⟨c.useMongo, rfl, fun _ => rfl, fun v hv => by cases hv⟩
  | some v =>
    dsimp only at h
    rw [tag_mongo w c v k hk] at h
    unfold tagMongo at h
    by_cases hl : v.length < 4
    · rw [if_pos hl] at h; cases h
    · rw [if_neg hl] at h
      cases hm : w.mongo (v.take 4) with
      | none =>
        rw [hm] at h
        cases h
        refine ⟨c.useMongo, rfl, (fun h => by cases h), fun v' hv => ?_⟩
        cases hv
        exact ⟨by omega, by rw [hm]; rfl⟩
      | some b =>
        rw [hm] at h
        cases h
        refine ⟨b, rfl, (fun h => by cases h), fun v' hv => ?_⟩
        cases hv
        exact ⟨by omega, by rw [hm]; rfl⟩

end Main
end CCGL

namespace CCGL
open Spec
namespace Main

theorem setBy_none {α : Type} (f : Str → α) (x : α) : setBy none f x = x := rfl
theorem setBy_some {α : Type} (v : List Str) (f : Str → α) (x : α) : setBy (some v) f x = f (v.headD []) := rfl

/-- The global settings after all tags. -/
def settled (S : Settings) (inp : Option (DataFmt × List Str)) (of : DataFmt) (op : Option Str) (mf : DataFmt) (mp : Str) (mongo : Bool) : Cfg where
  mode := setBy (S "MODE".toList) stringToIOMode .mask
  thread := setBy (S "THREAD".toList) (fun s => if (isInt s).2 then (isInt s).1 else 1) 1
  incNodata := setBy (S "INCLUDE_NODATA".toList) (fun s => if (isInt s).2 then decide ((isInt s).1 > 0) else true) true
  useMongo := mongo
  maskFmt := mf
  maskPath := mp
  inFmt := inFmtOf inp
  inFmts := inFmtsOf inp
  inPaths := inPathsOf inp
  outFmt := of
  outFmts := (op.map (fun _ => of)).toList
  outPaths := op.toList
  defv := setBy (S.either "DEFAULT".toList "DEFAULTVALUE".toList) numOr (.fin (-9999))
  updNodata := (S.either "NODATA".toList "NODATAVALUE".toList).isSome
  nodata := setBy (S.either "NODATA".toList "NODATAVALUE".toList) numOr (.fin (-9999))
  outType := setBy (S "OUTDATATYPE".toList) stringToRdt .unknown
  recls := (tableOf (firstOf (S "RECLASS".toList))).1
  tables := ((S "RECLASS".toList).map (fun v => (parseKeyValues (v.headD []) []).2)).toList

theorem setBy_comm {α : Type} (o : Option (List Str)) (g : Str → α) (f : α → Cfg) (x : α) :
    setBy o (fun s => f (g s)) (f x) = f (setBy o g x) := by
  cases o <;> rfl

theorem either_none_left (S : Settings) (n n' : Str) (h : S n = none) : S.either n n' = S n' := by
  unfold Settings.either
  cases hS : S n' with
  | none => rw [h]
  | some v => rfl

theorem either_none_right (S : Settings) (n n' : Str) (h : S n' = none) : S.either n n' = S n := by
  unfold Settings.either; rw [h]

theorem tags_spec {w : World} {m : Args} (hm : Sorted m) {c : Cfg} (h : tags w {} m = .ok (.go c))
    (h1 : m.get "IN".toList = none ∨ m.get "INPUT".toList = none)
    (h2 : m.get "OUT".toList = none ∨ m.get "OUTPUT".toList = none)
    (h3 : m.get "MONGO".toList = none ∨ m.get "MONGODB".toList = none) :
    ∃ inp of op mf mp, InputOf w (Settings.either m.get "IN".toList "INPUT".toList) inp ∧
      OutputOf w (Settings.either m.get "OUT".toList "OUTPUT".toList) of op ∧ MaskOf w (m.get "MASK".toList) mf mp ∧
      (∀ s, firstOf (m.get "MODE".toList) = some s → stringToIOMode s ≠ .unknown) ∧
      c = settled m.get inp of op mf mp (MongoOf w (Settings.either m.get "MONGO".toList "MONGODB".toList)) := by
  rw [tags_filter, filter_known hm] at h
  unfold known at h
  simp only [tags_pick] at h
  obtain ⟨c1, e1, c2, e2, c3, e3, c4, e4, c5, e5, c6, e6, c7, e7, c8, e8, c9, e9, c10, e10, c11, e11, c12, e12, c13, e13, c14, e14,
    c15, e15, c16, e16, h⟩ := h
  have hc : c = c16 := by cases h; rfl
  clear h
  generalize hS : m.get = S at *
  have f1 := opt_first (f := fun c s => { c with defv := numOr s }) (fun v => tag_default w _ v _ (Or.inl rfl)) e1
  have f1 := f1.trans (setBy_comm _ numOr (fun x => { ({} : Cfg) with defv := x }) ({} : Cfg).defv)
  dsimp only at f1
  have f2 := opt_first (f := fun c s => { c with defv := numOr s }) (fun v => tag_default w _ v _ (Or.inr rfl)) e2
  have f2 := f2.trans (setBy_comm _ numOr (fun x => { c1 with defv := x }) c1.defv)
  rw [f1] at f2
  dsimp only at f2
  obtain ⟨i3, g3, f3⟩ := opt_in (fun v => tag_in w _ v) e3
  rw [f2] at f3
  dsimp only at f3
  have f4 := opt_first (f := fun c s => { c with incNodata := if (isInt s).2 then decide ((isInt s).1 > 0) else true })
    (fun v => tag_nodataflag w _ v) e4
  have f4 := f4.trans (setBy_comm _ (fun s => if (isInt s).2 then decide ((isInt s).1 > 0) else true)
    (fun x => { c3 with incNodata := x }) c3.incNodata)
  rw [f3] at f4
  dsimp only at f4
  obtain ⟨i5, g5, f5⟩ := opt_in (fun v => tag_input w _ v) e5
  rw [f4] at f5
  dsimp only at f5
  obtain ⟨mf, mp, g6, f6⟩ := opt_mask (by rw [f5]) (by rw [f5]) e6
  rw [f5] at f6
  dsimp only at f6
  obtain ⟨f7, g7⟩ := opt_mode e7
  rw [f6] at f7
  dsimp only at f7
  obtain ⟨b8, f8, g8, g8'⟩ := opt_mongo (Or.inl rfl) e8
  have hmongo7 : c7.useMongo = false := by rw [f7]
  rw [f7] at f8
  dsimp only at f8
  obtain ⟨b9, f9, g9, g9'⟩ := opt_mongo (Or.inr rfl) e9
  have h8c : c8.useMongo = b8 := by rw [f8]
  rw [f8] at f9
  dsimp only at f9
  have f10 := opt_first (f := fun c s => { c with nodata := numOr s, updNodata := true })
    (fun v => tag_nodata w _ v _ (Or.inl rfl)) e10
  have f10 := f10.trans (setBy_comm _ (fun s => (numOr s, true)) (fun x => { c9 with nodata := x.1, updNodata := x.2 })
    (c9.nodata, c9.updNodata))
  rw [f9] at f10
  dsimp only at f10
  have f11 := opt_first (f := fun c s => { c with nodata := numOr s, updNodata := true })
    (fun v => tag_nodata w _ v _ (Or.inr rfl)) e11
  have f11 := f11.trans (setBy_comm _ (fun s => (numOr s, true)) (fun x => { c10 with nodata := x.1, updNodata := x.2 })
    (c10.nodata, c10.updNodata))
  rw [f10] at f11
  dsimp only at f11
  obtain ⟨o12, p12, g12, f12⟩ := opt_out (fun v => tag_out w _ v) e12
  rw [f11] at f12
  dsimp only at f12
  have f13 := opt_first (f := fun c s => { c with outType := stringToRdt s }) (fun v => tag_type w _ v) e13
  have f13 := f13.trans (setBy_comm _ stringToRdt (fun x => { c12 with outType := x }) c12.outType)
  rw [f12] at f13
  dsimp only at f13
  obtain ⟨o14, p14, g14, f14⟩ := opt_out (fun v => tag_output w _ v) e14
  rw [f13] at f14
  dsimp only at f14
  have f15 := opt_first
    (f := fun c s => { c with recls := (parseKeyValues s []).1, tables := c.tables ++ [(parseKeyValues s []).2] })
    (fun v => tag_reclass w _ v) e15
  have f15 := f15.trans (setBy_comm _ (fun s => ((parseKeyValues s []).1, c14.tables ++ [(parseKeyValues s []).2]))
    (fun x => { c14 with recls := x.1, tables := x.2 }) (c14.recls, c14.tables))
  rw [f14] at f15
  dsimp only at f15
  have f16 := opt_first (f := fun c s => { c with thread := if (isInt s).2 then (isInt s).1 else 1 }) (fun v => tag_thread w _ v) e16
  have f16 := f16.trans (setBy_comm _ (fun s => if (isInt s).2 then (isInt s).1 else 1) (fun x => { c15 with thread := x }) c15.thread)
  rw [f15] at f16
  dsimp only at f16
  clear e1 e2 e3 e4 e5 e6 e7 e8 e9 e10 e11 e12 e13 e14 e15 e16
  -- input
  have hin : ∃ inp, InputOf w (Settings.either S "IN".toList "INPUT".toList) inp ∧
      inFmtOr i5 (inFmtOr i3 .unknown) = inFmtOf inp ∧ inPathsOf i3 ++ inPathsOf i5 = inPathsOf inp ∧
      inFmtsOf i3 ++ inFmtsOf i5 = inFmtsOf inp := by
    rcases h1 with h1 | h1
    · rw [either_none_left S _ _ h1]
      rw [h1] at g3
      cases g3
      refine ⟨i5, g5, ?_, ?_, ?_⟩
      · cases i5 <;> rfl
      · exact List.nil_append _
      · exact List.nil_append _
    · rw [either_none_right S _ _ h1]
      rw [h1] at g5
      cases g5
      refine ⟨i3, g3, ?_, ?_, ?_⟩
      · cases i3 <;> rfl
      · exact List.append_nil _
      · exact List.append_nil _
  obtain ⟨inp, hin1, hin2, hin3, hin4⟩ := hin
  -- output
  have hout : ∃ of op, OutputOf w (Settings.either S "OUT".toList "OUTPUT".toList) of op ∧
      (if o14 = .unknown then (if o12 = .unknown then .unknown else o12) else o14) = of ∧
      p12.toList ++ p14.toList = op.toList ∧
      (p12.map (fun _ => o12)).toList ++ (p14.map (fun _ => o14)).toList = (op.map (fun _ => of)).toList := by
    rcases h2 with h2 | h2
    · rw [either_none_left S _ _ h2]
      rw [h2] at g12
      obtain ⟨rfl, rfl⟩ := g12
      refine ⟨o14, p14, g14, ?_, rfl, rfl⟩
      by_cases h : o14 = .unknown
      · rw [if_pos h, if_pos rfl, h]
      · rw [if_neg h]
    · rw [either_none_right S _ _ h2]
      rw [h2] at g14
      obtain ⟨rfl, rfl⟩ := g14
      refine ⟨o12, p12, g12, ?_, List.append_nil _, List.append_nil _⟩
      rw [if_pos rfl]
      by_cases h : o12 = .unknown
      · rw [if_pos h, h]
      · rw [if_neg h]
  obtain ⟨of, op, hout1, hout2, hout3, hout4⟩ := hout
  have hb : b9 = MongoOf w (Settings.either S "MONGO".toList "MONGODB".toList) := by
    have key : ∀ v b, b = (w.mongo (List.take 4 v)).getD false → b = MongoOf w (some v) := by
      intro v b hb
      rw [hb]
      unfold MongoOf
      dsimp only
      cases w.mongo (List.take 4 v) with
      | none => rfl
      | some b => cases b <;> rfl
    rcases h3 with h3 | h3
    · rw [either_none_left S _ _ h3]
      have hb8 := g8 h3
      rw [hmongo7] at hb8
      have h8 : c8.useMongo = false := by rw [h8c]; exact hb8
      cases hS9 : S "MONGODB".toList with
      | none => rw [g9 hS9, h8]; rfl
      | some v =>
        have := (g9' v hS9).2
        rw [h8] at this
        exact key v _ this
    · rw [either_none_right S _ _ h3]
      have hb9 := g9 h3
      rw [hb9, h8c]
      cases hS8 : S "MONGO".toList with
      | none => rw [g8 hS8, hmongo7]; rfl
      | some v =>
        have := (g8' v hS8).2
        rw [hmongo7] at this
        exact key v _ this
  refine ⟨inp, of, op, mf, mp, hin1, hout1, g6, g7, ?_⟩
  rw [hc, f16, ← hb]
  unfold settled
  have hd : setBy (S "DEFAULTVALUE".toList) numOr (setBy (S "DEFAULT".toList) numOr (.fin (-9999))) =
      setBy (Settings.either S "DEFAULT".toList "DEFAULTVALUE".toList) numOr (.fin (-9999)) := by
    unfold Settings.either
    cases S "DEFAULTVALUE".toList <;> rfl
  have hn : setBy (S "NODATAVALUE".toList) (fun s => (numOr s, true))
      ((setBy (S "NODATA".toList) (fun s => (numOr s, true)) (.fin (-9999), false)).1,
        (setBy (S "NODATA".toList) (fun s => (numOr s, true)) (.fin (-9999), false)).2) =
      (setBy (Settings.either S "NODATA".toList "NODATAVALUE".toList) numOr (.fin (-9999)),
        (Settings.either S "NODATA".toList "NODATAVALUE".toList).isSome) := by
    unfold Settings.either
    cases S "NODATAVALUE".toList with
    | none => cases S "NODATA".toList <;> rfl
    | some v => rfl
  have hr : setBy (S "RECLASS".toList) (fun s => ((parseKeyValues s []).1, [] ++ [(parseKeyValues s []).2])) (false, []) =
      ((tableOf (firstOf (S "RECLASS".toList))).1, ((S "RECLASS".toList).map (fun v => (parseKeyValues (v.headD []) []).2)).toList) := by
    cases S "RECLASS".toList <;> rfl
  rw [hn, hr, hd, ← hin2, ← hin3, ← hin4, ← hout4, ← hout3, ← hout2]
  simp only [List.nil_append]

end Main
end CCGL
