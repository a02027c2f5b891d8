import Verif.Lemmas.AppTags
import Verif.Lemmas.Raster
/-!
# The jobs of `mask_rasterio`
-/
namespace CCGL
open Spec
namespace Main

/-- The parallel vectors hold these jobs (with the output type as it is given). -/
structure Vec (c : Cfg) (L : List Job) : Prop where
  inPaths : c.inPaths = L.map (·.inputs)
  inFmts : c.inFmts = L.map (·.inFmt)
  outPaths : c.outPaths = L.map (·.out)
  outFmts : c.outFmts = L.map (·.outFmt)
  defaults : c.defaults = L.map (·.default)
  updates : c.updates = L.map (·.update)
  nodatas : c.nodatas = L.map (·.nodata)
  outTypes : c.outTypes = L.map (·.type)
  reclsData : c.reclsData = L.map (·.recls)
  tables : c.tables = L.map (·.table)

/-- The job with the output type in force. -/
def fix (j : Job) : Job := { j with type := typeOf j.type }

theorem vecAt_map {α : Type} (L : List Job) (f : Job → α) (i : Nat) (j : Job) (h : L[i]? = some j) : vecAt (L.map f) i = .ok (f j) := by
  unfold vecAt
  rw [List.getElem?_map, h]
  rfl

theorem Vec.jobs {c : Cfg} {L : List Job} (h : Vec c L) : jobs c = .ok (L.map fix) := by
  unfold Main.jobs
  have hl : c.inPaths.length = L.length := by rw [h.inPaths, List.length_map]
  rw [hl, Raster.mapM_ok (jobAt c) (fun i => (L.map fix).getD i ⟨[], .unknown, [], .unknown, .nan, false, .nan, .unknown, false, []⟩)]
  · congr 1
    apply List.ext_getElem?
    intro i
    rw [List.getElem?_map]
    by_cases hi : i < L.length
    · rw [List.getElem?_range hi, Option.map_some, List.getD_eq_getElem?_getD, List.getElem?_map, List.getElem?_eq_getElem hi]
      rfl
    · rw [List.getElem?_eq_none (by simp; omega), List.getElem?_eq_none (by simp; omega)]
      rfl
  · intro i hi
    rw [List.mem_range] at hi
    have hj : L[i]? = some L[i] := List.getElem?_eq_getElem hi
    unfold jobAt
    rw [h.inPaths, h.inFmts, h.outPaths, h.outFmts, h.defaults, h.updates, h.nodatas, h.outTypes, h.reclsData, h.tables]
    rw [vecAt_map L _ i _ hj, vecAt_map L _ i _ hj, vecAt_map L _ i _ hj, vecAt_map L _ i _ hj, vecAt_map L _ i _ hj,
      vecAt_map L _ i _ hj, vecAt_map L _ i _ hj, vecAt_map L _ i _ hj, vecAt_map L _ i _ hj, vecAt_map L _ i _ hj]
    rw [List.getD_eq_getElem?_getD, List.getElem?_map, hj]
    rfl

/-! ## Items -/

def fieldNum (s : Str) : DVal := if s = [] then .fin (-9999) else numOr s

theorem numText_ne_nil {v : DVal} (h : NumText [] v) : False := C37_false_empty.2 ⟨v, h⟩

theorem fieldNum_spec (s : Str) : FieldNumber s (fieldNum s) := by
  unfold FieldNumber fieldNum
  by_cases hs : s = []
  · rw [if_pos hs]
    right
    refine ⟨?_, rfl⟩
    rintro ⟨u, hu⟩
    rw [hs] at hu
    exact numText_ne_nil hu
  · rw [if_neg hs]
    by_cases hn : ∃ u, NumText s u
    · obtain ⟨u, hu⟩ := hn
      left
      unfold numOr
      rw [(C37_value s u hu).1]
      exact hu
    · right
      refine ⟨hn, ?_⟩
      unfold numOr
      have : ¬ (isDouble s).2 = true := by
        intro h
        rcases (C37_isNumber s).1 h with h | h
        · exact hs h
        · exact hn h
      rw [if_neg this]

theorem numFlag (s : Str) (hs : s ≠ []) : (isDouble s).2 = true ↔ ∃ v, NumText s v := by
  have := C37_isNumber s
  unfold isNumber at this
  rw [this]
  simp [hs]

theorem numOr_spec (s : Str) : NumberOf (some s) (numOr s) := by
  unfold NumberOf
  dsimp only
  by_cases hs : s = []
  · subst hs
    left
    right
    exact ⟨rfl, by decide +kernel⟩
  · rcases fieldNum_spec s with h | ⟨h1, h2⟩
    · left; left
      unfold fieldNum at h
      rw [if_neg hs] at h
      exact h
    · right
      unfold fieldNum at h2
      rw [if_neg hs] at h2
      refine ⟨?_, h2⟩
      rintro ⟨u, hu | ⟨hu, _⟩⟩
      · exact h1 ⟨u, hu⟩
      · exact hs hu

theorem setBy_number (o : Option (List Str)) : NumberOf (firstOf o) (setBy o numOr (.fin (-9999))) := by
  cases o with
  | none => rfl
  | some v => exact numOr_spec _

theorem itemDefault_eq (item : List Str) : itemDefault item = fieldNum (fld item 2) := by
  unfold itemDefault fieldOf fieldNum fld
  rw [List.getD_eq_getElem?_getD]
  cases item[2]? with
  | none => rfl
  | some s => rfl

theorem itemNodata_eq (item : List Str) : (itemNodata item).2 = fieldNum (fld item 3) ∧
    ((itemNodata item).1 = true ↔ ∃ v, NumText (fld item 3) v) := by
  unfold itemNodata fieldOf fieldNum fld
  rw [List.getD_eq_getElem?_getD]
  cases item[3]? with
  | none => exact ⟨rfl, by simp; exact fun v hv => numText_ne_nil hv⟩
  | some s =>
    dsimp only [Option.getD]
    by_cases hs : s = []
    · rw [if_pos hs, if_pos hs]
      exact ⟨rfl, by simp [hs]; exact fun v hv => numText_ne_nil hv⟩
    · rw [if_neg hs, if_neg hs]
      exact ⟨rfl, numFlag s hs⟩

theorem itemTable_eq (item : List Str) : itemTable item = parseKeyValues (fld item 5) [] := by
  unfold itemTable fieldOf fld
  rw [List.getD_eq_getElem?_getD]
  cases item[5]? with
  | none => rfl
  | some s => rfl

theorem itemType_eq (c : Cfg) (item : List Str) : itemType c item =
    if item.length < 5 then .unknown else if stringToRdt (fld item 4) = .unknown then c.outType else stringToRdt (fld item 4) := by
  unfold itemType fieldOf fld
  rw [List.getD_eq_getElem?_getD]
  by_cases h : item.length < 5
  · rw [if_pos h, List.getElem?_eq_none (by omega)]
  · rw [if_neg h, List.getElem?_eq_getElem (by omega)]
    rfl

theorem single_empty_iff (s : Str) : (splitDelim ',' s).length = 1 ∧ (splitDelim ',' s).headD [] = [] ↔ s = [','] := by
  constructor
  · rintro ⟨h1, h2⟩
    have h3 : splitDelim ',' s = [[]] := by
      cases h : splitDelim ',' s with
      | nil => rw [h] at h1; simp at h1
      | cons a l =>
        rw [h] at h1 h2
        cases l with
        | nil => rw [show a = [] from h2]
        | cons => simp at h1
    rw [← fields_iff] at h3
    obtain ⟨_, ⟨h, h'⟩ | ⟨h, h', h''⟩ | ⟨h, h'⟩⟩ := h3
    · simp at h'
    · simp at h''
    · rw [h]; rfl
  · rintro rfl
    decide +kernel

theorem blank_iff (item : List Str) : BlankItem item ↔ (item.length = 1 ∧ item.headD [] = []) ∨
    ((splitDelim ',' (item.headD [])).length = 1 ∧ (splitDelim ',' (item.headD [])).headD [] = [] ∧ (fieldOf item 1).getD [] = []) := by
  have h0 : fld item 0 = item.headD [] := by cases item <;> rfl
  have h1 : fld item 1 = (fieldOf item 1).getD [] := by unfold fld fieldOf; rw [List.getD_eq_getElem?_getD]
  have h2 : item = [[]] ↔ item.length = 1 ∧ item.headD [] = [] := by
    constructor
    · rintro rfl; exact ⟨rfl, rfl⟩
    · rintro ⟨h1, h2⟩
      cases item with
      | nil => simp at h1
      | cons a l =>
        cases l with
        | nil => rw [show a = [] from h2]
        | cons => simp at h1
  unfold BlankItem
  rw [h2, h0, h1, ← and_assoc, single_empty_iff]

instance (item : List Str) : Decidable (BlankItem item) := decidable_of_iff _ (blank_iff item).symm

theorem exist_spec (fs : Fs.FS) (l : List Str) : Fs.filesExist fs l = true ↔ AllExist fs l := by
  rw [Fs.C65_filesExist]; rfl

/-- The raw job of an item. -/
def itemRaw (w : World) (c : Cfg) (item : List Str) : Option Job :=
  if BlankItem item then none
  else
    let ins := splitDelim ',' (fld item 0)
    let f := itemFmts w c ins
    let t := itemTable item
    if (!Fs.filesExist w.fs ins && t.1) || (decide (f.1 = .sfile) && Fs.filesExist w.fs ins) || decide (f.1 = .gfs) then
      some ⟨ins, f.1, fld item 1, f.2, itemDefault item, (itemNodata item).1, (itemNodata item).2, itemType c item, t.1, t.2⟩
    else none

theorem putItem_eq (w : World) (c : Cfg) (item : List Str) : putItem w c item =
    if BlankItem item then c
    else
      let ins := splitDelim ',' (fld item 0)
      let f := itemFmts w c ins
      let c1 : Cfg := { c with inFmt := f.1, outFmt := f.2 }
      match itemRaw w c item with
      | none => c1
      | some j => { c1 with
          inPaths := c.inPaths ++ [j.inputs], inFmts := c.inFmts ++ [j.inFmt], outPaths := c.outPaths ++ [j.out], outFmts := c.outFmts ++ [j.outFmt],
          defaults := c.defaults ++ [j.default], updates := c.updates ++ [j.update],
          nodatas := c.nodatas ++ [j.nodata], outTypes := c.outTypes ++ [j.type],
          reclsData := c.reclsData ++ [j.recls], tables := c.tables ++ [j.table] } := by
  have h0 : fld item 0 = item.headD [] := by cases item <;> rfl
  have h1 : fld item 1 = (fieldOf item 1).getD [] := by unfold fld fieldOf; rw [List.getD_eq_getElem?_getD]
  unfold putItem itemRaw
  by_cases hb : BlankItem item
  · rw [if_pos hb]
    rcases (blank_iff item).1 hb with h | h
    · rw [if_pos h]
    · dsimp only
      rw [if_pos h]
      split <;> rfl
  · have hb' := mt (blank_iff item).2 hb
    rw [not_or] at hb'
    dsimp only
    rw [if_neg hb, if_neg hb, if_neg hb'.1, if_neg hb'.2, h0, h1]
    by_cases h : ((!Fs.filesExist w.fs (splitDelim ',' (item.headD [])) && (itemTable item).1) ||
        (decide ((itemFmts w c (splitDelim ',' (item.headD []))).1 = .sfile) && Fs.filesExist w.fs (splitDelim ',' (item.headD []))) ||
        decide ((itemFmts w c (splitDelim ',' (item.headD []))).1 = .gfs)) = true
    · rw [if_pos h, if_pos h]
    · rw [if_neg h, if_neg h]

theorem Vec.putItem {w : World} {c : Cfg} {L : List Job} (h : Vec c L) (item : List Str) :
    Vec (putItem w c item) (L ++ (itemRaw w c item).toList) := by
  rw [putItem_eq]
  by_cases hb : BlankItem item
  · rw [if_pos hb]
    have : itemRaw w c item = none := by unfold itemRaw; rw [if_pos hb]
    rw [this, Option.toList_none, List.append_nil]
    exact h
  · rw [if_neg hb]
    dsimp only
    cases itemRaw w c item with
    | none =>
      rw [Option.toList_none, List.append_nil]
      exact ⟨h.1, h.2, h.3, h.4, h.5, h.6, h.7, h.8, h.9, h.10⟩
    | some j =>
      constructor
      all_goals simp only [Option.toList_some, List.map_append, List.map_cons, List.map_nil]
      · rw [h.inPaths]
      · rw [h.inFmts]
      · rw [h.outPaths]
      · rw [h.outFmts]
      · rw [h.defaults]
      · rw [h.updates]
      · rw [h.nodatas]
      · rw [h.outTypes]
      · rw [h.reclsData]
      · rw [h.tables]

end Main
end CCGL

namespace CCGL
open Spec
namespace Main

theorem inputs_iff (item ins : List Str) : ItemInputs item ins ↔ splitDelim ',' (fld item 0) = ins := fields_iff _ _ _

theorem settles_iff (w : World) (mongo : Bool) (item : List Str) (f : DataFmt) : Settles w mongo item f ↔ ¬ BlankItem item ∧
    ((AllExist w.fs (splitDelim ',' (fld item 0)) ∧ f = .sfile) ∨
     (¬ AllExist w.fs (splitDelim ',' (fld item 0)) ∧ splitDelim ',' (fld item 0) ≠ [] ∧ mongo = true ∧ f = .gfs)) := by
  unfold Settles
  constructor
  · rintro ⟨h1, ins, h2, h3⟩
    rw [inputs_iff] at h2
    subst h2
    exact ⟨h1, h3⟩
  · rintro ⟨h1, h2⟩
    exact ⟨h1, _, (inputs_iff _ _).2 rfl, h2⟩

/-- The input format after an item that is not blank. -/
theorem inFmt_cases (w : World) (c : Cfg) (item : List Str) (hb : ¬ BlankItem item) :
    (c.inFmt ≠ .unknown ∧ (itemFmts w c (splitDelim ',' (fld item 0))).1 = c.inFmt) ∨
    (c.inFmt = .unknown ∧ Settles w c.useMongo item (itemFmts w c (splitDelim ',' (fld item 0))).1) ∨
    (c.inFmt = .unknown ∧ (itemFmts w c (splitDelim ',' (fld item 0))).1 = .unknown ∧ ∀ f, ¬ Settles w c.useMongo item f) := by
  have key : (itemFmts w c (splitDelim ',' (fld item 0))).1 = if c.inFmt = .unknown then
      (if Fs.filesExist w.fs (splitDelim ',' (fld item 0)) = true then .sfile
       else if splitDelim ',' (fld item 0) ≠ [] ∧ c.useMongo = true then .gfs else .unknown) else c.inFmt := by
    unfold itemFmts
    dsimp only
    by_cases h1 : c.inFmt = .unknown
    · by_cases h2 : Fs.filesExist w.fs (splitDelim ',' (fld item 0)) = true
      · simp [h1, h2]
      · by_cases h3 : splitDelim ',' (fld item 0) ≠ [] ∧ c.useMongo = true
        · simp [h1, h2, h3]
        · simp [h1, h2, h3]
    · simp [h1]
  rw [key]
  simp only [settles_iff, ← exist_spec]
  by_cases h1 : c.inFmt = .unknown
  · right
    rw [if_pos h1]
    by_cases h2 : Fs.filesExist w.fs (splitDelim ',' (fld item 0)) = true
    · left
      rw [if_pos h2]
      exact ⟨h1, hb, Or.inl ⟨h2, rfl⟩⟩
    · rw [if_neg h2]
      by_cases h3 : splitDelim ',' (fld item 0) ≠ [] ∧ c.useMongo = true
      · left
        rw [if_pos h3]
        exact ⟨h1, hb, Or.inr ⟨h2, h3.1, h3.2, rfl⟩⟩
      · right
        rw [if_neg h3]
        refine ⟨h1, rfl, ?_⟩
        rintro f ⟨_, ⟨h, _⟩ | ⟨_, h, h', _⟩⟩
        · exact h2 h
        · exact h3 ⟨h, h'⟩
  · left
    exact ⟨h1, by rw [if_neg h1]⟩

theorem settles_known {w : World} {mongo : Bool} {item : List Str} {f : DataFmt} (h : Settles w mongo item f) : f ≠ .unknown := by
  rintro rfl
  obtain ⟨_, _, _, ⟨_, h⟩ | ⟨_, _, _, h⟩⟩ := h <;> cases h

theorem format_blank {w : World} {mongo : Bool} {g f : DataFmt} {pre : List (List Str)} (h : FormatAfter w mongo g pre f) {item : List Str}
    (hn : ∀ f', ¬ Settles w mongo item f') : FormatAfter w mongo g (pre ++ [item]) f := by
  rcases h with h | ⟨h1, p, it, q, h2, h3, h4⟩ | ⟨h1, h2, h3⟩
  · exact Or.inl h
  · exact Or.inr (Or.inl ⟨h1, p, it, q ++ [item], by rw [h2]; simp, h3, h4⟩)
  · refine Or.inr (Or.inr ⟨h1, h2, ?_⟩)
    intro x hx
    rcases List.mem_append.1 hx with hx | hx
    · exact h3 x hx
    · rw [List.mem_singleton.1 hx]; exact hn

theorem format_step {w : World} {c : Cfg} {g : DataFmt} {pre : List (List Str)} (h : FormatAfter w c.useMongo g pre c.inFmt)
    {item : List Str} (hb : ¬ BlankItem item) :
    FormatAfter w c.useMongo g (pre ++ [item]) (itemFmts w c (splitDelim ',' (fld item 0))).1 := by
  rcases inFmt_cases w c item hb with ⟨h1, h2⟩ | ⟨h1, h2⟩ | ⟨h1, h2, h3⟩
  · rw [h2]
    rcases h with h | ⟨g1, p, it, q, g2, g3, g4⟩ | ⟨g1, g2, g3⟩
    · exact Or.inl h
    · exact Or.inr (Or.inl ⟨g1, p, it, q ++ [item], by rw [g2]; simp, g3, g4⟩)
    · exact absurd g2 h1
  · rcases h with h | ⟨g1, p, it, q, g2, g3, g4⟩ | ⟨g1, g2, g3⟩
    · exact absurd (h.2.symm.trans h1) h.1
    · exact absurd h1 (settles_known g3)
    · exact Or.inr (Or.inl ⟨g1, pre, item, [], rfl, h2, g3⟩)
  · rw [h2, ← h1]
    exact format_blank h h3

/-- The output format of all items. -/
def outOf (mongo : Bool) (o : DataFmt) : DataFmt := if mongo then .gfs else if o = .unknown then .sfile else o

theorem itemFmts_out (w : World) (c : Cfg) (ins : List Str) : (itemFmts w c ins).2 = outOf c.useMongo c.outFmt := by
  unfold itemFmts outOf
  dsimp only
  cases c.useMongo <;> cases c.outFmt <;> rfl

theorem outOf_idem (m : Bool) (o : DataFmt) : outOf m (outOf m o) = outOf m o := by
  cases m <;> cases o <;> rfl

theorem putItem_frame (w : World) (c : Cfg) (item : List Str) : (putItem w c item).useMongo = c.useMongo ∧
    (putItem w c item).outType = c.outType ∧ (putItem w c item).mode = c.mode ∧ (putItem w c item).thread = c.thread ∧
    (putItem w c item).incNodata = c.incNodata ∧ (putItem w c item).maskFmt = c.maskFmt ∧ (putItem w c item).maskPath = c.maskPath ∧
    (putItem w c item).inFmt = (if BlankItem item then c.inFmt else (itemFmts w c (splitDelim ',' (fld item 0))).1) ∧
    (putItem w c item).outFmt = (if BlankItem item then c.outFmt else outOf c.useMongo c.outFmt) := by
  rw [putItem_eq]
  by_cases hb : BlankItem item
  · rw [if_pos hb, if_pos hb, if_pos hb]
    exact ⟨rfl, rfl, rfl, rfl, rfl, rfl, rfl, rfl, rfl⟩
  · rw [if_neg hb, if_neg hb, if_neg hb]
    dsimp only
    cases itemRaw w c item with
    | none => exact ⟨rfl, rfl, rfl, rfl, rfl, rfl, rfl, rfl, itemFmts_out w c (splitDelim ',' (fld item 0))⟩
    | some j => exact ⟨rfl, rfl, rfl, rfl, rfl, rfl, rfl, rfl, itemFmts_out w c (splitDelim ',' (fld item 0))⟩

theorem itemRaw_spec {w : World} {c : Cfg} {g out : DataFmt} {items pre : List (List Str)} {i : Nat} {item : List Str}
    (hpre : items.take (i + 1) = pre ++ [item]) (hf : FormatAfter w c.useMongo g pre c.inFmt)
    (ho : outOf c.useMongo c.outFmt = outOf c.useMongo out) :
    ItemJob w c.useMongo g out c.outType items i item ((itemRaw w c item).map fix) := by
  unfold ItemJob
  by_cases hb : BlankItem item
  · left
    refine ⟨hb, ?_⟩
    unfold itemRaw
    rw [if_pos hb]
    rfl
  · right
    refine ⟨hb, splitDelim ',' (fld item 0), (itemFmts w c (splitDelim ',' (fld item 0))).1, fieldNum (fld item 2), fieldNum (fld item 3),
      (inputs_iff _ _).2 rfl, ?_, fieldNum_spec _, fieldNum_spec _, ?_⟩
    · rw [hpre]; exact format_step hf hb
    · dsimp only
      unfold itemRaw
      rw [if_neg hb]
      dsimp only
      rw [itemTable_eq, itemDefault_eq, (itemNodata_eq item).1, itemType_eq]
      have hcond : ((!Fs.filesExist w.fs (splitDelim ',' (fld item 0)) && (parseKeyValues (fld item 5) []).1) ||
          (decide ((itemFmts w c (splitDelim ',' (fld item 0))).1 = .sfile) && Fs.filesExist w.fs (splitDelim ',' (fld item 0))) ||
          decide ((itemFmts w c (splitDelim ',' (fld item 0))).1 = .gfs)) = true ↔
        ((AllExist w.fs (splitDelim ',' (fld item 0)) ∧ (itemFmts w c (splitDelim ',' (fld item 0))).1 = .sfile) ∨
          (itemFmts w c (splitDelim ',' (fld item 0))).1 = .gfs ∨
          (¬ AllExist w.fs (splitDelim ',' (fld item 0)) ∧ (parseKeyValues (fld item 5) []).1 = true)) := by
        rw [Bool.or_eq_true, Bool.or_eq_true, Bool.and_eq_true, Bool.and_eq_true, Bool.not_eq_true', decide_eq_true_eq, decide_eq_true_eq,
          ← exist_spec, Bool.eq_false_iff]
        tauto
      by_cases hu : ((AllExist w.fs (splitDelim ',' (fld item 0)) ∧ (itemFmts w c (splitDelim ',' (fld item 0))).1 = .sfile) ∨
          (itemFmts w c (splitDelim ',' (fld item 0))).1 = .gfs ∨
          (¬ AllExist w.fs (splitDelim ',' (fld item 0)) ∧ (parseKeyValues (fld item 5) []).1 = true))
      · right
        refine ⟨hu, (itemNodata item).1, (itemNodata_eq item).2, ?_⟩
        rw [if_pos (hcond.2 hu), itemFmts_out, ho]
        rfl
      · left
        refine ⟨hu, ?_⟩
        rw [if_neg (fun h => hu (hcond.1 h))]
        rfl

theorem itemJob_prefix {w : World} {m : Bool} {g o : DataFmt} {t : RDT} {items : List (List Str)} {x : List Str} {i : Nat}
    (hi : i < items.length) {item : List Str} {j : Option Job} (h : ItemJob w m g o t items i item j) :
    ItemJob w m g o t (items ++ [x]) i item j := by
  unfold ItemJob at *
  rw [List.take_append_of_le_length (by omega)]
  exact h

/-- All items. -/
theorem items_spec (w : World) (base : Cfg) (L : List Job) (hV : Vec base L) (items : List (List Str)) :
    ∃ raw : List (Option Job), raw.length = items.length ∧
      (∀ i item j, items[i]? = some item → raw[i]? = some j →
        ItemJob w base.useMongo base.inFmt base.outFmt base.outType items i item (j.map fix)) ∧
      Vec (items.foldl (putItem w) base) (L ++ raw.filterMap id) ∧
      (items.foldl (putItem w) base).useMongo = base.useMongo ∧ (items.foldl (putItem w) base).outType = base.outType ∧
      outOf base.useMongo (items.foldl (putItem w) base).outFmt = outOf base.useMongo base.outFmt ∧
      FormatAfter w base.useMongo base.inFmt items (items.foldl (putItem w) base).inFmt := by
  induction items using List.reverseRecOn with
  | nil =>
    refine ⟨[], rfl, fun i item j h => by simp at h, by simpa using hV, rfl, rfl, rfl, ?_⟩
    by_cases h : base.inFmt = .unknown
    · exact Or.inr (Or.inr ⟨h, h, by simp⟩)
    · exact Or.inl ⟨h, rfl⟩
  | append_singleton items x ih =>
    obtain ⟨raw, h1, h2, h3, h4, h5, h6, h7⟩ := ih
    rw [List.foldl_append, List.foldl_cons, List.foldl_nil]
    generalize items.foldl (putItem w) base = c at *
    obtain ⟨f1, f2, _, _, _, _, _, f3, f4⟩ := putItem_frame w c x
    refine ⟨raw ++ [itemRaw w c x], by simp [h1], ?_, ?_, ?_, ?_, ?_, ?_⟩
    · intro i item j hi hj
      by_cases hlt : i < items.length
      · rw [List.getElem?_append_left hlt] at hi
        rw [List.getElem?_append_left (by omega)] at hj
        exact itemJob_prefix hlt (h2 i item j hi hj)
      · rw [List.getElem?_append_right (by omega)] at hi
        rw [List.getElem?_append_right (by omega)] at hj
        have hie : i = items.length := by
          by_contra hne
          rw [List.getElem?_eq_none (by simp; omega)] at hi
          cases hi
        subst hie
        rw [Nat.sub_self] at hi
        rw [h1, Nat.sub_self] at hj
        have e1 : x = item := by simpa using hi
        have e2 : itemRaw w c x = j := by simpa using hj
        subst e1 e2
        have := itemRaw_spec (w := w) (c := c) (g := base.inFmt) (out := base.outFmt) (items := items ++ [x]) (pre := items)
          (i := items.length) (item := x) (by rw [List.take_of_length_le (by simp)]) (by rw [h4]; exact h7) (by rw [h4]; exact h6)
        rw [h4, h5] at this
        exact this
    · rw [List.filterMap_append, ← List.append_assoc]
      have hx : List.filterMap id [itemRaw w c x] = (itemRaw w c x).toList := by
        cases itemRaw w c x <;> rfl
      rw [hx]
      exact h3.putItem x
    · rw [f1, h4]
    · rw [f2, h5]
    · rw [f4]
      by_cases hb : BlankItem x
      · rw [if_pos hb, h6]
      · rw [if_neg hb, h4, outOf_idem, h6]
    · rw [f3]
      by_cases hb : BlankItem x
      · rw [if_pos hb]
        exact format_blank h7 (fun f' h => h.1 hb)
      · rw [if_neg hb, ← h4]
        rw [← h4] at h7
        exact format_step h7 hb

end Main
end CCGL
