import Verif.Lemmas.AppSettings
/-!
# C76: the jobs of `mask_rasterio` are those described by the command line and the configuration file
-/
namespace CCGL
open Spec
namespace Main

theorem configFile_unique {args : List Str} {p q : Str} (hp : ConfigFile args p) (hq : ConfigFile args q) : p = q := by
  rcases hp with ⟨i, h1, h2⟩ | ⟨rfl, h1⟩
  · rcases hq with ⟨j, h3, h4⟩ | ⟨rfl, h3⟩
    · rcases lt_trichotomy i j with h | h | h
      · exact absurd h3 (h2 j h q)
      · subst h
        obtain ⟨_, _, _, h5, _⟩ := h1
        obtain ⟨_, _, _, h6, _⟩ := h3
        rw [h5] at h6
        exact Option.some.inj h6
      · exact absurd h1 (h4 i h p)
    · exact absurd h1 (h3 i p)
  · rcases hq with ⟨j, h3, h4⟩ | ⟨rfl, h3⟩
    · exact absurd h3 (h1 j q)
    · rfl

theorem textContent_unique {text : Str} {a b : List Str} (ha : TextContent text a) (hb : TextContent text b) : a = b := by
  have h1 := loadPlain_content text [] a ha
  have h2 := loadPlain_content text [] b hb
  rw [h1] at h2
  simpa using h2

theorem fileLines_unique {w : World} {args a b : List Str} (ha : FileLines w args a) (hb : FileLines w args b) : a = b := by
  obtain ⟨p, h1, h2⟩ := ha
  obtain ⟨q, h3, h4⟩ := hb
  have := configFile_unique h1 h3
  subst this
  rcases h2 with ⟨e, rfl⟩ | ⟨e, t, ht, hc⟩
  · rcases h4 with ⟨_, rfl⟩ | ⟨e', _⟩
    · rfl
    · exact absurd e e'
  · rcases h4 with ⟨e', _⟩ | ⟨_, t', ht', hc'⟩
    · exact absurd e' e
    · rw [ht] at ht'
      cases ht'
      exact textContent_unique hc hc'

/-- C76: the settings come from the command line, else from the configuration file; the first occurrence counts; the other lines of the
file are the data items. -/
theorem C76_settings (w : World) (args : List Str) (hnul : ∀ a ∈ args, Char.ofNat 0 ∉ a) (m : Args) (items : List (List Str))
    (h : readArgs w args = .ok (.go (m, items))) : ∃ lines, FileLines w args lines ∧ Says m.get args lines ∧ Items lines items := by
  unfold readArgs at h
  by_cases ha : args = []
  · rw [if_pos ha] at h; cases h
  rw [if_neg ha] at h
  obtain ⟨p, h1, h2⟩ := Out.bind_ok h
  have hcf : ConfigFile args p := by
    rcases configPath_spec args hnul [] p h1 with h | h
    · exact Or.inl h
    · exact Or.inr h
  dsimp only at h2
  by_cases hp : p = []
  · rw [if_pos hp] at h2
    cases h2
    refine ⟨[], ⟨p, hcf, Or.inl ⟨hp, rfl⟩⟩, ?_, List.Forall₂.nil⟩
    intro name vals hn
    rw [command_get hn]
    unfold Setting
    constructor
    · intro h; exact Or.inl h
    · rintro (h | ⟨_, h⟩)
      · exact h
      · exact absurd h inFile_nil
  · rw [if_neg hp] at h2
    by_cases he : (!Fs.fileExists w.fs p) = true
    · rw [if_pos he] at h2; cases h2
    · rw [if_neg he] at h2
      cases ht : w.text p with
      | none => rw [ht] at h2; cases h2
      | some text =>
        rw [ht] at h2
        obtain ⟨lines, hl⟩ := textContent_total text
        rw [loadPlain_content text [] lines hl] at h2
        have h2 : Res.go (lines.foldl putLine (commandArgs args, [])) = Res.go (m, items) := by
          simpa using h2
        injection h2 with h2
        have hcon : ∀ l ∈ lines, Content l := by
          obtain ⟨ls, _, _, _, hc⟩ := hl
          exact contentLines_mem hc
        refine ⟨lines, ⟨p, hcf, Or.inr ⟨hp, text, ht, hl⟩⟩, ?_, ?_⟩
        · intro name vals hn
          have := (lines_get name lines hcon (commandArgs args, []) (command_sorted args) vals).2
          rw [h2] at this
          rw [this, command_get hn, command_none hn]
          rfl
        · obtain ⟨its, g1, g2⟩ := lines_items lines hcon (commandArgs args, [])
          rw [h2] at g1
          rw [show items = its by simpa using g1]
          exact g2

theorem readArgs_sorted {w : World} {args : List Str} {m : Args} {items : List (List Str)}
    (h : readArgs w args = .ok (.go (m, items))) : Sorted m := by
  unfold readArgs at h
  by_cases ha : args = []
  · rw [if_pos ha] at h; cases h
  rw [if_neg ha] at h
  obtain ⟨p, h1, h2⟩ := Out.bind_ok h
  dsimp only at h2
  by_cases hp : p = []
  · rw [if_pos hp] at h2
    cases h2
    exact command_sorted args
  · rw [if_neg hp] at h2
    by_cases he : (!Fs.fileExists w.fs p) = true
    · rw [if_pos he] at h2; cases h2
    · rw [if_neg he] at h2
      cases ht : w.text p with
      | none => rw [ht] at h2; cases h2
      | some text =>
        rw [ht] at h2
        obtain ⟨lines, hl⟩ := textContent_total text
        rw [loadPlain_content text [] lines hl] at h2
        have h2 : Res.go (lines.foldl putLine (commandArgs args, [])) = Res.go (m, items) := by
          simpa using h2
        injection h2 with h2
        have hcon : ∀ l ∈ lines, Content l := by
          obtain ⟨ls, _, _, _, hc⟩ := hl
          exact contentLines_mem hc
        have := (lines_get [] lines hcon (commandArgs args, []) (command_sorted args) []).1
        rw [h2] at this
        exact this

/-- A table that says the same is the same on the known names. -/
theorem says_get {m : Args} {S : Settings} {args lines : List Str} (h1 : Says m.get args lines) (h2 : Says S args lines) (n : Str)
    (hu : getUpper n = n) (hn : ¬ SameText n "configfile".toList) : S n = m.get n := by
  have a1 := fun v => h1 n v hn
  have a2 := fun v => h2 n v hn
  rw [hu] at a1 a2
  cases hS : S n with
  | none =>
    cases hm : m.get n with
    | none => rfl
    | some v =>
      have := (a2 v).2 ((a1 v).1 hm)
      rw [hS] at this
      cases this
  | some v => exact ((a1 v).2 ((a2 v).1 hS)).symm

theorem known_upper : ∀ n ∈ known, getUpper n = n ∧ stringMatch n "configfile".toList = false := by decide +kernel

theorem says_known {m : Args} {S : Settings} {args lines : List Str} (h1 : Says m.get args lines) (h2 : Says S args lines) :
    ∀ n ∈ known, S n = m.get n := by
  intro n hn
  obtain ⟨g1, g2⟩ := known_upper n hn
  refine says_get h1 h2 n g1 ?_
  rw [← stringMatch_iff, g2]
  simp

theorem derived_eq (w : World) (paths : List Str) : derivedOut w paths = maskedName w.fs paths := by
  unfold derivedOut maskedName
  cases paths with
  | nil =>
    dsimp only
    rw [if_neg (by simp)]
    cases Fs.findLastOf '_' (Fs.getCoreFileName w.fs (List.headD [] [])) with
    | none => simp [substr]
    | some i => simp [substr]
  | cons p ps =>
    cases ps with
    | nil => rfl
    | cons q qs =>
      dsimp only
      rw [if_neg (by simp)]
      cases Fs.findLastOf '_' (Fs.getCoreFileName w.fs (List.headD (p :: q :: qs) [])) with
      | none => simp [substr]
      | some i => simp [substr]

/-- The configuration after the settings (before the items). -/
theorem normalise_spec {w : World} {S : Settings} {inp : Option (DataFmt × List Str)} {of : DataFmt} {op : Option Str} {mf : DataFmt} {mp : Str}
    (hi : InputOf w (S.either "IN".toList "INPUT".toList) inp) (ho : OutputOf w (S.either "OUT".toList "OUTPUT".toList) of op) {c' : Cfg}
    (h : normalise w (settled S inp of op mf mp (MongoOf w (S.either "MONGO".toList "MONGODB".toList))) = .go c') :
    ∃ L : List Job, Vec c' L ∧ CommandJob w S inp of op (L.map fix).head? ∧ L.length ≤ 1 ∧
      c'.useMongo = MongoOf w (S.either "MONGO".toList "MONGODB".toList) ∧ c'.inFmt = inFmtOf inp ∧
      c'.outFmt = outFormat (MongoOf w (S.either "MONGO".toList "MONGODB".toList)) of (inFmtOf inp) ∧
      c'.outType = namedType (firstOf (S "OUTDATATYPE".toList)) ∧
      c'.mode = setBy (S "MODE".toList) stringToIOMode .mask ∧
      c'.thread = setBy (S "THREAD".toList) (fun s => if (isInt s).2 then (isInt s).1 else 1) 1 ∧
      c'.incNodata = setBy (S "INCLUDE_NODATA".toList) (fun s => if (isInt s).2 then decide ((isInt s).1 > 0) else true) true ∧
      c'.maskFmt = mf ∧ c'.maskPath = mp := by
  have htype : setBy (S "OUTDATATYPE".toList) stringToRdt .unknown = namedType (firstOf (S "OUTDATATYPE".toList)) := by
    cases S "OUTDATATYPE".toList <;> rfl
  generalize hM : MongoOf w (S.either "MONGO".toList "MONGODB".toList) = mongo at h ⊢
  have hf2 : (if (if !mongo && decide (of = .gfs) then DataFmt.sfile else of) = .unknown then inFmtOf inp
      else (if !mongo && decide (of = .gfs) then DataFmt.sfile else of)) = outFormat mongo of (inFmtOf inp) := by
    cases mongo <;> cases of <;> rfl
  unfold normalise settled at h
  dsimp only at h
  cases hinp : inp with
  | none =>
    rw [hinp] at h hf2 hi
    dsimp only [inPathsOf] at h
    injection h with h
    refine ⟨[], ?_, ⟨hi, ho, ?_⟩, by simp, ?_⟩
    · rw [← h]
      exact ⟨rfl, rfl, rfl, rfl, rfl, rfl, rfl, rfl, rfl, rfl⟩
    · rfl
    · rw [← h]
      exact ⟨rfl, rfl, hf2, htype, rfl, rfl, rfl, rfl, rfl⟩
  | some x =>
    obtain ⟨f, ps⟩ := x
    rw [hinp] at h hf2 hi
    cases ps with
    | nil =>
      have e1 : inPathsOf (some (f, [])) = [] := rfl
      have e2 : inFmtsOf (some (f, [])) = [] := rfl
      rw [e1] at h
      injection h with h
      refine ⟨[], ?_, ⟨hi, ho, ?_⟩, by simp, ?_⟩
      · rw [← h]
        exact ⟨rfl, e2, rfl, rfl, rfl, rfl, rfl, rfl, rfl, rfl⟩
      · rfl
      · rw [← h]
        exact ⟨rfl, rfl, hf2, htype, rfl, rfl, rfl, rfl, rfl⟩
    | cons p ps =>
      have e1 : inPathsOf (some (f, p :: ps)) = [p :: ps] := rfl
      have e2 : inFmtsOf (some (f, p :: ps)) = [f] := rfl
      rw [e1] at h
      injection h with h
      refine ⟨[{
          inputs := p :: ps, inFmt := f, out := op.getD (maskedName w.fs (p :: ps)), outFmt := outFormat mongo of f
          default := setBy (S.either "DEFAULT".toList "DEFAULTVALUE".toList) numOr (.fin (-9999))
          update := (S.either "NODATA".toList "NODATAVALUE".toList).isSome
          nodata := setBy (S.either "NODATA".toList "NODATAVALUE".toList) numOr (.fin (-9999))
          type := namedType (firstOf (S "OUTDATATYPE".toList))
          recls := (tableOf (firstOf (S "RECLASS".toList))).1, table := (tableOf (firstOf (S "RECLASS".toList))).2 }], ?_, ⟨hi, ho, ?_⟩, by simp, ?_⟩
      · rw [← h]
        refine ⟨rfl, e2, ?_, ?_, rfl, rfl, rfl, ?_, rfl, ?_⟩
        · cases op with
          | none =>
            show [derivedOut w (p :: ps)] = [maskedName w.fs (p :: ps)]
            rw [derived_eq]
          | some o => rfl
        · cases op with
          | none => exact congrArg (fun x => [x]) hf2
          | some o => exact congrArg (fun x => [x]) hf2
        · exact congrArg (fun x => [x]) htype
        · cases S "RECLASS".toList with
          | none => rfl
          | some v => rfl
      · dsimp only
        refine ⟨_, _, setBy_number _, setBy_number _, ?_⟩
        rw [hM]
        rfl
      · rw [← h]
        exact ⟨rfl, rfl, hf2, htype, rfl, rfl, rfl, rfl, rfl⟩

end Main
end CCGL

namespace CCGL
open Spec
namespace Main

theorem configure_go {w : World} {args : List Str} {c : Cfg} (h : configure w args = .ok (.go c)) :
    ∃ m items c0 c1, readArgs w args = .ok (.go (m, items)) ∧ tags w {} m = .ok (.go c0) ∧ normalise w c0 = .go c1 ∧
      c = items.foldl (putItem w) c1 := by
  unfold configure at h
  obtain ⟨r, h1, h2⟩ := Out.bind_ok h
  cases r with
  | exit n => cases h2
  | go x =>
    obtain ⟨m, items⟩ := x
    dsimp only at h2
    obtain ⟨t, h3, h4⟩ := Out.bind_ok h2
    cases t with
    | exit n => cases h4
    | go c0 =>
      dsimp only at h4
      cases hn : normalise w c0 with
      | exit n => rw [hn] at h4; cases h4
      | go c1 =>
        rw [hn] at h4
        cases h4
        exact ⟨m, items, c0, c1, h1, h3, hn, rfl⟩

theorem foldl_frame (w : World) (items : List (List Str)) (c : Cfg) : (items.foldl (putItem w) c).mode = c.mode ∧
    (items.foldl (putItem w) c).thread = c.thread ∧ (items.foldl (putItem w) c).incNodata = c.incNodata ∧
    (items.foldl (putItem w) c).maskFmt = c.maskFmt ∧ (items.foldl (putItem w) c).maskPath = c.maskPath := by
  induction items generalizing c with
  | nil => exact ⟨rfl, rfl, rfl, rfl, rfl⟩
  | cons x xs ih =>
    obtain ⟨_, _, g1, g2, g3, g4, g5, _, _⟩ := putItem_frame w c x
    obtain ⟨i1, i2, i3, i4, i5⟩ := ih (putItem w c x)
    rw [List.foldl_cons]
    exact ⟨i1.trans g1, i2.trans g2, i3.trans g3, i4.trans g4, i5.trans g5⟩

/-- Everything about a successful configuration. -/
theorem configure_all {w : World} {args : List Str} (hnul : ∀ a ∈ args, Char.ofNat 0 ∉ a) {c : Cfg} (h : configure w args = .ok (.go c))
    {lines : List Str} {S : Settings} {items : List (List Str)} (hf : FileLines w args lines) (hS : Says S args lines) (hi : Items lines items)
    (h1 : OneName S "IN".toList "INPUT".toList) (h2 : OneName S "OUT".toList "OUTPUT".toList) (h3 : OneName S "MONGO".toList "MONGODB".toList) :
    ∃ inp of op mf mp L c1, CommandJob w S inp of op (L.map fix).head? ∧ L.length ≤ 1 ∧ MaskOf w (S "MASK".toList) mf mp ∧ Vec c1 L ∧
      (∀ s, firstOf (S "MODE".toList) = some s → stringToIOMode s ≠ .unknown) ∧
      c = items.foldl (putItem w) c1 ∧
      c1.useMongo = MongoOf w (S.either "MONGO".toList "MONGODB".toList) ∧ c1.inFmt = inFmtOf inp ∧
      c1.outFmt = outFormat (MongoOf w (S.either "MONGO".toList "MONGODB".toList)) of (inFmtOf inp) ∧
      c1.outType = namedType (firstOf (S "OUTDATATYPE".toList)) ∧
      c1.mode = setBy (S "MODE".toList) stringToIOMode .mask ∧
      c1.thread = setBy (S "THREAD".toList) (fun s => if (isInt s).2 then (isInt s).1 else 1) 1 ∧
      c1.incNodata = setBy (S "INCLUDE_NODATA".toList) (fun s => if (isInt s).2 then decide ((isInt s).1 > 0) else true) true ∧
      c1.maskFmt = mf ∧ c1.maskPath = mp := by
  obtain ⟨m, items', c0, c1, r1, r2, r3, r4⟩ := configure_go h
  obtain ⟨lines', g1, g2, g3⟩ := C76_settings w args hnul m items' r1
  have hl := fileLines_unique hf g1
  subst hl
  have hit := items_unique hi g3
  subst hit
  have hk := says_known g2 hS
  have hkn : ∀ n, n ∈ known → m.get n = S n := fun n hn => (hk n hn).symm
  have kIn : "IN".toList ∈ known := by unfold known; simp only [List.mem_cons, true_or, or_true]
  have kInput : "INPUT".toList ∈ known := by unfold known; simp only [List.mem_cons, true_or, or_true]
  have kOut : "OUT".toList ∈ known := by unfold known; simp only [List.mem_cons, true_or, or_true]
  have kOutput : "OUTPUT".toList ∈ known := by unfold known; simp only [List.mem_cons, true_or, or_true]
  have kMongo : "MONGO".toList ∈ known := by unfold known; simp only [List.mem_cons, true_or, or_true]
  have kMongodb : "MONGODB".toList ∈ known := by unfold known; simp only [List.mem_cons, true_or, or_true]
  have kMask : "MASK".toList ∈ known := by unfold known; simp only [List.mem_cons, true_or, or_true]
  have kMode : "MODE".toList ∈ known := by unfold known; simp only [List.mem_cons, true_or, or_true]
  have k1 : "DEFAULT".toList ∈ known := by unfold known; simp only [List.mem_cons, true_or, or_true]
  have k2 : "DEFAULTVALUE".toList ∈ known := by unfold known; simp only [List.mem_cons, true_or, or_true]
  have k3 : "NODATA".toList ∈ known := by unfold known; simp only [List.mem_cons, true_or, or_true]
  have k4 : "NODATAVALUE".toList ∈ known := by unfold known; simp only [List.mem_cons, true_or, or_true]
  have k5 : "OUTDATATYPE".toList ∈ known := by unfold known; simp only [List.mem_cons, true_or, or_true]
  have k6 : "RECLASS".toList ∈ known := by unfold known; simp only [List.mem_cons, true_or, or_true]
  have k7 : "THREAD".toList ∈ known := by unfold known; simp only [List.mem_cons, true_or, or_true]
  have k8 : "INCLUDE_NODATA".toList ∈ known := by unfold known; simp only [List.mem_cons, true_or, or_true]
  unfold OneName at h1 h2 h3
  rw [← hkn _ kIn, ← hkn _ kInput] at h1
  rw [← hkn _ kOut, ← hkn _ kOutput] at h2
  rw [← hkn _ kMongo, ← hkn _ kMongodb] at h3
  obtain ⟨inp, of, op, mf, mp, t1, t2, t3, t4, t5⟩ := tags_spec (readArgs_sorted r1) r2 h1 h2 h3
  have he : ∀ n n', n ∈ known → n' ∈ known → Settings.either m.get n n' = S.either n n' := by
    intro n n' hn hn'
    unfold Settings.either
    rw [hkn n hn, hkn n' hn']
  have hset : settled m.get inp of op mf mp (MongoOf w (Settings.either m.get "MONGO".toList "MONGODB".toList)) =
      settled S inp of op mf mp (MongoOf w (S.either "MONGO".toList "MONGODB".toList)) := by
    unfold settled
    rw [he _ _ kMongo kMongodb, he _ _ k1 k2, he _ _ k3 k4, hkn _ kMode, hkn _ k5, hkn _ k6, hkn _ k7, hkn _ k8]
  rw [he _ _ kIn kInput] at t1
  rw [he _ _ kOut kOutput] at t2
  rw [hkn _ kMask] at t3
  rw [hkn _ kMode] at t4
  rw [t5, hset] at r3
  obtain ⟨L, n1, n2, n3, n4⟩ := normalise_spec t1 t2 r3
  exact ⟨inp, of, op, mf, mp, L, c1, n2, n3, t3, n1, t4, r4, n4⟩

/-- C76: a successful configuration gives every input exactly the settings described for it: the job of the command line (if any), then
the jobs of the data items in their order. No vector is too short. Excluded: two names of one setting used together. -/
theorem C76_jobs_partial (w : World) (args : List Str) (hnul : ∀ a ∈ args, Char.ofNat 0 ∉ a) (c : Cfg) (h : configure w args = .ok (.go c))
    (lines : List Str) (S : Settings) (items : List (List Str)) (hf : FileLines w args lines) (hS : Says S args lines) (hi : Items lines items)
    (h1 : OneName S "IN".toList "INPUT".toList) (h2 : OneName S "OUT".toList "OUTPUT".toList) (h3 : OneName S "MONGO".toList "MONGODB".toList) :
    ∃ inp of op cmd, ∃ js : List (Option Job), CommandJob w S inp of op cmd ∧ js.length = items.length ∧
      (∀ i item j, items[i]? = some item → js[i]? = some j →
        ItemJob w (MongoOf w (S.either "MONGO".toList "MONGODB".toList)) (inp.map (·.1) |>.getD .unknown)
          (outFormat (MongoOf w (S.either "MONGO".toList "MONGODB".toList)) of (inp.map (·.1) |>.getD .unknown))
          (namedType (firstOf (S "OUTDATATYPE".toList))) items i item j) ∧
      jobs c = .ok (cmd.toList ++ js.filterMap id) := by
  obtain ⟨inp, of, op, mf, mp, L, c1, a1, a2, a3, a4, a5, a6, a7, a8, a9, a10, _⟩ := configure_all hnul h hf hS hi h1 h2 h3
  obtain ⟨raw, b1, b2, b3, _⟩ := items_spec w c1 L a4 items
  have hin : (inp.map (·.1)).getD .unknown = inFmtOf inp := by cases inp <;> rfl
  refine ⟨inp, of, op, (L.map fix).head?, raw.map (Option.map fix), a1, by simp [b1], ?_, ?_⟩
  · intro i item j hit hj
    rw [List.getElem?_map] at hj
    cases hr : raw[i]? with
    | none => rw [hr] at hj; cases hj
    | some x =>
      rw [hr] at hj
      cases hj
      have := b2 i item x hit hr
      rw [a7, a8, a9, a10] at this
      rw [hin]
      exact this
  · rw [a6, b3.jobs, List.map_append]
    congr 2
    · cases L with
      | nil => rfl
      | cons x xs => cases xs with
        | nil => rfl
        | cons => simp at a2
    · rw [List.filterMap_map]
      clear b1 b2 b3
      induction raw with
      | nil => rfl
      | cons x xs ih =>
        cases x with
        | none => simpa using ih
        | some y => simpa using ih

theorem integer_spec (o : Option (List Str)) : IntegerOf (firstOf o) 1 (setBy o (fun s => if (isInt s).2 then (isInt s).1 else 1) 1) := by
  cases o with
  | none => rfl
  | some v =>
    show IntegerOf (some (v.headD [])) 1 (if (isInt (v.headD [])).2 then (isInt (v.headD [])).1 else 1)
    generalize v.headD [] = s
    unfold IntegerOf
    dsimp only
    by_cases h : (isInt s).2 = true
    · rw [if_pos h]
      left
      rw [← C35_isInt, ← h]
    · rw [if_neg h]
      right
      refine ⟨?_, rfl⟩
      rintro ⟨u, hu⟩
      rw [← C35_isInt] at hu
      rw [hu] at h
      exact h rfl

/-- C76: the other settings of a successful configuration. -/
theorem C76_options_partial (w : World) (args : List Str) (hnul : ∀ a ∈ args, Char.ofNat 0 ∉ a) (c : Cfg) (h : configure w args = .ok (.go c))
    (lines : List Str) (S : Settings) (items : List (List Str)) (hf : FileLines w args lines) (hS : Says S args lines) (hi : Items lines items)
    (h1 : OneName S "IN".toList "INPUT".toList) (h2 : OneName S "OUT".toList "OUTPUT".toList) (h3 : OneName S "MONGO".toList "MONGODB".toList) :
    ModeOf (firstOf (S "MODE".toList)) c.mode ∧ IntegerOf (firstOf (S "THREAD".toList)) 1 c.thread ∧
    (∃ v, IntegerOf (firstOf (S "INCLUDE_NODATA".toList)) 1 v ∧ c.incNodata = decide (v > 0)) ∧
    c.useMongo = MongoOf w (S.either "MONGO".toList "MONGODB".toList) ∧ MaskOf w (S "MASK".toList) c.maskFmt c.maskPath := by
  obtain ⟨inp, of, op, mf, mp, L, c1, a1, a2, a3, a4, a5, a6, a7, a8, a9, a10, a11, a12, a13, a14, a15⟩ :=
    configure_all hnul h hf hS hi h1 h2 h3
  obtain ⟨raw, b1, b2, b3, b4, _⟩ := items_spec w c1 L a4 items
  obtain ⟨f1, f2, f3, f4, f5⟩ := foldl_frame w items c1
  rw [a6]
  refine ⟨?_, ?_, ?_, ?_, ?_⟩
  · rw [f1, a11]
    cases hm : S "MODE".toList with
    | none => rfl
    | some v =>
      show ∃ n ∈ modeNames (stringToIOMode (v.headD [])), SameText (v.headD []) n
      exact (C58_mode _ _ (a5 _ (by rw [hm]; rfl))).1 rfl
  · rw [f2, a12]
    exact integer_spec _
  · rw [f3, a13]
    refine ⟨_, integer_spec (S "INCLUDE_NODATA".toList), ?_⟩
    cases S "INCLUDE_NODATA".toList with
    | none => rfl
    | some v =>
      show (if (isInt (v.headD [])).2 then decide ((isInt (v.headD [])).1 > 0) else true) =
        decide ((if (isInt (v.headD [])).2 then (isInt (v.headD [])).1 else 1) > 0)
      by_cases hh : (isInt (v.headD [])).2 = true
      · rw [if_pos hh, if_pos hh]
      · rw [if_neg hh, if_neg hh]; rfl
  · rw [b4, a7]
  · rw [f4, f5, a14, a15]
    exact a3

/-! ## Exit codes -/

theorem tags_exit {w : World} {m : Args} {c : Cfg} {n : Nat} (h : tags w c m = .ok (.exit n)) :
    ∃ e ∈ m, ∃ c', tag w c' e.1 e.2 = .ok (.exit n) := by
  induction m generalizing c with
  | nil => cases h
  | cons e m ih =>
    rw [tags_cons] at h
    cases ht : tag w c e.1 e.2 with
    | ok r => cases r with
      | go c' =>
        rw [ht] at h
        obtain ⟨e', h1, h2⟩ := ih h
        exact ⟨e', by simp [h1], h2⟩
      | exit k =>
        rw [ht] at h
        cases h
        exact ⟨e, by simp, c, ht⟩
    | ub => rw [ht] at h; cases h
    | exn => rw [ht] at h; cases h

theorem first_no_exit {v : List Str} {f : Str → Cfg} {n : Nat} (h : (do let s ← at0 v; return Res.go (f s)) = .ok (Res.exit n)) : False := by
  obtain ⟨s, _, h2⟩ := Out.bind_ok h
  cases h2

theorem tag_exit {w : World} {c : Cfg} {k : Str} {v : List Str} {n : Nat} (h : tag w c k v = .ok (.exit n)) : Refused w k v n := by
  by_cases hk : k ∈ known
  · unfold known at hk
    simp only [List.mem_cons, List.not_mem_nil, or_false] at hk
    have hin : tagIn w c v = .ok (.exit n) → n = 2 ∧ FmtPaths (fun s => Fs.fileExists w.fs s = true) "IN".toList v none := by
      intro h
      unfold tagIn at h
      obtain ⟨r, h1, h2⟩ := Out.bind_ok h
      obtain ⟨p, hp, rfl⟩ := parse_spec h1
      cases p with
      | none => cases h2; exact ⟨rfl, hp⟩
      | some x =>
        obtain ⟨f, l⟩ := x
        cases l <;> cases h2
    have hout : tagOut w c v = .ok (.exit n) → False := by
      intro h
      unfold tagOut at h
      obtain ⟨r, h1, h2⟩ := Out.bind_ok h
      obtain ⟨p, hp, rfl⟩ := parse_spec h1
      cases p with
      | none => cases h2
      | some x =>
        obtain ⟨f, l⟩ := x
        cases l <;> cases h2
    have hmongo : tagMongo w c v = .ok (.exit n) → n = 1 ∧ v.length < 4 := by
      intro h
      unfold tagMongo at h
      by_cases hl : v.length < 4
      · rw [if_pos hl] at h; cases h; exact ⟨rfl, hl⟩
      · rw [if_neg hl] at h
        cases hm : w.mongo (v.take 4) with
        | none => rw [hm] at h; cases h
        | some b => rw [hm] at h; cases h
    rcases hk with rfl | rfl | rfl | rfl | rfl | rfl | rfl | rfl | rfl | rfl | rfl | rfl | rfl | rfl | rfl | rfl
    · rw [tag_default w c v _ (Or.inl rfl)] at h; exact (first_no_exit h).elim
    · rw [tag_default w c v _ (Or.inr rfl)] at h; exact (first_no_exit h).elim
    · rw [tag_in] at h; exact Or.inr (Or.inl ⟨Or.inl rfl, hin h⟩)
    · rw [tag_nodataflag] at h; exact (first_no_exit h).elim
    · rw [tag_input] at h; exact Or.inr (Or.inl ⟨Or.inr rfl, hin h⟩)
    · rw [tag_mask] at h
      unfold tagMask at h
      obtain ⟨r, h1, h2⟩ := Out.bind_ok h
      obtain ⟨p, hp, rfl⟩ := parse_spec h1
      cases p with
      | none => cases h2; exact Or.inr (Or.inr (Or.inl ⟨rfl, rfl, hp⟩))
      | some x =>
        obtain ⟨f, l⟩ := x
        cases l <;> cases h2
    · rw [tag_mode] at h
      obtain ⟨s, h1, h2⟩ := Out.bind_ok h
      obtain ⟨t, rfl⟩ := at0_ok h1
      by_cases hu : stringToIOMode s = .unknown
      · rw [if_pos hu] at h2
        cases h2
        exact Or.inl ⟨rfl, rfl, s, rfl, (C58_mode_unknown s).1 hu⟩
      · rw [if_neg hu] at h2; cases h2
    · rw [tag_mongo w c v _ (Or.inl rfl)] at h; exact Or.inr (Or.inr (Or.inr ⟨Or.inl rfl, hmongo h⟩))
    · rw [tag_mongo w c v _ (Or.inr rfl)] at h; exact Or.inr (Or.inr (Or.inr ⟨Or.inr rfl, hmongo h⟩))
    · rw [tag_nodata w c v _ (Or.inl rfl)] at h; exact (first_no_exit h).elim
    · rw [tag_nodata w c v _ (Or.inr rfl)] at h; exact (first_no_exit h).elim
    · rw [tag_out] at h; exact (hout h).elim
    · rw [tag_type] at h; exact (first_no_exit h).elim
    · rw [tag_output] at h; exact (hout h).elim
    · rw [tag_reclass] at h; exact (first_no_exit h).elim
    · rw [tag_thread] at h; exact (first_no_exit h).elim
  · rw [tag_unknown w c k v hk] at h
    cases h

theorem refused_known {w : World} {n : Str} {v : List Str} {code : Nat} (h : Refused w n v code) : n ∈ known := by
  unfold known
  rcases h with ⟨rfl, _⟩ | ⟨rfl | rfl, _⟩ | ⟨rfl, _⟩ | ⟨rfl | rfl, _⟩ <;> simp only [List.mem_cons, true_or, or_true]

theorem in_grows {w : World} {c c' : Cfg} {v : List Str} (h : tagIn w c v = .ok (.go c')) : c'.inPaths.length ≤ c.inPaths.length + 1 := by
  unfold tagIn at h
  obtain ⟨r, h1, h2⟩ := Out.bind_ok h
  obtain ⟨p, hp, rfl⟩ := parse_spec h1
  cases p with
  | none => cases h2
  | some x =>
    obtain ⟨f, l⟩ := x
    cases l with
    | nil => cases h2; simp
    | cons => cases h2; simp

theorem first_inv {v : List Str} {f : Str → Cfg} {c' : Cfg} (h : (do let s ← at0 v; return Res.go (f s)) = .ok (Res.go c')) :
    ∃ s, c' = f s := by
  obtain ⟨s, _, h2⟩ := Out.bind_ok h
  cases h2
  exact ⟨s, rfl⟩

theorem tag_paths {w : World} {c c' : Cfg} {k : Str} {v : List Str} (h : tag w c k v = .ok (.go c')) :
    c'.inPaths.length ≤ c.inPaths.length + (if k = "IN".toList ∨ k = "INPUT".toList then 1 else 0) := by
  by_cases hio : k = "IN".toList ∨ k = "INPUT".toList
  · rw [if_pos hio]
    rcases hio with rfl | rfl
    · rw [tag_in] at h; exact in_grows h
    · rw [tag_input] at h; exact in_grows h
  rw [if_neg hio, Nat.add_zero]
  apply le_of_eq
  by_cases hk : k ∈ known
  · unfold known at hk
    simp only [List.mem_cons, List.not_mem_nil, or_false] at hk
    have hout : tagOut w c v = .ok (.go c') → c'.inPaths.length = c.inPaths.length := by
      intro h
      unfold tagOut at h
      obtain ⟨r, h1, h2⟩ := Out.bind_ok h
      obtain ⟨p, hp, rfl⟩ := parse_spec h1
      cases p with
      | none => cases h2; rfl
      | some x =>
        obtain ⟨f, l⟩ := x
        cases l <;> cases h2 <;> rfl
    have hmongo : tagMongo w c v = .ok (.go c') → c'.inPaths.length = c.inPaths.length := by
      intro h
      unfold tagMongo at h
      by_cases hl : v.length < 4
      · rw [if_pos hl] at h; cases h
      · rw [if_neg hl] at h
        cases hm : w.mongo (v.take 4) with
        | none => rw [hm] at h; cases h; rfl
        | some b => rw [hm] at h; cases h; rfl
    rcases hk with rfl | rfl | rfl | rfl | rfl | rfl | rfl | rfl | rfl | rfl | rfl | rfl | rfl | rfl | rfl | rfl
    · rw [tag_default w c v _ (Or.inl rfl)] at h; obtain ⟨s, rfl⟩ := first_inv h; rfl
    · rw [tag_default w c v _ (Or.inr rfl)] at h; obtain ⟨s, rfl⟩ := first_inv h; rfl
    · exact absurd (Or.inl rfl) hio
    · rw [tag_nodataflag] at h; obtain ⟨s, rfl⟩ := first_inv h; rfl
    · exact absurd (Or.inr rfl) hio
    · rw [tag_mask] at h
      unfold tagMask at h
      obtain ⟨r, h1, h2⟩ := Out.bind_ok h
      obtain ⟨p, hp, rfl⟩ := parse_spec h1
      cases p with
      | none => cases h2
      | some x =>
        obtain ⟨f, l⟩ := x
        cases l <;> cases h2
        rfl
    · rw [tag_mode] at h
      obtain ⟨s, h1, h2⟩ := Out.bind_ok h
      by_cases hu : stringToIOMode s = .unknown
      · rw [if_pos hu] at h2; cases h2
      · rw [if_neg hu] at h2; cases h2; rfl
    · rw [tag_mongo w c v _ (Or.inl rfl)] at h; exact hmongo h
    · rw [tag_mongo w c v _ (Or.inr rfl)] at h; exact hmongo h
    · rw [tag_nodata w c v _ (Or.inl rfl)] at h; obtain ⟨s, rfl⟩ := first_inv h; rfl
    · rw [tag_nodata w c v _ (Or.inr rfl)] at h; obtain ⟨s, rfl⟩ := first_inv h; rfl
    · rw [tag_out] at h; exact hout h
    · rw [tag_type] at h; obtain ⟨s, rfl⟩ := first_inv h; rfl
    · rw [tag_output] at h; exact hout h
    · rw [tag_reclass] at h; obtain ⟨s, rfl⟩ := first_inv h; rfl
    · rw [tag_thread] at h; obtain ⟨s, rfl⟩ := first_inv h; rfl
  · rw [tag_unknown w c k v hk] at h
    cases h
    rfl

theorem tags_paths {w : World} {m : Args} {c c' : Cfg} (h : tags w c m = .ok (.go c')) :
    c'.inPaths.length ≤ c.inPaths.length + (m.filter (fun e => decide (e.1 = "IN".toList ∨ e.1 = "INPUT".toList))).length := by
  induction m generalizing c with
  | nil => cases h; simp
  | cons e m ih =>
    rw [tags_cons] at h
    cases ht : tag w c e.1 e.2 with
    | ok r => cases r with
      | go c1 =>
        rw [ht] at h
        have h1 := ih h
        have h2 := tag_paths ht
        by_cases hk : e.1 = "IN".toList ∨ e.1 = "INPUT".toList
        · rw [if_pos hk] at h2
          rw [List.filter_cons_of_pos (by simpa using hk), List.length_cons]
          omega
        · rw [if_neg hk] at h2
          rw [List.filter_cons_of_neg (by simpa using hk)]
          omega
      | exit k => rw [ht] at h; cases h
    | ub => rw [ht] at h; cases h
    | exn => rw [ht] at h; cases h

theorem sorted_one {m : Args} (hm : Sorted m) (k : Str) : (m.filter (fun e => decide (e.1 = k))).length ≤ 1 := by
  induction m with
  | nil => simp
  | cons e m ih =>
    have hm' := List.pairwise_cons.1 hm
    by_cases hk : e.1 = k
    · rw [List.filter_cons_of_pos (by simpa using hk), List.length_cons]
      have : m.filter (fun e => decide (e.1 = k)) = [] := by
        rw [List.filter_eq_nil_iff]
        intro x hx hxk
        have := hm'.1 x hx
        rw [show x.1 = k by simpa using hxk, hk, strLt_irrefl] at this
        cases this
      rw [this]
      simp
    · rw [List.filter_cons_of_neg (by simpa using hk)]
      exact ih hm'.2

theorem sorted_two {m : Args} (hm : Sorted m) {a b : Str} (h : 1 < (m.filter (fun e => decide (e.1 = a ∨ e.1 = b))).length) :
    m.get a ≠ none ∧ m.get b ≠ none := by
  have key : ∀ a b : Str, 1 < (m.filter (fun e => decide (e.1 = a ∨ e.1 = b))).length → m.get a ≠ none := by
    intro a b h ha
    have e : m.filter (fun e => decide (e.1 = a ∨ e.1 = b)) = m.filter (fun e => decide (e.1 = b)) := by
      apply List.filter_congr
      rintro ⟨x1, x2⟩ hx
      have : x1 ≠ a := by
        rintro rfl
        rw [hm.mem_get hx] at ha
        cases ha
      simp [this]
    rw [e] at h
    have := sorted_one hm b
    omega
  refine ⟨key a b h, key b a ?_⟩
  rw [show (fun e : Str × List Str => decide (e.1 = b ∨ e.1 = a)) = (fun e => decide (e.1 = a ∨ e.1 = b)) from
    funext fun e => by simp only [or_comm]]
  exact h

/-- C76: the program ends with a code only for one of the documented reasons: no argument, a configuration file that does not exist (2) or
can not be read (3), a setting that is refused, or an input given by `-in` as well as by `-input`. -/
theorem C76_exit (w : World) (args : List Str) (hnul : ∀ a ∈ args, Char.ofNat 0 ∉ a) (code : Nat)
    (h : configure w args = .ok (.exit code)) :
    (args = [] ∧ code = 1) ∨
    (∃ p, ConfigFile args p ∧ p ≠ [] ∧ ((Fs.fileExists w.fs p = false ∧ code = 2) ∨ (Fs.fileExists w.fs p = true ∧ w.text p = none ∧ code = 3))) ∨
    (∃ lines, FileLines w args lines ∧ ((∃ name vals, Setting args lines name vals ∧ Refused w name vals code) ∨
      (code = 1 ∧ (∃ v, Setting args lines "IN".toList v) ∧ ∃ v, Setting args lines "INPUT".toList v))) := by
  unfold configure at h
  obtain ⟨r, h1, h2⟩ := Out.bind_ok h
  cases r with
  | exit n =>
    have hn : n = code := by cases h2; rfl
    subst hn
    unfold readArgs at h1
    by_cases ha : args = []
    · rw [if_pos ha] at h1; cases h1; exact Or.inl ⟨ha, rfl⟩
    rw [if_neg ha] at h1
    obtain ⟨p, h3, h4⟩ := Out.bind_ok h1
    have hcf : ConfigFile args p := by
      rcases configPath_spec args hnul [] p h3 with h | h
      · exact Or.inl h
      · exact Or.inr h
    dsimp only at h4
    by_cases hp : p = []
    · rw [if_pos hp] at h4; cases h4
    rw [if_neg hp] at h4
    refine Or.inr (Or.inl ⟨p, hcf, hp, ?_⟩)
    by_cases he : (!Fs.fileExists w.fs p) = true
    · rw [if_pos he] at h4
      cases h4
      exact Or.inl ⟨by simpa using he, rfl⟩
    · rw [if_neg he] at h4
      cases ht : w.text p with
      | none =>
        rw [ht] at h4
        cases h4
        exact Or.inr ⟨by simpa using he, rfl, rfl⟩
      | some text =>
        rw [ht] at h4
        obtain ⟨lines, hl⟩ := textContent_total text
        rw [loadPlain_content text [] lines hl] at h4
        cases h4
  | go x =>
    obtain ⟨m, items⟩ := x
    obtain ⟨lines, g1, g2, g3⟩ := C76_settings w args hnul m items h1
    have hs := readArgs_sorted h1
    have hget : ∀ k ∈ known, ∀ v, m.get k = some v → Setting args lines k v := by
      intro k hk v hv
      obtain ⟨k1, k2⟩ := known_upper k hk
      have := (g2 k v (by rw [← stringMatch_iff, k2]; simp)).1
      rw [k1] at this
      exact this hv
    refine Or.inr (Or.inr ⟨lines, g1, ?_⟩)
    dsimp only at h2
    obtain ⟨t, h3, h4⟩ := Out.bind_ok h2
    cases t with
    | exit n =>
      have hn : n = code := by cases h4; rfl
      subst hn
      obtain ⟨⟨k, v⟩, e1, c', e2⟩ := tags_exit h3
      have hr := tag_exit e2
      exact Or.inl ⟨k, v, hget k (refused_known hr) v (hs.mem_get e1), hr⟩
    | go c0 =>
      dsimp only at h4
      cases hn : normalise w c0 with
      | go c1 => rw [hn] at h4; cases h4
      | exit n =>
        rw [hn] at h4
        have hnc : n = code := by cases h4; rfl
        subst hnc
        unfold normalise at hn
        dsimp only at hn
        have hp := tags_paths h3
        cases hin : c0.inPaths with
        | nil => rw [hin] at hn; cases hn
        | cons a l =>
          cases l with
          | nil => rw [hin] at hn; cases hn
          | cons b l =>
            rw [hin] at hn hp
            have hc : n = 1 := by cases hn; rfl
            subst hc
            have h2 := sorted_two hs (a := "IN".toList) (b := "INPUT".toList) (by
              have : (({} : Cfg).inPaths).length = 0 := rfl
              rw [this] at hp
              simp only [List.length_cons] at hp
              omega)
            obtain ⟨v, hv⟩ := Option.ne_none_iff_exists'.1 h2.1
            obtain ⟨v', hv'⟩ := Option.ne_none_iff_exists'.1 h2.2
            exact Or.inr ⟨rfl, ⟨v, hget _ (by unfold known; simp only [List.mem_cons, true_or, or_true]) v hv⟩,
              ⟨v', hget _ (by unfold known; simp only [List.mem_cons, true_or, or_true]) v' hv'⟩⟩

/-! ## The claim is false in general -/

/-- `-configfile` as the last argument: undefined, whatever comes before. -/
theorem C76_false_last (w : World) (args : List Str) : configure w (args ++ ["-configfile".toList]) = .ub := by
  have h : ∀ (args : List Str) (p : Str), configPath (args ++ ["-configfile".toList]) p = .ub := by
    intro args
    induction args with
    | nil => intro p; rfl
    | cons a l ih =>
      intro p
      rw [List.cons_append]
      unfold configPath
      by_cases hc : a.head? = some '-' ∧ stringMatchC a "-configfile".toList = true
      · rw [if_pos hc]
        cases l with
        | nil => exact ih _
        | cons b l => exact ih _
      · rw [if_neg hc]; exact ih p
  unfold configure readArgs
  rw [if_neg (by simp), h]
  rfl

/-- The documented use with a configuration file as the only argument: nothing is read and nothing is done. -/
theorem C76_false_single (w : World) (p : Str) (hp : p.head? ≠ some '-') : ∃ c, configure w [p] = .ok (.go c) ∧ jobs c = .ok [] := by
  have h1 : configPath [p] [] = .ok [] := by
    unfold configPath
    rw [if_neg (fun h => hp h.1)]
    rfl
  have h2 : commandArgs [p] = [] := by
    have : isOpt p = false := by unfold isOpt; simp [hp]
    unfold commandArgs groups
    rw [this]
    rfl
  refine ⟨{}, ?_, rfl⟩
  unfold configure readArgs
  rw [if_neg (by simp), h1, h2]
  rfl

/-- The jobs of a run, `none` if the program ends before. -/
def jobsOf (w : World) (args : List Str) : Out (Option (List Job)) :=
  (configure w args).bind fun
    | .exit _ => .ok none
    | .go c => (jobs c).bind fun js => .ok (some js)

/-- Example: a file system with some rasters, a configuration file `c.txt` with this text, a database that answers. -/
def exWorld (text : String) : World where
  fs := { entries := [(["a.tif".toList], .file), (["b.tif".toList], .file), (["m.tif".toList], .file), (["c.txt".toList], .file)]
          cwd := [], deny := fun _ => false }
  text := fun p => if p = "/c.txt".toList then some text.toList else none
  mongo := fun v => if v.head? = some "localhost".toList then some true else none

def exText : String := "# items\n-mode\tmask\n-mask\t/m.tif\n-default\t5\n/b.tif;/o.tif;7;-1;INT16\n\n/x.tif;/p.tif\n/a.tif,/b.tif;/q.tif\n"

def exArgs : List Str := ["-configfile".toList, "/c.txt".toList, "-in".toList, "/a.tif".toList, "-nodata".toList, "-3".toList, "-MODE".toList, "dec".toList]

/-- The command line wins over the file (`-mode`), the negative number is a value, the item with the missing file is dropped. -/
theorem exJobs : jobsOf (exWorld exText) exArgs = .ok (some [
    { inputs := ["/a.tif".toList], inFmt := .sfile, out := "/a_masked.tif".toList, outFmt := .sfile, default := .fin 5
      update := true, nodata := .fin (-3), type := .double, recls := false, table := [] },
    { inputs := ["/b.tif".toList], inFmt := .sfile, out := "/o.tif".toList, outFmt := .sfile, default := .fin 7
      update := true, nodata := .fin (-1), type := .int16, recls := false, table := [] },
    { inputs := ["/a.tif".toList, "/b.tif".toList], inFmt := .sfile, out := "/q.tif".toList, outFmt := .sfile, default := .fin (-9999)
      update := false, nodata := .fin (-9999), type := .double, recls := false, table := [] }]) := by decide +kernel

/-- The hypotheses of the claims about a run that goes on hold of every such run, up to the condition on the names. -/
theorem configure_sayable {w : World} {args : List Str} (hnul : ∀ a ∈ args, Char.ofNat 0 ∉ a) {c : Cfg} (h : configure w args = .ok (.go c)) :
    ∃ m lines items, readArgs w args = .ok (.go (m, items)) ∧ FileLines w args lines ∧ Says m.get args lines ∧ Items lines items := by
  obtain ⟨m, items, _, _, r1, _⟩ := configure_go h
  obtain ⟨lines, g⟩ := C76_settings w args hnul m items r1
  exact ⟨m, lines, items, r1, g⟩

theorem jobsOf_go {w : World} {args : List Str} {js : List Job} (h : jobsOf w args = .ok (some js)) :
    ∃ c, configure w args = .ok (.go c) ∧ jobs c = .ok js := by
  unfold jobsOf at h
  obtain ⟨r, h1, h2⟩ := Out.bind_ok h
  cases r with
  | exit n => cases h2
  | go c =>
    obtain ⟨js', h3, h4⟩ := Out.bind_ok h2
    cases h4
    exact ⟨c, h1, h3⟩

/-- The names used by a run. -/
def oneNames (w : World) (args : List Str) : Out Bool :=
  (readArgs w args).bind fun
    | .exit _ => .ok false
    | .go x => .ok ((x.1.get "INPUT".toList).isNone && (x.1.get "OUTPUT".toList).isNone && (x.1.get "MONGODB".toList).isNone)

example : ∃ c lines S items, configure (exWorld exText) exArgs = .ok (.go c) ∧ FileLines (exWorld exText) exArgs lines ∧
    Says S exArgs lines ∧ Items lines items ∧ OneName S "IN".toList "INPUT".toList ∧ OneName S "OUT".toList "OUTPUT".toList ∧
    OneName S "MONGO".toList "MONGODB".toList := by
  obtain ⟨c, h1, _⟩ := jobsOf_go exJobs
  obtain ⟨m, lines, items, h2, h3, h4, h5⟩ := configure_sayable (by decide +kernel) h1
  have hn : oneNames (exWorld exText) exArgs = .ok true := by decide +kernel
  unfold oneNames at hn
  rw [h2] at hn
  have hn : ((m.get "INPUT".toList).isNone && (m.get "OUTPUT".toList).isNone && (m.get "MONGODB".toList).isNone) = true := by
    exact Out.ok.inj hn
  simp only [Bool.and_eq_true, Option.isNone_iff_eq_none] at hn
  exact ⟨c, lines, m.get, items, h1, h3, h4, h5, Or.inr hn.1.1, Or.inr hn.1.2, Or.inr hn.2⟩

/-- Both names of the output: the item gets the output path meant for the command line. -/
theorem C76_false_names : jobsOf (exWorld "/b.tif;/o.tif\n") ["-configfile".toList, "/c.txt".toList, "-in".toList, "/a.tif".toList,
      "-out".toList, "/p.tif".toList, "-output".toList, "/q.tif".toList] =
    .ok (some [
    { inputs := ["/a.tif".toList], inFmt := .sfile, out := "/p.tif".toList, outFmt := .sfile, default := .fin (-9999)
      update := false, nodata := .fin (-9999), type := .double, recls := false, table := [] },
    { inputs := ["/b.tif".toList], inFmt := .sfile, out := "/q.tif".toList, outFmt := .sfile, default := .fin (-9999)
      update := false, nodata := .fin (-9999), type := .double, recls := false, table := [] }]) := by decide +kernel

/-- An empty path for the mask in the database: undefined. -/
theorem C76_false_mask : jobsOf (exWorld "") ["-mask".toList, "gfs".toList, []] = .ub := by decide +kernel

/-- The format of the first item is kept: an item that names a raster of the database is dropped after one that names a file, and used
when it comes first (then the file is looked for in the database). -/
theorem C76_false_order :
    (jobsOf (exWorld "/b.tif;o1\nras;o2\n") ["-configfile".toList, "/c.txt".toList, "-mongo".toList, "localhost".toList, "1".toList,
      "d".toList, "g".toList]).bind (fun r => .ok (r.map (fun l => l.map (fun j => (j.inputs, j.inFmt))))) =
      .ok (some [(["/b.tif".toList], .sfile)]) ∧
    (jobsOf (exWorld "ras;o2\n/b.tif;o1\n") ["-configfile".toList, "/c.txt".toList, "-mongo".toList, "localhost".toList, "1".toList,
      "d".toList, "g".toList]).bind (fun r => .ok (r.map (fun l => l.map (fun j => (j.inputs, j.inFmt))))) =
      .ok (some [(["ras".toList], .gfs), (["/b.tif".toList], .gfs)]) :=
  ⟨by decide +kernel, by decide +kernel⟩

/-- The values given by `-default`, `-nodata` and `-outdatatype` do not reach the items. -/
theorem C76_false_items :
    (jobsOf (exWorld "/b.tif;/o.tif\n") ["-configfile".toList, "/c.txt".toList, "-default".toList, "5".toList, "-nodata".toList, "-1".toList,
      "-outdatatype".toList, "INT32".toList]).bind (fun r => .ok (r.map (fun l => l.map (fun j => (j.default, j.update, j.type))))) =
      .ok (some [(.fin (-9999), false, .double)]) := by decide +kernel

/-- An item without an input: with a database it becomes a job without inputs. -/
theorem C76_false_empty :
    (jobsOf (exWorld ";o1\n") ["-configfile".toList, "/c.txt".toList, "-in".toList, "gfs".toList, "ras".toList, "-mongo".toList,
      "localhost".toList, "1".toList, "d".toList, "g".toList]).bind (fun r => .ok (r.map (fun l => l.map (fun j => (j.inputs, j.inFmt))))) =
      .ok (some [(["ras".toList], .gfs), ([], .gfs)]) := by decide +kernel

/-- Example of a refused setting. -/
example : (configure (exWorld "") ["-mode".toList, "what".toList]).bind (fun | .exit n => .ok n | .go _ => .ub) = .ok 1 := by decide +kernel

end Main
end CCGL
