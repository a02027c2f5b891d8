import Verif.Lemmas.Gfs
/-!
# C26, C27: the GridFS store as a map, bounded retries
-/
namespace CCGL
namespace Gfs
open Spec

theorem filesOf_removed {flt : BDoc} {K : Key} (hf : ∀ f, matchesF flt f = true ↔ Has f K) {rm : Nat → Bool} (hr : ∀ i, rm i = true)
    (st : Store) : filesOf (removeLoop rm flt 0 st) K = [] := by
  unfold filesOf
  rw [removeLoop_all rm flt hr, List.filter_filter, List.filter_eq_nil_iff]
  intro f _
  by_cases h : Has f K
  · simp [h, (hf f).2 h]
  · simp [h]

theorem filesOf_removed_apart {flt : BDoc} {K L : Key} (hf : ∀ f, matchesF flt f = true ↔ Has f L) (ha : Apart L K) (rm : Nat → Bool)
    (st : Store) : filesOf (removeLoop rm flt 0 st) K = filesOf st K := by
  unfold filesOf
  apply removeLoop_other
  intro f h
  simp only [decide_eq_true_eq] at h
  cases hm : matchesF flt f
  · rfl
  · exact absurd h (apart_has ha ((hf f).1 hm))

theorem filesOf_append (st st' : Store) (K : Key) : filesOf (st ++ st') K = filesOf st K ++ filesOf st' K := by
  unfold filesOf; exact List.filter_append _ _

theorem filesOf_nil_of {st : Store} {K : Key} (h : ∀ f ∈ st, ¬ Has f K) : filesOf st K = [] := by
  unfold filesOf
  rw [List.filter_eq_nil_iff]
  intro f hf
  simp [h f hf]

theorem filesOf_single {f : File} {K : Key} (h : Has f K) : filesOf [f] K = [f] := by
  unfold filesOf
  rw [List.filter_cons_of_pos (by simp [h])]; rfl

/-- One call: what it does to the files of a key. -/
theorem exec_spec {rnd : ℚ → ℚ} {st st' : Store} {op : StoreOp} {b : Bool} {K : Key} (hg : GoodKey op.about) (hh : op.HeaderOk)
    (h : op.exec rnd st = .ok (st', b)) :
    (Apart op.about K → filesOf st' K = filesOf st K) ∧
    (op.Clean → op.about = K → ExpectedFiles rnd K ((filesOf st K).map (·.data)) [op] [b] ((filesOf st' K).map (·.data))) := by
  cases op with
  | remove name opts rm =>
    obtain ⟨flt, e1, hf⟩ := filter_spec hg
    unfold StoreOp.exec removeFile at h
    dsimp only at h
    have e1' : mkFilter name opts = .ok flt := e1
    rw [e1', Out.ok_bind, Out.pure_eq] at h
    injection h with h
    rw [Prod.mk.injEq] at h
    obtain ⟨rfl, rfl⟩ := h
    refine ⟨fun ha => filesOf_removed_apart hf ha rm st, ?_⟩
    intro hc hK
    subst hK
    rw [filesOf_removed hf hc]
    exact .removed _ name opts rm [] true [] _ rfl (.done _)
  | write T name hdr values n opts rm att =>
    unfold StoreOp.exec at h
    obtain ⟨res, h1, h⟩ := Out.bind_ok h
    injection h with h
    rw [Prod.mk.injEq] at h
    obtain ⟨rfl, rfl⟩ := h
    obtain ⟨flt, hd, ty, data, info, e1, hf, e2, e3, h3, e4, e5, h5, rfl⟩ := write_spec hg hh h1
    obtain ⟨new, g1, g2, _, _, g4, g5⟩ := writeLoop_spec att name data info 4 0 (removeLoop rm flt 0 st)
    have hn : cstr name = name := cstr_of_no_nul _ hg.name
    have hall : ∀ f ∈ new, Has f ⟨name, withType T opts⟩ := by
      intro f hfn
      obtain ⟨a, c⟩ := g2 f hfn
      have := h5 f.data
      rw [hn] at a
      have e : f = File.mk name info f.data := by
        cases f; simp only at a c; subst a; subst c; rfl
      rw [e]; exact this
    refine ⟨?_, ?_⟩
    · intro ha
      show filesOf (writeLoop att name data info 0 4 (removeLoop rm flt 0 st)).1 K = _
      have hnil : filesOf new K = [] := filesOf_nil_of (fun f hfn => apart_has ha (hall f hfn))
      rw [g1, filesOf_append, filesOf_removed_apart hf ha, hnil, List.append_nil]
    · intro hc hK
      obtain ⟨hr, ha⟩ := hc
      subst hK
      show ExpectedFiles rnd ⟨name, withType T opts⟩ _ _ _
        ((filesOf (writeLoop att name data info 0 4 (removeLoop rm flt 0 st)).1 ⟨name, withType T opts⟩).map (·.data))
      rw [g1, filesOf_append, filesOf_removed hf hr, List.nil_append]
      have g5 := g5 ha
      cases hb : (writeLoop att name data info 0 4 (removeLoop rm flt 0 st)).2.1
      · rw [hb, if_neg (by simp)] at g5
        subst g5
        exact .lost _ _ _ _ _ _ _ _ _ _ _ _ rfl (.done _)
      · rw [hb, if_pos rfl, hn] at g5
        subst g5
        rw [filesOf_single (h5 data)]
        exact .written _ _ data _ _ _ rfl ⟨ty, h3, e4⟩ (.done _)

theorem expected_trans {rnd : ℚ → ℚ} {K : Key} {a b c : List (List Byte)} {ops1 ops2 : List StoreOp} {bs1 bs2 : List Bool}
    (h1 : ExpectedFiles rnd K a ops1 bs1 b) (h2 : ExpectedFiles rnd K b ops2 bs2 c) : ExpectedFiles rnd K a (ops1 ++ ops2) (bs1 ++ bs2) c := by
  induction h1 with
  | done => exact h2
  | other old op ops b bs now h _ ih => exact .other _ _ _ _ _ _ h (ih h2)
  | written old op d ops bs now h hs _ ih => exact .written _ _ d _ _ _ h hs (ih h2)
  | lost old T name hdr values n opts rm att ops bs now h _ ih => exact .lost _ _ _ _ _ _ _ _ _ _ _ _ h (ih h2)
  | removed old name opts rm ops b bs now h _ ih => exact .removed _ _ _ _ _ _ _ _ h (ih h2)

theorem apart_irrefl {K : Key} (hg : GoodKey K) : ¬ Apart K K := by
  intro h
  rcases h with h | ⟨k, v, w, h1, h2, hs⟩
  · exact h rfl
  · have : v = w := by
      have hnd := hg.nodup
      obtain ⟨i, hi, e1⟩ := List.getElem_of_mem h1
      obtain ⟨j, hj, e2⟩ := List.getElem_of_mem h2
      have : i = j := by
        apply (List.Nodup.getElem_inj_iff (i := i) (j := j) (hi := by simpa using hi) (hj := by simpa using hj) hnd).1
        simp [e1, e2]
      subst this
      rw [e1] at e2
      exact (Prod.mk.inj e2).2
    subst this
    apply hs
    by_cases hn : ∃ x, NumText v x
    · obtain ⟨x, hx⟩ := hn; exact .inl ⟨x, hx, hx⟩
    · exact .inr ⟨fun x hx => hn ⟨x, hx⟩, fun x hx => hn ⟨x, hx⟩, rfl⟩

/-- C26: after any history of writes and removals, in which every call is about the key itself or about a key that no file can
share with it, the bucket holds for the key exactly what the last call about it left: the contents of the last write if it
succeeded, nothing after a removal or a failed write, and what it held before if there was no such call. The driver
has to do what it reports in the calls about this key; in the calls about other keys it may fail in any way. -/
theorem C26_history_partial {rnd : ℚ → ℚ} {K : Key} : ∀ {st st' : Store} {ops : List StoreOp} {bs : List Bool},
    (∀ op ∈ ops, GoodKey op.about ∧ op.HeaderOk ∧ (op.about = K ∧ op.Clean ∨ Apart op.about K)) →
    execAll rnd st ops = .ok (st', bs) →
    ExpectedFiles rnd K ((filesOf st K).map (·.data)) ops bs ((filesOf st' K).map (·.data)) := by
  intro st st' ops
  induction ops generalizing st with
  | nil =>
    intro bs _ h
    injection h with h
    rw [Prod.mk.injEq] at h
    obtain ⟨rfl, rfl⟩ := h
    exact .done _
  | cons op ops ih =>
    intro bs hops h
    unfold execAll at h
    obtain ⟨⟨st1, b⟩, h1, h⟩ := Out.bind_ok h
    obtain ⟨⟨st2, bs'⟩, h2, h⟩ := Out.bind_ok h
    injection h with h
    rw [Prod.mk.injEq] at h
    obtain ⟨rfl, rfl⟩ := h
    obtain ⟨hg, hh, hcase⟩ := hops op List.mem_cons_self
    have hrest := ih (fun o ho => hops o (List.mem_cons_of_mem _ ho)) h2
    obtain ⟨hs1, hs2⟩ := exec_spec (K := K) hg hh h1
    rcases hcase with ⟨e, hc⟩ | ha
    · exact expected_trans (hs2 hc e) hrest
    · have hne : op.about ≠ K := by
        intro e
        rw [e] at ha hg
        exact apart_irrefl hg ha
      rw [hs1 ha] at hrest
      exact .other _ _ _ _ _ _ hne hrest

/-- C26 (reading): if one of the five queries reaches the server, a read gives the contents of the oldest file with the name and
the options, and fails if there is none or the contents cannot be read; otherwise it fails. -/
theorem C26_read {K : Key} (hg : GoodKey K) (ok : Nat → Bool) (rd : Bool) (st : Store) :
    (getStreamData ok rd st K.name K.opts = .ok (if rd then ((filesOf st K).map (·.data)).head? else none) ∧ ∃ i, i < 5 ∧ ok i = true) ∨
    (getStreamData ok rd st K.name K.opts = .ok none ∧ ∀ i, i < 5 → ok i = false) := by
  obtain ⟨flt, e1, hf⟩ := filter_spec hg
  unfold getStreamData getFile
  rw [e1, Out.ok_bind, Out.pure_eq, Out.ok_bind, findLoop_spec]
  by_cases h : ∃ i, 0 ≤ i ∧ i < 0 + 5 ∧ ok i = true
  · left
    refine ⟨?_, ?_⟩
    · rw [if_pos h]
      have : st.find? (matchesF flt) = (filesOf st K).head? := by
        unfold filesOf
        rw [List.head?_filter]
        congr 1
        funext f
        by_cases hh : Has f K
        · simp [hh, (hf f).2 hh]
        · have : matchesF flt f = false := by
            cases hm : matchesF flt f
            · rfl
            · exact absurd ((hf f).1 hm) hh
          simp [hh, this]
      rw [this, List.head?_map]
      cases (filesOf st K).head? with
      | none => cases rd <;> rfl
      | some f => rfl
    · obtain ⟨i, _, a, b⟩ := h
      exact ⟨i, by omega, b⟩
  · right
    rw [if_neg h]
    refine ⟨rfl, ?_⟩
    intro i hi
    cases hok : ok i
    · rfl
    · exact absurd ⟨i, by omega, by omega, hok⟩ h

/-- C26 (removal): whatever the driver does, `RemoveFile` keeps every file without the key, in order, and adds none. -/
theorem C26_remove_others {K : Key} (hg : GoodKey K) (rm : Nat → Bool) (st : Store) : ∃ st', removeFile rm st K.name K.opts = .ok (st', true) ∧
    st'.Sublist st ∧ (∀ f ∈ st, ¬ Has f K → f ∈ st') ∧ ((∀ i, rm i = true) → ∀ f ∈ st', ¬ Has f K) := by
  obtain ⟨flt, e1, hf⟩ := filter_spec hg
  refine ⟨removeLoop rm flt 0 st, ?_, removeLoop_sublist rm flt 0 st, ?_, ?_⟩
  · unfold removeFile
    rw [e1]; rfl
  · intro f hfst hn
    have := removeLoop_other rm flt (fun f => !matchesF flt f) (by intro f h; simpa using h) 0 st
    have hm : f ∈ st.filter (fun f => !matchesF flt f) := by
      rw [List.mem_filter]
      refine ⟨hfst, ?_⟩
      cases hm : matchesF flt f
      · rfl
      · exact absurd ((hf f).1 hm) hn
    rw [← this] at hm
    exact (List.mem_filter.1 hm).1
  · intro hr f hfst hh
    rw [removeLoop_all rm flt hr, List.mem_filter] at hfst
    rw [(hf f).2 hh] at hfst
    simp at hfst

/-! ## C27 -/

/-- C27: at most four attempts are made; the result is true exactly if one of the first four reports success; every file the call
adds has the given name and options. -/
theorem C27_attempts {rnd : ℚ → ℚ} {T : RDT} {rm : Nat → Bool} {att : Nat → Attempt} {st : Store} {name : Str} {hdr : NumMap}
    {values : Ptr ℚ} {n : Int} {opts : Opts} {res : Store × Bool × Nat} (hg : GoodKey ⟨name, withType T opts⟩)
    (hk : ∀ e ∈ hdr, e.1 ∈ headerKeys) (h : writeGridfs rnd T rm att st name hdr values n opts = .ok res) :
    res.2.2 ≤ 4 ∧ (res.2.1 = true ↔ ∃ i, i < 4 ∧ (att i).reported = true) ∧
      ∀ f ∈ res.1, f ∈ st ∨ Has f ⟨name, withType T opts⟩ := by
  obtain ⟨flt, hd, ty, data, info, e1, hf, e2, e3, h3, e4, e5, h5, rfl⟩ := write_spec hg hk h
  obtain ⟨new, g1, g2, _, g3, g4, _⟩ := writeLoop_spec att name data info 4 0 (removeLoop rm flt 0 st)
  refine ⟨by simpa using g3, ?_, ?_⟩
  · rw [g4]
    constructor
    · rintro ⟨i, _, a, b⟩; exact ⟨i, by omega, b⟩
    · rintro ⟨i, a, b⟩; exact ⟨i, by omega, by omega, b⟩
  · intro f hfm
    rw [g1, List.mem_append] at hfm
    rcases hfm with hfm | hfm
    · exact .inl ((removeLoop_sublist rm flt 0 st).mem hfm)
    · right
      obtain ⟨a, c⟩ := g2 f hfm
      rw [cstr_of_no_nul _ hg.name] at a
      have e : f = File.mk name info f.data := by
        cases f; simp only at a c; subst a; subst c; rfl
      rw [e]; exact h5 _

/-- C27: if removals succeed and attempts are clean, exactly one file with the name and options is left after a success, none after
a failure, whatever the pattern of failing and succeeding attempts. -/
theorem C27_single_partial {rnd : ℚ → ℚ} {T : RDT} {rm : Nat → Bool} {att : Nat → Attempt} {st : Store} {name : Str} {hdr : NumMap}
    {values : Ptr ℚ} {n : Int} {opts : Opts} {res : Store × Bool × Nat} (hg : GoodKey ⟨name, withType T opts⟩)
    (hk : ∀ e ∈ hdr, e.1 ∈ headerKeys) (hr : ∀ i, rm i = true) (ha : ∀ i, CleanAttempt (att i))
    (h : writeGridfs rnd T rm att st name hdr values n opts = .ok res) :
    (filesOf res.1 ⟨name, withType T opts⟩).length = if res.2.1 then 1 else 0 := by
  obtain ⟨flt, hd, ty, data, info, e1, hf, e2, e3, h3, e4, e5, h5, rfl⟩ := write_spec hg hk h
  obtain ⟨new, g1, g2, _, g3, g4, g5⟩ := writeLoop_spec att name data info 4 0 (removeLoop rm flt 0 st)
  have g5 := g5 ha
  rw [g1, filesOf_append, filesOf_removed hf hr, List.nil_append]
  cases hb : (writeLoop att name data info 0 4 (removeLoop rm flt 0 st)).2.1
  · rw [hb, if_neg (by simp)] at g5
    subst g5; rfl
  · rw [hb, if_pos rfl, cstr_of_no_nul _ hg.name] at g5
    subst g5
    rw [filesOf_single (h5 data)]; rfl

/-! ## Where C26 and C27 fail, and examples -/

def exHdr : NumMap := [(kCellsnum, .fin 1), (kLayers, .fin 1), (kCols, .fin 1), (kNoData, .fin (-9999)), (kRows, .fin 1)]

def goodAtt : Nat → Attempt := fun _ => { visible := .whole, reported := true }
def badAtt : Nat → Attempt := fun _ => { visible := .nothing, reported := false }

theorem goodKey_of {name : Str} {T : RDT} {opts : Opts} (h : Char.ofNat 0 ∉ name ∧ ((curOpts T opts).map (·.1)).Nodup ∧
    (∀ e ∈ curOpts T opts, Char.ofNat 0 ∉ e.1 ∧ '.' ∉ e.1 ∧ e.1 ∉ headerKeys) ∧
    (∀ e ∈ curOpts T opts, Char.ofNat 0 ∉ e.2 ∧ encodeOption e.2 ≠ .ub)) : GoodKey ⟨name, withType T opts⟩ := by
  rw [← curOpts_eq]
  obtain ⟨h1, h2, h3, h4⟩ := h
  exact ⟨h1, h2, fun k v hkv => h3 _ hkv, fun k v hkv => ⟨(h4 _ hkv).1, fun hu => (h4 _ hkv).2 ((encode_ub _ (h4 _ hkv).1).2 hu)⟩⟩

theorem exKey_a : GoodKey ⟨"a".toList, withType .uint8 []⟩ := goodKey_of (by decide +kernel)
theorem exKey_b : GoodKey ⟨"b".toList, withType .int16 [("SCENARIO".toList, "7".toList)]⟩ := goodKey_of (by decide +kernel)

/-- The history of the example: two files written, one of them again, the other removed. -/
noncomputable def exOps : List StoreOp :=
  [ .write .uint8 "a".toList exHdr (some [7]) 1 [] (fun _ => true) goodAtt,
    .write .int16 "b".toList exHdr (some [-3]) 1 [("SCENARIO".toList, "7".toList)] (fun _ => false) goodAtt,
    .write .uint8 "a".toList exHdr (some [9]) 1 [] (fun _ => true) goodAtt,
    .remove "b".toList (curOpts .int16 [("SCENARIO".toList, "7".toList)]) (fun i => i == 3) ]

theorem exOps_hyp : ∀ op ∈ exOps, GoodKey op.about ∧ op.HeaderOk ∧
    (op.about = ⟨"a".toList, withType .uint8 []⟩ ∧ op.Clean ∨ Apart op.about ⟨"a".toList, withType .uint8 []⟩) := by
  have hh : ∀ e ∈ exHdr, e.1 ∈ headerKeys := by decide +kernel
  have hc : ∀ i, CleanAttempt (goodAtt i) := fun i => .inl ⟨rfl, rfl⟩
  have hn : "b".toList ≠ "a".toList := by decide
  intro op hop
  simp only [exOps, List.mem_cons, List.not_mem_nil, or_false] at hop
  rcases hop with rfl | rfl | rfl | rfl
  · exact ⟨exKey_a, hh, .inl ⟨rfl, fun _ => rfl, hc⟩⟩
  · exact ⟨exKey_b, hh, .inr (.inl hn)⟩
  · exact ⟨exKey_a, hh, .inl ⟨rfl, fun _ => rfl, hc⟩⟩
  · refine ⟨?_, trivial, .inr (.inl hn)⟩
    have := exKey_b
    rw [← curOpts_eq] at this
    exact this

example : ((execAll id [] exOps).bind fun r => .ok (r.1.map (·.data), r.2)) = .ok ([[253, 255], [9]], [true, true, true, true]) := by
  decide +kernel

/-- C26 is false of failing overwrites: the previous file is gone although nothing replaced it. -/
theorem C26_false_overwrite : ∃ st st', writeGridfs id .uint8 (fun _ => true) goodAtt [] "a".toList exHdr (some [7]) 1 [] = .ok (st, true, 1) ∧
    getStreamData (fun _ => true) true st "a".toList [] = .ok (some [7]) ∧
    writeGridfs id .uint8 (fun _ => true) badAtt st "a".toList exHdr (some [9]) 1 [] = .ok (st', false, 4) ∧
    getStreamData (fun _ => true) true st' "a".toList [] = .ok none :=
  ⟨_, _, rfl, by decide +kernel, rfl, by decide +kernel⟩

/-- C26 is false of the raw stream interface: writing a name again does not replace the file, reading gives the older. -/
theorem C26_false_raw (st : Store) (K : Key) (hg : GoodKey K) (info : BDoc) (d d' : List Byte) (hi : ∀ x, Has (File.mk K.name info x) K)
    (hnone : filesOf st K = []) :
    getStreamData (fun _ => true) true (writeStreamData ⟨.whole, true⟩ (writeStreamData ⟨.whole, true⟩ st K.name d info).1 K.name d' info).1
      K.name K.opts = .ok (some d) := by
  have hn : cstr K.name = K.name := cstr_of_no_nul _ hg.name
  rcases C26_read hg (fun _ => true) true ((writeStreamData ⟨.whole, true⟩ (writeStreamData ⟨.whole, true⟩ st K.name d info).1 K.name d' info).1)
    with ⟨h, _⟩ | ⟨_, h⟩
  · rw [h]
    unfold writeStreamData
    dsimp only
    rw [hn, filesOf_append, filesOf_append, hnone, filesOf_single (hi d)]
    rfl
  · exact absurd (h 0 (by omega)) (by simp)

/-- C26 is false of reads whose options do not name the stored type: after writing a name with cells of another type, the read
gives the older file. -/
theorem C26_false_type : ∃ st st', writeGridfs id .uint8 (fun _ => true) goodAtt [] "a".toList exHdr (some [7]) 1 [] = .ok (st, true, 1) ∧
    writeGridfs id .uint8 (fun _ => true) goodAtt st "a".toList exHdr (some [9]) 1 [(kTypeOut, "INT16".toList)] = .ok (st', true, 1) ∧
    getStreamData (fun _ => true) true st' "a".toList [] = .ok (some [7]) :=
  ⟨_, _, rfl, rfl, by decide +kernel⟩

/-- C27 is false when a write error is followed by a successful save: the failed attempt leaves a shorter file, the next one adds a
second, the call reports success, and reading gives the shorter one. -/
theorem C27_false_duplicate : ∃ st, writeGridfs id .int16 (fun _ => true)
      (fun i => if i = 0 then ⟨.first 1, false⟩ else ⟨.whole, true⟩) [] "a".toList exHdr (some [7]) 1 [] = .ok (st, true, 2) ∧
    st.map (·.name) = ["a".toList, "a".toList] ∧
    getStreamData (fun _ => true) true st "a".toList [(kTypeOut, "INT16".toList)] = .ok (some [7]) ∧ st.map (·.data) = [[7], [7, 0]] :=
  ⟨_, rfl, by decide +kernel, by decide +kernel, by decide +kernel⟩

/-- C27 is false when the old file cannot be removed: the call ignores this, and reading gives the old file. -/
theorem C27_false_remove : ∃ st st', writeGridfs id .uint8 (fun _ => true) goodAtt [] "a".toList exHdr (some [7]) 1 [] = .ok (st, true, 1) ∧
    writeGridfs id .uint8 (fun _ => false) goodAtt st "a".toList exHdr (some [9]) 1 [] = .ok (st', true, 1) ∧
    st'.map (·.data) = [[7], [9]] ∧ getStreamData (fun _ => true) true st' "a".toList [] = .ok (some [7]) :=
  ⟨_, _, rfl, rfl, by decide +kernel, by decide +kernel⟩

end Gfs
end CCGL
