import Verif.Props.FileResult
/-!
# C75: what the result of writing files tells, whatever the operating system does
-/
namespace CCGL
namespace Disk
open Fs Fs.Spec Disk.Spec CCGL.Spec

theorem Spec.OnlyAt.refl {d : Disk} (h : WF d.fs) {T : Path → Prop} : OnlyAt d d T := ⟨h, rfl, rfl, fun _ => Iff.rfl, fun _ _ => ⟨rfl, rfl⟩⟩

theorem Spec.OnlyAt.trans {d d1 d2 : Disk} {T1 T2 T : Path → Prop} (h1 : OnlyAt d d1 T1) (h2 : OnlyAt d1 d2 T2) (a : ∀ q, T1 q → T q) (b : ∀ q, T2 q → T q) :
    OnlyAt d d2 T where
  wf := h2.wf
  deny := h2.deny.trans h1.deny
  cwd := h2.cwd.trans h1.cwd
  dir := fun q => (h2.dir q).trans (h1.dir q)
  same := fun q hq => by
    have x := h1.same q (fun h => hq (a q h))
    have y := h2.same q (fun h => hq (b q h))
    exact ⟨y.1.trans x.1, y.2.trans x.2⟩

theorem Spec.OnlyAt.mono {d d1 : Disk} {T1 T : Path → Prop} (h1 : OnlyAt d d1 T1) (a : ∀ q, T1 q → T q) : OnlyAt d d1 T :=
  ⟨h1.wf, h1.deny, h1.cwd, h1.dir, fun q hq => h1.same q (fun h => hq (a q h))⟩

theorem Spec.OnlyAt.nameIn {d d' : Disk} {T} (h : OnlyAt d d' T) {p dt core suf} (hn : NameIn d.fs p dt core suf) : NameIn d'.fs p dt core suf :=
  ⟨h.wf, hn.dir, hn.core, hn.suf, (h.dir p).2 hn.exist⟩

theorem Spec.OnlyAt.nodir {d d' : Disk} {T} (h : OnlyAt d d' T) {q} (hn : d.fs.kindOf q ≠ some .dir) : d'.fs.kindOf q ≠ some .dir :=
  fun hh => hn ((h.dir q).1 hh)

theorem Spec.OnlyAt.accepts {env : Env} {d d' : Disk} {T} (h : OnlyAt d d' T) {q suf} (hq : ¬ T q) : Accepts env d'.fs suf q ↔ Accepts env d.fs suf q := by
  unfold Accepts
  rw [h.deny, (h.same q hq).1]

theorem kind_cases {fs : FS} {q : Path} (h : fs.kindOf q ≠ some .dir) : fs.kindOf q = none ∨ fs.kindOf q = some .file := by
  cases hk : fs.kindOf q with
  | none => exact .inl rfl
  | some k => cases k with
    | dir => exact absurd hk h
    | file => exact .inr rfl

/-- Appending to a file. -/
theorem append_result {env : Env} {d : Disk} (h : WF d.fs) {p : Path} {dt n : Str} (hd : DirText p dt) (hn : GoodName n)
    (hk : d.fs.kindOf p = some .dir) (hnd : d.fs.kindOf (p ++ [n]) ≠ some .dir) (i : Nat) (t : Str) :
    ∃ b d', appendText env d (dt ++ n) i t = (b, d') ∧ OnlyAt d d' (· = p ++ [n]) ∧ (b = true → d'.fs.kindOf (p ++ [n]) = some .file) ∧
      (b = true ↔ (d.fs.kindOf (p ++ [n]) = none ∧ d.fs.deny (p ++ [n]) = false) ∨ (d.fs.kindOf (p ++ [n]) = some .file ∧ env.ro (p ++ [n]) = false)) := by
  unfold appendText
  rw [target_full h hd hn hk hnd]
  dsimp only
  rcases kind_cases hnd with hno | hf
  · rw [hno, if_neg (by simp)]
    cases hdn : d.fs.deny (p ++ [n])
    · refine ⟨true, _, rfl, ⟨wf_add h hd.1 hn hk hno, rfl, rfl, ?_, ?_⟩, ?_, by simp⟩
      · intro q
        rw [show ({ fs := addFile d.fs (p ++ [n]), data := _ } : Disk).fs = addFile d.fs (p ++ [n]) from rfl, kindOf_add (by simp) hno]
        by_cases hq : q = p ++ [n]
        · rw [if_pos hq, hq, hno]; simp
        · rw [if_neg hq]
      · intro q hq
        refine ⟨?_, ?_⟩
        · show (addFile d.fs (p ++ [n])).kindOf q = _
          rw [kindOf_add (by simp) hno, if_neg hq]
        · show upd _ _ _ q = _
          unfold upd
          rw [if_neg hq]
      · intro _
        show (addFile d.fs (p ++ [n])).kindOf _ = _
        rw [kindOf_add (by simp) hno, if_pos rfl]
    · exact ⟨false, d, rfl, .refl h, (fun hx => by cases hx), by simp⟩
  · rw [hf, if_pos (by rfl)]
    cases hro : env.ro (p ++ [n])
    · refine ⟨true, _, rfl, ⟨h, rfl, rfl, fun _ => Iff.rfl, ?_⟩, fun _ => hf, by simp⟩
      intro q hq
      refine ⟨rfl, ?_⟩
      show upd _ _ _ q = _
      unfold upd
      rw [if_neg hq]
    · exact ⟨false, d, rfl, .refl h, (fun hx => by cases hx), by simp⟩

/-- Writing the header lines. -/
theorem headers_result {env : Env} {d : Disk} (h : WF d.fs) {p : Path} {dt n : Str} (hd : DirText p dt) (hn : GoodName n)
    (hk : d.fs.kindOf p = some .dir) (hnd : d.fs.kindOf (p ++ [n]) ≠ some .dir) (hdr : Header) :
    ∃ b d', writeAscHeaders env d (dt ++ n) hdr = (b, d') ∧ OnlyAt d d' (· = p ++ [n]) ∧ (b = true → d'.fs.kindOf (p ++ [n]) = some .file) ∧
      (b = true ↔ d.fs.deny (p ++ [n]) = false ∨ (d.fs.kindOf (p ++ [n]) = some .file ∧ env.ro (p ++ [n]) = false)) := by
  have hne : p ++ [n] ≠ [] := by simp
  have hpn : p ≠ p ++ [n] := by intro e; have := congrArg List.length e; simp at this
  unfold writeAscHeaders
  dsimp only
  rcases kind_cases hnd with hno | hf
  · have hres : d.fs.resolve (dt ++ n) = none := by rw [resolve_full h p dt n hd hn, if_neg (by rw [hno]; simp)]
    have hdel : (deleteExistedFile d.fs (dt ++ n)).2 = d.fs := by
      unfold deleteExistedFile
      dsimp only
      rw [abs_full h p dt n hd hn]
      have : fileExists d.fs (dt ++ n) = false := by unfold fileExists; rw [hres]; rfl
      rw [this]; rfl
    rw [hdel, abs_full h p dt n hd hn]
    obtain ⟨b, d', e, h1, h2, h3⟩ := append_result (env := env) h hd hn hk hnd 0 (ascHeaderText hdr)
    refine ⟨b, d', e, h1, h2, ?_⟩
    rw [h3, hno]
    simp
  · have hres : d.fs.resolve (dt ++ n) = some (p ++ [n]) := by rw [resolve_full h p dt n hd hn, if_pos (by rw [hf]; rfl)]
    have hfe : fileExists d.fs (dt ++ n) = true := by unfold fileExists; rw [hres]; rfl
    have hleaf := file_leaf h _ hnd
    cases hdn : d.fs.deny (p ++ [n])
    · have hdel : (deleteExistedFile d.fs (dt ++ n)).2 = d.fs.erase (p ++ [n]) := by
        unfold deleteExistedFile
        dsimp only
        rw [abs_full h p dt n hd hn, if_pos hfe, remove_some h _ _ hres hne hdn hleaf]
      rw [hdel]
      have hwf : WF (d.fs.erase (p ++ [n])) := wf_erase h _ hne hleaf
      rw [abs_full hwf p dt n hd hn]
      have hke : (d.fs.erase (p ++ [n])).kindOf (p ++ [n]) = none := by rw [kindOf_erase _ _ _ hne, if_pos rfl]
      obtain ⟨b, d', e, h1, h2, h3⟩ := append_result (env := env) (d := { d with fs := d.fs.erase (p ++ [n]) }) hwf hd hn
        (by show (d.fs.erase (p ++ [n])).kindOf p = _; rw [kindOf_erase _ _ _ hne, if_neg hpn, hk])
        (by show (d.fs.erase (p ++ [n])).kindOf (p ++ [n]) ≠ _; rw [hke]; simp) 0 (ascHeaderText hdr)
      refine ⟨b, d', e, ⟨h1.wf, h1.deny, h1.cwd, ?_, ?_⟩, h2, ?_⟩
      · intro q
        rw [h1.dir q]
        show (d.fs.erase (p ++ [n])).kindOf q = _ ↔ _
        rw [kindOf_erase _ _ _ hne]
        by_cases hq : q = p ++ [n]
        · rw [if_pos hq, hq, hf]; simp
        · rw [if_neg hq]
      · intro q hq
        have := h1.same q hq
        refine ⟨this.1.trans ?_, this.2⟩
        show (d.fs.erase (p ++ [n])).kindOf q = _
        rw [kindOf_erase _ _ _ hne, if_neg hq]
      · rw [h3]
        show ((d.fs.erase (p ++ [n])).kindOf (p ++ [n]) = none ∧ d.fs.deny (p ++ [n]) = false) ∨ _ ↔ _
        rw [hke, hdn]
        simp
    · have hdel : (deleteExistedFile d.fs (dt ++ n)).2 = d.fs := by
        unfold deleteExistedFile
        dsimp only
        rw [abs_full h p dt n hd hn, if_pos hfe]
        unfold FS.remove
        rw [hres]
        dsimp only
        rw [if_pos (.inr (.inl hdn))]
      rw [hdel, abs_full h p dt n hd hn]
      obtain ⟨b, d', e, h1, h2, h3⟩ := append_result (env := env) h hd hn hk hnd 0 (ascHeaderText hdr)
      refine ⟨b, d', e, h1, h2, ?_⟩
      rw [h3, hf]
      simp

/-- Header, then more text: the result is true exactly if both times the file could be opened. -/
theorem ascTwo_result {env : Env} {d : Disk} (h : WF d.fs) {p : Path} {dt n : Str} (hd : DirText p dt) (hn : GoodName n)
    (hk : d.fs.kindOf p = some .dir) (hnd : d.fs.kindOf (p ++ [n]) ≠ some .dir) (hdr : Header) :
    ∃ b d', writeAscHeaders env d (dt ++ n) hdr = (b, d') ∧ OnlyAt d d' (· = p ++ [n]) ∧
      ∀ t, ∃ b2 d2, appendText env d' (dt ++ n) 1 t = (b2, d2) ∧ OnlyAt d d2 (· = p ++ [n]) ∧
        ((b = true ∧ b2 = true) ↔ env.ro (p ++ [n]) = false ∧ (d.fs.deny (p ++ [n]) = false ∨ d.fs.kindOf (p ++ [n]) ≠ none)) := by
  obtain ⟨b, d', e, h1, h2, h3⟩ := headers_result (env := env) h hd hn hk hnd hdr
  refine ⟨b, d', e, h1, fun t => ?_⟩
  obtain ⟨b2, d2, e2, h4, -, h5⟩ := append_result (env := env) h1.wf hd hn ((h1.dir p).2 hk) (h1.nodir hnd) 1 t
  refine ⟨b2, d2, e2, h1.trans h4 (fun _ h => h) (fun _ h => h), ?_⟩
  have hkn : d.fs.kindOf (p ++ [n]) ≠ none ↔ d.fs.kindOf (p ++ [n]) = some .file := by
    rcases kind_cases hnd with hx | hx <;> rw [hx] <;> simp
  rw [hkn]
  constructor
  · rintro ⟨hb, hb2⟩
    have hf := h2 hb
    rcases h5.1 hb2 with ⟨hx, -⟩ | ⟨-, hr⟩
    · rw [hf] at hx; cases hx
    · exact ⟨hr, (h3.1 hb).imp id (fun h => h.1)⟩
  · rintro ⟨hr, hx⟩
    have hb : b = true := h3.2 (hx.imp id (fun h => ⟨h, hr⟩))
    exact ⟨hb, h5.2 (.inr ⟨h2 hb, hr⟩)⟩

theorem asc_or_tif {suf : Str} (h : IsAscSuffix suf ∨ IsTifSuffix suf) :
    (IsAscSuffix suf ∧ stringMatch (getUpper suf) extAsc = true ∧ ¬ IsTifSuffix suf) ∨
    (IsTifSuffix suf ∧ ¬ stringMatch (getUpper suf) extAsc = true ∧ stringMatch (getUpper suf) extTif = true ∧ ¬ IsAscSuffix suf) := by
  rcases h with h | h
  · exact .inl ⟨h, by rw [match_upper]; exact (stringMatch_iff _ _).2 h, fun ht => asc_not_tif h ht⟩
  · exact .inr ⟨h, by rw [match_upper]; exact fun hx => asc_not_tif ((stringMatch_iff _ _).1 hx) h,
      by rw [match_upper]; exact (stringMatch_iff _ _).2 h, fun ha => asc_not_tif ha h⟩

/-- A GeoTIFF file. -/
theorem tifOne_result {env : Env} {fmt : Fmt} {d : Disk} (h : WF d.fs) {p : Path} {dt n : Str} (hd : DirText p dt) (hn : GoodName n)
    (hk : d.fs.kindOf p = some .dir) (hnd : d.fs.kindOf (p ++ [n]) ≠ some .dir) {hdr : Header} {vals : Ptr ℚ} {x}
    (e : Gtiff.writeGeotiff fmt.gdal64 true fmt.rnd fmt.src fmt.opt hdr vals = .ok x) :
    ∃ b d', writeSingleGeotiff env fmt d (dt ++ n) hdr vals = .ok (b, d') ∧ OnlyAt d d' (· = p ++ [n]) ∧
      (b = true ↔ x ≠ none ∧ env.gdal (p ++ [n]) = true) ∧ (x = none → d' = d) := by
  unfold writeSingleGeotiff
  rw [e, Out.ok_bind]
  cases x with
  | none => exact ⟨false, d, rfl, .refl h, by simp, fun _ => rfl⟩
  | some f =>
    dsimp only
    rw [needDir_same h hd hn hk hnd, target_full h hd hn hk hnd]
    dsimp only
    cases hgd : env.gdal (p ++ [n])
    · refine ⟨false, _, rfl, ⟨h, rfl, rfl, fun _ => Iff.rfl, ?_⟩, by simp, by simp⟩
      intro q hq
      refine ⟨rfl, ?_⟩
      show upd _ _ _ q = _
      unfold upd
      rw [if_neg hq]
    · refine ⟨true, _, rfl, ?_, by simp, by simp⟩
      rcases kind_cases hnd with hno | hf
      · rw [hno]
        simp only [Option.isSome_none, Bool.false_eq_true, if_false]
        refine ⟨wf_add h hd.1 hn hk hno, rfl, rfl, ?_, ?_⟩
        · intro q
          show (addFile d.fs (p ++ [n])).kindOf q = _ ↔ _
          rw [kindOf_add (by simp) hno]
          by_cases hq : q = p ++ [n]
          · rw [if_pos hq, hq, hno]; simp
          · rw [if_neg hq]
        · intro q hq
          refine ⟨?_, ?_⟩
          · show (addFile d.fs (p ++ [n])).kindOf q = _
            rw [kindOf_add (by simp) hno, if_neg hq]
          · show upd _ _ _ q = _
            unfold upd
            rw [if_neg hq]
      · rw [hf]
        simp only [Option.isSome_some, if_true]
        refine ⟨h, rfl, rfl, fun _ => Iff.rfl, ?_⟩
        intro q hq
        refine ⟨rfl, ?_⟩
        show upd _ _ _ q = _
        unfold upd
        rw [if_neg hq]

/-- One file, ASCII or GeoTIFF: the result is true exactly if the operating system accepts the file and no conversion is refused; a refused
conversion leaves the disk as it is. -/
theorem write_result {env : Env} {fmt : Fmt} {d : Disk} {p : Path} {dt core suf : Str} (hn : NameIn d.fs p dt core suf)
    (hsuf : IsAscSuffix suf ∨ IsTifSuffix suf) (hnd : d.fs.kindOf (p ++ [core ++ '.' :: suf]) ≠ some .dir) {h : Header} {vals : Ptr ℚ} {x}
    (hc : content fmt suf h vals = .ok x) :
    ∃ b d', writeRaster env fmt d (dt ++ core ++ '.' :: suf) h vals = .ok (b, d') ∧ OnlyAt d d' (· = p ++ [core ++ '.' :: suf]) ∧
      (b = true ↔ x ≠ none ∧ Accepts env d.fs suf (p ++ [core ++ '.' :: suf])) ∧ (x = none → d' = d) := by
  have hg := base_good core suf hn.core hn.suf.1 hn.suf.2.1 hn.suf.2.2
  have hsx := getSuffix_full hn.wf p dt core suf hn.dir hn.core hn.suf.1 hn.suf.2.1 hn.suf.2.2
  rw [List.append_assoc] at hsx ⊢
  have hdt : dt ≠ [] := by rw [hn.dir.2]; simp
  unfold writeRaster
  rw [getPath_full hn.wf p dt _ hn.dir hg hnd, if_neg hdt, abs_full hn.wf p dt _ hn.dir hg]
  dsimp only
  rw [hsx]
  unfold content at hc
  rcases asc_or_tif hsuf with ⟨ha, hm, hnt⟩ | ⟨ht, hm, hmt, hna⟩
  · rw [if_pos hm] at hc ⊢
    obtain ⟨t, e1, e2⟩ := Out.bind_ok hc
    obtain ⟨bd, eb, -⟩ := writeAsc_body e1
    obtain ⟨b, d', w1, w2, w3⟩ := ascTwo_result (env := env) hn.wf hn.dir hg hn.exist hnd h
    obtain ⟨b2, d2, w4, w5, w6⟩ := w3 bd
    have hx : x ≠ none := by
      have e2 : (Out.ok (some (Content.asc t)) : Out (Option Content)) = .ok x := e2
      injection e2 with e2
      rw [← e2]; simp
    have hA : Accepts env d.fs suf (p ++ [core ++ '.' :: suf]) ↔ (b = true ∧ b2 = true) := by
      rw [w6]
      exact ⟨fun hh => hh.1 ha, fun hh => ⟨fun _ => hh, fun ht => absurd ht hnt⟩⟩
    unfold writeSingleAsc
    dsimp only
    rw [abs_full hn.wf p dt _ hn.dir hg, needDir_same hn.wf hn.dir hg hn.exist hnd, w1]
    cases b
    · refine ⟨false, d', rfl, w2, ?_, fun hh => absurd hh hx⟩
      rw [hA]
      simp
    · refine ⟨b2, d2, ?_, w5, ?_, fun hh => absurd hh hx⟩
      · simp only [Bool.not_true, Bool.false_eq_true, if_false, eb, Out.ok_bind, Out.pure_eq, w4]
      · rw [hA]
        simp [hx]
  · rw [if_neg hm] at hc
    rw [if_neg hm, if_pos hmt]
    obtain ⟨f, e1, e2⟩ := Out.bind_ok hc
    obtain ⟨b, d', w1, w2, w3, w4⟩ := tifOne_result (env := env) hn.wf hn.dir hg hn.exist hnd e1
    have e2 : (Out.ok (f.map Content.tif) : Out (Option Content)) = .ok x := e2
    injection e2 with e2
    refine ⟨b, d', w1, w2, ?_, ?_⟩
    · rw [w3, ← e2]
      unfold Accepts
      constructor
      · rintro ⟨x1, x2⟩
        exact ⟨by simpa using x1, fun ha => absurd ha hna, fun _ => x2⟩
      · rintro ⟨x1, x2⟩
        exact ⟨by simpa using x1, x2.2 ht⟩
    · intro hh
      apply w4
      rw [hh] at e2
      simpa using e2

/-! ### several files -/

theorem loop_result {env : Env} {fmt : Fmt} {p : Path} {dt core suf : Str} (hsuf : IsAscSuffix suf ∨ IsTifSuffix suf) {full : List ℚ} {fsize lyrs : Int}
    (hf : 0 < fsize) (hl : 1 < lyrs) (hlen : (full.length : Int) = fsize * lyrs) {h : Header} (X : Nat → Option Content) : ∀ (ls : List Nat) (d : Disk),
      ls.Nodup → NameIn d.fs p dt core suf → d.fs.kindOf (p ++ [core ++ '.' :: suf]) ≠ some .dir →
      (∀ l ∈ ls, (l : Int) < lyrs ∧ d.fs.kindOf (p ++ [layerCore core lyrs l ++ '.' :: suf]) ≠ some .dir ∧
        content fmt suf h (some (layerOf full fsize lyrs l)) = .ok (X l)) →
      ∃ b d', fullsizeLoop env fmt (some full) fsize lyrs (dt ++ core ++ '.' :: suf) h true ls d = .ok (b, d') ∧
        OnlyAt d d' (fun q => ∃ l ∈ ls, q = p ++ [layerCore core lyrs l ++ '.' :: suf]) ∧
        (b = true ↔ ∀ l ∈ ls, X l ≠ none ∧ Accepts env d.fs suf (p ++ [layerCore core lyrs l ++ '.' :: suf]))
  | [], d, _, hn, _, _ => ⟨true, d, rfl, .refl hn.wf, by simp⟩
  | l :: ls, d, hdup, hn, hnd, ha => by
    obtain ⟨a1, a2, a3⟩ := ha l (by simp)
    have hname : appendCoreFileNameInt d.fs (dt ++ core ++ '.' :: suf) ((l : Int) + 1) '_' = dt ++ layerCore core lyrs l ++ '.' :: suf := by
      rw [(C53_rename_int d.fs hn.wf p dt core suf hn.dir hn.core hn.suf.1 hn.suf.2.1 hn.suf.2.2 hnd _ '_').1]
      unfold layerCore
      rw [if_neg (by omega)]
    obtain ⟨b1, d1, w1, w2, w3, -⟩ := write_result (env := env) (nameIn_core hn (layerCore_slash hn.core lyrs l)) hsuf a2 a3
    rw [fullsizeLoop, deint_eq hf (by omega) hlen a1, Out.ok_bind]
    simp only [if_true]
    rw [hname, w1, Out.ok_bind]
    have hT : ∀ q, q = p ++ [layerCore core lyrs l ++ '.' :: suf] → ∃ m ∈ l :: ls, q = p ++ [layerCore core lyrs m ++ '.' :: suf] := fun q hq => ⟨l, by simp, hq⟩
    cases b1
    · refine ⟨false, d1, loop_false _ _ (fun m hm => ⟨_, deint_eq hf (by omega) hlen (ha m (by simp [hm])).1⟩), w2.mono hT, ?_⟩
      constructor
      · intro hx; cases hx
      · intro hx
        exact absurd (w3.2 (hx l (by simp))) (by simp)
    · have hne : ∀ m ∈ ls, p ++ [layerCore core lyrs m ++ '.' :: suf] ≠ p ++ [layerCore core lyrs l ++ '.' :: suf] := by
        intro m hm e
        have := layerCore_inj (ha m (by simp [hm])).1 a1 (name_cancel e)
        subst this
        exact (List.nodup_cons.1 hdup).1 hm
      obtain ⟨b, d', e, w4, w5⟩ := loop_result hsuf hf hl hlen X ls d1 (List.nodup_cons.1 hdup).2 (w2.nameIn hn) (w2.nodir hnd) (fun m hm => by
        obtain ⟨b1, b2, b3⟩ := ha m (by simp [hm])
        exact ⟨b1, w2.nodir b2, b3⟩)
      refine ⟨b, d', e, w2.trans w4 hT (fun q ⟨m, hm, hq⟩ => ⟨m, by simp [hm], hq⟩), ?_⟩
      rw [w5]
      constructor
      · intro hx m hm
        rcases List.mem_cons.1 hm with rfl | hm
        · exact w3.1 rfl
        · have := hx m hm
          exact ⟨this.1, (w2.accepts (hne m hm)).1 this.2⟩
      · intro hx m hm
        have := hx m (List.mem_cons_of_mem _ hm)
        exact ⟨this.1, (w2.accepts (hne m hm)).2 this.2⟩

theorem layers_result {env : Env} {fmt : Fmt} {d : Disk} {p : Path} {dt core suf : Str} (hn : NameIn d.fs p dt core suf) (hsuf : IsAscSuffix suf ∨ IsTifSuffix suf)
    (hnd : d.fs.kindOf (p ++ [core ++ '.' :: suf]) ≠ some .dir) {full : List ℚ} {fsize lyrs : Int} (hf : 0 < fsize) (hl : 1 ≤ lyrs)
    (hlen : (full.length : Int) = fsize * lyrs) {h : Header} (X : Nat → Option Content)
    (ha : ∀ l : Nat, (l : Int) < lyrs → d.fs.kindOf (p ++ [layerCore core lyrs l ++ '.' :: suf]) ≠ some .dir ∧
        content fmt suf h (some (layerOf full fsize lyrs l)) = .ok (X l)) :
    ∃ b d', fullsizeToFiles env fmt d (some full) fsize lyrs (dt ++ core ++ '.' :: suf) h = .ok (b, d') ∧
      OnlyAt d d' (fun q => ∃ l : Nat, (l : Int) < lyrs ∧ q = p ++ [layerCore core lyrs l ++ '.' :: suf]) ∧
      (b = true ↔ ∀ l : Nat, (l : Int) < lyrs → X l ≠ none ∧ Accepts env d.fs suf (p ++ [layerCore core lyrs l ++ '.' :: suf])) := by
  unfold fullsizeToFiles
  rw [if_neg (by simp), if_neg (by omega)]
  by_cases h1 : lyrs = 1
  · subst h1
    rw [if_pos rfl]
    obtain ⟨a1, a2⟩ := ha 0 (by omega)
    rw [layerOf_one (by omega)] at a2
    obtain ⟨b, d1, w1, w2, w3, -⟩ := write_result (env := env) (nameIn_core hn (layerCore_slash hn.core 1 0)) hsuf a1 a2
    refine ⟨b, d1, w1, w2.mono (fun q hq => ⟨0, by omega, hq⟩), ?_⟩
    rw [w3]
    constructor
    · intro hx l hl2
      have : l = 0 := by omega
      subst this
      exact hx
    · intro hx
      exact hx 0 (by omega)
  · rw [if_neg h1]
    obtain ⟨b, d', e, w1, w2⟩ := loop_result (env := env) hsuf hf (by omega) hlen X (List.range lyrs.toNat) d List.nodup_range hn hnd (fun l hl2 => by
      have := List.mem_range.1 hl2
      have hll : (l : Int) < lyrs := by omega
      exact ⟨hll, ha l hll⟩)
    refine ⟨b, d', e, w1.mono (fun q ⟨l, hl2, hq⟩ => ⟨l, by have := List.mem_range.1 hl2; omega, hq⟩), ?_⟩
    rw [w2]
    constructor
    · intro hx l hl2
      exact hx l (List.mem_range.2 (by omega))
    · intro hx l hl2
      have := List.mem_range.1 hl2
      exact hx l (by omega)

theorem subs_result {env : Env} {fmt : Fmt} {p : Path} {dt core suf : Str} (hsuf : IsAscSuffix suf ∨ IsTifSuffix suf)
    {r : Raster} {oo : Bool} {recls : IMap (List ℚ)} {dv : ℚ} {lyrs : Int} (hl : 1 ≤ lyrs) (H : Int → Header) (F : Int → List ℚ) (N : Int → Int)
    (X : Int → Nat → Option Content) :
    ∀ (subs : IMap Subset) (d : Disk), (subs.map (·.1)).Pairwise (· < ·) → NameIn d.fs p dt core suf → d.fs.kindOf (p ++ [core ++ '.' :: suf]) ≠ some .dir →
      (∀ e ∈ subs, subPayload r e.1 e.2 oo recls dv = .ok (some (H e.1, some (F e.1), N e.1, lyrs)) ∧ 0 < N e.1 ∧
        ((F e.1).length : Int) = N e.1 * lyrs ∧ d.fs.kindOf (p ++ [subsetCore e.1 core ++ '.' :: suf]) ≠ some .dir ∧
        ∀ l : Nat, (l : Int) < lyrs → d.fs.kindOf (p ++ [layerCore (subsetCore e.1 core) lyrs l ++ '.' :: suf]) ≠ some .dir ∧
          content fmt suf (H e.1) (some (layerOf (F e.1) (N e.1) lyrs l)) = .ok (X e.1 l)) →
      ∃ b d', subLoop env fmt r (dt ++ core ++ '.' :: suf) oo recls dv true subs d = .ok (b, d') ∧
        OnlyAt d d' (fun q => ∃ e ∈ subs, ∃ l : Nat, (l : Int) < lyrs ∧ q = p ++ [layerCore (subsetCore e.1 core) lyrs l ++ '.' :: suf]) ∧
        (b = true ↔ ∀ e ∈ subs, ∀ l : Nat, (l : Int) < lyrs → X e.1 l ≠ none ∧
          Accepts env d.fs suf (p ++ [layerCore (subsetCore e.1 core) lyrs l ++ '.' :: suf]))
  | [], d, _, hn, _, _ => ⟨true, d, rfl, .refl hn.wf, by simp⟩
  | e :: subs, d, hs, hn, hnd, ha => by
    obtain ⟨a1, a2, a3, a4, a5⟩ := ha e (by simp)
    have hname : prefixCoreFileNameInt d.fs (dt ++ core ++ '.' :: suf) e.1 '_' = dt ++ subsetCore e.1 core ++ '.' :: suf :=
      (C53_rename_int d.fs hn.wf p dt core suf hn.dir hn.core hn.suf.1 hn.suf.2.1 hn.suf.2.2 hnd _ '_').2
    obtain ⟨b1, d1, w1, w2, w3⟩ := layers_result (env := env) (nameIn_core hn (subsetCore_slash hn.core e.1)) hsuf a4 a2 hl a3 (X e.1) a5
    rw [subLoop, a1, Out.ok_bind]
    dsimp only
    simp only [if_true]
    rw [hname, w1, Out.ok_bind]
    have hT : ∀ q, (∃ l : Nat, (l : Int) < lyrs ∧ q = p ++ [layerCore (subsetCore e.1 core) lyrs l ++ '.' :: suf]) →
        ∃ e' ∈ e :: subs, ∃ l : Nat, (l : Int) < lyrs ∧ q = p ++ [layerCore (subsetCore e'.1 core) lyrs l ++ '.' :: suf] := fun q hq => ⟨e, by simp, hq⟩
    rw [List.map_cons, List.pairwise_cons] at hs
    cases b1
    · refine ⟨false, d1, sub_false _ _ (fun m hm => ⟨_, (ha m (by simp [hm])).1⟩), w2.mono hT, ?_⟩
      constructor
      · intro hx; cases hx
      · intro hx
        exact absurd (w3.2 (hx e (by simp))) (by simp)
    · have hne : ∀ m ∈ subs, ∀ l : Nat, (l : Int) < lyrs →
          ¬ ∃ l' : Nat, (l' : Int) < lyrs ∧ p ++ [layerCore (subsetCore m.1 core) lyrs l ++ '.' :: suf] = p ++ [layerCore (subsetCore e.1 core) lyrs l' ++ '.' :: suf] := by
        rintro m hm l hl1 ⟨l', hl2, he⟩
        have h1 := (names_inj hl1 hl2 (name_cancel he)).1
        have h2 := hs.1 m.1 (List.mem_map.2 ⟨m, hm, rfl⟩)
        omega
      obtain ⟨b, d', e', w4, w5⟩ := subs_result hsuf hl H F N X subs d1 hs.2 (w2.nameIn hn) (w2.nodir hnd) (fun m hm => by
        obtain ⟨b1, b2, b3, b4, b5⟩ := ha m (by simp [hm])
        exact ⟨b1, b2, b3, w2.nodir b4, fun l hl2 => ⟨w2.nodir (b5 l hl2).1, (b5 l hl2).2⟩⟩)
      refine ⟨b, d', e', w2.trans w4 hT (fun q ⟨m, hm, hq⟩ => ⟨m, by simp [hm], hq⟩), ?_⟩
      rw [w5]
      have := w3.1 rfl
      constructor
      · intro hx m hm l hl2
        rcases List.mem_cons.1 hm with rfl | hm
        · exact this l hl2
        · have := hx m hm l hl2
          exact ⟨this.1, (w2.accepts (hne m hm l hl2)).1 this.2⟩
      · intro hx m hm l hl2
        have := hx m (List.mem_cons_of_mem _ hm) l hl2
        exact ⟨this.1, (w2.accepts (hne m hm l hl2)).2 this.2⟩

/-- C75, failures: whatever the operating system does, writing the subsets ends normally, touches no other file, and returns true exactly if each
file could be opened (ASCII) or was written by GDAL (GeoTIFF). -/
theorem C75_subsets_answer {env : Env} {fmt : Fmt} {d : Disk} {r : Raster} (hb : Built r) {groups : List (Int × Int)} {rs' : RasterS} {b : Bool}
    (e : buildSubSet ⟨r, []⟩ groups = .ok (rs', b)) (hne : rs'.subs ≠ []) (h2 : r.is2d = true → 1 < r.nLyrs)
    {p : Path} {dt core suf : Str} (hn : NameIn d.fs p dt core suf) (hsuf : IsAscSuffix suf ∨ IsTifSuffix suf) (hty : IsTifSuffix suf → SameType fmt)
    (hnd : d.fs.kindOf (p ++ [core ++ '.' :: suf]) ≠ some .dir) {dv : ℚ}
    (hdir : ∀ k s, rs'.subs.get k = some s → d.fs.kindOf (p ++ [subsetCore k core ++ '.' :: suf]) ≠ some .dir ∧
      ∀ l : Nat, (l : Int) < r.nLyrs → d.fs.kindOf (p ++ [layerCore (subsetCore k core) r.nLyrs l ++ '.' :: suf]) ≠ some .dir)
    (hh : ∀ k s, rs'.subs.get k = some s → CarriesHeader suf (s.getHeader r.hdr.xll r.hdr.yll r.hdr.rows r.hdr.cellsize r.noData))
    (hv : ∀ row col lyr v, 0 ≤ row → row < r.hdr.rows → 0 ≤ col → col < r.hdr.cols → 1 ≤ lyr → lyr ≤ r.nLyrs →
      r.getValue row col lyr = .ok v → CarriesValue fmt suf v) (hnv : CarriesValue fmt suf r.noData) :
    ∃ ok d', outputSubsetToFile env fmt d rs' true false (dt ++ core ++ '.' :: suf) [] dv = .ok (ok, d') ∧
      OnlyAt d d' (fun q => ∃ k s, rs'.subs.get k = some s ∧ ∃ l : Nat, (l : Int) < r.nLyrs ∧ q = p ++ [layerCore (subsetCore k core) r.nLyrs l ++ '.' :: suf]) ∧
      (ok = true ↔ ∀ k s (l : Nat), rs'.subs.get k = some s → (l : Int) < r.nLyrs →
        Accepts env d.fs suf (p ++ [layerCore (subsetCore k core) r.nLyrs l ++ '.' :: suf])) := by
  obtain ⟨hsorted, hvalid, hL, pay⟩ := subset_pay hb e hne h2 hn hsuf hty dv hh hv hnv
  have hget : ∀ x ∈ rs'.subs, rs'.subs.get x.1 = some x.2 := fun x hx => (IMap.mem_iff_get _ hsorted _ _).1 hx
  choose H F N cs hP using pay
  obtain ⟨ok, d', o1, o2, o3⟩ := subs_result (env := env) (fmt := fmt) (r := rs'.ras) (oo := true) (recls := []) (dv := dv) hsuf hL H F N
    (fun k l => some (cs k l)) rs'.subs d hsorted hn hnd
    (fun x hx => by
      have hk := hget x hx
      obtain ⟨a1, a2, a3, -, -, -, -, -, -, a4, -⟩ := hP x.1 x.2 hk
      exact ⟨a1, a2, a3, (hdir _ _ hk).1, fun l hl => ⟨(hdir _ _ hk).2 l hl, (a4 l hl).1⟩⟩)
  refine ⟨ok, d', ?_, o2.mono (fun q ⟨x, hx, hq⟩ => ⟨x.1, x.2, hget x hx, hq⟩), ?_⟩
  · unfold outputSubsetToFile
    rw [hvalid]
    simp only [Bool.not_true, Bool.false_eq_true, if_false]
    rw [if_neg hne]
    exact o1
  · rw [o3]
    constructor
    · intro hx k s l hk hl
      exact (hx (k, s) ((IMap.mem_iff_get _ hsorted _ _).2 hk) l hl).2
    · intro hx m hm l hl
      exact ⟨by simp, hx m.1 m.2 l (hget m hm) hl⟩

/-! ### whole rasters -/

theorem ascFiles_result {env : Env} {pr : ℚ → Str} {h : Header} {p : Path} {dt suf : Str} (cores : Nat → Str) (rows : Nat → List (List ℚ)) :
    ∀ (ls : List Nat) (d : Disk), ls.Nodup → WF d.fs → (∀ l ∈ ls, NameIn d.fs p dt (cores l) suf ∧ d.fs.kindOf (p ++ [cores l ++ '.' :: suf]) ≠ some .dir) →
      (∀ l ∈ ls, ∀ m ∈ ls, cores l = cores m → l = m) →
      ∃ b d', ascFiles env pr h (ls.map (fun l => (dt ++ cores l ++ '.' :: suf, rows l))) d = (b, d') ∧
        OnlyAt d d' (fun q => ∃ l ∈ ls, q = p ++ [cores l ++ '.' :: suf]) ∧
        (b = true ↔ ∀ l ∈ ls, env.ro (p ++ [cores l ++ '.' :: suf]) = false ∧
          (d.fs.deny (p ++ [cores l ++ '.' :: suf]) = false ∨ d.fs.kindOf (p ++ [cores l ++ '.' :: suf]) ≠ none))
  | [], d, _, hwf, _, _ => ⟨true, d, rfl, .refl hwf, by simp⟩
  | l :: ls, d, hdup, hwf, ha, hinj => by
    obtain ⟨hn, hnd⟩ := ha l (by simp)
    have hg := base_good (cores l) suf hn.core hn.suf.1 hn.suf.2.1 hn.suf.2.2
    obtain ⟨b, d1, w1, w2, w3⟩ := ascTwo_result (env := env) hn.wf hn.dir hg hn.exist hnd h
    obtain ⟨b2, d2, w4, w5, w6⟩ := w3 ((rows l).flatMap (ascRowText pr))
    have hT : ∀ q, q = p ++ [cores l ++ '.' :: suf] → ∃ m ∈ l :: ls, q = p ++ [cores m ++ '.' :: suf] := fun q hq => ⟨l, by simp, hq⟩
    rw [List.map_cons, ascFiles]
    dsimp only
    rw [List.append_assoc, w1]
    cases b
    · refine ⟨false, d1, rfl, w2.mono hT, ?_⟩
      constructor
      · intro hx; cases hx
      · intro hx
        have := w6.2 (hx l (by simp))
        exact absurd this.1 (by simp)
    · simp only [Bool.not_true, Bool.false_eq_true, if_false]
      rw [w4]
      cases b2
      · refine ⟨false, d2, rfl, w5.mono hT, ?_⟩
        constructor
        · intro hx; cases hx
        · intro hx
          have := w6.2 (hx l (by simp))
          exact absurd this.2 (by simp)
      · have hne : ∀ m ∈ ls, p ++ [cores m ++ '.' :: suf] ≠ p ++ [cores l ++ '.' :: suf] := by
          intro m hm e
          have := hinj m (by simp [hm]) l (by simp) (name_cancel e)
          subst this
          exact (List.nodup_cons.1 hdup).1 hm
        obtain ⟨b3, d3, w7, w8, w9⟩ := ascFiles_result (env := env) (pr := pr) (h := h) cores rows ls d2 (List.nodup_cons.1 hdup).2 w5.wf
          (fun m hm => ⟨w5.nameIn (ha m (by simp [hm])).1, w5.nodir (ha m (by simp [hm])).2⟩) (fun a ha b hb => hinj a (by simp [ha]) b (by simp [hb]))
        refine ⟨b3, d3, ?_, w5.trans w8 hT (fun q ⟨m, hm, hq⟩ => ⟨m, by simp [hm], hq⟩), ?_⟩
        · simpa using w7
        · rw [w9]
          constructor
          · intro hx m hm
            rcases List.mem_cons.1 hm with rfl | hm
            · exact w6.1 ⟨rfl, rfl⟩
            · have := hx m hm
              rw [w5.deny, (w5.same _ (hne m hm)).1] at this
              exact this
          · intro hx m hm
            have := hx m (List.mem_cons_of_mem _ hm)
            rw [w5.deny, (w5.same _ (hne m hm)).1]
            exact this

/-- C75, failures: whatever the operating system does, writing a whole raster to ASCII files ends normally, leaves the raster as it is, touches no
other file, and returns true exactly if each file could be opened for writing (whether the text reached the disk is not noticed). -/
theorem C75_whole_asc_answer {env : Env} {fmt : Fmt} {d : Disk} {r : Raster} (hb : Built r) (hv : r.validData = true) (hn2 : r.is2d = true → 0 < r.nCells)
    (hp : 0 < r.hdr.rows ∧ 0 < r.hdr.cols)
    (subs : IMap Subset) {p : Path} {dt core suf : Str} (hn : NameIn d.fs p dt core suf) (hsuf : IsAscSuffix suf)
    (hnd : d.fs.kindOf (p ++ [core ++ '.' :: suf]) ≠ some .dir)
    (hw : ∀ l : Nat, (l : Int) < r.nLyrs → d.fs.kindOf (p ++ [wholeCore core r.is2d 0 l ++ '.' :: suf]) ≠ some .dir) :
    ∃ ok d', outputToFile env fmt d ⟨r, subs⟩ (dt ++ core ++ '.' :: suf) true = .ok (⟨r, subs⟩, ok, d') ∧
      OnlyAt d d' (fun q => ∃ l : Nat, (l : Int) < r.nLyrs ∧ q = p ++ [wholeCore core r.is2d 0 l ++ '.' :: suf]) ∧
      (ok = true ↔ ∀ l : Nat, (l : Int) < r.nLyrs → Accepts env d.fs suf (p ++ [wholeCore core r.is2d 0 l ++ '.' :: suf])) := by
  obtain ⟨ls, loc, hsto, hgrid, hL, hone, -, hasc⟩ := whole_cases hb hv hn2 (mul_pos hp.1 hp.2)
  have hg := base_good core suf hn.core hn.suf.1 hn.suf.2.1 hn.suf.2.2
  have hsx := getSuffix_full hn.wf p dt core suf hn.dir hn.core hn.suf.1 hn.suf.2.1 hn.suf.2.2
  have hpath : getPathFromFullName d.fs (dt ++ core ++ '.' :: suf) = dt := by
    rw [List.append_assoc]; exact getPath_full hn.wf p dt _ hn.dir hg hnd
  have habs : getAbsolutePath d.fs (dt ++ core ++ '.' :: suf) = dt ++ core ++ '.' :: suf := by
    rw [List.append_assoc]; exact abs_full hn.wf p dt _ hn.dir hg
  have hdt : dt ≠ [] := by rw [hn.dir.2]; simp
  have hm : stringMatch (getUpper suf) extAsc = true := by
    rw [match_upper]; exact (stringMatch_iff _ _).2 hsuf
  have hdtm : stringMatch dt [] = false := by
    cases hx : stringMatch dt []
    · rfl
    · have := (stringMatch_iff _ _).1 hx
      exact absurd (by simpa [SameText] using this) hdt
  have key : ∀ fill : ℚ, ∃ b d', ascFiles env fmt.pr r.hdr ((List.range r.nLyrs.toNat).map (fun l => (dt ++ wholeCore core r.is2d 0 l ++ '.' :: suf,
      (Raster.rowCells r.hdr.rows r.hdr.cols).map (fun row => row.map (fun rc => fillGrid ls loc fill l rc.1 rc.2))))) d = (b, d') ∧
      OnlyAt d d' (fun q => ∃ l : Nat, (l : Int) < r.nLyrs ∧ q = p ++ [wholeCore core r.is2d 0 l ++ '.' :: suf]) ∧
      (b = true ↔ ∀ l : Nat, (l : Int) < r.nLyrs → Accepts env d.fs suf (p ++ [wholeCore core r.is2d 0 l ++ '.' :: suf])) := by
    intro fill
    obtain ⟨b, d', w1, w2, w3⟩ := ascFiles_result (env := env) (pr := fmt.pr) (h := r.hdr) (p := p) (dt := dt) (suf := suf) (wholeCore core r.is2d 0)
      (fun l => (Raster.rowCells r.hdr.rows r.hdr.cols).map (fun row => row.map (fun rc => fillGrid ls loc fill l rc.1 rc.2)))
      (List.range r.nLyrs.toNat) d List.nodup_range hn.wf (fun l hl => by
        have := List.mem_range.1 hl
        exact ⟨nameIn_core hn (wholeCore_slash hn.core _ _ _), hw l (by omega)⟩) (by
        intro l hl m hm2 he
        cases h2 : r.is2d
        · have := hone h2
          have := List.mem_range.1 hl
          have := List.mem_range.1 hm2
          omega
        · rw [h2] at he
          exact wholeCore_inj he)
    refine ⟨b, d', w1, w2.mono (fun q ⟨l, hl, hq⟩ => ⟨l, by have := List.mem_range.1 hl; omega, hq⟩), ?_⟩
    rw [w3]
    constructor
    · intro hx l hl
      exact ⟨fun _ => hx l (List.mem_range.2 (by omega)), fun ht => (asc_not_tif hsuf ht).elim⟩
    · intro hx l hl
      have := List.mem_range.1 hl
      exact (hx l (by omega)).1 hsuf
  cases h2 : r.is2d
  · obtain ⟨b, d', w1, w2, w3⟩ := key r.noData
    rw [h2] at w1 w2 w3
    refine ⟨b, d', ?_, w2, w3⟩
    unfold outputToFile
    rw [hpath, if_neg hdt, habs]
    dsimp only
    rw [hsx, hv]
    simp only [Bool.not_true, Bool.false_eq_true, if_false]
    rw [if_pos hm, hasc, habs]
    dsimp only
    rw [hpath, hdtm, h2]
    have hone := hone h2
    rw [hone] at w1
    simp only [Bool.false_eq_true, if_false, Out.ok_bind, Out.pure_eq]
    have e1 : ascFiles env fmt.pr r.hdr [(dt ++ core ++ '.' :: suf, (Raster.rowCells r.hdr.rows r.hdr.cols).map (fun row => row.map
      (fun rc => fillGrid ls loc r.noData 0 rc.1 rc.2)))] d = (b, d') := w1
    rw [e1]
  · obtain ⟨b, d', w1, w2, w3⟩ := key NODATA
    rw [h2] at w1 w2 w3
    refine ⟨b, d', ?_, w2, w3⟩
    unfold outputToFile
    rw [hpath, if_neg hdt, habs]
    dsimp only
    rw [hsx, hv]
    simp only [Bool.not_true, Bool.false_eq_true, if_false]
    rw [if_pos hm, hasc, habs]
    dsimp only
    rw [hpath, hdtm, h2]
    simp only [if_true, Out.ok_bind, Out.pure_eq, Bool.false_eq_true, if_false]
    have hnames : ∀ l : Nat, appendCoreFileNameInt d.fs (dt ++ core ++ '.' :: suf) (l : Int) '_' = dt ++ wholeCore core true 0 l ++ '.' :: suf := by
      intro l
      rw [(C53_rename_int d.fs hn.wf p dt core suf hn.dir hn.core hn.suf.1 hn.suf.2.1 hn.suf.2.2 hnd _ '_').1]
      unfold wholeCore
      rw [if_pos rfl, add_zero]
    simp only [hnames]
    rw [w1]

theorem gdalFiles_result {env : Env} {fmt : Fmt} {r : Raster} {loc : Int → Int → Option Nat} {lsv : List (List ℚ)} {p : Path} {dt core suf : Str}
    (hr : 0 ≤ r.hdr.rows) (hc : 0 < r.hdr.cols)
    (hstep : ∀ (b : Ptr ℚ) (l : Nat), GoodBuf r loc b → (l : Int) < r.nLyrs →
      ∃ d, r.gdalLayer b l = .ok d ∧ IsFullArray r.hdr d (fillGrid lsv loc r.noData l)) (X : Nat → Option Gtiff.GFile)
    (hcont : ∀ l : Nat, (l : Int) < r.nLyrs →
      Gtiff.writeGeotiff fmt.gdal64 true fmt.rnd fmt.src fmt.opt r.hdr (some (listOf r.hdr (fillGrid lsv loc r.noData l))) = .ok (X l)) :
    ∀ (ls : List Nat) (b : Ptr ℚ) (d : Disk), GoodBuf r loc b → NameIn d.fs p dt core suf →
      d.fs.kindOf (p ++ [core ++ '.' :: suf]) ≠ some .dir →
      (∀ l ∈ ls, (l : Int) < r.nLyrs ∧ d.fs.kindOf (p ++ [wholeCore core true 1 l ++ '.' :: suf]) ≠ some .dir) →
      ∃ ok d', gdalFiles env fmt r (dt ++ core ++ '.' :: suf) b ls d = .ok (ok, d') ∧
        OnlyAt d d' (fun q => ∃ l ∈ ls, q = p ++ [wholeCore core true 1 l ++ '.' :: suf]) ∧
        (ok = true ↔ ∀ l ∈ ls, X l ≠ none ∧ env.gdal (p ++ [wholeCore core true 1 l ++ '.' :: suf]) = true)
  | [], b, d, _, hn, _, _ => ⟨true, d, rfl, .refl hn.wf, by simp⟩
  | l :: ls, b, d, hb, hn, hnd, ha => by
    obtain ⟨hl, hw⟩ := ha l (by simp)
    obtain ⟨b1, e1, hfa⟩ := hstep b l hb hl
    have hb1 := array_unique hr hc hfa
    have hg := base_good (wholeCore core true 1 l) suf (wholeCore_slash hn.core _ _ _) hn.suf.1 hn.suf.2.1 hn.suf.2.2
    have hname := (C53_rename_int d.fs hn.wf p dt core suf hn.dir hn.core hn.suf.1 hn.suf.2.1 hn.suf.2.2 hnd ((l : Int) + 1) '_').1
    have hname : appendCoreFileNameInt d.fs (dt ++ core ++ '.' :: suf) ((l : Int) + 1) '_' = dt ++ wholeCore core true 1 l ++ '.' :: suf := hname
    obtain ⟨b2, d1, w1, w2, w3, -⟩ := tifOne_result (env := env) (fmt := fmt) hn.wf hn.dir hg hn.exist hw (hdr := r.hdr) (hcont l hl)
    have hT : ∀ q, q = p ++ [wholeCore core true 1 l ++ '.' :: suf] → ∃ m ∈ l :: ls, q = p ++ [wholeCore core true 1 m ++ '.' :: suf] := fun q hq => ⟨l, by simp, hq⟩
    rw [gdalFiles, e1, Out.ok_bind, hname, List.append_assoc dt, hb1, w1, Out.ok_bind]
    cases b2
    · refine ⟨false, d1, rfl, w2.mono hT, ?_⟩
      constructor
      · intro hx; cases hx
      · intro hx
        exact absurd (w3.2 (hx l (by simp))) (by simp)
    · simp only [if_true]
      obtain ⟨ok, d', e, w4, w5⟩ := gdalFiles_result hr hc hstep X hcont ls b1 d1 (IsFullArray.good hfa) (w2.nameIn hn)
        (w2.nodir hnd) (fun m hm => ⟨(ha m (by simp [hm])).1, w2.nodir (ha m (by simp [hm])).2⟩)
      rw [hb1] at e
      refine ⟨ok, d', e, w2.trans w4 hT (fun q ⟨m, hm, hq⟩ => ⟨m, by simp [hm], hq⟩), ?_⟩
      rw [w5]
      constructor
      · intro hx m hm
        rcases List.mem_cons.1 hm with rfl | hm
        · exact w3.1 rfl
        · exact hx m hm
      · intro hx m hm
        exact hx m (List.mem_cons_of_mem _ hm)

/-- Writing a whole raster to GeoTIFF files, given the outcomes of the conversions. -/
theorem tif_answer {env : Env} {fmt : Fmt} {d : Disk} {r : Raster} (hb : Built r) (hv : r.validData = true) (hn2 : r.is2d = true → 0 < r.nCells)
    (hp : 0 < r.hdr.rows ∧ 0 < r.hdr.cols) (subs : IMap Subset) {p : Path} {dt core suf : Str} (hn : NameIn d.fs p dt core suf) (hsuf : IsTifSuffix suf)
    (hnd : d.fs.kindOf (p ++ [core ++ '.' :: suf]) ≠ some .dir)
    (hw : ∀ l : Nat, (l : Int) < r.nLyrs → d.fs.kindOf (p ++ [wholeCore core r.is2d 1 l ++ '.' :: suf]) ≠ some .dir) (Ok : Nat → Prop)
    (hconv : ∀ (l : Nat) (cells : List ℚ), (l : Int) < r.nLyrs → (cells.length : Int) = r.hdr.cols * r.hdr.rows →
      (∀ v ∈ cells, ∃ row col, 0 ≤ row ∧ row < r.hdr.rows ∧ 0 ≤ col ∧ col < r.hdr.cols ∧ r.getValue row col ((l : Int) + 1) = .ok v) →
      (∀ row col v, 0 ≤ row → row < r.hdr.rows → 0 ≤ col → col < r.hdr.cols → r.getValue row col ((l : Int) + 1) = .ok v → v ∈ cells) →
      ∃ x, Gtiff.writeGeotiff fmt.gdal64 true fmt.rnd fmt.src fmt.opt r.hdr (some cells) = .ok x ∧ (x ≠ none ↔ Ok l)) :
    ∃ ok d', outputToFile env fmt d ⟨r, subs⟩ (dt ++ core ++ '.' :: suf) true = .ok (⟨r, subs⟩, ok, d') ∧
      OnlyAt d d' (fun q => ∃ l : Nat, (l : Int) < r.nLyrs ∧ q = p ++ [wholeCore core r.is2d 1 l ++ '.' :: suf]) ∧
      (ok = true ↔ ∀ l : Nat, (l : Int) < r.nLyrs → Ok l ∧ env.gdal (p ++ [wholeCore core r.is2d 1 l ++ '.' :: suf]) = true) := by
  obtain ⟨ls, loc, hsto, hgrid, hL, hone, hstep, -⟩ := whole_cases hb hv hn2 (mul_pos hp.1 hp.2)
  have hg := base_good core suf hn.core hn.suf.1 hn.suf.2.1 hn.suf.2.2
  have hsx := getSuffix_full hn.wf p dt core suf hn.dir hn.core hn.suf.1 hn.suf.2.1 hn.suf.2.2
  have hpath : getPathFromFullName d.fs (dt ++ core ++ '.' :: suf) = dt := by
    rw [List.append_assoc]; exact getPath_full hn.wf p dt _ hn.dir hg hnd
  have habs : getAbsolutePath d.fs (dt ++ core ++ '.' :: suf) = dt ++ core ++ '.' :: suf := by
    rw [List.append_assoc]; exact abs_full hn.wf p dt _ hn.dir hg
  have hdt : dt ≠ [] := by rw [hn.dir.2]; simp
  obtain ⟨-, hm, hmt, -⟩ : IsTifSuffix suf ∧ ¬ stringMatch (getUpper suf) extAsc = true ∧ stringMatch (getUpper suf) extTif = true ∧ ¬ IsAscSuffix suf := by
    rcases asc_or_tif (.inr hsuf) with ⟨-, -, h⟩ | h
    · exact absurd hsuf h
    · exact h
  have hdtm : stringMatch dt [] = false := by
    cases hx : stringMatch dt []
    · rfl
    · have := (stringMatch_iff _ _).1 hx
      exact absurd (by simpa [SameText] using this) hdt
  have hX : ∀ l : Nat, ∃ x, (l : Int) < r.nLyrs →
      Gtiff.writeGeotiff fmt.gdal64 true fmt.rnd fmt.src fmt.opt r.hdr (some (listOf r.hdr (fillGrid ls loc r.noData l))) = .ok x ∧ (x ≠ none ↔ Ok l) := by
    intro l
    by_cases hl : (l : Int) < r.nLyrs
    · have ha := listOf_array hp.1.le hp.2.le (fillGrid ls loc r.noData l)
      obtain ⟨x, hx⟩ := hconv l (listOf r.hdr (fillGrid ls loc r.noData l)) hl (by
          obtain ⟨l', e, hl, -⟩ := ha
          injection e with e
          rw [e, hl, mul_comm]) (by
          intro v hv
          obtain ⟨row, col, a1, a2, a3, a4, rfl⟩ := array_values hp.2 ha hv
          exact ⟨row, col, a1, a2, a3, a4, hgrid l hl row col a1 a2 a3 a4⟩) (by
          intro row col v a1 a2 a3 a4 hv
          rw [hgrid l hl row col a1 a2 a3 a4] at hv
          injection hv with hv
          rw [← hv]
          obtain ⟨l', e, -, hg'⟩ := ha
          injection e with e
          have := hg' row col a1 a2 a3 a4
          rw [e]
          exact List.mem_of_getElem? this)
      exact ⟨x, fun _ => hx⟩
    · exact ⟨none, fun h => absurd h hl⟩
  choose X hX using hX
  obtain ⟨ok, d', e1, w1, w2⟩ : ∃ ok d', outputGdalFile env fmt d r (dt ++ core ++ '.' :: suf) = .ok (ok, d') ∧
      OnlyAt d d' (fun q => ∃ l : Nat, (l : Int) < r.nLyrs ∧ q = p ++ [wholeCore core r.is2d 1 l ++ '.' :: suf]) ∧
      (ok = true ↔ ∀ l : Nat, (l : Int) < r.nLyrs → Ok l ∧ env.gdal (p ++ [wholeCore core r.is2d 1 l ++ '.' :: suf]) = true) := by
    unfold outputGdalFile
    rw [habs]
    dsimp only
    rw [hpath, hdtm]
    cases h2 : r.is2d
    · have ho := hone h2
      obtain ⟨b, e2, hb2⟩ := hstep none 0 (.inl rfl) (by omega)
      have hb3 := array_unique hp.1.le hp.2 hb2
      subst hb3
      have hw0 := hw 0 (by omega)
      rw [h2] at hw0
      obtain ⟨x1, x2⟩ := hX 0 (by omega)
      obtain ⟨ok, d1, w1, w2, w3, -⟩ := tifOne_result (env := env) (fmt := fmt) hn.wf hn.dir hg hn.exist hw0 (hdr := r.hdr) x1
      refine ⟨ok, d1, ?_, w2.mono (fun q hq => ⟨0, by omega, hq⟩), ?_⟩
      · simp only [Bool.false_eq_true, if_false]
        have e2 : r.gdalLayer none 0 = _ := e2
        rw [e2, Out.ok_bind, List.append_assoc, w1]
      · rw [w3, x2]
        constructor
        · intro hx l hl
          have : l = 0 := by omega
          subst this
          exact hx
        · intro hx
          exact hx 0 (by omega)
    · simp only [if_true, Bool.false_eq_true, if_false]
      obtain ⟨ok, d1, w1, w2, w3⟩ := gdalFiles_result (env := env) (fmt := fmt) hp.1.le hp.2 hstep X (fun l hl => (hX l hl).1) (List.range r.nLyrs.toNat) none d
        (.inl rfl) hn hnd (fun l hl => by
          have := List.mem_range.1 hl
          have hwl := hw l (by omega)
          rw [h2] at hwl
          exact ⟨by omega, hwl⟩)
      refine ⟨ok, d1, w1, w2.mono (fun q ⟨l, hl, hq⟩ => ⟨l, by have := List.mem_range.1 hl; omega, hq⟩), ?_⟩
      rw [w3]
      constructor
      · intro hx l hl
        have := hx l (List.mem_range.2 (by omega))
        exact ⟨(hX l hl).2.1 this.1, this.2⟩
      · intro hx l hl
        have hl' := List.mem_range.1 hl
        have := hx l (by omega)
        exact ⟨(hX l (by omega)).2.2 this.1, this.2⟩
  refine ⟨ok, d', ?_, w1, w2⟩
  unfold outputToFile
  rw [hpath, if_neg hdt, habs]
  dsimp only
  rw [hsx, hv]
  simp only [Bool.not_true, Bool.false_eq_true, if_false]
  rw [if_neg hm, if_pos hmt, e1]
  rfl

/-- C75, failures: whatever GDAL does, writing a whole raster to GeoTIFF files without change of type ends normally, leaves the raster as it is,
touches no other file, and returns true exactly if GDAL wrote each file. -/
theorem C75_whole_tif_answer {env : Env} {fmt : Fmt} {d : Disk} {r : Raster} (hb : Built r) (hv : r.validData = true) (hn2 : r.is2d = true → 0 < r.nCells)
    (hp : 0 < r.hdr.rows ∧ 0 < r.hdr.cols) (subs : IMap Subset) {p : Path} {dt core suf : Str} (hn : NameIn d.fs p dt core suf) (hsuf : IsTifSuffix suf)
    (hty : SameType fmt) (hnd : d.fs.kindOf (p ++ [core ++ '.' :: suf]) ≠ some .dir)
    (hw : ∀ l : Nat, (l : Int) < r.nLyrs → d.fs.kindOf (p ++ [wholeCore core r.is2d 1 l ++ '.' :: suf]) ≠ some .dir) :
    ∃ ok d', outputToFile env fmt d ⟨r, subs⟩ (dt ++ core ++ '.' :: suf) true = .ok (⟨r, subs⟩, ok, d') ∧
      OnlyAt d d' (fun q => ∃ l : Nat, (l : Int) < r.nLyrs ∧ q = p ++ [wholeCore core r.is2d 1 l ++ '.' :: suf]) ∧
      (ok = true ↔ ∀ l : Nat, (l : Int) < r.nLyrs → Accepts env d.fs suf (p ++ [wholeCore core r.is2d 1 l ++ '.' :: suf])) := by
  obtain ⟨ok, d', e, w1, w2⟩ := tif_answer (env := env) (fmt := fmt) hb hv hn2 hp subs hn hsuf hnd hw (fun _ => True) (by
    intro l cells hl hlen _ _
    have : ∃ f, Gtiff.writeGeotiff fmt.gdal64 true fmt.rnd fmt.src fmt.opt r.hdr (some cells) = .ok (some f) := by
      obtain ⟨f, e, -⟩ := Gtiff.C24_same_type (g := fmt.gdal64) (io := true) (rnd := fmt.rnd) (hdr := r.hdr) hlen hty.1 rfl hp.1 hp.2 hty.2
      exact ⟨f, e⟩
    obtain ⟨f, e⟩ := this
    exact ⟨some f, e, by simp⟩)
  refine ⟨ok, d', e, w1, ?_⟩
  rw [w2]
  constructor
  · intro hx l hl
    exact ⟨fun ha => (asc_not_tif ha hsuf).elim, fun _ => (hx l hl).2⟩
  · intro hx l hl
    exact ⟨trivial, (hx l hl).2 hsuf⟩

/-- C75, conversions: writing a raster of an integer cell type to GeoTIFF files of another integer type. The result is true exactly if GDAL wrote each
file and no cell was refused: each cell that is not NoData (or whose NoData value fits the type) lies in the range of the type, and no unsigned 32 or
64 bit cell is written to a signed type. Nothing but the files is touched. -/
theorem C75_whole_convert_answer {env : Env} {fmt : Fmt} {d : Disk} {r : Raster} (hb : Built r) (hv : r.validData = true) (hn2 : r.is2d = true → 0 < r.nCells)
    (hp : 0 < r.hdr.rows ∧ 0 < r.hdr.cols) (subs : IMap Subset) {p : Path} {dt core suf : Str} (hn : NameIn d.fs p dt core suf) (hsuf : IsTifSuffix suf)
    (hnd : d.fs.kindOf (p ++ [core ++ '.' :: suf]) ≠ some .dir)
    (hw : ∀ l : Nat, (l : Int) < r.nLyrs → d.fs.kindOf (p ++ [wholeCore core r.is2d 1 l ++ '.' :: suf]) ≠ some .dir)
    (h64 : fmt.gdal64 = true) (hsrc : IsIntType fmt.src) (hopt : IsIntType fmt.opt) (hne : fmt.opt ≠ fmt.src ∨ fmt.opt = .int8) (hu : fmt.opt ≠ .uint64)
    (hnd64 : fmt.opt = .int64 → r.noData ≤ typeMax .int64 ∨ 2 ^ 63 < r.noData)
    (hcells : ∀ row col lyr v, 0 ≤ row → row < r.hdr.rows → 0 ≤ col → col < r.hdr.cols → 1 ≤ lyr → lyr ≤ r.nLyrs →
      r.getValue row col lyr = .ok v → SourceCell fmt.src v) :
    ∃ ok d', outputToFile env fmt d ⟨r, subs⟩ (dt ++ core ++ '.' :: suf) true = .ok (⟨r, subs⟩, ok, d') ∧
      OnlyAt d d' (fun q => ∃ l : Nat, (l : Int) < r.nLyrs ∧ q = p ++ [wholeCore core r.is2d 1 l ++ '.' :: suf]) ∧
      (ok = true ↔ ∀ l : Nat, (l : Int) < r.nLyrs → (∀ row col v, 0 ≤ row → row < r.hdr.rows → 0 ≤ col → col < r.hdr.cols →
          r.getValue row col ((l : Int) + 1) = .ok v →
          (IsNoData r.noData v ∧ ¬ InRange fmt.opt r.noData) ∨ (InRange fmt.opt v ∧ ¬ UnsignedToSigned fmt.src fmt.opt)) ∧
        env.gdal (p ++ [wholeCore core r.is2d 1 l ++ '.' :: suf]) = true) := by
  have hnd2 : r.hdr.noData = r.noData := hb.hdrOk.nd
  refine tif_answer (env := env) (fmt := fmt) hb hv hn2 hp subs hn hsuf hnd hw _ ?_
  intro l cells hl hlen hc1 hc2
  obtain ⟨res, e, hres⟩ := Gtiff.C24_refused_int (io := true) (rnd := fmt.rnd) (src := fmt.src) (out := fmt.opt) (hdr := r.hdr) (cells := cells) hlen hp.1 hp.2 rfl hsrc
    (by
      intro v hv
      obtain ⟨row, col, a1, a2, a3, a4, a5⟩ := hc1 v hv
      exact hcells row col _ v a1 a2 a3 a4 (by omega) (by omega) a5) hopt hne hu (by rw [hnd2]; exact hnd64)
  rw [h64]
  refine ⟨res, e, ?_⟩
  rw [ne_eq, hres, hnd2]
  constructor
  · intro hx row col v a1 a2 a3 a4 a5
    by_contra hcon
    apply hx
    refine ⟨v, hc2 row col v a1 a2 a3 a4 a5, fun h => hcon (.inl h), ?_⟩
    by_contra h2
    push Not at h2
    exact hcon (.inr h2)
  · rintro hx ⟨v, hv, h1, h2⟩
    obtain ⟨row, col, a1, a2, a3, a4, a5⟩ := hc1 v hv
    rcases hx row col v a1 a2 a3 a4 a5 with h3 | h3
    · exact h1 h3
    · rcases h2 with h2 | h2
      · exact h2 h3.1
      · exact h3.2 h2

/-- C75, failures: whatever the operating system does, writing the combined reclassification of the subsets ends normally, touches no other file, and
returns true exactly if each of the `m` files could be opened (ASCII) or was written by GDAL (GeoTIFF). -/
theorem C75_reclass_answer {env : Env} {fmt : Fmt} {d : Disk} {r : Raster} (hb : Built r) {groups : List (Int × Int)} {rs' : RasterS} {b : Bool}
    (e : buildSubSet ⟨r, []⟩ groups = .ok (rs', b)) (hne : rs'.subs ≠ []) {recls : List (Int × List ℚ)} {m : Int} (ht : TableOf recls m)
    {p : Path} {dt core suf : Str} (hn : NameIn d.fs p dt core suf) (hsuf : IsAscSuffix suf ∨ IsTifSuffix suf)
    (hty : IsTifSuffix suf → SameType fmt) (hnd : d.fs.kindOf (p ++ [core ++ '.' :: suf]) ≠ some .dir)
    (hnd0 : d.fs.kindOf (p ++ [subsetCore 0 core ++ '.' :: suf]) ≠ some .dir)
    (hw : ∀ l : Nat, (l : Int) < m → d.fs.kindOf (p ++ [layerCore (subsetCore 0 core) m l ++ '.' :: suf]) ≠ some .dir)
    (hh : CarriesHeader suf r.hdr) {dv : ℚ} (hv : ∀ k l, CarriesValue fmt suf (tableValue recls k l (fillValue r dv)))
    (hnv : CarriesValue fmt suf r.noData) :
    ∃ ok d', outputSubsetToFile env fmt d rs' false true (dt ++ core ++ '.' :: suf) recls dv = .ok (ok, d') ∧
      OnlyAt d d' (fun q => ∃ l : Nat, (l : Int) < m ∧ q = p ++ [layerCore (subsetCore 0 core) m l ++ '.' :: suf]) ∧
      (ok = true ↔ ∀ l : Nat, (l : Int) < m → Accepts env d.fs suf (p ++ [layerCore (subsetCore 0 core) m l ++ '.' :: suf])) := by
  obtain ⟨n0, hhdr⟩ := build_hdr e
  have hm := ht.2.1
  obtain ⟨hvalid, F, f1, f2, hmem, -⟩ := reclass_array (fmt := fmt) hb e hne ht hh hv hnv
  obtain ⟨c1, c2, c3⟩ := hh
  have hnd2 : r.hdr.noData = r.noData := hb.hdrOk.nd
  have hNp : 0 < r.hdr.rows * r.hdr.cols := mul_pos c1 c2
  have hrw : rs'.ras.hdr.rows = r.hdr.rows := by rw [hhdr]
  have hcl : rs'.ras.hdr.cols = r.hdr.cols := by rw [hhdr]
  let H : Header := { rs'.ras.hdr with layers := m, cellsnum := r.hdr.rows * r.hdr.cols }
  have hlay : ∀ l : Nat, ((layerOf F (r.hdr.rows * r.hdr.cols) m l).length : Int) = H.rows * H.cols := by
    intro l
    unfold layerOf
    rw [List.length_map, List.length_range, Int.toNat_of_nonneg hNp.le]
    show _ = rs'.ras.hdr.rows * rs'.ras.hdr.cols
    rw [hrw, hcl]
  have hH : CarriesHeader suf H := by
    show CarriesHeader suf { rs'.ras.hdr with layers := m, cellsnum := r.hdr.rows * r.hdr.cols }
    rw [hhdr]
    exact ⟨c1, c2, c3⟩
  have hHn : CarriesValue fmt suf H.noData := by
    show CarriesValue fmt suf rs'.ras.hdr.noData
    rw [hhdr]
    show CarriesValue fmt suf r.hdr.noData
    rw [hnd2]; exact hnv
  have hcont : ∀ l : Nat, ∃ c, (l : Int) < m → content fmt suf H (some (layerOf F (r.hdr.rows * r.hdr.cols) m l)) = .ok (some c) := by
    intro l
    by_cases hl : (l : Int) < m
    · obtain ⟨c, hc, -⟩ := reads_content (fmt := fmt) hn hsuf (hlay l) hH (fun v hv' => hmem v (layerOf_mem hm f2 hl hv')) hHn hty
      exact ⟨c, fun _ => hc⟩
    · exact ⟨.asc [], fun h => absurd h hl⟩
  choose cs hcs using hcont
  obtain ⟨ok, d', o1, o2, o3⟩ := layers_result (env := env) (nameIn_core hn (subsetCore_slash hn.core 0)) hsuf hnd0 hNp hm f2 (fun l => some (cs l))
    (fun l hl => ⟨hw l hl, hcs l hl⟩)
  refine ⟨ok, d', ?_, o2, ?_⟩
  · unfold outputSubsetToFile
    rw [hvalid]
    simp only [Bool.not_true, Bool.false_eq_true, if_false, if_true]
    rw [if_neg hne, f1, Out.ok_bind]
    dsimp only
    rw [if_neg (by omega), Int.mul_tdiv_cancel _ (by omega),
      (C53_rename_int d.fs hn.wf p dt core suf hn.dir hn.core hn.suf.1 hn.suf.2.1 hn.suf.2.2 hnd _ '_').2]
    exact o1
  · rw [o3]
    exact ⟨fun hx l hl => (hx l hl).2, fun hx l hl => ⟨by simp, hx l hl⟩⟩

/-- C75: a raster without subsets (none built, or no valid cell) writes no subset file and returns false, in both modes. -/
theorem C75_none {env : Env} {fmt : Fmt} {d : Disk} {r : Raster} {oo comb : Bool} {name : Str} {recls : List (Int × List ℚ)} {dv : ℚ} :
    outputSubsetToFile env fmt d ⟨r, []⟩ oo comb name recls dv = .ok (false, d) := by
  unfold outputSubsetToFile
  by_cases h : r.validData = true
  · simp [h]
  · simp [h]

/-! ## Examples -/

/-- A file system that refuses to open `/w/a.asc` and on which GDAL cannot write `/w/a.tif`. -/
def roEnv : Env where
  ro := fun q => decide (q = [['w'], "a.asc".toList])
  cut := fun _ _ => none
  gdal := fun q => decide (q ≠ [['w'], "a.tif".toList])
  junk := fun _ => none

/-- The example mask cannot be written to the ASCII file: false is returned, and nothing else has changed. -/
example : ∃ d', outputToFile roEnv exFmt exNewDisk ⟨exMask, []⟩ "/w/a.asc".toList true = .ok (⟨exMask, []⟩, false, d') ∧ d'.data [['w'], "b".toList] = none := by
  obtain ⟨ok, d', o, w1, w2⟩ := C75_whole_asc_answer (env := roEnv) (fmt := exFmt) (d := exNewDisk) exMask_built (by decide +kernel) (by decide +kernel)
    ⟨by decide +kernel, by decide +kernel⟩ [] (exName "a".toList "asc".toList (by decide) (by decide)) exAsc (by rw [exKind]; simp) (fun l _ => by rw [exKind]; simp)
  have hok : ok = false := by
    rcases Bool.eq_false_or_eq_true ok with h | h
    · have := ((w2.1 h 0 (by decide +kernel)).1 exAsc).1
      exact absurd this (by decide +kernel)
    · exact h
  subst hok
  refine ⟨d', o, ?_⟩
  have := (w1.same [['w'], "b".toList] (by
    rintro ⟨l, hl, hq⟩
    have h0 : exMask.nLyrs = 1 := by decide +kernel
    have : l = 0 := by omega
    subst this
    exact absurd hq (by decide +kernel))).2
  rw [this]
  rfl

/-- An integer cell type written to bytes: the example mask holds 1, 2, 3 and −9999 only, −9999 is NoData and replaced, so the result is true if GDAL writes the file. -/
def exFmt8 : Fmt := ⟨fun q => intToDec q.num, true, id, .int32, .uint8⟩

theorem exMask_small {row col lyr : Int} {v : ℚ} (h1 : 0 ≤ row) (h2 : row < exMask.hdr.rows) (h3 : 0 ≤ col) (h4 : col < exMask.hdr.cols) (h5 : 1 ≤ lyr)
    (h6 : lyr ≤ exMask.nLyrs) (h : exMask.getValue row col lyr = .ok v) : v = 1 ∨ v = 2 ∨ v = 3 ∨ v = -9999 := by
  have e1 : exMask.hdr.rows = 2 := by decide +kernel
  have e2 : exMask.hdr.cols = 3 := by decide +kernel
  have e3 : exMask.nLyrs = 1 := by decide +kernel
  have hall : ∀ i ∈ [(0 : Int), 1], ∀ j ∈ [(0 : Int), 1, 2], ∃ n ∈ [(1 : ℚ), 2, 3, -9999], exMask.getValue i j 1 = .ok n := by decide +kernel
  have : lyr = 1 := by omega
  subst this
  have a1 : row = 0 ∨ row = 1 := by omega
  have a2 : col = 0 ∨ col = 1 ∨ col = 2 := by omega
  obtain ⟨n, hm, hn⟩ := hall row (by rcases a1 with rfl | rfl <;> simp) col (by rcases a2 with rfl | rfl | rfl <;> simp)
  rw [hn] at h
  injection h with h
  subst h
  simpa using hm

example : ∃ ok d', outputToFile roEnv exFmt8 exNewDisk ⟨exMask, []⟩ "/w/b.tif".toList true = .ok (⟨exMask, []⟩, ok, d') ∧ ok = true := by
  obtain ⟨ok, d', o, -, w2⟩ := C75_whole_convert_answer (env := roEnv) (fmt := exFmt8) (d := exNewDisk) exMask_built (by decide +kernel) (by decide +kernel)
    ⟨by decide +kernel, by decide +kernel⟩ [] (exName "b".toList "tif".toList (by decide) (by decide)) exTif (by rw [exKind]; simp) (fun l _ => by rw [exKind]; simp)
    rfl (by unfold IsIntType; decide) (by unfold IsIntType; decide) (.inl (by decide)) (by decide) (fun h => by cases h)
    (fun row col lyr v h1 h2 h3 h4 h5 h6 h7 => by
      rcases exMask_small h1 h2 h3 h4 h5 h6 h7 with rfl | rfl | rfl | rfl
      · exact ⟨⟨1, by norm_num, by decide, by decide⟩, by unfold exFmt8; simp⟩
      · exact ⟨⟨2, by norm_num, by decide, by decide⟩, by unfold exFmt8; simp⟩
      · exact ⟨⟨3, by norm_num, by decide, by decide⟩, by unfold exFmt8; simp⟩
      · exact ⟨⟨-9999, by norm_num, by decide, by decide⟩, by unfold exFmt8; simp⟩)
  refine ⟨ok, d', o, w2.2 (fun l hl => ⟨?_, ?_⟩)⟩
  · intro row col v h1 h2 h3 h4 h5
    rcases exMask_small h1 h2 h3 h4 (by omega) (by omega) h5 with rfl | rfl | rfl | rfl
    · exact .inr ⟨by unfold InRange exFmt8 typeMin typeMax; norm_num, by unfold UnsignedToSigned; decide⟩
    · exact .inr ⟨by unfold InRange exFmt8 typeMin typeMax; norm_num, by unfold UnsignedToSigned; decide⟩
    · exact .inr ⟨by unfold InRange exFmt8 typeMin typeMax; norm_num, by unfold UnsignedToSigned; decide⟩
    · exact .inl (by
      have : exMask.noData = -9999 := by decide +kernel
      rw [this]
      exact ⟨by unfold IsNoData; norm_num, by unfold InRange exFmt8 typeMin typeMax; norm_num⟩)
  · have h0 : exMask.nLyrs = 1 := by decide +kernel
    have : l = 0 := by omega
    subst this
    decide +kernel

end Disk
end CCGL
