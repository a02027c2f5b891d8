import Verif.Spec.FileOut
import Verif.Props.FsNames
import Verif.Props.SubsetData
import Verif.Props.Recls
import Verif.Props.AscWrite
import Verif.Props.Geotiff
import Verif.Props.GfsRaster
import Verif.Lemmas.Output
/-!
# Lemmas: writing one raster file
-/
namespace CCGL
namespace Disk
open Fs Fs.Spec Disk.Spec

theorem upd_self {β : Type} (f : Path → β) (p : Path) (x : β) : upd f p x p = x := by simp [upd]
theorem upd_other {β : Type} (f : Path → β) {p q : Path} (x : β) (h : q ≠ p) : upd f p x q = f q := by simp [upd, h]
theorem upd_upd {β : Type} (f : Path → β) (p : Path) (x y : β) : upd (upd f p x) p y = upd f p y := by
  funext q; unfold upd; split <;> rfl

theorem splitSlash_full {p : Path} {d n : Str} (hd : DirText p d) (hn : '/' ∉ n) : splitSlash '/' (d ++ n) = [] :: (p ++ [n]) := by
  rw [hd.2, List.append_assoc, List.singleton_append, splitSlash_path p (good_noslash hd.1), splitSlash_word _ _ hn]

theorem full_cons {p : Path} {d : Str} (hd : DirText p d) (n : Str) : ∃ s, d ++ n = '/' :: s := by
  rw [hd.2]
  cases p with
  | nil => exact ⟨_, rfl⟩
  | cons c p => exact ⟨_, rfl⟩

theorem walk_dir {fs : FS} (h : WF fs) {p : Path} (hp : ∀ c ∈ p, GoodName c) (hk : fs.kindOf p = some .dir) :
    fs.walk [] ([] :: p) = some p := by
  rw [walk_empty _ _ _ (kindOf_nil fs), walk_good h p hp, List.nil_append, if_pos (by rw [hk]; rfl)]

theorem target_full {fs : FS} (h : WF fs) {p : Path} {d n : Str} (hd : DirText p d) (hn : GoodName n) (hk : fs.kindOf p = some .dir)
    (hnd : fs.kindOf (p ++ [n]) ≠ some .dir) : target fs (d ++ n) = some (p ++ [n]) := by
  obtain ⟨s, es⟩ := full_cons hd n
  have hs := splitSlash_full hd hn.2.1
  rw [es] at hs ⊢
  unfold target
  dsimp only
  rw [hs]
  have e1 : ([] :: (p ++ [n])).getLast? = some n := by
    rw [← List.cons_append, List.getLast?_concat]
  have e2 : ([] :: (p ++ [n])).dropLast = [] :: p := by
    rw [← List.cons_append, List.dropLast_concat]
  rw [e1, e2]
  dsimp only
  rw [if_neg (by rintro (h1 | h1 | h1); exacts [hn.1 h1, hn.2.2.1 h1, hn.2.2.2 h1]), if_pos rfl, walk_dir h hd.1 hk]
  dsimp only
  rw [if_pos ⟨hk, hnd⟩]

/-- A directory text resolves to the directory. -/
theorem resolve_dir {fs : FS} (h : WF fs) {p : Path} {d : Str} (hd : DirText p d) (hk : fs.kindOf p = some .dir) :
    fs.resolve d = some p := by
  obtain ⟨s, es⟩ := full_cons hd []
  have hs := splitSlash_full hd (n := []) (by simp)
  rw [List.append_nil] at es hs
  rw [es] at hs ⊢
  rw [FS.resolve]
  simp only [if_true]
  rw [hs, walk_empty _ _ _ (kindOf_nil fs)]
  have : ∀ (cs cur : Path), (∀ c ∈ cs, GoodName c) → fs.kindOf (cur ++ cs) = some .dir → fs.walk cur (cs ++ [[]]) = some (cur ++ cs) := by
    intro cs
    induction cs with
    | nil =>
      intro cur _ hkc
      rw [List.append_nil] at hkc
      rw [List.nil_append, walk_empty _ _ _ hkc, FS.walk, List.append_nil, if_pos (by rw [hkc]; rfl)]
    | cons c cs ih =>
      intro cur hg hkc
      have hgc := hg c (by simp)
      have hcur : fs.kindOf cur = some .dir := wf_prefix h (c :: cs) cur (by simp) (by rw [hkc]; rfl)
      rw [List.cons_append, FS.walk, if_neg (by simp [hcur]), if_neg (by rintro (h1 | h1); exact hgc.1 h1; exact hgc.2.2.1 h1),
        if_neg hgc.2.2.2]
      have := ih (cur ++ [c]) (fun x hx => hg x (by simp [hx])) (by simpa using hkc)
      simpa using this
  exact this p [] hd.1 hk

theorem pathExists_dir {fs : FS} (h : WF fs) {p : Path} {d : Str} (hd : DirText p d) (hk : fs.kindOf p = some .dir) :
    pathExists fs d = true := by
  unfold pathExists
  rw [resolve_abs h, resolve_dir h hd hk]
  rfl

/-! ### Adding a file -/

theorem kindOf_add {fs : FS} {P : Path} (hP : P ≠ []) (hn : fs.kindOf P = none) (q : Path) :
    (addFile fs P).kindOf q = if q = P then some .file else fs.kindOf q := by
  unfold FS.kindOf addFile at *
  dsimp only at *
  rw [if_neg hP] at hn
  by_cases hq : q = []
  · rw [if_pos hq, if_pos hq, if_neg (by rintro rfl; exact hP hq)]
  rw [if_neg hq, if_neg hq, List.find?_append]
  by_cases hqP : q = P
  · subst hqP
    rw [Option.map_eq_none_iff] at hn
    rw [if_pos rfl, hn]
    simp
  · rw [if_neg hqP]
    cases fs.entries.find? (fun e => decide (e.1 = q)) with
    | some e => rfl
    | none => simp [Ne.symm hqP]

theorem wf_add {fs : FS} (h : WF fs) {p : Path} {n : Str} (hp : ∀ c ∈ p, GoodName c) (hn : GoodName n)
    (hk : fs.kindOf p = some .dir) (hno : fs.kindOf (p ++ [n]) = none) : WF (addFile fs (p ++ [n])) := by
  have hne : p ++ [n] ≠ [] := by simp
  have hm {e} (he : e ∈ (addFile fs (p ++ [n])).entries) : e ∈ fs.entries ∨ e = (p ++ [n], .file) := by
    rcases List.mem_append.1 he with h1 | h1
    · exact .inl h1
    · exact .inr (List.mem_singleton.1 h1)
  refine ⟨?_, ?_, ?_, ?_⟩
  · show ((fs.entries ++ [(p ++ [n], Kind.file)]).map (·.1)).Nodup
    rw [List.map_append, List.nodup_append]
    refine ⟨h.nodup, by simp, ?_⟩
    intro a ha b hb e
    simp only [List.map_cons, List.map_nil, List.mem_singleton] at hb
    obtain ⟨x, hx, hxa⟩ := List.mem_map.1 ha
    have h1 := (kindOf_iff h x.1 (h.nonroot x hx) x.2).2 hx
    rw [hxa, e, hb, hno] at h1
    cases h1
  · intro e he
    rcases hm he with h1 | rfl
    · exact h.nonroot e h1
    · exact hne
  · intro e he
    rcases hm he with h1 | rfl
    · exact h.good e h1
    · intro c hc
      rcases List.mem_append.1 hc with h2 | h2
      · exact hp c h2
      · rw [List.mem_singleton.1 h2]; exact hn
  · intro e he
    rcases hm he with h1 | rfl
    · rw [kindOf_add hne hno, if_neg, h.parent e h1]
      intro e2
      have := h.parent e h1
      rw [e2, hno] at this
      cases this
    · rw [kindOf_add hne hno]
      show (if (p ++ [n]).dropLast = p ++ [n] then _ else fs.kindOf (p ++ [n]).dropLast) = _
      rw [List.dropLast_concat, if_neg (by intro e; have := congrArg List.length e; simp at this), hk]

/-- `d'` is `d` with file `P` created or replaced, holding `c`. -/
structure Written (d d' : Disk) (P : Path) (c : Content) : Prop where
  wf : WF d'.fs
  kind : ∀ q, d'.fs.kindOf q = if q = P then some .file else d.fs.kindOf q
  deny : d'.fs.deny = d.fs.deny
  cwd : d'.fs.cwd = d.fs.cwd
  data : d'.data = upd d.data P (some c)

theorem append_new {env : Env} {d : Disk} (h : WF d.fs) {p : Path} {dt n : Str} (hd : DirText p dt) (hn : GoodName n)
    (hk : d.fs.kindOf p = some .dir) (hno : d.fs.kindOf (p ++ [n]) = none) (hdeny : d.fs.deny (p ++ [n]) = false) {i : Nat}
    (hcut : env.cut (p ++ [n]) i = none) (t : Str) :
    ∃ d', appendText env d (dt ++ n) i t = (true, d') ∧ Written d d' (p ++ [n]) (.asc t) := by
  refine ⟨{ fs := addFile d.fs (p ++ [n]), data := upd d.data (p ++ [n]) (some (.asc t)) }, ?_, ?_⟩
  · unfold appendText
    rw [target_full h hd hn hk (by rw [hno]; simp)]
    dsimp only
    rw [hcut, hno, if_neg (by simp), hdeny]
    rfl
  · exact ⟨wf_add h hd.1 hn hk hno, kindOf_add (by simp) hno, rfl, rfl, rfl⟩

theorem append_old {env : Env} {d : Disk} (h : WF d.fs) {p : Path} {dt n : Str} (hd : DirText p dt) (hn : GoodName n)
    (hk : d.fs.kindOf p = some .dir) (hf : d.fs.kindOf (p ++ [n]) = some .file) (hro : env.ro (p ++ [n]) = false) {i : Nat}
    (hcut : env.cut (p ++ [n]) i = none) {t0 : Str} (hdat : d.data (p ++ [n]) = some (.asc t0)) (t : Str) :
    ∃ d', appendText env d (dt ++ n) i t = (true, d') ∧ Written d d' (p ++ [n]) (.asc (t0 ++ t)) := by
  refine ⟨{ d with data := upd d.data (p ++ [n]) (some (.asc (t0 ++ t))) }, ?_, ?_⟩
  · unfold appendText
    rw [target_full h hd hn hk (by rw [hf]; simp)]
    dsimp only
    rw [hcut, hf, if_pos (by rfl), hro, hdat]
    rfl
  · refine ⟨h, ?_, rfl, rfl, rfl⟩
    intro q
    by_cases hq : q = p ++ [n]
    · rw [if_pos hq, hq]; exact hf
    · rw [if_neg hq]

theorem Written.trans {d d1 d2 : Disk} {P : Path} {c1 c2 : Content} (h1 : Written d d1 P c1) (h2 : Written d1 d2 P c2) : Written d d2 P c2 := by
  refine ⟨h2.wf, ?_, h2.deny.trans h1.deny, h2.cwd.trans h1.cwd, ?_⟩
  · intro q
    rw [h2.kind q, h1.kind q]
    split <;> rfl
  · rw [h2.data, h1.data, upd_upd]

theorem headers_ok {env : Env} {d : Disk} (h : WF d.fs) {p : Path} {dt n : Str} (hd : DirText p dt) (hn : GoodName n)
    (hk : d.fs.kindOf p = some .dir) (hw : Writable env d.fs (p ++ [n])) (hdr : Header) :
    ∃ d', writeAscHeaders env d (dt ++ n) hdr = (true, d') ∧ Written d d' (p ++ [n]) (.asc (ascHeaderText hdr)) := by
  unfold writeAscHeaders
  dsimp only
  have hne : p ++ [n] ≠ [] := by simp
  have hpn : p ≠ p ++ [n] := by intro e; have := congrArg List.length e; simp at this
  by_cases hex : (d.fs.kindOf (p ++ [n])).isSome
  · have hres : d.fs.resolve (dt ++ n) = some (p ++ [n]) := by rw [resolve_full h p dt n hd hn, if_pos hex]
    have hdel : (deleteExistedFile d.fs (dt ++ n)).2 = d.fs.erase (p ++ [n]) := by
      unfold deleteExistedFile
      dsimp only
      rw [abs_full h p dt n hd hn]
      have : fileExists d.fs (dt ++ n) = true := by unfold fileExists; rw [hres]; rfl
      rw [if_pos this, remove_some h _ _ hres hne hw.allow (file_leaf h _ hw.nodir)]
    rw [hdel]
    have hwf : WF (d.fs.erase (p ++ [n])) := wf_erase h _ hne (file_leaf h _ hw.nodir)
    rw [abs_full hwf p dt n hd hn]
    obtain ⟨d', e, hW⟩ := append_new (d := { d with fs := d.fs.erase (p ++ [n]) }) (env := env) hwf hd hn
      (by show (d.fs.erase (p ++ [n])).kindOf p = _; rw [kindOf_erase _ _ _ hne, if_neg hpn, hk])
      (by show (d.fs.erase (p ++ [n])).kindOf (p ++ [n]) = _; rw [kindOf_erase _ _ _ hne, if_pos rfl]) hw.allow (hw.cut 0) (ascHeaderText hdr)
    refine ⟨d', e, hW.wf, ?_, hW.deny, hW.cwd, hW.data⟩
    intro q
    rw [hW.kind q]
    by_cases hq : q = p ++ [n]
    · rw [if_pos hq, if_pos hq]
    · rw [if_neg hq, if_neg hq]
      show (d.fs.erase (p ++ [n])).kindOf q = _
      rw [kindOf_erase _ _ _ hne, if_neg hq]
  · have hno : d.fs.kindOf (p ++ [n]) = none := by simpa using hex
    have hres : d.fs.resolve (dt ++ n) = none := by rw [resolve_full h p dt n hd hn, if_neg hex]
    have hdel : (deleteExistedFile d.fs (dt ++ n)).2 = d.fs := by
      unfold deleteExistedFile
      dsimp only
      rw [abs_full h p dt n hd hn]
      have : fileExists d.fs (dt ++ n) = false := by unfold fileExists; rw [hres]; rfl
      rw [this]; rfl
    rw [hdel, abs_full h p dt n hd hn]
    exact append_new h hd hn hk hno hw.allow (hw.cut 0) _

theorem needDir_same {d : Disk} (h : WF d.fs) {p : Path} {dt n : Str} (hd : DirText p dt) (hn : GoodName n)
    (hk : d.fs.kindOf p = some .dir) (hnd : d.fs.kindOf (p ++ [n]) ≠ some .dir) : needDir d (dt ++ n) = d := by
  unfold needDir
  dsimp only
  rw [getPath_full h p dt n hd hn hnd, pathExists_dir h hd hk]
  rfl

theorem writeAsc_body {pr : ℚ → Str} {h : Header} {vals : Ptr ℚ} {t : Str} (e : writeAsc pr h vals = .ok t) :
    ∃ b, ascBody pr h vals = .ok b ∧ t = ascHeaderText h ++ b := by
  unfold writeAsc at e
  obtain ⟨rows, e1, e⟩ := Out.bind_ok e
  simp only [Out.pure_eq, Out.ok.injEq] at e
  refine ⟨rows.flatten ++ nl, ?_, by rw [← e, List.append_assoc]⟩
  unfold ascBody
  rw [e1]
  rfl

theorem asc_ok {env : Env} {fmt : Fmt} {d : Disk} (h : WF d.fs) {p : Path} {dt n : Str} (hd : DirText p dt) (hn : GoodName n)
    (hk : d.fs.kindOf p = some .dir) (hw : Writable env d.fs (p ++ [n])) {hdr : Header} {vals : Ptr ℚ} {t : Str}
    (e : writeAsc fmt.pr hdr vals = .ok t) :
    ∃ d', writeSingleAsc env fmt d (dt ++ n) hdr vals = .ok (true, d') ∧ Written d d' (p ++ [n]) (.asc t) := by
  obtain ⟨b, eb, rfl⟩ := writeAsc_body e
  obtain ⟨d1, e1, hW⟩ := headers_ok h hd hn hk hw hdr
  have hpn : p ≠ p ++ [n] := by intro e; have := congrArg List.length e; simp at this
  obtain ⟨d2, e2, hW2⟩ := append_old (env := env) hW.wf hd hn (by rw [hW.kind, if_neg hpn, hk]) (by rw [hW.kind, if_pos rfl]) hw.rw
    (hw.cut 1) (t0 := ascHeaderText hdr) (by rw [hW.data, upd_self]) b
  refine ⟨d2, ?_, hW.trans hW2⟩
  unfold writeSingleAsc
  dsimp only
  rw [abs_full h p dt n hd hn, needDir_same h hd hn hk hw.nodir, e1]
  simp only [Bool.not_true, Bool.false_eq_true, if_false, eb, Out.ok_bind, Out.pure_eq, e2]

theorem tif_ok {env : Env} {fmt : Fmt} {d : Disk} (h : WF d.fs) {p : Path} {dt n : Str} (hd : DirText p dt) (hn : GoodName n)
    (hk : d.fs.kindOf p = some .dir) (hw : Writable env d.fs (p ++ [n])) {hdr : Header} {vals : Ptr ℚ} {f : Gtiff.GFile}
    (e : Gtiff.writeGeotiff fmt.gdal64 true fmt.rnd fmt.src fmt.opt hdr vals = .ok (some f)) :
    ∃ d', writeSingleGeotiff env fmt d (dt ++ n) hdr vals = .ok (true, d') ∧ Written d d' (p ++ [n]) (.tif f) := by
  refine ⟨{ fs := if (d.fs.kindOf (p ++ [n])).isSome then d.fs else addFile d.fs (p ++ [n]), data := upd d.data (p ++ [n]) (some (.tif f)) },
    ?_, ?_⟩
  · unfold writeSingleGeotiff
    rw [e, Out.ok_bind]
    dsimp only
    rw [needDir_same h hd hn hk hw.nodir, target_full h hd hn hk hw.nodir]
    dsimp only
    rw [hw.gdal]
    rfl
  · by_cases hex : (d.fs.kindOf (p ++ [n])).isSome
    · simp only [hex, if_true]
      refine ⟨h, ?_, rfl, rfl, rfl⟩
      intro q
      by_cases hq : q = p ++ [n]
      · rw [if_pos hq, hq]
        have := hw.nodir
        cases hkk : d.fs.kindOf (p ++ [n]) with
        | none => rw [hkk] at hex; cases hex
        | some k => cases k with
          | dir => exact absurd hkk this
          | file => rfl
      · rw [if_neg hq]
    · have hno : d.fs.kindOf (p ++ [n]) = none := by simpa using hex
      simp only [hno, Option.isSome_none, Bool.false_eq_true, if_false]
      exact ⟨wf_add h hd.1 hn hk hno, kindOf_add (by simp) hno, rfl, rfl, rfl⟩

/-- What is stored for a grid in a file with suffix `suf` (asc or tif). -/
def content (fmt : Fmt) (suf : Str) (hdr : Header) (vals : Ptr ℚ) : Out (Option Content) :=
  if stringMatch (getUpper suf) extAsc then do
    let t ← writeAsc fmt.pr hdr vals
    return some (.asc t)
  else do
    let x ← Gtiff.writeGeotiff fmt.gdal64 true fmt.rnd fmt.src fmt.opt hdr vals
    return x.map .tif

theorem write_one {env : Env} {fmt : Fmt} {d : Disk} (h : WF d.fs) {p : Path} {dt core suf : Str} (hd : DirText p dt) (hc : '/' ∉ core)
    (hs1 : suf ≠ []) (hs2 : '.' ∉ suf) (hs3 : '/' ∉ suf)
    (hsuf : stringMatch (getUpper suf) extAsc = true ∨ stringMatch (getUpper suf) extTif = true)
    (hk : d.fs.kindOf p = some .dir) (hw : Writable env d.fs (p ++ [core ++ '.' :: suf])) {hdr : Header} {vals : Ptr ℚ} {c : Content}
    (e : content fmt suf hdr vals = .ok (some c)) :
    ∃ d', writeRaster env fmt d (dt ++ core ++ '.' :: suf) hdr vals = .ok (true, d') ∧ Written d d' (p ++ [core ++ '.' :: suf]) c := by
  have hn := base_good core suf hc hs1 hs2 hs3
  have hsx := getSuffix_full h p dt core suf hd hc hs1 hs2 hs3
  rw [List.append_assoc] at hsx ⊢
  have hdt : dt ≠ [] := by rw [hd.2]; simp
  unfold writeRaster
  rw [getPath_full h p dt _ hd hn hw.nodir, if_neg hdt, abs_full h p dt _ hd hn]
  dsimp only
  rw [hsx]
  unfold content at e
  by_cases ha : stringMatch (getUpper suf) extAsc = true
  · rw [if_pos ha] at e ⊢
    obtain ⟨t, e1, e⟩ := Out.bind_ok e
    simp only [Out.pure_eq, Out.ok.injEq, Option.some.injEq] at e
    subst e
    exact asc_ok h hd hn hk hw e1
  · rw [if_neg ha] at e ⊢
    obtain ⟨x, e1, e⟩ := Out.bind_ok e
    cases x with
    | none => cases e
    | some f =>
      simp only [Out.pure_eq, Option.map_some, Out.ok.injEq, Option.some.injEq] at e
      subst e
      rw [if_pos (hsuf.resolve_left ha)]
      exact tif_ok h hd hn hk hw e1

/-! ### Reading one file -/

theorem upper_upper (s : Str) : getUpper (getUpper s) = getUpper s := by
  unfold getUpper
  rw [List.map_map]
  apply List.map_congr_left
  intro c _
  have hv : ∀ n : Nat, n < 123 → (Char.ofNat n).toNat = n := by decide
  have hu : ∀ c, toUpperC c = if 97 ≤ c.toNat ∧ c.toNat ≤ 122 then Char.ofNat (c.toNat - 32) else c := fun _ => rfl
  have h1 : toUpperC (toUpperC c) = toUpperC c := by
    by_cases h : 97 ≤ c.toNat ∧ c.toNat ≤ 122
    · have e : toUpperC c = Char.ofNat (c.toNat - 32) := by rw [hu, if_pos h]
      rw [e, hu, hv _ (by omega), if_neg (by omega)]
    · have e : toUpperC c = c := by rw [hu, if_neg h]
      rw [e, e]
  exact h1

theorem match_upper (s t : Str) : stringMatch (getUpper s) t = stringMatch s t := by
  unfold stringMatch
  rw [upper_upper]

/-- The raster made of the numbers read from a file. -/
theorem reads_data {h : Header} {vals : List ℚ} (hr : 0 ≤ h.rows) (hc : 0 ≤ h.cols) (hl : (vals.length : Int) = h.rows * h.cols)
    {d : Disk} {s : Str} (hex : fileExists d.fs s = true) (e0 : decode d s = .ok (some (h, some vals))) :
    ReadsAs d s h (fun row col => vals.getD (row * h.cols + col).toNat 0) := by
  intro calcPos dflt hv
  have e : readFromFile d s calcPos dflt =
      (Raster.ofFile h vals calcPos false dflt).calcNoMask >>= fun y => Out.ok (if 0 ≤ y.2 then some y.1 else none) := by
    unfold readFromFile
    rw [hex, e0]
    rfl
  rw [e, ← Raster.calcNoMask_ncells (Raster.ofFile h vals calcPos false dflt) (h.rows * h.cols) rfl]
  have hF := Raster.ofFile_full h vals calcPos false dflt hr hc hl
  generalize hR : ({ Raster.ofFile h vals calcPos false dflt with nCells := h.rows * h.cols } : Raster) = R at hF
  have h1 : R.hdr = h := by rw [← hR]; rfl
  have h2 : R.noData = h.noData := by rw [← hR]; rfl
  have h3 : R.nLyrs = 1 := by rw [← hR]; rfl
  have h4 : R.calcPos = calcPos := by rw [← hR]; rfl
  have hpd : R.posData = none := by rw [← hR]; rfl
  have hval : ∀ row col, 0 ≤ row → row < h.rows → 0 ≤ col → col < h.cols →
      R.getValue row col 1 = .ok (vals.getD (row * h.cols + col).toNat 0) := by
    intro row col a1 a2 a3 a4
    obtain ⟨hi, ev⟩ := hF.getValue row col 1 (by rw [h1]; exact ⟨a1, a2, a3, a4⟩) (by omega)
    rw [ev]
    simp only [List.getElem_map, h1]
    rw [List.length_map, h1] at hi
    rw [List.getD_eq_getElem _ _ hi]
    rfl
  have hfv : ∀ row col, 0 ≤ row → row < h.rows → 0 ≤ col → col < h.cols →
      (Gfs.FirstValid R row col ↔ floatEqual (vals.getD (row * h.cols + col).toNat 0) h.noData = false) := by
    intro row col a1 a2 a3 a4
    unfold Gfs.FirstValid
    rw [hval row col a1 a2 a3 a4, h2]
    constructor
    · rintro ⟨v, hv, hf⟩; injection hv with hv; rw [hv]; exact hf
    · intro hf; exact ⟨_, rfl, hf⟩
  obtain ⟨r', e2, k1, k2, k3, k4, k5, k6, k7, k8⟩ := Gfs.calc_view hF (by
    intro hcp
    rw [h4] at hcp
    obtain ⟨row, col, a1, a2, a3, a4, a5⟩ := hv hcp
    exact ⟨row, col, a1, by rw [h1]; exact a2, a3, by rw [h1]; exact a4, (hfv row col a1 a2 a3 a4).2 a5⟩)
  refine ⟨r', ?_, by rw [k1, h1], by rw [k2, h1], by rw [k3, h1], by rw [k4, h1], by rw [k5, h1], by rw [k6, h2], by rw [k7, h3], ?_, ?_⟩
  · cases ey : R.calcNoMask with
    | ub => rw [ey] at e2; cases e2
    | exn => rw [ey] at e2; cases e2
    | ok y =>
      rw [ey, Out.ok_bind] at e2
      rw [Out.ok_bind]
      have hy : 0 ≤ y.2 := by
        unfold Raster.calcNoMask at ey
        rw [hpd] at ey
        cases hcp : R.calcPos
        · rw [hcp] at ey
          simp only [Bool.false_eq_true, if_false, Out.ok.injEq] at ey
          rw [← ey]
        · rw [hcp] at ey
          simp only [if_true, Option.isNone_none, Bool.true_or] at ey
          obtain ⟨z, _, ez⟩ := Out.bind_ok ey
          simp only [Out.pure_eq, Out.ok.injEq] at ez
          rw [← ez]; simp
      rw [if_pos hy]
      exact e2
  · intro hcp
    refine ⟨vals, ?_, hl⟩
    unfold Raster.calcNoMask at e2
    rw [h4, hcp, if_neg (by simp)] at e2
    simp only [Out.ok_bind, Out.ok.injEq, Option.some.injEq] at e2
    rw [← e2, ← hR]; rfl
  · intro row col a1 a2 a3 a4
    obtain ⟨p1, p2⟩ := k8 row col 1 a1 (by rw [h1]; exact a2) a3 (by rw [h1]; exact a4) (by omega) (by omega)
    rw [hfv row col a1 a2 a3 a4, h4] at p1
    rw [hfv row col a1 a2 a3 a4, h4] at p2
    rw [hval row col a1 a2 a3 a4] at p1
    rw [h2] at p2
    cases hf : floatEqual (vals.getD (row * h.cols + col).toNat 0) h.noData
    · rw [if_neg (by simp), p1 (.inr hf)]
    · cases hcp : calcPos
      · rw [if_neg (by simp), p1 (.inl hcp)]
      · rw [if_pos ⟨rfl, rfl⟩, p2 hcp (by rw [hf]; simp)]

/-- Reading a file that holds the content made for a grid. -/
theorem reads_content {fmt : Fmt} {d : Disk} {p : Path} {dt core suf : Str} (hn : NameIn d.fs p dt core suf)
    (hsuf : IsAscSuffix suf ∨ IsTifSuffix suf) {h : Header} {vals : List ℚ} (hl : (vals.length : Int) = h.rows * h.cols)
    (hch : CarriesHeader suf h) (hcv : ∀ v ∈ vals, CarriesValue fmt suf v) (hcn : CarriesValue fmt suf h.noData)
    (hty : IsTifSuffix suf → SameType fmt) :
    ∃ c, content fmt suf h (some vals) = .ok (some c) ∧
      (d.fs.kindOf (p ++ [core ++ '.' :: suf]) = some .file → d.data (p ++ [core ++ '.' :: suf]) = some c →
        ReadsAs d (dt ++ core ++ '.' :: suf) h (fun row col => vals.getD (row * h.cols + col).toNat 0)) := by
  have hg := base_good core suf hn.core hn.suf.1 hn.suf.2.1 hn.suf.2.2
  have hsx := getSuffix_full hn.wf p dt core suf hn.dir hn.core hn.suf.1 hn.suf.2.1 hn.suf.2.2
  obtain ⟨hr, hc, hasc⟩ := hch
  have hres : d.fs.kindOf (p ++ [core ++ '.' :: suf]) = some .file → d.fs.resolve (dt ++ (core ++ '.' :: suf)) = some (p ++ [core ++ '.' :: suf]) := by
    intro hf
    rw [resolve_full hn.wf p dt _ hn.dir hg, if_pos (by rw [hf]; rfl)]
  have hex : d.fs.kindOf (p ++ [core ++ '.' :: suf]) = some .file → fileExists d.fs (dt ++ (core ++ '.' :: suf)) = true := by
    intro hf
    unfold fileExists; rw [hres hf]; rfl
  rw [List.append_assoc] at hsx
  by_cases ha : IsAscSuffix suf
  · obtain ⟨b1, b2, b3, b4, s1, s2, s3, s4⟩ := hasc ha
    have hm : stringMatch (getUpper suf) extAsc = true := by
      rw [match_upper]; exact (stringMatch_iff _ _).2 ha
    obtain ⟨t, e1, e2⟩ := C08_roundtrip_general fmt.pr id DVal.toQ h vals ascInit hr hc b1 hl b2 b3 b4 (fun v hv => (hcv v hv).1 ha)
    have hmap : vals.map (fun v => DVal.toQ (.fin (id v))) = vals := by
      conv_rhs => rw [← List.map_id vals]
      rfl
    rw [hmap] at e2
    have hrh : CCGL.Spec.readHeader h gRound = CCGL.Spec.readHeader h id := by
      simp only [CCGL.Spec.readHeader, gRound_exact s1, gRound_exact s2, gRound_exact s3, gRound_exact s4, id]
    rw [hrh] at e2
    refine ⟨.asc t, ?_, ?_⟩
    · unfold content
      rw [if_pos hm, e1]; rfl
    · intro hf hdat
      have hgrid := reads_data (h := { h with layers := 1, cellsnum := h.rows * h.cols }) (vals := vals) (d := d)
        (s := dt ++ (core ++ '.' :: suf)) hr.le hc.le hl (hex hf) (by
          unfold decode
          rw [hsx, hm, abs_full hn.wf p dt _ hn.dir hg, hres hf]
          simp only [if_true, Option.bind_some, hdat]
          rw [e2]
          rfl)
      rw [List.append_assoc]
      exact hgrid
  · have ht := hsuf.resolve_left ha
    have hm : ¬ stringMatch (getUpper suf) extAsc = true := by
      rw [match_upper]; exact fun hh => ha ((stringMatch_iff _ _).1 hh)
    obtain ⟨t1, t2⟩ := hty ht
    obtain ⟨f, e1, f1, f2, f3⟩ := Gtiff.C24_same_type (g := fmt.gdal64) (io := true) (rnd := fmt.rnd) (hdr := h) (cells := vals) (by rw [hl, mul_comm]) t1 rfl hr hc t2
    obtain ⟨g1, g2, g3⟩ := Gtiff.C66_roundtrip e1 (by
      intro h8
      rw [f1] at h8
      rw [f2, f3]
      exact ⟨hcn.2 ht h8, fun w hw => (hcv w hw).2 ht h8⟩)
    refine ⟨.tif f, ?_, ?_⟩
    · unfold content
      rw [if_neg hm, e1]; rfl
    · intro hf hdat
      have hgrid := reads_data (h := { h with layers := 1, cellsnum := h.cols * h.rows }) (vals := vals) (d := d)
        (s := dt ++ (core ++ '.' :: suf)) hr.le hc.le hl (hex hf) (by
          unfold decode
          rw [hsx]
          rw [if_neg hm, hres hf]
          simp only [Option.bind_some, hdat]
          rw [g1, g2, f2, f3])
      rw [List.append_assoc]
      exact hgrid

/-! ### Writing several files -/

/-- `d'` is `d` with the files of the list written. -/
structure Wrote (d d' : Disk) (fs : List (Path × Content)) : Prop where
  wf : WF d'.fs
  kind : ∀ q, d'.fs.kindOf q = if q ∈ fs.map (·.1) then some .file else d.fs.kindOf q
  deny : d'.fs.deny = d.fs.deny
  cwd : d'.fs.cwd = d.fs.cwd
  new : ∀ x ∈ fs, d'.data x.1 = some x.2
  old : ∀ q, q ∉ fs.map (·.1) → d'.data q = d.data q

theorem Wrote.nil {d : Disk} (h : WF d.fs) : Wrote d d [] := ⟨h, fun q => by simp, rfl, rfl, by simp, fun _ _ => rfl⟩

theorem Wrote.rewritten {d d' : Disk} {fs : List (Path × Content)} (h : Wrote d d' fs) {new : Path → Prop} (hn : ∀ q, q ∈ fs.map (·.1) ↔ new q) :
    Rewritten d d' new :=
  ⟨h.wf, h.deny, h.cwd, fun q hq => by rw [h.kind q, if_pos ((hn q).2 hq)],
    fun q hq => ⟨by rw [h.kind q, if_neg (fun hm => hq ((hn q).1 hm))], h.old q (fun hm => hq ((hn q).1 hm))⟩⟩

theorem Written.wrote {d d' : Disk} {P : Path} {c : Content} (h : Written d d' P c) : Wrote d d' [(P, c)] := by
  refine ⟨h.wf, fun q => by rw [h.kind q]; simp, h.deny, h.cwd, ?_, ?_⟩
  · intro x hx
    rw [List.mem_singleton.1 hx, h.data, upd_self]
  · intro q hq
    rw [h.data, upd_other _ _ (by simpa using hq)]

theorem Wrote.append {d d1 d2 : Disk} {l1 l2 : List (Path × Content)} (h1 : Wrote d d1 l1) (h2 : Wrote d1 d2 l2)
    (hdis : ∀ x ∈ l1, x.1 ∉ l2.map (·.1)) : Wrote d d2 (l1 ++ l2) := by
  refine ⟨h2.wf, ?_, h2.deny.trans h1.deny, h2.cwd.trans h1.cwd, ?_, ?_⟩
  · intro q
    rw [h2.kind q, h1.kind q, List.map_append]
    by_cases a : q ∈ l2.map (·.1) <;> by_cases b : q ∈ l1.map (·.1) <;> simp only [List.mem_append, a, b, or_true, true_or, or_self, if_true, if_false]
  · intro x hx
    rcases List.mem_append.1 hx with hx | hx
    · rw [h2.old _ (hdis x hx), h1.new x hx]
    · exact h2.new x hx
  · intro q hq
    rw [List.map_append, List.mem_append, not_or] at hq
    rw [h2.old q hq.2, h1.old q hq.1]

theorem Wrote.dir {d d' : Disk} {l} (h : Wrote d d' l) (hw : ∀ x ∈ l, d.fs.kindOf x.1 ≠ some .dir) (q : Path) :
    d'.fs.kindOf q = some .dir ↔ d.fs.kindOf q = some .dir := by
  rw [h.kind q]
  by_cases a : q ∈ l.map (·.1)
  · rw [if_pos a]
    obtain ⟨x, hx, rfl⟩ := List.mem_map.1 a
    simp [hw x hx]
  · rw [if_neg a]

theorem Wrote.writable {env : Env} {d d' : Disk} {l} (h : Wrote d d' l) {P : Path} (hw : Writable env d.fs P) : Writable env d'.fs P := by
  refine ⟨?_, by rw [h.deny]; exact hw.allow, hw.rw, hw.cut, hw.gdal⟩
  rw [h.kind P]
  split
  · simp
  · exact hw.nodir

theorem Wrote.nameIn {d d' : Disk} {l} (h : Wrote d d' l) (hw : ∀ x ∈ l, d.fs.kindOf x.1 ≠ some .dir) {p dt core suf}
    (hn : NameIn d.fs p dt core suf) : NameIn d'.fs p dt core suf :=
  ⟨h.wf, hn.dir, hn.core, hn.suf, (h.dir hw p).2 hn.exist⟩

theorem nameIn_core {fs : FS} {p dt core suf} (hn : NameIn fs p dt core suf) {core' : Str} (h : '/' ∉ core') : NameIn fs p dt core' suf :=
  ⟨hn.wf, hn.dir, h, hn.suf, hn.exist⟩

theorem suffix_cases {suf : Str} (h : IsAscSuffix suf ∨ IsTifSuffix suf) :
    stringMatch (getUpper suf) extAsc = true ∨ stringMatch (getUpper suf) extTif = true := by
  rw [match_upper, match_upper]
  exact h.imp (stringMatch_iff _ _).2 (stringMatch_iff _ _).2

theorem dec_chars (n : Int) : ∀ c ∈ intToDec n, c = '-' ∨ (48 ≤ c.toNat ∧ c.toNat ≤ 57) := by
  intro c hc
  cases n with
  | ofNat n => exact .inr (natToDec_digits n c hc)
  | negSucc n =>
    rcases List.mem_cons.1 hc with rfl | hc
    · exact .inl rfl
    · exact .inr (natToDec_digits _ c hc)

theorem dec_no {n : Int} {c : Char} (h1 : c ≠ '-') (h2 : ¬ (48 ≤ c.toNat ∧ c.toNat ≤ 57)) : c ∉ intToDec n :=
  fun h => (dec_chars n c h).elim h1 h2

theorem layerCore_slash {core : Str} (h : '/' ∉ core) (lyrs : Int) (l : Nat) : '/' ∉ layerCore core lyrs l := by
  unfold layerCore
  split
  · exact h
  · simp only [List.mem_append, List.mem_cons, not_or]
    exact ⟨h, by decide, dec_no (by decide) (by decide)⟩

theorem subsetCore_slash {core : Str} (h : '/' ∉ core) (k : Int) : '/' ∉ subsetCore k core := by
  unfold subsetCore
  simp only [List.mem_append, List.mem_cons, not_or]
  exact ⟨dec_no (by decide) (by decide), by decide, h⟩

theorem layerCore_inj {core : Str} {lyrs : Int} {l m : Nat} (hl : (l : Int) < lyrs) (hm : (m : Int) < lyrs)
    (h : layerCore core lyrs l = layerCore core lyrs m) : l = m := by
  unfold layerCore at h
  split at h
  · omega
  · have h2 := List.append_cancel_left h
    have h3 := intToDec_inj (List.tail_eq_of_cons_eq h2)
    omega

theorem sep_inj {c : Char} : ∀ {a b x y : Str}, c ∉ a → c ∉ b → a ++ c :: x = b ++ c :: y → a = b ∧ x = y
  | [], [], x, y, _, _, h => ⟨rfl, List.tail_eq_of_cons_eq h⟩
  | [], b :: bs, x, y, _, hb, h => by
    have := List.head_eq_of_cons_eq h
    simp [this] at hb
  | a :: as, [], x, y, ha, _, h => by
    have := List.head_eq_of_cons_eq h
    simp [this] at ha
  | a :: as, b :: bs, x, y, ha, hb, h => by
    have e1 := List.head_eq_of_cons_eq h
    have e2 := List.tail_eq_of_cons_eq h
    obtain ⟨e3, e4⟩ := sep_inj (fun h => ha (by simp [h])) (fun h => hb (by simp [h])) e2
    exact ⟨by rw [e1, e3], e4⟩

theorem layer_subset {core : Str} {k : Int} {lyrs : Int} {l : Nat} : layerCore (subsetCore k core) lyrs l = intToDec k ++ '_' :: layerCore core lyrs l := by
  unfold layerCore subsetCore
  split <;> simp

theorem names_inj {core : Str} {lyrs k j : Int} {l m : Nat} (hl : (l : Int) < lyrs) (hm : (m : Int) < lyrs)
    (h : layerCore (subsetCore k core) lyrs l = layerCore (subsetCore j core) lyrs m) : k = j ∧ l = m := by
  rw [layer_subset, layer_subset] at h
  obtain ⟨h1, h2⟩ := sep_inj (dec_no (by decide) (by decide)) (dec_no (by decide) (by decide)) h
  exact ⟨intToDec_inj h1, layerCore_inj hl hm h2⟩

theorem name_cancel {p : Path} {a b suf : Str} (h : p ++ [a ++ '.' :: suf] = p ++ [b ++ '.' :: suf]) : a = b := by
  have := List.append_cancel_left h
  simp only [List.cons.injEq, and_true] at this
  exact List.append_cancel_right this

/-- One layer of interleaved data. -/
def layerOf (full : List ℚ) (fsize lyrs : Int) (l : Nat) : List ℚ :=
  (List.range fsize.toNat).map (fun (gi : Nat) => full.getD (gi * lyrs.toNat + l) 0)

theorem layerOf_one {full : List ℚ} {fsize : Int} (h : (full.length : Int) = fsize) : layerOf full fsize 1 0 = full := by
  unfold layerOf
  apply List.ext_getElem
  · simp; omega
  · intro i h1 h2
    simp [h2]

theorem deint_eq {full : List ℚ} {fsize lyrs : Int} (hf : 0 < fsize) (hl : 1 ≤ lyrs) (hlen : (full.length : Int) = fsize * lyrs) {l : Nat}
    (hll : (l : Int) < lyrs) : deinterleave (some full) fsize lyrs l = .ok (some (layerOf full fsize lyrs l)) := by
  obtain ⟨d, e, h1, h2⟩ := deinterleave_spec full fsize lyrs hf hl hlen l hll
  rw [e]
  congr 2
  unfold layerOf
  apply List.ext_getElem?
  intro i
  by_cases hi : (i : Int) < fsize
  · rw [h2 i hi, List.getElem?_map, List.getElem?_range (by omega)]
    have hb : i * lyrs.toNat + l < full.length := by
      have h3 : ((i : Int) + 1) * lyrs ≤ fsize * lyrs := mul_le_mul_of_nonneg_right (by omega) (by omega)
      rw [add_mul, one_mul] at h3
      zify
      rw [Int.toNat_of_nonneg (show (0:Int) ≤ lyrs by omega)]
      omega
    rw [List.getElem?_eq_getElem hb, Option.map_some, List.getD_eq_getElem _ _ hb]
  · rw [List.getElem?_eq_none (by omega), List.getElem?_eq_none (by simp; omega)]

theorem layer_loop {env : Env} {fmt : Fmt} {p : Path} {dt core suf : Str}
    (hsuf : IsAscSuffix suf ∨ IsTifSuffix suf) {full : List ℚ} {fsize lyrs : Int} (hf : 0 < fsize) (hl : 1 < lyrs)
    (hlen : (full.length : Int) = fsize * lyrs) {h : Header} (cs : Nat → Content) : ∀ (ls : List Nat) (d : Disk), NameIn d.fs p dt core suf →
      d.fs.kindOf (p ++ [core ++ '.' :: suf]) ≠ some .dir → ls.Nodup →
      (∀ l ∈ ls, (l : Int) < lyrs ∧ Writable env d.fs (p ++ [layerCore core lyrs l ++ '.' :: suf]) ∧
        content fmt suf h (some (layerOf full fsize lyrs l)) = .ok (some (cs l))) →
      ∃ d', fullsizeLoop env fmt (some full) fsize lyrs (dt ++ core ++ '.' :: suf) h true ls d = .ok (true, d') ∧
        Wrote d d' (ls.map (fun l => (p ++ [layerCore core lyrs l ++ '.' :: suf], cs l)))
  | [], d, hn, _, _, _ => ⟨d, rfl, Wrote.nil hn.wf⟩
  | l :: ls, d, hn, hnd, hdup, ha => by
    obtain ⟨a1, a2, a3⟩ := ha l (by simp)
    have hname : appendCoreFileNameInt d.fs (dt ++ core ++ '.' :: suf) ((l : Int) + 1) '_' = dt ++ layerCore core lyrs l ++ '.' :: suf := by
      rw [(C53_rename_int d.fs hn.wf p dt core suf hn.dir hn.core hn.suf.1 hn.suf.2.1 hn.suf.2.2 hnd _ '_').1]
      unfold layerCore
      rw [if_neg (by omega)]
    obtain ⟨d1, w1, w2⟩ := write_one (core := layerCore core lyrs l) hn.wf hn.dir (layerCore_slash hn.core _ _) hn.suf.1 hn.suf.2.1 hn.suf.2.2
      (suffix_cases hsuf) hn.exist a2 a3
    have w3 := w2.wrote
    have hnd1 : ∀ x ∈ [(p ++ [layerCore core lyrs l ++ '.' :: suf], cs l)], d.fs.kindOf x.1 ≠ some .dir := by
      intro x hx
      rw [List.mem_singleton.1 hx]
      exact a2.nodir
    obtain ⟨d', e, w4⟩ := layer_loop hsuf hf hl hlen cs ls d1 (w3.nameIn hnd1 hn) (fun hh => hnd ((w3.dir hnd1 _).1 hh))
      (List.nodup_cons.1 hdup).2 (fun m hm => by
        obtain ⟨b1, b2, b3⟩ := ha m (by simp [hm])
        exact ⟨b1, w3.writable b2, b3⟩)
    refine ⟨d', ?_, ?_⟩
    · rw [fullsizeLoop, deint_eq hf (by omega) hlen a1, Out.ok_bind]
      simp only [if_true]
      rw [hname, w1, Out.ok_bind]
      exact e
    · have := w3.append w4 (by
        intro x hx
        rw [List.mem_singleton.1 hx]
        rw [List.map_map, List.mem_map]
        rintro ⟨m, hm, e⟩
        have e' := layerCore_inj (ha m (by simp [hm])).1 a1 (name_cancel e)
        subst e'
        exact (List.nodup_cons.1 hdup).1 hm)
      simpa using this

theorem fullsize_ok {env : Env} {fmt : Fmt} {d : Disk} {p : Path} {dt core suf : Str} (hn : NameIn d.fs p dt core suf)
    (hsuf : IsAscSuffix suf ∨ IsTifSuffix suf) (hnd : d.fs.kindOf (p ++ [core ++ '.' :: suf]) ≠ some .dir)
    {full : List ℚ} {fsize lyrs : Int} (hf : 0 < fsize) (hl : 1 ≤ lyrs) (hlen : (full.length : Int) = fsize * lyrs) {h : Header} (cs : Nat → Content)
    (ha : ∀ l : Nat, (l : Int) < lyrs → Writable env d.fs (p ++ [layerCore core lyrs l ++ '.' :: suf]) ∧
        content fmt suf h (some (layerOf full fsize lyrs l)) = .ok (some (cs l))) :
    ∃ d', fullsizeToFiles env fmt d (some full) fsize lyrs (dt ++ core ++ '.' :: suf) h = .ok (true, d') ∧
      Wrote d d' ((List.range lyrs.toNat).map (fun l => (p ++ [layerCore core lyrs l ++ '.' :: suf], cs l))) := by
  unfold fullsizeToFiles
  rw [if_neg (by simp), if_neg (by omega)]
  by_cases h1 : lyrs = 1
  · subst h1
    rw [if_pos rfl]
    obtain ⟨a1, a2⟩ := ha 0 (by omega)
    rw [layerOf_one (by omega)] at a2
    obtain ⟨d1, w1, w2⟩ := write_one (core := layerCore core 1 0) hn.wf hn.dir (layerCore_slash hn.core _ _) hn.suf.1 hn.suf.2.1 hn.suf.2.2
      (suffix_cases hsuf) hn.exist a1 a2
    exact ⟨d1, w1, w2.wrote⟩
  · rw [if_neg h1]
    exact layer_loop hsuf hf (by omega) hlen cs _ d hn hnd List.nodup_range (fun l hl => by
      have := List.mem_range.1 hl
      have hll : (l : Int) < lyrs := by omega
      exact ⟨hll, ha l hll⟩)

/-- All subsets. -/
theorem sub_loop {env : Env} {fmt : Fmt} {p : Path} {dt core suf : Str} (hsuf : IsAscSuffix suf ∨ IsTifSuffix suf)
    {r : Raster} {oo : Bool} {recls : IMap (List ℚ)} {dv : ℚ} {lyrs : Int} (hl : 1 ≤ lyrs) (H : Int → Header) (F : Int → List ℚ) (N : Int → Int)
    (cs : Int → Nat → Content) : ∀ (subs : IMap Subset) (d : Disk), NameIn d.fs p dt core suf →
      d.fs.kindOf (p ++ [core ++ '.' :: suf]) ≠ some .dir → (subs.map (·.1)).Nodup →
      (∀ e ∈ subs, subPayload r e.1 e.2 oo recls dv = .ok (some (H e.1, some (F e.1), N e.1, lyrs)) ∧ 0 < N e.1 ∧
        ((F e.1).length : Int) = N e.1 * lyrs ∧ d.fs.kindOf (p ++ [subsetCore e.1 core ++ '.' :: suf]) ≠ some .dir ∧
        ∀ l : Nat, (l : Int) < lyrs → Writable env d.fs (p ++ [layerCore (subsetCore e.1 core) lyrs l ++ '.' :: suf]) ∧
          content fmt suf (H e.1) (some (layerOf (F e.1) (N e.1) lyrs l)) = .ok (some (cs e.1 l))) →
      ∃ d', subLoop env fmt r (dt ++ core ++ '.' :: suf) oo recls dv true subs d = .ok (true, d') ∧
        Wrote d d' (subs.flatMap (fun e => (List.range lyrs.toNat).map
          (fun l => (p ++ [layerCore (subsetCore e.1 core) lyrs l ++ '.' :: suf], cs e.1 l))))
  | [], d, hn, _, _, _ => ⟨d, rfl, Wrote.nil hn.wf⟩
  | e :: subs, d, hn, hnd, hdup, ha => by
    obtain ⟨a1, a2, a3, a4, a5⟩ := ha e (by simp)
    have hname : prefixCoreFileNameInt d.fs (dt ++ core ++ '.' :: suf) e.1 '_' = dt ++ subsetCore e.1 core ++ '.' :: suf :=
      (C53_rename_int d.fs hn.wf p dt core suf hn.dir hn.core hn.suf.1 hn.suf.2.1 hn.suf.2.2 hnd _ '_').2
    obtain ⟨d1, w1, w3⟩ := fullsize_ok (nameIn_core hn (subsetCore_slash hn.core e.1)) hsuf a4 a2 hl a3 (cs e.1) a5
    have hnd1 : ∀ x ∈ (List.range lyrs.toNat).map (fun l => (p ++ [layerCore (subsetCore e.1 core) lyrs l ++ '.' :: suf], cs e.1 l)),
        d.fs.kindOf x.1 ≠ some .dir := by
      intro x hx
      obtain ⟨l, hl', rfl⟩ := List.mem_map.1 hx
      have := List.mem_range.1 hl'
      exact (a5 l (by omega)).1.nodir
    rw [List.map_cons, List.nodup_cons] at hdup
    obtain ⟨d', e', w4⟩ := sub_loop hsuf hl H F N cs subs d1 (w3.nameIn hnd1 hn) (fun hh => hnd ((w3.dir hnd1 _).1 hh))
      hdup.2 (fun m hm => by
        obtain ⟨b1, b2, b3, b4, b5⟩ := ha m (by simp [hm])
        exact ⟨b1, b2, b3, fun hh => b4 ((w3.dir hnd1 _).1 hh), fun l hl' => ⟨w3.writable (b5 l hl').1, (b5 l hl').2⟩⟩)
    refine ⟨d', ?_, ?_⟩
    · rw [subLoop, a1, Out.ok_bind]
      dsimp only
      simp only [if_true]
      rw [hname, w1, Out.ok_bind]
      exact e'
    · rw [List.flatMap_cons]
      apply w3.append w4
      intro x hx hy
      obtain ⟨l, hl', rfl⟩ := List.mem_map.1 hx
      obtain ⟨y, hy1, hy2⟩ := List.mem_map.1 hy
      obtain ⟨m, hm, hy3⟩ := List.mem_flatMap.1 hy1
      obtain ⟨l2, hl2, rfl⟩ := List.mem_map.1 hy3
      have q1 := List.mem_range.1 hl'
      have q2 := List.mem_range.1 hl2
      have := (names_inj (by omega) (by omega) (name_cancel hy2)).1
      exact hdup.1 (List.mem_map.2 ⟨m, hm, this⟩)

/-- After a failure nothing is written any more. -/
theorem sub_loop_false {env : Env} {fmt : Fmt} {name : Str} {r : Raster} {oo : Bool} {recls : IMap (List ℚ)} {dv : ℚ} :
    ∀ (subs : IMap Subset) (d : Disk) {x}, subLoop env fmt r name oo recls dv false subs d = .ok x → x = (false, d)
  | [], d, x, h => by rw [subLoop] at h; injection h with h; exact h.symm
  | e :: subs, d, x, h => by
    rw [subLoop] at h
    obtain ⟨y, _, h⟩ := Out.bind_ok h
    cases y with
    | none => exact sub_loop_false subs d h
    | some y => exact sub_loop_false subs d (by simpa using h)

end Disk
end CCGL
