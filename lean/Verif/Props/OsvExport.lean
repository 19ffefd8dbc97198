import Verif.Spec.OsvExport
import Verif.Lemmas.AdvisoryDecode
import Verif.Props.CvssText
import Verif.Props.ModTimes
import Verif.Props.Sync
import Verif.Props.Versions

/-!
# C67: the OSV export
-/

namespace Verif.Props

open Verif.Adv Verif.Db Verif.Assign Verif.Git Verif.Osv Verif.Lock Verif.Export Verif.Sync Verif.Spec Std

/-! ### Texts -/

theorem digits_inj : ∀ {l l' : Str}, l.length = l'.length → (∀ c ∈ l, c.isDigit = true) →
    (∀ c ∈ l', c.isDigit = true) → ∀ {n n' : Nat}, Nat.ofDigitChars 10 l n = Nat.ofDigitChars 10 l' n' →
    l = l' ∧ n = n'
  | [], [], _, _, _, _, _, h => ⟨rfl, h⟩
  | [], _ :: _, h, _, _, _, _, _ => by cases h
  | _ :: _, [], h, _, _, _, _, _ => by cases h
  | c :: l, c' :: l', h, hd, hd', n, n', he => by
    rw [Nat.ofDigitChars_cons, Nat.ofDigitChars_cons] at he
    obtain ⟨e1, e2⟩ := digits_inj (by simpa using h) (fun x hx => hd x (List.mem_cons_of_mem _ hx))
      (fun x hx => hd' x (List.mem_cons_of_mem _ hx)) he
    have b : ∀ x : Char, x.isDigit = true → 48 ≤ x.toNat ∧ x.toNat ≤ 57 := by
      intro x hx
      simp only [Char.isDigit, Bool.and_eq_true, decide_eq_true_eq] at hx
      exact ⟨hx.1, hx.2⟩
    have b1 := b c (hd c List.mem_cons_self)
    have b2 := b c' (hd' c' List.mem_cons_self)
    have z : '0'.toNat = 48 := rfl
    rw [z] at e2
    have hc : c.toNat = c'.toNat := by omega
    refine ⟨?_, by omega⟩
    rw [e1, Char.ext (UInt32.toNat_inj.mp hc)]

theorem showNatPad_digits {l : Str} {w : Nat} (hw : 1 ≤ w) (hl : l.length = w) (hd : ∀ c ∈ l, c.isDigit = true) :
    showNatPad w (Nat.ofDigitChars 10 l 0) = l := by
  have hlt : Nat.ofDigitChars 10 l 0 < 10 ^ w := by
    have := ofDigitChars_lt l hd 0
    rw [hl] at this; simpa using this
  exact (digits_inj (by rw [showNatPad_width hw hlt, hl]) (fun c hc => isDigit_of_mem_showNatPad hc) hd
    (ofDigitChars_showNatPad w _)).1

theorem showNat_digits {l : Str} (hl : l.length = 4) (hd : ∀ c ∈ l, c.isDigit = true)
    (h : 1000 ≤ Nat.ofDigitChars 10 l 0) : showNat (Nat.ofDigitChars 10 l 0) = l := by
  have hp := showNatPad_digits (by omega) hl hd
  have hlen : 4 ≤ (showNat (Nat.ofDigitChars 10 l 0)).length := by
    unfold showNat
    refine Nat.le_of_not_lt fun hlt => ?_
    have := (Nat.length_toDigits_le_iff (b := 10) (by omega) (n := Nat.ofDigitChars 10 l 0) (k := 3) (by omega)).mp
      (by omega)
    omega
  unfold showNatPad at hp
  rw [Nat.sub_eq_zero_of_le hlen] at hp
  exact hp

/-- A date `YYYY-MM-DD` is exported as it stands. -/
theorem dateToRfc3339_iso {d : DateText} (h : IsoDate d) {civil : Str → Option (Int × Nat × Nat)} (law : IsoLaw civil)
    (hp : ∃ x, DateText.fromStr civil x = .ok d) : dateToRfc3339 d = .ok (d.text ++ "T12:00:00Z".toList) := by
  obtain ⟨y, m, n, hiso⟩ := h
  obtain ⟨x, hx⟩ := hp
  have hx' : d.text = x := ((C20_date civil law x).2.1 d hx).1
  rw [← hx'] at hx
  obtain ⟨h1, hy, hm, hn⟩ := (C20_date civil law d.text).1 y m n hiso
  have h2000 := (h1.mp hx).2.1
  obtain ⟨ys, ms, ds, hs, l1, l2, l3, hd, rfl, rfl, rfl⟩ := hiso
  unfold dateToRfc3339
  rw [hy, Outcome.bind_ok, hm, Outcome.bind_ok, hn, Outcome.bind_ok]
  have d1 : ∀ c ∈ ys, c.isDigit = true := fun c hc => hd c (by simp [hc])
  have d2 : ∀ c ∈ ms, c.isDigit = true := fun c hc => hd c (by simp [hc])
  have d3 : ∀ c ∈ ds, c.isDigit = true := fun c hc => hd c (by simp [hc])
  rw [showNat_digits l1 d1 (by omega), showNatPad_digits (by omega) l2 d2, showNatPad_digits (by omega) l3 d3, hs]
  simp [List.append_assoc]

/-- The modification time is written in RFC 3339 format. -/
theorem rfc3339_spec {cal : Int → Int × Nat × Nat} (hcal : CalLaw cal) {seconds : Int} {s : Str}
    (h : rfc3339 cal seconds = .ok s) : Rfc3339Text cal s seconds := by
  unfold rfc3339 at h
  dsimp only at h
  split at h
  · rename_i hy
    obtain ⟨h0, h9⟩ := hy
    have hm0 : 0 ≤ seconds % 86400 := Int.emod_nonneg _ (by omega)
    have hm1 : seconds % 86400 < 86400 := Int.emod_lt_of_pos _ (by omega)
    generalize hs : (seconds % 86400).toNat = n at h
    have hn : (n : Int) = seconds % 86400 := by omega
    rcases hc : cal (seconds / 86400) with ⟨y, mo, d⟩
    rw [hc] at h h0 h9
    simp only at h h0 h9
    have hday := hcal _ y mo d hc h0 h9
    have hyn : ((y.toNat : Nat) : Int) = y := by omega
    have hiso := isoFormat_iso hday (by omega)
    rw [hyn] at hiso
    have w : ∀ k, k < 60 → (showNatPad 2 k).length = 2 := fun k hk => showNatPad_width (by omega) (by omega)
    refine ⟨seconds / 86400, y.toNat, mo, d, n / 3600, n / 60 % 60, n % 60, _, _, _, _,
      (Outcome.ok.inj h).symm, hiso, w _ (by omega), w _ (by omega), w _ (by omega), ?_,
      (ofDigitChars_showNatPad 2 _).symm, (ofDigitChars_showNatPad 2 _).symm, (ofDigitChars_showNatPad 2 _).symm,
      by omega, by omega, by omega, by rw [hc, hyn], by omega⟩
    intro c hc
    simp only [List.mem_append] at hc
    rcases hc with (hc | hc) | hc <;> exact isDigit_of_mem_showNatPad hc
  · cases h

/-! ### References -/

theorem urlHas_iff {s : Str} {pat : String} (hp : pat.toList ≠ []) :
    urlHas s pat = true ↔ pat.toList <:+: s := by
  unfold urlHas
  rw [Option.isSome_iff_exists]
  constructor
  · rintro ⟨⟨a, b⟩, h⟩
    exact ⟨a, b, ((findStr_iff hp s a b).mp h).1.symm⟩
  · rintro ⟨a, b, h⟩
    cases hf : findStr pat.toList s with
    | some p => exact ⟨p, rfl⟩
    | none => exact absurd h.symm ((findStr_spec pat.toList hp s).2 hf a b)

theorem guessUrlKind_spec (u : Url) : kindOf u.text (guessUrlKind u) := by
  unfold guessUrlKind
  have h1 := urlHas_iff (s := u.text) (pat := "://github.com/") (by decide)
  have h2 := urlHas_iff (s := u.text) (pat := "://gitlab.") (by decide)
  have h3 := urlHas_iff (s := u.text) (pat := "/issues/") (by decide)
  have h4 := urlHas_iff (s := u.text) (pat := "/advisories/") (by decide)
  have h5 := urlHas_iff (s := u.text) (pat := "://www.cve.org/") (by decide)
  have h6 := urlHas_iff (s := u.text) (pat := "://crates.io/crates/") (by decide)
  have hi : ((urlHas u.text "://github.com/" || urlHas u.text "://gitlab.") &&
      urlHas u.text "/issues/") = true ↔ kindOf.IssuePage u.text := by
    rw [Bool.and_eq_true, Bool.or_eq_true, h1, h2, h3]; rfl
  have ha : (urlHas u.text "/advisories/" || urlHas u.text "://www.cve.org/") = true ↔
      kindOf.AdvisoryPage u.text := by
    rw [Bool.or_eq_true, h4, h5]; rfl
  dsimp only
  split
  · rename_i h; exact hi.mp h
  · rename_i n1
    have n1' : ¬ kindOf.IssuePage u.text := fun h => n1 (hi.mpr h)
    split
    · rename_i h; exact ⟨n1', ha.mp h⟩
    · rename_i n2
      have n2' : ¬ kindOf.AdvisoryPage u.text := fun h => n2 (ha.mpr h)
      split
      · rename_i h; exact ⟨n1', n2', h6.mp h⟩
      · rename_i n3; exact ⟨n1', n2', fun h => n3 (h6.mpr h)⟩

theorem parse_plain {U : UrlLib} {s : Str} (hc : ∀ c ∈ s, ' ' < c ∧ c ≠ '#' ∧ c ≠ '?') (hb : U.base s = some s) :
    Url.parse U s = some { base := s, query := none, fragment := none } := by
  unfold Url.parse
  have e1 : trimCtl s = s := trimCtl_id (fun c h => (hc c (List.mem_of_mem_head? h)).1)
    (fun c h => (hc c (List.mem_of_mem_getLast? h)).1)
  have e2 : dropTabs s = s := dropTabs_id fun c h => by
    have := (hc c h).1
    refine ⟨?_, ?_, ?_⟩ <;> (rintro rfl; revert this; decide)
  rw [e1, e2, cutC_of_not_mem fun h => (hc _ h).2.1 rfl]
  dsimp only
  rw [cutC_of_not_mem fun h => (hc _ h).2.2 rfl]
  dsimp only
  rw [hb]
  rfl

theorem nameChar_ok {c : Char} (h : nameChar c) : ' ' < c ∧ c ≠ '#' ∧ c ≠ '?' := by
  rcases h with h | rfl | rfl | rfl
  · simp only [Char.isAlphanum, Char.isAlpha, Char.isUpper, Char.isLower, Char.isDigit, Bool.or_eq_true,
      Bool.and_eq_true, decide_eq_true_eq] at h
    refine ⟨?_, ?_, ?_⟩
    · show ' '.val < c.val
      have : ' '.val = 32 := rfl
      rw [this]
      rcases h with (h | h) | h <;> (have := h.1; revert this; simp only [GE.ge]; intro h'; exact Nat.lt_of_lt_of_le (by decide) h')
    all_goals (rintro rfl; revert h; decide)
  all_goals decide


theorem base_ok : ∀ c ∈ "https://crates.io/crates/".toList, ' ' < c ∧ c ≠ '#' ∧ c ≠ '?' := by decide +kernel

theorem base_ok' : ∀ c ∈ "https://rustsec.org/advisories/".toList ++ ".html".toList, ' ' < c ∧ c ≠ '#' ∧ c ≠ '?' := by
  decide +kernel

theorem parse_package {U : UrlLib} (hU : PageLaw U) {t : Str} (ht : ∀ c ∈ t, nameChar c) :
    parseUrl U (packageUrl t) = .ok { base := packageUrl t, query := none, fragment := none } := by
  unfold parseUrl packageUrl
  rw [parse_plain (fun c hc => ?_) (hU t ht).1]
  rcases List.mem_append.mp hc with hc | hc
  · exact base_ok c hc
  · exact nameChar_ok (ht c hc)

theorem parse_page {U : UrlLib} (hU : PageLaw U) {i : Id} (ht : ∀ c ∈ i.string, nameChar c) :
    parseUrl U (advisoryUrl i) = .ok { base := advisoryUrl i, query := none, fragment := none } := by
  unfold parseUrl advisoryUrl Id.display
  rw [parse_plain (fun c hc => ?_) (hU i.string ht).2]
  rcases List.mem_append.mp hc with hc | hc
  · rcases List.mem_append.mp hc with hc | hc
    · exact base_ok' c (List.mem_append_left _ hc)
    · exact nameChar_ok (ht c hc)
  · exact base_ok' c (List.mem_append_right _ hc)

/-! ### The record -/

/-- What `from_rustsec` computes, step by step. -/
theorem fromRustsec_inv {cal : Int → Int × Nat × Nat} {U : UrlLib} {a : AdvisoryFile} {m : ModTimes} {path : Str}
    {o : OsvAdvisory} (h : fromRustsec cal U a m path = .ok o) :
    ∃ package page time modified published events withdrawn,
      parseUrl U (packageUrl a.metadata.package) = .ok package ∧ parseUrl U (advisoryUrl a.metadata.id) = .ok page ∧
      m.forPath path = .ok time ∧ rfc3339 cal time = .ok modified ∧ dateToRfc3339 a.metadata.date = .ok published ∧
      osvTimeline a.versions = .ok events ∧ withdrawnText a.metadata.withdrawn = .ok withdrawn ∧
      o = {
        id := a.metadata.id, modified, published, withdrawn,
        aliases := a.metadata.aliases, related := a.metadata.related,
        summary := a.metadata.title, details := a.metadata.description,
        severity := (a.metadata.cvss.map OsvSeverity.ofCvss).toList,
        affected := [{
          ecosystem := "crates.io".toList, name := a.metadata.package,
          purl := "pkg:cargo/".toList ++ a.metadata.package, events,
          arch := (a.affected.getD {}).arch, os := (a.affected.getD {}).os,
          functions := sortDedup pathCmp ((a.affected.getD {}).functions.map Prod.fst),
          categories := a.metadata.categories, cvss := a.metadata.cvss,
          informational := a.metadata.informational }],
        references := ([package, page] ++ a.metadata.url.toList ++ a.metadata.references).map OsvReference.ofUrl,
        license := a.metadata.license.spdx } := by
  unfold fromRustsec at h
  obtain ⟨package, h1, h⟩ := bindOk h
  obtain ⟨page, h2, h⟩ := bindOk h
  obtain ⟨time, h3, h⟩ := bindOk h
  obtain ⟨modified, h4, h⟩ := bindOk h
  obtain ⟨published, h5, h⟩ := bindOk h
  obtain ⟨events, h6, h⟩ := bindOk h
  obtain ⟨withdrawn, h7, h⟩ := bindOk h
  exact ⟨package, page, time, modified, published, events, withdrawn, h1, h2, h3, h4, h5, h6, h7,
    (Outcome.ok.inj h).symm⟩

theorem pathCmp_eq_iff (a b : List Str) : pathCmp a b = .eq ↔ a = b := by
  have : LawfulEqCmp strCmp := inferInstanceAs (LawfulEqCmp (List.compareLex compare))
  have : ReflCmp strCmp := inferInstanceAs (ReflCmp (List.compareLex compare))
  exact ⟨fun h => LawfulEqCmp.eq_of_compare (cmp := List.compareLex strCmp) h,
   fun h => h ▸ ReflCmp.compare_self (cmp := List.compareLex strCmp)⟩

instance : TransCmp pathCmp := by
  have : TransCmp strCmp := inferInstanceAs (TransCmp (List.compareLex compare))
  exact inferInstanceAs (TransCmp (List.compareLex strCmp))

theorem functions_nodup (l : List (List Str)) : (sortDedup pathCmp l).Nodup := by
  have h := sortDedup_sorted pathCmp pathCmp_eq_iff l
  refine h.imp fun {a b} hab e => ?_
  rw [(pathCmp_eq_iff a b).mpr e] at hab
  cases hab

/-- **C67 (one advisory).**  The exported record says exactly what the advisory says: in particular its version
events, read as OSV prescribes, select exactly the versions that the advisory reports as vulnerable, and its
severity score reads as the advisory's CVSS vector. -/
theorem C67_record (L : AdvLib) (laws : ExportLaws L) (cal : Int → Int × Nat × Nat) (m : ModTimes) (path text : Str)
    (a : AdvisoryFile) (ha : PlainAdvisory L text a) (o : OsvAdvisory)
    (h : fromRustsec cal L.url a m path = .ok o) : Conveys a o := by
  obtain ⟨package, page, time, modified, published, events, withdrawn, h1, h2, -, -, h5, h6, h7, rfl⟩ :=
    fromRustsec_inv h
  rw [parse_package laws.page ha.package] at h1
  rw [parse_page laws.page ha.id] at h2
  obtain ⟨-, p2, p3, p4⟩ := parsed_fields ha.parsed
  rw [dateToRfc3339_iso ha.date laws.civil p2] at h5
  cases h1
  cases h2
  cases h5
  obtain ⟨v1, v2⟩ := parsed_versions laws.req ha.parsed
  obtain ⟨t1, t2⟩ := C04_timeline_means_is_vulnerable _ _ _ v1 v2 events h6
  refine ⟨rfl, rfl, ?_, rfl, rfl, rfl, rfl, rfl, ?_, ?_, ?_, ?_, ?_⟩
  · cases hw : a.metadata.withdrawn with
    | none => rw [hw] at h7; cases h7; rfl
    | some d =>
      rw [hw] at h7
      simp only [withdrawnText] at h7
      rw [dateToRfc3339_iso (ha.withdrawn d hw) laws.civil (p3 d hw)] at h7
      cases h7
      rfl
  · simp only [List.map_map, List.map_append, List.map_cons, List.map_nil]
    rw [List.append_assoc, List.append_assoc]
    congr 1
    simp only [OsvReference.ofUrl, Url.text, List.append_nil, List.cons.injEq, and_true]
    exact ⟨rfl, rfl⟩
  · intro r hr
    obtain ⟨u, -, rfl⟩ := List.mem_map.mp hr
    exact guessUrlKind_spec u
  · cases a.metadata.cvss <;> simp
  · intro c hc
    refine ⟨OsvSeverity.ofCvss c, by simp [hc], ?_, ?_⟩
    · cases c <;> simp [OsvSeverity.ofCvss, SeverityOf]
    · obtain ⟨x, hx⟩ := p4 c hc
      have := (Cvss.C59_parsed_well_formed x c hx).2
      cases c <;> exact this
  · refine ⟨_, rfl, rfl, rfl, rfl, rfl, rfl, rfl, ?_, ?_, t1, t2⟩
    · intro af haf
      rw [haf]
      refine ⟨rfl, rfl, fun f => ?_, functions_nodup _⟩
      simp only [Option.getD_some]
      rw [mem_sortDedup pathCmp_eq_iff, List.mem_map]
      constructor
      · rintro ⟨⟨g, r⟩, hm, rfl⟩; exact ⟨r, hm⟩
      · rintro ⟨r, hm⟩; exact ⟨(f, r), hm, rfl⟩
    · intro haf
      rw [haf]
      exact ⟨rfl, rfl, rfl⟩

/-- **C67 (modification time).**  The record carries the time of the last commit, other than a merge, that changed
the file. -/
theorem C67_modified (L : AdvLib) (cal : Int → Int × Nat × Nat) (hcal : CalLaw cal) (db : Objects) (ids : List Nat)
    (m : ModTimes) (hm : ModTimes.new db ids = .ok m) (a : AdvisoryFile) (path : Str) (o : OsvAdvisory)
    (h : fromRustsec cal L.url a m path = .ok o) :
    ∃ t, LastChange db ids path t ∧ Rfc3339Text cal o.modified t.seconds := by
  obtain ⟨package, page, time, modified, published, events, withdrawn, -, -, h3, h4, -, -, -, rfl⟩ :=
    fromRustsec_inv h
  unfold ModTimes.forPath at h3
  cases hl : m.mtimes.lookup path with
  | none => rw [hl] at h3; cases h3
  | some t =>
    rw [hl] at h3
    refine ⟨t, (((C55_times db ids m hm path).1 t).mp hl), ?_⟩
    dsimp only at h3
    split at h3
    · cases h3; exact rfc3339_spec hcal h4
    · cases h3
    · cases h3

/-- **C67 (success).**  An advisory can be exported iff some non-merge commit changed its file, the time of the last
such commit can be written, and some version is affected.  Otherwise the program panics. -/
theorem C67_record_exists (L : AdvLib) (laws : ExportLaws L) (cal : Int → Int × Nat × Nat) (db : Objects)
    (ids : List Nat) (m : ModTimes) (hm : ModTimes.new db ids = .ok m) (path text : Str) (a : AdvisoryFile)
    (ha : PlainAdvisory L text a) :
    ((∃ o, fromRustsec cal L.url a m path = .ok o) ↔
      (∃ t, LastChange db ids path t ∧ Representable cal t) ∧ ¬ NothingAffected a.versions) ∧
    ((¬ ∃ o, fromRustsec cal L.url a m path = .ok o) → fromRustsec cal L.url a m path = .panic) := by
  obtain ⟨-, p2, p3, -⟩ := parsed_fields ha.parsed
  obtain ⟨v1, v2⟩ := parsed_versions laws.req ha.parsed
  have hw : ∃ w, withdrawnText a.metadata.withdrawn = .ok w := by
    cases hw : a.metadata.withdrawn with
    | none => exact ⟨none, rfl⟩
    | some d =>
      refine ⟨some (d.text ++ "T12:00:00Z".toList), ?_⟩
      simp only [withdrawnText]
      rw [dateToRfc3339_iso (ha.withdrawn d hw) laws.civil (p3 d hw)]
      rfl
  obtain ⟨w, hw⟩ := hw
  have hev : (∃ e, osvTimeline a.versions = .ok e) ∧ ¬ NothingAffected a.versions ∨
      osvTimeline a.versions = .panic ∧ NothingAffected a.versions := by
    have hp := C04_export_panics_iff _ _ _ v1 v2
    cases he : osvTimeline a.versions with
    | ok e => exact .inl ⟨⟨e, rfl⟩, fun hn => by rw [he] at hp; cases hp.mpr hn⟩
    | panic => exact .inr ⟨rfl, hp.mp he⟩
    | err =>
      exfalso
      unfold osvTimeline rangesForAdvisory at he
      cases hu : unaffectedToOsvRanges a.versions.unaffected a.versions.patched with
      | ok rs =>
        rw [hu] at he
        simp only [Outcome.bind_ok] at he
        split at he <;> cases he
      | err => rw [hu] at he; cases he
      | panic => rw [hu] at he; cases he
  have htime : (∃ s x, m.forPath path = .ok s ∧ rfc3339 cal s = .ok x) ∧
        (∃ t, LastChange db ids path t ∧ Representable cal t) ∨
      (m.forPath path = .panic ∨ ∃ s, m.forPath path = .ok s ∧ rfc3339 cal s = .panic) ∧
        ¬ ∃ t, LastChange db ids path t ∧ Representable cal t := by
    have ht := (C55_times db ids m hm path).1
    have hn := (C55_times db ids m hm path).2.2
    cases hl : m.mtimes.lookup path with
    | none =>
      refine .inr ⟨.inl (by unfold ModTimes.forPath; rw [hl]), ?_⟩
      rintro ⟨t, hlc, -⟩
      exact hn.mp hl t hlc.1
    | some t =>
      have hlc : LastChange db ids path t := (ht t).mp hl
      have huniq : ∀ t', LastChange db ids path t' → t' = t := by
        intro t' h'
        have := (ht t').mpr h'
        rw [hl] at this
        exact (Option.some.inj this).symm
      by_cases hs : -377705116800 ≤ t.seconds ∧ t.seconds ≤ 253402300799
      · by_cases ho : -93599 ≤ t.offset ∧ t.offset ≤ 93599
        · have hfp : m.forPath path = .ok t.seconds := by
            unfold ModTimes.forPath localSeconds
            rw [hl]; simp only [hs, ho, and_self, if_true]
          by_cases hy : 0 ≤ (cal (t.seconds / 86400)).1 ∧ (cal (t.seconds / 86400)).1 ≤ 9999
          · have hr : ∃ x, rfc3339 cal t.seconds = .ok x := by
              unfold rfc3339; dsimp only; rw [if_pos hy]; exact ⟨_, rfl⟩
            obtain ⟨x, hx⟩ := hr
            exact .inl ⟨⟨t.seconds, x, hfp, hx⟩, t, hlc, hs, ho, hy⟩
          · refine .inr ⟨.inr ⟨t.seconds, hfp, ?_⟩, ?_⟩
            · unfold rfc3339; dsimp only; rw [if_neg hy]
            · rintro ⟨t', h1, h2⟩; rw [huniq t' h1] at h2; exact hy h2.2.2
        · refine .inr ⟨.inl ?_, ?_⟩
          · unfold ModTimes.forPath localSeconds
            rw [hl]; simp only [hs, and_self, if_true]; rw [if_neg ho]
          · rintro ⟨t', h1, h2⟩; rw [huniq t' h1] at h2; exact ho h2.2.1
      · refine .inr ⟨.inl ?_, ?_⟩
        · unfold ModTimes.forPath localSeconds
          rw [hl]; dsimp only; rw [if_neg hs]
        · rintro ⟨t', h1, h2⟩; rw [huniq t' h1] at h2; exact hs h2.1
  unfold fromRustsec
  rw [parse_package laws.page ha.package, Outcome.bind_ok, parse_page laws.page ha.id, Outcome.bind_ok,
    dateToRfc3339_iso ha.date laws.civil p2]
  rcases htime with ⟨⟨s, x, e1, e2⟩, ht⟩ | ⟨e1 | ⟨s, e1, e2⟩, ht⟩
  · rw [e1, Outcome.bind_ok, e2, Outcome.bind_ok, Outcome.bind_ok, hw]
    rcases hev with ⟨⟨e, he⟩, hn⟩ | ⟨he, hn⟩
    · rw [he]
      exact ⟨⟨fun _ => ⟨ht, hn⟩, fun _ => ⟨_, rfl⟩⟩, fun h => absurd ⟨_, rfl⟩ h⟩
    · rw [he]
      exact ⟨⟨fun ⟨o, ho⟩ => (by cases ho), fun h => absurd hn h.2⟩, fun _ => rfl⟩
  · rw [e1]
    exact ⟨⟨fun ⟨o, ho⟩ => (by cases ho), fun h => absurd h.1 ht⟩, fun _ => rfl⟩
  · rw [e1, Outcome.bind_ok, e2]
    exact ⟨⟨fun ⟨o, ho⟩ => (by cases ho), fun h => absurd h.1 ht⟩, fun _ => rfl⟩

end Verif.Props
