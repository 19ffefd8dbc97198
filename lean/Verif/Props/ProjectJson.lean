import Verif.Props.ProjectLoad
import Verif.Props.AuditSarif
import Verif.Spec.ProjectJson

/-!
# C92: from the texts of the files to the JSON report
-/

namespace Verif.Props

open Verif Verif.Semver Verif.Osv Verif.Lock Verif.Adv Verif.Audit Verif.Toml Verif.Spec Verif.Db Verif.Assign Verif.Rep
open Verif.RepJson Verif.AuditJson
open Verif.AdminLint (Checkout)

/-- An element of an array exists only where the array has one. -/
theorem jsonAt_idx {place : List JsonStep} {j : Json} {items : List Json} (h : jsonAt place j = some (.arr items))
    {i : Nat} {rest : List JsonStep} {v : Json} (hv : jsonAt (place ++ .idx i :: rest) j = some v) : i < items.length := by
  induction place generalizing j with
  | nil =>
    cases h
    have hv : (items[i]?).bind (jsonAt rest) = some v := hv
    cases hi : items[i]? with
    | none => rw [hi] at hv; cases hv
    | some x => exact (List.getElem?_eq_some_iff.mp hi).1
  | cons s place ih =>
    cases s with
    | key k =>
      cases j with
      | obj l =>
        have h : (l.lookup k.toList).bind (jsonAt place) = some (.arr items) := h
        have hv : (l.lookup k.toList).bind (jsonAt (place ++ .idx i :: rest)) = some v := hv
        cases hl : l.lookup k.toList with
        | none => rw [hl] at h; cases h
        | some x => rw [hl] at h hv; exact ih h hv
      | _ => cases h
    | idx k =>
      cases j with
      | arr l =>
        have h : (l[k]?).bind (jsonAt place) = some (.arr items) := h
        have hv : (l[k]?).bind (jsonAt (place ++ .idx i :: rest)) = some v := hv
        cases hl : l[k]? with
        | none => rw [hl] at h; cases h
        | some x => rw [hl] at h hv; exact ih h hv
      | _ => cases h

private theorem jsonAt_missing {place : List JsonStep} {j : Json} (h : jsonAt place j = none) (rest : List JsonStep) :
    jsonAt (place ++ rest) j = none := by
  induction place generalizing j with
  | nil => cases h
  | cons s place ih =>
    cases s with
    | key k =>
      cases j with
      | obj l =>
        have h : (l.lookup k.toList).bind (jsonAt place) = none := h
        show (l.lookup k.toList).bind (jsonAt (place ++ rest)) = none
        cases hl : l.lookup k.toList with
        | none => rfl
        | some x => rw [hl] at h; exact ih h
      | _ => rfl
    | idx k =>
      cases j with
      | arr l =>
        have h : (l[k]?).bind (jsonAt place) = none := h
        show (l[k]?).bind (jsonAt (place ++ rest)) = none
        cases hl : l[k]? with
        | none => rfl
        | some x => rw [hl] at h; exact ih h
      | _ => rfl

theorem lists_iff {L : ReportLib} {j : Json} {place : List JsonStep} {fs : List (AdvisoryFile × Package)}
    {shown : List JsonStep → AdvisoryFile × Package → Prop}
    (hs : ∀ pl x, shown pl x → ShowsFinding L j pl x.1 x.2)
    (h : ShowsList shown place j fs ∨ (fs = [] ∧ jsonAt place j = none)) (id name version : Str) :
    ListsFinding place j id name version ↔ ∃ x ∈ fs, x.1.metadata.id.string = id ∧ x.2.name = name ∧
      L.showVersion x.2.version = version := by
  have at_ : ∀ (i : Nat) (k : JsonStep) (ks : List JsonStep), place ++ [.idx i] ++ [k] ++ ks = place ++ .idx i :: k :: ks :=
    fun i k ks => by simp
  constructor
  · rintro ⟨i, h1, h2, h3⟩
    rcases h with ⟨⟨items, hi, hlen⟩, hall⟩ | ⟨-, hnone⟩
    · have hlt := jsonAt_idx hi h1
      rw [hlen] at hlt
      refine ⟨fs[i], List.getElem_mem hlt, ?_⟩
      have hx := hs _ _ (hall i fs[i] (List.getElem?_eq_getElem hlt))
      have e1 := hx.advisory.id
      have e2 := hx.package.name
      have e3 := hx.package.version
      rw [at_] at e1 e2 e3
      rw [h1] at e1; rw [h2] at e2; rw [h3] at e3
      cases e1; cases e2
      exact ⟨rfl, rfl, by cases e3; rfl⟩
    · rw [jsonAt_missing hnone] at h1; cases h1
  · rintro ⟨x, hx, rfl, rfl, rfl⟩
    rcases h with ⟨-, hall⟩ | ⟨rfl, -⟩
    · obtain ⟨i, hi⟩ := List.getElem?_of_mem hx
      have hx := hs _ _ (hall i x hi)
      have e1 := hx.advisory.id
      have e2 := hx.package.name
      have e3 := hx.package.version
      rw [at_] at e1 e2 e3
      exact ⟨i, e1, e2, e3⟩
    · cases hx

theorem listsPackage_iff {L : ReportLib} {j : Json} {place : List JsonStep} {ps : List Package}
    (h : ShowsList (ShowsYanked L j) place j ps ∨ (ps = [] ∧ jsonAt place j = none)) (name version : Str) :
    ListsPackage place j name version ↔ ∃ p ∈ ps, p.name = name ∧ L.showVersion p.version = version := by
  have at_ : ∀ (i : Nat) (k : JsonStep) (ks : List JsonStep), place ++ [.idx i] ++ [k] ++ ks = place ++ .idx i :: k :: ks :=
    fun i k ks => by simp
  have at1 : ∀ (i : Nat) (k : JsonStep), place ++ [.idx i] ++ [k] = place ++ [.idx i, k] := fun i k => by simp
  constructor
  · rintro ⟨i, h1, h2, h3⟩
    rcases h with ⟨⟨items, hi, hlen⟩, hall⟩ | ⟨-, hnone⟩
    · have hlt := jsonAt_idx hi h1
      rw [hlen] at hlt
      refine ⟨ps[i], List.getElem_mem hlt, ?_⟩
      have hx := hall i ps[i] (List.getElem?_eq_getElem hlt)
      have e2 := hx.package.name
      have e3 := hx.package.version
      rw [at_] at e2 e3
      rw [h2] at e2; rw [h3] at e3
      cases e2
      exact ⟨rfl, by cases e3; rfl⟩
    · rw [jsonAt_missing hnone] at h1; cases h1
  · rintro ⟨x, hx, rfl, rfl⟩
    rcases h with ⟨-, hall⟩ | ⟨rfl, -⟩
    · obtain ⟨i, hi⟩ := List.getElem?_of_mem hx
      have hx := hall i x hi
      have e1 := hx.advisory
      have e2 := hx.package.name
      have e3 := hx.package.version
      rw [at_] at e2 e3
      rw [at1] at e1
      exact ⟨i, e1, e2, e3⟩
    · cases hx

/-- The pairs of a report, in terms of the texts. -/
private theorem pairs_iff {P : Project} (hF : P.fp.Ok) {c : AuditConfig} {ch : Checkout} {text : Str} {l : Lockfile}
    (hl : Lockfile.fromText (semverCodec P.url) Toml.read text = .ok l) {Q : Option Informational → Prop}
    {fs : List (AdvisoryFile × Package)}
    (hfs : ∀ f p, (f, p) ∈ fs ↔ p ∈ l.packages ∧ HasAdvisory P.advLib ch f ∧
      Concerned c p (toAdvisory P.severityOf f) ∧ Q f.metadata.informational) (id name version : Str) :
    (∃ x ∈ fs, x.1.metadata.id.string = id ∧ x.2.name = name ∧ x.2.version.text = version) ↔
      ∃ f v, FindingOf P c ch text f name v ∧ Q f.metadata.informational ∧ f.metadata.id.string = id ∧ v.text = version := by
  constructor
  · rintro ⟨⟨f, p⟩, hx, rfl, rfl, rfl⟩
    obtain ⟨hp, ha, hc, hq⟩ := (hfs f p).mp hx
    obtain ⟨col, txt, f₀, h1, h2, h3, rfl⟩ := (hasAdvisory_iff _ _ _).mp ha
    have hcol : col = .crates := Option.some.inj hc.collection
    subst hcol
    exact ⟨f₀, p.version, (findingOf_iff hF hl f₀ _ _).mpr ⟨p, hp, rfl, rfl, ⟨txt, h1, h2⟩, h3, hc⟩, hq, rfl, rfl⟩
  · rintro ⟨f, v, hf, hq, rfl, rfl⟩
    obtain ⟨p, hp, hn, rfl, ⟨txt, h1, h2⟩, h3, hc⟩ := (findingOf_iff hF hl f _ _).mp hf
    refine ⟨(withCollection .crates f, p), (hfs _ _).mpr ⟨hp, ?_, hc, hq⟩, rfl, hn, rfl⟩
    exact (hasAdvisory_iff _ _ _).mpr ⟨.crates, txt, f, h1, h2, h3, rfl⟩

/-- **Property C92**: `cargo audit` with JSON output prints one line, a JSON document.  Its list of vulnerabilities has an
element for an advisory ID and a version of a package exactly if the texts of the lockfile and of the advisories tell so; so
does each of its lists of warnings, for the informational advisories that are asked for, and the list of yanked packages,
according to the index.  The exit status is 1 exactly if the texts are damning. -/
theorem C92_json (P : Project) (hF : P.fp.Ok) (cmd : AuditCommand) (c : AuditConfig) (hc : Configured P cmd c)
    (hfmt : c.output.format = .json) (text : Str) (ht : LockOf P cmd.file text) (l : Lockfile)
    (hl : Lockfile.fromText (semverCodec P.url) Toml.read text = .ok l) (ch : Checkout) (hch : CheckoutOf P c ch)
    (hdb : DatabaseReads P.advLib ch) (Time : Type) (showTime : Time → Option Str) (parseTime : Str → Option Time)
    (commit : Option (Str × Time)) (hcommit : ∀ x, commit = some x → ∃ s, showTime x.2 = some s) :
    ∃ r n line j, P.run cmd = (some (.json r), .code n) ∧
      jsonOutput (P.reportLib Time showTime parseTime) ch commit l r = .ok (line ++ ['\n']) ∧ '\n' ∉ line ∧
      readJson line = some j ∧
      (∀ id name version, ListsFinding [.key "vulnerabilities", .key "list"] j id name version ↔
        ∃ f v, FindingOf P c ch text f name v ∧ f.metadata.informational = none ∧ f.metadata.id.string = id ∧
          v.text = version) ∧
      (∀ kind, kind ≠ WarningKind.yanked → ∀ id name version, ListsFinding (kindPlace kind) j id name version ↔
        ∃ f v, FindingOf P c ch text f name v ∧ (∃ i, f.metadata.informational = some i ∧ Enabled c i ∧ WarnsAs i kind) ∧
          f.metadata.id.string = id ∧ v.text = version) ∧
      (∀ name version, ListsPackage (kindPlace .yanked) j name version ↔
        ∃ v, YankedOf P cmd.file c text name v ∧ v.text = version) ∧
      (n = 0 ∨ n = 1) ∧ (n = 1 ↔ Damning P cmd.file c ch text) := by
  obtain ⟨db, hdb⟩ := (C91_database P ch).mpr hdb
  obtain ⟨path, hloc, hlt⟩ := lockOf_locate ht
  have hload : (P.env cmd.file).loadLock path = some l := by
    show P.loadLock cmd.file path = some l
    unfold Project.loadLock
    rw [hlt, Option.bind_some, hl]
  have hrun : P.run cmd = runAudit (P.env cmd.file) cmd c := by
    unfold Project.run
    rw [(configured_iff P cmd c).mpr hc]
  obtain ⟨r, n, line, j, h1, h2, h3, h4, h5, -, -⟩ := C83_json (P.reportLib Time showTime parseTime)
    (semver_reqWF (L := P.advLib) rfl) P.severityOf (P.env cmd.file) cmd c hfmt path hloc ch (checkoutOf_env hch cmd.file)
    db hdb l hload commit hcommit
  obtain ⟨r', out, n', h1', -, -, hn, hd⟩ := C91_verdict P hF cmd c hc text ht l hl ch hch db hdb
    (fun e => by rw [hfmt] at e; cases e)
  have hnn : n' = n := by
    rw [hrun, h1] at h1'
    cases h1'; rfl
  subst hnn
  refine ⟨r, n', line, j, hrun.trans h1, h2, fun hmem => absurd (h3 _ hmem) (by decide), h4, ?_, ?_, ?_, hn, hd⟩
  · intro id name version
    obtain ⟨fs, hfs, -, -, -, hsl⟩ := h5.vulnerabilities
    rw [lists_iff (fun _ _ h => h) (.inl hsl)]
    refine pairs_iff (Q := (· = none)) hF hl (fun f p => ?_) id name version
    rw [hfs]
    exact ⟨fun ⟨a, b, x, y, _⟩ => ⟨a, b, x, y⟩, fun ⟨a, b, x, y⟩ => ⟨a, b, x, y, fun f hf => by cases hf⟩⟩
  · intro kind hk id name version
    obtain ⟨fs, hfs, -, hsl⟩ := h5.warnings kind hk
    rw [lists_iff (fun _ _ h => h.finding) hsl]
    refine pairs_iff (Q := fun o => ∃ i, o = some i ∧ Enabled c i ∧ WarnsAs i kind) hF hl (fun f p => ?_) id name version
    rw [hfs]
    exact ⟨fun ⟨a, b, x, _, y⟩ => ⟨a, b, x, y⟩, fun ⟨a, b, x, y⟩ => ⟨a, b, x, (fun f hf => by cases hf), y⟩⟩
  · intro name version
    obtain ⟨ps, hps, hall, hsl⟩ := h5.yanked
    rw [listsPackage_iff hsl]
    constructor
    · rintro ⟨p, hp, rfl, rfl⟩
      obtain ⟨hp1, hp2⟩ := hps p hp
      exact ⟨p.version, (yankedOf_iff cmd.file hl _ _).mp ⟨p, hp1, rfl, rfl, hp2⟩, rfl⟩
    · rintro ⟨v, hy, rfl⟩
      obtain ⟨p, hp, rfl, rfl, hs⟩ := (yankedOf_iff cmd.file hl _ _).mpr hy
      obtain ⟨q, hq, e1, e2⟩ := hall p hp hs
      exact ⟨q, hq, e1, by rw [e2]; rfl⟩

theorem result_iff {L : ReportLib} {version path : Str} {fs : List SarifFinding} {j : Json}
    (h : ShowsFindings L version path fs j) (level fp : Str) :
    HasResult j level fp ↔ ∃ f ∈ fs, f.level = level ∧ f.fingerprint L = fp := by
  constructor
  · rintro ⟨i, h1, h2⟩
    obtain ⟨items, hi, hlen⟩ := h.results
    have hlt := jsonAt_idx (rest := [.key "level"]) hi h1
    rw [hlen] at hlt
    have hr := h.result i fs[i] (List.getElem?_eq_getElem hlt)
    have e1 := hr.level
    have e2 := hr.fingerprint
    refine ⟨fs[i], List.getElem_mem hlt, ?_, ?_⟩
    · have := e1.symm.trans h1
      injection this with this; injection this
    · have := e2.symm.trans h2
      injection this with this; injection this
  · rintro ⟨f, hf, rfl, rfl⟩
    obtain ⟨i, hi⟩ := List.getElem?_of_mem hf
    have hr := h.result i f hi
    exact ⟨i, hr.level, hr.fingerprint⟩

/-- **Property C92** (SARIF): `cargo audit` with SARIF output prints one line, a JSON document.  It has a result of level
"error" with the fingerprint of an advisory ID, a package and a version exactly if the texts tell so; a result of level
"warning" exactly for the informational advisories that are asked for and the yanked packages.  The exit status is 1 exactly
if the texts are damning. -/
theorem C92_sarif (P : Project) (hF : P.fp.Ok) (cmd : AuditCommand) (c : AuditConfig) (hc : Configured P cmd c)
    (hfmt : c.output.format = .sarif) (text : Str) (ht : LockOf P cmd.file text) (l : Lockfile)
    (hl : Lockfile.fromText (semverCodec P.url) Toml.read text = .ok l) (ch : Checkout) (hch : CheckoutOf P c ch)
    (hdb : DatabaseReads P.advLib ch) (Time : Type) (showTime : Time → Option Str) (parseTime : Str → Option Time)
    (commit : Option (Str × Time)) (version : Str) :
    ∃ r n line j, P.run cmd = (some (.sarif r), .code n) ∧
      sarifOutput (P.reportLib Time showTime parseTime) P.fp version ch commit l r none = .ok (line ++ ['\n']) ∧
      '\n' ∉ line ∧ readJson (line ++ ['\n']) = some j ∧
      (∀ fp, HasResult j "error".toList fp ↔ ∃ f name v, FindingOf P c ch text f name v ∧
        f.metadata.informational = none ∧ fp = joinC ':' [f.metadata.id.string, name, v.text]) ∧
      (∀ fp, HasResult j "warning".toList fp ↔
        (∃ f name v i kind, FindingOf P c ch text f name v ∧ f.metadata.informational = some i ∧ Enabled c i ∧
          WarnsAs i kind ∧ fp = joinC ':' [f.metadata.id.string, name, v.text]) ∨
        ∃ name v, YankedOf P cmd.file c text name v ∧ fp = joinC ':' ["yanked".toList, name, v.text]) ∧
      (n = 0 ∨ n = 1) ∧ (n = 1 ↔ Damning P cmd.file c ch text) := by
  obtain ⟨db, hdb⟩ := (C91_database P ch).mpr hdb
  obtain ⟨path, hloc, hlt⟩ := lockOf_locate ht
  have hload : (P.env cmd.file).loadLock path = some l := by
    show P.loadLock cmd.file path = some l
    unfold Project.loadLock
    rw [hlt, Option.bind_some, hl]
  have hrun : P.run cmd = runAudit (P.env cmd.file) cmd c := by
    unfold Project.run
    rw [(configured_iff P cmd c).mpr hc]
  obtain ⟨r, n, line, j, fs, h1, h2, h3, h4, h5, h6, -, -⟩ := C84_sarif (P.reportLib Time showTime parseTime)
    (semver_reqWF (L := P.advLib) rfl) P.fp hF version P.severityOf (P.env cmd.file) cmd c hfmt path hloc ch
    (checkoutOf_env hch cmd.file) db hdb l hload commit
  obtain ⟨r', out, n', h1', -, -, hn, hd⟩ := C91_verdict P hF cmd c hc text ht l hl ch hch db hdb
    (fun e => by rw [hfmt] at e; cases e)
  have hnn : n' = n := by
    rw [hrun, h1] at h1'
    cases h1'; rfl
  subst hnn
  have find : ∀ f p, p ∈ l.packages → HasAdvisory P.advLib ch f → Concerned c p (toAdvisory P.severityOf f) →
      ∃ f₀, FindingOf P c ch text f₀ p.name p.version ∧ f₀.metadata.informational = f.metadata.informational ∧
        f₀.metadata.id = f.metadata.id := by
    intro f p hp ha hc
    obtain ⟨col, txt, f₀, a1, a2, a3, rfl⟩ := (hasAdvisory_iff _ _ _).mp ha
    have hcol : col = .crates := Option.some.inj hc.collection
    subst hcol
    exact ⟨f₀, (findingOf_iff hF hl f₀ _ _).mpr ⟨p, hp, rfl, rfl, ⟨txt, a1, a2⟩, a3, hc⟩, rfl, rfl⟩
  have back : ∀ f name v, FindingOf P c ch text f name v → ∃ p ∈ l.packages, p.name = name ∧ p.version = v ∧
      HasAdvisory P.advLib ch (AuditJson.withCollection .crates f) ∧
      Concerned c p (toAdvisory P.severityOf (AuditJson.withCollection .crates f)) := by
    intro f name v hf
    obtain ⟨p, hp, hn, hv, ⟨txt, a1, a2⟩, a3, hc⟩ := (findingOf_iff hF hl f _ _).mp hf
    exact ⟨p, hp, hn, hv, (hasAdvisory_iff _ _ _).mpr ⟨.crates, txt, f, a1, a2, a3, rfl⟩, hc⟩
  have rel : ∀ a, Relevant none a := fun a f hf => by cases hf
  refine ⟨r, n', line, j, hrun.trans h1, h2, h3, h4, ?_, ?_, hn, hd⟩
  · intro fp
    rw [result_iff h5]
    constructor
    · rintro ⟨x, hx, hlev, rfl⟩
      cases x with
      | warning w => exact absurd (show "warning".toList = "error".toList from hlev) (by decide)
      | vulnerability v =>
        obtain ⟨f, p, rfl, hp, ha, hcc, hi, -⟩ := (h6.vulnerabilities v).mp hx
        obtain ⟨f₀, b1, b2, b3⟩ := find f p hp ha hcc
        refine ⟨f₀, p.name, p.version, b1, b2.trans hi, ?_⟩
        rw [b3]; rfl
    · rintro ⟨f, name, v, hf, hi, rfl⟩
      obtain ⟨p, hp, rfl, rfl, ha, hcc⟩ := back f name v hf
      exact ⟨_, (h6.vulnerabilities _).mpr ⟨_, p, rfl, hp, ha, hcc, hi, rel _⟩, rfl, rfl⟩
  · intro fp
    rw [result_iff h5]
    constructor
    · rintro ⟨x, hx, hlev, rfl⟩
      cases x with
      | vulnerability v => exact absurd (show "error".toList = "warning".toList from hlev) (by decide)
      | warning w =>
        by_cases hk : w.kind = .yanked
        · right
          obtain ⟨hw, hp, hy⟩ := h6.yanked w hx hk
          refine ⟨w.package.name, w.package.version,
            (yankedOf_iff cmd.file hl _ _).mp ⟨w.package, hp, rfl, rfl, hy⟩, ?_⟩
          rw [hw]; rfl
        · left
          obtain ⟨f, p, i, hw, hp, ha, hcc, -, hi, he, hwa⟩ := (h6.advisories w).mp ⟨hx, hk⟩
          obtain ⟨f₀, b1, b2, b3⟩ := find f p hp ha hcc
          refine ⟨f₀, p.name, p.version, i, w.kind, b1, b2.trans hi, he, hwa, ?_⟩
          rw [b3, hw]; rfl
    · rintro (⟨f, name, v, i, kind, hf, hi, he, hwa, rfl⟩ | ⟨name, v, hy, rfl⟩)
      · obtain ⟨p, hp, rfl, rfl, ha, hcc⟩ := back f name v hf
        have := (h6.advisories ⟨kind, p, some (AuditJson.withCollection .crates f).metadata, f.affected,
          some f.versions⟩).mpr ⟨_, p, i, rfl, hp, ha, hcc, rel _, hi, he, hwa⟩
        exact ⟨_, this.1, rfl, rfl⟩
      · obtain ⟨p, hp, rfl, rfl, hs⟩ := (yankedOf_iff cmd.file hl _ _).mpr hy
        obtain ⟨w, hw, hk, e1, e2⟩ := h6.allYanked p hp hs
        obtain ⟨e, -, -⟩ := h6.yanked w hw hk
        refine ⟨_, hw, rfl, ?_⟩
        rw [e]
        show joinC ':' [_, w.package.name, w.package.version.text] = _
        rw [e1, e2]; rfl

end Verif.Props
