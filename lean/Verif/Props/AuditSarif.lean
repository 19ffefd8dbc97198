import Verif.Props.AuditFindings
import Verif.Props.SarifJson

/-!
# C83, C84: the JSON of an audit read back, and `cargo audit --format sarif`
-/

namespace Verif.Props

open Verif.Semver Verif.Osv Verif.Lock Verif.Adv Verif.Db Verif.Rep Verif.RepJson Verif.Audit Verif.AuditJson Verif.Assign
  Verif.Spec
open Verif.AdminLint (Checkout)

section
variable {L : ReportLib} {sev : Cvss.Cvss → Severity} {env : Env} {c : AuditConfig} {ch : Checkout} {db : Database}
  {l : Lockfile} {format : Option Bin.BinaryFormat} {r : Report}

/-! ## Reading the JSON back -/

theorem hasAdvisory_read {f : AdvisoryFile} (h : HasAdvisory L.adv ch f) (hs : AdvisorySourceKept f) :
    MetadataRead L f.metadata ∧ VersionsRead L f.versions ∧ ∀ a, f.affected = some a → AffectedRead L a := by
  obtain ⟨col, entries, dir, items, name, text, f₀, -, -, -, -, hf, -, rfl⟩ := h
  obtain ⟨m, vs, af⟩ := C79_advisory_read L text f₀ hf hs
  exact ⟨⟨m.id, m.date, m.aliases, m.related, m.categories, m.cvss, m.informational, m.references, m.source, m.url,
    m.withdrawn, m.license⟩, vs, af⟩

theorem full_read {R : FullReport L.Time} (hR : FullComplete L.adv sev env c ch l format R)
    (htime : ∀ t, R.database.lastUpdated = some t → ∃ s, L.showTime t = some s)
    (hig : ∀ i ∈ c.reportSettings.ignore, FromText Id.fromStr i)
    (hinf : ∀ i ∈ c.reportSettings.informationalWarnings, ∃ s, Informational.fromStr s = i)
    (hps : ∀ p ∈ l.packages, PackageRead L p)
    (hadv : ∀ f, HasAdvisory L.adv ch f → AdvisorySourceKept f) : ReportRead L R := by
  refine ⟨htime, hR.settings ▸ hig, hR.settings ▸ hinf, fun v hv => ?_, fun e he w hw => ?_⟩
  · obtain ⟨f, p, rfl, hp, hf, -⟩ := (hR.vulnerabilities v).mp hv
    obtain ⟨m, vs, af⟩ := hasAdvisory_read hf (hadv f hf)
    exact ⟨m, vs, af, hps p hp⟩
  · by_cases hk : w.kind = .yanked
    · obtain ⟨hw', hp, -⟩ := hR.yanked e he w hw hk
      refine ⟨hps _ hp, ?_, ?_, ?_⟩ <;> rw [hw'] <;> rintro x ⟨⟩
    · obtain ⟨f, p, i, hw', hp, hf, -⟩ := (hR.advisories w).mp ⟨⟨e, he, hw⟩, hk⟩
      obtain ⟨m, vs, af⟩ := hasAdvisory_read hf (hadv f hf)
      refine ⟨?_, ?_, ?_, ?_⟩ <;> rw [hw']
      · exact hps p hp
      · rintro x ⟨⟩; exact m
      · exact af
      · rintro x ⟨⟩; exact vs

end

/-- C83: what `cargo audit --json` prints is read back by the types of the crate, and has the findings of the audit.  Needed:
no source is a path or has a git reference with special characters, and the settings were read from texts. -/
theorem C83_back (L : ReportLib) (hL : ReportLib.Lawful L) (hreq : ∀ s r, L.adv.req s = some r → ReqWF r)
    (sev : Cvss.Cvss → Severity) (env : Env)
    (cmd : AuditCommand) (c : AuditConfig) (hfmt : c.output.format = .json) (path : Str)
    (hloc : env.locate cmd.file = some path) (ch : Checkout) (hco : env.checkout c = some (ch.tree L.adv sev))
    (db : Db.Database) (h : Db.Database.open (ch.tree L.adv sev) = .ok db) (l : Lockfile)
    (hl : env.loadLock path = some l) (commit : Option (Str × L.Time))
    (ht : ∀ x, commit = some x → ∃ s, L.showTime x.2 = some s)
    (d : LockDoc) (hd : Lockfile.parse (ReportLib.codec L) d = .ok l) (hls : LockSourcesKept l)
    (hadv : ∀ f, HasAdvisory L.adv ch f → AdvisorySourceKept f)
    (hig : ∀ i ∈ c.reportSettings.ignore, FromText Id.fromStr i)
    (hinf : ∀ i ∈ c.reportSettings.informationalWarnings, ∃ s, Informational.fromStr s = i) :
    ∃ r n line j R, runAudit env cmd c = (some (.json r), .code n) ∧
      jsonOutput L ch commit l r = .ok (line ++ ['\n']) ∧ readJson line = some j ∧
      FullReport.deserialize L j = .ok R ∧ FullComplete L.adv sev env c ch l none R ∧
      R.dependencyCount = l.packages.length ∧ R.database = databaseInfo (loadedFiles L.adv ch) commit ∧
      R.vulnerabilities.count = R.vulnerabilities.list.length ∧
      (R.vulnerabilities.found = true ↔ R.vulnerabilities.list ≠ []) := by
  have hpr : Printable c l := fun e => by rw [hfmt] at e; cases e
  obtain ⟨r, out, n, hrun, hcomp, hsh, hn, hex⟩ :=
    C43_exit_status env cmd c path hloc _ hco db h (loaded_validated hreq h) l hl hpr
  cases out with
  | terminal items v d al => have := hsh.1; rw [hfmt] at this; cases this
  | sarif r' => have := hsh.1; rw [hfmt] at this; cases this
  | json r' =>
    have hr' : r' = r := hsh.2
    subst hr'
    obtain ⟨R, hR, -, e1, e2, e3, -⟩ := C83_same_report h hcomp commit
    have hfc := full_complete h hcomp hR
    have hdb : R.database = databaseInfo (loadedFiles L.adv ch) commit ∧ R.dependencyCount = l.packages.length := by
      unfold fullReport at hR
      obtain ⟨_, _, hR⟩ := bindOk hR
      obtain ⟨_, _, hR⟩ := bindOk hR
      cases hR; exact ⟨rfl, rfl⟩
    have htime : ∀ t, R.database.lastUpdated = some t → ∃ s, L.showTime t = some s := by
      intro t e
      rw [hdb.1] at e
      obtain ⟨x, hx, rfl⟩ := Option.map_eq_some_iff.mp e
      exact ht x hx
    obtain ⟨j, hj, hback⟩ := C79_round_trip L hL R
      (full_read hfc htime hig hinf (C79_package_read L d l hd hls) hadv)
    obtain ⟨text, htext⟩ := (C80_prints_iff L R).1.mpr htime
    obtain ⟨line, j', rfl, -, hj', hread, -⟩ := C80_one_line L R text htext
    obtain rfl : j' = j := Outcome.ok.inj (hj'.symm.trans hj)
    refine ⟨r', n, line, j', R, hrun, ?_, hread, hback, hfc, hdb.2, hdb.1, ?_, ?_⟩
    · unfold jsonOutput
      rw [hR, Outcome.bind_ok]
      exact htext
    · rw [e2, hcomp.count, ← e3, List.length_map]
    · rw [e1, hcomp.found, ← e3, Ne, Ne, List.map_eq_nil_iff]

/-! ## SARIF -/

/-- The findings of an audit, as a list: all of them and nothing else. -/
structure AuditFindings (L : AdvLib) (sev : Cvss.Cvss → Severity) (env : Env) (c : AuditConfig) (ch : Checkout)
    (l : Lockfile) (format : Option Bin.BinaryFormat) (fs : List SarifFinding) : Prop where
  vulnerabilities : ∀ v, .vulnerability v ∈ fs ↔ ∃ f p, v = ⟨f.metadata, f.versions, f.affected, p⟩ ∧ p ∈ l.packages ∧
    HasAdvisory L ch f ∧ Concerned c p (toAdvisory sev f) ∧ f.metadata.informational = none ∧
    Relevant format (toAdvisory sev f)
  advisories : ∀ w, (.warning w ∈ fs ∧ w.kind ≠ .yanked) ↔ ∃ f p i,
    w = ⟨w.kind, p, some f.metadata, f.affected, some f.versions⟩ ∧
    p ∈ l.packages ∧ HasAdvisory L ch f ∧ Concerned c p (toAdvisory sev f) ∧
    Relevant format (toAdvisory sev f) ∧ f.metadata.informational = some i ∧ Enabled c i ∧ WarnsAs i w.kind
  yanked : ∀ w, .warning w ∈ fs → w.kind = .yanked → w = ⟨.yanked, w.package, none, none, none⟩ ∧
    w.package ∈ l.packages ∧ SaidYanked env c w.package
  allYanked : ∀ p ∈ l.packages, SaidYanked env c p → ∃ w, .warning w ∈ fs ∧ w.kind = .yanked ∧
    w.package.name = p.name ∧ w.package.version = p.version
  /-- Nothing is listed twice, unless a package is locked twice. -/
  once : l.packages.Nodup → (fs.filter fun f => f.advisory.isSome).Nodup

section
variable {L : ReportLib} {sev : Cvss.Cvss → Severity} {env : Env} {c : AuditConfig} {ch : Checkout} {db : Database}
  {l : Lockfile} {format : Option Bin.BinaryFormat} {r : Report}

theorem mem_all {T : Type} (R : FullReport T) :
    (∀ v, SarifFinding.vulnerability v ∈ SarifFinding.all R ↔ v ∈ R.vulnerabilities.list) ∧
    ∀ w, SarifFinding.warning w ∈ SarifFinding.all R ↔ ∃ e ∈ R.warnings, w ∈ e.2 := by
  unfold SarifFinding.all
  refine ⟨fun v => ?_, fun w => ?_⟩
  · rw [List.mem_append, List.mem_map, List.mem_map]
    constructor
    · rintro (⟨v', h, e⟩ | ⟨w, -, e⟩)
      · cases e; exact h
      · cases e
    · intro h
      exact .inl ⟨v, h, rfl⟩
  · rw [List.mem_append, List.mem_map, List.mem_map]
    constructor
    · rintro (⟨v', -, e⟩ | ⟨w', h, e⟩)
      · cases e
      · cases e; exact List.mem_flatMap.mp h
    · intro h
      exact .inr ⟨w, List.mem_flatMap.mpr h, rfl⟩

theorem audit_findings {T : Type} {R : FullReport T} (h : FullComplete L.adv sev env c ch l format R) :
    AuditFindings L.adv sev env c ch l format (SarifFinding.all R) := by
  refine ⟨fun v => ?_, fun w => ?_, fun w hw hk => ?_, fun p hp hs => ?_, fun hn => ?_⟩
  · rw [(mem_all R).1]; exact h.vulnerabilities v
  · rw [(mem_all R).2]; exact h.advisories w
  · obtain ⟨e, he, hw⟩ := ((mem_all R).2 w).mp hw
    exact h.yanked e he w hw hk
  · obtain ⟨e, he, w, hw, h1⟩ := h.allYanked p hp hs
    exact ⟨w, ((mem_all R).2 w).mpr ⟨e, he, hw⟩, h1⟩
  · obtain ⟨h1, h2⟩ := h.once hn
    unfold SarifFinding.all
    rw [List.filter_append, List.nodup_append']
    refine ⟨(h1.map (fun a b e => by cases e; rfl)).filter _, ?_, ?_⟩
    · rw [List.filter_map]
      refine List.Nodup.map (fun a b e => by cases e; rfl) ?_
      rw [List.filter_flatMap, List.nodup_flatMap]
      refine ⟨fun e he => ?_, ?_⟩
      · by_cases hk : e.1 = .yanked
        · have : e.2.filter ((fun f : SarifFinding => f.advisory.isSome) ∘ SarifFinding.warning) = [] := by
            rw [List.filter_eq_nil_iff]
            intro w hw
            rw [(h.yanked e he w hw ((h.filed e he w hw).trans hk)).1]
            exact fun e => by cases e
          rw [this]
          exact List.nodup_nil
        · exact (h2 e he hk).filter _
      · have hp : R.warnings.Pairwise fun a b => a.1 ≠ b.1 := List.pairwise_map.mp h.keys
        refine hp.imp_of_mem ?_
        intro a b ha hb hne w hwa hwb
        exact hne ((h.filed a ha w (List.mem_filter.mp hwa).1).symm.trans (h.filed b hb w (List.mem_filter.mp hwb).1))
    · intro f hf hg
      obtain ⟨v, -, rfl⟩ := List.mem_map.mp (List.mem_filter.mp hf).1
      obtain ⟨w, -, e⟩ := List.mem_map.mp (List.mem_filter.mp hg).1
      cases e

/-- The findings that make the run fail are in the list. -/
theorem findings_fail (h : Database.open (ch.tree L.adv sev) = .ok db) {fs : List SarifFinding}
    (hf : AuditFindings L.adv sev env c ch l format fs) :
    Fails env c db l format ↔ ∃ f ∈ fs, match f with
      | .vulnerability _ => True
      | .warning w => Denied c.output.deny w.kind := by
  unfold Fails
  constructor
  · rintro (⟨p, hp, a, ha, h1, h2, h3⟩ | ⟨p, hp, a, ha, i, k, h1, h2, h3, h4, h5⟩ | ⟨hd, p, hp, hs⟩)
    · obtain ⟨f, hfl, rfl⟩ := (iter_file h).mp ha
      exact ⟨_, (hf.vulnerabilities _).mpr ⟨f, p, rfl, hp, (mem_loadedFiles _ _ _).mp hfl, h1, h2, h3⟩, trivial⟩
    · obtain ⟨f, hfl, rfl⟩ := (iter_file h).mp ha
      have hen : Enabled c i := by
        obtain ⟨d, hd, hdk, -⟩ := h5
        exact Or.inr ⟨d, hd, k, hdk, h4⟩
      exact ⟨.warning (fullWarningOf k (f, p)), ((hf.advisories (fullWarningOf k (f, p))).mpr
        ⟨f, p, i, rfl, hp, (mem_loadedFiles _ _ _).mp hfl, h1, h3, h2, hen, h4⟩).1, h5⟩
    · obtain ⟨w, hw, hk, -⟩ := hf.allYanked p hp hs
      refine ⟨_, hw, ?_⟩
      show Denied c.output.deny w.kind
      rw [hk]; exact hd
  · rintro ⟨f, hm, hd⟩
    cases f with
    | vulnerability v =>
      obtain ⟨f, p, -, hp, hfl, h1, h2, h3⟩ := (hf.vulnerabilities v).mp hm
      exact .inl ⟨p, hp, _, (iter_file h).mpr ⟨f, (mem_loadedFiles _ _ _).mpr hfl, rfl⟩, h1, h2, h3⟩
    | warning w =>
      by_cases hk : w.kind = .yanked
      · obtain ⟨-, hp, hs⟩ := hf.yanked w hm hk
        have hd : Denied c.output.deny w.kind := hd
        rw [hk] at hd
        exact .inr (.inr ⟨hd, _, hp, hs⟩)
      · obtain ⟨f, p, i, -, hp, hfl, h1, h2, h3, -, h5⟩ := (hf.advisories w).mp ⟨hm, hk⟩
        exact .inr (.inl ⟨p, hp, _, (iter_file h).mpr ⟨f, (mem_loadedFiles _ _ _).mpr hfl, rfl⟩, i, _, h1, h3, h2, h5, hd⟩)

theorem sarif_output (F : Cvss.Fp) (hF : F.Ok) (version : Str) (h : Database.open (ch.tree L.adv sev) = .ok db)
    (hc : Complete env c db l format r) (commit : Option (Str × L.Time)) (path : Option Str) :
    ∃ line j fs, sarifOutput L F version ch commit l r path = .ok (line ++ ['\n']) ∧ '\n' ∉ line ∧
      readJson (line ++ ['\n']) = some j ∧
      ShowsFindings L version (path.getD "Cargo.lock".toList) fs j ∧ AuditFindings L.adv sev env c ch l format fs := by
  obtain ⟨R, hR, -⟩ := C83_same_report h hc commit
  have hfc := full_complete h hc hR
  have hcvss : ∀ f, HasAdvisory L.adv ch f → ∀ x, f.metadata.cvss = some x → FromText Cvss.Cvss.fromStr x := by
    rintro f ⟨col, entries, dir, items, name, text, f₀, -, -, -, -, hf, -, rfl⟩ x hx
    obtain ⟨parts, front, t, m, v, -, -, -, -, -, hm, -⟩ := ((C68_parsed_iff _ _ _).mp hf).contents
    exact mem_fieldOpt hm.cvss x hx
  have hall : ∀ e ∈ R.warnings, ∀ w ∈ e.2, (∃ f, HasAdvisory L.adv ch f ∧ w.advisory = some f.metadata) ∨
      (w.kind = .yanked ∧ w.advisory = none) := by
    intro e he w hw
    by_cases hk : w.kind = .yanked
    · exact .inr ⟨hk, by rw [(hfc.yanked e he w hw hk).1]; rfl⟩
    · obtain ⟨f, p, i, hw', -, hf, -⟩ := (hfc.advisories w).mp ⟨⟨e, he, hw⟩, hk⟩
      exact .inl ⟨f, hf, by rw [hw']; rfl⟩
  obtain ⟨text, htext⟩ := C81_prints L F hF version R path hfc.filed (by
    intro x hx m hm cv hcv
    cases x with
    | vulnerability v =>
      obtain ⟨f, p, rfl, -, hf, -⟩ := (hfc.vulnerabilities v).mp (((mem_all R).1 v).mp hx)
      cases hm
      exact hcvss f hf cv hcv
    | warning w =>
      obtain ⟨e, he, hw⟩ := ((mem_all R).2 w).mp hx
      have hm : w.advisory = some m := hm
      rcases hall e he w hw with ⟨f, hf, e⟩ | ⟨-, e⟩
      · rw [e] at hm; cases hm; exact hcvss f hf cv hcv
      · rw [e] at hm; cases hm)
  obtain ⟨line, j, rfl, hnl, hread, hshow⟩ := C81_document L F hF version R path text htext hfc.filed (by
    intro e he w hw ha hk
    rcases hall e he w hw with ⟨f, -, e⟩ | ⟨e, -⟩
    · rw [e] at ha; cases ha
    · rw [e] at hk; cases hk)
  refine ⟨line, j, _, ?_, hnl, hread, hshow, audit_findings hfc⟩
  unfold sarifOutput
  rw [hR, Outcome.bind_ok]
  exact htext

end

/-! ## C84 -/

/-- C84: `cargo audit --format sarif` on a database and a lockfile that can be read prints one SARIF document.  It shows
the findings, with `Cargo.lock` as their place whatever file was audited, and the exit status is 1 exactly if there is a
result for a vulnerability or for a warning of a denied kind (or there is an advisory about the tool itself and warnings
are denied), else 0. -/
theorem C84_sarif (L : ReportLib) (hreq : ∀ s r, L.adv.req s = some r → ReqWF r) (F : Cvss.Fp) (hF : F.Ok) (version : Str)
    (sev : Cvss.Cvss → Severity) (env : Env)
    (cmd : AuditCommand) (c : AuditConfig) (hfmt : c.output.format = .sarif) (path : Str)
    (hloc : env.locate cmd.file = some path) (ch : Checkout) (hco : env.checkout c = some (ch.tree L.adv sev))
    (db : Db.Database) (h : Db.Database.open (ch.tree L.adv sev) = .ok db) (l : Lockfile)
    (hl : env.loadLock path = some l) (commit : Option (Str × L.Time)) :
    ∃ r n line j fs, runAudit env cmd c = (some (.sarif r), .code n) ∧
      sarifOutput L F version ch commit l r none = .ok (line ++ ['\n']) ∧ '\n' ∉ line ∧
      readJson (line ++ ['\n']) = some j ∧
      ShowsFindings L version "Cargo.lock".toList fs j ∧ AuditFindings L.adv sev env c ch l none fs ∧ (n = 0 ∨ n = 1) ∧
      (n = 1 ↔ (∃ f ∈ fs, match f with
          | .vulnerability _ => True
          | .warning w => Denied c.output.deny w.kind) ∨
        (DenyOption.warnings ∈ c.output.deny ∧ HasSelfAdvisory env db)) := by
  have hpr : Printable c l := fun e => by rw [hfmt] at e; cases e
  obtain ⟨r, out, n, hrun, hcomp, hsh, hn, hex⟩ :=
    C43_exit_status env cmd c path hloc _ hco db h (loaded_validated hreq h) l hl hpr
  cases out with
  | terminal items v d al => have := hsh.1; rw [hfmt] at this; cases this
  | json r' => have := hsh.1; rw [hfmt] at this; cases this
  | sarif r' =>
    have hr' : r' = r := hsh.2
    subst hr'
    obtain ⟨line, j, fs, h1, h2, h3, h4, h5⟩ := sarif_output F hF version h hcomp commit none
    exact ⟨r', n, line, j, fs, hrun, h1, h2, h3, h4, h5, hn, hex.trans (or_congr (findings_fail h h5) Iff.rfl)⟩

/-- C84: `cargo audit bin --format sarif` prints one such document for each binary that can be scanned; the place of the
findings is the binary. -/
theorem C84_bin_sarif (L : ReportLib) (hreq : ∀ s r, L.adv.req s = some r → ReqWF r) (F : Cvss.Fp) (hF : F.Ok)
    (version : Str) (sev : Cvss.Cvss → Severity)
    (env : Env) (c : AuditConfig) (hfmt : c.output.format = .sarif) (ch : Checkout)
    (hco : env.checkout c = some (ch.tree L.adv sev)) (db : Db.Database)
    (h : Db.Database.open (ch.tree L.adv sev) = .ok db) (ms ds : Option Nat)
    (hms : ms.getD (100 * 1024 * 1024) < 2 ^ 64) (paths : List Str)
    (hsize : ∀ path ∈ paths, ∀ content, env.readBinary path = some content → content.length < 2 ^ 64)
    (commit : Option (Str × L.Time)) :
    ∃ out n, runBin env ms ds paths c = (out, .code n) ∧
      List.Forall₂ (fun path o =>
        ((¬ ∃ f l, Scans env ms ds path f l) → o = none) ∧
        ∀ f l, Scans env ms ds path f l → ∃ r line j fs, o = some (.sarif r) ∧
          sarifOutput L F version ch commit l r (some path) = .ok (line ++ ['\n']) ∧ '\n' ∉ line ∧
          readJson (line ++ ['\n']) = some j ∧
          ShowsFindings L version path fs j ∧ AuditFindings L.adv sev env c ch l (some f) fs) paths out := by
  have hpr : ∀ path ∈ paths, ∀ f l, Scans env ms ds path f l → Printable c l :=
    fun _ _ _ _ _ e => by rw [hfmt] at e; cases e
  obtain ⟨out, n, h1, -, h2, -⟩ :=
    C43_bin_exit_status env c _ hco db h (loaded_validated hreq h) ms ds hms paths hsize hpr
  refine ⟨out, n, h1, h2.imp ?_⟩
  rintro path o ⟨g1, g2⟩
  refine ⟨g1, fun f l hs => ?_⟩
  obtain ⟨r, p, rfl, hcomp, hsh⟩ := g2 f l hs
  cases p with
  | terminal items v d al => have := hsh.1; rw [hfmt] at this; cases this
  | json r' => have := hsh.1; rw [hfmt] at this; cases this
  | sarif r' =>
    have hr' : r' = r := hsh.2
    subst hr'
    obtain ⟨line, j, fs, q1, q2, q3, q4, q5⟩ := sarif_output F hF version h hcomp commit (some path)
    exact ⟨r', line, j, fs, rfl, q1, q2, q3, q4, q5⟩

end Verif.Props
