import Verif.Props.Fix
import Verif.Props.ProjectLoad
import Verif.Spec.ProjectFix

/-!
# C105: from the texts of the files to what `cargo audit fix` does
-/

namespace Verif.Props

open Verif Verif.Semver Verif.Osv Verif.Lock Verif.Adv Verif.Audit Verif.Toml Verif.Spec Verif.Db Verif.Assign Verif.Rep
open Verif.AuditJson (withCollection)
open Verif.AdminLint (Checkout)

private theorem spec_of (U : UrlLib) (p : Package) (s : Str) : s = pkgid (semverCodec U) p ↔ SpecOf p.name p.version p.source s := by
  have h0 : pkgid (semverCodec U) p = match p.source with
      | some s => s.asUrl false ++ "#".toList ++ p.name ++ "@".toList ++ p.version.text
      | none => p.name ++ "@".toList ++ p.version.text := by
    unfold pkgid
    cases p.source with
    | none =>
      show p.name ++ '@' :: p.version.text = p.name ++ ['@'] ++ p.version.text
      rw [List.append_assoc]; rfl
    | some s =>
      show s.asUrl false ++ '#' :: p.name ++ '@' :: p.version.text = s.asUrl false ++ ['#'] ++ p.name ++ ['@'] ++ p.version.text
      simp only [List.append_assoc, List.cons_append, List.nil_append]
  rw [h0]
  cases hs : p.source with
  | none =>
    constructor
    · rintro rfl; exact .path
    · intro h; cases h; rfl
  | some src =>
    constructor
    · rintro rfl; exact .source _
    · intro h; cases h; rfl

private theorem crates_io_spec {s : SourceId} (h : IsCratesIo s) {name : Str} {v : Version} {t : Str} (ht : SpecOf name v (some s) t) :
    CratesIoSpec name v t := by
  cases ht
  rcases h with ⟨hk, hu⟩ | ⟨hk, hu⟩
  · have : s.asUrl false ++ "#".toList = "registry+https://github.com/rust-lang/crates.io-index#".toList := by
      unfold SourceId.asUrl
      rw [hk]
      dsimp only
      rw [hu]
      decide
    rw [this]
    exact .git
  · have : s.asUrl false ++ "#".toList = "sparse+https://index.crates.io/#".toList := by
      unfold SourceId.asUrl
      rw [hk]
      dsimp only
      rw [hu]
      decide
    rw [this]
    exact .sparse

section
variable {P : Project} {c : AuditConfig} {ch : Checkout} {text : Str} {l : Lockfile} {db : Database}

private theorem has_vuln (hF : P.fp.Ok) (hl : Lockfile.fromText (semverCodec P.url) Toml.read text = .ok l)
    (h : Database.open (ch.tree P.advLib P.severityOf) = .ok db) :
    HasVulnerability c db l none ↔ ∃ f, Finding P c ch text f ∧ f.metadata.informational = none := by
  rw [← concerned_iff hF hl h (· = none)]
  exact ⟨fun ⟨p, hp, a, ha, x, y, _⟩ => ⟨p, hp, a, ha, x, y⟩,
    fun ⟨p, hp, a, ha, x, y⟩ => ⟨p, hp, a, ha, x, y, fun f hf => by cases hf⟩⟩

private theorem vulns (hF : P.fp.Ok) (hl : Lockfile.fromText (semverCodec P.url) Toml.read text = .ok l)
    (h : Database.open (ch.tree P.advLib P.severityOf) = .ok db) (Q : Id → List VersionReq → Prop) :
    (∃ p ∈ l.packages, ∃ a ∈ db.iter, Concerned c p a ∧ a.metadata.informational = none ∧ Q a.metadata.id a.versions.patched) ↔
      ∃ f, Finding P c ch text f ∧ f.metadata.informational = none ∧ Q f.metadata.id f.versions.patched := by
  constructor
  · rintro ⟨p, hp, a, ha, hc, hi, hq⟩
    obtain ⟨col, txt, f, h1, h2, h3, rfl⟩ := (mem_db h a).mp ha
    have hcol : col = .crates := Option.some.inj hc.collection
    subst hcol
    exact ⟨f, ⟨p.name, p.version, (findingOf_iff hF hl f _ _).mpr ⟨p, hp, rfl, rfl, ⟨txt, h1, h2⟩, h3, hc⟩⟩, hi, hq⟩
  · rintro ⟨f, ⟨name, version, hf⟩, hi, hq⟩
    obtain ⟨p, hp, -, -, ⟨txt, h1, h2⟩, h3, hc⟩ := (findingOf_iff hF hl f _ _).mp hf
    exact ⟨p, hp, _, (mem_db h _).mpr ⟨.crates, txt, f, h1, h2, h3, rfl⟩, hc, hi, hq⟩

end

private theorem reload_ok {P : Project} {file : Option Str} {path text : Str} {l : Lockfile} (hne : path ≠ "-".toList)
    (hlt : P.lockText file path = some text) (hl : Lockfile.fromText (semverCodec P.url) Toml.read text = .ok l) :
    P.reload file path = some l := by
  unfold Project.reload Project.loadLock
  rw [if_neg hne, hlt, Option.bind_some, hl]

private theorem load_ok {P : Project} {file : Option Str} {path text : Str} {l : Lockfile}
    (hlt : P.lockText file path = some text) (hl : Lockfile.fromText (semverCodec P.url) Toml.read text = .ok l) :
    (P.env file).loadLock path = some l := by
  show P.loadLock file path = some l
  unfold Project.loadLock
  rw [hlt, Option.bind_some, hl]

private theorem path_of {P : Project} {file : Option Str} {path : Str} (h : (P.env file).locate file = some path) :
    path = file.getD "Cargo.lock".toList := by
  cases file with
  | some q => cases h; rfl
  | none =>
    unfold Env.locate at h
    dsimp only at h
    split at h
    · split at h
      · cases h; rfl
      · cases h
    · cases h; rfl

private theorem run_eq {P : Project} {S : FixSurroundings} {cmd : AuditCommand} {fix : FixCommand} {c : AuditConfig}
    (hc : Configured P cmd c) : P.runFix S cmd fix = Audit.runFix (P.fixWorld S fix.file) fix c := by
  unfold Project.runFix
  rw [(configured_iff P cmd c).mpr hc]

/-- **Property C105** (the commands): when the configuration, the lockfile and the database can be read, `cargo update` is run to fix
each vulnerability that the texts tell of and that has a patched version, and for nothing else; it is told of every package from crates.io that
is vulnerable.  The advisories called unpatchable are those without a patched version.  If a command cannot be started, the exit status
is 2; a dry run otherwise ends with 1 exactly if something is unpatchable; without vulnerabilities nothing is done. -/
theorem C105_fix (P : Project) (hF : P.fp.Ok) (S : FixSurroundings) (cmd : AuditCommand) (fix : FixCommand) (c : AuditConfig)
    (hc : Configured P cmd c) (text : Str) (ht : LockOf P fix.file text) (hstdin : fix.file ≠ some "-".toList) (l : Lockfile)
    (hl : Lockfile.fromText (semverCodec P.url) Toml.read text = .ok l) (ch : Checkout) (hch : CheckoutOf P c ch)
    (hdb : DatabaseReads P.advLib ch) (hpr : Printable c l) (dir : Option Str)
    (hdir : fix.file.map S.parentDir = dir.map some) :
    let run := P.runFix S cmd fix
    (∀ u ∈ run.commands, ∃ f, Fixable P c ch text f ∧ Fixes P fix dir text f u) ∧
    (∀ f name version, FindingOf P c ch text f name version → f.metadata.informational = none → f.versions.patched ≠ [] →
      ∃ u ∈ run.commands, Fixes P fix dir text f u ∧ ∃ s ∈ u.specs, CratesIoSpec name version s) ∧
    (∀ i, i ∈ run.unpatchable ↔ ∃ f, Unpatched P c ch text f ∧ f.metadata.id = i) ∧
    ((∃ u ∈ run.commands, S.spawns u = false) → run.exit = .code 2) ∧
    ((∀ u ∈ run.commands, S.spawns u = true) → fix.dryRun = true → ((∃ f, Unpatched P c ch text f) ∧ run.exit = .code 1 ∨
      (¬ ∃ f, Unpatched P c ch text f) ∧ run.exit = .code 0)) ∧
    ((¬ ∃ f, Finding P c ch text f ∧ f.metadata.informational = none) → run = { exit := .code 0 }) := by
  classical
  intro run
  have hrun : run = Audit.runFix (P.fixWorld S fix.file) fix c := run_eq hc
  obtain ⟨db, hdb⟩ := (C91_database P ch).mpr hdb
  obtain ⟨path, hloc, hlt⟩ := lockOf_locate ht
  have hne : path ≠ "-".toList := by
    rw [path_of hloc]
    intro h
    cases hf : fix.file with
    | none => rw [hf] at h; exact absurd h (by decide)
    | some q => rw [hf] at h hstdin; exact hstdin (congrArg some h)
  have hval := C90_validated (L := P.advLib) rfl hdb
  obtain ⟨r, hcomp, h1, h2, h3, h4, h5⟩ := C46_fix (P.fixWorld S fix.file) fix c path hloc _ (checkoutOf_env hch fix.file) db hdb hval l
    (load_ok hlt hl) hpr (reload_ok hne hlt hl) dir hdir
  rw [← hrun] at h1 h2 h3 h4 h5
  have hfix : ∀ (f : AdvisoryFile) (p : Package), p.name = f.metadata.package →
      Fixes P fix dir text f ⟨fix.dryRun, (l.packages.filter fun q => decide (q.name =
        (Vulnerability.new (toAdvisory P.severityOf (withCollection .crates f)) p).package.name ∧
          HitBy (Vulnerability.new (toAdvisory P.severityOf (withCollection .crates f)) p) q.version)).map (pkgid (P.env fix.file).codec),
        dir⟩ := by
    intro f p hp
    refine ⟨rfl, rfl, fun s => ?_⟩
    simp only [List.mem_map, List.mem_filter, decide_eq_true_iff]
    constructor
    · rintro ⟨q, ⟨hq, hn, hx⟩, rfl⟩
      have hn' : q.name = f.metadata.package := hn.trans hp
      refine ⟨q.version, q.source, (C91_packages _ _ _ hl _ _ _).mp ⟨q, hq, hn', rfl, rfl⟩, hx, ?_⟩
      rw [← hn']
      exact (spec_of P.url q _).mp rfl
    · rintro ⟨version, source, hlk, hx, hs⟩
      obtain ⟨q, hq, hn, rfl, rfl⟩ := (C91_packages _ _ _ hl _ _ _).mpr hlk
      refine ⟨q, ⟨hq, hn.trans hp.symm, hx⟩, ?_⟩
      rw [← hn] at hs
      exact ((spec_of P.url q _).mpr hs).symm
  have hmem : ∀ v, v ∈ r.vulnerabilities.list ↔ ∃ f p txt, p ∈ l.packages ∧ HasFile ch .crates txt ∧ AdvisoryOf P.advLib txt f ∧
      FindingOf P c ch text f p.name p.version ∧ f.metadata.informational = none ∧
      Concerned c p (toAdvisory P.severityOf (withCollection .crates f)) ∧
      v = Vulnerability.new (toAdvisory P.severityOf (withCollection .crates f)) p := by
    intro v
    rw [hcomp.vulnerabilities]
    constructor
    · rintro ⟨p, hp, a, ha, rfl, hcon, hi, -⟩
      obtain ⟨col, txt, f, a1, a2, a3, rfl⟩ := (mem_db hdb a).mp ha
      have hcol : col = .crates := Option.some.inj hcon.collection
      subst hcol
      exact ⟨f, p, txt, hp, a1, a2, (findingOf_iff hF hl f _ _).mpr ⟨p, hp, rfl, rfl, ⟨txt, a1, a2⟩, a3, hcon⟩, hi, hcon, rfl⟩
    · rintro ⟨f, p, txt, hp, a1, a2, hfo, hi, hcon, rfl⟩
      obtain ⟨-, -, -, -, -, a3, -⟩ := (findingOf_iff hF hl f _ _).mp hfo
      exact ⟨p, hp, _, (mem_db hdb _).mpr ⟨.crates, txt, f, a1, a2, a3, rfl⟩, rfl, hcon, hi, fun f hf => by cases hf⟩
  have hunp : (∃ v ∈ r.vulnerabilities.list, v.versions.patched = []) ↔ ∃ f, Unpatched P c ch text f := by
    constructor
    · rintro ⟨v, hv, hp⟩
      obtain ⟨f, p, txt, -, -, -, hfo, hi, -, rfl⟩ := (hmem v).mp hv
      exact ⟨f, ⟨_, _, hfo⟩, hi, hp⟩
    · rintro ⟨f, ⟨name, version, hfo⟩, hi, hp⟩
      obtain ⟨p, hp', rfl, rfl, ⟨txt, a1, a2⟩, -, hcon⟩ := (findingOf_iff hF hl f _ _).mp hfo
      exact ⟨_, (hmem _).mpr ⟨f, p, txt, hp', a1, a2, hfo, hi, hcon, rfl⟩, hp⟩
  refine ⟨fun u hu => ?_, fun f name version hfo hi hpa => ?_, fun i => ?_, h3, fun hs hd => ?_, fun hno => ?_⟩
  · rw [h1] at hu
    obtain ⟨v, hv, rfl⟩ := List.mem_map.mp hu
    obtain ⟨hv, hpa⟩ := List.mem_filter.mp hv
    rw [decide_eq_true_iff] at hpa
    obtain ⟨f, p, txt, -, -, -, hfo, hi, hcon, rfl⟩ := (hmem v).mp hv
    exact ⟨f, ⟨⟨_, _, hfo⟩, hi, hpa⟩, hfix f p hcon.name.symm⟩
  · obtain ⟨p, hp', rfl, rfl, ⟨txt, a1, a2⟩, -, hcon⟩ := (findingOf_iff hF hl f _ _).mp hfo
    refine ⟨_, ?_, hfix f p hcon.name.symm, pkgid (P.env fix.file).codec p, ?_, ?_⟩
    · rw [h1]
      exact List.mem_map_of_mem (List.mem_filter.mpr ⟨(hmem _).mpr ⟨f, p, txt, hp', a1, a2, hfo, hi, hcon, rfl⟩, decide_eq_true hpa⟩)
    · exact List.mem_map_of_mem (List.mem_filter.mpr ⟨hp', decide_eq_true ⟨rfl, hcon.exposed⟩⟩)
    · obtain ⟨s, hs, hio⟩ := hcon.cratesIo
      refine crates_io_spec hio ?_
      rw [← hs]
      exact (spec_of P.url p _).mp rfl
  · rw [h2, List.mem_map]
    constructor
    · rintro ⟨v, hv, rfl⟩
      obtain ⟨hv, hpa⟩ := List.mem_filter.mp hv
      rw [decide_eq_true_iff] at hpa
      obtain ⟨f, p, txt, -, -, -, hfo, hi, hcon, rfl⟩ := (hmem v).mp hv
      exact ⟨f, ⟨⟨_, _, hfo⟩, hi, hpa⟩, rfl⟩
    · rintro ⟨f, ⟨⟨name, version, hfo⟩, hi, hpa⟩, rfl⟩
      obtain ⟨p, hp', rfl, rfl, ⟨txt, a1, a2⟩, -, hcon⟩ := (findingOf_iff hF hl f _ _).mp hfo
      exact ⟨_, List.mem_filter.mpr ⟨(hmem _).mpr ⟨f, p, txt, hp', a1, a2, hfo, hi, hcon, rfl⟩, decide_eq_true hpa⟩, rfl⟩
  · have := h4 hs hd
    by_cases hu : ∃ f, Unpatched P c ch text f
    · rw [if_pos (hunp.mpr hu)] at this
      exact .inl ⟨hu, this⟩
    · rw [if_neg (fun h => hu (hunp.mp h))] at this
      exact .inr ⟨hu, this⟩
  · refine h5 (List.eq_nil_iff_forall_not_mem.mpr fun v hv => hno ?_)
    obtain ⟨f, p, txt, -, -, -, hfo, hi, -, rfl⟩ := (hmem v).mp hv
    exact ⟨f, ⟨_, _, hfo⟩, hi⟩

/-- **Property C105** (afterwards): when all commands could be started and it is not a dry run, the files are read again.  The IDs that
are warned about are those of the vulnerabilities that the texts tell of now, except those that were unpatchable before; the
number of remaining vulnerabilities is 0 exactly if the texts tell of none; and the exit status is 0 in any case. -/
theorem C105_after (P : Project) (hF : P.fp.Ok) (S : FixSurroundings) (cmd : AuditCommand) (fix : FixCommand) (c : AuditConfig)
    (hc : Configured P cmd c) (text : Str) (ht : LockOf P fix.file text) (hstdin : fix.file ≠ some "-".toList) (l : Lockfile)
    (hl : Lockfile.fromText (semverCodec P.url) Toml.read text = .ok l) (ch : Checkout) (hch : CheckoutOf P c ch)
    (hdb : DatabaseReads P.advLib ch) (hpr : Printable c l) (dir : Option Str)
    (hdir : fix.file.map S.parentDir = dir.map some)
    (hv : ∃ f, Finding P c ch text f ∧ f.metadata.informational = none)
    (hspawn : ∀ u ∈ (P.runFix S cmd fix).commands, S.spawns u = true) (hdry : fix.dryRun = false)
    (P' : Project) (hP' : S.after (P.runFix S cmd fix).commands = P') (hF' : P'.fp.Ok) (text' : Str) (ht' : LockOf P' fix.file text')
    (l' : Lockfile) (hl' : Lockfile.fromText (semverCodec P'.url) Toml.read text' = .ok l') (ch' : Checkout)
    (hch' : CheckoutOf P' c ch') (hdb' : DatabaseReads P'.advLib ch') (hpr' : Printable c l') :
    let run := P.runFix S cmd fix
    run.exit = .code 0 ∧ ∃ unfixed fixed remaining, run.unfixed = some unfixed ∧ run.counts = some (fixed, remaining) ∧
      (remaining = 0 ↔ ¬ ∃ f, Finding P' c ch' text' f ∧ f.metadata.informational = none) ∧
      (∀ i, i ∈ unfixed ↔ (∃ f, Finding P' c ch' text' f ∧ f.metadata.informational = none ∧ f.metadata.id = i) ∧
        ¬ ∃ f, Unpatched P c ch text f ∧ f.metadata.id = i) := by
  intro run
  have hrun : run = Audit.runFix (P.fixWorld S fix.file) fix c := run_eq hc
  obtain ⟨db, hdb⟩ := (C91_database P ch).mpr hdb
  obtain ⟨db', hdb'⟩ := (C91_database P' ch').mpr hdb'
  obtain ⟨path, hloc, hlt⟩ := lockOf_locate ht
  obtain ⟨path', hloc', hlt'⟩ := lockOf_locate ht'
  have hpath : path' = path := (path_of hloc').trans (path_of hloc).symm
  subst hpath
  have hne : path' ≠ "-".toList := by
    rw [path_of hloc]
    intro h
    cases hf : fix.file with
    | none => rw [hf] at h; exact absurd h (by decide)
    | some q => rw [hf] at h hstdin; exact hstdin (congrArg some h)
  have hafter : (P.fixWorld S fix.file).after run.commands = P'.env fix.file := by
    show (S.after run.commands).env fix.file = _
    rw [hP']
  obtain ⟨h1, unfixed, fixed, remaining, h2, h3, h4, h5⟩ := C46_after (P.fixWorld S fix.file) fix c path' hloc _
    (checkoutOf_env hch fix.file) db hdb (C90_validated (L := P.advLib) rfl hdb) l (load_ok hlt hl) hpr (reload_ok hne hlt hl) dir hdir
    ((has_vuln hF hl hdb).mpr hv) (by rw [← hrun]; exact hspawn) hdry _
    (by rw [← hrun, hafter]; exact checkoutOf_env hch' fix.file) db' hdb' (C90_validated (L := P'.advLib) rfl hdb') l'
    (by rw [← hrun, hafter]; exact load_ok hlt' hl') hpr'
  rw [← hrun] at h1 h2 h3
  refine ⟨h1, unfixed, fixed, remaining, h2, h3, ?_, fun i => ?_⟩
  · rw [h4, has_vuln hF' hl' hdb']
  · rw [h5]
    have hq := vulns (c := c) hF hl hdb fun id pa => id = i ∧ pa = []
    have hq' := vulns (c := c) hF' hl' hdb' fun id _ => id = i ∧
      ¬ ∃ q ∈ l.packages, ∃ b ∈ db.iter, Concerned c q b ∧ b.metadata.informational = none ∧ b.metadata.id = i ∧ b.versions.patched = []
    rw [hq', hq]
    constructor
    · rintro ⟨f, a, b, d, e⟩
      exact ⟨⟨f, a, b, d⟩, fun ⟨g, ⟨g1, g2, g3⟩, g4⟩ => e ⟨g, g1, g2, g4, g3⟩⟩
    · rintro ⟨⟨f, a, b, d⟩, e⟩
      exact ⟨f, a, b, d, fun ⟨g, g1, g2, g4, g3⟩ => e ⟨g, ⟨g1, g2, g3⟩, g4⟩⟩

end Verif.Props
