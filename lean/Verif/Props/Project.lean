import Verif.Spec.Project
import Verif.Props.SemverLib
import Verif.Props.CvssV4Score
import Verif.Props.CvssV2Score
import Verif.Props.CvssV3Score
import Verif.Props.ConfigFile

/-!
# C91: from the texts of the files to the verdict
-/

namespace Verif.Props

open Verif Verif.Semver Verif.Osv Verif.Lock Verif.Adv Verif.Db Verif.Rep Verif.RepJson Verif.Audit Verif.Spec Verif.Toml
  Verif.Assign Verif.AuditJson
open Verif.AdminLint (Checkout)

/-! ### The packages of a lockfile's text -/

/-- What a package table says. -/
def TableLocks (U : UrlLib) (t : Table) (name : Str) (version : Version) (source : Option SourceId) : Prop :=
  ∃ v, t.lookup "name".toList = some (.str name) ∧ t.lookup "version".toList = some (.str v) ∧
    readVersion v = some version ∧ NamesSource U t source

theorem tableLocks_unique {U : UrlLib} {t : Table} {n n' : Str} {v v' : Version} {s s' : Option SourceId}
    (h : TableLocks U t n v s) (h' : TableLocks U t n' v' s') : n = n' ∧ v = v' ∧ s = s' := by
  obtain ⟨w, h1, h2, h3, h4⟩ := h
  obtain ⟨w', h1', h2', h3', h4'⟩ := h'
  rw [h1] at h1'; cases h1'
  rw [h2] at h2'; cases h2'
  rw [h3] at h3'; cases h3'
  refine ⟨rfl, rfl, ?_⟩
  rcases h4 with ⟨a, b⟩ | ⟨tx, x, a, b, c⟩ <;> rcases h4' with ⟨a', b'⟩ | ⟨tx', x', a', b', c'⟩
  · rw [b, b']
  · rw [a] at a'; cases a'
  · rw [a] at a'; cases a'
  · rw [a] at a'; cases a'
    rw [b] at b'; cases b'
    rw [c, c']

theorem encPackage_kept {p : EncPackage} {ps : List EncPackage} {q : Package} (h : p.resolve ps = .ok q) :
    q.name = p.name ∧ q.version = p.version ∧ q.source = p.source := by
  unfold EncPackage.resolve at h
  obtain ⟨ds, -, h⟩ := bindOk h
  obtain ⟨r, -, h⟩ := bindOk h
  cases h
  exact ⟨rfl, rfl, rfl⟩

theorem decodePackage_kept {C : Codec} {l : EncLockfile} {v : ResolveVersion} {p : EncPackage} {q : Package}
    (h : decodePackage C l v p = .ok q) : q.name = p.name ∧ q.version = p.version ∧ q.source = p.source := by
  unfold decodePackage at h
  split at h
  · obtain ⟨r, hr, h⟩ := bindOk h
    obtain ⟨c, -, h⟩ := bindOk h
    cases h
    obtain ⟨h1, h2, h3⟩ := encPackage_kept hr
    exact ⟨h1, h2, h3⟩
  · exact encPackage_kept h

theorem package_table {U : UrlLib} {val : Value} {d : PkgDoc} {e : EncPackage} (hd : PkgDoc.ofValue val = .ok d)
    (he : d.read (semverCodec U) = .ok e) : ∃ t, val = .table t ∧ TableLocks U t e.name e.version e.source := by
  cases val with
  | table t =>
    refine ⟨t, rfl, ?_⟩
    unfold PkgDoc.ofValue at hd
    obtain ⟨n, hn, hd⟩ := bindOk hd
    obtain ⟨v, hv, hd⟩ := bindOk hd
    obtain ⟨s, hs, hd⟩ := bindOk hd
    obtain ⟨_, -, hd⟩ := bindOk hd
    obtain ⟨_, -, hd⟩ := bindOk hd
    obtain ⟨_, -, hd⟩ := bindOk hd
    cases hd
    unfold PkgDoc.read at he
    obtain ⟨v', hv', he⟩ := bindOk he
    obtain ⟨s', hs', he⟩ := bindOk he
    obtain ⟨_, -, he⟩ := bindOk he
    obtain ⟨_, -, he⟩ := bindOk he
    obtain ⟨_, -, he⟩ := bindOk he
    cases he
    obtain ⟨x, hx, hx'⟩ := (needed_iff asStr_iff t "name" n).mp hn
    obtain ⟨y, hy, hy'⟩ := (needed_iff asStr_iff t "version" v).mp hv
    cases hx'
    cases hy'
    refine ⟨v, hx, hy, parseVersionO_ok hv', ?_⟩
    rcases (optionally_iff asStr_iff t "source" s).mp hs with ⟨h1, rfl⟩ | ⟨z, tx, h1, rfl, h2⟩
    · cases hs'; exact .inl ⟨h1, rfl⟩
    · cases h2
      unfold readOpt at hs'
      simp only at hs'
      cases hf : SourceId.fromUrl (semverCodec U).url tx with
      | ok x => rw [hf] at hs'; cases hs'; exact .inr ⟨tx, x, h1, hf, rfl⟩
      | err => rw [hf] at hs'; cases hs'
      | panic => rw [hf] at hs'; cases hs'
  | str | int | bool | arr => cases hd

/-- **Property C91** (packages): the packages of a lockfile are those its text has tables for: name, version and source are as
written there. -/
theorem C91_packages (U : UrlLib) (text : Str) (l : Lockfile)
    (h : Lockfile.fromText (semverCodec U) Toml.read text = .ok l) (name : Str) (version : Version)
    (source : Option SourceId) :
    (∃ p ∈ l.packages, p.name = name ∧ p.version = version ∧ p.source = source) ↔ Locks U text name version source := by
  unfold Lockfile.fromText at h
  split at h
  · cases h
  · rename_i doc hdoc
    obtain ⟨d, hd, h⟩ := bindOk h
    unfold LockDoc.ofTable at hd
    obtain ⟨_, -, hd⟩ := bindOk hd
    obtain ⟨pkgs, hpkgs, hd⟩ := bindOk hd
    obtain ⟨_, -, hd⟩ := bindOk hd
    obtain ⟨_, -, hd⟩ := bindOk hd
    obtain ⟨_, -, hd⟩ := bindOk hd
    cases hd
    unfold Lockfile.parse at h
    obtain ⟨raw, hraw, h⟩ := bindOk h
    unfold LockDoc.read at hraw
    obtain ⟨ps, hps, hraw⟩ := bindOk hraw
    obtain ⟨rt, -, hraw⟩ := bindOk hraw
    obtain ⟨pt, -, hraw⟩ := bindOk hraw
    cases hraw
    unfold EncLockfile.decode at h
    obtain ⟨rv, -, h⟩ := bindOk h
    obtain ⟨qs, hqs, h⟩ := bindOk h
    obtain ⟨rt', -, h⟩ := bindOk h
    cases h
    have h1 := (mapList_iff _ _ _).mp hps
    have h2 := (mapList_iff _ _ _).mp hqs
    dsimp only at h1 h2 ⊢
    rcases (orDefault_iff (R := IsList fun v p => PkgDoc.ofValue v = .ok p)
        (asArr_iff (f := PkgDoc.ofValue) fun v a => Iff.rfl) doc "package" [] pkgs).mp hpkgs with ⟨hk, rfl⟩ | ⟨val, hk, vs, rfl, h0⟩
    · cases h1
      cases h2
      constructor
      · rintro ⟨p, hp, -⟩; cases hp
      · rintro ⟨doc', tables, t, v, hdoc', hk', -⟩
        rw [hdoc] at hdoc'; cases hdoc'
        rw [hk] at hk'; cases hk'
    · constructor
      · rintro ⟨p, hp, rfl, rfl, rfl⟩
        obtain ⟨e, he, hpe⟩ := forall2_right h2 p hp
        obtain ⟨pd, hpd, hde⟩ := forall2_right h1 e he
        obtain ⟨val, hval, hvd⟩ := forall2_right h0 pd hpd
        obtain ⟨t, rfl, ht⟩ := package_table hvd hde
        obtain ⟨k1, k2, k3⟩ := decodePackage_kept hpe
        rw [← k1, ← k2, ← k3] at ht
        obtain ⟨v, t1, t2, t3, t4⟩ := ht
        exact ⟨doc, vs, t, v, hdoc, hk, hval, t1, t2, t3, t4⟩
      · rintro ⟨doc', tables, t, v, hdoc', hk', ht, t1, t2, t3, t4⟩
        rw [hdoc] at hdoc'; cases hdoc'
        rw [hk] at hk'; cases hk'
        obtain ⟨pd, hpd, hvd⟩ := forall2_left h0 ht
        obtain ⟨e, he, hde⟩ := forall2_left h1 hpd
        obtain ⟨p, hp, hpe⟩ := forall2_left h2 he
        obtain ⟨t', ht', hl⟩ := package_table hvd hde
        cases ht'
        obtain ⟨k1, k2, k3⟩ := decodePackage_kept hpe
        obtain ⟨u1, u2, u3⟩ := tableLocks_unique hl ⟨v, t1, t2, t3, t4⟩
        exact ⟨p, hp, k1.trans u1, k2.trans u2, k3.trans u3⟩

/-! ### The advisories of a checkout -/

theorem hasAdvisory_iff (L : AdvLib) (ch : Checkout) (f : AdvisoryFile) :
    HasAdvisory L ch f ↔ ∃ col text f₀, HasFile ch col text ∧ AdvisoryOf L text f₀ ∧
      f₀.metadata.id.string ≠ "RUSTSEC-0000-0000".toList ∧ f = withCollection col f₀ := by
  constructor
  · rintro ⟨col, entries, dir, items, name, text, f₀, h1, h2, h3, h4, h5, h6, rfl⟩
    exact ⟨col, text, f₀, ⟨entries, dir, items, name, h1, h2, h3, h4⟩, (C68_parsed_iff L text f₀).mp h5, h6, rfl⟩
  · rintro ⟨col, text, f₀, ⟨entries, dir, items, name, h1, h2, h3, h4⟩, h5, h6, rfl⟩
    exact ⟨col, entries, dir, items, name, text, f₀, h1, h2, h3, h4, (C68_parsed_iff L text f₀).mpr h5, h6, rfl⟩

/-- A vector that was parsed has the severity that the documents give it, and no other. -/
theorem rated_iff (P : Project) (hF : P.fp.Ok) {t : Str} {v : Cvss.Cvss} (h : Cvss.Cvss.fromStr t = .ok v) (s : Severity) :
    Rated v s ↔ P.severityOf v = s := by
  have huniq : ∀ {k : ℤ} {s s' : Severity}, Cvss.Spec.Band k s → Cvss.Spec.Band k s' → s = s' := by
    intro k s s' a b
    rcases a with ⟨rfl, a⟩ | ⟨rfl, a⟩ | ⟨rfl, a⟩ | ⟨rfl, a⟩ | ⟨rfl, a⟩ <;>
      rcases b with ⟨rfl, b⟩ | ⟨rfl, b⟩ | ⟨rfl, b⟩ | ⟨rfl, b⟩ | ⟨rfl, b⟩ <;> first | rfl | omega
  have huniq2 : ∀ {k : ℤ} {s s' : Severity}, Cvss.Spec.BandV2 k s → Cvss.Spec.BandV2 k s' → s = s' := by
    intro k s s' a b
    rcases a with ⟨rfl, a⟩ | ⟨rfl, a⟩ | ⟨rfl, a⟩ <;>
      rcases b with ⟨rfl, b⟩ | ⟨rfl, b⟩ | ⟨rfl, b⟩ <;> first | rfl | omega
  unfold Project.severityOf
  cases v with
  | v20 v =>
    have := Cvss.C37_v2 P.fp hF v
    exact ⟨fun hr => huniq2 this hr, fun hr => hr ▸ this⟩
  | v30 b =>
    have := Cvss.C37_v3 P.fp hF b
    exact ⟨fun hr => huniq this hr, fun hr => hr ▸ this⟩
  | v31 b =>
    have := Cvss.C37_v3 P.fp hF b
    exact ⟨fun hr => huniq this hr, fun hr => hr ▸ this⟩
  | v40 w =>
    have hm := (Cvss.V4.hasBase_iff w).mp ((Cvss.C35_parse_iff t w).mp ((Cvss.C59_parse_iff t _).mp h)).2.1
    obtain ⟨e, sv, h1, h2, h3⟩ := Cvss.C37_v4 P.fp hF w hm
    show (∃ e, Cvss.Spec.v4Eff w.metrics = some e ∧ Cvss.Spec.Band e.tenths s) ↔
      (match w.severity P.fp with | .ok s => s | _ => .none) = s
    rw [h2]
    constructor
    · rintro ⟨e', h1', h3'⟩
      rw [h1] at h1'; cases h1'
      exact huniq h3 h3'
    · intro hr
      have hr : sv = s := hr
      exact ⟨e, h1, hr ▸ h3⟩

/-- The CVSS vector of an advisory was parsed. -/
theorem cvss_parsed {L : AdvLib} {text : Str} {f : AdvisoryFile} (h : AdvisoryOf L text f) {v : Cvss.Cvss}
    (hv : f.metadata.cvss = some v) : ∃ t, Cvss.Cvss.fromStr t = .ok v := by
  obtain ⟨parts, front, t, m, w, -, -, -, -, -, hm, -⟩ := h.contents
  have hc := hm.cvss
  rw [hv] at hc
  obtain ⟨s, -, hp⟩ := hc
  exact ⟨s, hp⟩

section
variable {P : Project} {c : AuditConfig} {ch : Checkout} {db : Database} {text : Str} {l : Lockfile}

theorem mem_db (h : Database.open (ch.tree P.advLib P.severityOf) = .ok db) (a : Advisory) :
    a ∈ db.iter ↔ ∃ col text f₀, HasFile ch col text ∧ AdvisoryOf P.advLib text f₀ ∧
      f₀.metadata.id.string ≠ "RUSTSEC-0000-0000".toList ∧ a = toAdvisory P.severityOf (withCollection col f₀) := by
  rw [loaded_eq h, List.mem_map]
  constructor
  · rintro ⟨f, hf, rfl⟩
    rw [mem_loadedFiles, hasAdvisory_iff] at hf
    obtain ⟨col, text, f₀, h1, h2, h3, rfl⟩ := hf
    exact ⟨col, text, f₀, h1, h2, h3, rfl⟩
  · rintro ⟨col, text, f₀, h1, h2, h3, rfl⟩
    refine ⟨withCollection col f₀, ?_, rfl⟩
    rw [mem_loadedFiles, hasAdvisory_iff]
    exact ⟨col, text, f₀, h1, h2, h3, rfl⟩

/-- An advisory concerns a locked package exactly if their texts say so. -/
theorem findingOf_iff (hF : P.fp.Ok) (hl : Lockfile.fromText (semverCodec P.url) Toml.read text = .ok l) (f : AdvisoryFile)
    (name : Str) (version : Version) :
    FindingOf P c ch text f name version ↔ ∃ p ∈ l.packages, p.name = name ∧ p.version = version ∧
      (∃ txt, HasFile ch .crates txt ∧ AdvisoryOf P.advLib txt f) ∧ f.metadata.id.string ≠ "RUSTSEC-0000-0000".toList ∧
      Concerned c p (toAdvisory P.severityOf (withCollection .crates f)) := by
  constructor
  · rintro ⟨s, txt, hlk, hio, hf, hof, ht⟩
    obtain ⟨p, hp, hn, hv, hs⟩ := (C91_packages _ _ _ hl _ _ _).mpr hlk
    refine ⟨p, hp, hn, hv, ⟨txt, hf, hof⟩, ht.notDraft, ?_⟩
    refine ⟨⟨s, hs, hio⟩, ht.name.trans hn.symm, ?_, ⟨s, hs, ht.registry⟩, rfl, ht.current, ?_, ht.arch, ht.os, ht.notIgnored⟩
    · rw [hv]; exact ht.exposed
    · intro th sv hth hsv
      obtain ⟨cv, hcv, rfl⟩ := Option.map_eq_some_iff.mp hsv
      obtain ⟨t, hp⟩ := cvss_parsed hof hcv
      exact ht.severity th cv _ hth hcv ((rated_iff P hF hp _).mpr rfl)
  · rintro ⟨p, hp, rfl, rfl, ⟨txt, h1, h2⟩, h3, hc⟩
    obtain ⟨s, hs, hio⟩ := hc.cratesIo
    refine ⟨s, txt, (C91_packages _ _ _ hl _ _ _).mp ⟨p, hp, rfl, rfl, hs⟩, hio, h1, h2, ?_⟩
    obtain ⟨s', hs', hr⟩ := hc.registry
    rw [hs] at hs'; cases hs'
    refine ⟨h3, hc.name, hc.exposed, hr, hc.current, ?_, hc.arch, hc.os, hc.notIgnored⟩
    intro th cv sv hth hcv hr
    refine hc.severity th _ hth ?_
    show f.metadata.cvss.map P.severityOf = _
    obtain ⟨t, ht⟩ := cvss_parsed h2 hcv
    rw [hcv, ← (rated_iff P hF ht sv).mp hr]; rfl

/-- The same for the advisories of the loaded database. -/
theorem concerned_iff (hF : P.fp.Ok) (hl : Lockfile.fromText (semverCodec P.url) Toml.read text = .ok l)
    (h : Database.open (ch.tree P.advLib P.severityOf) = .ok db) (Q : Option Informational → Prop) :
    (∃ p ∈ l.packages, ∃ a ∈ db.iter, Concerned c p a ∧ Q a.metadata.informational) ↔
      ∃ f, Finding P c ch text f ∧ Q f.metadata.informational := by
  constructor
  · rintro ⟨p, hp, a, ha, hc, hq⟩
    obtain ⟨col, txt, f, h1, h2, h3, rfl⟩ := (mem_db h a).mp ha
    have hcol : col = .crates := Option.some.inj hc.collection
    subst hcol
    exact ⟨f, ⟨p.name, p.version, (findingOf_iff hF hl f _ _).mpr ⟨p, hp, rfl, rfl, ⟨txt, h1, h2⟩, h3, hc⟩⟩, hq⟩
  · rintro ⟨f, ⟨name, version, hf⟩, hq⟩
    obtain ⟨p, hp, -, -, ⟨txt, h1, h2⟩, h3, hc⟩ := (findingOf_iff hF hl f _ _).mp hf
    exact ⟨p, hp, _, (mem_db h _).mpr ⟨.crates, txt, f, h1, h2, h3, rfl⟩, hc, hq⟩

theorem toolAdvisory_iff (file : Option Str) (h : Database.open (ch.tree P.advLib P.severityOf) = .ok db) :
    HasSelfAdvisory (P.env file) db ↔ ToolAdvisory P ch := by
  constructor
  · rintro ⟨a, ha, hcol, hw, hi, hx⟩
    obtain ⟨col, txt, f, h1, h2, h3, rfl⟩ := (mem_db h a).mp ha
    have hcol : col = .crates := Option.some.inj hcol
    subst hcol
    exact ⟨txt, f, h1, h2, h3, hw, hi, hx⟩
  · rintro ⟨txt, f, h1, h2, h3, hw, hi, hx⟩
    exact ⟨_, (mem_db h _).mpr ⟨.crates, txt, f, h1, h2, h3, rfl⟩, rfl, hw, hi, hx⟩

theorem yankedOf_iff (file : Option Str) (hl : Lockfile.fromText (semverCodec P.url) Toml.read text = .ok l) (name : Str)
    (version : Version) :
    (∃ p ∈ l.packages, p.name = name ∧ p.version = version ∧ SaidYanked (P.env file) c p) ↔
      YankedOf P file c text name version := by
  constructor
  · rintro ⟨p, hp, rfl, rfl, ⟨s, hs, hio⟩, kind, hk, vs, hvs, hy⟩
    exact ⟨s, (C91_packages _ _ _ hl _ _ _).mp ⟨p, hp, rfl, rfl, hs⟩, hio, kind, hk, vs, hvs, hy⟩
  · rintro ⟨s, hlk, hio, kind, hk, vs, hvs, hy⟩
    obtain ⟨p, hp, rfl, rfl, hs⟩ := (C91_packages _ _ _ hl _ _ _).mpr hlk
    exact ⟨p, hp, rfl, rfl, ⟨s, hs, hio⟩, kind, hk, vs, hvs, hy⟩

theorem yankedPackage_iff (file : Option Str) (hl : Lockfile.fromText (semverCodec P.url) Toml.read text = .ok l) :
    (∃ p ∈ l.packages, SaidYanked (P.env file) c p) ↔ YankedPackage P file c text := by
  constructor
  · rintro ⟨p, hp, h⟩
    exact ⟨_, _, (yankedOf_iff file hl _ _).mp ⟨p, hp, rfl, rfl, h⟩⟩
  · rintro ⟨name, version, h⟩
    obtain ⟨p, hp, -, -, h⟩ := (yankedOf_iff file hl _ _).mpr h
    exact ⟨p, hp, h⟩

theorem damning_iff (hF : P.fp.Ok) (file : Option Str) (hl : Lockfile.fromText (semverCodec P.url) Toml.read text = .ok l)
    (h : Database.open (ch.tree P.advLib P.severityOf) = .ok db) :
    (Fails (P.env file) c db l none ∨ (DenyOption.warnings ∈ c.output.deny ∧ HasSelfAdvisory (P.env file) db)) ↔
      Damning P file c ch text := by
  have hrel : ∀ a, Relevant none a := fun a f hf => by cases hf
  have h1 : HasVulnerability c db l none ↔ ∃ f, Finding P c ch text f ∧ f.metadata.informational = none := by
    rw [← concerned_iff hF hl h (· = none)]
    exact ⟨fun ⟨p, hp, a, ha, x, y, _⟩ => ⟨p, hp, a, ha, x, y⟩, fun ⟨p, hp, a, ha, x, y⟩ => ⟨p, hp, a, ha, x, y, hrel a⟩⟩
  have h2 : HasDeniedAdvisory c db l none ↔
      ∃ f i k, Finding P c ch text f ∧ f.metadata.informational = some i ∧ WarnsAs i k ∧ Denied c.output.deny k := by
    have := concerned_iff (c := c) hF hl h fun o => ∃ i k, o = some i ∧ WarnsAs i k ∧ Denied c.output.deny k
    constructor
    · rintro ⟨p, hp, a, ha, i, k, x, y, _, z⟩
      obtain ⟨f, hf, i, k, w⟩ := this.mp ⟨p, hp, a, ha, x, i, k, y, z⟩
      exact ⟨f, i, k, hf, w⟩
    · rintro ⟨f, i, k, hf, w⟩
      obtain ⟨p, hp, a, ha, x, i, k, y, z⟩ := this.mpr ⟨f, hf, i, k, w⟩
      exact ⟨p, hp, a, ha, i, k, x, y, hrel a, z⟩
  unfold Fails Damning
  rw [h1, h2, toolAdvisory_iff file h, HasDeniedYanked, yankedPackage_iff file hl, or_assoc, or_assoc]

end

/-! ### The run -/

theorem lockOf_locate {P : Project} {file : Option Str} {text : Str} (h : LockOf P file text) :
    ∃ path, (P.env file).locate file = some path ∧ P.lockText file path = some text := by
  have hne : ("Cargo.lock".toList : Str) ≠ "-".toList := by decide
  cases h with
  | stdin h => exact ⟨"-".toList, rfl, by unfold Project.lockText; rw [if_pos rfl]; exact h⟩
  | @named path _ hp h =>
    refine ⟨path, rfl, ?_⟩
    unfold Project.lockText Project.generates
    rw [if_neg hp, if_neg (by simp)]
    exact h
  | found h hg =>
    refine ⟨"Cargo.lock".toList, ?_, ?_⟩
    · show (if (!P.pathExists "Cargo.lock".toList && P.pathExists "Cargo.toml".toList) = true then
        (if P.generated.isSome = true then some "Cargo.lock".toList else none) else some "Cargo.lock".toList) = _
      rw [if_neg]
      rcases hg with hg | hg <;> rw [hg] <;> first | exact Bool.false_ne_true | (rw [Bool.and_false]; exact Bool.false_ne_true)
    · unfold Project.lockText Project.generates
      rw [if_neg hne, if_neg]
      · exact h
      · rintro ⟨hb, -⟩
        rcases hg with hg | hg <;> rw [hg] at hb
        · exact Bool.false_ne_true hb
        · rw [Bool.and_false] at hb; exact Bool.false_ne_true hb
  | generated h h1 h2 =>
    refine ⟨"Cargo.lock".toList, ?_, ?_⟩
    · show (if (!P.pathExists "Cargo.lock".toList && P.pathExists "Cargo.toml".toList) = true then
        (if P.generated.isSome = true then some "Cargo.lock".toList else none) else some "Cargo.lock".toList) = _
      rw [h1, h2, h]; rfl
    · unfold Project.lockText Project.generates
      rw [if_neg hne, if_pos]
      · exact h
      · rw [h1, h2]; exact ⟨rfl, rfl⟩

theorem checkoutOf_env {P : Project} {c : AuditConfig} {ch : Checkout} (h : CheckoutOf P c ch) (file : Option Str) :
    (P.env file).checkout c = some (ch.tree P.advLib P.severityOf) := by
  unfold Env.checkout
  cases h with
  | fetched hf h =>
    simp only [hf, if_true]
    show (P.fetched _ _ _).map _ = _
    unfold defaultUrl
    have h' : P.fetched (c.database.url.getD "https://github.com/RustSec/advisory-db.git".toList)
        (c.database.path.getD (P.env file).defaultPath) (!c.database.stale) = some ch := h
    rw [h']; rfl
  | files hf => simp only [hf]; rfl

theorem configured_iff (P : Project) (cmd : AuditCommand) (c : AuditConfig) :
    effectiveConfig P.configWorld cmd = .ok c ↔ Configured P cmd c := C88_effective P.configWorld cmd c

/-- **Property C91** (the verdict): when the configuration, the lockfile and the database can be read, and (on the terminal)
the dependency tree can be built, `cargo audit` shows a report and exits with 0 or 1: with 1 exactly if the texts of the
files are damning. -/
theorem C91_verdict (P : Project) (hF : P.fp.Ok) (cmd : AuditCommand) (c : AuditConfig) (hc : Configured P cmd c) (text : Str)
    (ht : LockOf P cmd.file text) (l : Lockfile) (hl : Lockfile.fromText (semverCodec P.url) Toml.read text = .ok l)
    (ch : Checkout) (hch : CheckoutOf P c ch) (db : Database)
    (h : Database.open (ch.tree P.advLib P.severityOf) = .ok db) (hpr : Printable c l) :
    ∃ r out n, P.run cmd = (some out, .code n) ∧ Complete (P.env cmd.file) c db l none r ∧ Shows c r out ∧
      (n = 0 ∨ n = 1) ∧ (n = 1 ↔ Damning P cmd.file c ch text) := by
  obtain ⟨path, hloc, hlt⟩ := lockOf_locate ht
  have hload : (P.env cmd.file).loadLock path = some l := by
    show P.loadLock cmd.file path = some l
    unfold Project.loadLock
    rw [hlt, Option.bind_some, hl]
  obtain ⟨r, out, n, hrun, hcomp, hsh, hn, hex⟩ := C43_exit_status (P.env cmd.file) cmd c path hloc _
    (checkoutOf_env hch cmd.file) db h (C90_validated (L := P.advLib) rfl h) l hload hpr
  refine ⟨r, out, n, ?_, hcomp, hsh, hn, hex.trans (damning_iff hF cmd.file hl h)⟩
  unfold Project.run
  rw [(configured_iff P cmd c).mpr hc]
  exact hrun

theorem lockOf_of {P : Project} {file : Option Str} {path text : Str} (hloc : (P.env file).locate file = some path)
    (ht : P.lockText file path = some text) : LockOf P file text := by
  have hne : ("Cargo.lock".toList : Str) ≠ "-".toList := by decide
  cases file with
  | some q =>
    cases hloc
    unfold Project.lockText Project.generates at ht
    by_cases hq : path = "-".toList
    · subst hq
      rw [if_pos rfl] at ht
      exact .stdin ht
    · rw [if_neg hq, if_neg (fun h => Bool.false_ne_true h.1)] at ht
      exact .named hq ht
  | none =>
    have hloc' : (if (!P.pathExists "Cargo.lock".toList && P.pathExists "Cargo.toml".toList) = true then
        (if P.generated.isSome = true then some "Cargo.lock".toList else none) else some "Cargo.lock".toList) = some path := hloc
    have hpath : path = "Cargo.lock".toList := by
      split at hloc'
      · split at hloc'
        · exact (Option.some.inj hloc').symm
        · cases hloc'
      · exact (Option.some.inj hloc').symm
    subst hpath
    unfold Project.lockText Project.generates at ht
    rw [if_neg hne] at ht
    cases h1 : P.pathExists "Cargo.lock".toList <;> cases h2 : P.pathExists "Cargo.toml".toList
    · rw [h1, h2, if_neg (fun h => Bool.false_ne_true h.1)] at ht
      exact .found ht (.inr h2)
    · rw [h1, h2, if_pos ⟨rfl, rfl⟩] at ht
      exact .generated ht h1 h2
    · rw [h1, h2, if_neg (fun h => Bool.false_ne_true h.1)] at ht
      exact .found ht (.inl h1)
    · rw [h1, h2, if_neg (fun h => Bool.false_ne_true h.1)] at ht
      exact .found ht (.inl h1)

theorem checkoutOf_of {P : Project} {c : AuditConfig} {file : Option Str} {t : Db.Tree}
    (h : (P.env file).checkout c = some t) : ∃ ch, CheckoutOf P c ch ∧ t = ch.tree P.advLib P.severityOf := by
  unfold Env.checkout at h
  cases hf : c.database.fetch with
  | true =>
    simp only [hf, if_true] at h
    obtain ⟨ch, hch, rfl⟩ := Option.map_eq_some_iff.mp h
    exact ⟨ch, .fetched hf hch, rfl⟩
  | false =>
    simp only [hf] at h
    cases h
    exact ⟨_, .files hf, rfl⟩

/-- **Property C91** (success): if `cargo audit` exits with 0, then its configuration, the lockfile and the database were read,
and their texts are not damning. -/
theorem C91_success (P : Project) (hF : P.fp.Ok) (cmd : AuditCommand) (h0 : (P.run cmd).2 = .code 0) :
    ∃ c text l ch db, Configured P cmd c ∧ LockOf P cmd.file text ∧
      Lockfile.fromText (semverCodec P.url) Toml.read text = .ok l ∧ CheckoutOf P c ch ∧
      Database.open (ch.tree P.advLib P.severityOf) = .ok db ∧ ¬ Damning P cmd.file c ch text := by
  unfold Project.run at h0
  cases hc : effectiveConfig P.configWorld cmd with
  | err => rw [hc] at h0; cases h0
  | panic => rw [hc] at h0; cases h0
  | ok c =>
    rw [hc] at h0
    obtain ⟨path, t, db, l, hloc, hco, hdb, hload, hv⟩ := C43_success_sound (P.env cmd.file) cmd c h0
    obtain ⟨ch, hch, rfl⟩ := checkoutOf_of hco
    have hload' : P.loadLock cmd.file path = some l := hload
    unfold Project.loadLock at hload'
    obtain ⟨text, ht, hl⟩ := Option.bind_eq_some_iff.mp hload'
    split at hl
    · rename_i l' hl'
      cases hl
      refine ⟨c, text, l, ch, db, (configured_iff P cmd c).mp hc, lockOf_of hloc ht, hl', hch, hdb, ?_⟩
      have := hv (C90_validated (L := P.advLib) rfl hdb)
      rw [← damning_iff hF cmd.file hl' hdb]
      exact fun h => h.elim this.1 this.2
    · cases hl

/-- **Property C91** (failure to read): a configuration that cannot be read, or a database that cannot be had or loaded,
ends the run with 1; a lockfile that cannot be found or read, with 2. -/
theorem C91_errors (P : Project) (cmd : AuditCommand) :
    (effectiveConfig P.configWorld cmd = .err → P.run cmd = (none, .code 1)) ∧
    ∀ c, Configured P cmd c →
      (∀ text, LockOf P cmd.file text → (∀ ch, ¬ CheckoutOf P c ch) → P.run cmd = (none, .code 1)) ∧
      (∀ text, LockOf P cmd.file text → ∀ ch, CheckoutOf P c ch →
        Database.open (ch.tree P.advLib P.severityOf) = .err → P.run cmd = (none, .code 1)) ∧
      (∀ ch db, CheckoutOf P c ch → Database.open (ch.tree P.advLib P.severityOf) = .ok db →
        (∀ text, LockOf P cmd.file text → ∀ l, Lockfile.fromText (semverCodec P.url) Toml.read text ≠ .ok l) →
        P.run cmd = (none, .code 2)) := by
  refine ⟨fun h => by unfold Project.run; rw [h], fun c hc => ?_⟩
  have hrun : P.run cmd = runAudit (P.env cmd.file) cmd c := by
    unfold Project.run
    rw [(configured_iff P cmd c).mpr hc]
  obtain ⟨e1, e2⟩ := C43_errors (P.env cmd.file) cmd c
  refine ⟨fun text ht hno => ?_, fun text ht ch hch hdb => ?_, fun ch db hch hdb hno => ?_⟩
  · obtain ⟨path, hloc, -⟩ := lockOf_locate ht
    rw [hrun]
    refine (e2 path hloc).1 ?_
    cases hco : (P.env cmd.file).checkout c with
    | none => rfl
    | some t =>
      obtain ⟨ch, hch, -⟩ := checkoutOf_of hco
      exact absurd hch (hno ch)
  · obtain ⟨path, hloc, -⟩ := lockOf_locate ht
    rw [hrun]
    exact (e2 path hloc).2.1 _ (checkoutOf_env hch cmd.file) hdb
  · rw [hrun]
    cases hloc : (P.env cmd.file).locate cmd.file with
    | none => exact e1 hloc
    | some path =>
      refine (e2 path hloc).2.2 _ db (checkoutOf_env hch cmd.file) hdb ?_
      show P.loadLock cmd.file path = none
      unfold Project.loadLock
      cases ht : P.lockText cmd.file path with
      | none => rfl
      | some text =>
        rw [Option.bind_some]
        split
        · rename_i l hl
          exact absurd hl (hno text (lockOf_of hloc ht) l)
        · rfl

end Verif.Props
