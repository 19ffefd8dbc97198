import Verif.Props.ProjectJson
import Verif.Props.BinaryDeps
import Verif.Props.Quitters
import Verif.Spec.ProjectBin

/-!
# C93: `cargo audit bin`, from the bytes of the binaries to the verdict
-/

namespace Verif.Props

open Verif Verif.Semver Verif.Osv Verif.Lock Verif.Adv Verif.Audit Verif.Toml Verif.Spec Verif.Db Verif.Assign Verif.Rep
open Verif.RepJson Verif.AuditJson Verif.Bin
open Verif.AdminLint (Checkout)

section
variable {P : Project} {B : Binaries} {ms ds : Option Nat} {data : List UInt8}

theorem carried_iff (h : Embedded B ds data = .noAuditData) (hno : NoOverlap data) (name : Str) (version : Version) :
    (name, version) ∈ versions readVersion data ↔ Carries B ds data name version := by
  refine (show _ ↔ Traced slash data name version ∨ ((∀ n v, ¬ Traced slash data n v) ∧ Traced backslash data name version)
    from C57_exact readVersion data hno name version).trans ?_
  constructor
  · rintro (ht | ⟨hn, ht⟩)
    · exact .traced h ht
    · exact .windows h hn ht
  · intro hc
    cases hc with
    | listed h' => rw [h] at h'; cases h'
    | traced _ ht => exact .inl ht
    | windows _ hn ht => exact .inr ⟨hn, ht⟩

/-- What `load_deps_from_binary` recovers, in terms of the bytes. -/
theorem recovers (hK : KnowsIndex (P.binLib B)) (hno : Embedded B ds data = .noAuditData → NoOverlap data)
    {f : BinaryFormat} {l : Lockfile} (h : P.depsOf B data (some (ds.getD (8 * 1024 * 1024))) = some (f, some l)) :
    f = detectFormat (P.binLib B) data ∧ Scannable B ds data ∧ (Pinned l.packages ∧ ∃ t, Lock.Tree.new l = .ok t) ∧
    (∀ p ∈ l.packages, ∀ s, p.source = some s → GitIndex s) ∧
    ∀ name version, (∃ p ∈ l.packages, p.name = name ∧ p.version = version ∧ p.source ≠ none) ↔
      Carries B ds data name version := by
  have hload : ∃ r, loadDepsFromBinary (P.binLib B) data (some (ds.getD (8 * 1024 * 1024))) = .ok (f, r) ∧
      (r = .complete l ∨ r = .incomplete l) := by
    unfold Project.depsOf at h
    split at h <;> first | (cases h; exact ⟨_, by assumption, .inl rfl⟩) | (cases h; exact ⟨_, by assumption, .inr rfl⟩) | cases h
  obtain ⟨r, hr0, hrl⟩ := hload
  obtain ⟨rfl, hr⟩ := ((C58_load (P.binLib B) hK data _).2 f r).mp hr0
  refine ⟨rfl, ?_⟩
  have e : (P.binLib B).auditInfo data ((some (ds.getD (8 * 1024 * 1024))).getD (8 * 1024 * 1024)) = Embedded B ds data := rfl
  rw [e] at hr
  cases he : Embedded B ds data with
  | failed => rw [he] at hr; exact hr.elim
  | found input =>
    rw [he] at hr
    obtain ⟨l', hl', rfl⟩ := hr
    have : l' = l := by
      rcases hrl with h | h
      · exact BinaryReport.complete.inj h
      · cases h
    subst this
    have hok := ((C58_ok_iff (P.binLib B) hK input).2).mp ⟨_, hl'⟩
    have hrec := (C58_recovered (P.binLib B) hK input l' hl').packages
    refine ⟨.listed he hok.1 hok.2, C58_tree (P.binLib B) hK input l' hl', ?_, ?_⟩
    · intro p hp s hs
      obtain ⟨x, -, hx⟩ := forall2_right hrec p hp
      have := hx.source
      rw [hs] at this
      exact this.2
    · intro name version
      constructor
      · rintro ⟨p, hp, rfl, rfl, hs⟩
        obtain ⟨x, hx, hxp⟩ := forall2_right hrec p hp
        cases hps : p.source with
        | none => exact absurd hps hs
        | some s =>
          have hsrc := hxp.source
          rw [hps] at hsrc
          rw [hxp.name, hxp.version]
          exact .listed he hx hsrc.1
      · intro hc
        cases hc with
        | @listed input' h' x hx hs =>
          rw [he] at h'; cases h'
          obtain ⟨p, hp, hxp⟩ := forall2_left hrec hx
          refine ⟨p, hp, hxp.name, hxp.version, fun hps => ?_⟩
          have := hxp.source
          rw [hps] at this
          exact this hs
        | traced h' => rw [he] at h'; cases h'
        | windows h' => rw [he] at h'; cases h'
  | noAuditData =>
    rw [he] at hr
    obtain ⟨l', hl', hl2⟩ : ∃ l', depsFromPanics (P.binLib B) data = .ok (some l') ∧ l' = l := by
      rcases hr with ⟨l', h1, rfl⟩ | ⟨-, rfl⟩
      · refine ⟨l', h1, ?_⟩
        rcases hrl with h | h
        · cases h
        · exact BinaryReport.incomplete.inj h
      · rcases hrl with h | h <;> cases h
    subst hl2
    rcases C58_panics (P.binLib B) hK data with ⟨-, h1⟩ | ⟨hne, l'', h1, hall, -, -, -, -, htree⟩
    · rw [h1] at hl'; cases hl'
    rw [h1] at hl'; cases hl'
    have hcarry : ∀ name version, (name, version) ∈ versions (P.binLib B).parseVersion data ↔ Carries B ds data name version :=
      carried_iff he (hno he)
    refine ⟨?_, htree, ?_, ?_⟩
    · obtain ⟨q, hq⟩ := List.exists_mem_of_ne_nil _ hne
      exact .traced he ((hcarry q.1 q.2).mp hq)
    · intro p hp s hs
      obtain ⟨q, -, -, -, hx, -⟩ := forall2_right hall p hp
      rw [hs] at hx
      exact hx.2
    · intro name version
      rw [← hcarry]
      constructor
      · rintro ⟨p, hp, rfl, rfl, -⟩
        obtain ⟨q, hq, h1, h2, -⟩ := forall2_right hall p hp
        rw [h1, h2]
        exact hq
      · intro hq
        obtain ⟨p, hp, h1, h2, h3, -⟩ := forall2_left hall hq
        refine ⟨p, hp, h1, h2, fun hps => ?_⟩
        rw [hps] at h3
        exact h3 rfl

theorem scannable_recovers (hK : KnowsIndex (P.binLib B)) (hno : Embedded B ds data = .noAuditData → NoOverlap data)
    (h : Scannable B ds data) :
    ∃ f l, P.depsOf B data (some (ds.getD (8 * 1024 * 1024))) = some (f, some l) := by
  have key : ∀ r, (∃ l, r = .complete l ∨ r = .incomplete l) →
      loadDepsFromBinary (P.binLib B) data (some (ds.getD (8 * 1024 * 1024))) = .ok (detectFormat (P.binLib B) data, r) →
      ∃ f l, P.depsOf B data (some (ds.getD (8 * 1024 * 1024))) = some (f, some l) := by
    rintro r ⟨l, rfl | rfl⟩ hr <;> exact ⟨_, l, by unfold Project.depsOf; rw [hr]⟩
  have e : (P.binLib B).auditInfo data ((some (ds.getD (8 * 1024 * 1024))).getD (8 * 1024 * 1024)) = Embedded B ds data := rfl
  have hld := fun r => (C58_load (P.binLib B) hK data (some (ds.getD (8 * 1024 * 1024)))).2 (detectFormat (P.binLib B) data) r
  rw [e] at hld
  cases h with
  | listed h hi hr =>
    obtain ⟨l, hl⟩ := ((C58_ok_iff (P.binLib B) hK _).2).mpr ⟨hi, hr⟩
    rw [h] at hld
    exact key (.complete l) ⟨l, .inl rfl⟩ ((hld _).mpr ⟨rfl, l, hl, rfl⟩)
  | @traced h name version hc =>
    have hmem := (carried_iff h (hno h) name version).mpr hc
    rcases C58_panics (P.binLib B) hK data with ⟨h0, -⟩ | ⟨-, l, hl, -⟩
    · have h0 : versions readVersion data = [] := h0
      rw [h0] at hmem; cases hmem
    · rw [h] at hld
      exact key (.incomplete l) ⟨l, .inr rfl⟩ ((hld _).mpr ⟨rfl, .inl ⟨l, hl, rfl⟩⟩)

theorem hasFormat_iff (f : BinaryFormat) : HasFormat B data f ↔ f = detectFormat (P.binLib B) data := by
  obtain ⟨h1, h2⟩ := C58_format (P.binLib B) data
  have e : (P.binLib B).format data = B.format data := rfl
  rw [e] at h1 h2
  by_cases h : B.format data = .unknown
  · rcases h2 h with ⟨h3, rest, h4⟩ | ⟨h3, h4⟩
    · rw [h3]
      constructor
      · intro hf
        cases hf with
        | detected h' => exact absurd h h'
        | wasm => rfl
        | unknown _ hd => exact absurd h4 (hd rest)
      · rintro rfl; exact .wasm h h4
    · rw [h3]
      constructor
      · intro hf
        cases hf with
        | detected h' => exact absurd h h'
        | wasm _ hd => exact absurd ⟨_, hd⟩ h4
        | unknown => rfl
      · rintro rfl; exact .unknown h fun rest hd => h4 ⟨rest, hd⟩
  · rw [h1 h]
    constructor
    · intro hf
      cases hf with
      | detected => rfl
      | wasm h' => exact absurd h' h
      | unknown h' => exact absurd h' h
    · rintro rfl; exact .detected h

/-- A binary can be scanned exactly if its bytes say what it is made of. -/
theorem scans_iff (hK : KnowsIndex (P.binLib B)) (path : Str)
    (hno : ∀ data, BinaryAt B ms path data → Embedded B ds data = .noAuditData → NoOverlap data) :
    (∃ f l, Scans (P.binEnv B) ms ds path f l) ↔ ∃ data, BinaryAt B ms path data ∧ Scannable B ds data := by
  constructor
  · rintro ⟨f, l, data, h1, h2, h3⟩
    exact ⟨data, ⟨h1, h2⟩, (recovers hK (hno data ⟨h1, h2⟩) h3).2.1⟩
  · rintro ⟨data, hb, hs⟩
    obtain ⟨f, l, h⟩ := scannable_recovers hK (hno data hb) hs
    exact ⟨f, l, data, hb.1, hb.2, h⟩

variable {c : AuditConfig} {ch : Checkout} {db : Database} {l : Lockfile} {f : BinaryFormat}

/-- An advisory concerns a package of the binary exactly if its bytes and the texts say so. -/
theorem binFindingOf_iff (hF : P.fp.Ok) (hK : KnowsIndex (P.binLib B))
    (hno : Embedded B ds data = .noAuditData → NoOverlap data)
    (hl : P.depsOf B data (some (ds.getD (8 * 1024 * 1024))) = some (f, some l)) (a : AdvisoryFile)
    (name : Str) (version : Version) :
    BinFindingOf P B c ch ds data a name version ↔ ∃ p ∈ l.packages, p.name = name ∧ p.version = version ∧
      (∃ txt, HasFile ch .crates txt ∧ AdvisoryOf P.advLib txt a) ∧ a.metadata.id.string ≠ "RUSTSEC-0000-0000".toList ∧
      Concerned c p (toAdvisory P.severityOf (withCollection .crates a)) ∧
      Relevant (some f) (toAdvisory P.severityOf (withCollection .crates a)) := by
  obtain ⟨hf, -, -, hsrc, hcar⟩ := recovers hK hno hl
  constructor
  · intro hb
    obtain ⟨p, hp, hn, hv, hps⟩ := (hcar _ _).mpr hb.carries
    obtain ⟨txt, hfile, hof⟩ := hb.file
    obtain ⟨s', hs', ht⟩ := hb.tells
    cases hs : p.source with
    | none => exact absurd hs hps
    | some s =>
      have hg := hsrc p hp s hs
      refine ⟨p, hp, hn, hv, ⟨txt, hfile, hof⟩, ht.notDraft, ?_, ?_⟩
      · refine ⟨⟨s, hs, .inl hg⟩, ht.name.trans hn.symm, ?_, ⟨s, hs, ?_⟩, rfl, ht.current, ?_, ht.arch, ht.os, ht.notIgnored⟩
        · rw [hv]; exact ht.exposed
        · rw [hg.1, hg.2, ← hs'.1, ← hs'.2]; exact ht.registry
        · intro th sv hth hsv
          obtain ⟨cv, hcv, rfl⟩ := Option.map_eq_some_iff.mp hsv
          obtain ⟨t, hp⟩ := cvss_parsed hof hcv
          exact ht.severity th cv _ hth hcv ((rated_iff P hF hp _).mpr rfl)
      · intro f' hf'
        cases hf'
        exact hb.runs f ((hasFormat_iff (P := P) f).mpr hf)
  · rintro ⟨p, hp, rfl, rfl, ⟨txt, h1, h2⟩, h3, hc, hr⟩
    obtain ⟨s, hs, -⟩ := hc.cratesIo
    refine ⟨(hcar _ _).mp ⟨p, hp, rfl, rfl, by rw [hs]; exact Option.some_ne_none s⟩, ⟨txt, h1, h2⟩,
      ⟨s, hsrc p hp s hs, ?_⟩, ?_⟩
    · obtain ⟨s', hs', hreg⟩ := hc.registry
      rw [hs] at hs'; cases hs'
      refine ⟨h3, hc.name, hc.exposed, hreg, hc.current, ?_, hc.arch, hc.os, hc.notIgnored⟩
      intro th cv sv hth hcv hra
      refine hc.severity th _ hth ?_
      show a.metadata.cvss.map P.severityOf = _
      obtain ⟨t, ht⟩ := cvss_parsed h2 hcv
      rw [hcv, ← (rated_iff P hF ht sv).mp hra]; rfl
    · intro f' hf'
      rw [(hasFormat_iff (P := P) f').mp hf', ← hf]
      exact hr f rfl

theorem binYankedOf_iff (hK : KnowsIndex (P.binLib B)) (hno : Embedded B ds data = .noAuditData → NoOverlap data)
    (hl : P.depsOf B data (some (ds.getD (8 * 1024 * 1024))) = some (f, some l)) (name : Str) (version : Version) :
    (∃ p ∈ l.packages, p.name = name ∧ p.version = version ∧ SaidYanked (P.binEnv B) c p) ↔
      BinYankedOf P B c ds data name version := by
  obtain ⟨-, -, -, hsrc, hcar⟩ := recovers hK hno hl
  constructor
  · rintro ⟨p, hp, rfl, rfl, ⟨s, hs, -⟩, kind, hk, vs, hvs, hy⟩
    exact ⟨(hcar _ _).mp ⟨p, hp, rfl, rfl, by rw [hs]; exact Option.some_ne_none s⟩, kind, hk, vs, hvs, hy⟩
  · rintro ⟨hcr, kind, hk, vs, hvs, hy⟩
    obtain ⟨p, hp, rfl, rfl, hs⟩ := (hcar _ _).mpr hcr
    cases hps : p.source with
    | none => exact absurd hps hs
    | some s => exact ⟨p, hp, rfl, rfl, ⟨s, hps, .inl (hsrc p hp s hps)⟩, kind, hk, vs, hvs, hy⟩

theorem binDamning_iff (hF : P.fp.Ok) (hK : KnowsIndex (P.binLib B))
    (hno : Embedded B ds data = .noAuditData → NoOverlap data)
    (hl : P.depsOf B data (some (ds.getD (8 * 1024 * 1024))) = some (f, some l))
    (h : Database.open (ch.tree P.advLib P.severityOf) = .ok db) :
    Fails (P.binEnv B) c db l (some f) ↔ BinDamning P B c ch ds data := by
  have key : ∀ Q : Option Informational → Prop,
      (∃ p ∈ l.packages, ∃ a ∈ db.iter, Concerned c p a ∧ Q a.metadata.informational ∧ Relevant (some f) a) ↔
      ∃ a name version, BinFindingOf P B c ch ds data a name version ∧ Q a.metadata.informational := by
    intro Q
    constructor
    · rintro ⟨p, hp, a, ha, hc, hq, hr⟩
      obtain ⟨col, txt, a, h1, h2, h3, rfl⟩ := (mem_db h a).mp ha
      have hcol : col = .crates := Option.some.inj hc.collection
      subst hcol
      exact ⟨a, p.name, p.version,
        (binFindingOf_iff hF hK hno hl a _ _).mpr ⟨p, hp, rfl, rfl, ⟨txt, h1, h2⟩, h3, hc, hr⟩, hq⟩
    · rintro ⟨a, name, version, hb, hq⟩
      obtain ⟨p, hp, -, -, ⟨txt, h1, h2⟩, h3, hc, hr⟩ := (binFindingOf_iff hF hK hno hl a _ _).mp hb
      exact ⟨p, hp, _, (mem_db h _).mpr ⟨.crates, txt, a, h1, h2, h3, rfl⟩, hc, hq, hr⟩
  have h1 : HasVulnerability c db l (some f) ↔
      ∃ a name version, BinFindingOf P B c ch ds data a name version ∧ a.metadata.informational = none := key (· = none)
  have h2 : HasDeniedAdvisory c db l (some f) ↔ ∃ a name version i k, BinFindingOf P B c ch ds data a name version ∧
      a.metadata.informational = some i ∧ WarnsAs i k ∧ Denied c.output.deny k := by
    have := key fun o => ∃ i k, o = some i ∧ WarnsAs i k ∧ Denied c.output.deny k
    constructor
    · rintro ⟨p, hp, a, ha, i, k, x, y, r, z⟩
      obtain ⟨a, n, v, hb, i, k, w⟩ := this.mp ⟨p, hp, a, ha, x, ⟨i, k, y, z⟩, r⟩
      exact ⟨a, n, v, i, k, hb, w⟩
    · rintro ⟨a, n, v, i, k, hb, w⟩
      obtain ⟨p, hp, a, ha, x, ⟨i, k, y, z⟩, r⟩ := this.mpr ⟨a, n, v, hb, i, k, w⟩
      exact ⟨p, hp, a, ha, i, k, x, y, r, z⟩
  have h3 : (∃ p ∈ l.packages, SaidYanked (P.binEnv B) c p) ↔
      ∃ name version, BinYankedOf P B c ds data name version := by
    constructor
    · rintro ⟨p, hp, h⟩
      exact ⟨_, _, (binYankedOf_iff hK hno hl _ _).mp ⟨p, hp, rfl, rfl, h⟩⟩
    · rintro ⟨name, version, h⟩
      obtain ⟨p, hp, -, -, h⟩ := (binYankedOf_iff hK hno hl _ _).mpr h
      exact ⟨p, hp, h⟩
  unfold Fails BinDamning
  rw [h1, h2, HasDeniedYanked, h3]

end

/-- The paths of binaries whose bytes are damning. -/
private theorem fails_iff {P : Project} {B : Binaries} (hF : P.fp.Ok) (hK : KnowsIndex (P.binLib B)) {c : AuditConfig}
    {ms ds : Option Nat} {ch : Checkout} {db : Database} (h : Database.open (ch.tree P.advLib P.severityOf) = .ok db)
    (path : Str) (hno : ∀ data, BinaryAt B ms path data → Embedded B ds data = .noAuditData → NoOverlap data)
    (Q : Prop → Prop) (hQ : ∀ {p q : Prop}, (p ↔ q) → (Q p ↔ Q q)) :
    (∃ f l, Scans (P.binEnv B) ms ds path f l ∧ Q (Fails (P.binEnv B) c db l (some f))) ↔
      ∃ data, BinaryAt B ms path data ∧ Scannable B ds data ∧ Q (BinDamning P B c ch ds data) := by
  constructor
  · rintro ⟨f, l, ⟨data, h1, h2, h3⟩, hq⟩
    exact ⟨data, ⟨h1, h2⟩, (recovers hK (hno data ⟨h1, h2⟩) h3).2.1,
      (hQ (binDamning_iff hF hK (hno data ⟨h1, h2⟩) h3 h)).mp hq⟩
  · rintro ⟨data, hb, hs, hq⟩
    obtain ⟨f, l, hl⟩ := scannable_recovers hK (hno data hb) hs
    exact ⟨f, l, ⟨data, hb.1, hb.2, hl⟩, (hQ (binDamning_iff hF hK (hno data hb) hl h)).mpr hq⟩

/-- **Property C93** (the verdict): when the configuration and the database can be read, `cargo audit bin` shows a report for
each binary that says what it is made of, and for no other; it exits with 1 exactly if the bytes of one of these are damning
given the texts of the advisories, with 0 exactly if all binaries say what they are made of, none is damning, and there is no
advisory about the tool itself with warnings denied; else with 2. -/
theorem C93_verdict (P : Project) (hF : P.fp.Ok) (B : Binaries) (hK : KnowsIndex (P.binLib B)) (cmd : AuditCommand)
    (c : AuditConfig) (hc : Configured P cmd c) (ch : Checkout) (hch : CheckoutOf P c ch) (hdb : DatabaseReads P.advLib ch)
    (ms ds : Option Nat) (hms : ms.getD (100 * 1024 * 1024) < 2 ^ 64) (paths : List Str)
    (hsize : ∀ path ∈ paths, ∀ data, B.bytesOf path = some data → data.length < 2 ^ 64)
    (hno : ∀ path ∈ paths, ∀ data, BinaryAt B ms path data → Embedded B ds data = .noAuditData → NoOverlap data) :
    ∃ out n, P.runBin B cmd ms ds paths = (out, .code n) ∧ n ≤ 2 ∧
      List.Forall₂ (fun path o => o ≠ none ↔ ∃ data, BinaryAt B ms path data ∧ Scannable B ds data) paths out ∧
      (n = 1 ↔ ∃ path ∈ paths, ∃ data, BinaryAt B ms path data ∧ Scannable B ds data ∧ BinDamning P B c ch ds data) ∧
      (n = 0 ↔ (∀ path ∈ paths, ∃ data, BinaryAt B ms path data ∧ Scannable B ds data ∧ ¬ BinDamning P B c ch ds data) ∧
        ¬ (DenyOption.warnings ∈ c.output.deny ∧ ToolAdvisory P ch)) := by
  obtain ⟨db, hdb⟩ := (C91_database P ch).mpr hdb
  have hpr : ∀ path ∈ paths, ∀ f l, Scans (P.binEnv B) ms ds path f l → Printable c l := by
    rintro path hp f l ⟨data, h1, h2, h3⟩ -
    exact (recovers hK (hno path hp data ⟨h1, h2⟩) h3).2.2.1
  obtain ⟨out, n, hrun, hn, hall, h1, h0⟩ := C43_bin_exit_status (P.binEnv B) c _ (checkoutOf_env hch none) db hdb
    (C90_validated (L := P.advLib) rfl hdb) ms ds hms paths hsize hpr
  refine ⟨out, n, ?_, hn, ?_, ?_, ?_⟩
  · unfold Project.runBin
    rw [(configured_iff P cmd c).mpr hc]
    exact hrun
  · have hmem : List.Forall₂ (fun path o => path ∈ paths ∧ (((¬ ∃ f l, Scans (P.binEnv B) ms ds path f l) → o = none) ∧
        ∀ f l, Scans (P.binEnv B) ms ds path f l → ∃ r p, o = some p ∧
          Complete (P.binEnv B) c db l (some f) r ∧ Shows c r p)) paths out := by
      clear hrun h1 h0 hpr hsize hno
      induction hall with
      | nil => exact .nil
      | cons hd tl ih => exact .cons ⟨by simp, hd⟩ (ih.imp fun a b hab => ⟨by simp [hab.1], hab.2⟩)
    refine hmem.imp fun path o ho => ?_
    rw [← scans_iff hK path (hno path ho.1)]
    constructor
    · intro h
      by_contra hs
      exact h (ho.2.1 hs)
    · rintro ⟨f, l, hs⟩
      obtain ⟨r, p, rfl, -⟩ := ho.2.2 f l hs
      exact Option.some_ne_none p
  · rw [h1]
    exact exists_congr fun path => and_congr_right fun hp => fails_iff hF hK hdb path (hno path hp) id id
  · rw [h0]
    refine and_congr ?_ (not_congr (and_congr_right fun _ => toolAdvisory_iff none hdb))
    exact forall_congr' fun path => forall_congr' fun hp => fails_iff hF hK hdb path (hno path hp) Not not_congr

/-- **Property C93** (success): if `cargo audit bin` exits with 0, then its configuration and the database were read, every
binary says what it is made of, and none is damning. -/
theorem C93_success (P : Project) (hF : P.fp.Ok) (B : Binaries) (hK : KnowsIndex (P.binLib B)) (cmd : AuditCommand)
    (ms ds : Option Nat) (hms : ms.getD (100 * 1024 * 1024) < 2 ^ 64) (paths : List Str)
    (hsize : ∀ path ∈ paths, ∀ data, B.bytesOf path = some data → data.length < 2 ^ 64)
    (hno : ∀ path ∈ paths, ∀ data, BinaryAt B ms path data → Embedded B ds data = .noAuditData → NoOverlap data) :
    (P.runBin B cmd ms ds paths).2 = .code 0 ↔
      ∃ c ch, Configured P cmd c ∧ CheckoutOf P c ch ∧ DatabaseReads P.advLib ch ∧
        (∀ path ∈ paths, ∃ data, BinaryAt B ms path data ∧ Scannable B ds data ∧ ¬ BinDamning P B c ch ds data) ∧
        ¬ (DenyOption.warnings ∈ c.output.deny ∧ ToolAdvisory P ch) := by
  constructor
  · intro h0
    cases hc : effectiveConfig P.configWorld cmd with
    | err => unfold Project.runBin at h0; rw [hc] at h0; cases h0
    | panic => unfold Project.runBin at h0; rw [hc] at h0; cases h0
    | ok c =>
      have hc' := (configured_iff P cmd c).mp hc
      have h0' : (Audit.runBin (P.binEnv B) ms ds paths c).2 = .code 0 := by
        unfold Project.runBin at h0; rw [hc] at h0; exact h0
      have hnew : ∃ a, Auditor.new (P.binEnv B) c = .ok a := by
        unfold Audit.runBin at h0'
        cases hn : Auditor.new (P.binEnv B) c with
        | ok a => exact ⟨a, rfl⟩
        | err => rw [hn] at h0'; cases h0'
        | panic => rw [hn] at h0'; cases h0'
      obtain ⟨a, ha⟩ := hnew
      unfold Auditor.new at ha
      split at ha
      · cases ha
      · rename_i t hco
        obtain ⟨ch, hch, rfl⟩ := checkoutOf_of (P := P) (file := none) hco
        split at ha
        · cases ha
        · cases ha
        · rename_i db hdb
          have hrd := (C91_database P ch).mp ⟨db, hdb⟩
          obtain ⟨out, n, hrun, -, -, -, hz⟩ := C93_verdict P hF B hK cmd c hc' ch hch hrd ms ds hms paths hsize hno
          rw [hrun] at h0
          cases h0
          obtain ⟨z1, z2⟩ := hz.mp rfl
          exact ⟨c, ch, hc', hch, hrd, z1, z2⟩
  · rintro ⟨c, ch, hc, hch, hrd, z1, z2⟩
    obtain ⟨out, n, hrun, -, -, -, hz⟩ := C93_verdict P hF B hK cmd c hc ch hch hrd ms ds hms paths hsize hno
    rw [hrun, hz.mpr ⟨z1, z2⟩]

end Verif.Props
