import Verif.Props.ProjectBin

/-!
# C93: the reports of `cargo audit bin`, from the bytes of the binaries
-/

namespace Verif.Props

open Verif Verif.Semver Verif.Osv Verif.Lock Verif.Adv Verif.Audit Verif.Toml Verif.Spec Verif.Db Verif.Assign Verif.Rep
open Verif.RepJson Verif.AuditJson Verif.Bin
open Verif.AdminLint (Checkout)

/-- The pairs of a report, in terms of the bytes and the texts. -/
private theorem binPairs_iff {P : Project} {B : Binaries} (hF : P.fp.Ok) (hK : KnowsIndex (P.binLib B)) {c : AuditConfig}
    {ch : Checkout} {ds : Option Nat} {data : List UInt8} {l : Lockfile} {format : BinaryFormat}
    (hno : Embedded B ds data = .noAuditData → NoOverlap data)
    (hl : P.depsOf B data (some (ds.getD (8 * 1024 * 1024))) = some (format, some l)) {Q : Option Informational → Prop}
    {fs : List (AdvisoryFile × Package)}
    (hfs : ∀ f p, (f, p) ∈ fs ↔ p ∈ l.packages ∧ HasAdvisory P.advLib ch f ∧
      Concerned c p (toAdvisory P.severityOf f) ∧ Q f.metadata.informational ∧ Relevant (some format) (toAdvisory P.severityOf f))
    (id name version : Str) :
    (∃ x ∈ fs, x.1.metadata.id.string = id ∧ x.2.name = name ∧ x.2.version.text = version) ↔
      ∃ f v, BinFindingOf P B c ch ds data f name v ∧ Q f.metadata.informational ∧ f.metadata.id.string = id ∧
        v.text = version := by
  constructor
  · rintro ⟨⟨f, p⟩, hx, rfl, rfl, rfl⟩
    obtain ⟨hp, ha, hc, hq, hr⟩ := (hfs f p).mp hx
    obtain ⟨col, txt, f₀, h1, h2, h3, rfl⟩ := (hasAdvisory_iff _ _ _).mp ha
    have hcol : col = .crates := Option.some.inj hc.collection
    subst hcol
    exact ⟨f₀, p.version,
      (binFindingOf_iff hF hK hno hl f₀ _ _).mpr ⟨p, hp, rfl, rfl, ⟨txt, h1, h2⟩, h3, hc, hr⟩, hq, rfl, rfl⟩
  · rintro ⟨f, v, hf, hq, rfl, rfl⟩
    obtain ⟨p, hp, hn, rfl, ⟨txt, h1, h2⟩, h3, hc, hr⟩ := (binFindingOf_iff hF hK hno hl f _ _).mp hf
    refine ⟨(withCollection .crates f, p), (hfs _ _).mpr ⟨hp, ?_, hc, hq, hr⟩, rfl, hn, rfl⟩
    exact (hasAdvisory_iff _ _ _).mpr ⟨.crates, txt, f, h1, h2, h3, rfl⟩

/-- **Property C93** (JSON): `cargo audit bin` with JSON output prints one line, a JSON document, for each binary that says
what it is made of.  Its list of vulnerabilities has an element for an advisory ID and a version of a package exactly if the
bytes of that binary and the texts of the advisories tell so; so have its lists of warnings and of yanked packages. -/
theorem C93_json (P : Project) (hF : P.fp.Ok) (B : Binaries) (hK : KnowsIndex (P.binLib B)) (cmd : AuditCommand)
    (c : AuditConfig) (hc : Configured P cmd c) (hfmt : c.output.format = .json) (ch : Checkout) (hch : CheckoutOf P c ch)
    (hdb : DatabaseReads P.advLib ch) (ms ds : Option Nat) (hms : ms.getD (100 * 1024 * 1024) < 2 ^ 64) (paths : List Str)
    (hsize : ∀ path ∈ paths, ∀ data, B.bytesOf path = some data → data.length < 2 ^ 64)
    (Time : Type) (showTime : Time → Option Str) (parseTime : Str → Option Time)
    (commit : Option (Str × Time)) (hcommit : ∀ x, commit = some x → ∃ s, showTime x.2 = some s) :
    ∃ out n, P.runBin B cmd ms ds paths = (out, .code n) ∧
      List.Forall₂ (fun path o => ∀ data, BinaryAt B ms path data → Scannable B ds data →
        (Embedded B ds data = .noAuditData → NoOverlap data) →
        ∃ l r line j, o = some (.json r) ∧
          jsonOutput (P.reportLib Time showTime parseTime) ch commit l r = .ok (line ++ ['\n']) ∧ '\n' ∉ line ∧
          readJson line = some j ∧
          (∀ id name version, ListsFinding [.key "vulnerabilities", .key "list"] j id name version ↔
            ∃ f v, BinFindingOf P B c ch ds data f name v ∧ f.metadata.informational = none ∧
              f.metadata.id.string = id ∧ v.text = version) ∧
          (∀ kind, kind ≠ WarningKind.yanked → ∀ id name version, ListsFinding (kindPlace kind) j id name version ↔
            ∃ f v, BinFindingOf P B c ch ds data f name v ∧
              (∃ i, f.metadata.informational = some i ∧ Enabled c i ∧ WarnsAs i kind) ∧
              f.metadata.id.string = id ∧ v.text = version) ∧
          (∀ name version, ListsPackage (kindPlace .yanked) j name version ↔
            ∃ v, BinYankedOf P B c ds data name v ∧ v.text = version)) paths out := by
  obtain ⟨db, hdb⟩ := (C91_database P ch).mpr hdb
  obtain ⟨out, n, hrun, hall⟩ := C83_bin_json (P.reportLib Time showTime parseTime) (semver_reqWF (L := P.advLib) rfl)
    P.severityOf (P.binEnv B) c hfmt ch (checkoutOf_env hch none) db hdb ms ds hms paths hsize commit hcommit
  refine ⟨out, n, ?_, hall.imp fun path o ho data hb hs hno => ?_⟩
  · unfold Project.runBin
    rw [(configured_iff P cmd c).mpr hc]
    exact hrun
  obtain ⟨format, l, hl⟩ := scannable_recovers hK hno hs
  obtain ⟨r, line, j, h1, h2, h3, h4, h5⟩ := ho.2 format l ⟨data, hb.1, hb.2, hl⟩
  refine ⟨l, r, line, j, h1, h2, fun hmem => absurd (h3 _ hmem) (by decide), h4, ?_, ?_, ?_⟩
  · intro id name version
    obtain ⟨fs, hfs, -, -, -, hsl⟩ := h5.vulnerabilities
    rw [lists_iff (fun _ _ h => h) (.inl hsl)]
    exact binPairs_iff (Q := (· = none)) hF hK hno hl hfs id name version
  · intro kind hk id name version
    obtain ⟨fs, hfs, -, hsl⟩ := h5.warnings kind hk
    rw [lists_iff (fun _ _ h => h.finding) hsl]
    refine binPairs_iff (Q := fun o => ∃ i, o = some i ∧ Enabled c i ∧ WarnsAs i kind) hF hK hno hl (fun f p => ?_) id name
      version
    rw [hfs]
    exact ⟨fun ⟨a, b, x, r, y⟩ => ⟨a, b, x, y, r⟩, fun ⟨a, b, x, y, r⟩ => ⟨a, b, x, r, y⟩⟩
  · intro name version
    obtain ⟨ps, hps, hall, hsl⟩ := h5.yanked
    rw [listsPackage_iff hsl]
    constructor
    · rintro ⟨p, hp, rfl, rfl⟩
      obtain ⟨hp1, hp2⟩ := hps p hp
      exact ⟨p.version, (binYankedOf_iff hK hno hl _ _).mp ⟨p, hp1, rfl, rfl, hp2⟩, rfl⟩
    · rintro ⟨v, hy, rfl⟩
      obtain ⟨p, hp, rfl, rfl, hs⟩ := (binYankedOf_iff hK hno hl _ _).mpr hy
      obtain ⟨q, hq, e1, e2⟩ := hall p hp hs
      exact ⟨q, hq, e1, by rw [e2]; rfl⟩

/-- **Property C93** (SARIF): with SARIF output, one such document for each of these binaries.  It has a result of level
"error" with the fingerprint of an advisory ID, a package and a version exactly if the bytes of the binary and the texts of
the advisories tell so; a result of level "warning" exactly for the informational advisories that are asked for and the
yanked packages. -/
theorem C93_sarif (P : Project) (hF : P.fp.Ok) (B : Binaries) (hK : KnowsIndex (P.binLib B)) (cmd : AuditCommand)
    (c : AuditConfig) (hc : Configured P cmd c) (hfmt : c.output.format = .sarif) (ch : Checkout) (hch : CheckoutOf P c ch)
    (hdb : DatabaseReads P.advLib ch) (ms ds : Option Nat) (hms : ms.getD (100 * 1024 * 1024) < 2 ^ 64) (paths : List Str)
    (hsize : ∀ path ∈ paths, ∀ data, B.bytesOf path = some data → data.length < 2 ^ 64)
    (Time : Type) (showTime : Time → Option Str) (parseTime : Str → Option Time)
    (commit : Option (Str × Time)) (version : Str) :
    ∃ out n, P.runBin B cmd ms ds paths = (out, .code n) ∧
      List.Forall₂ (fun path o => ∀ data, BinaryAt B ms path data → Scannable B ds data →
        (Embedded B ds data = .noAuditData → NoOverlap data) →
        ∃ l r line j, o = some (.sarif r) ∧
          sarifOutput (P.reportLib Time showTime parseTime) P.fp version ch commit l r (some path) = .ok (line ++ ['\n']) ∧
          '\n' ∉ line ∧ readJson (line ++ ['\n']) = some j ∧
          (∀ fp, HasResult j "error".toList fp ↔ ∃ f name v, BinFindingOf P B c ch ds data f name v ∧
            f.metadata.informational = none ∧ fp = joinC ':' [f.metadata.id.string, name, v.text]) ∧
          (∀ fp, HasResult j "warning".toList fp ↔
            (∃ f name v i kind, BinFindingOf P B c ch ds data f name v ∧ f.metadata.informational = some i ∧ Enabled c i ∧
              WarnsAs i kind ∧ fp = joinC ':' [f.metadata.id.string, name, v.text]) ∨
            ∃ name v, BinYankedOf P B c ds data name v ∧ fp = joinC ':' ["yanked".toList, name, v.text])) paths out := by
  obtain ⟨db, hdb⟩ := (C91_database P ch).mpr hdb
  obtain ⟨out, n, hrun, hall⟩ := C84_bin_sarif (P.reportLib Time showTime parseTime) (semver_reqWF (L := P.advLib) rfl) P.fp hF
    version P.severityOf (P.binEnv B) c hfmt ch (checkoutOf_env hch none) db hdb ms ds hms paths hsize commit
  refine ⟨out, n, ?_, hall.imp fun path o ho data hb hs hno => ?_⟩
  · unfold Project.runBin
    rw [(configured_iff P cmd c).mpr hc]
    exact hrun
  obtain ⟨format, l, hl⟩ := scannable_recovers hK hno hs
  obtain ⟨r, line, j, fs, h1, h2, h3, h4, h5, h6⟩ := ho.2 format l ⟨data, hb.1, hb.2, hl⟩
  have find : ∀ f p, p ∈ l.packages → HasAdvisory P.advLib ch f → Concerned c p (toAdvisory P.severityOf f) →
      Relevant (some format) (toAdvisory P.severityOf f) →
      ∃ f₀, BinFindingOf P B c ch ds data f₀ p.name p.version ∧ f₀.metadata.informational = f.metadata.informational ∧
        f₀.metadata.id = f.metadata.id := by
    intro f p hp ha hc hr
    obtain ⟨col, txt, f₀, a1, a2, a3, rfl⟩ := (hasAdvisory_iff _ _ _).mp ha
    have hcol : col = .crates := Option.some.inj hc.collection
    subst hcol
    exact ⟨f₀, (binFindingOf_iff hF hK hno hl f₀ _ _).mpr ⟨p, hp, rfl, rfl, ⟨txt, a1, a2⟩, a3, hc, hr⟩, rfl, rfl⟩
  have back : ∀ f name v, BinFindingOf P B c ch ds data f name v → ∃ p ∈ l.packages, p.name = name ∧ p.version = v ∧
      HasAdvisory P.advLib ch (AuditJson.withCollection .crates f) ∧
      Concerned c p (toAdvisory P.severityOf (AuditJson.withCollection .crates f)) ∧
      Relevant (some format) (toAdvisory P.severityOf (AuditJson.withCollection .crates f)) := by
    intro f name v hf
    obtain ⟨p, hp, hn, hv, ⟨txt, a1, a2⟩, a3, hc, hr⟩ := (binFindingOf_iff hF hK hno hl f _ _).mp hf
    exact ⟨p, hp, hn, hv, (hasAdvisory_iff _ _ _).mpr ⟨.crates, txt, f, a1, a2, a3, rfl⟩, hc, hr⟩
  refine ⟨l, r, line, j, h1, h2, h3, h4, ?_, ?_⟩
  · intro fp
    rw [result_iff h5]
    constructor
    · rintro ⟨x, hx, hlev, rfl⟩
      cases x with
      | warning w => exact absurd (show "warning".toList = "error".toList from hlev) (by decide)
      | vulnerability v =>
        obtain ⟨f, p, rfl, hp, ha, hcc, hi, hr⟩ := (h6.vulnerabilities v).mp hx
        obtain ⟨f₀, b1, b2, b3⟩ := find f p hp ha hcc hr
        refine ⟨f₀, p.name, p.version, b1, b2.trans hi, ?_⟩
        rw [b3]; rfl
    · rintro ⟨f, name, v, hf, hi, rfl⟩
      obtain ⟨p, hp, rfl, rfl, ha, hcc, hr⟩ := back f name v hf
      exact ⟨_, (h6.vulnerabilities _).mpr ⟨_, p, rfl, hp, ha, hcc, hi, hr⟩, rfl, rfl⟩
  · intro fp
    rw [result_iff h5]
    constructor
    · rintro ⟨x, hx, hlev, rfl⟩
      cases x with
      | vulnerability v => exact absurd (show "error".toList = "warning".toList from hlev) (by decide)
      | warning w =>
        by_cases hk : w.kind = .yanked
        · right
          obtain ⟨hw, hp, hy⟩ := h6.yanked w hx hk
          refine ⟨w.package.name, w.package.version,
            (binYankedOf_iff hK hno hl _ _).mp ⟨w.package, hp, rfl, rfl, hy⟩, ?_⟩
          rw [hw]; rfl
        · left
          obtain ⟨f, p, i, hw, hp, ha, hcc, hr, hi, he, hwa⟩ := (h6.advisories w).mp ⟨hx, hk⟩
          obtain ⟨f₀, b1, b2, b3⟩ := find f p hp ha hcc hr
          refine ⟨f₀, p.name, p.version, i, w.kind, b1, b2.trans hi, he, hwa, ?_⟩
          rw [b3, hw]; rfl
    · rintro (⟨f, name, v, i, kind, hf, hi, he, hwa, rfl⟩ | ⟨name, v, hy, rfl⟩)
      · obtain ⟨p, hp, rfl, rfl, ha, hcc, hr⟩ := back f name v hf
        have := (h6.advisories ⟨kind, p, some (AuditJson.withCollection .crates f).metadata, f.affected,
          some f.versions⟩).mpr ⟨_, p, i, rfl, hp, ha, hcc, hr, hi, he, hwa⟩
        exact ⟨_, this.1, rfl, rfl⟩
      · obtain ⟨p, hp, rfl, rfl, hs⟩ := (binYankedOf_iff hK hno hl _ _).mpr hy
        obtain ⟨w, hw, hk, e1, e2⟩ := h6.allYanked p hp hs
        obtain ⟨e, -, -⟩ := h6.yanked w hw hk
        refine ⟨_, hw, rfl, ?_⟩
        rw [e]
        show joinC ':' [_, w.package.name, w.package.version.text] = _
        rw [e1, e2]; rfl

end Verif.Props
