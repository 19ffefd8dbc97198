import Verif.Props.BinTranscript
import Verif.Props.ProjectBin
import Verif.Props.ProjectTerminal
import Verif.Spec.ProjectBinTerminal

/-!
# C106: from the bytes of binaries to what is shown on the terminal
-/

namespace Verif.Props

open Verif Verif.Semver Verif.Osv Verif.Lock Verif.Adv Verif.Audit Verif.Toml Verif.Spec Verif.Db Verif.Assign Verif.Rep Verif.Bin
open Verif.AuditJson (withCollection)
open Verif.AdminLint (Checkout)

/-- The piece about a binary, in terms of its bytes and of the texts. -/
private theorem told_all {P : Project} (hF : P.fp.Ok) {B : Binaries} (hK : KnowsIndex (P.binLib B)) {c : AuditConfig} {ch : Checkout}
    {db : Database} (hdb : Database.open (ch.tree P.advLib P.severityOf) = .ok db) {ds : Option Nat} {data : List UInt8}
    (hno : Embedded B ds data = .noAuditData → NoOverlap data) {f : BinaryFormat} {l : Lockfile}
    (hl : P.depsOf B data (some (ds.getD (8 * 1024 * 1024))) = some (f, some l)) {T : TermLib} (hT : T.version = Version.text)
    {r : Report} (hcomp : Complete (P.binEnv B) c db l (some f) r) {path : Str} {shown : List Shown}
    (hsh : ShowsReport T (c.output.deny.flatMap DenyOption.warningKinds) r path shown)
    (hred : (∃ x, .screen x ∈ shown ∧ Red x) ↔ Fails (P.binEnv B) c db l (some f)) : ToldAll P B T c ch ds data shown := by
  refine ⟨?_, hred.trans (binDamning_iff hF hK hno hl hdb)⟩
  obtain ⟨before, blocks, hbef, h4, rfl⟩ := hsh
  have hval := C90_validated (L := P.advLib) rfl hdb
  have hin : ∀ w, w ∈ (inOrder r.warnings).flatMap (·.2) ↔ InReport r w := by
    intro w
    rw [List.mem_flatMap]
    constructor
    · rintro ⟨⟨k, ws⟩, hm, hw⟩
      exact ⟨k, ws, (inOrder_perm hcomp.keys).mem_iff.mp hm, hw⟩
    · rintro ⟨k, ws, hm, hw⟩
      exact ⟨(k, ws), (inOrder_perm hcomp.keys).mem_iff.mpr hm, hw⟩
  have hfile : ∀ p ∈ l.packages, ∀ a ∈ db.iter, Concerned c p a → Relevant (some f) a → ∃ g txt, AdvisoryOf P.advLib txt g ∧
      BinFindingOf P B c ch ds data g p.name p.version ∧ a = toAdvisory P.severityOf (withCollection .crates g) := by
    intro p hp a ha hcon hrel
    obtain ⟨col, txt, g, a1, a2, a3, rfl⟩ := (mem_db hdb a).mp ha
    have hcol : col = .crates := Option.some.inj hcon.collection
    subst hcol
    exact ⟨g, txt, a2, (binFindingOf_iff hF hK hno hl g _ _).mpr ⟨p, hp, rfl, rfl, ⟨txt, a1, a2⟩, a3, hcon, hrel⟩, rfl⟩
  have hvuln : ∀ (g : AdvisoryFile) (txt : Str) (p : Package) (block : List TermLine), AdvisoryOf P.advLib txt g →
      toAdvisory P.severityOf (withCollection .crates g) ∈ db.iter →
      Describes T (c.output.deny.flatMap DenyOption.warningKinds)
        (.inl (Vulnerability.new (toAdvisory P.severityOf (withCollection .crates g)) p)) block →
      PrintsVulnerability T g p.name p.version block := by
    intro g txt p block hof hmem hdsc
    obtain ⟨hwf, hnew⟩ := hval _ hmem
    refine ⟨hdsc.crate, ?_, shows_advisory hF hof (hdsc.vulnerability _ rfl), _, hdsc.solution _ rfl, advises (T := T)
      (v := Vulnerability.new (toAdvisory P.severityOf (withCollection .crates g)) p) (f := g) rfl hwf hnew⟩
    rw [← hT]; exact hdsc.version
  have hwarn : ∀ (w : Warning) (g : Option AdvisoryFile) (block : List TermLine),
      (∀ g', g = some g' → (∃ txt, AdvisoryOf P.advLib txt g') ∧
        w.advisory = some (toAdvisory P.severityOf (withCollection .crates g')).metadata) →
      Describes T (c.output.deny.flatMap DenyOption.warningKinds) (.inr w) block →
      PrintsWarning T g w.kind ((c.output.deny.flatMap DenyOption.warningKinds).contains w.kind) w.package.name w.package.version block := by
    intro w g block hg hdsc
    refine ⟨hdsc.crate, ?_, hdsc.warning _ rfl, fun g' hg' => ?_, fun he x hx hr => ?_⟩
    · rw [← hT]; exact hdsc.version
    · obtain ⟨⟨txt, hof⟩, ha⟩ := hg g' hg'
      exact shows_advisory hF hof (hdsc.advisory _ _ rfl ha)
    · have := hdsc.colour x hx hr
      have hk : w.kind ∈ c.output.deny.flatMap DenyOption.warningKinds := this
      rw [List.contains_iff_mem.mpr hk] at he
      cases he
  refine ⟨before, blocks, _, rfl, hbef, total_lines _ _ _ _, fun block hb => ?_, fun g name version hf hi => ?_,
    fun g name version i kind hf hi he hk => ?_, fun name version hy => ?_⟩
  · obtain ⟨x, hx, hdsc⟩ := forall2_right h4 block hb
    unfold findings at hx
    rcases List.mem_append.mp hx with hx | hx
    · obtain ⟨v, hv, rfl⟩ := List.mem_map.mp hx
      obtain ⟨p, hp, a, ha, rfl, hcon, hinf, hrel⟩ := (hcomp.vulnerabilities v).mp hv
      obtain ⟨g, txt, hof, hfo, rfl⟩ := hfile p hp a ha hcon hrel
      exact .vulnerability g _ _ hfo hinf (hvuln g txt p block hof ha hdsc)
    · obtain ⟨w, hw, rfl⟩ := List.mem_map.mp hx
      have hw := (hin w).mp hw
      by_cases hy : w.kind = .yanked
      · obtain ⟨-, -, -, hp, hsaid⟩ := hcomp.yanked w hw hy
        have hsh := hwarn w none block (fun f' hf' => by cases hf') hdsc
        rw [hy] at hsh
        exact .yanked _ _ _ ((binYankedOf_iff hK hno hl _ _).mp ⟨_, hp, rfl, rfl, hsaid⟩) (denied_kinds _ _) hsh
      · obtain ⟨p, hp, a, ha, i, hcon, hinf, hrel, hen, hwa, hpk, had, -⟩ := (hcomp.advisories w).mp ⟨hw, hy⟩
        obtain ⟨g, txt, hof, hfo, rfl⟩ := hfile p hp a ha hcon hrel
        have hsh := hwarn w (some g) block (fun f' hf' => by cases hf'; exact ⟨⟨txt, hof⟩, had⟩) hdsc
        rw [hpk] at hsh
        exact .warning g _ _ i _ _ hfo hinf hen hwa (denied_kinds _ _) hsh
  · obtain ⟨p, hp, rfl, rfl, ⟨txt, a1, a2⟩, a3, hcon, hrel⟩ := (binFindingOf_iff hF hK hno hl g _ _).mp hf
    have hmem := (mem_db hdb _).mpr ⟨.crates, txt, g, a1, a2, a3, rfl⟩
    have hv := (hcomp.vulnerabilities _).mpr ⟨p, hp, _, hmem, rfl, hcon, hi, hrel⟩
    obtain ⟨block, hb, hdsc⟩ := forall2_left h4 (a := .inl _) (List.mem_append_left _ (List.mem_map_of_mem hv))
    exact ⟨block, hb, hvuln g txt p block a2 hmem hdsc⟩
  · obtain ⟨p, hp, rfl, rfl, ⟨txt, a1, a2⟩, a3, hcon, hrel⟩ := (binFindingOf_iff hF hK hno hl g _ _).mp hf
    have hmem := (mem_db hdb _).mpr ⟨.crates, txt, g, a1, a2, a3, rfl⟩
    have hw := (hcomp.advisories ⟨kind, p, some _, _, some _⟩).mpr ⟨p, hp, _, hmem, i, hcon, hi, hrel, he, hk, rfl, rfl, rfl, rfl⟩
    obtain ⟨block, hb, hdsc⟩ := forall2_left h4 (a := .inr _) (List.mem_append_right _ (List.mem_map_of_mem ((hin _).mpr hw.1)))
    exact ⟨block, hb, _, denied_kinds _ _, hwarn _ (some g) block (fun g' hg' => by cases hg'; exact ⟨⟨txt, a2⟩, rfl⟩) hdsc⟩
  · obtain ⟨p, hp, rfl, rfl, hsaid⟩ := (binYankedOf_iff hK hno hl _ _).mpr hy
    obtain ⟨w, hw, hk, e1, e2⟩ := hcomp.allYanked p hp hsaid
    obtain ⟨block, hb, hdsc⟩ := forall2_left h4 (a := .inr w) (List.mem_append_right _ (List.mem_map_of_mem ((hin _).mpr hw)))
    have hsh := hwarn w none block (fun g' hg' => by cases hg') hdsc
    rw [hk, e1, e2] at hsh
    exact ⟨block, hb, _, denied_kinds _ _, hsh⟩

/-- **Property C106**: when the configuration and the database can be read, `cargo audit bin` with terminal output shows
messages, then a piece for each binary in turn, then the advisories about the tool, if there are any.  The piece of a binary
that says what it is made of tells what its bytes and the texts tell, and all of it; that of any other says that the binary
could not be audited, and has no report.  The exit status is 1 exactly if the piece of some binary marks something as an error. -/
theorem C106_terminal (P : Project) (hF : P.fp.Ok) (B : Binaries) (hK : KnowsIndex (P.binLib B)) (cmd : AuditCommand)
    (c : AuditConfig) (hc : Configured P cmd c) (hfmt : c.output.format = .terminal) (ch : Checkout) (hch : CheckoutOf P c ch)
    (hdb : DatabaseReads P.advLib ch) (ms ds : Option Nat) (hms : ms.getD (100 * 1024 * 1024) < 2 ^ 64) (paths : List Str)
    (hsize : ∀ path ∈ paths, ∀ data, B.bytesOf path = some data → data.length < 2 ^ 64)
    (hno : ∀ path ∈ paths, ∀ data, BinaryAt B ms path data → Embedded B ds data = .noAuditData → NoOverlap data)
    (T : TermLib) (hT : T.version = Version.text) (w : Circumstances) :
    ∃ (n : Nat) (before : List Shown) (pieces : List (List Shown)) (selfLines : List TermLine),
      P.binShown B T w cmd ms ds paths = (before ++ pieces.flatten ++ selfLines.map .screen, .code n) ∧
      (P.runBin B cmd ms ds paths).2 = .code n ∧ (∀ x ∈ before, ∃ m, x = .status m) ∧
      List.Forall₂ (fun path piece =>
        ((¬ ∃ data, BinaryAt B ms path data ∧ Scannable B ds data) →
          .status (.binaryFailed path) ∈ piece ∧ ∀ x ∈ piece, ∃ m, x = .status m) ∧
        ∀ data, BinaryAt B ms path data → Scannable B ds data → ToldAll P B T c ch ds data piece) paths pieces ∧
      (n = 1 ↔ ∃ piece ∈ pieces, ∃ x, .screen x ∈ piece ∧ Red x) ∧ (selfLines ≠ [] ↔ ToolAdvisory P ch) := by
  obtain ⟨out, n, hrun, -, -, h1, -⟩ := C93_verdict P hF B hK cmd c hc ch hch hdb ms ds hms paths hsize hno
  obtain ⟨db, hdb⟩ := (C91_database P ch).mpr hdb
  have hpr : ∀ path ∈ paths, ∀ f l, Scans (P.binEnv B) ms ds path f l → Printable c l := by
    rintro path hp f l ⟨data, h1, h2, h3⟩ -
    exact (recovers hK (hno path hp data ⟨h1, h2⟩) h3).2.2.1
  have hfun : ∀ a ∈ db.iter, ∀ af, a.affected = some af → ∀ e ∈ af.functions, e.1 ≠ [] := by
    intro a ha af haf e he
    obtain ⟨col, txt, f, -, h2, -, rfl⟩ := (mem_db hdb a).mp ha
    exact functions_named h2 haf he
  obtain ⟨n', before, pieces, selfLines, g1, g2, g3, g4, g5⟩ := C106_pieces T w (P.binEnv B) c _ (checkoutOf_env hch none) db hdb
    (C90_validated (L := P.advLib) rfl hdb) hfun hfmt ms ds hms paths hsize hpr
  have hb : P.runBin B cmd ms ds paths = Audit.runBin (P.binEnv B) ms ds paths c := by
    unfold Project.runBin
    rw [(configured_iff P cmd c).mpr hc]
  have hnn : n' = n := by
    rw [← hb, hrun] at g2
    cases g2; rfl
  subst hnn
  have hpieces : List.Forall₂ (fun path piece => path ∈ paths ∧
      ((¬ ∃ data, BinaryAt B ms path data ∧ Scannable B ds data) →
        .status (.binaryFailed path) ∈ piece ∧ ∀ x ∈ piece, ∃ m, x = .status m) ∧
      ∀ data, BinaryAt B ms path data → Scannable B ds data → ToldAll P B T c ch ds data piece) paths pieces := by
    have hmem : ∀ (l : List Str) (l' : List (List Shown)) (R : Str → List Shown → Prop), List.Forall₂ R l l' →
        List.Forall₂ (fun a b => a ∈ l ∧ R a b) l l' := by
      intro l l' R h
      induction h with
      | nil => exact .nil
      | cons hd tl ih => exact .cons ⟨by simp, hd⟩ (ih.imp fun a b hab => ⟨by simp [hab.1], hab.2⟩)
    refine (hmem _ _ _ g4).imp fun path piece hp => ⟨hp.1, fun hn => hp.2.1 ?_, fun data hat hsc => ?_⟩
    · rw [scans_iff hK path (hno path hp.1)]; exact hn
    · obtain ⟨f, l, hl⟩ := scannable_recovers hK (hno path hp.1 data hat) hsc
      obtain ⟨r, c1, s1, x1⟩ := hp.2.2 f l ⟨data, hat.1, hat.2, hl⟩
      exact told_all hF hK hdb (hno path hp.1 data hat) hl hT c1 s1 x1
  refine ⟨n', before, pieces, selfLines, ?_, by rw [hrun], g3, hpieces.imp fun _ _ h => h.2, ?_, g5.trans (toolAdvisory_iff none hdb)⟩
  · unfold Project.binShown
    rw [(configured_iff P cmd c).mpr hc]
    exact g1
  · rw [h1]
    constructor
    · rintro ⟨path, hp, data, hat, hsc, hd⟩
      obtain ⟨piece, hm, -, -, hta⟩ := forall2_left hpieces hp
      exact ⟨piece, hm, (hta data hat hsc).errors.mpr hd⟩
    · rintro ⟨piece, hm, x, hx, hr⟩
      obtain ⟨path, hp, -, hn, hta⟩ := forall2_right hpieces piece hm
      by_cases hs : ∃ data, BinaryAt B ms path data ∧ Scannable B ds data
      · obtain ⟨data, hat, hsc⟩ := hs
        exact ⟨path, hp, data, hat, hsc, (hta data hat hsc).errors.mp ⟨x, hx, hr⟩⟩
      · obtain ⟨m, hm⟩ := (hn hs).2 _ hx
        cases hm

end Verif.Props
