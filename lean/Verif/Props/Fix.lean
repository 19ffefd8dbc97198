import Verif.Model.Fix
import Verif.Props.AuditExamples

/-!
# C46: `cargo audit fix`
-/

namespace Verif.Props

open Verif.Audit Verif.Adv Verif.Lock Verif.Semver Verif.Rep Verif.Spec Verif.Yank

/-- No patched or unaffected requirement of the vulnerability's advisory covers the version. -/
def HitBy (v : Vulnerability) (w : Version) : Prop := ∀ r ∈ v.versions.patched ++ v.versions.unaffected, ¬ Covers r w

/-- The vulnerability comes from a validated advisory. -/
def FromValidated (v : Vulnerability) : Prop :=
  (∀ r ∈ v.versions.patched ++ v.versions.unaffected, ReqWF r) ∧
  Osv.Versions.new v.versions.patched v.versions.unaffected = .ok v.versions

open Classical in
theorem fixSpecs_eq (C : Codec) (v : Vulnerability) (hv : FromValidated v) (ps : List Package) :
    fixSpecs C v ps = .ok ((ps.filter fun p => decide (p.name = v.package.name ∧ HitBy v p.version)).map (pkgid C)) := by
  induction ps with
  | nil => rfl
  | cons p ps ih =>
    unfold fixSpecs
    by_cases hn : p.name = v.package.name
    · rw [if_pos hn]
      obtain ⟨b, hb, hiff⟩ := C01_is_vulnerable_iff _ _ _ hv.1 hv.2 p.version
      rw [hb]
      simp only
      rw [ih]
      simp only
      rw [List.filter_cons]
      cases b with
      | true =>
        have hd : decide (p.name = v.package.name ∧ HitBy v p.version) = true := decide_eq_true ⟨hn, hiff.mp rfl⟩
        rw [hd]; rfl
      | false =>
        have hd : decide (p.name = v.package.name ∧ HitBy v p.version) = false :=
          decide_eq_false fun h => Bool.false_ne_true (hiff.mpr h.2)
        rw [hd]; rfl
    · rw [if_neg hn, ih, List.filter_cons, if_neg (by simp [hn])]

open Classical in
/-- The command for a vulnerability. -/
noncomputable def updateFor (C : Codec) (dryRun : Bool) (dir : Option Str) (l : Lockfile) (v : Vulnerability) : UpdateCommand :=
  ⟨dryRun, (l.packages.filter fun p => decide (p.name = v.package.name ∧ HitBy v p.version)).map (pkgid C), dir⟩

/-- The vulnerability has a patched version. -/
def hasPatch (v : Vulnerability) : Bool := !v.versions.patched.isEmpty

theorem fixLoop_eq (W : FixWorld) (C : Codec) (cmd : FixCommand) (l : Lockfile) (dir : Option Str)
    (hdir : cmd.file.map W.parentDir = dir.map some) (vs : List Vulnerability) (hvs : ∀ v ∈ vs, FromValidated v) :
    ∃ n, fixLoop W C cmd l vs = .ok ((vs.filter hasPatch).map (updateFor C cmd.dryRun dir l),
      (vs.filter fun v => !hasPatch v).map (·.advisory.id), n) ∧
      (n = 0 ↔ ∀ c ∈ (vs.filter hasPatch).map (updateFor C cmd.dryRun dir l), W.spawns c = true) := by
  induction vs with
  | nil => exact ⟨0, rfl, by simp⟩
  | cons v vs ih =>
    obtain ⟨n, e, hn⟩ := ih fun v hv => hvs v (by simp [hv])
    unfold fixLoop
    rw [e]
    by_cases hp : v.versions.patched.isEmpty = true
    · rw [if_pos hp]
      refine ⟨n, ?_, ?_⟩
      · simp [hasPatch, hp]
      · rw [hn]; simp [hasPatch, hp]
    · rw [if_neg hp, fixSpecs_eq C v (hvs v (by simp))]
      simp only
      rw [hdir]
      have hp' : hasPatch v = true := by simpa [hasPatch] using hp
      have key : ∀ c : UpdateCommand, c = updateFor C cmd.dryRun dir l v →
          ∃ m, (Outcome.ok (c :: (vs.filter hasPatch).map (updateFor C cmd.dryRun dir l),
              (vs.filter fun v => !hasPatch v).map (·.advisory.id), if W.spawns c then n else n + 1)) =
            .ok (((v :: vs).filter hasPatch).map (updateFor C cmd.dryRun dir l),
              ((v :: vs).filter fun v => !hasPatch v).map (·.advisory.id), m) ∧
            (m = 0 ↔ ∀ c ∈ ((v :: vs).filter hasPatch).map (updateFor C cmd.dryRun dir l), W.spawns c = true) := by
        rintro c rfl
        refine ⟨if W.spawns (updateFor C cmd.dryRun dir l v) then n else n + 1, by simp [hp'], ?_⟩
        simp only [List.filter_cons, hp', if_true, List.map_cons, List.forall_mem_cons]
        cases W.spawns (updateFor C cmd.dryRun dir l v) <;> simp [hn]
      cases dir with
      | none => exact key _ rfl
      | some d => exact key _ rfl

/-- The first audit. -/
theorem auditLockfile_spec (env : Env) (c : AuditConfig) (path : Str) (t : Db.Tree) (hco : env.checkout c = some t)
    (db : Db.Database) (h : Db.Database.open t = .ok db) (hval : ∀ a ∈ db.iter, Validated a) (l : Lockfile)
    (hl : env.loadLock path = some l) (hpr : Printable c l) :
    ∃ r, auditLockfile env c path = .ok (some r) ∧ Complete env c db l none r ∧
      ∀ v ∈ r.vulnerabilities.list, FromValidated v := by
  obtain ⟨a, e1, ha⟩ := new_ready env c t hco db h
  obtain ⟨a', r, out, e2, ha', -, -, hcomp, hsh, hex⟩ := audit_spec env c t db h hval a ha l none hpr
  obtain ⟨self, e3, -⟩ := selfAdvisories_spec env t db h hval a' ha'.database
  refine ⟨r, ?_, hcomp, fun v hv => ?_⟩
  · unfold auditLockfile
    rw [e1]; simp only; rw [hl]; simp only; rw [e2]; simp only; rw [e3]
  · obtain ⟨p, -, a, ha, rfl, -⟩ := (hcomp.vulnerabilities v).mp hv
    exact hval a ha

open Classical in
/-- **C46.**  For the lockfile of the audit: `cargo update` is run once for every vulnerability that has a patched
version, in order, naming the packages of that name in the lockfile whose version the advisory hits; it is run nowhere
else, and with `--dry-run` exactly if asked for.  If a command cannot be run the exit status is 2; otherwise, in a dry
run, 1 if some vulnerability has no patched version, else 0. -/
theorem C46_fix (W : FixWorld) (cmd : FixCommand) (c : AuditConfig) (path : Str)
    (hloc : W.before.locate cmd.file = some path) (t : Db.Tree) (hco : W.before.checkout c = some t) (db : Db.Database)
    (h : Db.Database.open t = .ok db) (hval : ∀ a ∈ db.iter, Validated a) (l : Lockfile)
    (hl : W.before.loadLock path = some l) (hpr : Printable c l) (hfile : W.loadFile path = some l) (dir : Option Str)
    (hdir : cmd.file.map W.parentDir = dir.map some) :
    ∃ r, Complete W.before c db l none r ∧
      (runFix W cmd c).commands = (r.vulnerabilities.list.filter fun v => decide (v.versions.patched ≠ [])).map (fun v =>
        ⟨cmd.dryRun, (l.packages.filter fun p => decide (p.name = v.package.name ∧ HitBy v p.version)).map
          (pkgid W.before.codec), dir⟩) ∧
      (runFix W cmd c).unpatchable = (r.vulnerabilities.list.filter fun v => decide (v.versions.patched = [])).map (·.advisory.id) ∧
      ((∃ u ∈ (runFix W cmd c).commands, W.spawns u = false) → (runFix W cmd c).exit = .code 2) ∧
      ((∀ u ∈ (runFix W cmd c).commands, W.spawns u = true) → cmd.dryRun = true →
        (runFix W cmd c).exit = if ∃ v ∈ r.vulnerabilities.list, v.versions.patched = [] then .code 1 else .code 0) ∧
      (r.vulnerabilities.list = [] → runFix W cmd c = { exit := .code 0 }) := by
  obtain ⟨r, e1, hcomp, hv⟩ := auditLockfile_spec W.before c path t hco db h hval l hl hpr
  obtain ⟨n, e2, hn⟩ := fixLoop_eq W W.before.codec cmd l dir hdir r.vulnerabilities.list hv
  have f1 : (r.vulnerabilities.list.filter fun v => decide (v.versions.patched ≠ [])) = r.vulnerabilities.list.filter hasPatch := by
    apply List.filter_congr; intro v _; simp [hasPatch]; cases v.versions.patched <;> simp
  have f2 : (r.vulnerabilities.list.filter fun v => decide (v.versions.patched = [])) =
      r.vulnerabilities.list.filter (fun v => !hasPatch v) := by
    apply List.filter_congr; intro v _; simp [hasPatch]; cases v.versions.patched <;> simp
  refine ⟨r, hcomp, ?_⟩
  rw [f1, f2]
  change _ = (r.vulnerabilities.list.filter hasPatch).map (updateFor W.before.codec cmd.dryRun dir l) ∧ _
  by_cases hemp : r.vulnerabilities.list.isEmpty = true
  · have hrun : runFix W cmd c = { exit := .code 0 } := by
      unfold runFix; rw [hloc]; simp only; rw [e1]; simp only; rw [if_pos hemp]
    rw [hrun]
    rw [List.isEmpty_iff] at hemp
    rw [hemp]
    simp
  · have hcs : (runFix W cmd c).commands = (r.vulnerabilities.list.filter hasPatch).map (updateFor W.before.codec cmd.dryRun dir l) ∧
        (runFix W cmd c).unpatchable = (r.vulnerabilities.list.filter fun v => !hasPatch v).map (·.advisory.id) ∧
        (n ≠ 0 → (runFix W cmd c).exit = .code 2) ∧
        (n = 0 → cmd.dryRun = true → (runFix W cmd c).exit =
          if ((r.vulnerabilities.list.filter fun v => !hasPatch v).map (·.advisory.id)).isEmpty then .code 0 else .code 1) := by
      unfold runFix; rw [hloc]; simp only; rw [e1]; simp only; rw [if_neg hemp, hfile]; simp only; rw [e2]; simp only
      by_cases h0 : n = 0
      · rw [if_neg (by simp [h0])]
        by_cases hd : cmd.dryRun = true
        · rw [if_pos hd]
          exact ⟨rfl, rfl, fun h => absurd h0 h, fun _ _ => rfl⟩
        · rw [if_neg hd]
          cases auditLockfile (W.after ((r.vulnerabilities.list.filter hasPatch).map (updateFor W.before.codec cmd.dryRun dir l)))
              { c with output := { c.output with quiet := true } } path with
          | error e => exact ⟨rfl, rfl, fun h => absurd h0 h, fun _ h => absurd h hd⟩
          | ok o => cases o <;> exact ⟨rfl, rfl, fun h => absurd h0 h, fun _ h => absurd h hd⟩
      · rw [if_pos h0]
        exact ⟨rfl, rfl, fun _ => rfl, fun h => absurd h h0⟩
    obtain ⟨g1, g2, g3, g4⟩ := hcs
    refine ⟨g1, g2, ?_, ?_, ?_⟩
    · rintro ⟨u, hu, hs⟩
      apply g3
      intro h0
      rw [g1] at hu
      rw [hn.mp h0 u hu] at hs
      cases hs
    · intro hs hd
      rw [g1] at hs
      rw [g4 (hn.mpr hs) hd]
      by_cases hex : ∃ v ∈ r.vulnerabilities.list, v.versions.patched = []
      · obtain ⟨v, hv, he⟩ := hex
        have h1 : ¬ ((r.vulnerabilities.list.filter fun v => !hasPatch v).map (·.advisory.id)).isEmpty = true := by
          rw [List.isEmpty_iff, List.map_eq_nil_iff, List.filter_eq_nil_iff]
          intro h
          exact h v hv (by simp [hasPatch, he])
        rw [if_neg h1]
        exact (if_pos ⟨v, hv, he⟩).symm
      · have h1 : ((r.vulnerabilities.list.filter fun v => !hasPatch v).map (·.advisory.id)).isEmpty = true := by
          rw [List.isEmpty_iff, List.map_eq_nil_iff, List.filter_eq_nil_iff]
          intro v hv h
          exact hex ⟨v, hv, by simpa [hasPatch] using h⟩
        rw [if_pos h1]
        exact (if_neg hex).symm
    · intro h; rw [h] at hemp; exact absurd rfl hemp

/-- **C46, the package is named.**  Every vulnerability with a patched version gets a command that names the vulnerable
package itself, and every package that a command names is in the lockfile, has the name of a vulnerable package and a
version its advisory hits. -/
theorem C46_named (W : FixWorld) (cmd : FixCommand) (c : AuditConfig) (path : Str)
    (hloc : W.before.locate cmd.file = some path) (t : Db.Tree) (hco : W.before.checkout c = some t) (db : Db.Database)
    (h : Db.Database.open t = .ok db) (hval : ∀ a ∈ db.iter, Validated a) (l : Lockfile)
    (hl : W.before.loadLock path = some l) (hpr : Printable c l) (hfile : W.loadFile path = some l) (dir : Option Str)
    (hdir : cmd.file.map W.parentDir = dir.map some) :
    (∀ p ∈ l.packages, ∀ a ∈ db.iter, Concerned c p a → a.metadata.informational = none → a.versions.patched ≠ [] →
      ∃ u ∈ (runFix W cmd c).commands, pkgid W.before.codec p ∈ u.specs) ∧
    (∀ u ∈ (runFix W cmd c).commands, u.dryRun = cmd.dryRun ∧ u.dir = dir ∧ ∃ a ∈ db.iter, a.versions.patched ≠ [] ∧
      a.metadata.informational = none ∧ (∃ p ∈ l.packages, Concerned c p a) ∧
      ∀ s, s ∈ u.specs ↔ ∃ p ∈ l.packages, s = pkgid W.before.codec p ∧ p.name = a.metadata.package ∧ Exposed a p.version) := by
  classical
  obtain ⟨r, hcomp, hcs, -⟩ := C46_fix W cmd c path hloc t hco db h hval l hl hpr hfile dir hdir
  rw [hcs]
  constructor
  · intro p hp a ha hc hi hpa
    refine ⟨_, List.mem_map.mpr ⟨Vulnerability.new a p, List.mem_filter.mpr
      ⟨(hcomp.vulnerabilities _).mpr ⟨p, hp, a, ha, rfl, hc, hi, fun f h => by cases h⟩, decide_eq_true hpa⟩, rfl⟩, ?_⟩
    refine List.mem_map.mpr ⟨p, List.mem_filter.mpr ⟨hp, ?_⟩, rfl⟩
    rw [decide_eq_true_iff]
    exact ⟨rfl, hc.exposed⟩
  · intro u hu
    obtain ⟨v, hv, rfl⟩ := List.mem_map.mp hu
    obtain ⟨hv, hpa⟩ := List.mem_filter.mp hv
    rw [decide_eq_true_iff] at hpa
    obtain ⟨p, hp, a, ha, rfl, hc, hi, -⟩ := (hcomp.vulnerabilities v).mp hv
    refine ⟨rfl, rfl, a, ha, hpa, hi, ⟨p, hp, hc⟩, fun s => ?_⟩
    simp only [List.mem_map, List.mem_filter, decide_eq_true_iff]
    constructor
    · rintro ⟨q, ⟨hq, h1, h2⟩, rfl⟩
      exact ⟨q, hq, rfl, h1.trans hc.name.symm, h2⟩
    · rintro ⟨q, hq, rfl, h1, h2⟩
      exact ⟨q, ⟨hq, h1.trans hc.name, h2⟩, rfl⟩

/-- **C46, afterwards.**  When all commands could be run and it is not a dry run, the lockfile is audited again; the IDs
warned about as unfixed are those of the remaining vulnerabilities that had a patched version, or were not there before;
the counts add up; and the exit status is 0 **even if vulnerabilities remain**. -/
theorem C46_after (W : FixWorld) (cmd : FixCommand) (c : AuditConfig) (path : Str)
    (hloc : W.before.locate cmd.file = some path) (t : Db.Tree) (hco : W.before.checkout c = some t) (db : Db.Database)
    (h : Db.Database.open t = .ok db) (hval : ∀ a ∈ db.iter, Validated a) (l : Lockfile)
    (hl : W.before.loadLock path = some l) (hpr : Printable c l) (hfile : W.loadFile path = some l) (dir : Option Str)
    (hdir : cmd.file.map W.parentDir = dir.map some) (hv : HasVulnerability c db l none)
    (hrun : ∀ u ∈ (runFix W cmd c).commands, W.spawns u = true) (hdry : cmd.dryRun = false)
    (t' : Db.Tree) (hco' : (W.after (runFix W cmd c).commands).checkout c = some t') (db' : Db.Database)
    (h' : Db.Database.open t' = .ok db') (hval' : ∀ a ∈ db'.iter, Validated a) (l' : Lockfile)
    (hl' : (W.after (runFix W cmd c).commands).loadLock path = some l') (hpr' : Printable c l') :
    (runFix W cmd c).exit = .code 0 ∧
    ∃ unfixed fixed remaining, (runFix W cmd c).unfixed = some unfixed ∧ (runFix W cmd c).counts = some (fixed, remaining) ∧
      (remaining = 0 ↔ ¬ HasVulnerability c db' l' none) ∧
      (∀ i, i ∈ unfixed ↔ ∃ p ∈ l'.packages, ∃ a ∈ db'.iter, Concerned c p a ∧ a.metadata.informational = none ∧
        a.metadata.id = i ∧
        ¬ ∃ q ∈ l.packages, ∃ b ∈ db.iter, Concerned c q b ∧ b.metadata.informational = none ∧ b.metadata.id = i ∧
          b.versions.patched = []) := by
  obtain ⟨r, e1, hcomp, hfv⟩ := auditLockfile_spec W.before c path t hco db h hval l hl hpr
  obtain ⟨n, e2, hn⟩ := fixLoop_eq W W.before.codec cmd l dir hdir r.vulnerabilities.list hfv
  have hne : ¬ r.vulnerabilities.list.isEmpty = true := by
    obtain ⟨p, hp, a, ha, hc, hi, hrel⟩ := hv
    have := (hcomp.vulnerabilities _).mpr ⟨p, hp, a, ha, rfl, hc, hi, hrel⟩
    intro he
    rw [List.isEmpty_iff.mp he] at this
    cases this
  set cs := (r.vulnerabilities.list.filter hasPatch).map (updateFor W.before.codec cmd.dryRun dir l) with hcs
  set us := (r.vulnerabilities.list.filter fun v => !hasPatch v).map (·.advisory.id) with hus
  have hstep : ∀ X, afterFix cs us r (auditLockfile (W.after cs) { c with output := { c.output with quiet := true } } path) = X →
      n = 0 → runFix W cmd c = X := by
    intro X hX h0
    rw [← hX]
    unfold runFix; rw [hloc]; simp only; rw [e1]; simp only; rw [if_neg hne, hfile]; simp only; rw [e2]; simp only
    rw [if_neg (by simp [h0]), if_neg (by simp [hdry])]
  have hcommands : (runFix W cmd c).commands = cs := by
    classical
    by_cases h0 : n = 0
    · have := hstep _ rfl h0
      rw [this]
      cases auditLockfile (W.after cs) { c with output := { c.output with quiet := true } } path with
      | error e => rfl
      | ok o => cases o <;> rfl
    · unfold runFix; rw [hloc]; simp only; rw [e1]; simp only; rw [if_neg hne, hfile]; simp only; rw [e2]; simp only
      rw [if_pos h0]
  rw [hcommands] at hrun hco' hl'
  have h0 : n = 0 := hn.mpr hrun
  obtain ⟨r', e1', hcomp', -⟩ := auditLockfile_spec (W.after cs) { c with output := { c.output with quiet := true } } path t'
    hco' db' h' hval' l' hl' hpr'
  have hconc : ∀ p a, Concerned { c with output := { c.output with quiet := true } } p a ↔ Concerned c p a := by
    intro p a
    exact ⟨fun ⟨a1, a2, a3, a4, a5, a6, a7, a8, a9, a10⟩ => ⟨a1, a2, a3, a4, a5, a6, a7, a8, a9, a10⟩,
      fun ⟨a1, a2, a3, a4, a5, a6, a7, a8, a9, a10⟩ => ⟨a1, a2, a3, a4, a5, a6, a7, a8, a9, a10⟩⟩
  have hX := hstep _ rfl h0
  rw [e1'] at hX
  rw [hX]
  refine ⟨rfl, _, _, _, rfl, rfl, ?_, ?_⟩
  · rw [List.length_eq_zero_iff, List.eq_nil_iff_forall_not_mem]
    constructor
    · rintro hno ⟨p, hp, a, ha, hc, hi, hrel⟩
      exact hno _ ((hcomp'.vulnerabilities _).mpr ⟨p, hp, a, ha, rfl, (hconc p a).mpr hc, hi, hrel⟩)
    · intro hno v hv
      obtain ⟨p, hp, a, ha, rfl, hc, hi, hrel⟩ := (hcomp'.vulnerabilities v).mp hv
      exact hno ⟨p, hp, a, ha, (hconc p a).mp hc, hi, hrel⟩
  · intro i
    have hmu : i ∈ us ↔ ∃ q ∈ l.packages, ∃ b ∈ db.iter, Concerned c q b ∧ b.metadata.informational = none ∧ b.metadata.id = i ∧
          b.versions.patched = [] := by
      rw [hus, List.mem_map]
      constructor
      · rintro ⟨v, hv, rfl⟩
        obtain ⟨hv, hp⟩ := List.mem_filter.mp hv
        obtain ⟨p, hp', a, ha, rfl, hc, hi, -⟩ := (hcomp.vulnerabilities v).mp hv
        refine ⟨p, hp', a, ha, hc, hi, rfl, ?_⟩
        exact List.isEmpty_iff.mp (by simpa [hasPatch] using hp : (Vulnerability.new a p).versions.patched.isEmpty = true)
      · rintro ⟨q, hq, b, hb, hc, hi, rfl, hpa⟩
        refine ⟨Vulnerability.new b q, List.mem_filter.mpr ⟨(hcomp.vulnerabilities _).mpr
          ⟨q, hq, b, hb, rfl, hc, hi, fun f h => by cases h⟩, ?_⟩, rfl⟩
        have : (Vulnerability.new b q).versions.patched = [] := hpa
        simp [hasPatch, this]
    rw [← hmu]
    rw [List.mem_filter, List.mem_map]
    constructor
    · rintro ⟨⟨v, hv, rfl⟩, hnot⟩
      obtain ⟨p, hp, a, ha, rfl, hc, hi, -⟩ := (hcomp'.vulnerabilities v).mp hv
      exact ⟨p, hp, a, ha, (hconc p a).mp hc, hi, rfl, by simpa using hnot⟩
    · rintro ⟨p, hp, a, ha, hc, hi, rfl, hnot⟩
      exact ⟨⟨Vulnerability.new a p, (hcomp'.vulnerabilities _).mpr ⟨p, hp, a, ha, rfl, (hconc p a).mpr hc, hi, fun f h => by cases h⟩,
        rfl⟩, by simpa using hnot⟩

/-! ## Examples and violations -/

/-- A lockfile that also has a git package of the vulnerable name. -/
def fixLock : Lockfile :=
  { auditLock with packages := auditLock.packages ++
      [{ name := "foo".toList, version := ⟨1, 0, 0, [], []⟩, source := some (gitBranch "dev" (some "abc")) }] }

/-- A world in which `cargo update` fixes nothing. -/
def fixWorld (l : Lockfile) : FixWorld where
  before := { auditEnv exTree false with loadLock := fun _ => some l }
  loadFile := fun p => if p = "-".toList then none else some l
  parentDir := fun _ => some "/dir".toList
  spawns := fun _ => true
  after := fun _ => { auditEnv exTree false with loadLock := fun _ => some l }

/-- The hypotheses of `C46_fix` are met, with a vulnerability. -/
example :
    (fixWorld auditLock).before.locate none = some "Cargo.lock".toList ∧
    (fixWorld auditLock).before.checkout {} = some exTree ∧
    (fixWorld auditLock).before.loadLock "Cargo.lock".toList = some auditLock ∧
    (runFix (fixWorld auditLock) { dryRun := true } {}).commands =
      [⟨true, ["registry+https://github.com/rust-lang/crates.io-index#foo@1.1.0".toList], none⟩] ∧
    (runFix (fixWorld auditLock) { dryRun := true } {}).exit = .code 0 := by
  refine ⟨?_, rfl, ?_, ?_, ?_⟩ <;> decide +kernel

/-- **C46 (violation).**  `cargo audit fix` exits with status 0 although the vulnerability with a patched version is still
there (and its ID is printed as one that could not be fixed). -/
theorem C46_exit_zero_unfixed :
    (runFix (fixWorld auditLock) {} {}).exit = .code 0 ∧
    (runFix (fixWorld auditLock) {} {}).unfixed = some [exAdvisory.metadata.id] ∧
    (runFix (fixWorld auditLock) {} {}).counts = some (0, 1) := by
  refine ⟨?_, ?_, ?_⟩ <;> decide +kernel

/-- **C46 (violation).**  The command also names packages of the same name that do not come from crates.io and are not in
the report; the specification of a git package has two `#`. -/
theorem C46_names_other_sources :
    (runFix (fixWorld fixLock) {} {}).commands =
      [⟨false, ["registry+https://github.com/rust-lang/crates.io-index#foo@1.1.0".toList,
        pkgid toyCodec { name := "foo".toList, version := ⟨1, 0, 0, [], []⟩, source := some (gitBranch "dev" (some "abc")) }],
        none⟩] ∧
    ((pkgid toyCodec { name := "foo".toList, version := ⟨1, 0, 0, [], []⟩, source := some (gitBranch "dev" (some "abc")) }).filter
      (· == '#')).length = 2 := by
  refine ⟨?_, ?_⟩ <;> decide +kernel

/-- **C46 (violation).**  When the audited lockfile is not a file that can be read again (as with `--file -`), finding a
vulnerability makes the command panic: no fix is attempted. -/
theorem C46_stdin_panics (W : FixWorld) (cmd : FixCommand) (c : AuditConfig) (path : Str)
    (hloc : W.before.locate cmd.file = some path) (t : Db.Tree) (hco : W.before.checkout c = some t) (db : Db.Database)
    (h : Db.Database.open t = .ok db) (hval : ∀ a ∈ db.iter, Validated a) (l : Lockfile)
    (hl : W.before.loadLock path = some l) (hpr : Printable c l) (hv : HasVulnerability c db l none)
    (hfile : W.loadFile path = none) : runFix W cmd c = { exit := .panic } := by
  obtain ⟨r, e1, hcomp, hfv⟩ := auditLockfile_spec W.before c path t hco db h hval l hl hpr
  have hne : ¬ r.vulnerabilities.list.isEmpty = true := by
    obtain ⟨p, hp, a, ha, hc, hi, hrel⟩ := hv
    have := (hcomp.vulnerabilities _).mpr ⟨p, hp, a, ha, rfl, hc, hi, hrel⟩
    intro he
    rw [List.isEmpty_iff.mp he] at this
    cases this
  unfold runFix; rw [hloc]; simp only; rw [e1]; simp only; rw [if_neg hne, hfile]

example : runFix (fixWorld auditLock) { file := some "-".toList } {} = { exit := .panic } := by decide +kernel

/-- **C46 (errors).**  Without a lockfile, or with one that cannot be read, `fix` exits with 2; without a database it exits
with 1.  In each case it runs no command and reports nothing. -/
theorem C46_errors (W : FixWorld) (cmd : FixCommand) (c : AuditConfig) :
    (W.before.locate cmd.file = none → runFix W cmd c = { exit := .code 2 }) ∧
    (∀ path, W.before.locate cmd.file = some path →
      (W.before.checkout c = none → runFix W cmd c = { exit := .code 1 }) ∧
      (∀ t, W.before.checkout c = some t → Db.Database.open t = .err → runFix W cmd c = { exit := .code 1 }) ∧
      (∀ t db, W.before.checkout c = some t → Db.Database.open t = .ok db → W.before.loadLock path = none →
        runFix W cmd c = { exit := .code 2 })) := by
  refine ⟨fun h => by unfold runFix; rw [h], fun path hp => ⟨fun h => ?_, fun t h h' => ?_, fun t db h h' h'' => ?_⟩⟩
  · unfold runFix auditLockfile Auditor.new; rw [hp]; simp only; rw [h]
  · unfold runFix auditLockfile Auditor.new; rw [hp]; simp only; rw [h]; simp only; rw [h']
  · unfold runFix auditLockfile Auditor.new; rw [hp]; simp only; rw [h]; simp only; rw [h']; simp only; rw [h'']

/-- Each of the errors occurs. -/
example : runFix { fixWorld auditLock with before := { (fixWorld auditLock).before with fetchRepo := fun _ _ _ => none } } {} {} =
    { exit := .code 1 } := by decide +kernel

end Verif.Props
