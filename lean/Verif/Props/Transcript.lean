import Verif.Spec.Transcript
import Verif.Props.Terminal

/-!
# C89: the transcript of a run
-/

namespace Verif.Props

open Verif.Audit Verif.Adv Verif.Db Verif.Rep Verif.Lock Verif.Bin Verif.Semver Verif.Spec

/-! ### Quiet or not, the rest is the same -/

/-- A function on results. -/
def omap {α β : Type} (f : α → β) : Outcome α → Outcome β
  | .ok a => .ok (f a)
  | .err => .err
  | .panic => .panic

/-- The presenter of a quiet, or not quiet, run. -/
def hush (b : Bool) (p : Presenter) : Presenter := { p with config := { p.config with quiet := b } }

/-- The auditor of a quiet, or not quiet, run. -/
def hushed (b : Bool) (a : Auditor) : Auditor := { a with presenter := hush b a.presenter }

theorem printTree_hush (C : Codec) (b : Bool) (p : Presenter) (pkg : Package) (t : Lock.Tree) :
    (hush b p).printTree C pkg t = omap (fun x => (hush b x.1, x.2)) (p.printTree C pkg t) := by
  unfold Presenter.printTree
  by_cases h : (p.displayed.any fun d => decide ((Dependency.ofPackage pkg).cmp d = .eq)) = true
  · rw [if_pos h]
    have h' : ((hush b p).displayed.any fun d => decide ((Dependency.ofPackage pkg).cmp d = .eq)) = true := h
    rw [if_pos h']
    rfl
  · rw [if_neg h]
    have h' : ¬ ((hush b p).displayed.any fun d => decide ((Dependency.ofPackage pkg).cmp d = .eq)) = true := h
    rw [if_neg h']
    have hc : (hush b p).config.showTree = p.config.showTree := rfl
    simp only [hc]
    cases p.config.showTree with
    | false => rfl
    | true =>
      simp only [Bool.not_true, Bool.false_eq_true, if_false]
      cases t.nodes.get (Dependency.ofPackage pkg) with
      | none => rfl
      | some i => dsimp only; cases t.render C i .incoming false <;> rfl

theorem printVulns_hush (C : Codec) (t : Lock.Tree) (b : Bool) (vs : List Vulnerability) (p : Presenter) :
    (hush b p).printVulns C t vs = omap (fun x => (hush b x.1, x.2)) (p.printVulns C t vs) := by
  induction vs generalizing p with
  | nil => rfl
  | cons v vs ih =>
    unfold Presenter.printVulns
    rw [printTree_hush]
    cases p.printTree C v.package t with
    | err => rfl
    | panic => rfl
    | ok x =>
      obtain ⟨p', tree⟩ := x
      simp only [omap]
      rw [ih]
      cases p'.printVulns C t vs with
      | err => rfl
      | panic => rfl
      | ok y => rfl

theorem printWarnings_hush (C : Codec) (t : Lock.Tree) (b : Bool) (ws : List Warning) (p : Presenter) :
    (hush b p).printWarnings C t ws = omap (fun x => (hush b x.1, x.2)) (p.printWarnings C t ws) := by
  induction ws generalizing p with
  | nil => rfl
  | cons w ws ih =>
    unfold Presenter.printWarnings
    rw [printTree_hush]
    cases p.printTree C w.package t with
    | err => rfl
    | panic => rfl
    | ok x =>
      obtain ⟨p', tree⟩ := x
      simp only [omap]
      rw [ih]
      cases p'.printWarnings C t ws with
      | err => rfl
      | panic => rfl
      | ok y => rfl

theorem printReport_hush (C : Codec) (b : Bool) (p : Presenter) (r : Report) (l : Lockfile) :
    (hush b p).printReport C r l = omap (fun x => (hush b x.1, x.2)) (p.printReport C r l) := by
  unfold Presenter.printReport
  have hf : (hush b p).config.format = p.config.format := rfl
  rw [hf]
  cases p.config.format with
  | json => rfl
  | sarif => rfl
  | terminal =>
    dsimp only
    cases Lock.Tree.new l with
    | err => rfl
    | panic => rfl
    | ok t =>
      dsimp only
      rw [printVulns_hush]
      cases p.printVulns C t r.vulnerabilities.list with
      | err => rfl
      | panic => rfl
      | ok x =>
        obtain ⟨p1, items1⟩ := x
        simp only [omap]
        rw [printWarnings_hush]
        cases p1.printWarnings C t ((inOrder r.warnings).flatMap (·.2)) with
        | err => rfl
        | panic => rfl
        | ok y => rfl

theorem checkYanked_hush (env : Env) (b : Bool) (a : Auditor) (l : Lockfile) :
    (hushed b a).checkYanked env l = (hushed b (a.checkYanked env l).1, (a.checkYanked env l).2) := by
  unfold Auditor.checkYanked
  have : (hushed b a).index = a.index := rfl
  rw [this]
  cases a.index <;> rfl

theorem audit_hush (env : Env) (b : Bool) (a : Auditor) (l : Lockfile) (f : Option BinaryFormat) :
    (hushed b a).audit env l f = omap (fun x => (hushed b x.1, x.2)) (a.audit env l f) := by
  unfold Auditor.audit
  have hd : (hushed b a).database = a.database := rfl
  have hs : (hushed b a).settings = a.settings := rfl
  rw [hd, hs]
  cases Report.generate a.database l.packages a.settings with
  | none => rfl
  | some r =>
    dsimp only
    cases filterFor f r with
    | none => rfl
    | some r =>
      dsimp only
      rw [checkYanked_hush]
      obtain ⟨a1, yanked⟩ := a.checkYanked env l
      dsimp only
      have hp : (hushed b a1).presenter = hush b a1.presenter := rfl
      rw [hp, printReport_hush]
      cases a1.presenter.printReport env.codec (if yanked.isEmpty then r else { r with warnings := appendYanked yanked r.warnings }) l with
      | err => rfl
      | panic => rfl
      | ok x => rfl

theorem new_hush (env : Env) (b : Bool) (c : AuditConfig) :
    Auditor.new env (c.quietly b) = omap (hushed b) (Auditor.new env c) := by
  unfold Auditor.new
  have h1 : env.checkout (c.quietly b) = env.checkout c := rfl
  have h2 : env.openRegistry (c.quietly b) = env.openRegistry c := rfl
  rw [h1, h2]
  cases env.checkout c with
  | none => rfl
  | some t =>
    dsimp only
    cases Db.Database.open t <;> rfl

theorem isQuiet_iff (c : OutputConfig) : c.isQuiet = true ↔ Quiet c := by
  unfold OutputConfig.isQuiet Quiet
  simp [or_assoc]

theorem isQuiet_false (c : OutputConfig) (h : c.format = .terminal) : c.isQuiet = c.quiet := by
  unfold OutputConfig.isQuiet
  rw [h]
  simp

/-- The lines without chatter. -/
def plain (l : List Shown) : List Shown := l.filter fun x => !x.chatter

theorem plain_append (l r : List Shown) : plain (l ++ r) = plain l ++ plain r := List.filter_append _ _

theorem plain_screen (l : List TermLine) : plain (l.map .screen) = l.map .screen := by
  unfold plain
  rw [List.filter_eq_self]
  intro x hx
  obtain ⟨t, _, rfl⟩ := List.mem_map.mp hx
  rfl

theorem say_plain (c : OutputConfig) (m : Msg) (h : Chatter m) : plain (say c m) = [] := by
  unfold say plain
  split
  · simp [Shown.chatter, h]
  · rfl

theorem plain_fetching (c : OutputConfig) (url : Str) : plain (say c (.fetching url)) = [] := say_plain c _ trivial

theorem plain_updating (c : OutputConfig) : plain (say c (.updating)) = [] := say_plain c _ trivial

theorem plain_updateFailed (c : OutputConfig) : plain (say c (.updateFailed)) = [] := say_plain c _ trivial

theorem plain_openFailed (c : OutputConfig) : plain (say c (.openFailed)) = [] := say_plain c _ trivial

theorem plain_loaded (c : OutputConfig) (n : Nat) (path : Str) : plain (say c (.loaded n path)) = [] := say_plain c _ trivial

theorem plain_scanning (c : OutputConfig) (path : Str) (n : Nat) : plain (say c (.scanning path n)) = [] := say_plain c _ trivial

theorem plain_noDependencies (c : OutputConfig) (path : Str) : plain (say c (.noDependencies path)) = [] := say_plain c _ trivial

theorem plain_auditable (c : OutputConfig) (path : Str) (n : Nat) : plain (say c (.auditable path n)) = [] := say_plain c _ trivial

theorem plain_notAuditable (c : OutputConfig) (path : Str) (n : Nat) : plain (say c (.notAuditable path n)) = [] := say_plain c _ trivial

theorem say_quiet (c : OutputConfig) (m : Msg) (h : Quiet c) : say c m = [] := by
  unfold say
  rw [(isQuiet_iff c).2 h]
  rfl

theorem plain_busy (b : Bool) (path : Str) :
    plain (if b then [.status (.waiting path)] else []) = (if b then [.status (.waiting path)] else []) := by
  cases b <;> rfl

theorem fetchLines_quiet (w : Circumstances) (env : Env) (c : AuditConfig) (b : Bool) (h : Quiet (c.quietly b).output) :
    fetchLines w env (c.quietly b) = plain (fetchLines w env c) := by
  unfold fetchLines
  have hf : (c.quietly b).database = c.database := rfl
  rw [hf]
  cases c.database.fetch with
  | false => rfl
  | true =>
    simp only [if_true]
    rw [say_quiet _ _ h, plain_append, plain_fetching, plain_busy]

theorem indexLines_quiet (w : Circumstances) (env : Env) (c : AuditConfig) (b : Bool) (h : Quiet (c.quietly b).output) :
    indexLines w env (c.quietly b) = plain (indexLines w env c) := by
  unfold indexLines
  have hf : (c.quietly b).database = c.database := rfl
  have hy : (c.quietly b).yanked = c.yanked := rfl
  rw [hf, hy]
  dsimp only
  cases c.yanked.enabled with
  | false => rfl
  | true =>
    simp only [if_true]
    rw [say_quiet _ _ h, say_quiet _ _ h, say_quiet _ _ h]
    split
    · rw [plain_append, plain_append, plain_updating, plain_busy]
      cases env.fetchIndex with
      | true => rfl
      | false => simp only [Bool.false_eq_true, if_false]; rw [plain_updateFailed]
    · rw [plain_append, plain_busy]
      cases env.openIndex with
      | true => rfl
      | false => simp only [Bool.false_eq_true, if_false]; rw [plain_openFailed]

theorem newLines_quiet (w : Circumstances) (env : Env) (c : AuditConfig) (b : Bool) (h : Quiet (c.quietly b).output) :
    newLines w env (c.quietly b) = plain (newLines w env c) := by
  unfold newLines
  have h1 : env.checkout (c.quietly b) = env.checkout c := rfl
  rw [h1, fetchLines_quiet w env c b h]
  cases env.checkout c with
  | none => rw [plain_append]; rfl
  | some t =>
    dsimp only
    cases Db.Database.open t with
    | err => dsimp only; rw [plain_append]; rfl
    | panic => rfl
    | ok db =>
      dsimp only
      rw [plain_append, plain_append, say_quiet _ _ h, plain_loaded, indexLines_quiet w env c b h]

theorem yankLines_plain (env : Env) (a : Auditor) (l : Lockfile) : plain (yankLines env a l) = yankLines env a l := by
  unfold yankLines plain
  cases a.index with
  | none => rfl
  | some ci =>
    dsimp only
    rw [List.filter_eq_self]
    intro x hx
    obtain ⟨o, _, ho⟩ := List.mem_filterMap.mp hx
    cases o with
    | err => injection ho with ho; subst ho; rfl
    | ok _ => cases ho
    | panic => cases ho

theorem reportLines_plain {T : TermLib} {path : Option Str} {out : Printed} {lines : List Shown}
    (h : reportLines T path out = .ok lines) : plain lines = lines := by
  cases out with
  | json r => injection h with h; subst h; rfl
  | sarif r => injection h with h; subst h; rfl
  | terminal items v d al =>
    unfold reportLines at h
    dsimp only at h
    cases hs : Printed.screen T path (.terminal items v d al) with
    | err => rw [hs] at h; cases h
    | panic => rw [hs] at h; cases h
    | ok ls => rw [hs] at h; injection h with h; subst h; exact plain_screen ls

theorem yankLines_hush (env : Env) (b : Bool) (a : Auditor) (l : Lockfile) :
    yankLines env (hushed b a) l = yankLines env a l := rfl

theorem selfReport_hush (T : TermLib) (b : Bool) (p : Presenter) (self : List Advisory) :
    (hush b p).selfReport T self = p.selfReport T self := rfl

theorem new_config {env : Env} {c : AuditConfig} {a : Auditor} (h : Auditor.new env c = .ok a) : a.presenter.config = c.output := by
  unfold Auditor.new at h
  cases hc : env.checkout c with
  | none => rw [hc] at h; cases h
  | some t =>
    rw [hc] at h
    dsimp only at h
    cases hd : Db.Database.open t with
    | err => rw [hd] at h; cases h
    | panic => rw [hd] at h; cases h
    | ok db => rw [hd] at h; injection h with h; subst h; rfl

/-- **C89, quiet.**  A quiet run, or one whose output is for a machine, prints what a run with the same settings prints
without the messages on its progress, and ends in the same way. -/
theorem C89_quiet (T : TermLib) (w : Circumstances) (env : Env) (cmd : AuditCommand) (c : AuditConfig) (b : Bool)
    (h : Quiet (c.quietly b).output) :
    runTranscript T w env cmd (c.quietly b) =
      ((runTranscript T w env cmd c).1.filter fun x => !x.chatter, (runTranscript T w env cmd c).2) := by
  show _ = (plain _, _)
  unfold runTranscript
  cases env.locate cmd.file with
  | none => rfl
  | some path =>
    dsimp only
    rw [new_hush, newLines_quiet w env c b h]
    cases hn : Auditor.new env c with
    | err => rfl
    | panic => rfl
    | ok a =>
      simp only [omap]
      cases env.loadLock path with
      | none => dsimp only; rw [plain_append]; rfl
      | some l =>
        dsimp only
        have hc := new_config hn
        have hq : Quiet (hushed b a).presenter.config := by
          show Quiet { a.presenter.config with quiet := b }
          rw [hc]; exact h
        rw [say_quiet _ _ hq, audit_hush]
        cases a.audit env l none with
        | err => simp only [omap]; rw [plain_append, plain_scanning]
        | panic => simp only [omap]; rw [plain_append, plain_scanning]
        | ok x =>
          obtain ⟨a', r, out⟩ := x
          simp only [omap]
          cases hr : reportLines T none out with
          | err => dsimp only; rw [plain_append, plain_append, plain_scanning, yankLines_plain, yankLines_hush]
          | panic => dsimp only; rw [plain_append, plain_append, plain_scanning, yankLines_plain, yankLines_hush]
          | ok report =>
            dsimp only
            have hs : (hushed b a').selfAdvisories env = a'.selfAdvisories env := rfl
            rw [hs]
            cases a'.selfAdvisories env with
            | none =>
              dsimp only
              rw [plain_append, plain_append, plain_append, plain_scanning, yankLines_plain, yankLines_hush,
                reportLines_plain hr]
            | some self =>
              dsimp only
              rw [plain_append, plain_append, plain_append, plain_append, plain_scanning, yankLines_plain,
                yankLines_hush, reportLines_plain hr, plain_screen]
              rfl

/-! ### Binaries -/

theorem scanLines_quiet (w : Circumstances) (c : OutputConfig) (b : Bool) (h : Quiet { c with quiet := b }) (path : Str)
    (bytes : List UInt8) (deps : Option Lockfile) :
    scanLines w { c with quiet := b } path bytes deps = plain (scanLines w c path bytes deps) := by
  unfold scanLines
  cases deps with
  | none => dsimp only; rw [say_quiet _ _ h, plain_noDependencies]
  | some l =>
    dsimp only
    rw [say_quiet _ _ h, say_quiet _ _ h]
    split
    · rw [plain_auditable]
    · rw [plain_notAuditable]

theorem symbolLines_plain (p : Presenter) (bytes : Option (List UInt8)) : plain (symbolLines p bytes) = symbolLines p bytes := by
  unfold symbolLines
  cases bytes with
  | none => rfl
  | some _ => dsimp only; split <;> rfl

theorem binary_quiet (T : TermLib) (w : Circumstances) (env : Env) (b : Bool) (a : Auditor)
    (h : Quiet { a.presenter.config with quiet := b }) (path : Str) :
    binaryTranscript T w env (hushed b a) path =
      (plain (binaryTranscript T w env a path).1, omap (fun x => (hushed b x.1, x.2)) (binaryTranscript T w env a path).2) := by
  unfold binaryTranscript
  cases env.readBinary path with
  | none => rfl
  | some content =>
    dsimp only
    have h1 : (hushed b a).binaryLimit = a.binaryLimit := rfl
    have h2 : (hushed b a).auditDataLimit = a.auditDataLimit := rfl
    have h3 : (hushed b a).presenter.config = { a.presenter.config with quiet := b } := rfl
    rw [h1, h2, h3]
    cases readWithLimit (a.binaryLimit.getD defaultMaxBinarySize) content with
    | none => rfl
    | some bytes =>
      dsimp only
      cases env.loadDeps bytes a.auditDataLimit with
      | none => rfl
      | some x =>
        obtain ⟨format, deps⟩ := x
        dsimp only
        rw [scanLines_quiet w _ b h]
        cases deps with
        | none => dsimp only; rw [plain_append]; rfl
        | some l =>
          dsimp only
          have hb : (hushed b a).withSymbols env bytes = hushed b (a.withSymbols env bytes) := rfl
          rw [hb, audit_hush]
          generalize a.withSymbols env bytes = a0
          cases a0.audit env l (some format) with
          | err => rfl
          | panic => rfl
          | ok y =>
            obtain ⟨a', r, out⟩ := y
            simp only [omap]
            cases hr : reportLines T (some path) out with
            | err => dsimp only; rw [plain_append, yankLines_plain, yankLines_hush]
            | panic => dsimp only; rw [plain_append, yankLines_plain, yankLines_hush]
            | ok report =>
              dsimp only
              have hsy : symbolLines (hushed b a0).presenter (some bytes) = symbolLines a0.presenter (some bytes) := rfl
              rw [plain_append, plain_append, plain_append, yankLines_plain, yankLines_hush, reportLines_plain hr, hsy,
                symbolLines_plain]

/-- Another presenter with the same settings. -/
def SameSettings (p p' : Presenter) : Prop := p'.config = p.config ∧ p'.denyKinds = p.denyKinds ∧ p'.symbols = p.symbols

theorem SameSettings.trans {p q r : Presenter} (h : SameSettings p q) (h' : SameSettings q r) : SameSettings p r :=
  ⟨h'.1.trans h.1, h'.2.1.trans h.2.1, h'.2.2.trans h.2.2⟩

theorem printTree_settings (C : Codec) {p p' : Presenter} {pkg : Package} {t : Lock.Tree} {o : Option Str}
    (h : p.printTree C pkg t = .ok (p', o)) : SameSettings p p' := by
  unfold Presenter.printTree at h
  split at h
  · cases h; exact ⟨rfl, rfl, rfl⟩
  · dsimp only at h
    split at h
    · cases h; exact ⟨rfl, rfl, rfl⟩
    · split at h
      · cases h
      · split at h
        · cases h; exact ⟨rfl, rfl, rfl⟩
        · cases h
        · cases h

theorem printVulns_settings (C : Codec) (t : Lock.Tree) (vs : List Vulnerability) {p p' : Presenter} {items : List Item}
    (h : p.printVulns C t vs = .ok (p', items)) : SameSettings p p' ∧ (p.symbols = none → ∀ i ∈ items, i.affected = []) := by
  induction vs generalizing p p' items with
  | nil => cases h; exact ⟨⟨rfl, rfl, rfl⟩, fun _ i hi => (List.not_mem_nil hi).elim⟩
  | cons v vs ih =>
    unfold Presenter.printVulns at h
    cases h1 : p.printTree C v.package t with
    | err => rw [h1] at h; cases h
    | panic => rw [h1] at h; cases h
    | ok x =>
      obtain ⟨p1, tree⟩ := x
      rw [h1] at h
      dsimp only at h
      cases h2 : p1.printVulns C t vs with
      | err => rw [h2] at h; cases h
      | panic => rw [h2] at h; cases h
      | ok y =>
        obtain ⟨p2, is⟩ := y
        rw [h2] at h
        cases h
        have hs := printTree_settings C h1
        obtain ⟨g1, g2⟩ := ih h2
        refine ⟨hs.trans g1, fun hn i hi => ?_⟩
        rcases List.mem_cons.mp hi with rfl | hi
        · dsimp only
          unfold Presenter.presentFunctions
          rw [hn]
        · exact g2 (hs.2.2.trans hn) i hi

theorem printWarnings_settings (C : Codec) (t : Lock.Tree) (vs : List Warning) {p p' : Presenter} {items : List Item}
    (h : p.printWarnings C t vs = .ok (p', items)) : SameSettings p p' ∧ (p.symbols = none → ∀ i ∈ items, i.affected = []) := by
  induction vs generalizing p p' items with
  | nil => cases h; exact ⟨⟨rfl, rfl, rfl⟩, fun _ i hi => (List.not_mem_nil hi).elim⟩
  | cons v vs ih =>
    unfold Presenter.printWarnings at h
    cases h1 : p.printTree C v.package t with
    | err => rw [h1] at h; cases h
    | panic => rw [h1] at h; cases h
    | ok x =>
      obtain ⟨p1, tree⟩ := x
      rw [h1] at h
      dsimp only at h
      cases h2 : p1.printWarnings C t vs with
      | err => rw [h2] at h; cases h
      | panic => rw [h2] at h; cases h
      | ok y =>
        obtain ⟨p2, is⟩ := y
        rw [h2] at h
        cases h
        have hs := printTree_settings C h1
        obtain ⟨g1, g2⟩ := ih h2
        refine ⟨hs.trans g1, fun hn i hi => ?_⟩
        rcases List.mem_cons.mp hi with rfl | hi
        · dsimp only
          unfold Presenter.presentFunctions
          rw [hn]
        · exact g2 (hs.2.2.trans hn) i hi


theorem printReport_settings {C : Codec} {p p' : Presenter} {r : Report} {l : Lockfile} {out : Printed}
    (h : p.printReport C r l = .ok (p', out)) :
    SameSettings p p' ∧ ((p.config.format = .json ∧ out = .json r) ∨ (p.config.format = .sarif ∧ out = .sarif r) ∨
      (p.config.format = .terminal ∧ ∃ items, (p.symbols = none → ∀ i ∈ items, i.affected = []) ∧
        out = .terminal items (if r.vulnerabilities.found then some r.vulnerabilities.count else none)
          (p'.countWarnings r).1 (p'.countWarnings r).2)) := by
  unfold Presenter.printReport at h
  cases hf : p.config.format with
  | json => rw [hf] at h; cases h; exact ⟨⟨rfl, rfl, rfl⟩, .inl ⟨rfl, rfl⟩⟩
  | sarif => rw [hf] at h; cases h; exact ⟨⟨rfl, rfl, rfl⟩, .inr (.inl ⟨rfl, rfl⟩)⟩
  | terminal =>
    rw [hf] at h
    dsimp only at h
    cases ht : Lock.Tree.new l with
    | err => rw [ht] at h; cases h
    | panic => rw [ht] at h; cases h
    | ok t =>
      rw [ht] at h
      dsimp only at h
      cases h1 : p.printVulns C t r.vulnerabilities.list with
      | err => rw [h1] at h; cases h
      | panic => rw [h1] at h; cases h
      | ok x =>
        obtain ⟨p1, items1⟩ := x
        rw [h1] at h
        dsimp only at h
        cases h2 : p1.printWarnings C t ((inOrder r.warnings).flatMap (·.2)) with
        | err => rw [h2] at h; cases h
        | panic => rw [h2] at h; cases h
        | ok y =>
          obtain ⟨p2, items2⟩ := y
          rw [h2] at h
          cases h
          obtain ⟨s1, a1⟩ := printVulns_settings C t _ h1
          obtain ⟨s2, a2⟩ := printWarnings_settings C t _ h2
          refine ⟨s1.trans s2, .inr (.inr ⟨rfl, items1 ++ items2, fun hn i hi => ?_, rfl⟩)⟩
          rcases List.mem_append.mp hi with hi | hi
          · exact a1 hn i hi
          · exact a2 (s1.2.2.trans hn) i hi

theorem checkYanked_presenter (env : Env) (a : Auditor) (l : Lockfile) : (a.checkYanked env l).1.presenter = a.presenter := by
  unfold Auditor.checkYanked
  cases a.index <;> rfl

theorem audit_settings {env : Env} {a a' : Auditor} {l : Lockfile} {f : Option BinaryFormat} {r : Report} {out : Printed}
    (h : a.audit env l f = .ok (a', r, out)) :
    a.presenter.printReport env.codec r l = .ok (a'.presenter, out) := by
  unfold Auditor.audit at h
  cases h1 : Report.generate a.database l.packages a.settings with
  | none => rw [h1] at h; cases h
  | some r1 =>
    rw [h1] at h
    dsimp only at h
    cases h2 : filterFor f r1 with
    | none => rw [h2] at h; cases h
    | some r2 =>
      rw [h2] at h
      dsimp only at h
      have hp := checkYanked_presenter env a l
      split at h
      · cases h
        rename_i hr
        rw [hp] at hr
        exact hr
      · cases h
      · cases h

theorem audit_not_err (env : Env) (a : Auditor) (l : Lockfile) (f : Option BinaryFormat) : a.audit env l f ≠ .err := by
  unfold Auditor.audit
  split
  · intro h; cases h
  · split
    · intro h; cases h
    · dsimp only
      split <;> (intro h; cases h)

/-! ### The reason of a failure is there to read -/

theorem itemLines_total {T : TermLib} {i : Item} {b : List TermLine} (h : i.lines T = .ok b) :
    ∀ x ∈ b, ∀ e t, x ≠ .total e t := by
  have hm : ∀ (e : Bool) (m : Metadata), ∀ x ∈ metadataLines T e m, ∀ e t, x ≠ .total e t := by
    intro e m x hx e' t
    unfold metadataLines severityLine at hx
    split at hx <;> split at hx <;> (simp at hx; rcases hx with rfl | rfl | rfl | rfl | rfl) <;> simp_all
  unfold Item.lines at h
  split at h
  · rename_i affected ha
    injection h with h
    subst h
    intro x hx e t
    rcases List.mem_append.mp hx with hx | hx
    · rcases List.mem_append.mp hx with hx | hx
      · rcases List.mem_append.mp hx with hx | hx
        · split at hx
          · unfold vulnerabilityLines at hx
            rcases List.mem_append.mp hx with hx | hx
            · rcases List.mem_append.mp hx with hx | hx
              · simp at hx; rcases hx with rfl | rfl <;> simp
              · exact hm _ _ x hx e t
            · simp at hx; rw [hx]; simp
          · unfold warningLines at hx
            rcases List.mem_append.mp hx with hx | hx
            · simp at hx; rcases hx with rfl | rfl | rfl <;> simp
            · split at hx
              · exact hm _ _ x hx e t
              · cases hx
        · unfold affectedLines at ha
          split at ha
          · injection ha with ha; subst ha; cases hx
          · split at ha
            · injection ha with ha; subst ha; simp at hx; rw [hx]; simp
            · cases ha
            · cases ha
      · split at hx
        · simp at hx; rw [hx]; simp
        · cases hx
    · simp at hx; rw [hx]; simp
  · cases h
  · cases h

/-- No line is an alarm. -/
def Calm (deny : List DenyOption) (l : List Shown) : Prop := ∀ x ∈ l, ¬ x.alarm deny

theorem calm_nil (deny : List DenyOption) : Calm deny [] := fun _ h => (List.not_mem_nil h).elim

theorem calm_append {deny : List DenyOption} {l r : List Shown} (h : Calm deny l) (h' : Calm deny r) : Calm deny (l ++ r) := by
  intro x hx
  rcases List.mem_append.mp hx with hx | hx
  · exact h x hx
  · exact h' x hx

theorem calm_status {deny : List DenyOption} {m : Msg} (h : m.level ≠ .err) : Calm deny [.status m] := by
  intro x hx
  rw [List.mem_singleton] at hx
  subst hx
  rintro (⟨h', -⟩ | h')
  · exact h h'
  · exact h'

theorem calm_say {deny : List DenyOption} {c : OutputConfig} {m : Msg} (h : m.level ≠ .err) : Calm deny (say c m) := by
  unfold say
  split
  · exact calm_status h
  · exact calm_nil _

theorem calm_screen {deny : List DenyOption} {l : List TermLine} (h : ∀ x ∈ l, ∀ t, x ≠ .total true t) :
    Calm deny (l.map .screen) := by
  intro x hx
  obtain ⟨y, hy, rfl⟩ := List.mem_map.mp hx
  rintro (⟨h', -⟩ | h')
  · cases y with
    | total e t => exact h _ hy t (by rw [show e = true from h'])
    | attr _ _ _ => exact h'
    | tree _ _ => exact h'
    | blank => exact h'
  · exact h'

theorem fetchLines_calm (deny : List DenyOption) (w : Circumstances) (env : Env) (c : AuditConfig) : Calm deny (fetchLines w env c) := by
  unfold fetchLines
  split
  · refine calm_append (calm_say (fun h => by cases h)) ?_
    split
    · exact calm_status (fun h => by cases h)
    · exact calm_nil _
  · exact calm_nil _

theorem indexLines_calm (deny : List DenyOption) (w : Circumstances) (env : Env) (c : AuditConfig) : Calm deny (indexLines w env c) := by
  have hw : Calm deny (if w.indexBusy then [.status (.waiting (c.database.path.getD env.defaultPath))] else []) := by
    split
    · exact calm_status (fun h => by cases h)
    · exact calm_nil _
  unfold indexLines
  dsimp only
  split
  · split
    · refine calm_append (calm_append (calm_say (fun h => by cases h)) hw) ?_
      split
      · exact calm_nil _
      · exact calm_say (fun h => by cases h)
    · refine calm_append hw ?_
      split
      · exact calm_nil _
      · exact calm_say (fun h => by cases h)
  · exact calm_nil _

theorem newLines_calm {w : Circumstances} {env : Env} {c : AuditConfig} {a : Auditor} (deny : List DenyOption)
    (h : Auditor.new env c = .ok a) : Calm deny (newLines w env c) := by
  unfold Auditor.new at h
  unfold newLines
  cases hc : env.checkout c with
  | none => rw [hc] at h; cases h
  | some t =>
    rw [hc] at h
    dsimp only at h ⊢
    cases hd : Db.Database.open t with
    | err => rw [hd] at h; cases h
    | panic => rw [hd] at h; cases h
    | ok db =>
      exact calm_append (calm_append (fetchLines_calm deny w env c) (calm_say (fun h => by cases h))) (indexLines_calm deny w env c)

theorem newLines_alarm {w : Circumstances} {env : Env} {c : AuditConfig} (deny : List DenyOption)
    (h : Auditor.new env c = .err) : ∃ x ∈ newLines w env c, x.alarm deny := by
  unfold Auditor.new at h
  unfold newLines
  cases hc : env.checkout c with
  | none => exact ⟨.status .fetchFailed, by simp, .inl ⟨rfl, fun h => by cases h⟩⟩
  | some t =>
    rw [hc] at h
    dsimp only at h ⊢
    cases hd : Db.Database.open t with
    | err => exact ⟨.status .loadFailed, by simp, .inl ⟨rfl, fun h => by cases h⟩⟩
    | panic => rw [hd] at h; cases h
    | ok db => rw [hd] at h; cases h

theorem yankLines_calm (deny : List DenyOption) (env : Env) (a : Auditor) (l : Lockfile) : Calm deny (yankLines env a l) := by
  unfold yankLines
  cases a.index with
  | none => exact calm_nil _
  | some ci =>
    dsimp only
    intro x hx
    obtain ⟨o, _, ho⟩ := List.mem_filterMap.mp hx
    cases o with
    | err =>
      injection ho with ho
      subst ho
      rintro (⟨-, h⟩ | h)
      · exact h rfl
      · exact h
    | ok _ => cases ho
    | panic => cases ho

theorem symbolLines_calm (deny : List DenyOption) (p : Presenter) (bytes : Option (List UInt8)) : Calm deny (symbolLines p bytes) := by
  unfold symbolLines
  cases bytes with
  | none => exact calm_nil _
  | some _ =>
    dsimp only
    split
    · exact calm_status (fun h => by cases h)
    · exact calm_nil _

theorem scanLines_calm (deny : List DenyOption) (w : Circumstances) (c : OutputConfig) (path : Str) (bytes : List UInt8)
    (l : Lockfile) : Calm deny (scanLines w c path bytes (some l)) := by
  unfold scanLines
  dsimp only
  split <;> exact calm_say (fun h => by cases h)

theorem mem_of_mapList {α β : Type} {f : α → Outcome β} {l : List α} {r : List β} (h : Outcome.mapList f l = .ok r) {b : β}
    (hb : b ∈ r) : ∃ a ∈ l, f a = .ok b := by
  have h' := (mapList_iff f l r).mp h
  clear h
  induction h' with
  | nil => exact (List.not_mem_nil hb).elim
  | cons h _ ih =>
    rcases List.mem_cons.mp hb with rfl | hb
    · exact ⟨_, List.mem_cons_self, h⟩
    · obtain ⟨a, ha, h⟩ := ih hb
      exact ⟨a, List.mem_cons_of_mem _ ha, h⟩

theorem alarm_total (deny : List DenyOption) (t : Str) : (Shown.screen (.total true t)).alarm deny :=
  .inl ⟨rfl, fun h => by cases h⟩

/-- The report raises an alarm exactly if the findings make the run fail. -/
theorem reportLines_alarm {T : TermLib} {C : Codec} {p p' : Presenter} {r : Report} {l : Lockfile} {out : Printed}
    {path : Option Str} {lines : List Shown} (h : p.printReport C r l = .ok (p', out))
    (hr : reportLines T path out = .ok lines) (deny : List DenyOption)
    (hk : p.denyKinds = deny.flatMap DenyOption.warningKinds) :
    (∃ x ∈ lines, x.alarm deny) ↔ p'.shouldExitWithFailure r = true := by
  obtain ⟨hs, hout⟩ := printReport_settings h
  have hdoc : p'.shouldExitWithFailure r = true ↔
      (r.vulnerabilities.found = true ∨ ∃ k ws, (k, ws) ∈ r.warnings ∧ ws ≠ [] ∧ Denied deny k) := by
    rw [shouldExit_iff, hs.2.1, hk]
    simp only [mem_denyKinds]
  rcases hout with ⟨-, rfl⟩ | ⟨-, rfl⟩ | ⟨-, items, -, rfl⟩
  · injection hr with hr
    subst hr
    rw [hdoc]
    constructor
    · rintro ⟨x, hx, hal⟩
      rw [List.mem_singleton] at hx
      subst hx
      rcases hal with ⟨hal, -⟩ | hal
      · exact hal.elim
      · exact hal
    · exact fun hd => ⟨_, List.mem_singleton_self _, .inr hd⟩
  · injection hr with hr
    subst hr
    rw [hdoc]
    constructor
    · rintro ⟨x, hx, hal⟩
      rw [List.mem_singleton] at hx
      subst hx
      rcases hal with ⟨hal, -⟩ | hal
      · exact hal.elim
      · exact hal
    · exact fun hd => ⟨_, List.mem_singleton_self _, .inr hd⟩
  · unfold reportLines at hr
    dsimp only [Printed.screen] at hr
    cases hb : Outcome.mapList (Item.lines T) items with
    | err => rw [hb] at hr; cases hr
    | panic => rw [hb] at hr; cases hr
    | ok blocks =>
      rw [hb] at hr
      injection hr with hr
      subst hr
      have hblocks : ∀ x ∈ blocks.flatten, ∀ t, x ≠ .total true t := by
        intro x hx t
        obtain ⟨b, hbm, hxb⟩ := List.mem_flatten.mp hx
        obtain ⟨i, -, hi⟩ := mem_of_mapList hb hbm
        exact itemLines_total hi x hxb true t
      unfold Presenter.shouldExitWithFailure
      constructor
      · rintro ⟨x, hx, hal⟩
        by_contra hno
        have hfound : r.vulnerabilities.found = false := by
          cases hf : r.vulnerabilities.found with
          | false => rfl
          | true => rw [hf] at hno; exact (hno (if_pos rfl)).elim
        rw [hfound] at hno hx
        have hzero : (p'.countWarnings r).1 = 0 := by
          by_contra hz
          exact hno (by rw [if_neg (fun h => by cases h), if_pos hz])
        rw [hzero] at hx
        refine calm_screen (deny := deny) ?_ x hx hal
        intro y hy t
        rw [List.append_assoc] at hy
        rcases List.mem_append.mp hy with hy | hy
        · exact hblocks y hy t
        · unfold vulnerabilityTotal warningTotals at hy
          simp at hy
          rw [hy.2]
          simp
      · intro hf
        by_cases hfound : r.vulnerabilities.found = true
        · rw [hfound]
          have hv : ∃ t, TermLine.total true t ∈ vulnerabilityTotal path (some r.vulnerabilities.count) := by
            unfold vulnerabilityTotal
            dsimp only
            split <;> exact ⟨_, List.mem_singleton_self _⟩
          obtain ⟨t, ht⟩ := hv
          exact ⟨_, List.mem_map.mpr ⟨_, List.mem_append_left _ (List.mem_append_right _ ht), rfl⟩, alarm_total deny t⟩
        · rw [if_neg hfound] at hf
          have hd : (p'.countWarnings r).1 > 0 := by
            by_contra hz
            rw [if_neg (by omega)] at hf
            cases hf
          have hv : ∃ t, TermLine.total true t ∈ warningTotals path (p'.countWarnings r).1 (p'.countWarnings r).2 := by
            unfold warningTotals
            rw [if_pos hd]
            exact ⟨_, List.mem_append_left _ (List.mem_singleton_self _)⟩
          obtain ⟨t, ht⟩ := hv
          exact ⟨_, List.mem_map.mpr ⟨_, List.mem_append_right _ ht, rfl⟩, alarm_total deny t⟩

theorem selfReport_alarm (T : TermLib) (deny : List DenyOption) (p : Presenter) (self : List Advisory) :
    (∃ x ∈ (p.selfReport T self).map Shown.screen, x.alarm deny) ↔ p.failureDueToSelf self = true := by
  constructor
  · rintro ⟨x, hx, hal⟩
    obtain ⟨y, hy, rfl⟩ := List.mem_map.mp hx
    refine (selfReport_red T p self).mp ⟨y, hy, ?_⟩
    rcases hal with ⟨hal, -⟩ | hal
    · cases y with
      | total e t => exact hal
      | attr _ _ _ => exact hal.elim
      | tree _ _ => exact hal.elim
      | blank => exact hal.elim
    · exact hal.elim
  · intro h
    unfold Presenter.failureDueToSelf at h
    unfold Presenter.selfReport
    cases self with
    | nil => cases h
    | cons a as =>
      simp only [List.isEmpty_cons, Bool.not_false, Bool.true_and] at h
      refine ⟨_, List.mem_map.mpr ⟨_, List.mem_cons_self, rfl⟩, .inl ⟨h, fun h => by cases h⟩⟩

theorem exists_append {deny : List DenyOption} {l r : List Shown} :
    (∃ x ∈ l ++ r, x.alarm deny) ↔ (∃ x ∈ l, x.alarm deny) ∨ ∃ x ∈ r, x.alarm deny := by
  simp only [List.mem_append, or_and_right, exists_or]

theorem calm_iff {deny : List DenyOption} {l : List Shown} (h : Calm deny l) : (∃ x ∈ l, x.alarm deny) ↔ False :=
  ⟨fun ⟨x, hx, ha⟩ => h x hx ha, False.elim⟩

theorem new_denyKinds {env : Env} {c : AuditConfig} {a : Auditor} (h : Auditor.new env c = .ok a) :
    a.presenter.denyKinds = c.output.deny.flatMap DenyOption.warningKinds ∧ a.presenter.symbols = none := by
  unfold Auditor.new at h
  cases hc : env.checkout c with
  | none => rw [hc] at h; cases h
  | some t =>
    rw [hc] at h
    dsimp only at h
    cases hd : Db.Database.open t with
    | err => rw [hd] at h; cases h
    | panic => rw [hd] at h; cases h
    | ok db => rw [hd] at h; injection h with h; subst h; exact ⟨rfl, rfl⟩

/-- **C89, reason.**  Unless it crashes, a run fails exactly if it prints why: an error message, or a total of
vulnerabilities or of denied warnings, or the notice about the tool itself, or a document with such findings.  Failing
to look up whether a crate is yanked is reported as an error and does not make the run fail. -/
theorem C89_reason (T : TermLib) (w : Circumstances) (env : Env) (cmd : AuditCommand) (c : AuditConfig) (lines : List Shown)
    (n : Nat) (h : runTranscript T w env cmd c = (lines, .code n)) :
    n ≠ 0 ↔ ∃ x ∈ lines, x.alarm c.output.deny := by
  unfold runTranscript at h
  cases hl : env.locate cmd.file with
  | none =>
    rw [hl] at h
    cases h
    exact ⟨fun _ => ⟨_, List.mem_singleton_self _, .inl ⟨rfl, fun h => by cases h⟩⟩, fun _ h => by cases h⟩
  | some path =>
    rw [hl] at h
    dsimp only at h
    cases hn : Auditor.new env c with
    | err => rw [hn] at h; cases h; exact ⟨fun _ => newLines_alarm _ hn, fun _ h => by cases h⟩
    | panic => rw [hn] at h; cases h
    | ok a =>
      rw [hn] at h
      dsimp only at h
      cases hk : env.loadLock path with
      | none =>
        rw [hk] at h
        cases h
        exact ⟨fun _ => ⟨_, List.mem_append_right _ (List.mem_singleton_self _), .inl ⟨rfl, fun h => by cases h⟩⟩,
          fun _ h => by cases h⟩
      | some l =>
        rw [hk] at h
        dsimp only at h
        cases ha : a.audit env l none with
        | err => exact (audit_not_err _ _ _ _ ha).elim
        | panic => rw [ha] at h; cases h
        | ok x =>
          obtain ⟨a', r, out⟩ := x
          rw [ha] at h
          dsimp only at h
          cases hr : reportLines T none out with
          | err => rw [hr] at h; cases h
          | panic => rw [hr] at h; cases h
          | ok report =>
            rw [hr] at h
            dsimp only at h
            cases hs : a'.selfAdvisories env with
            | none => rw [hs] at h; cases h
            | some self =>
              rw [hs] at h
              dsimp only at h
              have hrep := reportLines_alarm (audit_settings ha) hr c.output.deny (new_denyKinds hn).1
              have hself := selfReport_alarm T c.output.deny a'.presenter self
              obtain ⟨rfl, hcode⟩ := Prod.mk.inj h
              rw [exists_append, exists_append, exists_append, exists_append, calm_iff (newLines_calm _ hn),
                calm_iff (calm_say (fun h => by cases h)), calm_iff (yankLines_calm _ env a l), hrep, hself]
              simp only [false_or]
              rw [← Bool.or_eq_true]
              split at hcode
              · next hb => injection hcode with hcode; subst hcode; simp [hb]
              · next hb => injection hcode with hcode; subst hcode; simp at hb; simp [hb]

theorem mapList_all {α β : Type} {f : α → Outcome β} {l : List α} (h : ∀ a ∈ l, ∃ b, f a = .ok b) :
    ∃ r, Outcome.mapList f l = .ok r := by
  have : ∃ r, List.Forall₂ (fun a b => f a = .ok b) l r := by
    induction l with
    | nil => exact ⟨_, .nil⟩
    | cons a l ih =>
      obtain ⟨b, hb⟩ := h a List.mem_cons_self
      obtain ⟨r, hr⟩ := ih fun x hx => h x (List.mem_cons_of_mem _ hx)
      exact ⟨_, .cons hb hr⟩
  obtain ⟨r, hr⟩ := this
  exact ⟨r, (mapList_iff f l r).mpr hr⟩

/-- **C89, agreement.**  The way a run ends does not depend on how much it prints. -/
theorem C89_agrees (T : TermLib) (w : Circumstances) (env : Env) (cmd : AuditCommand) (c : AuditConfig) :
    (runTranscript T w env cmd c).2 = (runAudit env cmd c).2 := by
  unfold runTranscript runAudit
  cases env.locate cmd.file with
  | none => rfl
  | some path =>
    dsimp only
    cases hn : Auditor.new env c with
    | err => rfl
    | panic => rfl
    | ok a =>
      dsimp only
      cases env.loadLock path with
      | none => rfl
      | some l =>
        dsimp only
        cases ha : a.audit env l none with
        | err => rfl
        | panic => rfl
        | ok x =>
          obtain ⟨a', r, out⟩ := x
          dsimp only
          have hok : ∃ lines, reportLines T none out = .ok lines := by
            obtain ⟨-, hout⟩ := printReport_settings (audit_settings ha)
            rcases hout with ⟨-, rfl⟩ | ⟨-, rfl⟩ | ⟨-, items, hi, rfl⟩
            · exact ⟨_, rfl⟩
            · exact ⟨_, rfl⟩
            · have hall : ∀ i ∈ items, ∃ b, i.lines T = .ok b := by
                intro i him
                unfold Item.lines affectedLines
                rw [hi (new_denyKinds hn).2 i him]
                exact ⟨_, rfl⟩
              obtain ⟨blocks, hb⟩ := mapList_all hall
              unfold reportLines
              dsimp only [Printed.screen]
              rw [hb]
              exact ⟨_, rfl⟩
          obtain ⟨lines, hr⟩ := hok
          rw [hr]
          dsimp only
          cases a'.selfAdvisories env <;> rfl

theorem binary_settings {T : TermLib} {w : Circumstances} {env : Env} {a a' : Auditor} {path : Str} {lines : List Shown}
    {r : Report} (h : binaryTranscript T w env a path = (lines, .ok (a', r))) (deny : List DenyOption)
    (hk : a.presenter.denyKinds = deny.flatMap DenyOption.warningKinds) :
    a'.presenter.config = a.presenter.config ∧ a'.presenter.denyKinds = a.presenter.denyKinds ∧
      ((∃ x ∈ lines, x.alarm deny) ↔ a'.presenter.shouldExitWithFailure r = true) := by
  unfold binaryTranscript at h
  cases h1 : env.readBinary path with
  | none => rw [h1] at h; cases h
  | some content =>
    rw [h1] at h
    dsimp only at h
    cases h2 : readWithLimit (a.binaryLimit.getD defaultMaxBinarySize) content with
    | none => rw [h2] at h; cases h
    | some bytes =>
      rw [h2] at h
      dsimp only at h
      cases h3 : env.loadDeps bytes a.auditDataLimit with
      | none => rw [h3] at h; cases h
      | some x =>
        obtain ⟨format, deps⟩ := x
        rw [h3] at h
        dsimp only at h
        cases deps with
        | none => cases h
        | some l =>
          dsimp only at h
          cases h4 : (a.withSymbols env bytes).audit env l (some format) with
          | err => rw [h4] at h; cases h
          | panic => rw [h4] at h; cases h
          | ok y =>
            obtain ⟨b, r', out⟩ := y
            rw [h4] at h
            dsimp only at h
            cases h5 : reportLines T (some path) out with
            | err => rw [h5] at h; cases h
            | panic => rw [h5] at h; cases h
            | ok report =>
              rw [h5] at h
              dsimp only at h
              have hp := audit_settings h4
              have hset := (printReport_settings hp).1
              obtain ⟨rfl, hx⟩ := Prod.mk.inj h
              injection hx with hx
              obtain ⟨rfl, rfl⟩ := Prod.mk.inj hx
              refine ⟨hset.1, hset.2.1, ?_⟩
              rw [exists_append, exists_append, exists_append, calm_iff (scanLines_calm _ w _ _ _ _),
                calm_iff (yankLines_calm _ env _ l), calm_iff (symbolLines_calm _ _ _),
                reportLines_alarm hp h5 deny hk]
              simp only [false_or]

theorem binary_error {T : TermLib} {w : Circumstances} {env : Env} {a : Auditor} {path : Str} {lines : List Shown}
    (h : binaryTranscript T w env a path = (lines, .err)) (deny : List DenyOption) : ∃ x ∈ lines, x.alarm deny := by
  have hal : (Shown.status (.binaryFailed path)).alarm deny := .inl ⟨rfl, fun h => by cases h⟩
  unfold binaryTranscript at h
  cases h1 : env.readBinary path with
  | none => rw [h1] at h; cases h; exact ⟨_, List.mem_singleton_self _, hal⟩
  | some content =>
    rw [h1] at h
    dsimp only at h
    cases h2 : readWithLimit (a.binaryLimit.getD defaultMaxBinarySize) content with
    | none => rw [h2] at h; cases h; exact ⟨_, List.mem_singleton_self _, hal⟩
    | some bytes =>
      rw [h2] at h
      dsimp only at h
      cases h3 : env.loadDeps bytes a.auditDataLimit with
      | none => rw [h3] at h; cases h; exact ⟨_, List.mem_singleton_self _, hal⟩
      | some x =>
        obtain ⟨format, deps⟩ := x
        rw [h3] at h
        dsimp only at h
        cases deps with
        | none => cases h; exact ⟨_, List.mem_append_right _ (List.mem_singleton_self _), hal⟩
        | some l =>
          dsimp only at h
          cases h4 : (a.withSymbols env bytes).audit env l (some format) with
          | err => rw [h4] at h; cases h
          | panic => rw [h4] at h; cases h
          | ok y =>
            obtain ⟨b, r', out⟩ := y
            rw [h4] at h
            dsimp only at h
            cases h5 : reportLines T (some path) out with
            | err => rw [h5] at h; cases h
            | panic => rw [h5] at h; cases h
            | ok report => rw [h5] at h; cases h

theorem loop_alarm {T : TermLib} {w : Circumstances} {env : Env} (deny : List DenyOption) {paths : List Str} {a a' : Auditor}
    {lines : List Shown} {v e : Bool} (hk : a.presenter.denyKinds = deny.flatMap DenyOption.warningKinds)
    (h : loopTranscript T w env a paths = (lines, .ok (a', v, e))) :
    a'.presenter.denyKinds = a.presenter.denyKinds ∧ a'.presenter.config = a.presenter.config ∧
      ((∃ x ∈ lines, x.alarm deny) ↔ v = true ∨ e = true) := by
  induction paths generalizing a a' lines v e with
  | nil => cases h; exact ⟨rfl, rfl, by simp⟩
  | cons path paths ih =>
    unfold loopTranscript at h
    rcases hb : binaryTranscript T w env a path with ⟨ls, o⟩
    cases o with
    | panic => rw [hb] at h; cases h
    | err =>
      rw [hb] at h
      dsimp only at h
      rcases hrest : loopTranscript T w env a paths with ⟨rest, o⟩
      rw [hrest] at h
      cases o with
      | err => cases h
      | panic => cases h
      | ok y =>
        obtain ⟨a2, v2, e2⟩ := y
        dsimp only at h
        cases h
        obtain ⟨g1, g2, -⟩ := ih hk hrest
        obtain ⟨x, hx, hal⟩ := binary_error hb deny
        exact ⟨g1, g2, fun _ => .inr rfl, fun _ => ⟨x, List.mem_append_left _ hx, hal⟩⟩
    | ok y =>
      obtain ⟨a1, r⟩ := y
      rw [hb] at h
      dsimp only at h
      obtain ⟨s1, s2, s3⟩ := binary_settings hb deny hk
      rcases hrest : loopTranscript T w env a1 paths with ⟨rest, o⟩
      rw [hrest] at h
      cases o with
      | err => cases h
      | panic => cases h
      | ok y =>
        obtain ⟨a2, v2, e2⟩ := y
        dsimp only at h
        cases h
        obtain ⟨g1, g2, g3⟩ := ih (s2.trans hk) hrest
        refine ⟨g1.trans s2, g2.trans s1, ?_⟩
        rw [exists_append, s3, g3, Bool.or_eq_true, or_assoc]

theorem setLimits_presenter (a : Auditor) (m d : Option Nat) : (a.setLimits m d).presenter = a.presenter := rfl

/-- **C89, reason, binaries.**  The same for binaries. -/
theorem C89_reason_bin (T : TermLib) (w : Circumstances) (env : Env) (maxSize auditDataSize : Option Nat) (paths : List Str)
    (c : AuditConfig) (lines : List Shown) (n : Nat)
    (h : binTranscript T w env maxSize auditDataSize paths c = (lines, .code n)) :
    n ≠ 0 ↔ ∃ x ∈ lines, x.alarm c.output.deny := by
  unfold binTranscript at h
  cases hn : Auditor.new env c with
  | err => rw [hn] at h; cases h; exact ⟨fun _ => newLines_alarm _ hn, fun _ h => by cases h⟩
  | panic => rw [hn] at h; cases h
  | ok a =>
    rw [hn] at h
    dsimp only at h
    rcases hloop : loopTranscript T w env (a.setLimits maxSize auditDataSize) paths with ⟨ls, o⟩
    rw [hloop] at h
    cases o with
    | err => cases h
    | panic => cases h
    | ok y =>
      obtain ⟨a', v, e⟩ := y
      dsimp only at h
      obtain ⟨-, -, g3⟩ := loop_alarm c.output.deny (by rw [setLimits_presenter]; exact (new_denyKinds hn).1) hloop
      cases hs : a'.selfAdvisories env with
      | none => rw [hs] at h; cases h
      | some self =>
        rw [hs] at h
        dsimp only at h
        have hself := selfReport_alarm T c.output.deny a'.presenter self
        obtain ⟨rfl, hcode⟩ := Prod.mk.inj h
        rw [exists_append, exists_append, calm_iff (newLines_calm _ hn), g3, hself]
        simp only [false_or]
        cases v with
        | true => simp at hcode; subst hcode; simp
        | false =>
          cases e with
          | true => simp at hcode; subst hcode; simp
          | false =>
            cases hf : a'.presenter.failureDueToSelf self with
            | true => rw [hf] at hcode; simp at hcode; subst hcode; simp
            | false => rw [hf] at hcode; simp at hcode; subst hcode; simp

theorem loop_quiet (T : TermLib) (w : Circumstances) (env : Env) (b : Bool) (deny : List DenyOption) (paths : List Str)
    (a : Auditor) (hk : a.presenter.denyKinds = deny.flatMap DenyOption.warningKinds)
    (h : Quiet { a.presenter.config with quiet := b }) :
    loopTranscript T w env (hushed b a) paths =
      (plain (loopTranscript T w env a paths).1, omap (fun x => (hushed b x.1, x.2)) (loopTranscript T w env a paths).2) := by
  induction paths generalizing a with
  | nil => rfl
  | cons path paths ih =>
    unfold loopTranscript
    rw [binary_quiet T w env b a h]
    rcases hb : binaryTranscript T w env a path with ⟨ls, o⟩
    cases o with
    | panic => rfl
    | err =>
      simp only [omap]
      rw [ih a hk h]
      rcases hrest : loopTranscript T w env a paths with ⟨rest, o⟩
      cases o <;> (simp only [omap]; rw [plain_append])
    | ok y =>
      obtain ⟨a1, r⟩ := y
      simp only [omap]
      obtain ⟨s1, s2, -⟩ := binary_settings hb deny hk
      rw [ih a1 (s2.trans hk) (by rw [s1]; exact h)]
      rcases hrest : loopTranscript T w env a1 paths with ⟨rest, o⟩
      have hsh : (hushed b a1).presenter.shouldExitWithFailure r = a1.presenter.shouldExitWithFailure r := rfl
      cases o with
      | ok z => simp only [omap]; rw [plain_append, hsh]
      | err => simp only [omap]; rw [plain_append]
      | panic => simp only [omap]; rw [plain_append]

/-- **C89, quiet, binaries.**  The same for binaries. -/
theorem C89_quiet_bin (T : TermLib) (w : Circumstances) (env : Env) (maxSize auditDataSize : Option Nat) (paths : List Str)
    (c : AuditConfig) (b : Bool) (h : Quiet (c.quietly b).output) :
    binTranscript T w env maxSize auditDataSize paths (c.quietly b) =
      ((binTranscript T w env maxSize auditDataSize paths c).1.filter fun x => !x.chatter,
        (binTranscript T w env maxSize auditDataSize paths c).2) := by
  show _ = (plain _, _)
  unfold binTranscript
  rw [new_hush, newLines_quiet w env c b h]
  cases hn : Auditor.new env c with
  | err => rfl
  | panic => rfl
  | ok a =>
    simp only [omap]
    have hl : (hushed b a).setLimits maxSize auditDataSize = hushed b (a.setLimits maxSize auditDataSize) := rfl
    have hq : Quiet { (a.setLimits maxSize auditDataSize).presenter.config with quiet := b } := by
      rw [setLimits_presenter, new_config hn]; exact h
    rw [hl, loop_quiet T w env b c.output.deny paths _ (by rw [setLimits_presenter]; exact (new_denyKinds hn).1) hq]
    rcases hloop : loopTranscript T w env (a.setLimits maxSize auditDataSize) paths with ⟨ls, o⟩
    cases o with
    | err => simp only [omap]; rw [plain_append]
    | panic => simp only [omap]; rw [plain_append]
    | ok y =>
      obtain ⟨a', v, e⟩ := y
      simp only [omap]
      have hs : (hushed b a').selfAdvisories env = a'.selfAdvisories env := rfl
      rw [hs]
      cases a'.selfAdvisories env with
      | none => dsimp only; rw [plain_append]
      | some self => dsimp only; rw [plain_append, plain_append, plain_screen]; rfl

/-- **C89, silence.**  A quiet run says nothing about its progress. -/
theorem C89_silence (T : TermLib) (w : Circumstances) (env : Env) (cmd : AuditCommand) (c : AuditConfig)
    (h : Quiet c.output) : ∀ x ∈ (runTranscript T w env cmd c).1, ∀ m, x = .status m → ¬ Chatter m := by
  intro x hx m hm hc
  have hq := C89_quiet T w env cmd c c.output.quiet h
  have hcc : c.quietly c.output.quiet = c := rfl
  rw [hcc] at hq
  rw [hq] at hx
  have := (List.mem_filter.mp hx).2
  subst hm
  simp [Shown.chatter, hc] at this

/-- **C89, silence, binaries.** -/
theorem C89_silence_bin (T : TermLib) (w : Circumstances) (env : Env) (maxSize auditDataSize : Option Nat) (paths : List Str)
    (c : AuditConfig) (h : Quiet c.output) :
    ∀ x ∈ (binTranscript T w env maxSize auditDataSize paths c).1, ∀ m, x = .status m → ¬ Chatter m := by
  intro x hx m hm hc
  have hq := C89_quiet_bin T w env maxSize auditDataSize paths c c.output.quiet h
  have hcc : c.quietly c.output.quiet = c := rfl
  rw [hcc] at hq
  rw [hq] at hx
  have := (List.mem_filter.mp hx).2
  subst hm
  simp [Shown.chatter, hc] at this

theorem loop_agrees (T : TermLib) (w : Circumstances) (env : Env) (paths : List Str) (a : Auditor) :
    (loopTranscript T w env a paths).2 = .panic ∨
      (loopTranscript T w env a paths).2 = omap (fun x => (x.1, x.2.1, x.2.2.1)) (a.binariesLoop env paths) := by
  have hone : ∀ (a : Auditor) (path : Str), (binaryTranscript T w env a path).2 = .panic ∨
      (binaryTranscript T w env a path).2 = omap (fun x => (x.1, x.2.1)) (a.auditBinary env path) := by
    intro a path
    unfold binaryTranscript Auditor.auditBinary
    cases env.readBinary path with
    | none => exact .inr rfl
    | some content =>
      dsimp only
      cases readWithLimit (a.binaryLimit.getD defaultMaxBinarySize) content with
      | none => exact .inr rfl
      | some bytes =>
        dsimp only
        cases env.loadDeps bytes a.auditDataLimit with
        | none => exact .inr rfl
        | some x =>
          obtain ⟨format, deps⟩ := x
          dsimp only
          cases deps with
          | none => exact .inr rfl
          | some l =>
            dsimp only
            have hb : ({ a with presenter := { a.presenter with symbols := env.symbolsOf bytes } } : Auditor) =
              a.withSymbols env bytes := rfl
            rw [hb]
            cases (a.withSymbols env bytes).audit env l (some format) with
            | err => exact .inl rfl
            | panic => exact .inl rfl
            | ok y =>
              obtain ⟨b, r', out⟩ := y
              dsimp only
              cases reportLines T (some path) out with
              | err => exact .inl rfl
              | panic => exact .inl rfl
              | ok report => exact .inr rfl
  induction paths generalizing a with
  | nil => exact .inr rfl
  | cons path paths ih =>
    unfold loopTranscript Auditor.binariesLoop
    have h1 := hone a path
    rcases hb : binaryTranscript T w env a path with ⟨ls, o⟩
    rw [hb] at h1
    cases o with
    | panic => exact .inl rfl
    | err =>
      rcases h1 with h1 | h1
      · cases h1
      · cases hab : a.auditBinary env path with
        | ok y => rw [hab] at h1; cases h1
        | panic => rw [hab] at h1; cases h1
        | err =>
          dsimp only
          have h2 := ih a
          rcases hrest : loopTranscript T w env a paths with ⟨rest, o⟩
          rw [hrest] at h2
          rcases h2 with h2 | h2
          · dsimp only at h2; subst h2; exact .inl rfl
          · dsimp only at h2
            subst h2
            cases a.binariesLoop env paths <;> exact .inr rfl
    | ok y =>
      rcases h1 with h1 | h1
      · cases h1
      · cases hab : a.auditBinary env path with
        | err => rw [hab] at h1; cases h1
        | panic => rw [hab] at h1; cases h1
        | ok z =>
          obtain ⟨a1, r, out⟩ := z
          rw [hab] at h1
          injection h1 with h1
          subst h1
          dsimp only
          have h2 := ih a1
          rcases hrest : loopTranscript T w env a1 paths with ⟨rest, o⟩
          rw [hrest] at h2
          rcases h2 with h2 | h2
          · dsimp only at h2; subst h2; exact .inl rfl
          · dsimp only at h2
            subst h2
            cases a1.binariesLoop env paths <;> exact .inr rfl

/-- **C89, agreement, binaries.**  Unless printing crashes, a run on binaries ends as described without its messages. -/
theorem C89_agrees_bin (T : TermLib) (w : Circumstances) (env : Env) (maxSize auditDataSize : Option Nat) (paths : List Str)
    (c : AuditConfig) : (binTranscript T w env maxSize auditDataSize paths c).2 = .panic ∨
      (binTranscript T w env maxSize auditDataSize paths c).2 = (runBin env maxSize auditDataSize paths c).2 := by
  unfold binTranscript runBin
  cases Auditor.new env c with
  | err => exact .inr rfl
  | panic => exact .inl rfl
  | ok a =>
    dsimp only
    have h := loop_agrees T w env paths (a.setLimits maxSize auditDataSize)
    rcases hl : loopTranscript T w env (a.setLimits maxSize auditDataSize) paths with ⟨ls, o⟩
    rw [hl] at h
    rcases h with h | h
    · dsimp only at h; subst h; exact .inl rfl
    · dsimp only at h
      subst h
      cases (a.setLimits maxSize auditDataSize).binariesLoop env paths with
      | err => exact .inl rfl
      | panic => exact .inl rfl
      | ok y =>
        obtain ⟨a', v, e, out⟩ := y
        simp only [omap]
        cases a'.selfAdvisories env with
        | none => exact .inl rfl
        | some self => exact .inr rfl

theorem progress_say (c : OutputConfig) (m : Msg) (h : ¬ Quiet c) (hm : Chatter m) :
    (say c m).filterMap Shown.progress? = [m] := by
  unfold say
  have : c.isQuiet = false := by
    cases hq : c.isQuiet with
    | false => rfl
    | true => exact (h ((isQuiet_iff c).mp hq)).elim
  rw [this]
  simp [Shown.progress?, hm]

theorem progress_busy (b : Bool) (path : Str) :
    (if b then [Shown.status (.waiting path)] else []).filterMap Shown.progress? = [] := by
  cases b <;> rfl

theorem progress_of_plain (l : List Shown) (h : plain l = l) : l.filterMap Shown.progress? = [] := by
  rw [List.filterMap_eq_nil_iff]
  intro x hx
  rw [← h] at hx
  have := (List.mem_filter.mp hx).2
  cases x with
  | status m =>
    simp [Shown.chatter] at this
    simp [Shown.progress?, this]
  | screen _ => rfl
  | document _ => rfl

theorem newLines_progress {w : Circumstances} {env : Env} {c : AuditConfig} {t : Db.Tree} {db : Db.Database}
    (hc : env.checkout c = some t) (hd : Db.Database.open t = .ok db) (hq : ¬ Quiet c.output) (path : Str) (n : Nat) :
    (newLines w env c).filterMap Shown.progress? ++ [.scanning path n] = progress env c db.iter.length path n := by
  unfold newLines progress fetchLines indexLines
  rw [hc]
  dsimp only
  rw [hd]
  dsimp only
  rw [List.filterMap_append, List.filterMap_append, progress_say _ _ hq (by trivial)]
  congr 1
  congr 1
  · congr 1
    split
    · rw [List.filterMap_append, progress_say _ _ hq (by trivial), progress_busy]; rfl
    · rfl
  · split
    · split
      · rw [List.filterMap_append, List.filterMap_append, progress_say _ _ hq (by trivial), progress_busy]
        split
        · rfl
        · rw [progress_say _ _ hq (by trivial)]; rfl
      · rw [List.filterMap_append, progress_busy]
        split
        · rfl
        · rw [progress_say _ _ hq (by trivial)]; rfl
    · rfl

theorem newLines_status (w : Circumstances) (env : Env) (c : AuditConfig) : ∀ x ∈ newLines w env c, ∃ m, x = .status m := by
  have hs : ∀ m, ∀ x ∈ say c.output m, ∃ m, x = .status m := by
    intro m x hx
    unfold say at hx
    split at hx
    · exact ⟨m, List.mem_singleton.mp hx⟩
    · cases hx
  have hb : ∀ (b : Bool) (p : Str), ∀ x ∈ (if b then [Shown.status (.waiting p)] else []), ∃ m, x = .status m := by
    intro b p x hx
    split at hx
    · exact ⟨_, List.mem_singleton.mp hx⟩
    · cases hx
  have hf : ∀ x ∈ fetchLines w env c, ∃ m, x = .status m := by
    intro x hx
    unfold fetchLines at hx
    split at hx
    · rcases List.mem_append.mp hx with hx | hx
      · exact hs _ x hx
      · exact hb _ _ x hx
    · cases hx
  have hi : ∀ x ∈ indexLines w env c, ∃ m, x = .status m := by
    intro x hx
    unfold indexLines at hx
    dsimp only at hx
    split at hx
    · split at hx
      · rcases List.mem_append.mp hx with hx | hx
        · rcases List.mem_append.mp hx with hx | hx
          · exact hs _ x hx
          · exact hb _ _ x hx
        · split at hx
          · cases hx
          · exact hs _ x hx
      · rcases List.mem_append.mp hx with hx | hx
        · exact hb _ _ x hx
        · split at hx
          · cases hx
          · exact hs _ x hx
    · cases hx
  intro x hx
  unfold newLines at hx
  split at hx
  · rcases List.mem_append.mp hx with hx | hx
    · exact hf x hx
    · exact ⟨_, List.mem_singleton.mp hx⟩
  · split at hx
    · rcases List.mem_append.mp hx with hx | hx
      · exact hf x hx
      · exact ⟨_, List.mem_singleton.mp hx⟩
    · exact hf x hx
    · rcases List.mem_append.mp hx with hx | hx
      · rcases List.mem_append.mp hx with hx | hx
        · exact hf x hx
        · exact hs _ x hx
      · exact hi x hx

/-- **C89, progress.**  A run that is not quiet, finds a lockfile and a database it can load, first says what it does: the
messages on its progress are these, in this order, before any part of the report. -/
theorem C89_progress (T : TermLib) (w : Circumstances) (env : Env) (cmd : AuditCommand) (c : AuditConfig) (path : Str)
    (hloc : env.locate cmd.file = some path) (t : Db.Tree) (hco : env.checkout c = some t) (db : Db.Database)
    (hd : Db.Database.open t = .ok db) (l : Lockfile) (hl : env.loadLock path = some l) (hq : ¬ Quiet c.output) :
    ∃ before after, (runTranscript T w env cmd c).1 = before ++ after ∧
      before.filterMap Shown.progress? = progress env c db.iter.length path l.packages.length ∧
      (∀ x ∈ before, ∃ m, x = .status m) ∧ after.filterMap Shown.progress? = [] := by
  have hn : ∃ a, Auditor.new env c = .ok a := by
    unfold Auditor.new
    rw [hco]
    dsimp only
    rw [hd]
    exact ⟨_, rfl⟩
  obtain ⟨a, hn⟩ := hn
  refine ⟨newLines w env c ++ say a.presenter.config (.scanning path l.packages.length), ?_⟩
  have hb : (newLines w env c ++ say a.presenter.config (.scanning path l.packages.length)).filterMap Shown.progress? =
      progress env c db.iter.length path l.packages.length := by
    rw [List.filterMap_append, progress_say _ _ (by rw [new_config hn]; exact hq) (by trivial)]
    exact newLines_progress hco hd hq path _
  have hst : ∀ x ∈ newLines w env c ++ say a.presenter.config (.scanning path l.packages.length), ∃ m, x = .status m := by
    intro x hx
    rcases List.mem_append.mp hx with hx | hx
    · exact newLines_status w env c x hx
    · unfold say at hx
      split at hx
      · exact ⟨_, List.mem_singleton.mp hx⟩
      · cases hx
  have hy := progress_of_plain _ (yankLines_plain env a l)
  unfold runTranscript
  rw [hloc]
  dsimp only
  rw [hn]
  dsimp only
  rw [hl]
  dsimp only
  cases ha : a.audit env l none with
  | err => exact ⟨[], by rw [List.append_nil], hb, hst, rfl⟩
  | panic => exact ⟨[], by rw [List.append_nil], hb, hst, rfl⟩
  | ok x =>
    obtain ⟨a', r, out⟩ := x
    dsimp only
    cases hr : reportLines T none out with
    | err => exact ⟨_, rfl, hb, hst, hy⟩
    | panic => exact ⟨_, rfl, hb, hst, hy⟩
    | ok report =>
      dsimp only
      have hrp := progress_of_plain _ (reportLines_plain hr)
      cases a'.selfAdvisories env with
      | none => exact ⟨_, List.append_assoc _ _ _, hb, hst, by rw [List.filterMap_append, hy, hrp]; rfl⟩
      | some self =>
        refine ⟨yankLines env a l ++ (report ++ (a'.presenter.selfReport T self).map .screen), ?_, hb, hst, ?_⟩
        · dsimp only
          simp only [List.append_assoc]
        · rw [List.filterMap_append, List.filterMap_append, hy, hrp, progress_of_plain _ (plain_screen _)]
          rfl

end Verif.Props
