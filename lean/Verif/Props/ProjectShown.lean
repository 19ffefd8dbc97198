import Verif.Model.ProjectShown
import Verif.Props.ProjectTerminal
import Verif.Props.ProjectLoad
import Verif.Props.Transcript

/-!
# C108: everything that `cargo audit` shows, from the texts of the files
-/

namespace Verif.Props

open Verif Verif.Semver Verif.Osv Verif.Lock Verif.Adv Verif.Audit Verif.Toml Verif.Spec Verif.Rep
open Verif.AdminLint (Checkout)

theorem say_status (c : OutputConfig) (m : Msg) : ∀ x ∈ say c m, ∃ m, x = .status m := by
  intro x hx
  unfold say at hx
  split at hx
  · exact ⟨m, List.mem_singleton.mp hx⟩
  · cases hx

theorem yankLines_status (env : Env) (a : Auditor) (l : Lockfile) : ∀ x ∈ yankLines env a l, ∃ m, x = .status m := by
  unfold yankLines
  cases a.index with
  | none => intro x hx; cases hx
  | some ci =>
    intro x hx
    obtain ⟨o, _, ho⟩ := List.mem_filterMap.mp hx
    cases o with
    | err => injection ho with ho; exact ⟨_, ho.symm⟩
    | ok _ => cases ho
    | panic => cases ho

private theorem shown_eq {P : Project} {cmd : AuditCommand} {c : AuditConfig} (hc : Configured P cmd c) (T : TermLib)
    (w : Circumstances) : P.shown T w cmd = runTranscript T w (P.env cmd.file) cmd c := by
  unfold Project.shown
  rw [(configured_iff P cmd c).mpr hc]

/-- What is printed is part of what is shown, and only messages go before it. -/
private theorem transcript_prints {T : TermLib} {w : Circumstances} {env : Env} {cmd : AuditCommand} {c : AuditConfig}
    {out : Printed} {selfLines lines : List TermLine} (h : runPrints T env cmd c = some (out, selfLines))
    (ho : ∃ i t u v, out = .terminal i t u v) (hs : out.screen T none = .ok lines) :
    ∃ before, (runTranscript T w env cmd c).1 = before ++ (lines ++ selfLines).map .screen ∧ ∀ x ∈ before, ∃ m, x = .status m := by
  unfold runPrints at h
  unfold runTranscript
  cases hl : env.locate cmd.file with
  | none => rw [hl] at h; cases h
  | some path =>
    rw [hl] at h
    dsimp only at h ⊢
    cases hn : Auditor.new env c with
    | err => rw [hn] at h; cases h
    | panic => rw [hn] at h; cases h
    | ok a =>
      rw [hn] at h
      dsimp only at h ⊢
      cases hk : env.loadLock path with
      | none => rw [hk] at h; cases h
      | some l =>
        rw [hk] at h
        dsimp only at h ⊢
        cases ha : a.audit env l none with
        | err => rw [ha] at h; cases h
        | panic => rw [ha] at h; cases h
        | ok x =>
          obtain ⟨a', r, out'⟩ := x
          rw [ha] at h
          dsimp only at h ⊢
          cases hself : a'.selfAdvisories env with
          | none => rw [hself] at h; cases h
          | some self =>
            rw [hself] at h
            cases h
            have hr : reportLines T none out = .ok (lines.map .screen) := by
              obtain ⟨i, t, u, v, rfl⟩ := ho
              unfold reportLines
              rw [hs]
            rw [hr]
            refine ⟨newLines w env c ++ say a.presenter.config (.scanning path l.packages.length) ++ yankLines env a l, ?_, ?_⟩
            · simp only [List.map_append, List.append_assoc]
            · intro x hx
              rcases List.mem_append.mp hx with hx | hx
              · rcases List.mem_append.mp hx with hx | hx
                · exact newLines_status w env c x hx
                · exact say_status _ _ x hx
              · exact yankLines_status env a l x hx

/-- The exit status of what is shown is that of the run. -/
theorem shown_exit (P : Project) (T : TermLib) (w : Circumstances) (cmd : AuditCommand) :
    (P.shown T w cmd).2 = (P.run cmd).2 := by
  unfold Project.shown Project.run
  cases effectiveConfig P.configWorld cmd with
  | err => rfl
  | panic => rfl
  | ok c => exact C89_agrees T w (P.env cmd.file) cmd c

/-- **Property C108**: when the configuration, the lockfile, the checkout and the database can be read and the dependency tree
can be built, all that `cargo audit` shows on a terminal is: messages, then blocks of lines, totals, and the notices about the
tool itself.  Every block tells what the texts tell, everything that the texts tell has a block, the exit status is 1 exactly
if a line is marked as an error, and exactly if the texts are damning. -/
theorem C108_shown (P : Project) (hF : P.fp.Ok) (cmd : AuditCommand) (c : AuditConfig) (hc : Configured P cmd c)
    (hfmt : c.output.format = .terminal) (text : Str) (ht : LockOf P cmd.file text) (l : Lockfile)
    (hl : Lockfile.fromText (semverCodec P.url) Toml.read text = .ok l) (ch : Checkout) (hch : CheckoutOf P c ch)
    (hdb : DatabaseReads P.advLib ch) (hpr : Printable c l) (T : TermLib) (hT : T.version = Version.text) (w : Circumstances) :
    ∃ (n : Nat) (before : List Shown) (blocks : List (List TermLine)) (sums selfLines : List TermLine),
      P.shown T w cmd = (before ++ (blocks.flatten ++ sums ++ selfLines).map .screen, .code n) ∧
      (∀ x ∈ before, ∃ m, x = .status m) ∧ (∀ x ∈ sums, ∃ error s, x = .total error s) ∧
      (∀ block ∈ blocks, Told P T cmd.file c ch text block) ∧
      (∀ f name version, FindingOf P c ch text f name version → f.metadata.informational = none →
        ∃ block ∈ blocks, PrintsVulnerability T f name version block) ∧
      (∀ f name version i kind, FindingOf P c ch text f name version → f.metadata.informational = some i → Enabled c i →
        WarnsAs i kind → ∃ block ∈ blocks, ∃ error, (error = true ↔ Denied c.output.deny kind) ∧
          PrintsWarning T (some f) kind error name version block) ∧
      (∀ name version, YankedOf P cmd.file c text name version → ∃ block ∈ blocks, ∃ error,
        (error = true ↔ Denied c.output.deny .yanked) ∧ PrintsWarning T none .yanked error name version block) ∧
      (n = 0 ∨ n = 1) ∧ (n = 1 ↔ ∃ x ∈ blocks.flatten ++ sums ++ selfLines, Red x) ∧
      (n = 1 ↔ Damning P cmd.file c ch text) ∧ (selfLines ≠ [] ↔ ToolAdvisory P ch) := by
  obtain ⟨n, out, lines, selfLines, blocks, h1, h2, h3, ⟨sums, rfl, hsums⟩, h5, h6, h7, h8, h9, h10, h11, h12⟩ :=
    C103_terminal P hF cmd c hc hfmt text ht l hl ch hch hdb hpr T hT
  obtain ⟨db, hdb'⟩ := (C91_database P ch).mpr hdb
  obtain ⟨r, out', n', h1', -, hsh, -, -⟩ := C91_verdict P hF cmd c hc text ht l hl ch hch db hdb' hpr
  rw [h1] at h1'
  cases h1'
  have ho : ∃ i t u v, out = .terminal i t u v := by
    unfold Shows at hsh
    cases out with
    | terminal i t u v => exact ⟨i, t, u, v, rfl⟩
    | json _ => rw [hfmt] at hsh; cases hsh.1
    | sarif _ => rw [hfmt] at hsh; cases hsh.1
  obtain ⟨before, hb, hst⟩ := transcript_prints (w := w) h2 ho h3
  refine ⟨n, before, blocks, sums, selfLines, ?_, hst, hsums, h5, h6, h7, h8, h9, h10, h11, h12⟩
  rw [Prod.ext_iff]
  exact ⟨by rw [shown_eq hc]; exact hb, by rw [shown_exit, h1]⟩

/-- **Property C108** (failure): if the lockfile or the database cannot be read, nothing but messages is shown, the exit status
is not 0, and one of the messages is an error unless the run panics. -/
theorem C108_unread (P : Project) (cmd : AuditCommand) (c : AuditConfig) (hc : Configured P cmd c) (T : TermLib) (w : Circumstances)
    (h : (∀ text, LockOf P cmd.file text → ∀ l, Lockfile.fromText (semverCodec P.url) Toml.read text ≠ .ok l) ∨
      ∀ ch, CheckoutOf P c ch → ¬ DatabaseReads P.advLib ch) :
    (∀ x ∈ (P.shown T w cmd).1, ∃ m, x = .status m) ∧ (P.shown T w cmd).2 ≠ .code 0 ∧
    ∀ n, (P.shown T w cmd).2 = .code n → ∃ m, .status m ∈ (P.shown T w cmd).1 ∧ m.level = .err ∧ m ≠ .yankFailed := by
  have hst : (∀ x ∈ (P.shown T w cmd).1, ∃ m, x = .status m) ∧ (P.shown T w cmd).2 ≠ .code 0 := by
    rw [shown_eq hc]
    unfold runTranscript
    cases hloc : (P.env cmd.file).locate cmd.file with
    | none => exact ⟨fun x hx => ⟨_, List.mem_singleton.mp hx⟩, fun h => by cases h⟩
    | some path =>
      dsimp only
      cases hn : Auditor.new (P.env cmd.file) c with
      | err => exact ⟨newLines_status w _ c, fun h => by cases h⟩
      | panic => exact ⟨newLines_status w _ c, fun h => by cases h⟩
      | ok a =>
        dsimp only
        cases hk : (P.env cmd.file).loadLock path with
        | none =>
          refine ⟨fun x hx => ?_, fun h => by cases h⟩
          rcases List.mem_append.mp hx with hx | hx
          · exact newLines_status w _ c x hx
          · exact ⟨_, List.mem_singleton.mp hx⟩
        | some l =>
          exfalso
          rcases h with h | h
          · have hk' : P.loadLock cmd.file path = some l := hk
            unfold Project.loadLock at hk'
            obtain ⟨text, ht, hl⟩ := Option.bind_eq_some_iff.mp hk'
            split at hl
            · rename_i l' hl'
              exact h text (lockOf_of hloc ht) l' hl'
            · cases hl
          · unfold Auditor.new at hn
            cases hco : (P.env cmd.file).checkout c with
            | none => rw [hco] at hn; cases hn
            | some t =>
              rw [hco] at hn
              dsimp only at hn
              obtain ⟨ch, hch, rfl⟩ := checkoutOf_of hco
              cases hdb : Db.Database.open (ch.tree P.advLib P.severityOf) with
              | err => rw [hdb] at hn; cases hn
              | panic => rw [hdb] at hn; cases hn
              | ok db => exact h ch hch ((C91_database P ch).mp ⟨db, hdb⟩)
  refine ⟨hst.1, hst.2, fun n hn => ?_⟩
  have h0 : n ≠ 0 := fun h0 => hst.2 (by rw [hn, h0])
  obtain ⟨x, hx, ha⟩ := (C89_reason T w (P.env cmd.file) cmd c (P.shown T w cmd).1 n (by
    rw [← shown_eq hc T w, Prod.ext_iff]; exact ⟨rfl, hn⟩)).mp h0
  obtain ⟨m, rfl⟩ := hst.1 x hx
  refine ⟨m, hx, ?_⟩
  rcases ha with ⟨h1, h2⟩ | h1
  · exact ⟨h1, fun h => h2 (by rw [h])⟩
  · exact h1.elim

end Verif.Props
