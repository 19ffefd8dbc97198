import Verif.Props.Transcript

/-!
# C106: what `cargo audit bin` shows about each binary
-/

namespace Verif.Props

open Verif.Audit Verif.Adv Verif.Db Verif.Rep Verif.Lock Verif.Bin Verif.Semver Verif.Spec

/-- What is shown about a report: messages, a block for each finding, and the totals. -/
def ShowsReport (T : TermLib) (deny : List WarningKind) (r : Report) (path : Str) (shown : List Shown) : Prop :=
  ∃ (before : List Shown) (blocks : List (List TermLine)), (∀ x ∈ before, ∃ m, x = .status m) ∧
    List.Forall₂ (Describes T deny) (findings r) blocks ∧
    shown = before ++ (blocks.flatten ++ totals (some path) r.vulnerabilities.list.length
      ((r.warnings.flatMap (·.2)).countP fun w => deny.contains w.kind)
      ((r.warnings.flatMap (·.2)).countP fun w => !deny.contains w.kind)).map .screen

theorem complete_named {env : Env} {c : AuditConfig} {db : Db.Database} {l : Lockfile} {format : Option BinaryFormat} {r : Report}
    (hcomp : Complete env c db l format r)
    (hfun : ∀ a ∈ db.iter, ∀ af, a.affected = some af → ∀ e ∈ af.functions, e.1 ≠ []) : NamedFunctions r := by
  intro f hf af haf
  unfold findings at hf
  rcases List.mem_append.mp hf with hf | hf
  · obtain ⟨v, hv, rfl⟩ := List.mem_map.mp hf
    obtain ⟨p, -, ad, had, rfl, -⟩ := (hcomp.vulnerabilities v).mp hv
    exact hfun ad had af haf
  · obtain ⟨w, hw, rfl⟩ := List.mem_map.mp hf
    obtain ⟨⟨k, ws⟩, h1, h2⟩ := List.mem_flatMap.mp hw
    unfold inOrder at h1
    obtain ⟨k', -, hk'⟩ := List.mem_filterMap.mp h1
    obtain ⟨ws', hlk, he⟩ := Option.map_eq_some_iff.mp hk'
    cases he
    have hmem : (k, ws) ∈ r.warnings := by
      obtain ⟨l1, l2, hl', -⟩ := List.lookup_eq_some_iff.mp hlk
      rw [hl']; simp
    have hin : InReport r w := ⟨k, ws, hmem, h2⟩
    by_cases hy : w.kind = .yanked
    · have := (hcomp.yanked w hin hy).2.1
      have haf' : w.affected = some af := haf
      rw [this] at haf'; cases haf'
    · obtain ⟨p, -, ad, had, i, -, -, -, -, -, -, -, hwa, -⟩ := (hcomp.advisories w).mp ⟨hin, hy⟩
      exact hfun ad had af (by rw [← hwa]; exact haf)

private theorem say_status (c : OutputConfig) (m : Msg) : ∀ x ∈ say c m, ∃ m, x = .status m := by
  intro x hx
  unfold say at hx
  split at hx
  · cases List.mem_singleton.mp hx; exact ⟨m, rfl⟩
  · cases hx

private theorem scan_status (w : Circumstances) (c : OutputConfig) (path : Str) (bytes : List UInt8) (d : Option Lockfile) :
    ∀ x ∈ scanLines w c path bytes d, ∃ m, x = .status m := by
  unfold scanLines
  split
  · split <;> exact say_status _ _
  · exact say_status _ _

private theorem yank_status (env : Env) (a : Auditor) (l : Lockfile) : ∀ x ∈ yankLines env a l, ∃ m, x = .status m := by
  unfold yankLines
  cases a.index with
  | none => exact fun x hx => by cases hx
  | some ci =>
    intro x hx
    obtain ⟨o, -, ho⟩ := List.mem_filterMap.mp hx
    cases o <;> first | (cases ho; exact ⟨_, rfl⟩) | cases ho

private theorem symbol_status (p : Presenter) (bytes : Option (List UInt8)) : ∀ x ∈ symbolLines p bytes, ∃ m, x = .status m := by
  unfold symbolLines
  cases bytes with
  | none => exact fun x hx => by cases hx
  | some _ =>
    dsimp only
    split
    · intro x hx; cases List.mem_singleton.mp hx; exact ⟨_, rfl⟩
    · exact fun x hx => by cases hx

theorem binary_section (T : TermLib) (w : Circumstances) (env : Env) (c : AuditConfig) (t : Db.Tree) (db : Db.Database)
    (h : Db.Database.open t = .ok db) (hval : ∀ a ∈ db.iter, Validated a)
    (hfun : ∀ a ∈ db.iter, ∀ af, a.affected = some af → ∀ e ∈ af.functions, e.1 ≠ []) (hfmt : c.output.format = .terminal)
    (ms ds : Option Nat) (hms : ms.getD (100 * 1024 * 1024) < 2 ^ 64)
    (a : Auditor) (ha : Ready env c db a) (hb : a.binaryLimit = some (ms.getD (100 * 1024 * 1024)))
    (hd : a.auditDataLimit = some (ds.getD (8 * 1024 * 1024))) (path : Str)
    (hsize : ∀ content, env.readBinary path = some content → content.length < 2 ^ 64)
    (hpr : ∀ f l, Scans env ms ds path f l → Printable c l) :
    ((¬ ∃ f l, Scans env ms ds path f l) → ∃ lines, binaryTranscript T w env a path = (lines, .err) ∧
      .status (.binaryFailed path) ∈ lines ∧ ∀ x ∈ lines, ∃ m, x = .status m) ∧
    (∀ f l, Scans env ms ds path f l → ∃ a' r lines, binaryTranscript T w env a path = (lines, .ok (a', r)) ∧
      Ready env c db a' ∧ a'.binaryLimit = a.binaryLimit ∧ a'.auditDataLimit = a.auditDataLimit ∧
      Complete env c db l (some f) r ∧ ShowsReport T (c.output.deny.flatMap DenyOption.warningKinds) r path lines ∧
      ((∃ x, .screen x ∈ lines ∧ Red x) ↔ Fails env c db l (some f)) ∧
      (a'.presenter.shouldExitWithFailure r = true ↔ Fails env c db l (some f))) := by
  have hfail : ∃ lines : List Shown, ([Shown.status (.binaryFailed path)], (Outcome.err : Outcome (Auditor × Report))) = (lines, .err) ∧
      .status (.binaryFailed path) ∈ lines ∧ ∀ x ∈ lines, ∃ m, x = .status m :=
    ⟨_, rfl, .head _, fun x hx => by cases List.mem_singleton.mp hx; exact ⟨_, rfl⟩⟩
  constructor
  · intro hno
    unfold binaryTranscript
    cases hr : env.readBinary path with
    | none => exact hfail
    | some content =>
      simp only [hb, hd, Option.getD_some]
      rw [C50_limit _ _ hms (hsize content hr)]
      by_cases hlen : content.length ≤ ms.getD (100 * 1024 * 1024)
      · rw [if_pos hlen]
        simp only
        cases hl : env.loadDeps content (some (ds.getD (8 * 1024 * 1024))) with
        | none => exact hfail
        | some x =>
          obtain ⟨f, d⟩ := x
          cases d with
          | none =>
            refine ⟨_, rfl, by simp, fun x hx => ?_⟩
            rcases List.mem_append.mp hx with hx | hx
            · exact scan_status _ _ _ _ _ x hx
            · cases List.mem_singleton.mp hx; exact ⟨_, rfl⟩
          | some l => exact absurd ⟨f, l, content, hr, hlen, hl⟩ hno
      · rw [if_neg hlen]
        exact hfail
  · intro f l hs
    have hp := hpr f l hs
    obtain ⟨content, hr, hlen, hl⟩ := hs
    have ha' : Ready env c db (a.withSymbols env content) :=
      ⟨ha.database, ha.settings, ha.denyKinds, ha.config, ha.displayed, ha.noIndex, ha.index⟩
    obtain ⟨r, i, h1, h2, h3, h4, h5, h6, -⟩ := audit_core env c t db h hval _ ha' l (some f)
    obtain ⟨p', out, e1, e2, e3, -⟩ := printReport_total env.codec c _ ha'.config ha'.displayed r l hp h3 h4
    have hnamed := complete_named h1 hfun
    have hpf : (a.withSymbols env content).presenter.config.format = .terminal := by rw [ha'.config]; exact hfmt
    obtain ⟨blocks, b1, b2⟩ := C73_report T env.codec _ p' r l out e1 hpf h1.count h1.found h1.filed hnamed (some path)
    obtain ⟨lines, b3, b4⟩ := C73_errors T env.codec _ p' r l out e1 hpf h1.count h1.found h1.filed hnamed (some path)
    have hlines := b2
    rw [b3, Outcome.ok.injEq] at hlines
    have hrep : reportLines T (some path) out = .ok (lines.map .screen) := by
      have hout : ∃ items v d al, out = .terminal items v d al := by
        have e1 := e1
        unfold Presenter.printReport at e1
        rw [hpf] at e1
        simp only at e1
        split at e1
        · cases e1
        · cases e1
        · split at e1
          · cases e1
          · cases e1
          · split at e1
            · cases e1
            · cases e1
            · cases e1; exact ⟨_, _, _, _, rfl⟩
      obtain ⟨items, v, d, al, rfl⟩ := hout
      unfold reportLines
      dsimp only
      rw [b3]
    have hbefore : ∀ x ∈ scanLines w a.presenter.config path content (some l) ++ yankLines env (a.withSymbols env content) l ++
        symbolLines (a.withSymbols env content).presenter (some content), ∃ m, x = .status m := by
      intro x hx
      rcases List.mem_append.mp hx with hx | hx
      · rcases List.mem_append.mp hx with hx | hx
        · exact scan_status _ _ _ _ _ x hx
        · exact yank_status _ _ _ x hx
      · exact symbol_status _ _ x hx
    refine ⟨{ a.withSymbols env content with index := i, presenter := p' }, r, _, ?_, ⟨h2.database, h2.settings, ?_, ?_, e3, h2.noIndex, h2.index⟩,
      rfl, rfl, h1, ⟨_, blocks, hbefore, ?_, rfl⟩, ?_, h5 p' (by rw [e2])⟩
    · unfold binaryTranscript
      rw [hr]
      simp only [hb, hd, Option.getD_some]
      rw [C50_limit _ _ hms (hsize content hr), if_pos hlen]
      simp only
      rw [hl]
      simp only
      rw [h6 p' out e1]
      simp only
      rw [hrep, hlines, ha'.denyKinds]
    · simp only; rw [e2]; exact ha'.denyKinds
    · simp only; rw [e2]; exact ha'.config
    · rw [← ha'.denyKinds]; exact b1
    · rw [← ha'.denyKinds, ← hlines, ← h5 _ rfl, ← b4]
      constructor
      · rintro ⟨x, hx, hred⟩
        rcases List.mem_append.mp hx with hx | hx
        · obtain ⟨m, hm⟩ := hbefore _ hx
          cases hm
        · obtain ⟨y, hy, he⟩ := List.mem_map.mp hx
          cases he
          exact ⟨x, hy, hred⟩
      · rintro ⟨x, hx, hred⟩
        exact ⟨x, List.mem_append_right _ (List.mem_map_of_mem hx), hred⟩

theorem loop_sections (T : TermLib) (w : Circumstances) (env : Env) (c : AuditConfig) (t : Db.Tree) (db : Db.Database)
    (h : Db.Database.open t = .ok db) (hval : ∀ a ∈ db.iter, Validated a)
    (hfun : ∀ a ∈ db.iter, ∀ af, a.affected = some af → ∀ e ∈ af.functions, e.1 ≠ []) (hfmt : c.output.format = .terminal)
    (ms ds : Option Nat) (hms : ms.getD (100 * 1024 * 1024) < 2 ^ 64) (paths : List Str)
    (hsize : ∀ path ∈ paths, ∀ content, env.readBinary path = some content → content.length < 2 ^ 64)
    (hpr : ∀ path ∈ paths, ∀ f l, Scans env ms ds path f l → Printable c l)
    (a : Auditor) (ha : Ready env c db a) (hb : a.binaryLimit = some (ms.getD (100 * 1024 * 1024)))
    (hd : a.auditDataLimit = some (ds.getD (8 * 1024 * 1024))) :
    ∃ a' v e, ∃ pieces : List (List Shown), loopTranscript T w env a paths = (pieces.flatten, .ok (a', v, e)) ∧ Ready env c db a' ∧
      List.Forall₂ (fun path piece =>
        ((¬ ∃ f l, Scans env ms ds path f l) → .status (.binaryFailed path) ∈ piece ∧ ∀ x ∈ piece, ∃ m, x = .status m) ∧
        ∀ f l, Scans env ms ds path f l → ∃ r, Complete env c db l (some f) r ∧
          ShowsReport T (c.output.deny.flatMap DenyOption.warningKinds) r path piece ∧
          ((∃ x, .screen x ∈ piece ∧ Red x) ↔ Fails env c db l (some f))) paths pieces := by
  induction paths generalizing a with
  | nil => exact ⟨a, false, false, [], rfl, ha, .nil⟩
  | cons path paths ih =>
    have hspec := binary_section T w env c t db h hval hfun hfmt ms ds hms a ha hb hd path (hsize path (by simp)) (hpr path (by simp))
    have ih' := ih (fun p hp => hsize p (by simp [hp])) (fun p hp => hpr p (by simp [hp]))
    unfold loopTranscript
    by_cases hs : ∃ f l, Scans env ms ds path f l
    · obtain ⟨f, l, hs⟩ := hs
      obtain ⟨a1, r, piece, e1, ha1, b1, d1, c1, s1, x1, -⟩ := hspec.2 f l hs
      obtain ⟨a2, v, e, pieces, e2, ha2, f2⟩ := ih' a1 ha1 (by rw [b1, hb]) (by rw [d1, hd])
      rw [e1]
      simp only
      rw [e2]
      refine ⟨a2, _, e, piece :: pieces, rfl, ha2, .cons ⟨fun hno => absurd ⟨f, l, hs⟩ hno, ?_⟩ f2⟩
      rintro f' l' ⟨x, g1, -, g2⟩
      obtain ⟨y, g3, -, g4⟩ := hs
      rw [g1] at g3; cases g3
      rw [g2] at g4; cases g4
      exact ⟨r, c1, s1, x1⟩
    · obtain ⟨piece, e1, m1, m2⟩ := hspec.1 hs
      obtain ⟨a2, v, e, pieces, e2, ha2, f2⟩ := ih' a ha hb hd
      rw [e1]
      simp only
      rw [e2]
      exact ⟨a2, v, true, piece :: pieces, rfl, ha2, .cons ⟨fun _ => ⟨m1, m2⟩, fun f l hs' => absurd ⟨f, l, hs'⟩ hs⟩ f2⟩

/-- **C106, any database.**  `cargo audit bin` shows messages, then for each binary either that it failed or a block for each
finding, then the advisories about the tool.  The piece of a binary has something marked as an error exactly if its findings
make the run fail. -/
theorem C106_pieces (T : TermLib) (w : Circumstances) (env : Env) (c : AuditConfig) (t : Db.Tree) (hco : env.checkout c = some t)
    (db : Db.Database) (h : Db.Database.open t = .ok db) (hval : ∀ a ∈ db.iter, Validated a)
    (hfun : ∀ a ∈ db.iter, ∀ af, a.affected = some af → ∀ e ∈ af.functions, e.1 ≠ []) (hfmt : c.output.format = .terminal)
    (ms ds : Option Nat) (hms : ms.getD (100 * 1024 * 1024) < 2 ^ 64) (paths : List Str)
    (hsize : ∀ path ∈ paths, ∀ content, env.readBinary path = some content → content.length < 2 ^ 64)
    (hpr : ∀ path ∈ paths, ∀ f l, Scans env ms ds path f l → Printable c l) :
    ∃ (n : Nat) (before : List Shown) (pieces : List (List Shown)) (selfLines : List TermLine),
      binTranscript T w env ms ds paths c = (before ++ pieces.flatten ++ selfLines.map .screen, .code n) ∧
      (runBin env ms ds paths c).2 = .code n ∧ (∀ x ∈ before, ∃ m, x = .status m) ∧
      List.Forall₂ (fun path piece =>
        ((¬ ∃ f l, Scans env ms ds path f l) → .status (.binaryFailed path) ∈ piece ∧ ∀ x ∈ piece, ∃ m, x = .status m) ∧
        ∀ f l, Scans env ms ds path f l → ∃ r, Complete env c db l (some f) r ∧
          ShowsReport T (c.output.deny.flatMap DenyOption.warningKinds) r path piece ∧
          ((∃ x, .screen x ∈ piece ∧ Red x) ↔ Fails env c db l (some f))) paths pieces ∧
      (selfLines ≠ [] ↔ HasSelfAdvisory env db) := by
  obtain ⟨a, e1, ha⟩ := new_ready env c t hco db h
  have ha' : Ready env c db (a.setLimits ms ds) :=
    ⟨ha.database, ha.settings, ha.denyKinds, ha.config, ha.displayed, ha.noIndex, ha.index⟩
  obtain ⟨a', v, e, pieces, e2, ha2, f2⟩ :=
    loop_sections T w env c t db h hval hfun hfmt ms ds hms paths hsize hpr (a.setLimits ms ds) ha' rfl rfl
  obtain ⟨self, e3, hself⟩ := selfAdvisories_spec env t db h hval a' ha2.database
  have hrun : binTranscript T w env ms ds paths c =
      (newLines w env c ++ pieces.flatten ++ (a'.presenter.selfReport T self).map .screen,
        .code (if v then 1 else if e || a'.presenter.failureDueToSelf self then 2 else 0)) := by
    unfold binTranscript
    rw [e1]
    simp only
    rw [e2]
    simp only
    rw [e3]
    dsimp only
    generalize a'.presenter.failureDueToSelf self = q
    cases v <;> cases e <;> cases q <;> rfl
  refine ⟨_, _, pieces, _, hrun, ?_, newLines_status w env c, f2, ?_⟩
  · have := C89_agrees_bin T w env ms ds paths c
    rw [hrun] at this
    rcases this with h | h
    · cases h
    · exact h.symm
  · exact (not_congr (selfReport_nil T _ self)).trans hself

end Verif.Props
