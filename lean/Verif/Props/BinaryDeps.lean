import Verif.Props.QuittersExamples
import Verif.Props.Tree
import Verif.Props.SyncRun
import Verif.Props.Audit

/-!
# C58: lockfiles recovered from binaries
-/

namespace Verif.Props

open Verif.Bin Verif.Spec Verif.Lock Verif.Semver Verif.Sync

/-- The source that packages of crates.io get. -/
def indexSource : SourceId :=
  { url := { base := "https://github.com/rust-lang/crates.io-index".toList }, kind := .registry,
    precise := some "locked".toList }

theorem registrySource_ok {L : BinLib} (h : KnowsIndex L) : registrySource L = .ok indexSource := by
  have hc : cutC '+' registryUrl = ("registry".toList, some "https://github.com/rust-lang/crates.io-index".toList) := by
    decide +kernel
  unfold registrySource SourceId.fromUrl
  rw [hc]
  have h1 : ("registry".toList = "git".toList) = False := by simp
  simp only [h1, if_false, if_true]
  unfold KnowsIndex at h
  rw [h]
  rfl

/-- The source of an entry. -/
def sourceOf (e : AuditPackage) : Option SourceId := if e.source = .cratesIo then some indexSource else none

theorem sourceFromJson_ok {L : BinLib} (h : KnowsIndex L) (e : AuditPackage) :
    sourceFromJson L e.source = .ok (sourceOf e) := by
  unfold sourceOf
  cases e.source <;> simp only [sourceFromJson, reduceCtorEq, if_false, if_true]
  rw [registrySource_ok h]
  rfl

/-- The dependency on an entry. -/
def depOf (e : AuditPackage) : Dependency := { name := e.name, version := e.version, source := sourceOf e }

theorem dependencyAt_eq {L : BinLib} (h : KnowsIndex L) (input : List AuditPackage) (i : Nat) :
    dependencyAt L input i = match input[i]? with | none => .err | some e => .ok (depOf e) := by
  unfold dependencyAt
  cases input[i]? with
  | none => rfl
  | some e =>
    simp only
    rw [sourceFromJson_ok h]
    rfl

/-- The entries that the indices stand for. -/
theorem deps_ok {L : BinLib} (h : KnowsIndex L) (input : List AuditPackage) (is : List Nat) :
    (∀ ds, Outcome.mapList (dependencyAt L input) is = .ok ds ↔
      List.Forall₂ (fun i d => ∃ e, input[i]? = some e ∧ d = depOf e) is ds) ∧
    Outcome.mapList (dependencyAt L input) is ≠ .panic := by
  induction is with
  | nil => exact ⟨fun ds => by simp [Outcome.mapList, List.forall₂_nil_left_iff, eq_comm], by simp [Outcome.mapList]⟩
  | cons i is ih =>
    obtain ⟨ih1, ih2⟩ := ih
    rw [Outcome.mapList, dependencyAt_eq h]
    cases hi : input[i]? with
    | none =>
      refine ⟨fun ds => ⟨fun h => (by cases h), fun h => ?_⟩, by simp⟩
      cases h with
      | cons h1 _ => obtain ⟨e, he, -⟩ := h1; rw [hi] at he; cases he
    | some e =>
      simp only
      cases hm : Outcome.mapList (dependencyAt L input) is with
      | panic => exact absurd hm ih2
      | err =>
        refine ⟨fun ds => ⟨fun h => (by cases h), fun h => ?_⟩, by simp⟩
        cases h with
        | cons _ h2 => have := (ih1 _).mpr h2; rw [hm] at this; cases this
      | ok ds' =>
        refine ⟨fun ds => ⟨fun h => ?_, fun h => ?_⟩, by simp⟩
        · cases h
          exact .cons ⟨e, hi, rfl⟩ ((ih1 _).mp hm)
        · cases h with
          | cons h1 h2 =>
            obtain ⟨e', he, rfl⟩ := h1
            rw [hi] at he; cases he
            have := (ih1 _).mpr h2
            rw [hm] at this; cases this
            rfl

theorem packageFromJson_ok {L : BinLib} (h : KnowsIndex L) (input : List AuditPackage) (e : AuditPackage) :
    (∀ p, packageFromJson L input e = .ok p ↔ ∃ ds,
      List.Forall₂ (fun i d => ∃ e', input[i]? = some e' ∧ d = depOf e') e.dependencies ds ∧
      p = { name := e.name, version := e.version, source := sourceOf e, dependencies := ds }) ∧
    packageFromJson L input e ≠ .panic := by
  obtain ⟨h1, h2⟩ := deps_ok h input e.dependencies
  unfold packageFromJson
  rw [sourceFromJson_ok h]
  cases hm : Outcome.mapList (dependencyAt L input) e.dependencies with
  | panic => exact absurd hm h2
  | err =>
    refine ⟨fun p => ⟨fun h => (by cases h), ?_⟩, by simp⟩
    rintro ⟨ds, hd, -⟩
    have := (h1 _).mpr hd
    rw [hm] at this; cases this
  | ok ds =>
    refine ⟨fun p => ⟨fun h => ?_, ?_⟩, by simp⟩
    · cases h
      exact ⟨ds, (h1 _).mp hm, rfl⟩
    · rintro ⟨ds', hd, rfl⟩
      have := (h1 _).mpr hd
      rw [hm] at this; cases this
      rfl

/-- The root after the loop. -/
def RootAfter (root : Option Package) (es : List AuditPackage) (qs : List Package) (r : Option Package) : Prop :=
  ((∀ e ∈ es, e.root = false) ∧ r = root) ∨
  (root = none ∧ ∃ (i : Nat) (e : AuditPackage) (p : Package), es[i]? = some e ∧ e.root = true ∧ qs[i]? = some p ∧
    r = some p ∧ ∀ (j : Nat) (e' : AuditPackage), es[j]? = some e' → e'.root = true → j = i)

theorem rootAfter_cons_false {root : Option Package} {e : AuditPackage} {es : List AuditPackage} {q : Package}
    {qs : List Package} {r : Option Package} (he : e.root = false) :
    RootAfter root (e :: es) (q :: qs) r ↔ RootAfter root es qs r := by
  unfold RootAfter
  constructor
  · rintro (⟨h1, h2⟩ | ⟨h1, i, e', p, h2, h3, h4, h5, h6⟩)
    · exact .inl ⟨fun x hx => h1 x (List.mem_cons_of_mem _ hx), h2⟩
    · cases i with
      | zero =>
        simp only [List.getElem?_cons_zero, Option.some.injEq] at h2
        subst h2
        rw [he] at h3; cases h3
      | succ i =>
        refine .inr ⟨h1, i, e', p, h2, h3, h4, h5, fun j e'' hj hr => ?_⟩
        have := h6 (j + 1) e'' hj hr
        omega
  · rintro (⟨h1, h2⟩ | ⟨h1, i, e', p, h2, h3, h4, h5, h6⟩)
    · exact .inl ⟨fun x hx => (List.mem_cons.mp hx).elim (fun e => e ▸ he) (h1 x), h2⟩
    · refine .inr ⟨h1, i + 1, e', p, h2, h3, h4, h5, fun j e'' hj hr => ?_⟩
      cases j with
      | zero =>
        simp only [List.getElem?_cons_zero, Option.some.injEq] at hj
        subst hj
        rw [he] at hr; cases hr
      | succ j => rw [h6 j e'' hj hr]

theorem rootAfter_cons_true {root : Option Package} {e : AuditPackage} {es : List AuditPackage} {q : Package}
    {qs : List Package} {r : Option Package} (he : e.root = true) :
    RootAfter root (e :: es) (q :: qs) r ↔ root = none ∧ RootAfter (some q) es qs r := by
  unfold RootAfter
  constructor
  · rintro (⟨h1, h2⟩ | ⟨h1, i, e', p, h2, h3, h4, h5, h6⟩)
    · have := h1 e List.mem_cons_self
      rw [he] at this; cases this
    · have h0 : i = 0 := (h6 0 e rfl he).symm
      subst h0
      refine ⟨h1, .inl ⟨fun x hx => ?_, ?_⟩⟩
      · obtain ⟨j, hj⟩ := List.mem_iff_getElem?.mp hx
        cases hr : x.root with
        | false => rfl
        | true =>
          have := h6 (j + 1) x hj hr
          omega
      · simp only [List.getElem?_cons_zero, Option.some.injEq] at h4
        rw [h5, h4]
  · rintro ⟨h1, ⟨h2, rfl⟩ | ⟨h2, -⟩⟩
    · refine .inr ⟨h1, 0, e, q, rfl, he, rfl, rfl, fun j e' hj hr => ?_⟩
      cases j with
      | zero => rfl
      | succ j =>
        have := h2 e' (List.mem_iff_getElem?.mpr ⟨j, hj⟩)
        rw [hr] at this; cases this
    · cases h2

theorem packagesFromJson_ok {L : BinLib} (h : KnowsIndex L) (input : List AuditPackage) (es : List AuditPackage)
    (ps : List Package) (root : Option Package) :
    (∀ r, packagesFromJson L input ps root es = .ok r ↔ ∃ qs, r.1 = ps ++ qs ∧
      List.Forall₂ (fun e p => packageFromJson L input e = .ok p) es qs ∧ RootAfter root es qs r.2) ∧
    packagesFromJson L input ps root es ≠ .panic := by
  induction es generalizing ps root with
  | nil =>
    refine ⟨fun r => ?_, by simp [packagesFromJson]⟩
    obtain ⟨r1, r2⟩ := r
    simp only [packagesFromJson, Outcome.ok.injEq, Prod.mk.injEq, List.forall₂_nil_left_iff]
    constructor
    · rintro ⟨rfl, rfl⟩
      exact ⟨[], by simp, rfl, .inl ⟨by simp, rfl⟩⟩
    · rintro ⟨qs, h1, rfl, h2⟩
      refine ⟨by simpa using h1.symm, ?_⟩
      rcases h2 with ⟨-, h2⟩ | ⟨-, i, e, p, h2, -⟩
      · exact h2.symm
      · cases h2
  | cons e es ih =>
    obtain ⟨-, hnp⟩ := packageFromJson_ok h input e
    rw [packagesFromJson]
    cases hp : packageFromJson L input e with
    | panic => exact absurd hp hnp
    | err =>
      refine ⟨fun r => ⟨fun h => (by cases h), ?_⟩, by simp⟩
      rintro ⟨qs, -, hq, -⟩
      cases hq with
      | cons h1 _ => rw [hp] at h1; cases h1
    | ok p =>
      simp only
      have hsplit : ∀ (root' : Option Package) (P : List Package → Prop) (r : List Package × Option Package),
          ((∃ qs, r.1 = ps ++ [p] ++ qs ∧ List.Forall₂ (fun e p => packageFromJson L input e = .ok p) es qs ∧ P (p :: qs)) ↔
            ∃ qs, r.1 = ps ++ qs ∧ List.Forall₂ (fun e p => packageFromJson L input e = .ok p) (e :: es) qs ∧ P qs) := by
        intro root' P r
        constructor
        · rintro ⟨qs, h1, h2, h3⟩
          exact ⟨p :: qs, by simpa using h1, .cons hp h2, h3⟩
        · rintro ⟨qs, h1, h2, h3⟩
          cases h2 with
          | cons h4 h5 =>
            rw [hp] at h4; cases h4
            exact ⟨_, by simpa using h1, h5, h3⟩
      cases he : e.root with
      | false =>
        simp only [Bool.false_eq_true, if_false]
        refine ⟨fun r => ?_, (ih _ _).2⟩
        rw [(ih _ _).1 r, ← hsplit root (fun qs => RootAfter root (e :: es) qs r.2)]
        simp only [rootAfter_cons_false he]
      | true =>
        simp only [if_true]
        cases root with
        | none =>
          simp only [Option.isSome_none, Bool.false_eq_true, if_false]
          refine ⟨fun r => ?_, (ih _ _).2⟩
          rw [(ih _ _).1 r, ← hsplit none (fun qs => RootAfter none (e :: es) qs r.2)]
          simp only [rootAfter_cons_true he, true_and]
        | some q =>
          simp only [Option.isSome_some, if_true]
          refine ⟨fun r => ?_, by simp⟩
          rw [← hsplit (some q) (fun qs => RootAfter (some q) (e :: es) qs r.2)]
          simp [rootAfter_cons_true he]

theorem lockfileFromJson_ok {L : BinLib} (h : KnowsIndex L) (input : List AuditPackage) :
    (∀ l, lockfileFromJson L input = .ok l ↔ ∃ qs root, l = { version := .v2, packages := qs, root := root } ∧
      List.Forall₂ (fun e p => packageFromJson L input e = .ok p) input qs ∧ RootAfter none input qs root) ∧
    lockfileFromJson L input ≠ .panic := by
  obtain ⟨h1, h2⟩ := packagesFromJson_ok h input input [] none
  unfold lockfileFromJson
  cases hr : packagesFromJson L input [] none input with
  | panic => exact absurd hr h2
  | err =>
    refine ⟨fun l => ⟨fun h => (by cases h), ?_⟩, by simp⟩
    rintro ⟨qs, root, -, h3, h4⟩
    have := (h1 (qs, root)).mpr ⟨qs, rfl, h3, h4⟩
    rw [hr] at this; cases this
  | ok r =>
    refine ⟨fun l => ⟨fun h => ?_, ?_⟩, by simp⟩
    · cases h
      obtain ⟨qs, h3, h4, h5⟩ := (h1 _).mp hr
      exact ⟨r.1, r.2, rfl, by rw [h3]; exact h4, by rw [h3]; exact h5⟩
    · rintro ⟨qs, root, rfl, h3, h4⟩
      have := (h1 (qs, root)).mpr ⟨qs, rfl, h3, h4⟩
      rw [hr] at this; cases this
      rfl

/-! ### C58 -/

theorem sourceFor_sourceOf (e : AuditPackage) : SourceFor e.source (sourceOf e) := by
  unfold sourceOf
  split
  · rename_i h
    exact ⟨h, rfl, rfl⟩
  · rename_i h
    exact h

/-- **C58, when it succeeds.**  Recovering a lockfile from the dependency list in a binary never panics; it succeeds
iff every dependency index is the index of an entry, and at most one entry is marked as the root. -/
theorem C58_ok_iff (L : BinLib) (h : KnowsIndex L) (input : List AuditPackage) :
    lockfileFromJson L input ≠ .panic ∧
    ((∃ l, lockfileFromJson L input = .ok l) ↔ IndicesInRange input ∧ AtMostOneRoot input) := by
  obtain ⟨h1, h2⟩ := lockfileFromJson_ok h input
  refine ⟨h2, ?_⟩
  constructor
  · rintro ⟨l, hl⟩
    obtain ⟨qs, root, rfl, h3, h4⟩ := (h1 _).mp hl
    refine ⟨?_, ?_⟩
    · intro e he i hi
      obtain ⟨p, -, hp⟩ := forall2_left h3 he
      obtain ⟨ds, hds, -⟩ := ((packageFromJson_ok h input e).1 p).mp hp
      obtain ⟨d, -, e', he', -⟩ := forall2_left hds hi
      exact (List.getElem?_eq_some_iff.mp he').1
    · intro i j e e' hi hj hr hr'
      rcases h4 with ⟨h5, -⟩ | ⟨-, k, -, -, -, -, -, -, h6⟩
      · have := h5 e (List.mem_iff_getElem?.mpr ⟨i, hi⟩)
        rw [hr] at this; cases this
      · rw [h6 i e hi hr, h6 j e' hj hr']
  · rintro ⟨hidx, hroot⟩
    -- the packages
    have hds : ∀ is : List Nat, (∀ i ∈ is, i < input.length) → ∃ ds,
        List.Forall₂ (fun i d => ∃ e', input[i]? = some e' ∧ d = depOf e') is ds := by
      intro is
      induction is with
      | nil => intro _; exact ⟨[], .nil⟩
      | cons i is ih =>
        intro hi
        obtain ⟨ds, hd⟩ := ih fun j hj => hi j (List.mem_cons_of_mem _ hj)
        exact ⟨_ :: ds, .cons ⟨_, List.getElem?_eq_getElem (hi i List.mem_cons_self), rfl⟩ hd⟩
    have hqs : ∀ es : List AuditPackage, (∀ e ∈ es, e ∈ input) → ∃ qs,
        List.Forall₂ (fun e p => packageFromJson L input e = .ok p) es qs := by
      intro es
      induction es with
      | nil => intro _; exact ⟨[], .nil⟩
      | cons e es ih =>
        intro he
        obtain ⟨qs, hq⟩ := ih fun x hx => he x (List.mem_cons_of_mem _ hx)
        obtain ⟨ds, hd⟩ := hds e.dependencies (hidx e (he e List.mem_cons_self))
        exact ⟨_ :: qs, .cons (((packageFromJson_ok h input e).1 _).mpr ⟨ds, hd, rfl⟩) hq⟩
    obtain ⟨qs, hq⟩ := hqs input fun _ he => he
    by_cases hany : ∃ e ∈ input, e.root = true
    · obtain ⟨e, he, hr⟩ := hany
      obtain ⟨i, hi⟩ := List.mem_iff_getElem?.mp he
      have hlt : i < qs.length := by
        rw [← hq.length_eq]; exact (List.getElem?_eq_some_iff.mp hi).1
      exact ⟨_, (h1 _).mpr ⟨qs, some qs[i], rfl, hq, .inr ⟨rfl, i, e, qs[i], hi, hr,
        List.getElem?_eq_getElem hlt, rfl, fun j e' hj hr' => hroot j i e' e hj hi hr' hr⟩⟩⟩
    · refine ⟨_, (h1 _).mpr ⟨qs, none, rfl, hq, .inl ⟨fun e he => ?_, rfl⟩⟩⟩
      cases hr : e.root with
      | false => rfl
      | true => exact absurd ⟨e, he, hr⟩ hany

/-- **C58, what is recovered.** -/
theorem C58_recovered (L : BinLib) (h : KnowsIndex L) (input : List AuditPackage) (l : Lockfile)
    (hl : lockfileFromJson L input = .ok l) : Recovered input l := by
  obtain ⟨qs, root, rfl, h3, h4⟩ := ((lockfileFromJson_ok h input).1 _).mp hl
  refine ⟨?_, ?_, rfl, rfl, rfl⟩
  · refine h3.imp fun e p hp => ?_
    obtain ⟨ds, hds, rfl⟩ := ((packageFromJson_ok h input e).1 p).mp hp
    refine ⟨rfl, rfl, sourceFor_sourceOf e, rfl, rfl, hds.imp fun i d hd => ?_⟩
    obtain ⟨e', he', rfl⟩ := hd
    exact ⟨e', he', rfl, rfl, sourceFor_sourceOf e'⟩
  · rcases h4 with ⟨h5, h6⟩ | ⟨-, i, e, p, h5, h6, h7, h8, -⟩
    · exact .inl ⟨h6, h5⟩
    · exact .inr ⟨i, e, p, h5, h6, h7, h8⟩

theorem recovered_mem {L : BinLib} (h : KnowsIndex L) {input : List AuditPackage} {l : Lockfile}
    (hl : lockfileFromJson L input = .ok l) {p : Package} (hp : p ∈ l.packages) : ∃ e ∈ input, ∃ ds,
      List.Forall₂ (fun i d => ∃ e', input[i]? = some e' ∧ d = depOf e') e.dependencies ds ∧
      p = { name := e.name, version := e.version, source := sourceOf e, dependencies := ds } := by
  obtain ⟨qs, root, rfl, h3, -⟩ := ((lockfileFromJson_ok h input).1 _).mp hl
  obtain ⟨e, he, hep⟩ := forall2_left h3.flip hp
  exact ⟨e, he, ((packageFromJson_ok h input e).1 p).mp hep⟩

/-- **C58, auditable.**  The dependency tree of a recovered lockfile can be built (and printed with the report). -/
theorem C58_tree (L : BinLib) (h : KnowsIndex L) (input : List AuditPackage) (l : Lockfile)
    (hl : lockfileFromJson L input = .ok l) : Pinned l.packages ∧ ∃ t, Lock.Tree.new l = .ok t := by
  have nogit : ∀ e s, sourceOf e = some s → ¬ ∃ r, s.kind = .git r := by
    rintro e s hs ⟨r, hr⟩
    unfold sourceOf at hs
    split at hs
    · cases hs; cases hr
    · cases hs
  have hpin : Pinned l.packages := by
    intro p hp
    obtain ⟨e, he, ds, hds, rfl⟩ := recovered_mem h hl hp
    refine ⟨fun s hs hg => absurd hg (nogit e s hs), fun d hd s hs hg => ?_⟩
    obtain ⟨i, hi, e', he', rfl⟩ := forall2_left hds.flip hd
    exact absurd hg (nogit e' s hs)
  refine ⟨hpin, (C31_new_ok_iff l hpin).2.mpr fun p hp d hd => ?_⟩
  obtain ⟨e, he, ds, hds, rfl⟩ := recovered_mem h hl hp
  obtain ⟨i, hi, e', he', rfl⟩ := forall2_left hds.flip hd
  obtain ⟨qs, root, rfl, h3, -⟩ := ((lockfileFromJson_ok h input).1 _).mp hl
  obtain ⟨q, hq, hqe⟩ := forall2_left h3 (List.mem_iff_getElem?.mpr ⟨i, he'⟩)
  obtain ⟨ds', -, rfl⟩ := ((packageFromJson_ok h input e').1 q).mp hqe
  refine ⟨_, hq, rfl, rfl, ?_⟩
  cases hs : sourceOf e' with
  | none => exact .inl ⟨hs, rfl⟩
  | some s =>
    refine .inr ⟨s, s, hs, rfl, rfl, rfl, .inr ⟨fun ⟨hg, _⟩ => nogit e' s hs hg, rfl⟩⟩

open Verif.Adv Verif.Db in
/-- **C58, the audit.**  Scanning the recovered lockfile reports an advisory for the package of an entry iff the
entry is from crates.io and has the name and a version that the advisory exposes (and the advisory is about crates of
the crates.io index, not withdrawn, not informational). -/
theorem C58_scan (L : BinLib) (h : KnowsIndex L) (input : List AuditPackage) (l : Lockfile)
    (hl : lockfileFromJson L input = .ok l) (t : Db.Tree) (db : Database) (hdb : Database.open t = .ok db)
    (hval : ∀ a ∈ db.iter, Validated a) : ∃ vs, db.vulnerabilities l.packages = some vs ∧
      ∀ (i : Nat) e p, input[i]? = some e → l.packages[i]? = some p → ∀ a ∈ db.iter,
        (Vulnerability.new a p ∈ vs ↔ e.source = .cratesIo ∧ a.metadata.package = e.name ∧ Exposed a e.version ∧
          (∀ s, a.metadata.source = some s → s.kind = .registry ∧
            s.url.text = "https://github.com/rust-lang/crates.io-index".toList) ∧
          a.metadata.collection = some .crates ∧ a.metadata.withdrawn = none ∧ a.metadata.informational = none) := by
  obtain ⟨vs, h1, h2⟩ := C13_vulnerabilities_iff t db hdb hval l.packages
  refine ⟨vs, h1, fun i e p hi hp a ha => ?_⟩
  rw [h2]
  have hep : ∃ ds, p = { name := e.name, version := e.version, source := sourceOf e, dependencies := ds } := by
    obtain ⟨qs, root, rfl, h3, -⟩ := ((lockfileFromJson_ok h input).1 _).mp hl
    have hg := List.forall₂_iff_get.mp h3
    obtain ⟨hi1, hi2⟩ := List.getElem?_eq_some_iff.mp hi
    obtain ⟨hp1, hp2⟩ := List.getElem?_eq_some_iff.mp hp
    have := hg.2 i hi1 hp1
    simp only [List.get_eq_getElem] at this
    change packageFromJson L input input[i] = .ok (qs[i]'hp1) at this
    rw [hi2] at this
    have hp3 : qs[i]'hp1 = p := hp2
    rw [hp3] at this
    obtain ⟨ds, -, e'⟩ := ((packageFromJson_ok h input e).1 p).mp this
    exact ⟨ds, e'⟩
  obtain ⟨ds, rfl⟩ := hep
  have hsrc : ∀ s, sourceOf e = some s → e.source = .cratesIo ∧ s.kind = .registry ∧
      s.url.text = "https://github.com/rust-lang/crates.io-index".toList := by
    intro s hs
    have := sourceFor_sourceOf e
    rw [hs] at this
    exact this
  constructor
  · rintro ⟨p', hp', a', ha', hv, hc, hn, hx, ⟨s, hs, hs1, hs2⟩, hrest⟩
    have ea : a = a' := by
      obtain ⟨m, af, ve⟩ := a
      obtain ⟨m', af', ve'⟩ := a'
      simp only [Vulnerability.new, Vulnerability.mk.injEq] at hv
      obtain ⟨rfl, rfl, rfl, -⟩ := hv
      rfl
    have ep : p' = { name := e.name, version := e.version, source := sourceOf e, dependencies := ds } :=
      (congrArg Vulnerability.package hv).symm
    subst ea ep
    obtain ⟨k1, k2, k3⟩ := hsrc s hs
    refine ⟨k1, hn, hx, ?_, hrest⟩
    intro s' hs'
    rw [hs'] at hs1 hs2
    exact ⟨hs1.trans k2, hs2.trans k3⟩
  · rintro ⟨k1, hn, hx, hs, hrest⟩
    have hso : sourceOf e = some indexSource := by unfold sourceOf; rw [if_pos k1]
    refine ⟨_, List.mem_iff_getElem?.mpr ⟨i, hp⟩, a, ha, rfl, ⟨indexSource, hso, .inl ⟨rfl, rfl⟩⟩, hn, hx,
      ⟨indexSource, hso, ?_⟩, hrest⟩
    cases hm : a.metadata.source with
    | none => exact ⟨rfl, rfl⟩
    | some s =>
      obtain ⟨q1, q2⟩ := hs s hm
      exact ⟨q1, q2⟩

/-! ### Panic messages -/

theorem toPackage_ok {L : BinLib} (h : KnowsIndex L) (qs : List (Str × Version)) :
    Outcome.mapList (toPackage L) qs =
      .ok (qs.map fun q => { name := q.1, version := q.2, source := some indexSource }) := by
  induction qs with
  | nil => rfl
  | cons q qs ih =>
    rw [Outcome.mapList, ih]
    unfold toPackage
    rw [registrySource_ok h]
    rfl

/-- **C58, panic messages.**  From the panic messages a lockfile is made iff any crate is recovered; it has one
package of crates.io for each, in order, and no dependencies; its tree can be built. -/
theorem C58_panics (L : BinLib) (h : KnowsIndex L) (data : List UInt8) :
    (versions L.parseVersion data = [] ∧ depsFromPanics L data = .ok none) ∨
    (versions L.parseVersion data ≠ [] ∧ ∃ l, depsFromPanics L data = .ok (some l) ∧
      List.Forall₂ (fun q (p : Package) => p.name = q.1 ∧ p.version = q.2 ∧ SourceFor .cratesIo p.source ∧
        p.dependencies = [] ∧ p.checksum = none ∧ p.replace = none) (versions L.parseVersion data) l.packages ∧
      l.root = none ∧ l.version = .v2 ∧ l.metadata = [] ∧ l.patch = [] ∧
      Pinned l.packages ∧ ∃ t, Lock.Tree.new l = .ok t) := by
  unfold depsFromPanics
  cases hv : versions L.parseVersion data with
  | nil => exact .inl ⟨rfl, rfl⟩
  | cons q qs =>
    refine .inr ⟨by simp, { version := .v2, packages := (q :: qs).map fun q =>
        { name := q.1, version := q.2, source := some indexSource } }, ?_, ?_⟩
    · simp only
      rw [toPackage_ok h]
      rfl
    · have hf : ∀ qs : List (Str × Version), List.Forall₂ (fun q (p : Package) => p.name = q.1 ∧ p.version = q.2 ∧
          SourceFor .cratesIo p.source ∧ p.dependencies = [] ∧ p.checksum = none ∧ p.replace = none) qs
          (qs.map fun q => { name := q.1, version := q.2, source := some indexSource }) := by
        intro qs
        induction qs with
        | nil => exact .nil
        | cons q qs ih => exact .cons ⟨rfl, rfl, ⟨rfl, rfl, rfl⟩, rfl, rfl, rfl⟩ ih
      have hmem : ∀ p ∈ (q :: qs).map (fun q => ({ name := q.1, version := q.2, source := some indexSource } : Package)),
          p.source = some indexSource ∧ p.dependencies = [] := by
        intro p hp
        obtain ⟨x, -, rfl⟩ := List.mem_map.mp hp
        exact ⟨rfl, rfl⟩
      have hpin : Pinned ((q :: qs).map (fun q => ({ name := q.1, version := q.2, source := some indexSource } : Package))) := by
        intro p hp
        obtain ⟨h1, h2⟩ := hmem p hp
        refine ⟨fun s hs hg => ?_, fun d hd => ?_⟩
        · rw [h1] at hs; cases hs
          obtain ⟨r, hr⟩ := hg
          cases hr
        · rw [h2] at hd; cases hd
      refine ⟨hf _, rfl, rfl, rfl, rfl, hpin, (C31_new_ok_iff _ hpin).2.mpr fun p hp d hd => ?_⟩
      rw [(hmem p hp).2] at hd
      cases hd

/-- **C58, which source is used.**  An embedded list is used if there is one, even if it is empty; a broken one is an
error, not a reason to look at panic messages. -/
theorem C58_load (L : BinLib) (h : KnowsIndex L) (data : List UInt8) (limit : Option Nat) :
    loadDepsFromBinary L data limit ≠ .panic ∧
    ∀ f r, loadDepsFromBinary L data limit = .ok (f, r) ↔
      f = detectFormat L data ∧
      match L.auditInfo data (limit.getD (8 * 1024 * 1024)) with
      | .found input => ∃ l, lockfileFromJson L input = .ok l ∧ r = .complete l
      | .noAuditData => (∃ l, depsFromPanics L data = .ok (some l) ∧ r = .incomplete l) ∨
          (depsFromPanics L data = .ok none ∧ r = .nothing)
      | .failed => False := by
  unfold loadDepsFromBinary
  have e : limit.getD defaultAuditLimit = limit.getD (8 * 1024 * 1024) := rfl
  rw [e]
  cases L.auditInfo data (limit.getD (8 * 1024 * 1024)) with
  | failed => exact ⟨by simp, fun f r => ⟨fun h => (by cases h), fun h => h.2.elim⟩⟩
  | found input =>
    simp only
    cases hl : lockfileFromJson L input with
    | panic => exact absurd hl (C58_ok_iff L h input).1
    | err => exact ⟨by simp, fun f r => ⟨fun h => (by cases h), fun ⟨_, l, h, _⟩ => (by cases h)⟩⟩
    | ok l =>
      refine ⟨by simp, fun f r => ⟨fun h => ?_, fun ⟨h1, l', h2, h3⟩ => ?_⟩⟩
      · cases h; exact ⟨rfl, l, rfl, rfl⟩
      · cases h2; rw [h1, h3]; rfl
  | noAuditData =>
    simp only
    rcases C58_panics L h data with ⟨-, hd⟩ | ⟨-, l, hd, -⟩
    · rw [hd]
      refine ⟨by simp, fun f r => ⟨fun h => ?_, fun ⟨h1, h2⟩ => ?_⟩⟩
      · cases h; exact ⟨rfl, .inr ⟨rfl, rfl⟩⟩
      · rcases h2 with ⟨l, h2, -⟩ | ⟨-, h2⟩
        · cases h2
        · rw [h1, h2]; rfl
    · rw [hd]
      refine ⟨by simp, fun f r => ⟨fun h => ?_, fun ⟨h1, h2⟩ => ?_⟩⟩
      · cases h; exact ⟨rfl, .inl ⟨l, rfl, rfl⟩⟩
      · rcases h2 with ⟨l', h2, h3⟩ | ⟨h2, -⟩
        · cases h2; rw [h1, h3]; rfl
        · cases h2

/-- Formats: WebAssembly is recognised by its magic bytes, the others by `binfarce`. -/
theorem C58_format (L : BinLib) (data : List UInt8) :
    (L.format data ≠ .unknown → detectFormat L data = L.format data) ∧
    (L.format data = .unknown →
      ((detectFormat L data = .wasm ∧ ∃ rest, data = 0 :: (bytes "asm" ++ rest)) ∨
       (detectFormat L data = .unknown ∧ ¬ ∃ rest, data = 0 :: (bytes "asm" ++ rest)))) := by
  have hb : bytes "asm" = [97, 115, 109] := by decide
  have e : (∃ rest, data = 0 :: (bytes "asm" ++ rest)) ↔ (([0, 97, 115, 109] : List UInt8).isPrefixOf data) = true := by
    rw [List.isPrefixOf_iff_prefix, hb]
    constructor
    · rintro ⟨rest, rfl⟩; exact ⟨rest, rfl⟩
    · rintro ⟨rest, hr⟩; exact ⟨rest, hr.symm⟩
  unfold detectFormat
  rw [e]
  refine ⟨fun h => ?_, fun h => ?_⟩
  · cases hf : L.format data <;> first | rfl | exact absurd hf h
  · rw [h]
    by_cases hp : (([0, 97, 115, 109] : List UInt8).isPrefixOf data) = true
    · exact .inl ⟨if_pos hp, hp⟩
    · exact .inr ⟨if_neg hp, hp⟩

/-! ### A binary -/

/-- Libraries: the list is found where the data starts with a `1`. -/
def toyBin : BinLib where
  parseVersion := toyCodec.parseVersion
  url := toyUrl
  auditInfo := fun d _ =>
    if d.head? = some 1 then .found
      [{ name := "app".toList, version := ⟨0, 1, 0, [], []⟩, source := .localPath, dependencies := [2, 1], root := true },
       { name := "lib".toList, version := ⟨1, 0, 0, [], []⟩, source := .cratesIo },
       { name := "other".toList, version := ⟨1, 0, 0, [], []⟩, source := .git, dependencies := [1] }]
    else if d.head? = some 2 then .found
      [{ name := "app".toList, version := ⟨0, 1, 0, [], []⟩, source := .localPath, dependencies := [1] }]
    else .noAuditData
  format := fun _ => .unknown

/-- The hypotheses of the C58 theorems hold of it. -/
example : KnowsIndex toyBin := by unfold KnowsIndex; decide +kernel

example : (match loadDepsFromBinary toyBin [1] none with
    | .ok (f, .complete l) => decide (f = .unknown) && decide (l.packages.map (fun p => (p.name, p.dependencies.map (·.name))) =
        [("app".toList, ["other".toList, "lib".toList]), ("lib".toList, []), ("other".toList, ["lib".toList])]) &&
        decide (l.root.map (·.name) = some "app".toList) &&
        decide (l.packages.map (fun p => p.source.isSome) = [false, true, false])
    | _ => false) = true := by decide +kernel

example : loadDepsFromBinary toyBin [2] none = .err := by decide +kernel

example : (match loadDepsFromBinary toyBin (bytes "cargo/registry/src/g/a-1.0.0/") none with
    | .ok (_, .incomplete l) => decide (l.packages.map (·.name) = ["a".toList])
    | _ => false) = true := by decide +kernel

/-- The registry in the path is not looked at: a crate of a private registry is audited as one of crates.io. -/
example : (match loadDepsFromBinary toyBin (bytes "cargo/registry/src/private-registry/a-1.0.0/") none with
    | .ok (_, .incomplete l) => l.packages.all fun p => (p.source.map SourceId.isDefaultRegistry) == some true
    | _ => false) = true := by decide +kernel

end Verif.Props
