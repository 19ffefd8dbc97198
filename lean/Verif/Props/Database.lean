import Verif.Lemmas.Database
import Verif.Props.Versions

/-!
# C10-C14, C18: the advisory database

`Database.open` loads a checkout; `get`, `iter`, `query`, `queryVulnerabilities`, `vulnerabilities` are the
public API.  The specification is `Verif/Spec/Database.lean`.
-/

namespace Verif.Props

open Verif.Semver Verif.Osv Verif.Lock Verif.Adv Verif.Db Verif.Spec

private theorem paths_not_dot {t : Tree} {ps : List AdvPath} (h : advisoryPaths t = .ok ps) :
    ∀ p ∈ ps, ¬ ['.'] <+: p.file.name := by
  intro p hp
  obtain ⟨_, _, _, _, _, hd⟩ := (mem_advisoryPaths h p).mp hp
  exact hd

theorem open_ok {t : Tree} {db : Database} (h : Database.open t = .ok db) :
    ∃ ps, advisoryPaths t = .ok ps ∧ Inv db ∧ db.iter = ps.filterMap entryOf ∧
      ∀ p ∈ ps, ∃ a, WellPlaced p.collection p.pkgDir p.file a := by
  unfold Database.open at h
  cases hps : advisoryPaths t with
  | err => rw [hps] at h; cases h
  | panic => rw [hps] at h; cases h
  | ok ps =>
    rw [hps] at h
    obtain ⟨h1, h2, h3⟩ := loadAll_ok ps {} inv_empty (paths_not_dot hps) db h
    exact ⟨ps, rfl, h1, by simpa [Database.iter] using h2, h3⟩

/-- **C10 (uniqueness).** No two entries of a loaded database have the same ID. -/
theorem C10_ids_unique (t : Tree) (db : Database) (h : Database.open t = .ok db) :
    (db.iter.map (fun a => a.metadata.id)).Nodup := by
  obtain ⟨ps, -, hi, -⟩ := open_ok h
  exact hi.nodup

/-- **C10 (exact lookup).** `get id` returns `a` iff `a` is in the database and has that ID. -/
theorem C10_get_iff (t : Tree) (db : Database) (h : Database.open t = .ok db) (id : Id) (a : Advisory) :
    db.get id = some a ↔ a ∈ db.iter ∧ a.metadata.id = id := by
  obtain ⟨ps, -, hi, -⟩ := open_ok h
  unfold Database.get
  constructor
  · intro hg
    cases hl : db.advisories.index.lookup id with
    | none => rw [hl] at hg; cases hg
    | some s =>
      rw [hl] at hg
      obtain ⟨b, hb, hid⟩ := hi.sound id s hl
      simp only [Option.bind_some] at hg
      rw [hb] at hg; cases hg
      exact ⟨List.mem_of_getElem? hb, hid⟩
  · rintro ⟨ha, rfl⟩
    obtain ⟨s, hs⟩ := hi.complete a ha
    obtain ⟨b, hb, hid⟩ := hi.sound _ s hs
    rw [hs, Option.bind_some, hb]
    have : b = a := by
      have hn := hi.nodup
      exact List.inj_on_of_nodup_map hn (List.mem_of_getElem? hb) ha hid
    rw [this]

/-- **C12.** `matches` is the conjunction of the filters that are set. -/
theorem C12_matches_iff (q : Query) (a : Advisory) : q.matches a = true ↔ QueryHolds q a := by
  have harch : ∀ (x y : List Str), (!x.isEmpty && !y.isEmpty && !y.any (fun t => x.contains t)) = false ↔
      x = [] ∨ y = [] ∨ ∃ z ∈ y, z ∈ x := by
    intro x y
    cases x <;> cases y <;> (simp; try grind)
  have iteF : ∀ (c r : Bool), (if c = true then false else r) = (!c && r) := by decide
  unfold Query.matches
  simp only [iteF, Bool.and_eq_true, Bool.not_eq_true', Bool.and_true]
  constructor
  · rintro ⟨h1, h2, h3, h4, h5, h6, h7, h8, h9, h10⟩
    refine ⟨?_, ?_, ?_, ?_, ?_, ?_, ?_, ?_, ?_, ?_⟩
    · intro c hc; simp only [hc] at h1; simpa using (by simpa using h1 : some c = _).symm
    · intro n hn; simp only [hn] at h2; simpa using (by simpa using h2 : n = _).symm
    · intro v hv; simp only [hv] at h3; simpa [vulnerableTest] using h3
    · intro s hs; simp only [hs] at h4; simpa using h4
    · intro th sev hq ha; simp only [hq, ha] at h5; simpa using h5
    · intro af ha; simp only [ha] at h6; exact (harch _ _).mp (by simpa using h6)
    · intro af ha; simp only [ha] at h7; exact (harch _ _).mp (by simpa using h7)
    · intro y y' hq ha; simp only [hq, ha] at h8; simpa using h8
    · intro b hb; simp only [hb] at h9; cases b <;> cases hw : a.metadata.withdrawn <;> simp_all
    · intro b hb; simp only [hb] at h10; cases b <;> cases hw : a.metadata.informational <;> simp_all
  · intro h
    refine ⟨?_, ?_, ?_, ?_, ?_, ?_, ?_, ?_, ?_, ?_⟩
    · cases hs : q.collection with
      | none => rfl
      | some s => simpa using (h.collection s hs).symm
    · cases hs : q.packageName with
      | none => rfl
      | some s => simpa using (h.name s hs).symm
    · cases hs : q.packageVersion with
      | none => rfl
      | some s => simpa [vulnerableTest] using h.version s hs
    · cases hs : q.packageSource with
      | none => rfl
      | some s => simpa using h.source s hs
    · cases hq : q.severity with
      | none => rfl
      | some y => cases ha : a.metadata.severity with
        | none => rfl
        | some y' => simpa using h.severity y y' hq ha
    · cases ha : a.affected with
      | none => rfl
      | some af => simpa using (harch _ _).mpr (h.arch af ha)
    · cases ha : a.affected with
      | none => rfl
      | some af => simpa using (harch _ _).mpr (h.os af ha)
    · cases hq : q.year with
      | none => rfl
      | some y => cases ha : a.metadata.id.year with
        | none => rfl
        | some y' => simpa using h.year y y' hq ha
    · cases hb : q.withdrawn with
      | none => rfl
      | some b => have := h.withdrawn b hb; cases b <;> cases hw : a.metadata.withdrawn <;> simp_all
    · cases hb : q.informational with
      | none => rfl
      | some b => have := h.informational b hb; cases b <;> cases hw : a.metadata.informational <;> simp_all

/-- **C12 (unset filters).** A query without filters matches every advisory; and if every filter set in `q` is
set to the same value in `q'` then `q'` matches no more than `q`. -/
theorem C12_unset_and_monotone (q q' : Query) (a : Advisory) :
    Query.new.matches a = true ∧
    ((∀ x, q.collection = some x → q'.collection = some x) → (∀ x, q.packageName = some x → q'.packageName = some x) →
     (∀ x, q.packageVersion = some x → q'.packageVersion = some x) →
     (∀ x, q.packageSource = some x → q'.packageSource = some x) →
     (∀ x, q.severity = some x → ∃ y, q'.severity = some y ∧ x.rank ≤ y.rank) →
     (q.targetArch ≠ [] → q'.targetArch ≠ [] ∧ q'.targetArch ⊆ q.targetArch) →
     (q.targetOs ≠ [] → q'.targetOs ≠ [] ∧ q'.targetOs ⊆ q.targetOs) →
     (∀ x, q.year = some x → q'.year = some x) → (∀ x, q.withdrawn = some x → q'.withdrawn = some x) →
     (∀ x, q.informational = some x → q'.informational = some x) →
     q'.matches a = true → q.matches a = true) := by
  refine ⟨(C12_matches_iff _ _).mpr ⟨nofun, nofun, nofun, nofun, nofun, fun _ _ => Or.inr (Or.inl rfl),
    fun _ _ => Or.inr (Or.inl rfl), nofun, nofun, nofun⟩, ?_⟩
  intro h1 h2 h3 h4 h5 h6 h7 h8 h9 h10 h
  rw [C12_matches_iff] at *
  refine ⟨fun c hc => h.collection c (h1 c hc), fun c hc => h.name c (h2 c hc), fun c hc => h.version c (h3 c hc),
    fun c hc => h.source c (h4 c hc), ?_, ?_, ?_, fun y y' hq ha => h.year y y' (h8 y hq) ha,
    fun b hb => h.withdrawn b (h9 b hb), fun b hb => h.informational b (h10 b hb)⟩
  · intro th sev hq ha
    obtain ⟨y, hy, hle⟩ := h5 th hq
    exact _root_.le_trans hle (h.severity y sev hy ha)
  · intro af ha
    by_cases hq : q.targetArch = []
    · exact Or.inr (Or.inl hq)
    · obtain ⟨hne, hsub⟩ := h6 hq
      rcases h.arch af ha with h | h | ⟨x, hx, hx'⟩
      · exact Or.inl h
      · exact absurd h hne
      · exact Or.inr (Or.inr ⟨x, hsub hx, hx'⟩)
  · intro af ha
    by_cases hq : q.targetOs = []
    · exact Or.inr (Or.inl hq)
    · obtain ⟨hne, hsub⟩ := h7 hq
      rcases h.os af ha with h | h | ⟨x, hx, hx'⟩
      · exact Or.inl h
      · exact absurd h hne
      · exact Or.inr (Or.inr ⟨x, hsub hx, hx'⟩)

/-- **C11.** `query` never panics on a loaded database and returns, in database order, exactly the
advisories that match. -/
theorem C11_query_eq_scan (t : Tree) (db : Database) (h : Database.open t = .ok db) (q : Query) :
    db.query q = some (db.iter.filter q.matches) := by
  obtain ⟨ps, -, hi, -⟩ := open_ok h
  unfold Database.query
  cases hn : q.packageName with
  | none => rfl
  | some name =>
    cases hc : q.collection with
    | none => rfl
    | some c =>
      have hinv : IndexInv (db.indexFor c)
          db.advisories.advisories c := by
        cases c
        · exact hi.crates
        · exact hi.rust
      have hsub : db.iter.filter q.matches = (db.advisories.advisories.filter
          (fun a => decide (a.metadata.package = name ∧ a.metadata.collection = some c))).filter q.matches := by
        rw [List.filter_filter]
        apply List.filter_congr
        intro a _
        cases hm : q.matches a with
        | false => rfl
        | true =>
          have hm' := (C12_matches_iff q a).mp hm
          simp [hm'.collection c hc, hm'.name name hn]
      simp only
      have hv := hinv name
      cases hg : Index.get (db.indexFor c) name with
      | none =>
        rw [hg] at hv
        have hs := mapM_slotsOf db.advisories.advisories
          (fun a => decide (a.metadata.package = name ∧ a.metadata.collection = some c))
        rw [← hv] at hs
        simp only [Option.getD_none, List.mapM_nil, Option.pure_def, Option.some.injEq] at hs
        rw [hsub, ← hs]
        rfl
      | some slots =>
        rw [hg] at hv
        simp only [Option.getD_some] at hv
        simp only
        rw [hsub, hv, mapM_slotsOf]
        rfl

/-! ### C13: the scan of a lockfile -/

theorem scanned_iff (p : Package) : scanned p = true ↔ FromCratesIo p := by
  have hs : cratesIoSparseIndex.drop 7 = "https://index.crates.io/".toList := by decide
  unfold scanned FromCratesIo
  cases p.source with
  | none => simp
  | some s =>
    simp only [SourceId.isDefaultRegistry, hs, Bool.or_eq_true, decide_eq_true_eq, Option.some.injEq,
      exists_eq_left']
    exact Iff.rfl

/-- The scan reports, package by package in lockfile order, the matching advisories in database order. -/
theorem scan_eq (t : Tree) (db : Database) (h : Database.open t = .ok db) (packages : List Package) (q : Query) :
    db.queryVulnerabilities packages q = some ((packages.filter scanned).flatMap
      (fun p => (db.iter.filter (q.package p).matches).map (fun a => Vulnerability.new a p))) := by
  induction packages with
  | nil => rfl
  | cons p ps ih =>
    unfold Database.queryVulnerabilities
    cases hp : scanned p with
    | true =>
      rw [if_pos rfl, C11_query_eq_scan t db h, ih]
      simp [List.filter, hp]
    | false =>
      rw [if_neg (by simp), ih]
      simp [List.filter, hp]

/-- **C13 (`query_vulnerabilities`).** The scan never panics and reports `v` iff `v` pairs a locked package from
crates.io with an advisory of the database whose name is the package's, whose ranges leave the version exposed,
which speaks about the package's registry, and which passes the remaining filters of the query. -/
theorem C13_scan_sound_complete (t : Tree) (db : Database) (h : Database.open t = .ok db)
    (hval : ∀ a ∈ db.iter, Validated a) (packages : List Package) (q : Query) :
    ∃ vs, db.queryVulnerabilities packages q = some vs ∧
      ∀ v, v ∈ vs ↔ ∃ p ∈ packages, ∃ a ∈ db.iter, v = Vulnerability.new a p ∧ FromCratesIo p ∧
        a.metadata.package = p.name ∧ Exposed a p.version ∧ SameRegistry a p ∧
        QueryHolds { q with packageName := none, packageVersion := none, packageSource := none } a := by
  refine ⟨_, scan_eq t db h packages q, ?_⟩
  intro v
  simp only [List.mem_flatMap, List.mem_map, List.mem_filter, C12_matches_iff, scanned_iff]
  have hv : ∀ a ∈ db.iter, ∀ w, a.versions.isVulnerable w = .ok true ↔ Exposed a w := by
    intro a ha w
    obtain ⟨hwf, hok⟩ := hval a ha
    obtain ⟨b, hb, hiff⟩ := C01_is_vulnerable_iff _ _ _ hwf hok w
    rw [hb]
    unfold Exposed
    rw [← hiff]
    simp
  constructor
  · rintro ⟨p, ⟨hp, hc⟩, a, ⟨ha, hm⟩, rfl⟩
    refine ⟨p, hp, a, ha, rfl, hc, hm.name p.name rfl, (hv a ha _).mp (hm.version p.version rfl), ?_, ?_⟩
    · obtain ⟨s, hs, -⟩ := hc
      exact ⟨s, hs, hm.source s hs⟩
    · exact ⟨hm.collection, nofun, nofun, nofun, hm.severity, hm.arch, hm.os, hm.year, hm.withdrawn,
        hm.informational⟩
  · rintro ⟨p, hp, a, ha, rfl, hc, hn, he, ⟨s, hs, hs'⟩, hq⟩
    refine ⟨p, ⟨hp, hc⟩, a, ⟨ha, ?_⟩, rfl⟩
    refine ⟨hq.collection, ?_, ?_, ?_, hq.severity, hq.arch, hq.os, hq.year, hq.withdrawn, hq.informational⟩
    · intro n h; cases h; exact hn
    · intro n h; cases h; exact (hv a ha _).mpr he
    · intro s' h
      have : s' = s := by
        have : p.source = some s' := h
        rw [hs] at this; cases this; rfl
      subst this; exact hs'

/-- **C13 (`vulnerabilities`).** With the default scope: exactly the crates.io packages paired with the
non-withdrawn, non-informational advisories for `crates` that leave their version exposed. -/
theorem C13_vulnerabilities_iff (t : Tree) (db : Database) (h : Database.open t = .ok db)
    (hval : ∀ a ∈ db.iter, Validated a) (packages : List Package) :
    ∃ vs, db.vulnerabilities packages = some vs ∧
      ∀ v, v ∈ vs ↔ ∃ p ∈ packages, ∃ a ∈ db.iter, v = Vulnerability.new a p ∧ FromCratesIo p ∧
        a.metadata.package = p.name ∧ Exposed a p.version ∧ SameRegistry a p ∧
        a.metadata.collection = some .crates ∧ a.metadata.withdrawn = none ∧ a.metadata.informational = none := by
  obtain ⟨vs, h1, h2⟩ := C13_scan_sound_complete t db h hval packages Query.crateScope
  refine ⟨vs, h1, fun v => ?_⟩
  rw [h2 v]
  have : ∀ a, QueryHolds { Query.crateScope with packageName := none, packageVersion := none, packageSource := none } a ↔
      a.metadata.collection = some .crates ∧ a.metadata.withdrawn = none ∧ a.metadata.informational = none := by
    intro a
    constructor
    · intro hq
      refine ⟨hq.collection _ rfl, ?_, ?_⟩
      · have := hq.withdrawn false rfl; simpa using this
      · have := hq.informational false rfl; simpa using this
    · rintro ⟨h1, h2, h3⟩
      refine ⟨?_, nofun, nofun, nofun, nofun, fun _ _ => Or.inr (Or.inl rfl), fun _ _ => Or.inr (Or.inl rfl),
        nofun, ?_, ?_⟩
      · intro c hc; cases hc; exact h1
      · intro b hb; cases hb; simp [h2]
      · intro b hb; cases hb; simp [h3]
  simp only [this]

/-! ### C14: sparse index -/

/-- **C14 (what happens).** Whatever the query, a package locked from the sparse crates.io index is only ever
reported for advisories that name the sparse index as their `source`: an advisory without `source`, although
`is_default_registry` holds for the package, is never reported. -/
theorem C14_sparse_only_explicit (t : Tree) (db : Database) (h : Database.open t = .ok db)
    (packages : List Package) (q : Query) (vs : List Vulnerability)
    (hq : db.queryVulnerabilities packages q = some vs) (v : Vulnerability) (hv : v ∈ vs)
    (s : SourceId) (hs : v.package.source = some s) (hk : s.kind = .sparseRegistry) :
    ∃ s', v.advisory.source = some s' ∧ s'.kind = .sparseRegistry := by
  rw [scan_eq t db h] at hq
  cases hq
  simp only [List.mem_flatMap, List.mem_map, List.mem_filter, C12_matches_iff] at hv
  obtain ⟨p, -, a, ⟨-, hm⟩, rfl⟩ := hv
  have := (hm.source s hs).1
  rw [hk] at this
  cases ha : a.metadata.source with
  | none => rw [ha] at this; cases this
  | some s' => rw [ha] at this; exact ⟨s', ha, this⟩

/-- The advisory, package and checkout used in the examples. -/
def exAdvisory : Advisory where
  metadata := { id := ⟨.rustSec, some 2021, "RUSTSEC-2021-0001".toList⟩, package := "foo".toList,
                severity := some .high }
  versions := ⟨[req .greaterEq 1 2 0], []⟩

def exInformational : Advisory where
  metadata := { id := ⟨.rustSec, some 2022, "RUSTSEC-2022-0002".toList⟩, package := "foo".toList,
                informational := some .unmaintained }
  versions := ⟨[], []⟩

def exTree : Tree where
  crates := some [.notDir, .dir "foo".toList [⟨"RUSTSEC-2021-0001.md".toList, .ok exAdvisory⟩,
    ⟨".DS_Store".toList, .err⟩, ⟨"RUSTSEC-2022-0002.md".toList, .ok exInformational⟩]]
  rust := none

def exDb : Database where
  advisories := { index := [(exInformational.metadata.id, 1), (exAdvisory.metadata.id, 0)],
                  advisories := [stored .crates exAdvisory, stored .crates exInformational] }
  crateIndex := [("foo".toList, [0, 1])]

def gitIndexSource : SourceId := { SourceId.default with precise := some "locked".toList }
def sparseSource : SourceId :=
  { url := { base := "https://index.crates.io/".toList }, kind := .sparseRegistry, precise := some "locked".toList }

def exPackage (src : SourceId) : Package where
  name := "foo".toList
  version := { major := 1, minor := 1, patch := 0 }
  source := some src

theorem exTree_opens : Database.open exTree = .ok exDb := by decide +kernel

theorem exDb_validated : ∀ a ∈ exDb.iter, Validated a := by
  intro a ha
  have : a = stored .crates exAdvisory ∨ a = stored .crates exInformational := by simpa [exDb, Database.iter] using ha
  rcases this with rfl | rfl
  · exact ⟨by decide +kernel, by decide +kernel⟩
  · exact ⟨by decide +kernel, by decide +kernel⟩

/-- **C14 (violation).** The same package version is reported when locked from the git index and missed when
locked from the sparse index, although both are crates.io. -/
theorem C14_sparse_missed :
    FromCratesIo (exPackage gitIndexSource) ∧ FromCratesIo (exPackage sparseSource) ∧
    exDb.vulnerabilities [exPackage gitIndexSource] =
      some [Vulnerability.new (stored .crates exAdvisory) (exPackage gitIndexSource)] ∧
    exDb.vulnerabilities [exPackage sparseSource] = some [] := by
  refine ⟨(scanned_iff _).mp (by decide +kernel), (scanned_iff _).mp (by decide +kernel), by decide +kernel,
    by decide +kernel⟩

/-- C10, C11 and C13 on the example checkout. -/
example : exDb.get exAdvisory.metadata.id = some (stored .crates exAdvisory) ∧
    exDb.get Id.default = none ∧ (exDb.query Query.crateScope).map List.length = some 1 := by decide +kernel

/-! ### C18: placement -/

/-- **C18 (sound).** Every advisory of a loaded database comes from a well-placed file of the checkout: right
collection, directory named after the package, file named after the ID (or carrying a draft name), and it does
not have the placeholder ID. -/
theorem C18_loaded_well_placed (t : Tree) (db : Database) (h : Database.open t = .ok db) (a : Advisory)
    (ha : a ∈ db.iter) :
    ∃ c dir f a₀, Located t c dir f ∧ WellPlaced c dir f a₀ ∧ a = stored c a₀ ∧
      a.metadata.id.string ≠ "RUSTSEC-0000-0000".toList := by
  obtain ⟨ps, hps, -, hit, hw⟩ := open_ok h
  rw [hit] at ha
  obtain ⟨p, hp, he⟩ := List.mem_filterMap.mp ha
  obtain ⟨a₀, hwa⟩ := hw p hp
  refine ⟨_, _, _, a₀, (mem_advisoryPaths hps p).mp hp, hwa, ?_⟩
  simp only [entryOf, hwa.1] at he
  split at he
  · cases he
  · rename_i hph
    cases he
    refine ⟨rfl, ?_⟩
    intro hs
    exact hph (decide_eq_true hs)

/-- **C18 (complete).** If the database loads, every file of the checkout (dotfiles aside) is well placed, and
it is in the database unless it has the placeholder ID. -/
theorem C18_every_file_loaded (t : Tree) (db : Database) (h : Database.open t = .ok db) (c : Collection)
    (dir : Str) (f : File) (hf : Located t c dir f) :
    ∃ a, WellPlaced c dir f a ∧
      (a.metadata.id.string ≠ "RUSTSEC-0000-0000".toList → stored c a ∈ db.iter) := by
  obtain ⟨ps, hps, -, hit, hw⟩ := open_ok h
  have hp := (mem_advisoryPaths hps ⟨c, dir, f⟩).mpr hf
  obtain ⟨a, hwa⟩ := hw _ hp
  refine ⟨a, hwa, fun hne => ?_⟩
  rw [hit]
  refine List.mem_filterMap.mpr ⟨⟨c, dir, f⟩, hp, ?_⟩
  have : f.content = .ok a := hwa.1
  have hne' : ¬ a.metadata.id.isPlaceholder = true := fun h => hne (of_decide_eq_true h)
  simp [entryOf, this, hne']

/-- **C18 (when it loads).** A checkout loads iff `crates` is readable, every file is well placed and no ID
occurs twice (`ps` lists the files); it never panics unless reading a file does. -/
theorem C18_opens_iff (t : Tree) :
    ((∃ db, Database.open t = .ok db) ↔ ∃ ps, advisoryPaths t = .ok ps ∧
      (∀ p ∈ ps, ∃ a, WellPlaced p.collection p.pkgDir p.file a) ∧
      (ps.Pairwise fun p p' => ∀ a a', p.file.content = .ok a → p'.file.content = .ok a' →
        a.metadata.id = a'.metadata.id → a.metadata.id.string = "RUSTSEC-0000-0000".toList)) ∧
    ((∀ c dir f, Located t c dir f → f.content ≠ .panic) → Database.open t ≠ .panic) := by
  constructor
  · constructor
    · rintro ⟨db, h⟩
      obtain ⟨ps, hps, hi, hit, hw⟩ := open_ok h
      refine ⟨ps, hps, hw, ?_⟩
      have hn : ((ps.filterMap entryOf).map (fun a => a.metadata.id)).Nodup := by
        rw [← hit]; exact hi.nodup
      rw [List.Nodup, List.pairwise_map, List.pairwise_filterMap] at hn
      refine hn.imp ?_
      intro p p' hne a a' ha ha' hid
      by_contra hph
      have h1 : a.metadata.id.isPlaceholder = false := decide_eq_false hph
      have h2 : a'.metadata.id.isPlaceholder = false := by rw [← hid]; exact h1
      exact hne (stored p.collection a) (by simp [entryOf, ha, h1]) (stored p'.collection a')
        (by simp [entryOf, ha', h2]) hid
    · rintro ⟨ps, hps, hw, hpair⟩
      unfold Database.open
      rw [hps]
      apply loadAll_succeeds ps {} inv_empty (paths_not_dot hps) hw
      have : ({} : Database).iter = [] := rfl
      rw [this, List.nil_append, List.Nodup, List.pairwise_map, List.pairwise_filterMap]
      refine hpair.imp ?_
      intro p p' hpp b hb b' hb' hid
      have key : ∀ (r : AdvPath) (x : Advisory), entryOf r = some x → ∃ y, r.file.content = .ok y ∧
          x = stored r.collection y ∧ y.metadata.id.isPlaceholder = false := by
        intro r x hx
        unfold entryOf at hx
        cases hc : r.file.content with
        | err => rw [hc] at hx; cases hx
        | panic => rw [hc] at hx; cases hx
        | ok y =>
          rw [hc] at hx
          simp only at hx
          split at hx
          · cases hx
          · rename_i hp; cases hx; exact ⟨y, rfl, rfl, by simpa using hp⟩
      obtain ⟨y, hy, rfl, hyp⟩ := key p b hb
      obtain ⟨y', hy', rfl, -⟩ := key p' b' hb'
      have := hpp y y' hy hy' hid
      rw [Id.isPlaceholder, decide_eq_false_iff_not] at hyp
      exact hyp this
  · intro hc
    unfold Database.open
    cases hps : advisoryPaths t with
    | err => simp
    | panic =>
      unfold advisoryPaths at hps
      cases hcr : t.crates <;> rw [hcr] at hps <;> cases hps
    | ok ps =>
      exact loadAll_no_panic ps {} inv_empty (paths_not_dot hps)
        (fun p hp => hc _ _ _ ((mem_advisoryPaths hps p).mp hp))

/-- **C18 (gap).** A file with a draft *name* but a real ID inside is loaded as a published advisory, so "the
file is named after the ID" is not enforced. -/
theorem C18_draft_name_real_id :
    ∃ t db, Database.open t = .ok db ∧ t.crates = some [.dir "foo".toList
        [⟨"RUSTSEC-0000-0000.md".toList, .ok exAdvisory⟩]] ∧ stored .crates exAdvisory ∈ db.iter :=
  ⟨{ crates := some [.dir "foo".toList [⟨"RUSTSEC-0000-0000.md".toList, .ok exAdvisory⟩]], rust := none },
    { advisories := { index := [(exAdvisory.metadata.id, 0)], advisories := [stored .crates exAdvisory] },
      crateIndex := [("foo".toList, [0])] }, by decide +kernel, rfl, by decide +kernel⟩

/-- Misplaced files and duplicates stop the load. -/
example :
    Database.open { exTree with crates := some [.dir "bar".toList [⟨"RUSTSEC-2021-0001.md".toList, .ok exAdvisory⟩]] } = .err ∧
    Database.open { exTree with crates := some [.dir "foo".toList [⟨"RUSTSEC-2021-0002.md".toList, .ok exAdvisory⟩]] } = .err ∧
    Database.open { crates := exTree.crates, rust := exTree.crates } = .err ∧
    Database.open { exTree with crates := none } = .err := by decide +kernel

end Verif.Props
