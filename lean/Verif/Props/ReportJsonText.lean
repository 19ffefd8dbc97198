import Verif.Props.ReportJson
import Verif.Props.OsvExportExamples

/-!
# C79, C80: the text of the JSON report
-/

namespace Verif.Props

open Verif Verif.Semver Verif.Osv Verif.Lock Verif.Adv Verif.Rep Verif.RepJson Verif.Spec

/-! ## C79: reports of an audit -/

/-- A report about the advisories of some files and the packages of a lockfile: every vulnerability is an advisory
with a package (`rustsec/src/vulnerability.rs:28-35`); every warning too, or, for yanked crates, a package only. -/
structure ReportOf (L : ReportLib) (texts : List Str) (l : Lockfile) (r : FullReport L.Time) : Prop where
  vulnerabilities : ∀ v ∈ r.vulnerabilities.list, v.package ∈ l.packages ∧
    ∃ t ∈ texts, ∃ a, AdvisoryFile.fromStr L.adv t = .ok a ∧ v.advisory = a.metadata ∧ v.versions = a.versions ∧
      v.affected = a.affected
  warnings : ∀ e ∈ r.warnings, ∀ w ∈ e.2, w.package ∈ l.packages ∧
    (w.advisory = none ∧ w.affected = none ∧ w.versions = none ∨
      ∃ t ∈ texts, ∃ a, AdvisoryFile.fromStr L.adv t = .ok a ∧ w.advisory = some a.metadata ∧
        w.versions = some a.versions ∧ w.affected = a.affected)

/-- C79: the report about advisory files and a lockfile is read back as it was, unless a source is a path or has a git
reference with special characters, or the time of the last commit cannot be written. -/
theorem C79_report (L : ReportLib) (hL : ReportLib.Lawful L) (texts : List Str) (d : LockDoc) (l : Lockfile)
    (hl : Lockfile.parse (ReportLib.codec L) d = .ok l) (hls : LockSourcesKept l)
    (hts : ∀ t ∈ texts, ∀ a, AdvisoryFile.fromStr L.adv t = .ok a → AdvisorySourceKept a)
    (r : FullReport L.Time) (hr : ReportOf L texts l r)
    (htime : ∀ t, r.database.lastUpdated = some t → ∃ s, L.showTime t = some s)
    (hig : ∀ i ∈ r.settings.ignore, FromText Id.fromStr i)
    (hinf : ∀ i ∈ r.settings.informationalWarnings, ∃ s, Informational.fromStr s = i) :
    ∃ j, r.serialize L = .ok j ∧ FullReport.deserialize L j = .ok r := by
  have hp := C79_package_read L d l hl hls
  refine C79_round_trip L hL r ⟨htime, hig, hinf, fun v hv => ?_, fun e he w hw => ?_⟩
  · obtain ⟨h1, t, ht, a, ha, h2, h3, h4⟩ := hr.vulnerabilities v hv
    obtain ⟨m, vs, af⟩ := C79_advisory_read L t a ha (hts t ht a ha)
    exact ⟨h2 ▸ m, h3 ▸ vs, h4 ▸ af, hp _ h1⟩
  · obtain ⟨h1, ⟨h2, h3, h4⟩ | ⟨t, ht, a, ha, h2, h3, h4⟩⟩ := hr.warnings e he w hw
    · refine ⟨hp _ h1, ?_, ?_, ?_⟩
      · intro x hx; rw [h2] at hx; cases hx
      · intro x hx; rw [h3] at hx; cases hx
      · intro x hx; rw [h4] at hx; cases hx
    · obtain ⟨m, vs, af⟩ := C79_advisory_read L t a ha (hts t ht a ha)
      refine ⟨hp _ h1, ?_, h4 ▸ af, ?_⟩
      · intro x hx; rw [h2] at hx; cases hx; exact m
      · intro x hx; rw [h3] at hx; cases hx; exact vs

/-! ## C80: the text -/

/-- Printing fails (with a panic) only on the time of the last commit. -/
theorem C80_prints_iff (L : ReportLib) (r : FullReport L.Time) :
    ((∃ text, printJsonReport L r = .ok text) ↔
      ∀ t, r.database.lastUpdated = some t → ∃ s, L.showTime t = some s) ∧
    ((¬ ∃ text, printJsonReport L r = .ok text) → printJsonReport L r = .panic) := by
  have key : (∀ j, jtime L r.database.lastUpdated = .ok j → ∃ text, printJsonReport L r = .ok text) ∧
      (jtime L r.database.lastUpdated = .err → printJsonReport L r = .panic) := by
    unfold printJsonReport FullReport.serialize jdatabase
    refine ⟨fun j hj => ?_, fun he => ?_⟩
    · rw [hj, Outcome.bind_ok, Outcome.bind_ok]; exact ⟨_, rfl⟩
    · rw [he, Outcome.bind_err, Outcome.bind_err]
  cases hd : r.database.lastUpdated with
  | none =>
    have := key.1 .null (by rw [hd]; rfl)
    exact ⟨⟨fun _ t h => (by cases h), fun _ => this⟩, fun h => absurd this h⟩
  | some t =>
    cases hs : L.showTime t with
    | some s =>
      have := key.1 (.str s) (by rw [hd]; unfold jtime; simp only [hs])
      exact ⟨⟨fun _ t' h => (by cases h; exact ⟨s, hs⟩), fun _ => this⟩, fun h => absurd this h⟩
    | none =>
      have := key.2 (by rw [hd]; unfold jtime; simp only [hs])
      refine ⟨⟨fun h => ?_, fun h => ?_⟩, fun _ => this⟩
      · obtain ⟨_, h⟩ := h; rw [this] at h; cases h
      · obtain ⟨s, h⟩ := h t rfl
        rw [hs] at h; cases h

/-- C80: a report is printed as one line: a JSON text of printable characters, then a newline.  A reader of JSON gets
the report's value from the line. -/
theorem C80_one_line (L : ReportLib) (r : FullReport L.Time) (text : Str) (h : printJsonReport L r = .ok text) :
    ∃ line j, text = line ++ ['\n'] ∧ (∀ c ∈ line, 32 ≤ c.toNat) ∧ r.serialize L = .ok j ∧
      readJson line = some j ∧ readJson text = some j := by
  unfold printJsonReport at h
  cases hj : FullReport.serialize L r with
  | ok j =>
    rw [hj] at h
    cases h
    exact ⟨_, j, rfl, print_visible j, rfl, readJson_print j, readJson_line j⟩
  | err => rw [hj] at h; cases h
  | panic => rw [hj] at h; cases h

theorem visible_no_newline {s : Str} (h : ∀ c ∈ s, 32 ≤ c.toNat) : '\n' ∉ s := by
  intro hm
  have := h _ hm
  exact absurd this (by decide)

/-- C80: when several files are audited the reports follow each other, one in every line. -/
theorem C80_stream (L : ReportLib) (rs : List (FullReport L.Time)) (out : Str) (h : printJsonReports L rs = .ok out) :
    ∃ lines, splitC '\n' out = lines ++ [[]] ∧
      List.Forall₂ (fun r line => ∃ j, r.serialize L = .ok j ∧ readJson line = some j) rs lines := by
  unfold printJsonReports at h
  obtain ⟨texts, ht, ho⟩ := bindOk h
  clear h
  cases ho
  replace ht := (mapList_iff _ _ _).mp ht
  induction ht with
  | nil => exact ⟨[], rfl, .nil⟩
  | cons hx _ ih =>
    obtain ⟨lines, h1, h2⟩ := ih
    obtain ⟨line, j, rfl, hv, hj, hr, -⟩ := C80_one_line L _ _ hx
    refine ⟨line :: lines, ?_, .cons ⟨j, hj, hr⟩ h2⟩
    rw [List.flatten_cons, List.append_assoc, List.singleton_append, splitC_append (visible_no_newline hv), h1]
    rfl

/-- C80: so the reports of an audit of several files are read back from the lines of the output. -/
theorem C80_stream_back (L : ReportLib) (hL : ReportLib.Lawful L) (rs : List (FullReport L.Time))
    (hrs : ∀ r ∈ rs, ReportRead L r) :
    ∃ out lines, printJsonReports L rs = .ok out ∧ splitC '\n' out = lines ++ [[]] ∧
      List.Forall₂ (fun r line => ∃ j, readJson line = some j ∧ FullReport.deserialize L j = .ok r) rs lines := by
  have htot : ∃ texts, Outcome.mapList (printJsonReport L) rs = .ok texts := by
    induction rs with
    | nil => exact ⟨[], rfl⟩
    | cons r rs ih =>
      obtain ⟨texts, ht⟩ := ih fun r hr => hrs r (by simp [hr])
      obtain ⟨t, hp⟩ := (C80_prints_iff L r).1.mpr (hrs r (by simp)).time
      exact ⟨t :: texts, by rw [Outcome.mapList, hp, ht]⟩
  obtain ⟨texts, ht⟩ := htot
  have hout : printJsonReports L rs = .ok texts.flatten := by
    unfold printJsonReports; rw [ht, Outcome.bind_ok]
  obtain ⟨lines, h1, h2⟩ := C80_stream L rs _ hout
  refine ⟨_, lines, hout, h1, ?_⟩
  clear h1 hout ht
  induction h2 with
  | nil => exact .nil
  | cons h _ ih =>
    refine .cons ?_ (ih fun r hr => hrs r (by simp [hr]))
    obtain ⟨j, hj, hr⟩ := h
    obtain ⟨j', hj', hd⟩ := C79_round_trip L hL _ (hrs _ List.mem_cons_self)
    rw [hj] at hj'
    cases hj'
    exact ⟨j, hr, hd⟩

/-! ### Places -/

theorem jsonAt_obj (k : String) (p : List JsonStep) (l : List (Str × Json)) :
    jsonAt (.key k :: p) (.obj l) = (l.lookup k.toList).bind (jsonAt p) := rfl

theorem jsonAt_arr (i : Nat) (p : List JsonStep) (l : List Json) :
    jsonAt (.idx i :: p) (.arr l) = (l[i]?).bind (jsonAt p) := rfl

theorem jsonAt_head {k : String} {p : List JsonStep} {j : Json} {l : List (Str × Json)} :
    jsonAt (.key k :: p) (.obj ((k.toList, j) :: l)) = jsonAt p j := by
  rw [jsonAt_obj, List.lookup_cons, beq_self_eq_true]; rfl

theorem jsonAt_skip {k k' : String} {p : List JsonStep} {j : Json} {l : List (Str × Json)}
    (h : (k.toList == k'.toList) = false) :
    jsonAt (.key k :: p) (.obj ((k'.toList, j) :: l)) = jsonAt (.key k :: p) (.obj l) := by
  rw [jsonAt_obj, jsonAt_obj, List.lookup_cons, h]

theorem jsonAt_nil {j : Json} : jsonAt [] j = some j := by unfold jsonAt; rfl

theorem jsonAt_elem {α : Type} {f : α → Json} {l : List α} {i : Nat} {x : α} {p : List JsonStep} (h : l[i]? = some x) :
    jsonAt (.idx i :: p) (jarr f l) = jsonAt p (f x) := by
  unfold jarr
  rw [jsonAt_arr, List.getElem?_map, h]; rfl

/-- Follows a place. -/
macro "find_place" : tactic =>
  `(tactic| repeat first | rw [jsonAt_head] | rw [jsonAt_nil] | rw [jsonAt_skip (by decide)])

/-- What is written for a source: a path has none. -/
def sourceText : Option SourceId → Json
  | some s => if s.kind = .path then .null else .str (s.asUrl false)
  | none => .null

/-- An advisory as it is shown at a place. -/
structure ShowsAdvisory (place : List JsonStep) (j : Json) (m : FileMetadata) : Prop where
  id : jsonAt (place ++ [.key "id"]) j = some (.str m.id.string)
  package : jsonAt (place ++ [.key "package"]) j = some (.str m.package)
  title : jsonAt (place ++ [.key "title"]) j = some (.str m.title)
  description : jsonAt (place ++ [.key "description"]) j = some (.str m.description)
  date : jsonAt (place ++ [.key "date"]) j = some (.str m.date.text)
  aliases : jsonAt (place ++ [.key "aliases"]) j = some (.arr (m.aliases.map fun i => .str i.string))
  cvss : jsonAt (place ++ [.key "cvss"]) j =
    some (match m.cvss with | some c => .str (Cvss.Cvss.display c) | none => .null)
  informational : jsonAt (place ++ [.key "informational"]) j =
    some (match m.informational with | some i => .str i.asStr | none => .null)
  url : jsonAt (place ++ [.key "url"]) j = some (match m.url with | some u => .str u.text | none => .null)
  withdrawn : jsonAt (place ++ [.key "withdrawn"]) j =
    some (match m.withdrawn with | some d => .str d.text | none => .null)
  related : jsonAt (place ++ [.key "related"]) j = some (.arr (m.related.map fun i => .str i.string))
  collection : jsonAt (place ++ [.key "collection"]) j =
    some (match m.collection with | some c => .str c.asStr | none => .null)
  categories : jsonAt (place ++ [.key "categories"]) j = some (.arr (m.categories.map fun c => .str c.name))
  keywords : jsonAt (place ++ [.key "keywords"]) j = some (.arr (m.keywords.map .str))
  references : jsonAt (place ++ [.key "references"]) j = some (.arr (m.references.map fun u => .str u.text))
  source : jsonAt (place ++ [.key "source"]) j = some (sourceText m.source)
  license : jsonAt (place ++ [.key "license"]) j = some (.str m.license.spdx)
  expectDeleted : jsonAt (place ++ [.key "expect-deleted"]) j = some (.bool m.expectDeleted)

/-- The same for a package. -/
structure ShowsPackage (L : ReportLib) (place : List JsonStep) (j : Json) (p : Package) : Prop where
  name : jsonAt (place ++ [.key "name"]) j = some (.str p.name)
  version : jsonAt (place ++ [.key "version"]) j = some (.str (L.showVersion p.version))
  source : jsonAt (place ++ [.key "source"]) j = some (sourceText p.source)
  checksum : jsonAt (place ++ [.key "checksum"]) j =
    some (match p.checksum with | some c => .str (Checksum.show c) | none => .null)
  /-- Without dependencies there is no such member. -/
  dependencies : ∀ (i : Nat) (d : Dependency), p.dependencies[i]? = some d →
    jsonAt (place ++ [.key "dependencies", .idx i, .key "name"]) j = some (.str d.name) ∧
    jsonAt (place ++ [.key "dependencies", .idx i, .key "version"]) j = some (.str (L.showVersion d.version)) ∧
    jsonAt (place ++ [.key "dependencies", .idx i, .key "source"]) j = some (sourceText d.source)

/-- The same for the table of affected things. -/
structure ShowsAffected (L : ReportLib) (place : List JsonStep) (j : Json) (a : Affected) : Prop where
  arch : jsonAt (place ++ [.key "arch"]) j = some (.arr (a.arch.map .str))
  os : jsonAt (place ++ [.key "os"]) j = some (.arr (a.os.map .str))
  functions : ∀ e ∈ a.functions, ∀ s, FunctionPath.display e.1 = .ok s → (a.functions.map Prod.fst).Nodup →
    (∀ f ∈ a.functions, FromText FunctionPath.fromStr f.1) →
    jsonAt (place ++ [.key "functions", .key (String.ofList s)]) j =
      some (.arr (e.2.map fun r => .str (L.showReq r)))

theorem jsonAt_append (p q : List JsonStep) (j : Json) : jsonAt (p ++ q) j = (jsonAt p j).bind (jsonAt q) := by
  induction p generalizing j with
  | nil => simp [jsonAt]
  | cons s p ih =>
    cases s with
    | key k =>
      cases j with
      | obj l =>
        simp only [List.cons_append, jsonAt]
        cases l.lookup k.toList with
        | none => rfl
        | some j => simp [ih]
      | _ => simp [jsonAt]
    | idx i =>
      cases j with
      | arr l =>
        simp only [List.cons_append, jsonAt]
        cases l[i]? with
        | none => rfl
        | some j => simp [ih]
      | _ => simp [jsonAt]

theorem shows_metadata {place : List JsonStep} {j : Json} {m : FileMetadata} (h : jsonAt place j = some (jmetadata m)) :
    ShowsAdvisory place j m := by
  constructor
  all_goals
    rw [jsonAt_append, h, Option.bind_some]
    unfold jmetadata
    find_place
    try rfl
  · cases m.cvss <;> rfl
  · cases m.informational <;> rfl
  · cases m.url <;> rfl
  · cases m.withdrawn <;> rfl
  · cases m.collection <;> rfl
  · cases m.source <;> rfl

theorem shows_package {L : ReportLib} {place : List JsonStep} {j : Json} {p : Package}
    (h : jsonAt place j = some (jpackage L p)) : ShowsPackage L place j p := by
  refine ⟨?_, ?_, ?_, ?_, fun i d hd => ?_⟩
  · rw [jsonAt_append, h, Option.bind_some]
    unfold jpackage
    simp only [List.cons_append, List.nil_append]
    find_place
    rfl
  · rw [jsonAt_append, h, Option.bind_some]
    unfold jpackage
    simp only [List.cons_append, List.nil_append]
    find_place
    rfl
  · rw [jsonAt_append, h, Option.bind_some]
    unfold jpackage
    simp only [List.cons_append, List.nil_append]
    find_place
    cases p.source <;> rfl
  · rw [jsonAt_append, h, Option.bind_some]
    unfold jpackage
    simp only [List.cons_append, List.nil_append]
    find_place
    cases p.checksum <;> rfl
  · refine ⟨?_, ?_, ?_⟩
    all_goals
      rw [jsonAt_append, h, Option.bind_some]
      unfold jpackage
      cases hp : p.dependencies with
      | nil => rw [hp] at hd; cases hd
      | cons x xs =>
        rw [hp] at hd
        unfold jdependencies
        simp only [List.cons_append, List.nil_append]
        find_place
        rw [jsonAt_elem hd]
        unfold jdependency
        find_place
        first | rfl | (cases d.source <;> rfl)

theorem shows_affected {L : ReportLib} {place : List JsonStep} {j : Json} {a : Affected}
    (h : jsonAt place j = some (jaffected L a)) : ShowsAffected L place j a := by
  refine ⟨?_, ?_, fun e he s hs hn hv => ?_⟩
  · rw [jsonAt_append, h, Option.bind_some]; unfold jaffected; find_place; rfl
  · rw [jsonAt_append, h, Option.bind_some]; unfold jaffected; find_place; rfl
  · rw [jsonAt_append, h, Option.bind_some]
    unfold jaffected
    find_place
    rw [jsonAt_obj, String.toList_ofList]
    have : (a.functions.map (jfunction L)).lookup s = some (jarr (fun r => jstr (L.showReq r)) e.2) := by
      generalize a.functions = fs at he hn hv
      induction fs with
      | nil => cases he
      | cons f fs ih =>
        rw [List.map_cons, List.nodup_cons] at hn
        rcases List.mem_cons.mp he with rfl | he'
        · rw [List.map_cons]
          unfold jfunction
          simp only [hs, List.lookup_cons, beq_self_eq_true]
        · have hne : f.1 ≠ e.1 := fun h' => hn.1 (List.mem_map.mpr ⟨e, he', h'.symm⟩)
          obtain ⟨t, ht⟩ := hv f (by simp)
          obtain ⟨t', ht'⟩ := hv e (by simp [he'])
          have h1 := ((C21_round_trip t f.1).1.mp ht).2
          have h2 := ((C21_round_trip t' e.1).1.mp ht').2
          rw [hs] at h2
          cases h2
          have hb : (s == t) = false := by
            rw [beq_eq_false_iff_ne]
            rintro rfl
            rw [ht] at ht'
            exact hne (Outcome.ok.inj ht')
          rw [List.map_cons]
          have hf : jfunction L f = (t, jarr (fun r => jstr (L.showReq r)) f.2) := by
            unfold jfunction; simp only [h1]
          rw [hf, List.lookup_cons, hb]
          exact ih he' hn.2 fun g hg => hv g (by simp [hg])
    rw [this]
    rfl

/-- What the warnings object holds at a kind. -/
theorem warnings_at {L : ReportLib} {ws : List (WarningKind × List FullWarning)} (hn : (ws.map Prod.fst).Nodup)
    {k : WarningKind} {l : List FullWarning} (h : (k, l) ∈ ws) (p : List JsonStep) :
    jsonAt (.key (String.ofList k.asStr) :: p) (jwarnings L ws) = jsonAt p (jarr (jwarning L) l) := by
  unfold jwarnings
  rw [jsonAt_obj, String.toList_ofList]
  have : (ws.map fun e => (e.1.asStr, jarr (jwarning L) e.2)).lookup k.asStr = some (jarr (jwarning L) l) := by
    induction ws with
    | nil => cases h
    | cons e ws ih =>
      rw [List.map_cons, List.lookup_cons]
      rw [List.map_cons, List.nodup_cons] at hn
      rcases List.mem_cons.mp h with rfl | h
      · simp
      · have hne : e.1 ≠ k := by
          rintro rfl
          exact hn.1 (List.mem_map.mpr ⟨_, h, rfl⟩)
        have hb : (k.asStr == e.1.asStr) = false := by
          rw [beq_eq_false_iff_ne]
          intro he
          have h1 := C23_closed.2.1.1 k
          rw [he, C23_closed.2.1.1] at h1
          cases h1; exact hne rfl
        rw [hb]
        exact ih hn.2 h
  rw [this]; rfl

/-- C80: where the contents of a report are. -/
theorem C80_places (L : ReportLib) (r : FullReport L.Time) (j : Json) (h : r.serialize L = .ok j)
    (hn : (r.warnings.map Prod.fst).Nodup) :
    jsonAt [.key "database", .key "advisory-count"] j = some (.num r.database.advisoryCount) ∧
    jsonAt [.key "lockfile", .key "dependency-count"] j = some (.num r.dependencyCount) ∧
    jsonAt [.key "database", .key "last-commit"] j =
      some (match r.database.lastCommit with | some c => .str c | none => .null) ∧
    (∀ t, r.database.lastUpdated = some t →
      ∃ s, L.showTime t = some s ∧ jsonAt [.key "database", .key "last-updated"] j = some (.str s)) ∧
    jsonAt [.key "settings", .key "ignore"] j = some (.arr (r.settings.ignore.map fun i => .str i.string)) ∧
    jsonAt [.key "settings", .key "target_arch"] j = some (.arr (r.settings.targetArch.map .str)) ∧
    jsonAt [.key "settings", .key "target_os"] j = some (.arr (r.settings.targetOs.map .str)) ∧
    jsonAt [.key "settings", .key "severity"] j =
      some (match r.settings.severity with | some v => .str v.asStr | none => .null) ∧
    jsonAt [.key "settings", .key "informational_warnings"] j =
      some (.arr (r.settings.informationalWarnings.map fun i => .str i.asStr)) ∧
    jsonAt [.key "vulnerabilities", .key "found"] j = some (.bool r.vulnerabilities.found) ∧
    jsonAt [.key "vulnerabilities", .key "count"] j = some (.num r.vulnerabilities.count) ∧
    (∃ l, jsonAt [.key "vulnerabilities", .key "list"] j = some (.arr l) ∧
      l.length = r.vulnerabilities.list.length) ∧
    (∀ (i : Nat) (v : FullVulnerability), r.vulnerabilities.list[i]? = some v →
      ShowsAdvisory [.key "vulnerabilities", .key "list", .idx i, .key "advisory"] j v.advisory ∧
      ShowsPackage L [.key "vulnerabilities", .key "list", .idx i, .key "package"] j v.package ∧
      (∀ a, v.affected = some a →
        ShowsAffected L [.key "vulnerabilities", .key "list", .idx i, .key "affected"] j a) ∧
      jsonAt [.key "vulnerabilities", .key "list", .idx i, .key "versions", .key "patched"] j =
        some (.arr (v.versions.patched.map fun q => .str (L.showReq q))) ∧
      jsonAt [.key "vulnerabilities", .key "list", .idx i, .key "versions", .key "unaffected"] j =
        some (.arr (v.versions.unaffected.map fun q => .str (L.showReq q)))) ∧
    (∀ (k : WarningKind) (ws : List FullWarning), (k, ws) ∈ r.warnings →
      (∃ l, jsonAt [.key "warnings", .key (String.ofList k.asStr)] j = some (.arr l) ∧ l.length = ws.length) ∧
      ∀ (i : Nat) (w : FullWarning), ws[i]? = some w →
        jsonAt [.key "warnings", .key (String.ofList k.asStr), .idx i, .key "kind"] j = some (.str w.kind.asStr) ∧
        ShowsPackage L [.key "warnings", .key (String.ofList k.asStr), .idx i, .key "package"] j w.package ∧
        (∀ m, w.advisory = some m →
          ShowsAdvisory [.key "warnings", .key (String.ofList k.asStr), .idx i, .key "advisory"] j m) ∧
        (w.advisory = none →
          jsonAt [.key "warnings", .key (String.ofList k.asStr), .idx i, .key "advisory"] j = some .null) ∧
        (∀ a, w.affected = some a →
          ShowsAffected L [.key "warnings", .key (String.ofList k.asStr), .idx i, .key "affected"] j a) ∧
        (∀ v, w.versions = some v →
          jsonAt [.key "warnings", .key (String.ofList k.asStr), .idx i, .key "versions", .key "patched"] j =
            some (.arr (v.patched.map fun q => .str (L.showReq q))))) := by
  unfold FullReport.serialize at h
  obtain ⟨d, hd, h⟩ := bindOk h
  cases h
  have hdb : jsonAt [.key "advisory-count"] d = some (.num r.database.advisoryCount) ∧
      jsonAt [.key "last-commit"] d = some (match r.database.lastCommit with | some c => .str c | none => .null) ∧
      ∀ t, r.database.lastUpdated = some t → ∃ s, L.showTime t = some s ∧ jsonAt [.key "last-updated"] d = some (.str s) := by
    unfold jdatabase at hd
    obtain ⟨t, ht, hd⟩ := bindOk hd
    cases hd
    refine ⟨by find_place, by find_place; cases r.database.lastCommit <;> rfl, fun t' ht' => ?_⟩
    rw [ht'] at ht
    unfold jtime at ht
    cases hs : L.showTime t' with
    | none => simp only [hs] at ht; cases ht
    | some s =>
      simp only [hs] at ht
      cases ht
      exact ⟨s, rfl, by find_place⟩
  refine ⟨?_, ?_, ?_, ?_, ?_, ?_, ?_, ?_, ?_, ?_, ?_, ?_,
    fun i v hv => ⟨shows_metadata ?_, shows_package ?_, fun a ha => shows_affected ?_, ?_, ?_⟩,
    fun k ws hw => ⟨?_, fun i w hi => ⟨?_, shows_package ?_, fun m hm => shows_metadata ?_, fun hm => ?_,
      fun a ha => shows_affected ?_, fun v hv => ?_⟩⟩⟩
  · find_place; exact hdb.1
  · find_place
  · find_place; exact hdb.2.1
  · find_place; exact hdb.2.2
  · find_place; unfold jsettings; find_place; rfl
  · find_place; unfold jsettings; find_place; rfl
  · find_place; unfold jsettings; find_place; rfl
  · find_place; unfold jsettings; find_place; cases r.settings.severity <;> rfl
  · find_place; unfold jsettings; find_place; rfl
  · find_place; unfold jvulnerabilities; find_place
  · find_place; unfold jvulnerabilities; find_place
  · refine ⟨_, ?_, List.length_map (jvulnerability L)⟩
    find_place; unfold jvulnerabilities; find_place; rfl
  · find_place; unfold jvulnerabilities; find_place; rw [jsonAt_elem hv]; unfold jvulnerability; find_place
  · find_place; unfold jvulnerabilities; find_place; rw [jsonAt_elem hv]; unfold jvulnerability; find_place
  · find_place; unfold jvulnerabilities; find_place; rw [jsonAt_elem hv]; unfold jvulnerability; find_place
    rw [ha]; rfl
  · find_place; unfold jvulnerabilities; find_place; rw [jsonAt_elem hv]; unfold jvulnerability; find_place
    unfold jversions; find_place; rfl
  · find_place; unfold jvulnerabilities; find_place; rw [jsonAt_elem hv]; unfold jvulnerability; find_place
    unfold jversions; find_place; rfl
  · refine ⟨_, ?_, List.length_map (jwarning L)⟩
    find_place; rw [warnings_at hn hw]; find_place; rfl
  · find_place; rw [warnings_at hn hw, jsonAt_elem hi]; unfold jwarning; find_place; rfl
  · find_place; rw [warnings_at hn hw, jsonAt_elem hi]; unfold jwarning; find_place
  · find_place; rw [warnings_at hn hw, jsonAt_elem hi]; unfold jwarning; find_place; rw [hm]; rfl
  · find_place; rw [warnings_at hn hw, jsonAt_elem hi]; unfold jwarning; find_place; rw [hm]; rfl
  · find_place; rw [warnings_at hn hw, jsonAt_elem hi]; unfold jwarning; find_place; rw [ha]; rfl
  · find_place; rw [warnings_at hn hw, jsonAt_elem hi]; unfold jwarning; find_place; rw [hv]; unfold jopt jversions
    find_place; rfl

/-! ## Examples and violations -/

/-- Libraries that know a few texts; times are years. -/
def jsonLib : ReportLib where
  adv := { exportLib with url := toyUrl }
  showReq := fun r => if r.comparators = [] then "*".toList else ">= 1.2.3".toList
  showVersion := fun _ => "1.0.0".toList
  parseVersion := fun s => if s = "1.0.0".toList then some ⟨1, 0, 0, [], []⟩ else none
  Time := Nat
  showTime := fun n => if n ≤ 9999 then some (showNat n) else none
  parseTime := fun s => some (Nat.ofDigitChars 10 s 0)

/-- They follow the laws. -/
theorem jsonLib_lawful : ReportLib.Lawful jsonLib where
  url := toyUrl_lawful
  req := by
    intro s r h
    simp only [jsonLib, exportLib] at h ⊢
    split at h
    · cases h; decide +kernel
    · split at h
      · cases h; decide +kernel
      · cases h
  version := by
    intro s v h
    simp only [jsonLib] at h
    split at h
    · cases h; decide +kernel
    · cases h
  time := by
    intro t s h
    simp only [jsonLib] at h ⊢
    split at h
    · cases h
      exact congrArg some (ofDigitChars_showNat _)
    · cases h

/-- A lockfile document with a registry package and a git package. -/
def jsonDoc : LockDoc :=
  { version := some 4,
    packages :=
      [{ name := "foo".toList, version := "1.0.0".toList,
         source := some "registry+https://github.com/rust-lang/crates.io-index".toList, checksum := none,
         dependencies := [], replace := none },
       { name := "g".toList, version := "1.0.0".toList, source := some "git+https://x/y?branch=dev#abc".toList,
         checksum := none, dependencies := ["foo".toList], replace := none }],
    root := none, metadata := [], patch := [] }

/-- The crates.io source, as it is read. -/
def cratesIo : SourceId := { SourceId.default with precise := some "locked".toList }

/-- The lockfile in it. -/
def jsonLock : Lockfile :=
  { version := .v4,
    packages :=
      [{ name := "foo".toList, version := ⟨1, 0, 0, [], []⟩, source := some cratesIo },
       { name := "g".toList, version := ⟨1, 0, 0, [], []⟩, source := some (gitBranch "dev" (some "abc")),
         dependencies := [⟨"foo".toList, ⟨1, 0, 0, [], []⟩, some cratesIo⟩] }] }

theorem jsonDoc_parses : Lockfile.parse (ReportLib.codec jsonLib) jsonDoc = .ok jsonLock := by decide +kernel

theorem jsonLock_kept : LockSourcesKept jsonLock := by
  have h1 : cratesIo.kind ≠ .path ∧ ∀ r, cratesIo.kind = .git r → PlainRef r cratesIo.precise :=
    ⟨by decide, fun r h => by cases h⟩
  have h2 : (gitBranch "dev" (some "abc")).kind ≠ .path ∧
      ∀ r, (gitBranch "dev" (some "abc")).kind = .git r → PlainRef r (gitBranch "dev" (some "abc")).precise :=
    ⟨by decide, fun r h => by cases h; exact ⟨by decide, fun h => by cases h⟩⟩
  constructor
  · intro p hp s hs
    simp only [jsonLock, List.mem_cons, List.not_mem_nil, or_false] at hp
    rcases hp with rfl | rfl
    · cases hs; exact h1
    · cases hs; exact h2
  · intro p hp d hd s hs
    simp only [jsonLock, List.mem_cons, List.not_mem_nil, or_false] at hp
    rcases hp with rfl | rfl
    · simp at hd
    · simp only [Option.toList_none, List.append_nil, List.mem_singleton] at hd
      subst hd
      cases hs; exact h1

/-- Non-vacuity of C79 and C80: an advisory file and a lockfile, with a vulnerability in the registry package and a
yanked git package. -/
example : ∃ (a : AdvisoryFile) (p q : Package) (r : FullReport jsonLib.Time),
    AdvisoryFile.fromStr jsonLib.adv (exportDoc "one") = .ok a ∧ AdvisorySourceKept a ∧
    ReportOf jsonLib [exportDoc "one"] jsonLock r ∧ r.vulnerabilities.list = [⟨a.metadata, a.versions, a.affected, p⟩] ∧
    r.warnings = [(.yanked, [⟨.yanked, q, none, none, none⟩])] ∧ p.name = "foo".toList ∧ q.name = "g".toList ∧
    r.database.lastUpdated = some (2024 : Nat) ∧ jsonLib.showTime (2024 : Nat) = some "2024".toList ∧
    (r.warnings.map Prod.fst).Nodup := by
  have ha : (match AdvisoryFile.fromStr jsonLib.adv (exportDoc "one") with
    | .ok a => decide (a.metadata.source = none) | _ => false) = true := by decide +kernel
  cases h : AdvisoryFile.fromStr jsonLib.adv (exportDoc "one") with
  | err => rw [h] at ha; cases ha
  | panic => rw [h] at ha; cases ha
  | ok a =>
    rw [h] at ha
    have hs : a.metadata.source = none := of_decide_eq_true ha
    refine ⟨a, jsonLock.packages[0], jsonLock.packages[1],
      { database := ⟨1, some "abc".toList, some (2024 : Nat)⟩, dependencyCount := 2,
        settings := { targetArch := [], targetOs := [], severity := none, ignore := [], informationalWarnings := [] },
        vulnerabilities := ⟨true, 1, [⟨a.metadata, a.versions, a.affected, jsonLock.packages[0]⟩]⟩,
        warnings := [(.yanked, [⟨.yanked, jsonLock.packages[1], none, none, none⟩])] },
      rfl, ?_, ⟨?_, ?_⟩, rfl, rfl, rfl, rfl, rfl, by decide +kernel, by simp⟩
    · intro s h; rw [hs] at h; cases h
    · intro v hv
      rw [List.mem_singleton] at hv
      subst hv
      exact ⟨by simp, _, by simp, a, h, rfl, rfl, rfl⟩
    · intro e he w hw
      rw [List.mem_singleton] at he
      subst he
      rw [List.mem_singleton] at hw
      subst hw
      exact ⟨by simp, Or.inl ⟨rfl, rfl, rfl⟩⟩

/-- The text of a small report. -/
example : printJsonReport jsonLib
    { database := ⟨1, none, some (2024 : Nat)⟩, dependencyCount := 2,
      settings := { targetArch := [], targetOs := [], severity := some .low, ignore := [], informationalWarnings := [] },
      vulnerabilities := ⟨false, 0, []⟩,
      warnings := [(.yanked, [⟨.yanked, { name := "a\"\n".toList, version := ⟨1, 0, 0, [], []⟩, source := some cratesIo },
        none, none, none⟩])] } =
    .ok ("{\"database\":{\"advisory-count\":1,\"last-commit\":null,\"last-updated\":\"2024\"}," ++
      "\"lockfile\":{\"dependency-count\":2},\"settings\":{\"target_arch\":[],\"target_os\":[]," ++
      "\"severity\":\"low\",\"ignore\":[],\"informational_warnings\":[]}," ++
      "\"vulnerabilities\":{\"found\":false,\"count\":0,\"list\":[]},\"warnings\":{\"yanked\":[" ++
      "{\"kind\":\"yanked\",\"package\":{\"name\":\"a\\\"\\n\",\"version\":\"1.0.0\"," ++
      "\"source\":\"registry+https://github.com/rust-lang/crates.io-index\",\"checksum\":null," ++
      "\"replace\":null},\"advisory\":null,\"affected\":null,\"versions\":null}]}}\n").toList := by
  decide +kernel

/-- C79, violation: a package whose source is a path is written with `null`, and read back without a source. -/
theorem C79_path_lost (L : ReportLib) (hL : ReportLib.Lawful L) (p : Package) (u : Url)
    (hp : PackageRead L { p with source := none })
    (hs : p.source = some { url := u, kind := .path }) :
    dpackage L (jpackage L p) = .ok { p with source := none } := by
  have : jpackage L p = jpackage L { p with source := none } := by
    unfold jpackage
    rw [hs]
    rfl
  rw [this]
  exact package_back hL hp

/-- C79, violation: a git branch with special characters is read back as another branch. -/
theorem C79_branch_changed :
    SourceId.fromUrl toyUrl "git+https://x/y?branch=a%26b#c1".toList = .ok (gitBranch "a&b" (some "c1")) ∧
    dpackage jsonLib (jpackage jsonLib
      { name := "g".toList, version := ⟨1, 0, 0, [], []⟩, source := some (gitBranch "a&b" (some "c1")) }) =
      .ok { name := "g".toList, version := ⟨1, 0, 0, [], []⟩, source := some (gitBranch "a" (some "c1")) } := by
  constructor <;> decide +kernel

/-- A report whose last commit is from the year 10000. -/
def lateReport : FullReport jsonLib.Time :=
  { database := ⟨1, none, some (10000 : Nat)⟩, dependencyCount := 2,
    settings := { targetArch := [], targetOs := [], severity := none, ignore := [], informationalWarnings := [] },
    vulnerabilities := ⟨false, 0, []⟩, warnings := [] }

/-- C80, violation: a commit time that cannot be written makes the command panic. -/
theorem C80_time_panics : printJsonReport jsonLib lateReport = .panic := by decide +kernel

end Verif.Props
