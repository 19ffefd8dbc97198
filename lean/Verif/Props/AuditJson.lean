import Verif.Spec.AuditJson
import Verif.Props.AuditRun
import Verif.Props.AdminLint
import Verif.Props.AdvisoryDecode
import Verif.Props.ReportJsonText
import Verif.Props.SyncRun
import Verif.Props.Sarif

/-!
# C83: `cargo audit --json`, from the files to the printed document
-/

namespace Verif.Props

open Verif.Semver Verif.Osv Verif.Lock Verif.Adv Verif.Db Verif.Rep Verif.RepJson Verif.Audit Verif.AuditJson Verif.Assign
  Verif.Spec
open Verif.AdminLint (Checkout)

/-! ## The advisories of the database -/

theorem toAdvisory_with (sev : Cvss.Cvss → Severity) (c : Collection) (f : AdvisoryFile) :
    toAdvisory sev (withCollection c f) = stored c (toAdvisory sev f) := rfl

theorem entry_files {L : AdvLib} {sev : Cvss.Cvss → Severity} (c : Collection) (i : AdminLint.Item) (dir : Str) :
    entryOf ⟨c, dir, i.toFile L sev⟩ = (itemFile L c i).map (toAdvisory sev) := by
  cases i with
  | other n => rfl
  | file n text =>
    cases text with
    | none => rfl
    | some text =>
      unfold entryOf itemFile AdminLint.Item.toFile loadText
      cases hs : AdvisoryFile.fromStr L text with
      | err => simp only [hs]; rfl
      | panic => simp only [hs]; rfl
      | ok f =>
        simp only [hs]
        have : (toAdvisory sev f).metadata.id = f.metadata.id := rfl
        rw [this]
        split <;> rfl

theorem collection_files {L : AdvLib} {sev : Cvss.Cvss → Severity} (c : Collection) (entries : List AdminLint.Entry) :
    (collectionPaths c (entries.map (AdminLint.Entry.toDir L sev))).filterMap entryOf =
      (entries.flatMap (entryFiles L c)).map (toAdvisory sev) := by
  have hname : ∀ i : AdminLint.Item, (i.toFile L sev).name = i.name := by
    intro i
    cases i with
    | other n => rfl
    | file n text => cases text <;> rfl
  unfold collectionPaths
  induction entries with
  | nil => rfl
  | cons e entries ih =>
    rw [List.map_cons, List.flatMap_cons, List.flatMap_cons, List.filterMap_append, List.map_append, ih]
    congr 1
    cases e with
    | other n => rfl
    | dir n items =>
      show List.filterMap entryOf ((((items.map (AdminLint.Item.toFile L sev)).filter _)).map _) =
        ((items.filter fun i => !startsWith i.name ".").filterMap (itemFile L c)).map (toAdvisory sev)
      induction items with
      | nil => rfl
      | cons i items ih =>
        rw [List.map_cons, List.filter_cons, List.filter_cons, hname]
        cases hd : startsWith i.name "." with
        | true => simpa [hd] using ih
        | false =>
          simp only [Bool.not_false, if_true, List.map_cons, List.filterMap_cons, entry_files]
          cases itemFile L c i with
          | none => simpa using ih
          | some f => simpa using ih

/-- The database holds the advisories of the files, in the order in which they are loaded. -/
theorem loaded_eq {L : AdvLib} {sev : Cvss.Cvss → Severity} {ch : Checkout} {db : Database}
    (h : Database.open (ch.tree L sev) = .ok db) : db.iter = (loadedFiles L ch).map (toAdvisory sev) := by
  obtain ⟨ps, hps, -, hit, -⟩ := open_ok h
  rw [hit]
  unfold advisoryPaths Checkout.tree at hps
  unfold loadedFiles
  cases hc : ch.crates with
  | none => rw [hc] at hps; cases hps
  | some cs =>
    rw [hc] at hps
    cases hr : ch.rust with
    | none =>
      rw [hr] at hps
      cases hps
      simp only [Option.map_none, List.append_nil, Option.getD_some, Option.getD_none, List.flatMap_nil]
      exact collection_files .crates cs
    | some rs =>
      rw [hr] at hps
      cases hps
      simp only [Option.map_some, Option.getD_some, List.filterMap_append, List.map_append]
      rw [collection_files .crates cs, collection_files .rust rs]

theorem mem_loadedFiles (L : AdvLib) (ch : Checkout) (f : AdvisoryFile) :
    f ∈ loadedFiles L ch ↔ HasAdvisory L ch f := by
  have hdot : ∀ s : Str, startsWith s "." = true ↔ ['.'] <+: s := fun s => List.isPrefixOf_iff_prefix
  have key : ∀ c entries, f ∈ List.flatMap (entryFiles L c) entries ↔
      ∃ dir items name text f₀, AdminLint.Entry.dir dir items ∈ entries ∧
        AdminLint.Item.file name (some text) ∈ items ∧ ¬ ['.'] <+: name ∧ AdvisoryFile.fromStr L text = .ok f₀ ∧
        f₀.metadata.id.string ≠ "RUSTSEC-0000-0000".toList ∧ f = withCollection c f₀ := by
    intro c entries
    rw [List.mem_flatMap]
    constructor
    · rintro ⟨e, he, hf⟩
      cases e with
      | other n => cases hf
      | dir dir items =>
        obtain ⟨i, hi, hif⟩ := List.mem_filterMap.mp hf
        obtain ⟨hi, hd⟩ := List.mem_filter.mp hi
        cases i with
        | other n => cases hif
        | file name text =>
          cases text with
          | none => cases hif
          | some text =>
            unfold itemFile at hif
            cases hs : AdvisoryFile.fromStr L text with
            | err => simp only [hs] at hif; cases hif
            | panic => simp only [hs] at hif; cases hif
            | ok f₀ =>
              simp only [hs] at hif
              split at hif
              · cases hif
              · rename_i hp
                cases hif
                refine ⟨dir, items, name, text, f₀, he, hi, fun hn => ?_, hs, fun e => hp (decide_eq_true e), rfl⟩
                rw [AdminLint.Item.name, (hdot name).mpr hn] at hd
                cases hd
    · rintro ⟨dir, items, name, text, f₀, he, hi, hn, hs, hp, rfl⟩
      refine ⟨_, he, List.mem_filterMap.mpr ⟨_, List.mem_filter.mpr ⟨hi, ?_⟩, ?_⟩⟩
      · have : startsWith name "." = false := by
          cases hb : startsWith name "." with
          | false => rfl
          | true => exact absurd ((hdot name).mp hb) hn
        rw [AdminLint.Item.name, this]; rfl
      · unfold itemFile
        simp only [hs]
        rw [if_neg]
        intro hph
        exact hp (of_decide_eq_true hph)
  unfold loadedFiles HasAdvisory
  rw [List.mem_append, key, key]
  constructor
  · rintro (⟨dir, items, name, text, f₀, he, r⟩ | ⟨dir, items, name, text, f₀, he, r⟩)
    · cases hc : ch.crates with
      | none => rw [hc] at he; cases he
      | some cs => rw [hc] at he; exact ⟨.crates, cs, dir, items, name, text, f₀, hc, he, r⟩
    · cases hc : ch.rust with
      | none => rw [hc] at he; cases he
      | some cs => rw [hc] at he; exact ⟨.rust, cs, dir, items, name, text, f₀, hc, he, r⟩
  · rintro ⟨col, entries, dir, items, name, text, f₀, hl, he, r⟩
    cases col with
    | crates =>
      have hl' : ch.crates = some entries := hl
      exact .inl ⟨dir, items, name, text, f₀, by rw [hl']; exact he, r⟩
    | rust =>
      have hl' : ch.rust = some entries := hl
      exact .inr ⟨dir, items, name, text, f₀, by rw [hl']; exact he, r⟩

/-- All advisories of a checkout were accepted by the parser. -/
theorem loaded_validated {L : AdvLib} {sev : Cvss.Cvss → Severity} {ch : Checkout} {db : Database}
    (hreq : ∀ s r, L.req s = some r → ReqWF r) (h : Database.open (ch.tree L sev) = .ok db) :
    ∀ a ∈ db.iter, Validated a := by
  intro a ha
  obtain ⟨col, -, -, -, text, af, -, -, -, hfs, rfl⟩ := loaded_from_file h ha
  exact parsed_versions hreq hfs

section
variable {L : AdvLib} {sev : Cvss.Cvss → Severity} {ch : Checkout} {db : Database}

theorem loaded_ids (h : Database.open (ch.tree L sev) = .ok db) :
    ((loadedFiles L ch).map fun f => f.metadata.id).Nodup := by
  have := C10_ids_unique _ db h
  rw [loaded_eq h, List.map_map] at this
  exact this

theorem loaded_inj (h : Database.open (ch.tree L sev) = .ok db) {f g : AdvisoryFile} (hf : f ∈ loadedFiles L ch)
    (hg : g ∈ loadedFiles L ch) (e : f.metadata.id = g.metadata.id) : f = g :=
  List.inj_on_of_nodup_map (loaded_ids h) hf hg e

theorem fullMetadata_of (h : Database.open (ch.tree L sev) = .ok db) {f : AdvisoryFile} (hf : f ∈ loadedFiles L ch)
    {m : Metadata} (hm : m.id = f.metadata.id) : fullMetadata (loadedFiles L ch) m = .ok f.metadata := by
  unfold fullMetadata
  cases hg : (loadedFiles L ch).find? fun g => decide (g.metadata.id = m.id) with
  | none =>
    have := List.find?_eq_none.mp hg f hf
    rw [hm] at this
    exact absurd (decide_eq_true rfl) this
  | some g =>
    have h1 := List.mem_of_find?_eq_some hg
    have h2 := List.find?_some hg
    rw [loaded_inj h h1 hf ((of_decide_eq_true h2).trans hm)]

end

/-! ## What is shown -/

/-- A list of things is shown as an array: as many elements, each as it should be. -/
def ShowsList {α : Type} (shows : List JsonStep → α → Prop) (place : List JsonStep) (j : Json) (xs : List α) : Prop :=
  (∃ items, jsonAt place j = some (.arr items) ∧ items.length = xs.length) ∧
  ∀ (i : Nat) (x : α), xs[i]? = some x → shows (place ++ [.idx i]) x

/-- What is shown for an advisory that concerns a package. -/
structure ShowsFinding (L : ReportLib) (j : Json) (place : List JsonStep) (f : AdvisoryFile) (p : Package) : Prop where
  advisory : ShowsAdvisory (place ++ [.key "advisory"]) j f.metadata
  package : ShowsPackage L (place ++ [.key "package"]) j p
  affected : ∀ a, f.affected = some a → ShowsAffected L (place ++ [.key "affected"]) j a
  anywhere : f.affected = none → jsonAt (place ++ [.key "affected"]) j = some .null
  patched : jsonAt (place ++ [.key "versions", .key "patched"]) j =
    some (.arr (f.versions.patched.map fun q => .str (L.showReq q)))
  unaffected : jsonAt (place ++ [.key "versions", .key "unaffected"]) j =
    some (.arr (f.versions.unaffected.map fun q => .str (L.showReq q)))

/-- What is shown for a warning: also its kind. -/
structure ShowsWarning (L : ReportLib) (j : Json) (place : List JsonStep) (k : WarningKind) (f : AdvisoryFile)
    (p : Package) : Prop where
  finding : ShowsFinding L j place f p
  kind : jsonAt (place ++ [.key "kind"]) j = some (.str k.asStr)

/-- What is shown for a yanked package. -/
structure ShowsYanked (L : ReportLib) (j : Json) (place : List JsonStep) (p : Package) : Prop where
  kind : jsonAt (place ++ [.key "kind"]) j = some (.str "yanked".toList)
  package : ShowsPackage L (place ++ [.key "package"]) j p
  advisory : jsonAt (place ++ [.key "advisory"]) j = some .null
  affected : jsonAt (place ++ [.key "affected"]) j = some .null
  versions : jsonAt (place ++ [.key "versions"]) j = some .null

/-- Where the warnings of a kind are. -/
def kindPlace (k : WarningKind) : List JsonStep := [.key "warnings", .key (String.ofList k.asStr)]

/-- The document shows the findings of an audit of a lockfile (or of the dependencies of a binary), all of them and
nothing else. -/
structure ShowsAudit (L : ReportLib) (sev : Cvss.Cvss → Severity) (env : Env) (c : AuditConfig) (ch : Checkout)
    (commit : Option (Str × L.Time)) (l : Lockfile) (format : Option Bin.BinaryFormat) (j : Json) : Prop where
  /-- The vulnerabilities: an advisory of the checkout that is not informational, and a package it concerns. -/
  vulnerabilities : ∃ fs : List (AdvisoryFile × Package),
    (∀ f p, (f, p) ∈ fs ↔ p ∈ l.packages ∧ HasAdvisory L.adv ch f ∧ Concerned c p (toAdvisory sev f) ∧
      f.metadata.informational = none ∧ Relevant format (toAdvisory sev f)) ∧
    (l.packages.Nodup → fs.Nodup) ∧
    jsonAt [.key "vulnerabilities", .key "found"] j = some (.bool (decide (fs ≠ []))) ∧
    jsonAt [.key "vulnerabilities", .key "count"] j = some (.num fs.length) ∧
    ShowsList (fun place x => ShowsFinding L j place x.1 x.2) [.key "vulnerabilities", .key "list"] j fs
  /-- The warnings of each kind: an informational advisory whose kind is asked for, and a package it concerns.  Without
  any, there may be no member for the kind. -/
  warnings : ∀ k, k ≠ WarningKind.yanked → ∃ fs : List (AdvisoryFile × Package),
    (∀ f p, (f, p) ∈ fs ↔ p ∈ l.packages ∧ HasAdvisory L.adv ch f ∧ Concerned c p (toAdvisory sev f) ∧
      Relevant format (toAdvisory sev f) ∧ ∃ i, f.metadata.informational = some i ∧ Enabled c i ∧ WarnsAs i k) ∧
    (l.packages.Nodup → fs.Nodup) ∧
    (ShowsList (fun place x => ShowsWarning L j place k x.1 x.2) (kindPlace k) j fs ∨
      (fs = [] ∧ jsonAt (kindPlace k) j = none))
  /-- The yanked packages: up to copies with the same name and version. -/
  yanked : ∃ ps : List Package, (∀ p ∈ ps, p ∈ l.packages ∧ SaidYanked env c p) ∧
    (∀ p ∈ l.packages, SaidYanked env c p → ∃ q ∈ ps, q.name = p.name ∧ q.version = p.version) ∧
    (ShowsList (ShowsYanked L j) (kindPlace .yanked) j ps ∨ (ps = [] ∧ jsonAt (kindPlace .yanked) j = none))
  /-- The database: the number of its advisories, the commit. -/
  count : ∃ fs : List AdvisoryFile, fs.Nodup ∧ (∀ f, f ∈ fs ↔ HasAdvisory L.adv ch f) ∧
    jsonAt [.key "database", .key "advisory-count"] j = some (.num fs.length)
  lastCommit : jsonAt [.key "database", .key "last-commit"] j =
    some (match commit with | some x => .str x.1 | none => .null)
  lastUpdated : ∀ x, commit = some x → ∃ s, L.showTime x.2 = some s ∧
    jsonAt [.key "database", .key "last-updated"] j = some (.str s)
  /-- The lockfile: the number of its packages. -/
  dependencies : jsonAt [.key "lockfile", .key "dependency-count"] j = some (.num l.packages.length)
  /-- The settings: what is ignored. -/
  ignored : jsonAt [.key "settings", .key "ignore"] j =
    some (.arr (c.advisories.ignore.map fun i => .str i.string))

/-! ## Proof -/

theorem forall2_choose {α β : Type} {R : α → β → Prop} {xs : List α} (h : ∀ x ∈ xs, ∃ y, R x y) :
    ∃ ys, List.Forall₂ R xs ys := by
  induction xs with
  | nil => exact ⟨[], .nil⟩
  | cons x xs ih =>
    obtain ⟨y, hy⟩ := h x List.mem_cons_self
    obtain ⟨ys, hys⟩ := ih fun x hx => h x (List.mem_cons_of_mem _ hx)
    exact ⟨y :: ys, .cons hy hys⟩

theorem forall2_at {α β : Type} {R : α → β → Prop} {xs : List α} {ys : List β} (h : List.Forall₂ R xs ys) {i : Nat}
    {x : α} {y : β} (hx : xs[i]? = some x) (hy : ys[i]? = some y) : R x y := by
  induction h generalizing i with
  | nil => cases hx
  | cons h _ ih =>
    cases i with
    | zero => cases hx; cases hy; exact h
    | succ i => exact ih hx hy

theorem forall2_get {α β : Type} {R : α → β → Prop} {xs : List α} {ys : List β} (h : List.Forall₂ R xs ys) {i : Nat}
    {y : β} (hy : ys[i]? = some y) : ∃ x, xs[i]? = some x ∧ R x y := by
  induction h generalizing i with
  | nil => cases hy
  | cons h _ ih =>
    cases i with
    | zero => cases hy; exact ⟨_, rfl, h⟩
    | succ i => exact ih hy

theorem forall2_nodup {α β : Type} {R : α → β → Prop} {xs : List α} {ys : List β} (h : List.Forall₂ R xs ys)
    (hf : ∀ x x' y, R x y → R x' y → x = x') (hn : xs.Nodup) : ys.Nodup := by
  induction h with
  | nil => exact List.nodup_nil
  | cons h t ih =>
    rw [List.nodup_cons] at hn ⊢
    refine ⟨fun hm => ?_, ih hn.2⟩
    obtain ⟨x', hx', hr⟩ := forall2_right t _ hm
    rw [hf _ _ _ h hr] at hn
    exact hn.1 hx'

section
variable {L : ReportLib} {sev : Cvss.Cvss → Severity} {env : Env} {c : AuditConfig} {ch : Checkout} {db : Database}
  {l : Lockfile} {format : Option Bin.BinaryFormat} {r : Report}

/-- The finding `v` is about the advisory and the package. -/
def About (sev : Cvss.Cvss → Severity) (files : List AdvisoryFile) (v : Vulnerability) (x : AdvisoryFile × Package) : Prop :=
  x.1 ∈ files ∧ v = Vulnerability.new (toAdvisory sev x.1) x.2

theorem iter_file (h : Database.open (ch.tree L.adv sev) = .ok db) {a : Advisory} :
    a ∈ db.iter ↔ ∃ f ∈ loadedFiles L.adv ch, toAdvisory sev f = a := by
  rw [loaded_eq h, List.mem_map]

theorem fullVulnerability_of (h : Database.open (ch.tree L.adv sev) = .ok db) {f : AdvisoryFile} {p : Package}
    (hf : f ∈ loadedFiles L.adv ch) :
    fullVulnerability (loadedFiles L.adv ch) (Vulnerability.new (toAdvisory sev f) p) =
      .ok { advisory := f.metadata, versions := f.versions, affected := f.affected, package := p } := by
  unfold fullVulnerability
  rw [fullMetadata_of h hf rfl]
  rfl

theorem vulns_about (h : Database.open (ch.tree L.adv sev) = .ok db) (hc : Complete env c db l format r) :
    ∃ fs : List (AdvisoryFile × Package),
      List.Forall₂ (About sev (loadedFiles L.adv ch)) r.vulnerabilities.list fs ∧
      ∀ f p, (f, p) ∈ fs ↔ p ∈ l.packages ∧ HasAdvisory L.adv ch f ∧ Concerned c p (toAdvisory sev f) ∧
        f.metadata.informational = none ∧ Relevant format (toAdvisory sev f) := by
  have hall : ∀ v ∈ r.vulnerabilities.list, ∃ x, About sev (loadedFiles L.adv ch) v x := by
    intro v hv
    obtain ⟨p, -, a, ha, rfl, -⟩ := (hc.vulnerabilities v).mp hv
    obtain ⟨f, hf, rfl⟩ := (iter_file h).mp ha
    exact ⟨(f, p), hf, rfl⟩
  obtain ⟨fs, hfs⟩ := forall2_choose hall
  refine ⟨fs, hfs, fun f p => ?_⟩
  rw [← mem_loadedFiles]
  constructor
  · intro hm
    obtain ⟨v, hv, hf, rfl⟩ := forall2_right hfs _ hm
    obtain ⟨p', hp', a, ha, e, h1, h2, h3⟩ := (hc.vulnerabilities _).mp hv
    obtain ⟨rfl, rfl⟩ := vulnerability_inj h ((iter_file h).mpr ⟨f, hf, rfl⟩) ha e
    exact ⟨hp', hf, h1, h2, h3⟩
  · rintro ⟨hp, hf, h1, h2, h3⟩
    have hv := (hc.vulnerabilities _).mpr ⟨p, hp, _, (iter_file h).mpr ⟨f, hf, rfl⟩, rfl, h1, h2, h3⟩
    obtain ⟨x, hx, hxf, e⟩ := forall2_left hfs hv
    obtain ⟨e1, e2⟩ := vulnerability_inj h ((iter_file h).mpr ⟨f, hf, rfl⟩) ((iter_file h).mpr ⟨x.1, hxf, rfl⟩) e
    have e3 : f = x.1 := loaded_inj h hf hxf (congrArg (fun a => a.metadata.id) e1)
    rw [e3, e2]
    exact hx

theorem entry_unique {w : WarningInfo} (hn : (w.map Prod.fst).Nodup) {k : WarningKind} {ws ws' : List Warning}
    (h : (k, ws) ∈ w) (h' : (k, ws') ∈ w) : ws = ws' :=
  congrArg Prod.snd (List.inj_on_of_nodup_map hn h h' rfl)

/-- The warnings of a kind. -/
def warningsOf (w : WarningInfo) (k : WarningKind) : List Warning := (w.lookup k).getD []

theorem mem_warningsOf (hc : Complete env c db l format r) (w : Warning) (k : WarningKind) :
    w ∈ warningsOf r.warnings k ↔ InReport r w ∧ w.kind = k := by
  unfold warningsOf
  constructor
  · intro h
    cases hl : r.warnings.lookup k with
    | none => rw [hl] at h; cases h
    | some ws =>
      rw [hl] at h
      have hm := (lookup_iff hc.keys k ws).mp hl
      exact ⟨⟨k, ws, hm, h⟩, hc.filed k ws hm w h⟩
  · rintro ⟨⟨k', ws, hm, hw⟩, rfl⟩
    have := hc.filed k' ws hm w hw
    subst this
    rw [(lookup_iff hc.keys _ _).mpr hm]
    exact hw

/-- The warning about an advisory and a package. -/
def warningAbout (sev : Cvss.Cvss → Severity) (k : WarningKind) (f : AdvisoryFile) (p : Package) : Warning :=
  { kind := k, package := p, advisory := some (toAdvisory sev f).metadata, affected := f.affected,
    versions := some f.versions }

/-- The warning `w` is about the advisory and the package. -/
def WarnsAbout (sev : Cvss.Cvss → Severity) (files : List AdvisoryFile) (k : WarningKind) (w : Warning)
    (x : AdvisoryFile × Package) : Prop :=
  x.1 ∈ files ∧ w = warningAbout sev k x.1 x.2

theorem warns_about (h : Database.open (ch.tree L.adv sev) = .ok db) (hc : Complete env c db l format r)
    {k : WarningKind} (hk : k ≠ .yanked) :
    ∃ fs : List (AdvisoryFile × Package),
      List.Forall₂ (WarnsAbout sev (loadedFiles L.adv ch) k) (warningsOf r.warnings k) fs ∧
      ∀ f p, (f, p) ∈ fs ↔ p ∈ l.packages ∧ HasAdvisory L.adv ch f ∧ Concerned c p (toAdvisory sev f) ∧
        Relevant format (toAdvisory sev f) ∧ ∃ i, f.metadata.informational = some i ∧ Enabled c i ∧ WarnsAs i k := by
  have hall : ∀ w ∈ warningsOf r.warnings k, ∃ x, WarnsAbout sev (loadedFiles L.adv ch) k w x := by
    intro w hw
    obtain ⟨hin, rfl⟩ := (mem_warningsOf hc w k).mp hw
    obtain ⟨p, -, a, ha, i, -, -, -, -, -, e1, e2, e3, e4⟩ := (hc.advisories w).mp ⟨hin, hk⟩
    obtain ⟨f, hf, rfl⟩ := (iter_file h).mp ha
    refine ⟨(f, p), hf, ?_⟩
    cases w
    cases e1; cases e2; cases e3; cases e4
    rfl
  obtain ⟨fs, hfs⟩ := forall2_choose hall
  refine ⟨fs, hfs, fun f p => ?_⟩
  rw [← mem_loadedFiles]
  constructor
  · intro hm
    obtain ⟨w, hw, hf, rfl⟩ := forall2_right hfs _ hm
    obtain ⟨hin, -⟩ := (mem_warningsOf hc _ k).mp hw
    obtain ⟨p', hp', a, ha, i, h1, h2, h3, h4, h5, e1, e2, e3, e4⟩ := (hc.advisories _).mp ⟨hin, hk⟩
    obtain ⟨g, hg, rfl⟩ := (iter_file h).mp ha
    have e : f = g := loaded_inj h hf hg (congrArg Metadata.id (Option.some.inj e2))
    cases e
    cases e1
    exact ⟨hp', hf, h1, h3, i, h2, h4, h5⟩
  · rintro ⟨hp, hf, h1, h2, i, h3, h4, h5⟩
    have hw := ((hc.advisories (warningAbout sev k f p)).mpr
      ⟨p, hp, _, (iter_file h).mpr ⟨f, hf, rfl⟩, i, h1, h3, h2, h4, h5, rfl, rfl, rfl, rfl⟩).1
    obtain ⟨x, hx, hxf, e⟩ := forall2_left hfs ((mem_warningsOf hc _ k).mpr ⟨hw, rfl⟩)
    have e2 := congrArg Warning.package e
    have e1 := congrArg Warning.advisory e
    have e3 : f = x.1 := loaded_inj h hf hxf (congrArg Metadata.id (Option.some.inj e1))
    have e2' : p = x.2 := e2
    rw [e3, e2']
    exact hx

theorem fullWarning_of (h : Database.open (ch.tree L.adv sev) = .ok db) {f : AdvisoryFile} {p : Package}
    {k : WarningKind} (hf : f ∈ loadedFiles L.adv ch) :
    fullWarning (loadedFiles L.adv ch) (warningAbout sev k f p) =
      .ok { kind := k, package := p, advisory := some f.metadata, affected := f.affected, versions := some f.versions } := by
  unfold fullWarning warningAbout
  simp only
  rw [fullMetadata_of h hf rfl]

/-- All findings of a complete report get their metadata. -/
theorem full_report_total (h : Database.open (ch.tree L.adv sev) = .ok db) (hc : Complete env c db l format r)
    (commit : Option (Str × L.Time)) : ∃ R, fullReport (loadedFiles L.adv ch) commit l r = .ok R := by
  obtain ⟨fs, hfs, -⟩ := vulns_about h hc
  obtain ⟨vs, hvs⟩ := (mapList_total (f := fullVulnerability (loadedFiles L.adv ch)) r.vulnerabilities.list).mpr
    (by
      intro v hv
      obtain ⟨x, -, hx, rfl⟩ := forall2_left hfs hv
      exact ⟨_, fullVulnerability_of h hx⟩)
  obtain ⟨ws, hws⟩ := (mapList_total (f := fullWarnings (loadedFiles L.adv ch)) (inOrder r.warnings)).mpr
    (by
      rintro ⟨k, l'⟩ hw
      have hm := (inOrder_perm hc.keys).mem_iff.mp hw
      obtain ⟨ws, hws⟩ := (mapList_total (f := fullWarning (loadedFiles L.adv ch)) l').mpr
        (by
          intro w hwl
          have hin : InReport r w := ⟨k, l', hm, hwl⟩
          have hkk := hc.filed k l' hm w hwl
          by_cases hk : k = .yanked
          · have := (hc.yanked w hin (hkk.trans hk)).1
            refine ⟨{ kind := w.kind, package := w.package, advisory := none, affected := w.affected,
                      versions := w.versions }, ?_⟩
            unfold fullWarning
            rw [this]
          · obtain ⟨fs, hfs, -⟩ := warns_about h hc hk
            obtain ⟨x, -, hx, rfl⟩ := forall2_left hfs ((mem_warningsOf hc w k).mpr ⟨hin, hkk⟩)
            exact ⟨_, fullWarning_of h hx⟩)
      refine ⟨(k, ws), ?_⟩
      unfold fullWarnings
      simp only [hws]
      rfl)
  unfold fullReport
  rw [hvs, Outcome.bind_ok, hws, Outcome.bind_ok]
  exact ⟨_, rfl⟩

theorem forall2_join {α β γ : Type} {A : α → β → Prop} {B : α → γ → Prop} {C : β → γ → Prop} {xs : List α} {ys : List β}
    {zs : List γ} (ha : List.Forall₂ A xs ys) (hb : List.Forall₂ B xs zs) (hc : ∀ x y z, A x y → B x z → C y z) :
    List.Forall₂ C ys zs := by
  induction ha generalizing zs with
  | nil => cases hb; exact .nil
  | cons h _ ih =>
    cases hb with
    | cons h' hb => exact .cons (hc _ _ _ h h') (ih hb)

theorem shows_list {α β : Type} {shows : List JsonStep → α → Prop} {g : β → Json} {place : List JsonStep} {j : Json}
    {xs : List α} {ys : List β} {R : β → α → Prop} (hj : jsonAt place j = some (jarr g ys)) (h : List.Forall₂ R ys xs)
    (hs : ∀ place y x, R y x → jsonAt place j = some (g y) → shows place x) : ShowsList shows place j xs := by
  refine ⟨⟨ys.map g, hj, by rw [List.length_map, h.length_eq]⟩, fun i x hx => ?_⟩
  obtain ⟨y, hy, hr⟩ := forall2_get h hx
  refine hs _ y x hr ?_
  rw [jsonAt_append, hj, Option.bind_some, jsonAt_elem hy]
  exact jsonAt_nil

/-- A vulnerability with all its fields. -/
def vulnerabilityOf (x : AdvisoryFile × Package) : FullVulnerability :=
  { advisory := x.1.metadata, versions := x.1.versions, affected := x.1.affected, package := x.2 }

/-- A warning with all its fields. -/
def fullWarningOf (k : WarningKind) (x : AdvisoryFile × Package) : FullWarning :=
  { kind := k, package := x.2, advisory := some x.1.metadata, affected := x.1.affected, versions := some x.1.versions }

/-- The warning about a yanked package. -/
def yankedWarning (p : Package) : Warning :=
  { kind := .yanked, package := p, advisory := none, affected := none, versions := none }

/-- The same with all its fields. -/
def fullYanked (p : Package) : FullWarning :=
  { kind := .yanked, package := p, advisory := none, affected := none, versions := none }

theorem finding_of_vulnerability {place : List JsonStep} {j : Json} {x : AdvisoryFile × Package}
    (h : jsonAt place j = some (jvulnerability L (vulnerabilityOf x))) : ShowsFinding L j place x.1 x.2 := by
  refine ⟨shows_metadata ?_, shows_package ?_, fun a ha => shows_affected ?_, fun ha => ?_, ?_, ?_⟩
  all_goals
    rw [jsonAt_append, h, Option.bind_some]
    unfold jvulnerability vulnerabilityOf
    find_place
  · rw [ha]; rfl
  · rw [ha]; rfl
  · unfold jversions; find_place; rfl
  · unfold jversions; find_place; rfl

theorem finding_of_warning {place : List JsonStep} {j : Json} {k : WarningKind} {x : AdvisoryFile × Package}
    (h : jsonAt place j = some (jwarning L (fullWarningOf k x))) : ShowsWarning L j place k x.1 x.2 := by
  refine ⟨⟨shows_metadata ?_, shows_package ?_, fun a ha => shows_affected ?_, fun ha => ?_, ?_, ?_⟩, ?_⟩
  all_goals
    rw [jsonAt_append, h, Option.bind_some]
    unfold jwarning fullWarningOf
    find_place
  · rfl
  · rw [ha]; rfl
  · rw [ha]; rfl
  · unfold jopt jversions; find_place; rfl
  · unfold jopt jversions; find_place; rfl
  · rfl

theorem yanked_of_warning {place : List JsonStep} {j : Json} {p : Package}
    (h : jsonAt place j = some (jwarning L (fullYanked p))) : ShowsYanked L j place p := by
  refine ⟨?_, shows_package ?_, ?_, ?_, ?_⟩
  all_goals
    rw [jsonAt_append, h, Option.bind_some]
    unfold jwarning fullYanked
    find_place
  all_goals rfl

theorem warnings_absent {ws : List (WarningKind × List FullWarning)} {k : WarningKind} (hk : k ∉ ws.map Prod.fst) :
    jsonAt [.key (String.ofList k.asStr)] (jwarnings L ws) = none := by
  unfold jwarnings
  rw [jsonAt_obj, String.toList_ofList]
  have : (ws.map fun e => (e.1.asStr, jarr (jwarning L) e.2)).lookup k.asStr = none := by
    induction ws with
    | nil => rfl
    | cons e ws ih =>
      rw [List.map_cons, List.mem_cons, not_or] at hk
      have hb : (k.asStr == e.1.asStr) = false := by
        rw [beq_eq_false_iff_ne]
        intro he
        have h1 := C23_closed.2.1.1 k
        rw [he, C23_closed.2.1.1] at h1
        cases h1; exact hk.1 rfl
      rw [List.map_cons, List.lookup_cons, hb]
      exact ih hk.2
  rw [this]; rfl

theorem fullWarnings_keys {files : List AdvisoryFile} {o : WarningInfo} {ws : List (WarningKind × List FullWarning)}
    (h : List.Forall₂ (fun x y => fullWarnings files x = .ok y) o ws) : ws.map Prod.fst = o.map Prod.fst := by
  induction h with
  | nil => rfl
  | cons he _ ih =>
    unfold fullWarnings at he
    obtain ⟨_, _, he'⟩ := bindOk he
    cases he'
    rw [List.map_cons, List.map_cons, ih]

/-- The document of a complete report shows the audit. -/
theorem shows_audit (h : Database.open (ch.tree L.adv sev) = .ok db) (hc : Complete env c db l format r)
    {commit : Option (Str × L.Time)} {R : FullReport L.Time} (hR : fullReport (loadedFiles L.adv ch) commit l r = .ok R)
    {j : Json} (hj : R.serialize L = .ok j) : ShowsAudit L sev env c ch commit l format j := by
  unfold fullReport at hR
  obtain ⟨vs, hvs, hR⟩ := bindOk hR
  obtain ⟨ws, hws, hR⟩ := bindOk hR
  cases hR
  have hin := inOrder_perm hc.keys
  have h2 := (mapList_iff _ _ _).mp hws
  have hkeys : ws.map Prod.fst = (inOrder r.warnings).map Prod.fst := fullWarnings_keys h2
  have hnd : (ws.map Prod.fst).Nodup := by
    rw [hkeys]; exact (hin.map Prod.fst).nodup_iff.mpr hc.keys
  obtain ⟨p1, p2, p3, p4, p5, -, -, -, -, p6, p7, -, -, -⟩ := C80_places L _ j hj hnd
  have hlist : jsonAt [.key "vulnerabilities", .key "list"] j = some (jarr (jvulnerability L) vs) := by
    unfold FullReport.serialize at hj
    obtain ⟨d, -, hj⟩ := bindOk hj
    cases hj
    find_place; unfold jvulnerabilities; find_place
  have hwarn : jsonAt [.key "warnings"] j = some (jwarnings L ws) := by
    unfold FullReport.serialize at hj
    obtain ⟨d, -, hj⟩ := bindOk hj
    cases hj
    find_place
  -- the array of a kind
  have hkind : ∀ k, (∃ full, Outcome.mapList (fullWarning (loadedFiles L.adv ch)) (warningsOf r.warnings k) = .ok full ∧
      jsonAt (kindPlace k) j = some (jarr (jwarning L) full)) ∨
      (warningsOf r.warnings k = [] ∧ jsonAt (kindPlace k) j = none) := by
    intro k
    have hplace : jsonAt (kindPlace k) j = jsonAt [.key (String.ofList k.asStr)] (jwarnings L ws) := by
      have : kindPlace k = [.key "warnings"] ++ [.key (String.ofList k.asStr)] := rfl
      rw [this, jsonAt_append, hwarn, Option.bind_some]
    rw [hplace]
    cases hl : r.warnings.lookup k with
    | none =>
      refine .inr ⟨by unfold warningsOf; rw [hl]; rfl, warnings_absent ?_⟩
      rw [hkeys]
      intro hm
      obtain ⟨⟨k', l'⟩, he, rfl⟩ := List.mem_map.mp hm
      have := (lookup_iff hc.keys k' l').mpr (hin.mem_iff.mp he)
      simp only at hl
      rw [hl] at this; cases this
    | some l' =>
      have hm := hin.mem_iff.mpr ((lookup_iff hc.keys k l').mp hl)
      obtain ⟨e, he, hfe⟩ := forall2_left h2 hm
      unfold fullWarnings at hfe
      obtain ⟨full, hfull, hfe⟩ := bindOk hfe
      cases hfe
      refine .inl ⟨full, by unfold warningsOf; rw [hl]; exact hfull, ?_⟩
      rw [warnings_at hnd he]
      exact jsonAt_nil
  refine ⟨?_, fun k hk => ?_, ?_, ?_, ?_, ?_, p2, ?_⟩
  · obtain ⟨fs, hfs, hmem⟩ := vulns_about h hc
    have hlen : fs.length = r.vulnerabilities.list.length := hfs.length_eq.symm
    refine ⟨fs, hmem, fun hn => ?_, ?_, ?_, ?_⟩
    · refine forall2_nodup hfs ?_ (hc.once hn).1
      rintro x x' y ⟨-, rfl⟩ ⟨-, rfl⟩
      rfl
    · rw [p6]
      have : r.vulnerabilities.found = decide (fs ≠ []) := by
        rw [Bool.eq_iff_iff, hc.found, decide_eq_true_iff, ← List.length_pos_iff, ← List.length_pos_iff, hlen]
      rw [this]
    · rw [p7]
      simp only
      rw [hc.count, hlen]
    · refine shows_list (R := fun v x => v = vulnerabilityOf x) hlist (forall2_join ((mapList_iff _ _ _).mp hvs) hfs ?_) ?_
      · rintro v v' x hv ⟨hx, rfl⟩
        rw [fullVulnerability_of h hx] at hv
        cases hv; rfl
      · rintro place v x rfl hp
        exact finding_of_vulnerability hp
  · obtain ⟨fs, hfs, hmem⟩ := warns_about h hc hk
    refine ⟨fs, hmem, fun hn => ?_, ?_⟩
    · refine forall2_nodup hfs ?_ ?_
      · rintro x x' y ⟨-, rfl⟩ ⟨-, rfl⟩
        rfl
      · unfold warningsOf
        cases hl : r.warnings.lookup k with
        | none => exact List.nodup_nil
        | some l' => exact (hc.once hn).2 k l' ((lookup_iff hc.keys k l').mp hl) hk
    · rcases hkind k with ⟨full, hfull, hp⟩ | ⟨he, hp⟩
      · refine .inl (shows_list (R := fun v x => v = fullWarningOf k x) hp
          (forall2_join ((mapList_iff _ _ _).mp hfull) hfs ?_) ?_)
        · rintro v v' x hv ⟨hx, rfl⟩
          rw [fullWarning_of h hx] at hv
          cases hv; rfl
        · rintro place v x rfl hp
          exact finding_of_warning hp
      · rw [he] at hfs
        cases hfs
        exact .inr ⟨rfl, hp⟩
  · have hy : ∀ w ∈ warningsOf r.warnings .yanked, w = yankedWarning w.package ∧ w.package ∈ l.packages ∧ SaidYanked env c w.package := by
      intro w hw
      obtain ⟨h1, h2⟩ := (mem_warningsOf hc w .yanked).mp hw
      obtain ⟨e1, e2, e3, e4, e5⟩ := hc.yanked w h1 h2
      refine ⟨?_, e4, e5⟩
      cases w
      cases h2; cases e1; cases e2; cases e3
      rfl
    refine ⟨(warningsOf r.warnings .yanked).map (·.package), ?_, ?_, ?_⟩
    · intro p hp
      obtain ⟨w, hw, rfl⟩ := List.mem_map.mp hp
      exact (hy w hw).2
    · intro p hp hs
      obtain ⟨w, h1, h2, h3⟩ := hc.allYanked p hp hs
      exact ⟨_, List.mem_map.mpr ⟨w, (mem_warningsOf hc w .yanked).mpr ⟨h1, h2⟩, rfl⟩, h3⟩
    · rcases hkind .yanked with ⟨full, hfull, hp⟩ | ⟨he, hp⟩
      · refine .inl (shows_list (R := fun v p => v = fullYanked p) hp ?_ ?_)
        · have hq : List.Forall₂ (fun (w : Warning) p => w = yankedWarning p) (warningsOf r.warnings .yanked)
              ((warningsOf r.warnings .yanked).map (·.package)) := by
            rw [List.forall₂_map_right_iff, List.forall₂_same]
            exact fun w hw => (hy w hw).1
          refine forall2_join ((mapList_iff _ _ _).mp hfull) hq ?_
          rintro w v p hv rfl
          cases hv; rfl
        · rintro place v p rfl hp
          exact yanked_of_warning hp
      · exact .inr ⟨by rw [he]; rfl, hp⟩
  · refine ⟨loadedFiles L.adv ch, List.Nodup.of_map _ (loaded_ids h), mem_loadedFiles L.adv ch, p1⟩
  · rw [p3]
    cases commit <;> rfl
  · rintro x rfl
    exact p4 x.2 rfl
  · rw [p5]
    simp only
    rw [hc.settings, (C44_report_settings c).1]

/-- The findings that make the run fail can be seen in the document. -/
theorem shows_fails (h : Database.open (ch.tree L.adv sev) = .ok db) {commit : Option (Str × L.Time)} {j : Json}
    (hj : ShowsAudit L sev env c ch commit l format j) :
    Fails env c db l format ↔ jsonAt [.key "vulnerabilities", .key "found"] j = some (.bool true) ∨
      ∃ k x xs, Denied c.output.deny k ∧ jsonAt (kindPlace k) j = some (.arr (x :: xs)) := by
  have hv : HasVulnerability c db l format ↔ jsonAt [.key "vulnerabilities", .key "found"] j = some (.bool true) := by
    obtain ⟨fs, hmem, -, hf, -⟩ := hj.vulnerabilities
    rw [hf]
    constructor
    · rintro ⟨p, hp, a, ha, h1, h2, h3⟩
      obtain ⟨f, hf, rfl⟩ := (iter_file h).mp ha
      rw [decide_eq_true (List.ne_nil_of_mem ((hmem f p).mpr ⟨hp, (mem_loadedFiles _ _ _).mp hf, h1, h2, h3⟩))]
    · intro e
      have he : decide (fs ≠ []) = true := Json.bool.inj (Option.some.inj e)
      obtain ⟨⟨f, p⟩, hx⟩ := List.exists_mem_of_ne_nil _ (of_decide_eq_true he)
      obtain ⟨hp, hf, h1, h2, h3⟩ := (hmem f p).mp hx
      exact ⟨p, hp, _, (iter_file h).mpr ⟨f, (mem_loadedFiles _ _ _).mpr hf, rfl⟩, h1, h2, h3⟩
  have some_iff : ∀ {α : Type} {shows : List JsonStep → α → Prop} {place : List JsonStep} {xs : List α},
      (ShowsList shows place j xs ∨ (xs = [] ∧ jsonAt place j = none)) →
      (xs ≠ [] ↔ ∃ y ys, jsonAt place j = some (.arr (y :: ys))) := by
    intro α shows place xs hs
    rcases hs with ⟨⟨items, hi, hlen⟩, -⟩ | ⟨rfl, hn⟩
    · rw [hi]
      cases items with
      | nil =>
        have : xs = [] := List.length_eq_zero_iff.mp hlen.symm
        subst this
        exact ⟨fun h => absurd rfl h, fun ⟨y, ys, e⟩ => by cases e⟩
      | cons y ys =>
        refine ⟨fun _ => ⟨y, ys, rfl⟩, fun _ e => ?_⟩
        subst e
        cases hlen
    · rw [hn]
      exact ⟨fun h => absurd rfl h, fun ⟨y, ys, e⟩ => by cases e⟩
  unfold Fails
  rw [hv]
  refine or_congr Iff.rfl ?_
  constructor
  · rintro (⟨p, hp, a, ha, i, k, h1, h2, h3, h4, h5⟩ | ⟨hd, p, hp, hs⟩)
    · obtain ⟨f, hf, rfl⟩ := (iter_file h).mp ha
      have hk : k ≠ .yanked := by rintro rfl; cases h4
      obtain ⟨fs, hmem, -, hl⟩ := hj.warnings k hk
      have hen : Enabled c i := by
        obtain ⟨d, hd, hdk, -⟩ := h5
        exact Or.inr ⟨d, hd, k, hdk, h4⟩
      obtain ⟨y, ys, e⟩ := (some_iff hl).mp (List.ne_nil_of_mem
        ((hmem f p).mpr ⟨hp, (mem_loadedFiles _ _ _).mp hf, h1, h3, i, h2, hen, h4⟩))
      exact ⟨k, y, ys, h5, e⟩
    · obtain ⟨ps, -, hall, hl⟩ := hj.yanked
      obtain ⟨q, hq, -⟩ := hall p hp hs
      obtain ⟨y, ys, e⟩ := (some_iff hl).mp (List.ne_nil_of_mem hq)
      exact ⟨.yanked, y, ys, hd, e⟩
  · rintro ⟨k, y, ys, hd, e⟩
    by_cases hk : k = .yanked
    · subst hk
      obtain ⟨ps, hps, -, hl⟩ := hj.yanked
      obtain ⟨q, hq⟩ := List.exists_mem_of_ne_nil _ ((some_iff hl).mpr ⟨y, ys, e⟩)
      exact Or.inr ⟨hd, q, hps q hq⟩
    · obtain ⟨fs, hmem, -, hl⟩ := hj.warnings k hk
      obtain ⟨⟨f, p⟩, hx⟩ := List.exists_mem_of_ne_nil _ ((some_iff hl).mpr ⟨y, ys, e⟩)
      obtain ⟨hp, hf, h1, h2, i, h3, -, h5⟩ := (hmem f p).mp hx
      exact Or.inl ⟨p, hp, _, (iter_file h).mpr ⟨f, (mem_loadedFiles _ _ _).mpr hf, rfl⟩, i, k, h1, h3, h2, h5, hd⟩

/-- A complete report is printed as one line, and a JSON reader gets a document from it that shows the audit. -/
theorem json_output (h : Database.open (ch.tree L.adv sev) = .ok db) (hc : Complete env c db l format r)
    (commit : Option (Str × L.Time)) (ht : ∀ x, commit = some x → ∃ s, L.showTime x.2 = some s) :
    ∃ line j, jsonOutput L ch commit l r = .ok (line ++ ['\n']) ∧ (∀ ch ∈ line, 32 ≤ ch.toNat) ∧
      readJson line = some j ∧ ShowsAudit L sev env c ch commit l format j := by
  obtain ⟨R, hR⟩ := full_report_total h hc commit
  have hdb : R.database = databaseInfo (loadedFiles L.adv ch) commit := by
    unfold fullReport at hR
    obtain ⟨_, _, hR⟩ := bindOk hR
    obtain ⟨_, _, hR⟩ := bindOk hR
    cases hR; rfl
  obtain ⟨text, htext⟩ := (C80_prints_iff L R).1.mpr (by
    intro t e
    rw [hdb] at e
    obtain ⟨x, hx, rfl⟩ := Option.map_eq_some_iff.mp e
    exact ht x hx)
  obtain ⟨line, j, rfl, hvis, hj, hread, -⟩ := C80_one_line L R text htext
  refine ⟨line, j, ?_, hvis, hread, shows_audit h hc hR hj⟩
  unfold jsonOutput
  rw [hR, Outcome.bind_ok]
  exact htext

/-- The metadata a finding keeps in `Verif/Model/Report.lean`. -/
def lessMetadata (sev : Cvss.Cvss → Severity) (m : FileMetadata) : Metadata :=
  { id := m.id, package := m.package, title := m.title, date := m.date, aliases := m.aliases, related := m.related,
    collection := m.collection, severity := m.cvss.map sev, informational := m.informational, source := m.source,
    withdrawn := m.withdrawn, cvss := m.cvss.map Cvss.Cvss.display, url := m.url, license := m.license }

/-- C83: the report with all its fields is the report. -/
theorem C83_same_report (h : Database.open (ch.tree L.adv sev) = .ok db) (hc : Complete env c db l format r)
    (commit : Option (Str × L.Time)) :
    ∃ R, fullReport (loadedFiles L.adv ch) commit l r = .ok R ∧ R.settings = r.settings ∧
      R.vulnerabilities.found = r.vulnerabilities.found ∧ R.vulnerabilities.count = r.vulnerabilities.count ∧
      R.vulnerabilities.list.map (fun v => (⟨lessMetadata sev v.advisory, v.versions, v.affected, v.package⟩ : Vulnerability)) =
        r.vulnerabilities.list ∧
      (R.warnings.map fun e => (e.1, e.2.map fun w =>
        (⟨w.kind, w.package, w.advisory.map (lessMetadata sev), w.affected, w.versions⟩ : Warning))).Perm r.warnings := by
  obtain ⟨R, hR⟩ := full_report_total h hc commit
  refine ⟨R, hR, ?_⟩
  unfold fullReport at hR
  obtain ⟨vs, hvs, hR'⟩ := bindOk hR
  obtain ⟨ws, hws, hR''⟩ := bindOk hR'
  cases hR''
  have back : ∀ {α β : Type} {f : α → Outcome β} {g : β → α} {xs : List α} {ys : List β},
      Outcome.mapList f xs = .ok ys → (∀ x ∈ xs, ∀ y, f x = .ok y → g y = x) → ys.map g = xs := by
    intro α β f g xs ys hm hg
    replace hm := (mapList_iff _ _ _).mp hm
    induction hm with
    | nil => rfl
    | cons he _ ih =>
      rw [List.map_cons, hg _ List.mem_cons_self _ he, ih fun x hx => hg x (List.mem_cons_of_mem _ hx)]
  have hmeta : ∀ (a : Advisory), a ∈ db.iter → ∀ m, fullMetadata (loadedFiles L.adv ch) a.metadata = .ok m →
      lessMetadata sev m = a.metadata := by
    intro a ha m hm
    obtain ⟨f, hf, rfl⟩ := (iter_file h).mp ha
    rw [fullMetadata_of h hf rfl] at hm
    cases hm; rfl
  refine ⟨rfl, rfl, rfl, back hvs ?_, ?_⟩
  · intro v hv w hw
    obtain ⟨p, -, a, ha, rfl, -⟩ := (hc.vulnerabilities v).mp hv
    unfold fullVulnerability at hw
    obtain ⟨m, hm, hw'⟩ := bindOk hw
    cases hw'
    rw [hmeta a ha m hm]; rfl
  · refine (List.Perm.of_eq (back hws ?_)).trans (inOrder_perm hc.keys)
    rintro ⟨k, l'⟩ he ⟨k', l''⟩ hw
    have hm := (inOrder_perm hc.keys).mem_iff.mp he
    unfold fullWarnings at hw
    obtain ⟨full, hfull, hw'⟩ := bindOk hw
    cases hw'
    refine congrArg (Prod.mk k) (back hfull ?_)
    intro w hwl v hv
    have hin : InReport r w := ⟨k, l', hm, hwl⟩
    by_cases hk : w.kind = .yanked
    · have e := (hc.yanked w hin hk).1
      unfold fullWarning at hv
      simp only [e] at hv
      cases hv
      cases w
      cases e; rfl
    · obtain ⟨p, -, a, ha, i, -, -, -, -, -, e1, e2, e3, e4⟩ := (hc.advisories w).mp ⟨hin, hk⟩
      unfold fullWarning at hv
      simp only [e2] at hv
      cases hfm : fullMetadata (loadedFiles L.adv ch) a.metadata with
      | err => simp only [hfm] at hv; cases hv
      | panic => simp only [hfm] at hv; cases hv
      | ok m =>
        simp only [hfm] at hv
        cases hv
        cases w
        simp only [Option.map_some, hmeta a ha m hfm, Warning.mk.injEq, true_and]
        exact ⟨e2.symm, trivial⟩

end

/-! ## C83 -/

/-- C83: `cargo audit --json` on a database and a lockfile that can be read prints one line of JSON.  What a JSON reader
gets from it shows the findings, and the exit status is 1 exactly if the document has a vulnerability or a warning of a
denied kind (or there is an advisory about the tool itself and warnings are denied), else 0. -/
theorem C83_json (L : ReportLib) (hreq : ∀ s r, L.adv.req s = some r → ReqWF r) (sev : Cvss.Cvss → Severity) (env : Env)
    (cmd : AuditCommand) (c : AuditConfig) (hfmt : c.output.format = .json) (path : Str)
    (hloc : env.locate cmd.file = some path) (ch : Checkout) (hco : env.checkout c = some (ch.tree L.adv sev))
    (db : Db.Database) (h : Db.Database.open (ch.tree L.adv sev) = .ok db) (l : Lockfile)
    (hl : env.loadLock path = some l) (commit : Option (Str × L.Time))
    (ht : ∀ x, commit = some x → ∃ s, L.showTime x.2 = some s) :
    ∃ r n line j, runAudit env cmd c = (some (.json r), .code n) ∧
      jsonOutput L ch commit l r = .ok (line ++ ['\n']) ∧ (∀ ch ∈ line, 32 ≤ ch.toNat) ∧ readJson line = some j ∧
      ShowsAudit L sev env c ch commit l none j ∧ (n = 0 ∨ n = 1) ∧
      (n = 1 ↔ jsonAt [.key "vulnerabilities", .key "found"] j = some (.bool true) ∨
        (∃ k x xs, Denied c.output.deny k ∧ jsonAt (kindPlace k) j = some (.arr (x :: xs))) ∨
        (DenyOption.warnings ∈ c.output.deny ∧ HasSelfAdvisory env db)) := by
  have hpr : Printable c l := fun e => by rw [hfmt] at e; cases e
  obtain ⟨r, out, n, hrun, hcomp, hsh, hn, hex⟩ :=
    C43_exit_status env cmd c path hloc _ hco db h (loaded_validated hreq h) l hl hpr
  cases out with
  | terminal items v d al => have := hsh.1; rw [hfmt] at this; cases this
  | sarif r' => have := hsh.1; rw [hfmt] at this; cases this
  | json r' =>
    have hr' : r' = r := hsh.2
    subst hr'
    obtain ⟨line, j, h1, h2, h3, h4⟩ := json_output h hcomp commit ht
    refine ⟨r', n, line, j, hrun, h1, h2, h3, h4, hn, hex.trans ?_⟩
    rw [shows_fails h h4, or_assoc]

/-- C83: `cargo audit bin --json` prints one such line for each binary that can be scanned. -/
theorem C83_bin_json (L : ReportLib) (hreq : ∀ s r, L.adv.req s = some r → ReqWF r) (sev : Cvss.Cvss → Severity)
    (env : Env) (c : AuditConfig) (hfmt : c.output.format = .json) (ch : Checkout)
    (hco : env.checkout c = some (ch.tree L.adv sev)) (db : Db.Database)
    (h : Db.Database.open (ch.tree L.adv sev) = .ok db) (ms ds : Option Nat)
    (hms : ms.getD (100 * 1024 * 1024) < 2 ^ 64) (paths : List Str)
    (hsize : ∀ path ∈ paths, ∀ content, env.readBinary path = some content → content.length < 2 ^ 64)
    (commit : Option (Str × L.Time)) (ht : ∀ x, commit = some x → ∃ s, L.showTime x.2 = some s) :
    ∃ out n, runBin env ms ds paths c = (out, .code n) ∧
      List.Forall₂ (fun path o =>
        ((¬ ∃ f l, Scans env ms ds path f l) → o = none) ∧
        ∀ f l, Scans env ms ds path f l → ∃ r line j, o = some (.json r) ∧
          jsonOutput L ch commit l r = .ok (line ++ ['\n']) ∧ (∀ ch ∈ line, 32 ≤ ch.toNat) ∧ readJson line = some j ∧
          ShowsAudit L sev env c ch commit l (some f) j) paths out := by
  have hpr : ∀ path ∈ paths, ∀ f l, Scans env ms ds path f l → Printable c l :=
    fun _ _ _ _ _ e => by rw [hfmt] at e; cases e
  obtain ⟨out, n, h1, -, h2, -⟩ :=
    C43_bin_exit_status env c _ hco db h (loaded_validated hreq h) ms ds hms paths hsize hpr
  refine ⟨out, n, h1, h2.imp ?_⟩
  rintro path o ⟨g1, g2⟩
  refine ⟨g1, fun f l hs => ?_⟩
  obtain ⟨r, p, rfl, hcomp, hsh⟩ := g2 f l hs
  cases p with
  | terminal items v d al => have := hsh.1; rw [hfmt] at this; cases this
  | sarif r' => have := hsh.1; rw [hfmt] at this; cases this
  | json r' =>
    have hr' : r' = r := hsh.2
    subst hr'
    obtain ⟨line, j, q1, q2, q3, q4⟩ := json_output h hcomp commit ht
    exact ⟨r', line, j, rfl, q1, q2, q3, q4⟩

end Verif.Props
