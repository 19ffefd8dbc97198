import Verif.Spec.ReportJson
import Verif.Props.Json
import Verif.Props.Id
import Verif.Props.Checksum
import Verif.Props.CvssText
import Verif.Props.AdvisoryFile
import Verif.Props.AdvisoryDecode
import Verif.Props.LinterGate

/-!
# C79, C80: the JSON report
-/

namespace Verif.Props

open Verif Verif.Semver Verif.Osv Verif.Lock Verif.Adv Verif.Rep Verif.RepJson Verif.Spec

/-! ## Leaves -/

theorem mapList_back {α β : Type} {f : α → β} {g : β → Outcome α} {l : List α} (h : ∀ x ∈ l, g (f x) = .ok x) :
    Outcome.mapList g (l.map f) = .ok l := by
  induction l with
  | nil => rfl
  | cons a l ih =>
    rw [List.map_cons, Outcome.mapList, h a (by simp), ih fun x hx => h x (by simp [hx])]

theorem darr_map {α : Type} {f : α → Json} {g : Json → Outcome α} {l : List α} (h : ∀ x ∈ l, g (f x) = .ok x) :
    darr g (jarr f l) = .ok l := mapList_back h

theorem dopt_str {α : Type} {f : α → Str} {g : Str → Outcome α} {o : Option α} (h : ∀ x, o = some x → g (f x) = .ok x) :
    dopt (dstr g) (jopt (fun x => jstr (f x)) o) = .ok o := by
  cases o with
  | none => rfl
  | some x => simp [jopt, dopt, jstr, dstr, h x rfl, Cvss.Outcome.map]

theorem dstr_str {α : Type} (g : Str → Outcome α) (s : Str) : dstr g (jstr s) = g s := rfl

theorem id_back {i : Id} (h : FromText Id.fromStr i) : Id.fromStr i.string = .ok i := by
  obtain ⟨s, hs⟩ := h
  have := (C19_parsed_contents s i hs).1
  unfold Id.display at this
  rw [this, hs]

theorem date_back {civil : Str → Option (Int × Nat × Nat)} {d : DateText} (h : FromText (DateText.fromStr civil) d) :
    DateText.fromStr civil d.text = .ok d := by
  obtain ⟨s, hs⟩ := h
  have : d.text = s := by
    unfold DateText.fromStr at hs
    repeat' split at hs
    all_goals first | (cases hs; rfl) | cases hs
  rw [this, hs]

theorem url_back {L : UrlLib} (hL : UrlLib.Lawful L) {u : Url} (h : ∃ s, Url.parse L s = some u) :
    ofOption (Url.parse L u.text) = .ok u := by
  obtain ⟨s, hs⟩ := h
  have hc : cutC '+' ("registry+".toList ++ s) = ("registry".toList, some s) := rfl
  have hr : SourceId.fromUrl L ("registry+".toList ++ s) =
      .ok { url := u, kind := .registry, precise := some "locked".toList } := by
    unfold SourceId.fromUrl
    rw [hc]
    simp only
    rw [if_neg (by decide), if_pos True.intro, hs]
  obtain ⟨-, hg | ⟨-, -, h⟩ | ⟨h, -, -⟩ | ⟨h, -, -⟩⟩ := C26_parsed_shape hL hr
  · obtain ⟨r, hr⟩ := hg.kind
    cases hr
  · simp only at h
    rw [h]; rfl
  · cases h
  · cases h

theorem source_back {L : ReportLib} (hL : ReportLib.Lawful L) {s : SourceId} (h : SourceKept L s) :
    dopt (dsource L) (jsource s) = .ok (some s) := by
  obtain ⟨⟨t, ht⟩, hk, hp⟩ := h
  unfold jsource
  rw [if_neg hk]
  simp only [dopt, dsource, dstr, C26_display_round_trip hL.url ht hp, Cvss.Outcome.map]

theorem sources_back {L : ReportLib} (hL : ReportLib.Lawful L) {o : Option SourceId}
    (h : ∀ s, o = some s → SourceKept L s) : dopt (dsource L) (jopt jsource o) = .ok o := by
  cases o with
  | none => rfl
  | some s => exact source_back hL (h s rfl)

theorem req_back {L : ReportLib} (hL : ReportLib.Lawful L) {rs : List VersionReq} (h : ReqsRead L rs) :
    dreqs L (jarr (fun r => jstr (L.showReq r)) rs) = .ok rs := by
  refine darr_map fun r hr => ?_
  obtain ⟨s, hs⟩ := h r hr
  rw [dstr_str, hL.req s r hs]; rfl

theorem version_back {L : ReportLib} (hL : ReportLib.Lawful L) {v : Version} (h : ∃ s, L.parseVersion s = some v) :
    dversion L (jstr (L.showVersion v)) = .ok v := by
  obtain ⟨s, hs⟩ := h
  unfold dversion
  rw [dstr_str, hL.version s v hs]; rfl

theorem strs_back (l : List Str) : darr (dstr .ok) (jarr jstr l) = .ok l := darr_map fun _ _ => rfl

theorem ids_back {l : List Id} (h : ∀ i ∈ l, FromText Id.fromStr i) :
    darr (dstr Id.fromStr) (jarr (fun i => jstr i.string) l) = .ok l :=
  darr_map fun i hi => by rw [dstr_str, id_back (h i hi)]

/-! ## Fields -/

theorem field_head {α : Type} {k : String} {j : Json} {l : List (Str × Json)} {f : Json → Outcome α} :
    field ((k.toList, j) :: l) k f = f j := by
  unfold field; rw [List.lookup_cons, beq_self_eq_true]

theorem field_skip {α : Type} {k k' : String} {j : Json} {l : List (Str × Json)} {f : Json → Outcome α}
    (h : (k.toList == k'.toList) = false) : field ((k'.toList, j) :: l) k f = field l k f := by
  unfold field; rw [List.lookup_cons, h]

theorem fieldOr_head {α : Type} {k : String} {j : Json} {l : List (Str × Json)} {d : α} {f : Json → Outcome α} :
    fieldOr ((k.toList, j) :: l) k d f = f j := by
  unfold fieldOr; rw [List.lookup_cons, beq_self_eq_true]

theorem fieldOr_skip {α : Type} {k k' : String} {j : Json} {l : List (Str × Json)} {d : α} {f : Json → Outcome α}
    (h : (k.toList == k'.toList) = false) : fieldOr ((k'.toList, j) :: l) k d f = fieldOr l k d f := by
  unfold fieldOr; rw [List.lookup_cons, h]

/-- Finds the field. -/
macro "find_field" : tactic =>
  `(tactic| repeat first | rw [field_head] | rw [fieldOr_head] | rw [field_skip (by decide)] | rw [fieldOr_skip (by decide)])

theorem metadata_back {L : ReportLib} (hL : ReportLib.Lawful L) {m : FileMetadata} (h : MetadataRead L m) :
    dmetadata L (jmetadata m) = .ok m := by
  unfold dmetadata jmetadata members
  simp only
  find_field
  have h1 : dopt (dstr fun s => ofOption (Collection.fromStr s)) (jopt (fun c => jstr c.asStr) m.collection) =
      .ok m.collection := dopt_str fun c _ => by rw [C23_closed.1.1]; rfl
  have h2 : darr (dstr fun s => Outcome.ok (Category.fromStr s)) (jarr (fun c => jstr c.name) m.categories) =
      .ok m.categories := darr_map fun c hc => by rw [dstr_str, C23_open.1.2 c (h.categories c hc)]
  have h3 : dopt (dstr Cvss.Cvss.fromStr) (jopt (fun c => jstr c.display) m.cvss) = .ok m.cvss :=
    dopt_str fun c hc => by
      obtain ⟨s, hs⟩ := h.cvss c hc
      exact (Cvss.C59_parsed_well_formed s c hs).2
  have h4 : dopt (dstr fun s => Outcome.ok (Informational.fromStr s)) (jopt (fun i => jstr i.asStr) m.informational) =
      .ok m.informational := dopt_str fun i hi => by rw [C23_open.2.1.2 i (h.informational i hi)]
  have h5 : darr (dstr fun s => ofOption (Url.parse L.adv.url s)) (jarr (fun u => jstr u.text) m.references) =
      .ok m.references := darr_map fun u hu => by rw [dstr_str, url_back hL.url (h.references u hu)]
  have h6 : dopt (dstr fun s => ofOption (Url.parse L.adv.url s)) (jopt (fun u => jstr u.text) m.url) = .ok m.url :=
    dopt_str fun u hu => url_back hL.url (h.url u hu)
  have h7 : dopt (dstr (DateText.fromStr L.adv.civil)) (jopt (fun d => jstr d.text) m.withdrawn) = .ok m.withdrawn :=
    dopt_str fun d hd => date_back (h.withdrawn d hd)
  have h8 : License.ofString m.license.spdx = m.license := by
    rw [C23_open.2.2.2, C23_open.2.2.1.2 m.license h.license]
  have h9 : dbool (.bool m.expectDeleted) = .ok m.expectDeleted := rfl
  simp only [dstr_str, id_back h.id, date_back h.date, ids_back h.aliases, ids_back h.related, h1, h2, strs_back, h3, h4,
    h5, sources_back hL h.source, h6, h7, h8, h9, Outcome.bind_ok]

theorem versions_back {L : ReportLib} (hL : ReportLib.Lawful L) {v : Versions} (h : VersionsRead L v) :
    dversions L (jversions L v) = .ok v := by
  unfold dversions jversions members
  simp only
  find_field
  rw [req_back hL h.patched, Outcome.bind_ok, req_back hL h.unaffected, Outcome.bind_ok, h.accepted]

theorem function_back {L : ReportLib} (hL : ReportLib.Lawful L) {e : List Str × List VersionReq}
    (h : FromText FunctionPath.fromStr e.1 ∧ ReqsRead L e.2) : dfunction L (jfunction L e) = .ok e := by
  obtain ⟨⟨s, hs⟩, hr⟩ := h
  have hd := ((C21_round_trip s e.1).1.mp hs).2
  unfold dfunction jfunction
  simp only [hd, hs, Outcome.bind_ok, req_back hL hr]

theorem affected_back {L : ReportLib} (hL : ReportLib.Lawful L) {a : Affected} (h : AffectedRead L a) :
    daffected L (jaffected L a) = .ok a := by
  unfold daffected jaffected members
  simp only
  find_field
  rw [strs_back, Outcome.bind_ok, strs_back, Outcome.bind_ok]
  simp only [mapList_back fun e he => function_back hL (h e he), Outcome.bind_ok]

theorem dopt_obj {α : Type} {f : α → Json} {g : Json → Outcome α} {o : Option α} (hf : ∀ x, f x ≠ .null)
    (h : ∀ x, o = some x → g (f x) = .ok x) : dopt g (jopt f o) = .ok o := by
  cases o with
  | none => rfl
  | some x =>
    have : dopt g (f x) = Cvss.Outcome.map some (g (f x)) := by
      have := hf x
      revert this
      cases f x <;> intro this <;> first | exact absurd rfl this | rfl
    rw [jopt, this, h x rfl]; rfl

theorem dependency_back {L : ReportLib} (hL : ReportLib.Lawful L) {d : Dependency} (h : DependencyRead L d) :
    ddependency L (jdependency L d) = .ok d := by
  unfold ddependency jdependency members
  simp only
  find_field
  simp only [dstr_str, version_back hL h.version, sources_back hL h.source, Outcome.bind_ok]

theorem package_back {L : ReportLib} (hL : ReportLib.Lawful L) {p : Package} (h : PackageRead L p) :
    dpackage L (jpackage L p) = .ok p := by
  obtain ⟨name, version, source, checksum, dependencies, replace⟩ := p
  have h1 : dopt (dstr Checksum.fromStr) (jopt (fun c => jstr (Checksum.show c)) checksum) = .ok checksum :=
    dopt_str fun c hc => by
      obtain ⟨s, hs⟩ := h.checksum c hc
      exact C25_round_trip c ((C25_accepts_iff s c).mp hs).2
  have h2 : dopt (ddependency L) (jopt (jdependency L) replace) = .ok replace :=
    dopt_obj (fun x hx => by cases hx) fun d hd => dependency_back hL (h.replace d hd)
  have h3 := version_back hL h.version
  have h4 := sources_back hL h.source
  simp only at h3 h4
  unfold dpackage jpackage members jdependencies
  cases dependencies with
  | nil =>
    simp only [List.cons_append, List.nil_append]
    find_field
    have : fieldOr ([] : List (Str × Json)) "dependencies" [] (darr (ddependency L)) = .ok [] := rfl
    simp only [dstr_str, h1, h2, h3, h4, this, Outcome.bind_ok]
  | cons d ds =>
    have h5 : darr (ddependency L) (jarr (jdependency L) (d :: ds)) = .ok (d :: ds) :=
      darr_map fun d hd => dependency_back hL (h.dependencies d hd)
    simp only [List.cons_append, List.nil_append]
    find_field
    simp only [dstr_str, h1, h2, h3, h4, h5, Outcome.bind_ok]

theorem vulnerability_back {L : ReportLib} (hL : ReportLib.Lawful L) {v : FullVulnerability}
    (h : VulnerabilityRead L v) : dvulnerability L (jvulnerability L v) = .ok v := by
  have h1 : dopt (daffected L) (jopt (jaffected L) v.affected) = .ok v.affected :=
    dopt_obj (fun x hx => by cases hx) fun a ha => affected_back hL (h.affected a ha)
  unfold dvulnerability jvulnerability members
  simp only
  find_field
  simp only [metadata_back hL h.advisory, versions_back hL h.versions, h1, package_back hL h.package, Outcome.bind_ok]

theorem warning_back {L : ReportLib} (hL : ReportLib.Lawful L) {w : FullWarning}
    (h : WarningRead L w) : dwarning L (jwarning L w) = .ok w := by
  have h1 : dopt (daffected L) (jopt (jaffected L) w.affected) = .ok w.affected :=
    dopt_obj (fun x hx => by cases hx) fun a ha => affected_back hL (h.affected a ha)
  have h2 : dopt (dmetadata L) (jopt jmetadata w.advisory) = .ok w.advisory :=
    dopt_obj (fun x hx => by cases hx) fun a ha => metadata_back hL (h.advisory a ha)
  have h3 : dopt (dversions L) (jopt (jversions L) w.versions) = .ok w.versions :=
    dopt_obj (fun x hx => by cases hx) fun a ha => versions_back hL (h.versions a ha)
  have h4 : ofOption (WarningKind.fromStr w.kind.asStr) = .ok w.kind := by rw [C23_closed.2.1.1]; rfl
  unfold dwarning jwarning members
  simp only
  find_field
  simp only [dstr_str, h4, package_back hL h.package, h1, h2, h3, Outcome.bind_ok]

theorem severity_back (v : Severity) : Severity.fromStr v.asStr = some v := by cases v <;> decide +kernel

theorem settings_back {s : Settings} (h1 : ∀ i ∈ s.ignore, FromText Id.fromStr i)
    (h2 : ∀ i ∈ s.informationalWarnings, ∃ t, Informational.fromStr t = i) : dsettings (jsettings s) = .ok s := by
  have h3 : darr (dstr fun s => Outcome.ok (Informational.fromStr s))
      (jarr (fun i => jstr i.asStr) s.informationalWarnings) = .ok s.informationalWarnings :=
    darr_map fun i hi => by rw [dstr_str, C23_open.2.1.2 i (h2 i hi)]
  have h4 : dopt (dstr fun s => ofOption (Severity.fromStr s)) (jopt (fun v => jstr v.asStr) s.severity) =
      .ok s.severity := dopt_str fun v _ => by rw [severity_back]; rfl
  unfold dsettings jsettings members
  simp only
  find_field
  simp only [strs_back, h3, h4, ids_back h1, Outcome.bind_ok]

theorem database_back {L : ReportLib} (hL : ReportLib.Lawful L) {d : DatabaseInfo L.Time}
    (h : ∀ t, d.lastUpdated = some t → ∃ s, L.showTime t = some s) :
    ∃ j, jdatabase L d = .ok j ∧ ddatabase L j = .ok d := by
  have h1 : ∃ j, jtime L d.lastUpdated = .ok j ∧
      dopt (dstr fun s => ofOption (L.parseTime s)) j = .ok d.lastUpdated := by
    cases hd : d.lastUpdated with
    | none => exact ⟨_, rfl, rfl⟩
    | some t =>
      obtain ⟨s, hs⟩ := h t hd
      refine ⟨.str s, by simp [jtime, hs], ?_⟩
      simp [dopt, dstr, hL.time t s hs, ofOption, Cvss.Outcome.map]
  obtain ⟨j, h1, h2⟩ := h1
  have h3 : dopt (dstr .ok) (jopt jstr d.lastCommit) = .ok d.lastCommit := dopt_str fun _ _ => rfl
  have h4 : dnum (.num d.advisoryCount) = .ok d.advisoryCount := rfl
  unfold jdatabase
  rw [h1, Outcome.bind_ok]
  refine ⟨_, rfl, ?_⟩
  unfold ddatabase members
  simp only
  find_field
  simp only [h2, h3, h4, Outcome.bind_ok]

theorem vulnerabilities_back {L : ReportLib} (hL : ReportLib.Lawful L) {v : FullVulnerabilityInfo}
    (h : ∀ x ∈ v.list, VulnerabilityRead L x) : dvulnerabilities L (jvulnerabilities L v) = .ok v := by
  have h1 : darr (dvulnerability L) (jarr (jvulnerability L) v.list) = .ok v.list :=
    darr_map fun x hx => vulnerability_back hL (h x hx)
  have h2 : dbool (.bool v.found) = .ok v.found := rfl
  have h3 : dnum (.num v.count) = .ok v.count := rfl
  unfold dvulnerabilities jvulnerabilities members
  simp only
  find_field
  simp only [h1, h2, h3, Outcome.bind_ok]

theorem warnings_back {L : ReportLib} (hL : ReportLib.Lawful L) {ws : List (WarningKind × List FullWarning)}
    (h : ∀ e ∈ ws, ∀ w ∈ e.2, WarningRead L w) :
    Outcome.mapList (dwarningEntry L) (ws.map fun e => (e.1.asStr, jarr (jwarning L) e.2)) = .ok ws := by
  refine mapList_back fun e he => ?_
  unfold dwarningEntry
  have h4 : ofOption (WarningKind.fromStr e.1.asStr) = .ok e.1 := by rw [C23_closed.2.1.1]; rfl
  simp only [h4, Outcome.bind_ok, darr_map fun w hw => warning_back hL (h e he w hw)]

/-- C79: a report made of advisories, packages and settings that were read is written, and the same types read it back
as it was. -/
theorem C79_round_trip (L : ReportLib) (hL : ReportLib.Lawful L) (r : FullReport L.Time) (h : ReportRead L r) :
    ∃ j, r.serialize L = .ok j ∧ FullReport.deserialize L j = .ok r := by
  obtain ⟨d, hd, hd'⟩ := database_back hL h.time
  unfold FullReport.serialize
  rw [hd, Outcome.bind_ok]
  refine ⟨_, rfl, ?_⟩
  have h1 : dnum (.num r.dependencyCount) = .ok r.dependencyCount := rfl
  have h2 := warnings_back hL h.warnings
  unfold FullReport.deserialize members jwarnings
  simp only
  find_field
  simp only
  find_field
  simp only [hd', h1, h2, settings_back h.ignore h.informational, vulnerabilities_back hL h.vulnerabilities,
    Outcome.bind_ok]

/-! ## Where the parts come from -/

/-- The sources of an advisory that the report can hold. -/
def AdvisorySourceKept (a : AdvisoryFile) : Prop :=
  ∀ s, a.metadata.source = some s → s.kind ≠ .path ∧ ∀ r, s.kind = .git r → PlainRef r s.precise

theorem forall2_right {α β : Type} {R : α → β → Prop} {l : List α} {m : List β} (h : List.Forall₂ R l m) :
    ∀ y ∈ m, ∃ x ∈ l, R x y := by
  induction h with
  | nil => simp
  | cons h _ ih =>
    intro y hy
    rcases List.mem_cons.mp hy with rfl | hy
    · exact ⟨_, by simp, h⟩
    · obtain ⟨x, hx, hr⟩ := ih y hy
      exact ⟨x, by simp [hx], hr⟩

theorem mem_array {α : Type} {v : Toml} {reads : Str → α → Prop} {xs : List α} (h : ArrayIs v reads xs) :
    ∀ x ∈ xs, ∃ s, reads s x := by
  obtain ⟨l, -, h⟩ := h
  intro x hx
  obtain ⟨e, -, s, -, hs⟩ := forall2_right h x hx
  exact ⟨s, hs⟩

theorem mem_fieldList {α : Type} {t : TomlTable} {k : String} {reads : Str → α → Prop} {xs : List α}
    (h : FieldList t k reads xs) : ∀ x ∈ xs, ∃ s, reads s x := by
  rcases h with ⟨-, rfl⟩ | ⟨v, -, h⟩
  · simp
  · exact mem_array h

theorem mem_fieldOpt {α : Type} {t : TomlTable} {k : String} {reads : Str → α → Prop} {o : Option α}
    (h : FieldOpt t k reads o) : ∀ x, o = some x → ∃ s, reads s x := by
  rintro x rfl
  obtain ⟨s, -, hs⟩ := h
  exact ⟨s, hs⟩

/-- C79: the advisories of a database are such parts. -/
theorem C79_advisory_read (L : ReportLib) (text : Str) (a : AdvisoryFile) (h : AdvisoryFile.fromStr L.adv text = .ok a)
    (hs : AdvisorySourceKept a) :
    MetadataRead L a.metadata ∧ VersionsRead L a.versions ∧ ∀ f, a.affected = some f → AffectedRead L f := by
  obtain ⟨parts, front, t, m, v, -, -, -, -, -, hm, -, -, -, -, ha, ⟨w, -, hp⟩, hu, hn⟩ :=
    ((C68_parsed_iff _ _ _).mp h).contents
  refine ⟨?_, ⟨mem_array hp, mem_fieldList hu, hn⟩, ?_⟩
  · exact {
      id := let ⟨s, _, h⟩ := hm.id; ⟨s, h⟩
      date := let ⟨s, _, h⟩ := hm.date; ⟨s, h⟩
      aliases := mem_fieldList hm.aliases
      related := mem_fieldList hm.related
      categories := mem_fieldList hm.categories
      cvss := mem_fieldOpt hm.cvss
      informational := mem_fieldOpt hm.informational
      references := mem_fieldList hm.references
      source := fun s h => ⟨mem_fieldOpt hm.source s h, hs s h⟩
      url := mem_fieldOpt hm.url
      withdrawn := mem_fieldOpt hm.withdrawn
      license := by
        rcases hm.license with ⟨-, h⟩ | ⟨s, -, h1, h2⟩
        · exact ⟨"CC0-1.0".toList, by rw [h]; decide +kernel⟩
        · refine ⟨s, ?_⟩
          rw [← h1]
          refine (C23_known.2.2 _).mpr fun o ho => ?_
          have := h2 o ho
          rw [← h1, ho] at this
          show (if o = _ then _ else if o = _ then _ else _) = _
          have h3 : (License.other o).spdx = o := rfl
          rw [h3] at this
          rw [if_neg this.1, if_neg this.2] }
  · intro f hf
    rcases ha with ⟨-, ha⟩ | ⟨ta, af, -, ha, hfn⟩
    · rw [ha] at hf; cases hf
    · rw [ha] at hf
      cases hf
      intro e he
      rcases hfn.functions with ⟨-, h0⟩ | ⟨m, -, hm⟩
      · rw [h0] at he; cases he
      · obtain ⟨x, -, h1, h2⟩ := forall2_right hm e he
        exact ⟨⟨_, h1⟩, mem_array h2⟩

/-- The sources of a lockfile that the report can hold. -/
structure LockSourcesKept (l : Lockfile) : Prop where
  packages : ∀ p ∈ l.packages, ∀ s, p.source = some s → s.kind ≠ .path ∧ ∀ r, s.kind = .git r → PlainRef r s.precise
  dependencies : ∀ p ∈ l.packages, ∀ d ∈ p.dependencies ++ p.replace.toList, ∀ s, d.source = some s →
    s.kind ≠ .path ∧ ∀ r, s.kind = .git r → PlainRef r s.precise

/-- The parsers that reading a lockfile uses. -/
def ReportLib.codec (L : ReportLib) : Codec :=
  { url := L.adv.url, showVersion := L.showVersion, parseVersion := L.parseVersion }

/-- Version and source were read from text. -/
def Read (C : Codec) (v : Version) (s : Option SourceId) : Prop :=
  (∃ t, C.parseVersion t = some v) ∧ ∀ x, s = some x → ∃ t, SourceId.fromUrl C.url t = .ok x

theorem parseVersionO_ok {C : Codec} {t : Str} {v : Version} (h : parseVersionO C t = .ok v) :
    C.parseVersion t = some v := by
  unfold parseVersionO at h
  split at h
  · cases h; assumption
  · cases h

theorem paren_read {C : Codec} {t : Str} {x : SourceId} (h : parseParen C t = .ok x) :
    ∃ t, SourceId.fromUrl C.url t = .ok x := by
  unfold parseParen at h
  repeat' split at h
  all_goals first | (cases h; done) | exact ⟨_, h⟩

theorem encDependency_read {C : Codec} {t : Str} {d : EncDependency} (h : EncDependency.fromStr C t = .ok d) :
    (∀ v, d.version = some v → ∃ t, C.parseVersion t = some v) ∧
      ∀ x, d.source = some x → ∃ t, SourceId.fromUrl C.url t = .ok x := by
  unfold EncDependency.fromStr at h
  repeat' split at h
  all_goals first
    | (cases h; done)
    | (cases h; refine ⟨?_, ?_⟩ <;> simp only [reduceCtorEq, false_imp_iff, implies_true, Option.some.injEq] <;>
       try (rintro _ rfl; first
        | exact ⟨_, parseVersionO_ok (by assumption)⟩
        | (rename_i hp; exact paren_read hp)))

theorem readOpt_ok {α : Type} {f : Str → Outcome α} {o : Option Str} {x : α} (h : readOpt f o = .ok (some x)) :
    ∃ t, f t = .ok x := by
  cases o with
  | none => cases h
  | some s =>
    refine ⟨s, ?_⟩
    unfold readOpt at h
    simp only at h
    cases hs : f s <;> rw [hs] at h <;> cases h
    rfl

/-- What reading gives a package of a document. -/
structure EncRead (C : Codec) (p : EncPackage) : Prop where
  self : Read C p.version p.source
  checksum : ∀ c, p.checksum = some c → ∃ t, Checksum.fromStr t = .ok c
  dependencies : ∀ d ∈ p.dependencies, ∃ t, EncDependency.fromStr C t = .ok d
  replace : ∀ d, p.replace = some d → ∃ t, EncDependency.fromStr C t = .ok d

theorem pkgDoc_read {C : Codec} {d : PkgDoc} {p : EncPackage} (h : d.read C = .ok p) : EncRead C p := by
  unfold PkgDoc.read at h
  obtain ⟨v, hv, h⟩ := bindOk h
  obtain ⟨s, hs, h⟩ := bindOk h
  obtain ⟨c, hc, h⟩ := bindOk h
  obtain ⟨ds, hds, h⟩ := bindOk h
  obtain ⟨r, hr, h⟩ := bindOk h
  cases h
  refine ⟨⟨⟨_, parseVersionO_ok hv⟩, ?_⟩, ?_, ?_, ?_⟩
  · rintro x rfl; exact readOpt_ok hs
  · rintro x rfl; exact readOpt_ok hc
  · intro x hx
    obtain ⟨t, -, ht⟩ := forall2_right ((mapList_iff _ _ _).mp hds) x hx
    exact ⟨t, ht⟩
  · rintro x rfl; exact readOpt_ok hr

theorem resolve_read {C : Codec} {d : EncDependency} {ps : List EncPackage} {r : Dependency}
    (hd : ∃ t, EncDependency.fromStr C t = .ok d) (hps : ∀ p ∈ ps, EncRead C p) (h : d.resolve ps = .ok r) :
    Read C r.version r.source := by
  obtain ⟨t, ht⟩ := hd
  have hd := encDependency_read ht
  unfold EncDependency.resolve at h
  split at h
  · rename_i p hp
    cases h
    exact (hps p (List.mem_of_find?_eq_some hp)).self
  · split at h
    · rename_i v hv
      cases h
      exact ⟨hd.1 v hv, hd.2⟩
    · cases h

theorem resolvePackage_read {C : Codec} {p : EncPackage} {ps : List EncPackage} {r : Package}
    (hp : EncRead C p) (hps : ∀ p ∈ ps, EncRead C p) (h : p.resolve ps = .ok r) :
    Read C r.version r.source ∧ (∀ c, r.checksum = some c → ∃ t, Checksum.fromStr t = .ok c) ∧
      (∀ d ∈ r.dependencies, Read C d.version d.source) ∧ ∀ d, r.replace = some d → Read C d.version d.source := by
  unfold EncPackage.resolve at h
  obtain ⟨ds, hds, h⟩ := bindOk h
  obtain ⟨rp, hrp, h⟩ := bindOk h
  cases h
  refine ⟨hp.self, hp.checksum, ?_, ?_⟩
  · intro x hx
    obtain ⟨e, he, hr⟩ := forall2_right ((mapList_iff _ _ _).mp hds) x hx
    exact resolve_read (hp.dependencies e he) hps hr
  · rintro x rfl
    cases hq : p.replace with
    | none => rw [hq] at hrp; cases hrp
    | some e =>
      rw [hq] at hrp
      unfold resolveReplace at hrp
      simp only at hrp
      cases hs : e.resolve [] <;> rw [hs] at hrp <;> cases hrp
      exact resolve_read (hp.replace e hq) (by simp) hs

theorem findChecksum_read {C : Codec} {p : Package} {m : LockMetadata} {c : Checksum}
    (h : findChecksum C p m = .ok (some c)) : ∃ t, Checksum.fromStr t = .ok c := by
  induction m with
  | nil => cases h
  | cons e m ih =>
    obtain ⟨k, v⟩ := e
    unfold findChecksum at h
    repeat' split at h
    all_goals first
      | (cases h; done)
      | exact ih h
      | (cases h; exact ⟨_, by assumption⟩)

theorem decodePackage_read {C : Codec} {l : EncLockfile} {v : ResolveVersion} {p : EncPackage} {r : Package}
    (hp : EncRead C p) (hps : ∀ p ∈ l.package, EncRead C p) (h : decodePackage C l v p = .ok r) :
    Read C r.version r.source ∧ (∀ c, r.checksum = some c → ∃ t, Checksum.fromStr t = .ok c) ∧
      (∀ d ∈ r.dependencies, Read C d.version d.source) ∧ ∀ d, r.replace = some d → Read C d.version d.source := by
  unfold decodePackage at h
  split at h
  · obtain ⟨q, hq, h⟩ := bindOk h
    obtain ⟨c, hc, h⟩ := bindOk h
    cases h
    obtain ⟨h1, -, h3, h4⟩ := resolvePackage_read hp (by simp) hq
    refine ⟨h1, ?_, h3, h4⟩
    rintro x rfl
    exact findChecksum_read hc
  · exact resolvePackage_read hp hps h

/-- C79: the packages of a lockfile are such parts. -/
theorem C79_package_read (L : ReportLib) (d : LockDoc) (l : Lockfile) (h : Lockfile.parse (ReportLib.codec L) d = .ok l)
    (hs : LockSourcesKept l) : ∀ p ∈ l.packages, PackageRead L p := by
  intro p hp
  have hp' := hp
  unfold Lockfile.parse at h
  obtain ⟨raw, hraw, h⟩ := bindOk h
  unfold LockDoc.read at hraw
  obtain ⟨ps, hps, hraw⟩ := bindOk hraw
  obtain ⟨rt, -, hraw⟩ := bindOk hraw
  obtain ⟨pt, -, hraw⟩ := bindOk hraw
  cases hraw
  unfold EncLockfile.decode at h
  obtain ⟨v, -, h⟩ := bindOk h
  obtain ⟨qs, hqs, h⟩ := bindOk h
  obtain ⟨rt', -, h⟩ := bindOk h
  cases h
  have hall : ∀ p ∈ ps, EncRead (ReportLib.codec L) p := fun p hp => by
    obtain ⟨x, -, hx⟩ := forall2_right ((mapList_iff _ _ _).mp hps) p hp
    exact pkgDoc_read hx
  obtain ⟨e, he, hr⟩ := forall2_right ((mapList_iff _ _ _).mp hqs) p hp
  obtain ⟨h1, h2, h3, h4⟩ := decodePackage_read (hall e he) hall hr
  have hk := hs.packages p hp'
  have hk' := hs.dependencies p hp'
  exact {
    version := h1.1
    source := fun s e => ⟨h1.2 s e, hk s e⟩
    checksum := h2
    dependencies := fun d hd => ⟨(h3 d hd).1, fun s e => ⟨(h3 d hd).2 s e, hk' d (by simp [hd]) s e⟩⟩
    replace := fun d hd => ⟨(h4 d hd).1, fun s e => ⟨(h4 d hd).2 s e, hk' d (by simp [hd]) s e⟩⟩ }

end Verif.Props
